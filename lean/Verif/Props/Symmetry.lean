import Verif.Proofs.Ident
import Verif.Proofs.Lift

/-!
# C02 (second part), C05, C06, C07: symmetries and identities
-/

namespace Verif

open F64 Prim

/-! ### C02, second part -/

/-- **C02.** For all Doubles whatsoever (also infinite, NaN, unnormalized, overflowing) `a - b` is the same number,
component by component, as `a + (-b)`. -/
theorem C02_sub_eq_add_neg (a b : Double) : SameDouble (a - b) (a + -b) := samD_iff.mp (samD_sub_add_neg a b).symm

/-! ### C05 -/

/-- No-overflow condition on a pair of components: if both are finite their magnitudes add up to at most
`3 * 2^1022` (three quarters of the overflow threshold). Nothing is required when one is infinite or NaN. -/
def InRange (x y : F64) : Prop :=
  x.isFinite = true → y.isFinite = true → |x.toRat| + |y.toRat| ≤ 3 * 2 ^ 1022

theorem lim_one' : lim = 3 * 2 ^ 1022 * one' := by
  unfold lim one'; rw [mul_assoc, ← pow_add]

theorem range3 {x y : F64} {m n : ℤ} (hx : Is x m) (hy : Is y n) (h : |x.toRat| + |y.toRat| ≤ 3 * 2 ^ 1022) :
    |m| + |n| ≤ lim := by
  rw [hx.toRat, hy.toRat, abs_div_one', abs_div_one', ← add_div, div_le_iff₀ one'_posQ] at h
  rw [lim_one']
  exact_mod_cast h

theorem Num.add_nan_right (a : Num) : a.add .nan = .nan := by cases a <;> rfl
theorem Num.add_nan_left (a : Num) : Num.nan.add a = .nan := rfl

theorem num_twoSum_snd (a b : F64) (h : ¬ (a.isFinite = true ∧ b.isFinite = true)) : num (twoSum a b).2 = .nan := by
  unfold twoSum
  simp only [num_add, num_sub]
  cases a with
  | nan s => rfl
  | inf s =>
    cases b with
    | nan t => rfl
    | inf t => cases s <;> cases t <;> rfl
    | fin t n hn => cases s <;> rfl
  | fin s m hm =>
    cases b with
    | nan t => rfl
    | inf t =>
      rw [num_fin, num_inf]
      cases t <;> rfl
    | fin t n hn => exact absurd ⟨rfl, rfl⟩ h

theorem samP_twoSum_comm (a b : F64) (h : InRange a b) : SamP (twoSum a b) (twoSum b a) := by
  by_cases hf : a.isFinite = true ∧ b.isFinite = true
  · have i1 := is_twoSum (Is.of_finite hf.1) (Is.of_finite hf.2)
      (range3 (Is.of_finite hf.1) (Is.of_finite hf.2) (h hf.1 hf.2))
    have i2 := is_twoSum (Is.of_finite hf.2) (Is.of_finite hf.1)
      (range3 (Is.of_finite hf.2) (Is.of_finite hf.1) (by rw [add_comm]; exact h hf.1 hf.2))
    rw [rs_comm, re_comm] at i2
    exact ⟨(num_of_is i2.1).trans (num_of_is i1.1).symm, (num_of_is i2.2).trans (num_of_is i1.2).symm⟩
  · refine ⟨Sam.add_comm _ _, ?_⟩
    unfold Sam
    rw [num_twoSum_snd a b hf, num_twoSum_snd b a (fun h => hf ⟨h.2, h.1⟩)]

/-- **C05 (partial).** `a + b` and `b + a` are the same number for all operands including infinities, NaN and
unnormalized values, except when finite components are so large that their sum comes near the overflow threshold.
Missing: that range; there the property is false, see `C05_refuted`. -/
theorem C05_add_comm_partial (a b : Double) (h0 : InRange a.hi b.hi) (h1 : InRange a.lo b.lo) :
    SameDouble (a + b) (b + a) := by
  rw [← samD_iff]
  rw [add_eq, add_eq, preAddN_comm (num a.hi)]
  have hp : SamP (twoSum b.hi a.hi) (twoSum a.hi b.hi) := samP_twoSum_comm _ _ (fun x y => by
    rw [add_comm]; exact h0 y x)
  have hq : SamP (twoSum b.lo a.lo) (twoSum a.lo b.lo) := samP_twoSum_comm _ _ (fun x y => by
    rw [add_comm]; exact h1 y x)
  exact SamD.getD (SamD.addMain hp hq)

/-- The largest finite `f64`. -/
def bigX : Double := ⟨ofRound false ((2 ^ 53 - 1) * 2 ^ 2045) 1, zero⟩
/-- Minus one and a half units in the last place of `bigX`. -/
def bigY : Double := ⟨ofRound true (3 * 2 ^ 2044) 1, zero⟩

/-- C05 fails near overflow: two normalized operands whose sum is finite in one order and NaN in the other. -/
theorem C05_refuted : bigX.Normalized ∧ bigY.Normalized ∧ (bigX + bigY).Fin ∧ (bigY + bigX).lo.isNan = true ∧
    ¬ SameDouble (bigX + bigY) (bigY + bigX) := by
  have h : bigX.Normalized ∧ bigY.Normalized ∧ ((bigX + bigY).hi.isFinite = true ∧ (bigX + bigY).lo.isFinite = true)
      ∧ (bigY + bigX).lo.isNan = true := by decide +kernel
  refine ⟨h.1, h.2.1, h.2.2.1, h.2.2.2, ?_⟩
  rintro ⟨_, h1⟩
  rcases h1 with h1 | h1
  · have := h.2.2.1.2
    revert this h1
    cases (bigX + bigY).lo <;> simp [F64.isNan, F64.isFinite]
  · have := h.2.2.2
    revert this h1
    cases (bigY + bigX).lo <;> cases (bigX + bigY).lo <;> simp [F64.isNan, F64.eq, F64.key]

/-- Cases that meet the hypotheses: pi and e, and an infinity with the largest `f64`. -/
example : InRange Double.PI.hi Double.E.hi ∧ InRange Double.PI.lo Double.E.lo :=
  ⟨fun _ _ => by decide +kernel, fun _ _ => by decide +kernel⟩
example : InRange Double.INFINITY.hi bigX.hi ∧ InRange Double.INFINITY.lo bigX.lo :=
  ⟨fun h => absurd h (by decide +kernel), fun _ _ => by decide +kernel⟩

/-! ### C06 -/

/-- **C06.** Negating twice gives back the identical Double. -/
theorem C06_neg_neg (a : Double) : - -a = a := by
  obtain ⟨h, l⟩ := a
  change Double.mk h.neg.neg l.neg.neg = ⟨h, l⟩
  cases h <;> cases l <;> simp [F64.neg]

/-- **C06.** `(-a) + (-b)` is the number `-(a + b)`, for all Doubles. -/
theorem C06_add_neg (a b : Double) : SameDouble (-a + -b) (-(a + b)) :=
  samD_iff.mp (((oppD_neg (a + b)).symm.opp ((oppD_neg a).add (oppD_neg b))))

/-- **C06.** `(-a) - (-b)` is the number `-(a - b)`, for all Doubles. -/
theorem C06_sub_neg (a b : Double) : SameDouble (-a - -b) (-(a - b)) :=
  samD_iff.mp (((oppD_neg (a - b)).symm.opp ((oppD_neg a).sub (oppD_neg b))))

/-- **C06.** `(-a) * b` is the number `-(a * b)`, for all Doubles. -/
theorem C06_mul_neg_left (a b : Double) : SameDouble (-a * b) (-(a * b)) :=
  samD_iff.mp (((oppD_neg (a * b)).symm.opp ((oppD_neg a).mul_left (samD_rfl b))))

/-- **C06.** `a * (-b)` is the number `-(a * b)`, for all Doubles. -/
theorem C06_mul_neg_right (a b : Double) : SameDouble (a * -b) (-(a * b)) :=
  samD_iff.mp (((oppD_neg (a * b)).symm.opp (OppD.mul_right (samD_rfl a) (oppD_neg b))))

/-- **C06.** `(-a) / b` is the number `-(a / b)`, for all Doubles. -/
theorem C06_div_neg_left (a b : Double) : SameDouble (-a / b) (-(a / b)) :=
  samD_iff.mp ((oppD_neg (a / b)).symm.opp (oppD_div_left a b))

/-- **C06.** `a / (-b)` is the number `-(a / b)`, for all Doubles. -/
theorem C06_div_neg_right (a b : Double) : SameDouble (a / -b) (-(a / b)) :=
  samD_iff.mp ((oppD_neg (a / b)).symm.opp (oppD_div_right a b))

/-! ### C07 -/

theorem same_of_dis {a b : Double} {h l : ℤ} (ia : DIs a h l) (ib : DIs b h l) : SameDouble a b :=
  samD_iff.mp (samD_of_dis ib ia)

/-- **C07.** `a + 0 = a` and `0 + a = a` for every normalized `a` (up to the largest one: no range restriction). -/
theorem C07_add_zero (a : Double) (ha : a.Normalized) :
    SameDouble (a + Double.ZERO) a ∧ SameDouble (Double.ZERO + a) a := by
  obtain ⟨h, l, i, n⟩ := ha.norm2
  exact ⟨same_of_dis (dis_add_zero i n dis_zero) i, same_of_dis (dis_zero_add i n dis_zero) i⟩

/-- **C07.** `a - a = 0` for every finite `a` (normalized or not), and `a - 0 = a` for normalized `a`. -/
theorem C07_sub_self (a : Double) (ha : a.Fin) : SameDouble (a - a) Double.ZERO :=
  same_of_dis (dis_sub_self (.of_fin ha) (.of_fin ha)) dis_zero

theorem C07_sub_zero (a : Double) (ha : a.Normalized) : SameDouble (a - Double.ZERO) a := by
  obtain ⟨h, l, i, n⟩ := ha.norm2
  exact same_of_dis (dis_sub_zero i n dis_zero) i

/-- **C07.** `a * 1 = a` and `1 * a = a` for every normalized `a`. -/
theorem C07_mul_one (a : Double) (ha : a.Normalized) :
    SameDouble (a * Double.ONE) a ∧ SameDouble (Double.ONE * a) a := by
  obtain ⟨h, l, i, n⟩ := ha.norm2
  exact ⟨same_of_dis (dis_mul_one i n dis_one) i, same_of_dis (dis_one_mul i n dis_one) i⟩

/-- **C07.** `a / 1 = a` for every normalized `a`. -/
theorem C07_div_one (a : Double) (ha : a.Normalized) : SameDouble (a / Double.ONE) a := by
  obtain ⟨h, l, i, n⟩ := ha.norm2
  exact same_of_dis (dis_div_one i n dis_one) i

/-- **C07.** `a / a = 1` for every normalized non-zero `a`. -/
theorem C07_div_self (a : Double) (ha : a.Normalized) (h0 : a.val ≠ 0) : SameDouble (a / a) Double.ONE := by
  obtain ⟨h, l, i, n⟩ := ha.norm2
  refine same_of_dis (dis_div_self i i n ?_) dis_one
  rintro rfl
  apply h0
  rw [i.val, n.hi_zero]; simp

/-- Cases that meet the hypotheses: the largest Double. -/
example : Double.MAX.Normalized ∧ Double.MAX.val ≠ 0 := by decide +kernel

end Verif
