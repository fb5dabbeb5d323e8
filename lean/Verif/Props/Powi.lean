import Verif.Proofs.Powi

/-!
# C35, C36, C59: `sqr` and `powi`
-/

namespace Verif

open F64 Prim Util

/-- **C36.** For a normalized operand whose square does not overflow, `sqr` is normalized, not negative, and misses the exact
square by at most `9 * 2^-106` of it (less than `2^-102`) plus two units of the smallest subnormal. -/
theorem C36_sqr (a : Double) (ha : a.Normalized) (hr : |a.hi.toRat * a.hi.toRat| ≤ 2 ^ 1023) :
    a.sqr.Normalized ∧ 0 ≤ a.sqr.val ∧ |a.sqr.val - a.val ^ 2| ≤ 9 / 2 ^ 106 * a.val ^ 2 + 2 / 2 ^ 1074 := by
  obtain ⟨h, l, ia, hx⟩ := ha.norm2
  obtain ⟨zh, zl, iz, hz, hn, he⟩ := sqr_spec ia hx (range_mul ia.1 ia.1 hr)
  refine ⟨hz.normalized iz, ?_, ?_⟩
  · rw [iz.val]
    exact div_nonneg (by exact_mod_cast hn) one'_posQ.le
  · have e2 : |a.val ^ 2| = a.val ^ 2 := abs_of_nonneg (sq_nonneg _)
    have e3 : a.val ^ 2 = exactProd h l h l / one' := by rw [pow_two]; exact exactProd_val ia ia
    have h4 := lift_abs he
    rw [← e3, ← iz.val, e2, one'_pow] at h4
    exact h4

/-- **C36.** Without underflow the relative error of `sqr` is below `2^-102`. -/
theorem C36_sqr_relative (a : Double) (ha : a.Normalized) (hr : |a.hi.toRat * a.hi.toRat| ≤ 2 ^ 1023)
    (hu : 1 ≤ a.val ^ 2 * 2 ^ 969) : |a.sqr.val - a.val ^ 2| * 2 ^ 102 < a.val ^ 2 := by
  have h := (C36_sqr a ha hr).2.2
  have e : (2:ℚ) / 2 ^ 1074 ≤ 4 / 2 ^ 106 * a.val ^ 2 := by
    have h1 : (2:ℚ) / 2 ^ 1074 = 4 / 2 ^ 106 * (1 / 2 ^ 969) := by
      have : (2:ℚ) ^ 1074 = 2 ^ 105 * 2 ^ 969 := by rw [← pow_add]
      rw [this]; generalize (2:ℚ) ^ 969 = P; norm_num; ring
    rw [h1]
    apply mul_le_mul_of_nonneg_left _ (by norm_num)
    rw [div_le_iff₀ (by positivity)]; exact hu
  have hpos : 0 < a.val ^ 2 := by
    by_contra hc
    have h0 : a.val ^ 2 = 0 := le_antisymm (not_lt.mp hc) (sq_nonneg _)
    rw [h0] at hu
    norm_num at hu
  generalize a.sqr.val - a.val ^ 2 = D at *
  generalize a.val ^ 2 = T at *
  generalize (2:ℚ) / 2 ^ 1074 = c at *
  have : |D| ≤ 13 / 2 ^ 106 * T := by linarith
  calc |D| * 2 ^ 102 ≤ 13 / 2 ^ 106 * T * 2 ^ 102 := mul_le_mul_of_nonneg_right this (by positivity)
    _ = 13 / 16 * T := by ring
    _ < T := by linarith

example : Double.PI.Normalized ∧ |Double.PI.hi.toRat * Double.PI.hi.toRat| ≤ 2 ^ 1023 ∧
    1 ≤ Double.PI.val ^ 2 * 2 ^ 969 := by decide +kernel

/-- **C36.** The square of `-x` is the square of `x`, for all components. -/
theorem C36_sqr_neg (a : Double) : SameDouble (-a).sqr a.sqr := samD_iff.mp (oppD_neg a).sqr

/-- **C36.** Squares of infinities and NaN. -/
theorem C36_sqr_special (a : Double) : (a.isInfinite = true → a.sqr = Double.INFINITY) ∧
    (a.isNan = true → a.sqr.isNan = true) := by
  constructor
  · intro h; rw [sqr_eq, if_pos h]
  · intro h
    obtain ⟨s, hs⟩ := nan_hi h
    have : a.isInfinite = false := by unfold Double.isInfinite; rw [hs]; rfl
    rw [sqr_eq, this, if_neg (by simp)]
    unfold Double.isNan sqrMain twoSqr renorm2 quickTwoSum
    simp [hs, F64.mul, F64.fma, F64.add, F64.isNan]

/-! ## powi -/

/-- **C35.** `x.powi(0)` is 1 for every `x`, NaN included. -/
theorem C35_zero (a : Double) : a.powi 0 = some Double.ONE := rfl

/-- **C35.** `x.powi(1)` is `x` for every normalized `x`. -/
theorem C35_one (a : Double) (ha : a.Normalized) : ∃ r, a.powi 1 = some r ∧ SameDouble r a := by
  obtain ⟨h, l, ia, hx⟩ := ha.norm2
  by_cases h0 : h = 0
  · subst h0
    have := hx.hi_zero
    subst this
    rcases a with ⟨hi, lo⟩
    have ha' := ia.1
    rcases hi with _ | _ | ⟨s, m, hm⟩
    · simp [Is, F64.isFinite] at ha'
    · simp [Is, F64.isFinite] at ha'
    · rw [is_fin] at ha'
      have hm0 : m = 0 := sgn_eq_zero.mp ha'.symm
      cases s
      · refine ⟨Double.ZERO, ?_, ?_⟩
        · unfold Double.powi Double.prePowi
          rw [isZero_fin, isPos_fin, isNan_fin]
          simp [hm0]
        · exact same_of_dis dis_zero ia
      · refine ⟨Double.NEG_ZERO, ?_, ?_⟩
        · unfold Double.powi Double.prePowi
          rw [isZero_fin, isPos_fin, isNan_fin]
          simp [hm0]
        · exact same_of_dis (And.intro (is_of_num rfl) (is_of_num rfl)) ia
  · have hc := nonzero_class ia.1 h0
    refine ⟨_, powi_main (by norm_num) (by norm_num) hc.1 hc.2.1 hc.2.2, ?_⟩
    exact samD_iff.mp (samD_rfl _)

example : Double.PI.Normalized := by decide +kernel

/-- **C35.** `x.powi(-n)` is `1 / x.powi(n)` for every finite non-zero `x` and every `n > 0` an `i32` can hold. -/
theorem C35_recip (a : Double) (n : ℤ) (h1 : 0 < n) (h2 : n < 2 ^ 31) (ha : a.isNan = false) (hz : a.isZero = false)
    (hi : a.isInfinite = false) : ∃ r, a.powi n = some r ∧ a.powi (-n) = some (Double.ONE / r) := by
  refine ⟨powiPos a n.natAbs, ?_, ?_⟩
  · rw [powi_main h1.ne' (by rw [abs_of_pos h1]; exact h2) ha hz hi, if_neg (by omega)]
  · rw [powi_main (by omega) (by rw [abs_neg, abs_of_pos h1]; exact h2) ha hz hi, if_pos (by omega), Int.natAbs_neg]
    rfl

/-- **C35.** The exponents that are handled: all but `i32::MIN`, for which the call fails (`n.abs()` overflows). -/
theorem C35_total (a : Double) (n : ℤ) (h1 : -2 ^ 31 ≤ n) (h2 : n < 2 ^ 31) (ha : a.isNan = false)
    (hz : a.isZero = false) (hi : a.isInfinite = false) : (a.powi n).isSome = true ↔ n ≠ -2 ^ 31 := by
  constructor
  · rintro h rfl
    unfold Double.powi Double.prePowi i32? at h
    simp [ha, hz, hi] at h
  · intro hn
    by_cases h0 : n = 0
    · subst h0; rfl
    · rw [powi_main h0 (by rw [abs_lt]; constructor <;> omega) ha hz hi]; rfl

/-- **C35.** NaN, zero and infinite bases, for all exponents other than 0 (IEEE 754 `pown`). -/
theorem C35_special (a : Double) (n : ℤ) (hn : n ≠ 0) :
    (a.isNan = true → a.powi n = some Double.NAN) ∧
    (a.isZero = true → a.powi n = some (
      if 0 < n then (if Odd n ∧ a.isSignNegative = true then Double.NEG_ZERO else Double.ZERO)
      else (if Odd n ∧ a.isSignNegative = true then Double.NEG_INFINITY else Double.INFINITY))) ∧
    (a.isInfinite = true → a.powi n = some (
      if 0 < n then (if Odd n ∧ a.isSignNegative = true then Double.NEG_INFINITY else Double.INFINITY)
      else (if Odd n ∧ a.isSignNegative = true then Double.NEG_ZERO else Double.ZERO))) := by
  have hm : n.tmod 2 = 0 ↔ ¬ Odd n := by
    rw [Int.not_odd_iff_even, even_iff_two_dvd]; exact ⟨Int.dvd_of_tmod_eq_zero, Int.tmod_eq_zero_of_dvd⟩
  have hp : a.isSignPositive = !a.isSignNegative := rfl
  refine ⟨?_, ?_, ?_⟩
  · intro h; unfold Double.powi Double.prePowi; simp [hn, h]
  · intro h
    have h1 : a.isNan = false := by
      rcases a with ⟨(_ | _ | _), l⟩
      · simp [Double.isZero, F64.eq, F64.key] at h
      · rfl
      · rfl
    unfold Double.powi Double.prePowi
    simp only [hn, h1, h, hp, if_true, if_false]
    by_cases c1 : Odd n <;> by_cases c2 : 0 < n <;> cases hs : a.isSignNegative <;> simp [hm, c1, c2]
  · intro h
    have h1 : a.isNan = false ∧ a.isZero = false := by
      rcases a with ⟨(_ | _ | _), l⟩
      · simp [Double.isInfinite, F64.isInfinite] at h
      · exact ⟨rfl, isZero_inf _ _⟩
      · simp [Double.isInfinite, F64.isInfinite] at h
    unfold Double.powi Double.prePowi
    simp only [hn, h1, h, hp, if_true, if_false]
    by_cases c1 : Odd n <;> by_cases c2 : 0 < n <;> cases hs : a.isSignNegative <;> simp [hm, c1, c2]

/-- **C35.** Powers of whole numbers are exact as long as the result is at most `2^104` in magnitude. -/
theorem C35_int (a : Double) (m : ℤ) (n : ℕ) (ha : a.Normalized) (e : a.val = m) (hm : m ≠ 0) (hn : n < 2 ^ 31)
    (hb : |m ^ n| ≤ 2 ^ 104) : ∃ r, a.powi n = some r ∧ r.Normalized ∧ r.val = ((m ^ n : ℤ) : ℚ) := by
  by_cases h0 : n = 0
  · subst h0
    have h0 : Double.ONE.Normalized ∧ Double.ONE.val = ((1:ℤ) : ℚ) := by decide +kernel
    exact ⟨Double.ONE, rfl, by rw [pow_zero]; exact h0⟩
  · have hfin : a.isNan = false ∧ a.isZero = false ∧ a.isInfinite = false := by
      obtain ⟨h, l, ia, hx, e'⟩ := of_int ha e
      have hh : h ≠ 0 := by
        rintro rfl
        have := hx.hi_zero
        subst this
        have hp := one'_pos
        have : m * one' = 0 := by rw [← e']; ring
        rcases mul_eq_zero.mp this with h | h
        · exact hm h
        · exact hp.ne' h
      exact nonzero_class ia.1 hh
    refine ⟨powiPos a n, ?_, powiPos_int n (by omega) ha e hm hb⟩
    rw [powi_main (by exact_mod_cast h0) (by rw [abs_of_nonneg (by positivity)]; exact_mod_cast hn) hfin.1 hfin.2.1
      hfin.2.2, if_neg (by omega)]
    rfl

example : (Double.ofI64 (-3)).Normalized ∧ (Double.ofI64 (-3)).val = (-3 : ℤ) ∧ |(-3 : ℤ) ^ 65| ≤ 2 ^ 104 := by
  decide +kernel

/-! ### Sign -/

theorem SamD.powiLoop : ∀ (fuel i : ℕ) {r r' s s' : Double}, SamD r r' → SamD s s' →
    SamD (Double.powiLoop fuel i r s) (Double.powiLoop fuel i r' s') := by
  intro fuel
  induction fuel with
  | zero => intro i r r' s s' _ hs; exact hs
  | succ fuel ih =>
    intro i r r' s s' hr hs
    unfold Double.powiLoop
    by_cases h0 : i > 0
    · simp only [h0, if_true]
      apply ih
      · by_cases h2 : i / 2 > 0
        · simp only [h2, if_true]; exact hr.sqr
        · simp only [h2, if_false]; exact hr
      · by_cases h1 : i % 2 = 1
        · simp only [h1, if_true]; exact hs.mul hr
        · simp only [h1, if_false]; exact hs
    · simp only [h0, if_false]; exact hs

theorem OppD.powiLoop : ∀ (fuel i : ℕ) {r r' s s' : Double}, SamD r r' → OppD s s' →
    OppD (Double.powiLoop fuel i r s) (Double.powiLoop fuel i r' s') := by
  intro fuel
  induction fuel with
  | zero => intro i r r' s s' _ hs; exact hs
  | succ fuel ih =>
    intro i r r' s s' hr hs
    unfold Double.powiLoop
    by_cases h0 : i > 0
    · simp only [h0, if_true]
      apply ih
      · by_cases h2 : i / 2 > 0
        · simp only [h2, if_true]; exact hr.sqr
        · simp only [h2, if_false]; exact hr
      · by_cases h1 : i % 2 = 1
        · simp only [h1, if_true]; exact hs.mul_left hr
        · simp only [h1, if_false]; exact hs
    · simp only [h0, if_false]; exact hs

theorem samD_powiPos_neg (a : Double) (n : ℕ) (hn : 0 < n) :
    (n % 2 = 0 → SamD (powiPos a n) (powiPos (-a) n)) ∧ (n % 2 = 1 → OppD (powiPos a n) (powiPos (-a) n)) := by
  unfold powiPos
  by_cases h1 : n > 1
  · simp only [h1, if_true]
    obtain ⟨k, rfl⟩ : ∃ k, n = k + 1 := ⟨n - 1, by omega⟩
    have h2 : (k + 1) / 2 > 0 := by omega
    have h3 : k + 1 > 0 := by omega
    constructor
    · intro he
      have he' : ¬ (k + 1) % 2 = 1 := by omega
      unfold Double.powiLoop
      simp only [h3, if_true, he', if_false, h2]
      exact SamD.powiLoop _ _ (oppD_neg a).sqr (samD_rfl _)
    · intro he
      unfold Double.powiLoop
      simp only [h3, if_true, he, h2]
      exact OppD.powiLoop _ _ (oppD_neg a).sqr (OppD.mul_right (samD_rfl _) (oppD_neg a))
  · simp only [h1, if_false]
    have : n = 1 := by omega
    subst this
    exact ⟨by norm_num, fun _ => oppD_neg a⟩

theorem neg_class {a : Double} (ha : a.isNan = false) (hz : a.isZero = false) (hi : a.isInfinite = false) :
    (-a).isNan = false ∧ (-a).isZero = false ∧ (-a).isInfinite = false := by
  rw [neg_isNan, neg_isZero, neg_isInfinite]; exact ⟨ha, hz, hi⟩

/-- **C35.** The sign follows the parity of the exponent: for finite non-zero `x` and `n > 0`, `(-x).powi(n)` is the same
number as `x.powi(n)` when `n` is even and the same number as `-x.powi(n)` when `n` is odd. -/
theorem C35_sign (a : Double) (n : ℤ) (hn : 0 < n) (h1 : n < 2 ^ 31) (ha : a.isNan = false) (hz : a.isZero = false)
    (hi : a.isInfinite = false) : ∃ r s, a.powi n = some r ∧ (-a).powi n = some s ∧
      (Even n → SameDouble s r) ∧ (Odd n → SameDouble s (-r)) := by
  have hc := neg_class ha hz hi
  have h1' : |n| < 2 ^ 31 := by rw [abs_of_pos hn]; exact h1
  refine ⟨_, _, powi_main hn.ne' h1' ha hz hi, powi_main hn.ne' h1' hc.1 hc.2.1 hc.2.2, ?_, ?_⟩
  · intro he
    have he' : n.natAbs % 2 = 0 := by rw [← Nat.even_iff, Int.natAbs_even]; exact he
    have h := (samD_powiPos_neg a n.natAbs (by omega)).1 he'
    rw [if_neg (by omega), if_neg (by omega)]
    exact samD_iff.mp h
  · intro ho
    have ho' : n.natAbs % 2 = 1 := by rw [← Nat.odd_iff, Int.natAbs_odd]; exact ho
    have h := (samD_powiPos_neg a n.natAbs (by omega)).2 ho'
    rw [if_neg (by omega), if_neg (by omega)]
    exact samD_iff.mp ((oppD_neg _).symm.opp h)

theorem SamD.div_of {a b a' b' : Double} {m n : ℤ} (h : SamD a a') (h' : SamD b b') (ia : Is a.hi m) (ib : Is b.hi n)
    (hn : n ≠ 0) : SamD (a / b) (a' / b') := by
  rw [div_main_of ia ib hn, div_main_of (h.1.is ia) (h'.1.is ib) hn]
  have ib' := h'.1.is ib
  have h1 := Sam.div h.1 ib ib' hn
  have h2 := h.sub (SamD.mulF64 h' h1)
  have h3 := Sam.div h2.1 ib ib' hn
  have h4 := h2.sub (SamD.mulF64 h' h3)
  have h5 := Sam.div h4.1 ib ib' hn
  have h6 := SamP.renorm3 h1 h3 h5
  exact ⟨h6.1, h6.2⟩

/-- **C35.** The same for negative exponents, when the positive power is finite and did not underflow to zero. -/
theorem C35_sign_recip (a : Double) (n : ℤ) (hn : 0 < n) (h1 : n < 2 ^ 31) (ha : a.isNan = false) (hz : a.isZero = false)
    (hi : a.isInfinite = false) (p : Double) (hp : a.powi n = some p) (hpf : p.isFinite = true) (hpz : p.isZero = false) :
    ∃ r s, a.powi (-n) = some r ∧ (-a).powi (-n) = some s ∧ (Even n → SameDouble s r) ∧ (Odd n → SameDouble s (-r)) := by
  have hc := neg_class ha hz hi
  have h1' : |(-n)| < 2 ^ 31 := by rw [abs_neg, abs_of_pos hn]; exact h1
  have h1'' : |n| < 2 ^ 31 := by rw [abs_of_pos hn]; exact h1
  have hpe : powiPos a n.natAbs = p := by
    rw [powi_main hn.ne' h1'' ha hz hi, if_neg (by omega)] at hp
    exact Option.some.inj hp
  obtain ⟨k, ik, hk⟩ : ∃ k, Is (powiPos a n.natAbs).hi k ∧ k ≠ 0 := by
    rw [hpe]
    rcases p with ⟨ph, pl⟩
    rcases ph with _ | _ | ⟨s, m, hm⟩
    · simp [Double.isFinite, F64.isFinite] at hpf
    · simp [Double.isFinite, F64.isFinite] at hpf
    · rw [isZero_fin] at hpz
      refine ⟨_, ⟨rfl, rfl⟩, ?_⟩
      change (if s then -(m:ℤ) else m) ≠ 0
      intro h0
      rw [sgn_eq_zero.mp h0] at hpz
      simp at hpz
  refine ⟨_, _, powi_main (by omega) h1' ha hz hi, powi_main (by omega) h1' hc.1 hc.2.1 hc.2.2, ?_, ?_⟩
  · intro he
    have he' : n.natAbs % 2 = 0 := by rw [← Nat.even_iff, Int.natAbs_even]; exact he
    have h := (samD_powiPos_neg a n.natAbs (by omega)).1 he'
    rw [if_pos (by omega), if_pos (by omega), Int.natAbs_neg]
    exact samD_iff.mp (SamD.div_of (samD_rfl _) h dis_one.1 ik hk)
  · intro ho
    have ho' : n.natAbs % 2 = 1 := by rw [← Nat.odd_iff, Int.natAbs_odd]; exact ho
    have h := (samD_powiPos_neg a n.natAbs (by omega)).2 ho'
    rw [if_pos (by omega), if_pos (by omega), Int.natAbs_neg]
    have h3 : SamD (Double.ONE / -powiPos a n.natAbs) (Double.ONE / powiPos (-a) n.natAbs) :=
      SamD.div_of (samD_rfl _) ((oppD_neg _).symm.opp h) dis_one.1 ik.neg (by omega)
    exact samD_iff.mp (((oppD_neg _).symm.opp (oppD_div_right _ _)).trans h3)

example : Double.PI.isNan = false ∧ Double.PI.isZero = false ∧ Double.PI.isInfinite = false := by decide +kernel

/-! ### Accuracy -/

/-- The relative error of one step. -/
def eps102 : ℚ := 1 / 2 ^ 102

theorem safe_pow {x : ℚ} {k n : ℕ} (hk : k ≤ n) (h : SafeVal (x ^ n)) : SafeVal (x ^ k) := by
  obtain ⟨h1, h2⟩ := h
  unfold SafeVal
  rw [abs_pow] at h1 h2 ⊢
  have hone : (1:ℚ) ≤ 2 ^ 960 := one_le_pow₀ (by norm_num)
  have hone' : (1:ℚ) ≤ 2 ^ 1020 := one_le_pow₀ (by norm_num)
  have hpos : (0:ℚ) < 2 ^ 960 := by positivity
  rcases le_total 1 |x| with hx | hx
  · have a1 : 1 ≤ |x| ^ k := one_le_pow₀ hx
    have a2 : |x| ^ k ≤ |x| ^ n := pow_le_pow_right₀ hx hk
    exact ⟨one_le_mul_of_one_le_of_one_le a1 hone, a2.trans h2⟩
  · have a1 : |x| ^ k ≤ 1 := pow_le_one₀ (abs_nonneg _) hx
    have a2 : |x| ^ n ≤ |x| ^ k := pow_le_pow_of_le_one (abs_nonneg _) hx hk
    exact ⟨h1.trans (mul_le_mul_of_nonneg_right a2 hpos.le), a1.trans hone'⟩

theorem mul_step {a b : Double} {x y : ℚ} {j k : ℕ} (ha : a.Normalized) (hb : b.Normalized) (ra : RelK eps102 a.val x j)
    (rb : RelK eps102 b.val y k) (hj : j ≤ 2 ^ 31) (hk : k ≤ 2 ^ 31) (hs : SafeVal (x * y)) :
    |a.hi.toRat * b.hi.toRat| ≤ 2 ^ 1023 ∧ 1 ≤ |a.val * b.val| * 2 ^ 969 ∧ a.val * b.val ≠ 0 := by
  have e0 : (0:ℚ) ≤ eps102 := by unfold eps102; positivity
  have e1 : eps102 ≤ 1 := by unfold eps102; norm_num
  have c : ∀ {i : ℕ}, i ≤ 2 ^ 31 → (i : ℚ) * eps102 ≤ 1 / 2 := by
    intro i hi
    have : (i : ℚ) ≤ 2 ^ 31 := by exact_mod_cast hi
    unfold eps102
    calc (i:ℚ) * (1 / 2 ^ 102) ≤ 2 ^ 31 * (1 / 2 ^ 102) := mul_le_mul_of_nonneg_right this (by positivity)
      _ ≤ 1 / 2 := by norm_num
  obtain ⟨a1, a2⟩ := ra.abs_bounds e0 e1 (c hj)
  obtain ⟨b1, b2⟩ := rb.abs_bounds e0 e1 (c hk)
  apply safe_ranges ha hb hs
  · rw [abs_mul, abs_mul]
    have := mul_le_mul a2 b2 (abs_nonneg _) (by positivity)
    linarith
  · rw [abs_mul, abs_mul]
    have := mul_le_mul a1 b1 (by positivity) (abs_nonneg _)
    linarith

theorem powiPos_rel {a : Double} (n : ℕ) (hn : 0 < n) (hn2 : n < 2 ^ 31) (ha : a.Normalized) (hs : SafeVal (a.val ^ n)) :
    (powiPos a n).Normalized ∧ RelK eps102 (powiPos a n).val (a.val ^ n) n := by
  have e0 : (0:ℚ) ≤ eps102 := by unfold eps102; positivity
  have e1 : eps102 ≤ 1 := by unfold eps102; norm_num
  unfold powiPos
  by_cases h1 : n > 1
  · rw [if_pos h1]
    have h0 : Double.ONE.Normalized ∧ Double.ONE.val = 1 := by decide +kernel
    have key := powiLoop_ind (P := fun d k => 0 < k ∧ d.Normalized ∧ RelK eps102 d.val (a.val ^ k) (k - 1))
      (Q := fun d k => k ≤ n ∧ d.Normalized ∧ RelK eps102 d.val (a.val ^ k) k) (n := n) ?_ ?_ n n a Double.ONE 0 1 le_rfl
      ?_ ?_ ?_
    · exact key.2
    · rintro r k ⟨hk0, hr, rr⟩ hk
      have e2 : a.val ^ (2 * k) = a.val ^ k * a.val ^ k := by rw [two_mul, pow_add]
      have hsafe := safe_pow hk hs
      rw [e2] at hsafe ⊢
      obtain ⟨g1, g2, g3⟩ := mul_step hr hr rr rr (by omega) (by omega) hsafe
      have hnn : 0 ≤ r.val * r.val := mul_self_nonneg _
      rw [abs_of_nonneg hnn, ← pow_two] at g2
      have hrel := C36_sqr_relative r hr g1 g2
      refine ⟨by omega, (C36_sqr r hr g1).1, ?_⟩
      have st : RelK eps102 r.sqr.val (r.val * r.val) 1 := by
        apply RelK.one_step g3
        rw [abs_of_nonneg hnn, ← pow_two]
        unfold eps102
        rw [div_mul_eq_mul_div, one_mul, le_div_iff₀ (by positivity)]
        exact hrel.le
      have := st.trans e1 (rr.mul e1 rr)
      exact this.mono e0 e1 (by omega)
    · rintro s r j k ⟨hj, hs', rs'⟩ ⟨hk0, hr, rr⟩ hk
      have hsafe := safe_pow hk hs
      rw [pow_add] at hsafe ⊢
      obtain ⟨g1, g2, g3⟩ := mul_step hs' hr rs' rr (by omega) (by omega) hsafe
      have hrel := C03_mul_relative s r hs' hr g1 g2
      refine ⟨hk, (C03_mul s r hs' hr g1).1, ?_⟩
      have st : RelK eps102 (s * r).val (s.val * r.val) 1 := by
        apply RelK.one_step g3
        unfold eps102
        rw [div_mul_eq_mul_div, one_mul, le_div_iff₀ (by positivity)]
        exact hrel.le
      have := st.trans e1 (rs'.mul e1 rr)
      exact this.mono e0 e1 (by omega)
    · exact ⟨Nat.zero_le _, h0.1, by rw [h0.2, pow_zero]; exact RelK.refl _ _⟩
    · exact ⟨Nat.one_pos, ha, by rw [pow_one]; exact RelK.refl _ _⟩
    · ring
  · have : n = 1 := by omega
    subst this
    rw [if_neg h1, pow_one]
    exact ⟨ha, (RelK.refl _ _).mono e0 e1 (by omega)⟩

theorem val_class {a : Double} (ha : a.Normalized) (h : a.val ≠ 0) :
    a.isNan = false ∧ a.isZero = false ∧ a.isInfinite = false := by
  obtain ⟨xh, xl, ia, hx⟩ := ha.norm2
  apply nonzero_class ia.1
  rintro rfl
  have := hx.hi_zero
  subst this
  apply h
  rw [ia.val]; simp

/-- **C59.** Accuracy of `powi` with a positive exponent: while `x^n` stays between `2^-960` and `2^1020` in magnitude, the
result is normalized and its relative error is at most `n * 2^-101`. -/
theorem C59_powi_accurate (a : Double) (n : ℕ) (hn : 0 < n) (hn2 : n < 2 ^ 31) (ha : a.Normalized)
    (h1 : 1 ≤ |a.val ^ n| * 2 ^ 960) (h2 : |a.val ^ n| ≤ 2 ^ 1020) :
    ∃ r, a.powi n = some r ∧ r.Normalized ∧ |r.val - a.val ^ n| * 2 ^ 101 ≤ n * |a.val ^ n| := by
  have hs : SafeVal (a.val ^ n) := ⟨h1, h2⟩
  have hne : a.val ≠ 0 := by
    intro hc
    apply hs.ne
    rw [hc]; exact zero_pow hn.ne'
  have hc := val_class ha hne
  have key := powiPos_rel n hn hn2 ha hs
  refine ⟨powiPos a n, ?_, key.1, ?_⟩
  · rw [powi_main (by omega) (by rw [abs_of_nonneg (by positivity)]; exact_mod_cast hn2) hc.1 hc.2.1 hc.2.2,
      if_neg (by omega)]
    rfl
  · have hnq : (n : ℚ) ≤ 2 ^ 31 := by exact_mod_cast hn2.le
    have b := key.2.bound (by unfold eps102; positivity) (by unfold eps102; norm_num) (by
      unfold eps102
      calc (n:ℚ) * (1 / 2 ^ 102) ≤ 2 ^ 31 * (1 / 2 ^ 102) := mul_le_mul_of_nonneg_right hnq (by positivity)
        _ ≤ 1 / 2 := by norm_num)
    calc |(powiPos a n).val - a.val ^ n| * 2 ^ 101 ≤ 2 * (n * eps102) * |a.val ^ n| * 2 ^ 101 :=
          mul_le_mul_of_nonneg_right b (by positivity)
      _ = n * |a.val ^ n| := by unfold eps102; ring

/-- **C59.** Accuracy of `powi` with a negative exponent: same range, relative error at most `(n + 1) * 2^-100`. -/
theorem C59_powi_neg_accurate (a : Double) (n : ℕ) (hn : 0 < n) (hn2 : n < 2 ^ 31) (ha : a.Normalized)
    (h1 : 1 ≤ |a.val ^ n| * 2 ^ 960) (h2 : |a.val ^ n| ≤ 2 ^ 960) :
    ∃ r, a.powi (-n) = some r ∧ r.Normalized ∧
      |r.val - (a.val ^ n)⁻¹| * 2 ^ 100 ≤ (n + 1) * |(a.val ^ n)⁻¹| := by
  have hbig : (2:ℚ) ^ 960 ≤ 2 ^ 1020 := pow_le_pow_right₀ (by norm_num) (by norm_num)
  have hs : SafeVal (a.val ^ n) := ⟨h1, h2.trans hbig⟩
  have hne : a.val ≠ 0 := by
    intro hc
    apply hs.ne
    rw [hc]; exact zero_pow hn.ne'
  have hc := val_class ha hne
  obtain ⟨kn, kr⟩ := powiPos_rel n hn hn2 ha hs
  have e0 : (0:ℚ) ≤ eps102 := by unfold eps102; positivity
  have e1 : eps102 ≤ 1 := by unfold eps102; norm_num
  have hnq : (n : ℚ) ≤ 2 ^ 31 := by exact_mod_cast hn2.le
  have ke : (n:ℚ) * eps102 ≤ 1 / 2 := by
    unfold eps102
    calc (n:ℚ) * (1 / 2 ^ 102) ≤ 2 ^ 31 * (1 / 2 ^ 102) := mul_le_mul_of_nonneg_right hnq (by positivity)
      _ ≤ 1 / 2 := by norm_num
  obtain ⟨b1, b2⟩ := kr.abs_bounds e0 e1 ke
  have hb := kr.bound e0 e1 ke
  generalize hp : powiPos a n = p at *
  have ht := hs.ne
  generalize a.val ^ n = t at *
  have htp : 0 < |t| := abs_pos.mpr ht
  have hv : p.val ≠ 0 := by
    intro hc
    rw [hc, abs_zero] at b1
    clear h1 h2 hbig hb
    linarith
  have hvp : 0 < |p.val| := abs_pos.mpr hv
  have hh := hi_val kn
  have hhp : 0 < |p.hi.toRat| := by
    by_contra hc
    have h0 : |p.hi.toRat| = 0 := le_antisymm (not_lt.mp hc) (abs_nonneg _)
    rw [h0, zero_mul] at hh
    linarith [hh.2]
  have hone : Double.ONE.Normalized ∧ Double.ONE.val = 1 ∧ Double.ONE.hi.toRat = 1 := by decide +kernel
  have P960 : (1:ℚ) ≤ 2 ^ 960 := one_le_pow₀ (by norm_num)
  have hd := C04_div Double.ONE p hone.1 kn (abs_pos.mp hhp)
    (by rw [hone.2.2, abs_one, one_mul]; exact one_le_pow₀ (by norm_num))
    (by rw [hone.2.2, abs_one]; exact one_le_pow₀ (by norm_num))
    (by
      rw [hone.2.2, abs_div, abs_one, div_mul_eq_mul_div, one_mul, le_div_iff₀ hhp, one_mul]
      have e : (2:ℚ) ^ 962 = 4 * 2 ^ 960 := by rw [show (4:ℚ) = 2 ^ 2 by norm_num, ← pow_add]
      rw [e]
      have h5 := hh.1
      generalize (2:ℚ) ^ 960 = K at *
      clear h1 hbig hb ke e0 e1 hs e
      have h6 : |p.hi.toRat| ≤ |p.val| * 2 := by
        refine h5.trans (mul_le_mul_of_nonneg_left (by norm_num) hvp.le)
      linarith)
    (by
      rw [hone.2.2, abs_div, abs_one, div_le_iff₀ hhp]
      have e : (2:ℚ) ^ 1020 = 2 ^ 60 * 2 ^ 960 := by rw [← pow_add]
      rw [e]
      have h3 : |t| ≤ |p.hi.toRat| * 4 := by linarith [hh.2]
      have h4 : |t| * 2 ^ 960 ≤ |p.hi.toRat| * 4 * 2 ^ 960 := mul_le_mul_of_nonneg_right h3 (by positivity)
      generalize (2:ℚ) ^ 960 = K at *
      have h5 : 0 ≤ |p.hi.toRat| * K := mul_nonneg hhp.le (by linarith)
      have e5 : 2 ^ 60 * K * |p.hi.toRat| = 2 ^ 60 * (|p.hi.toRat| * K) := by ring
      have e6 : |p.hi.toRat| * 4 * K = 4 * (|p.hi.toRat| * K) := by ring
      rw [e5]; rw [e6] at h4
      norm_num
      linarith)
  refine ⟨Double.ONE / p, ?_, hd.1, ?_⟩
  · rw [powi_main (by omega) (by rw [abs_neg, abs_of_nonneg (by positivity)]; exact_mod_cast hn2) hc.1 hc.2.1 hc.2.2,
      if_pos (by omega), Int.natAbs_neg, Int.natAbs_natCast, hp]
    rfl
  · have hd2 := hd.2
    rw [hone.2.1, one_div] at hd2
    generalize (Double.ONE / p).val = z at *
    have e3 : |p.val⁻¹ - t⁻¹| ≤ 4 * (n * eps102) * |t⁻¹| := by
      rw [show p.val⁻¹ - t⁻¹ = (t - p.val) / (p.val * t) by field_simp, abs_div, abs_mul, abs_inv, abs_sub_comm,
        div_le_iff₀ (by positivity)]
      have e : 4 * (n * eps102) * |t|⁻¹ * (|p.val| * |t|) = 4 * (n * eps102) * |p.val| := by field_simp
      rw [e]
      have hnn : 0 ≤ n * eps102 := by positivity
      refine hb.trans ?_
      have := mul_le_mul_of_nonneg_left b1 hnn
      linarith
    have e4 : |p.val⁻¹| ≤ 2 * |t⁻¹| := by
      rw [abs_inv, abs_inv, ← div_eq_mul_inv, ← one_div, div_le_div_iff₀ hvp htp]; linarith
    have t1 := abs_add_le (z - p.val⁻¹) (p.val⁻¹ - t⁻¹)
    rw [sub_add_sub_cancel] at t1
    have hd3 : |z - p.val⁻¹| ≤ |p.val⁻¹| / 2 ^ 102 := by
      rw [le_div_iff₀ (by positivity)]; exact hd2.le
    have ht0 := abs_nonneg t⁻¹
    have e5 : |z - t⁻¹| ≤ 2 * |t⁻¹| / 2 ^ 102 + 4 * (n * (1 / 2 ^ 102)) * |t⁻¹| := by
      unfold eps102 at e3
      linarith
    calc |z - t⁻¹| * 2 ^ 100 ≤ (2 * |t⁻¹| / 2 ^ 102 + 4 * (n * (1 / 2 ^ 102)) * |t⁻¹|) * 2 ^ 100 :=
          mul_le_mul_of_nonneg_right e5 (by positivity)
      _ = |t⁻¹| / 2 + n * |t⁻¹| := by ring
      _ ≤ (n + 1) * |t⁻¹| := by linarith

example : Double.PI.Normalized ∧ 1 ≤ |Double.PI.val ^ 20| * 2 ^ 960 ∧ |Double.PI.val ^ 20| ≤ 2 ^ 960 := by decide +kernel

end Verif
