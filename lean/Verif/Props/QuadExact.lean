import Verif.Proofs.QuadGrid
import Verif.Proofs.QuadExp
import Verif.Props.QuadAdd
import Verif.Props.QuadMul
import Verif.Props.QuadFuncSpecial
import Verif.Props.QuadUnit

/-!
# C90: Quad sums, differences and products of whole numbers and binary fractions are exact while they fit
-/

namespace Verif

open F64 Prim Util

/-- A multiple of `2 ^ e` in units. -/
theorem grid_units {z : ℤ} {m e : ℤ} (he : -1074 ≤ e) (h : (z : ℚ) / one' = m * (2:ℚ) ^ e) : z = m * 2 ^ (e + 1074).toNat := by
  have hp := one'_ne
  rw [div_eq_iff hp, mul_assoc] at h
  have e1 : (2:ℚ) ^ e * one' = 2 ^ (e + 1074).toNat := by
    rw [one'_pow, ← zpow_natCast, ← zpow_natCast, ← zpow_add₀ (by norm_num)]
    congr 1
    rw [Int.toNat_of_nonneg (by omega)]
    norm_num
  rw [e1] at h
  exact_mod_cast h

theorem units_grid {z : ℤ} {e : ℤ} (he : -1074 ≤ e) (h : (2:ℤ) ^ (e + 1074).toNat ∣ z) : ∃ m : ℤ, (z : ℚ) / one' = m * (2:ℚ) ^ e := by
  obtain ⟨m, rfl⟩ := h
  refine ⟨m, ?_⟩
  have hp := one'_ne
  rw [div_eq_iff hp, mul_assoc]
  have e1 : (2:ℚ) ^ e * one' = 2 ^ (e + 1074).toNat := by
    rw [one'_pow, ← zpow_natCast, ← zpow_natCast, ← zpow_add₀ (by norm_num)]
    congr 1
    rw [Int.toNat_of_nonneg (by omega)]
    norm_num
  rw [e1]
  push_cast
  ring

theorem grq_of {a : Quad} {m e : ℤ} (ha : a.Normalized) (he : -1074 ≤ e) (h : a.val = m * (2:ℚ) ^ e) : GrQ (e + 1074).toNat a := by
  have q := QIs.of_fin ha.1
  obtain ⟨n1, n2, n3⟩ := q.normalized_iff.mp ha
  rw [q.val] at h
  have h1 := grid_units he h
  have h2 : (2:ℤ) ^ (e + 1074).toNat ∣ a.c0.units + a.c1.units + a.c2.units + a.c3.units := ⟨m, by rw [mul_comm]; exact h1⟩
  exact norm4_dvd n1 n2 n3 h2

theorem GrQ.val {a : Quad} {e : ℤ} (fa : a.Fin) (he : -1074 ≤ e) (h : GrQ (e + 1074).toNat a) : ∃ m : ℤ, a.val = m * (2:ℚ) ^ e := by
  rw [(QIs.of_fin fa).val]
  exact units_grid he h.units

/-- Two numbers on a grid that differ by less than a step are the same. -/
theorem grid_eq {x y : ℚ} {m n e : ℤ} (hx : x = m * (2:ℚ) ^ e) (hy : y = n * (2:ℚ) ^ e) (h : |x - y| < (2:ℚ) ^ e) : x = y := by
  have hp : (0:ℚ) < 2 ^ e := by positivity
  rw [hx, hy, ← sub_mul, abs_mul, abs_of_pos hp] at h
  have h1 : |(m - n : ℚ)| < 1 := by
    by_contra hc
    push Not at hc
    have := mul_le_mul_of_nonneg_right hc hp.le
    linarith
  have h2 : |m - n| < 1 := by exact_mod_cast h1
  have : m = n := by
    have := Int.abs_lt_one_iff.mp h2
    omega
  rw [hx, hy, this]

theorem head_val {a : Quad} (ha : a.Normalized) : |a.c0.toRat| ≤ |a.val| * (1 + 1 / 2 ^ 50) := by
  have h := (lead_le (qord_norm ha)).1
  rw [quad_val_UQ ha.1, (Is.of_finite ha.1.1).toRat, abs_div, abs_div, abs_of_pos one'_posQ, div_mul_eq_mul_div]
  exact div_le_div_of_nonneg_right h one'_posQ.le

/-- **C90, sums.** Sums of multiples of `2 ^ e` (whole numbers for `e = 0`) with coefficients below `2 ^ 150` are exact. -/
theorem C90_add (a b : Quad) (ha : a.Normalized) (hb : b.Normalized) (e m n : ℤ) (he : -1074 ≤ e)
    (hm : a.val = m * (2:ℚ) ^ e) (hn : b.val = n * (2:ℚ) ^ e) (lm : |m| < 2 ^ 150) (ln : |n| < 2 ^ 150)
    (la : |a.val| ≤ 2 ^ 1015) (lb : |b.val| ≤ 2 ^ 1015) : (a + b).Fin ∧ (a + b).val = (m + n : ℤ) * (2:ℚ) ^ e := by
  have big : (2:ℚ) ^ 1015 * (1 + 1 / 2 ^ 50) ≤ 2 ^ 1016 := by
    rw [show (2:ℚ) ^ 1016 = 2 ^ 1015 * 2 by rw [← pow_succ]]
    exact mul_le_mul_of_nonneg_left (by norm_num) (by positivity)
  have ka := (head_val ha).trans ((mul_le_mul_of_nonneg_right la (by norm_num)).trans big)
  have kb := (head_val hb).trans ((mul_le_mul_of_nonneg_right lb (by norm_num)).trans big)
  obtain ⟨hf, herr⟩ := C50_normalized a b ha hb ka kb
  refine ⟨hf, ?_⟩
  obtain ⟨r, hr⟩ := ((grq_of ha he hm).add (grq_of hb he hn)).val hf he
  have hs : a.val + b.val = (m + n : ℤ) * (2:ℚ) ^ e := by rw [hm, hn]; push_cast; ring
  rw [← hs]
  refine grid_eq hr hs (herr.trans_lt ?_)
  have hp : (0:ℚ) < 2 ^ e := by positivity
  have key : ∀ i : ℤ, |i| < 2 ^ 150 → |(i : ℚ) * 2 ^ e| < 2 ^ 150 * 2 ^ e := by
    intro i hi
    rw [abs_mul, abs_of_pos hp]
    refine mul_lt_mul_of_pos_right ?_ hp
    exact_mod_cast hi
  have h1 : max |a.val| |b.val| < 2 ^ 150 * 2 ^ e := by rw [hm, hn]; exact max_lt (key m lm) (key n ln)
  rw [div_lt_iff₀ (by positivity)]
  linarith

/-- **C90, differences.** -/
theorem C90_sub (a b : Quad) (ha : a.Normalized) (hb : b.Normalized) (e m n : ℤ) (he : -1074 ≤ e)
    (hm : a.val = m * (2:ℚ) ^ e) (hn : b.val = n * (2:ℚ) ^ e) (lm : |m| < 2 ^ 150) (ln : |n| < 2 ^ 150)
    (la : |a.val| ≤ 2 ^ 1015) (lb : |b.val| ≤ 2 ^ 1015) : (a - b).Fin ∧ (a - b).val = (m - n : ℤ) * (2:ℚ) ^ e := by
  obtain ⟨h1, h2⟩ := quad_neg_norm b hb
  have h3 : (-b).val = (-n : ℤ) * (2:ℚ) ^ e := by rw [h2, hn]; push_cast; ring
  have h4 : |(-b).val| = |b.val| := by rw [h2, abs_neg]
  rw [← h4] at lb
  exact C90_add a (-b) ha h1 e m (-n) he hm h3 lm (by rwa [abs_neg]) la lb

/-- Normalized numbers whose value is zero are zero in every component. -/
theorem norm_zero {a : Quad} (ha : a.Normalized) (h : a.val = 0) : QIs a (0, 0, 0, 0) := by
  have q := QIs.of_fin ha.1
  obtain ⟨n1, n2, n3⟩ := q.normalized_iff.mp ha
  have h0 : a.c0.toRat = 0 := by
    have := head_val ha
    rw [h] at this
    simpa using this
  rw [q.i0.toRat, div_eq_zero_iff] at h0
  have z0 : a.c0.units = 0 := by
    rcases h0 with h0 | h0
    · exact_mod_cast h0
    · exact absurd h0 one'_ne
  have l1 := n1.lo_le
  have l2 := n2.lo_le
  have l3 := n3.lo_le
  dsimp only at l1 l2 l3
  rw [z0] at l1
  have p1 := abs_nonneg a.c1.units
  have p2 := abs_nonneg a.c2.units
  have p3 := abs_nonneg a.c3.units
  rw [abs_zero] at l1
  have z1 : |a.c1.units| = 0 := by omega
  have z2 : |a.c2.units| = 0 := by omega
  have z3 : |a.c3.units| = 0 := by omega
  rw [abs_eq_zero] at z1 z2 z3
  rwa [z0, z1, z2, z3] at q

/-- A product with a zero factor is zero. -/
theorem qmul_zero_any {a b : Quad} (ha : a.Normalized) (hb : b.Normalized) (h : a.val = 0 ∨ b.val = 0) :
    (a * b).Fin ∧ (a * b).val = 0 := by
  have q := QIs.of_fin ha.1
  have q' := QIs.of_fin hb.1
  have zz := norm2_zero_zero
  by_cases h0 : a.c0.units = 0
  · have hpre : Quad.mul a b = Quad.ZERO ∨ Quad.mul a b = Quad.NEG_ZERO := by
      have q1 : a.isNan = false := q.i0.not_nan
      have q2 : b.isNan = false := q'.i0.not_nan
      have f2 : b.isInfinite = false := (fsq_fin hb.1.1).2
      have z : a.isZero = true := (q.i0.eq_iff is_zero).mpr h0
      unfold Quad.mul Quad.preMul
      rw [q1, q2, f2, z]
      simp only [Bool.or_self, Bool.false_eq_true, if_false, if_true]
      split_ifs
      · exact .inl rfl
      · exact .inr rfl
    show (Quad.mul a b).Fin ∧ (Quad.mul a b).val = 0
    rcases hpre with e | e <;> rw [e] <;> decide +kernel
  · have iz : QIs b (0, 0, 0, 0) := by
      rcases h with h | h
      · exact absurd (norm_zero ha h).i0.2 h0
      · exact norm_zero hb h
    have Q := quad_mul_single (k0 := 0) (k1 := 0) (k2 := 0) (k3 := 0) q iz h0 (by ring) (by ring) (by ring) (by ring)
      ⟨zz, zz, zz⟩ zero_ovf
    refine ⟨Q.fin, ?_⟩
    rw [Q.val]; simp [sum4]

/-- **C90, products.** The product of a multiple of `2 ^ e` and a multiple of `2 ^ f` is exact when its coefficient is below
`2 ^ 204`. -/
theorem C90_mul (a b : Quad) (ha : a.Normalized) (hb : b.Normalized) (e f m n : ℤ) (he : -1074 ≤ e) (hf : -1074 ≤ f)
    (hm : a.val = m * (2:ℚ) ^ e) (hn : b.val = n * (2:ℚ) ^ f) (lo : -760 ≤ e + f) (lmn : |m * n| < 2 ^ 204)
    (hi : |a.val * b.val| ≤ 2 ^ 1009) : (a * b).Fin ∧ (a * b).val = (m * n : ℤ) * (2:ℚ) ^ (e + f) := by
  have hs : a.val * b.val = (m * n : ℤ) * (2:ℚ) ^ (e + f) := by rw [hm, hn, zpow_add₀ (by norm_num)]; push_cast; ring
  rw [← hs]
  by_cases h0 : m * n = 0
  · rw [hs, h0, Int.cast_zero, zero_mul]
    apply qmul_zero_any ha hb
    rcases mul_eq_zero.mp h0 with h | h
    · left; rw [hm, h]; simp
    · right; rw [hn, h]; simp
  · have hp : (0:ℚ) < 2 ^ (e + f) := by positivity
    have h1 : (1:ℚ) ≤ |((m * n : ℤ) : ℚ)| := by exact_mod_cast Int.one_le_abs h0
    have hv : |a.val * b.val| = |((m * n : ℤ) : ℚ)| * 2 ^ (e + f) := by rw [hs, abs_mul, abs_of_pos hp]
    have g1 := (lead_le (qord_norm ha)).2
    have g2 := (lead_le (qord_norm hb)).2
    have ka : |a.val| ≤ |a.c0.toRat| * (1 + 1 / 2 ^ 50) := by
      rw [quad_val_UQ ha.1, (Is.of_finite ha.1.1).toRat, abs_div, abs_div, abs_of_pos one'_posQ, div_mul_eq_mul_div]
      exact div_le_div_of_nonneg_right g1 one'_posQ.le
    have kb : |b.val| ≤ |b.c0.toRat| * (1 + 1 / 2 ^ 50) := by
      rw [quad_val_UQ hb.1, (Is.of_finite hb.1.1).toRat, abs_div, abs_div, abs_of_pos one'_posQ, div_mul_eq_mul_div]
      exact div_le_div_of_nonneg_right g2 one'_posQ.le
    have hl := mul_le_mul (head_val ha) (head_val hb) (abs_nonneg _) (by positivity)
    have hr := mul_le_mul ka kb (abs_nonneg _) (by positivity)
    rw [← abs_mul] at hl
    rw [← abs_mul] at hr
    have e1 : |a.val| * (1 + 1 / 2 ^ 50) * (|b.val| * (1 + 1 / 2 ^ 50)) = |a.val * b.val| * (1 + 1 / 2 ^ 50) ^ 2 := by
      rw [abs_mul]; ring
    have e2 : |a.c0.toRat| * (1 + 1 / 2 ^ 50) * (|b.c0.toRat| * (1 + 1 / 2 ^ 50)) = |a.c0.toRat * b.c0.toRat| * (1 + 1 / 2 ^ 50) ^ 2 := by
      rw [abs_mul]; ring
    rw [e1] at hl
    rw [e2] at hr
    have c1 : |a.c0.toRat * b.c0.toRat| ≤ 2 ^ 1010 := by
      refine hl.trans ((mul_le_mul_of_nonneg_right hi (by positivity)).trans ?_)
      rw [show (2:ℚ) ^ 1010 = 2 ^ 1009 * 2 by rw [← pow_succ]]
      exact mul_le_mul_of_nonneg_left (by norm_num) (by positivity)
    have c2 : 1 ≤ |a.c0.toRat * b.c0.toRat| * 2 ^ 770 := by
      have h2 : (2:ℚ) ^ (-760 : ℤ) ≤ |a.val * b.val| := by
        rw [hv]
        refine (zpow_le_zpow_right₀ (by norm_num) lo).trans ?_
        exact le_mul_of_one_le_left hp.le h1
      have h3 : (2:ℚ) ^ (-760 : ℤ) * 2 ^ 760 = 1 := by
        rw [← zpow_natCast, ← zpow_add₀ (by norm_num)]; norm_num
      have h4 : 1 ≤ |a.val * b.val| * 2 ^ 760 := by
        rw [← h3]; exact mul_le_mul_of_nonneg_right h2 (by positivity)
      have h5 : (2:ℚ) ^ 770 = 2 ^ 760 * 1024 := by rw [show (1024:ℚ) = 2 ^ 10 by norm_num, ← pow_add]
      rw [h5]
      have h6 := mul_le_mul_of_nonneg_right hr (show (0:ℚ) ≤ 2 ^ 760 by positivity)
      have h7 : 0 ≤ |a.c0.toRat * b.c0.toRat| := abs_nonneg _
      clear hl hr e1 e2 c1 h2 h3 hi h5
      generalize (2:ℚ) ^ 760 = P at *
      generalize |a.c0.toRat * b.c0.toRat| = C at *
      have h8 := h4.trans h6
      have h9 : C * (1 + 1 / 2 ^ 50) ^ 2 * P = (C * P) * (1 + 1 / 2 ^ 50) ^ 2 := by ring
      rw [h9] at h8
      rw [← mul_assoc]
      generalize C * P = D at *
      norm_num at h8 ⊢
      linarith
    obtain ⟨hfin, herr⟩ := C51_normalized a b ha hb c2 c1
    refine ⟨hfin, ?_⟩
    have he' : (e + 1074).toNat + (f + 1074).toNat = (e + f + 1074).toNat + 1074 := by omega
    obtain ⟨r, hr'⟩ := (GrQ.mul he' (grq_of ha he hm) (grq_of hb hf hn)).val hfin (by omega)
    refine grid_eq hr' hs (herr.trans_lt ?_)
    rw [div_lt_iff₀ (by positivity), hv, mul_comm ((2:ℚ) ^ (e + f))]
    refine mul_lt_mul_of_pos_right ?_ hp
    exact_mod_cast lmn

/-- **C90, whole numbers.** For whole numbers: sums and differences below `2 ^ 150` and products below `2 ^ 204`. -/
theorem C90_int (a b : Quad) (ha : a.Normalized) (hb : b.Normalized) (m n : ℤ) (hm : a.val = m) (hn : b.val = n) :
    (|m| < 2 ^ 150 → |n| < 2 ^ 150 → ((a + b).Fin ∧ (a + b).val = (m + n : ℤ)) ∧ ((a - b).Fin ∧ (a - b).val = (m - n : ℤ))) ∧
      (|m * n| < 2 ^ 204 → (a * b).Fin ∧ (a * b).val = (m * n : ℤ)) := by
  have hm' : a.val = m * (2:ℚ) ^ (0:ℤ) := by rw [hm]; simp
  have hn' : b.val = n * (2:ℚ) ^ (0:ℤ) := by rw [hn]; simp
  have big : ∀ i : ℤ, |i| < 2 ^ 150 → |(i : ℚ)| ≤ 2 ^ 1015 := by
    intro i hi
    have h1 : |(i : ℚ)| < 2 ^ 150 := by exact_mod_cast hi
    exact h1.le.trans (pow_le_pow_right₀ (by norm_num) (by norm_num))
  refine ⟨fun lm ln => ?_, fun l => ?_⟩
  · have h1 := C90_add a b ha hb 0 m n (by norm_num) hm' hn' lm ln (by rw [hm]; exact big m lm) (by rw [hn]; exact big n ln)
    have h2 := C90_sub a b ha hb 0 m n (by norm_num) hm' hn' lm ln (by rw [hm]; exact big m lm) (by rw [hn]; exact big n ln)
    rw [zpow_zero, mul_one] at h1 h2
    exact ⟨h1, h2⟩
  · have hb' : |a.val * b.val| ≤ 2 ^ 1009 := by
      rw [hm, hn]
      have h1 : |(m * n : ℚ)| < 2 ^ 204 := by exact_mod_cast l
      exact h1.le.trans (pow_le_pow_right₀ (by norm_num) (by norm_num))
    have h1 := C90_mul a b ha hb 0 0 m n (by norm_num) (by norm_num) hm' hn' (by norm_num) l hb'
    rw [add_zero, zpow_zero, mul_one] at h1
    exact h1

/-- A whole number of 146 bits in four components: `2 ^ 146 + 2 ^ 80 + 2 ^ 20 - 3`. -/
def bigWhole : Quad := ⟨F64.ofInt (2 ^ 146), F64.ofInt (2 ^ 80), F64.ofInt (2 ^ 20 - 3), F64.zero⟩

example : bigWhole.Normalized ∧ bigWhole.val = (2 ^ 146 + 2 ^ 80 + 2 ^ 20 - 3 : ℤ) ∧ |(2 ^ 146 + 2 ^ 80 + 2 ^ 20 - 3 : ℤ)| < 2 ^ 150 := by
  decide +kernel
/-- Seven eighths plus `2 ^ 100`: on the grid with step `1 / 8`. -/
example : (⟨F64.ofInt (2 ^ 100), F64.ofDec false 875 (-3), F64.zero, F64.zero⟩ : Quad).Normalized ∧
    (⟨F64.ofInt (2 ^ 100), F64.ofDec false 875 (-3), F64.zero, F64.zero⟩ : Quad).val = (2 ^ 103 + 7 : ℤ) * (2:ℚ) ^ (-3 : ℤ) := by
  decide +kernel

end Verif
