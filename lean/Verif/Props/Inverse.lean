import Verif.Props.Exp
import Verif.Props.Ln
import Verif.Props.Sqrt
import Verif.Props.SinCos
import Verif.Props.Trig
import Verif.Props.Folds
import Verif.Props.Asin
import Verif.Proofs.PlatformWitness
import Verif.Proofs.TextWitness
import Verif.Proofs.Atan2Witness

/-!
# C92: functions and their inverses on Doubles
-/

namespace Verif

open F64 Prim Util

/-! ## Real analysis -/

/-- An approximate exponential of an approximate argument. -/
theorem exp_of_near {x y L d e : ℝ} (h1 : |x - L| ≤ d) (h2 : |y - Real.exp x| ≤ e * Real.exp x) (hd : d ≤ 1 / 2) (he : 0 ≤ e) :
    |y - Real.exp L| ≤ (d + d ^ 2 + e * (1 + d + d ^ 2)) * Real.exp L := by
  have hE := Real.exp_pos L
  have d0 : 0 ≤ d := (abs_nonneg _).trans h1
  have e1 : Real.exp x = Real.exp L * Real.exp (x - L) := by rw [← Real.exp_add]; congr 1; ring
  have e2 : |Real.exp (x - L) - 1| ≤ d + d ^ 2 := by
    have h := Real.abs_exp_sub_one_sub_id_le (x := x - L) (by linarith)
    have h3 : Real.exp (x - L) - 1 = (Real.exp (x - L) - 1 - (x - L)) + (x - L) := by ring
    rw [h3]
    refine (abs_add_le _ _).trans ?_
    have h4 : (x - L) ^ 2 ≤ d ^ 2 := by rw [← sq_abs]; exact pow_le_pow_left₀ (abs_nonneg _) h1 2
    linarith
  have e3 : |Real.exp x - Real.exp L| ≤ (d + d ^ 2) * Real.exp L := by
    rw [e1, show Real.exp L * Real.exp (x - L) - Real.exp L = (Real.exp (x - L) - 1) * Real.exp L by ring, abs_mul, abs_of_pos hE]
    exact mul_le_mul_of_nonneg_right e2 hE.le
  have e4 : Real.exp x ≤ (1 + d + d ^ 2) * Real.exp L := by
    have := le_abs_self (Real.exp x - Real.exp L)
    linarith
  have e5 : |y - Real.exp L| ≤ |y - Real.exp x| + |Real.exp x - Real.exp L| := abs_sub_le _ _ _
  have e6 : e * Real.exp x ≤ e * ((1 + d + d ^ 2) * Real.exp L) := mul_le_mul_of_nonneg_left e4 he
  calc _ ≤ e * ((1 + d + d ^ 2) * Real.exp L) + (d + d ^ 2) * Real.exp L := by linarith
    _ = _ := by ring

/-- The logarithm of an approximate exponential. -/
theorem log_of_exp_near {y A e : ℝ} (h : |y - Real.exp A| ≤ e * Real.exp A) (he : e ≤ 1 / 2) :
    0 < y ∧ |Real.log y - A| ≤ e + 2 * e ^ 2 := by
  have hE := Real.exp_pos A
  obtain ⟨a1, a2⟩ := abs_le.mp h
  have e0 : 0 ≤ e := by
    by_contra hc
    have := abs_nonneg (y - Real.exp A)
    nlinarith
  have b1 : (1 - e) * Real.exp A ≤ y := by linarith
  have b2 : y ≤ (1 + e) * Real.exp A := by linarith
  have y0 : 0 < y := lt_of_lt_of_le (mul_pos (by linarith) hE) b1
  refine ⟨y0, abs_le.mpr ⟨?_, ?_⟩⟩
  · have h1 := Real.log_le_log (mul_pos (by linarith) hE) b1
    rw [Real.log_mul (by linarith) hE.ne', Real.log_exp] at h1
    have h2 := Real.one_sub_inv_le_log_of_pos (show 0 < 1 - e by linarith)
    have h3 : -(e + 2 * e ^ 2) ≤ 1 - (1 - e)⁻¹ := by
      have h4 : (1 - e)⁻¹ ≤ 1 + e + 2 * e ^ 2 := by
        rw [inv_le_iff_one_le_mul₀ (by linarith)]
        nlinarith [mul_nonneg (sq_nonneg e) (show 0 ≤ 1 - 2 * e by linarith)]
      linarith
    linarith
  · have h1 := Real.log_le_log y0 b2
    rw [Real.log_mul (by linarith) hE.ne', Real.log_exp] at h1
    have h2 := Real.log_le_sub_one_of_pos (show 0 < 1 + e by linarith)
    nlinarith [sq_nonneg e]

/-- The square of an approximate number. -/
theorem sq_of_near {r s d : ℝ} (h : |r - s| ≤ d) : |r ^ 2 - s ^ 2| ≤ 2 * |s| * d + d ^ 2 := by
  have d0 : 0 ≤ d := (abs_nonneg _).trans h
  have e : r ^ 2 - s ^ 2 = (r - s) * (2 * s) + (r - s) ^ 2 := by ring
  rw [e]
  refine (abs_add_le _ _).trans ?_
  have h1 : |(r - s) * (2 * s)| ≤ 2 * |s| * d := by
    rw [abs_mul, abs_mul, abs_of_pos (show (0:ℝ) < 2 by norm_num), mul_comm]
    exact mul_le_mul_of_nonneg_left h (by positivity)
  have h2 : |(r - s) ^ 2| ≤ d ^ 2 := by
    rw [abs_pow]
    exact pow_le_pow_left₀ (abs_nonneg _) h 2
  linarith

/-! ## Doubles -/

theorem hi_bounds {r : Double} (h : r.Normalized) {B : ℝ} (hB : |rv r| ≤ B) (n : ℕ) (hn : B * (1 + 1 / 2 ^ 52) ≤ n) :
    -(n : ℚ) ≤ r.hi.toRat ∧ r.hi.toRat ≤ n := by
  have h1 : |fr r.hi| ≤ n := (fr_hi_le h).trans ((mul_le_mul_of_nonneg_right hB (by positivity)).trans hn)
  unfold fr at h1
  have : |r.hi.toRat| ≤ (n : ℚ) := by exact_mod_cast h1
  exact abs_le.mp this

/-- **C92.** `exp` undoes `ln`: for every positive number whose logarithm is at most 598 in magnitude, `a.ln().exp()` is
within a relative error of `(3 |ln a| + 24) / 2^102` of `a`. -/
theorem C92_exp_ln (P : Platform) (hP : LibmLogs P) (a : Double) (ha : a.Normalized) (hp : 0 < a.val)
    (h : |Real.log (a.val : ℝ)| ≤ 598) :
    ∃ l r, Double.ln P a = some l ∧ Double.exp l = some r ∧ r.Normalized ∧
      |(r.val : ℝ) - (a.val : ℝ)| ≤ (3 * |Real.log (a.val : ℝ)| + 24) / 2 ^ 102 * (a.val : ℝ) := by
  obtain ⟨b1, b2⟩ := abs_le.mp h
  obtain ⟨l, l1, l2, l3⟩ := C64_ln P hP a ha hp (by linarith) (by linarith)
  have hpR : (0:ℝ) < (a.val : ℝ) := by exact_mod_cast hp
  have hL : Real.exp (Real.log (a.val : ℝ)) = (a.val : ℝ) := Real.exp_log hpR
  generalize Real.log (a.val : ℝ) = L at *
  have L0 := abs_nonneg L
  have hl : |rv l| ≤ |L| + 1 / 2 ^ 80 := by
    have := abs_sub_abs_le_abs_sub (rv l) L
    change |rv l - L| ≤ _ at l3
    norm_num at l3 ⊢
    linarith
  obtain ⟨c1, c2⟩ := hi_bounds l2 hl 600 (by norm_num; linarith)
  obtain ⟨r, r1, r2, r3⟩ := C63_exp l l2 (by exact_mod_cast c1) (c2.trans (by norm_num))
  refine ⟨l, r, l1, r1, r2, ?_⟩
  have k := exp_of_near l3 r3 (by norm_num; linarith) (by positivity)
  rw [hL] at k
  refine k.trans (mul_le_mul_of_nonneg_right ?_ hpR.le)
  change _ + (|rv l| + 10) / 2 ^ 102 * _ ≤ _
  have d1 : (2 * |L| + 13) / 2 ^ 102 ≤ 1 / 2 ^ 80 := by norm_num; linarith
  have d0 : 0 ≤ (2 * |L| + 13) / 2 ^ 102 := by positivity
  have d2 : ((2 * |L| + 13) / 2 ^ 102) ^ 2 ≤ 1 / 2 ^ 80 * ((2 * |L| + 13) / 2 ^ 102) := by
    rw [sq]; exact mul_le_mul_of_nonneg_right d1 d0
  have d3 : (|rv l| + 10) / 2 ^ 102 * (1 + (2 * |L| + 13) / 2 ^ 102 + ((2 * |L| + 13) / 2 ^ 102) ^ 2) ≤ (|L| + 1 / 2 ^ 80 + 10) / 2 ^ 102 * (1 + 1 / 2 ^ 70) := by
    refine mul_le_mul (div_le_div_of_nonneg_right (by linarith) (by positivity)) ?_ (by positivity) (by positivity)
    generalize (2 * |L| + 13) / 2 ^ 102 = D at *
    norm_num at d1 d2 ⊢
    linarith
  refine (add_le_add (add_le_add_right d2 _) d3).trans ?_
  norm_num
  linarith

/-- **C92.** `ln` undoes `exp`: for every number of magnitude at most 590, `a.exp().ln()` is within `(3 |a| + 24) / 2^102`
of `a`. -/
theorem C92_ln_exp (P : Platform) (hP : LibmLogs P) (a : Double) (ha : a.Normalized) (h : |(a.val : ℝ)| ≤ 590) :
    ∃ e r, Double.exp a = some e ∧ Double.ln P e = some r ∧ r.Normalized ∧
      |(r.val : ℝ) - (a.val : ℝ)| ≤ (3 * |(a.val : ℝ)| + 24) / 2 ^ 102 := by
  obtain ⟨c1, c2⟩ := hi_bounds ha h 600 (by norm_num)
  obtain ⟨e, e1, e2, e3⟩ := C63_exp a ha (by exact_mod_cast c1) (c2.trans (by norm_num))
  generalize (a.val : ℝ) = A at *
  have A0 := abs_nonneg A
  obtain ⟨p, k⟩ := log_of_exp_near e3 (by norm_num; linarith)
  have d1 : (|A| + 10) / 2 ^ 102 ≤ 1 / 2 ^ 80 := by norm_num; linarith
  have d0 : 0 ≤ (|A| + 10) / 2 ^ 102 := by positivity
  have d2 : ((|A| + 10) / 2 ^ 102) ^ 2 ≤ 1 / 2 ^ 80 * ((|A| + 10) / 2 ^ 102) := by
    rw [sq]; exact mul_le_mul_of_nonneg_right d1 d0
  have k2 : |Real.log (e.val : ℝ) - A| ≤ (|A| + 10) / 2 ^ 102 * (1 + 1 / 2 ^ 70) := by
    refine k.trans ?_
    generalize (|A| + 10) / 2 ^ 102 = D at *
    norm_num at d2 ⊢
    linarith
  have k3 : |Real.log (e.val : ℝ)| ≤ |A| + 1 / 2 ^ 70 := by
    have := abs_sub_abs_le_abs_sub (Real.log (e.val : ℝ)) A
    norm_num at k2 ⊢
    linarith
  obtain ⟨b1, b2⟩ := abs_le.mp k3
  obtain ⟨r, r1, r2, r3⟩ := C64_ln P hP e e2 (by exact_mod_cast p) (by norm_num at b1; linarith) (by norm_num at b2; linarith)
  refine ⟨e, r, e1, r1, r2, ?_⟩
  have t : |(r.val : ℝ) - A| ≤ |(r.val : ℝ) - Real.log (e.val : ℝ)| + |Real.log (e.val : ℝ) - A| := abs_sub_le _ _ _
  norm_num at r3 k2 k3 ⊢
  linarith

/-- **C92.** Squaring undoes `sqrt`: `a.sqrt().sqr()` is within a relative error of `2^-98` of `a`. -/
theorem C92_sqr_sqrt (P : Platform) (hP : FloatText P.toStr) (a : Double) (ha : a.Normalized)
    (h1 : 1 ≤ a.val * 2 ^ 900) (h2 : a.val ≤ 2 ^ 1000) :
    ∃ s, Double.sqrt P a = some s ∧ s.sqr.Normalized ∧ |s.sqr.val - a.val| * 2 ^ 98 ≤ a.val := by
  obtain ⟨s, s1, s2, s3⟩ := C67_sqrt P hP a ha h1 h2
  have hp : 0 < a.val := by
    by_contra hc
    have := mul_nonpos_of_nonpos_of_nonneg (not_lt.mp hc) (show (0:ℚ) ≤ 2 ^ 900 by positivity)
    exact absurd (h1.trans this) (by norm_num)
  have hpR : (0:ℝ) < (a.val : ℝ) := by exact_mod_cast hp
  have hs : Real.sqrt (a.val : ℝ) ^ 2 = (a.val : ℝ) := Real.sq_sqrt hpR.le
  have k := sq_of_near s3
  have s0 := Real.sqrt_nonneg (a.val : ℝ)
  rw [hs, abs_of_nonneg s0, show 2 * √(a.val : ℝ) * (√(a.val : ℝ) / 2 ^ 100) + (√(a.val : ℝ) / 2 ^ 100) ^ 2 =
    √(a.val : ℝ) ^ 2 * (2 / 2 ^ 100 + 1 / 2 ^ 200) by ring, hs] at k
  have k' : |s.val ^ 2 - a.val| ≤ a.val * (2 / 2 ^ 100 + 1 / 2 ^ 200) := by
    apply (Rat.cast_le (K := ℝ)).mp
    push_cast
    exact k
  clear k hs s0 s3
  have u := abs_le.mp k'
  have lo : a.val / 2 ≤ s.val ^ 2 := by norm_num at u; linarith
  have hi : s.val ^ 2 ≤ a.val * 2 := by norm_num at u; linarith
  have hr : |s.hi.toRat * s.hi.toRat| ≤ 2 ^ 1023 := by
    rw [abs_mul]
    have h3 : |s.hi.toRat| * |s.hi.toRat| ≤ 2 * |s.val| * (2 * |s.val|) :=
      mul_le_mul (hi_twice s2) (hi_twice s2) (abs_nonneg _) (by positivity)
    have h4 : 2 * |s.val| * (2 * |s.val|) = 4 * s.val ^ 2 := by rw [← sq_abs s.val]; ring
    rw [h4] at h3
    refine h3.trans ?_
    rw [show (2:ℚ) ^ 1023 = 2 ^ 1000 * 2 ^ 23 by rw [← pow_add]]
    clear h1
    generalize (2:ℚ) ^ 1000 = Q at *
    norm_num
    linarith
  have hu : 1 ≤ s.val ^ 2 * 2 ^ 969 := by
    rw [show (2:ℚ) ^ 969 = 2 ^ 900 * 2 ^ 69 by rw [← pow_add]]
    have p : (0:ℚ) < 2 ^ 900 := by positivity
    clear h2 hr
    generalize (2:ℚ) ^ 900 = Q at *
    have := mul_le_mul_of_nonneg_right lo p.le
    norm_num
    linarith
  have e := C36_sqr_relative s s2 hr hu
  refine ⟨s, s1, (C36_sqr s s2 hr).1, ?_⟩
  have t : |s.sqr.val - a.val| ≤ |s.sqr.val - s.val ^ 2| + |s.val ^ 2 - a.val| := abs_sub_le _ _ _
  clear hr hu h1 h2
  norm_num at e t k' ⊢
  linarith

/-- **C92.** `sqrt` undoes squaring up to the sign: `a.sqr().sqrt()` is within a relative error of `2^-99` of `|a|`. -/
theorem C92_sqrt_sqr (P : Platform) (hP : FloatText P.toStr) (a : Double) (ha : a.Normalized)
    (h1 : 1 ≤ |a.val| * 2 ^ 449) (h2 : |a.val| ≤ 2 ^ 499) :
    ∃ r, Double.sqrt P a.sqr = some r ∧ r.Normalized ∧ |r.val - (|a.val|)| * 2 ^ 99 ≤ |a.val| := by
  have a0 := abs_nonneg a.val
  have q2 : a.val ^ 2 ≤ 2 ^ 998 := by
    rw [← sq_abs, show (2:ℚ) ^ 998 = (2 ^ 499) ^ 2 by rw [← pow_mul]]
    exact pow_le_pow_left₀ a0 h2 2
  have q1 : 1 ≤ a.val ^ 2 * 2 ^ 898 := by
    rw [← sq_abs, show (2:ℚ) ^ 898 = (2 ^ 449) ^ 2 by rw [← pow_mul], ← mul_pow]
    exact one_le_pow₀ h1
  have hr : |a.hi.toRat * a.hi.toRat| ≤ 2 ^ 1023 := by
    rw [abs_mul]
    have h3 : |a.hi.toRat| * |a.hi.toRat| ≤ 2 * |a.val| * (2 * |a.val|) :=
      mul_le_mul (hi_twice ha) (hi_twice ha) (abs_nonneg _) (by positivity)
    have h4 : 2 * |a.val| * (2 * |a.val|) = 4 * a.val ^ 2 := by rw [← sq_abs a.val]; ring
    rw [h4] at h3
    refine h3.trans ?_
    rw [show (2:ℚ) ^ 1023 = 2 ^ 998 * 2 ^ 25 by rw [← pow_add]]
    clear h1 h2 q1
    generalize (2:ℚ) ^ 998 = Q at *
    norm_num
    linarith [sq_nonneg a.val]
  have hu : 1 ≤ a.val ^ 2 * 2 ^ 969 := by
    refine q1.trans (mul_le_mul_of_nonneg_left ?_ (sq_nonneg _))
    exact pow_le_pow_right₀ (by norm_num) (by norm_num)
  have e := C36_sqr_relative a ha hr hu
  have sn := (C36_sqr a ha hr).1
  have pos : 0 < a.val ^ 2 := by
    by_contra hc
    have := mul_nonpos_of_nonpos_of_nonneg (not_lt.mp hc) (show (0:ℚ) ≤ 2 ^ 898 by positivity)
    exact absurd (q1.trans this) (by norm_num)
  have e' : |a.sqr.val - a.val ^ 2| ≤ a.val ^ 2 / 2 ^ 102 := by
    rw [le_div_iff₀ (by positivity)]; exact e.le
  have u := abs_le.mp e'
  obtain ⟨r, r1, r2, r3⟩ := C67_sqrt P hP a.sqr sn (by
    have lo : a.val ^ 2 / 2 ≤ a.sqr.val := by clear q1 q2 hr hu; norm_num at u ⊢; linarith
    have := mul_le_mul_of_nonneg_right lo (show (0:ℚ) ≤ 2 ^ 900 by positivity)
    refine le_trans ?_ this
    rw [show (2:ℚ) ^ 900 = 2 ^ 898 * 2 ^ 2 by rw [← pow_add]]
    clear hu hr q2 h1 h2
    generalize (2:ℚ) ^ 898 = Q at *
    norm_num
    linarith) (by
    have hi : a.sqr.val ≤ a.val ^ 2 * 2 := by clear q1 q2 hr hu; norm_num at u ⊢; linarith
    refine hi.trans ?_
    rw [show (2:ℚ) ^ 1000 = 2 ^ 998 * 2 ^ 2 by rw [← pow_add]]
    clear hu hr q1 h1 h2
    generalize (2:ℚ) ^ 998 = Q at *
    norm_num
    linarith)
  refine ⟨r, r1, r2, ?_⟩
  have eR : |(a.sqr.val : ℝ) - |(a.val : ℝ)| ^ 2| ≤ |(a.val : ℝ)| ^ 2 / 2 ^ 102 := by rw [sq_abs]; exact_mod_cast e'
  have posR : 0 < |(a.val : ℝ)| ^ 2 := by rw [sq_abs]; exact_mod_cast pos
  have goal : |(r.val : ℝ) - (|(a.val : ℝ)|)| * 2 ^ 99 ≤ |(a.val : ℝ)| := by
    have aR := abs_nonneg (a.val : ℝ)
    clear hu hr q1 q2 h1 h2 u e e'
    generalize |(a.val : ℝ)| = A at *
    generalize (a.sqr.val : ℝ) = Q at *
    have A0 : 0 < A := by
      rcases lt_or_eq_of_le aR with h | h
      · exact h
      · rw [← h] at posR; norm_num at posR
    obtain ⟨v1, v2⟩ := abs_le.mp eR
    have w1 : √Q ≤ A * (1 + 1 / 2 ^ 102) := by
      rw [Real.sqrt_le_iff]
      refine ⟨by positivity, ?_⟩
      have : (A * (1 + 1 / 2 ^ 102)) ^ 2 = A ^ 2 + A ^ 2 * (2 / 2 ^ 102 + 1 / 2 ^ 204) := by ring
      rw [this]
      norm_num at v2 ⊢
      linarith
    have w2 : A * (1 - 1 / 2 ^ 102) ≤ √Q := by
      refine Real.le_sqrt_of_sq_le ?_
      have : (A * (1 - 1 / 2 ^ 102)) ^ 2 = A ^ 2 - A ^ 2 * (2 / 2 ^ 102 - 1 / 2 ^ 204) := by ring
      rw [this]
      norm_num at v1 ⊢
      linarith
    have w3 : |√Q - A| ≤ A / 2 ^ 102 := by
      rw [abs_le]
      constructor
      · have : A * (1 - 1 / 2 ^ 102) = A - A / 2 ^ 102 := by ring
        linarith
      · have : A * (1 + 1 / 2 ^ 102) = A + A / 2 ^ 102 := by ring
        linarith
    have t : |(r.val : ℝ) - A| ≤ |(r.val : ℝ) - √Q| + |√Q - A| := abs_sub_le _ _ _
    norm_num at w1 w3 r3 ⊢
    linarith
  exact_mod_cast goal

/-- **C92.** The Pythagorean identity: for every number of magnitude at most `2^45`, `s * s + c * c` (with `sqr`
and `+` of the library) of the results of `sin_cos` is normalized and within `(|a| + 33) / 2^100` of 1. -/
theorem C92_pythagoras (P : Platform) (hP : FloatText P.toStr) (a : Double) (ha : a.Normalized)
    (h2 : |a.val| ≤ 2 ^ 45) :
    ∃ s c, Double.sinCos P a = some (s, c) ∧ (s.sqr + c.sqr).Normalized ∧
      |((s.sqr + c.sqr).val : ℝ) - 1| ≤ (|(a.val : ℝ)| + 33) / 2 ^ 100 := by
  obtain ⟨s, c, h, s1, c1, s2, c2⟩ := C68_sin_cos P hP a ha h2
  have hR : |(a.val : ℝ)| ≤ 2 ^ 45 := by exact_mod_cast h2
  have tri := Real.sin_sq_add_cos_sq (a.val : ℝ)
  have sb := Real.abs_sin_le_one (a.val : ℝ)
  have cb := Real.abs_cos_le_one (a.val : ℝ)
  refine ⟨s, c, h, ?_⟩
  clear h2 h
  generalize Real.sin (a.val : ℝ) = S at *
  generalize Real.cos (a.val : ℝ) = C at *
  have A0 := abs_nonneg (a.val : ℝ)
  generalize |(a.val : ℝ)| = A at *
  have d1 : (A + 29) / 2 ^ 102 ≤ 1 / 2 ^ 50 := by norm_num at hR ⊢; linarith
  have d0 : 0 ≤ (A + 29) / 2 ^ 102 := by positivity
  have eD : (A + 33) / 2 ^ 100 = 4 * ((A + 29) / 2 ^ 102) + 16 / 2 ^ 102 := by ring
  rw [eD]
  generalize (A + 29) / 2 ^ 102 = D at *
  have D2 : D ^ 2 ≤ D / 2 ^ 50 := by
    rw [sq]
    have := mul_le_mul_of_nonneg_right d1 d0
    linarith
  have one : ∀ {x : Double} {X : ℝ}, x.Normalized → |(x.val : ℝ) - X| ≤ D → |X| ≤ 1 →
      x.sqr.Normalized ∧ |(x.sqr.val : ℝ) - X ^ 2| ≤ 2 * |X| * D + D / 2 ^ 50 + 21 / 2 ^ 106 ∧ |(x.sqr.val : ℝ)| ≤ 2 := by
    intro x X hx hX hX1
    have k := sq_of_near hX
    have x0 : |(x.val : ℝ)| ≤ 1 + 1 / 2 ^ 50 := by
      have := abs_sub_abs_le_abs_sub (x.val : ℝ) X
      linarith
    have xq : |x.val| ≤ 2 := by
      have : |(x.val : ℝ)| ≤ 2 := x0.trans (by norm_num)
      exact_mod_cast this
    have hr : |x.hi.toRat * x.hi.toRat| ≤ 2 ^ 1023 := by
      rw [abs_mul]
      have h3 : |x.hi.toRat| * |x.hi.toRat| ≤ 4 * 4 :=
        mul_le_mul ((hi_twice hx).trans (by linarith)) ((hi_twice hx).trans (by linarith)) (abs_nonneg _) (by norm_num)
      refine h3.trans ?_
      calc (4:ℚ) * 4 = 2 ^ 4 := by norm_num
        _ ≤ _ := pow_le_pow_right₀ (by norm_num) (by norm_num)
    obtain ⟨q1, -, q3⟩ := C36_sqr x hx hr
    have q4 : |(x.sqr.val : ℝ) - (x.val : ℝ) ^ 2| ≤ 20 / 2 ^ 106 + 1 / 2 ^ 106 := by
      have z1 : x.val ^ 2 ≤ 2 := by
        have : (x.val : ℝ) ^ 2 ≤ 2 := by
          rw [← sq_abs]
          calc |(x.val : ℝ)| ^ 2 ≤ (1 + 1 / 2 ^ 50) ^ 2 := pow_le_pow_left₀ (abs_nonneg _) x0 2
            _ ≤ 2 := by norm_num
        exact_mod_cast this
      have z2 : (2:ℚ) / 2 ^ 1074 ≤ 1 / 2 ^ 106 := by
        rw [show (2:ℚ) ^ 1074 = 2 ^ 106 * (2 * 2 ^ 967) by rw [← pow_succ', ← pow_add], ← div_div]
        have : (1:ℚ) ≤ 2 ^ 967 := one_le_pow₀ (by norm_num)
        rw [div_le_iff₀ (by positivity)]
        generalize (2:ℚ) ^ 967 = Q at *
        norm_num
        linarith
      have z3 : |x.sqr.val - x.val ^ 2| ≤ 20 / 2 ^ 106 + 1 / 2 ^ 106 := by
        refine q3.trans (add_le_add ?_ z2)
        clear q3 hr z2
        norm_num
        linarith
      have z4 := (Rat.cast_le (K := ℝ)).mpr z3
      push_cast at z4
      exact z4
    have t : |(x.sqr.val : ℝ) - X ^ 2| ≤ |(x.sqr.val : ℝ) - (x.val : ℝ) ^ 2| + |(x.val : ℝ) ^ 2 - X ^ 2| := abs_sub_le _ _ _
    have f : |(x.sqr.val : ℝ) - X ^ 2| ≤ 2 * |X| * D + D / 2 ^ 50 + 21 / 2 ^ 106 := by
      clear q3 hr
      norm_num at q4 k t D2 ⊢
      linarith
    refine ⟨q1, f, ?_⟩
    have X2 : X ^ 2 ≤ 1 := by rw [← sq_abs]; exact pow_le_one₀ (abs_nonneg _) hX1
    have := abs_sub_abs_le_abs_sub (x.sqr.val : ℝ) (X ^ 2)
    rw [abs_of_nonneg (sq_nonneg X)] at this
    have XD : 2 * |X| * D ≤ 2 * D := by
      have := mul_le_mul_of_nonneg_right hX1 d0
      linarith
    clear q3 hr
    generalize |(x.sqr.val : ℝ) - X ^ 2| = u at *
    generalize X ^ 2 = v at *
    generalize 2 * |X| * D = w at *
    norm_num at d1 f ⊢
    linarith
  obtain ⟨p1, p2, p3⟩ := one s1 s2 sb
  obtain ⟨q1, q2, q3⟩ := one c1 c2 cb
  have r := C01_add s.sqr c.sqr p1 q1 (by
    have p3' : |s.sqr.val| ≤ 2 := by exact_mod_cast p3
    have q3' : |c.sqr.val| ≤ 2 := by exact_mod_cast q3
    have h3 := hi_twice p1
    have h4 := hi_twice q1
    calc _ ≤ (2:ℚ) ^ 3 := by norm_num; linarith
      _ ≤ _ := pow_le_pow_right₀ (by norm_num) (by norm_num))
  refine ⟨r.1, ?_⟩
  have r2 : |((s.sqr + c.sqr).val : ℝ) - ((s.sqr.val : ℝ) + (c.sqr.val : ℝ))| * 2 ^ 103 ≤ |(s.sqr.val : ℝ) + (c.sqr.val : ℝ)| := by
    exact_mod_cast r.2
  have r3 : |(s.sqr.val : ℝ) + (c.sqr.val : ℝ)| ≤ 4 := (abs_add_le _ _).trans (by linarith)
  have t : |((s.sqr + c.sqr).val : ℝ) - 1| ≤ |((s.sqr + c.sqr).val : ℝ) - ((s.sqr.val : ℝ) + (c.sqr.val : ℝ))|
      + (|(s.sqr.val : ℝ) - S ^ 2| + |(c.sqr.val : ℝ) - C ^ 2|) := by
    rw [← tri, show ((s.sqr + c.sqr).val : ℝ) - (S ^ 2 + C ^ 2) = (((s.sqr + c.sqr).val : ℝ) - ((s.sqr.val : ℝ) + (c.sqr.val : ℝ)))
      + (((s.sqr.val : ℝ) - S ^ 2) + ((c.sqr.val : ℝ) - C ^ 2)) by ring]
    exact (abs_add_le _ _).trans (add_le_add_right (abs_add_le _ _) _)
  have sc : |S| + |C| ≤ 3 / 2 := by
    have e1 := sq_abs S
    have e2 := sq_abs C
    nlinarith [sq_nonneg (|S| - |C|), abs_nonneg S, abs_nonneg C]
  have scD : 2 * |S| * D + 2 * |C| * D ≤ 3 * D := by
    have := mul_le_mul_of_nonneg_right sc d0
    linarith
  clear r one
  norm_num at p2 q2 r2 r3 t scD ⊢
  linarith


/-- **C92.** `sin` undoes `asin`: for `a = 0` or `2^-400 ≤ |a| ≤ 1 - 2^-78`, `a.asin().sin()` is within
`(105 + 1 / sqrt(1 - a²)) / 2^102` of `a`. -/
theorem C92_sin_asin (P : Platform) (hT : FloatText P.toStr) (hA2 : LibmAtan2 P) (a : Double) (ha : a.Normalized)
    (h0 : a.val = 0 ∨ 1 ≤ |a.val| * 2 ^ 400) (h1 : |a.val| ≤ 1 - 1 / 2 ^ 78) :
    ∃ t r, Double.asin P a = some t ∧ Double.sin P t = some r ∧ r.Normalized ∧
      |(r.val : ℝ) - (a.val : ℝ)| ≤ (105 + 1 / Real.sqrt (1 - (a.val : ℝ) ^ 2)) / 2 ^ 102 := by
  obtain ⟨t, t1, t2, t3, -⟩ := C71_asin P hT hA2 a ha h0 h1
  clear h0
  have h1R : |(a.val : ℝ)| ≤ 1 - 1 / 2 ^ 78 := by
    have := (Rat.cast_le (K := ℝ)).mpr h1
    push_cast at this; exact this
  obtain ⟨b1, b2⟩ := abs_le.mp (h1R.trans (show (1:ℝ) - 1 / 2 ^ 78 ≤ 1 by norm_num))
  have hs := Real.sin_arcsin b1 b2
  have lo : |(a.val : ℝ)| ≤ |Real.arcsin (a.val : ℝ)| := by
    have := Real.abs_sin_le_abs (x := Real.arcsin (a.val : ℝ))
    rwa [hs] at this
  have hi : |Real.arcsin (a.val : ℝ)| ≤ 1.6 := by
    have h3 := Real.arcsin_le_pi_div_two (a.val : ℝ)
    have h4 := Real.neg_pi_div_two_le_arcsin (a.val : ℝ)
    have := Real.pi_lt_d2
    rw [abs_le]; constructor <;> norm_num at * <;> linarith
  have sq : 1 / Real.sqrt (1 - (a.val : ℝ) ^ 2) ≤ 2 ^ 39 := by
    have : (1:ℝ) / 2 ^ 39 ≤ Real.sqrt (1 - (a.val : ℝ) ^ 2) := by
      apply Real.le_sqrt_of_sq_le
      have q : (a.val : ℝ) ^ 2 ≤ (1 - 1 / 2 ^ 78) ^ 2 := by
        rw [← sq_abs]; exact pow_le_pow_left₀ (abs_nonneg _) h1R 2
      norm_num at q ⊢
      linarith
    rw [div_le_iff₀ (lt_of_lt_of_le (by positivity) this)]
    norm_num at this ⊢
    linarith
  have sq0 : 0 ≤ 1 / Real.sqrt (1 - (a.val : ℝ) ^ 2) := by positivity
  generalize Real.arcsin (a.val : ℝ) = S at *
  generalize 1 / Real.sqrt (1 - (a.val : ℝ) ^ 2) = q at *
  have k1 := abs_sub_abs_le_abs_sub (t.val : ℝ) S
  have k2 := abs_sub_abs_le_abs_sub S (t.val : ℝ)
  rw [abs_sub_comm] at k2
  have l2 : |(t.val : ℝ)| ≤ 1.7 := by
    norm_num at k1 t3 sq hi ⊢
    linarith
  obtain ⟨r, r1, r2, r3⟩ := C68_sin P hT t t2 (by
    have : |(t.val : ℝ)| ≤ 2 ^ 45 := l2.trans (by norm_num)
    exact_mod_cast this)
  refine ⟨t, r, t1, r1, r2, ?_⟩
  have e1 : |Real.sin (t.val : ℝ) - Real.sin S| ≤ |(t.val : ℝ) - S| := Real.abs_sin_sub_sin_le _ _
  rw [hs] at e1
  have e2 : |(r.val : ℝ) - (a.val : ℝ)| ≤ |(r.val : ℝ) - Real.sin (t.val : ℝ)| + |Real.sin (t.val : ℝ) - (a.val : ℝ)| := abs_sub_le _ _ _
  norm_num at r3 t3 l2 ⊢
  linarith

/-- **C92.** `cos` undoes `acos`: for `a = 0` or `2^-400 ≤ |a| ≤ 1 - 2^-78`, `a.acos().cos()` is within
`(155 + 1 / sqrt(1 - a²)) / 2^102` of `a`. -/
theorem C92_cos_acos (P : Platform) (hT : FloatText P.toStr) (hA2 : LibmAtan2 P) (a : Double) (ha : a.Normalized)
    (h0 : a.val = 0 ∨ 1 ≤ |a.val| * 2 ^ 400) (h1 : |a.val| ≤ 1 - 1 / 2 ^ 78) :
    ∃ t r, Double.acos P a = some t ∧ Double.cos P t = some r ∧ r.Normalized ∧
      |(r.val : ℝ) - (a.val : ℝ)| ≤ (155 + 1 / Real.sqrt (1 - (a.val : ℝ) ^ 2)) / 2 ^ 102 := by
  obtain ⟨t, t1, t2, t3⟩ := C71_acos P hT hA2 a ha h0 h1
  clear h0
  have h1R : |(a.val : ℝ)| ≤ 1 - 1 / 2 ^ 78 := by
    have := (Rat.cast_le (K := ℝ)).mpr h1
    push_cast at this; exact this
  obtain ⟨b1, b2⟩ := abs_le.mp (h1R.trans (show (1:ℝ) - 1 / 2 ^ 78 ≤ 1 by norm_num))
  have hs := Real.cos_arccos b1 b2
  have low : (1:ℝ) / 2 ^ 39 ≤ Real.sqrt (1 - (a.val : ℝ) ^ 2) := by
    apply Real.le_sqrt_of_sq_le
    have q : (a.val : ℝ) ^ 2 ≤ (1 - 1 / 2 ^ 78) ^ 2 := by
      rw [← sq_abs]; exact pow_le_pow_left₀ (abs_nonneg _) h1R 2
    norm_num at q ⊢
    linarith
  have lo : 1 / 2 ^ 39 ≤ Real.arccos (a.val : ℝ) := by
    have h3 := Real.sin_arccos (a.val : ℝ)
    have h4 := Real.sin_le (Real.arccos_nonneg (a.val : ℝ))
    rw [h3] at h4
    exact low.trans h4
  have hi : Real.arccos (a.val : ℝ) ≤ 3.15 := (Real.arccos_le_pi _).trans Real.pi_lt_d2.le
  have sq : 1 / Real.sqrt (1 - (a.val : ℝ) ^ 2) ≤ 2 ^ 39 := by
    rw [div_le_iff₀ (lt_of_lt_of_le (by positivity) low)]
    norm_num at low ⊢
    linarith
  have sq0 : 0 ≤ 1 / Real.sqrt (1 - (a.val : ℝ) ^ 2) := by positivity
  clear low
  generalize Real.arccos (a.val : ℝ) = S at *
  generalize 1 / Real.sqrt (1 - (a.val : ℝ) ^ 2) = q at *
  obtain ⟨k1, k2⟩ := abs_le.mp t3
  have tp : 1 / 2 ^ 40 ≤ (t.val : ℝ) := by norm_num at k1 lo sq ⊢; linarith
  have tq : (t.val : ℝ) ≤ 3.2 := by norm_num at k2 hi sq ⊢; linarith
  have ta : |(t.val : ℝ)| = (t.val : ℝ) := abs_of_nonneg (le_trans (by positivity) tp)
  have l1 : (1:ℝ) ≤ |(t.val : ℝ)| * 2 ^ 100 := by
    rw [ta]; norm_num at tp ⊢; linarith
  obtain ⟨r, r1, r2, r3⟩ := C68_cos P hT t t2 (by
    have : |(t.val : ℝ)| ≤ 2 ^ 45 := by rw [ta]; exact tq.trans (by norm_num)
    exact_mod_cast this)
  refine ⟨t, r, t1, r1, r2, ?_⟩
  have e1 : |Real.cos (t.val : ℝ) - Real.cos S| ≤ |(t.val : ℝ) - S| := Real.abs_cos_sub_cos_le _ _
  rw [hs] at e1
  have e2 : |(r.val : ℝ) - (a.val : ℝ)| ≤ |(r.val : ℝ) - Real.cos (t.val : ℝ)| + |Real.cos (t.val : ℝ) - (a.val : ℝ)| := abs_sub_le _ _ _
  rw [ta] at r3
  norm_num at r3 t3 tq ⊢
  linarith

/-! ## Non-vacuity -/

example : ∃ t r, Double.asin angPlatform Double.FRAC_1_PI = some t ∧ Double.sin angPlatform t = some r ∧ r.Normalized ∧
    |(r.val : ℝ) - (Double.FRAC_1_PI.val : ℝ)| ≤ (105 + 1 / Real.sqrt (1 - (Double.FRAC_1_PI.val : ℝ) ^ 2)) / 2 ^ 102 :=
  C92_sin_asin _ angPlatform_ok.2 angPlatform_ok.1 _ (by decide +kernel) (by decide +kernel) (by decide +kernel)

example : ∃ t r, Double.acos angPlatform Double.FRAC_1_PI = some t ∧ Double.cos angPlatform t = some r ∧ r.Normalized ∧
    |(r.val : ℝ) - (Double.FRAC_1_PI.val : ℝ)| ≤ (155 + 1 / Real.sqrt (1 - (Double.FRAC_1_PI.val : ℝ) ^ 2)) / 2 ^ 102 :=
  C92_cos_acos _ angPlatform_ok.2 angPlatform_ok.1 _ (by decide +kernel) (by decide +kernel) (by decide +kernel)

example (P : Platform) (h : P.toStr = text17) : ∃ s c, Double.sinCos P Double.E = some (s, c) ∧ (s.sqr + c.sqr).Normalized ∧
    |((s.sqr + c.sqr).val : ℝ) - 1| ≤ (|(Double.E.val : ℝ)| + 33) / 2 ^ 100 :=
  C92_pythagoras P (h ▸ text17_ok) _ (by decide +kernel) (by decide +kernel)

example (P : Platform) (h : P.toStr = text17) : ∃ s, Double.sqrt P Double.PI = some s ∧ s.sqr.Normalized ∧
    |s.sqr.val - Double.PI.val| * 2 ^ 98 ≤ Double.PI.val :=
  C92_sqr_sqrt P (h ▸ text17_ok) _ (by decide +kernel) (by decide +kernel) (by decide +kernel)

example (P : Platform) (h : P.toStr = text17) : ∃ r, Double.sqrt P (-Double.PI).sqr = some r ∧ r.Normalized ∧
    |r.val - (|(-Double.PI).val|)| * 2 ^ 99 ≤ |(-Double.PI).val| :=
  C92_sqrt_sqr P (h ▸ text17_ok) _ (by decide +kernel) (by decide +kernel) (by decide +kernel)

example : ∃ l r, Double.ln logPlatform Double.PI = some l ∧ Double.exp l = some r ∧ r.Normalized ∧
    |(r.val : ℝ) - (Double.PI.val : ℝ)| ≤ (3 * |Real.log (Double.PI.val : ℝ)| + 24) / 2 ^ 102 * (Double.PI.val : ℝ) := by
  have h : mkRat 1 1 ≤ Double.PI.val ∧ Double.PI.val ≤ mkRat 4 1 := by decide +kernel
  have h1 := (Rat.cast_le (K := ℝ)).mpr h.1
  have h2 := (Rat.cast_le (K := ℝ)).mpr h.2
  rw [Rat.mkRat_eq_div] at h1 h2
  push_cast at h1 h2
  refine C92_exp_ln _ logPlatform_ok _ (by decide +kernel) (by decide +kernel) ?_
  have g1 := Real.log_nonneg (x := (Double.PI.val : ℝ)) (by linarith)
  have g2 := Real.log_le_sub_one_of_pos (x := (Double.PI.val : ℝ)) (by linarith)
  rw [abs_of_nonneg g1]
  linarith

example : ∃ e r, Double.exp Double.PI = some e ∧ Double.ln logPlatform e = some r ∧ r.Normalized ∧
    |(r.val : ℝ) - (Double.PI.val : ℝ)| ≤ (3 * |(Double.PI.val : ℝ)| + 24) / 2 ^ 102 := by
  have h : |Double.PI.val| ≤ mkRat 4 1 := by decide +kernel
  have h1 := (Rat.cast_le (K := ℝ)).mpr h
  rw [Rat.mkRat_eq_div] at h1
  push_cast at h1
  exact C92_ln_exp _ logPlatform_ok _ (by decide +kernel) (h1.trans (by norm_num))

end Verif
