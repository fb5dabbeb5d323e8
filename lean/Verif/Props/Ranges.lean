import Verif.Props.QuadTrig
import Verif.Props.QuadAtan
import Verif.Props.QuadAsin
import Verif.Props.QuadSinh
import Verif.Props.Trig
import Verif.Props.Atan
import Verif.Props.Asin
import Verif.Props.Hyper

/-!
# C98: computed results stay in the range of the function

A computed sine cannot exceed one by more than its rounding, a computed hyperbolic cosine cannot fall below one by more, and so
on: programs that feed such a result to another function (`acos(cos x)`, `1 - sin x`) depend on it.
-/

namespace Verif

open F64 Prim Util

/-- What is near a number of magnitude at most `B` has magnitude at most `B + e`. -/
theorem range_abs {p S e B : ℝ} (h : |p - S| ≤ e) (hS : |S| ≤ B) : |p| ≤ B + e := by
  rw [abs_le] at h hS ⊢
  constructor <;> linarith [h.1, h.2, hS.1, hS.2]

/-- **C98.** The sine and the cosine of a Double exceed one by no more than their rounding. -/
theorem C98_sin_cos (P : Platform) (hP : FloatText P.toStr) (a : Double) (ha : a.Normalized) (h : |a.val| ≤ 2 ^ 45) :
    ∃ s c, Double.sin P a = some s ∧ Double.cos P a = some c ∧ |s.val| ≤ 1 + (|a.val| + 29) / 2 ^ 102 ∧
      |c.val| ≤ 1 + (|a.val| + 29) / 2 ^ 102 := by
  obtain ⟨s, s1, -, s3⟩ := C68_sin P hP a ha h
  obtain ⟨c, c1, -, c3⟩ := C68_cos P hP a ha h
  have k1 := range_abs s3 (Real.abs_sin_le_one _)
  have k2 := range_abs c3 (Real.abs_cos_le_one _)
  exact ⟨s, c, s1, c1, by exact_mod_cast k1, by exact_mod_cast k2⟩

/-- **C98.** The same for Quads. -/
theorem C98_quad_sin_cos (P : Platform) (hP : FloatText P.toStr) (a : Quad) (ha : a.Normalized) (h : |a.val| ≤ 2 ^ 29) :
    ∃ s c, Quad.sin P a = some s ∧ Quad.cos P a = some c ∧ |s.val| ≤ 1 + (|a.val| / 3 + 9) / 2 ^ 126 ∧
      |c.val| ≤ 1 + (|a.val| / 3 + 9) / 2 ^ 126 := by
  have hR : |(a.val : ℝ)| ≤ 2 ^ 29 := by exact_mod_cast h
  obtain ⟨s, s1, -, s3⟩ := C84_quad_sin P hP a ha hR
  obtain ⟨c, c1, -, c3⟩ := C84_quad_cos P hP a ha hR
  have k1 := range_abs s3 (Real.abs_sin_le_one _)
  have k2 := range_abs c3 (Real.abs_cos_le_one _)
  exact ⟨s, c, s1, c1, by exact_mod_cast k1, by exact_mod_cast k2⟩

/-- **C98.** The hyperbolic cosine of a Double is at least one, less its rounding. -/
theorem C98_cosh (a : Double) (ha : a.Normalized) (h : |a.val| ≤ 599) :
    ∃ r, Double.cosh a = some r ∧ 1 - (|a.val| + 12) / 2 ^ 102 ≤ r.val := by
  obtain ⟨r, r1, -, r3⟩ := C69_cosh a ha h
  refine ⟨r, r1, ?_⟩
  have hR : |(a.val : ℝ)| ≤ 599 := by exact_mod_cast h
  have A0 := abs_nonneg (a.val : ℝ)
  have c := Real.one_le_cosh (a.val : ℝ)
  have key : (1:ℝ) - (|(a.val : ℝ)| + 12) / 2 ^ 102 ≤ (r.val : ℝ) := by
    have l := (abs_le.mp r3).1
    have e0 : (0:ℝ) ≤ 1 - (|(a.val : ℝ)| + 12) / 2 ^ 102 := by norm_num; linarith
    have m := mul_le_mul_of_nonneg_left c e0
    rw [mul_one, sub_mul, one_mul] at m
    linarith
  exact_mod_cast key

/-- **C98.** The same for Quads. -/
theorem C98_quad_cosh (a : Quad) (ha : a.Normalized) (h : |a.val| ≤ 469) :
    ∃ r, Quad.cosh a = some r ∧ 1 - (|a.val| + 11) / 2 ^ 126 ≤ r.val := by
  have hR : |(a.val : ℝ)| ≤ 469 := by exact_mod_cast h
  obtain ⟨r, r1, -, r3⟩ := C77_quad_cosh a ha hR
  refine ⟨r, r1, ?_⟩
  have A0 := abs_nonneg (a.val : ℝ)
  have c := Real.one_le_cosh (a.val : ℝ)
  have key : (1:ℝ) - (|(a.val : ℝ)| + 11) / 2 ^ 126 ≤ (r.val : ℝ) := by
    have l := (abs_le.mp r3).1
    have e0 : (0:ℝ) ≤ 1 - (|(a.val : ℝ)| + 11) / 2 ^ 126 := by norm_num; linarith
    have m := mul_le_mul_of_nonneg_left c e0
    rw [mul_one, sub_mul, one_mul] at m
    linarith
  exact_mod_cast key

/-- **C98.** The hyperbolic tangent of a Double exceeds one by no more than its rounding. -/
theorem C98_tanh (P : Platform) (hP : FloatText P.toStr) (a : Double) (ha : a.Normalized) (h : |a.val| ≤ 599)
    (h0 : 1 ≤ |a.val| * 2 ^ 900) : ∃ r, Double.tanh P a = some r ∧ |r.val| ≤ 1 + (|a.val| + 13) / 2 ^ 96 := by
  obtain ⟨r, r1, -, r3⟩ := C69_tanh P hP a ha h h0
  refine ⟨r, r1, ?_⟩
  clear h h0
  have A0 := abs_nonneg (a.val : ℝ)
  have t := (Real.abs_tanh_lt_one (a.val : ℝ)).le
  have m := mul_le_mul_of_nonneg_left t (show (0:ℝ) ≤ (|(a.val : ℝ)| + 13) / 2 ^ 96 by positivity)
  have key := range_abs (r3.trans m) t
  rw [mul_one] at key
  exact_mod_cast key

/-- **C98.** The same for Quads. -/
theorem C98_quad_tanh (P : Platform) (hT : FloatText P.toStr) (n : ℕ) (hn : 20 ≤ n) (a : Quad) (ha : a.Normalized)
    (h1 : 1 ≤ |a.val| * 2 ^ 560) (h2 : |a.val| ≤ 108) :
    ∃ r, Quad.tanh P n a = some r ∧ |r.val| ≤ 1 + (2 * |a.val| + 27) / 2 ^ 126 := by
  have hR : |(a.val : ℝ)| ≤ 108 := by exact_mod_cast h2
  obtain ⟨r, r1, -, r3, -⟩ := C83_quad_tanh P hT n hn a ha h1 hR
  have key := range_abs r3 (Real.abs_tanh_lt_one (a.val : ℝ)).le
  exact ⟨r, r1, by exact_mod_cast key⟩

/-- **C98.** The inverse tangent of a Double lies between `-π/2` and `π/2`, up to its rounding. -/
theorem C98_atan (P : Platform) (hT : FloatText P.toStr) (hA2 : LibmAtan2 P) (a : Double) (ha : a.Normalized)
    (h1 : a.val = 0 ∨ (1 ≤ |a.val| * 2 ^ 400 ∧ |a.val| ≤ 2 ^ 400)) :
    ∃ r, Double.atan P a = some r ∧ |(r.val : ℝ)| ≤ Real.pi / 2 + 75 / 2 ^ 102 := by
  obtain ⟨r, r1, -, r3, -⟩ := C71_atan P hT hA2 a ha h1
  clear h1
  have t : |Real.arctan (a.val : ℝ)| ≤ Real.pi / 2 := abs_le.mpr ⟨(Real.neg_pi_div_two_lt_arctan _).le, (Real.arctan_lt_pi_div_two _).le⟩
  generalize Real.arctan (a.val : ℝ) = θ at *
  have pi := Real.pi_lt_d2
  have t1 : |θ| ≤ 1.575 := by linarith
  have t2 : θ ^ 2 ≤ 2.5 := by
    rw [← sq_abs]
    nlinarith [abs_nonneg θ]
  exact ⟨r, r1, range_abs (r3.trans (by norm_num at t1 t2 ⊢; linarith)) t⟩

/-- **C98.** The same for Quads. -/
theorem C98_quad_atan (P : Platform) (hT : FloatText P.toStr) (hA2 : LibmAtan2 P) (a : Quad) (ha : a.Normalized)
    (h1 : a.val = 0 ∨ (1 ≤ |a.val| * 2 ^ 150 ∧ |a.val| ≤ 2 ^ 150)) :
    ∃ r, Quad.atan P a = some r ∧ |(r.val : ℝ)| ≤ Real.pi / 2 + 18 / 2 ^ 126 := by
  obtain ⟨r, r1, -, r3, -⟩ := C85_quad_atan P hT hA2 a ha h1
  exact ⟨r, r1, range_abs r3 (abs_le.mpr ⟨(Real.neg_pi_div_two_lt_arctan _).le, (Real.arctan_lt_pi_div_two _).le⟩)⟩

/-- **C98.** `atan2` of Doubles lies between `-π` and `π`, up to its rounding. -/
theorem C98_atan2 (P : Platform) (hT : FloatText P.toStr) (hA2 : LibmAtan2 P) (y x : Double) (hy : y.Normalized) (hx : x.Normalized)
    (h1 : y.val = 0 ∨ (1 ≤ |y.val| * 2 ^ 400 ∧ |y.val| ≤ 2 ^ 400)) (h2 : x.val = 0 ∨ (1 ≤ |x.val| * 2 ^ 400 ∧ |x.val| ≤ 2 ^ 400))
    (h3 : y.val ≠ 0 ∨ x.val ≠ 0) :
    ∃ r, Double.atan2 P y x = some r ∧ |(r.val : ℝ)| ≤ Real.pi + 119 / 2 ^ 102 := by
  obtain ⟨r, r1, -, r3⟩ := C71_atan2 P hT hA2 y x hy hx h1 h2 h3
  clear h1 h2
  have t := Complex.abs_arg_le_pi ⟨(x.val : ℝ), (y.val : ℝ)⟩
  generalize Complex.arg ⟨(x.val : ℝ), (y.val : ℝ)⟩ = θ at *
  have pi := Real.pi_lt_d2
  have t1 : |θ| ≤ 3.15 := t.trans pi.le
  have t2 : θ ^ 2 ≤ 10 := by
    rw [← sq_abs]
    nlinarith [abs_nonneg θ]
  exact ⟨r, r1, range_abs (r3.trans (by norm_num at t1 ⊢; linarith)) t⟩

/-- **C98.** The same for Quads. -/
theorem C98_quad_atan2 (P : Platform) (hT : FloatText P.toStr) (hA2 : LibmAtan2 P) (y x : Quad) (hy : y.Normalized) (hx : x.Normalized)
    (h1 : y.val = 0 ∨ (1 ≤ |y.val| * 2 ^ 150 ∧ |y.val| ≤ 2 ^ 150)) (h2 : x.val = 0 ∨ (1 ≤ |x.val| * 2 ^ 150 ∧ |x.val| ≤ 2 ^ 150))
    (h3 : y.val ≠ 0 ∨ x.val ≠ 0) :
    ∃ r, Quad.atan2 P y x = some r ∧ |(r.val : ℝ)| ≤ Real.pi + 18 / 2 ^ 126 := by
  obtain ⟨r, r1, -, r3, -⟩ := C85_quad_atan2 P hT hA2 y x hy hx h1 h2 h3
  exact ⟨r, r1, range_abs r3 (Complex.abs_arg_le_pi _)⟩

/-- **C98.** The inverse cosine of a Double lies between `0` and `π`, up to its rounding. -/
theorem C98_acos (P : Platform) (hT : FloatText P.toStr) (hA2 : LibmAtan2 P) (a : Double) (ha : a.Normalized)
    (h0 : a.val = 0 ∨ 1 ≤ |a.val| * 2 ^ 400) (h1 : |a.val| ≤ 1 - 1 / 2 ^ 78) :
    ∃ r, Double.acos P a = some r ∧ -((122 + 1 / Real.sqrt (1 - (a.val : ℝ) ^ 2)) / 2 ^ 102) ≤ (r.val : ℝ) ∧
      (r.val : ℝ) ≤ Real.pi + (122 + 1 / Real.sqrt (1 - (a.val : ℝ) ^ 2)) / 2 ^ 102 := by
  obtain ⟨r, r1, -, r3⟩ := C71_acos P hT hA2 a ha h0 h1
  obtain ⟨l, u⟩ := abs_le.mp r3
  exact ⟨r, r1, by linarith [Real.arccos_nonneg (a.val : ℝ)], by linarith [Real.arccos_le_pi (a.val : ℝ)]⟩

/-- **C98.** The inverse sine of a Double lies between `-π/2` and `π/2`, up to its rounding. -/
theorem C98_asin (P : Platform) (hT : FloatText P.toStr) (hA2 : LibmAtan2 P) (a : Double) (ha : a.Normalized)
    (h0 : a.val = 0 ∨ 1 ≤ |a.val| * 2 ^ 400) (h1 : |a.val| ≤ 1 - 1 / 2 ^ 78) :
    ∃ r, Double.asin P a = some r ∧ |(r.val : ℝ)| ≤ Real.pi / 2 + (74 + 1 / Real.sqrt (1 - (a.val : ℝ) ^ 2)) / 2 ^ 102 := by
  obtain ⟨r, r1, -, r3, -⟩ := C71_asin P hT hA2 a ha h0 h1
  exact ⟨r, r1, range_abs r3 (abs_le.mpr ⟨Real.neg_pi_div_two_le_arcsin _, Real.arcsin_le_pi_div_two _⟩)⟩

/-- **C98.** The inverse cosine of a Quad lies between `0` and `π`, and its inverse sine between `-π/2` and `π/2`, up to
rounding. -/
theorem C98_quad_acos_asin (P : Platform) (hT : FloatText P.toStr) (hA2 : LibmAtan2 P) (a : Quad) (ha : a.Normalized)
    (h0 : a.val = 0 ∨ 1 ≤ |a.val| * 2 ^ 150) (h1 : |(a.val : ℝ)| ≤ 24 / 25) :
    ∃ r s, Quad.acos P a = some r ∧ Quad.asin P a = some s ∧ -(20 / 2 ^ 126) ≤ (r.val : ℝ) ∧ (r.val : ℝ) ≤ Real.pi + 20 / 2 ^ 126 ∧
      |(s.val : ℝ)| ≤ Real.pi / 2 + 20 / 2 ^ 126 := by
  obtain ⟨r, r1, -, r3⟩ := C85_quad_acos P hT hA2 a ha h0 h1
  obtain ⟨s, s1, -, s3, -⟩ := C85_quad_asin P hT hA2 a ha h0 h1
  obtain ⟨l, u⟩ := abs_le.mp r3
  exact ⟨r, s, r1, s1, by linarith [Real.arccos_nonneg (a.val : ℝ)], by linarith [Real.arccos_le_pi (a.val : ℝ)],
    range_abs s3 (abs_le.mpr ⟨Real.neg_pi_div_two_le_arcsin _, Real.arcsin_le_pi_div_two _⟩)⟩

/-! ## The hypotheses of C98 can be met -/

example (P : Platform) (hP : FloatText P.toStr) : ∃ s, Double.sin P Double.E = some s ∧ |s.val| ≤ 1 + 1 / 2 ^ 96 := by
  obtain ⟨s, c, h1, -, h2, -⟩ := C98_sin_cos P hP Double.E (by decide +kernel) (by decide +kernel)
  have : (|Double.E.val| + 29) / 2 ^ 102 ≤ 1 / 2 ^ 96 := by decide +kernel
  exact ⟨s, h1, by linarith⟩

example (P : Platform) (hP : FloatText P.toStr) : ∃ s, Quad.sin P Quad.E = some s ∧ |s.val| ≤ 1 + 1 / 2 ^ 122 := by
  obtain ⟨s, c, h1, -, h2, -⟩ := C98_quad_sin_cos P hP Quad.E (by decide +kernel) (by decide +kernel)
  have : (|Quad.E.val| / 3 + 9) / 2 ^ 126 ≤ 1 / 2 ^ 122 := by decide +kernel
  exact ⟨s, h1, by linarith⟩

example : ∃ r, Double.cosh Double.PI = some r ∧ 1 - (|Double.PI.val| + 12) / 2 ^ 102 ≤ r.val :=
  C98_cosh Double.PI (by decide +kernel) (by decide +kernel)

example : ∃ r, Quad.cosh Quad.PI = some r ∧ 1 - (|Quad.PI.val| + 11) / 2 ^ 126 ≤ r.val :=
  C98_quad_cosh Quad.PI (by decide +kernel) (by decide +kernel)

example (P : Platform) (hP : FloatText P.toStr) : ∃ r, Double.tanh P Double.PI = some r ∧ |r.val| ≤ 1 + (|Double.PI.val| + 13) / 2 ^ 96 :=
  C98_tanh P hP Double.PI (by decide +kernel) (by decide +kernel) (by decide +kernel)

example (P : Platform) (hP : FloatText P.toStr) :
    ∃ r, Quad.tanh P 20 Quad.PI = some r ∧ |r.val| ≤ 1 + (2 * |Quad.PI.val| + 27) / 2 ^ 126 :=
  C98_quad_tanh P hP 20 le_rfl Quad.PI (by decide +kernel) (by decide +kernel) (by decide +kernel)

example (P : Platform) (hT : FloatText P.toStr) (hA2 : LibmAtan2 P) :
    ∃ r, Double.atan P Double.PI = some r ∧ |(r.val : ℝ)| ≤ Real.pi / 2 + 75 / 2 ^ 102 :=
  C98_atan P hT hA2 Double.PI (by decide +kernel) (Or.inr (by decide +kernel))

example (P : Platform) (hT : FloatText P.toStr) (hA2 : LibmAtan2 P) :
    ∃ r, Quad.atan P Quad.PI = some r ∧ |(r.val : ℝ)| ≤ Real.pi / 2 + 18 / 2 ^ 126 :=
  C98_quad_atan P hT hA2 Quad.PI (by decide +kernel) (Or.inr (by decide +kernel))

example (P : Platform) (hT : FloatText P.toStr) (hA2 : LibmAtan2 P) :
    ∃ r, Double.atan2 P Double.PI (-Double.E) = some r ∧ |(r.val : ℝ)| ≤ Real.pi + 119 / 2 ^ 102 :=
  C98_atan2 P hT hA2 Double.PI (-Double.E) (by decide +kernel) (by decide +kernel) (Or.inr (by decide +kernel))
    (Or.inr (by decide +kernel)) (Or.inl (by decide +kernel))

example (P : Platform) (hT : FloatText P.toStr) (hA2 : LibmAtan2 P) :
    ∃ r, Quad.atan2 P Quad.PI (-Quad.E) = some r ∧ |(r.val : ℝ)| ≤ Real.pi + 18 / 2 ^ 126 :=
  C98_quad_atan2 P hT hA2 Quad.PI (-Quad.E) (by decide +kernel) (by decide +kernel) (Or.inr (by decide +kernel))
    (Or.inr (by decide +kernel)) (Or.inl (by decide +kernel))

example (P : Platform) (hT : FloatText P.toStr) (hA2 : LibmAtan2 P) : ∃ r, Double.acos P Double.FRAC_1_PI = some r := by
  obtain ⟨r, h, -⟩ := C98_acos P hT hA2 Double.FRAC_1_PI (by decide +kernel) (Or.inr (by decide +kernel)) (by decide +kernel)
  exact ⟨r, h⟩

example (P : Platform) (hT : FloatText P.toStr) (hA2 : LibmAtan2 P) : ∃ r, Double.asin P Double.FRAC_1_PI = some r := by
  obtain ⟨r, h, -⟩ := C98_asin P hT hA2 Double.FRAC_1_PI (by decide +kernel) (Or.inr (by decide +kernel)) (by decide +kernel)
  exact ⟨r, h⟩

example (P : Platform) (hT : FloatText P.toStr) (hA2 : LibmAtan2 P) : ∃ r, Quad.acos P Quad.FRAC_1_PI = some r := by
  have : |(Quad.FRAC_1_PI.val : ℝ)| ≤ 24 / 25 := by
    have h := (Rat.cast_le (K := ℝ)).mpr (show |Quad.FRAC_1_PI.val| ≤ 24 / 25 by decide +kernel)
    push_cast at h
    exact h
  obtain ⟨r, s, h, -⟩ := C98_quad_acos_asin P hT hA2 Quad.FRAC_1_PI (by decide +kernel) (Or.inr (by decide +kernel)) this
  exact ⟨r, h⟩

end Verif
