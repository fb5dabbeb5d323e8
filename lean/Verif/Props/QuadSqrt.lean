import Verif.Proofs.QuadSqrt

/-!
# C81: the square root of Quads
-/

namespace Verif

open F64 Prim Util Quad

/-- **C81.** Accuracy of `sqrt` on Quads, on any platform whose `f64` text is reasonable: the result is finite and its relative
error is at most `2^-127`. -/
theorem C81_quad_sqrt (P : Platform) (hP : FloatText P.toStr) (a : Quad) (ha : a.Normalized)
    (h1 : 1 ≤ a.val * 2 ^ 830) (h2 : a.val ≤ 2 ^ 830) :
    ∃ r, Quad.sqrt P a = some r ∧ r.Fin ∧
      |(r.val : ℝ) - Real.sqrt (a.val : ℝ)| * 2 ^ 127 ≤ Real.sqrt (a.val : ℝ) := by
  rw [show (2:ℚ) ^ 830 = 2 ^ 210 * 2 ^ 205 * (2 ^ 210 * 2 ^ 205) by simp only [← pow_add]] at h1 h2
  have hp : 0 < a.val := by
    by_contra hc
    have := mul_nonpos_of_nonpos_of_nonneg (not_lt.mp hc) (show (0:ℚ) ≤ 2 ^ 210 * 2 ^ 205 * (2 ^ 210 * 2 ^ 205) by positivity)
    exact absurd (h1.trans this) (by norm_num)
  have hp' : 0 < qv a := by unfold qv; exact_mod_cast hp
  have q1 : (1:ℝ) ≤ qv a * (2 ^ 210 * 2 ^ 205 * (2 ^ 210 * 2 ^ 205)) := by unfold qv; exact_mod_cast h1
  have q2 : qv a ≤ 2 ^ 210 * 2 ^ 205 * (2 ^ 210 * 2 ^ 205) := by unfold qv; exact_mod_cast h2
  have hz : SZ a (qv a * (101 / 100)) := ((qord_norm ha).exact.mono le_rfl (by
    rw [abs_of_pos hp']
    exact mul_le_mul_of_nonneg_left (by norm_num) hp'.le)).sz
  obtain ⟨r, h, k⟩ := qsqrt_any P hP rfl hz hp' q1 q2
  refine ⟨r, h, k.fin, ?_⟩
  have e := k.err
  have s := Real.sqrt_nonneg (qv a)
  change |qv r - Real.sqrt (qv a)| * 2 ^ 127 ≤ Real.sqrt (qv a)
  clear q1 q2 h1 h2
  generalize |qv r - Real.sqrt (qv a)| = t at *
  norm_num at e ⊢
  linarith

/-- Non-vacuity: the square root of pi. -/
example : Quad.PI.Normalized ∧ 1 ≤ Quad.PI.val * 2 ^ 830 ∧ Quad.PI.val ≤ 2 ^ 830 := by
  decide +kernel

end Verif
