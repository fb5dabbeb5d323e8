import Verif.Proofs.QuadRel

/-!
# C78: integer powers of Quads
-/

namespace Verif

open F64 Prim Util Quad

theorem qv_class {a : Quad} (ha : a.Normalized) (h : a.val ≠ 0) : a.isNan = false ∧ a.isZero = false ∧ a.isInfinite = false := by
  obtain ⟨c1, c2⟩ := fsq_fin ha.1.1
  refine ⟨c1, ?_, c2⟩
  rw [Bool.eq_false_iff, ne_eq, fsq_isZero ha.1.1, ← (quad_sign_head a ha).2.2]
  exact h

theorem qpow_cast (a : Quad) (n : ℕ) : |qv a| ^ n = ((|a.val ^ n| : ℚ) : ℝ) := by
  unfold qv; push_cast; rw [abs_pow]

/-- **C78.** Accuracy of `powi` on Quads, positive exponents: while `a^n` stays between `2^-835` and `2^895` in magnitude, the
result is finite and its relative error is at most `n * 2^-138`. -/
theorem C78_quad_powi (a : Quad) (n : ℕ) (hn : 0 < n) (hn2 : n < 2 ^ 31) (ha : a.Normalized)
    (h1 : 1 ≤ |a.val ^ n| * 2 ^ 835) (h2 : |a.val ^ n| ≤ 2 ^ 895) :
    ∃ r, a.powi n = some r ∧ r.Fin ∧ |r.val - a.val ^ n| * 2 ^ 138 ≤ n * |a.val ^ n| := by
  rw [show (2:ℚ) ^ 835 = 2 ^ 210 * 2 ^ 210 * (2 ^ 210 * 2 ^ 205) by simp only [← pow_add]] at h1
  rw [show (2:ℚ) ^ 895 = 2 ^ 225 * 2 ^ 225 * 2 ^ 225 * 2 ^ 220 by simp only [← pow_add]] at h2
  have hne : a.val ≠ 0 := by
    intro hc
    rw [hc, zero_pow hn.ne', abs_zero, zero_mul] at h1; norm_num at h1
  obtain ⟨c1, c2, c3⟩ := qv_class ha hne
  have hne' : qv a ≠ 0 := by unfold qv; exact_mod_cast hne
  have key := qpowi_pos ha hn hn2 hne' (by rw [qpow_cast]; exact_mod_cast h1) (by rw [qpow_cast]; exact_mod_cast h2)
  refine ⟨quadPowiPos a n, ?_, key.fin, ?_⟩
  · rw [quad_powi_main (by omega) (by rw [abs_of_nonneg (by positivity)]; exact_mod_cast hn2) c1 c2 c3, if_neg (by omega)]
    rfl
  · have := key.err
    have h3 : |qv (quadPowiPos a n) - qv a ^ n| * 2 ^ 138 ≤ n * |qv a ^ n| := by
      have h4 := mul_le_mul_of_nonneg_right this (show (0:ℝ) ≤ 2 ^ 138 by positivity)
      refine h4.trans (le_of_eq ?_)
      norm_num; ring
    unfold qv at h3
    exact_mod_cast h3

/-- **C78.** Accuracy of `powi` on Quads, negative exponents: while `a^n` stays between `2^-760` and `2^760` in magnitude, the
result is finite and its relative error is at most `(n + 2050) * 2^-138`. -/
theorem C78_quad_powi_neg (a : Quad) (n : ℕ) (hn : 0 < n) (hn2 : n < 2 ^ 31) (ha : a.Normalized)
    (h1 : 1 ≤ |a.val ^ n| * 2 ^ 760) (h2 : |a.val ^ n| ≤ 2 ^ 760) :
    ∃ r, a.powi (-n) = some r ∧ r.Fin ∧ |r.val - (a.val ^ n)⁻¹| * 2 ^ 138 ≤ (n + 2050) * |(a.val ^ n)⁻¹| := by
  rw [show (2:ℚ) ^ 760 = 2 ^ 190 * 2 ^ 190 * (2 ^ 190 * 2 ^ 190) by simp only [← pow_add]] at h1 h2
  have hne : a.val ≠ 0 := by
    intro hc
    rw [hc, zero_pow hn.ne', abs_zero, zero_mul] at h1; norm_num at h1
  obtain ⟨c1, c2, c3⟩ := qv_class ha hne
  have hne' : qv a ≠ 0 := by unfold qv; exact_mod_cast hne
  have e1 : (1:ℝ) ≤ |qv a ^ n| * (2 ^ 190 * 2 ^ 190 * (2 ^ 190 * 2 ^ 190)) := by rw [abs_pow, qpow_cast]; exact_mod_cast h1
  have e2 : |qv a ^ n| ≤ 2 ^ 190 * 2 ^ 190 * (2 ^ 190 * 2 ^ 190) := by rw [abs_pow, qpow_cast]; exact_mod_cast h2
  have key := qpowi_pos ha hn hn2 hne' (by
      rw [abs_pow] at e1
      refine e1.trans (mul_le_mul_of_nonneg_left (by norm_num) (by positivity))) (by
      rw [abs_pow] at e2
      exact e2.trans (by norm_num))
  have hn3 : (n : ℝ) ≤ 2 ^ 31 := by exact_mod_cast hn2.le
  have key2 := key.recip (pow_ne_zero n hne') e1 e2 (by positivity) (by linarith)
  refine ⟨(quadPowiPos a n).recip, ?_, key2.fin, ?_⟩
  · rw [quad_powi_main (by omega) (by rw [abs_neg, abs_of_nonneg (by positivity)]; exact_mod_cast hn2) c1 c2 c3, if_pos (by omega),
      Int.natAbs_neg]
    rfl
  · have := key2.err
    rw [one_div] at this
    have h3 : |qv (quadPowiPos a n).recip - (qv a ^ n)⁻¹| * 2 ^ 138 ≤ (n + 2050) * |(qv a ^ n)⁻¹| := by
      have h4 := mul_le_mul_of_nonneg_right this (show (0:ℝ) ≤ 2 ^ 138 by positivity)
      refine h4.trans (le_of_eq ?_)
      norm_num; ring
    unfold qv at h3
    exact_mod_cast h3

/-- Non-triviality: the twentieth and the minus twentieth power of π meet the hypotheses. -/
example : Quad.PI.Normalized ∧ 1 ≤ |Quad.PI.val ^ 20| * 2 ^ 760 ∧ |Quad.PI.val ^ 20| ≤ 2 ^ 760 := by
  decide +kernel

end Verif
