import Verif.Proofs.DoubleDiv

/-!
# C04: division of Doubles
-/

namespace Verif

open F64

theorem qq_val {m n : ℚ} : qq m n / one' = (m / one') / (n / one') := by
  unfold qq
  have := one'_ne
  by_cases h : n = 0
  · rw [h]; simp
  · field_simp

/-- **C04.** For normalized `a` and nonzero normalized `b`, when the dividend and the quotient of the leading components
lie between `2^-962` and `2^1020` in magnitude, `a / b` is normalized and its relative error is below `2^-102`. -/
theorem C04_div (a b : Double) (ha : a.Normalized) (hb : b.Normalized) (h0 : b.hi.toRat ≠ 0)
    (ha1 : 1 ≤ |a.hi.toRat| * 2 ^ 962) (ha2 : |a.hi.toRat| ≤ 2 ^ 1020)
    (hq1 : 1 ≤ |a.hi.toRat / b.hi.toRat| * 2 ^ 962) (hq2 : |a.hi.toRat / b.hi.toRat| ≤ 2 ^ 1020) :
    (a / b).Normalized ∧ |(a / b).val - a.val / b.val| * 2 ^ 102 < |a.val / b.val| := by
  obtain ⟨xh, xl, ia, hx⟩ := ha.norm2
  obtain ⟨yh, yl, ib, hy⟩ := hb.norm2
  have hyh : yh ≠ 0 := by
    rintro rfl; apply h0; rw [ib.1.toRat]; simp
  have hpos := one'_posQ
  have eX : |(xh : ℚ)| = |a.hi.toRat| * one' := by
    rw [ia.1.toRat, abs_div, abs_of_pos hpos, div_mul_cancel₀ _ one'_ne]
  have eQ : |qq xh yh| = |a.hi.toRat / b.hi.toRat| * one' := by
    rw [ia.1.toRat, ib.1.toRat, ← qq_val, abs_div, abs_of_pos hpos, div_mul_cancel₀ _ one'_ne]
  have e1 : (one' : ℚ) = 2 ^ 962 * 2 ^ 112 := by rw [one'_pow, ← pow_add]
  have e2 : (lim2 : ℚ) / 8 = 2 ^ 1020 * one' := by
    rw [lim2_one']; push_cast
    have : (2:ℚ) ^ 1023 = 2 ^ 1020 * 8 := by
      rw [show (8:ℚ) = 2 ^ 3 by norm_num, ← pow_add]
    rw [this]; ring
  have lo : ∀ v : ℚ, 1 ≤ v * 2 ^ 962 → (2:ℚ) ^ 112 ≤ v * one' := by
    intro v hv
    rw [e1, ← mul_assoc]
    have := mul_le_mul_of_nonneg_right hv (by positivity : (0:ℚ) ≤ 2 ^ 112)
    rwa [one_mul] at this
  have hi : ∀ v : ℚ, v ≤ 2 ^ 1020 → v * one' ≤ lim2 / 8 := by
    intro v hv
    rw [e2]; exact mul_le_mul_of_nonneg_right hv hpos.le
  obtain ⟨zh, zl, iz, hz, he⟩ := div_spec ia ib hx hy hyh (by rw [eX]; exact hi _ ha2) (by rw [eQ]; exact hi _ hq2)
    (by rw [eX]; exact lo _ ha1) (by rw [eQ]; exact lo _ hq1)
  refine ⟨hz.normalized iz, ?_⟩
  have hnz : qq (xh + xl) (yh + yl) ≠ 0 := by
    have h1 := quot_close hx hy hyh
    have h2 := lo _ hq1
    rw [← eQ] at h2
    intro hc
    rw [hc] at h1
    norm_num at h1 h2
    have := abs_nonneg (qq (xh:ℚ) yh)
    linarith
  rw [iz.val, ia.val, ib.val]
  push_cast
  rw [← qq_val, ← sub_div, abs_div, abs_div, abs_of_pos hpos, div_mul_eq_mul_div]
  apply div_lt_div_of_pos_right _ hpos
  have := abs_pos.mpr hnz
  norm_num at he ⊢
  linarith

example : Double.PI.Normalized ∧ Double.E.Normalized ∧ Double.E.hi.toRat ≠ 0 ∧ 1 ≤ |Double.PI.hi.toRat| * 2 ^ 962 ∧
    |Double.PI.hi.toRat| ≤ 2 ^ 1020 ∧ 1 ≤ |Double.PI.hi.toRat / Double.E.hi.toRat| * 2 ^ 962 ∧
    |Double.PI.hi.toRat / Double.E.hi.toRat| ≤ 2 ^ 1020 := by decide +kernel

end Verif
