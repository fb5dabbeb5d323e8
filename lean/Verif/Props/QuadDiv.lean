import Verif.Proofs.QuadSlackDiv
import Verif.Props.QuadMul

/-!
# C52: `Quad` division is accurate to about 130 bits when nothing overflows or underflows
-/

namespace Verif

open F64 Prim Util Quad

/-- **C52.** The quotient of two ordered Quads, relative error at most `2^-130`, when the dividend and the quotient are within
range. -/
theorem C52_accurate (a b : Quad) (ha : a.Ordered) (hb : b.Ordered)
    (h1 : 1 ≤ |a.c0.toRat| * 2 ^ 800) (h2 : |a.c0.toRat| ≤ 2 ^ 198)
    (h3 : 1 ≤ |a.c0.toRat / b.c0.toRat| * 2 ^ 800) (h4 : |a.c0.toRat / b.c0.toRat| ≤ 2 ^ 1000) :
    (a / b).Fin ∧ |(a / b).val - a.val / b.val| ≤ |a.val / b.val| / 2 ^ 130 := by
  have oa := qord_of ha
  have ob := qord_of hb
  have op := one'_posQ
  have ta := toRat_U oa.f0
  have tb := toRat_U ob.f0
  have hb0 : b.c0.units ≠ 0 := by
    intro h
    have : b.c0.toRat = 0 := by rw [tb]; unfold U; rw [h]; simp
    rw [this] at h3
    norm_num at h3
  have hbU : U b.c0 ≠ 0 := by unfold U; exact_mod_cast hb0
  have bp : 0 < |U b.c0| := abs_pos.mpr hbU
  have hquot : a.c0.toRat / b.c0.toRat = U a.c0 / U b.c0 := by rw [ta, tb]; field_simp
  rw [hquot, abs_div] at h3 h4
  rw [ta, abs_div, abs_of_pos op] at h1 h2
  obtain ⟨A, hA⟩ : ∃ A, |U a.c0| = A := ⟨_, rfl⟩
  rw [hA] at h1 h2 h3 h4
  have hA0 : 0 ≤ A := hA ▸ abs_nonneg _
  -- the hypotheses in units
  have e1 : (one' : ℚ) = 2 ^ 250 * 2 ^ 24 * 2 ^ 800 := by rw [one'_pow, ← pow_add, ← pow_add]
  have k1 : 2 ^ 250 ≤ A := by
    rw [div_mul_eq_mul_div, le_div_iff₀ op, one_mul, e1] at h1
    have := le_of_mul_le_mul_right h1 (by positivity)
    refine le_trans ?_ this
    norm_num
  have k2 : 2 * A ≤ one' * 2 ^ 200 := by
    rw [div_le_iff₀ op] at h2
    have hp := mul_nonneg (show (0:ℚ) ≤ 2 ^ 198 by positivity) op.le
    clear e1 h1 h3 h4
    linarith
  have k3 : |U b.c0| / one' * 2 ^ 250 ≤ A := by
    rw [div_mul_eq_mul_div, le_div_iff₀ bp, one_mul] at h3
    rw [div_mul_eq_mul_div, div_le_iff₀ op]
    refine (mul_le_mul_of_nonneg_right h3 (by positivity)).trans ?_
    rw [mul_assoc]
    refine mul_le_mul_of_nonneg_left ?_ hA0
    rw [e1, mul_comm]
    refine mul_le_mul_of_nonneg_right ?_ (by positivity)
    norm_num
  have el : (lim : ℚ) = 3 * 2 ^ 22 * (one' * 2 ^ 1000) := by
    unfold lim; push_cast; rw [one'_pow, ← pow_add, mul_assoc, ← pow_add]
  have k4 : 100 * A * one' ≤ lim * |U b.c0| := by
    rw [div_le_iff₀ bp] at h4
    have := mul_le_mul_of_nonneg_right h4 op.le
    have hp : 0 ≤ one' * 2 ^ 1000 * |U b.c0| := by positivity
    rw [el]
    linarith
  have k5 : 10 ^ 16 * A ≤ (lim : ℚ) := by
    have e2 : (one' : ℚ) * 2 ^ 1000 = one' * 2 ^ 200 * (2 ^ 200 * 2 ^ 200 * 2 ^ 200 * 2 ^ 200) := by
      rw [← pow_add, ← pow_add, ← pow_add, mul_assoc, ← pow_add]
    have hp : 0 ≤ (one' : ℚ) * 2 ^ 200 := by positivity
    have hbig : (10 : ℚ) ^ 16 ≤ 2 ^ 200 * 2 ^ 200 * 2 ^ 200 * 2 ^ 200 := by norm_num
    have h7 := mul_le_mul_of_nonneg_left hbig hp
    rw [← e2] at h7
    rw [el]
    clear e1 h1 h2 h3 h4 el e2 hbig k1 k3 k4
    generalize (one' : ℚ) * 2 ^ 1000 = P at *
    generalize (one' : ℚ) * 2 ^ 200 = R at *
    linarith
  clear h1 h2 h3 h4 e1 el
  obtain ⟨hf, he⟩ := div_units oa ob hb0 hA rfl k4 k1 k3 k2 k5
  refine ⟨hf, ?_⟩
  have ua := lead_le oa
  have ub := lead_le ob
  rw [hA] at ua
  have hUb : UQ b ≠ 0 := by
    intro h
    rw [h, abs_zero, zero_mul] at ub
    linarith [ub.1]
  rw [quad_val_UQ hf, quad_val_UQ ha.1, quad_val_UQ hb.1]
  have e2 : UQ a / one' / (UQ b / one') = UQ a / UQ b := by field_simp
  rw [e2]
  have e3 : UQ (a / b) / one' - UQ a / UQ b = (UQ (a / b) * UQ b / one' - UQ a) / UQ b := by field_simp
  rw [e3, abs_div, abs_div, div_right_comm]
  refine div_le_div_of_nonneg_right (he.trans ?_) (abs_nonneg _)
  have := abs_nonneg (UQ a)
  have := ua.1
  linarith

/-- Operands that meet the hypotheses. -/
example : Quad.PI.Ordered ∧ Quad.E.Ordered ∧ 1 ≤ |Quad.PI.c0.toRat| * 2 ^ 800 ∧ |Quad.PI.c0.toRat| ≤ 2 ^ 198 ∧
    1 ≤ |Quad.PI.c0.toRat / Quad.E.c0.toRat| * 2 ^ 800 ∧ |Quad.PI.c0.toRat / Quad.E.c0.toRat| ≤ 2 ^ 1000 := by decide +kernel

/-- **C52.** The same for normalized operands. -/
theorem C52_normalized (a b : Quad) (ha : a.Normalized) (hb : b.Normalized)
    (h1 : 1 ≤ |a.c0.toRat| * 2 ^ 800) (h2 : |a.c0.toRat| ≤ 2 ^ 198)
    (h3 : 1 ≤ |a.c0.toRat / b.c0.toRat| * 2 ^ 800) (h4 : |a.c0.toRat / b.c0.toRat| ≤ 2 ^ 1000) :
    (a / b).Fin ∧ |(a / b).val - a.val / b.val| ≤ |a.val / b.val| / 2 ^ 130 := by
  have qa := QIs.of_fin ha.1
  have qb := QIs.of_fin hb.1
  exact C52_accurate a b (qa.ordered_iff.mpr (qa.normalized_iff.mp ha).ord) (qb.ordered_iff.mpr (qb.normalized_iff.mp hb).ord)
    h1 h2 h3 h4

example : Quad.PI.Normalized ∧ Quad.E.Normalized := by decide +kernel

end Verif
