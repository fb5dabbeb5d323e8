import Verif.Proofs.QuadMul3

/-!
# C51: Quad multiplication is accurate
-/

namespace Verif

open F64 Prim Util

theorem quad_val_UQ {a : Quad} (h : a.Fin) : a.val = UQ a / one' := by
  unfold Quad.val UQ
  rw [toRat_U h.1, toRat_U h.2.1, toRat_U h.2.2.1, toRat_U h.2.2.2]
  ring

/-- The leading component is nearly the whole value. -/
theorem lead_le {a : Quad} (o : QOrd a) : |U a.c0| ≤ |UQ a| * (1 + 1 / 2 ^ 50) ∧ |UQ a| ≤ |U a.c0| * (1 + 1 / 2 ^ 50) := by
  have h1 := o.d1
  have h2 := o.d2
  have h3 := o.d3
  unfold Dec at h1 h2 h3
  have hd : |UQ a - U a.c0| ≤ |U a.c0| * (101 / 100 / 2 ^ 52) := by
    have e : UQ a - U a.c0 = U a.c1 + (U a.c2 + U a.c3) := by unfold UQ; ring
    rw [e]
    refine (abs_add_le _ _).trans ?_
    have := abs_add_le (U a.c2) (U a.c3)
    have := abs_nonneg (U a.c0)
    unfold U at *
    linarith
  have := tri_r hd
  have := tri_l hd
  have := abs_nonneg (U a.c0)
  constructor <;> linarith

theorem preMul_none {a b : Quad} (fa : a.c0.isFinite = true) (fb : b.c0.isFinite = true) (ha : a.c0.units ≠ 0) :
    Quad.preMul a b = none := by
  have ia := Is.of_finite fa
  have ib := Is.of_finite fb
  have n1 : a.isNan = false := ia.not_nan
  have n2 : b.isNan = false := ib.not_nan
  have i1 : a.isInfinite = false := ia.not_inf
  have i2 : b.isInfinite = false := ib.not_inf
  have z : a.isZero = false := by
    unfold Quad.isZero
    rw [← Bool.not_eq_true, ia.eq_iff is_zero]
    exact ha
  unfold Quad.preMul
  rw [n1, n2, i1, i2, z]
  simp

/-- **C51.** For all ordered operands (every component at most `2^-52` times the one before it, so in particular for all
normalized ones) whose leading components have a product between `2^-770` and `2^1010` in magnitude: all components of
the product are finite, and it differs from the exact product of the exact values by at most `2^-204` of it. -/
theorem C51_accurate (a b : Quad) (ha : a.Ordered) (hb : b.Ordered)
    (hlo : 1 ≤ |a.c0.toRat * b.c0.toRat| * 2 ^ 770) (hhi : |a.c0.toRat * b.c0.toRat| ≤ 2 ^ 1010) :
    (a * b).Fin ∧ |(a * b).val - a.val * b.val| ≤ |a.val * b.val| / 2 ^ 204 := by
  have oa := qord_of ha
  have ob := qord_of hb
  have ia := Is.of_finite oa.f0
  have ib := Is.of_finite ob.f0
  have hpq : a.c0.toRat * b.c0.toRat = pq a.c0.units b.c0.units / one' := by
    rw [ia.toRat, ib.toRat]; unfold pq; rw [div_mul_div_comm, div_div]
  have habs : |a.c0.toRat * b.c0.toRat| = |pq a.c0.units b.c0.units| / one' := by
    rw [hpq, abs_div, abs_of_pos one'_posQ]
  rw [habs] at hlo hhi
  obtain ⟨M, hM⟩ : ∃ M, |pq a.c0.units b.c0.units| = M := ⟨_, rfl⟩
  rw [hM] at hlo hhi
  have hbig : 2 ^ 250 * 2 ^ 50 ≤ M := by
    rw [one'_pow, div_mul_eq_mul_div, le_div_iff₀ (by positivity), one_mul] at hlo
    have e : (2:ℚ) ^ 1074 = (2 ^ 250 * 2 ^ 54) * 2 ^ 770 := by rw [← pow_add, ← pow_add]
    rw [e] at hlo
    have := le_of_mul_le_mul_right hlo (by positivity)
    refine le_trans ?_ this
    norm_num
  have hl : 1000 * M ≤ (lim : ℚ) := by
    rw [div_le_iff₀ one'_posQ, one'_pow, ← pow_add] at hhi
    have e : (lim : ℚ) = 3 * 2 ^ 12 * 2 ^ (1010 + 1074) := by
      unfold lim; push_cast; rw [mul_assoc, ← pow_add]
    rw [e]
    generalize (2:ℚ) ^ (1010 + 1074) = P at *
    have : 0 ≤ P := by
      have : 0 ≤ M := by rw [← hM]; exact abs_nonneg _
      linarith
    linarith
  have hn : a.c0.units ≠ 0 := by
    intro h0
    rw [h0] at hM
    unfold pq at hM
    simp at hM
    rw [← hM] at hbig
    norm_num at hbig
  obtain ⟨hf, he⟩ := mul_units oa ob hM hbig hl (preMul_none oa.f0 ob.f0 hn)
  refine ⟨hf, ?_⟩
  rw [quad_val_UQ hf, quad_val_UQ ha.1, quad_val_UQ hb.1]
  have e1 : UQ a / one' * (UQ b / one') = UP a b / one' := by unfold UP; rw [div_mul_div_comm, div_div]
  rw [e1, ← sub_div, abs_div, abs_div, abs_of_pos one'_posQ, div_right_comm]
  refine div_le_div_of_nonneg_right (he.trans ?_) one'_posQ.le
  -- `M` is nearly the exact product
  have hMP : M ≤ |UP a b| * (1 + 1 / 2 ^ 48) := by
    have h1 := (lead_le oa).1
    have h2 := (lead_le ob).1
    rw [← hM, pq_abs]
    unfold UP
    rw [abs_div, abs_of_pos one'_posQ, abs_mul, div_mul_eq_mul_div]
    refine div_le_div_of_nonneg_right ?_ one'_posQ.le
    refine (mul_le_mul h1 h2 (abs_nonneg _) (by positivity)).trans ?_
    have : 0 ≤ |UQ a| * |UQ b| := by positivity
    have e : |UQ a| * (1 + 1 / 2 ^ 50) * (|UQ b| * (1 + 1 / 2 ^ 50)) = |UQ a| * |UQ b| * ((1 + 1 / 2 ^ 50) * (1 + 1 / 2 ^ 50)) := by ring
    rw [e]
    exact mul_le_mul_of_nonneg_left (by norm_num) this
  have : 0 ≤ |UP a b| := abs_nonneg _
  linarith

/-- Operands that meet the hypotheses. -/
example : Quad.PI.Ordered ∧ Quad.E.Ordered ∧ 1 ≤ |Quad.PI.c0.toRat * Quad.E.c0.toRat| * 2 ^ 770 ∧
    |Quad.PI.c0.toRat * Quad.E.c0.toRat| ≤ 2 ^ 1010 := by decide +kernel

/-- **C51.** Normalized operands are ordered, so the bound holds for all of them. -/
theorem C51_normalized (a b : Quad) (ha : a.Normalized) (hb : b.Normalized)
    (hlo : 1 ≤ |a.c0.toRat * b.c0.toRat| * 2 ^ 770) (hhi : |a.c0.toRat * b.c0.toRat| ≤ 2 ^ 1010) :
    (a * b).Fin ∧ |(a * b).val - a.val * b.val| ≤ |a.val * b.val| / 2 ^ 204 := by
  have qa := QIs.of_fin ha.1
  have qb := QIs.of_fin hb.1
  exact C51_accurate a b (qa.ordered_iff.mpr (qa.normalized_iff.mp ha).ord) (qb.ordered_iff.mpr (qb.normalized_iff.mp hb).ord)
    hlo hhi

example : Quad.PI.Normalized ∧ Quad.E.Normalized := by decide +kernel

end Verif
