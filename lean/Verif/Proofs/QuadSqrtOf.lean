import Verif.Proofs.QuadSqrt

/-!
# The square root of an approximation
-/

namespace Verif

open F64 Prim Util Quad Consts

theorem sqrt_near {p q δ : ℝ} (hq : 0 < q) (h : |p - q| ≤ q * δ) (hδ : δ ≤ 1 / 2 ^ 20) :
    0 < p ∧ |Real.sqrt p - Real.sqrt q| ≤ Real.sqrt q * δ := by
  have hqd : q * δ ≤ q * (1 / 2 ^ 20) := mul_le_mul_of_nonneg_left hδ hq.le
  have hp : 0 < p := by norm_num at hqd; linarith [(abs_le.mp h).1]
  refine ⟨hp, ?_⟩
  have s := Real.sqrt_pos.mpr hq
  have t := Real.sqrt_pos.mpr hp
  have e : p - q = (Real.sqrt p - Real.sqrt q) * (Real.sqrt p + Real.sqrt q) := by
    have e1 := Real.mul_self_sqrt hq.le
    have e2 := Real.mul_self_sqrt hp.le
    nlinarith
  rw [e, abs_mul, abs_of_pos (add_pos t s)] at h
  have h2 : |Real.sqrt p - Real.sqrt q| * Real.sqrt q ≤ q * δ :=
    (mul_le_mul_of_nonneg_left (by linarith) (abs_nonneg _)).trans h
  have h3 : q * δ = Real.sqrt q * δ * Real.sqrt q := by
    conv => lhs; rw [← Real.mul_self_sqrt hq.le]
    ring
  rw [h3] at h2
  exact le_of_mul_le_mul_right h2 s

/-- The square root of an approximation. -/
theorem qsqrt_of {P : Platform} (hP : FloatText P.toStr) {q : Quad} {Q δ X : ℝ} (h : QA q Q (Q * δ) X) (hQ : 0 < Q) (hδ : δ ≤ 1 / 2 ^ 20)
    (hX : X ≤ Q * (1005 / 1000)) (h1 : 1 ≤ Q * (2 ^ 200 * 2 ^ 200 * (2 ^ 200 * 2 ^ 200))) (h2 : Q ≤ 2 ^ 200 * 2 ^ 200 * (2 ^ 200 * 2 ^ 209)) :
    ∃ r, Quad.sqrt P q = some r ∧ QA r (Real.sqrt Q) (Real.sqrt Q * (δ + 16 / 10 / 2 ^ 128)) (Real.sqrt Q * (102 / 100)) := by
  obtain ⟨hp, hs⟩ := sqrt_near hQ h.err hδ
  have hδ0 : 0 ≤ δ := by
    by_contra hc
    have := mul_neg_of_pos_of_neg hQ (not_le.mp hc)
    have := h.nonneg
    linarith
  have hqd : Q * δ ≤ Q * (1 / 2 ^ 20) := mul_le_mul_of_nonneg_left hδ hQ.le
  have herr := abs_le.mp h.err
  have k1 : Q * (99 / 100) ≤ qv q := by clear h1 h2; norm_num at hqd; linarith [herr.1]
  have k2 : qv q ≤ Q * (101 / 100) := by clear h1 h2; norm_num at hqd; linarith [herr.2]
  obtain ⟨r, hr, k⟩ := qsqrt_any P hP rfl (h.sz.mono (show X ≤ qv q * (101 / 100) by
      clear h1 h2; norm_num at hqd; linarith [herr.1])) hp (by
      refine h1.trans ?_
      refine (mul_le_mul_of_nonneg_left (show ((2:ℝ) ^ 200 * 2 ^ 200 * (2 ^ 200 * 2 ^ 200)) ≤ 99 / 100 * (2 ^ 210 * 2 ^ 205 * (2 ^ 210 * 2 ^ 205)) by norm_num) hQ.le).trans ?_
      rw [← mul_assoc]
      exact mul_le_mul_of_nonneg_right k1 (by positivity)) (by
      refine k2.trans ((mul_le_mul_of_nonneg_right h2 (by norm_num)).trans (by norm_num)))
  clear h1 h2
  have s0 := Real.sqrt_pos.mpr hQ
  have hs' := abs_le.mp hs
  have hsd : Real.sqrt Q * δ ≤ Real.sqrt Q * (1 / 2 ^ 20) := mul_le_mul_of_nonneg_left hδ s0.le
  refine ⟨r, hr, (k.move hs).mono ?_ ?_⟩
  · have := hs'.2
    rw [mul_add]
    generalize Real.sqrt Q * δ = t at *
    norm_num at this hsd ⊢; linarith
  · have := hs'.2
    generalize Real.sqrt Q * δ = t at *
    norm_num at this hsd ⊢; linarith

end Verif
