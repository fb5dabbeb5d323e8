import Verif.Props.QuadLn

/-!
# The logarithm of an approximation
-/

namespace Verif

open F64 Prim Util Quad Consts

/-- Logarithms of nearby numbers. -/
theorem log_near {p q δ : ℝ} (hq : 0 < q) (h : |p - q| ≤ q * δ) (hδ : δ ≤ 1 / 2 ^ 20) :
    0 < p ∧ |Real.log p - Real.log q| ≤ 101 / 100 * δ := by
  have h' := abs_le.mp h
  have hδ0 : 0 ≤ δ := by
    by_contra hc
    have := mul_neg_of_pos_of_neg hq (not_le.mp hc)
    have := abs_nonneg (p - q)
    linarith
  have hqd : q * δ ≤ q * (1 / 2 ^ 20) := mul_le_mul_of_nonneg_left hδ hq.le
  have hp : 0 < p := by norm_num at hqd; linarith [h'.1]
  refine ⟨hp, ?_⟩
  have e1 := Real.log_le_sub_one_of_pos (div_pos hp hq)
  have e2 := Real.log_le_sub_one_of_pos (div_pos hq hp)
  rw [Real.log_div hp.ne' hq.ne'] at e1
  rw [Real.log_div hq.ne' hp.ne'] at e2
  have f1 : p / q ≤ 1 + δ := by
    rw [div_le_iff₀ hq]; linarith [h'.2]
  have f2 : q / p ≤ 1 + 101 / 100 * δ := by
    rw [div_le_iff₀ hp]
    have : q * (1 - δ) ≤ p := by linarith [h'.1]
    have h3 := mul_le_mul_of_nonneg_left this (show (0:ℝ) ≤ 1 + 101 / 100 * δ by positivity)
    refine le_trans ?_ h3
    have h4 : 0 ≤ q * δ := by positivity
    have h5 : q * δ * δ ≤ q * δ * (1 / 2 ^ 20) := mul_le_mul_of_nonneg_left hδ h4
    have e : (1 + 101 / 100 * δ) * (q * (1 - δ)) = q + (1 / 100) * (q * δ) - 101 / 100 * (q * δ * δ) := by ring
    rw [e]
    norm_num at h5; linarith
  rw [abs_le]; constructor <;> linarith

/-- `ln` of an approximation. -/
theorem qln_of {P : Platform} (hP : LibmLogs P) {q : Quad} {Q δ X K : ℝ} (h : QA q Q (Q * δ) X) (hQ : 0 < Q) (hδ : δ ≤ 1 / 2 ^ 20)
    (hX : X ≤ Q * (K * (999 / 1000))) (hK1 : 1 ≤ K) (hK2 : |Real.log Q| + K ≤ 708) (h1 : -706 ≤ Real.log Q) (h2 : Real.log Q ≤ 468) :
    ∃ r, Quad.ln P q = some r ∧
      QA r (Real.log Q) ((2 * |Real.log Q| + 13 + 2 * K) / 2 ^ 126 + 101 / 100 * δ) (|Real.log Q| + 2 + K) := by
  obtain ⟨hp, hl⟩ := log_near hQ h.err hδ
  have hl' := abs_le.mp hl
  have hXK : X ≤ qv q * K := by
    refine hX.trans ?_
    rw [show Q * (K * (999 / 1000)) = Q * (999 / 1000) * K by ring]
    refine mul_le_mul_of_nonneg_right ?_ (by linarith)
    have e := (abs_le.mp h.err).1
    have hqd : Q * δ ≤ Q * (1 / 2 ^ 20) := mul_le_mul_of_nonneg_left hδ hQ.le
    norm_num at hqd; linarith
  have hab : |Real.log (qv q)| ≤ |Real.log Q| + 101 / 100 * δ := by
    have := abs_add_le (Real.log (qv q) - Real.log Q) (Real.log Q)
    rw [sub_add_cancel] at this; linarith
  obtain ⟨r, hr, k⟩ := qln_any hP (h.sz.mono hXK) hK1 hp (by norm_num at hδ; linarith) (by norm_num at hδ; linarith [hl'.1])
    (by norm_num at hδ; linarith [hl'.2])
  refine ⟨r, hr, (k.move hl).mono ?_ (by norm_num at hδ; linarith)⟩
  refine add_le_add (div_le_div_of_nonneg_right ?_ (by positivity)) le_rfl
  norm_num at hδ; linarith

end Verif
