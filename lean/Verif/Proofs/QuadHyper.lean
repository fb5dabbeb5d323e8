import Verif.Proofs.QuadApDiv
import Verif.Props.QuadLog
import Verif.Props.Hyper

/-!
# Hyperbolic functions of Quads: the exponential and its reciprocal
-/

namespace Verif

open F64 Prim Util Quad Consts

theorem exp_le_big {x : ℝ} (h : x ≤ 500) : Real.exp x ≤ 2 ^ 190 * 2 ^ 190 * (2 ^ 190 * 2 ^ 190) := by
  obtain ⟨-, l2, -⟩ := fr_ln2
  have e1 : Real.exp (190 * Real.log 2) = 2 ^ 190 := by
    rw [mul_comm, Real.exp_mul, Real.exp_log (by norm_num)]
    norm_cast
  calc Real.exp x ≤ Real.exp (190 * Real.log 2 + 190 * Real.log 2 + (190 * Real.log 2 + 190 * Real.log 2)) := by
        apply Real.exp_le_exp.mpr
        norm_num at l2; linarith
    _ = _ := by rw [Real.exp_add, Real.exp_add, e1]

theorem huge_exp : (2:ℝ) ^ 190 * 2 ^ 190 * (2 ^ 190 * 2 ^ 190) * 2 ^ 20 ≤ (hugeQ : ℝ) := by
  have : (2:ℚ) ^ 190 * 2 ^ 190 * (2 ^ 190 * 2 ^ 190) * 2 ^ 20 ≤ hugeQ := by rw [hugeQ_eq]; norm_num
  exact_mod_cast this

/-- The exponential and its reciprocal. -/
theorem qexp_pair {a : Quad} (ha : a.Normalized) (h : |qv a| ≤ 469) :
    ∃ e, Quad.exp a = some e ∧ QA e (Real.exp (qv a)) ((|qv a| + 8) / 2 ^ 126 * Real.exp (qv a)) (5 * Real.exp (qv a)) ∧
      QA e.recip (1 / Real.exp (qv a)) ((|qv a| + 9) / 2 ^ 126 * (1 / Real.exp (qv a))) (101 / 100 * (1 / Real.exp (qv a))) := by
  have hc := abs_le.mp (qv_sub_c0 (qord_norm ha))
  have hb := abs_le.mp h
  have h0 := abs_nonneg (qv a)
  have hc0 : |fr a.c0| ≤ 470 := by
    have := abs_sub_abs_le_abs_sub (fr a.c0) (qv a)
    rw [abs_sub_comm] at this
    have h3 := qv_sub_c0 (qord_norm ha)
    norm_num at h3
    linarith
  have hc1 := abs_le.mp hc0
  obtain ⟨e, X, he, hq, hX⟩ := qexp_any (qord_norm ha).exact.sz le_rfl (by linarith) hc1.1 (by linarith [hc1.2])
  have hE := Real.exp_pos (qv a)
  have hq := hq.mono le_rfl hX
  refine ⟨e, he, hq, ?_⟩
  have b1 := exp_le_big (x := qv a) (by linarith [hb.2])
  have b2 := exp_le_big (x := -qv a) (by linarith [hb.1])
  rw [Real.exp_neg] at b2
  have hh := huge_exp
  generalize Real.exp (qv a) = E at *
  have hi : E * E⁻¹ = 1 := mul_inv_cancel₀ hE.ne'
  have hEi : 0 < E⁻¹ := inv_pos.mpr hE
  unfold Quad.recip
  have hlow : 1 ≤ E * (2 ^ 190 * 2 ^ 190 * (2 ^ 190 * 2 ^ 190)) := by
    rw [← hi]; exact mul_le_mul_of_nonneg_left b2 hE.le
  generalize (2:ℝ) ^ 190 * 2 ^ 190 * (2 ^ 190 * 2 ^ 190) = H at *
  have hH : 0 ≤ H := hE.le.trans b1
  have hlow2 : E * (H * 2 ^ 20) ≤ E * hugeQ := mul_le_mul_of_nonneg_left hh hE.le
  refine qa_one.div hq (L := E * (1 - 1 / 2 ^ 100)) ?_ ?_ ?_ ?_ ?_ ?_ ?_ ?_ ?_
  · exact mul_pos hE (by norm_num)
  · rw [abs_of_pos hE]
    have : (|qv a| + 8) / 2 ^ 126 * E ≤ 1 / 2 ^ 100 * E := by
      refine mul_le_mul_of_nonneg_right ?_ hE.le
      norm_num; linarith
    linarith
  · norm_num; linarith
  · exact huge_le (by norm_num) (by norm_num)
  · norm_num
  · rw [one_mul]
    have h5 : 5 * E ≤ H * 2 ^ 20 := by linarith
    have h6 : (0:ℝ) ≤ (hugeQ : ℝ) := by exact_mod_cast hugeQ_pos.le
    refine h5.trans (hh.trans ?_)
    exact le_mul_of_one_le_left h6 (by norm_num)
  · have e1 : E * (1 - 1 / 2 ^ 100) * (hugeQ : ℝ) = E * hugeQ * (1 - 1 / 2 ^ 100) := by ring
    rw [e1]
    have e2 : E * (H * 2 ^ 20) = E * H * 2 ^ 20 := by ring
    rw [e2] at hlow2
    generalize E * (hugeQ : ℝ) = u at *
    generalize E * H = v at *
    norm_num at hlow2 ⊢; linarith
  · have : 101 / 100 * (1 / E) * (E * (1 - 1 / 2 ^ 100)) = 101 / 100 * (1 - 1 / 2 ^ 100) := by field_simp
    rw [this]; norm_num
  · have e1 : |1 / E| * ((|qv a| + 8) / 2 ^ 126 * E) = (|qv a| + 8) / 2 ^ 126 := by
      rw [abs_of_pos (by positivity)]; field_simp
    have e2 : (|qv a| + 9) / 2 ^ 126 * (1 / E) * (E * (1 - 1 / 2 ^ 100)) = (|qv a| + 9) / 2 ^ 126 * (1 - 1 / 2 ^ 100) := by field_simp
    rw [e1, e2]
    norm_num; linarith

/-- The sum and the difference of the exponential and its reciprocal. -/
theorem qexp_comb {a : Quad} (ha : a.Normalized) (h : |qv a| ≤ 469) :
    ∃ e, Quad.exp a = some e ∧
      QA (e + e.recip) (2 * Real.cosh (qv a)) ((|qv a| + 103 / 10) / 2 ^ 126 * (2 * Real.cosh (qv a))) (52 / 10 * Real.cosh (qv a)) ∧
      QA (e - e.recip) (2 * Real.sinh (qv a)) ((|qv a| + 103 / 10) / 2 ^ 126 * (2 * Real.cosh (qv a))) (52 / 10 * Real.cosh (qv a)) := by
  obtain ⟨e, he, h1, h2⟩ := qexp_pair ha h
  have hb := abs_le.mp h
  have h0 := abs_nonneg (qv a)
  have hE := Real.exp_pos (qv a)
  have b1 := exp_le_big (x := qv a) (by linarith [hb.2])
  have b2 := exp_le_big (x := -qv a) (by linarith [hb.1])
  have hEi := Real.exp_pos (-qv a)
  have e0 : 1 / Real.exp (qv a) = Real.exp (-qv a) := by rw [Real.exp_neg, one_div]
  rw [e0] at h2
  have c1 : 2 * Real.cosh (qv a) = Real.exp (qv a) + Real.exp (-qv a) := by rw [Real.cosh_eq]; ring
  have c2 : 2 * Real.sinh (qv a) = Real.exp (qv a) - Real.exp (-qv a) := by rw [Real.sinh_eq]; ring
  have hsc : |Real.exp (qv a) - Real.exp (-qv a)| ≤ 2 * Real.cosh (qv a) := by
    rw [c1, abs_le]; constructor <;> linarith
  refine ⟨e, he, ?_, ?_⟩
  all_goals
    have hC : Real.exp (qv a) + Real.exp (-qv a) = 2 * Real.cosh (qv a) := c1.symm
    have hg : (|qv a| + 8) / 2 ^ 126 * Real.exp (qv a) + (|qv a| + 9) / 2 ^ 126 * Real.exp (-qv a) ≤ (|qv a| + 9) / 2 ^ 126 * (2 * Real.cosh (qv a)) := by
      rw [c1, mul_add]
      have : (|qv a| + 8) / 2 ^ 126 * Real.exp (qv a) ≤ (|qv a| + 9) / 2 ^ 126 * Real.exp (qv a) :=
        mul_le_mul_of_nonneg_right (by norm_num; linarith) hE.le
      linarith
    have hg2 : (|qv a| + 103 / 10) / 2 ^ 126 * (2 * Real.cosh (qv a)) ≤ 1 / 2 ^ 100 * (2 * Real.cosh (qv a)) :=
      mul_le_mul_of_nonneg_right (by norm_num; linarith) (by linarith)
    have hg3 : (|qv a| + 103 / 10) / 2 ^ 126 * (2 * Real.cosh (qv a)) = (|qv a| + 9) / 2 ^ 126 * (2 * Real.cosh (qv a)) + 26 / 10 * Real.cosh (qv a) / 2 ^ 126 := by ring
  · rw [← hC]
    refine h1.add h2 (Z := 10 * Real.cosh (qv a)) ?_ ?_ ?_ ?_ ?_ ?_
    · linarith
    · linarith
    · refine le_trans (show _ ≤ 10 * ((2:ℝ) ^ 190 * 2 ^ 190 * (2 ^ 190 * 2 ^ 190)) by linarith) (by norm_num)
    · rw [hC, hg3]
      norm_num at hg ⊢; linarith
    · linarith
    · rw [hC, abs_of_pos (by linarith)]
      norm_num at hg2 ⊢; linarith
  · rw [c2]
    refine h1.sub h2 (Z := 10 * Real.cosh (qv a)) ?_ ?_ ?_ ?_ ?_ ?_
    · linarith
    · linarith
    · refine le_trans (show _ ≤ 10 * ((2:ℝ) ^ 190 * 2 ^ 190 * (2 ^ 190 * 2 ^ 190)) by linarith) (by norm_num)
    · rw [hg3]
      norm_num at hg ⊢; linarith
    · linarith
    · norm_num at hg2 ⊢; linarith

end Verif
