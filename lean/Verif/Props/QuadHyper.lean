import Verif.Proofs.QuadHyper

/-!
# C77: hyperbolic functions of Quads
-/

namespace Verif

open F64 Prim Util Quad Consts

/-- Above the threshold the exponential is used, not the series. -/
theorem qgt_f005 {a : Quad} (ha : a.Normalized) (h : 51 / 1000 ≤ |qv a|) : F64.gt a.abs.c0 Double.f005 = true := by
  obtain ⟨na, va⟩ := C41_quad_abs_val a ha
  have va' : qv a.abs = |qv a| := by unfold qv; rw [va]; push_cast; rfl
  refine (fr_lt f005_bd.1 na.1.1).mpr ?_
  have h2 := qv_sub_c0 (qord_norm na)
  rw [va'] at h2
  have h3 := (abs_le.mp h2).2
  have h5 := f005_bd.2.2
  by_contra hc
  have h6 : fr a.abs.c0 ≤ 501 / 10000 := (not_lt.mp hc).trans h5
  have h7 : -(1:ℝ) ≤ fr a.abs.c0 := by
    have h8 := (C41_quad_abs_val a ha).2
    by_contra hd
    have h9 : |fr a.abs.c0| = - fr a.abs.c0 := abs_of_neg (by linarith)
    rw [h9] at h3
    norm_num at h3
    linarith
  have h8 : |fr a.abs.c0| ≤ 1 := abs_le.mpr ⟨h7, by linarith⟩
  norm_num at h3
  linarith

theorem qzero_class {a : Quad} (ha : a.Normalized) : (a.isZero = true ↔ qv a = 0) ∧ a.isNan = false ∧ a.isInfinite = false := by
  refine ⟨?_, fsq_fin ha.1.1⟩
  rw [fsq_isZero ha.1.1, ← (quad_sign_head a ha).2.2]
  unfold qv
  exact_mod_cast Iff.rfl

/-- Halving a sum of exponentials. -/
theorem qhalf_comb {q : Quad} {x c β : ℝ} (h : QA q x ((β + 103 / 10) / 2 ^ 126 * (2 * c)) (52 / 10 * c)) (h1 : 1 ≤ c)
    (h2 : c ≤ 2 ^ 190 * 2 ^ 190 * (2 ^ 190 * 2 ^ 190)) :
    QA (mulPwr2 q Double.half) (x / 2) ((β + 11) / 2 ^ 126 * c) (27 / 10 * c) := by
  have := h.scale scale_half (by norm_num at h2 ⊢; linarith) (by norm_num; linarith)
  push_cast at this
  rw [one_div_mul_eq_div] at this
  refine this.mono ?_ ?_
  · have e : (β + 11) / 2 ^ 126 * c = 1 / 2 * ((β + 103 / 10) / 2 ^ 126 * (2 * c)) + 7 / 10 / 2 ^ 126 * c := by ring
    rw [e]
    norm_num; linarith
  · norm_num; linarith

theorem cosh_le_big {x : ℝ} (h : |x| ≤ 500) : Real.cosh x ≤ 2 ^ 190 * 2 ^ 190 * (2 ^ 190 * 2 ^ 190) := by
  have hb := abs_le.mp h
  have b1 := exp_le_big (x := x) hb.2
  have b2 := exp_le_big (x := -x) (by linarith [hb.1])
  rw [Real.cosh_eq]; linarith

/-- **C77.** `cosh` of a normalized Quad of absolute value at most 469: the result is finite and its relative error is at most
`(|a| + 11) 2^-126`. -/
theorem C77_quad_cosh (a : Quad) (ha : a.Normalized) (h : |(a.val : ℝ)| ≤ 469) :
    ∃ r, Quad.cosh a = some r ∧ r.Fin ∧
      |(r.val : ℝ) - Real.cosh (a.val : ℝ)| ≤ (|(a.val : ℝ)| + 11) / 2 ^ 126 * Real.cosh (a.val : ℝ) := by
  change |qv a| ≤ 469 at h
  change ∃ r, _ ∧ _ ∧ |qv r - Real.cosh (qv a)| ≤ (|qv a| + 11) / 2 ^ 126 * Real.cosh (qv a)
  obtain ⟨cz, cn, ci⟩ := qzero_class ha
  unfold Quad.cosh Quad.preCosh
  rw [if_neg (by rw [cn]; simp)]
  by_cases hz : a.isZero = true
  · rw [if_pos hz]
    refine ⟨_, rfl, by decide +kernel, ?_⟩
    have h3 : Quad.ONE.val = 1 := by decide +kernel
    rw [cz.mp hz]
    unfold qv
    rw [h3]; norm_num
  · rw [if_neg hz]
    obtain ⟨e, he, h1, -⟩ := qexp_comb ha h
    dsimp only
    rw [he]
    have h4 := qhalf_comb h1 (Real.one_le_cosh _) (cosh_le_big (by linarith))
    rw [show 2 * Real.cosh (qv a) / 2 = Real.cosh (qv a) by ring] at h4
    exact ⟨_, rfl, h4.fin, h4.err⟩

/-- `sinh` and `sinh_cosh` where the exponential is used. -/
theorem qsinh_exp (P : Platform) (n : ℕ) {a : Quad} (ha : a.Normalized) (hg : F64.gt a.abs.c0 Double.f005 = true)
    (h0 : 49 / 1000 ≤ |qv a|) (h : |qv a| ≤ 469) :
    ∃ s c, Quad.sinh P n a = some s ∧ Quad.sinhCosh P n a = some (s, c) ∧ s.Fin ∧ c.Fin ∧
      |qv s - Real.sinh (qv a)| ≤ (|qv a| + 11) / 2 ^ 126 * Real.cosh (qv a) ∧
      |qv s - Real.sinh (qv a)| ≤ (|qv a| + 11) / 2 ^ 121 * |Real.sinh (qv a)| ∧
      |qv c - Real.cosh (qv a)| ≤ (|qv a| + 11) / 2 ^ 126 * Real.cosh (qv a) := by
  obtain ⟨cz, cn, ci⟩ := qzero_class ha
  have hz : ¬ a.isZero = true := by
    rw [cz]; intro hc; rw [hc, abs_zero] at h0; norm_num at h0
  have hle : ¬ F64.le a.abs.c0 Double.f005 = true := by
    have ia := Is.of_finite (C41_quad_abs_val a ha).1.1.1
    have ib := Is.of_finite f005_bd.1
    unfold F64.gt at hg
    rw [ib.lt_iff ia] at hg
    rw [ia.le_iff ib, not_le]; exact hg
  unfold Quad.sinh Quad.preSinh Quad.sinhCosh Quad.preSinhCosh
  have cn' : ¬ a.isNan = true := by rw [cn]; simp
  simp only [if_neg cn', if_neg hz, if_pos hg, if_neg hle]
  obtain ⟨e, he, h1, h2⟩ := qexp_comb ha h
  rw [he]
  have h4 := qhalf_comb h1 (Real.one_le_cosh _) (cosh_le_big (by linarith))
  rw [show 2 * Real.cosh (qv a) / 2 = Real.cosh (qv a) by ring] at h4
  have h5 := qhalf_comb h2 (Real.one_le_cosh _) (cosh_le_big (by linarith))
  rw [show 2 * Real.sinh (qv a) / 2 = Real.sinh (qv a) by ring] at h5
  refine ⟨_, _, rfl, rfl, h5.fin, h4.fin, h5.err, ?_, h4.err⟩
  refine h5.err.trans ?_
  have h6 := sinh_ge_cosh (x := qv a) (by linarith)
  have e1 : (|qv a| + 11) / 2 ^ 121 * |Real.sinh (qv a)| = (|qv a| + 11) / 2 ^ 126 * (32 * |Real.sinh (qv a)|) := by ring
  rw [e1]
  refine mul_le_mul_of_nonneg_left ?_ (by positivity)
  have := abs_nonneg (Real.sinh (qv a))
  linarith

/-- **C77.** `sinh` and `sinh_cosh` of a normalized Quad whose absolute value lies between 0.051 and 469 (where the exponential
is used and not the series, so that no round of the loop is needed): the results are finite, the error of the sine is at most
`(|a| + 11) 2^-126 cosh a` — a relative error of at most `(|a| + 11) 2^-121` — and the relative error of the cosine is at most
`(|a| + 11) 2^-126`. -/
theorem C77_quad_sinh (P : Platform) (n : ℕ) (a : Quad) (ha : a.Normalized) (h0 : 51 / 1000 ≤ |(a.val : ℝ)|)
    (h : |(a.val : ℝ)| ≤ 469) :
    ∃ s c, Quad.sinh P n a = some s ∧ Quad.sinhCosh P n a = some (s, c) ∧ s.Fin ∧ c.Fin ∧
      |(s.val : ℝ) - Real.sinh (a.val : ℝ)| ≤ (|(a.val : ℝ)| + 11) / 2 ^ 126 * Real.cosh (a.val : ℝ) ∧
      |(s.val : ℝ) - Real.sinh (a.val : ℝ)| ≤ (|(a.val : ℝ)| + 11) / 2 ^ 121 * |Real.sinh (a.val : ℝ)| ∧
      |(c.val : ℝ) - Real.cosh (a.val : ℝ)| ≤ (|(a.val : ℝ)| + 11) / 2 ^ 126 * Real.cosh (a.val : ℝ) := by
  exact qsinh_exp P n ha (qgt_f005 ha h0) (le_trans (by norm_num) h0) h

/-- `tanh` where the exponential is used. -/
theorem qtanh_exp (P : Platform) (n : ℕ) {a : Quad} (ha : a.Normalized) (hg : F64.gt a.abs.c0 Double.f005 = true)
    (h0 : 49 / 1000 ≤ |qv a|) (h : |qv a| ≤ 108) :
    ∃ r, Quad.tanh P n a = some r ∧ r.Fin ∧ |qv r - Real.tanh (qv a)| ≤ (2 * |qv a| + 27) / 2 ^ 126 := by
  obtain ⟨cz, cn, ci⟩ := qzero_class ha
  have hz : ¬ a.isZero = true := by
    rw [cz]; intro hc; rw [hc, abs_zero] at h0; norm_num at h0
  unfold Quad.tanh Quad.preTanh
  rw [if_neg (by rw [cn]; simp), if_neg hz, if_neg (by rw [ci]; simp)]
  dsimp only
  rw [if_pos hg]
  obtain ⟨e, he, h1, h2⟩ := qexp_comb ha (by linarith)
  rw [he]
  have hC := Real.one_le_cosh (qv a)
  have hCb : Real.cosh (qv a) ≤ 2 ^ 157 := by
    obtain ⟨-, l2, -⟩ := fr_ln2
    have e1 : Real.exp (157 * Real.log 2) = 2 ^ 157 := by
      rw [mul_comm, Real.exp_mul, Real.exp_log (by norm_num)]
      norm_cast
    have hb := abs_le.mp h
    have k1 : Real.exp (qv a) ≤ 2 ^ 157 := by
      rw [← e1]; apply Real.exp_le_exp.mpr; norm_num at l2; linarith
    have k2 : Real.exp (-qv a) ≤ 2 ^ 157 := by
      rw [← e1]; apply Real.exp_le_exp.mpr; norm_num at l2; linarith
    rw [Real.cosh_eq]; linarith
  have hS : |2 * Real.sinh (qv a) / (2 * Real.cosh (qv a))| ≤ 1 := by
    rw [abs_div, abs_of_pos (show 0 < 2 * Real.cosh (qv a) by linarith), div_le_one (by linarith), abs_le]
    have k1 := Real.exp_pos (qv a)
    have k2 := Real.exp_pos (-qv a)
    rw [Real.sinh_eq, Real.cosh_eq]
    constructor <;> linarith
  have ht : Real.tanh (qv a) = 2 * Real.sinh (qv a) / (2 * Real.cosh (qv a)) := by
    rw [Real.tanh_eq_sinh_div_cosh, mul_div_mul_left _ _ (by norm_num)]
  rw [ht]
  have hβ := abs_nonneg (qv a)
  generalize Real.cosh (qv a) = C at *
  generalize 2 * Real.sinh (qv a) = S at *
  generalize |qv a| = β at *
  have hk : (β + 103 / 10) / 2 ^ 126 * (2 * C) ≤ 1 / 2 ^ 110 * (2 * C) := by
    refine mul_le_mul_of_nonneg_right ?_ (by linarith)
    norm_num; linarith
  have hk0 : 0 ≤ (β + 103 / 10) / 2 ^ 126 * (2 * C) := by positivity
  have hq : QA ((e - e.recip) / (e + e.recip)) (S / (2 * C)) ((2 * β + 27) / 2 ^ 126) 3 := by
    refine h2.div h1 (L := 2 * C * (1 - 1 / 2 ^ 109)) ?_ ?_ ?_ ?_ ?_ ?_ ?_ ?_ ?_
    · exact mul_pos (by linarith) (by norm_num)
    · rw [abs_of_pos (by linarith)]
      norm_num at hk ⊢; linarith
    · norm_num; linarith
    · exact huge_le (by linarith) (by norm_num; linarith)
    · norm_num at hCb ⊢; linarith
    · exact huge_le (by linarith) (by norm_num; linarith)
    · exact huge_le (mul_nonneg (by linarith) (by norm_num)) (by norm_num; linarith)
    · norm_num; linarith
    · have h8 := mul_le_mul_of_nonneg_right hS hk0
      have e1 : (2 * β + 27) / 2 ^ 126 * (2 * C * (1 - 1 / 2 ^ 109)) = 2 * ((β + 103 / 10) / 2 ^ 126 * (2 * C)) + (64 / 10 / 2 ^ 126) * (2 * C) - (2 * β + 27) / 2 ^ 126 / 2 ^ 109 * (2 * C) := by ring
      have h9 : (2 * β + 27) / 2 ^ 126 / 2 ^ 109 * (2 * C) ≤ 1 / 2 ^ 200 * (2 * C) := by
        refine mul_le_mul_of_nonneg_right ?_ (by linarith)
        norm_num; linarith
      rw [e1]
      generalize (2 * β + 27) / 2 ^ 126 / 2 ^ 109 * (2 * C) = u at *
      generalize (β + 103 / 10) / 2 ^ 126 * (2 * C) = v at *
      norm_num at h8 h9 ⊢; linarith
  exact ⟨_, rfl, hq.fin, hq.err⟩

/-- **C77.** `tanh` of a normalized Quad whose absolute value lies between 0.051 and 108: the result is finite and its error is
at most `(2 |a| + 27) 2^-126`. -/
theorem C77_quad_tanh (P : Platform) (n : ℕ) (a : Quad) (ha : a.Normalized) (h0 : 51 / 1000 ≤ |(a.val : ℝ)|)
    (h : |(a.val : ℝ)| ≤ 108) :
    ∃ r, Quad.tanh P n a = some r ∧ r.Fin ∧
      |(r.val : ℝ) - Real.tanh (a.val : ℝ)| ≤ (2 * |(a.val : ℝ)| + 27) / 2 ^ 126 := by
  exact qtanh_exp P n ha (qgt_f005 ha h0) (le_trans (by norm_num) h0) h

/-- Non-triviality: π meets the hypotheses of all three theorems. -/
example : Quad.PI.Normalized ∧ (51 / 1000 : ℚ) ≤ |Quad.PI.val| ∧ |Quad.PI.val| ≤ 108 := by
  refine ⟨C48_quad_normalized _ (by simp), ?_⟩
  decide +kernel

end Verif
