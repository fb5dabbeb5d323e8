import Verif.Proofs.QuadApDiv
import Verif.Props.QuadLn

/-!
# C76: logarithms of Quads to other bases
-/

namespace Verif

open F64 Prim Util Quad Consts

theorem qa_ln10 : QA Quad.LN_10 (Real.log 10) (1 / 2 ^ 212) (231 / 100) := by
  have h := C48_quad_values.2.2.2.2.2.2.2.2.2.2.2.2.2.2.2.2.2.2.2.2.2.2.2
  unfold Near at h
  obtain ⟨l2, l3⟩ := log10_bounds
  have lp : 0 < Real.log 10 := by norm_num at l2; linarith
  rw [abs_of_pos lp] at h
  refine qa_of (C48_quad_normalized _ (by simp)) ?_ ?_
  · rw [le_div_iff₀ (by positivity)]
    change |qv _ - _| * _ ≤ _ at h
    norm_num at *
    linarith
  · rw [abs_of_pos lp]
    norm_num at *; linarith

/-- A logarithm divided by the logarithm of the base. -/
theorem qlog_quot {r c : Quad} {L b f Y K : ℝ} (hr : QA r L ((2 * |L| + 15) / 2 ^ 126) (|L| + 3)) (hL : |L| ≤ 707)
    (hc : QA c b f Y) (hb1 : 1 / 100 ≤ |b|) (hf : f ≤ |b| / 2 ^ 100) (hY : Y ≤ 500 * |b|) (hY2 : Y ≤ 2 ^ 20) (hb2 : |b| ≤ 707)
    (hK : 0 ≤ K) (hKf : f ≤ K / 2 ^ 126) :
    ∃ Z, QA (r / c) (L / b) (((251 / 100 * |L| + 167 / 10) / |b| + K * |L / b| * (1 + 1 / 2 ^ 90) / |b|) / 2 ^ 126) Z := by
  have hL0 := abs_nonneg L
  have hb0 : 0 < |b| := by linarith
  have hq0 := abs_nonneg (L / b)
  refine ⟨(|L| + 3) * (1 + 1 / 2 ^ 37) / |b|, ?_⟩
  refine hr.div hc (L := |b| * (1 - 1 / 2 ^ 100)) ?_ ?_ ?_ ?_ ?_ ?_ ?_ ?_ ?_
  · exact mul_pos hb0 (by norm_num)
  · norm_num at hf ⊢; linarith
  · norm_num; linarith
  · exact huge_le (by linarith) (by norm_num; linarith)
  · norm_num; linarith
  · exact huge_le (by linarith) (by norm_num at hY2 ⊢; linarith)
  · exact huge_le (mul_nonneg hb0.le (by norm_num)) (by norm_num at hb1 ⊢; linarith)
  · have e : (|L| + 3) * (1 + 1 / 2 ^ 37) / |b| * (|b| * (1 - 1 / 2 ^ 100)) = (|L| + 3) * ((1 + 1 / 2 ^ 37) * (1 - 1 / 2 ^ 100)) := by
      field_simp
    rw [e]
    exact mul_le_mul_of_nonneg_left (by norm_num) (by linarith)
  · have e : ((251 / 100 * |L| + 167 / 10) / |b| + K * |L / b| * (1 + 1 / 2 ^ 90) / |b|) / 2 ^ 126 * (|b| * (1 - 1 / 2 ^ 100)) =
        ((251 / 100 * |L| + 167 / 10) + K * |L / b| * (1 + 1 / 2 ^ 90)) * ((1 - 1 / 2 ^ 100) / 2 ^ 126) := by
      field_simp
    rw [e]
    have h1 : |L / b| * f ≤ |L / b| * (K / 2 ^ 126) := mul_le_mul_of_nonneg_left hKf hq0
    have h2 : 0 ≤ K * |L / b| := mul_nonneg hK hq0
    have h3 : |L / b| * (K / 2 ^ 126) = K * |L / b| / 2 ^ 126 := by ring
    rw [h3] at h1
    generalize K * |L / b| = w at *
    generalize |L / b| * f = v at *
    norm_num at h1 ⊢
    linarith

/-- **C76.** `log10` and `log2` of a Quad, on any platform whose `f64` logarithms are reasonable: for a positive number whose
natural logarithm is between -707 and 469 the results are finite, within `(3 |log10 a| + 8) 2^-126` and `(3 |log2 a| + 25) 2^-126`. -/
theorem C76_quad_log10_log2 (P : Platform) (hP : LibmLogs P) (a : Quad) (ha : a.Normalized) (hp : 0 < a.val)
    (h1 : -707 ≤ Real.log (a.val : ℝ)) (h2 : Real.log (a.val : ℝ) ≤ 469) :
    (∃ r, Quad.log10 P a = some r ∧ r.Fin ∧
      |(r.val : ℝ) - Real.logb 10 (a.val : ℝ)| ≤ (3 * |Real.logb 10 (a.val : ℝ)| + 8) / 2 ^ 126) ∧
    (∃ r, Quad.log2 P a = some r ∧ r.Fin ∧
      |(r.val : ℝ) - Real.logb 2 (a.val : ℝ)| ≤ (3 * |Real.logb 2 (a.val : ℝ)| + 25) / 2 ^ 126) := by
  obtain ⟨r, hr, hA⟩ := qln_qa hP ha hp h1 h2
  unfold Quad.log10 Quad.log2 Real.logb
  rw [hr]
  generalize Real.log (a.val : ℝ) = L at *
  have hL : |L| ≤ 707 := abs_le.mpr ⟨h1, by linarith⟩
  obtain ⟨-, l2, l3⟩ := fr_ln2
  obtain ⟨l4, l5⟩ := log10_bounds
  have key : ∀ (c : Quad) (b f Y E : ℝ), QA c b f Y → 69 / 100 ≤ b → b ≤ 3 → f ≤ 1 / 2 ^ 212 → Y ≤ 3 → 167 / 10 ≤ (E - 1 / 10) * b →
      (r / c).Fin ∧ |((r / c).val : ℝ) - L / b| ≤ (3 * |L / b| + E) / 2 ^ 126 := by
    intro c b f Y E hc hb1 hb2 hf hY hE
    have hb0 : 0 < b := by linarith
    have eb := abs_of_pos hb0
    have hq0 := abs_nonneg (L / b)
    obtain ⟨Z, h⟩ := qlog_quot (K := 1 / 2 ^ 80) hA hL hc (by rw [eb]; linarith) (by rw [eb]; norm_num at hf ⊢; linarith) (by rw [eb]; linarith)
      (by norm_num; linarith) (by rw [eb]; linarith) (by positivity) (by norm_num at hf ⊢; linarith)
    refine ⟨h.fin, h.err.trans ?_⟩
    rw [eb]
    have eL : |L| = |L / b| * b := by rw [abs_div, eb]; field_simp
    have e1 : (251 / 100 * |L| + 167 / 10) / b = 251 / 100 * |L / b| + 167 / 10 / b := by
      rw [eL]; field_simp
    have e2 : 167 / 10 / b ≤ E - 1 / 10 := by rw [div_le_iff₀ hb0]; exact hE
    have e3 : 1 / 2 ^ 80 * |L / b| * (1 + 1 / 2 ^ 90) / b ≤ 1 / 2 ^ 70 * |L / b| := by
      rw [div_le_iff₀ hb0]
      have : |L / b| * (69 / 100) ≤ |L / b| * b := mul_le_mul_of_nonneg_left hb1 hq0
      have e4 : 1 / 2 ^ 70 * |L / b| * b = 1 / 2 ^ 70 * (|L / b| * b) := by ring
      rw [e4]
      norm_num at this ⊢; linarith
    rw [e1]
    refine div_le_div_of_nonneg_right ?_ (by positivity)
    norm_num at e3 ⊢
    linarith
  refine ⟨⟨_, rfl, ?_⟩, ⟨_, rfl, ?_⟩⟩
  · exact key _ _ _ _ 8 qa_ln10 (by norm_num at *; linarith) (by norm_num at *; linarith) le_rfl (by norm_num) (by norm_num at *; linarith)
  · exact key _ _ _ _ 25 qa_ln2 (by norm_num at *; linarith) (by norm_num at *; linarith) (by norm_num) (by norm_num) (by norm_num at *; linarith)

/-- **C76.** The logarithm of a Quad to any base `b` not too close to one. -/
theorem C76_quad_log (P : Platform) (hP : LibmLogs P) (a b : Quad) (ha : a.Normalized) (hb : b.Normalized) (hp : 0 < a.val) (hq : 0 < b.val)
    (h1 : -707 ≤ Real.log (a.val : ℝ)) (h2 : Real.log (a.val : ℝ) ≤ 469)
    (g1 : -707 ≤ Real.log (b.val : ℝ)) (g2 : Real.log (b.val : ℝ) ≤ 469) (g3 : 1 / 100 ≤ |Real.log (b.val : ℝ)|) :
    ∃ r, Quad.log P a b = some r ∧ r.Fin ∧
      |(r.val : ℝ) - Real.logb (b.val : ℝ) (a.val : ℝ)| ≤
        (5 * |Real.logb (b.val : ℝ) (a.val : ℝ)| + 17 * (1 + |Real.logb (b.val : ℝ) (a.val : ℝ)|) / |Real.log (b.val : ℝ)|) / 2 ^ 126 := by
  obtain ⟨r, hr, hA⟩ := qln_qa hP ha hp h1 h2
  obtain ⟨s, hs, hB⟩ := qln_qa hP hb hq g1 g2
  have hn : a.isNan = false := (fsq_fin ha.1.1).1
  have hqR : 0 < qv b := by unfold qv; exact_mod_cast hq
  have hpos := (qlog_c0 (qord_norm hb) hqR).1
  have hsn : b.isSignNegative = false := by
    have i := Is.of_finite hb.1.1
    obtain ⟨s, m, hm, e, eh⟩ := i.exists
    by_contra hc
    unfold Quad.isSignNegative at hc
    rw [e] at hc
    have : s = true := by simpa [F64.isSignNegative] using hc
    subst this
    simp only [if_true] at eh
    rw [fr_is i, eh] at hpos
    push_cast at hpos
    have h4 : (0:ℝ) < (one' : ℝ) := by exact_mod_cast one'_pos
    have h5 : (0:ℝ) ≤ (m : ℝ) := by positivity
    have h6 : -(m:ℝ) / (one' : ℝ) ≤ 0 := div_nonpos_of_nonpos_of_nonneg (by linarith) h4.le
    linarith
  have hz : b.isZero = false := by
    by_contra hc
    have hc : b.isZero = true := by simpa using hc
    rw [fsq_isZero hb.1.1] at hc
    rw [fr, hc] at hpos
    norm_num at hpos
  have hlog : Quad.log P a b = some (r / s) := by
    unfold Quad.log Quad.preLog
    simp [hn, hsn, hz, hr, hs]
  rw [hlog]
  unfold Real.logb
  generalize Real.log (a.val : ℝ) = L at *
  generalize Real.log (b.val : ℝ) = B at *
  have hL : |L| ≤ 707 := abs_le.mpr ⟨h1, by linarith⟩
  have hBa : |B| ≤ 707 := abs_le.mpr ⟨g1, by linarith⟩
  have hB0 : 0 < |B| := lt_of_lt_of_le (by positivity) g3
  have hq0 := abs_nonneg (L / B)
  have eL : |L| = |L / B| * |B| := by rw [abs_div]; field_simp
  obtain ⟨Z, h⟩ := qlog_quot (K := 2 * |B| + 15) hA hL hB g3 (by norm_num at g3 ⊢; linarith) (by linarith) (by norm_num; linarith) hBa
    (by linarith) le_rfl
  refine ⟨_, rfl, h.fin, h.err.trans ?_⟩
  have e1 : (251 / 100 * |L| + 167 / 10) / |B| = 251 / 100 * |L / B| + 167 / 10 * (1 / |B|) := by
    rw [eL]; field_simp
  have e2 : (2 * |B| + 15) * |L / B| * (1 + 1 / 2 ^ 90) / |B| = (2 * |L / B| + 15 * (|L / B| / |B|)) * (1 + 1 / 2 ^ 90) := by
    field_simp
  have e3 : 17 * (1 + |L / B|) / |B| = 17 * (1 / |B|) + 17 * (|L / B| / |B|) := by ring
  rw [e1, e2, e3]
  have p1 : 0 ≤ |L / B| / |B| := by positivity
  have p2 : 0 ≤ 1 / |B| := by positivity
  refine div_le_div_of_nonneg_right ?_ (by positivity)
  generalize |L / B| / |B| = v at *
  generalize 1 / |B| = u at *
  norm_num
  linarith

/-- A concrete case: the logarithm of pi to base e (the constants), on the witness platform. -/
example : LibmLogs logPlatform ∧ Quad.PI.Normalized ∧ Quad.E.Normalized ∧ 0 < Quad.PI.val ∧ 0 < Quad.E.val ∧
    -707 ≤ Real.log (Quad.PI.val : ℝ) ∧ Real.log (Quad.PI.val : ℝ) ≤ 469 ∧
    -707 ≤ Real.log (Quad.E.val : ℝ) ∧ Real.log (Quad.E.val : ℝ) ≤ 469 ∧ 1 / 100 ≤ |Real.log (Quad.E.val : ℝ)| := by
  have h : Quad.PI.Normalized ∧ Quad.E.Normalized ∧ mkRat 3 1 ≤ Quad.PI.val ∧ Quad.PI.val ≤ mkRat 4 1 ∧
    mkRat 2 1 ≤ Quad.E.val ∧ Quad.E.val ≤ mkRat 3 1 := by decide +kernel
  obtain ⟨n1, n2, p1, p2, e1, e2⟩ := h
  have p1' := (Rat.cast_le (K := ℝ)).mpr p1
  have p2' := (Rat.cast_le (K := ℝ)).mpr p2
  have e1' := (Rat.cast_le (K := ℝ)).mpr e1
  have e2' := (Rat.cast_le (K := ℝ)).mpr e2
  rw [Rat.mkRat_eq_div] at p1' p2' e1' e2'
  push_cast at p1' p2' e1' e2'
  have hpos : 0 < Quad.PI.val := lt_of_lt_of_le (by decide +kernel) p1
  have hpos2 : 0 < Quad.E.val := lt_of_lt_of_le (by decide +kernel) e1
  generalize (Quad.PI.val : ℝ) = p at *
  generalize (Quad.E.val : ℝ) = e at *
  norm_num at p1' p2' e1' e2'
  have l1 : 0 ≤ Real.log p := Real.log_nonneg (by linarith)
  have l2 : Real.log p ≤ 3 := (Real.log_le_sub_one_of_pos (by linarith)).trans (by linarith)
  have l4 : Real.log e ≤ 3 := (Real.log_le_sub_one_of_pos (by linarith)).trans (by linarith)
  obtain ⟨-, m2, m3⟩ := fr_ln2
  have l3 : Real.log 2 ≤ Real.log e := Real.log_le_log (by norm_num) e1'
  have l5 : 1 / 100 ≤ Real.log e := by norm_num at *; linarith
  exact ⟨logPlatform_ok, n1, n2, hpos, hpos2, by linarith, by linarith, by linarith, by linarith, by rw [abs_of_pos (by linarith)]; exact l5⟩

end Verif
