import Verif.Proofs.QuadTrigCore
import Verif.Props.QuadSinh

/-!
# C84: the accuracy of `sin`, `cos`, `sin_cos` and `tan` for Quads, and what follows for C44 and C45
-/

namespace Verif

open F64 Prim Util Quad Consts

theorem qtrig_norm {P : Platform} (hP : FloatText P.toStr) {a : Quad} (ha : a.Normalized) (h2 : |qv a| ≤ 2 ^ 29) :
    ∃ s c p, Quad.sin P a = some s ∧ Quad.cos P a = some c ∧ Quad.sinCos P a = some p ∧
      QA s (Real.sin (qv a)) ((|qv a| / 3 + 9) / 2 ^ 126) (102 / 100) ∧ QA c (Real.cos (qv a)) ((|qv a| / 3 + 9) / 2 ^ 126) (102 / 100) ∧
      QA p.1 (Real.sin (qv a)) ((|qv a| / 3 + 9) / 2 ^ 126) (102 / 100) ∧ QA p.2 (Real.cos (qv a)) ((|qv a| / 3 + 9) / 2 ^ 126) (102 / 100) := by
  have hA0 := abs_nonneg (qv a)
  have e := (qord_norm ha).exact
  obtain ⟨s, c, p, s1, c1, p1, s2, c2, p2, p3, -⟩ := qtrig_facts hP e.sz (by norm_num; linarith) (by norm_num at h2 ⊢; linarith)
  have he : (13 / 10 * (|qv a| * (1 + 1 / 2 ^ 47)) + 352 / 10) / 2 ^ 128 ≤ (|qv a| / 3 + 9) / 2 ^ 126 := by norm_num; linarith
  exact ⟨s, c, p, s1, c1, p1, s2.mono he le_rfl, c2.mono he le_rfl, p2.mono he le_rfl, p3.mono he le_rfl⟩

theorem low_560' {a : Quad} (h1 : 1 ≤ |a.val| * 2 ^ 560) : 1 ≤ |qv a| * (2 ^ 200 * 2 ^ 200 * 2 ^ 160) := by
  have : (1:ℝ) ≤ |qv a| * 2 ^ 560 := by unfold qv; exact_mod_cast h1
  rwa [show (2:ℝ) ^ 560 = 2 ^ 200 * 2 ^ 200 * 2 ^ 160 by rw [← pow_add, ← pow_add]] at this

theorem qtrig_small {P : Platform} (hP : FloatText P.toStr) {a : Quad} (ha : a.Normalized) (h1 : 1 ≤ |qv a| * (2 ^ 200 * 2 ^ 200 * 2 ^ 160))
    (h2 : |qv a| ≤ 999 / 1000000) :
    ∃ s c p, Quad.sin P a = some s ∧ Quad.cos P a = some c ∧ Quad.sinCos P a = some p ∧
      QA s (Real.sin (qv a)) (|qv a| * (1108 / 100 / 2 ^ 128)) (|qv a| * (1004 / 1000)) ∧
      QA p.1 (Real.sin (qv a)) (|qv a| * (1108 / 100 / 2 ^ 128)) (|qv a| * (1004 / 1000)) ∧
      QA p.2 (Real.cos (qv a)) (82 / 10 / 2 ^ 128) (102 / 100) := by
  have hA0 := abs_nonneg (qv a)
  have e := (qord_norm ha).exact
  obtain ⟨s, c, p, s1, c1, p1, -, -, -, -, sm⟩ := qtrig_facts hP e.sz (by norm_num; linarith) (by norm_num at h2 ⊢; linarith)
  obtain ⟨m1, m2, -, m4⟩ := sm (by norm_num at h2 ⊢; linarith) (by
    refine h1.trans ?_
    rw [mul_assoc |qv a| (1 + 1 / 2 ^ 47)]
    exact mul_le_mul_of_nonneg_left (by norm_num) hA0)
  clear h1
  refine ⟨s, c, p, s1, c1, p1, m1.mono ?_ ?_, m2.mono ?_ ?_, m4⟩ <;> norm_num <;> linarith

/-- **C84.** The sine of every normalized Quad of magnitude at most `2^29`: the function returns a finite result within
`(|a|/3 + 9) 2^-126` of the real sine. -/
theorem C84_quad_sin (P : Platform) (hP : FloatText P.toStr) (a : Quad) (ha : a.Normalized) (h2 : |(a.val : ℝ)| ≤ 2 ^ 29) :
    ∃ r, Quad.sin P a = some r ∧ r.Fin ∧ |(r.val : ℝ) - Real.sin (a.val : ℝ)| ≤ (|(a.val : ℝ)| / 3 + 9) / 2 ^ 126 := by
  obtain ⟨s, c, p, s1, c1, p1, s2, c2, p2, p3⟩ := qtrig_norm hP ha h2
  exact ⟨s, s1, s2.fin, s2.err⟩

/-- **C84.** The same for the cosine. -/
theorem C84_quad_cos (P : Platform) (hP : FloatText P.toStr) (a : Quad) (ha : a.Normalized) (h2 : |(a.val : ℝ)| ≤ 2 ^ 29) :
    ∃ r, Quad.cos P a = some r ∧ r.Fin ∧ |(r.val : ℝ) - Real.cos (a.val : ℝ)| ≤ (|(a.val : ℝ)| / 3 + 9) / 2 ^ 126 := by
  obtain ⟨s, c, p, s1, c1, p1, s2, c2, p2, p3⟩ := qtrig_norm hP ha h2
  exact ⟨c, c1, c2.fin, c2.err⟩

/-- **C84.** The same for both results of `sin_cos`. -/
theorem C84_quad_sin_cos (P : Platform) (hP : FloatText P.toStr) (a : Quad) (ha : a.Normalized) (h2 : |(a.val : ℝ)| ≤ 2 ^ 29) :
    ∃ s c, Quad.sinCos P a = some (s, c) ∧ s.Fin ∧ c.Fin ∧
      |(s.val : ℝ) - Real.sin (a.val : ℝ)| ≤ (|(a.val : ℝ)| / 3 + 9) / 2 ^ 126 ∧
      |(c.val : ℝ) - Real.cos (a.val : ℝ)| ≤ (|(a.val : ℝ)| / 3 + 9) / 2 ^ 126 := by
  obtain ⟨s, c, p, s1, c1, p1, s2, c2, p2, p3⟩ := qtrig_norm hP ha h2
  exact ⟨p.1, p.2, p1, p2.fin, p3.fin, p2.err, p3.err⟩

theorem qsin_low {A : ℝ} (h : |A| ≤ 999 / 1000000) : |A| * (99 / 100) ≤ |Real.sin A| := by
  have := sin_small (A := A) (h.trans (by norm_num))
  linarith

/-- **C84.** Near zero the sine, of `sin` and of `sin_cos`, has a small relative error. -/
theorem C84_quad_sin_small (P : Platform) (hP : FloatText P.toStr) (a : Quad) (ha : a.Normalized)
    (h1 : 1 ≤ |a.val| * 2 ^ 560) (h2 : |(a.val : ℝ)| ≤ 999 / 1000000) :
    ∃ r p, Quad.sin P a = some r ∧ Quad.sinCos P a = some p ∧
      |(r.val : ℝ) - Real.sin (a.val : ℝ)| ≤ |Real.sin (a.val : ℝ)| * (3 / 2 ^ 126) ∧
      |(p.1.val : ℝ) - Real.sin (a.val : ℝ)| ≤ |Real.sin (a.val : ℝ)| * (3 / 2 ^ 126) := by
  obtain ⟨s, c, p, s1, c1, p1, s2, p2, -⟩ := qtrig_small hP ha (low_560' h1) h2
  have hs := qsin_low (A := qv a) h2
  refine ⟨s, p, s1, p1, s2.err.trans ?_, p2.err.trans ?_⟩
  all_goals
    clear h1
    change _ ≤ |Real.sin (qv a)| * (3 / 2 ^ 126)
    have := abs_nonneg (qv a)
    norm_num at hs ⊢; linarith

/-- The quotient behind `tan`. -/
theorem qtan_core {P : Platform} {a : Quad} {p : Quad × Quad} {S C E : ℝ} (p1 : Quad.sinCos P a = some p)
    (p2 : QA p.1 S E (102 / 100)) (p3 : QA p.2 C E (102 / 100)) (hE : 9 / 2 ^ 126 ≤ E) (hE2 : E ≤ 1 / 2 ^ 97) (h3 : 1 / 400 ≤ |C|) :
    ∃ r, Quad.tan P a = some r ∧ r.Fin ∧ |qv r - S / C| ≤ 6 / 5 * E * (1 + |S / C|) / |C| := by
  have hh : (2 ^ 100 : ℝ) ≤ (hugeQ : ℝ) := by
    rw [hugeQ_eq]; push_cast; norm_num
  have hC : 0 < |C| := by linarith
  have d := p2.div p3 (L := |C| * (99 / 100)) (K := 500) (g := 6 / 5 * E * (1 + |S / C|) / |C|) (by positivity)
    (by norm_num at hE2 h3 ⊢; linarith) (by norm_num at h3 ⊢; linarith) (by norm_num at hh ⊢; linarith) (by norm_num) (by norm_num at hh ⊢; linarith)
    (by
      have : 1 / 400 * (2 ^ 100 : ℝ) ≤ |C| * (hugeQ : ℝ) := mul_le_mul h3 hh (by positivity) hC.le
      rw [mul_right_comm]
      norm_num at this ⊢; linarith) (by norm_num at h3 ⊢; linarith) (by
      have e1 : 6 / 5 * E * (1 + |S / C|) / |C| * (|C| * (99 / 100)) = 6 / 5 * (99 / 100) * (E + |S / C| * E) := by field_simp
      rw [e1]
      have : 0 ≤ |S / C| * E := by have := p2.nonneg; positivity
      generalize |S / C| * E = T at *
      norm_num at hE ⊢; linarith)
  refine ⟨p.1 / p.2, ?_, d.fin, d.err⟩
  unfold Quad.tan
  rw [p1]
  rfl

/-- **C84.** The tangent, where the cosine is not too small. -/
theorem C84_quad_tan (P : Platform) (hP : FloatText P.toStr) (a : Quad) (ha : a.Normalized) (h2 : |(a.val : ℝ)| ≤ 2 ^ 29)
    (h3 : 1 / 400 ≤ |Real.cos (a.val : ℝ)|) :
    ∃ r, Quad.tan P a = some r ∧ r.Fin ∧
      |(r.val : ℝ) - Real.tan (a.val : ℝ)|
        ≤ 6 / 5 * ((|(a.val : ℝ)| / 3 + 9) / 2 ^ 126) * (1 + |Real.tan (a.val : ℝ)|) / |Real.cos (a.val : ℝ)| := by
  obtain ⟨s, c, p, s1, c1, p1, s2, c2, p2, p3⟩ := qtrig_norm hP ha h2
  change |qv a| ≤ 2 ^ 29 at h2
  have hA0 := abs_nonneg (qv a)
  have hE : 9 / 2 ^ 126 ≤ (|qv a| / 3 + 9) / 2 ^ 126 := div_le_div_of_nonneg_right (by linarith) (by positivity)
  have hE2 : (|qv a| / 3 + 9) / 2 ^ 126 ≤ 1 / 2 ^ 97 := by norm_num at h2 ⊢; linarith
  have h := qtan_core p1 p2 p3 hE hE2 h3
  rw [← Real.tan_eq_sin_div_cos] at h
  exact h

/-- **C84.** Near zero the tangent has a small relative error. -/
theorem C84_quad_tan_small (P : Platform) (hP : FloatText P.toStr) (a : Quad) (ha : a.Normalized)
    (h1 : 1 ≤ |a.val| * 2 ^ 560) (h2 : |(a.val : ℝ)| ≤ 999 / 1000000) :
    ∃ r, Quad.tan P a = some r ∧ r.Fin ∧ |(r.val : ℝ) - Real.tan (a.val : ℝ)| ≤ |Real.tan (a.val : ℝ)| * (6 / 2 ^ 126) := by
  have lo := low_560' h1
  clear h1
  obtain ⟨s, c, p, s1, c1, p1, -, p2, p3⟩ := qtrig_small hP ha lo h2
  change |qv a| ≤ 999 / 1000000 at h2
  change ∃ r, Quad.tan P a = some r ∧ r.Fin ∧ |qv r - Real.tan (qv a)| ≤ |Real.tan (qv a)| * (6 / 2 ^ 126)
  have hs : 999 / 1000 * |qv a| ≤ |Real.sin (qv a)| := by
    have h := Real.sin_gt_sub_cube (x := |qv a|)
    rcases (abs_nonneg (qv a)).eq_or_lt with h0 | h0
    · rw [← h0]; simp
    · have h3 := h h0
      have h4 : |qv a| ^ 3 ≤ |qv a| * (1 / 1000) := by
        have : |qv a| ^ 2 ≤ (1 / 1000 : ℝ) ^ 2 := pow_le_pow_left₀ h0.le (by linarith) 2
        nlinarith
      have h5 : Real.sin |qv a| ≤ |Real.sin (qv a)| := by
        rcases abs_cases (qv a) with ⟨h6, -⟩ | ⟨h6, -⟩ <;> rw [h6]
        · exact le_abs_self _
        · rw [Real.sin_neg]; exact neg_le_abs _
      linarith
  have bs : |Real.sin (qv a)| ≤ |qv a| := Real.abs_sin_le_abs
  have bc := Real.abs_cos_le_one (qv a)
  have hc : 0.9999 ≤ |Real.cos (qv a)| := by
    have h := Real.one_sub_sq_div_two_le_cos (x := qv a)
    have h5 : qv a ^ 2 ≤ (999 / 1000000) ^ 2 := by rw [← sq_abs]; exact pow_le_pow_left₀ (abs_nonneg _) h2 2
    refine le_trans ?_ (le_abs_self _)
    norm_num at h5 ⊢; linarith
  rw [Real.tan_eq_sin_div_cos]
  have hA0 : 0 < |qv a| := pos_of_mul_pos_left (lt_of_lt_of_le one_pos lo) (by positivity)
  have hp := hugeQ_pos
  have hpR : (0:ℝ) < (hugeQ : ℝ) := by exact_mod_cast hp
  have lo2 : 2 ≤ |qv a| * (hugeQ : ℝ) := by
    rw [hugeQ_eq]; push_cast
    have e : |qv a| * (2 ^ 200 * 2 ^ 200 * (2 ^ 200 * 2 ^ 200)) = |qv a| * (2 ^ 200 * 2 ^ 200 * 2 ^ 160) * (2 ^ 40 * 2 ^ 200) := by ring
    rw [e]
    calc (2:ℝ) = 1 * 2 := by norm_num
      _ ≤ _ := mul_le_mul lo (by norm_num) (by norm_num) (by linarith)
  clear lo
  generalize Real.sin (qv a) = S at *
  generalize Real.cos (qv a) = C at *
  have hSC : |S / C| ≤ |qv a| * (10002 / 10000) := by
    rw [abs_div, div_le_iff₀ (by linarith)]
    nlinarith
  have hSC2 : |qv a| * (999 / 1000) ≤ |S / C| := by
    rw [abs_div, le_div_iff₀ (by linarith)]
    nlinarith
  have hg : |S / C| * (82 / 10 / 2 ^ 128) ≤ |qv a| * (10002 / 10000) * (82 / 10 / 2 ^ 128) := mul_le_mul_of_nonneg_right hSC (by positivity)
  have d := p2.div p3 (L := 999 / 1000) (K := 500) (g := |S / C| * (6 / 2 ^ 126)) (by norm_num)
    (by norm_num at hc ⊢; linarith) (by norm_num) (by linarith) (by norm_num at h2 ⊢; linarith) (by linarith)
    (by
      have : 1 * (2 : ℝ) ≤ (hugeQ : ℝ) := by
        rw [hugeQ_eq]; push_cast; norm_num
      linarith) (by norm_num at h2 ⊢; linarith) (by
      generalize |S / C| = T at *
      norm_num at hg hSC2 ⊢; linarith)
  refine ⟨p.1 / p.2, ?_, d.fin, d.err⟩
  unfold Quad.tan
  rw [p1]
  rfl

/-- **C44** for Quads. No table is indexed out of range for arguments of magnitude at most `2^29`, and no series runs away: the
four functions return. -/
theorem C44_quad_total_partial (P : Platform) (hP : FloatText P.toStr) (a : Quad) (ha : a.Normalized) (h2 : |(a.val : ℝ)| ≤ 2 ^ 29) :
    (Quad.sin P a).isSome ∧ (Quad.cos P a).isSome ∧ (Quad.sinCos P a).isSome ∧ (Quad.tan P a).isSome := by
  obtain ⟨s, c, p, s1, c1, p1, -⟩ := qtrig_norm hP ha h2
  rw [s1, c1, p1]
  unfold Quad.tan
  rw [p1]
  exact ⟨rfl, rfl, rfl, rfl⟩

/-- **C45** for Quads: the pair returned by `sin_cos` is close to what `sin` and `cos` return. -/
theorem C45_quad_close (P : Platform) (hP : FloatText P.toStr) (a : Quad) (ha : a.Normalized) (h2 : |(a.val : ℝ)| ≤ 2 ^ 29) :
    ∃ s c s' c', Quad.sinCos P a = some (s, c) ∧ Quad.sin P a = some s' ∧ Quad.cos P a = some c' ∧
      |(s'.val : ℝ) - s.val| ≤ (|(a.val : ℝ)| / 3 + 9) / 2 ^ 125 ∧ |(c'.val : ℝ) - c.val| ≤ (|(a.val : ℝ)| / 3 + 9) / 2 ^ 125 := by
  obtain ⟨s, c, p, s1, c1, p1, s2, c2, p2, p3⟩ := qtrig_norm hP ha h2
  refine ⟨p.1, p.2, s, c, p1, s1, c1, ?_, ?_⟩
  · change |qv s - qv p.1| ≤ (|qv a| / 3 + 9) / 2 ^ 125
    have e : qv s - qv p.1 = (qv s - Real.sin (qv a)) - (qv p.1 - Real.sin (qv a)) := by ring
    rw [e]
    refine (abs_sub _ _).trans ((add_le_add s2.err p2.err).trans (le_of_eq ?_))
    ring
  · change |qv c - qv p.2| ≤ (|qv a| / 3 + 9) / 2 ^ 125
    have e : qv c - qv p.2 = (qv c - Real.cos (qv a)) - (qv p.2 - Real.cos (qv a)) := by ring
    rw [e]
    refine (abs_sub _ _).trans ((add_le_add c2.err p3.err).trans (le_of_eq ?_))
    ring

theorem quad_e_bd : |((Quad.E.val : ℚ) : ℝ)| ≤ 3 := by
  have : |Quad.E.val| ≤ 3 := by decide +kernel
  exact_mod_cast this

theorem quad_eps_bd : |((Quad.EPSILON.val : ℚ) : ℝ)| ≤ 999 / 1000000 := by
  have : |Quad.EPSILON.val| ≤ 999 / 1000000 := by decide +kernel
  have := (Rat.cast_le (K := ℝ)).mpr this
  push_cast at this
  exact this

/-- At the constant `E` (absolute accuracy), and near zero (relative accuracy). -/
example (P : Platform) (h : P.toStr = text17) : ∃ r, Quad.sin P Quad.E = some r ∧ r.Fin ∧
    |(r.val : ℝ) - Real.sin ((Quad.E.val : ℚ) : ℝ)| ≤ (|((Quad.E.val : ℚ) : ℝ)| / 3 + 9) / 2 ^ 126 :=
  C84_quad_sin P (h ▸ text17_ok) _ (by decide +kernel) (quad_e_bd.trans (by norm_num))

example (P : Platform) (h : P.toStr = text17) : ∃ r, Quad.tan P Quad.EPSILON = some r ∧ r.Fin ∧
    |(r.val : ℝ) - Real.tan ((Quad.EPSILON.val : ℚ) : ℝ)| ≤ |Real.tan ((Quad.EPSILON.val : ℚ) : ℝ)| * (6 / 2 ^ 126) :=
  C84_quad_tan_small P (h ▸ text17_ok) _ (by decide +kernel) (by decide +kernel) quad_eps_bd

theorem quad_one_val : ((Quad.ONE.val : ℚ) : ℝ) = 1 := by
  have : Quad.ONE.val = 1 := by decide +kernel
  rw [this]; norm_num

/-- The hypotheses of `C84_quad_tan` are met at one. -/
example (P : Platform) (h : P.toStr = text17) : ∃ r, Quad.tan P Quad.ONE = some r ∧ r.Fin ∧
    |(r.val : ℝ) - Real.tan ((Quad.ONE.val : ℚ) : ℝ)|
      ≤ 6 / 5 * ((|((Quad.ONE.val : ℚ) : ℝ)| / 3 + 9) / 2 ^ 126) * (1 + |Real.tan ((Quad.ONE.val : ℚ) : ℝ)|) /
        |Real.cos ((Quad.ONE.val : ℚ) : ℝ)| := by
  refine C84_quad_tan P (h ▸ text17_ok) _ (by decide +kernel) ?_ ?_
  · rw [quad_one_val]; norm_num
  · rw [quad_one_val]
    have := Real.one_sub_sq_div_two_le_cos (x := 1)
    refine le_trans ?_ (le_abs_self _)
    norm_num at this ⊢; linarith

end Verif
