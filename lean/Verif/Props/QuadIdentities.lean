import Verif.Props.Identities
import Verif.Props.QuadInverse

/-!
# C94: functional equations survive in Quad arithmetic
-/

namespace Verif

open F64 Prim Util

/-- **C94.** `exp(a + b) = exp(a) exp(b)` on Quads: for `|a|, |b| ≤ 230` the two ways of computing it agree within
`(3 (|a| + |b|) + 28) / 2^126` of the real exponential. -/
theorem C94_quad_exp_add (a b : Quad) (ha : a.Normalized) (hb : b.Normalized) (h1 : |(a.val : ℝ)| ≤ 230) (h2 : |(b.val : ℝ)| ≤ 230) :
    ∃ r s t, Quad.exp (a + b) = some r ∧ Quad.exp a = some s ∧ Quad.exp b = some t ∧ (s * t).Fin ∧
      |(r.val : ℝ) - ((s * t).val : ℝ)| ≤
        (3 * (|(a.val : ℝ)| + |(b.val : ℝ)|) + 28) / 2 ^ 126 * Real.exp ((a.val : ℝ) + (b.val : ℝ)) := by
  change |qv a| ≤ 230 at h1
  change |qv b| ≤ 230 at h2
  change ∃ r s t, _ ∧ _ ∧ _ ∧ _ ∧ |qv r - qv (s * t)| ≤ (3 * (|qv a| + |qv b|) + 28) / 2 ^ 126 * Real.exp (qv a + qv b)
  have x0 := abs_nonneg (qv a)
  have y0 := abs_nonneg (qv b)
  have xy := abs_add_le (qv a) (qv b)
  have ea := (qord_norm ha).exact
  have eb := (qord_norm hb).exact
  have one : ∀ {q : Quad}, QA q (qv q) 0 (|qv q| * (1 + 1 / 2 ^ 47)) → |qv q| ≤ 230 →
      ∃ r X, Quad.exp q = some r ∧ QA r (Real.exp (qv q)) ((|qv q| + 8) / 2 ^ 126 * Real.exp (qv q)) X ∧ X ≤ 5 * Real.exp (qv q) := by
    intro q hq hx
    obtain ⟨c1, c2⟩ := abs_le.mp (sz_c0_le hq.sz)
    have := abs_nonneg (qv q)
    exact qexp_any hq.sz le_rfl (by linarith) (by norm_num at c1; linarith) (by norm_num at c2; linarith)
  obtain ⟨s, X, es, qs, hX⟩ := one ea h1
  obtain ⟨t, Y, et, qt, hY⟩ := one eb h2
  have q := ea.add eb (Z := (|qv a| + |qv b|) * (1 + 1 / 2 ^ 47)) (g := (|qv a| + |qv b|) / 2 ^ 127) (W := |qv a| + |qv b| + 1)
    (mul_le_mul_of_nonneg_right (by linarith) (by norm_num)) (mul_le_mul_of_nonneg_right (by linarith) (by norm_num))
    (le_trans (show _ ≤ (1000:ℝ) by norm_num; linarith) (by norm_num)) (by norm_num; linarith) (by norm_num; linarith) (by norm_num; linarith)
  have ql := q.abs_le
  obtain ⟨c1, c2⟩ := abs_le.mp (sz_c0_le q.sz)
  obtain ⟨r, R, er, qr, -⟩ := qexp_any (a := a + b) (B := |qv a| + |qv b| + 1) (q.sz.mono (by norm_num; linarith)) (by
      have h3 := abs_sub_abs_le_abs_sub (qv (a + b)) (qv a + qv b)
      have h4 := q.err
      norm_num at h4
      linarith) (by linarith) (by norm_num at c1; linarith) (by norm_num at c2; linarith)
  refine ⟨r, s, t, er, es, et, ?_⟩
  have k := exp_of_near q.err qr.err (by norm_num; linarith) (by positivity)
  obtain ⟨f1, f2⟩ := exp_250 (h1.trans (by norm_num))
  obtain ⟨g1, g2⟩ := exp_250 (h2.trans (by norm_num))
  have hE := Real.exp_pos (qv a + qv b)
  have hEE : Real.exp (qv a + qv b) = Real.exp (qv a) * Real.exp (qv b) := Real.exp_add _ _
  have pX := Real.exp_pos (qv a)
  have pY := Real.exp_pos (qv b)
  rw [hEE] at hE k ⊢
  have lX : 1 ≤ 5 * Real.exp (qv a) * (2 ^ 210 * 2 ^ 210) := by
    rw [mul_comm 5, mul_assoc]
    exact f2.trans (mul_le_mul_of_nonneg_left (by norm_num) pX.le)
  have lY : 1 ≤ 5 * Real.exp (qv b) * (2 ^ 210 * 2 ^ 210) := by
    rw [mul_comm 5, mul_assoc]
    exact g2.trans (mul_le_mul_of_nonneg_left (by norm_num) pY.le)
  have lXY : 5 * Real.exp (qv a) * (5 * Real.exp (qv b)) ≤ 2 ^ 225 * 2 ^ 225 * 2 ^ 225 * 2 ^ 225 := by
    have := mul_le_mul (mul_le_mul_of_nonneg_left f1 (show (0:ℝ) ≤ 5 by norm_num)) (mul_le_mul_of_nonneg_left g1 (show (0:ℝ) ≤ 5 by norm_num))
      (by positivity) (by positivity)
    exact this.trans (by norm_num)
  obtain ⟨ε, hε⟩ : ∃ ε, (|qv a| + 8) / 2 ^ 126 = ε := ⟨_, rfl⟩
  obtain ⟨η, hη⟩ : ∃ η, (|qv b| + 8) / 2 ^ 126 = η := ⟨_, rfl⟩
  rw [hε] at qs
  rw [hη] at qt
  have E1 : ε ≤ 1 / 2 ^ 90 := by rw [← hε]; norm_num; linarith
  have H1 : η ≤ 1 / 2 ^ 90 := by rw [← hη]; norm_num; linarith
  have E0 : 0 ≤ ε := by rw [← hε]; positivity
  have H0 : 0 ≤ η := by rw [← hη]; positivity
  have k2 : ε * η ≤ ε * (1 / 2 ^ 90) := mul_le_mul_of_nonneg_left H1 E0
  clear f1 f2 g1 g2 c1 c2 ql one hEE
  have m : QA (s * t) (Real.exp (qv a) * Real.exp (qv b)) ((ε + η + ε * η + 25 / 2 ^ 139) * (Real.exp (qv a) * Real.exp (qv b)))
      (13 * (Real.exp (qv a) * Real.exp (qv b))) := by
    refine (qs.mono le_rfl hX).mul (qt.mono le_rfl hY) lX lY lXY ?_ ?_ ?_
    · rw [abs_of_pos pX, abs_of_pos pY]
      apply le_of_eq; ring
    · apply le_of_eq_of_le (b := 51 / 100 * 25 * (Real.exp (qv a) * Real.exp (qv b)))
      · ring
      · exact mul_le_mul_of_nonneg_right (by norm_num) hE.le
    · rw [abs_of_pos hE]
      clear lX lY lXY k
      calc _ = (1 + (ε + η + ε * η + 25 / 2 ^ 139) + 25 / 2 ^ 138) * (Real.exp (qv a) * Real.exp (qv b)) := by ring
        _ ≤ (13 * (1 - 1 / 2 ^ 40)) * (Real.exp (qv a) * Real.exp (qv b)) :=
          mul_le_mul_of_nonneg_right (by norm_num at k2 E1 H1 ⊢; linarith) hE.le
        _ = _ := by ring
  refine ⟨m.fin, ?_⟩
  have me := m.err
  clear lX lY lXY m qs qt q qr hX hY ea eb
  generalize Real.exp (qv a) * Real.exp (qv b) = E at *
  obtain ⟨δ, hδ⟩ : ∃ δ, (|qv a| + |qv b|) / 2 ^ 127 = δ := ⟨_, rfl⟩
  obtain ⟨ζ, hζ⟩ : ∃ ζ, (|qv a| + |qv b| + 1 + 8) / 2 ^ 126 = ζ := ⟨_, rfl⟩
  have δ0 : 0 ≤ δ := by rw [← hδ]; positivity
  have ζ0 : 0 ≤ ζ := by rw [← hζ]; positivity
  have δ1 : δ ≤ 1 / 2 ^ 90 := by rw [← hδ]; norm_num; linarith
  rw [hδ, hζ] at k
  have q3 : (δ + δ ^ 2 + ζ * (1 + δ + δ ^ 2)) + (ε + η + ε * η + 25 / 2 ^ 139) ≤ (3 * (|qv a| + |qv b|) + 28) / 2 ^ 126 := by
    have δ2 : δ ^ 2 ≤ δ * (1 / 2 ^ 90) := by rw [sq]; exact mul_le_mul_of_nonneg_left δ1 δ0
    have k1 : ζ * (1 + δ + δ ^ 2) ≤ ζ * (1 + 1 / 2 ^ 88) := mul_le_mul_of_nonneg_left (by norm_num at δ1 δ2 ⊢; linarith) ζ0
    rw [← hε, ← hη] at *
    rw [← hζ, ← hδ] at *
    norm_num at *
    linarith
  have q4 := mul_le_mul_of_nonneg_right q3 hE.le
  have e : qv r - qv (s * t) = (qv r - E) - (qv (s * t) - E) := by ring
  rw [e]
  refine (abs_sub _ _).trans ?_
  linarith

example : ∃ r s t, Quad.exp (Quad.ONE + Quad.ONE) = some r ∧ Quad.exp Quad.ONE = some s ∧ Quad.exp Quad.ONE = some t ∧
    (s * t).Fin ∧ |(r.val : ℝ) - ((s * t).val : ℝ)| ≤
      (3 * (|((Quad.ONE.val : ℚ) : ℝ)| + |((Quad.ONE.val : ℚ) : ℝ)|) + 28) / 2 ^ 126 *
        Real.exp (((Quad.ONE.val : ℚ) : ℝ) + ((Quad.ONE.val : ℚ) : ℝ)) := by
  have h : |((Quad.ONE.val : ℚ) : ℝ)| ≤ 230 := by
    have : |Quad.ONE.val| ≤ 230 := by decide +kernel
    exact_mod_cast this
  exact C94_quad_exp_add _ _ (by decide +kernel) (by decide +kernel) h h

/-- **C94.** `ln(a b) = ln(a) + ln(b)` on Quads: for positive `a`, `b` with logarithms up to 230 in magnitude the two ways of
computing it agree within `(5 (|ln a| + |ln b|) + 48) / 2^126`. -/
theorem C94_quad_ln_mul (P : Platform) (hP : LibmLogs P) (a b : Quad) (ha : a.Normalized) (hb : b.Normalized)
    (pa : 0 < a.val) (pb : 0 < b.val) (h1 : |Real.log (a.val : ℝ)| ≤ 230) (h2 : |Real.log (b.val : ℝ)| ≤ 230) :
    ∃ r s t, Quad.ln P (a * b) = some r ∧ Quad.ln P a = some s ∧ Quad.ln P b = some t ∧ (s + t).Fin ∧
      |(r.val : ℝ) - ((s + t).val : ℝ)| ≤ (5 * (|Real.log (a.val : ℝ)| + |Real.log (b.val : ℝ)|) + 48) / 2 ^ 126 := by
  have pa' : 0 < qv a := by unfold qv; exact_mod_cast pa
  have pb' : 0 < qv b := by unfold qv; exact_mod_cast pb
  have l1 := abs_le.mp h1
  have l2 := abs_le.mp h2
  obtain ⟨s, es, qs⟩ := qln_qa hP ha pa (le_trans (by norm_num) l1.1) (l1.2.trans (by norm_num))
  obtain ⟨t, et, qt⟩ := qln_qa hP hb pb (le_trans (by norm_num) l2.1) (l2.2.trans (by norm_num))
  change |Real.log (qv a)| ≤ 230 at h1
  change |Real.log (qv b)| ≤ 230 at h2
  change QA s (Real.log (qv a)) ((2 * |Real.log (qv a)| + 15) / 2 ^ 126) (|Real.log (qv a)| + 3) at qs
  change QA t (Real.log (qv b)) ((2 * |Real.log (qv b)| + 15) / 2 ^ 126) (|Real.log (qv b)| + 3) at qt
  change ∃ r s t, _ ∧ _ ∧ _ ∧ _ ∧ |qv r - qv (s + t)| ≤ (5 * (|Real.log (qv a)| + |Real.log (qv b)|) + 48) / 2 ^ 126
  have ea := (qord_norm ha).exact
  have eb := (qord_norm hb).exact
  rw [abs_of_pos pa'] at ea
  rw [abs_of_pos pb'] at eb
  have pab : 0 < qv a * qv b := mul_pos pa' pb'
  have m : QA (a * b) (qv a * qv b) (qv a * qv b * (2 / 2 ^ 139)) (qv a * qv b * (1003 / 1000)) := by
    have side : ∀ {u : ℝ}, 0 < u → |Real.log u| ≤ 230 → u ≤ 2 ^ 200 * 2 ^ 200 ∧ 1 ≤ u * (2 ^ 200 * 2 ^ 200) := by
      intro u pu hu
      have := exp_250 (hu.trans (by norm_num))
      rwa [Real.exp_log pu] at this
    obtain ⟨a1, a2⟩ := side pa' h1
    obtain ⟨b1, b2⟩ := side pb' h2
    have e1 : ∀ c : ℝ, qv a * c * (qv b * c) = qv a * qv b * (c * c) := fun c => by ring
    refine ea.mul eb ?_ ?_ ?_ ?_ ?_ ?_
    · rw [mul_assoc]
      exact a2.trans (mul_le_mul_of_nonneg_left (by norm_num) pa'.le)
    · rw [mul_assoc]
      exact b2.trans (mul_le_mul_of_nonneg_left (by norm_num) pb'.le)
    · rw [e1]
      have := mul_le_mul a1 b1 pb'.le (by positivity)
      exact (mul_le_mul_of_nonneg_right this (by norm_num)).trans (by norm_num)
    all_goals
      clear a1 a2 b1 b2
      rw [e1]
      try rw [abs_of_pos pab]
      generalize qv a * qv b = Q at *
      norm_num
      linarith
  have hlm : Real.log (qv a * qv b) = Real.log (qv a) + Real.log (qv b) := Real.log_mul pa'.ne' pb'.ne'
  have xy := abs_add_le (Real.log (qv a)) (Real.log (qv b))
  have xy2 := abs_le.mp (xy.trans (show _ ≤ (460:ℝ) by linarith))
  obtain ⟨r, er, qr⟩ := qln_of hP m pab (by norm_num) (K := 101 / 100) (mul_le_mul_of_nonneg_left (by norm_num) pab.le) (by norm_num)
    (by rw [hlm]; linarith) (by rw [hlm]; linarith [xy2.1]) (by rw [hlm]; linarith [xy2.2])
  refine ⟨r, s, t, er, es, et, ?_⟩
  rw [hlm] at qr
  clear l1 l2 xy2 m ea eb hlm pab pa' pb' er es et
  have x0 := abs_nonneg (Real.log (qv a))
  have y0 := abs_nonneg (Real.log (qv b))
  generalize Real.log (qv a) = x at *
  generalize Real.log (qv b) = y at *
  have q := qs.add qt (Z := |x| + |y| + 3) (g := (3 * (|x| + |y|) + 31) / 2 ^ 126) (W := |x| + |y| + 4) (by linarith) (by linarith)
    (le_trans (show _ ≤ (1000:ℝ) by linarith) (by norm_num)) (by norm_num; linarith) (by linarith) (by norm_num; linarith)
  refine ⟨q.fin, ?_⟩
  have e : qv r - qv (s + t) = (qv r - (x + y)) - (qv (s + t) - (x + y)) := by ring
  rw [e]
  refine (abs_sub _ _).trans ?_
  have e1 := qr.err
  have e2 := q.err
  norm_num at e1 e2 ⊢
  linarith

/-- The hypotheses of `C94_quad_ln_mul` hold for two of the library's constants. -/
theorem quad_ln_mul_nonvacuous :
    |Real.log ((Quad.PI.val : ℚ) : ℝ)| ≤ 230 ∧ |Real.log ((Quad.E.val : ℚ) : ℝ)| ≤ 230 := by
  have key : ∀ x : ℚ, 1 ≤ x → x ≤ 4 → |Real.log (x : ℝ)| ≤ 230 := by
    intro x h1 h2
    have h1' : (1:ℝ) ≤ x := by exact_mod_cast h1
    have h2' : (x:ℝ) ≤ 4 := by exact_mod_cast h2
    rw [abs_of_nonneg (Real.log_nonneg h1')]
    have := Real.log_le_sub_one_of_pos (show (0:ℝ) < x by linarith)
    linarith
  exact ⟨key _ (by decide +kernel) (by decide +kernel), key _ (by decide +kernel) (by decide +kernel)⟩

example (P : Platform) (hP : LibmLogs P) : ∃ r s t, Quad.ln P (Quad.PI * Quad.E) = some r ∧
    Quad.ln P Quad.PI = some s ∧ Quad.ln P Quad.E = some t ∧ (s + t).Fin ∧
    |(r.val : ℝ) - ((s + t).val : ℝ)| ≤
      (5 * (|Real.log ((Quad.PI.val : ℚ) : ℝ)| + |Real.log ((Quad.E.val : ℚ) : ℝ)|) + 48) / 2 ^ 126 :=
  C94_quad_ln_mul P hP _ _ (by decide +kernel) (by decide +kernel) (by decide +kernel) (by decide +kernel)
    quad_ln_mul_nonvacuous.1 quad_ln_mul_nonvacuous.2

end Verif
