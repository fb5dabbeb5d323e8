import Verif.Props.Inverse
import Verif.Props.QuadExp
import Verif.Props.QuadLn
import Verif.Props.QuadSqrt
import Verif.Props.QuadTrig
import Verif.Props.QuadInvHyper

/-!
# C92: functions and their inverses on Quads
-/

namespace Verif

open F64 Prim Util

/-- **C92.** `exp` undoes `ln` on Quads: for every positive number whose logarithm is at most 466 in magnitude, `a.ln().exp()`
is within a relative error of `(3 |ln a| + 27) / 2^126` of `a`. -/
theorem C92_quad_exp_ln (P : Platform) (hP : LibmLogs P) (a : Quad) (ha : a.Normalized) (hp : 0 < a.val)
    (h : |Real.log (a.val : ℝ)| ≤ 466) :
    ∃ l r, Quad.ln P a = some l ∧ Quad.exp l = some r ∧ r.Fin ∧
      |(r.val : ℝ) - (a.val : ℝ)| ≤ (3 * |Real.log (a.val : ℝ)| + 27) / 2 ^ 126 * (a.val : ℝ) := by
  obtain ⟨b1, b2⟩ := abs_le.mp h
  obtain ⟨l, l1, l2⟩ := qln_qa hP ha hp (by linarith) (by linarith)
  have hpR : (0:ℝ) < (a.val : ℝ) := by exact_mod_cast hp
  have hL : Real.exp (Real.log (a.val : ℝ)) = (a.val : ℝ) := Real.exp_log hpR
  generalize Real.log (a.val : ℝ) = L at *
  have L0 := abs_nonneg L
  have d1 : (2 * |L| + 15) / 2 ^ 126 ≤ 1 / 2 ^ 100 := by norm_num; linarith
  have hl := l2.abs_le
  have hc := sz_c0_le l2.sz
  obtain ⟨c1, c2⟩ := abs_le.mp hc
  obtain ⟨r, X, r1, r2, -⟩ := qexp_any (a := l) (B := |L| + 3) (l2.sz.mono (by norm_num; linarith)) (by norm_num at d1 ⊢; linarith)
    (by linarith) (by linarith) (by linarith)
  refine ⟨l, r, l1, r1, r2.fin, ?_⟩
  have d0 : 0 ≤ (2 * |L| + 15) / 2 ^ 126 := by positivity
  have k := exp_of_near l2.err r2.err (by norm_num at d1 ⊢; linarith) (by positivity)
  rw [hL] at k
  change |qv r - _| ≤ _
  refine k.trans (mul_le_mul_of_nonneg_right ?_ hpR.le)
  have d2 : ((2 * |L| + 15) / 2 ^ 126) ^ 2 ≤ 1 / 2 ^ 100 * ((2 * |L| + 15) / 2 ^ 126) := by
    rw [sq]; exact mul_le_mul_of_nonneg_right d1 d0
  have d3 : (|L| + 3 + 8) / 2 ^ 126 * (1 + (2 * |L| + 15) / 2 ^ 126 + ((2 * |L| + 15) / 2 ^ 126) ^ 2) ≤ (|L| + 3 + 8) / 2 ^ 126 * (1 + 1 / 2 ^ 90) := by
    refine mul_le_mul_of_nonneg_left ?_ (by positivity)
    generalize (2 * |L| + 15) / 2 ^ 126 = D at *
    norm_num at d1 d2 ⊢
    linarith
  refine (add_le_add (add_le_add_right d2 _) d3).trans ?_
  norm_num
  linarith

/-- **C92.** `ln` undoes `exp` on Quads: for every number of magnitude at most 466, `a.exp().ln()` is within
`(4 |a| + 34) / 2^126` of `a`. -/
theorem C92_quad_ln_exp (P : Platform) (hP : LibmLogs P) (a : Quad) (ha : a.Normalized) (h : |(a.val : ℝ)| ≤ 466) :
    ∃ e r, Quad.exp a = some e ∧ Quad.ln P e = some r ∧ r.Fin ∧
      |(r.val : ℝ) - (a.val : ℝ)| ≤ (4 * |(a.val : ℝ)| + 34) / 2 ^ 126 := by
  change |qv a| ≤ 466 at h
  change ∃ e r, Quad.exp a = some e ∧ Quad.ln P e = some r ∧ r.Fin ∧ |qv r - qv a| ≤ (4 * |qv a| + 34) / 2 ^ 126
  have A0 := abs_nonneg (qv a)
  obtain ⟨b1, b2⟩ := abs_le.mp h
  have ex := (qord_norm ha).exact
  have hc := sz_c0_le ex.sz
  obtain ⟨c1, c2⟩ := abs_le.mp hc
  obtain ⟨e, X, e1, e2, e3⟩ := qexp_any ex.sz le_rfl (by linarith) (by norm_num at c1 ⊢; linarith) (by norm_num at c2 ⊢; linarith)
  have E0 := Real.exp_pos (qv a)
  obtain ⟨r, r1, r2⟩ := qln_of hP (K := 6) (δ := (|qv a| + 8) / 2 ^ 126) (e2.mono (by rw [mul_comm]) e3) E0 (by norm_num; linarith)
    (by rw [mul_comm]; exact mul_le_mul_of_nonneg_left (by norm_num) E0.le) (by norm_num) (by rw [Real.log_exp]; linarith)
    (by rw [Real.log_exp]; linarith) (by rw [Real.log_exp]; linarith)
  rw [Real.log_exp] at r2
  refine ⟨e, r, e1, r1, r2.fin, r2.err.trans ?_⟩
  norm_num
  linarith

/-- **C92.** Squaring undoes `sqrt` on Quads: `a.sqrt().sqr()` is within a relative error of `2^-126` of `a`. -/
theorem C92_quad_sqr_sqrt (P : Platform) (hP : FloatText P.toStr) (a : Quad) (ha : a.Normalized)
    (h1 : 1 ≤ a.val * 2 ^ 830) (h2 : a.val ≤ 2 ^ 830) :
    ∃ s, Quad.sqrt P a = some s ∧ s.sqr.Fin ∧ |s.sqr.val - a.val| * 2 ^ 126 ≤ a.val := by
  rw [show (2:ℚ) ^ 830 = 2 ^ 210 * 2 ^ 205 * (2 ^ 210 * 2 ^ 205) by simp only [← pow_add]] at h1 h2
  have hp : 0 < a.val := by
    by_contra hc
    have := mul_nonpos_of_nonpos_of_nonneg (not_lt.mp hc) (show (0:ℚ) ≤ 2 ^ 210 * 2 ^ 205 * (2 ^ 210 * 2 ^ 205) by positivity)
    exact absurd (h1.trans this) (by norm_num)
  have hp' : 0 < qv a := by unfold qv; exact_mod_cast hp
  have q1 : (1:ℝ) ≤ qv a * (2 ^ 210 * 2 ^ 205 * (2 ^ 210 * 2 ^ 205)) := by unfold qv; exact_mod_cast h1
  have q2 : qv a ≤ 2 ^ 210 * 2 ^ 205 * (2 ^ 210 * 2 ^ 205) := by unfold qv; exact_mod_cast h2
  obtain ⟨s, s1, s2⟩ := qsqrt_any P hP rfl (qnorm_sz ha hp') hp' q1 q2
  have hs : Real.sqrt (qv a) ^ 2 = qv a := Real.sq_sqrt hp'.le
  have s0 : 0 < Real.sqrt (qv a) := Real.sqrt_pos.mpr hp'
  have l1 : 1 ≤ Real.sqrt (qv a) * (2 ^ 210 * 2 ^ 205) := by
    rw [← hs] at q1
    by_contra hc
    have := pow_lt_one₀ (by positivity) (not_le.mp hc) (two_ne_zero)
    rw [mul_pow, sq (2 ^ 210 * 2 ^ 205 : ℝ)] at this
    linarith
  have l2 : Real.sqrt (qv a) ≤ 2 ^ 210 * 2 ^ 205 := by
    rw [Real.sqrt_le_left (by positivity), sq]; exact q2
  clear q1 q2 h1 h2
  refine ⟨s, s1, ?_⟩
  have k : QA s.sqr (Real.sqrt (qv a) ^ 2) (Real.sqrt (qv a) ^ 2 * (32 / 10 / 2 ^ 128)) (Real.sqrt (qv a) ^ 2 * (105 / 100)) := by
    have e1 : ∀ c : ℝ, Real.sqrt (qv a) * c * (Real.sqrt (qv a) * c) = Real.sqrt (qv a) ^ 2 * (c * c) := fun c => by ring
    have e2 : ∀ c : ℝ, 2 * Real.sqrt (qv a) * (Real.sqrt (qv a) * c) = Real.sqrt (qv a) ^ 2 * (2 * c) := fun c => by ring
    refine s2.sqr ?_ ?_ ?_ ?_ ?_
    · refine l1.trans ?_
      rw [mul_assoc]
      exact mul_le_mul_of_nonneg_left (by norm_num) s0.le
    · refine (mul_le_mul_of_nonneg_right l2 (by norm_num)).trans (by norm_num)
    · rw [abs_of_pos s0, e1, e2, e1]
      clear l1 l2
      have s0' := sq_nonneg (Real.sqrt (qv a))
      generalize Real.sqrt (qv a) ^ 2 = T at *
      norm_num
      linarith
    · rw [e1]
      clear l1 l2
      have s0' := sq_nonneg (Real.sqrt (qv a))
      generalize Real.sqrt (qv a) ^ 2 = T at *
      norm_num
      linarith
    · rw [e1]
      clear l1 l2
      have s0' := sq_nonneg (Real.sqrt (qv a))
      generalize Real.sqrt (qv a) ^ 2 = T at *
      norm_num
      linarith
  rw [hs] at k
  refine ⟨k.fin, ?_⟩
  have e := k.err
  have goal : |qv s.sqr - qv a| * 2 ^ 126 ≤ qv a := by
    clear l1 l2 s2
    norm_num at e ⊢
    linarith
  unfold qv at goal
  exact_mod_cast goal

/-- **C92.** `sqrt` undoes squaring on Quads up to the sign: `a.sqr().sqrt()` is within a relative error of `2^-127` of `|a|`. -/
theorem C92_quad_sqrt_sqr (P : Platform) (hP : FloatText P.toStr) (a : Quad) (ha : a.Normalized)
    (h1 : 1 ≤ |a.val| * 2 ^ 400) (h2 : |a.val| ≤ 2 ^ 400) :
    ∃ r, Quad.sqrt P a.sqr = some r ∧ r.Fin ∧ |r.val - (|a.val|)| * 2 ^ 127 ≤ |a.val| := by
  rw [show (2:ℚ) ^ 400 = 2 ^ 200 * 2 ^ 200 by rw [← pow_add]] at h1 h2
  have q1 : (1:ℝ) ≤ |qv a| * (2 ^ 200 * 2 ^ 200) := by unfold qv; exact_mod_cast h1
  have q2 : |qv a| ≤ 2 ^ 200 * 2 ^ 200 := by unfold qv; exact_mod_cast h2
  clear h1 h2
  have A0 := abs_nonneg (qv a)
  have pos : 0 < qv a ^ 2 := by
    rw [← sq_abs]
    apply pow_pos
    rcases lt_or_eq_of_le A0 with h | h
    · exact h
    · rw [← h, zero_mul] at q1; exact absurd q1 (by norm_num)
  have k : QA a.sqr (qv a ^ 2) (qv a ^ 2 * (101 / 100 / 2 ^ 139)) (qv a ^ 2 * (1003 / 1000)) := by
    have e1 : ∀ c : ℝ, |qv a| * c * (|qv a| * c) = qv a ^ 2 * (c * c) := fun c => by rw [← sq_abs (qv a)]; ring
    refine (qord_norm ha).exact.sqr ?_ ?_ ?_ ?_ ?_
    · refine q1.trans ?_
      rw [mul_assoc]
      exact mul_le_mul_of_nonneg_left (by norm_num) A0
    · refine (mul_le_mul_of_nonneg_right q2 (by norm_num)).trans (by norm_num)
    all_goals
      rw [e1]
      clear q1 q2 A0
      generalize qv a ^ 2 = T at *
      norm_num
      linarith
  obtain ⟨r, r1, r2⟩ := qsqrt_of hP k pos (by norm_num) (mul_le_mul_of_nonneg_left (by norm_num) pos.le) (by
    have := one_le_pow₀ (n := 2) q1
    rw [mul_pow, sq_abs] at this
    refine this.trans (mul_le_mul_of_nonneg_left (by norm_num) pos.le)) (by
    have := pow_le_pow_left₀ A0 q2 2
    rw [sq_abs] at this
    refine this.trans (by norm_num))
  rw [Real.sqrt_sq_eq_abs] at r2
  refine ⟨r, r1, r2.fin, ?_⟩
  have e := r2.err
  have goal : |qv r - (|qv a|)| * 2 ^ 127 ≤ |qv a| := by
    clear q1 q2 k r2
    norm_num at e ⊢
    linarith
  unfold qv at goal
  exact_mod_cast goal

/-- **C92.** The Pythagorean identity on Quads: for every number of magnitude at most `2^29`, `s.sqr() + c.sqr()` of the
results of `sin_cos` is finite and within `(|a| + 29) / 2^126` of 1. -/
theorem C92_quad_pythagoras (P : Platform) (hP : FloatText P.toStr) (a : Quad) (ha : a.Normalized)
    (h2 : |(a.val : ℝ)| ≤ 2 ^ 29) :
    ∃ s c, Quad.sinCos P a = some (s, c) ∧ (s.sqr + c.sqr).Fin ∧
      |((s.sqr + c.sqr).val : ℝ) - 1| ≤ (|(a.val : ℝ)| + 29) / 2 ^ 126 := by
  change |qv a| ≤ 2 ^ 29 at h2
  obtain ⟨-, -, ⟨s, c⟩, -, -, p1, -, -, hs, hc⟩ := qtrig_norm hP ha h2
  refine ⟨s, c, p1, ?_⟩
  change _ ∧ |qv (s.sqr + c.sqr) - 1| ≤ (|qv a| + 29) / 2 ^ 126
  dsimp only at hs hc
  have tri := Real.sin_sq_add_cos_sq (qv a)
  have sb := Real.abs_sin_le_one (qv a)
  have cb := Real.abs_cos_le_one (qv a)
  generalize Real.sin (qv a) = S at *
  generalize Real.cos (qv a) = C at *
  have A0 := abs_nonneg (qv a)
  have eD : (|qv a| + 29) / 2 ^ 126 = 3 * ((|qv a| / 3 + 9) / 2 ^ 126) + 2 / 2 ^ 126 := by ring
  have d1 : (|qv a| / 3 + 9) / 2 ^ 126 ≤ 1 / 2 ^ 90 := by norm_num at h2 ⊢; linarith
  have d0 : 0 ≤ (|qv a| / 3 + 9) / 2 ^ 126 := by positivity
  rw [eD]
  generalize (|qv a| / 3 + 9) / 2 ^ 126 = D at *
  have D2 : D * D ≤ 1 / 2 ^ 180 := (mul_le_mul d1 d1 d0 (by norm_num)).trans (by norm_num)
  have one : ∀ {x : Quad} {X : ℝ}, QA x X D (102 / 100) → |X| ≤ 1 → QA x.sqr (X ^ 2) (2 * |X| * D + 2 / 2 ^ 139) (104 / 100) := by
    intro x X hx hX
    have X2 : X ^ 2 ≤ 1 := by rw [← sq_abs]; exact pow_le_one₀ (abs_nonneg _) hX
    have XD : 2 * |X| * D ≤ 2 * D := by
      have := mul_le_mul_of_nonneg_right hX d0
      linarith
    refine hx.sqr (by norm_num) (by norm_num) ?_ (by norm_num) ?_
    · norm_num at D2 ⊢
      linarith
    · norm_num at XD d1 ⊢
      linarith
  have k1 := one hs sb
  have k2 := one hc cb
  have sc : |S| + |C| ≤ 3 / 2 := by
    have e1 := sq_abs S
    have e2 := sq_abs C
    nlinarith [sq_nonneg (|S| - |C|), abs_nonneg S, abs_nonneg C]
  have scD : 2 * |S| * D + 2 * |C| * D ≤ 3 * D := by
    have := mul_le_mul_of_nonneg_right sc d0
    linarith
  have k := k1.add k2 (Z := 104 / 100) (W := 105 / 100) (g := 3 * D + 2 / 2 ^ 126) le_rfl le_rfl (by norm_num)
    (by norm_num at scD ⊢; linarith) (by norm_num) (by rw [tri, abs_one]; norm_num at d1 ⊢; linarith)
  rw [tri] at k
  exact ⟨k.fin, k.err⟩

/-! ## Non-vacuity -/

example (P : Platform) (h : P.toStr = text17) : ∃ s, Quad.sqrt P Quad.PI = some s ∧ s.sqr.Fin ∧
    |s.sqr.val - Quad.PI.val| * 2 ^ 126 ≤ Quad.PI.val :=
  C92_quad_sqr_sqrt P (h ▸ text17_ok) _ (by decide +kernel) (by decide +kernel) (by decide +kernel)

example (P : Platform) (h : P.toStr = text17) : ∃ r, Quad.sqrt P (-Quad.PI).sqr = some r ∧ r.Fin ∧
    |r.val - (|(-Quad.PI).val|)| * 2 ^ 127 ≤ |(-Quad.PI).val| :=
  C92_quad_sqrt_sqr P (h ▸ text17_ok) _ (by decide +kernel) (by decide +kernel) (by decide +kernel)

theorem quad_pi_small : 1 ≤ (Quad.PI.val : ℝ) ∧ (Quad.PI.val : ℝ) ≤ 4 := by
  have h : mkRat 1 1 ≤ Quad.PI.val ∧ Quad.PI.val ≤ mkRat 4 1 := by decide +kernel
  have h1 := (Rat.cast_le (K := ℝ)).mpr h.1
  have h2 := (Rat.cast_le (K := ℝ)).mpr h.2
  rw [Rat.mkRat_eq_div] at h1 h2
  push_cast at h1 h2
  constructor <;> linarith

example : ∃ l r, Quad.ln logPlatform Quad.PI = some l ∧ Quad.exp l = some r ∧ r.Fin ∧
    |(r.val : ℝ) - (Quad.PI.val : ℝ)| ≤ (3 * |Real.log (Quad.PI.val : ℝ)| + 27) / 2 ^ 126 * (Quad.PI.val : ℝ) := by
  obtain ⟨h1, h2⟩ := quad_pi_small
  refine C92_quad_exp_ln _ logPlatform_ok _ (by decide +kernel) (by decide +kernel) ?_
  have g1 := Real.log_nonneg h1
  have g2 := Real.log_le_sub_one_of_pos (x := (Quad.PI.val : ℝ)) (by linarith)
  rw [abs_of_nonneg g1]
  linarith

example : ∃ e r, Quad.exp Quad.PI = some e ∧ Quad.ln logPlatform e = some r ∧ r.Fin ∧
    |(r.val : ℝ) - (Quad.PI.val : ℝ)| ≤ (4 * |(Quad.PI.val : ℝ)| + 34) / 2 ^ 126 := by
  obtain ⟨h1, h2⟩ := quad_pi_small
  exact C92_quad_ln_exp _ logPlatform_ok _ (by decide +kernel) (by rw [abs_of_nonneg (by linarith)]; linarith)

example (P : Platform) (h : P.toStr = text17) : ∃ s c, Quad.sinCos P Quad.PI = some (s, c) ∧ (s.sqr + c.sqr).Fin ∧
    |((s.sqr + c.sqr).val : ℝ) - 1| ≤ (|(Quad.PI.val : ℝ)| + 29) / 2 ^ 126 := by
  obtain ⟨h1, h2⟩ := quad_pi_small
  exact C92_quad_pythagoras P (h ▸ text17_ok) _ (by decide +kernel) (by rw [abs_of_nonneg (by linarith)]; norm_num; linarith)

end Verif
