import Verif.Props.QuadInverse
import Verif.Props.QuadAsin
import Verif.Props.Inverse2

/-!
# C92: `sin(asin a)`, `cos(acos a)` and `tan(atan a)` on Quads
-/

namespace Verif

open F64 Prim Util

/-- **C92.** `sin` undoes `asin` on Quads: for `a = 0` or `2^-150 ≤ |a| ≤ 24/25`, `a.asin().sin()` is within `30 * 2^-126` of `a`. -/
theorem C92_quad_sin_asin (P : Platform) (hT : FloatText P.toStr) (hA2 : LibmAtan2 P) (a : Quad) (ha : a.Normalized)
    (h0 : a.val = 0 ∨ 1 ≤ |a.val| * 2 ^ 150) (h1 : |(a.val : ℝ)| ≤ 24 / 25) :
    ∃ t r, Quad.asin P a = some t ∧ Quad.sin P t = some r ∧ r.Fin ∧ |(r.val : ℝ) - (a.val : ℝ)| ≤ 30 / 2 ^ 126 := by
  change |qv a| ≤ 24 / 25 at h1
  obtain ⟨t, t1, t2, t3, -⟩ := (qasin_both P hT hA2 ha h0 h1).1
  have hs := Real.sin_arcsin (x := qv a) (by linarith [(abs_le.mp h1).1]) (by linarith [(abs_le.mp h1).2])
  have hi : |Real.arcsin (qv a)| ≤ 1.6 := by
    have h3 := Real.arcsin_le_pi_div_two (qv a)
    have h4 := Real.neg_pi_div_two_le_arcsin (qv a)
    have := pi_bds.2
    rw [abs_le]; constructor <;> norm_num at * <;> linarith
  have k1 := abs_sub_abs_le_abs_sub (qv t) (Real.arcsin (qv a))
  obtain ⟨r, -, -, r1, -, -, r2, -⟩ := qtrig_facts hT t2 (by norm_num at k1 t3 hi ⊢; linarith) (by norm_num)
  refine ⟨t, r, t1, r1, r2.fin, ?_⟩
  have e1 := Real.abs_sin_sub_sin_le (qv t) (Real.arcsin (qv a))
  rw [hs] at e1
  have e2 := abs_sub_le (qv r) (Real.sin (qv t)) (qv a)
  have e3 := r2.err
  change |qv r - qv a| ≤ _
  norm_num at e3 t3 ⊢; linarith

/-- **C92.** `cos` undoes `acos` on the same numbers. -/
theorem C92_quad_cos_acos (P : Platform) (hT : FloatText P.toStr) (hA2 : LibmAtan2 P) (a : Quad) (ha : a.Normalized)
    (h0 : a.val = 0 ∨ 1 ≤ |a.val| * 2 ^ 150) (h1 : |(a.val : ℝ)| ≤ 24 / 25) :
    ∃ t r, Quad.acos P a = some t ∧ Quad.cos P t = some r ∧ r.Fin ∧ |(r.val : ℝ) - (a.val : ℝ)| ≤ 30 / 2 ^ 126 := by
  change |qv a| ≤ 24 / 25 at h1
  obtain ⟨t, t1, t2, t3⟩ := (qasin_both P hT hA2 ha h0 h1).2
  have hs := Real.cos_arccos (x := qv a) (by linarith [(abs_le.mp h1).1]) (by linarith [(abs_le.mp h1).2])
  have hi : |Real.arccos (qv a)| ≤ 3.15 := by
    have h3 := Real.arccos_le_pi (qv a)
    have h4 := Real.arccos_nonneg (qv a)
    have := pi_bds.2
    rw [abs_of_nonneg h4]; norm_num at *; linarith
  have k1 := abs_sub_abs_le_abs_sub (qv t) (Real.arccos (qv a))
  obtain ⟨-, r, -, -, r1, -, -, r2, -⟩ := qtrig_facts hT t2 (by norm_num at k1 t3 hi ⊢; linarith) (by norm_num)
  refine ⟨t, r, t1, r1, r2.fin, ?_⟩
  have e1 := Real.abs_cos_sub_cos_le (qv t) (Real.arccos (qv a))
  rw [hs] at e1
  have e2 := abs_sub_le (qv r) (Real.cos (qv t)) (qv a)
  have e3 := r2.err
  change |qv r - qv a| ≤ _
  norm_num at e3 t3 ⊢; linarith

/-- **C92.** `tan` undoes `atan` on Quads: for `a = 0` or `2^-150 ≤ |a| ≤ 300`, `a.atan().tan()` is within
`36 (1 + a²) * 2^-126` of `a`. -/
theorem C92_quad_tan_atan (P : Platform) (hT : FloatText P.toStr) (hA2 : LibmAtan2 P) (a : Quad) (ha : a.Normalized)
    (h0 : a.val = 0 ∨ 1 ≤ |a.val| * 2 ^ 150) (h1 : |(a.val : ℝ)| ≤ 300) :
    ∃ t r, Quad.atan P a = some t ∧ Quad.tan P t = some r ∧ r.Fin ∧
      |(r.val : ℝ) - (a.val : ℝ)| ≤ 36 / 2 ^ 126 * (1 + (a.val : ℝ) ^ 2) := by
  change |qv a| ≤ 300 at h1
  change ∃ t r, Quad.atan P a = some t ∧ Quad.tan P t = some r ∧ r.Fin ∧ |qv r - qv a| ≤ 36 / 2 ^ 126 * (1 + qv a ^ 2)
  have one : qv Quad.ONE = 1 := by
    have : Quad.ONE.val = 1 := by decide +kernel
    unfold qv; rw [this]; norm_num
  have h := qatan2_all P hT hA2 ha (b := Quad.ONE) (by decide +kernel) (qmid_of (h0.imp id fun h => ⟨h, by
      have : |(a.val : ℝ)| ≤ 2 ^ 150 := h1.trans (by norm_num)
      exact_mod_cast this⟩)) (by
    right; rw [one]; constructor <;> norm_num) (Or.inr (by rw [one]; norm_num))
  rw [one, angle_one] at h
  obtain ⟨t, t1, t2, -⟩ := h
  have t3 := t2.err
  have ub : |Real.arctan (qv a)| ≤ 1.5708 := by
    have h3 := Real.arctan_lt_pi_div_two (qv a)
    have h4 := Real.neg_pi_div_two_lt_arctan (qv a)
    have := pi_bds.2
    rw [abs_le]; constructor <;> norm_num at * <;> linarith
  have hs := Real.sin_arctan (qv a)
  have hc := Real.cos_arctan (qv a)
  have k1 := abs_sub_abs_le_abs_sub (qv t) (Real.arctan (qv a))
  obtain ⟨-, -, p, -, -, p1, -, -, p2, p3, -⟩ := qtrig_facts hT t2.sz (by norm_num at k1 t3 ub ⊢; linarith) (by norm_num)
  have lift : (13 / 10 * (33 / 10) + 352 / 10 : ℝ) / 2 ^ 128 ≤ 10 / 2 ^ 126 := by norm_num
  have p2' := p2.mono lift le_rfl
  have p3' := p3.mono lift le_rfl
  have ds := Real.abs_sin_sub_sin_le (qv t) (Real.arctan (qv a))
  have dc := Real.abs_cos_sub_cos_le (qv t) (Real.arctan (qv a))
  rw [hs] at ds
  rw [hc] at dc
  have et : Quad.atan P a = some t := t1
  clear t1 t2 p2 p3 lift one h0 k1
  generalize Real.arctan (qv a) = θ at *
  generalize qv a = A at *
  have rs : Real.sqrt (1 + A ^ 2) ^ 2 = 1 + A ^ 2 := Real.sq_sqrt (by positivity)
  have R1 : 1 ≤ Real.sqrt (1 + A ^ 2) := Real.one_le_sqrt.mpr (by linarith [sq_nonneg A])
  have Ru : Real.sqrt (1 + A ^ 2) ≤ 301 := by
    rw [Real.sqrt_le_left (by norm_num)]
    have := pow_le_pow_left₀ (abs_nonneg A) h1 2
    rw [sq_abs] at this
    norm_num at this ⊢; linarith
  have Rm : 1 + |A| ≤ 1415 / 1000 * Real.sqrt (1 + A ^ 2) := by
    have h := sq_abs A
    have : (1 + |A|) ^ 2 ≤ (1415 / 1000 * Real.sqrt (1 + A ^ 2)) ^ 2 := by
      rw [mul_pow, rs]; nlinarith [sq_nonneg (|A| - 1), sq_nonneg A]
    exact le_of_sq_le_sq this (by positivity)
  rw [← rs]
  generalize Real.sqrt (1 + A ^ 2) = R at *
  have Rp : 0 < R := by linarith
  have inv : 1 / 301 ≤ 1 / R := one_div_le_one_div_of_le Rp Ru
  have cl : 999 / 1000 * (1 / R) ≤ Real.cos (qv t) := by
    have := (abs_le.mp dc).1
    norm_num at this t3 inv ⊢; linarith
  have cp : 0 < Real.cos (qv t) := lt_of_lt_of_le (by positivity) cl
  obtain ⟨r, r1, r2, r3⟩ := qtan_core p1 p2' p3' (by norm_num) (by norm_num)
    (by rw [abs_of_pos cp]; norm_num at cl inv ⊢; linarith)
  rw [← Real.tan_eq_sin_div_cos] at r3
  refine ⟨t, r, et, r1, r2, ?_⟩
  rw [abs_of_pos cp] at r3
  have ic : 1 / Real.cos (qv t) ≤ 1002 / 1000 * R := by
    rw [div_le_iff₀ cp]
    have := mul_le_mul_of_nonneg_left cl (show 0 ≤ 1002 / 1000 * R by positivity)
    have e : 1002 / 1000 * R * (999 / 1000 * (1 / R)) = 1002 / 1000 * (999 / 1000) := by field_simp
    rw [e] at this
    norm_num at this ⊢; linarith
  have td : |Real.tan (qv t) - A| ≤ 35 / 2 / 2 ^ 126 * (1002 / 1000) * R ^ 2 := by
    have e : Real.tan (qv t) - A = Real.sin (qv t - θ) * (1 / Real.cos (qv t)) * R := by
      rw [Real.sin_sub, hs, hc, Real.tan_eq_sin_div_cos]; field_simp
    rw [e, abs_mul, abs_mul, abs_of_pos (one_div_pos.mpr cp), abs_of_pos Rp]
    have h := mul_le_mul (Real.abs_sin_le_abs.trans t3) ic (one_div_pos.mpr cp).le (by norm_num)
    have h2 := mul_le_mul_of_nonneg_right h Rp.le
    refine h2.trans (le_of_eq ?_); ring
  have R2 : R ^ 2 ≤ 301 ^ 2 := pow_le_pow_left₀ Rp.le Ru 2
  have tt : 1 + |Real.tan (qv t)| ≤ 1416 / 1000 * R := by
    have h := abs_sub_abs_le_abs_sub (Real.tan (qv t)) A
    generalize R ^ 2 = R' at *
    norm_num at td R2 h Rm ⊢; linarith
  have r4 : |qv r - Real.tan (qv t)| ≤ 6 / 5 * (10 / 2 ^ 126) * (1416 / 1000 * R) * (1002 / 1000 * R) := by
    refine r3.trans ?_
    rw [div_eq_mul_one_div]
    exact mul_le_mul (mul_le_mul_of_nonneg_left tt (by positivity)) ic (one_div_pos.mpr cp).le (by positivity)
  refine (abs_sub_le _ (Real.tan (qv t)) _).trans ((add_le_add r4 td).trans ?_)
  have : 0 ≤ R ^ 2 := by positivity
  have e : 6 / 5 * (10 / 2 ^ 126) * (1416 / 1000 * R) * (1002 / 1000 * R) =
    6 / 5 * (10 / 2 ^ 126) * (1416 / 1000) * (1002 / 1000) * R ^ 2 := by ring
  rw [e]
  generalize R ^ 2 = R' at *
  norm_num; linarith

/-! ## Concrete cases -/

theorem quad_pi4_small : |((-Quad.FRAC_PI_4).val : ℝ)| ≤ 24 / 25 := by
  have h : |(-Quad.FRAC_PI_4).val| ≤ mkRat 24 25 := by decide +kernel
  have h1 := (Rat.cast_le (K := ℝ)).mpr h
  rw [Rat.mkRat_eq_div] at h1
  push_cast at h1
  exact h1

example : ∃ t r, Quad.asin angPlatform (-Quad.FRAC_PI_4) = some t ∧ Quad.sin angPlatform t = some r ∧ r.Fin ∧
    |(r.val : ℝ) - ((-Quad.FRAC_PI_4).val : ℝ)| ≤ 30 / 2 ^ 126 :=
  C92_quad_sin_asin _ angPlatform_ok.2 angPlatform_ok.1 _ (by decide +kernel) (by decide +kernel) quad_pi4_small

example : ∃ t r, Quad.acos angPlatform (-Quad.FRAC_PI_4) = some t ∧ Quad.cos angPlatform t = some r ∧ r.Fin ∧
    |(r.val : ℝ) - ((-Quad.FRAC_PI_4).val : ℝ)| ≤ 30 / 2 ^ 126 :=
  C92_quad_cos_acos _ angPlatform_ok.2 angPlatform_ok.1 _ (by decide +kernel) (by decide +kernel) quad_pi4_small

example : ∃ t r, Quad.atan angPlatform Quad.PI = some t ∧ Quad.tan angPlatform t = some r ∧ r.Fin ∧
    |(r.val : ℝ) - (Quad.PI.val : ℝ)| ≤ 36 / 2 ^ 126 * (1 + (Quad.PI.val : ℝ) ^ 2) :=
  C92_quad_tan_atan _ angPlatform_ok.2 angPlatform_ok.1 _ (by decide +kernel) (by decide +kernel)
    (by obtain ⟨h1, h2⟩ := quad_pi_small; rw [abs_of_nonneg (by linarith)]; linarith)

end Verif
