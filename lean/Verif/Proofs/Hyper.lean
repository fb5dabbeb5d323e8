import Mathlib.Analysis.SpecialFunctions.Arsinh
import Verif.Proofs.TrigReduce
import Verif.Proofs.Wide
import Verif.Props.Exp
import Verif.Props.Ln

/-!
# The exponential and its reciprocal, and the series of the hyperbolic sine
-/

namespace Verif

open F64

theorem two_rv {d : Double} (h : d.Normalized) : |rv d| ≤ 2 * |fr d.hi| := by
  have h1 := fr_hi_ge h
  have : (1:ℝ)/2 ≤ 1 - 1 / 2 ^ 52 := by norm_num
  have h3 := mul_le_mul_of_nonneg_left this (abs_nonneg (rv d))
  linarith

/-- Division over nearly the whole range. -/
theorem rw_divw {a b : Double} (ha : a.Normalized) (hb : b.Normalized) (h0 : rv b ≠ 0) (h1 : 1 ≤ |rv a| * 2 ^ 950)
    (h2 : |rv a| ≤ 2 ^ 1000) (h3 : 1 ≤ |rv a / rv b| * 2 ^ 950) (h4 : |rv a / rv b| ≤ 2 ^ 1000) :
    Ap (a / b) (rv a / rv b) (|rv a / rv b| / 2 ^ 102) := by
  have la := fr_hi_two ha
  have lb := fr_hi_two hb
  have ga := two_rv ha
  have gb := two_rv hb
  have b0 : 0 < |rv b| := abs_pos.mpr h0
  have f0 : 0 < |fr b.hi| := by linarith
  have a1 : 1 ≤ |fr a.hi| * 2 ^ 962 := by
    refine h1.trans ((mul_le_mul_of_nonneg_right ga (by positivity)).trans ?_)
    rw [show 2 * |fr a.hi| * 2 ^ 950 = |fr a.hi| * 2 ^ 951 by rw [pow_succ (2:ℝ) 950]; ring]
    exact mul_le_mul_of_nonneg_left (pow_le_pow_right₀ (by norm_num) (by norm_num)) (abs_nonneg _)
  have a2 : |fr a.hi| ≤ 2 ^ 1020 := by
    refine la.trans ((mul_le_mul_of_nonneg_left h2 (by norm_num)).trans ?_)
    rw [← pow_succ']
    exact pow_le_pow_right₀ (by norm_num) (by norm_num)
  have q1 : |rv a / rv b| ≤ 4 * |fr a.hi / fr b.hi| := by
    rw [abs_div, abs_div, div_le_iff₀ b0]
    rw [show 4 * (|fr a.hi| / |fr b.hi|) * |rv b| = 2 * |fr a.hi| * (2 * |rv b| / |fr b.hi|) by ring]
    refine ga.trans (le_mul_of_one_le_right (by positivity) ?_)
    rw [one_le_div f0]; exact lb
  have q2 : |fr a.hi / fr b.hi| ≤ 4 * |rv a / rv b| := by
    rw [abs_div, abs_div, div_le_iff₀ f0]
    rw [show 4 * (|rv a| / |rv b|) * |fr b.hi| = 2 * |rv a| * (2 * |fr b.hi| / |rv b|) by ring]
    refine la.trans (le_mul_of_one_le_right (by positivity) ?_)
    rw [one_le_div b0]; exact gb
  have q3 : 1 ≤ |fr a.hi / fr b.hi| * 2 ^ 962 := by
    refine h3.trans ((mul_le_mul_of_nonneg_right q1 (by positivity)).trans ?_)
    rw [show 4 * |fr a.hi / fr b.hi| * 2 ^ 950 = |fr a.hi / fr b.hi| * 2 ^ 952 by
      rw [show (952:ℕ) = 950 + 2 by norm_num, pow_add (2:ℝ) 950]; ring]
    exact mul_le_mul_of_nonneg_left (pow_le_pow_right₀ (by norm_num) (by norm_num)) (abs_nonneg _)
  have q4 : |fr a.hi / fr b.hi| ≤ 2 ^ 1020 := by
    refine q2.trans ((mul_le_mul_of_nonneg_left h4 (by norm_num)).trans ?_)
    rw [show (4:ℝ) = 2 ^ 2 by norm_num, ← pow_add]
    exact pow_le_pow_right₀ (by norm_num) (by norm_num)
  obtain ⟨hn, he⟩ := C04_div a b ha hb (by
      intro h0
      have : fr b.hi = 0 := by rw [fr_toRat, h0]; simp
      rw [this] at f0; simp at f0)
    (by rw [fr_toRat] at a1; exact_mod_cast a1)
    (by rw [fr_toRat] at a2; exact_mod_cast a2)
    (by rw [fr_toRat, fr_toRat] at q3; exact_mod_cast q3)
    (by rw [fr_toRat, fr_toRat] at q4; exact_mod_cast q4)
  refine ⟨hn, ?_⟩
  have := cast_rel 102 he.le
  unfold rv
  push_cast at this
  exact this

theorem one_rv : rv Double.ONE = 1 := by
  have : Double.ONE.val = 1 := by decide +kernel
  unfold rv; rw [this]; simp

/-- The reciprocal over nearly the whole range. -/
theorem rw_recip {b : Double} (hb : b.Normalized) (h1 : 1 ≤ |rv b| * 2 ^ 900) (h2 : |rv b| ≤ 2 ^ 900) :
    Ap b.recip (rv b)⁻¹ (|(rv b)⁻¹| / 2 ^ 102) := by
  have h0 : rv b ≠ 0 := by
    intro h; rw [h, abs_zero, zero_mul] at h1; norm_num at h1
  have b0 : 0 < |rv b| := abs_pos.mpr h0
  have := rw_divw ap_one.1 hb h0 (by rw [one_rv, abs_one, one_mul]; exact one_le_pow₀ (by norm_num))
    (by rw [one_rv, abs_one]; exact one_le_pow₀ (by norm_num))
    (by
      rw [one_rv, abs_div, abs_one, div_mul_eq_mul_div, one_mul, one_le_div b0]
      exact h2.trans (pow_le_pow_right₀ (by norm_num) (by norm_num)))
    (by
      rw [one_rv, abs_div, abs_one, div_le_iff₀ b0, mul_comm]
      exact h1.trans (mul_le_mul_of_nonneg_left (pow_le_pow_right₀ (by norm_num) (by norm_num)) b0.le))
  rw [one_rv, one_div] at this
  exact this

theorem exp_870 {x : ℝ} (h : |x| ≤ 602) : Real.exp x ≤ 2 ^ 870 ∧ 1 ≤ Real.exp x * 2 ^ 870 := by
  have key : ∀ {y : ℝ}, y ≤ 602 → Real.exp y ≤ 2 ^ 870 := by
    intro y hy
    rw [← Real.le_log_iff_exp_le (by positivity), Real.log_pow]
    have := Real.log_two_gt_d9
    push_cast
    linarith
  obtain ⟨h1, h2⟩ := abs_le.mp h
  refine ⟨key h2, ?_⟩
  have := key (y := -x) (by linarith)
  have e := Real.exp_pos x
  rw [Real.exp_neg, inv_le_iff_one_le_mul₀ e] at this
  rwa [mul_comm]

theorem abs_rv_600 {a : Double} (ha : a.Normalized) (h : |fr a.hi| ≤ 600) : |rv a| ≤ 601 := by
  have h3 := rv_sub_hi ha
  have h6 := abs_sub_abs_le_abs_sub (rv a) (fr a.hi)
  norm_num at h3
  linarith

theorem exp_pair {a : Double} (ha : a.Normalized) (h : |fr a.hi| ≤ 600) :
    ∃ e, Double.exp a = some e ∧ Ap e (Real.exp (rv a)) ((|rv a| + 10) / 2 ^ 102 * Real.exp (rv a)) ∧
      Ap e.recip (Real.exp (rv a))⁻¹ ((|rv a| + 11.1) / 2 ^ 102 * (Real.exp (rv a))⁻¹) := by
  obtain ⟨h1, h2⟩ := abs_le.mp h
  obtain ⟨e, he, hn, hv⟩ := C63_exp a ha (by rw [fr_toRat] at h1; exact_mod_cast h1)
    (by rw [fr_toRat] at h2; exact_mod_cast (h2.trans (by norm_num : (600:ℝ) ≤ 708)))
  change |rv e - Real.exp (rv a)| ≤ (|rv a| + 10) / 2 ^ 102 * Real.exp (rv a) at hv
  refine ⟨e, he, ⟨hn, hv⟩, ?_⟩
  have hr := abs_rv_600 ha h
  obtain ⟨b1, b2⟩ := exp_870 (hr.trans (by norm_num))
  have hX := Real.exp_pos (rv a)
  have r0 := abs_nonneg (rv a)
  generalize Real.exp (rv a) = X at *
  generalize |rv a| = β at *
  have hδ0 : 0 ≤ (β + 10) / 2 ^ 102 := by positivity
  have hδ : (β + 10) / 2 ^ 102 ≤ 1 / 2 ^ 92 := by
    rw [div_le_div_iff₀ (by positivity) (by positivity)]; norm_num; linarith
  have hδ' : (β + 11.1) / 2 ^ 102 = (β + 10) / 2 ^ 102 + 1.1 / 2 ^ 102 := by rw [← add_div]; ring_nf
  rw [hδ']
  generalize (β + 10) / 2 ^ 102 = δ at *
  obtain ⟨v1, v2⟩ := abs_le.mp hv
  have hδ2 : δ * X ≤ 1 / 2 ^ 92 * X := mul_le_mul_of_nonneg_right hδ hX.le
  have e1 : X / 2 ≤ rv e := by
    norm_num at hδ2; linarith
  have e2 : rv e ≤ 2 * X := by
    norm_num at hδ2; linarith
  have e0 : 0 < rv e := by linarith
  have hrec := rw_recip hn (by
      rw [abs_of_pos e0]
      refine b2.trans ?_
      refine (mul_le_mul_of_nonneg_right (show X ≤ 2 * rv e by linarith) (by positivity)).trans ?_
      rw [show 2 * rv e * 2 ^ 870 = rv e * 2 ^ 871 by rw [pow_succ (2:ℝ) 870]; ring]
      exact mul_le_mul_of_nonneg_left (pow_le_pow_right₀ (by norm_num) (by norm_num)) e0.le) (by
      rw [abs_of_pos e0]
      refine e2.trans ((mul_le_mul_of_nonneg_left b1 (by norm_num)).trans ?_)
      rw [← pow_succ']
      exact pow_le_pow_right₀ (by norm_num) (by norm_num))
  clear b1 b2 h1 h2 hδ' he
  have iX : 0 < X⁻¹ := inv_pos.mpr hX
  -- |1/e - 1/X| ≤ δ (1 + 2^-90) / X
  have hm : |(rv e)⁻¹ - X⁻¹| ≤ δ * (1 + 1 / 2 ^ 90) * X⁻¹ := by
    have e3 : (rv e)⁻¹ - X⁻¹ = (X - rv e) / rv e * X⁻¹ := by field_simp
    rw [e3, abs_mul, abs_of_pos iX]
    apply mul_le_mul_of_nonneg_right _ iX.le
    rw [abs_div, abs_of_pos e0, div_le_iff₀ e0, abs_sub_comm]
    refine hv.trans ?_
    rw [mul_assoc]
    apply mul_le_mul_of_nonneg_left _ hδ0
    norm_num at hδ2 ⊢
    linarith
  rw [abs_inv, abs_of_pos e0] at hrec
  refine (hrec.move hm).mono ?_
  have i2 : (rv e)⁻¹ ≤ (1 + 1 / 2 ^ 90) * X⁻¹ := by
    have := (abs_le.mp hm).2
    have h3 : δ * (1 + 1 / 2 ^ 90) ≤ 1 / 2 ^ 90 := by norm_num at hδ ⊢; linarith
    have := mul_le_mul_of_nonneg_right h3 iX.le
    linarith
  have hδ3 : δ * X⁻¹ ≤ 1 / 2 ^ 92 * X⁻¹ := mul_le_mul_of_nonneg_right hδ iX.le
  generalize X⁻¹ = Y at *
  generalize (rv e)⁻¹ = Z at *
  have : δ * (1 + 1 / 2 ^ 90) * Y = δ * Y + δ * Y / 2 ^ 90 := by ring
  rw [this, add_mul]
  generalize δ * Y = W at *
  norm_num at hδ3 i2 ⊢
  linarith

theorem tau_le : tau ≤ 1 / 10 / 2 ^ 102 := by
  have h := tau_mul (k := 106) (by norm_num)
  norm_num at h ⊢
  linarith

/-- The sum and the difference of the exponential and its reciprocal. -/
theorem exp_sum {a : Double} (ha : a.Normalized) (h : |fr a.hi| ≤ 600) :
    ∃ e, Double.exp a = some e ∧
      Ap (e + e.recip) (2 * Real.cosh (rv a)) ((|rv a| + 11.7) / 2 ^ 102 * (2 * Real.cosh (rv a))) ∧
      Ap (e - e.recip) (2 * Real.sinh (rv a)) ((|rv a| + 11.7) / 2 ^ 102 * (2 * Real.cosh (rv a))) := by
  obtain ⟨e, he, h1, h2⟩ := exp_pair ha h
  refine ⟨e, he, ?_⟩
  have hr := abs_rv_600 ha h
  obtain ⟨b1, b2⟩ := exp_870 (hr.trans (by norm_num))
  have hX := Real.exp_pos (rv a)
  have r0 := abs_nonneg (rv a)
  rw [Real.cosh_eq, Real.sinh_eq, Real.exp_neg, mul_div_cancel₀ _ (by norm_num), mul_div_cancel₀ _ (by norm_num)]
  generalize Real.exp (rv a) = X at *
  generalize |rv a| = β at *
  have iX : 0 < X⁻¹ := inv_pos.mpr hX
  have b3 : X⁻¹ ≤ 2 ^ 870 := by
    rw [inv_le_iff_one_le_mul₀ hX, mul_comm]; exact b2
  have hδ0 : 0 ≤ (β + 10) / 2 ^ 102 := by positivity
  have hδ : (β + 10) / 2 ^ 102 ≤ 1 / 2 ^ 92 := by
    rw [div_le_div_iff₀ (by positivity) (by positivity)]; norm_num; linarith
  have hδ' : (β + 11.1) / 2 ^ 102 = (β + 10) / 2 ^ 102 + 1.1 / 2 ^ 102 := by rw [← add_div]; ring_nf
  have hδ'' : (β + 11.7) / 2 ^ 102 = (β + 10) / 2 ^ 102 + 1.7 / 2 ^ 102 := by rw [← add_div]; ring_nf
  rw [hδ''] 
  rw [hδ'] at h2
  clear hδ' hδ'' b2
  generalize (β + 10) / 2 ^ 102 = δ at *
  generalize X⁻¹ = Y at *
  have d1 : δ * X ≤ 1 / 2 ^ 92 * X := mul_le_mul_of_nonneg_right hδ hX.le
  have d2 : δ * Y ≤ 1 / 2 ^ 92 * Y := mul_le_mul_of_nonneg_right hδ iX.le
  have d3 : 0 ≤ δ * X := by positivity
  have d4 : 0 ≤ δ * Y := by positivity
  have s1 : |rv e| ≤ 2 * X := by
    have := h1.abs_le; rw [abs_of_pos hX] at this
    norm_num at d1; linarith
  have s2 : |rv e.recip| ≤ 2 * Y := by
    have := h2.abs_le; rw [abs_of_pos iX, add_mul] at this
    norm_num at d2 this; linarith
  have big : ∀ {z w : ℝ}, z ≤ 2 * w → w ≤ 2 ^ 870 → z ≤ 2 ^ 1020 := by
    intro z w h3 h4
    refine h3.trans ((mul_le_mul_of_nonneg_left h4 (by norm_num)).trans ?_)
    rw [← pow_succ']
    exact pow_le_pow_right₀ (by norm_num) (by norm_num)
  have ra := rw_add h1.1 h2.1 (big s1 b1) (big s2 b3)
  have rs := rw_sub h1.1 h2.1 (big s1 b1) (big s2 b3)
  have v1 := h1.2
  have v2 := h2.2
  clear b1 b3 big h1 h2 he
  generalize rv e = E at *
  generalize rv e.recip = I at *
  have e1 : (δ + 1.7 / 2 ^ 102) * (X + Y) = δ * X + δ * Y + 1.7 / 2 ^ 102 * (X + Y) := by ring
  rw [e1]
  rw [add_mul] at v2
  generalize δ * X = P at *
  generalize δ * Y = Q at *
  constructor
  · have m : |E + I - (X + Y)| ≤ P + (Q + 1.1 / 2 ^ 102 * Y) := by
      rw [show E + I - (X + Y) = (E - X) + (I - Y) by ring]
      exact (abs_add_le _ _).trans (add_le_add v1 v2)
    refine (ra.move m).mono ?_
    have := abs_add_le (E + I - (X + Y)) (X + Y)
    rw [sub_add_cancel, abs_of_pos (show 0 < X + Y by linarith)] at this
    generalize |E + I| = S at *
    generalize |E + I - (X + Y)| = T at *
    norm_num at d1 d2 m this ⊢
    linarith
  · have m : |E - I - (X - Y)| ≤ P + (Q + 1.1 / 2 ^ 102 * Y) := by
      rw [show E - I - (X - Y) = (E - X) - (I - Y) by ring]
      exact (abs_sub _ _).trans (add_le_add v1 v2)
    refine (rs.move m).mono ?_
    have := abs_add_le (E - I - (X - Y)) (X - Y)
    have h5 : |X - Y| ≤ X + Y := abs_le.mpr ⟨by linarith, by linarith⟩
    rw [sub_add_cancel] at this
    generalize |E - I| = S at *
    generalize |E - I - (X - Y)| = T at *
    norm_num at d1 d2 m this ⊢
    linarith

/-- Halving the sum: the hyperbolic cosine. -/
theorem half_sum {d : Double} {β C : ℝ} (hC : 1 ≤ C) (hβ : β ≤ 601) (h : Ap d (2 * C) ((β + 11.7) / 2 ^ 102 * (2 * C))) :
    Ap (Double.mulPwr2 d Double.half) C ((β + 12) / 2 ^ 102 * C) := by
  have hδ : (β + 11.7) / 2 ^ 102 ≤ 1 / 2 ^ 92 := by
    rw [div_le_div_iff₀ (by positivity) (by positivity)]; norm_num; linarith
  have hδ' : (β + 12) / 2 ^ 102 = (β + 11.7) / 2 ^ 102 + 0.3 / 2 ^ 102 := by rw [← add_div]; ring_nf
  rw [hδ']
  generalize (β + 11.7) / 2 ^ 102 = δ at *
  have d1 := mul_le_mul_of_nonneg_right hδ (show 0 ≤ 2 * C by linarith)
  have hv := h.2
  have h1 : 1 ≤ |rv d| := by
    have := (abs_le.mp hv).1
    have h3 := le_abs_self (rv d)
    norm_num at d1; linarith
  obtain ⟨n1, n2⟩ := rw_half h.1 (by
    refine h1.trans (le_mul_of_one_le_right (abs_nonneg _) (one_le_pow₀ (by norm_num))))
  refine ⟨n1, ?_⟩
  have ht := tau_le
  rw [show rv (Double.mulPwr2 d Double.half) - C = (rv (Double.mulPwr2 d Double.half) - rv d / 2) + (rv d - 2 * C) / 2 by ring]
  refine (abs_add_le _ _).trans ?_
  rw [abs_div, abs_two, add_mul]
  rw [show δ * (2 * C) = 2 * (δ * C) by ring] at hv d1
  generalize |rv (Double.mulPwr2 d Double.half) - rv d / 2| = S at *
  generalize |rv d - 2 * C| = T at *
  generalize δ * C = W at *
  norm_num at ht ⊢
  linarith

/-- Halving the difference: the hyperbolic sine away from zero. -/
theorem half_diff {d : Double} {β C S : ℝ} (hC : 1 ≤ C) (hβ : β ≤ 601) (hS : C / 100 ≤ |S|)
    (h : Ap d (2 * S) ((β + 11.7) / 2 ^ 102 * (2 * C))) :
    Ap (Double.mulPwr2 d Double.half) S ((β + 12) / 2 ^ 102 * C) := by
  have hδ : (β + 11.7) / 2 ^ 102 ≤ 1 / 2 ^ 92 := by
    rw [div_le_div_iff₀ (by positivity) (by positivity)]; norm_num; linarith
  have hδ' : (β + 12) / 2 ^ 102 = (β + 11.7) / 2 ^ 102 + 0.3 / 2 ^ 102 := by rw [← add_div]; ring_nf
  rw [hδ']
  generalize (β + 11.7) / 2 ^ 102 = δ at *
  have d1 := mul_le_mul_of_nonneg_right hδ (show 0 ≤ 2 * C by linarith)
  have hv := h.2
  have h1 : 1 ≤ |rv d| * 2 ^ 10 := by
    have h3 := abs_sub_abs_le_abs_sub (2 * S) (rv d)
    rw [abs_sub_comm, abs_mul, abs_two] at h3
    norm_num at d1 ⊢; linarith
  obtain ⟨n1, n2⟩ := rw_half h.1 (h1.trans (mul_le_mul_of_nonneg_left (pow_le_pow_right₀ (by norm_num) (by norm_num)) (abs_nonneg _)))
  refine ⟨n1, ?_⟩
  have ht := tau_le
  rw [show rv (Double.mulPwr2 d Double.half) - S = (rv (Double.mulPwr2 d Double.half) - rv d / 2) + (rv d - 2 * S) / 2 by ring]
  refine (abs_add_le _ _).trans ?_
  rw [abs_div, abs_two, add_mul]
  rw [show δ * (2 * C) = 2 * (δ * C) by ring] at hv d1
  generalize |rv (Double.mulPwr2 d Double.half) - rv d / 2| = S' at *
  generalize |rv d - 2 * S| = T at *
  generalize δ * C = W at *
  norm_num at ht ⊢
  linarith

/-- Away from zero the hyperbolic sine is not much smaller than the cosine. -/
theorem sinh_ge_cosh {x : ℝ} (h : 49 / 1000 ≤ |x|) : Real.cosh x / 22 ≤ |Real.sinh x| := by
  wlog hx : 0 ≤ x generalizing x
  · have := this (x := -x) (by rwa [abs_neg]) (by linarith)
    rwa [Real.cosh_neg, Real.sinh_neg, abs_neg] at this
  rw [abs_of_nonneg hx] at h
  rw [abs_of_nonneg (Real.sinh_nonneg_iff.mpr hx), Real.cosh_eq, Real.sinh_eq, Real.exp_neg]
  have h1 := Real.add_one_le_exp x
  have h2 : (Real.exp x)⁻¹ ≤ 1000 / 1049 := by
    rw [inv_le_comm₀ (Real.exp_pos _) (by norm_num)]
    norm_num; linarith
  linarith

/-! ## The series -/

theorem sinh_split (A : ℝ) (n : ℕ) : (∑ k ∈ Finset.range (2 * n), A ^ k / (k.factorial : ℝ)) -
    (∑ k ∈ Finset.range (2 * n), (-A) ^ k / (k.factorial : ℝ)) =
    2 * ∑ j ∈ Finset.range n, A * (A ^ 2) ^ j / (2 * j + 1).factorial := by
  induction n with
  | zero => simp
  | succ n ih =>
    rw [show 2 * (n + 1) = 2 * n + 1 + 1 by ring, Finset.sum_range_succ, Finset.sum_range_succ, Finset.sum_range_succ,
      Finset.sum_range_succ, Finset.sum_range_succ, mul_add, ← ih]
    have e : (-A) ^ (2 * n) = A ^ (2 * n) := by rw [pow_mul, neg_sq, ← pow_mul]
    rw [pow_succ (-A) (2 * n), pow_succ A (2 * n), e, ← pow_mul]
    ring

theorem sinh_rem {A : ℝ} (hA : |A| ≤ 1) (m : ℕ) :
    |Real.sinh A - SS A (A ^ 2) 1 m| ≤ |A * (A ^ 2) ^ m / (2 * m + 1).factorial| * A ^ 2 * 2 := by
  have h1 := Real.exp_bound (x := A) hA (n := 2 * (m + 1) + 1) (by omega)
  have h2 := Real.exp_bound (x := -A) (by rwa [abs_neg]) (n := 2 * (m + 1) + 1) (by omega)
  rw [Finset.sum_range_succ] at h1 h2
  have hs := sinh_split A (m + 1)
  have e : (-A) ^ (2 * (m + 1)) = A ^ (2 * (m + 1)) := by rw [pow_mul, neg_sq, ← pow_mul]
  rw [e, abs_neg] at h2
  have e2 : Real.sinh A - SS A (A ^ 2) 1 m = ((Real.exp A - (∑ k ∈ Finset.range (2 * (m + 1)), A ^ k / (k.factorial : ℝ) +
        A ^ (2 * (m + 1)) / ((2 * (m + 1)).factorial : ℝ))) -
      (Real.exp (-A) - (∑ k ∈ Finset.range (2 * (m + 1)), (-A) ^ k / (k.factorial : ℝ) +
        A ^ (2 * (m + 1)) / ((2 * (m + 1)).factorial : ℝ)))) / 2 := by
    rw [Real.sinh_eq]; unfold SS; linarith
  rw [e2, abs_div, abs_two, div_le_iff₀ (by norm_num)]
  refine (abs_sub _ _).trans ((add_le_add h1 h2).trans ?_)
  rw [← two_mul, mul_comm]
  apply mul_le_mul_of_nonneg_right _ (by norm_num)
  rw [abs_div, abs_mul, abs_pow, abs_of_nonneg (sq_nonneg A), ← sq_abs A, ← pow_mul, Nat.abs_cast]
  have f1 : ((2 * (m + 1) + 1).factorial : ℝ) = (2 * m + 3) * ((2 * m + 2) * (2 * m + 1).factorial) := by
    rw [show 2 * (m + 1) + 1 = 2 * m + 1 + 1 + 1 by ring, Nat.factorial_succ, Nat.factorial_succ]; push_cast; ring
  have f0 : (0:ℝ) < (2 * m + 1).factorial := by exact_mod_cast Nat.factorial_pos _
  rw [f1, show 2 * (m + 1) + 1 = 1 + 2 * m + 2 by ring, pow_add, pow_add, pow_one]
  generalize ((2 * m + 1).factorial : ℝ) = F at *
  have hp : 0 ≤ |A| * |A| ^ (2 * m) * |A| ^ 2 := by positivity
  generalize |A| * |A| ^ (2 * m) = X at *
  generalize |A| ^ 2 = Y at *
  have hm : (0:ℝ) ≤ m := Nat.cast_nonneg m
  rw [show X / F * Y * 2 = X * Y * (2 / F) by ring]
  apply mul_le_mul_of_nonneg_left _ hp
  rw [div_le_div_iff₀ (by push_cast; positivity) f0]
  push_cast
  have : (1 + 2 * (m:ℝ) + 2 + 1) ≤ 2 * ((2 * m + 3) * (2 * m + 2) * (1 + 2 * m + 2)) := by nlinarith [mul_nonneg hm hm, mul_nonneg (mul_nonneg hm hm) hm]
  have := mul_le_mul_of_nonneg_right this f0.le
  linarith

end Verif
