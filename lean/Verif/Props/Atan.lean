import Verif.Proofs.Atan2Step
import Verif.Props.InvHyper2
import Mathlib.Analysis.SpecialFunctions.Trigonometric.Inverse

/-!
# C71: the accuracy of `atan2`, `atan`, `asin` and `acos`
-/

namespace Verif

open F64

/-- Zero, or a magnitude between `2^-400` and `2^400`. -/
def Mid (x : ℝ) : Prop := x = 0 ∨ Rng x

theorem angle_eq {y x r θ : ℝ} (hr : 0 < r) (h1 : -Real.pi < θ) (h2 : θ ≤ Real.pi) (hy : y = r * Real.sin θ) (hx : x = r * Real.cos θ) :
    angle y x = θ := by
  have h := Complex.arg_mul_cos_add_sin_mul_I hr (θ := θ) ⟨h1, h2⟩
  unfold angle
  rw [← h]
  congr 1
  apply Complex.ext
  · simp [hx, Complex.cos_ofReal_re, Complex.sin_ofReal_re, Complex.cos_ofReal_im, Complex.sin_ofReal_im]
  · simp [hy, Complex.cos_ofReal_re, Complex.sin_ofReal_re, Complex.cos_ofReal_im, Complex.sin_ofReal_im]

theorem ap_PI1 : Ap Double.PI Real.pi (Real.pi / 2 ^ 104) :=
  near_ap Real.pi_pos (C48_double_normalized _ (by simp)) C48_double_values.1

theorem ap_PI_4 : Ap Double.FRAC_PI_4 (Real.pi / 4) (Real.pi / 4 / 2 ^ 104) :=
  near_ap (by positivity) (C48_double_normalized _ (by simp)) C48_double_values.2.2.2.2.1

theorem ap_3PI_4 : Ap Double.FRAC_3_PI_4 (3 * Real.pi / 4) (3 * Real.pi / 4 / 2 ^ 104) :=
  near_ap (by positivity) (C48_double_normalized _ (by simp)) C48_double_values.2.2.2.2.2.2.2.2.2.1

theorem sign_pos {a : Double} (ha : a.Normalized) (h : rv a ≠ 0) : a.isSignPositive = true ↔ 0 < rv a := by
  obtain ⟨-, -, -, h1, -⟩ := class_of ha h
  have e : a.isSignPositive = !a.isSignNegative := by
    unfold Double.isSignPositive Double.isSignNegative F64.isSignPositive; rfl
  rw [e]
  rcases lt_or_gt_of_ne h with h2 | h2
  · simp [h1.mpr h2, h2.le]
  · have : a.isSignNegative = false := by
      by_contra hc
      have := h1.mp (by simpa using hc); linarith
    simp [this, h2]

theorem angle_diag {t : ℝ} :
    (0 < t → angle t t = Real.pi / 4 ∧ angle t (-t) = 3 * Real.pi / 4) ∧
    (t < 0 → angle t t = -(3 * Real.pi / 4) ∧ angle t (-t) = -(Real.pi / 4)) := by
  have p0 := Real.pi_pos
  have s2 : 0 < Real.sqrt 2 := Real.sqrt_pos.mpr (by norm_num)
  have ss : Real.sqrt 2 * Real.sqrt 2 = 2 := Real.mul_self_sqrt (by norm_num)
  have e3 : 3 * Real.pi / 4 = Real.pi - Real.pi / 4 := by ring
  have k : ∀ t : ℝ, t * Real.sqrt 2 * (Real.sqrt 2 / 2) = t := by
    intro t; rw [mul_assoc, ← mul_div_assoc, ss]; ring
  refine ⟨fun ht => ⟨?_, ?_⟩, fun ht => ⟨?_, ?_⟩⟩
  · refine angle_eq (r := t * Real.sqrt 2) (by positivity) (by linarith) (by linarith) ?_ ?_
    · rw [Real.sin_pi_div_four, k]
    · rw [Real.cos_pi_div_four, k]
  · refine angle_eq (r := t * Real.sqrt 2) (by positivity) (by linarith) (by linarith) ?_ ?_
    · rw [e3, Real.sin_pi_sub, Real.sin_pi_div_four, k]
    · rw [e3, Real.cos_pi_sub, Real.cos_pi_div_four, mul_neg, k]
  · refine angle_eq (r := -t * Real.sqrt 2) (mul_pos (by linarith) s2) (by linarith) (by linarith) ?_ ?_
    · rw [Real.sin_neg, e3, Real.sin_pi_sub, Real.sin_pi_div_four, mul_neg, k, neg_neg]
    · rw [Real.cos_neg, e3, Real.cos_pi_sub, Real.cos_pi_div_four, mul_neg, k, neg_neg]
  · refine angle_eq (r := -t * Real.sqrt 2) (mul_pos (by linarith) s2) (by linarith) (by linarith) ?_ ?_
    · rw [Real.sin_neg, Real.sin_pi_div_four, mul_neg, k, neg_neg]
    · rw [Real.cos_neg, Real.cos_pi_div_four, k]

/-- A constant as the result. -/
theorem const_ok {r : Double} {θ e : ℝ} (h : Ap r θ e) (he : e ≤ |θ| / 2 ^ 104) :
    Ap r θ ((52 + 2 * |θ| + 6 * θ ^ 2) / 2 ^ 102) ∧ Ap r θ (|θ| / 2 ^ 97) := by
  have h0 := abs_nonneg θ
  have h1 := sq_nonneg θ
  constructor <;> refine h.mono (he.trans ?_) <;> norm_num <;> linarith

/-- **All cases of `atan2`.** -/
theorem atan2_all (P : Platform) (hT : FloatText P.toStr) (hA2 : LibmAtan2 P) {a b : Double} (ha : a.Normalized)
    (hb : b.Normalized) (hA : Mid (rv a)) (hB : Mid (rv b)) (h0 : rv a ≠ 0 ∨ rv b ≠ 0) :
    ∃ r, Double.atan2 P a b = some r ∧
      Ap r (angle (rv a) (rv b)) ((52 + 2 * |angle (rv a) (rv b)| + 6 * angle (rv a) (rv b) ^ 2) / 2 ^ 102) ∧
      (|angle (rv a) (rv b)| ≤ 0.089 →
        Ap r (angle (rv a) (rv b)) (|angle (rv a) (rv b)| / 2 ^ 97)) := by
  have p0 := Real.pi_pos
  -- reduce to the result of the special cases
  have fin : ∀ {r : Double} {θ e : ℝ}, Double.preAtan2 a b = some r → angle (rv a) (rv b) = θ → Ap r θ e → e ≤ |θ| / 2 ^ 104 →
      ∃ r, Double.atan2 P a b = some r ∧
      Ap r (angle (rv a) (rv b)) ((52 + 2 * |angle (rv a) (rv b)| + 6 * angle (rv a) (rv b) ^ 2) / 2 ^ 102) ∧
      (|angle (rv a) (rv b)| ≤ 0.089 →
        Ap r (angle (rv a) (rv b)) (|angle (rv a) (rv b)| / 2 ^ 97)) := by
    intro r θ e h1 h2 h3 h4
    rw [h2]
    obtain ⟨k1, k2⟩ := const_ok h3 h4
    refine ⟨r, ?_, k1, fun _ => k2⟩
    unfold Double.atan2; rw [h1]
  by_cases zb : rv b = 0
  · have za : rv a ≠ 0 := h0.resolve_right (fun h => h zb)
    have cb := (rv_zero_class hb zb).1
    have ca := class_of ha za
    have sp := sign_pos ha za
    rcases lt_or_gt_of_ne za with h | h
    · have hs : a.isSignPositive = false := by
        by_contra hc; have := sp.mp (by simpa using hc); linarith
      refine fin (r := -Double.FRAC_PI_2) (θ := -(Real.pi / 2)) ?_ ?_ ap_PI_2.neg ?_
      · unfold Double.preAtan2; rw [if_pos cb, if_neg (by rw [ca.2.1]; simp), if_neg (by rw [hs]; simp)]
      · refine angle_eq (r := -rv a) (by linarith) (by linarith) (by linarith) ?_ ?_ <;> simp [zb]
      · rw [abs_neg, abs_of_pos (by positivity)]
    · refine fin (r := Double.FRAC_PI_2) (θ := Real.pi / 2) ?_ ?_ ap_PI_2 ?_
      · unfold Double.preAtan2; rw [if_pos cb, if_neg (by rw [ca.2.1]; simp), if_pos (sp.mpr h)]
      · refine angle_eq (r := rv a) h (by linarith) (by linarith) ?_ ?_ <;> simp [zb]
      · rw [abs_of_pos (by positivity)]
  have cb := class_of hb zb
  have spb := sign_pos hb zb
  by_cases za : rv a = 0
  · have ca := (rv_zero_class ha za).1
    rcases lt_or_gt_of_ne zb with h | h
    · have hs : b.isSignPositive = false := by
        by_contra hc; have := spb.mp (by simpa using hc); linarith
      refine fin (r := Double.PI) (θ := Real.pi) ?_ ?_ ap_PI1 ?_
      · unfold Double.preAtan2; rw [if_neg (by rw [cb.2.1]; simp), if_pos ca, if_neg (by rw [hs]; simp)]
      · refine angle_eq (r := -rv b) (by linarith) (by linarith) (by linarith) ?_ ?_ <;> simp [za]
      · rw [abs_of_pos (by positivity)]
    · refine fin (r := Double.ZERO) (θ := 0) (e := 0) ?_ ?_ ⟨by decide +kernel, ?_⟩ ?_
      · unfold Double.preAtan2; rw [if_neg (by rw [cb.2.1]; simp), if_pos ca, if_pos (spb.mpr h)]
      · refine angle_eq (r := rv b) h (by linarith) (by linarith) ?_ ?_ <;> simp [za]
      · have : Double.ZERO.val = 0 := by decide +kernel
        unfold rv; rw [this]; simp
      · simp
  have ca := class_of ha za
  have spa := sign_pos ha za
  have rA := hA.resolve_left za
  have rB := hB.resolve_left zb
  have pre1 : Double.preAtan2 a b = if Double.eq a b then
      (if a.isSignPositive then some Double.FRAC_PI_4 else some (-Double.FRAC_3_PI_4))
      else if Double.eq a (-b) then (if a.isSignPositive then some Double.FRAC_3_PI_4 else some (-Double.FRAC_PI_4)) else none := by
    unfold Double.preAtan2
    rw [if_neg (by rw [cb.2.1]; simp), if_neg (by rw [ca.2.1]; simp), if_neg (by rw [ca.2.2.1]; simp),
      if_neg (by rw [cb.2.2.1]; simp), if_neg (by rw [ca.1, cb.1]; simp)]
  have e1 : Double.eq a b = true ↔ rv a = rv b := by
    rw [(C12_compare a b ha hb).2.2.2.2]; unfold rv; exact_mod_cast Iff.rfl
  have hnb : (-b).Normalized := (Ap.neg (Ap.exact hb)).1
  have e2 : Double.eq a (-b) = true ↔ rv a = -rv b := by
    rw [(C12_compare a (-b) ha hnb).2.2.2.2, ← rv_neg hb]; unfold rv; exact_mod_cast Iff.rfl
  by_cases q1 : rv a = rv b
  · have hd := angle_diag (t := rv a)
    rcases lt_or_gt_of_ne za with h | h
    · have hs : a.isSignPositive = false := by
        by_contra hc; have := spa.mp (by simpa using hc); linarith
      refine fin (r := -Double.FRAC_3_PI_4) (θ := -(3 * Real.pi / 4)) ?_ ?_ ap_3PI_4.neg ?_
      · rw [pre1, if_pos (e1.mpr q1), if_neg (by rw [hs]; simp)]
      · rw [← q1]; exact (hd.2 h).1
      · rw [abs_neg, abs_of_pos (by positivity)]
    · refine fin (r := Double.FRAC_PI_4) (θ := Real.pi / 4) ?_ ?_ ap_PI_4 ?_
      · rw [pre1, if_pos (e1.mpr q1), if_pos (spa.mpr h)]
      · rw [← q1]; exact (hd.1 h).1
      · rw [abs_of_pos (by positivity)]
  by_cases q2 : rv a = -rv b
  · have hd := angle_diag (t := rv a)
    have hb' : rv b = -rv a := by rw [q2]; ring
    rcases lt_or_gt_of_ne za with h | h
    · have hs : a.isSignPositive = false := by
        by_contra hc; have := spa.mp (by simpa using hc); linarith
      refine fin (r := -Double.FRAC_PI_4) (θ := -(Real.pi / 4)) ?_ ?_ ap_PI_4.neg ?_
      · rw [pre1, if_neg (by rw [e1]; exact q1), if_pos (e2.mpr q2), if_neg (by rw [hs]; simp)]
      · rw [hb']; exact (hd.2 h).2
      · rw [abs_neg, abs_of_pos (by positivity)]
    · refine fin (r := Double.FRAC_3_PI_4) (θ := 3 * Real.pi / 4) ?_ ?_ ap_3PI_4 ?_
      · rw [pre1, if_neg (by rw [e1]; exact q1), if_pos (e2.mpr q2), if_pos (spa.mpr h)]
      · rw [hb']; exact (hd.1 h).2
      · rw [abs_of_pos (by positivity)]
  obtain ⟨r, r1, r2, r3⟩ := atan2_core P hT hA2 ha hb rA rB (by
    rw [pre1, if_neg (by rw [e1]; exact q1), if_neg (by rw [e2]; exact q2)])
  exact ⟨r, r1, r2, fun g => r3 g ((angle_ge rA rB).trans
    (mul_le_mul_of_nonneg_left (pow_le_pow_right₀ (by norm_num) (by norm_num)) (abs_nonneg _)))⟩

theorem mid_of {d : Double} (h : d.val = 0 ∨ (1 ≤ |d.val| * 2 ^ 400 ∧ |d.val| ≤ 2 ^ 400)) : Mid (rv d) := by
  rcases h with h | ⟨h1, h2⟩
  · left; unfold rv; rw [h]; simp
  · right
    constructor
    · unfold rv; exact_mod_cast h1
    · unfold rv; exact_mod_cast h2

/-- **C71.** `atan2(y, x)` for normalized coordinates, each zero or between `2^-400` and `2^400` in magnitude and not both zero,
is a normalized Double within `(52 + 2|θ| + 6θ²) 2^-102` of the angle `θ` of the point, which is the argument of the complex
number `x + iy` in `(-π, π]`. -/
theorem C71_atan2 (P : Platform) (hT : FloatText P.toStr) (hA2 : LibmAtan2 P) (y x : Double) (hy : y.Normalized) (hx : x.Normalized)
    (h1 : y.val = 0 ∨ (1 ≤ |y.val| * 2 ^ 400 ∧ |y.val| ≤ 2 ^ 400)) (h2 : x.val = 0 ∨ (1 ≤ |x.val| * 2 ^ 400 ∧ |x.val| ≤ 2 ^ 400))
    (h3 : y.val ≠ 0 ∨ x.val ≠ 0) :
    ∃ r, Double.atan2 P y x = some r ∧ r.Normalized ∧
      |(r.val : ℝ) - Complex.arg ⟨(x.val : ℝ), (y.val : ℝ)⟩| ≤
        (52 + 2 * |Complex.arg ⟨(x.val : ℝ), (y.val : ℝ)⟩| + 6 * Complex.arg ⟨(x.val : ℝ), (y.val : ℝ)⟩ ^ 2) / 2 ^ 102 := by
  obtain ⟨r, r1, r2, -⟩ := atan2_all P hT hA2 hy hx (mid_of h1) (mid_of h2) (by
    rcases h3 with h | h
    · left; unfold rv; exact_mod_cast h
    · right; unfold rv; exact_mod_cast h)
  exact ⟨r, r1, r2.1, r2.2⟩

/-- **C71.** Every small angle, however small, has a small relative error. -/
theorem C71_atan2_small (P : Platform) (hT : FloatText P.toStr) (hA2 : LibmAtan2 P) (y x : Double) (hy : y.Normalized)
    (hx : x.Normalized)
    (h1 : y.val = 0 ∨ (1 ≤ |y.val| * 2 ^ 400 ∧ |y.val| ≤ 2 ^ 400)) (h2 : x.val = 0 ∨ (1 ≤ |x.val| * 2 ^ 400 ∧ |x.val| ≤ 2 ^ 400))
    (h3 : y.val ≠ 0 ∨ x.val ≠ 0) (h4 : |Complex.arg ⟨(x.val : ℝ), (y.val : ℝ)⟩| ≤ 0.089) :
    ∃ r, Double.atan2 P y x = some r ∧
      |(r.val : ℝ) - Complex.arg ⟨(x.val : ℝ), (y.val : ℝ)⟩| ≤ |Complex.arg ⟨(x.val : ℝ), (y.val : ℝ)⟩| / 2 ^ 97 := by
  obtain ⟨r, r1, -, r2⟩ := atan2_all P hT hA2 hy hx (mid_of h1) (mid_of h2) (by
    rcases h3 with h | h
    · left; unfold rv; exact_mod_cast h
    · right; unfold rv; exact_mod_cast h)
  exact ⟨r, r1, (r2 h4).2⟩

theorem angle_one (t : ℝ) : angle t 1 = Real.arctan t := by
  unfold angle
  rw [Complex.arg_of_re_nonneg (by simp), Real.arctan_eq_arcsin, Complex.norm_eq_sqrt_sq_add_sq]
  simp

/-- **C71.** `atan` is within `(52 + 2|θ| + 6θ²) 2^-102` of the real arc tangent `θ`, and has a small relative error near zero. -/
theorem C71_atan (P : Platform) (hT : FloatText P.toStr) (hA2 : LibmAtan2 P) (a : Double) (ha : a.Normalized)
    (h1 : a.val = 0 ∨ (1 ≤ |a.val| * 2 ^ 400 ∧ |a.val| ≤ 2 ^ 400)) :
    ∃ r, Double.atan P a = some r ∧ r.Normalized ∧
      |(r.val : ℝ) - Real.arctan (a.val : ℝ)| ≤ (52 + 2 * |Real.arctan (a.val : ℝ)| + 6 * Real.arctan (a.val : ℝ) ^ 2) / 2 ^ 102 ∧
      (|Real.arctan (a.val : ℝ)| ≤ 0.089 →
        |(r.val : ℝ) - Real.arctan (a.val : ℝ)| ≤ |Real.arctan (a.val : ℝ)| / 2 ^ 97) := by
  have h := atan2_all P hT hA2 ha ap_one.1 (mid_of h1) (by
    right; rw [one_rv]; constructor
    · rw [abs_one, one_mul]; exact one_le_pow₀ (by norm_num)
    · rw [abs_one]; exact one_le_pow₀ (by norm_num)) (Or.inr (by rw [one_rv]; norm_num))
  rw [one_rv, angle_one] at h
  obtain ⟨r, r1, r2, r3⟩ := h
  exact ⟨r, r1, r2.1, r2.2, fun k1 => (r3 k1).2⟩

end Verif
