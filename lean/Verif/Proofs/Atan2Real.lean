import Mathlib.Analysis.SpecialFunctions.Complex.Arg
import Mathlib.Analysis.SpecialFunctions.Trigonometric.Bounds
import Mathlib.Analysis.SpecialFunctions.Trigonometric.Arctan
import Mathlib.Analysis.Real.Pi.Bounds
import Mathlib.Tactic.Linarith
import Mathlib.Tactic.Positivity

/-!
# The angle of a point: real analysis for `atan2`
-/

namespace Verif

/-- The angle of the point `(x, y)`, what `atan2(y, x)` computes: the argument of the complex number `x + iy`, in `(-π, π]`. -/
noncomputable def angle (y x : ℝ) : ℝ := Complex.arg ⟨x, y⟩

/-- The length of the vector `(x, y)`. -/
noncomputable def hyp (y x : ℝ) : ℝ := Real.sqrt (y ^ 2 + x ^ 2)

theorem hyp_norm (y x : ℝ) : ‖(⟨x, y⟩ : ℂ)‖ = hyp y x := by
  rw [Complex.norm_eq_sqrt_sq_add_sq]; unfold hyp; simp only []; rw [add_comm]

theorem hyp_pos {y x : ℝ} (h : x ≠ 0 ∨ y ≠ 0) : 0 < hyp y x := by
  unfold hyp
  apply Real.sqrt_pos.mpr
  rcases h with h | h
  · have := sq_nonneg y; have := sq_pos_of_ne_zero h; linarith
  · have := sq_nonneg x; have := sq_pos_of_ne_zero h; linarith

theorem angle_sin (y x : ℝ) : Real.sin (angle y x) = y / hyp y x := by
  unfold angle; rw [Complex.sin_arg, hyp_norm]

theorem angle_cos {y x : ℝ} (h : x ≠ 0 ∨ y ≠ 0) : Real.cos (angle y x) = x / hyp y x := by
  unfold angle; rw [Complex.cos_arg, hyp_norm]
  intro hc
  have h1 := congrArg Complex.re hc
  have h2 := congrArg Complex.im hc
  simp at h1 h2
  rcases h with h | h <;> contradiction

theorem angle_pi (y x : ℝ) : |angle y x| ≤ Real.pi := Complex.abs_arg_le_pi _

/-- Points of the same quadrant have angles at most a right angle apart. -/
theorem angle_quadrant {y x v u : ℝ} (h1 : 0 < x * u) (h2 : 0 ≤ y * v) (h3 : y = 0 ↔ v = 0) :
    |angle y x - angle v u| ≤ Real.pi / 2 := by
  have p0 := Real.pi_pos
  have a1 := angle_pi y x
  have a2 := angle_pi v u
  have s1 : ∀ {b a : ℝ}, 0 ≤ angle b a ↔ 0 ≤ b := fun {b a} => by unfold angle; rw [Complex.arg_nonneg_iff]
  have s2 : ∀ {b a : ℝ}, |angle b a| ≤ Real.pi / 2 ↔ 0 ≤ a := fun {b a} => by unfold angle; rw [Complex.abs_arg_le_pi_div_two_iff]
  have hyv : 0 ≤ y ↔ 0 ≤ v := by
    constructor
    · intro hy
      by_contra hc
      have hv := not_le.mp hc
      have : y = 0 := by
        by_contra hn
        have := mul_neg_of_pos_of_neg (lt_of_le_of_ne hy (Ne.symm hn)) hv
        linarith
      exact hv.ne (h3.mp this)
    · intro hv
      by_contra hc
      have hy := not_le.mp hc
      have : v = 0 := by
        by_contra hn
        have := mul_neg_of_neg_of_pos hy (lt_of_le_of_ne hv (Ne.symm hn))
        linarith
      exact hy.ne (h3.mpr this)
  have hxu : 0 ≤ x ↔ 0 ≤ u := by
    constructor
    · intro hx
      by_contra hc
      have := mul_nonpos_of_nonneg_of_nonpos hx (not_le.mp hc).le
      linarith
    · intro hu
      by_contra hc
      have := mul_nonpos_of_nonpos_of_nonneg (not_le.mp hc).le hu
      linarith
  have hs : 0 ≤ angle y x ↔ 0 ≤ angle v u := by rw [s1, s1, hyv]
  have hq : |angle y x| ≤ Real.pi / 2 ↔ |angle v u| ≤ Real.pi / 2 := by rw [s2, s2, hxu]
  generalize angle y x = A at *
  generalize angle v u = B at *
  by_cases hA : 0 ≤ A
  · have hB := hs.mp hA
    rw [abs_of_nonneg hA] at hq a1
    rw [abs_of_nonneg hB] at hq a2
    by_cases hA2 : A ≤ Real.pi / 2
    · have := hq.mp hA2
      rw [abs_le]; constructor <;> linarith
    · have hB2 : ¬ B ≤ Real.pi / 2 := fun h => hA2 (hq.mpr h)
      rw [abs_le]; constructor <;> linarith
  · have hB : ¬ 0 ≤ B := fun h => hA (hs.mpr h)
    rw [abs_of_neg (not_le.mp hA)] at hq a1
    rw [abs_of_neg (not_le.mp hB)] at hq a2
    by_cases hA2 : -A ≤ Real.pi / 2
    · have := hq.mp hA2
      rw [abs_le]; constructor <;> linarith
    · have hB2 : ¬ -B ≤ Real.pi / 2 := fun h => hA2 (hq.mpr h)
      rw [abs_le]; constructor <;> linarith

/-- The distance of two angles of the same quadrant. -/
theorem angle_close {y x v u : ℝ} (h1 : 0 < x * u) (h2 : 0 ≤ y * v) (h3 : y = 0 ↔ v = 0) :
    |angle y x - angle v u| ≤ 1.571 * (|y * u - x * v| / (hyp y x * hyp v u)) := by
  have hx : x ≠ 0 := by rintro rfl; simp at h1
  have hu : u ≠ 0 := by rintro rfl; simp at h1
  have hq := angle_quadrant h1 h2 h3
  have p1 := hyp_pos (y := y) (Or.inl hx)
  have p2 := hyp_pos (y := v) (Or.inl hu)
  have hb := Real.mul_abs_le_abs_sin hq
  rw [Real.sin_sub, angle_sin, angle_sin, angle_cos (Or.inl hx), angle_cos (Or.inl hu)] at hb
  have e : y / hyp y x * (u / hyp v u) - x / hyp y x * (v / hyp v u) = (y * u - x * v) / (hyp y x * hyp v u) := by
    field_simp
  rw [e, abs_div, abs_of_pos (mul_pos p1 p2)] at hb
  have hp := Real.pi_lt_d4
  have p0 := Real.pi_pos
  generalize |y * u - x * v| / (hyp y x * hyp v u) = Z at *
  rw [div_mul_eq_mul_div, div_le_iff₀ p0] at hb
  have hz : 0 ≤ Z := by
    by_contra hc
    have := mul_neg_of_neg_of_pos (not_le.mp hc) p0
    have := abs_nonneg (angle y x - angle v u)
    linarith
  nlinarith

/-- The Newton step on the sine. -/
theorem newton_sin {z θ : ℝ} (hc : 1 / 2 ≤ |Real.cos z|) (hs : |Real.sin z| ≤ 1.001 * |Real.cos z|) (hh : |θ - z| ≤ 1 / 2 ^ 30) :
    |z + (Real.sin θ - Real.sin z) / Real.cos z - θ| ≤ 0.501 * (θ - z) ^ 2 ∧
    |Real.sin θ - Real.sin z| ≤ |θ - z| := by
  refine ⟨?_, Real.abs_sin_sub_sin_le _ _⟩
  have hc0 : Real.cos z ≠ 0 := by intro h; rw [h] at hc; norm_num at hc
  set h := θ - z with hd
  have e0 : θ = z + h := by rw [hd]; ring
  have e : z + (Real.sin θ - Real.sin z) / Real.cos z - θ = Real.sin z / Real.cos z * (Real.cos h - 1) + (Real.sin h - h) := by
    rw [e0, Real.sin_add]; field_simp; ring
  rw [e]
  have c1 : |Real.cos h - 1| ≤ h ^ 2 / 2 := by
    rw [abs_le]; have := Real.one_sub_sq_div_two_le_cos (x := h); have := Real.cos_le_one h
    have := sq_nonneg h
    constructor <;> linarith
  have s1 : |Real.sin h - h| ≤ 1 / 2 ^ 30 * h ^ 2 := by
    have b := Real.sin_bound (x := h) (hh.trans (by norm_num))
    have e : Real.sin h - h = (Real.sin h - (h - h ^ 3 / 6)) + -(h ^ 3 / 6) := by ring
    rw [e]
    refine (abs_add_le _ _).trans ?_
    rw [abs_neg, abs_div, abs_pow]
    have hn := abs_nonneg h
    have e3 : |h| ^ 3 ≤ 1 / 2 ^ 30 * h ^ 2 := by
      rw [← sq_abs h]
      have := mul_le_mul_of_nonneg_right hh (sq_nonneg |h|)
      calc |h| ^ 3 = |h| * |h| ^ 2 := by ring
        _ ≤ _ := this
    have e5 : |h| ^ 5 ≤ |h| ^ 3 := pow_le_pow_of_le_one hn (hh.trans (by norm_num)) (by norm_num)
    rw [abs_of_pos (show (0:ℝ) < 6 by norm_num)]
    have := pow_nonneg hn 3
    linarith
  have t1 : |Real.sin z / Real.cos z| ≤ 1.001 := by
    rw [abs_div, div_le_iff₀ (by linarith)]; exact hs
  refine (abs_add_le _ _).trans ?_
  rw [abs_mul]
  have := mul_le_mul t1 c1 (abs_nonneg _) (by norm_num)
  have := sq_nonneg h
  generalize |Real.sin z / Real.cos z| * |Real.cos h - 1| = X at *
  norm_num at s1 ⊢
  linarith

/-- The Newton step on the cosine. -/
theorem newton_cos {z θ : ℝ} (hc : 1 / 2 ≤ |Real.sin z|) (hs : |Real.cos z| ≤ 1.001 * |Real.sin z|) (hh : |θ - z| ≤ 1 / 2 ^ 30) :
    |z - (Real.cos θ - Real.cos z) / Real.sin z - θ| ≤ 0.501 * (θ - z) ^ 2 ∧
    |Real.cos θ - Real.cos z| ≤ |θ - z| := by
  refine ⟨?_, Real.abs_cos_sub_cos_le _ _⟩
  have h := (newton_sin (z := z - Real.pi / 2) (θ := θ - Real.pi / 2) (by rw [Real.cos_sub_pi_div_two]; exact hc)
    (by rw [Real.cos_sub_pi_div_two, Real.sin_sub_pi_div_two, abs_neg]; exact hs)
    (by rw [sub_sub_sub_cancel_right]; exact hh)).1
  rw [Real.cos_sub_pi_div_two, Real.sin_sub_pi_div_two, Real.sin_sub_pi_div_two, sub_sub_sub_cancel_right] at h
  have e : z - Real.pi / 2 + (-Real.cos θ - -Real.cos z) / Real.sin z - (θ - Real.pi / 2) =
      z - (Real.cos θ - Real.cos z) / Real.sin z - θ := by ring
  rw [e] at h
  exact h

end Verif
