import Mathlib.Analysis.Complex.Trigonometric
import Mathlib.Analysis.Complex.Exponential
import Mathlib.Analysis.SpecialFunctions.Trigonometric.Basic
import Mathlib.Analysis.Complex.Norm
import Mathlib.Tactic

/-!
# Partial sums of the sine and cosine series
-/

namespace Verif

/-- `Σ_{j ≤ m} b y^j / (2j + o)!` -/
noncomputable def SS (b y : ℝ) (o m : ℕ) : ℝ := ∑ j ∈ Finset.range (m + 1), b * y ^ j / (2 * j + o).factorial

theorem SS_succ (b y : ℝ) (o m : ℕ) : SS b y o (m + 1) = SS b y o m + b * y ^ (m + 1) / (2 * (m + 1) + o).factorial := by
  unfold SS; rw [Finset.sum_range_succ]

theorem exp_split (A : ℝ) (n : ℕ) : ∑ k ∈ Finset.range (2 * n), ((A : ℂ) * Complex.I) ^ k / (k.factorial : ℂ) =
    ((∑ j ∈ Finset.range n, (1:ℝ) * (-A ^ 2) ^ j / (2 * j + 0).factorial : ℝ) : ℂ) +
    ((∑ j ∈ Finset.range n, A * (-A ^ 2) ^ j / (2 * j + 1).factorial : ℝ) : ℂ) * Complex.I := by
  induction n with
  | zero => simp
  | succ n ih =>
    rw [show 2 * (n + 1) = 2 * n + 1 + 1 by ring, Finset.sum_range_succ, Finset.sum_range_succ, ih,
      Finset.sum_range_succ, Finset.sum_range_succ]
    have e : ((A : ℂ) * Complex.I) ^ (2 * n) = ((-A ^ 2) ^ n : ℝ) := by
      rw [pow_mul, mul_pow, Complex.I_sq]; push_cast; ring
    rw [pow_succ ((A : ℂ) * Complex.I) (2 * n), e]
    push_cast
    ring_nf

theorem norm_AI {A : ℝ} : ‖(A : ℂ) * Complex.I‖ = |A| := by simp

theorem cos_rem {A : ℝ} (hA : |A| ≤ 1) (m : ℕ) :
    |Real.cos A - SS 1 (-A ^ 2) 0 m| ≤ |1 * (-A ^ 2) ^ m / (2 * m + 0).factorial| * A ^ 2 * 2 := by
  have h := Complex.exp_bound (x := (A : ℂ) * Complex.I) (n := 2 * (m + 1)) (by rw [norm_AI]; exact hA) (by omega)
  rw [exp_split, norm_AI, Complex.exp_mul_I] at h
  have h2 := (Complex.abs_re_le_norm _).trans h
  have e : (Complex.cos ↑A + Complex.sin ↑A * Complex.I -
      (((∑ j ∈ Finset.range (m + 1), (1:ℝ) * (-A ^ 2) ^ j / (2 * j + 0).factorial : ℝ) : ℂ) +
        ((∑ j ∈ Finset.range (m + 1), A * (-A ^ 2) ^ j / (2 * j + 1).factorial : ℝ) : ℂ) * Complex.I)).re =
      Real.cos A - SS 1 (-A ^ 2) 0 m := by
    rw [← Complex.ofReal_cos, ← Complex.ofReal_sin]
    unfold SS
    simp only [Complex.sub_re, Complex.add_re, Complex.ofReal_re, Complex.re_ofReal_mul, Complex.I_re, mul_zero, add_zero]
  rw [e] at h2
  refine h2.trans ?_
  rw [abs_div, one_mul, abs_pow, abs_neg, abs_of_nonneg (sq_nonneg A), ← sq_abs A, ← pow_mul, Nat.abs_cast, add_zero]
  have f1 : ((2 * (m + 1)).factorial : ℝ) = (2 * m + 2) * ((2 * m + 1) * (2 * m).factorial) := by
    rw [show 2 * (m + 1) = 2 * m + 1 + 1 by ring, Nat.factorial_succ, Nat.factorial_succ]; push_cast; ring
  have f0 : (0:ℝ) < (2 * m).factorial := by exact_mod_cast Nat.factorial_pos _
  rw [show 2 * (m + 1) = 2 * m + 2 by ring] at f1 ⊢
  rw [f1, pow_add]
  generalize ((2 * m).factorial : ℝ) = F at *
  have hp : 0 ≤ |A| ^ (2 * m) * |A| ^ 2 := by positivity
  generalize |A| ^ (2 * m) = X at *
  generalize |A| ^ 2 = Y at *
  have hm : (0:ℝ) ≤ m := Nat.cast_nonneg m
  rw [show X / F * Y * 2 = X * Y * (2 / F) by ring]
  apply mul_le_mul_of_nonneg_left _ hp
  rw [← div_eq_mul_inv, div_le_div_iff₀ (by push_cast; positivity) f0]
  push_cast
  have : (2 * (m:ℝ) + 2 + 1) ≤ 2 * ((2 * m + 2) * (2 * m + 1) * (2 * m + 2)) := by nlinarith [mul_nonneg hm hm, mul_nonneg (mul_nonneg hm hm) hm]
  have := mul_le_mul_of_nonneg_right this f0.le
  linarith

theorem sin_rem {A : ℝ} (hA : |A| ≤ 1) (m : ℕ) :
    |Real.sin A - SS A (-A ^ 2) 1 m| ≤ |A * (-A ^ 2) ^ m / (2 * m + 1).factorial| * A ^ 2 * 2 := by
  have h := Complex.exp_bound (x := (A : ℂ) * Complex.I) (n := 2 * (m + 1) + 1) (by rw [norm_AI]; exact hA) (by omega)
  rw [Finset.sum_range_succ, exp_split, norm_AI, Complex.exp_mul_I] at h
  have h2 := (Complex.abs_im_le_norm _).trans h
  have e0 : ((A : ℂ) * Complex.I) ^ (2 * (m + 1)) / ((2 * (m + 1)).factorial : ℂ) =
      (((-A ^ 2) ^ (m + 1) / (2 * (m + 1)).factorial : ℝ) : ℂ) := by
    rw [pow_mul, mul_pow, Complex.I_sq]; push_cast; ring
  rw [e0] at h2
  have e : (Complex.cos ↑A + Complex.sin ↑A * Complex.I -
      (((∑ j ∈ Finset.range (m + 1), (1:ℝ) * (-A ^ 2) ^ j / (2 * j + 0).factorial : ℝ) : ℂ) +
        ((∑ j ∈ Finset.range (m + 1), A * (-A ^ 2) ^ j / (2 * j + 1).factorial : ℝ) : ℂ) * Complex.I +
        (((-A ^ 2) ^ (m + 1) / (2 * (m + 1)).factorial : ℝ) : ℂ))).im =
      Real.sin A - SS A (-A ^ 2) 1 m := by
    rw [← Complex.ofReal_cos, ← Complex.ofReal_sin]
    unfold SS
    simp only [Complex.sub_im, Complex.add_im, Complex.ofReal_im, Complex.im_ofReal_mul, Complex.I_im, mul_one, zero_add,
      add_zero]
  rw [e] at h2
  refine h2.trans ?_
  rw [abs_div, abs_mul, abs_pow, abs_neg, abs_of_nonneg (sq_nonneg A), ← sq_abs A, ← pow_mul, Nat.abs_cast]
  have f1 : ((2 * (m + 1) + 1).factorial : ℝ) = (2 * m + 3) * ((2 * m + 2) * (2 * m + 1).factorial) := by
    rw [show 2 * (m + 1) + 1 = 2 * m + 1 + 1 + 1 by ring, Nat.factorial_succ, Nat.factorial_succ]; push_cast; ring
  have f0 : (0:ℝ) < (2 * m + 1).factorial := by exact_mod_cast Nat.factorial_pos _
  rw [f1, show 2 * (m + 1) + 1 = 1 + 2 * m + 2 by ring, pow_add, pow_add, pow_one]
  generalize ((2 * m + 1).factorial : ℝ) = F at *
  have hp : 0 ≤ |A| * |A| ^ (2 * m) * |A| ^ 2 := by positivity
  generalize |A| * |A| ^ (2 * m) = X at *
  generalize |A| ^ 2 = Y at *
  have hm : (0:ℝ) ≤ m := Nat.cast_nonneg m
  rw [show X / F * Y * 2 = X * Y * (2 / F) by ring]
  apply mul_le_mul_of_nonneg_left _ hp
  rw [← div_eq_mul_inv, div_le_div_iff₀ (by push_cast; positivity) f0]
  push_cast
  have : (1 + 2 * (m:ℝ) + 2 + 1) ≤ 2 * ((2 * m + 3) * (2 * m + 2) * (1 + 2 * m + 2)) := by nlinarith [mul_nonneg hm hm, mul_nonneg (mul_nonneg hm hm) hm]
  have := mul_le_mul_of_nonneg_right this f0.le
  linarith

end Verif
