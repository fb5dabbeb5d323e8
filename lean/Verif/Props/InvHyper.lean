import Mathlib.Analysis.SpecialFunctions.Arsinh
import Mathlib.Analysis.SpecialFunctions.Arcosh
import Mathlib.Analysis.SpecialFunctions.Artanh
import Verif.Props.Hyper
import Verif.Proofs.PlatformWitness

/-!
# C70: the accuracy of `asinh`, `acosh` and `atanh`
-/

namespace Verif

open F64

/-- The logarithm of an approximation. -/
theorem ln_of_ap {P : Platform} (hP : LibmLogs P) {d : Double} {w κ : ℝ} (h : Ap d w (κ * w)) (hw : 0 < w) (hκ : κ ≤ 1 / 2 ^ 20)
    (h1 : -700 ≤ Real.log w) (h2 : Real.log w ≤ 590) :
    ∃ r, Double.ln P d = some r ∧ Ap r (Real.log w) ((2 * |Real.log w| + 13.1) / 2 ^ 102 + 1.01 * κ) := by
  have κ0 : 0 ≤ κ := by
    have := h.nonneg
    by_contra hc
    have := mul_neg_of_neg_of_pos (not_le.mp hc) hw
    linarith
  have hv := abs_le.mp h.2
  have hk : κ * w ≤ 1 / 2 ^ 20 * w := mul_le_mul_of_nonneg_right hκ hw.le
  have d0 : w * (1 - 1 / 2 ^ 20) ≤ rv d := by linarith
  have dp : 0 < rv d := lt_of_lt_of_le (mul_pos hw (by norm_num)) d0
  -- |log (rv d) - log w| ≤ 1.001 κ
  have m : |Real.log (rv d) - Real.log w| ≤ 1.001 * κ := by
    rw [abs_le]
    constructor
    · rw [neg_le_sub_iff_le_add, ← sub_le_iff_le_add', ← Real.log_div hw.ne' dp.ne']
      refine (Real.log_le_sub_one_of_pos (div_pos hw dp)).trans ?_
      rw [sub_le_iff_le_add, div_le_iff₀ dp]
      have h3 := mul_le_mul_of_nonneg_left d0 (show 0 ≤ 1.001 * κ by positivity)
      have h4 : 0 ≤ κ * w := by positivity
      have h5 : 1.001 * κ * (w * (1 - 1 / 2 ^ 20)) = κ * w * (1.001 * (1 - 1 / 2 ^ 20)) := by ring
      rw [h5] at h3
      have h6 : κ * w * 1 ≤ κ * w * (1.001 * (1 - 1 / 2 ^ 20)) := mul_le_mul_of_nonneg_left (by norm_num) h4
      linarith [hv.1]
    · rw [← Real.log_div dp.ne' hw.ne']
      refine (Real.log_le_sub_one_of_pos (div_pos dp hw)).trans ?_
      rw [sub_le_iff_le_add, div_le_iff₀ hw]
      have h4 : 0 ≤ κ * w := by positivity
      linarith [hv.2]
  have mm := abs_le.mp m
  have mk : 1.001 * κ ≤ 1 / 2 ^ 19 := by norm_num at hκ ⊢; linarith
  obtain ⟨r, r1, r2⟩ := C64_ln_ap hP h.1 (by unfold rv at dp; exact_mod_cast dp) (by
    change -707 ≤ Real.log (rv d); norm_num at mk; linarith [mm.1]) (by
    change Real.log (rv d) ≤ 599; norm_num at mk; linarith [mm.2])
  change Ap r (Real.log (rv d)) ((2 * |Real.log (rv d)| + 13) / 2 ^ 102) at r2
  refine ⟨r, r1, (r2.move m).mono ?_⟩
  have h7 := abs_sub_abs_le_abs_sub (Real.log (rv d)) (Real.log w)
  generalize |Real.log (rv d) - Real.log w| = Z at *
  generalize |Real.log (rv d)| = L at *
  generalize |Real.log w| = L' at *
  norm_num at mk hκ ⊢
  linarith

theorem big_sum {y : ℝ} {k : ℕ} (hk : 803 ≤ k) (h : y ≤ 2 ^ 800) (_ : 0 ≤ y) : 2 * y + 1 ≤ 2 ^ k ∧ 1 + y ≤ 2 ^ k := by
  have e1 : (1:ℝ) ≤ 2 ^ 800 := one_le_pow₀ (by norm_num)
  have e : (2:ℝ) ^ 803 = 2 ^ 800 * 2 ^ 3 := pow_add 2 800 3
  have e2 : (2:ℝ) ^ 803 ≤ 2 ^ k := pow_le_pow_right₀ (by norm_num) hk
  rw [e] at e2
  clear e
  generalize (2:ℝ) ^ 800 = B at *
  generalize (2:ℝ) ^ k = K at *
  norm_num at e2
  constructor <;> linarith

/-- `sqrt(x² + 1)` as computed. -/
theorem asinh_root (P : Platform) (hP : FloatText P.toStr) {a : Double} (ha : a.Normalized) (h : |rv a| ≤ 2 ^ 400) :
    ∃ q, Double.sqrt P (a.sqr + Double.ONE) = some q ∧ Ap q (Real.sqrt (1 + rv a ^ 2)) (82 / 2 ^ 106 * Real.sqrt (1 + rv a ^ 2)) := by
  have hs := sq_nonneg (rv a)
  have hb : rv a ^ 2 ≤ 2 ^ 800 := by
    rw [← sq_abs]
    refine (pow_le_pow_left₀ (abs_nonneg _) h 2).trans (le_of_eq ?_)
    rw [← pow_mul]
  have b1 : |rv a * rv a| ≤ 2 ^ 1020 := by
    rw [← sq, abs_of_nonneg hs]
    exact hb.trans (pow_le_pow_right₀ (by norm_num) (by norm_num))
  have q1 := (rw_sqr ha b1).1
  have ht := tau_le
  have ht0 := tau_pos
  have q2 := q1.abs_le
  rw [abs_of_nonneg hs] at q2
  have q3 : |rv a.sqr| ≤ 2 * rv a ^ 2 + 1 := by
    norm_num at q2 ht ⊢; linarith
  have big := (big_sum (k := 1020) (by norm_num) hb hs).1
  have s := rw_add q1.1 ap_one.1 (q3.trans big) (by rw [one_rv, abs_one]; exact one_le_pow₀ (by norm_num))
  rw [one_rv] at s
  have m : |rv a.sqr + 1 - (1 + rv a ^ 2)| ≤ 9 / 2 ^ 106 * rv a ^ 2 + tau := by
    rw [show rv a.sqr + 1 - (1 + rv a ^ 2) = rv a.sqr - rv a ^ 2 by ring]; exact q1.2
  have s2 := (s.move m).mono (f := 17.1 / 2 ^ 106 * (1 + rv a ^ 2)) (by
    have h3 := abs_sub_abs_le_abs_sub (rv a.sqr + 1) (1 + rv a ^ 2)
    rw [abs_of_nonneg (show 0 ≤ 1 + rv a ^ 2 by linarith)] at h3
    have ht' : tau ≤ 1 / 100 / 2 ^ 106 := by
      have h := tau_mul (k := 113) (by norm_num)
      norm_num at h ⊢; linarith
    clear big hb b1 h q2 q3
    generalize |rv a.sqr + 1 - (1 + rv a ^ 2)| = Z at *
    generalize |rv a.sqr + 1| = V at *
    generalize rv a ^ 2 = Y at *
    norm_num at m ht' ⊢
    linarith)
  obtain ⟨r, r1, r2⟩ := sqrt_up P hP s2 (le_trans (show (1:ℝ) ≤ 1 + rv a ^ 2 by linarith)
      (le_mul_of_one_le_right (by linarith) (one_le_pow₀ (by norm_num)))) (big_sum (k := 900) (by norm_num) hb hs).2 (by
      clear big hb b1 h q2 q3
      generalize rv a ^ 2 = Y at *
      norm_num; linarith)
  refine ⟨r, r1, r2.mono ?_⟩
  have hp : 0 < 1 + rv a ^ 2 := by linarith
  have e : 1.01 * (17.1 / 2 ^ 106 * (1 + rv a ^ 2)) / Real.sqrt (1 + rv a ^ 2) = 1.01 * (17.1 / 2 ^ 106) * Real.sqrt (1 + rv a ^ 2) := by
    have := Real.mul_self_sqrt hp.le
    have h0 : Real.sqrt (1 + rv a ^ 2) ≠ 0 := (Real.sqrt_pos.mpr hp).ne'
    rw [div_eq_iff h0, mul_assoc _ (Real.sqrt _), this]; ring
  rw [e]
  have := Real.sqrt_nonneg (1 + rv a ^ 2)
  generalize Real.sqrt (1 + rv a ^ 2) = Q at *
  norm_num; linarith

theorem asinh_nz {a : Double} (ha : a.Normalized) (hz : rv a ≠ 0) : Double.preAsinh a = none := by
  obtain ⟨c1, c2, c3, -⟩ := class_of ha hz
  unfold Double.preAsinh
  rw [if_neg (by rw [c2]; simp), if_neg (by rw [c3]; simp)]

/-- The argument of the logarithm in `asinh`. -/
theorem asinh_arg {a q : Double} (ha : a.Normalized) (h : |rv a| ≤ 2 ^ 400)
    (hq : Ap q (Real.sqrt (1 + rv a ^ 2)) (82 / 2 ^ 106 * Real.sqrt (1 + rv a ^ 2))) :
    Ap (a + q) (rv a + Real.sqrt (1 + rv a ^ 2)) (83 / 2 ^ 106 * Real.sqrt (1 + rv a ^ 2) +
      8.1 / 2 ^ 106 * (rv a + Real.sqrt (1 + rv a ^ 2))) ∧ 0 < rv a + Real.sqrt (1 + rv a ^ 2) ∧
      Real.sqrt (1 + rv a ^ 2) ≤ 2 ^ 402 := by
  have hs := sq_nonneg (rv a)
  have hx : |rv a| < Real.sqrt (1 + rv a ^ 2) := by
    rw [← Real.sqrt_sq_eq_abs]; exact Real.sqrt_lt_sqrt hs (by linarith)
  have hx2 := (abs_lt.mp hx).1
  have h402 : Real.sqrt (1 + rv a ^ 2) ≤ 2 ^ 402 := by
    rw [Real.sqrt_le_left (by positivity)]
    have e : ((2:ℝ) ^ 402) ^ 2 = 2 ^ 804 := by rw [← pow_mul]
    rw [e]
    have hb : rv a ^ 2 ≤ 2 ^ 800 := by
      rw [← sq_abs]
      refine (pow_le_pow_left₀ (abs_nonneg _) h 2).trans (le_of_eq ?_)
      rw [← pow_mul]
    exact (big_sum (k := 804) (by norm_num) hb hs).2
  refine ⟨?_, by linarith, h402⟩
  have q0 := Real.sqrt_nonneg (1 + rv a ^ 2)
  have q1 := hq.abs_le
  rw [abs_of_nonneg q0] at q1
  have q2 : |rv q| ≤ 2 * Real.sqrt (1 + rv a ^ 2) := by
    clear h h402
    generalize Real.sqrt (1 + rv a ^ 2) = Q at *
    norm_num at q1 ⊢; linarith
  have s := rw_add ha hq.1 (h.trans (pow_le_pow_right₀ (by norm_num) (by norm_num))) (q2.trans (by
    refine (mul_le_mul_of_nonneg_left h402 (by norm_num)).trans ?_
    rw [← pow_succ']
    exact pow_le_pow_right₀ (by norm_num) (by norm_num)))
  clear h h402
  generalize Real.sqrt (1 + rv a ^ 2) = Q at *
  have m : |rv a + rv q - (rv a + Q)| ≤ 82 / 2 ^ 106 * Q := by
    rw [add_sub_add_left_eq_sub]; exact hq.2
  refine (s.move m).mono ?_
  have h3 := abs_sub_abs_le_abs_sub (rv a + rv q) (rv a + Q)
  rw [abs_of_nonneg (show 0 ≤ rv a + Q by linarith)] at h3
  generalize |rv a + rv q - (rv a + Q)| = Z at *
  generalize |rv a + rv q| = V at *
  norm_num at m ⊢
  linarith

/-- **C70.** `asinh` of every nonnegative number up to `2^400`. -/
theorem C70_asinh_nonneg (P : Platform) (hL : LibmLogs P) (hT : FloatText P.toStr) (a : Double) (ha : a.Normalized)
    (h0 : 0 ≤ a.val) (h : a.val ≤ 2 ^ 400) :
    ∃ r, Double.asinh P a = some r ∧ r.Normalized ∧
      |(r.val : ℝ) - Real.arsinh (a.val : ℝ)| ≤ (2 * Real.arsinh (a.val : ℝ) + 19) / 2 ^ 102 := by
  have h0R : 0 ≤ rv a := by unfold rv; exact_mod_cast h0
  have hR : |rv a| ≤ 2 ^ 400 := by rw [abs_of_nonneg h0R]; unfold rv; exact_mod_cast h
  change ∃ r, Double.asinh P a = some r ∧ r.Normalized ∧ |rv r - Real.arsinh (rv a)| ≤ (2 * Real.arsinh (rv a) + 19) / 2 ^ 102
  have hl0 : 0 ≤ Real.arsinh (rv a) := Real.arsinh_nonneg_iff.mpr h0R
  clear h
  by_cases hz : rv a = 0
  · obtain ⟨c1, -⟩ := rv_zero_class ha hz
    refine ⟨a, ?_, ha, ?_⟩
    · unfold Double.asinh Double.preAsinh; rw [if_pos c1]
    · rw [hz, Real.arsinh_zero]; norm_num
  · obtain ⟨q, q1, q2⟩ := asinh_root P hT ha hR
    obtain ⟨s1, s2, s3⟩ := asinh_arg ha hR q2
    have hw : Real.log (rv a + Real.sqrt (1 + rv a ^ 2)) = Real.arsinh (rv a) := rfl
    have hQ := Real.sqrt_nonneg (1 + rv a ^ 2)
    have s4 := s1.mono (f := 92 / 2 ^ 106 * (rv a + Real.sqrt (1 + rv a ^ 2))) (by
      clear hR s3
      generalize Real.sqrt (1 + rv a ^ 2) = Q at *
      norm_num; linarith)
    obtain ⟨r, r1, r2⟩ := ln_of_ap hL s4 s2 (by norm_num) (by rw [hw]; linarith) (by
      rw [Real.log_le_iff_le_exp s2]
      rw [abs_of_nonneg h0R] at hR
      have e1 : rv a + Real.sqrt (1 + rv a ^ 2) ≤ 2 ^ 403 := by
        have : (2:ℝ) ^ 400 ≤ 2 ^ 402 := pow_le_pow_right₀ (by norm_num) (by norm_num)
        refine (add_le_add (hR.trans this) s3).trans (le_of_eq ?_)
        rw [← two_mul, ← pow_succ']
      refine e1.trans ?_
      have := Real.add_one_le_exp (1:ℝ)
      refine (pow_le_pow_left₀ (by norm_num) (show (2:ℝ) ≤ Real.exp 1 by linarith) 403).trans ?_
      rw [← Real.exp_nat_mul]
      exact Real.exp_le_exp.mpr (by norm_num))
    refine ⟨r, ?_, ?_⟩
    · unfold Double.asinh
      rw [asinh_nz ha hz]
      simp only [q1, Option.bind_some]
      exact r1
    · rw [hw, abs_of_nonneg hl0] at r2
      refine ⟨r2.1, r2.2.trans ?_⟩
      norm_num; linarith

theorem up_400 {t : ℝ} {k : ℕ} (hk : k ≤ 400) (h : t ≤ 2 ^ k) : t ≤ 2 ^ 400 := h.trans (pow_le_pow_right₀ (by norm_num) hk)

/-- **C70.** `asinh` of every number of magnitude at most `2^35`; for negative arguments the sum `a + sqrt(a² + 1)` cancels and
the error grows with the square of the argument. -/
theorem C70_asinh (P : Platform) (hL : LibmLogs P) (hT : FloatText P.toStr) (a : Double) (ha : a.Normalized)
    (h : |a.val| ≤ 2 ^ 35) :
    ∃ r, Double.asinh P a = some r ∧ r.Normalized ∧
      |(r.val : ℝ) - Real.arsinh (a.val : ℝ)| ≤ (2 * |Real.arsinh (a.val : ℝ)| + 12 * (a.val : ℝ) ^ 2 + 25) / 2 ^ 102 := by
  have hR : |rv a| ≤ 2 ^ 35 := by unfold rv; exact_mod_cast h
  change ∃ r, Double.asinh P a = some r ∧ r.Normalized ∧
    |rv r - Real.arsinh (rv a)| ≤ (2 * |Real.arsinh (rv a)| + 12 * rv a ^ 2 + 25) / 2 ^ 102
  by_cases hz : rv a = 0
  · obtain ⟨c1, -⟩ := rv_zero_class ha hz
    refine ⟨a, ?_, ha, ?_⟩
    · unfold Double.asinh Double.preAsinh; rw [if_pos c1]
    · rw [hz, Real.arsinh_zero]; norm_num
  · have h400 := up_400 (by norm_num) hR
    obtain ⟨q, q1, q2⟩ := asinh_root P hT ha h400
    obtain ⟨s1, s2, s3⟩ := asinh_arg ha h400 q2
    have hw : Real.log (rv a + Real.sqrt (1 + rv a ^ 2)) = Real.arsinh (rv a) := rfl
    have hQ := Real.sqrt_nonneg (1 + rv a ^ 2)
    clear s3 h400
    have hs := sq_nonneg (rv a)
    have hb : rv a ^ 2 ≤ 2 ^ 70 := by
      rw [← sq_abs]
      exact (pow_le_pow_left₀ (abs_nonneg _) hR 2).trans (le_of_eq (by norm_num))
    have hsq := Real.mul_self_sqrt (show 0 ≤ 1 + rv a ^ 2 by linarith)
    have hx : |rv a| ≤ Real.sqrt (1 + rv a ^ 2) := by
      rw [← Real.sqrt_sq_eq_abs]; exact Real.sqrt_le_sqrt (by linarith)
    -- the root is at most 2 (1 + x²) times the sum
    have hk : Real.sqrt (1 + rv a ^ 2) ≤ 2 * (1 + rv a ^ 2) * (rv a + Real.sqrt (1 + rv a ^ 2)) := by
      have e1 : (rv a + Real.sqrt (1 + rv a ^ 2)) * (Real.sqrt (1 + rv a ^ 2) - rv a) = 1 := by linear_combination hsq
      have e2 : Real.sqrt (1 + rv a ^ 2) - rv a ≤ 2 * Real.sqrt (1 + rv a ^ 2) := by linarith [(abs_le.mp hx).1]
      have e3 := mul_le_mul_of_nonneg_left e2 s2.le
      rw [e1] at e3
      have e4 := mul_le_mul_of_nonneg_left e3 hQ
      rw [mul_one] at e4
      refine e4.trans (le_of_eq ?_)
      linear_combination 2 * (rv a + Real.sqrt (1 + rv a ^ 2)) * hsq
    have s4 := s1.mono (f := 175 / 2 ^ 106 * (1 + rv a ^ 2) * (rv a + Real.sqrt (1 + rv a ^ 2))) (by
      have e5 : rv a + Real.sqrt (1 + rv a ^ 2) ≤ (1 + rv a ^ 2) * (rv a + Real.sqrt (1 + rv a ^ 2)) :=
        le_mul_of_one_le_left s2.le (by linarith)
      rw [mul_assoc] at hk ⊢
      generalize (1 + rv a ^ 2) * (rv a + Real.sqrt (1 + rv a ^ 2)) = U at *
      generalize rv a + Real.sqrt (1 + rv a ^ 2) = W at *
      norm_num; linarith)
    have hk2 : 175 / 2 ^ 106 * (1 + rv a ^ 2) ≤ 1 / 2 ^ 20 := by
      norm_num at hb ⊢; linarith
    have up : Real.sqrt (1 + rv a ^ 2) ≤ 2 ^ 36 := by
      rw [Real.sqrt_le_left (by norm_num)]
      norm_num at hb ⊢; linarith
    have hwu : rv a + Real.sqrt (1 + rv a ^ 2) ≤ 2 ^ 37 := by
      have := (abs_le.mp hx).2
      norm_num at up ⊢; linarith
    have l2 := Real.log_two_lt_d9
    have lw : Real.log (rv a + Real.sqrt (1 + rv a ^ 2)) ≤ 40 := by
      refine (Real.log_le_log s2 hwu).trans ?_
      rw [Real.log_pow]; push_cast; linarith
    have lw2 : -40 ≤ Real.log (rv a + Real.sqrt (1 + rv a ^ 2)) := by
      have e1 : (rv a + Real.sqrt (1 + rv a ^ 2)) * (Real.sqrt (1 + rv a ^ 2) - rv a) = 1 := by linear_combination hsq
      have e2 : Real.sqrt (1 + rv a ^ 2) - rv a ≤ 2 ^ 37 := by
        have := (abs_le.mp hx).1
        norm_num at up ⊢; linarith
      have e3 : 1 / 2 ^ 37 ≤ rv a + Real.sqrt (1 + rv a ^ 2) := by
        rw [div_le_iff₀ (by norm_num)]
        have := mul_le_mul_of_nonneg_left e2 s2.le
        linarith
      have := Real.log_le_log (by norm_num) e3
      rw [one_div, Real.log_inv, Real.log_pow] at this
      push_cast at this; linarith
    obtain ⟨r, r1, r2⟩ := ln_of_ap hL s4 s2 hk2 (by linarith) (by linarith)
    refine ⟨r, ?_, ?_⟩
    · unfold Double.asinh
      rw [asinh_nz ha hz]
      simp only [q1, Option.bind_some]
      exact r1
    · rw [hw] at r2
      refine ⟨r2.1, r2.2.trans ?_⟩
      generalize |Real.arsinh (rv a)| = L at *
      generalize rv a ^ 2 = Y at *
      norm_num; linarith

/-! ### A platform with the required logarithms and texts -/

/-- The witness platform of the logarithms, with the texts of the witness for `FloatText`. -/
noncomputable def bothPlatform : Platform := { logPlatform with toStr := text17 }

theorem bothPlatform_ok : LibmLogs bothPlatform ∧ FloatText bothPlatform.toStr :=
  ⟨⟨logPlatform_ok.ln, logPlatform_ok.log2, logPlatform_ok.log2_zero⟩, text17_ok⟩

example : ∃ r, Double.asinh bothPlatform Double.PI = some r ∧ r.Normalized ∧
    |(r.val : ℝ) - Real.arsinh ((Double.PI.val : ℚ) : ℝ)| ≤ (2 * Real.arsinh ((Double.PI.val : ℚ) : ℝ) + 19) / 2 ^ 102 :=
  C70_asinh_nonneg _ bothPlatform_ok.1 bothPlatform_ok.2 _ (by decide +kernel) (by decide +kernel) (by decide +kernel)

example : ∃ r, Double.asinh bothPlatform (-Double.PI) = some r ∧ r.Normalized ∧
    |(r.val : ℝ) - Real.arsinh (((-Double.PI).val : ℚ) : ℝ)| ≤
      (2 * |Real.arsinh (((-Double.PI).val : ℚ) : ℝ)| + 12 * (((-Double.PI).val : ℚ) : ℝ) ^ 2 + 25) / 2 ^ 102 :=
  C70_asinh _ bothPlatform_ok.1 bothPlatform_ok.2 _ (by decide +kernel) (by decide +kernel)

end Verif
