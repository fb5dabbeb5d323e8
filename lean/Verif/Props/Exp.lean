import Verif.Proofs.Exp

/-!
# C63: the accuracy of `exp`
-/

namespace Verif

open Consts

/-- `exp` outside its special cases, in one equation. -/
theorem exp_main {a : Double} (ha : a.Normalized) (h1 : -600 ≤ fr a.hi) (h2 : fr a.hi ≤ 708) (hp : Double.preExp a = none) :
    ∃ r, Double.exp a = some r ∧ r.Normalized ∧
      |rv r - Real.exp (rv a)| ≤ (|rv a| + 10) / 2 ^ 102 * Real.exp (rv a) := by
  obtain ⟨m, i, m1, m2, hs⟩ := expM_spec ha h1 h2
  obtain ⟨hx, hA⟩ := expRed_ap ha i m1 m2 hs
  have hX : |rv ((a - Double.LN_2 * ⟨Double.expM a, F64.zero⟩) * Double.INV_K)| ≤ 7 / 10000 := by
    refine hx.abs_le.trans ?_
    rw [abs_div]
    norm_num at hs ⊢
    linarith
  obtain ⟨c, hc, v, hv, hvA⟩ := expTaylor_ap hx.1 hX
  have hfin := expSteps_ap hX hvA
  have hm : F64.toI32 (Double.expM a) = m := toI32_of_is i (by rw [abs_lt]; constructor <;> norm_num <;> omega)
  unfold Double.exp
  rw [hp]
  simp only [hc, hv, Option.map_some, hm]
  refine ⟨_, rfl, ?_⟩
  have hx2 := hx.2
  generalize rv ((a - Double.LN_2 * ⟨Double.expM a, F64.zero⟩) * Double.INV_K) = X at *
  generalize (Double.expStep (Double.expStep (Double.expStep (Double.expStep (Double.expStep (Double.expStep
    (Double.expStep (Double.expStep (Double.expStep v)))))))) + Double.ONE) = R at *
  generalize rv a = A at *
  -- the exponent
  have hy : |512 * X - (A - m * Real.log 2)| ≤ (17 / 10 * |A| + 16 / 10) / 2 ^ 103 := by
    have e : 512 * X - (A - m * Real.log 2) = 512 * (X - (A - m * Real.log 2) / 512) := by ring
    rw [e, abs_mul]
    norm_num at hx2 ⊢
    linarith
  have hE : Real.exp (512 * X) = Real.exp (A - m * Real.log 2) * Real.exp (512 * X - (A - m * Real.log 2)) := by
    rw [← Real.exp_add]; congr 1; ring
  generalize hd : 512 * X - (A - m * Real.log 2) = D at *
  have hA0 := abs_nonneg A
  have hD1 : |D| ≤ 1 / 2 ^ 90 := hy.trans (by norm_num; linarith)
  have hD : |Real.exp D - 1| ≤ (171 / 100 * |A| + 161 / 100) / 2 ^ 103 := by
    have h3 := Real.abs_exp_sub_one_sub_id_le (x := D) (hD1.trans (by norm_num))
    have h4 := abs_add_le (Real.exp D - 1 - D) D
    rw [sub_add_cancel] at h4
    have h5 : D ^ 2 ≤ |D| * (1 / 2 ^ 90) := by
      rw [← sq_abs, pow_two]; exact mul_le_mul_of_nonneg_left hD1 (abs_nonneg _)
    have h6 := abs_nonneg D
    have h7 : |Real.exp D - 1| ≤ |D| * (1 + 1 / 2 ^ 90) := by linarith
    refine h7.trans ((mul_le_mul_of_nonneg_right hy (by norm_num)).trans ?_)
    norm_num; linarith
  have hG : 0.706 ≤ Real.exp (A - m * Real.log 2) := by
    have h5 := Real.exp_bound (x := -(347 / 1000)) (n := 6) (by rw [abs_neg, abs_of_pos] <;> norm_num) (by norm_num)
    have h6 : Real.exp (-(347 / 1000)) ≤ Real.exp (A - m * Real.log 2) :=
      Real.exp_le_exp.mpr (abs_le.mp hs).1
    have h7 := (abs_le.mp h5).1
    simp only [Finset.sum_range_succ, Finset.sum_range_zero, Nat.factorial] at h7
    rw [abs_neg, abs_of_pos (by norm_num)] at h7
    norm_num at h7 ⊢
    linarith
  have hG2 : Real.exp (A - m * Real.log 2) ≤ 1.42 := by
    have h5 := Real.exp_bound (x := (347 / 1000)) (n := 4) (by rw [abs_of_pos] <;> norm_num) (by norm_num)
    have h6 : Real.exp (A - m * Real.log 2) ≤ Real.exp (347 / 1000) :=
      Real.exp_le_exp.mpr (abs_le.mp hs).2
    have h7 := (abs_le.mp h5).2
    simp only [Finset.sum_range_succ, Finset.sum_range_zero, Nat.factorial] at h7
    rw [abs_of_pos (by norm_num)] at h7
    norm_num at h7 ⊢
    linarith
  have hG3 : Real.exp A = Real.exp (A - m * Real.log 2) * 2 ^ m := by
    have : (2:ℝ) ^ m = Real.exp (m * Real.log 2) := by
      rw [mul_comm, Real.exp_mul, Real.exp_log (by norm_num), Real.rpow_intCast]
    rw [this, ← Real.exp_add]; congr 1; ring
  -- the value before scaling
  have hR : |rv R - Real.exp (A - m * Real.log 2)| ≤ (172 / 100 * |A| + 17) / 2 ^ 103 * Real.exp (A - m * Real.log 2) := by
    have h3 := hfin.2
    have h4 : |Real.exp (512 * X) - Real.exp (A - m * Real.log 2)| ≤
        (171 / 100 * |A| + 161 / 100) / 2 ^ 103 * Real.exp (A - m * Real.log 2) := by
      rw [hE, ← mul_sub_one, abs_mul, abs_of_pos (Real.exp_pos _), mul_comm]
      exact mul_le_mul_of_nonneg_right hD (Real.exp_pos _).le
    have h5 := abs_add_le (rv R - Real.exp (512 * X)) (Real.exp (512 * X) - Real.exp (A - m * Real.log 2))
    rw [sub_add_sub_cancel] at h5
    have h6 : (1075 : ℝ) / 100 / 2 ^ 103 ≤ 1523 / 100 / 2 ^ 103 * Real.exp (A - m * Real.log 2) := by
      norm_num at hG ⊢; linarith
    have h7 : (172 / 100 * |A| + 17) / 2 ^ 103 * Real.exp (A - m * Real.log 2) =
      (171 / 100 * |A| + 161 / 100) / 2 ^ 103 * Real.exp (A - m * Real.log 2) + 1523 / 100 / 2 ^ 103 * Real.exp (A - m * Real.log 2)
        + (1 / 100 * |A| + 16 / 100) / 2 ^ 103 * Real.exp (A - m * Real.log 2) := by ring
    have h8 : 0 ≤ (1 / 100 * |A| + 16 / 100) / 2 ^ 103 * Real.exp (A - m * Real.log 2) := by positivity
    linarith
  generalize Real.exp (A - m * Real.log 2) = G at *
  have hRG : |rv R - G| ≤ 1 / 10 ^ 6 := by
    have h3 : (172 / 100 * |A| + 17) / 2 ^ 103 ≤ 1 / 10 ^ 7 := by norm_num; linarith
    refine hR.trans ((mul_le_mul h3 hG2 (by linarith) (by norm_num)).trans (by norm_num))
  have hRG' := abs_le.mp hRG
  have hR0 : 0 < rv R := by norm_num at *; linarith
  obtain ⟨n1, n2⟩ := rv_ldexp hfin.1 (by rw [abs_of_pos hR0]; norm_num at *; linarith) (by rw [abs_of_pos hR0]; norm_num at *; linarith) m m1 m2
  refine ⟨n1, ?_⟩
  rw [hG3]
  have hp2 : (0:ℝ) < 2 ^ m := zpow_pos (by norm_num) m
  have h5 := abs_add_le (rv (R.ldexp m) - rv R * 2 ^ m) (rv R * 2 ^ m - G * 2 ^ m)
  rw [sub_add_sub_cancel, ← sub_mul, abs_mul (rv R - G), abs_of_pos hp2] at h5
  have h6 : |rv R - G| * 2 ^ m ≤ (172 / 100 * |A| + 17) / 2 ^ 103 * G * 2 ^ m := mul_le_mul_of_nonneg_right hR hp2.le
  have h7 : (1:ℝ) / 2 ^ 1074 ≤ 1 / 2 ^ 103 * G * 2 ^ m := by
    have e1 : (1:ℝ) / 2 ^ 1074 = 1 / 2 ^ 174 * 2 ^ (-900 : ℤ) := by
      rw [show ((-900 : ℤ)) = -((900 : ℕ) : ℤ) by norm_num, zpow_neg, zpow_natCast, show (1074:ℕ) = 174 + 900 by norm_num, pow_add]
      rw [one_div, mul_inv, one_div]
    rw [e1]
    refine mul_le_mul ?_ (zpow_le_zpow_right₀ (by norm_num) m1) (zpow_nonneg (by norm_num) _) (by positivity)
    norm_num at hG ⊢; linarith
  have h8 : (|A| + 10) / 2 ^ 102 * (G * 2 ^ m) = (172 / 100 * |A| + 17) / 2 ^ 103 * G * 2 ^ m + 1 / 2 ^ 103 * G * 2 ^ m
      + (28 / 100 * |A| + 2) / 2 ^ 103 * (G * 2 ^ m) := by ring
  have h9 : 0 ≤ (28 / 100 * |A| + 2) / 2 ^ 103 * (G * 2 ^ m) := by
    have : 0 ≤ G := by norm_num at *; linarith
    positivity
  rw [h8]
  linarith

/-- **C63.** `exp` of a normalized number whose first component lies between -600 and 708: the result is normalized and within
`(|a| + 10) 2^-102` of `e ^ a`, relative to `e ^ a`. -/
theorem C63_exp (a : Double) (ha : a.Normalized) (h1 : -600 ≤ a.hi.toRat) (h2 : a.hi.toRat ≤ 708) :
    ∃ r, Double.exp a = some r ∧ r.Normalized ∧
      |(r.val : ℝ) - Real.exp (a.val : ℝ)| ≤ (|(a.val : ℝ)| + 10) / 2 ^ 102 * Real.exp (a.val : ℝ) := by
  have h1' : -600 ≤ fr a.hi := by unfold fr; exact_mod_cast h1
  have h2' : fr a.hi ≤ 708 := by unfold fr; exact_mod_cast h2
  cases hp : Double.preExp a with
  | none => exact exp_main ha h1' h2' hp
  | some r =>
    have hf := ha.1.1
    have e : Double.exp a = some r := by unfold Double.exp; rw [hp]
    rw [e]
    refine ⟨r, rfl, ?_⟩
    unfold Double.preExp at hp
    have hn : a.isNan ≠ true := by
      intro hc; have := fs_isFinite_nan hc; unfold Double.isFinite at this; rw [hf] at this; cases this
    rw [if_neg, if_neg, if_neg hn] at hp
    · split_ifs at hp with c1 c2
      · obtain rfl : Double.ONE = r := by injection hp
        have hv : a.val = 0 := by
          obtain ⟨h, l, i, n⟩ := ha.norm2
          unfold Double.isZero at c1
          rw [i.1.eq_iff is_zero] at c1
          subst c1
          have := n.lo_le
          have hl : l = 0 := by
            rw [abs_zero] at this
            have := abs_nonneg l
            exact abs_eq_zero.mp (by omega)
          rw [i.val, hl]; norm_num
        have h3 : Double.ONE.val = 1 := by decide +kernel
        refine ⟨by decide +kernel, ?_⟩
        rw [hv, h3]; norm_num
      · obtain rfl : Double.E = r := by injection hp
        have hv : a.val = 1 := by
          rw [(C12_compare a _ ha fs_one_ok.1).2.2.2.2, fs_one_ok.2] at c2
          exact c2
        refine ⟨C48_double_normalized _ (by simp), ?_⟩
        have h3 := C48_double_values.2.2.2.2.2.2.2.2.2.2.2.2.2.2.2.2.2.1
        unfold Near at h3
        rw [hv]
        rw [← le_div_iff₀ (by positivity), abs_of_pos (Real.exp_pos _)] at h3
        have h4 := Real.exp_pos 1
        push_cast
        refine h3.trans ?_
        norm_num
        linarith
    · intro hc
      have := (fs_f64_lt_iff f64_708.1 hf).mp hc
      rw [f64_708.2] at this; linarith
    · intro hc
      have := (fs_f64_lt_iff hf f64_600.1).mp hc
      rw [f64_600.2] at this; linarith

/-- **C63.** In particular the result is positive, and its relative error is below `2^-92` over the whole range. -/
theorem C63_exp_range (a : Double) (ha : a.Normalized) (h1 : -600 ≤ a.hi.toRat) (h2 : a.hi.toRat ≤ 708) :
    ∃ r, Double.exp a = some r ∧ r.Normalized ∧ 0 < r.val ∧
      |(r.val : ℝ) - Real.exp (a.val : ℝ)| ≤ Real.exp (a.val : ℝ) / 2 ^ 92 := by
  obtain ⟨r, e, n, h⟩ := C63_exp a ha h1 h2
  have hv : |(a.val : ℝ)| ≤ 709 := by
    have h3 := rv_sub_hi ha
    have h1' : -600 ≤ fr a.hi := by unfold fr; exact_mod_cast h1
    have h2' : fr a.hi ≤ 708 := by unfold fr; exact_mod_cast h2
    have h4 : |fr a.hi| ≤ 708 := abs_le.mpr ⟨by linarith, h2'⟩
    have h5 : |fr a.hi| / 2 ^ 53 ≤ 708 / 2 ^ 53 := div_le_div_of_nonneg_right h4 (by positivity)
    have h6 := abs_sub_abs_le_abs_sub (rv a) (fr a.hi)
    change |rv a| ≤ 709
    norm_num at h5
    linarith
  have hp := Real.exp_pos (a.val : ℝ)
  have h7 : |(r.val : ℝ) - Real.exp (a.val : ℝ)| ≤ Real.exp (a.val : ℝ) / 2 ^ 92 := by
    refine h.trans ?_
    have : (|(a.val : ℝ)| + 10) / 2 ^ 102 ≤ 1 / 2 ^ 92 := by norm_num; linarith
    have := mul_le_mul_of_nonneg_right this hp.le
    rw [one_div_mul_eq_div] at this
    exact this
  refine ⟨r, e, n, ?_, h7⟩
  have h8 := (abs_le.mp h7).1
  have : (0:ℝ) < (r.val : ℝ) := by norm_num at h8; linarith
  exact_mod_cast this

example : Double.PI.Normalized ∧ -600 ≤ Double.PI.hi.toRat ∧ Double.PI.hi.toRat ≤ 708 := by
  refine ⟨by decide +kernel, by decide +kernel, by decide +kernel⟩

end Verif
