import Verif.Props.InvHyper

/-!
# C70: `acosh`, `atanh` and the overflow of the square
-/

namespace Verif

open F64

theorem sqrt_nan (P : Platform) : Double.sqrt P ⟨F64.nan false, F64.zero⟩ = some ⟨F64.nan false, F64.zero⟩ := by
  unfold Double.sqrt
  rw [show Double.preSqrt ⟨F64.nan false, F64.zero⟩ = none by decide +kernel]
  dsimp only
  rw [(C66_special P _).2.2.1 (by decide +kernel)]
  exact congrArg some (by decide +kernel)

theorem ln_nan (P : Platform) (d : Double) (h : d.isNan = true) : Double.ln P d = some Double.NAN := by
  unfold Double.ln Double.preLn
  rw [if_pos h]

/-- **C70 refuted for large arguments.** The square overflows to NaN: `asinh(2^512)` and `asinh(-2^512)`, about ±355.6, are
computed as NaN, and `acosh(2^512)` as well. -/
theorem C70_overflow_refuted (P : Platform) :
    Double.asinh P ⟨F64.powi Double.two 512, F64.zero⟩ = some Double.NAN ∧
    Double.asinh P ⟨F64.neg (F64.powi Double.two 512), F64.zero⟩ = some Double.NAN ∧
    Double.acosh P ⟨F64.powi Double.two 512, F64.zero⟩ = some Double.NAN := by
  refine ⟨?_, ?_, ?_⟩
  · unfold Double.asinh
    rw [show Double.preAsinh ⟨F64.powi Double.two 512, F64.zero⟩ = none by decide +kernel]
    dsimp only
    rw [show (Double.sqr ⟨F64.powi Double.two 512, F64.zero⟩) + Double.ONE = ⟨F64.nan false, F64.zero⟩ by decide +kernel, sqrt_nan,
      Option.bind_some, ln_nan P _ (by decide +kernel)]
  · unfold Double.asinh
    rw [show Double.preAsinh ⟨F64.neg (F64.powi Double.two 512), F64.zero⟩ = none by decide +kernel]
    dsimp only
    rw [show (Double.sqr ⟨F64.neg (F64.powi Double.two 512), F64.zero⟩) + Double.ONE = ⟨F64.nan false, F64.zero⟩ by decide +kernel, sqrt_nan,
      Option.bind_some, ln_nan P _ (by decide +kernel)]
  · unfold Double.acosh
    rw [show Double.preAcosh ⟨F64.powi Double.two 512, F64.zero⟩ = none by decide +kernel]
    dsimp only
    rw [show (Double.sqr ⟨F64.powi Double.two 512, F64.zero⟩) - Double.ONE = ⟨F64.nan false, F64.zero⟩ by decide +kernel, sqrt_nan,
      Option.bind_some, ln_nan P _ (by decide +kernel)]

/-- `x² - 1` as computed. -/
theorem acosh_diff {a : Double} (ha : a.Normalized) (h1 : 1 + 1 / 2 ^ 78 ≤ rv a) (h : rv a ≤ 2 ^ 400) :
    Ap (a.sqr - Double.ONE) (rv a ^ 2 - 1) (9.01 / 2 ^ 106 * rv a ^ 2 + 8.1 / 2 ^ 106 * (rv a ^ 2 - 1)) := by
  have x1 : 1 ≤ rv a := by refine le_trans ?_ h1; norm_num
  have hs := sq_nonneg (rv a)
  have hs1 : 1 ≤ rv a ^ 2 := one_le_pow₀ x1
  have hb : rv a ^ 2 ≤ 2 ^ 800 := by
    refine (pow_le_pow_left₀ (by linarith) h 2).trans (le_of_eq ?_)
    rw [← pow_mul]
  have b1 : |rv a * rv a| ≤ 2 ^ 1020 := by
    rw [← sq, abs_of_nonneg hs]
    exact hb.trans (pow_le_pow_right₀ (by norm_num) (by norm_num))
  have q1 := (rw_sqr ha b1).1
  have ht := tau_le
  have ht0 := tau_pos
  have q2 := q1.abs_le
  rw [abs_of_nonneg hs] at q2
  have q3 : |rv a.sqr| ≤ 2 * rv a ^ 2 + 1 := by
    norm_num at q2 ht ⊢; linarith
  have big := (big_sum (k := 1020) (by norm_num) hb hs).1
  have s := rw_sub q1.1 ap_one.1 (q3.trans big) (by rw [one_rv, abs_one]; exact one_le_pow₀ (by norm_num))
  rw [one_rv] at s
  have m : |rv a.sqr - 1 - (rv a ^ 2 - 1)| ≤ 9 / 2 ^ 106 * rv a ^ 2 + tau := by
    rw [sub_sub_sub_cancel_right]; exact q1.2
  refine (s.move m).mono ?_
  have h3 := abs_sub_abs_le_abs_sub (rv a.sqr - 1) (rv a ^ 2 - 1)
  rw [abs_of_nonneg (show 0 ≤ rv a ^ 2 - 1 by linarith)] at h3
  have ht' : tau ≤ 1 / 200 / 2 ^ 106 := by
    have h := tau_mul (k := 114) (by norm_num)
    norm_num at h ⊢; linarith
  clear big hb b1 h q2 q3
  generalize |rv a.sqr - 1 - (rv a ^ 2 - 1)| = Z at *
  generalize |rv a.sqr - 1| = V at *
  generalize rv a ^ 2 = Y at *
  norm_num at m ht' ⊢
  linarith

/-- **C70.** `acosh` of every number from `1 + 2^-78` to `2^400`; near 1, where `a² - 1` cancels, the error grows like
`1 / sqrt(a² - 1)`. -/
theorem C70_acosh (P : Platform) (hL : LibmLogs P) (hT : FloatText P.toStr) (a : Double) (ha : a.Normalized)
    (h1 : 1 + 1 / 2 ^ 78 ≤ a.val) (h2 : a.val ≤ 2 ^ 400) :
    ∃ r, Double.acosh P a = some r ∧ r.Normalized ∧
      |(r.val : ℝ) - Real.arcosh (a.val : ℝ)| ≤
        (2 * Real.arcosh (a.val : ℝ) + 19 + 1 / Real.sqrt ((a.val : ℝ) ^ 2 - 1)) / 2 ^ 102 := by
  have h1R : 1 + 1 / 2 ^ 78 ≤ rv a := by
    have := (Rat.cast_le (K := ℝ)).mpr h1
    push_cast at this; exact this
  have h2R : rv a ≤ 2 ^ 400 := by unfold rv; exact_mod_cast h2
  have hpre : Double.preAcosh a = none := by
    have hc := C12_compare a Double.ONE ha ap_one.1
    have h1' : Double.ONE.val < a.val := by
      rw [show Double.ONE.val = 1 by decide +kernel]
      exact lt_of_lt_of_le (by norm_num) h1
    unfold Double.preAcosh
    rw [if_neg (by rw [hc.1]; exact not_lt.mpr h1'.le), if_neg (by rw [hc.2.2.2.2]; exact h1'.ne'),
      if_neg (by rw [(class_of ha (show rv a ≠ 0 by intro hc; rw [hc] at h1R; norm_num at h1R)).2.2.1]; simp)]
  clear h1 h2
  change ∃ r, Double.acosh P a = some r ∧ r.Normalized ∧
      |rv r - Real.arcosh (rv a)| ≤ (2 * Real.arcosh (rv a) + 19 + 1 / Real.sqrt (rv a ^ 2 - 1)) / 2 ^ 102
  have x1 : 1 ≤ rv a := by refine le_trans ?_ h1R; norm_num
  have d0 := acosh_diff ha h1R h2R
  have hD : 1 / 2 ^ 77 ≤ rv a ^ 2 - 1 := by norm_num at h1R ⊢; nlinarith
  have hD0 : 0 < rv a ^ 2 - 1 := lt_of_lt_of_le (by norm_num) hD
  have hb : rv a ^ 2 ≤ 2 ^ 800 := by
    refine (pow_le_pow_left₀ (by linarith) h2R 2).trans (le_of_eq ?_)
    rw [← pow_mul]
  have hb2 : rv a ^ 2 - 1 ≤ 2 ^ 900 := by
    have h9 := (big_sum (k := 900) (by norm_num) hb (sq_nonneg _)).2
    refine le_trans ?_ h9
    linarith
  obtain ⟨q, q1, q2⟩ := sqrt_up P hT d0 (by
      have e : (1:ℝ) / 2 ^ 77 * 2 ^ 77 ≤ (rv a ^ 2 - 1) * 2 ^ 890 :=
        mul_le_mul hD (pow_le_pow_right₀ (by norm_num) (by norm_num)) (by positivity) hD0.le
      refine le_trans ?_ e
      norm_num) hb2 (by
      clear h2R hb hb2
      generalize rv a ^ 2 = Y at *
      norm_num at hD ⊢; linarith)
  have hQ : 0 < Real.sqrt (rv a ^ 2 - 1) := Real.sqrt_pos.mpr hD0
  have hQQ : Real.sqrt (rv a ^ 2 - 1) * Real.sqrt (rv a ^ 2 - 1) = rv a ^ 2 - 1 := Real.mul_self_sqrt hD0.le
  have hQ1 : Real.sqrt (rv a ^ 2 - 1) ≤ rv a := by
    rw [Real.sqrt_le_left (by linarith)]; linarith
  have hQ2 : 1 / 2 ^ 39 ≤ Real.sqrt (rv a ^ 2 - 1) := by
    apply Real.le_sqrt_of_sq_le
    refine le_trans ?_ hD
    norm_num
  have hw : Real.log (rv a + Real.sqrt (rv a ^ 2 - 1)) = Real.arcosh (rv a) := rfl
  have hl0 : 0 ≤ Real.arcosh (rv a) := Real.arcosh_nonneg x1
  clear hb hb2 hD
  generalize hQe : Real.sqrt (rv a ^ 2 - 1) = Q at *
  have e1 : Q * (1.01 / 2 ^ 100) + 1.01 * (9.01 / 2 ^ 106 * rv a ^ 2 + 8.1 / 2 ^ 106 * (rv a ^ 2 - 1)) / Q ≤
      82.2 / 2 ^ 106 * Q + 9.2 / 2 ^ 106 * (1 / Q) := by
    have e2 : rv a ^ 2 = Q * Q + 1 := by linarith
    have e3 : 1.01 * (9.01 / 2 ^ 106 * rv a ^ 2 + 8.1 / 2 ^ 106 * (rv a ^ 2 - 1)) / Q =
        1.01 * 17.11 / 2 ^ 106 * Q + 1.01 * 9.01 / 2 ^ 106 * (1 / Q) := by
      rw [e2, div_eq_iff hQ.ne', add_mul, mul_assoc _ (1 / Q) Q, one_div, inv_mul_cancel₀ hQ.ne']; ring
    rw [e3]
    have : 0 < 1 / Q := by positivity
    generalize 1 / Q = R at *
    norm_num; linarith
  have q3 := q2.mono e1
  have hiQ : 1 / Q ≤ 2 ^ 39 := by
    rw [div_le_iff₀ hQ]
    norm_num at hQ2 ⊢; linarith
  have hiQ0 : 0 < 1 / Q := by positivity
  have q4 := q3.abs_le
  rw [abs_of_pos hQ] at q4
  have q5 : |rv q| ≤ 2 * rv a + 1 := by
    clear h2R
    generalize 1 / Q = R at *
    norm_num at q4 hiQ ⊢; linarith
  have big : 2 * rv a + 1 ≤ 2 ^ 1020 :=
    (big_sum (k := 1020) (by norm_num) (h2R.trans (pow_le_pow_right₀ (by norm_num) (by norm_num))) (by linarith)).1
  have s := rw_add ha q3.1 (by rw [abs_of_nonneg (by linarith)]; exact h2R.trans (pow_le_pow_right₀ (by norm_num) (by norm_num))) (q5.trans big)
  have m : |rv a + rv q - (rv a + Q)| ≤ 82.2 / 2 ^ 106 * Q + 9.2 / 2 ^ 106 * (1 / Q) := by
    rw [add_sub_add_left_eq_sub]; exact q3.2
  have s2 := (s.move m).mono (f := (91 / 2 ^ 106 + 9.3 / 2 ^ 106 * (1 / Q)) * (rv a + Q)) (by
    have h3 := abs_sub_abs_le_abs_sub (rv a + rv q) (rv a + Q)
    rw [abs_of_nonneg (show 0 ≤ rv a + Q by linarith)] at h3
    have h4 : 1 / Q * 1 ≤ 1 / Q * (rv a + Q) := mul_le_mul_of_nonneg_left (by linarith) hiQ0.le
    rw [add_mul, mul_assoc _ (1 / Q)]
    clear big h2R
    generalize |rv a + rv q - (rv a + Q)| = Z at *
    generalize |rv a + rv q| = V at *
    generalize 1 / Q * (rv a + Q) = R' at *
    generalize 1 / Q = R at *
    norm_num at m ⊢
    linarith)
  clear q2 q3 e1 m s
  have hlog : Real.arcosh (rv a) ≤ 590 := by
    rw [← hw, Real.log_le_iff_le_exp (by linarith)]
    have e1 : rv a + Q ≤ 2 ^ 401 := by
      refine (add_le_add h2R (hQ1.trans h2R)).trans (le_of_eq ?_)
      rw [← two_mul, ← pow_succ']
    refine e1.trans ?_
    have := Real.add_one_le_exp (1:ℝ)
    refine (pow_le_pow_left₀ (by norm_num) (show (2:ℝ) ≤ Real.exp 1 by linarith) 401).trans ?_
    rw [← Real.exp_nat_mul]
    exact Real.exp_le_exp.mpr (by norm_num)
  clear big h2R
  obtain ⟨r, r1, r2⟩ := ln_of_ap hL s2 (by linarith) (by
    generalize 1 / Q = R at *
    norm_num at hiQ ⊢; linarith) (by rw [hw]; linarith) (by rw [hw]; exact hlog)
  refine ⟨r, ?_, ?_⟩
  · unfold Double.acosh
    rw [hpre]
    simp only [q1, Option.bind_some]
    exact r1
  · rw [hw, abs_of_nonneg hl0] at r2
    refine ⟨r2.1, r2.2.trans ?_⟩
    generalize 1 / Q = R at *
    generalize Real.arcosh (rv a) = L at *
    norm_num; linarith

example : ∃ r, Double.acosh bothPlatform Double.PI = some r ∧ r.Normalized ∧
    |(r.val : ℝ) - Real.arcosh ((Double.PI.val : ℚ) : ℝ)| ≤ (2 * Real.arcosh ((Double.PI.val : ℚ) : ℝ) + 19 +
      1 / Real.sqrt (((Double.PI.val : ℚ) : ℝ) ^ 2 - 1)) / 2 ^ 102 :=
  C70_acosh _ bothPlatform_ok.1 bothPlatform_ok.2 _ (by decide +kernel) (by decide +kernel) (by decide +kernel)

/-- **C70.** `atanh` of every number strictly between -1 and 1, up to distance `2^-800` of the ends. -/
theorem C70_atanh (P : Platform) (hL : LibmLogs P) (a : Double) (ha : a.Normalized) (h : |a.val| ≤ 1 - 1 / 2 ^ 800) :
    ∃ r, Double.atanh P a = some r ∧
      |(r.val : ℝ) - Real.artanh (a.val : ℝ)| ≤ (2 * |Real.artanh (a.val : ℝ)| + 8) / 2 ^ 102 ∧
      (1 ≤ |Real.artanh (a.val : ℝ)| * 2 ^ 90 → r.Normalized) := by
  have hR : 1 ≤ (1 - |rv a|) * 2 ^ 800 := by
    have := (Rat.cast_le (K := ℝ)).mpr h
    push_cast at this
    change |rv a| ≤ _ at this
    have h3 : (1:ℝ) / 2 ^ 800 ≤ 1 - |rv a| := by
      clear h
      generalize (1:ℝ) / 2 ^ 800 = B at *
      linarith
    rw [div_le_iff₀ (by positivity)] at h3
    exact h3
  have hpre : Double.preAtanh a = none := by
    obtain ⟨n1, n2⟩ := C41_abs_val a ha
    have hc := C12_compare a.abs Double.ONE n1 ap_one.1
    unfold Double.preAtanh
    rw [if_neg (by
      rw [hc.2.2.2.1, show Double.ONE.val = 1 by decide +kernel, n2, ge_iff_le, not_le]
      refine lt_of_le_of_lt h ?_
      have : (0:ℚ) < 1 / 2 ^ 800 := by positivity
      clear h hR
      generalize (1:ℚ) / 2 ^ 800 = B at *
      linarith)]
  clear h
  change ∃ r, Double.atanh P a = some r ∧ |rv r - Real.artanh (rv a)| ≤ (2 * |Real.artanh (rv a)| + 8) / 2 ^ 102 ∧
    (1 ≤ |Real.artanh (rv a)| * 2 ^ 90 → r.Normalized)
  have hlt : |rv a| < 1 := by
    by_contra hc
    have h3 : (1 - |rv a|) * 2 ^ 800 ≤ 0 := mul_nonpos_of_nonpos_of_nonneg (sub_nonpos.mpr (not_lt.mp hc)) (by positivity)
    exact absurd (hR.trans h3) (by norm_num)
  obtain ⟨l1, l2⟩ := abs_lt.mp hlt
  have one20 : |rv Double.ONE| ≤ 2 ^ 1020 := by rw [one_rv, abs_one]; exact one_le_pow₀ (by norm_num)
  have a20 : |rv a| ≤ 2 ^ 1020 := hlt.le.trans (one_le_pow₀ (by norm_num))
  have n := rw_add ap_one.1 ha one20 a20
  have d := rw_sub ap_one.1 ha one20 a20
  rw [one_rv, abs_of_pos (show 0 < 1 + rv a by linarith)] at n
  rw [one_rv, abs_of_pos (show 0 < 1 - rv a by linarith)] at d
  have gn : 1 ≤ (1 + rv a) * 2 ^ 800 := hR.trans (mul_le_mul_of_nonneg_right (by linarith [neg_abs_le (rv a)]) (by positivity))
  have gd : 1 ≤ (1 - rv a) * 2 ^ 800 := hR.trans (mul_le_mul_of_nonneg_right (by linarith [le_abs_self (rv a)]) (by positivity))
  have hN : 0 < 1 + rv a := by linarith
  have hD : 0 < 1 - rv a := by linarith
  have uN : 1 + rv a ≤ 2 := by linarith
  have uD : 1 - rv a ≤ 2 := by linarith
  have hart := Real.artanh_eq_half_log (x := rv a) ⟨l1.le, l2.le⟩
  rw [hart]
  clear hart hR a20 one20 l1 l2 hlt
  generalize hn' : Double.ONE + a = N at *
  generalize hd' : Double.ONE - a = D at *
  have core : ∃ r, Double.ln P (N / D) = some r ∧ Ap r (Real.log ((1 + rv a) / (1 - rv a))) ((2 * |Real.log ((1 + rv a) / (1 - rv a))| + 15.8) / 2 ^ 102) := by
    generalize 1 + rv a = x at *
    generalize 1 - rv a = y at *
    have vn := abs_le.mp n.2
    have vd := abs_le.mp d.2
    have n0 : x / 2 ≤ rv N := by clear gn gd; norm_num at vn ⊢; linarith [vn.1]
    have d0 : y / 2 ≤ rv D := by clear gn gd; norm_num at vd ⊢; linarith [vd.1]
    have n1 : rv N ≤ 4 := by clear gn gd; norm_num at vn ⊢; linarith [vn.2]
    have d1 : rv D ≤ 4 := by clear gn gd; norm_num at vd ⊢; linarith [vd.2]
    have np : 0 < rv N := (half_pos hN).trans_le n0
    have dp : 0 < rv D := (half_pos hD).trans_le d0
    have n0' : x ≤ rv N * 2 := by clear gn gd; linarith
    have d0' : y ≤ rv D * 2 := by clear gn gd; linarith
    have hx4 : 1 ≤ rv N * 2 ^ 801 := by
      refine gn.trans ?_
      rw [show (2:ℝ) ^ 801 = 2 * 2 ^ 800 from pow_succ' 2 800, ← mul_assoc]
      exact mul_le_mul_of_nonneg_right n0' (by positivity)
    have hy4 : 1 ≤ rv D * 2 ^ 801 := by
      refine gd.trans ?_
      rw [show (2:ℝ) ^ 801 = 2 * 2 ^ 800 from pow_succ' 2 800, ← mul_assoc]
      exact mul_le_mul_of_nonneg_right d0' (by positivity)
    have qp : 0 < rv N / rv D := div_pos np dp
    have qlow : rv N / 4 ≤ rv N / rv D := div_le_div_of_nonneg_left np.le dp d1
    have qs := rw_divw n.1 d.1 dp.ne' (by
        rw [abs_of_pos np]
        exact hx4.trans (mul_le_mul_of_nonneg_left (pow_le_pow_right₀ (by norm_num) (by norm_num)) np.le)) (by
        rw [abs_of_pos np]
        refine n1.trans ?_
        exact le_trans (by norm_num : (4:ℝ) ≤ 2 ^ 2) (pow_le_pow_right₀ (by norm_num) (by norm_num))) (by
        rw [abs_of_pos qp]
        have e1 : rv N * 2 ^ 801 ≤ rv N / 4 * 2 ^ 803 := by
          rw [show (2:ℝ) ^ 803 = 2 ^ 801 * 2 ^ 2 from pow_add 2 801 2, div_mul_eq_mul_div, le_div_iff₀ (by norm_num)]
          apply le_of_eq; ring
        refine (hx4.trans e1).trans ?_
        exact mul_le_mul qlow (pow_le_pow_right₀ (by norm_num) (by norm_num)) (by positivity) qp.le) (by
        rw [abs_of_pos qp, div_le_iff₀ dp]
        have e1 : rv D * 2 ^ 801 * 4 ≤ 2 ^ 1000 * rv D := by
          rw [show (2:ℝ) ^ 1000 = 2 ^ 801 * 2 ^ 199 from pow_add 2 801 199, mul_comm _ (rv D), ← mul_assoc]
          exact mul_le_mul_of_nonneg_left (by norm_num) (mul_nonneg dp.le (by positivity))
        refine le_trans ?_ e1
        have := mul_le_mul_of_nonneg_right hy4 (show (0:ℝ) ≤ 4 by norm_num)
        exact n1.trans (by rw [one_mul] at this; exact this))
    rw [abs_of_pos qp] at qs
    have xy : 0 < x / y := div_pos hN hD
    -- the quotient
    have m : |rv N / rv D - x / y| ≤ 16.1 / 2 ^ 106 * (x / y) := by
      have e : rv N / rv D - x / y = ((rv N - x) * y - x * (rv D - y)) / (rv D * y) := by
        rw [div_sub_div _ _ dp.ne' hD.ne']; congr 1; ring
      rw [e, abs_div, abs_of_pos (mul_pos dp hD), div_le_iff₀ (mul_pos dp hD)]
      have t : |(rv N - x) * y - x * (rv D - y)| ≤ x / 2 ^ 103 * y + x * (y / 2 ^ 103) := by
        refine (abs_sub _ _).trans (add_le_add ?_ ?_)
        · rw [abs_mul, abs_of_pos hD]; exact mul_le_mul_of_nonneg_right n.2 hD.le
        · rw [abs_mul, abs_of_pos hN]; exact mul_le_mul_of_nonneg_left d.2 hN.le
      refine t.trans ?_
      have e2 : 16.1 / 2 ^ 106 * (x / y) * (rv D * y) = 16.1 / 2 ^ 106 * x * rv D := by
        field_simp
      rw [e2]
      have e3 : x / 2 ^ 103 * y + x * (y / 2 ^ 103) = 16 / 2 ^ 106 * x * y := by ring
      rw [e3]
      have e4 : y * (16 / 16.1) ≤ rv D := by clear gn gd hx4 hy4; norm_num at vd ⊢; linarith [vd.1]
      have := mul_le_mul_of_nonneg_left e4 (show 0 ≤ 16.1 / 2 ^ 106 * x by positivity)
      refine le_trans (le_of_eq ?_) this
      ring
    have s := (qs.move m).mono (f := 32.2 / 2 ^ 106 * (x / y)) (by
      have h3 := abs_sub_abs_le_abs_sub (rv N / rv D) (x / y)
      rw [abs_of_pos qp, abs_of_pos xy] at h3
      clear gn gd hx4 hy4
      generalize |rv N / rv D - x / y| = Z at *
      generalize rv N / rv D = V at *
      generalize x / y = W at *
      norm_num at m ⊢; linarith)
    have hlog : Real.log (x / y) = Real.log x - Real.log y := Real.log_div hN.ne' hD.ne'
    have l2 := Real.log_two_lt_d9
    have l2' := Real.log_two_gt_d9
    have up : ∀ t : ℝ, 0 < t → 1 ≤ t * 2 ^ 800 → t ≤ 2 → -556 ≤ Real.log t ∧ Real.log t ≤ 1 := by
      intro t t0 t1 t2
      constructor
      · have := Real.log_le_log (by norm_num) t1
        rw [Real.log_one, Real.log_mul t0.ne' (by positivity), Real.log_pow] at this
        push_cast at this; linarith
      · have := Real.log_le_log t0 t2
        linarith
    have ux := up x hN gn uN
    have uy := up y hD gd uD
    obtain ⟨r, r1, r2⟩ := ln_of_ap hL s xy (by norm_num) (by rw [hlog]; linarith [ux.1, uy.2]) (by rw [hlog]; linarith [ux.2, uy.1])
    refine ⟨r, r1, r2.mono ?_⟩
    generalize |Real.log (x / y)| = L at *
    clear gn gd hx4 hy4
    norm_num; linarith
  obtain ⟨r, r1, r2⟩ := core
  refine ⟨Double.mulPwr2 r Double.half, ?_, ?_, ?_⟩
  · unfold Double.atanh
    rw [hpre, hn', hd']
    simp only [r1, Option.map_some]
  · have r3 := r2.half (le_refl _)
    have e := r3.2
    generalize Real.log ((1 + rv a) / (1 - rv a)) = L at *
    rw [show 1 / 2 * L = L / 2 by ring, abs_div]
    refine e.trans ?_
    clear gn gd r3 e
    generalize |L| = M at *
    norm_num; linarith
  · intro g
    have e := r2.2
    have k := abs_sub_abs_le_abs_sub (Real.log ((1 + rv a) / (1 - rv a))) (rv r)
    rw [abs_sub_comm] at k
    generalize Real.log ((1 + rv a) / (1 - rv a)) = L at *
    rw [show 1 / 2 * L = L / 2 by ring, abs_div] at g
    have b : 1 ≤ |rv r| * 2 ^ 100 := by
      clear gn gd
      norm_num at g e k ⊢
      linarith
    exact (rw_half r2.1 (b.trans
      (mul_le_mul_of_nonneg_left (pow_le_pow_right₀ (by norm_num) (by norm_num)) (abs_nonneg _)))).1

example : ∃ r, Double.atanh logPlatform (Double.PI / Double.TAU) = some r ∧
    |(r.val : ℝ) - Real.artanh (((Double.PI / Double.TAU).val : ℚ) : ℝ)| ≤
      (2 * |Real.artanh (((Double.PI / Double.TAU).val : ℚ) : ℝ)| + 8) / 2 ^ 102 ∧
    (1 ≤ |Real.artanh (((Double.PI / Double.TAU).val : ℚ) : ℝ)| * 2 ^ 90 → r.Normalized) :=
  C70_atanh _ logPlatform_ok _ (by decide +kernel) (by decide +kernel)

end Verif
