import Verif.Proofs.DoubleDiv
import Verif.Proofs.Approx

/-!
# Division of numbers of any size

`DoubleDiv` proves the accuracy of the quotient for dividends and quotients that are not tiny. Here the dividend may have any
size, zero and the subnormal range included; the error then has an absolute term of some units of the last place of the
subnormal range, multiplied by the reciprocal of the divisor.
-/

namespace Verif

open F64 Prim Util

theorem quantumQ_big : (2:ℚ) ^ 200 ≤ quantum := by
  have : (2:ℤ) ^ 200 ≤ quantum := by
    unfold quantum; exact pow_le_pow_right₀ (by norm_num) (by norm_num)
  exact_mod_cast this

theorem le_omega_of_small {n : ℤ} (h : |(n : ℚ)| ≤ 2 ^ 140) : |n| ≤ omegaUnits := by
  have hq := quantumQ_big
  have : |(n : ℚ)| ≤ (omegaUnits : ℚ) := by rw [omegaQ]; norm_num at h hq ⊢; linarith
  rw [← abs_int_cast] at this; exact_mod_cast this

/-- `renorm3` of three numbers, without the absorption of the third. -/
theorem is_renorm3G {a b c : F64} {q1 q2 q3 : ℤ} (ha : Is a q1) (hb : Is b q2) (hc : Is c q3)
    (hg : Grid q1 q2) (hr : |(q1 : ℚ)| + |(q2 : ℚ)| ≤ 2 ^ 130) (h3 : |(q3 : ℚ)| ≤ 2 ^ 60) :
    ∃ zh zl, Is (renorm3 a b c).1 zh ∧ Is (renorm3 a b c).2 zl ∧ Norm2 zh zl ∧
      |((zh : ℚ) + zl) - (q1 + q2)| ≤ 2 * |(q3 : ℚ)| + 9 / 2 ^ 53 * (|(q1 : ℚ)| + |(q2 : ℚ)|) := by
  have hqb := quantumQ_big
  have i := is_quickTwoSum ha hb hg (by
    have : |(q1 : ℚ)| + |(q2 : ℚ)| ≤ lim := by rw [limQ]; norm_num at hr hqb ⊢; linarith
    rw [← abs_int_cast, ← abs_int_cast] at this; exact_mod_cast this)
  have hn := norm2_rs_re ha.rep hb.rep
  have hsum := rs_add_reQ q1 q2
  have hlo := hn.lo_leQ
  have hu0 := tri_r (rs_errQ q1 q2)
  have hu1 := abs_add_le (q1 : ℚ) q2
  have n1 := abs_nonneg (q1 : ℚ)
  have n2 := abs_nonneg (q2 : ℚ)
  have n3 := abs_nonneg (q3 : ℚ)
  have hu : |(rs q1 q2 : ℚ)| ≤ (|(q1 : ℚ)| + |(q2 : ℚ)|) * (1 + 1 / 2 ^ 53) := by
    norm_num at hu0 hu1 ⊢; linarith
  clear hu0 hu1
  generalize |(q1 : ℚ)| + |(q2 : ℚ)| = Q at *
  generalize rs q1 q2 = u at *
  generalize re q1 q2 = v at *
  have nu := abs_nonneg (u : ℚ)
  -- s
  have cu := abs_add_le (q3 : ℚ) u
  have j0 := hc.add i.1 (le_omega_of_small (by push_cast; norm_num at h3 hr hu cu ⊢; linarith))
  have es := rs_errQ q3 u
  have hs1 := tri_r es
  have hs2 := tri_l es
  change Is _ (rs q3 u) at j0
  generalize rs q3 u = s at *
  have bs : |(s : ℚ)| ≤ (|(u : ℚ)| + |(q3 : ℚ)|) * (1 + 1 / 2 ^ 53) := by norm_num at hs1 cu ⊢; linarith
  -- t
  have cs := abs_sub (s : ℚ) q3
  have j1 := j0.sub hc (le_omega_of_small (by push_cast; norm_num at h3 hr hu cs bs ⊢; linarith))
  have et := err_int (s - q3)
  push_cast at et j1
  generalize rnd ((s : ℚ) - q3) = t at *
  -- w
  have e1 : (u : ℚ) - t = -((s : ℚ) - (q3 + u)) + ((s : ℚ) - q3 - t) := by ring
  have bw0 : |(u : ℚ) - t| ≤ 5 / 2 ^ 53 * (|(u : ℚ)| + |(q3 : ℚ)|) := by
    rw [e1]
    have := abs_sum2 (ng es) et
    norm_num at this cu cs bs ⊢; linarith
  have j2 := i.1.sub j1 (le_omega_of_small (by push_cast; norm_num at h3 hr hu bw0 ⊢; linarith))
  have ew := err_int (u - t)
  push_cast at ew j2
  generalize rnd ((u : ℚ) - t) = w at *
  -- x
  have e2 : (v : ℚ) + w = v + -((u : ℚ) - t - w) + ((u : ℚ) - t) := by ring
  have bvw : |(v : ℚ) + w| ≤ 7 / 2 ^ 53 * (|(u : ℚ)| + |(q3 : ℚ)|) := by
    rw [e2]
    have := abs_sum2 (abs_sum2 hlo (ng ew)) bw0
    norm_num at this bw0 ⊢; linarith
  have j3 := i.2.add j2 (le_omega_of_small (by push_cast; norm_num at h3 hr hu bvw ⊢; linarith))
  have ex := err_int (v + w)
  push_cast at ex j3
  generalize rnd ((v : ℚ) + w) = x at *
  have bx : |(x : ℚ)| ≤ 8 / 2 ^ 53 * (|(u : ℚ)| + |(q3 : ℚ)|) := by
    have := tri_l ex
    norm_num at this bvw ⊢; linarith
  have gx : Grid s x := by
    by_cases hbig : 2 * |(q3 : ℚ)| ≤ |(u : ℚ)|
    · apply Grid.of_abs_le j0.rep j3.rep
      have cu2 : |(u : ℚ)| - |(q3 : ℚ)| ≤ |(q3 : ℚ) + u| := by
        have := abs_add_le ((q3 : ℚ) + u) (-q3)
        rw [abs_neg] at this
        have e : (q3 : ℚ) + u + -q3 = u := by ring
        rw [e] at this; linarith
      have : |(x : ℚ)| ≤ |(s : ℚ)| := by norm_num at hs2 bx ⊢; linarith
      rw [← abs_int_cast, ← abs_int_cast] at this; exact_mod_cast this
    · refine ⟨0, by simp, by simp, ?_⟩
      have : |(x : ℚ)| < 2 ^ 53 := by norm_num at h3 bx hbig ⊢; linarith
      rw [← abs_int_cast] at this; exact_mod_cast this
  have k := is_quickTwoSum j0 j3 gx (by
    have : |(s : ℚ)| + |(x : ℚ)| ≤ lim := by rw [limQ]; norm_num at hr hqb h3 hu bs bx ⊢; linarith
    rw [← abs_int_cast, ← abs_int_cast] at this; exact_mod_cast this)
  refine ⟨rs s x, re s x, k.1, k.2, norm2_rs_re j0.rep j3.rep, ?_⟩
  rw [rs_add_reQ, ← hsum]
  have e3 : (s : ℚ) + x - (u + v) = -((v : ℚ) + w - x) + (-((u : ℚ) - t - w) + (((s : ℚ) - q3 - t) + q3)) := by ring
  rw [e3]
  have := abs_sum2 (ng ex) (abs_sum2 (ng ew) (abs_sum2 et (le_refl |(q3 : ℚ)|)))
  norm_num at this bvw bw0 cs bs hu ⊢
  linarith

set_option maxHeartbeats 1000000 in
/-- Division in units, for every dividend. `K` bounds the reciprocal of the divisor. -/
theorem div_specG {a b : Double} {xh xl yh yl : ℤ} (ia : DIs a xh xl) (ib : DIs b yh yl) (hx : Norm2 xh xl)
    (hy : Norm2 yh yl) (h0 : yh ≠ 0) (r1 : |(xh : ℚ)| ≤ lim2 / 8) (r2 : |qq xh yh| ≤ lim2 / 8)
    (rY : |(yh : ℚ)| / one' ≤ lim2 / 2 ^ 52) {K : ℚ} (hK1 : 1 ≤ K) (hK : K ≤ 2 ^ 45) (hk : |qq 1 (yh + yl)| ≤ K) :
    ∃ zh zl, DIs (a / b) zh zl ∧ Norm2 zh zl ∧
      |((zh : ℚ) + zl) - qq (xh + xl) (yh + yl)| ≤ 15 / 2 ^ 106 * |qq (xh + xl) (yh + yl)| + 2 ^ 17 * K := by
  have hq1 := quantumQ_big
  have hl2 : (lim2 : ℚ) = 9007199254740992 * quantum := lim2Q
  have hpos := one'_posQ
  have hlp : (0:ℚ) ≤ lim2 := by rw [hl2]; exact mul_nonneg (by norm_num) (le_trans (by positivity) hq1)
  have rY8 : |(yh : ℚ)| / one' ≤ lim2 / 8 := rY.trans (by apply div_le_div_of_nonneg_left hlp <;> norm_num)
  obtain ⟨q1, h1, l1, iq1, i1, n1, hq1d, b1, c1⟩ := div_step ia ib hx hy h0 r1 rY8 r2
  have hs := hy.sum_ne h0
  set Y : ℚ := (yh : ℚ) + yl with hY
  set R := qq (xh + xl) Y with hR
  have hc := quot_close hx hy h0
  rw [← hY, ← hR] at hc
  have rR1 := tri_r hc
  have rR2 := tri_l hc
  have nR := abs_nonneg R
  have nt := abs_nonneg (qq xh yh)
  have Rsmall : |R| ≤ lim2 / 8 * (1 + 4 / 2 ^ 53) := by linarith
  have nk := abs_nonneg (qq 1 Y)
  have bq1 : |(q1 : ℚ)| ≤ |R| * (1 + 1 / 2 ^ 50) + 1 / 2 := by have := tri_l b1; norm_num at this ⊢; linarith
  have bq1' : |R| ≤ |(q1 : ℚ)| * (1 + 1 / 2 ^ 50) + 1 := by have := tri_r b1; norm_num at this ⊢; linarith
  have b1s : |R - q1| ≤ 13 / 2 ^ 55 * |R| + 1 / 2 := b1
  have bR1 : |qq (h1 + l1) Y| ≤ 13 / 2 ^ 55 * |R| * (1 + 1 / 2 ^ 48) + 2 * K := by
    have := tri_r c1
    norm_num at this b1s bq1 hk ⊢
    linarith
  have nR1 := abs_nonneg (qq (h1 + l1) Y)
  have hc1 := quot_close n1 hy h0
  rw [← hY] at hc1
  have t1 := tri_l hc1
  have nt1 := abs_nonneg (qq h1 yh)
  have bt1 : |qq h1 yh| ≤ 13 / 2 ^ 55 * |R| * (1 + 1 / 2 ^ 47) + 3 * K := by norm_num at t1 bR1 ⊢; linarith
  have rh1 : |(h1 : ℚ)| ≤ lim2 / 8 := by
    have e1 := qq_pq h0 h1
    have e2 := qq_pq h0 xh
    -- |h1| one' = |qq h1 yh| |yh|
    have e3 : |qq h1 yh| ≤ 1 / 2 ^ 50 * |qq xh yh| + 3 * K := by norm_num at bt1 rR1 ⊢; linarith
    have h3 := mul_le_mul_of_nonneg_right e3 (abs_nonneg (yh : ℚ))
    rw [e1, add_mul, mul_assoc, e2] at h3
    have e4 : 3 * K * |(yh : ℚ)| = 3 * K * (|(yh : ℚ)| / one') * one' := by field_simp
    rw [e4, ← mul_assoc, ← add_mul] at h3
    have h4 := le_of_mul_le_mul_right h3 hpos
    have h5 : 3 * K * (|(yh : ℚ)| / one') ≤ 3 * 2 ^ 45 * (lim2 / 2 ^ 52) :=
      mul_le_mul (by linarith) rY (by positivity) (by norm_num)
    have h6 : (3:ℚ) * 2 ^ 45 * (lim2 / 2 ^ 52) = 3 / 128 * lim2 := by ring
    rw [h6] at h5
    norm_num at h4 r1 ⊢
    linarith
  obtain ⟨q2, h2, l2, iq2, i2, n2, hq2d, b2, c2⟩ := div_step i1 ib n1 hy h0 rh1 rY8 (by
    rw [hl2] at Rsmall ⊢; norm_num at bt1 Rsmall hK hq1 ⊢; linarith)
  rw [← hY] at b2 c2
  have bq2 : |(q2 : ℚ)| ≤ 1 / 2 ^ 50 * |R| + 3 * K := by have := tri_l b2; norm_num at this bR1 ⊢; linarith
  have bR2 : |qq (h2 + l2) Y| ≤ 1 / 2 ^ 100 * |R| + 2 * K := by
    have := tri_r c2
    norm_num at this b2 bq2 hk bR1 ⊢
    linarith
  have hc2 := quot_close n2 hy h0
  rw [← hY] at hc2
  have t2 := tri_l hc2
  have nt2 := abs_nonneg (qq h2 yh)
  have nR2 := abs_nonneg (qq (h2 + l2) Y)
  have bt2 : |qq h2 yh| ≤ 1 / 2 ^ 99 * |R| + 3 * K := by norm_num at t2 bR2 ⊢; linarith
  have iq3 := i2.1.div ib.1 h0 (by
    change |qq h2 yh| ≤ _
    rw [omegaQ]; rw [hl2] at Rsmall; norm_num at bt2 Rsmall hK hq1 ⊢; linarith)
  change Is _ (rnd (qq h2 yh)) at iq3
  have e3 := err_le (qq h2 yh)
  have bq3 : |((rnd (qq h2 yh) : ℤ) : ℚ)| ≤ 1 / 2 ^ 98 * |R| + 4 * K := by have := tri_l e3; norm_num at this bt2 ⊢; linarith
  set q3 := rnd (qq h2 yh)
  clear_value q3
  have esum : |(q1 : ℚ) + q2 - R| ≤ 14.6 / 2 ^ 106 * |R| + 4 * K := by
    have e : (q1 : ℚ) + q2 - R = -(qq (h1 + l1) Y - q2) + (qq (h1 + l1) Y - (R - q1)) := by ring
    rw [e]
    refine (abs_sum2 (ng b2) c1).trans ?_
    norm_num at bR1 b1s bq1 hk ⊢
    linarith
  rw [div_main_of ia.1 ib.1 h0]
  by_cases hbig : 2 ^ 65 * K ≤ |R|
  · have u1 := tri_l (rs_errQ q1 q2)
    have u2 : |(q1 : ℚ)| ≤ |(q1 : ℚ) + q2| + |(q2 : ℚ)| := by
      have := abs_add_le ((q1 : ℚ) + q2) (-q2)
      rwa [add_neg_cancel_right, abs_neg] at this
    have nu := abs_nonneg ((q1 : ℚ) + q2)
    have ub : |R| ≤ 2 * |(rs q1 q2 : ℚ)| := by norm_num at u1 u2 bq2 bq1' hbig ⊢; linarith
    have hfin := is_renorm3 iq1 iq2 iq3
      (by
        have : |(q2 : ℚ)| ≤ |(q1 : ℚ)| := by norm_num at bq2 bq1' hbig ⊢; linarith
        rw [← abs_int_cast, ← abs_int_cast] at this; exact_mod_cast this)
      (by
        have : |(q1 : ℚ)| + |(q2 : ℚ)| ≤ lim2 := by norm_num at bq2 bq1 Rsmall hbig ⊢; linarith
        rw [← abs_int_cast, ← abs_int_cast] at this; exact_mod_cast this)
      (by
        have : 2 ^ 60 * |(q3 : ℚ)| ≤ |(rs q1 q2 : ℚ)| := by norm_num at bq3 ub hbig ⊢; linarith
        rw [← abs_int_cast, ← abs_int_cast] at this; exact_mod_cast this)
      (by
        have : 2 ^ 60 ≤ |(rs q1 q2 : ℚ)| := by norm_num at ub hbig ⊢; linarith
        rw [← abs_int_cast] at this; exact_mod_cast this)
    refine ⟨rs q1 q2, re q1 q2, hfin, norm2_rs_re iq1.rep iq2.rep, ?_⟩
    rw [rs_add_reQ]
    refine esum.trans ?_
    norm_num; linarith
  · rw [not_le] at hbig
    have hg : Grid q1 q2 := by
      apply grid_of_small iq1.rep iq2.rep
      by_cases hle : |(q2 : ℚ)| ≤ |(q1 : ℚ)|
      · right; rw [← abs_int_cast, ← abs_int_cast] at hle; exact_mod_cast hle
      · left
        have : |(q2 : ℚ)| < 2 ^ 53 := by norm_num at hle bq2 bq1' hK ⊢; linarith
        rw [← abs_int_cast] at this; exact_mod_cast this
    obtain ⟨zh, zl, z1, z2, z3, z4⟩ := is_renorm3G iq1 iq2 iq3 hg (by norm_num at bq1 bq2 hbig hK ⊢; linarith)
      (by norm_num at bq3 hbig hK ⊢; linarith)
    refine ⟨zh, zl, ⟨z1, z2⟩, z3, ?_⟩
    have e : (zh : ℚ) + zl - R = ((zh : ℚ) + zl - (q1 + q2)) + ((q1 : ℚ) + q2 - R) := by ring
    rw [e]
    refine (abs_sum2 z4 esum).trans ?_
    norm_num at bq1 bq2 bq3 hbig ⊢
    linarith

end Verif
