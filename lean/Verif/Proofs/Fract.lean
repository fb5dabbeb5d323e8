import Verif.Proofs.Whole

/-!
# Exactness of `fract`
-/

namespace Verif

open F64 Prim Util

/-- An addition is exact when the two roundings in the middle are. -/
theorem add_exact_of {xh xl yh yl : ℤ} (h1 : Rep (re xh yh + rs xl yl))
    (h2 : Rep (re xl yl + re (rs xh yh) (re xh yh + rs xl yl))) :
    addVh xh xl yh yl + addW xh xl yh yl = xh + xl + (yh + yl) := by
  have e1 : addC xh xl yh yl = re xh yh + rs xl yl := rs_of_rep h1
  have e2 : addW xh xl yh yl = re xl yl + addVl xh xl yh yl := by
    unfold addW; apply rs_of_rep; unfold addVl; rw [e1]; exact h2
  rw [e2]
  have a1 : addVh xh xl yh yl + addVl xh xl yh yl = rs xh yh + addC xh xl yh yl := rs_add_re _ _
  have a2 := rs_add_re xh yh
  have a3 := rs_add_re xl yl
  rw [e1] at a1
  linarith

/-- Sterbenz-like: the sum is no larger than both operands. -/
theorem rep_add_of_le {a b : ℤ} (ha : Rep a) (hb : Rep b) (h1 : |a + b| ≤ |a|) (h2 : |a + b| ≤ |b|) : Rep (a + b) := by
  rcases le_total (expo (a : ℚ)) (expo (b : ℚ)) with h | h
  · exact .of_dvd_le (k := expo (a : ℚ)) (dvd_add ha.dvd (dvd_trans (pow_dvd_pow _ h) hb.dvd))
      (h1.trans (expo_int_lt a).le)
  · exact .of_dvd_le (k := expo (b : ℚ)) (dvd_add (dvd_trans (pow_dvd_pow _ h) ha.dvd) hb.dvd)
      (h2.trans (expo_int_lt b).le)

/-- Subtraction with equal leading components. -/
theorem dis_sub_samehi {a b : Double} {h l m : ℤ} (ia : DIs a h l) (ib : DIs b h m) (hr : |l| + |m| ≤ lim) :
    DIs (a - b) (rs l (-m)) (re l (-m)) := by
  rw [sub_main_of ia.1 ib.1]
  have p := is_twoDiff_self ia.1 ib.1
  have q := is_twoDiff ia.2 ib.2 hr
  have hn : Norm2 (rs l (-m)) (re l (-m)) := norm2_rs_re ia.2.rep ib.2.rep.neg
  have ic := q.1.add_zero p.2
  have hz : Is (quickTwoSum (twoDiff a.hi b.hi).1 (F64.add (twoDiff a.lo b.lo).1 (twoDiff a.hi b.hi).2)).1 (rs l (-m)) :=
    p.1.add_rep ic (by ring) (rep_rs _ _) q.1.lt
  have hz2 : Is (quickTwoSum (twoDiff a.hi b.hi).1 (F64.add (twoDiff a.lo b.lo).1 (twoDiff a.hi b.hi).2)).2 0 :=
    ic.sub_self' (hz.sub_zero p.1)
  have := is_quickTwoSum_norm hz (q.2.add_zero hz2) hn
  exact this

/-- The `k` with `one' = 2^(52+1022)`. -/
theorem one'_split : one' = 2 ^ (52 + 1022) := by unfold one'; rfl

/-- Integer leading component: subtracting the separately rounded number is exact. -/
theorem sub_whole {a b : Double} {h l zh zl W : ℤ} (ia : DIs a h l) (hn : Norm2 h l) (ib : DIs b zh zl)
    (hz : Norm2 zh zl) (hh : one' ∣ h) (hW : one' ∣ W) (hWl : |l - W| < one') (hl : ¬ one' ∣ l)
    (e : zh + zl = h + W) : ∃ rh rl, DIs (a - b) rh rl ∧ Norm2 rh rl ∧ rh + rl = l - W := by
  have hp := one'_pos
  have hs : |l| < 2 ^ (52 + 1074) := by
    by_contra hc
    exact hl (by unfold one'; exact hn.rep_lo.dvd_of_le (not_lt.mp hc))
  have e52 : (2:ℤ) ^ (52 + 1074) = 2 ^ 52 * one' := by rw [pow_add]; unfold one'; rfl
  rw [e52] at hs
  have hWb : |W| < (2 ^ 52 + 1) * one' := by
    have := abs_sub_abs_le_abs_sub W l
    rw [abs_sub_comm] at this
    linarith
  have hWb : |W| ≤ 2 ^ 52 * one' := by
    obtain ⟨w, rfl⟩ := hW
    rw [abs_mul, abs_of_pos hp, mul_comm] at hWb ⊢
    have := lt_of_mul_lt_mul_right hWb hp.le
    exact mul_le_mul_of_nonneg_right (by omega) hp.le
  have hg : Grid h W := by
    refine ⟨1074, ?_, ?_, ?_⟩
    · unfold one' at hh; exact hh
    · unfold one' at hW; exact hW
    · rw [pow_add]; unfold one' at hWb hp
      refine lt_of_le_of_lt hWb ?_
      exact mul_lt_mul_of_pos_right (by norm_num) (by positivity)
  have hzh : zh = rs h W := by unfold rs; rw [← e]; exact hz.rnd_eq.symm
  have hzl : zl = re h W := by have := rs_add_re h W; rw [← hzh, ← e] at this; linarith
  have hq : 2 ^ 130 * one' ≤ quantum := by
    unfold one' quantum; rw [← pow_add]; exact pow_le_pow_right₀ (by norm_num) (by norm_num)
  have hzlb : |zl| ≤ |W| := by
    rw [hzl]
    have := err_nearest (h + W) hn.rep_hi
    have e2 : h + W - h = W := by ring
    rw [e2] at this
    exact this
  by_cases hD : h = zh
  · subst hD
    have hzw : zl = W := by linarith
    subst hzw
    have := dis_sub_samehi ia ib (by
      rw [lim_eq]; norm_num at hs hWb hq ⊢; linarith)
    refine ⟨_, _, this, norm2_rs_re ia.2.rep ib.2.rep.neg, ?_⟩
    rw [rs_add_re]; ring
  · have hhb : |h| ≤ 2 ^ 114 * one' := by
      by_contra hc
      apply hD
      rw [hzh]
      symm
      apply rnd_absorb hn.rep_hi
      · norm_num at hc hWb ⊢; linarith
      · norm_num at hc ⊢; linarith
    obtain ⟨k, g1, g2, g3⟩ := hg
    have hDr : Rep (h + -zh) := by
      have := (rep_fast_diff hn.rep_hi g1 g2 g3).neg
      have e3 : -(rnd ((h + W : ℤ) : ℚ) - h) = h + -zh := by rw [hzh]; unfold rs; ring
      rwa [e3] at this
    have hzhb : |zh| ≤ 2 ^ 116 * one' := by
      have : zh = h + W - zl := by linarith
      rw [this]
      have h1 := abs_sub (h + W) zl
      have h2 := abs_add_le h W
      norm_num at hhb hWb ⊢; linarith
    have hlim : |h| + |zh| ≤ lim2 := by
      rw [lim2_eq]; norm_num at hhb hzhb hq ⊢; linarith
    refine ⟨_, _, is_sub ia ib hn hz hlim, norm2_addTail hn hz.swap_sign, ?_⟩
    rw [rs_add_re]
    have hre : re h (-zh) = 0 := re_of_rep hDr
    have hrs : rs h (-zh) = h + -zh := rs_of_rep hDr
    have main : Rep (re l (-zl) + re (h + -zh) (rs l (-zl))) := by
      set t1 := rs l (-zl) with ht1
      set t2 := re l (-zl) with ht2
      set D := h + -zh with hDd
      have hD0 : D ≠ 0 := by intro hc; apply hD; rw [hDd] at hc; linarith
      have hDW : D = zl - W := by rw [hDd]; linarith
      by_cases h20 : t2 = 0
      · rw [h20, zero_add]; exact rep_re hDr (rep_rs _ _)
      · have hzl0 : zl ≠ 0 := by
          rintro rfl
          apply h20
          rw [ht2, neg_zero]
          apply re_of_rep; rw [add_zero]; exact hn.rep_lo
        have hdz : one' ∣ zl := by
          rw [hzl]; unfold re rs
          have g : (2:ℤ) ^ 1074 ∣ h + W := by unfold one' at hh hW; exact dvd_add hh hW
          have := dvd_sub g (dvd_rnd g)
          unfold one'; exact this
        have hdD : one' ∣ D := by rw [hDW]; exact dvd_sub hdz hW
        -- D is at least two
        have hD2 : 2 * one' ≤ |D| := by
          by_contra hc
          obtain ⟨d, hd⟩ := hdD
          have hd1 : |d| = 1 := by
            have h1 : d ≠ 0 := by rintro rfl; apply hD0; rw [hd]; simp
            have h2 := Int.one_le_abs h1
            rw [hd, abs_mul, abs_of_pos hp] at hc
            have : |d| < 2 := by
              by_contra h3
              apply hc
              have := mul_le_mul_of_nonneg_left (not_lt.mp h3) hp.le
              linarith
            omega
          have hDo : |D| = one' := by rw [hd, abs_mul, hd1, abs_of_pos hp, mul_one]
          -- ulp(h) ≤ 2
          have hE : (2:ℤ) ^ expo ((h : ℤ) : ℚ) ≤ 2 * one' := by
            by_contra hcE
            have hE' : 1076 ≤ expo ((h : ℤ) : ℚ) := by
              by_contra h3
              apply hcE
              have : (2:ℤ) * one' = 2 ^ 1075 := by unfold one'; exact (pow_succ' 2 1074).symm
              rw [this]
              exact pow_le_pow_right₀ (by norm_num) (by omega)
            -- both are multiples of 2 one'
            have h1 : (2:ℤ) * one' ∣ h := by
              have : (2:ℤ) * one' = 2 ^ 1075 := by unfold one'; exact (pow_succ' 2 1074).symm
              rw [this]; exact dvd_trans (pow_dvd_pow _ (by omega)) hn.rep_hi.dvd
            have h2 : (2:ℤ) * one' ∣ zh := by
              have e4 : (2:ℤ) * one' = 2 ^ 1075 := by unfold one'; exact (pow_succ' 2 1074).symm
              rw [e4]
              apply hz.rep_hi.dvd_of_le
              have h3 := expo_le ((h : ℤ) : ℚ) (by omega)
              have h4 : (2:ℤ) ^ (52 + 1076) ≤ |h| := by
                have : (2:ℚ) ^ (52 + 1076) ≤ 2 ^ (52 + expo ((h : ℤ) : ℚ)) := pow_le_pow_right₀ (by norm_num) (by omega)
                have := this.trans h3
                rw [← abs_int_cast] at this
                exact_mod_cast this
              have h5 : (2:ℤ) ^ (52 + 1076) = 4 * (2 ^ 52 * one') := by
                rw [pow_add, show (2:ℤ) ^ 1076 = 2 ^ 2 * 2 ^ 1074 by rw [← pow_add]]; unfold one'; ring
              have h6 : (2:ℤ) ^ (52 + 1075) = 2 * (2 ^ 52 * one') := by
                rw [pow_add, show (2:ℤ) ^ 1075 = 2 ^ 1 * 2 ^ 1074 by rw [← pow_add]]; unfold one'; ring
              rw [h5] at h4
              rw [h6]
              have h7 : |h| ≤ |zh| + |D| := by
                have : h = zh + D := by rw [hDd]; ring
                rw [this]; exact abs_add_le _ _
              norm_num at h4 ⊢
              clear h3 e4 h5 h6 hE' hcE e52 hq hhb hzhb
              linarith
            have h3 := dvd_sub h1 h2
            rw [show h - zh = D by rw [hDd]; ring] at h3
            have := Int.le_of_dvd (by linarith) ((dvd_abs _ _).mpr h3)
            linarith
          have hl1 : |l| ≤ one' := by
            have := hn.two_lo
            linarith
          have hl1' : |l| < one' := by
            refine lt_of_le_of_ne hl1 ?_
            intro hc; apply hl; exact (dvd_abs _ _).mp (by rw [hc])
          have hW2 : |W| < 2 * one' := by
            have := abs_sub_abs_le_abs_sub W l
            rw [abs_sub_comm] at this
            linarith
          obtain ⟨w, hw⟩ := hW
          obtain ⟨z, hz'⟩ := hdz
          have hz1 : |z| ≤ |w| := by
            rw [hw, hz', abs_mul, abs_mul, abs_of_pos hp] at hzlb
            exact le_of_mul_le_mul_left hzlb hp
          have hw1 : |w| < 2 := by
            rw [hw, abs_mul, abs_of_pos hp] at hW2
            have : one' * |w| < one' * 2 := by linarith
            exact lt_of_mul_lt_mul_left this hp.le
          have hz0 : z ≠ 0 := by rintro rfl; apply hzl0; rw [hz']; simp
          have hdw : d = z - w := by
            have : one' * d = one' * (z - w) := by rw [← hd, hDW, hz', hw]; ring
            exact mul_left_cancel₀ hp.ne' this
          rw [abs_lt] at hw1
          rw [hdw] at hd1
          -- |z| = |w| = 1, z - w is even
          have hz1' := abs_le.mp (hz1.trans (show |w| ≤ 1 by rw [abs_le]; omega))
          have hw0 : w ≠ 0 := by
            rintro rfl
            simp at hz1; exact hz0 hz1
          rcases abs_eq (by norm_num : (0:ℤ) ≤ 1) |>.mp hd1 with h1 | h1 <;> omega
        have hx1 : one' ≤ |l + -zl| := by
          have e4 : l + -zl = (l - W) - D := by rw [hDW]; ring
          rw [e4, abs_sub_comm]
          have := abs_sub_abs_le_abs_sub D (l - W)
          linarith
        have ht1b : one' ≤ |t1| := le_abs_rnd rep_one' (by
          rw [← abs_int_cast]; exact_mod_cast hx1)
        have ht2b : |t2| ≤ one' := by
          have h1 : 2 ^ 53 * |t2| ≤ |l + -zl| := re_le _ _
          have h2 := abs_add_le l (-zl)
          rw [abs_neg] at h2
          norm_num at h1 hs hWb
          linarith
        have hr : Rep (D + t1) := by
          apply Rep.of_dvd_le (k := 1022)
          · apply dvd_add
            · refine dvd_trans ?_ hdD
              unfold one'; exact pow_dvd_pow _ (by norm_num)
            · apply (rep_rs _ _ : Rep t1).dvd_of_le
              rw [← one'_split]; exact ht1b
          · have e5 : (2:ℤ) ^ (53 + 1022) = 2 * one' := by unfold one'; exact (pow_succ' 2 1074)
            rw [e5]
            have e6 : D + t1 = (l - W) - t2 := by
              have := rs_add_re l (-zl)
              rw [hDW]; linarith
            rw [e6]
            have := abs_sub (l - W) t2
            linarith
        rw [re_of_rep hr, add_zero]
        exact rep_re hn.rep_lo hz.rep_lo.neg
    have := add_exact_of (xh := h) (xl := l) (yh := -zh) (yl := -zl) (by rw [hre, zero_add]; exact rep_rs _ _)
      (by rw [hre, hrs, zero_add]; exact main)
    rw [this]
    linarith

/-- Non-integer leading component: subtracting its whole part is exact. -/
theorem sub_whole_frac {a b : Double} {h l w : ℤ} (ia : DIs a h l) (hn : Norm2 h l) (ib : DIs b (w * one') 0)
    (hh : ¬ one' ∣ h) (hr : |h - w * one'| < one') (hm : |h - w * one'| ≤ |h|) :
    ∃ rh rl, DIs (a - b) rh rl ∧ Norm2 rh rl ∧ rh + rl = h + l - w * one' := by
  have hp := one'_pos
  have hs : |h| < 2 ^ (52 + 1074) := by
    by_contra hc
    exact hh (by unfold one'; exact hn.rep_hi.dvd_of_le (not_lt.mp hc))
  have e52 : (2:ℤ) ^ (52 + 1074) = 2 ^ 52 * one' := by rw [pow_add]; unfold one'; rfl
  rw [e52] at hs
  have hq : 2 ^ 130 * one' ≤ quantum := by
    unfold one' quantum; rw [← pow_add]; exact pow_le_pow_right₀ (by norm_num) (by norm_num)
  have hwb : |w * one'| ≤ 2 ^ 53 * one' := by
    have := abs_sub_abs_le_abs_sub (w * one') h
    rw [abs_sub_comm] at this
    linarith
  have hRep : Rep (h + -(w * one')) := by
    have he : expo (h : ℚ) ≤ 1074 := by
      by_contra hc
      refine hh (dvd_trans ?_ hn.rep_hi.dvd)
      unfold one'
      exact pow_dvd_pow _ (by omega)
    refine Rep.of_dvd_le (k := expo (h : ℚ)) ?_ (hm.trans (expo_int_lt h).le)
    apply dvd_add hn.rep_hi.dvd
    rw [dvd_neg]
    apply Dvd.dvd.mul_left
    unfold one'
    exact pow_dvd_pow _ he
  refine ⟨_, _, is_sub ia ib hn (norm2_zero_right ib.1.rep) ?_, norm2_addTail hn (norm2_zero_right ib.1.rep).swap_sign, ?_⟩
  · rw [lim2_eq]; norm_num at hs hwb hq ⊢; linarith
  · rw [rs_add_re, add_exact_of]
    · ring
    · rw [re_of_rep hRep, zero_add]; exact rep_rs _ _
    · have : Rep (l + -0) := by rw [neg_zero, add_zero]; exact hn.rep_lo
      rw [re_of_rep this, zero_add]
      rw [re_of_rep hRep, zero_add]
      exact rep_re (rep_rs _ _) (rep_rs _ _)

end Verif
