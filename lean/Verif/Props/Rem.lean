import Verif.Proofs.Rem

/-!
# C23: the remainder
-/

namespace Verif

open F64

/-- Division with remainder rounding the quotient down, for a nonzero divisor that does not divide. -/
theorem fdiv_bounds {m n : ℤ} (hn : n ≠ 0) (hd : ¬ n ∣ m) :
    (m.fdiv n : ℚ) + 1 / |(n : ℚ)| ≤ (m : ℚ) / n ∧ (m : ℚ) / n ≤ m.fdiv n + 1 - 1 / |(n : ℚ)| := by
  have h1 := Int.mul_fdiv_add_fmod m n
  have hr : m.fmod n ≠ 0 := fun h => hd (Int.dvd_of_fmod_eq_zero h)
  have hnq : (n : ℚ) ≠ 0 := by exact_mod_cast hn
  have e : (m : ℚ) = n * m.fdiv n + m.fmod n := by exact_mod_cast h1.symm
  have e2 : (m : ℚ) / n = m.fdiv n + m.fmod n / n := by rw [div_eq_iff hnq, add_mul, div_mul_cancel₀ _ hnq]; linarith
  rw [e2]
  generalize (m.fdiv n : ℚ) = f
  rcases lt_or_gt_of_ne hn with h | h
  · have b0 := Int.neg_fmod_neg m n
    have b1 := Int.fmod_lt_of_pos (-m) (b := -n) (by omega)
    have b2 : m.fmod n ≤ -1 := by
      have := Int.fmod_nonneg_of_pos (-m) (b := -n) (by omega)
      omega
    have b3 : n + 1 ≤ m.fmod n := by omega
    have q2 : (m.fmod n : ℚ) ≤ -1 := by exact_mod_cast b2
    have q3 : (n : ℚ) + 1 ≤ m.fmod n := by exact_mod_cast b3
    have hnn : (n : ℚ) < 0 := by exact_mod_cast h
    rw [abs_of_neg hnn]
    have e3 : (m.fmod n : ℚ) / n = (-m.fmod n : ℚ) / (-n) := by rw [neg_div_neg_eq]
    rw [e3]
    have h4 : 1 / -(n : ℚ) ≤ (-m.fmod n : ℚ) / (-n) := div_le_div_of_nonneg_right (by linarith) (by linarith)
    have h5 : (-m.fmod n : ℚ) / (-n) ≤ 1 - 1 / -(n : ℚ) := by
      rw [le_sub_iff_add_le, ← add_div, div_le_one (by linarith)]; linarith
    constructor <;> linarith
  · have b1 := Int.fmod_lt_of_pos m h
    have b2 : 1 ≤ m.fmod n := by
      have := Int.fmod_nonneg_of_pos m h
      omega
    have q2 : (1:ℚ) ≤ m.fmod n := by exact_mod_cast b2
    have q3 : (m.fmod n : ℚ) + 1 ≤ n := by exact_mod_cast b1
    have hnn : (0:ℚ) < n := by exact_mod_cast h
    rw [abs_of_pos hnn]
    have h4 : 1 / (n : ℚ) ≤ (m.fmod n : ℚ) / n := div_le_div_of_nonneg_right (by linarith) (by linarith)
    have h5 : (m.fmod n : ℚ) / n ≤ 1 - 1 / (n : ℚ) := by
      rw [le_sub_iff_add_le, ← add_div, div_le_one hnn]; linarith
    constructor <;> linarith

/-- Integer valued Double with at most 49 bits: the second component is zero. -/
theorem small_int {b : Double} {n : ℤ} (hb : b.Normalized) (e : b.val = n) (hn : |n| ≤ 2 ^ 53) : DIs b (n * one') 0 := by
  obtain ⟨h, l, i, hN, e'⟩ := of_int hb e
  have h0 : l = 0 := hN.eq_of_rep (by rw [e']; exact rep_int hn)
  subst h0
  rw [add_zero] at e'
  rwa [e'] at i

theorem hi_bound {h l m : ℤ} {k : ℕ} (hn : Norm2 h l) (e : h + l = m * one') (hm : |m| ≤ 2 ^ k) :
    |h| ≤ 2 ^ k * one' := by
  have hp := one'_pos
  rw [← hn.rnd_eq]
  apply abs_rnd_le
  · exact ⟨1, k + 1074, by norm_num, by rw [pow_add]; unfold one'; ring⟩
  · rw [← abs_int_cast, e, abs_mul, abs_of_pos hp]
    exact_mod_cast mul_le_mul_of_nonneg_right hm hp.le

/-- Exact difference of two Doubles with whole values. -/
theorem sub_int {a b : Double} {xh xl yh yl m n : ℤ} (ia : DIs a xh xl) (ib : DIs b yh yl) (hx : Norm2 xh xl)
    (hy : Norm2 yh yl) (ex : xh + xl = m * one') (ey : yh + yl = n * one') (hm : |m| ≤ 2 ^ 104) (hn : |n| ≤ 2 ^ 104) :
    ∃ zh zl, DIs (a - b) zh zl ∧ Norm2 zh zl ∧ zh + zl = (m - n) * one' := by
  have eo : one' = 2 ^ 1074 := by unfold one'; rfl
  have bx := hi_bound hx ex hm
  have by' := hi_bound hy ey hn
  have hq : 2 ^ 130 * one' ≤ quantum := by
    unfold one' quantum; rw [← pow_add]; exact pow_le_pow_right₀ (by norm_num) (by norm_num)
  obtain ⟨zh, zl, iz, hz, ez⟩ := sub_exact_grid (k := 1074) ia ib hx hy (by rw [ex, ← eo]; exact ⟨_, mul_comm _ _⟩)
    (by rw [ey, ← eo]; exact ⟨_, mul_comm _ _⟩) (by rw [← eo]; norm_num at bx by' ⊢; linarith)
    (by rw [lim2_eq]; have := one'_pos; clear eo; norm_num at bx by' hq ⊢; linarith)
  exact ⟨zh, zl, iz, hz, by rw [ez, ex, ey]; ring⟩

/-- The quotient of integers, rounded down. -/
theorem floor_quot {a b : Double} {xh xl m n : ℤ} (ia : DIs a xh xl) (hx : Norm2 xh xl) (ib : DIs b (n * one') 0)
    (e : xh + xl = m * one') (hn : n ≠ 0) (hn2 : |n| ≤ 2 ^ 49) (hm : |m| ≤ 2 ^ 102) :
    ∃ zh zl, DIs (a / b).floor zh zl ∧ Norm2 zh zl ∧ zh + zl = m.fdiv n * one' := by
  have hp := one'_pos
  have hpq := one'_posQ
  have hnq : (n : ℚ) ≠ 0 := by exact_mod_cast hn
  have hb0 : n * one' ≠ 0 := mul_ne_zero hn hp.ne'
  have eo : one' = 2 ^ 1074 := by unfold one'; rfl
  by_cases hd : n ∣ m
  · obtain ⟨q, rfl⟩ := hd
    rw [mul_comm n q] at *
    obtain ⟨zh, zl, iz, hz, ez⟩ := div_int_exact ia hx ib e hn hn2 hm
    obtain ⟨wh, wl, iw, hw, ew⟩ := floor_spec iz hz
    refine ⟨wh, wl, iw, hw, ?_⟩
    rw [Int.mul_fdiv_cancel q hn]
    rcases ew with ew | ⟨h1, _⟩
    · rw [ew, ez, fl_of_dvd ⟨q, mul_comm _ _⟩]
    · exfalso; apply h1
      rw [eo]
      exact (hz.dvd (k := 1074) (by rw [ez, ← eo]; exact ⟨q, mul_comm _ _⟩)).1
  · obtain ⟨t1, t2⟩ := fdiv_bounds hn hd
    have hm0 : m ≠ 0 := by rintro rfl; exact hd (dvd_zero n)
    have hxl := hx.lo_le
    have hxm : |m| * one' ≤ 2 * |xh| := by
      have h1 := abs_add_le xh xl
      rw [e, abs_mul, abs_of_pos hp] at h1
      norm_num at hxl
      have := abs_nonneg xl
      omega
    have hxb := hi_bound hx e hm
    have hna : (1:ℚ) ≤ |(n : ℚ)| := by rw [← abs_int_cast]; exact_mod_cast abs_ge_one hn
    have hn49 : |(n : ℚ)| ≤ 2 ^ 49 := by rw [← abs_int_cast]; exact_mod_cast hn2
    have eq1 : ∀ x : ℚ, qq x ((n * one' : ℤ) : ℚ) = x / n := by
      intro x; unfold qq; push_cast; field_simp
    have h200 : (2:ℚ) ^ 200 ≤ one' := by
      rw [one'_pow]; exact pow_le_pow_right₀ (by norm_num) (by norm_num)
    have hxq : (one' : ℚ) ≤ 2 * |(xh : ℚ)| := by
      have h1 : one' ≤ 2 * |xh| := le_trans (le_mul_of_one_le_left hp.le (abs_ge_one hm0)) hxm
      rw [← abs_int_cast]; exact_mod_cast h1
    have hxq2 : |(xh : ℚ)| ≤ 2 ^ 102 * one' := by rw [← abs_int_cast]; exact_mod_cast hxb
    have hl : (2:ℚ) ^ 110 * one' ≤ lim2 := by
      have : 2 ^ 110 * one' ≤ lim2 := by
        rw [lim2_one']; exact mul_le_mul_of_nonneg_right (pow_le_pow_right₀ (by norm_num) (by norm_num)) hp.le
      exact_mod_cast this
    clear eo
    obtain ⟨zh, zl, iz, hz, he⟩ := div_spec ia ib hx (norm2_zero_right ib.1.rep) hb0
      (by norm_num at *; linarith)
      (by
        rw [eq1, abs_div, div_le_iff₀ (by linarith)]
        have h1 : (lim2 : ℚ) / 8 ≤ lim2 / 8 * |(n : ℚ)| := le_mul_of_one_le_right (by norm_num at *; linarith) hna
        norm_num at *; linarith)
      (by norm_num at *; linarith)
      (by
        rw [eq1, abs_div, le_div_iff₀ (by linarith)]
        norm_num at *; linarith)
    have e1 : qq ((xh : ℚ) + xl) (((n * one' : ℤ) : ℚ) + ((0:ℤ) : ℚ)) = (m : ℚ) / n * one' := by
      have : ((xh : ℚ) + xl) = m * one' := by exact_mod_cast e
      rw [Int.cast_zero, add_zero, eq1, this]; ring
    rw [e1] at he
    -- the computed quotient as a rational number
    set t : ℚ := (m : ℚ) / n with ht
    set V : ℚ := ((zh + zl : ℤ) : ℚ) / one' with hV
    have hVt : |V - t| ≤ 15 / 2 ^ 106 * |t| := by
      have e2 : (zh : ℚ) + zl - t * one' = (V - t) * one' := by
        rw [hV, sub_mul, div_mul_cancel₀ _ one'_ne]; push_cast; ring
      rw [e2, abs_mul, abs_mul, abs_of_pos hpq, ← mul_assoc] at he
      exact le_of_mul_le_mul_right he hpq
    have htn : |t| ≤ 2 ^ 102 * (1 / |(n : ℚ)|) := by
      rw [ht, abs_div, mul_one_div]
      apply div_le_div_of_nonneg_right _ (abs_nonneg _)
      rw [← abs_int_cast]; exact_mod_cast hm
    have hi49 : 1 / (2:ℚ) ^ 49 ≤ 1 / |(n : ℚ)| := one_div_le_one_div_of_le (by linarith) hn49
    set δ : ℚ := 1 / |(n : ℚ)| with hδ
    have hV2 : |V - t| ≤ 15 / 16 * δ := by
      refine hVt.trans ?_
      norm_num at htn ⊢
      linarith
    have hfl : fl (zh + zl) = m.fdiv n := by
      rw [← floor_units, Int.floor_eq_iff, ← hV]
      have := abs_le.mp hV2
      have : 0 < δ := lt_of_lt_of_le (by positivity) hi49
      constructor <;> linarith
    obtain ⟨wh, wl, iw, hw, ew⟩ := floor_spec iz hz
    refine ⟨wh, wl, iw, hw, ?_⟩
    rcases ew with ew | ⟨h1, h2, h3, _⟩
    · rw [ew, hfl]
    · exfalso
      rcases le_or_gt one' |zh| with hb | hb
      · -- at least one: on the grid of 2^-52
        have d1 : (2:ℤ) ^ 1022 ∣ zh := hz.rep_hi.dvd_of_le (by unfold one' at hb; exact hb)
        have d2 : (2:ℤ) ^ 1022 ∣ zh - fl zh * one' := by
          refine dvd_sub d1 (dvd_mul_of_dvd_right ?_ _)
          unfold one'; exact pow_dvd_pow 2 (by norm_num)
        have h4 := fl_le zh
        have h5 : zh - fl zh * one' ≠ 0 := fun h => h1 ⟨fl zh, by rw [mul_comm]; linarith⟩
        have h6 := Int.le_of_dvd (by omega) d2
        omega
      · -- below one: far from the integers
        have hzl := hz.lo_leQ
        have hzb : |(zh : ℚ)| ≤ one' := by rw [← abs_int_cast]; exact_mod_cast hb.le
        set H : ℚ := (zh : ℚ) / one' with hH
        have hH1 : |H| ≤ 1 := by
          rw [hH, abs_div, abs_of_pos hpq, div_le_one hpq]; exact hzb
        have hHV : |V - H| ≤ |H| / 2 ^ 53 := by
          have : V - H = zl / one' := by rw [hV, hH]; push_cast; ring
          rw [this, hH, abs_div, abs_div, abs_of_pos hpq, div_right_comm]
          exact div_le_div_of_nonneg_right hzl hpq.le
        have ht2 : |t| ≤ 2 := by
          have a1 := abs_add_le V (t - V)
          rw [add_sub_cancel, abs_sub_comm] at a1
          have a2 := abs_add_le H (V - H)
          rw [add_sub_cancel] at a2
          norm_num at hHV hVt
          linarith
        have b1 := abs_le.mp hHV
        have b2 := abs_le.mp hVt
        have h7 : fl zh = m.fdiv n := by
          rw [← floor_units, Int.floor_eq_iff, ← hH]
          norm_num at b1 b2 hi49
          constructor <;> linarith
        have h8 : ((zh - fl zh * one' : ℤ) : ℚ) / one' < ((2 ^ 1022 : ℤ) : ℚ) / one' := by
          apply div_lt_div_of_pos_right _ hpq
          exact_mod_cast h3
        rw [eps_units, h7] at h8
        have h9 : ((zh - m.fdiv n * one' : ℤ) : ℚ) / one' = H - m.fdiv n := by
          rw [hH]; push_cast; rw [sub_div, mul_div_assoc, div_self one'_ne, mul_one]
        rw [h9] at h8
        norm_num at b1 b2 hi49 h8
        linarith

/-- **C23 (partial).** For integer valued operands, with a divisor of at most 49 bits and a dividend of at most 102 bits,
`a % b` is exactly the floored remainder: `a - b * ⌊a / b⌋`, zero or of the sign of the divisor. -/
theorem C23_rem_partial (a b : Double) (m n : ℤ) (ha : a.Normalized) (hb : b.Normalized) (ea : a.val = m) (eb : b.val = n)
    (hn : n ≠ 0) (hn2 : |n| ≤ 2 ^ 49) (hm : |m| ≤ 2 ^ 102) :
    (a % b).Normalized ∧ (a % b).val = ((m - n * ⌊(m : ℚ) / n⌋ : ℤ) : ℚ) := by
  have hfl : ⌊(m : ℚ) / n⌋ = m.fdiv n := by
    rw [Int.floor_eq_iff]
    by_cases hd : n ∣ m
    · obtain ⟨q, rfl⟩ := hd
      have hnq : (n : ℚ) ≠ 0 := by exact_mod_cast hn
      rw [mul_comm n q, Int.mul_fdiv_cancel q hn]
      push_cast
      rw [mul_div_cancel_right₀ _ hnq]
      constructor <;> linarith
    · obtain ⟨h1, h2⟩ := fdiv_bounds hn hd
      have : 0 < 1 / |(n : ℚ)| := by
        have : (n : ℚ) ≠ 0 := by exact_mod_cast hn
        positivity
      constructor <;> linarith
  rw [hfl]
  obtain ⟨xh, xl, ia, hx, ex⟩ := of_int ha ea
  have ib := small_int hb eb (hn2.trans (by norm_num))
  obtain ⟨fh, fL, iF, hf, ef⟩ := floor_quot ia hx ib ex hn hn2 hm
  have hb2 : |n * m.fdiv n| ≤ 2 ^ 103 := by
    have h1 := Int.mul_fdiv_add_fmod m n
    have h2 : |m.fmod n| ≤ |n| := by
      rcases lt_or_gt_of_ne hn with h | h
      · have b0 := Int.neg_fmod_neg m n
        have b1 := Int.fmod_lt_of_pos (-m) (b := -n) (by omega)
        have b2 := Int.fmod_nonneg_of_pos (-m) (b := -n) (by omega)
        rw [abs_of_neg h, abs_le]; omega
      · have b1 := Int.fmod_lt_of_pos m h
        have b2 := Int.fmod_nonneg_of_pos m h
        rw [abs_of_pos h, abs_le]; omega
    have h3 := abs_add_le m (-m.fmod n)
    rw [show m + -m.fmod n = n * m.fdiv n by omega, abs_neg] at h3
    norm_num at *
    linarith
  obtain ⟨ph, pl, ip, hp, ep⟩ := mul_int ib iF (norm2_zero_right ib.1.rep) hf (by rw [add_zero]) ef (hb2.trans (by norm_num))
  obtain ⟨zh, zl, iz, hz, ez⟩ := sub_int ia ip hx hp ex ep (hm.trans (by norm_num)) (hb2.trans (by norm_num))
  exact int_of (d := a % b) iz hz ez

/-- A dividend of 102 bits and a negative divisor. -/
example : let a := Double.ofU64 (2 ^ 63 + 12345) * Double.ofU64 (2 ^ 38 - 1); let b := Double.ofI64 (-1000003)
    a.Normalized ∧ b.Normalized ∧ a.val = (((2 ^ 63 + 12345) * (2 ^ 38 - 1) : ℤ) : ℚ) ∧ b.val = ((-1000003 : ℤ) : ℚ) ∧
      |((2 ^ 63 + 12345) * (2 ^ 38 - 1) : ℤ)| ≤ 2 ^ 102 := by decide +kernel

/-- **C23 is false in general.** The exact multiple `5796414154657621649 = 7 * 828059164951088807` has remainder
`828059164951088807` instead of zero, and `1 % 10^17` is `10^17 + 1`. -/
theorem C23_refuted :
    (Double.ofU64 5796414154657621649 % Double.ofU64 828059164951088807).val = 828059164951088807 ∧
    (5796414154657621649 : ℤ) = 7 * 828059164951088807 ∧
    (Double.ofU64 1 % Double.ofU64 (10 ^ 17)).val = 10 ^ 17 + 1 := by decide +kernel

/-- **C04.** Division is exact when the quotient is an integer (divisor of at most 49 bits, dividend of at most 102). -/
theorem C04_div_int (a b : Double) (q n : ℤ) (ha : a.Normalized) (hb : b.Normalized) (ea : a.val = ((q * n : ℤ) : ℚ))
    (eb : b.val = n) (hn : n ≠ 0) (hn2 : |n| ≤ 2 ^ 49) (hm : |q * n| ≤ 2 ^ 102) :
    (a / b).Normalized ∧ (a / b).val = q := by
  obtain ⟨xh, xl, ia, hx, ex⟩ := of_int ha ea
  have ib := small_int hb eb (hn2.trans (by norm_num))
  obtain ⟨zh, zl, iz, hz, ez⟩ := div_int_exact ia hx ib ex hn hn2 hm
  exact int_of iz hz ez

example : let a := Double.ofU64 (2 ^ 63 + 12345) * Double.ofU64 (2 ^ 38 - 1); let b := Double.ofU64 (2 ^ 38 - 1)
    a.Normalized ∧ b.Normalized ∧ a.val = (((2 ^ 63 + 12345) * (2 ^ 38 - 1) : ℤ) : ℚ) ∧ b.val = ((2 ^ 38 - 1 : ℤ) : ℚ) ∧
      |((2 ^ 63 + 12345) * (2 ^ 38 - 1) : ℤ)| ≤ 2 ^ 102 := by decide +kernel

end Verif
