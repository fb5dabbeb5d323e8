import Verif.Props.Ln

/-!
# The requirement on the platform can be met

`LibmLogs` is satisfiable: choosing for every `f64` some `f64` close enough to the real logarithm gives such a platform.
-/

namespace Verif

/-- Every real number of moderate size has an `f64` within `2^-50` of it (relative). -/
theorem exists_fr {t : ℝ} (h1 : t = 0 ∨ 1 / 2 ^ 190 ≤ |t|) (h2 : |t| ≤ 2 ^ 100) :
    ∃ x : F64, x.isFinite = true ∧ |fr x - t| ≤ |t| / 2 ^ 50 := by
  rcases h1 with rfl | h1
  · refine ⟨F64.zero, rfl, ?_⟩
    have : fr F64.zero = 0 := by rw [fr_is is_zero]; simp
    rw [this]; simp
  · have ht : 0 < |t| := lt_of_lt_of_le (by positivity) h1
    obtain ⟨q, hq1, hq2⟩ := exists_rat_btwn (show t < t + |t| / 2 ^ 60 by linarith [div_pos ht (show (0:ℝ) < 2 ^ 60 by norm_num)])
    have hqt : |(q:ℝ) - t| ≤ |t| / 2 ^ 60 := by rw [abs_le]; constructor <;> linarith [div_pos ht (show (0:ℝ) < 2 ^ 60 by norm_num)]
    have hqa : |(q:ℝ)| ≤ |t| * (1 + 1 / 2 ^ 60) := by
      have := abs_add_le ((q:ℝ) - t) t
      rw [sub_add_cancel] at this; norm_num at hqt ⊢; linarith
    have hn := (Rat.cast_le (K := ℝ)).mpr (rnd_near (q * one'))
    have e1 : q * (one' : ℚ) / one' = q := by have := one'_ne; field_simp
    rw [e1] at hn
    have hp : (0:ℝ) < (one' : ℝ) := by exact_mod_cast one'_pos
    have hlt : |rnd (q * one')| < ovf := by
      have h3 : |((rnd (q * one') : ℤ) : ℝ) / one'| ≤ 2 ^ 102 := by
        have h4 : |((rnd (q * one') : ℤ) : ℝ) / one' - q| ≤ |(q:ℝ)| / 2 ^ 53 + 1 / 2 ^ 250 := by
          push_cast at hn; exact hn.trans (add_le_add le_rfl one'_invR)
        have := abs_add_le (((rnd (q * one') : ℤ) : ℝ) / one' - q) q
        rw [sub_add_cancel] at this
        norm_num at h4 hqa h2 ⊢; linarith
      rw [abs_div, abs_of_pos hp, div_le_iff₀ hp] at h3
      have h5 : |rnd (q * one')| ≤ 2 ^ 102 * one' := by exact_mod_cast h3
      refine lt_of_le_of_lt h5 ?_
      unfold one' ovf
      rw [← pow_add]
      exact pow_lt_pow_right₀ (by norm_num) (by norm_num)
    obtain ⟨x, ix⟩ := exists_is (rep_rnd (q * one')) hlt
    refine ⟨x, ix.1, ?_⟩
    rw [fr_is ix]
    have h4 : |((rnd (q * one') : ℤ) : ℝ) / one' - q| ≤ |(q:ℝ)| / 2 ^ 53 + 1 / 2 ^ 250 := by
      push_cast at hn; exact hn.trans (add_le_add le_rfl one'_invR)
    have := abs_add_le (((rnd (q * one') : ℤ) : ℝ) / one' - q) (q - t)
    rw [sub_add_sub_cancel] at this
    norm_num at h4 hqa hqt h1 ⊢; linarith

/-- The logarithm of a finite positive `f64` is zero or not too small, and not too large. -/
theorem log_range {h : F64} (hf : h.isFinite = true) (hp : 0 < fr h) :
    (Real.log (fr h) = 0 ∨ 1 / 2 ^ 190 ≤ |Real.log (fr h)|) ∧ |Real.log (fr h)| ≤ 2 ^ 100 := by
  have i := Is.of_finite hf
  have hone : (0:ℝ) < (one' : ℝ) := by exact_mod_cast one'_pos
  generalize h.units = n at i
  have hge := fr_pos_ge hf hp
  have e := fr_is i
  constructor
  · by_cases hn : n = one'
    · left; rw [e, hn, div_self hone.ne', Real.log_one]
    · right
      have hdiff : 2 ^ 1021 ≤ |n - one'| := by
        have h0 : 0 < n := by
          by_contra hc
          have h2 : (n:ℝ) ≤ 0 := by exact_mod_cast not_lt.mp hc
          rw [e] at hp
          exact absurd hp (not_lt.mpr (div_nonpos_of_nonpos_of_nonneg h2 hone.le))
        by_cases hb : (2:ℤ) ^ (52 + 1021) ≤ |n|
        · have hd := i.rep.dvd_of_le hb
          have hd2 : (2:ℤ) ^ 1021 ∣ one' := by unfold one'; exact pow_dvd_pow 2 (by norm_num)
          have hd3 := dvd_sub hd hd2
          exact Int.le_of_dvd (abs_pos.mpr (sub_ne_zero.mpr hn)) ((dvd_abs _ _).mpr hd3)
        · push Not at hb
          rw [abs_of_pos h0] at hb
          have e1 : one' = 2 ^ (52 + 1021) + 2 ^ (52 + 1021) := by unfold one'; rw [← two_mul, ← pow_succ']
          have e2 : (2:ℤ) ^ 1021 ≤ 2 ^ (52 + 1021) := pow_le_pow_right₀ (by norm_num) (by norm_num)
          clear hge
          rw [e1]
          generalize (2:ℤ) ^ (52 + 1021) = K at *
          generalize (2:ℤ) ^ 1021 = J at *
          rw [abs_of_nonpos (by omega)]
          omega
      have hd : 1 / 2 ^ 53 ≤ |fr h - 1| := by
        have e1 : fr h - 1 = ((n - one' : ℤ) : ℝ) / one' := by
          rw [e]; push_cast; field_simp
        rw [e1, abs_div, abs_of_pos hone, le_div_iff₀ hone]
        have e2 : one' = 2 ^ 53 * 2 ^ 1021 := by unfold one'; rw [← pow_add]
        have e3 : 1 / 2 ^ 53 * (one' : ℝ) = 2 ^ 1021 := by
          rw [e2]; push_cast; rw [← mul_assoc]
          generalize (2:ℝ) ^ 1021 = J
          norm_num
        rw [e3]
        exact_mod_cast hdiff
      have l1 := Real.log_le_sub_one_of_pos hp
      have l2 := Real.log_le_sub_one_of_pos (inv_pos.mpr hp)
      rw [Real.log_inv] at l2
      rcases le_total 1 (fr h) with hc | hc
      · rw [abs_of_nonneg (by linarith)] at hd
        have h3 : (fr h)⁻¹ ≤ 1 - 1 / 2 ^ 54 := by
          rw [inv_le_comm₀ hp (by norm_num)]
          refine le_trans ?_ (show 1 + 1 / 2 ^ 53 ≤ fr h by linarith)
          rw [inv_le_comm₀ (by norm_num) (by norm_num)]
          norm_num
        have h4 : 1 / 2 ^ 54 ≤ Real.log (fr h) := by linarith
        exact le_trans (by norm_num) (h4.trans (le_abs_self _))
      · rw [abs_of_nonpos (by linarith)] at hd
        have h4 : 1 / 2 ^ 53 ≤ -Real.log (fr h) := by linarith
        exact le_trans (by norm_num) (h4.trans (neg_le_abs _))
  · have hlt : fr h ≤ 2 ^ 1024 := by
      have := i.lt
      have h1 : n < ovf := lt_of_abs_lt this
      rw [e, div_le_iff₀ hone]
      have e1 : (2:ℤ) ^ 1024 * one' = ovf := by unfold one' ovf; rw [← pow_add]
      have : n ≤ 2 ^ 1024 * one' := by rw [e1]; exact h1.le
      exact_mod_cast this
    have l0 : 0 < Real.log 2 := Real.log_pos (by norm_num)
    have l1 : Real.log 2 ≤ 1 := by
      have := Real.log_le_sub_one_of_pos (show (0:ℝ) < 2 by norm_num); linarith
    have u1 : Real.log (fr h) ≤ 1024 * Real.log 2 := by
      have := Real.log_le_log hp hlt
      rw [Real.log_pow] at this
      exact_mod_cast this
    have u2 : -(1074 * Real.log 2) ≤ Real.log (fr h) := by
      have := Real.log_le_log (div_pos one_pos (pow_pos (by norm_num) _)) hge
      rw [one_div, Real.log_inv, Real.log_pow] at this
      exact_mod_cast this
    rw [abs_le]
    constructor
    · norm_num; linarith
    · norm_num; linarith

open Classical in
/-- A platform whose logarithms are as required. -/
noncomputable def logPlatform : Platform where
  ln h := if hh : h.isFinite = true ∧ 0 < fr h then (exists_fr (log_range hh.1 hh.2).1 (log_range hh.1 hh.2).2).choose else F64.NAN
  exp x := x
  log2 y := if y = F64.zero then F64.NEG_INFINITY else F64.ofInt ⌊Real.logb 2 (fr y)⌋
  log10 x := x
  atan2 x _ := x
  toStr _ := []
  toStr32 _ := []

/-- The requirement of the theorems about logarithms is satisfiable. -/
theorem logPlatform_ok : LibmLogs logPlatform := by
  refine ⟨?_, ?_, ?_⟩
  · intro h hf hp
    have hp' : 0 < fr h := by unfold fr; exact_mod_cast hp
    have hh : h.isFinite = true ∧ 0 < fr h := ⟨hf, hp'⟩
    unfold logPlatform
    simp only [dif_pos hh]
    exact (exists_fr (log_range hh.1 hh.2).1 (log_range hh.1 hh.2).2).choose_spec
  · intro y hf hp
    have hp' : 0 < fr y := by unfold fr; exact_mod_cast hp
    have hz : y ≠ F64.zero := by
      rintro rfl
      have : fr F64.zero = 0 := by rw [fr_is is_zero]; simp
      rw [this] at hp'; exact lt_irrefl _ hp'
    unfold logPlatform
    simp only [if_neg hz]
    have hb := (log_range hf hp').2
    have l0 : 1 / 2 ≤ Real.log 2 := by have := fr_ln2.2.1; norm_num at this; linarith
    have hlb : |Real.logb 2 (fr y)| ≤ 2 ^ 20 := by
      have hlt : fr y ≤ 2 ^ 1024 := by
        have i := Is.of_finite hf
        have hone : (0:ℝ) < (one' : ℝ) := by exact_mod_cast one'_pos
        have h1 : y.units < ovf := lt_of_abs_lt i.lt
        rw [fr_is i, div_le_iff₀ hone]
        have e1 : (2:ℤ) ^ 1024 * one' = ovf := by unfold one' ovf; rw [← pow_add]
        have : y.units ≤ 2 ^ 1024 * one' := by rw [e1]; exact h1.le
        exact_mod_cast this
      have u1 : Real.logb 2 (fr y) ≤ 1024 := by
        have := Real.logb_le_logb_of_le (b := 2) (by norm_num) hp' hlt
        rw [Real.logb_pow, Real.logb_self_eq_one (by norm_num)] at this
        exact_mod_cast this
      have u2 : -1074 ≤ Real.logb 2 (fr y) := by
        have := Real.logb_le_logb_of_le (b := 2) (by norm_num) (div_pos one_pos (pow_pos (by norm_num) _)) (fr_pos_ge hf hp')
        rw [one_div, Real.logb_inv, Real.logb_pow, Real.logb_self_eq_one (by norm_num)] at this
        exact_mod_cast this
      rw [abs_le]; norm_num
      constructor <;> linarith
    have hfl := Int.floor_le (Real.logb 2 (fr y))
    have hlf := Int.lt_floor_add_one (Real.logb 2 (fr y))
    have hlb' := abs_le.mp hlb
    have i := is_ofInt (n := ⌊Real.logb 2 (fr y)⌋) (by
      have h1 : ((⌊Real.logb 2 (fr y)⌋ : ℤ) : ℝ) ≤ 2 ^ 53 := by norm_num at hlb' ⊢; linarith [hlb'.2]
      have h2 : -2 ^ 53 ≤ ((⌊Real.logb 2 (fr y)⌋ : ℤ) : ℝ) := by norm_num at hlb' ⊢; linarith [hlb'.1]
      rw [abs_le]
      constructor
      · exact_mod_cast h2
      · exact_mod_cast h1)
    refine ⟨i.1, ?_⟩
    change |fr (F64.ofInt ⌊Real.logb 2 (fr y)⌋) - Real.logb 2 (fr y)| ≤ 1
    rw [fr_is i]
    have hone : (one' : ℝ) ≠ 0 := by exact_mod_cast one'_pos.ne'
    push_cast
    rw [mul_div_cancel_right₀ _ hone, abs_le]
    constructor <;> linarith
  · unfold logPlatform; simp

end Verif
