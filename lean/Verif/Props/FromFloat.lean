import Verif.SpecPlatform
import Verif.Props.ToQuad
import Verif.Proofs.Ln
import Verif.Proofs.DisplayAcc

/-!
# C66: `Double::from(f64)`
-/

namespace Verif

theorem mantissa_clean {m : List Char} (h : Mantissa m) : cleaned m = m := by
  apply cleaned_id
  intro c hc
  rcases h.chars c hc with h | rfl | rfl | h
  · exact ⟨(digit_plain h).1, (digit_plain h).2.1⟩
  · decide
  · decide
  · rcases h with rfl | rfl <;> decide

theorem mantissa_num {m : List Char} (h : Mantissa m) : NumText (cleaned m) m 0 := by
  rw [mantissa_clean h]
  exact ⟨[], by simp, h, Or.inl ⟨rfl, rfl⟩⟩

/-- The parsed text of a number of ordinary size. -/
theorem parse_text {toStr : F64 → List Char} (hP : FloatText toStr) {x : F64} (hx : x.isFinite = true)
    (h1 : 1 ≤ |x.toRat| * 2 ^ 890) (h2 : |x.toRat| ≤ 2 ^ 1000) :
    ∃ v, Double.fromStr (toStr x) = some (.ok v) ∧ v.Normalized ∧ |v.val - x.toRat| * 2 ^ 52 ≤ |x.toRat| := by
  have hp0 : (0:ℚ) < 2 ^ 890 := pow_pos (by norm_num) _
  have hx0 : x.toRat ≠ 0 := by
    intro h; rw [h, abs_zero, zero_mul] at h1; norm_num at h1
  have hm := hP.mantissa x hx hx0
  have hl := hP.length x hx hx0
  have hn := hP.near x hx (h1.trans (mul_le_mul_of_nonneg_left (pow_le_pow_right₀ (by norm_num) (by norm_num)) (abs_nonneg _)))
  have hsh := hP.short x hx hx0
  have hsg := hP.sign x hx hx0
  generalize toStr x = m at *
  have hX0 : 0 < |x.toRat| := abs_pos.mpr hx0
  have hden : (intOf m : ℚ) / 10 ^ fracDigits m = (intOf m : ℚ) * 10 ^ (-(fracDigits m : ℤ)) := by
    rw [zpow_neg, zpow_natCast, div_eq_mul_inv]
  have hd := abs_le.mp (show |(intOf m : ℚ) / 10 ^ fracDigits m - (|x.toRat|)| ≤ |x.toRat| / 2 ^ 53 by
    rw [le_div_iff₀ (by positivity)]; exact hn)
  have lo : |x.toRat| * (1 / 2) ≤ (intOf m : ℚ) / 10 ^ fracDigits m := by
    have := hd.1
    have h3 : |x.toRat| / 2 ^ 53 ≤ |x.toRat| * (1 / 2) := by
      rw [div_eq_mul_inv]; exact mul_le_mul_of_nonneg_left (by norm_num) hX0.le
    linarith
  have hi : (intOf m : ℚ) / 10 ^ fracDigits m ≤ |x.toRat| * 2 := by
    have := hd.2
    have h3 : |x.toRat| / 2 ^ 53 ≤ |x.toRat| := div_le_self hX0.le (one_le_pow₀ (by norm_num))
    linarith
  have hten : (0:ℚ) < 10 ^ fracDigits m := by positivity
  have hN0 : intOf m ≠ 0 := by
    intro h
    rw [h] at lo
    simp only [Nat.cast_zero, zero_div] at lo
    linarith
  -- the number of digits after the point
  have hfrac : fracDigits m ≤ 288 := by
    rcases hsh with h | h
    · omega
    · by_contra hc
      have h3 : (10:ℚ) ^ 289 ≤ 10 ^ fracDigits m := pow_le_pow_right₀ (by norm_num) (by omega)
      have h4 : (intOf m : ℚ) ≤ 10 ^ 17 := by exact_mod_cast h.le
      have h5 : (intOf m : ℚ) / 10 ^ fracDigits m ≤ 10 ^ 17 / 10 ^ 289 :=
        div_le_div₀ (by positivity) h4 (by positivity) h3
      have h6 : |x.toRat| ≤ 2 * (10 ^ 17 / 10 ^ 289) := by linarith
      have h7 : |x.toRat| * 2 ^ 890 ≤ 2 * (10 ^ 17 / 10 ^ 289) * 2 ^ 890 := mul_le_mul_of_nonneg_right h6 hp0.le
      have h8 : (2:ℚ) * (10 ^ 17 / 10 ^ 289) * 2 ^ 890 < 1 := by
        have : (2:ℚ) * 10 ^ 17 * 2 ^ 890 < 10 ^ 289 := by
          have : (2:ℕ) * 10 ^ 17 * 2 ^ 890 < 10 ^ 289 := by decide +kernel
          exact_mod_cast this
        have hp : (0:ℚ) < 10 ^ 289 := by positivity
        rw [mul_div_assoc', div_mul_eq_mul_div, div_lt_one hp]
        exact this
      exact absurd (h1.trans h7) (not_le.mpr h8)
  have hdl : (digitsOf m).length ≤ 2000 := (digits_le m).trans hl
  obtain ⟨v, hv, vn, ve⟩ := C60_accurate m m 0 (-(fracDigits m : ℤ)) (by omega) (mantissa_num hm) (by ring)
    (by rw [abs_neg, Nat.abs_cast]; omega) hN0
    (by
      rcases hsh with h | h
      · rw [h, pow_zero, div_one] at hi
        refine hi.trans ?_
        have : (2:ℚ) ^ 1010 = 2 ^ 1000 * 2 ^ 10 := by rw [← pow_add]
        rw [this]
        exact mul_le_mul h2 (by norm_num) (by norm_num) (pow_nonneg (by norm_num) _)
      · have h4 : (intOf m : ℚ) ≤ 10 ^ 17 := by exact_mod_cast h.le
        refine h4.trans ?_
        have : (10:ℚ) ^ 17 ≤ 2 ^ 60 := by norm_num
        exact this.trans (pow_le_pow_right₀ (by norm_num) (by norm_num)))
    (by
      rw [← hden]
      have : (2:ℚ) ^ 960 = 2 ^ 890 * 2 ^ 70 := by rw [← pow_add]
      rw [this, ← mul_assoc]
      have h3 : 1 / 2 ≤ (intOf m : ℚ) / 10 ^ fracDigits m * 2 ^ 890 := by
        have := mul_le_mul_of_nonneg_right lo hp0.le
        rw [mul_right_comm] at this
        refine le_trans ?_ this
        generalize |x.toRat| * 2 ^ 890 = q at *
        linarith
      calc (1:ℚ) ≤ 1 / 2 * 2 ^ 70 := by norm_num
        _ ≤ _ := mul_le_mul_of_nonneg_right h3 (by positivity))
    (by
      rw [← hden]
      refine hi.trans ?_
      have : (2:ℚ) ^ 1020 = 2 ^ 1000 * 2 ^ 20 := by rw [← pow_add]
      rw [this]
      exact mul_le_mul h2 (by norm_num) (by norm_num) (pow_nonneg (by norm_num) _))
  refine ⟨v, hv, vn, ?_⟩
  rw [← hden] at ve
  rw [abs_neg, Nat.abs_cast] at ve
  clear hp0 h1 h2
  have hx1 : x.toRat = (if '-' ∈ m then -1 else 1) * |x.toRat| := by
    by_cases hs : x.toRat < 0
    · rw [if_pos (hsg.mpr hs), abs_of_neg hs]; ring
    · rw [if_neg (fun h => hs (hsg.mp h)), abs_of_nonneg (not_lt.mp hs)]; ring
  have hs1 : |(if '-' ∈ m then -1 else 1 : ℚ)| = 1 := by split_ifs <;> norm_num
  generalize (if '-' ∈ m then -1 else 1 : ℚ) = σ at *
  generalize (intOf m : ℚ) / 10 ^ fracDigits m = N at *
  have hL : (((digitsOf m).length : ℚ) + (((fracDigits m : ℕ) : ℤ) : ℚ) + 2) ≤ 2 ^ 12 := by
    have a1 : ((digitsOf m).length : ℚ) ≤ 2000 := by exact_mod_cast hdl
    have a2 : (((fracDigits m : ℕ) : ℤ) : ℚ) ≤ 288 := by exact_mod_cast hfrac
    exact (show _ ≤ (2000 + 288 + 2 : ℚ) by linarith).trans (by norm_num)
  have e1 : |v.val - σ * N| * 2 ^ 99 ≤ 2 ^ 12 * (|x.toRat| * 2) := by
    refine ve.trans ?_
    have : 0 ≤ N := le_trans (by positivity) lo
    exact mul_le_mul hL hi this (by norm_num)
  have e2 : |σ * N - x.toRat| * 2 ^ 53 ≤ |x.toRat| := by
    have : σ * N - x.toRat = σ * (N - |x.toRat|) := by
      conv_lhs => rw [hx1]
      rw [mul_sub, ← hx1]
    rw [this, abs_mul, hs1, one_mul]; exact hn
  have e3 := abs_add_le (v.val - σ * N) (σ * N - x.toRat)
  rw [sub_add_sub_cancel] at e3
  generalize |v.val - σ * N| = A at *
  generalize |σ * N - x.toRat| = B at *
  generalize |v.val - x.toRat| = C at *
  norm_num at e1 e2 ⊢
  linarith

/-- **C66.** Zeros keep their sign, infinities and NaN convert to themselves, integers (and every `f64` without a fractional
part) convert exactly — on any platform. -/
theorem C66_special (P : Platform) (x : F64) :
    (F64.eq x F64.zero = true → x.isSignNegative = false → Double.ofF64 P x = some Double.ZERO) ∧
    (F64.eq x F64.zero = true → x.isSignNegative = true → Double.ofF64 P x = some Double.NEG_ZERO) ∧
    (x.isNan = true → Double.ofF64 P x = some Double.NAN) ∧
    (x = F64.INFINITY → Double.ofF64 P x = some Double.INFINITY) ∧
    (x = F64.NEG_INFINITY → Double.ofF64 P x = some Double.NEG_INFINITY) ∧
    (x.isFinite = true → F64.eq x F64.zero = false → F64.eq (F64.fract x) F64.zero = true → Double.ofF64 P x = some ⟨x, F64.zero⟩) := by
  refine ⟨?_, ?_, ?_, ?_, ?_, ?_⟩
  · intro h1 h2
    unfold Double.ofF64 ofFloat
    rw [if_pos h1, if_neg (by rw [h2]; simp)]
    exact congrArg some (by decide +kernel)
  · intro h1 h2
    unfold Double.ofF64 ofFloat
    rw [if_pos h1, if_pos h2]
    exact congrArg some (by decide +kernel)
  · intro h
    have h1 : F64.eq x F64.zero = false := by
      cases x with
      | nan s => simp [F64.eq, F64.key]
      | inf s => cases h
      | fin s m p => cases h
    unfold Double.ofF64 ofFloat
    rw [if_neg (by rw [h1]; simp), if_pos h]
  · rintro rfl
    unfold Double.ofF64 ofFloat
    have h1 : F64.eq F64.INFINITY F64.zero = false ∧ F64.INFINITY.isNan = false ∧ F64.INFINITY.isInfinite = true ∧
      F64.INFINITY.isSignNegative = false := by decide +kernel
    rw [if_neg (by rw [h1.1]; simp), if_neg (by rw [h1.2.1]; simp), if_pos h1.2.2.1, if_neg (by rw [h1.2.2.2]; simp)]
    exact congrArg some (by decide +kernel)
  · rintro rfl
    unfold Double.ofF64 ofFloat
    have h1 : F64.eq F64.NEG_INFINITY F64.zero = false ∧ F64.NEG_INFINITY.isNan = false ∧ F64.NEG_INFINITY.isInfinite = true ∧
      F64.NEG_INFINITY.isSignNegative = true := by decide +kernel
    rw [if_neg (by rw [h1.1]; simp), if_neg (by rw [h1.2.1]; simp), if_pos h1.2.2.1, if_pos h1.2.2.2]
    exact congrArg some (by decide +kernel)
  · intro h1 h0 h2
    have hd : Util.isDyadic P x = some true := by
      unfold Util.isDyadic; dsimp only; rw [if_pos h2]
    have hn : x.isNan = false ∧ x.isInfinite = false := by
      cases x with
      | nan s => cases h1
      | inf s => cases h1
      | fin s m p => exact ⟨rfl, rfl⟩
    unfold Double.ofF64 ofFloat
    rw [if_neg (by rw [h0]; simp), if_neg (by rw [hn.1]; simp), if_neg (by rw [hn.2]; simp), hd]

/-- The fractional part of an `f64` is exact and below one. -/
theorem fract_lt_one {x : F64} (hx : x.isFinite = true) : (F64.fract x).isFinite = true ∧ |(F64.fract x).toRat| < 1 := by
  have i := Is.of_finite hx
  generalize x.units = n at i
  have it := Disp.is_trunc i
  set w := truncQ ((n : ℚ) / one') with hw
  have hp := one'_posQ
  have h1 : |(n : ℚ) / one' - w| < 1 ∧ |(n : ℚ) / one' - w| ≤ |(n : ℚ) / one'| ∧ (w ≠ 0 → (1 : ℚ) ≤ |(w : ℚ)|) := by
    refine ⟨?_, ?_, fun h => ?_⟩
    · rw [hw]; unfold truncQ
      split_ifs with h
      · rw [abs_lt]; constructor <;> linarith [Int.floor_le ((n : ℚ) / one'), Int.lt_floor_add_one ((n : ℚ) / one')]
      · rw [abs_lt]; constructor <;> linarith [Int.le_ceil ((n : ℚ) / one'), Int.ceil_lt_add_one ((n : ℚ) / one')]
    · rw [hw]; unfold truncQ
      split_ifs with h
      · have h2 : (0:ℚ) ≤ (⌊(n : ℚ) / one'⌋ : ℤ) := by exact_mod_cast Int.floor_nonneg.mpr h
        rw [abs_of_nonneg h, abs_of_nonneg (by linarith [Int.floor_le ((n : ℚ) / one')])]
        linarith
      · push Not at h
        have h2' : ⌈(n : ℚ) / one'⌉ ≤ 0 := Int.ceil_le.mpr (by rw [Int.cast_zero]; exact h.le)
        have h2 : ((⌈(n : ℚ) / one'⌉ : ℤ) : ℚ) ≤ 0 := by exact_mod_cast h2'
        rw [abs_of_neg h, abs_of_nonpos (by linarith [Int.le_ceil ((n : ℚ) / one')])]
        linarith
    · exact_mod_cast Int.one_le_abs h
  obtain ⟨h1, h2, h3⟩ := h1
  have e : (n : ℚ) / one' - w = ((n + -(w * one') : ℤ) : ℚ) / one' := by
    push_cast; rw [add_div, neg_div, mul_div_cancel_right₀ _ one'_ne]; ring
  rw [e, abs_div_one'] at h1 h2
  rw [abs_div_one', div_le_div_iff_of_pos_right hp] at h2
  rw [div_lt_one hp] at h1
  have h1' : |n + -(w * one')| < one' := by exact_mod_cast h1
  have h2' : |n + -(w * one')| ≤ |n| := by exact_mod_cast h2
  have hrep : Rep (n + -(w * one')) := by
    by_cases h0 : w = 0
    · rw [h0]; simpa using i.rep
    · refine rep_add_of_le i.rep (it.rep.neg) h2' ?_
      rw [abs_neg, abs_mul, abs_of_pos one'_pos]
      have : 1 ≤ |w| := Int.one_le_abs h0
      nlinarith [one'_pos]
  have is := i.sub it (by
    have hw : (2:ℤ) ^ 1022 * one' ≤ omegaUnits := by exact_mod_cast big_le_omega
    have hb : (one' : ℤ) ≤ 2 ^ 1022 * one' := le_mul_of_one_le_left one'_pos.le (one_le_pow₀ (by norm_num))
    have hh : |n - w * one'| ≤ 2 ^ 1022 * one' := by rw [sub_eq_add_neg]; exact h1'.le.trans hb
    exact hh.trans hw)
  rw [sub_eq_add_neg, rnd_of_rep hrep] at is
  refine ⟨is.1, ?_⟩
  change |(F64.sub x x.trunc).toRat| < 1
  rw [is.toRat, abs_div_one', div_lt_one hp]
  exact h1

/-- **C66.** A number of ordinary size converts without a panic to a normalized Double within `2^-52` (relative) of it, when
`f64::to_string` is as documented. -/
theorem C66_accurate (P : Platform) (hP : FloatText P.toStr) (x : F64) (hx : x.isFinite = true)
    (h1 : 1 ≤ |x.toRat| * 2 ^ 890) (h2 : |x.toRat| ≤ 2 ^ 1000) :
    ∃ v, Double.ofF64 P x = some v ∧ v.Normalized ∧ |v.val - x.toRat| * 2 ^ 52 ≤ |x.toRat| := by
  have hx0 : x.toRat ≠ 0 := by
    intro h; rw [h, abs_zero, zero_mul] at h1; norm_num at h1
  have i := Is.of_finite hx
  have hz : F64.eq x F64.zero = false := by
    by_contra hc
    have hc : F64.eq x F64.zero = true := by simpa using hc
    rw [i.eq_iff is_zero] at hc
    apply hx0
    rw [i.toRat, hc]; norm_num
  unfold Double.ofF64 ofFloat
  obtain ⟨s, m, hm, rfl, -⟩ := i.exists
  rw [if_neg (by rw [hz]; simp), if_neg (by simp [F64.isNan]), if_neg (by simp [F64.isInfinite])]
  have exact : ∃ v, some (⟨F64.fin s m hm, F64.zero⟩ : Double) = some v ∧ v.Normalized ∧
      |v.val - (F64.fin s m hm).toRat| * 2 ^ 52 ≤ |(F64.fin s m hm).toRat| := by
    refine ⟨_, rfl, (ap_f64 hx).1, ?_⟩
    have : (⟨F64.fin s m hm, F64.zero⟩ : Double).val = (F64.fin s m hm).toRat := by
      have d : DIs (⟨F64.fin s m hm, F64.zero⟩ : Double) _ 0 := ⟨i, is_zero⟩
      rw [d.val, i.toRat]; push_cast; rw [add_zero]
    rw [this, sub_self]; simp
  cases hd : Util.isDyadic P (F64.fin s m hm) with
  | none =>
    exfalso
    unfold Util.isDyadic at hd
    obtain ⟨f1, f2⟩ := fract_lt_one hx
    by_cases hf : F64.eq (F64.fract (F64.fin s m hm)) F64.zero = true
    · simp [hf] at hd
    · have := hP.two _ f1 (by
        intro hc
        apply hf
        have j := Is.of_finite f1
        rw [j.eq_iff is_zero]
        rw [j.toRat, div_eq_zero_iff] at hc
        rcases hc with hc | hc
        · exact_mod_cast hc
        · exact absurd hc one'_ne) f2
      simp only [hf] at hd
      rw [if_neg (not_lt.mpr this)] at hd
      simp at hd
  | some b =>
    cases b with
    | true => exact exact
    | false =>
      obtain ⟨v, hv, r⟩ := parse_text hP hx h1 h2
      simp only [hv]
      exact ⟨v, rfl, r⟩

end Verif
