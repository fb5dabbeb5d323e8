import Verif.Props.QuadParseAcc
import Verif.Props.FromFloat
import Verif.Proofs.QuadHyper

/-!
# C80: `Quad::from(f64)`
-/

namespace Verif

open F64 Prim Util Quad

/-- The parsed text of a number of ordinary size. -/
theorem qparse_text {toStr : F64 → List Char} (hP : FloatText toStr) {x : F64} (hx : x.isFinite = true)
    (h1 : 1 ≤ |x.toRat| * 2 ^ 700) (h2 : |x.toRat| ≤ 2 ^ 890) :
    ∃ v, Quad.fromStr (toStr x) = some (.ok v) ∧ QA v (fr x) (|fr x| / 2 ^ 52) (|fr x| * (51 / 50)) := by
  have hp0 : (0:ℚ) < 2 ^ 700 := pow_pos (by norm_num) _
  have hx0 : x.toRat ≠ 0 := by
    intro h; rw [h, abs_zero, zero_mul] at h1; norm_num at h1
  have hm := hP.mantissa x hx hx0
  have hl := hP.length x hx hx0
  have hn := hP.near x hx (h1.trans (mul_le_mul_of_nonneg_left (pow_le_pow_right₀ (by norm_num) (by norm_num)) (abs_nonneg _)))
  have hsh := hP.short x hx hx0
  have hsg := hP.sign x hx hx0
  generalize toStr x = m at *
  have hX0 : 0 < |x.toRat| := abs_pos.mpr hx0
  have hden : (intOf m : ℚ) / 10 ^ fracDigits m = (intOf m : ℚ) * 10 ^ (-(fracDigits m : ℤ)) := by
    rw [zpow_neg, zpow_natCast, div_eq_mul_inv]
  have hd := abs_le.mp (show |(intOf m : ℚ) / 10 ^ fracDigits m - (|x.toRat|)| ≤ |x.toRat| / 2 ^ 53 by
    rw [le_div_iff₀ (by positivity)]; exact hn)
  have lo : |x.toRat| * (1 / 2) ≤ (intOf m : ℚ) / 10 ^ fracDigits m := by
    have := hd.1
    have h3 : |x.toRat| / 2 ^ 53 ≤ |x.toRat| * (1 / 2) := by
      rw [div_eq_mul_inv]; exact mul_le_mul_of_nonneg_left (by norm_num) hX0.le
    linarith
  have hi : (intOf m : ℚ) / 10 ^ fracDigits m ≤ |x.toRat| * 2 := by
    have := hd.2
    have h3 : |x.toRat| / 2 ^ 53 ≤ |x.toRat| := div_le_self hX0.le (one_le_pow₀ (by norm_num))
    linarith
  have hten : (0:ℚ) < 10 ^ fracDigits m := by positivity
  have hN0 : intOf m ≠ 0 := by
    intro h
    rw [h] at lo
    simp only [Nat.cast_zero, zero_div] at lo
    linarith
  have e895 : (2:ℚ) ^ 895 = 2 ^ 225 * 2 ^ 225 * 2 ^ 225 * 2 ^ 220 := by simp only [← pow_add]
  have e835 : (2:ℚ) ^ 835 = 2 ^ 210 * 2 ^ 210 * (2 ^ 210 * 2 ^ 205) := by simp only [← pow_add]
  have h2x : |x.toRat| * 2 ≤ 2 ^ 895 := by
    have : (2:ℚ) ^ 895 = 2 ^ 890 * 2 ^ 5 := by rw [← pow_add]
    rw [this]
    exact mul_le_mul h2 (by norm_num) (by norm_num) (pow_nonneg (by norm_num) _)
  -- the number of digits after the point
  have hfrac : fracDigits m ≤ 228 := by
    rcases hsh with h | h
    · omega
    · by_contra hc
      have h3 : (10:ℚ) ^ 229 ≤ 10 ^ fracDigits m := pow_le_pow_right₀ (by norm_num) (by omega)
      have h4 : (intOf m : ℚ) ≤ 10 ^ 17 := by exact_mod_cast h.le
      have h5 : (intOf m : ℚ) / 10 ^ fracDigits m ≤ 10 ^ 17 / 10 ^ 229 :=
        div_le_div₀ (by positivity) h4 (by positivity) h3
      have h6 : |x.toRat| ≤ 2 * (10 ^ 17 / 10 ^ 229) := by
        have := lo.trans h5
        clear h1 h2 h2x e895 e835
        generalize (10:ℚ) ^ 17 / 10 ^ 229 = q at *
        linarith
      have h7 : |x.toRat| * 2 ^ 700 ≤ 2 * (10 ^ 17 / 10 ^ 229) * 2 ^ 700 := mul_le_mul_of_nonneg_right h6 hp0.le
      have h8 : (2:ℚ) * (10 ^ 17 / 10 ^ 229) * 2 ^ 700 < 1 := by
        have : (2:ℚ) * 10 ^ 17 * 2 ^ 700 < 10 ^ 229 := by
          have : (2:ℕ) * 10 ^ 17 * 2 ^ 700 < 10 ^ 229 := by decide +kernel
          exact_mod_cast this
        have hp : (0:ℚ) < 10 ^ 229 := by positivity
        rw [mul_div_assoc', div_mul_eq_mul_div, div_lt_one hp]
        exact this
      exact absurd (h1.trans h7) (not_le.mpr h8)
  have hdl : (digitsOf m).length ≤ 2000 := (digits_le m).trans hl
  have hN2 : (intOf m : ℚ) ≤ 2 ^ 895 := by
    rcases hsh with h | h
    · rw [h, pow_zero, div_one] at hi
      exact hi.trans h2x
    · have h4 : (intOf m : ℚ) ≤ 10 ^ 17 := by exact_mod_cast h.le
      refine h4.trans ?_
      have : (10:ℚ) ^ 17 ≤ 2 ^ 60 := by norm_num
      exact this.trans (pow_le_pow_right₀ (by norm_num) (by norm_num))
  have hlo : 1 ≤ (intOf m : ℚ) * 10 ^ (-(fracDigits m : ℤ)) * 2 ^ 835 := by
    rw [← hden]
    have : (2:ℚ) ^ 835 = 2 ^ 700 * 2 ^ 135 := by rw [← pow_add]
    rw [this, ← mul_assoc]
    have h3 : 1 / 2 ≤ (intOf m : ℚ) / 10 ^ fracDigits m * 2 ^ 700 := by
      have := mul_le_mul_of_nonneg_right lo hp0.le
      rw [mul_right_comm] at this
      refine le_trans ?_ this
      generalize |x.toRat| * 2 ^ 700 = q at *
      linarith
    calc (1:ℚ) ≤ 1 / 2 * 2 ^ 135 := by norm_num
      _ ≤ _ := mul_le_mul_of_nonneg_right h3 (by positivity)
  have hhi : (intOf m : ℚ) * 10 ^ (-(fracDigits m : ℤ)) ≤ 2 ^ 895 := by
    rw [← hden]; exact hi.trans h2x
  rw [e895] at hN2 hhi
  rw [e835] at hlo
  obtain ⟨v, hv, hq⟩ := qparse_main m m 0 (-(fracDigits m : ℤ)) (by omega) (mantissa_num hm) (by ring)
    (by rw [abs_neg, Nat.abs_cast]; omega) hN0 (by exact_mod_cast hN2)
    (by have := (Rat.cast_le (K := ℝ)).mpr hlo; push_cast at this; push_cast; exact this)
    (by have := (Rat.cast_le (K := ℝ)).mpr hhi; push_cast at this; push_cast; exact this)
  refine ⟨v, hv, ?_⟩
  have hdenR : (intOf m : ℝ) * (10:ℝ) ^ (-(fracDigits m : ℤ)) = ((intOf m : ℚ) / 10 ^ fracDigits m : ℚ) := by
    rw [hden]; push_cast; rfl
  have hkR : |((-(fracDigits m : ℤ) : ℤ) : ℝ)| ≤ 228 := by
    push_cast; rw [abs_neg, Nat.abs_cast]; exact_mod_cast hfrac
  have hLR : ((digitsOf m).length : ℝ) ≤ 2000 := by exact_mod_cast hdl
  rw [hdenR] at hq
  clear hp0 h1 h2 h2x hlo hhi hN2 e895 e835
  have hx1 : x.toRat = (if '-' ∈ m then -1 else 1) * |x.toRat| := by
    by_cases hs : x.toRat < 0
    · rw [if_pos (hsg.mpr hs), abs_of_neg hs]; ring
    · rw [if_neg (fun h => hs (hsg.mp h)), abs_of_nonneg (not_lt.mp hs)]; ring
  have hs1 : |(if '-' ∈ m then -1 else 1 : ℝ)| = 1 := by split_ifs <;> norm_num
  have hx2 : fr x = (if '-' ∈ m then -1 else 1 : ℝ) * |fr x| := by
    unfold fr
    have := congrArg (fun q : ℚ => (q : ℝ)) hx1
    split_ifs at this ⊢ <;> (push_cast at this; exact this)
  have lo' : |fr x| * (1 / 2) ≤ (((intOf m : ℚ) / 10 ^ fracDigits m : ℚ) : ℝ) := by
    have := (Rat.cast_le (K := ℝ)).mpr lo
    unfold fr; push_cast at this ⊢; exact this
  have hn' : |(((intOf m : ℚ) / 10 ^ fracDigits m : ℚ) : ℝ) - (|fr x|)| * 2 ^ 53 ≤ |fr x| := by
    have := (Rat.cast_le (K := ℝ)).mpr hn
    unfold fr; push_cast at this ⊢; exact this
  have hx3 : 0 < |fr x| := by unfold fr; exact abs_pos.mpr (by exact_mod_cast hx0)
  generalize (if '-' ∈ m then -1 else 1 : ℝ) = σ at *
  generalize (((intOf m : ℚ) / 10 ^ fracDigits m : ℚ) : ℝ) = N at *
  have hN : 0 < N := by linarith
  unfold QR at hq
  rw [abs_mul, hs1, one_mul, abs_of_pos hN] at hq
  have hmv := hq.move (y := fr x) (d := |fr x| / 2 ^ 53) (by
    rw [hx2, ← mul_sub, abs_mul, hs1, one_mul, abs_mul, hs1, one_mul, abs_abs, le_div_iff₀ (by positivity)]
    exact hn')
  have hNhi : N ≤ |fr x| * (1 + 1 / 2 ^ 53) := by
    have h3 := (abs_le.mp (show |N - (|fr x|)| ≤ |fr x| / 2 ^ 53 by rw [le_div_iff₀ (by positivity)]; exact hn')).2
    linarith
  refine hmv.mono ?_ ?_
  · have : N * (512 * (((digitsOf m).length : ℝ) + |((-(fracDigits m : ℤ) : ℤ) : ℝ)| + 3) / 2 ^ 137) ≤ N * (1 / 2 ^ 60) := by
      refine mul_le_mul_of_nonneg_left ?_ hN.le
      generalize |((-(fracDigits m : ℤ) : ℤ) : ℝ)| = t at *
      linarith
    generalize N * (512 * (((digitsOf m).length : ℝ) + |((-(fracDigits m : ℤ) : ℤ) : ℝ)| + 3) / 2 ^ 137) = w at *
    norm_num at this hNhi ⊢; linarith
  · norm_num at hNhi ⊢; linarith

/-- An `f64` taken as it is. -/
theorem qa_f64 {x : F64} (hx : x.isFinite = true) : QA ⟨x, F64.zero, F64.zero, F64.zero⟩ (fr x) 0 |fr x| := by
  have i := Is.of_finite hx
  have h := qa_single i
  have e : fr x = (x.units : ℝ) / one' := fr_is i
  rw [e, abs_div, abs_of_pos (show (0:ℝ) < one' by exact_mod_cast one'_pos)]
  exact h

/-- The conversion of a number of ordinary size. -/
theorem qof_f64 (P : Platform) (hP : FloatText P.toStr) {x : F64} (hx : x.isFinite = true)
    (h1 : 1 ≤ |x.toRat| * 2 ^ 700) (h2 : |x.toRat| ≤ 2 ^ 890) :
    ∃ v, Quad.ofF64 P x = some v ∧ QA v (fr x) (|fr x| / 2 ^ 52) (|fr x| * (51 / 50)) := by
  have hx0 : x.toRat ≠ 0 := by
    intro h; rw [h, abs_zero, zero_mul] at h1; norm_num at h1
  have i := Is.of_finite hx
  have hz : F64.eq x F64.zero = false := by
    by_contra hc
    have hc : F64.eq x F64.zero = true := by simpa using hc
    rw [i.eq_iff is_zero] at hc
    apply hx0
    rw [i.toRat, hc]; norm_num
  have hq := (qa_f64 hx).mono (show 0 ≤ |fr x| / 2 ^ 52 by positivity) (show |fr x| ≤ |fr x| * (51 / 50) by
    have := abs_nonneg (fr x); linarith)
  unfold Quad.ofF64 ofFloat
  obtain ⟨s, m, hm, rfl, -⟩ := i.exists
  rw [if_neg (by rw [hz]; simp), if_neg (by simp [F64.isNan]), if_neg (by simp [F64.isInfinite])]
  cases hd : Util.isDyadic P (F64.fin s m hm) with
  | none =>
    exfalso
    unfold Util.isDyadic at hd
    obtain ⟨f1, f2⟩ := fract_lt_one hx
    by_cases hf : F64.eq (F64.fract (F64.fin s m hm)) F64.zero = true
    · simp [hf] at hd
    · have := hP.two _ f1 (by
        intro hc
        apply hf
        have j := Is.of_finite f1
        rw [j.eq_iff is_zero]
        rw [j.toRat, div_eq_zero_iff] at hc
        rcases hc with hc | hc
        · exact_mod_cast hc
        · exact absurd hc one'_ne) f2
      simp only [hf] at hd
      rw [if_neg (not_lt.mpr this)] at hd
      simp at hd
  | some b =>
    cases b with
    | true => exact ⟨_, rfl, hq⟩
    | false =>
      obtain ⟨v, hv, r⟩ := qparse_text hP hx h1 h2
      simp only [hv]
      exact ⟨v, rfl, r⟩

/-- **C80.** Zeros keep their sign, infinities and NaN convert to themselves, integers (and every `f64` without a fractional
part) convert exactly — on any platform. -/
theorem C80_quad_special (P : Platform) (x : F64) :
    (F64.eq x F64.zero = true → x.isSignNegative = false → Quad.ofF64 P x = some Quad.ZERO) ∧
    (F64.eq x F64.zero = true → x.isSignNegative = true → Quad.ofF64 P x = some Quad.NEG_ZERO) ∧
    (x.isNan = true → Quad.ofF64 P x = some Quad.NAN) ∧
    (x = F64.INFINITY → Quad.ofF64 P x = some Quad.INFINITY) ∧
    (x = F64.NEG_INFINITY → Quad.ofF64 P x = some Quad.NEG_INFINITY) ∧
    (x.isFinite = true → F64.eq x F64.zero = false → F64.eq (F64.fract x) F64.zero = true →
      Quad.ofF64 P x = some ⟨x, F64.zero, F64.zero, F64.zero⟩) := by
  refine ⟨?_, ?_, ?_, ?_, ?_, ?_⟩
  · intro h1 h2
    unfold Quad.ofF64 ofFloat
    rw [if_pos h1, if_neg (by rw [h2]; simp)]
    exact congrArg some (by decide +kernel)
  · intro h1 h2
    unfold Quad.ofF64 ofFloat
    rw [if_pos h1, if_pos h2]
    exact congrArg some (by decide +kernel)
  · intro h
    have h1 : F64.eq x F64.zero = false := by
      cases x with
      | nan s => simp [F64.eq, F64.key]
      | inf s => cases h
      | fin s m p => cases h
    unfold Quad.ofF64 ofFloat
    rw [if_neg (by rw [h1]; simp), if_pos h]
  · rintro rfl
    unfold Quad.ofF64 ofFloat
    have h1 : F64.eq F64.INFINITY F64.zero = false ∧ F64.INFINITY.isNan = false ∧ F64.INFINITY.isInfinite = true ∧
      F64.INFINITY.isSignNegative = false := by decide +kernel
    rw [if_neg (by rw [h1.1]; simp), if_neg (by rw [h1.2.1]; simp), if_pos h1.2.2.1, if_neg (by rw [h1.2.2.2]; simp)]
    exact congrArg some (by decide +kernel)
  · rintro rfl
    unfold Quad.ofF64 ofFloat
    have h1 : F64.eq F64.NEG_INFINITY F64.zero = false ∧ F64.NEG_INFINITY.isNan = false ∧ F64.NEG_INFINITY.isInfinite = true ∧
      F64.NEG_INFINITY.isSignNegative = true := by decide +kernel
    rw [if_neg (by rw [h1.1]; simp), if_neg (by rw [h1.2.1]; simp), if_pos h1.2.2.1, if_pos h1.2.2.2]
    exact congrArg some (by decide +kernel)
  · intro h1 h0 h2
    have hd : Util.isDyadic P x = some true := by
      unfold Util.isDyadic; dsimp only; rw [if_pos h2]
    have hn : x.isNan = false ∧ x.isInfinite = false := by
      cases x with
      | nan s => cases h1
      | inf s => cases h1
      | fin s m p => exact ⟨rfl, rfl⟩
    unfold Quad.ofF64 ofFloat
    rw [if_neg (by rw [h0]; simp), if_neg (by rw [hn.1]; simp), if_neg (by rw [hn.2]; simp), hd]

/-- **C80.** A number of ordinary size converts without a panic to a finite Quad within `2^-52` (relative) of it, when
`f64::to_string` is as documented. -/
theorem C80_quad_accurate (P : Platform) (hP : FloatText P.toStr) (x : F64) (hx : x.isFinite = true)
    (h1 : 1 ≤ |x.toRat| * 2 ^ 700) (h2 : |x.toRat| ≤ 2 ^ 890) :
    ∃ v, Quad.ofF64 P x = some v ∧ v.Fin ∧ |v.val - x.toRat| * 2 ^ 52 ≤ |x.toRat| := by
  obtain ⟨v, hv, hq⟩ := qof_f64 P hP hx h1 h2
  refine ⟨v, hv, hq.fin, ?_⟩
  have := hq.err
  rw [le_div_iff₀ (by positivity)] at this
  unfold qv fr at this
  exact_mod_cast this

/-- Non-triviality: 0.1 meets the hypotheses. -/
example : (F64.ofDec false 1 (-1)).isFinite = true ∧ 1 ≤ |(F64.ofDec false 1 (-1)).toRat| * 2 ^ 700 ∧
    |(F64.ofDec false 1 (-1)).toRat| ≤ 2 ^ 890 ∧ F64.eq (F64.fract (F64.ofDec false 1 (-1))) F64.zero = false := by
  decide +kernel

end Verif
