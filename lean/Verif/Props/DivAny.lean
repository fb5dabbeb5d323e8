import Verif.Proofs.DivWide
import Verif.Proofs.Wide

/-!
# C04: division with a dividend of any size
-/

namespace Verif

open F64

/-- **C04.** The same for every dividend, however small (zero and the subnormal range included), when the divisor is at least
`2^-40` in magnitude: the result is normalized, with relative error `2^-102` and an absolute error of `2^-1010` besides. -/
theorem C04_div_any (a b : Double) (ha : a.Normalized) (hb : b.Normalized) (h0 : 1 ≤ |b.hi.toRat| * 2 ^ 40)
    (ha2 : |a.hi.toRat| ≤ 2 ^ 1020) (hq2 : |a.hi.toRat / b.hi.toRat| ≤ 2 ^ 1020) :
    (a / b).Normalized ∧ |(a / b).val - a.val / b.val| ≤ |a.val / b.val| / 2 ^ 102 + 1 / 2 ^ 1010 := by
  obtain ⟨xh, xl, ia, hx⟩ := ha.norm2
  obtain ⟨yh, yl, ib, hy⟩ := hb.norm2
  have hyh : yh ≠ 0 := by
    rintro rfl; rw [ib.1.toRat] at h0; simp at h0; linarith
  have hpos := one'_posQ
  have eX : |(xh : ℚ)| = |a.hi.toRat| * one' := by
    rw [ia.1.toRat, abs_div, abs_of_pos hpos, div_mul_cancel₀ _ one'_ne]
  have eY : |(yh : ℚ)| = |b.hi.toRat| * one' := by
    rw [ib.1.toRat, abs_div, abs_of_pos hpos, div_mul_cancel₀ _ one'_ne]
  have eQ : |qq xh yh| = |a.hi.toRat / b.hi.toRat| * one' := by
    rw [ia.1.toRat, ib.1.toRat, ← qq_val, abs_div, abs_of_pos hpos, div_mul_cancel₀ _ one'_ne]
  have e2 : (lim2 : ℚ) / 8 = 2 ^ 1020 * one' := by
    rw [lim2_one']; push_cast
    have : (2:ℚ) ^ 1023 = 2 ^ 1020 * 8 := by
      rw [show (8:ℚ) = 2 ^ 3 by norm_num, ← pow_add]
    rw [this]; ring
  have hi : ∀ v : ℚ, v ≤ 2 ^ 1020 → v * one' ≤ lim2 / 8 := by
    intro v hv
    rw [e2]; exact mul_le_mul_of_nonneg_right hv hpos.le
  have rY : |(yh : ℚ)| / one' ≤ lim2 / 2 ^ 52 := by
    rw [div_le_div_iff₀ hpos (by positivity)]
    have h1 : |(yh : ℚ)| ≤ lim2 * 2 := by
      have := ib.1.lt
      unfold ovf at this
      have h2 : (lim2 : ℤ) * 2 = 2 ^ 2098 := by unfold lim2; rw [← pow_succ]
      rw [← abs_int_cast]
      rw [← h2] at this
      exact_mod_cast this.le
    have h2 : (2:ℚ) * 2 ^ 52 ≤ one' := by
      rw [one'_pow, ← pow_succ']; exact pow_le_pow_right₀ (by norm_num) (by norm_num)
    have hl : (0:ℚ) ≤ lim2 := by rw [lim2Q]; have := quantumQ_ge; positivity
    calc |(yh : ℚ)| * 2 ^ 52 ≤ lim2 * 2 * 2 ^ 52 := mul_le_mul_of_nonneg_right h1 (by positivity)
      _ = lim2 * (2 * 2 ^ 52) := by ring
      _ ≤ lim2 * one' := mul_le_mul_of_nonneg_left h2 hl
  have hk : |qq 1 ((yh : ℚ) + yl)| ≤ 2 ^ 41 := by
    unfold qq
    have hl := hy.lo_leQ
    have h1 : |(yh : ℚ)| ≤ 2 * |(yh : ℚ) + yl| := by
      have := abs_add_le ((yh : ℚ) + yl) (-yl)
      rw [add_neg_cancel_right, abs_neg] at this
      clear ha2 hq2 e2 hi h0
      have := abs_nonneg (yh : ℚ)
      norm_num at hl ⊢; linarith
    have h2 : (one' : ℚ) ≤ |(yh : ℚ)| * 2 ^ 40 := by
      rw [eY]
      calc (one' : ℚ) = 1 * one' := by ring
        _ ≤ |b.hi.toRat| * 2 ^ 40 * one' := mul_le_mul_of_nonneg_right h0 hpos.le
        _ = _ := by ring
    have hs := abs_pos.mpr (hy.sum_ne hyh)
    rw [one_mul, abs_div, abs_of_pos hpos, div_le_iff₀ hs]
    clear ha2 hq2 e2 hi
    norm_num at h2 h1 ⊢; linarith
  obtain ⟨zh, zl, iz, hz, he⟩ := div_specG ia ib hx hy hyh (by rw [eX]; exact hi _ ha2) (by rw [eQ]; exact hi _ hq2) rY
    (K := 2 ^ 41) (by norm_num) (by norm_num) hk
  refine ⟨hz.normalized iz, ?_⟩
  rw [iz.val, ia.val, ib.val]
  push_cast
  rw [← qq_val, ← sub_div, abs_div, abs_div, abs_of_pos hpos, div_right_comm, div_le_iff₀ hpos, add_mul,
    div_mul_cancel₀ _ one'_ne]
  have e5 : (2:ℚ) ^ 17 * 2 ^ 41 ≤ 1 / 2 ^ 1010 * one' := by
    rw [one'_pow, div_mul_eq_mul_div, le_div_iff₀ (by positivity), one_mul, ← pow_add, ← pow_add]
    exact pow_le_pow_right₀ (by norm_num) (by norm_num)
  refine he.trans (add_le_add ?_ e5)
  have := abs_nonneg (qq ((xh:ℚ) + xl) (yh + yl))
  clear e5 e2 hi ha2 hq2 eX eY eQ rY
  norm_num; linarith

/-- A subnormal dividend. -/
example : (⟨F64.mul (F64.powi Double.two (-1000)) (F64.powi Double.two (-40)), F64.zero⟩ : Double).Normalized ∧ 1 ≤ |Double.PI.hi.toRat| * 2 ^ 40 ∧
    |(F64.mul (F64.powi Double.two (-1000)) (F64.powi Double.two (-40))).toRat| ≤ 2 ^ 1020 ∧ |(F64.mul (F64.powi Double.two (-1000)) (F64.powi Double.two (-40))).toRat / Double.PI.hi.toRat| ≤ 2 ^ 1020 ∧
    F64.eq (F64.mul (F64.powi Double.two (-1000)) (F64.powi Double.two (-40))) F64.zero = false := by
  decide +kernel

/-- Division for every dividend, over the reals. -/
theorem rw_diva {a b : Double} (ha : a.Normalized) (hb : b.Normalized) (h1 : |rv a| ≤ 2 ^ 900) (h2 : 1 ≤ |rv b| * 2 ^ 39) :
    Ap (a / b) (rv a / rv b) (|rv a / rv b| / 2 ^ 102 + 1 / 2 ^ 1010) := by
  have la := fr_hi_two ha
  have gb : |rv b| ≤ 2 * |fr b.hi| := by
    have h1 := fr_hi_ge hb
    norm_num at h1 ⊢; linarith
  have f0 : 1 ≤ |fr b.hi| * 2 ^ 40 := by norm_num at h2 ⊢; linarith
  have fp : 0 < |fr b.hi| := by
    by_contra hc
    have : |fr b.hi| = 0 := le_antisymm (not_lt.mp hc) (abs_nonneg _)
    rw [this] at f0; norm_num at f0
  have a2 : |fr a.hi| ≤ 2 ^ 901 := by
    refine la.trans ((mul_le_mul_of_nonneg_left h1 (by norm_num)).trans (le_of_eq ?_))
    rw [← pow_succ']
  have q4 : |fr a.hi / fr b.hi| ≤ 2 ^ 1020 := by
    rw [abs_div, div_le_iff₀ fp]
    refine a2.trans ?_
    have e : (2:ℝ) ^ 941 * (1 / 2 ^ 40) = 2 ^ 901 := by
      rw [mul_one_div, div_eq_iff (by positivity), ← pow_add]
    rw [← e]
    refine mul_le_mul (pow_le_pow_right₀ (by norm_num) (by norm_num)) ?_ (by positivity) (by positivity)
    rw [div_le_iff₀ (by positivity)]; exact f0
  obtain ⟨hn, he⟩ := C04_div_any a b ha hb
    (by rw [fr_toRat] at f0; exact_mod_cast f0)
    (by
      have := a2.trans (show (2:ℝ) ^ 901 ≤ 2 ^ 1020 from pow_le_pow_right₀ (by norm_num) (by norm_num))
      rw [fr_toRat] at this; exact_mod_cast this)
    (by rw [fr_toRat, fr_toRat] at q4; exact_mod_cast q4)
  refine ⟨hn, ?_⟩
  have := (Rat.cast_le (K := ℝ)).mpr he
  unfold rv
  push_cast at this
  exact this

end Verif
