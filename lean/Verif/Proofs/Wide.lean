import Verif.Proofs.SqrtF64
import Verif.Props.AddSub

/-!
# Error bounds over the whole exponent range

`Approx` works with numbers of moderate size and an absolute underflow term of `2^-250`. The square root is accurate over
(almost) the whole range, so its proof needs the same bounds with the underflow term `tau = 2^-1073`.
-/

namespace Verif

/-- The underflow term. -/
noncomputable irreducible_def tau : ℝ := 2 / 2 ^ 1074

theorem tau_pos : 0 < tau := by rw [tau_def]; exact div_pos (by norm_num) (pow_pos (by norm_num) _)

/-- `tau` is `2^-(1073)`. -/
theorem tau_mul {k : ℕ} (hk : k ≤ 1073) : tau * 2 ^ k ≤ 1 := by
  rw [tau_def, div_mul_eq_mul_div, div_le_one (pow_pos (by norm_num) _), ← pow_succ']
  exact pow_le_pow_right₀ (by norm_num) (by omega)

theorem tau_inv : (1:ℝ) / (one' : ℝ) ≤ tau := by
  rw [tau_def, ← one'_powR]
  apply div_le_div_of_nonneg_right (by norm_num)
  exact_mod_cast one'_pos.le

/-- A Normalized Double's first component is at most twice its value. -/
theorem fr_hi_two {d : Double} (h : d.Normalized) : |fr d.hi| ≤ 2 * |rv d| := by
  have h1 := fr_hi_le h
  have h2 := abs_nonneg (rv d)
  have : (1:ℝ) / 2 ^ 52 ≤ 1 := by norm_num
  nlinarith

theorem fr_toRat (x : F64) : fr x = ((x.toRat : ℚ) : ℝ) := rfl

theorem pow_1020 : (4:ℚ) * 2 ^ 1020 ≤ 2 ^ 1023 := by
  have : (2:ℚ) ^ 1023 = 8 * 2 ^ 1020 := by rw [show (8:ℚ) = 2 ^ 3 by norm_num, ← pow_add]
  rw [this]
  exact mul_le_mul_of_nonneg_right (by norm_num) (pow_nonneg (by norm_num) _)

theorem rw_add {a b : Double} (ha : a.Normalized) (hb : b.Normalized) (h1 : |rv a| ≤ 2 ^ 1020) (h2 : |rv b| ≤ 2 ^ 1020) :
    Ap (a + b) (rv a + rv b) (|rv a + rv b| / 2 ^ 103) := by
  have hA : |a.hi.toRat| ≤ 2 * 2 ^ 1020 := by
    have := (fr_hi_two ha).trans (mul_le_mul_of_nonneg_left h1 (by norm_num))
    rw [fr_toRat] at this
    exact_mod_cast this
  have hB : |b.hi.toRat| ≤ 2 * 2 ^ 1020 := by
    have := (fr_hi_two hb).trans (mul_le_mul_of_nonneg_left h2 (by norm_num))
    rw [fr_toRat] at this
    exact_mod_cast this
  obtain ⟨hn, he⟩ := C01_add a b ha hb (by
    refine le_trans ?_ pow_1020
    generalize (2:ℚ) ^ 1020 = K at *
    linarith)
  refine ⟨hn, ?_⟩
  have := cast_rel 103 he
  unfold rv
  push_cast at this
  exact this

theorem rw_sub {a b : Double} (ha : a.Normalized) (hb : b.Normalized) (h1 : |rv a| ≤ 2 ^ 1020) (h2 : |rv b| ≤ 2 ^ 1020) :
    Ap (a - b) (rv a - rv b) (|rv a - rv b| / 2 ^ 103) := by
  have hA : |a.hi.toRat| ≤ 2 * 2 ^ 1020 := by
    have := (fr_hi_two ha).trans (mul_le_mul_of_nonneg_left h1 (by norm_num))
    rw [fr_toRat] at this
    exact_mod_cast this
  have hB : |b.hi.toRat| ≤ 2 * 2 ^ 1020 := by
    have := (fr_hi_two hb).trans (mul_le_mul_of_nonneg_left h2 (by norm_num))
    rw [fr_toRat] at this
    exact_mod_cast this
  obtain ⟨hn, he⟩ := C02_sub a b ha hb (by
    refine le_trans ?_ pow_1020
    generalize (2:ℚ) ^ 1020 = K at *
    linarith)
  refine ⟨hn, ?_⟩
  have := cast_rel 103 he
  unfold rv
  push_cast at this
  exact this

theorem hi_prod {a b : Double} (ha : a.Normalized) (hb : b.Normalized) (h : |rv a * rv b| ≤ 2 ^ 1020) :
    |a.hi.toRat * b.hi.toRat| ≤ 2 ^ 1023 := by
  have h1 : |fr a.hi * fr b.hi| ≤ 4 * 2 ^ 1020 := by
    rw [abs_mul] at h ⊢
    have h1 := fr_hi_two ha
    have h2 := fr_hi_two hb
    have := mul_le_mul h1 h2 (abs_nonneg _) (by positivity)
    refine this.trans ?_
    calc 2 * |rv a| * (2 * |rv b|) = 4 * (|rv a| * |rv b|) := by ring
      _ ≤ _ := mul_le_mul_of_nonneg_left h (by norm_num)
  rw [fr_toRat, fr_toRat] at h1
  refine le_trans ?_ pow_1020
  exact_mod_cast h1

theorem rw_mul {a b : Double} (ha : a.Normalized) (hb : b.Normalized) (h : |rv a * rv b| ≤ 2 ^ 1020) :
    Ap (a * b) (rv a * rv b) (9 / 2 ^ 106 * |rv a * rv b| + tau) := by
  obtain ⟨hn, he⟩ := C03_mul a b ha hb (hi_prod ha hb h)
  refine ⟨hn, ?_⟩
  have := (Rat.cast_le (K := ℝ)).mpr he
  push_cast at this
  rw [tau_def]
  exact this

theorem rw_sqr {a : Double} (ha : a.Normalized) (h : |rv a * rv a| ≤ 2 ^ 1020) :
    Ap a.sqr (rv a ^ 2) (9 / 2 ^ 106 * rv a ^ 2 + tau) ∧ 0 ≤ rv a.sqr := by
  obtain ⟨hn, h0, he⟩ := C36_sqr a ha (hi_prod ha ha h)
  refine ⟨⟨hn, ?_⟩, by unfold rv; exact_mod_cast h0⟩
  have := (Rat.cast_le (K := ℝ)).mpr he
  push_cast at this
  rw [tau_def]
  exact this

theorem rw_half {d : Double} (h : d.Normalized) (hb : 1 ≤ |rv d| * 2 ^ 950) :
    (Double.mulPwr2 d Double.half).Normalized ∧ |rv (Double.mulPwr2 d Double.half) - rv d / 2| ≤ tau := by
  obtain ⟨a, b, i, n⟩ := h.norm2
  have i' : DIs (Double.mulPwr2 d Double.half) (rnd ((a : ℚ) / 2)) (rnd ((b : ℚ) / 2)) := ⟨i.1.half, i.2.half⟩
  have hbig : (2:ℤ) ^ 120 ≤ |a| := by
    have h1 := fr_hi_ge h
    have h2 : |rv d| ≤ 2 * |fr d.hi| := by
      have : (1:ℝ)/2 ≤ 1 - 1 / 2 ^ 52 := by norm_num
      have h3 := mul_le_mul_of_nonneg_left this (abs_nonneg (rv d))
      clear hb
      linarith
    rw [fr_is i.1, abs_div, abs_of_pos (show (0:ℝ) < (one':ℝ) by exact_mod_cast one'_pos)] at h2
    have h3 : (1:ℝ) ≤ 2 * (|(a:ℝ)| / one') * 2 ^ 950 := hb.trans (mul_le_mul_of_nonneg_right h2 (by positivity))
    have h4 : (one' : ℝ) ≤ 2 ^ 951 * |(a:ℝ)| := by
      rw [show 2 * (|(a:ℝ)| / one') * 2 ^ 950 = 2 ^ 951 * |(a:ℝ)| / one' by
        rw [pow_succ (2:ℝ) 950]; generalize (2:ℝ) ^ 950 = K; ring,
        one_le_div (by exact_mod_cast one'_pos)] at h3
      exact h3
    rw [one'_powR] at h4
    have h5 : (2:ℝ) ^ 1074 = 2 ^ 951 * 2 ^ 123 := by rw [← pow_add]
    rw [h5] at h4
    have h6 := le_of_mul_le_mul_left h4 (pow_pos (by norm_num) _)
    have h7 : (2:ℤ) ^ 123 ≤ |a| := by exact_mod_cast h6
    exact le_trans (by norm_num) h7
  have hev : (2:ℤ) ∣ a := by
    have := n.rep_hi.dvd_of_le (k := 1) (le_trans (by norm_num) hbig)
    simpa using this
  obtain ⟨a', ea⟩ := hev
  have ha' : rnd ((a : ℚ) / 2) = a' := by
    have r : Rep a' := (norm2_shift n 1 (h' := a') (by rw [ea]; ring) (by
      rw [ea, abs_mul] at hbig
      norm_num at hbig ⊢
      linarith)).rep_hi
    rw [show (a : ℚ) / 2 = a' by rw [ea]; push_cast; ring]
    exact rnd_of_rep r
  have nn := norm2_shift n 1 (h' := a') (by rw [ea]; ring) (by
      rw [ea, abs_mul] at hbig
      norm_num at hbig ⊢
      linarith)
  rw [ha'] at i'
  rw [pow_one] at nn
  refine ⟨nn.normalized i', ?_⟩
  have e2 := rnd_half_err n.rep_lo
  have e3 : |(Double.mulPwr2 d Double.half).val - d.val / 2| ≤ 1 / one' := by
    rw [i'.val, i.val, div_div, mul_comm, ← div_div, ← sub_div, abs_div, abs_of_pos one'_posQ]
    apply div_le_div_of_nonneg_right _ one'_posQ.le
    rw [ea]
    generalize rnd ((b : ℚ) / 2) = v at *
    clear hbig
    rw [abs_le] at e2 ⊢
    have a3 : (-1:ℚ) ≤ 2 * v - b := by exact_mod_cast e2.1
    have a4 : (2 * v - b : ℚ) ≤ 1 := by exact_mod_cast e2.2
    push_cast
    constructor <;> linarith
  have e4 := (Rat.cast_le (K := ℝ)).mpr e3
  push_cast at e4
  exact e4.trans tau_inv

/-- Division of `f64` numbers over the whole range. -/
theorem fw_div {x y : F64} (hx : x.isFinite = true) (hy : y.isFinite = true) (h0 : fr y ≠ 0) (h : |fr x / fr y| ≤ 2 ^ 1022) :
    (F64.div x y).isFinite = true ∧ |fr (F64.div x y) - fr x / fr y| ≤ |fr x / fr y| / 2 ^ 53 + tau := by
  have ix := Is.of_finite hx
  have iy := Is.of_finite hy
  generalize x.units = m at ix
  generalize y.units = n at iy
  have hn : n ≠ 0 := by
    rintro rfl; apply h0; rw [fr_is iy]; simp
  have e : fr x / fr y = ((((m : ℚ) * one' / n) / one' : ℚ) : ℝ) := by
    have h1 : (one' : ℝ) ≠ 0 := by exact_mod_cast one'_pos.ne'
    have h2 : (n : ℝ) ≠ 0 := by exact_mod_cast hn
    rw [fr_is ix, fr_is iy]; push_cast; field_simp
  rw [e] at h
  have hq : |(m : ℚ) * one' / n| ≤ 2 ^ 1022 * one' := by
    have : |(m : ℚ) * one' / n / one'| ≤ 2 ^ 1022 := by exact_mod_cast h
    rwa [abs_div _ (one' : ℚ), abs_of_pos one'_posQ, div_le_iff₀ one'_posQ] at this
  have i := ix.div iy hn (hq.trans big_le_omega)
  refine ⟨i.1, ?_⟩
  have := (Rat.cast_le (K := ℝ)).mpr (rnd_near ((m : ℚ) * one' / n))
  push_cast at this
  rw [fr_is i, e]
  push_cast
  refine this.trans (add_le_add le_rfl ?_)
  have t := tau_inv
  simpa using t

/-- Division by a number of moderate size. -/
theorem rw_div {a b : Double} (ha : a.Normalized) (hb : b.Normalized) (h1 : 1 ≤ |rv a| * 2 ^ 900) (h2 : |rv a| ≤ 2 ^ 900)
    (h3 : 1 / 16 ≤ |rv b|) (h4 : |rv b| ≤ 16) : Ap (a / b) (rv a / rv b) (|rv a / rv b| / 2 ^ 102) := by
  have la := fr_hi_two ha
  have lb := fr_hi_two hb
  have two : ∀ {d : Double}, d.Normalized → |rv d| ≤ 2 * |fr d.hi| := by
    intro d h
    have h1 := fr_hi_ge h
    have : (1:ℝ)/2 ≤ 1 - 1 / 2 ^ 52 := by norm_num
    have h3 := mul_le_mul_of_nonneg_left this (abs_nonneg (rv d))
    linarith
  have ga := two ha
  have gb := two hb
  have b1 : 1 / 32 ≤ |fr b.hi| := by linarith
  have b2 : |fr b.hi| ≤ 32 := by linarith
  have a1 : 1 ≤ |fr a.hi| * 2 ^ 901 := by
    refine h1.trans ((mul_le_mul_of_nonneg_right ga (by positivity)).trans (le_of_eq ?_))
    rw [show (2:ℝ) ^ 901 = 2 * 2 ^ 900 by rw [← pow_succ']]; ring
  have a2 : |fr a.hi| ≤ 2 ^ 901 := by
    refine la.trans ((mul_le_mul_of_nonneg_left h2 (by norm_num)).trans (le_of_eq ?_))
    rw [← pow_succ']
  have q1 : 1 ≤ |fr a.hi / fr b.hi| * 2 ^ 906 := by
    rw [abs_div, div_mul_eq_mul_div, le_div_iff₀ (by linarith), one_mul]
    refine b2.trans ?_
    rw [show (2:ℝ) ^ 906 = 2 ^ 901 * 32 by rw [show (32:ℝ) = 2 ^ 5 by norm_num, ← pow_add], ← mul_assoc]
    exact le_mul_of_one_le_left (by norm_num) a1
  have q2 : |fr a.hi / fr b.hi| ≤ 2 ^ 906 := by
    rw [abs_div, div_le_iff₀ (by linarith)]
    refine a2.trans ?_
    rw [show (2:ℝ) ^ 906 = 2 ^ 901 * 32 by rw [show (32:ℝ) = 2 ^ 5 by norm_num, ← pow_add], mul_assoc]
    apply le_mul_of_one_le_right (by positivity)
    linarith
  have up : ∀ {t : ℝ} {k : ℕ}, k ≤ 962 → 0 ≤ t → 1 ≤ t * 2 ^ k → 1 ≤ t * 2 ^ 962 := by
    intro t k hk ht h
    exact h.trans (mul_le_mul_of_nonneg_left (pow_le_pow_right₀ (by norm_num) hk) ht)
  obtain ⟨hn, he⟩ := C04_div a b ha hb (by
      intro h0
      have : fr b.hi = 0 := by rw [fr_toRat, h0]; simp
      rw [this] at b1; norm_num at b1)
    (by have := up (by norm_num) (abs_nonneg _) a1; rw [fr_toRat] at this; exact_mod_cast this)
    (by
      have := a2.trans (pow_le_pow_right₀ (by norm_num) (show 901 ≤ 1020 by norm_num)); rw [fr_toRat] at this
      exact_mod_cast this)
    (by have := up (by norm_num) (abs_nonneg _) q1; rw [fr_toRat, fr_toRat] at this; exact_mod_cast this)
    (by
      have := q2.trans (pow_le_pow_right₀ (by norm_num) (show 906 ≤ 1020 by norm_num)); rw [fr_toRat, fr_toRat] at this
      exact_mod_cast this)
  refine ⟨hn, ?_⟩
  have := cast_rel 102 he.le
  unfold rv
  push_cast at this
  exact this

/-! ## Classification by sign -/

/-- The sign of the value, the sign of the first component, and the predicates. -/
theorem class_of {a : Double} (ha : a.Normalized) (h0 : rv a ≠ 0) :
    a.isNan = false ∧ a.isZero = false ∧ a.isInfinite = false ∧ (a.isSignNegative = true ↔ rv a < 0) ∧
      (0 < fr a.hi ↔ 0 < rv a) ∧ fr a.hi ≠ 0 := by
  obtain ⟨h, l, i, nn⟩ := ha.norm2
  have hone : (0:ℝ) < (one' : ℝ) := by exact_mod_cast one'_pos
  have hb := rv_sub_hi ha
  have hne : fr a.hi ≠ 0 := by
    intro hc
    rw [hc, sub_zero, abs_zero, zero_div] at hb
    exact h0 (abs_nonpos_iff.mp hb)
  have hpos : 0 < fr a.hi ↔ 0 < rv a := by
    constructor
    · intro hp
      rw [abs_of_pos hp] at hb
      have := (abs_le.mp hb).1
      norm_num at this
      linarith
    · intro hp
      by_contra hc
      have hc : fr a.hi < 0 := lt_of_le_of_ne (not_lt.mp hc) hne
      rw [abs_of_neg hc] at hb
      have := (abs_le.mp hb).2
      norm_num at this
      linarith
  have hsgn : 0 < h ↔ 0 < fr a.hi := by
    rw [fr_is i.1, div_pos_iff_of_pos_right hone]; norm_cast
  have hh0 : h ≠ 0 := by
    rintro rfl; apply hne; rw [fr_is i.1]; simp
  obtain ⟨s, m, hm, e, eh⟩ := i.1.exists
  refine ⟨by unfold Double.isNan; rw [e]; rfl, ?_, by unfold Double.isInfinite; rw [e]; rfl, ?_, hpos, hne⟩
  · unfold Double.isZero
    have : ¬ (F64.eq a.hi F64.zero = true) := by rw [i.1.eq_iff is_zero]; exact hh0
    simpa using this
  · unfold Double.isSignNegative
    rw [e]
    cases s with
    | true =>
      simp only [if_true] at eh
      refine ⟨fun _ => ?_, fun _ => rfl⟩
      have : ¬ 0 < rv a := by rw [← hpos, ← hsgn]; omega
      exact lt_of_le_of_ne (not_lt.mp this) h0
    | false =>
      simp only [Bool.false_eq_true, if_false] at eh
      refine ⟨fun h => (by cases h), fun hlt => ?_⟩
      have : 0 < rv a := by rw [← hpos, ← hsgn]; omega
      linarith

theorem class_pos {a : Double} (ha : a.Normalized) (h0 : 0 < rv a) :
    a.isNan = false ∧ a.isZero = false ∧ a.isInfinite = false ∧ a.isSignNegative = false ∧ 0 < fr a.hi := by
  obtain ⟨h1, h2, h3, h4, h5, h6⟩ := class_of ha h0.ne'
  refine ⟨h1, h2, h3, ?_, h5.mpr h0⟩
  by_contra hc
  have := h4.mp (by simpa using hc)
  linarith

theorem class_neg {a : Double} (ha : a.Normalized) (h0 : rv a < 0) :
    a.isNan = false ∧ a.isZero = false ∧ a.isInfinite = false ∧ a.isSignNegative = true ∧ fr a.hi < 0 := by
  obtain ⟨h1, h2, h3, h4, h5, h6⟩ := class_of ha h0.ne
  refine ⟨h1, h2, h3, h4.mpr h0, lt_of_le_of_ne ?_ h6⟩
  by_contra hc
  have := h5.mp (not_le.mp hc)
  linarith

end Verif
