import Verif.Proofs.Ln

/-!
# C64: the accuracy of `ln`, `log10`, `log2`, `log`
-/

namespace Verif

open Consts

theorem ln_eps_facts : ∀ k : ℕ, k < 74 → (Double.mulPwr2 Double.EPSILON (F64.powi Double.two ((k : ℤ) - 60))).Normalized ∧
    (Double.mulPwr2 Double.EPSILON (F64.powi Double.two ((k : ℤ) - 60))).val ≤ mkRat 1 (2 ^ 90) := by decide +kernel

theorem fr_pos_ge {y : F64} (h : y.isFinite = true) (hp : 0 < fr y) : 1 / 2 ^ 1074 ≤ fr y := by
  have i := Is.of_finite h
  rw [fr_is i, one'_powR] at hp ⊢
  have hp2 : (0:ℝ) < 2 ^ 1074 := pow_pos (by norm_num) _
  generalize (2:ℝ) ^ 1074 = K at *
  have : (0:ℝ) < (y.units : ℝ) := by
    by_contra hc
    exact absurd hp (not_lt.mpr (div_nonpos_of_nonpos_of_nonneg (not_lt.mp hc) hp2.le))
  have h1 : 0 < y.units := by exact_mod_cast this
  apply div_le_div_of_nonneg_right _ hp2.le
  exact_mod_cast h1

theorem fr_abs {y : F64} (h : y.isFinite = true) : y.abs.isFinite = true ∧ fr y.abs = |fr y| := by
  have i := Is.of_finite h
  refine ⟨i.abs.1, ?_⟩
  rw [fr_is i, fr_is i.abs, abs_div, abs_of_pos (show (0:ℝ) < (one' : ℝ) by exact_mod_cast one'_pos)]
  push_cast; rfl

/-- `floor(log2 |x|)` as an `i32`, for a nonzero `x` between `-2^10` and `2^10`. -/
theorem log2_k {P : Platform} (hP : LibmLogs P) {x : F64} (hx : x.isFinite = true) (h0 : fr x ≠ 0) (h1 : |fr x| ≤ 2 ^ 10) :
    F64.toI32 (F64.floor (P.log2 x.abs)) ≤ 11 ∧ -2000 ≤ F64.toI32 (F64.floor (P.log2 x.abs)) ∧
    (1 / 2 ^ 50 ≤ |fr x| → -52 ≤ F64.toI32 (F64.floor (P.log2 x.abs))) := by
  obtain ⟨fa, ea⟩ := fr_abs hx
  have hpos : 0 < fr x.abs := by rw [ea]; exact abs_pos.mpr h0
  obtain ⟨fl, el⟩ := hP.log2 x.abs fa (by unfold fr at hpos; exact_mod_cast hpos)
  change |fr (P.log2 x.abs) - Real.logb 2 (fr x.abs)| ≤ 1 at el
  obtain ⟨ff, ef⟩ := fr_floor fl
  have i := is_of_fr ff ef
  have el' := abs_le.mp el
  have hb : ∀ n : ℤ, ∀ y : ℝ, 0 < y → (y ≤ 2 ^ n → Real.logb 2 y ≤ n) ∧ (2 ^ n ≤ y → (n : ℝ) ≤ Real.logb 2 y) := by
    intro n y hy
    have hz : Real.logb 2 ((2:ℝ) ^ n) = n := by
      rw [← Real.rpow_intCast, Real.logb_rpow (by norm_num) (by norm_num)]
    refine ⟨fun h => ?_, fun h => ?_⟩
    · rw [← hz]; exact Real.logb_le_logb_of_le (by norm_num) hy h
    · rw [← hz]; exact Real.logb_le_logb_of_le (by norm_num) (zpow_pos (by norm_num) n) h
  have u1 : Real.logb 2 (fr x.abs) ≤ 10 := by
    have := (hb 10 _ hpos).1 (by rw [ea]; exact_mod_cast h1)
    exact_mod_cast this
  have u2 : (-1074:ℝ) ≤ Real.logb 2 (fr x.abs) := by
    have := (hb (-1074) _ hpos).2 (by
      rw [show (-1074 : ℤ) = -((1074 : ℕ) : ℤ) by norm_num, zpow_neg, zpow_natCast, ← one_div]
      exact fr_pos_ge fa hpos)
    exact_mod_cast this
  have w1 : ⌊fr (P.log2 x.abs)⌋ ≤ 11 := by
    have h3 := Int.floor_le (fr (P.log2 x.abs))
    have : ((⌊fr (P.log2 x.abs)⌋ : ℤ) : ℝ) ≤ 11 := by linarith
    exact_mod_cast this
  have w2 : -2000 ≤ ⌊fr (P.log2 x.abs)⌋ := by
    apply Int.le_floor.mpr; push_cast; linarith
  rw [toI32_of_is i (by rw [abs_lt]; constructor <;> norm_num <;> omega)]
  refine ⟨w1, w2, fun h => ?_⟩
  apply Int.le_floor.mpr
  have := (hb (-50) _ hpos).2 (by
      rw [show (-50 : ℤ) = -((50 : ℕ) : ℤ) by norm_num, zpow_neg, zpow_natCast, ← one_div, ea]; exact h)
  push_cast at this ⊢
  linarith

/-- The logarithm of the first component against that of the number. -/
theorem log_hi {a : Double} (ha : a.Normalized) (hp : 0 < rv a) : 0 < fr a.hi ∧
    |Real.log (fr a.hi) - Real.log (rv a)| ≤ 101 / 100 / 2 ^ 53 := by
  have h := abs_le.mp (rv_sub_hi ha)
  have hpos : 0 < fr a.hi := by
    by_contra hc
    push Not at hc
    rw [abs_of_nonpos hc] at h
    have := h.2
    norm_num at this; linarith
  rw [abs_of_pos hpos] at h
  refine ⟨hpos, ?_⟩
  have e1 := Real.log_le_sub_one_of_pos (div_pos hpos hp)
  have e2 := Real.log_le_sub_one_of_pos (div_pos hp hpos)
  rw [Real.log_div hpos.ne' hp.ne'] at e1
  rw [Real.log_div hp.ne' hpos.ne'] at e2
  have f1 : fr a.hi / rv a ≤ 1 + 101 / 100 / 2 ^ 53 := by
    rw [div_le_iff₀ hp]; norm_num at h ⊢; linarith [h.1]
  have f2 : rv a / fr a.hi ≤ 1 + 101 / 100 / 2 ^ 53 := by
    rw [div_le_iff₀ hpos]; norm_num at h ⊢; linarith [h.2]
  rw [abs_le]; constructor <;> linarith

/-- **C64.** `ln`, on any platform whose `f64` logarithms are reasonable (`LibmLogs`): for a positive number whose logarithm is
between -707 and 599, the result is normalized and within `(2 |ln a| + 13) 2^-102` of `ln a`. -/
theorem C64_ln (P : Platform) (hP : LibmLogs P) (a : Double) (ha : a.Normalized) (hp : 0 < a.val)
    (h1 : -707 ≤ Real.log (a.val : ℝ)) (h2 : Real.log (a.val : ℝ) ≤ 599) :
    ∃ r, Double.ln P a = some r ∧ r.Normalized ∧
      |(r.val : ℝ) - Real.log (a.val : ℝ)| ≤ (2 * |Real.log (a.val : ℝ)| + 13) / 2 ^ 102 := by
  have hpR : 0 < rv a := by unfold rv; exact_mod_cast hp
  obtain ⟨hpos, hlog⟩ := log_hi ha hpR
  have hf := ha.1.1
  have hn : a.isNan ≠ true := by
    intro hc; have := fs_isFinite_nan hc; unfold Double.isFinite at this; rw [hf] at this; cases this
  obtain ⟨h, l, i, nn⟩ := ha.norm2
  have hh : 0 < h := by
    rw [fr_is i.1] at hpos
    have : (0:ℝ) < (one' : ℝ) := by exact_mod_cast one'_pos
    by_contra hc
    have : (h:ℝ) ≤ 0 := by exact_mod_cast not_lt.mp hc
    exact absurd hpos (not_lt.mpr (div_nonpos_of_nonpos_of_nonneg this (by linarith)))
  have hs : a.isSignNegative ≠ true := by
    obtain ⟨s, m, hm, e, eh⟩ := i.1.exists
    intro hc
    unfold Double.isSignNegative at hc
    rw [e] at hc
    have : s = true := hc
    subst this
    simp only [if_true] at eh
    omega
  have hz : a.isZero ≠ true := by
    unfold Double.isZero
    rw [ne_eq, i.1.eq_iff is_zero]; omega
  have hi : a.isInfinite ≠ true := by
    obtain ⟨s, m, hm, e, eh⟩ := i.1.exists
    unfold Double.isInfinite
    rw [e]; simp [F64.isInfinite]
  unfold Double.ln Double.preLn
  rw [if_neg hn, if_neg hs, if_neg hz, if_neg hi]
  change ∃ r, _ ∧ _ ∧ |rv r - Real.log (rv a)| ≤ (2 * |Real.log (rv a)| + 13) / 2 ^ 102
  change -707 ≤ Real.log (rv a) at h1
  change Real.log (rv a) ≤ 599 at h2
  have hA : rv a = Real.exp (Real.log (rv a)) := (Real.exp_log hpR).symm
  by_cases h1c : Double.eq a Double.ONE = true
  · rw [if_pos h1c]
    refine ⟨_, rfl, by decide +kernel, ?_⟩
    have hv : a.val = 1 := by
      rw [(C12_compare a _ ha fs_one_ok.1).2.2.2.2, fs_one_ok.2] at h1c
      exact h1c
    have e1 : rv a = 1 := by unfold rv; rw [hv]; norm_num
    have e2 : Double.ZERO.val = 0 := by decide +kernel
    have e3 : rv Double.ZERO = 0 := by unfold rv; rw [e2]; norm_num
    rw [e1, e3]; norm_num
  · rw [if_neg h1c]
    obtain ⟨fx, ex⟩ := hP.ln a.hi hf (by unfold fr at hpos; exact_mod_cast hpos)
    change |fr (P.ln a.hi) - Real.log (fr a.hi)| ≤ |Real.log (fr a.hi)| / 2 ^ 50 at ex
    generalize hL : Real.log (rv a) = L at *
    generalize Real.log (fr a.hi) = M at *
    have hLa : |L| ≤ 707 := abs_le.mpr ⟨h1, by linarith⟩
    have hM : |M| ≤ |L| + 101 / 100 / 2 ^ 53 := by
      have := abs_add_le (M - L) L
      rw [sub_add_cancel] at this; linarith
    have hx0 : Ap (⟨P.ln a.hi, F64.zero⟩ : Double) L (|M| / 2 ^ 50 + 101 / 100 / 2 ^ 53) := by
      have := ap_f64 fx
      refine (this.move (y := L) (f := |M| / 2 ^ 50 + 101 / 100 / 2 ^ 53) ?_).mono (by linarith)
      have := abs_add_le (fr (P.ln a.hi) - M) (M - L)
      rw [sub_add_sub_cancel] at this; linarith
    have hx1 : |fr (P.ln a.hi)| ≤ 2 ^ 10 := by
      have := abs_add_le (fr (P.ln a.hi) - M) M
      rw [sub_add_cancel] at this
      norm_num at hM ex ⊢; linarith
    have hxM : |M| ≤ |fr (P.ln a.hi)| + |M| / 2 ^ 50 := by
      have := abs_sub_abs_le_abs_sub M (fr (P.ln a.hi))
      rw [abs_sub_comm] at this
      linarith
    dsimp only
    have key : ∀ k : ℤ, (k ≤ 13 ∧ (1 / 2 ^ 50 ≤ |fr (P.ln a.hi)| → -50 ≤ k)) →
        ∃ r, Double.lnLoop a (Double.mulPwr2 Double.EPSILON (F64.powi Double.two k)) 7 0 ⟨P.ln a.hi, F64.zero⟩ = some r ∧
          Ap r L ((2 * |L| + 13) / 2 ^ 102) := by
      intro k hk
      refine lnLoop_ap ha (by rw [hA]) h1 h2 _ hx0 (by norm_num at hM ⊢; linarith) ?_
      by_cases hc : 1 / 2 ^ 50 ≤ |fr (P.ln a.hi)|
      · right
        have hk2 := hk.2 hc
        obtain ⟨n, hn⟩ := Int.eq_ofNat_of_zero_le (a := k + 60) (by omega)
        have e : k = (n : ℤ) - 60 := by omega
        obtain ⟨g1, g2⟩ := ln_eps_facts n (by omega)
        rw [e]
        refine ⟨g1, ?_⟩
        have := (Rat.cast_le (K := ℝ)).mpr g2
        rw [Rat.mkRat_eq_div] at this
        push_cast at this
        exact this.trans (by norm_num)
      · left
        push Not at hc
        norm_num at hc hxM ⊢; linarith
    have concl : ∀ k : ℤ, -2 ^ 31 ≤ k → (k ≤ 11 ∧ (1 / 2 ^ 50 ≤ |fr (P.ln a.hi)| → -52 ≤ k)) →
        F64.toI32 (F64.floor (P.log2 (P.ln a.hi).abs)) = k →
        ∃ r, (match i32? (F64.toI32 (F64.floor (P.log2 (P.ln a.hi).abs)) + 2) with
          | none => none
          | some k2 => Double.lnLoop a (Double.mulPwr2 Double.EPSILON (F64.powi Double.two k2)) 7 0 ⟨P.ln a.hi, F64.zero⟩) = some r ∧
          r.Normalized ∧ |rv r - L| ≤ (2 * |L| + 13) / 2 ^ 102 := by
      intro k hk0 hk e
      have e2 : i32? (k + 2) = some (k + 2) := by
        unfold i32?; rw [if_pos]; constructor <;> norm_num at hk0 ⊢ <;> omega
      rw [e, e2]
      obtain ⟨r, hr, hr2⟩ := key (k + 2) ⟨by omega, fun h => by have := hk.2 h; omega⟩
      exact ⟨r, hr, hr2.1, hr2.2⟩
    by_cases h0 : fr (P.ln a.hi) = 0
    · have ez : (P.ln a.hi).abs = F64.zero := by
        have ii := Is.of_finite fx
        rw [fr_is ii, div_eq_zero_iff] at h0
        have hu : (P.ln a.hi).units = 0 := by
          rcases h0 with h0 | h0
          · exact_mod_cast h0
          · exact absurd h0 (by exact_mod_cast one'_pos.ne')
        rw [hu] at ii
        obtain ⟨s, m, hm, e, eh⟩ := ii.exists
        have hm0 : m = 0 := by
          cases s <;> simp at eh <;> omega
        subst hm0
        rw [e]; rfl
      have ek : F64.toI32 (F64.floor (P.log2 (P.ln a.hi).abs)) = -2 ^ 31 := by
        rw [ez, hP.log2_zero]; decide +kernel
      refine concl (-2 ^ 31) le_rfl ⟨by norm_num, fun h => ?_⟩ ek
      rw [h0] at h; norm_num at h
    · obtain ⟨k1, k2, k3⟩ := log2_k hP fx h0 hx1
      exact concl _ (le_trans (by norm_num) k2) ⟨k1, k3⟩ rfl

theorem C64_ln_ap {P : Platform} (hP : LibmLogs P) {a : Double} (ha : a.Normalized) (hp : 0 < a.val)
    (h1 : -707 ≤ Real.log (a.val : ℝ)) (h2 : Real.log (a.val : ℝ) ≤ 599) :
    ∃ r, Double.ln P a = some r ∧ Ap r (Real.log (a.val : ℝ)) ((2 * |Real.log (a.val : ℝ)| + 13) / 2 ^ 102) := by
  obtain ⟨r, h⟩ := C64_ln P hP a ha hp h1 h2
  exact ⟨r, h.1, h.2⟩

theorem log10_bounds : 2.302 ≤ Real.log 10 ∧ Real.log 10 ≤ 2.303 := by
  have h0 := ap_LN_10
  have h1 : mkRat 23025 10000 ≤ A_LN_10 ∧ A_LN_10 ≤ mkRat 23026 10000 ∧ dlt ≤ mkRat 1 (10 ^ 60) := by decide +kernel
  have h2 := (Rat.cast_le (K := ℝ)).mpr h1.1
  have h3 := (Rat.cast_le (K := ℝ)).mpr h1.2.1
  have h4 := (Rat.cast_le (K := ℝ)).mpr h1.2.2
  rw [Rat.mkRat_eq_div] at h2 h3 h4
  push_cast at h2 h3 h4
  generalize ((A_LN_10 : ℚ) : ℝ) = L at *
  generalize ((dlt : ℚ) : ℝ) = δ at *
  rw [abs_le] at h0
  norm_num at h2 h3 h4 ⊢
  constructor <;> linarith [h0.1, h0.2]

theorem ap_ln10 : Ap Double.LN_10 (Real.log 10) (2.303 / 2 ^ 104) := by
  refine ⟨C48_double_normalized _ (by simp), ?_⟩
  have h := C48_double_values.2.2.2.2.2.2.2.2.2.2.2.2.2.2.2.2.2.2.2.2.2.2.2
  unfold Near at h
  obtain ⟨l2, l3⟩ := log10_bounds
  rw [abs_of_pos (show 0 < Real.log 10 by linarith)] at h
  rw [le_div_iff₀ (by positivity)]
  exact h.trans l3

/-- Quotient of two approximated numbers. -/
theorem log_quot {x c : Double} {L b ex f K g : ℝ} (hx : Ap x L ex) (hc : Ap c b f) (hf : f ≤ |b| / 2 ^ 50)
    (hb1 : 1 / 2 ^ 100 ≤ |b|) (hb2 : |b| ≤ 2 ^ 20) (hL : |L| + ex ≤ 2 ^ 20) (hL2 : 1 / 2 ^ 120 ≤ |L| - ex)
    (hK : ex + |L / b| * f ≤ K * |b|) (hK0 : 0 ≤ K) (hg : K * (1 + 1 / 2 ^ 40) + |L / b| / 2 ^ 102 ≤ g) :
    Ap (x / c) (L / b) g := by
  have hb0 : 0 < |b| := lt_of_lt_of_le (by positivity) hb1
  refine hx.div hc (Y := |b| * (1 - 1 / 2 ^ 50)) hL2 (hL.trans (by norm_num))
    (by norm_num at hb1 ⊢; linarith) (by norm_num at hf ⊢; linarith) (by norm_num at hf hb2 ⊢; linarith) ?_
  have hd : (ex + |L / b| * f) / (|b| * (1 - 1 / 2 ^ 50)) ≤ K * (1 + 1 / 2 ^ 49) := by
    rw [div_le_iff₀ (by norm_num at hb0 ⊢; exact hb0)]
    refine hK.trans ?_
    have e1 : K * (1 + 1 / 2 ^ 49) * (|b| * (1 - 1 / 2 ^ 50)) = K * |b| * ((1 + 1 / 2 ^ 49) * (1 - 1 / 2 ^ 50)) := by ring
    rw [e1]
    exact le_mul_of_one_le_right (by positivity) (by norm_num)
  generalize (ex + |L / b| * f) / (|b| * (1 - 1 / 2 ^ 50)) = d at *
  refine le_trans ?_ hg
  norm_num at hd ⊢
  linarith

/-- **C64.** `log10` and `log2` of a number not too close to one. -/
theorem C64_log10_log2 (P : Platform) (hP : LibmLogs P) (a : Double) (ha : a.Normalized) (hp : 0 < a.val)
    (h1 : -707 ≤ Real.log (a.val : ℝ)) (h2 : Real.log (a.val : ℝ) ≤ 599) (h3 : 1 / 2 ^ 90 ≤ |Real.log (a.val : ℝ)|) :
    (∃ r, Double.log10 P a = some r ∧ r.Normalized ∧
      |(r.val : ℝ) - Real.logb 10 (a.val : ℝ)| ≤ (4 * |Real.logb 10 (a.val : ℝ)| + 6) / 2 ^ 102) ∧
    (∃ r, Double.log2 P a = some r ∧ r.Normalized ∧
      |(r.val : ℝ) - Real.logb 2 (a.val : ℝ)| ≤ (4 * |Real.logb 2 (a.val : ℝ)| + 19) / 2 ^ 102) := by
  obtain ⟨r, hr, hA⟩ := C64_ln_ap hP ha hp h1 h2
  unfold Double.log10 Double.log2
  rw [hr]
  unfold Real.logb
  generalize Real.log (a.val : ℝ) = L at *
  have hL : |L| ≤ 707 := abs_le.mpr ⟨h1, by linarith⟩
  have gen : ∀ (c : Double) (b k e : ℝ), Ap c b (k / 2 ^ 104) → 1 / 2 ≤ b → b ≤ 3 → k ≤ 102 / 100 * b → 13 ≤ (e - 1 / 10) * b → e ≤ 100 →
      Ap (r / c) (L / b) ((4 * |L / b| + e) / 2 ^ 102) := by
    intro c b k e hc hb1 hb2 hk he he2
    have hb0 : 0 < b := by linarith
    have hq0 := abs_nonneg (L / b)
    have hq2 : |L / b| ≤ 1414 := by
      rw [abs_div, abs_of_pos hb0, div_le_iff₀ hb0]; linarith
    have eL : |L| = |L / b| * b := by rw [abs_div, abs_of_pos hb0]; field_simp
    refine log_quot hA hc (K := (226 / 100 * |L / b| + (e - 1 / 10)) / 2 ^ 102) ?_ ?_ ?_ ?_ ?_ ?_ ?_ ?_
    · rw [abs_of_pos hb0]; norm_num; linarith
    · rw [abs_of_pos hb0]; norm_num; linarith
    · rw [abs_of_pos hb0]; norm_num; linarith
    · norm_num; linarith
    · norm_num at h3 ⊢; linarith
    · have h5 : |L / b| * k ≤ |L / b| * (102 / 100 * b) := mul_le_mul_of_nonneg_left hk hq0
      rw [abs_of_pos hb0, eL]
      generalize |L / b| = q at *
      have h6 : (226 / 100 * q + (e - 1 / 10)) / 2 ^ 102 * b = (226 / 100 * (q * b) + (e - 1 / 10) * b) / 2 ^ 102 := by ring
      have h7 : q * (k / 2 ^ 104) = q * k / 2 ^ 104 := by ring
      have h8 : q * (102 / 100 * b) = 102 / 100 * (q * b) := by ring
      have h9 : 0 ≤ q * b := mul_nonneg hq0 hb0.le
      rw [h6, h7]
      rw [h8] at h5
      generalize q * b = w at *
      generalize (e - 1 / 10) * b = v at *
      generalize q * k = u at *
      norm_num; linarith
    · have : 0 ≤ e - 1 / 10 := by
        by_contra hc
        push Not at hc
        have := mul_nonpos_of_nonpos_of_nonneg hc.le hb0.le
        linarith
      positivity
    · have : e ≤ 100 := he2
      norm_num; linarith
  obtain ⟨-, l2, l3⟩ := fr_ln2
  obtain ⟨l4, l5⟩ := log10_bounds
  refine ⟨⟨_, rfl, ?_⟩, ⟨_, rfl, ?_⟩⟩
  · exact gen Double.LN_10 (Real.log 10) 2.303 6 ap_ln10 (by norm_num at *; linarith) (by norm_num at *; linarith)
      (by norm_num at *; linarith) (by norm_num at *; linarith) (by norm_num)
  · have := ap_ln2
    have e : (7:ℝ) / 10 / 2 ^ 104 = 0.7 / 2 ^ 104 := by norm_num
    rw [e] at this
    exact gen Double.LN_2 (Real.log 2) 0.7 19 this (by norm_num at *; linarith) (by norm_num at *; linarith)
      (by norm_num at *; linarith) (by norm_num at *; linarith) (by norm_num)

/-- **C64.** The logarithm to any base `b` not too close to one. -/
theorem C64_log (P : Platform) (hP : LibmLogs P) (a b : Double) (ha : a.Normalized) (hb : b.Normalized) (hp : 0 < a.val) (hq : 0 < b.val)
    (h1 : -707 ≤ Real.log (a.val : ℝ)) (h2 : Real.log (a.val : ℝ) ≤ 599) (h3 : 1 / 2 ^ 90 ≤ |Real.log (a.val : ℝ)|)
    (g1 : -707 ≤ Real.log (b.val : ℝ)) (g2 : Real.log (b.val : ℝ) ≤ 599) (g3 : 1 / 2 ^ 40 ≤ |Real.log (b.val : ℝ)|) :
    ∃ r, Double.log P a b = some r ∧ r.Normalized ∧
      |(r.val : ℝ) - Real.logb (b.val : ℝ) (a.val : ℝ)| ≤
        (6 * |Real.logb (b.val : ℝ) (a.val : ℝ)| + 14 * (1 + |Real.logb (b.val : ℝ) (a.val : ℝ)|) / |Real.log (b.val : ℝ)|) / 2 ^ 102 := by
  obtain ⟨r, hr, hA⟩ := C64_ln_ap hP ha hp h1 h2
  obtain ⟨s, hs, hB⟩ := C64_ln_ap hP hb hq g1 g2
  have hn : a.isNan = false := by
    by_contra hc
    have := fs_isFinite_nan (by simpa using hc); unfold Double.isFinite at this; rw [ha.1.1] at this; cases this
  obtain ⟨h, l, i, nn⟩ := hb.norm2
  have hh : 0 < h := by
    have hqR : 0 < rv b := by unfold rv; exact_mod_cast hq
    have hpos := (log_hi hb hqR).1
    rw [fr_is i.1] at hpos
    have : (0:ℝ) < (one' : ℝ) := by exact_mod_cast one'_pos
    by_contra hc
    have : (h:ℝ) ≤ 0 := by exact_mod_cast not_lt.mp hc
    exact absurd hpos (not_lt.mpr (div_nonpos_of_nonpos_of_nonneg this (by linarith)))
  have hsn : b.isSignNegative = false := by
    obtain ⟨s, m, hm, e, eh⟩ := i.1.exists
    by_contra hc
    unfold Double.isSignNegative at hc
    rw [e] at hc
    have : s = true := by simpa [F64.isSignNegative] using hc
    subst this
    simp only [if_true] at eh
    omega
  have hz : b.isZero = false := by
    by_contra hc
    have hc : b.isZero = true := by simpa using hc
    unfold Double.isZero at hc
    rw [i.1.eq_iff is_zero] at hc; omega
  rw [(C43_log_quotients P a b r s hr hs).2.2 hn hsn hz]
  refine ⟨_, rfl, ?_⟩
  unfold Real.logb
  generalize Real.log (a.val : ℝ) = L at *
  generalize Real.log (b.val : ℝ) = B at *
  have hL : |L| ≤ 707 := abs_le.mpr ⟨h1, by linarith⟩
  have hBa : |B| ≤ 707 := abs_le.mpr ⟨g1, by linarith⟩
  have hB0 : 0 < |B| := lt_of_lt_of_le (by positivity) g3
  have hq0 := abs_nonneg (L / B)
  have eL : |L| = |L / B| * |B| := by rw [abs_div]; field_simp
  have hK : 0 ≤ (4 * |L / B| + 13 * (1 + |L / B|) / |B|) / 2 ^ 102 := by positivity
  refine log_quot hA hB (K := (4 * |L / B| + 13 * (1 + |L / B|) / |B|) / 2 ^ 102) ?_ ?_ ?_ ?_ ?_ ?_ hK ?_
  · norm_num at g3 ⊢; linarith
  · norm_num at g3 ⊢; linarith
  · norm_num; linarith
  · norm_num; linarith
  · norm_num at h3 ⊢; linarith
  · rw [eL]
    have : (4 * |L / B| + 13 * (1 + |L / B|) / |B|) / 2 ^ 102 * |B| = (4 * (|L / B| * |B|) + 13 * (1 + |L / B|)) / 2 ^ 102 := by
      field_simp
    rw [this]
    apply le_of_eq; ring
  · have h5 : 0 ≤ (1 + |L / B|) / |B| := by positivity
    rw [mul_div_assoc, mul_div_assoc]
    generalize (1 + |L / B|) / |B| = w at *
    norm_num; linarith

example : Double.PI.Normalized ∧ 0 < Double.PI.val := by decide +kernel

end Verif
