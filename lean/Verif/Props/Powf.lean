import Verif.Props.Ln
import Verif.Proofs.PlatformWitness

/-!
# C65: `powf`
-/

namespace Verif

/-- **C65.** The special cases of `powf`: a zero base with a zero, positive or negative exponent; an infinite exponent with
base one or any other nonzero base. -/
theorem C65_special (P : Platform) (a n : Double) :
    (a.isZero = true → n.isZero = true → Double.powf P a n = some Double.NAN) ∧
    (a.isZero = true → n.isZero = false → n.isSignPositive = true → Double.powf P a n = some Double.ZERO) ∧
    (a.isZero = true → n.isZero = false → n.isSignPositive = false → Double.powf P a n = some Double.INFINITY) ∧
    (a.isZero = false → n.isInfinite = true → Double.eq a Double.ONE = true → Double.powf P a n = some Double.NAN) ∧
    (a.isZero = false → n.isInfinite = true → Double.eq a Double.ONE = false → n.isSignPositive = true →
      Double.powf P a n = some Double.INFINITY) ∧
    (a.isZero = false → n.isInfinite = true → Double.eq a Double.ONE = false → n.isSignPositive = false →
      Double.powf P a n = some Double.ZERO) := by
  refine ⟨?_, ?_, ?_, ?_, ?_, ?_⟩ <;> intros <;> unfold Double.powf Double.prePowf <;> simp [*]

example : Double.NEG_ZERO.isZero = true ∧ Double.NEG_INFINITY.isInfinite = true ∧ Double.PI.isZero = false ∧
    Double.eq Double.PI Double.ONE = false ∧ Double.PI.isSignPositive = true := by decide +kernel

/-- **C65.** Everywhere else `powf` is `exp(n ln a)`. -/
theorem C65_def (P : Platform) (a n l : Double) (ha : a.isZero = false) (hn : n.isInfinite = false)
    (hl : Double.ln P a = some l) : Double.powf P a n = Double.exp (n * l) := by
  unfold Double.powf Double.prePowf
  simp [ha, hn, hl]

/-- **C65.** NaN operands, and negative bases: the result is NaN (unless the exponent is infinite). -/
theorem C65_nan (P : Platform) (a n : Double) (hn : n.isInfinite = false)
    (h : a.isNan = true ∨ (a.isSignNegative = true ∧ a.isZero = false)) : Double.powf P a n = some Double.NAN := by
  have hl : Double.ln P a = some Double.NAN := by
    rcases h with h | h
    · exact (C43_special P a).1 h
    · exact (C43_special P a).2.1 h.1
  have hz : a.isZero = false := by
    rcases h with h | h
    · unfold Double.isNan at h
      unfold Double.isZero
      cases hh : a.hi with
      | nan s => rfl
      | inf s => rw [hh] at h; cases h
      | fin s m p => rw [hh] at h; cases h
    · exact h.2
  rw [C65_def P a n _ hz hn hl]
  exact C42_nan _ (C11_mul n Double.NAN (Or.inr (by decide +kernel)))

/-- **C65.** `powf` of a positive base, on any platform whose `f64` logarithms are reasonable: with `W = n ln a` between -599
and 707 the result is normalized and its relative error is at most `(4 |W| + 14 |n| + 11) 2^-102`. -/
theorem C65_powf (P : Platform) (hP : LibmLogs P) (a n : Double) (ha : a.Normalized) (hn : n.Normalized) (hp : 0 < a.val)
    (h1 : -707 ≤ Real.log (a.val : ℝ)) (h2 : Real.log (a.val : ℝ) ≤ 599) (hN : |(n.val : ℝ)| ≤ 2 ^ 50)
    (hw1 : -599 ≤ (n.val : ℝ) * Real.log (a.val : ℝ)) (hw2 : (n.val : ℝ) * Real.log (a.val : ℝ) ≤ 707) :
    ∃ r, Double.powf P a n = some r ∧ r.Normalized ∧
      |(r.val : ℝ) - (a.val : ℝ) ^ (n.val : ℝ)| ≤
        (4 * |(n.val : ℝ) * Real.log (a.val : ℝ)| + 14 * |(n.val : ℝ)| + 11) / 2 ^ 102 * (a.val : ℝ) ^ (n.val : ℝ) := by
  obtain ⟨l, hl, hA⟩ := C64_ln_ap hP ha hp h1 h2
  have hpR : (0:ℝ) < (a.val : ℝ) := by exact_mod_cast hp
  have hz : a.isZero = false := by
    by_contra hc
    have hc : a.isZero = true := by simpa using hc
    obtain ⟨h, l, i, nn⟩ := ha.norm2
    unfold Double.isZero at hc
    rw [i.1.eq_iff is_zero] at hc
    subst hc
    have := nn.lo_le
    have hl : l = 0 := by
      rw [abs_zero] at this
      have := abs_nonneg l
      exact abs_eq_zero.mp (by omega)
    rw [i.val, hl] at hp; norm_num at hp
  have hi : n.isInfinite = false := by
    obtain ⟨h, l, i, nn⟩ := hn.norm2
    obtain ⟨s, m, hm, e, eh⟩ := i.1.exists
    unfold Double.isInfinite
    rw [e]; rfl
  rw [C65_def P a n l hz hi hl]
  have hpow : (a.val : ℝ) ^ (n.val : ℝ) = Real.exp ((n.val : ℝ) * Real.log (a.val : ℝ)) := by
    rw [Real.rpow_def_of_pos hpR, mul_comm]
  rw [hpow]
  have hNx := Ap.exact hn
  change Ap n (n.val : ℝ) 0 at hNx
  generalize (n.val : ℝ) = N at *
  generalize Real.log (a.val : ℝ) = L at *
  have hL : |L| ≤ 707 := abs_le.mpr ⟨h1, by linarith⟩
  have hW : |N * L| ≤ 707 := abs_le.mpr ⟨by linarith, hw2⟩
  have hWe : |N * L| = |N| * |L| := abs_mul N L
  have hN0 := abs_nonneg N
  have hL0 := abs_nonneg L
  -- the product
  have ht : Ap (n * l) (N * L) ((28 / 10 * |N * L| + 134 / 10 * |N| + 1 / 10) / 2 ^ 102) := by
    refine hNx.mul hA le_rfl le_rfl (by norm_num at hN ⊢; linarith) (by norm_num; linarith) ?_
    rw [hWe]
    have e1 : |N| * ((2 * |L| + 13) / 2 ^ 102) = (2 * (|N| * |L|) + 13 * |N|) / 2 ^ 102 := by ring
    have e2 : (|N| + 0) * (|L| + (2 * |L| + 13) / 2 ^ 102) = |N| * |L| + (2 * (|N| * |L|) + 13 * |N|) / 2 ^ 102 := by ring
    rw [e1, e2]
    have e3 : 0 ≤ |N| * |L| := by positivity
    generalize |N| * |L| = w at *
    norm_num at hN ⊢
    linarith
  have ht0 : |rv (n * l) - N * L| ≤ 1 / 2 ^ 46 := ht.2.trans (by norm_num at hN ⊢; linarith)
  have hb := abs_le.mp ht0
  have hta : |rv (n * l)| ≤ |N * L| + 1 / 2 ^ 46 := by
    have := abs_add_le (rv (n * l) - N * L) (N * L)
    rw [sub_add_cancel] at this; linarith
  have hhi := rv_sub_hi ht.1
  have hhi2 := fr_hi_le ht.1
  have hh : |rv (n * l) - fr (n * l).hi| ≤ 1 / 2 ^ 40 := by
    refine hhi.trans ?_
    norm_num at hta hhi2 ⊢
    linarith
  have hh' := abs_le.mp hh
  obtain ⟨r, hr, hrn, hre⟩ := C63_exp (n * l) ht.1
    (by
      have : (-600:ℝ) ≤ fr (n * l).hi := by norm_num at hh' hb; linarith [hh'.1, hh'.2, hb.1, hb.2]
      unfold fr at this; exact_mod_cast this)
    (by
      have : fr (n * l).hi ≤ (708:ℝ) := by norm_num at hh' hb; linarith [hh'.1, hh'.2, hb.1, hb.2]
      unfold fr at this; exact_mod_cast this)
  refine ⟨r, hr, hrn, ?_⟩
  change |rv r - Real.exp (rv (n * l))| ≤ (|rv (n * l)| + 10) / 2 ^ 102 * Real.exp (rv (n * l)) at hre
  change |rv r - Real.exp (N * L)| ≤ _
  have ht2 := ht.2
  generalize rv (n * l) = T at *
  have hE : Real.exp T = Real.exp (N * L) * Real.exp (T - N * L) := by rw [← Real.exp_add]; congr 1; ring
  generalize T - N * L = D at *
  generalize N * L = W at *
  have hD : |Real.exp D - 1| ≤ (29 / 10 * |W| + 135 / 10 * |N| + 2 / 10) / 2 ^ 102 := by
    have h3 := Real.abs_exp_sub_one_sub_id_le (x := D) (ht0.trans (by norm_num))
    have h4 := abs_add_le (Real.exp D - 1 - D) D
    rw [sub_add_cancel] at h4
    have h5 : D ^ 2 ≤ |D| * (1 / 2 ^ 46) := by
      rw [← sq_abs, pow_two]; exact mul_le_mul_of_nonneg_left ht0 (abs_nonneg _)
    have h7 : |Real.exp D - 1| ≤ |D| * (1 + 1 / 2 ^ 46) := by linarith
    refine h7.trans ((mul_le_mul_of_nonneg_right ht2 (by norm_num)).trans ?_)
    have := abs_nonneg W
    norm_num; linarith
  have hD2 : |Real.exp D - 1| ≤ 1 / 2 ^ 40 := hD.trans (by norm_num at hN ⊢; linarith)
  have hED : Real.exp D ≤ 1 + 1 / 2 ^ 40 := by linarith [(abs_le.mp hD2).2]
  have h3 := abs_add_le (rv r - Real.exp T) (Real.exp T - Real.exp W)
  rw [sub_add_sub_cancel] at h3
  have h4 : |Real.exp T - Real.exp W| ≤ (29 / 10 * |W| + 135 / 10 * |N| + 2 / 10) / 2 ^ 102 * Real.exp W := by
    rw [hE, ← mul_sub_one, abs_mul, abs_of_pos (Real.exp_pos _), mul_comm]
    exact mul_le_mul_of_nonneg_right hD (Real.exp_pos _).le
  have h5 : (|T| + 10) / 2 ^ 102 * Real.exp T ≤ (101 / 100 * |W| + 103 / 10) / 2 ^ 102 * Real.exp W := by
    rw [hE]
    have h6 : (|T| + 10) / 2 ^ 102 * (Real.exp W * Real.exp D) ≤ (|T| + 10) / 2 ^ 102 * (Real.exp W * (1 + 1 / 2 ^ 40)) := by
      apply mul_le_mul_of_nonneg_left _ (by positivity)
      exact mul_le_mul_of_nonneg_left hED (Real.exp_pos _).le
    refine h6.trans ?_
    have h7 : (|T| + 10) / 2 ^ 102 * (Real.exp W * (1 + 1 / 2 ^ 40)) = (|T| + 10) / 2 ^ 102 * (1 + 1 / 2 ^ 40) * Real.exp W := by ring
    rw [h7]
    apply mul_le_mul_of_nonneg_right _ (Real.exp_pos _).le
    have := abs_nonneg W
    norm_num at hta ⊢; linarith
  have h8 : (4 * |W| + 14 * |N| + 11) / 2 ^ 102 * Real.exp W =
      (29 / 10 * |W| + 135 / 10 * |N| + 2 / 10) / 2 ^ 102 * Real.exp W + (101 / 100 * |W| + 103 / 10) / 2 ^ 102 * Real.exp W +
      (9 / 100 * |W| + 5 / 10 * |N| + 5 / 10) / 2 ^ 102 * Real.exp W := by ring
  have h9 : 0 ≤ (9 / 100 * |W| + 5 / 10 * |N| + 5 / 10) / 2 ^ 102 * Real.exp W := by
    have := abs_nonneg W
    have := Real.exp_pos W
    positivity
  rw [h8]
  linarith

/-- A concrete case for `C64_ln` and `C65_powf`: base pi, exponent e, on the witness platform. -/
example : LibmLogs logPlatform ∧ Double.PI.Normalized ∧ Double.E.Normalized ∧ 0 < Double.PI.val ∧
    -707 ≤ Real.log (Double.PI.val : ℝ) ∧ Real.log (Double.PI.val : ℝ) ≤ 599 ∧ |(Double.E.val : ℝ)| ≤ 2 ^ 50 ∧
    -599 ≤ (Double.E.val : ℝ) * Real.log (Double.PI.val : ℝ) ∧ (Double.E.val : ℝ) * Real.log (Double.PI.val : ℝ) ≤ 707 ∧
    1 / 2 ^ 90 ≤ |Real.log (Double.PI.val : ℝ)| := by
  have h : Double.PI.Normalized ∧ Double.E.Normalized ∧ mkRat 3 1 ≤ Double.PI.val ∧ Double.PI.val ≤ mkRat 4 1 ∧
    mkRat 2 1 ≤ Double.E.val ∧ Double.E.val ≤ mkRat 3 1 := by decide +kernel
  obtain ⟨n1, n2, p1, p2, e1, e2⟩ := h
  have hp : 0 < Double.PI.val := lt_of_lt_of_le (by norm_num [Rat.mkRat_eq_div]) p1
  have p1 := (Rat.cast_le (K := ℝ)).mpr p1
  have p2 := (Rat.cast_le (K := ℝ)).mpr p2
  have e1 := (Rat.cast_le (K := ℝ)).mpr e1
  have e2 := (Rat.cast_le (K := ℝ)).mpr e2
  rw [Rat.mkRat_eq_div] at p1 p2 e1 e2
  push_cast at p1 p2 e1 e2
  norm_num at p1 p2 e1 e2
  have l1 : Real.log (Double.PI.val : ℝ) ≤ 3 := by
    have := Real.log_le_sub_one_of_pos (show (0:ℝ) < (Double.PI.val : ℝ) by linarith)
    linarith
  have l0 : 1 / 2 ≤ Real.log (Double.PI.val : ℝ) := by
    have := Real.one_sub_inv_le_log_of_pos (show (0:ℝ) < (Double.PI.val : ℝ) by linarith)
    have h3 : ((Double.PI.val : ℝ))⁻¹ ≤ 1 / 2 := by
      rw [inv_le_comm₀ (by linarith) (by norm_num)]; norm_num; linarith
    linarith
  refine ⟨logPlatform_ok, n1, n2, hp, by linarith, by linarith, ?_, ?_, ?_, ?_⟩
  · rw [abs_of_pos (by linarith)]; norm_num; linarith
  · nlinarith
  · nlinarith
  · rw [abs_of_pos (by linarith)]; norm_num at l0 ⊢; linarith

end Verif
