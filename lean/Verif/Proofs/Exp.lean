import Verif.Proofs.Approx
import Verif.Props.FuncSpecial
import Verif.Props.Tables
import Verif.Props.Consts
import Mathlib.Analysis.SpecialFunctions.Exp
import Mathlib.Analysis.Complex.Exponential

/-!
# The error of the Taylor part and of the repeated squaring of `exp`
-/

namespace Verif

open Consts

/-- Partial sum of the series of `e ^ X - 1`, up to the power `n`. -/
noncomputable def ES (X : ℝ) (n : ℕ) : ℝ := (∑ m ∈ Finset.range (n + 1), X ^ m / m.factorial) - 1

theorem ES_succ (X : ℝ) (n : ℕ) : ES X (n + 1) = ES X n + X ^ (n + 1) / (n + 1).factorial := by
  unfold ES; rw [Finset.sum_range_succ]; ring

theorem ES_two (X : ℝ) : ES X 2 = X + X ^ 2 / 2 := by
  unfold ES; simp [Finset.sum_range_succ, Nat.factorial]; ring

theorem ES_rem {X : ℝ} (hX : |X| ≤ 1) (n : ℕ) (hn : 1 ≤ n) :
    |(Real.exp X - 1) - ES X n| ≤ |X ^ n / n.factorial| * |X| * (((n : ℝ) + 2) / (n + 1) ^ 2) := by
  have h := Real.exp_bound hX (n := n + 1) (by omega)
  have e : (Real.exp X - 1) - ES X n = Real.exp X - ∑ m ∈ Finset.range (n + 1), X ^ m / m.factorial := by
    unfold ES; ring
  rw [e]
  refine h.trans ?_
  rw [abs_div, abs_pow, Nat.abs_cast]
  have hf : (0:ℝ) < (n.factorial : ℝ) := by exact_mod_cast n.factorial_pos
  apply le_of_eq
  rw [Nat.factorial_succ]
  push_cast
  field_simp
  ring

theorem ES_rem' {X : ℝ} (hX : |X| ≤ 1) (n : ℕ) (hn : 1 ≤ n) :
    |(Real.exp X - 1) - ES X n| ≤ |X ^ n / n.factorial| * |X| := by
  refine (ES_rem hX n hn).trans (mul_le_of_le_one_right (by positivity) ?_)
  have hn' : (1:ℝ) ≤ n := by exact_mod_cast hn
  rw [div_le_one (by positivity)]
  nlinarith

theorem exp_sub_one_le {X : ℝ} {q : ℝ} (hX : |X| ≤ q) (hq : q ≤ 1) : |Real.exp X - 1| ≤ q + q ^ 2 := by
  have h := Real.abs_exp_sub_one_sub_id_le (x := X) (hX.trans hq)
  have h2 : X ^ 2 ≤ q ^ 2 := by rw [← sq_abs]; exact pow_le_pow_left₀ (abs_nonneg _) hX 2
  have h3 := abs_add_le (Real.exp X - 1 - X) X
  rw [sub_add_cancel] at h3
  linarith

theorem pow_q {X : ℝ} {q : ℝ} (hX : |X| ≤ q) (n : ℕ) : |X ^ n| ≤ q ^ n := by
  rw [abs_pow]; exact pow_le_pow_left₀ (abs_nonneg _) hX n

theorem ES_abs {X : ℝ} (hX : |X| ≤ 7 / 10000) (n : ℕ) (hn : 2 ≤ n) : |ES X n| ≤ 701 / 1000000 := by
  have h1 := ES_rem' (hX.trans (by norm_num)) n (by omega)
  have h2 := exp_sub_one_le hX (by norm_num)
  have h3 : |X ^ n / n.factorial| ≤ 1 / 10 ^ 6 := by
    rw [abs_div, Nat.abs_cast]
    have : (1:ℝ) ≤ n.factorial := by exact_mod_cast n.factorial_pos
    refine (div_le_self (abs_nonneg _) this).trans ?_
    refine (pow_q hX n).trans ?_
    refine (pow_le_pow_of_le_one (by norm_num) (by norm_num) hn).trans ?_
    norm_num
  have h4 : |X ^ n / n.factorial| * |X| ≤ 1 / 10 ^ 6 * (7 / 10000) :=
    mul_le_mul h3 hX (abs_nonneg _) (by norm_num)
  have h5 := abs_sub_abs_le_abs_sub (ES X n) (Real.exp X - 1)
  rw [abs_sub_comm (ES X n)] at h5
  norm_num at h2 h4 ⊢
  linarith

/-- The entries of the table of inverse factorials. -/
theorem ap_inv_fact {i : ℕ} (hi : i < 15) : ∃ c, Double.INV_FACTS[i]? = some c ∧
    Ap c (1 / ((i + 3).factorial : ℝ)) (1 / 2 ^ 107) := by
  obtain ⟨c, h1, h2, h3⟩ := C49_double_inv_facts.2 i hi
  refine ⟨c, h1, h2, ?_⟩
  have hf : (1:ℝ) ≤ ((i + 3).factorial : ℝ) := by exact_mod_cast (i + 3).factorial_pos
  have h4 : |(c.val * ((i + 3).factorial : ℚ) - 1 : ℚ)| ≤ 1 / 2 ^ 107 := by
    refine h3.trans (le_of_eq ?_)
    rw [Rat.mkRat_eq_div]; norm_num
  have h5 : |rv c * ((i + 3).factorial : ℝ) - 1| ≤ 1 / 2 ^ 107 := by
    have := (Rat.cast_le (K := ℝ)).mpr h4
    push_cast at this
    exact this
  have e : rv c - 1 / ((i + 3).factorial : ℝ) = (rv c * ((i + 3).factorial : ℝ) - 1) / ((i + 3).factorial : ℝ) := by
    field_simp
  rw [e, abs_div, Nat.abs_cast]
  exact (div_le_self (abs_nonneg _) hf).trans h5

/-- The threshold of the Taylor loop of `exp`. -/
noncomputable def expEps : Double := Double.mulPwr2 Double.EPSILON Double.INV_K.hi

theorem expEps_facts : (Double.mulPwr2 Double.EPSILON Double.INV_K.hi).Normalized ∧
    (Double.mulPwr2 Double.EPSILON Double.INV_K.hi).val ≤ mkRat 1 (2 ^ 112) := by
  constructor <;> decide +kernel

/-- One unit of error of the Taylor part: an addition of numbers not above 0.00071. -/
noncomputable def rho : ℝ := 71 / 100000 / 2 ^ 103

theorem expLoop_ap {x : Double} (hx : x.Normalized) (hX : |rv x| ≤ 7 / 10000) :
    ∀ (d i : ℕ) (r p t : Double), i + d = 5 → 1 ≤ d →
    Ap r (ES (rv x) (i + 2)) ((i + 1) * rho) → Ap p (rv x ^ (i + 3)) (1 / 2 ^ 125) →
    Ap t (rv x ^ (i + 3) / (i + 3).factorial) (1 / 2 ^ 125) →
    ∀ fuel, d ≤ fuel → ∃ v, Double.expLoop x (Double.mulPwr2 Double.EPSILON Double.INV_K.hi) fuel r p t i = some v ∧
      Ap v (Real.exp (rv x) - 1) (65 / 10000 / 2 ^ 103) := by
  intro d
  induction d with
  | zero => intro i r p t h h1; omega
  | succ d ih =>
    intro i r p t h h1 hr hp ht fuel hf
    obtain ⟨fuel, rfl⟩ : ∃ f, fuel = f + 1 := ⟨fuel - 1, by omega⟩
    obtain ⟨c, hc, hcA⟩ := ap_inv_fact (i := i + 1) (by omega)
    simp only [Double.expLoop, hc]
    generalize hXd : rv x = X at *
    have hi : (i:ℝ) ≤ 4 := by exact_mod_cast (by omega : i ≤ 4)
    have hi0 : (0:ℝ) ≤ i := by positivity
    -- the new sum
    have hr' : Ap (r + t) (ES X (i + 1 + 2)) ((((i + 1 : ℕ) : ℝ) + 1) * rho) := by
      have e : ES X (i + 1 + 2) = ES X (i + 2) + X ^ (i + 3) / (i + 3).factorial := ES_succ X (i + 2)
      have b0 := ES_abs hX (i + 2) (by omega)
      have b1 := ES_abs hX (i + 1 + 2) (by omega)
      have b2 : |X ^ (i + 3) / (i + 3).factorial| ≤ 1 := by
        rw [abs_div, Nat.abs_cast]
        have : (1:ℝ) ≤ (i + 3).factorial := by exact_mod_cast (i + 3).factorial_pos
        refine (div_le_self (abs_nonneg _) this).trans ((pow_q hX _).trans (pow_le_one₀ (by norm_num) (by norm_num)))
      rw [e] at b1 ⊢
      refine hr.add ht (by unfold rho; norm_num; linarith) (by norm_num; linarith) b1 ?_
      unfold rho; push_cast; norm_num; linarith
    have hp' : Ap (p * x) (X ^ (i + 1 + 3)) (1 / 2 ^ 125) := by
      have hxA : Ap x X 0 := hXd ▸ Ap.exact hx
      have b : |X ^ (i + 3)| ≤ 1 / 10 ^ 9 := by
        refine (pow_q hX _).trans ?_
        refine (pow_le_pow_of_le_one (by norm_num) (by norm_num) (show 3 ≤ i + 3 by omega)).trans ?_
        norm_num
      have := hp.mul hxA b hX (by norm_num) (by norm_num) (g := 1 / 2 ^ 125) (by norm_num)
      rwa [← pow_succ] at this
    have ht' : Ap (p * x * c) (X ^ (i + 1 + 3) / (i + 1 + 3).factorial) (1 / 2 ^ 125) := by
      have b : |X ^ (i + 1 + 3)| ≤ 1 / 10 ^ 12 := by
        refine (pow_q hX _).trans ?_
        refine (pow_le_pow_of_le_one (by norm_num) (by norm_num) (show 4 ≤ i + 1 + 3 by omega)).trans ?_
        norm_num
      have b2 : |1 / ((i + 1 + 3).factorial : ℝ)| ≤ 1 / 24 := by
        rw [abs_div, Nat.abs_cast, abs_one]
        apply one_div_le_one_div_of_le (by norm_num)
        have : Nat.factorial 4 ≤ (i + 1 + 3).factorial := Nat.factorial_le (by omega)
        exact_mod_cast this
      have := hp'.mul hcA b b2 (by norm_num) (by norm_num) (g := 1 / 2 ^ 125) (by norm_num)
      rwa [mul_one_div] at this
    have hlast : Ap (r + t + p * x * c) (ES X (i + 4)) ((((i + 1 : ℕ) : ℝ) + 2) * rho) := by
      have e : ES X (i + 4) = ES X (i + 1 + 2) + X ^ (i + 1 + 3) / (i + 1 + 3).factorial := ES_succ X (i + 3)
      have b0 := ES_abs hX (i + 1 + 2) (by omega)
      have b1 := ES_abs hX (i + 4) (by omega)
      have b2 : |X ^ (i + 1 + 3) / (i + 1 + 3).factorial| ≤ 1 := by
        rw [abs_div, Nat.abs_cast]
        have : (1:ℝ) ≤ (i + 1 + 3).factorial := by exact_mod_cast (i + 1 + 3).factorial_pos
        refine (div_le_self (abs_nonneg _) this).trans ((pow_q hX _).trans (pow_le_one₀ (by norm_num) (by norm_num)))
      rw [e] at b1 ⊢
      refine hr'.add ht' (by unfold rho; push_cast; norm_num; linarith) (by norm_num; linarith) b1 ?_
      unfold rho; push_cast; norm_num; linarith
    split_ifs with hs
    · refine ⟨_, rfl, ?_⟩
      have hrem := ES_rem (hX.trans (by norm_num)) (i + 4) (by omega)
      have hsmall : |X ^ (i + 4) / (i + 4).factorial| * (((i + 4 : ℕ) : ℝ) + 2) / (((i + 4 : ℕ) : ℝ) + 1) ^ 2 ≤ 181 / 100 / 2 ^ 103 := by
        rw [Bool.or_eq_true, decide_eq_true_eq] at hs
        rcases hs with hs | hs
        · have : i = 4 := by omega
          subst this
          rw [abs_div, Nat.abs_cast]
          have b := pow_q hX (4 + 4)
          rw [div_mul_eq_mul_div, div_div, div_le_iff₀ (by positivity)]
          refine (mul_le_mul_of_nonneg_right b (by positivity)).trans ?_
          norm_num [Nat.factorial]
        · have hn := C41_abs_val _ ht'.1
          have hl := ((C12_compare _ _ hn.1 expEps_facts.1).2.1).mp hs
          rw [hn.2] at hl
          have hl2 := (Rat.cast_le (K := ℝ)).mpr (hl.trans expEps_facts.2)
          have e : |rv (p * x * c)| ≤ 1 / 2 ^ 112 := by
            unfold rv
            rw [Rat.mkRat_eq_div] at hl2
            push_cast at hl2
            norm_num at hl2 ⊢
            exact hl2
          have := ht'.2
          have h3 := abs_sub_abs_le_abs_sub (X ^ (i + 1 + 3) / (i + 1 + 3).factorial) (rv (p * x * c))
          rw [abs_sub_comm (X ^ (i + 1 + 3) / ((i + 1 + 3).factorial : ℝ))] at h3
          have h4 : |X ^ (i + 1 + 3) / ((i + 1 + 3).factorial : ℝ)| ≤ 181 / 100 / 2 ^ 103 := by
            norm_num at e this ⊢
            linarith
          rw [mul_div_assoc]
          refine (mul_le_of_le_one_right (abs_nonneg _) ?_).trans h4
          rw [div_le_one (by positivity)]
          push_cast
          nlinarith
      have h5 : |X ^ (i + 4) / (i + 4).factorial| * |X| * ((((i + 4 : ℕ) : ℝ) + 2) / (((i + 4 : ℕ) : ℝ) + 1) ^ 2) ≤
          181 / 100 / 2 ^ 103 * (7 / 10000) := by
        rw [mul_right_comm, ← mul_div_assoc]
        exact mul_le_mul hsmall hX (abs_nonneg _) (by norm_num)
      rw [abs_sub_comm] at hrem
      refine (hlast.move (hrem.trans h5)).mono ?_
      unfold rho; push_cast; norm_num; linarith
    · have hd : 1 ≤ d := by
        by_contra hd
        apply hs
        have : i = 4 := by omega
        subst this; simp
      exact ih (i + 1) _ _ _ (by omega) hd hr' hp' ht' fuel (by omega)

/-- One squaring step: if `r` is `T` with error `e`, then the next is `(1 + T) ^ 2 - 1`. -/
theorem expStep_ap {r : Double} {T e M N g : ℝ} (h : Ap r T e) (hM : |T| ≤ M) (hN : |2 * T + T ^ 2| ≤ N)
    (hM1 : M ≤ 1) (he : e ≤ 1 / 2 ^ 90)
    (hg : (2 * e + (2 * M * e + e * e + 9 / 2 ^ 106 * ((M + e) * (M + e)) + 1 / 2 ^ 250)) * (1 + 1 / 2 ^ 103) + N / 2 ^ 103 ≤ g) :
    Ap (Double.expStep r) (2 * T + T ^ 2) g := by
  have he0 := h.nonneg
  have hM0 := (abs_nonneg T).trans hM
  have a := h.two (by norm_num at he ⊢; linarith)
  have b := h.sqr hM (by norm_num at he ⊢; linarith) le_rfl
  have e1 : e * e ≤ 1 := by
    have : e ≤ 1 := he.trans (by norm_num)
    nlinarith
  have e2 : M * e ≤ 1 := by
    have : e ≤ 1 := he.trans (by norm_num)
    nlinarith
  have e3 : (M + e) * (M + e) ≤ 4 := by
    have : e ≤ 1 := he.trans (by norm_num)
    nlinarith
  have e4 : |T ^ 2| ≤ 1 := by
    rw [abs_pow]; exact pow_le_one₀ (abs_nonneg _) (hM.trans hM1)
  unfold Double.expStep
  refine a.add b ?_ ?_ hN ?_
  · rw [abs_mul]; norm_num at he ⊢; linarith
  · have e5 : e * e + 2 * M * e ≤ 3 := by linarith
    have e6 := le_of_abs_le e4
    norm_num at he ⊢; linarith
  · generalize (2 * M * e + e * e + 9 / 2 ^ 106 * ((M + e) * (M + e)) + 1 / 2 ^ 250) = k at *
    have : (N + 2 * e + k) / 2 ^ 103 = N / 2 ^ 103 + (2 * e + k) * (1 / 2 ^ 103) := by ring
    rw [this]; linarith

/-- Nine squaring steps and the final addition of one. -/
theorem expSteps_ap {r : Double} {X : ℝ} (hX : |X| ≤ 7 / 10000) (h : Ap r (Real.exp X - 1) (65 / 10000 / 2 ^ 103)) :
    Ap (Double.expStep (Double.expStep (Double.expStep (Double.expStep (Double.expStep (Double.expStep (Double.expStep
      (Double.expStep (Double.expStep r)))))))) + Double.ONE) (Real.exp (512 * X)) (1075 / 100 / 2 ^ 103) := by
  have step : ∀ {r : Double} {Y M N e g : ℝ}, Ap r (Real.exp Y - 1) e → |Real.exp Y - 1| ≤ M → M ≤ 1 → e ≤ 1 / 2 ^ 90 →
      2 * M + M * M ≤ N →
      (2 * e + (2 * M * e + e * e + 9 / 2 ^ 106 * ((M + e) * (M + e)) + 1 / 2 ^ 250)) * (1 + 1 / 2 ^ 103) + N / 2 ^ 103 ≤ g →
      Ap (Double.expStep r) (Real.exp (2 * Y) - 1) g ∧ |Real.exp (2 * Y) - 1| ≤ N := by
    intro r Y M N e g h hM hM1 he hN hg
    have eq : Real.exp (2 * Y) - 1 = 2 * (Real.exp Y - 1) + (Real.exp Y - 1) ^ 2 := by
      rw [two_mul, Real.exp_add]; ring
    have b : |2 * (Real.exp Y - 1) + (Real.exp Y - 1) ^ 2| ≤ N := by
      have h1 := abs_add_le (2 * (Real.exp Y - 1)) ((Real.exp Y - 1) ^ 2)
      have h2 : |(Real.exp Y - 1) ^ 2| ≤ M * M := by
        rw [abs_pow, pow_two]; exact mul_le_mul hM hM (abs_nonneg _) ((abs_nonneg _).trans hM)
      have h3 : |2 * (Real.exp Y - 1)| = 2 * |Real.exp Y - 1| := by rw [abs_mul]; norm_num
      linarith
    rw [eq]
    exact ⟨expStep_ap h hM b hM1 he hg, b⟩
  have b0 : |Real.exp X - 1| ≤ 701 / 1000000 := (exp_sub_one_le hX (by norm_num)).trans (by norm_num)
  obtain ⟨a1, b1⟩ := step (N := 1403 / 1000000) (g := 1442 / 100000 / 2 ^ 103) h b0 (by norm_num) (by norm_num) (by norm_num) (by norm_num)
  obtain ⟨a2, b2⟩ := step (N := 2808 / 1000000) (g := 3170 / 100000 / 2 ^ 103) a1 b1 (by norm_num) (by norm_num) (by norm_num) (by norm_num)
  obtain ⟨a3, b3⟩ := step (N := 5624 / 1000000) (g := 6922 / 100000 / 2 ^ 103) a2 b2 (by norm_num) (by norm_num) (by norm_num) (by norm_num)
  obtain ⟨a4, b4⟩ := step (N := 11280 / 1000000) (g := 15054 / 100000 / 2 ^ 103) a3 b3 (by norm_num) (by norm_num) (by norm_num) (by norm_num)
  obtain ⟨a5, b5⟩ := step (N := 22688 / 1000000) (g := 32732 / 100000 / 2 ^ 103) a4 b4 (by norm_num) (by norm_num) (by norm_num) (by norm_num)
  obtain ⟨a6, b6⟩ := step (N := 45891 / 1000000) (g := 71597 / 100000 / 2 ^ 103) a5 b5 (by norm_num) (by norm_num) (by norm_num) (by norm_num)
  obtain ⟨a7, b7⟩ := step (N := 93888 / 1000000) (g := 159393 / 100000 / 2 ^ 103) a6 b6 (by norm_num) (by norm_num) (by norm_num) (by norm_num)
  obtain ⟨a8, b8⟩ := step (N := 196591 / 1000000) (g := 369371 / 100000 / 2 ^ 103) a7 b7 (by norm_num) (by norm_num) (by norm_num) (by norm_num)
  obtain ⟨a9, b9⟩ := step (N := 431831 / 1000000) (g := 931513 / 100000 / 2 ^ 103) a8 b8 (by norm_num) (by norm_num) (by norm_num) (by norm_num)
  have e : 2 * (2 * (2 * (2 * (2 * (2 * (2 * (2 * (2 * X)))))))) = 512 * X := by ring
  rw [e] at a9 b9
  have one : Ap Double.ONE 1 0 := by
    refine ⟨by decide +kernel, ?_⟩
    have : Double.ONE.val = 1 := by decide +kernel
    unfold rv; rw [this]; norm_num
  have := a9.add one (M := 1431831 / 1000000) (g := 1075 / 100 / 2 ^ 103) (by norm_num at b9 ⊢; linarith) (by norm_num)
    (by
      have := abs_add_le (Real.exp (512 * X) - 1) 1
      rw [abs_one] at this
      linarith) (by norm_num)
  rwa [sub_add_cancel] at this

/-- The Taylor part of `exp` from the reduced argument on. -/
theorem expTaylor_ap {x : Double} (hx : x.Normalized) (hX : |rv x| ≤ 7 / 10000) : ∃ c, Double.INV_FACTS[0]? = some c ∧
    ∃ v, Double.expLoop x (Double.mulPwr2 Double.EPSILON Double.INV_K.hi) Double.INV_FACTS.length
      (x + Double.mulPwr2 x.sqr Double.half) (x.sqr * x) (x.sqr * x * c) 0 = some v ∧
      Ap v (Real.exp (rv x) - 1) (65 / 10000 / 2 ^ 103) := by
  obtain ⟨c, hc, hcA⟩ := ap_inv_fact (i := 0) (by norm_num)
  refine ⟨c, hc, ?_⟩
  have hxA := Ap.exact hx
  have hp := hxA.sqr hX (g := 1 / 2 ^ 123) (by norm_num) (by norm_num)
  have b2 : |rv x ^ 2| ≤ 49 / 10 ^ 8 := (pow_q hX 2).trans (by norm_num)
  have b3 : |rv x ^ 3| ≤ 1 / 10 ^ 9 := (pow_q hX 3).trans (by norm_num)
  have hh := hp.half (g := 1 / 2 ^ 123) (by norm_num)
  have hr := hxA.toH.add hh (M := 701 / 1000000) (g := rho) (by norm_num; linarith)
    (by rw [abs_div]; norm_num at b2 ⊢; linarith)
    (by rw [← ES_two]; exact ES_abs hX 2 le_rfl) (by unfold rho; norm_num)
  have hp3 := hp.mul hxA b2 hX (g := 1 / 2 ^ 125) (by norm_num) (by norm_num) (by norm_num)
  rw [← pow_succ] at hp3
  have ht := hp3.mul hcA b3 (Y := 1 / 6) (by norm_num [Nat.factorial, abs_of_pos]) (by norm_num) (by norm_num) (g := 1 / 2 ^ 125) (by norm_num)
  refine expLoop_ap hx hX 5 0 _ _ _ (by norm_num) (by norm_num) ?_ hp3 ?_ _ (by rw [inv_facts_len]; norm_num)
  · rw [zero_add, ES_two]; simpa using hr
  · rw [mul_one_div] at ht; exact ht

/-! ## Reduction -/

theorem ln2_hi_facts : Double.LN_2.hi.isFinite = true ∧ |Double.LN_2.hi.toRat - A_LN_2| ≤ mkRat 1 (10 ^ 16) ∧
    mkRat 69314718 100000000 ≤ A_LN_2 ∧ A_LN_2 ≤ mkRat 693147181 1000000000 ∧ dlt ≤ mkRat 1 (10 ^ 60) := by
  refine ⟨?_, ?_, ?_, ?_, ?_⟩ <;> decide +kernel

theorem fr_ln2 : |fr Double.LN_2.hi - Real.log 2| ≤ 2 / 10 ^ 16 ∧ 0.69314717 ≤ Real.log 2 ∧ Real.log 2 ≤ 0.69314719 := by
  obtain ⟨-, h1, h2, h3, h4⟩ := ln2_hi_facts
  have h0 := ap_LN_2
  have h1' := (Rat.cast_le (K := ℝ)).mpr h1
  have h2' := (Rat.cast_le (K := ℝ)).mpr h2
  have h3' := (Rat.cast_le (K := ℝ)).mpr h3
  have h4' := (Rat.cast_le (K := ℝ)).mpr h4
  rw [Rat.mkRat_eq_div] at h1' h2' h3' h4'
  push_cast at h1' h2' h3' h4'
  change |fr Double.LN_2.hi - _| ≤ _ at h1'
  generalize ((A_LN_2 : ℚ) : ℝ) = L at *
  generalize ((dlt : ℚ) : ℝ) = δ at *
  generalize fr Double.LN_2.hi = H at *
  rw [abs_le] at *
  norm_num at h1' h2' h3' h4' ⊢
  refine ⟨⟨?_, ?_⟩, ?_, ?_⟩ <;> linarith [h0.1, h0.2]

theorem fr_half : Double.half.isFinite = true ∧ fr Double.half = 1 / 2 := by
  refine ⟨by decide +kernel, ?_⟩
  have : Double.half.toRat = mkRat 1 2 := by decide +kernel
  unfold fr; rw [this, Rat.mkRat_eq_div]; norm_num

theorem rv_sub_hi {d : Double} (h : d.Normalized) : |rv d - fr d.hi| ≤ |fr d.hi| / 2 ^ 53 := by
  obtain ⟨a, b, i, n⟩ := h.norm2
  have hl := n.lo_le
  have e : rv d - fr d.hi = ((b : ℤ) : ℝ) / (one' : ℝ) := by
    rw [fr_is i.1]; unfold rv; rw [i.val]; push_cast; ring
  rw [e, fr_is i.1, abs_div, abs_div, div_right_comm]
  apply div_le_div_of_nonneg_right _ (abs_nonneg _)
  rw [le_div_iff₀ (by positivity), mul_comm]
  exact_mod_cast hl

/-- The integer `m` of `exp`: in range, and `a - m ln 2` is small. -/
theorem expM_spec {a : Double} (ha : a.Normalized) (h1 : -600 ≤ fr a.hi) (h2 : fr a.hi ≤ 708) :
    ∃ m : ℤ, Is (Double.expM a) (m * one') ∧ -900 ≤ m ∧ m ≤ 1021 ∧ |rv a - m * Real.log 2| ≤ 347 / 1000 := by
  have hf := ha.1.1
  obtain ⟨l1, l2, l3⟩ := fr_ln2
  have hd := rv_sub_hi ha
  have hH : |fr a.hi| ≤ 708 := abs_le.mpr ⟨by linarith, h2⟩
  have hl1 := abs_le.mp l1
  have hL : 0.69314716 ≤ fr Double.LN_2.hi := by norm_num at *; linarith
  have hL' : fr Double.LN_2.hi ≤ 0.6931472 := by norm_num at *; linarith
  -- the quotient
  have big : (1024:ℝ) ≤ 2 ^ 1022 := by
    have : (2:ℝ) ^ 10 ≤ 2 ^ 1022 := pow_le_pow_right₀ (by norm_num) (by norm_num)
    refine le_trans (by norm_num) this
  have q0 : |fr a.hi / fr Double.LN_2.hi| ≤ 1022 := by
    rw [abs_div, div_le_iff₀ (by rw [abs_pos]; linarith), abs_of_pos (show 0 < fr Double.LN_2.hi by linarith)]
    norm_num at hL ⊢; linarith
  obtain ⟨f1, q1⟩ := fr_div hf ln2_hi_facts.1 (by linarith) (q0.trans (le_trans (by norm_num) big))
  have q1' : |fr (F64.div a.hi Double.LN_2.hi) - fr a.hi / fr Double.LN_2.hi| ≤ 1 / 10 ^ 12 := by
    refine q1.trans ?_
    have : |fr a.hi / fr Double.LN_2.hi| / 2 ^ 53 ≤ 1022 / 2 ^ 53 := div_le_div_of_nonneg_right q0 (by positivity)
    refine (add_le_add this le_rfl).trans (by norm_num)
  clear q1
  have q2 : |fr (F64.div a.hi Double.LN_2.hi) + fr Double.half| ≤ 1023 := by
    rw [fr_half.2]
    rw [abs_le] at q0 q1' ⊢
    norm_num at q1' ⊢
    constructor <;> linarith [q0.1, q0.2, q1'.1, q1'.2]
  obtain ⟨f2, q3⟩ := fr_add f1 fr_half.1 (q2.trans (le_trans (by norm_num) big))
  have q3' : |fr (F64.add (F64.div a.hi Double.LN_2.hi) Double.half) - (fr (F64.div a.hi Double.LN_2.hi) + fr Double.half)|
      ≤ 1 / 10 ^ 12 := by
    refine q3.trans ?_
    refine (div_le_div_of_nonneg_right q2 (by positivity)).trans (by norm_num)
  clear q3
  obtain ⟨f3, q4⟩ := fr_floor f2
  clear big
  have i := is_of_fr f3 q4
  refine ⟨⌊fr (F64.add (F64.div a.hi Double.LN_2.hi) Double.half)⌋, i, ?_⟩
  have g1 := Int.floor_le (fr (F64.add (F64.div a.hi Double.LN_2.hi) Double.half))
  have g2 := Int.lt_floor_add_one (fr (F64.add (F64.div a.hi Double.LN_2.hi) Double.half))
  clear i q4 f1 f2 f3
  rw [fr_half.2] at q3' q2
  generalize ⌊fr (F64.add (F64.div a.hi Double.LN_2.hi) Double.half)⌋ = m at *
  generalize fr (F64.add (F64.div a.hi Double.LN_2.hi) Double.half) = S at *
  generalize fr (F64.div a.hi Double.LN_2.hi) = Q at *
  generalize fr Double.LN_2.hi = L at *
  generalize Real.log 2 = l at *
  generalize rv a = A at *
  generalize fr a.hi = H at *
  have hQ : (H / L) * L = H := div_mul_cancel₀ _ (by linarith)
  have hr1 : H / L ≤ 1021.44 := by rw [div_le_iff₀ (by linarith)]; norm_num at *; linarith
  have hr2 : -866 ≤ H / L := by rw [le_div_iff₀ (by linarith)]; norm_num at *; linarith
  generalize H / L = R at *
  rw [abs_le] at q1' q3'
  have m1 : (m : ℝ) - R ≤ 0.500000001 := by norm_num at *; linarith [q1'.2, q3'.2]
  have m2 : -0.500000001 ≤ (m : ℝ) - R := by norm_num at *; linarith [q1'.1, q3'.1]
  refine ⟨?_, ?_, ?_⟩
  · have : (-900:ℝ) ≤ m := by norm_num at *; linarith
    exact_mod_cast this
  · have : (m:ℝ) < 1022 := by norm_num at *; linarith
    have : m < 1022 := by exact_mod_cast this
    omega
  · have e : A - m * l = (A - H) - (m - R) * L - m * (l - L) := by rw [← hQ]; ring
    have t1 : |A - H| ≤ 1 / 10 ^ 12 := hd.trans ((div_le_div_of_nonneg_right hH (by positivity)).trans (by norm_num))
    have t2 : |((m:ℝ) - R) * L| ≤ 0.500000001 * 0.6931472 := by
      rw [abs_mul, abs_of_pos (show 0 < L by linarith)]
      exact mul_le_mul (abs_le.mpr ⟨m2, m1⟩) hL' (by linarith) (by norm_num)
    have t3 : |(m:ℝ) * (l - L)| ≤ 1023 * (2 / 10 ^ 16) := by
      rw [abs_mul]
      refine mul_le_mul ?_ (by rw [abs_sub_comm]; exact l1) (abs_nonneg _) (by norm_num)
      rw [abs_le]; norm_num at *; constructor <;> linarith
    rw [e]
    rw [abs_le] at t1 t2 t3 ⊢
    norm_num at t1 t2 t3 ⊢
    constructor <;> linarith [t1.1, t1.2, t2.1, t2.2, t3.1, t3.2]

theorem ap_ln2 : Ap Double.LN_2 (Real.log 2) (7 / 10 / 2 ^ 104) := by
  refine ⟨C48_double_normalized _ (by simp), ?_⟩
  have h := C48_double_values.2.2.2.2.2.2.2.2.2.2.2.2.2.2.2.2.2.2.2.2.2.2.1
  unfold Near at h
  obtain ⟨-, l2, l3⟩ := fr_ln2
  rw [abs_of_pos (show 0 < Real.log 2 by linarith)] at h
  rw [le_div_iff₀ (by positivity)]
  refine h.trans (by norm_num at *; linarith)

theorem is_zero' : Is F64.zero 0 := ⟨rfl, rfl⟩

theorem ap_int {x : F64} {m : ℤ} (i : Is x (m * one')) : Ap ⟨x, F64.zero⟩ (m : ℝ) 0 := by
  have i2 : DIs (⟨x, F64.zero⟩ : Double) (m * one') 0 := ⟨i, is_zero'⟩
  have nn : Norm2 (m * one') 0 :=
    ⟨i.rep, ⟨0, 0, by norm_num, by norm_num⟩, by rw [add_zero]; exact rnd_of_rep i.rep⟩
  refine ⟨nn.normalized i2, ?_⟩
  have : rv (⟨x, F64.zero⟩ : Double) = m := by
    unfold rv; rw [i2.val]; push_cast
    have : (one' : ℝ) ≠ 0 := by exact_mod_cast one'_pos.ne'
    rw [add_zero]; field_simp
  rw [this]; simp

theorem ap_inv_k : Ap Double.INV_K (1 / 512) 0 := by
  refine ⟨by decide +kernel, ?_⟩
  have : Double.INV_K.val = mkRat 1 512 := by decide +kernel
  unfold rv; rw [this, Rat.mkRat_eq_div]; norm_num

/-- The reduced argument: `x` is `(a - m ln 2) / 512`. -/
theorem expRed_ap {a : Double} (ha : a.Normalized) {m : ℤ} (i : Is (Double.expM a) (m * one')) (m1 : -900 ≤ m) (m2 : m ≤ 1021)
    (hs : |rv a - m * Real.log 2| ≤ 347 / 1000) :
    Ap ((a - Double.LN_2 * ⟨Double.expM a, F64.zero⟩) * Double.INV_K) ((rv a - m * Real.log 2) / 512)
      ((17 / 10 * |rv a| + 16 / 10) / 512 / 2 ^ 103) ∧
    |rv a| ≤ 709 := by
  have hm : |m| ≤ 1021 := abs_le.mpr ⟨by omega, m2⟩
  have hmR : |(m:ℝ)| ≤ 1021 := by exact_mod_cast hm
  have hM := ap_int i
  obtain ⟨-, l2, l3⟩ := fr_ln2
  have l0 : (0:ℝ) < Real.log 2 := by linarith
  have hA : |rv a| ≤ 709 := by
    have := abs_sub_abs_le_abs_sub (rv a) (m * Real.log 2)
    have h3 : |(m:ℝ) * Real.log 2| ≤ 1021 * 0.69314719 := by
      rw [abs_mul, abs_of_pos l0]; exact mul_le_mul hmR l3 l0.le (by norm_num)
    have h4 := this.trans hs
    clear hs this
    generalize |(m:ℝ) * Real.log 2| = W at *
    norm_num at h3 h4
    linarith
  refine ⟨?_, hA⟩
  -- the product
  have hP := ap_ln2.mul hM (X := Real.log 2) (Y := |(m:ℝ)|) (abs_of_pos l0).le le_rfl (by norm_num at *; linarith) (by norm_num; linarith) le_rfl
  have hml : |(m:ℝ)| * Real.log 2 ≤ |rv a| + 347 / 1000 := by
    have := abs_sub_abs_le_abs_sub ((m:ℝ) * Real.log 2) (rv a)
    rw [abs_sub_comm, abs_mul, abs_of_pos l0] at this
    linarith
  have hm2 : |(m:ℝ)| * (7 / 10) ≤ (|rv a| + 347 / 1000) * 1.01 := by
    have : |(m:ℝ)| * (7 / 10) ≤ |(m:ℝ)| * (Real.log 2 * 1.01) := by
      apply mul_le_mul_of_nonneg_left _ (abs_nonneg _); norm_num at *; linarith
    nlinarith [abs_nonneg (m:ℝ)]
  have hP' : Ap (Double.LN_2 * ⟨Double.expM a, F64.zero⟩) (Real.log 2 * m) ((164 / 100 * |rv a| + 6 / 10) / 2 ^ 103) := by
    refine hP.mono ?_
    have hq : (Real.log 2 + 7 / 10 / 2 ^ 104) * (|(m:ℝ)| + 0) ≤ |rv a| + 347 / 1000 + 1 / 2 ^ 90 := by
      have : |(m:ℝ)| * (7 / 10 / 2 ^ 104) ≤ 1 / 2 ^ 90 := by
        refine (mul_le_mul_of_nonneg_right hmR (by positivity)).trans (by norm_num)
      norm_num at *
      linarith
    generalize (Real.log 2 + 7 / 10 / 2 ^ 104) * (|(m:ℝ)| + 0) = U at *
    have h5 := abs_nonneg (rv a)
    generalize |rv a| = B at *
    generalize |(m:ℝ)| = C at *
    norm_num at hq hm2 h5 ⊢
    linarith
  clear hP
  have hS := (Ap.exact ha).sub hP' (M := 347 / 1000) (g := (17 / 10 * |rv a| + 1) / 2 ^ 103) (by norm_num; linarith)
    (by rw [abs_mul, abs_of_pos l0, mul_comm]; norm_num; linarith) (by rw [mul_comm]; exact hs) (by
      have := abs_nonneg (rv a)
      norm_num; linarith)
  have := hS.mul ap_inv_k (X := 347 / 1000) (Y := 1 / 512) (g := (17 / 10 * |rv a| + 16 / 10) / 512 / 2 ^ 103)
    (by rw [mul_comm]; exact hs) (by rw [abs_of_pos] <;> norm_num) (by norm_num; linarith) (by norm_num) (by
      have := abs_nonneg (rv a)
      norm_num; linarith)
  rw [mul_comm (Real.log 2), mul_one_div] at this
  exact this

end Verif
