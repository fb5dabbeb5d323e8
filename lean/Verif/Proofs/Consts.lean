import Verif.Round
import Mathlib.Analysis.SpecialFunctions.Complex.Arctan
import Mathlib.Analysis.SpecialFunctions.Trigonometric.Arctan
import Mathlib.Analysis.SpecialFunctions.Log.Deriv
import Mathlib.Analysis.Complex.ExponentialBounds
import Mathlib.Analysis.SpecificLimits.Normed
import Mathlib.Analysis.Real.Pi.Bounds

/-! # Rational bounds on π, e, ln 2, ln 10 and √2 -/

namespace Verif.Consts

open Real Finset

/-- Partial sums of the arctangent series at `1/q`. -/
def altSum (q : ℕ) : ℕ → ℚ
  | 0 => 0
  | n + 1 => altSum q n + mkRat (if n % 2 = 0 then 1 else -1) ((2 * n + 1) * q ^ (2 * n + 1))

theorem altSum_cast (q n : ℕ) :
    ((altSum q n : ℚ) : ℝ) = ∑ i ∈ range n, (-1 : ℝ) ^ i * ((q : ℝ)⁻¹ ^ (2 * i + 1) / ((2 * i + 1 : ℕ) : ℝ)) := by
  induction n with
  | zero => simp [altSum]
  | succ n ih =>
    rw [sum_range_succ, ← ih, altSum, Rat.cast_add]
    congr 1
    rw [Rat.mkRat_eq_div]
    push_cast
    have : (((if n % 2 = 0 then 1 else -1 : ℤ) : ℚ) : ℝ) = (-1) ^ n := by
      rcases Nat.mod_two_eq_zero_or_one n with h | h
      · rw [if_pos h, (Nat.even_iff.mpr h).neg_one_pow]; simp
      · rw [if_neg (by omega), (Nat.odd_iff.mpr h).neg_one_pow]; simp
    push_cast at this ⊢
    rw [this, inv_pow]
    by_cases hq : (q : ℝ) = 0
    · simp [hq]
    · field_simp

theorem arctan_inv_bounds (q : ℕ) (hq : 2 ≤ q) (k : ℕ) :
    ((altSum q (2 * k) : ℚ) : ℝ) ≤ arctan (q : ℝ)⁻¹ ∧ arctan (q : ℝ)⁻¹ ≤ ((altSum q (2 * k + 1) : ℚ) : ℝ) := by
  have hq' : (2:ℝ) ≤ q := by exact_mod_cast hq
  have hi0 : 0 < (q : ℝ)⁻¹ := by positivity
  have hi1 : (q : ℝ)⁻¹ < 1 := inv_lt_one_of_one_lt₀ (by linarith)
  have hs := Real.hasSum_arctan (x := (q : ℝ)⁻¹) (by rw [Real.norm_eq_abs, abs_of_pos hi0]; exact hi1)
  have ht := hs.tendsto_sum_nat
  have ha : Antitone fun i : ℕ => ((q : ℝ)⁻¹ ^ (2 * i + 1) / ((2 * i + 1 : ℕ) : ℝ)) := by
    apply antitone_nat_of_succ_le
    intro n
    apply div_le_div₀ (by positivity)
    · exact pow_le_pow_of_le_one hi0.le hi1.le (by omega)
    · positivity
    · exact_mod_cast (by omega)
  have ht' : Filter.Tendsto (fun n => ∑ i ∈ range n, (-1 : ℝ) ^ i * ((q : ℝ)⁻¹ ^ (2 * i + 1) / ((2 * i + 1 : ℕ) : ℝ)))
      Filter.atTop (nhds (arctan (q : ℝ)⁻¹)) := by
    simpa only [mul_div_assoc] using ht
  rw [altSum_cast, altSum_cast]
  exact ⟨ha.alternating_series_le_tendsto ht' k, ha.tendsto_le_alternating_series ht' k⟩

/-- Partial sums of the logarithm series at `1/q`. -/
def logSum (q : ℕ) : ℕ → ℚ
  | 0 => 0
  | n + 1 => logSum q n + mkRat 1 ((n + 1) * q ^ (n + 1))

theorem logSum_cast (q n : ℕ) : ((logSum q n : ℚ) : ℝ) = ∑ i ∈ range n, ((q : ℝ)⁻¹) ^ (i + 1) / ((i : ℝ) + 1) := by
  induction n with
  | zero => simp [logSum]
  | succ n ih =>
    rw [sum_range_succ, ← ih, logSum, Rat.cast_add]
    congr 1
    rw [Rat.mkRat_eq_div]
    push_cast
    rw [inv_pow]
    by_cases hq : (q : ℝ) = 0
    · simp [hq]
    · field_simp

theorem log_bounds (q : ℕ) (hq : 2 ≤ q) (n : ℕ) :
    |((logSum q n : ℚ) : ℝ) + Real.log (1 - (q : ℝ)⁻¹)| ≤ (2 : ℝ) * (1 / (q : ℝ) ^ (n + 1)) := by
  have hq' : (2:ℝ) ≤ q := by exact_mod_cast hq
  have hi0 : 0 < (q : ℝ)⁻¹ := by positivity
  have hi1 : (q : ℝ)⁻¹ ≤ 1 / 2 := by rw [← one_div]; exact one_div_le_one_div_of_le (by norm_num) hq'
  have := abs_log_sub_add_sum_range_le (x := (q : ℝ)⁻¹) (by rw [abs_of_pos hi0]; linarith) n
  rw [logSum_cast]
  refine this.trans ?_
  rw [abs_of_pos hi0, inv_pow, div_le_iff₀ (by linarith), one_div]
  have : 0 ≤ ((q : ℝ) ^ (n + 1))⁻¹ := by positivity
  nlinarith

/-- Partial sums of the exponential series at one. -/
def expSum : ℕ → ℚ
  | 0 => 0
  | n + 1 => expSum n + mkRat 1 (Nat.factorial n)

theorem expSum_cast (n : ℕ) : ((expSum n : ℚ) : ℝ) = ∑ i ∈ range n, (1 : ℝ) ^ i / (Nat.factorial i : ℝ) := by
  induction n with
  | zero => simp [expSum]
  | succ n ih =>
    rw [sum_range_succ, ← ih, expSum, Rat.cast_add, Rat.mkRat_eq_div]
    push_cast; simp

theorem exp_bounds (n : ℕ) (hn : 0 < n) : ((expSum n : ℚ) : ℝ) ≤ Real.exp 1 ∧
    Real.exp 1 ≤ ((expSum n : ℚ) : ℝ) + (n + 1) / ((Nat.factorial n : ℝ) * n) := by
  rw [expSum_cast]
  refine ⟨Real.sum_le_exp_of_nonneg (by norm_num) n, ?_⟩
  have := Real.exp_bound' (x := 1) (by norm_num) le_rfl hn
  simpa using this

/-- A rational approximation of π. -/
def piA : ℚ := mkRat 314159265358979323846264338327950288419716939937510582097494459230781640629 (10 ^ 74)
/-- A rational approximation of e. -/
def eA : ℚ := mkRat 271828182845904523536028747135266249775724709369995957496696762772407663035 (10 ^ 74)
/-- A rational approximation of ln 2. -/
def ln2A : ℚ := mkRat 69314718055994530941723212145817656807550013436025525412068000949339362197 (10 ^ 74)
/-- A rational approximation of ln 10. -/
def ln10A : ℚ := mkRat 230258509299404568401799145468436420760110148862877297603332790096757260968 (10 ^ 74)
/-- A rational approximation of √2. -/
def sqrt2A : ℚ := mkRat 141421356237309504880168872420969807856967187537694807317667973799073247846 (10 ^ 74)
/-- The accuracy of the approximations. -/
def eps : ℚ := mkRat 1 (10 ^ 72)

theorem eps_pos : (0:ℚ) < eps := by decide +kernel

theorem pi_approx : |π - (piA : ℝ)| ≤ (eps : ℝ) := by
  have h1 := arctan_inv_bounds 5 (by norm_num) 54
  have h2 := arctan_inv_bounds 239 (by norm_num) 17
  have h3 := four_mul_arctan_inv_5_sub_arctan_inv_239
  have a : piA - eps ≤ 4 * (4 * altSum 5 (2 * 54) - altSum 239 (2 * 17 + 1)) := by decide +kernel
  have b : 4 * (4 * altSum 5 (2 * 54 + 1) - altSum 239 (2 * 17)) ≤ piA + eps := by decide +kernel
  have a' : ((piA : ℚ) : ℝ) - (eps : ℝ) ≤ 4 * (4 * ((altSum 5 (2 * 54) : ℚ) : ℝ) - ((altSum 239 (2 * 17 + 1) : ℚ) : ℝ)) := by exact_mod_cast a
  have b' : 4 * (4 * ((altSum 5 (2 * 54 + 1) : ℚ) : ℝ) - ((altSum 239 (2 * 17) : ℚ) : ℝ)) ≤ ((piA : ℚ) : ℝ) + (eps : ℝ) := by exact_mod_cast b
  push_cast at h1 h2
  rw [abs_le]; constructor <;> linarith [h1.1, h1.2, h2.1, h2.2]

theorem exp_approx : |Real.exp 1 - (eA : ℝ)| ≤ (eps : ℝ) := by
  have h := exp_bounds 60 (by norm_num)
  have a : eA - eps ≤ expSum 60 := by decide +kernel
  have b : expSum 60 + mkRat 61 (Nat.factorial 60 * 60) ≤ eA + eps := by decide +kernel
  have a' : ((eA : ℚ) : ℝ) - (eps : ℝ) ≤ ((expSum 60 : ℚ) : ℝ) := by exact_mod_cast a
  have b' : ((expSum 60 : ℚ) : ℝ) + ((mkRat 61 (Nat.factorial 60 * 60) : ℚ) : ℝ) ≤ ((eA : ℚ) : ℝ) + (eps : ℝ) := by exact_mod_cast b
  have e : ((mkRat 61 (Nat.factorial 60 * 60) : ℚ) : ℝ) = (((60:ℕ):ℝ) + 1) / ((Nat.factorial 60 : ℝ) * ((60:ℕ):ℝ)) := by
    rw [Rat.mkRat_eq_div]; push_cast; norm_num
  rw [e] at b'
  rw [abs_le]; constructor <;> linarith [h.1, h.2]

theorem log2_approx : |Real.log 2 - (ln2A : ℝ)| ≤ (eps : ℝ) := by
  have h := log_bounds 2 le_rfl 250
  have el : Real.log (1 - ((2:ℕ):ℝ)⁻¹) = - Real.log 2 := by
    rw [show (1 - ((2:ℕ):ℝ)⁻¹) = (2:ℝ)⁻¹ by norm_num, Real.log_inv]
  rw [el] at h
  have a : ln2A - eps + mkRat 2 (2 ^ 251) ≤ logSum 2 250 := by decide +kernel
  have b : logSum 2 250 ≤ ln2A + eps - mkRat 2 (2 ^ 251) := by decide +kernel
  have a' : ((ln2A : ℚ) : ℝ) - (eps : ℝ) + ((mkRat 2 (2 ^ 251) : ℚ) : ℝ) ≤ ((logSum 2 250 : ℚ) : ℝ) := by exact_mod_cast a
  have b' : ((logSum 2 250 : ℚ) : ℝ) ≤ ((ln2A : ℚ) : ℝ) + (eps : ℝ) - ((mkRat 2 (2 ^ 251) : ℚ) : ℝ) := by exact_mod_cast b
  have e : ((mkRat 2 (2 ^ 251) : ℚ) : ℝ) = 2 * (1 / ((2:ℕ):ℝ) ^ (250 + 1)) := by
    rw [Rat.mkRat_eq_div]; push_cast; norm_num
  rw [e] at a' b'
  have := abs_le.mp h
  rw [abs_le]; constructor <;> linarith [this.1, this.2]

theorem log10_approx : |Real.log 10 - (ln10A : ℝ)| ≤ (eps : ℝ) := by
  have h2 := log_bounds 2 le_rfl 250
  have h := log_bounds 5 (by norm_num) 110
  have el2 : Real.log (1 - ((2:ℕ):ℝ)⁻¹) = - Real.log 2 := by
    rw [show (1 - ((2:ℕ):ℝ)⁻¹) = (2:ℝ)⁻¹ by norm_num, Real.log_inv]
  have el : Real.log (1 - ((5:ℕ):ℝ)⁻¹) = 3 * Real.log 2 - Real.log 10 := by
    rw [show (1 - ((5:ℕ):ℝ)⁻¹) = (2:ℝ) ^ 3 / 10 by norm_num, Real.log_div (by norm_num) (by norm_num), Real.log_pow]
    push_cast; ring
  rw [el2] at h2
  rw [el] at h
  have a : ln10A - eps + (mkRat 2 (5 ^ 111) + 3 * mkRat 2 (2 ^ 251)) ≤ logSum 5 110 + 3 * logSum 2 250 := by decide +kernel
  have b : logSum 5 110 + 3 * logSum 2 250 ≤ ln10A + eps - (mkRat 2 (5 ^ 111) + 3 * mkRat 2 (2 ^ 251)) := by decide +kernel
  have e : ((mkRat 2 (2 ^ 251) : ℚ) : ℝ) = 2 * (1 / ((2:ℕ):ℝ) ^ (250 + 1)) := by
    rw [Rat.mkRat_eq_div]; push_cast; norm_num
  have e5 : ((mkRat 2 (5 ^ 111) : ℚ) : ℝ) = 2 * (1 / ((5:ℕ):ℝ) ^ (110 + 1)) := by
    rw [Rat.mkRat_eq_div]; push_cast; norm_num
  rw [← e] at h2
  rw [← e5] at h
  have a' : ((ln10A : ℚ) : ℝ) - (eps : ℝ) + (((mkRat 2 (5 ^ 111) : ℚ) : ℝ) + 3 * ((mkRat 2 (2 ^ 251) : ℚ) : ℝ)) ≤
      ((logSum 5 110 : ℚ) : ℝ) + 3 * ((logSum 2 250 : ℚ) : ℝ) := by exact_mod_cast a
  have b' : ((logSum 5 110 : ℚ) : ℝ) + 3 * ((logSum 2 250 : ℚ) : ℝ) ≤
      ((ln10A : ℚ) : ℝ) + (eps : ℝ) - (((mkRat 2 (5 ^ 111) : ℚ) : ℝ) + 3 * ((mkRat 2 (2 ^ 251) : ℚ) : ℝ)) := by exact_mod_cast b
  have h2' := abs_le.mp h2
  have h' := abs_le.mp h
  rw [abs_le]; constructor <;> linarith [h2'.1, h2'.2, h'.1, h'.2]

theorem sqrt2_approx : |√2 - (sqrt2A : ℝ)| ≤ (eps : ℝ) := by
  have a : (sqrt2A - eps) * (sqrt2A - eps) ≤ 2 := by decide +kernel
  have b : 2 ≤ (sqrt2A + eps) * (sqrt2A + eps) := by decide +kernel
  have c : 0 ≤ sqrt2A - eps := by decide +kernel
  have d : 0 ≤ sqrt2A + eps := by decide +kernel
  have a' : (((sqrt2A - eps : ℚ)) : ℝ) * ((sqrt2A - eps : ℚ) : ℝ) ≤ 2 := by exact_mod_cast a
  have b' : (2:ℝ) ≤ (((sqrt2A + eps : ℚ)) : ℝ) * ((sqrt2A + eps : ℚ) : ℝ) := by exact_mod_cast b
  have c' : (0:ℝ) ≤ ((sqrt2A - eps : ℚ) : ℝ) := by exact_mod_cast c
  have d' : (0:ℝ) ≤ ((sqrt2A + eps : ℚ) : ℝ) := by exact_mod_cast d
  have h1 : ((sqrt2A - eps : ℚ) : ℝ) ≤ √2 := Real.le_sqrt_of_sq_le (by rw [sq]; exact a')
  have h2 : √2 ≤ ((sqrt2A + eps : ℚ) : ℝ) := Real.sqrt_le_iff.mpr ⟨d', by rw [sq]; exact b'⟩
  push_cast at h1 h2
  rw [abs_le]; constructor <;> linarith

/-! ## Combining bounds -/

/-- From an approximation `A` of the real number `c` to the accuracy of the rational `v`. -/
theorem near_of {c : ℝ} {A v b : ℚ} (δ : ℚ) (h : |c - (A : ℝ)| ≤ (δ : ℝ)) (h1 : v - A ≤ b) (h2 : A - v ≤ b) (n : ℕ)
    (h3 : (b + δ) * (2 ^ n : ℕ) ≤ A - δ) : |(v : ℝ) - c| * 2 ^ n ≤ c := by
  have h' := abs_le.mp h
  have h1' : (v : ℝ) - (A : ℝ) ≤ (b : ℝ) := by exact_mod_cast h1
  have h2' : (A : ℝ) - (v : ℝ) ≤ (b : ℝ) := by exact_mod_cast h2
  have h3' : ((b : ℝ) + (δ : ℝ)) * 2 ^ n ≤ (A : ℝ) - (δ : ℝ) := by exact_mod_cast h3
  have h4 : |(v : ℝ) - c| ≤ (b : ℝ) + (δ : ℝ) := by rw [abs_le]; constructor <;> linarith [h'.1, h'.2]
  have h5 : |(v : ℝ) - c| * 2 ^ n ≤ ((b : ℝ) + (δ : ℝ)) * 2 ^ n := mul_le_mul_of_nonneg_right h4 (by positivity)
  linarith [h'.1]

theorem scale_approx {c : ℝ} {A : ℚ} {δ : ℚ} (h : |c - (A : ℝ)| ≤ (δ : ℝ)) (r : ℚ) (hr : 0 ≤ r) :
    |(r : ℝ) * c - ((r * A : ℚ) : ℝ)| ≤ ((r * δ : ℚ) : ℝ) := by
  have hr' : (0:ℝ) ≤ (r : ℝ) := by exact_mod_cast hr
  push_cast
  rw [← mul_sub, abs_mul, abs_of_nonneg hr']
  exact mul_le_mul_of_nonneg_left h hr'

/-- Quotients. -/
theorem div_approx {p q : ℝ} {P Q A : ℚ} (hp : |p - (P : ℝ)| ≤ (eps : ℝ)) (hq : |q - (Q : ℝ)| ≤ (eps : ℝ)) (hA : 0 ≤ A)
    (h1 : P - A * Q ≤ eps) (h2 : A * Q - P ≤ eps) (hQ : mkRat 1 2 ≤ Q - eps) :
    |p / q - (A : ℝ)| ≤ ((2 * (2 * eps + A * eps) : ℚ) : ℝ) := by
  have hQ' : (1:ℝ) / 2 ≤ (Q : ℝ) - (eps : ℝ) := by
    have : ((mkRat 1 2 : ℚ) : ℝ) ≤ (Q : ℝ) - (eps : ℝ) := by exact_mod_cast hQ
    rw [Rat.mkRat_eq_div] at this; push_cast at this; linarith
  have q1 := abs_le.mp hq
  have p1 := abs_le.mp hp
  have hq0 : 1 / 2 ≤ q := by linarith [q1.1]
  have hA' : (0:ℝ) ≤ (A : ℝ) := by exact_mod_cast hA
  have h1' : (P : ℝ) - (A : ℝ) * (Q : ℝ) ≤ (eps : ℝ) := by exact_mod_cast h1
  have h2' : (A : ℝ) * (Q : ℝ) - (P : ℝ) ≤ (eps : ℝ) := by exact_mod_cast h2
  have e : p / q - (A : ℝ) = (p - (A : ℝ) * q) / q := by
    have : q ≠ 0 := by linarith
    field_simp
  have hb : |p - (A : ℝ) * q| ≤ 2 * (eps : ℝ) + (A : ℝ) * (eps : ℝ) := by
    have e2 : p - (A : ℝ) * q = (p - P) + ((P : ℝ) - (A : ℝ) * (Q : ℝ)) - (A : ℝ) * (q - Q) := by ring
    have e3 : |(A : ℝ) * (q - Q)| ≤ (A : ℝ) * (eps : ℝ) := by
      rw [abs_mul, abs_of_nonneg hA']; exact mul_le_mul_of_nonneg_left hq hA'
    have e4 := abs_le.mp e3
    rw [e2, abs_le]; constructor <;> linarith [p1.1, p1.2, e4.1, e4.2]
  have hq1 : 0 < q := by linarith
  rw [e, abs_div, abs_of_pos hq1, div_le_iff₀ hq1]
  push_cast
  have : (0:ℝ) ≤ 2 * (eps : ℝ) + (A : ℝ) * (eps : ℝ) := (abs_nonneg _).trans hb
  nlinarith

/-- Square roots of quotients: `2 / √π`. -/
theorem two_sqrt_pi_approx {A : ℚ} (hA : 1 ≤ A) (h1 : A * A * (piA + eps) ≤ 4 + 16 * eps) (h2 : 4 - 16 * eps ≤ A * A * (piA - eps)) :
    |2 / √π - (A : ℝ)| ≤ ((16 * eps : ℚ) : ℝ) := by
  have hp := abs_le.mp pi_approx
  have hA' : (1:ℝ) ≤ (A : ℝ) := by exact_mod_cast hA
  have h1' : (A : ℝ) * (A : ℝ) * ((piA : ℝ) + (eps : ℝ)) ≤ 4 + 16 * (eps : ℝ) := by exact_mod_cast h1
  have h2' : 4 - 16 * (eps : ℝ) ≤ (A : ℝ) * (A : ℝ) * ((piA : ℝ) - (eps : ℝ)) := by exact_mod_cast h2
  have hpi := Real.pi_gt_three
  set c := 2 / √π with hc
  have hs : 0 < √π := Real.sqrt_pos.mpr (by linarith)
  have c0 : 0 < c := by positivity
  have c2 : c * c * π = 4 := by
    have : √π * √π = π := Real.mul_self_sqrt (by linarith)
    rw [hc]; field_simp; rw [sq (√π), this]; ring
  have g1 : (A : ℝ) * (A : ℝ) * π ≤ 4 + 16 * (eps : ℝ) := by
    have : (A : ℝ) * (A : ℝ) * π ≤ (A : ℝ) * (A : ℝ) * ((piA : ℝ) + (eps : ℝ)) := mul_le_mul_of_nonneg_left (by linarith [hp.2]) (by positivity)
    linarith
  have g2 : 4 - 16 * (eps : ℝ) ≤ (A : ℝ) * (A : ℝ) * π := by
    have : (A : ℝ) * (A : ℝ) * ((piA : ℝ) - (eps : ℝ)) ≤ (A : ℝ) * (A : ℝ) * π := mul_le_mul_of_nonneg_left (by linarith [hp.1]) (by positivity)
    linarith
  have key : |(c - (A : ℝ)) * ((c + (A : ℝ)) * π)| ≤ 16 * (eps : ℝ) := by
    have : (c - (A : ℝ)) * ((c + (A : ℝ)) * π) = 4 - (A : ℝ) * (A : ℝ) * π := by rw [← c2]; ring
    rw [this, abs_le]; constructor <;> linarith
  rw [abs_mul, abs_of_pos (by positivity : 0 < (c + (A : ℝ)) * π)] at key
  push_cast
  have h3 : 1 ≤ (c + (A : ℝ)) * π := by nlinarith
  have := abs_nonneg (c - (A : ℝ))
  nlinarith

end Verif.Consts
