import Verif.Proofs.Consts
import Mathlib.Analysis.SpecialFunctions.Trigonometric.Bounds

/-! # Rational approximations of `sin` and `cos` of the multiples of `π/1024` -/

namespace Verif.Tables

open Real Finset Consts

/-- The complex number with rational coordinates. -/
noncomputable def toC (p : ℚ × ℚ) : ℂ := ⟨(p.1 : ℝ), (p.2 : ℝ)⟩

theorem toC_norm (p : ℚ × ℚ) : ‖toC p‖ ≤ ((|p.1| + |p.2| : ℚ) : ℝ) := by
  have := Complex.norm_le_abs_re_add_abs_im (toC p)
  simpa [toC] using this

theorem toC_sub (p q : ℚ × ℚ) : toC p - toC q = toC (p.1 - q.1, p.2 - q.2) := by
  apply Complex.ext <;> simp [toC]

theorem toC_add (p q : ℚ × ℚ) : toC p + toC q = toC (p.1 + q.1, p.2 + q.2) := by
  apply Complex.ext <;> simp [toC]

theorem toC_mul (p q : ℚ × ℚ) : toC p * toC q = toC (p.1 * q.1 - p.2 * q.2, p.1 * q.2 + p.2 * q.1) := by
  apply Complex.ext <;> simp [toC]

/-- The terms of the exponential series at `q * I`. -/
def term (q : ℚ) : ℕ → ℚ × ℚ
  | 0 => (1, 0)
  | m + 1 => let t := term q m; (-(t.2 * q) / (m + 1 : ℕ), t.1 * q / (m + 1 : ℕ))

theorem term_cast (q : ℚ) (m : ℕ) : toC (term q m) = ((q : ℂ) * Complex.I) ^ m / (m.factorial : ℂ) := by
  induction m with
  | zero => apply Complex.ext <;> simp [toC, term]
  | succ m ih =>
    rw [pow_succ, Nat.factorial_succ]
    have : ((q : ℂ) * Complex.I) ^ m * ((q : ℂ) * Complex.I) / (((m + 1) * m.factorial : ℕ) : ℂ)
        = toC (term q m) * ((q : ℂ) * Complex.I) / ((m + 1 : ℕ) : ℂ) := by
      rw [ih]; push_cast
      have h1 : ((m.factorial : ℕ) : ℂ) ≠ 0 := by exact_mod_cast m.factorial_ne_zero
      have h2 : ((m : ℂ) + 1) ≠ 0 := by exact_mod_cast m.succ_ne_zero
      field_simp
    rw [this]
    have e1 : ((q : ℂ) * Complex.I) = toC (0, q) := by apply Complex.ext <;> simp [toC]
    have e2 : (((m + 1 : ℕ) : ℂ))⁻¹ = toC (1 / (m + 1 : ℕ), 0) := by
      have : (((m + 1 : ℕ) : ℂ))⁻¹ = (((1 / (m + 1 : ℕ) : ℚ) : ℝ) : ℂ) := by push_cast; rw [one_div]
      rw [this]; apply Complex.ext
      · rw [Complex.ofReal_re]; rfl
      · rw [Complex.ofReal_im]; simp [toC]
    rw [div_eq_mul_inv, e1, e2, toC_mul, toC_mul]
    congr 1
    simp only [term]
    refine Prod.ext ?_ ?_ <;> simp <;> ring

/-- Partial sums of the exponential series at `q * I`. -/
def esum (q : ℚ) : ℕ → ℚ × ℚ
  | 0 => (0, 0)
  | m + 1 => ((esum q m).1 + (term q m).1, (esum q m).2 + (term q m).2)

theorem esum_cast (q : ℚ) (n : ℕ) : toC (esum q n) = ∑ m ∈ range n, ((q : ℂ) * Complex.I) ^ m / (m.factorial : ℂ) := by
  induction n with
  | zero => apply Complex.ext <;> simp [toC, esum]
  | succ n ih => rw [sum_range_succ, ← ih, ← term_cast, toC_add]; rfl

/-- The common denominator of the approximations. -/
def D : ℕ := 10 ^ 80

/-- The unit vector of angle `π/1024`, in units of `1/D`. -/
def z1 : ℤ × ℤ := (99999529380957617151158012570011989955298763362218765411073698674382330111314335, 306795676296597627014536549091984251894461021345199539714689589897579756302065)

/-- Numbers in units of `1/D`. -/
def toQ (z : ℤ × ℤ) : ℚ × ℚ := (mkRat z.1 D, mkRat z.2 D)

theorem D_pos : (0:ℚ) < (D : ℚ) := by decide +kernel

/-- The angle. -/
noncomputable def w : ℂ := Complex.exp (Complex.I * ((π / 1024 : ℝ) : ℂ))

/-- The accuracy of `z1`. -/
def e1 : ℚ := mkRat 1 (10 ^ 74)

theorem z1_approx : ‖toC (toQ z1) - w‖ ≤ (e1 : ℝ) := by
  set q : ℚ := piA / 1024 with hq
  have h1 := Complex.exp_bound (x := (q : ℂ) * Complex.I) (n := 24) (by
    rw [norm_mul, Complex.norm_I, mul_one]
    have : |q| ≤ 1 := by rw [hq]; decide +kernel
    have e : ((q : ℚ) : ℂ) = (((q : ℚ) : ℝ) : ℂ) := by push_cast; rfl
    rw [e, Complex.norm_real, Real.norm_eq_abs]
    exact_mod_cast this) (by norm_num)
  rw [← esum_cast] at h1
  have hn : ‖((q : ℚ) : ℂ) * Complex.I‖ = ((|q| : ℚ) : ℝ) := by
    rw [norm_mul, Complex.norm_I, mul_one]
    have e : ((q : ℚ) : ℂ) = (((q : ℚ) : ℝ) : ℂ) := by push_cast; rfl
    rw [e, Complex.norm_real, Real.norm_eq_abs]; push_cast; rfl
  rw [hn] at h1
  have h2 : ‖toC (toQ z1) - toC (esum q 24)‖ ≤ ((mkRat 1 (10 ^ 76) : ℚ) : ℝ) := by
    rw [toC_sub]
    refine (toC_norm _).trans ?_
    have : |(toQ z1).1 - (esum q 24).1| + |(toQ z1).2 - (esum q 24).2| ≤ mkRat 1 (10 ^ 76) := by rw [hq]; decide +kernel
    exact_mod_cast this
  have h3 : ((|q| : ℚ) : ℝ) ^ 24 * (((24 : ℕ).succ : ℝ) * (((24 : ℕ).factorial : ℝ) * ((24 : ℕ) : ℝ))⁻¹) ≤ ((mkRat 1 (10 ^ 76) : ℚ) : ℝ) := by
    have : |q| ^ 24 * (((24 : ℕ).succ : ℚ) * (((24 : ℕ).factorial : ℚ) * ((24 : ℕ) : ℚ))⁻¹) ≤ mkRat 1 (10 ^ 76) := by
      rw [hq]; decide +kernel
    have t : (((|q| ^ 24 * (((24 : ℕ).succ : ℚ) * (((24 : ℕ).factorial : ℚ) * ((24 : ℕ) : ℚ))⁻¹) : ℚ)) : ℝ) ≤ ((mkRat 1 (10 ^ 76) : ℚ) : ℝ) :=
      Rat.cast_le.mpr this
    rw [Rat.cast_mul, Rat.cast_pow, Rat.cast_mul, Rat.cast_inv, Rat.cast_mul, Rat.cast_natCast, Rat.cast_natCast, Rat.cast_natCast] at t
    exact t
  have h4 : ‖w - Complex.exp ((q : ℂ) * Complex.I)‖ ≤ ((mkRat 1 (10 ^ 75) : ℚ) : ℝ) := by
    have e : w - Complex.exp ((q : ℂ) * Complex.I)
        = Complex.exp (Complex.I * (((q : ℚ) : ℝ) : ℂ)) * (Complex.exp (Complex.I * ((π / 1024 - (q : ℝ) : ℝ) : ℂ)) - 1) := by
      rw [mul_sub, mul_one, ← Complex.exp_add, w]
      push_cast
      congr 2 <;> ring
    rw [e, norm_mul, Complex.norm_exp_I_mul_ofReal, one_mul]
    refine (Real.norm_exp_I_mul_ofReal_sub_one_le).trans ?_
    rw [Real.norm_eq_abs, hq]
    have := pi_approx
    have e2 : π / 1024 - ((piA / 1024 : ℚ) : ℝ) = (π - (piA : ℝ)) / 1024 := by push_cast; ring
    rw [e2, abs_div]
    have h5 : eps / 1024 ≤ mkRat 1 (10 ^ 75) := by decide +kernel
    have h5' : ((eps : ℚ) : ℝ) / 1024 ≤ ((mkRat 1 (10 ^ 75) : ℚ) : ℝ) := by exact_mod_cast h5
    refine le_trans ?_ h5'
    rw [abs_of_pos (by norm_num : (0:ℝ) < 1024)]
    exact div_le_div_of_nonneg_right this (by norm_num)
  have h6 : mkRat 1 (10 ^ 76) + mkRat 1 (10 ^ 76) + mkRat 1 (10 ^ 75) ≤ e1 := by decide +kernel
  have h6' : ((mkRat 1 (10 ^ 76) : ℚ) : ℝ) + ((mkRat 1 (10 ^ 76) : ℚ) : ℝ) + ((mkRat 1 (10 ^ 75) : ℚ) : ℝ) ≤ (e1 : ℝ) := by exact_mod_cast h6
  have e : toC (toQ z1) - w = (toC (toQ z1) - toC (esum q 24)) - (Complex.exp ((q : ℂ) * Complex.I) - toC (esum q 24))
      - (w - Complex.exp ((q : ℂ) * Complex.I)) := by ring
  rw [e]
  refine (norm_sub_le _ _).trans ?_
  have := norm_sub_le (toC (toQ z1) - toC (esum q 24)) (Complex.exp ((q : ℂ) * Complex.I) - toC (esum q 24))
  linarith [h1.trans h3]

/-- One rotation by `π/1024`, rounding down. -/
def step (z : ℤ × ℤ) : ℤ × ℤ := ((z.1 * z1.1 - z.2 * z1.2) / D, (z.1 * z1.2 + z.2 * z1.1) / D)

theorem step_approx (z : ℤ × ℤ) : ‖toC (toQ (step z)) - toC (toQ z) * toC (toQ z1)‖ ≤ ((mkRat 1 (10 ^ 79) : ℚ) : ℝ) := by
  rw [toC_mul, toC_sub]
  refine (toC_norm _).trans ?_
  have key : ∀ n : ℤ, |mkRat (n / D) D - (n : ℚ) / D / D| ≤ 1 / D := by
    intro n
    have hD := D_pos
    have hD' : (0:ℤ) < (D : ℤ) := by exact_mod_cast hD
    rw [Rat.mkRat_eq_div]
    have e := Int.emod_add_mul_ediv n D
    have m1 := Int.emod_nonneg n hD'.ne'
    have m2 := Int.emod_lt_of_pos n hD'
    have e' : ((n % (D:ℤ) : ℤ) : ℚ) + D * ((n / (D:ℤ) : ℤ) : ℚ) = n := by exact_mod_cast e
    have m1' : (0:ℚ) ≤ ((n % (D:ℤ) : ℤ) : ℚ) := by exact_mod_cast m1
    have m2' : ((n % (D:ℤ) : ℤ) : ℚ) < D := by exact_mod_cast m2
    have : ((n / (D:ℤ) : ℤ) : ℚ) / D - (n : ℚ) / D / D = - (((n % (D:ℤ) : ℤ) : ℚ) / D / D) := by
      rw [← e']; field_simp; ring
    rw [this, abs_neg, abs_of_nonneg (by positivity)]
    apply div_le_div_of_nonneg_right _ hD.le
    rw [div_le_one hD]; exact m2'.le
  have k1 := key (z.1 * z1.1 - z.2 * z1.2)
  have k2 := key (z.1 * z1.2 + z.2 * z1.1)
  have e3 : (toQ z).1 * (toQ z1).1 - (toQ z).2 * (toQ z1).2 = ((z.1 * z1.1 - z.2 * z1.2 : ℤ) : ℚ) / D / D := by
    simp only [toQ, Rat.mkRat_eq_div]; push_cast; ring
  have e4 : (toQ z).1 * (toQ z1).2 + (toQ z).2 * (toQ z1).1 = ((z.1 * z1.2 + z.2 * z1.1 : ℤ) : ℚ) / D / D := by
    simp only [toQ, Rat.mkRat_eq_div]; push_cast; ring
  have : |(toQ (step z)).1 - ((toQ z).1 * (toQ z1).1 - (toQ z).2 * (toQ z1).2)| +
      |(toQ (step z)).2 - ((toQ z).1 * (toQ z1).2 + (toQ z).2 * (toQ z1).1)| ≤ mkRat 1 (10 ^ 79) := by
    rw [e3, e4]
    have : (1:ℚ) / D + 1 / D ≤ mkRat 1 (10 ^ 79) := by decide +kernel
    refine le_trans (add_le_add k1 k2) this
  exact_mod_cast this

/-- `k` rotations by `π/1024`. -/
def rot : ℕ → ℤ × ℤ
  | 0 => (D, 0)
  | k + 1 => step (rot k)

theorem rot_approx (k : ℕ) (hk : k ≤ 256) : ‖toC (toQ (rot k)) - w ^ k‖ ≤ k * ((mkRat 3 (10 ^ 74) : ℚ) : ℝ) := by
  induction k with
  | zero =>
    have : toC (toQ (rot 0)) = 1 := by
      have e : toQ (rot 0) = (1, 0) := by decide +kernel
      rw [e]; apply Complex.ext <;> simp [toC]
    rw [this]; simp
  | succ k ih =>
    have ih := ih (by omega)
    have hw : ‖w‖ = 1 := by rw [w, Complex.norm_exp_I_mul_ofReal]
    have hs := step_approx (rot k)
    have h1 := z1_approx
    have hz : ‖toC (toQ (rot k))‖ ≤ 2 := by
      have e : toC (toQ (rot k)) = (toC (toQ (rot k)) - w ^ k) + w ^ k := by ring
      rw [e]
      refine (norm_add_le _ _).trans ?_
      rw [norm_pow, hw, one_pow]
      have c : (256 : ℚ) * mkRat 3 (10 ^ 74) ≤ 1 := by decide +kernel
      have c' : (256 : ℝ) * ((mkRat 3 (10 ^ 74) : ℚ) : ℝ) ≤ 1 := by exact_mod_cast c
      have p : (0:ℚ) ≤ mkRat 3 (10 ^ 74) := by decide +kernel
      have p' : (0:ℝ) ≤ ((mkRat 3 (10 ^ 74) : ℚ) : ℝ) := by exact_mod_cast p
      have hk' : (k : ℝ) ≤ 256 := by exact_mod_cast (by omega : k ≤ 256)
      nlinarith
    have e : toC (toQ (rot (k + 1))) - w ^ (k + 1) = (toC (toQ (step (rot k))) - toC (toQ (rot k)) * toC (toQ z1))
        + toC (toQ (rot k)) * (toC (toQ z1) - w) + (toC (toQ (rot k)) - w ^ k) * w := by
      rw [pow_succ]; simp only [rot]; ring
    rw [e]
    refine (norm_add_le _ _).trans ?_
    have a1 := norm_add_le (toC (toQ (step (rot k))) - toC (toQ (rot k)) * toC (toQ z1)) (toC (toQ (rot k)) * (toC (toQ z1) - w))
    rw [norm_mul] at a1 ⊢
    rw [hw, mul_one]
    have a2 : ‖toC (toQ (rot k))‖ * ‖toC (toQ z1) - w‖ ≤ 2 * (e1 : ℝ) := mul_le_mul hz h1 (norm_nonneg _) (by norm_num)
    have b : mkRat 1 (10 ^ 79) + 2 * e1 ≤ mkRat 3 (10 ^ 74) := by decide +kernel
    have b' : ((mkRat 1 (10 ^ 79) : ℚ) : ℝ) + 2 * (e1 : ℝ) ≤ ((mkRat 3 (10 ^ 74) : ℚ) : ℝ) := by exact_mod_cast b
    rw [Nat.cast_succ]
    generalize ((mkRat 3 (10 ^ 74) : ℚ) : ℝ) = M at *
    clear b
    linarith

/-- Accuracy of all the rotations. -/
def er : ℚ := mkRat 1 (10 ^ 71)

theorem w_pow (k : ℕ) : w ^ k = ⟨cos (k * (π / 1024)), sin (k * (π / 1024))⟩ := by
  rw [w, ← Complex.exp_nat_mul]
  have : (k : ℂ) * (Complex.I * ((π / 1024 : ℝ) : ℂ)) = (((k : ℝ) * (π / 1024) : ℝ) : ℂ) * Complex.I := by push_cast; ring
  rw [this]
  apply Complex.ext
  · rw [Complex.exp_ofReal_mul_I_re]
  · rw [Complex.exp_ofReal_mul_I_im]

end Verif.Tables
