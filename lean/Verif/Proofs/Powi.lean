import Verif.Proofs.Sqr
import Verif.Props.Mul
import Verif.Props.Div
import Verif.Props.Ints
import Mathlib.Algebra.Order.Ring.Pow

/-!
# The square-and-multiply loop
-/

namespace Verif

open F64 Prim Util

/-- Induction over the loop of `powi`: `P r k` says what holds of the running square `r` standing for the `k`-th power and
`Q s j` what holds of the accumulator. -/
theorem powiLoop_ind {P Q : Double → ℕ → Prop} {n : ℕ} (hs : ∀ r k, P r k → 2 * k ≤ n → P r.sqr (2 * k))
    (hm : ∀ s r j k, Q s j → P r k → j + k ≤ n → Q (s * r) (j + k)) :
    ∀ (fuel i : ℕ) (r s : Double) (j k : ℕ), i ≤ fuel → Q s j → P r k → j + i * k = n → Q (Double.powiLoop fuel i r s) n := by
  intro fuel
  induction fuel with
  | zero =>
    intro i r s j k hi hq _ e
    have : i = 0 := by omega
    subst this
    unfold Double.powiLoop
    rw [zero_mul, add_zero] at e
    rwa [← e]
  | succ fuel ih =>
    intro i r s j k hi hq hp e
    unfold Double.powiLoop
    by_cases h0 : i > 0
    · simp only [h0, if_true]
      have hsq : i / 2 > 0 → 2 * k ≤ n := by
        intro h2
        have : 2 * k ≤ i * k := Nat.mul_le_mul_right k (by omega)
        omega
      have e2 : i * k = (i % 2) * k + (i / 2) * (2 * k) := by
        have : i = i % 2 + (i / 2) * 2 := by omega
        calc i * k = (i % 2 + (i / 2) * 2) * k := by rw [← this]
          _ = _ := by ring
      by_cases h1 : i % 2 = 1
      · simp only [h1, if_true]
        have hq' := hm s r j k hq hp (by
          have : 1 * k ≤ i * k := Nat.mul_le_mul_right k (by omega)
          omega)
        rw [h1, one_mul] at e2
        by_cases h2 : i / 2 > 0
        · simp only [h2, if_true]
          exact ih _ _ _ _ _ (by omega) hq' (hs r k hp (hsq h2)) (by omega)
        · simp only [h2, if_false]
          have h3 : i / 2 = 0 := by omega
          rw [h3] at e2 ⊢
          exact ih _ _ _ _ k (by omega) hq' hp (by rw [zero_mul] at e2 ⊢; omega)
      · simp only [h1, if_false]
        have h1' : i % 2 = 0 := by omega
        rw [h1', zero_mul, zero_add] at e2
        have h2 : i / 2 > 0 := by omega
        simp only [h2, if_true]
        exact ih _ _ _ _ _ (by omega) hq (hs r k hp (hsq h2)) (by omega)
    · simp only [h0, if_false]
      have : i = 0 := by omega
      subst this
      rw [zero_mul, add_zero] at e
      rwa [← e]

/-- What `powi` computes for a positive exponent, and without the shortcuts. -/
def powiPos (a : Double) (n : ℕ) : Double := if n > 1 then Double.powiLoop n n a Double.ONE else a

theorem powi_main {a : Double} {n : ℤ} (hn : n ≠ 0) (h1 : |n| < 2 ^ 31) (ha : a.isNan = false) (hz : a.isZero = false)
    (hi : a.isInfinite = false) :
    a.powi n = some (if n < 0 then (powiPos a n.natAbs).recip else powiPos a n.natAbs) := by
  unfold Double.powi Double.prePowi
  simp only [hn, if_false, ha, hz, hi]
  unfold i32?
  have h2 : -2 ^ 31 ≤ |n| ∧ |n| < 2 ^ 31 := ⟨by have := abs_nonneg n; omega, h1⟩
  simp only [h2, and_self, if_true]
  have e : (|n|).toNat = n.natAbs := by rw [Int.abs_eq_natAbs, Int.toNat_natCast]
  rw [e]
  rfl

theorem nonzero_class {a : Double} {h : ℤ} (ia : Is a.hi h) (hh : h ≠ 0) :
    a.isNan = false ∧ a.isZero = false ∧ a.isInfinite = false := by
  rcases a with ⟨hi, lo⟩
  rcases hi with _ | _ | ⟨s, k, hk⟩
  · simp [Is, F64.isFinite] at ia
  · simp [Is, F64.isFinite] at ia
  · rw [is_fin] at ia
    have hm0 : k ≠ 0 := fun hc => hh (by rw [ia]; exact sgn_eq_zero.mpr hc)
    exact ⟨rfl, by rw [isZero_fin]; simpa using hm0, rfl⟩

/-! ### Exact powers of integers -/

theorem powiPos_int {a : Double} {m : ℤ} (n : ℕ) (hn : 0 < n) (ha : a.Normalized) (e : a.val = m) (hm : m ≠ 0)
    (hb : |m ^ n| ≤ 2 ^ 104) : (powiPos a n).Normalized ∧ (powiPos a n).val = ((m ^ n : ℤ) : ℚ) := by
  unfold powiPos
  by_cases h1 : n > 1
  · rw [if_pos h1]
    have hle : ∀ k ≤ n, |m ^ k| ≤ 2 ^ 104 := by
      intro k hk
      refine le_trans ?_ hb
      rw [abs_pow, abs_pow]
      exact pow_le_pow_right₀ (abs_ge_one hm) hk
    have h0 : Double.ONE.Normalized ∧ Double.ONE.val = ((1:ℤ) : ℚ) := by decide +kernel
    refine powiLoop_ind (P := fun d k => d.Normalized ∧ d.val = ((m ^ k : ℤ) : ℚ))
      (Q := fun d k => d.Normalized ∧ d.val = ((m ^ k : ℤ) : ℚ)) (n := n) ?_ ?_ n n a Double.ONE 0 1 le_rfl ?_ ?_ ?_
    · intro r k hr hk
      obtain ⟨xh, xl, ix, nx, ex⟩ := of_int hr.1 hr.2
      have e2 : m ^ (2 * k) = m ^ k * m ^ k := by rw [two_mul, pow_add]
      obtain ⟨zh, zl, iz, nz, ez⟩ := sqr_int ix nx ex (by rw [← e2]; exact hle _ hk)
      rw [← e2] at ez
      exact int_of iz nz ez
    · intro s r j k hs hr hk
      obtain ⟨xh, xl, ix, nx, ex⟩ := of_int hs.1 hs.2
      obtain ⟨yh, yl, iy, ny, ey⟩ := of_int hr.1 hr.2
      obtain ⟨zh, zl, iz, nz, ez⟩ := mul_int ix iy nx ny ex ey (by rw [← pow_add]; exact hle _ hk)
      rw [← pow_add] at ez
      exact int_of iz nz ez
    · simpa using h0
    · simpa using ⟨ha, e⟩
    · ring
  · have : n = 1 := by omega
    subst this
    simpa using ⟨ha, e⟩

/-! ### Relative error -/

/-- `z` is `t` up to `k` relative errors of at most `ε` each. -/
def RelK (ε : ℚ) (z t : ℚ) (k : ℕ) : Prop := ∃ d : ℚ, z = t * d ∧ (1 - ε) ^ k ≤ d ∧ d ≤ (1 + ε) ^ k

theorem RelK.refl (ε t : ℚ) : RelK ε t t 0 := ⟨1, by ring, by simp, by simp⟩

theorem RelK.mul {ε x y s t : ℚ} {j k : ℕ} (h1 : ε ≤ 1) (hx : RelK ε x s j) (hy : RelK ε y t k) :
    RelK ε (x * y) (s * t) (j + k) := by
  obtain ⟨d, e, l, u⟩ := hx
  obtain ⟨d', e', l', u'⟩ := hy
  have p1 : 0 ≤ (1 - ε) ^ j := pow_nonneg (by linarith) _
  have p2 : 0 ≤ (1 - ε) ^ k := pow_nonneg (by linarith) _
  refine ⟨d * d', by rw [e, e']; ring, ?_, ?_⟩
  · rw [pow_add]; exact mul_le_mul l l' p2 (p1.trans l)
  · rw [pow_add]; exact mul_le_mul u u' (p2.trans l') ((p1.trans l).trans u)

theorem RelK.mono {ε x s : ℚ} {j k : ℕ} (h0 : 0 ≤ ε) (h1 : ε ≤ 1) (hx : RelK ε x s j) (h : j ≤ k) : RelK ε x s k := by
  obtain ⟨d, e, l, u⟩ := hx
  refine ⟨d, e, le_trans ?_ l, u.trans ?_⟩
  · exact pow_le_pow_of_le_one (by linarith) (by linarith) h
  · exact pow_le_pow_right₀ (by linarith) h

theorem RelK.trans {ε z y t : ℚ} {j k : ℕ} (h1 : ε ≤ 1) (hz : RelK ε z y j) (hy : RelK ε y t k) :
    RelK ε z t (j + k) := by
  have := hz.mul h1 (RelK.refl ε 1)
  obtain ⟨d, e, l, u⟩ := hz
  obtain ⟨d', e', l', u'⟩ := hy
  have p1 : 0 ≤ (1 - ε) ^ j := pow_nonneg (by linarith) _
  have p2 : 0 ≤ (1 - ε) ^ k := pow_nonneg (by linarith) _
  refine ⟨d * d', by rw [e, e']; ring, ?_, ?_⟩
  · rw [pow_add]; exact mul_le_mul l l' p2 (p1.trans l)
  · rw [pow_add]; exact mul_le_mul u u' (p2.trans l') ((p1.trans l).trans u)

theorem RelK.one_step {ε z t : ℚ} (h0 : t ≠ 0) (h : |z - t| ≤ ε * |t|) : RelK ε z t 1 := by
  have h1 : |z / t - 1| ≤ ε := by
    rw [show z / t - 1 = (z - t) / t by field_simp, abs_div, div_le_iff₀ (abs_pos.mpr h0)]; exact h
  have h2 := abs_le.mp h1
  exact ⟨z / t, by field_simp, by rw [pow_one]; linarith, by rw [pow_one]; linarith⟩

theorem RelK.factor {ε : ℚ} {k : ℕ} (h0 : 0 ≤ ε) (h1 : ε ≤ 1) (hk : k * ε ≤ 1 / 2) :
    1 / 2 ≤ (1 - ε) ^ k ∧ (1 + ε) ^ k ≤ 2 ∧ 1 - k * ε ≤ (1 - ε) ^ k ∧ (1 + ε) ^ k ≤ 1 + 2 * (k * ε) := by
  have b := one_add_mul_le_pow (a := -ε) (by linarith) k
  have b1 : 1 - k * ε ≤ (1 - ε) ^ k := by
    rw [show (1:ℚ) - ε = 1 + -ε by ring]; linarith
  have hp : (1 + ε) ^ k * (1 - ε) ^ k ≤ 1 := by
    rw [← mul_pow]
    apply pow_le_one₀
    · nlinarith
    · nlinarith
  have hu : 0 ≤ (1 + ε) ^ k := by positivity
  have h3 : (1 + ε) ^ k * (1 - k * ε) ≤ 1 := le_trans (mul_le_mul_of_nonneg_left b1 hu) hp
  have h4 : (1 + ε) ^ k ≤ 1 + 2 * (k * ε) := by
    have hkε : 0 ≤ k * ε := by positivity
    generalize (k:ℚ) * ε = x at *
    generalize (1 + ε) ^ k = y at *
    by_contra hc
    push Not at hc
    have : (1 + 2 * x) * (1 - x) < y * (1 - x) := mul_lt_mul_of_pos_right hc (by linarith)
    nlinarith
  exact ⟨by linarith, by linarith, b1, h4⟩

/-- From a relative-error count to an error bound. -/
theorem RelK.bound {ε z t : ℚ} {k : ℕ} (h0 : 0 ≤ ε) (h1 : ε ≤ 1) (hk : k * ε ≤ 1 / 2) (h : RelK ε z t k) :
    |z - t| ≤ 2 * (k * ε) * |t| := by
  obtain ⟨d, e, l, u⟩ := h
  obtain ⟨-, -, f1, f2⟩ := RelK.factor h0 h1 hk
  have hkε : 0 ≤ k * ε := by positivity
  rw [e, show t * d - t = (d - 1) * t by ring, abs_mul]
  apply mul_le_mul_of_nonneg_right _ (abs_nonneg _)
  rw [abs_le]
  constructor <;> linarith

theorem RelK.abs_bounds {ε z t : ℚ} {k : ℕ} (h0 : 0 ≤ ε) (h1 : ε ≤ 1) (hk : k * ε ≤ 1 / 2) (h : RelK ε z t k) :
    |t| / 2 ≤ |z| ∧ |z| ≤ 2 * |t| := by
  obtain ⟨d, e, l, u⟩ := h
  obtain ⟨f1, f2, -, -⟩ := RelK.factor h0 h1 hk
  have hd : 0 < d := by linarith
  rw [e, abs_mul, abs_of_pos hd]
  have := abs_nonneg t
  constructor <;> nlinarith

/-- Size of the first component against the value. -/
theorem hi_val {d : Double} (h : d.Normalized) : |d.hi.toRat| ≤ |d.val| * (1 + 1 / 2 ^ 52) ∧
    |d.val| ≤ |d.hi.toRat| * (1 + 1 / 2 ^ 53) := by
  obtain ⟨a, b, i, hn⟩ := h.norm2
  have hl := hn.lo_leQ
  have hp := one'_posQ
  have e1 : d.hi.toRat = (a : ℚ) / one' := i.1.toRat
  have e2 : d.val = (a : ℚ) / one' + (b : ℚ) / one' := by rw [i.val]; push_cast; ring
  have hb : |(b : ℚ) / one'| ≤ |(a : ℚ) / one'| / 2 ^ 53 := by
    rw [abs_div, abs_div, abs_of_pos hp, div_right_comm]
    exact div_le_div_of_nonneg_right hl hp.le
  rw [e1, e2]
  generalize (a : ℚ) / one' = x at *
  generalize (b : ℚ) / one' = y at *
  have t1 := abs_add_le x y
  have t2 := abs_add_le (x + y) (-y)
  rw [add_neg_cancel_right, abs_neg] at t2
  have := abs_nonneg x
  constructor <;> linarith

/-- The shape of the condition "the exact result lies in a safe range". -/
def SafeVal (t : ℚ) : Prop := 1 ≤ |t| * 2 ^ 960 ∧ |t| ≤ 2 ^ 1020

theorem SafeVal.ne {t : ℚ} (h : SafeVal t) : t ≠ 0 := by
  rintro rfl
  have := h.1
  rw [abs_zero, zero_mul] at this
  norm_num at this

theorem safe_ranges {a b : Double} {x y : ℚ} (ha : a.Normalized) (hb : b.Normalized) (h : SafeVal (x * y))
    (h1 : |a.val * b.val| ≤ 4 * |x * y|) (h2 : |x * y| / 4 ≤ |a.val * b.val|) :
    |a.hi.toRat * b.hi.toRat| ≤ 2 ^ 1023 ∧ 1 ≤ |a.val * b.val| * 2 ^ 969 ∧ a.val * b.val ≠ 0 := by
  have pa := (hi_val ha).1
  have pb := (hi_val hb).1
  obtain ⟨hl, hu⟩ := h
  refine ⟨?_, ?_, ?_⟩
  · rw [abs_mul]
    have h3 : |a.hi.toRat| * |b.hi.toRat| ≤ |a.val| * (1 + 1 / 2 ^ 52) * (|b.val| * (1 + 1 / 2 ^ 52)) :=
      mul_le_mul pa pb (abs_nonneg _) (by positivity)
    have h4 : |a.val| * (1 + 1 / 2 ^ 52) * (|b.val| * (1 + 1 / 2 ^ 52)) ≤ |a.val * b.val| * 2 := by
      rw [abs_mul]
      have := mul_nonneg (abs_nonneg a.val) (abs_nonneg b.val)
      have e : |a.val| * (1 + 1 / 2 ^ 52) * (|b.val| * (1 + 1 / 2 ^ 52)) =
        |a.val| * |b.val| * ((1 + 1 / 2 ^ 52) * (1 + 1 / 2 ^ 52)) := by ring
      rw [e]
      exact mul_le_mul_of_nonneg_left (by norm_num) this
    have e : (2:ℚ) ^ 1023 = 8 * 2 ^ 1020 := by
      rw [show (8:ℚ) = 2 ^ 3 by norm_num, ← pow_add]
    rw [e]
    generalize (2:ℚ) ^ 1020 = K at *
    clear hl
    linarith
  · have e : (2:ℚ) ^ 969 = 512 * 2 ^ 960 := by
      rw [show (512:ℚ) = 2 ^ 9 by norm_num, ← pow_add]
    rw [e]
    clear hu
    have hK : (0:ℚ) < 2 ^ 960 := by positivity
    generalize (2:ℚ) ^ 960 = K at *
    have : |x * y| / 4 * K ≤ |a.val * b.val| * K := mul_le_mul_of_nonneg_right h2 hK.le
    have e2 : |a.val * b.val| * (512 * K) = 512 * (|a.val * b.val| * K) := by ring
    rw [e2]
    linarith
  · intro hc
    rw [hc, abs_zero] at h2
    have : |x * y| = 0 := le_antisymm (by clear hl hu; linarith) (abs_nonneg _)
    rw [this, zero_mul] at hl
    norm_num at hl

end Verif
