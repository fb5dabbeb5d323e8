import Verif.Proofs.Dekker
import Verif.Props.EFT

/-!
# C54: the product without fused multiply-add

`twoProdNoFma`/`twoSqrNoFma` model the functions compiled with the cfg `no_fma` (Veltkamp splitting and Dekker's product),
`twoProd`/`twoSqr` the default ones.
-/

namespace Verif

open F64 Prim

theorem normal_units {a : F64} {m : ℤ} (ia : Is a m) (h1 : 1 ≤ |a.toRat| * 2 ^ 1022) (h2 : |a.toRat| < 2 ^ 1023) :
    ∃ i : ℕ, (2:ℤ) ^ i ∣ m ∧ 2 ^ (52 + i) ≤ |m| ∧ |m| < 2 ^ (53 + i) ∧ 53 + i ≤ 2097 := by
  have e : |(m : ℚ)| = |a.toRat| * 2 ^ 1074 := by
    rw [ia.toRat, abs_div, abs_of_pos one'_posQ, one'_pow, div_mul_cancel₀ _ (by positivity)]
  have hm1 : (2:ℤ) ^ 52 ≤ |m| := by
    have : (2:ℚ) ^ 52 ≤ |(m : ℚ)| := by
      rw [e, show (2:ℚ) ^ 1074 = 2 ^ 1022 * 2 ^ 52 by rw [← pow_add], ← mul_assoc]
      exact le_mul_of_one_le_left (by positivity) h1
    exact_mod_cast this
  have hm2 : |m| < 2 ^ 2097 := by
    have : |(m : ℚ)| < 2 ^ 2097 := by
      rw [e, show (2:ℚ) ^ 2097 = 2 ^ 1023 * 2 ^ 1074 by rw [← pow_add]]
      exact mul_lt_mul_of_pos_right h2 (by positivity)
    exact_mod_cast this
  have k1 : 2 ^ (52 + expo (m : ℚ)) ≤ |m| := by
    by_cases h0 : expo (m : ℚ) = 0
    · rw [h0]; exact hm1
    · have := expo_le (m : ℚ) h0
      exact_mod_cast this
  refine ⟨expo (m : ℚ), ia.rep.dvd, k1, expo_int_lt m, ?_⟩
  by_contra hc
  have : (2:ℤ) ^ 2097 ≤ 2 ^ (52 + expo (m : ℚ)) := pow_le_pow_right₀ (by norm_num) (by omega)
  exact absurd (this.trans k1) (not_le.mpr hm2)

theorem prod_expos {a b : F64} {m n : ℤ} {i j : ℕ} (ia : Is a m) (ib : Is b n) (h1 : 2 ^ (52 + i) ≤ |m|) (h2 : |m| < 2 ^ (53 + i))
    (h1' : 2 ^ (52 + j) ≤ |n|) (h2' : |n| < 2 ^ (53 + j)) (hl : 1 ≤ |a.toRat * b.toRat| * 2 ^ 968)
    (hu : |a.toRat * b.toRat| ≤ 2 ^ 1020) : 1074 ≤ i + j ∧ i + j ≤ 1074 + 1990 := by
  have e : |(m : ℚ)| * |(n : ℚ)| = |a.toRat * b.toRat| * 2 ^ 2148 := by
    rw [ia.toRat, ib.toRat, abs_mul, abs_div, abs_div, abs_of_pos one'_posQ, one'_pow, div_mul_div_comm, ← pow_add,
      div_mul_cancel₀ _ (by positivity)]
  constructor
  · by_contra hc
    have u : |m| * |n| < 2 ^ (53 + i) * 2 ^ (53 + j) := mul_lt_mul'' h2 h2' (abs_nonneg _) (abs_nonneg _)
    rw [← pow_add] at u
    have u2 : |m| * |n| < 2 ^ 1180 := lt_of_lt_of_le u (pow_le_pow_right₀ (by norm_num) (by omega))
    have u3 : |(m : ℚ)| * |(n : ℚ)| < 2 ^ 1180 := by exact_mod_cast u2
    rw [e, show (2:ℚ) ^ 2148 = 2 ^ 968 * 2 ^ 1180 by rw [← pow_add], ← mul_assoc] at u3
    exact absurd u3 (not_lt.mpr (le_mul_of_one_le_left (by positivity) hl))
  · by_contra hc
    have u : (2:ℤ) ^ (52 + i) * 2 ^ (52 + j) ≤ |m| * |n| := mul_le_mul h1 h1' (by positivity) (abs_nonneg _)
    rw [← pow_add] at u
    have u2 : (2:ℤ) ^ 3169 ≤ |m| * |n| := le_trans (pow_le_pow_right₀ (by norm_num) (by omega)) u
    have u3 : (2:ℚ) ^ 3169 ≤ |(m : ℚ)| * |(n : ℚ)| := by exact_mod_cast u2
    have u4 : |a.toRat * b.toRat| * 2 ^ 2148 ≤ 2 ^ 3168 := by
      rw [show (2:ℚ) ^ 3168 = 2 ^ 1020 * 2 ^ 2148 by rw [← pow_add]]
      exact mul_le_mul_of_nonneg_right hu (by positivity)
    rw [e] at u3
    have u5 : (2:ℚ) ^ 3168 < 2 ^ 3169 := pow_lt_pow_right₀ (by norm_num) (by norm_num)
    exact absurd (u3.trans u4) (not_le.mpr u5)

/-- **C54.** Without fused multiply-add, `two_prod` returns exactly the same pair (bit for bit) as with it, for all normal
operands below `2^1023` whose product lies between `2^-968` and `2^1020`. -/
theorem C54_two_prod (a b : F64) (ha : a.isFinite = true) (hb : b.isFinite = true)
    (ha1 : 1 ≤ |a.toRat| * 2 ^ 1022) (ha2 : |a.toRat| < 2 ^ 1023) (hb1 : 1 ≤ |b.toRat| * 2 ^ 1022) (hb2 : |b.toRat| < 2 ^ 1023)
    (hl : 1 ≤ |a.toRat * b.toRat| * 2 ^ 968) (hu : |a.toRat * b.toRat| ≤ 2 ^ 1020) :
    twoProdNoFma a b = twoProd a b := by
  have ia := Is.of_finite ha
  have ib := Is.of_finite hb
  obtain ⟨i, d1, l1, u1, r1⟩ := normal_units ia ha1 ha2
  obtain ⟨j, d2, l2, u2, r2⟩ := normal_units ib hb1 hb2
  obtain ⟨p1, p2⟩ := prod_expos ia ib l1 u1 l2 u2 hl hu
  exact dekker ia ib d1 l1 u1 r1 d2 l2 u2 r2 p1 p2

/-- **C54.** The same for `two_sqr`. -/
theorem C54_two_sqr (a : F64) (ha : a.isFinite = true)
    (ha1 : 1 ≤ |a.toRat| * 2 ^ 1022) (ha2 : |a.toRat| < 2 ^ 1023)
    (hl : 1 ≤ |a.toRat * a.toRat| * 2 ^ 968) (hu : |a.toRat * a.toRat| ≤ 2 ^ 1020) :
    twoSqrNoFma a = twoSqr a := by
  have ia := Is.of_finite ha
  obtain ⟨i, d1, l1, u1, r1⟩ := normal_units ia ha1 ha2
  obtain ⟨p1, p2⟩ := prod_expos ia ia l1 u1 l1 u1 hl hu
  exact dekker_sqr ia d1 l1 u1 r1 p1 p2

theorem pow1020_le_f64Max : (2 : ℚ) ^ 1020 ≤ f64Max := by
  have h : ((2 ^ 1020 : ℕ) : ℚ) ≤ f64Max := by decide +kernel
  exact_mod_cast h

/-- **C54.** Consequently the product without fused multiply-add is an error-free transformation in that range: the first
result is the `f64` product and the two results add up exactly to the exact product. -/
theorem C54_two_prod_exact (a b : F64) (ha : a.isFinite = true) (hb : b.isFinite = true)
    (ha1 : 1 ≤ |a.toRat| * 2 ^ 1022) (ha2 : |a.toRat| < 2 ^ 1023) (hb1 : 1 ≤ |b.toRat| * 2 ^ 1022) (hb2 : |b.toRat| < 2 ^ 1023)
    (hl : 1 ≤ |a.toRat * b.toRat| * 2 ^ 968) (hu : |a.toRat * b.toRat| ≤ 2 ^ 1020) :
    (twoProdNoFma a b).1 = F64.mul a b ∧
    (twoProdNoFma a b).1.toRat + (twoProdNoFma a b).2.toRat = a.toRat * b.toRat := by
  refine ⟨rfl, ?_⟩
  rw [C54_two_prod a b ha hb ha1 ha2 hb1 hb2 hl hu]
  have hl' : 1 ≤ |a.toRat * b.toRat| * 2 ^ 969 :=
    hl.trans (mul_le_mul_of_nonneg_left (pow_le_pow_right₀ (by norm_num) (by norm_num)) (abs_nonneg _))
  exact (C57_two_prod a b ha hb (hu.trans pow1020_le_f64Max)).2.2.2.2 (Or.inl hl')

/-- `0.1 * 0.3`, whose error is not zero. -/
example : twoProdNoFma (ofDec false 1 (-1)) (ofDec false 3 (-1)) = twoProd (ofDec false 1 (-1)) (ofDec false 3 (-1)) ∧
    (twoProdNoFma (ofDec false 1 (-1)) (ofDec false 3 (-1))).2.units ≠ 0 := by
  decide +kernel

/-- The hypotheses hold for `0.1` and `0.3`. -/
example : (1 : ℚ) ≤ |(ofDec false 1 (-1)).toRat * (ofDec false 3 (-1)).toRat| * (2 ^ 968 : ℕ) ∧
    |(ofDec false 1 (-1)).toRat * (ofDec false 3 (-1)).toRat| ≤ (2 ^ 1020 : ℕ) := by decide +kernel

/-- A large operand, where the splitting scales: `1e301 * 0.3`. -/
example : twoProdNoFma (ofDec false 1 301) (ofDec false 3 (-1)) = twoProd (ofDec false 1 301) (ofDec false 3 (-1)) := by
  decide +kernel

/-- Outside the range the two differ: a product below `2^-968` whose pieces underflow. -/
theorem C54_outside : twoProdNoFma (ofDec false 1 (-160)) (ofDec false 3 (-160)) ≠ twoProd (ofDec false 1 (-160)) (ofDec false 3 (-160)) ∨
    twoProdNoFma (ofDec false 1 (-155)) (ofDec false 3 (-155)) ≠ twoProd (ofDec false 1 (-155)) (ofDec false 3 (-155)) := by
  decide +kernel

end Verif
