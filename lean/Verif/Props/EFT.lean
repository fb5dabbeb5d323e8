import Verif.Proofs.DoubleMul
import Verif.Props.Symmetry

/-!
# C57: the error-free transformations
-/

namespace Verif

open F64 Prim

theorem nearest_of_rnd {x : F64} {q : ℚ} (h : Is x (rnd q)) : NearestF64 x (q / one') := by
  refine ⟨h.1, fun y hy => ?_⟩
  have iy := Is.of_finite hy
  rw [h.toRat, iy.toRat, ← sub_div, ← sub_div, abs_div, abs_div]
  exact div_le_div_of_nonneg_right (rnd_nearest q iy.rep) (abs_nonneg _)

/-- **C57.** `two_sum`: for all finite operands (absent overflow), the first result is the `f64` sum, which is a nearest
`f64` to the exact sum, and the two results add up exactly to the exact sum. -/
theorem C57_two_sum (a b : F64) (ha : a.isFinite = true) (hb : b.isFinite = true)
    (hr : |a.toRat| + |b.toRat| ≤ 3 * 2 ^ 1022) :
    (twoSum a b).1 = F64.add a b ∧ NearestF64 (twoSum a b).1 (a.toRat + b.toRat) ∧
    (twoSum a b).2.isFinite = true ∧ (twoSum a b).1.toRat + (twoSum a b).2.toRat = a.toRat + b.toRat := by
  have ia := Is.of_finite ha
  have ib := Is.of_finite hb
  have i := is_twoSum ia ib (range3 ia ib hr)
  have e : a.toRat + b.toRat = ((a.units + b.units : ℤ) : ℚ) / one' := by
    rw [ia.toRat, ib.toRat]; push_cast; ring
  refine ⟨rfl, ?_, i.2.1, ?_⟩
  · rw [e]; exact nearest_of_rnd i.1
  · rw [e, i.1.toRat, i.2.toRat, ← add_div, ← rs_add_re a.units b.units]; push_cast; rfl

/-- **C57.** `two_diff`: the same for the difference. -/
theorem C57_two_diff (a b : F64) (ha : a.isFinite = true) (hb : b.isFinite = true)
    (hr : |a.toRat| + |b.toRat| ≤ 3 * 2 ^ 1022) :
    (twoDiff a b).1 = F64.sub a b ∧ NearestF64 (twoDiff a b).1 (a.toRat - b.toRat) ∧
    (twoDiff a b).2.isFinite = true ∧ (twoDiff a b).1.toRat + (twoDiff a b).2.toRat = a.toRat - b.toRat := by
  have ia := Is.of_finite ha
  have ib := Is.of_finite hb
  have i := is_twoDiff ia ib (range3 ia ib hr)
  have e : a.toRat - b.toRat = ((a.units + -b.units : ℤ) : ℚ) / one' := by
    rw [ia.toRat, ib.toRat]; push_cast; ring
  refine ⟨rfl, ?_, i.2.1, ?_⟩
  · rw [e]; exact nearest_of_rnd i.1
  · rw [e, i.1.toRat, i.2.toRat, ← add_div, ← rs_add_re a.units (-b.units)]; push_cast; rfl

/-- **C57.** `quick_two_sum`: the same as `two_sum`, when the first operand is at least as large as the second (or is
zero). -/
theorem C57_quick_two_sum (a b : F64) (ha : a.isFinite = true) (hb : b.isFinite = true)
    (h : |b.toRat| ≤ |a.toRat| ∨ a.toRat = 0) (hr : |a.toRat| + |b.toRat| ≤ 3 * 2 ^ 1022) :
    (quickTwoSum a b).1 = F64.add a b ∧ NearestF64 (quickTwoSum a b).1 (a.toRat + b.toRat) ∧
    (quickTwoSum a b).2.isFinite = true ∧
    (quickTwoSum a b).1.toRat + (quickTwoSum a b).2.toRat = a.toRat + b.toRat := by
  have ia := Is.of_finite ha
  have ib := Is.of_finite hb
  have hg : Grid a.units b.units := by
    rcases h with h | h
    · rw [ia.toRat, ib.toRat, abs_div_one', abs_div_one', div_le_div_iff_of_pos_right one'_posQ] at h
      exact .of_abs_le ia.rep ib.rep (by exact_mod_cast h)
    · rw [ia.toRat, div_eq_zero_iff] at h
      have : a.units = 0 := by
        rcases h with h | h
        · exact_mod_cast h
        · exact absurd h one'_ne
      rw [this]; exact .zero_left ib.rep
  have i := is_quickTwoSum ia ib hg (range3 ia ib hr)
  have e : a.toRat + b.toRat = ((a.units + b.units : ℤ) : ℚ) / one' := by
    rw [ia.toRat, ib.toRat]; push_cast; ring
  refine ⟨rfl, ?_, i.2.1, ?_⟩
  · rw [e]; exact nearest_of_rnd i.1
  · rw [e, i.1.toRat, i.2.toRat, ← add_div, ← rs_add_re a.units b.units]; push_cast; rfl

theorem pq_val {a b : F64} {m n : ℤ} (ia : Is a m) (ib : Is b n) : a.toRat * b.toRat = pq m n / one' := by
  rw [ia.toRat, ib.toRat]; unfold pq; rw [div_mul_div_comm, div_div]

theorem expo_of_prod {a b : F64} {m n : ℤ} (ia : Is a m) (ib : Is b n) (h : 1 ≤ |a.toRat * b.toRat| * 2 ^ 969) :
    1074 ≤ expo (m : ℚ) + expo (n : ℚ) := by
  by_contra hc
  have := pq_small (not_le.mp hc)
  rw [pq_val ia ib, abs_div, abs_of_pos one'_posQ, one'_pow, div_mul_eq_mul_div, le_div_iff₀ (by positivity)] at h
  have e : (2:ℚ) ^ 1074 = 2 ^ 105 * 2 ^ 969 := by rw [← pow_add]
  rw [one_mul, e] at h
  have h2 := mul_lt_mul_of_pos_right this (by positivity : (0:ℚ) < 2 ^ 969)
  exact absurd (lt_of_le_of_lt h h2) (lt_irrefl _)

/-- The largest finite `f64`. -/
def f64Max : ℚ := (2 ^ 53 - 1) * 2 ^ 971

theorem range_prod {a b : F64} {m n : ℤ} (ia : Is a m) (ib : Is b n) (h : |a.toRat * b.toRat| ≤ f64Max) :
    |pq m n| ≤ (omegaUnits : ℚ) := by
  rw [pq_val ia ib, abs_div, abs_of_pos one'_posQ, div_le_iff₀ one'_posQ] at h
  refine h.trans (le_of_eq ?_)
  unfold f64Max omegaUnits
  rw [one'_pow, mul_assoc, ← pow_add]
  push_cast
  rw [mul_comm]
  generalize (2:ℚ) ^ 2045 = P
  norm_num

/-- **C57.** `two_prod`: for all finite operands whose product does not overflow, the first result is the `f64` product,
a nearest `f64` to the exact product, and the two results add up to the exact product with an error of at most half a
unit of the smallest subnormal; exactly when the product is at least `2^-969` in magnitude or zero. -/
theorem C57_two_prod (a b : F64) (ha : a.isFinite = true) (hb : b.isFinite = true)
    (hr : |a.toRat * b.toRat| ≤ f64Max) :
    (twoProd a b).1 = F64.mul a b ∧ NearestF64 (twoProd a b).1 (a.toRat * b.toRat) ∧
    (twoProd a b).2.isFinite = true ∧
    |(twoProd a b).1.toRat + (twoProd a b).2.toRat - a.toRat * b.toRat| * 2 ^ 1075 ≤ 1 ∧
    (1 ≤ |a.toRat * b.toRat| * 2 ^ 969 ∨ a.toRat * b.toRat = 0 →
      (twoProd a b).1.toRat + (twoProd a b).2.toRat = a.toRat * b.toRat) := by
  have ia := Is.of_finite ha
  have ib := Is.of_finite hb
  have i := is_twoProd ia ib (range_prod ia ib hr)
  refine ⟨rfl, ?_, i.2.1, ?_, ?_⟩
  · rw [pq_val ia ib]; exact nearest_of_rnd i.1
  · rw [pq_val ia ib, i.1.toRat, i.2.toRat, ← add_div, ← sub_div, abs_div, abs_of_pos one'_posQ, one'_pow]
    have h := pe_err ia.rep ib.rep
    rw [← abs_neg] at h
    have e : -(pq a.units b.units - pr a.units b.units - pe a.units b.units) =
      (pr a.units b.units : ℚ) + pe a.units b.units - pq a.units b.units := by ring
    rw [e] at h
    have e2 : (2:ℚ) ^ 1075 = 2 ^ 1074 * 2 := by rw [← pow_succ]
    rw [e2, ← mul_assoc, div_mul_cancel₀ _ (by positivity)]
    linarith
  · rintro (h | h)
    · rw [pq_val ia ib, i.1.toRat, i.2.toRat, ← add_div, pe_exact ia.rep ib.rep (expo_of_prod ia ib h)]
      congr 1; ring
    · have hq : pq a.units b.units = 0 := by
        rw [pq_val ia ib, div_eq_zero_iff] at h
        exact h.resolve_right one'_ne
      rw [h, i.1.toRat, i.2.toRat]
      unfold pe pr
      rw [hq]; simp [rnd_zero]

/-- **C57.** `two_sqr` is `two_prod` of the number with itself. -/
theorem C57_two_sqr (a : F64) : twoSqr a = twoProd a a := rfl

/-- Cases that meet the hypotheses. -/
example : Double.PI.hi.isFinite = true ∧ Double.E.hi.isFinite = true ∧
    |Double.PI.hi.toRat| + |Double.E.hi.toRat| ≤ 3 * 2 ^ 1022 ∧ |Double.E.hi.toRat| ≤ |Double.PI.hi.toRat| ∧
    |Double.PI.hi.toRat * Double.E.hi.toRat| ≤ f64Max ∧ 1 ≤ |Double.PI.hi.toRat * Double.E.hi.toRat| * 2 ^ 969 := by
  decide +kernel

end Verif
