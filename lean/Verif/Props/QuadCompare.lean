import Verif.Props.QuadOrder

/-!
# C53: comparison of a Quad with an `f64`

Comparison of two normalized Quads can go wrong when a component lies half way between two others (`C53_refuted`). It is
exact whenever one of the two is a plain `f64` (its other components are zero), in particular a constant like `ONE`.
-/

namespace Verif

open F64 Prim Util

/-- The components after the first of a normalized Quad, in units. -/
theorem rest_small {z : ℤ × ℤ × ℤ × ℤ} (h : Norm4 z) : 2 * |z.2.2.1 + z.2.2.2| ≤ |z.2.1| ∧ 2 * |z.2.2.2| ≤ |z.2.2.1| := by
  have h2 := h.2.1.lo_le
  have h3 := h.2.2.lo_le
  have e := abs_add_le z.2.2.1 z.2.2.2
  have := abs_nonneg z.2.2.1
  have := abs_nonneg z.2.2.2
  constructor <;> omega

/-- The exact value of a normalized Quad is above every `f64` below its first component. -/
theorem norm4_above {z : ℤ × ℤ × ℤ × ℤ} (h : Norm4 z) {y : ℤ} (hy : Rep y) (hlt : y < z.1) : y < sum4 z := by
  obtain ⟨m, n, p, q⟩ := z
  have hr := (rest_small h).1
  have h1 := rnd_nearest (((m + n : ℤ) : ℚ)) hy
  have h2 : rnd (((m + n : ℤ) : ℚ)) = m := h.1.rnd_eq
  rw [h2] at h1
  have h1 : |m + n - m| ≤ |m + n - y| := by exact_mod_cast h1
  change 2 * |p + q| ≤ |n| at hr
  change y < m at hlt
  change y < m + n + p + q
  have e1 := abs_le.mp (show |p + q| ≤ |p + q| from le_rfl)
  rw [show m + n - m = n by ring] at h1
  rcases abs_cases n with ⟨a, b⟩ | ⟨a, b⟩ <;> rcases abs_cases (m + n - y) with ⟨c, d⟩ | ⟨c, d⟩ <;>
    rcases abs_cases (p + q) with ⟨e, f⟩ | ⟨e, f⟩ <;> omega

theorem norm4_below {z : ℤ × ℤ × ℤ × ℤ} (h : Norm4 z) {y : ℤ} (hy : Rep y) (hlt : z.1 < y) : sum4 z < y := by
  have h1 := norm4_above h.neg hy.neg (by change -y < -z.1; omega)
  have e : sum4 (-z) = -sum4 z := by
    change -z.1 + -z.2.1 + -z.2.2.1 + -z.2.2.2 = -(z.1 + z.2.1 + z.2.2.1 + z.2.2.2); ring
  rw [e] at h1; omega

theorem cmp_of {m n : ℤ} : (m < n → compare m n = .lt) ∧ (m = n → compare m n = .eq) ∧ (n < m → compare m n = .gt) :=
  ⟨compare_lt_iff_lt.mpr, compare_eq_iff_eq.mpr, compare_gt_iff_gt.mpr⟩

/-- **C53.** A normalized Quad compared with a Quad that is a plain `f64` is compared exactly, ties or not. -/
theorem C53_single (a : Quad) (ha : a.Normalized) (x : F64) (hx : x.isFinite = true) :
    Quad.partialCmp a ⟨x, F64.zero, F64.zero, F64.zero⟩ = some (compare a.val x.toRat) := by
  have q := QIs.of_fin ha.1
  generalize hz : (a.c0.units, a.c1.units, a.c2.units, a.c3.units) = z at q
  have nz := q.normalized_iff.mp ha
  have ix := Is.of_finite hx
  have z0 := is_zero
  have ev : compare a.val x.toRat = compare (sum4 z) x.units := by
    rw [q.val, ix.toRat, ← compare_div_one']
  obtain ⟨m, n, p, r⟩ := z
  unfold Quad.partialCmp
  rw [ev, q.i0.partialCmp ix, q.i1.partialCmp z0, q.i2.partialCmp z0, q.i3.partialCmp z0]
  have r1 := (rest_small nz).1
  have r2 := (rest_small nz).2
  dsimp only at r1 r2 ⊢
  change 2 * |p + r| ≤ |n| at r1
  have es : sum4 (m, n, p, r) = m + n + p + r := rfl
  have e1 := abs_le.mp (show |p + r| ≤ |p + r| from le_rfl)
  have e2 := abs_le.mp (show |r| ≤ |r| from le_rfl)
  rcases lt_trichotomy m x.units with h | h | h
  · rw [cmp_of.1 h, cmp_of.1 (norm4_below nz ix.rep h)]
  · rw [cmp_of.2.1 h]
    dsimp only
    rcases lt_trichotomy n 0 with h1 | h1 | h1
    · rw [cmp_of.1 h1]
      dsimp only
      rw [cmp_of.1 (show sum4 (m, n, p, r) < x.units by rw [es]; rw [abs_of_neg h1] at r1; omega)]
    · rw [cmp_of.2.1 h1]
      dsimp only
      rw [h1] at r1
      have hp : p + r = 0 := by rw [abs_zero] at r1; have := abs_nonneg (p + r); exact abs_eq_zero.mp (by omega)
      have hr : r = 0 ∧ p = 0 := by
        have : p = -r := by omega
        rw [this, abs_neg] at r2
        have := abs_nonneg r
        have := abs_eq_zero.mp (show |r| = 0 by omega)
        omega
      rw [cmp_of.2.1 hr.2]
      dsimp only
      rw [cmp_of.2.1 hr.1, cmp_of.2.1 (by rw [es]; omega)]
    · rw [cmp_of.2.2 h1]
      dsimp only
      rw [cmp_of.2.2 (show x.units < sum4 (m, n, p, r) by rw [es]; rw [abs_of_pos h1] at r1; omega)]
  · rw [cmp_of.2.2 h, cmp_of.2.2 (norm4_above nz ix.rep h)]

/-- A normalized Quad with a tie at its first component (half a unit in the last place of 1), compared with 1. -/
example : (⟨F64.ofInt 1, F64.powi Double.two (-53), F64.powi Double.two (-106), F64.zero⟩ : Quad).Normalized := by
  decide +kernel

/-- **C53.** The five comparison operators of a normalized Quad with a plain `f64`, on either side. -/
theorem C53_single_ops (a : Quad) (ha : a.Normalized) (x : F64) (hx : x.isFinite = true) :
    (Quad.lt a ⟨x, F64.zero, F64.zero, F64.zero⟩ = true ↔ a.val < x.toRat) ∧
    (Quad.le a ⟨x, F64.zero, F64.zero, F64.zero⟩ = true ↔ a.val ≤ x.toRat) ∧
    (Quad.gt a ⟨x, F64.zero, F64.zero, F64.zero⟩ = true ↔ x.toRat < a.val) ∧
    (Quad.ge a ⟨x, F64.zero, F64.zero, F64.zero⟩ = true ↔ x.toRat ≤ a.val) ∧
    (Quad.eq a ⟨x, F64.zero, F64.zero, F64.zero⟩ = true ↔ a.val = x.toRat) ∧
    (Quad.lt ⟨x, F64.zero, F64.zero, F64.zero⟩ a = true ↔ x.toRat < a.val) ∧
    (Quad.gt ⟨x, F64.zero, F64.zero, F64.zero⟩ a = true ↔ a.val < x.toRat) := by
  have h := C53_single a ha x hx
  have hs := C13_quad_swap a ⟨x, F64.zero, F64.zero, F64.zero⟩
  have he := C13_quad_eq_iff a ⟨x, F64.zero, F64.zero, F64.zero⟩
  unfold Quad.lt Quad.le Quad.gt Quad.ge
  rw [he, hs, h]
  rcases lt_trichotomy a.val x.toRat with c | c | c
  · rw [compare_lt_iff_lt.mpr c]
    simp [c, c.le, c.not_gt, c.ne, Ordering.swap]
  · rw [compare_eq_iff_eq.mpr c]
    simp [c, Ordering.swap]
  · rw [compare_gt_iff_gt.mpr c]
    simp [c, c.le, c.not_gt, c.ne', Ordering.swap]

end Verif
