import Verif.Props.Mul
import Verif.Props.QuadMul
import Verif.Props.Special
import Verif.Props.QuadBasic
import Verif.Proofs.Ident

/-!
# C93: how far multiplication commutes

The two cross products are added one after the other, so `a * b` and `b * a` may differ in the last place.
-/

namespace Verif

open F64 Prim Util

/-- **C93.** Multiplication of Doubles does not commute bit for bit: `E * LN_10` and `LN_10 * E` differ. -/
theorem C93_refuted : Double.E.Normalized ∧ Double.LN_10.Normalized ∧ (Double.E * Double.LN_10).val ≠ (Double.LN_10 * Double.E).val := by
  decide +kernel

/-- **C93.** For normalized operands in the range of C03 the two products differ by less than `2^-101` of the exact product. -/
theorem C93_close_partial (a b : Double) (ha : a.Normalized) (hb : b.Normalized)
    (hr : |a.hi.toRat * b.hi.toRat| ≤ 2 ^ 1023) (hu : 1 ≤ |a.val * b.val| * 2 ^ 969) :
    |(a * b).val - (b * a).val| * 2 ^ 101 < |a.val * b.val| := by
  have h1 := C03_mul_relative a b ha hb hr hu
  have h2 := C03_mul_relative b a hb ha (by rw [mul_comm b.hi.toRat]; exact hr) (by rw [mul_comm b.val]; exact hu)
  rw [mul_comm b.val] at h2
  clear hr hu
  generalize a.val * b.val = V at *
  have t := abs_sub_le (a * b).val V (b * a).val
  rw [abs_sub_comm V] at t
  norm_num at h1 h2 ⊢
  linarith

example : Double.E.Normalized ∧ Double.LN_10.Normalized ∧ |Double.E.hi.toRat * Double.LN_10.hi.toRat| ≤ 2 ^ 1023 ∧
    1 ≤ |Double.E.val * Double.LN_10.val| * 2 ^ 969 := by decide +kernel

/-- **C93.** The same for Quads, within `2^-203` of the exact product. -/
theorem C93_quad_close_partial (a b : Quad) (ha : a.Normalized) (hb : b.Normalized)
    (hlo : 1 ≤ |a.c0.toRat * b.c0.toRat| * 2 ^ 770) (hhi : |a.c0.toRat * b.c0.toRat| ≤ 2 ^ 1010) :
    |(a * b).val - (b * a).val| * 2 ^ 203 ≤ |a.val * b.val| := by
  have h1 := (C51_normalized a b ha hb hlo hhi).2
  have h2 := (C51_normalized b a hb ha (by rw [mul_comm b.c0.toRat]; exact hlo) (by rw [mul_comm b.c0.toRat]; exact hhi)).2
  rw [mul_comm b.val] at h2
  clear hlo hhi
  generalize a.val * b.val = V at *
  have t := abs_sub_le (a * b).val V (b * a).val
  rw [abs_sub_comm V] at t
  norm_num at h1 h2 ⊢
  linarith

example : Quad.E.Normalized ∧ Quad.PI.Normalized ∧ 1 ≤ |Quad.E.c0.toRat * Quad.PI.c0.toRat| * 2 ^ 770 ∧
    |Quad.E.c0.toRat * Quad.PI.c0.toRat| ≤ 2 ^ 1010 := by decide +kernel

/-- **C93.** Multiplication of Quads does not commute bit for bit either: `PI * FRAC_1_PI` and `FRAC_1_PI * PI` differ. -/
theorem C93_quad_refuted : Quad.PI.Normalized ∧ Quad.FRAC_1_PI.Normalized ∧
    (Quad.PI * Quad.FRAC_1_PI).val ≠ (Quad.FRAC_1_PI * Quad.PI).val := by
  decide +kernel

/-- **C93 is false of a Quad and a plain `f64`** too, unlike for Doubles: the two orders below differ in the last component. -/
theorem C93_quad_single_refuted : ∃ a b : Quad, a.Normalized ∧ b.Normalized ∧
    b.c1.toRat = 0 ∧ b.c2.toRat = 0 ∧ b.c3.toRat = 0 ∧ (a * b).val ≠ (b * a).val := by
  refine ⟨⟨ofDec true 15 (-1), ofDec false 51071289548382725 (-34), ofDec false 19259299443872356 (-50),
    ofDec false 5345529420184392 (-66)⟩, ⟨ofDec false 19999999999999993 (-16), F64.zero, F64.zero, F64.zero⟩, ?_⟩
  decide +kernel

/-! ## Where it does commute -/

theorem num_add_fin0 (x : F64) : (num x).add (.fin 0) = num x := by
  cases h : num x with
  | nan => rfl
  | inf s => rfl
  | fin n =>
    have i := is_of_num h
    have z : Is F64.zero 0 := ⟨by decide, by decide⟩
    have := num_of_is (i.add_zero z)
    rwa [num_add, h, num_of_is z] at this

theorem num_mul_zero {x z : F64} {n : ℤ} (hx : Is x n) (hz : num z = .fin 0) : num (F64.mul x z) = .fin 0 := by
  have := hx.mul_rep (is_of_num hz) (k := 0) (by simp) .zero zero_ovf
  exact num_of_is this

theorem twoProd_comm_num (x y : F64) : num (twoProd x y).1 = num (twoProd y x).1 ∧ num (twoProd x y).2 = num (twoProd y x).2 := by
  have h1 : num (F64.mul x y) = num (F64.mul y x) := by rw [num_mul, num_mul, Num.mul_comm]
  refine ⟨h1, ?_⟩
  change num (F64.fma x y (F64.neg (F64.mul x y))) = num (F64.fma y x (F64.neg (F64.mul y x)))
  rw [num_fma, num_fma, Num.fma_comm, num_neg, num_neg, h1]

theorem mulMain_comm {a b : Double} {n : ℤ} (hb : Is b.hi n) (hz : num a.lo = .fin 0) :
    SamD (mulMain a b) (mulMain b a) := by
  obtain ⟨p1, p2⟩ := twoProd_comm_num a.hi b.hi
  have e : num (F64.add (F64.add (twoProd a.hi b.hi).2 (F64.mul a.hi b.lo)) (F64.mul a.lo b.hi)) =
      num (F64.add (F64.add (twoProd b.hi a.hi).2 (F64.mul b.hi a.lo)) (F64.mul b.lo a.hi)) := by
    have z1 : num (F64.mul b.hi a.lo) = .fin 0 := num_mul_zero hb hz
    have z2 : num (F64.mul a.lo b.hi) = .fin 0 := by rw [num_mul, Num.mul_comm, ← num_mul]; exact z1
    rw [num_add, z2, num_add_fin0, num_add, num_add, num_add, z1, num_add_fin0, p2, num_mul, num_mul, Num.mul_comm]
  have h2 := SamP.quickTwoSum (a := (twoProd a.hi b.hi).1) (a' := (twoProd b.hi a.hi).1) p1.symm e.symm
  exact ⟨h2.1, h2.2⟩

/-- **C93.** When one factor is a plain `f64` (its second component is zero) and the other is normalized, the two products are the
same, component by component. -/
theorem C93_single_partial (a b : Double) (ha : a.Fin) (hb : b.Normalized) (h : a.lo.toRat = 0) : SameDouble (a * b) (b * a) := by
  have ia := DIs.of_fin ha
  obtain ⟨bh, bl, ib, nb⟩ := hb.norm2
  have hl : a.lo.units = 0 := by
    have e := ia.2.toRat
    rw [h] at e
    have : ((a.lo.units : ℤ) : ℚ) = 0 := by
      have o := one'_posQ
      rw [eq_comm, div_eq_zero_iff] at e
      exact e.resolve_right o.ne'
    exact_mod_cast this
  rw [hl] at ia
  by_cases hm : a.hi.units = 0
  · rw [hm] at ia
    have h1 := dis_mul_zero_left ia ib.1
    have h2 := dis_mul_zero_right ib ia
    exact samD_iff.mp (samD_of_dis h2 h1)
  by_cases hn : bh = 0
  · rw [hn] at ib nb
    rw [nb.hi_zero] at ib
    have h2 := dis_mul_zero_left ib ia.1
    have h1 : DIs (a * b) 0 0 := dis_mul_zero_right ia ib
    exact samD_iff.mp (samD_of_dis h2 h1)
  have h1 := samD_mul_main ia.1 ib.1 hm
  have h2 := samD_mul_main ib.1 ia.1 hn
  have h3 := mulMain_comm ib.1 (num_of_is ia.2)
  exact samD_iff.mp (h2.trans (h3.symm.trans h1.symm))

example : (⟨Double.PI.hi, F64.zero⟩ : Double).Fin ∧ Double.LN_10.Normalized ∧ (⟨Double.PI.hi, F64.zero⟩ : Double).lo.toRat = 0 :=
  ⟨⟨by decide +kernel, by decide +kernel⟩, by decide +kernel, by decide +kernel⟩

theorem ident_same {x y : F64} (h : IdentF64 x y) : SameF64 x y := by
  rcases h with ⟨h1, h2⟩ | h
  · exact Or.inl ⟨h1, h2⟩
  · subst h; exact sameF64_iff.mpr rfl

/-- **C93.** When one factor is infinite or NaN, or both are zero, the two products are the same. -/
theorem C93_special_partial (a b : Double) (h : a.isFinite = false ∨ b.isFinite = false ∨ (a.isZero = true ∧ b.isZero = true)) :
    SameDouble (a * b) (b * a) := by
  have h1 := C09_mul_partial a b (by tauto)
  have h2 := C09_mul_partial b a (by tauto)
  constructor
  · rw [sameF64_iff, sameF64_iff.mp (ident_same h1.1), sameF64_iff.mp (ident_same h2.1), num_mul, num_mul, Num.mul_comm]
  · rw [h1.2, h2.2]; exact Or.inr rfl

/-- **C93.** The same for Quads. -/
theorem C93_quad_special_partial (a b : Quad) (h : a.isFinite = false ∨ b.isFinite = false ∨ (a.isZero = true ∧ b.isZero = true)) :
    SameQuad (a * b) (b * a) := by
  have h1 := C09_quad_mul_partial a b (by tauto)
  have h2 := C09_quad_mul_partial b a (by tauto)
  obtain ⟨p0, p1, p2, p3⟩ := h1
  obtain ⟨q0, q1, q2, q3⟩ := h2
  refine ⟨?_, by rw [p1, q1]; exact Or.inr rfl, by rw [p2, q2]; exact Or.inr rfl, by rw [p3, q3]; exact Or.inr rfl⟩
  rw [sameF64_iff, sameF64_iff.mp (ident_same p0), sameF64_iff.mp (ident_same q0), num_mul, num_mul, Num.mul_comm]

example : Double.NEG_INFINITY.isFinite = false ∧ Quad.NEG_INFINITY.isFinite = false := by decide

end Verif
