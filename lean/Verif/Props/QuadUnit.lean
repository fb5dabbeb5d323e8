import Verif.Proofs.QuadDivIdent
import Verif.Props.QuadSum

/-!
# C51, C52: Quad multiplication and division by one, by zero, and of equal numbers
-/

namespace Verif

open F64 Prim Util

/-- **C52.** `a / 1` is `a`, component by component, for all normalized Quads up to `2^970`. -/
theorem C52_div_one (a : Quad) (h : a.Normalized) (hb : |a.c0.toRat| ≤ 2 ^ 970) : SameQuad (a / Quad.ONE) a := by
  have q := QIs.of_fin h.1
  have n := q.normalized_iff.mp h
  exact sameQuad_of_is (quad_div_single q n is_quad_one one'_ne_zero rfl rfl rfl rfl n q.i0.lt (lim_of_le q.i0 hb)) q

/-- **C52.** `a / a` is one, for all normalized nonzero Quads up to `2^970`. -/
theorem C52_div_self (a : Quad) (h : a.Normalized) (h0 : a.val ≠ 0) (hb : |a.c0.toRat| ≤ 2 ^ 970) :
    SameQuad (a / a) Quad.ONE := by
  have q := QIs.of_fin h.1
  have n := q.normalized_iff.mp h
  have hz : a.c0.units ≠ 0 := by
    intro e
    obtain ⟨n1, n2, n3⟩ := n
    dsimp only at n1 n2 n3
    have e1 := norm2_chain n1 e
    have e2 := norm2_chain n2 e1
    have e3 := norm2_chain n3 e2
    apply h0
    rw [q.val, e, e1, e2, e3]
    simp [sum4]
  exact sameQuad_of_is (quad_div_self q q n hz (lim_of_le q.i0 hb)) is_quad_one

example : Quad.PI.Normalized ∧ Quad.PI.val ≠ 0 ∧ |Quad.PI.c0.toRat| ≤ 2 ^ 970 := by decide +kernel

/-- **C52.** `0 / b` is zero for all normalized nonzero Quads. -/
theorem C52_zero_div (b : Quad) (h : b.Fin) (h0 : b.c0.toRat ≠ 0) : (Quad.ZERO / b).val = 0 := by
  have q := QIs.of_fin h
  have hn : b.c0.units ≠ 0 := by
    intro e
    apply h0
    rw [q.i0.toRat, e]; simp
  have zz := norm2_zero_zero
  have iz : QIs Quad.ZERO (0, 0, 0, 0) := ⟨is_zero, is_zero, is_zero, is_zero⟩
  have hz : ∀ {r : Quad}, QIs r (0, 0, 0, 0) → Is (F64.div r.c0 b.c0) 0 ∧
      QIs (r - Quad.mulF64 b (F64.div r.c0 b.c0)) (0, 0, 0, 0) := by
    intro r hr
    have q1 := hr.i0.zero_div q.i0 hn
    have p := is_qmulF64 (k0 := 0) (k1 := 0) (k2 := 0) (k3 := 0) q q1 (by ring) (by ring) (by ring) (by ring) ⟨zz, zz, zz⟩ zero_ovf
    refine ⟨q1, quad_sub_same hr p ⟨by simp, by simp, by simp⟩ ?_⟩
    show 2 ^ 50 * |(0:ℤ)| ≤ lim
    unfold lim
    rw [abs_zero, mul_zero]; positivity
  have s0 := hz iz
  have s1 := hz s0.2
  have s2 := hz s1.2
  have s3 := hz s2.2
  have s4 := hz s3.2
  have R := is_renorm5_norm s0.1 s1.1 s2.1 s3.1 s4.1 zz zz zz
  have Q : QIs (Quad.ZERO / b) (0, 0, 0, 0) := by
    show QIs (Quad.div Quad.ZERO b) _
    unfold Quad.div
    rw [qdiv_main iz.i0 q.i0 hn]
    exact ⟨R.i0, R.i1, R.i2, R.i3⟩
  rw [Q.val]; simp [sum4]

example : Quad.PI.Fin ∧ Quad.PI.c0.toRat ≠ 0 := by decide +kernel

/-- **C51.** `a * 1` is `a`, component by component, for all normalized nonzero Quads, however large. -/
theorem C51_mul_one (a : Quad) (h : a.Normalized) (h0 : a.c0.toRat ≠ 0) : SameQuad (a * Quad.ONE) a := by
  have q := QIs.of_fin h.1
  have n := q.normalized_iff.mp h
  have hn : a.c0.units ≠ 0 := by
    intro e
    apply h0
    rw [q.i0.toRat, e]; simp
  exact sameQuad_of_is (quad_mul_single q is_quad_one hn rfl rfl rfl rfl n q.i0.lt) q

/-- **C51.** `1 * a` is `a`, component by component, for all normalized Quads, however large. -/
theorem C51_one_mul (a : Quad) (h : a.Normalized) : SameQuad (Quad.ONE * a) a := by
  have q := QIs.of_fin h.1
  have n := q.normalized_iff.mp h
  exact sameQuad_of_is (quad_single_mul q is_quad_one one'_ne_zero rfl rfl rfl rfl n q.i0.lt) q

example : Quad.PI.Normalized ∧ Quad.PI.c0.toRat ≠ 0 := by decide +kernel
example : Quad.MAX.Normalized ∧ Quad.MAX.c0.toRat ≠ 0 := by decide +kernel

/-- **C51.** `a * 0` is zero for all finite Quads. -/
theorem C51_mul_zero (a : Quad) (h : a.Fin) : (a * Quad.ZERO).val = 0 := by
  have q := QIs.of_fin h
  have zz := norm2_zero_zero
  have iz : QIs Quad.ZERO (0, 0, 0, 0) := ⟨is_zero, is_zero, is_zero, is_zero⟩
  by_cases h0 : a.c0.units = 0
  · have hpre : Quad.mul a Quad.ZERO = Quad.ZERO ∨ Quad.mul a Quad.ZERO = Quad.NEG_ZERO := by
      have q1 : a.isNan = false := q.i0.not_nan
      have q2 : Quad.ZERO.isNan = false := rfl
      have f2 : Quad.ZERO.isInfinite = false := rfl
      have z : a.isZero = true := (q.i0.eq_iff is_zero).mpr h0
      unfold Quad.mul Quad.preMul
      rw [q1, q2, f2, z]
      simp only [Bool.or_self, Bool.false_eq_true, if_false, if_true]
      split_ifs
      · exact .inl rfl
      · exact .inr rfl
    show (Quad.mul a Quad.ZERO).val = 0
    rcases hpre with e | e <;> rw [e] <;> decide +kernel
  · have Q := quad_mul_single (k0 := 0) (k1 := 0) (k2 := 0) (k3 := 0) q iz h0 (by ring) (by ring) (by ring) (by ring)
      ⟨zz, zz, zz⟩ zero_ovf
    rw [Q.val]; simp [sum4]

example : Quad.MAX.Fin := by decide +kernel

end Verif
