import Verif.Proofs.QuadSlackDiv
import Verif.Props.QuadMul

/-!
# `Quad` multiplication for operands that are ordered up to a small slack
-/

namespace Verif

open F64 Prim Util Quad

set_option maxHeartbeats 4000000 in
/-- The four summands that enter `renorm5`, from bounds on the partial products. -/
theorem mulRs_gen {a b : Quad} {r η r' η' : ℚ} (oa : QS a r η) (ob : QS b r' η') {l0 : F64} {m1 m2 m3 m4 m5 : ℚ}
    (hs : Scale m1 m2 m3 m4 m5) (hl : 1000 * m1 ≤ (lim : ℚ))
    (h01 : |pq a.c0.units b.c1.units| ≤ 2 * m1) (h10 : |pq a.c1.units b.c0.units| ≤ 2 * m1)
    (h02 : |pq a.c0.units b.c2.units| ≤ 4 * m2) (h11 : |pq a.c1.units b.c1.units| ≤ 4 * m2)
    (h20 : |pq a.c2.units b.c0.units| ≤ 4 * m2)
    (h03 : |pq a.c0.units b.c3.units| ≤ 8 * m3) (h12 : |pq a.c1.units b.c2.units| ≤ 8 * m3)
    (h21 : |pq a.c2.units b.c1.units| ≤ 8 * m3) (h30 : |pq a.c3.units b.c0.units| ≤ 8 * m3)
    (h13 : |pq a.c1.units b.c3.units| ≤ 16 * m4) (h22 : |pq a.c2.units b.c2.units| ≤ 16 * m4)
    (h31 : |pq a.c3.units b.c1.units| ≤ 16 * m4)
    (h23 : |pq a.c2.units b.c3.units| ≤ 32 * m5) (h32 : |pq a.c3.units b.c2.units| ≤ 32 * m5)
    (h33 : |pq a.c3.units b.c3.units| ≤ 64 * m5)
    (fl0 : Fb l0 (101 / 100 * m1)) :
    ∃ r1 r2 r3 r4, mulRs a b l0 = (r1, r2, r3, r4) ∧ Fb r1 (6 * m1) ∧ Fb r2 (30 * m2) ∧ Fb r3 (139 * m3) ∧
      Fb r4 (1000 * m4) ∧
      |U r1 + U r2 + U r3 + U r4 - (U l0 + (UP a b - pq a.c0.units b.c0.units))| ≤ 30000 * m5 := by
  obtain ⟨s1, s2, s3, s4, d1, d2, d3, d4, one⟩ := id hs
  obtain ⟨p1, l1, q1, fp1, fl1, e1, u1, _⟩ := qb_prod oa.f0 ob.f1 h01 (by linarith)
  obtain ⟨p2, l2, q2, fp2, fl2, e2, u2, _⟩ := qb_prod oa.f1 ob.f0 h10 (by linarith)
  obtain ⟨p3, l3, q3, fp3, fl3, e3, _, _⟩ := qb_prod oa.f0 ob.f2 h02 (by linarith)
  obtain ⟨p4, l4, q4, fp4, fl4, e4, _, _⟩ := qb_prod oa.f1 ob.f1 h11 (by linarith)
  obtain ⟨p5, l5, q5, fp5, fl5, e5, _, _⟩ := qb_prod oa.f2 ob.f0 h20 (by linarith)
  obtain ⟨p6, l6, q6, fp6, fl6, e6, _, _⟩ := qb_prod oa.f0 ob.f3 h03 (by linarith)
  obtain ⟨p7, l7, q7, fp7, fl7, e7, _, _⟩ := qb_prod oa.f1 ob.f2 h12 (by linarith)
  obtain ⟨p8, l8, q8, fp8, fl8, e8, _, _⟩ := qb_prod oa.f2 ob.f1 h21 (by linarith)
  obtain ⟨p9, l9, q9, fp9, fl9, e9, _, _⟩ := qb_prod oa.f3 ob.f0 h30 (by linarith)
  obtain ⟨fha, ea⟩ := qb_mul oa.f1 ob.f3 h13 (by linarith)
  obtain ⟨fhb, eb⟩ := qb_mul oa.f2 ob.f2 h22 (by linarith)
  obtain ⟨fhc, ec⟩ := qb_mul oa.f3 ob.f1 h31 (by linarith)
  obtain ⟨r1, t0, t1, r2, t2, t3, r3, t4, r4, z1, z2, z3, z4, fr1, fr2, fr3, fr4, es, ur1⟩ :=
    mul_core hs hl (fp1.mono (by linarith)) (fp2.mono (by linarith)) fl0 (fp3.mono (by linarith)) (fp4.mono (by linarith))
      (fp5.mono (by linarith)) (fl1.mono (by linarith)) (fl2.mono (by linarith)) (fp6.mono (by linarith))
      (fp7.mono (by linarith)) (fp8.mono (by linarith)) (fp9.mono (by linarith)) (fl3.mono (by linarith))
      (fl4.mono (by linarith)) (fl5.mono (by linarith)) (fha.mono (by linarith)) (fhb.mono (by linarith))
      (fhc.mono (by linarith)) (fl6.mono (by linarith)) (fl7.mono (by linarith)) (fl8.mono (by linarith))
      (fl9.mono (by linarith))
  refine ⟨r1, r2, r3, r4, ?_, fr1, fr2, fr3, fr4, ?_⟩
  · unfold mulRs
    rw [q1]; dsimp only
    rw [q2]; dsimp only
    rw [q3]; dsimp only
    rw [q4]; dsimp only
    rw [q5]; dsimp only
    rw [q6]; dsimp only
    rw [q7]; dsimp only
    rw [q8]; dsimp only
    rw [q9]; dsimp only
    rw [z1]; dsimp only
    rw [z2]; dsimp only
    rw [z3]; dsimp only
    rw [z4]
  · rw [UP_eq]
    clear z1 z2 z3 z4 q1 q2 q3 q4 q5 q6 q7 q8 q9 fp1 fp2 fp3 fp4 fp5 fp6 fp7 fp8 fp9 fl1 fl2 fl3 fl4 fl5 fl6 fl7 fl8 fl9
      h01 h10 h02 h11 h20 h03 h12 h21 h30 h13 h22 h31 fr1 fr2 fr3 fr4 ur1 u1 u2 fha fhb fhc oa ob
    have e1 := abs_le.mp e1
    have e2 := abs_le.mp e2
    have e3 := abs_le.mp e3
    have e4 := abs_le.mp e4
    have e5 := abs_le.mp e5
    have e6 := abs_le.mp e6
    have e7 := abs_le.mp e7
    have e8 := abs_le.mp e8
    have e9 := abs_le.mp e9
    have ea := abs_le.mp ea
    have eb := abs_le.mp eb
    have ec := abs_le.mp ec
    have es := abs_le.mp es
    have h23 := abs_le.mp h23
    have h32 := abs_le.mp h32
    have h33 := abs_le.mp h33
    exact abs_le.mpr ⟨by linarith, by linarith⟩


/-- The components of a number that is ordered up to a slack, in terms of the first. -/
theorem QS.sizes {q : Quad} {A : ℚ} (h : QS q (1 / 2 ^ 49) (A / 2 ^ 141)) (hA : |U q.c0| ≤ A) :
    |U q.c1| ≤ |U q.c0| / 2 ^ 49 + A / 2 ^ 141 ∧ |U q.c2| ≤ |U q.c0| / 2 ^ 98 + 101 / 100 * (A / 2 ^ 141) ∧
    |U q.c3| ≤ |U q.c0| / 2 ^ 147 + 101 / 100 * (A / 2 ^ 141) := by
  have d1 := h.d1
  have d2 := h.d2
  have d3 := h.d3
  have n0 := abs_nonneg (U q.c0)
  refine ⟨by linarith, by linarith, by linarith⟩

/-- A product of two bounds. -/
theorem pq_le_of {x y : F64} {p s t : ℚ} (hx : |U x| ≤ p) (hy : |U y| ≤ s)
    (h : p * s ≤ t * one') : |pq x.units y.units| ≤ t := by
  rw [pq_abs, div_le_iff₀ one'_posQ]
  refine (mul_le_mul hx hy (abs_nonneg _) ((abs_nonneg _).trans hx)).trans h

set_option maxHeartbeats 4000000 in
/-- The product in units, where `A` and `B` bound the leading components. -/
theorem mul_slack {a b : Quad} {A B M : ℚ} (oa : QS a (1 / 2 ^ 49) (A / 2 ^ 141)) (ob : QS b (1 / 2 ^ 49) (B / 2 ^ 141))
    (hA : |U a.c0| ≤ A) (hB : |U b.c0| ≤ B) (hM : A * B / one' = M) (hbig : 2 ^ 230 ≤ M) (hl : 1000 * M ≤ (lim : ℚ)) :
    QS (a * b) (1 / 2 ^ 49) (M / 2 ^ 142) ∧ |UQ (a * b) - UP a b| ≤ M / 2 ^ 139 := by
  obtain ⟨a1, a2, a3⟩ := oa.sizes hA
  obtain ⟨b1, b2, b3⟩ := ob.sizes hB
  have op := one'_posQ
  have na := abs_nonneg (U a.c0)
  have nb := abs_nonneg (U b.c0)
  have nA := na.trans hA
  have nB := nb.trans hB
  have hMo : A * B = M * one' := by rw [← hM]; field_simp
  obtain ⟨m, hm⟩ : ∃ m, |pq a.c0.units b.c0.units| = m := ⟨_, rfl⟩
  have hmo : |U a.c0| * |U b.c0| = m * one' := by
    rw [← hm, pq_abs]; unfold U; field_simp
  have nm : 0 ≤ m := hm ▸ abs_nonneg _
  have hmM : m ≤ M := by
    have := mul_le_mul hA hB nb nA
    rw [hmo, hMo] at this
    exact le_of_mul_le_mul_right this op
  have x1 : |U a.c0| * B ≤ M * one' := by rw [← hMo]; exact mul_le_mul_of_nonneg_right hA nB
  have x2 : A * |U b.c0| ≤ M * one' := by rw [← hMo]; exact mul_le_mul_of_nonneg_left hB nA
  have x0 : m * one' ≤ M * one' := mul_le_mul_of_nonneg_right hmM op.le
  have x3 : 0 ≤ m * one' := by positivity
  have x4 : 0 ≤ |U a.c0| * B := by positivity
  have x5 : 0 ≤ A * |U b.c0| := by positivity
  have h01 : |pq a.c0.units b.c1.units| ≤ 2 * (m / 2 ^ 50 + M / 2 ^ 100) := pq_le_of (le_refl _) b1 (by linarith)
  have h10 : |pq a.c1.units b.c0.units| ≤ 2 * (m / 2 ^ 50 + M / 2 ^ 100) := pq_le_of a1 (le_refl _) (by linarith)
  have h02 : |pq a.c0.units b.c2.units| ≤ 4 * (m / 2 ^ 97 + M / 2 ^ 115) := pq_le_of (le_refl _) b2 (by linarith)
  have h11 : |pq a.c1.units b.c1.units| ≤ 4 * (m / 2 ^ 97 + M / 2 ^ 115) := pq_le_of a1 b1 (by linarith)
  have h20 : |pq a.c2.units b.c0.units| ≤ 4 * (m / 2 ^ 97 + M / 2 ^ 115) := pq_le_of a2 (le_refl _) (by linarith)
  have h03 : |pq a.c0.units b.c3.units| ≤ 8 * (M / 2 ^ 138) := pq_le_of (le_refl _) b3 (by linarith)
  have h12 : |pq a.c1.units b.c2.units| ≤ 8 * (M / 2 ^ 138) := pq_le_of a1 b2 (by linarith)
  have h21 : |pq a.c2.units b.c1.units| ≤ 8 * (M / 2 ^ 138) := pq_le_of a2 b1 (by linarith)
  have h30 : |pq a.c3.units b.c0.units| ≤ 8 * (M / 2 ^ 138) := pq_le_of a3 (le_refl _) (by linarith)
  have h13 : |pq a.c1.units b.c3.units| ≤ 16 * (M / 2 ^ 186) := pq_le_of a1 b3 (by linarith)
  have h22 : |pq a.c2.units b.c2.units| ≤ 16 * (M / 2 ^ 186) := pq_le_of a2 b2 (by linarith)
  have h31 : |pq a.c3.units b.c1.units| ≤ 16 * (M / 2 ^ 186) := pq_le_of a3 b1 (by linarith)
  have h23 : |pq a.c2.units b.c3.units| ≤ 32 * (M / 2 ^ 225) := pq_le_of a2 b3 (by linarith)
  have h32 : |pq a.c3.units b.c2.units| ≤ 32 * (M / 2 ^ 225) := pq_le_of a3 b2 (by linarith)
  have h33 : |pq a.c3.units b.c3.units| ≤ 64 * (M / 2 ^ 225) := pq_le_of a3 b3 (by linarith)
  clear x1 x2 x0 x3 x4 x5
  have sc : Scale (m / 2 ^ 50 + M / 2 ^ 100) (m / 2 ^ 97 + M / 2 ^ 115) (M / 2 ^ 138) (M / 2 ^ 186) (M / 2 ^ 225) :=
    ⟨by linarith, by linarith, by linarith, by linarith, by linarith, by linarith, by linarith, by linarith, by linarith⟩
  by_cases hz : a.c0.units = 0
  · have huq : UQ (a * b) = 0 ∧ QS (a * b) (1 / 2 ^ 49) 0 := by
      have zz : ∀ z : F64, z.isFinite = true → U z = 0 → QS (⟨z, F64.zero, F64.zero, F64.zero⟩ : Quad) (1 / 2 ^ 49) 0 ∧
          UQ (⟨z, F64.zero, F64.zero, F64.zero⟩ : Quad) = 0 := by
        intro y hy hy0
        have z : U F64.zero = 0 := U_zero
        refine ⟨⟨hy, is_zero.1, is_zero.1, is_zero.1, ?_, ?_, ?_⟩, ?_⟩
        · show |U F64.zero| ≤ 1 / 2 ^ 49 * |U y| + 0
          rw [z, hy0]; simp
        · show |U F64.zero| ≤ 1 / 2 ^ 49 * |U F64.zero| + 0
          rw [z]; simp
        · show |U F64.zero| ≤ 1 / 2 ^ 49 * |U F64.zero| + 0
          rw [z]; simp
        · show U y + U F64.zero + U F64.zero + U F64.zero = 0
          rw [z, hy0]; simp
      have key : a * b = ZERO ∨ a * b = NEG_ZERO := by
        have ia := Is.of_finite oa.f0
        have ib := Is.of_finite ob.f0
        have n1 : a.isNan = false := ia.not_nan
        have n2 : b.isNan = false := ib.not_nan
        have i2 : b.isInfinite = false := ib.not_inf
        have z : a.isZero = true := by
          unfold Quad.isZero
          rw [ia.eq_iff is_zero]
          exact hz
        show Quad.mul a b = _ ∨ Quad.mul a b = _
        unfold Quad.mul Quad.preMul
        rw [n1, n2, i2, z]
        dsimp only [Bool.or_self, Bool.false_eq_true, if_false, if_true]
        by_cases hs : a.isSignPositive = b.isSignPositive
        · left; simp [hs]
        · right; simp [hs]
      rcases key with h | h <;> rw [h]
      · exact (zz F64.zero is_zero.1 U_zero).symm
      · exact (zz _ (fin_neg is_zero.1) (by rw [U_neg is_zero.1, U_zero, neg_zero])).symm
    refine ⟨huq.2.mono (le_refl _) (by linarith), ?_⟩
    have hm0 : m = 0 := by
      rw [← hm, hz]; unfold pq; simp
    have h00 := abs_le.mp hm.le
    rw [huq.1, zero_sub, abs_neg, UP_eq]
    subst hm0
    have e01 : |pq a.c0.units b.c1.units| = 0 := by rw [hz]; unfold pq; simp
    have e02 : |pq a.c0.units b.c2.units| = 0 := by rw [hz]; unfold pq; simp
    have e03 : |pq a.c0.units b.c3.units| = 0 := by rw [hz]; unfold pq; simp
    have hz' : |U a.c0| = 0 := by unfold U; rw [hz]; simp
    rw [hz'] at a1 a2 a3
    have h10' : |pq a.c1.units b.c0.units| ≤ M / 2 ^ 141 := pq_le_of a1 hB (by linarith)
    have h20' : |pq a.c2.units b.c0.units| ≤ 101 / 100 * M / 2 ^ 141 := pq_le_of a2 hB (by linarith)
    have h30' : |pq a.c3.units b.c0.units| ≤ 101 / 100 * M / 2 ^ 141 := pq_le_of a3 hB (by linarith)
    have b1' : |U b.c1| ≤ B / 2 ^ 48 := by linarith
    have b2' : |U b.c2| ≤ B / 2 ^ 48 := by linarith
    have b3' : |U b.c3| ≤ B / 2 ^ 48 := by linarith
    have xM : 0 ≤ M * one' := by have : 0 ≤ M := (by linarith); positivity
    have h11' : |pq a.c1.units b.c1.units| ≤ M / 2 ^ 180 := pq_le_of a1 b1' (by linarith)
    have h12' : |pq a.c1.units b.c2.units| ≤ M / 2 ^ 180 := pq_le_of a1 b2' (by linarith)
    have h21' : |pq a.c2.units b.c1.units| ≤ M / 2 ^ 180 := pq_le_of a2 b1' (by linarith)
    have g0 := abs_le.mp e01.le
    have g1 := abs_le.mp e02.le
    have g2 := abs_le.mp e03.le
    have g3 := abs_le.mp h10'
    have g4 := abs_le.mp h20'
    have g5 := abs_le.mp h30'
    have g6 := abs_le.mp h11'
    have g7 := abs_le.mp h12'
    have g8 := abs_le.mp h21'
    have g9 := abs_le.mp h13
    have g10 := abs_le.mp h22
    have g11 := abs_le.mp h31
    have g12 := abs_le.mp h23
    have g13 := abs_le.mp h32
    have g14 := abs_le.mp h33
    exact abs_le.mpr ⟨by linarith, by linarith⟩
  · have hp := preMul_none oa.f0 ob.f0 hz
    obtain ⟨p0, l0, q0, fp0, fl0, e0, u0, _⟩ := qb_prod oa.f0 ob.f0 hm.le (by linarith)
    obtain ⟨r1, r2, r3, r4, hr, fr1, fr2, fr3, fr4, er⟩ :=
      mulRs_gen oa ob sc (by linarith) h01 h10 h02 h11 h20 h03 h12 h21 h30 h13 h22 h31 h23 h32 h33 (l0 := l0)
        (fl0.mono (by linarith))
    clear h01 h10 h02 h11 h20 h03 h12 h21 h30 h13 h22 h31 h23 h32 h33
    have k0 := fp0.le
    have k1 := fr1.le
    have k2 := fr2.le
    have k3 := fr3.le
    have k4 := fr4.le
    have i1 := abs_nonneg (U r1)
    have i2 := abs_nonneg (U r2)
    have i3 := abs_nonneg (U r3)
    have i4 := abs_nonneg (U r4)
    have k0' : m * (1 - 1 / 2 ^ 50) - 2 ≤ |U p0| := by
      have t1 : m ≤ |U p0| + |U l0| + 1 / 2 := by
        rw [← hm]
        have e : pq a.c0.units b.c0.units = U p0 + U l0 - (U p0 + U l0 - pq a.c0.units b.c0.units) := by ring
        rw [e]
        refine (abs_sub _ _).trans ?_
        have := abs_add_le (U p0) (U l0)
        linarith
      have := fl0.le
      linarith
    have dom : (|U r1| + |U r2| + |U r3| + |U r4|) * (101 / 100) ≤ |U p0| ∨ |U r1| + |U r2| + |U r3| + |U r4| ≤ M / 2 ^ 96 := by
      by_cases h : M / 2 ^ 90 ≤ m
      · left; linarith
      · right; push Not at h; linarith
    obtain ⟨R1, R2, _⟩ := renorm5_any (Z := M / 2 ^ 96) fp0.fin fr1.fin fr2.fin fr3.fin fr4.fin (by linarith) (by linarith) dom
    have eq : a * b = toQ (renorm5 p0 r1 r2 r3 r4) := by
      rw [mul_mulRs hp]
      dsimp only
      rw [q0]
      dsimp only
      rw [hr]
      rfl
    rw [eq]
    refine ⟨R2.mono (le_refl _) (by linarith), ?_⟩
    have e := abs_le.mp R1.err
    have eu : UQ (toQ (renorm5 p0 r1 r2 r3 r4)) = U (renorm5 p0 r1 r2 r3 r4).1 + U (renorm5 p0 r1 r2 r3 r4).2.1 +
      U (renorm5 p0 r1 r2 r3 r4).2.2.1 + U (renorm5 p0 r1 r2 r3 r4).2.2.2 := rfl
    rw [eu]
    have h2 := abs_le.mp er
    have h3 := abs_le.mp e0
    generalize UP a b = P at *
    generalize pq a.c0.units b.c0.units = Q at *
    exact abs_le.mpr ⟨by linarith, by linarith⟩

end Verif
