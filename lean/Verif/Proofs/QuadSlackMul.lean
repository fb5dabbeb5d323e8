import Verif.Proofs.QuadSlackAdd
import Verif.Proofs.QuadMul3

/-!
# `renorm5` without order assumptions, and `mul_f64`
-/

namespace Verif

open F64 Prim Util Quad

set_option maxHeartbeats 4000000 in
/-- What `renorm5` loses, and the order of what it puts out. -/
theorem renorm5_any {a b c d e : F64} {Z : ℚ} (fa : a.isFinite = true) (fb : b.isFinite = true) (fc : c.isFinite = true)
    (fd : d.isFinite = true) (fe : e.isFinite = true)
    (hl : 20 * (|U a| + |U b| + |U c| + |U d| + |U e|) ≤ (lim : ℚ)) (hZ : 0 ≤ Z)
    (hd : (|U b| + |U c| + |U d| + |U e|) * (101 / 100) ≤ |U a| ∨ |U b| + |U c| + |U d| + |U e| ≤ Z) :
    Sum4 (renorm5 a b c d e) (U a + U b + U c + U d + U e)
      ((4 * |U c| + 4 * |U d| + 4 * |U e| + 102 / 100 * Z) / 2 ^ 53 + 8 * |U b| / 2 ^ 106 + 90 * |U a| / 2 ^ 212) ∧
    QS (toQ (renorm5 a b c d e)) (1 / 2 ^ 49) ((|U c| + |U d| + |U e|) * (8 / 2 ^ 53)) ∧
    ((|U b| + |U c| + |U d| + |U e|) * 2 ^ 10 ≤ |U a| →
      QS (toQ (renorm5 a b c d e)) (1 / 2 ^ 51) ((|U c| + |U d| + |U e|) * (8 / 2 ^ 53))) := by
  have nA := abs_nonneg (U a)
  have nB := abs_nonneg (U b)
  have nC := abs_nonneg (U c)
  have nD := abs_nonneg (U d)
  have nE := abs_nonneg (U e)
  obtain ⟨x3, s4, q0, fx3, fs4, bx3, _, e0, _, r4, _⟩ := qb_quick_rel fd fe (by linarith)
  have nx3 := abs_nonneg (U x3)
  have ns4 := abs_nonneg (U s4)
  obtain ⟨x2, s3, q1, fx2, fs3, bx2, _, e1, _, r3, _⟩ := qb_quick_rel fc fx3 (by linarith)
  have nx2 := abs_nonneg (U x2)
  have ns3 := abs_nonneg (U s3)
  obtain ⟨x1, s2, q2, fx1, fs2, bx1, _, e2, _, r2, _⟩ := qb_quick_rel fb fx2 (by linarith)
  have nx1 := abs_nonneg (U x1)
  have ns2 := abs_nonneg (U s2)
  obtain ⟨s0, s1, q3, fs0, fs1, bs0, _, e3, e3', r1, c1⟩ := qb_quick_rel fa fx1 (by linarith)
  have ns0 := abs_nonneg (U s0)
  have ns1 := abs_nonneg (U s1)
  have E3 : |U s0 + U s1 - (U a + U x1)| ≤ 102 / 100 * Z / 2 ^ 53 := by
    rcases hd with hd | hd
    · rw [e3' (by linarith), sub_self, abs_zero]; positivity
    · refine e3.trans ?_
      linarith
  have E0 := abs_le.mp e0
  have E1 := abs_le.mp e1
  have E2 := abs_le.mp e2
  have E3 := abs_le.mp E3
  have hdd : (|U b| + |U c| + |U d| + |U e|) * 2 ^ 10 ≤ |U a| → |U x1| * 1000 ≤ |U s0| := by
    intro h
    have h5 := e3' (by linarith)
    have : |U a| ≤ |U s0| + |U s1| + |U x1| := by
      have e : U a = U s0 + U s1 - U x1 := by linarith
      rw [e]
      refine (abs_sub _ _).trans ?_
      have := abs_add_le (U s0) (U s1)
      linarith
    linarith
  clear e0 e1 e2 e3 e3'
  unfold toQ renorm5
  rw [q0]; dsimp only
  rw [q1]; dsimp only
  rw [q2]; dsimp only
  rw [q3]; dsimp only
  clear q0 q1 q2 q3
  have zz := U_zero
  -- the last steps, for all cases
  split
  · rename_i h1
    have h1' : U s1 ≠ 0 := by
      intro h
      rw [(ne_zero_false fs1).mpr h] at h1
      exact absurd h1 (by simp)
    have c1 := c1 h1'
    obtain ⟨t1, t2, p1, ft1, ft2, bt1, _, z1, _, rt, _⟩ := qb_quick_rel fs1 fs2 (by linarith)
    have nt1 := abs_nonneg (U t1)
    have nt2 := abs_nonneg (U t2)
    have z1 := abs_le.mp z1
    rw [p1]; dsimp only
    split
    · obtain ⟨v2, v3, p2, fv2, fv3, bv2, _, z2, _, rv, _⟩ := qb_quick_rel ft2 fs3 (by linarith)
      have nv2 := abs_nonneg (U v2)
      have nv3 := abs_nonneg (U v3)
      have z2 := abs_le.mp z2
      rw [p2]; dsimp only
      split
      · obtain ⟨fw, z3⟩ := qb_add ⟨fv3, le_refl _⟩ ⟨fs4, le_refl _⟩ (by linarith)
        have z3 := abs_le.mp z3
        have bw := fw.le
        refine ⟨⟨fs0, ft1, fv2, fw.fin, abs_le.mpr ⟨by dsimp only; linarith, by dsimp only; linarith⟩⟩,
          ⟨fs0, ft1, fv2, fw.fin, by dsimp only; linarith, by dsimp only; linarith, by dsimp only; linarith⟩, fun h => ?_⟩
        have := hdd h
        exact ⟨fs0, ft1, fv2, fw.fin, by dsimp only; linarith, by dsimp only; linarith, by dsimp only; linarith⟩
      · rename_i hz
        rw [Bool.not_eq_true, ne_zero_false fv3] at hz
        obtain ⟨w2, w3, p3, fw2, fw3, bw2, _, z3, _, rw3, _⟩ := qb_quick_rel fv2 fs4 (by linarith)
        have nw2 := abs_nonneg (U w2)
        have z3 := abs_le.mp z3
        rw [p3]; dsimp only
        refine ⟨⟨fs0, ft1, fw2, fw3, abs_le.mpr ⟨by dsimp only; linarith, by dsimp only; linarith⟩⟩,
          ⟨fs0, ft1, fw2, fw3, by dsimp only; linarith, by dsimp only; linarith, by dsimp only; linarith⟩, fun h => ?_⟩
        have := hdd h
        exact ⟨fs0, ft1, fw2, fw3, by dsimp only; linarith, by dsimp only; linarith, by dsimp only; linarith⟩
    · rename_i hz
      rw [Bool.not_eq_true, ne_zero_false ft2] at hz
      obtain ⟨v1, v2, p2, fv1, fv2, bv1, _, z2, _, rv, _⟩ := qb_quick_rel ft1 fs3 (by linarith)
      have nv1 := abs_nonneg (U v1)
      have nv2 := abs_nonneg (U v2)
      have z2 := abs_le.mp z2
      rw [p2]; dsimp only
      split
      · obtain ⟨w2, w3, p3, fw2, fw3, bw2, _, z3, _, rw3, _⟩ := qb_quick_rel fv2 fs4 (by linarith)
        have nw2 := abs_nonneg (U w2)
        have z3 := abs_le.mp z3
        rw [p3]; dsimp only
        refine ⟨⟨fs0, fv1, fw2, fw3, abs_le.mpr ⟨by dsimp only; linarith, by dsimp only; linarith⟩⟩,
          ⟨fs0, fv1, fw2, fw3, by dsimp only; linarith, by dsimp only; linarith, by dsimp only; linarith⟩, fun h => ?_⟩
        have := hdd h
        exact ⟨fs0, fv1, fw2, fw3, by dsimp only; linarith, by dsimp only; linarith, by dsimp only; linarith⟩
      · rename_i hz2
        rw [Bool.not_eq_true, ne_zero_false fv2] at hz2
        obtain ⟨w1, w2, p3, fw1, fw2, bw1, _, z3, _, rw3, _⟩ := qb_quick_rel fv1 fs4 (by linarith)
        have nw1 := abs_nonneg (U w1)
        have nw2 := abs_nonneg (U w2)
        have z3 := abs_le.mp z3
        rw [p3]; dsimp only
        refine ⟨⟨fs0, fw1, fw2, is_zero.1, abs_le.mpr ⟨by dsimp only; linarith, by dsimp only; linarith⟩⟩,
          ⟨fs0, fw1, fw2, is_zero.1, by dsimp only; linarith, by dsimp only; linarith, by dsimp only; rw [zz, abs_zero]; linarith⟩, fun h => ?_⟩
        have := hdd h
        exact ⟨fs0, fw1, fw2, is_zero.1, by dsimp only; linarith, by dsimp only; linarith, by dsimp only; rw [zz, abs_zero]; linarith⟩
  · rename_i hz0
    rw [Bool.not_eq_true, ne_zero_false fs1] at hz0
    obtain ⟨t0, t1, p1, ft0, ft1, bt0, _, z1, _, rt, _⟩ := qb_quick_rel fs0 fs2 (by linarith)
    have nt0 := abs_nonneg (U t0)
    have nt1 := abs_nonneg (U t1)
    have z1 := abs_le.mp z1
    rw [p1]; dsimp only
    split
    · obtain ⟨v1, v2, p2, fv1, fv2, bv1, _, z2, _, rv, _⟩ := qb_quick_rel ft1 fs3 (by linarith)
      have nv1 := abs_nonneg (U v1)
      have nv2 := abs_nonneg (U v2)
      have z2 := abs_le.mp z2
      rw [p2]; dsimp only
      split
      · obtain ⟨w2, w3, p3, fw2, fw3, bw2, _, z3, _, rw3, _⟩ := qb_quick_rel fv2 fs4 (by linarith)
        have nw2 := abs_nonneg (U w2)
        have z3 := abs_le.mp z3
        rw [p3]; dsimp only
        refine ⟨⟨ft0, fv1, fw2, fw3, abs_le.mpr ⟨by dsimp only; linarith, by dsimp only; linarith⟩⟩,
          ⟨ft0, fv1, fw2, fw3, by dsimp only; linarith, by dsimp only; linarith, by dsimp only; linarith⟩, fun h => ?_⟩
        exact ⟨ft0, fv1, fw2, fw3, by dsimp only; linarith, by dsimp only; linarith, by dsimp only; linarith⟩
      · rename_i hz2
        rw [Bool.not_eq_true, ne_zero_false fv2] at hz2
        obtain ⟨w1, w2, p3, fw1, fw2, bw1, _, z3, _, rw3, _⟩ := qb_quick_rel fv1 fs4 (by linarith)
        have nw1 := abs_nonneg (U w1)
        have nw2 := abs_nonneg (U w2)
        have z3 := abs_le.mp z3
        rw [p3]; dsimp only
        refine ⟨⟨ft0, fw1, fw2, is_zero.1, abs_le.mpr ⟨by dsimp only; linarith, by dsimp only; linarith⟩⟩,
          ⟨ft0, fw1, fw2, is_zero.1, by dsimp only; linarith, by dsimp only; linarith, by dsimp only; rw [zz, abs_zero]; linarith⟩, fun h => ?_⟩
        exact ⟨ft0, fw1, fw2, is_zero.1, by dsimp only; linarith, by dsimp only; linarith, by dsimp only; rw [zz, abs_zero]; linarith⟩
    · rename_i hz1
      rw [Bool.not_eq_true, ne_zero_false ft1] at hz1
      obtain ⟨v0, v1, p2, fv0, fv1, bv0, _, z2, _, rv, _⟩ := qb_quick_rel ft0 fs3 (by linarith)
      have nv0 := abs_nonneg (U v0)
      have nv1 := abs_nonneg (U v1)
      have z2 := abs_le.mp z2
      rw [p2]; dsimp only
      split
      · obtain ⟨w1, w2, p3, fw1, fw2, bw1, _, z3, _, rw3, _⟩ := qb_quick_rel fv1 fs4 (by linarith)
        have nw1 := abs_nonneg (U w1)
        have nw2 := abs_nonneg (U w2)
        have z3 := abs_le.mp z3
        rw [p3]; dsimp only
        refine ⟨⟨fv0, fw1, fw2, is_zero.1, abs_le.mpr ⟨by dsimp only; linarith, by dsimp only; linarith⟩⟩,
          ⟨fv0, fw1, fw2, is_zero.1, by dsimp only; linarith, by dsimp only; linarith, by dsimp only; rw [zz, abs_zero]; linarith⟩, fun h => ?_⟩
        exact ⟨fv0, fw1, fw2, is_zero.1, by dsimp only; linarith, by dsimp only; linarith, by dsimp only; rw [zz, abs_zero]; linarith⟩
      · rename_i hz2
        rw [Bool.not_eq_true, ne_zero_false fv1] at hz2
        obtain ⟨w0, w1, p3, fw0, fw1, bw0, _, z3, _, rw3, _⟩ := qb_quick_rel fv0 fs4 (by linarith)
        have nw0 := abs_nonneg (U w0)
        have nw1 := abs_nonneg (U w1)
        have z3 := abs_le.mp z3
        rw [p3]; dsimp only
        refine ⟨⟨fw0, fw1, is_zero.1, is_zero.1, abs_le.mpr ⟨by dsimp only; linarith, by dsimp only; linarith⟩⟩,
          ⟨fw0, fw1, is_zero.1, is_zero.1, by dsimp only; linarith, by dsimp only; rw [zz, abs_zero]; linarith, by dsimp only; rw [zz, abs_zero]; linarith⟩, fun h => ?_⟩
        exact ⟨fw0, fw1, is_zero.1, is_zero.1, by dsimp only; linarith, by dsimp only; rw [zz, abs_zero]; linarith, by dsimp only; rw [zz, abs_zero]; linarith⟩

/-- `three_two_sum`. -/
theorem qb_threeTwo {a b c : F64} {A B C : ℚ} (fa : Fb a A) (fb : Fb b B) (fc : Fb c C)
    (h : 2 * (A + B + C) ≤ (lim : ℚ)) :
    ∃ s e, threeTwoSum a b c = (s, e) ∧ Fb s ((A + B + C) * (1 + 3 / 2 ^ 53)) ∧
      Fb e ((A + B + C) * (2 / 2 ^ 53 + 9 / 2 ^ 106)) ∧
      |U s + U e - (U a + U b + U c)| ≤ (A + B + C) * (3 / 2 ^ 106) := by
  have hA := fa.nonneg
  have hB := fb.nonneg
  have hC := fc.nonneg
  obtain ⟨u, v, h1, fu, fv, e1, _, _⟩ := qb_two fa fb (by linarith)
  obtain ⟨s, w, h2, fs, fw, e2, _, _⟩ := qb_two fc fu (by linarith)
  obtain ⟨fe, e3⟩ := qb_add fv fw (by linarith)
  have e3 := abs_le.mp e3
  refine ⟨s, _, ?_, fs.mono (by linarith), fe.mono (by linarith), abs_le.mpr ⟨by linarith, by linarith⟩⟩
  unfold threeTwoSum
  rw [h1]; dsimp only
  rw [h2]

theorem one'_ge4 : (4 : ℚ) ≤ one' := by
  rw [one'_pow]
  calc (4:ℚ) = 2 ^ 2 := by norm_num
    _ ≤ 2 ^ 1074 := pow_le_pow_right₀ (by norm_num) (by norm_num)

theorem lim_ge' : (10 : ℚ) ^ 12 ≤ (lim : ℚ) := by
  have h1 := quantumQ_ge
  rw [limQ]
  norm_num at h1 ⊢
  linarith

set_option maxHeartbeats 4000000 in
/-- `mul_f64`: what it computes, and the order of the result. `M` is the product of the leading components. -/
theorem mulf_slack {b : Quad} {q : F64} {M : ℚ} (ob : QOrd b) (fq : q.isFinite = true)
    (hM : |pq b.c0.units q.units| = M) (hM1 : M ≤ one' * 2 ^ 200) (hl : 1000 * M ≤ (lim : ℚ)) :
    (mulF64 b q).Fin ∧
    |UQ (mulF64 b q) - (pq b.c0.units q.units + pq b.c1.units q.units + pq b.c2.units q.units + pq b.c3.units q.units)| ≤
      64 * M / 2 ^ 159 + 5 ∧
    QS (mulF64 b q) (1 / 2 ^ 49) (74 * M / 2 ^ 159 + 1) ∧
    (2 ^ 13 ≤ M → QS (mulF64 b q) (1 / 2 ^ 51) (74 * M / 2 ^ 159 + 1)) := by
  have nM : 0 ≤ M := hM ▸ abs_nonneg _
  have hc := lim_ge'
  have d1 : |pq b.c1.units q.units| ≤ M / 2 ^ 52 := hM ▸ pq_le_left ob.d1
  have d2 : |pq b.c2.units q.units| ≤ M / 2 ^ 52 / 2 ^ 52 := (pq_le_left ob.d2).trans (by linarith)
  have d3 : |pq b.c3.units q.units| ≤ M / 2 ^ 52 / 2 ^ 52 / 2 ^ 52 := (pq_le_left ob.d3).trans (by linarith)
  obtain ⟨h0, l0, e0, fh0, fl0, g0, _, _⟩ := qb_prod ob.f0 fq hM.le (by linarith)
  obtain ⟨h1, l1, e1, fh1, fl1, g1, _, _⟩ := qb_prod ob.f1 fq d1 (by linarith)
  obtain ⟨h2, l2, e2, fh2, fl2, g2, _, _⟩ := qb_prod ob.f2 fq d2 (by linarith)
  obtain ⟨fh3, g3⟩ := qb_mul ob.f3 fq d3 (by linarith)
  obtain ⟨h3, eh3⟩ : ∃ h3, F64.mul b.c3 q = h3 := ⟨_, rfl⟩
  rw [eh3] at fh3 g3
  obtain ⟨s1, t0, e4, fs1, ft0, g4, _, _⟩ := qb_two fh1 fl0 (by linarith)
  obtain ⟨s2, t1, t2, e5, fs2, ft1, ft2, g5, _⟩ := qb_three ft0 fh2 fl1 (by linarith)
  obtain ⟨s3, t3, e6, fs3, ft3, g6⟩ := qb_threeTwo ft1 fh3 fl2 (by linarith)
  have B2 := ft2.le
  have B3 := ft3.le
  have n2 := abs_nonneg (U t2)
  have o4 := one'_ge4
  have op := one'_posQ
  have hs4 : |pq t2.units t3.units| ≤ |U t2| / 2 := by
    rw [pq_abs, div_le_iff₀ op]
    have : |U t3| ≤ one' / 2 := by linarith
    have := mul_le_mul_of_nonneg_left this n2
    show |U t2| * |U t3| ≤ _
    linarith
  obtain ⟨fs4, g7⟩ := qb_mul ft2.fin ft3.fin hs4 (by linarith)
  obtain ⟨s4, es4⟩ : ∃ s4, F64.mul t2 t3 = s4 := ⟨_, rfl⟩
  rw [es4] at fs4 g7
  have p4 := abs_le.mp hs4
  have g0 := abs_le.mp g0
  have g1 := abs_le.mp g1
  have g2 := abs_le.mp g2
  have g3 := abs_le.mp g3
  have g6 := abs_le.mp g6
  have g7 := abs_le.mp g7
  have c2 := abs_le.mp B2
  have c3 := abs_le.mp B3
  have k1 : |U s1| ≤ 302 / 100 * M / 2 ^ 53 + 16 / 10 := fs1.le.trans (by linarith)
  have k2 : |U s2| ≤ 92 / 10 * M / 2 ^ 106 + 18 / 10 := fs2.le.trans (by linarith)
  have k3 : |U s3| ≤ 32 * M / 2 ^ 159 + 18 / 10 := fs3.le.trans (by linarith)
  have k4 : |U s4| ≤ 11 * M / 2 ^ 212 + 6 / 10 := fs4.le.trans (by linarith)
  have k0 := fh0.le
  have k0' : M * (1 - 1 / 2 ^ 52) - 2 ≤ |U h0| := by
    have t1 : M ≤ |U h0| + |U l0| + 1 / 2 := by
      rw [← hM]
      have e : pq b.c0.units q.units = U h0 + U l0 - (U h0 + U l0 - pq b.c0.units q.units) := by ring
      rw [e]
      refine (abs_sub _ _).trans ?_
      have := abs_add_le (U h0) (U l0)
      have := abs_le.mpr g0
      linarith
    have := fl0.le
    linarith
  have i1 := abs_nonneg (U s1)
  have i2 := abs_nonneg (U s2)
  have i3 := abs_nonneg (U s3)
  have i4 := abs_nonneg (U s4)
  have i0 := abs_nonneg (U h0)
  have dom : (|U s1| + |U s2| + |U s3| + |U s4|) * (101 / 100) ≤ |U h0| ∨ |U s1| + |U s2| + |U s3| + |U s4| ≤ 10 := by
    by_cases h : 100 ≤ M
    · left; linarith
    · right; push Not at h; linarith
  obtain ⟨R1, R2, R3⟩ := renorm5_any (Z := 10) fh0.fin fs1.fin fs2.fin fs3.fin fs4.fin (by linarith) (by norm_num) dom
  have eq : mulF64 b q = toQ (renorm5 h0 s1 s2 s3 s4) := by
    unfold mulF64
    rw [e0]; dsimp only
    rw [e1]; dsimp only
    rw [e2]; dsimp only
    rw [eh3, e4]; dsimp only
    rw [e5]; dsimp only
    rw [e6]; dsimp only
    rw [es4]
    rfl
  rw [eq]
  have hη : (|U s2| + |U s3| + |U s4|) * (8 / 2 ^ 53) ≤ 74 * M / 2 ^ 159 + 1 := by linarith
  refine ⟨⟨R1.f0, R1.f1, R1.f2, R1.f3⟩, ?_, R2.mono (le_refl _) hη, fun h => (R3 ?_).mono (le_refl _) hη⟩
  · have e := abs_le.mp R1.err
    have eu : UQ (toQ (renorm5 h0 s1 s2 s3 s4)) = U (renorm5 h0 s1 s2 s3 s4).1 + U (renorm5 h0 s1 s2 s3 s4).2.1 +
      U (renorm5 h0 s1 s2 s3 s4).2.2.1 + U (renorm5 h0 s1 s2 s3 s4).2.2.2 := rfl
    rw [eu]
    exact abs_le.mpr ⟨by linarith, by linarith⟩
  · linarith

end Verif
