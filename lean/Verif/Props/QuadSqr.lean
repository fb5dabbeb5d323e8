import Verif.Proofs.QuadSlSqr
import Verif.Props.QuadMul

/-!
# C72: the accuracy of `sqr` of a Quad
-/

namespace Verif

open F64 Prim Util

/-- The four summands that enter `renorm5` after the leading square. -/
def sqrRs (a : Quad) (l0 : F64) : F64 × F64 × F64 × F64 :=
  let (h1, l1) := twoProd (F64.mul Double.two a.c0) a.c1
  let (h2, l2) := twoProd (F64.mul Double.two a.c0) a.c2
  let (h3, l3) := twoProd a.c1 a.c1
  let h4 := F64.mul (F64.mul Double.two a.c0) a.c3
  let h5 := F64.mul (F64.mul Double.two a.c1) a.c2
  let (r1, a1) := twoSum h1 l0
  let (b0, b1) := twoSum a1 l1
  let (c0, c1) := twoSum h2 h3
  let (d0, d1) := twoSum b0 c0
  let (e0, e1) := twoSum b1 c1
  let (f0, f1) := twoSum d1 e0
  let (i0, i1) := quickTwoSum f0 (F64.add e1 f1)
  let (r2, j1) := quickTwoSum d0 i0
  let (k0, k1) := quickTwoSum i1 j1
  let (m0, m1) := twoSum h4 h5
  let (n0, n1) := twoSum l2 l3
  let (o0, o1) := twoSum m0 n0
  let (r3, q1) := twoSum k0 o0
  (r1, r2, r3, F64.add (F64.add (F64.add (F64.add m1 n1) o1) k1) q1)

theorem sqr_sqrRs {a : Quad} (h : Quad.preSqr a = none) :
    a.sqr = (let p := twoProd a.c0 a.c0
      let r := sqrRs a p.2
      let z := renorm5 p.1 r.1 r.2.1 r.2.2.1 r.2.2.2
      ⟨z.1, z.2.1, z.2.2.1, z.2.2.2⟩) := by
  unfold Quad.sqr
  rw [h]
  rfl

set_option maxHeartbeats 4000000 in
theorem sqrRs_ok {a : Quad} (oa : QOrd a) {l0 : F64} {m1 m2 m3 m4 m5 : ℚ}
    (hs : Scale m1 m2 m3 m4 m5) (hl : 1000 * m1 ≤ (lim : ℚ)) (hla : 2 * |U a.c0| ≤ (lim : ℚ)) (hla1 : 2 * |U a.c1| ≤ (lim : ℚ))
    (h01 : |pq a.c0.units a.c1.units| ≤ 2 * m1)
    (fl0 : Fb l0 (101 / 100 * m1)) :
    ∃ r1 r2 r3 r4, sqrRs a l0 = (r1, r2, r3, r4) ∧ Fb r1 (6 * m1) ∧ Fb r2 (30 * m2) ∧ Fb r3 (139 * m3) ∧
      Fb r4 (1000 * m4) ∧
      |U r1 + U r2 + U r3 + U r4 - (U l0 + (UP a a - pq a.c0.units a.c0.units))| ≤ 160 * m4 ∧
      r1.units = rs (pr (F64.mul Double.two a.c0).units a.c1.units) l0.units := by
  obtain ⟨s1, s2, s3, s4, d1, d2, d3, d4, one⟩ := id hs
  have h02 := div52 (by norm_num) (oa.d2.right a.c0.units) h01 s1
  have h11 := div52 (by norm_num) (oa.d1.left a.c1.units) h01 s1
  have h03 := div52 (by norm_num) (oa.d3.right a.c0.units) h02 s2
  have h12 := div52 (by norm_num) (oa.d2.right a.c1.units) h11 s2
  have h13 := div52 (by norm_num) (oa.d3.right a.c1.units) h12 s3
  have h22 := div52 (by norm_num) (oa.d2.left a.c2.units) h12 s3
  have h23 := div52 (by norm_num) (oa.d3.right a.c2.units) h22 s4
  have h33 : |pq a.c3.units a.c3.units| ≤ 64 * m5 := by
    refine (oa.d3.left a.c3.units).trans ?_
    refine (div_le_self (abs_nonneg _) (by norm_num)).trans ?_
    refine h23.trans (by linarith)
  have t0 := pq_twice oa.f0 hla
  have t1 := pq_twice oa.f1 hla1
  obtain ⟨ft0, _⟩ := U_twice oa.f0 hla
  obtain ⟨ft1, _⟩ := U_twice oa.f1 hla1
  have w : ∀ {x K : ℚ}, |x| ≤ K → |2 * x| ≤ 2 * K := fun h => by rw [abs_mul, abs_two]; linarith
  have h01' := w h01
  have h02' := w h02
  have h03' := w h03
  have h12' := w h12
  rw [← t0] at h01' h02' h03'
  rw [← t1] at h12'
  obtain ⟨h1, l1, q1, fh1, fl1, e1, u1, _⟩ := qb_prod ft0 oa.f1 h01' (by linarith)
  obtain ⟨h2, l2, q2, fh2, fl2, e2, _, _⟩ := qb_prod ft0 oa.f2 h02' (by linarith)
  obtain ⟨h3, l3, q3, fh3, fl3, e3, _, _⟩ := qb_prod oa.f1 oa.f1 h11 (by linarith)
  obtain ⟨fh4, e4⟩ := qb_mul ft0 oa.f3 h03' (by linarith)
  obtain ⟨fh5, e5⟩ := qb_mul ft1 oa.f2 h12' (by linarith)
  rw [t0] at e1 e2 e4
  rw [t1] at e5
  generalize hh4 : F64.mul (F64.mul Double.two a.c0) a.c3 = h4 at *
  generalize hh5 : F64.mul (F64.mul Double.two a.c1) a.c2 = h5 at *
  have fh1 : Fb h1 (401 / 100 * m1) := fh1.mono (by linarith)
  have fl1 : Fb l1 (401 / 100 * m2) := fl1.mono (by linarith)
  have fh2 : Fb h2 (801 / 100 * m2) := fh2.mono (by linarith)
  have fh3 : Fb h3 (401 / 100 * m2) := fh3.mono (by linarith)
  have fl2 : Fb l2 (801 / 100 * m3) := fl2.mono (by linarith)
  have fl3 : Fb l3 (401 / 100 * m3) := fl3.mono (by linarith)
  have fh4 : Fb h4 (1601 / 100 * m3) := fh4.mono (by linarith)
  have fh5 : Fb h5 (1601 / 100 * m3) := fh5.mono (by linarith)
  obtain ⟨r1, A1, z1, fr1, fA1, g1, ur1, _⟩ := qb_two fh1 fl0 (by linarith)
  have fA1 : Fb A1 (503 / 100 * m2) := fA1.mono (by linarith)
  obtain ⟨b0, b1, z2, fb0, fb1, g2, _, _⟩ := qb_two fA1 fl1 (by linarith)
  have fb0 : Fb b0 (905 / 100 * m2) := fb0.mono (by linarith)
  have fb1 : Fb b1 (905 / 100 * m3) := fb1.mono (by linarith)
  obtain ⟨c0, c1, z3, fc0, fc1, g3, _, _⟩ := qb_two fh2 fh3 (by linarith)
  have fc0 : Fb c0 (1203 / 100 * m2) := fc0.mono (by linarith)
  have fc1 : Fb c1 (1203 / 100 * m3) := fc1.mono (by linarith)
  obtain ⟨d0, D1, z4, fd0, fd1, g4, _, _⟩ := qb_two fb0 fc0 (by linarith)
  have fd0 : Fb d0 (2109 / 100 * m2) := fd0.mono (by linarith)
  have fd1 : Fb D1 (2109 / 100 * m3) := fd1.mono (by linarith)
  obtain ⟨E0, E1, z5, fE0, fE1, g5, _, _⟩ := qb_two fb1 fc1 (by linarith)
  have fE0 : Fb E0 (2109 / 100 * m3) := fE0.mono (by linarith)
  have fE1 : Fb E1 (2109 / 100 * m4) := fE1.mono (by linarith)
  obtain ⟨f0, f1, z6, ff0, ff1, g6, _, _⟩ := qb_two fd1 fE0 (by linarith)
  have ff0 : Fb f0 (4219 / 100 * m3) := ff0.mono (by linarith)
  have ff1 : Fb f1 (4219 / 100 * m4) := ff1.mono (by linarith)
  obtain ⟨fx, gx⟩ := qb_add fE1 ff1 (by linarith)
  generalize hxx : F64.add E1 f1 = x at *
  have fx : Fb x (6329 / 100 * m4) := fx.mono (by linarith)
  obtain ⟨i0, i1, z7, fi0, fi1, g7⟩ := qb_quick_any ff0 fx (by linarith)
  have fi0 : Fb i0 (4221 / 100 * m3) := fi0.mono (by linarith)
  have fi1 : Fb i1 (4221 / 100 * m4) := fi1.mono (by linarith)
  obtain ⟨r2, j1, z8, fr2, fj1, g8⟩ := qb_quick_any fd0 fi0 (by linarith)
  have fr2 : Fb r2 (22 * m2) := fr2.mono (by linarith)
  have fj1 : Fb j1 (22 * m3) := fj1.mono (by linarith)
  obtain ⟨k0, k1, z9, fk0, fk1, g9⟩ := qb_quick_any fi1 fj1 (by linarith)
  have Fk0 : Fb k0 (23 * m3) := fk0.mono (by linarith)
  have Fk1 : Fb k1 (46 * m4) := fk1.mono (by linarith)
  obtain ⟨m0, M1, z10, fm0, fm1, g10, _, _⟩ := qb_two fh4 fh5 (by linarith)
  obtain ⟨n0, n1, z11, fn0, fn1, g11, _, _⟩ := qb_two fl2 fl3 (by linarith)
  have fm0 : Fb m0 (33 * m3) := fm0.mono (by linarith)
  have fm1 : Fb M1 (33 * m4) := fm1.mono (by linarith)
  have fn0 : Fb n0 (13 * m3) := fn0.mono (by linarith)
  have fn1 : Fb n1 (13 * m4) := fn1.mono (by linarith)
  obtain ⟨o0, o1, z12, fo0, fo1, g12, _, _⟩ := qb_two fm0 fn0 (by linarith)
  have fo0 : Fb o0 (47 * m3) := fo0.mono (by linarith)
  have fo1 : Fb o1 (47 * m4) := fo1.mono (by linarith)
  obtain ⟨r3, Q1, z13, fr3, fQ1, g13, _, _⟩ := qb_two Fk0 fo0 (by linarith)
  have fr3 : Fb r3 (71 * m3) := fr3.mono (by linarith)
  have fQ1 : Fb Q1 (71 * m4) := fQ1.mono (by linarith)
  obtain ⟨fy1, y1⟩ := qb_add fm1 fn1 (by linarith)
  obtain ⟨fy2, y2⟩ := qb_add fy1 fo1 (by linarith)
  obtain ⟨fy3, y3⟩ := qb_add fy2 Fk1 (by linarith)
  obtain ⟨fy4, y4⟩ := qb_add fy3 fQ1 (by linarith)
  generalize hr4 : F64.add (F64.add (F64.add (F64.add M1 n1) o1) k1) Q1 = r4 at *
  generalize hz3 : F64.add (F64.add (F64.add M1 n1) o1) k1 = w3 at *
  generalize hz2 : F64.add (F64.add M1 n1) o1 = w2 at *
  generalize hz1 : F64.add M1 n1 = w1 at *
  have fr4 : Fb r4 (300 * m4) := fy4.mono (by linarith)
  refine ⟨r1, r2, r3, r4, ?_, fr1.mono (by linarith), fr2.mono (by linarith), fr3.mono (by linarith), fr4.mono (by linarith), ?_,
    by rw [ur1, u1]⟩
  · unfold sqrRs
    rw [q1]; dsimp only
    rw [q2]; dsimp only
    rw [q3]; dsimp only
    rw [z1]; dsimp only
    rw [z2]; dsimp only
    rw [z3]; dsimp only
    rw [z4]; dsimp only
    rw [z5]; dsimp only
    rw [z6]; dsimp only
    rw [hxx, z7]; dsimp only
    rw [z8]; dsimp only
    rw [z9]; dsimp only
    rw [hh4, hh5, z10]; dsimp only
    rw [z11]; dsimp only
    rw [z12]; dsimp only
    rw [z13]; dsimp only
    rw [hz1, hz2, hz3, hr4]
  · rw [UP_self]
    clear z1 z2 z3 z4 z5 z6 z7 z8 z9 z10 z11 z12 z13 q1 q2 q3 hh4 hh5 hr4 hz1 hz2 hz3 hxx u1 ur1 t0 t1 ft0 ft1 w
      h01 h02 h11 h03 h12 h01' h02' h03' h12' fh1 fl1 fh2 fl2 fh3 fl3 fh4 fh5 fr1 fA1 fb0 fb1 fc0 fc1 fd0 fd1 fE0 fE1 ff0 ff1
      fx fi0 fi1 fr2 fj1 fk0 fk1 Fk0 Fk1 fm0 fm1 fn0 fn1 fo0 fo1 fr3 fQ1 fy1 fy2 fy3 fy4 fr4 oa fl0 hla hla1
    have e1 := abs_le.mp e1
    have e2 := abs_le.mp e2
    have e3 := abs_le.mp e3
    have e4 := abs_le.mp e4
    have e5 := abs_le.mp e5
    have gx := abs_le.mp gx
    have g7 := abs_le.mp g7
    have g8 := abs_le.mp g8
    have g9 := abs_le.mp g9
    have y1 := abs_le.mp y1
    have y2 := abs_le.mp y2
    have y3 := abs_le.mp y3
    have y4 := abs_le.mp y4
    have h13 := abs_le.mp h13
    have h22 := abs_le.mp h22
    have h23 := abs_le.mp h23
    have h33 := abs_le.mp h33
    exact abs_le.mpr ⟨by linarith, by linarith⟩

set_option maxHeartbeats 2000000 in
/-- The second step of `renorm5` loses nothing. -/
theorem sqr_grid {a : Quad} (oa : QOrd a) {l0 r1 r2 r3 r4 : F64} {M : ℚ}
    (hM : |pq a.c0.units a.c0.units| = M) (hbig : 2 ^ 250 * 2 ^ 50 ≤ M) (hl : 1000 * M ≤ (lim : ℚ))
    (hla : 2 * |U a.c0| ≤ (lim : ℚ)) (hla1 : 2 * |U a.c1| ≤ (lim : ℚ))
    (hr : sqrRs a l0 = (r1, r2, r3, r4)) (fl : l0.isFinite = true) (hl0 : l0.units = pe a.c0.units a.c0.units)
    (fr1 : Fb r1 (6 * (M / 2 ^ 53))) (fr2 : Fb r2 (30 * (M / 2 ^ 106))) (fr3 : Fb r3 (139 * (M / 2 ^ 159)))
    (fr4 : Fb r4 (1000 * (M / 2 ^ 212)))
    (ur1 : r1.units = rs (pr (F64.mul Double.two a.c0).units a.c1.units) l0.units) :
    Grid r1.units (rs r2.units (rs r3.units r4.units)) := by
  have ra := (Is.of_finite oa.f0).rep
  have hx3 := rs_bound fr3.le fr4.le
  have hx2 := rs_bound fr2.le hx3
  have rx2 : Rep (rs r2.units (rs r3.units r4.units)) := rep_rnd _
  generalize hX : rs r2.units (rs r3.units r4.units) = X at *
  have hX2 : |(X : ℚ)| ≤ 31 * (M / 2 ^ 106) := by linarith
  by_cases hk : expo (X : ℚ) = 0
  · exact ⟨0, by simp, by simp, by have := expo_int_lt X; rw [hk] at this; exact this⟩
  have hXk := expo_le (X : ℚ) hk
  have hXl := lt_expo (X : ℚ)
  by_cases hab : |X| ≤ |r1.units|
  · exact .of_abs_le fr1.rep rx2 hab
  push Not at hab
  rw [grid_iff]
  refine ⟨rx2, ?_⟩
  generalize hkk : expo (X : ℚ) = k at *
  have hdl : (2:ℤ) ^ k ∣ l0.units := by
    rw [hl0]
    apply prod_dvd ra ra
    apply expo_sum_of_big
    rw [hM]
    have e1 : (2:ℚ) ^ (52 + k) = 2 ^ 52 * 2 ^ k := by rw [pow_add]
    have e2 : (2:ℚ) ^ (106 + k) = 2 ^ 106 * 2 ^ k := by rw [pow_add]
    rw [e1] at hXk
    rw [e2]
    have hT : (0:ℚ) < 2 ^ k := by positivity
    generalize (2:ℚ) ^ k = T at *
    linarith
  rw [ur1]
  by_cases hdu : (2:ℤ) ^ k ∣ pr (F64.mul Double.two a.c0).units a.c1.units
  · exact dvd_rs hdu hdl
  exfalso
  have hu : |pr (F64.mul Double.two a.c0).units a.c1.units| < 2 ^ (52 + k) := by
    by_contra hc
    push Not at hc
    exact hdu (Rep.dvd_of_le (rep_rnd _) hc)
  have e1 : (2:ℚ) ^ (52 + k) = 2 ^ 52 * 2 ^ k := by rw [pow_add]
  have e2 : (2:ℚ) ^ (53 + k) = 2 ^ 53 * 2 ^ k := by rw [pow_add]
  have huQ : |(pr (F64.mul Double.two a.c0).units a.c1.units : ℚ)| ≤ 2 ^ 52 * 2 ^ k := by
    rw [← e1]; exact_mod_cast hu.le
  have hT1 : (1:ℚ) ≤ 2 ^ k := one_le_pow₀ (by norm_num)
  have hr1Q : |(rs (pr (F64.mul Double.two a.c0).units a.c1.units) l0.units : ℚ)| ≤ 2 ^ 53 * 2 ^ k := by
    rw [← ur1, ← e2]
    have : |(r1.units : ℚ)| ≤ |(X : ℚ)| := by exact_mod_cast hab.le
    exact this.trans hXl.le
  have hsum2 := sum_le_rs hr1Q
  rw [e1] at hXk
  have hT : (0:ℚ) < 2 ^ k := by positivity
  have hl0Q : |U l0| ≤ 2 ^ 54 * 2 ^ k := by
    have f := abs_le.mp hsum2
    have g := abs_le.mp huQ
    unfold U
    exact abs_le.mpr ⟨by linarith, by linarith⟩
  have q01 := pr_lower (F64.mul Double.two a.c0).units a.c1.units
  rw [pq_twice oa.f0 hla, abs_mul, abs_two] at q01
  clear hab hu hdu hdl hkk hk e2 e1 hsum2 hr1Q hXl ur1 hl0
  have hbig' : (2:ℚ) ^ 60 ≤ M / 2 ^ 106 := by
    refine le_trans ?_ (div_le_div_of_nonneg_right hbig (by positivity))
    norm_num
  have hlim : (1000:ℚ) * (2 ^ 55 * 2 ^ k + 10 ^ 16) ≤ (lim : ℚ) := by
    refine le_trans ?_ hl
    clear hbig hl hla hla1
    generalize (2:ℚ) ^ k = T at *
    linarith
  clear hbig hl
  generalize (2:ℚ) ^ k = T at *
  have sc : Scale (2 ^ 55 * T + 10 ^ 16) (2 ^ 2 * T + 10 ^ 12) (T / 2 ^ 51 + 10 ^ 8) (T / 2 ^ 104 + 10 ^ 4) (T / 2 ^ 157 + 1) :=
    ⟨by linarith, by linarith, by linarith, by linarith, by linarith, by linarith, by linarith, by linarith, by linarith⟩
  obtain ⟨r1', r2', r3', r4', hr', _, fr2', fr3', fr4', _, _⟩ := sqrRs_ok oa sc hlim hla hla1
    (by linarith) (l0 := l0) ⟨fl, hl0Q.trans (by linarith)⟩
  rw [hr, Prod.mk.injEq, Prod.mk.injEq, Prod.mk.injEq] at hr'
  obtain ⟨_, h2, h3, h4⟩ := hr'
  rw [← h2] at fr2'
  rw [← h3] at fr3'
  rw [← h4] at fr4'
  have y3 := rs_bound fr3'.le fr4'.le
  have y2 := rs_bound fr2'.le y3
  rw [hX] at y2
  linarith

set_option maxHeartbeats 2000000 in
/-- The error of `sqr` in units. -/
theorem sqr_units {a : Quad} (oa : QOrd a) {M : ℚ} (hM : |pq a.c0.units a.c0.units| = M)
    (hbig : 2 ^ 250 * 2 ^ 50 ≤ M) (hl : 1000 * M ≤ (lim : ℚ)) (hla : 2 * |U a.c0| ≤ (lim : ℚ)) (hla1 : 2 * |U a.c1| ≤ (lim : ℚ))
    (hp : Quad.preSqr a = none) :
    a.sqr.Fin ∧ |UQ a.sqr - UP a a| ≤ 361 * (M / 2 ^ 212) := by
  have hM0 : 0 ≤ M := by linarith
  obtain ⟨p0, l0, q0, fp0, fl0, e0, u0, ul0⟩ := qb_prod oa.f0 oa.f0 hM.le (by linarith)
  have h01 : |pq a.c0.units a.c1.units| ≤ 2 * (M / 2 ^ 53) := by
    refine (oa.d1.right a.c0.units).trans ?_
    rw [hM]; linarith
  obtain ⟨r1, r2, r3, r4, hr, fr1, fr2, fr3, fr4, er, ur1⟩ :=
    sqrRs_ok oa (scale_of hbig) (by linarith) hla hla1 h01 (l0 := l0) (fl0.mono (by linarith))
  have hg := sqr_grid oa hM hbig hl hla hla1 hr fl0.fin ul0 fr1 fr2 fr3 fr4 ur1
  have hlow : M ≤ 2 * |U p0| := by
    refine one_third (y := pq a.c0.units a.c0.units) ?_ hbig hM
    rw [abs_sub_comm]
    unfold U
    rw [u0]
    have := err_le (pq a.c0.units a.c0.units)
    rw [hM] at this
    exact this
  have hs := renorm5_sum hM0 (fp0.mono (by linarith)) hlow (fr1.mono (by linarith)) (fr2.mono (by linarith))
    (fr3.mono (by linarith)) (fr4.mono (by linarith)) hg (by linarith)
  rw [sqr_sqrRs hp]
  dsimp only
  rw [q0]
  dsimp only
  rw [hr]
  dsimp only
  refine ⟨⟨hs.f0, hs.f1, hs.f2, hs.f3⟩, ?_⟩
  have h1 := abs_le.mp hs.err
  have h2 := abs_le.mp er
  have h3 := abs_le.mp e0
  unfold UQ
  dsimp only
  generalize UP a a = P at *
  generalize pq a.c0.units a.c0.units = Q at *
  exact abs_le.mpr ⟨by linarith, by linarith⟩

set_option maxHeartbeats 2000000 in
/-- **C72.** For all ordered operands (every component at most `2^-52` times the one before it, so in particular for all
normalized ones) with a leading component between `2^-385` and `2^505` in magnitude: all components of the square are
finite, and it differs from the exact square of the exact value by at most `2^-203` of it. -/
theorem C72_accurate (a : Quad) (ha : a.Ordered) (hlo : 1 ≤ |a.c0.toRat| * 2 ^ 385) (hhi : |a.c0.toRat| ≤ 2 ^ 505) :
    a.sqr.Fin ∧ |a.sqr.val - a.val ^ 2| ≤ a.val ^ 2 / 2 ^ 203 := by
  have oa := qord_of ha
  have ia := Is.of_finite oa.f0
  have hpq : a.c0.toRat * a.c0.toRat = pq a.c0.units a.c0.units / one' := by
    rw [ia.toRat]; unfold pq; rw [div_mul_div_comm, div_div]
  have habs : |a.c0.toRat| * |a.c0.toRat| = |pq a.c0.units a.c0.units| / one' := by
    rw [← abs_mul, hpq, abs_div, abs_of_pos one'_posQ]
  have h0a : |a.c0.toRat| = |U a.c0| / one' := by rw [ia.toRat, abs_div, abs_of_pos one'_posQ]; rfl
  have hlo2 : 1 ≤ |pq a.c0.units a.c0.units| / one' * 2 ^ 770 := by
    rw [← habs]
    have := mul_le_mul hlo hlo zero_le_one (by positivity)
    have e : (2:ℚ) ^ 770 = 2 ^ 385 * 2 ^ 385 := by rw [← pow_add]
    rw [e]
    calc (1:ℚ) = 1 * 1 := by ring
      _ ≤ _ := this
      _ = _ := by ring
  have hhi2 : |pq a.c0.units a.c0.units| / one' ≤ 2 ^ 1010 := by
    rw [← habs]
    have := mul_le_mul hhi hhi (abs_nonneg _) (by positivity)
    have e : (2:ℚ) ^ 1010 = 2 ^ 505 * 2 ^ 505 := by rw [← pow_add]
    rw [e]
    exact this
  have hlim : (lim : ℚ) = 3 * 2 ^ 12 * 2 ^ (1010 + 1074) := by
    unfold lim; push_cast; rw [mul_assoc, ← pow_add]
  have hla : 2 * |U a.c0| ≤ (lim : ℚ) := by
    rw [h0a, div_le_iff₀ one'_posQ, one'_pow] at hhi
    have e : (lim : ℚ) = 3 * 2 ^ 517 * (2 ^ 505 * 2 ^ 1074) := by
      rw [hlim]; rw [mul_assoc, mul_assoc, ← pow_add, ← pow_add, ← pow_add]
    rw [e]
    have hP : (0:ℚ) ≤ 2 ^ 505 * 2 ^ 1074 := by positivity
    have h3 : (2:ℚ) ≤ 3 * 2 ^ 517 := by
      have : (1:ℚ) ≤ 2 ^ 517 := one_le_pow₀ (by norm_num)
      clear e hP hhi hhi2 hlo hlo2 hlim
      generalize (2:ℚ) ^ 517 = P at *
      linarith
    exact mul_le_mul h3 hhi (abs_nonneg _) (by positivity)
  obtain ⟨M, hM⟩ : ∃ M, |pq a.c0.units a.c0.units| = M := ⟨_, rfl⟩
  rw [hM] at hlo2 hhi2
  have hbig : 2 ^ 250 * 2 ^ 50 ≤ M := by
    rw [one'_pow, div_mul_eq_mul_div, le_div_iff₀ (by positivity), one_mul] at hlo2
    have e : (2:ℚ) ^ 1074 = (2 ^ 250 * 2 ^ 54) * 2 ^ 770 := by rw [← pow_add, ← pow_add]
    rw [e] at hlo2
    have := le_of_mul_le_mul_right hlo2 (by positivity)
    refine le_trans ?_ this
    norm_num
  have hl : 1000 * M ≤ (lim : ℚ) := by
    rw [div_le_iff₀ one'_posQ, one'_pow, ← pow_add] at hhi2
    rw [hlim]
    generalize (2:ℚ) ^ (1010 + 1074) = P at *
    have : 0 ≤ P := by
      have : 0 ≤ M := by rw [← hM]; exact abs_nonneg _
      linarith
    linarith
  have hla1 : 2 * |U a.c1| ≤ (lim : ℚ) := by
    have h1 : |U a.c1| ≤ |U a.c0| := (oa.d1.trans (div_le_self (abs_nonneg _) (by norm_num)))
    linarith
  have hpre : Quad.preSqr a = none := by
    have i1 : a.isInfinite = false := ia.not_inf
    unfold Quad.preSqr
    rw [i1]; simp
  obtain ⟨hf, he⟩ := sqr_units oa hM hbig hl hla hla1 hpre
  refine ⟨hf, ?_⟩
  rw [quad_val_UQ hf, quad_val_UQ ha.1]
  have e1 : (UQ a / one') ^ 2 = UP a a / one' := by unfold UP; rw [sq, div_mul_div_comm, div_div]
  have hnn : 0 ≤ UP a a := by unfold UP; exact div_nonneg (mul_self_nonneg _) one'_posQ.le
  rw [e1, ← sub_div, abs_div, abs_of_pos one'_posQ, div_right_comm]
  refine div_le_div_of_nonneg_right (he.trans ?_) one'_posQ.le
  have hMP : M ≤ UP a a * (1 + 1 / 2 ^ 48) := by
    have h1 := (lead_le oa).1
    rw [← hM, pq_abs, ← abs_of_nonneg hnn]
    unfold UP
    rw [abs_div, abs_of_pos one'_posQ, abs_mul, div_mul_eq_mul_div]
    refine div_le_div_of_nonneg_right ?_ one'_posQ.le
    refine (mul_le_mul h1 h1 (abs_nonneg _) (by positivity)).trans ?_
    have : 0 ≤ |UQ a| * |UQ a| := by positivity
    have e : |UQ a| * (1 + 1 / 2 ^ 50) * (|UQ a| * (1 + 1 / 2 ^ 50)) = |UQ a| * |UQ a| * ((1 + 1 / 2 ^ 50) * (1 + 1 / 2 ^ 50)) := by ring
    rw [e]
    exact mul_le_mul_of_nonneg_left (by norm_num) this
  linarith

/-- An operand that meets the hypotheses. -/
example : Quad.PI.Ordered ∧ 1 ≤ |Quad.PI.c0.toRat| * 2 ^ 385 ∧ |Quad.PI.c0.toRat| ≤ 2 ^ 505 := by decide +kernel

/-- **C72.** Normalized operands are ordered, so the bound holds for all of them. -/
theorem C72_normalized (a : Quad) (ha : a.Normalized) (hlo : 1 ≤ |a.c0.toRat| * 2 ^ 385) (hhi : |a.c0.toRat| ≤ 2 ^ 505) :
    a.sqr.Fin ∧ |a.sqr.val - a.val ^ 2| ≤ a.val ^ 2 / 2 ^ 203 := by
  have qa := QIs.of_fin ha.1
  exact C72_accurate a (qa.ordered_iff.mpr (qa.normalized_iff.mp ha).ord) hlo hhi

example : Quad.E.Normalized ∧ 1 ≤ |Quad.E.c0.toRat| * 2 ^ 385 ∧ |Quad.E.c0.toRat| ≤ 2 ^ 505 := by decide +kernel

end Verif
