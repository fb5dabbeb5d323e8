import Verif.Proofs.QuadMul

/-!
# `Quad` multiplication: the partial products, and why nothing is lost in `renorm5`
-/

namespace Verif

open F64 Prim Util

/-- `|y|` is at most `2^-52` times `|x|`. -/
def Dec (x y : ℤ) : Prop := |(y : ℚ)| ≤ |(x : ℚ)| / 2 ^ 52

theorem Dec.left {x y : ℤ} (h : Dec x y) (b : ℤ) : |pq y b| ≤ |pq x b| / 2 ^ 52 := pq_le_left h
theorem Dec.right {x y : ℤ} (h : Dec x y) (b : ℤ) : |pq b y| ≤ |pq b x| / 2 ^ 52 := by
  rw [pq_comm b y, pq_comm b x]; exact pq_le_left h

theorem dec_of {x y : ℤ} (h : 2 ^ 52 * |y| ≤ |x|) : Dec x y := by
  unfold Dec
  rw [le_div_iff₀ (by positivity)]
  have : ((2 ^ 52 * |y| : ℤ) : ℚ) ≤ ((|x| : ℤ) : ℚ) := by exact_mod_cast h
  push_cast at this
  linarith

/-- Finite components, each at most `2^-52` times the one before. -/
structure QOrd (a : Quad) : Prop where
  f0 : a.c0.isFinite = true
  f1 : a.c1.isFinite = true
  f2 : a.c2.isFinite = true
  f3 : a.c3.isFinite = true
  d1 : Dec a.c0.units a.c1.units
  d2 : Dec a.c1.units a.c2.units
  d3 : Dec a.c2.units a.c3.units

theorem qord_of {a : Quad} (h : a.Ordered) : QOrd a := by
  have q := QIs.of_fin h.1
  have o := (q.ordered_iff).mp h
  exact ⟨h.1.1, h.1.2.1, h.1.2.2.1, h.1.2.2.2, dec_of o.1, dec_of o.2.1, dec_of o.2.2⟩

/-- The exact value in units. -/
def UQ (a : Quad) : ℚ := U a.c0 + U a.c1 + U a.c2 + U a.c3

/-- The exact product in units. -/
def UP (a b : Quad) : ℚ := UQ a * UQ b / one'

theorem UP_eq (a b : Quad) : UP a b =
    pq a.c0.units b.c0.units + pq a.c0.units b.c1.units + pq a.c1.units b.c0.units +
    pq a.c0.units b.c2.units + pq a.c1.units b.c1.units + pq a.c2.units b.c0.units +
    pq a.c0.units b.c3.units + pq a.c1.units b.c2.units + pq a.c2.units b.c1.units + pq a.c3.units b.c0.units +
    pq a.c1.units b.c3.units + pq a.c2.units b.c2.units + pq a.c3.units b.c1.units +
    pq a.c2.units b.c3.units + pq a.c3.units b.c2.units + pq a.c3.units b.c3.units := by
  unfold UP UQ U pq
  ring

/-- The four summands that enter `renorm5` after the leading product, for operands `a`, `b` and the error `l0` of the
leading product. -/
def mulRs (a b : Quad) (l0 : F64) : F64 × F64 × F64 × F64 :=
  let (h1, l1) := twoProd a.c0 b.c1
  let (h2, l2) := twoProd a.c1 b.c0
  let (h3, l3) := twoProd a.c0 b.c2
  let (h4, l4) := twoProd a.c1 b.c1
  let (h5, l5) := twoProd a.c2 b.c0
  let (h6, l6) := twoProd a.c0 b.c3
  let (h7, l7) := twoProd a.c1 b.c2
  let (h8, l8) := twoProd a.c2 b.c1
  let (h9, l9) := twoProd a.c3 b.c0
  let ha := F64.mul a.c1 b.c3
  let hb := F64.mul a.c2 b.c2
  let hc := F64.mul a.c3 b.c1
  let (r1, t0, t1) := threeThreeSum h1 h2 l0
  let (r2, t2, t3) := sixThreeSum t0 h3 h4 h5 l1 l2
  let (r3, t4) := nineTwoSum t1 t2 h6 h7 h8 h9 l3 l4 l5
  (r1, r2, r3, F64.add (F64.add (F64.add (F64.add (F64.add (F64.add (F64.add (F64.add t3 t4) ha) hb) hc) l6) l7) l8) l9)

theorem mul_mulRs {a b : Quad} (h : Quad.preMul a b = none) :
    a * b = (let p := twoProd a.c0 b.c0
      let r := mulRs a b p.2
      let z := renorm5 p.1 r.1 r.2.1 r.2.2.1 r.2.2.2
      ⟨z.1, z.2.1, z.2.2.1, z.2.2.2⟩) := by
  show Quad.mul a b = _
  unfold Quad.mul
  rw [h]
  rfl

theorem div52 {x y m n : ℚ} {c : ℚ} (hc : 0 ≤ c) (h : x ≤ y / 2 ^ 52) (hy : y ≤ c * m) (he : m / 2 ^ 53 ≤ n) :
    x ≤ 2 * c * n := by
  have h1 : y / 2 ^ 52 ≤ c * m / 2 ^ 52 := div_le_div_of_nonneg_right hy (by positivity)
  have h2 : c * m / 2 ^ 52 = 2 * c * (m / 2 ^ 53) := by ring
  have h3 : 2 * c * (m / 2 ^ 53) ≤ 2 * c * n := mul_le_mul_of_nonneg_left he (by positivity)
  linarith

set_option maxHeartbeats 4000000 in
theorem mulRs_ok {a b : Quad} (oa : QOrd a) (ob : QOrd b) {l0 : F64} {m1 m2 m3 m4 m5 : ℚ}
    (hs : Scale m1 m2 m3 m4 m5) (hl : 1000 * m1 ≤ (lim : ℚ))
    (h01 : |pq a.c0.units b.c1.units| ≤ 2 * m1) (h10 : |pq a.c1.units b.c0.units| ≤ 2 * m1)
    (fl0 : Fb l0 (101 / 100 * m1)) :
    ∃ r1 r2 r3 r4, mulRs a b l0 = (r1, r2, r3, r4) ∧ Fb r1 (6 * m1) ∧ Fb r2 (30 * m2) ∧ Fb r3 (139 * m3) ∧
      Fb r4 (1000 * m4) ∧
      |U r1 + U r2 + U r3 + U r4 - (U l0 + (UP a b - pq a.c0.units b.c0.units))| ≤ 30000 * m5 ∧
      r1.units = rs l0.units (rs (pr a.c0.units b.c1.units) (pr a.c1.units b.c0.units)) := by
  obtain ⟨s1, s2, s3, s4, d1, d2, d3, d4, one⟩ := id hs
  -- bounds on the exact products
  have h02 := div52 (by norm_num) (ob.d2.right a.c0.units) h01 s1
  have h11 := div52 (by norm_num) (oa.d1.left b.c1.units) h01 s1
  have h20 := div52 (by norm_num) (oa.d2.left b.c0.units) h10 s1
  have h03 := div52 (by norm_num) (ob.d3.right a.c0.units) h02 s2
  have h12 := div52 (by norm_num) (ob.d2.right a.c1.units) h11 s2
  have h21 := div52 (by norm_num) (oa.d2.left b.c1.units) h11 s2
  have h30 := div52 (by norm_num) (oa.d3.left b.c0.units) h20 s2
  have h13 := div52 (by norm_num) (ob.d3.right a.c1.units) h12 s3
  have h22 := div52 (by norm_num) (ob.d2.right a.c2.units) h21 s3
  have h31 := div52 (by norm_num) (oa.d3.left b.c1.units) h21 s3
  have h23 := div52 (by norm_num) (ob.d3.right a.c2.units) h22 s4
  have h32 := div52 (by norm_num) (ob.d2.right a.c3.units) h31 s4
  have h33 : |pq a.c3.units b.c3.units| ≤ 64 * m5 := by
    refine (ob.d3.right a.c3.units).trans ?_
    refine (div_le_self (abs_nonneg _) (by norm_num)).trans ?_
    refine h32.trans (by linarith)
  obtain ⟨p1, l1, q1, fp1, fl1, e1, u1, _⟩ := qb_prod oa.f0 ob.f1 h01 (by linarith)
  obtain ⟨p2, l2, q2, fp2, fl2, e2, u2, _⟩ := qb_prod oa.f1 ob.f0 h10 (by linarith)
  obtain ⟨p3, l3, q3, fp3, fl3, e3, _, _⟩ := qb_prod oa.f0 ob.f2 h02 (by linarith)
  obtain ⟨p4, l4, q4, fp4, fl4, e4, _, _⟩ := qb_prod oa.f1 ob.f1 h11 (by linarith)
  obtain ⟨p5, l5, q5, fp5, fl5, e5, _, _⟩ := qb_prod oa.f2 ob.f0 h20 (by linarith)
  obtain ⟨p6, l6, q6, fp6, fl6, e6, _, _⟩ := qb_prod oa.f0 ob.f3 h03 (by linarith)
  obtain ⟨p7, l7, q7, fp7, fl7, e7, _, _⟩ := qb_prod oa.f1 ob.f2 h12 (by linarith)
  obtain ⟨p8, l8, q8, fp8, fl8, e8, _, _⟩ := qb_prod oa.f2 ob.f1 h21 (by linarith)
  obtain ⟨p9, l9, q9, fp9, fl9, e9, _, _⟩ := qb_prod oa.f3 ob.f0 h30 (by linarith)
  obtain ⟨fha, ea⟩ := qb_mul oa.f1 ob.f3 h13 (by linarith)
  obtain ⟨fhb, eb⟩ := qb_mul oa.f2 ob.f2 h22 (by linarith)
  obtain ⟨fhc, ec⟩ := qb_mul oa.f3 ob.f1 h31 (by linarith)
  obtain ⟨r1, t0, t1, r2, t2, t3, r3, t4, r4, z1, z2, z3, z4, fr1, fr2, fr3, fr4, es, ur1⟩ :=
    mul_core hs hl (fp1.mono (by linarith)) (fp2.mono (by linarith)) fl0 (fp3.mono (by linarith)) (fp4.mono (by linarith))
      (fp5.mono (by linarith)) (fl1.mono (by linarith)) (fl2.mono (by linarith)) (fp6.mono (by linarith))
      (fp7.mono (by linarith)) (fp8.mono (by linarith)) (fp9.mono (by linarith)) (fl3.mono (by linarith))
      (fl4.mono (by linarith)) (fl5.mono (by linarith)) (fha.mono (by linarith)) (fhb.mono (by linarith))
      (fhc.mono (by linarith)) (fl6.mono (by linarith)) (fl7.mono (by linarith)) (fl8.mono (by linarith))
      (fl9.mono (by linarith))
  refine ⟨r1, r2, r3, r4, ?_, fr1, fr2, fr3, fr4, ?_, by rw [ur1, u1, u2]⟩
  · unfold mulRs
    rw [q1]; dsimp only
    rw [q2]; dsimp only
    rw [q3]; dsimp only
    rw [q4]; dsimp only
    rw [q5]; dsimp only
    rw [q6]; dsimp only
    rw [q7]; dsimp only
    rw [q8]; dsimp only
    rw [q9]; dsimp only
    rw [z1]; dsimp only
    rw [z2]; dsimp only
    rw [z3]; dsimp only
    rw [z4]
  · rw [UP_eq]
    clear z1 z2 z3 z4 q1 q2 q3 q4 q5 q6 q7 q8 q9 fp1 fp2 fp3 fp4 fp5 fp6 fp7 fp8 fp9 fl1 fl2 fl3 fl4 fl5 fl6 fl7 fl8 fl9
      h01 h10 h02 h11 h20 h03 h12 h21 h30 h13 h22 h31 fr1 fr2 fr3 fr4 ur1 u1 u2 fha fhb fhc oa ob
    have e1 := abs_le.mp e1
    have e2 := abs_le.mp e2
    have e3 := abs_le.mp e3
    have e4 := abs_le.mp e4
    have e5 := abs_le.mp e5
    have e6 := abs_le.mp e6
    have e7 := abs_le.mp e7
    have e8 := abs_le.mp e8
    have e9 := abs_le.mp e9
    have ea := abs_le.mp ea
    have eb := abs_le.mp eb
    have ec := abs_le.mp ec
    have es := abs_le.mp es
    have h23 := abs_le.mp h23
    have h32 := abs_le.mp h32
    have h33 := abs_le.mp h33
    exact abs_le.mpr ⟨by linarith, by linarith⟩

end Verif
