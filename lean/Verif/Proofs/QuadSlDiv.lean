import Verif.Proofs.QuadSlackDiv
import Verif.Proofs.QuadSlMul

/-!
# Long division of `Quad`s that are ordered only up to a slack
-/

namespace Verif

open F64 Prim Util Quad

/-- A divisor: finite, not zero, and its first component dominates the others. -/
structure DB (b : Quad) : Prop where
  f0 : b.c0.isFinite = true
  f1 : b.c1.isFinite = true
  f2 : b.c2.isFinite = true
  f3 : b.c3.isFinite = true
  nz : b.c0.units ≠ 0
  d1 : |U b.c1| ≤ |U b.c0| / 2 ^ 48
  d2 : |U b.c2| ≤ |U b.c0| / 2 ^ 97
  d3 : |U b.c3| ≤ |U b.c0| / 2 ^ 130

theorem DB.pos {b : Quad} (h : DB b) : 0 < |U b.c0| := by
  apply abs_pos.mpr; unfold U; exact_mod_cast h.nz

theorem DB.head {b : Quad} (h : DB b) : |UQ b - U b.c0| ≤ |U b.c0| * (1001 / 1000) / 2 ^ 48 := by
  unfold UQ
  rw [show U b.c0 + U b.c1 + U b.c2 + U b.c3 - U b.c0 = U b.c1 + U b.c2 + U b.c3 by ring]
  have d1 := h.d1
  have d2 := h.d2
  have d3 := h.d3
  have n0 := abs_nonneg (U b.c0)
  refine (abs_add_le _ _).trans ?_
  have := abs_add_le (U b.c1) (U b.c2)
  linarith

/-- A slack-ordered number whose first component is not much smaller than its size is a divisor. -/
theorem DB.of_qs {b : Quad} {η : ℚ} (h : QS b (1 / 2 ^ 49) η) (hz : b.c0.units ≠ 0) (hη : η * 2 ^ 131 ≤ |U b.c0|) : DB b := by
  have d1 := h.d1
  have d2 := h.d2
  have d3 := h.d3
  have n0 := abs_nonneg (U b.c0)
  refine ⟨h.f0, h.f1, h.f2, h.f3, hz, ?_, ?_, ?_⟩ <;> linarith

set_option maxHeartbeats 4000000 in
/-- `mul_f64`: what it computes, and the order of the result. `M` is the product of the leading components. -/
theorem mulf_db {b : Quad} {q : F64} {M : ℚ} (ob : DB b) (fq : q.isFinite = true)
    (hM : |pq b.c0.units q.units| = M) (hM1 : M ≤ one' * 2 ^ 170) (hl : 1000 * M ≤ (lim : ℚ)) :
    |UQ (mulF64 b q) - (pq b.c0.units q.units + pq b.c1.units q.units + pq b.c2.units q.units + pq b.c3.units q.units)| ≤
      M / 2 ^ 146 + 6 ∧
    QS (mulF64 b q) (1 / 2 ^ 49) (M / 2 ^ 146 + 1) := by
  have nM : 0 ≤ M := hM ▸ abs_nonneg _
  have hc := lim_ge'
  have d1 : |pq b.c1.units q.units| ≤ M / 2 ^ 48 := hM ▸ pq_le_left ob.d1
  have d2 : |pq b.c2.units q.units| ≤ M / 2 ^ 97 := hM ▸ pq_le_left ob.d2
  have d3 : |pq b.c3.units q.units| ≤ M / 2 ^ 130 := hM ▸ pq_le_left ob.d3
  obtain ⟨h0, l0, e0, fh0, fl0, g0, _, _⟩ := qb_prod ob.f0 fq hM.le (by linarith)
  obtain ⟨h1, l1, e1, fh1, fl1, g1, _, _⟩ := qb_prod ob.f1 fq d1 (by linarith)
  obtain ⟨h2, l2, e2, fh2, fl2, g2, _, _⟩ := qb_prod ob.f2 fq d2 (by linarith)
  obtain ⟨fh3, g3⟩ := qb_mul ob.f3 fq d3 (by linarith)
  obtain ⟨h3, eh3⟩ : ∃ h3, F64.mul b.c3 q = h3 := ⟨_, rfl⟩
  rw [eh3] at fh3 g3
  obtain ⟨s1, t0, e4, fs1, ft0, g4, _, _⟩ := qb_two fh1 fl0 (by linarith)
  obtain ⟨s2, t1, t2, e5, fs2, ft1, ft2, g5, _⟩ := qb_three ft0 fh2 fl1 (by linarith)
  obtain ⟨s3, t3, e6, fs3, ft3, g6⟩ := qb_threeTwo ft1 fh3 fl2 (by linarith)
  have B2 := ft2.le
  have B3 := ft3.le
  have n2 := abs_nonneg (U t2)
  have o4 := one'_ge4
  have op := one'_posQ
  have hs4 : |pq t2.units t3.units| ≤ |U t2| / 2 := by
    rw [pq_abs, div_le_iff₀ op]
    have : |U t3| ≤ one' / 2 := by linarith
    have := mul_le_mul_of_nonneg_left this n2
    show |U t2| * |U t3| ≤ _
    linarith
  obtain ⟨fs4, g7⟩ := qb_mul ft2.fin ft3.fin hs4 (by linarith)
  obtain ⟨s4, es4⟩ : ∃ s4, F64.mul t2 t3 = s4 := ⟨_, rfl⟩
  rw [es4] at fs4 g7
  have p4 := abs_le.mp hs4
  have g0 := abs_le.mp g0
  have g1 := abs_le.mp g1
  have g2 := abs_le.mp g2
  have g3 := abs_le.mp g3
  have g6 := abs_le.mp g6
  have g7 := abs_le.mp g7
  have c2 := abs_le.mp B2
  have c3 := abs_le.mp B3
  have k1 : |U s1| ≤ M / 2 ^ 47 + 16 / 10 := fs1.le.trans (by linarith)
  have k2 : |U s2| ≤ M * (12 / 10) / 2 ^ 97 + 18 / 10 := fs2.le.trans (by linarith)
  have k3 : |U s3| ≤ M / 2 ^ 129 + 18 / 10 := fs3.le.trans (by linarith)
  have k4 : |U s4| ≤ M / 2 ^ 190 + 6 / 10 := fs4.le.trans (by linarith)
  have k0 := fh0.le
  have k0' : M * (1 - 1 / 2 ^ 52) - 2 ≤ |U h0| := by
    have t1 : M ≤ |U h0| + |U l0| + 1 / 2 := by
      rw [← hM]
      have e : pq b.c0.units q.units = U h0 + U l0 - (U h0 + U l0 - pq b.c0.units q.units) := by ring
      rw [e]
      refine (abs_sub _ _).trans ?_
      have := abs_add_le (U h0) (U l0)
      have := abs_le.mpr g0
      linarith
    have := fl0.le
    linarith
  have i1 := abs_nonneg (U s1)
  have i2 := abs_nonneg (U s2)
  have i3 := abs_nonneg (U s3)
  have i4 := abs_nonneg (U s4)
  have i0 := abs_nonneg (U h0)
  have dom : (|U s1| + |U s2| + |U s3| + |U s4|) * (101 / 100) ≤ |U h0| ∨ |U s1| + |U s2| + |U s3| + |U s4| ≤ 10 := by
    by_cases h : 100 ≤ M
    · left; linarith
    · right; push Not at h; linarith
  obtain ⟨R1, R2, R3⟩ := renorm5_any (Z := 10) fh0.fin fs1.fin fs2.fin fs3.fin fs4.fin (by linarith) (by norm_num) dom
  have eq : mulF64 b q = toQ (renorm5 h0 s1 s2 s3 s4) := by
    unfold mulF64
    rw [e0]; dsimp only
    rw [e1]; dsimp only
    rw [e2]; dsimp only
    rw [eh3, e4]; dsimp only
    rw [e5]; dsimp only
    rw [e6]; dsimp only
    rw [es4]
    rfl
  rw [eq]
  have hη : (|U s2| + |U s3| + |U s4|) * (8 / 2 ^ 53) ≤ M / 2 ^ 146 + 1 := by linarith
  refine ⟨?_, R2.mono (le_refl _) hη⟩
  have e := abs_le.mp R1.err
  have eu : UQ (toQ (renorm5 h0 s1 s2 s3 s4)) = U (renorm5 h0 s1 s2 s3 s4).1 + U (renorm5 h0 s1 s2 s3 s4).2.1 +
    U (renorm5 h0 s1 s2 s3 s4).2.2.1 + U (renorm5 h0 s1 s2 s3 s4).2.2.2 := rfl
  rw [eu]
  exact abs_le.mpr ⟨by linarith, by linarith⟩

/-- One digit of the quotient. -/
theorem dquot_db {x b : Quad} {η X β : ℚ} (hx : QS x (1 / 2 ^ 49) η) (hη : 0 ≤ η) (ob : DB b)
    (bx : |U x.c0| ≤ X) (hβ : |U b.c0| / one' = β) (hq : X * one' ≤ lim * |U b.c0|) :
    (F64.div x.c0 b.c0).isFinite = true ∧
    |pq b.c0.units (F64.div x.c0 b.c0).units - U x.c0| ≤ |U x.c0| / 2 ^ 53 + β / 2 ∧
    |pq b.c0.units (F64.div x.c0 b.c0).units| ≤ X * (1 + 1 / 2 ^ 52) + β ∧
    |PQ b (F64.div x.c0 b.c0) - UQ x| ≤ X * (11 / 10) / 2 ^ 47 + β + 4 * η ∧
    |U (F64.div x.c0 b.c0)| * |U b.c0| ≤ (X * (1 + 1 / 2 ^ 52) + β) * one' := by
  have op := one'_posQ
  have bp := ob.pos
  have hb := ob.nz
  have nx := abs_nonneg (U x.c0)
  have hX : 0 ≤ X := nx.trans bx
  have h0 : |(x.c0.units * one' : ℚ) / b.c0.units| ≤ lim := by
    rw [abs_div, abs_mul, abs_of_pos op]
    show |U x.c0| * one' / |U b.c0| ≤ lim
    rw [div_le_iff₀ bp]
    refine le_trans ?_ hq
    exact mul_le_mul_of_nonneg_right bx op.le
  have i := (Is.of_finite hx.f0).div (Is.of_finite ob.f0) hb (limQ_le_omega h0)
  have hu := U_is i
  have er := err_le ((x.c0.units * one' : ℚ) / b.c0.units)
  rw [← hu] at er
  obtain ⟨q, hqd⟩ : ∃ q, F64.div x.c0 b.c0 = q := ⟨_, rfl⟩
  rw [hqd] at er i ⊢
  have hβ0 : 0 ≤ β := by rw [← hβ]; positivity
  have e1 : |pq b.c0.units q.units - U x.c0| ≤ |U x.c0| / 2 ^ 53 + β / 2 := by
    have hb' : U b.c0 ≠ 0 := by unfold U; exact_mod_cast hb
    have e : pq b.c0.units q.units - U x.c0 = -(((x.c0.units * one' : ℚ) / b.c0.units - U q) * (U b.c0 / one')) := by
      unfold pq
      show U b.c0 * U q / one' - U x.c0 = -((U x.c0 * one' / U b.c0 - U q) * (U b.c0 / one'))
      field_simp
      ring
    rw [e, abs_neg, abs_mul, abs_div (U b.c0), abs_of_pos op, hβ]
    have h1 := mul_le_mul_of_nonneg_right er hβ0
    refine h1.trans (le_of_eq ?_)
    rw [abs_div, abs_mul, abs_of_pos op, add_mul, ← hβ]
    show |U x.c0| * one' / |U b.c0| / 2 ^ 53 * (|U b.c0| / one') + _ = _
    field_simp
  have e1' := abs_le.mp e1
  have hx0 := abs_le.mp (le_refl |U x.c0|)
  have M : |pq b.c0.units q.units| ≤ X * (1 + 1 / 2 ^ 52) + β := by
    have e : pq b.c0.units q.units = (pq b.c0.units q.units - U x.c0) + U x.c0 := by ring
    rw [e]
    refine (abs_add_le _ _).trans ?_
    linarith
  have d1 : |pq b.c1.units q.units| ≤ |pq b.c0.units q.units| / 2 ^ 48 := pq_le_left ob.d1
  have d2 : |pq b.c2.units q.units| ≤ |pq b.c0.units q.units| / 2 ^ 97 := pq_le_left ob.d2
  have d3 : |pq b.c3.units q.units| ≤ |pq b.c0.units q.units| / 2 ^ 130 := pq_le_left ob.d3
  refine ⟨i.1, e1, M, ?_, ?_⟩
  · rw [PQ_eq]
    have t := abs_le.mp (hx.head hη).1
    have d1 := abs_le.mp d1
    have d2' := abs_le.mp d2
    have d3' := abs_le.mp d3
    exact abs_le.mpr ⟨by linarith, by linarith⟩
  · rw [pq_abs, div_le_iff₀ op] at M
    rw [mul_comm]
    exact M

/-- One round of the long division. -/
theorem dround_db {x b : Quad} {η X Y β : ℚ} (hx : QS x (1 / 2 ^ 49) η) (ob : DB b)
    (bx : |U x.c0| ≤ X) (hβ : |U b.c0| / one' = β) (hq : X * one' ≤ lim * |U b.c0|)
    (hY : X * (1 + 1 / 2 ^ 52) + β ≤ Y) (hη : Y / 2 ^ 146 + 1 ≤ η) (hY1 : Y ≤ one' * 2 ^ 170)
    (hY2 : 10 ^ 14 * Y ≤ (lim : ℚ)) (hη2 : 10 ^ 14 * η ≤ (lim : ℚ)) :
    QS (x - mulF64 b (F64.div x.c0 b.c0)) (1 / 2 ^ 49) (Y / 2 ^ 141 + η / 2 ^ 29) ∧
    |UQ (x - mulF64 b (F64.div x.c0 b.c0)) - (UQ x - PQ b (F64.div x.c0 b.c0))| ≤ Y / 2 ^ 136 + 4400 * η ∧
    |U (x - mulF64 b (F64.div x.c0 b.c0)).c0| ≤ Y * (12 / 10) / 2 ^ 47 + 2 * β + 4500 * η := by
  have hβ0 : 0 ≤ β := by rw [← hβ]; have := one'_posQ; positivity
  have hX : 0 ≤ X := (abs_nonneg _).trans bx
  have hη0 : 0 ≤ η := by linarith
  obtain ⟨fq, -, M, er, _⟩ := dquot_db hx hη0 ob bx hβ hq
  generalize F64.div x.c0 b.c0 = q at *
  obtain ⟨ep, qp⟩ := mulf_db ob fq rfl (M.trans (by linarith)) (by linarith)
  rw [← PQ_eq] at ep
  have qp' := qp.mono (le_refl (1 / 2 ^ 49)) (η' := η) (by linarith)
  have nM := abs_nonneg (pq b.c0.units q.units)
  have hp := (qp'.head hη0).2
  have er' := abs_le.mp er
  have ep' := abs_le.mp ep
  have hPQ : |PQ b q| ≤ Y * (1 + 1 / 2 ^ 40) := by
    rw [PQ_eq]
    have d1 : |pq b.c1.units q.units| ≤ |pq b.c0.units q.units| / 2 ^ 48 := pq_le_left ob.d1
    have d2 : |pq b.c2.units q.units| ≤ |pq b.c0.units q.units| / 2 ^ 97 := pq_le_left ob.d2
    have d3 : |pq b.c3.units q.units| ≤ |pq b.c0.units q.units| / 2 ^ 130 := pq_le_left ob.d3
    refine (abs_add_le _ _).trans ?_
    have := abs_add_le (pq b.c0.units q.units + pq b.c1.units q.units) (pq b.c2.units q.units)
    have := abs_add_le (pq b.c0.units q.units) (pq b.c1.units q.units)
    linarith
  have hUp : |UQ (mulF64 b q)| ≤ Y * (1 + 1 / 2 ^ 39) + 6 * η := by
    have e : UQ (mulF64 b q) = (UQ (mulF64 b q) - PQ b q) + PQ b q := by ring
    rw [e]
    refine (abs_add_le _ _).trans ?_
    linarith
  obtain ⟨Q, er2⟩ := sub_step (X := Y * (1 + 1 / 2 ^ 30) + 12 * η) hx qp' hη0 (by linarith) (by linarith) (by linarith) (by linarith)
  have er2' := abs_le.mp er2
  have Q' := Q.mono (le_refl (1 / 2 ^ 49)) (η' := Y / 2 ^ 141 + η / 2 ^ 29) (by linarith)
  have hd : |UQ (x - mulF64 b q) - (UQ x - PQ b q)| ≤ Y / 2 ^ 136 + 4400 * η :=
    abs_le.mpr ⟨by linarith, by linarith⟩
  refine ⟨Q', hd, ?_⟩
  have hh := (Q'.head (by linarith)).2
  have hr : |UQ (x - mulF64 b q)| ≤ X * (11 / 10) / 2 ^ 47 + β + Y / 2 ^ 136 + 4404 * η := by
    have e : UQ (x - mulF64 b q) = (UQ (x - mulF64 b q) - (UQ x - PQ b q)) - (PQ b q - UQ x) := by ring
    rw [e]
    refine (abs_sub _ _).trans ?_
    linarith
  linarith

set_option maxHeartbeats 4000000 in
/-- Division of slack-ordered numbers, in units. `A` is the size of the dividend and `W` the size of the quotient. -/
theorem div_slack {a b : Quad} {A β W : ℚ} (oa : QS a (1 / 2 ^ 49) (A / 2 ^ 141)) (hA : |U a.c0| ≤ A) (ob : DB b)
    (hβ : |U b.c0| / one' = β) (hW : W * |U b.c0| = A * one') (hq : 100 * A * one' ≤ lim * |U b.c0|)
    (hA0 : 2 ^ 250 ≤ A) (hβA : β * 2 ^ 250 ≤ A) (hA1 : 2 * A ≤ one' * 2 ^ 170) (hA2 : 10 ^ 16 * A ≤ (lim : ℚ)) :
    QS (a / b) (1 / 2 ^ 49) (W / 2 ^ 142) ∧ |U (a / b).c0| ≤ W * (1 + 1 / 2 ^ 40) ∧
      |UQ (a / b) * UQ b / one' - UQ a| ≤ A / 2 ^ 127 := by
  have op := one'_posQ
  have bp := ob.pos
  have hb := ob.nz
  have hβ0 : 0 ≤ β := by rw [← hβ]; positivity
  obtain ⟨X0, hX0⟩ : ∃ X0, |U a.c0| = X0 := ⟨_, rfl⟩
  have nX0 : 0 ≤ X0 := by rw [← hX0]; exact abs_nonneg _
  rw [hX0] at hA
  have hscale : ∀ X : ℚ, X ≤ 100 * A → X * one' ≤ lim * |U b.c0| := fun X h =>
    (mul_le_mul_of_nonneg_right h op.le).trans hq
  obtain ⟨fq0, l0, _, p0, z0⟩ := dquot_db oa (by linarith) ob hX0.le hβ (hscale _ (by linarith))
  obtain ⟨Q1, e1, b1⟩ := dround_db (Y := X0 * (1 + 1 / 2 ^ 52) + β) oa ob hX0.le hβ (hscale _ (by linarith)) le_rfl (by linarith)
    (by linarith) (by linarith) (by linarith)
  have hdiv : a / b = Quad.div a b := rfl
  rw [hdiv]
  unfold Quad.div
  rw [qdiv_main (Is.of_finite oa.f0) (Is.of_finite ob.f0) hb]
  dsimp only
  rw [hX0] at l0
  have l0' : X0 * (1 - 1 / 2 ^ 53) - β / 2 ≤ |pq b.c0.units (F64.div a.c0 b.c0).units| := by
    have := abs_sub_abs_le_abs_sub (U a.c0) (pq b.c0.units (F64.div a.c0 b.c0).units)
    rw [abs_sub_comm (U a.c0), hX0] at this
    linarith
  rw [pq_abs, le_div_iff₀ op] at l0'
  change _ ≤ |U b.c0| * |U (F64.div a.c0 b.c0)| at l0'
  clear l0
  generalize F64.div a.c0 b.c0 = q0 at *
  generalize a - mulF64 b q0 = r1 at *
  have Q1 := Q1.mono (le_refl (1 / 2 ^ 49)) (η' := A * (101 / 100) / 2 ^ 141) (by linarith)
  have b1 : |U r1.c0| ≤ X0 * (13 / 10) / 2 ^ 47 + A / 2 ^ 128 := by linarith
  have e1 := e1.trans (show _ ≤ 4440 * A / 2 ^ 141 by linarith)
  obtain ⟨fq1, _, _, _, z1⟩ := dquot_db Q1 (by linarith) ob b1 hβ (hscale _ (by linarith))
  obtain ⟨Q2, e2, b2⟩ := dround_db (Y := A * (14 / 10) / 2 ^ 47) Q1 ob b1 hβ (hscale _ (by linarith)) (by linarith) (by linarith)
    (by linarith) (by linarith) (by linarith)
  generalize F64.div r1.c0 b.c0 = q1 at *
  generalize r1 - mulF64 b q1 = r2 at *
  have Q2 := Q2.mono (le_refl (1 / 2 ^ 49)) (η' := A / 2 ^ 169) (by linarith)
  have b2 : |U r2.c0| ≤ A * (17 / 10) / 2 ^ 94 := by linarith
  have e2 := e2.trans (show _ ≤ 4450 * A / 2 ^ 141 by linarith)
  obtain ⟨fq2, _, _, _, z2⟩ := dquot_db Q2 (by linarith) ob b2 hβ (hscale _ (by linarith))
  obtain ⟨Q3, e3, b3⟩ := dround_db (Y := A * (18 / 10) / 2 ^ 94) Q2 ob b2 hβ (hscale _ (by linarith)) (by linarith) (by linarith)
    (by linarith) (by linarith) (by linarith)
  generalize F64.div r2.c0 b.c0 = q2 at *
  generalize r2 - mulF64 b q2 = r3 at *
  have Q3 := Q3.mono (le_refl (1 / 2 ^ 49)) (η' := A / 2 ^ 180) (by linarith)
  have b3 : |U r3.c0| ≤ A / 2 ^ 139 := by linarith
  have e3 := e3.trans (show _ ≤ A / 2 ^ 141 by linarith)
  obtain ⟨fq3, _, _, _, z3⟩ := dquot_db Q3 (by linarith) ob b3 hβ (hscale _ (by linarith))
  obtain ⟨Q4, e4, b4⟩ := dround_db (Y := A / 2 ^ 138) Q3 ob b3 hβ (hscale _ (by linarith)) (by linarith) (by linarith)
    (by linarith) (by linarith) (by linarith)
  generalize F64.div r3.c0 b.c0 = q3 at *
  generalize r3 - mulF64 b q3 = r4 at *
  have Q4 := Q4.mono (le_refl (1 / 2 ^ 49)) (η' := A / 2 ^ 180) (by linarith)
  have b4 : |U r4.c0| ≤ A / 2 ^ 160 := by linarith
  have e4 := e4.trans (show _ ≤ A / 2 ^ 141 by linarith)
  obtain ⟨fq4, _, _, p4, z4⟩ := dquot_db Q4 (by linarith) ob b4 hβ (hscale _ (by linarith))
  have p4 := p4.trans (show _ ≤ A / 2 ^ 150 by linarith)
  generalize F64.div r4.c0 b.c0 = q4 at *
  clear Q1 Q2 Q3 Q4 b1 b2 b3 b4
  -- the quotient digits in units of `W`
  have hAn : 0 ≤ A := by linarith
  have hW0 : 0 ≤ W := by
    by_contra h
    push Not at h
    have := mul_neg_of_neg_of_pos h bp
    have := mul_nonneg hAn op.le
    linarith
  obtain ⟨w, hw⟩ : ∃ w, w * |U b.c0| = X0 * one' := ⟨X0 * one' / |U b.c0|, by field_simp⟩
  have hwW : w ≤ W := by
    refine le_of_mul_le_mul_right ?_ bp
    rw [hw, hW]
    exact mul_le_mul_of_nonneg_right hA op.le
  have hw0 : 0 ≤ w := by
    by_contra h
    push Not at h
    have := mul_neg_of_neg_of_pos h bp
    have := mul_nonneg nX0 op.le
    linarith
  have size : ∀ {q : F64} {c d y : ℚ}, |U q| * |U b.c0| ≤ y * one' → y ≤ c * X0 + d * A → |U q| ≤ c * w + d * W := by
    intro q c d y h1 h2
    have h3 : |U q| * |U b.c0| ≤ (c * w + d * W) * |U b.c0| := by
      rw [add_mul, mul_assoc, hw, mul_assoc, hW, ← mul_assoc, ← mul_assoc, ← add_mul]
      exact h1.trans (mul_le_mul_of_nonneg_right h2 op.le)
    exact le_of_mul_le_mul_right h3 bp
  have w0 := size (c := 1 + 1 / 2 ^ 52) (d := 1 / 2 ^ 200) z0 (by linarith)
  have w1 := size (c := 14 / 10 / 2 ^ 47) (d := 2 / 2 ^ 128) z1 (by linarith)
  have w2 := size (c := 0) (d := 18 / 10 / 2 ^ 94) z2 (by linarith)
  have w3 := size (c := 0) (d := 1 / 2 ^ 138) z3 (by linarith)
  have w4 := size (c := 0) (d := 1 / 2 ^ 150) z4 (by linarith)
  rw [zero_mul, zero_add] at w2 w3 w4
  have w0' : w * (1 - 1 / 2 ^ 53) - W / 2 ^ 200 ≤ |U q0| := by
    refine le_of_mul_le_mul_right ?_ bp
    have e : (w * (1 - 1 / 2 ^ 53) - W / 2 ^ 200) * |U b.c0| = (X0 * (1 - 1 / 2 ^ 53) - A / 2 ^ 200) * one' := by
      rw [sub_mul, mul_right_comm, hw, div_mul_eq_mul_div, hW]; ring
    rw [e, mul_comm |U q0|]
    refine le_trans (mul_le_mul_of_nonneg_right ?_ op.le) l0'
    linarith
  have hWl : 100 * W ≤ (lim : ℚ) := by
    have : 100 * W * |U b.c0| ≤ lim * |U b.c0| := by rw [mul_assoc, hW, ← mul_assoc]; exact hq
    exact le_of_mul_le_mul_right this bp
  have n0 := abs_nonneg (U q0)
  have n1 := abs_nonneg (U q1)
  have n2 := abs_nonneg (U q2)
  have n3 := abs_nonneg (U q3)
  have n4 := abs_nonneg (U q4)
  have dom : (|U q1| + |U q2| + |U q3| + |U q4|) * (101 / 100) ≤ |U q0| ∨ |U q1| + |U q2| + |U q3| + |U q4| ≤ W / 2 ^ 92 := by
    by_cases h : W / 2 ^ 50 ≤ w
    · left; linarith
    · right; push Not at h; linarith
  obtain ⟨R, R2, _⟩ := renorm5_any (Z := W / 2 ^ 92) fq0 fq1 fq2 fq3 fq4 (by linarith) (by positivity) dom
  have hdq : QS (toQ (renorm5 q0 q1 q2 q3 q4)) (1 / 2 ^ 49) (W / 2 ^ 142) := R2.mono le_rfl (by linarith)
  have hR : |UQ (toQ (renorm5 q0 q1 q2 q3 q4)) - (U q0 + U q1 + U q2 + U q3 + U q4)| ≤ W / 2 ^ 143 := by
    have e := R.err
    have eu : UQ (toQ (renorm5 q0 q1 q2 q3 q4)) = U (renorm5 q0 q1 q2 q3 q4).1 + U (renorm5 q0 q1 q2 q3 q4).2.1 +
      U (renorm5 q0 q1 q2 q3 q4).2.2.1 + U (renorm5 q0 q1 q2 q3 q4).2.2.2 := rfl
    rw [eu]
    refine e.trans ?_
    linarith
  change QS (toQ (renorm5 q0 q1 q2 q3 q4)) _ _ ∧ |U (toQ (renorm5 q0 q1 q2 q3 q4)).c0| ≤ _ ∧
    |UQ (toQ (renorm5 q0 q1 q2 q3 q4)) * UQ b / one' - UQ a| ≤ _
  refine ⟨hdq, ?_, ?_⟩
  · have h1 := (hdq.head (by positivity)).2
    have h2 : |UQ (toQ (renorm5 q0 q1 q2 q3 q4))| ≤ |U q0| + |U q1| + |U q2| + |U q3| + |U q4| + W / 2 ^ 143 := by
      have h3 := abs_sub_abs_le_abs_sub (UQ (toQ (renorm5 q0 q1 q2 q3 q4))) (U q0 + U q1 + U q2 + U q3 + U q4)
      have h4 := abs_add_le (U q0 + U q1 + U q2 + U q3) (U q4)
      have h5 := abs_add_le (U q0 + U q1 + U q2) (U q3)
      have h6 := abs_add_le (U q0 + U q1) (U q2)
      have h7 := abs_add_le (U q0) (U q1)
      linarith
    linarith
  have bUQ : |UQ b| ≤ |U b.c0| * (1 + 1 / 2 ^ 47) := by
    have := ob.head
    have e : UQ b = (UQ b - U b.c0) + U b.c0 := by ring
    rw [e]
    refine (abs_add_le _ _).trans ?_
    linarith
  have esum : UQ (toQ (renorm5 q0 q1 q2 q3 q4)) * UQ b / one' - UQ a =
      (UQ (toQ (renorm5 q0 q1 q2 q3 q4)) - (U q0 + U q1 + U q2 + U q3 + U q4)) * (UQ b / one') +
      (PQ b q0 + PQ b q1 + PQ b q2 + PQ b q3 + PQ b q4 - UQ a) := by
    unfold PQ; ring
  rw [esum]
  have f1 : |(UQ (toQ (renorm5 q0 q1 q2 q3 q4)) - (U q0 + U q1 + U q2 + U q3 + U q4)) * (UQ b / one')| ≤ A / 2 ^ 142 := by
    rw [abs_mul, abs_div, abs_of_pos op]
    have h1 : |UQ b| / one' ≤ |U b.c0| * (1 + 1 / 2 ^ 47) / one' := div_le_div_of_nonneg_right bUQ op.le
    refine (mul_le_mul hR h1 (by positivity) (by positivity)).trans ?_
    have e : W / 2 ^ 143 * (|U b.c0| * (1 + 1 / 2 ^ 47) / one') = (W * |U b.c0|) / one' * ((1 + 1 / 2 ^ 47) / 2 ^ 143) := by ring
    rw [e, hW, mul_div_assoc, div_self op.ne', mul_one]
    linarith
  have f2 : |PQ b q0 + PQ b q1 + PQ b q2 + PQ b q3 + PQ b q4 - UQ a| ≤ 8893 * A / 2 ^ 141 := by
    have e1 := abs_le.mp e1
    have e2 := abs_le.mp e2
    have e3 := abs_le.mp e3
    have e4 := abs_le.mp e4
    have p4 := abs_le.mp p4
    exact abs_le.mpr ⟨by linarith, by linarith⟩
  refine (abs_add_le _ _).trans ?_
  linarith

end Verif
