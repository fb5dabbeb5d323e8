import Verif.Proofs.QuadSlackLoop
import Verif.Proofs.Ident
import Verif.Props.QuadAdd

/-!
# `Quad` addition for operands that are ordered up to a small slack
-/

namespace Verif

open F64 Prim Util Quad

/-- `quick_two_sum` for any operands: the second result is small compared to the first, whatever the order of the operands. -/
theorem qb_quick_rel {a b : F64} (fa : a.isFinite = true) (fb : b.isFinite = true) (h : 4 * (|U a| + |U b|) ≤ (lim : ℚ)) :
    ∃ s e, quickTwoSum a b = (s, e) ∧ s.isFinite = true ∧ e.isFinite = true ∧
      |U s| ≤ (|U a| + |U b|) * (1 + 1 / 2 ^ 53) ∧ |U e| ≤ (|U a| + |U b|) / 2 ^ 53 + |U b| * (101 / 100 / 2 ^ 53) ∧
      |U s + U e - (U a + U b)| ≤ |U b| * (101 / 100 / 2 ^ 53) ∧ (|U b| ≤ |U a| → U s + U e = U a + U b) ∧
      |U e| ≤ |U s| * (32 / 10 / 2 ^ 53) ∧ (U e ≠ 0 → |U b| ≤ |U s| * (201 / 100)) := by
  obtain ⟨s, e, h1, h2, h3, h4, h5, h6, h7⟩ := qb_quick_abs fa fb h
  refine ⟨s, e, h1, h2, h3, h4, h5, h6, h7, ?_⟩
  have ia := Is.of_finite fa
  have ib := Is.of_finite fb
  have na := abs_nonneg (U a)
  have nb := abs_nonneg (U b)
  have ns := abs_nonneg (U s)
  have hs : s = F64.add a b := (congrArg Prod.fst h1).symm
  obtain ⟨s', e', k1, k2, k3, k4, k5, k6⟩ := qb_two ⟨fa, le_refl _⟩ ⟨fb, le_refl _⟩ (by linarith)
  have hs' : s = s' := by
    rw [hs]; exact congrArg Prod.fst k1
  subst hs'
  by_cases hz : re a.units b.units = 0
  · have h0 : U e = 0 := by
      have is : Is s (a.units + b.units) := by
        have h8 := rs_add_re a.units b.units
        rw [hz, add_zero, ← k5] at h8
        have := Is.of_finite h2
        rwa [h8] at this
      have e1 : Is (F64.sub s a) b.units := is.sub_rep ia (by ring) ib.rep ib.lt
      have e2 : Is (F64.sub b (F64.sub s a)) 0 := ib.sub_self' e1
      have he : e = F64.sub b (F64.sub s a) := by rw [hs]; exact (congrArg Prod.snd h1).symm
      rw [he, U_is e2]; simp
    rw [h0]
    refine ⟨?_, fun h => absurd rfl h⟩
    rw [abs_zero]; positivity
  · have hin := (inexact_le ia.rep ib.rep hz).2
    have hin' : |U b| ≤ 2 * |U a + U b| := by unfold U; exact_mod_cast hin
    have he' : |U e'| ≤ |U s| / 2 ^ 53 := by
      have r : Rep (re a.units b.units) := by rw [← k6]; exact k3.rep
      have := re_lo r
      rw [← k6, ← k5] at this
      rw [le_div_iff₀ (by positivity)]
      have h2 : ((2 ^ 53 * |e'.units| : ℤ) : ℚ) ≤ ((|s.units| : ℤ) : ℚ) := by exact_mod_cast this
      push_cast at h2
      unfold U
      linarith
    have hab : |U a + U b| ≤ |U s| * (1 + 1 / 2 ^ 53) := by
      rw [← k4]
      refine (abs_add_le _ _).trans ?_
      linarith
    have hb2 : |U b| ≤ |U s| * (201 / 100) := by linarith
    refine ⟨?_, fun _ => hb2⟩
    have t : U e = (U s + U e - (U a + U b)) + U e' := by linarith
    rw [t]
    refine (abs_add_le _ _).trans ?_
    linarith

/-- The order of what `renorm4` puts out. -/
theorem renorm4_slack {a b c d : F64} (fa : a.isFinite = true) (fb : b.isFinite = true) (fc : c.isFinite = true)
    (fd : d.isFinite = true) (hl : 20 * (|U a| + |U b| + |U c| + |U d|) ≤ (lim : ℚ)) :
    QS (toQ (renorm4 a b c d)) (1 / 2 ^ 49) ((|U c| + |U d|) * (4 / 2 ^ 53)) := by
  have nA := abs_nonneg (U a)
  have nB := abs_nonneg (U b)
  have nC := abs_nonneg (U c)
  have nD := abs_nonneg (U d)
  obtain ⟨x2, s3, q1, fx2, fs3, bx2, bs3, _, _, r3, _⟩ := qb_quick_rel fc fd (by linarith)
  have nx2 := abs_nonneg (U x2)
  have ns3 := abs_nonneg (U s3)
  obtain ⟨x1, s2, q2, fx1, fs2, bx1, bs2, _, _, r2, _⟩ := qb_quick_rel fb fx2 (by linarith)
  have nx1 := abs_nonneg (U x1)
  have ns2 := abs_nonneg (U s2)
  obtain ⟨s0, s1, q3, fs0, fs1, bs0, bs1, _, _, r1, c1⟩ := qb_quick_rel fa fx1 (by linarith)
  have ns0 := abs_nonneg (U s0)
  have ns1 := abs_nonneg (U s1)
  have hη : |U s3| ≤ (|U c| + |U d|) * (34 / 10 / 2 ^ 53) := by linarith
  unfold toQ renorm4
  rw [q1]; dsimp only
  rw [q2]; dsimp only
  rw [q3]; dsimp only
  clear q1 q2 q3
  have zz := U_zero
  split
  · rename_i h1
    have h1' : U s1 ≠ 0 := by
      intro h
      rw [(ne_zero_false fs1).mpr h] at h1
      exact absurd h1 (by simp)
    have c1 := c1 h1'
    obtain ⟨t1, t2, p1, ft1, ft2, bt1, bt2, _, _, rt, _⟩ := qb_quick_rel fs1 fs2 (by linarith)
    have nt1 := abs_nonneg (U t1)
    have nt2 := abs_nonneg (U t2)
    rw [p1]; dsimp only
    split
    · obtain ⟨v2, v3, p2, fv2, fv3, bv2, bv3, _, _, rv, _⟩ := qb_quick_rel ft2 fs3 (by linarith)
      have nv2 := abs_nonneg (U v2)
      rw [p2]; dsimp only
      exact ⟨fs0, ft1, fv2, fv3, by dsimp only; linarith, by dsimp only; linarith, by dsimp only; linarith⟩
    · obtain ⟨v2, v3, p2, fv2, fv3, bv2, bv3, _, _, rv, _⟩ := qb_quick_rel ft1 fs3 (by linarith)
      have nv2 := abs_nonneg (U v2)
      rw [p2]; dsimp only
      exact ⟨fs0, fv2, fv3, is_zero.1, by dsimp only; linarith, by dsimp only; linarith, by
        dsimp only; rw [zz, abs_zero]; have := abs_nonneg (U v3); linarith⟩
  · obtain ⟨t1, t2, p1, ft1, ft2, bt1, bt2, _, _, rt, _⟩ := qb_quick_rel fs0 fs2 (by linarith)
    have nt1 := abs_nonneg (U t1)
    have nt2 := abs_nonneg (U t2)
    rw [p1]; dsimp only
    split
    · obtain ⟨v2, v3, p2, fv2, fv3, bv2, bv3, _, _, rv, _⟩ := qb_quick_rel ft2 fs3 (by linarith)
      have nv2 := abs_nonneg (U v2)
      rw [p2]; dsimp only
      exact ⟨ft1, fv2, fv3, is_zero.1, by dsimp only; linarith, by dsimp only; linarith, by
        dsimp only; rw [zz, abs_zero]; have := abs_nonneg (U v3); linarith⟩
    · obtain ⟨v2, v3, p2, fv2, fv3, bv2, bv3, _, _, rv, _⟩ := qb_quick_rel ft1 fs3 (by linarith)
      have nv2 := abs_nonneg (U v2)
      rw [p2]; dsimp only
      exact ⟨fv2, fv3, is_zero.1, is_zero.1, by dsimp only; linarith, by
        dsimp only; rw [zz, abs_zero]; have := abs_nonneg (U v3); linarith, by
        dsimp only; rw [zz, abs_zero]; linarith⟩

set_option maxHeartbeats 2000000 in
/-- The sum in units. -/
theorem add_slack {a b : Quad} {r η S T1 T2 T3 : ℚ} (N : Lev a b r η S T1 T2 T3) :
    (a + b).Fin ∧ QS (a + b) (1 / 2 ^ 49) (340 * T2 / 2 ^ 53) ∧
      |UQ (a + b) - (UQ a + UQ b)| ≤ 700 * T3 + 3 * S / 2 ^ 53 ∧
      (S ≤ |U a.c0| ∨ S ≤ |U b.c0| → |UQ (a + b) - (UQ a + UQ b)| ≤ 700 * T3) := by
  have hS0 := N.nonneg
  have n3 := N.n3
  have s1 := N.s1
  have s2 := N.s2
  have s3 := N.s3
  have u1 := N.u1
  have u2 := N.u2
  have u3 := N.u3
  have hl := N.hl
  have o := N.toOps
  obtain ⟨t0, i0, j0, hp0, hij0, m0, ft0, hor0, ga, gb, hsum0⟩ := spick_step o (smg_zero a b η) (by omega)
  obtain ⟨t1, i1, j1, hp1, hij1, m1, ft1, hor1, _, _, hsum1⟩ := spick_step o m0 (by omega)
  have hb0 : |U t0| ≤ S := by
    rcases hor0 with rfl | rfl
    · exact N.sa
    · exact N.sb
  have hη4 : 4 * η ≤ T3 := by
    have := N.t3
    have := mul_nonneg hS0 (pow_nonneg N.hr 3)
    have := N.hη
    linarith
  have hb1 : |U t1| ≤ S * (1 + 1 / 1000000) := by
    rcases hor1 with rfl | rfl
    · have := m0.head_a o hS0 N.sa N.sb (k := 0) (by omega)
      rw [pow_zero, mul_one] at this
      linarith
    · have := m0.symm.head_a o.symm hS0 N.sb N.sa (k := 0) (by omega)
      rw [pow_zero, mul_one] at this
      linarith
  have nt0 := abs_nonneg (U t0)
  have nt1 := abs_nonneg (U t1)
  obtain ⟨g, hgd⟩ : ∃ g : Prop, g = ¬ (S ≤ |U a.c0| ∨ S ≤ |U b.c0|) := ⟨_, rfl⟩
  have hg0 : g ∨ S ≤ |U t0| := by
    by_cases h : S ≤ |U a.c0| ∨ S ≤ |U b.c0|
    · right
      rcases h with h | h
      · exact h.trans ga
      · exact h.trans gb
    · left; rw [hgd]; exact h
  have hb1' : g ∨ |U t1| ≤ |U t0| := by
    rcases hg0 with h | h
    · exact .inl h
    · right
      have key : ∀ {q : Quad}, QS q r η → |U q.c0| ≤ S → |U (comp q 1)| ≤ S := by
        intro q hq h0
        have h1 : |U (comp q 1)| ≤ r * |U q.c0| + η := hq.d1
        have h2 := mul_le_mul_of_nonneg_right N.hr2 (abs_nonneg (U q.c0))
        linarith
      have h4 := m0.hi
      have h5 := m0.hj
      refine le_trans ?_ h
      have hij : (i0 = 0 ∧ j0 = 1) ∨ (i0 = 1 ∧ j0 = 0) := by omega
      rcases hij with ⟨rfl, rfl⟩ | ⟨rfl, rfl⟩ <;> rcases hor1 with rfl | rfl
      · exact N.sa
      · exact key N.ob N.sb
      · exact key N.oa N.sa
      · exact N.sb
  obtain ⟨u, v, hq, fu, fv, bu, bv, huv', huv, rv, _⟩ := qb_quick_rel ft0 ft1 (by linarith)
  have nu := abs_nonneg (U u)
  have nv := abs_nonneg (U v)
  have huv'' := abs_le.mp huv'
  have out := sloop0 (g := g) N 8 u v i1 j1 m1 (by omega) (by omega)
    ⟨fu, (by rw [hij1, hij0]; push_cast; linarith)⟩ ⟨fv, by linarith⟩ (by
      intro _ hv
      rcases hg0 with h | h
      · exact .inl h
      have h1 := hb1'
      rcases h1 with h1 | h1
      · exact .inl h1
      right
      have e := huv h1
      obtain ⟨u', v', hq', _, _, _, _, uv⟩ := qb_quick ⟨ft0, le_refl _⟩ ⟨ft1, le_refl _⟩ (.of_abs_le (Is.of_finite ft0).rep
        (Is.of_finite ft1).rep (by unfold U at h1; exact_mod_cast h1)) (by linarith)
      rw [hq, Prod.mk.injEq] at hq'
      rw [hq'.2, uv] at hv
      have := (inexact_le (Is.of_finite ft0).rep (Is.of_finite ft1).rep hv).1
      have h2 : |U t0| ≤ 2 * |U t0 + U t1| := by unfold U; exact_mod_cast this
      have h3 : |U t0 + U t1| ≤ |U u| + |U v| := by rw [← e]; exact abs_add_le _ _
      linarith) (by omega)
  obtain ⟨r, hr⟩ : ∃ r, addLoop 8 u v (rest a i1) (rest b j1) [] = r := ⟨_, rfl⟩
  rw [hr] at out
  obtain ⟨x, la, lb⟩ := r
  have f0 := out.f0
  have f1 := out.f1
  have f2 := out.f2
  have hdom := out.dom
  have hsum := out.sum
  have hfold := fold_two out.f3 out.la out.lb out.len n3 (by linarith)
  dsimp only at f0 f1 f2 hdom hsum hfold
  have hval : a + b = toQ (renorm4 (x.getD 0 F64.zero) (x.getD 1 F64.zero) (x.getD 2 F64.zero)
      (lb.foldl F64.add (la.foldl F64.add (x.getD 3 F64.zero)))) := by
    show Quad.add a b = _
    unfold Quad.add
    rw [quad_preAdd_none N.oa.f0 N.ob.f0]
    dsimp only
    have h00 : pick [a.c0, a.c1, a.c2, a.c3] [b.c0, b.c1, b.c2, b.c3] = (t0, rest a i0, rest b j0) := hp0
    rw [h00]; dsimp only
    rw [hp1]; dsimp only
    unfold renorm2
    rw [hq]; dsimp only
    rw [hr]
    rfl
  rw [hval]
  have hT : U u + U v + sumU (rest a i1) + sumU (rest b j1) - (UQ a + UQ b) = U u + U v - (U t0 + U t1) := by
    rw [← UQ_sum a, ← UQ_sum b]; linarith
  clear hval hr hp0 hp1 hq
  generalize x.getD 0 F64.zero = x0 at *
  generalize x.getD 1 F64.zero = x1 at *
  generalize x.getD 2 F64.zero = x2 at *
  have f3' := out.f3
  dsimp only at f3'
  generalize x.getD 3 F64.zero = x3 at *
  generalize List.foldl F64.add (List.foldl F64.add x3 la) lb = y3 at *
  obtain ⟨fy, ey⟩ := hfold
  have h0 := f0.le
  have h1 := f1.le
  have h2 := f2.le
  have h3 := fy.le
  have n0 := abs_nonneg (U x0)
  have k1 := abs_nonneg (U x1)
  have k2 := abs_nonneg (U x2)
  have k3 := abs_nonneg (U y3)
  have f3 := f3'.le
  have ey' := abs_le.mp ey
  have fl1 : |sumU la + sumU lb| ≤ 2 * T3 := by
    have key : ∀ l : List F64, (∀ y ∈ l, Fb y T3) → |sumU l| ≤ l.length * T3 := by
      intro l
      induction l with
      | nil => intro _; simp [sumU_nil]
      | cons p l ih =>
        intro h
        rw [sumU_cons]
        have := ih (fun y hy => h y (by simp [hy]))
        have := (h p (by simp)).le
        have := abs_add_le (U p) (sumU l)
        push_cast [List.length_cons]
        linarith
    have ka := key la out.la
    have kb := key lb out.lb
    have hlen : ((la.length : ℚ) + lb.length) * T3 ≤ 2 * T3 :=
      mul_le_mul_of_nonneg_right (by exact_mod_cast out.len) n3
    have := abs_add_le (sumU la) (sumU lb)
    linarith
  have hdom3 : |U y3| ≤ |U x3| + 100 * T3 := by
    have t1 : |U y3| ≤ |U y3 - (U x3 + sumU la + sumU lb)| + |U x3| + |sumU la + sumU lb| := by
      have e : U y3 = (U y3 - (U x3 + sumU la + sumU lb)) + (U x3 + (sumU la + sumU lb)) := by ring
      have k1 := abs_add_le (U y3 - (U x3 + sumU la + sumU lb)) (U x3 + (sumU la + sumU lb))
      have k2 := abs_add_le (U x3) (sumU la + sumU lb)
      rw [← e] at k1
      linarith
    linarith
  have eq : UQ (toQ (renorm4 x0 x1 x2 y3)) = U (renorm4 x0 x1 x2 y3).1 + U (renorm4 x0 x1 x2 y3).2.1 +
      U (renorm4 x0 x1 x2 y3).2.2.1 + U (renorm4 x0 x1 x2 y3).2.2.2 := rfl
  have se := abs_le.mp hsum
  have QSl := renorm4_slack f0.fin f1.fin f2.fin fy.fin (by linarith)
  have R0 := renorm4_sum (Z := 23 * T1) f0 f1 f2 fy (by linarith) (by linarith) (.inr (by linarith))
  refine ⟨⟨R0.f0, R0.f1, R0.f2, R0.f3⟩, QSl.mono (le_refl _) (by linarith), ?_, fun hS => ?_⟩
  · have re := abs_le.mp R0.err
    rw [eq]
    exact abs_le.mpr ⟨by linarith, by linarith⟩
  · have ng : ¬ g := by rw [hgd]; exact not_not.mpr hS
    have e := huv (hb1'.resolve_left ng)
    have hZ : (|U x1| + |U x2| + |U y3|) * (101 / 100) ≤ |U x0| ∨ |U x1| + |U x2| + |U y3| ≤ 77 * T2 := by
      rcases hdom with hd | hd | ⟨d1, d2, d3⟩
      · exact absurd hd ng
      · left; linarith
      · by_cases hc : 80 * T2 ≤ |U x0|
        · left; linarith
        · right; push Not at hc; linarith
    have R := renorm4_sum f0 f1 f2 fy (by linarith) (by linarith) hZ
    have re := abs_le.mp R.err
    rw [eq]
    exact abs_le.mpr ⟨by linarith, by linarith⟩

end Verif
