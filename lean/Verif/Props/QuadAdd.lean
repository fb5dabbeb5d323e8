import Verif.Proofs.QuadAddLoop2
import Verif.Props.QuadMul

/-!
# C50: how accurate Quad addition is
-/

namespace Verif

open F64 Prim Util Quad

theorem quad_preAdd_none {a b : Quad} (fa : a.c0.isFinite = true) (fb : b.c0.isFinite = true) : Quad.preAdd a b = none := by
  have ia := Is.of_finite fa
  have ib := Is.of_finite fb
  have n1 : a.isNan = false := ia.not_nan
  have n2 : b.isNan = false := ib.not_nan
  have i1 : a.isInfinite = false := ia.not_inf
  have i2 : b.isInfinite = false := ib.not_inf
  unfold Quad.preAdd
  rw [n1, n2, i1, i2]
  simp

theorem UQ_sum (q : Quad) : sumU (rest q 0) = UQ q := by
  simp only [rest, sumU_cons, sumU_nil, UQ]; ring

/-- Four components as a Quad. -/
def toQ (p : F64 × F64 × F64 × F64) : Quad := ⟨p.1, p.2.1, p.2.2.1, p.2.2.2⟩

set_option maxHeartbeats 1000000 in
/-- The sum in units. -/
theorem add_units {a b : Quad} {S : ℚ} (N : Nxt a b S) (hS : S ≤ |U a.c0| ∨ S ≤ |U b.c0|) :
    (a + b).Fin ∧ |UQ (a + b) - (UQ a + UQ b)| ≤ 500 * S / 2 ^ 159 := by
  have hS0 := N.nonneg
  have hl := N.hl
  have oa := N.oa
  have ob := N.ob
  obtain ⟨t0, i0, j0, hp0, hij0, m0, ft0, hor0, ga, gb, hsum0⟩ := pick_step oa ob (mg_zero a b) (by omega)
  obtain ⟨t1, i1, j1, hp1, hij1, m1, ft1, hor1, _, _, hsum1⟩ := pick_step oa ob m0 (by omega)
  have hb0 : |U t0| ≤ S := by
    rcases hor0 with rfl | rfl
    · exact N.sa
    · exact N.sb
  have hg0 : S ≤ |U t0| := by
    rcases hS with h | h
    · exact h.trans ga
    · exact h.trans gb
  have hb1 : |U t1| ≤ S := by
    rcases hor1 with rfl | rfl
    · simpa using m0.head_a oa ob hS0 N.sa N.sb (k := 0) (by omega)
    · simpa using m0.symm.head_a ob oa hS0 N.sb N.sa (k := 0) (by omega)
  have g : Grid t0.units t1.units := .of_abs_le (Is.of_finite ft0).rep (Is.of_finite ft1).rep (by
    have := hb1.trans hg0
    unfold U at this; exact_mod_cast this)
  obtain ⟨u, v, hq, fu, fv, huv, uu, uv⟩ := qb_quick ⟨ft0, hb0⟩ ⟨ft1, hb1⟩ g (by linarith)
  have hv1 := fv.le
  have out := loop0 N 8 u v i1 j1 m1 (by omega) (by omega)
    (fu.mono (by rw [hij1, hij0]; push_cast; linarith)) (fv.mono (by linarith)) (by
      intro _ hv
      rw [uv] at hv
      have := (inexact_le (Is.of_finite ft0).rep (Is.of_finite ft1).rep hv).1
      have h2 : |U t0| ≤ 2 * |U t0 + U t1| := by unfold U; exact_mod_cast this
      have h3 : |U t0 + U t1| ≤ |U u| + |U v| := by rw [← huv]; exact abs_add_le _ _
      linarith) (by omega)
  have hT : U u + U v + sumU (rest a i1) + sumU (rest b j1) = UQ a + UQ b := by
    rw [← UQ_sum a, ← UQ_sum b]; linarith
  rw [hT] at out
  obtain ⟨r, hr⟩ : ∃ r, addLoop 8 u v (rest a i1) (rest b j1) [] = r := ⟨_, rfl⟩
  rw [hr] at out
  obtain ⟨x, la, lb⟩ := r
  have f0 := out.f0
  have f1 := out.f1
  have f2 := out.f2
  have hdom := out.dom
  have hsum := out.sum
  have hfold := fold_two out.f3 out.la out.lb out.len (by positivity) (by linarith)
  dsimp only at f0 f1 f2 hdom hsum hfold
  have hval : a + b = toQ (renorm4 (x.getD 0 F64.zero) (x.getD 1 F64.zero) (x.getD 2 F64.zero)
      (lb.foldl F64.add (la.foldl F64.add (x.getD 3 F64.zero)))) := by
    show Quad.add a b = _
    unfold Quad.add
    rw [quad_preAdd_none oa.f0 ob.f0]
    dsimp only
    have h00 : pick [a.c0, a.c1, a.c2, a.c3] [b.c0, b.c1, b.c2, b.c3] = (t0, rest a i0, rest b j0) := hp0
    rw [h00]; dsimp only
    rw [hp1]; dsimp only
    unfold renorm2
    rw [hq]; dsimp only
    rw [hr]
    rfl
  rw [hval]
  clear hval hr hp0 hp1 hq hT
  generalize x.getD 0 F64.zero = x0 at *
  generalize x.getD 1 F64.zero = x1 at *
  generalize x.getD 2 F64.zero = x2 at *
  generalize x.getD 3 F64.zero = x3 at *
  generalize List.foldl F64.add (List.foldl F64.add x3 la) lb = y3 at *
  obtain ⟨fy, ey⟩ := hfold
  have h1 := f1.le
  have h2 := f2.le
  have h3 := fy.le
  have n0 := abs_nonneg (U x0)
  have f3 := out.f3.le
  have ey' := abs_le.mp ey
  have fl1 : |sumU la + sumU lb| ≤ 16 * S / 2 ^ 159 := by
    have key : ∀ l : List F64, (∀ y ∈ l, Fb y (8 * S / 2 ^ 159)) → |sumU l| ≤ l.length * (8 * S / 2 ^ 159) := by
      intro l
      induction l with
      | nil => intro _; simp [sumU_nil]
      | cons p l ih =>
        intro h
        rw [sumU_cons]
        have := ih (fun y hy => h y (by simp [hy]))
        have := (h p (by simp)).le
        have := abs_add_le (U p) (sumU l)
        push_cast [List.length_cons]
        linarith
    have ka := key la out.la
    have kb := key lb out.lb
    have hlen : ((la.length : ℚ) + lb.length) * (8 * S / 2 ^ 159) ≤ 2 * (8 * S / 2 ^ 159) :=
      mul_le_mul_of_nonneg_right (by exact_mod_cast out.len) (by positivity)
    have := abs_add_le (sumU la) (sumU lb)
    linarith
  have hdom3 : |U y3| ≤ |U x3| + 100 * S / 2 ^ 159 := by
    have t1 : |U y3| ≤ |U y3 - (U x3 + sumU la + sumU lb)| + |U x3| + |sumU la + sumU lb| := by
      have e : U y3 = (U y3 - (U x3 + sumU la + sumU lb)) + (U x3 + (sumU la + sumU lb)) := by ring
      have k1 := abs_add_le (U y3 - (U x3 + sumU la + sumU lb)) (U x3 + (sumU la + sumU lb))
      have k2 := abs_add_le (U x3) (sumU la + sumU lb)
      rw [← e] at k1
      linarith
    linarith
  have hZ : (|U x1| + |U x2| + |U y3|) * (101 / 100) ≤ |U x0| ∨ |U x1| + |U x2| + |U y3| ≤ 77 * S / 2 ^ 106 := by
    rcases hdom with hd | ⟨d1, d2, d3⟩
    · left; linarith
    · by_cases hc : 80 * S / 2 ^ 106 ≤ |U x0|
      · left; linarith
      · right; push Not at hc; linarith
  have R := renorm4_sum f0 f1 f2 fy (by linarith) (by positivity) hZ
  refine ⟨⟨R.f0, R.f1, R.f2, R.f3⟩, ?_⟩
  have re := abs_le.mp R.err
  have se := abs_le.mp hsum
  have eq : UQ (toQ (renorm4 x0 x1 x2 y3)) = U (renorm4 x0 x1 x2 y3).1 + U (renorm4 x0 x1 x2 y3).2.1 +
      U (renorm4 x0 x1 x2 y3).2.2.1 + U (renorm4 x0 x1 x2 y3).2.2.2 := rfl
  rw [eq]
  exact abs_le.mpr ⟨by linarith, by linarith⟩

/-- **C50.** For all ordered operands up to `2^1016` (every component at most `2^-52` times the one before it, so in
particular for all normalized ones), of any signs: all components of the sum are finite, and it differs from the exact sum
of the exact values by at most `2^-150` of the larger operand. (`C50_refuted`: not by `2^-169`.) -/
theorem C50_accurate (a b : Quad) (ha : a.Ordered) (hb : b.Ordered)
    (ha' : |a.c0.toRat| ≤ 2 ^ 1016) (hb' : |b.c0.toRat| ≤ 2 ^ 1016) :
    (a + b).Fin ∧ |(a + b).val - (a.val + b.val)| ≤ max |a.val| |b.val| / 2 ^ 150 := by
  have oa := qord_of ha
  have ob := qord_of hb
  obtain ⟨S, hSd⟩ : ∃ S, max |U a.c0| |U b.c0| = S := ⟨_, rfl⟩
  have hsa : |U a.c0| ≤ S := hSd ▸ le_max_left _ _
  have hsb : |U b.c0| ≤ S := hSd ▸ le_max_right _ _
  have hS : S ≤ |U a.c0| ∨ S ≤ |U b.c0| := by rw [← hSd]; exact le_max_iff.mp (le_refl _)
  have hlim : 100 * S ≤ (lim : ℚ) := by
    have key : ∀ {x : F64}, x.isFinite = true → |x.toRat| ≤ 2 ^ 1016 → |U x| ≤ 2 ^ (1016 + 1074) := by
      intro x fx hx
      rw [(Is.of_finite fx).toRat, abs_div, abs_of_pos one'_posQ, div_le_iff₀ one'_posQ, one'_pow, ← pow_add] at hx
      exact hx
    have : S ≤ 2 ^ (1016 + 1074) := by
      rw [← hSd]; exact max_le (key oa.f0 ha') (key ob.f0 hb')
    have e : (lim : ℚ) = 3 * 2 ^ 6 * 2 ^ (1016 + 1074) := by
      unfold lim; push_cast; rw [mul_assoc, ← pow_add]
    rw [e]
    have n := abs_nonneg (U a.c0)
    clear key e ha' hb'
    generalize (2:ℚ) ^ (1016 + 1074) = P at *
    linarith
  obtain ⟨hf, he⟩ := add_units ⟨oa, ob, hsa, hsb, hlim⟩ hS
  refine ⟨hf, ?_⟩
  rw [quad_val_UQ hf, quad_val_UQ ha.1, quad_val_UQ hb.1, ← add_div, ← sub_div, abs_div, abs_div, abs_div, abs_of_pos one'_posQ,
    max_div_div_right one'_posQ.le, div_right_comm]
  refine div_le_div_of_nonneg_right (he.trans ?_) one'_posQ.le
  have h1 := (lead_le oa).1
  have h2 := (lead_le ob).1
  have m1 := le_max_left |UQ a| |UQ b|
  have m2 := le_max_right |UQ a| |UQ b|
  have := abs_nonneg (UQ a)
  have : S ≤ max |UQ a| |UQ b| * (1 + 1 / 2 ^ 50) := by
    rcases hS with h | h <;> linarith
  linarith

/-- Operands that meet the hypotheses. -/
example : Quad.PI.Ordered ∧ (-Quad.E).Ordered ∧ |Quad.PI.c0.toRat| ≤ 2 ^ 1016 ∧ |(-Quad.E).c0.toRat| ≤ 2 ^ 1016 := by
  decide +kernel

/-- **C50.** Normalized operands are ordered, so the bound holds for all of them. -/
theorem C50_normalized (a b : Quad) (ha : a.Normalized) (hb : b.Normalized)
    (ha' : |a.c0.toRat| ≤ 2 ^ 1016) (hb' : |b.c0.toRat| ≤ 2 ^ 1016) :
    (a + b).Fin ∧ |(a + b).val - (a.val + b.val)| ≤ max |a.val| |b.val| / 2 ^ 150 := by
  have qa := QIs.of_fin ha.1
  have qb := QIs.of_fin hb.1
  exact C50_accurate a b (qa.ordered_iff.mpr (qa.normalized_iff.mp ha).ord) (qb.ordered_iff.mpr (qb.normalized_iff.mp hb).ord)
    ha' hb'

example : Quad.PI.Normalized ∧ Quad.E.Normalized := by decide +kernel

end Verif
