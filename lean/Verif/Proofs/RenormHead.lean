import Verif.Proofs.Renorm5

/-!
# `renorm5`: the first component is what the first two round to, or nearly so
-/

namespace Verif

open F64 Prim Util

theorem re_half {x y s : F64} {z : ℤ} (h1 : s.units = rs x.units y.units) (h2 : z = re x.units y.units) :
    2 * |(z : ℚ)| ≤ 2 ^ expo (s.units : ℚ) := by
  have : 2 * |z| ≤ 2 ^ expo (s.units : ℚ) := by
    rw [h2]; apply re_lt_of_rs; rw [← h1]; exact expo_int_lt _
  exact_mod_cast this

set_option maxHeartbeats 2000000 in
theorem renorm5_head {a b c d e : F64} {M : ℚ} (fa : Fb a (2 * M)) (ha : M ≤ 2 * |U a|)
    (fb : Fb b (M / 2 ^ 40)) (fc : Fb c (M / 2 ^ 80)) (fd : Fb d (M / 2 ^ 80)) (fe : Fb e (M / 2 ^ 80))
    (hl : 20 * M ≤ (lim : ℚ)) :
    2 * |U (renorm5 a b c d e).2.1| ≤ 2 ^ expo ((renorm5 a b c d e).1.units : ℚ) + M / 2 ^ 70 := by
  have hM : 0 ≤ M := by have := fa.nonneg; linarith
  obtain ⟨x3, s4, q1, fx3, fs4, -⟩ := qb_quick_any fd fe (by linarith)
  obtain ⟨x2, s3, q2, fx2, fs3, -⟩ := qb_quick_any fc fx3 (by linarith)
  obtain ⟨x1, s2, q3, fx1, fs2, -⟩ := qb_quick_any fb fx2 (by linarith)
  have ga : |x1.units| ≤ |a.units| := by
    have : |U x1| ≤ |U a| := by
      have := fx1.le
      linarith
    unfold U at this
    exact_mod_cast this
  obtain ⟨s0, s1, q4, fs0, fs1, e4, us0, us1⟩ := qb_quick fa fx1 (.of_abs_le fa.rep fx1.rep ga) (by linarith)
  have fs4 : Fb s4 (M / 2 ^ 78) := fs4.mono (by linarith)
  have fs3 : Fb s3 (M / 2 ^ 78) := fs3.mono (by linarith)
  have fs2 : Fb s2 (M / 2 ^ 78) := fs2.mono (by linarith)
  have h1 := re_half us0 us1
  have fs1' : Fb s1 (2 ^ expo (s0.units : ℚ) / 2) := ⟨fs1.fin, by unfold U; linarith⟩
  have l0 : M / 4 ≤ |U s0| := by
    have h2 := fs1.le
    have h3 := fx1.le
    have : |U a| ≤ |U s0| + |U s1| + |U x1| := by
      rw [show U a = U s0 + U s1 - U x1 by linarith]
      exact (abs_sub _ _).trans (add_le_add_left (abs_add_le _ _) _)
    linarith
  have fs0 : Fb s0 (3 * M) := fs0.mono (by linarith)
  have fs1 : Fb s1 (3 * (M / 2 ^ 53)) := fs1.mono (by linarith)
  have gab : ∀ {x y : F64} {K L : ℚ}, Fb x K → Fb y L → |U y| ≤ |U x| → Grid x.units y.units := by
    intro x y K L fx fy h
    refine .of_abs_le fx.rep fy.rep ?_
    unfold U at h
    exact_mod_cast h
  unfold renorm5
  rw [q1]; dsimp only
  rw [q2]; dsimp only
  rw [q3]; dsimp only
  rw [q4]; dsimp only
  clear q1 q2 q3 q4
  split
  · -- the second component comes from `s1`
    have keep : ∀ {x y : F64} {E : ℚ}, |U x| ≤ 2 ^ expo (s0.units : ℚ) / 2 + E → Fb x (4 * (M / 2 ^ 53)) → Fb y (M / 2 ^ 78) →
        |U (F64.add x y)| ≤ 2 ^ expo (s0.units : ℚ) / 2 + (E + M / 2 ^ 77) := by
      intro x y E h fx fy
      obtain ⟨_, z⟩ := qb_add fx fy (by linarith)
      have hy := fy.le
      have : |U (F64.add x y)| ≤ |U x| + |U y| + (4 * (M / 2 ^ 53) + M / 2 ^ 78) / 2 ^ 53 := by
        have := abs_sub_abs_le_abs_sub (U (F64.add x y)) (U x + U y)
        have := abs_add_le (U x) (U y)
        linarith
      linarith
    have kq : ∀ {x y s t : F64} {E K : ℚ}, quickTwoSum x y = (s, t) → |U x| ≤ 2 ^ expo (s0.units : ℚ) / 2 + E → Fb x K → K ≤ 4 * (M / 2 ^ 53) →
        Fb y (M / 2 ^ 78) → |U s| ≤ 2 ^ expo (s0.units : ℚ) / 2 + (E + M / 2 ^ 77) := by
      intro x y s t E K h h1 h2 h3 h4
      have : F64.add x y = s := congrArg Prod.fst h
      rw [← this]
      exact keep h1 (h2.mono h3) h4
    have b0 : |U s1| ≤ 2 ^ expo (s0.units : ℚ) / 2 + 0 := by rw [add_zero]; exact fs1'.le
    obtain ⟨t1, t2, p1, ft1, ft2, -⟩ := qb_quick_any fs1 fs2 (by linarith)
    have b1 := kq p1 b0 fs1 (by linarith) fs2
    rw [p1]; dsimp only
    split
    · split <;> (dsimp only; linarith)
    · obtain ⟨v2, v3, p2, fv2, fv3, -⟩ := qb_quick_any ft1 fs3 (by linarith)
      have b2 := kq p2 b1 ft1 (by linarith) fs3
      rw [p2]; dsimp only
      split
      · dsimp only; linarith
      · obtain ⟨w2, w3, p3, fw2, fw3, -⟩ := qb_quick_any fv2 fs4 (by linarith)
        have b3 := kq p3 b2 fv2 (by linarith) fs4
        rw [p3]; dsimp only; linarith
  · have hs2 := fs2.le
    have hs3 := fs3.le
    have hs4 := fs4.le
    obtain ⟨t1, t2, p1, ft1, ft2, e5, u1, u2⟩ := qb_quick fs0 fs2 (gab fs0 fs2 (by linarith)) (by linarith)
    have k1 := re_half u1 u2
    change 2 * |U t2| ≤ _ at k1
    have l1 : M / 5 ≤ |U t1| := by
      have h2 := ft2.le
      have : |U s0| ≤ |U t1| + |U t2| + |U s2| := by
        rw [show U s0 = U t1 + U t2 - U s2 by linarith]
        exact (abs_sub _ _).trans (add_le_add_left (abs_add_le _ _) _)
      linarith
    rw [p1]; dsimp only
    have add2 : ∀ {x y s t : F64} {E K : ℚ}, quickTwoSum x y = (s, t) → Fb x K → K ≤ 4 * (M / 2 ^ 53) →
        Fb y (M / 2 ^ 78) → |U s| ≤ |U x| + M / 2 ^ 77 := by
      intro x y s t E K h h2 h3 h4
      have e : F64.add x y = s := congrArg Prod.fst h
      obtain ⟨_, z⟩ := qb_add (h2.mono h3) h4 (by linarith)
      rw [e] at z
      have := abs_sub_abs_le_abs_sub (U s) (U x + U y)
      have := abs_add_le (U x) (U y)
      have := h4.le
      linarith
    split
    · obtain ⟨v2, v3, p2, fv2, fv3, -⟩ := qb_quick_any ft2 fs3 (by linarith)
      have b1 := add2 (E := 0) p2 ft2 (by linarith) fs3
      rw [p2]; dsimp only
      split
      · dsimp only; linarith
      · obtain ⟨w2, w3, p3, fw2, fw3, -⟩ := qb_quick_any fv2 fs4 (by linarith)
        have b2 := add2 (E := 0) p3 fv2 (by linarith) fs4
        rw [p3]; dsimp only; linarith
    · obtain ⟨v2, v3, p2, fv2, fv3, e6, u3, u4⟩ := qb_quick ft1 fs3 (gab ft1 fs3 (by linarith)) (by linarith)
      have k2 := re_half u3 u4
      change 2 * |U v3| ≤ _ at k2
      have l2 : M / 6 ≤ |U v2| := by
        have h2 := fv3.le
        have : |U t1| ≤ |U v2| + |U v3| + |U s3| := by
          rw [show U t1 = U v2 + U v3 - U s3 by linarith]
          exact (abs_sub _ _).trans (add_le_add_left (abs_add_le _ _) _)
        linarith
      rw [p2]; dsimp only
      split
      · obtain ⟨w2, w3, p3, fw2, fw3, -⟩ := qb_quick_any fv3 fs4 (by linarith)
        have b2 := add2 (E := 0) p3 fv3 (by linarith) fs4
        rw [p3]; dsimp only; linarith
      · obtain ⟨w2, w3, p3, fw2, fw3, e7, u5, u6⟩ := qb_quick fv2 fs4 (gab fv2 fs4 (by linarith)) (by linarith)
        have k3 := re_half u5 u6
        change 2 * |U w3| ≤ _ at k3
        rw [p3]; dsimp only; linarith [show 0 ≤ M / 2 ^ 70 by positivity]

end Verif
