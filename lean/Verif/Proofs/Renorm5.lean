import Verif.Proofs.QuadEft

/-!
# `renorm5`: what it loses

`M` is the scale of the first component; the others are smaller by about `2^-53` each.
-/

namespace Verif

open F64 Prim Util

/-- Four finite components whose sum is within `δ` of `T`. -/
structure Sum4 (p : F64 × F64 × F64 × F64) (T δ : ℚ) : Prop where
  f0 : p.1.isFinite = true
  f1 : p.2.1.isFinite = true
  f2 : p.2.2.1.isFinite = true
  f3 : p.2.2.2.isFinite = true
  err : |U p.1 + U p.2.1 + U p.2.2.1 + U p.2.2.2 - T| ≤ δ

theorem ne_zero_false {x : F64} (h : x.isFinite = true) : F64.ne x F64.zero = false ↔ U x = 0 := by
  have := is_ne_zero (Is.of_finite h)
  unfold U
  rw [← Bool.not_eq_true, this]
  push Not
  exact Int.cast_eq_zero.symm

set_option maxHeartbeats 4000000 in
theorem renorm5_sum {a b c d e : F64} {M : ℚ} (hM : 0 ≤ M) (fa : Fb a (2 * M))
    (ha : M ≤ 2 * |U a|)
    (fb : Fb b (8 * (M / 2 ^ 53))) (fc : Fb c (32 * (M / 2 ^ 106))) (fd : Fb d (140 * (M / 2 ^ 159)))
    (fe : Fb e (1024 * (M / 2 ^ 212))) (hg : Grid b.units (rs c.units (rs d.units e.units)))
    (hl : 20 * M ≤ (lim : ℚ)) :
    Sum4 (renorm5 a b c d e) (U a + U b + U c + U d + U e) (200 * (M / 2 ^ 212)) := by
  obtain ⟨x3, s4, q1, fx3, fs4, e1⟩ := qb_quick_any fd fe (by linarith)
  have ux3 : x3.units = rs d.units e.units := by
    have hx : F64.add d e = x3 := congrArg Prod.fst q1
    obtain ⟨s, _, h1, _, _, _, h2, _⟩ := qb_two fd fe (by linarith)
    have : F64.add d e = s := congrArg Prod.fst h1
    rw [← hx, this, h2]
  obtain ⟨x2, s3, q2, fx2, fs3, e2⟩ := qb_quick_any fc fx3 (by linarith)
  have ux2 : x2.units = rs c.units x3.units := by
    have hx : F64.add c x3 = x2 := congrArg Prod.fst q2
    obtain ⟨s, _, h1, _, _, _, h2, _⟩ := qb_two fc fx3 (by linarith)
    have : F64.add c x3 = s := congrArg Prod.fst h1
    rw [← hx, this, h2]
  rw [← ux3, ← ux2] at hg
  obtain ⟨x1, s2, q3, fx1, fs2, e3, ux1, us2⟩ := qb_quick fb fx2 hg (by linarith)
  have ga : |x1.units| ≤ |a.units| := by
    have : |U x1| ≤ |U a| := by
      have := fx1.le
      linarith
    unfold U at this
    exact_mod_cast this
  obtain ⟨s0, s1, q4, fs0, fs1, e4, us0, us1⟩ := qb_quick fa fx1 (.of_abs_le fa.rep fx1.rep ga) (by linarith)
  -- the grid of `x1`
  have hk : (2:ℤ) ^ expo (x1.units : ℚ) ∣ x1.units := fx1.rep.dvd
  have hka : (2:ℤ) ^ expo (x1.units : ℚ) ∣ a.units := fa.rep.dvd_of_abs_le ga
  have h0 : (2:ℤ) ^ expo (x1.units : ℚ) ∣ s0.units := by rw [us0]; exact dvd_rs hka hk
  have h1 : (2:ℤ) ^ expo (x1.units : ℚ) ∣ s1.units := by rw [us1]; exact dvd_re hka hk
  have h2 : 2 * |s2.units| ≤ 2 ^ expo (x1.units : ℚ) := by
    rw [us2]; apply re_lt_of_rs; rw [← ux1]; exact expo_int_lt _
  have g12 : Grid s1.units s2.units := grid_of_half fs1.rep fs2.rep (fun h => h2.trans (pow_le_of_dvd h1 h))
  have g02 : Grid s0.units s2.units := grid_of_half fs0.rep fs2.rep (fun h => h2.trans (pow_le_of_dvd h0 h))
  have fs4 : Fb s4 (141 * (M / 2 ^ 212)) := fs4.mono (by linarith)
  have fs3 : Fb s3 (33 * (M / 2 ^ 159)) := fs3.mono (by linarith)
  have fs2 : Fb s2 (9 * (M / 2 ^ 106)) := fs2.mono (by linarith)
  have fs1 : Fb s1 (3 * (M / 2 ^ 53)) := fs1.mono (by linarith)
  have fs0 : Fb s0 (3 * M) := fs0.mono (by linarith)
  have E1 := abs_le.mp e1
  have E2 : |U x2 + U s3 - (U c + U x3)| ≤ 143 * (M / 2 ^ 212) := e2.trans (by linarith)
  have E2 := abs_le.mp E2
  unfold renorm5
  rw [q1]; dsimp only
  rw [q2]; dsimp only
  rw [q3]; dsimp only
  rw [q4]; dsimp only
  clear q1 q2 q3 q4 hg ga hk hka h0 h1 h2 e1 e2
  split
  · obtain ⟨t1, t2, p1, ft1, ft2, z1, _, _⟩ := qb_quick fs1 fs2 g12 (by linarith)
    rw [p1]; dsimp only
    split
    · obtain ⟨v2, v3, p2, fv2, fv3, z2⟩ := qb_quick_any ft2 fs3 (by linarith)
      rw [p2]; dsimp only
      have z2 := abs_le.mp z2
      split
      · obtain ⟨fw, z3⟩ := qb_add fv3 fs4 (by linarith)
        have z3 := abs_le.mp z3
        exact ⟨fs0.fin, ft1.fin, fv2.fin, fw.fin, abs_le.mpr ⟨by dsimp only; linarith, by dsimp only; linarith⟩⟩
      · rename_i hz
        rw [Bool.not_eq_true, ne_zero_false fv3.fin] at hz
        obtain ⟨w2, w3, p3, fw2, fw3, z3⟩ := qb_quick_any fv2 fs4 (by linarith)
        rw [p3]; dsimp only
        have z3 := abs_le.mp z3
        exact ⟨fs0.fin, ft1.fin, fw2.fin, fw3.fin, abs_le.mpr ⟨by dsimp only; linarith, by dsimp only; linarith⟩⟩
    · rename_i hz
      rw [Bool.not_eq_true, ne_zero_false ft2.fin] at hz
      obtain ⟨v2, v3, p2, fv2, fv3, z2⟩ := qb_quick_any ft1 fs3 (by linarith)
      rw [p2]; dsimp only
      have z2 := abs_le.mp z2
      split
      · obtain ⟨w2, w3, p3, fw2, fw3, z3⟩ := qb_quick_any fv3 fs4 (by linarith)
        rw [p3]; dsimp only
        have z3 := abs_le.mp z3
        exact ⟨fs0.fin, fv2.fin, fw2.fin, fw3.fin, abs_le.mpr ⟨by dsimp only; linarith, by dsimp only; linarith⟩⟩
      · rename_i hz2
        rw [Bool.not_eq_true, ne_zero_false fv3.fin] at hz2
        obtain ⟨w2, w3, p3, fw2, fw3, z3⟩ := qb_quick_any fv2 fs4 (by linarith)
        rw [p3]; dsimp only
        have z3 := abs_le.mp z3
        have zz := U_is is_zero
        push_cast at zz
        exact ⟨fs0.fin, fw2.fin, fw3.fin, is_zero.1, abs_le.mpr ⟨by dsimp only; linarith, by dsimp only; linarith⟩⟩
  · rename_i hz0
    rw [Bool.not_eq_true, ne_zero_false fs1.fin] at hz0
    obtain ⟨t1, t2, p1, ft1, ft2, z1, _, _⟩ := qb_quick fs0 fs2 g02 (by linarith)
    rw [p1]; dsimp only
    have zz := U_is is_zero
    push_cast at zz
    split
    · obtain ⟨v2, v3, p2, fv2, fv3, z2⟩ := qb_quick_any ft2 fs3 (by linarith)
      rw [p2]; dsimp only
      have z2 := abs_le.mp z2
      split
      · obtain ⟨w2, w3, p3, fw2, fw3, z3⟩ := qb_quick_any fv3 fs4 (by linarith)
        rw [p3]; dsimp only
        have z3 := abs_le.mp z3
        exact ⟨ft1.fin, fv2.fin, fw2.fin, fw3.fin, abs_le.mpr ⟨by dsimp only; linarith, by dsimp only; linarith⟩⟩
      · rename_i hz
        rw [Bool.not_eq_true, ne_zero_false fv3.fin] at hz
        obtain ⟨w2, w3, p3, fw2, fw3, z3⟩ := qb_quick_any fv2 fs4 (by linarith)
        rw [p3]; dsimp only
        have z3 := abs_le.mp z3
        exact ⟨ft1.fin, fw2.fin, fw3.fin, is_zero.1, abs_le.mpr ⟨by dsimp only; linarith, by dsimp only; linarith⟩⟩
    · rename_i hz
      rw [Bool.not_eq_true, ne_zero_false ft2.fin] at hz
      obtain ⟨v2, v3, p2, fv2, fv3, z2⟩ := qb_quick_any ft1 fs3 (by linarith)
      rw [p2]; dsimp only
      have z2 := abs_le.mp z2
      split
      · obtain ⟨w2, w3, p3, fw2, fw3, z3⟩ := qb_quick_any fv3 fs4 (by linarith)
        rw [p3]; dsimp only
        have z3 := abs_le.mp z3
        exact ⟨fv2.fin, fw2.fin, fw3.fin, is_zero.1, abs_le.mpr ⟨by dsimp only; linarith, by dsimp only; linarith⟩⟩
      · rename_i hz2
        rw [Bool.not_eq_true, ne_zero_false fv3.fin] at hz2
        obtain ⟨w2, w3, p3, fw2, fw3, z3⟩ := qb_quick_any fv2 fs4 (by linarith)
        rw [p3]; dsimp only
        have z3 := abs_le.mp z3
        exact ⟨fw2.fin, fw3.fin, is_zero.1, is_zero.1, abs_le.mpr ⟨by dsimp only; linarith, by dsimp only; linarith⟩⟩

end Verif
