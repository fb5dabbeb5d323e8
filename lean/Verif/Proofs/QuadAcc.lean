import Verif.Proofs.Renorm5

/-!
# `accumulate` and `renorm4` with error bounds
-/

namespace Verif

open F64 Prim Util

/-- If a sum has a rounding error, neither operand is more than twice the sum. -/
theorem inexact_le {m n : ℤ} (hm : Rep m) (hn : Rep n) (h : re m n ≠ 0) : |m| ≤ 2 * |m + n| ∧ |n| ≤ 2 * |m + n| := by
  have key : ∀ a b : ℤ, Rep a → Rep b → |b| ≤ |a| → |a + b| ≤ |b| → Rep (a + b) := by
    intro a b ha hb hab hs
    have h1 : (2:ℤ) ^ expo (b : ℚ) ∣ a := ha.dvd_of_abs_le hab
    exact .of_dvd_lt (dvd_add h1 hb.dvd) (hs.trans_lt (expo_int_lt b))
  have hr : ¬ Rep (m + n) := by
    intro hr
    apply h
    unfold re rs
    rw [rnd_of_rep hr]; ring
  have t1 := abs_sub_abs_le_abs_sub (m + n) n
  have t2 : |m| ≤ |m + n| + |n| := by
    have := abs_sub (m + n) n
    simpa using this
  have t3 : |n| ≤ |m + n| + |m| := by
    have := abs_sub (m + n) m
    simpa using this
  rcases le_total |n| |m| with hc | hc
  · by_cases hs : |m + n| ≤ |n|
    · exact absurd (key m n hm hn hc hs) hr
    · omega
  · by_cases hs : |m + n| ≤ |m|
    · have := key n m hn hm hc (by rw [add_comm n m]; exact hs)
      rw [add_comm] at this
      exact absurd this hr
    · omega

theorem re_zero_left {n : ℤ} (hn : Rep n) : re 0 n = 0 := by
  unfold re rs; rw [zero_add, rnd_of_rep hn]; ring

/-- `accumulate`: either a component is put out, or not; nothing is lost. -/
theorem qb_acc {u v t : F64} {A B C : ℚ} (fu : Fb u A) (fv : Fb v B) (ft : Fb t C) (h : 2 * (A + B + C) ≤ (lim : ℚ)) :
    (∃ s a b, accumulate u v t = (s, a, b) ∧ Fb s ((A + B + C) * (1 + 3 / 2 ^ 53)) ∧
      Fb a ((A + B + C) * (1 / 2 ^ 53 + 3 / 2 ^ 106)) ∧ Fb b ((B + C) / 2 ^ 53) ∧
      U s + U a + U b = U u + U v + U t ∧ F64.ne s F64.zero = true ∧ v.units ≠ 0 ∧
      |U a| ≤ |U s| / 2 ^ 53 ∧ |U b| ≤ |U s| * (201 / 100 / 2 ^ 53)) ∨
    (∃ s v', accumulate u v t = (F64.zero, s, v') ∧ Fb s ((A + B + C) * (1 + 3 / 2 ^ 53)) ∧
      Fb v' ((A + B + C) * (1 / 2 ^ 53 + 3 / 2 ^ 106)) ∧ U s + U v' = U u + U v + U t ∧
      (|U v'| ≤ |U s| / 2 ^ 53 ∨ |U v'| ≤ (B + C) / 2 ^ 53)) := by
  have hA := fu.nonneg
  have hB := fv.nonneg
  have hC := ft.nonneg
  obtain ⟨s1, b, q1, fs1, fb, e1, us1, ub⟩ := qb_two fv ft (by linarith)
  obtain ⟨s, a, q2, fs, fa, e2, us, ua⟩ := qb_two fu fs1 (by linarith)
  have hval : accumulate u v t = (if !(F64.eq a F64.zero || F64.eq b F64.zero) then (s, a, b)
      else (F64.zero, s, if F64.eq b F64.zero then a else b)) := by
    unfold accumulate
    rw [q1]; dsimp only
    rw [q2]
  have fs' : Fb s ((A + B + C) * (1 + 3 / 2 ^ 53)) := fs.mono (by linarith)
  have fa' : Fb a ((A + B + C) * (1 / 2 ^ 53 + 3 / 2 ^ 106)) := fa.mono (by linarith)
  have eqa : F64.eq a F64.zero = true ↔ a.units = 0 := fa.is.eq_iff is_zero
  have eqb : F64.eq b F64.zero = true ↔ b.units = 0 := fb.is.eq_iff is_zero
  have hae : |U a| ≤ |U s| / 2 ^ 53 := by
    have r : Rep (re u.units s1.units) := by rw [← ua]; exact fa.rep
    have := re_lo r
    rw [← ua, ← us] at this
    rw [le_div_iff₀ (by positivity)]
    have h2 : ((2 ^ 53 * |a.units| : ℤ) : ℚ) ≤ ((|s.units| : ℤ) : ℚ) := by exact_mod_cast this
    push_cast at h2
    unfold U
    linarith
  rw [hval]
  by_cases ha : a.units = 0
  · right
    rw [eqa.mpr ha]
    refine ⟨s, if F64.eq b F64.zero then a else b, rfl, fs', ?_⟩
    have hU : U a = 0 := by unfold U; rw [ha]; simp
    split
    · rename_i hb
      have hUb : U b = 0 := by unfold U; rw [eqb.mp hb]; simp
      exact ⟨fa', by linarith, .inl hae⟩
    · exact ⟨fb.mono (by linarith), by linarith, .inr fb.le⟩
  · by_cases hb : b.units = 0
    · right
      rw [eqb.mpr hb]
      refine ⟨s, a, by simp, fs', fa', ?_, .inl hae⟩
      have hUb : U b = 0 := by unfold U; rw [hb]; simp
      linarith
    · left
      have na : F64.eq a F64.zero = false := by rw [← Bool.not_eq_true, eqa]; exact ha
      have nb : F64.eq b F64.zero = false := by rw [← Bool.not_eq_true, eqb]; exact hb
      rw [na, nb]
      have hin := inexact_le fu.rep fs1.rep (by rw [← ua]; exact ha)
      have hs1 : |U s1| ≤ 2 * |U u + U s1| := by
        unfold U; exact_mod_cast hin.2
      have hss : |U u + U s1| ≤ |U s| * (1 + 1 / 2 ^ 53) := by
        rw [← e2]
        refine (abs_add_le _ _).trans ?_
        linarith
      have hbe : |U b| ≤ |U s1| / 2 ^ 53 := by
        have r : Rep (re v.units t.units) := by rw [← ub]; exact fb.rep
        have := re_lo r
        rw [← ub, ← us1] at this
        rw [le_div_iff₀ (by positivity)]
        have h2 : ((2 ^ 53 * |b.units| : ℤ) : ℚ) ≤ ((|s1.units| : ℤ) : ℚ) := by exact_mod_cast this
        push_cast at h2
        unfold U
        linarith
      refine ⟨s, a, b, rfl, fs', fa', fb, by linarith, ?_, ?_, hae, ?_⟩
      · rw [is_ne_zero fs.is]
        intro hz
        have : |U s| = 0 := by unfold U; rw [hz]; simp
        rw [this] at hae
        have : |U a| = 0 := le_antisymm (by simpa using hae) (abs_nonneg _)
        have := abs_eq_zero.mp this
        unfold U at this
        exact ha (by exact_mod_cast this)
      · intro hv
        rw [hv, re_zero_left ft.rep] at ub
        exact hb ub
      · have := abs_nonneg (U s)
        linarith

/-- `quick_two_sum` for any operands, with the magnitudes themselves as bounds. -/
theorem qb_quick_abs {a b : F64} (fa : a.isFinite = true) (fb : b.isFinite = true) (h : 4 * (|U a| + |U b|) ≤ (lim : ℚ)) :
    ∃ s e, quickTwoSum a b = (s, e) ∧ s.isFinite = true ∧ e.isFinite = true ∧
      |U s| ≤ (|U a| + |U b|) * (1 + 1 / 2 ^ 53) ∧ |U e| ≤ (|U a| + |U b|) / 2 ^ 53 + |U b| * (101 / 100 / 2 ^ 53) ∧
      |U s + U e - (U a + U b)| ≤ |U b| * (101 / 100 / 2 ^ 53) ∧ (|U b| ≤ |U a| → U s + U e = U a + U b) := by
  obtain ⟨s, e, h1, h2, h3, h4⟩ := qb_quick_any ⟨fa, le_refl _⟩ ⟨fb, le_refl _⟩ h
  refine ⟨s, e, h1, h2.fin, h3.fin, h2.le, h3.le, h4, fun hc => ?_⟩
  have g : Grid a.units b.units := .of_abs_le (Is.of_finite fa).rep (Is.of_finite fb).rep (by
    unfold U at hc; exact_mod_cast hc)
  obtain ⟨s', e', k1, _, _, k4, _, _⟩ := qb_quick ⟨fa, le_refl _⟩ ⟨fb, le_refl _⟩ g (by
    have := abs_nonneg (U a); have := abs_nonneg (U b); linarith)
  rw [h1, Prod.mk.injEq] at k1
  rw [k1.1, k1.2]; exact k4

set_option maxHeartbeats 4000000 in
/-- What `renorm4` loses when its arguments may overlap. -/
theorem renorm4_sum {a b c d : F64} {A B C D Z : ℚ} (fa : Fb a A) (fb : Fb b B) (fc : Fb c C) (fd : Fb d D)
    (hl : 20 * (A + B + C + D) ≤ (lim : ℚ)) (hZ : 0 ≤ Z)
    (hd : (|U b| + |U c| + |U d|) * (101 / 100) ≤ |U a| ∨ |U b| + |U c| + |U d| ≤ Z) :
    Sum4 (renorm4 a b c d) (U a + U b + U c + U d)
      ((3 * D + 2 * C + 102 / 100 * Z) / 2 ^ 53 + (4 * B + 20 * C + 20 * D) / 2 ^ 106) := by
  have hA := fa.le
  have hB := fb.le
  have hC := fc.le
  have hD := fd.le
  have nA := abs_nonneg (U a)
  have nB := abs_nonneg (U b)
  have nC := abs_nonneg (U c)
  have nD := abs_nonneg (U d)
  obtain ⟨x2, s3, q1, fx2, fs3, bx2, bs3, e1, _⟩ := qb_quick_abs fc.fin fd.fin (by linarith)
  have nx2 := abs_nonneg (U x2)
  have ns3 := abs_nonneg (U s3)
  obtain ⟨x1, s2, q2, fx1, fs2, bx1, bs2, e2, _⟩ := qb_quick_abs fb.fin fx2 (by linarith)
  have nx1 := abs_nonneg (U x1)
  have ns2 := abs_nonneg (U s2)
  obtain ⟨s0, s1, q3, fs0, fs1, bs0, bs1, e3, e3'⟩ := qb_quick_abs fa.fin fx1 (by linarith)
  have ns0 := abs_nonneg (U s0)
  have ns1 := abs_nonneg (U s1)
  have E3 : |U s0 + U s1 - (U a + U x1)| ≤ 102 / 100 * Z / 2 ^ 53 := by
    rcases hd with hd | hd
    · rw [e3' (by linarith), sub_self, abs_zero]; positivity
    · refine e3.trans ?_
      linarith
  have E1 := abs_le.mp e1
  have E2 := abs_le.mp e2
  have E3 := abs_le.mp E3
  clear e1 e2 e3 e3' hd
  unfold renorm4
  rw [q1]; dsimp only
  rw [q2]; dsimp only
  rw [q3]; dsimp only
  clear q1 q2 q3
  have zz := U_is is_zero
  push_cast at zz
  split
  · obtain ⟨t1, t2, p1, ft1, ft2, bt1, bt2, z1, _⟩ := qb_quick_abs fs1 fs2 (by linarith)
    have nt1 := abs_nonneg (U t1)
    have nt2 := abs_nonneg (U t2)
    rw [p1]; dsimp only
    have z1 := abs_le.mp z1
    split
    · obtain ⟨v2, v3, p2, fv2, fv3, bv2, bv3, z2, _⟩ := qb_quick_abs ft2 fs3 (by linarith)
      rw [p2]; dsimp only
      have z2 := abs_le.mp z2
      exact ⟨fs0, ft1, fv2, fv3, abs_le.mpr ⟨by dsimp only; linarith, by dsimp only; linarith⟩⟩
    · rename_i hz
      rw [Bool.not_eq_true, ne_zero_false ft2] at hz
      obtain ⟨v2, v3, p2, fv2, fv3, bv2, bv3, z2, _⟩ := qb_quick_abs ft1 fs3 (by linarith)
      rw [p2]; dsimp only
      have z2 := abs_le.mp z2
      exact ⟨fs0, fv2, fv3, is_zero.1, abs_le.mpr ⟨by dsimp only; linarith, by dsimp only; linarith⟩⟩
  · rename_i hz0
    rw [Bool.not_eq_true, ne_zero_false fs1] at hz0
    obtain ⟨t1, t2, p1, ft1, ft2, bt1, bt2, z1, _⟩ := qb_quick_abs fs0 fs2 (by linarith)
    have nt1 := abs_nonneg (U t1)
    have nt2 := abs_nonneg (U t2)
    rw [p1]; dsimp only
    have z1 := abs_le.mp z1
    split
    · obtain ⟨v2, v3, p2, fv2, fv3, bv2, bv3, z2, _⟩ := qb_quick_abs ft2 fs3 (by linarith)
      rw [p2]; dsimp only
      have z2 := abs_le.mp z2
      exact ⟨ft1, fv2, fv3, is_zero.1, abs_le.mpr ⟨by dsimp only; linarith, by dsimp only; linarith⟩⟩
    · rename_i hz
      rw [Bool.not_eq_true, ne_zero_false ft2] at hz
      obtain ⟨v2, v3, p2, fv2, fv3, bv2, bv3, z2, _⟩ := qb_quick_abs ft1 fs3 (by linarith)
      rw [p2]; dsimp only
      have z2 := abs_le.mp z2
      exact ⟨fv2, fv3, is_zero.1, is_zero.1, abs_le.mpr ⟨by dsimp only; linarith, by dsimp only; linarith⟩⟩

end Verif
