import Verif.Proofs.QuadDivHead
import Verif.Proofs.QuadWhole

/-!
# `floor` of a Quad quotient that keeps a distance from the integers
-/

namespace Verif

open F64 Prim Util Quad

/-- Renormalizing two numbers whose sum is an `f64`. -/
theorem is_renorm4_pair {a b c d : F64} {m n : ℤ} (ia : Is a m) (ib : Is b n) (ic : Is c 0) (id : Is d 0) (hg : Grid m n)
    (hr : Rep (m + n)) (hl : |m| + |n| ≤ lim) :
    Is (ofRenorm4 a b c d).c0 (m + n) ∧ Is (ofRenorm4 a b c d).c1 0 ∧ Is (ofRenorm4 a b c d).c2 0 ∧
      Is (ofRenorm4 a b c d).c3 0 := by
  unfold ofRenorm4 renorm4
  have n0 : Norm2 0 0 := norm2_zero_right ic.rep
  have nn : Norm2 n 0 := norm2_zero_right ib.rep
  obtain ⟨q1, q2⟩ := is_quickTwoSum_norm ic id n0
  generalize quickTwoSum c d = p1 at *
  obtain ⟨x1, s3⟩ := p1
  dsimp only at q1 q2 ⊢
  obtain ⟨q3, q4⟩ := is_quickTwoSum_norm ib q1 nn
  generalize quickTwoSum b x1 = p2 at *
  obtain ⟨x2, s2⟩ := p2
  dsimp only at q3 q4 ⊢
  obtain ⟨q5, q6⟩ := is_quickTwoSum ia q3 hg hl
  generalize quickTwoSum a x2 = p3 at *
  obtain ⟨s0, s1⟩ := p3
  dsimp only at q5 q6 ⊢
  rw [rs_of_rep hr] at q5
  rw [re_of_rep hr] at q6
  have nm : Norm2 (m + n) 0 := norm2_zero_right hr
  rw [if_neg (by rw [is_ne_zero q6]; simp)]
  obtain ⟨q7, q8⟩ := is_quickTwoSum_norm q5 q4 nm
  generalize quickTwoSum s0 s2 = p4 at *
  obtain ⟨s0', s1'⟩ := p4
  dsimp only at q7 q8 ⊢
  rw [if_neg (by rw [is_ne_zero q8]; simp)]
  obtain ⟨q9, q10⟩ := is_quickTwoSum_norm q7 q2 nm
  generalize quickTwoSum s0' s3 = p5 at *
  obtain ⟨s0'', s1''⟩ := p5
  exact ⟨q9, q10, is_zero, is_zero⟩

theorem close_far {x : F64} {n w : ℤ} (hx : Is x n) (hf : Is x.floor (w * one')) (h : |w * one' - n| ≤ one')
    (hd : (one' : ℚ) / 2 ^ 52 ≤ |(w * one' - n : ℤ)|) : Quad.close x.floor x = false := by
  rw [Bool.eq_false_iff]
  intro hc
  have h1 := (eps_cond hx hf h).1 hc
  have h2 : ((|w * one' - n| : ℤ) : ℚ) < 2 ^ 1022 := by exact_mod_cast h1
  have e : (one' : ℚ) / 2 ^ 52 = 2 ^ 1022 := by
    rw [one'_pow, show (2:ℚ) ^ 1074 = 2 ^ 1022 * 2 ^ 52 by rw [← pow_add], mul_div_assoc, div_self (by positivity), mul_one]
  rw [e] at hd
  push_cast at hd h2
  exact absurd h2 (not_lt.mpr hd)

set_option maxHeartbeats 1000000 in
/-- The floor of a number that is not too close to an integer. -/
theorem qfloor_gap {q : Quad} {W : ℚ} {N : ℤ} (Q : QS q (1 / 2 ^ 49) (W / 2 ^ 142))
    (hh : 2 * |U q.c1| ≤ 2 ^ expo (q.c0.units : ℚ) + W / 2 ^ 70) (hW : W ≤ 2 ^ 46 * one') (hW0 : 2 ^ 250 ≤ W)
    (hc0 : |U q.c0| ≤ W * (1 + 1 / 2 ^ 40)) (hc1 : W ≤ 2 * |U q.c0|)
    (lo : (N + 1 / 2 ^ 50) * one' ≤ UQ q) (hi : UQ q ≤ (N + 1 - 1 / 2 ^ 50) * one') : QIs q.floor (N * one', 0, 0, 0) := by
  have op := one'_posQ
  have i0 := Is.of_finite Q.f0
  have i1 := Is.of_finite Q.f1
  have d1 := Q.d1
  have d2 := Q.d2
  have d3 := Q.d3
  have f0 := is_floor i0
  have f1 := is_floor i1
  have hU0 : U q.c0 = (q.c0.units : ℚ) := rfl
  have hU1 : U q.c1 = (q.c1.units : ℚ) := rfl
  have hrest : |UQ q - U q.c0 - U q.c1| ≤ |U q.c1| / 2 ^ 48 + W / 2 ^ 140 := by
    have e : UQ q - U q.c0 - U q.c1 = U q.c2 + U q.c3 := by unfold UQ; ring
    rw [e]
    refine (abs_add_le _ _).trans ?_
    have := abs_nonneg (U q.c1)
    linarith
  clear d2 d3
  have hulp : W / 2 ^ 55 ≤ 2 ^ expo (q.c0.units : ℚ) := by
    have h1 := lt_expo (q.c0.units : ℚ)
    rw [← hU0, pow_add] at h1
    rw [← hU0]
    linarith
  have hrep := i0.rep.dvd
  have hp := one'_pos
  generalize hu : UQ q = v at *
  by_cases hd : one' ∣ q.c0.units
  · -- the first component is an integer
    have hf := fl_of_dvd hd
    have hcl : Quad.close q.c0.floor q.c0 = true := (eps_cond i0 f0 (by rw [hf, sub_self, abs_zero]; exact hp.le)).2 hf
    rw [hf] at f0
    obtain ⟨H, hH⟩ := hd
    have hHq : (q.c0.units : ℚ) = one' * H := by rw [hH]; push_cast; ring
    rw [hU0, hHq] at hrest
    rw [hU0, hHq] at hc0 hc1 d1
    have hH46 : |one' * (H:ℚ)| ≤ 2 ^ 46 * one' * (1 + 1 / 2 ^ 40) := hc0.trans (mul_le_mul_of_nonneg_right hW (by norm_num))
    have small : |U q.c1| ≤ one' / 4 := by linarith
    have small' := abs_le.mp small
    have hr2 : |v - one' * H - U q.c1| ≤ |U q.c1| / 2 ^ 48 + one' / 2 ^ 94 := hrest.trans (by linarith)
    have hvd : |v - one' * H| ≤ one' / 3 := by
      have h1 := abs_sub_abs_le_abs_sub (v - one' * H) (U q.c1)
      linarith
    have hvd' := abs_le.mp hvd
    have hr3 := abs_le.mp hr2
    have hcase : N = H ∨ N = H - 1 := by
      have h1 : (N : ℚ) < H + 1 := by
        by_contra hc
        push Not at hc
        have := mul_le_mul_of_nonneg_right hc op.le
        linarith
      have h2 : (H : ℚ) < N + 2 := by
        by_contra hc
        push Not at hc
        have := mul_le_mul_of_nonneg_right hc op.le
        linarith
      have h1 : N < H + 1 := by exact_mod_cast h1
      have h2 : H < N + 2 := by exact_mod_cast h2
      omega
    rcases hcase with h | h
    · subst h
      have pos : one' / 2 ^ 51 ≤ U q.c1 := by
        rcases abs_cases (U q.c1) with ⟨e, _⟩ | ⟨e, _⟩ <;> rw [e] at hr3 <;> linarith [hr3.1, hr3.2]
      have hz : fl q.c1.units = 0 := by
        apply fl_unique
        · rw [zero_mul]
          have : (0:ℚ) ≤ q.c1.units := by rw [← hU1]; linarith [show (0:ℚ) ≤ one' / 2 ^ 51 by positivity]
          exact_mod_cast this
        · rw [zero_mul, zero_add]
          have : (q.c1.units : ℚ) < one' := by rw [← hU1]; linarith [small'.2]
          exact_mod_cast this
      rw [hz] at f1
      have hle : |0 * one' - q.c1.units| ≤ one' := by
        have : |(q.c1.units : ℚ)| ≤ one' := by rw [← hU1]; linarith
        rw [zero_mul, zero_sub, abs_neg]
        exact_mod_cast this
      have hfar := close_far i1 f1 hle (by
        push_cast
        rw [zero_mul, zero_sub, abs_neg, ← hU1, abs_of_nonneg (by linarith [show (0:ℚ) ≤ one' / 2 ^ 51 by positivity])]
        refine le_trans ?_ pos
        generalize (one' : ℚ) = o at *
        linarith)
      rw [zero_mul] at f1
      have R := is_renorm4_pair f0 f1 is_zero is_zero Grid.zero_right (by rw [add_zero]; exact i0.rep) (by
        rw [abs_zero, add_zero]
        have h1 : ((|q.c0.units| : ℤ) : ℚ) ≤ (lim : ℚ) := by
          push_cast
          rw [hHq]
          refine hH46.trans ?_
          have e : (lim : ℚ) = 3 * 2 ^ 1022 * one' := by
            rw [one'_pow]; unfold lim; push_cast; rw [mul_assoc, ← pow_add]
          rw [e]
          have h2 : (2:ℚ) ^ 46 ≤ 2 ^ 1022 := pow_le_pow_right₀ (by norm_num) (by norm_num)
          generalize (2:ℚ) ^ 1022 = P at *
          have h3 := mul_le_mul_of_nonneg_right h2 op.le
          rw [mul_assoc]
          linarith
        exact_mod_cast h1)
      unfold Quad.floor
      dsimp only
      rw [if_pos hcl, if_neg (by rw [hfar]; simp)]
      rw [add_zero, hH, mul_comm one'] at R
      exact ⟨R.1, R.2.1, R.2.2.1, R.2.2.2⟩
    · have hNH : (N : ℚ) = H - 1 := by rw [h]; push_cast; ring
      rw [hNH] at lo hi
      have neg : U q.c1 ≤ -(one' / 2 ^ 51) := by
        rcases abs_cases (U q.c1) with ⟨e, _⟩ | ⟨e, _⟩ <;> rw [e] at hr3 <;> linarith [hr3.1, hr3.2]
      have hz : fl q.c1.units = -1 := by
        apply fl_unique
        · have : (-1:ℚ) * one' ≤ q.c1.units := by rw [← hU1]; linarith [small'.1]
          exact_mod_cast this
        · have : (q.c1.units : ℚ) < (-1) * one' + one' := by
            rw [← hU1]
            linarith [show (0:ℚ) < one' / 2 ^ 51 by positivity]
          exact_mod_cast this
      rw [hz] at f1
      have hle : |-1 * one' - q.c1.units| ≤ one' := by
        have : |-1 * (one':ℚ) - q.c1.units| ≤ one' := by
          rw [← hU1, abs_le]
          constructor <;> linarith [small'.1, show (0:ℚ) < one' / 2 ^ 51 by positivity]
        exact_mod_cast this
      have hfar := close_far i1 f1 hle (by
        push_cast
        rw [← hU1, abs_sub_comm, abs_of_nonneg (by linarith [small'.1])]
        linarith [small'.1])
      have hH0 : H ≠ 0 := by
        intro e
        rw [e] at hc1
        norm_num at hc1 hW0
        linarith
      have hH1 : |H| ≤ 2 ^ 47 := by
        have h1 : |(H:ℚ)| ≤ 2 ^ 47 := by
          rw [abs_mul, abs_of_pos op] at hH46
          by_contra hc
          push Not at hc
          have := mul_lt_mul_of_pos_left hc op
          linarith
        exact_mod_cast h1
      have hone : |(-1:ℤ) * one'| = one' := by rw [abs_mul, abs_of_pos hp]; norm_num
      have hsum : q.c0.units + -1 * one' = N * one' := by rw [hH, h]; ring
      have hN1 : |N| ≤ 2 ^ 53 := by
        rw [h]
        have := abs_sub H 1
        have : |(1:ℤ)| = 1 := rfl
        omega
      have R := is_renorm4_pair f0 f1 is_zero is_zero (.of_abs_le i0.rep f1.rep (by
          rw [hone, hH, abs_mul, abs_of_pos hp]
          exact le_mul_of_one_le_right hp.le (Int.one_le_abs hH0))) (by rw [hsum]; exact rep_int hN1) (by
        rw [hone]
        have h1 : ((|q.c0.units| + one' : ℤ) : ℚ) ≤ (lim : ℚ) := by
          push_cast
          rw [hHq]
          refine (add_le_add_left hH46 _).trans ?_
          have e : (lim : ℚ) = 3 * 2 ^ 1022 * one' := by
            rw [one'_pow]; unfold lim; push_cast; rw [mul_assoc, ← pow_add]
          rw [e]
          have h2 : (2:ℚ) ^ 46 ≤ 2 ^ 1022 := pow_le_pow_right₀ (by norm_num) (by norm_num)
          generalize (2:ℚ) ^ 1022 = P at *
          have h3 := mul_le_mul_of_nonneg_right h2 op.le
          rw [mul_assoc]
          linarith
        exact_mod_cast h1)
      unfold Quad.floor
      dsimp only
      rw [if_pos hcl, if_neg (by rw [hfar]; simp)]
      rw [hsum] at R
      exact ⟨R.1, R.2.1, R.2.2.1, R.2.2.2⟩
  · -- the first component decides
    have hk1 : expo (q.c0.units : ℚ) < 1074 := by
      by_contra hc
      exact hd (dvd_trans (by unfold one'; exact pow_dvd_pow 2 (not_lt.mp hc)) hrep)
    have ho : (2:ℤ) ^ expo (q.c0.units : ℚ) ∣ one' := by unfold one'; exact pow_dvd_pow 2 hk1.le
    generalize hE : expo (q.c0.units : ℚ) = k at *
    have h1 := fl_le q.c0.units
    have h2 := lt_fl q.c0.units
    have g1 : (2:ℤ) ^ k ∣ q.c0.units - fl q.c0.units * one' := dvd_sub hrep (ho.mul_left _)
    have g2 : (2:ℤ) ^ k ∣ fl q.c0.units * one' + one' - q.c0.units := dvd_sub (dvd_add (ho.mul_left _) ho) hrep
    have hne : q.c0.units - fl q.c0.units * one' ≠ 0 := fun e => hd ⟨fl q.c0.units, by linarith⟩
    have l1 := Int.le_of_dvd (by omega) g1
    have l2 := Int.le_of_dvd (by omega) g2
    generalize hF : fl q.c0.units = F at *
    have l1q : (2:ℚ) ^ k ≤ U q.c0 - F * one' := by rw [hU0]; exact_mod_cast l1
    have l2q : (2:ℚ) ^ k ≤ F * one' + one' - U q.c0 := by rw [hU0]; exact_mod_cast l2
    have hv : |v - U q.c0| ≤ 2 ^ k * (6 / 10) := by
      have h3 := abs_sub_abs_le_abs_sub (v - U q.c0) (U q.c1)
      have : (0:ℚ) < 2 ^ k := by positivity
      linarith
    have hv' := abs_le.mp hv
    have hkp : (0:ℚ) < 2 ^ k := by positivity
    have hFN : F = N := by
      have e1 : (F : ℚ) < N + 1 := by
        by_contra hc
        push Not at hc
        have := mul_le_mul_of_nonneg_right hc op.le
        linarith [hv'.1, hv'.2]
      have e2 : (N : ℚ) < F + 1 := by
        by_contra hc
        push Not at hc
        have := mul_le_mul_of_nonneg_right hc op.le
        linarith [hv'.1, hv'.2]
      have e1 : F < N + 1 := by exact_mod_cast e1
      have e2 : N < F + 1 := by exact_mod_cast e2
      omega
    subst hFN
    have hle : |F * one' - q.c0.units| ≤ one' := by
      rw [abs_le]
      constructor <;> linarith
    have hfar := close_far i0 f0 hle (by
      have e : ((|F * one' - q.c0.units| : ℤ) : ℚ) = U q.c0 - F * one' := by
        push_cast
        rw [← hU0, abs_sub_comm, abs_of_nonneg (by linarith)]
      rw [e]
      by_contra hc
      push Not at hc
      linarith [hv'.1, hv'.2])
    unfold Quad.floor
    dsimp only
    rw [if_neg (by rw [hfar]; simp)]
    exact ⟨f0, is_zero, is_zero, is_zero⟩

end Verif
