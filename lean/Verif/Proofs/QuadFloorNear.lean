import Verif.Proofs.QuadFloorGap

/-!
# `floor` of a Quad quotient, wherever it lies
-/

namespace Verif

open F64 Prim Util Quad

theorem qts_zero {a b : F64} {m n : ℤ} (ia : Is a m) (ib : Is b n) (h : m = 0 ∨ n = 0) (hl : |n| ≤ lim) :
    Is (quickTwoSum a b).1 (m + n) ∧ Is (quickTwoSum a b).2 0 := by
  rcases h with h | h
  · subst h
    have q := is_quickTwoSum ia ib (Grid.zero_left ib.rep) (by rw [abs_zero, zero_add]; exact hl)
    rw [rs_of_rep (by rw [zero_add]; exact ib.rep), re_of_rep (by rw [zero_add]; exact ib.rep)] at q
    exact q
  · subst h
    rw [add_zero]
    exact is_quickTwoSum_norm ia ib (norm2_zero_right ia.rep)

/-- Renormalizing a whole number and a single correction, at whichever place. -/
theorem is_renorm4_one {a b c d : F64} {m n1 n2 n3 : ℤ} (ia : Is a m) (ib : Is b n1) (ic : Is c n2) (id : Is d n3)
    (h1 : n1 = 0 ∨ n2 + n3 = 0) (h2 : n2 = 0 ∨ n3 = 0) (hg : Grid m (n1 + (n2 + n3)))
    (hr : Rep (m + (n1 + (n2 + n3)))) (hl3 : |n3| ≤ lim) (hl2 : |n2 + n3| ≤ lim) (hl : |m| + |n1 + (n2 + n3)| ≤ lim) :
    Is (ofRenorm4 a b c d).c0 (m + (n1 + (n2 + n3))) ∧ Is (ofRenorm4 a b c d).c1 0 ∧ Is (ofRenorm4 a b c d).c2 0 ∧
      Is (ofRenorm4 a b c d).c3 0 := by
  unfold ofRenorm4 renorm4
  obtain ⟨q1, q2⟩ := qts_zero ic id h2 hl3
  generalize quickTwoSum c d = p1 at *
  obtain ⟨x1, s3⟩ := p1
  dsimp only at q1 q2 ⊢
  obtain ⟨q3, q4⟩ := qts_zero ib q1 h1 hl2
  generalize quickTwoSum b x1 = p2 at *
  obtain ⟨x2, s2⟩ := p2
  dsimp only at q3 q4 ⊢
  obtain ⟨q5, q6⟩ := is_quickTwoSum ia q3 hg hl
  generalize quickTwoSum a x2 = p3 at *
  obtain ⟨s0, s1⟩ := p3
  dsimp only at q5 q6 ⊢
  rw [rs_of_rep hr] at q5
  rw [re_of_rep hr] at q6
  generalize m + (n1 + (n2 + n3)) = t at *
  have nm : Norm2 t 0 := norm2_zero_right hr
  rw [if_neg (by rw [is_ne_zero q6]; simp)]
  obtain ⟨q7, q8⟩ := is_quickTwoSum_norm q5 q4 nm
  generalize quickTwoSum s0 s2 = p4 at *
  obtain ⟨s0', s1'⟩ := p4
  dsimp only at q7 q8 ⊢
  rw [if_neg (by rw [is_ne_zero q8]; simp)]
  obtain ⟨q9, q10⟩ := is_quickTwoSum_norm q7 q2 nm
  generalize quickTwoSum s0' s3 = p5 at *
  obtain ⟨s0'', s1''⟩ := p5
  exact ⟨q9, q10, is_zero, is_zero⟩

/-- The floor of a small component. -/
theorem fl_small {n : ℤ} (h : |(n : ℚ)| ≤ one' / 4) : (fl n = 0 ∧ 0 ≤ n) ∨ (fl n = -1 ∧ n < 0) := by
  have op := one'_posQ
  have h' := abs_le.mp h
  rcases le_or_gt 0 n with h0 | h0
  · refine .inl ⟨fl_unique (by simpa using h0) ?_, h0⟩
    have : (n : ℚ) < 0 * one' + one' := by linarith [h'.2]
    exact_mod_cast this
  · refine .inr ⟨fl_unique ?_ (by linarith), h0⟩
    have : (-1:ℚ) * one' ≤ n := by linarith [h'.1]
    exact_mod_cast this

/-- A small negative component is not close to its floor. -/
theorem far_neg {x : F64} {n : ℤ} (hx : Is x n) (h : |(n : ℚ)| ≤ one' / 4) (hf : fl n = -1) : Quad.close x.floor x = false := by
  have op := one'_posQ
  have h' := abs_le.mp h
  have f := is_floor hx
  rw [hf] at f
  have e : |(-1:ℚ) * one' - n| = one' + n := by
    rw [abs_sub_comm, abs_of_nonneg (by linarith [h'.1])]; ring
  have n0 : (n : ℚ) ≤ 0 := by
    have := lt_fl n
    rw [hf] at this
    have h2 : n < 0 := by linarith
    exact_mod_cast h2.le
  refine close_far hx f ?_ ?_
  · have : |(-1:ℚ) * one' - n| ≤ one' := by rw [e]; linarith
    exact_mod_cast this
  · push_cast
    rw [e]
    linarith [h'.1]

/-- The rest of `floor` after a first component that is close to the whole number `F`. -/
theorem qfloor_tail {q : Quad} {F : ℤ} {n0 n1 n2 n3 : ℤ} (i0 : Is q.c0 n0) (i1 : Is q.c1 n1) (i2 : Is q.c2 n2) (i3 : Is q.c3 n3)
    (hF : fl n0 = F) (hF2 : |F| ≤ 2 ^ 50) (hcl : Quad.close q.c0.floor q.c0 = true)
    (h1 : |(n1 : ℚ)| ≤ one' / 4) (h2 : |(n2 : ℚ)| ≤ one' / 4) (h3 : |(n3 : ℚ)| ≤ one' / 4) :
    (QIs q.floor (F * one', 0, 0, 0) ∧ 0 ≤ n1) ∨
      (QIs q.floor ((F - 1) * one', 0, 0, 0) ∧ (n1 : ℚ) ≤ one' / 2 ^ 52) := by
  have op := one'_posQ
  have hp := one'_pos
  have f0 := is_floor i0
  have f1 := is_floor i1
  have f2 := is_floor i2
  have f3 := is_floor i3
  rw [hF] at f0
  have hlim : (2:ℤ) ^ 51 * one' + one' ≤ lim := by
    have h : (2:ℤ) ^ 52 * one' ≤ lim := by
      unfold one'; rw [← pow_add]; exact pow_le_lim (by norm_num)
    linarith
  have hm : |F * one'| ≤ 2 ^ 50 * one' := by
    rw [abs_mul, abs_of_pos hp]; exact mul_le_mul_of_nonneg_right hF2 hp.le
  have hone : |(-1:ℤ) * one'| = one' := by rw [abs_mul, abs_of_pos hp]; norm_num
  have r1 : Rep (F * one') := rep_int (hF2.trans (by norm_num))
  have r2 : Rep ((F - 1) * one') := rep_int (by
    have := abs_sub F 1
    have : |(1:ℤ)| = 1 := rfl
    omega)
  have rm : Rep (-1 * one') := rep_int (by norm_num)
  have g2 : Grid (F * one') (-1 * one') := by
    by_cases h : F = 0
    · rw [h, zero_mul]; exact Grid.zero_left rm
    · refine Grid.of_abs_le r1 rm ?_
      rw [hone, abs_mul, abs_of_pos hp]
      exact le_mul_of_one_le_left hp.le (Int.one_le_abs h)
  have eF : F * one' + -1 * one' = (F - 1) * one' := by ring
  have z0 : |(0:ℤ)| ≤ lim := by rw [abs_zero]; linarith
  have hz1 : (0:ℚ) ≤ one' / 2 ^ 52 := by positivity
  -- no correction
  have keep : ∀ {b c d : F64}, Is b 0 → Is c 0 → Is d 0 → QIs (ofRenorm4 q.c0.floor b c d) (F * one', 0, 0, 0) := by
    intro b c d hb hc hd
    have R := is_renorm4_one f0 hb hc hd (.inl rfl) (.inl rfl) (by simpa using Grid.zero_right) (by simpa using r1)
      (by rw [abs_zero]; linarith) (by rw [add_zero, abs_zero]; linarith) (by simp only [add_zero, abs_zero]; linarith)
    simp only [add_zero] at R
    exact ⟨R.1, R.2.1, R.2.2.1, R.2.2.2⟩
  have l3 : |F * one'| + one' ≤ lim := by linarith
  have l1 : (one' : ℤ) ≤ lim := by linarith
  unfold Quad.floor
  dsimp only
  rw [if_pos hcl]
  rcases fl_small h1 with ⟨e1, s1⟩ | ⟨e1, s1⟩
  · rw [e1, zero_mul] at f1
    by_cases c1 : Quad.close q.c1.floor q.c1 = true
    · rw [if_pos c1]
      have small : (n1 : ℚ) ≤ one' / 2 ^ 52 := by
        by_contra hc
        push Not at hc
        have f := is_floor i1
        rw [e1] at f
        have h1' := abs_le.mp h1
        have e : |(0:ℚ) * one' - n1| = n1 := by
          rw [zero_mul, zero_sub, abs_neg, abs_of_nonneg (by exact_mod_cast s1)]
        have := close_far i1 f (by
          have : |(0:ℚ) * one' - n1| ≤ one' := by rw [e]; linarith [h1'.2]
          exact_mod_cast this) (by push_cast; rw [e]; exact hc.le)
        rw [this] at c1
        exact Bool.false_ne_true c1
      rcases fl_small h2 with ⟨e2, _⟩ | ⟨e2, _⟩
      · rw [e2, zero_mul] at f2
        by_cases c2 : Quad.close q.c2.floor q.c2 = true
        · rw [if_pos c2]
          rcases fl_small h3 with ⟨e3, _⟩ | ⟨e3, _⟩
          · rw [e3, zero_mul] at f3
            exact .inl ⟨keep f1 f2 f3, s1⟩
          · rw [e3] at f3
            have R := is_renorm4_one f0 f1 f2 f3 (.inl rfl) (.inl rfl) (by simpa using g2) (by
              rw [zero_add, zero_add, eF]; exact r2) (by rw [hone]; exact l1) (by rw [zero_add, hone]; exact l1)
              (by rw [zero_add, zero_add, hone]; exact l3)
            rw [zero_add, zero_add, eF] at R
            exact .inr ⟨⟨R.1, R.2.1, R.2.2.1, R.2.2.2⟩, small⟩
        · rw [if_neg c2]
          exact .inl ⟨keep f1 f2 is_zero, s1⟩
      · rw [if_neg (by rw [far_neg i2 h2 e2]; simp)]
        rw [e2] at f2
        have R := is_renorm4_one f0 f1 f2 is_zero (.inl rfl) (.inr rfl) (by simpa using g2) (by
          rw [zero_add, add_zero, eF]; exact r2) z0 (by rw [add_zero, hone]; exact l1)
          (by rw [zero_add, add_zero, hone]; exact l3)
        rw [zero_add, add_zero, eF] at R
        exact .inr ⟨⟨R.1, R.2.1, R.2.2.1, R.2.2.2⟩, small⟩
    · rw [if_neg c1]
      exact .inl ⟨keep f1 is_zero is_zero, s1⟩
  · rw [if_neg (by rw [far_neg i1 h1 e1]; simp)]
    rw [e1] at f1
    have R := is_renorm4_one f0 f1 is_zero is_zero (.inr rfl) (.inl rfl) (by simpa using g2) (by
      rw [add_zero, add_zero, eF]; exact r2) z0 (by rw [add_zero]; exact z0) (by rw [add_zero, add_zero, hone]; exact l3)
    rw [add_zero, add_zero, eF] at R
    refine .inr ⟨⟨R.1, R.2.1, R.2.2.1, R.2.2.2⟩, le_trans ?_ hz1⟩
    exact_mod_cast s1.le

/-- What `floor` returns on a quotient: a whole number `N` with `N - 2^-90 ≤ q ≤ N + 1 + 2^-50`. -/
theorem qfloor_near {q : Quad} {W : ℚ} (Q : QS q (1 / 2 ^ 49) (W / 2 ^ 142))
    (hh : 2 * |U q.c1| ≤ 2 ^ expo (q.c0.units : ℚ) + W / 2 ^ 70) (hW : W ≤ 2 ^ 46 * one') (hW0 : 2 ^ 250 ≤ W)
    (hc0 : |U q.c0| ≤ W * (1 + 1 / 2 ^ 40)) (hc1 : W ≤ 2 * |U q.c0|) :
    ∃ N : ℤ, QIs q.floor (N * one', 0, 0, 0) ∧ |N| ≤ 2 ^ 50 ∧ (N - 1 / 2 ^ 90) * one' ≤ UQ q ∧
      UQ q ≤ (N + 1 + 1 / 2 ^ 50) * one' := by
  have op := one'_posQ
  have hp := one'_pos
  have i0 := Is.of_finite Q.f0
  have i1 := Is.of_finite Q.f1
  have i2 := Is.of_finite Q.f2
  have i3 := Is.of_finite Q.f3
  have d1 := Q.d1
  have d2 := Q.d2
  have d3 := Q.d3
  have f0 := is_floor i0
  have hU0 : U q.c0 = (q.c0.units : ℚ) := rfl
  have hU1 : U q.c1 = (q.c1.units : ℚ) := rfl
  have hU2 : U q.c2 = (q.c2.units : ℚ) := rfl
  have hU3 : U q.c3 = (q.c3.units : ℚ) := rfl
  have hrest : |UQ q - U q.c0 - U q.c1| ≤ |U q.c1| / 2 ^ 48 + W / 2 ^ 140 := by
    have e : UQ q - U q.c0 - U q.c1 = U q.c2 + U q.c3 := by unfold UQ; ring
    rw [e]
    refine (abs_add_le _ _).trans ?_
    have := abs_nonneg (U q.c1)
    linarith
  have p1 := abs_nonneg (U q.c1)
  have p2 := abs_nonneg (U q.c2)
  have b1 : |U q.c1| ≤ one' / 4 := by linarith
  have b2 : |U q.c2| ≤ one' / 4 := by linarith
  have b3 : |U q.c3| ≤ one' / 4 := by linarith
  have hulp : W / 2 ^ 55 ≤ 2 ^ expo (q.c0.units : ℚ) := by
    have h1 := lt_expo (q.c0.units : ℚ)
    rw [← hU0, pow_add] at h1
    rw [← hU0]
    linarith
  have hrep := i0.rep.dvd
  have g1 := fl_le q.c0.units
  have g2 := lt_fl q.c0.units
  obtain ⟨F, hF⟩ : ∃ F, fl q.c0.units = F := ⟨_, rfl⟩
  rw [hF] at g1 g2 f0
  have g1q : F * one' ≤ U q.c0 := by rw [hU0]; exact_mod_cast g1
  have g2q : U q.c0 < F * one' + one' := by rw [hU0]; exact_mod_cast g2
  have hF2 : |F| ≤ 2 ^ 47 := by
    have h1 : |(F:ℚ)| * one' ≤ |U q.c0| + one' := by
      rw [← abs_of_pos op, ← abs_mul, abs_of_pos op]
      have h := abs_sub_abs_le_abs_sub (F * (one' : ℚ)) (U q.c0)
      have h3 : |F * (one' : ℚ) - U q.c0| ≤ one' := by rw [abs_le]; constructor <;> linarith
      linarith
    have h2 : |(F:ℚ)| ≤ 2 ^ 47 := by
      by_contra hc
      push Not at hc
      have := mul_lt_mul_of_pos_right hc op
      linarith
    exact_mod_cast h2
  have hr' := abs_le.mp hrest
  by_cases hcl : Quad.close q.c0.floor q.c0 = true
  · have hle : |F * one' - q.c0.units| ≤ one' := by
      rw [abs_le]; constructor <;> linarith
    have hnear : U q.c0 - F * one' ≤ one' / 2 ^ 52 := by
      by_contra hc
      push Not at hc
      have := close_far i0 f0 hle (by
        push_cast
        rw [← hU0, abs_sub_comm, abs_of_nonneg (by linarith)]
        exact hc.le)
      rw [this] at hcl
      exact Bool.false_ne_true hcl
    rcases qfloor_tail i0 i1 i2 i3 hF (hF2.trans (by norm_num)) hcl (hU1 ▸ b1) (hU2 ▸ b2) (hU3 ▸ b3) with ⟨h, s⟩ | ⟨h, s⟩
    · have s1 : (0:ℚ) ≤ U q.c1 := by rw [hU1]; exact_mod_cast s
      rw [abs_of_nonneg s1] at *
      refine ⟨F, h, hF2.trans (by norm_num), ?_, ?_⟩
      · linarith [hr'.1]
      · linarith [hr'.2]
    · rw [← hU1] at s
      refine ⟨F - 1, h, ?_, ?_, ?_⟩
      · have := abs_sub F 1
        have : |(1:ℤ)| = 1 := rfl
        omega
      · push_cast
        have := neg_abs_le (U q.c1)
        linarith [hr'.1]
      · push_cast
        have h4 : U q.c1 + |U q.c1| / 2 ^ 48 ≤ one' / 2 ^ 51 := by
          rcases abs_cases (U q.c1) with ⟨e, _⟩ | ⟨e, _⟩ <;> rw [e] <;> linarith
        linarith [hr'.2]
  · have hd : ¬ one' ∣ q.c0.units := by
      intro hd
      have h := fl_of_dvd hd
      rw [hF] at h
      exact hcl ((eps_cond i0 f0 (by rw [h, sub_self, abs_zero]; exact hp.le)).2 h)
    have hk1 : expo (q.c0.units : ℚ) < 1074 := by
      by_contra hc
      exact hd (dvd_trans (by unfold one'; exact pow_dvd_pow 2 (not_lt.mp hc)) hrep)
    have ho : (2:ℤ) ^ expo (q.c0.units : ℚ) ∣ one' := by unfold one'; exact pow_dvd_pow 2 hk1.le
    generalize hE : expo (q.c0.units : ℚ) = k at *
    have e1 : (2:ℤ) ^ k ∣ q.c0.units - F * one' := dvd_sub hrep (ho.mul_left _)
    have e2 : (2:ℤ) ^ k ∣ F * one' + one' - q.c0.units := dvd_sub (dvd_add (ho.mul_left _) ho) hrep
    have hne : q.c0.units - F * one' ≠ 0 := fun e => hd ⟨F, by linarith⟩
    have l1 := Int.le_of_dvd (by omega) e1
    have l2 := Int.le_of_dvd (by omega) e2
    have l1q : (2:ℚ) ^ k ≤ U q.c0 - F * one' := by rw [hU0]; exact_mod_cast l1
    have l2q : (2:ℚ) ^ k ≤ F * one' + one' - U q.c0 := by rw [hU0]; exact_mod_cast l2
    have hv : |UQ q - U q.c0| ≤ 2 ^ k * (6 / 10) := by
      have h3 := abs_sub_abs_le_abs_sub (UQ q - U q.c0) (U q.c1)
      have : (0:ℚ) < 2 ^ k := by positivity
      linarith
    have hv' := abs_le.mp hv
    have hkp : (0:ℚ) < 2 ^ k := by positivity
    refine ⟨F, ?_, hF2.trans (by norm_num), by linarith [hv'.1], by linarith [hv'.2]⟩
    unfold Quad.floor
    dsimp only
    rw [if_neg hcl]
    exact ⟨f0, is_zero, is_zero, is_zero⟩

end Verif
