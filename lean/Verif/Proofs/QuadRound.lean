import Verif.Proofs.QuadTaylor

/-!
# The argument reduction of `sin`, `cos` and `sin_cos` for Quads
-/

namespace Verif

open F64 Prim Util Quad Consts

/-- An integer held in the first component. -/
theorem qa_int4 {q : Quad} {m : ℤ} (i0 : Is q.c0 (m * one')) (i1 : Is q.c1 0) (i2 : Is q.c2 0) (i3 : Is q.c3 0) :
    QA q (m : ℝ) 0 |(m : ℝ)| := by
  have op := one'_posQ
  have u0 : U q.c0 = m * one' := by unfold U; rw [i0.2]; push_cast; rfl
  have u1 : U q.c1 = 0 := by unfold U; rw [i1.2]; norm_num
  have u2 : U q.c2 = 0 := by unfold U; rw [i2.2]; norm_num
  have u3 : U q.c3 = 0 := by unfold U; rw [i3.2]; norm_num
  have hq : QS q (1 / 2 ^ 49) (|(m:ℚ)| * one' / 2 ^ 141) := by
    have p : (0:ℚ) ≤ |(m:ℚ)| * one' / 2 ^ 141 := by positivity
    refine ⟨i0.1, i1.1, i2.1, i3.1, ?_, ?_, ?_⟩
    · rw [u1, abs_zero]; positivity
    · rw [u2, abs_zero]; positivity
    · rw [u3, abs_zero]; positivity
  refine ⟨⟨|(m:ℚ)|, by push_cast; rfl, hq, ?_⟩, ?_⟩
  · rw [u0, abs_mul, abs_of_pos op]
  · rw [qv_UQ hq.fin]
    unfold UQ
    rw [u0, u1, u2, u3, add_zero, add_zero, add_zero]
    have oR := one'_posR
    push_cast at oR ⊢
    rw [mul_div_cancel_right₀ _ oR.ne']
    simp

theorem is_renorm4_single {a b c d : F64} {m : ℤ} (ia : Is a m) (ib : Is b 0) (ic : Is c 0) (id : Is d 0) :
    Is (ofRenorm4 a b c d).c0 m ∧ Is (ofRenorm4 a b c d).c1 0 ∧ Is (ofRenorm4 a b c d).c2 0 ∧ Is (ofRenorm4 a b c d).c3 0 := by
  unfold ofRenorm4 renorm4
  have n0 : Norm2 0 0 := norm2_zero_right ic.rep
  have nm : Norm2 m 0 := norm2_zero_right ia.rep
  obtain ⟨q1, q2⟩ := is_quickTwoSum_norm ic id n0
  generalize quickTwoSum c d = p1 at *
  obtain ⟨x1, s3⟩ := p1
  dsimp only at q1 q2 ⊢
  obtain ⟨q3, q4⟩ := is_quickTwoSum_norm ib q1 n0
  generalize quickTwoSum b x1 = p2 at *
  obtain ⟨x2, s2⟩ := p2
  dsimp only at q3 q4 ⊢
  obtain ⟨q5, q6⟩ := is_quickTwoSum_norm ia q3 nm
  generalize quickTwoSum a x2 = p3 at *
  obtain ⟨s0, s1⟩ := p3
  dsimp only at q5 q6 ⊢
  rw [if_neg (by rw [is_ne_zero q6]; simp)]
  obtain ⟨q7, q8⟩ := is_quickTwoSum_norm q5 q4 nm
  generalize quickTwoSum s0 s2 = p4 at *
  obtain ⟨s0', s1'⟩ := p4
  dsimp only at q7 q8 ⊢
  rw [if_neg (by rw [is_ne_zero q8]; simp)]
  obtain ⟨q9, q10⟩ := is_quickTwoSum_norm q7 q2 nm
  generalize quickTwoSum s0' s3 = p5 at *
  obtain ⟨s0'', s1''⟩ := p5
  exact ⟨q9, q10, is_zero', is_zero'⟩

theorem sz_comps {q : Quad} {X : ℝ} (h : SZ q X) (hX : X ≤ 2 ^ 36) :
    (q.c1.isFinite = true ∧ q.c2.isFinite = true ∧ q.c3.isFinite = true) ∧ |fr q.c1| ≤ 1 / 2 ^ 12 ∧ |fr q.c2| ≤ 1 / 2 ^ 12 ∧ |fr q.c3| ≤ 1 / 2 ^ 12 := by
  obtain ⟨Y, hY, h2, h3⟩ := h
  have op := one'_posQ
  have oR := one'_posR
  have hYX : Y ≤ 2 ^ 36 := by have : (Y:ℝ) ≤ 2 ^ 36 := hY.trans hX; exact_mod_cast this
  have hYo : Y * one' ≤ 2 ^ 36 * one' := mul_le_mul_of_nonneg_right hYX op.le
  have d1 := h2.d1
  have d2 := h2.d2
  have d3 := h2.d3
  have key : ∀ {x : F64}, x.isFinite = true → |U x| ≤ one' / 2 ^ 12 → |fr x| ≤ 1 / 2 ^ 12 := by
    intro x hx hu
    unfold fr
    rw [toRat_U hx]
    have hu2 : ((|U x| : ℚ) : ℝ) ≤ ((one' / 2 ^ 12 : ℚ) : ℝ) := by exact_mod_cast hu
    push_cast at oR hu2 ⊢
    rw [abs_div, abs_of_pos oR, div_le_iff₀ oR]
    linarith
  have e1 : |U q.c1| ≤ one' / 2 ^ 12 := by
    clear hY oR key
    generalize (one' : ℚ) = o at *
    norm_num at d1 d2 d3 hYo ⊢; linarith
  have e2 : |U q.c2| ≤ one' / 2 ^ 12 := by
    clear hY oR key
    generalize (one' : ℚ) = o at *
    norm_num at d1 d2 d3 hYo ⊢; linarith
  have e3 : |U q.c3| ≤ one' / 2 ^ 12 := by
    clear hY oR key
    generalize (one' : ℚ) = o at *
    norm_num at d1 d2 d3 hYo ⊢; linarith
  exact ⟨⟨h2.f1, h2.f2, h2.f3⟩, key h2.f1 e1, key h2.f2 e2, key h2.f3 e3⟩

theorem round_small {x : F64} (f : x.isFinite = true) (h : |fr x| ≤ 1 / 2 ^ 12) : Is x.round 0 ∧ halfway x.round x = false := by
  have i := Is.of_finite f
  have hp : (0:ℝ) < (one' : ℝ) := by exact_mod_cast one'_pos
  have lr : ro x.units = 0 := by
    apply ro_of_lt
    rw [zero_mul, sub_zero]
    rw [fr_is i, abs_div, abs_of_pos hp, div_le_iff₀ hp] at h
    have : 2 * |(x.units:ℝ)| < one' := by
      refine lt_of_le_of_lt (mul_le_mul_of_nonneg_left h (by norm_num)) ?_
      generalize (one' : ℝ) = o at *
      norm_num
      linarith
    exact_mod_cast this
  have il : Is x.round 0 := by have := is_round i; rwa [lr, zero_mul] at this
  refine ⟨il, ?_⟩
  have e0 : fr x.round = 0 := by rw [fr_is il]; simp
  have bigp : (8:ℝ) ≤ 2 ^ 1022 := by
    have : (2:ℝ) ^ 3 ≤ 2 ^ 1022 := pow_le_pow_right₀ (by norm_num) (by norm_num)
    refine le_trans (by norm_num) this
  obtain ⟨s1, s2⟩ := fr_sub il.1 f (by rw [e0, zero_sub, abs_neg]; exact h.trans (le_trans (by norm_num) bigp))
  rw [e0, zero_sub, abs_neg] at s2
  obtain ⟨s3, s4⟩ := fr_abs s1
  have s5 : |fr (F64.sub x.round x)| ≤ 1 / 2 ^ 11 := by
    have h2 : |fr x| / 2 ^ 53 ≤ 1 / 2 ^ 12 / 2 ^ 53 := div_le_div_of_nonneg_right h (by positivity)
    have h3 := abs_sub_abs_le_abs_sub (fr (F64.sub x.round x)) (-fr x)
    rw [abs_neg] at h3
    norm_num at *; linarith
  have s50 := abs_nonneg (fr (F64.sub x.round x))
  obtain ⟨t1, t2⟩ := fr_sub s3 fr_half.1 (by
    rw [s4, fr_half.2]
    refine le_trans ?_ bigp
    rw [abs_le]
    norm_num at s5 ⊢
    constructor <;> linarith)
  rw [s4, fr_half.2] at t2
  obtain ⟨t3, t4⟩ := fr_abs t1
  unfold halfway
  rw [Bool.eq_false_iff, Ne, fr_lt t3 fr_eps.1, t4, fr_eps.2, not_lt]
  have t5 : |(|fr (F64.sub x.round x)|) - 1 / 2| ≤ 1 / 2 := by
    rw [abs_le]
    constructor
    · norm_num at s5 ⊢
    · norm_num at s5 ⊢; linarith
  have t6 : |(|fr (F64.sub x.round x)|) - 1 / 2| / 2 ^ 53 ≤ 1 / 2 / 2 ^ 53 := div_le_div_of_nonneg_right t5 (by positivity)
  have t7 := abs_le.mp (t2.trans t6)
  have t8 := neg_abs_le (fr (F64.sub (F64.sub x.round x).abs Double.half))
  clear bigp
  norm_num at t7 s5 ⊢
  linarith [t7.2]

/-- What `round` computes for a number of moderate size: an integer within (nearly) a half or, because of the wrong
correction for negative halves, one which is below by (nearly) three halves. -/
theorem qround_weak {a : Quad} {X : ℝ} (ha : SZ a X) (hX : X ≤ 2 ^ 36) : ∃ Z : ℤ, QA a.round Z 0 |(Z : ℝ)| ∧
    (|qv a - Z| ≤ 1 / 2 + 1 / 2 ^ 8 ∨ |qv a - Z - 3 / 2| ≤ 1 / 2 ^ 8) ∧ (|qv a| ≤ 1 / 4 → Z = 0) := by
  have hp : (0:ℝ) < (one' : ℝ) := by exact_mod_cast one'_pos
  have hX0 := ha.nonneg
  obtain ⟨f0, c0⟩ := sz_sub_c0 ha
  obtain ⟨⟨f1, f2, f3⟩, b1, b2, b3⟩ := sz_comps ha hX
  have hc := sz_c0_le ha
  have d : |qv a - fr a.c0| ≤ 1 / 2 ^ 9 := by
    refine c0.trans ?_
    have : |fr a.c0| / 2 ^ 48 ≤ 2 ^ 36 / 2 ^ 48 := div_le_div_of_nonneg_right (hc.trans hX) (by positivity)
    have : X / 2 ^ 138 ≤ 2 ^ 36 / 2 ^ 138 := div_le_div_of_nonneg_right hX (by positivity)
    norm_num at *; linarith
  obtain ⟨r1, hw1⟩ := round_small f1 b1
  obtain ⟨r2, hw2⟩ := round_small f2 b2
  obtain ⟨r3, -⟩ := round_small f3 b3
  have i0 := Is.of_finite f0
  generalize hh : a.c0.units = h at i0
  have hr := is_round i0
  have hrv : fr a.c0.round = ro h := by rw [fr_is hr]; push_cast; field_simp
  have hro : |fr a.c0 - ro h| ≤ 1 / 2 := by
    have := ro_bounds h
    have h2 : 2 * |(h:ℝ) - ro h * one'| ≤ one' := by exact_mod_cast this
    have e : fr a.c0 - ro h = ((h:ℝ) - ro h * one') / one' := by rw [fr_is i0]; field_simp
    rw [e, abs_div, abs_of_pos hp, div_le_iff₀ hp]
    linarith
  have bigp : (8:ℝ) ≤ 2 ^ 1022 := by
    have : (2:ℝ) ^ 3 ≤ 2 ^ 1022 := pow_le_pow_right₀ (by norm_num) (by norm_num)
    refine le_trans (by norm_num) this
  have hsub := fr_sub hr.1 f0 (by
    rw [hrv, abs_sub_comm]
    exact hro.trans (le_trans (by norm_num) bigp))
  rw [hrv] at hsub
  obtain ⟨s1, s2⟩ := hsub
  obtain ⟨s3, s4⟩ := fr_abs s1
  have hro' := abs_le.mp hro
  have s2' : |fr (F64.sub a.c0.round a.c0) - (ro h - fr a.c0)| ≤ 1 / 2 ^ 52 := by
    refine s2.trans ?_
    rw [abs_sub_comm]
    refine (div_le_div_of_nonneg_right hro (by positivity)).trans (by norm_num)
  have s5 : |fr (F64.sub a.c0.round a.c0)| ≤ 1 := by
    rw [abs_le] at s2' ⊢
    norm_num at s2'
    constructor <;> linarith [s2'.1, s2'.2]
  have hsub2 := fr_sub s3 fr_half.1 (by
    rw [s4, fr_half.2]
    refine le_trans ?_ bigp
    rw [abs_le]
    constructor <;> linarith [abs_nonneg (fr (F64.sub a.c0.round a.c0))])
  rw [s4, fr_half.2] at hsub2
  obtain ⟨t1, t2⟩ := hsub2
  obtain ⟨t3, t4⟩ := fr_abs t1
  have t2' : |fr (F64.sub (F64.sub a.c0.round a.c0).abs Double.half) - (|fr (F64.sub a.c0.round a.c0)| - 1 / 2)|
      ≤ 1 / 2 ^ 52 := by
    refine t2.trans ?_
    have : |(|fr (F64.sub a.c0.round a.c0)|) - 1 / 2| ≤ 1 / 2 := by
      rw [abs_le]
      constructor <;> linarith [abs_nonneg (fr (F64.sub a.c0.round a.c0))]
    refine (div_le_div_of_nonneg_right this (by positivity)).trans (by norm_num)
  have base : |qv a - (ro h : ℤ)| ≤ 1 / 2 + 1 / 2 ^ 8 := by
    rw [show qv a - ((ro h : ℤ) : ℝ) = (fr a.c0 - ro h) + (qv a - fr a.c0) by ring]
    exact (abs_add_le _ _).trans (add_le_add hro (d.trans (by norm_num)))
  have zer : |qv a| ≤ 1 / 4 → ro h = 0 := by
    intro hq
    have : |((ro h : ℤ) : ℝ)| < 1 := by
      rw [abs_le] at hq base
      rw [abs_lt]
      norm_num at base
      constructor <;> linarith [base.1, base.2]
    have : |ro h| < 1 := by exact_mod_cast this
    exact Int.abs_lt_one_iff.mp this
  clear bigp s2 t2
  unfold Quad.round
  dsimp only
  rw [hw1, hw2]
  simp only [Bool.false_and, Bool.false_eq_true, if_false]
  split_ifs with k1 k2 k3 k4
  · obtain ⟨q0, q1, q2, q3⟩ := is_renorm4_single hr r1 r2 r3
    exact ⟨ro h, qa_int4 q0 q1 q2 q3, Or.inl base, zer⟩
  · exact ⟨ro h, qa_int4 hr r1 r2 is_zero', Or.inl base, zer⟩
  · exact ⟨ro h, qa_int4 hr r1 is_zero' is_zero', Or.inl base, zer⟩
  · unfold halfway at k4
    rw [Bool.and_eq_true, fr_lt t3 fr_eps.1, t4, fr_eps.2] at k4
    obtain ⟨c2, -⟩ := k4
    have is1 : Is (F64.sub a.c0.round (ofDec false 1 0)) ((ro h - 1) * one') := by
      have hz : |ro h - 1| ≤ 2 ^ 53 := by
        have : |((ro h : ℤ) : ℝ) - 1| ≤ 2 ^ 53 := by
          have hb := hc.trans hX
          rw [abs_le] at hb ⊢
          norm_num at hb hro' ⊢
          constructor <;> linarith [hb.1, hb.2, hro'.1, hro'.2]
        exact_mod_cast this
      refine hr.sub_rep is_lit_one (by ring) (rep_int hz) ?_
      rw [abs_mul, abs_of_pos one'_pos]
      unfold ovf one'
      calc |ro h - 1| * 2 ^ 1074 ≤ 2 ^ 53 * 2 ^ 1074 := mul_le_mul_of_nonneg_right hz (by positivity)
        _ = 2 ^ 1127 := by rw [← pow_add]
        _ < _ := pow_lt_pow_right₀ (by norm_num) (by norm_num)
    have e : |(|fr (F64.sub a.c0.round a.c0)|) - 1 / 2| ≤ 1 / 2 ^ 51 := by
      rw [abs_lt] at c2
      rw [abs_le] at t2' ⊢
      norm_num at c2 t2' ⊢
      constructor <;> linarith [c2.1, c2.2, t2'.1, t2'.2]
    refine ⟨ro h - 1, qa_int4 is1 is_zero' is_zero' is_zero', ?_, ?_⟩
    · push_cast
      rw [abs_le] at e s2' d
      norm_num at e s2' d
      rcases abs_cases (fr (F64.sub a.c0.round a.c0)) with ⟨h1, -⟩ | ⟨h1, -⟩
      · left
        rw [h1] at e
        rw [abs_le]; norm_num
        constructor <;> linarith [e.1, e.2, s2'.1, s2'.2, d.1, d.2]
      · right
        rw [h1] at e
        rw [abs_le]; norm_num
        constructor <;> linarith [e.1, e.2, s2'.1, s2'.2, d.1, d.2]
    · intro hq
      exfalso
      have z := zer hq
      rw [z] at s2'
      rw [abs_le] at e s2' d hq
      norm_num at e s2' d hq
      rcases abs_cases (fr (F64.sub a.c0.round a.c0)) with ⟨h1, -⟩ | ⟨h1, -⟩
      · rw [h1] at e
        linarith [e.1, e.2, s2'.1, s2'.2, d.1, d.2]
      · rw [h1] at e
        linarith [e.1, e.2, s2'.1, s2'.2, d.1, d.2]
  · exact ⟨ro h, qa_int4 hr is_zero' is_zero' is_zero', Or.inl base, zer⟩

/-- The rounding of the quotient by a constant, computed with first components: `floor (d.0 / c.0 + 0.5)`. -/
theorem qquot_floor {d c : Quad} {γ X : ℝ} (hd : SZ d X) (hX : X ≤ γ * 2 ^ 60) (hγ : 0 < γ) (hc : |fr c.c0 - γ| ≤ γ / 2 ^ 45) (fc : c.c0.isFinite = true)
    (hb : |qv d| ≤ 260 * γ) :
    ∃ Q : ℤ, Is (F64.floor (F64.add (F64.div d.c0 c.c0) Double.half)) (Q * one') ∧
      |qv d - Q * γ| ≤ γ * (1 / 2 + 1 / 2 ^ 30) := by
  have hC' := abs_le.mp hc
  have hCp : 0 < fr c.c0 := by
    have : γ / 2 ^ 45 < γ := div_lt_self hγ (by norm_num)
    linarith [hC'.1]
  obtain ⟨fd, hd1⟩ := sz_sub_c0 hd
  have hH : |fr d.c0| ≤ 261 * γ := by
    have h1 := abs_sub_abs_le_abs_sub (fr d.c0) (qv d)
    rw [abs_sub_comm] at h1
    norm_num at *
    linarith
  have R12 : |fr d.c0 / fr c.c0| ≤ 262 := by
    rw [abs_div, abs_of_pos hCp, div_le_iff₀ hCp]
    norm_num at hC'
    linarith [hC'.1]
  have bigp : (1000:ℝ) ≤ 2 ^ 1022 := by
    have : (2:ℝ) ^ 10 ≤ 2 ^ 1022 := pow_le_pow_right₀ (by norm_num) (by norm_num)
    refine le_trans (by norm_num) this
  obtain ⟨f1, q1⟩ := fr_div fd fc hCp.ne' (R12.trans (le_trans (by norm_num) bigp))
  have q1' : |fr (F64.div d.c0 c.c0) - fr d.c0 / fr c.c0| ≤ 1 / 2 ^ 43 := by
    refine q1.trans ?_
    refine (add_le_add (div_le_div_of_nonneg_right R12 (by positivity)) le_rfl).trans (by norm_num)
  have q2 : |fr (F64.div d.c0 c.c0) + fr Double.half| ≤ 263 := by
    rw [fr_half.2]
    rw [abs_le] at R12 q1' ⊢
    norm_num at q1' ⊢
    constructor <;> linarith [R12.1, R12.2, q1'.1, q1'.2]
  obtain ⟨f2, q3⟩ := fr_add f1 fr_half.1 (q2.trans (le_trans (by norm_num) bigp))
  have q3' : |fr (F64.add (F64.div d.c0 c.c0) Double.half) - (fr (F64.div d.c0 c.c0) + fr Double.half)| ≤ 1 / 2 ^ 43 := by
    refine q3.trans ?_
    refine (div_le_div_of_nonneg_right q2 (by positivity)).trans (by norm_num)
  obtain ⟨f3, q4⟩ := fr_floor f2
  have i := is_of_fr f3 q4
  refine ⟨⌊fr (F64.add (F64.div d.c0 c.c0) Double.half)⌋, i, ?_⟩
  have g1 := Int.floor_le (fr (F64.add (F64.div d.c0 c.c0) Double.half))
  have g2 := Int.lt_floor_add_one (fr (F64.add (F64.div d.c0 c.c0) Double.half))
  clear i q4 f1 f2 f3 q1 q3 bigp
  rw [fr_half.2] at q3' q2
  generalize ⌊fr (F64.add (F64.div d.c0 c.c0) Double.half)⌋ = m at *
  generalize fr (F64.add (F64.div d.c0 c.c0) Double.half) = S at *
  generalize fr (F64.div d.c0 c.c0) = Q at *
  have e : fr d.c0 = fr d.c0 / fr c.c0 * fr c.c0 := (div_mul_cancel₀ _ hCp.ne').symm
  generalize fr d.c0 / fr c.c0 = R at *
  have mR : |R - m| ≤ 1 / 2 + 1 / 2 ^ 41 := by
    rw [abs_le] at q1' q3' ⊢
    norm_num at q1' q3' ⊢
    constructor <;> linarith [q1'.1, q1'.2, q3'.1, q3'.2]
  have e2 : qv d - m * γ = (qv d - fr d.c0) + (R - m) * γ + R * (fr c.c0 - γ) := by rw [e]; ring
  rw [e2]
  have t1 : |qv d - fr d.c0| ≤ 261 * γ / 2 ^ 48 + γ * 2 ^ 60 / 2 ^ 138 :=
    hd1.trans (add_le_add (div_le_div_of_nonneg_right hH (by positivity)) (div_le_div_of_nonneg_right hX (by positivity)))
  have t2 : |(R - m) * γ| ≤ (1 / 2 + 1 / 2 ^ 41) * γ := by
    rw [abs_mul, abs_of_pos hγ]; exact mul_le_mul_of_nonneg_right mR hγ.le
  have t3 : |R * (fr c.c0 - γ)| ≤ 262 * (γ / 2 ^ 45) := by
    rw [abs_mul]; exact mul_le_mul R12 hc (abs_nonneg _) (by norm_num)
  refine (abs_add_le _ _).trans ((add_le_add ((abs_add_le _ _).trans (add_le_add t1 t2)) t3).trans ?_)
  norm_num
  linarith

theorem qa_near {c : Quad} {γ X : ℝ} (hγ : 0 < γ) (hn : c.Normalized) (h : Near c.val γ 214) (hX : γ * (1 + 1 / 2 ^ 40) ≤ X) :
    QA c γ (γ / 2 ^ 214) X ∧ |fr c.c0 - γ| ≤ γ / 2 ^ 45 ∧ c.c0.isFinite = true := by
  unfold Near at h
  rw [abs_of_pos hγ] at h
  have h' : |qv c - γ| ≤ γ / 2 ^ 214 := by rw [le_div_iff₀ (by positivity)]; exact h
  refine ⟨qa_of hn h' ?_, ?_, hn.1.1⟩
  · refine le_trans ?_ hX
    rw [abs_of_pos hγ]; norm_num; linarith
  · have h1 := qv_sub_c0 (qord_norm hn)
    have h2 := abs_sub_abs_le_abs_sub (fr c.c0) (qv c)
    have h3 := abs_sub_abs_le_abs_sub (qv c) γ
    have h4 := abs_add_le (fr c.c0 - qv c) (qv c - γ)
    rw [sub_add_sub_cancel] at h4
    rw [abs_sub_comm] at h1
    rw [abs_of_pos hγ] at h3
    norm_num at *; linarith

theorem qa_TAU : QA Quad.TAU (2 * Real.pi) (2 * Real.pi / 2 ^ 214) (6284 / 1000) :=
  (qa_near (by positivity) (C48_quad_normalized _ (by simp)) C48_quad_values.2.1 (by have := pi_bds.2; norm_num at *; linarith)).1

theorem qa_PI_2 : QA Quad.FRAC_PI_2 (Real.pi / 2) (Real.pi / 2 / 2 ^ 214) (1571 / 1000) ∧ |fr Quad.FRAC_PI_2.c0 - Real.pi / 2| ≤ Real.pi / 2 / 2 ^ 45 ∧
    Quad.FRAC_PI_2.c0.isFinite = true :=
  qa_near (by positivity) (C48_quad_normalized _ (by simp)) C48_quad_values.2.2.1 (by have := pi_bds.2; norm_num at *; linarith)

theorem pi_1024_lit : Quad.FRAC_PI_1024.Normalized ∧ |Quad.FRAC_PI_1024.val - Quad.PI.val / 1024| ≤ 1 / 2 ^ 220 := by decide +kernel

theorem qa_PI_1024 : QA Quad.FRAC_PI_1024 (Real.pi / 1024) (Real.pi / 1024 / 2 ^ 200) (3069 / 1000000) ∧
    |fr Quad.FRAC_PI_1024.c0 - Real.pi / 1024| ≤ Real.pi / 1024 / 2 ^ 45 ∧ Quad.FRAC_PI_1024.c0.isFinite = true := by
  obtain ⟨p1, p2⟩ := pi_bds
  obtain ⟨hn, hl⟩ := pi_1024_lit
  have hl2 := (Rat.cast_le (K := ℝ)).mpr hl
  push_cast at hl2
  have h := C48_quad_values.1
  unfold Near at h
  rw [abs_of_pos Real.pi_pos] at h
  have h' : |qv Quad.PI - Real.pi| ≤ Real.pi / 2 ^ 214 := by rw [le_div_iff₀ (by positivity)]; exact h
  change |qv Quad.FRAC_PI_1024 - qv Quad.PI / 1024| ≤ _ at hl2
  have h3 : |qv Quad.FRAC_PI_1024 - Real.pi / 1024| ≤ Real.pi / 1024 / 2 ^ 200 := by
    rw [abs_le] at h' hl2 ⊢
    norm_num at h' hl2 p1 p2 ⊢
    constructor <;> linarith [h'.1, h'.2, hl2.1, hl2.2]
  refine ⟨qa_of hn h3 ?_, ?_, hn.1.1⟩
  · rw [abs_of_pos (by positivity)]; norm_num at p2 ⊢; linarith
  · have h1 := qv_sub_c0 (qord_norm hn)
    have h2 := abs_sub_abs_le_abs_sub (fr Quad.FRAC_PI_1024.c0) (qv Quad.FRAC_PI_1024)
    have h5 := abs_sub_abs_le_abs_sub (qv Quad.FRAC_PI_1024) (Real.pi / 1024)
    have h4 := abs_add_le (fr Quad.FRAC_PI_1024.c0 - qv Quad.FRAC_PI_1024) (qv Quad.FRAC_PI_1024 - Real.pi / 1024)
    rw [sub_add_sub_cancel] at h4
    rw [abs_sub_comm] at h1
    rw [abs_of_pos (show 0 < Real.pi / 1024 by positivity)] at h5
    norm_num at *; linarith

end Verif
