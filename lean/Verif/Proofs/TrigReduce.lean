import Verif.Props.Sqrt
import Verif.Props.Ln
import Verif.Props.Tables
import Verif.Proofs.TrigTaylor
import Verif.Props.DivAny

/-!
# The argument reduction of `sin`, `cos` and `sin_cos`
-/

namespace Verif

open F64

theorem fr_lt {x y : F64} (hx : x.isFinite = true) (hy : y.isFinite = true) : F64.lt x y = true ↔ fr x < fr y := by
  have ix := Is.of_finite hx
  have iy := Is.of_finite hy
  rw [ix.lt_iff iy, fr_is ix, fr_is iy, div_lt_div_iff_of_pos_right (show (0:ℝ) < (one' : ℝ) by exact_mod_cast one'_pos)]
  exact_mod_cast Iff.rfl

theorem fr_eps : Double.f64Epsilon.isFinite = true ∧ fr Double.f64Epsilon = 1 / 2 ^ 52 := by
  refine ⟨by decide +kernel, ?_⟩
  have : Double.f64Epsilon.toRat = mkRat 1 (2 ^ 52) := by decide +kernel
  unfold fr; rw [this, Rat.mkRat_eq_div]; norm_num

theorem ap_int2 {x y : F64} {m : ℤ} (i : Is x (m * one')) (j : Is y 0) : Ap ⟨x, y⟩ (m : ℝ) 0 := by
  have i2 : DIs (⟨x, y⟩ : Double) (m * one') 0 := ⟨i, j⟩
  have nn : Norm2 (m * one') 0 := norm2_zero_right i.rep
  refine ⟨nn.normalized i2, ?_⟩
  have : rv (⟨x, y⟩ : Double) = m := by
    unfold rv; rw [i2.val]; push_cast
    have : (one' : ℝ) ≠ 0 := by exact_mod_cast one'_pos.ne'
    rw [add_zero]; field_simp
  rw [this]; simp

/-- What `round` computes for a number of moderate size: an integer within (nearly) a half or, because of the wrong
correction for negative halves, one which is below by (nearly) three halves. -/
theorem round_weak {a : Double} (ha : a.Normalized) (hb : |rv a| ≤ 2 ^ 43) : ∃ Z : ℤ, Ap a.round Z 0 ∧
    (|rv a - Z| ≤ 1 / 2 + 1 / 2 ^ 8 ∨ |rv a - Z - 3 / 2| ≤ 1 / 2 ^ 8) ∧ (|rv a| ≤ 1 / 4 → Z = 0) := by
  obtain ⟨h, l, ia, hn⟩ := ha.norm2
  have hp : (0:ℝ) < (one' : ℝ) := by exact_mod_cast one'_pos
  have d := rv_sub_hi ha
  have hH := fr_hi_two ha
  have hl := hn.lo_le
  have fl : fr a.lo = rv a - fr a.hi := by
    rw [fr_is ia.1, fr_is ia.2]; unfold rv; rw [ia.val]; push_cast; ring
  have hr := is_round ia.1
  have hrv : fr a.hi.round = ro h := by rw [fr_is hr]; push_cast; field_simp
  have hro : |fr a.hi - ro h| ≤ 1 / 2 := by
    have := ro_bounds h
    have h2 : 2 * |(h:ℝ) - ro h * one'| ≤ one' := by exact_mod_cast this
    have e : fr a.hi - ro h = ((h:ℝ) - ro h * one') / one' := by rw [fr_is ia.1]; field_simp
    rw [e, abs_div, abs_of_pos hp, div_le_iff₀ hp]
    linarith
  have lo2 : |fr a.lo| ≤ 1 / 2 ^ 9 := by
    rw [fl]
    refine d.trans ?_
    rw [div_le_iff₀ (by positivity)]
    refine hH.trans ?_
    norm_num at hb ⊢
    linarith
  have lr : ro l = 0 := by
    apply ro_of_lt
    rw [zero_mul, sub_zero]
    rw [fr_is ia.2, abs_div, abs_of_pos hp, div_le_iff₀ hp] at lo2
    have : 2 * |(l:ℝ)| < one' := by
      refine lt_of_le_of_lt (mul_le_mul_of_nonneg_left lo2 (by norm_num)) ?_
      generalize (one' : ℝ) = o at *
      norm_num
      linarith
    exact_mod_cast this
  have fhi := ha.1.1
  have bigp : (8:ℝ) ≤ 2 ^ 1022 := by
    have : (2:ℝ) ^ 3 ≤ 2 ^ 1022 := pow_le_pow_right₀ (by norm_num) (by norm_num)
    refine le_trans (by norm_num) this
  have hsub := fr_sub hr.1 fhi (by
    rw [hrv, abs_sub_comm]
    exact hro.trans (le_trans (by norm_num) bigp))
  rw [hrv] at hsub
  obtain ⟨s1, s2⟩ := hsub
  obtain ⟨s3, s4⟩ := fr_abs s1
  have hro' := abs_le.mp hro
  have s2' : |fr (F64.sub a.hi.round a.hi) - (ro h - fr a.hi)| ≤ 1 / 2 ^ 52 := by
    refine s2.trans ?_
    rw [abs_sub_comm]
    refine (div_le_div_of_nonneg_right hro (by positivity)).trans (by norm_num)
  have s5 : |fr (F64.sub a.hi.round a.hi)| ≤ 1 := by
    rw [abs_le] at s2' ⊢
    norm_num at s2'
    constructor <;> linarith [s2'.1, s2'.2]
  have hsub2 := fr_sub s3 fr_half.1 (by
    rw [s4, fr_half.2]
    refine le_trans ?_ bigp
    rw [abs_le]
    constructor <;> linarith [abs_nonneg (fr (F64.sub a.hi.round a.hi))])
  rw [s4, fr_half.2] at hsub2
  obtain ⟨t1, t2⟩ := hsub2
  obtain ⟨t3, t4⟩ := fr_abs t1
  have t2' : |fr (F64.sub (F64.sub a.hi.round a.hi).abs Double.half) - (|fr (F64.sub a.hi.round a.hi)| - 1 / 2)|
      ≤ 1 / 2 ^ 52 := by
    refine t2.trans ?_
    have : |(|fr (F64.sub a.hi.round a.hi)|) - 1 / 2| ≤ 1 / 2 := by
      rw [abs_le]
      constructor <;> linarith [abs_nonneg (fr (F64.sub a.hi.round a.hi))]
    refine (div_le_div_of_nonneg_right this (by positivity)).trans (by norm_num)
  have base : |rv a - (ro h : ℤ)| ≤ 1 / 2 + 1 / 2 ^ 8 := by
    rw [show rv a - ((ro h : ℤ) : ℝ) = (fr a.hi - ro h) + fr a.lo by rw [fl]; ring]
    exact (abs_add_le _ _).trans (add_le_add hro (lo2.trans (by norm_num)))
  have zer : |rv a| ≤ 1 / 4 → ro h = 0 := by
    intro hq
    have : |((ro h : ℤ) : ℝ)| < 1 := by
      rw [abs_le] at hq base
      rw [abs_lt]
      norm_num at base
      constructor <;> linarith [base.1, base.2]
    have : |ro h| < 1 := by exact_mod_cast this
    exact Int.abs_lt_one_iff.mp this
  clear bigp s2 t2 d
  unfold Double.round
  dsimp only
  split_ifs with c1 c2
  · have il : Is a.lo.round 0 := by have := is_round ia.2; rwa [lr, zero_mul] at this
    have q := is_quickTwoSum_norm hr il (norm2_zero_right hr.rep)
    exact ⟨ro h, ap_int2 q.1 q.2, Or.inl base, zer⟩
  · rw [Bool.and_eq_true, fr_lt t3 fr_eps.1, t4, fr_eps.2] at c2
    obtain ⟨c2, -⟩ := c2
    have is1 : Is (F64.sub a.hi.round (ofDec false 1 0)) ((ro h - 1) * one') := by
      have hz : |ro h - 1| ≤ 2 ^ 53 := by
        have : |((ro h : ℤ) : ℝ) - 1| ≤ 2 ^ 53 := by
          rw [abs_le] at hb base ⊢
          norm_num at hb base ⊢
          constructor <;> linarith [hb.1, hb.2, base.1, base.2]
        exact_mod_cast this
      refine hr.sub_rep is_lit_one (by ring) (rep_int hz) ?_
      rw [abs_mul, abs_of_pos one'_pos]
      unfold ovf one'
      calc |ro h - 1| * 2 ^ 1074 ≤ 2 ^ 53 * 2 ^ 1074 := mul_le_mul_of_nonneg_right hz (by positivity)
        _ = 2 ^ 1127 := by rw [← pow_add]
        _ < _ := pow_lt_pow_right₀ (by norm_num) (by norm_num)
    refine ⟨ro h - 1, ap_int2 is1 is_zero', ?_, ?_⟩
    · have e : |(|fr (F64.sub a.hi.round a.hi)|) - 1 / 2| ≤ 1 / 2 ^ 51 := by
        rw [abs_lt] at c2
        rw [abs_le] at t2' ⊢
        norm_num at c2 t2' ⊢
        constructor <;> linarith [c2.1, c2.2, t2'.1, t2'.2]
      push_cast
      rw [abs_le] at e s2' lo2
      norm_num at e s2' lo2
      rcases abs_cases (fr (F64.sub a.hi.round a.hi)) with ⟨h1, -⟩ | ⟨h1, -⟩
      · left
        rw [h1] at e
        rw [abs_le]; norm_num
        constructor <;> linarith [e.1, e.2, s2'.1, s2'.2, lo2.1, lo2.2]
      · right
        rw [h1] at e
        rw [abs_le]; norm_num
        constructor <;> linarith [e.1, e.2, s2'.1, s2'.2, lo2.1, lo2.2]
    · intro hq
      exfalso
      have z := zer hq
      rw [z] at s2'
      have e : |(|fr (F64.sub a.hi.round a.hi)|) - 1 / 2| ≤ 1 / 2 ^ 51 := by
        rw [abs_lt] at c2
        rw [abs_le] at t2' ⊢
        norm_num at c2 t2' ⊢
        constructor <;> linarith [c2.1, c2.2, t2'.1, t2'.2]
      rw [abs_le] at e s2' lo2 hq
      norm_num at e s2' lo2 hq
      rcases abs_cases (fr (F64.sub a.hi.round a.hi)) with ⟨h1, -⟩ | ⟨h1, -⟩
      · rw [h1] at e
        linarith [e.1, e.2, s2'.1, s2'.2, lo2.1, lo2.2]
      · rw [h1] at e
        linarith [e.1, e.2, s2'.1, s2'.2, lo2.1, lo2.2]
  · exact ⟨ro h, ap_int2 hr is_zero', Or.inl base, zer⟩

/-- A constant and its first component. -/
theorem fr_hi_const {c : Double} {γ : ℝ} (hγ : 0 < γ) (hc : Ap c γ (γ / 2 ^ 104)) : |fr c.hi - γ| ≤ γ / 2 ^ 50 := by
  have h1 := rv_sub_hi hc.1
  have h2 := hc.2
  have h3 := fr_hi_two hc.1
  have h4 := hc.abs_le
  rw [abs_of_pos hγ] at h4
  have h5 : |fr c.hi| / 2 ^ 53 ≤ (2 * (γ + γ / 2 ^ 104)) / 2 ^ 53 :=
    div_le_div_of_nonneg_right (h3.trans (by linarith)) (by positivity)
  have h6 := h1.trans h5
  rw [abs_le] at h2 h6 ⊢
  norm_num at h2 h6 ⊢
  constructor <;> linarith [h2.1, h2.2, h6.1, h6.2]

/-- The rounding of the quotient by a constant, computed with first components: `floor (d.0 / c.0 + 0.5)`. -/
theorem quot_floor {d c : Double} {γ : ℝ} (hd : d.Normalized) (hγ : 0 < γ) (hc : Ap c γ (γ / 2 ^ 104))
    (hb : |rv d| ≤ 10 * γ) :
    ∃ Q : ℤ, Is (F64.floor (F64.add (F64.div d.hi c.hi) Double.half)) (Q * one') ∧
      |rv d - Q * γ| ≤ γ * (1 / 2 + 1 / 2 ^ 40) := by
  have hC := fr_hi_const hγ hc
  have hC' := abs_le.mp hC
  have hCp : 0 < fr c.hi := by
    have : γ / 2 ^ 50 < γ := div_lt_self hγ (by norm_num)
    linarith [hC'.1]
  have hH : |fr d.hi| ≤ 11 * γ := by
    have h1 := rv_sub_hi hd
    have h2 := fr_hi_two hd
    have h3 : |fr d.hi| / 2 ^ 53 ≤ (20 * γ) / 2 ^ 53 := div_le_div_of_nonneg_right (by linarith) (by positivity)
    have h4 := h1.trans h3
    rw [abs_le] at h4 hb ⊢
    norm_num at h4
    constructor <;> linarith [h4.1, h4.2, hb.1, hb.2]
  have hd1 := rv_sub_hi hd
  have R12 : |fr d.hi / fr c.hi| ≤ 12 := by
    rw [abs_div, abs_of_pos hCp, div_le_iff₀ hCp]
    norm_num at hC'
    linarith [hC'.1]
  have bigp : (16:ℝ) ≤ 2 ^ 1022 := by
    have : (2:ℝ) ^ 4 ≤ 2 ^ 1022 := pow_le_pow_right₀ (by norm_num) (by norm_num)
    refine le_trans (by norm_num) this
  obtain ⟨f1, q1⟩ := fr_div hd.1.1 hc.1.1.1 hCp.ne' (R12.trans (le_trans (by norm_num) bigp))
  have q1' : |fr (F64.div d.hi c.hi) - fr d.hi / fr c.hi| ≤ 1 / 2 ^ 48 := by
    refine q1.trans ?_
    refine (add_le_add (div_le_div_of_nonneg_right R12 (by positivity)) le_rfl).trans (by norm_num)
  have q2 : |fr (F64.div d.hi c.hi) + fr Double.half| ≤ 13 := by
    rw [fr_half.2]
    rw [abs_le] at R12 q1' ⊢
    norm_num at q1' ⊢
    constructor <;> linarith [R12.1, R12.2, q1'.1, q1'.2]
  obtain ⟨f2, q3⟩ := fr_add f1 fr_half.1 (q2.trans (le_trans (by norm_num) bigp))
  have q3' : |fr (F64.add (F64.div d.hi c.hi) Double.half) - (fr (F64.div d.hi c.hi) + fr Double.half)| ≤ 1 / 2 ^ 49 := by
    refine q3.trans ?_
    refine (div_le_div_of_nonneg_right q2 (by positivity)).trans (by norm_num)
  obtain ⟨f3, q4⟩ := fr_floor f2
  have i := is_of_fr f3 q4
  refine ⟨⌊fr (F64.add (F64.div d.hi c.hi) Double.half)⌋, i, ?_⟩
  have g1 := Int.floor_le (fr (F64.add (F64.div d.hi c.hi) Double.half))
  have g2 := Int.lt_floor_add_one (fr (F64.add (F64.div d.hi c.hi) Double.half))
  clear i q4 f1 f2 f3 q1 q3 bigp
  rw [fr_half.2] at q3' q2
  generalize ⌊fr (F64.add (F64.div d.hi c.hi) Double.half)⌋ = m at *
  generalize fr (F64.add (F64.div d.hi c.hi) Double.half) = S at *
  generalize fr (F64.div d.hi c.hi) = Q at *
  have e : fr d.hi = fr d.hi / fr c.hi * fr c.hi := (div_mul_cancel₀ _ hCp.ne').symm
  generalize fr d.hi / fr c.hi = R at *
  have mR : |R - m| ≤ 1 / 2 + 1 / 2 ^ 47 := by
    rw [abs_le] at q1' q3' ⊢
    norm_num at q1' q3' ⊢
    constructor <;> linarith [q1'.1, q1'.2, q3'.1, q3'.2]
  have e2 : rv d - m * γ = (rv d - fr d.hi) + (R - m) * γ + R * (fr c.hi - γ) := by rw [e]; ring
  rw [e2]
  have t1 : |rv d - fr d.hi| ≤ 11 * γ / 2 ^ 53 := hd1.trans (div_le_div_of_nonneg_right hH (by positivity))
  have t2 : |(R - m) * γ| ≤ (1 / 2 + 1 / 2 ^ 47) * γ := by
    rw [abs_mul, abs_of_pos hγ]; exact mul_le_mul_of_nonneg_right mR hγ.le
  have t3 : |R * (fr c.hi - γ)| ≤ 12 * (γ / 2 ^ 50) := by
    rw [abs_mul]; exact mul_le_mul R12 hC (abs_nonneg _) (by norm_num)
  refine (abs_add_le _ _).trans ((add_le_add ((abs_add_le _ _).trans (add_le_add t1 t2)) t3).trans ?_)
  norm_num
  linarith

/-- One reduction step `d - Double(q, 0.0) * c`. -/
theorem step_ap {d c : Double} {Q : ℤ} {x γ e : ℝ} (hd : Ap d x e) (hγ : 0 < γ) (hγ8 : γ ≤ 8)
    (hc : Ap c γ (γ / 2 ^ 104)) (hQ : |(Q : ℝ)| ≤ 2 ^ 45) (hx : |x| ≤ 2 ^ 46) (he : e ≤ 1) {z : Double} (hz : Ap z Q 0) :
    Ap (d - z * c) (x - Q * γ) (e + (131 / 10 * (|(Q : ℝ)| * γ) / 2 ^ 106 + dl) +
      (|x - Q * γ| + e + (131 / 10 * (|(Q : ℝ)| * γ) / 2 ^ 106 + dl)) / 2 ^ 103) := by
  have he0 := hd.nonneg
  have hd0 := dl_pos
  have hd1 : dl ≤ 1 / 2 ^ 249 := by unfold dl; norm_num
  have hQ0 := abs_nonneg (Q : ℝ)
  have hQγ : |(Q : ℝ)| * γ ≤ 2 ^ 45 * 8 := mul_le_mul hQ hγ8 hγ.le (by norm_num)
  have hQγ0 : 0 ≤ |(Q : ℝ)| * γ := by positivity
  have m := hz.mul hc le_rfl (le_of_eq (abs_of_pos hγ)) (g := 131 / 10 * (|(Q : ℝ)| * γ) / 2 ^ 106 + dl)
    (by rw [add_zero]; exact hQ.trans (by norm_num)) (by norm_num; linarith) (by
      rw [mul_zero, zero_mul, add_zero, add_zero, add_zero]
      unfold dl
      refine add_le_add ?_ le_rfl
      have : |(Q:ℝ)| * (γ / 2 ^ 104) + 9 / 2 ^ 106 * (|(Q:ℝ)| * (γ + γ / 2 ^ 104))
        = (|(Q:ℝ)| * γ) * (1 / 2 ^ 104 + 9 / 2 ^ 106 * (1 + 1 / 2 ^ 104)) := by ring
      rw [this]
      generalize |(Q:ℝ)| * γ = T at *
      norm_num
      linarith)
  refine hd.sub m ?_ ?_ le_rfl le_rfl
  · norm_num at hx ⊢; linarith
  · rw [abs_mul, abs_of_pos hγ]
    norm_num at hQγ hd1 ⊢; linarith

theorem near_ap {c : Double} {γ : ℝ} (hγ : 0 < γ) (hn : c.Normalized) (h : Near c.val γ 104) : Ap c γ (γ / 2 ^ 104) := by
  refine ⟨hn, ?_⟩
  unfold Near at h
  rw [abs_of_pos hγ] at h
  rw [le_div_iff₀ (by positivity)]
  exact h

theorem ap_TAU2 : Ap Double.TAU (2 * Real.pi) (2 * Real.pi / 2 ^ 104) :=
  near_ap (by positivity) (C48_double_normalized _ (by simp)) C48_double_values.2.1

theorem ap_PI_2 : Ap Double.FRAC_PI_2 (Real.pi / 2) (Real.pi / 2 / 2 ^ 104) :=
  near_ap (by positivity) (C48_double_normalized _ (by simp)) C48_double_values.2.2.1

theorem ap_PI_16 : Ap Double.FRAC_PI_16 (Real.pi / 16) (Real.pi / 16 / 2 ^ 104) :=
  near_ap (by positivity) (C48_double_normalized _ (by simp)) C48_double_values.2.2.2.2.2.2.2.1

theorem pi_bds : 3.1415926 < Real.pi ∧ Real.pi < 3.1415927 :=
  ⟨by linarith [Real.pi_gt_d20], by linarith [Real.pi_lt_d20]⟩

/-- The quotient by `2π`. -/
theorem quot_tau {a : Double} (ha : a.Normalized) (h2 : |rv a| ≤ 2 ^ 45) :
    Ap (a / Double.TAU) (rv a / (2 * Real.pi)) (1 / 2 ^ 50) ∧ (|rv a| ≤ 9 / 100 → |rv (a / Double.TAU)| ≤ 1 / 4) ∧
      |rv (a / Double.TAU)| ≤ 2 ^ 43 := by
  obtain ⟨p1, p2⟩ := pi_bds
  have hT := ap_TAU2
  have hT2 := abs_le.mp hT.2
  have hTb : 6.28 ≤ rv Double.TAU ∧ rv Double.TAU ≤ 6.29 := by
    norm_num at hT2 p1 p2 ⊢
    constructor <;> linarith [hT2.1, hT2.2]
  have hTa : |rv Double.TAU| = rv Double.TAU := abs_of_pos (by linarith [hTb.1])
  have big : (2:ℝ) ^ 45 ≤ 2 ^ 900 := pow_le_pow_right₀ (by norm_num) (by norm_num)
  have q := rw_diva ha hT.1 (h2.trans big) (by rw [hTa]; norm_num; linarith [hTb.1])
  have sm : (1:ℝ) / 2 ^ 1010 ≤ 1 / 2 ^ 60 :=
    one_div_le_one_div_of_le (by positivity) (pow_le_pow_right₀ (by norm_num) (by norm_num))
  replace q := q.mono (add_le_add le_rfl sm)
  clear big sm
  have hA0 := abs_nonneg (rv a)
  have e1 : |rv a / rv Double.TAU| ≤ |rv a| / 6.28 := by
    rw [abs_div, hTa]
    exact div_le_div_of_nonneg_left hA0 (by norm_num) hTb.1
  have e2 : |rv a / rv Double.TAU - rv a / (2 * Real.pi)| ≤ |rv a| / 2 ^ 100 := by
    have hne : rv Double.TAU ≠ 0 := by linarith [hTb.1]
    have : rv a / rv Double.TAU - rv a / (2 * Real.pi) = rv a * ((2 * Real.pi - rv Double.TAU) / (rv Double.TAU * (2 * Real.pi))) := by
      field_simp
    rw [this, abs_mul]
    rw [div_eq_mul_one_div |rv a|]
    apply mul_le_mul_of_nonneg_left _ hA0
    rw [abs_div, abs_sub_comm, abs_of_pos (show 0 < rv Double.TAU * (2 * Real.pi) by nlinarith [hTb.1]), div_le_iff₀ (by nlinarith [hTb.1])]
    refine hT.2.trans ?_
    have : 6 * (2 * Real.pi) ≤ rv Double.TAU * (2 * Real.pi) := mul_le_mul_of_nonneg_right (by linarith [hTb.1]) (by linarith)
    norm_num at this ⊢
    linarith
  have q' := (q.move e2).mono (f := 1 / 2 ^ 50) (by
    have : |rv a / rv Double.TAU| / 2 ^ 102 ≤ |rv a| / 6.28 / 2 ^ 102 := div_le_div_of_nonneg_right e1 (by positivity)
    norm_num at this h2 ⊢
    linarith)
  have e3 : |rv a / (2 * Real.pi)| ≤ |rv a| / 6.28 := by
    rw [abs_div, abs_of_pos (show 0 < 2 * Real.pi by linarith)]
    exact div_le_div_of_nonneg_left hA0 (by norm_num) (by linarith)
  have q2 := q'.abs_le
  refine ⟨q', fun h => ?_, ?_⟩
  · norm_num at q2 e3; linarith
  · norm_num at q2 e3 h2 ⊢; linarith

set_option maxHeartbeats 2000000 in
/-- What `reduce` computes. -/
theorem reduce_spec {a : Double} (ha : a.Normalized) (h2 : |rv a| ≤ 2 ^ 45) :
    ∃ (Z Q K : ℤ) (t : Double), Double.reduce a = (Q, K, t) ∧ (|Q| ≤ 2 ∨ Q = 6) ∧ |K| ≤ 4 ∧
      Ap t (rv a - Z * (2 * Real.pi) - Q * (Real.pi / 2) - K * (Real.pi / 16)) ((14 * |rv a| + 350) / 2 ^ 106) ∧
      |rv t| ≤ 99 / 1000 ∧
      (|rv a| ≤ 9 / 100 → Z = 0 ∧ Q = 0 ∧ K = 0 ∧ |rv t - rv a| ≤ |rv a| * (25 / 2 ^ 106) + 5 * dl) := by
  obtain ⟨p1, p2⟩ := pi_bds
  obtain ⟨w1, w2, w3⟩ := quot_tau ha h2
  obtain ⟨Z, z1, z2, z3⟩ := round_weak w1.1 w3
  have hA0 := abs_nonneg (rv a)
  have hd0 := dl_pos
  have hd1 : dl ≤ 1 / 2 ^ 240 := by unfold dl; norm_num
  have W := w1.2
  have hAW : rv a / (2 * Real.pi) * (2 * Real.pi) = rv a := div_mul_cancel₀ _ (by positivity)
  -- size of Z and of the first remainder
  have zW : |rv a / (2 * Real.pi) - Z| ≤ 1 / 2 + 1 / 2 ^ 7 ∨ |rv a / (2 * Real.pi) - Z - 3 / 2| ≤ 1 / 2 ^ 7 := by
    rcases z2 with z2 | z2
    · left
      rw [abs_le] at z2 W ⊢
      norm_num at z2 W ⊢
      constructor <;> linarith [z2.1, z2.2, W.1, W.2]
    · right
      rw [abs_le] at z2 W ⊢
      norm_num at z2 W ⊢
      constructor <;> linarith [z2.1, z2.2, W.1, W.2]
  have zW2 : |rv a / (2 * Real.pi) - Z| ≤ 1.51 := by
    rcases zW with h | h
    · rw [abs_le] at h ⊢; norm_num at h ⊢; constructor <;> linarith [h.1, h.2]
    · rw [abs_le] at h ⊢; norm_num at h ⊢; constructor <;> linarith [h.1, h.2]
  have X1 : |rv a - Z * (2 * Real.pi)| ≤ 9.49 := by
    have : rv a - Z * (2 * Real.pi) = (rv a / (2 * Real.pi) - Z) * (2 * Real.pi) := by rw [sub_mul, hAW]
    rw [this, abs_mul, abs_of_pos (show 0 < 2 * Real.pi by linarith)]
    refine (mul_le_mul zW2 (show 2 * Real.pi ≤ 6.284 by linarith) (by linarith) (by norm_num)).trans (by norm_num)
  have ZT : |(Z:ℝ)| * (2 * Real.pi) ≤ |rv a| + 9.49 := by
    have : |(Z:ℝ)| * (2 * Real.pi) = |Z * (2 * Real.pi)| := by rw [abs_mul, abs_of_pos (show 0 < 2 * Real.pi by linarith)]
    rw [this]
    rw [abs_le] at X1
    rcases abs_cases (Z * (2 * Real.pi)) with ⟨h, _⟩ | ⟨h, _⟩ <;> rw [h] <;> linarith [le_abs_self (rv a), neg_abs_le (rv a), X1.1, X1.2]
  have Zb : |(Z:ℝ)| ≤ 2 ^ 45 := by
    have : |(Z:ℝ)| * 6 ≤ |(Z:ℝ)| * (2 * Real.pi) := mul_le_mul_of_nonneg_left (by linarith) (abs_nonneg _)
    norm_num at h2 ZT this ⊢
    linarith
  have r1 := step_ap (Ap.exact ha) (show 0 < 2 * Real.pi by linarith) (by linarith) ap_TAU2 Zb (h2.trans (by norm_num)) (by norm_num) z1
  obtain ⟨e1, r1, r2, r0⟩ : ∃ e, Ap (a - (a / Double.TAU).round * Double.TAU) (rv a - Z * (2 * Real.pi)) e ∧
      e ≤ (137 / 10 * |rv a| + 201) / 2 ^ 106 ∧ (Z = 0 → e ≤ |rv a| * (81 / 10 / 2 ^ 106) + 11 / 10 * dl) := by
    refine ⟨_, r1, ?_, ?_⟩
    · norm_num at ZT X1 hd1 ⊢
      linarith
    · rintro rfl
      norm_num at hd1 ⊢
      linarith
  unfold Double.reduce
  dsimp only
  generalize a - (a / Double.TAU).round * Double.TAU = r at *
  have he1 := r2
  replace r2 := r1.mono r2
  clear w1 z1 w3 z2 W
  have r2s : (14 * |rv a| + 350) / 2 ^ 106 ≤ 1 / 2 ^ 50 := by norm_num at h2 ⊢; linarith
  -- the quadrant
  have rb2 := r2.abs_le
  obtain ⟨Q, q1, q2⟩ := quot_floor r1.1 (show 0 < Real.pi / 2 by linarith) ap_PI_2 (by norm_num at rb2 X1 r2s ⊢; linarith)
  have Q6 : |Q| ≤ 2 ∨ Q = 6 := by
    have rr := r2.2
    have e1 : rv a - Z * (2 * Real.pi) = (rv a / (2 * Real.pi) - Z) * 4 * (Real.pi / 2) := by
      have : (rv a / (2 * Real.pi) - Z) * 4 * (Real.pi / 2) = rv a / (2 * Real.pi) * (2 * Real.pi) - Z * (2 * Real.pi) := by ring
      rw [this, hAW]
    have key : |(rv a / (2 * Real.pi) - Z) * 4 - Q| * (Real.pi / 2) ≤ 0.51 * (Real.pi / 2) := by
      rw [← abs_of_pos (show 0 < Real.pi / 2 by linarith), ← abs_mul, abs_of_pos (show 0 < Real.pi / 2 by linarith)]
      rw [sub_mul, ← e1]
      rw [abs_le] at rr q2 ⊢
      norm_num at rr q2 r2s ⊢
      constructor <;> linarith [rr.1, rr.2, q2.1, q2.2]
    have key2 := le_of_mul_le_mul_right key (by linarith)
    rcases zW with h | h
    · left
      have : |(Q:ℝ)| < 3 := by
        rw [abs_le] at h key2
        rw [abs_lt]
        norm_num at h key2
        constructor <;> linarith [h.1, h.2, key2.1, key2.2]
      have : |Q| < 3 := by exact_mod_cast this
      omega
    · right
      have h5 : (5:ℝ) < Q ∧ (Q:ℝ) < 7 := by
        rw [abs_le] at h key2
        norm_num at h key2
        constructor <;> linarith [h.1, h.2, key2.1, key2.2]
      have h5' : 5 < Q ∧ Q < 7 := ⟨by exact_mod_cast h5.1, by exact_mod_cast h5.2⟩
      omega
  have Qb : |(Q:ℝ)| ≤ 6 := by
    rcases Q6 with h | h
    · have : |(Q:ℝ)| ≤ 2 := by exact_mod_cast h
      linarith
    · rw [h]; norm_num
  have Qp : |(Q:ℝ)| * (Real.pi / 2) ≤ 9.425 := by
    refine (mul_le_mul Qb (show Real.pi / 2 ≤ 1.5708 by linarith) (by linarith) (by norm_num)).trans (by norm_num)
  have X2 : |rv a - Z * (2 * Real.pi) - Q * (Real.pi / 2)| ≤ 0.786 := by
    have rr := r2.2
    rw [abs_le] at rr q2 ⊢
    norm_num at rr q2 r2s ⊢
    constructor <;> linarith [rr.1, rr.2, q2.1, q2.2]
  have t1 := step_ap r1 (show 0 < Real.pi / 2 by linarith) (by linarith) ap_PI_2 (Q := Q) (Qb.trans (by norm_num))
    (X1.trans (by norm_num)) (by norm_num at he1 r2s ⊢; linarith) (ap_int q1)
  have jj := toI32_of_is q1 (by rcases Q6 with h | h <;> [omega; (rw [h]; norm_num)])
  rw [jj]
  clear q1 jj
  generalize (F64.floor (F64.add (F64.div r.hi Double.FRAC_PI_2.hi) Double.half)) = qq at *
  obtain ⟨e2, t1, he2, t0⟩ : ∃ e, Ap (r - (⟨qq, F64.zero⟩ : Double) * Double.FRAC_PI_2)
      (rv a - Z * (2 * Real.pi) - Q * (Real.pi / 2)) e ∧
      e ≤ (138 / 10 * |rv a| + 332) / 2 ^ 106 ∧ (Z = 0 → Q = 0 → e ≤ |rv a| * (162 / 10 / 2 ^ 106) + 22 / 10 * dl) := by
    refine ⟨_, t1, ?_, ?_⟩
    · norm_num at he1 hd1 Qp X2 ⊢
      linarith
    · intro hZ hQ
      have := r0 hZ
      subst hZ hQ
      norm_num at hd1 this ⊢
      linarith
  generalize r - (⟨qq, F64.zero⟩ : Double) * Double.FRAC_PI_2 = t at *
  have t2 := t1.mono he2
  have tb := t2.abs_le
  obtain ⟨K, k1, k2⟩ := quot_floor t1.1 (show 0 < Real.pi / 16 by linarith) ap_PI_16 (by norm_num at tb X2 r2s ⊢; linarith)
  have K4 : |K| ≤ 4 := by
    have key : |(K:ℝ)| * (Real.pi / 16) < 5 * (Real.pi / 16) := by
      have : |(K:ℝ)| * (Real.pi / 16) = |K * (Real.pi / 16)| := by
        rw [abs_mul, abs_of_pos (show 0 < Real.pi / 16 by linarith)]
      rw [this]
      rw [abs_le] at k2
      have tb' := abs_le.mp (tb.trans (show _ ≤ (0.7861:ℝ) by norm_num at X2 r2s ⊢; linarith))
      rw [abs_lt]
      norm_num at k2 tb' ⊢
      constructor <;> linarith [k2.1, k2.2, tb'.1, tb'.2]
    have key2 := lt_of_mul_lt_mul_right key (by linarith)
    have : |K| < 5 := by exact_mod_cast key2
    omega
  have Kb : |(K:ℝ)| ≤ 4 := by exact_mod_cast K4
  have Kp : |(K:ℝ)| * (Real.pi / 16) ≤ 0.786 := by
    refine (mul_le_mul Kb (show Real.pi / 16 ≤ 0.19635 by linarith) (by linarith) (by norm_num)).trans (by norm_num)
  have X3 : |rv a - Z * (2 * Real.pi) - Q * (Real.pi / 2) - K * (Real.pi / 16)| ≤ 0.0983 := by
    have rr := t2.2
    rw [abs_le] at rr k2 ⊢
    norm_num at rr k2 r2s ⊢
    constructor <;> linarith [rr.1, rr.2, k2.1, k2.2]
  have u1 := step_ap t1 (show 0 < Real.pi / 16 by linarith) (by linarith) ap_PI_16 (Q := K) (Kb.trans (by norm_num))
    (X2.trans (by norm_num)) (by norm_num at he2 r2s ⊢; linarith) (ap_int k1)
  have kk := toI32_of_is k1 (by omega)
  rw [kk]
  clear k1 kk
  generalize (F64.floor (F64.add (F64.div t.hi Double.FRAC_PI_16.hi) Double.half)) = qk at *
  obtain ⟨e3, u1, he3, u0⟩ : ∃ e, Ap (t - (⟨qk, F64.zero⟩ : Double) * Double.FRAC_PI_16)
      (rv a - Z * (2 * Real.pi) - Q * (Real.pi / 2) - K * (Real.pi / 16)) e ∧
      e ≤ (14 * |rv a| + 350) / 2 ^ 106 ∧ (Z = 0 → Q = 0 → K = 0 → e ≤ |rv a| * (25 / 2 ^ 106) + 5 * dl) := by
    refine ⟨_, u1, ?_, ?_⟩
    · norm_num at he2 hd1 Kp X3 ⊢
      linarith
    · intro hZ hQ hK
      have := t0 hZ hQ
      subst hZ hQ hK
      norm_num at hd1 this ⊢
      linarith
  have u2 := u1.mono he3
  have ub := u2.abs_le
  refine ⟨Z, Q, K, _, rfl, Q6, K4, u2, ?_, ?_⟩
  · norm_num at ub X3 r2s ⊢; linarith
  · intro hs
    have hZ : Z = 0 := z3 (w2 hs)
    subst hZ
    have e0 : rv a - ((0:ℤ):ℝ) * (2 * Real.pi) = rv a := by push_cast; ring
    have hQ : Q = 0 := by
      have rr := r2.2
      rw [e0] at rr
      have key : |(Q:ℝ)| * (Real.pi / 2) < 1 * (Real.pi / 2) := by
        have : |(Q:ℝ)| * (Real.pi / 2) = |Q * (Real.pi / 2)| := by
          rw [abs_mul, abs_of_pos (show 0 < Real.pi / 2 by linarith)]
        rw [this, abs_lt]
        rw [abs_le] at q2 rr hs
        norm_num at q2 rr r2s hs ⊢
        constructor <;> linarith [q2.1, q2.2, rr.1, rr.2, hs.1, hs.2]
      have key2 := lt_of_mul_lt_mul_right key (by linarith)
      have : |Q| < 1 := by exact_mod_cast key2
      exact Int.abs_lt_one_iff.mp this
    subst hQ
    have e1 : rv a - ((0:ℤ):ℝ) * (2 * Real.pi) - ((0:ℤ):ℝ) * (Real.pi / 2) = rv a := by push_cast; ring
    have hK : K = 0 := by
      have rr := t2.2
      rw [e1] at rr
      have key : |(K:ℝ)| * (Real.pi / 16) < 1 * (Real.pi / 16) := by
        have : |(K:ℝ)| * (Real.pi / 16) = |K * (Real.pi / 16)| := by
          rw [abs_mul, abs_of_pos (show 0 < Real.pi / 16 by linarith)]
        rw [this, abs_lt]
        rw [abs_le] at k2 rr hs
        norm_num at k2 rr r2s hs ⊢
        constructor <;> linarith [k2.1, k2.2, rr.1, rr.2, hs.1, hs.2]
      have key2 := lt_of_mul_lt_mul_right key (by linarith)
      have : |K| < 1 := by exact_mod_cast key2
      exact Int.abs_lt_one_iff.mp this
    subst hK
    refine ⟨rfl, rfl, rfl, ?_⟩
    have e2 : rv a - ((0:ℤ):ℝ) * (2 * Real.pi) - ((0:ℤ):ℝ) * (Real.pi / 2) - ((0:ℤ):ℝ) * (Real.pi / 16) = rv a := by
      push_cast; ring
    have u3 := u1.2
    rw [e2] at u3
    exact u3.trans (u0 rfl rfl rfl)

end Verif
