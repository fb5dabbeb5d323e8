import Verif.Proofs.QuadFloorGap
import Verif.Proofs.QuadDivInt
import Verif.Proofs.QuadRound
import Verif.Props.QuadExact
import Verif.Props.Rem
import Verif.Props.QuadWhole

/-!
# C23: the remainder of Quads
-/

namespace Verif

open F64 Prim Util Quad

theorem two_pow_one' : (2:ℤ) ^ 1074 = one' := by unfold one'; rfl

/-- A normalized number that is a whole number of at most 50 bits has one component. -/
theorem quad_int_single {b : Quad} {n : ℤ} (hb : b.Normalized) (eb : b.val = n) (hn : |n| ≤ 2 ^ 50) : QIs b (n * one', 0, 0, 0) := by
  have q := QIs.of_fin hb.1
  obtain ⟨n1, n2, n3⟩ := q.normalized_iff.mp hb
  have hs : b.c0.units + b.c1.units + b.c2.units + b.c3.units = n * one' := by
    have h := q.val
    rw [eb] at h
    have := one'_ne
    rw [eq_div_iff this] at h
    have h2 : n * one' = sum4 (b.c0.units, b.c1.units, b.c2.units, b.c3.units) := by exact_mod_cast h
    rw [h2]; rfl
  have hd : (2:ℤ) ^ 1074 ∣ b.c0.units + b.c1.units + b.c2.units + b.c3.units := by
    rw [hs, two_pow_one']; exact dvd_mul_left _ _
  obtain ⟨d0, d1, d2, d3⟩ := norm4_dvd n1 n2 n3 hd
  rw [two_pow_one'] at d0 d1 d2 d3
  have l1 := n1.lo_le
  have l2 := n2.lo_le
  have l3 := n3.lo_le
  dsimp only at l1 l2 l3
  have hp := one'_pos
  have p1 := abs_nonneg b.c1.units
  have p2 := abs_nonneg b.c2.units
  have p3 := abs_nonneg b.c3.units
  have hc : |b.c0.units| ≤ 2 ^ 51 * one' := by
    have h1 : |n * one'| ≤ 2 ^ 50 * one' := by
      rw [abs_mul, abs_of_pos hp]; exact mul_le_mul_of_nonneg_right hn hp.le
    have h2 : |b.c0.units| ≤ |n * one'| + |b.c1.units| + |b.c2.units| + |b.c3.units| := by
      rw [← hs]
      have t0 := abs_sub (b.c0.units + b.c1.units + b.c2.units + b.c3.units) (b.c1.units + b.c2.units + b.c3.units)
      have := abs_add_le (b.c1.units + b.c2.units) b.c3.units
      have := abs_add_le b.c1.units b.c2.units
      have e : b.c0.units + b.c1.units + b.c2.units + b.c3.units - (b.c1.units + b.c2.units + b.c3.units) = b.c0.units := by ring
      rw [e] at t0
      linarith
    omega
  have z1 : b.c1.units = 0 := Int.eq_zero_of_abs_lt_dvd d1 (by omega)
  have z2 : b.c2.units = 0 := Int.eq_zero_of_abs_lt_dvd d2 (by rw [z1, abs_zero] at l2; omega)
  have z3 : b.c3.units = 0 := Int.eq_zero_of_abs_lt_dvd d3 (by rw [z2, abs_zero] at l3; omega)
  rw [z1, z2, z3, add_zero, add_zero, add_zero] at hs
  rw [z1, z2, z3, hs] at q
  exact q

theorem grq_single {f : Quad} {N : ℤ} (h : QIs f (N * one', 0, 0, 0)) : GrQ 1074 f := by
  have i0 := h.i0.2
  have i1 := h.i1.2
  have i2 := h.i2.2
  have i3 := h.i3.2
  dsimp only at i0 i1 i2 i3
  refine ⟨?_, ?_, ?_, ?_⟩ <;> unfold Gr
  · rw [i0, two_pow_one']; exact dvd_mul_left _ _
  · rw [i1]; exact dvd_zero _
  · rw [i2]; exact dvd_zero _
  · rw [i3]; exact dvd_zero _

/-- The multiplication and subtraction of `rem` are exact. -/
theorem qrem_finish {a b f : Quad} {m n N : ℤ} (ha : a.Normalized) (ea : a.val = m) (hb : QIs b (n * one', 0, 0, 0)) (hn : n ≠ 0)
    (hf : QIs f (N * one', 0, 0, 0)) (hm : |m| ≤ 2 ^ 100) (hn2 : |n| ≤ 2 ^ 50) (hN2 : |N| ≤ 2 ^ 50) :
    (a - b * f).Fin ∧ (a - b * f).val = (m - n * N : ℤ) := by
  have hm' : |(m : ℝ)| ≤ 2 ^ 100 := by exact_mod_cast hm
  have hn' : |(n : ℝ)| ≤ 2 ^ 50 := by exact_mod_cast hn2
  have hn1 : 1 ≤ |(n : ℝ)| := by exact_mod_cast Int.one_le_abs hn
  have hN' : |(N : ℝ)| ≤ 2 ^ 50 := by exact_mod_cast hN2
  have hN0 := abs_nonneg (N : ℝ)
  have qb := qa_int4 hb.i0 hb.i1 hb.i2 hb.i3
  have qf := qa_int4 hf.i0 hf.i1 hf.i2 hf.i3
  have qf : QA f (N : ℝ) 0 (|(N : ℝ)| + 1) := qf.mono le_rfl (by linarith)
  have qa := (qord_norm ha).exact
  have ev : qv a = (m : ℝ) := by unfold qv; rw [ea]; push_cast; rfl
  rw [ev] at qa
  have hXY : |(n : ℝ)| * (|(N : ℝ)| + 1) ≤ 2 ^ 101 := by
    have := mul_le_mul hn' (show |(N:ℝ)| + 1 ≤ 2 ^ 51 by norm_num at hN' ⊢; linarith) (by positivity) (by positivity)
    refine this.trans ?_
    norm_num
  have hXY1 : 1 ≤ |(n : ℝ)| * (|(N : ℝ)| + 1) := by
    have := mul_le_mul hn1 (show 1 ≤ |(N:ℝ)| + 1 by linarith) zero_le_one (by positivity)
    simpa using this
  have hnN : |(n : ℝ) * N| ≤ |(n : ℝ)| * (|(N : ℝ)| + 1) := by
    rw [abs_mul]; exact mul_le_mul_of_nonneg_left (by linarith) (by positivity)
  have big : (1:ℝ) ≤ 2 ^ 210 * 2 ^ 210 * (2 ^ 210 * 2 ^ 210) := by norm_num
  have big2 : (2:ℝ) ^ 110 ≤ 2 ^ 225 * 2 ^ 225 * 2 ^ 225 * 2 ^ 225 := by
    have e : (2:ℝ) ^ 225 * 2 ^ 225 * 2 ^ 225 * 2 ^ 225 = 2 ^ 110 * (2 ^ 115 * 2 ^ 225 * 2 ^ 225 * 2 ^ 225) := by
      rw [← pow_add, ← pow_add, ← pow_add, ← pow_add, ← pow_add, ← pow_add, ← pow_add]
    rw [e]
    exact le_mul_of_one_le_right (by positivity) (by norm_num)
  generalize hP : |(n : ℝ)| * (|(N : ℝ)| + 1) = P at *
  have qp : QA (b * f) ((n : ℝ) * N) (P / 2 ^ 139) (2 * P) := by
    refine qb.mulW qf (by linarith) (by linarith) ?_ ?_ ?_ ?_ ?_
    · rw [hP]
      have := mul_le_mul hXY1 big zero_le_one (by linarith)
      linarith
    · rw [hP]
      refine le_trans ?_ big2
      refine hXY.trans (by norm_num)
    · rw [hP]; simp
    · rw [hP]; linarith
    · rw [hP]
      have : 0 ≤ P := by linarith
      norm_num [-abs_mul]
      linarith
  have qs : QA (a - b * f) ((m : ℝ) - n * N) (1 / 2) (2 ^ 110) := by
    refine qa.sub qp (Z := 2 ^ 105) ?_ ?_ ?_ ?_ ?_ ?_
    · norm_num at hm' ⊢; linarith
    · norm_num at hXY ⊢; linarith
    · exact le_trans (by norm_num) big2
    · norm_num at hXY ⊢; linarith
    · norm_num
    · have := abs_sub (m : ℝ) (n * N)
      norm_num [-abs_mul] at hm' hXY ⊢; linarith
  have hfin : (a - b * f).Fin := qs.fin
  refine ⟨hfin, ?_⟩
  have ga : GrQ 1074 a := by
    have := grq_of (e := 0) (m := m) ha (by norm_num) (by rw [ea]; simp)
    simpa using this
  have gp : GrQ 1074 (b * f) := GrQ.mul rfl (grq_single hb) (grq_single hf)
  obtain ⟨r, hr⟩ := GrQ.val (e := 0) hfin (by norm_num) (by simpa using ga.sub gp)
  rw [zpow_zero, mul_one] at hr
  have herr := qs.err
  have e2 : qv (a - b * f) = (r : ℝ) := by unfold qv; rw [hr]; push_cast; rfl
  rw [e2] at herr
  have h3 : |((r - (m - n * N) : ℤ) : ℝ)| < 1 := by
    push_cast
    refine lt_of_le_of_lt herr (by norm_num)
  have h4 : |r - (m - n * N)| < 1 := by exact_mod_cast h3
  have h5 := Int.abs_lt_one_iff.mp h4
  rw [hr]
  have : r = m - n * N := by omega
  rw [this]

set_option maxHeartbeats 1000000 in
/-- The quotient is floored correctly when it is not an integer. -/
theorem qfloor_quot {a b : Quad} {m n : ℤ} (ha : a.Normalized) (ea : a.val = m) (hb : QIs b (n * one', 0, 0, 0)) (hn : n ≠ 0)
    (hn2 : |n| ≤ 2 ^ 49) (hm : |m| ≤ 2 ^ 45 * |n|) (hd : ¬ n ∣ m) : QIs (a / b).floor (m.fdiv n * one', 0, 0, 0) := by
  obtain ⟨g1, g2⟩ := fdiv_bounds hn hd
  have hm0 : m ≠ 0 := by rintro rfl; exact hd (dvd_zero _)
  have op := one'_posQ
  have hnq : (n : ℚ) ≠ 0 := by exact_mod_cast hn
  have hn1 : 1 ≤ |(n : ℚ)| := by exact_mod_cast Int.one_le_abs hn
  have hm1 : 1 ≤ |(m : ℚ)| := by exact_mod_cast Int.one_le_abs hm0
  have hn2q : |(n : ℚ)| ≤ 2 ^ 49 := by exact_mod_cast hn2
  have hmq : |(m : ℚ)| ≤ 2 ^ 45 * |(n : ℚ)| := by exact_mod_cast hm
  have hm94 : |(m : ℚ)| ≤ 2 ^ 94 := hmq.trans ((mul_le_mul_of_nonneg_left hn2q (by positivity)).trans (by norm_num))
  -- the operands in units
  have oa := qord_norm ha
  obtain ⟨la1, la2⟩ := lead_le oa
  have hUa : UQ a = m * one' := by
    have := quad_val_UQ ha.1
    rw [ea, eq_div_iff op.ne'] at this
    exact this.symm
  have ub0 : U b.c0 = n * one' := by have := U_is hb.i0; push_cast at this; exact this
  have ub1 : U b.c1 = 0 := by have := U_is hb.i1; push_cast at this; exact this
  have ub2 : U b.c2 = 0 := by have := U_is hb.i2; push_cast at this; exact this
  have ub3 : U b.c3 = 0 := by have := U_is hb.i3; push_cast at this; exact this
  have hUb : UQ b = n * one' := by unfold UQ; rw [ub0, ub1, ub2, ub3]; ring
  have hab0 : |U b.c0| = |(n : ℚ)| * one' := by rw [ub0, abs_mul, abs_of_pos op]
  rw [hUa, abs_mul, abs_of_pos op] at la1 la2
  obtain ⟨A, hA⟩ : ∃ A, |U a.c0| = A := ⟨_, rfl⟩
  rw [hA] at la1 la2
  have bigo : (2:ℚ) ^ 250 * 2 ^ 250 ≤ one' := by
    rw [one'_pow, ← pow_add]; exact pow_le_pow_right₀ (by norm_num) (by norm_num)
  have hmo : (one' : ℚ) ≤ |(m : ℚ)| * one' := le_mul_of_one_le_left op.le hm1
  have hA1 : one' / 2 ≤ A := by
    have e := hmo.trans la2
    linarith
  have hAm : A ≤ 2 ^ 95 * one' := by
    have := mul_le_mul_of_nonneg_right hm94 op.le
    linarith
  have oQ : QS a (1 / 2 ^ 49) (A / 2 ^ 141) := by
    have d1 := oa.d1
    have d2 := oa.d2
    have d3 := oa.d3
    unfold Dec at d1 d2 d3
    have p := abs_nonneg (a.c0.units : ℚ)
    have p1 := abs_nonneg (a.c1.units : ℚ)
    have p2 := abs_nonneg (a.c2.units : ℚ)
    have hA0 : 0 ≤ A / 2 ^ 141 := by rw [← hA]; positivity
    refine ⟨oa.f0, oa.f1, oa.f2, oa.f3, ?_, ?_, ?_⟩ <;> unfold U <;> linarith
  have oD : DB b := by
    refine ⟨hb.i0.1, hb.i1.1, hb.i2.1, hb.i3.1, ?_, ?_, ?_, ?_⟩
    · intro h
      unfold U at ub0
      rw [h] at ub0
      have := mul_ne_zero hnq op.ne'
      exact this (by rw [← ub0]; simp)
    · rw [ub1, abs_zero]; positivity
    · rw [ub2, abs_zero]; positivity
    · rw [ub3, abs_zero]; positivity
  have hβ : |U b.c0| / one' = |(n : ℚ)| := by rw [hab0]; field_simp
  have hnp : 0 < |(n : ℚ)| := by linarith
  obtain ⟨W, hW⟩ : ∃ W, W = A / |(n : ℚ)| := ⟨_, rfl⟩
  have hWn : W * |(n : ℚ)| = A := by rw [hW]; field_simp
  have hWb : W * |U b.c0| = A * one' := by rw [hab0, ← mul_assoc, hWn]
  have hW46 : W ≤ 2 ^ 46 * one' := by
    refine le_of_mul_le_mul_right ?_ hnp
    rw [hWn]
    have := mul_le_mul_of_nonneg_right hmq op.le
    generalize hz : (2:ℚ) ^ 46 * one' * |(n:ℚ)| = z
    have hz2 : |(n:ℚ)| * one' = z / 2 ^ 46 := by rw [← hz]; ring
    have : |(m:ℚ)| * one' ≤ z / 2 := by
      refine this.trans ?_
      rw [mul_assoc, hz2]
      linarith
    have : 0 ≤ z := by rw [← hz]; positivity
    linarith
  have hlim : (lim : ℚ) = 3 * 2 ^ 1022 * one' := by
    rw [one'_pow]; unfold lim; push_cast; rw [mul_assoc, ← pow_add]
  have hl200 : 2 ^ 200 * one' ≤ (lim : ℚ) := by
    rw [hlim]
    have h2 : (2:ℚ) ^ 200 ≤ 2 ^ 1022 := pow_le_pow_right₀ (by norm_num) (by norm_num)
    generalize (2:ℚ) ^ 1022 = P at *
    have h3 := mul_le_mul_of_nonneg_right h2 op.le
    rw [mul_assoc]
    linarith
  clear hlim
  have c1 : 100 * A * one' ≤ lim * |U b.c0| := by
    rw [hab0]
    have h1 : 100 * A ≤ (lim : ℚ) := by linarith
    have h2 : (one' : ℚ) ≤ |(n:ℚ)| * one' := le_mul_of_one_le_left op.le hn1
    exact mul_le_mul h1 h2 op.le (by linarith)
  have c2 : 2 ^ 250 ≤ A := by linarith [show (2:ℚ) ^ 250 * 2 ≤ 2 ^ 250 * 2 ^ 250 by norm_num]
  have c3 : |(n:ℚ)| * 2 ^ 250 ≤ A := by
    have := mul_le_mul_of_nonneg_right hn2q (show (0:ℚ) ≤ 2 ^ 250 by positivity)
    linarith [show (2:ℚ) ^ 49 * 2 ^ 250 * 2 ≤ 2 ^ 250 * 2 ^ 250 by norm_num]
  have c4 : 2 * A ≤ one' * 2 ^ 170 := by linarith
  have c5 : 10 ^ 16 * A ≤ (lim : ℚ) := by linarith
  have D := div_slack oQ hA.le oD hβ hWb c1 c2 c3 c4 c5
  have H := div_head oQ hA.le oD hβ hWb c1 c2 c3 c4 c5 (by rw [hA]; linarith)
  obtain ⟨D1, D2, D3⟩ := D
  rw [hUb, hUa] at D3
  clear hl200 c1 c5
  have hW0 : 2 ^ 250 ≤ W := by
    refine le_of_mul_le_mul_right ?_ hnp
    rw [hWn]
    linarith
  have hv : |UQ (a / b) - m / n * one'| ≤ W / 2 ^ 127 := by
    have e : UQ (a / b) * (n * one') / one' - m * one' = (UQ (a / b) - m / n * one') * n := by field_simp
    rw [e, abs_mul] at D3
    refine le_of_mul_le_mul_right ?_ hnp
    have e9 : W / 2 ^ 127 * |(n:ℚ)| = A / 2 ^ 127 := by rw [← hWn]; ring
    rw [e9]
    exact D3
  have hq : W ≤ 2 * |U (a / b).c0| := by
    have e1 : |UQ (a / b) - U (a / b).c0| ≤ |U (a / b).c0| / 2 ^ 48 + W / 2 ^ 140 := by
      have e : UQ (a / b) - U (a / b).c0 = U (a / b).c1 + U (a / b).c2 + U (a / b).c3 := by unfold UQ; ring
      rw [e]
      have := abs_add_le (U (a / b).c1 + U (a / b).c2) (U (a / b).c3)
      have := abs_add_le (U (a / b).c1) (U (a / b).c2)
      have := D1.d1
      have := D1.d2
      have := D1.d3
      have := abs_nonneg (U (a / b).c0)
      linarith
    have e2 : |(m:ℚ) / n * one'| = |(m:ℚ)| * one' / |(n:ℚ)| := by rw [abs_mul, abs_div, abs_of_pos op]; ring
    have e3 : W ≤ |(m:ℚ)| * one' / |(n:ℚ)| * (1 + 1 / 2 ^ 50) := by
      rw [hW, div_mul_eq_mul_div]
      exact div_le_div_of_nonneg_right la1 hnp.le
    have e4 := abs_sub_abs_le_abs_sub ((m:ℚ) / n * one') (UQ (a / b))
    rw [abs_sub_comm, e2] at e4
    have e5 := abs_sub_abs_le_abs_sub (UQ (a / b)) (U (a / b).c0)
    have := abs_nonneg (U (a / b).c0)
    linarith
  have hg : 1 / 2 ^ 49 ≤ 1 / |(n:ℚ)| := one_div_le_one_div_of_le hnp hn2q
  have hv' := abs_le.mp hv
  refine qfloor_gap D1 H hW46 hW0 D2 hq ?_ ?_
  · have h1 : ((m.fdiv n : ℚ) + 1 / 2 ^ 49) * one' ≤ m / n * one' := mul_le_mul_of_nonneg_right (by linarith) op.le
    linarith [hv'.1, hv'.2]
  · have h1 : (m : ℚ) / n * one' ≤ ((m.fdiv n : ℚ) + 1 - 1 / 2 ^ 49) * one' := mul_le_mul_of_nonneg_right (by linarith) op.le
    linarith [hv'.1, hv'.2]

/-- The floor of a whole number with one component. -/
theorem qfloor_single {f : Quad} {N : ℤ} (h : QIs f (N * one', 0, 0, 0)) (hN : |N| ≤ 2 ^ 53) : QIs f.floor (N * one', 0, 0, 0) := by
  have hp := one'_pos
  have key : ∀ {x : F64} {w : ℤ}, Is x (w * one') → Is x.floor (w * one') ∧ Quad.close x.floor x = true := by
    intro x w i
    have hf : fl (w * one') * one' = w * one' := fl_of_dvd (dvd_mul_left _ _)
    have f := is_floor i
    refine ⟨by rwa [hf] at f, (eps_cond i f (by rw [hf, sub_self, abs_zero]; exact hp.le)).2 hf⟩
  have z : ∀ {x : F64}, Is x 0 → Is x (0 * one') := by intro x hx; rwa [zero_mul]
  obtain ⟨a0, c0⟩ := key h.i0
  obtain ⟨a1, c1⟩ := key (z h.i1)
  obtain ⟨a2, c2⟩ := key (z h.i2)
  obtain ⟨a3, c3⟩ := key (z h.i3)
  rw [zero_mul] at a1 a2 a3
  have R := is_renorm4_pair a0 a1 a2 a3 Grid.zero_right (by rw [add_zero]; exact rep_int hN) (by
    rw [abs_zero, add_zero, abs_mul, abs_of_pos hp]
    have e1 : lim = 3 * 2 ^ 1022 * one' := by rw [← two_pow_one']; unfold lim; rw [mul_assoc, ← pow_add]
    rw [e1]
    refine mul_le_mul_of_nonneg_right (hN.trans ?_) hp.le
    have h2 : (2:ℤ) ^ 53 ≤ 2 ^ 1022 := pow_le_pow_right₀ (by norm_num) (by norm_num)
    have h3 : (0:ℤ) < 2 ^ 1022 := by positivity
    clear e1
    generalize (2:ℤ) ^ 1022 = P at *
    omega)
  rw [add_zero] at R
  unfold Quad.floor
  dsimp only
  rw [if_pos c0, if_pos c1, if_pos c2]
  exact ⟨R.1, R.2.1, R.2.2.1, R.2.2.2⟩

/-- Whole numbers below `2 ^ 104` have two components. -/
theorem quad_int_pair {a : Quad} {m : ℤ} (ha : a.Normalized) (ea : a.val = m) (hm : |m| ≤ 2 ^ 104) :
    ∃ x0 x1, QIs a (x0, x1, 0, 0) ∧ Norm2 x0 x1 ∧ x0 + x1 = m * one' := by
  have q := QIs.of_fin ha.1
  obtain ⟨n1, n2, n3⟩ := q.normalized_iff.mp ha
  have hs : a.c0.units + a.c1.units + a.c2.units + a.c3.units = m * one' := by
    have h := q.val
    rw [ea] at h
    have := one'_ne
    rw [eq_div_iff this] at h
    have h2 : m * one' = sum4 (a.c0.units, a.c1.units, a.c2.units, a.c3.units) := by exact_mod_cast h
    rw [h2]; rfl
  have hd : (2:ℤ) ^ 1074 ∣ a.c0.units + a.c1.units + a.c2.units + a.c3.units := by
    rw [hs, two_pow_one']; exact dvd_mul_left _ _
  obtain ⟨d0, d1, d2, d3⟩ := norm4_dvd n1 n2 n3 hd
  rw [two_pow_one'] at d0 d1 d2 d3
  have l1 := n1.lo_le
  have l2 := n2.lo_le
  have l3 := n3.lo_le
  dsimp only at l1 l2 l3 n1
  have hp := one'_pos
  have p1 := abs_nonneg a.c1.units
  have p2 := abs_nonneg a.c2.units
  have p3 := abs_nonneg a.c3.units
  have hc : |a.c0.units| ≤ 2 ^ 105 * one' := by
    have h1 : |m * one'| ≤ 2 ^ 104 * one' := by
      rw [abs_mul, abs_of_pos hp]; exact mul_le_mul_of_nonneg_right hm hp.le
    have h2 : |a.c0.units| ≤ |m * one'| + |a.c1.units| + |a.c2.units| + |a.c3.units| := by
      rw [← hs]
      have t0 := abs_sub (a.c0.units + a.c1.units + a.c2.units + a.c3.units) (a.c1.units + a.c2.units + a.c3.units)
      have := abs_add_le (a.c1.units + a.c2.units) a.c3.units
      have := abs_add_le a.c1.units a.c2.units
      have e : a.c0.units + a.c1.units + a.c2.units + a.c3.units - (a.c1.units + a.c2.units + a.c3.units) = a.c0.units := by ring
      rw [e] at t0
      linarith
    omega
  have z2 : a.c2.units = 0 := Int.eq_zero_of_abs_lt_dvd d2 (by omega)
  have z3 : a.c3.units = 0 := Int.eq_zero_of_abs_lt_dvd d3 (by rw [z2, abs_zero] at l3; omega)
  rw [z2, z3, add_zero, add_zero] at hs
  rw [z2, z3] at q
  exact ⟨_, _, q, n1, hs⟩

/-- Division with a whole quotient. -/
theorem qdiv_int {a b : Quad} {q n : ℤ} (ha : a.Normalized) (ea : a.val = ((q * n : ℤ) : ℚ)) (hb : QIs b (n * one', 0, 0, 0)) (hn : n ≠ 0)
    (hn2 : |n| ≤ 2 ^ 46) (hq : |q| ≤ 2 ^ 53) : QIs (a / b) (q * one', 0, 0, 0) := by
  by_cases h0 : q = 0
  · have hz := norm_zero ha (by rw [ea, h0]; simp)
    have zz := norm2_zero_zero
    have hb0 : n * one' ≠ 0 := mul_ne_zero hn one'_pos.ne'
    rw [h0, zero_mul]
    exact quad_div_single hz ⟨zz, zz, zz⟩ hb hb0 (by ring) (by ring) (by ring) (by ring) ⟨zz, zz, zz⟩ zero_ovf
      (by rw [abs_zero, mul_zero]; unfold lim; positivity)
  · have hm : |q * n| ≤ 2 ^ 99 := by
      rw [abs_mul]
      exact (mul_le_mul hq hn2 (abs_nonneg _) (by positivity)).trans (by norm_num)
    obtain ⟨x0, x1, ia, hx, e⟩ := quad_int_pair ha ea (hm.trans (by norm_num))
    exact qdiv_int_exact ia hx hb e hn hn2 hq h0

/-- **C90, quotients.** Division of Quads is exact, and the quotient has one component, when the quotient is an integer of at
most 53 bits and the divisor an integer of at most 46 bits. -/
theorem C90_div (a b : Quad) (q n : ℤ) (ha : a.Normalized) (hb : b.Normalized) (ea : a.val = ((q * n : ℤ) : ℚ)) (eb : b.val = n)
    (hn : n ≠ 0) (hn2 : |n| ≤ 2 ^ 46) (hq : |q| ≤ 2 ^ 53) : (a / b).Normalized ∧ (a / b).val = q := by
  have h := qdiv_int ha ea (quad_int_single hb eb (hn2.trans (by norm_num))) hn hn2 hq
  have zz := norm2_zero_zero
  exact ⟨h.normalized_iff.mpr ⟨norm2_zero_right (rep_int hq), zz, zz⟩, whole_sum h (by simp [sum4])⟩

/-- A dividend of 99 bits (the product of the two numbers) and a negative divisor. -/
example : let a := Quad.ofU64 (2 ^ 53 - 1) * Quad.ofI64 (-(2 ^ 46 - 3)); let b := Quad.ofI64 (-(2 ^ 46 - 3))
    a.Normalized ∧ b.Normalized ∧ a.val = (((2 ^ 53 - 1) * -(2 ^ 46 - 3) : ℤ) : ℚ) ∧ b.val = ((-(2 ^ 46 - 3) : ℤ) : ℚ) := by
  decide +kernel

/-- **C23, Quads.** `a % b` is the exact floored remainder of whole numbers (divisor of at most 46 bits, quotient of at most 45). -/
theorem C23_quad_partial (a b : Quad) (m n : ℤ) (ha : a.Normalized) (hb : b.Normalized) (ea : a.val = m) (eb : b.val = n)
    (hn : n ≠ 0) (hn2 : |n| ≤ 2 ^ 46) (hm : |m| ≤ 2 ^ 45 * |n|) :
    (a % b).Fin ∧ (a % b).val = (m : ℚ) - n * (⌊(m : ℚ) / n⌋ : ℤ) := by
  have ib := quad_int_single hb eb (hn2.trans (by norm_num))
  have hnq : (n : ℚ) ≠ 0 := by exact_mod_cast hn
  have hm2 : |m| ≤ 2 ^ 91 := by
    have := mul_le_mul_of_nonneg_left hn2 (show (0:ℤ) ≤ 2 ^ 45 by positivity)
    exact hm.trans (this.trans (by norm_num))
  have hn0 : 0 < |n| := abs_pos.mpr hn
  have hfl : ⌊(m : ℚ) / n⌋ = m.fdiv n ∧ |m.fdiv n| ≤ 2 ^ 50 ∧ QIs (a / b).floor (m.fdiv n * one', 0, 0, 0) := by
    by_cases hd : n ∣ m
    · obtain ⟨q, rfl⟩ := hd
      have hq : |q| ≤ 2 ^ 45 := by
        rw [abs_mul, mul_comm] at hm
        exact le_of_mul_le_mul_right hm hn0
      rw [mul_comm n q] at ea
      rw [mul_comm n q, Int.mul_fdiv_cancel q hn]
      refine ⟨?_, hq.trans (by norm_num), qfloor_single (qdiv_int ha ea ib hn hn2 (hq.trans (by norm_num))) (hq.trans (by norm_num))⟩
      push_cast
      rw [mul_div_cancel_right₀ _ hnq, Int.floor_intCast]
    · obtain ⟨h1, h2⟩ := fdiv_bounds hn hd
      have hpos : 0 < 1 / |(n : ℚ)| := by positivity
      have hmn : |(m : ℚ) / n| ≤ 2 ^ 45 := by
        rw [abs_div, div_le_iff₀ (abs_pos.mpr hnq)]
        exact_mod_cast hm
      have hmn' := abs_le.mp hmn
      refine ⟨?_, ?_, qfloor_quot ha ea ib hn (hn2.trans (by norm_num)) hm hd⟩
      · rw [Int.floor_eq_iff]
        constructor <;> linarith
      · have : |(m.fdiv n : ℚ)| ≤ 2 ^ 50 := by
          rw [abs_le]
          constructor <;> norm_num at hmn' ⊢ <;> linarith
        exact_mod_cast this
  obtain ⟨e1, e2, e3⟩ := hfl
  rw [e1]
  obtain ⟨f1, f2⟩ := qrem_finish ha ea ib hn e3 (hm2.trans (by norm_num)) (hn2.trans (by norm_num)) e2
  refine ⟨f1, f2.trans ?_⟩
  push_cast
  ring

/-- A dividend of 89 bits with a quotient that is not whole, and a negative divisor. -/
example : let a := Quad.ofU64 (2 ^ 63 + 12345) * Quad.ofU64 (2 ^ 26 - 1); let b := Quad.ofI64 (-(2 ^ 45 - 3))
    a.Normalized ∧ b.Normalized ∧ a.val = (((2 ^ 63 + 12345) * (2 ^ 26 - 1) : ℤ) : ℚ) ∧ b.val = ((-(2 ^ 45 - 3) : ℤ) : ℚ) ∧
      |((2 ^ 63 + 12345) * (2 ^ 26 - 1) : ℤ)| ≤ 2 ^ 45 * |(-(2 ^ 45 - 3) : ℤ)| := by decide +kernel

/-- **C23 is false for Quads in general** as well: `1 % 10^17` is `10^17 + 1`. -/
theorem C23_quad_refuted : (Quad.ofU64 1 % Quad.ofU64 (10 ^ 17)).val = 10 ^ 17 + 1 ∧
    (Quad.ofU64 1 % Quad.ofU64 (10 ^ 16 + 1)).val = 10 ^ 16 + 2 := by decide +kernel

end Verif
