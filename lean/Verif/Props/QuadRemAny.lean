import Verif.Proofs.QuadFloorNear
import Verif.Props.QuadRem

/-!
# C23: the remainder of arbitrary Quads
-/

namespace Verif

open F64 Prim Util Quad

set_option maxHeartbeats 1000000 in
/-- The floor of the quotient of two normalized Quads. -/
theorem qfloor_any {a b : Quad} (ha : a.Normalized) (hb : b.Normalized) (a1 : 1 ≤ |a.val| * 2 ^ 400) (a2 : |a.val| ≤ 2 ^ 160)
    (b1 : 1 ≤ |b.val| * 2 ^ 400) (b2 : |b.val| ≤ 2 ^ 160) (hq : |a.val| ≤ 2 ^ 45 * |b.val|) :
    ∃ N : ℤ, QIs (a / b).floor (N * one', 0, 0, 0) ∧ |N| ≤ 2 ^ 50 ∧ N - 1 / 2 ^ 78 ≤ a.val / b.val ∧
      a.val / b.val ≤ N + 1 + 1 / 2 ^ 49 := by
  have op := one'_posQ
  have oa := qord_norm ha
  have ob := qord_norm hb
  obtain ⟨la1, la2⟩ := lead_le oa
  obtain ⟨lb1, lb2⟩ := lead_le ob
  have hUa : UQ a = a.val * one' := by
    have := quad_val_UQ ha.1
    rw [eq_div_iff op.ne'] at this
    exact this.symm
  have hUb : UQ b = b.val * one' := by
    have := quad_val_UQ hb.1
    rw [eq_div_iff op.ne'] at this
    exact this.symm
  generalize a.val = x at *
  generalize b.val = y at *
  have p400 : (0:ℚ) < 2 ^ 400 := by positivity
  have hy : y ≠ 0 := by rintro rfl; rw [abs_zero, zero_mul] at b1; exact absurd b1 (by norm_num)
  have hyp : 0 < |y| := abs_pos.mpr hy
  rw [hUa, abs_mul, abs_of_pos op] at la1 la2
  rw [hUb, abs_mul, abs_of_pos op] at lb1 lb2
  obtain ⟨A, hA⟩ : ∃ A, |U a.c0| = A := ⟨_, rfl⟩
  obtain ⟨B, hB⟩ : ∃ B, |U b.c0| = B := ⟨_, rfl⟩
  rw [hA] at la1 la2
  rw [hB] at lb1 lb2
  obtain ⟨X, hX⟩ : ∃ X, |x| * one' = X := ⟨_, rfl⟩
  obtain ⟨Y, hY⟩ : ∃ Y, |y| * one' = Y := ⟨_, rfl⟩
  have eo : (one' : ℚ) = 2 ^ 250 * (2 ^ 200 * 2 ^ 224) * 2 ^ 400 := by
    rw [one'_pow, ← pow_add, ← pow_add, ← pow_add]
  have X1 : 2 ^ 250 * (2 ^ 200 * 2 ^ 224) ≤ X := by
    have := mul_le_mul_of_nonneg_right a1 (show (0:ℚ) ≤ 2 ^ 250 * (2 ^ 200 * 2 ^ 224) by positivity)
    rw [one_mul] at this
    refine this.trans (le_of_eq ?_)
    rw [← hX, eo]; ring
  have Y1 : 2 ^ 250 * (2 ^ 200 * 2 ^ 224) ≤ Y := by
    have := mul_le_mul_of_nonneg_right b1 (show (0:ℚ) ≤ 2 ^ 250 * (2 ^ 200 * 2 ^ 224) by positivity)
    rw [one_mul] at this
    refine this.trans (le_of_eq ?_)
    rw [← hY, eo]; ring
  have X2 : X ≤ 2 ^ 160 * one' := by rw [← hX]; exact mul_le_mul_of_nonneg_right a2 op.le
  have Y2 : Y ≤ 2 ^ 160 * one' := by rw [← hY]; exact mul_le_mul_of_nonneg_right b2 op.le
  have XY : X ≤ 2 ^ 45 * Y := by
    rw [← hX, ← hY, ← mul_assoc]; exact mul_le_mul_of_nonneg_right hq op.le
  rw [hX] at la1 la2
  rw [hY] at lb1 lb2
  have pX : 0 < X := lt_of_lt_of_le (by positivity) X1
  have pY : 0 < Y := lt_of_lt_of_le (by positivity) Y1
  have big : (2:ℚ) ^ 250 * 4 ≤ 2 ^ 250 * (2 ^ 200 * 2 ^ 224) := by norm_num
  have pB : 0 < B := by linarith
  have oQ : QS a (1 / 2 ^ 49) (A / 2 ^ 141) := by
    have d1 := oa.d1
    have d2 := oa.d2
    have d3 := oa.d3
    unfold Dec at d1 d2 d3
    have p := abs_nonneg (a.c0.units : ℚ)
    have p1 := abs_nonneg (a.c1.units : ℚ)
    have p2 := abs_nonneg (a.c2.units : ℚ)
    have hA0 : 0 ≤ A / 2 ^ 141 := by rw [← hA]; positivity
    refine ⟨oa.f0, oa.f1, oa.f2, oa.f3, ?_, ?_, ?_⟩ <;> unfold U <;> linarith
  have oD : DB b := by
    have d1 := ob.d1
    have d2 := ob.d2
    have d3 := ob.d3
    unfold Dec at d1 d2 d3
    have hz : b.c0.units ≠ 0 := by
      intro h
      unfold U at hB
      rw [h] at hB
      simp at hB
      linarith
    have p := abs_nonneg (b.c0.units : ℚ)
    have p1 := abs_nonneg (b.c1.units : ℚ)
    have p2 := abs_nonneg (b.c2.units : ℚ)
    refine ⟨ob.f0, ob.f1, ob.f2, ob.f3, hz, ?_, ?_, ?_⟩ <;> unfold U <;> linarith
  obtain ⟨W, hW⟩ : ∃ W, W = A * one' / B := ⟨_, rfl⟩
  have hWb : W * |U b.c0| = A * one' := by rw [hB, hW]; field_simp
  have hlim : (lim : ℚ) = 3 * 2 ^ 1022 * one' := by
    rw [one'_pow]; unfold lim; push_cast; rw [mul_assoc, ← pow_add]
  have hl200 : 2 ^ 250 * one' ≤ (lim : ℚ) := by
    rw [hlim]
    have h2 : (2:ℚ) ^ 250 ≤ 2 ^ 1022 := pow_le_pow_right₀ (by norm_num) (by norm_num)
    generalize (2:ℚ) ^ 1022 = P at *
    have h3 := mul_le_mul_of_nonneg_right h2 op.le
    have h4 : (0:ℚ) ≤ P * one' := le_trans (by positivity) h3
    rw [mul_assoc]
    linarith only [h3, h4]
  clear hlim eo a1 b1 p400
  have AB : A ≤ 2 ^ 46 * B := by linarith
  have hW46 : W ≤ 2 ^ 46 * one' := by
    rw [hW, div_le_iff₀ pB]
    have := mul_le_mul_of_nonneg_right AB op.le
    linarith
  have c1 : 100 * A * one' ≤ lim * |U b.c0| := by
    rw [hB]
    have h1 := mul_le_mul_of_nonneg_right hl200 pB.le
    have h2 := mul_le_mul_of_nonneg_right AB op.le
    have h3 : (2:ℚ) ^ 250 * one' * B = 2 ^ 204 * (2 ^ 46 * B * one') := by ring
    have h4 : (0:ℚ) ≤ 2 ^ 46 * B * one' := by positivity
    rw [h3] at h1
    have h5 : (100:ℚ) * (2 ^ 46 * B * one') ≤ 2 ^ 204 * (2 ^ 46 * B * one') := mul_le_mul_of_nonneg_right (by norm_num) h4
    linarith
  have c2 : 2 ^ 250 ≤ A := by linarith
  have hBo : B ≤ 2 ^ 161 * one' := by linarith
  have c3 : B / one' * 2 ^ 250 ≤ A := by
    rw [div_mul_eq_mul_div, div_le_iff₀ op]
    have h1 := mul_le_mul_of_nonneg_right hBo (show (0:ℚ) ≤ 2 ^ 250 by positivity)
    refine h1.trans ?_
    have h2 : (2:ℚ) ^ 161 * one' * 2 ^ 250 = 2 ^ 161 * 2 ^ 250 * one' := by ring
    rw [h2]
    refine mul_le_mul_of_nonneg_right ?_ op.le
    have : (2:ℚ) ^ 161 * 2 ^ 250 * 2 ≤ 2 ^ 250 * (2 ^ 200 * 2 ^ 224) := by norm_num
    linarith
  have c4 : 2 * A ≤ one' * 2 ^ 170 := by linarith
  have c5 : 10 ^ 16 * A ≤ (lim : ℚ) := by
    refine le_trans ?_ hl200
    linarith
  have hβ : |U b.c0| / one' = B / one' := by rw [hB]
  have D := div_slack oQ hA.le oD hβ hWb c1 c2 c3 c4 c5
  have H := div_head oQ hA.le oD hβ hWb c1 c2 c3 c4 c5 (by rw [hA]; linarith)
  obtain ⟨D1, D2, D3⟩ := D
  rw [hUb, hUa] at D3
  clear hl200 c1 c5 c4 c3
  have hW0 : 2 ^ 250 ≤ W := by
    rw [hW, le_div_iff₀ pB]
    have h1 := mul_le_mul_of_nonneg_left hBo (show (0:ℚ) ≤ 2 ^ 250 by positivity)
    refine h1.trans ?_
    rw [← mul_assoc]
    refine mul_le_mul_of_nonneg_right ?_ op.le
    have : (2:ℚ) ^ 250 * 2 ^ 161 * 2 ≤ 2 ^ 250 * (2 ^ 200 * 2 ^ 224) := by norm_num
    linarith
  clear big X1 Y1 X2 Y2 hBo
  -- the quotient
  have hv : |UQ (a / b) - x / y * one'| ≤ W / 2 ^ 126 := by
    have e : UQ (a / b) * (y * one') / one' - x * one' = (UQ (a / b) - x / y * one') * y := by field_simp
    rw [e, abs_mul] at D3
    have e2 : A ≤ W * |y| * 2 := by
      have h1 : A * one' ≤ W * |y| * 2 * one' := by
        have h3 : W * B ≤ W * (Y * 2) := mul_le_mul_of_nonneg_left (by linarith) (by linarith [show (0:ℚ) < 2 ^ 250 by positivity])
        rw [hB] at hWb
        rw [← hWb]
        refine h3.trans (le_of_eq ?_)
        rw [← hY]; ring
      exact le_of_mul_le_mul_right h1 op
    refine le_of_mul_le_mul_right ?_ hyp
    refine D3.trans ?_
    linarith
  have hqq : |x / y * one'| = X / |y| := by rw [abs_mul, abs_div, abs_of_pos op, ← hX]; ring
  have hWX : W ≤ X / |y| * (1 + 1 / 2 ^ 48) := by
    rw [hW, div_le_iff₀ pB]
    have h1 : X / |y| * Y = X * one' := by rw [← hY]; field_simp
    have h2 : X / |y| * Y ≤ X / |y| * (B * (1 + 1 / 2 ^ 50)) := mul_le_mul_of_nonneg_left lb2 (by positivity)
    rw [h1] at h2
    have h3 := mul_le_mul_of_nonneg_right la1 op.le
    have h4 : 0 ≤ X / |y| * B := by positivity
    generalize X / |y| = Z at *
    have h5 : X * (1 + 1 / 2 ^ 50) * one' = X * one' * (1 + 1 / 2 ^ 50) := by ring
    rw [h5] at h3
    have h6 : Z * (1 + 1 / 2 ^ 48) * B = Z * B * (1 + 1 / 2 ^ 48) := by ring
    have h7 : Z * (B * (1 + 1 / 2 ^ 50)) = Z * B * (1 + 1 / 2 ^ 50) := by ring
    rw [h7] at h2
    rw [h6]
    generalize Z * B = ZB at *
    generalize A * (one':ℚ) = AO at *
    generalize X * (one':ℚ) = XO at *
    norm_num at h2 h3 ⊢
    linarith
  have hc : W ≤ 2 * |U (a / b).c0| := by
    have e1 : |UQ (a / b) - U (a / b).c0| ≤ |U (a / b).c0| / 2 ^ 48 + W / 2 ^ 140 := by
      have e : UQ (a / b) - U (a / b).c0 = U (a / b).c1 + U (a / b).c2 + U (a / b).c3 := by unfold UQ; ring
      rw [e]
      have := abs_add_le (U (a / b).c1 + U (a / b).c2) (U (a / b).c3)
      have := abs_add_le (U (a / b).c1) (U (a / b).c2)
      have := D1.d1
      have := D1.d2
      have := D1.d3
      have := abs_nonneg (U (a / b).c0)
      linarith
    have e4 := abs_sub_abs_le_abs_sub (x / y * one') (UQ (a / b))
    rw [abs_sub_comm, hqq] at e4
    have e5 := abs_sub_abs_le_abs_sub (UQ (a / b)) (U (a / b).c0)
    have := abs_nonneg (U (a / b).c0)
    generalize X / |y| = Z at *
    norm_num at hWX e1 hv ⊢
    linarith
  obtain ⟨N, n1, n2, n3, n4⟩ := qfloor_near D1 H hW46 hW0 D2 hc
  have hv' := abs_le.mp hv
  refine ⟨N, n1, n2, ?_, ?_⟩
  · refine le_of_mul_le_mul_right ?_ op
    have : ((N:ℚ) - 1 / 2 ^ 78) * one' = (N - 1 / 2 ^ 90) * one' - (1 / 2 ^ 78 - 1 / 2 ^ 90) * one' := by ring
    rw [this]
    linarith [hv'.2]
  · refine le_of_mul_le_mul_right ?_ op
    have : ((N:ℚ) + 1 + 1 / 2 ^ 49) * one' = (N + 1 + 1 / 2 ^ 50) * one' + (1 / 2 ^ 49 - 1 / 2 ^ 50) * one' := by ring
    rw [this]
    linarith [hv'.1]


set_option maxHeartbeats 1000000 in
/-- **C23 (partial), Quads.** For all normalized operands up to `2^160` (not below `2^-400`) whose quotient is at most `2^45`,
`a % b` is finite and is `a - b * n` up to `(|a| + |b|) / 2^120`, where the integer `n` lies below `a / b` by at most
`1 + 2^-49` and above it by at most `2^-78`. So `n` is the floor of the quotient and the result the floored remainder unless
the quotient is that close to an integer (where `C23_quad_refuted` shows that it can indeed be one less). -/
theorem C23_quad_any_partial (a b : Quad) (ha : a.Normalized) (hb : b.Normalized) (a1 : 1 ≤ |a.val| * 2 ^ 400)
    (a2 : |a.val| ≤ 2 ^ 160) (b1 : 1 ≤ |b.val| * 2 ^ 400) (b2 : |b.val| ≤ 2 ^ 160) (hq : |a.val| ≤ 2 ^ 45 * |b.val|) :
    ∃ n : ℤ, (a % b).Fin ∧ |(a % b).val - (a.val - b.val * n)| ≤ (|a.val| + |b.val|) / 2 ^ 120 ∧
      -(1 / 2 ^ 78) ≤ a.val / b.val - n ∧ a.val / b.val - n ≤ 1 + 1 / 2 ^ 49 := by
  obtain ⟨N, h1, h2, h3, h4⟩ := qfloor_any ha hb a1 a2 b1 b2 hq
  change ∃ n : ℤ, (a - b * (a / b).floor).Fin ∧ |(a - b * (a / b).floor).val - (a.val - b.val * n)| ≤ _ ∧ _
  generalize (a / b).floor = f at *
  have p400 : (0:ℚ) < 2 ^ 400 := by positivity
  have hy : b.val ≠ 0 := by
    intro h; rw [h, abs_zero, zero_mul] at b1; exact absurd b1 (by norm_num)
  have hyp : 0 < |b.val| := abs_pos.mpr hy
  have hbN : |b.val * N| ≤ 2 * |b.val| + |a.val| := by
    have e : b.val * N = a.val - b.val * (a.val / b.val - N) := by field_simp; ring
    have h5 : |a.val / b.val - N| ≤ 2 := by
      clear a1 b1 p400
      rw [abs_le]; norm_num at h3 h4 ⊢; constructor <;> linarith
    rw [e]
    refine (abs_sub _ _).trans ?_
    rw [abs_mul]
    have := mul_le_mul_of_nonneg_left h5 hyp.le
    linarith
  have qa := (qord_norm ha).exact
  have qb := (qord_norm hb).exact
  have qf := (qa_int4 h1.i0 h1.i1 h1.i2 h1.i3).mono le_rfl (show _ ≤ |(N:ℝ)| + 1 by linarith)
  have xa : |qv a| = ((|a.val| : ℚ) : ℝ) := by unfold qv; push_cast; rfl
  have xb : |qv b| = ((|b.val| : ℚ) : ℝ) := by unfold qv; push_cast; rfl
  have ya2 : |qv a| ≤ 2 ^ 160 := by rw [xa]; exact_mod_cast a2
  have yb2 : |qv b| ≤ 2 ^ 160 := by rw [xb]; exact_mod_cast b2
  have yb1 : 1 ≤ |qv b| * (2 ^ 200 * 2 ^ 200) := by
    rw [xb, ← pow_add]; exact_mod_cast b1
  have ybN : |qv b * N| ≤ 2 * |qv b| + |qv a| := by
    rw [xa, xb]
    have : qv b * N = ((b.val * N : ℚ) : ℝ) := by unfold qv; push_cast; rfl
    rw [this]
    exact_mod_cast hbN
  have ybp : 0 < |qv b| := by rw [xb]; exact_mod_cast hyp
  suffices h : QA (a - b * f) (qv a - qv b * N) ((|qv a| + |qv b|) / 2 ^ 120) (|qv a| * 4 + |qv b| * 4) by
    refine ⟨N, h.fin, ?_, by linarith, by linarith⟩
    have he := h.err
    rw [xa, xb] at he
    unfold qv at he
    have he2 : (((|(a - b * f).val - (a.val - b.val * N)| : ℚ)) : ℝ) ≤ (((|a.val| + |b.val|) / 2 ^ 120 : ℚ) : ℝ) := by
      push_cast at he ⊢
      exact he
    exact_mod_cast he2
  have N2 : |(N:ℝ)| ≤ 2 ^ 50 := by exact_mod_cast h2
  clear a1 b1 p400 a2 b2 hbN hyp hy h3 h4 h2 h1 xa xb hq
  have N0 := abs_nonneg (N:ℝ)
  have A0 := abs_nonneg (qv a)
  have bN := abs_mul (qv b) N
  have big2 : (2:ℝ) ^ 212 ≤ 2 ^ 225 * 2 ^ 225 * 2 ^ 225 * 2 ^ 225 := by
    have : (1:ℝ) ≤ 2 ^ 225 := one_le_pow₀ (by norm_num)
    calc (2:ℝ) ^ 212 ≤ 2 ^ 225 := pow_le_pow_right₀ (by norm_num) (by norm_num)
      _ ≤ 2 ^ 225 * 2 ^ 225 := le_mul_of_one_le_right (by positivity) this
      _ ≤ 2 ^ 225 * 2 ^ 225 * 2 ^ 225 := le_mul_of_one_le_right (by positivity) this
      _ ≤ _ := le_mul_of_one_le_right (by positivity) this
  obtain ⟨x, hx⟩ : ∃ x, |qv a| = x := ⟨_, rfl⟩
  obtain ⟨y, hy⟩ : ∃ y, |qv b| = y := ⟨_, rfl⟩
  obtain ⟨n, hn⟩ : ∃ n, |(N:ℝ)| = n := ⟨_, rfl⟩
  obtain ⟨w, hw⟩ : ∃ w, qv b * (N:ℝ) = w := ⟨_, rfl⟩
  rw [hw] at bN ybN
  have hyn : y * n = |w| := by rw [bN, hy, hn]
  rw [hx] at qa ya2 A0 ybN ⊢
  rw [hy] at qb yb1 yb2 ybp ybN ⊢
  rw [hn] at qf N2 N0
  have hP : y * (1 + 1 / 2 ^ 47) * (n + 1) = (|w| + y) * (1 + 1 / 2 ^ 47) := by rw [← hyn]; ring
  have W0 := abs_nonneg w
  have qp : QA (b * f) w ((|w| + y) / 2 ^ 135) ((|w| + y) * 2) := by
    rw [← hw]
    refine qb.mulW qf (by linarith) (by linarith) ?_ ?_ ?_ ?_ ?_
    · rw [hP]
      have h1 : y * (2 ^ 200 * 2 ^ 200) ≤ (|w| + y) * (1 + 1 / 2 ^ 47) * (2 ^ 210 * 2 ^ 210 * (2 ^ 210 * 2 ^ 210)) :=
        mul_le_mul (by linarith) (by norm_num) (by norm_num) (by linarith)
      exact yb1.trans h1
    · rw [hP]
      refine le_trans ?_ big2
      clear yb1 big2
      norm_num at ya2 yb2 ⊢; linarith
    · rw [hP]
      clear yb1 big2
      norm_num; linarith
    · rw [hP]
      clear yb1 big2
      norm_num; linarith
    · rw [hP, hw]
      clear yb1 big2
      norm_num; linarith
  rw [hw]
  refine qa.sub qp (Z := x * 3 + y * 6) ?_ ?_ ?_ ?_ ?_ ?_
  · norm_num; linarith
  · norm_num; linarith
  · refine le_trans ?_ big2
    norm_num at ya2 yb2 ⊢; linarith
  · norm_num; linarith
  · norm_num; linarith
  · have := abs_sub (qv a) w
    rw [hx] at this
    norm_num; linarith

/-- Non-vacuity: `pi % -E`, a pair with a negative divisor whose quotient is not near an integer. -/
example : Quad.PI.Normalized ∧ (-Quad.E).Normalized ∧ 1 ≤ |Quad.PI.val| * 2 ^ 400 ∧ |Quad.PI.val| ≤ 2 ^ 160 ∧
    1 ≤ |(-Quad.E).val| * 2 ^ 400 ∧ |(-Quad.E).val| ≤ 2 ^ 160 ∧ |Quad.PI.val| ≤ 2 ^ 45 * |(-Quad.E).val| := by
  decide +kernel

end Verif
