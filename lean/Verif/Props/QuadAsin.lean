import Verif.Props.QuadAtan
import Verif.Props.QuadTrig
import Verif.Proofs.Atan2Witness

/-!
# C85: the accuracy of `asin` and `acos` of Quads
-/

namespace Verif

open F64 Prim Util Quad

/-- The other side of the triangle. -/
theorem qasin_root (P : Platform) (hT : FloatText P.toStr) {a : Quad} (ha : a.Normalized) (h1 : |qv a| ≤ 24 / 25) :
    ∃ c ε, Quad.sqrt P (Quad.ONE - a.sqr) = some c ∧ QA c (Real.sqrt (1 - qv a ^ 2)) ε (1015 / 1000) ∧
      ε ≤ (161 / 100 * Real.sqrt (1 - qv a ^ 2) + 1275 / 1000 / Real.sqrt (1 - qv a ^ 2)) / 2 ^ 128 ∧
      28 / 100 ≤ Real.sqrt (1 - qv a ^ 2) ∧ Real.sqrt (1 - qv a ^ 2) ≤ 1 := by
  have h0 := abs_nonneg (qv a)
  have ex := (qord_norm ha).exact.mono le_rfl (show _ ≤ (1:ℝ) by norm_num; linarith)
  generalize qv a = x at *
  have x2 : x ^ 2 ≤ 576 / 625 := by
    rw [← sq_abs]
    have := pow_le_pow_left₀ h0 h1 2
    norm_num at this ⊢; linarith
  have x0 := sq_nonneg x
  have sq := ex.sqr (W := 1) (g := 1 / 2 ^ 139) (by norm_num) (by norm_num) (by norm_num) (by norm_num) (by norm_num; linarith)
  have e0 : |1 - x ^ 2| = 1 - x ^ 2 := abs_of_pos (by linarith)
  obtain ⟨Q, hQ⟩ : ∃ Q, Q = 1 - x ^ 2 := ⟨_, rfl⟩
  have Q1 : 49 / 625 ≤ Q := by linarith
  have Q2 : Q ≤ 1 := by linarith
  have Q0 : 0 < Q := by linarith
  obtain ⟨K, hK⟩ : ∃ K, K = max (102 / 100) (512 / 1000 / Q) := ⟨_, rfl⟩
  have K1 : 102 / 100 ≤ K := by rw [hK]; exact le_max_left _ _
  have K2 : 512 / 1000 ≤ Q * K := by
    have : 512 / 1000 / Q ≤ K := by rw [hK]; exact le_max_right _ _
    rw [div_le_iff₀ Q0] at this; linarith
  have K3 : K ≤ 69 / 10 := by
    rw [hK]
    refine max_le (by norm_num) ?_
    rw [div_le_iff₀ Q0]; linarith
  have QK : Q * (102 / 100) ≤ Q * K := mul_le_mul_of_nonneg_left K1 Q0.le
  have d := qa_one.sub sq (Z := 1 + 1 / 2 ^ 40) (W := Q * K * (999 / 1000)) (g := 1001 / 1000 / 2 ^ 128) (by norm_num) (by norm_num) (by norm_num)
    (by norm_num) (by norm_num; linarith)
    (by rw [e0, ← hQ]; norm_num; linarith)
  rw [← hQ] at d ⊢
  obtain ⟨A, hA⟩ : ∃ A, qv (Quad.ONE - a.sqr) = A := ⟨_, rfl⟩
  have dA := d.err
  rw [hA] at dA
  have hδ : |A - Q| ≤ Q * (1001 / 1000 / Q / 2 ^ 128) := by
    refine dA.trans (le_of_eq ?_); field_simp
  have hδ2 : 1001 / 1000 / Q / 2 ^ 128 ≤ 1 / 2 ^ 20 := by
    rw [div_div, div_le_iff₀ (by positivity)]; norm_num; linarith
  obtain ⟨A0, hs⟩ := sqrt_near Q0 hδ hδ2
  have A1 : Q * (9999 / 10000) ≤ A := by
    have := (abs_le.mp dA).1; norm_num at this ⊢; linarith
  have A2 : A ≤ 2 := by
    have := (abs_le.mp dA).2; norm_num at this ⊢; linarith
  have sz : SZ (Quad.ONE - a.sqr) (A * K) := d.sz.mono (by
    have := mul_le_mul_of_nonneg_right A1 (show 0 ≤ K by linarith)
    linarith)
  have SS := Real.mul_self_sqrt Q0.le
  have S0 := Real.sqrt_pos.mpr Q0
  have S1 : 28 / 100 ≤ Real.sqrt Q := by apply Real.le_sqrt_of_sq_le; norm_num; linarith
  have S2 : Real.sqrt Q ≤ 1 := Real.sqrt_le_one.mpr Q2
  have T0 := Real.sqrt_pos.mpr A0
  have hs2 : Real.sqrt Q * (1001 / 1000 / Q / 2 ^ 128) = 1001 / 1000 / 2 ^ 128 * (1 / Real.sqrt Q) := by
    generalize Real.sqrt Q = S at *
    rw [← SS]; field_simp
  have I1 : 1 / Real.sqrt Q ≤ 100 / 28 := by rw [div_le_iff₀ S0]; linarith
  have I2 : 1 ≤ 1 / Real.sqrt Q := by rw [le_div_iff₀ S0]; linarith
  have K4 : K ≤ 184 / 100 * (1 / Real.sqrt Q) := by
    rw [hK, mul_one_div]
    refine max_le ?_ ?_
    · rw [le_div_iff₀ S0]; linarith
    · rw [div_le_div_iff₀ Q0 S0]
      have := mul_le_mul_of_nonneg_right S1 S0.le
      rw [SS] at this
      linarith
  have K5 : K ≤ 102 / 100 + 512 / 1000 / Q := by
    rw [hK]
    have : 0 ≤ 512 / 1000 / Q := by positivity
    exact max_le (by linarith) (by linarith)
  have K6 : 512 / 1000 / Q * Real.sqrt Q = 512 / 1000 * (1 / Real.sqrt Q) := by
    generalize Real.sqrt Q = S at *
    rw [← SS]; field_simp
  have I3 : 1 / Real.sqrt Q * Real.sqrt Q = 1 := by field_simp
  rw [hs2] at hs
  have hs' := abs_le.mp hs
  have TS : Real.sqrt A ≤ Real.sqrt Q * (1001 / 1000) := by
    have := hs'.2
    generalize 1 / Real.sqrt Q = I at *
    norm_num at this I1 ⊢; linarith
  have TS2 : Real.sqrt A ≤ 1002 / 1000 := by linarith
  obtain ⟨r, r1, r2⟩ := qsqrt_slack P hT (K := K) (W := 1015 / 1000 / Real.sqrt A) hA sz A0 (by linarith) K3
    (by rw [le_div_iff₀ T0]; linarith) (by
      rw [le_div_iff₀ T0]
      have j1 := mul_le_mul K4 TS T0.le (by positivity)
      have j2 : 184 / 100 * (1 / Real.sqrt Q) * (Real.sqrt Q * (1001 / 1000)) = 184 / 100 * (1001 / 1000) * (1 / Real.sqrt Q * Real.sqrt Q) := by ring
      rw [j2, I3] at j1
      linarith) (by
      have : (1:ℝ) ≤ A * 2 ^ 20 := by norm_num; linarith
      exact this.trans (mul_le_mul_of_nonneg_left (by norm_num) A0.le)) (A2.trans (by norm_num))
  rw [mul_div_cancel₀ _ T0.ne'] at r2
  refine ⟨r, _, r1, r2.move hs, ?_, S1, S2⟩
  have j1 := mul_le_mul TS K5 (by linarith) (by positivity)
  have j2 : Real.sqrt Q * (1001 / 1000) * (102 / 100 + 512 / 1000 / Q) =
      Real.sqrt Q * (1001 / 1000 * (102 / 100)) + 1001 / 1000 * (512 / 1000 / Q * Real.sqrt Q) := by ring
  rw [j2, K6] at j1
  have j3 : Real.sqrt A * ((53 / 100 * K + 106 / 100) / 2 ^ 128) = (53 / 100 * (Real.sqrt A * K) + 106 / 100 * Real.sqrt A) / 2 ^ 128 := by ring
  rw [j3, div_eq_mul_one_div (1275 / 1000 : ℝ)]
  generalize Real.sqrt A * K = TK at *
  generalize 1 / Real.sqrt Q = I at *
  norm_num at j1 ⊢; linarith

theorem qpre_asin_none {a : Quad} (ha : a.Normalized) (h1 : |qv a| < 1) :
    Quad.preAsin a = none ∧ Quad.preAcos a = none := by
  obtain ⟨n1, v1⟩ := C41_quad_abs_val a ha
  have hq : |a.val| < 1 := by unfold qv at h1; exact_mod_cast h1
  have hq' := abs_lt.mp hq
  have g1 : ¬ (Quad.gt a.abs Quad.ONE = true) := by rw [(fsq_cmp_one a.abs n1).2.1, v1]; exact not_lt.mpr hq.le
  have g2 : ¬ (Quad.eq a Quad.ONE = true) := by rw [(fsq_cmp_one a ha).2.2.2]; exact hq'.2.ne
  have g3 : ¬ (Quad.eq a Quad.NEG_ONE = true) := by
    have := (C53_single_ops a ha _ fsq_neg_one.1).2.2.2.2.1
    rw [fsq_neg_one.2] at this
    exact fun hc => hq'.1.ne' (this.mp hc)
  unfold Quad.preAsin Quad.preAcos
  rw [if_neg g1, if_neg g2, if_neg g3, if_neg g1, if_neg g2, if_neg g3]
  exact ⟨rfl, rfl⟩

/-- The arithmetic of the bounds. -/
theorem qasin_total {X C ε : ℝ} (hX : |X| ≤ 1) (hsq : C ^ 2 = 1 - X ^ 2) (C0 : 28 / 100 ≤ C)
    (h1 : ε ≤ (161 / 100 * C + 1275 / 1000 / C) / 2 ^ 128) : 1.58 * (|X| * ε) ≤ 85 / 10 / 2 ^ 128 := by
  have n0 := abs_nonneg X
  have k1 : |X| * C ≤ 1 / 2 := by
    have := sq_nonneg (|X| - C); rw [← sq_abs X] at hsq; nlinarith
  have k2 : |X| * (1275 / 1000 / C) ≤ 1275 / 280 := by
    have : 1275 / 1000 / C ≤ 1275 / 280 := by rw [div_le_iff₀ (by linarith)]; linarith
    exact (mul_le_mul hX this (div_nonneg (by norm_num) (by linarith)) (by norm_num)).trans (by norm_num)
  have k3 := mul_le_mul_of_nonneg_left h1 n0
  have k4 : |X| * ((161 / 100 * C + 1275 / 1000 / C) / 2 ^ 128) = (161 / 100 * (|X| * C) + |X| * (1275 / 1000 / C)) / 2 ^ 128 := by ring
  rw [k4] at k3
  generalize |X| * C = U at *
  generalize |X| * (1275 / 1000 / C) = V at *
  generalize |X| * ε = W at *
  norm_num at k3 ⊢; linarith

/-- What `asin` and `acos` share. -/
theorem qasin_both (P : Platform) (hT : FloatText P.toStr) (hA2 : LibmAtan2 P) {a : Quad} (ha : a.Normalized)
    (h0 : a.val = 0 ∨ 1 ≤ |a.val| * 2 ^ 150) (h1 : |qv a| ≤ 24 / 25) :
    (∃ r, Quad.asin P a = some r ∧ SZ r (33 / 10) ∧ |qv r - Real.arcsin (qv a)| ≤ 20 / 2 ^ 126 ∧
      (|qv a| ≤ 9 / 10000 → |qv r - Real.arcsin (qv a)| ≤ |Real.arcsin (qv a)| * (7 / 2 ^ 126))) ∧
    (∃ r, Quad.acos P a = some r ∧ SZ r (33 / 10) ∧ |qv r - Real.arccos (qv a)| ≤ 20 / 2 ^ 126) := by
  have a1 : |qv a| < 1 := by linarith
  obtain ⟨c, ε, c1, c2, c3, c5, c6⟩ := qasin_root P hT ha h1
  have x2 : qv a ^ 2 ≤ 1 := by rw [← sq_abs]; exact pow_le_one₀ (abs_nonneg _) a1.le
  have hsq := Real.sq_sqrt (show 0 ≤ 1 - qv a ^ 2 by linarith)
  have C0 : 0 < Real.sqrt (1 - qv a ^ 2) := by linarith
  have c4 : ε ≤ 7 / 2 ^ 128 := by
    have : 1275 / 1000 / Real.sqrt (1 - qv a ^ 2) ≤ 1275 / 280 := by rw [div_le_iff₀ C0]; linarith
    generalize 1275 / 1000 / Real.sqrt (1 - qv a ^ 2) = W at *
    norm_num at c3 ⊢; linarith
  obtain ⟨cp, m1, m2⟩ := side_move rfl a1.le C0 c2.err (by norm_num at c4 ⊢; linarith)
  have tot := qasin_total a1.le hsq c5 c3
  have hv := abs_le.mp c2.err
  have cl : 27 / 100 ≤ qv c := by norm_num at c4; linarith [hv.1]
  have cu : qv c ≤ 2 := by norm_num at c4; linarith [hv.2]
  obtain ⟨pr1, pr2⟩ := qpre_asin_none ha a1
  have u1 : Quad.asin P a = Quad.atan2 P a c := by
    unfold Quad.asin; rw [pr1]; dsimp only; rw [c1, Option.bind_some]
  have u2 : Quad.acos P a = Quad.atan2 P c a := by
    unfold Quad.acos; rw [pr2]; dsimp only; rw [c1, Option.bind_some]
  rw [u1, u2]
  -- the hypotenuse is about one
  have co : ∀ {R : ℝ}, 9999 / 10000 ≤ R → QCo c R := by
    intro R hR
    have cab : |qv c| = qv c := abs_of_pos cp
    refine ⟨c2.sz.mono (by linarith), c2.sz.mono (by rw [cab]; norm_num; linarith), ?_, ?_⟩ <;> rw [cab] <;> norm_num <;> linarith
  have hypR : ∀ {y x : ℝ}, y ^ 2 + x ^ 2 = qv a ^ 2 + qv c ^ 2 → 9999 / 10000 ≤ hyp y x := by
    intro y x e
    unfold hyp; rw [e]
    apply Real.le_sqrt_of_sq_le
    have h5 : Real.sqrt (1 - qv a ^ 2) * (99999 / 100000) ≤ qv c := by norm_num at c4 ⊢; linarith [hv.1]
    have h6 := pow_le_pow_left₀ (by positivity) h5 2
    rw [mul_pow, hsq] at h6
    norm_num at h6 ⊢; nlinarith [sq_nonneg (qv a)]
  have hC := (co (R := 1) (by norm_num)).class
  rcases h0 with h0 | h0
  · have v0 : qv a = 0 := by unfold qv; rw [h0]; simp
    have zc := (qzero_class ha).1.mpr v0
    rw [v0]
    obtain ⟨x1, -, -, -⟩ := qatan2_axis P (a := a) (b := c)
    obtain ⟨-, -, x3, -⟩ := qatan2_axis P (a := c) (b := a)
    refine ⟨⟨_, x1 hC.1 zc (hC.2.2.2.mpr cp), sz_zero (by norm_num), ?_, ?_⟩, ⟨_, x3 zc hC.1 (hC.2.2.2.mpr cp), qa_PI2.sz, ?_⟩⟩
    · rw [qv_ZERO, Real.arcsin_zero]; norm_num
    · intro _; rw [qv_ZERO, Real.arcsin_zero]; norm_num
    · rw [Real.arccos_zero]
      exact qa_PI2.err.trans (by norm_num)
  · have l0 : 1 ≤ |qv a| * 2 ^ 150 := by unfold qv; exact_mod_cast h0
    have hi : |qv a| ≤ 2 ^ 150 := by clear l0; norm_num; linarith
    constructor
    · have gl := le_hyp (qv a) (qv c)
      obtain ⟨r, r1, r2, r3⟩ := qatan2_co P hT hA2 rfl (qco_norm ha gl.1 l0 hi) (co (hypR rfl))
      refine ⟨r, r1, r2.sz, ?_, ?_⟩
      · refine (r2.move m1).err.trans ?_
        norm_num at tot ⊢; linarith
      · intro hs
        have sa : Real.sin (Real.arcsin (qv a)) = qv a := Real.sin_arcsin (abs_le.mp a1.le).1 (abs_le.mp a1.le).2
        have l1 : |qv a| ≤ |Real.arcsin (qv a)| := by
          have := Real.abs_sin_le_abs (x := Real.arcsin (qv a)); rwa [sa] at this
        have hC9 : 999 / 1000 ≤ Real.sqrt (1 - qv a ^ 2) := by
          apply Real.le_sqrt_of_sq_le
          have := pow_le_pow_left₀ (abs_nonneg _) hs 2
          rw [sq_abs] at this
          norm_num at this ⊢; linarith
        have hE : ε ≤ 3 / 2 ^ 128 := by
          have : 1275 / 1000 / Real.sqrt (1 - qv a ^ 2) ≤ 128 / 100 := by rw [div_le_iff₀ C0]; linarith
          generalize 1275 / 1000 / Real.sqrt (1 - qv a ^ 2) = W at *
          norm_num at c3 ⊢; linarith
        have m3 : |angle (qv a) (qv c) - Real.arcsin (qv a)| ≤ |Real.arcsin (qv a)| * (5 / 2 ^ 128) := by
          refine m1.trans ?_
          have := mul_le_mul l1 hE c2.nonneg (abs_nonneg _)
          norm_num at this ⊢; linarith
        -- the angle itself is small: its sine is
        have an : |angle (qv a) (qv c)| ≤ 97 / 100000 := by
          have hp2 : |angle (qv a) (qv c)| ≤ Real.pi / 2 := by unfold angle; rw [Complex.abs_arg_le_pi_div_two_iff]; exact cp.le
          have sl : |Real.sin (angle (qv a) (qv c))| ≤ 901 / 1000000 := by
            have hh := hypR (y := qv a) (x := qv c) rfl
            rw [angle_sin, abs_div, abs_of_pos (show 0 < hyp (qv a) (qv c) by linarith), div_le_iff₀ (by linarith)]
            linarith
          have h7 := Real.mul_abs_le_abs_sin hp2
          rw [div_mul_eq_mul_div, div_le_iff₀ Real.pi_pos] at h7
          have hpi := pi_bds.2
          have b1 : |angle (qv a) (qv c)| ≤ 15 / 10000 := by
            have := mul_le_mul_of_nonneg_left hpi.le (abs_nonneg (Real.sin (angle (qv a) (qv c))))
            norm_num at this sl ⊢; linarith
          have h8 := sin_small (A := angle (qv a) (qv c)) (b1.trans (by norm_num))
          linarith
        have t1 := abs_sub_abs_le_abs_sub (angle (qv a) (qv c)) (Real.arcsin (qv a))
        have k := (r3 an ((qord_norm ha).exact.sz.mono (by clear l0 hi; have := abs_nonneg (qv a); norm_num; linarith))).move m3
        refine k.err.trans ?_
        clear l0 hi
        have := abs_nonneg (Real.arcsin (qv a))
        generalize |angle (qv a) (qv c)| = Z at *
        norm_num at m3 t1 ⊢; linarith
    · have gl := le_hyp (qv c) (qv a)
      obtain ⟨r, r1, r2, -⟩ := qatan2_co P hT hA2 rfl (co (hypR (by ring))) (qco_norm ha gl.2 l0 hi)
      refine ⟨r, r1, r2.sz, ?_⟩
      refine (r2.move m2).err.trans ?_
      norm_num at tot ⊢; linarith

/-- **C85.** `asin` of every normalized Quad of magnitude at most `24/25` that is zero or at least `2^-150` is within `20 * 2^-126` of
the real arc sine, and near zero its relative error is at most `7 * 2^-126`. -/
theorem C85_quad_asin (P : Platform) (hT : FloatText P.toStr) (hA2 : LibmAtan2 P) (a : Quad) (ha : a.Normalized)
    (h0 : a.val = 0 ∨ 1 ≤ |a.val| * 2 ^ 150) (h1 : |(a.val : ℝ)| ≤ 24 / 25) :
    ∃ r, Quad.asin P a = some r ∧ r.Fin ∧ |(r.val : ℝ) - Real.arcsin (a.val : ℝ)| ≤ 20 / 2 ^ 126 ∧
      (|(a.val : ℝ)| ≤ 9 / 10000 → |(r.val : ℝ) - Real.arcsin (a.val : ℝ)| ≤ |Real.arcsin (a.val : ℝ)| * (7 / 2 ^ 126)) :=
  let ⟨r, r1, r2, r3⟩ := (qasin_both P hT hA2 ha h0 h1).1
  ⟨r, r1, r2.fin, r3⟩

/-- **C85.** `acos` on the same numbers. -/
theorem C85_quad_acos (P : Platform) (hT : FloatText P.toStr) (hA2 : LibmAtan2 P) (a : Quad) (ha : a.Normalized)
    (h0 : a.val = 0 ∨ 1 ≤ |a.val| * 2 ^ 150) (h1 : |(a.val : ℝ)| ≤ 24 / 25) :
    ∃ r, Quad.acos P a = some r ∧ r.Fin ∧ |(r.val : ℝ) - Real.arccos (a.val : ℝ)| ≤ 20 / 2 ^ 126 :=
  let ⟨r, r1, r2, r3⟩ := (qasin_both P hT hA2 ha h0 h1).2
  ⟨r, r1, r2.fin, r3⟩

/-! ## The hypotheses of C85 can be met -/

example : ∃ r, Quad.atan2 angPlatform Quad.PI (-Quad.E) = some r ∧ r.Fin ∧
      |(r.val : ℝ) - Complex.arg ⟨((-Quad.E).val : ℚ), (Quad.PI.val : ℚ)⟩| ≤ 18 / 2 ^ 126 :=
  let ⟨r, h1, h2, h3, _⟩ := C85_quad_atan2 _ angPlatform_ok.2 angPlatform_ok.1 Quad.PI (-Quad.E) (by decide +kernel) (by decide +kernel)
    (by decide +kernel) (by decide +kernel) (by decide +kernel)
  ⟨r, h1, h2, h3⟩

example : ∃ r, Quad.atan angPlatform Quad.PI = some r ∧ r.Fin ∧
      |(r.val : ℝ) - Real.arctan ((Quad.PI.val : ℚ) : ℝ)| ≤ 18 / 2 ^ 126 :=
  let ⟨r, h1, h2, h3, _⟩ := C85_quad_atan _ angPlatform_ok.2 angPlatform_ok.1 Quad.PI (by decide +kernel) (by decide +kernel)
  ⟨r, h1, h2, h3⟩

theorem quad_pi4_bd : |((-Quad.FRAC_PI_4).val : ℝ)| ≤ 24 / 25 := by
  have : |(-Quad.FRAC_PI_4).val| ≤ 24 / 25 := by decide +kernel
  have := (Rat.cast_le (K := ℝ)).mpr this
  push_cast at this ⊢; exact this

example : ∃ r, Quad.asin angPlatform (-Quad.FRAC_PI_4) = some r ∧ r.Fin ∧
      |(r.val : ℝ) - Real.arcsin ((-Quad.FRAC_PI_4).val : ℝ)| ≤ 20 / 2 ^ 126 :=
  let ⟨r, h1, h2, h3, _⟩ := C85_quad_asin _ angPlatform_ok.2 angPlatform_ok.1 (-Quad.FRAC_PI_4) (by decide +kernel) (by decide +kernel)
    quad_pi4_bd
  ⟨r, h1, h2, h3⟩

example : ∃ r, Quad.acos angPlatform (-Quad.FRAC_PI_4) = some r ∧ r.Fin ∧
      |(r.val : ℝ) - Real.arccos ((-Quad.FRAC_PI_4).val : ℝ)| ≤ 20 / 2 ^ 126 :=
  C85_quad_acos _ angPlatform_ok.2 angPlatform_ok.1 (-Quad.FRAC_PI_4) (by decide +kernel) (by decide +kernel) quad_pi4_bd

/-- The hypothesis of the small-angle statement is met by the arc tangent of `2^-100`, and not only by zero. -/
example : |Real.arctan (((⟨F64.powi Double.two (-100), F64.zero, F64.zero, F64.zero⟩ : Quad).val : ℚ) : ℝ)| ≤ 97 / 100000 ∧
    (⟨F64.powi Double.two (-100), F64.zero, F64.zero, F64.zero⟩ : Quad).val ≠ 0 := by
  have e2 : (⟨F64.powi Double.two (-100), F64.zero, F64.zero, F64.zero⟩ : Quad).val = 1 / 2 ^ 100 := by decide +kernel
  rw [e2]
  refine ⟨?_, by norm_num⟩
  push_cast
  have hp : 0 < Real.arctan (1 / 2 ^ 100) := Real.arctan_pos.mpr (by norm_num)
  rw [abs_of_pos hp]
  have l : Real.arctan (1 / 2 ^ 100) ≤ 1 / 2 ^ 100 := by
    have := Real.le_tan hp.le (Real.arctan_lt_pi_div_two _)
    rwa [Real.tan_arctan] at this
  exact l.trans (by norm_num)

end Verif
