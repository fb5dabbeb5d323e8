import Verif.Proofs.QuadRound

/-!
# The argument reduction of `sin`, `cos` and `sin_cos` for Quads: `reduce`
-/

namespace Verif

open F64 Prim Util Quad Consts

theorem QA.subV {a b : Quad} {x y e f X Y Z V W g : ℝ} (ha : QA a x e X) (hb : QA b y f Y) (hX : X ≤ Z) (hY : Y ≤ Z)
    (hZ : Z ≤ 2 ^ 225 * 2 ^ 225 * 2 ^ 225 * 2 ^ 225) (hVx : |x| + e + Z / 2 ^ 138 ≤ V * (1 - 1 / 2 ^ 40))
    (hVy : |y| + f + Z / 2 ^ 138 ≤ V * (1 - 1 / 2 ^ 40)) (hVZ : V ≤ Z)
    (hg : e + f + V / 2 ^ 137 + Z * (4300 / 2 ^ 141) ≤ g) (hW : 51 / 100 * (V + Z / 2 ^ 28) ≤ W)
    (hV : |x - y| + g + (V + Z / 2 ^ 28) / 2 ^ 138 ≤ W * (1 - 1 / 2 ^ 40)) : QA (a - b) (x - y) g W := by
  rw [sub_eq_add_neg] at hV ⊢
  exact ha.addV hb.neg hX hY hZ hVx (by rwa [abs_neg]) hVZ hg hW hV

/-- The multiple of the constant which is taken off. -/
theorem qprod {z c : Quad} {Q : ℤ} {γ C : ℝ} (hγ : 0 < γ) (hγ1 : 1 / 1000 ≤ γ) (hγ8 : γ ≤ 8) (hc : QA c γ (γ / 2 ^ 200) C) (hC : C ≤ γ * (1001 / 1000)) (hC2 : γ ≤ C)
    (hz : QA z Q 0 |(Q : ℝ)|) (hQ : |(Q : ℝ)| ≤ 2 ^ 40) :
    QA (z * c) (Q * γ) ((|(Q : ℝ)| + 1) * γ / 2 ^ 138) ((|(Q : ℝ)| + 1) * γ * (1002 / 1000)) := by
  have hQ0 := abs_nonneg (Q : ℝ)
  have hz' := hz.mono le_rfl (show |(Q : ℝ)| ≤ |(Q : ℝ)| + 1 by linarith)
  have e1 : (|(Q : ℝ)| + 1) * C ≤ (|(Q : ℝ)| + 1) * γ * (1001 / 1000) := by
    rw [mul_assoc]; exact mul_le_mul_of_nonneg_left hC (by linarith)
  have e2 : (|(Q : ℝ)| + 1) * γ ≤ (2 ^ 40 + 1) * 8 := mul_le_mul (by linarith) hγ8 hγ.le (by norm_num)
  have e3 : |(Q : ℝ)| * γ ≤ (|(Q : ℝ)| + 1) * γ := mul_le_mul_of_nonneg_right (by linarith) hγ.le
  have e4 : 0 ≤ (|(Q : ℝ)| + 1) * γ := by positivity
  refine hz'.mul hc ?_ ?_ ?_ ?_ ?_ ?_
  · norm_num; linarith
  · norm_num; linarith
  · refine (e1.trans (mul_le_mul_of_nonneg_right e2 (by norm_num))).trans (by norm_num)
  · rw [mul_zero, zero_mul, add_zero, add_zero]
    rw [← mul_div_assoc]
    generalize (|(Q : ℝ)| + 1) * C = T at *
    generalize (|(Q : ℝ)| + 1) * γ = T2 at *
    generalize |(Q : ℝ)| * γ = T3 at *
    norm_num
    linarith
  · linarith
  · rw [abs_mul, abs_of_pos hγ]
    generalize (|(Q : ℝ)| + 1) * C = T at *
    have h5 : |(Q:ℝ)| * γ = (|(Q : ℝ)| + 1) * γ - γ := by ring
    rw [h5]
    generalize (|(Q : ℝ)| + 1) * γ = T2 at *
    norm_num
    linarith

theorem qprod0 {z c : Quad} {γ C A : ℝ} (hc : QA c γ (γ / 2 ^ 200) C) (hC1 : 1 / 1000 ≤ C) (hC : C ≤ 63 / 10)
    (hz : QA z 0 0 0) (hA : 1 ≤ A * (2 ^ 200) ^ 3) (hA1 : A ≤ 1) : QA (z * c) 0 (A / 2 ^ 139) A := by
  have hA0 : 0 < A := pos_of_mul_pos_left (lt_of_lt_of_le one_pos hA) (by positivity)
  have hz' := hz.mono le_rfl (show (0:ℝ) ≤ A / 10 by positivity)
  have e1 : A / 10 * C ≤ A / 10 * (63 / 10) := mul_le_mul_of_nonneg_left hC (by linarith)
  have h := hz'.mulW hc (by positivity) (by linarith) (W := A) (g := A / 2 ^ 139) ?_ ?_ ?_ ?_ ?_
  · simpa using h
  · have e2 : A / 10 * (1 / 1000) ≤ A / 10 * C := mul_le_mul_of_nonneg_left hC1 (by linarith)
    refine hA.trans ?_
    refine le_trans ?_ (mul_le_mul_of_nonneg_right e2 (by positivity))
    rw [mul_assoc, mul_assoc]
    rw [div_mul_eq_mul_div, mul_div_assoc]
    exact mul_le_mul_of_nonneg_left (by norm_num) hA0.le
  · refine (e1.trans (mul_le_mul_of_nonneg_right (div_le_div_of_nonneg_right hA1 (by norm_num)) (by norm_num))).trans (by norm_num)
  · rw [abs_zero, zero_mul, mul_zero, zero_add, zero_add, zero_add]
    exact div_le_div_of_nonneg_right (by linarith) (by positivity)
  · linarith
  · rw [zero_mul, abs_zero]
    generalize A / 10 * C = T at *
    norm_num; linarith

/-- One reduction step for a tiny argument. -/
theorem qstep0 {d z c : Quad} {x γ C A B e : ℝ} (hd : QA d x e B) (hc : QA c γ (γ / 2 ^ 200) C) (hC1 : 1 / 1000 ≤ C) (hC : C ≤ 63 / 10)
    (hz : QA z 0 0 0) (hA : 1 ≤ A * (2 ^ 200) ^ 3) (hA1 : A ≤ 1) (hx : |x| ≤ A) (hB : B ≤ A * (1001 / 1000)) (he : e ≤ A * (10 / 2 ^ 128)) :
    QA (d - z * c) x (e + A * (1002 / 1000 / 2 ^ 128)) (A * (1001 / 1000)) := by
  have hA0 : 0 < A := pos_of_mul_pos_left (lt_of_lt_of_le one_pos hA) (by positivity)
  have hp := qprod0 hc hC1 hC hz hA hA1
  have h := hd.sub hp (Z := A * (1001 / 1000)) (W := A * (1001 / 1000)) (g := e + A * (1002 / 1000 / 2 ^ 128)) hB (by linarith)
    (by refine (mul_le_mul_of_nonneg_right hA1 (by norm_num)).trans (by norm_num)) (by clear hA; norm_num; linarith) (by linarith) (by
      rw [sub_zero]
      clear hA
      norm_num at he ⊢; linarith)
  simpa using h

/-- The quotient by `2π`. -/
theorem qquot_tau {a : Quad} {A : ℝ} (ha : SZ a A) (hx : |qv a| ≤ A) (h2 : A ≤ 2 ^ 30) :
    QA (a / Quad.TAU) (qv a / (2 * Real.pi)) (1 / 2 ^ 90) (2 ^ 30) ∧ (A ≤ 1 / 1000 → |qv (a / Quad.TAU)| ≤ 1 / 4) := by
  obtain ⟨p1, p2⟩ := pi_bds
  have hT := qa_TAU
  have hA0 := ha.nonneg
  have hq : |qv a / (2 * Real.pi)| ≤ A / 6 := by
    rw [abs_div, abs_of_pos (show 0 < 2 * Real.pi by linarith)]
    exact div_le_div₀ hA0 hx (by norm_num) (by linarith)
  have ha' : QA a (qv a) 0 (A + 1) := ⟨ha.mono (by linarith), by simp⟩
  have hh : (2 ^ 100 : ℝ) ≤ (hugeQ : ℝ) := by
    rw [hugeQ_eq]; push_cast; norm_num
  have d := ha'.div hT (L := 6) (K := 2 ^ 30) (g := 1 / 2 ^ 90) (by norm_num) (by
      rw [abs_of_pos (by linarith)]; norm_num at p1 p2 ⊢; linarith) (by norm_num) (by
      have : (1:ℝ) * 1 ≤ (A + 1) * (hugeQ : ℝ) := mul_le_mul (by linarith) (le_trans (by norm_num) hh) (by norm_num) (by linarith)
      linarith) (by norm_num at h2 ⊢; linarith) (by
      have : (1:ℝ) * 2 ^ 100 ≤ (A + 1) * (hugeQ : ℝ) := mul_le_mul (by linarith) hh (by norm_num) (by linarith)
      norm_num at this ⊢; linarith) (by norm_num at h2 hh ⊢; linarith) (by norm_num at h2 ⊢; linarith) (by
      have : |qv a / (2 * Real.pi)| * (2 * Real.pi / 2 ^ 214) ≤ 2 ^ 30 / 6 * (7 / 2 ^ 214) :=
        mul_le_mul (hq.trans (div_le_div_of_nonneg_right h2 (by norm_num))) (div_le_div_of_nonneg_right (by linarith) (by positivity)) (by positivity) (by positivity)
      norm_num at h2 this ⊢; linarith)
  refine ⟨d, fun h => ?_⟩
  have := d.abs_le
  norm_num at *; linarith

set_option maxHeartbeats 2000000 in
/-- What `reduce` computes. -/
theorem qreduce_spec {a : Quad} {A : ℝ} (ha : SZ a A) (hx : |qv a| ≤ A) (h2 : A ≤ 2 ^ 30) :
    ∃ (Z Q K : ℤ) (t : Quad), Quad.reduce a = (Q, K, t) ∧ (|Q| ≤ 2 ∨ Q = 6) ∧ |K| ≤ 256 ∧
      QA t (qv a - Z * (2 * Real.pi) - Q * (Real.pi / 2) - K * (Real.pi / 1024)) ((13 / 10 * A + 27) / 2 ^ 128) (41 / 100) ∧
      |qv t| ≤ 1 / 600 ∧
      (A ≤ 1 / 1000 → 1 ≤ A * (2 ^ 200) ^ 3 → Z = 0 ∧ Q = 0 ∧ K = 0 ∧ QA t (qv a) (A * (302 / 100 / 2 ^ 128)) (A * (1001 / 1000))) := by
  obtain ⟨p1, p2⟩ := pi_bds
  obtain ⟨w1, w2⟩ := qquot_tau ha hx h2
  obtain ⟨Z, z1, z2, z3⟩ := qround_weak w1.sz (by norm_num)
  have hA0 := ha.nonneg
  have W := w1.err
  have hAW : qv a / (2 * Real.pi) * (2 * Real.pi) = qv a := div_mul_cancel₀ _ (by positivity)
  -- size of Z and of the first remainder
  have zW : |qv a / (2 * Real.pi) - Z| ≤ 1 / 2 + 1 / 2 ^ 7 ∨ |qv a / (2 * Real.pi) - Z - 3 / 2| ≤ 1 / 2 ^ 7 := by
    rcases z2 with z2 | z2
    · left
      rw [abs_le] at z2 W ⊢
      norm_num at z2 W ⊢
      constructor <;> linarith [z2.1, z2.2, W.1, W.2]
    · right
      rw [abs_le] at z2 W ⊢
      norm_num at z2 W ⊢
      constructor <;> linarith [z2.1, z2.2, W.1, W.2]
  have zW2 : |qv a / (2 * Real.pi) - Z| ≤ 1.51 := by
    rcases zW with h | h
    · rw [abs_le] at h ⊢; norm_num at h ⊢; constructor <;> linarith [h.1, h.2]
    · rw [abs_le] at h ⊢; norm_num at h ⊢; constructor <;> linarith [h.1, h.2]
  have X1 : |qv a - Z * (2 * Real.pi)| ≤ 9.49 := by
    have : qv a - Z * (2 * Real.pi) = (qv a / (2 * Real.pi) - Z) * (2 * Real.pi) := by rw [sub_mul, hAW]
    rw [this, abs_mul, abs_of_pos (show 0 < 2 * Real.pi by linarith)]
    refine (mul_le_mul zW2 (show 2 * Real.pi ≤ 6.284 by linarith) (by linarith) (by norm_num)).trans (by norm_num)
  have ZT : |(Z:ℝ)| * (2 * Real.pi) ≤ A + 9.49 := by
    have : |(Z:ℝ)| * (2 * Real.pi) = |Z * (2 * Real.pi)| := by rw [abs_mul, abs_of_pos (show 0 < 2 * Real.pi by linarith)]
    rw [this]
    rw [abs_le] at X1 hx
    rcases abs_cases (Z * (2 * Real.pi)) with ⟨h, _⟩ | ⟨h, _⟩ <;> rw [h] <;> linarith [hx.1, hx.2, X1.1, X1.2]
  have Zb : |(Z:ℝ)| ≤ 2 ^ 40 := by
    have : |(Z:ℝ)| * 6 ≤ |(Z:ℝ)| * (2 * Real.pi) := mul_le_mul_of_nonneg_left (by linarith) (abs_nonneg _)
    norm_num at h2 ZT this ⊢
    linarith
  have cT : QA Quad.TAU (2 * Real.pi) (2 * Real.pi / 2 ^ 200) (6284 / 1000) := qa_TAU.mono (by norm_num; linarith) le_rfl
  have cP : QA Quad.FRAC_PI_2 (Real.pi / 2) (Real.pi / 2 / 2 ^ 200) (1571 / 1000) := qa_PI_2.1.mono (by norm_num; linarith) le_rfl
  have cK := qa_PI_1024.1
  have P1 := qprod (by linarith) (by linarith) (by linarith) cT (by linarith) (by linarith) z1 Zb
  have G1 : (|(Z:ℝ)| + 1) * (2 * Real.pi) ≤ A + 15.78 := by rw [add_mul, one_mul]; linarith
  have r1 := (⟨ha, by simp⟩ : QA a (qv a) 0 A).sub P1 (Z := 1002 / 1000 * (A + 16)) (W := 52 / 100 * (A + 16) + 2) (g := 1003 / 1000 * (A + 16) / 2 ^ 128)
    (by linarith) (by linarith) (by norm_num at h2 ⊢; linarith) (by norm_num at G1 ⊢; linarith) (by linarith) (by norm_num at X1 h2 ⊢; linarith)
  have r0 : Z = 0 → A ≤ 1 / 1000 → 1 ≤ A * (2 ^ 200) ^ 3 → QA (a - (a / Quad.TAU).round * Quad.TAU) (qv a) (0 + A * (1002 / 1000 / 2 ^ 128)) (A * (1001 / 1000)) := by
    intro hZ hA1 hA2
    subst hZ
    exact qstep0 (⟨ha, by simp⟩ : QA a (qv a) 0 A) cT (by norm_num) (by norm_num) (by simpa using z1) hA2 (hA1.trans (by norm_num)) hx (by linarith) (by positivity)
  unfold Quad.reduce
  dsimp only
  generalize a - (a / Quad.TAU).round * Quad.TAU = r at *
  clear w1 z1 z2 W P1
  have r2s : (13 / 10 * A + 27) / 2 ^ 128 ≤ 1 / 2 ^ 90 := by norm_num at h2 ⊢; linarith
  have r2s' : 1003 / 1000 * (A + 16) / 2 ^ 128 ≤ 1 / 2 ^ 90 := by norm_num at h2 ⊢; linarith
  -- the quadrant
  have rb2 := r1.abs_le
  obtain ⟨Q, q1, q2⟩ := qquot_floor r1.sz (by norm_num at h2 ⊢; linarith) (show 0 < Real.pi / 2 by linarith) qa_PI_2.2.1 qa_PI_2.2.2 (by norm_num at rb2 X1 r2s' ⊢; linarith)
  have Q6 : |Q| ≤ 2 ∨ Q = 6 := by
    have rr := r1.err
    have e1 : qv a - Z * (2 * Real.pi) = (qv a / (2 * Real.pi) - Z) * 4 * (Real.pi / 2) := by
      have : (qv a / (2 * Real.pi) - Z) * 4 * (Real.pi / 2) = qv a / (2 * Real.pi) * (2 * Real.pi) - Z * (2 * Real.pi) := by ring
      rw [this, hAW]
    have key : |(qv a / (2 * Real.pi) - Z) * 4 - Q| * (Real.pi / 2) ≤ 0.51 * (Real.pi / 2) := by
      rw [← abs_of_pos (show 0 < Real.pi / 2 by linarith), ← abs_mul, abs_of_pos (show 0 < Real.pi / 2 by linarith)]
      rw [sub_mul, ← e1]
      rw [abs_le] at rr q2 ⊢
      norm_num at rr q2 r2s' ⊢
      constructor <;> linarith [rr.1, rr.2, q2.1, q2.2]
    have key2 := le_of_mul_le_mul_right key (by linarith)
    rcases zW with h | h
    · left
      have : |(Q:ℝ)| < 3 := by
        rw [abs_le] at h key2
        rw [abs_lt]
        norm_num at h key2
        constructor <;> linarith [h.1, h.2, key2.1, key2.2]
      have : |Q| < 3 := by exact_mod_cast this
      omega
    · right
      have h5 : (5:ℝ) < Q ∧ (Q:ℝ) < 7 := by
        rw [abs_le] at h key2
        norm_num at h key2
        constructor <;> linarith [h.1, h.2, key2.1, key2.2]
      have h5' : 5 < Q ∧ Q < 7 := ⟨by exact_mod_cast h5.1, by exact_mod_cast h5.2⟩
      omega
  have Qb : |(Q:ℝ)| ≤ 6 := by
    rcases Q6 with h | h
    · have : |(Q:ℝ)| ≤ 2 := by exact_mod_cast h
      linarith
    · rw [h]; norm_num
  have Qp : |(Q:ℝ)| * (Real.pi / 2) ≤ 9.425 := by
    refine (mul_le_mul Qb (show Real.pi / 2 ≤ 1.5708 by linarith) (by linarith) (by norm_num)).trans (by norm_num)
  have X2 : |qv a - Z * (2 * Real.pi) - Q * (Real.pi / 2)| ≤ 0.786 := by
    have rr := r1.err
    rw [abs_le] at rr q2 ⊢
    norm_num at rr q2 r2s' ⊢
    constructor <;> linarith [rr.1, rr.2, q2.1, q2.2]
  have zq : QA (⟨F64.floor (F64.add (F64.div r.c0 Quad.FRAC_PI_2.c0) Double.half), F64.zero, F64.zero, F64.zero⟩ : Quad) Q 0 |(Q:ℝ)| :=
    qa_int4 q1 is_zero' is_zero' is_zero'
  have P2 := qprod (by linarith) (by linarith) (by linarith) cP (by linarith) (by linarith) zq (Qb.trans (by norm_num))
  have G2 : (|(Q:ℝ)| + 1) * (Real.pi / 2) ≤ 11 := by rw [add_mul, one_mul]; linarith
  have hQp : |(Q:ℝ) * (Real.pi / 2)| ≤ 9.425 := by rw [abs_mul, abs_of_pos (show 0 < Real.pi / 2 by linarith)]; exact Qp
  have t1 := r1.subV P2 (Z := 52 / 100 * (A + 16) + 3) (V := 9.6) (W := 7) (g := (128 / 100 * A + 22.3) / 2 ^ 128)
    (by linarith) (by linarith) (by norm_num at h2 ⊢; linarith) (by norm_num at X1 h2 ⊢; linarith) (by norm_num at hQp G2 h2 ⊢; linarith) (by linarith)
    (by norm_num at G2 h2 ⊢; linarith) (by norm_num at h2 ⊢; linarith) (by norm_num at X2 h2 ⊢; linarith)
  have t0 : Z = 0 → Q = 0 → A ≤ 1 / 1000 → 1 ≤ A * (2 ^ 200) ^ 3 → QA (r - (⟨F64.floor (F64.add (F64.div r.c0 Quad.FRAC_PI_2.c0) Double.half), F64.zero, F64.zero, F64.zero⟩ : Quad) * Quad.FRAC_PI_2)
      (qv a) (0 + A * (1002 / 1000 / 2 ^ 128) + A * (1002 / 1000 / 2 ^ 128)) (A * (1001 / 1000)) := by
    intro hZ hQ hA1 hA2
    subst hZ hQ
    exact qstep0 (r0 rfl hA1 hA2) cP (by norm_num) (by norm_num) (by simpa using zq) hA2 (hA1.trans (by norm_num)) hx le_rfl (by clear hA2; norm_num; linarith)
  have jj := toI32_of_is q1 (by rcases Q6 with h | h <;> [omega; (rw [h]; norm_num)])
  rw [jj]
  clear q1 jj zq P2
  generalize (F64.floor (F64.add (F64.div r.c0 Quad.FRAC_PI_2.c0) Double.half)) = qq at *
  generalize r - (⟨qq, F64.zero, F64.zero, F64.zero⟩ : Quad) * Quad.FRAC_PI_2 = t at *
  have t2s : (128 / 100 * A + 22.3) / 2 ^ 128 ≤ 1 / 2 ^ 90 := by norm_num at h2 ⊢; linarith
  have tb := t1.abs_le
  obtain ⟨K, k1, k2⟩ := qquot_floor t1.sz (by norm_num at p1 ⊢; linarith) (show 0 < Real.pi / 1024 by linarith) qa_PI_1024.2.1 qa_PI_1024.2.2 (by norm_num at tb X2 t2s p1 ⊢; linarith)
  have K4 : |K| ≤ 256 := by
    have key : |(K:ℝ)| * (Real.pi / 1024) < 257 * (Real.pi / 1024) := by
      have : |(K:ℝ)| * (Real.pi / 1024) = |K * (Real.pi / 1024)| := by
        rw [abs_mul, abs_of_pos (show 0 < Real.pi / 1024 by linarith)]
      rw [this]
      have rr := t1.err
      have qq := q2
      have r3 := r1.err
      rw [abs_le] at k2 rr q2 r3
      rw [abs_lt]
      norm_num at k2 rr q2 r3 t2s r2s' p1 p2 ⊢
      constructor <;> linarith [k2.1, k2.2, rr.1, rr.2, q2.1, q2.2, r3.1, r3.2]
    have key2 := lt_of_mul_lt_mul_right key (by linarith)
    have : |K| < 257 := by exact_mod_cast key2
    omega
  have Kb : |(K:ℝ)| ≤ 256 := by exact_mod_cast K4
  have Kp : |(K:ℝ)| * (Real.pi / 1024) ≤ 0.7855 := by
    refine (mul_le_mul Kb (show Real.pi / 1024 ≤ 0.003068 by linarith) (by linarith) (by norm_num)).trans (by norm_num)
  have X3 : |qv a - Z * (2 * Real.pi) - Q * (Real.pi / 2) - K * (Real.pi / 1024)| ≤ 0.001535 := by
    have rr := t1.err
    rw [abs_le] at rr k2 ⊢
    norm_num at rr k2 t2s p1 p2 ⊢
    constructor <;> linarith [rr.1, rr.2, k2.1, k2.2]
  have zk : QA (⟨F64.floor (F64.add (F64.div t.c0 Quad.FRAC_PI_1024.c0) Double.half), F64.zero, F64.zero, F64.zero⟩ : Quad) K 0 |(K:ℝ)| :=
    qa_int4 k1 is_zero' is_zero' is_zero'
  have P3 := qprod (by linarith) (by linarith) (by linarith) cK (by linarith) (by linarith) zk (Kb.trans (by norm_num))
  have G3 : (|(K:ℝ)| + 1) * (Real.pi / 1024) ≤ 0.7888 := by rw [add_mul, one_mul]; linarith
  have hKp : |(K:ℝ) * (Real.pi / 1024)| ≤ 0.7855 := by rw [abs_mul, abs_of_pos (show 0 < Real.pi / 1024 by linarith)]; exact Kp
  have u1 := t1.subV P3 (Z := 7) (V := 0.79) (W := 41 / 100) (g := (13 / 10 * A + 27) / 2 ^ 128)
    le_rfl (by linarith) (by norm_num) (by norm_num at X2 h2 ⊢; linarith) (by norm_num at hKp G3 h2 ⊢; linarith) (by norm_num)
    (by norm_num at G3 h2 ⊢; linarith) (by norm_num) (by norm_num at X3 h2 ⊢; linarith)
  have u0 : Z = 0 → Q = 0 → K = 0 → A ≤ 1 / 1000 → 1 ≤ A * (2 ^ 200) ^ 3 → QA (t - (⟨F64.floor (F64.add (F64.div t.c0 Quad.FRAC_PI_1024.c0) Double.half), F64.zero, F64.zero, F64.zero⟩ : Quad) * Quad.FRAC_PI_1024)
      (qv a) (0 + A * (1002 / 1000 / 2 ^ 128) + A * (1002 / 1000 / 2 ^ 128) + A * (1002 / 1000 / 2 ^ 128)) (A * (1001 / 1000)) := by
    intro hZ hQ hK hA1 hA2
    subst hZ hQ hK
    exact qstep0 (t0 rfl rfl hA1 hA2) cK (by norm_num) (by norm_num) (by simpa using zk) hA2 (hA1.trans (by norm_num)) hx le_rfl (by clear hA2; norm_num; linarith)
  have kk := toI32_of_is k1 (by omega)
  rw [kk]
  clear k1 kk zk P3
  generalize (F64.floor (F64.add (F64.div t.c0 Quad.FRAC_PI_1024.c0) Double.half)) = qk at *
  have ub := u1.abs_le
  refine ⟨Z, Q, K, _, rfl, Q6, K4, u1, ?_, ?_⟩
  · norm_num at ub X3 r2s ⊢; linarith
  · intro hs hs2
    have hZ : Z = 0 := z3 (w2 hs)
    subst hZ
    have e0 : qv a - ((0:ℤ):ℝ) * (2 * Real.pi) = qv a := by push_cast; ring
    have hQ : Q = 0 := by
      have rr := r1.err
      rw [e0] at rr
      have key : |(Q:ℝ)| * (Real.pi / 2) < 1 * (Real.pi / 2) := by
        have : |(Q:ℝ)| * (Real.pi / 2) = |Q * (Real.pi / 2)| := by
          rw [abs_mul, abs_of_pos (show 0 < Real.pi / 2 by linarith)]
        rw [this, abs_lt]
        rw [abs_le] at q2 rr hx
        clear hs2
        norm_num at q2 rr r2s' hs ⊢
        constructor <;> linarith [q2.1, q2.2, rr.1, rr.2, hx.1, hx.2]
      have key2 := lt_of_mul_lt_mul_right key (by linarith)
      have : |Q| < 1 := by exact_mod_cast key2
      exact Int.abs_lt_one_iff.mp this
    subst hQ
    have e1 : qv a - ((0:ℤ):ℝ) * (2 * Real.pi) - ((0:ℤ):ℝ) * (Real.pi / 2) = qv a := by push_cast; ring
    have hK : K = 0 := by
      have rr := t1.err
      rw [e1] at rr
      have key : |(K:ℝ)| * (Real.pi / 1024) < 1 * (Real.pi / 1024) := by
        have : |(K:ℝ)| * (Real.pi / 1024) = |K * (Real.pi / 1024)| := by
          rw [abs_mul, abs_of_pos (show 0 < Real.pi / 1024 by linarith)]
        rw [this, abs_lt]
        rw [abs_le] at k2 rr hx
        clear hs2
        norm_num at k2 rr t2s hs p1 ⊢
        constructor <;> linarith [k2.1, k2.2, rr.1, rr.2, hx.1, hx.2]
      have key2 := lt_of_mul_lt_mul_right key (by linarith)
      have : |K| < 1 := by exact_mod_cast key2
      exact Int.abs_lt_one_iff.mp this
    subst hK
    exact ⟨rfl, rfl, rfl, (u0 rfl rfl rfl hs hs2).mono (by clear hs2; norm_num; linarith) le_rfl⟩

end Verif
