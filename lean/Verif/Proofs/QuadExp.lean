import Verif.Proofs.QuadAp
import Verif.Proofs.Exp
import Verif.Props.QuadFuncSpecial

/-!
# The error of the Taylor part and of the repeated squaring of `exp` of a Quad
-/

namespace Verif

open F64 Prim Util Quad Consts

/-- A weakly normalized Quad approximates its own value. -/
theorem QOrd.exact {a : Quad} (h : QOrd a) : QA a (qv a) 0 (|qv a| * (1 + 1 / 2 ^ 47)) := by
  have op := one'_posQ
  have oR := one'_posR
  have hq := h.qs.mono (r' := 1 / 2 ^ 49) (η' := 0) (by norm_num) le_rfl
  have hh := (hq.head le_rfl).2
  refine ⟨⟨|U a.c0| / one', ?_, h.qs.mono (by norm_num) (by positivity), ?_⟩, by simp⟩
  · have h1 : ((|U a.c0| : ℚ) : ℝ) ≤ ((|UQ a| * (1 + 1 / 2 ^ 47) + 5 * 0 : ℚ) : ℝ) := by exact_mod_cast hh
    rw [qv_UQ hq.fin, abs_div, abs_of_pos oR]
    push_cast at h1 oR ⊢
    rw [div_mul_eq_mul_div]
    exact div_le_div_of_nonneg_right (by linarith) oR.le
  · rw [div_mul_cancel₀ _ op.ne']

theorem qord_norm {a : Quad} (h : a.Normalized) : QOrd a := by
  have q := QIs.of_fin h.1
  exact qord_of (q.ordered_iff.mpr (q.normalized_iff.mp h).ord)

/-- A normalized Quad approximates what it is near to. -/
theorem qa_of {a : Quad} (h : a.Normalized) {x e X : ℝ} (he : |qv a - x| ≤ e) (hX : (|x| + e) * (1 + 1 / 2 ^ 47) ≤ X) : QA a x e X := by
  refine ⟨(qord_norm h).exact.sz.mono ?_, he⟩
  have := abs_sub_abs_le_abs_sub (qv a) x
  refine le_trans ?_ hX
  exact mul_le_mul_of_nonneg_right (by linarith) (by positivity)

/-- Comparison of slack-ordered Quads bounds the leading components. -/
theorem le_head {a b : Quad} (h : Quad.le a b = true) (fa : a.c0.isFinite = true) (fb : b.c0.isFinite = true) : U a.c0 ≤ U b.c0 := by
  have key := (Is.of_finite fa).partialCmp (Is.of_finite fb)
  unfold Quad.le Quad.partialCmp at h
  rw [key] at h
  unfold U
  rcases lt_trichotomy a.c0.units b.c0.units with c | c | c
  · exact_mod_cast c.le
  · exact_mod_cast c.le
  · rw [compare_gt_iff_gt.mpr c] at h
    simp at h

theorem abs_head {a : Quad} (fa : a.c0.isFinite = true) : a.abs.c0.isFinite = true ∧ U a.abs.c0 = |U a.c0| := by
  obtain ⟨s, m, hm, e, e2⟩ := (Is.of_finite fa).exists
  have sg : a.isSignNegative = s := by unfold Quad.isSignNegative; rw [e]; rfl
  unfold Quad.abs
  rw [sg]
  have hu : U a.c0 = if s then -(m : ℚ) else m := by unfold U; rw [e2]; split_ifs <;> push_cast <;> rfl
  have hm0 : (0:ℚ) ≤ m := by positivity
  cases s with
  | true =>
    refine ⟨fin_neg fa, ?_⟩
    change U (F64.neg a.c0) = _
    rw [U_neg fa, hu]; simp
  | false =>
    refine ⟨fa, ?_⟩
    change U a.c0 = _
    rw [hu]; simp

/-- The entries of the table of inverse factorials. -/
theorem qa_inv_fact {i : ℕ} (hi : i < 15) : ∃ c, Quad.INV_FACTS[i]? = some c ∧
    QA c (1 / ((i + 3).factorial : ℝ)) (1 / 2 ^ 213) (1 / 5) := by
  obtain ⟨c, h1, h2, h3⟩ := C49_quad_inv_facts.2 i hi
  refine ⟨c, h1, ?_⟩
  have hf : (6:ℝ) ≤ ((i + 3).factorial : ℝ) := by
    have : Nat.factorial 3 ≤ (i + 3).factorial := Nat.factorial_le (by omega)
    exact_mod_cast this
  have h4 : |(c.val * ((i + 3).factorial : ℚ) - 1 : ℚ)| ≤ 1 / 2 ^ 213 := by
    refine h3.trans (le_of_eq ?_)
    rw [Rat.mkRat_eq_div]; norm_num
  have h5 : |qv c * ((i + 3).factorial : ℝ) - 1| ≤ 1 / 2 ^ 213 := by
    have := (Rat.cast_le (K := ℝ)).mpr h4
    push_cast at this
    exact this
  have e : qv c - 1 / ((i + 3).factorial : ℝ) = (qv c * ((i + 3).factorial : ℝ) - 1) / ((i + 3).factorial : ℝ) := by
    field_simp
  refine qa_of h2 ?_ ?_
  · rw [e, abs_div, Nat.abs_cast]
    exact (div_le_self (abs_nonneg _) (by linarith)).trans h5
  · have : |1 / ((i + 3).factorial : ℝ)| ≤ 1 / 6 := by
      rw [abs_div, Nat.abs_cast, abs_one]
      exact one_div_le_one_div_of_le (by norm_num) hf
    norm_num at this ⊢
    linarith

theorem qexpEps_facts : (Quad.mulPwr2 Quad.EPSILON Quad.INV_K.c0).c0.isFinite = true ∧
    (Quad.mulPwr2 Quad.EPSILON Quad.INV_K.c0).c0.toRat ≤ mkRat 1 (2 ^ 224) := by
  constructor <;> decide +kernel

/-- What a number not above the threshold of the loop is worth. -/
theorem small_of_le {t : Quad} {X : ℝ} (ht : SZ t X) (h : Quad.le t.abs (Quad.mulPwr2 Quad.EPSILON Quad.INV_K.c0) = true) :
    |qv t| ≤ 1 / 2 ^ 223 + X / 2 ^ 138 := by
  obtain ⟨A, _, A0, A1, A2, A3⟩ := ht.raise (L := 0) (by simpa using ht.nonneg)
  have op := one'_posQ
  have oR := one'_posR
  obtain ⟨f, u⟩ := abs_head A2.f0
  have h1 := le_head h f qexpEps_facts.1
  rw [u] at h1
  have h2 := qexpEps_facts.2
  rw [toRat_U qexpEps_facts.1, Rat.mkRat_eq_div, div_le_iff₀ op] at h2
  have h3 := (A2.head (by positivity)).1
  have h4 : |UQ t| ≤ (1 / 2 ^ 223 + A / 2 ^ 138) * one' := by
    have e : UQ t = (UQ t - U t.c0) + U t.c0 := by ring
    rw [e]
    refine (abs_add_le _ _).trans ?_
    push_cast at h2
    have := abs_nonneg (U t.c0)
    have : 0 ≤ A * one' := by positivity
    linarith
  rw [qv_UQ ht.fin, abs_div, abs_of_pos oR, div_le_iff₀ oR]
  have h5 : ((|UQ t| : ℚ) : ℝ) ≤ (((1 / 2 ^ 223 + A / 2 ^ 138) * one' : ℚ) : ℝ) := by exact_mod_cast h4
  push_cast at h5 oR ⊢
  refine h5.trans (mul_le_mul_of_nonneg_right ?_ oR.le)
  linarith

theorem qES_abs {X : ℝ} (hX : |X| ≤ 53 / 10 ^ 7) (n : ℕ) (hn : 2 ≤ n) : |ES X n| ≤ 5301 / 10 ^ 9 := by
  have h1 := ES_rem' (hX.trans (by norm_num)) n (by omega)
  have h2 := exp_sub_one_le hX (by norm_num)
  have h3 : |X ^ n / n.factorial| ≤ 1 / 10 ^ 10 := by
    rw [abs_div, Nat.abs_cast]
    have : (1:ℝ) ≤ n.factorial := by exact_mod_cast n.factorial_pos
    refine (div_le_self (abs_nonneg _) this).trans ?_
    refine (pow_q hX n).trans ?_
    refine (pow_le_pow_of_le_one (by norm_num) (by norm_num) hn).trans ?_
    norm_num
  have h4 : |X ^ n / n.factorial| * |X| ≤ 1 / 10 ^ 10 * (53 / 10 ^ 7) :=
    mul_le_mul h3 hX (abs_nonneg _) (by norm_num)
  have h5 := abs_sub_abs_le_abs_sub (ES X n) (Real.exp X - 1)
  rw [abs_sub_comm (ES X n)] at h5
  norm_num at h2 h4 ⊢
  linarith

/-- One unit of error of the Taylor part: an addition of numbers not above `5.4e-6`. -/
noncomputable def qrho : ℝ := 541 / 10 ^ 8 / 2 ^ 128

theorem pow_fact_small {X : ℝ} (hX : |X| ≤ 53 / 10 ^ 7) {n : ℕ} (hn : 3 ≤ n) :
    |X ^ n| ≤ 1 / 10 ^ 15 ∧ |X ^ n / n.factorial| ≤ 1 / 10 ^ 15 := by
  have h1 : |X ^ n| ≤ 1 / 10 ^ 15 := by
    refine (pow_q hX _).trans ?_
    refine (pow_le_pow_of_le_one (by norm_num) (by norm_num) hn).trans ?_
    norm_num
  refine ⟨h1, ?_⟩
  rw [abs_div, Nat.abs_cast]
  have : (1:ℝ) ≤ n.factorial := by exact_mod_cast n.factorial_pos
  exact (div_le_self (abs_nonneg _) this).trans h1

theorem qexpLoop_qa {x : Quad} {S : ℝ} (hx : SZ x S) (hS2 : S ≤ 29 / 10 ^ 4) (hX : |qv x| ≤ 53 / 10 ^ 7) :
    ∀ (d i : ℕ) (r p t : Quad), i + d = 9 → 1 ≤ d →
    QA r (ES (qv x) (i + 2)) (S / 2 ^ 128 + i * qrho) (54 / 10 ^ 7) → QA p (qv x ^ (i + 3)) (1 / 2 ^ 163) (14 / 10 ^ 9) →
    QA t (qv x ^ (i + 3) / (i + 3).factorial) (1 / 2 ^ 163) (14 / 10 ^ 9) →
    ∀ fuel, d ≤ fuel → ∃ v, Quad.expLoop x (Quad.mulPwr2 Quad.EPSILON Quad.INV_K.c0) fuel r p t i = some v ∧
      QA v (Real.exp (qv x) - 1) (S / 2 ^ 128 + 55 / 10 ^ 6 / 2 ^ 128) (54 / 10 ^ 7) := by
  intro d
  induction d with
  | zero => intro i r p t h h1; omega
  | succ d ih =>
    intro i r p t h h1 hr hp ht fuel hf
    obtain ⟨fuel, rfl⟩ : ∃ f, fuel = f + 1 := ⟨fuel - 1, by omega⟩
    obtain ⟨c, hc, hcA⟩ := qa_inv_fact (i := i + 1) (by omega)
    simp only [Quad.expLoop, hc]
    generalize hXd : qv x = X at *
    have hi : (i:ℝ) ≤ 8 := by exact_mod_cast (by omega : i ≤ 8)
    have hi0 : (0:ℝ) ≤ i := by positivity
    have big : (1:ℝ) ≤ 2 ^ 225 * 2 ^ 225 * 2 ^ 225 * 2 ^ 225 := by norm_num
    -- the new sum
    have hr' : QA (r + t) (ES X (i + 1 + 2)) (S / 2 ^ 128 + ((i + 1 : ℕ) : ℝ) * qrho) (54 / 10 ^ 7) := by
      have e : ES X (i + 1 + 2) = ES X (i + 2) + X ^ (i + 3) / (i + 3).factorial := ES_succ X (i + 2)
      have b1 := qES_abs hX (i + 1 + 2) (by omega)
      rw [e] at b1 ⊢
      refine hr.add ht le_rfl (by norm_num) (le_trans (by norm_num) big) ?_ (by norm_num) ?_
      · unfold qrho; push_cast; norm_num; linarith
      · unfold qrho; push_cast; norm_num at b1 ⊢; linarith
    have hp' : QA (p * x) (X ^ (i + 1 + 3)) (1 / 2 ^ 163) (14 / 10 ^ 9) := by
      have hxA : QA x X 0 (29 / 10 ^ 4) := ⟨hx.mono hS2, by rw [hXd]; simp⟩
      have b := (pow_fact_small hX (show 3 ≤ i + 1 + 3 by omega)).1
      rw [pow_succ] at b ⊢
      refine hp.mul hxA (by norm_num) (by norm_num) (le_trans (by norm_num) big) ?_ (by norm_num) ?_
      · norm_num at hX ⊢; linarith
      · norm_num at b ⊢; linarith
    have ht' : QA (p * x * c) (X ^ (i + 1 + 3) / (i + 1 + 3).factorial) (1 / 2 ^ 163) (14 / 10 ^ 9) := by
      have b := pow_fact_small hX (show 3 ≤ i + 1 + 3 by omega)
      have b2 : |1 / ((i + 1 + 3).factorial : ℝ)| ≤ 1 / 24 := by
        rw [abs_div, Nat.abs_cast, abs_one]
        apply one_div_le_one_div_of_le (by norm_num)
        have : Nat.factorial 4 ≤ (i + 1 + 3).factorial := Nat.factorial_le (by omega)
        exact_mod_cast this
      obtain ⟨b, b3⟩ := b
      rw [← mul_one_div] at b3 ⊢
      refine hp'.mul hcA (by norm_num) (by norm_num) (le_trans (by norm_num) big) ?_ (by norm_num) ?_
      · norm_num at b b2 ⊢; linarith
      · norm_num at b3 ⊢; linarith
    have hlast : QA (r + t + p * x * c) (ES X (i + 4)) (S / 2 ^ 128 + (((i + 1 : ℕ) : ℝ) + 1) * qrho) (54 / 10 ^ 7) := by
      have e : ES X (i + 4) = ES X (i + 1 + 2) + X ^ (i + 1 + 3) / (i + 1 + 3).factorial := ES_succ X (i + 3)
      have b1 := qES_abs hX (i + 4) (by omega)
      rw [e] at b1 ⊢
      refine hr'.add ht' le_rfl (by norm_num) (le_trans (by norm_num) big) ?_ (by norm_num) ?_
      · unfold qrho; push_cast; norm_num; linarith
      · unfold qrho; push_cast; norm_num at b1 ⊢; linarith
    split_ifs with hs
    · refine ⟨_, rfl, ?_⟩
      have hrem := ES_rem' (hX.trans (by norm_num)) (i + 4) (by omega)
      have hsmall : |X ^ (i + 4) / (i + 4).factorial| ≤ 1 / 2 ^ 150 := by
        rw [Bool.or_eq_true, decide_eq_true_eq] at hs
        rcases hs with hs | hs
        · have : i = 8 := by omega
          subst this
          rw [abs_div, Nat.abs_cast]
          have b := pow_q hX (8 + 4)
          rw [div_le_iff₀ (by positivity)]
          refine b.trans ?_
          norm_num [Nat.factorial]
        · have e := small_of_le ht'.sz hs
          have := ht'.err
          have h3 := abs_sub_abs_le_abs_sub (X ^ (i + 1 + 3) / (i + 1 + 3).factorial) (qv (p * x * c))
          rw [abs_sub_comm (X ^ (i + 1 + 3) / ((i + 1 + 3).factorial : ℝ))] at h3
          have h4 : |X ^ (i + 1 + 3) / ((i + 1 + 3).factorial : ℝ)| ≤ 1 / 2 ^ 150 := by
            norm_num at e this ⊢
            linarith
          exact h4
      have h5 : |X ^ (i + 4) / (i + 4).factorial| * |X| ≤ 1 / 2 ^ 150 * (53 / 10 ^ 7) :=
        mul_le_mul hsmall hX (abs_nonneg _) (by norm_num)
      rw [abs_sub_comm] at hrem
      refine (hlast.move (hrem.trans h5)).mono ?_ le_rfl
      unfold qrho; push_cast; norm_num; linarith
    · have hd : 1 ≤ d := by
        by_contra hd
        apply hs
        have : i = 8 := by omega
        subst this; simp
      exact ih (i + 1) _ _ _ (by omega) hd hr' hp' ht' fuel (by omega)

theorem scale_two : (∃ k : ℕ, (2:ℚ) = 2 ^ k ∧ Is Double.two (2 ^ k * one')) ∨
    (∃ k : ℕ, k ≤ 1074 ∧ (2:ℚ) = 1 / 2 ^ k ∧ Is Double.two (2 ^ (1074 - k))) :=
  Or.inl ⟨1, by norm_num, by simpa using is_two⟩

theorem scale_half : (∃ k : ℕ, (1 / 2:ℚ) = 2 ^ k ∧ Is Double.half (2 ^ k * one')) ∨
    (∃ k : ℕ, k ≤ 1074 ∧ (1 / 2:ℚ) = 1 / 2 ^ k ∧ Is Double.half (2 ^ (1074 - k))) :=
  Or.inr ⟨1, by norm_num, by norm_num, by have := is_half; unfold hf at this; exact this⟩

theorem QA.two {a : Quad} {x e X : ℝ} (ha : QA a x e X) (h1 : 1 / 2 ^ 200 ≤ X) (h2 : X ≤ 2 ^ 200) :
    QA (mulPwr2 a Double.two) (2 * x) (2 * e + 2 * X / 2 ^ 200) (2 * X * (1 + 1 / 2 ^ 50)) := by
  have := ha.scale scale_two (by norm_num at h2 ⊢; linarith) (by norm_num at h1 ⊢; linarith)
  push_cast at this
  exact this

theorem QA.half {a : Quad} {x e X : ℝ} (ha : QA a x e X) (h1 : 1 / 2 ^ 200 ≤ X) (h2 : X ≤ 2 ^ 200) :
    QA (mulPwr2 a Double.half) (x / 2) (e / 2 + X / 2 ^ 200) (X / 2 * (1 + 1 / 2 ^ 50)) := by
  have := ha.scale scale_half (by norm_num at h2 ⊢; linarith) (by norm_num at h1 ⊢; linarith)
  push_cast at this
  rw [one_div_mul_eq_div] at this
  refine this.mono ?_ ?_
  · have : 0 ≤ X := by norm_num at h1; linarith
    norm_num at *; linarith
  · norm_num at *; linarith

/-- One squaring step: if `r` is `T` with error `e`, then the next is `(1 + T) ^ 2 - 1`. -/
theorem qexpStep_qa {r : Quad} {T e M N g : ℝ} (h : QA r T e (M * (10001 / 10000))) (hM : |T| ≤ M)
    (hM0 : 5 / 10 ^ 6 ≤ M) (hM1 : M ≤ 1) (he : e ≤ 1 / 2 ^ 100) (hN : 2 * M + M * M ≤ N) (hN1 : N ≤ 1)
    (hg : (2 + 2 * M + 1 / 10 ^ 9) * e + 201 / 100 * M / 2 ^ 128 ≤ g) (hg1 : g ≤ 1 / 2 ^ 95) :
    QA (Quad.expStep r) (2 * T + T ^ 2) g (N * (10001 / 10000)) := by
  have he0 := h.nonneg
  have hMM : M * M ≤ M := by nlinarith
  have hTT : T ^ 2 ≤ M * M := by rw [← sq_abs, pow_two]; exact mul_le_mul hM hM (abs_nonneg _) (by linarith)
  have hTT0 := sq_nonneg T
  have a := h.two (by norm_num at hM0 ⊢; linarith) (by norm_num; linarith)
  have heM : |T| * e ≤ M * e := mul_le_mul_of_nonneg_right hM he0
  have hMe : M * e ≤ e := by nlinarith
  have hMe0 : 0 ≤ M * e := by positivity
  have hee : e * e ≤ 1 / 2 ^ 100 * e := mul_le_mul_of_nonneg_right he he0
  have hMM2 : 5 / 10 ^ 6 * (5 / 10 ^ 6) ≤ M * M := mul_le_mul hM0 hM0 (by norm_num) (by linarith)
  have b := h.sqr (W := M * M * (1001 / 1000)) (g := (2 * M + 1 / 10 ^ 10) * e + M * M * (1001 / 1000) / 2 ^ 139)
    (by norm_num at hM0 ⊢; linarith) (by norm_num; linarith)
    (by
      have e1 : M * (10001 / 10000) * (M * (10001 / 10000)) = M * M * (10001 / 10000) ^ 2 := by ring
      rw [e1]
      norm_num at hee ⊢
      linarith)
    (by norm_num; linarith)
    (by
      have e1 : M * (10001 / 10000) * (M * (10001 / 10000)) = M * M * (10001 / 10000) ^ 2 := by ring
      rw [e1]
      norm_num at he hMM2 ⊢
      linarith)
  unfold Quad.expStep
  refine a.add b (Z := 2 * (M * (10001 / 10000)) * (1 + 1 / 2 ^ 50)) le_rfl ?_ ?_ ?_ ?_ ?_
  · norm_num; linarith
  · norm_num; linarith
  · norm_num at hg ⊢; linarith
  · norm_num at hM0 ⊢; linarith
  · have h1 := abs_add_le (2 * T) (T ^ 2)
    rw [abs_mul, abs_of_nonneg hTT0] at h1
    norm_num at h1 hg1 hM0 ⊢
    linarith

/-- Sixteen squaring steps and the final addition of one. -/
theorem qexpSteps_qa {r : Quad} {X ε : ℝ} (hX : |X| ≤ 53 / 10 ^ 7) (hε : ε ≤ 1 / 2 ^ 128) (hε0 : 0 ≤ ε)
    (h : QA r (Real.exp X - 1) ε (54 / 10 ^ 7)) :
    QA (Quad.expStep^[16] r + Quad.ONE) (Real.exp (65536 * X)) (94000 * ε + 10 / 2 ^ 128) (15 / 10) := by
  have step : ∀ {r : Quad} {Y M N e g : ℝ}, QA r (Real.exp Y - 1) e (M * (10001 / 10000)) → |Real.exp Y - 1| ≤ M →
      5 / 10 ^ 6 ≤ M → N ≤ 1 → e ≤ 1 / 2 ^ 100 → 2 * M + M * M ≤ N →
      (2 + 2 * M + 1 / 10 ^ 9) * e + 201 / 100 * M / 2 ^ 128 ≤ g ∧ g ≤ 1 / 2 ^ 95 →
      QA (Quad.expStep r) (Real.exp (2 * Y) - 1) g (N * (10001 / 10000)) ∧ |Real.exp (2 * Y) - 1| ≤ N := by
    intro r Y M N e g h hM hM0 hN1 he hN hg
    have eq : Real.exp (2 * Y) - 1 = 2 * (Real.exp Y - 1) + (Real.exp Y - 1) ^ 2 := by
      rw [two_mul, Real.exp_add]; ring
    have b : |2 * (Real.exp Y - 1) + (Real.exp Y - 1) ^ 2| ≤ N := by
      have h1 := abs_add_le (2 * (Real.exp Y - 1)) ((Real.exp Y - 1) ^ 2)
      have h2 : |(Real.exp Y - 1) ^ 2| ≤ M * M := by
        rw [abs_pow, pow_two]; exact mul_le_mul hM hM (abs_nonneg _) ((abs_nonneg _).trans hM)
      have h3 : |2 * (Real.exp Y - 1)| = 2 * |Real.exp Y - 1| := by rw [abs_mul]; norm_num
      linarith
    have hMM : 0 ≤ M * M := mul_self_nonneg M
    rw [eq]
    exact ⟨qexpStep_qa h hM hM0 (by linarith) he hN hN1 hg.1 hg.2, b⟩
  have b0 : |Real.exp X - 1| ≤ 53995 / 10000000000 := (exp_sub_one_le hX (by norm_num)).trans (by norm_num)
  have a0 : QA r (Real.exp X - 1) (1 * ε + 0 / 2 ^ 128) (53995 / 10000000000 * (10001 / 10000)) :=
    h.mono (by linarith) (by norm_num)
  obtain ⟨a1, b1⟩ := step (N := 1079903 / 100000000000) (g := 2000011 / 1000000 * ε + 10853 / 1000000000 / 2 ^ 128) a0 b0 (by norm_num) (by norm_num) (by norm_num at hε ⊢; linarith) (by norm_num) (by norm_num at hε hε0 ⊢; constructor <;> linarith)
  obtain ⟨a2, b2⟩ := step (N := 21598177 / 1000000000000) (g := 2000033 / 500000 * ε + 43413 / 1000000000 / 2 ^ 128) a1 b1 (by norm_num) (by norm_num) (by norm_num at hε ⊢; linarith) (by norm_num) (by norm_num at hε hε0 ⊢; constructor <;> linarith)
  obtain ⟨a3, b3⟩ := step (N := 43196821 / 1000000000000) (g := 1600061 / 200000 * ε + 130241 / 1000000000 / 2 ^ 128) a2 b2 (by norm_num) (by norm_num) (by norm_num at hε ⊢; linarith) (by norm_num) (by norm_num at hε hε0 ⊢; constructor <;> linarith)
  obtain ⟨a4, b4⟩ := step (N := 21598877 / 250000000000) (g := 8000651 / 500000 * ε + 347319 / 1000000000 / 2 ^ 128) a3 b3 (by norm_num) (by norm_num) (by norm_num at hε ⊢; linarith) (by norm_num) (by norm_num at hε hε0 ⊢; constructor <;> linarith)
  obtain ⟨a5, b5⟩ := step (N := 172798481 / 1000000000000) (g := 32005369 / 1000000 * ε + 868353 / 1000000000 / 2 ^ 128) a4 b4 (by norm_num) (by norm_num) (by norm_num at hε ⊢; linarith) (by norm_num) (by norm_num at hε hε0 ⊢; constructor <;> linarith)
  obtain ⟨a6, b6⟩ := step (N := 172813411 / 500000000000) (g := 64021799 / 1000000 * ε + 521083 / 250000000 / 2 ^ 128) a5 b5 (by norm_num) (by norm_num) (by norm_num at hε ⊢; linarith) (by norm_num) (by norm_num at hε hε0 ⊢; constructor <;> linarith)
  obtain ⟨a7, b7⟩ := step (N := 345686551 / 500000000000) (g := 64043927 / 500000 * ε + 972963 / 200000000 / 2 ^ 128) a6 b6 (by norm_num) (by norm_num) (by norm_num at hε ⊢; linarith) (by norm_num) (by norm_num at hε hε0 ⊢; constructor <;> linarith)
  obtain ⟨a8, b8⟩ := step (N := 1383224201 / 1000000000000) (g := 128176411 / 500000 * ε + 11126017 / 1000000000 / 2 ^ 128) a7 b7 (by norm_num) (by norm_num) (by norm_num at hε ⊢; linarith) (by norm_num) (by norm_num at hε hε0 ⊢; constructor <;> linarith)
  obtain ⟨a9, b9⟩ := step (N := 173022607 / 62500000000) (g := 32088427 / 62500 * ε + 5012619 / 200000000 / 2 ^ 128) a8 b8 (by norm_num) (by norm_num) (by norm_num at hε ⊢; linarith) (by norm_num) (by norm_num at hε hε0 ⊢; constructor <;> linarith)
  obtain ⟨a10, b10⟩ := step (N := 5544387251 / 1000000000000) (g := 1029672301 / 1000000 * ε + 11165873 / 200000000 / 2 ^ 128) a9 b9 (by norm_num) (by norm_num) (by norm_num at hε ⊢; linarith) (by norm_num) (by norm_num at hε hε0 ⊢; constructor <;> linarith)
  obtain ⟨a11, b11⟩ := step (N := 2779878683 / 250000000000) (g := 2070762407 / 1000000 * ε + 30855507 / 250000000 / 2 ^ 128) a10 b10 (by norm_num) (by norm_num) (by norm_num at hε ⊢; linarith) (by norm_num) (by norm_num at hε hε0 ⊢; constructor <;> linarith)
  obtain ⟨a12, b12⟩ := step (N := 1397667067 / 62500000000) (g := 4187576563 / 1000000 * ε + 271939067 / 1000000000 / 2 ^ 128) a11 b11 (by norm_num) (by norm_num) (by norm_num at hε ⊢; linarith) (by norm_num) (by norm_num at hε hε0 ⊢; constructor <;> linarith)
  obtain ⟨a13, b13⟩ := step (N := 45225435291 / 1000000000000) (g := 4281221971 / 500000 * ε + 600989677 / 1000000000 / 2 ^ 128) a12 b12 (by norm_num) (by norm_num) (by norm_num at hε ⊢; linarith) (by norm_num) (by norm_num at hε hε0 ⊢; constructor <;> linarith)
  obtain ⟨a14, b14⟩ := step (N := 4624810529 / 50000000000) (g := 8949684201 / 500000 * ε + 33681063 / 25000000 / 2 ^ 128) a13 b13 (by norm_num) (by norm_num) (by norm_num at hε ⊢; linarith) (by norm_num) (by norm_num at hε hε0 ⊢; constructor <;> linarith)
  obtain ⟨a15, b15⟩ := step (N := 48386992533 / 250000000000) (g := 122218701 / 3125 * ε + 3129632081 / 1000000000 / 2 ^ 128) a14 b14 (by norm_num) (by norm_num) (by norm_num at hε ⊢; linarith) (by norm_num) (by norm_num at hε hε0 ⊢; constructor <;> linarith)
  obtain ⟨a16, b16⟩ := step (N := 424556757007 / 1000000000000) (g := 46679642417 / 500000 * ε + 7859763459 / 1000000000 / 2 ^ 128) a15 b15 (by norm_num) (by norm_num) (by norm_num at hε ⊢; linarith) (by norm_num) (by norm_num at hε hε0 ⊢; constructor <;> linarith)
  have e : (2:ℝ) * (2 * (2 * (2 * (2 * (2 * (2 * (2 * (2 * (2 * (2 * (2 * (2 * (2 * (2 * (2 * X))))))))))))))) = 65536 * X := by ring
  rw [e] at a16 b16
  have one : QA Quad.ONE 1 0 (101 / 100) := by
    refine qa_of (by decide +kernel) ?_ (by norm_num)
    have : Quad.ONE.val = 1 := by decide +kernel
    unfold qv; rw [this]; norm_num
  have := a16.add one (Z := 101 / 100) (W := 15 / 10) (g := 94000 * ε + 10 / 2 ^ 128) (by norm_num) le_rfl (by norm_num)
    (by norm_num; linarith) (by norm_num)
    (by
      have h3 := (abs_le.mp b16).2
      rw [sub_add_cancel, abs_of_pos (Real.exp_pos _)]
      norm_num at hε h3 ⊢
      linarith)
  rw [sub_add_cancel] at this
  exact this

/-- The Taylor part of `exp` from the reduced argument on. -/
theorem qexpTaylor_qa {x : Quad} {S : ℝ} (hx : SZ x S) (hS1 : 54 / 10 ^ 7 ≤ S) (hS2 : S ≤ 29 / 10 ^ 4)
    (hX : |qv x| ≤ 53 / 10 ^ 7) : ∃ c, Quad.INV_FACTS[0]? = some c ∧
    ∃ v, Quad.expLoop x (Quad.mulPwr2 Quad.EPSILON Quad.INV_K.c0) Quad.INV_FACTS.length
      (x + Quad.mulPwr2 x.sqr Double.half) (x.sqr * x) (x.sqr * x * c) 0 = some v ∧
      QA v (Real.exp (qv x) - 1) (S / 2 ^ 128 + 55 / 10 ^ 6 / 2 ^ 128) (54 / 10 ^ 7) := by
  obtain ⟨c, hc, hcA⟩ := qa_inv_fact (i := 0) (by norm_num)
  refine ⟨c, hc, ?_⟩
  have big : (1:ℝ) ≤ 2 ^ 225 * 2 ^ 225 * 2 ^ 225 * 2 ^ 225 := by norm_num
  have hxA : QA x (qv x) 0 S := ⟨hx, by simp⟩
  have hxB : QA x (qv x) 0 (29 / 10 ^ 4) := hxA.mono le_rfl hS2
  have b2 : qv x ^ 2 ≤ 29 / 10 ^ 12 := by
    rw [← sq_abs]
    exact (pow_le_pow_left₀ (abs_nonneg _) hX 2).trans (by norm_num)
  have b20 := sq_nonneg (qv x)
  have hp := hxB.sqr (g := 1 / 2 ^ 155) (W := 9 / 10 ^ 6) (by norm_num) (by norm_num) (by norm_num) (by norm_num)
    (by norm_num at b2 ⊢; linarith)
  have b3 := pow_fact_small hX (le_refl 3)
  have hh := hp.half (by norm_num) (by norm_num)
  have e2 : ES (qv x) 2 = qv x + qv x ^ 2 / 2 := ES_two _
  have bE := qES_abs hX 2 le_rfl
  rw [e2] at bE
  have hr := hxA.addV hh (Z := S) (V := 5301 / 10 ^ 9) (W := 54 / 10 ^ 7) (g := S / 2 ^ 128) le_rfl
    (by norm_num at hS1 ⊢; linarith) (by norm_num at *; linarith)
    (by norm_num at hX hS2 ⊢; linarith)
    (by rw [abs_of_nonneg (by positivity)]; norm_num at b2 hS2 ⊢; linarith)
    (by norm_num at hS1 ⊢; linarith)
    (by norm_num at hS1 ⊢; linarith)
    (by norm_num at hS2 ⊢; linarith)
    (by norm_num at bE hS2 ⊢; linarith)
  have hp3 := hp.mul hxB (g := 1 / 2 ^ 163) (W := 14 / 10 ^ 9) (by norm_num) (by norm_num) (by norm_num)
    (by norm_num at hX ⊢; linarith) (by norm_num)
    (by rw [← pow_succ]; have := b3.1; norm_num at this ⊢; linarith)
  rw [← pow_succ] at hp3
  have f3 : (((0 + 3).factorial : ℕ) : ℝ) = 6 := by norm_num [Nat.factorial]
  rw [f3] at hcA
  have ht := hp3.mul hcA (g := 1 / 2 ^ 163) (W := 14 / 10 ^ 9) (by norm_num) (by norm_num) (by norm_num)
    (by have := b3.1; norm_num at this ⊢; linarith) (by norm_num)
    (by
      rw [abs_mul]
      have := b3.1
      norm_num at this ⊢; linarith)
  refine qexpLoop_qa hx hS2 hX 9 0 _ _ _ (by norm_num) (by norm_num) ?_ hp3 ?_ _ (by rw [quad_inv_facts_len]; norm_num)
  · rw [zero_add, e2]; simpa using hr
  · rw [mul_one_div] at ht; rw [f3]; exact ht

/-! ## Reduction -/

theorem qexpM_eq (a : Quad) : Quad.expM a = Double.expM ⟨a.c0, F64.zero⟩ := by
  unfold Quad.expM Double.expM
  have : Quad.LN_2.c0 = Double.LN_2.hi := by decide +kernel
  rw [this]

/-- The value is near the leading component. -/
theorem qv_sub_c0 {a : Quad} (h : QOrd a) : |qv a - fr a.c0| ≤ |fr a.c0| / 2 ^ 48 := by
  have oR := one'_posR
  have hq := h.qs.mono (r' := 1 / 2 ^ 49) (η' := 0) (by norm_num) le_rfl
  have hh := (hq.head le_rfl).1
  have e : fr a.c0 = (U a.c0 : ℝ) / ((one' : ℚ) : ℝ) := by unfold fr; rw [toRat_U h.f0]; push_cast; rfl
  rw [qv_UQ hq.fin, e, ← sub_div, abs_div, abs_div, abs_of_pos oR, div_right_comm]
  apply div_le_div_of_nonneg_right _ oR.le
  have h1 : ((|UQ a - U a.c0| : ℚ) : ℝ) ≤ ((|U a.c0| / 2 ^ 48 + 4 * 0 : ℚ) : ℝ) := by exact_mod_cast hh
  push_cast at h1
  linarith

theorem norm_single {x : F64} (h : x.isFinite = true) : (⟨x, F64.zero⟩ : Double).Normalized ∧ rv ⟨x, F64.zero⟩ = fr x := by
  have i := Is.of_finite h
  have i2 : DIs (⟨x, F64.zero⟩ : Double) x.units 0 := ⟨i, is_zero'⟩
  have nn : Norm2 x.units 0 :=
    ⟨i.rep, ⟨0, 0, by norm_num, by norm_num⟩, by rw [add_zero]; exact rnd_of_rep i.rep⟩
  refine ⟨nn.normalized i2, ?_⟩
  unfold rv fr; rw [i2.val, i.toRat]; push_cast; ring

/-- The same for a Quad that is ordered up to a slack. -/
theorem sz_sub_c0 {a : Quad} {X : ℝ} (h : SZ a X) : a.c0.isFinite = true ∧ |qv a - fr a.c0| ≤ |fr a.c0| / 2 ^ 48 + X / 2 ^ 138 := by
  obtain ⟨Y, _, hY, h1, h2, h3⟩ := h.raise (L := 0) (by simpa using h.nonneg)
  have op := one'_posQ
  have oR := one'_posR
  have hh := (h2.head (by positivity)).1
  refine ⟨h2.f0, ?_⟩
  have e : fr a.c0 = (U a.c0 : ℝ) / ((one' : ℚ) : ℝ) := by unfold fr; rw [toRat_U h2.f0]; push_cast; rfl
  have key : ((|UQ a - U a.c0| : ℚ) : ℝ) ≤ ((|U a.c0| / 2 ^ 48 + 4 * (Y * one' / 2 ^ 141) : ℚ) : ℝ) := by exact_mod_cast hh
  push_cast at key oR
  rw [qv_UQ h2.fin, e]
  push_cast
  rw [← sub_div, abs_div, abs_div, abs_of_pos oR, div_le_iff₀ oR]
  have h5 : (Y : ℝ) * (one' : ℝ) ≤ X * (one' : ℝ) := mul_le_mul_of_nonneg_right h1 oR.le
  have h6 : 0 ≤ (Y : ℝ) * (one' : ℝ) := mul_nonneg (by exact_mod_cast hY) oR.le
  have e2 : (|((U a.c0 : ℚ) : ℝ)| / (one' : ℝ) / 2 ^ 48 + X / 2 ^ 138) * (one' : ℝ) =
      |((U a.c0 : ℚ) : ℝ)| / 2 ^ 48 + X * (one' : ℝ) / 2 ^ 138 := by field_simp
  rw [e2]
  linarith

theorem qexpM_spec {a : Quad} {B : ℝ} (ha : SZ a (B * (1 + 1 / 2 ^ 47))) (hB : B ≤ 712) (h1 : -470 ≤ fr a.c0) (h2 : fr a.c0 ≤ 708) :
    ∃ m : ℤ, Is (Quad.expM a) (m * one') ∧ -700 ≤ m ∧ m ≤ 1021 ∧ |qv a - m * Real.log 2| ≤ 3471 / 10000 := by
  obtain ⟨hf, hd⟩ := sz_sub_c0 ha
  obtain ⟨n, v⟩ := norm_single hf
  obtain ⟨m, i, m1, m2, hs⟩ := expM_spec n (by show -600 ≤ fr a.c0; linarith) h2
  rw [← qexpM_eq] at i
  rw [v] at hs
  have hc : |fr a.c0| ≤ 708 := abs_le.mpr ⟨by linarith, h2⟩
  have hd' : |qv a - fr a.c0| ≤ 1 / 10 ^ 5 := by
    refine hd.trans ((add_le_add (div_le_div_of_nonneg_right hc (by positivity)) le_rfl).trans ?_)
    norm_num; linarith
  obtain ⟨-, l2, l3⟩ := fr_ln2
  refine ⟨m, i, ?_, m2, ?_⟩
  · have h3 := (abs_le.mp hs).2
    by_contra hc
    have hm : m ≤ -701 := by omega
    have hm' : (m:ℝ) ≤ -701 := by exact_mod_cast hm
    have : (m:ℝ) * Real.log 2 ≤ -701 * 0.69314717 := by nlinarith
    norm_num at *
    linarith
  · have e : qv a - m * Real.log 2 = (qv a - fr a.c0) + (fr a.c0 - m * Real.log 2) := by ring
    rw [e]
    refine (abs_add_le _ _).trans ?_
    norm_num at *
    linarith

theorem qa_ln2 : QA Quad.LN_2 (Real.log 2) (1 / 2 ^ 213) (694 / 1000) := by
  have h := C48_quad_values.2.2.2.2.2.2.2.2.2.2.2.2.2.2.2.2.2.2.2.2.2.2.1
  unfold Near at h
  obtain ⟨-, l2, l3⟩ := fr_ln2
  rw [abs_of_pos (show 0 < Real.log 2 by linarith)] at h
  refine qa_of (C48_quad_normalized _ (by simp)) ?_ ?_
  · rw [le_div_iff₀ (by positivity)]
    change |qv _ - _| * _ ≤ _ at h
    norm_num at *
    linarith
  · rw [abs_of_pos (show 0 < Real.log 2 by linarith)]
    norm_num at *; linarith

theorem qa_single {x : F64} {v : ℤ} (i : Is x v) :
    QA ⟨x, F64.zero, F64.zero, F64.zero⟩ ((v : ℝ) / one') 0 (|(v : ℝ)| / one') := by
  have z : F64.zero.units = 0 := rfl
  have hu : U x = v := by unfold U; rw [i.2]
  have op := one'_posQ
  have hq : QS ⟨x, F64.zero, F64.zero, F64.zero⟩ (1 / 2 ^ 49) (|(v:ℚ)| / one' * one' / 2 ^ 141) := by
    have u0 : U F64.zero = 0 := by unfold U; rw [z]; norm_num
    have p : (0:ℚ) ≤ |(v:ℚ)| / one' * one' / 2 ^ 141 := by positivity
    refine ⟨i.1, rfl, rfl, rfl, ?_, ?_, ?_⟩
    · show |U F64.zero| ≤ _ * |U x| + _
      rw [u0, abs_zero]; positivity
    · show |U F64.zero| ≤ _ * |U F64.zero| + _
      rw [u0, abs_zero]; positivity
    · show |U F64.zero| ≤ _ * |U F64.zero| + _
      rw [u0, abs_zero]; positivity
  refine ⟨⟨|(v:ℚ)| / one', by push_cast; rfl, hq, ?_⟩, ?_⟩
  · show |U x| ≤ _
    rw [hu, div_mul_cancel₀ _ op.ne']
  · rw [qv_UQ hq.fin]
    unfold UQ
    have u0 : U F64.zero = 0 := by unfold U; rw [z]; norm_num
    dsimp only
    rw [u0, hu]
    push_cast
    simp

theorem qa_int {x : F64} {m : ℤ} (i : Is x (m * one')) : QA ⟨x, F64.zero, F64.zero, F64.zero⟩ (m : ℝ) 0 |(m : ℝ)| := by
  have h := qa_single i
  have : (one' : ℝ) ≠ 0 := by exact_mod_cast one'_pos.ne'
  have hp : (0:ℝ) < (one' : ℝ) := by exact_mod_cast one'_pos
  push_cast at h
  rw [abs_mul, abs_of_pos hp, mul_div_cancel_right₀ _ this, mul_div_cancel_right₀ _ this] at h
  exact h

theorem qa_inv_k : QA Quad.INV_K (1 / 65536) 0 (1 / 65535) := by
  refine qa_of (by decide +kernel) ?_ (by norm_num)
  have : Quad.INV_K.val = mkRat 1 65536 := by decide +kernel
  unfold qv; rw [this, Rat.mkRat_eq_div]; norm_num

/-- The reduced argument: `x` is `(a - m ln 2) / 65536`. -/
theorem qexpRed_qa {a : Quad} {B : ℝ} (ha : SZ a (B * (1 + 1 / 2 ^ 47))) (haB : |qv a| ≤ B) {m : ℤ} (i : Is (Quad.expM a) (m * one'))
    (hs : |qv a - m * Real.log 2| ≤ 3471 / 10000) (hA : B ≤ 712) :
    QA ((a - Quad.LN_2 * ⟨Quad.expM a, F64.zero, F64.zero, F64.zero⟩) * Quad.INV_K) ((qv a - m * Real.log 2) / 65536)
      ((101 / 100 * B + 2) / 65536 / 2 ^ 128) (266 / 1000 * (B + 2) / 65536) := by
  obtain ⟨-, l2, l3⟩ := fr_ln2
  have l0 : (0:ℝ) < Real.log 2 := by linarith
  have big : (1:ℝ) ≤ 2 ^ 225 * 2 ^ 225 * 2 ^ 225 * 2 ^ 225 / 2 ^ 20 := by norm_num
  have hA0 := abs_nonneg (qv a)
  have hml : |(m:ℝ)| * Real.log 2 ≤ B + 3471 / 10000 := by
    have := abs_sub_abs_le_abs_sub ((m:ℝ) * Real.log 2) (qv a)
    rw [abs_sub_comm, abs_mul, abs_of_pos l0] at this
    linarith
  have hm : |(m:ℝ)| ≤ 144270 / 100000 * (B + 3471 / 10000) := by
    have h0 := abs_nonneg (m:ℝ)
    have : |(m:ℝ)| * 0.69314717 ≤ |(m:ℝ)| * Real.log 2 := mul_le_mul_of_nonneg_left l2 h0
    norm_num at this ⊢
    linarith
  have hm0 := abs_nonneg (m:ℝ)
  have hM := (qa_int i).mono le_rfl (show |(m:ℝ)| ≤ |(m:ℝ)| + 1 / 100 by linarith)
  have hP := qa_ln2.mul hM (g := (B + 2) / 2 ^ 137) (W := B + 1) (by norm_num)
    (by norm_num; linarith) (by norm_num; linarith)
    (by norm_num at hm ⊢; linarith) (by norm_num at hm ⊢; linarith)
    (by rw [abs_mul, abs_of_pos l0, mul_comm (Real.log 2)]; norm_num at hml hm hA ⊢; linarith)
  have hS := (QA.mk ha (show |qv a - qv a| ≤ 0 by simp)).sub hP (Z := B + 1) (g := (101 / 100 * B + 11 / 10) / 2 ^ 128) (W := 52 / 100 * (B + 1))
    (by norm_num at hA ⊢; linarith) le_rfl (by norm_num; linarith)
    (by norm_num; linarith) (by norm_num; linarith)
    (by rw [mul_comm (Real.log 2)]; norm_num at hs hA ⊢; linarith)
  have := hS.mul qa_inv_k (g := (101 / 100 * B + 2) / 65536 / 2 ^ 128) (W := 266 / 1000 * (B + 2) / 65536)
    (by norm_num; linarith) (by norm_num) (by norm_num; linarith)
    (by norm_num; linarith) (by norm_num; linarith)
    (by
      rw [abs_mul, mul_comm (Real.log 2)]
      norm_num at hs hA ⊢; linarith)
  rw [mul_comm (Real.log 2), mul_one_div] at this
  exact this

end Verif
