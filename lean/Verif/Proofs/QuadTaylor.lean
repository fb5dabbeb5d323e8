import Verif.Proofs.QuadSinh
import Verif.Props.QuadSinh
import Verif.Proofs.TrigComb

/-!
# The Taylor series of `sin` and `cos` for Quads
-/

namespace Verif

open F64 Prim Util Quad Consts

theorem SS_abs5 {b y : ℝ} (hy : |y| ≤ 1 / 300000) (o m : ℕ) : |SS b y o m| ≤ |b| * (10001 / 10000) := by
  have h : ∀ m, |SS b y o m| ≤ |b| * (∑ j ∈ Finset.range (m + 1), (1 / 300000 : ℝ) ^ j) := by
    intro m
    unfold SS
    rw [Finset.mul_sum]
    refine (Finset.abs_sum_le_sum_abs _ _).trans (Finset.sum_le_sum fun j _ => ?_)
    rw [abs_div, abs_mul, abs_pow, Nat.abs_cast]
    have hf : (1:ℝ) ≤ (2 * j + o).factorial := by exact_mod_cast Nat.factorial_pos _
    refine (div_le_self (by positivity) hf).trans ?_
    gcongr
  refine (h m).trans (mul_le_mul_of_nonneg_left ?_ (abs_nonneg _))
  rw [geom_sum_eq (by norm_num)]
  have : (0:ℝ) < (1/300000) ^ (m + 1) := by positivity
  rw [div_le_iff_of_neg (by norm_num)]
  linarith

theorem term_abs5 {b y : ℝ} (hy : |y| ≤ 1 / 300000) (m : ℕ) : |b * y ^ m| ≤ |b| * (1 / 300000) ^ m := by
  rw [abs_mul, abs_pow]; gcongr

theorem fr_abs_head {t : Quad} (ft : t.c0.isFinite = true) : t.abs.c0.isFinite = true ∧ fr t.abs.c0 = |fr t.c0| := by
  obtain ⟨fa, ua⟩ := abs_head ft
  refine ⟨fa, ?_⟩
  have oR := one'_posR
  unfold fr
  rw [toRat_U fa, toRat_U ft, ua]
  push_cast at oR ⊢
  rw [abs_div, abs_of_pos oR]

theorem fr_le_head {a b : Quad} (h : Quad.le a b = true) (fa : a.c0.isFinite = true) (fb : b.c0.isFinite = true) : fr a.c0 ≤ fr b.c0 := by
  have h1 := le_head h fa fb
  have oR := one'_posR
  unfold fr
  rw [toRat_U fa, toRat_U fb]
  push_cast at oR ⊢
  refine div_le_div_of_nonneg_right ?_ oR.le
  exact_mod_cast h1

/-- The power of the argument in one round. -/
theorem qtaylor_pow {r x : Quad} {p y B : ℝ} (hB : 1 ≤ B * (2 ^ 200 * 2 ^ 200 * 2 ^ 200)) (hB2 : B ≤ 2)
    (hr : QA r p (B / 2 ^ 140) B) (hp : |p| ≤ B) (hx : QA x y (1 / 2 ^ 141) (1 / 10)) (hy : |y| ≤ 1 / 300000) :
    QA (r * x) (p * y) (B / 2 ^ 140) B := by
  have hB0 : 0 < B := pos_of_mul_pos_left (lt_of_lt_of_le one_pos hB) (by positivity)
  have y0 := abs_nonneg y
  have h1 : |p| * (1 / 2 ^ 141) ≤ B * (1 / 2 ^ 141) := mul_le_mul_of_nonneg_right hp (by positivity)
  have h2 : |y| * (B / 2 ^ 140) ≤ 1 / 300000 * (B / 2 ^ 140) := mul_le_mul_of_nonneg_right hy (by positivity)
  have h3 : |p| * |y| ≤ B * (1 / 300000) := mul_le_mul hp hy y0 hB0.le
  refine hr.mulW hx hB0 (by norm_num) ?_ ?_ ?_ ?_ ?_
  · have h4 : (2:ℝ) ^ 200 * 2 ^ 200 * 2 ^ 200 ≤ 1 / 10 * (2 ^ 210 * 2 ^ 210 * (2 ^ 210 * 2 ^ 210)) := by norm_num
    have h5 := hB.trans (mul_le_mul_of_nonneg_left h4 hB0.le)
    rwa [← mul_assoc] at h5
  · clear hB; norm_num; linarith
  · clear hB; norm_num at h1 h2 ⊢; linarith
  · linarith
  · clear hB; rw [abs_mul]; norm_num; linarith

/-- The term added in one round. -/
theorem qtaylor_term {r c : Quad} {p C B : ℝ} (hB : 1 ≤ B * (2 ^ 200 * 2 ^ 200 * 2 ^ 200)) (hB2 : B ≤ 2)
    (hr : QA r p (B / 2 ^ 140) B) (hp : |p| ≤ B * (1 / 300000)) (hc : QA c C (1 / 2 ^ 213) (1 / 5)) (hC : |C| ≤ 1 / 6) :
    QA (r * c) (p * C) (B / 2 ^ 140) (B / 8) := by
  have hB0 : 0 < B := pos_of_mul_pos_left (lt_of_lt_of_le one_pos hB) (by positivity)
  have y0 := abs_nonneg C
  have h1 : |p| * (1 / 2 ^ 213) ≤ B * (1 / 300000) * (1 / 2 ^ 213) := mul_le_mul_of_nonneg_right hp (by positivity)
  have h2 : |C| * (B / 2 ^ 140) ≤ 1 / 6 * (B / 2 ^ 140) := mul_le_mul_of_nonneg_right hC (by positivity)
  have h3 : |p| * |C| ≤ B * (1 / 300000) * (1 / 6) := mul_le_mul hp hC y0 (by positivity)
  refine hr.mulW hc hB0 (by norm_num) ?_ ?_ ?_ ?_ ?_
  · have h4 : (2:ℝ) ^ 200 * 2 ^ 200 * 2 ^ 200 ≤ 1 / 5 * (2 ^ 210 * 2 ^ 210 * (2 ^ 210 * 2 ^ 210)) := by norm_num
    have h5 := hB.trans (mul_le_mul_of_nonneg_left h4 hB0.le)
    rwa [← mul_assoc] at h5
  · clear hB; norm_num; linarith
  · clear hB; norm_num at h1 h2 ⊢; linarith
  · linarith
  · clear hB; rw [abs_mul]; norm_num; linarith

theorem qtaylorLoop_qa {x thr : Quad} {b y B : ℝ} {o : ℕ} (ho : o ≤ 1) (hB : 1 ≤ B * (2 ^ 200 * 2 ^ 200 * 2 ^ 200)) (hB2 : B ≤ 2)
    (hb : |b| ≤ B) (hy : |y| ≤ 1 / 300000) (hx : QA x y (1 / 2 ^ 141) (1 / 10)) (fthr : thr.c0.isFinite = true)
    (thr2 : fr thr.c0 ≤ B / 2 ^ 150) :
    ∀ (d m : ℕ) (r s : Quad), m + d = 8 → 1 ≤ d → 2 ≤ 2 * (m + 1) + o - 1 →
    QA r (b * y ^ m) (B / 2 ^ 140) B → QA s (SS b y o m) (B * (m * (1002 / 1000 / 2 ^ 128))) (B * (1001 / 1000)) →
    ∀ fuel, d ≤ fuel → ∀ i, i + 3 = 2 * (m + 1) + o → ∃ v, Quad.taylorLoop x thr fuel i r s = some v ∧
      ∃ M, QA v (SS b y o M) (B * (802 / 100 / 2 ^ 128)) (B * (1001 / 1000)) ∧ |b * y ^ M / (2 * M + o).factorial| ≤ B / 2 ^ 130 := by
  have hB0 : 0 < B := pos_of_mul_pos_left (lt_of_lt_of_le one_pos hB) (by positivity)
  intro d
  induction d with
  | zero => intro m r s h h1; omega
  | succ d ih =>
    intro m r s h h1 h0 hr hs fuel hf i hi
    obtain ⟨fuel, rfl⟩ : ∃ f, fuel = f + 1 := ⟨fuel - 1, by omega⟩
    obtain ⟨c, hc, hcA⟩ := qa_inv_fact (i := i) (by omega)
    have pm : ∀ k, |b * y ^ k| ≤ B * (1 / 300000) ^ k := fun k =>
      (term_abs5 hy k).trans (mul_le_mul_of_nonneg_right hb (by positivity))
    have pm1 : |b * y ^ m| ≤ B := (pm m).trans (by
      have : (1 / 300000 : ℝ) ^ m ≤ 1 := pow_le_one₀ (by norm_num) (by norm_num)
      exact mul_le_of_le_one_right hB0.le this)
    have pm2 : |b * y ^ (m + 1)| ≤ B * (1 / 300000) := (pm (m + 1)).trans (by
      refine mul_le_mul_of_nonneg_left ?_ hB0.le
      have : (1 / 300000 : ℝ) ^ m ≤ 1 := pow_le_one₀ (by norm_num) (by norm_num)
      rw [pow_succ]; linarith)
    have hr' := qtaylor_pow hB hB2 hr pm1 hx hy
    rw [mul_assoc, ← pow_succ] at hr'
    have hf3 : (6:ℝ) ≤ ((i + 3).factorial : ℝ) := by
      have : Nat.factorial 3 ≤ (i + 3).factorial := Nat.factorial_le (by omega)
      exact_mod_cast this
    have ht' := qtaylor_term hB hB2 hr' pm2 hcA (by
      rw [abs_of_pos (by positivity)]; exact one_div_le_one_div_of_le (by norm_num) hf3)
    rw [hi, mul_one_div] at ht'
    have hm0 : (0:ℝ) ≤ m := Nat.cast_nonneg m
    have hm7 : (m:ℝ) ≤ 7 := by exact_mod_cast (show m ≤ 7 by omega)
    have hBm : B * m ≤ B * 7 := mul_le_mul_of_nonneg_left hm7 hB0.le
    have hBm0 : 0 ≤ B * m := by positivity
    have hs' := hs.add ht' (Z := B * (1001 / 1000)) (W := B * (1001 / 1000)) (g := B * (((m + 1 : ℕ) : ℝ) * (1002 / 1000 / 2 ^ 128))) le_rfl
      (by linarith) (by clear hB; norm_num; linarith) (by clear hB; push_cast; norm_num; linarith) (by linarith) (by
        have h3 := SS_abs5 (b := b) hy o (m + 1)
        rw [SS_succ] at h3
        clear hB
        push_cast
        norm_num at *; linarith)
    rw [← SS_succ] at hs'
    have hs'' := hs'.mono (show _ ≤ B * (802 / 100 / 2 ^ 128) by clear hB; push_cast; norm_num; linarith) le_rfl
    conv => enter [1, v, 1, 1]; unfold Quad.taylorLoop
    dsimp only
    rw [hc]
    dsimp only
    generalize r * x = r' at *
    generalize r' * c = t' at *
    have hl : Quad.INV_FACTS.length = 15 := rfl
    rw [hl]
    obtain ⟨ft, ct⟩ := sz_sub_c0 ht'.sz
    obtain ⟨fa, hfa⟩ := fr_abs_head ft
    split_ifs with hcnd
    · refine ⟨_, rfl, m + 1, hs'', ?_⟩
      rw [Bool.or_eq_true] at hcnd
      rcases hcnd with hcnd | hcnd
      · have hm8 : m + 1 = 8 := by simp only [decide_eq_true_eq] at hcnd; omega
        rw [abs_div, Nat.abs_cast]
        refine (div_le_self (abs_nonneg _) (by exact_mod_cast Nat.factorial_pos _)).trans ((pm (m + 1)).trans ?_)
        rw [hm8]
        clear hB
        norm_num; linarith
      · have h2 := fr_le_head hcnd fa fthr
        rw [hfa] at h2
        have e1 := ht'.err
        have e2 := abs_sub_abs_le_abs_sub (b * y ^ (m + 1) / ((2 * (m + 1) + o).factorial : ℝ)) (qv t')
        rw [abs_sub_comm] at e2
        have e3 := abs_sub_abs_le_abs_sub (qv t') (fr t'.c0)
        clear hB hs' hs'' hr' hr hs pm ht' hx
        generalize |fr t'.c0| = F at *
        generalize |qv t' - fr t'.c0| = F2 at *
        generalize |qv t' - b * y ^ (m + 1) / ((2 * (m + 1) + o).factorial : ℝ)| = F3 at *
        generalize |qv t'| = F4 at *
        norm_num at ct e1 h2 thr2 ⊢; linarith
    · have hd : 1 ≤ d := by
        by_contra hd
        apply hcnd
        have : i + 2 ≥ 15 := by omega
        simp [this]
      exact ih (m + 1) r' _ (by omega) hd (by omega) hr' hs' fuel (by omega) (i + 2) (by omega)

/-- The argument of the series. -/
theorem qneg_sqr {a : Quad} {X : ℝ} (h : SZ a X) (hX : X ≤ 43 / 100) (hA : |qv a| ≤ 1 / 600) :
    QA (-a.sqr) (-(qv a) ^ 2) (1 / 2 ^ 141) (1 / 10) ∧ |-(qv a) ^ 2| ≤ 1 / 300000 := by
  have h2 : (qv a) ^ 2 ≤ 1 / 360000 := by rw [← sq_abs]; exact (pow_le_pow_left₀ (abs_nonneg _) hA 2).trans (by norm_num)
  constructor
  · have hq : QA a (qv a) 0 (43 / 100) := ⟨h.mono hX, by simp⟩
    exact (hq.sqr (W := 1 / 10) (g := 1 / 2 ^ 141) (by norm_num) (by norm_num) (by norm_num) (by norm_num) (by norm_num at h2 ⊢; linarith)).neg
  · rw [abs_neg, abs_of_nonneg (sq_nonneg _)]; linarith

theorem sz_zero {X : ℝ} (h : 0 ≤ X) : SZ Quad.ZERO X := by
  refine (qord_norm (a := Quad.ZERO) (by decide +kernel)).exact.sz.mono ?_
  have : Quad.ZERO.val = 0 := by decide +kernel
  unfold qv; rw [this]; simpa using h

theorem qv_ZERO : qv Quad.ZERO = 0 := by
  have : Quad.ZERO.val = 0 := by decide +kernel
  unfold qv; rw [this]; simp

theorem isZero_small {a : Quad} {X : ℝ} (h : SZ a X) (hz : a.isZero = true) : |qv a| ≤ X / 2 ^ 138 := by
  obtain ⟨f, c⟩ := sz_sub_c0 h
  have : fr a.c0 = 0 := by
    unfold Quad.isZero at hz
    have i := Is.of_finite f
    rw [i.eq_iff is_zero] at hz
    rw [fr_is i, hz]; simp
  rw [this, abs_zero, sub_zero] at c
  linarith

theorem sz_abs {a : Quad} {X : ℝ} (h : SZ a X) : QA a.abs (qv a.abs) 0 X ∧ |qv a.abs| = |qv a| := by
  have hq : QA a (qv a) 0 X := ⟨h, by simp⟩
  unfold Quad.abs
  split_ifs
  · have hn := hq.neg
    have e : qv (-a) = -qv a := by have := hn.err; rw [abs_nonpos_iff] at this; linarith
    exact ⟨⟨hn.sz, by simp⟩, by rw [e, abs_neg]⟩
  · exact ⟨hq, rfl⟩

/-- `sin_taylor` on the reduced range. -/
theorem qsinTaylor {a : Quad} {X : ℝ} (h : SZ a X) (lX : 1 ≤ X * (2 ^ 200 * 2 ^ 200 * 2 ^ 200)) (hX : X ≤ 43 / 100)
    (hA : |qv a| ≤ 1 / 600) (hAX : |qv a| ≤ X) :
    ∃ v, Quad.sinTaylor a = some v ∧ QA v (Real.sin (qv a)) (X * (803 / 100 / 2 ^ 128)) (X * (1001 / 1000)) := by
  have hX0 : 0 < X := pos_of_mul_pos_left (lt_of_lt_of_le one_pos lX) (by positivity)
  unfold Quad.sinTaylor
  split_ifs with hz
  · refine ⟨_, rfl, sz_zero (by positivity), ?_⟩
    rw [qv_ZERO, zero_sub, abs_neg]
    refine Real.abs_sin_le_abs.trans ((isZero_small h hz).trans ?_)
    clear lX; norm_num; linarith
  · obtain ⟨hx, hy⟩ := qneg_sqr h hX hA
    obtain ⟨qa, va⟩ := sz_abs h
    have hm := qa_epsQ.mulW qa (W := X * (102 / 100 / 2 ^ 209)) (g := X * (1 / 2 ^ 245)) (by positivity) (by positivity)
      (by
        have h1 : (2:ℝ) ^ 200 * 2 ^ 200 * 2 ^ 200 ≤ (101 / 100 / 2 ^ 209) * (2 ^ 210 * 2 ^ 210 * (2 ^ 210 * 2 ^ 210)) := by
          norm_num
        have h2 := lX.trans (mul_le_mul_of_nonneg_left h1 hX0.le)
        rwa [← mul_assoc, mul_comm X] at h2)
      (by clear lX; norm_num; linarith) (by clear lX; rw [va]; norm_num; linarith) (by clear lX; norm_num; linarith)
      (by clear lX; rw [abs_mul, va, abs_of_pos (show (0:ℝ) < 1 / 2 ^ 209 by positivity)]; norm_num; linarith)
    have hm2 := hm.scale scale_half (by clear lX; norm_num; linarith) (by
        have h1 : (2:ℝ) ^ 200 * 2 ^ 200 * 2 ^ 200 ≤ ((1 / 2 : ℚ) : ℝ) * (102 / 100 / 2 ^ 209) * (2 ^ 210 * 2 ^ 210 * 2 ^ 210 * 2 ^ 210) := by
          norm_num
        have h2 := lX.trans (mul_le_mul_of_nonneg_left h1 hX0.le)
        refine h2.trans (le_of_eq ?_)
        ring)
    obtain ⟨ft, -⟩ := sz_sub_c0 hm2.sz
    have hc0 := (le_abs_self _).trans (sz_c0_le hm2.sz)
    have t0 : qv a * (-(qv a) ^ 2) ^ 0 = qv a := by simp
    have s0 : SS (qv a) (-(qv a) ^ 2) 1 0 = qv a := by unfold SS; simp
    obtain ⟨v, e1, M, e2, e3⟩ := qtaylorLoop_qa (o := 1) le_rfl lX (by linarith) hAX hy hx ft (by
        refine hc0.trans ?_
        clear lX hc0
        push_cast
        norm_num; linarith) 8 0 a a rfl (by norm_num) (by norm_num)
      (by rw [t0]; exact ⟨h, by simp; positivity⟩) (by rw [s0]; exact ⟨h.mono (by linarith), by simp⟩) Quad.INV_FACTS.length (by
        rw [show Quad.INV_FACTS.length = 15 from rfl]; norm_num) 0 (by norm_num)
    refine ⟨v, e1, ?_⟩
    have hrem := sin_rem (A := qv a) (by linarith) M
    have h2 : qv a ^ 2 ≤ 1 / 300000 := by
      rw [abs_neg, abs_of_nonneg (sq_nonneg _)] at hy; exact hy
    have h4 : |qv a * (-(qv a) ^ 2) ^ M / ((2 * M + 1).factorial : ℝ)| * qv a ^ 2 ≤ X / 2 ^ 130 * (1 / 300000) :=
      mul_le_mul e3 h2 (sq_nonneg _) (by positivity)
    rw [abs_sub_comm] at hrem
    refine (e2.move hrem).mono ?_ le_rfl
    clear lX
    norm_num at h4 ⊢; linarith

/-- `cos_taylor` on the reduced range. -/
theorem qcosTaylor {a : Quad} {X : ℝ} (h : SZ a X) (hX : X ≤ 43 / 100) (hA : |qv a| ≤ 1 / 600) :
    ∃ v, Quad.cosTaylor a = some v ∧ QA v (Real.cos (qv a)) (81 / 10 / 2 ^ 128) (1002 / 1000) := by
  have hX0 := h.nonneg
  unfold Quad.cosTaylor
  split_ifs with hz
  · refine ⟨_, rfl, qa_one.sz.mono (by norm_num), ?_⟩
    have := qa_one.err
    rw [abs_nonpos_iff] at this
    have h1 : qv Quad.ONE = 1 := by linarith
    rw [h1]
    have h2 := isZero_small h hz
    have h3 := Real.abs_cos_sub_cos_le 0 (qv a)
    rw [Real.cos_zero, zero_sub, abs_neg] at h3
    refine h3.trans (h2.trans ?_)
    norm_num; linarith
  · obtain ⟨hx, hy⟩ := qneg_sqr h hX hA
    have hm2 := qa_epsQ.scale scale_half (by norm_num) (by norm_num)
    obtain ⟨ft, -⟩ := sz_sub_c0 hm2.sz
    have hc0 := (le_abs_self _).trans (sz_c0_le hm2.sz)
    have t0 : (1:ℝ) * (-(qv a) ^ 2) ^ 1 = -(qv a) ^ 2 := by simp
    have s0 : SS 1 (-(qv a) ^ 2) 0 1 = 1 + -(qv a) ^ 2 / 2 := by unfold SS; simp [Finset.sum_range_succ]
    have hh := hx.half (by norm_num) (by norm_num)
    have h2 : qv a ^ 2 ≤ 1 / 300000 := by
      rw [abs_neg, abs_of_nonneg (sq_nonneg _)] at hy; exact hy
    have h20 := sq_nonneg (qv a)
    have hs := qa_one.add hh (Z := 1001 / 1000) (W := 1001 / 1000) (g := 1002 / 1000 / 2 ^ 128) (by norm_num) (by norm_num) (by norm_num)
      (by norm_num) (by norm_num) (by
        rw [abs_of_pos (by linarith)]; norm_num; linarith)
    obtain ⟨v, e1, M, e2, e3⟩ := qtaylorLoop_qa (b := 1) (B := 1) (o := 0) (by norm_num) (by norm_num) (by norm_num) (by norm_num) hy hx ft (by
        refine hc0.trans ?_
        push_cast
        norm_num) 7 1 (-a.sqr) (Quad.ONE + mulPwr2 (-a.sqr) Double.half) rfl (by norm_num) (by norm_num)
      (by rw [t0]; exact hx.mono (by norm_num) (by norm_num)) (by rw [s0]; exact hs.mono (by norm_num) (by norm_num)) Quad.INV_FACTS.length (by
        rw [show Quad.INV_FACTS.length = 15 from rfl]; norm_num) 1 (by norm_num)
    refine ⟨v, e1, ?_⟩
    have hrem := cos_rem (A := qv a) (by linarith) M
    have h4 : |1 * (-(qv a) ^ 2) ^ M / ((2 * M + 0).factorial : ℝ)| * qv a ^ 2 ≤ 1 / 2 ^ 130 * (1 / 300000) :=
      mul_le_mul e3 h2 (sq_nonneg _) (by positivity)
    rw [abs_sub_comm] at hrem
    refine (e2.move hrem).mono ?_ (by norm_num)
    norm_num at h4 ⊢; linarith

/-- `sincos_taylor` on the reduced range. -/
theorem qsincosTaylor {P : Platform} (hP : FloatText P.toStr) {a : Quad} {X : ℝ} (h : SZ a X) (lX : 1 ≤ X * (2 ^ 200 * 2 ^ 200 * 2 ^ 200))
    (hX : X ≤ 43 / 100) (hA : |qv a| ≤ 1 / 600) (hAX : |qv a| ≤ X) :
    ∃ s c, Quad.sincosTaylor P a = some (s, c) ∧ QA s (Real.sin (qv a)) (X * (803 / 100 / 2 ^ 128)) (X * (1001 / 1000)) ∧
      QA c (Real.cos (qv a)) (27 / 10 / 2 ^ 128) (102 / 100) := by
  obtain ⟨s, s1, s2⟩ := qsinTaylor h lX hX hA hAX
  have hX0 := h.nonneg
  unfold Quad.sincosTaylor
  split_ifs with hz
  · unfold Quad.sinTaylor at s1
    rw [if_pos hz] at s1
    refine ⟨_, _, rfl, ?_, ?_⟩
    · cases s1; exact s2
    · refine ⟨qa_one.sz.mono (by norm_num), ?_⟩
      have := qa_one.err
      rw [abs_nonpos_iff] at this
      have h1 : qv Quad.ONE = 1 := by linarith
      rw [h1]
      have h2 := isZero_small h hz
      have h3 := Real.abs_cos_sub_cos_le 0 (qv a)
      rw [Real.cos_zero, zero_sub, abs_neg] at h3
      refine h3.trans (h2.trans ?_)
      clear lX; norm_num; linarith
  · rw [s1]
    clear lX
    have hS : |Real.sin (qv a)| ≤ 1 / 600 := Real.abs_sin_le_abs.trans hA
    have s3 := s2.mono (show _ ≤ 4 / 2 ^ 128 by norm_num; linarith) (show _ ≤ (431 / 1000 : ℝ) by linarith)
    have hs2 : Real.sin (qv a) ^ 2 ≤ 1 / 300000 := by
      rw [← sq_abs]; exact (pow_le_pow_left₀ (abs_nonneg _) hS 2).trans (by norm_num)
    have hs0 := sq_nonneg (Real.sin (qv a))
    have q := s3.sqr (W := 1 / 10) (g := 2 / 100 / 2 ^ 128) (by norm_num) (by norm_num) (by norm_num at hS ⊢; linarith) (by norm_num) (by norm_num at hs2 ⊢; linarith)
    have e : (1:ℝ) - Real.sin (qv a) ^ 2 = Real.cos (qv a) ^ 2 := by have := Real.sin_sq_add_cos_sq (qv a); linarith
    have w := qa_one.sub q (Z := 10001 / 10000) (W := 10001 / 10000) (g := 103 / 100 / 2 ^ 128) (by norm_num) (by norm_num) (by norm_num)
      (by norm_num) (by norm_num) (by rw [abs_of_pos (by linarith)]; norm_num; linarith)
    rw [e] at w
    have c1 : 999 / 1000 ≤ Real.cos (qv a) ^ 2 := by rw [← e]; linarith
    have c2 : Real.cos (qv a) ^ 2 ≤ 1 := by rw [← e]; linarith
    have hc : 0 ≤ Real.cos (qv a) := by
      apply Real.cos_nonneg_of_neg_pi_div_two_le_of_le <;> linarith [(abs_le.mp hA).1, (abs_le.mp hA).2, pi_bds.1]
    obtain ⟨r, r1, r2⟩ := qsqrt_of hP (w.mono (show _ ≤ Real.cos (qv a) ^ 2 * (104 / 100 / 2 ^ 128) by norm_num at c1 ⊢; linarith) le_rfl)
      (by linarith) (by norm_num) (by linarith) (by
        have h3 : (999 / 1000:ℝ) * 2 ≤ Real.cos (qv a) ^ 2 * (2 ^ 200 * 2 ^ 200 * (2 ^ 200 * 2 ^ 200)) := mul_le_mul c1 (by norm_num) (by norm_num) (by linarith)
        linarith) (c2.trans (by norm_num))
    rw [Real.sqrt_sq hc] at r2
    have hc1 := Real.cos_le_one (qv a)
    refine ⟨s, r, by simp only [Option.bind_some, r1, Option.map_some], s2, r2.mono ?_ (by linarith)⟩
    norm_num; linarith

end Verif
