import Verif.Proofs.QuadSinh
import Verif.Proofs.QuadSqrtOf
import Verif.Props.QuadHyper

/-!
# C83: hyperbolic functions of small Quads
-/

namespace Verif

open F64 Prim Util Quad Consts

theorem qa_epsQ : QA Quad.EPSILON (1 / 2 ^ 209) (1 / 2 ^ 250) (101 / 100 / 2 ^ 209) := by
  have h : |Quad.EPSILON.val - 1 / 2 ^ 209| ≤ 1 / 2 ^ 250 := by decide +kernel
  have h2 := (Rat.cast_le (K := ℝ)).mpr h
  push_cast at h2
  change |qv Quad.EPSILON - 1 / 2 ^ 209| ≤ _ at h2
  refine qa_of (by decide +kernel) (h2.trans (by norm_num)) ?_
  rw [abs_of_pos (by positivity)]
  norm_num

/-- Where the series is used. -/
theorem qle_f005 {a : Quad} (ha : a.Normalized) (h : ¬ F64.gt a.abs.c0 Double.f005 = true) : |qv a| ≤ 51 / 1000 := by
  by_contra hc
  exact h (qgt_f005 ha (not_le.mp hc).le)

theorem qgt_low {a : Quad} (ha : a.Normalized) (h : F64.gt a.abs.c0 Double.f005 = true) : 49 / 1000 ≤ |qv a| := by
  obtain ⟨na, va⟩ := C41_quad_abs_val a ha
  have va' : qv a.abs = |qv a| := by unfold qv; rw [va]; push_cast; rfl
  have h1 := (fr_lt f005_bd.1 na.1.1).mp h
  have h2 := qv_sub_c0 (qord_norm na)
  rw [va'] at h2
  have h3 := (abs_le.mp h2).1
  have h5 := f005_bd.2.1
  rw [abs_of_pos (show 0 < fr a.abs.c0 by linarith)] at h3
  norm_num at h3; linarith

/-- `sinh` by its series. -/
theorem qsinh_series (P : Platform) {n : ℕ} (hn : 20 ≤ n) {a : Quad} (ha : a.Normalized) (hg : ¬ F64.gt a.abs.c0 Double.f005 = true)
    (lo : 1 ≤ |qv a| * (2 ^ 190 * 2 ^ 190 * 2 ^ 190)) :
    ∃ s, Quad.sinh P n a = some s ∧ QA s (Real.sinh (qv a)) (|qv a| * (61 / 10 / 2 ^ 126)) (|qv a| * (1002 / 1000)) := by
  have hx := qle_f005 ha hg
  have b0 := abs_nonneg (qv a)
  have hxp : 0 < |qv a| := by
    by_contra hc
    have h0 : |qv a| = 0 := le_antisymm (not_lt.mp hc) b0
    rw [h0, zero_mul] at lo; norm_num at lo
  obtain ⟨cz, cn, ci⟩ := qzero_class ha
  have hz : ¬ a.isZero = true := by
    rw [cz]; intro hc; rw [hc, abs_zero] at hxp; exact lt_irrefl _ hxp
  have hA := (qord_norm ha).exact
  have hr := (hA.mono le_rfl (show _ ≤ (511 / 10000 : ℝ) by norm_num at hx ⊢; linarith)).sqr (W := 1 / 350) (g := 1 / 2 ^ 145)
    (by norm_num) (by norm_num) (by norm_num) (by norm_num) (by
      have x20 : qv a ^ 2 ≤ 27 / 10000 := by rw [← sq_abs]; exact (pow_le_pow_left₀ (abs_nonneg _) hx 2).trans (by norm_num)
      norm_num at x20 ⊢; linarith)
  have hm := hA.mulW qa_epsQ (W := |qv a| * (102 / 100 / 2 ^ 209)) (g := |qv a| * (1 / 2 ^ 245)) (by positivity) (by positivity)
    (by
      have h1 : (2:ℝ) ^ 190 * 2 ^ 190 * 2 ^ 190 ≤ (1 + 1 / 2 ^ 47) * (101 / 100 / 2 ^ 209) * (2 ^ 210 * 2 ^ 210 * (2 ^ 210 * 2 ^ 210)) := by
        norm_num
      have h2 := lo.trans (mul_le_mul_of_nonneg_left h1 b0)
      rwa [← mul_assoc, ← mul_assoc |qv a|] at h2)
    (by clear lo; norm_num; linarith) (by clear lo; rw [abs_of_pos (show (0:ℝ) < 1 / 2 ^ 209 by positivity)]; norm_num; linarith)
    (by clear lo; norm_num; linarith)
    (by clear lo; rw [abs_mul, abs_of_pos (show (0:ℝ) < 1 / 2 ^ 209 by positivity)]; norm_num; linarith)
  obtain ⟨ft, ct⟩ := sz_sub_c0 hm.sz
  obtain ⟨fa, ua⟩ := abs_head ft
  have hfa : fr (a * Quad.EPSILON).abs.c0 = |fr (a * Quad.EPSILON).c0| := by
    have oR := one'_posR
    unfold fr
    rw [toRat_U fa, toRat_U ft, ua]
    push_cast at oR ⊢
    rw [abs_div, abs_of_pos oR]
  have hme := hm.err
  have e1 := abs_sub_abs_le_abs_sub (qv a * (1 / 2 ^ 209)) (qv (a * Quad.EPSILON))
  have e2 := abs_sub_abs_le_abs_sub (qv (a * Quad.EPSILON)) (qv a * (1 / 2 ^ 209))
  have e3 := abs_sub_abs_le_abs_sub (qv (a * Quad.EPSILON)) (fr (a * Quad.EPSILON).c0)
  have e4 := abs_sub_abs_le_abs_sub (fr (a * Quad.EPSILON).c0) (qv (a * Quad.EPSILON))
  rw [abs_sub_comm] at e1 e4
  rw [abs_mul, abs_of_pos (show (0:ℝ) < 1 / 2 ^ 209 by positivity)] at e1 e2
  have key : |qv a| / 2 ^ 210 ≤ fr (a * Quad.EPSILON).abs.c0 ∧ fr (a * Quad.EPSILON).abs.c0 ≤ |qv a| / 2 ^ 208 := by
    rw [hfa]
    clear lo hm hr hA hfa ua
    generalize |fr (a * Quad.EPSILON).c0| = F at *
    generalize |qv (a * Quad.EPSILON) - fr (a * Quad.EPSILON).c0| = F2 at *
    generalize |qv (a * Quad.EPSILON) - qv a * (1 / 2 ^ 209)| = F3 at *
    generalize |qv (a * Quad.EPSILON)| = F4 at *
    generalize |qv a| = β at *
    norm_num at *
    constructor <;> linarith
  have t0 : sinhT (qv a) 0 = qv a := by unfold sinhT; simp
  have s0 : SS (qv a) (qv a ^ 2) 1 0 = qv a := by unfold SS; simp
  obtain ⟨v, hv, q⟩ := qsinhLoop_qa P lo hx hr fa key.1 key.2 20 0 a a rfl (by norm_num)
    (by
      rw [t0]
      refine hA.mono (by positivity) ?_
      rw [pow_zero, mul_one]
      exact mul_le_mul_of_nonneg_left (by norm_num) b0)
    (by
      rw [s0]
      refine hA.mono (by simp) ?_
      exact mul_le_mul_of_nonneg_left (by norm_num) b0) n hn
  refine ⟨v, ?_, q⟩
  unfold Quad.sinh Quad.preSinh
  rw [if_neg (by rw [cn]; simp), if_neg hz]
  dsimp only
  rw [if_neg hg]
  exact hv

/-- The cosine next to the series. -/
theorem qcosh_series {P : Platform} (hT : FloatText P.toStr) {s : Quad} {x : ℝ} (hx : |x| ≤ 51 / 1000)
    (hs : QA s (Real.sinh x) (|x| * (61 / 10 / 2 ^ 126)) (|x| * (1002 / 1000))) :
    ∃ c, Quad.sqrt P (Quad.ONE + s.sqr) = some c ∧
      QA c (Real.cosh x) (Real.cosh x * (8 / 10 / 2 ^ 126)) (Real.cosh x * (102 / 100)) := by
  have hS : |Real.sinh x| ≤ 513 / 10000 := by
    have h1 := hs.abs_le
    have h2 := hs.sz.abs_le
    have h3 := hs.err
    have h4 := abs_sub_abs_le_abs_sub (Real.sinh x) (qv s)
    rw [abs_sub_comm] at h4
    norm_num at h2 h3 ⊢; linarith
  have hS0 := abs_nonneg (Real.sinh x)
  have hS2 : Real.sinh x ^ 2 ≤ 264 / 100000 := by
    rw [← sq_abs]; exact (pow_le_pow_left₀ hS0 hS 2).trans (by norm_num)
  have hS3 := sq_nonneg (Real.sinh x)
  have hq := (hs.mono (show _ ≤ 32 / 100 / 2 ^ 126 by norm_num; linarith) (show _ ≤ (52 / 1000 : ℝ) by linarith)).sqr
    (W := 3 / 1000) (g := 4 / 100 / 2 ^ 126) (by norm_num) (by norm_num) (by norm_num; linarith) (by norm_num) (by norm_num; linarith)
  have ha := qa_one.add hq (Z := 1001 / 1000) (W := 1004 / 1000) (g := 3 / 10 / 2 ^ 126) (by norm_num) (by norm_num) (by norm_num)
    (by norm_num) (by norm_num) (by rw [abs_of_pos (by linarith)]; norm_num; linarith)
  have ec : 1 + Real.sinh x ^ 2 = Real.cosh x ^ 2 := by rw [Real.cosh_sq]; ring
  have h1 : 1 ≤ Real.cosh x ^ 2 := by rw [← ec]; linarith
  have h2 : Real.cosh x ^ 2 ≤ 2 := by rw [← ec]; linarith
  rw [ec] at ha
  obtain ⟨c, hc, k⟩ := qsqrt_of hT (ha.mono (show _ ≤ Real.cosh x ^ 2 * (3 / 10 / 2 ^ 126) from le_mul_of_one_le_left (by positivity) h1) le_rfl)
    (by linarith) (by norm_num) (by linarith)
    (by
      have h3 : (1:ℝ) * 1 ≤ Real.cosh x ^ 2 * (2 ^ 200 * 2 ^ 200 * (2 ^ 200 * 2 ^ 200)) := mul_le_mul h1 (by norm_num) (by norm_num) (by linarith)
      linarith) (h2.trans (by norm_num))
  rw [Real.sqrt_sq (Real.cosh_pos x).le] at k
  refine ⟨c, hc, k.mono ?_ le_rfl⟩
  exact mul_le_mul_of_nonneg_left (by norm_num) (Real.cosh_pos x).le

theorem low_560 {a : Quad} (h : 1 ≤ |a.val| * 2 ^ 560) : 1 ≤ |qv a| * (2 ^ 190 * 2 ^ 190 * 2 ^ 190) := by
  rw [show (2:ℚ) ^ 560 = 2 ^ 190 * 2 ^ 190 * 2 ^ 180 by simp only [← pow_add]] at h
  have h2 := (Rat.cast_le (K := ℝ)).mpr h
  push_cast at h2
  exact h2.trans (mul_le_mul_of_nonneg_left (by norm_num) (abs_nonneg _))

/-- **C83.** `sinh` of a normalized Quad with `2^-560 ≤ |a| ≤ 469`, both branches of the code: 20 rounds of the series loop are
enough, the result is finite and its relative error is at most `(|a| + 11) 2^-121`; up to `0.049` it is at most `7 2^-126`. -/
theorem C83_quad_sinh (P : Platform) (n : ℕ) (hn : 20 ≤ n) (a : Quad) (ha : a.Normalized) (h1 : 1 ≤ |a.val| * 2 ^ 560)
    (h2 : |(a.val : ℝ)| ≤ 469) :
    ∃ s, Quad.sinh P n a = some s ∧ s.Fin ∧
      |(s.val : ℝ) - Real.sinh (a.val : ℝ)| ≤ (|(a.val : ℝ)| + 11) / 2 ^ 121 * |Real.sinh (a.val : ℝ)| ∧
      (|(a.val : ℝ)| ≤ 48 / 1000 → |(s.val : ℝ) - Real.sinh (a.val : ℝ)| ≤ 7 / 2 ^ 126 * |Real.sinh (a.val : ℝ)|) := by
  have lo := low_560 h1
  change |qv a| ≤ 469 at h2
  change ∃ s, _ ∧ _ ∧ |qv s - Real.sinh (qv a)| ≤ (|qv a| + 11) / 2 ^ 121 * |Real.sinh (qv a)| ∧
    (|qv a| ≤ 48 / 1000 → |qv s - Real.sinh (qv a)| ≤ 7 / 2 ^ 126 * |Real.sinh (qv a)|)
  by_cases hg : F64.gt a.abs.c0 Double.f005 = true
  · have hl := qgt_low ha hg
    obtain ⟨s, c, e1, -, e2, -, -, e3, -⟩ := qsinh_exp P n ha hg hl h2
    refine ⟨s, e1, e2, e3, fun h => ?_⟩
    exact absurd hl (by linarith)
  · obtain ⟨s, e1, q⟩ := qsinh_series P hn ha hg lo
    have hsx := abs_le_sinh (qv a)
    have hb0 := abs_nonneg (qv a)
    have e7 : |qv s - Real.sinh (qv a)| ≤ 7 / 2 ^ 126 * |Real.sinh (qv a)| := by
      refine q.err.trans ?_
      norm_num; linarith
    refine ⟨s, e1, q.fin, e7.trans ?_, fun _ => e7⟩
    refine mul_le_mul_of_nonneg_right ?_ (abs_nonneg _)
    norm_num; linarith

/-- **C83.** `sinh_cosh` in the same range, on any platform whose `f64` text is reasonable: it returns what `sinh` returns, and
a finite cosine with relative error at most `(|a| + 11) 2^-126`. -/
theorem C83_quad_sinh_cosh (P : Platform) (hT : FloatText P.toStr) (n : ℕ) (hn : 20 ≤ n) (a : Quad) (ha : a.Normalized)
    (h1 : 1 ≤ |a.val| * 2 ^ 560) (h2 : |(a.val : ℝ)| ≤ 469) :
    ∃ s c, Quad.sinh P n a = some s ∧ Quad.sinhCosh P n a = some (s, c) ∧ c.Fin ∧
      |(c.val : ℝ) - Real.cosh (a.val : ℝ)| ≤ (|(a.val : ℝ)| + 11) / 2 ^ 126 * Real.cosh (a.val : ℝ) := by
  have lo := low_560 h1
  change |qv a| ≤ 469 at h2
  change ∃ s c, _ ∧ _ ∧ _ ∧ |qv c - Real.cosh (qv a)| ≤ (|qv a| + 11) / 2 ^ 126 * Real.cosh (qv a)
  by_cases hg : F64.gt a.abs.c0 Double.f005 = true
  · have hl := qgt_low ha hg
    obtain ⟨s, c, e1, e0, -, e2, -, -, e3⟩ := qsinh_exp P n ha hg hl h2
    exact ⟨s, c, e1, e0, e2, e3⟩
  · obtain ⟨s, e1, q⟩ := qsinh_series P hn ha hg lo
    obtain ⟨c, e2, k⟩ := qcosh_series hT (qle_f005 ha hg) q
    obtain ⟨cz, cn, ci⟩ := qzero_class ha
    have hb0 := abs_nonneg (qv a)
    have hz : ¬ a.isZero = true := by
      rw [cz]; intro hc; rw [hc, abs_zero, zero_mul] at lo; norm_num at lo
    have hle : F64.le a.abs.c0 Double.f005 = true := by
      have ia := Is.of_finite (C41_quad_abs_val a ha).1.1.1
      have ib := Is.of_finite f005_bd.1
      unfold F64.gt at hg
      rw [ib.lt_iff ia, not_lt] at hg
      rw [ia.le_iff ib]; exact hg
    refine ⟨s, c, e1, ?_, k.fin, k.err.trans ?_⟩
    · unfold Quad.sinhCosh Quad.preSinhCosh
      rw [if_neg (by rw [cn]; simp), if_neg hz]
      dsimp only
      rw [if_pos hle, e1]
      simp only [Option.bind_some, e2, Option.map_some]
    · rw [mul_comm]
      refine mul_le_mul_of_nonneg_right ?_ (Real.cosh_pos _).le
      norm_num; linarith

/-- **C83.** `tanh` of a normalized Quad with `2^-560 ≤ |a| ≤ 108`: the result is finite and within `(2 |a| + 27) 2^-126` of the
real hyperbolic tangent; up to `0.048` its relative error is at most `8 2^-126`. -/
theorem C83_quad_tanh (P : Platform) (hT : FloatText P.toStr) (n : ℕ) (hn : 20 ≤ n) (a : Quad) (ha : a.Normalized)
    (h1 : 1 ≤ |a.val| * 2 ^ 560) (h2 : |(a.val : ℝ)| ≤ 108) :
    ∃ r, Quad.tanh P n a = some r ∧ r.Fin ∧
      |(r.val : ℝ) - Real.tanh (a.val : ℝ)| ≤ (2 * |(a.val : ℝ)| + 27) / 2 ^ 126 ∧
      (|(a.val : ℝ)| ≤ 48 / 1000 → |(r.val : ℝ) - Real.tanh (a.val : ℝ)| ≤ 8 / 2 ^ 126 * |Real.tanh (a.val : ℝ)|) := by
  have lo := low_560 h1
  change |qv a| ≤ 108 at h2
  change ∃ r, _ ∧ _ ∧ |qv r - Real.tanh (qv a)| ≤ (2 * |qv a| + 27) / 2 ^ 126 ∧
    (|qv a| ≤ 48 / 1000 → |qv r - Real.tanh (qv a)| ≤ 8 / 2 ^ 126 * |Real.tanh (qv a)|)
  by_cases hg : F64.gt a.abs.c0 Double.f005 = true
  · have hl := qgt_low ha hg
    obtain ⟨r, e1, e2, e3⟩ := qtanh_exp P n ha hg hl h2
    refine ⟨r, e1, e2, e3, fun h => ?_⟩
    exact absurd hl (by linarith)
  · obtain ⟨s, e1, q⟩ := qsinh_series P hn ha hg lo
    have hx := qle_f005 ha hg
    obtain ⟨c, e2, k⟩ := qcosh_series hT hx q
    obtain ⟨cz, cn, ci⟩ := qzero_class ha
    have hb0 := abs_nonneg (qv a)
    have hz : ¬ a.isZero = true := by
      rw [cz]; intro hc; rw [hc, abs_zero, zero_mul] at lo; norm_num at lo
    have hle : F64.le a.abs.c0 Double.f005 = true := by
      have ia := Is.of_finite (C41_quad_abs_val a ha).1.1.1
      have ib := Is.of_finite f005_bd.1
      unfold F64.gt at hg
      rw [ib.lt_iff ia, not_lt] at hg
      rw [ia.le_iff ib]; exact hg
    have hsc : Quad.sinhCosh P n a = some (s, c) := by
      unfold Quad.sinhCosh Quad.preSinhCosh
      rw [if_neg (by rw [cn]; simp), if_neg hz]
      dsimp only
      rw [if_pos hle, e1]
      simp only [Option.bind_some, e2, Option.map_some]
    have hres : Quad.tanh P n a = some (s / c) := by
      unfold Quad.tanh Quad.preTanh
      rw [if_neg (by rw [cn]; simp), if_neg hz, if_neg (by rw [ci]; simp)]
      dsimp only
      rw [if_neg hg, hsc]
      rfl
    have hsx := abs_le_sinh (qv a)
    have hC1 := Real.one_le_cosh (qv a)
    have hS : |Real.sinh (qv a)| ≤ |qv a| * (1003 / 1000) := by
      have h2 := q.sz.abs_le
      have h3 := q.err
      have h4 := abs_sub_abs_le_abs_sub (Real.sinh (qv a)) (qv s)
      rw [abs_sub_comm] at h4
      clear lo
      norm_num at h2 h3 ⊢; linarith
    have hC2 : Real.cosh (qv a) ≤ 1002 / 1000 := by
      have h3 : Real.cosh (qv a) ^ 2 ≤ (1002 / 1000) ^ 2 := by
        rw [Real.cosh_sq]
        have : Real.sinh (qv a) ^ 2 ≤ (51 / 1000 * (1003 / 1000)) ^ 2 := by
          rw [← sq_abs]
          exact pow_le_pow_left₀ (abs_nonneg _) (hS.trans (mul_le_mul_of_nonneg_right hx (by norm_num))) 2
        norm_num at this ⊢; linarith
      exact le_of_sq_le_sq h3 (by norm_num)
    have ht : Real.tanh (qv a) = Real.sinh (qv a) / Real.cosh (qv a) := Real.tanh_eq_sinh_div_cosh _
    have htl : |qv a| * (998 / 1000) ≤ |Real.tanh (qv a)| := by
      rw [ht, abs_div, abs_of_pos (Real.cosh_pos _), le_div_iff₀ (Real.cosh_pos _)]
      refine le_trans ?_ hsx
      have := mul_le_mul_of_nonneg_left hC2 (show 0 ≤ |qv a| * (998 / 1000) by positivity)
      linarith
    have htu : |Real.sinh (qv a) / Real.cosh (qv a)| ≤ |qv a| * (1003 / 1000) := by
      rw [abs_div, abs_of_pos (Real.cosh_pos _), div_le_iff₀ (Real.cosh_pos _)]
      refine hS.trans ?_
      have := mul_le_mul_of_nonneg_left hC1 (show 0 ≤ |qv a| * (1003 / 1000) by positivity)
      linarith
    have hh : (2:ℝ) ^ 100 ≤ |qv a| * (1002 / 1000) * hugeQ := by
      have h1 : (2:ℝ) ^ 190 * 2 ^ 190 * 2 ^ 190 * 2 ^ 100 ≤ 1002 / 1000 * hugeQ := by
        have : (2:ℚ) ^ 190 * 2 ^ 190 * 2 ^ 190 * 2 ^ 100 ≤ 1002 / 1000 * hugeQ := by rw [hugeQ_eq]; norm_num
        have := (Rat.cast_le (K := ℝ)).mpr this
        push_cast at this
        exact this
      have h2 := mul_le_mul_of_nonneg_left h1 hb0
      have h3 := mul_le_mul_of_nonneg_right lo (show (0:ℝ) ≤ 2 ^ 100 by positivity)
      rw [one_mul, mul_assoc |qv a|] at h3
      rw [mul_assoc]
      exact h3.trans h2
    have hd := q.div k (L := Real.cosh (qv a) * (999 / 1000)) (K := |qv a| * (1004 / 1000)) (g := |qv a| * (79 / 10 / 2 ^ 126))
      (by positivity)
      (by rw [abs_of_pos (Real.cosh_pos _)]; norm_num; linarith)
      (by norm_num; linarith) (le_trans (by norm_num) hh) (by clear lo hh; norm_num; linarith)
      (by refine le_trans ?_ hh; norm_num; linarith)
      (huge_le (by positivity) (by clear lo hh; norm_num; linarith))
      (by
        clear lo hh
        have := mul_le_mul_of_nonneg_left hC1 (show 0 ≤ |qv a| * (1004 / 1000) * (999 / 1000) by positivity)
        norm_num at this ⊢; linarith)
      (by
        have h3 := mul_le_mul htu (show Real.cosh (qv a) * (8 / 10 / 2 ^ 126) ≤ 1002 / 1000 * (8 / 10 / 2 ^ 126) from
          mul_le_mul_of_nonneg_right hC2 (by norm_num)) (by positivity) (by positivity)
        have h4 := mul_le_mul_of_nonneg_left hC1 (show 0 ≤ |qv a| * (79 / 10 / 2 ^ 126) * (999 / 1000) by positivity)
        clear lo hh
        generalize |Real.sinh (qv a) / Real.cosh (qv a)| * (Real.cosh (qv a) * (8 / 10 / 2 ^ 126)) = Z at *
        norm_num at h3 h4 ⊢; linarith)
    rw [← ht] at hd
    have e8 := hd.err
    refine ⟨_, hres, hd.fin, e8.trans ?_, fun _ => e8.trans ?_⟩
    · clear lo hh; norm_num; linarith
    · clear lo hh; norm_num at htl ⊢; linarith

/-- Non-triviality: `0.01`-like Quads (here `pi / 2^9`) meet the hypotheses and use the series. -/
example : (Quad.mulPwr2 Quad.PI (F64.ofDec false 1953125 (-9))).Normalized ∧
    1 ≤ |(Quad.mulPwr2 Quad.PI (F64.ofDec false 1953125 (-9))).val| * 2 ^ 560 ∧
    |(Quad.mulPwr2 Quad.PI (F64.ofDec false 1953125 (-9))).val| ≤ 48 / 1000 ∧
    F64.gt (Quad.mulPwr2 Quad.PI (F64.ofDec false 1953125 (-9))).abs.c0 Double.f005 = false := by decide +kernel

end Verif
