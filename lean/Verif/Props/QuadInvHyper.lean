import Verif.Proofs.QuadLnOf
import Verif.Proofs.QuadApDiv
import Verif.Proofs.QuadSqrtOf
import Verif.Proofs.QuadSqrtSlack
import Verif.Props.QuadSqrt
import Mathlib.Analysis.SpecialFunctions.Artanh
import Mathlib.Analysis.SpecialFunctions.Arcosh
import Mathlib.Analysis.SpecialFunctions.Arsinh

/-!
# C82: the inverse hyperbolic functions of Quads
-/

namespace Verif

open F64 Prim Util Quad Consts

theorem qatanh_core {P : Platform} (hL : LibmLogs P) {a : Quad} {x : ℝ} (ha : QA a x 0 (1001 / 1000)) (hs : 1 / 100 ≤ 1 - |x|) :
    ∃ r, Quad.ln P ((Quad.ONE + a) / (Quad.ONE - a)) = some r ∧
      QA r (Real.log ((1 + x) / (1 - x))) ((2 * |Real.log ((1 + x) / (1 - x))| + 13 + 46 / 10 / (1 - |x|)) / 2 ^ 126)
        (|Real.log ((1 + x) / (1 - x))| + 2 + 160) ∧ |Real.log ((1 + x) / (1 - x))| ≤ 500 := by
  have hx := abs_nonneg x
  have x1 := neg_abs_le x
  have x2 := le_abs_self x
  have hn := qa_one.add ha (Z := 101 / 100) (W := 1 + x + 52 / 100) (g := 101 / 100 / 2 ^ 128) (by norm_num) (by norm_num) (by norm_num)
    (by norm_num) (by norm_num; linarith) (by rw [abs_of_nonneg (by linarith)]; norm_num; linarith)
  have hd := qa_one.sub ha (Z := 101 / 100) (W := 1 - x + 52 / 100) (g := 101 / 100 / 2 ^ 128) (by norm_num) (by norm_num) (by norm_num)
    (by norm_num) (by norm_num; linarith) (by rw [abs_of_nonneg (by linarith)]; norm_num; linarith)
  have hus : 1 - |x| ≤ 1 + x := by linarith
  have hvs : 1 - |x| ≤ 1 - x := by linarith
  have hu2 : 1 + x ≤ 2 := by linarith
  have hv2 : 1 - x ≤ 2 := by linarith
  have hs1 : 1 - |x| ≤ 1 := by linarith
  clear x1 x2 ha hx
  generalize 1 - |x| = s at *
  generalize 1 + x = u at *
  generalize 1 - x = v at *
  generalize Quad.ONE + a = A at *
  generalize Quad.ONE - a = B at *
  have s0 : 0 < s := by linarith
  have u0 : 0 < u := by linarith
  have v0 : 0 < v := by linarith
  have r1 : 1 ≤ u / s := by rw [le_div_iff₀ s0]; linarith
  have r2 : u / v ≤ u / s := div_le_div_of_nonneg_left u0.le s0 hvs
  have r3 : u ≤ u / s := by rw [le_div_iff₀ s0]; exact (mul_le_mul_of_nonneg_left hs1 u0.le).trans (by rw [mul_one])
  have hQ : 0 < u / v := div_pos u0 v0
  have hq := hn.div hd (L := v * (999 / 1000)) (K := (u + 53 / 100) / (v * (999 / 1000))) (g := u / v * (52 / 10 / s / 2 ^ 128))
    (by positivity) (by rw [abs_of_pos v0]; norm_num; linarith) (by norm_num; linarith)
    (huge_le (by linarith) (by norm_num; linarith)) (by norm_num; linarith)
    (huge_le (by linarith) (by norm_num; linarith)) (huge_le (by positivity) (by norm_num; linarith))
    (by rw [div_mul_cancel₀ _ (by positivity)]; norm_num; linarith)
    (by
      rw [abs_of_pos hQ]
      have e : u / v * (52 / 10 / s / 2 ^ 128) * (v * (999 / 1000)) = (u / s) * (52 / 10 * (999 / 1000) / 2 ^ 128) := by
        field_simp
      rw [e]
      generalize u / v = q at *
      generalize u / s = t at *
      norm_num; linarith)
  have hss : 1 / s ≤ 100 := by rw [div_le_iff₀ s0]; linarith
  have hss1 : 1 ≤ 1 / s := by rw [le_div_iff₀ s0]; linarith
  have hs5 : 52 / 10 / s = 52 / 10 * (1 / s) := by ring
  have hs16 : 16 / 10 / s = 16 / 10 * (1 / s) := by ring
  have hs46 : 46 / 10 / s = 46 / 10 * (1 / s) := by ring
  have hlogs : |Real.log (u / v)| ≤ 500 := by
    have e1 := Real.log_le_sub_one_of_pos hQ
    have e2 := Real.log_le_sub_one_of_pos (div_pos v0 u0)
    rw [Real.log_div v0.ne' u0.ne'] at e2
    rw [Real.log_div u0.ne' v0.ne'] at e1 ⊢
    have f1 : u / v ≤ 200 := by rw [div_le_iff₀ v0]; linarith
    have f2 : v / u ≤ 200 := by rw [div_le_iff₀ u0]; linarith
    rw [abs_le]; constructor <;> linarith
  have hl := abs_le.mp hlogs
  have hl468 : Real.log (u / v) ≤ 468 := by
    have e1 := Real.log_le_sub_one_of_pos hQ
    have f1 : u / v ≤ 200 := by rw [div_le_iff₀ v0]; linarith
    linarith
  obtain ⟨r, hr, k⟩ := qln_of hL hq hQ (by rw [hs5]; norm_num at hss ⊢; linarith) (K := 16 / 10 / s) (by
      have e : u / v * (16 / 10 / s * (999 / 1000)) = (u / s) * (16 / 10 * (999 / 1000)) / v := by ring
      have e2 : (u + 53 / 100) / (v * (999 / 1000)) = (u + 53 / 100) / (999 / 1000) / v := by
        rw [div_div, mul_comm v]
      rw [e, e2]
      refine div_le_div_of_nonneg_right ?_ v0.le
      rw [div_le_iff₀ (by norm_num)]
      norm_num; linarith) (by rw [hs16]; linarith) (by rw [hs16]; linarith) (by linarith [hl.1]) hl468
  refine ⟨r, hr, k.mono ?_ (by rw [hs16]; linarith), hlogs⟩
  rw [hs16, hs5, hs46]
  generalize 1 / s = t at *
  generalize |Real.log (u / v)| = l at *
  norm_num; linarith

/-- **C82.** `atanh` of a Quad, on any platform whose `f64` logarithms are reasonable: for `|a| ≤ 99/100` the result is finite and
within `(2 |atanh a| + 7 + 3 / (1 - |a|)) 2^-126` of the real inverse hyperbolic tangent. -/
theorem C82_quad_atanh (P : Platform) (hL : LibmLogs P) (a : Quad) (ha : a.Normalized) (h : |a.val| ≤ 99 / 100) :
    ∃ r, Quad.atanh P a = some r ∧ r.Fin ∧
      |(r.val : ℝ) - Real.artanh (a.val : ℝ)| ≤
        (2 * |Real.artanh (a.val : ℝ)| + 7 + 3 / (1 - |(a.val : ℝ)|)) / 2 ^ 126 := by
  obtain ⟨n, v⟩ := C41_quad_abs_val a ha
  have hg : ¬ Quad.ge a.abs Quad.ONE = true := by
    rw [(fsq_cmp_one a.abs n).2.2.1, v]; intro hc; linarith
  have hR : |qv a| ≤ 99 / 100 := by
    have := (Rat.cast_le (K := ℝ)).mpr h
    push_cast at this
    exact this
  change ∃ r, _ ∧ _ ∧ |qv r - Real.artanh (qv a)| ≤ (2 * |Real.artanh (qv a)| + 7 + 3 / (1 - |qv a|)) / 2 ^ 126
  have hA := (qord_norm ha).exact.mono le_rfl (show _ ≤ (1001 / 1000 : ℝ) by norm_num at hR ⊢; linarith)
  obtain ⟨r, hr, k, hlb⟩ := qatanh_core hL hA (by linarith)
  have hab := abs_le.mp hR
  have hart := Real.artanh_eq_half_log (x := qv a) ⟨by linarith [hab.1], by linarith [hab.2]⟩
  unfold Quad.atanh Quad.preAtanh
  rw [if_neg hg]
  dsimp only
  rw [hr]
  have hs0 : 1 / 100 ≤ 1 - |qv a| := by linarith
  have hs1 : 1 - |qv a| ≤ 1 := by linarith [abs_nonneg (qv a)]
  rw [hart]
  generalize Real.log ((1 + qv a) / (1 - qv a)) = l at *
  have hl0 := abs_nonneg l
  have kh := k.half (by norm_num; linarith) (by norm_num; linarith)
  refine ⟨_, rfl, kh.fin, ?_⟩
  rw [show 1 / 2 * l = l / 2 by ring]
  refine kh.err.trans ?_
  rw [abs_div, abs_of_pos (show (0:ℝ) < 2 by norm_num)]
  generalize 1 - |qv a| = s at *
  have e1 : 46 / 10 / s = 46 / 10 * (1 / s) := by ring
  have e2 : 3 / s = 3 * (1 / s) := by ring
  have e3 : 1 ≤ 1 / s := by rw [le_div_iff₀ (by linarith)]; linarith
  rw [e1, e2]
  generalize 1 / s = t at *
  norm_num; linarith

/-- The argument of the logarithm in `asinh`. -/
theorem qasinh_arg {P : Platform} (hT : FloatText P.toStr) {a : Quad} {x ρ K : ℝ} (ha : QA a x 0 (|x| * (1 + 1 / 2 ^ 47)))
    (hx : |x| ≤ 2 ^ 200 * 2 ^ 200) (hK : 101 / 100 ≤ K) (hρ : Real.sqrt (x ^ 2 + 1) ≤ (x + Real.sqrt (x ^ 2 + 1)) * ρ)
    (hρK : 521 / 1000 * ρ ≤ K * (999 / 1000)) :
    ∃ q, Quad.sqrt P (a.sqr + Quad.ONE) = some q ∧
      QA (a + q) (x + Real.sqrt (x ^ 2 + 1)) ((x + Real.sqrt (x ^ 2 + 1)) * (38 / 10 * ρ / 2 ^ 128))
        ((x + Real.sqrt (x ^ 2 + 1)) * (K * (999 / 1000))) := by
  have x0 := abs_nonneg x
  have hsq : |x| * |x| = x ^ 2 := by rw [abs_mul_abs_self]; ring
  have hpoly : 0 ≤ 49 / 100 * (|x| * |x|) - 103 / 100 * |x| + 58 / 100 := by nlinarith [sq_nonneg (|x| - 105 / 100)]
  have hx2 : |x| ≤ (x ^ 2 + 1) / 2 := by rw [← hsq]; nlinarith [sq_nonneg (|x| - 1)]
  have hx2u : x ^ 2 ≤ 2 ^ 200 * 2 ^ 200 * (2 ^ 200 * 2 ^ 200) := by
    rw [← hsq]; exact mul_le_mul hx hx x0 (by positivity)
  have hXX : (|x| + 1) * (1 + 1 / 2 ^ 47) * ((|x| + 1) * (1 + 1 / 2 ^ 47)) = (x ^ 2 + 2 * |x| + 1) * (1 + 1 / 2 ^ 47) ^ 2 := by
    rw [← hsq]; ring
  have x20 := sq_nonneg x
  have q1 := (ha.mono le_rfl (show _ ≤ (|x| + 1) * (1 + 1 / 2 ^ 47) from
      mul_le_mul_of_nonneg_right (by linarith) (by norm_num))).sqr (W := x ^ 2 * (1 + 1 / 2 ^ 38) + 109 / 100)
    (g := (x ^ 2 + 1) * (11 / 10) / 2 ^ 138) (by
      have : (1:ℝ) * 1 * (1 * 1) ≤ (|x| + 1) * (1 + 1 / 2 ^ 47) * (2 ^ 210 * 2 ^ 210) :=
        mul_le_mul (mul_le_mul (by linarith) (by norm_num) (by norm_num) (by linarith)) (by norm_num) (by norm_num) (by positivity)
      linarith) (by
      refine (mul_le_mul_of_nonneg_right (add_le_add hx le_rfl) (by norm_num)).trans (by norm_num)) (by rw [hXX]; clear hx hx2u; norm_num; linarith)
    (by rw [hXX]; clear hx hx2u; rw [hsq] at hpoly; norm_num; linarith)
    (by rw [hXX]; clear hx hx2u; norm_num; linarith)
  have q2 := q1.add qa_one (Z := x ^ 2 * (1 + 1 / 2 ^ 38) + 109 / 100) (W := (x ^ 2 + 1) * (1001 / 1000))
    (g := (x ^ 2 + 1) * (11 / 10 / 2 ^ 128)) le_rfl (by clear hx hx2u; norm_num; linarith)
    (by refine (add_le_add (mul_le_mul_of_nonneg_right hx2u (by norm_num)) le_rfl).trans (by norm_num))
    (by clear hx hx2u; norm_num; linarith) (by clear hx hx2u; norm_num; linarith)
    (by clear hx hx2u; rw [abs_of_pos (by linarith)]; norm_num; linarith)
  obtain ⟨q, hq, k⟩ := qsqrt_of hT q2 (by linarith) (by norm_num) (by clear hx hx2u; norm_num; linarith)
    (by
      have : (1:ℝ) * (1 * 1 * (1 * 1)) ≤ (x ^ 2 + 1) * (2 ^ 200 * 2 ^ 200 * (2 ^ 200 * 2 ^ 200)) :=
        mul_le_mul (by linarith) (by norm_num) (by norm_num) (by linarith)
      linarith)
    (by refine (add_le_add hx2u le_rfl).trans (by norm_num))
  refine ⟨q, hq, ?_⟩
  have hS : |x| ≤ Real.sqrt (x ^ 2 + 1) := by
    rw [← Real.sqrt_sq_eq_abs]; exact Real.sqrt_le_sqrt (by linarith)
  have hSu : Real.sqrt (x ^ 2 + 1) ≤ 2 ^ 200 * 2 ^ 201 := by
    rw [Real.sqrt_le_left (by positivity)]
    refine (add_le_add hx2u le_rfl).trans (by norm_num)
  have hS0 : 0 < Real.sqrt (x ^ 2 + 1) := Real.sqrt_pos.mpr (by linarith)
  have hT0 : 0 ≤ x + Real.sqrt (x ^ 2 + 1) := by linarith [neg_abs_le x]
  clear hx2u hx q1 q2 hx2 hXX hpoly hsq x20
  generalize Real.sqrt (x ^ 2 + 1) = S at *
  have key := mul_le_mul_of_nonneg_left hρK hT0
  have e1 : (x + S) * (521 / 1000 * ρ) = 521 / 1000 * ((x + S) * ρ) := by ring
  have e2 : (x + S) * (38 / 10 * ρ / 2 ^ 128) = ((x + S) * ρ) * (38 / 10 / 2 ^ 128) := by ring
  have hTK := mul_le_mul_of_nonneg_left (show 1008 / 1000 ≤ K * (999 / 1000) by linarith) hT0
  rw [e1] at key
  refine ha.add k (Z := S * (102 / 100)) ?_ le_rfl ?_ ?_ ?_ ?_
  · clear hSu; norm_num; linarith
  · refine (mul_le_mul_of_nonneg_right hSu (by norm_num)).trans (by norm_num)
  · rw [e2]; clear hSu; norm_num; linarith
  · clear hSu; linarith
  · rw [abs_of_nonneg hT0, e2]
    clear hSu
    generalize (x + S) * ρ = M at *
    generalize (x + S) * (K * (999 / 1000)) = N at *
    norm_num; linarith

theorem log_le_281 {T : ℝ} (h0 : 0 < T) (h : T ≤ 2 ^ 200 * 2 ^ 202) : Real.log T ≤ 2814 / 10 := by
  have h1 := Real.log_le_log h0 h
  rw [← pow_add, Real.log_pow] at h1
  have := Real.log_two_lt_d9
  norm_num at h1 this ⊢; linarith

/-- The common part of the two accuracy statements of `asinh`. -/
theorem qasinh_core {P : Platform} (hL : LibmLogs P) (hT : FloatText P.toStr) {a : Quad} {ρ K : ℝ} (ha : a.Normalized)
    (hx : |qv a| ≤ 2 ^ 200 * 2 ^ 200) (hK : 101 / 100 ≤ K) (hρ0 : ρ ≤ 2 ^ 100)
    (hρ : Real.sqrt (qv a ^ 2 + 1) ≤ (qv a + Real.sqrt (qv a ^ 2 + 1)) * ρ)
    (hρK : 521 / 1000 * ρ ≤ K * (999 / 1000)) (hlK : |Real.arsinh (qv a)| + K ≤ 708) (hlog : |Real.arsinh (qv a)| ≤ 468) :
    ∃ r, Quad.asinh P a = some r ∧ r.Fin ∧
      |qv r - Real.arsinh (qv a)| ≤ (2 * |Real.arsinh (qv a)| + 13 + 2 * K + 96 / 100 * ρ) / 2 ^ 126 := by
  obtain ⟨q, hq, k⟩ := qasinh_arg hT (qord_norm ha).exact hx hK hρ hρK
  have hS : |qv a| < Real.sqrt (qv a ^ 2 + 1) := by
    rw [← Real.sqrt_sq_eq_abs]; exact Real.sqrt_lt_sqrt (sq_nonneg _) (by linarith)
  have hT0 : 0 < qv a + Real.sqrt (qv a ^ 2 + 1) := by linarith [neg_abs_le (qv a)]
  have ex : Real.arsinh (qv a) = Real.log (qv a + Real.sqrt (qv a ^ 2 + 1)) := by
    unfold Real.arsinh; rw [add_comm (1:ℝ)]
  rw [ex] at hlK hlog ⊢
  have hl := abs_le.mp hlog
  obtain ⟨r, hr, k2⟩ := qln_of hL k hT0 (by norm_num at hρ0 ⊢; linarith) le_rfl (by linarith) hlK (by linarith [hl.1]) hl.2
  have hi : a.isInfinite = false := (fsq_fin ha.1.1).2
  refine ⟨r, ?_, k2.fin, k2.err.trans ?_⟩
  · unfold Quad.asinh Quad.preAsinh
    rw [hi]
    simp only [Bool.false_eq_true, if_false]
    rw [hq]; exact hr
  · generalize |Real.log (qv a + Real.sqrt (qv a ^ 2 + 1))| = l at *
    have hS0 := hS
    have hρp : 0 ≤ ρ := by
      by_contra hc
      have := mul_neg_of_pos_of_neg hT0 (not_le.mp hc)
      have := Real.sqrt_nonneg (qv a ^ 2 + 1)
      linarith
    norm_num; linarith

/-- **C82.** `asinh` of a non-negative Quad up to `2^400`, on any platform whose `f64` logarithms and text are reasonable: the
result is finite and within `(2 asinh a + 17) 2^-126` of the real inverse hyperbolic sine. -/
theorem C82_quad_asinh_nonneg (P : Platform) (hL : LibmLogs P) (hT : FloatText P.toStr) (a : Quad) (ha : a.Normalized)
    (h0 : 0 ≤ a.val) (h : a.val ≤ 2 ^ 400) :
    ∃ r, Quad.asinh P a = some r ∧ r.Fin ∧
      |(r.val : ℝ) - Real.arsinh (a.val : ℝ)| ≤ (2 * Real.arsinh (a.val : ℝ) + 17) / 2 ^ 126 := by
  rw [show (2:ℚ) ^ 400 = 2 ^ 200 * 2 ^ 200 by simp only [← pow_add]] at h
  have h0R : 0 ≤ qv a := by unfold qv; exact_mod_cast h0
  have hR : |qv a| ≤ 2 ^ 200 * 2 ^ 200 := by rw [abs_of_nonneg h0R]; unfold qv; exact_mod_cast h
  have hl0 : 0 ≤ Real.arsinh (qv a) := Real.arsinh_nonneg_iff.mpr h0R
  have hlog : Real.arsinh (qv a) ≤ 468 := by
    unfold Real.arsinh
    refine (log_le_281 (add_pos_of_nonneg_of_pos h0R (Real.sqrt_pos.mpr (by positivity))) ?_).trans (by norm_num)
    have h4 : Real.sqrt (1 + qv a ^ 2) ≤ 2 ^ 200 * 2 ^ 201 := by
      rw [Real.sqrt_le_left (by positivity)]
      have := pow_le_pow_left₀ (abs_nonneg _) hR 2
      rw [sq_abs] at this
      refine (add_le_add le_rfl this).trans (by norm_num)
    refine (add_le_add ((le_abs_self _).trans hR) h4).trans (by norm_num)
  obtain ⟨r, h1, h2, h3⟩ := qasinh_core hL hT ha hR (ρ := 1) (K := 105 / 100) (by norm_num) (by norm_num) (by linarith) (by norm_num)
    (by rw [abs_of_nonneg hl0]; linarith) (by rw [abs_of_nonneg hl0]; exact hlog)
  refine ⟨r, h1, h2, h3.trans ?_⟩
  rw [abs_of_nonneg hl0]
  change _ ≤ (2 * Real.arsinh (qv a) + 17) / 2 ^ 126
  exact div_le_div_of_nonneg_right (by linarith) (by positivity)

/-- **C82.** `asinh` of a Quad of either sign with `|a| ≤ 20`: the result is finite and within `(2 |asinh a| + 6 a^2 + 20) 2^-126`
of the real inverse hyperbolic sine. -/
theorem C82_quad_asinh (P : Platform) (hL : LibmLogs P) (hT : FloatText P.toStr) (a : Quad) (ha : a.Normalized)
    (h : |a.val| ≤ 20) :
    ∃ r, Quad.asinh P a = some r ∧ r.Fin ∧
      |(r.val : ℝ) - Real.arsinh (a.val : ℝ)| ≤ (2 * |Real.arsinh (a.val : ℝ)| + 6 * (a.val : ℝ) ^ 2 + 20) / 2 ^ 126 := by
  have hR : |qv a| ≤ 20 := by
    have := (Rat.cast_le (K := ℝ)).mpr h
    push_cast at this
    exact this
  have hx2 : qv a ^ 2 ≤ 400 := by
    rw [← sq_abs]; exact (pow_le_pow_left₀ (abs_nonneg _) hR 2).trans (by norm_num)
  have hS : |qv a| ≤ Real.sqrt (qv a ^ 2 + 1) := by
    rw [← Real.sqrt_sq_eq_abs]; exact Real.sqrt_le_sqrt (by linarith)
  have hSS := Real.mul_self_sqrt (show 0 ≤ qv a ^ 2 + 1 by positivity)
  have hS0 := Real.sqrt_nonneg (qv a ^ 2 + 1)
  have hlog : |Real.arsinh (qv a)| ≤ 20 := by
    refine le_trans ?_ hR
    have e := Real.sinh_arsinh (qv a)
    generalize Real.arsinh (qv a) = y at *
    rw [← e]
    rcases le_total 0 y with h4 | h4
    · rw [abs_of_nonneg h4]; exact (Real.self_le_sinh_iff.mpr h4).trans (le_abs_self _)
    · rw [abs_of_nonpos h4]
      have := Real.sinh_le_self_iff.mpr h4
      exact (neg_le_neg this).trans (neg_le_abs _)
  obtain ⟨r, h1, h2, h3⟩ := qasinh_core hL hT ha (hR.trans (by norm_num)) (ρ := 2 * (qv a ^ 2 + 1)) (K := 105 / 100 * (qv a ^ 2 + 1))
    (by linarith [sq_nonneg (qv a)]) (by norm_num; linarith)
    (by
      have h4 := neg_abs_le (qv a)
      have h5 := le_abs_self (qv a)
      have e : (qv a + Real.sqrt (qv a ^ 2 + 1)) * (Real.sqrt (qv a ^ 2 + 1) - qv a) = 1 := by
        have : (qv a + Real.sqrt (qv a ^ 2 + 1)) * (Real.sqrt (qv a ^ 2 + 1) - qv a) =
          Real.sqrt (qv a ^ 2 + 1) * Real.sqrt (qv a ^ 2 + 1) - qv a ^ 2 := by ring
        rw [this, hSS]; ring
      have h6 : 1 ≤ (qv a + Real.sqrt (qv a ^ 2 + 1)) * (2 * Real.sqrt (qv a ^ 2 + 1)) := by
        refine le_trans (le_of_eq e.symm) ?_
        exact mul_le_mul_of_nonneg_left (by linarith) (by linarith)
      have h7 := mul_le_mul_of_nonneg_right h6 hS0
      refine le_trans (le_of_eq (one_mul _).symm) (h7.trans (le_of_eq ?_))
      rw [mul_assoc _ (2 * Real.sqrt (qv a ^ 2 + 1)), mul_assoc 2, hSS])
    (by linarith [sq_nonneg (qv a)]) (by linarith) (by linarith)
  refine ⟨r, h1, h2, h3.trans ?_⟩
  change _ ≤ (2 * |Real.arsinh (qv a)| + 6 * qv a ^ 2 + 20) / 2 ^ 126
  exact div_le_div_of_nonneg_right (by linarith [sq_nonneg (qv a)]) (by positivity)

/-- The argument of the logarithm in `acosh`. -/
theorem qacosh_arg {P : Platform} (hT : FloatText P.toStr) {a : Quad} {x : ℝ} (ha : QA a x 0 (x * (1 + 1 / 2 ^ 47)))
    (hx1 : 3 / 2 ≤ x) (hx : x ≤ 2 ^ 200 * 2 ^ 200) :
    ∃ q, Quad.sqrt P (a.sqr - Quad.ONE) = some q ∧
      QA (a + q) (x + Real.sqrt (x ^ 2 - 1)) ((x + Real.sqrt (x ^ 2 - 1)) * (46 / 10 / 2 ^ 128))
        ((x + Real.sqrt (x ^ 2 - 1)) * (105 / 100 * (999 / 1000))) := by
  have hx2u : x ^ 2 ≤ 2 ^ 200 * 2 ^ 200 * (2 ^ 200 * 2 ^ 200) := by
    rw [sq]; exact mul_le_mul hx hx (by linarith) (by positivity)
  have x20 : 9 / 4 ≤ x ^ 2 := by nlinarith
  have hXX : x * (1 + 1 / 2 ^ 47) * (x * (1 + 1 / 2 ^ 47)) = x ^ 2 * (1 + 1 / 2 ^ 47) ^ 2 := by ring
  have q1 := ha.sqr (W := x ^ 2 * (1 + 1 / 2 ^ 38)) (g := x ^ 2 * (11 / 10) / 2 ^ 139) (by
      have : (1:ℝ) * 1 * (1 * 1) ≤ x * (1 + 1 / 2 ^ 47) * (2 ^ 210 * 2 ^ 210) :=
        mul_le_mul (mul_le_mul (by linarith) (by norm_num) (by norm_num) (by linarith)) (by norm_num) (by norm_num) (by positivity)
      linarith) (by
      refine (mul_le_mul_of_nonneg_right hx (by norm_num)).trans (by norm_num)) (by rw [hXX]; clear hx hx2u; norm_num; linarith)
    (by rw [hXX]; clear hx hx2u; norm_num; linarith)
    (by rw [hXX]; clear hx hx2u; norm_num; linarith)
  have q2 := q1.sub qa_one (Z := x ^ 2 * (1 + 1 / 2 ^ 38)) (W := (x ^ 2 - 1) * (1001 / 1000))
    (g := (x ^ 2 - 1) * (19 / 10 / 2 ^ 128)) le_rfl (by clear hx hx2u; norm_num; linarith)
    (by refine (mul_le_mul_of_nonneg_right hx2u (by norm_num)).trans (by norm_num))
    (by clear hx hx2u; norm_num; linarith) (by clear hx hx2u; norm_num; linarith)
    (by clear hx hx2u; rw [abs_of_pos (by linarith)]; norm_num; linarith)
  obtain ⟨q, hq, k⟩ := qsqrt_of hT q2 (by linarith) (by norm_num) (by clear hx hx2u; norm_num; linarith)
    (by
      have : (1:ℝ) * (1 * 1 * (1 * 1)) ≤ (x ^ 2 - 1) * (2 ^ 200 * 2 ^ 200 * (2 ^ 200 * 2 ^ 200)) :=
        mul_le_mul (by linarith) (by norm_num) (by norm_num) (by linarith)
      linarith)
    (by refine le_trans (by linarith) (hx2u.trans (by norm_num)))
  refine ⟨q, hq, ?_⟩
  have hS : Real.sqrt (x ^ 2 - 1) ≤ x := by
    rw [Real.sqrt_le_left (by linarith)]; linarith
  have hS0 : 0 < Real.sqrt (x ^ 2 - 1) := Real.sqrt_pos.mpr (by linarith)
  clear hx2u q1 q2 hXX x20
  generalize Real.sqrt (x ^ 2 - 1) = S at *
  refine ha.add k (Z := x * (102 / 100)) ?_ ?_ ?_ ?_ ?_ ?_
  · clear hx; norm_num; linarith
  · clear hx; norm_num; linarith
  · refine (mul_le_mul_of_nonneg_right hx (by norm_num)).trans (by norm_num)
  · clear hx; norm_num; linarith
  · clear hx; linarith
  · rw [abs_of_nonneg (by linarith)]
    clear hx
    norm_num; linarith

/-- The argument of the logarithm in `acosh`, close to one: the difference under the root cancels. -/
theorem qacosh_arg_near {P : Platform} (hT : FloatText P.toStr) {a : Quad} {x : ℝ} (ha : QA a x 0 (x * (1 + 1 / 2 ^ 47)))
    (hx1 : 26 / 25 ≤ x) (hx : x ≤ 3 / 2) :
    ∃ q, Quad.sqrt P (a.sqr - Quad.ONE) = some q ∧
      QA (a + q) (x + Real.sqrt (x ^ 2 - 1)) ((x + Real.sqrt (x ^ 2 - 1)) * (7 / 2 ^ 128))
        ((x + Real.sqrt (x ^ 2 - 1)) * (157 / 100 * (999 / 1000))) := by
  have x2u : x ^ 2 ≤ 9 / 4 := by nlinarith
  have x20 : 676 / 625 ≤ x ^ 2 := by nlinarith
  have hXX : x * (1 + 1 / 2 ^ 47) * (x * (1 + 1 / 2 ^ 47)) = x ^ 2 * (1 + 1 / 2 ^ 47) ^ 2 := by ring
  have q1 := ha.sqr (W := x ^ 2 * (1 + 1 / 2 ^ 38)) (g := x ^ 2 * (11 / 10) / 2 ^ 139) (by
      have : (1:ℝ) * 1 * (1 * 1) ≤ x * (1 + 1 / 2 ^ 47) * (2 ^ 210 * 2 ^ 210) :=
        mul_le_mul (mul_le_mul (by linarith) (by norm_num) (by norm_num) (by linarith)) (by norm_num) (by norm_num) (by positivity)
      linarith) (by
      refine (mul_le_mul_of_nonneg_right hx (by norm_num)).trans (by norm_num)) (by rw [hXX]; norm_num; linarith)
    (by rw [hXX]; norm_num; linarith)
    (by rw [hXX]; norm_num; linarith)
  obtain ⟨Q, hQ⟩ : ∃ Q, Q = x ^ 2 - 1 := ⟨_, rfl⟩
  have Q1 : 51 / 625 ≤ Q := by linarith
  have Q2 : Q ≤ 5 / 4 := by linarith
  have Q0 : 0 < Q := by linarith
  have q2 := q1.sub qa_one (Z := x ^ 2 * (1 + 1 / 2 ^ 38)) (W := Q * (69 / 10) * (999 / 1000))
    (g := (Q + 1) * (101 / 100) / 2 ^ 128) le_rfl (by norm_num; linarith)
    (by refine (mul_le_mul_of_nonneg_right x2u (by norm_num)).trans (by norm_num))
    (by rw [hQ]; norm_num; linarith) (by rw [hQ]; norm_num; linarith)
    (by rw [abs_of_pos (by linarith), hQ]; norm_num; linarith)
  rw [← hQ] at q2 ⊢
  have xQ : x ^ 2 = Q + 1 := by linarith
  clear hXX q1
  obtain ⟨A, hA⟩ : ∃ A, qv (a.sqr - Quad.ONE) = A := ⟨_, rfl⟩
  have dA := q2.err
  rw [hA] at dA
  have hδ : |A - Q| ≤ Q * ((Q + 1) * (101 / 100) / 2 ^ 128 / Q) := by
    refine dA.trans (le_of_eq ?_); field_simp
  have hδ2 : (Q + 1) * (101 / 100) / 2 ^ 128 / Q ≤ 1 / 2 ^ 20 := by
    rw [div_le_iff₀ Q0]; norm_num; linarith
  obtain ⟨A0, hs⟩ := sqrt_near Q0 hδ hδ2
  have A1 : Q * (9999 / 10000) ≤ A := by
    have := (abs_le.mp dA).1; norm_num at this ⊢; linarith
  have A2 : A ≤ 2 := by
    have := (abs_le.mp dA).2; norm_num at this ⊢; linarith
  have sz : SZ (a.sqr - Quad.ONE) (A * (69 / 10)) := q2.sz.mono (by linarith)
  have SS := Real.mul_self_sqrt Q0.le
  have S0 := Real.sqrt_pos.mpr Q0
  have S1 : 2856 / 10000 ≤ Real.sqrt Q := by apply Real.le_sqrt_of_sq_le; norm_num; linarith
  have S2 : Real.sqrt Q ≤ 112 / 100 := by
    rw [Real.sqrt_le_left (by norm_num)]; norm_num; linarith
  obtain ⟨r, r1, r2⟩ := qsqrt_slack P hT (K := 69 / 10) (W := 36 / 10) hA sz A0 (by norm_num) le_rfl (by norm_num) (by norm_num) (by
      have : (1:ℝ) ≤ A * 2 ^ 20 := by norm_num; linarith
      exact this.trans (mul_le_mul_of_nonneg_left (by norm_num) A0.le)) (A2.trans (by norm_num))
  have e : Real.sqrt Q * ((Q + 1) * (101 / 100) / 2 ^ 128 / Q) = (Q + 1) / Real.sqrt Q * (101 / 100) / 2 ^ 128 := by
    generalize Real.sqrt Q = S at *
    rw [← SS]; field_simp
  rw [e] at hs
  have hI : (Q + 1) / Real.sqrt Q ≤ 38 / 10 := by
    rw [div_le_iff₀ S0]
    nlinarith
  have r3 := r2.move hs
  have hs' := abs_le.mp hs
  have TS : Real.sqrt A ≤ Real.sqrt Q * (1001 / 1000) := by
    have := hs'.2
    generalize (Q + 1) / Real.sqrt Q = I at *
    norm_num at this hI ⊢; linarith
  refine ⟨r, r1, ?_⟩
  clear hs hs' e q2 sz hA dA hδ hδ2 SS
  generalize Real.sqrt Q = S at *
  generalize Real.sqrt A = T at *
  generalize (Q + 1) / S = I at *
  refine ha.add r3 (Z := 405 / 100) ?_ ?_ ?_ ?_ ?_ ?_
  · norm_num; linarith
  · norm_num; linarith
  · norm_num
  · norm_num at hI ⊢; linarith
  · linarith
  · rw [abs_of_nonneg (by linarith)]
    norm_num; linarith

/-- **C82.** `acosh` of a Quad from `26/25` up to `2^400`, on any platform whose `f64` logarithms and text are reasonable: the
result is finite and within `(2 acosh a + 18) 2^-126` of the real inverse hyperbolic cosine. -/
theorem C82_quad_acosh (P : Platform) (hL : LibmLogs P) (hT : FloatText P.toStr) (a : Quad) (ha : a.Normalized)
    (h1 : 26 / 25 ≤ a.val) (h : a.val ≤ 2 ^ 400) :
    ∃ r, Quad.acosh P a = some r ∧ r.Fin ∧
      |(r.val : ℝ) - Real.arcosh (a.val : ℝ)| ≤ (2 * Real.arcosh (a.val : ℝ) + 18) / 2 ^ 126 := by
  rw [show (2:ℚ) ^ 400 = 2 ^ 200 * 2 ^ 200 by simp only [← pow_add]] at h
  have h1R : 26 / 25 ≤ qv a := by
    have := (Rat.cast_le (K := ℝ)).mpr h1
    push_cast at this
    exact this
  have hR : qv a ≤ 2 ^ 200 * 2 ^ 200 := by unfold qv; exact_mod_cast h
  have hpre : ¬ Quad.lt a Quad.ONE = true := by
    rw [(fsq_cmp_one a ha).1]; intro hc; linarith
  have hi : a.isInfinite = false := (fsq_fin ha.1.1).2
  have hA := (qord_norm ha).exact
  rw [abs_of_pos (show 0 < qv a by linarith)] at hA
  obtain ⟨q, hq, k⟩ : ∃ q, Quad.sqrt P (a.sqr - Quad.ONE) = some q ∧
      QA (a + q) (qv a + Real.sqrt (qv a ^ 2 - 1)) ((qv a + Real.sqrt (qv a ^ 2 - 1)) * (7 / 2 ^ 128))
        ((qv a + Real.sqrt (qv a ^ 2 - 1)) * (157 / 100 * (999 / 1000))) := by
    rcases le_total (qv a) (3 / 2) with hc | hc
    · exact qacosh_arg_near hT hA h1R hc
    · obtain ⟨q, hq, k⟩ := qacosh_arg hT hA hc hR
      have p := Real.sqrt_nonneg (qv a ^ 2 - 1)
      exact ⟨q, hq, k.mono (mul_le_mul_of_nonneg_left (by norm_num) (by linarith))
        (mul_le_mul_of_nonneg_left (by norm_num) (by linarith))⟩
  have hT0 : 0 < qv a + Real.sqrt (qv a ^ 2 - 1) := by linarith [Real.sqrt_nonneg (qv a ^ 2 - 1)]
  change ∃ r, _ ∧ _ ∧ |qv r - Real.arcosh (qv a)| ≤ (2 * Real.arcosh (qv a) + 18) / 2 ^ 126
  have hl0 : 0 ≤ Real.arcosh (qv a) := Real.arcosh_nonneg (by linarith)
  have ex : Real.arcosh (qv a) = Real.log (qv a + Real.sqrt (qv a ^ 2 - 1)) := rfl
  have hS : Real.sqrt (qv a ^ 2 - 1) ≤ qv a := by
    rw [Real.sqrt_le_left (by linarith)]; linarith
  have hlog : Real.log (qv a + Real.sqrt (qv a ^ 2 - 1)) ≤ 2814 / 10 :=
    log_le_281 hT0 ((add_le_add hR (hS.trans hR)).trans (by norm_num))
  rw [ex] at hl0 ⊢
  obtain ⟨r, hr, k2⟩ := qln_of hL k hT0 (by norm_num) le_rfl (by norm_num) (by rw [abs_of_nonneg hl0]; linarith) (by linarith) (by linarith)
  refine ⟨r, ?_, k2.fin, k2.err.trans ?_⟩
  · unfold Quad.acosh Quad.preAcosh
    rw [if_neg hpre, hi]
    simp only [Bool.false_eq_true, if_false]
    rw [hq]; exact hr
  · rw [abs_of_nonneg hl0]
    generalize Real.log (qv a + Real.sqrt (qv a ^ 2 - 1)) = l at *
    norm_num; linarith

/-- Non-vacuity: `pi` meets the hypotheses of `asinh` and `acosh`, `-pi` those of `asinh` on both signs, `1 / pi` those of
`atanh`; a platform with reasonable logarithms and text exists (PlatformWitness, TextWitness). -/
example : Quad.PI.Normalized ∧ 26 / 25 ≤ Quad.PI.val ∧ Quad.PI.val ≤ 2 ^ 400 ∧ (-Quad.PI).Normalized ∧ |(-Quad.PI).val| ≤ 20 ∧
    (-Quad.PI).val < 0 ∧ Quad.FRAC_1_PI.Normalized ∧ |Quad.FRAC_1_PI.val| ≤ 99 / 100 ∧ 0 < Quad.FRAC_1_PI.val := by
  decide +kernel

end Verif
