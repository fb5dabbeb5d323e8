import Verif.Proofs.QuadLn
import Verif.Proofs.Pow2
import Verif.Props.Ln
import Verif.Props.QuadExp
import Verif.Proofs.PlatformWitness

/-!
# C74: the accuracy of `ln` of a Quad
-/

namespace Verif

open F64 Prim Util Quad Consts

/-- The threshold of the iteration is finite and tiny, whatever the exponent the platform reports. -/
theorem qln_eps {n : ℤ} (h1 : n ≤ 13) (h2 : -2 ^ 31 ≤ n) : (Quad.mulPwr2 Quad.EPSILON (F64.powi Double.two n)).c0.isFinite = true ∧
    fr (Quad.mulPwr2 Quad.EPSILON (F64.powi Double.two n)).c0 ≤ 1 / 2 ^ 90 := by
  have hp : (F64.powi Double.two n).isFinite = true ∧ |U (F64.powi Double.two n)| ≤ 2 ^ 13 * (one' : ℚ) := by
    have ho : (0:ℚ) < (one' : ℚ) := by exact_mod_cast one'_pos
    rcases le_or_gt 0 n with h0 | h0
    · obtain ⟨m, rfl⟩ := Int.eq_ofNat_of_zero_le h0
      have i := is_pow2 (n := m) (by omega)
      refine ⟨i.1, ?_⟩
      rw [U, i.2]
      push_cast
      rw [abs_of_pos (by positivity)]
      exact mul_le_mul_of_nonneg_right (pow_le_pow_right₀ (by norm_num) (by omega)) ho.le
    · obtain ⟨m, hm⟩ : ∃ m : ℕ, n = -(m : ℤ) := ⟨n.natAbs, by omega⟩
      subst hm
      by_cases hb : m ≤ 1023
      · have i := is_pow2_neg hb
        refine ⟨i.1, ?_⟩
        rw [U, i.2]
        push_cast
        rw [abs_of_pos (by positivity)]
        have : (2:ℤ) ^ (1074 - m) ≤ 1 * one' := by
          rw [one_mul]; unfold one'; exact pow_le_pow_right₀ (by norm_num) (by omega)
        have h3 : ((2:ℤ) ^ (1074 - m) : ℚ) ≤ 1 * (one' : ℚ) := by exact_mod_cast this
        push_cast at h3
        refine h3.trans ?_
        exact mul_le_mul_of_nonneg_right (by norm_num) ho.le
      · rw [(pow2_big (n := m) (by omega) (by omega)).2]
        refine ⟨by decide +kernel, ?_⟩
        have : F64.zero.units = 0 := by decide +kernel
        rw [U, this]
        simp only [Int.cast_zero, abs_zero]
        positivity
  have he : Quad.EPSILON.c0.isFinite = true ∧ |Quad.EPSILON.c0.units| * 2 ^ 200 ≤ one' := by decide +kernel
  generalize F64.powi Double.two n = p at *
  unfold Quad.mulPwr2
  dsimp only
  obtain ⟨fp, up⟩ := hp
  obtain ⟨fe, ue⟩ := he
  generalize Quad.EPSILON.c0 = e at *
  have ho : (0:ℚ) < (one' : ℚ) := by exact_mod_cast one'_pos
  have ue' : |U e| ≤ (one' : ℚ) / 2 ^ 200 := by
    rw [le_div_iff₀ (by positivity)]; unfold U; exact_mod_cast ue
  have hpq : |pq e.units p.units| ≤ (one' : ℚ) / 2 ^ 187 := by
    unfold pq
    rw [abs_div, abs_mul, abs_of_pos ho, div_le_iff₀ ho]
    have := mul_le_mul ue' up (abs_nonneg _) (by positivity)
    unfold U at this
    refine this.trans (le_of_eq ?_)
    ring
  have hol : (one' : ℚ) / 2 ^ 187 ≤ (lim : ℚ) := by
    have : one' ≤ lim := by decide +kernel
    have : (one' : ℚ) ≤ (lim : ℚ) := by exact_mod_cast this
    refine le_trans (div_le_self ho.le (by norm_num)) this
  obtain ⟨h3, -⟩ := qb_mul fe fp hpq hol
  refine ⟨h3.fin, ?_⟩
  have hob : (2:ℚ) ^ 200 ≤ (one' : ℚ) := by
    have : (2:ℤ) ^ 200 ≤ one' := by decide +kernel
    exact_mod_cast this
  have h4 := h3.le
  unfold fr
  rw [toRat_U h3.fin]
  have h5 : U (F64.mul e p) / (one' : ℚ) ≤ 1 / 2 ^ 90 := by
    rw [div_le_iff₀ ho]
    have := (le_abs_self _).trans h4
    generalize U (F64.mul e p) = z at *
    generalize (one' : ℚ) = o at *
    norm_num at this hob ⊢
    linarith
  exact (Rat.cast_le (K := ℝ)).mpr h5 |>.trans (by norm_num)

/-- The logarithm of the first component against that of the number. -/
theorem qlog_c0 {a : Quad} (ha : QOrd a) (hp : 0 < qv a) : 0 < fr a.c0 ∧
    |Real.log (fr a.c0) - Real.log (qv a)| ≤ 101 / 100 / 2 ^ 48 := by
  have h := abs_le.mp (qv_sub_c0 ha)
  have hpos : 0 < fr a.c0 := by
    by_contra hc
    push Not at hc
    rw [abs_of_nonpos hc] at h
    have := h.2
    norm_num at this; linarith
  rw [abs_of_pos hpos] at h
  refine ⟨hpos, ?_⟩
  have e1 := Real.log_le_sub_one_of_pos (div_pos hpos hp)
  have e2 := Real.log_le_sub_one_of_pos (div_pos hp hpos)
  rw [Real.log_div hpos.ne' hp.ne'] at e1
  rw [Real.log_div hp.ne' hpos.ne'] at e2
  have f1 : fr a.c0 / qv a ≤ 1 + 101 / 100 / 2 ^ 48 := by
    rw [div_le_iff₀ hp]; norm_num at h ⊢; linarith [h.1]
  have f2 : qv a / fr a.c0 ≤ 1 + 101 / 100 / 2 ^ 48 := by
    rw [div_le_iff₀ hpos]; norm_num at h ⊢; linarith [h.2]
  rw [abs_le]; constructor <;> linarith

/-- The logarithm of the first component against that of the number, up to a slack. -/
theorem qlog_c0S {a : Quad} {K : ℝ} (ha : SZ a (qv a * K)) (hK : K ≤ 709) (hp : 0 < qv a) : 0 < fr a.c0 ∧
    |Real.log (fr a.c0) - Real.log (qv a)| ≤ 101 / 100 / 2 ^ 48 := by
  have hs : qv a * K / 2 ^ 138 ≤ qv a * (709 / 2 ^ 138) := by
    rw [mul_div_assoc]
    exact mul_le_mul_of_nonneg_left (div_le_div_of_nonneg_right hK (by positivity)) hp.le
  have h := abs_le.mp ((sz_sub_c0 ha).2.trans (add_le_add le_rfl hs))
  have hpos : 0 < fr a.c0 := by
    by_contra hc
    push Not at hc
    rw [abs_of_nonpos hc] at h
    have := h.2
    norm_num at this; linarith
  rw [abs_of_pos hpos] at h
  refine ⟨hpos, ?_⟩
  have e1 := Real.log_le_sub_one_of_pos (div_pos hpos hp)
  have e2 := Real.log_le_sub_one_of_pos (div_pos hp hpos)
  rw [Real.log_div hpos.ne' hp.ne'] at e1
  rw [Real.log_div hp.ne' hpos.ne'] at e2
  have f1 : fr a.c0 / qv a ≤ 1 + 101 / 100 / 2 ^ 48 := by
    rw [div_le_iff₀ hp]; norm_num at h ⊢; linarith [h.1]
  have f2 : qv a / fr a.c0 ≤ 1 + 101 / 100 / 2 ^ 48 := by
    rw [div_le_iff₀ hpos]; norm_num at h ⊢; linarith [h.2]
  rw [abs_le]; constructor <;> linarith

theorem qeq_one_val {a : Quad} (hf : a.Fin) (h : Quad.eq a Quad.ONE = true) : qv a = 1 := by
  have key : ∀ {x y : F64}, x.isFinite = true → y.isFinite = true → F64.eq x y = true → x.toRat = y.toRat := by
    intro x y hx hy h
    have := ((Is.of_finite hx).eq_iff (Is.of_finite hy)).mp h
    rw [(Is.of_finite hx).toRat, (Is.of_finite hy).toRat, this]
  unfold Quad.eq at h
  simp only [Bool.and_eq_true] at h
  obtain ⟨⟨⟨e0, e1⟩, e2⟩, e3⟩ := h
  obtain ⟨g0, g1, g2, g3⟩ := (show Quad.ONE.Fin by decide +kernel)
  have : a.val = Quad.ONE.val := by
    unfold Quad.val
    rw [key hf.1 g0 e0, key hf.2.1 g1 e1, key hf.2.2.1 g2 e2, key hf.2.2.2 g3 e3]
  unfold qv
  rw [this, show Quad.ONE.val = 1 by decide +kernel]; norm_num

/-- `ln` as an approximation with its size, of a Quad that is ordered up to a slack. -/
theorem qln_any {P : Platform} (hP : LibmLogs P) {a : Quad} {K : ℝ} (oa : SZ a (qv a * K)) (hK1 : 1 ≤ K) (hpR : 0 < qv a)
    (hK2 : |Real.log (qv a)| + K ≤ 709) (h1 : -707 ≤ Real.log (qv a)) (h2 : Real.log (qv a) ≤ 469) :
    ∃ r, Quad.ln P a = some r ∧
      QA r (Real.log (qv a)) ((2 * |Real.log (qv a)| + 129 / 10 + 2 * K) / 2 ^ 126) (|Real.log (qv a)| + 19 / 10 + K) := by
  obtain ⟨hpos, hlog⟩ := qlog_c0S oa (by have := abs_nonneg (Real.log (qv a)); linarith) hpR
  have hf := oa.fin.1
  have hh : 0 < a.c0.units := by
    rw [fr_is (Is.of_finite hf)] at hpos
    have : (0:ℝ) < (one' : ℝ) := by exact_mod_cast one'_pos
    by_contra hc
    have : (a.c0.units:ℝ) ≤ 0 := by exact_mod_cast not_lt.mp hc
    exact absurd hpos (not_lt.mpr (div_nonpos_of_nonpos_of_nonneg this (by linarith)))
  obtain ⟨s, m, hm, e, eh⟩ := (Is.of_finite hf).exists
  have hn : a.isNan ≠ true := by rw [(fsq_fin hf).1]; simp
  have hs : a.isSignNegative ≠ true := by
    intro hc
    unfold Quad.isSignNegative at hc
    rw [e] at hc
    have : s = true := hc
    subst this
    simp only [if_true] at eh
    omega
  have hz : a.isZero ≠ true := by
    rw [ne_eq, fsq_isZero hf]
    intro hc
    rw [fr, hc] at hpos
    norm_num at hpos
  have hi : a.isInfinite ≠ true := by
    unfold Quad.isInfinite
    rw [e]; simp [F64.isInfinite]
  unfold Quad.ln Quad.preLn
  rw [if_neg hn, if_neg hs, if_neg hz, if_neg hi]
  have hA : qv a = Real.exp (Real.log (qv a)) := (Real.exp_log hpR).symm
  by_cases h1c : Quad.eq a Quad.ONE = true
  · rw [if_pos h1c]
    refine ⟨_, rfl, ?_⟩
    have e1 : qv a = 1 := qeq_one_val oa.fin h1c
    have e2 : Quad.ZERO.val = 0 := by decide +kernel
    have e3 : qv Quad.ZERO = 0 := by unfold qv; rw [e2]; norm_num
    rw [e1]
    refine qa_of (by decide +kernel) ?_ ?_
    · rw [e3]; norm_num; linarith
    · norm_num; linarith
  · rw [if_neg h1c]
    obtain ⟨fx, ex⟩ := hP.ln a.c0 hf (by unfold fr at hpos; exact_mod_cast hpos)
    change |fr (P.ln a.c0) - Real.log (fr a.c0)| ≤ |Real.log (fr a.c0)| / 2 ^ 50 at ex
    clear hs hz hi hn e eh hh
    generalize hL : Real.log (qv a) = L at *
    generalize Real.log (fr a.c0) = M at *
    have hL0 := abs_nonneg L
    have hLa : |L| ≤ 707 := abs_le.mpr ⟨h1, by linarith⟩
    have hM : |M| ≤ |L| + 101 / 100 / 2 ^ 48 := by
      have := abs_add_le (M - L) L
      rw [sub_add_cancel] at this; linarith
    have hx1 : |fr (P.ln a.c0)| ≤ |M| + |M| / 2 ^ 50 := by
      have := abs_add_le (fr (P.ln a.c0) - M) M
      rw [sub_add_cancel] at this
      linarith
    have hx0 : QA ⟨P.ln a.c0, F64.zero, F64.zero, F64.zero⟩ L (|M| / 2 ^ 50 + 101 / 100 / 2 ^ 48) (|L| + 19 / 10 + K) := by
      have h3 := qa_single (Is.of_finite fx)
      have e4 : ((P.ln a.c0).units : ℝ) / one' = fr (P.ln a.c0) := (fr_is (Is.of_finite fx)).symm
      have e5 : |((P.ln a.c0).units : ℝ)| / one' = |fr (P.ln a.c0)| := by
        rw [← e4, abs_div, abs_of_pos (show (0:ℝ) < (one' : ℝ) by exact_mod_cast one'_pos)]
      rw [e4, e5] at h3
      refine (h3.move (y := L) (d := |M| / 2 ^ 50 + 101 / 100 / 2 ^ 48) ?_).mono (by linarith) ?_
      · have := abs_add_le (fr (P.ln a.c0) - M) (M - L)
        rw [sub_add_sub_cancel] at this; linarith
      · norm_num at hx1 hM ⊢; linarith
    have hx10 : |fr (P.ln a.c0)| ≤ 2 ^ 10 := by norm_num at hx1 hM ⊢; linarith
    have hxM : |M| ≤ |fr (P.ln a.c0)| + |M| / 2 ^ 50 := by
      have := abs_sub_abs_le_abs_sub M (fr (P.ln a.c0))
      rw [abs_sub_comm] at this
      linarith
    have hM0 := abs_nonneg M
    have hk : ∀ k : ℤ, F64.toI32 (F64.floor (P.log2 (P.ln a.c0).abs)) = k → -2 ^ 31 ≤ k → k ≤ 11 →
        ∃ r, (match i32? (F64.toI32 (F64.floor (P.log2 (P.ln a.c0).abs)) + 2) with
          | none => none
          | some k2 => Quad.lnLoop a (Quad.mulPwr2 Quad.EPSILON (F64.powi Double.two k2)) 7 0 ⟨P.ln a.c0, F64.zero, F64.zero, F64.zero⟩) = some r ∧
          QA r L ((2 * |L| + 129 / 10 + 2 * K) / 2 ^ 126) (|L| + 19 / 10 + K) := by
      intro k e k1 k2
      have e2 : i32? (k + 2) = some (k + 2) := by
        unfold i32?; rw [if_pos]; constructor <;> norm_num at k1 ⊢ <;> omega
      rw [e, e2]
      refine qlnLoop_qa oa hK1 hK2 hA h1 h2 _ hx0 ?_ (Or.inr (qln_eps (by omega) (by omega)))
      norm_num at hM ⊢; linarith
    by_cases h0 : fr (P.ln a.c0) = 0
    · have ez : (P.ln a.c0).abs = F64.zero := by
        have ii := Is.of_finite fx
        rw [fr_is ii, div_eq_zero_iff] at h0
        have hu : (P.ln a.c0).units = 0 := by
          rcases h0 with h0 | h0
          · exact_mod_cast h0
          · exact absurd h0 (by exact_mod_cast one'_pos.ne')
        rw [hu] at ii
        obtain ⟨s, m, hm, e, eh⟩ := ii.exists
        have hm0 : m = 0 := by
          cases s <;> simp at eh <;> omega
        subst hm0
        rw [e]; rfl
      exact hk (-2 ^ 31) (by rw [ez, hP.log2_zero]; decide +kernel) le_rfl (by norm_num)
    · obtain ⟨k1, k2, -⟩ := log2_k hP fx h0 hx10
      exact hk _ rfl (le_trans (by norm_num) k2) k1

theorem qnorm_sz {a : Quad} (ha : a.Normalized) (hp : 0 < qv a) : SZ a (qv a * (101 / 100)) :=
  ((qord_norm ha).exact.mono le_rfl (by
    rw [abs_of_pos hp]
    exact mul_le_mul_of_nonneg_left (by norm_num) hp.le)).sz

/-- `ln` as an approximation with its size. -/
theorem qln_qa {P : Platform} (hP : LibmLogs P) {a : Quad} (ha : a.Normalized) (hp : 0 < a.val)
    (h1 : -707 ≤ Real.log (a.val : ℝ)) (h2 : Real.log (a.val : ℝ) ≤ 469) :
    ∃ r, Quad.ln P a = some r ∧
      QA r (Real.log (a.val : ℝ)) ((2 * |Real.log (a.val : ℝ)| + 15) / 2 ^ 126) (|Real.log (a.val : ℝ)| + 3) := by
  have hpR : 0 < qv a := by unfold qv; exact_mod_cast hp
  have hab : |Real.log (qv a)| ≤ 707 := abs_le.mpr ⟨h1, h2.trans (by norm_num)⟩
  obtain ⟨r, h, q⟩ := qln_any hP (qnorm_sz ha hpR) (by norm_num) hpR (by linarith) h1 h2
  refine ⟨r, h, q.mono ?_ ?_⟩
  · refine div_le_div_of_nonneg_right ?_ (by positivity)
    change _ ≤ 2 * |Real.log (qv a)| + 15
    linarith
  · change _ ≤ |Real.log (qv a)| + 3
    linarith

/-- **C74.** `ln` of a Quad, on any platform whose `f64` logarithms are reasonable (`LibmLogs`): for a positive number whose
logarithm is between -707 and 469, the Newton iteration ends, the result is finite and within `(2 |ln a| + 15) 2^-126` of `ln a`. -/
theorem C74_quad_ln (P : Platform) (hP : LibmLogs P) (a : Quad) (ha : a.Normalized) (hp : 0 < a.val)
    (h1 : -707 ≤ Real.log (a.val : ℝ)) (h2 : Real.log (a.val : ℝ) ≤ 469) :
    ∃ r, Quad.ln P a = some r ∧ r.Fin ∧
      |(r.val : ℝ) - Real.log (a.val : ℝ)| ≤ (2 * |Real.log (a.val : ℝ)| + 15) / 2 ^ 126 := by
  obtain ⟨r, h, h3⟩ := qln_qa hP ha hp h1 h2
  exact ⟨r, h, h3.fin, h3.err⟩

/-- **C75.** Everywhere but at its special operands Quad `powf` is `exp(n ln a)`. -/
theorem C75_quad_powf_def (P : Platform) (a n l : Quad) (ha : a.isZero = false) (hn : n.isInfinite = false)
    (hl : Quad.ln P a = some l) : Quad.powf P a n = Quad.exp (n * l) := by
  unfold Quad.powf Quad.prePowf
  simp [ha, hn, hl]

/-- **C75.** The special cases of Quad `powf`. -/
theorem C75_quad_powf_special (P : Platform) (a n : Quad) :
    (a.isZero = true → n.isZero = true → Quad.powf P a n = some Quad.NAN) ∧
    (a.isZero = true → n.isZero = false → n.isSignPositive = true → Quad.powf P a n = some Quad.ZERO) ∧
    (a.isZero = true → n.isZero = false → n.isSignPositive = false → Quad.powf P a n = some Quad.INFINITY) ∧
    (a.isZero = false → n.isInfinite = true → Quad.eq a Quad.ONE = true → Quad.powf P a n = some Quad.NAN) ∧
    (a.isZero = false → n.isInfinite = true → Quad.eq a Quad.ONE = false → n.isSignPositive = true →
      Quad.powf P a n = some Quad.INFINITY) ∧
    (a.isZero = false → n.isInfinite = true → Quad.eq a Quad.ONE = false → n.isSignPositive = false →
      Quad.powf P a n = some Quad.ZERO) := by
  refine ⟨?_, ?_, ?_, ?_, ?_, ?_⟩ <;> intros <;> unfold Quad.powf Quad.prePowf <;> simp [*]

example : Quad.NEG_ZERO.isZero = true ∧ Quad.NEG_INFINITY.isInfinite = true ∧ Quad.PI.isZero = false ∧
    Quad.eq Quad.PI Quad.ONE = false ∧ Quad.PI.isSignPositive = true := by decide +kernel

set_option maxHeartbeats 1000000 in
/-- **C75.** Quad `powf` of a positive base, on any platform whose `f64` logarithms are reasonable: with `W = n ln a` between
-469 and 707 and `|W| + 2 |n| ≤ 711` the result is finite and its relative error is at most `(4 |W| + 18 |n| + 9) 2^-126`. -/
theorem C75_quad_powf (P : Platform) (hP : LibmLogs P) (a n : Quad) (ha : a.Normalized) (hn : n.Normalized) (hp : 0 < a.val)
    (h1 : -707 ≤ Real.log (a.val : ℝ)) (h2 : Real.log (a.val : ℝ) ≤ 469)
    (hN : |(n.val : ℝ) * Real.log (a.val : ℝ)| + 2 * |(n.val : ℝ)| ≤ 711)
    (hw1 : -469 ≤ (n.val : ℝ) * Real.log (a.val : ℝ)) (hw2 : (n.val : ℝ) * Real.log (a.val : ℝ) ≤ 707) :
    ∃ r, Quad.powf P a n = some r ∧ r.Fin ∧
      |(r.val : ℝ) - (a.val : ℝ) ^ (n.val : ℝ)| ≤
        (4 * |(n.val : ℝ) * Real.log (a.val : ℝ)| + 18 * |(n.val : ℝ)| + 9) / 2 ^ 126 * (a.val : ℝ) ^ (n.val : ℝ) := by
  obtain ⟨l, hl, hA⟩ := qln_qa hP ha hp h1 h2
  have hpR : (0:ℝ) < (a.val : ℝ) := by exact_mod_cast hp
  have hz : a.isZero = false := by
    by_contra hc
    have hc : a.isZero = true := by simpa using hc
    rw [fsq_isZero ha.1.1] at hc
    have hpos := (qlog_c0 (qord_norm ha) (show 0 < qv a from hpR)).1
    rw [fr, hc] at hpos
    norm_num at hpos
  have hi : n.isInfinite = false := by
    obtain ⟨s, m, hm, e, eh⟩ := (Is.of_finite hn.1.1).exists
    unfold Quad.isInfinite
    rw [e]; rfl
  rw [C75_quad_powf_def P a n l hz hi hl]
  have hpow : (a.val : ℝ) ^ (n.val : ℝ) = Real.exp ((n.val : ℝ) * Real.log (a.val : ℝ)) := by
    rw [Real.rpow_def_of_pos hpR, mul_comm]
  rw [hpow]
  have hNx : QA n (n.val : ℝ) 0 (|(n.val : ℝ)| * (1 + 1 / 2 ^ 47) + 1 / 2 ^ 200) := by
    refine qa_of hn (show |qv n - qv n| ≤ 0 by simp) ?_
    rw [add_zero]
    have : (0:ℝ) ≤ 1 / 2 ^ 200 := by positivity
    linarith
  generalize (n.val : ℝ) = N at *
  generalize Real.log (a.val : ℝ) = L at *
  clear hpow hpR hz hi hp
  have hL : |L| ≤ 707 := abs_le.mpr ⟨h1, by linarith⟩
  have hWe : |N * L| = |N| * |L| := abs_mul N L
  have hN0 := abs_nonneg N
  have hL0 := abs_nonneg L
  have hNL0 : 0 ≤ |N| * |L| := by positivity
  have hNLb : |N| * |L| ≤ |N| * 707 := mul_le_mul_of_nonneg_left hL hN0
  -- the product
  obtain ⟨B, hB⟩ : ∃ B, B = |N * L| + 16 / 10 * |N| + 1 / 2 ^ 150 := ⟨_, rfl⟩
  obtain ⟨g, hg⟩ : ∃ g, g = (201 / 100 * |N * L| + 151 / 10 * |N| + 1 / 2 ^ 100) / 2 ^ 126 := ⟨_, rfl⟩
  have eXY : (|N| * (1 + 1 / 2 ^ 47) + 1 / 2 ^ 200) * (|L| + 3) =
      (|N| * |L| + 3 * |N|) * (1 + 1 / 2 ^ 47) + (|L| + 3) / 2 ^ 200 := by ring
  have ht : QA (n * l) (N * L) g (B * (1 + 1 / 2 ^ 47) - 1 / 2 ^ 151) := by
    refine hNx.mulW hA (by positivity) (by positivity) ?_ ?_ ?_ ?_ ?_
    · rw [eXY]
      have : (1:ℝ) ≤ 1 / 2 ^ 200 * (2 ^ 210 * 2 ^ 210 * (2 ^ 210 * 2 ^ 210)) := by norm_num
      refine this.trans (mul_le_mul_of_nonneg_right ?_ (by positivity))
      have : 0 ≤ (|N| * |L| + 3 * |N|) * (1 + 1 / 2 ^ 47) := by positivity
      norm_num at this ⊢; linarith
    · rw [eXY, ← hWe]
      refine le_trans (b := (2:ℝ) ^ 225) ?_ ?_
      · norm_num; linarith
      · norm_num
    · rw [eXY, ← hWe, hg]
      have e1 : |N| * ((2 * |L| + 15) / 2 ^ 126) = (2 * |N * L| + 15 * |N|) / 2 ^ 126 := by rw [hWe]; ring
      rw [e1, mul_zero, zero_mul, add_zero, add_zero]
      rw [hWe] at *
      generalize |N| * |L| = w at *
      norm_num; linarith
    · rw [eXY, ← hWe, hB]
      rw [← hWe] at hNL0
      norm_num; linarith
    · rw [eXY, ← hWe, hB, hg]
      rw [← hWe] at hNL0 hNLb
      generalize |N * L| = w at *
      norm_num at hNLb ⊢; linarith
  have hg0 := ht.nonneg
  have hgB : g ≤ 1 / 2 ^ 110 := by rw [hg]; norm_num; linarith [abs_nonneg (N * L)]
  have hta : |qv (n * l)| ≤ |N * L| + g := by
    have := abs_add_le (qv (n * l) - N * L) (N * L)
    rw [sub_add_cancel] at this; linarith [ht.err]
  have hWn := abs_nonneg (N * L)
  obtain ⟨B', hB'⟩ : ∃ B', B' = B + g := ⟨_, rfl⟩
  have hTB : |qv (n * l)| ≤ B' := by
    rw [hB', hB]
    have : (0:ℝ) ≤ 1 / 2 ^ 150 := by positivity
    linarith
  have hsz : SZ (n * l) (B' * (1 + 1 / 2 ^ 47)) := ht.sz.mono (by rw [hB']; norm_num; linarith)
  obtain ⟨-, hc0⟩ := sz_sub_c0 hsz
  have hB712 : B' ≤ 712 := by rw [hB', hB]; norm_num at hgB ⊢; linarith
  have hc := abs_le.mp hc0
  have hb := abs_le.mp ht.err
  have hf : |fr (n * l).c0| ≤ 715 := by
    have := abs_sub_abs_le_abs_sub (fr (n * l).c0) (qv (n * l))
    rw [abs_sub_comm (fr (n * l).c0)] at this
    norm_num at hc0
    linarith
  obtain ⟨r, X, hr, hrq, -⟩ := qexp_any hsz hTB hB712
    (by norm_num at hc hb hgB; linarith [hc.1, hc.2, hb.1, hb.2])
    (by norm_num at hc hb hgB; linarith [hc.1, hc.2, hb.1, hb.2])
  refine ⟨r, hr, hrq.fin, ?_⟩
  have hre := hrq.err
  change |qv r - Real.exp (N * L)| ≤ _
  have ht2 := ht.err
  clear hc hb hc0 hf hrq ht hsz hNx hA hl hr eXY
  generalize qv (n * l) = T at *
  have hE : Real.exp T = Real.exp (N * L) * Real.exp (T - N * L) := by rw [← Real.exp_add]; congr 1; ring
  generalize T - N * L = D at *
  generalize N * L = W at *
  have hD : |Real.exp D - 1| ≤ g * (1 + 1 / 2 ^ 100) := by
    have h3 := Real.abs_exp_sub_one_sub_id_le (x := D) (ht2.trans (hgB.trans (by norm_num)))
    have h4 := abs_add_le (Real.exp D - 1 - D) D
    rw [sub_add_cancel] at h4
    have h5 : D ^ 2 ≤ |D| * (1 / 2 ^ 100) := by
      rw [← sq_abs, pow_two]; exact mul_le_mul_of_nonneg_left (ht2.trans (hgB.trans (by norm_num))) (abs_nonneg _)
    have h7 : |Real.exp D - 1| ≤ |D| * (1 + 1 / 2 ^ 100) := by linarith
    exact h7.trans (mul_le_mul_of_nonneg_right ht2 (by norm_num))
  have hED : Real.exp D ≤ 1 + 1 / 2 ^ 100 := by
    have := (abs_le.mp hD).2
    norm_num at hgB this ⊢; linarith
  have h3 := abs_add_le (qv r - Real.exp T) (Real.exp T - Real.exp W)
  rw [sub_add_sub_cancel] at h3
  have h4 : |Real.exp T - Real.exp W| ≤ g * (1 + 1 / 2 ^ 100) * Real.exp W := by
    rw [hE, ← mul_sub_one, abs_mul, abs_of_pos (Real.exp_pos _), mul_comm]
    exact mul_le_mul_of_nonneg_right hD (Real.exp_pos _).le
  have hB0 : 0 ≤ B' := (abs_nonneg _).trans hTB
  have h5 : (B' + 8) / 2 ^ 126 * Real.exp T ≤ (B' + 8) / 2 ^ 126 * (1 + 1 / 2 ^ 100) * Real.exp W := by
    rw [hE]
    have h6 : (B' + 8) / 2 ^ 126 * (Real.exp W * Real.exp D) ≤ (B' + 8) / 2 ^ 126 * (Real.exp W * (1 + 1 / 2 ^ 100)) := by
      apply mul_le_mul_of_nonneg_left _ (by positivity)
      exact mul_le_mul_of_nonneg_left hED (Real.exp_pos _).le
    refine h6.trans (le_of_eq ?_)
    ring
  have h8 : g * (1 + 1 / 2 ^ 100) + (B' + 8) / 2 ^ 126 * (1 + 1 / 2 ^ 100) ≤ (4 * |W| + 18 * |N| + 9) / 2 ^ 126 := by
    rw [hB', hB]
    norm_num at hgB hg ⊢
    linarith
  have h9 := mul_le_mul_of_nonneg_right h8 (Real.exp_pos W).le
  rw [add_mul] at h9
  linarith

/-- A concrete case for `C74_quad_ln` and `C75_quad_powf`: base pi, exponent e, on the witness platform. -/
example : LibmLogs logPlatform ∧ Quad.PI.Normalized ∧ Quad.E.Normalized ∧ 0 < Quad.PI.val ∧
    -707 ≤ Real.log (Quad.PI.val : ℝ) ∧ Real.log (Quad.PI.val : ℝ) ≤ 469 ∧
    |(Quad.E.val : ℝ) * Real.log (Quad.PI.val : ℝ)| + 2 * |(Quad.E.val : ℝ)| ≤ 711 ∧
    -469 ≤ (Quad.E.val : ℝ) * Real.log (Quad.PI.val : ℝ) ∧ (Quad.E.val : ℝ) * Real.log (Quad.PI.val : ℝ) ≤ 707 := by
  have h : Quad.PI.Normalized ∧ Quad.E.Normalized ∧ mkRat 3 1 ≤ Quad.PI.val ∧ Quad.PI.val ≤ mkRat 4 1 ∧
    mkRat 2 1 ≤ Quad.E.val ∧ Quad.E.val ≤ mkRat 3 1 := by decide +kernel
  obtain ⟨n1, n2, p1, p2, e1, e2⟩ := h
  have p1' := (Rat.cast_le (K := ℝ)).mpr p1
  have p2' := (Rat.cast_le (K := ℝ)).mpr p2
  have e1' := (Rat.cast_le (K := ℝ)).mpr e1
  have e2' := (Rat.cast_le (K := ℝ)).mpr e2
  rw [Rat.mkRat_eq_div] at p1' p2' e1' e2'
  push_cast at p1' p2' e1' e2'
  have hpos : 0 < Quad.PI.val := lt_of_lt_of_le (by decide +kernel) p1
  generalize (Quad.PI.val : ℝ) = p at *
  generalize (Quad.E.val : ℝ) = e at *
  norm_num at p1' p2' e1' e2'
  have l1 : 0 ≤ Real.log p := Real.log_nonneg (by linarith)
  have l2 : Real.log p ≤ 3 := (Real.log_le_sub_one_of_pos (by linarith)).trans (by linarith)
  have h3 : 0 ≤ e * Real.log p := by positivity
  have h4 : e * Real.log p ≤ 3 * 3 := mul_le_mul e2' l2 l1 (by norm_num)
  refine ⟨logPlatform_ok, n1, n2, hpos, by linarith, by linarith, ?_, by linarith, by linarith⟩
  rw [abs_of_nonneg h3, abs_of_nonneg (by linarith : (0:ℝ) ≤ e)]
  linarith

end Verif
