import Verif.Props.QuadSinh
import Verif.Props.QuadIdentities

/-!
# C94: the hyperbolic identity on Quads
-/

namespace Verif

open F64 Prim Util

/-- Both results of `sinh_cosh`, whatever branch the code takes. -/
theorem qsinh_cosh_qa {P : Platform} (hT : FloatText P.toStr) {n : ℕ} (hn : 20 ≤ n) {a : Quad} (ha : a.Normalized)
    (lo : 1 ≤ |qv a| * (2 ^ 190 * 2 ^ 190 * 2 ^ 190)) (h : |qv a| ≤ 469) :
    ∃ s c, Quad.sinhCosh P n a = some (s, c) ∧
      QA s (Real.sinh (qv a)) ((|qv a| + 11) / 2 ^ 126 * Real.cosh (qv a)) (27 / 10 * Real.cosh (qv a)) ∧
      QA c (Real.cosh (qv a)) ((|qv a| + 11) / 2 ^ 126 * Real.cosh (qv a)) (27 / 10 * Real.cosh (qv a)) := by
  obtain ⟨cz, cn, ci⟩ := qzero_class ha
  have hb0 := abs_nonneg (qv a)
  have C1 := Real.one_le_cosh (qv a)
  have cn' : ¬ a.isNan = true := by rw [cn]; simp
  have hz : ¬ a.isZero = true := by
    rw [cz]; intro hc; rw [hc, abs_zero, zero_mul] at lo; norm_num at lo
  by_cases hg : F64.gt a.abs.c0 Double.f005 = true
  · have hle : ¬ F64.le a.abs.c0 Double.f005 = true := by
      have ia := Is.of_finite (C41_quad_abs_val a ha).1.1.1
      have ib := Is.of_finite f005_bd.1
      unfold F64.gt at hg
      rw [ib.lt_iff ia] at hg
      rw [ia.le_iff ib, not_le]; exact hg
    unfold Quad.sinhCosh Quad.preSinhCosh
    simp only [if_neg cn', if_neg hz, if_neg hle]
    obtain ⟨e, he, h1, h2⟩ := qexp_comb ha h
    rw [he]
    have h4 := qhalf_comb h1 C1 (cosh_le_big (by linarith))
    rw [show 2 * Real.cosh (qv a) / 2 = Real.cosh (qv a) by ring] at h4
    have h5 := qhalf_comb h2 C1 (cosh_le_big (by linarith))
    rw [show 2 * Real.sinh (qv a) / 2 = Real.sinh (qv a) by ring] at h5
    exact ⟨_, _, rfl, h5, h4⟩
  · obtain ⟨s, e1, q⟩ := qsinh_series P hn ha hg lo
    have hx := qle_f005 ha hg
    obtain ⟨c, e2, k⟩ := qcosh_series hT hx q
    have hle : F64.le a.abs.c0 Double.f005 = true := by
      have ia := Is.of_finite (C41_quad_abs_val a ha).1.1.1
      have ib := Is.of_finite f005_bd.1
      unfold F64.gt at hg
      rw [ib.lt_iff ia, not_lt] at hg
      rw [ia.le_iff ib]; exact hg
    have hε : (11:ℝ) / 2 ^ 126 ≤ (|qv a| + 11) / 2 ^ 126 := by norm_num; linarith
    have hE := mul_le_mul_of_nonneg_right hε (show 0 ≤ Real.cosh (qv a) by linarith)
    refine ⟨s, c, ?_, q.mono ?_ ?_, k.mono ?_ ?_⟩
    · unfold Quad.sinhCosh Quad.preSinhCosh
      rw [if_neg cn', if_neg hz]
      dsimp only
      rw [if_pos hle, e1]
      simp only [Option.bind_some, e2, Option.map_some]
    · refine le_trans ?_ hE
      norm_num at hx ⊢; linarith
    · linarith
    · refine le_trans ?_ hE
      norm_num; linarith
    · linarith

/-- **C94.** `cosh² - sinh² = 1` on Quads: computed from the results of `sinh_cosh`, for `2^-560 ≤ |a| ≤ 230`, within
`(4 |a| + 46) / 2^126` of the larger square. -/
theorem C94_quad_sinh_cosh (P : Platform) (hT : FloatText P.toStr) (n : ℕ) (hn : 20 ≤ n) (a : Quad) (ha : a.Normalized)
    (h1 : 1 ≤ |a.val| * 2 ^ 560) (h2 : |(a.val : ℝ)| ≤ 230) :
    ∃ s c, Quad.sinhCosh P n a = some (s, c) ∧ (c * c - s * s).Fin ∧
      |((c * c - s * s).val : ℝ) - 1| ≤ (4 * |(a.val : ℝ)| + 46) / 2 ^ 126 * Real.cosh (a.val : ℝ) ^ 2 := by
  have lo := low_560 h1
  clear h1
  change |qv a| ≤ 230 at h2
  obtain ⟨s, c, e, hs, hc⟩ := qsinh_cosh_qa hT hn ha lo (h2.trans (by norm_num))
  refine ⟨s, c, e, ?_⟩
  change _ ∧ |qv (c * c - s * s) - 1| ≤ (4 * |qv a| + 46) / 2 ^ 126 * Real.cosh (qv a) ^ 2
  clear lo
  have b0 := abs_nonneg (qv a)
  have C1 := Real.one_le_cosh (qv a)
  have C2 : Real.cosh (qv a) ≤ 2 ^ 200 * 2 ^ 200 := by
    obtain ⟨p, q⟩ := abs_le.mp h2
    have u := (exp_250 (x := qv a) (h2.trans (by norm_num))).1
    have v := (exp_250 (x := -qv a) (by rw [abs_neg]; exact h2.trans (by norm_num))).1
    rw [Real.cosh_eq]
    linarith
  have S1 : |Real.sinh (qv a)| ≤ Real.cosh (qv a) := by
    rw [abs_le]; constructor <;> linarith [Real.sinh_lt_cosh (qv a), Real.sinh_lt_cosh (-qv a), Real.sinh_neg (qv a), Real.cosh_neg (qv a)]
  have sc : Real.cosh (qv a) * Real.cosh (qv a) - Real.sinh (qv a) * Real.sinh (qv a) = 1 := by
    have := Real.cosh_sq (qv a)
    rw [sq, sq] at this; linarith
  generalize Real.cosh (qv a) = C at *
  generalize Real.sinh (qv a) = S at *
  generalize |qv a| = β at *
  obtain ⟨T, hT'⟩ : ∃ T, C * C = T := ⟨_, rfl⟩
  have T1 : 1 ≤ T := by rw [← hT']; nlinarith
  have T2 : T ≤ 2 ^ 200 * 2 ^ 200 * (2 ^ 200 * 2 ^ 200) := by rw [← hT']; exact mul_le_mul C2 C2 (by linarith) (by positivity)
  obtain ⟨ε, hε⟩ : ∃ ε, (β + 11) / 2 ^ 126 = ε := ⟨_, rfl⟩
  rw [hε] at hs hc
  have E0 : 11 / 2 ^ 126 ≤ ε := by rw [← hε]; norm_num; linarith
  have E1 : ε ≤ 1 / 2 ^ 110 := by rw [← hε]; norm_num; linarith
  have E2 : ε * ε ≤ ε * (1 / 2 ^ 110) := mul_le_mul_of_nonneg_left E1 (le_trans (by positivity) E0)
  have big : 27 / 10 * C * (27 / 10 * C) ≤ 2 ^ 225 * 2 ^ 225 * 2 ^ 225 * 2 ^ 225 := by
    rw [show 27 / 10 * C * (27 / 10 * C) = 729 / 100 * T by rw [← hT']; ring]
    calc 729 / 100 * T ≤ 729 / 100 * (2 ^ 200 * 2 ^ 200 * (2 ^ 200 * 2 ^ 200)) := mul_le_mul_of_nonneg_left T2 (by norm_num)
      _ ≤ _ := by norm_num
  have lX : 1 ≤ 27 / 10 * C * (2 ^ 210 * 2 ^ 210) := by norm_num; linarith
  have SS : |S * S| ≤ T := by
    rw [abs_mul, ← hT']; exact mul_le_mul S1 S1 (abs_nonneg _) (by linarith)
  have CC : |C * C| ≤ T := by rw [hT', abs_of_pos (by linarith)]
  have gg : ∀ {x : ℝ}, |x| ≤ C → |x| * (ε * C) + |x| * (ε * C) + ε * C * (ε * C) + 27 / 10 * C * (27 / 10 * C) / 2 ^ 139 ≤
      T * (2 * ε + 1 / 100 / 2 ^ 126) := by
    intro x hx
    have ec : 0 ≤ ε * C := mul_nonneg (le_trans (by positivity) E0) (by linarith)
    have m := mul_le_mul_of_nonneg_right hx ec
    have e1 : C * (ε * C) = T * ε := by rw [← hT']; ring
    have e2 : ε * C * (ε * C) = T * (ε * ε) := by rw [← hT']; ring
    have e3 : 27 / 10 * C * (27 / 10 * C) / 2 ^ 139 = T * (729 / 100 / 2 ^ 139) := by rw [← hT']; ring
    rw [e2, e3]
    rw [e1] at m
    have k : T * (2 * ε + ε * ε + 729 / 100 / 2 ^ 139) ≤ T * (2 * ε + 1 / 100 / 2 ^ 126) :=
      mul_le_mul_of_nonneg_left (by
        have E3 : ε * (1 / 2 ^ 110) ≤ 1 / 2 ^ 110 * (1 / 2 ^ 110) := mul_le_mul_of_nonneg_right E1 (by positivity)
        norm_num at E2 E3 ⊢; linarith) (by linarith)
    have r : T * (2 * ε + ε * ε + 729 / 100 / 2 ^ 139) = T * ε + T * ε + T * (ε * ε) + T * (729 / 100 / 2 ^ 139) := by ring
    linarith
  have W1 : 51 / 100 * (27 / 10 * C * (27 / 10 * C)) ≤ 38 / 10 * T := by
    rw [show 51 / 100 * (27 / 10 * C * (27 / 10 * C)) = 51 / 100 * (729 / 100) * T by rw [← hT']; ring]
    exact mul_le_mul_of_nonneg_right (by norm_num) (by linarith)
  have V1 : ∀ {z : ℝ}, |z| ≤ T → |z| + T * (2 * ε + 1 / 100 / 2 ^ 126) + 27 / 10 * C * (27 / 10 * C) / 2 ^ 138 ≤ 38 / 10 * T * (1 - 1 / 2 ^ 40) := by
    intro z hz
    have e3 : 27 / 10 * C * (27 / 10 * C) / 2 ^ 138 = T * (729 / 100 / 2 ^ 138) := by rw [← hT']; ring
    have k : T * (1 + (2 * ε + 1 / 100 / 2 ^ 126) + 729 / 100 / 2 ^ 138) ≤ T * (38 / 10 * (1 - 1 / 2 ^ 40)) :=
      mul_le_mul_of_nonneg_left (by norm_num at E1 ⊢; linarith) (by linarith)
    rw [e3]
    linarith
  have qc := hc.mul hc lX lX big (g := T * (2 * ε + 1 / 100 / 2 ^ 126)) (W := 38 / 10 * T)
    (gg (by rw [abs_of_pos (by linarith)])) W1 (V1 CC)
  have qs := hs.mul hs lX lX big (g := T * (2 * ε + 1 / 100 / 2 ^ 126)) (W := 38 / 10 * T) (gg S1) W1 (V1 SS)
  have q := qc.sub qs (Z := 38 / 10 * T) (g := T * (4 * ε + 2 / 2 ^ 126)) (W := 2 * T) le_rfl le_rfl
    (by
      calc 38 / 10 * T ≤ 38 / 10 * (2 ^ 200 * 2 ^ 200 * (2 ^ 200 * 2 ^ 200)) := mul_le_mul_of_nonneg_left T2 (by norm_num)
        _ ≤ _ := by norm_num)
    (by
      clear big lX W1 V1 gg T2
      have r : T * (2 * ε + 1 / 100 / 2 ^ 126) + T * (2 * ε + 1 / 100 / 2 ^ 126) + 38 / 10 * T / 2 ^ 128 =
        T * (4 * ε + (2 / 100 / 2 ^ 126 + 38 / 10 / 2 ^ 128)) := by ring
      rw [r]
      exact mul_le_mul_of_nonneg_left (by norm_num) (by linarith))
    (by linarith)
    (by
      clear big lX W1 V1 gg T2
      rw [sc, abs_one]
      have k : T * (1 + (4 * ε + 2 / 2 ^ 126) + 38 / 10 / 2 ^ 138) ≤ T * (2 * (1 - 1 / 2 ^ 40)) :=
        mul_le_mul_of_nonneg_left (by norm_num at E1 ⊢; linarith) (by linarith)
      have r : T * (1 + (4 * ε + 2 / 2 ^ 126) + 38 / 10 / 2 ^ 138) = T + T * (4 * ε + 2 / 2 ^ 126) + 38 / 10 * T / 2 ^ 138 := by ring
      linarith)
  rw [sc] at q
  refine ⟨q.fin, q.err.trans (le_of_eq ?_)⟩
  rw [sq, hT', ← hε]
  ring

example (P : Platform) (hT : FloatText P.toStr) : ∃ s c, Quad.sinhCosh P 20 Quad.PI = some (s, c) ∧ (c * c - s * s).Fin := by
  have h : |(Quad.PI.val : ℝ)| ≤ 230 := by
    have h := (Rat.cast_le (K := ℝ)).mpr (show |Quad.PI.val| ≤ 230 by decide +kernel)
    push_cast at h
    exact h
  obtain ⟨s, c, e, f, -⟩ := C94_quad_sinh_cosh P hT 20 le_rfl Quad.PI (by decide +kernel) (by decide +kernel) h
  exact ⟨s, c, e, f⟩

end Verif
