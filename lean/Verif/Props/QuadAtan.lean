import Verif.Proofs.QuadAtan2Step
import Verif.Proofs.QuadSqrtSlack
import Verif.Props.QuadFuncSpecial
import Verif.Props.QuadHyper

/-!
# C85: the accuracy of `atan2`, `atan`, `asin` and `acos` of Quads
-/

namespace Verif

open F64 Prim Util Quad

theorem sign_pos_f64 {x : F64} (hx : x.isFinite = true) (h : fr x ≠ 0) : x.isSignPositive = true ↔ 0 < fr x := by
  have i := Is.of_finite hx
  obtain ⟨s, m, hm, rfl, e⟩ := i.exists
  have hp := one'_posR
  have hv : fr (.fin s m hm) = ((if s then -(m:ℤ) else m : ℤ) : ℝ) / ((one' : ℚ) : ℝ) := by
    unfold fr; rw [i.toRat, e]; cases s <;> push_cast <;> simp
  rw [hv] at h ⊢
  cases s with
  | false =>
    have hm0 : (m:ℝ) ≠ 0 := by
      intro hc; apply h; simp [hc]
    have : (0:ℝ) < m := lt_of_le_of_ne (Nat.cast_nonneg _) (Ne.symm hm0)
    have h2 : (0:ℝ) < ((if false then -(m:ℤ) else m : ℤ) : ℝ) / ((one' : ℚ) : ℝ) := div_pos (by simpa using this) hp
    exact ⟨fun _ => h2, fun _ => rfl⟩
  | true =>
    constructor
    · intro hc; cases hc
    · intro hc
      have : ((if true then -(m:ℤ) else m : ℤ) : ℝ) / ((one' : ℚ) : ℝ) ≤ 0 := div_nonpos_of_nonpos_of_nonneg (by simp) hp.le
      exact absurd hc (not_lt.mpr this)

theorem QCo.head_sign {a : Quad} {R : ℝ} (h : QCo a R) : 0 < fr a.c0 * qv a := by
  obtain ⟨-, e⟩ := h.head
  have h0 := h.pos
  have h4 := abs_le.mp e
  rcases lt_or_gt_of_ne h.ne with h5 | h5
  · rw [abs_of_neg h5] at h4; norm_num at h4; exact mul_pos_of_neg_of_neg (by linarith [h4.2]) h5
  · rw [abs_of_pos h5] at h4; norm_num at h4; exact mul_pos (by linarith [h4.1]) h5

/-- How the special cases see a coordinate. -/
theorem QCo.class {a : Quad} {R : ℝ} (h : QCo a R) : a.isZero = false ∧ a.isInfinite = false ∧ a.isNan = false ∧
    (a.isSignPositive = true ↔ 0 < qv a) := by
  have hs := h.head_sign
  have f := h.head.1
  have f0 : fr a.c0 ≠ 0 := by intro hc; rw [hc, zero_mul] at hs; exact lt_irrefl _ hs
  have i := Is.of_finite f
  refine ⟨?_, i.not_inf, i.not_nan, ?_⟩
  · by_contra hc
    have hc : a.isZero = true := by simpa using hc
    rw [fsq_isZero f] at hc
    apply f0; unfold fr; rw [hc]; simp
  · unfold Quad.isSignPositive
    rw [sign_pos_f64 f f0]
    constructor
    · intro h1; exact (pos_iff_pos_of_mul_pos hs).mp h1
    · intro h1; exact (pos_iff_pos_of_mul_pos hs).mpr h1

theorem quad_eq_qv {a b : Quad} (ha : a.Fin) (hb : b.Fin) (h : Quad.eq a b = true) : qv a = qv b := by
  unfold Quad.eq at h
  simp only [Bool.and_eq_true] at h
  obtain ⟨⟨⟨h0, h1⟩, h2⟩, h3⟩ := h
  rw [(Is.of_finite ha.1).eq_iff (Is.of_finite hb.1)] at h0
  rw [(Is.of_finite ha.2.1).eq_iff (Is.of_finite hb.2.1)] at h1
  rw [(Is.of_finite ha.2.2.1).eq_iff (Is.of_finite hb.2.2.1)] at h2
  rw [(Is.of_finite ha.2.2.2).eq_iff (Is.of_finite hb.2.2.2)] at h3
  rw [qv_UQ ha, qv_UQ hb]
  unfold UQ U
  rw [h0, h1, h2, h3]

theorem qa_PI : QA Quad.PI Real.pi (1 / 2 ^ 200) (33 / 10) :=
  (qa_near Real.pi_pos (C48_quad_normalized _ (by simp)) C48_quad_values.1 (X := 33 / 10) (by have := pi_bds.2; norm_num at *; linarith)).1.mono
    (by have := pi_bds.2; norm_num at *; linarith) le_rfl

theorem qa_PI2 : QA Quad.FRAC_PI_2 (Real.pi / 2) (1 / 2 ^ 200) (33 / 10) :=
  qa_PI_2.1.mono (by have := pi_bds.2; norm_num at *; linarith) (by norm_num)

theorem qa_PI_4 : QA Quad.FRAC_PI_4 (Real.pi / 4) (1 / 2 ^ 200) (33 / 10) :=
  (qa_near (by positivity) (C48_quad_normalized _ (by simp)) C48_quad_values.2.2.2.2.1 (X := 33 / 10) (by have := pi_bds.2; norm_num at *; linarith)).1.mono
    (by have := pi_bds.2; norm_num at *; linarith) le_rfl

theorem qa_3PI_4 : QA Quad.FRAC_3_PI_4 (3 * Real.pi / 4) (1 / 2 ^ 200) (33 / 10) :=
  (qa_near (by positivity) (C48_quad_normalized _ (by simp)) C48_quad_values.2.2.2.2.2.2.2.2.2.1 (X := 33 / 10) (by have := pi_bds.2; norm_num at *; linarith)).1.mono
    (by have := pi_bds.2; norm_num at *; linarith) le_rfl

/-- `atan2` of two nonzero coordinates. -/
theorem qatan2_co (P : Platform) (hT : FloatText P.toStr) (hA2 : LibmAtan2 P) {a b : Quad} {R : ℝ} (hR : R = hyp (qv a) (qv b))
    (ha : QCo a R) (hb : QCo b R) :
    ∃ r, Quad.atan2 P a b = some r ∧
      QA r (angle (qv a) (qv b)) (35 / 2 / 2 ^ 126) (33 / 10) ∧
      (|angle (qv a) (qv b)| ≤ 97 / 100000 → SZ a (|qv a| * (102 / 100)) →
        QA r (angle (qv a) (qv b)) (|angle (qv a) (qv b)| * (5 / 2 ^ 126)) (|angle (qv a) (qv b)| * (1025 / 1000))) := by
  obtain ⟨a1, a2, a3, a4⟩ := ha.class
  obtain ⟨b1, b2, b3, b4⟩ := hb.class
  have pp := pi_bds.1
  have fin : ∀ {r : Quad} {θ : ℝ}, Quad.preAtan2 a b = some r → angle (qv a) (qv b) = θ → QA r θ (1 / 2 ^ 200) (33 / 10) →
      1 / 2 ≤ |θ| → ∃ r, Quad.atan2 P a b = some r ∧
      QA r (angle (qv a) (qv b)) (35 / 2 / 2 ^ 126) (33 / 10) ∧
      (|angle (qv a) (qv b)| ≤ 97 / 100000 → SZ a (|qv a| * (102 / 100)) →
        QA r (angle (qv a) (qv b)) (|angle (qv a) (qv b)| * (5 / 2 ^ 126)) (|angle (qv a) (qv b)| * (1025 / 1000))) := by
    intro r θ h1 h2 h3 h4
    rw [h2]
    refine ⟨r, by unfold Quad.atan2; rw [h1], h3.mono (by norm_num) le_rfl, ?_⟩
    intro h5; exfalso; linarith
  have pre1 : Quad.preAtan2 a b = if Quad.eq a b then
      (if a.isSignPositive then some Quad.FRAC_PI_4 else some (-Quad.FRAC_3_PI_4))
      else if Quad.eq a (-b) then (if a.isSignPositive then some Quad.FRAC_3_PI_4 else some (-Quad.FRAC_PI_4)) else none := by
    unfold Quad.preAtan2
    rw [if_neg (by rw [b1]; simp), if_neg (by rw [a1]; simp), if_neg (by rw [a2]; simp),
      if_neg (by rw [b2]; simp), if_neg (by rw [a3, b3]; simp)]
  have hd := angle_diag (t := qv a)
  have sgn : qv a < 0 → ¬ a.isSignPositive = true := by intro h hc; have := a4.mp hc; linarith
  by_cases q1 : Quad.eq a b = true
  · have e := quad_eq_qv ha.sz.fin hb.sz.fin q1
    rcases lt_or_gt_of_ne ha.ne with h | h
    · refine fin (r := -Quad.FRAC_3_PI_4) (θ := -(3 * Real.pi / 4)) ?_ ?_ qa_3PI_4.neg ?_
      · rw [pre1, if_pos q1, if_neg (sgn h)]
      · rw [← e]; exact (hd.2 h).1
      · rw [abs_neg, abs_of_pos (by positivity)]; norm_num at pp; linarith
    · refine fin (r := Quad.FRAC_PI_4) (θ := Real.pi / 4) ?_ ?_ qa_PI_4 ?_
      · rw [pre1, if_pos q1, if_pos (a4.mpr h)]
      · rw [← e]; exact (hd.1 h).1
      · rw [abs_of_pos (by positivity)]; norm_num at pp; linarith
  by_cases q2 : Quad.eq a (-b) = true
  · have hnb := (QA.mk hb.sz (show |qv b - qv b| ≤ 0 by simp)).neg
    have e := quad_eq_qv ha.sz.fin hnb.fin q2
    have e2 : qv (-b) = - qv b := by
      have := hnb.err
      have := abs_nonpos_iff.mp this
      linarith
    have hb' : qv b = - qv a := by rw [e, e2]; ring
    rcases lt_or_gt_of_ne ha.ne with h | h
    · refine fin (r := -Quad.FRAC_PI_4) (θ := -(Real.pi / 4)) ?_ ?_ qa_PI_4.neg ?_
      · rw [pre1, if_neg q1, if_pos q2, if_neg (sgn h)]
      · rw [hb']; exact (hd.2 h).2
      · rw [abs_neg, abs_of_pos (by positivity)]; norm_num at pp; linarith
    · refine fin (r := Quad.FRAC_3_PI_4) (θ := 3 * Real.pi / 4) ?_ ?_ qa_3PI_4 ?_
      · rw [pre1, if_neg q1, if_pos q2, if_pos (a4.mpr h)]
      · rw [hb']; exact (hd.1 h).2
      · rw [abs_of_pos (by positivity)]; norm_num at pp; linarith
  exact qatan2_core P hT hA2 hR ha hb (by rw [pre1, if_neg q1, if_neg q2])

/-- `atan2` of a zero and a positive number, and of a nonzero number and a zero. -/
theorem qatan2_axis (P : Platform) {a b : Quad} :
    (b.isZero = false → a.isZero = true → b.isSignPositive = true → Quad.atan2 P a b = some Quad.ZERO) ∧
    (b.isZero = false → a.isZero = true → b.isSignPositive = false → Quad.atan2 P a b = some Quad.PI) ∧
    (b.isZero = true → a.isZero = false → a.isSignPositive = true → Quad.atan2 P a b = some Quad.FRAC_PI_2) ∧
    (b.isZero = true → a.isZero = false → a.isSignPositive = false → Quad.atan2 P a b = some (-Quad.FRAC_PI_2)) := by
  refine ⟨?_, ?_, ?_, ?_⟩ <;> intro h1 h2 h3 <;> unfold Quad.atan2 Quad.preAtan2 <;> simp [h1, h2, h3]

theorem qco_norm {a : Quad} {R : ℝ} (ha : a.Normalized) (hR : |qv a| ≤ R) (h1 : 1 ≤ |qv a| * 2 ^ 150) (h2 : |qv a| ≤ 2 ^ 150) : QCo a R := by
  have s := (qord_norm ha).exact.sz
  have h0 := abs_nonneg (qv a)
  refine ⟨s.mono ?_, s.mono ?_, h1, h2⟩ <;> clear h1 h2 <;> norm_num <;> linarith

theorem qsign_norm {a : Quad} (ha : a.Normalized) (h : qv a ≠ 0) : a.isSignPositive = true ↔ 0 < qv a := by
  obtain ⟨k1, k2, k3⟩ := quad_sign_head a ha
  have hz : a.val ≠ 0 := by unfold qv at h; exact_mod_cast h
  have hf : fr a.c0 ≠ 0 := by
    unfold fr; rw [Ne, Rat.cast_eq_zero]; exact fun hc => hz (k3.mpr hc)
  unfold Quad.isSignPositive
  rw [sign_pos_f64 ha.1.1 hf]
  unfold fr qv
  rw [Rat.cast_pos, Rat.cast_pos, k1]

/-- Zero, or a magnitude between `2^-150` and `2^150`. -/
def QMid (x : ℝ) : Prop := x = 0 ∨ (1 ≤ |x| * 2 ^ 150 ∧ |x| ≤ 2 ^ 150)

theorem qmid_of {d : Quad} (h : d.val = 0 ∨ (1 ≤ |d.val| * 2 ^ 150 ∧ |d.val| ≤ 2 ^ 150)) : QMid (qv d) := by
  rcases h with h | ⟨h1, h2⟩
  · left; unfold qv; rw [h]; simp
  · right
    constructor
    · unfold qv; exact_mod_cast h1
    · unfold qv; exact_mod_cast h2

/-- **All cases of `atan2`.** -/
theorem qatan2_all (P : Platform) (hT : FloatText P.toStr) (hA2 : LibmAtan2 P) {a b : Quad} (ha : a.Normalized)
    (hb : b.Normalized) (hA : QMid (qv a)) (hB : QMid (qv b)) (h0 : qv a ≠ 0 ∨ qv b ≠ 0) :
    ∃ r, Quad.atan2 P a b = some r ∧
      QA r (angle (qv a) (qv b)) (35 / 2 / 2 ^ 126) (33 / 10) ∧
      (|angle (qv a) (qv b)| ≤ 97 / 100000 →
        |qv r - angle (qv a) (qv b)| ≤ |angle (qv a) (qv b)| * (5 / 2 ^ 126)) := by
  have pp := pi_bds.1
  have p0 := Real.pi_pos
  obtain ⟨za, -⟩ := qzero_class ha
  obtain ⟨zb, -⟩ := qzero_class hb
  obtain ⟨x1, x2, x3, x4⟩ := qatan2_axis P (a := a) (b := b)
  have fin : ∀ {r : Quad} {θ : ℝ}, Quad.atan2 P a b = some r → angle (qv a) (qv b) = θ → QA r θ (1 / 2 ^ 200) (33 / 10) →
      1 / 2 ≤ |θ| → ∃ r, Quad.atan2 P a b = some r ∧
      QA r (angle (qv a) (qv b)) (35 / 2 / 2 ^ 126) (33 / 10) ∧
      (|angle (qv a) (qv b)| ≤ 97 / 100000 →
        |qv r - angle (qv a) (qv b)| ≤ |angle (qv a) (qv b)| * (5 / 2 ^ 126)) := by
    intro r θ h1 h2 h3 h4
    rw [h2]
    refine ⟨r, h1, h3.mono (by norm_num) le_rfl, ?_⟩
    intro h5; exfalso; linarith
  have fls : ∀ {q : Quad}, q.Normalized → qv q ≠ 0 → q.isZero = false := by
    intro q hq h
    by_contra hc
    exact h ((qzero_class hq).1.mp (by simpa using hc))
  have sgn : ∀ {q : Quad}, q.Normalized → qv q < 0 → q.isSignPositive = false := by
    intro q hq h
    by_contra hc
    have := (qsign_norm hq h.ne).mp (by simpa using hc)
    linarith
  by_cases hb0 : qv b = 0
  · have ha0 : qv a ≠ 0 := h0.resolve_right (fun h => h hb0)
    rcases lt_or_gt_of_ne ha0 with h | h
    · refine fin (x4 (zb.mpr hb0) (fls ha ha0) (sgn ha h)) (θ := -(Real.pi / 2)) ?_ qa_PI2.neg ?_
      · refine angle_eq (r := -qv a) (by linarith) (by linarith) (by linarith) ?_ ?_ <;> simp [hb0]
      · rw [abs_neg, abs_of_pos (by positivity)]; norm_num at pp; linarith
    · refine fin (x3 (zb.mpr hb0) (fls ha ha0) ((qsign_norm ha ha0).mpr h)) (θ := Real.pi / 2) ?_ qa_PI2 ?_
      · refine angle_eq (r := qv a) h (by linarith) (by linarith) ?_ ?_ <;> simp [hb0]
      · rw [abs_of_pos (by positivity)]; norm_num at pp; linarith
  by_cases ha0 : qv a = 0
  · rcases lt_or_gt_of_ne hb0 with h | h
    · refine fin (x2 (fls hb hb0) (za.mpr ha0) (sgn hb h)) (θ := Real.pi) ?_ qa_PI ?_
      · refine angle_eq (r := -qv b) (by linarith) (by linarith) (by linarith) ?_ ?_ <;> simp [ha0]
      · rw [abs_of_pos (by positivity)]; norm_num at pp; linarith
    · refine ⟨_, x1 (fls hb hb0) (za.mpr ha0) ((qsign_norm hb hb0).mpr h), ?_⟩
      have e : angle (qv a) (qv b) = 0 :=
        angle_eq (r := qv b) h (by linarith) (by linarith) (by simp [ha0]) (by simp)
      rw [e]
      refine ⟨⟨sz_zero (by norm_num), ?_⟩, fun _ => ?_⟩
      · rw [qv_ZERO]; norm_num
      · rw [qv_ZERO]; norm_num
  obtain ⟨a1, a2⟩ := hA.resolve_left ha0
  obtain ⟨b1, b2⟩ := hB.resolve_left hb0
  have gl := le_hyp (qv a) (qv b)
  obtain ⟨r, r1, r2, r3⟩ := qatan2_co P hT hA2 rfl (qco_norm ha gl.1 a1 a2) (qco_norm hb gl.2 b1 b2)
  refine ⟨r, r1, r2, fun h => (r3 h ((qord_norm ha).exact.sz.mono ?_)).err⟩
  have := abs_nonneg (qv a)
  clear a1 a2
  norm_num; linarith

/-- **C85.** `atan2(y, x)` for normalized Quads, each zero or between `2^-150` and `2^150` in magnitude and not both zero, is
within `18 * 2^-126` of the angle of the point, which is the argument of the complex number `x + iy` in `(-π, π]`. -/
theorem C85_quad_atan2 (P : Platform) (hT : FloatText P.toStr) (hA2 : LibmAtan2 P) (y x : Quad) (hy : y.Normalized) (hx : x.Normalized)
    (h1 : y.val = 0 ∨ (1 ≤ |y.val| * 2 ^ 150 ∧ |y.val| ≤ 2 ^ 150)) (h2 : x.val = 0 ∨ (1 ≤ |x.val| * 2 ^ 150 ∧ |x.val| ≤ 2 ^ 150))
    (h3 : y.val ≠ 0 ∨ x.val ≠ 0) :
    ∃ r, Quad.atan2 P y x = some r ∧ r.Fin ∧
      |(r.val : ℝ) - Complex.arg ⟨(x.val : ℝ), (y.val : ℝ)⟩| ≤ 18 / 2 ^ 126 ∧
      (|Complex.arg ⟨(x.val : ℝ), (y.val : ℝ)⟩| ≤ 97 / 100000 →
        |(r.val : ℝ) - Complex.arg ⟨(x.val : ℝ), (y.val : ℝ)⟩| ≤ |Complex.arg ⟨(x.val : ℝ), (y.val : ℝ)⟩| * (5 / 2 ^ 126)) := by
  obtain ⟨r, r1, r2, r3⟩ := qatan2_all P hT hA2 hy hx (qmid_of h1) (qmid_of h2) (by
    rcases h3 with h | h
    · left; unfold qv; exact_mod_cast h
    · right; unfold qv; exact_mod_cast h)
  exact ⟨r, r1, r2.fin, r2.err.trans (by norm_num), r3⟩

/-- **C85.** `atan` of a Quad is within `18 * 2^-126` of the real arc tangent; near zero its relative error is at most `5 * 2^-126`. -/
theorem C85_quad_atan (P : Platform) (hT : FloatText P.toStr) (hA2 : LibmAtan2 P) (a : Quad) (ha : a.Normalized)
    (h1 : a.val = 0 ∨ (1 ≤ |a.val| * 2 ^ 150 ∧ |a.val| ≤ 2 ^ 150)) :
    ∃ r, Quad.atan P a = some r ∧ r.Fin ∧
      |(r.val : ℝ) - Real.arctan (a.val : ℝ)| ≤ 18 / 2 ^ 126 ∧
      (|Real.arctan (a.val : ℝ)| ≤ 97 / 100000 →
        |(r.val : ℝ) - Real.arctan (a.val : ℝ)| ≤ |Real.arctan (a.val : ℝ)| * (5 / 2 ^ 126)) := by
  have one : qv Quad.ONE = 1 := by
    have : Quad.ONE.val = 1 := by decide +kernel
    unfold qv; rw [this]; norm_num
  have h := qatan2_all P hT hA2 ha (b := Quad.ONE) (by decide +kernel) (qmid_of h1) (by
    right; rw [one]; constructor <;> norm_num) (Or.inr (by rw [one]; norm_num))
  rw [one, angle_one] at h
  obtain ⟨r, r1, r2, r3⟩ := h
  exact ⟨r, r1, r2.fin, r2.err.trans (by norm_num), r3⟩

end Verif
