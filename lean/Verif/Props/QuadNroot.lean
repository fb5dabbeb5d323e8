import Verif.Proofs.QuadNroot
import Verif.Props.Nroot

/-!
# C89: accuracy of `nroot` and `cbrt` for Quads

The root is given by its defining property: `R` has the sign of the argument and its `n`-th power is the argument.
-/

namespace Verif

/-- Three steps reach the rounding error. -/
theorem newton_three {N d0 d1 d2 d3 : ℝ} (hN : 1 ≤ N) (hN2 : N ≤ 2 ^ 31) (h0 : 0 ≤ d0) (h1 : d0 ≤ 1 / 2 ^ 42) (h2 : N * d0 ≤ 9 / 2 ^ 18)
    (e1 : d1 = (6 / 5 * N + 1) * d0 ^ 2 + 6 / 2 ^ 128) (e2 : d2 = (6 / 5 * N + 1) * d1 ^ 2 + 6 / 2 ^ 128)
    (e3 : d3 = (6 / 5 * N + 1) * d2 ^ 2 + 6 / 2 ^ 128) :
    N * d1 ≤ 1 / 16 ∧ N * d2 ≤ 1 / 16 ∧ d3 ≤ 61 / 10 / 2 ^ 128 := by
  have step : ∀ {d d' : ℝ}, 0 ≤ d → d' = (6 / 5 * N + 1) * d ^ 2 + 6 / 2 ^ 128 → ∀ {b c : ℝ}, N * d ≤ b → d ≤ c →
      0 ≤ d' ∧ d' ≤ 11 / 5 * (b * c) + 6 / 2 ^ 128 ∧ N * d' ≤ 11 / 5 * (b * b) + 6 / 2 ^ 97 := by
    intro d d' hd e b c hb hc
    have hNd : 0 ≤ N * d := by positivity
    have g1 : (6 / 5 * N + 1) * d ^ 2 ≤ 11 / 5 * (N * d * d) := by
      have : 0 ≤ d ^ 2 := sq_nonneg d
      nlinarith
    have g2 : N * d * d ≤ b * c := mul_le_mul hb hc hd (hNd.trans hb)
    have g3 : N * d * (N * d) ≤ b * b := mul_le_mul hb hb hNd (hNd.trans hb)
    refine ⟨by rw [e]; positivity, by rw [e]; linarith, ?_⟩
    rw [e, mul_add]
    have g4 : N * ((6 / 5 * N + 1) * d ^ 2) ≤ N * (11 / 5 * (N * d * d)) := mul_le_mul_of_nonneg_left g1 (by linarith)
    have g5 : N * (11 / 5 * (N * d * d)) = 11 / 5 * (N * d * (N * d)) := by ring
    norm_num at hN2 ⊢; linarith
  obtain ⟨a1, a2, a3⟩ := step h0 e1 h2 h1
  have a2' : d1 ≤ 5 / 2 ^ 58 := a2.trans (by norm_num)
  have a3' : N * d1 ≤ 3 / 2 ^ 30 := a3.trans (by norm_num)
  obtain ⟨b1, b2, b3⟩ := step a1 e2 a3' a2'
  have b2' : d2 ≤ 17 / 2 ^ 87 := b2.trans (by norm_num)
  have b3' : N * d2 ≤ 21 / 2 ^ 60 := b3.trans (by norm_num)
  obtain ⟨c1, c2, c3⟩ := step b1 e3 b3' b2'
  exact ⟨a3'.trans (by norm_num), b3'.trans (by norm_num), c2.trans (by norm_num)⟩

/-- The start value, seen from the root of the number and not of its first component. -/
theorem seed_shift {A H N v s : ℝ} (hA0 : 0 < A) (hH : 0 < H) (hA : |A - H| ≤ H / 2 ^ 48) (hN : 1 ≤ |N|)
    (hs : |v / Real.exp (-Real.log H / N) - 1| ≤ s) :
    |Real.log A - Real.log H| ≤ 1 / 2 ^ 47 ∧ |v / Real.exp (-Real.log A / N) - 1| ≤ s * (101 / 100) + 1 / 2 ^ 46 := by
  have hN0 : N ≠ 0 := by rintro rfl; norm_num at hN
  have g1 : |Real.log A - Real.log H| ≤ 1 / 2 ^ 47 := by
    rw [← Real.log_div hA0.ne' hH.ne']
    have hu : |A / H - 1| ≤ 1 / 2 ^ 48 := by
      rw [show A / H - 1 = (A - H) / H by field_simp, abs_div, abs_of_pos hH, div_le_iff₀ hH]
      refine hA.trans (le_of_eq (by ring))
    have hpos : 0 < A / H := by positivity
    generalize A / H = u at *
    have k1 := Real.log_le_sub_one_of_pos hpos
    have k2 := Real.one_sub_inv_le_log_of_pos hpos
    have hu' := abs_le.mp hu
    have k3 : -(1 / 2 ^ 47) ≤ 1 - u⁻¹ := by
      have : u⁻¹ ≤ 1 + 1 / 2 ^ 47 := by
        rw [inv_le_iff_one_le_mul₀ hpos]
        norm_num at hu' ⊢; linarith
      linarith
    rw [abs_le]
    norm_num at k1 k2 k3 hu' ⊢; constructor <;> linarith
  refine ⟨g1, ?_⟩
  obtain ⟨η, hη⟩ : ∃ η, η = (Real.log A - Real.log H) / N := ⟨_, rfl⟩
  have hη1 : |η| ≤ 1 / 2 ^ 47 := by
    rw [hη, abs_div]; exact (div_le_self (abs_nonneg _) hN).trans g1
  have hexp : |Real.exp η - 1| ≤ 1 / 2 ^ 47 * (101 / 100) := by
    have k1 := Real.abs_exp_sub_one_sub_id_le (x := η) (by norm_num at hη1 ⊢; linarith)
    have k2 : η ^ 2 ≤ 0.001 * |η| := by
      rw [← sq_abs, sq]; exact mul_le_mul_of_nonneg_right (by norm_num at hη1 ⊢; linarith) (abs_nonneg _)
    have := abs_add_le (Real.exp η - 1 - η) η
    rw [sub_add_cancel] at this
    norm_num at this k2 hη1 ⊢; linarith [abs_nonneg η]
  have e1 : v / Real.exp (-Real.log A / N) = v / Real.exp (-Real.log H / N) * Real.exp η := by
    have : -Real.log A / N = -Real.log H / N - η := by rw [hη]; field_simp; ring
    rw [this, Real.exp_sub]
    field_simp
  rw [e1]
  generalize v / Real.exp (-Real.log H / N) = w at *
  generalize Real.exp η = z at *
  have e2 : w * z - 1 = (w - 1) * z + (z - 1) := by ring
  rw [e2]
  refine (abs_add_le _ _).trans ?_
  have hz := abs_le.mp hexp
  have hz2 : |z| ≤ 101 / 100 := by rw [abs_le]; norm_num at hz ⊢; constructor <;> linarith
  have h3 : |(w - 1) * z| ≤ s * (101 / 100) := by
    rw [abs_mul]; exact mul_le_mul hs hz2 (abs_nonneg _) ((abs_nonneg _).trans hs)
  norm_num [-abs_mul] at hexp ⊢; linarith

set_option maxHeartbeats 1000000 in
/-- `nroot` for a number given by its root. -/
theorem qnroot_all {P : Platform} (hl : LibmLogs P) (hx : LibmExp P) (ht : FloatText P.toStr) {a : Quad} (ha : a.Normalized) {n : ℤ}
    (hn0 : n ≠ 0) (hn1 : n ≠ 1) (hn2 : n ≠ 2) (hn : |n| < 2 ^ 31) {R : ℝ} (hR : R ^ n = qv a) (hs : 0 < R ↔ 0 < qv a)
    (hA1 : 1 ≤ |qv a| * (2 ^ 185 * 2 ^ 190 * (2 ^ 190 * 2 ^ 190))) (hA2 : |qv a| ≤ 2 ^ 185 * 2 ^ 190 * (2 ^ 190 * 2 ^ 190))
    (hR1 : 1 ≤ |R| * 2 ^ 159) (hR2 : |R| ≤ 2 ^ 250) :
    ∃ r, Quad.nroot P a n = some r ∧ r.Fin ∧ |qv r - R| ≤ |R| * (9 / 2 ^ 128) := by
  have hN : 1 ≤ |(n:ℝ)| := by exact_mod_cast Int.one_le_abs hn0
  have hNp : 0 < |(n:ℝ)| := by linarith
  have hN0 : (n:ℝ) ≠ 0 := abs_pos.mp hNp
  have hNb : |(n:ℝ)| ≤ 2 ^ 31 := by exact_mod_cast hn.le
  have hap : 0 < |qv a| := by
    rcases (abs_nonneg (qv a)).lt_or_eq with h | h
    · exact h
    · rw [← h, zero_mul] at hA1; exact absurd hA1 (by norm_num)
  have h0 : qv a ≠ 0 := abs_pos.mp hap
  have hR0 : R ≠ 0 := by
    rintro rfl; rw [zero_zpow n hn0] at hR; exact h0 hR.symm
  have hRp : 0 < |R| := abs_pos.mpr hR0
  have hlog : Real.log (|qv a|) = n * Real.log (|R|) := by
    rw [← hR, abs_zpow, Real.log_zpow]
  have hlq : -Real.log (|qv a|) / n = -Real.log (|R|) := by rw [hlog]; field_simp
  have hy : Real.exp (-Real.log (|R|)) = |R|⁻¹ := by rw [Real.exp_neg, Real.exp_log hRp]
  -- sizes
  have hLA : |Real.log (|qv a|)| ≤ 524 := by
    have e : (2:ℝ) ^ 185 * 2 ^ 190 * (2 ^ 190 * 2 ^ 190) = 2 ^ 755 := by simp only [← pow_add]
    rw [e] at hA1 hA2
    exact (log_pow_two hap hA1 hA2).trans (by norm_num)
  have hLR : |Real.log (|R|)| ≤ 174 :=
    (log_pow_two (k := 250) hRp (hR1.trans (mul_le_mul_of_nonneg_left (pow_le_pow_right₀ (by norm_num) (by norm_num)) hRp.le)) hR2).trans
      (by norm_num)
  have hLAN : |Real.log (|qv a|)| ≤ 174 * |(n:ℝ)| := by
    rw [hlog, abs_mul, mul_comm]; exact mul_le_mul_of_nonneg_right hLR hNp.le
  -- the preamble
  have hval : a.val ≠ 0 := by intro h; apply h0; unfold qv; rw [h]; norm_num
  obtain ⟨c1, c2, c3⟩ := qv_class ha hval
  have hsg := quad_sign_head a ha
  have hpre : Quad.preNroot P a n = none := by
    unfold Quad.preNroot
    rw [if_neg hn0, if_neg hn1, c2, c3]
    simp only [Bool.false_eq_true, if_false, if_neg hn2]
    rw [if_neg]
    intro hc
    rw [Bool.and_eq_true, decide_eq_true_eq] at hc
    have ev : Even n := even_iff_two_dvd.mpr (Int.dvd_of_tmod_eq_zero hc.2)
    have hpos := ev.zpow_pos hR0
    rw [hR] at hpos
    have hpos' : 0 < a.val := by unfold qv at hpos; exact_mod_cast hpos
    have := (pos_class ha.1.1 (hsg.1.mp hpos')).1
    unfold Quad.isSignNegative at hc
    rw [this] at hc
    exact absurd hc.1 (by decide)
  obtain ⟨b1, b2⟩ := C41_quad_abs_val a ha
  have hrA : qv a.abs = |qv a| := by unfold qv; rw [b2]; push_cast; rfl
  have hrp : 0 < qv a.abs := by rw [hrA]; exact hap
  have hrv : 0 < a.abs.val := by unfold qv at hrp; exact_mod_cast hrp
  have dfin : a.abs.c0.isFinite = true := b1.1.1
  have d5 : 0 < fr a.abs.c0 := by
    have := (quad_sign_head a.abs b1).1.mp hrv
    unfold fr; exact_mod_cast this
  have hsub := qv_sub_c0 (qord_norm b1)
  rw [abs_of_pos d5, hrA] at hsub
  -- the start value
  have hH := seed_shift (v := Real.exp (-Real.log (fr a.abs.c0) / n)) (s := 0) hap d5 hsub hN
    (by rw [div_self (Real.exp_pos _).ne']; norm_num)
  have hLH : |Real.log (fr a.abs.c0)| ≤ |Real.log (|qv a|)| + 1 / 2 ^ 47 := by
    have := abs_sub_abs_le_abs_sub (Real.log (fr a.abs.c0)) (Real.log (|qv a|))
    rw [abs_sub_comm] at this; linarith [hH.1]
  have hLHa : |Real.log (fr a.abs.c0)| ≤ 525 := hLH.trans ((add_le_add_left hLA _).trans (by norm_num))
  have hLHn : |Real.log (fr a.abs.c0)| ≤ 175 * |(n:ℝ)| := by
    refine hLH.trans ((add_le_add_left hLAN _).trans ?_)
    have : (1:ℝ) / 2 ^ 47 ≤ 1 := by norm_num
    linarith
  obtain ⟨e1, f1, f2, hst⟩ := nroot_start_f64 hl hx dfin d5 (A := fr a.abs.c0) (by rw [sub_self, abs_zero]; positivity) hn0 hn
    (by norm_num at hLH ⊢; linarith) (by norm_num at hLH ⊢; linarith)
  obtain ⟨v, hv, hvq⟩ := qof_f64 P ht e1
    (f1.trans (mul_le_mul_of_nonneg_left (pow_le_pow_right₀ (by norm_num) (by norm_num)) (abs_nonneg _)))
    (f2.trans (pow_le_pow_right₀ (by norm_num) (by norm_num)))
  have hve := hst _ hvq.err
  obtain ⟨s, hsd⟩ : ∃ s, s = (6 / 5 * (|Real.log (fr a.abs.c0)| / |(n:ℝ)|) + 3 / 2) / 2 ^ 50 := ⟨_, rfl⟩
  rw [← hsd] at hve
  have hs0 : 0 ≤ s := (abs_nonneg _).trans hve
  have hsN : |(n:ℝ)| * s ≤ (700 + 3 / 2 * |(n:ℝ)|) / 2 ^ 50 := by
    have e : |(n:ℝ)| * s = (6 / 5 * |Real.log (fr a.abs.c0)| + 3 / 2 * |(n:ℝ)|) / 2 ^ 50 := by rw [hsd]; field_simp
    rw [e]
    refine div_le_div_of_nonneg_right ?_ (by positivity)
    linarith
  have hs2 : s ≤ 212 / 2 ^ 50 := by
    rw [hsd]
    refine div_le_div_of_nonneg_right ?_ (by positivity)
    have : |Real.log (fr a.abs.c0)| / |(n:ℝ)| ≤ 175 := by
      rw [div_le_iff₀ hNp]; exact hLHn
    linarith
  have hve2 := (seed_shift hap d5 hsub hN hve).2
  rw [hlq, hy] at hve2
  clear hst hH
  obtain ⟨y, hyd⟩ : ∃ y, y = |R|⁻¹ := ⟨_, rfl⟩
  rw [← hyd] at hve2
  have hy0 : 0 < y := by rw [hyd]; positivity
  have hy1 : 1 ≤ y * 2 ^ 250 := by
    rw [hyd, inv_mul_eq_div, one_le_div hRp]; exact hR2
  have hy2 : y ≤ 2 ^ 159 := by
    rw [hyd, inv_le_iff_one_le_mul₀ hRp, mul_comm]; exact hR1
  have hyA : |qv a| * y ^ n = 1 := by
    rw [hyd, ← hR, abs_zpow, inv_zpow, mul_inv_cancel₀ (zpow_ne_zero _ hRp.ne')]
  obtain ⟨d0, hd0⟩ : ∃ d0, d0 = s * (101 / 100) + 1 / 2 ^ 46 := ⟨_, rfl⟩
  rw [← hd0] at hve2
  have hd00 : 0 ≤ d0 := (abs_nonneg _).trans hve2
  have hd1 : d0 ≤ 1 / 2 ^ 42 := by rw [hd0]; norm_num at hs2 ⊢; linarith
  have hd2 : |(n:ℝ)| * d0 ≤ 9 / 2 ^ 18 := by
    rw [hd0, mul_add, ← mul_assoc]
    generalize |(n:ℝ)| * s = Z at hsN ⊢
    clear hLAN hLHn
    generalize |(n:ℝ)| = Y at hsN hNb ⊢
    clear hA1 hA2 f1 f2 hR1 hR2 hy1 hy2
    norm_num at hsN hNb ⊢; linarith
  have hvpos : 0 < qv v := by
    have h := abs_le.mp hve2
    have : 0 < qv v / y := by norm_num at hd1; linarith [h.1]
    exact (div_pos_iff_of_pos_right hy0).mp this
  have hvT : QT v (qv v) 0 := by
    unfold QT
    rw [zero_div, mul_zero]
    refine ⟨hvq.sz.mono ?_, by simp⟩
    have h1 := hvq.err
    have h2 := abs_sub_abs_le_abs_sub (fr (P.exp (F64.div (F64.neg (P.ln a.abs.c0)) (F64.ofInt n)))) (qv v)
    rw [abs_sub_comm] at h2
    generalize |fr (P.exp (F64.div (F64.neg (P.ln a.abs.c0)) (F64.ofInt n)))| = E at *
    clear f1 f2 hA1 hA2
    norm_num at h1 ⊢; linarith [abs_nonneg (qv v)]
  have hrT : QT a.abs (|qv a|) 0 := by have := QT.norm b1; rw [hrA] at this; exact this
  have iN := is_ofInt (n := n) (by rw [abs_lt] at hn; rw [abs_le]; norm_num at hn ⊢; constructor <;> linarith [hn.1, hn.2])
  have hnd := qa_int iN
  -- the steps
  obtain ⟨g1, g2, g3⟩ := newton_three hN hNb hd00 hd1 hd2 rfl rfl rfl
  obtain ⟨x1, p1, v1, q1, t1, -, w1⟩ := qnroot_step hn0 hn hvT hrT hnd hap hy0 hyA hA1 hA2 hy1 hy2 hve2 (hd2.trans (by norm_num))
  obtain ⟨x2, p2, v2, q2, t2, -, w2⟩ := qnroot_step hn0 hn t1 hrT hnd hap hy0 hyA hA1 hA2 hy1 hy2 w1 g1
  obtain ⟨x3, p3, v3, q3, t3, hv3, w3⟩ := qnroot_step hn0 hn t2 hrT hnd hap hy0 hyA hA1 hA2 hy1 hy2 w2 g2
  have w3' := w3.trans g3
  clear w1 w2 w3 g1 g2 g3 hve2 hd2 hd1 hd0 hs2 hsN hve hA1 hA2 f1 f2 hvT hvq
  have hvy : qv v3 = qv v3 / y * y := by field_simp
  have hw := abs_le.mp w3'
  have hr1 : 99 / 100 * y ≤ qv v3 ∧ qv v3 ≤ 101 / 100 * y := by
    generalize qv v3 / y = u at *
    rw [hvy]
    norm_num at hw
    exact ⟨mul_le_mul_of_nonneg_right (by linarith) hy0.le, mul_le_mul_of_nonneg_right (by linarith) hy0.le⟩
  have rec' : ∀ {z : Quad}, QT z (qv z) 0 → |qv z| = qv v3 → z.recip.Fin ∧ |qv z.recip - 1 / qv z| ≤ 1 / qv v3 * (1025 / 2 ^ 137) := by
    intro z hz hzv
    have hz0 : qv z ≠ 0 := by intro h; rw [h, abs_zero] at hzv; exact hv3.ne hzv
    have := hz.recip hz0 (by
        rw [hzv]
        norm_num at hy1 ⊢; linarith [hr1.1]) (by
        rw [hzv]
        norm_num at hy2 ⊢; linarith [hr1.2]) le_rfl (by norm_num)
    refine ⟨this.fin, ?_⟩
    have h1 := this.err
    rw [abs_div, abs_one, hzv, zero_add] at h1
    exact h1
  have fin : ∀ {ρ : ℝ}, |ρ - 1 / qv v3| ≤ 1 / qv v3 * (1025 / 2 ^ 137) → |ρ - (|R|)| ≤ |R| * (9 / 2 ^ 128) := by
    intro ρ hρ
    have eR : |R| = 1 / y := by rw [hyd, one_div, inv_inv]
    have hu : 0 < qv v3 / y := div_pos hv3 hy0
    have h1 : 1 / qv v3 = 1 / y * (1 / (qv v3 / y)) := by field_simp
    have h2 : |1 / (qv v3 / y) - 1| ≤ 62 / 10 / 2 ^ 128 := by
      generalize qv v3 / y = u at *
      rw [show 1 / u - 1 = -((u - 1) / u) by field_simp; ring, abs_neg, abs_div, abs_of_pos hu, div_le_iff₀ hu]
      norm_num at w3' hw ⊢; linarith
    have h2' := abs_le.mp h2
    have hyi : 0 < 1 / y := by positivity
    rw [eR]
    rw [h1] at hρ
    generalize 1 / (qv v3 / y) = w at *
    generalize 1 / y = i at *
    have h3 : |i * w - i| ≤ i * (62 / 10 / 2 ^ 128) := by
      rw [show i * w - i = i * (w - 1) by ring, abs_mul, abs_of_pos hyi]
      exact mul_le_mul_of_nonneg_left h2 hyi.le
    have h4 : i * w ≤ i * (101 / 100) := mul_le_mul_of_nonneg_left (by norm_num at h2' ⊢; linarith) hyi.le
    have h5 := abs_sub_le ρ (i * w) i
    clear hy1 hy2 hr1 rec' hR1 hR2
    norm_num at hρ h3 h4 ⊢; linarith
  unfold Quad.nroot
  rw [hpre]
  dsimp only
  rw [hv]
  simp only [Option.bind_some, p1, Option.map_some, q1, p2, q2, p3, q3]
  refine ⟨_, rfl, ?_⟩
  by_cases hneg : a.val < 0
  · have hlt : F64.lt a.c0 F64.zero = true := by
      have h1 := hsg.2.1.mp hneg
      have i := Is.of_finite ha.1.1
      rw [i.lt_iff is_zero]
      rw [i.toRat] at h1
      have := (div_neg_iff.mp h1)
      rcases this with h | h
      · have := one'_posQ; linarith [h.2]
      · exact_mod_cast h.1
    rw [if_pos hlt]
    have hRn : R < 0 := by
      rcases lt_or_gt_of_ne hR0 with h | h
      · exact h
      · have := hs.mp h
        unfold qv at this
        have : 0 < a.val := by exact_mod_cast this
        linarith
    have hng := QA.neg t3
    have en : qv (-v3) = -qv v3 := by
      have := (QA.neg (⟨t3.sz, by simp⟩ : QA v3 (qv v3) 0 _)).err
      rw [abs_nonpos_iff, sub_eq_zero] at this
      exact this
    have tn : QT (-v3) (qv (-v3)) 0 := by
      unfold QT
      rw [en, abs_neg]; exact hng
    obtain ⟨k1, k2⟩ := rec' tn (by rw [en, abs_neg, abs_of_pos hv3])
    refine ⟨k1, ?_⟩
    have := fin (ρ := -qv (-v3).recip) (by
      rw [en] at k2
      rw [show -qv (-v3).recip - 1 / qv v3 = -(qv (-v3).recip - 1 / -qv v3) by rw [div_neg]; ring, abs_neg]
      exact k2)
    rw [show qv (-v3).recip - R = -(-qv (-v3).recip - (|R|)) by rw [abs_of_neg hRn]; ring, abs_neg]
    exact this
  · have hpos : 0 < a.val := lt_of_le_of_ne (not_lt.mp hneg) (Ne.symm hval)
    have hlt : F64.lt a.c0 F64.zero = false := by
      rw [Bool.eq_false_iff]
      intro h
      have h1 := hsg.1.mp hpos
      have i := Is.of_finite ha.1.1
      rw [i.lt_iff is_zero] at h
      rw [i.toRat] at h1
      have h2 : (0:ℚ) < a.c0.units := by
        have := (div_pos_iff_of_pos_right one'_posQ).mp h1
        exact this
      have : 0 < a.c0.units := by exact_mod_cast h2
      omega
    rw [hlt]
    simp only [Bool.false_eq_true, if_false]
    have hRpos : 0 < R := hs.mpr (by unfold qv; exact_mod_cast hpos)
    obtain ⟨k1, k2⟩ := rec' t3 (abs_of_pos hv3)
    refine ⟨k1, ?_⟩
    have := fin k2
    rw [abs_of_pos hRpos] at this ⊢
    exact this


theorem q755 {x : ℚ} (h1 : 1 ≤ |x| * 2 ^ 755) (h2 : |x| ≤ 2 ^ 755) :
    1 ≤ |(x:ℝ)| * (2 ^ 185 * 2 ^ 190 * (2 ^ 190 * 2 ^ 190)) ∧ |(x:ℝ)| ≤ 2 ^ 185 * 2 ^ 190 * (2 ^ 190 * 2 ^ 190) := by
  have e : (2:ℝ) ^ 185 * 2 ^ 190 * (2 ^ 190 * 2 ^ 190) = 2 ^ 755 := by simp only [← pow_add]
  rw [e]
  exact ⟨by exact_mod_cast h1, by exact_mod_cast h2⟩

/-- **C89.** The `n`-th root of a normalized Quad between `2^-755` and `2^755` in magnitude, for every `n` other than 0, 1, 2
with fewer than 32 bits and a root `R` between `2^-159` and `2^250` in magnitude, is returned, is finite, and is within the
relative distance `9/2^128` of `R`. -/
theorem C89_quad_nroot (P : Platform) (hl : LibmLogs P) (hx : LibmExp P) (ht : FloatText P.toStr) (a : Quad) (ha : a.Normalized) (n : ℤ)
    (hn0 : n ≠ 0) (hn1 : n ≠ 1) (hn2 : n ≠ 2) (hn : |n| < 2 ^ 31) (R : ℝ) (hR : R ^ n = (a.val : ℝ)) (hs : 0 < R ↔ 0 < (a.val : ℝ))
    (h1 : 1 ≤ |a.val| * 2 ^ 755) (h2 : |a.val| ≤ 2 ^ 755) (h3 : 1 ≤ |R| * 2 ^ 159) (h4 : |R| ≤ 2 ^ 250) :
    ∃ r, Quad.nroot P a n = some r ∧ r.Fin ∧ |(r.val : ℝ) - R| ≤ |R| * (9 / 2 ^ 128) := by
  obtain ⟨g1, g2⟩ := q755 h1 h2
  obtain ⟨r, k1, k2, k3⟩ := qnroot_all hl hx ht ha hn0 hn1 hn2 hn hR hs g1 g2 h3 h4
  exact ⟨r, k1, k2, k3⟩

/-- **C89**, for `|n|` at least 5, where the size of the root needs no hypothesis. -/
theorem C89_quad_nroot_five (P : Platform) (hl : LibmLogs P) (hx : LibmExp P) (ht : FloatText P.toStr) (a : Quad) (ha : a.Normalized)
    (n : ℤ) (hn5 : 5 ≤ |n|) (hn : |n| < 2 ^ 31) (R : ℝ) (hR : R ^ n = (a.val : ℝ)) (hs : 0 < R ↔ 0 < (a.val : ℝ))
    (h1 : 1 ≤ |a.val| * 2 ^ 755) (h2 : |a.val| ≤ 2 ^ 755) :
    ∃ r, Quad.nroot P a n = some r ∧ r.Fin ∧ |(r.val : ℝ) - R| ≤ |R| * (9 / 2 ^ 128) := by
  have g1 : 1 ≤ |(a.val:ℝ)| * 2 ^ 755 := by exact_mod_cast h1
  have g2 : |(a.val:ℝ)| ≤ 2 ^ 755 := by exact_mod_cast h2
  have g0 : 0 < |(a.val:ℝ)| := by
    rcases (abs_nonneg (a.val:ℝ)).lt_or_eq with h | h
    · exact h
    · rw [← h, zero_mul] at g1; exact absurd g1 (by norm_num)
  have hn0 : n ≠ 0 := by rintro rfl; norm_num at hn5
  have hR0 : R ≠ 0 := by
    rintro rfl; rw [zero_zpow n hn0] at hR; exact abs_pos.mp g0 hR.symm
  have hL : |Real.log (|(a.val:ℝ)|)| ≤ 524 := (log_pow_two g0 g1 g2).trans (by norm_num)
  have hlog : Real.log (|(a.val:ℝ)|) = n * Real.log (|R|) := by
    rw [← hR, abs_zpow, Real.log_zpow]
  have hN : 5 ≤ |(n:ℝ)| := by exact_mod_cast hn5
  have hm : |Real.log (|R|)| * |(n:ℝ)| ≤ 524 := by rw [← abs_mul, mul_comm, ← hlog]; exact hL
  have hL2 : |Real.log (|R|)| ≤ 105 := by
    have := mul_le_mul_of_nonneg_left hN (abs_nonneg (Real.log (|R|)))
    linarith
  have hp := exp_pow_two (s := Real.log (|R|)) (k := 159) (hL2.trans (by norm_num))
  rw [Real.exp_log (abs_pos.mpr hR0)] at hp
  exact C89_quad_nroot P hl hx ht a ha n hn0 (by rintro rfl; norm_num at hn5) (by rintro rfl; norm_num at hn5) hn R hR hs h1 h2 hp.2
    (hp.1.trans (pow_le_pow_right₀ (by norm_num) (by norm_num)))

/-- **C89**, for a positive argument the root is `a^(1/n)`. -/
theorem C89_quad_nroot_rpow (P : Platform) (hl : LibmLogs P) (hx : LibmExp P) (ht : FloatText P.toStr) (a : Quad) (ha : a.Normalized)
    (n : ℤ) (hn5 : 5 ≤ |n|) (hn : |n| < 2 ^ 31) (h0 : 0 < a.val) (h1 : 1 ≤ a.val * 2 ^ 755) (h2 : a.val ≤ 2 ^ 755) :
    ∃ r, Quad.nroot P a n = some r ∧ r.Fin ∧ |(r.val : ℝ) - (a.val : ℝ) ^ (1 / (n:ℝ))| ≤ (a.val : ℝ) ^ (1 / (n:ℝ)) * (9 / 2 ^ 128) := by
  have hp : (0:ℝ) < (a.val : ℝ) := by exact_mod_cast h0
  have hN : 5 ≤ |(n:ℝ)| := by exact_mod_cast hn5
  have hN0 : (n:ℝ) ≠ 0 := by
    intro h; rw [h, abs_zero] at hN; norm_num at hN
  have hR0 : 0 < (a.val : ℝ) ^ (1 / (n:ℝ)) := Real.rpow_pos_of_pos hp _
  have hR : ((a.val : ℝ) ^ (1 / (n:ℝ))) ^ n = (a.val : ℝ) := by
    rw [← Real.rpow_intCast, ← Real.rpow_mul hp.le, one_div, inv_mul_cancel₀ hN0, Real.rpow_one]
  obtain ⟨r, hr, hrN, he⟩ := C89_quad_nroot_five P hl hx ht a ha n hn5 hn _ hR ⟨fun _ => hp, fun _ => hR0⟩
    (by rw [abs_of_pos h0]; exact h1) (by rw [abs_of_pos h0]; exact h2)
  rw [abs_of_pos hR0] at he
  exact ⟨r, hr, hrN, he⟩

/-- **C89.** The cube root of every normalized Quad between `2^-477` and `2^750` in magnitude, of either sign, is accurate to
`9/2^128`. -/
theorem C89_quad_cbrt (P : Platform) (hl : LibmLogs P) (hx : LibmExp P) (ht : FloatText P.toStr) (a : Quad) (ha : a.Normalized)
    (R : ℝ) (hR : R ^ 3 = (a.val : ℝ)) (h1 : 1 ≤ |a.val| * 2 ^ 477) (h2 : |a.val| ≤ 2 ^ 750) :
    ∃ r, Quad.cbrt P a = some r ∧ r.Fin ∧ |(r.val : ℝ) - R| ≤ |R| * (9 / 2 ^ 128) := by
  have hs : 0 < R ↔ 0 < (a.val : ℝ) := by
    rw [← hR]
    exact (Odd.pow_pos_iff (by decide)).symm
  have hR' : R ^ (3:ℤ) = (a.val : ℝ) := by rw [← hR]; exact zpow_ofNat R 3
  have g1 : 1 ≤ |(a.val:ℝ)| * 2 ^ 477 := by exact_mod_cast h1
  have g2 : |(a.val:ℝ)| ≤ 2 ^ 750 := by exact_mod_cast h2
  have b1 : 1 ≤ |R| * 2 ^ 159 := by
    rw [← hR, abs_pow, show (477:ℕ) = 159 * 3 from rfl, pow_mul, ← mul_pow] at g1
    exact (one_le_pow_iff_of_nonneg (by positivity) (by norm_num)).mp g1
  have b2 : |R| ≤ 2 ^ 250 := by
    rw [← hR, abs_pow, show (750:ℕ) = 250 * 3 from rfl, pow_mul] at g2
    exact (pow_le_pow_iff_left₀ (abs_nonneg R) (by positivity) (by norm_num)).mp g2
  have k1 : 1 ≤ |a.val| * 2 ^ 755 :=
    h1.trans (mul_le_mul_of_nonneg_left (pow_le_pow_right₀ (by norm_num) (by norm_num)) (abs_nonneg _))
  have k2 : |a.val| ≤ 2 ^ 755 := h2.trans (pow_le_pow_right₀ (by norm_num) (by norm_num))
  exact C89_quad_nroot P hl hx ht a ha 3 (by norm_num) (by norm_num) (by norm_num) (by norm_num) R hR' hs k1 k2 b1 b2

/-- The fifth root of a negative number. -/
example : ∃ R : ℝ, R ^ (5:ℤ) = ((-Quad.PI).val : ℝ) ∧ (0 < R ↔ 0 < ((-Quad.PI).val : ℝ)) ∧
    ∃ r, Quad.nroot rootPlatform (-Quad.PI) 5 = some r ∧ r.Fin ∧ |(r.val : ℝ) - R| ≤ |R| * (9 / 2 ^ 128) := by
  have hn : (-Quad.PI).Normalized ∧ (-4 ≤ (-Quad.PI).val ∧ (-Quad.PI).val ≤ -3) := by decide +kernel
  obtain ⟨hN, b1, b2⟩ := hn
  have hab : |(-Quad.PI).val| = -(-Quad.PI).val := abs_of_neg (by linarith)
  have hp : (0:ℝ) < -((-Quad.PI).val : ℝ) := by
    have : ((-Quad.PI).val : ℝ) ≤ -3 := by exact_mod_cast b2
    linarith
  have hR : (-((-((-Quad.PI).val : ℝ)) ^ (1 / (5:ℝ)))) ^ (5:ℤ) = ((-Quad.PI).val : ℝ) := by
    have : (5:ℤ) = ((5:ℕ) : ℤ) := rfl
    rw [this, zpow_natCast, Odd.neg_pow (by decide), ← Real.rpow_natCast, ← Real.rpow_mul hp.le]
    norm_num
  have hs : 0 < -((-((-Quad.PI).val : ℝ)) ^ (1 / (5:ℝ))) ↔ 0 < ((-Quad.PI).val : ℝ) := by
    have := Real.rpow_pos_of_pos hp (1 / (5:ℝ))
    constructor <;> intro h <;> linarith
  exact ⟨_, hR, hs, C89_quad_nroot_five rootPlatform rootPlatform_ok.1 rootPlatform_ok.2.1 rootPlatform_ok.2.2 (-Quad.PI) hN 5
    (by norm_num) (by norm_num) _ hR hs
    (by rw [hab]; exact le_trans (by linarith) (le_mul_of_one_le_right (by linarith) (one_le_pow₀ (by norm_num))))
    (by rw [hab]; exact (show -(-Quad.PI).val ≤ 2 ^ 2 by linarith).trans (pow_le_pow_right₀ (by norm_num) (by norm_num)))⟩

/-- The cube root of `e`. -/
example : ∃ r, Quad.cbrt rootPlatform Quad.E = some r ∧ r.Fin ∧
    |(r.val : ℝ) - (Quad.E.val : ℝ) ^ (1 / (3:ℝ))| ≤ |(Quad.E.val : ℝ) ^ (1 / (3:ℝ))| * (9 / 2 ^ 128) := by
  have hn : Quad.E.Normalized ∧ (2 ≤ Quad.E.val ∧ Quad.E.val ≤ 3) := by decide +kernel
  obtain ⟨hN, b1, b2⟩ := hn
  have hab : |Quad.E.val| = Quad.E.val := abs_of_pos (by linarith)
  have hp : (0:ℝ) ≤ (Quad.E.val : ℝ) := by
    have : 2 ≤ (Quad.E.val : ℝ) := by exact_mod_cast b1
    linarith
  exact C89_quad_cbrt rootPlatform rootPlatform_ok.1 rootPlatform_ok.2.1 rootPlatform_ok.2.2 Quad.E hN
    ((Quad.E.val : ℝ) ^ (1 / (3:ℝ))) (by rw [← Real.rpow_natCast, ← Real.rpow_mul hp]; norm_num)
    (by rw [hab]; exact le_trans (by linarith) (le_mul_of_one_le_right (by linarith) (one_le_pow₀ (by norm_num))))
    (by rw [hab]; exact (show Quad.E.val ≤ 2 ^ 2 by linarith).trans (pow_le_pow_right₀ (by norm_num) (by norm_num)))

end Verif
