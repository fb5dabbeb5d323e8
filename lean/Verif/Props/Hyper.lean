import Verif.Proofs.HyperLoop
import Verif.Props.Trig

/-!
# C69: the accuracy of `sinh`, `cosh`, `sinh_cosh` and `tanh`
-/

namespace Verif

open F64

theorem f005_bd : Double.f005.isFinite = true ∧ 499 / 10000 ≤ fr Double.f005 ∧ fr Double.f005 ≤ 501 / 10000 := by
  have h : Double.f005.isFinite = true ∧ mkRat 499 10000 ≤ Double.f005.toRat ∧ Double.f005.toRat ≤ mkRat 501 10000 := by decide +kernel
  have h1 := (Rat.cast_le (K := ℝ)).mpr h.2.1
  have h2 := (Rat.cast_le (K := ℝ)).mpr h.2.2
  rw [Rat.mkRat_eq_div] at h1 h2
  push_cast at h1 h2
  exact ⟨h.1, by rw [fr_toRat]; exact h1, by rw [fr_toRat]; exact h2⟩

theorem hi_600 {a : Double} (ha : a.Normalized) (h : |rv a| ≤ 599) : |fr a.hi| ≤ 600 := by
  have h1 := fr_hi_le ha
  norm_num at h1; linarith

/-- The threshold of the series: above it the number is not small. -/
theorem gt_f005 {a : Double} (ha : a.Normalized) (h : F64.gt a.abs.hi Double.f005 = true) : 49.5 / 1000 ≤ |rv a| := by
  obtain ⟨na, va⟩ := rv_absD ha
  have g1 := fr_abs_nonneg ha
  have h1 := (fr_lt f005_bd.1 na.1.1).mp h
  have h2 := rv_sub_hi na
  rw [va, abs_of_nonneg g1] at h2
  have := (abs_le.mp h2).1
  have := f005_bd.2.1
  norm_num at *; linarith

theorem not_gt_f005 {a : Double} (ha : a.Normalized) (h : ¬ F64.gt a.abs.hi Double.f005 = true) : |rv a| ≤ 51 / 1000 := by
  obtain ⟨na, va⟩ := rv_absD ha
  have g1 := fr_abs_nonneg ha
  have h1 := mt (fr_lt f005_bd.1 na.1.1).mpr h
  have h2 := rv_sub_hi na
  rw [va, abs_of_nonneg g1] at h2
  have := (abs_le.mp h2).2
  have := f005_bd.2.2
  have h3 := not_lt.mp h1
  norm_num at *; linarith

theorem le_f005 {a : Double} (ha : a.Normalized) : F64.le a.abs.hi Double.f005 = true ↔ ¬ F64.gt a.abs.hi Double.f005 = true := by
  obtain ⟨na, va⟩ := rv_absD ha
  have ia := Is.of_finite na.1.1
  have ib := Is.of_finite f005_bd.1
  unfold F64.gt
  rw [ib.lt_iff ia, ia.le_iff ib, not_lt]

theorem rv_zero_class {a : Double} (ha : a.Normalized) (h : rv a = 0) : a.isZero = true ∧ a.isNan = false := by
  have h1 := fr_hi_two ha
  rw [h, abs_zero, mul_zero, abs_nonpos_iff] at h1
  have i := Is.of_finite ha.1.1
  have hz : a.isZero = true := by
    unfold Double.isZero
    rw [i.eq_iff is_zero]
    rw [fr_is i, div_eq_zero_iff] at h1
    rcases h1 with h1 | h1
    · exact_mod_cast h1
    · exact absurd h1 (by exact_mod_cast one'_pos.ne')
  exact ⟨hz, fs_isNan_zero hz⟩

theorem cosh_core {a : Double} (ha : a.Normalized) (h : |rv a| ≤ 599) :
    ∃ r, Double.cosh a = some r ∧ Ap r (Real.cosh (rv a)) ((|rv a| + 12) / 2 ^ 102 * Real.cosh (rv a)) := by
  unfold Double.cosh Double.preCosh
  by_cases hz : rv a = 0
  · obtain ⟨c1, c2⟩ := rv_zero_class ha hz
    rw [if_neg (by rw [c2]; simp), if_pos c1]
    refine ⟨_, rfl, ?_⟩
    rw [hz, Real.cosh_zero]
    exact ap_one.mono (by positivity)
  · obtain ⟨c1, c2, c3, -⟩ := class_of ha hz
    rw [if_neg (by rw [c1]; simp), if_neg (by rw [c2]; simp), if_neg (by rw [c3]; simp)]
    obtain ⟨e, he, h1, -⟩ := exp_sum ha (hi_600 ha h)
    dsimp only
    rw [he]
    exact ⟨_, rfl, half_sum (Real.one_le_cosh _) (by linarith) h1⟩

theorem sinh_core {a : Double} (ha : a.Normalized) (h : |rv a| ≤ 599) (h0 : 1 ≤ |rv a| * 2 ^ 900) :
    ∃ r, Double.sinh a = some r ∧
      ((F64.gt a.abs.hi Double.f005 = true ∧ 49 / 1000 ≤ |rv a| ∧
          Ap r (Real.sinh (rv a)) ((|rv a| + 12) / 2 ^ 102 * Real.cosh (rv a))) ∨
        (¬ F64.gt a.abs.hi Double.f005 = true ∧ |rv a| ≤ 51 / 1000 ∧ Ap r (Real.sinh (rv a)) (|rv a| * (73 / 2 ^ 106)))) := by
  have hz : rv a ≠ 0 := by intro hc; rw [hc, abs_zero, zero_mul] at h0; norm_num at h0
  unfold Double.sinh Double.preSinh
  obtain ⟨c1, c2, c3, -⟩ := class_of ha hz
  rw [if_neg (by rw [c1]; simp), if_neg (by rw [c2]; simp), if_neg (by rw [c3]; simp)]
  dsimp only
  by_cases hg : F64.gt a.abs.hi Double.f005 = true
  · rw [if_pos hg]
    obtain ⟨e, he, -, h1⟩ := exp_sum ha (hi_600 ha h)
    rw [he]
    have h2 := (show (49:ℝ) / 1000 ≤ 49.5 / 1000 by norm_num).trans (gt_f005 ha hg)
    have h3 := sinh_ge_cosh h2
    have h4 := Real.one_le_cosh (rv a)
    exact ⟨_, rfl, Or.inl ⟨hg, h2, half_diff h4 (by linarith) (by linarith) h1⟩⟩
  · rw [if_neg hg]
    have h2 := not_gt_f005 ha hg
    obtain ⟨v, v1, v2⟩ := sinh_small ha h0 h2
    exact ⟨v, v1, Or.inr ⟨hg, h2, v2⟩⟩

theorem abs_le_sinh (x : ℝ) : |x| ≤ |Real.sinh x| := by
  rcases le_total 0 x with h | h
  · rw [abs_of_nonneg h, abs_of_nonneg (Real.sinh_nonneg_iff.mpr h)]
    exact Real.self_le_sinh_iff.mpr h
  · rw [abs_of_nonpos h, abs_of_nonpos (Real.sinh_nonpos_iff.mpr h)]
    have := Real.self_le_sinh_iff.mpr (show 0 ≤ -x by linarith)
    rwa [Real.sinh_neg] at this

/-- The relative error of `sinh`. -/
theorem sinh_rel {x : ℝ} {r : Double} (h : 49 / 1000 ≤ |x| ∧ Ap r (Real.sinh x) ((|x| + 12) / 2 ^ 102 * Real.cosh x) ∨
    |x| ≤ 51 / 1000 ∧ Ap r (Real.sinh x) (|x| * (73 / 2 ^ 106))) : Ap r (Real.sinh x) ((|x| + 12) / 2 ^ 97 * |Real.sinh x|) := by
  have h0 := abs_nonneg x
  rcases h with ⟨h1, h2⟩ | ⟨h1, h2⟩
  · refine h2.mono ?_
    have h3 := sinh_ge_cosh h1
    have h4 := mul_le_mul_of_nonneg_left h3 (show 0 ≤ (|x| + 12) / 2 ^ 102 * 22 by positivity)
    have h5 : 0 ≤ (|x| + 12) * |Real.sinh x| := by positivity
    rw [show (|x| + 12) / 2 ^ 97 * |Real.sinh x| = (|x| + 12) * |Real.sinh x| * (32 / 2 ^ 102) by norm_num; ring]
    rw [show (|x| + 12) / 2 ^ 102 * 22 * |Real.sinh x| = (|x| + 12) * |Real.sinh x| * (22 / 2 ^ 102) by ring] at h4
    have h6 : (|x| + 12) / 2 ^ 102 * 22 * (Real.cosh x / 22) = (|x| + 12) / 2 ^ 102 * Real.cosh x := by ring
    rw [h6] at h4
    refine h4.trans (mul_le_mul_of_nonneg_left (by norm_num) h5)
  · refine h2.mono ?_
    have h3 := abs_le_sinh x
    have h4 : (12:ℝ) / 2 ^ 97 ≤ (|x| + 12) / 2 ^ 97 := by
      apply div_le_div_of_nonneg_right _ (by positivity); linarith
    have h5 := mul_le_mul_of_nonneg_right h4 (abs_nonneg (Real.sinh x))
    refine le_trans ?_ h5
    generalize |x| = β at *
    generalize |Real.sinh x| = S at *
    norm_num; linarith

/-- The square root of an approximation. -/
theorem sqrt_up (P : Platform) (hP : FloatText P.toStr) {d : Double} {x e : ℝ} (h : Ap d x e) (h1 : 1 ≤ x * 2 ^ 890) (h2 : x ≤ 2 ^ 900)
    (he : e ≤ x / 2 ^ 20) : ∃ r, Double.sqrt P d = some r ∧ Ap r (Real.sqrt x) (Real.sqrt x * (1.01 / 2 ^ 100) + 1.01 * e / Real.sqrt x) := by
  have hv := abs_le.mp h.2
  have he0 := h.nonneg
  have hx : 0 < x := by
    by_contra hc
    have := mul_nonpos_of_nonpos_of_nonneg (not_lt.mp hc) (show (0:ℝ) ≤ 2 ^ 890 by positivity)
    exact absurd (h1.trans this) (by norm_num)
  have b1 : x ≤ rv d * 2 := by
    clear h1 h2; norm_num at hv he ⊢; linarith [hv.1]
  have b2 : rv d ≤ 2 * x := by
    clear h1 h2; norm_num at hv he ⊢; linarith [hv.2]
  have hd0 : 0 < rv d := by linarith
  obtain ⟨r, r1, r2, r3⟩ := C67_sqrt P hP d h.1 (by
      have h3 : (1:ℝ) ≤ rv d * 2 ^ 900 := by
        refine h1.trans ((mul_le_mul_of_nonneg_right b1 (by positivity)).trans ?_)
        rw [mul_assoc, ← pow_succ']
        exact mul_le_mul_of_nonneg_left (pow_le_pow_right₀ (by norm_num) (by norm_num)) hd0.le
      unfold rv at h3; exact_mod_cast h3) (by
      have h3 : rv d ≤ 2 ^ 1000 := b2.trans ((mul_le_mul_of_nonneg_left h2 (by norm_num)).trans (by
        rw [← pow_succ']; exact pow_le_pow_right₀ (by norm_num) (by norm_num)))
      unfold rv at h3; exact_mod_cast h3)
  refine ⟨r, r1, ?_⟩
  change |rv r - Real.sqrt (rv d)| ≤ Real.sqrt (rv d) / 2 ^ 100 at r3
  clear h2 h1
  have sx : 0 < Real.sqrt x := Real.sqrt_pos.mpr hx
  have sd : 0 ≤ Real.sqrt (rv d) := Real.sqrt_nonneg _
  have m : |Real.sqrt (rv d) - Real.sqrt x| ≤ e / Real.sqrt x := by
    rw [le_div_iff₀ sx]
    have e1 : (Real.sqrt (rv d) - Real.sqrt x) * (Real.sqrt (rv d) + Real.sqrt x) = rv d - x := by
      have q1 := Real.mul_self_sqrt (show 0 ≤ rv d by linarith)
      have q2 := Real.mul_self_sqrt hx.le
      linear_combination q1 - q2
    have e2 := h.2
    rw [← e1, abs_mul, abs_of_pos (show 0 < Real.sqrt (rv d) + Real.sqrt x by linarith)] at e2
    refine le_trans ?_ e2
    exact mul_le_mul_of_nonneg_left (by linarith) (abs_nonneg _)
  have rA : Ap r (Real.sqrt (rv d)) (Real.sqrt (rv d) / 2 ^ 100) := ⟨r2, r3⟩
  refine (rA.move m).mono ?_
  have m2 := (abs_le.mp m).2
  rw [mul_div_assoc]
  have q0 : 0 ≤ e / Real.sqrt x := by positivity
  generalize e / Real.sqrt x = q at *
  generalize Real.sqrt (rv d) = S at *
  generalize Real.sqrt x = X at *
  norm_num at *
  linarith

theorem sinh_52 {x : ℝ} (h : |x| ≤ 51 / 1000) : |Real.sinh x| ≤ 52 / 1000 := by
  have h0 := abs_nonneg x
  have h1 := sinh_rem (A := x) (by linarith) 0
  have e0 : SS x (x ^ 2) 1 0 = x := by unfold SS; simp
  have e1 : |x * (x ^ 2) ^ 0 / ((2 * 0 + 1).factorial : ℝ)| = |x| := by simp
  rw [e0, e1] at h1
  have h2 := abs_sub_abs_le_abs_sub (Real.sinh x) x
  have h3 : x ^ 2 ≤ 27 / 10000 := by
    rw [← sq_abs]; exact (pow_le_pow_left₀ h0 h 2).trans (by norm_num)
  have h4 := mul_le_mul h h3 (sq_nonneg _) (by norm_num)
  linarith

/-- `sqrt(1 + s²)` for the hyperbolic sine of a small number. -/
theorem cosh_small (P : Platform) (hP : FloatText P.toStr) {s : Double} {x : ℝ} (h : |x| ≤ 51 / 1000)
    (hs : Ap s (Real.sinh x) (|x| * (73 / 2 ^ 106))) :
    ∃ c, Double.sqrt P (Double.ONE + s.sqr) = some c ∧ Ap c (Real.cosh x) (76 / 2 ^ 106) := by
  have h0 := abs_nonneg x
  have S1 := sinh_52 h
  have hs' := hs.mono (f := 4 / 2 ^ 106) (by
    generalize |x| = β at *
    norm_num; linarith)
  have q := hs'.sqr S1 (g := 1 / 2 ^ 106) (by norm_num) (by norm_num)
  have hc2 : 1 + Real.sinh x ^ 2 = Real.cosh x ^ 2 := by rw [Real.cosh_sq]; ring
  have C1 := Real.one_le_cosh x
  have C2 : Real.cosh x ^ 2 ≤ 1003 / 1000 := by
    rw [← hc2, ← sq_abs]
    have := pow_le_pow_left₀ (abs_nonneg _) S1 2
    norm_num at this ⊢; linarith
  have C2' : 1 ≤ Real.cosh x ^ 2 := one_le_pow₀ C1
  have hsum := (ap_one.add q (M := 1003 / 1000) (g := 9.1 / 2 ^ 106) (by norm_num) (by
      have : |Real.sinh x ^ 2| ≤ 1 := by
        rw [abs_of_nonneg (sq_nonneg _)]; linarith
      norm_num at this ⊢; linarith) (by rw [hc2, abs_of_nonneg (by linarith)]; exact C2) (by norm_num))
  rw [hc2] at hsum
  obtain ⟨c, c1, c2⟩ := sqrt_up P hP hsum (C2'.trans (le_mul_of_one_le_right (by linarith) (one_le_pow₀ (by norm_num)))) (C2.trans ((show (1003:ℝ)/1000 ≤ 2 ^ 1 by norm_num).trans
    (pow_le_pow_right₀ (by norm_num) (by norm_num)))) (by
    generalize Real.cosh x ^ 2 = Y at *
    norm_num; linarith)
  rw [Real.sqrt_sq (by linarith)] at c2
  refine ⟨c, c1, c2.mono ?_⟩
  have C3 : Real.cosh x ≤ 1003 / 1000 := by nlinarith
  have : 1.01 * (9.1 / 2 ^ 106) / Real.cosh x ≤ 1.01 * (9.1 / 2 ^ 106) := div_le_self (by norm_num) C1
  norm_num at this ⊢
  linarith

/-- A quotient of two approximations. -/
theorem div_close {n d N D δ : ℝ} (hD : 0 < D) (hN : |N| ≤ D) (h1 : |n - N| ≤ δ * D) (h2 : |d - D| ≤ δ * D) (hδ : δ ≤ 1 / 2 ^ 80) :
    |n / d - N / D| ≤ 2 * δ * (1 + 1 / 2 ^ 70) := by
  have hδ0 : 0 ≤ δ := by
    by_contra hc
    have := mul_neg_of_neg_of_pos (not_le.mp hc) hD
    linarith [abs_nonneg (n - N)]
  have hd := (abs_le.mp h2).1
  have h3 : δ * D ≤ 1 / 2 ^ 80 * D := mul_le_mul_of_nonneg_right hδ hD.le
  have hd0 : D * (1 - 1 / 2 ^ 80) ≤ d := by linarith
  have hd1 : 0 < d := lt_of_lt_of_le (mul_pos hD (by norm_num)) hd0
  have e : n / d - N / D = ((n - N) - N / D * (d - D)) / d := by field_simp; ring
  rw [e, abs_div, abs_of_pos hd1, div_le_iff₀ hd1]
  have q : |N / D| ≤ 1 := by rw [abs_div, abs_of_pos hD, div_le_one hD]; exact hN
  have h4 : |(n - N) - N / D * (d - D)| ≤ δ * D + δ * D := by
    refine (abs_sub _ _).trans (add_le_add h1 ?_)
    rw [abs_mul]
    exact (mul_le_of_le_one_left (abs_nonneg _) q).trans h2
  refine h4.trans ?_
  have h5 : D ≤ (1 + 1 / 2 ^ 70) * d := by norm_num at hd0 ⊢; linarith
  have h6 := mul_le_mul_of_nonneg_left h5 (show 0 ≤ 2 * δ by linarith)
  linarith

theorem tanh_abs_le (x : ℝ) : |Real.sinh x| ≤ Real.cosh x := by
  rw [Real.cosh_eq, Real.sinh_eq]
  have h1 := Real.exp_pos x
  have h2 := Real.exp_pos (-x)
  exact abs_le.mpr ⟨by linarith, by linarith⟩

theorem tanh_big {a : Double} (ha : a.Normalized) (h : |rv a| ≤ 599) (h2 : 49 / 1000 ≤ |rv a|) :
    ∃ e, Double.exp a = some e ∧ Ap ((e - e.recip) / (e + e.recip)) (Real.tanh (rv a)) ((2 * |rv a| + 25) / 2 ^ 102) := by
  obtain ⟨e, he, hp, hm⟩ := exp_sum ha (hi_600 ha h)
  refine ⟨e, he, ?_⟩
  have hge := sinh_ge_cosh h2
  have hle := tanh_abs_le (rv a)
  have C1 := Real.one_le_cosh (rv a)
  have β0 := abs_nonneg (rv a)
  have Cbig : Real.cosh (rv a) ≤ 2 ^ 870 := by
    have := (exp_870 (x := |rv a|) (by rw [abs_abs]; linarith)).1
    rw [← Real.cosh_abs, Real.cosh_eq]
    have h3 : Real.exp (-|rv a|) ≤ Real.exp |rv a| := Real.exp_le_exp.mpr (by linarith)
    linarith
  rw [Real.tanh_eq_sinh_div_cosh]
  generalize Real.cosh (rv a) = C at *
  generalize Real.sinh (rv a) = S at *
  generalize |rv a| = β at *
  generalize e - e.recip = n at *
  generalize e + e.recip = d at *
  have hδ : (β + 11.7) / 2 ^ 102 ≤ 1 / 2 ^ 90 := by
    rw [div_le_div_iff₀ (by positivity) (by positivity)]; norm_num; linarith
  have hfin : (2 * β + 25) / 2 ^ 102 = 2 * ((β + 11.7) / 2 ^ 102) + 1.6 / 2 ^ 102 := by
    rw [mul_div_assoc', ← add_div]; ring_nf
  rw [hfin]
  have δ0 : 0 ≤ (β + 11.7) / 2 ^ 102 := by positivity
  generalize (β + 11.7) / 2 ^ 102 = δ at *
  have hcl := div_close (n := rv n) (d := rv d) (N := 2 * S) (D := 2 * C) (δ := δ) (by linarith) (by rw [abs_mul, abs_two]; linarith) hm.2 hp.2
    (hδ.trans (by norm_num))
  rw [mul_div_mul_left _ _ (by norm_num)] at hcl
  have d1 := mul_le_mul_of_nonneg_right hδ (show 0 ≤ 2 * C by linarith)
  have v1 := (abs_le.mp hp.2)
  have n1 := hm.abs_le
  rw [abs_mul, abs_two] at n1
  have n2 := abs_sub_abs_le_abs_sub (2 * S) (rv n)
  rw [abs_sub_comm, abs_mul, abs_two] at n2
  have n3 := hm.2
  have rd1 : C ≤ rv d := by norm_num at d1; linarith [v1.1]
  have rn1 : 1 / 44 ≤ |rv n| := by norm_num at d1; linarith
  have rn2 : |rv n| ≤ 2 * 2 ^ 870 * 2 := by
    have : |rv n| ≤ 4 * C := by norm_num at d1; linarith
    refine this.trans (le_trans (mul_le_mul_of_nonneg_left Cbig (by norm_num)) (le_of_eq (by ring)))
  have rd0 : 0 < rv d := by linarith
  have q1 : |rv n / rv d| ≤ 2 := by
    have t1 : |S / C| ≤ 1 := by rw [abs_div, abs_of_pos (by linarith : 0 < C), div_le_one (by linarith)]; exact hle
    have t2 := abs_sub_abs_le_abs_sub (rv n / rv d) (S / C)
    norm_num at hcl hδ t1 t2 ⊢; linarith
  have q2 : 1 / 44 ≤ |rv n / rv d| := by
    have t1 : 1 / 22 ≤ |S / C| := by
      rw [abs_div, abs_of_pos (by linarith : 0 < C), le_div_iff₀ (by linarith)]; linarith
    have t2 := abs_sub_abs_le_abs_sub (S / C) (rv n / rv d)
    rw [abs_sub_comm] at t2
    norm_num at hcl hδ t1 t2 ⊢; linarith
  have up : ∀ {t : ℝ}, 1 / 44 ≤ t → 1 ≤ t * 2 ^ 950 := by
    intro t ht
    have h4 : (1:ℝ) ≤ t * 2 ^ 6 := by norm_num; linarith
    exact h4.trans (mul_le_mul_of_nonneg_left (pow_le_pow_right₀ (by norm_num) (by norm_num)) (by linarith))
  have hdv := rw_divw hm.1 hp.1 rd0.ne' (up rn1) (rn2.trans (by
      rw [mul_comm, ← mul_assoc, show (2:ℝ) * 2 = 2 ^ 2 by norm_num, ← pow_add]
      exact pow_le_pow_right₀ (by norm_num) (by norm_num))) (up q2) (q1.trans (by
      exact le_self_pow₀ (by norm_num) (by norm_num)))
  clear Cbig rn2 up
  refine (hdv.move hcl).mono ?_
  have hS : |S / C| ≤ 1 := by rw [abs_div, abs_of_pos (by linarith : 0 < C), div_le_one (by linarith)]; exact hle
  have t2 := abs_sub_abs_le_abs_sub (rv n / rv d) (S / C)
  generalize |rv n / rv d - S / C| = Z at *
  generalize |rv n / rv d| = Q at *
  generalize |S / C| = W at *
  norm_num at hcl hδ ⊢
  linarith

theorem tanh_small {s c : Double} {x : ℝ} (h0 : 1 ≤ |x| * 2 ^ 900) (h : |x| ≤ 51 / 1000)
    (hs : Ap s (Real.sinh x) (|x| * (73 / 2 ^ 106))) (hc : Ap c (Real.cosh x) (76 / 2 ^ 106)) :
    Ap (s / c) (Real.tanh x) (|Real.tanh x| * (168 / 2 ^ 106)) := by
  have b0 : 0 < |x| := by
    by_contra hcc
    have h3 : |x| = 0 := le_antisymm (not_lt.mp hcc) (abs_nonneg _)
    rw [h3, zero_mul] at h0; norm_num at h0
  have C1 := Real.one_le_cosh x
  have hle := abs_le_sinh x
  have hS := tanh_abs_le x
  have C2 : Real.cosh x ≤ 1003 / 1000 := by
    have h3 := Real.cosh_sq x
    have h4 := pow_le_pow_left₀ (abs_nonneg _) (sinh_52 h) 2
    rw [sq_abs] at h4
    nlinarith
  rw [Real.tanh_eq_sinh_div_cosh]
  generalize Real.sinh x = S at *
  generalize Real.cosh x = C at *
  generalize |x| = β at *
  have s1 := hs.2
  have c1 := abs_le.mp hc.2
  have s2 := abs_sub_abs_le_abs_sub S (rv s)
  rw [abs_sub_comm] at s2
  have s3 := hs.abs_le
  have cl : 999 / 1000 ≤ rv c := by norm_num at c1 ⊢; linarith [c1.1]
  have cu : rv c ≤ 11 / 10 := by norm_num at c1 ⊢; linarith [c1.2]
  have sl : β / 2 ≤ |rv s| := by norm_num at s1 ⊢; linarith
  have c0 : 0 < rv c := by linarith
  have ql : β / 4 ≤ |rv s / rv c| := by
    clear h0; rw [abs_div, abs_of_pos c0, le_div_iff₀ c0]; nlinarith
  have su : |rv s| ≤ 2 := by norm_num at s3; linarith
  have up : ∀ {t : ℝ}, β / 4 ≤ t → 1 ≤ t * 2 ^ 950 := by
    intro t ht
    have h4 : (1:ℝ) ≤ t * 2 ^ 902 := by
      refine h0.trans ?_
      refine (mul_le_mul_of_nonneg_right (show β ≤ t * 2 ^ 2 by norm_num; linarith) (by positivity)).trans (le_of_eq ?_)
      rw [mul_assoc, ← pow_add]
    exact h4.trans (mul_le_mul_of_nonneg_left (pow_le_pow_right₀ (by norm_num) (by norm_num)) (by linarith))
  have two : (4:ℝ) ≤ 2 ^ 1000 := (show (4:ℝ) = 2 ^ 2 by norm_num) ▸ pow_le_pow_right₀ (by norm_num) (by norm_num)
  have hdv := rw_divw hs.1 hc.1 c0.ne' (up (by linarith)) ((su.trans (by norm_num)).trans two) (up ql) (le_trans (by
    rw [abs_div, abs_of_pos c0, div_le_iff₀ c0]; linarith) two)
  clear two up h0
  have e : rv s / rv c - S / C = ((rv s - S) - S / C * (rv c - C)) / rv c := by field_simp; ring
  have hC0 : 0 < C := by linarith
  have m : |rv s / rv c - S / C| ≤ |S / C| * (151 / 2 ^ 106) := by
    rw [e, abs_div, abs_of_pos c0, div_le_iff₀ c0]
    have t1 : β ≤ |S / C| * (1003 / 1000) := by
      rw [abs_div, abs_of_pos hC0, div_mul_eq_mul_div, le_div_iff₀ hC0]
      have := mul_le_mul hle C2 hC0.le (abs_nonneg _)
      linarith
    have t2 : |(rv s - S) - S / C * (rv c - C)| ≤ β * (73 / 2 ^ 106) + |S / C| * (76 / 2 ^ 106) := by
      refine (abs_sub _ _).trans (add_le_add s1 ?_)
      rw [abs_mul]
      exact mul_le_mul_of_nonneg_left hc.2 (abs_nonneg _)
    refine t2.trans ?_
    have t3 := mul_le_mul_of_nonneg_left cl (show 0 ≤ |S / C| * (151 / 2 ^ 106) by positivity)
    refine le_trans ?_ t3
    generalize |S / C| = W at *
    norm_num; linarith
  refine (hdv.move m).mono ?_
  have t2 := abs_sub_abs_le_abs_sub (rv s / rv c) (S / C)
  have w0 := abs_nonneg (S / C)
  generalize |rv s / rv c - S / C| = Z at *
  generalize |rv s / rv c| = Q at *
  generalize |S / C| = W at *
  norm_num at m ⊢
  linarith

theorem rv_le_of {a : Double} {n : ℕ} (h : |a.val| ≤ n) : |rv a| ≤ n := by
  unfold rv; exact_mod_cast h

theorem rv_ge_of {a : Double} {k : ℕ} (h : 1 ≤ |a.val| * 2 ^ k) : 1 ≤ |rv a| * 2 ^ k := by
  unfold rv; exact_mod_cast h

/-- **C69.** `cosh` of every number of magnitude at most 599: relative error `(|a| + 12) / 2^102`. -/
theorem C69_cosh (a : Double) (ha : a.Normalized) (h : |a.val| ≤ 599) :
    ∃ r, Double.cosh a = some r ∧ r.Normalized ∧
      |(r.val : ℝ) - Real.cosh (a.val : ℝ)| ≤ (|(a.val : ℝ)| + 12) / 2 ^ 102 * Real.cosh (a.val : ℝ) := by
  obtain ⟨r, h1, h2⟩ := cosh_core ha (rv_le_of (n := 599) h)
  exact ⟨r, h1, h2.1, h2.2⟩

example : ∃ r, Double.cosh Double.PI = some r ∧ r.Normalized ∧
    |(r.val : ℝ) - Real.cosh ((Double.PI.val : ℚ) : ℝ)| ≤
      (|((Double.PI.val : ℚ) : ℝ)| + 12) / 2 ^ 102 * Real.cosh ((Double.PI.val : ℚ) : ℝ) :=
  C69_cosh _ (by decide +kernel) (by decide +kernel)

/-- **C69.** `sinh` of every number of magnitude at most 599 and at least `2^-900`: relative error `(|a| + 12) / 2^97`. -/
theorem C69_sinh (a : Double) (ha : a.Normalized) (h : |a.val| ≤ 599) (h0 : 1 ≤ |a.val| * 2 ^ 900) :
    ∃ r, Double.sinh a = some r ∧ r.Normalized ∧
      |(r.val : ℝ) - Real.sinh (a.val : ℝ)| ≤ (|(a.val : ℝ)| + 12) / 2 ^ 97 * |Real.sinh (a.val : ℝ)| := by
  obtain ⟨r, h1, h2⟩ := sinh_core ha (rv_le_of (n := 599) h) (rv_ge_of h0)
  have h3 := sinh_rel (x := rv a) (r := r) (h2.imp (fun h => h.2) (fun h => h.2))
  exact ⟨r, h1, h3.1, h3.2⟩

example : ∃ r, Double.sinh (-Double.PI) = some r ∧ r.Normalized ∧
    |(r.val : ℝ) - Real.sinh (((-Double.PI).val : ℚ) : ℝ)| ≤
      (|(((-Double.PI).val : ℚ) : ℝ)| + 12) / 2 ^ 97 * |Real.sinh (((-Double.PI).val : ℚ) : ℝ)| :=
  C69_sinh _ (by decide +kernel) (by decide +kernel) (by decide +kernel)

/-- **C69.** `sinh` of small numbers (the Taylor branch, which always ends): relative error `2^-99`. -/
theorem C69_sinh_small (a : Double) (ha : a.Normalized) (h : |a.val| ≤ mkRat 49 1000) (h0 : 1 ≤ |a.val| * 2 ^ 900) :
    ∃ r, Double.sinh a = some r ∧ r.Normalized ∧
      |(r.val : ℝ) - Real.sinh (a.val : ℝ)| ≤ |Real.sinh (a.val : ℝ)| / 2 ^ 99 := by
  have hx : |rv a| ≤ 49 / 1000 := by
    have := (Rat.cast_le (K := ℝ)).mpr h
    rw [Rat.mkRat_eq_div] at this
    push_cast at this
    exact this
  obtain ⟨r, h1, h2⟩ := sinh_core ha (by linarith) (rv_ge_of h0)
  refine ⟨r, h1, ?_⟩
  have h3 := abs_le_sinh (rv a)
  change r.Normalized ∧ |rv r - Real.sinh (rv a)| ≤ |Real.sinh (rv a)| / 2 ^ 99
  have h8 := abs_nonneg (rv a)
  rcases h2 with ⟨hg, -, -⟩ | ⟨-, h4, h5⟩
  · have := gt_f005 ha hg
    norm_num at this hx; linarith
  · refine ⟨h5.1, h5.2.trans ?_⟩
    generalize |rv a| = β at *
    generalize |Real.sinh (rv a)| = S at *
    norm_num at *
    linarith

example : ∃ r, Double.sinh Double.EPSILON = some r ∧ r.Normalized ∧
    |(r.val : ℝ) - Real.sinh ((Double.EPSILON.val : ℚ) : ℝ)| ≤ |Real.sinh ((Double.EPSILON.val : ℚ) : ℝ)| / 2 ^ 99 :=
  C69_sinh_small _ (by decide +kernel) (by decide +kernel) (by decide +kernel)

/-- **C69.** `sinh_cosh` returns both functions, each as accurate as above. -/
theorem C69_sinh_cosh (P : Platform) (hP : FloatText P.toStr) (a : Double) (ha : a.Normalized) (h : |a.val| ≤ 599)
    (h0 : 1 ≤ |a.val| * 2 ^ 900) :
    ∃ s c, Double.sinhCosh P a = some (s, c) ∧ s.Normalized ∧ c.Normalized ∧
      |(s.val : ℝ) - Real.sinh (a.val : ℝ)| ≤ (|(a.val : ℝ)| + 12) / 2 ^ 97 * |Real.sinh (a.val : ℝ)| ∧
      |(c.val : ℝ) - Real.cosh (a.val : ℝ)| ≤ (|(a.val : ℝ)| + 12) / 2 ^ 102 * Real.cosh (a.val : ℝ) := by
  have hR := rv_le_of (n := 599) h
  have h0R := rv_ge_of h0
  clear h h0
  push_cast at hR
  change ∃ s c, Double.sinhCosh P a = some (s, c) ∧ s.Normalized ∧ c.Normalized ∧
      |rv s - Real.sinh (rv a)| ≤ (|rv a| + 12) / 2 ^ 97 * |Real.sinh (rv a)| ∧
      |rv c - Real.cosh (rv a)| ≤ (|rv a| + 12) / 2 ^ 102 * Real.cosh (rv a)
  have hz : rv a ≠ 0 := by intro hc; rw [hc, abs_zero, zero_mul] at h0R; norm_num at h0R
  unfold Double.sinhCosh Double.preSinhCosh
  obtain ⟨c1, c2, c3, -⟩ := class_of ha hz
  rw [if_neg (by rw [c1]; simp), if_neg (by rw [c2]; simp)]
  dsimp only
  obtain ⟨s, s1, s2⟩ := sinh_core ha hR h0R
  have s3 := sinh_rel (x := rv a) (r := s) (s2.imp (fun h => h.2) (fun h => h.2))
  have b0 := abs_nonneg (rv a)
  have C1 := Real.one_le_cosh (rv a)
  by_cases hl : F64.le a.abs.hi Double.f005 = true
  · rw [if_pos hl, s1]
    rcases s2 with ⟨hg, -⟩ | ⟨-, h4, h5⟩
    · exact absurd hg ((le_f005 ha).mp hl)
    · obtain ⟨c, e1, e2⟩ := cosh_small P hP h4 h5
      simp only [Option.bind_some, e1, Option.map_some]
      refine ⟨s, c, rfl, s3.1, e2.1, s3.2, e2.2.trans ?_⟩
      have h4 : (12:ℝ) / 2 ^ 102 ≤ (|rv a| + 12) / 2 ^ 102 := by
        apply div_le_div_of_nonneg_right _ (by positivity); clear h0R; linarith
      have h5 := mul_le_mul h4 C1 (by norm_num) (by positivity)
      refine le_trans ?_ h5
      norm_num
  · rw [if_neg hl]
    have hg : F64.gt a.abs.hi Double.f005 = true := by
      by_contra hc; exact hl ((le_f005 ha).mpr hc)
    obtain ⟨e, he, hp, hm⟩ := exp_sum ha (hi_600 ha hR)
    have h2 := (show (49:ℝ) / 1000 ≤ 49.5 / 1000 by norm_num).trans (gt_f005 ha hg)
    have h3 := sinh_ge_cosh h2
    have hs := half_diff C1 (by linarith) (by linarith) hm
    have hc := half_sum C1 (by linarith) hp
    have hs' := sinh_rel (x := rv a) (Or.inl ⟨h2, hs⟩)
    rw [he]
    exact ⟨_, _, rfl, hs'.1, hc.1, hs'.2, hc.2⟩

example (P : Platform) (h : P.toStr = text17) : ∃ s c, Double.sinhCosh P Double.EPSILON = some (s, c) ∧ s.Normalized ∧ c.Normalized ∧
    |(s.val : ℝ) - Real.sinh ((Double.EPSILON.val : ℚ) : ℝ)| ≤
      (|((Double.EPSILON.val : ℚ) : ℝ)| + 12) / 2 ^ 97 * |Real.sinh ((Double.EPSILON.val : ℚ) : ℝ)| ∧
    |(c.val : ℝ) - Real.cosh ((Double.EPSILON.val : ℚ) : ℝ)| ≤
      (|((Double.EPSILON.val : ℚ) : ℝ)| + 12) / 2 ^ 102 * Real.cosh ((Double.EPSILON.val : ℚ) : ℝ) :=
  C69_sinh_cosh P (h ▸ text17_ok) _ (by decide +kernel) (by decide +kernel) (by decide +kernel)

theorem tanh_core (P : Platform) (hP : FloatText P.toStr) {a : Double} (ha : a.Normalized) (hR : |rv a| ≤ 599)
    (h0R : 1 ≤ |rv a| * 2 ^ 900) : ∃ r, Double.tanh P a = some r ∧
      ((49 / 1000 ≤ |rv a| ∧ Ap r (Real.tanh (rv a)) ((2 * |rv a| + 25) / 2 ^ 102)) ∨
        (|rv a| ≤ 51 / 1000 ∧ Ap r (Real.tanh (rv a)) (|Real.tanh (rv a)| * (168 / 2 ^ 106)))) := by
  have hz : rv a ≠ 0 := by intro hc; rw [hc, abs_zero, zero_mul] at h0R; norm_num at h0R
  unfold Double.tanh Double.preTanh
  obtain ⟨c1, c2, c3, -⟩ := class_of ha hz
  rw [if_neg (by rw [c1]; simp), if_neg (by rw [c2]; simp), if_neg (by rw [c3]; simp)]
  dsimp only
  by_cases hg : F64.gt a.abs.hi Double.f005 = true
  · rw [if_pos hg]
    have h2 := (show (49:ℝ) / 1000 ≤ 49.5 / 1000 by norm_num).trans (gt_f005 ha hg)
    obtain ⟨e, he, h3⟩ := tanh_big ha hR h2
    rw [he]
    exact ⟨_, rfl, Or.inl ⟨h2, h3⟩⟩
  · rw [if_neg hg]
    have h2 := not_gt_f005 ha hg
    obtain ⟨s, s1, s2⟩ := sinh_core ha hR h0R
    rcases s2 with ⟨hg', -⟩ | ⟨-, h4, h5⟩
    · exact absurd hg' hg
    · obtain ⟨c, e1, e2⟩ := cosh_small P hP h4 h5
      have e : Double.sinhCosh P a = some (s, c) := by
        unfold Double.sinhCosh Double.preSinhCosh
        rw [if_neg (by rw [c1]; simp), if_neg (by rw [c2]; simp)]
        dsimp only
        rw [if_pos ((le_f005 ha).mpr hg), s1]
        simp only [Option.bind_some, e1, Option.map_some]
      rw [e]
      exact ⟨_, rfl, Or.inr ⟨h2, tanh_small h0R h2 h5 e2⟩⟩

/-- **C69.** `tanh` of every number of magnitude at most 599 and at least `2^-900`: relative error `(|a| + 13) / 2^96`. -/
theorem C69_tanh (P : Platform) (hP : FloatText P.toStr) (a : Double) (ha : a.Normalized) (h : |a.val| ≤ 599)
    (h0 : 1 ≤ |a.val| * 2 ^ 900) :
    ∃ r, Double.tanh P a = some r ∧ r.Normalized ∧
      |(r.val : ℝ) - Real.tanh (a.val : ℝ)| ≤ (|(a.val : ℝ)| + 13) / 2 ^ 96 * |Real.tanh (a.val : ℝ)| := by
  have hR := rv_le_of (n := 599) h
  have h0R := rv_ge_of h0
  clear h h0
  push_cast at hR
  obtain ⟨r, r1, r2⟩ := tanh_core P hP ha hR h0R
  clear h0R
  refine ⟨r, r1, ?_⟩
  change r.Normalized ∧ |rv r - Real.tanh (rv a)| ≤ (|rv a| + 13) / 2 ^ 96 * |Real.tanh (rv a)|
  have b0 := abs_nonneg (rv a)
  have T0 := abs_nonneg (Real.tanh (rv a))
  rcases r2 with ⟨h1, h2⟩ | ⟨h1, h2⟩
  · refine ⟨h2.1, h2.2.trans ?_⟩
    have C1 := Real.one_le_cosh (rv a)
    have h3 : 1 / 22 ≤ |Real.tanh (rv a)| := by
      rw [Real.tanh_eq_sinh_div_cosh, abs_div, abs_of_pos (show 0 < Real.cosh (rv a) by linarith), le_div_iff₀ (by linarith)]
      have := sinh_ge_cosh h1
      linarith
    have h4 := mul_le_mul_of_nonneg_left h3 (show 0 ≤ (|rv a| + 13) / 2 ^ 96 by positivity)
    refine le_trans ?_ h4
    generalize |rv a| = β at *
    norm_num; linarith
  · refine ⟨h2.1, h2.2.trans ?_⟩
    have h4 : (13:ℝ) / 2 ^ 96 ≤ (|rv a| + 13) / 2 ^ 96 := by
      apply div_le_div_of_nonneg_right _ (by positivity); linarith
    have h5 := mul_le_mul_of_nonneg_right h4 T0
    refine le_trans ?_ h5
    generalize |Real.tanh (rv a)| = T at *
    norm_num; linarith

example (P : Platform) (h : P.toStr = text17) : ∃ r, Double.tanh P Double.E = some r ∧ r.Normalized ∧
    |(r.val : ℝ) - Real.tanh ((Double.E.val : ℚ) : ℝ)| ≤
      (|((Double.E.val : ℚ) : ℝ)| + 13) / 2 ^ 96 * |Real.tanh ((Double.E.val : ℚ) : ℝ)| :=
  C69_tanh P (h ▸ text17_ok) _ (by decide +kernel) (by decide +kernel) (by decide +kernel)

theorem neg_lo {a : Double} (ha : a.Normalized) (h : a.hi.toRat < -600 ∨ 708 < a.hi.toRat) :
    F64.gt a.abs.hi Double.f005 = true ∧ a.isNan = false ∧ a.isZero = false ∧ a.isInfinite = false := by
  have h1 : 600 < |fr a.hi| := by
    rcases h with h | h
    · have : fr a.hi < -600 := by rw [fr_toRat]; exact_mod_cast h
      rw [abs_of_neg (by linarith)]; linarith
    · have : 708 < fr a.hi := by rw [fr_toRat]; exact_mod_cast h
      rw [abs_of_pos (by linarith)]; linarith
  have h2 := fr_hi_two ha
  have hz : rv a ≠ 0 := by intro hc; rw [hc, abs_zero] at h2; linarith
  obtain ⟨c1, c2, c3, -⟩ := class_of ha hz
  refine ⟨?_, c1, c2, c3⟩
  by_contra hc
  have := not_gt_f005 ha hc
  linarith

/-- **C69 refuted for large arguments.** `tanh` is NaN instead of `±1` for every finite argument above 708 or below -600 (the
exponential has overflowed or been flushed to zero, and the function divides infinity by infinity). -/
theorem C69_tanh_refuted (P : Platform) (a : Double) (ha : a.Normalized) (h : a.hi.toRat < -600 ∨ 708 < a.hi.toRat) :
    ∃ r, Double.tanh P a = some r ∧ r.isNan = true := by
  obtain ⟨g, c1, c2, c3⟩ := neg_lo ha h
  unfold Double.tanh Double.preTanh
  rw [if_neg (by rw [c1]; simp), if_neg (by rw [c2]; simp), if_neg (by rw [c3]; simp)]
  dsimp only
  rw [if_pos g]
  rcases h with h | h
  · rw [C42_low a ha.1.1 h]
    exact ⟨_, rfl, by decide +kernel⟩
  · rw [C42_high a ha.1.1 h]
    exact ⟨_, rfl, by decide +kernel⟩

example (P : Platform) : ∃ r, Double.tanh P (Double.ofSmallInt 709) = some r ∧ r.isNan = true :=
  C69_tanh_refuted P _ (by decide +kernel) (by decide +kernel)

/-- **C69 refuted for arguments below -600.** `cosh` is infinity and `sinh` negative infinity for every finite argument below
-600, although the true values down to about -710 are finite (and `cosh 601` is computed as a finite number). -/
theorem C69_neg_refuted (a : Double) (ha : a.Normalized) (h : a.hi.toRat < -600) :
    Double.cosh a = some Double.INFINITY ∧ Double.sinh a = some Double.NEG_INFINITY := by
  obtain ⟨g, c1, c2, c3⟩ := neg_lo ha (Or.inl h)
  unfold Double.cosh Double.preCosh Double.sinh Double.preSinh
  rw [if_neg (by rw [c1]; simp), if_neg (by rw [c2]; simp), if_neg (by rw [c3]; simp), if_neg (by rw [c1]; simp),
    if_neg (by rw [c2]; simp), if_neg (by rw [c3]; simp)]
  dsimp only
  rw [if_pos g, C42_low a ha.1.1 h]
  exact ⟨congrArg some (by decide +kernel), congrArg some (by decide +kernel)⟩

example : Double.cosh (Double.ofSmallInt (-601)) = some Double.INFINITY ∧
    ∃ r, Double.cosh (Double.ofSmallInt 601) = some r ∧ r.isFinite = true := by
  refine ⟨(C69_neg_refuted _ (by decide +kernel) (by decide +kernel)).1, ?_⟩
  have : (Double.cosh (Double.ofSmallInt 601)).map (fun r => r.isFinite) = some true := by decide +kernel
  rw [Option.map_eq_some_iff] at this
  exact this

end Verif
