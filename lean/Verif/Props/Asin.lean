import Verif.Props.Atan
import Verif.Props.FuncSpecial

/-!
# C71: the accuracy of `asin` and `acos`
-/

namespace Verif

open F64

/-- `1 - x²` as computed. -/
theorem asin_diff {a : Double} (ha : a.Normalized) (h1 : |rv a| ≤ 1 - 1 / 2 ^ 78) :
    1 / 2 ^ 78 ≤ 1 - rv a ^ 2 ∧ Ap (Double.ONE - a.sqr) (1 - rv a ^ 2) (9 / 2 ^ 106 * rv a ^ 2 + 8.1 / 2 ^ 106 * (1 - rv a ^ 2)) := by
  have hs := sq_nonneg (rv a)
  have hD : 1 / 2 ^ 78 ≤ 1 - rv a ^ 2 := by
    rw [← sq_abs]
    have h0 := abs_nonneg (rv a)
    have h2 : |rv a| ^ 2 ≤ |rv a| := by rw [sq]; exact mul_le_of_le_one_right h0 (by norm_num at h1; linarith)
    linarith
  have hs1 : rv a ^ 2 ≤ 1 := by norm_num at hD; linarith
  have b1 : |rv a * rv a| ≤ 2 ^ 1020 := by
    rw [← sq, abs_of_nonneg hs]; exact hs1.trans (one_le_pow₀ (by norm_num))
  have q1 := (rw_sqr ha b1).1
  have ht := tau_le
  have ht0 := tau_pos
  have q2 := q1.abs_le
  rw [abs_of_nonneg hs] at q2
  have s := rw_sub ap_one.1 q1.1 (by rw [one_rv, abs_one]; exact one_le_pow₀ (by norm_num))
    (pow_le_1020 (by clear b1; norm_num at q2 ht ⊢; linarith) (by norm_num))
  rw [one_rv] at s
  have m : |1 - rv a.sqr - (1 - rv a ^ 2)| ≤ 9 / 2 ^ 106 * rv a ^ 2 + tau := by
    rw [sub_sub_sub_cancel_left, abs_sub_comm]; exact q1.2
  refine ⟨hD, (s.move m).mono ?_⟩
  have h3 := abs_sub_abs_le_abs_sub (1 - rv a.sqr) (1 - rv a ^ 2)
  rw [abs_of_nonneg (show 0 ≤ 1 - rv a ^ 2 by linarith)] at h3
  have ht' : tau ≤ 1 / 2 ^ 78 / 2 ^ 120 := by
    have h := tau_mul (k := 198) (by norm_num)
    norm_num at h ⊢; linarith
  clear b1 q2
  generalize |1 - rv a.sqr - (1 - rv a ^ 2)| = Z at *
  generalize |1 - rv a.sqr| = V at *
  generalize rv a ^ 2 = Y at *
  norm_num at m ht' hD ⊢
  linarith

/-- The other side of the triangle. -/
theorem asin_root (P : Platform) (hT : FloatText P.toStr) {a : Double} (ha : a.Normalized) (h1 : |rv a| ≤ 1 - 1 / 2 ^ 78) :
    ∃ c ε, Double.sqrt P (Double.ONE - a.sqr) = some c ∧ Ap c (Real.sqrt (1 - rv a ^ 2)) ε ∧
      ε ≤ (73 * Real.sqrt (1 - rv a ^ 2) + 9.1 * rv a ^ 2 / Real.sqrt (1 - rv a ^ 2)) / 2 ^ 106 ∧
      ε ≤ Real.sqrt (1 - rv a ^ 2) / 2 ^ 20 ∧ 1 / 2 ^ 39 ≤ Real.sqrt (1 - rv a ^ 2) ∧ Real.sqrt (1 - rv a ^ 2) ≤ 1 := by
  obtain ⟨hD, d0⟩ := asin_diff ha h1
  have hs := sq_nonneg (rv a)
  obtain ⟨c, c1, c2⟩ := sqrt_up P hT d0 (by
      have : (1:ℝ) ≤ (1 - rv a ^ 2) * 2 ^ 78 := by norm_num at hD ⊢; linarith
      exact this.trans (mul_le_mul_of_nonneg_left (pow_le_pow_right₀ (by norm_num) (by norm_num)) (by norm_num at hD; linarith)))
    ((show 1 - rv a ^ 2 ≤ 1 by linarith).trans (one_le_pow₀ (by norm_num))) (by norm_num at hD ⊢; linarith)
  have hDe := Real.sq_sqrt (show 0 ≤ 1 - rv a ^ 2 by norm_num at hD; linarith)
  have hC1 : Real.sqrt (1 - rv a ^ 2) ≤ 1 := Real.sqrt_le_one.mpr (by linarith)
  have hCl : 1 / 2 ^ 39 ≤ Real.sqrt (1 - rv a ^ 2) := by
    apply Real.le_sqrt_of_sq_le; norm_num at hD ⊢; linarith
  generalize Real.sqrt (1 - rv a ^ 2) = C at *
  have C0 : 0 < C := lt_of_lt_of_le (by norm_num) hCl
  refine ⟨c, _, c1, c2, ?_, ?_, hCl, hC1⟩
  · rw [← hDe, show 1.01 * (9 / 2 ^ 106 * rv a ^ 2 + 8.1 / 2 ^ 106 * C ^ 2) / C =
        1.01 * 9 / 2 ^ 106 * (rv a ^ 2 / C) + 1.01 * 8.1 / 2 ^ 106 * C by field_simp, mul_div_assoc 9.1]
    have := div_nonneg hs C0.le
    generalize rv a ^ 2 / C = W at *
    norm_num; linarith
  · have k : 1.01 * (9 / 2 ^ 106 * rv a ^ 2 + 8.1 / 2 ^ 106 * (1 - rv a ^ 2)) / C ≤ 10 / 2 ^ 28 * C := by
      rw [div_le_iff₀ C0, mul_assoc, ← sq, hDe]
      norm_num at hD ⊢; linarith
    generalize 1.01 * (9 / 2 ^ 106 * rv a ^ 2 + 8.1 / 2 ^ 106 * (1 - rv a ^ 2)) / C = W at *
    norm_num at k ⊢; linarith

theorem angle_arcsin {x : ℝ} (h : |x| ≤ 1) : angle x (Real.sqrt (1 - x ^ 2)) = Real.arcsin x := by
  have p := Real.pi_pos
  have h' := abs_le.mp h
  refine angle_eq (r := 1) one_pos ?_ ?_ ?_ ?_
  · linarith [Real.neg_pi_div_two_le_arcsin x]
  · linarith [Real.arcsin_le_pi_div_two x]
  · rw [Real.sin_arcsin h'.1 h'.2, one_mul]
  · rw [Real.cos_arcsin, one_mul]

theorem angle_arccos {x : ℝ} (h : |x| ≤ 1) : angle (Real.sqrt (1 - x ^ 2)) x = Real.arccos x := by
  have p := Real.pi_pos
  have h' := abs_le.mp h
  refine angle_eq (r := 1) one_pos ?_ (Real.arccos_le_pi x) ?_ ?_
  · linarith [Real.arccos_nonneg x]
  · rw [Real.sin_arccos, one_mul]
  · rw [Real.cos_arccos h'.1 h'.2, one_mul]

/-- The angle moves little when the computed side replaces the exact one. -/
theorem side_move {X C c ε : ℝ} (hC : C = Real.sqrt (1 - X ^ 2)) (h : |X| ≤ 1) (C0 : 0 < C) (hc : |c - C| ≤ ε) (hε : ε ≤ C / 2 ^ 20) :
    0 < c ∧ |angle X c - Real.arcsin X| ≤ 1.58 * (|X| * ε) ∧ |angle c X - Real.arccos X| ≤ 1.58 * (|X| * ε) := by
  have hx2 : X ^ 2 ≤ 1 := by rw [← sq_abs]; exact pow_le_one₀ (abs_nonneg _) h
  have hsq : C ^ 2 = 1 - X ^ 2 := by rw [hC]; exact Real.sq_sqrt (by linarith)
  have hv := abs_le.mp hc
  have c9 : 0.9999 * C ≤ c := by norm_num at hε ⊢; linarith [hv.1]
  have c0 : 0 < c := lt_of_lt_of_le (by positivity) c9
  have hyp1 : ∀ {y x : ℝ}, y ^ 2 + x ^ 2 = X ^ 2 + C ^ 2 → hyp y x = 1 := by
    intro y x e; unfold hyp; rw [e, hsq]; simp
  have hyp2 : ∀ {y x : ℝ}, y ^ 2 + x ^ 2 = X ^ 2 + c ^ 2 → 0.999 ≤ hyp y x := by
    intro y x e; unfold hyp; rw [e]
    apply Real.le_sqrt_of_sq_le
    have := mul_self_le_mul_self (by positivity) c9
    have h2 := sq_nonneg X
    norm_num at this ⊢; nlinarith
  have e0 := (abs_nonneg _).trans hc
  have fin : ∀ {N h1 h2 : ℝ}, N ≤ |X| * ε → 0.999 ≤ h1 → h2 = 1 → 1.571 * (N / (h1 * h2)) ≤ 1.58 * (|X| * ε) := by
    intro N h1 h2 k1 k2 k3
    rw [k3, mul_one]
    have : N / h1 ≤ |X| * ε / 0.999 := by
      refine (div_le_div_of_nonneg_right k1 (by linarith)).trans ?_
      exact div_le_div_of_nonneg_left (mul_nonneg (abs_nonneg _) e0) (by norm_num) k2
    have p := mul_nonneg (abs_nonneg X) e0
    norm_num at this ⊢; linarith
  refine ⟨c0, ?_, ?_⟩
  · rw [← angle_arcsin h, ← hC]
    refine (angle_close (mul_pos c0 C0) (mul_self_nonneg X) Iff.rfl).trans (fin ?_ (hyp2 rfl) (hyp1 rfl))
    rw [show X * C - c * X = X * (C - c) by ring, abs_mul, abs_sub_comm C]
    exact mul_le_mul_of_nonneg_left hc (abs_nonneg _)
  · rw [← angle_arccos h, ← hC]
    rcases eq_or_ne X 0 with rfl | hX
    · have p := Real.pi_pos
      have k : ∀ {t : ℝ}, 0 < t → angle t 0 = Real.pi / 2 := fun ht =>
        angle_eq ht (by linarith) (by linarith) (by simp) (by simp)
      rw [k c0, k C0]; simp
    · refine (angle_close (lt_of_le_of_ne (mul_self_nonneg X) (Ne.symm (mul_self_ne_zero.mpr hX))) (mul_pos c0 C0).le ?_).trans
        (fin ?_ (hyp2 (by ring)) (hyp1 (by ring)))
      · constructor <;> intro h <;> linarith
      · rw [show c * X - X * C = X * (c - C) by ring, abs_mul]
        exact mul_le_mul_of_nonneg_left hc (abs_nonneg _)

theorem pre_asin_none {a : Double} (ha : a.Normalized) (h1 : |rv a| < 1) :
    Double.preAsin a = none ∧ Double.preAcos a = none := by
  obtain ⟨n1, v1⟩ := C41_abs_val a ha
  have c1 := C12_compare a.abs Double.ONE n1 ap_one.1
  have c2 := C12_compare a Double.ONE ha ap_one.1
  have c3 := C12_compare a Double.NEG_ONE ha fs_neg_one_ok.1
  rw [v1, show Double.ONE.val = 1 by decide +kernel] at c1
  rw [show Double.ONE.val = 1 by decide +kernel] at c2
  rw [fs_neg_one_ok.2] at c3
  have hq : |a.val| < 1 := by unfold rv at h1; exact_mod_cast h1
  have hq' := abs_lt.mp hq
  have g1 : ¬ (Double.gt a.abs Double.ONE = true) := by rw [c1.2.2.1]; exact not_lt.mpr hq.le
  have g2 : ¬ (Double.eq a Double.ONE = true) := by rw [c2.2.2.2.2]; exact hq'.2.ne
  have g3 : ¬ (Double.eq a Double.NEG_ONE = true) := by rw [c3.2.2.2.2]; exact hq'.1.ne'
  unfold Double.preAsin Double.preAcos
  rw [if_neg g1, if_neg g2, if_neg g3, if_neg g1, if_neg g2, if_neg g3]
  exact ⟨rfl, rfl⟩

theorem rng_side {c : ℝ} (h1 : 1 / 2 ^ 40 ≤ c) (h2 : c ≤ 2) : Rng c := by
  have c0 : 0 < c := lt_of_lt_of_le (by norm_num) h1
  rw [← abs_of_pos c0] at h1 h2
  constructor
  · have : 1 ≤ |c| * 2 ^ 40 := by norm_num at h1 ⊢; linarith
    exact this.trans (mul_le_mul_of_nonneg_left (pow_le_pow_right₀ (by norm_num) (by norm_num)) (abs_nonneg _))
  · exact pow_le_1020 (by norm_num; linarith) (by norm_num)

/-- The arithmetic of the two bounds. -/
theorem asin_total {X C ε : ℝ} (hX : |X| ≤ 1) (hsq : C ^ 2 = 1 - X ^ 2) (C0 : 0 < C)
    (h1 : ε ≤ (73 * C + 9.1 * X ^ 2 / C) / 2 ^ 106) : 1.58 * (|X| * ε) ≤ (3.7 + 1 / C) / 2 ^ 102 := by
  have n0 := abs_nonneg X
  have k1 : |X| * C ≤ 1 / 2 := by
    have := sq_nonneg (|X| - C); rw [← sq_abs X] at hsq; nlinarith
  have k2 : |X| * (X ^ 2 / C) ≤ 1 / C := by
    rw [← mul_div_assoc]
    refine div_le_div_of_nonneg_right ?_ C0.le
    rw [← sq_abs X]; exact mul_le_one₀ hX (sq_nonneg _) (pow_le_one₀ n0 hX)
  have k3 := mul_le_mul_of_nonneg_left h1 n0
  rw [mul_div_assoc 9.1] at k3
  have k4 : |X| * ((73 * C + 9.1 * (X ^ 2 / C)) / 2 ^ 106) = (73 * (|X| * C) + 9.1 * (|X| * (X ^ 2 / C))) / 2 ^ 106 := by ring
  rw [k4] at k3
  have k5 : 0 < 1 / C := by positivity
  generalize |X| * C = U at *
  generalize |X| * (X ^ 2 / C) = V at *
  generalize |X| * ε = W at *
  generalize 1 / C = R at *
  norm_num at k3 ⊢; linarith

/-- **C71.** `asin` of every normalized number of magnitude at most `1 - 2^-78` that is zero or at least `2^-400`; near ±1, where
`1 - a²` cancels, the error grows like `1 / sqrt(1 - a²)`. -/
theorem C71_asin (P : Platform) (hT : FloatText P.toStr) (hA2 : LibmAtan2 P) (a : Double) (ha : a.Normalized)
    (h0 : a.val = 0 ∨ 1 ≤ |a.val| * 2 ^ 400) (h1 : |a.val| ≤ 1 - 1 / 2 ^ 78) :
    ∃ r, Double.asin P a = some r ∧ r.Normalized ∧
      |(r.val : ℝ) - Real.arcsin (a.val : ℝ)| ≤ (74 + 1 / Real.sqrt (1 - (a.val : ℝ) ^ 2)) / 2 ^ 102 ∧
      (|a.val| ≤ 0.05 → |(r.val : ℝ) - Real.arcsin (a.val : ℝ)| ≤ |Real.arcsin (a.val : ℝ)| / 2 ^ 96) := by
  have h1R : |rv a| ≤ 1 - 1 / 2 ^ 78 := by
    have := (Rat.cast_le (K := ℝ)).mpr h1
    push_cast at this; exact this
  have a1 : |rv a| < 1 := by norm_num at h1R; linarith
  have hM : Mid (rv a) := by
    apply mid_of
    rcases h0 with h | h
    · exact Or.inl h
    · refine Or.inr ⟨h, h1.trans ((show (1:ℚ) - 1 / 2 ^ 78 ≤ 1 by norm_num).trans (one_le_pow₀ (by norm_num)))⟩
  obtain ⟨c, ε, c1, c2, c3, c4, c5, c6⟩ := asin_root P hT ha h1R
  have C0 : 0 < Real.sqrt (1 - rv a ^ 2) := lt_of_lt_of_le (by norm_num) c5
  obtain ⟨cp, m1, -⟩ := side_move rfl a1.le C0 c2.2 c4
  have hv := abs_le.mp c2.2
  have rc : Rng (rv c) := rng_side (by norm_num at c4 c5 ⊢; linarith [hv.1]) (by norm_num at c4 ⊢; linarith [hv.2])
  obtain ⟨r, r1, r2, r3⟩ := atan2_all P hT hA2 ha c2.1 hM (Or.inr rc) (Or.inr cp.ne')
  have hq : |angle (rv a) (rv c)| ≤ Real.pi / 2 := by unfold angle; rw [Complex.abs_arg_le_pi_div_two_iff]; exact cp.le
  have hpi := pi_bds.2
  have tot := asin_total a1.le (Real.sq_sqrt (by rw [← sq_abs]; have := pow_le_one₀ (abs_nonneg (rv a)) a1.le (n := 2); linarith)) C0 c3
  refine ⟨r, ?_, r2.1, ?_, ?_⟩
  · unfold Double.asin
    rw [(pre_asin_none ha a1).1]
    dsimp only
    rw [c1, Option.bind_some, r1]
  · change |rv r - Real.arcsin (rv a)| ≤ (74 + 1 / Real.sqrt (1 - rv a ^ 2)) / 2 ^ 102
    refine ((r2.move m1).mono ?_).2
    have q2 : angle (rv a) (rv c) ^ 2 ≤ 2.468 := by
      rw [← sq_abs]
      have h5 : |angle (rv a) (rv c)| ≤ 1.5708 := by norm_num at hpi ⊢; linarith
      have := pow_le_pow_left₀ (abs_nonneg _) h5 2
      norm_num at this ⊢; linarith
    generalize 1 / Real.sqrt (1 - rv a ^ 2) = R at *
    generalize 1.58 * (|rv a| * ε) = W at *
    generalize angle (rv a) (rv c) ^ 2 = V at *
    norm_num at tot q2 hpi ⊢; linarith
  · intro g2
    have g2R : |rv a| ≤ 0.05 := by
      have := (Rat.cast_le (K := ℝ)).mpr g2
      push_cast at this; exact this
    change |rv r - Real.arcsin (rv a)| ≤ |Real.arcsin (rv a)| / 2 ^ 96
    clear g2 h0 h1 hM
    have sa : Real.sin (Real.arcsin (rv a)) = rv a := Real.sin_arcsin (abs_le.mp a1.le).1 (abs_le.mp a1.le).2
    have l1 : |rv a| ≤ |Real.arcsin (rv a)| := by
      have := Real.abs_sin_le_abs (x := Real.arcsin (rv a)); rwa [sa] at this
    have u1 : |Real.arcsin (rv a)| ≤ 0.0788 := by
      have hp2 : |Real.arcsin (rv a)| ≤ Real.pi / 2 := abs_le.mpr ⟨Real.neg_pi_div_two_le_arcsin _, Real.arcsin_le_pi_div_two _⟩
      have := Real.mul_abs_le_abs_sin hp2
      rw [sa, div_mul_eq_mul_div, div_le_iff₀ Real.pi_pos] at this
      have h6 := mul_le_mul_of_nonneg_left hpi.le (abs_nonneg (rv a))
      norm_num at this h6 g2R ⊢; linarith
    have hC : 0.9 ≤ Real.sqrt (1 - rv a ^ 2) := by
      apply Real.le_sqrt_of_sq_le
      have := pow_le_pow_left₀ (abs_nonneg _) g2R 2
      rw [sq_abs] at this
      norm_num at this ⊢; linarith
    have hE : ε ≤ 74 / 2 ^ 106 := by
      have : 9.1 * rv a ^ 2 / Real.sqrt (1 - rv a ^ 2) ≤ 1 := by
        rw [div_le_one C0]
        have := pow_le_pow_left₀ (abs_nonneg _) g2R 2
        rw [sq_abs] at this
        norm_num at this hC ⊢; linarith
      generalize 9.1 * rv a ^ 2 / Real.sqrt (1 - rv a ^ 2) = W at *
      norm_num at c3 ⊢; linarith
    have m2 : |angle (rv a) (rv c) - Real.arcsin (rv a)| ≤ 117 / 2 ^ 106 * |Real.arcsin (rv a)| := by
      refine m1.trans ?_
      have := mul_le_mul l1 hE ((abs_nonneg _).trans c2.2) (abs_nonneg _)
      have A0 := abs_nonneg (Real.arcsin (rv a))
      norm_num at this ⊢; linarith
    have t1 := abs_sub_abs_le_abs_sub (angle (rv a) (rv c)) (Real.arcsin (rv a))
    have t2 := abs_sub_abs_le_abs_sub (Real.arcsin (rv a)) (angle (rv a) (rv c))
    rw [abs_sub_comm] at t2
    clear m1 tot r2 hv c3 c4 c5
    generalize angle (rv a) (rv c) = θ at *
    generalize Real.arcsin (rv a) = A at *
    have A0 := abs_nonneg A
    have k := r3 (by generalize |θ - A| = Z at *; norm_num at m2 t1 u1 ⊢; linarith)
    refine ((k.move m2).mono ?_).2
    generalize |θ - A| = Z at *
    norm_num at m2 t1 ⊢; linarith

/-- **C71.** `acos` on the same numbers. -/
theorem C71_acos (P : Platform) (hT : FloatText P.toStr) (hA2 : LibmAtan2 P) (a : Double) (ha : a.Normalized)
    (h0 : a.val = 0 ∨ 1 ≤ |a.val| * 2 ^ 400) (h1 : |a.val| ≤ 1 - 1 / 2 ^ 78) :
    ∃ r, Double.acos P a = some r ∧ r.Normalized ∧
      |(r.val : ℝ) - Real.arccos (a.val : ℝ)| ≤ (122 + 1 / Real.sqrt (1 - (a.val : ℝ) ^ 2)) / 2 ^ 102 := by
  have h1R : |rv a| ≤ 1 - 1 / 2 ^ 78 := by
    have := (Rat.cast_le (K := ℝ)).mpr h1
    push_cast at this; exact this
  have a1 : |rv a| < 1 := by norm_num at h1R; linarith
  have hM : Mid (rv a) := by
    apply mid_of
    rcases h0 with h | h
    · exact Or.inl h
    · refine Or.inr ⟨h, h1.trans ((show (1:ℚ) - 1 / 2 ^ 78 ≤ 1 by norm_num).trans (one_le_pow₀ (by norm_num)))⟩
  obtain ⟨c, ε, c1, c2, c3, c4, c5, c6⟩ := asin_root P hT ha h1R
  have C0 : 0 < Real.sqrt (1 - rv a ^ 2) := lt_of_lt_of_le (by norm_num) c5
  obtain ⟨cp, -, m1⟩ := side_move rfl a1.le C0 c2.2 c4
  have hv := abs_le.mp c2.2
  have rc : Rng (rv c) := rng_side (by norm_num at c4 c5 ⊢; linarith [hv.1]) (by norm_num at c4 ⊢; linarith [hv.2])
  obtain ⟨r, r1, r2, -⟩ := atan2_all P hT hA2 c2.1 ha (Or.inr rc) hM (Or.inl cp.ne')
  have hq := angle_pi (rv c) (rv a)
  have hpi := pi_bds.2
  have tot := asin_total a1.le (Real.sq_sqrt (by rw [← sq_abs]; have := pow_le_one₀ (abs_nonneg (rv a)) a1.le (n := 2); linarith)) C0 c3
  refine ⟨r, ?_, r2.1, ?_⟩
  · unfold Double.acos
    rw [(pre_asin_none ha a1).2]
    dsimp only
    rw [c1, Option.bind_some, r1]
  · change |rv r - Real.arccos (rv a)| ≤ (122 + 1 / Real.sqrt (1 - rv a ^ 2)) / 2 ^ 102
    refine ((r2.move m1).mono ?_).2
    have q2 : angle (rv c) (rv a) ^ 2 ≤ 9.87 := by
      rw [← sq_abs]
      have h5 : |angle (rv c) (rv a)| ≤ 3.1416 := by norm_num at hpi ⊢; linarith
      have := pow_le_pow_left₀ (abs_nonneg _) h5 2
      norm_num at this ⊢; linarith
    generalize 1 / Real.sqrt (1 - rv a ^ 2) = R at *
    generalize 1.58 * (|rv a| * ε) = W at *
    generalize angle (rv c) (rv a) ^ 2 = V at *
    norm_num at tot q2 hpi ⊢; linarith

end Verif
