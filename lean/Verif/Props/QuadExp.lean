import Verif.Proofs.QuadExp

/-!
# C73: the accuracy of `exp` of a Quad
-/

namespace Verif

open F64 Prim Util Quad Consts

theorem qa_ldexp {r : Quad} {y e X : ℝ} (h : QA r y e X) (h1 : 1 / 4 ≤ X) (h2 : X ≤ 2) (m : ℤ) (m1 : -700 ≤ m) (m2 : m ≤ 1021) :
    QA (r.ldexp m) (2 ^ m * y) (2 ^ m * (e + 2 / 2 ^ 200)) (2 ^ m * 3) := by
  have key : ∀ {c : ℚ}, ((∃ k : ℕ, c = 2 ^ k ∧ Is (F64.powi Double.two m) (2 ^ k * one')) ∨
      (∃ k : ℕ, k ≤ 1074 ∧ c = 1 / 2 ^ k ∧ Is (F64.powi Double.two m) (2 ^ (1074 - k)))) → ((c : ℚ) : ℝ) = 2 ^ m →
      ((2:ℝ) ^ m ≤ 2 ^ 225 * 2 ^ 225 * 2 ^ 225 * 2 ^ 225 * 2 ^ 121) → (1 ≤ (2:ℝ) ^ m * (2 ^ 225 * 2 ^ 225 * 2 ^ 225 * 2 ^ 25)) →
      QA (r.ldexp m) (2 ^ m * y) (2 ^ m * (e + 2 / 2 ^ 200)) (2 ^ m * 3) := by
    intro c hc hcm b1 b2
    have hp2 : (0:ℝ) < 2 ^ m := zpow_pos (by norm_num) m
    have := h.scale hc (by
      rw [hcm]
      have := mul_le_mul b1 h2 (by linarith) (by positivity)
      norm_num at this ⊢; linarith) (by
      rw [hcm]
      have := mul_le_mul_of_nonneg_left h1 hp2.le
      norm_num at this b2 ⊢; linarith)
    rw [hcm] at this
    refine QA.mono this ?_ ?_
    · have := mul_le_mul_of_nonneg_left h2 hp2.le
      norm_num at this ⊢; linarith
    · have := mul_le_mul_of_nonneg_left h2 hp2.le
      norm_num at this ⊢; linarith
  have up : (2:ℝ) ^ m ≤ 2 ^ 225 * 2 ^ 225 * 2 ^ 225 * 2 ^ 225 * 2 ^ 121 := by
    rw [← pow_add, ← pow_add, ← pow_add, ← pow_add, ← zpow_natCast]
    exact zpow_le_zpow_right₀ (by norm_num) (by omega)
  have lo : (1:ℝ) ≤ 2 ^ m * (2 ^ 225 * 2 ^ 225 * 2 ^ 225 * 2 ^ 25) := by
    rw [← pow_add, ← pow_add, ← pow_add, ← zpow_natCast, ← zpow_add₀ (by norm_num)]
    exact one_le_zpow₀ (by norm_num) (by omega)
  rcases le_total 0 m with hm | hm
  · obtain ⟨n, rfl⟩ := Int.eq_ofNat_of_zero_le hm
    exact key (c := 2 ^ n) (Or.inl ⟨n, rfl, is_pow2 (by omega)⟩) (by push_cast; rw [zpow_natCast]) up lo
  · obtain ⟨n, hn⟩ := Int.eq_ofNat_of_zero_le (show 0 ≤ -m by omega)
    obtain rfl : m = -(n : ℤ) := by omega
    exact key (c := 1 / 2 ^ n) (Or.inr ⟨n, by omega, rfl, is_pow2_neg (by omega)⟩)
      (by push_cast; rw [zpow_neg, zpow_natCast, one_div]) up lo

/-- `exp` outside its special cases. -/
theorem qexp_main {a : Quad} {B : ℝ} (ha : SZ a (B * (1 + 1 / 2 ^ 47))) (haB : |qv a| ≤ B) (hA : B ≤ 712) (h1 : -470 ≤ fr a.c0) (h2 : fr a.c0 ≤ 708) (hp : Quad.preExp a = none) :
    ∃ r X, Quad.exp a = some r ∧
      QA r (Real.exp (qv a)) ((B + 8) / 2 ^ 126 * Real.exp (qv a)) X ∧ X ≤ 5 * Real.exp (qv a) := by
  obtain ⟨m, i, m1, m2, hs⟩ := qexpM_spec ha hA h1 h2
  have hx := qexpRed_qa ha haB i hs hA
  have hA0 : 0 ≤ B := (abs_nonneg _).trans haB
  have hX : |qv ((a - Quad.LN_2 * ⟨Quad.expM a, F64.zero, F64.zero, F64.zero⟩) * Quad.INV_K)| ≤ 53 / 10 ^ 7 := by
    refine hx.abs_le.trans ?_
    rw [abs_div]
    norm_num at hs ⊢
    linarith
  obtain ⟨c, hc, v, hv, hvA⟩ := qexpTaylor_qa hx.sz (by norm_num; linarith) (by norm_num; linarith) hX
  have hfin := qexpSteps_qa hX (by norm_num; linarith) (by positivity) hvA
  have hm : F64.toI32 (Quad.expM a) = m := toI32_of_is i (by rw [abs_lt]; constructor <;> norm_num <;> omega)
  unfold Quad.exp
  rw [hp]
  simp only [hc, hv, Option.map_some, hm]
  refine ⟨_, 2 ^ m * 3, rfl, ?_⟩
  have hx2 := hx.err
  generalize qv ((a - Quad.LN_2 * ⟨Quad.expM a, F64.zero, F64.zero, F64.zero⟩) * Quad.INV_K) = X at *
  generalize (Quad.expStep^[16] v + Quad.ONE) = R at *
  generalize qv a = A at *
  -- the exponent
  have hy : |65536 * X - (A - m * Real.log 2)| ≤ (101 / 100 * B + 2) / 2 ^ 128 := by
    have e : 65536 * X - (A - m * Real.log 2) = 65536 * (X - (A - m * Real.log 2) / 65536) := by ring
    rw [e, abs_mul]
    norm_num at hx2 ⊢
    linarith
  have hE : Real.exp (65536 * X) = Real.exp (A - m * Real.log 2) * Real.exp (65536 * X - (A - m * Real.log 2)) := by
    rw [← Real.exp_add]; congr 1; ring
  generalize hd : 65536 * X - (A - m * Real.log 2) = D at *
  have hD1 : |D| ≤ 1 / 2 ^ 90 := hy.trans (by norm_num; linarith)
  have hD : |Real.exp D - 1| ≤ (102 / 100 * B + 201 / 100) / 2 ^ 128 := by
    have h3 := Real.abs_exp_sub_one_sub_id_le (x := D) (hD1.trans (by norm_num))
    have h4 := abs_add_le (Real.exp D - 1 - D) D
    rw [sub_add_cancel] at h4
    have h5 : D ^ 2 ≤ |D| * (1 / 2 ^ 90) := by
      rw [← sq_abs, pow_two]; exact mul_le_mul_of_nonneg_left hD1 (abs_nonneg _)
    have h6 := abs_nonneg D
    have h7 : |Real.exp D - 1| ≤ |D| * (1 + 1 / 2 ^ 90) := by linarith
    refine h7.trans ((mul_le_mul_of_nonneg_right hy (by norm_num)).trans ?_)
    norm_num; linarith
  have hG : 0.706 ≤ Real.exp (A - m * Real.log 2) := by
    have h5 := Real.exp_bound (x := -(3471 / 10000)) (n := 6) (by rw [abs_neg, abs_of_pos] <;> norm_num) (by norm_num)
    have h6 : Real.exp (-(3471 / 10000)) ≤ Real.exp (A - m * Real.log 2) :=
      Real.exp_le_exp.mpr (abs_le.mp hs).1
    have h7 := (abs_le.mp h5).1
    simp only [Finset.sum_range_succ, Finset.sum_range_zero, Nat.factorial] at h7
    rw [abs_neg, abs_of_pos (by norm_num)] at h7
    norm_num at h7 ⊢
    linarith
  have hG2 : Real.exp (A - m * Real.log 2) ≤ 1.42 := by
    have h5 := Real.exp_bound (x := (3471 / 10000)) (n := 4) (by rw [abs_of_pos] <;> norm_num) (by norm_num)
    have h6 : Real.exp (A - m * Real.log 2) ≤ Real.exp (3471 / 10000) :=
      Real.exp_le_exp.mpr (abs_le.mp hs).2
    have h7 := (abs_le.mp h5).2
    simp only [Finset.sum_range_succ, Finset.sum_range_zero, Nat.factorial] at h7
    rw [abs_of_pos (by norm_num)] at h7
    norm_num at h7 ⊢
    linarith
  have hG3 : Real.exp A = 2 ^ m * Real.exp (A - m * Real.log 2) := by
    have : (2:ℝ) ^ m = Real.exp (m * Real.log 2) := by
      rw [mul_comm, Real.exp_mul, Real.exp_log (by norm_num), Real.rpow_intCast]
    rw [this, ← Real.exp_add]; congr 1; ring
  have h4 : |Real.exp (65536 * X) - Real.exp (A - m * Real.log 2)| ≤
      (102 / 100 * B + 201 / 100) / 2 ^ 128 * Real.exp (A - m * Real.log 2) := by
    rw [hE, ← mul_sub_one, abs_mul, abs_of_pos (Real.exp_pos _), mul_comm]
    exact mul_le_mul_of_nonneg_right hD (Real.exp_pos _).le
  have hR := qa_ldexp (hfin.move h4) (by norm_num) (by norm_num) m m1 m2
  rw [hG3]
  have hp2 : (0:ℝ) < 2 ^ m := zpow_pos (by norm_num) m
  generalize Real.exp (A - m * Real.log 2) = G at *
  refine ⟨hR.mono ?_ le_rfl, ?_⟩
  · have e1 : (B + 8) / 2 ^ 126 * (2 ^ m * G) = 2 ^ m * ((B + 8) / 2 ^ 126 * G) := by ring
    rw [e1]
    refine mul_le_mul_of_nonneg_left ?_ hp2.le
    have h5 : (B + 8) * 0.706 ≤ (B + 8) * G := mul_le_mul_of_nonneg_left hG (by linarith)
    norm_num at h5 hG ⊢
    linarith
  · have := mul_le_mul_of_nonneg_left hG hp2.le
    norm_num at this ⊢
    linarith

theorem qexp_small {a : Quad} (ha : a.Normalized) (h1 : -470 ≤ fr a.c0) (h2 : fr a.c0 ≤ 708) : |qv a| ≤ 712 := by
  have h3 := qv_sub_c0 (qord_norm ha)
  have h4 : |fr a.c0| ≤ 708 := abs_le.mpr ⟨by linarith, h2⟩
  have h5 : |fr a.c0| / 2 ^ 48 ≤ 708 / 2 ^ 48 := div_le_div_of_nonneg_right h4 (by positivity)
  have h6 := abs_sub_abs_le_abs_sub (qv a) (fr a.c0)
  norm_num at h5
  linarith

/-- `exp` of a Quad that is ordered up to a slack, special cases included. -/
theorem qexp_any {a : Quad} {B : ℝ} (ha : SZ a (B * (1 + 1 / 2 ^ 47))) (haB : |qv a| ≤ B) (hA : B ≤ 712)
    (h1 : -470 ≤ fr a.c0) (h2 : fr a.c0 ≤ 708) :
    ∃ r X, Quad.exp a = some r ∧
      QA r (Real.exp (qv a)) ((B + 8) / 2 ^ 126 * Real.exp (qv a)) X ∧ X ≤ 5 * Real.exp (qv a) := by
  cases hp : Quad.preExp a with
  | none => exact qexp_main ha haB hA h1 h2 hp
  | some r =>
    have hB0 : 0 ≤ B := (abs_nonneg _).trans haB
    obtain ⟨hf, hc0⟩ := sz_sub_c0 ha
    have e : Quad.exp a = some r := by unfold Quad.exp; rw [hp]
    rw [e]
    unfold Quad.preExp at hp
    rw [if_neg (by rw [fsq_lt_470 hf]; unfold fr at h1; have : (-470:ℚ) ≤ a.c0.toRat := by exact_mod_cast h1
                   linarith),
      if_neg (by rw [fsq_ge_709 hf]; unfold fr at h2; have : a.c0.toRat ≤ 708 := by exact_mod_cast h2
                 linarith),
      if_neg (by rw [(fsq_fin hf).1]; simp)] at hp
    split_ifs at hp with c1 c2
    · obtain rfl : Quad.ONE = r := by injection hp
      have hz : fr a.c0 = 0 := by unfold fr; rw [(fsq_isZero hf).mp c1]; norm_num
      rw [hz] at hc0
      have hq : |qv a| ≤ B / 2 ^ 137 := by
        simp only [sub_zero, abs_zero, zero_div, zero_add] at hc0
        refine hc0.trans ?_
        norm_num; linarith
      have hq1 : |qv a| ≤ 1 / 2 ^ 100 := hq.trans (by norm_num; linarith)
      have h3 : |Real.exp (qv a) - 1| ≤ 2 * |qv a| := Real.abs_exp_sub_one_le (hq1.trans (by norm_num))
      have h4 := abs_le.mp h3
      have hE : 1 / 2 ≤ Real.exp (qv a) := by norm_num at hq1 ⊢; linarith [h4.1]
      have h5 : Quad.ONE.val = 1 := by decide +kernel
      have hv1 : qv Quad.ONE = 1 := by unfold qv; rw [h5]; norm_num
      refine ⟨Quad.ONE, 2, rfl, ?_, by linarith⟩
      refine qa_of (by decide +kernel) ?_ ?_
      · rw [hv1, abs_sub_comm]
        refine h3.trans ?_
        have : (B + 8) / 2 ^ 126 * (1 / 2) ≤ (B + 8) / 2 ^ 126 * Real.exp (qv a) := mul_le_mul_of_nonneg_left hE (by positivity)
        refine le_trans ?_ this
        norm_num at hq ⊢; linarith
      · have hE2 : Real.exp (qv a) ≤ 11 / 10 := by norm_num at hq1 ⊢; linarith [h4.2]
        have : (B + 8) / 2 ^ 126 * Real.exp (qv a) ≤ (B + 8) / 2 ^ 126 * (11 / 10) := mul_le_mul_of_nonneg_left hE2 (by positivity)
        rw [abs_of_pos (Real.exp_pos _)]
        norm_num at this ⊢; linarith
    · obtain rfl : Quad.E = r := by injection hp
      have hv : qv a = 1 := by
        have hfin := ha.fin
        unfold Quad.eq at c2
        simp only [Bool.and_eq_true] at c2
        obtain ⟨⟨⟨k0, k1⟩, k2⟩, k3⟩ := c2
        have u0 := ((Is.of_finite hfin.1).eq_iff (Is.of_finite (x := Quad.ONE.c0) (by decide +kernel))).mp k0
        have u1 := ((Is.of_finite hfin.2.1).eq_iff (Is.of_finite (x := Quad.ONE.c1) (by decide +kernel))).mp k1
        have u2 := ((Is.of_finite hfin.2.2.1).eq_iff (Is.of_finite (x := Quad.ONE.c2) (by decide +kernel))).mp k2
        have u3 := ((Is.of_finite hfin.2.2.2).eq_iff (Is.of_finite (x := Quad.ONE.c3) (by decide +kernel))).mp k3
        have h5 : Quad.ONE.val = 1 := by decide +kernel
        have h6 : a.val = Quad.ONE.val := by
          rw [quad_val_UQ hfin, quad_val_UQ (a := Quad.ONE) (by decide +kernel)]
          unfold UQ U
          rw [u0, u1, u2, u3]
        unfold qv; rw [h6, h5]; norm_num
      have h3 := C48_quad_values.2.2.2.2.2.2.2.2.2.2.2.2.2.2.2.2.2.1
      unfold Near at h3
      rw [← le_div_iff₀ (by positivity), abs_of_pos (Real.exp_pos _)] at h3
      have h4 := Real.exp_pos 1
      rw [hv]
      refine ⟨Quad.E, 2 * Real.exp 1, rfl, ?_, by linarith⟩
      have h7 : |qv Quad.E - Real.exp 1| ≤ (B + 8) / 2 ^ 126 * Real.exp 1 := by
        change |qv Quad.E - Real.exp 1| ≤ _ at h3
        refine h3.trans ?_
        have : 8 / 2 ^ 126 * Real.exp 1 ≤ (B + 8) / 2 ^ 126 * Real.exp 1 :=
          mul_le_mul_of_nonneg_right (div_le_div_of_nonneg_right (by linarith) (by positivity)) h4.le
        norm_num at this ⊢; linarith
      refine qa_of (by decide +kernel) h7 ?_
      have : (B + 8) / 2 ^ 126 * Real.exp 1 ≤ 1 / 2 ^ 100 * Real.exp 1 :=
          mul_le_mul_of_nonneg_right (by norm_num; linarith) h4.le
      rw [abs_of_pos h4]
      norm_num at this ⊢; linarith

/-- **C73.** `exp` of a normalized Quad whose first component lies between -470 and 708: the result has finite components and
is within `(|a| + 8) 2^-126` of `e ^ a`, relative to `e ^ a`. -/
theorem C73_quad_exp (a : Quad) (ha : a.Normalized) (h1 : -470 ≤ a.c0.toRat) (h2 : a.c0.toRat ≤ 708) :
    ∃ r, Quad.exp a = some r ∧ r.Fin ∧
      |(r.val : ℝ) - Real.exp (a.val : ℝ)| ≤ (|(a.val : ℝ)| + 8) / 2 ^ 126 * Real.exp (a.val : ℝ) := by
  have h1' : -470 ≤ fr a.c0 := by unfold fr; exact_mod_cast h1
  have h2' : fr a.c0 ≤ 708 := by unfold fr; exact_mod_cast h2
  cases hp : Quad.preExp a with
  | none =>
    obtain ⟨r, X, e, q, -⟩ := qexp_main (qord_norm ha).exact.sz le_rfl (qexp_small ha h1' h2') h1' h2' hp
    exact ⟨r, e, q.fin, q.err⟩
  | some r =>
    have hf := ha.1.1
    have e : Quad.exp a = some r := by unfold Quad.exp; rw [hp]
    rw [e]
    refine ⟨r, rfl, ?_⟩
    unfold Quad.preExp at hp
    rw [if_neg (by rw [fsq_lt_470 hf]; linarith), if_neg (by rw [fsq_ge_709 hf]; linarith),
      if_neg (by rw [(fsq_fin hf).1]; simp)] at hp
    split_ifs at hp with c1 c2
    · obtain rfl : Quad.ONE = r := by injection hp
      have hv : a.val = 0 := (quad_sign_head a ha).2.2.mpr ((fsq_isZero hf).mp c1)
      have h3 : Quad.ONE.val = 1 := by decide +kernel
      refine ⟨by decide +kernel, ?_⟩
      rw [hv, h3]; norm_num
    · obtain rfl : Quad.E = r := by injection hp
      have hv : a.val = 1 := (fsq_cmp_one a ha).2.2.2.mp c2
      refine ⟨by decide +kernel, ?_⟩
      have h3 := C48_quad_values.2.2.2.2.2.2.2.2.2.2.2.2.2.2.2.2.2.1
      unfold Near at h3
      rw [hv]
      rw [← le_div_iff₀ (by positivity), abs_of_pos (Real.exp_pos _)] at h3
      have h4 := Real.exp_pos 1
      push_cast
      refine h3.trans ?_
      norm_num
      linarith

/-- A nontrivial argument: `π`, and the extreme `-469.5`. -/
example : Quad.PI.Normalized ∧ -470 ≤ Quad.PI.c0.toRat ∧ Quad.PI.c0.toRat ≤ 708 ∧ Quad.preExp Quad.PI = none := by
  refine ⟨?_, ?_, ?_, ?_⟩ <;> decide +kernel

example : (⟨F64.ofDec true 4695 (-1), F64.zero, F64.zero, F64.zero⟩ : Quad).Normalized ∧
    -470 ≤ (F64.ofDec true 4695 (-1)).toRat ∧ (F64.ofDec true 4695 (-1)).toRat < 0 := by decide +kernel

/-- **C73.** In particular the result is positive, and its relative error is below `2^-116` over the whole range. -/
theorem C73_quad_exp_range (a : Quad) (ha : a.Normalized) (h1 : -470 ≤ a.c0.toRat) (h2 : a.c0.toRat ≤ 708) :
    ∃ r, Quad.exp a = some r ∧ r.Fin ∧ 0 < r.val ∧
      |(r.val : ℝ) - Real.exp (a.val : ℝ)| ≤ Real.exp (a.val : ℝ) / 2 ^ 116 := by
  obtain ⟨r, e, n, h⟩ := C73_quad_exp a ha h1 h2
  have hv : |(a.val : ℝ)| ≤ 709 := by
    have h3 := qv_sub_c0 (qord_norm ha)
    have h1' : -470 ≤ fr a.c0 := by unfold fr; exact_mod_cast h1
    have h2' : fr a.c0 ≤ 708 := by unfold fr; exact_mod_cast h2
    have h4 : |fr a.c0| ≤ 708 := abs_le.mpr ⟨by linarith, h2'⟩
    have h5 : |fr a.c0| / 2 ^ 48 ≤ 708 / 2 ^ 48 := div_le_div_of_nonneg_right h4 (by positivity)
    have h6 := abs_sub_abs_le_abs_sub (qv a) (fr a.c0)
    change |qv a| ≤ 709
    norm_num at h5
    linarith
  have hp := Real.exp_pos (a.val : ℝ)
  have h7 : |(r.val : ℝ) - Real.exp (a.val : ℝ)| ≤ Real.exp (a.val : ℝ) / 2 ^ 116 := by
    refine h.trans ?_
    have : (|(a.val : ℝ)| + 8) / 2 ^ 126 ≤ 1 / 2 ^ 116 := by norm_num; linarith
    have := mul_le_mul_of_nonneg_right this hp.le
    rw [one_div_mul_eq_div] at this
    exact this
  refine ⟨r, e, n, ?_, h7⟩
  have h8 := (abs_le.mp h7).1
  have : (0:ℝ) < (r.val : ℝ) := by norm_num at h8; linarith
  exact_mod_cast this

end Verif
