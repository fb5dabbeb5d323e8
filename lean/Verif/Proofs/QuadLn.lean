import Verif.Props.QuadExp
import Verif.Props.Ln

/-!
# The Newton iteration of `ln` for Quads
-/

namespace Verif

open F64 Prim Util Quad Consts

theorem qv_neg {a : Quad} (h : a.Fin) : qv (-a) = -qv a := by
  have q := QIs.of_fin h
  unfold qv
  rw [← Rat.cast_neg]
  congr 1
  rw [q.neg.val, q.val]
  change ((-_ + -_ + -_ + -_ : ℤ) : ℚ) / _ = -(((_ + _ + _ + _ : ℤ) : ℚ) / _)
  push_cast; ring

theorem qa_one : QA Quad.ONE 1 0 (1 * (1 + 1 / 2 ^ 47)) := by
  have h : Quad.ONE.val = 1 := by decide +kernel
  refine qa_of (by decide +kernel) ?_ (by norm_num)
  unfold qv; rw [h]; norm_num

/-- One step of the Newton iteration. -/
theorem qlnStep {a x : Quad} {K : ℝ} (ha : SZ a (qv a * K)) (hK1 : 1 ≤ K) {L D : ℝ} (hK2 : |L| + K ≤ 709) (hA : qv a = Real.exp L) (hL1 : -707 ≤ L) (hL2 : L ≤ 469)
    (hx : QA x L D (|L| + 19 / 10 + K)) (hD30 : D ≤ 1 / 2 ^ 30) :
    ∃ e, Quad.exp (-x) = some e ∧
      QA (x + a * e - Quad.ONE) L (D ^ 2 + (2 * |L| + 12 + 2 * K) / 2 ^ 126) (|L| + 19 / 10 + K) := by
  have hD0 := hx.nonneg
  have hL0 := abs_nonneg L
  have hL : |L| ≤ 707 := abs_le.mpr ⟨hL1, by linarith⟩
  have hn := hx.neg
  have hrn := qv_neg hx.fin
  have hxe := hx.err
  have hxa := hx.abs_le
  have hDx := abs_le.mp hxe
  obtain ⟨hf, hc⟩ := sz_sub_c0 hn.sz
  rw [hrn] at hc
  have hc' := abs_le.mp hc
  have hcc : |fr (-x).c0| ≤ 708 := by
    have := abs_sub_abs_le_abs_sub (fr (-x).c0) (-qv x)
    rw [abs_sub_comm, abs_neg] at this
    norm_num at this hc hD30 hxa ⊢
    linarith
  obtain ⟨e, X, he, hE, hX⟩ := qexp_any (B := |L| + 19 / 10 + K) (hn.sz.mono (by norm_num; linarith))
    (by rw [hrn, abs_neg]; norm_num at hD30 ⊢; linarith) (by linarith)
    (by norm_num at hcc hc' hD30 ⊢; linarith [hc'.1, hc'.2, hDx.1, hDx.2])
    (by norm_num at hcc hc' hD30 ⊢; linarith [hc'.1, hc'.2, hDx.1, hDx.2])
  refine ⟨e, he, ?_⟩
  rw [hrn] at hE hX
  have hE := hE.mono le_rfl hX
  have hG : Real.exp L * Real.exp (-qv x) = Real.exp (L - qv x) := by rw [← Real.exp_add]; rfl
  have hEd : |Real.exp (L - qv x) - 1 - (L - qv x)| ≤ D ^ 2 := by
    have h1 : |L - qv x| ≤ D := by rw [abs_sub_comm]; exact hxe
    refine (Real.abs_exp_sub_one_sub_id_le (h1.trans (hD30.trans (by norm_num)))).trans ?_
    rw [← sq_abs]; exact pow_le_pow_left₀ (abs_nonneg _) h1 2
  have hDD : D ^ 2 ≤ 1 / 2 ^ 60 := by
    have := pow_le_pow_left₀ hD0 hD30 2
    norm_num at this ⊢; linarith
  have hE1 : Real.exp (L - qv x) ≤ 100001 / 100000 := by
    have := abs_le.mp hEd
    norm_num at hD30 hDD ⊢; linarith [this.1, this.2, hDx.1, hDx.2]
  have hE2 : 99999 / 100000 ≤ Real.exp (L - qv x) := by
    have := abs_le.mp hEd
    norm_num at hD30 hDD ⊢; linarith [this.1, this.2, hDx.1, hDx.2]
  have hE0 := Real.exp_pos (L - qv x)
  have ex := QA.mk ha (show |qv a - qv a| ≤ 0 by simp)
  rw [hA] at ex
  have q1 : Real.exp L * ((|L| + 19 / 10 + K + 8) / 2 ^ 126 * Real.exp (-qv x)) = (|L| + 99 / 10 + K) / 2 ^ 126 * Real.exp (L - qv x) := by
    rw [← hG]; ring
  have q2 : Real.exp L * K * (5 * Real.exp (-qv x)) = 5 * (K * Real.exp (L - qv x)) := by
    rw [← hG]; ring
  have q3 : (|L| + 99 / 10 + K) / 2 ^ 126 * Real.exp (L - qv x) ≤ (|L| + 99 / 10 + K) / 2 ^ 126 * (100001 / 100000) :=
    mul_le_mul_of_nonneg_left hE1 (by positivity)
  have q4 : K * Real.exp (L - qv x) ≤ K * (100001 / 100000) := mul_le_mul_of_nonneg_left hE1 (by linarith)
  have q5 : 1 * (99999 / 100000) ≤ K * Real.exp (L - qv x) := mul_le_mul hK1 hE2 (by norm_num) (by linarith)
  have hm := ex.mulW hE (W := 256 / 100 * K) (g := (101 / 100 * |L| + 101 / 10 + 101 / 100 * K) / 2 ^ 126)
    (by positivity) (by positivity)
    (by rw [q2]; norm_num at q5 ⊢; linarith) (by rw [q2]; norm_num at q4 ⊢; linarith)
    (by
      rw [q2, zero_mul, mul_zero, abs_of_pos (Real.exp_pos L), q1]
      norm_num at q4 q3 ⊢; linarith)
    (by rw [q2]; norm_num at q4 ⊢; linarith)
    (by
      rw [q2, hG, abs_of_pos hE0]
      norm_num at hE1 q4 ⊢; linarith)
  rw [hG] at hm
  have s1 := (QA.mk hx.sz (show |qv x - qv x| ≤ 0 by simp)).add hm (Z := |L| + 2 + 256 / 100 * K) (W := |L| + 2 + 131 / 100 * K)
    (g := (127 / 100 * |L| + 107 / 10 + 166 / 100 * K) / 2 ^ 126) (by linarith) (by linarith) (by norm_num; linarith) (by norm_num; linarith)
    (by linarith)
    (by
      have := abs_add_le (qv x) (Real.exp (L - qv x))
      rw [abs_of_pos hE0] at this
      norm_num at hE1 hD30 ⊢; linarith)
  have e1 : qv x + Real.exp (L - qv x) - 1 = L + (Real.exp (L - qv x) - 1 - (L - qv x)) := by ring
  have e2 : qv x + Real.exp (L - qv x) - 1 - L = Real.exp (L - qv x) - 1 - (L - qv x) := by ring
  have s2 := s1.sub qa_one (Z := |L| + 2 + 131 / 100 * K) (W := |L| + 19 / 10 + K)
    (g := (152 / 100 * |L| + 112 / 10 + 199 / 100 * K) / 2 ^ 126) le_rfl (by norm_num; linarith) (by norm_num; linarith) (by norm_num; linarith)
    (by linarith)
    (by
      rw [e1]
      have := abs_add_le L (Real.exp (L - qv x) - 1 - (L - qv x))
      norm_num at hDD ⊢; linarith)
  refine (s2.move (y := L) (d := D ^ 2) (by rw [e2]; exact hEd)).mono ?_ (by linarith)
  norm_num
  linarith

/-- The rounding error of a step. -/
noncomputable def qlnRho (L K : ℝ) : ℝ := (2 * |L| + 12 + 2 * K) / 2 ^ 126

theorem qlnRho_le {L K : ℝ} (hK2 : |L| + K ≤ 709) : qlnRho L K ≤ 1 / 2 ^ 114 := by
  unfold qlnRho; norm_num; linarith

/-- From an iterate within `2^-74` on, whatever the loop returns is accurate. -/
theorem qlnLoop_good {a : Quad} {K : ℝ} (ha : SZ a (qv a * K)) (hK1 : 1 ≤ K) {L : ℝ} (hK2 : |L| + K ≤ 709) (hA : qv a = Real.exp L) (hL1 : -707 ≤ L) (hL2 : L ≤ 469) (eps : Quad) :
    ∀ (fuel i : ℕ) (x : Quad), i + fuel = 7 → 1 ≤ fuel → QA x L (1 / 2 ^ 74) (|L| + 19 / 10 + K) →
    ∃ r, Quad.lnLoop a eps fuel i x = some r ∧ QA r L (1 / 2 ^ 148 + qlnRho L K) (|L| + 19 / 10 + K) := by
  intro fuel
  induction fuel with
  | zero => intro i x h h1; omega
  | succ fuel ih =>
    intro i x h h1 hx
    obtain ⟨e, he, hr⟩ := qlnStep ha hK1 hK2 hA hL1 hL2 hx (by norm_num)
    have hr' : QA (x + a * e - Quad.ONE) L (1 / 2 ^ 148 + qlnRho L K) (|L| + 19 / 10 + K) := hr.mono (by unfold qlnRho; norm_num) le_rfl
    simp only [Quad.lnLoop, he]
    split_ifs with hs
    · exact ⟨_, rfl, hr'⟩
    · have hf : 1 ≤ fuel := by
        by_contra hf
        apply hs
        have : i = 6 := by omega
        subst this; simp
      refine ih (i + 1) _ (by omega) hf (hr'.mono ?_ le_rfl)
      have := qlnRho_le hK2
      norm_num at this ⊢; linarith

/-- What a number below a threshold is worth. -/
theorem small_of_lt {t eps : Quad} {X E : ℝ} (ht : SZ t X) (h : Quad.lt t.abs eps = true) (fe : eps.c0.isFinite = true)
    (he : fr eps.c0 ≤ E) : |qv t| ≤ E * (1 + 1 / 2 ^ 48) + X / 2 ^ 138 := by
  obtain ⟨hf, hc⟩ := sz_sub_c0 ht
  obtain ⟨fa, ua⟩ := abs_head hf
  have hle : Quad.le t.abs eps = true := by
    unfold Quad.lt at h
    unfold Quad.le
    rw [h]; rfl
  have h1 := le_head hle fa fe
  rw [ua] at h1
  have oR := one'_posR
  have h2 : |fr t.c0| ≤ fr eps.c0 := by
    unfold fr
    rw [toRat_U hf, toRat_U fe]
    push_cast
    push_cast at oR
    rw [abs_div, abs_of_pos oR]
    refine div_le_div_of_nonneg_right ?_ oR.le
    exact_mod_cast h1
  have h3 := abs_sub_abs_le_abs_sub (qv t) (fr t.c0)
  linarith

/-- The whole loop. -/
theorem qlnLoop_qa {a x : Quad} {K : ℝ} (ha : SZ a (qv a * K)) (hK1 : 1 ≤ K) {L : ℝ} (hK2 : |L| + K ≤ 709) (hA : qv a = Real.exp L) (hL1 : -707 ≤ L) (hL2 : L ≤ 469)
    (eps : Quad) {D : ℝ} (hx : QA x L D (|L| + 19 / 10 + K)) (hD : D ≤ 1 / 2 ^ 38)
    (hexit : D ≤ 1 / 2 ^ 65 ∨ (eps.c0.isFinite = true ∧ fr eps.c0 ≤ 1 / 2 ^ 90)) :
    ∃ r, Quad.lnLoop a eps 7 0 x = some r ∧ QA r L ((2 * |L| + 129 / 10 + 2 * K) / 2 ^ 126) (|L| + 19 / 10 + K) := by
  obtain ⟨e, he, hr⟩ := qlnStep ha hK1 hK2 hA hL1 hL2 hx (hD.trans (by norm_num))
  have hD0 := hx.nonneg
  have hL0 := abs_nonneg L
  have hL : |L| ≤ 707 := abs_le.mpr ⟨hL1, by linarith⟩
  have hrho := qlnRho_le hK2
  have hr : QA (x + a * e - Quad.ONE) L (D ^ 2 + qlnRho L K) (|L| + 19 / 10 + K) := hr
  have hr2 : QA (x + a * e - Quad.ONE) L (1 / 2 ^ 75) (|L| + 19 / 10 + K) := by
    refine hr.mono ?_ le_rfl
    have := pow_le_pow_left₀ hD0 hD 2
    norm_num at this hrho ⊢; linarith
  have hgood : ∀ r, QA r L (1 / 2 ^ 148 + qlnRho L K) (|L| + 19 / 10 + K) → QA r L ((2 * |L| + 129 / 10 + 2 * K) / 2 ^ 126) (|L| + 19 / 10 + K) := by
    intro r h
    refine h.mono ?_ le_rfl
    unfold qlnRho; norm_num; linarith
  rw [show (7:ℕ) = 6 + 1 by norm_num]
  simp only [Quad.lnLoop, he]
  split_ifs with hs
  · refine ⟨_, rfl, ?_⟩
    rcases hexit with h | ⟨hn, hle⟩
    · refine hr.mono ?_ le_rfl
      have := pow_le_pow_left₀ hD0 h 2
      unfold qlnRho; norm_num at this ⊢; linarith
    · have hs' : Quad.lt (x - (x + a * e - Quad.ONE)).abs eps = true := by
        simpa using hs
      have hg := hgood (x + a * e - Quad.ONE)
      have hst := qlnStep (x := x) ha hK1 hK2 hA hL1 hL2 (D := 1 / 2 ^ 74)
      rw [he] at hst
      generalize hrr : x + a * e - Quad.ONE = r at *
      have hd := (QA.mk hx.sz (show |qv x - qv x| ≤ 0 by simp)).sub (QA.mk hr2.sz (show |qv r - qv r| ≤ 0 by simp))
        (Z := |L| + 19 / 10 + K) (g := (|L| + 19 / 10 + K) / 2 ^ 128) (W := |L| + 19 / 10 + K) le_rfl le_rfl (by norm_num; linarith) (by linarith) (by linarith)
        (by
          have e1 : qv x - qv r = (qv x - L) + (L - qv r) := by ring
          have h1 := abs_add_le (qv x - L) (L - qv r)
          rw [abs_sub_comm L] at h1
          have h2 := hx.err
          have h3 := hr2.err
          rw [← e1] at h1
          norm_num at hD h3 ⊢; linarith)
      have h2 := small_of_lt hd.sz hs' hn hle
      have h3 := abs_sub_abs_le_abs_sub (qv x - qv r) (qv (x - r))
      rw [abs_sub_comm (qv x - qv r)] at h3
      have h4 := hd.err
      have h5 : |qv x - qv r| ≤ 1 / 2 ^ 89 := by
        norm_num at h2 h4 ⊢; linarith
      have h6 : QA x L (1 / 2 ^ 74) (|L| + 19 / 10 + K) := by
        refine ⟨hx.sz, ?_⟩
        have := abs_add_le (qv x - qv r) (qv r - L)
        rw [sub_add_sub_cancel] at this
        have := hr2.err
        norm_num at h5 this ⊢; linarith
      obtain ⟨e', he', hr'⟩ := hst h6 (by norm_num)
      obtain rfl : e = e' := by injection he'
      rw [hrr] at hr'
      exact hg (hr'.mono (by unfold qlnRho; norm_num) le_rfl)
  · exact (qlnLoop_good ha hK1 hK2 hA hL1 hL2 eps 6 1 _ (by norm_num) (by norm_num) (hr2.mono (by norm_num) le_rfl)).imp
      fun r h => ⟨h.1, hgood r h.2⟩

end Verif
