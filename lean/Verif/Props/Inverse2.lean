import Verif.Props.Inverse
import Verif.Props.Hyper
import Verif.Props.InvHyper2
import Mathlib.Analysis.Calculus.MeanValue
import Mathlib.Analysis.SpecialFunctions.Trigonometric.DerivHyp

/-!
# C92: `tanh(atanh a)`, `sinh(asinh a)` and `tan(atan a)` on Doubles
-/

namespace Verif

open F64 Prim Util

/-! ## Real analysis -/

theorem tanh_lip (x y : ℝ) : |Real.tanh x - Real.tanh y| ≤ |x - y| := by
  have hd : ∀ t : ℝ, HasDerivAt Real.tanh (1 / Real.cosh t ^ 2) t := by
    intro t
    have h := (Real.hasDerivAt_sinh t).div (Real.hasDerivAt_cosh t) (Real.cosh_pos t).ne'
    have e : (fun t => Real.sinh t / Real.cosh t) = Real.tanh := by
      funext u; rw [Real.tanh_eq_sinh_div_cosh]
    have e2 : (Real.sinh / Real.cosh : ℝ → ℝ) = Real.tanh := by rw [← e]; rfl
    rw [e2] at h
    refine h.congr_deriv ?_
    congr 1
    have := Real.cosh_sq_sub_sinh_sq t
    linarith
  have h := Convex.norm_image_sub_le_of_norm_hasDerivWithin_le (f := Real.tanh) (f' := fun t => 1 / Real.cosh t ^ 2) (C := 1)
    (s := Set.univ) (x := y) (y := x) (fun t _ => (hd t).hasDerivWithinAt) (fun t _ => by
      rw [Real.norm_eq_abs, abs_of_pos (by have := Real.cosh_pos t; positivity), div_le_one (by have := Real.cosh_pos t; positivity)]
      exact one_le_pow₀ (Real.one_le_cosh t)) convex_univ trivial trivial
  simpa [Real.norm_eq_abs] using h

theorem artanh_ge {x : ℝ} (h : |x| < 1) : |x| ≤ |Real.artanh x| := by
  have := tanh_lip (Real.artanh x) 0
  rw [Real.tanh_artanh (abs_lt.mp h), Real.tanh_zero, sub_zero, sub_zero] at this
  exact this

theorem sinh_near {t L : ℝ} (h : |t - L| ≤ 1 / 100) : |Real.sinh t - Real.sinh L| ≤ 102 / 100 * |t - L| * Real.cosh L := by
  have e : Real.sinh t - Real.sinh L = Real.sinh (t - L) * Real.cosh L + (Real.cosh (t - L) - 1) * Real.sinh L := by
    have := Real.sinh_add (t - L) L
    rw [sub_add_cancel] at this
    rw [this]; ring
  set d := t - L
  have hs : |Real.sinh L| ≤ Real.cosh L := by
    rw [abs_le]; constructor
    · have := Real.exp_pos L; rw [← Real.cosh_add_sinh] at this; linarith
    · exact (Real.sinh_lt_cosh L).le
  have c0 : 0 ≤ Real.cosh d - 1 := by linarith [Real.one_le_cosh d]
  have hd : |Real.sinh d| + (Real.cosh d - 1) = Real.exp |d| - 1 := by
    rcases abs_cases d with ⟨h1, h2⟩ | ⟨h1, h2⟩
    · rw [h1, abs_of_nonneg (Real.sinh_nonneg_iff.mpr h2), ← Real.cosh_add_sinh]; ring
    · rw [h1, abs_of_neg (Real.sinh_neg_iff.mpr h2), ← Real.cosh_add_sinh, Real.cosh_neg, Real.sinh_neg]; ring
  have d0 := abs_nonneg d
  have he := Real.abs_exp_sub_one_sub_id_le (x := |d|) (by rw [abs_abs]; linarith)
  have he2 := (abs_le.mp he).2
  have hq : |d| ^ 2 ≤ 1 / 100 * |d| := by rw [sq]; exact mul_le_mul_of_nonneg_right h d0
  rw [e]
  refine (abs_add_le _ _).trans ?_
  rw [abs_mul, abs_mul, abs_of_nonneg c0, abs_of_pos (Real.cosh_pos L)]
  have k := mul_le_mul_of_nonneg_left hs c0
  have k2 : (|Real.sinh d| + (Real.cosh d - 1)) * Real.cosh L ≤ 102 / 100 * |d| * Real.cosh L :=
    mul_le_mul_of_nonneg_right (by rw [hd]; linarith) (Real.cosh_pos L).le
  linarith

/-- **C92.** `tanh` undoes `atanh`: for `2^-60 ≤ |a| ≤ 1 - 2^-800`, `a.atanh().tanh()` is within
`(2 |artanh a| + 14) / 2^96` of `a`. -/
theorem C92_tanh_atanh (P : Platform) (hL : LibmLogs P) (hT : FloatText P.toStr) (a : Double) (ha : a.Normalized)
    (h0 : 1 ≤ |a.val| * 2 ^ 60) (h1 : |a.val| ≤ 1 - 1 / 2 ^ 800) :
    ∃ t r, Double.atanh P a = some t ∧ Double.tanh P t = some r ∧ r.Normalized ∧
      |(r.val : ℝ) - (a.val : ℝ)| ≤ (2 * |Real.artanh (a.val : ℝ)| + 14) / 2 ^ 96 := by
  obtain ⟨t, t1, t2, t3⟩ := C70_atanh P hL a ha h1
  have h0R : (1:ℝ) ≤ |(a.val : ℝ)| * 2 ^ 60 := by exact_mod_cast h0
  have hp : (0:ℝ) < 1 / 2 ^ 800 := by positivity
  have lg : Real.log (2 ^ 801) ≤ 800 * 1 := by
    rw [Real.log_pow]; have := Real.log_two_lt_d9; push_cast; linarith
  have h1R : |(a.val : ℝ)| ≤ 1 - 1 / 2 ^ 800 := by
    have := (Rat.cast_le (K := ℝ)).mpr h1
    push_cast at this; exact this
  have hlt : |(a.val : ℝ)| < 1 := lt_of_le_of_lt h1R (by
    clear h0 h1 h1R lg
    generalize (1:ℝ) / 2 ^ 800 = B at *
    linarith)
  have up : |Real.artanh (a.val : ℝ)| ≤ 400 := by
    obtain ⟨l1, l2⟩ := abs_lt.mp hlt
    have e := Real.artanh_eq_half_log (x := (a.val : ℝ)) ⟨l1.le, l2.le⟩
    have bd : ∀ x : ℝ, |x| < 1 → |x| ≤ 1 - 1 / 2 ^ 800 → (1 + x) / (1 - x) ≤ 2 ^ 801 := by
      intro x hx hx2
      have g : 1 / 2 ^ 800 ≤ 1 - x := by
        have := le_abs_self x
        clear h0 h1 h1R lg
        generalize (1:ℝ) / 2 ^ 800 = B at *
        linarith
      have g1 := (abs_lt.mp hx).2
      rw [div_le_iff₀ (by linarith), pow_succ']
      have g2 := mul_le_mul_of_nonneg_left g (show (0:ℝ) ≤ 2 * 2 ^ 800 by positivity)
      refine le_trans ?_ g2
      have g3 : (2:ℝ) * 2 ^ 800 * (1 / 2 ^ 800) = 2 := by field_simp
      rw [g3]
      clear h0 h1 h1R lg g2 g3 g hx2
      linarith
    have b1 := bd (a.val : ℝ) hlt h1R
    have b2 := bd (-(a.val : ℝ)) (by rw [abs_neg]; exact hlt) (by rw [abs_neg]; exact h1R)
    have p1 : 0 < (1 + (a.val : ℝ)) / (1 - (a.val : ℝ)) := div_pos (by linarith) (by linarith)
    have p2 : 0 < (1 + -(a.val : ℝ)) / (1 - -(a.val : ℝ)) := div_pos (by linarith) (by linarith)
    have c1 := (Real.log_le_log p1 b1).trans lg
    have c2 := (Real.log_le_log p2 b2).trans lg
    have inv : (1 + -(a.val : ℝ)) / (1 - -(a.val : ℝ)) = ((1 + (a.val : ℝ)) / (1 - (a.val : ℝ)))⁻¹ := by
      rw [inv_div]; congr 1; ring
    rw [inv, Real.log_inv] at c2
    rw [e, abs_le]
    generalize Real.log ((1 + (a.val : ℝ)) / (1 - (a.val : ℝ))) = K at *
    clear h0 h1 h1R lg b1 b2 bd
    constructor <;> linarith
  clear h1 h1R lg hp h0
  have lo := artanh_ge hlt
  have ht := Real.tanh_artanh (x := (a.val : ℝ)) (abs_lt.mp hlt)
  generalize Real.artanh (a.val : ℝ) = L at *
  have k1 := abs_sub_abs_le_abs_sub (t.val : ℝ) L
  have k2 := abs_sub_abs_le_abs_sub L (t.val : ℝ)
  rw [abs_sub_comm] at k2
  have n := t3 (by norm_num at h0R ⊢; linarith)
  have b1 : (1:ℝ) ≤ |(t.val : ℝ)| * 2 ^ 100 := by norm_num at h0R k2 t2 ⊢; linarith
  have b2 : |(t.val : ℝ)| ≤ 599 := by norm_num at k1 t2 ⊢; linarith
  have b1' : (1:ℚ) ≤ |t.val| * 2 ^ 100 := by exact_mod_cast b1
  obtain ⟨r, r1, r2, r3⟩ := C69_tanh P hT t n (by exact_mod_cast b2)
    (b1'.trans (mul_le_mul_of_nonneg_left (pow_le_pow_right₀ (by norm_num) (by norm_num)) (abs_nonneg _)))
  refine ⟨t, r, t1, r1, r2, ?_⟩
  have q := tanh_lip (t.val : ℝ) L
  rw [ht] at q
  have m := abs_sub_le (r.val : ℝ) (Real.tanh (t.val : ℝ)) (a.val : ℝ)
  have one : |Real.tanh (t.val : ℝ)| ≤ 1 := by
    have hs := Real.cosh_pos (t.val : ℝ)
    rw [Real.tanh_eq_sinh_div_cosh, abs_div, abs_of_pos hs, div_le_one hs, abs_le]; constructor
    · have := Real.exp_pos (t.val : ℝ); rw [← Real.cosh_add_sinh] at this; linarith
    · exact (Real.sinh_lt_cosh _).le
  have r4 := r3.trans (mul_le_of_le_one_right (by positivity) one)
  clear r3
  generalize |(r.val : ℝ) - Real.tanh (t.val : ℝ)| = Z at *
  have L0 := abs_nonneg L
  norm_num at r4 t2 k1 ⊢
  linarith

/-- **C92.** `sinh` undoes `asinh`: for `2^-60 ≤ a ≤ 2^400`, `a.asinh().sinh()` is within
`(2 arsinh a + 13) / 2^97` of `a`, relative to `sqrt(1 + a²)`. -/
theorem C92_sinh_asinh (P : Platform) (hL : LibmLogs P) (hT : FloatText P.toStr) (a : Double) (ha : a.Normalized)
    (h0 : 1 ≤ a.val * 2 ^ 60) (h1 : a.val ≤ 2 ^ 400) :
    ∃ t r, Double.asinh P a = some t ∧ Double.sinh t = some r ∧ r.Normalized ∧
      |(r.val : ℝ) - (a.val : ℝ)| ≤ (2 * Real.arsinh (a.val : ℝ) + 13) / 2 ^ 97 * Real.sqrt (1 + (a.val : ℝ) ^ 2) := by
  have h0R : (1:ℝ) ≤ (a.val : ℝ) * 2 ^ 60 := by exact_mod_cast h0
  have pos : (0:ℝ) < (a.val : ℝ) := by norm_num at h0R; linarith
  obtain ⟨t, t1, t2, t3⟩ := C70_asinh_nonneg P hL hT a ha (by exact_mod_cast pos.le) h1
  have up : Real.arsinh (a.val : ℝ) ≤ 300 := by
    have hR : (a.val : ℝ) ≤ 2 ^ 400 := by exact_mod_cast h1
    have s : Real.sqrt (1 + (a.val : ℝ) ^ 2) ≤ 1 + (a.val : ℝ) := by
      apply Real.sqrt_le_iff.mpr; constructor
      · linarith
      · ring_nf; linarith
    have g : (a.val : ℝ) + Real.sqrt (1 + (a.val : ℝ) ^ 2) ≤ 2 ^ 402 := by
      have g0 : (1:ℝ) ≤ 2 ^ 400 := one_le_pow₀ (by norm_num)
      rw [show (2:ℝ) ^ 402 = 2 ^ 400 * 2 ^ 2 from pow_add 2 400 2]
      clear h1
      generalize (2:ℝ) ^ 400 = B at *
      linarith
    unfold Real.arsinh
    refine (Real.log_le_log (add_pos_of_pos_of_nonneg pos (Real.sqrt_nonneg _)) g).trans ?_
    rw [Real.log_pow]; have := Real.log_two_lt_d9; push_cast; linarith
  clear h1
  have nn : 0 ≤ Real.arsinh (a.val : ℝ) := Real.arsinh_nonneg_iff.mpr pos.le
  have sh := Real.sinh_arsinh (a.val : ℝ)
  have ch := Real.cosh_arsinh (a.val : ℝ)
  generalize Real.arsinh (a.val : ℝ) = L at *
  rw [← ch]
  have k1 := abs_sub_abs_le_abs_sub (t.val : ℝ) L
  rw [abs_of_nonneg nn] at k1
  have t4 : |(t.val : ℝ) - L| ≤ 1 / 2 ^ 90 := t3.trans (by norm_num; linarith)
  have q := sinh_near (t := (t.val : ℝ)) (L := L) (t4.trans (by norm_num))
  have C1 := Real.one_le_cosh L
  have Ca : (a.val : ℝ) ≤ Real.cosh L := by rw [← sh]; exact (Real.sinh_lt_cosh L).le
  -- the angle is not too small
  have Lge : (1:ℝ) ≤ L * 2 ^ 62 := by
    by_contra hc
    rw [not_le] at hc
    have l1 : L ≤ 1 / 100 := by norm_num at hc ⊢; linarith
    have := sinh_near (t := L) (L := 0) (by rw [sub_zero, abs_of_nonneg nn]; exact l1)
    rw [sh, Real.sinh_zero, Real.cosh_zero, sub_zero, sub_zero, abs_of_pos pos, abs_of_nonneg nn] at this
    norm_num at hc h0R; linarith
  have b1 : (1:ℝ) ≤ |(t.val : ℝ)| * 2 ^ 100 := by
    have k2 := abs_sub_abs_le_abs_sub L (t.val : ℝ)
    rw [abs_sub_comm, abs_of_nonneg nn] at k2
    norm_num at Lge k2 t4 ⊢; linarith
  have b2 : |(t.val : ℝ)| ≤ 599 := by norm_num at k1 t4 ⊢; linarith
  have b1' : (1:ℚ) ≤ |t.val| * 2 ^ 100 := by exact_mod_cast b1
  obtain ⟨r, r1, r2, r3⟩ := C69_sinh t t2 (by exact_mod_cast b2)
    (b1'.trans (mul_le_mul_of_nonneg_left (pow_le_pow_right₀ (by norm_num) (by norm_num)) (abs_nonneg _)))
  refine ⟨t, r, t1, r1, r2, ?_⟩
  rw [sh] at q
  have m := abs_sub_le (r.val : ℝ) (Real.sinh (t.val : ℝ)) (a.val : ℝ)
  set C := Real.cosh L
  have q2 : |Real.sinh (t.val : ℝ) - (a.val : ℝ)| ≤ (102 / 100 * ((2 * L + 19) / 2 ^ 102)) * C :=
    q.trans (mul_le_mul_of_nonneg_right (mul_le_mul_of_nonneg_left t3 (by norm_num)) (by linarith))
  have q3 : |Real.sinh (t.val : ℝ) - (a.val : ℝ)| ≤ 1 / 1000 * C :=
    q2.trans (mul_le_mul_of_nonneg_right (by norm_num; linarith) (by linarith))
  have q4 : |Real.sinh (t.val : ℝ)| ≤ 1001 / 1000 * C := by
    have := abs_sub_abs_le_abs_sub (Real.sinh (t.val : ℝ)) (a.val : ℝ)
    rw [abs_of_pos pos] at this
    linarith
  have r4 : |(r.val : ℝ) - Real.sinh (t.val : ℝ)| ≤ (L + 12 + 1 / 1000) / 2 ^ 97 * (1001 / 1000 * C) := by
    refine r3.trans (mul_le_mul ?_ q4 (abs_nonneg _) (by positivity))
    norm_num at k1 t4 ⊢; linarith
  clear r3 q q3
  have fin : (L + 12 + 1 / 1000) / 2 ^ 97 * (1001 / 1000) + 102 / 100 * ((2 * L + 19) / 2 ^ 102) ≤ (2 * L + 13) / 2 ^ 97 := by
    norm_num; linarith
  have fin2 := mul_le_mul_of_nonneg_right fin (show 0 ≤ C by linarith)
  refine (m.trans (add_le_add r4 q2)).trans (le_trans (le_of_eq ?_) fin2)
  ring

/-- **C92.** `tan` undoes `atan`: for `2^-60 ≤ |a| ≤ 2^30`, `a.atan().tan()` is within `210 (1 + a²) / 2^102` of `a`. -/
theorem C92_tan_atan (P : Platform) (hT : FloatText P.toStr) (hA2 : LibmAtan2 P) (a : Double) (ha : a.Normalized)
    (h0 : 1 ≤ |a.val| * 2 ^ 60) (h1 : |a.val| ≤ 2 ^ 30) :
    ∃ t r, Double.atan P a = some t ∧ Double.tan P t = some r ∧ r.Normalized ∧
      |(r.val : ℝ) - (a.val : ℝ)| ≤ 210 / 2 ^ 102 * (1 + (a.val : ℝ) ^ 2) := by
  obtain ⟨t, t1, t2, t3, -⟩ := C71_atan P hT hA2 a ha (Or.inr
    ⟨h0.trans (mul_le_mul_of_nonneg_left (pow_le_pow_right₀ (by norm_num) (by norm_num)) (abs_nonneg _)),
      h1.trans (pow_le_pow_right₀ (by norm_num) (by norm_num))⟩)
  have h0R : (1:ℝ) ≤ |(a.val : ℝ)| * 2 ^ 60 := by exact_mod_cast h0
  have h1R : |(a.val : ℝ)| ≤ 2 ^ 30 := by exact_mod_cast h1
  clear h0 h1
  have ub : |Real.arctan (a.val : ℝ)| ≤ 1.5708 := by
    have h3 := Real.arctan_lt_pi_div_two (a.val : ℝ)
    have h4 := Real.neg_pi_div_two_lt_arctan (a.val : ℝ)
    have := pi_bds.2
    rw [abs_le]; constructor <;> norm_num at * <;> linarith
  have hs := Real.sin_arctan (a.val : ℝ)
  have hc := Real.cos_arctan (a.val : ℝ)
  have ht := Real.tan_arctan (a.val : ℝ)
  generalize Real.arctan (a.val : ℝ) = θ at *
  generalize (a.val : ℝ) = A at *
  have rs : Real.sqrt (1 + A ^ 2) ^ 2 = 1 + A ^ 2 := Real.sq_sqrt (by positivity)
  have R1 : 1 ≤ Real.sqrt (1 + A ^ 2) := Real.one_le_sqrt.mpr (by linarith [sq_nonneg A])
  have RA : |A| ≤ Real.sqrt (1 + A ^ 2) := Real.le_sqrt_of_sq_le (by rw [sq_abs]; linarith)
  have Ru : Real.sqrt (1 + A ^ 2) ≤ 2 ^ 31 := by
    rw [Real.sqrt_le_left (by norm_num)]
    have := pow_le_pow_left₀ (abs_nonneg A) h1R 2
    rw [sq_abs] at this
    norm_num at this ⊢; linarith
  have Rm : 1 + |A| ≤ 1415 / 1000 * Real.sqrt (1 + A ^ 2) := by
    have h := sq_abs A
    have : (1 + |A|) ^ 2 ≤ (1415 / 1000 * Real.sqrt (1 + A ^ 2)) ^ 2 := by
      rw [mul_pow, rs]; nlinarith [sq_nonneg (|A| - 1), sq_nonneg A]
    exact le_of_sq_le_sq this (by positivity)
  rw [← rs]
  generalize Real.sqrt (1 + A ^ 2) = R at *
  have Rp : 0 < R := by linarith
  have e71 : |(t.val : ℝ) - θ| ≤ 71 / 2 ^ 102 := by
    have q : θ ^ 2 ≤ 2.468 := by
      rw [← sq_abs]
      have := pow_le_pow_left₀ (abs_nonneg _) ub 2
      norm_num at this ⊢; linarith
    norm_num at t3 q ub ⊢; linarith
  have k1 := abs_sub_abs_le_abs_sub (t.val : ℝ) θ
  have tb : |(t.val : ℝ)| ≤ 2 := by norm_num at k1 e71 ub ⊢; linarith
  have ds := Real.abs_sin_sub_sin_le (t.val : ℝ) θ
  have dc := Real.abs_cos_sub_cos_le (t.val : ℝ) θ
  rw [hs] at ds
  rw [hc] at dc
  have inv : 1 / 2 ^ 31 ≤ 1 / R := one_div_le_one_div_of_le Rp Ru
  have cl : 999 / 1000 * (1 / R) ≤ Real.cos (t.val : ℝ) := by
    have := (abs_le.mp dc).1
    norm_num at this e71 inv ⊢; linarith
  have cp : 0 < Real.cos (t.val : ℝ) := lt_of_lt_of_le (by positivity) cl
  have sl : (1:ℝ) / 2 ^ 92 ≤ |Real.sin (t.val : ℝ)| := by
    have h := abs_sub_abs_le_abs_sub (A / R) (Real.sin (t.val : ℝ))
    rw [abs_sub_comm, abs_div, abs_of_pos Rp] at h
    have : 1 / 2 ^ 91 ≤ |A| / R := by
      rw [le_div_iff₀ Rp]; norm_num at h0R Ru ⊢; linarith
    norm_num at h this ds e71 ⊢; linarith
  obtain ⟨r, r1, r2, r3⟩ := C68_tan P hT t t2 (by
      have : |(t.val : ℝ)| ≤ 2 ^ 45 := tb.trans (by norm_num)
      exact_mod_cast this)
    (by norm_num at sl ⊢; linarith) (by rw [abs_of_pos cp]; norm_num at cl inv ⊢; linarith)
  refine ⟨t, r, t1, r1, r2, ?_⟩
  rw [abs_of_pos cp] at r3
  have ic : 1 / Real.cos (t.val : ℝ) ≤ 1002 / 1000 * R := by
    rw [div_le_iff₀ cp]
    have := mul_le_mul_of_nonneg_left cl (show 0 ≤ 1002 / 1000 * R by positivity)
    have e : 1002 / 1000 * R * (999 / 1000 * (1 / R)) = 1002 / 1000 * (999 / 1000) := by field_simp
    rw [e] at this
    norm_num at this ⊢; linarith
  -- the true tangent of the computed angle
  have td : |Real.tan (t.val : ℝ) - A| ≤ 71 / 2 ^ 102 * (1002 / 1000) * R ^ 2 := by
    have e : Real.tan (t.val : ℝ) - A = Real.sin ((t.val : ℝ) - θ) * (1 / Real.cos (t.val : ℝ)) * R := by
      rw [Real.sin_sub, hs, hc, Real.tan_eq_sin_div_cos]; field_simp
    rw [e, abs_mul, abs_mul, abs_of_pos (one_div_pos.mpr cp), abs_of_pos Rp]
    have h := mul_le_mul (Real.abs_sin_le_abs.trans e71) ic (one_div_pos.mpr cp).le (by norm_num)
    have h2 := mul_le_mul_of_nonneg_right h Rp.le
    refine h2.trans (le_of_eq ?_); ring
  have R2 : R ^ 2 ≤ 2 ^ 62 := by
    have := pow_le_pow_left₀ Rp.le Ru 2
    norm_num at this ⊢; exact this
  have tt : 1 + |Real.tan (t.val : ℝ)| ≤ 1416 / 1000 * R := by
    have h := abs_sub_abs_le_abs_sub (Real.tan (t.val : ℝ)) A
    generalize R ^ 2 = R' at *
    norm_num at td R2 h Rm ⊢; linarith
  have r4 : |(r.val : ℝ) - Real.tan (t.val : ℝ)| ≤ 3 * (31 / 2 ^ 102) * (1416 / 1000 * R) * (1002 / 1000 * R) := by
    refine r3.trans ?_
    rw [div_eq_mul_one_div]
    refine mul_le_mul (mul_le_mul ?_ tt (by positivity) (by positivity)) ic (one_div_pos.mpr cp).le (by positivity)
    norm_num; linarith
  refine (abs_sub_le _ (Real.tan (t.val : ℝ)) _).trans ((add_le_add r4 td).trans ?_)
  have : 0 ≤ R ^ 2 := by positivity
  have e : 3 * (31 / 2 ^ 102) * (1416 / 1000 * R) * (1002 / 1000 * R) =
    3 * (31 / 2 ^ 102) * (1416 / 1000) * (1002 / 1000) * R ^ 2 := by ring
  rw [e]
  generalize R ^ 2 = R' at *
  norm_num; linarith

/-! ## Concrete cases -/

example : ∃ t r, Double.atanh bothPlatform (-(Double.PI / Double.TAU)) = some t ∧ Double.tanh bothPlatform t = some r ∧ r.Normalized ∧
    |(r.val : ℝ) - ((-(Double.PI / Double.TAU)).val : ℝ)| ≤
      (2 * |Real.artanh ((-(Double.PI / Double.TAU)).val : ℝ)| + 14) / 2 ^ 96 :=
  C92_tanh_atanh _ bothPlatform_ok.1 bothPlatform_ok.2 _ (by decide +kernel) (by decide +kernel) (by decide +kernel)

example : ∃ t r, Double.asinh bothPlatform Double.PI = some t ∧ Double.sinh t = some r ∧ r.Normalized ∧
    |(r.val : ℝ) - (Double.PI.val : ℝ)| ≤ (2 * Real.arsinh (Double.PI.val : ℝ) + 13) / 2 ^ 97 * Real.sqrt (1 + (Double.PI.val : ℝ) ^ 2) :=
  C92_sinh_asinh _ bothPlatform_ok.1 bothPlatform_ok.2 _ (by decide +kernel) (by decide +kernel) (by decide +kernel)

example : ∃ t r, Double.atan angPlatform (-Double.E) = some t ∧ Double.tan angPlatform t = some r ∧ r.Normalized ∧
    |(r.val : ℝ) - ((-Double.E).val : ℝ)| ≤ 210 / 2 ^ 102 * (1 + ((-Double.E).val : ℝ) ^ 2) :=
  C92_tan_atan _ angPlatform_ok.2 angPlatform_ok.1 _ (by decide +kernel) (by decide +kernel) (by decide +kernel)

end Verif
