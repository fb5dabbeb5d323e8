import Verif.Props.QuadLaws
import Verif.Props.QuadTrig
import Verif.Props.QuadAtan
import Verif.Props.Trig
import Verif.Props.Atan
import Verif.Props.QuadSqrt

/-!
# C97: a Double and a Quad that hold the same number get the same answers

Every theorem takes a Double `a` and a Quad `A` with the same value, computes the same function on both, and bounds the
distance of the two results by what the precision of a Double allows. Nothing here mentions how either type computes.
-/

namespace Verif

open F64 Prim Util

/-- Two approximations of one number are near each other. -/
theorem two_near {p q S e f g : ℝ} (h1 : |p - S| ≤ e) (h2 : |q - S| ≤ f) (hg : e + f ≤ g) : |q - p| ≤ g := by
  rw [abs_le] at h1 h2 ⊢
  constructor <;> linarith [h1.1, h1.2, h2.1, h2.2]

/-- **C97.** Sums of Doubles and of Quads with the same values agree within `(|a| + |b|) / 2^102`. -/
theorem C97_add (a b : Double) (A B : Quad) (ha : a.Normalized) (hb : b.Normalized) (hA : A.Normalized) (hB : B.Normalized)
    (e1 : A.val = a.val) (e2 : B.val = b.val) (h1 : |a.val| ≤ 2 ^ 190) (h2 : |b.val| ≤ 2 ^ 190) :
    (a + b).Normalized ∧ (A + B).Fin ∧ |(A + B).val - (a + b).val| ≤ (|a.val| + |b.val|) / 2 ^ 102 := by
  have p := ap_add0 ha hb (rv_le_real h1) (rv_le_real h2)
  have q := qa_add0 hA hB (qv_le_real (n := 200) (by rw [e1]; exact h1.trans (by norm_num)))
    (qv_le_real (n := 200) (by rw [e2]; exact h2.trans (by norm_num)))
  have f1 : qv A = rv a := by unfold qv rv; exact_mod_cast e1
  have f2 : qv B = rv b := by unfold qv rv; exact_mod_cast e2
  rw [f1, f2] at q
  refine ⟨p.1, q.fin, ?_⟩
  have A0 := abs_nonneg (rv a)
  have B0 := abs_nonneg (rv b)
  have key := two_near (g := (|rv a| + |rv b|) / 2 ^ 102) p.2 q.err (by norm_num; linarith)
  unfold qv rv at key
  exact_mod_cast key

/-- **C97.** Products of Doubles and of Quads with the same values agree within `|a b| / 2^101`. -/
theorem C97_mul (a b : Double) (A B : Quad) (ha : a.Normalized) (hb : b.Normalized) (hA : A.Normalized) (hB : B.Normalized)
    (e1 : A.val = a.val) (e2 : B.val = b.val) (h1 : 1 ≤ |a.val| * 2 ^ 200) (h2 : |a.val| ≤ 2 ^ 200)
    (h3 : 1 ≤ |b.val| * 2 ^ 200) (h4 : |b.val| ≤ 2 ^ 200) :
    (a * b).Normalized ∧ (A * B).Fin ∧ |(A * B).val - (a * b).val| ≤ |a.val * b.val| / 2 ^ 101 := by
  have f1 : qv A = rv a := by unfold qv rv; exact_mod_cast e1
  have f2 : qv B = rv b := by unfold qv rv; exact_mod_cast e2
  have k1 : (1:ℝ) ≤ |rv a| * 2 ^ 200 := by unfold rv; exact_mod_cast h1
  have k3 : (1:ℝ) ≤ |rv b| * 2 ^ 200 := by unfold rv; exact_mod_cast h3
  have k2 := rv_le_real h2
  have k4 := rv_le_real h4
  have A0 := abs_nonneg (rv a)
  have B0 := abs_nonneg (rv b)
  have big : (2:ℝ) ^ 200 ≤ 2 ^ 225 * 2 ^ 225 := by norm_num
  have p := mul_rel_rv ha hb (k1.trans (mul_le_mul_of_nonneg_left big A0)) (k2.trans big) (k3.trans (mul_le_mul_of_nonneg_left big B0))
    (k4.trans big)
  have q := qa_mul0 hA hB (by rw [f1]; exact k2) (by rw [f2]; exact k4) (by rw [f1]; exact k1) (by rw [f2]; exact k3)
  rw [f1, f2] at q
  refine ⟨p.1, q.fin, ?_⟩
  have M0 := abs_nonneg (rv a * rv b)
  clear h1 h2 h3 h4 k1 k2 k3 k4 big
  have q2 := q.err
  have p2 := p.2
  have key : |qv (A * B) - rv (a * b)| ≤ |rv a * rv b| / 2 ^ 101 := by
    generalize |rv a * rv b| = M at *
    exact two_near p2 q2 (by norm_num; linarith)
  unfold qv rv at key
  exact_mod_cast key

/-- **C97.** `exp` of a Double and of a Quad with the same value agree within `(|a| + 11) / 2^102`, relatively. -/
theorem C97_exp (a : Double) (A : Quad) (ha : a.Normalized) (hA : A.Normalized) (hv : A.val = a.val) (h : |a.val| ≤ 469) :
    ∃ r R, Double.exp a = some r ∧ Quad.exp A = some R ∧ r.Normalized ∧ R.Fin ∧
      |(R.val : ℝ) - (r.val : ℝ)| ≤ (|(a.val : ℝ)| + 11) / 2 ^ 102 * Real.exp (a.val : ℝ) := by
  have hR : |(a.val : ℝ)| ≤ 469 := by exact_mod_cast h
  obtain ⟨c1, c2⟩ := hi_bounds ha hR 470 (by norm_num)
  obtain ⟨r, r1, r2, r3⟩ := C63_exp a ha (le_trans (by norm_num) c1) (c2.trans (by norm_num))
  have hq : |qv A| ≤ 469 := by unfold qv; rw [hv]; exact hR
  have hs := qv_sub_c0 (qord_norm hA)
  have h6 := abs_sub_abs_le_abs_sub (fr A.c0) (qv A)
  rw [abs_sub_comm] at h6
  have h7 : |fr A.c0| ≤ 470 := by norm_num at hs; linarith
  have h8 : |A.c0.toRat| ≤ 470 := by unfold fr at h7; exact_mod_cast h7
  obtain ⟨d1, d2⟩ := abs_le.mp h8
  obtain ⟨R, R1, R2, R3⟩ := C73_quad_exp A hA d1 (d2.trans (by norm_num))
  refine ⟨r, R, r1, R1, r2, R2, ?_⟩
  rw [hv] at R3
  refine two_near r3 R3 ?_
  rw [← add_mul]
  refine mul_le_mul_of_nonneg_right ?_ (Real.exp_pos _).le
  have := abs_nonneg (a.val : ℝ)
  norm_num
  linarith

/-- **C97.** `ln` of a Double and of a Quad with the same value agree within `(3 |ln a| + 14) / 2^102`. -/
theorem C97_ln (P : Platform) (hP : LibmLogs P) (a : Double) (A : Quad) (ha : a.Normalized) (hA : A.Normalized) (hv : A.val = a.val)
    (hp : 0 < a.val) (h1 : -707 ≤ Real.log (a.val : ℝ)) (h2 : Real.log (a.val : ℝ) ≤ 469) :
    ∃ r R, Double.ln P a = some r ∧ Quad.ln P A = some R ∧ r.Normalized ∧ R.Fin ∧
      |(R.val : ℝ) - (r.val : ℝ)| ≤ (3 * |Real.log (a.val : ℝ)| + 14) / 2 ^ 102 := by
  obtain ⟨r, r1, r2, r3⟩ := C64_ln P hP a ha hp h1 (h2.trans (by norm_num))
  obtain ⟨R, R1, R2, R3⟩ := C74_quad_ln P hP A hA (by rw [hv]; exact hp) (by rw [hv]; exact h1) (by rw [hv]; exact h2)
  refine ⟨r, R, r1, R1, r2, R2, ?_⟩
  rw [hv] at R3
  refine two_near r3 R3 ?_
  have := abs_nonneg (Real.log (a.val : ℝ))
  norm_num
  linarith

/-- **C97.** Square roots of a Double and of a Quad with the same value agree within relative `2^-99`. -/
theorem C97_sqrt (P : Platform) (hP : FloatText P.toStr) (a : Double) (A : Quad) (ha : a.Normalized) (hA : A.Normalized)
    (hv : A.val = a.val) (h1 : 1 ≤ a.val * 2 ^ 830) (h2 : a.val ≤ 2 ^ 830) :
    ∃ r R, Double.sqrt P a = some r ∧ Quad.sqrt P A = some R ∧ r.Normalized ∧ R.Fin ∧
      |(R.val : ℝ) - (r.val : ℝ)| ≤ Real.sqrt (a.val : ℝ) / 2 ^ 99 := by
  have hp : 0 ≤ a.val := by
    by_contra hc
    have := mul_nonpos_of_nonpos_of_nonneg (not_le.mp hc).le (show (0:ℚ) ≤ 2 ^ 830 by positivity)
    exact absurd (h1.trans this) (by norm_num)
  obtain ⟨r, r1, r2, r3⟩ := C67_sqrt P hP a ha
    (h1.trans (mul_le_mul_of_nonneg_left (pow_le_pow_right₀ (by norm_num) (by norm_num)) hp))
    (h2.trans (pow_le_pow_right₀ (by norm_num) (by norm_num)))
  obtain ⟨R, R1, R2, R3⟩ := C81_quad_sqrt P hP A hA (by rw [hv]; exact h1) (by rw [hv]; exact h2)
  refine ⟨r, R, r1, R1, r2, R2, ?_⟩
  rw [hv] at R3
  clear h1 h2
  have S0 := Real.sqrt_nonneg (a.val : ℝ)
  generalize Real.sqrt (a.val : ℝ) = S at *
  have R4 : |(R.val : ℝ) - S| ≤ S / 2 ^ 127 := by rw [le_div_iff₀ (by positivity)]; exact R3
  refine two_near r3 R4 ?_
  norm_num
  linarith

/-- **C97.** Sines and cosines of a Double and of a Quad with the same value agree within `(2 |a| + 30) / 2^102`. -/
theorem C97_sin_cos (P : Platform) (hP : FloatText P.toStr) (a : Double) (A : Quad) (ha : a.Normalized) (hA : A.Normalized)
    (hv : A.val = a.val) (h : |a.val| ≤ 2 ^ 29) :
    ∃ s c S C, Double.sin P a = some s ∧ Double.cos P a = some c ∧ Quad.sin P A = some S ∧ Quad.cos P A = some C ∧
      s.Normalized ∧ c.Normalized ∧ S.Fin ∧ C.Fin ∧
      |(S.val : ℝ) - (s.val : ℝ)| ≤ (2 * |(a.val : ℝ)| + 30) / 2 ^ 102 ∧
      |(C.val : ℝ) - (c.val : ℝ)| ≤ (2 * |(a.val : ℝ)| + 30) / 2 ^ 102 := by
  have hR : |(a.val : ℝ)| ≤ 2 ^ 29 := by exact_mod_cast h
  obtain ⟨s, s1, s2, s3⟩ := C68_sin P hP a ha (h.trans (by norm_num))
  obtain ⟨c, c1, c2, c3⟩ := C68_cos P hP a ha (h.trans (by norm_num))
  obtain ⟨S, S1, S2, S3⟩ := C84_quad_sin P hP A hA (by rw [hv]; exact hR)
  obtain ⟨C, D1, D2, D3⟩ := C84_quad_cos P hP A hA (by rw [hv]; exact hR)
  refine ⟨s, c, S, C, s1, c1, S1, D1, s2, c2, S2, D2, ?_, ?_⟩
  all_goals
    rw [hv] at S3 D3
    have := abs_nonneg (a.val : ℝ)
  · exact two_near s3 S3 (by norm_num; linarith)
  · exact two_near c3 D3 (by norm_num; linarith)

/-- **C97.** `atan2` of two Doubles and of two Quads with the same values agree within `131 / 2^102`: the operands mean the same
thing in both types, and the result is in the same quadrant. -/
theorem C97_atan2 (P : Platform) (hT : FloatText P.toStr) (hA2 : LibmAtan2 P) (y x : Double) (Y X : Quad) (hy : y.Normalized)
    (hx : x.Normalized) (hY : Y.Normalized) (hX : X.Normalized) (ey : Y.val = y.val) (ex : X.val = x.val)
    (h1 : y.val = 0 ∨ (1 ≤ |y.val| * 2 ^ 150 ∧ |y.val| ≤ 2 ^ 150)) (h2 : x.val = 0 ∨ (1 ≤ |x.val| * 2 ^ 150 ∧ |x.val| ≤ 2 ^ 150))
    (h3 : y.val ≠ 0 ∨ x.val ≠ 0) :
    ∃ r R, Double.atan2 P y x = some r ∧ Quad.atan2 P Y X = some R ∧ r.Normalized ∧ R.Fin ∧
      |(R.val : ℝ) - (r.val : ℝ)| ≤ 131 / 2 ^ 102 := by
  have w : ∀ v : ℚ, (v = 0 ∨ (1 ≤ |v| * 2 ^ 150 ∧ |v| ≤ 2 ^ 150)) → (v = 0 ∨ (1 ≤ |v| * 2 ^ 400 ∧ |v| ≤ 2 ^ 400)) := fun v hv =>
    hv.imp_right fun h => ⟨h.1.trans (mul_le_mul_of_nonneg_left (pow_le_pow_right₀ (by norm_num) (by norm_num)) (abs_nonneg _)),
      h.2.trans (pow_le_pow_right₀ (by norm_num) (by norm_num))⟩
  obtain ⟨r, r1, r2, r3⟩ := C71_atan2 P hT hA2 y x hy hx (w _ h1) (w _ h2) h3
  obtain ⟨R, R1, R2, R3, -⟩ := C85_quad_atan2 P hT hA2 Y X hY hX (by rw [ey]; exact h1) (by rw [ex]; exact h2) (by rw [ey, ex]; exact h3)
  refine ⟨r, R, r1, R1, r2, R2, ?_⟩
  rw [ey, ex] at R3
  clear h1 h2 w
  have t := Complex.abs_arg_le_pi ⟨(x.val : ℝ), (y.val : ℝ)⟩
  generalize Complex.arg ⟨(x.val : ℝ), (y.val : ℝ)⟩ = θ at *
  have pi := Real.pi_lt_d2
  have t1 : |θ| ≤ 3.15 := t.trans pi.le
  have t2 : θ ^ 2 ≤ 10 := by
    rw [← sq_abs]
    nlinarith [abs_nonneg θ]
  refine two_near r3 R3 ?_
  norm_num at t1 ⊢
  linarith

/-! ## The hypotheses of C97 can be met -/

/-- A Quad with the value of the Double π. -/
def quadOfPi : Quad := ⟨Double.PI.hi, Double.PI.lo, F64.zero, F64.zero⟩
/-- A Quad with the value of the Double e. -/
def quadOfE : Quad := ⟨Double.E.hi, Double.E.lo, F64.zero, F64.zero⟩

theorem quadOfPi_val : quadOfPi.val = Double.PI.val := by decide +kernel

theorem quadOfE_val : quadOfE.val = Double.E.val := by decide +kernel

example : |(quadOfPi + quadOfE).val - (Double.PI + Double.E).val| ≤ (|Double.PI.val| + |Double.E.val|) / 2 ^ 102 :=
  (C97_add Double.PI Double.E quadOfPi quadOfE (by decide +kernel) (by decide +kernel) (by decide +kernel) (by decide +kernel)
    quadOfPi_val quadOfE_val (by decide +kernel) (by decide +kernel)).2.2

example : |(quadOfPi * quadOfE).val - (Double.PI * Double.E).val| ≤ |Double.PI.val * Double.E.val| / 2 ^ 101 :=
  (C97_mul Double.PI Double.E quadOfPi quadOfE (by decide +kernel) (by decide +kernel) (by decide +kernel) (by decide +kernel)
    quadOfPi_val quadOfE_val (by decide +kernel) (by decide +kernel) (by decide +kernel) (by decide +kernel)).2.2

example : ∃ r R, Double.exp Double.PI = some r ∧ Quad.exp quadOfPi = some R := by
  obtain ⟨r, R, h1, h2, -⟩ := C97_exp Double.PI quadOfPi (by decide +kernel) (by decide +kernel) quadOfPi_val (by decide +kernel)
  exact ⟨r, R, h1, h2⟩

example (P : Platform) (hP : FloatText P.toStr) : ∃ r R, Double.sqrt P Double.PI = some r ∧ Quad.sqrt P quadOfPi = some R := by
  obtain ⟨r, R, h1, h2, -⟩ := C97_sqrt P hP Double.PI quadOfPi (by decide +kernel) (by decide +kernel) quadOfPi_val (by decide +kernel)
    (by decide +kernel)
  exact ⟨r, R, h1, h2⟩

example (P : Platform) (hP : LibmLogs P) : ∃ r R, Double.ln P Double.E = some r ∧ Quad.ln P quadOfE = some R := by
  have lo : (1:ℝ) ≤ (Double.E.val : ℝ) := by
    have : (1:ℚ) ≤ Double.E.val := by decide +kernel
    exact_mod_cast this
  have hi : (Double.E.val : ℝ) ≤ 3 := by
    have : Double.E.val ≤ 3 := by decide +kernel
    exact_mod_cast this
  have l := Real.log_nonneg lo
  have u := Real.log_le_sub_one_of_pos (show (0:ℝ) < (Double.E.val : ℝ) by linarith)
  obtain ⟨r, R, h1, h2, -⟩ := C97_ln P hP Double.E quadOfE (by decide +kernel) (by decide +kernel) quadOfE_val (by decide +kernel)
    (by linarith) (by linarith)
  exact ⟨r, R, h1, h2⟩

example (P : Platform) (hP : FloatText P.toStr) : ∃ s S, Double.sin P Double.PI = some s ∧ Quad.sin P quadOfPi = some S ∧
    |(S.val : ℝ) - (s.val : ℝ)| ≤ (2 * |(Double.PI.val : ℝ)| + 30) / 2 ^ 102 := by
  obtain ⟨s, c, S, C, h1, -, h2, -, -, -, -, -, h3, -⟩ :=
    C97_sin_cos P hP Double.PI quadOfPi (by decide +kernel) (by decide +kernel) quadOfPi_val (by decide +kernel)
  exact ⟨s, S, h1, h2, h3⟩

example (P : Platform) (hT : FloatText P.toStr) (hA2 : LibmAtan2 P) :
    ∃ r R, Double.atan2 P Double.PI Double.E = some r ∧ Quad.atan2 P quadOfPi quadOfE = some R ∧
      |(R.val : ℝ) - (r.val : ℝ)| ≤ 131 / 2 ^ 102 := by
  obtain ⟨r, R, h1, h2, -, -, h3⟩ := C97_atan2 P hT hA2 Double.PI Double.E quadOfPi quadOfE (by decide +kernel) (by decide +kernel)
    (by decide +kernel) (by decide +kernel) quadOfPi_val quadOfE_val (Or.inr (by decide +kernel)) (Or.inr (by decide +kernel))
    (Or.inl (by decide +kernel))
  exact ⟨r, R, h1, h2, h3⟩

end Verif
