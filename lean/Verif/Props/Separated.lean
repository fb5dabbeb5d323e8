import Verif.Props.Identities
import Verif.Props.Sqrt
import Verif.Props.Order
import Verif.Props.QuadSqrt
import Verif.Props.QuadSinh
import Verif.Props.QuadHyper
import Verif.Props.QuadExp
import Verif.Props.QuadLn

/-!
# C95: computed increasing functions keep order and sign

`exp`, `ln` and `sqrt` of two numbers that lie further apart than the accuracy of the function come out in the order of the
arguments; `exp` is positive, and `sinh` and `tanh` have the sign of their argument.
-/

namespace Verif

open F64 Prim Util

/-- Two approximations of well separated positive numbers are in order. -/
theorem sep_core {A B p q ε η d : ℝ} (hA : 0 < A) (hAB : A * (1 + d) ≤ B) (hp : |p - A| ≤ ε * A) (hq : |q - B| ≤ η * B)
    (hε : 0 < ε) (hη : 0 < η) (h4 : η ≤ 1 / 4) (hd : 2 * (ε + η) ≤ d) : p < q := by
  have h1 := (abs_le.mp hp).2
  have h2 := (abs_le.mp hq).1
  have h3 : A * (1 + d) * (1 - η) ≤ B * (1 - η) := mul_le_mul_of_nonneg_right hAB (by linarith)
  have h5 : d * η ≤ d * (1 / 4) := mul_le_mul_of_nonneg_left h4 (by linarith)
  have h6 : A * (1 + ε) < A * ((1 + d) * (1 - η)) := mul_lt_mul_of_pos_left (by nlinarith) hA
  nlinarith

theorem exp_sep {x y d : ℝ} (h : d ≤ y - x) : Real.exp x * (1 + d) ≤ Real.exp y := by
  have h1 : Real.exp y = Real.exp x * Real.exp (y - x) := by rw [← Real.exp_add]; congr 1; ring
  rw [h1]
  refine mul_le_mul_of_nonneg_left ?_ (Real.exp_pos x).le
  have := Real.add_one_le_exp (y - x)
  linarith

theorem log_sep {x y d : ℝ} (hx : 0 < x) (hy : 0 < y) (h : d * y ≤ y - x) : d ≤ Real.log y - Real.log x := by
  have h1 := Real.log_le_sub_one_of_pos (div_pos hx hy)
  rw [Real.log_div hx.ne' hy.ne'] at h1
  have h2 : x / y ≤ 1 - d := by
    rw [div_le_iff₀ hy]; linarith
  linarith

theorem sqrt_sep {x y t d : ℝ} (hx : 0 < x) (h : x * (1 + t) ≤ y) (hdt : (1 + d) * (1 + d) ≤ 1 + t) :
    Real.sqrt x * (1 + d) ≤ Real.sqrt y := by
  refine Real.le_sqrt_of_sq_le ?_
  rw [mul_pow, Real.sq_sqrt hx.le]
  refine le_trans (mul_le_mul_of_nonneg_left ?_ hx.le) h
  rw [sq]; exact hdt

/-- The sign of an approximation. -/
theorem sign_core {p S ε : ℝ} (h : |p - S| ≤ ε * |S|) (hε : ε < 1) : (0 < S → 0 < p) ∧ (S < 0 → p < 0) := by
  constructor
  · intro hS
    rw [abs_of_pos hS] at h
    have := (abs_le.mp h).1
    nlinarith
  · intro hS
    rw [abs_of_neg hS] at h
    have := (abs_le.mp h).2
    nlinarith

/-- **C95.** `exp` of Doubles is positive and keeps the order of arguments at least `(|a| + |b| + 20) / 2^101` apart. -/
theorem C95_exp (a b : Double) (ha : a.Normalized) (hb : b.Normalized) (h1 : -600 ≤ a.hi.toRat) (h2 : a.hi.toRat ≤ 708)
    (h3 : -600 ≤ b.hi.toRat) (h4 : b.hi.toRat ≤ 708) (h5 : |a.val| ≤ 1000) (h6 : |b.val| ≤ 1000) :
    ∃ r s, Double.exp a = some r ∧ Double.exp b = some s ∧ Double.lt Double.ZERO r = true ∧
      ((|a.val| + |b.val| + 20) / 2 ^ 101 ≤ b.val - a.val → Double.lt r s = true) := by
  obtain ⟨r, er, nr, hr⟩ := C63_exp a ha h1 h2
  obtain ⟨s, es, ns, hs⟩ := C63_exp b hb h3 h4
  have h5R : |(a.val : ℝ)| ≤ 1000 := by exact_mod_cast h5
  have h6R : |(b.val : ℝ)| ≤ 1000 := by exact_mod_cast h6
  have x0 := abs_nonneg (a.val : ℝ)
  have y0 := abs_nonneg (b.val : ℝ)
  refine ⟨r, s, er, es, ?_, fun hd => ?_⟩
  · have hz : Double.ZERO.Normalized ∧ Double.ZERO.val = 0 := by decide +kernel
    rw [(C12_compare _ _ hz.1 nr).1, hz.2]
    have hE := Real.exp_pos (a.val : ℝ)
    have := (sign_core (hr.trans (by rw [abs_of_pos hE])) (by norm_num; linarith)).1 hE
    exact_mod_cast this
  · rw [(C12_compare _ _ nr ns).1]
    have hdR : (|(a.val : ℝ)| + |(b.val : ℝ)| + 20) / 2 ^ 101 ≤ (b.val : ℝ) - (a.val : ℝ) := by exact_mod_cast hd
    have := sep_core (Real.exp_pos (a.val : ℝ)) (exp_sep hdR) hr hs (by positivity) (by positivity) (by norm_num; linarith)
      (le_of_eq (by ring))
    exact_mod_cast this

example : ∃ r s, Double.exp Double.E = some r ∧ Double.exp Double.PI = some s ∧ Double.lt Double.ZERO r = true ∧
    Double.lt r s = true := by
  obtain ⟨r, s, h1, h2, h3, h4⟩ := C95_exp Double.E Double.PI (by decide +kernel) (by decide +kernel) (by decide +kernel)
    (by decide +kernel) (by decide +kernel) (by decide +kernel) (by decide +kernel) (by decide +kernel)
  exact ⟨r, s, h1, h2, h3, h4 (by decide +kernel)⟩

/-- **C95.** `ln` of Doubles keeps the order of positive arguments whose relative distance is at least
`(|ln a| + |ln b| + 13) / 2^100`. -/
theorem C95_ln (P : Platform) (hP : LibmLogs P) (a b : Double) (ha : a.Normalized) (hb : b.Normalized)
    (pa : 0 < a.val) (pb : 0 < b.val) (h1 : |Real.log (a.val : ℝ)| ≤ 599) (h2 : |Real.log (b.val : ℝ)| ≤ 599)
    (h : (|Real.log (a.val : ℝ)| + |Real.log (b.val : ℝ)| + 13) / 2 ^ 100 * (b.val : ℝ) ≤ (b.val : ℝ) - (a.val : ℝ)) :
    ∃ r s, Double.ln P a = some r ∧ Double.ln P b = some s ∧ Double.lt r s = true := by
  have l1 := abs_le.mp h1
  have l2 := abs_le.mp h2
  obtain ⟨r, er, nr, hr⟩ := C64_ln P hP a ha pa (le_trans (by norm_num) l1.1) l1.2
  obtain ⟨s, es, ns, hs⟩ := C64_ln P hP b hb pb (le_trans (by norm_num) l2.1) l2.2
  refine ⟨r, s, er, es, ?_⟩
  rw [(C12_compare _ _ nr ns).1]
  have pa' : (0:ℝ) < (a.val : ℝ) := by exact_mod_cast pa
  have pb' : (0:ℝ) < (b.val : ℝ) := by exact_mod_cast pb
  have k := log_sep pa' pb' h
  have x0 := abs_nonneg (Real.log (a.val : ℝ))
  have y0 := abs_nonneg (Real.log (b.val : ℝ))
  have k1 := (abs_le.mp hr).2
  have k2 := (abs_le.mp hs).1
  have : (r.val : ℝ) < (s.val : ℝ) := by
    generalize Real.log (a.val : ℝ) = x at *
    generalize Real.log (b.val : ℝ) = y at *
    clear l1 l2 h hr hs
    have x0' : 0 ≤ |x| := abs_nonneg x
    have y0' : 0 ≤ |y| := abs_nonneg y
    norm_num at k k1 k2
    linarith
  exact_mod_cast this

example (P : Platform) (hP : LibmLogs P) : ∃ r s, Double.ln P Double.ONE = some r ∧ Double.ln P Double.PI = some s ∧
    Double.lt r s = true := by
  have one : ((Double.ONE.val : ℚ) : ℝ) = 1 := by
    have : Double.ONE.val = 1 := by decide +kernel
    rw [this]; norm_num
  have p4 : ((Double.PI.val : ℚ) : ℝ) ≤ 4 := by
    have : Double.PI.val ≤ 4 := by decide +kernel
    exact_mod_cast this
  have p3 : (3:ℝ) ≤ ((Double.PI.val : ℚ) : ℝ) := by
    have : 3 ≤ Double.PI.val := by decide +kernel
    exact_mod_cast this
  have l := Real.log_le_sub_one_of_pos (show (0:ℝ) < ((Double.PI.val : ℚ) : ℝ) by linarith)
  have l0 := Real.log_nonneg (show (1:ℝ) ≤ ((Double.PI.val : ℚ) : ℝ) by linarith)
  refine C95_ln P hP Double.ONE Double.PI (by decide +kernel) (by decide +kernel) (by decide +kernel) (by decide +kernel) ?_ ?_ ?_
  · rw [one]; norm_num
  · rw [abs_of_nonneg l0]; linarith
  · rw [one, Real.log_one, abs_zero, abs_of_nonneg l0]
    have : (0 + Real.log ((Double.PI.val : ℚ) : ℝ) + 13) / 2 ^ 100 * ((Double.PI.val : ℚ) : ℝ) ≤ 16 / 2 ^ 100 * 4 :=
      mul_le_mul (div_le_div_of_nonneg_right (by linarith) (by positivity)) p4 (by linarith) (by positivity)
    norm_num at this ⊢
    linarith

/-- **C95.** `sqrt` of Doubles keeps the order of positive arguments whose ratio is at least `1 + 2^-96`. -/
theorem C95_sqrt (P : Platform) (hP : FloatText P.toStr) (a b : Double) (ha : a.Normalized) (hb : b.Normalized)
    (h1 : 1 ≤ a.val * 2 ^ 900) (h2 : b.val ≤ 2 ^ 1000) (h : a.val * (1 + 1 / 2 ^ 96) ≤ b.val) :
    ∃ r s, Double.sqrt P a = some r ∧ Double.sqrt P b = some s ∧ Double.lt r s = true := by
  have pa : 0 < a.val := by
    by_contra hc
    have := mul_nonpos_of_nonpos_of_nonneg (not_lt.mp hc) (show (0:ℚ) ≤ 2 ^ 900 by positivity)
    generalize a.val * 2 ^ 900 = z at *
    linarith
  have hab : a.val ≤ b.val := le_trans (le_mul_of_one_le_right pa.le (by norm_num)) h
  obtain ⟨r, er, nr, hr⟩ := C67_sqrt P hP a ha h1 (hab.trans h2)
  obtain ⟨s, es, ns, hs⟩ := C67_sqrt P hP b hb (h1.trans (mul_le_mul_of_nonneg_right hab (by positivity))) h2
  clear h1 h2
  refine ⟨r, s, er, es, ?_⟩
  rw [(C12_compare _ _ nr ns).1]
  have pa' : (0:ℝ) < (a.val : ℝ) := by exact_mod_cast pa
  have hR : (a.val : ℝ) * (1 + 1 / 2 ^ 96) ≤ (b.val : ℝ) := by
    have := (Rat.cast_le (K := ℝ)).mpr h
    push_cast at this
    exact this
  have k := sqrt_sep pa' hR (d := 1 / 2 ^ 98) (by norm_num)
  have := sep_core (ε := 1 / 2 ^ 100) (η := 1 / 2 ^ 100) (Real.sqrt_pos.mpr pa') k (hr.trans (le_of_eq (by ring)))
    (hs.trans (le_of_eq (by ring))) (by positivity) (by positivity) (by norm_num) (by norm_num)
  exact_mod_cast this

example (P : Platform) (h : P.toStr = text17) : ∃ r s, Double.sqrt P Double.E = some r ∧ Double.sqrt P Double.PI = some s ∧
    Double.lt r s = true :=
  C95_sqrt P (h ▸ text17_ok) _ _ (by decide +kernel) (by decide +kernel) (by decide +kernel) (by decide +kernel) (by decide +kernel)

/-- **C95.** `sinh` and `tanh` of Doubles have the sign of their argument. -/
theorem C95_sign (P : Platform) (hP : FloatText P.toStr) (a : Double) (ha : a.Normalized) (h : |a.val| ≤ 599)
    (h0 : 1 ≤ |a.val| * 2 ^ 900) :
    ∃ r s, Double.sinh a = some r ∧ Double.tanh P a = some s ∧ (0 < a.val → 0 < r.val ∧ 0 < s.val) ∧
      (a.val < 0 → r.val < 0 ∧ s.val < 0) := by
  obtain ⟨r, er, -, hr⟩ := C69_sinh a ha h h0
  obtain ⟨s, es, -, hs⟩ := C69_tanh P hP a ha h h0
  have hR : |(a.val : ℝ)| ≤ 599 := by exact_mod_cast h
  clear h0
  have k1 := sign_core hr (by norm_num; linarith)
  have k2 := sign_core hs (by norm_num; linarith)
  refine ⟨r, s, er, es, fun hp => ?_, fun hn => ?_⟩
  · have hp' : (0:ℝ) < (a.val : ℝ) := by exact_mod_cast hp
    have t1 := k1.1 (Real.sinh_pos_iff.mpr hp')
    have t2 := k2.1 (by rw [Real.tanh_eq_sinh_div_cosh]; exact div_pos (Real.sinh_pos_iff.mpr hp') (Real.cosh_pos _))
    exact ⟨by exact_mod_cast t1, by exact_mod_cast t2⟩
  · have hn' : (a.val : ℝ) < 0 := by exact_mod_cast hn
    have t1 := k1.2 (Real.sinh_neg_iff.mpr hn')
    have t2 := k2.2 (by rw [Real.tanh_eq_sinh_div_cosh]; exact div_neg_of_neg_of_pos (Real.sinh_neg_iff.mpr hn') (Real.cosh_pos _))
    exact ⟨by exact_mod_cast t1, by exact_mod_cast t2⟩

example (P : Platform) (h : P.toStr = text17) : ∃ r s, Double.sinh (-Double.PI) = some r ∧ Double.tanh P (-Double.PI) = some s ∧
    r.val < 0 ∧ s.val < 0 := by
  obtain ⟨r, s, h1, h2, -, h4⟩ := C95_sign P (h ▸ text17_ok) (-Double.PI) (by decide +kernel) (by decide +kernel) (by decide +kernel)
  exact ⟨r, s, h1, h2, h4 (by decide +kernel)⟩

/-- **C95.** `exp` of Quads is positive and keeps the order (of the values) of arguments at least
`(|a| + |b| + 16) / 2^125` apart. -/
theorem C95_quad_exp (a b : Quad) (ha : a.Normalized) (hb : b.Normalized) (h1 : -470 ≤ a.c0.toRat) (h2 : a.c0.toRat ≤ 708)
    (h3 : -470 ≤ b.c0.toRat) (h4 : b.c0.toRat ≤ 708) (h5 : |a.val| ≤ 1000) (h6 : |b.val| ≤ 1000) :
    ∃ r s, Quad.exp a = some r ∧ Quad.exp b = some s ∧ 0 < r.val ∧
      ((|a.val| + |b.val| + 16) / 2 ^ 125 ≤ b.val - a.val → r.val < s.val) := by
  obtain ⟨r, er, -, hr⟩ := C73_quad_exp a ha h1 h2
  obtain ⟨s, es, -, hs⟩ := C73_quad_exp b hb h3 h4
  have h5R : |(a.val : ℝ)| ≤ 1000 := by exact_mod_cast h5
  have h6R : |(b.val : ℝ)| ≤ 1000 := by exact_mod_cast h6
  have x0 := abs_nonneg (a.val : ℝ)
  have y0 := abs_nonneg (b.val : ℝ)
  refine ⟨r, s, er, es, ?_, fun hd => ?_⟩
  · have hE := Real.exp_pos (a.val : ℝ)
    have := (sign_core (hr.trans (by rw [abs_of_pos hE])) (by norm_num; linarith)).1 hE
    exact_mod_cast this
  · have hdR : (|(a.val : ℝ)| + |(b.val : ℝ)| + 16) / 2 ^ 125 ≤ (b.val : ℝ) - (a.val : ℝ) := by exact_mod_cast hd
    have := sep_core (Real.exp_pos (a.val : ℝ)) (exp_sep hdR) hr hs (by positivity) (by positivity) (by norm_num; linarith)
      (le_of_eq (by ring))
    exact_mod_cast this

example : ∃ r s, Quad.exp Quad.E = some r ∧ Quad.exp Quad.PI = some s ∧ 0 < r.val ∧ r.val < s.val := by
  obtain ⟨r, s, h1, h2, h3, h4⟩ := C95_quad_exp Quad.E Quad.PI (by decide +kernel) (by decide +kernel) (by decide +kernel)
    (by decide +kernel) (by decide +kernel) (by decide +kernel) (by decide +kernel) (by decide +kernel)
  exact ⟨r, s, h1, h2, h3, h4 (by decide +kernel)⟩

/-- **C95.** `ln` of Quads keeps the order of positive arguments whose relative distance is at least
`(|ln a| + |ln b| + 15) / 2^124`. -/
theorem C95_quad_ln (P : Platform) (hP : LibmLogs P) (a b : Quad) (ha : a.Normalized) (hb : b.Normalized)
    (pa : 0 < a.val) (pb : 0 < b.val) (h1 : |Real.log (a.val : ℝ)| ≤ 469) (h2 : |Real.log (b.val : ℝ)| ≤ 469)
    (h : (|Real.log (a.val : ℝ)| + |Real.log (b.val : ℝ)| + 15) / 2 ^ 124 * (b.val : ℝ) ≤ (b.val : ℝ) - (a.val : ℝ)) :
    ∃ r s, Quad.ln P a = some r ∧ Quad.ln P b = some s ∧ r.val < s.val := by
  have l1 := abs_le.mp h1
  have l2 := abs_le.mp h2
  obtain ⟨r, er, -, hr⟩ := C74_quad_ln P hP a ha pa (le_trans (by norm_num) l1.1) l1.2
  obtain ⟨s, es, -, hs⟩ := C74_quad_ln P hP b hb pb (le_trans (by norm_num) l2.1) l2.2
  refine ⟨r, s, er, es, ?_⟩
  have pa' : (0:ℝ) < (a.val : ℝ) := by exact_mod_cast pa
  have pb' : (0:ℝ) < (b.val : ℝ) := by exact_mod_cast pb
  have k := log_sep pa' pb' h
  have x0 := abs_nonneg (Real.log (a.val : ℝ))
  have y0 := abs_nonneg (Real.log (b.val : ℝ))
  have k1 := (abs_le.mp hr).2
  have k2 := (abs_le.mp hs).1
  have : (r.val : ℝ) < (s.val : ℝ) := by
    generalize Real.log (a.val : ℝ) = x at *
    generalize Real.log (b.val : ℝ) = y at *
    clear l1 l2 h hr hs
    have x0' : 0 ≤ |x| := abs_nonneg x
    have y0' : 0 ≤ |y| := abs_nonneg y
    norm_num at k k1 k2
    linarith
  exact_mod_cast this

example (P : Platform) (hP : LibmLogs P) : ∃ r s, Quad.ln P Quad.ONE = some r ∧ Quad.ln P Quad.PI = some s ∧ r.val < s.val := by
  have one : ((Quad.ONE.val : ℚ) : ℝ) = 1 := by
    have : Quad.ONE.val = 1 := by decide +kernel
    rw [this]; norm_num
  have p4 : ((Quad.PI.val : ℚ) : ℝ) ≤ 4 := by
    have : Quad.PI.val ≤ 4 := by decide +kernel
    exact_mod_cast this
  have p3 : (3:ℝ) ≤ ((Quad.PI.val : ℚ) : ℝ) := by
    have : 3 ≤ Quad.PI.val := by decide +kernel
    exact_mod_cast this
  have l := Real.log_le_sub_one_of_pos (show (0:ℝ) < ((Quad.PI.val : ℚ) : ℝ) by linarith)
  have l0 := Real.log_nonneg (show (1:ℝ) ≤ ((Quad.PI.val : ℚ) : ℝ) by linarith)
  refine C95_quad_ln P hP Quad.ONE Quad.PI (by decide +kernel) (by decide +kernel) (by decide +kernel) (by decide +kernel) ?_ ?_ ?_
  · rw [one]; norm_num
  · rw [abs_of_nonneg l0]; linarith
  · rw [one, Real.log_one, abs_zero, abs_of_nonneg l0]
    have : (0 + Real.log ((Quad.PI.val : ℚ) : ℝ) + 15) / 2 ^ 124 * ((Quad.PI.val : ℚ) : ℝ) ≤ 18 / 2 ^ 124 * 4 :=
      mul_le_mul (div_le_div_of_nonneg_right (by linarith) (by positivity)) p4 (by linarith) (by positivity)
    norm_num at this ⊢
    linarith

/-- **C95.** `sqrt` of Quads keeps the order of positive arguments whose ratio is at least `1 + 2^-123`. -/
theorem C95_quad_sqrt (P : Platform) (hP : FloatText P.toStr) (a b : Quad) (ha : a.Normalized) (hb : b.Normalized)
    (h1 : 1 ≤ a.val * 2 ^ 830) (h2 : b.val ≤ 2 ^ 830) (h : a.val * (1 + 1 / 2 ^ 123) ≤ b.val) :
    ∃ r s, Quad.sqrt P a = some r ∧ Quad.sqrt P b = some s ∧ r.val < s.val := by
  have pa : 0 < a.val := by
    by_contra hc
    have := mul_nonpos_of_nonpos_of_nonneg (not_lt.mp hc) (show (0:ℚ) ≤ 2 ^ 830 by positivity)
    generalize a.val * 2 ^ 830 = z at *
    linarith
  have hab : a.val ≤ b.val := le_trans (le_mul_of_one_le_right pa.le (by norm_num)) h
  obtain ⟨r, er, -, hr⟩ := C81_quad_sqrt P hP a ha h1 (hab.trans h2)
  obtain ⟨s, es, -, hs⟩ := C81_quad_sqrt P hP b hb (h1.trans (mul_le_mul_of_nonneg_right hab (by positivity))) h2
  clear h1 h2
  refine ⟨r, s, er, es, ?_⟩
  have pa' : (0:ℝ) < (a.val : ℝ) := by exact_mod_cast pa
  have hR : (a.val : ℝ) * (1 + 1 / 2 ^ 123) ≤ (b.val : ℝ) := by
    have := (Rat.cast_le (K := ℝ)).mpr h
    push_cast at this
    exact this
  have k := sqrt_sep pa' hR (d := 1 / 2 ^ 125) (by norm_num)
  have hr' : |(r.val : ℝ) - Real.sqrt (a.val : ℝ)| ≤ 1 / 2 ^ 127 * Real.sqrt (a.val : ℝ) := by
    norm_num at hr ⊢; linarith
  have hs' : |(s.val : ℝ) - Real.sqrt (b.val : ℝ)| ≤ 1 / 2 ^ 127 * Real.sqrt (b.val : ℝ) := by
    norm_num at hs ⊢; linarith
  have := sep_core (Real.sqrt_pos.mpr pa') k hr' hs' (by positivity) (by positivity) (by norm_num) (by norm_num)
  exact_mod_cast this

example (P : Platform) (h : P.toStr = text17) : ∃ r s, Quad.sqrt P Quad.E = some r ∧ Quad.sqrt P Quad.PI = some s ∧
    r.val < s.val :=
  C95_quad_sqrt P (h ▸ text17_ok) _ _ (by decide +kernel) (by decide +kernel) (by decide +kernel) (by decide +kernel) (by decide +kernel)

end Verif
