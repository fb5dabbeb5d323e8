import Verif.Props.QuadLaws
import Verif.Props.QuadTrig

/-!
# C94: the addition theorems of sine and cosine
-/

namespace Verif

open F64 Prim Util

/-- Two approximations of one number are near each other. -/
theorem two_near' {p q S e f g : ℝ} (h1 : |p - S| ≤ e) (h2 : |q - S| ≤ f) (hg : e + f ≤ g) : |q - p| ≤ g := by
  rw [abs_le] at h1 h2 ⊢
  constructor <;> linarith [h1.1, h1.2, h2.1, h2.2]

/-- The product of two approximations of numbers of magnitude at most one. -/
theorem ap_unit_mul {s c : Double} {S C d e : ℝ} (hs : Ap s S d) (hc : Ap c C e) (S1 : |S| ≤ 1) (C1 : |C| ≤ 1) (d1 : d ≤ 1 / 2 ^ 50)
    (e1 : e ≤ 1 / 2 ^ 50) : Ap (s * c) (S * C) ((d + e) * (1 + 1 / 2 ^ 40) + 6 / 10 / 2 ^ 102) := by
  have p := hs.nonneg
  have q := hc.nonneg
  have m : d * e ≤ d * (1 / 2 ^ 50) := mul_le_mul_of_nonneg_left e1 p
  refine hs.mul hc S1 C1 (by norm_num at d1 ⊢; linarith) (by norm_num at e1 ⊢; linarith) ?_
  rw [show (1 + d) * (1 + e) = 1 + d + e + d * e by ring]
  norm_num at m ⊢
  linarith

/-- The two expressions of the addition theorems, computed from approximations within `d` and `e`. -/
theorem ap_trig_add {s c s' c' : Double} {x y d e : ℝ} (hs : Ap s (Real.sin x) d) (hc : Ap c (Real.cos x) d)
    (hs' : Ap s' (Real.sin y) e) (hc' : Ap c' (Real.cos y) e) (d1 : d ≤ 1 / 2 ^ 50) (e1 : e ≤ 1 / 2 ^ 50) :
    Ap (s * c' + c * s') (Real.sin (x + y)) ((d + e) * (2 + 1 / 2 ^ 30) + 3 / 2 ^ 102) ∧
      Ap (c * c' - s * s') (Real.cos (x + y)) ((d + e) * (2 + 1 / 2 ^ 30) + 3 / 2 ^ 102) := by
  have d0 := hs.nonneg
  have e0 := hs'.nonneg
  have p1 := ap_unit_mul hs hc' (Real.abs_sin_le_one _) (Real.abs_cos_le_one _) d1 e1
  have p2 := ap_unit_mul hc hs' (Real.abs_cos_le_one _) (Real.abs_sin_le_one _) d1 e1
  have p3 := ap_unit_mul hc hc' (Real.abs_cos_le_one _) (Real.abs_cos_le_one _) d1 e1
  have p4 := ap_unit_mul hs hs' (Real.abs_sin_le_one _) (Real.abs_sin_le_one _) d1 e1
  have big : ∀ {u v : ℝ}, |u| ≤ 1 → |v| ≤ 1 → |u * v| + ((d + e) * (1 + 1 / 2 ^ 40) + 6 / 10 / 2 ^ 102) ≤ 2 ^ 200 := by
    intro u v hu hv
    rw [abs_mul]
    have := mul_le_mul hu hv (abs_nonneg _) zero_le_one
    norm_num at d1 e1 this ⊢
    linarith
  have fin : (d + e) * (1 + 1 / 2 ^ 40) + 6 / 10 / 2 ^ 102 + ((d + e) * (1 + 1 / 2 ^ 40) + 6 / 10 / 2 ^ 102) +
      (1 + ((d + e) * (1 + 1 / 2 ^ 40) + 6 / 10 / 2 ^ 102) + ((d + e) * (1 + 1 / 2 ^ 40) + 6 / 10 / 2 ^ 102)) / 2 ^ 103 ≤
      (d + e) * (2 + 1 / 2 ^ 30) + 3 / 2 ^ 102 := by
    norm_num
    linarith
  have hsin := Real.sin_add x y
  have hcos := Real.cos_add x y
  constructor
  · rw [hsin]
    exact p1.add p2 (M := 1) (big (Real.abs_sin_le_one _) (Real.abs_cos_le_one _)) (big (Real.abs_cos_le_one _) (Real.abs_sin_le_one _))
      (by rw [← hsin]; exact Real.abs_sin_le_one _) fin
  · rw [hcos]
    exact p3.sub p4 (M := 1) (big (Real.abs_cos_le_one _) (Real.abs_cos_le_one _)) (big (Real.abs_sin_le_one _) (Real.abs_sin_le_one _))
      (by rw [← hcos]; exact Real.abs_cos_le_one _) fin

/-- **C94.** `sin(a + b) = sin a cos b + cos a sin b` and `cos(a + b) = cos a cos b - sin a sin b`: the two ways of computing
each agree within `(4 (|a| + |b|) + 150) / 2^102`, for Doubles up to `2^43`. -/
theorem C94_trig_add (P : Platform) (hP : FloatText P.toStr) (a b : Double) (ha : a.Normalized) (hb : b.Normalized)
    (h1 : |a.val| ≤ 2 ^ 43) (h2 : |b.val| ≤ 2 ^ 43) :
    ∃ s c s' c' r t, Double.sinCos P a = some (s, c) ∧ Double.sinCos P b = some (s', c') ∧ Double.sin P (a + b) = some r ∧
      Double.cos P (a + b) = some t ∧ (s * c' + c * s').Normalized ∧ (c * c' - s * s').Normalized ∧
      |r.val - (s * c' + c * s').val| ≤ (4 * (|a.val| + |b.val|) + 150) / 2 ^ 102 ∧
      |t.val - (c * c' - s * s').val| ≤ (4 * (|a.val| + |b.val|) + 150) / 2 ^ 102 := by
  have k1 := rv_le_real h1
  have k2 := rv_le_real h2
  have A0 := abs_nonneg (rv a)
  have B0 := abs_nonneg (rv b)
  have sum := ap_add0 ha hb (k1.trans (by norm_num)) (k2.trans (by norm_num))
  have ab := abs_add_le (rv a) (rv b)
  have v : |rv (a + b)| ≤ (|rv a| + |rv b|) * (1 + 1 / 2 ^ 103) := sum.abs_le.trans (by norm_num; linarith)
  obtain ⟨s, c, p, -, -, p1, -, -, p2, p3, -⟩ := trig_facts P hP ha (k1.trans (by norm_num))
  obtain ⟨s', c', q, -, -, q1, -, -, q2, q3, -⟩ := trig_facts P hP hb (k2.trans (by norm_num))
  obtain ⟨r, t, w, r1, t1, -, r2, t2, -⟩ := trig_facts P hP sum.1 (v.trans (by norm_num at k1 k2 ⊢; linarith))
  obtain ⟨u1, u2⟩ := ap_trig_add p2 p3 q2 q3 (by norm_num at k1 ⊢; linarith) (by norm_num at k2 ⊢; linarith)
  have l1 : |Real.sin (rv (a + b)) - Real.sin (rv a + rv b)| ≤ (|rv a| + |rv b|) / 2 ^ 103 := (Real.abs_sin_sub_sin_le _ _).trans sum.2
  have l2 : |Real.cos (rv (a + b)) - Real.cos (rv a + rv b)| ≤ (|rv a| + |rv b|) / 2 ^ 103 := (Real.abs_cos_sub_cos_le _ _).trans sum.2
  have m1 := abs_sub_le (rv r) (Real.sin (rv (a + b))) (Real.sin (rv a + rv b))
  have m2 := abs_sub_le (rv t) (Real.cos (rv (a + b))) (Real.cos (rv a + rv b))
  have r3 := r2.2
  have t3 := t2.2
  clear h1 h2
  refine ⟨p.1, p.2, q.1, q.2, r, t, p1, q1, r1, t1, u1.1, u2.1, ?_, ?_⟩
  · have key : |rv r - rv (p.1 * q.2 + p.2 * q.1)| ≤ (4 * (|rv a| + |rv b|) + 150) / 2 ^ 102 :=
      two_near' u1.2 (m1.trans (add_le_add r3 l1)) (by norm_num at v ⊢; linarith)
    unfold rv at key
    exact_mod_cast key
  · have key : |rv t - rv (p.2 * q.2 - p.1 * q.1)| ≤ (4 * (|rv a| + |rv b|) + 150) / 2 ^ 102 :=
      two_near' u2.2 (m2.trans (add_le_add t3 l2)) (by norm_num at v ⊢; linarith)
    unfold rv at key
    exact_mod_cast key

/-- The product of two approximations of numbers of magnitude at most one, on Quads. -/
theorem qa_unit_mul {s c : Quad} {S C d e : ℝ} (hs : QA s S d (102 / 100)) (hc : QA c C e (102 / 100)) (S1 : |S| ≤ 1) (C1 : |C| ≤ 1)
    (d1 : d ≤ 1 / 2 ^ 90) (e1 : e ≤ 1 / 2 ^ 90) : QA (s * c) (S * C) ((d + e) * (1 + 1 / 2 ^ 40) + 105 / 100 / 2 ^ 139) (105 / 100) := by
  have p := hs.nonneg
  have q := hc.nonneg
  have m : d * e ≤ d * (1 / 2 ^ 90) := mul_le_mul_of_nonneg_left e1 p
  have sc : |S * C| ≤ 1 := by
    rw [abs_mul]
    exact (mul_le_mul S1 C1 (abs_nonneg _) zero_le_one).trans (by norm_num)
  have x1 : |S| * e ≤ 1 * e := mul_le_mul_of_nonneg_right S1 q
  have x2 : |C| * d ≤ 1 * d := mul_le_mul_of_nonneg_right C1 p
  refine hs.mul hc (by norm_num) (by norm_num) (by norm_num) ?_ (by norm_num) ?_
  · norm_num at m ⊢
    linarith
  · norm_num at d1 e1 sc ⊢
    linarith

/-- The two expressions of the addition theorems on Quads. -/
theorem qa_trig_add {s c s' c' : Quad} {x y d e : ℝ} (hs : QA s (Real.sin x) d (102 / 100)) (hc : QA c (Real.cos x) d (102 / 100))
    (hs' : QA s' (Real.sin y) e (102 / 100)) (hc' : QA c' (Real.cos y) e (102 / 100)) (d1 : d ≤ 1 / 2 ^ 90) (e1 : e ≤ 1 / 2 ^ 90) :
    QA (s * c' + c * s') (Real.sin (x + y)) ((d + e) * (2 + 1 / 2 ^ 30) + 11 / 10 / 2 ^ 128) (102 / 100) ∧
      QA (c * c' - s * s') (Real.cos (x + y)) ((d + e) * (2 + 1 / 2 ^ 30) + 11 / 10 / 2 ^ 128) (102 / 100) := by
  have d0 := hs.nonneg
  have e0 := hs'.nonneg
  have p1 := qa_unit_mul hs hc' (Real.abs_sin_le_one _) (Real.abs_cos_le_one _) d1 e1
  have p2 := qa_unit_mul hc hs' (Real.abs_cos_le_one _) (Real.abs_sin_le_one _) d1 e1
  have p3 := qa_unit_mul hc hc' (Real.abs_cos_le_one _) (Real.abs_cos_le_one _) d1 e1
  have p4 := qa_unit_mul hs hs' (Real.abs_sin_le_one _) (Real.abs_sin_le_one _) d1 e1
  have hsin := Real.sin_add x y
  have hcos := Real.cos_add x y
  have s1 := Real.abs_sin_le_one (x + y)
  have c1 := Real.abs_cos_le_one (x + y)
  constructor
  · rw [hsin] at s1 ⊢
    exact p1.add p2 (Z := 105 / 100) le_rfl le_rfl (by norm_num) (by norm_num; linarith) (by norm_num)
      (by norm_num at d1 e1 s1 ⊢; linarith)
  · rw [hcos] at c1 ⊢
    exact p3.sub p4 (Z := 105 / 100) le_rfl le_rfl (by norm_num) (by norm_num; linarith) (by norm_num)
      (by norm_num at d1 e1 c1 ⊢; linarith)

/-- **C94.** The addition theorems on Quads up to `2^28`: within `(3/2 (|a| + |b|) + 46) / 2^126`. -/
theorem C94_quad_trig_add (P : Platform) (hP : FloatText P.toStr) (a b : Quad) (ha : a.Normalized) (hb : b.Normalized)
    (h1 : |a.val| ≤ 2 ^ 28) (h2 : |b.val| ≤ 2 ^ 28) :
    ∃ s c s' c' r t, Quad.sinCos P a = some (s, c) ∧ Quad.sinCos P b = some (s', c') ∧ Quad.sin P (a + b) = some r ∧
      Quad.cos P (a + b) = some t ∧ (s * c' + c * s').Fin ∧ (c * c' - s * s').Fin ∧
      |r.val - (s * c' + c * s').val| ≤ (3 / 2 * (|a.val| + |b.val|) + 46) / 2 ^ 126 ∧
      |t.val - (c * c' - s * s').val| ≤ (3 / 2 * (|a.val| + |b.val|) + 46) / 2 ^ 126 := by
  have k1 := qv_le_real h1
  have k2 := qv_le_real h2
  have A0 := abs_nonneg (qv a)
  have B0 := abs_nonneg (qv b)
  have sum := qa_add0 ha hb (k1.trans (by norm_num)) (k2.trans (by norm_num))
  have ab := abs_add_le (qv a) (qv b)
  have v : |qv (a + b)| ≤ (|qv a| + |qv b|) * (1 + 1 / 2 ^ 39) := by
    have := abs_sub_abs_le_abs_sub (qv (a + b)) (qv a + qv b)
    have := sum.err
    norm_num at this ⊢
    linarith
  obtain ⟨s, c, p, -, -, p1, -, -, p2, p3⟩ := qtrig_norm hP ha (k1.trans (by norm_num))
  obtain ⟨s', c', q, -, -, q1, -, -, q2, q3⟩ := qtrig_norm hP hb (k2.trans (by norm_num))
  obtain ⟨r, t, w, r1, t1, -, r2, t2, -⟩ := qtrig_facts hP sum.sz v (by norm_num at k1 k2 ⊢; linarith)
  obtain ⟨u1, u2⟩ := qa_trig_add p2 p3 q2 q3 (by norm_num at k1 ⊢; linarith) (by norm_num at k2 ⊢; linarith)
  have l1 : |Real.sin (qv (a + b)) - Real.sin (qv a + qv b)| ≤ (|qv a| + |qv b|) / 2 ^ 127 := (Real.abs_sin_sub_sin_le _ _).trans sum.err
  have l2 : |Real.cos (qv (a + b)) - Real.cos (qv a + qv b)| ≤ (|qv a| + |qv b|) / 2 ^ 127 := (Real.abs_cos_sub_cos_le _ _).trans sum.err
  have m1 := abs_sub_le (qv r) (Real.sin (qv (a + b))) (Real.sin (qv a + qv b))
  have m2 := abs_sub_le (qv t) (Real.cos (qv (a + b))) (Real.cos (qv a + qv b))
  have r3 := r2.err
  have t3 := t2.err
  clear h1 h2
  refine ⟨p.1, p.2, q.1, q.2, r, t, p1, q1, r1, t1, u1.fin, u2.fin, ?_, ?_⟩
  · have key : |qv r - qv (p.1 * q.2 + p.2 * q.1)| ≤ (3 / 2 * (|qv a| + |qv b|) + 46) / 2 ^ 126 :=
      two_near' u1.err (m1.trans (add_le_add r3 l1)) (by norm_num; linarith)
    unfold qv at key
    refine (Rat.cast_le (K := ℝ)).mp ?_
    push_cast
    exact key
  · have key : |qv t - qv (p.2 * q.2 - p.1 * q.1)| ≤ (3 / 2 * (|qv a| + |qv b|) + 46) / 2 ^ 126 :=
      two_near' u2.err (m2.trans (add_le_add t3 l2)) (by norm_num; linarith)
    unfold qv at key
    refine (Rat.cast_le (K := ℝ)).mp ?_
    push_cast
    exact key

/-! ## The hypotheses can be met -/

example (P : Platform) (hP : FloatText P.toStr) : ∃ r, Double.sin P (Double.PI + Double.E) = some r := by
  obtain ⟨s, c, s', c', r, t, -, -, h, -⟩ := C94_trig_add P hP Double.PI Double.E (by decide +kernel) (by decide +kernel)
    (by decide +kernel) (by decide +kernel)
  exact ⟨r, h⟩

example (P : Platform) (hP : FloatText P.toStr) : ∃ r, Quad.sin P (Quad.PI + Quad.E) = some r := by
  obtain ⟨s, c, s', c', r, t, -, -, h, -⟩ := C94_quad_trig_add P hP Quad.PI Quad.E (by decide +kernel) (by decide +kernel)
    (by decide +kernel) (by decide +kernel)
  exact ⟨r, h⟩

end Verif
