import Verif.Props.AddSub
import Verif.Props.Mul
import Verif.Proofs.Ln
import Verif.Proofs.QuadExp

/-!
# C91: the accuracy of `sum` and `product` over any sequence
-/

namespace Verif

open F64 Prim Util

/-- The leading component of a normalized Double is no more than twice the number. -/
theorem hi_twice {d : Double} (h : d.Normalized) : |d.hi.toRat| ≤ 2 * |d.val| := by
  have h1 : |fr d.hi| ≤ 2 * |rv d| := (fr_hi_le h).trans (by
    rw [mul_comm]; exact mul_le_mul_of_nonneg_right (by norm_num) (abs_nonneg _))
  unfold fr rv at h1
  exact_mod_cast h1

theorem foldl_sum_snoc (l : List Double) (x : Double) : Double.sum (l ++ [x]) = Double.sum l + x := by
  simp [Double.sum, List.foldl_append]

theorem foldl_product_snoc (l : List Double) (x : Double) : Double.product (l ++ [x]) = Double.product l * x := by
  simp [Double.product, List.foldl_append]

/-- **C91.** The sum of any sequence of normalized Doubles (of at most `2^100` items whose absolute values add up to at most
`2^1000`) is normalized, and misses the exact sum by at most `n * 2^-102` times the sum of the absolute values, where `n` is
the number of items. -/
theorem C91_sum (l : List Double) (hl : ∀ x ∈ l, x.Normalized) (hn : l.length ≤ 2 ^ 100)
    (hT : (l.map fun x => |x.val|).sum ≤ 2 ^ 1000) :
    (Double.sum l).Normalized ∧
      |(Double.sum l).val - (l.map Double.val).sum| * 2 ^ 102 ≤ l.length * (l.map fun x => |x.val|).sum := by
  induction l using List.reverseRecOn with
  | nil =>
    have h0 : Double.ZERO.Normalized ∧ Double.ZERO.val = 0 := by decide +kernel
    refine ⟨h0.1, ?_⟩
    change |Double.ZERO.val - 0| * 2 ^ 102 ≤ _
    rw [h0.2]; simp
  | append_singleton l x ih =>
    have hx : x.Normalized := hl x (by simp)
    simp only [List.map_append, List.map_cons, List.map_nil, List.sum_append, List.sum_cons, List.sum_nil, add_zero,
      List.length_append, List.length_cons, List.length_nil, zero_add] at hT hn ⊢
    have ax := abs_nonneg x.val
    obtain ⟨hs, he⟩ := ih (fun y hy => hl y (by simp [hy])) (by omega) (le_trans (le_add_of_nonneg_right ax) hT)
    have sab : |(l.map Double.val).sum| ≤ (l.map fun x => |x.val|).sum := by
      clear * -
      induction l with
      | nil => simp
      | cons a l ih =>
        simp only [List.map_cons, List.sum_cons]
        exact (abs_add_le _ _).trans (by linarith)
    have T0 : 0 ≤ (l.map fun x => |x.val|).sum := List.sum_nonneg (by simp)
    rw [foldl_sum_snoc]
    have hn' : (l.length : ℚ) + 1 ≤ 2 ^ 100 := by
      have := (Nat.cast_le (α := ℚ)).mpr hn
      rwa [Nat.cast_add, Nat.cast_one, Nat.cast_pow, Nat.cast_ofNat] at this
    have n0 : (0:ℚ) ≤ l.length := Nat.cast_nonneg _
    push_cast
    generalize (l.map fun x => |x.val|).sum = T at *
    generalize (l.map Double.val).sum = V at *
    generalize Double.sum l = s at *
    generalize (l.length : ℚ) = n at *
    have nT : n * T ≤ 2 ^ 100 * T := mul_le_mul_of_nonneg_right (by linarith) T0
    have e1 : |s.val - V| ≤ T := by
      have := abs_nonneg (s.val - V)
      nlinarith
    have e2 : |s.val| ≤ 2 * T := by
      have := abs_sub_abs_le_abs_sub s.val V
      linarith
    have r := C01_add s x hs hx (by
      have h1 := hi_twice hs
      have h2 := hi_twice hx
      have h3 : (2:ℚ) ^ 1023 = 2 ^ 1000 * 2 ^ 23 := by rw [← pow_add]
      rw [h3]
      clear h3
      generalize (2:ℚ) ^ 1000 = P at *
      have : (0:ℚ) ≤ P := by linarith
      norm_num
      linarith)
    refine ⟨r.1, ?_⟩
    have r2 := r.2
    have t1 : |(s + x).val - (V + x.val)| ≤ |(s + x).val - (s.val + x.val)| + |s.val - V| := by
      have : (s + x).val - (V + x.val) = ((s + x).val - (s.val + x.val)) + (s.val - V) := by ring
      rw [this]; exact abs_add_le _ _
    have t2 := abs_add_le s.val x.val
    have nx : 0 ≤ n * |x.val| := by positivity
    have : (n + 1) * (T + |x.val|) = n * T + n * |x.val| + T + |x.val| := by ring
    rw [this]
    clear hT hn hn'
    linarith

/-- Non-vacuity: three of the library's own constants. -/
example : (∀ x ∈ [Double.PI, Double.E, -Double.LN_2], x.Normalized) ∧ [Double.PI, Double.E, -Double.LN_2].length ≤ 2 ^ 100 ∧
    ([Double.PI, Double.E, -Double.LN_2].map fun x => |x.val|).sum ≤ 2 ^ 1000 := by
  decide +kernel

/-- **C91.** The product of any sequence of normalized Doubles (of at most `2^90` items), all of whose partial products are
between `2^-960` and `2^1000` in magnitude, is normalized and has a relative error of at most `n * 2^-101`. -/
theorem C91_product (l : List Double) (hl : ∀ x ∈ l, x.Normalized) (hn : l.length ≤ 2 ^ 90)
    (hP : ∀ k ≤ l.length, 1 ≤ |((l.take k).map Double.val).prod| * 2 ^ 960 ∧ |((l.take k).map Double.val).prod| ≤ 2 ^ 1000) :
    (Double.product l).Normalized ∧
      |(Double.product l).val - (l.map Double.val).prod| * 2 ^ 101 ≤ l.length * |(l.map Double.val).prod| := by
  induction l using List.reverseRecOn with
  | nil =>
    have h0 : Double.ONE.Normalized ∧ Double.ONE.val = 1 := by decide +kernel
    refine ⟨h0.1, ?_⟩
    change |Double.ONE.val - 1| * 2 ^ 101 ≤ _
    rw [h0.2]; simp
  | append_singleton l x ih =>
    have hx : x.Normalized := hl x (by simp)
    have hlast := hP (l ++ [x]).length le_rfl
    rw [List.take_length] at hlast
    simp only [List.map_append, List.map_cons, List.map_nil, List.prod_append, List.prod_cons, List.prod_nil, mul_one,
      List.length_append, List.length_cons, List.length_nil, zero_add] at hlast hn hP ⊢
    obtain ⟨hs, he⟩ := ih (fun y hy => hl y (by simp [hy])) (by omega) (fun k hk => by
      have := hP k (by omega)
      rwa [List.take_append_of_le_length hk] at this)
    rw [foldl_product_snoc]
    have hn' : (l.length : ℚ) + 1 ≤ 2 ^ 90 := by
      have := (Nat.cast_le (α := ℚ)).mpr hn
      rwa [Nat.cast_add, Nat.cast_one, Nat.cast_pow, Nat.cast_ofNat] at this
    have n0 : (0:ℚ) ≤ l.length := Nat.cast_nonneg _
    push_cast
    clear hP
    generalize (l.map Double.val).prod = V at *
    generalize Double.product l = s at *
    generalize (l.length : ℚ) = n at *
    obtain ⟨lo, hi⟩ := hlast
    have ax := abs_nonneg x.val
    have aV := abs_nonneg V
    have aVx := abs_nonneg (V * x.val)
    have nV : n * |V| ≤ 2 ^ 90 * |V| := mul_le_mul_of_nonneg_right (by linarith) aV
    have e1 : |s.val - V| ≤ |V| / 2 := by
      have := abs_nonneg (s.val - V)
      norm_num at he nV ⊢
      linarith
    have d1 : |s.val * x.val - V * x.val| ≤ |V * x.val| / 2 := by
      rw [← sub_mul, abs_mul, abs_mul]
      calc |s.val - V| * |x.val| ≤ |V| / 2 * |x.val| := mul_le_mul_of_nonneg_right e1 ax
        _ = _ := by ring
    have d2 : |s.val * x.val - V * x.val| * 2 ^ 101 ≤ n * |V * x.val| := by
      rw [← sub_mul, abs_mul, abs_mul]
      calc |s.val - V| * |x.val| * 2 ^ 101 = |s.val - V| * 2 ^ 101 * |x.val| := by ring
        _ ≤ n * |V| * |x.val| := mul_le_mul_of_nonneg_right he ax
        _ = _ := by ring
    have u1 := abs_sub_abs_le_abs_sub (s.val * x.val) (V * x.val)
    have u2 := abs_sub_abs_le_abs_sub (V * x.val) (s.val * x.val)
    rw [abs_sub_comm] at u2
    have hr : |s.hi.toRat * x.hi.toRat| ≤ 2 ^ 1023 := by
      rw [abs_mul]
      have h1 : |s.hi.toRat| * |x.hi.toRat| ≤ 2 * |s.val| * (2 * |x.val|) :=
        mul_le_mul (hi_twice hs) (hi_twice hx) (abs_nonneg _) (by positivity)
      have h2 : 2 * |s.val| * (2 * |x.val|) = 4 * |s.val * x.val| := by rw [abs_mul]; ring
      have h3 : (2:ℚ) ^ 1023 = 2 ^ 1000 * 2 ^ 23 := by rw [← pow_add]
      rw [h3]
      clear h3 lo
      generalize (2:ℚ) ^ 1000 = P at *
      rw [h2] at h1
      norm_num [-abs_mul] at h1 ⊢
      linarith
    have hu : 1 ≤ |s.val * x.val| * 2 ^ 969 := by
      have h3 : (2:ℚ) ^ 969 = 2 ^ 960 * 2 ^ 9 := by rw [← pow_add]
      rw [h3]
      have h4 : |V * x.val| / 2 ≤ |s.val * x.val| := by linarith
      have p : (0:ℚ) < 2 ^ 960 := by positivity
      clear h3 hi
      generalize (2:ℚ) ^ 960 = P at *
      have h5 := mul_le_mul_of_nonneg_right h4 p.le
      norm_num [-abs_mul] at h5 ⊢
      linarith
    have r2 := C03_mul_relative s x hs hx hr hu
    refine ⟨(C03_mul s x hs hx hr).1, ?_⟩
    have t1 : |(s * x).val - V * x.val| ≤ |(s * x).val - s.val * x.val| + |s.val * x.val - V * x.val| := by
      have : (s * x).val - V * x.val = ((s * x).val - s.val * x.val) + (s.val * x.val - V * x.val) := by ring
      rw [this]; exact abs_add_le _ _
    clear lo hi hr hu hn hn' he nV
    have : (n + 1) * |V * x.val| = n * |V * x.val| + |V * x.val| := by ring
    rw [this]
    generalize |V * x.val| = A at *
    generalize |s.val * x.val| = B at *
    generalize |s.val * x.val - V * x.val| = C at *
    generalize |(s * x).val - s.val * x.val| = D at *
    linarith

/-- Non-vacuity: three of the library's own constants. -/
example : (∀ x ∈ [Double.PI, Double.E, -Double.LN_2], x.Normalized) ∧
    ∀ k ≤ 3, 1 ≤ |(([Double.PI, Double.E, -Double.LN_2].take k).map Double.val).prod| * 2 ^ 960 ∧
      |(([Double.PI, Double.E, -Double.LN_2].take k).map Double.val).prod| ≤ 2 ^ 1000 := by
  decide +kernel

/-! ## Quads -/

theorem qfold_sum (l : List Quad) (hl : ∀ x ∈ l, x.Normalized) (hn : l.length ≤ 2 ^ 60) {Z : ℝ}
    (hZ : Z ≤ 2 ^ 225 * 2 ^ 225 * 2 ^ 225 * 2 ^ 225) (hT : (l.map fun x => |qv x|).sum * (1 + 1 / 2 ^ 30) ≤ Z) :
    QA (Quad.sum l) (l.map qv).sum (l.length * (Z / 2 ^ 128)) Z := by
  induction l using List.reverseRecOn with
  | nil =>
    have i : Is F64.zero ((0:ℤ) * one') := by rw [zero_mul]; exact ⟨by decide, by decide⟩
    have h := qa_int i
    simp only [Int.cast_zero, abs_zero] at h
    simp only [List.map_nil, List.sum_nil, zero_mul] at hT
    have := h.mono (le_refl 0) hT
    simp only [List.map_nil, List.sum_nil, List.length_nil, Nat.cast_zero, zero_mul]
    exact this
  | append_singleton l x ih =>
    have hx : x.Normalized := hl x (by simp)
    simp only [List.map_append, List.map_cons, List.map_nil, List.sum_append, List.sum_cons, List.sum_nil, add_zero,
      List.length_append, List.length_cons, List.length_nil, zero_add] at hT hn ⊢
    have ax := abs_nonneg (qv x)
    have T0 : 0 ≤ (l.map fun x => |qv x|).sum := List.sum_nonneg (by simp)
    have hs := ih (fun y hy => hl y (by simp [hy])) (by omega) (by
      refine le_trans ?_ hT
      exact mul_le_mul_of_nonneg_right (by linarith) (by positivity))
    have sab : |(l.map qv).sum| ≤ (l.map fun x => |qv x|).sum := by
      clear * -
      induction l with
      | nil => simp
      | cons a l ih =>
        simp only [List.map_cons, List.sum_cons]
        exact (abs_add_le _ _).trans (by linarith)
    have hn' : (l.length : ℝ) + 1 ≤ 2 ^ 60 := by
      have := (Nat.cast_le (α := ℝ)).mpr hn
      rwa [Nat.cast_add, Nat.cast_one, Nat.cast_pow, Nat.cast_ofNat] at this
    have n0 : (0:ℝ) ≤ l.length := Nat.cast_nonneg _
    rw [show Quad.sum (l ++ [x]) = Quad.sum l + x by simp [Quad.sum, List.foldl_append]]
    push_cast
    generalize (l.map fun x => |qv x|).sum = T at *
    generalize (l.map qv).sum = V at *
    generalize Quad.sum l = s at *
    generalize (l.length : ℝ) = n at *
    have t2 := abs_add_le V (qv x)
    have Z0 : 0 ≤ Z := le_trans (by positivity) hT
    have nZ : (n + 1) * (Z / 2 ^ 128) ≤ 2 ^ 60 * (Z / 2 ^ 128) := mul_le_mul_of_nonneg_right hn' (by positivity)
    refine hs.add (qord_norm hx).exact le_rfl ?_ hZ ?_ ?_ ?_
    · clear hZ nZ
      norm_num at hT ⊢
      linarith
    · exact le_of_eq (by ring)
    · linarith
    · generalize (n + 1) * (Z / 2 ^ 128) = G at *
      clear hZ
      norm_num at hT nZ ⊢
      linarith

/-- **C91.** The sum of any sequence of normalized Quads (of at most `2^60` items whose absolute values add up to at most
`2^890`) is finite and misses the exact sum by at most `n * 2^-127` times the sum of the absolute values. -/
theorem C91_quad_sum (l : List Quad) (hl : ∀ x ∈ l, x.Normalized) (hn : l.length ≤ 2 ^ 60)
    (hT : (l.map fun x => |x.val|).sum ≤ 2 ^ 890) :
    (Quad.sum l).Fin ∧
      |(Quad.sum l).val - (l.map Quad.val).sum| * 2 ^ 127 ≤ l.length * (l.map fun x => |x.val|).sum := by
  have c1 : (l.map qv).sum = (((l.map Quad.val).sum : ℚ) : ℝ) := by
    clear * -
    induction l with
    | nil => simp
    | cons a l ih => simp only [List.map_cons, List.sum_cons, ih]; push_cast; rfl
  have c2 : (l.map fun x => |qv x|).sum = (((l.map fun x => |x.val|).sum : ℚ) : ℝ) := by
    clear * -
    induction l with
    | nil => simp
    | cons a l ih => simp only [List.map_cons, List.sum_cons, ih]; push_cast; rfl
  have T0 : 0 ≤ (l.map fun x => |x.val|).sum := List.sum_nonneg (by simp)
  have hT' : (((l.map fun x => |x.val|).sum : ℚ) : ℝ) ≤ 2 ^ 222 * 2 ^ 222 * 2 ^ 222 * 2 ^ 224 := by
    have : (2:ℚ) ^ 890 = 2 ^ 222 * 2 ^ 222 * 2 ^ 222 * 2 ^ 224 := by simp only [← pow_add]
    rw [this] at hT
    exact_mod_cast hT
  have T0' : (0:ℝ) ≤ (((l.map fun x => |x.val|).sum : ℚ) : ℝ) := by exact_mod_cast T0
  have k := qfold_sum l hl hn (Z := (((l.map fun x => |x.val|).sum : ℚ) : ℝ) * (1 + 1 / 2 ^ 30)) (by
    clear c1 c2 hT
    generalize (((l.map fun x => |x.val|).sum : ℚ) : ℝ) = T at *
    calc T * (1 + 1 / 2 ^ 30) ≤ 2 ^ 222 * 2 ^ 222 * 2 ^ 222 * 2 ^ 224 * 2 := mul_le_mul hT' (by norm_num) (by positivity) (by positivity)
      _ ≤ _ := by norm_num) (by rw [c2])
  refine ⟨k.fin, ?_⟩
  have e := k.err
  rw [c1] at e
  have n0 : (0:ℝ) ≤ l.length := Nat.cast_nonneg _
  have goal : |((Quad.sum l).val : ℝ) - (((l.map Quad.val).sum : ℚ) : ℝ)| * 2 ^ 127 ≤ l.length * (((l.map fun x => |x.val|).sum : ℚ) : ℝ) := by
    change |qv (Quad.sum l) - _| * 2 ^ 127 ≤ _
    have nT := mul_nonneg n0 T0'
    clear hT hT' c1 c2
    generalize |qv (Quad.sum l) - _| = t at *
    have e2 : (l.length : ℝ) * ((((l.map fun x => |x.val|).sum : ℚ) : ℝ) * (1 + 1 / 2 ^ 30) / 2 ^ 128) =
      (l.length : ℝ) * (((l.map fun x => |x.val|).sum : ℚ) : ℝ) * ((1 + 1 / 2 ^ 30) / 2 ^ 128) := by ring
    rw [e2] at e
    generalize (l.length : ℝ) * (((l.map fun x => |x.val|).sum : ℚ) : ℝ) = M at *
    norm_num at e ⊢
    linarith
  exact_mod_cast goal

/-- Non-vacuity: three of the library's own constants. -/
example : (∀ x ∈ [Quad.PI, Quad.E, -Quad.LN_2], x.Normalized) ∧ [Quad.PI, Quad.E, -Quad.LN_2].length ≤ 2 ^ 60 ∧
    ([Quad.PI, Quad.E, -Quad.LN_2].map fun x => |x.val|).sum ≤ 2 ^ 890 := by
  decide +kernel

theorem qfold_product (l : List Quad) (hl : ∀ x ∈ l, x.Normalized) (hn : l.length ≤ 2 ^ 60)
    (hP : ∀ k ≤ l.length, 1 ≤ |((l.take k).map qv).prod| * (2 ^ 210 * 2 ^ 210 * (2 ^ 210 * 2 ^ 210)) ∧
      |((l.take k).map qv).prod| ≤ 2 ^ 222 * 2 ^ 222 * 2 ^ 222 * 2 ^ 224) :
    QA (Quad.product l) (l.map qv).prod (l.length * |(l.map qv).prod| / 2 ^ 138) (|(l.map qv).prod| * (1 + 1 / 2 ^ 30)) := by
  induction l using List.reverseRecOn with
  | nil =>
    have i : Is Quad.ONE.c0 ((1:ℤ) * one') := by
      have : Is Quad.ONE.c0 (2 ^ 1074) := ⟨by decide +kernel, by decide +kernel⟩
      rw [one_mul]; unfold one'; exact this
    have h := qa_int i
    simp only [Int.cast_one, abs_one] at h
    have := h.mono (le_refl 0) (show (1:ℝ) ≤ 1 * (1 + 1 / 2 ^ 30) by norm_num)
    simp only [List.map_nil, List.prod_nil, List.length_nil, Nat.cast_zero, zero_mul, zero_div, abs_one]
    exact this
  | append_singleton l x ih =>
    have hx : x.Normalized := hl x (by simp)
    have hlast := hP (l ++ [x]).length le_rfl
    rw [List.take_length] at hlast
    simp only [List.map_append, List.map_cons, List.map_nil, List.prod_append, List.prod_cons, List.prod_nil, mul_one,
      List.length_append, List.length_cons, List.length_nil, zero_add] at hlast hn hP ⊢
    have hs := ih (fun y hy => hl y (by simp [hy])) (by omega) (fun k hk => by
      have := hP k (by omega)
      rwa [List.take_append_of_le_length hk] at this)
    rw [show Quad.product (l ++ [x]) = Quad.product l * x by simp [Quad.product, List.foldl_append]]
    have hn' : (l.length : ℝ) + 1 ≤ 2 ^ 60 := by
      have := (Nat.cast_le (α := ℝ)).mpr hn
      rwa [Nat.cast_add, Nat.cast_one, Nat.cast_pow, Nat.cast_ofNat] at this
    have n0 : (0:ℝ) ≤ l.length := Nat.cast_nonneg _
    push_cast
    clear hP ih
    generalize (l.map qv).prod = V at *
    generalize Quad.product l = s at *
    generalize (l.length : ℝ) = n at *
    obtain ⟨lo, hi⟩ := hlast
    have pVx : 0 < |V * qv x| := by
      by_contra hc
      have h0 : |V * qv x| = 0 := le_antisymm (not_lt.mp hc) (abs_nonneg _)
      rw [h0, zero_mul] at lo
      exact absurd lo (by norm_num)
    have pV : 0 < |V| := by
      rw [abs_mul] at pVx
      exact pos_of_mul_pos_left pVx (abs_nonneg _)
    have px : 0 < |qv x| := by
      rw [abs_mul] at pVx
      exact pos_of_mul_pos_right pVx (abs_nonneg _)
    have exy : |V| * (1 + 1 / 2 ^ 30) * (|qv x| * (1 + 1 / 2 ^ 47)) = |V * qv x| * ((1 + 1 / 2 ^ 30) * (1 + 1 / 2 ^ 47)) := by
      rw [abs_mul]; ring
    have nV : (n + 1) * |V * qv x| ≤ 2 ^ 60 * |V * qv x| := mul_le_mul_of_nonneg_right hn' pVx.le
    refine hs.mulW (qord_norm hx).exact (by positivity) (by positivity) ?_ ?_ ?_ ?_ ?_
    · rw [exy]
      refine lo.trans (mul_le_mul_of_nonneg_right ?_ (by positivity))
      exact le_mul_of_one_le_right pVx.le (by norm_num)
    · rw [exy]
      clear lo
      calc _ ≤ 2 ^ 222 * 2 ^ 222 * 2 ^ 222 * 2 ^ 224 * 2 := mul_le_mul hi (by norm_num) (by positivity) (by positivity)
        _ ≤ _ := by norm_num
    · rw [exy]
      have e1 : |qv x| * (n * |V| / 2 ^ 138) = n * |V * qv x| / 2 ^ 138 := by rw [abs_mul]; ring
      have e2 : (n + 1) * |V * qv x| / 2 ^ 138 = n * |V * qv x| / 2 ^ 138 + |V * qv x| / 2 ^ 138 := by ring
      rw [e1, e2]
      clear lo hi
      generalize |V * qv x| = A at *
      norm_num
      linarith
    · rw [exy]
      clear lo hi
      generalize |V * qv x| = A at *
      norm_num
      linarith
    · rw [exy]
      clear lo hi
      generalize |V * qv x| = A at *
      generalize (n + 1) * A = B at *
      norm_num at nV ⊢
      linarith

/-- **C91.** The product of any sequence of normalized Quads (of at most `2^60` items), all of whose partial products are
between `2^-840` and `2^890` in magnitude, is finite and has a relative error of at most `n * 2^-138`. -/
theorem C91_quad_product (l : List Quad) (hl : ∀ x ∈ l, x.Normalized) (hn : l.length ≤ 2 ^ 60)
    (hP : ∀ k ≤ l.length, 1 ≤ |((l.take k).map Quad.val).prod| * 2 ^ 840 ∧ |((l.take k).map Quad.val).prod| ≤ 2 ^ 890) :
    (Quad.product l).Fin ∧
      |(Quad.product l).val - (l.map Quad.val).prod| * 2 ^ 138 ≤ l.length * |(l.map Quad.val).prod| := by
  have c1 : ∀ l : List Quad, (l.map qv).prod = (((l.map Quad.val).prod : ℚ) : ℝ) := by
    intro l
    induction l with
    | nil => simp
    | cons a l ih => simp only [List.map_cons, List.prod_cons, ih]; push_cast; rfl
  have k := qfold_product l hl hn (by
    intro k hk
    have := hP k hk
    rw [c1]
    rw [show (2:ℚ) ^ 890 = 2 ^ 222 * 2 ^ 222 * 2 ^ 222 * 2 ^ 224 by simp only [← pow_add],
      show (2:ℚ) ^ 840 = 2 ^ 210 * 2 ^ 210 * (2 ^ 210 * 2 ^ 210) by simp only [← pow_add]] at this
    exact_mod_cast this)
  refine ⟨k.fin, ?_⟩
  have e := k.err
  rw [c1, le_div_iff₀ (by positivity)] at e
  unfold qv at e
  exact_mod_cast e

/-- Non-vacuity: three of the library's own constants. -/
example : (∀ x ∈ [Quad.PI, Quad.E, -Quad.LN_2], x.Normalized) ∧
    ∀ k ≤ 3, 1 ≤ |(([Quad.PI, Quad.E, -Quad.LN_2].take k).map Quad.val).prod| * 2 ^ 840 ∧
      |(([Quad.PI, Quad.E, -Quad.LN_2].take k).map Quad.val).prod| ≤ 2 ^ 890 := by
  decide +kernel

end Verif
