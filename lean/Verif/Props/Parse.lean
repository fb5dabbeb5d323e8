import Verif.Proofs.ParseGen
import Verif.Props.Powi
import Verif.Props.AddSub
import Mathlib.Tactic.IntervalCases

/-!
# C24 - C28, C60: parsing `Double`s
-/

namespace Verif

open F64 Prim Util

theorem ten_norm : Double.TEN.Normalized ∧ Double.TEN.val = 10 := by decide +kernel

theorem ten_class : Double.TEN.isNan = false ∧ Double.TEN.isZero = false ∧ Double.TEN.isInfinite = false := by decide +kernel

theorem double_ten : TenTotal Double.ops := by
  intro k h1 h2
  by_cases h0 : k = 0
  · subst h0; exact ⟨_, rfl⟩
  · exact ⟨_, powi_main h0 (abs_lt.mpr ⟨h1, h2⟩) ten_class.1 ten_class.2.1 ten_class.2.2⟩

/-- **C24.** Which texts are accepted: after trimming white space and lowering ASCII case, exactly `nan`, `inf`, `infinity`,
`-inf`, `-infinity` and the non-empty texts made of a mantissa (digits, underscores, at most one point, at most one sign and
that before the first digit) and an optional `e` followed by the text of an `i32`, except when that exponent less the number
of digits after the point is below `-2^31` (see `C24_panic_partial`). The length is limited because the digits are counted
in an `i32`. -/
theorem C24_accept_partial (s : List Char) (hl : s.length < 2 ^ 31) :
    (∃ v, Double.fromStr s = some (.ok v)) ↔ cleaned s ∈ specialTexts ∨
      (cleaned s ≠ [] ∧ ∃ m e, NumText (cleaned s) m e ∧ -2 ^ 31 ≤ e - (fracDigits m : ℤ)) :=
  gen_ok_iff _ double_ten s hl

/-- **C24.** Which texts give an error: exactly those outside the grammar. -/
theorem C24_reject (s : List Char) (hl : s.length < 2 ^ 31) :
    (∃ k, Double.fromStr s = some (.error k)) ↔ cleaned s = [] ∨
      (cleaned s ∉ specialTexts ∧ ¬ ∃ m e, NumText (cleaned s) m e) :=
  gen_err_iff _ double_ten s hl

/-- **C24.** The only way for parsing to panic is the overflow of exponent minus number of fraction digits (in a build
with overflow checks). In particular no text is ever sliced inside a character. -/
theorem C24_panic_partial (s : List Char) (hl : s.length < 2 ^ 31) :
    Double.fromStr s = none ↔ ∃ m e, NumText (cleaned s) m e ∧ e - (fracDigits m : ℤ) < -2 ^ 31 :=
  gen_panic_iff _ double_ten s hl

/-- **C24 (full statement refuted).** "It never panics" is false: this text of the grammar makes the exponent overflow. -/
theorem C24_refuted : Double.fromStr "1.5e-2147483648".toList = none := by decide +kernel

/-- Some texts of the grammar and some that are not. -/
example : (∃ m e, NumText "-1_000.5e+3".toList m e) ∧ ¬ ∃ m e, NumText "1-".toList m e := by
  constructor
  · refine ⟨"-1_000.5".toList, 3, "e+3".toList, rfl, ⟨by decide, by decide, by decide, by decide⟩, Or.inr ⟨"+3".toList, rfl, ?_⟩⟩
    exact ⟨['+'], ['3'], rfl, by simp, by simp, by decide, by decide, by norm_num, by norm_num⟩
  · rintro ⟨m, e, h⟩
    have h1 : Double.fromStr "1-".toList = some (.error .invalid) := by decide +kernel
    have h2 := (C24_reject "1-".toList (by decide)).mp ⟨_, h1⟩
    rcases h2 with h2 | ⟨_, h2⟩
    · exact absurd h2 (by decide)
    · exact h2 ⟨m, e, h⟩

/-! ### Exact integers -/

theorem digitsVal_append (l : List ℕ) (d : ℕ) : digitsVal (l ++ [d]) = 10 * digitsVal l + d := by
  unfold digitsVal; simp

theorem digitsOf_le {m : List Char} : ∀ d ∈ digitsOf m, d ≤ 9 := by
  intro d hd
  unfold digitsOf at hd
  rw [List.mem_map] at hd
  obtain ⟨c, hc, rfl⟩ := hd
  have := digit_range (by simpa using List.of_mem_filter hc : IsDigit c)
  omega

theorem digit_norm {d : ℕ} (h : d ≤ 9) : (Double.ops.ofDigit d).Normalized ∧ (Double.ops.ofDigit d).val = (d : ℤ) := by
  interval_cases d <;> decide +kernel

theorem accum_int : ∀ (l : List ℕ), (∀ d ∈ l, d ≤ 9) → digitsVal l ≤ 2 ^ 104 →
    (accum Double.ops l).Normalized ∧ (accum Double.ops l).val = ((digitsVal l : ℤ) : ℚ) := by
  intro l
  induction l using List.reverseRecOn with
  | nil =>
    intro _ _
    have : Double.ZERO.Normalized ∧ Double.ZERO.val = ((0:ℤ):ℚ) := by decide +kernel
    exact this
  | append_singleton l d ih =>
    intro hd hb
    rw [digitsVal_append] at hb
    obtain ⟨h1, h2⟩ := ih (fun x hx => hd x (List.mem_append_left _ hx)) (by omega)
    obtain ⟨xh, xl, ix, nx, ex⟩ := of_int h1 h2
    obtain ⟨yh, yl, iy, ny, ey⟩ := of_int (n := 10) ten_norm.1 (by rw [ten_norm.2]; norm_num)
    obtain ⟨zh, zl, iz, nz, ez⟩ := mul_int ix iy nx ny ex ey (by
      rw [abs_of_nonneg (by positivity)]; norm_cast; omega)
    obtain ⟨d1, d2⟩ := digit_norm (hd d (by simp))
    obtain ⟨uh, ul, iu, nu, eu⟩ := of_int d1 d2
    obtain ⟨vh, vl, iv, nv, ev⟩ := add_int iz iu nz nu ez eu
      (by rw [abs_of_nonneg (by positivity)]; norm_cast; omega)
      (by rw [abs_of_nonneg (by positivity)]; norm_cast; omega)
    rw [accum_append, digitsVal_append]
    have e : ((digitsVal l : ℤ) * 10 + (d : ℤ)) = ((10 * digitsVal l + d : ℕ) : ℤ) := by push_cast; ring
    rw [e] at ev
    exact int_of iv nv ev

/-- **C25.** A text of digits and underscores whose digits form a number of at most `2^104` parses to a normalized Double
with exactly that value. -/
theorem C25_integer (s : List Char) (hl : s.length < 2 ^ 31) (h0 : cleaned s ≠ [])
    (hc : ∀ c ∈ cleaned s, IsDigit c ∨ c = '_') (hb : intOf (cleaned s) ≤ 2 ^ 104) :
    ∃ v, Double.fromStr s = some (.ok v) ∧ v.Normalized ∧ v.val = intOf (cleaned s) := by
  have np : '.' ∉ cleaned s := by
    intro h; have := hc _ h; revert this; decide
  have ns : ∀ c ∈ cleaned s, ¬ IsSign c := by
    intro c h hs
    have := hc _ h
    rcases hs with rfl | rfl <;> revert this <;> decide
  have hM : Mantissa (cleaned s) := by
    refine ⟨?_, ?_, ?_, ?_⟩
    · intro c h; rcases hc c h with h | h <;> tauto
    · rw [List.count_eq_zero_of_not_mem np]; omega
    · rw [List.countP_eq_zero.mpr (by simpa using ns)]; omega
    · intro c h; exact ns c ((List.dropWhile_suffix _).mem h)
  have hN : NumText (cleaned s) (cleaned s) 0 := ⟨[], by simp, hM, Or.inl ⟨rfl, rfl⟩⟩
  have h1 := fromStr_num Double.ops hN h0 (not_num_special hN) (cleaned_digits hl)
  have hf : fracDigits (cleaned s) = 0 := frac_none np
  have hv : numValue Double.ops (cleaned s) 0 = some (accum Double.ops (digitsOf (cleaned s))) := by
    unfold numValue scaled
    rw [hf]
    have : '-' ∉ cleaned s := fun h => ns _ h (Or.inr rfl)
    simp [this]
  rw [hf, hv] at h1
  refine ⟨accum Double.ops (digitsOf (cleaned s)), h1, ?_⟩
  have := accum_int (digitsOf (cleaned s)) digitsOf_le hb
  refine ⟨this.1, ?_⟩
  rw [this.2]; rfl

/-- Thirty digits. -/
example : (∀ c ∈ cleaned "999_999_999_999_999_999_999_999_999_999".toList, IsDigit c ∨ c = '_') ∧
    intOf (cleaned "999_999_999_999_999_999_999_999_999_999".toList) ≤ 2 ^ 104 := by decide +kernel

/-! ### Signs, underscores, case, white space -/

/-- **C26.** A sign in front of an unsigned number text: `+` changes nothing, `-` negates. -/
theorem C26_sign_partial (s m : List Char) (e : ℤ) (hl : s.length + 1 < 2 ^ 31)
    (hw : ∀ d, s.head? = some d → isWhite d = false) (h0 : cleaned s ≠ []) (h : NumText (cleaned s) m e)
    (hn : ∀ c ∈ m, ¬ IsSign c) :
    Double.fromStr ('+' :: s) = Double.fromStr s ∧
      Double.fromStr ('-' :: s) = (Double.fromStr s).map fun r => r.map fun v => -v :=
  gen_sign Double.ops s m e hl hw h0 h hn

example : NumText (cleaned "1.5E3 ".toList) "1.5".toList 3 := by
  refine ⟨"e3".toList, by decide, ⟨by decide, by decide, by decide, by decide⟩, Or.inr ⟨['3'], rfl, ?_⟩⟩
  exact ⟨[], ['3'], rfl, by simp, by simp, by decide, by decide, by norm_num, by norm_num⟩

/-- **C26 (full statement refuted).** `inf` parses, `+inf` and `-nan` do not. -/
theorem C26_refuted : Double.fromStr "inf".toList = some (.ok Double.INFINITY) ∧
    Double.fromStr "-inf".toList = some (.ok Double.NEG_INFINITY) ∧
    Double.fromStr "+inf".toList = some (.error .invalid) ∧ Double.fromStr "nan".toList = some (.ok Double.NAN) ∧
    Double.fromStr "-nan".toList = some (.error .invalid) := by
  refine ⟨rfl, rfl, ?_, rfl, ?_⟩ <;> decide +kernel

/-- **C27.** White space around the text does not matter. -/
theorem C27_white (w s v : List Char) (hw : ∀ c ∈ w, isWhite c = true) (hv : ∀ c ∈ v, isWhite c = true) :
    Double.fromStr (w ++ s ++ v) = Double.fromStr s := gen_white Double.ops w s v hw hv

example : ∀ c ∈ " \t\n\u3000".toList, isWhite c = true := by decide

/-- **C27.** The case of ASCII letters does not matter. -/
theorem C27_case (s t : List Char) (h : s.map Char.toLower = t.map Char.toLower) : Double.fromStr s = Double.fromStr t :=
  gen_case Double.ops s t h

example : "1E-5 Inf".toList.map Char.toLower = "1e-5 iNF".toList.map Char.toLower := by decide

/-- **C27.** Underscores before the exponent do not matter, unless removing them leaves nothing or one of the texts of
NaN and the infinities. -/
theorem C27_underscores (s t m x : List Char) (hs : s.length < 2 ^ 31) (ht : t.length < 2 ^ 31)
    (es : cleaned s = m ++ x) (et : cleaned t = m.filter (· ≠ '_') ++ x) (hm : 'e' ∉ m)
    (hx : x = [] ∨ x.head? = some 'e') (h0 : cleaned t ≠ []) (h1 : cleaned t ∉ specialTexts) :
    Double.fromStr s = Double.fromStr t := gen_us Double.ops s t m x hs ht es et hm hx h0 h1

example : cleaned "1_0__.5_E2".toList = "1_0__.5_".toList ++ "e2".toList ∧
    cleaned "10.5e2".toList = "1_0__.5_".toList.filter (· ≠ '_') ++ "e2".toList := by decide

/-- **C27.** The exception is real: `in_f` is rejected although `inf` is accepted, and `_` is accepted although the empty
text is not. -/
theorem C27_exceptions : Double.fromStr "in_f".toList = some (.error .invalid) ∧
    Double.fromStr "inf".toList = some (.ok Double.INFINITY) ∧
    Double.fromStr "_".toList = some (.ok Double.ZERO) ∧ Double.fromStr "".toList = some (.error .empty) := by
  refine ⟨?_, rfl, ?_, rfl⟩ <;> decide +kernel

/-- **C28.** The error is `Empty` exactly for texts of white space only, and every other error is `Invalid`. -/
theorem C28_classified (s : List Char) (hl : s.length < 2 ^ 31) :
    (Double.fromStr s = some (.error .empty) ↔ trim s = []) ∧
    (Double.fromStr s = some (.error .invalid) ↔
      trim s ≠ [] ∧ cleaned s ∉ specialTexts ∧ ¬ ∃ m e, NumText (cleaned s) m e) := by
  have h1 := gen_empty_iff Double.ops double_ten s hl
  refine ⟨h1, ?_⟩
  have h2 := C24_reject s hl
  rw [cleaned_nil] at h2
  constructor
  · intro h
    have h3 : trim s ≠ [] := by
      intro h'
      have := h1.mpr h'
      change Double.fromStr s = _ at this
      rw [this] at h; cases h
    rcases h2.mp ⟨_, h⟩ with h4 | h4
    · exact absurd h4 h3
    · exact ⟨h3, h4⟩
  · rintro ⟨h3, h4⟩
    obtain ⟨k, hk⟩ := h2.mpr (Or.inr h4)
    cases k with
    | empty => exact absurd (h1.mp hk) h3
    | invalid => exact hk

/-- **C28.** `Double::from(&str)`: the parsed value, NaN when parsing fails. -/
theorem C28_from (s : List Char) (v : Double) :
    (Double.ofStr s = some v ↔ Double.fromStr s = some (.ok v) ∨ (v = Double.NAN ∧ ∃ k, Double.fromStr s = some (.error k))) := by
  unfold Double.ofStr
  cases h : Double.fromStr s with
  | none => simp
  | some r =>
    cases r with
    | ok u => simp
    | error k => simp [eq_comm]

/-- **C28.** `Double::from(&str)` is NaN exactly when the text is outside the grammar, is `nan`, or its value is NaN. -/
theorem C28_from_nan (s : List Char) (hl : s.length < 2 ^ 31) (v : Double) (hv : Double.ofStr s = some v)
    (hbad : trim s = [] ∨ (cleaned s ∉ specialTexts ∧ ¬ ∃ m e, NumText (cleaned s) m e)) : v.isNan = true := by
  rw [← cleaned_nil] at hbad
  obtain ⟨k, hk⟩ := (C24_reject s hl).mpr hbad
  rcases (C28_from s v).mp hv with h | ⟨rfl, _⟩
  · rw [hk] at h; cases h
  · rfl

/-! ### Accuracy of decimal texts -/

/-- Relative error at most `δ`. -/
def Rel (δ z t : ℚ) : Prop := |z - t| ≤ δ * |t|

theorem Rel.mul {δ ε x y s t : ℚ} (hδ : 0 ≤ δ) (hx : Rel δ x s) (hy : Rel ε y t) :
    Rel (δ + ε + δ * ε) (x * y) (s * t) := by
  unfold Rel at *
  have e : x * y - s * t = (x - s) * (y - t) + (x - s) * t + s * (y - t) := by ring
  rw [e, abs_mul]
  have h1 := abs_add_le ((x - s) * (y - t) + (x - s) * t) (s * (y - t))
  have h2 := abs_add_le ((x - s) * (y - t)) ((x - s) * t)
  rw [abs_mul, abs_mul] at h2
  rw [abs_mul s] at h1
  have h3 : |x - s| * |y - t| ≤ δ * |s| * (ε * |t|) := mul_le_mul hx hy (abs_nonneg _) (by positivity)
  have h4 : |x - s| * |t| ≤ δ * |s| * |t| := mul_le_mul_of_nonneg_right hx (abs_nonneg _)
  have h5 : |s| * |y - t| ≤ |s| * (ε * |t|) := mul_le_mul_of_nonneg_left hy (abs_nonneg _)
  nlinarith

theorem Rel.trans {δ ε x y t : ℚ} (hδ : 0 ≤ δ) (hx : Rel δ x y) (hy : Rel ε y t) : Rel (δ + ε + δ * ε) x t := by
  unfold Rel at *
  have e : x - t = (x - y) + (y - t) := by ring
  rw [e]
  have h1 := abs_add_le (x - y) (y - t)
  have h2 : |y| ≤ |y - t| + |t| := by
    have := abs_add_le (y - t) t
    rwa [sub_add_cancel] at this
  have h3 : δ * |y| ≤ δ * (|y - t| + |t|) := mul_le_mul_of_nonneg_left h2 hδ
  have h4 : δ * |y - t| ≤ δ * (ε * |t|) := mul_le_mul_of_nonneg_left hy hδ
  nlinarith

theorem Rel.mono {δ ε x t : ℚ} (h : Rel δ x t) (h1 : δ ≤ ε) : Rel ε x t :=
  le_trans h (mul_le_mul_of_nonneg_right h1 (abs_nonneg _))

theorem Rel.bounds {δ x t : ℚ} (h : Rel δ x t) (h1 : δ ≤ 1 / 2) : |x| ≤ 2 * |t| ∧ |t| / 2 ≤ |x| := by
  unfold Rel at h
  have h2 : |x - t| ≤ 1 / 2 * |t| := h.trans (mul_le_mul_of_nonneg_right h1 (abs_nonneg _))
  have h3 := abs_add_le (x - t) t
  rw [sub_add_cancel] at h3
  have h4 := abs_sub_abs_le_abs_sub t x
  rw [abs_sub_comm] at h4
  have := abs_nonneg t
  constructor <;> linarith

theorem accum_rel : ∀ (l : List ℕ), (∀ d ∈ l, d ≤ 9) → (digitsVal l : ℚ) ≤ 2 ^ 1010 → l.length ≤ 2 ^ 30 →
    (accum Double.ops l).Normalized ∧ RelK eps102 (accum Double.ops l).val (digitsVal l) (2 * l.length) := by
  have e0 : (0:ℚ) ≤ eps102 := by unfold eps102; positivity
  have e1 : eps102 ≤ 1 := by unfold eps102; norm_num
  intro l
  induction l using List.reverseRecOn with
  | nil =>
    intro _ _ _
    have : Double.ZERO.Normalized ∧ Double.ZERO.val = 0 := by decide +kernel
    refine ⟨this.1, 1, ?_, by simp, by simp⟩
    change Double.ZERO.val = _
    rw [this.2]; simp [digitsVal]
  | append_singleton l d ih =>
    intro hd hb hlen
    rw [digitsVal_append] at hb
    rw [List.length_append, List.length_singleton] at hlen
    have hN : (0:ℚ) ≤ digitsVal l := Nat.cast_nonneg _
    have hdn : (0:ℚ) ≤ d := Nat.cast_nonneg _
    have hd9 : (d:ℚ) ≤ 9 := by exact_mod_cast hd d (by simp)
    push_cast at hb
    have hK : (1:ℚ) ≤ 2 ^ 1010 := one_le_pow₀ (by norm_num)
    obtain ⟨h1, h2⟩ := ih (fun x hx => hd x (List.mem_append_left _ hx)) (by
      generalize (2:ℚ) ^ 1010 = K at *
      linarith) (by omega)
    obtain ⟨d1, d2⟩ := digit_norm (hd d (by simp))
    rw [accum_append, digitsVal_append]
    have hlq : (l.length : ℚ) ≤ 2 ^ 31 := by exact_mod_cast (by omega : l.length ≤ 2 ^ 31)
    have hkε : ((2 * l.length : ℕ) : ℚ) * eps102 ≤ 1 / 2 := by
      push_cast
      unfold eps102
      calc 2 * (l.length:ℚ) * (1 / 2 ^ 102) ≤ 2 * 2 ^ 31 * (1 / 2 ^ 102) := by
            apply mul_le_mul_of_nonneg_right _ (by positivity); linarith
        _ ≤ 1 / 2 := by norm_num
    by_cases hz : digitsVal l = 0
    · -- leading zeros: everything is exact
      have hval : (accum Double.ops l).val = 0 := by
        obtain ⟨q, hq, _⟩ := h2
        rw [hq, hz]; simp
      have hex := accum_int (l ++ [d]) hd (by rw [digitsVal_append, hz]; have := hd d (by simp); omega)
      rw [accum_append, digitsVal_append] at hex
      refine ⟨hex.1, ?_⟩
      rw [hex.2]
      exact (RelK.refl _ _).mono e0 e1 (by omega)
    · have hN1 : (1:ℚ) ≤ digitsVal l := by exact_mod_cast Nat.one_le_iff_ne_zero.mpr hz
      generalize hA : accum Double.ops l = A at *
      generalize hNq : (digitsVal l : ℚ) = N at *
      obtain ⟨b1, b2⟩ := h2.abs_bounds e0 e1 hkε
      have hs : SafeVal (N * 10) := by
        unfold SafeVal
        rw [abs_of_nonneg (by linarith)]
        constructor
        · have : (1:ℚ) ≤ 2 ^ 960 := one_le_pow₀ (by norm_num)
          generalize (2:ℚ) ^ 960 = K at *
          nlinarith
        · have : (2:ℚ) ^ 1010 ≤ 2 ^ 1020 := pow_le_pow_right₀ (by norm_num) (by norm_num)
          generalize (2:ℚ) ^ 1010 = K at *
          linarith
      have rt : RelK eps102 Double.TEN.val 10 0 := by rw [ten_norm.2]; exact RelK.refl _ _
      obtain ⟨g1, g2, g3⟩ := mul_step h1 ten_norm.1 h2 rt (by omega) (by omega) hs
      have hrel := C03_mul_relative A Double.TEN h1 ten_norm.1 g1 g2
      have hn := (C03_mul A Double.TEN h1 ten_norm.1 g1).1
      have st : RelK eps102 (A * Double.TEN).val (A.val * Double.TEN.val) 1 := by
        apply RelK.one_step g3
        unfold eps102
        rw [div_mul_eq_mul_div, one_mul, le_div_iff₀ (by positivity)]
        exact hrel.le
      have r1 := st.trans e1 (h2.mul e1 rt)
      -- adding the digit
      generalize hP : A * Double.TEN = P at *
      have hkε' : ((1 + (2 * l.length + 0) : ℕ) : ℚ) * eps102 ≤ 1 / 2 := by
        push_cast
        unfold eps102
        calc (1 + (2 * (l.length:ℚ) + 0)) * (1 / 2 ^ 102) ≤ (1 + 2 * 2 ^ 31) * (1 / 2 ^ 102) := by
              apply mul_le_mul_of_nonneg_right _ (by positivity); linarith
          _ ≤ 1 / 2 := by norm_num
      obtain ⟨p1, p2⟩ := r1.abs_bounds e0 e1 hkε'
      obtain ⟨q, hq, q1, q2⟩ := r1
      have q0 : 0 < (1 - eps102) ^ (1 + (2 * l.length + 0)) := pow_pos (by unfold eps102; norm_num) _
      have q1' : (1 - eps102) ^ (1 + (2 * l.length + 0)) ≤ 1 := pow_le_one₀ (by linarith) (by linarith)
      have q2' : 1 ≤ (1 + eps102) ^ (1 + (2 * l.length + 0)) := one_le_pow₀ (by linarith)
      have hPpos : 0 < P.val := by rw [hq]; apply mul_pos (by linarith); linarith
      have hr : |P.hi.toRat| + |(Double.ops.ofDigit d).hi.toRat| ≤ 2 ^ 1023 := by
        have a1 := (hi_val hn).1
        have a2 := (hi_val d1).1
        rw [d2] at a2
        have a3 : |((d:ℤ):ℚ)| = d := by rw [Int.cast_natCast, abs_of_nonneg hdn]
        rw [a3] at a2
        rw [abs_of_nonneg (by linarith : (0:ℚ) ≤ N * 10)] at p2
        have a4 : (2:ℚ) ^ 1023 = 2 ^ 13 * 2 ^ 1010 := by rw [← pow_add]
        rw [a4]
        generalize (2:ℚ) ^ 1010 = K at *
        have a5 : |P.val| * (1 + 1 / 2 ^ 52) ≤ |P.val| * 2 := mul_le_mul_of_nonneg_left (by norm_num) (abs_nonneg _)
        have a6 : (d:ℚ) * (1 + 1 / 2 ^ 52) ≤ d * 2 := mul_le_mul_of_nonneg_left (by norm_num) hdn
        have a7 : (2:ℚ) ^ 13 = 8192 := by norm_num
        rw [a7]
        clear ih hrel g1 g2 hkε hkε' q1 q2 q0 q1' q2' st h2 rt hs a4 hlen
        linarith
      obtain ⟨s1, s2⟩ := C01_add P (Double.ops.ofDigit d) hn d1 hr
      refine ⟨by
        change (A * Double.TEN + Double.ops.ofDigit d).Normalized
        rw [hP]; exact s1, ?_⟩
      have hsum : RelK eps102 (P.val + d) (10 * N + d) (1 + (2 * l.length + 0)) := by
        have hpos : 0 < 10 * N + d := by linarith
        refine ⟨(P.val + d) / (10 * N + d), by field_simp, ?_, ?_⟩
        · rw [le_div_iff₀ hpos, hq]
          have u1 : N * 10 * (1 - eps102) ^ (1 + (2 * l.length + 0)) ≤ N * 10 * q :=
            mul_le_mul_of_nonneg_left q1 (by linarith)
          have u2 : d * (1 - eps102) ^ (1 + (2 * l.length + 0)) ≤ d * 1 := mul_le_mul_of_nonneg_left q1' hdn
          linarith
        · rw [div_le_iff₀ hpos, hq]
          have u1 : N * 10 * q ≤ N * 10 * (1 + eps102) ^ (1 + (2 * l.length + 0)) :=
            mul_le_mul_of_nonneg_left q2 (by linarith)
          have u2 : d * 1 ≤ d * (1 + eps102) ^ (1 + (2 * l.length + 0)) := mul_le_mul_of_nonneg_left q2' hdn
          linarith
      have st2 : RelK eps102 (P + Double.ops.ofDigit d).val (P.val + d) 1 := by
        rw [d2] at s2
        apply RelK.one_step (by linarith)
        unfold eps102
        rw [div_mul_eq_mul_div, one_mul, le_div_iff₀ (by positivity)]
        refine le_trans ?_ s2
        exact mul_le_mul_of_nonneg_left (by norm_num) (abs_nonneg _)
      have fin := st2.trans e1 hsum
      have ecast : ((10 * digitsVal l + d : ℕ) : ℚ) = 10 * N + d := by push_cast; rw [hNq]
      rw [ecast]
      refine RelK.mono e0 e1 ?_ (show 1 + (1 + (2 * l.length + 0)) ≤ 2 * (l ++ [d]).length by
        rw [List.length_append, List.length_singleton]; omega)
      change RelK eps102 (A * Double.TEN + Double.ops.ofDigit d).val _ _
      rw [hP]
      exact fin

theorem ten_pow_288 {k : ℕ} (h : k ≤ 288) : (10:ℚ) ^ k ≤ 2 ^ 960 := by
  have h1 : (10:ℚ) ^ k ≤ 10 ^ 288 := pow_le_pow_right₀ (by norm_num) h
  have h2 : (10:ℕ) ^ 288 ≤ 2 ^ 960 := by decide +kernel
  exact h1.trans (by exact_mod_cast h2)

/-- Powers of ten with moderate exponents. -/
theorem ten_pow (k : ℤ) (hk0 : k ≠ 0) (hk : |k| ≤ 288) :
    ∃ p, Double.TEN.powi k = some p ∧ p.Normalized ∧ Rel ((|k| + 1 : ℤ) / 2 ^ 100) p.val ((10:ℚ) ^ k) := by
  have h1 : ∀ n : ℕ, (1:ℚ) ≤ |10 ^ n| * 2 ^ 960 := by
    intro n
    rw [abs_of_pos (by positivity)]
    exact one_le_mul_of_one_le_of_one_le (one_le_pow₀ (by norm_num)) (one_le_pow₀ (by norm_num))
  rcases lt_or_gt_of_ne hk0 with hneg | hpos
  · obtain ⟨n, rfl⟩ : ∃ n : ℕ, k = -(n : ℤ) := ⟨k.natAbs, by omega⟩
    rw [abs_neg, abs_of_nonneg (by positivity)] at hk
    have hn : n ≤ 288 := by exact_mod_cast hk
    obtain ⟨p, hp, hN, he⟩ := C59_powi_neg_accurate Double.TEN n (by omega) (by omega) ten_norm.1
      (by rw [ten_norm.2]; exact h1 n) (by rw [ten_norm.2, abs_of_pos (by positivity)]; exact ten_pow_288 hn)
    refine ⟨p, hp, hN, ?_⟩
    rw [ten_norm.2] at he
    unfold Rel
    rw [zpow_neg, zpow_natCast, abs_neg, abs_of_nonneg (by positivity : (0:ℤ) ≤ (n:ℤ)), div_mul_eq_mul_div,
      le_div_iff₀ (by positivity)]
    push_cast
    exact he
  · obtain ⟨n, rfl⟩ : ∃ n : ℕ, k = (n : ℤ) := ⟨k.natAbs, by omega⟩
    rw [abs_of_nonneg (by positivity)] at hk
    have hn : n ≤ 288 := by exact_mod_cast hk
    obtain ⟨p, hp, hN, he⟩ := C59_powi_accurate Double.TEN n (by omega) (by omega) ten_norm.1
      (by rw [ten_norm.2]; exact h1 n) (by
        rw [ten_norm.2, abs_of_pos (by positivity)]
        exact (ten_pow_288 hn).trans (pow_le_pow_right₀ (by norm_num) (by norm_num)))
    refine ⟨p, hp, hN, ?_⟩
    rw [ten_norm.2] at he
    unfold Rel
    rw [zpow_natCast, abs_of_nonneg (by positivity : (0:ℤ) ≤ (n:ℤ)), div_mul_eq_mul_div, le_div_iff₀ (by positivity)]
    push_cast
    generalize (10:ℚ) ^ n = t at *
    have h5 : 0 ≤ |p.val - t| := abs_nonneg _
    have h6 : 0 ≤ |t| := abs_nonneg _
    have e : (2:ℚ) ^ 101 = 2 * 2 ^ 100 := by norm_num
    rw [e] at he
    have h7 : 0 ≤ |p.val - t| * 2 ^ 100 := by positivity
    have h8 : (0:ℚ) ≤ n * |t| := by positivity
    nlinarith

/-- **C60.** Parsing is accurate. A number text means `± N * 10^k`, where `N` is the number its digits form and `k` the
exponent less the number of digits after the point. If `N` is not zero and at most `2^1010`, `k` is between -288 and 288 and
the value between `2^-960` and `2^1020`, the text parses to a normalized Double whose relative error is at most
`(L + |k| + 2) * 2^-99`, where `L` is the number of digits. -/
theorem C60_accurate (s m : List Char) (e k : ℤ) (hl : s.length < 2 ^ 30) (h : NumText (cleaned s) m e)
    (hk : k = e - fracDigits m) (hk2 : |k| ≤ 288) (hN : intOf m ≠ 0) (hN2 : (intOf m : ℚ) ≤ 2 ^ 1010)
    (h1 : 1 ≤ (intOf m : ℚ) * 10 ^ k * 2 ^ 960) (h2 : (intOf m : ℚ) * 10 ^ k ≤ 2 ^ 1020) :
    ∃ v, Double.fromStr s = some (.ok v) ∧ v.Normalized ∧
      |v.val - (if '-' ∈ m then -1 else 1) * (intOf m * 10 ^ k)| * 2 ^ 99 ≤
        ((digitsOf m).length + |k| + 2) * (intOf m * 10 ^ k) := by
  have e0 : (0:ℚ) ≤ eps102 := by unfold eps102; positivity
  have e1 : eps102 ≤ 1 := by unfold eps102; norm_num
  have hkb := abs_le.mp hk2
  have hne : cleaned s ≠ [] := by
    intro hc
    obtain ⟨x, hx, _⟩ := h
    rw [hc] at hx
    obtain ⟨rfl, rfl⟩ := List.append_eq_nil_iff.mp hx.symm
    exact hN rfl
  have hdl := cleaned_digits (s := s) (by omega)
  have hfs := fromStr_num Double.ops h hne (not_num_special h) hdl
  rw [if_pos (by omega)] at hfs
  have hL : (digitsOf m).length < 2 ^ 30 := by
    obtain ⟨x, hx, _⟩ := h
    have b1 := digitsOf_sub hx
    have b2 := digits_le (cleaned s)
    have b3 := trim_length s
    have b4 : (cleaned s).length = (trim s).length := by unfold cleaned lower; rw [List.length_map]
    omega
  obtain ⟨an, ar⟩ := accum_rel (digitsOf m) digitsOf_le hN2 hL.le
  change RelK eps102 _ (intOf m : ℚ) _ at ar
  generalize hA : accum Double.ops (digitsOf m) = A at *
  have hLq : ((digitsOf m).length : ℚ) ≤ 2 ^ 30 := by exact_mod_cast hL.le
  generalize hLl : (digitsOf m).length = L at *
  have hkε : ((2 * L : ℕ) : ℚ) * eps102 ≤ 1 / 2 := by
    push_cast
    unfold eps102
    calc 2 * (L:ℚ) * (1 / 2 ^ 102) ≤ 2 * 2 ^ 30 * (1 / 2 ^ 102) := by
          apply mul_le_mul_of_nonneg_right _ (by positivity); linarith
      _ ≤ 1 / 2 := by norm_num
  have ra : Rel (L / 2 ^ 100) A.val (intOf m) := by
    have hb := ar.bound e0 e1 hkε
    unfold Rel
    refine hb.trans (le_of_eq ?_)
    push_cast; unfold eps102; ring
  have hNpos : (0:ℚ) < intOf m := by exact_mod_cast Nat.pos_of_ne_zero hN
  have htpos : (0:ℚ) < (10:ℚ) ^ k := zpow_pos (by norm_num) k
  have hkq : (0:ℚ) ≤ |(k:ℚ)| ∧ |(k:ℚ)| ≤ 288 := ⟨abs_nonneg _, by exact_mod_cast hk2⟩
  have hLq0 : (0:ℚ) ≤ L := Nat.cast_nonneg _
  -- the scaled magnitude
  obtain ⟨w, hw, wn, wr⟩ : ∃ w, scaled Double.ops A k = some w ∧ w.Normalized ∧
      Rel ((L + |(k:ℚ)| + 2) / 2 ^ 99) w.val (intOf m * 10 ^ k) := by
    unfold scaled
    by_cases hk0 : k = 0
    · rw [if_pos hk0]
      refine ⟨A, rfl, an, ?_⟩
      rw [hk0, zpow_zero, mul_one]
      apply ra.mono
      rw [div_le_div_iff₀ (by positivity) (by positivity)]
      clear h1 h2 hN2
      norm_num
      nlinarith
    · rw [if_neg hk0, if_neg (by omega)]
      obtain ⟨p, hp, pn, pr⟩ := ten_pow k hk0 hk2
      change ∃ w, (Double.TEN.powi k).map _ = _ ∧ _
      rw [hp]
      refine ⟨A * p, rfl, ?_⟩
      push_cast at pr
      have da : (L:ℚ) / 2 ^ 100 ≤ 1 / 2 ^ 60 := by
        rw [div_le_div_iff₀ (by positivity) (by positivity)]
        calc (L:ℚ) * 2 ^ 60 ≤ 2 ^ 30 * 2 ^ 60 := by gcongr
          _ ≤ 1 * 2 ^ 100 := by norm_num
      have dp : (|(k:ℚ)| + 1) / 2 ^ 100 ≤ 1 / 2 ^ 60 := by
        rw [div_le_div_iff₀ (by positivity) (by positivity)]
        calc (|(k:ℚ)| + 1) * 2 ^ 60 ≤ (288 + 1) * 2 ^ 60 := by
              apply mul_le_mul_of_nonneg_right _ (by positivity); linarith [hkq.2]
          _ ≤ 1 * 2 ^ 100 := by norm_num
      have b1 := ra.bounds (by linarith [da, (by norm_num : (1:ℚ) / 2 ^ 60 ≤ 1 / 2)])
      have b2 := pr.bounds (by linarith [dp, (by norm_num : (1:ℚ) / 2 ^ 60 ≤ 1 / 2)])
      have hs : SafeVal ((intOf m : ℚ) * 10 ^ k) := by
        unfold SafeVal
        rw [abs_of_pos (mul_pos hNpos htpos)]
        exact ⟨h1, h2⟩
      obtain ⟨g1, g2, g3⟩ := safe_ranges an pn hs
        (by
          rw [abs_mul, abs_mul]
          have := mul_le_mul b1.1 b2.1 (abs_nonneg _) (by positivity)
          linarith)
        (by
          rw [abs_mul, abs_mul]
          have := mul_le_mul b1.2 b2.2 (by positivity) (abs_nonneg _)
          linarith)
      refine ⟨(C03_mul A p an pn g1).1, ?_⟩
      have hm : Rel (1 / 2 ^ 102) (A * p).val (A.val * p.val) := by
        unfold Rel
        rw [div_mul_eq_mul_div, one_mul, le_div_iff₀ (by positivity)]
        exact (C03_mul_relative A p an pn g1 g2).le
      have d0 : (0:ℚ) ≤ L / 2 ^ 100 := div_nonneg hLq0 (by norm_num)
      have fin := hm.trans (by norm_num) (ra.mul d0 pr)
      apply fin.mono
      clear g1 g2 h1 h2 hN2 hs
      have e99 : ((L:ℚ) + |(k:ℚ)| + 2) / 2 ^ 99 = 2 * ((L:ℚ) / 2 ^ 100) + 2 * ((|(k:ℚ)| + 1) / 2 ^ 100) + 2 / 2 ^ 100 := by
        rw [show (2:ℚ) ^ 100 = 2 * 2 ^ 99 by norm_num]
        field_simp
        ring
      rw [e99]
      generalize (L:ℚ) / 2 ^ 100 = x at *
      have hy0 : 0 ≤ (|(k:ℚ)| + 1) / 2 ^ 100 := div_nonneg (by linarith [hkq.1]) (by positivity)
      generalize (|(k:ℚ)| + 1) / 2 ^ 100 = y at *
      have hxy : x * y ≤ x * (1 / 2 ^ 60) := mul_le_mul_of_nonneg_left dp d0
      norm_num at da dp hxy ⊢
      nlinarith
  have hnv : numValue Double.ops m e = some (if '-' ∈ m then -w else w) := by
    unfold numValue
    rw [← hk, hA, hw]
    rfl
  rw [hnv] at hfs
  refine ⟨_, hfs, ?_⟩
  unfold Rel at wr
  rw [← Int.cast_abs] at wr
  rw [abs_of_pos (mul_pos hNpos htpos), div_mul_eq_mul_div, le_div_iff₀ (by positivity)] at wr
  by_cases hs : '-' ∈ m
  · rw [if_pos hs, if_pos hs]
    obtain ⟨wh, wl, iw, nw⟩ := wn.norm2
    have iw' : DIs (-w) (-wh) (-wl) := ⟨iw.1.neg, iw.2.neg⟩
    refine ⟨nw.swap_sign.normalized iw', ?_⟩
    have : (-w).val = -w.val := by rw [iw'.val, iw.val]; push_cast; ring
    rw [this, show -w.val - -1 * ((intOf m : ℚ) * 10 ^ k) = -(w.val - intOf m * 10 ^ k) by ring, abs_neg]
    exact wr
  · rw [if_neg hs, if_neg hs, one_mul]
    exact ⟨wn, wr⟩

/-- The hypotheses are met by ordinary texts. -/
example : NumText (cleaned " -3.14159265358979323846264338327950288E2".toList) "-3.14159265358979323846264338327950288".toList 2 ∧
    (-33 : ℤ) = 2 - fracDigits "-3.14159265358979323846264338327950288".toList ∧
    intOf "-3.14159265358979323846264338327950288".toList ≠ 0 ∧
    (intOf "-3.14159265358979323846264338327950288".toList : ℚ) ≤ 2 ^ 1010 ∧
    1 ≤ (intOf "-3.14159265358979323846264338327950288".toList : ℚ) * 10 ^ (-33 : ℤ) * 2 ^ 960 ∧
    (intOf "-3.14159265358979323846264338327950288".toList : ℚ) * 10 ^ (-33 : ℤ) ≤ 2 ^ 1020 := by
  refine ⟨⟨"e2".toList, by decide, ⟨by decide, by decide, by decide, by decide⟩, Or.inr ⟨['2'], rfl, ?_⟩⟩, ?_⟩
  · exact ⟨[], ['2'], rfl, by simp, by simp, by decide, by decide, by norm_num, by norm_num⟩
  · decide +kernel

end Verif
