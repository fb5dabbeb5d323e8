import Verif.Props.Parse
import Verif.Props.QuadBasic
import Verif.Props.Ldexp
import Verif.Props.Powi

/-!
# Quad: powers, scaling, sums over iterators, parsing (C24, C26, C27, C28, C35, C39, C40)
-/

namespace Verif

open F64 Prim Util

/-! ### `powi` -/

/-- What `powi` computes for a positive exponent, and without the shortcuts. -/
def quadPowiPos (a : Quad) (n : ℕ) : Quad := if n > 1 then Quad.powiLoop n n a Quad.ONE else a

theorem quad_powi_main {a : Quad} {n : ℤ} (hn : n ≠ 0) (h1 : |n| < 2 ^ 31) (ha : a.isNan = false) (hz : a.isZero = false)
    (hi : a.isInfinite = false) :
    a.powi n = some (if n < 0 then (quadPowiPos a n.natAbs).recip else quadPowiPos a n.natAbs) := by
  unfold Quad.powi Quad.prePowi
  simp only [hn, if_false, ha, hz, hi]
  unfold i32?
  have h2 : -2 ^ 31 ≤ |n| ∧ |n| < 2 ^ 31 := ⟨by have := abs_nonneg n; omega, h1⟩
  simp only [h2, and_self, if_true]
  have e : (|n|).toNat = n.natAbs := by rw [Int.abs_eq_natAbs, Int.toNat_natCast]
  rw [e]
  rfl

/-- **C35.** Every Quad to the power 0 is 1. -/
theorem C35_quad_zero (a : Quad) : a.powi 0 = some Quad.ONE := rfl

/-- **C35.** The first power of a Quad that is not NaN, zero or infinite is that Quad. -/
theorem C35_quad_one (a : Quad) (ha : a.isNan = false) (hz : a.isZero = false) (hi : a.isInfinite = false) :
    a.powi 1 = some a := by
  rw [quad_powi_main (by norm_num) (by norm_num) ha hz hi]; rfl

/-- **C35.** `x.powi(-n)` is `1 / x.powi(n)` for every finite non-zero Quad and every `n > 0` an `i32` can hold. -/
theorem C35_quad_recip (a : Quad) (n : ℤ) (h1 : 0 < n) (h2 : n < 2 ^ 31) (ha : a.isNan = false) (hz : a.isZero = false)
    (hi : a.isInfinite = false) : ∃ r, a.powi n = some r ∧ a.powi (-n) = some (Quad.ONE / r) := by
  refine ⟨quadPowiPos a n.natAbs, ?_, ?_⟩
  · rw [quad_powi_main h1.ne' (by rw [abs_of_pos h1]; exact h2) ha hz hi, if_neg (by omega)]
  · rw [quad_powi_main (by omega) (by rw [abs_neg, abs_of_pos h1]; exact h2) ha hz hi, if_pos (by omega), Int.natAbs_neg]
    rfl

/-- **C35.** The exponents that are handled: all but `i32::MIN`, for which the call fails (`n.abs()` overflows). -/
theorem C35_quad_total (a : Quad) (n : ℤ) (h1 : -2 ^ 31 ≤ n) (h2 : n < 2 ^ 31) (ha : a.isNan = false)
    (hz : a.isZero = false) (hi : a.isInfinite = false) : (a.powi n).isSome = true ↔ n ≠ -2 ^ 31 := by
  constructor
  · rintro h rfl
    unfold Quad.powi Quad.prePowi i32? at h
    simp [ha, hz, hi] at h
  · intro hn
    by_cases h0 : n = 0
    · subst h0; rfl
    · rw [quad_powi_main h0 (by rw [abs_lt]; constructor <;> omega) ha hz hi]; rfl

/-- **C35.** NaN, zero and infinite bases, for all exponents other than 0 (IEEE 754 `pown`). -/
theorem C35_quad_special (a : Quad) (n : ℤ) (hn : n ≠ 0) :
    (a.isNan = true → a.powi n = some Quad.NAN) ∧
    (a.isZero = true → a.powi n = some (
      if 0 < n then (if Odd n ∧ a.isSignNegative = true then Quad.NEG_ZERO else Quad.ZERO)
      else (if Odd n ∧ a.isSignNegative = true then Quad.NEG_INFINITY else Quad.INFINITY))) ∧
    (a.isInfinite = true → a.powi n = some (
      if 0 < n then (if Odd n ∧ a.isSignNegative = true then Quad.NEG_INFINITY else Quad.INFINITY)
      else (if Odd n ∧ a.isSignNegative = true then Quad.NEG_ZERO else Quad.ZERO))) := by
  have hm : n.tmod 2 = 0 ↔ ¬ Odd n := by
    rw [Int.not_odd_iff_even, even_iff_two_dvd]; exact ⟨Int.dvd_of_tmod_eq_zero, Int.tmod_eq_zero_of_dvd⟩
  have hp : a.isSignPositive = !a.isSignNegative := rfl
  refine ⟨?_, ?_, ?_⟩
  · intro h; unfold Quad.powi Quad.prePowi; simp [hn, h]
  · intro h
    have h1 : a.isNan = false := by
      rcases a with ⟨(_ | _ | _), l⟩
      · simp [Quad.isZero, F64.eq, F64.key] at h
      · rfl
      · rfl
    unfold Quad.powi Quad.prePowi
    simp only [hn, h1, h, hp, if_true, if_false]
    by_cases c1 : Odd n <;> by_cases c2 : 0 < n <;> cases hs : a.isSignNegative <;> simp [hm, c1, c2]
  · intro h
    have h1 : a.isNan = false := by
      rcases a with ⟨(_ | _ | _), l⟩
      · simp [Quad.isInfinite, F64.isInfinite] at h
      · rfl
      · rfl
    have h2 : a.isZero = false := by
      rcases a with ⟨(_ | s | _), l⟩
      · simp [Quad.isInfinite, F64.isInfinite] at h
      · cases s <;> simp [Quad.isZero, F64.eq, F64.key] <;> decide +kernel
      · simp [Quad.isInfinite, F64.isInfinite] at h
    unfold Quad.powi Quad.prePowi
    simp only [hn, h1, h2, h, hp, if_true, if_false]
    by_cases c1 : Odd n <;> by_cases c2 : 0 < n <;> cases hs : a.isSignNegative <;> simp [hm, c1, c2]

example : Quad.NEG_INFINITY.isInfinite = true ∧ Quad.PI.isNan = false ∧ Quad.PI.isZero = false ∧
    Quad.PI.isInfinite = false := by decide +kernel

/-! ### `ldexp` -/

/-- **C39.** Quad `ldexp(x, n)` multiplies every component, hence the value, by `2^n` whenever `|n| < 1024` and the scaled
components are `f64` numbers, and keeps normalization. -/
theorem C39_quad_ldexp_partial (a : Quad) (n : ℤ) (ha : a.Fin) (h1 : -1023 ≤ n) (h2 : n ≤ 1023) (x y z w : F64)
    (hx : x.isFinite = true) (hy : y.isFinite = true) (hz : z.isFinite = true) (hw : w.isFinite = true)
    (ex : x.toRat = a.c0.toRat * 2 ^ n) (ey : y.toRat = a.c1.toRat * 2 ^ n)
    (ez : z.toRat = a.c2.toRat * 2 ^ n) (ew : w.toRat = a.c3.toRat * 2 ^ n) :
    (a.ldexp n).c0.toRat = x.toRat ∧ (a.ldexp n).c1.toRat = y.toRat ∧ (a.ldexp n).c2.toRat = z.toRat ∧
    (a.ldexp n).c3.toRat = w.toRat ∧ (a.ldexp n).Fin ∧
    (a.ldexp n).val = a.val * 2 ^ n ∧ (a.Normalized → (a.ldexp n).Normalized) := by
  obtain ⟨f0, f1, f2, f3⟩ := ha
  obtain ⟨p1, p2, p3, _, p4⟩ := C39_ldexp_partial ⟨a.c0, a.c1⟩ n ⟨f0, f1⟩ h1 h2 x y hx hy ex ey
  obtain ⟨_, _, _, _, q4⟩ := C39_ldexp_partial ⟨a.c1, a.c2⟩ n ⟨f1, f2⟩ h1 h2 y z hy hz ey ez
  obtain ⟨r1, r2, r3, _, r4⟩ := C39_ldexp_partial ⟨a.c2, a.c3⟩ n ⟨f2, f3⟩ h1 h2 z w hz hw ez ew
  have hf : (a.ldexp n).Fin := ⟨p3.1, p3.2, r3.1, r3.2⟩
  refine ⟨p1, p2, r1, r2, hf, ?_, ?_⟩
  · change (a.ldexp n).c0.toRat = _ at p1
    change (a.ldexp n).c1.toRat = _ at p2
    change (a.ldexp n).c2.toRat = _ at r1
    change (a.ldexp n).c3.toRat = _ at r2
    unfold Quad.val
    rw [p1, p2, r1, r2, ex, ey, ez, ew]; ring
  · rintro ⟨_, n1, n2, n3⟩
    exact ⟨hf, (p4 ⟨⟨f0, f1⟩, n1⟩).2, (q4 ⟨⟨f1, f2⟩, n2⟩).2, (r4 ⟨⟨f2, f3⟩, n3⟩).2⟩

example : Quad.PI.Normalized ∧ (F64.mul Quad.PI.c0 (F64.ofInt 8)).toRat = Quad.PI.c0.toRat * 2 ^ (3 : ℤ) ∧
    (F64.mul Quad.PI.c1 (F64.ofInt 8)).toRat = Quad.PI.c1.toRat * 2 ^ (3 : ℤ) ∧
    (F64.mul Quad.PI.c2 (F64.ofInt 8)).toRat = Quad.PI.c2.toRat * 2 ^ (3 : ℤ) ∧
    (F64.mul Quad.PI.c3 (F64.ofInt 8)).toRat = Quad.PI.c3.toRat * 2 ^ (3 : ℤ) := by decide +kernel

/-- **C39.** The Quad version fails in the same way for `|n| > 1023`. -/
theorem C39_quad_refuted :
    (Quad.ldexp ⟨F64.powi Double.two (-100), F64.zero, F64.zero, F64.zero⟩ 1024).isInfinite = true ∧
    (F64.powi Double.two 924).isFinite = true ∧
    (F64.powi Double.two 924).toRat = (F64.powi Double.two (-100)).toRat * 2 ^ 1024 := by decide +kernel

/-! ### Sum and product -/

/-- **C40.** Quad `sum()` and `product()` are the left folds of `+` from 0 and of `*` from 1. -/
theorem C40_quad_fold (l : List Quad) (x : Quad) : Quad.sum [] = Quad.ZERO ∧ Quad.product [] = Quad.ONE ∧
    Quad.sum (l ++ [x]) = Quad.sum l + x ∧ Quad.product (l ++ [x]) = Quad.product l * x := by
  simp [Quad.sum, Quad.product, List.foldl_append]

/-! ### Parsing -/

theorem quad_ten_class : Quad.TEN.isNan = false ∧ Quad.TEN.isZero = false ∧ Quad.TEN.isInfinite = false := by
  decide +kernel

theorem quad_ten : TenTotal Quad.ops := by
  intro k h1 h2
  by_cases h0 : k = 0
  · subst h0; exact ⟨_, rfl⟩
  · exact ⟨_, quad_powi_main h0 (abs_lt.mpr ⟨h1, h2⟩) quad_ten_class.1 quad_ten_class.2.1 quad_ten_class.2.2⟩

/-- **C24.** Which texts parse as a Quad; see `C24_accept_partial`. -/
theorem C24_quad_accept_partial (s : List Char) (hl : s.length < 2 ^ 31) :
    (∃ v, Quad.fromStr s = some (.ok v)) ↔ cleaned s ∈ specialTexts ∨
      (cleaned s ≠ [] ∧ ∃ m e, NumText (cleaned s) m e ∧ -2 ^ 31 ≤ e - (fracDigits m : ℤ)) :=
  gen_ok_iff _ quad_ten s hl

/-- **C24.** Which texts give an error: exactly those outside the grammar. -/
theorem C24_quad_reject (s : List Char) (hl : s.length < 2 ^ 31) :
    (∃ k, Quad.fromStr s = some (.error k)) ↔ cleaned s = [] ∨
      (cleaned s ∉ specialTexts ∧ ¬ ∃ m e, NumText (cleaned s) m e) :=
  gen_err_iff _ quad_ten s hl

/-- **C24.** The only way for parsing a Quad to panic is the overflow of exponent minus number of fraction digits. -/
theorem C24_quad_panic_partial (s : List Char) (hl : s.length < 2 ^ 31) :
    Quad.fromStr s = none ↔ ∃ m e, NumText (cleaned s) m e ∧ e - (fracDigits m : ℤ) < -2 ^ 31 :=
  gen_panic_iff _ quad_ten s hl

/-- **C24.** Double and Quad accept exactly the same texts, reject the same texts with the same error, and panic on the
same texts. -/
theorem C24_same_language (s : List Char) (hl : s.length < 2 ^ 31) :
    ((∃ v, Double.fromStr s = some (.ok v)) ↔ ∃ v, Quad.fromStr s = some (.ok v)) ∧
    ((∃ k, Double.fromStr s = some (.error k)) ↔ ∃ k, Quad.fromStr s = some (.error k)) ∧
    (Double.fromStr s = none ↔ Quad.fromStr s = none) :=
  ⟨(C24_accept_partial s hl).trans (C24_quad_accept_partial s hl).symm,
    (C24_reject s hl).trans (C24_quad_reject s hl).symm, (C24_panic_partial s hl).trans (C24_quad_panic_partial s hl).symm⟩

/-- **C26.** A sign in front of an unsigned number text, for Quads: `+` changes nothing, `-` negates. -/
theorem C26_quad_sign_partial (s m : List Char) (e : ℤ) (hl : s.length + 1 < 2 ^ 31)
    (hw : ∀ d, s.head? = some d → isWhite d = false) (h0 : cleaned s ≠ []) (h : NumText (cleaned s) m e)
    (hn : ∀ c ∈ m, ¬ IsSign c) :
    Quad.fromStr ('+' :: s) = Quad.fromStr s ∧
      Quad.fromStr ('-' :: s) = (Quad.fromStr s).map fun r => r.map fun v => -v :=
  gen_sign Quad.ops s m e hl hw h0 h hn

/-- **C27.** White space around the text of a Quad does not matter. -/
theorem C27_quad_white (w s v : List Char) (hw : ∀ c ∈ w, isWhite c = true) (hv : ∀ c ∈ v, isWhite c = true) :
    Quad.fromStr (w ++ s ++ v) = Quad.fromStr s := gen_white Quad.ops w s v hw hv

/-- **C27.** The case of ASCII letters in the text of a Quad does not matter. -/
theorem C27_quad_case (s t : List Char) (h : s.map Char.toLower = t.map Char.toLower) : Quad.fromStr s = Quad.fromStr t :=
  gen_case Quad.ops s t h

/-- **C27.** Underscores before the exponent do not matter for Quads, unless removing them leaves nothing or one of the
texts of NaN and the infinities. -/
theorem C27_quad_underscores (s t m x : List Char) (hs : s.length < 2 ^ 31) (ht : t.length < 2 ^ 31)
    (es : cleaned s = m ++ x) (et : cleaned t = m.filter (· ≠ '_') ++ x) (hm : 'e' ∉ m)
    (hx : x = [] ∨ x.head? = some 'e') (h0 : cleaned t ≠ []) (h1 : cleaned t ∉ specialTexts) :
    Quad.fromStr s = Quad.fromStr t := gen_us Quad.ops s t m x hs ht es et hm hx h0 h1

/-- **C28.** For Quads: the error is `Empty` exactly for texts of white space only, and every other error is `Invalid`. -/
theorem C28_quad_classified (s : List Char) (hl : s.length < 2 ^ 31) :
    (Quad.fromStr s = some (.error .empty) ↔ trim s = []) ∧
    (Quad.fromStr s = some (.error .invalid) ↔
      trim s ≠ [] ∧ cleaned s ∉ specialTexts ∧ ¬ ∃ m e, NumText (cleaned s) m e) := by
  have h1 := gen_empty_iff Quad.ops quad_ten s hl
  refine ⟨h1, ?_⟩
  have h2 := C24_quad_reject s hl
  rw [cleaned_nil] at h2
  constructor
  · intro h
    have h3 : trim s ≠ [] := by
      intro h'
      have := h1.mpr h'
      change Quad.fromStr s = _ at this
      rw [this] at h; cases h
    rcases h2.mp ⟨_, h⟩ with h4 | h4
    · exact absurd h4 h3
    · exact ⟨h3, h4⟩
  · rintro ⟨h3, h4⟩
    obtain ⟨k, hk⟩ := h2.mpr (Or.inr h4)
    cases k with
    | empty => exact absurd (h1.mp hk) h3
    | invalid => exact hk

/-- **C28.** `Quad::from(&str)`: the parsed value, NaN when parsing fails. -/
theorem C28_quad_from (s : List Char) (v : Quad) :
    (Quad.ofStr s = some v ↔ Quad.fromStr s = some (.ok v) ∨ (v = Quad.NAN ∧ ∃ k, Quad.fromStr s = some (.error k))) := by
  unfold Quad.ofStr
  cases h : Quad.fromStr s with
  | none => simp
  | some r =>
    cases r with
    | ok u => simp
    | error k => simp [eq_comm]

example : Quad.fromStr "-1_0.25e1".toList = (Quad.fromStr "10.25e1".toList).map fun r => r.map fun v => -v := by
  decide +kernel

end Verif
