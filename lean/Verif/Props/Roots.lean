import Verif.Model.Func
import Verif.Model.QuadFunc
import Verif.Props.Special
import Verif.Props.QuadBasic

/-!
# C37, C38: domains and special values of `sqrt`, `nroot`, `cbrt`, for every platform library
-/

namespace Verif

open F64 Prim Util

theorem inf_eq_zero (s : Bool) : F64.eq (.inf s) F64.zero = false := by cases s <;> decide +kernel

theorem lt_zero_sign {x : F64} (h : F64.lt x F64.zero = true) : x.isSignNegative = true ∧ F64.eq x F64.zero = false := by
  cases x with
  | nan s => cases h
  | inf s =>
    refine ⟨?_, inf_eq_zero s⟩
    cases s with
    | true => rfl
    | false => exact absurd h (by decide +kernel)
  | fin s m hm =>
    unfold F64.lt F64.key F64.zero at h
    unfold F64.eq F64.key F64.zero
    cases s with
    | true =>
      refine ⟨rfl, ?_⟩
      simp at h ⊢
      omega
    | false => simp at h; omega

/-- Conversion of a NaN `f64`, for either number type. -/
theorem ofFloat_nan {α : Type} (P : Platform) (text : F64 → List Char) (parse : List Char → Option (Except ErrorKind α))
    (mk : F64 → α) (nan : α) (s : Bool) : ofFloat P text parse mk nan (.nan s) = some nan := by
  unfold ofFloat
  have h1 : F64.eq (.nan s) F64.zero = false := rfl
  rw [h1]; rfl

theorem div_nan_right (a : F64) (s : Bool) : ∃ t, F64.div a (.nan s) = .nan t := by
  cases a <;> exact ⟨_, rfl⟩

theorem isZero_nan {a : Double} (h : a.isNan = true) : a.isZero = false := by
  obtain ⟨s, e⟩ := nan_hi h
  unfold Double.isZero; rw [e]; rfl

theorem isInf_nan {a : Double} (h : a.isNan = true) : a.isInfinite = false := by
  obtain ⟨s, e⟩ := nan_hi h
  unfold Double.isInfinite; rw [e]; rfl

/-- **C37.** `sqrt` of positive or negative zero is that zero itself. -/
theorem C37_sqrt_zero (P : Platform) (a : Double) (h : a.isZero = true) : Double.sqrt P a = some a := by
  unfold Double.sqrt Double.preSqrt; rw [if_pos h]

example : Double.NEG_ZERO.isZero = true := by decide +kernel

/-- **C37.** `sqrt` of a negative number (minus infinity included) is NaN. -/
theorem C37_sqrt_neg (P : Platform) (a : Double) (h : F64.lt a.hi F64.zero = true) :
    ∃ r, Double.sqrt P a = some r ∧ r.isNan = true := by
  obtain ⟨hs, h0⟩ := lt_zero_sign h
  have h0 : a.isZero = false := h0
  have hs : a.isSignNegative = true := hs
  refine ⟨Double.NAN, ?_, rfl⟩
  unfold Double.sqrt Double.preSqrt; rw [if_neg (by rw [h0]; simp), if_pos hs]

example : F64.lt (-Double.PI).hi F64.zero = true := by decide +kernel

/-- **C37.** `sqrt` of infinity is infinity. -/
theorem C37_sqrt_inf (P : Platform) (a : Double) (h : a.hi = F64.INFINITY) : Double.sqrt P a = some Double.INFINITY := by
  unfold Double.sqrt Double.preSqrt Double.isZero Double.isSignNegative Double.isInfinite
  rw [h, if_neg (by rw [show F64.INFINITY = .inf false from rfl, inf_eq_zero]; simp)]; rfl

/-- **C37.** `sqrt` of NaN is NaN. -/
theorem C37_sqrt_nan (P : Platform) (a : Double) (h : a.isNan = true) : ∃ r, Double.sqrt P a = some r ∧ r.isNan = true := by
  obtain ⟨s, e⟩ := nan_hi h
  cases hs : a.isSignNegative with
  | true =>
    refine ⟨Double.NAN, ?_, rfl⟩
    unfold Double.sqrt Double.preSqrt
    rw [if_neg (by rw [isZero_nan h]; simp), if_pos hs]
  | false =>
    have e2 : F64.sqrt a.hi = .nan s := by rw [e]; rfl
    obtain ⟨t, e3⟩ := div_nan_right (ofDec false 1 0) s
    refine ⟨?_, ?_, ?_⟩
    rotate_left
    · unfold Double.sqrt Double.preSqrt
      rw [if_neg (by rw [isZero_nan h]; simp), if_neg (by rw [hs]; simp), if_neg (by rw [isInf_nan h]; simp), e2, e3]
      unfold Double.ofF64
      dsimp only
      rw [ofFloat_nan]; rfl
    · exact C11_add _ _ (Or.inl (C11_mul _ _ (Or.inl h)))

/-- **C37 (Quad).** `sqrt` of zero, negative numbers, infinity. The root of negative zero is positive zero: unlike Double,
Quad does not follow IEEE 754 there. -/
theorem C37_quad_sqrt (P : Platform) (a : Quad) :
    (a.isZero = true → Quad.sqrt P a = some Quad.ZERO) ∧
    (a.isZero = false → a.isSignNegative = true → Quad.sqrt P a = some Quad.NAN) ∧
    (a.c0 = F64.INFINITY → Quad.sqrt P a = some Quad.INFINITY) := by
  refine ⟨?_, ?_, ?_⟩
  · intro h; unfold Quad.sqrt Quad.preSqrt; rw [if_pos h]
  · intro h h2; unfold Quad.sqrt Quad.preSqrt; rw [if_neg (by rw [h]; simp), if_pos h2]
  · intro h
    unfold Quad.sqrt Quad.preSqrt Quad.isZero Quad.isSignNegative Quad.isInfinite
    rw [h, if_neg (by rw [show F64.INFINITY = .inf false from rfl, inf_eq_zero]; simp)]; rfl

/-- **C37 (Quad) refuted:** the root of minus zero is plus zero, not minus zero. -/
theorem C37_quad_refuted (P : Platform) : Quad.NEG_ZERO.c0.isSignNegative = true ∧
    Quad.sqrt P Quad.NEG_ZERO = some Quad.ZERO ∧ Quad.ZERO.c0.isSignNegative = false :=
  ⟨rfl, (C37_quad_sqrt P _).1 (by decide +kernel), rfl⟩

/-- **C37 (Quad).** `sqrt` of NaN is NaN. -/
theorem C37_quad_sqrt_nan (P : Platform) (a : Quad) (h : a.isNan = true) : ∃ r, Quad.sqrt P a = some r ∧ r.isNan = true := by
  have e : ∃ s, a.c0 = .nan s := by
    obtain ⟨c0, c1, c2, c3⟩ := a
    revert h; cases c0 <;> intro h <;> first | (cases h; done) | exact ⟨_, rfl⟩
  obtain ⟨s, e⟩ := e
  have h0 : a.isZero = false := by unfold Quad.isZero; rw [e]; rfl
  have hi : a.isInfinite = false := by unfold Quad.isInfinite; rw [e]; rfl
  cases hs : a.isSignNegative with
  | true => exact ⟨Quad.NAN, (C37_quad_sqrt P a).2.1 h0 hs, rfl⟩
  | false =>
    have e2 : F64.sqrt a.c0 = .nan s := by rw [e]; rfl
    refine ⟨?_, ?_, ?_⟩
    rotate_left
    · unfold Quad.sqrt Quad.preSqrt
      rw [if_neg (by rw [h0]; simp), if_neg (by rw [hs]; simp), if_neg (by rw [hi]; simp), e2]
      unfold Quad.ofF64
      dsimp only
      rw [ofFloat_nan]; rfl
    · exact C11_quad_mul _ _ (Or.inr h)

/-! ### C38: nroot -/

theorem tmod_two_eq_zero_iff (n : ℤ) : n.tmod 2 = 0 ↔ Even n := by
  rw [← Int.dvd_iff_tmod_eq_zero, even_iff_two_dvd]

/-- The IEEE 754 `rootn` result for a zero of sign `neg`. -/
def rootZero (neg : Bool) (n : ℤ) : F64 :=
  if Odd n ∧ neg = true then (if 0 < n then F64.negZero else F64.NEG_INFINITY) else (if 0 < n then F64.zero else F64.INFINITY)

/-- The IEEE 754 `rootn` result for an infinity of sign `neg`. -/
def rootInf (neg : Bool) (n : ℤ) : F64 :=
  if neg = false then (if 0 < n then F64.INFINITY else F64.zero)
  else if Odd n then (if 0 < n then F64.NEG_INFINITY else F64.negZero) else F64.NAN

/-- **C38.** The zeroth root is NaN, the first root is the number itself, the second root is `sqrt`, and `cbrt` is the
third root. -/
theorem C38_special_n (P : Platform) (a : Double) :
    Double.nroot P a 0 = some Double.NAN ∧ Double.nroot P a 1 = some a ∧
    (a.isZero = false → a.isInfinite = false → a.isSignNegative = false → Double.nroot P a 2 = Double.sqrt P a) ∧
    Double.cbrt P a = Double.nroot P a 3 := by
  refine ⟨rfl, rfl, ?_, rfl⟩
  intro h1 h2 h3
  unfold Double.nroot Double.preNroot
  rw [if_neg (by norm_num), if_neg (by norm_num), if_neg (by rw [h1]; simp), if_neg (by rw [h2]; simp), if_neg (by rw [h3]; simp),
    if_pos rfl]

/-- **C38.** Roots of zeros, signs included. -/
theorem C38_zero (P : Platform) (a : Double) (n : ℤ) (h0 : n ≠ 0) (h1 : n ≠ 1) (h : a.isZero = true) :
    Double.nroot P a n = some ⟨rootZero a.isSignNegative n, F64.zero⟩ := by
  unfold Double.nroot Double.preNroot rootZero
  rw [if_neg h0, if_neg h1, if_pos h]
  have hp : a.isSignPositive = !a.isSignNegative := rfl
  rw [hp]
  by_cases he : Even n
  · have ho : ¬ Odd n := Int.not_odd_iff_even.mpr he
    by_cases hn : 0 < n <;> simp [(tmod_two_eq_zero_iff n).mpr he, ho, hn] <;> rfl
  · have ho : Odd n := Int.not_even_iff_odd.mp he
    have ht := mt (tmod_two_eq_zero_iff n).mp he
    cases a.isSignNegative <;> by_cases hn : 0 < n <;> simp [ht, ho, hn] <;> rfl

/-- **C38.** Roots of infinities, signs included. -/
theorem C38_inf (P : Platform) (a : Double) (n : ℤ) (h0 : n ≠ 0) (h1 : n ≠ 1) (h : a.isInfinite = true) :
    Double.nroot P a n = some ⟨rootInf a.isSignNegative n, F64.zero⟩ := by
  have hz : a.isZero = false := by
    obtain ⟨hi, lo⟩ := a
    cases hi with
    | inf s => exact inf_eq_zero s
    | nan s => cases h
    | fin s m hm => cases h
  unfold Double.nroot Double.preNroot rootInf
  rw [if_neg h0, if_neg h1, if_neg (by rw [hz]; simp), if_pos h]
  have hp : a.isSignPositive = !a.isSignNegative := rfl
  rw [hp]
  by_cases he : Even n
  · have ho : ¬ Odd n := Int.not_odd_iff_even.mpr he
    cases a.isSignNegative <;> by_cases hn : 0 < n <;> simp [(tmod_two_eq_zero_iff n).mpr he, hn, ho] <;> rfl
  · have ho : Odd n := Int.not_even_iff_odd.mp he
    have ht := mt (tmod_two_eq_zero_iff n).mp he
    cases a.isSignNegative <;> by_cases hn : 0 < n <;> simp [ht, ho, hn] <;> rfl

/-- **C38.** Even roots of negative numbers are NaN. -/
theorem C38_even_neg (P : Platform) (a : Double) (n : ℤ) (hn : Even n) (h0 : a.isZero = false) (hs : a.isSignNegative = true) :
    ∃ r, Double.nroot P a n = some r ∧ r.isNan = true := by
  by_cases hz : n = 0
  · subst hz; exact ⟨_, rfl, rfl⟩
  have h1 : n ≠ 1 := by rintro rfl; revert hn; decide
  by_cases hi : a.isInfinite = true
  · refine ⟨_, C38_inf P a n hz h1 hi, ?_⟩
    have ho : ¬ Odd n := Int.not_odd_iff_even.mpr hn
    unfold rootInf; rw [hs]; simp [ho]; rfl
  · refine ⟨Double.NAN, ?_, rfl⟩
    unfold Double.nroot Double.preNroot
    rw [if_neg hz, if_neg h1, if_neg (by rw [h0]; simp), if_neg hi, if_pos (by simp [hs, (tmod_two_eq_zero_iff n).mpr hn])]

example : Even (-4 : ℤ) ∧ (-Double.PI).isZero = false ∧ (-Double.PI).isSignNegative = true := by decide +kernel

/-- **C38.** A root of NaN, when it returns, is NaN (for every exponent; zeroth root included). -/
theorem C38_nan (P : Platform) (a : Double) (n : ℤ) (h : a.isNan = true) (r : Double) (hr : Double.nroot P a n = some r) :
    r.isNan = true := by
  have hz := isZero_nan h
  have hi := isInf_nan h
  unfold Double.nroot Double.preNroot at hr
  by_cases n0 : n = 0
  · rw [if_pos n0] at hr; cases hr; rfl
  by_cases n1 : n = 1
  · rw [if_neg n0, if_pos n1] at hr; cases hr; exact h
  rw [if_neg n0, if_neg n1, if_neg (by rw [hz]; simp), if_neg (by rw [hi]; simp)] at hr
  by_cases c1 : (a.isSignNegative && decide (n.tmod 2 = 0)) = true
  · rw [if_pos c1] at hr; cases hr; rfl
  rw [if_neg c1] at hr
  by_cases c2 : n = 2
  · rw [if_pos c2] at hr
    obtain ⟨q, e, hq⟩ := C37_sqrt_nan P a h
    simp only at hr
    rw [e] at hr; cases hr; exact hq
  · rw [if_neg c2] at hr
    simp only at hr
    rw [Option.bind_eq_some_iff] at hr
    obtain ⟨x, -, hr⟩ := hr
    rw [Option.map_eq_some_iff] at hr
    obtain ⟨y, -, rfl⟩ := hr
    have ha : a.abs.isNan = true := by
      unfold Double.abs; split_ifs
      · change (F64.neg a.hi).isNan = true
        obtain ⟨s, e⟩ := nan_hi h; rw [e]; rfl
      · exact h
    have hx : (x + x * (Double.ONE - a.abs * y) / ⟨F64.ofInt n, F64.zero⟩).isNan = true :=
      C11_add _ _ (Or.inr (C11_div _ _ (Or.inl (C11_mul _ _ (Or.inr (C11_sub _ _ (Or.inr (C11_mul _ _ (Or.inl ha)))))))))
    apply C11_div
    right
    split_ifs
    · change (F64.neg _).isNan = true
      obtain ⟨s, e⟩ := nan_hi hx; rw [e]; rfl
    · exact hx

/-- **C38 (Quad).** The same table for Quads. -/
theorem C38_quad_special_n (P : Platform) (a : Quad) :
    Quad.nroot P a 0 = some Quad.NAN ∧ Quad.nroot P a 1 = some a ∧
    (a.isZero = false → a.isInfinite = false → a.isSignNegative = false → Quad.nroot P a 2 = Quad.sqrt P a) ∧
    Quad.cbrt P a = Quad.nroot P a 3 := by
  refine ⟨rfl, rfl, ?_, rfl⟩
  intro h1 h2 h3
  unfold Quad.nroot Quad.preNroot
  rw [if_neg (by norm_num), if_neg (by norm_num), if_neg (by rw [h1]; simp), if_neg (by rw [h2]; simp), if_neg (by rw [h3]; simp),
    if_pos rfl]

/-- **C38 (Quad).** Roots of zeros, signs included. -/
theorem C38_quad_zero (P : Platform) (a : Quad) (n : ℤ) (h0 : n ≠ 0) (h1 : n ≠ 1) (h : a.isZero = true) :
    Quad.nroot P a n = some ⟨rootZero a.isSignNegative n, F64.zero, F64.zero, F64.zero⟩ := by
  unfold Quad.nroot Quad.preNroot rootZero
  rw [if_neg h0, if_neg h1, if_pos h]
  have hp : a.isSignPositive = !a.isSignNegative := rfl
  rw [hp]
  by_cases he : Even n
  · have ho : ¬ Odd n := Int.not_odd_iff_even.mpr he
    by_cases hn : 0 < n <;> simp [(tmod_two_eq_zero_iff n).mpr he, ho, hn] <;> rfl
  · have ho : Odd n := Int.not_even_iff_odd.mp he
    have ht := mt (tmod_two_eq_zero_iff n).mp he
    cases a.isSignNegative <;> by_cases hn : 0 < n <;> simp [ht, ho, hn] <;> rfl

/-- **C38 (Quad).** Roots of infinities, signs included. -/
theorem C38_quad_inf (P : Platform) (a : Quad) (n : ℤ) (h0 : n ≠ 0) (h1 : n ≠ 1) (h : a.isInfinite = true) :
    Quad.nroot P a n = some ⟨rootInf a.isSignNegative n, F64.zero, F64.zero, F64.zero⟩ := by
  have hz : a.isZero = false := by
    obtain ⟨hi, _, _, _⟩ := a
    cases hi with
    | inf s => exact inf_eq_zero s
    | nan s => cases h
    | fin s m hm => cases h
  unfold Quad.nroot Quad.preNroot rootInf
  rw [if_neg h0, if_neg h1, if_neg (by rw [hz]; simp), if_pos h]
  have hp : a.isSignPositive = !a.isSignNegative := rfl
  rw [hp]
  by_cases he : Even n
  · have ho : ¬ Odd n := Int.not_odd_iff_even.mpr he
    cases a.isSignNegative <;> by_cases hn : 0 < n <;> simp [(tmod_two_eq_zero_iff n).mpr he, hn, ho] <;> rfl
  · have ho : Odd n := Int.not_even_iff_odd.mp he
    have ht := mt (tmod_two_eq_zero_iff n).mp he
    cases a.isSignNegative <;> by_cases hn : 0 < n <;> simp [ht, ho, hn] <;> rfl

/-- **C38 (Quad).** Even roots of negative numbers are NaN. -/
theorem C38_quad_even_neg (P : Platform) (a : Quad) (n : ℤ) (hn : Even n) (h0 : a.isZero = false) (hs : a.isSignNegative = true) :
    ∃ r, Quad.nroot P a n = some r ∧ r.isNan = true := by
  by_cases hz : n = 0
  · subst hz; exact ⟨_, rfl, rfl⟩
  have h1 : n ≠ 1 := by rintro rfl; revert hn; decide
  by_cases hi : a.isInfinite = true
  · refine ⟨_, C38_quad_inf P a n hz h1 hi, ?_⟩
    have ho : ¬ Odd n := Int.not_odd_iff_even.mpr hn
    unfold rootInf; rw [hs]; simp [ho]; rfl
  · refine ⟨Quad.NAN, ?_, rfl⟩
    unfold Quad.nroot Quad.preNroot
    rw [if_neg hz, if_neg h1, if_neg (by rw [h0]; simp), if_neg hi, if_pos (by simp [hs, (tmod_two_eq_zero_iff n).mpr hn])]

end Verif
