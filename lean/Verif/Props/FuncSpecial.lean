import Verif.Props.Roots
import Verif.Props.Order
import Verif.Proofs.QuadInts

/-!
# C42, C43, C46, C47: special values and domains of the elementary functions, and the bounds of their loops

Everything here holds for every platform library. `some r` means that the function returns `r`; `none` would be a panic.
-/

namespace Verif

open F64 Prim Util

theorem fs_inf_hi {a : Double} (h : a.isInfinite = true) : ∃ s, a.hi = .inf s := by
  obtain ⟨hi, lo⟩ := a
  cases hi with
  | inf s => exact ⟨s, rfl⟩
  | nan s => cases h
  | fin s m hm => cases h

theorem fs_inf_not_zero {a : Double} (h : a.isInfinite = true) : a.isZero = false := by
  obtain ⟨s, e⟩ := fs_inf_hi h
  unfold Double.isZero; rw [e]; exact inf_eq_zero s

theorem fs_inf_not_nan {a : Double} (h : a.isInfinite = true) : a.isNan = false := by
  obtain ⟨s, e⟩ := fs_inf_hi h
  unfold Double.isNan; rw [e]; rfl

theorem fs_isNan_zero {a : Double} (h : a.isZero = true) : a.isNan = false := by
  cases hn : a.isNan with
  | false => rfl
  | true => rw [isZero_nan hn] at h; cases h

theorem fs_isFinite_nan {a : Double} (h : a.isNan = true) : a.isFinite = false := not_finite_of_nan h

theorem fs_isFinite_inf {a : Double} (h : a.isInfinite = true) : a.isFinite = false := by
  obtain ⟨s, e⟩ := fs_inf_hi h
  unfold Double.isFinite; rw [e]; rfl

theorem fs_lt_nan {x c : F64} (h : x.isNan = true) : F64.lt x c = false ∧ F64.lt c x = false := by
  cases x with
  | nan s =>
    unfold F64.lt
    have e : F64.key (.nan s) = none := rfl
    rw [e]
    cases F64.key c <;> exact ⟨rfl, rfl⟩
  | inf s => cases h
  | fin s m hm => cases h

theorem fs_one_ok : Double.ONE.Normalized ∧ Double.ONE.val = 1 := by decide +kernel
theorem fs_neg_one_ok : Double.NEG_ONE.Normalized ∧ Double.NEG_ONE.val = -1 := by decide +kernel

/-! ### C42: exp -/

theorem f64_600 : (ofDec true 600 0).isFinite = true ∧ (ofDec true 600 0).toRat = -600 := by decide +kernel
theorem f64_708 : (ofDec false 708 0).isFinite = true ∧ (ofDec false 708 0).toRat = 708 := by decide +kernel

theorem fs_f64_lt_iff {x y : F64} (hx : x.isFinite = true) (hy : y.isFinite = true) :
    F64.lt x y = true ↔ x.toRat < y.toRat := by
  have ix := Is.of_finite hx
  have iy := Is.of_finite hy
  rw [ix.lt_iff iy, ix.toRat, iy.toRat, div_lt_div_iff_of_pos_right one'_posQ]
  exact_mod_cast Iff.rfl

/-- **C42.** `exp` is zero for every number below -600. -/
theorem C42_low (a : Double) (ha : a.hi.isFinite = true) (h : a.hi.toRat < -600) : Double.exp a = some Double.ZERO := by
  unfold Double.exp Double.preExp
  rw [if_pos ((fs_f64_lt_iff ha f64_600.1).mpr (by rw [f64_600.2]; exact h))]

/-- **C42.** `exp` is infinity for every number above 708. -/
theorem C42_high (a : Double) (ha : a.hi.isFinite = true) (h : 708 < a.hi.toRat) : Double.exp a = some Double.INFINITY := by
  unfold Double.exp Double.preExp
  rw [if_neg, if_pos]
  · exact (fs_f64_lt_iff f64_708.1 ha).mpr (by rw [f64_708.2]; exact h)
  · intro hc
    have := (fs_f64_lt_iff ha f64_600.1).mp hc
    rw [f64_600.2] at this
    linarith

/-- **C42.** `exp` of the infinities. -/
theorem C42_inf (a : Double) : (a.hi = F64.INFINITY → Double.exp a = some Double.INFINITY) ∧
    (a.hi = F64.NEG_INFINITY → Double.exp a = some Double.ZERO) := by
  have h1 : F64.lt F64.INFINITY (ofDec true 600 0) = false ∧ F64.gt F64.INFINITY (ofDec false 708 0) = true ∧
    F64.lt F64.NEG_INFINITY (ofDec true 600 0) = true := by decide +kernel
  constructor <;> intro h <;> unfold Double.exp Double.preExp <;> rw [h]
  · rw [if_neg (by rw [h1.1]; simp), if_pos h1.2.1]
  · rw [if_pos h1.2.2]

/-- **C42.** `exp` of NaN is NaN. -/
theorem C42_nan (a : Double) (h : a.isNan = true) : Double.exp a = some Double.NAN := by
  unfold Double.exp Double.preExp F64.gt
  rw [if_neg (by rw [(fs_lt_nan h).1]; simp), if_neg (by rw [(fs_lt_nan h).2]; simp), if_pos h]

/-- **C42.** `exp` of zero is one; `exp` of one is the constant `E`. -/
theorem C42_zero_one (a : Double) (ha : a.Normalized) :
    (a.val = 0 → a.hi.toRat = 0 → Double.exp a = some Double.ONE) ∧ (a.val = 1 → a.hi.toRat = 1 → Double.exp a = some Double.E) := by
  have hf := ha.1.1
  have low : ∀ v : ℚ, -600 ≤ v → a.hi.toRat = v → F64.lt a.hi (ofDec true 600 0) ≠ true := by
    intro v hv e hc
    have := (fs_f64_lt_iff hf f64_600.1).mp hc
    rw [f64_600.2, e] at this; linarith
  have high : ∀ v : ℚ, v ≤ 708 → a.hi.toRat = v → F64.gt a.hi (ofDec false 708 0) ≠ true := by
    intro v hv e hc
    have := (fs_f64_lt_iff f64_708.1 hf).mp hc
    rw [f64_708.2, e] at this; linarith
  have hn : a.isNan ≠ true := by
    intro hc; have := fs_isFinite_nan hc; unfold Double.isFinite at this; rw [hf] at this; cases this
  have iz : a.isZero = true ↔ a.hi.toRat = 0 := by
    unfold Double.isZero
    rw [(Is.of_finite hf).eq_iff is_zero, (Is.of_finite hf).toRat, div_eq_zero_iff]
    have := one'_ne
    simp [this]
  constructor
  · intro hv h0
    unfold Double.exp Double.preExp
    rw [if_neg (low 0 (by norm_num) h0), if_neg (high 0 (by norm_num) h0), if_neg hn, if_pos (iz.mpr h0)]
  · intro hv h1
    unfold Double.exp Double.preExp
    rw [if_neg (low 1 (by norm_num) h1), if_neg (high 1 (by norm_num) h1), if_neg hn,
      if_neg (by rw [iz, h1]; norm_num), if_pos ((C12_compare a _ ha fs_one_ok.1).2.2.2.2.mpr (by rw [hv, fs_one_ok.2]))]

example : Double.ONE.Normalized ∧ Double.ONE.val = 1 ∧ Double.ONE.hi.toRat = 1 := by decide +kernel

theorem inv_facts_len : Double.INV_FACTS.length = 15 := by decide +kernel

theorem inv_facts_get {i : ℕ} (h : i < 15) : ∃ c, Double.INV_FACTS[i]? = some c :=
  ⟨_, List.getElem?_eq_getElem (by rw [inv_facts_len]; exact h)⟩

/-- The Taylor loop of `exp` started at index `i ≤ 4` returns within `5 - i` rounds; more fuel changes nothing. -/
theorem expLoop_total (x eps : Double) : ∀ (d i fuel : ℕ) (r p t : Double), i + d = 5 → 1 ≤ d → d ≤ fuel →
    ∃ v, Double.expLoop x eps fuel r p t i = some v ∧ Double.expLoop x eps d r p t i = some v := by
  intro d
  induction d with
  | zero => intro i fuel r p t h h1; omega
  | succ d ih =>
    intro i fuel r p t h h1 hf
    obtain ⟨fuel, rfl⟩ : ∃ f, fuel = f + 1 := ⟨fuel - 1, by omega⟩
    obtain ⟨c, hc⟩ := inv_facts_get (i := i + 1) (by omega)
    simp only [Double.expLoop, hc]
    split_ifs with hs
    · exact ⟨_, rfl, rfl⟩
    · have hd : 1 ≤ d := by
        by_contra hd
        apply hs
        have : i + 1 ≥ 5 := by omega
        simp [this]
      exact ih (i + 1) fuel _ _ _ (by omega) hd (by omega)

/-- **C42.** `exp` always returns (no table index out of bounds), for every Double, normalized or not. -/
theorem C42_total (a : Double) : ∃ r, Double.exp a = some r := by
  unfold Double.exp
  cases Double.preExp a with
  | some r => exact ⟨r, rfl⟩
  | none =>
    obtain ⟨c, hc⟩ := inv_facts_get (i := 0) (by norm_num)
    simp only [hc]
    obtain ⟨v, hv, -⟩ := expLoop_total ((a - Double.LN_2 * ⟨Double.expM a, F64.zero⟩) * Double.INV_K)
      (Double.mulPwr2 Double.EPSILON Double.INV_K.hi) 5 0 Double.INV_FACTS.length
      ((a - Double.LN_2 * ⟨Double.expM a, F64.zero⟩) * Double.INV_K +
        Double.mulPwr2 ((a - Double.LN_2 * ⟨Double.expM a, F64.zero⟩) * Double.INV_K).sqr Double.half)
      (((a - Double.LN_2 * ⟨Double.expM a, F64.zero⟩) * Double.INV_K).sqr * ((a - Double.LN_2 * ⟨Double.expM a, F64.zero⟩) * Double.INV_K))
      (((a - Double.LN_2 * ⟨Double.expM a, F64.zero⟩) * Double.INV_K).sqr * ((a - Double.LN_2 * ⟨Double.expM a, F64.zero⟩) * Double.INV_K) * c)
      (by norm_num) (by norm_num) (by rw [inv_facts_len]; norm_num)
    rw [hv]
    exact ⟨_, rfl⟩

/-- **C42.** The Taylor loop of `exp` makes at most five rounds, whatever its operands. -/
theorem C42_loop (x eps r p t : Double) (fuel : ℕ) (h : 5 ≤ fuel) :
    Double.expLoop x eps fuel r p t 0 = Double.expLoop x eps 5 r p t 0 := by
  obtain ⟨v, h1, h2⟩ := expLoop_total x eps 5 0 fuel r p t (by norm_num) (by norm_num) h
  rw [h1, h2]

/-! ### C43: ln and logarithms -/

/-- **C43.** `ln` of NaN, of negative numbers (and of `-0`), of zero, of infinity and of one. -/
theorem C43_special (P : Platform) (a : Double) :
    (a.isNan = true → Double.ln P a = some Double.NAN) ∧
    (a.isSignNegative = true → Double.ln P a = some Double.NAN) ∧
    (a.hi = F64.zero → Double.ln P a = some Double.NEG_INFINITY) ∧
    (a.hi = F64.INFINITY → Double.ln P a = some Double.INFINITY) ∧
    (a.Normalized → a.val = 1 → a.hi.toRat = 1 → Double.ln P a = some Double.ZERO) := by
  refine ⟨?_, ?_, ?_, ?_, ?_⟩
  · intro h; unfold Double.ln Double.preLn; rw [if_pos h]
  · intro h; unfold Double.ln Double.preLn
    by_cases hn : a.isNan = true
    · rw [if_pos hn]
    · rw [if_neg hn, if_pos h]
  · intro h
    have hz : F64.eq F64.zero F64.zero = true := by decide +kernel
    unfold Double.ln Double.preLn Double.isNan Double.isSignNegative Double.isZero
    rw [h, if_neg (by decide), if_neg (by decide), if_pos hz]
  · intro h
    have hz : F64.eq F64.INFINITY F64.zero = false := inf_eq_zero false
    unfold Double.ln Double.preLn Double.isNan Double.isSignNegative Double.isZero Double.isInfinite
    rw [h, if_neg (by decide), if_neg (by decide), if_neg (by rw [hz]; simp), if_pos (by decide)]
  · intro ha hv h1
    have hf := ha.1.1
    have he := (C12_compare a _ ha fs_one_ok.1).2.2.2.2.mpr (by rw [hv, fs_one_ok.2])
    obtain ⟨s, m, hm, e, e2⟩ := (Is.of_finite hf).exists
    have hs : s = false := by
      cases s with
      | false => rfl
      | true =>
        exfalso
        rw [(Is.of_finite hf).toRat, div_eq_one_iff_eq one'_ne] at h1
        have h2 : a.hi.units = one' := by exact_mod_cast h1
        rw [e2] at h2
        have := one'_pos
        simp at h2
        omega
    have hz : a.isZero ≠ true := by
      unfold Double.isZero
      intro h0
      rw [(Is.of_finite hf).eq_iff is_zero] at h0
      rw [(Is.of_finite hf).toRat, h0] at h1
      simp at h1
    unfold Double.ln Double.preLn
    rw [if_neg, if_neg, if_neg hz, if_neg, if_pos he]
    · unfold Double.isInfinite; rw [e]; simp [F64.isInfinite]
    · unfold Double.isSignNegative; rw [e, hs]; simp [F64.isSignNegative]
    · unfold Double.isNan; rw [e]; simp [F64.isNan]

/-- The Newton loop of `ln` returns within 7 - i rounds; more fuel changes nothing. -/
theorem lnLoop_total (a eps : Double) : ∀ (d i fuel : ℕ) (x : Double), i + d = 7 → 1 ≤ d → d ≤ fuel →
    ∃ v, Double.lnLoop a eps fuel i x = some v ∧ Double.lnLoop a eps d i x = some v := by
  intro d
  induction d with
  | zero => intro i fuel x h h1; omega
  | succ d ih =>
    intro i fuel x h h1 hf
    obtain ⟨fuel, rfl⟩ : ∃ f, fuel = f + 1 := ⟨fuel - 1, by omega⟩
    obtain ⟨e, he⟩ := C42_total (-x)
    simp only [Double.lnLoop, he]
    split_ifs with hs
    · exact ⟨_, rfl, rfl⟩
    · have hd : 1 ≤ d := by
        by_contra hd
        apply hs
        have : i > 5 := by omega
        simp [this]
      exact ih (i + 1) fuel _ (by omega) hd (by omega)

/-- **C43.** The Newton loop of `ln` makes at most seven rounds, whatever its operands. -/
theorem C43_loop (a eps x : Double) (fuel : ℕ) (h : 7 ≤ fuel) :
    Double.lnLoop a eps fuel 0 x = Double.lnLoop a eps 7 0 x := by
  obtain ⟨v, h1, h2⟩ := lnLoop_total a eps 7 0 fuel x (by norm_num) (by norm_num) h
  rw [h1, h2]

/-- **C43.** `ln` always returns, provided the platform's `log2` of the absolute value of an `f64` is never `2^31 - 2` or more
(its true value is at most 1024). -/
theorem C43_total (P : Platform) (a : Double) (hP : F64.toI32 (F64.floor (P.log2 (P.ln a.hi).abs)) < 2 ^ 31 - 2) :
    ∃ r, Double.ln P a = some r := by
  unfold Double.ln
  cases Double.preLn a with
  | some r => exact ⟨r, rfl⟩
  | none =>
    have h2 : -2 ^ 31 ≤ F64.toI32 (F64.floor (P.log2 (P.ln a.hi).abs)) := by
      unfold F64.toI32 F64.toIntSat
      split
      · norm_num
      · split_ifs <;> norm_num
      · exact le_max_left _ _
    have h3 : i32? (F64.toI32 (F64.floor (P.log2 (P.ln a.hi).abs)) + 2) = some (F64.toI32 (F64.floor (P.log2 (P.ln a.hi).abs)) + 2) := by
      unfold i32?
      rw [if_pos ⟨by omega, by omega⟩]
    simp only [h3]
    obtain ⟨v, hv, -⟩ := lnLoop_total a (Double.mulPwr2 Double.EPSILON
      (F64.powi Double.two (F64.toI32 (F64.floor (P.log2 (P.ln a.hi).abs)) + 2))) 7 0 7 ⟨P.ln a.hi, F64.zero⟩
      (by norm_num) (by norm_num) (by norm_num)
    exact ⟨v, hv⟩

/-- **C43.** `log` of NaN and logarithms to a zero, negative or `-0` base are NaN. -/
theorem C43_log_special (P : Platform) (a b : Double) (h : a.isNan = true ∨ b.isSignNegative = true ∨ b.isZero = true) :
    Double.log P a b = some Double.NAN := by
  unfold Double.log Double.preLog
  by_cases h1 : a.isNan = true
  · rw [if_pos h1]
  · rw [if_neg h1, if_pos]
    rcases h with h | h | h
    · exact absurd h h1
    · simp [h]
    · simp [h]

/-- **C43.** `log10`, `log2` and `log` are quotients of natural logarithms. -/
theorem C43_log_quotients (P : Platform) (a b x y : Double) (hx : Double.ln P a = some x) (hy : Double.ln P b = some y) :
    Double.log10 P a = some (x / Double.LN_10) ∧ Double.log2 P a = some (x / Double.LN_2) ∧
    (a.isNan = false → b.isSignNegative = false → b.isZero = false → Double.log P a b = some (x / y)) := by
  refine ⟨?_, ?_, ?_⟩
  · unfold Double.log10; rw [hx]; rfl
  · unfold Double.log2; rw [hx]; rfl
  · intro h1 h2 h3
    unfold Double.log Double.preLog
    rw [if_neg (by rw [h1]; simp), if_neg (by rw [h2, h3]; simp), hx, hy]; rfl

example (P : Platform) : Double.ln P Double.ONE = some Double.ZERO := (C43_special P _).2.2.2.2 (by decide +kernel) (by decide +kernel) (by decide +kernel)

/-- **C43 refuted for minus zero:** `ln(-0)` is NaN where `f64` gives minus infinity. -/
theorem C43_refuted (P : Platform) : Double.NEG_ZERO.isZero = true ∧ Double.ln P Double.NEG_ZERO = some Double.NAN :=
  ⟨by decide +kernel, (C43_special P _).2.1 rfl⟩

/-! ### C46: atan2 -/

/-- **C46.** On the axes: a nonzero number over zero is a right angle with the sign of the number, zero over a positive
number is zero, zero over a negative number is pi, zero over zero is NaN. -/
theorem C46_axes (P : Platform) (y x : Double) :
    (x.isZero = true → y.isZero = false → y.isSignNegative = false → Double.atan2 P y x = some Double.FRAC_PI_2) ∧
    (x.isZero = true → y.isZero = false → y.isSignNegative = true → Double.atan2 P y x = some (-Double.FRAC_PI_2)) ∧
    (y.isZero = true → x.isZero = false → x.isSignNegative = false → Double.atan2 P y x = some Double.ZERO) ∧
    (y.isZero = true → x.isZero = false → x.isSignNegative = true → Double.atan2 P y x = some Double.PI) ∧
    (y.isZero = true → x.isZero = true → Double.atan2 P y x = some Double.NAN) := by
  have p : ∀ a : Double, a.isSignPositive = !a.isSignNegative := fun _ => rfl
  refine ⟨?_, ?_, ?_, ?_, ?_⟩ <;> intro h1 h2 <;> (try intro h3) <;> unfold Double.atan2 Double.preAtan2 <;> simp [p, *]

/-- **C46.** With infinities: an infinity over a finite number is a right angle with its sign, a finite nonzero number over
plus infinity is zero, an infinity over an infinity is NaN. -/
theorem C46_inf (P : Platform) (y x : Double) :
    (y.isInfinite = true → x.isInfinite = false → x.isZero = false → Double.atan2 P y x =
      some (if y.isSignNegative then -Double.FRAC_PI_2 else Double.FRAC_PI_2)) ∧
    (y.isInfinite = false → x.isInfinite = true → Double.atan2 P y x = some (if y.isZero && x.isSignNegative then Double.PI else Double.ZERO)) ∧
    (y.isInfinite = true → x.isInfinite = true → Double.atan2 P y x = some Double.NAN) := by
  have p : ∀ a : Double, a.isSignPositive = !a.isSignNegative := fun _ => rfl
  refine ⟨?_, ?_, ?_⟩
  · intro h1 h2 h3
    have h4 := fs_inf_not_zero h1
    unfold Double.atan2 Double.preAtan2
    cases hs : y.isSignNegative <;> simp [p, *]
  · intro h1 h2
    have h4 := fs_inf_not_zero h2
    unfold Double.atan2 Double.preAtan2
    cases hz : y.isZero <;> cases hs : x.isSignNegative <;> simp [p, *]
  · intro h1 h2
    have h4 := fs_inf_not_zero h2
    have h5 := fs_inf_not_zero h1
    unfold Double.atan2 Double.preAtan2
    simp [*]

/-- **C46.** On the diagonals. -/
theorem C46_diagonals (P : Platform) (y x : Double) (hx : x.Normalized) (hy : y.Normalized) (h0 : x.isZero = false)
    (h1 : y.isZero = false) :
    (y.val = x.val → Double.atan2 P y x = some (if y.isSignNegative then -Double.FRAC_3_PI_4 else Double.FRAC_PI_4)) ∧
    (y.val = -x.val → y.val ≠ x.val → Double.atan2 P y x = some (if y.isSignNegative then -Double.FRAC_PI_4 else Double.FRAC_3_PI_4)) := by
  have p : ∀ a : Double, a.isSignPositive = !a.isSignNegative := fun _ => rfl
  have fi : ∀ a : Double, a.Normalized → a.isNan = false ∧ a.isInfinite = false := by
    intro a ha
    have i := Is.of_finite ha.1.1
    exact ⟨i.not_nan, i.not_inf⟩
  obtain ⟨xn, xi⟩ := fi x hx
  obtain ⟨yn, yi⟩ := fi y hy
  have hnx : (-x).Normalized ∧ (-x).val = -x.val := by
    obtain ⟨h, l, i, n⟩ := hx.norm2
    have i2 : DIs (-x) (-h) (-l) := ⟨i.1.neg, i.2.neg⟩
    refine ⟨Norm2.normalized i2 n.neg, ?_⟩
    rw [i2.val, i.val]; push_cast; ring
  constructor
  · intro h
    have he := (C12_compare y x hy hx).2.2.2.2.mpr h
    unfold Double.atan2 Double.preAtan2
    cases hs : y.isSignNegative <;> simp [p, *]
  · intro h hne
    have he : Double.eq y x = false := by
      cases hh : Double.eq y x with
      | false => rfl
      | true => exact absurd ((C12_compare y x hy hx).2.2.2.2.mp hh) hne
    have he2 := (C12_compare y (-x) hy hnx.1).2.2.2.2.mpr (by rw [hnx.2, h])
    unfold Double.atan2 Double.preAtan2
    cases hs : y.isSignNegative <;> simp only [p, xn, yn, xi, yi, h0, h1, he, he2, hs] <;> rfl

/-- **C46.** With NaN operands and the other operand nonzero and not infinite, the result is NaN. -/
theorem C46_nan_partial (P : Platform) (y x : Double) (h : y.isNan = true ∨ x.isNan = true)
    (hx : x.isZero = false ∧ x.isInfinite = false) (hy : y.isZero = false ∧ y.isInfinite = false) :
    Double.atan2 P y x = some Double.NAN := by
  have h2 : (y.isNan || x.isNan) = true := by rcases h with h | h <;> simp [h]
  unfold Double.atan2 Double.preAtan2
  simp [h2, hx, hy]

/-- **C46 refuted:** a NaN operand can give a number (`atan2(NaN, 0) = π/2`, `atan2(0, NaN) = 0`, `atan2(∞, NaN) = π/2`),
and a point on the far negative axis has the angle `0` instead of `±π` (`atan2(1, -∞) = 0`). -/
theorem C46_refuted (P : Platform) :
    Double.atan2 P Double.NAN Double.ZERO = some Double.FRAC_PI_2 ∧ Double.atan2 P Double.ZERO Double.NAN = some Double.ZERO ∧
    Double.atan2 P Double.INFINITY Double.NAN = some Double.FRAC_PI_2 ∧
    Double.atan2 P Double.ONE Double.NEG_INFINITY = some Double.ZERO := by
  have z1 : Double.ZERO.isZero = true ∧ Double.NAN.isZero = false ∧ Double.INFINITY.isZero = false ∧ Double.ONE.isZero = false ∧
    Double.NEG_INFINITY.isZero = false ∧ Double.ONE.isInfinite = false ∧ Double.NAN.isSignPositive = true ∧
    Double.INFINITY.isInfinite = true ∧ Double.NAN.isInfinite = false ∧ Double.INFINITY.isSignPositive = true ∧
    Double.NEG_INFINITY.isInfinite = true := by decide +kernel
  refine ⟨?_, ?_, ?_, ?_⟩ <;> unfold Double.atan2 Double.preAtan2 <;> simp [z1]

/-! ### C47: inverse and hyperbolic functions -/

/-- **C47.** `asin` and `acos` are NaN outside `[-1, 1]`. -/
theorem C47_asin_acos_domain (P : Platform) (a : Double) (ha : a.Normalized) (h : 1 < |a.val|) :
    Double.asin P a = some Double.NAN ∧ Double.acos P a = some Double.NAN := by
  obtain ⟨n, v⟩ := C41_abs_val a ha
  have hg := (C12_compare a.abs _ n fs_one_ok.1).2.2.1.mpr (by rw [v, fs_one_ok.2]; exact h)
  unfold Double.asin Double.preAsin Double.acos Double.preAcos
  rw [if_pos hg, if_pos hg]
  exact ⟨rfl, rfl⟩

example : Double.PI.Normalized ∧ 1 < |Double.PI.val| := by decide +kernel

/-- **C47.** `asin(±1)` and `acos(±1)` are the constants. -/
theorem C47_asin_acos_one (P : Platform) :
    Double.asin P Double.ONE = some Double.FRAC_PI_2 ∧ Double.asin P Double.NEG_ONE = some (-Double.FRAC_PI_2) ∧
    Double.acos P Double.ONE = some Double.ZERO ∧ Double.acos P Double.NEG_ONE = some Double.PI := by
  have h : Double.gt Double.ONE.abs Double.ONE = false ∧ Double.gt Double.NEG_ONE.abs Double.ONE = false ∧
    Double.eq Double.ONE Double.ONE = true ∧ Double.eq Double.NEG_ONE Double.ONE = false ∧
    Double.eq Double.NEG_ONE Double.NEG_ONE = true := by decide +kernel
  unfold Double.asin Double.preAsin Double.acos Double.preAcos
  simp [h]

/-- **C47.** `acosh` is NaN below one, zero at one and infinity at infinity. -/
theorem C47_acosh (P : Platform) (a : Double) :
    (a.Normalized → a.val < 1 → Double.acosh P a = some Double.NAN) ∧
    (a.Normalized → a.val = 1 → Double.acosh P a = some Double.ZERO) ∧
    (a = Double.INFINITY → Double.acosh P a = some Double.INFINITY) := by
  refine ⟨?_, ?_, ?_⟩
  · intro ha h
    unfold Double.acosh Double.preAcosh
    rw [if_pos ((C12_compare a _ ha fs_one_ok.1).1.mpr (by rw [fs_one_ok.2]; exact h))]
  · intro ha h
    unfold Double.acosh Double.preAcosh
    rw [if_neg, if_pos ((C12_compare a _ ha fs_one_ok.1).2.2.2.2.mpr (by rw [fs_one_ok.2]; exact h))]
    rw [(C12_compare a _ ha fs_one_ok.1).1, fs_one_ok.2, h]; norm_num
  · rintro rfl
    have h : Double.lt Double.INFINITY Double.ONE = false ∧ Double.eq Double.INFINITY Double.ONE = false ∧
      Double.INFINITY.isInfinite = true := by decide +kernel
    unfold Double.acosh Double.preAcosh
    simp [h]

/-- **C47.** `atanh` is NaN outside the open interval `(-1, 1)`. -/
theorem C47_atanh (P : Platform) (a : Double) (ha : a.Normalized) (h : 1 ≤ |a.val|) : Double.atanh P a = some Double.NAN := by
  obtain ⟨n, v⟩ := C41_abs_val a ha
  have hg := (C12_compare a.abs _ n fs_one_ok.1).2.2.2.1.mpr (by rw [v, fs_one_ok.2]; exact h)
  unfold Double.atanh Double.preAtanh
  rw [if_pos hg]

/-- **C47.** Hyperbolic functions at zeros: `sinh` and `asinh` return the zero itself, `cosh` one, `tanh` zero. -/
theorem C47_hyper_zero (P : Platform) (a : Double) (h : a.isZero = true) :
    Double.sinh a = some a ∧ Double.cosh a = some Double.ONE ∧ Double.tanh P a = some Double.ZERO ∧
    Double.asinh P a = some a ∧ Double.sinhCosh P a = some (Double.ZERO, Double.ONE) := by
  have hn := fs_isNan_zero h
  unfold Double.sinh Double.preSinh Double.cosh Double.preCosh Double.tanh Double.preTanh Double.asinh Double.preAsinh
    Double.sinhCosh Double.preSinhCosh
  simp [h, hn]

/-- **C47.** Hyperbolic functions at infinities. -/
theorem C47_hyper_inf (P : Platform) (a : Double) (h : a.isInfinite = true) :
    Double.sinh a = some a ∧ Double.cosh a = some Double.INFINITY ∧ Double.tanh P a = some a.signum ∧
    Double.asinh P a = some (if a.isSignNegative then Double.NEG_INFINITY else Double.INFINITY) := by
  have hn := fs_inf_not_nan h
  have hz := fs_inf_not_zero h
  have p : a.isSignPositive = !a.isSignNegative := rfl
  unfold Double.sinh Double.preSinh Double.cosh Double.preCosh Double.tanh Double.preTanh Double.asinh Double.preAsinh
  cases hs : a.isSignNegative <;> simp [h, hn, hz, p, hs]

/-- **C47.** NaN gives NaN in all of them. -/
theorem C47_nan (P : Platform) (a : Double) (h : a.isNan = true) :
    Double.sinh a = some Double.NAN ∧ Double.cosh a = some Double.NAN ∧ Double.tanh P a = some Double.NAN ∧
    Double.sinhCosh P a = some (Double.NAN, Double.NAN) ∧
    (∃ r, Double.asinh P a = some r ∧ r.isNan = true) ∧ (∃ r, Double.acosh P a = some r ∧ r.isNan = true) ∧
    (∃ r, Double.atanh P a = some r ∧ r.isNan = true) ∧ (∃ r, Double.asin P a = some r ∧ r.isNan = true) ∧
    (∃ r, Double.acos P a = some r ∧ r.isNan = true) := by
  have hz := isZero_nan h
  have hi := isInf_nan h
  have habs : a.abs.isNan = true := by
    unfold Double.abs; split_ifs
    · change (F64.neg a.hi).isNan = true
      obtain ⟨s, e⟩ := nan_hi h; rw [e]; rfl
    · exact h
  have c1 := C13_nan a Double.ONE (Or.inl h)
  have c2 := C13_nan a Double.NEG_ONE (Or.inl h)
  have c3 := C13_nan a.abs Double.ONE (Or.inl habs)
  have hsq : a.sqr.isNan = true := by
    have : Double.preSqr a = none := by unfold Double.preSqr; rw [if_neg (by rw [hi]; simp)]
    unfold Double.sqr; rw [this]
    obtain ⟨s, e⟩ := nan_hi h
    simp only [twoSqr, renorm2, quickTwoSum, e]
    rfl
  have lnn : ∀ x : Double, x.isNan = true → Double.ln P x = some Double.NAN := fun x hx => (C43_special P x).1 hx
  have at2 : ∀ y x : Double, y.isNan = true → x.isNan = true → Double.atan2 P y x = some Double.NAN := by
    intro y x hy hx
    exact C46_nan_partial P y x (Or.inl hy) ⟨isZero_nan hx, isInf_nan hx⟩ ⟨isZero_nan hy, isInf_nan hy⟩
  refine ⟨?_, ?_, ?_, ?_, ?_, ?_, ?_, ?_, ?_⟩
  · unfold Double.sinh Double.preSinh; rw [if_pos h]
  · unfold Double.cosh Double.preCosh; rw [if_pos h]
  · unfold Double.tanh Double.preTanh; rw [if_pos h]
  · unfold Double.sinhCosh Double.preSinhCosh; rw [if_pos h]
  · obtain ⟨q, e, hq⟩ := C37_sqrt_nan P (a.sqr + Double.ONE) (C11_add _ _ (Or.inl hsq))
    unfold Double.asinh Double.preAsinh
    rw [if_neg (by rw [hz]; simp), if_neg (by rw [hi]; simp)]
    dsimp only
    rw [e]
    exact ⟨Double.NAN, lnn _ (C11_add _ _ (Or.inl h)), rfl⟩
  · obtain ⟨q, e, hq⟩ := C37_sqrt_nan P (a.sqr - Double.ONE) (C11_sub _ _ (Or.inl hsq))
    unfold Double.acosh Double.preAcosh
    rw [if_neg (by rw [c1.2.2.1]; simp), if_neg (by rw [c1.2.1]; simp), if_neg (by rw [hi]; simp)]
    dsimp only
    rw [e]
    exact ⟨Double.NAN, lnn _ (C11_add _ _ (Or.inl h)), rfl⟩
  · unfold Double.atanh Double.preAtanh
    rw [if_neg (by rw [c3.2.2.2.2.2]; simp)]
    dsimp only
    rw [lnn _ (C11_div _ _ (Or.inl (C11_add _ _ (Or.inr h))))]
    exact ⟨_, rfl, rfl⟩
  · obtain ⟨q, e, hq⟩ := C37_sqrt_nan P (Double.ONE - a.sqr) (C11_sub _ _ (Or.inr hsq))
    unfold Double.asin Double.preAsin
    rw [if_neg (by rw [c3.2.2.2.2.1]; simp), if_neg (by rw [c1.2.1]; simp), if_neg (by rw [c2.2.1]; simp)]
    dsimp only
    rw [e]
    exact ⟨Double.NAN, at2 _ _ h hq, rfl⟩
  · obtain ⟨q, e, hq⟩ := C37_sqrt_nan P (Double.ONE - a.sqr) (C11_sub _ _ (Or.inr hsq))
    unfold Double.acos Double.preAcos
    rw [if_neg (by rw [c3.2.2.2.2.1]; simp), if_neg (by rw [c1.2.1]; simp), if_neg (by rw [c2.2.1]; simp)]
    dsimp only
    rw [e]
    exact ⟨Double.NAN, at2 _ _ hq h, rfl⟩

/-- **C47 refuted for the sign of zero:** `tanh(-0)` is `+0` although `sinh(-0)` is `-0`. -/
theorem C47_refuted (P : Platform) : Double.sinh Double.NEG_ZERO = some Double.NEG_ZERO ∧
    Double.tanh P Double.NEG_ZERO = some Double.ZERO :=
  ⟨(C47_hyper_zero P _ (by decide +kernel)).1, (C47_hyper_zero P _ (by decide +kernel)).2.2.1⟩

/-! ### sin, cos, tan -/

/-- **C44.** `sin`, `cos`, `sin_cos` and `tan` of zero, NaN and infinities. -/
theorem C44_special (P : Platform) (a : Double) :
    (a.isZero = true → Double.sin P a = some a ∧ Double.cos P a = some Double.ONE ∧
      Double.sinCos P a = some (Double.ZERO, Double.ONE)) ∧
    (a.isFinite = false → Double.sin P a = some Double.NAN ∧ Double.cos P a = some Double.NAN ∧
      Double.sinCos P a = some (Double.NAN, Double.NAN) ∧ ∃ r, Double.tan P a = some r ∧ r.isNan = true) := by
  constructor
  · intro h
    unfold Double.sin Double.preSin Double.cos Double.preCos Double.sinCos Double.preSinCos
    simp [h]
  · intro h
    have hz : a.isZero = false := by
      unfold Double.isFinite at h
      unfold Double.isZero
      revert h; cases a.hi with
      | nan s => intro _; rfl
      | inf s => intro _; exact inf_eq_zero s
      | fin s m hm => intro h; cases h
    have e : Double.sinCos P a = some (Double.NAN, Double.NAN) := by
      unfold Double.sinCos Double.preSinCos; simp [h, hz]
    refine ⟨?_, ?_, e, ?_⟩
    · unfold Double.sin Double.preSin; simp [h, hz]
    · unfold Double.cos Double.preCos; simp [h, hz]
    · unfold Double.tan; rw [e]
      exact ⟨_, rfl, C11_div _ _ (Or.inl rfl)⟩

end Verif
