import Verif.Props.FuncSpecial
import Verif.Props.QuadCompare

/-!
# C42, C43, C44, C46, C47 for Quad: special values and domains of the elementary functions, and the bounds of their loops

Everything here holds for every platform library. `some r` means that the function returns `r`; `none` would be a panic.
-/

namespace Verif

open F64 Prim Util

theorem fsq_inf {a : Quad} (h : a.isInfinite = true) : ∃ s, a.c0 = .inf s := by
  obtain ⟨c0, _, _, _⟩ := a
  cases c0 with
  | inf s => exact ⟨s, rfl⟩
  | nan s => cases h
  | fin s m hm => cases h

theorem fsq_nan {a : Quad} (h : a.isNan = true) : ∃ s, a.c0 = .nan s := by
  obtain ⟨c0, _, _, _⟩ := a
  cases c0 with
  | nan s => exact ⟨s, rfl⟩
  | inf s => cases h
  | fin s m hm => cases h

theorem fsq_inf_not_zero {a : Quad} (h : a.isInfinite = true) : a.isZero = false := by
  obtain ⟨s, e⟩ := fsq_inf h
  unfold Quad.isZero; rw [e]; exact inf_eq_zero s

theorem fsq_inf_not_nan {a : Quad} (h : a.isInfinite = true) : a.isNan = false := by
  obtain ⟨s, e⟩ := fsq_inf h
  unfold Quad.isNan; rw [e]; rfl

theorem fsq_nan_not_zero {a : Quad} (h : a.isNan = true) : a.isZero = false := by
  obtain ⟨s, e⟩ := fsq_nan h
  unfold Quad.isZero; rw [e]; rfl

theorem fsq_nan_not_inf {a : Quad} (h : a.isNan = true) : a.isInfinite = false := by
  obtain ⟨s, e⟩ := fsq_nan h
  unfold Quad.isInfinite; rw [e]; rfl

theorem fsq_zero_not_nan {a : Quad} (h : a.isZero = true) : a.isNan = false := by
  cases hn : a.isNan with
  | false => rfl
  | true => rw [fsq_nan_not_zero hn] at h; cases h

theorem fsq_one : (ofDec false 1 0).isFinite = true ∧ (ofDec false 1 0).toRat = 1 := by decide +kernel
theorem fsq_neg_one : (ofDec true 1 0).isFinite = true ∧ (ofDec true 1 0).toRat = -1 := by decide +kernel

/-- The comparisons with the constants `ONE` and `NEG_ONE` are exact. -/
theorem fsq_cmp_one (a : Quad) (ha : a.Normalized) :
    (Quad.lt a Quad.ONE = true ↔ a.val < 1) ∧ (Quad.gt a Quad.ONE = true ↔ 1 < a.val) ∧
    (Quad.ge a Quad.ONE = true ↔ 1 ≤ a.val) ∧ (Quad.eq a Quad.ONE = true ↔ a.val = 1) := by
  have h := C53_single_ops a ha _ fsq_one.1
  rw [fsq_one.2] at h
  exact ⟨h.1, h.2.2.1, h.2.2.2.1, h.2.2.2.2.1⟩

theorem quad_neg_norm (a : Quad) (ha : a.Normalized) : (-a).Normalized ∧ (-a).val = -a.val := by
  have q := QIs.of_fin ha.1
  have n := q.normalized_iff.mp ha
  refine ⟨q.neg.normalized_iff.mpr n.neg, ?_⟩
  rw [q.neg.val, q.val]
  change ((-_ + -_ + -_ + -_ : ℤ) : ℚ) / _ = -(((_ + _ + _ + _ : ℤ) : ℚ) / _)
  push_cast; ring

/-- The first component of a normalized Quad and its value have the same sign. -/
theorem quad_sign_head (a : Quad) (ha : a.Normalized) : (0 < a.val ↔ 0 < a.c0.toRat) ∧ (a.val < 0 ↔ a.c0.toRat < 0) ∧
    (a.val = 0 ↔ a.c0.toRat = 0) := by
  have q := QIs.of_fin ha.1
  have n := q.normalized_iff.mp ha
  have i0 := Is.of_finite ha.1.1
  have p := one'_posQ
  have h0 : a.c0.units = 0 → sum4 (a.c0.units, a.c1.units, a.c2.units, a.c3.units) = 0 := by
    intro e
    have h1 := n.1.lo_le
    have h2 := n.2.1.lo_le
    have h3 := n.2.2.lo_le
    dsimp only at h1 h2 h3
    rw [e, abs_zero] at h1
    have b1 := abs_nonneg a.c1.units
    have b2 := abs_nonneg a.c2.units
    have b3 := abs_nonneg a.c3.units
    have c1 := abs_eq_zero.mp (show |a.c1.units| = 0 by omega)
    have c2 := abs_eq_zero.mp (show |a.c2.units| = 0 by omega)
    have c3 := abs_eq_zero.mp (show |a.c3.units| = 0 by omega)
    change a.c0.units + a.c1.units + a.c2.units + a.c3.units = 0
    omega
  have h1 : 0 < a.c0.units → 0 < sum4 (a.c0.units, a.c1.units, a.c2.units, a.c3.units) := norm4_above n Rep.zero
  have h2 : a.c0.units < 0 → sum4 (a.c0.units, a.c1.units, a.c2.units, a.c3.units) < 0 := norm4_below n Rep.zero
  rw [q.val, i0.toRat]
  generalize sum4 _ = s at *
  have d1 : ∀ k : ℤ, 0 < (k : ℚ) / one' ↔ 0 < k := fun k => by rw [div_pos_iff_of_pos_right p]; exact Int.cast_pos
  have d2 : ∀ k : ℤ, (k : ℚ) / one' < 0 ↔ k < 0 := fun k => by rw [div_lt_iff₀ p, zero_mul]; exact Int.cast_lt_zero
  have d3 : ∀ k : ℤ, (k : ℚ) / one' = 0 ↔ k = 0 := fun k => by rw [div_eq_zero_iff]; simp [p.ne']
  rw [d1, d1, d2, d2, d3, d3]
  rcases lt_trichotomy a.c0.units 0 with h | h | h
  · have := h2 h; omega
  · have := h0 h; omega
  · have := h1 h; omega

/-- **C41 (Quad).** `abs` of a normalized Quad is normalized and its value is the magnitude. -/
theorem C41_quad_abs_val (a : Quad) (ha : a.Normalized) : a.abs.Normalized ∧ a.abs.val = |a.val| := by
  have hs := quad_sign_head a ha
  have h0 := Is.of_finite ha.1.1
  obtain ⟨s, m, hm, e, e2⟩ := h0.exists
  have p := one'_posQ
  have t := h0.toRat
  unfold Quad.abs
  have sg : a.isSignNegative = s := by unfold Quad.isSignNegative; rw [e]; rfl
  rw [sg]
  cases s with
  | true =>
    obtain ⟨n, v⟩ := quad_neg_norm a ha
    refine ⟨n, ?_⟩
    change (-a).val = _
    have : a.val ≤ 0 := by
      by_contra hc
      have := hs.1.mp (by linarith)
      rw [t, div_pos_iff_of_pos_right p, e2] at this
      simp at this
      have : (0:ℚ) ≤ (m:ℚ) := by positivity
      linarith
    rw [v, abs_of_nonpos this]
  | false =>
    refine ⟨ha, ?_⟩
    change a.val = _
    have : 0 ≤ a.val := by
      by_contra hc
      have := hs.2.1.mp (by linarith)
      rw [t, div_lt_iff₀ p, zero_mul, e2] at this
      simp at this
      have : (0:ℚ) ≤ (m:ℚ) := by positivity
      linarith
    rw [abs_of_nonneg this]

example : Quad.NEG_ONE.Normalized ∧ Quad.NEG_ONE.val = -1 := by decide +kernel

/-! ### C42: exp -/

theorem f64_470 : (ofDec true 470 0).isFinite = true ∧ (ofDec true 470 0).toRat = -470 := by decide +kernel
theorem f64_709 : (ofDec false 709 0).isFinite = true ∧ (ofDec false 709 0).toRat = 709 := by decide +kernel

theorem fsq_f64_le_iff {x y : F64} (hx : x.isFinite = true) (hy : y.isFinite = true) :
    F64.le x y = true ↔ x.toRat ≤ y.toRat := by
  have ix := Is.of_finite hx
  have iy := Is.of_finite hy
  rw [ix.le_iff iy, ix.toRat, iy.toRat, div_le_div_iff_of_pos_right one'_posQ]
  exact_mod_cast Iff.rfl

theorem fsq_ge_709 {x : F64} (hx : x.isFinite = true) : F64.ge x (ofDec false 709 0) = true ↔ 709 ≤ x.toRat := by
  unfold F64.ge
  rw [fsq_f64_le_iff f64_709.1 hx, f64_709.2]

theorem fsq_lt_470 {x : F64} (hx : x.isFinite = true) : F64.lt x (ofDec true 470 0) = true ↔ x.toRat < -470 := by
  rw [fs_f64_lt_iff hx f64_470.1, f64_470.2]

/-- **C42 (Quad).** `exp` is zero for every Quad whose first component is below -470. -/
theorem C42_quad_low (a : Quad) (ha : a.c0.isFinite = true) (h : a.c0.toRat < -470) : Quad.exp a = some Quad.ZERO := by
  unfold Quad.exp Quad.preExp
  rw [if_pos ((fsq_lt_470 ha).mpr h)]

/-- **C42 (Quad).** `exp` is infinity for every Quad whose first component is 709 or more. -/
theorem C42_quad_high (a : Quad) (ha : a.c0.isFinite = true) (h : 709 ≤ a.c0.toRat) : Quad.exp a = some Quad.INFINITY := by
  unfold Quad.exp Quad.preExp
  rw [if_neg, if_pos ((fsq_ge_709 ha).mpr h)]
  rw [fsq_lt_470 ha]; linarith

/-- **C42 (Quad).** `exp` of the infinities. -/
theorem C42_quad_inf (a : Quad) : (a.c0 = F64.INFINITY → Quad.exp a = some Quad.INFINITY) ∧
    (a.c0 = F64.NEG_INFINITY → Quad.exp a = some Quad.ZERO) := by
  have h1 : F64.lt F64.INFINITY (ofDec true 470 0) = false ∧ F64.ge F64.INFINITY (ofDec false 709 0) = true ∧
    F64.lt F64.NEG_INFINITY (ofDec true 470 0) = true := by decide +kernel
  constructor <;> intro h <;> unfold Quad.exp Quad.preExp <;> rw [h]
  · rw [if_neg (by rw [h1.1]; simp), if_pos h1.2.1]
  · rw [if_pos h1.2.2]

theorem fsq_ge_nan {x c : F64} (h : x.isNan = true) : F64.ge x c = false ∧ F64.le x c = false ∧ F64.gt x c = false := by
  cases x with
  | nan s =>
    unfold F64.ge F64.gt F64.le F64.lt
    have e : F64.key (.nan s) = none := rfl
    rw [e]
    cases F64.key c <;> exact ⟨rfl, rfl, rfl⟩
  | inf s => cases h
  | fin s m hm => cases h

/-- **C42 (Quad).** `exp` of NaN is NaN. -/
theorem C42_quad_nan (a : Quad) (h : a.isNan = true) : Quad.exp a = some Quad.NAN := by
  unfold Quad.exp Quad.preExp
  rw [if_neg (by rw [(fs_lt_nan h).1]; simp), if_neg (by rw [(fsq_ge_nan h).1]; simp), if_pos h]

theorem fsq_isZero {a : Quad} (hf : a.c0.isFinite = true) : a.isZero = true ↔ a.c0.toRat = 0 := by
  unfold Quad.isZero
  rw [(Is.of_finite hf).eq_iff is_zero, (Is.of_finite hf).toRat, div_eq_zero_iff]
  have := one'_ne
  simp [this]

theorem fsq_fin {a : Quad} (hf : a.c0.isFinite = true) : a.isNan = false ∧ a.isInfinite = false :=
  ⟨(Is.of_finite hf).not_nan, (Is.of_finite hf).not_inf⟩

/-- A normalized Quad of value 1 has the first component 1. -/
theorem fsq_head_one {a : Quad} (ha : a.Normalized) (h : a.val = 1) : a.c0.toRat = 1 := by
  have := (fsq_cmp_one a ha).2.2.2.mpr h
  unfold Quad.eq at this
  simp only [Bool.and_eq_true] at this
  have e := this.1.1.1
  change F64.eq a.c0 (ofDec false 1 0) = true at e
  rw [(Is.of_finite ha.1.1).eq_iff (Is.of_finite fsq_one.1)] at e
  have h1 := fsq_one.2
  rw [(Is.of_finite fsq_one.1).toRat] at h1
  rw [(Is.of_finite ha.1.1).toRat, e, h1]

/-- **C42 (Quad).** `exp` of zero is one; `exp` of one is the constant `E`. -/
theorem C42_quad_zero_one (a : Quad) (ha : a.Normalized) :
    (a.val = 0 → Quad.exp a = some Quad.ONE) ∧ (a.val = 1 → Quad.exp a = some Quad.E) := by
  have hf := ha.1.1
  have hn := (fsq_fin hf).1
  constructor
  · intro hv
    have h0 := (quad_sign_head a ha).2.2.mp hv
    unfold Quad.exp Quad.preExp
    rw [if_neg (by rw [fsq_lt_470 hf, h0]; norm_num), if_neg (by rw [fsq_ge_709 hf, h0]; norm_num), if_neg (by rw [hn]; simp),
      if_pos ((fsq_isZero hf).mpr h0)]
  · intro hv
    have h1 := fsq_head_one ha hv
    unfold Quad.exp Quad.preExp
    rw [if_neg (by rw [fsq_lt_470 hf, h1]; norm_num), if_neg (by rw [fsq_ge_709 hf, h1]; norm_num), if_neg (by rw [hn]; simp),
      if_neg (by rw [fsq_isZero hf, h1]; norm_num), if_pos ((fsq_cmp_one a ha).2.2.2.mpr hv)]

example : Quad.ONE.Normalized ∧ Quad.ONE.val = 1 ∧ Quad.ZERO.Normalized ∧ Quad.ZERO.val = 0 := by decide +kernel

theorem quad_inv_facts_len : Quad.INV_FACTS.length = 15 := by decide +kernel

theorem quad_inv_facts_get {i : ℕ} (h : i < 15) : ∃ c, Quad.INV_FACTS[i]? = some c :=
  ⟨_, List.getElem?_eq_getElem (by rw [quad_inv_facts_len]; exact h)⟩

theorem quad_expLoop_total (x eps : Quad) : ∀ (d i fuel : ℕ) (r p t : Quad), i + d = 9 → 1 ≤ d → d ≤ fuel →
    ∃ v, Quad.expLoop x eps fuel r p t i = some v ∧ Quad.expLoop x eps d r p t i = some v := by
  intro d
  induction d with
  | zero => intro i fuel r p t h h1; omega
  | succ d ih =>
    intro i fuel r p t h h1 hf
    obtain ⟨fuel, rfl⟩ : ∃ f, fuel = f + 1 := ⟨fuel - 1, by omega⟩
    obtain ⟨c, hc⟩ := quad_inv_facts_get (i := i + 1) (by omega)
    simp only [Quad.expLoop, hc]
    split_ifs with hs
    · exact ⟨_, rfl, rfl⟩
    · have hd : 1 ≤ d := by
        by_contra hd
        apply hs
        have : i + 1 ≥ 9 := by omega
        simp [this]
      exact ih (i + 1) fuel _ _ _ (by omega) hd (by omega)

/-- **C42 (Quad).** The Taylor loop of `exp` makes at most nine rounds, whatever its operands. -/
theorem C42_quad_loop (x eps r p t : Quad) (fuel : ℕ) (h : 9 ≤ fuel) :
    Quad.expLoop x eps fuel r p t 0 = Quad.expLoop x eps 9 r p t 0 := by
  obtain ⟨v, h1, h2⟩ := quad_expLoop_total x eps 9 0 fuel r p t (by norm_num) (by norm_num) h
  rw [h1, h2]

/-- **C42 (Quad).** `exp` always returns (no table index out of bounds), for every Quad, normalized or not. -/
theorem C42_quad_total (a : Quad) : ∃ r, Quad.exp a = some r := by
  unfold Quad.exp
  cases Quad.preExp a with
  | some r => exact ⟨r, rfl⟩
  | none =>
    obtain ⟨c, hc⟩ := quad_inv_facts_get (i := 0) (by norm_num)
    simp only [hc]
    have key : ∀ x eps r p t, ∃ v, Quad.expLoop x eps Quad.INV_FACTS.length r p t 0 = some v := by
      intro x eps r p t
      obtain ⟨v, hv, -⟩ := quad_expLoop_total x eps 9 0 Quad.INV_FACTS.length r p t (by norm_num) (by norm_num)
        (by rw [quad_inv_facts_len]; norm_num)
      exact ⟨v, hv⟩
    obtain ⟨v, hv⟩ := key ((a - Quad.LN_2 * ⟨Quad.expM a, F64.zero, F64.zero, F64.zero⟩) * Quad.INV_K)
      (Quad.mulPwr2 Quad.EPSILON Quad.INV_K.c0)
      ((a - Quad.LN_2 * ⟨Quad.expM a, F64.zero, F64.zero, F64.zero⟩) * Quad.INV_K +
        Quad.mulPwr2 ((a - Quad.LN_2 * ⟨Quad.expM a, F64.zero, F64.zero, F64.zero⟩) * Quad.INV_K).sqr Double.half)
      (((a - Quad.LN_2 * ⟨Quad.expM a, F64.zero, F64.zero, F64.zero⟩) * Quad.INV_K).sqr *
        ((a - Quad.LN_2 * ⟨Quad.expM a, F64.zero, F64.zero, F64.zero⟩) * Quad.INV_K))
      (((a - Quad.LN_2 * ⟨Quad.expM a, F64.zero, F64.zero, F64.zero⟩) * Quad.INV_K).sqr *
        ((a - Quad.LN_2 * ⟨Quad.expM a, F64.zero, F64.zero, F64.zero⟩) * Quad.INV_K) * c)
    rw [hv]
    exact ⟨_, rfl⟩

/-! ### C43: ln and logarithms -/

/-- **C43 (Quad).** `ln` of NaN, of negative numbers (and of `-0`), of zero, of infinity and of one. -/
theorem C43_quad_special (P : Platform) (a : Quad) :
    (a.isNan = true → Quad.ln P a = some Quad.NAN) ∧
    (a.isSignNegative = true → Quad.ln P a = some Quad.NAN) ∧
    (a.c0 = F64.zero → Quad.ln P a = some Quad.NEG_INFINITY) ∧
    (a.c0 = F64.INFINITY → Quad.ln P a = some Quad.INFINITY) ∧
    (a.Normalized → a.val = 1 → Quad.ln P a = some Quad.ZERO) := by
  refine ⟨?_, ?_, ?_, ?_, ?_⟩
  · intro h; unfold Quad.ln Quad.preLn; rw [if_pos h]
  · intro h; unfold Quad.ln Quad.preLn
    by_cases hn : a.isNan = true
    · rw [if_pos hn]
    · rw [if_neg hn, if_pos h]
  · intro h
    have hz : F64.eq F64.zero F64.zero = true := by decide +kernel
    unfold Quad.ln Quad.preLn Quad.isNan Quad.isSignNegative Quad.isZero
    rw [h, if_neg (by decide), if_neg (by decide), if_pos hz]
  · intro h
    have hz : F64.eq F64.INFINITY F64.zero = false := inf_eq_zero false
    unfold Quad.ln Quad.preLn Quad.isNan Quad.isSignNegative Quad.isZero Quad.isInfinite
    rw [h, if_neg (by decide), if_neg (by decide), if_neg (by rw [hz]; simp), if_pos (by decide)]
  · intro ha hv
    have hf := ha.1.1
    have h1 := fsq_head_one ha hv
    have he := (fsq_cmp_one a ha).2.2.2.mpr hv
    obtain ⟨s, m, hm, e, e2⟩ := (Is.of_finite hf).exists
    have hs : s = false := by
      cases s with
      | false => rfl
      | true =>
        exfalso
        rw [(Is.of_finite hf).toRat, div_eq_one_iff_eq one'_ne] at h1
        have h2 : a.c0.units = one' := by exact_mod_cast h1
        rw [e2] at h2
        have := one'_pos
        simp at h2
        omega
    unfold Quad.ln Quad.preLn
    rw [if_neg (by rw [(fsq_fin hf).1]; simp), if_neg, if_neg (by rw [fsq_isZero hf, h1]; norm_num),
      if_neg (by rw [(fsq_fin hf).2]; simp), if_pos he]
    unfold Quad.isSignNegative; rw [e, hs]; simp [F64.isSignNegative]

theorem quad_lnLoop_total (a eps : Quad) : ∀ (d i fuel : ℕ) (x : Quad), i + d = 7 → 1 ≤ d → d ≤ fuel →
    ∃ v, Quad.lnLoop a eps fuel i x = some v ∧ Quad.lnLoop a eps d i x = some v := by
  intro d
  induction d with
  | zero => intro i fuel x h h1; omega
  | succ d ih =>
    intro i fuel x h h1 hf
    obtain ⟨fuel, rfl⟩ : ∃ f, fuel = f + 1 := ⟨fuel - 1, by omega⟩
    obtain ⟨e, he⟩ := C42_quad_total (-x)
    simp only [Quad.lnLoop, he]
    split_ifs with hs
    · exact ⟨_, rfl, rfl⟩
    · have hd : 1 ≤ d := by
        by_contra hd
        apply hs
        have : i > 5 := by omega
        simp [this]
      exact ih (i + 1) fuel _ (by omega) hd (by omega)

/-- **C43 (Quad).** The Newton loop of `ln` makes at most seven rounds, whatever its operands. -/
theorem C43_quad_loop (a eps x : Quad) (fuel : ℕ) (h : 7 ≤ fuel) :
    Quad.lnLoop a eps fuel 0 x = Quad.lnLoop a eps 7 0 x := by
  obtain ⟨v, h1, h2⟩ := quad_lnLoop_total a eps 7 0 fuel x (by norm_num) (by norm_num) h
  rw [h1, h2]

/-- **C43 (Quad).** `ln` always returns, provided the platform's `log2` of the absolute value of an `f64` is never `2^31 - 2`
or more (its true value is at most 1024). -/
theorem C43_quad_total (P : Platform) (a : Quad) (hP : F64.toI32 (F64.floor (P.log2 (P.ln a.c0).abs)) < 2 ^ 31 - 2) :
    ∃ r, Quad.ln P a = some r := by
  unfold Quad.ln
  cases Quad.preLn a with
  | some r => exact ⟨r, rfl⟩
  | none =>
    have h2 : -2 ^ 31 ≤ F64.toI32 (F64.floor (P.log2 (P.ln a.c0).abs)) := by
      unfold F64.toI32 F64.toIntSat
      split
      · norm_num
      · split_ifs <;> norm_num
      · exact le_max_left _ _
    have h3 : i32? (F64.toI32 (F64.floor (P.log2 (P.ln a.c0).abs)) + 2) = some (F64.toI32 (F64.floor (P.log2 (P.ln a.c0).abs)) + 2) := by
      unfold i32?
      rw [if_pos ⟨by omega, by omega⟩]
    simp only [h3]
    obtain ⟨v, hv, -⟩ := quad_lnLoop_total a (Quad.mulPwr2 Quad.EPSILON
      (F64.powi Double.two (F64.toI32 (F64.floor (P.log2 (P.ln a.c0).abs)) + 2))) 7 0 7 ⟨P.ln a.c0, F64.zero, F64.zero, F64.zero⟩
      (by norm_num) (by norm_num) (by norm_num)
    exact ⟨v, hv⟩

/-- **C43 (Quad).** `log` of NaN and logarithms to a zero, negative or `-0` base are NaN. -/
theorem C43_quad_log_special (P : Platform) (a b : Quad) (h : a.isNan = true ∨ b.isSignNegative = true ∨ b.isZero = true) :
    Quad.log P a b = some Quad.NAN := by
  unfold Quad.log Quad.preLog
  by_cases h1 : a.isNan = true
  · rw [if_pos h1]
  · rw [if_neg h1, if_pos]
    rcases h with h | h | h
    · exact absurd h h1
    · simp [h]
    · simp [h]

/-- **C43 (Quad).** `log10`, `log2` and `log` are quotients of natural logarithms. -/
theorem C43_quad_log_quotients (P : Platform) (a b x y : Quad) (hx : Quad.ln P a = some x) (hy : Quad.ln P b = some y) :
    Quad.log10 P a = some (x / Quad.LN_10) ∧ Quad.log2 P a = some (x / Quad.LN_2) ∧
    (a.isNan = false → b.isSignNegative = false → b.isZero = false → Quad.log P a b = some (x / y)) := by
  refine ⟨?_, ?_, ?_⟩
  · unfold Quad.log10; rw [hx]; rfl
  · unfold Quad.log2; rw [hx]; rfl
  · intro h1 h2 h3
    unfold Quad.log Quad.preLog
    rw [if_neg (by rw [h1]; simp), if_neg (by rw [h2, h3]; simp), hx, hy]; rfl

example (P : Platform) : Quad.ln P Quad.ONE = some Quad.ZERO := (C43_quad_special P _).2.2.2.2 (by decide +kernel) (by decide +kernel)

/-- **C43 (Quad) refuted for minus zero:** `ln(-0)` is NaN where `f64` gives minus infinity. -/
theorem C43_quad_refuted (P : Platform) : Quad.NEG_ZERO.isZero = true ∧ Quad.ln P Quad.NEG_ZERO = some Quad.NAN :=
  ⟨by decide +kernel, (C43_quad_special P _).2.1 rfl⟩

/-! ### C46: atan2 -/

/-- **C46 (Quad).** On the axes: a nonzero number over zero is a right angle with the sign of the number, zero over a positive
number is zero, zero over a negative number is pi, zero over zero is NaN. -/
theorem C46_quad_axes (P : Platform) (y x : Quad) :
    (x.isZero = true → y.isZero = false → y.isSignNegative = false → Quad.atan2 P y x = some Quad.FRAC_PI_2) ∧
    (x.isZero = true → y.isZero = false → y.isSignNegative = true → Quad.atan2 P y x = some (-Quad.FRAC_PI_2)) ∧
    (y.isZero = true → x.isZero = false → x.isSignNegative = false → Quad.atan2 P y x = some Quad.ZERO) ∧
    (y.isZero = true → x.isZero = false → x.isSignNegative = true → Quad.atan2 P y x = some Quad.PI) ∧
    (y.isZero = true → x.isZero = true → Quad.atan2 P y x = some Quad.NAN) := by
  have p : ∀ a : Quad, a.isSignPositive = !a.isSignNegative := fun _ => rfl
  refine ⟨?_, ?_, ?_, ?_, ?_⟩ <;> intro h1 h2 <;> (try intro h3) <;> unfold Quad.atan2 Quad.preAtan2 <;> simp [p, *]

/-- **C46 (Quad).** With infinities: an infinity over a finite number is a right angle with its sign, a finite nonzero number
over plus infinity is zero, an infinity over an infinity is NaN. -/
theorem C46_quad_inf (P : Platform) (y x : Quad) :
    (y.isInfinite = true → x.isInfinite = false → x.isZero = false → Quad.atan2 P y x =
      some (if y.isSignNegative then -Quad.FRAC_PI_2 else Quad.FRAC_PI_2)) ∧
    (y.isInfinite = false → x.isInfinite = true → Quad.atan2 P y x = some (if y.isZero && x.isSignNegative then Quad.PI else Quad.ZERO)) ∧
    (y.isInfinite = true → x.isInfinite = true → Quad.atan2 P y x = some Quad.NAN) := by
  have p : ∀ a : Quad, a.isSignPositive = !a.isSignNegative := fun _ => rfl
  refine ⟨?_, ?_, ?_⟩
  · intro h1 h2 h3
    have h4 := fsq_inf_not_zero h1
    unfold Quad.atan2 Quad.preAtan2
    cases hs : y.isSignNegative <;> simp [p, *]
  · intro h1 h2
    have h4 := fsq_inf_not_zero h2
    unfold Quad.atan2 Quad.preAtan2
    cases hz : y.isZero <;> cases hs : x.isSignNegative <;> simp [p, *]
  · intro h1 h2
    have h4 := fsq_inf_not_zero h2
    have h5 := fsq_inf_not_zero h1
    unfold Quad.atan2 Quad.preAtan2
    simp [*]

/-- **C46 (Quad).** On the diagonals, for two Quads with the same (opposite) components: `==` compares components. -/
theorem C46_quad_diagonals (P : Platform) (y x : Quad) (hx : x.c0.isFinite = true) (hy : y.c0.isFinite = true) (h0 : x.isZero = false)
    (h1 : y.isZero = false) :
    (Quad.eq y x = true → Quad.atan2 P y x = some (if y.isSignNegative then -Quad.FRAC_3_PI_4 else Quad.FRAC_PI_4)) ∧
    (Quad.eq y (-x) = true → Quad.eq y x = false →
      Quad.atan2 P y x = some (if y.isSignNegative then -Quad.FRAC_PI_4 else Quad.FRAC_3_PI_4)) := by
  have p : ∀ a : Quad, a.isSignPositive = !a.isSignNegative := fun _ => rfl
  obtain ⟨xn, xi⟩ := fsq_fin hx
  obtain ⟨yn, yi⟩ := fsq_fin hy
  constructor
  · intro he
    unfold Quad.atan2 Quad.preAtan2
    cases hs : y.isSignNegative <;> simp [p, *]
  · intro he2 he
    unfold Quad.atan2 Quad.preAtan2
    cases hs : y.isSignNegative <;> simp only [p, xn, yn, xi, yi, h0, h1, he, he2, hs] <;> rfl

example : Quad.PI.c0.isFinite = true ∧ Quad.PI.isZero = false ∧ Quad.eq Quad.PI Quad.PI = true ∧
    Quad.eq Quad.PI (- -Quad.PI) = true ∧ Quad.eq Quad.PI (-Quad.PI) = false := by decide +kernel

/-- **C46 (Quad).** With NaN operands and the other operand nonzero and not infinite, the result is NaN. -/
theorem C46_quad_nan_partial (P : Platform) (y x : Quad) (h : y.isNan = true ∨ x.isNan = true)
    (hx : x.isZero = false ∧ x.isInfinite = false) (hy : y.isZero = false ∧ y.isInfinite = false) :
    Quad.atan2 P y x = some Quad.NAN := by
  have h2 : (y.isNan || x.isNan) = true := by rcases h with h | h <;> simp [h]
  unfold Quad.atan2 Quad.preAtan2
  simp [h2, hx, hy]

/-- **C46 (Quad) refuted:** a NaN operand can give a number (`atan2(NaN, 0) = π/2`, `atan2(0, NaN) = 0`,
`atan2(∞, NaN) = π/2`), and a point on the far negative axis has the angle `0` instead of `±π` (`atan2(1, -∞) = 0`). -/
theorem C46_quad_refuted (P : Platform) :
    Quad.atan2 P Quad.NAN Quad.ZERO = some Quad.FRAC_PI_2 ∧ Quad.atan2 P Quad.ZERO Quad.NAN = some Quad.ZERO ∧
    Quad.atan2 P Quad.INFINITY Quad.NAN = some Quad.FRAC_PI_2 ∧
    Quad.atan2 P Quad.ONE Quad.NEG_INFINITY = some Quad.ZERO := by
  have z1 : Quad.ZERO.isZero = true ∧ Quad.NAN.isZero = false ∧ Quad.INFINITY.isZero = false ∧ Quad.ONE.isZero = false ∧
    Quad.NEG_INFINITY.isZero = false ∧ Quad.ONE.isInfinite = false ∧ Quad.NAN.isSignPositive = true ∧
    Quad.INFINITY.isInfinite = true ∧ Quad.NAN.isInfinite = false ∧ Quad.INFINITY.isSignPositive = true ∧
    Quad.NEG_INFINITY.isInfinite = true := by decide +kernel
  refine ⟨?_, ?_, ?_, ?_⟩ <;> unfold Quad.atan2 Quad.preAtan2 <;> simp [z1]

/-! ### C47: inverse and hyperbolic functions -/

/-- **C47 (Quad).** `asin` and `acos` are NaN outside `[-1, 1]`. -/
theorem C47_quad_asin_acos_domain (P : Platform) (a : Quad) (ha : a.Normalized) (h : 1 < |a.val|) :
    Quad.asin P a = some Quad.NAN ∧ Quad.acos P a = some Quad.NAN := by
  obtain ⟨n, v⟩ := C41_quad_abs_val a ha
  have hg := (fsq_cmp_one a.abs n).2.1.mpr (by rw [v]; exact h)
  unfold Quad.asin Quad.preAsin Quad.acos Quad.preAcos
  rw [if_pos hg, if_pos hg]
  exact ⟨rfl, rfl⟩

example : Quad.PI.Normalized ∧ 1 < |Quad.PI.val| := by decide +kernel

/-- **C47 (Quad).** `asin(±1)` and `acos(±1)` are the constants. -/
theorem C47_quad_asin_acos_one (P : Platform) :
    Quad.asin P Quad.ONE = some Quad.FRAC_PI_2 ∧ Quad.asin P Quad.NEG_ONE = some (-Quad.FRAC_PI_2) ∧
    Quad.acos P Quad.ONE = some Quad.ZERO ∧ Quad.acos P Quad.NEG_ONE = some Quad.PI := by
  have h : Quad.gt Quad.ONE.abs Quad.ONE = false ∧ Quad.gt Quad.NEG_ONE.abs Quad.ONE = false ∧
    Quad.eq Quad.ONE Quad.ONE = true ∧ Quad.eq Quad.NEG_ONE Quad.ONE = false ∧
    Quad.eq Quad.NEG_ONE Quad.NEG_ONE = true := by decide +kernel
  unfold Quad.asin Quad.preAsin Quad.acos Quad.preAcos
  simp [h]

/-- **C47 (Quad).** `acosh` is NaN below one, zero at one (computed, not a special case) and infinity at infinity. -/
theorem C47_quad_acosh (P : Platform) (a : Quad) :
    (a.Normalized → a.val < 1 → Quad.acosh P a = some Quad.NAN) ∧
    (a = Quad.INFINITY → Quad.acosh P a = some Quad.INFINITY) ∧
    Quad.acosh P Quad.ONE = some Quad.ZERO := by
  refine ⟨?_, ?_, ?_⟩
  · intro ha h
    unfold Quad.acosh Quad.preAcosh
    rw [if_pos ((fsq_cmp_one a ha).1.mpr h)]
  · rintro rfl
    have h : Quad.lt Quad.INFINITY Quad.ONE = false ∧ Quad.INFINITY.isInfinite = true := by decide +kernel
    unfold Quad.acosh Quad.preAcosh
    simp [h]
  · have h : Quad.lt Quad.ONE Quad.ONE = false ∧ Quad.ONE.isInfinite = false ∧ (Quad.ONE.sqr - Quad.ONE).isZero = true ∧
      (Quad.ONE + Quad.ZERO).Normalized ∧ (Quad.ONE + Quad.ZERO).val = 1 := by decide +kernel
    unfold Quad.acosh Quad.preAcosh
    rw [if_neg (by rw [h.1]; simp), if_neg (by rw [h.2.1]; simp)]
    dsimp only
    rw [(C37_quad_sqrt P _).1 h.2.2.1]
    exact (C43_quad_special P _).2.2.2.2 h.2.2.2.1 h.2.2.2.2

/-- **C47 (Quad).** `atanh` is NaN outside the open interval `(-1, 1)`. -/
theorem C47_quad_atanh (P : Platform) (a : Quad) (ha : a.Normalized) (h : 1 ≤ |a.val|) : Quad.atanh P a = some Quad.NAN := by
  obtain ⟨n, v⟩ := C41_quad_abs_val a ha
  have hg := (fsq_cmp_one a.abs n).2.2.1.mpr (by rw [v]; exact h)
  unfold Quad.atanh Quad.preAtanh
  rw [if_pos hg]

/-- **C47 (Quad).** Hyperbolic functions at zeros: `sinh` and `tanh` are zero, `cosh` one. -/
theorem C47_quad_hyper_zero (P : Platform) (n : ℕ) (a : Quad) (h : a.isZero = true) :
    Quad.sinh P n a = some Quad.ZERO ∧ Quad.cosh a = some Quad.ONE ∧ Quad.tanh P n a = some Quad.ZERO ∧
    Quad.sinhCosh P n a = some (Quad.ZERO, Quad.ONE) := by
  have hn := fsq_zero_not_nan h
  unfold Quad.sinh Quad.preSinh Quad.cosh Quad.preCosh Quad.tanh Quad.preTanh Quad.sinhCosh Quad.preSinhCosh
  simp [h, hn]

/-- **C47 (Quad).** Hyperbolic functions at infinities. `sinh`, `cosh` and `sinh_cosh` have no special case for them:
`exp` and the arithmetic give the right infinities. -/
theorem C47_quad_hyper_inf (P : Platform) (n : ℕ) (a : Quad) (h : a.isInfinite = true) :
    Quad.sinh P n a = some (if a.isSignNegative then Quad.NEG_INFINITY else Quad.INFINITY) ∧
    Quad.cosh a = some Quad.INFINITY ∧ Quad.tanh P n a = some a.signum ∧
    Quad.sinhCosh P n a = some (if a.isSignNegative then Quad.NEG_INFINITY else Quad.INFINITY, Quad.INFINITY) ∧
    Quad.asinh P a = some (if a.isSignNegative then Quad.NEG_INFINITY else Quad.INFINITY) := by
  have hn := fsq_inf_not_nan h
  have hz := fsq_inf_not_zero h
  have p : a.isSignPositive = !a.isSignNegative := rfl
  obtain ⟨s, e⟩ := fsq_inf h
  have hs : a.isSignNegative = s := by unfold Quad.isSignNegative; rw [e]; rfl
  have habs : a.abs.c0 = F64.INFINITY := by
    unfold Quad.abs
    rw [hs]
    cases s with
    | true => change F64.neg a.c0 = _; rw [e]; rfl
    | false => exact e
  have hc : F64.gt F64.INFINITY Double.f005 = true ∧ F64.le F64.INFINITY Double.f005 = false := by decide +kernel
  have e1 : Quad.mulPwr2 (Quad.INFINITY - Quad.INFINITY.recip) Double.half = Quad.INFINITY ∧
    Quad.mulPwr2 (Quad.INFINITY + Quad.INFINITY.recip) Double.half = Quad.INFINITY ∧
    Quad.mulPwr2 (Quad.ZERO - Quad.ZERO.recip) Double.half = Quad.NEG_INFINITY ∧
    Quad.mulPwr2 (Quad.ZERO + Quad.ZERO.recip) Double.half = Quad.INFINITY := by decide +kernel
  have he : Quad.exp a = some (if s then Quad.ZERO else Quad.INFINITY) := by
    cases s with
    | true => exact (C42_quad_inf a).2 e
    | false => exact (C42_quad_inf a).1 e
  unfold Quad.sinh Quad.preSinh Quad.cosh Quad.preCosh Quad.tanh Quad.preTanh Quad.sinhCosh Quad.preSinhCosh Quad.asinh Quad.preAsinh
  rw [hn, hz, h, habs, hc.1, hc.2, he, hs, p, hs]
  cases s <;> simp [e1]

theorem nan_add (s : Bool) (x : F64) : ∃ t, F64.add (.nan s) x = .nan t := ⟨_, rfl⟩

theorem renorm5_nan (s : Bool) (b c d e : F64) : ∃ t, (renorm5 (.nan s) b c d e).1 = .nan t := by
  have q : ∀ (s : Bool) (x : F64), ∃ t u, quickTwoSum (.nan s) x = (.nan t, u) := by
    intro s x
    obtain ⟨t, ht⟩ := nan_add s x
    exact ⟨t, _, by unfold quickTwoSum; rw [ht]⟩
  have nz : ∀ s, ne (.nan s) F64.zero = true := by intro s; rfl
  unfold renorm5
  dsimp only
  generalize (quickTwoSum b (quickTwoSum c (quickTwoSum d e).1).1).1 = x
  generalize (quickTwoSum b (quickTwoSum c (quickTwoSum d e).1).1).2 = y
  generalize (quickTwoSum c (quickTwoSum d e).1).2 = z
  generalize (quickTwoSum d e).2 = w
  obtain ⟨t, u, h⟩ := q s x
  rw [h]
  dsimp only
  obtain ⟨t2, u2, h2⟩ := q t y
  rw [h2]
  dsimp only
  obtain ⟨t3, u3, h3⟩ := q t2 z
  obtain ⟨t4, u4, h4⟩ := q t2 w
  obtain ⟨t5, u5, h5⟩ := q t3 w
  rw [h3]
  dsimp only
  split_ifs <;> first | exact ⟨_, rfl⟩ | (rw [h4]; exact ⟨_, rfl⟩) | (rw [h5]; exact ⟨_, rfl⟩)

/-- **C11 (Quad).** The square of NaN is NaN. -/
theorem C11_quad_sqr (a : Quad) (h : a.isNan = true) : a.sqr.isNan = true := by
  have hi := fsq_nan_not_inf h
  obtain ⟨s, e⟩ := fsq_nan h
  unfold Quad.sqr Quad.preSqr
  rw [if_neg (by rw [hi]; simp)]
  dsimp only
  rw [e]
  have : ∃ t, (twoSqr (.nan s)).1 = .nan t := ⟨_, rfl⟩
  obtain ⟨t, ht⟩ := this
  rw [ht]
  unfold Quad.isNan
  dsimp only
  obtain ⟨v, hv⟩ := renorm5_nan t _ _ _ _
  rw [hv]; rfl

/-- **C47 (Quad).** NaN gives NaN in all of them. -/
theorem C47_quad_nan (P : Platform) (n : ℕ) (a : Quad) (h : a.isNan = true) :
    Quad.sinh P n a = some Quad.NAN ∧ Quad.cosh a = some Quad.NAN ∧ Quad.tanh P n a = some Quad.NAN ∧
    Quad.sinhCosh P n a = some (Quad.NAN, Quad.NAN) ∧
    (∃ r, Quad.asinh P a = some r ∧ r.isNan = true) ∧ (∃ r, Quad.acosh P a = some r ∧ r.isNan = true) ∧
    (∃ r, Quad.atanh P a = some r ∧ r.isNan = true) ∧ (∃ r, Quad.asin P a = some r ∧ r.isNan = true) ∧
    (∃ r, Quad.acos P a = some r ∧ r.isNan = true) := by
  have hi := fsq_nan_not_inf h
  have habs : a.abs.isNan = true := by
    unfold Quad.abs; split_ifs
    · rw [quad_neg_isNan]; exact h
    · exact h
  have c1 := C13_quad_nan a Quad.ONE (Or.inl h)
  have c2 := C13_quad_nan a Quad.NEG_ONE (Or.inl h)
  have c3 := C13_quad_nan a.abs Quad.ONE (Or.inl habs)
  have hsq := C11_quad_sqr a h
  have lnn : ∀ x : Quad, x.isNan = true → Quad.ln P x = some Quad.NAN := fun x hx => (C43_quad_special P x).1 hx
  have at2 : ∀ y x : Quad, y.isNan = true → x.isNan = true → Quad.atan2 P y x = some Quad.NAN := by
    intro y x hy hx
    exact C46_quad_nan_partial P y x (Or.inl hy) ⟨fsq_nan_not_zero hx, fsq_nan_not_inf hx⟩
      ⟨fsq_nan_not_zero hy, fsq_nan_not_inf hy⟩
  refine ⟨?_, ?_, ?_, ?_, ?_, ?_, ?_, ?_, ?_⟩
  · unfold Quad.sinh Quad.preSinh; rw [if_pos h]
  · unfold Quad.cosh Quad.preCosh; rw [if_pos h]
  · unfold Quad.tanh Quad.preTanh; rw [if_pos h]
  · unfold Quad.sinhCosh Quad.preSinhCosh; rw [if_pos h]
  · obtain ⟨q, e, hq⟩ := C37_quad_sqrt_nan P (a.sqr + Quad.ONE) (C11_quad_add _ _ (Or.inl hsq))
    unfold Quad.asinh Quad.preAsinh
    rw [if_neg (by rw [hi]; simp)]
    dsimp only
    rw [e]
    exact ⟨Quad.NAN, lnn _ (C11_quad_add _ _ (Or.inl h)), rfl⟩
  · obtain ⟨q, e, hq⟩ := C37_quad_sqrt_nan P (a.sqr - Quad.ONE) (C11_quad_sub _ _ (Or.inl hsq))
    unfold Quad.acosh Quad.preAcosh
    rw [if_neg (by rw [c1.2.2.1]; simp), if_neg (by rw [hi]; simp)]
    dsimp only
    rw [e]
    exact ⟨Quad.NAN, lnn _ (C11_quad_add _ _ (Or.inl h)), rfl⟩
  · unfold Quad.atanh Quad.preAtanh
    rw [if_neg (by rw [c3.2.2.2.2.2]; simp)]
    dsimp only
    rw [lnn _ (C11_quad_div _ _ (Or.inl (C11_quad_add _ _ (Or.inr h))))]
    exact ⟨_, rfl, by decide +kernel⟩
  · obtain ⟨q, e, hq⟩ := C37_quad_sqrt_nan P (Quad.ONE - a.sqr) (C11_quad_sub _ _ (Or.inr hsq))
    unfold Quad.asin Quad.preAsin
    rw [if_neg (by rw [c3.2.2.2.2.1]; simp), if_neg (by rw [c1.2.1]; simp), if_neg (by rw [c2.2.1]; simp)]
    dsimp only
    rw [e]
    exact ⟨Quad.NAN, at2 _ _ h hq, rfl⟩
  · obtain ⟨q, e, hq⟩ := C37_quad_sqrt_nan P (Quad.ONE - a.sqr) (C11_quad_sub _ _ (Or.inr hsq))
    unfold Quad.acos Quad.preAcos
    rw [if_neg (by rw [c3.2.2.2.2.1]; simp), if_neg (by rw [c1.2.1]; simp), if_neg (by rw [c2.2.1]; simp)]
    dsimp only
    rw [e]
    exact ⟨Quad.NAN, at2 _ _ hq h, rfl⟩

/-- **C47 (Quad) refuted for the sign of zero:** `sinh(-0)` and `tanh(-0)` are `+0`. -/
theorem C47_quad_refuted (P : Platform) (n : ℕ) : Quad.NEG_ZERO.isSignNegative = true ∧ Quad.ZERO.isSignNegative = false ∧
    Quad.sinh P n Quad.NEG_ZERO = some Quad.ZERO ∧ Quad.tanh P n Quad.NEG_ZERO = some Quad.ZERO :=
  ⟨rfl, rfl, (C47_quad_hyper_zero P n _ (by decide +kernel)).1, (C47_quad_hyper_zero P n _ (by decide +kernel)).2.2.1⟩

/-! ### C44: sin, cos, tan -/

/-- **C44 (Quad).** `sin`, `cos`, `sin_cos` and `tan` of zero, NaN and infinities. -/
theorem C44_quad_special (P : Platform) (a : Quad) :
    (a.isZero = true → Quad.sin P a = some Quad.ZERO ∧ Quad.cos P a = some Quad.ONE ∧
      Quad.sinCos P a = some (Quad.ZERO, Quad.ONE) ∧ ∃ r, Quad.tan P a = some r ∧ r.isZero = true) ∧
    (a.isFinite = false → Quad.sin P a = some Quad.NAN ∧ Quad.cos P a = some Quad.NAN ∧
      Quad.sinCos P a = some (Quad.NAN, Quad.NAN) ∧ ∃ r, Quad.tan P a = some r ∧ r.isNan = true) := by
  constructor
  · intro h
    unfold Quad.tan Quad.sin Quad.preSin Quad.cos Quad.preCos Quad.sinCos Quad.preSinCos
    have : (Quad.ZERO / Quad.ONE).isZero = true := by decide +kernel
    simp [h, this]
  · intro h
    have hz : a.isZero = false := by
      unfold Quad.isFinite at h
      unfold Quad.isZero
      revert h; cases a.c0 with
      | nan s => intro _; rfl
      | inf s => intro _; exact inf_eq_zero s
      | fin s m hm => intro h; cases h
    have e : Quad.sinCos P a = some (Quad.NAN, Quad.NAN) := by
      unfold Quad.sinCos Quad.preSinCos; simp [h, hz]
    refine ⟨?_, ?_, e, ?_⟩
    · unfold Quad.sin Quad.preSin; simp [h, hz]
    · unfold Quad.cos Quad.preCos; simp [h, hz]
    · unfold Quad.tan; rw [e]
      exact ⟨_, rfl, C11_quad_div _ _ (Or.inl rfl)⟩

end Verif
