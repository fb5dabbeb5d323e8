import Verif.Props.Symmetry

/-!
# C12 – C14, C41, C56: comparison, classification, indexing
-/

namespace Verif

open F64

/-! ### C12, C14 -/

theorem norm2_compare {xh xl yh yl : ℤ} (hx : Norm2 xh xl) (hy : Norm2 yh yl) :
    (compare xh yh).then (compare xl yl) = compare (xh + xl) (yh + yl) := by
  rcases lt_trichotomy xh yh with h | h | h
  · have : xh + xl < yh + yl := by
      by_contra hc
      have := rnd_mono (x := ((yh + yl : ℤ) : ℚ)) (y := ((xh + xl : ℤ) : ℚ)) (by exact_mod_cast not_lt.mp hc)
      rw [hx.rnd_eq, hy.rnd_eq] at this
      omega
    rw [compare_lt_iff_lt.mpr h, compare_lt_iff_lt.mpr this]; rfl
  · subst h
    rw [compare_eq_iff_eq.mpr rfl]
    change compare xl yl = _
    rcases lt_trichotomy xl yl with h | h | h
    · rw [compare_lt_iff_lt.mpr h, compare_lt_iff_lt.mpr (by omega)]
    · rw [compare_eq_iff_eq.mpr h, compare_eq_iff_eq.mpr (by omega)]
    · rw [compare_gt_iff_gt.mpr h, compare_gt_iff_gt.mpr (by omega)]
  · have : yh + yl < xh + xl := by
      by_contra hc
      have := rnd_mono (x := ((xh + xl : ℤ) : ℚ)) (y := ((yh + yl : ℤ) : ℚ)) (by exact_mod_cast not_lt.mp hc)
      rw [hx.rnd_eq, hy.rnd_eq] at this
      omega
    rw [compare_gt_iff_gt.mpr h, compare_gt_iff_gt.mpr this]; rfl

theorem DIs.partialCmp {a b : Double} {xh xl yh yl : ℤ} (ia : DIs a xh xl) (ib : DIs b yh yl) :
    Double.partialCmp a b = some ((compare xh yh).then (compare xl yl)) := by
  unfold Double.partialCmp
  rw [ia.1.partialCmp ib.1, ia.2.partialCmp ib.2]
  cases compare xh yh <;> rfl

theorem compare_div_one' (m n : ℤ) : compare ((m : ℚ) / one') ((n : ℚ) / one') = compare m n := by
  have hp := one'_posQ
  rcases lt_trichotomy m n with h | h | h
  · rw [compare_lt_iff_lt.mpr h, compare_lt_iff_lt]
    exact div_lt_div_of_pos_right (by exact_mod_cast h) hp
  · subst h; rw [compare_eq_iff_eq.mpr rfl, compare_eq_iff_eq.mpr rfl]
  · rw [compare_gt_iff_gt.mpr h, compare_gt_iff_gt]
    exact div_lt_div_of_pos_right (by exact_mod_cast h) hp

/-- **C12.** `partial_cmp` of normalized Doubles is the comparison of their exact values. -/
theorem C12_partialCmp (a b : Double) (ha : a.Normalized) (hb : b.Normalized) :
    Double.partialCmp a b = some (compare a.val b.val) := by
  obtain ⟨xh, xl, ia, hx⟩ := ha.norm2
  obtain ⟨yh, yl, ib, hy⟩ := hb.norm2
  rw [ia.partialCmp ib, norm2_compare hx hy, ia.val, ib.val, compare_div_one']

/-- **C12.** `<`, `<=`, `>`, `>=` and `==` of normalized Doubles decide the order of the exact values. -/
theorem C12_compare (a b : Double) (ha : a.Normalized) (hb : b.Normalized) :
    (Double.lt a b = true ↔ a.val < b.val) ∧ (Double.le a b = true ↔ a.val ≤ b.val) ∧
    (Double.gt a b = true ↔ a.val > b.val) ∧ (Double.ge a b = true ↔ a.val ≥ b.val) ∧
    (Double.eq a b = true ↔ a.val = b.val) := by
  have h := C12_partialCmp a b ha hb
  unfold Double.lt Double.le Double.gt Double.ge
  rw [h]
  have he : Double.eq a b = true ↔ a.val = b.val := by
    obtain ⟨xh, xl, ia, hx⟩ := ha.norm2
    obtain ⟨yh, yl, ib, hy⟩ := hb.norm2
    unfold Double.eq
    rw [Bool.and_eq_true, ia.1.eq_iff ib.1, ia.2.eq_iff ib.2, ia.val, ib.val, div_left_inj' one'_ne]
    constructor
    · rintro ⟨rfl, rfl⟩; rfl
    · intro h
      have h' : xh + xl = yh + yl := by exact_mod_cast h
      have e : xh = yh := by rw [← hx.rnd_eq, ← hy.rnd_eq, h']
      exact ⟨e, by omega⟩
  refine ⟨?_, ?_, ?_, ?_, he⟩
  · rcases lt_trichotomy a.val b.val with h | h | h
    · simp [compare_lt_iff_lt.mpr h, h]
    · simp [compare_eq_iff_eq.mpr h, h]
    · simp [compare_gt_iff_gt.mpr h, h.le]
  · rcases lt_trichotomy a.val b.val with h | h | h
    · simp [compare_lt_iff_lt.mpr h, h.le]
    · simp [compare_eq_iff_eq.mpr h, h]
    · simp [compare_gt_iff_gt.mpr h, h]
  · rcases lt_trichotomy a.val b.val with h | h | h
    · simp [compare_lt_iff_lt.mpr h, h.le]
    · simp [compare_eq_iff_eq.mpr h, h]
    · simp [compare_gt_iff_gt.mpr h, h]
  · rcases lt_trichotomy a.val b.val with h | h | h
    · simp [compare_lt_iff_lt.mpr h, h]
    · simp [compare_eq_iff_eq.mpr h, h]
    · simp [compare_gt_iff_gt.mpr h, h.le]

example : Double.PI.Normalized ∧ Double.FRAC_PI_2.Normalized := by decide +kernel

/-- **C14.** Normalized Doubles with the same exact value have equal components (as numbers). -/
theorem C14_unique (a b : Double) (ha : a.Normalized) (hb : b.Normalized) (h : a.val = b.val) : SameDouble a b := by
  have := (C12_compare a b ha hb).2.2.2.2.mpr h
  unfold Double.eq at this
  rw [Bool.and_eq_true] at this
  exact ⟨Or.inr this.1, Or.inr this.2⟩

example : Double.ZERO.Normalized ∧ Double.NEG_ZERO.Normalized ∧ Double.ZERO.val = Double.NEG_ZERO.val := by
  decide +kernel

/-- **C17 / C14.** The first component of a normalized Double is the `f64` nearest to its exact value. -/
theorem normalized_nearest (d : Double) (h : d.Normalized) : NearestF64 d.hi d.val := by
  obtain ⟨xh, xl, i, n⟩ := h.norm2
  refine ⟨i.1.1, fun y hy => ?_⟩
  have iy := Is.of_finite hy
  rw [i.val, i.1.toRat, iy.toRat, ← sub_div, ← sub_div, abs_div, abs_div]
  apply div_le_div_of_nonneg_right _ (abs_nonneg _)
  have := rnd_nearest ((xh + xl : ℤ) : ℚ) iy.rep
  rwa [n.rnd_eq] at this

/-! ### C13 -/

/-- Lexicographic comparison of the order keys. -/
theorem partialCmp_key (a b : Double) : Double.partialCmp a b =
    match F64.key a.hi, F64.key b.hi with
    | some x, some y =>
      match compare x y with
      | .eq => (match F64.key a.lo, F64.key b.lo with
        | some u, some v => some (compare u v)
        | _, _ => none)
      | o => some o
    | _, _ => none := by
  unfold Double.partialCmp F64.partialCmp
  cases F64.key a.hi with
  | none => rfl
  | some x =>
    cases F64.key b.hi with
    | none => rfl
    | some y =>
      simp only []
      cases compare x y <;> rfl

/-- **C13.** `a == b` exactly when `partial_cmp` says `Equal`, for all Doubles. -/
theorem C13_eq_iff (a b : Double) : Double.eq a b = true ↔ Double.partialCmp a b = some .eq := by
  rw [partialCmp_key]
  unfold Double.eq F64.eq
  cases F64.key a.hi with
  | none => simp
  | some x =>
    cases F64.key b.hi with
    | none => simp
    | some y =>
      simp only []
      rcases lt_trichotomy x y with h | h | h
      · rw [compare_lt_iff_lt.mpr h]; simp; omega
      · subst h
        rw [compare_eq_iff_eq.mpr rfl]
        cases F64.key a.lo with
        | none => simp
        | some u =>
          cases F64.key b.lo with
          | none => simp
          | some v => simp
      · rw [compare_gt_iff_gt.mpr h]; simp; omega

/-- **C13.** Swapping the operands swaps the answer of `partial_cmp`, for all Doubles. -/
theorem C13_swap (a b : Double) : Double.partialCmp b a = (Double.partialCmp a b).map Ordering.swap := by
  rw [partialCmp_key, partialCmp_key]
  cases F64.key a.hi with
  | none => cases F64.key b.hi <;> rfl
  | some x =>
    cases F64.key b.hi with
    | none => rfl
    | some y =>
      simp only []
      rcases lt_trichotomy x y with h | h | h
      · rw [compare_lt_iff_lt.mpr h, compare_gt_iff_gt.mpr h]; rfl
      · subst h
        rw [compare_eq_iff_eq.mpr rfl]
        cases F64.key a.lo with
        | none => cases F64.key b.lo <;> rfl
        | some u =>
          cases F64.key b.lo with
          | none => rfl
          | some v =>
            simp only [Option.map]
            rcases lt_trichotomy u v with h | h | h
            · rw [compare_lt_iff_lt.mpr h, compare_gt_iff_gt.mpr h]; rfl
            · subst h; rw [compare_eq_iff_eq.mpr rfl]; rfl
            · rw [compare_lt_iff_lt.mpr h, compare_gt_iff_gt.mpr h]; rfl
      · rw [compare_lt_iff_lt.mpr h, compare_gt_iff_gt.mpr h]; rfl

theorem C13_gt_iff (a b : Double) : Double.gt a b = Double.lt b a := by
  unfold Double.gt Double.lt
  rw [C13_swap a b]
  cases Double.partialCmp a b with
  | none => rfl
  | some o => cases o <;> rfl

/-- `a < b` in terms of the keys. -/
theorem lt_iff_key (a b : Double) : Double.lt a b = true ↔
    ∃ x y, F64.key a.hi = some x ∧ F64.key b.hi = some y ∧
      (x < y ∨ (x = y ∧ ∃ u v, F64.key a.lo = some u ∧ F64.key b.lo = some v ∧ u < v)) := by
  unfold Double.lt
  rw [decide_eq_true_eq, partialCmp_key]
  cases F64.key a.hi with
  | none => simp
  | some x =>
    cases F64.key b.hi with
    | none => simp
    | some y =>
      simp only []
      rcases lt_trichotomy x y with h | h | h
      · rw [compare_lt_iff_lt.mpr h]; simp [h]
      · subst h
        rw [compare_eq_iff_eq.mpr rfl]
        cases F64.key a.lo with
        | none => simp
        | some u =>
          cases F64.key b.lo with
          | none => simp
          | some v => simp [compare_lt_iff_lt]
      · rw [compare_gt_iff_gt.mpr h]
        simp; constructor <;> omega

/-- **C13.** `<` is transitive on all Doubles. -/
theorem C13_lt_trans (a b c : Double) (h1 : Double.lt a b = true) (h2 : Double.lt b c = true) :
    Double.lt a c = true := by
  rw [lt_iff_key] at *
  obtain ⟨x, y, hx, hy, h1⟩ := h1
  obtain ⟨y', z, hy', hz, h2⟩ := h2
  rw [hy] at hy'
  cases hy'
  refine ⟨x, z, hx, hz, ?_⟩
  rcases h1 with h1 | ⟨rfl, u, v, hu, hv, h1⟩
  · rcases h2 with h2 | ⟨rfl, h2⟩
    · exact Or.inl (by omega)
    · exact Or.inl h1
  · rcases h2 with h2 | ⟨rfl, v', w, hv', hw, h2⟩
    · exact Or.inl h2
    · rw [hv] at hv'
      cases hv'
      exact Or.inr ⟨rfl, u, w, hu, hw, by omega⟩

example : Double.lt Double.E Double.PI = true ∧ Double.lt Double.PI Double.INFINITY = true := by decide +kernel

/-- **C13.** `<=` is `<` or `==`, and `<` excludes `==` and `>`. -/
theorem C13_le_iff (a b : Double) : Double.le a b = (Double.lt a b || Double.eq a b) ∧
    (Double.lt a b = true → Double.eq a b = false ∧ Double.gt a b = false) := by
  have h := C13_eq_iff a b
  unfold Double.le Double.lt Double.gt
  cases hp : Double.partialCmp a b with
  | none => rw [hp] at h; simp at h ⊢; exact h
  | some o =>
    rw [hp] at h
    cases o
    · simp at h ⊢; exact h
    · simp at h ⊢
      exact h
    · simp at h ⊢; exact h

/-- **C13.** A NaN in a first component makes every comparison false. -/
theorem C13_nan (a b : Double) (h : a.isNan = true ∨ b.isNan = true) :
    Double.partialCmp a b = none ∧ Double.eq a b = false ∧ Double.lt a b = false ∧ Double.le a b = false ∧
    Double.gt a b = false ∧ Double.ge a b = false := by
  have hk : F64.key a.hi = none ∨ F64.key b.hi = none := by
    rcases h with h | h
    · left
      unfold Double.isNan at h
      cases ha : a.hi <;> rw [ha] at h <;> first | rfl | simp [F64.isNan] at h
    · right
      unfold Double.isNan at h
      cases ha : b.hi <;> rw [ha] at h <;> first | rfl | simp [F64.isNan] at h
  have h1 : Double.partialCmp a b = none := by
    rw [partialCmp_key]
    rcases hk with hk | hk
    · rw [hk]
    · rw [hk]; cases F64.key a.hi <;> rfl
  have h2 : Double.eq a b = false := by
    rw [← Bool.not_eq_true, C13_eq_iff, h1]; simp
  refine ⟨h1, h2, ?_, ?_, ?_, ?_⟩ <;> simp [Double.lt, Double.le, Double.gt, Double.ge, h1]

example : Double.NAN.isNan = true := rfl

/-! ### C41 -/

/-- **C41.** Every Double has exactly one category and the predicates say which; `is_finite` is the complement of NaN
or infinite; exactly one sign predicate holds. -/
theorem C41_partition (a : Double) :
    (a.isNan = true ↔ a.classify = .nan) ∧ (a.isInfinite = true ↔ a.classify = .infinite) ∧
    (a.isZero = true ↔ a.classify = .zero) ∧ (a.isSubnormal = true ↔ a.classify = .subnormal) ∧
    (a.isNormal = true ↔ a.classify = .normal) ∧ (a.isFinite = (!a.isNan && !a.isInfinite)) ∧
    (a.isSignPositive = !a.isSignNegative) := by
  refine ⟨?_, ?_, ?_, ?_, ?_, ?_, isSignPositive_eq a⟩
  · obtain ⟨h, l⟩ := a
    cases h <;> simp [Double.isNan, Double.classify, F64.isNan, F64.classify]
    split_ifs <;> simp
  · obtain ⟨h, l⟩ := a
    cases h <;> simp [Double.isInfinite, Double.classify, F64.isInfinite, F64.classify]
    split_ifs <;> simp
  · obtain ⟨h, l⟩ := a
    cases h with
    | nan s => simp [Double.isZero, Double.classify, F64.eq, F64.key, F64.classify]
    | inf s => rw [isZero_inf]; simp [Double.classify, F64.classify]
    | fin s m hm =>
      rw [isZero_fin]
      simp only [Double.classify, F64.classify, decide_eq_true_eq]
      split_ifs <;> simp_all
  · unfold Double.isSubnormal; simp
  · unfold Double.isNormal; simp
  · obtain ⟨h, l⟩ := a
    cases h <;> rfl

/-- **C41.** `abs` clears the sign bit and keeps the magnitude: it is `a` or `-a`. -/
theorem C41_abs (a : Double) : a.abs.isSignNegative = false ∧ (a.abs = a ∨ a.abs = -a) := by
  unfold Double.abs
  cases h : a.isSignNegative
  · simp [h]
  · simp [neg_isSignNegative, h]

/-- **C41.** For normalized Doubles `abs` is normalized and its value is the absolute value. -/
theorem C41_abs_val (a : Double) (ha : a.Normalized) : a.abs.Normalized ∧ a.abs.val = |a.val| := by
  obtain ⟨h, l, i, n⟩ := ha.norm2
  have hs : a.isSignNegative = true → h ≤ 0 := by
    obtain ⟨s, m, hm, e, eh⟩ := i.1.exists
    intro hs
    unfold Double.isSignNegative at hs
    rw [e] at hs
    have : s = true := hs
    subst this
    simp at eh; omega
  have hs' : a.isSignNegative = false → 0 ≤ h := by
    obtain ⟨s, m, hm, e, eh⟩ := i.1.exists
    intro hs
    unfold Double.isSignNegative at hs
    rw [e] at hs
    have : s = false := hs
    subst this
    simp at eh; omega
  have hb := n.lo_le
  norm_num at hb
  have e1 := le_abs_self l
  have e2 := neg_abs_le l
  unfold Double.abs
  cases hsn : a.isSignNegative
  · have h0 := hs' hsn
    rw [abs_of_nonneg h0] at hb
    refine ⟨by simpa using ha, ?_⟩
    have : 0 ≤ a.val := by
      rw [i.val]
      apply div_nonneg _ one'_posQ.le
      have : 0 ≤ h + l := by have := abs_nonneg l; omega
      exact_mod_cast this
    simp [abs_of_nonneg this]
  · have h0 := hs hsn
    rw [abs_of_nonpos h0] at hb
    have hv : (-a).val = -a.val := by rw [i.neg.val, i.val]; push_cast; ring
    have : a.val ≤ 0 := by
      rw [i.val]
      apply div_nonpos_of_nonpos_of_nonneg _ one'_posQ.le
      have : h + l ≤ 0 := by have := abs_nonneg l; omega
      exact_mod_cast this
    simp only [if_true]
    exact ⟨n.swap_sign.normalized i.neg, by rw [hv, abs_of_nonpos this]⟩

example : (-Double.PI).Normalized := by decide +kernel

/-- **C41.** `signum` of NaN is NaN; otherwise it is a normalized Double of value `-1` or `1` by the sign bit. -/
theorem C41_signum (a : Double) : (a.isNan = true → a.signum.isNan = true) ∧
    (a.isNan = false → a.signum.Normalized ∧ a.signum.val = if a.isSignNegative then -1 else 1) := by
  unfold Double.signum
  constructor
  · intro h; rw [if_pos h]; rfl
  · intro h
    rw [if_neg (by simp [h])]
    have h1 : Double.ONE.Normalized ∧ Double.ONE.val = 1 := by decide +kernel
    have h2 : Double.NEG_ONE.Normalized ∧ Double.NEG_ONE.val = -1 := by decide +kernel
    cases a.isSignNegative
    · simpa using h1
    · simpa using h2

/-! ### C56 -/

/-- **C56.** Indexing returns component `i` for `i < 2` and panics for every other index. -/
theorem C56_index (d : Double) (i : ℕ) :
    d.index i = [d.hi, d.lo][i]? := by
  rcases i with _ | _ | i <;> simp [Double.index]

end Verif
