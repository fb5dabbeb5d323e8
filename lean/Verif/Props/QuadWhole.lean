import Verif.Proofs.QuadWhole

/-!
# C22: floor, ceil, round and trunc of Quads
-/

namespace Verif

open F64 Prim Util

theorem units_max {x : F64} {n : ℤ} (hx : Is x n) (h : |x.toRat| ≤ 2 ^ 1000) : |n| ≤ 2 ^ 1000 * one' := by
  have hp := one'_posQ
  rw [hx.toRat, abs_div, abs_of_pos hp, div_le_iff₀ hp] at h
  have e : ((2:ℤ) ^ 1000 * one' : ℤ) = ((2:ℚ) ^ 1000 * (one' : ℚ)) := by rw [Int.cast_mul, Int.cast_pow]; rfl
  rw [← e] at h
  exact_mod_cast h

theorem fract_units {x : F64} {n : ℤ} (hx : Is x n) : Int.fract x.toRat = ((n - fl n * one' : ℤ) : ℚ) / one' := by
  unfold Int.fract
  rw [hx.toRat, floor_units]
  push_cast
  rw [sub_div, mul_div_cancel_right₀ _ one'_ne]

theorem fract_zero {x : F64} {n : ℤ} (hx : Is x n) (h : Int.fract x.toRat = 0) : one' ∣ n := by
  rw [fract_units hx, div_eq_zero_iff] at h
  rcases h with h | h
  · have : n - fl n * one' = 0 := by exact_mod_cast h
    exact ⟨fl n, by linarith⟩
  · exact absurd h one'_ne

theorem fract_gap {x : F64} {n : ℤ} (hx : Is x n) (h : 1 / 2 ^ 52 ≤ Int.fract x.toRat) : 2 ^ 1022 ≤ |fl n * one' - n| := by
  have := eps_le (fract_units hx) h
  rw [abs_sub_comm]
  exact this.trans (le_abs_self _)

theorem fract_zero' {x : F64} {n : ℤ} (hx : Is x n) (h : Int.fract (-x.toRat) = 0) : one' ∣ n := by
  have hn : Int.fract x.neg.toRat = 0 := by rw [hx.neg.toRat]; push_cast; rw [neg_div, ← hx.toRat]; exact h
  exact (dvd_neg).mp (fract_zero hx.neg hn)

theorem fract_gap' {x : F64} {n : ℤ} (hx : Is x n) (h : 1 / 2 ^ 52 ≤ Int.fract (-x.toRat)) :
    2 ^ 1022 ≤ |ce n * one' - n| := by
  have hn : 1 / 2 ^ 52 ≤ Int.fract x.neg.toRat := by rw [hx.neg.toRat]; push_cast; rw [neg_div, ← hx.toRat]; exact h
  have := fract_gap hx.neg hn
  unfold ce
  rwa [show -fl (-n) * one' - n = -(fl (-n) * one' - -n) + -(2 * n) + 2 * n by ring, add_assoc, neg_add_cancel, add_zero,
    abs_neg]

theorem whole_sum {q : Quad} {z : ℤ × ℤ × ℤ × ℤ} {w : ℤ} (h : QIs q z) (e : sum4 z = w * one') : q.val = w := by
  rw [h.val, e]; push_cast; exact mul_div_cancel_right₀ _ one'_ne

/-- **C22 (partial).** Quad `floor` is the largest integer not above the value, when the first non-integral component is
at least `2^-52` above an integer. Without the condition the claim is false (`C22_refuted`). -/
theorem C22_floor_partial (q : Quad) (hq : q.Normalized) (hm : |q.c0.toRat| ≤ 2 ^ 1000) (hg : q.GapBelow) :
    q.floor.Ordered ∧ q.floor.val = (⌊q.val⌋ : ℤ) := by
  have i := QIs.of_fin hq.1
  have hn := i.normalized_iff.mp hq
  obtain ⟨z, iz, oz, e⟩ := sepQuad_spec whole_floor i hn (units_max i.i0 hm) (by
    rcases hg with h | ⟨d, h⟩
    · exact .inl (fract_gap i.i0 h)
    · refine .inr ⟨fract_zero i.i0 d, ?_⟩
      rcases h with h | ⟨d, h⟩
      · exact .inl (fract_gap i.i1 h)
      · refine .inr ⟨fract_zero i.i1 d, ?_⟩
        exact h.imp (fract_gap i.i2) (fract_zero i.i2))
  rw [floor_sepQuad]
  refine ⟨iz.ordered_iff.mpr oz, ?_⟩
  rw [whole_sum iz e, i.val, floor_units]; rfl

/-- **C22 (partial).** Quad `ceil`, mirrored. -/
theorem C22_ceil_partial (q : Quad) (hq : q.Normalized) (hm : |q.c0.toRat| ≤ 2 ^ 1000) (hg : q.GapAbove) :
    q.ceil.Ordered ∧ q.ceil.val = (⌈q.val⌉ : ℤ) := by
  have i := QIs.of_fin hq.1
  have hn := i.normalized_iff.mp hq
  obtain ⟨z, iz, oz, e⟩ := sepQuad_spec whole_ceil i hn (units_max i.i0 hm) (by
    rcases hg with h | ⟨d, h⟩
    · exact .inl (fract_gap' i.i0 h)
    · refine .inr ⟨fract_zero' i.i0 d, ?_⟩
      rcases h with h | ⟨d, h⟩
      · exact .inl (fract_gap' i.i1 h)
      · refine .inr ⟨fract_zero' i.i1 d, ?_⟩
        exact h.imp (fract_gap' i.i2) (fract_zero' i.i2))
  rw [ceil_sepQuad]
  refine ⟨iz.ordered_iff.mpr oz, ?_⟩
  rw [whole_sum iz e, i.val, ceil_units]; rfl

theorem quad_sign {q : Quad} (hq : q.Normalized) : (0 ≤ q.c0.toRat ↔ 0 ≤ q.val) ∧ F64.ge q.c0 F64.zero = decide (0 ≤ q.c0.toRat) := by
  have i := QIs.of_fin hq.1
  obtain ⟨n1, n2, n3⟩ := i.normalized_iff.mp hq
  have hp := one'_posQ
  rw [i.i0.toRat, i.val]
  have hge : F64.ge q.c0 F64.zero = true ↔ 0 ≤ q.c0.units := by
    unfold F64.ge; exact is_zero.le_iff i.i0
  simp only at n1 n2 n3
  have t1 := n1.two_le
  have t2 := n2.two_le
  have t3 := n3.two_le
  have e : (0 ≤ (q.c0.units : ℚ) / one') ↔ 0 ≤ q.c0.units := by
    rw [le_div_iff₀ hp, zero_mul]; exact_mod_cast Iff.rfl
  constructor
  · change 0 ≤ (q.c0.units : ℚ) / one' ↔ _
    rw [e, le_div_iff₀ hp, zero_mul]
    unfold sum4
    simp only
    generalize q.c0.units = a at *
    generalize q.c1.units = b at *
    generalize q.c2.units = c at *
    generalize q.c3.units = d at *
    have h1 := abs_add_le b (c + d)
    have h2 := abs_add_le c d
    have : 0 ≤ a ↔ 0 ≤ a + b + c + d := by
      have h3 : |b + (c + d)| ≤ |a| := by have := abs_nonneg b; have := abs_nonneg c; have := abs_nonneg d; omega
      have h4 : a ≠ 0 → |b + (c + d)| < |a| := by
        intro h; have := abs_pos.mpr h; have := abs_nonneg b; have := abs_nonneg c; have := abs_nonneg d
        by_cases hb : |b| = 0
        · omega
        · have : |c| + |d| < |b| := by omega
          omega
      by_cases ha : a = 0
      · subst ha
        rw [abs_zero] at h3
        have := abs_nonpos_iff.mp h3
        omega
      · have h4 := h4 ha
        rw [abs_lt] at h4
        rcases abs_cases a with ⟨h5, h6⟩ | ⟨h5, h6⟩ <;> constructor <;> intro <;> omega
    rw [this]
    exact_mod_cast Iff.rfl
  · change _ = decide (0 ≤ (q.c0.units : ℚ) / one')
    rw [Bool.eq_iff_iff, decide_eq_true_iff, e]
    exact hge

/-- **C22 (partial).** Quad `trunc` rounds towards zero under the conditions of `floor` and `ceil`. -/
theorem C22_trunc_partial (q : Quad) (hq : q.Normalized) (hm : |q.c0.toRat| ≤ 2 ^ 1000)
    (hb : 0 ≤ q.val → q.GapBelow) (ha : q.val < 0 → q.GapAbove) :
    q.trunc.Ordered ∧ q.trunc.val = (truncQ q.val : ℤ) := by
  have hs := quad_sign hq
  unfold Quad.trunc truncQ
  rw [hs.2]
  by_cases h : 0 ≤ q.val
  · rw [if_pos (by simpa using hs.1.mpr h), if_pos h]
    exact C22_floor_partial q hq hm (hb h)
  · rw [if_neg (by simpa using fun h' => h (hs.1.mp h')), if_neg h]
    exact C22_ceil_partial q hq hm (ha (not_le.mp h))

theorem round_dist {x : F64} {n : ℤ} (hx : Is x n) : |(roundQ x.toRat : ℚ) - x.toRat| = ((|ro n * one' - n| : ℤ) : ℚ) / one' := by
  have hp := one'_posQ
  rw [hx.toRat, round_units]
  have : (ro n : ℚ) - n / one' = ((ro n * one' - n : ℤ) : ℚ) / one' := by
    push_cast; rw [sub_div, mul_div_cancel_right₀ _ one'_ne]
  rw [this, abs_div, abs_of_pos hp]
  push_cast
  rfl

theorem hf_units : ((hf : ℤ) : ℚ) / one' = 1 / 2 := by
  have hp := hf_pos
  have h0 : (hf : ℚ) ≠ 0 := by exact_mod_cast hp.ne'
  rw [one'_hf]; push_cast; field_simp

theorem clear_of {x : F64} {n : ℤ} (hx : Is x n) (h : Quad.ClearOfTies x.toRat) : Clear n := by
  have hp := one'_posQ
  obtain ⟨h1, h2⟩ := h
  have e := round_dist hx
  refine ⟨eps_le e h1, ?_⟩
  rw [e, ← eps_units, ← hf_units, ← add_div, div_le_div_iff_of_pos_right hp] at h2
  exact_mod_cast h2

/-- **C22 (partial).** Quad `round` is the nearest integer when the first non-integral component is clear of integers and
halves (by `2^-52`). -/
theorem C22_round_partial (q : Quad) (hq : q.Normalized) (hm : |q.c0.toRat| ≤ 2 ^ 1000) (hc : q.RoundClear) :
    q.round.Fin ∧ q.round.val = (roundQ q.val : ℤ) := by
  have i := QIs.of_fin hq.1
  have hn := i.normalized_iff.mp hq
  obtain ⟨z, iz, e⟩ := round_quad_spec i hn (units_max i.i0 hm) (by
    rcases hc with h | ⟨d, h⟩
    · exact .inl (clear_of i.i0 h)
    · refine .inr ⟨fract_zero i.i0 d, ?_⟩
      rcases h with h | ⟨d, h⟩
      · exact .inl (clear_of i.i1 h)
      · refine .inr ⟨fract_zero i.i1 d, ?_⟩
        rcases h with h | ⟨d, h⟩
        · exact .inl (clear_of i.i2 h)
        · refine .inr ⟨fract_zero i.i2 d, ?_⟩
          rw [round_dist i.i3, div_lt_iff₀ one'_posQ] at h
          have : 2 * |ro q.c3.units * one' - q.c3.units| < one' := by
            have : (2:ℚ) * ((|ro q.c3.units * one' - q.c3.units| : ℤ) : ℚ) < one' := by linarith
            exact_mod_cast this
          rwa [abs_sub_comm] at this)
  refine ⟨iz.fin, ?_⟩
  rw [whole_sum iz e, i.val, round_units]; rfl

/-- The conditions hold for `PI`, `E` and for `2^110 + PI`-like values with a fraction in the third component. -/
example : Quad.PI.Normalized ∧ Quad.PI.GapBelow ∧ Quad.PI.GapAbove ∧ Quad.PI.RoundClear ∧ Quad.PI.floor.val = 3 ∧
    Quad.PI.ceil.val = 4 ∧ Quad.E.round.val = 3 := by decide +kernel

example : let q : Quad := ⟨F64.ofInt (2 ^ 120), F64.ofInt (2 ^ 60), Double.PI.hi, F64.zero⟩
    q.Normalized ∧ q.GapBelow ∧ q.RoundClear ∧ q.floor.val = 2 ^ 120 + 2 ^ 60 + 3 := by decide +kernel

/-- **C22 does not hold as stated:** `floor` of `2^-60 - 2^-120`, which lies between 0 and 1, is `-1`, and `ceil` of its
negative is 1; `round` of `-1/2 - 2^-120` is `-2`. -/
theorem C22_refuted :
    (let q : Quad := ⟨F64.powi Double.two (-60), (F64.powi Double.two (-120)).neg, F64.zero, F64.zero⟩
     q.Normalized ∧ ⌊q.val⌋ = 0 ∧ q.floor.val = -1 ∧ ⌈(-q).val⌉ = 0 ∧ (-q).ceil.val = 1) ∧
    (let q : Quad := ⟨F64.ofDec true 5 (-1), (F64.powi Double.two (-120)).neg, F64.zero, F64.zero⟩
     q.Normalized ∧ roundQ q.val = -1 ∧ q.round.val = -2) := by decide +kernel

end Verif
