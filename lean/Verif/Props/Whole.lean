import Verif.Proofs.Fract

/-!
# C18-C21: floor, ceil, round, trunc and fract of Doubles
-/

namespace Verif

open F64

theorem floor_units (n : ℤ) : ⌊(n : ℚ) / one'⌋ = fl n := by
  rw [Int.floor_eq_iff]
  have hp := one'_posQ
  have h1 : ((fl n * one' : ℤ) : ℚ) ≤ n := by exact_mod_cast fl_le n
  have h2 : (n : ℚ) < ((fl n * one' + one' : ℤ) : ℚ) := by exact_mod_cast lt_fl n
  push_cast at h1 h2
  constructor
  · rw [le_div_iff₀ hp]; exact h1
  · rw [div_lt_iff₀ hp]; linarith

theorem ceil_units (n : ℤ) : ⌈(n : ℚ) / one'⌉ = ce n := by
  unfold ce
  rw [← floor_units, ← Int.ceil_neg]
  push_cast
  congr 1
  ring

theorem round_units (n : ℤ) : roundQ ((n : ℚ) / one') = ro n := by
  have hp := one'_posQ
  have key : ∀ k : ℤ, 0 ≤ k → ⌊(k : ℚ) / one' + 1 / 2⌋ = (2 * k + one') / (2 * one') := by
    intro k _
    have a1 := Int.ediv_mul_le (2 * k + one') (by have := one'_pos; positivity : 2 * one' ≠ 0)
    have a2 := Int.lt_ediv_add_one_mul_self (2 * k + one') (by have := one'_pos; positivity : 0 < 2 * one')
    rw [Int.floor_eq_iff]
    set v := (2 * k + one') / (2 * one')
    have h1 : ((v * (2 * one') : ℤ) : ℚ) ≤ ((2 * k + one' : ℤ) : ℚ) := by exact_mod_cast a1
    have h2 : ((2 * k + one' : ℤ) : ℚ) < (((v + 1) * (2 * one') : ℤ) : ℚ) := by exact_mod_cast a2
    push_cast at h1 h2
    have e : (k : ℚ) / one' + 1 / 2 = (2 * k + one') / (2 * one') := by field_simp
    rw [e]
    constructor
    · rw [le_div_iff₀ (by positivity)]; exact h1
    · rw [div_lt_iff₀ (by positivity)]; exact h2
  unfold roundQ ro
  by_cases h : 0 ≤ n
  · have h' : (0:ℚ) ≤ (n : ℚ) / one' := by
      have : (0:ℚ) ≤ n := by exact_mod_cast h
      positivity
    rw [if_pos h', if_pos h, key n h]
  · have h' : ¬ (0:ℚ) ≤ (n : ℚ) / one' := by
      have : (n:ℚ) < 0 := by exact_mod_cast not_le.mp h
      rw [not_le]; exact div_neg_of_neg_of_pos this hp
    rw [if_neg h', if_neg h, ← key (-n) (by omega), ← Int.ceil_neg]
    push_cast
    congr 1
    ring

theorem eps_units : ((2 ^ 1022 : ℤ) : ℚ) / one' = 1 / 2 ^ 52 := by
  have h : (one' : ℚ) = 2 ^ 1022 * 2 ^ 52 := by rw [one'_pow, ← pow_add]
  have h0 : (2:ℚ) ^ 1022 ≠ 0 := by positivity
  rw [h, Int.cast_pow, Int.cast_ofNat]
  generalize (2:ℚ) ^ 1022 = D at h0 ⊢
  field_simp

theorem eps_le {n : ℤ} {q : ℚ} (hq : q = (n : ℚ) / one') (h : 1 / 2 ^ 52 ≤ q) : 2 ^ 1022 ≤ n := by
  rw [hq, ← eps_units, div_le_div_iff_of_pos_right one'_posQ] at h
  exact_mod_cast h

theorem whole_val {d : Double} {zh zl w : ℤ} (i : DIs d zh zl) (e : zh + zl = w * one') : d.val = w := by
  rw [i.val, e]; push_cast
  exact mul_div_cancel_right₀ _ one'_ne

theorem is_whole_iff {x : F64} {n : ℤ} (i : Is x n) : x.toRat = (⌊x.toRat⌋ : ℤ) ↔ one' ∣ n := by
  rw [i.toRat, floor_units]
  have hp := one'_posQ
  constructor
  · intro h
    rw [div_eq_iff one'_ne] at h
    exact ⟨fl n, by rw [mul_comm]; exact_mod_cast h⟩
  · intro h
    have := fl_of_dvd h
    rw [div_eq_iff one'_ne]
    exact_mod_cast this.symm

/-- **C18 (partial).** `floor` returns the largest integer not above the value, provided the second component is not
negative, or the first is an integer or at least `2^-52` above one. Without the condition the claim is false
(`C18_refuted`); it is never off by more than one (`C18_floor_off`). -/
theorem C18_floor_partial (a : Double) (ha : a.Normalized)
    (hc : 0 ≤ a.lo.toRat ∨ a.hi.toRat = (⌊a.hi.toRat⌋ : ℤ) ∨ 1 / 2 ^ 52 ≤ a.hi.toRat - ⌊a.hi.toRat⌋) :
    a.floor.Normalized ∧ a.floor.val = (⌊a.val⌋ : ℤ) := by
  obtain ⟨h, l, ia, hn⟩ := ha.norm2
  obtain ⟨zh, zl, iz, hz, e⟩ := floor_spec ia hn
  refine ⟨hz.normalized iz, ?_⟩
  rw [ia.val, floor_units]
  rcases e with e | ⟨h1, h2, h3, _⟩
  · exact whole_val iz e
  · exfalso
    rcases hc with hc | hc | hc
    · rw [ia.2.toRat, le_div_iff₀ one'_posQ, zero_mul] at hc
      have : (0:ℤ) ≤ l := by exact_mod_cast hc
      omega
    · exact h1 ((is_whole_iff ia.1).mp hc)
    · have := eps_le (n := h - fl h * one') (by
        rw [ia.1.toRat, floor_units]; push_cast
        rw [sub_div, mul_div_cancel_right₀ _ one'_ne]) hc
      exact absurd h3 (not_lt.mpr this)

example : Double.PI.Normalized ∧ 0 ≤ Double.PI.lo.toRat ∧ Double.PI.floor.val = 3 ∧
    (1 / 2 ^ 52 ≤ Double.SQRT_2.hi.toRat - ⌊Double.SQRT_2.hi.toRat⌋) ∧ Double.SQRT_2.lo.toRat < 0 := by decide +kernel

/-- `floor` of a normalized Double is always normalized and is the right integer or one less. -/
theorem C18_floor_off (a : Double) (ha : a.Normalized) :
    a.floor.Normalized ∧ (a.floor.val = (⌊a.val⌋ : ℤ) ∨ a.floor.val = (⌊a.val⌋ : ℤ) - 1) := by
  obtain ⟨h, l, ia, hn⟩ := ha.norm2
  obtain ⟨zh, zl, iz, hz, e⟩ := floor_spec ia hn
  refine ⟨hz.normalized iz, ?_⟩
  rw [ia.val, floor_units]
  rcases e with e | ⟨_, _, _, e⟩
  · exact .inl (whole_val iz e)
  · right; rw [whole_val iz e]; push_cast; rfl

example : Double.E.Normalized := by decide +kernel

/-- `2^-60 - 2^-120`, a positive number whose `floor` is `-1`. -/
def floorBad : Double := ⟨F64.ofRound false (2 ^ 1014) 1, F64.ofRound true (2 ^ 954) 1⟩

/-- **C18 is false in general.** `floor(2^-60 - 2^-120)` is `-1`, and so is not the largest integer below. -/
theorem C18_refuted : floorBad.Normalized ∧ 0 < floorBad.val ∧ floorBad.val < 1 ∧ floorBad.floor.val = -1 := by
  decide +kernel

/-- **C19 (partial).** `ceil` returns the smallest integer not below the value, under the mirrored conditions of C18. -/
theorem C19_ceil_partial (a : Double) (ha : a.Normalized)
    (hc : a.lo.toRat ≤ 0 ∨ a.hi.toRat = (⌊a.hi.toRat⌋ : ℤ) ∨ 1 / 2 ^ 52 ≤ ⌈a.hi.toRat⌉ - a.hi.toRat) :
    a.ceil.Normalized ∧ a.ceil.val = (⌈a.val⌉ : ℤ) := by
  obtain ⟨h, l, ia, hn⟩ := ha.norm2
  obtain ⟨zh, zl, iz, hz, e⟩ := ceil_spec ia hn
  refine ⟨hz.normalized iz, ?_⟩
  rw [ia.val, ceil_units]
  rcases e with e | ⟨h1, h2, h3, _⟩
  · exact whole_val iz e
  · exfalso
    rcases hc with hc | hc | hc
    · rw [ia.2.toRat, div_le_iff₀ one'_posQ, zero_mul] at hc
      have : l ≤ (0:ℤ) := by exact_mod_cast hc
      omega
    · exact h1 ((is_whole_iff ia.1).mp hc)
    · have := eps_le (n := ce h * one' - h) (by
        rw [ia.1.toRat, ceil_units]; push_cast
        rw [sub_div, mul_div_cancel_right₀ _ one'_ne]) hc
      exact absurd h3 (not_lt.mpr this)

example : Double.SQRT_2.Normalized ∧ Double.SQRT_2.lo.toRat ≤ 0 ∧ Double.SQRT_2.ceil.val = 2 ∧
    1 / 2 ^ 52 ≤ ⌈Double.PI.hi.toRat⌉ - Double.PI.hi.toRat ∧ 0 < Double.PI.lo.toRat := by decide +kernel

/-- `ceil` of a normalized Double is always normalized and is the right integer or one more. -/
theorem C19_ceil_off (a : Double) (ha : a.Normalized) :
    a.ceil.Normalized ∧ (a.ceil.val = (⌈a.val⌉ : ℤ) ∨ a.ceil.val = (⌈a.val⌉ : ℤ) + 1) := by
  obtain ⟨h, l, ia, hn⟩ := ha.norm2
  obtain ⟨zh, zl, iz, hz, e⟩ := ceil_spec ia hn
  refine ⟨hz.normalized iz, ?_⟩
  rw [ia.val, ceil_units]
  rcases e with e | ⟨_, _, _, e⟩
  · exact .inl (whole_val iz e)
  · right; rw [whole_val iz e]; push_cast; rfl

example : Double.E.Normalized := by decide +kernel

/-- **C19 is false in general.** `ceil(-(2^-60 - 2^-120))` is `1`. -/
theorem C19_refuted : (-floorBad).Normalized ∧ (-floorBad).val < 0 ∧ -1 < (-floorBad).val ∧ (-floorBad).ceil.val = 1 := by
  decide +kernel

/-- **C20 (partial).** `round` returns the nearest integer, halves away from zero, except possibly
* when the first component is a negative half-integer and the second is not zero,
* when the second component is negative and the first is within `2^-52` of a half-integer without being one,
* when the first component is an integer and the second a half-integer of the opposite sign.

In each of the three cases the claim is false (`C20_refuted`). -/
theorem C20_round_partial (a : Double) (ha : a.Normalized)
    (hneg : a.hi.toRat < 0 → 2 * a.hi.toRat = (⌊2 * a.hi.toRat⌋ : ℤ) → a.hi.toRat ≠ (⌊a.hi.toRat⌋ : ℤ) → a.lo.toRat = 0)
    (hnear : a.lo.toRat < 0 → 2 * a.hi.toRat ≠ (⌊2 * a.hi.toRat⌋ : ℤ) →
      1 / 2 ^ 52 ≤ |(|(roundQ a.hi.toRat : ℚ) - a.hi.toRat|) - 1 / 2|)
    (htie : a.hi.toRat = (⌊a.hi.toRat⌋ : ℤ) → 2 * a.lo.toRat = (⌊2 * a.lo.toRat⌋ : ℤ) →
      a.lo.toRat ≠ (⌊a.lo.toRat⌋ : ℤ) → 0 < a.hi.toRat * a.lo.toRat) :
    a.round.Normalized ∧ a.round.val = (roundQ a.val : ℤ) := by
  obtain ⟨h, l, ia, hn⟩ := ha.norm2
  have hp := one'_posQ
  have two : ∀ {x : F64} {n : ℤ}, Is x n → (2 * x.toRat = (⌊2 * x.toRat⌋ : ℤ) ↔ one' ∣ 2 * n) := by
    intro x n i
    have e : 2 * x.toRat = ((2 * n : ℤ) : ℚ) / one' := by rw [i.toRat]; push_cast; ring
    rw [e, floor_units]
    constructor
    · intro h
      rw [div_eq_iff one'_ne] at h
      exact ⟨fl (2 * n), by rw [mul_comm one']; exact_mod_cast h⟩
    · intro h
      have := fl_of_dvd h
      rw [div_eq_iff one'_ne]
      exact_mod_cast this.symm
  have sgn : ∀ {x : F64} {n : ℤ}, Is x n → (x.toRat < 0 ↔ n < 0) := by
    intro x n i
    rw [i.toRat, div_lt_iff₀ hp, zero_mul]; exact_mod_cast Iff.rfl
  obtain ⟨zh, zl, iz, hz, e⟩ := round_spec ia hn
    (fun h1 h2 h3 => by
      have := hneg ((sgn ia.1).mpr h3) ((two ia.1).mpr h1) (fun hc => h2 ((is_whole_iff ia.1).mp hc))
      rw [ia.2.toRat, div_eq_zero_iff] at this
      rcases this with h | h
      · exact_mod_cast h
      · exact absurd h one'_ne)
    (fun h1 h2 => by
      have := hnear ((sgn ia.2).mpr h1) (fun hc => h2 ((two ia.1).mp hc))
      apply eps_le _ this
      rw [ia.1.toRat, round_units]
      have e1 : (ro h : ℚ) - (h : ℚ) / one' = ((ro h * one' - h : ℤ) : ℚ) / one' := by
        push_cast; rw [sub_div, mul_div_cancel_right₀ _ one'_ne]
      have e2 : (1:ℚ) / 2 = (hf : ℚ) / one' := by
        have : (one' : ℚ) = 2 * hf := by exact_mod_cast one'_hf
        rw [this]
        have : (hf : ℚ) ≠ 0 := by exact_mod_cast hf_pos.ne'
        field_simp
      rw [e1, abs_div_one', e2, ← sub_div, abs_div, abs_of_pos hp]
      push_cast
      rfl)
    (fun h1 h2 h3 => by
      have := htie ((is_whole_iff ia.1).mpr h1) ((two ia.2).mpr h2) (fun hc => h3 ((is_whole_iff ia.2).mp hc))
      rw [ia.1.toRat, ia.2.toRat, div_mul_div_comm, lt_div_iff₀ (by positivity), zero_mul] at this
      have : 0 < h * l := by exact_mod_cast this
      rcases mul_pos_iff.mp this with h | h <;> omega)
  refine ⟨hz.normalized iz, ?_⟩
  rw [ia.val, round_units]
  exact whole_val iz e

example : let a := Double.PI
    a.Normalized ∧ 0 < a.hi.toRat ∧ 0 ≤ a.lo.toRat ∧ a.hi.toRat ≠ (⌊a.hi.toRat⌋ : ℤ) ∧ a.round.val = 3 := by decide +kernel

example : let a := Double.FRAC_1_PI
    a.Normalized ∧ a.lo.toRat < 0 ∧ 2 * a.hi.toRat ≠ (⌊2 * a.hi.toRat⌋ : ℤ) ∧
      1 / 2 ^ 52 ≤ |(|(roundQ a.hi.toRat : ℚ) - a.hi.toRat|) - 1 / 2| := by decide +kernel

/-- `-2.5 - 2^-60`, whose `round` is `-4`. -/
def roundBad1 : Double := ⟨F64.ofRound true (5 * 2 ^ 1073) 1, F64.ofRound true (2 ^ 1014) 1⟩
/-- `-2.5 + 2^-60`, whose `round` is `-3`. -/
def roundBad2 : Double := ⟨F64.ofRound true (5 * 2 ^ 1073) 1, F64.ofRound false (2 ^ 1014) 1⟩
/-- `0.5 - 2^-54 - 2^-120`, whose `round` is `-1`. -/
def roundBad3 : Double := ⟨F64.ofRound false (2 ^ 1073 - 2 ^ 1020) 1, F64.ofRound true (2 ^ 954) 1⟩
/-- `2^53 - 0.5`, a tie which is rounded towards zero. -/
def roundBad4 : Double := ⟨F64.ofRound false (2 ^ 1127) 1, F64.ofRound true (2 ^ 1073) 1⟩

/-- **C20 is false in general**, in each of the three excluded cases. -/
theorem C20_refuted :
    (roundBad1.Normalized ∧ roundQ roundBad1.val = -3 ∧ roundBad1.round.val = -4) ∧
    (roundBad2.Normalized ∧ roundQ roundBad2.val = -2 ∧ roundBad2.round.val = -3) ∧
    (roundBad3.Normalized ∧ roundQ roundBad3.val = 0 ∧ roundBad3.round.val = -1) ∧
    (roundBad4.Normalized ∧ roundQ roundBad4.val = 2 ^ 53 ∧ roundBad4.round.val = 2 ^ 53 - 1) := by
  decide +kernel

/-! ### trunc and fract -/

/-- The numbers for which `trunc` is right: the first component is an integer, or the second does not point towards
zero, or the first is at least `2^-52` away from the next integer towards zero. -/
def TruncOk (a : Double) : Prop :=
  a.hi.toRat = (⌊a.hi.toRat⌋ : ℤ) ∨ 0 ≤ a.hi.toRat * a.lo.toRat ∨ 1 / 2 ^ 52 ≤ |a.hi.toRat - truncQ a.hi.toRat|

instance (a : Double) : Decidable (TruncOk a) := inferInstanceAs (Decidable (_ ∨ _ ∨ _))

theorem truncQ_units {n : ℤ} : truncQ ((n : ℚ) / one') = if 0 ≤ n then fl n else ce n := by
  unfold truncQ
  rw [floor_units, ceil_units]
  have : (0:ℚ) ≤ (n : ℚ) / one' ↔ 0 ≤ n := by
    rw [le_div_iff₀ one'_posQ, zero_mul]; exact_mod_cast Iff.rfl
  simp only [this]

theorem Norm2.sum_nonneg_iff {h l : ℤ} (hn : Norm2 h l) : 0 ≤ h + l ↔ 0 ≤ h := by
  have := hn.lo_le
  norm_num at this
  have n1 := abs_nonneg l
  rcases le_or_gt 0 h with h0 | h0
  · rw [abs_of_nonneg h0] at this
    have := neg_abs_le l
    constructor <;> intro <;> linarith
  · rw [abs_of_neg h0] at this
    have := le_abs_self l
    constructor <;> intro <;> linarith

/-- `trunc` in units, in the good cases. -/
theorem trunc_spec {a : Double} {h l : ℤ} (ia : DIs a h l) (hn : Norm2 h l) (hc : TruncOk a) :
    ∃ zh zl w, DIs a.trunc zh zl ∧ Norm2 zh zl ∧ zh + zl = w * one' ∧ truncQ a.val = w ∧
      (0 ≤ h → w = fl (h + l)) ∧ (h < 0 → w = ce (h + l)) := by
  have hp := one'_posQ
  unfold Double.trunc
  have hge : F64.ge a.hi F64.zero = true ↔ 0 ≤ h := by unfold F64.ge; exact is_zero.le_iff ia.1
  have hhi : a.hi.toRat = (h : ℚ) / one' := ia.1.toRat
  have hlo : a.lo.toRat = (l : ℚ) / one' := ia.2.toRat
  unfold TruncOk at hc
  rw [is_whole_iff ia.1, hhi, hlo, truncQ_units] at hc
  rw [div_mul_div_comm, le_div_iff₀ (by positivity), zero_mul] at hc
  by_cases h0 : 0 ≤ h
  · rw [if_pos (hge.mpr h0)]
    obtain ⟨zh, zl, iz, hz, e⟩ := floor_spec ia hn
    rcases e with e | ⟨h1, h2, h3, _⟩
    · refine ⟨zh, zl, _, iz, hz, e, ?_, fun _ => rfl, fun h1 => absurd h0 (not_le.mpr h1)⟩
      rw [ia.val, truncQ_units, if_pos (hn.sum_nonneg_iff.mpr h0)]
    · exfalso
      rcases hc with hc | hc | hc
      · exact h1 hc
      · have hc' : 0 ≤ h * l := by exact_mod_cast hc
        have : 0 < h := by
          refine lt_of_le_of_ne h0 ?_
          rintro rfl; exact h1 (dvd_zero _)
        have := mul_neg_of_pos_of_neg this h2
        omega
      · rw [if_pos h0] at hc
        have := eps_le (n := h - fl h * one') (q := |(h:ℚ) / one' - fl h|) (by
          have e1 : (h:ℚ) / one' - fl h = ((h - fl h * one' : ℤ) : ℚ) / one' := by
            push_cast; rw [sub_div, mul_div_cancel_right₀ _ one'_ne]
          rw [e1, abs_div_one', abs_of_nonneg (by have := fl_le h; omega)]) hc
        exact absurd h3 (not_lt.mpr this)
  · rw [if_neg (by rw [hge]; exact h0)]
    obtain ⟨zh, zl, iz, hz, e⟩ := ceil_spec ia hn
    rcases e with e | ⟨h1, h2, h3, _⟩
    · refine ⟨zh, zl, _, iz, hz, e, ?_, fun h1 => absurd h1 h0, fun _ => rfl⟩
      rw [ia.val, truncQ_units, if_neg (by rw [hn.sum_nonneg_iff]; exact h0)]
    · exfalso
      rcases hc with hc | hc | hc
      · exact h1 hc
      · have hc' : 0 ≤ h * l := by exact_mod_cast hc
        have := mul_neg_of_neg_of_pos (not_le.mp h0) h2
        omega
      · rw [if_neg h0] at hc
        have := eps_le (n := ce h * one' - h) (q := |(h:ℚ) / one' - ce h|) (by
          have e1 : (h:ℚ) / one' - ce h = -(((ce h * one' - h : ℤ) : ℚ) / one') := by
            push_cast; rw [sub_div, mul_div_cancel_right₀ _ one'_ne]; ring
          rw [e1, abs_neg, abs_div_one', abs_of_nonneg (by
            have := fl_le (-h); unfold ce; linarith)]) hc
        exact absurd h3 (not_lt.mpr this)

/-- **C21 (partial), trunc.** In the good cases `trunc` drops the fraction. -/
theorem C21_trunc_partial (a : Double) (ha : a.Normalized) (hc : TruncOk a) :
    a.trunc.Normalized ∧ a.trunc.val = (truncQ a.val : ℤ) := by
  obtain ⟨h, l, ia, hn⟩ := ha.norm2
  obtain ⟨zh, zl, w, iz, hz, e, ew, _⟩ := trunc_spec ia hn hc
  exact ⟨hz.normalized iz, by rw [ew]; exact whole_val iz e⟩

example : Double.PI.Normalized ∧ TruncOk Double.PI ∧ (-Double.SQRT_2).Normalized ∧ TruncOk (-Double.SQRT_2) := by
  decide +kernel

/-- **C21 (partial), fract.** In the good cases `fract` is exact: `trunc(x) + fract(x)` is `x`. -/
theorem C21_fract_partial (a : Double) (ha : a.Normalized) (hc : TruncOk a) :
    a.fract.Normalized ∧ a.trunc.val + a.fract.val = a.val ∧ |a.fract.val| < 1 ∧ 0 ≤ a.fract.val * a.val := by
  obtain ⟨h, l, ia, hn⟩ := ha.norm2
  obtain ⟨zh, zl, w, iz, hz, e, ew, w1, w2⟩ := trunc_spec ia hn hc
  have hp := one'_pos
  have hpq := one'_posQ
  have hfl := fun n => fl_le n
  have hfu := fun n => lt_fl n
  have bnd : |h + l - w * one'| < one' ∧ 0 ≤ (h + l - w * one') * (h + l) := by
    by_cases h0 : 0 ≤ h
    · have := w1 h0
      have := hfl (h + l); have := hfu (h + l)
      have h1 : 0 ≤ h + l - w * one' := by rw [w1 h0]; linarith
      rw [abs_of_nonneg h1]
      exact ⟨by rw [w1 h0]; linarith, mul_nonneg h1 (hn.sum_nonneg_iff.mpr h0)⟩
    · have h0' := not_le.mp h0
      have := hfl (-(h + l)); have := hfu (-(h + l))
      have h1 : h + l - w * one' ≤ 0 := by rw [w2 h0']; unfold ce; linarith
      rw [abs_of_nonpos h1]
      refine ⟨by rw [w2 h0']; unfold ce; linarith, mul_nonneg_of_nonpos_of_nonpos h1 ?_⟩
      have := mt hn.sum_nonneg_iff.mp h0
      omega
  have key : ∃ rh rl, DIs a.fract rh rl ∧ Norm2 rh rl ∧ rh + rl = h + l - w * one' := by
    unfold Double.fract
    by_cases hd : one' ∣ h
    · by_cases hdl : one' ∣ l
      · -- the number is whole
        have hs : h + l = w * one' := by
          have hd2 := dvd_add hd hdl
          have h1 : one' ∣ h + l - w * one' := dvd_sub hd2 ⟨w, mul_comm _ _⟩
          have := Int.eq_zero_of_abs_lt_dvd h1 bnd.1
          linarith
        have hzh : zh = h := by
          have := hz.rnd_eq; rw [e, ← hs, hn.rnd_eq] at this; exact this.symm
        subst hzh
        have hzl : zl = l := by linarith
        subst hzl
        exact ⟨0, 0, dis_sub_self ia iz, norm2_zero_right .zero, by rw [← hs]; ring⟩
      · have := sub_whole ia hn iz hz hd (W := w * one' - h) (dvd_sub ⟨w, mul_comm _ _⟩ hd)
          (by have e1 : l - (w * one' - h) = h + l - w * one' := by ring
              rw [e1]; exact bnd.1) hdl (by rw [e]; ring)
        obtain ⟨rh, rl, i, n, er⟩ := this
        exact ⟨rh, rl, i, n, by rw [er]; ring⟩
    · -- whole part in one component
      have hfe := hn.fl_eq ia.1.lt hd
      have hce := ce_add h l (hn.swap_sign.fl_eq (by rw [abs_neg]; exact ia.1.lt) (by rwa [dvd_neg]))
      have hb : |h - w * one'| < one' ∧ |h - w * one'| ≤ |h| := by
        by_cases h0 : 0 ≤ h
        · have a1 := hfl h; have a2 := hfu h
          have ww : w = fl h := by rw [w1 h0, hfe]
          have hw0 : 0 ≤ w := by
            by_contra hc
            have : w * one' ≤ -1 * one' := mul_le_mul_of_nonneg_right (by omega) hp.le
            rw [ww] at this
            linarith
          have : 0 ≤ w * one' := mul_nonneg hw0 hp.le
          rw [abs_of_nonneg (show 0 ≤ h - w * one' by rw [ww]; linarith), abs_of_nonneg h0]
          exact ⟨by rw [ww]; linarith, by linarith⟩
        · have h0' := not_le.mp h0
          have a1 := hfl (-h); have a2 := hfu (-h)
          have ww : w = ce h := by rw [w2 h0', hce]
          unfold ce at ww
          have hw0 : w ≤ 0 := by
            by_contra hc
            have : 1 * one' ≤ w * one' := mul_le_mul_of_nonneg_right (by omega) hp.le
            rw [ww] at this
            linarith
          have : w * one' ≤ 0 := mul_nonpos_of_nonpos_of_nonneg hw0 hp.le
          rw [abs_of_nonpos (show h - w * one' ≤ 0 by rw [ww]; linarith), abs_of_neg h0']
          exact ⟨by rw [ww]; linarith, by linarith⟩
      have hr := (rep_whole (w := w) hn.rep_hi ia.1.lt (fun h' => absurd h' hd) (by
        rw [abs_sub_comm]; exact hb.1.le)).1
      have hzh : zh = w * one' := by
        have := hz.rnd_eq; rw [e, rnd_of_rep hr] at this; exact this.symm
      have hzl : zl = 0 := by linarith
      subst hzl; subst hzh
      exact sub_whole_frac ia hn iz hd hb.1 hb.2
  obtain ⟨rh, rl, ir, nr, er⟩ := key
  refine ⟨nr.normalized ir, ?_, ?_, ?_⟩
  · rw [iz.val, ir.val, ia.val, ← add_div, e, er]; push_cast; ring
  · rw [ir.val, er, abs_div_one', div_lt_one hpq]
    exact_mod_cast bnd.1
  · rw [ir.val, er, ia.val, div_mul_div_comm]
    apply div_nonneg _ (by positivity)
    exact_mod_cast bnd.2

example : Double.PI.Normalized ∧ TruncOk Double.PI ∧ (-Double.SQRT_2).Normalized ∧ TruncOk (-Double.SQRT_2) ∧
    roundBad4.Normalized ∧ TruncOk roundBad4 := by decide +kernel

/-- **C21 is false in general**: `trunc(2^-60 - 2^-120)` is `-1` and `fract` of it exceeds `1`. -/
theorem C21_refuted : floorBad.Normalized ∧ floorBad.trunc.val = -1 ∧ 1 < floorBad.fract.val := by
  decide +kernel

end Verif
