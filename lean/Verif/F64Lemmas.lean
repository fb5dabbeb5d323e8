import Verif.F64
import Verif.EFT

/-!
# Bridge between the executable `F64` operations and exact integer/rational arithmetic

`Is x n` says: `x` is finite and its exact value is `n` units of `2^-1074`.
-/

namespace Verif

open F64

/-- Overflow threshold in units: `2^1024`. -/
@[irreducible] def ovf : ℤ := 2 ^ 2098

/-- Number of units in one: `2^1074`. -/
@[irreducible] def one' : ℤ := 2 ^ 1074

theorem ovf_natCast {m : ℕ} : (m : ℤ) < ovf ↔ m < 2 ^ 2098 := by
  unfold ovf; exact_mod_cast Iff.rfl

theorem one'_pos : 0 < one' := by unfold one'; positivity

theorem one'_posQ : (0:ℚ) < one' := by exact_mod_cast one'_pos

theorem one'_ne : (one' : ℚ) ≠ 0 := one'_posQ.ne'

theorem one'_nat : ((2 ^ 1074 : ℕ) : ℤ) = one' := by unfold one'; exact Nat.cast_pow 2 1074

theorem one'_natQ : ((2 ^ 1074 : ℕ) : ℚ) = one' := by rw [← one'_nat]; exact (Int.cast_natCast _).symm

theorem pow_pos_nat (k : ℕ) : 0 < 2 ^ k := Nat.pow_pos (by norm_num)

/-- `x` is finite with exact value `n` units. -/
def Is (x : F64) (n : ℤ) : Prop := x.isFinite = true ∧ x.units = n

theorem Is.unique {x : F64} {m n : ℤ} (h : Is x m) (h' : Is x n) : m = n := h.2.symm.trans h'.2

theorem is_fin {s : Bool} {m : ℕ} {h : IsMag m} {n : ℤ} :
    Is (.fin s m h) n ↔ n = if s then -(m : ℤ) else m := by
  unfold Is isFinite units; simp [eq_comm]

theorem Is.exists {x : F64} {n : ℤ} (h : Is x n) :
    ∃ s m hm, x = .fin s m hm ∧ n = if s then -(m : ℤ) else m := by
  cases x with
  | nan s => simp [Is, isFinite] at h
  | inf s => simp [Is, isFinite] at h
  | fin s m hm => exact ⟨s, m, hm, rfl, is_fin.mp h⟩

theorem Is.of_finite {x : F64} (h : x.isFinite = true) : Is x x.units := ⟨h, rfl⟩

theorem Is.congr {x : F64} {m n : ℤ} (h : Is x m) (e : m = n) : Is x n := e ▸ h

theorem is_zero : Is F64.zero 0 := by simp [F64.zero, is_fin]
theorem is_negZero : Is F64.negZero 0 := by simp [F64.negZero, is_fin]

theorem Is.rep {x : F64} {n : ℤ} (h : Is x n) : Rep n := by
  obtain ⟨s, m, hm, rfl, rfl⟩ := h.exists
  have := ((isMag_iff m).mp hm).2
  split_ifs
  · exact this.neg
  · exact this

theorem Is.lt {x : F64} {n : ℤ} (h : Is x n) : |n| < ovf := by
  obtain ⟨s, m, hm, rfl, rfl⟩ := h.exists
  have h1 := ((isMag_iff m).mp hm).1
  have h2 : (m : ℤ) < ovf := ovf_natCast.mpr h1
  split_ifs
  · rw [abs_neg, abs_of_nonneg (Int.natCast_nonneg m)]; exact h2
  · rw [abs_of_nonneg (Int.natCast_nonneg m)]; exact h2

/-- Every representable integer below the overflow bound is the value of some `F64`. -/
theorem exists_is {n : ℤ} (hr : Rep n) (hlt : |n| < ovf) : ∃ x, Is x n := by
  have hm : IsMag n.natAbs := by
    rw [isMag_iff]
    constructor
    · rw [← ovf_natCast, Int.natCast_natAbs]; exact hlt
    · rcases Int.natAbs_eq n with h | h
      · rw [← h]; exact hr
      · have : ((n.natAbs : ℕ) : ℤ) = -n := by omega
        rw [this]; exact hr.neg
  refine ⟨.fin (decide (n < 0)) n.natAbs hm, ?_⟩
  rw [is_fin]
  split_ifs with h
  · simp at h; omega
  · simp at h; omega

theorem Is.neg {x : F64} {n : ℤ} (h : Is x n) : Is x.neg (-n) := by
  obtain ⟨s, m, hm, rfl, rfl⟩ := h.exists
  cases s <;> simp [F64.neg, is_fin]

theorem Is.abs {x : F64} {n : ℤ} (h : Is x n) : Is x.abs |n| := by
  obtain ⟨s, m, hm, rfl, rfl⟩ := h.exists
  cases s <;> simp [F64.abs, is_fin]

theorem is_ofRound {s : Bool} {num den : ℕ} (hd : 0 < den) {q : ℚ}
    (hq : q = (if s then -1 else 1) * ((num : ℚ) / den)) (hlt : |rnd q| < ovf) :
    Is (ofRound s num den) (rnd q) := by
  have h1 := rnd_eq_roundMag num hd
  have h2 : rnd q = if s then -(roundMag num den : ℤ) else roundMag num den := by
    cases s
    · simp at hq; simp [hq, h1]
    · simp at hq; simp [hq, rnd_neg, h1]
  unfold ofRound
  have h3 : roundMag num den < 2 ^ 2098 := by
    rw [h2] at hlt
    rw [← ovf_natCast]
    cases s <;> simpa using hlt
  rw [dif_pos hd, dif_pos h3, is_fin, h2]

theorem ofRound_inf {s : Bool} {num den : ℕ} (hd : 0 < den) {q : ℚ}
    (hq : q = (if s then -1 else 1) * ((num : ℚ) / den)) (hlt : ovf ≤ |rnd q|) :
    ofRound s num den = .inf s := by
  have h1 := rnd_eq_roundMag num hd
  have h2 : rnd q = if s then -(roundMag num den : ℤ) else roundMag num den := by
    cases s
    · simp at hq; simp [hq, h1]
    · simp at hq; simp [hq, rnd_neg, h1]
  unfold ofRound
  have h3 : ¬ roundMag num den < 2 ^ 2098 := by
    rw [h2] at hlt
    rw [← ovf_natCast, not_lt]
    cases s <;> simpa using hlt
  rw [dif_pos hd, dif_neg h3]

theorem is_ofSum {sa sb : Bool} {A B den : ℕ} (hd : 0 < den) {q : ℚ}
    (hq : q = (((if sa then -(A:ℤ) else A) + (if sb then -(B:ℤ) else B) : ℤ) : ℚ) / den)
    (hlt : |rnd q| < ovf) : Is (ofSum sa A sb B den) (rnd q) := by
  unfold ofSum
  split_ifs with h1 h2 h3
  · apply is_ofRound hd _ hlt
    subst h1
    rw [hq]
    cases sa
    · simp
    · simp; ring
  · apply is_ofRound hd _ hlt
    rw [hq]
    rw [Nat.cast_sub h2.le]
    cases sa <;> cases sb <;> simp at h1 ⊢ <;> ring
  · apply is_ofRound hd _ hlt
    rw [hq]
    rw [Nat.cast_sub h3.le]
    cases sa <;> cases sb <;> simp at h1 ⊢ <;> ring
  · have : A = B := by omega
    subst this
    have : q = 0 := by rw [hq]; cases sa <;> cases sb <;> simp at h1 ⊢
    rw [this, rnd_zero]; exact is_zero

theorem Is.add' {a b : F64} {m n : ℤ} (ha : Is a m) (hb : Is b n) (h : |rnd ((m + n : ℤ) : ℚ)| < ovf) :
    Is (F64.add a b) (rnd ((m + n : ℤ) : ℚ)) := by
  obtain ⟨s, x, hx, rfl, rfl⟩ := ha.exists
  obtain ⟨t, y, hy, rfl, rfl⟩ := hb.exists
  unfold F64.add
  apply is_ofSum (by norm_num) _ h
  simp

theorem lt_of_bound {x : ℚ} {B : ℤ} (hB : Rep B) (hlt : B < ovf) (h : |x| ≤ B) : |rnd x| < ovf :=
  lt_of_le_of_lt (abs_rnd_le hB h) hlt

/-- Largest bound used: `2^1024 - 2^971`, the largest finite `f64`. -/
@[irreducible] def omegaUnits : ℤ := 2 ^ 2045 * (2 ^ 53 - 1)

theorem rep_omega : Rep omegaUnits := ⟨2 ^ 53 - 1, 2045, by norm_num, by unfold omegaUnits; ring⟩

theorem omega_lt : omegaUnits < ovf := by
  have h : ovf = 2 ^ 2045 * 2 ^ 53 := by unfold ovf; rw [← pow_add]
  have h2 : (0:ℤ) < 2 ^ 2045 := Int.pow_pos (by norm_num)
  unfold omegaUnits
  rw [h]
  exact mul_lt_mul_of_pos_left (by norm_num) h2

theorem Is.add {a b : F64} {m n : ℤ} (ha : Is a m) (hb : Is b n) (h : |m + n| ≤ omegaUnits) :
    Is (F64.add a b) (rnd ((m + n : ℤ) : ℚ)) :=
  ha.add' hb (lt_of_bound rep_omega omega_lt (by exact_mod_cast h))

theorem Is.sub {a b : F64} {m n : ℤ} (ha : Is a m) (hb : Is b n) (h : |m - n| ≤ omegaUnits) :
    Is (F64.sub a b) (rnd ((m - n : ℤ) : ℚ)) := by
  unfold F64.sub
  have := ha.add hb.neg (by rwa [← sub_eq_add_neg])
  rwa [← sub_eq_add_neg] at this

theorem Is.mul {a b : F64} {m n : ℤ} (ha : Is a m) (hb : Is b n) (h : |(m * n : ℚ) / one'| ≤ (omegaUnits : ℚ)) :
    Is (F64.mul a b) (rnd ((m * n : ℚ) / one')) := by
  have hlt := lt_of_bound rep_omega omega_lt h
  clear h
  obtain ⟨s, x, hx, rfl, rfl⟩ := ha.exists
  obtain ⟨t, y, hy, rfl, rfl⟩ := hb.exists
  unfold F64.mul
  apply is_ofRound (pow_pos_nat _) _ hlt
  rw [one'_natQ]
  cases s <;> cases t <;> simp [neg_div]

theorem Is.div {a b : F64} {m n : ℤ} (ha : Is a m) (hb : Is b n) (hn : n ≠ 0)
    (h : |(m * one' : ℚ) / n| ≤ (omegaUnits : ℚ)) : Is (F64.div a b) (rnd ((m * one' : ℚ) / n)) := by
  have hlt := lt_of_bound rep_omega omega_lt h
  clear h
  obtain ⟨s, x, hx, rfl, rfl⟩ := ha.exists
  obtain ⟨t, y, hy, rfl, rfl⟩ := hb.exists
  have hy0 : y ≠ 0 := by
    rintro rfl; apply hn; cases t <;> simp
  unfold F64.div
  simp only []
  rw [if_neg hy0]
  apply is_ofRound (by omega) _ hlt
  rw [Nat.cast_mul, one'_natQ]
  cases s <;> cases t <;> simp [neg_div, div_neg]

theorem Is.fma {a b c : F64} {m n l : ℤ} (ha : Is a m) (hb : Is b n) (hc : Is c l)
    (h : |(m * n : ℚ) / one' + l| ≤ (omegaUnits : ℚ)) : Is (F64.fma a b c) (rnd ((m * n : ℚ) / one' + l)) := by
  have hlt := lt_of_bound rep_omega omega_lt h
  clear h
  obtain ⟨s, x, hx, rfl, rfl⟩ := ha.exists
  obtain ⟨t, y, hy, rfl, rfl⟩ := hb.exists
  obtain ⟨u, z, hz, rfl, rfl⟩ := hc.exists
  unfold F64.fma
  apply is_ofSum (pow_pos_nat _) _ hlt
  have hp := one'_ne
  rw [one'_natQ, Nat.cast_mul z, one'_nat]
  generalize one' = P at *
  cases s <;> cases t <;> cases u <;> simp <;> field_simp <;> ring

/-! ### Order -/

theorem Is.key {a : F64} {m : ℤ} (h : Is a m) : F64.key a = some m := by
  obtain ⟨s, x, hx, rfl, rfl⟩ := h.exists
  rfl

theorem Is.eq_iff {a b : F64} {m n : ℤ} (ha : Is a m) (hb : Is b n) : F64.eq a b = true ↔ m = n := by
  unfold F64.eq; rw [ha.key, hb.key]; simp

theorem Is.lt_iff {a b : F64} {m n : ℤ} (ha : Is a m) (hb : Is b n) : F64.lt a b = true ↔ m < n := by
  unfold F64.lt; rw [ha.key, hb.key]; simp

theorem Is.le_iff {a b : F64} {m n : ℤ} (ha : Is a m) (hb : Is b n) : F64.le a b = true ↔ m ≤ n := by
  unfold F64.le; rw [ha.key, hb.key]; simp

theorem Is.partialCmp {a b : F64} {m n : ℤ} (ha : Is a m) (hb : Is b n) :
    F64.partialCmp a b = some (compare m n) := by
  unfold F64.partialCmp; rw [ha.key, hb.key]

theorem Is.not_nan {a : F64} {m : ℤ} (h : Is a m) : a.isNan = false := by
  obtain ⟨s, x, hx, rfl, rfl⟩ := h.exists; rfl

theorem Is.not_inf {a : F64} {m : ℤ} (h : Is a m) : a.isInfinite = false := by
  obtain ⟨s, x, hx, rfl, rfl⟩ := h.exists; rfl

theorem Is.toRat {a : F64} {m : ℤ} (h : Is a m) : a.toRat = (m : ℚ) / one' := by
  unfold F64.toRat one'; rw [h.2, Int.cast_pow]; rfl

end Verif
