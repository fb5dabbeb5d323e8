import Verif.Proofs.QuadInts

/-!
# C16, C58: integers as Quads, renormalization of four components
-/

namespace Verif

open F64 Prim Util

theorem QIs.val_int {q : Quad} {z : ℤ × ℤ × ℤ × ℤ} {n : ℤ} (h : QIs q z) (e : sum4 z = n * one') : q.val = n := by
  rw [h.val, e]
  push_cast
  rw [mul_div_assoc, div_self one'_ne, mul_one]

/-- **C16.** `Quad::from` of every integer of up to 32 bits is exact and normalized. -/
theorem C16_small (a : ℤ) (h1 : -2 ^ 31 ≤ a) (h2 : a < 2 ^ 32) :
    (Quad.ofSmallInt a).Normalized ∧ (Quad.ofSmallInt a).val = a := by
  have i := is_ofInt (n := a) (by rw [abs_le]; constructor <;> norm_num at * <;> linarith)
  unfold Quad.ofSmallInt
  generalize F64.ofInt a = x at *
  have hq : QIs ⟨x, F64.zero, F64.zero, F64.zero⟩ (a * one', 0, 0, 0) := ⟨i, is_zero, is_zero, is_zero⟩
  refine ⟨⟨hq.fin, ?_, ?_, ?_⟩, hq.val_int (by unfold sum4; ring)⟩
  · exact ((i.add_zero is_zero).eq_iff i).mpr rfl
  · exact ((is_zero.add_zero is_zero).eq_iff is_zero).mpr rfl
  · exact ((is_zero.add_zero is_zero).eq_iff is_zero).mpr rfl

/-- **C16.** `Quad::from` of every `u64` is exact and normalized. -/
theorem C16_u64 (a : ℕ) (h : a < 2 ^ 64) : (Quad.ofU64 a).Normalized ∧ (Quad.ofU64 a).val = a := by
  obtain ⟨z, i, o, e⟩ := qis_ofU64 a h
  exact ⟨i.normalized_iff.mpr o, by exact_mod_cast i.val_int (n := a) e⟩

/-- **C16.** `Quad::from` of every `u128`, up to and including `u128::MAX`, is exact. -/
theorem C16_u128_partial (a : ℕ) (h : a < 2 ^ 128) : (Quad.ofU128 a).Ordered ∧ (Quad.ofU128 a).val = a := by
  obtain ⟨z, i, o, e⟩ := qis_ofU128 a h
  exact ⟨i.ordered_iff.mpr o, by exact_mod_cast i.val_int (n := a) e⟩

theorem ordered_neg {q : Quad} (h : q.Ordered) : (-q).Ordered ∧ (-q).val = -q.val := by
  have i := QIs.of_fin h.1
  refine ⟨i.neg.ordered_iff.mpr (i.ordered_iff.mp h).neg, ?_⟩
  rw [i.neg.val, i.val, sum4_neg]; push_cast; ring

theorem normalized_neg {q : Quad} (h : q.Normalized) : (-q).Normalized ∧ (-q).val = -q.val := by
  have i := QIs.of_fin h.1
  refine ⟨i.neg.normalized_iff.mpr (i.normalized_iff.mp h).neg, ?_⟩
  rw [i.neg.val, i.val, sum4_neg]; push_cast; ring

/-- **C16.** `Quad::from` of every `i64`, down to and including `i64::MIN`. -/
theorem C16_i64 (a : ℤ) (h1 : -2 ^ 63 ≤ a) (h2 : a < 2 ^ 63) : (Quad.ofI64 a).Normalized ∧ (Quad.ofI64 a).val = a := by
  have em : (if a = -2 ^ 63 then (2 ^ 63 - 1) + 1 else a.natAbs) = a.natAbs := by split_ifs <;> omega
  unfold Quad.ofI64
  rw [em]
  have hu := C16_u64 a.natAbs (by omega)
  by_cases hs : a.sign = -1
  · have hn := normalized_neg hu.1
    have ha : a < 0 := Int.sign_eq_neg_one_iff_neg.mp hs
    simp only [hs, if_true]
    refine ⟨hn.1, hn.2.trans ?_⟩
    rw [hu.2, Nat.cast_natAbs, abs_of_neg ha]; push_cast; ring
  · have ha : 0 ≤ a := not_lt.mp fun h => hs (Int.sign_eq_neg_one_iff_neg.mpr h)
    simp only [hs, if_false]
    refine ⟨hu.1, hu.2.trans ?_⟩
    rw [Nat.cast_natAbs, abs_of_nonneg ha]

/-- **C16.** `Quad::from` of every `i128`, down to and including `i128::MIN`. -/
theorem C16_i128_partial (a : ℤ) (h1 : -2 ^ 127 ≤ a) (h2 : a < 2 ^ 127) :
    (Quad.ofI128 a).Ordered ∧ (Quad.ofI128 a).val = a := by
  have em : (if a = -2 ^ 127 then (2 ^ 127 - 1) + 1 else a.natAbs) = a.natAbs := by split_ifs <;> omega
  unfold Quad.ofI128
  rw [em]
  have hu := C16_u128_partial a.natAbs (by omega)
  by_cases hs : a.sign = -1
  · have hn := ordered_neg hu.1
    have ha : a < 0 := Int.sign_eq_neg_one_iff_neg.mp hs
    simp only [hs, if_true]
    refine ⟨hn.1, hn.2.trans ?_⟩
    rw [hu.2, Nat.cast_natAbs, abs_of_neg ha]; push_cast; ring
  · have ha : 0 ≤ a := not_lt.mp fun h => hs (Int.sign_eq_neg_one_iff_neg.mpr h)
    simp only [hs, if_false]
    refine ⟨hu.1, hu.2.trans ?_⟩
    rw [Nat.cast_natAbs, abs_of_nonneg ha]

example : (Quad.ofU128 (2 ^ 128 - 1)).Ordered ∧ (Quad.ofU128 (2 ^ 128 - 1)).val = (2 ^ 128 - 1 : ℕ) :=
  C16_u128_partial _ (by norm_num)
example : (Quad.ofI128 (-2 ^ 127)).Ordered ∧ (Quad.ofI128 (-2 ^ 127)).val = (-2 ^ 127 : ℤ) :=
  C16_i128_partial _ (by norm_num) (by norm_num)
example : (Quad.ofI64 (-2 ^ 63)).Normalized ∧ (Quad.ofI64 (-2 ^ 63)).val = (-2 ^ 63 : ℤ) :=
  C16_i64 _ (by norm_num) (by norm_num)

/-- **C16 does not hold as stated:** the `u128` `2^127 + 2^74 + 1` becomes a Quad whose second component exceeds half a
unit in the last place of the first, so it is not normalized (and differs, as a `Quad`, from the normalized
representation of the same number). -/
theorem C16_refuted : ¬ (Quad.ofU128 (2 ^ 127 + 2 ^ 95 + 2 ^ 74 + 2 ^ 41)).Normalized := by decide +kernel

/-- **C58.** `renorm4` of four finite numbers, each at most half of the one before it: the exact sum is kept and the
components of the result fall off by a factor `2^52` at least. -/
theorem C58_renorm4_partial (a b c d : F64) (ha : a.isFinite = true) (hb : b.isFinite = true) (hc : c.isFinite = true)
    (hd : d.isFinite = true) (hab : 2 * |b.toRat| ≤ |a.toRat|) (hbc : 2 * |c.toRat| ≤ |b.toRat|)
    (hcd : 2 * |d.toRat| ≤ |c.toRat|) (hmax : |a.toRat| ≤ 2 ^ 1000) :
    (Quad.ofRenorm4 a b c d).Ordered ∧ (Quad.ofRenorm4 a b c d).val = a.toRat + b.toRat + c.toRat + d.toRat := by
  have ia := Is.of_finite ha
  have ib := Is.of_finite hb
  have ic := Is.of_finite hc
  have id := Is.of_finite hd
  have e1 := (toRat_le_iff ib ia 2).mp (by exact_mod_cast hab)
  have e2 := (toRat_le_iff ic ib 2).mp (by exact_mod_cast hbc)
  have e3 := (toRat_le_iff id ic 2).mp (by exact_mod_cast hcd)
  have hm : |a.units| ≤ 2 ^ 1000 * one' := by
    have hp := one'_posQ
    rw [ia.toRat, abs_div, abs_of_pos hp, div_le_iff₀ hp] at hmax
    exact_mod_cast hmax
  have v := QIs.val (q := ⟨a, b, c, d⟩) (z := (a.units, b.units, c.units, d.units)) ⟨ia, ib, ic, id⟩
  unfold Quad.val at v
  simp only at v
  rw [v]
  clear hmax hab hbc hcd v
  generalize a.units = m at *
  generalize b.units = n at *
  generalize c.units = p at *
  generalize d.units = q at *
  have r1 := abs_rs_le_two ic.rep (b := q) (by have := abs_nonneg q; omega)
  have r2 := abs_rs_le_two ib.rep (b := rs p q) (by omega)
  have n1 := abs_nonneg n
  have n2 := abs_nonneg p
  have n3 := abs_nonneg q
  have ok : Rn4Ok m n p q := by
    refine ⟨ia.rep, ib.rep, ic.rep, id.rep, .of_abs_le ic.rep id.rep ?_, .of_abs_le ib.rep (rep_rs _ _) ?_,
      .of_abs_le ia.rep (rep_rs _ _) ?_, .of_abs_le ia.rep (rep_rs _ _) ?_⟩ <;> omega
  have hl : 1024 * (|m| + |n| + |p| + |q|) ≤ lim := by
    have hq : 2 ^ 12 * (2 ^ 1000 * one') ≤ lim := by
      unfold one'; rw [← pow_add, ← pow_add]; exact pow_le_lim (by norm_num)
    generalize (2:ℤ) ^ 1000 * one' = M at *
    omega
  have i : QIs (Quad.ofRenorm4 a b c d) (rn4 m n p q) := is_renorm4 ia ib ic id ok hl
  refine ⟨i.ordered_iff.mpr (rn4_ord ok), ?_⟩
  rw [i.val, rn4_sum]; rfl

/-- The hypotheses are met. -/
example : ∃ a b c d : F64, (Quad.ofRenorm4 a b c d).Ordered ∧
    (Quad.ofRenorm4 a b c d).val = a.toRat + b.toRat + c.toRat + d.toRat ∧ d.toRat ≠ 0 := by
  refine ⟨F64.ofInt 100, F64.ofInt 7, F64.ofInt (-3), F64.ofInt 1, ?_, ?_, ?_⟩ <;> decide +kernel

/-- **C58 does not hold as stated:** `renorm4` of four numbers, each at most half of the one before it, can return a
component larger than half a unit in the last place of its predecessor. -/
theorem C58_refuted : ∃ a b c d : F64, 2 * |b.toRat| ≤ |a.toRat| ∧ 2 * |c.toRat| ≤ |b.toRat| ∧ 2 * |d.toRat| ≤ |c.toRat| ∧
    ¬ (Quad.ofRenorm4 a b c d).Normalized := by
  refine ⟨F64.ofInt (2 ^ 127), F64.ofInt (2 ^ 95 + 2 ^ 74), F64.ofInt (2 ^ 41), F64.ofInt 0, ?_, ?_, ?_, ?_⟩ <;> decide +kernel

end Verif
