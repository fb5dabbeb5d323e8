import Verif.Proofs.Renorm5Exact
import Verif.Proofs.QuadInts
import Verif.Proofs.DoubleAdd
import Verif.Proofs.Lift

/-!
# C58: renormalization and the helper sums

Statements about `renorm2`, `renorm3`, `renorm5`, `three_two_sum`, `three_three_sum` and `accumulate`.
-/

namespace Verif

open F64 Prim Util

theorem units_le_of_toRat {a : F64} {m : ℤ} (ia : Is a m) (h : |a.toRat| ≤ 2 ^ 1000) : |m| ≤ 2 ^ 1000 * one' := by
  have hp := one'_posQ
  rw [ia.toRat, abs_div, abs_of_pos hp, div_le_iff₀ hp] at h
  exact_mod_cast h

theorem big_le_lim : 2 ^ 20 * (2 ^ 1000 * one') * 4 ≤ lim := by
  have : (4:ℤ) = 2 ^ 2 := by norm_num
  rw [this]
  unfold one'; rw [← pow_add, ← pow_add, ← pow_add]; exact pow_le_lim (by norm_num)

/-- **C58 (`renorm2`).** For finite numbers, the second not larger than the first in magnitude, `renorm2` returns a
normalized pair with exactly the same sum. -/
theorem C58_renorm2 (a b : F64) (ha : a.isFinite = true) (hb : b.isFinite = true) (hab : |b.toRat| ≤ |a.toRat|)
    (hmax : |a.toRat| ≤ 2 ^ 1000) :
    (Double.mk (renorm2 a b).1 (renorm2 a b).2).Normalized ∧
      (Double.mk (renorm2 a b).1 (renorm2 a b).2).val = a.toRat + b.toRat := by
  have ia := Is.of_finite ha
  have ib := Is.of_finite hb
  have e1 := (toRat_le_iff ib ia 1).mp (by rw [Int.cast_one, one_mul]; exact hab)
  have hm := units_le_of_toRat ia hmax
  have hl := big_le_lim
  have v := DIs.val (d := ⟨a, b⟩) ⟨ia, ib⟩
  have v' : a.toRat + b.toRat = (Double.mk a b).val := rfl
  rw [v', v]
  clear hmax hab v v'
  generalize a.units = m at *
  generalize b.units = n at *
  have n1 := abs_nonneg m
  have n2 := abs_nonneg n
  have g : Grid m n := .of_abs_le ia.rep ib.rep (by omega)
  have i := is_quickTwoSum ia ib g (by generalize (2:ℤ) ^ 1000 * one' = M at *; omega)
  have d : DIs ⟨(renorm2 a b).1, (renorm2 a b).2⟩ (rs m n) (re m n) := i
  exact ⟨(normalized_iff d).mpr (norm2_rs_re ia.rep ib.rep), by rw [d.val, rs_add_re]⟩

example : (Double.mk (renorm2 (F64.ofInt (2 ^ 53)) (F64.ofInt 3)).1 (renorm2 (F64.ofInt (2 ^ 53)) (F64.ofInt 3)).2).val
    = 2 ^ 53 + 3 := by
  rw [(C58_renorm2 _ _ (by decide +kernel) (by decide +kernel) (by decide +kernel) (by
    have : (F64.ofInt (2 ^ 53)).toRat = 2 ^ 53 := by decide +kernel
    rw [this, abs_of_pos (by norm_num)]
    exact pow_le_pow_right₀ (by norm_num) (by norm_num))).2]
  decide +kernel

/-- The magnitudes must not increase: with the smaller number first `renorm2` loses the other one's digits. -/
theorem C58_renorm2_order_refuted : ∃ a b : F64, a.isFinite = true ∧ b.isFinite = true ∧
    (Double.mk (renorm2 a b).1 (renorm2 a b).2).val ≠ a.toRat + b.toRat := by
  refine ⟨F64.ofInt (2 ^ 53 - 1), F64.ofInt (2 ^ 106 - 2 ^ 53), ?_, ?_, ?_⟩ <;> decide +kernel

/-- **C58 does not hold of `renorm3`** (the helper at the end of Double division): for three numbers of quickly falling
magnitude it drops the third one entirely although the sum fits a Double, because it passes the smaller operand first in
its second step. -/
theorem C58_renorm3_refuted : ∃ a b c : F64, 2 ^ 50 * |b.toRat| ≤ |a.toRat| ∧ 2 * |c.toRat| ≤ |b.toRat| ∧
    (Double.mk (renorm3 a b c).1 (renorm3 a b c).2).val ≠ a.toRat + b.toRat + c.toRat ∧
    a.toRat + b.toRat + c.toRat = (Double.mk a (F64.add b c)).val ∧ (Double.mk a (F64.add b c)).Normalized := by
  refine ⟨F64.ofInt (2 ^ 80), F64.ofInt (2 ^ 20), F64.ofInt 1, ?_, ?_, ?_, ?_, ?_⟩ <;> decide +kernel

/-- Facts about the second pass of `renorm5` for inputs that fall off by a factor of two. -/
theorem rn5_facts {A B C D E : ℤ} (ra : Rep A) (rb : Rep B) (rc : Rep C) (rd : Rep D) (re' : Rep E)
    (h1 : 2 * |B| ≤ |A|) (h2 : 2 * |C| ≤ |B|) (h3 : 2 * |D| ≤ |C|) (h4 : 2 * |E| ≤ |D|) :
    (Grid D E ∧ Grid C (rs D E) ∧ Grid B (rs C (rs D E)) ∧ Grid A (rs B (rs C (rs D E)))) ∧
    Rn5Facts (rs A (rs B (rs C (rs D E)))) (re A (rs B (rs C (rs D E)))) (re B (rs C (rs D E))) (re C (rs D E)) (re D E) := by
  have n1 := abs_nonneg B
  have n2 := abs_nonneg C
  have n3 := abs_nonneg D
  have n4 := abs_nonneg E
  have r1 := abs_rs_le_two rd (b := E) (by omega)
  have r2 := abs_rs_le_two rc (b := rs D E) (by omega)
  have r3 := abs_rs_le_two rb (b := rs C (rs D E)) (by omega)
  have g1 : Grid D E := .of_abs_le rd re' (by omega)
  have gc1 : Grid C (rs D E) := .of_abs_le rc (rep_rs _ _) (by omega)
  have gb1 : Grid B (rs D E) := .of_abs_le rb (rep_rs _ _) (by omega)
  have ga1 : Grid A (rs D E) := .of_abs_le ra (rep_rs _ _) (by omega)
  have gb2 : Grid B (rs C (rs D E)) := .of_abs_le rb (rep_rs _ _) (by omega)
  have ga2 : Grid A (rs C (rs D E)) := .of_abs_le ra (rep_rs _ _) (by omega)
  have ga3 : Grid A (rs B (rs C (rs D E))) := .of_abs_le ra (rep_rs _ _) (by omega)
  have b1 : 2 * |re D E| ≤ 2 ^ expo ((rs D E : ℤ) : ℚ) := re_lt_of_rs (expo_int_lt _)
  have b2 : 2 * |re C (rs D E)| ≤ 2 ^ expo ((rs C (rs D E) : ℤ) : ℚ) := re_lt_of_rs (expo_int_lt _)
  have b3 : 2 * |re B (rs C (rs D E))| ≤ 2 ^ expo ((rs B (rs C (rs D E)) : ℤ) : ℚ) := re_lt_of_rs (expo_int_lt _)
  refine ⟨⟨g1, gc1, gb2, ga3⟩, ⟨rep_rs _ _, re_of_grid ra ga3, re_of_grid rb gb2, re_of_grid rc gc1, re_of_grid rd g1,
    re_lo (re_of_grid ra ga3), ⟨_, ?_, ?_, b3⟩, ⟨_, ?_, ?_, ?_, b2⟩, ⟨_, ?_, ?_, ?_, ?_, b1⟩⟩⟩
  · exact dvd_rs ga3.expo_dvd ga3.rep.dvd
  · exact dvd_re ga3.expo_dvd ga3.rep.dvd
  · exact dvd_rs ga2.expo_dvd (dvd_rs gb2.expo_dvd gb2.rep.dvd)
  · exact dvd_re ga2.expo_dvd (dvd_rs gb2.expo_dvd gb2.rep.dvd)
  · exact dvd_re gb2.expo_dvd gb2.rep.dvd
  · exact dvd_rs ga1.expo_dvd (dvd_rs gb1.expo_dvd (dvd_rs gc1.expo_dvd gc1.rep.dvd))
  · exact dvd_re ga1.expo_dvd (dvd_rs gb1.expo_dvd (dvd_rs gc1.expo_dvd gc1.rep.dvd))
  · exact dvd_re gb1.expo_dvd (dvd_rs gc1.expo_dvd gc1.rep.dvd)
  · exact dvd_re gc1.expo_dvd gc1.rep.dvd

/-- The four results of `renorm5` as the components of a `Quad` (how quad/mul.rs, quad/div.rs and quad/alg.rs use it). -/
def Quad.ofRenorm5 (a b c d e : F64) : Quad :=
  ⟨(renorm5 a b c d e).1, (renorm5 a b c d e).2.1, (renorm5 a b c d e).2.2.1, (renorm5 a b c d e).2.2.2⟩

/-- **C58 (`renorm5`).** For five finite numbers, each at most half of the one before it: the components of the result
fall off by a factor `2^52` at least, and the result differs from the exact sum by at most one rounding of its last
component. -/
theorem C58_renorm5_partial (a b c d e : F64) (ha : a.isFinite = true) (hb : b.isFinite = true) (hc : c.isFinite = true)
    (hd : d.isFinite = true) (he : e.isFinite = true) (hab : 2 * |b.toRat| ≤ |a.toRat|) (hbc : 2 * |c.toRat| ≤ |b.toRat|)
    (hcd : 2 * |d.toRat| ≤ |c.toRat|) (hde : 2 * |e.toRat| ≤ |d.toRat|) (hmax : |a.toRat| ≤ 2 ^ 1000) :
    (Quad.ofRenorm5 a b c d e).Ordered ∧
      2 ^ 53 * |(Quad.ofRenorm5 a b c d e).val - (a.toRat + b.toRat + c.toRat + d.toRat + e.toRat)|
        ≤ |(Quad.ofRenorm5 a b c d e).c3.toRat| := by
  have ia := Is.of_finite ha
  have ib := Is.of_finite hb
  have ic := Is.of_finite hc
  have id := Is.of_finite hd
  have ie := Is.of_finite he
  have e1 := (toRat_le_iff ib ia 2).mp (by exact_mod_cast hab)
  have e2 := (toRat_le_iff ic ib 2).mp (by exact_mod_cast hbc)
  have e3 := (toRat_le_iff id ic 2).mp (by exact_mod_cast hcd)
  have e4 := (toRat_le_iff ie id 2).mp (by exact_mod_cast hde)
  have hm := units_le_of_toRat ia hmax
  have hl := big_le_lim
  rw [ia.toRat, ib.toRat, ic.toRat, id.toRat, ie.toRat]
  clear hmax hab hbc hcd hde
  generalize a.units = A at *
  generalize b.units = B at *
  generalize c.units = C at *
  generalize d.units = D at *
  generalize e.units = E at *
  obtain ⟨⟨g1, g2, g3, g4⟩, f⟩ := rn5_facts ia.rep ib.rep ic.rep id.rep ie.rep e1 e2 e3 e4
  have n1 := abs_nonneg B
  have n2 := abs_nonneg C
  have n3 := abs_nonneg D
  have n4 := abs_nonneg E
  have t := is_renorm5 ia ib ic id ie g1 g2 g3 g4 f (by generalize (2:ℤ) ^ 1000 * one' = M at *; omega)
  have o := rn5t_ord f
  have s := rn5t_sum f
  have k1 := rs_add_re D E
  have k2 := rs_add_re C (rs D E)
  have k3 := rs_add_re B (rs C (rs D E))
  have k4 := rs_add_re A (rs B (rs C (rs D E)))
  have ks : rs A (rs B (rs C (rs D E))) + re A (rs B (rs C (rs D E))) + re B (rs C (rs D E)) + re C (rs D E) + re D E
      = A + B + C + D + E := by omega
  rw [ks] at s
  generalize rn5t (rs A (rs B (rs C (rs D E)))) (re A (rs B (rs C (rs D E)))) (re B (rs C (rs D E))) (re C (rs D E)) (re D E)
    = z at *
  have i : QIs (Quad.ofRenorm5 a b c d e) z := ⟨t.i0, t.i1, t.i2, t.i3⟩
  have hp := one'_posQ
  refine ⟨i.ordered_iff.mpr o, ?_⟩
  rw [i.val, i.i3.toRat]
  have : ((sum4 z : ℤ) : ℚ) / one' - ((A:ℚ) / one' + (B:ℚ) / one' + (C:ℚ) / one' + (D:ℚ) / one' + (E:ℚ) / one')
      = ((sum4 z - (A + B + C + D + E) : ℤ) : ℚ) / one' := by push_cast; ring
  rw [this, abs_div, abs_div, abs_of_pos hp, ← mul_div_assoc, div_le_div_iff_of_pos_right hp]
  exact_mod_cast s

/-- A case with five non-zero inputs in which the last rounding really loses something. -/
example : ∃ a b c d e : F64, 2 * |b.toRat| ≤ |a.toRat| ∧ 2 * |c.toRat| ≤ |b.toRat| ∧ 2 * |d.toRat| ≤ |c.toRat| ∧
    2 * |e.toRat| ≤ |d.toRat| ∧ (Quad.ofRenorm5 a b c d e).Ordered ∧
    (Quad.ofRenorm5 a b c d e).val ≠ a.toRat + b.toRat + c.toRat + d.toRat + e.toRat := by
  refine ⟨F64.ofInt (2 ^ 240), F64.ofInt (2 ^ 180), F64.ofInt (2 ^ 120), F64.ofInt (2 ^ 60), F64.ofInt 1, ?_, ?_, ?_, ?_, ?_, ?_⟩ <;>
    decide +kernel

/-- **C58 (`three_three_sum`).** The three results add up to exactly the sum of the three inputs. -/
theorem C58_three_three_sum (a b c : F64) (ha : a.isFinite = true) (hb : b.isFinite = true) (hc : c.isFinite = true)
    (ma : |a.toRat| ≤ 2 ^ 1000) (mb : |b.toRat| ≤ 2 ^ 1000) (mc : |c.toRat| ≤ 2 ^ 1000) :
    (threeThreeSum a b c).1.isFinite = true ∧ (threeThreeSum a b c).2.1.isFinite = true ∧
    (threeThreeSum a b c).2.2.isFinite = true ∧
    (threeThreeSum a b c).1.toRat + (threeThreeSum a b c).2.1.toRat + (threeThreeSum a b c).2.2.toRat
      = a.toRat + b.toRat + c.toRat ∧
    2 ^ 53 * |(threeThreeSum a b c).2.2.toRat| ≤ |(threeThreeSum a b c).2.1.toRat| := by
  have ia := Is.of_finite ha
  have ib := Is.of_finite hb
  have ic := Is.of_finite hc
  have xa := units_le_of_toRat ia ma
  have xb := units_le_of_toRat ib mb
  have xc := units_le_of_toRat ic mc
  have hl := big_le_lim
  rw [ia.toRat, ib.toRat, ic.toRat]
  clear ma mb mc
  generalize a.units = A at *
  generalize b.units = B at *
  generalize c.units = C at *
  have n1 := abs_nonneg A
  have n2 := abs_nonneg B
  have n3 := abs_nonneg C
  generalize (2:ℤ) ^ 1000 * one' = M at *
  have t1 := is_twoSum ia ib (by omega)
  have u1 := abs_rs_le A B
  have v1 := abs_re_le A B
  have t2 := is_twoSum ic t1.1 (by omega)
  have v2 := abs_re_le C (rs A B)
  have t3 := is_twoSum t1.2 t2.2 (by omega)
  have i0 : Is (threeThreeSum a b c).1 (rs C (rs A B)) := t2.1
  have i1 : Is (threeThreeSum a b c).2.1 (rs (re A B) (re C (rs A B))) := t3.1
  have i2 : Is (threeThreeSum a b c).2.2 (re (re A B) (re C (rs A B))) := t3.2
  refine ⟨i0.1, i1.1, i2.1, ?_, ?_⟩
  · rw [i0.toRat, i1.toRat, i2.toRat, ← add_div, ← add_div, ← add_div, ← add_div]
    have e1 := rs_add_re A B
    have e2 := rs_add_re C (rs A B)
    have e3 := rs_add_re (re A B) (re C (rs A B))
    congr 1
    have : rs C (rs A B) + rs (re A B) (re C (rs A B)) + re (re A B) (re C (rs A B)) = A + B + C := by omega
    exact_mod_cast this
  · have := (toRat_le_iff i2 i1 (2 ^ 53)).mpr (re_lo (rep_re (rep_re ia.rep ib.rep) (rep_re ic.rep (rep_rs _ _))))
    exact_mod_cast this

example : (threeThreeSum (F64.ofInt (2 ^ 60)) (F64.ofInt 3) (F64.ofInt (2 ^ 120))).1.toRat = 2 ^ 120 ∧
    (threeThreeSum (F64.ofInt (2 ^ 60)) (F64.ofInt 3) (F64.ofInt (2 ^ 120))).2.1.toRat = 2 ^ 60 ∧
    (threeThreeSum (F64.ofInt (2 ^ 60)) (F64.ofInt 3) (F64.ofInt (2 ^ 120))).2.2.toRat = 3 := by decide +kernel

/-- **C58 (`three_two_sum`).** The two results add up to the sum of the three inputs up to one rounding of the second. -/
theorem C58_three_two_sum (a b c : F64) (ha : a.isFinite = true) (hb : b.isFinite = true) (hc : c.isFinite = true)
    (ma : |a.toRat| ≤ 2 ^ 1000) (mb : |b.toRat| ≤ 2 ^ 1000) (mc : |c.toRat| ≤ 2 ^ 1000) :
    (threeTwoSum a b c).1.isFinite = true ∧ (threeTwoSum a b c).2.isFinite = true ∧
    2 ^ 53 * |(threeTwoSum a b c).1.toRat + (threeTwoSum a b c).2.toRat - (a.toRat + b.toRat + c.toRat)|
      ≤ |(threeTwoSum a b c).2.toRat| := by
  have h := C58_three_three_sum a b c ha hb hc ma mb mc
  have e1 : (threeTwoSum a b c).1 = (threeThreeSum a b c).1 := rfl
  have e2 : (threeTwoSum a b c).2 = (threeThreeSum a b c).2.1 := rfl
  rw [e1, e2]
  refine ⟨h.1, h.2.1, ?_⟩
  rw [← h.2.2.2.1]
  have e : (threeThreeSum a b c).1.toRat + (threeThreeSum a b c).2.1.toRat -
      ((threeThreeSum a b c).1.toRat + (threeThreeSum a b c).2.1.toRat + (threeThreeSum a b c).2.2.toRat)
      = -(threeThreeSum a b c).2.2.toRat := by ring
  rw [e, abs_neg]; exact h.2.2.2.2

example : (threeTwoSum (F64.ofInt (2 ^ 60)) (F64.ofInt 3) (F64.ofInt (2 ^ 120))).1.toRat = 2 ^ 120 ∧
    (threeTwoSum (F64.ofInt (2 ^ 60)) (F64.ofInt 3) (F64.ofInt (2 ^ 120))).2.toRat = 2 ^ 60 := by decide +kernel

/-- **C58 (`accumulate`).** The three results add up to exactly the sum of the three inputs, and when the first is not
zero both others are not zero either (so a full component is only handed out when the pair that stays is full). -/
theorem C58_accumulate (a b c : F64) (ha : a.isFinite = true) (hb : b.isFinite = true) (hc : c.isFinite = true)
    (ma : |a.toRat| ≤ 2 ^ 1000) (mb : |b.toRat| ≤ 2 ^ 1000) (mc : |c.toRat| ≤ 2 ^ 1000) :
    (accumulate a b c).1.isFinite = true ∧ (accumulate a b c).2.1.isFinite = true ∧
    (accumulate a b c).2.2.isFinite = true ∧
    (accumulate a b c).1.toRat + (accumulate a b c).2.1.toRat + (accumulate a b c).2.2.toRat
      = a.toRat + b.toRat + c.toRat ∧
    ((accumulate a b c).1.toRat ≠ 0 → (accumulate a b c).2.1.toRat ≠ 0 ∧ (accumulate a b c).2.2.toRat ≠ 0) := by
  have ia := Is.of_finite ha
  have ib := Is.of_finite hb
  have ic := Is.of_finite hc
  have xa := units_le_of_toRat ia ma
  have xb := units_le_of_toRat ib mb
  have xc := units_le_of_toRat ic mc
  have hl := big_le_lim
  rw [ia.toRat, ib.toRat, ic.toRat]
  clear ma mb mc
  generalize a.units = A at *
  generalize b.units = B at *
  generalize c.units = C at *
  have n1 := abs_nonneg A
  have n2 := abs_nonneg B
  have n3 := abs_nonneg C
  generalize (2:ℤ) ^ 1000 * one' = M at *
  have t1 := is_twoSum ib ic (by omega)
  have u1 := abs_rs_le B C
  have t2 := is_twoSum ia t1.1 (by omega)
  have e1 := rs_add_re B C
  have e2 := rs_add_re A (rs B C)
  have hp := one'_posQ
  have nz : ∀ {x : F64} {n : ℤ}, Is x n → n ≠ 0 → x.toRat ≠ 0 := by
    intro x n i h
    rw [i.toRat]; exact div_ne_zero (by exact_mod_cast h) hp.ne'
  have sm : ∀ {x y z : F64} {k l m : ℤ}, Is x k → Is y l → Is z m → k + l + m = A + B + C →
      x.toRat + y.toRat + z.toRat = (A:ℚ) / one' + (B:ℚ) / one' + (C:ℚ) / one' := by
    intro x y z k l m i j t h
    rw [i.toRat, j.toRat, t.toRat, ← add_div, ← add_div, ← add_div, ← add_div]
    congr 1
    exact_mod_cast h
  have z0 : (F64.zero).toRat = 0 := by decide +kernel
  unfold accumulate
  dsimp only
  by_cases ca : re A (rs B C) = 0
  · have q : F64.eq (twoSum a (twoSum b c).1).2 F64.zero = true := (t2.2.eq_iff is_zero).mpr ca
    rw [q]
    simp only [Bool.true_or, Bool.not_true, Bool.false_eq_true, ↓reduceIte]
    by_cases cb : re B C = 0
    · have q2 : F64.eq (twoSum b c).2 F64.zero = true := (t1.2.eq_iff is_zero).mpr cb
      simp only [q2, ↓reduceIte]
      exact ⟨is_zero.1, t2.1.1, t2.2.1, sm is_zero t2.1 t2.2 (by omega), fun h => absurd z0 h⟩
    · have q2 : F64.eq (twoSum b c).2 F64.zero = false := by
        rw [← Bool.not_eq_true, t1.2.eq_iff is_zero]; exact cb
      simp only [q2, Bool.false_eq_true, ↓reduceIte]
      exact ⟨is_zero.1, t2.1.1, t1.2.1, sm is_zero t2.1 t1.2 (by omega), fun h => absurd z0 h⟩
  · have q : F64.eq (twoSum a (twoSum b c).1).2 F64.zero = false := by
      rw [← Bool.not_eq_true, t2.2.eq_iff is_zero]; exact ca
    by_cases cb : re B C = 0
    · have q2 : F64.eq (twoSum b c).2 F64.zero = true := (t1.2.eq_iff is_zero).mpr cb
      simp only [q, q2, Bool.or_true, Bool.not_true, Bool.false_eq_true, ↓reduceIte]
      exact ⟨is_zero.1, t2.1.1, t2.2.1, sm is_zero t2.1 t2.2 (by omega), fun h => absurd z0 h⟩
    · have q2 : F64.eq (twoSum b c).2 F64.zero = false := by
        rw [← Bool.not_eq_true, t1.2.eq_iff is_zero]; exact cb
      simp only [q, q2, Bool.or_false, Bool.not_false, ↓reduceIte]
      exact ⟨t2.1.1, t2.2.1, t1.2.1, sm t2.1 t2.2 t1.2 (by omega), fun _ => ⟨nz t2.2 ca, nz t1.2 cb⟩⟩

example : (accumulate (F64.ofInt (2 ^ 120)) (F64.ofInt (2 ^ 60)) (F64.ofInt 3)).1.toRat = 2 ^ 120 ∧
    (accumulate (F64.ofInt (2 ^ 120)) (F64.ofInt (2 ^ 60)) (F64.ofInt 3)).2.1.toRat = 2 ^ 60 ∧
    (accumulate (F64.ofInt (2 ^ 120)) (F64.ofInt (2 ^ 60)) (F64.ofInt 3)).2.2.toRat = 3 := by decide +kernel

end Verif
