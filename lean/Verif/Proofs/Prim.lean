import Verif.F64Lemmas
import Verif.Model.Primitive
import Verif.Proofs.AddCore

/-!
# The error-free transformations of `src/common/primitive.rs` on `F64`
-/

namespace Verif

open F64 Prim

/-- Range in which sums are guaranteed not to overflow in any intermediate step: `3 * 2^1022`. -/
@[irreducible] def lim : ℤ := 3 * 2 ^ 2096

/-- A small quantum used in the range bookkeeping. -/
@[irreducible] def quantum : ℤ := 2 ^ 2044

theorem quantum_pos : 0 < quantum := by unfold quantum; exact Int.pow_pos (by norm_num)

theorem lim_eq : lim = 13510798882111488 * quantum := by
  unfold lim quantum
  have : (2:ℤ) ^ 2096 = 2 ^ 52 * 2 ^ 2044 := by rw [← pow_add]
  rw [this]; generalize (2:ℤ) ^ 2044 = q; norm_num; ring

theorem omega_eq : omegaUnits = 18014398509481982 * quantum := by
  unfold omegaUnits quantum
  have : (2:ℤ) ^ 2045 = 2 * 2 ^ 2044 := by rw [← pow_succ']
  rw [this]; generalize (2:ℤ) ^ 2044 = q; norm_num; ring

theorem rep_lim : Rep lim := ⟨3, 2096, by norm_num, by unfold lim; ring⟩

theorem err_range {n : ℤ} (h : |n| ≤ 18014398509481984 * quantum) : |n - rnd n| ≤ quantum := by
  have h1 : |n| ≤ 2 ^ (53 + 2045) := by
    have : (2:ℤ) ^ (53 + 2045) = 18014398509481984 * quantum := by
      unfold quantum
      have : (2:ℤ) ^ (53 + 2045) = 2 ^ 54 * 2 ^ 2044 := by rw [← pow_add]
      rw [this]; generalize (2:ℤ) ^ 2044 = q; norm_num
    rw [this]; exact h
  have h2 := two_err_le' h1
  have h3 : (2:ℤ) ^ 2045 = 2 * quantum := by unfold quantum; rw [← pow_succ']
  rw [h3] at h2
  linarith

theorem err_range' {n : ℤ} (h : |n| ≤ 18014398509481984 * quantum) :
    n - rnd n ≤ quantum ∧ -quantum ≤ n - rnd n := by
  have := abs_le.mp (err_range h)
  exact ⟨this.2, this.1⟩

theorem abs_le_of (x B : ℤ) (h1 : x ≤ B) (h2 : -B ≤ x) : |x| ≤ B := abs_le.mpr ⟨h2, h1⟩

theorem is_twoSum {a b : F64} {m n : ℤ} (ha : Is a m) (hb : Is b n) (h : |m| + |n| ≤ lim) :
    Is (twoSum a b).1 (rs m n) ∧ Is (twoSum a b).2 (re m n) := by
  rw [lim_eq] at h
  have hq := quantum_pos
  have am := abs_le.mp (le_refl |m|)
  have an := abs_le.mp (le_refl |n|)
  have pm := abs_nonneg m
  have pn := abs_nonneg n
  have key := two_sum_exact ha.rep hb.rep
  simp only [] at key
  unfold twoSum
  simp only []
  set s := rnd ((m + n : ℤ) : ℚ) with hs
  set v := rnd ((s - m : ℤ) : ℚ) with hv
  set w := rnd ((s - v : ℤ) : ℚ) with hw
  set t := rnd ((m - w : ℤ) : ℚ) with ht
  set u := rnd ((n - v : ℤ) : ℚ) with hu
  have b0 := err_range' (n := m + n) (abs_le_of _ _ (by linarith) (by linarith))
  rw [← hs] at b0
  have b1 := err_range' (n := s - m) (abs_le_of _ _ (by linarith) (by linarith))
  rw [← hv] at b1
  have b2 := err_range' (n := s - v) (abs_le_of _ _ (by linarith) (by linarith))
  rw [← hw] at b2
  have b3 := err_range' (n := m - w) (abs_le_of _ _ (by linarith) (by linarith))
  rw [← ht] at b3
  have b4 := err_range' (n := n - v) (abs_le_of _ _ (by linarith) (by linarith))
  rw [← hu] at b4
  have i0 : Is (F64.add a b) s := ha.add hb (by rw [omega_eq]; exact abs_le_of _ _ (by linarith) (by linarith))
  have i1 : Is (F64.sub (F64.add a b) a) v :=
    i0.sub ha (by rw [omega_eq]; exact abs_le_of _ _ (by linarith) (by linarith))
  have i2 := i0.sub i1 (by rw [omega_eq]; exact abs_le_of _ _ (by linarith) (by linarith))
  have i3 := ha.sub i2 (by rw [omega_eq, ← hw]; exact abs_le_of _ _ (by linarith) (by linarith))
  have i4 := hb.sub i1 (by rw [omega_eq]; exact abs_le_of _ _ (by linarith) (by linarith))
  rw [← hw, ← ht] at i3
  rw [← hu] at i4
  have i5 := i3.add i4 (by rw [omega_eq]; exact abs_le_of _ _ (by linarith) (by linarith))
  refine ⟨i0, i5.congr ?_⟩
  rw [key]; rfl

theorem is_twoDiff {a b : F64} {m n : ℤ} (ha : Is a m) (hb : Is b n) (h : |m| + |n| ≤ lim) :
    Is (twoDiff a b).1 (rs m (-n)) ∧ Is (twoDiff a b).2 (re m (-n)) := by
  rw [lim_eq] at h
  have hq := quantum_pos
  have am := abs_le.mp (le_refl |m|)
  have an := abs_le.mp (le_refl |n|)
  have pm := abs_nonneg m
  have pn := abs_nonneg n
  have key := two_sum_exact ha.rep hb.rep.neg
  simp only [] at key
  unfold twoDiff
  simp only []
  rw [← sub_eq_add_neg] at key
  set s := rnd ((m - n : ℤ) : ℚ) with hs
  set v := rnd ((s - m : ℤ) : ℚ) with hv
  set w := rnd ((s - v : ℤ) : ℚ) with hw
  set t := rnd ((m - w : ℤ) : ℚ) with ht
  have e1 : ((-n - v : ℤ) : ℚ) = -((n + v : ℤ) : ℚ) := by push_cast; ring
  rw [e1, rnd_neg] at key
  set u := rnd ((n + v : ℤ) : ℚ) with hu
  have b0 := err_range' (n := m - n) (abs_le_of _ _ (by linarith) (by linarith))
  rw [← hs] at b0
  have b1 := err_range' (n := s - m) (abs_le_of _ _ (by linarith) (by linarith))
  rw [← hv] at b1
  have b2 := err_range' (n := s - v) (abs_le_of _ _ (by linarith) (by linarith))
  rw [← hw] at b2
  have b3 := err_range' (n := m - w) (abs_le_of _ _ (by linarith) (by linarith))
  rw [← ht] at b3
  have b4 := err_range' (n := n + v) (abs_le_of _ _ (by linarith) (by linarith))
  rw [← hu] at b4
  have i0 : Is (F64.sub a b) s := ha.sub hb (by rw [omega_eq]; exact abs_le_of _ _ (by linarith) (by linarith))
  have i1 : Is (F64.sub (F64.sub a b) a) v :=
    i0.sub ha (by rw [omega_eq]; exact abs_le_of _ _ (by linarith) (by linarith))
  have i2 := i0.sub i1 (by rw [omega_eq]; exact abs_le_of _ _ (by linarith) (by linarith))
  have i3 := ha.sub i2 (by rw [omega_eq, ← hw]; exact abs_le_of _ _ (by linarith) (by linarith))
  have i4 := hb.add i1 (by rw [omega_eq]; exact abs_le_of _ _ (by linarith) (by linarith))
  rw [← hw, ← ht] at i3
  rw [← hu] at i4
  have i5 := i3.sub i4 (by rw [omega_eq]; exact abs_le_of _ _ (by linarith) (by linarith))
  rw [sub_eq_add_neg t u, key] at i5
  refine ⟨i0.congr ?_, i5.congr ?_⟩
  · unfold rs; rw [← sub_eq_add_neg]
  · unfold re rs; rw [← sub_eq_add_neg]

theorem is_quickTwoSum {a b : F64} {m n : ℤ} (ha : Is a m) (hb : Is b n) (hg : Grid m n) (h : |m| + |n| ≤ lim) :
    Is (quickTwoSum a b).1 (rs m n) ∧ Is (quickTwoSum a b).2 (re m n) := by
  rw [lim_eq] at h
  have hq := quantum_pos
  have am := abs_le.mp (le_refl |m|)
  have an := abs_le.mp (le_refl |n|)
  have pm := abs_nonneg m
  have pn := abs_nonneg n
  have key := fast_two_sum_exact ha.rep hg
  simp only [] at key
  unfold quickTwoSum
  simp only []
  set s := rnd ((m + n : ℤ) : ℚ) with hs
  set z := rnd ((s - m : ℤ) : ℚ) with hz
  have b0 := err_range' (n := m + n) (abs_le_of _ _ (by linarith) (by linarith))
  rw [← hs] at b0
  have i0 : Is (F64.add a b) s := ha.add hb (by rw [omega_eq]; exact abs_le_of _ _ (by linarith) (by linarith))
  have i1 : Is (F64.sub (F64.add a b) a) z :=
    i0.sub ha (by rw [omega_eq]; exact abs_le_of _ _ (by linarith) (by linarith))
  have i2 := hb.sub i1 (by rw [omega_eq, key.1]; exact abs_le_of _ _ (by linarith) (by linarith))
  exact ⟨i0, i2.congr key.2⟩

end Verif
