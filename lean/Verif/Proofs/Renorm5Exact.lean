import Verif.Proofs.Renorm4

/-!
# `renorm5` on exact integers

`rn5` is `renorm5` on units; for inputs that fall off by a factor of two at least only the very last addition can lose
anything, and the components of the result decrease by a factor of at least `2^52`.
-/

namespace Verif

open F64 Prim Util

set_option linter.unusedTactic false
set_option linter.unreachableTactic false
set_option linter.unusedSimpArgs false

/-- The second pass of `renorm5` on units. -/
def rn5t (s0 s1 s2 s3 s4 : ℤ) : ℤ × ℤ × ℤ × ℤ :=
  if s1 ≠ 0 then
    if re s1 s2 ≠ 0 then
      if re (re s1 s2) s3 ≠ 0 then (s0, rs s1 s2, rs (re s1 s2) s3, rs (re (re s1 s2) s3) s4)
      else (s0, rs s1 s2, rs (rs (re s1 s2) s3) s4, re (rs (re s1 s2) s3) s4)
    else
      if re (rs s1 s2) s3 ≠ 0 then (s0, rs (rs s1 s2) s3, rs (re (rs s1 s2) s3) s4, re (re (rs s1 s2) s3) s4)
      else (s0, rs (rs (rs s1 s2) s3) s4, re (rs (rs s1 s2) s3) s4, 0)
  else
    if re s0 s2 ≠ 0 then
      if re (re s0 s2) s3 ≠ 0 then (rs s0 s2, rs (re s0 s2) s3, rs (re (re s0 s2) s3) s4, re (re (re s0 s2) s3) s4)
      else (rs s0 s2, rs (rs (re s0 s2) s3) s4, re (rs (re s0 s2) s3) s4, 0)
    else
      if re (rs s0 s2) s3 ≠ 0 then (rs (rs s0 s2) s3, rs (re (rs s0 s2) s3) s4, re (re (rs s0 s2) s3) s4, 0)
      else (rs (rs (rs s0 s2) s3) s4, re (rs (rs s0 s2) s3) s4, 0, 0)

/-- What the second pass of `renorm5` needs. -/
structure Rn5Facts (s0 s1 s2 s3 s4 : ℤ) : Prop where
  rep0 : Rep s0
  rep1 : Rep s1
  rep2 : Rep s2
  rep3 : Rep s3
  rep4 : Rep s4
  lo1 : 2 ^ 53 * |s1| ≤ |s0|
  k1 : ∃ k : ℕ, (2:ℤ) ^ k ∣ s0 ∧ (2:ℤ) ^ k ∣ s1 ∧ 2 * |s2| ≤ 2 ^ k
  k2 : ∃ k : ℕ, (2:ℤ) ^ k ∣ s0 ∧ (2:ℤ) ^ k ∣ s1 ∧ (2:ℤ) ^ k ∣ s2 ∧ 2 * |s3| ≤ 2 ^ k
  k3 : ∃ k : ℕ, (2:ℤ) ^ k ∣ s0 ∧ (2:ℤ) ^ k ∣ s1 ∧ (2:ℤ) ^ k ∣ s2 ∧ (2:ℤ) ^ k ∣ s3 ∧ 2 * |s4| ≤ 2 ^ k

/-- The second pass of `renorm5` keeps the sum, up to the rounding of the last component. -/
theorem rn5t_sum {s0 s1 s2 s3 s4 : ℤ} (h : Rn5Facts s0 s1 s2 s3 s4) :
    2 ^ 53 * |sum4 (rn5t s0 s1 s2 s3 s4) - (s0 + s1 + s2 + s3 + s4)| ≤ |(rn5t s0 s1 s2 s3 s4).2.2.2| := by
  unfold rn5t
  have a1 := rs_add_re s1 s2
  have a2 := rs_add_re (re s1 s2) s3
  have a3 := rs_add_re (re (re s1 s2) s3) s4
  have a4 := rs_add_re (rs (re s1 s2) s3) s4
  have a5 := rs_add_re (rs s1 s2) s3
  have a6 := rs_add_re (re (rs s1 s2) s3) s4
  have a7 := rs_add_re (rs (rs s1 s2) s3) s4
  have b1 := rs_add_re s0 s2
  have b2 := rs_add_re (re s0 s2) s3
  have b3 := rs_add_re (re (re s0 s2) s3) s4
  have b4 := rs_add_re (rs (re s0 s2) s3) s4
  have b5 := rs_add_re (rs s0 s2) s3
  have b6 := rs_add_re (re (rs s0 s2) s3) s4
  have b7 := rs_add_re (rs (rs s0 s2) s3) s4
  have z : ∀ x y w : ℤ, x = y → 2 ^ 53 * |x - y| ≤ |w| := by
    intro x y w e; rw [e, sub_self, abs_zero, mul_zero]; exact abs_nonneg w
  split_ifs with h1 h2 h3 h4 h5 h6 h7 <;> simp only [ne_eq, not_not] at *
  · have rr := re_lo (rep_re (rep_re (rep_re h.rep1 h.rep2) h.rep3) h.rep4)
    have e : sum4 (s0, rs s1 s2, rs (re s1 s2) s3, rs (re (re s1 s2) s3) s4) - (s0 + s1 + s2 + s3 + s4)
        = -re (re (re s1 s2) s3) s4 := by unfold sum4; dsimp only; omega
    rw [e, abs_neg]; exact rr
  all_goals (apply z; unfold sum4; dsimp only; omega)

theorem rep_two_abs {a : ℤ} (ha : Rep a) : Rep (2 * |a|) := by
  have : Rep |a| := by rcases abs_choice a with h | h <;> rw [h] <;> [exact ha; exact ha.neg]
  have := this.mul_two_pow 1
  rwa [pow_one, mul_comm] at this

theorem abs_rs_le_rep {a b c : ℤ} (hc : Rep c) (h : |a + b| ≤ 2 * |c|) : |rs a b| ≤ 2 * |c| := by
  apply abs_rnd_le (rep_two_abs hc); exact_mod_cast h

theorem rn5t_ord {s0 s1 s2 s3 s4 : ℤ} (h : Rn5Facts s0 s1 s2 s3 s4) : Ord4 (rn5t s0 s1 s2 s3 s4) := by
  obtain ⟨r0, r1, r2, r3, r4, lo1, ⟨k, k0, k1, k2⟩, ⟨l, l0, l1, l2, l3⟩, ⟨m, m0, m1, m2, m3, m4⟩⟩ := h
  have n0 := abs_nonneg s0
  have n1 := abs_nonneg s1
  have n2 := abs_nonneg s2
  have n3 := abs_nonneg s3
  have n4 := abs_nonneg s4
  -- multiples of the three grids are at least as large as the grid
  have hk : ∀ x, (2:ℤ) ^ k ∣ x → x ≠ 0 → 2 * |s2| ≤ |x| := fun x hx h0 => k2.trans (pow_le_of_dvd hx h0)
  have hl : ∀ x, (2:ℤ) ^ l ∣ x → x ≠ 0 → 2 * |s3| ≤ |x| := fun x hx h0 => l3.trans (pow_le_of_dvd hx h0)
  have hm : ∀ x, (2:ℤ) ^ m ∣ x → x ≠ 0 → 2 * |s4| ≤ |x| := fun x hx h0 => m4.trans (pow_le_of_dvd hx h0)
  have q4 : ∀ x, Rep x → 2 ^ 52 * |re x s4| ≤ |rs x s4| := fun x hx => by
    have := re_lo (rep_re hx r4)
    have := abs_nonneg (re x s4)
    omega
  -- tails
  have t34 : |s3| + |s4| ≤ |s3| * 2 ∨ s3 = 0 := by
    by_cases c : s3 = 0
    · exact .inr c
    · have := hm s3 m3 c; left; omega
  have tail34 : ∀ x, (2:ℤ) ^ l ∣ x → (2:ℤ) ^ m ∣ x → x ≠ 0 → |s3| + |s4| ≤ |x| := by
    intro x h1 h2 h0
    have a := hl x h1 h0
    have b := hm x h2 h0
    rcases t34 with c | c
    · omega
    · rw [c, abs_zero]; omega
  have tail234 : ∀ x, (2:ℤ) ^ k ∣ x → (2:ℤ) ^ l ∣ x → (2:ℤ) ^ m ∣ x → x ≠ 0 → |s2| + |s3| + |s4| ≤ |x| := by
    intro x h1 h2 h3 h0
    by_cases c : s2 = 0
    · have := tail34 x h2 h3 h0
      rw [c, abs_zero]; omega
    · have a := hk x h1 h0
      have b := tail34 s2 l2 m2 c
      omega
  unfold rn5t Ord4
  split_ifs with c1 c2 c3 c4 c5 c6 c7 <;> simp only [ne_eq, not_not] at *
  · have p1 := hk s1 k1 c1
    have u1 := abs_rs_le_two r1 (b := s2) (by omega)
    have rr := rep_re r1 r2
    have u2 := re_lo rr
    have u3 := abs_rs_le_two rr (b := s3) (by have := hl _ (dvd_re l1 l2) c2; omega)
    have rr3 := rep_re rr r3
    have u4 := re_lo rr3
    have u5 := abs_rs_le_two rr3 (b := s4) (by have := hm _ (dvd_re (dvd_re m1 m2) m3) c3; omega)
    refine ⟨by omega, by omega, by omega⟩
  · have p1 := hk s1 k1 c1
    have u1 := abs_rs_le_two r1 (b := s2) (by omega)
    have rr := rep_re r1 r2
    have u2 := re_lo rr
    have e := rs_add_re (re s1 s2) s3
    have u3 : |rs (rs (re s1 s2) s3) s4| ≤ 2 * |re s1 s2| := by
      apply abs_rs_le_rep rr
      have t := tail34 _ (dvd_re l1 l2) (dvd_re m1 m2) c2
      have := abs_add_three (re s1 s2) s3 s4
      rw [show rs (re s1 s2) s3 = re s1 s2 + s3 by omega]; omega
    have u4 := q4 _ (rep_rs (re s1 s2) s3)
    refine ⟨by omega, by omega, by omega⟩
  · have p1 := hk s1 k1 c1
    have e := rs_add_re s1 s2
    have u1 : |rs (rs s1 s2) s3| ≤ 2 * |s1| := by
      apply abs_rs_le_rep r1
      have := abs_add_three s1 s2 s3
      have t := tail234 _ k1 l1 m1 c1
      rw [show rs s1 s2 = s1 + s2 by omega]; omega
    have rr := rep_re (rep_rs s1 s2) r3
    have u2 := re_lo rr
    have u3 := abs_rs_le_two rr (b := s4) (by have := hm _ (dvd_re (dvd_rs m1 m2) m3) c4; omega)
    have u4 := q4 _ rr
    refine ⟨by omega, by omega, by omega⟩
  · have e := rs_add_re s1 s2
    have e2 := rs_add_re (rs s1 s2) s3
    have u1 : |rs (rs (rs s1 s2) s3) s4| ≤ 2 * |s1| := by
      apply abs_rs_le_rep r1
      have := abs_add_three s1 s2 (s3 + s4)
      have := abs_add_le s3 s4
      have t := tail234 _ k1 l1 m1 c1
      rw [show rs (rs s1 s2) s3 + s4 = s1 + s2 + (s3 + s4) by omega]; omega
    have u4 := q4 _ (rep_rs (rs s1 s2) s3)
    rw [abs_zero, mul_zero]
    refine ⟨by omega, by first | omega | exact abs_nonneg _, by first | omega | exact abs_nonneg _⟩
  · have rr := rep_re r0 r2
    have u2 := re_lo rr
    have u3 := abs_rs_le_two rr (b := s3) (by have := hl _ (dvd_re l0 l2) c5; omega)
    have rr3 := rep_re rr r3
    have u4 := re_lo rr3
    have u5 := abs_rs_le_two rr3 (b := s4) (by have := hm _ (dvd_re (dvd_re m0 m2) m3) c6; omega)
    have u6 := q4 _ rr3
    refine ⟨by omega, by omega, by omega⟩
  · have rr := rep_re r0 r2
    have u2 := re_lo rr
    have e := rs_add_re (re s0 s2) s3
    have u3 : |rs (rs (re s0 s2) s3) s4| ≤ 2 * |re s0 s2| := by
      apply abs_rs_le_rep rr
      have t := tail34 _ (dvd_re l0 l2) (dvd_re m0 m2) c5
      have := abs_add_three (re s0 s2) s3 s4
      rw [show rs (re s0 s2) s3 = re s0 s2 + s3 by omega]; omega
    have u4 := q4 _ (rep_rs (re s0 s2) s3)
    rw [abs_zero, mul_zero]
    refine ⟨by omega, by first | omega | exact abs_nonneg _, by first | omega | exact abs_nonneg _⟩
  · have rr := rep_re (rep_rs s0 s2) r3
    have u2 := re_lo rr
    have u3 := abs_rs_le_two rr (b := s4) (by have := hm _ (dvd_re (dvd_rs m0 m2) m3) c7; omega)
    have u4 := q4 _ rr
    rw [abs_zero, mul_zero]
    refine ⟨by omega, by first | omega | exact abs_nonneg _, by first | omega | exact abs_nonneg _⟩
  · have u4 := q4 _ (rep_rs (rs s0 s2) s3)
    rw [abs_zero, mul_zero]
    refine ⟨by omega, by first | omega | exact abs_nonneg _, by first | omega | exact abs_nonneg _⟩

theorem tis_of {p : F64 × F64 × F64 × F64} {w x y z : ℤ} (i0 : Is p.1 w) (i1 : Is p.2.1 x) (i2 : Is p.2.2.1 y)
    (i3 : Is p.2.2.2 z) : TIs p (w, x, y, z) := ⟨i0, i1, i2, i3⟩

theorem is_ne_false {x : F64} {n : ℤ} (h : Is x n) (h0 : n = 0) : F64.ne x F64.zero = false := by
  rw [← Bool.not_eq_true, is_ne_zero h]; simpa using h0

theorem is_renorm5 {a b c d e : F64} {A B C D E : ℤ} (ia : Is a A) (ib : Is b B) (ic : Is c C) (id : Is d D) (ie : Is e E)
    (g1 : Grid D E) (g2 : Grid C (rs D E)) (g3 : Grid B (rs C (rs D E))) (g4 : Grid A (rs B (rs C (rs D E))))
    (h : Rn5Facts (rs A (rs B (rs C (rs D E)))) (re A (rs B (rs C (rs D E)))) (re B (rs C (rs D E))) (re C (rs D E)) (re D E))
    (hb : 2 ^ 20 * (|A| + |B| + |C| + |D| + |E|) ≤ lim) :
    TIs (renorm5 a b c d e)
      (rn5t (rs A (rs B (rs C (rs D E)))) (re A (rs B (rs C (rs D E)))) (re B (rs C (rs D E))) (re C (rs D E)) (re D E)) := by
  have u1 := abs_rs_le D E
  have v1 := abs_re_le D E
  have u2 := abs_rs_le C (rs D E)
  have v2 := abs_re_le C (rs D E)
  have u3 := abs_rs_le B (rs C (rs D E))
  have v3 := abs_re_le B (rs C (rs D E))
  have u4 := abs_rs_le A (rs B (rs C (rs D E)))
  have v4 := abs_re_le A (rs B (rs C (rs D E)))
  have n1 := abs_nonneg A
  have n2 := abs_nonneg B
  have n3 := abs_nonneg C
  have n4 := abs_nonneg D
  have n5 := abs_nonneg E
  have t1 := is_quickTwoSum id ie g1 (by omega)
  have t2 := is_quickTwoSum ic t1.1 g2 (by omega)
  have t3 := is_quickTwoSum ib t2.1 g3 (by omega)
  have t4 := is_quickTwoSum ia t3.1 g4 (by omega)
  have i4 := t1.2
  have i3 := t2.2
  have i2 := t3.2
  have i1 := t4.2
  have i0 := t4.1
  unfold renorm5
  simp only
  generalize (quickTwoSum a (quickTwoSum b (quickTwoSum c (quickTwoSum d e).1).1).1) = S at *
  generalize (quickTwoSum b (quickTwoSum c (quickTwoSum d e).1).1) = S2 at *
  generalize (quickTwoSum c (quickTwoSum d e).1) = S3 at *
  generalize (quickTwoSum d e) = S4 at *
  generalize rs A (rs B (rs C (rs D E))) = s0 at *
  generalize re A (rs B (rs C (rs D E))) = s1 at *
  generalize re B (rs C (rs D E)) = s2 at *
  generalize re C (rs D E) = s3 at *
  generalize re D E = s4 at *
  obtain ⟨r0, r1, r2, r3, r4, lo1, ⟨k, k0, k1, k2⟩, ⟨l, l0, l1, l2, l3⟩, ⟨m, m0, m1, m2, m3, m4⟩⟩ := h
  have gk : ∀ x, Rep x → (2:ℤ) ^ k ∣ x → Grid x s2 := fun x hx hd =>
    grid_of_half hx r2 (fun h0 => k2.trans (pow_le_of_dvd hd h0))
  have gl : ∀ x, Rep x → (2:ℤ) ^ l ∣ x → Grid x s3 := fun x hx hd =>
    grid_of_half hx r3 (fun h0 => l3.trans (pow_le_of_dvd hd h0))
  have gm : ∀ x, Rep x → (2:ℤ) ^ m ∣ x → Grid x s4 := fun x hx hd =>
    grid_of_half hx r4 (fun h0 => m4.trans (pow_le_of_dvd hd h0))
  have M : 2 ^ 20 * (|s0| + |s1| + |s2| + |s3| + |s4|) ≤ 2 ^ 8 * lim := by omega
  clear u1 v1 u2 v2 u3 v3 u4 v4 hb n1 n2 n3 n4 n5 t1 t2 t3 t4 ia ib ic id ie g1 g2 g3 g4
  have n0 := abs_nonneg s0
  have n1 := abs_nonneg s1
  have n2 := abs_nonneg s2
  have n3 := abs_nonneg s3
  have n4 := abs_nonneg s4
  unfold rn5t
  by_cases c1 : s1 = 0
  · have e1 := is_ne_false i1 c1; simp only [e1, c1, ne_eq, not_true_eq_false, not_false_eq_true, Bool.false_eq_true, ↓reduceIte]
    have j := is_quickTwoSum i0 i2 (gk _ r0 k0) (by omega)
    have w1 := abs_rs_le s0 s2
    have w2 := abs_re_le s0 s2
    generalize quickTwoSum S.1 S2.2 = Q at *
    by_cases c2 : re s0 s2 = 0
    · have e2 := is_ne_false j.2 c2; simp only [e2, c2, ne_eq, not_true_eq_false, not_false_eq_true, Bool.false_eq_true, ↓reduceIte]
      have j2 := is_quickTwoSum j.1 i3 (gl _ (rep_rs _ _) (dvd_rs l0 l2)) (by omega)
      have w3 := abs_rs_le (rs s0 s2) s3
      have w4 := abs_re_le (rs s0 s2) s3
      generalize quickTwoSum Q.1 S3.2 = R at *
      by_cases c3 : re (rs s0 s2) s3 = 0
      · have e3 := is_ne_false j2.2 c3; simp only [e3, c3, ne_eq, not_true_eq_false, not_false_eq_true, Bool.false_eq_true, ↓reduceIte]
        have j3 := is_quickTwoSum j2.1 i4 (gm _ (rep_rs _ _) (dvd_rs (dvd_rs m0 m2) m3)) (by omega)
        exact ⟨j3.1, j3.2, is_zero, is_zero⟩
      · have e3 := (is_ne_zero j2.2).mpr c3; simp only [e3, c3, ne_eq, not_true_eq_false, not_false_eq_true, Bool.false_eq_true, ↓reduceIte]
        have j3 := is_quickTwoSum j2.2 i4 (gm _ (rep_re (rep_rs _ _) r3) (dvd_re (dvd_rs m0 m2) m3)) (by omega)
        exact ⟨j2.1, j3.1, j3.2, is_zero⟩
    · have e2 := (is_ne_zero j.2).mpr c2; simp only [e2, c2, ne_eq, not_true_eq_false, not_false_eq_true, Bool.false_eq_true, ↓reduceIte]
      have j2 := is_quickTwoSum j.2 i3 (gl _ (rep_re r0 r2) (dvd_re l0 l2)) (by omega)
      have w3 := abs_rs_le (re s0 s2) s3
      have w4 := abs_re_le (re s0 s2) s3
      generalize quickTwoSum Q.2 S3.2 = R at *
      by_cases c3 : re (re s0 s2) s3 = 0
      · have e3 := is_ne_false j2.2 c3; simp only [e3, c3, ne_eq, not_true_eq_false, not_false_eq_true, Bool.false_eq_true, ↓reduceIte]
        have j3 := is_quickTwoSum j2.1 i4 (gm _ (rep_rs _ _) (dvd_rs (dvd_re m0 m2) m3)) (by omega)
        exact ⟨j.1, j3.1, j3.2, is_zero⟩
      · have e3 := (is_ne_zero j2.2).mpr c3; simp only [e3, c3, ne_eq, not_true_eq_false, not_false_eq_true, Bool.false_eq_true, ↓reduceIte]
        have j3 := is_quickTwoSum j2.2 i4 (gm _ (rep_re (rep_re r0 r2) r3) (dvd_re (dvd_re m0 m2) m3)) (by omega)
        exact ⟨j.1, j2.1, j3.1, j3.2⟩
  · have e1 := (is_ne_zero i1).mpr c1; simp only [e1, c1, ne_eq, not_true_eq_false, not_false_eq_true, Bool.false_eq_true, ↓reduceIte]
    have j := is_quickTwoSum i1 i2 (gk _ r1 k1) (by omega)
    have w1 := abs_rs_le s1 s2
    have w2 := abs_re_le s1 s2
    generalize quickTwoSum S.2 S2.2 = Q at *
    by_cases c2 : re s1 s2 = 0
    · have e2 := is_ne_false j.2 c2; simp only [e2, c2, ne_eq, not_true_eq_false, not_false_eq_true, Bool.false_eq_true, ↓reduceIte]
      have j2 := is_quickTwoSum j.1 i3 (gl _ (rep_rs _ _) (dvd_rs l1 l2)) (by omega)
      have w3 := abs_rs_le (rs s1 s2) s3
      have w4 := abs_re_le (rs s1 s2) s3
      generalize quickTwoSum Q.1 S3.2 = R at *
      by_cases c3 : re (rs s1 s2) s3 = 0
      · have e3 := is_ne_false j2.2 c3; simp only [e3, c3, ne_eq, not_true_eq_false, not_false_eq_true, Bool.false_eq_true, ↓reduceIte]
        have j3 := is_quickTwoSum j2.1 i4 (gm _ (rep_rs _ _) (dvd_rs (dvd_rs m1 m2) m3)) (by omega)
        exact ⟨i0, j3.1, j3.2, is_zero⟩
      · have e3 := (is_ne_zero j2.2).mpr c3; simp only [e3, c3, ne_eq, not_true_eq_false, not_false_eq_true, Bool.false_eq_true, ↓reduceIte]
        have j3 := is_quickTwoSum j2.2 i4 (gm _ (rep_re (rep_rs _ _) r3) (dvd_re (dvd_rs m1 m2) m3)) (by omega)
        exact ⟨i0, j2.1, j3.1, j3.2⟩
    · have e2 := (is_ne_zero j.2).mpr c2; simp only [e2, c2, ne_eq, not_true_eq_false, not_false_eq_true, Bool.false_eq_true, ↓reduceIte]
      have j2 := is_quickTwoSum j.2 i3 (gl _ (rep_re r1 r2) (dvd_re l1 l2)) (by omega)
      have w3 := abs_rs_le (re s1 s2) s3
      have w4 := abs_re_le (re s1 s2) s3
      generalize quickTwoSum Q.2 S3.2 = R at *
      by_cases c3 : re (re s1 s2) s3 = 0
      · have e3 := is_ne_false j2.2 c3; simp only [e3, c3, ne_eq, not_true_eq_false, not_false_eq_true, Bool.false_eq_true, ↓reduceIte]
        have j3 := is_quickTwoSum j2.1 i4 (gm _ (rep_rs _ _) (dvd_rs (dvd_re m1 m2) m3)) (by omega)
        exact ⟨i0, j.1, j3.1, j3.2⟩
      · have e3 := (is_ne_zero j2.2).mpr c3; simp only [e3, c3, ne_eq, not_true_eq_false, not_false_eq_true, Bool.false_eq_true, ↓reduceIte]
        have j3 := is_twoSum j2.2 i4 (by omega)
        exact ⟨i0, j.1, j2.1, j3.1⟩

end Verif
