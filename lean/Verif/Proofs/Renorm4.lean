import Verif.Model.Quad
import Verif.Proofs.Ident

/-!
# `renorm4` on exact integers

`rn4` is `renorm4` on units; under a grid condition no step loses anything, and the components of the result decrease by
a factor of at least `2^52`.
-/

namespace Verif

open F64 Prim Util

theorem Grid.rep {a b : ℤ} (h : Grid a b) : Rep b := by
  obtain ⟨k, _, h2, h3⟩ := h
  exact .of_dvd_lt h2 h3

theorem Grid.expo_dvd {a b : ℤ} (h : Grid a b) : (2:ℤ) ^ expo (b:ℚ) ∣ a := by
  obtain ⟨k, h1, h2, h3⟩ := h
  exact dvd_trans (pow_dvd_pow 2 (expo_le_of_lt (by exact_mod_cast h3))) h1

theorem grid_iff {a b : ℤ} : Grid a b ↔ Rep b ∧ (2:ℤ) ^ expo (b:ℚ) ∣ a :=
  ⟨fun h => ⟨h.rep, h.expo_dvd⟩, fun h => ⟨expo (b:ℚ), h.2, h.1.dvd, expo_int_lt b⟩⟩

theorem dvd_rs {a b : ℤ} {k : ℕ} (h1 : (2:ℤ) ^ k ∣ a) (h2 : (2:ℤ) ^ k ∣ b) : (2:ℤ) ^ k ∣ rs a b := dvd_rnd (dvd_add h1 h2)

theorem dvd_re {a b : ℤ} {k : ℕ} (h1 : (2:ℤ) ^ k ∣ a) (h2 : (2:ℤ) ^ k ∣ b) : (2:ℤ) ^ k ∣ re a b :=
  Int.dvd_sub (dvd_add h1 h2) (dvd_rs h1 h2)

theorem pow_le_of_dvd {x : ℤ} {k : ℕ} (h : (2:ℤ) ^ k ∣ x) (h0 : x ≠ 0) : (2:ℤ) ^ k ≤ |x| := by
  have := Int.le_of_dvd (abs_pos.mpr h0) ((dvd_abs _ _).mpr h)
  exact this

theorem re_lt_of_rs {a b : ℤ} {k : ℕ} (h : |rs a b| < 2 ^ (53 + k)) : 2 * |re a b| ≤ 2 ^ k := by
  apply two_err_le
  by_contra hc
  push Not at hc
  have : (2:ℤ) ^ (53 + k) ≤ |rs a b| := le_abs_rnd (Rep.two_pow _) (by exact_mod_cast hc)
  omega

theorem abs_rs_le (a b : ℤ) : |rs a b| ≤ 2 * (|a| + |b|) := by
  have h1 := re_le a b
  have h2 := rs_add_re a b
  have h3 : |rs a b| ≤ |a + b| + |re a b| := by
    rw [← h2]; exact abs_tri _ _
  have h4 := abs_add_le a b
  have := abs_nonneg (re a b)
  omega

theorem abs_re_le (a b : ℤ) : |re a b| ≤ |a| + |b| := by
  have h1 := re_le a b
  have h4 := abs_add_le a b
  have := abs_nonneg (re a b)
  omega

theorem abs_rs_le_two {a b : ℤ} (ha : Rep a) (h : |b| ≤ |a|) : |rs a b| ≤ 2 * |a| := by
  have hr : Rep (2 * |a|) := by
    have : Rep |a| := by rcases abs_choice a with h | h <;> rw [h] <;> [exact ha; exact ha.neg]
    have := this.mul_two_pow 1
    rwa [pow_one, mul_comm] at this
  apply abs_rnd_le hr
  have := abs_add_le a b
  have h' : |a + b| ≤ 2 * |a| := by omega
  exact_mod_cast h'

/-- Sum of four integers given as a tuple. -/
def sum4 (p : ℤ × ℤ × ℤ × ℤ) : ℤ := p.1 + p.2.1 + p.2.2.1 + p.2.2.2

/-- `renorm4` on units. -/
def rn4 (a b c d : ℤ) : ℤ × ℤ × ℤ × ℤ :=
  let x1 := rs c d
  let s3 := re c d
  let x2 := rs b x1
  let s2 := re b x1
  let s0 := rs a x2
  let s1 := re a x2
  if s1 ≠ 0 then
    if re s1 s2 ≠ 0 then (s0, rs s1 s2, rs (re s1 s2) s3, re (re s1 s2) s3)
    else (s0, rs (rs s1 s2) s3, re (rs s1 s2) s3, 0)
  else
    if re s0 s2 ≠ 0 then (rs s0 s2, rs (re s0 s2) s3, re (re s0 s2) s3, 0)
    else (rs (rs s0 s2) s3, re (rs s0 s2) s3, 0, 0)

/-- When no step of `renorm4` loses anything. -/
structure Rn4Ok (a b c d : ℤ) : Prop where
  ra : Rep a
  rb : Rep b
  rc : Rep c
  rd : Rep d
  g1 : Grid c d
  g2 : Grid b (rs c d)
  g3 : Grid a (rs b (rs c d))
  g4 : Grid a (rs c d)

/-- Facts about the second pass of `renorm4`. -/
structure Rn4Facts (a b c d : ℤ) : Prop where
  rep0 : Rep (rs a (rs b (rs c d)))
  rep1 : Rep (re a (rs b (rs c d)))
  rep2 : Rep (re b (rs c d))
  rep3 : Rep (re c d)
  big1 : re a (rs b (rs c d)) ≠ 0 → 2 * |re b (rs c d)| ≤ |re a (rs b (rs c d))|
  big0 : rs a (rs b (rs c d)) ≠ 0 → 2 * |re b (rs c d)| ≤ |rs a (rs b (rs c d))|
  grid : ∃ k : ℕ, (2:ℤ) ^ k ∣ rs a (rs b (rs c d)) ∧ (2:ℤ) ^ k ∣ re a (rs b (rs c d)) ∧ (2:ℤ) ^ k ∣ re b (rs c d) ∧
    2 * |re c d| ≤ 2 ^ k

theorem Rn4Ok.facts {a b c d : ℤ} (h : Rn4Ok a b c d) : Rn4Facts a b c d := by
  obtain ⟨ra, rb, rc, rd, g1, g2, g3, g4⟩ := h
  have e3 := g3.expo_dvd
  have e3' := g3.rep.dvd
  have b3 : 2 * |re b (rs c d)| ≤ 2 ^ expo ((rs b (rs c d) : ℤ) : ℚ) := re_lt_of_rs (expo_int_lt _)
  refine ⟨rep_rs _ _, re_of_grid ra g3, re_of_grid rb g2, re_of_grid rc g1, ?_, ?_, ?_⟩
  · intro h0; exact b3.trans (pow_le_of_dvd (dvd_re e3 e3') h0)
  · intro h0; exact b3.trans (pow_le_of_dvd (dvd_rs e3 e3') h0)
  · refine ⟨expo ((rs c d : ℤ) : ℚ), ?_, ?_, ?_, re_lt_of_rs (expo_int_lt _)⟩
    · exact dvd_rs g4.expo_dvd (dvd_rs g2.expo_dvd g2.rep.dvd)
    · exact dvd_re g4.expo_dvd (dvd_rs g2.expo_dvd g2.rep.dvd)
    · exact dvd_re g2.expo_dvd g2.rep.dvd

theorem Rn4Facts.half {c d x : ℤ} {k : ℕ} (h3 : 2 * |re c d| ≤ 2 ^ k) (hx : (2:ℤ) ^ k ∣ x) (h0 : x ≠ 0) :
    2 * |re c d| ≤ |x| := h3.trans (pow_le_of_dvd hx h0)

theorem grid_of_half {x y : ℤ} (hx : Rep x) (hy : Rep y) (h : x ≠ 0 → 2 * |y| ≤ |x|) : Grid x y := by
  by_cases h0 : x = 0
  · subst h0; exact Grid.zero_left hy
  · apply Grid.of_abs_le hx hy
    have := h h0
    have := abs_nonneg y
    omega

/-- `renorm4` keeps the sum. -/
theorem rn4_sum {a b c d : ℤ} : sum4 (rn4 a b c d) = a + b + c + d := by
  have e1 := rs_add_re c d
  have e2 := rs_add_re b (rs c d)
  have e3 := rs_add_re a (rs b (rs c d))
  unfold rn4 sum4
  dsimp only
  generalize rs a (rs b (rs c d)) = s0 at *
  generalize re a (rs b (rs c d)) = s1 at *
  generalize re b (rs c d) = s2 at *
  generalize re c d = s3 at *
  have e4 := rs_add_re s1 s2
  have e5 := rs_add_re (re s1 s2) s3
  have e6 := rs_add_re (rs s1 s2) s3
  have e7 := rs_add_re s0 s2
  have e8 := rs_add_re (re s0 s2) s3
  have e9 := rs_add_re (rs s0 s2) s3
  split_ifs with h1 h2 h3 <;> simp only [ne_eq, not_not] at * <;> omega

/-- Each component is at least `2^52` times the next one. -/
def Ord4 (p : ℤ × ℤ × ℤ × ℤ) : Prop :=
  2 ^ 52 * |p.2.1| ≤ |p.1| ∧ 2 ^ 52 * |p.2.2.1| ≤ |p.2.1| ∧ 2 ^ 52 * |p.2.2.2| ≤ |p.2.2.1|

theorem re_lo {a b : ℤ} (h : Rep (re a b)) : 2 ^ 53 * |re a b| ≤ |rs a b| := (norm2_rs_re' h).lo_le

theorem rn4_ord {a b c d : ℤ} (h : Rn4Ok a b c d) : Ord4 (rn4 a b c d) := by
  have f := h.facts
  have e3 := re_lo f.rep1
  unfold rn4 Ord4
  dsimp only
  obtain ⟨r0, r1, r2, r3, b1, b0, k, d0, d1, d2, h3⟩ := f
  generalize rs a (rs b (rs c d)) = s0 at *
  generalize re a (rs b (rs c d)) = s1 at *
  generalize re b (rs c d) = s2 at *
  generalize re c d = s3 at *
  have n0 := abs_nonneg s0
  have n1 := abs_nonneg s1
  have n2 := abs_nonneg s2
  have n3 := abs_nonneg s3
  split_ifs with c1 c2 c3
  · have p1 := b1 c1
    have q1 := abs_rs_le_two r1 (b := s2) (by omega)
    have rr := rep_re r1 r2
    have q2 := re_lo rr
    have dd : (2:ℤ) ^ k ∣ re s1 s2 := dvd_re d1 d2
    have hh := h3.trans (pow_le_of_dvd dd c2)
    have q3 := abs_rs_le_two rr (b := s3) (by omega)
    have q4 := re_lo (rep_re rr r3)
    have := abs_nonneg (re (re s1 s2) s3)
    dsimp only
    refine ⟨by omega, by omega, by omega⟩
  · simp only [ne_eq, not_not] at c2
    have p1 := b1 c1
    have hh := h3.trans (pow_le_of_dvd d1 c1)
    have es : rs s1 s2 = s1 + s2 := by have := rs_add_re s1 s2; omega
    have q4 := re_lo (rep_re (rep_rs s1 s2) r3)
    have hrep : Rep (2 * |s1|) := by
      have : Rep |s1| := by rcases abs_choice s1 with h | h <;> rw [h] <;> [exact r1; exact r1.neg]
      have := this.mul_two_pow 1
      rwa [pow_one, mul_comm] at this
    have q5 : |rs (rs s1 s2) s3| ≤ 2 * |s1| := by
      rw [es]
      apply abs_rnd_le hrep
      have t1 := abs_add_le (s1 + s2) s3
      have t2 := abs_add_le s1 s2
      have : |s1 + s2 + s3| ≤ 2 * |s1| := by omega
      exact_mod_cast this
    have := abs_nonneg (re (rs s1 s2) s3)
    dsimp only
    rw [abs_zero]
    refine ⟨by omega, by omega, by omega⟩
  · simp only [ne_eq, not_not] at c1
    have rr := rep_re r0 r2
    have q2 := re_lo rr
    have dd : (2:ℤ) ^ k ∣ re s0 s2 := dvd_re d0 d2
    have hh := h3.trans (pow_le_of_dvd dd c3)
    have q3 := abs_rs_le_two rr (b := s3) (by omega)
    have q4 := re_lo (rep_re rr r3)
    have := abs_nonneg (re (re s0 s2) s3)
    dsimp only
    rw [abs_zero]
    refine ⟨by omega, by omega, by omega⟩
  · have q4 := re_lo (rep_re (rep_rs s0 s2) r3)
    have := abs_nonneg (re (rs s0 s2) s3)
    dsimp only
    rw [abs_zero]
    refine ⟨by omega, by omega, by omega⟩

/-! ### Lifting to `f64` -/

/-- Units of the components. -/
structure TIs (p : F64 × F64 × F64 × F64) (z : ℤ × ℤ × ℤ × ℤ) : Prop where
  i0 : Is p.1 z.1
  i1 : Is p.2.1 z.2.1
  i2 : Is p.2.2.1 z.2.2.1
  i3 : Is p.2.2.2 z.2.2.2

theorem is_ne_zero {x : F64} {n : ℤ} (h : Is x n) : F64.ne x F64.zero = true ↔ n ≠ 0 := by
  unfold F64.ne
  rw [Bool.not_eq_true', ← Bool.not_eq_true, h.eq_iff is_zero]

theorem is_renorm4 {a b c d : F64} {m n p q : ℤ} (ia : Is a m) (ib : Is b n) (ic : Is c p) (id : Is d q)
    (h : Rn4Ok m n p q) (hb : 1024 * (|m| + |n| + |p| + |q|) ≤ lim) : TIs (renorm4 a b c d) (rn4 m n p q) := by
  have f := h.facts
  have u1 := abs_rs_le p q
  have v1 := abs_re_le p q
  have u2 := abs_rs_le n (rs p q)
  have v2 := abs_re_le n (rs p q)
  have u3 := abs_rs_le m (rs n (rs p q))
  have v3 := abs_re_le m (rs n (rs p q))
  have n1 := abs_nonneg m
  have n2 := abs_nonneg n
  have n3 := abs_nonneg p
  have n4 := abs_nonneg q
  have t1 := is_quickTwoSum ic id h.g1 (by omega)
  have t2 := is_quickTwoSum ib t1.1 h.g2 (by omega)
  have t3 := is_quickTwoSum ia t2.1 h.g3 (by omega)
  obtain ⟨r0, r1, r2, r3, b1, b0, k, d0, d1, d2, h3⟩ := f
  have i3 := t1.2
  have i2 := t2.2
  have i1 := t3.2
  have i0 := t3.1
  unfold renorm4 rn4
  simp only
  generalize (quickTwoSum a (quickTwoSum b (quickTwoSum c d).1).1) = S at *
  generalize (quickTwoSum b (quickTwoSum c d).1) = S2 at *
  generalize (quickTwoSum c d) = S3 at *
  generalize rs m (rs n (rs p q)) = s0 at *
  generalize re m (rs n (rs p q)) = s1 at *
  generalize re n (rs p q) = s2 at *
  generalize re p q = s3 at *
  have g12 : Grid s1 s2 := grid_of_half r1 r2 b1
  have g02 : Grid s0 s2 := grid_of_half r0 r2 b0
  have gk : ∀ x, Rep x → (2:ℤ) ^ k ∣ x → Grid x s3 := fun x hx hd =>
    grid_of_half hx r3 (fun h0 => h3.trans (pow_le_of_dvd hd h0))
  have w1 := abs_rs_le s1 s2
  have w2 := abs_re_le s1 s2
  have w3 := abs_rs_le s0 s2
  have w4 := abs_re_le s0 s2
  by_cases c1 : s1 = 0
  · have e1 : F64.ne S.2 F64.zero = false := by
      rw [← Bool.not_eq_true, is_ne_zero i1]; simpa using c1
    simp only [e1, c1, ne_eq, not_true_eq_false, not_false_eq_true, Bool.false_eq_true, ↓reduceIte]
    have j := is_quickTwoSum i0 i2 g02 (by omega)
    by_cases c2 : re s0 s2 = 0
    · have e2 : F64.ne (quickTwoSum S.1 S2.2).2 F64.zero = false := by
        rw [← Bool.not_eq_true, is_ne_zero j.2]; simpa using c2
      simp only [e2, c2, ne_eq, not_true_eq_false, not_false_eq_true, Bool.false_eq_true, ↓reduceIte]
      have l := is_quickTwoSum j.1 i3 (gk _ (rep_rs _ _) (dvd_rs d0 d2)) (by omega)
      exact ⟨l.1, l.2, is_zero, is_zero⟩
    · have e2 : F64.ne (quickTwoSum S.1 S2.2).2 F64.zero = true := by
        rw [is_ne_zero j.2]; exact c2
      simp only [e2, c2, ne_eq, not_true_eq_false, not_false_eq_true, Bool.false_eq_true, ↓reduceIte]
      have l := is_quickTwoSum j.2 i3 (gk _ (rep_re r0 r2) (dvd_re d0 d2)) (by omega)
      exact ⟨j.1, l.1, l.2, is_zero⟩
  · have e1 : F64.ne S.2 F64.zero = true := by rw [is_ne_zero i1]; exact c1
    simp only [e1, c1, ne_eq, not_true_eq_false, not_false_eq_true, Bool.false_eq_true, ↓reduceIte]
    have j := is_quickTwoSum i1 i2 g12 (by omega)
    by_cases c2 : re s1 s2 = 0
    · have e2 : F64.ne (quickTwoSum S.2 S2.2).2 F64.zero = false := by
        rw [← Bool.not_eq_true, is_ne_zero j.2]; simpa using c2
      simp only [e2, c2, ne_eq, not_true_eq_false, not_false_eq_true, Bool.false_eq_true, ↓reduceIte]
      have l := is_quickTwoSum j.1 i3 (gk _ (rep_rs _ _) (dvd_rs d1 d2)) (by omega)
      exact ⟨i0, l.1, l.2, is_zero⟩
    · have e2 : F64.ne (quickTwoSum S.2 S2.2).2 F64.zero = true := by
        rw [is_ne_zero j.2]; exact c2
      simp only [e2, c2, ne_eq, not_true_eq_false, not_false_eq_true, Bool.false_eq_true, ↓reduceIte]
      have l := is_quickTwoSum j.2 i3 (gk _ (rep_re r1 r2) (dvd_re d1 d2)) (by omega)
      exact ⟨i0, j.1, l.1, l.2⟩

end Verif
