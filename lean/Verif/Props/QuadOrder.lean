import Verif.Props.QuadInts
import Verif.Props.QuadBasic

/-!
# C53, C52: comparison of Quads; division of Quads
-/

namespace Verif

open F64 Prim Util

theorem nearest_mono {x y v w : ℚ} (h1 : x ≠ y → |v - x| < |v - y|) (h2 : x ≠ y → |w - y| < |w - x|) (h : v ≤ w) : x ≤ y := by
  by_contra hc
  push Not at hc
  have a1 := h1 hc.ne'
  have a2 := h2 hc.ne'
  have b1 := sq_lt_sq.mpr a1
  have b2 := sq_lt_sq.mpr a2
  have b1' : 0 < (x - y) * (2 * v - x - y) := by nlinarith
  have b2' : 0 < (x - y) * (x + y - 2 * w) := by nlinarith
  have hxy : 0 < x - y := by linarith
  have c1 := pos_of_mul_pos_right b1' hxy.le
  have c2 := pos_of_mul_pos_right b2' hxy.le
  linarith

theorem cmp_toRat {x y : F64} (hx : x.isFinite = true) (hy : y.isFinite = true) :
    F64.partialCmp x y = some (compare x.toRat y.toRat) := by
  have ix := Is.of_finite hx
  have iy := Is.of_finite hy
  rw [ix.partialCmp iy, ix.toRat, iy.toRat, compare_div_one']

theorem lex_step {x y v w : ℚ} (h1 : x ≠ y → |v - x| < |v - y|) (h2 : x ≠ y → |w - y| < |w - x|) :
    compare v w = (compare x y).then (compare (v - x) (w - y)) := by
  rcases lt_trichotomy x y with h | h | h
  · have hv : v < w := by
      by_contra hc
      push Not at hc
      have := nearest_mono (fun e => h2 e.symm) (fun e => h1 e.symm) hc
      linarith
    rw [compare_lt_iff_lt.mpr h, compare_lt_iff_lt.mpr hv]; rfl
  · subst h
    rw [compare_eq_iff_eq.mpr rfl]
    change compare v w = compare (v - x) (w - x)
    rcases lt_trichotomy v w with h | h | h
    · rw [compare_lt_iff_lt.mpr h, compare_lt_iff_lt.mpr (by linarith)]
    · rw [compare_eq_iff_eq.mpr h, compare_eq_iff_eq.mpr (by linarith)]
    · rw [compare_gt_iff_gt.mpr h, compare_gt_iff_gt.mpr (by linarith)]
  · have hv : w < v := by
      by_contra hc
      push Not at hc
      have := nearest_mono h1 h2 hc
      linarith
    rw [compare_gt_iff_gt.mpr h, compare_gt_iff_gt.mpr hv]; rfl

/-- **C53.** For Quads whose components are strictly nearest (no rounding tie at any component), comparison is
comparison of the exact values. -/
theorem C53_compare_partial (a b : Quad) (ha : a.StrictlyNormalized) (hb : b.StrictlyNormalized) :
    Quad.partialCmp a b = some (compare a.val b.val) := by
  obtain ⟨⟨f0, f1, f2, f3⟩, a0, a1, a2⟩ := ha
  obtain ⟨⟨g0, g1, g2, g3⟩, b0, b1, b2⟩ := hb
  have s0 := lex_step (fun e => a0 b.c0 g0 e.symm) (fun e => b0 a.c0 f0 e)
  have s1 := lex_step (fun e => a1 b.c1 g1 e.symm) (fun e => b1 a.c1 f1 e)
  have s2 := lex_step (fun e => a2 b.c2 g2 e.symm) (fun e => b2 a.c2 f2 e)
  have e3 : a.val - a.c0.toRat - a.c1.toRat - a.c2.toRat = a.c3.toRat := by unfold Quad.val; ring
  have e4 : b.val - b.c0.toRat - b.c1.toRat - b.c2.toRat = b.c3.toRat := by unfold Quad.val; ring
  rw [e3, e4] at s2
  rw [s0, s1, s2]
  unfold Quad.partialCmp
  rw [cmp_toRat f0 g0, cmp_toRat f1 g1, cmp_toRat f2 g2, cmp_toRat f3 g3]
  cases compare a.c0.toRat b.c0.toRat <;> try rfl
  cases compare a.c1.toRat b.c1.toRat <;> try rfl
  cases compare a.c2.toRat b.c2.toRat <;> rfl

/-- **C53.** Strictly normalized Quads of equal value have equal components. -/
theorem C53_unique_partial (a b : Quad) (ha : a.StrictlyNormalized) (hb : b.StrictlyNormalized) (h : a.val = b.val) :
    Quad.eq a b = true := by
  rw [C13_quad_eq_iff, C53_compare_partial a b ha hb, h, compare_eq_iff_eq.mpr rfl]

/-- A two-component Quad without tie is strictly normalized. -/
theorem strict_of_norm {x y : F64} {m n : ℤ} {k : ℕ} (hx : Is x m) (hy : Is y n) (hm : (2:ℤ) ^ k ∣ m)
    (hmk : 2 ^ (52 + k) < |m|) (hn : 2 * |n| < 2 ^ k) :
    (⟨x, y, F64.zero, F64.zero⟩ : Quad).StrictlyNormalized := by
  have hz := is_zero
  have hp := one'_posQ
  have z0 : F64.zero.toRat = 0 := by rw [hz.toRat]; simp
  have hv : (⟨x, y, F64.zero, F64.zero⟩ : Quad).val = x.toRat + y.toRat := by unfold Quad.val; simp only [z0]; ring
  refine ⟨⟨hx.1, hy.1, hz.1, hz.1⟩, ?_, ?_, ?_⟩
  · intro f hf hne
    rw [hv]
    simp only at hne ⊢
    have hfi := Is.of_finite hf
    generalize f.units = p at *
    have hne' : p ≠ m := by
      rintro rfl; apply hne; rw [hfi.toRat, hx.toRat]
    rw [hx.toRat, hy.toRat, hfi.toRat, ← add_div, ← sub_div, ← sub_div, abs_div, abs_div,
      div_lt_div_iff_of_pos_right (by rw [abs_of_pos hp]; exact hp)]
    have goal : |m + n - m| < |m + n - p| := by
      have e : m + n - m = n := by ring
      rw [e]
      have far : 2 ^ k ≤ |m - p| := by
        have hk : (0:ℤ) < 2 ^ k := by positivity
        by_cases hpm : |p| ≤ 2 ^ (52 + k)
        · by_contra hc
          push Not at hc
          have t := abs_sub_abs_le_abs_sub m p
          obtain ⟨c, hc'⟩ := hm
          have d1 : (2:ℤ) ^ k ∣ |m| - 2 ^ (52 + k) := by
            refine dvd_sub ((dvd_abs _ _).mpr ⟨c, hc'⟩) (pow_dvd_pow 2 (by omega))
          have := Int.le_of_dvd (by linarith) d1
          linarith
        · push Not at hpm
          have hd : (2:ℤ) ^ k ∣ p := hfi.rep.dvd_of_le hpm.le
          have hd2 : (2:ℤ) ^ k ∣ m - p := dvd_sub hm hd
          exact pow_le_of_dvd hd2 (sub_ne_zero.mpr (Ne.symm hne'))
      have t : |m - p| ≤ |m + n - p| + |n| := by
        have := abs_sub (m + n - p) n
        rwa [show m + n - p - n = m - p by ring] at this
      linarith
    exact_mod_cast goal
  · intro f hf hne
    rw [hv]
    simp only at hne ⊢
    have : x.toRat + y.toRat - x.toRat - y.toRat = 0 := by ring
    rw [this, abs_zero, abs_pos]
    intro h; apply hne; linarith
  · intro f hf hne
    rw [hv]
    simp only [z0] at hne ⊢
    have e : x.toRat + y.toRat - x.toRat - y.toRat = 0 := by ring
    rw [e, sub_zero, zero_sub, abs_zero, abs_neg, abs_pos]
    exact hne

/-- The hypotheses are met by 3 + 2^-60 and 3 - 2^-60. -/
example : ∃ a b : Quad, a.StrictlyNormalized ∧ b.StrictlyNormalized ∧ a.val ≠ b.val := by
  have h3 : Is (F64.ofDec false 3 0) (3 * one') := ⟨by decide +kernel, by decide +kernel⟩
  have hs : Is (F64.powi Double.two (-60)) (2 ^ 1014) := ⟨by decide +kernel, by decide +kernel⟩
  have k1 : (2:ℤ) ^ 1023 ∣ 3 * one' := ⟨3 * 2 ^ 51, by decide +kernel⟩
  have k2 : (2:ℤ) ^ (52 + 1023) < |3 * one'| := by decide +kernel
  refine ⟨_, _, strict_of_norm h3 hs k1 k2 (by decide +kernel), strict_of_norm h3 hs.neg k1 k2 (by decide +kernel), ?_⟩
  decide +kernel

/-- **C53 does not hold as stated:** two normalized Quads (every component the `f64` sum of itself and the next) that
compare in the wrong order: `a.val > b.val` but `a < b`. -/
theorem C53_refuted : ∃ a b : Quad, a.Normalized ∧ b.Normalized ∧ b.val < a.val ∧ Quad.lt a b = true := by
  refine ⟨⟨F64.ofInt 1, F64.powi Double.two (-53), F64.powi Double.two (-106), F64.zero⟩,
    ⟨F64.add (F64.ofInt 1) (F64.powi Double.two (-52)),
      F64.add (F64.neg (F64.powi Double.two (-53))) (F64.powi Double.two (-106)),
      F64.add (F64.neg (F64.powi Double.two (-107))) (F64.powi Double.two (-160)), F64.zero⟩, ?_, ?_, ?_, ?_⟩
  · decide +kernel
  · decide +kernel
  · decide +kernel
  · decide +kernel

/-- **C52 does not hold as stated:** the quotient of two finite normalized Quads with leading components about `8·10^180`
and `2` is NaN. (The helper for the product of a Quad by an `f64` multiplies two tail terms it should add.) -/
theorem C52_refuted : ∃ a b : Quad, a.Normalized ∧ b.Normalized ∧ |a.val| ≤ 2 ^ 610 ∧ 1 ≤ |b.val| ∧ |b.val| ≤ 2 ∧
    (a / b).isNan = true := by
  refine ⟨⟨F64.ofDec true 8299031137761985 (165), F64.ofDec false 45470355945751997 (148), F64.ofDec false 13575121265501595 (132), F64.ofDec true 1774508604237323 (116)⟩,
    ⟨F64.ofDec true 19116271826179676 (-16), F64.ofDec false 4183014569455227 (-33), F64.ofDec true 11694048098574687 (-65), F64.ofDec true 9495567745759799 (-81)⟩,
    ?_, ?_, ?_, ?_, ?_, ?_⟩ <;> decide +kernel

/-- **C50:** addition is not accurate to `2^-208`: two normalized Quads between 1 and 2 whose computed sum is off by more
than `2^-169` of the exact sum. -/
theorem C50_refuted : ∃ a b : Quad, a.Normalized ∧ b.Normalized ∧ 1 ≤ a.val ∧ a.val ≤ 2 ∧ 1 ≤ b.val ∧ b.val ≤ 2 ∧
    2 ^ 169 * |(a + b).val - (a.val + b.val)| > |a.val + b.val| := by
  refine ⟨⟨F64.ofDec false 15983389541444863 (-16), F64.ofDec true 5551115123125791 (-32), F64.ofDec true 3273686882672095 (-49), F64.ofDec true 14243351618639698 (-81)⟩,
    ⟨F64.ofDec false 19547588038362966 (-16), F64.ofDec false 69388939039072245 (-34), F64.ofDec true 9629649721936192 (-50), F64.ofDec false 9552936436861644 (-66)⟩,
    ?_, ?_, ?_, ?_, ?_, ?_, ?_⟩ <;> decide +kernel

end Verif
