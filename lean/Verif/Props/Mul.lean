import Verif.Props.EFT

/-!
# C03: multiplication of Doubles
-/

namespace Verif

open F64

/-- **C03.** For normalized operands whose leading components have a product of at most `2^1023` in magnitude, `a * b`
is normalized and misses the exact product by at most `9 * 2^-106` of it (less than `2^-102`) plus two units of the
smallest subnormal `2^-1074`. -/
theorem C03_mul (a b : Double) (ha : a.Normalized) (hb : b.Normalized)
    (hr : |a.hi.toRat * b.hi.toRat| ≤ 2 ^ 1023) :
    (a * b).Normalized ∧
    |(a * b).val - a.val * b.val| ≤ 9 / 2 ^ 106 * |a.val * b.val| + 2 / 2 ^ 1074 := by
  obtain ⟨xh, xl, ia, hx⟩ := ha.norm2
  obtain ⟨yh, yl, ib, hy⟩ := hb.norm2
  obtain ⟨zh, zl, iz, hz, he⟩ := mul_spec ia ib hx hy (range_mul ia.1 ib.1 hr)
  refine ⟨hz.normalized iz, ?_⟩
  rw [iz.val, exactProd_val ia ib, ← one'_pow]
  exact lift_abs he

/-- **C03.** Without underflow (exact product at least `2^-969`), the relative error is below `2^-102`. -/
theorem C03_mul_relative (a b : Double) (ha : a.Normalized) (hb : b.Normalized)
    (hr : |a.hi.toRat * b.hi.toRat| ≤ 2 ^ 1023) (hu : 1 ≤ |a.val * b.val| * 2 ^ 969) :
    |(a * b).val - a.val * b.val| * 2 ^ 102 < |a.val * b.val| := by
  have h := (C03_mul a b ha hb hr).2
  have e : (2:ℚ) / 2 ^ 1074 ≤ 4 / 2 ^ 106 * |a.val * b.val| := by
    have h1 : (2:ℚ) / 2 ^ 1074 = 4 / 2 ^ 106 * (1 / 2 ^ 969) := by
      have : (2:ℚ) ^ 1074 = 2 ^ 105 * 2 ^ 969 := by rw [← pow_add]
      rw [this]; generalize (2:ℚ) ^ 969 = P; norm_num; ring
    rw [h1]
    apply mul_le_mul_of_nonneg_left _ (by norm_num)
    rw [div_le_iff₀ (by positivity)]; exact hu
  have hpos : 0 < |a.val * b.val| := by
    by_contra hc
    have h0 : |a.val * b.val| = 0 := le_antisymm (not_lt.mp hc) (abs_nonneg _)
    rw [h0] at hu
    norm_num at hu
  generalize (a * b).val - a.val * b.val = D at *
  generalize |a.val * b.val| = T at *
  generalize (2:ℚ) / 2 ^ 1074 = c at *
  have : |D| ≤ 13 / 2 ^ 106 * T := by linarith
  calc |D| * 2 ^ 102 ≤ 13 / 2 ^ 106 * T * 2 ^ 102 := mul_le_mul_of_nonneg_right this (by positivity)
    _ = 13 / 16 * T := by ring
    _ < T := by linarith

example : Double.PI.Normalized ∧ Double.E.Normalized ∧ |Double.PI.hi.toRat * Double.E.hi.toRat| ≤ 2 ^ 1023 ∧
    1 ≤ |Double.PI.val * Double.E.val| * 2 ^ 969 := by decide +kernel

end Verif
