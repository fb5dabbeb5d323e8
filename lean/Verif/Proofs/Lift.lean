import Verif.Proofs.DoubleAdd

/-!
# Moving between rational values and units
-/

namespace Verif

theorem lim2_one' : lim2 = 2 ^ 1023 * one' := by
  unfold lim2 one'; rw [← pow_add]

theorem abs_div_one' (m : ℤ) : |(m : ℚ) / one'| = ((|m| : ℤ) : ℚ) / one' := by
  rw [abs_div, abs_of_pos one'_posQ]; push_cast; rfl

theorem range2 {x y : F64} {m n : ℤ} (hx : Is x m) (hy : Is y n) (h : |x.toRat| + |y.toRat| ≤ 2 ^ 1023) :
    |m| + |n| ≤ lim2 := by
  rw [hx.toRat, hy.toRat, abs_div_one', abs_div_one', ← add_div, div_le_iff₀ one'_posQ] at h
  rw [lim2_one']
  exact_mod_cast h

/-- Lift a relative error bound from units to values. -/
theorem lift_rel {x y : ℤ} {X Y : ℚ} (k : ℕ) (hX : X = (x : ℚ) / one') (hY : Y = (y : ℚ) / one')
    (h : 2 ^ k * |x - y| ≤ |y|) : |X - Y| * 2 ^ k ≤ |Y| := by
  have e : X - Y = ((x - y : ℤ) : ℚ) / one' := by rw [hX, hY]; push_cast; ring
  rw [e, hY, abs_div_one', abs_div_one', div_mul_eq_mul_div]
  apply div_le_div_of_nonneg_right _ one'_posQ.le
  rw [mul_comm]
  exact_mod_cast h

end Verif
