import Verif.Model.Platform
import Mathlib.Analysis.SpecialFunctions.Complex.Arg

/-!
# What the theorems about the inverse trigonometric functions ask of the platform's libraries

`atan2` starts its Newton step from `f64::atan2`, which Rust does not specify. The requirement below is weaker than what every
libm in use delivers (an error below one ulp, that is `2^-52`).
-/

namespace Verif

/-- `f64::atan2` is within `2^-50` (relative) of the angle of the point, for nonzero coordinates between `2^-401` and `2^401` in
magnitude. The angle is the argument of the complex number `x + iy`, in `(-π, π]`. -/
def LibmAtan2 (P : Platform) : Prop :=
  ∀ y x : F64, y.isFinite = true → x.isFinite = true → 1 ≤ |y.toRat| * 2 ^ 401 → |y.toRat| ≤ 2 ^ 401 →
    1 ≤ |x.toRat| * 2 ^ 401 → |x.toRat| ≤ 2 ^ 401 → (P.atan2 y x).isFinite = true ∧
      |((P.atan2 y x).toRat : ℝ) - Complex.arg ⟨(x.toRat : ℝ), (y.toRat : ℝ)⟩| ≤
        |Complex.arg ⟨(x.toRat : ℝ), (y.toRat : ℝ)⟩| / 2 ^ 50

end Verif
