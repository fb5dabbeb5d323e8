import Verif.Model.Platform
import Mathlib.Analysis.SpecialFunctions.Exp
import Mathlib.Analysis.SpecialFunctions.Pow.Real

/-!
# What the theorems about roots ask of the platform's exponential

`nroot` starts its Newton iteration from `f64::exp` of a quotient of `f64::ln`. Rust specifies neither; the requirement below is
far weaker than what every libm in use delivers (an error below one ulp, that is `2^-52`).
-/

namespace Verif

/-- `f64::exp` is within `2^-50` (relative) of the exponential of every finite number between -300 and 300. -/
structure LibmExp (P : Platform) : Prop where
  exp : ∀ x : F64, x.isFinite = true → |(x.toRat : ℝ)| ≤ 300 → (P.exp x).isFinite = true ∧
    |((P.exp x).toRat : ℝ) - Real.exp (x.toRat : ℝ)| ≤ Real.exp (x.toRat : ℝ) / 2 ^ 50

end Verif
