import Verif.Model.Platform
import Verif.SpecText
import Mathlib.Analysis.SpecialFunctions.Log.Base

/-!
# What the theorems about elementary functions ask of the platform's libraries

The crate starts its Newton iterations from `f64::ln` and scales its stopping threshold with `f64::log2`; neither is
specified by Rust. The requirement below is far weaker than what every libm in use delivers (an error below one ulp, that is
`2^-52`).
-/

namespace Verif

/-- `f64::ln` is within `2^-50` (relative) of the logarithm of every positive finite number; `f64::log2` is within 1 (absolute)
of the binary logarithm of every positive finite number, and minus infinity at zero. -/
structure LibmLogs (P : Platform) : Prop where
  ln : ∀ h : F64, h.isFinite = true → 0 < h.toRat → (P.ln h).isFinite = true ∧
    |((P.ln h).toRat : ℝ) - Real.log (h.toRat : ℝ)| ≤ |Real.log (h.toRat : ℝ)| / 2 ^ 50
  log2 : ∀ y : F64, y.isFinite = true → 0 < y.toRat → (P.log2 y).isFinite = true ∧
    |((P.log2 y).toRat : ℝ) - Real.logb 2 (y.toRat : ℝ)| ≤ 1
  log2_zero : P.log2 F64.zero = F64.NEG_INFINITY

/-- `f64::to_string` writes a finite nonzero number as decimal text without an exponent: a sign exactly for negative numbers,
at most 17 digits unless there are none after the point, and closer to the number than half a unit of its last place. (The
standard library documents the shortest text that reads back as the same number.) -/
structure FloatText (toStr : F64 → List Char) : Prop where
  mantissa : ∀ x, x.isFinite = true → x.toRat ≠ 0 → Mantissa (toStr x)
  length : ∀ x, x.isFinite = true → x.toRat ≠ 0 → (toStr x).length ≤ 2000
  sign : ∀ x, x.isFinite = true → x.toRat ≠ 0 → ('-' ∈ toStr x ↔ x.toRat < 0)
  short : ∀ x, x.isFinite = true → x.toRat ≠ 0 → fracDigits (toStr x) = 0 ∨ intOf (toStr x) < 10 ^ 17
  near : ∀ x, x.isFinite = true → 1 ≤ |x.toRat| * 2 ^ 1022 →
    |(intOf (toStr x) : ℚ) / 10 ^ fracDigits (toStr x) - (|x.toRat|)| * 2 ^ 53 ≤ |x.toRat|
  two : ∀ x, x.isFinite = true → x.toRat ≠ 0 → |x.toRat| < 1 → 2 ≤ (toStr x).length

end Verif
