import Verif.Model.Double

/-!
# Specification vocabulary

What the properties talk about: the exact value of a `Double` and "normalized". Nothing here depends on the
arithmetic of `Double`; only the primitive `f64` operations and exact rational numbers are used.
-/

namespace Verif

/-- A rational value `q` is correctly rounded to the finite `f64` `x`: no finite `f64` is nearer to `q`. -/
def NearestF64 (x : F64) (q : ℚ) : Prop :=
  x.isFinite = true ∧ ∀ y : F64, y.isFinite = true → |q - x.toRat| ≤ |q - y.toRat|

namespace Double

/-- Both components are finite. -/
def Fin (d : Double) : Prop := d.hi.isFinite = true ∧ d.lo.isFinite = true

/-- Exact value of a finite Double: the unrounded sum of its components. -/
def val (d : Double) : ℚ := d.hi.toRat + d.lo.toRat

/-- Normalized: finite, and the first component is what `f64` addition of the components gives, i.e. the first
component is the `f64` nearest to the exact value (see `normalized_nearest`). -/
def Normalized (d : Double) : Prop := d.Fin ∧ F64.eq (F64.add d.hi d.lo) d.hi = true

instance (d : Double) : Decidable d.Normalized := inferInstanceAs (Decidable ((_ ∧ _) ∧ _))

end Double

/-- Rounding a rational number towards zero. -/
def truncQ (q : ℚ) : ℤ := if 0 ≤ q then ⌊q⌋ else ⌈q⌉

/-- Rounding a rational number to the nearest integer, halves away from zero. -/
def roundQ (q : ℚ) : ℤ := if 0 ≤ q then ⌊q + 1 / 2⌋ else ⌈q - 1 / 2⌉

/-- `x` and `y` are the same number: both NaN, or equal as numbers (`+0 = -0`). -/
def SameF64 (x y : F64) : Prop := (x.isNan = true ∧ y.isNan = true) ∨ F64.eq x y = true

/-- Two Doubles are the same number, component by component. -/
def SameDouble (a b : Double) : Prop := SameF64 a.hi b.hi ∧ SameF64 a.lo b.lo

end Verif
