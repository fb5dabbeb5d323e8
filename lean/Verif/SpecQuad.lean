import Verif.Model.Quad
import Verif.Spec

/-!
# Specification vocabulary for `Quad`

The exact value of a `Quad` and two notions of "normalized". Nothing here depends on the arithmetic of `Quad`; only the
primitive `f64` operations and exact rational numbers are used.
-/

namespace Verif

namespace Quad

/-- All components are finite. -/
def Fin (q : Quad) : Prop :=
  q.c0.isFinite = true ∧ q.c1.isFinite = true ∧ q.c2.isFinite = true ∧ q.c3.isFinite = true

/-- Exact value of a finite Quad: the unrounded sum of its components. -/
def val (q : Quad) : ℚ := q.c0.toRat + q.c1.toRat + q.c2.toRat + q.c3.toRat

/-- Normalized: finite, and every component is what `f64` addition of it and the next component gives, i.e. each
component is at most half a unit in the last place of the one before it. -/
def Normalized (q : Quad) : Prop :=
  q.Fin ∧ F64.eq (F64.add q.c0 q.c1) q.c0 = true ∧ F64.eq (F64.add q.c1 q.c2) q.c1 = true ∧
    F64.eq (F64.add q.c2 q.c3) q.c2 = true

/-- Weakly normalized: finite, and every component is at most `2^-52` times the one before it. (One unit in the last
place of a component is between `2^-53` and `2^-52` times its magnitude, so this allows a component of up to about one
unit in the last place of its predecessor where `Normalized` allows half a unit.) -/
def Ordered (q : Quad) : Prop :=
  q.Fin ∧ 2 ^ 52 * |q.c1.toRat| ≤ |q.c0.toRat| ∧ 2 ^ 52 * |q.c2.toRat| ≤ |q.c1.toRat| ∧
    2 ^ 52 * |q.c3.toRat| ≤ |q.c2.toRat|

/-- Uniquely normalized: every component is strictly nearer than any other `f64` to the exact value of itself and all
following components. -/
def StrictlyNormalized (q : Quad) : Prop :=
  q.Fin ∧
  (∀ y : F64, y.isFinite = true → y.toRat ≠ q.c0.toRat → |q.val - q.c0.toRat| < |q.val - y.toRat|) ∧
  (∀ y : F64, y.isFinite = true → y.toRat ≠ q.c1.toRat →
    |q.val - q.c0.toRat - q.c1.toRat| < |q.val - q.c0.toRat - y.toRat|) ∧
  (∀ y : F64, y.isFinite = true → y.toRat ≠ q.c2.toRat →
    |q.val - q.c0.toRat - q.c1.toRat - q.c2.toRat| < |q.val - q.c0.toRat - q.c1.toRat - y.toRat|)

/-- The first of the first three components that is not an integer (if any) is at least `2^-52` above one. -/
def GapBelow (q : Quad) : Prop :=
  1 / 2 ^ 52 ≤ Int.fract q.c0.toRat ∨ (Int.fract q.c0.toRat = 0 ∧
    (1 / 2 ^ 52 ≤ Int.fract q.c1.toRat ∨ (Int.fract q.c1.toRat = 0 ∧
      (1 / 2 ^ 52 ≤ Int.fract q.c2.toRat ∨ Int.fract q.c2.toRat = 0))))

/-- The first of the first three components that is not an integer (if any) is at least `2^-52` below one. -/
def GapAbove (q : Quad) : Prop :=
  1 / 2 ^ 52 ≤ Int.fract (-q.c0.toRat) ∨ (Int.fract (-q.c0.toRat) = 0 ∧
    (1 / 2 ^ 52 ≤ Int.fract (-q.c1.toRat) ∨ (Int.fract (-q.c1.toRat) = 0 ∧
      (1 / 2 ^ 52 ≤ Int.fract (-q.c2.toRat) ∨ Int.fract (-q.c2.toRat) = 0))))

/-- The distance of `c` from the nearest integer is at least `2^-52` and at least `2^-52` away from one half. -/
def ClearOfTies (c : ℚ) : Prop := 1 / 2 ^ 52 ≤ |roundQ c - c| ∧ |roundQ c - c| + 1 / 2 ^ 52 ≤ 1 / 2

/-- The first of the first three components that is not an integer is clear of integers and halves; if all three are
integers, the last component is not exactly halfway between two integers. -/
def RoundClear (q : Quad) : Prop :=
  ClearOfTies q.c0.toRat ∨ (Int.fract q.c0.toRat = 0 ∧
    (ClearOfTies q.c1.toRat ∨ (Int.fract q.c1.toRat = 0 ∧
      (ClearOfTies q.c2.toRat ∨ (Int.fract q.c2.toRat = 0 ∧ |roundQ q.c3.toRat - q.c3.toRat| < 1 / 2)))))

instance (q : Quad) : Decidable q.GapBelow := inferInstanceAs (Decidable (_ ∨ _))
instance (q : Quad) : Decidable q.GapAbove := inferInstanceAs (Decidable (_ ∨ _))
instance (c : ℚ) : Decidable (ClearOfTies c) := inferInstanceAs (Decidable (_ ∧ _))
instance (q : Quad) : Decidable q.RoundClear := inferInstanceAs (Decidable (_ ∨ _))
instance (q : Quad) : Decidable q.Fin := inferInstanceAs (Decidable (_ ∧ _))
instance (q : Quad) : Decidable q.Ordered := inferInstanceAs (Decidable (_ ∧ _))
instance (q : Quad) : Decidable q.Normalized := inferInstanceAs (Decidable (_ ∧ _))

end Quad

/-- Two Quads are the same number, component by component. -/
def SameQuad (a b : Quad) : Prop :=
  SameF64 a.c0 b.c0 ∧ SameF64 a.c1 b.c1 ∧ SameF64 a.c2 b.c2 ∧ SameF64 a.c3 b.c3

end Verif
