import Verif.SpecQuad

/-!
# Halves that `Quad::round` gets right
-/

namespace Verif.Quad

/-- The component `c`, a half, is followed by `t`; `s` has the sign of the whole number. A positive half may be followed by
anything, except that an exact half of a negative number must not be a positive component; a negative half must be exact
and belong to a negative number. -/
def TieOk (s c t : ℚ) : Prop := Int.fract c = 1 / 2 ∧ ((0 < c ∧ (t ≠ 0 ∨ 0 < s)) ∨ (c < 0 ∧ t = 0 ∧ s < 0))

/-- The first component that is not an integer is a half, and one of those described above. -/
def RoundTie (q : Quad) : Prop :=
  TieOk q.c0.toRat q.c0.toRat q.c1.toRat ∨ (Int.fract q.c0.toRat = 0 ∧
    (TieOk q.c0.toRat q.c1.toRat q.c2.toRat ∨ (Int.fract q.c1.toRat = 0 ∧
      (TieOk q.c0.toRat q.c2.toRat q.c3.toRat ∨ (Int.fract q.c2.toRat = 0 ∧ TieOk q.c0.toRat q.c3.toRat 0)))))

instance (s c t : ℚ) : Decidable (TieOk s c t) := inferInstanceAs (Decidable (_ ∧ _))
instance (q : Quad) : Decidable q.RoundTie := inferInstanceAs (Decidable (_ ∨ _))

end Verif.Quad
