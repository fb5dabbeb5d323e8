import Verif.SpecText
import Verif.Model.Display
import Mathlib.Algebra.Order.Floor.Ring
import Mathlib.Data.Rat.Floor

/-!
# Specification vocabulary for formatted numbers
-/

namespace Verif

/-- Rounding a non-negative number half up to `p` decimals. -/
def halfUp (q : ℚ) (p : ℕ) : ℚ := ⌊q * 10 ^ p + 1 / 2⌋ / 10 ^ p

/-- A plain decimal text with `whole` digits before and `p` digits after the point (no point when `p = 0`) that denotes
the number `q`. -/
def PlainText (t : List Char) (whole p : ℕ) (q : ℚ) : Prop :=
  ∃ ip fp : List Char, t = (if p = 0 then ip else ip ++ '.' :: fp) ∧ ip.length = whole ∧ fp.length = p ∧
    (∀ c ∈ ip ++ fp, IsDigit c) ∧ (intOf (ip ++ fp) : ℚ) / 10 ^ p = q

/-- Decimal digits that can be placed: every digit at most nine or, for numbers not below one, a ten followed by zeros. -/
def GoodDigits (ds : List ℕ) (exp : ℤ) : Prop :=
  (∀ d ∈ ds, d ≤ 9) ∨ (0 ≤ exp ∧ ∃ k, ds = 10 :: List.replicate k 0)

/-- Value of a digit list whose first digit has the weight `10^e`. -/
def decVal (ds : List ℕ) (e : ℤ) : ℚ := digitsVal ds * 10 ^ (e + 1 - ds.length)

/-- The sign printed before a number. -/
def signOf (negative plus : Bool) : List Char := if negative then ['-'] else if plus then ['+'] else []

/-- `t` is `nat` padded to the width asked for: the padding is on the side the alignment names (on the left without
alignment), or zeros after the first `sign` characters when zero padding is asked for without alignment. -/
def Padded (f : Fmt) (sign : ℕ) (nat t : List Char) : Prop :=
  let missing := (f.width.getD 0) - nat.length
  ∃ l r : ℕ, l + r = missing ∧
    ((f.align = some .left ∧ l = 0 ∧ t = nat ++ List.replicate r f.fill) ∨
     (f.align = some .right ∧ r = 0 ∧ t = List.replicate l f.fill ++ nat) ∨
     (f.align = some .center ∧ (r = l ∨ r = l + 1) ∧ t = List.replicate l f.fill ++ nat ++ List.replicate r f.fill) ∨
     (f.align = none ∧ f.zeroPad = false ∧ r = 0 ∧ t = List.replicate l f.fill ++ nat) ∨
     (f.align = none ∧ f.zeroPad = true ∧ r = 0 ∧ t = nat.take sign ++ List.replicate l '0' ++ nat.drop sign))

/-- The platform's `log10` serves the number with first component `hi` and value `v`: rounding `log10 |hi|` down gives
`k`, and `10^k ≤ |v| ≤ 10^(k+1)` up to a relative error of `2^-40` (the number may be on the wrong side of a power of ten). -/
def LogOk (log10 : F64 → F64) (hi : F64) (v : ℚ) (k : ℤ) : Prop :=
  F64.toI32 (F64.floor (log10 hi.abs)) = k ∧ (10:ℚ) ^ k ≤ |v| * (1 + 1 / 2 ^ 40) ∧ |v| ≤ (10:ℚ) ^ (k + 1) * (1 + 1 / 2 ^ 40)

end Verif
