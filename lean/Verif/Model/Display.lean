import Verif.Model.Quad

/-!
# Model of formatting: `src/common/display.rs`, `src/double/display.rs`, `src/quad/display.rs`

The two type-specific files contain the same text up to the number type and `MAX_ACCURACY`; they are modelled by one set
of functions over the operations of the number type they use. A `Vec<u8>` is a list of natural numbers below 256, a
`Vec<char>` a list of characters. `none` is a panic (index out of bounds, `unwrap` of `None`, arithmetic overflow in a
debug build). `f64::log10` belongs to the platform's mathematical library and is a parameter of the model.

Not modelled: the `Debug` implementation (it prints components with the standard library's own `{:e}`).
-/

namespace Verif

/-- `std::fmt::Alignment` -/
inductive Align where
  | left | right | center
deriving DecidableEq, Repr

/-- The settings of a `std::fmt::Formatter` that the crate reads. -/
structure Fmt where
  width : Option ℕ := none
  precision : Option ℕ := none
  fill : Char := ' '
  align : Option Align := none
  signPlus : Bool := false
  zeroPad : Bool := false
deriving DecidableEq, Repr

namespace Disp

/-- `push_nan` — src/common/display.rs:10-12 -/
def nanText : List Char := "NaN".toList

/-- `push_inf` — src/common/display.rs:15-17 -/
def infText : List Char := "inf".toList

/-- `push_zero` — src/common/display.rs:21-31 -/
def zeroText (f : Fmt) : List Char :=
  match f.precision with
  | some p => if p > 0 then '0' :: '.' :: List.replicate p '0' else ['0']
  | none => ['0']

/-- `i32::to_string` (standard library): decimal digits, a minus sign for negative numbers. -/
def i32Text (n : ℤ) : List Char := if n < 0 then '-' :: Nat.toDigits 10 n.natAbs else Nat.toDigits 10 n.natAbs

/-- `push_exp` — src/common/display.rs:34-37 -/
def expText (marker : Char) (exp : ℤ) : List Char := marker :: i32Text exp

/-- `digits[j] += 1` on a vector of `u8`: panics out of bounds and on overflow of `u8`. -/
def bump (ds : List ℕ) (j : ℕ) : Option (List ℕ) :=
  match ds[j]? with
  | none => none
  | some d => if d < 255 then some (ds.set j (d + 1)) else none

/-- The `while` loop of `round_and_trunc` — src/common/display.rs:48-52. The position `len - i` is the argument `j`; the loop
stops at the first element (`len != i`). -/
def carry : ℕ → List ℕ → Option (List ℕ)
  | 0, ds => some ds
  | j + 1, ds => if ds[j + 1]? = some 10 then (bump (ds.set (j + 1) 0) j).bind (carry j) else some ds

/-- `round_and_trunc` — src/common/display.rs:41-55 -/
def roundAndTrunc (ds : List ℕ) (len : ℕ) : Option (List ℕ) :=
  match ds[len]? with
  | none => none
  | some d =>
    if d ≥ 5 then
      if len = 0 then none else ((bump ds (len - 1)).bind (carry (len - 1))).map (List.take len)
    else some (ds.take len)

/-- The inner loop of `adjust_zeros` — src/common/display.rs:73-76: `n` is `new_len`. (`digits[new_len - 1]` is evaluated
first and panics for an empty vector.) -/
def dropZeros (ds : List ℕ) (exp : ℤ) : ℕ → Option ℕ
  | 0 => none
  | n + 1 =>
    match ds[n]? with
    | none => none
    | some d => if d = 0 ∧ n + 1 > 1 ∧ ((n + 1 : ℕ) : ℤ) > exp + 1 then dropZeros ds exp n else some (n + 1)

/-- `adjust_zeros` — src/common/display.rs:65-90. The arithmetic on `exp` overflows only for exponents at the ends of
the range of `i32`, which are rejected as a panic. -/
def adjustZeros (ds : List ℕ) (exp : ℤ) : Option (List ℕ) :=
  if exp ≤ -2 ^ 31 ∨ 2 ^ 31 - 1 ≤ exp then none
  else
    let accuracy : ℤ := ds.length
    let ds' : Option (List ℕ) :=
      if (ds.length : ℤ) > exp + 1 then (dropZeros ds exp ds.length).map (fun n => ds.take n) else some ds
    ds'.map fun ds =>
      if exp < 0 then List.replicate exp.natAbs 0 ++ ds
      else ds ++ List.replicate (max 0 ((exp.natAbs : ℤ) - accuracy + 1)).toNat 0

/-- `adjust_prec` — src/common/display.rs:104-117 -/
def adjustPrec (ds : List ℕ) (exp : ℤ) (prec : Option ℕ) : Option (List ℕ) :=
  match prec with
  | none => some ds
  | some p =>
    let desired : ℕ := if exp < 0 then p + 1 else exp.toNat + p + 1
    if desired > ds.length then some (ds ++ List.replicate (desired - ds.length) 0)
    else if desired < ds.length then roundAndTrunc ds desired
    else some ds

/-- `char::from_digit(d, 10)` (standard library) -/
def fromDigit (d : ℕ) : Option Char := if d < 10 then some (Char.ofNat (48 + d)) else none

/-- Characters of one "digit" in `place_decimal` — src/common/display.rs:134-142 -/
def digitText (d : ℕ) : Option (List Char) := if d = 10 then some ['1', '0'] else (fromDigit d).map ([·])

/-- `place_decimal` — src/common/display.rs:129-153 -/
def placeDecimal (ds : List ℕ) (exp : ℤ) : Option (List Char) :=
  match ds with
  | [] => none
  | d0 :: _ =>
    let offset := if d0 = 10 then 1 else 0
    (ds.mapM digitText).map fun parts =>
      let result := parts.flatten
      let position := (max 0 exp).toNat + offset + 1
      if position < result.length then result.take position ++ '.' :: result.drop position else result

/-- `align_and_fill` — src/common/display.rs:162-205 -/
def alignAndFill (chars : List Char) (signed : Bool) (f : Fmt) : List Char :=
  match f.width with
  | none => chars
  | some width =>
    if chars.length < width then
      let delta := width - chars.length
      match f.align with
      | some .left => chars ++ List.replicate delta f.fill
      | some .right => List.replicate delta f.fill ++ chars
      | some .center =>
        let left := delta / 2
        let right := delta - left
        List.replicate left f.fill ++ chars ++ List.replicate right f.fill
      | none =>
        if f.zeroPad then
          let index := if signed then 1 else 0
          chars.take index ++ List.replicate delta '0' ++ chars.drop index
        else List.replicate delta f.fill ++ chars
    else chars

/-- The operations of the number type used by the formatting code. -/
structure Ops (α : Type) where
  /-- the first component, `value.0` -/
  hi : α → F64
  isNan : α → Bool
  isInfinite : α → Bool
  isZero : α → Bool
  isFinite : α → Bool
  isSignNegative : α → Bool
  abs : α → α
  /-- `TEN.powi(exp)` -/
  tenPowi : ℤ → Option α
  div : α → α → α
  /-- `value - Double(digit, 0.0)` -/
  subDigit : α → F64 → α
  /-- `value * TEN` -/
  mulTen : α → α
  maxAccuracy : ℕ

variable {α : Type}

/-- `push_sign` — src/double/display.rs:188-198, src/quad/display.rs:204-214 -/
def signText (ops : Ops α) (x : α) (f : Fmt) : List Char × Bool :=
  if ops.isSignNegative x then (['-'], true) else if f.signPlus then (['+'], true) else ([], false)

/-- The digit loop of `extract_digits` — src/double/display.rs:240-247, src/quad/display.rs:256-263 (`digit as u8`
saturates). -/
def extractLoop (ops : Ops α) : ℕ → α → List ℕ
  | 0, _ => []
  | n + 1, v =>
    let digit := (ops.hi v).trunc
    (F64.toU 8 digit).toNat :: extractLoop ops n (ops.mulTen (ops.subDigit v digit))

/-- `extract_digits` — src/double/display.rs:229-261, src/quad/display.rs:245-277. `324 + exp` is computed in `i32` and a
negative result becomes a huge `usize`. -/
def extractDigits (ops : Ops α) (value : α) (exp : ℤ) : Option (List ℕ) :=
  (ops.tenPowi exp).bind fun divisor =>
    let digits := extractLoop ops (ops.maxAccuracy + 1) (ops.div value divisor)
    (i32? (324 + exp)).bind fun e =>
      let len := min e ops.maxAccuracy
      roundAndTrunc digits (if len < 0 then (len + 2 ^ 64).toNat else len.toNat)

/-- The decimal exponent `value.0.log10().floor() as i32` — src/double/display.rs:202, 214 -/
def exponent (ops : Ops α) (log10 : F64 → F64) (value : α) : ℤ := F64.toI32 (F64.floor (log10 (ops.hi value)))

/-- `push_digits_fixed` — src/double/display.rs:200-210, src/quad/display.rs:216-226 -/
def fixedText (ops : Ops α) (log10 : F64 → F64) (x : α) (f : Fmt) : Option (List Char) :=
  let value := ops.abs x
  let exp := exponent ops log10 value
  (extractDigits ops value exp).bind fun ds =>
    (adjustZeros ds exp).bind fun ds => (adjustPrec ds exp f.precision).bind fun ds => placeDecimal ds exp

/-- `push_digits_exp` — src/double/display.rs:212-222, src/quad/display.rs:228-238 -/
def expDigitsText (ops : Ops α) (log10 : F64 → F64) (x : α) (f : Fmt) : Option (List Char) :=
  let value := ops.abs x
  let exp := exponent ops log10 value
  (extractDigits ops value exp).bind fun ds =>
    (adjustZeros ds 0).bind fun ds => (adjustPrec ds 0 f.precision).bind fun ds => placeDecimal ds 0

/-- `Display::fmt` — src/double/display.rs:78-94, src/quad/display.rs:82-98 -/
def display (ops : Ops α) (log10 : F64 → F64) (x : α) (f : Fmt) : Option (List Char) :=
  let (sign, signed) := signText ops x f
  let body : Option (List Char) :=
    if ops.isNan x then some nanText
    else if ops.isInfinite x then some infText
    else if ops.isZero x then some (zeroText f)
    else fixedText ops log10 x f
  body.map fun b => alignAndFill (sign ++ b) signed f

/-- `LowerExp::fmt` and `UpperExp::fmt` — src/double/display.rs:101-127, 134-160, src/quad/display.rs:105-131, 138-164; the
marker is `e` or `E`. -/
def displayExp (ops : Ops α) (log10 : F64 → F64) (marker : Char) (x : α) (f : Fmt) : Option (List Char) :=
  let (sign, signed) := signText ops x f
  let body : Option (List Char) :=
    if ops.isNan x then some nanText
    else if ops.isInfinite x then some infText
    else if ops.isZero x then some (zeroText f)
    else expDigitsText ops log10 x f
  body.map fun b =>
    let tail :=
      if ops.isFinite x then
        let exp := if ops.isZero x then 0 else F64.toI32 (F64.floor (log10 (F64.abs (ops.hi x))))
        expText marker exp
      else []
    alignAndFill (sign ++ b ++ tail) signed f

end Disp

/-- The operations of `Double` used for formatting — src/double/display.rs:11-12, 235-245 -/
def Double.dispOps : Disp.Ops Double where
  hi := Double.hi
  isNan := Double.isNan
  isInfinite := Double.isInfinite
  isZero := Double.isZero
  isFinite := Double.isFinite
  isSignNegative := Double.isSignNegative
  abs := Double.abs
  tenPowi n := Double.powi ⟨F64.ofInt 10, F64.zero⟩ n
  div a b := a / b
  subDigit a d := a - ⟨d, F64.zero⟩
  mulTen a := a * ⟨F64.ofInt 10, F64.zero⟩
  maxAccuracy := 31

/-- The operations of `Quad` used for formatting — src/quad/display.rs:11-12, 251-261 -/
def Quad.dispOps : Disp.Ops Quad where
  hi := Quad.c0
  isNan := Quad.isNan
  isInfinite := Quad.isInfinite
  isZero := Quad.isZero
  isFinite := Quad.isFinite
  isSignNegative := Quad.isSignNegative
  abs := Quad.abs
  tenPowi n := Quad.powi ⟨F64.ofInt 10, F64.zero, F64.zero, F64.zero⟩ n
  div a b := a / b
  subDigit a d := a - ⟨d, F64.zero, F64.zero, F64.zero⟩
  mulTen a := a * ⟨F64.ofInt 10, F64.zero, F64.zero, F64.zero⟩
  maxAccuracy := 62

/-- `format!("{...}", x)` for a `Double` — src/double/display.rs:14-95 -/
def Double.display := Disp.display Double.dispOps
/-- `format!("{...e}", x)`, `format!("{...E}", x)` for a `Double` — src/double/display.rs:97-161 -/
def Double.displayExp := Disp.displayExp Double.dispOps
/-- `format!("{...}", x)` for a `Quad` — src/quad/display.rs:14-99 -/
def Quad.display := Disp.display Quad.dispOps
/-- `format!("{...e}", x)`, `format!("{...E}", x)` for a `Quad` — src/quad/display.rs:101-165 -/
def Quad.displayExp := Disp.displayExp Quad.dispOps

end Verif
