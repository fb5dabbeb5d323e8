import Verif.Model.Alg

/-!
# Model of parsing: `src/double/from_str.rs` and `src/quad/from_str.rs`

The two files contain the same text up to the names of the number type and of the error type. They are modelled by one
function over the operations of the number type they use. A string is its list of characters; `none` is a panic
(slicing inside a character, `i32` overflow in a debug build), `some (.error k)` is `Err`, `some (.ok v)` is `Ok`.

`str::trim`, `to_ascii_lowercase`, `char::to_digit` and `str::parse::<i32>` belong to the Rust standard library and are
modelled by their documentation.
-/

namespace Verif

/-- `ErrorKind` — src/error.rs:30-36 -/
inductive ErrorKind where
  | empty
  | invalid
deriving DecidableEq, Repr

/-- Unicode property `White_Space` (what `str::trim` removes). -/
def isWhite (c : Char) : Bool :=
  let n := c.toNat
  (9 ≤ n && n ≤ 13) || n = 0x20 || n = 0x85 || n = 0xA0 || n = 0x1680 || (0x2000 ≤ n && n ≤ 0x200A) || n = 0x2028 ||
    n = 0x2029 || n = 0x202F || n = 0x205F || n = 0x3000

/-- `str::trim` -/
def trim (s : List Char) : List Char := ((s.dropWhile isWhite).reverse.dropWhile isWhite).reverse

/-- `str::to_ascii_lowercase` (`Char.toLower` changes exactly the letters `A` to `Z`) -/
def lower (s : List Char) : List Char := s.map Char.toLower

/-- `char::to_digit(10)` -/
def toDigit (c : Char) : Option ℕ := if '0' ≤ c ∧ c ≤ '9' then some (c.toNat - 48) else none

/-- `&s[n..]`: `none` when `n` is beyond the end or inside a character. -/
def sliceFrom : List Char → ℕ → Option (List Char)
  | s, 0 => some s
  | [], _ + 1 => none
  | c :: cs, n + 1 => if c.utf8Size ≤ n + 1 then sliceFrom cs (n + 1 - c.utf8Size) else none

/-- Value of a list of digit characters, most significant first. -/
def digitsVal (l : List ℕ) : ℕ := l.foldl (fun v d => 10 * v + d) 0

/-- `str::parse::<i32>`: an optional sign, at least one digit, only digits, the value in the range of `i32`. -/
def parseI32 (s : List Char) : Option ℤ :=
  let (sgn, ds) : ℤ × List Char :=
    match s with
    | '-' :: t => (-1, t)
    | '+' :: t => (1, t)
    | t => (1, t)
  if ds = [] then none
  else
    match ds.mapM toDigit with
    | none => none
    | some l => i32? (sgn * digitsVal l)

/-- The operations of the number type used by the parser. -/
structure NumOps (α : Type) where
  zero : α
  nan : α
  inf : α
  negInf : α
  ten : α
  ofDigit : ℕ → α
  mul : α → α → α
  add : α → α → α
  neg : α → α
  powi : α → ℤ → Option α

/-- The mutable variables of `from_str` during the loop (all but `exp`). -/
structure PState (α : Type) where
  result : α
  digits : ℤ
  point : ℤ
  sign : ℤ

namespace Parse

variable {α : Type}

/-- `pre_from_str` — src/double/from_str.rs:141-156, src/quad/from_str.rs:145-160 -/
def pre (ops : NumOps α) (s : List Char) : Option (Except ErrorKind α) :=
  if s = [] then some (.error .empty)
  else if s = "nan".toList then some (.ok ops.nan)
  else if s = "inf".toList ∨ s = "infinity".toList then some (.ok ops.inf)
  else if s = "-inf".toList ∨ s = "-infinity".toList then some (.ok ops.negInf)
  else none

/-- The `for` loop — src/double/from_str.rs:59-115, src/quad/from_str.rs:63-119. `s` is the whole text, the list runs
over its characters, `index` is the position. The result carries the final variables and `exp`. -/
def loop (ops : NumOps α) (s : List Char) : List Char → ℕ → PState α → Option (Except ErrorKind (PState α × ℤ))
  | [], _, st => some (.ok (st, 0))
  | ch :: cs, index, st =>
    match toDigit ch with
    | some d =>
      let result := ops.mul st.result ops.ten
      let result := ops.add result (ops.ofDigit d)
      match i32? (st.digits + 1) with
      | none => none
      | some digits => loop ops s cs (index + 1) { st with result := result, digits := digits }
    | none =>
      if ch = '.' then
        if st.point ≥ 0 then some (.error .invalid)
        else loop ops s cs (index + 1) { st with point := st.digits }
      else if ch = '-' then
        if st.sign ≠ 0 ∨ st.digits > 0 then some (.error .invalid)
        else loop ops s cs (index + 1) { st with sign := -1 }
      else if ch = '+' then
        if st.sign ≠ 0 ∨ st.digits > 0 then some (.error .invalid)
        else loop ops s cs (index + 1) { st with sign := 1 }
      else if ch = 'e' then
        match sliceFrom s (index + 1) with
        | none => none
        | some t =>
          match parseI32 t with
          | some e => some (.ok (st, e))
          | none => some (.error .invalid)
      else if ch = '_' then loop ops s cs (index + 1) st
      else some (.error .invalid)

/-- `exp -= digits - point` — src/double/from_str.rs:117-119, src/quad/from_str.rs:121-123 -/
def adjust (st : PState α) (exp : ℤ) : Option ℤ :=
  if st.point ≥ 0 then (i32? (st.digits - st.point)).bind fun d => i32? (exp - d) else some exp

/-- Multiplying by the power of ten — src/double/from_str.rs:120-130, src/quad/from_str.rs:124-134 -/
def scale (ops : NumOps α) (result : α) (exp : ℤ) : Option α :=
  if exp ≠ 0 then
    if exp < -307 then
      (i32? (exp + 307)).bind fun adjust =>
        (ops.powi ops.ten adjust).bind fun p =>
          (i32? (exp - adjust)).bind fun exp =>
            (ops.powi ops.ten exp).bind fun q => some (ops.mul (ops.mul result p) q)
    else (ops.powi ops.ten exp).bind fun q => some (ops.mul result q)
  else some result

/-- The part after the loop — src/double/from_str.rs:117-135, src/quad/from_str.rs:121-139 -/
def finish (ops : NumOps α) (st : PState α) (exp : ℤ) : Option (Except ErrorKind α) :=
  (adjust st exp).bind fun exp =>
    (scale ops st.result exp).bind fun result => some (.ok (if st.sign = -1 then ops.neg result else result))

/-- `from_str` — src/double/from_str.rs:47-138, src/quad/from_str.rs:51-142 -/
def fromStr (ops : NumOps α) (s : List Char) : Option (Except ErrorKind α) :=
  let s := lower (trim s)
  match pre ops s with
  | some r => some r
  | none =>
    match loop ops s s 0 ⟨ops.zero, 0, -1, 0⟩ with
    | none => none
    | some (.error k) => some (.error k)
    | some (.ok (st, exp)) => finish ops st exp

end Parse

namespace Double

/-- `const TEN` — src/double/from_str.rs:10 -/
def TEN : Double := ⟨F64.ofDec false 10 0, F64.zero⟩

/-- The operations of `Double` used by the parser; `Double(d as f64, 0.0)` at src/double/from_str.rs:63. -/
def ops : NumOps Double where
  zero := ZERO
  nan := NAN
  inf := INFINITY
  negInf := NEG_INFINITY
  ten := TEN
  ofDigit d := ⟨F64.ofInt d, F64.zero⟩
  mul a b := a * b
  add a b := a + b
  neg a := -a
  powi := powi

/-- `<Double as FromStr>::from_str` -/
def fromStr (s : List Char) : Option (Except ErrorKind Double) := Parse.fromStr ops s

/-- `From<&str> for Double` — src/double/from.rs:318-320 -/
def ofStr (s : List Char) : Option Double :=
  match fromStr s with
  | none => none
  | some (.ok v) => some v
  | some (.error _) => some NAN

end Double

end Verif
