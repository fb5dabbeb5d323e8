import Verif.Model.Double

/-!
# Model of the parts of `src/double/alg.rs` and `src/double/from.rs` that need no text conversion

`Option` marks functions that can panic: `none` is a panic (arithmetic overflow is a panic in debug builds).
-/

namespace Verif

open F64 Prim Util

/-- Result of an `i32` computation; `none` when it overflows (a panic in debug builds). -/
def i32? (n : ℤ) : Option ℤ := if -2 ^ 31 ≤ n ∧ n < 2 ^ 31 then some n else none

namespace Double

/-- The `f64` literal `2.0` (also `2f64`). -/
def two : F64 := ofDec false 2 0

/-- `ldexp` — src/double/alg.rs:28-31 -/
def ldexp (a : Double) (n : ℤ) : Double :=
  let factor := F64.powi two n
  ⟨F64.mul a.hi factor, F64.mul a.lo factor⟩

/-- `pre_sqr` — src/double/alg.rs:251-257 -/
def preSqr (a : Double) : Option Double := if a.isInfinite then some INFINITY else none

/-- `sqr` — src/double/alg.rs:46-55 -/
def sqr (a : Double) : Double :=
  match preSqr a with
  | some r => r
  | none =>
    let (p, e) := twoSqr a.hi
    let (x, y) := renorm2 p (F64.add (F64.add e (F64.mul (F64.mul two a.hi) a.lo)) (F64.mul a.lo a.lo))
    ⟨x, y⟩

/-- `recip` — src/double/alg.rs:237-239 -/
def recip (a : Double) : Double := ONE / a

/-- `pre_powi` — src/double/alg.rs:314-346 (`n % 2 == 0` is the truncated remainder of Rust; it is zero exactly for even
`n`) -/
def prePowi (a : Double) (n : ℤ) : Option Double :=
  if n = 0 then some ONE
  else if a.isNan then some NAN
  else if a.isZero then
    if n.tmod 2 = 0 || a.isSignPositive then
      if n > 0 then some ZERO else some INFINITY
    else if n > 0 then some NEG_ZERO
    else some NEG_INFINITY
  else if a.isInfinite then
    if n.tmod 2 = 0 || a.isSignPositive then
      if n > 0 then some INFINITY else some ZERO
    else if n > 0 then some NEG_INFINITY
    else some NEG_ZERO
  else none

/-- The `while` loop of `powi` — src/double/alg.rs:170-178. `i` at least halves in each round, so `fuel = i` is enough. -/
def powiLoop : ℕ → ℕ → Double → Double → Double
  | 0, _, _, s => s
  | fuel + 1, i, r, s =>
    if i > 0 then
      let s := if i % 2 = 1 then s * r else s
      let i := i / 2
      let r := if i > 0 then r.sqr else r
      powiLoop fuel i r s
    else s

/-- `powi` — src/double/alg.rs:161-190. `n.abs()` overflows for `i32::MIN`. -/
def powi (a : Double) (n : ℤ) : Option Double :=
  match prePowi a n with
  | some r => some r
  | none =>
    match i32? |n| with
    | none => none
    | some i =>
      let i := i.toNat
      let s := if i > 1 then powiLoop i i a ONE else a
      some (if n < 0 then s.recip else s)

/-! ## Conversions — src/double/from.rs -/

/-- `From<i8>`, `From<u8>`, `From<i16>`, `From<u16>`, `From<i32>`, `From<u32>` — src/double/from.rs:51-127 -/
def ofSmallInt (a : ℤ) : Double := ⟨F64.ofInt a, F64.zero⟩

/-- `from_u64` (with `split_u64`) — src/double/from.rs:11-21 -/
def ofU64 (a : ℕ) : Double :=
  let (x, y) : ℕ × ℕ := (a / 2 ^ 32 % 2 ^ 32, a % 2 ^ 32)
  let (p, q) := renorm2 (F64.mul (F64.ofInt x) (F64.powi two 32)) (F64.ofInt y)
  ⟨p, q⟩

/-- `from_i64` — src/double/from.rs:23-39. The case distinction computing the absolute value as `u64` is `natAbs`. -/
def ofI64 (a : ℤ) : Double :=
  let sign := a.sign
  let m : ℕ := if a = -2 ^ 63 then (2 ^ 63 - 1) + 1 else a.natAbs
  let (x, y) : ℕ × ℕ := (m / 2 ^ 32 % 2 ^ 32, m % 2 ^ 32)
  let (p, q) := renorm2 (F64.mul (F64.ofInt x) (F64.powi two 32)) (F64.ofInt y)
  if sign = -1 then ⟨F64.neg p, F64.neg q⟩ else ⟨p, q⟩

/-- `From<(f64, f64)> for Double` — src/double/from.rs:287-289 -/
def ofPair (p : F64 × F64) : Double := ⟨p.1, p.2⟩

/-- `From<Double> for f64` — src/double/from.rs:344-346 -/
def toF64 (a : Double) : F64 := a.hi

/-- `From<Double> for (f64, f64)` — src/double/from.rs:366-368 -/
def toPair (a : Double) : F64 × F64 := (a.hi, a.lo)

end Double

end Verif
