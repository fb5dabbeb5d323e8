import Verif.Model.Display

/-!
# What the standard library and the platform's mathematical library supply

`f64::ln`, `exp`, `log2`, `log10`, `atan2` are calls into the platform's libm, whose results are not specified; the text of
`f64::to_string` / `f32::to_string` is the standard library's. They are parameters of the model: theorems hold for every
platform, or for every platform meeting the requirement stated in the theorem. `f64::sqrt` is an exactly rounded operation
and is defined in `Verif.F64`.
-/

namespace Verif

open F64

/-- The library functions used by the crate and not fixed by IEEE 754. -/
structure Platform where
  /-- `f64::ln` -/
  ln : F64 → F64
  /-- `f64::exp` -/
  exp : F64 → F64
  /-- `f64::log2` -/
  log2 : F64 → F64
  /-- `f64::log10` -/
  log10 : F64 → F64
  /-- `f64::atan2` (`self`, then the argument) -/
  atan2 : F64 → F64 → F64
  /-- `<f64 as ToString>::to_string` -/
  toStr : F64 → List Char
  /-- `<f32 as ToString>::to_string`; the `f32` is given by the `f64` of the same value -/
  toStr32 : F64 → List Char

namespace Util

/-- `is_dyadic` — src/common/utils.rs:204-213. `none` is the panic of `len() - 2` (the text is never that short) or of the
`i32` negation. -/
def isDyadic (P : Platform) (n : F64) : Option Bool :=
  let f := F64.fract n
  if F64.eq f F64.zero then some true
  else
    let l := (P.toStr f).length
    if l < 2 then none
    else
      let base := F64.powi Double.two (-((l - 2 : ℕ) : ℤ))
      some (F64.eq (F64.rem f base) F64.zero)

end Util

/-- The body shared by `From<f32>` and `From<f64>` for both number types: `text` is `a.to_string()`, `parse` the type's
`from_str` (its error is an `unwrap` panic). -/
def ofFloat {α : Type} (P : Platform) (text : F64 → List Char) (parse : List Char → Option (Except ErrorKind α))
    (mk : F64 → α) (nan : α) (a : F64) : Option α :=
  if F64.eq a F64.zero then
    if a.isSignNegative then some (mk F64.negZero) else some (mk F64.zero)
  else if a.isNan then some nan
  else if a.isInfinite then
    if a.isSignNegative then some (mk F64.NEG_INFINITY) else some (mk F64.INFINITY)
  else
    match Util.isDyadic P a with
    | none => none
    | some true => some (mk a)
    | some false =>
      match parse (text a) with
      | some (.ok v) => some v
      | _ => none

namespace Double

/-- `From<f64> for Double` — src/double/from.rs:173-208, 262. The constants `NEG_ZERO`, `ZERO`, `NEG_INFINITY`, `INFINITY`
are `⟨x, 0⟩` with `x` the corresponding `f64`. -/
def ofF64 (P : Platform) (a : F64) : Option Double := ofFloat P P.toStr fromStr (fun x => ⟨x, F64.zero⟩) NAN a

/-- `From<f32> for Double` — src/double/from.rs:173-208, 236; the `f32` is given by its `f64` value. -/
def ofF32 (P : Platform) (a : F64) : Option Double := ofFloat P P.toStr32 fromStr (fun x => ⟨x, F64.zero⟩) NAN a

end Double

namespace Quad

/-- `From<f64> for Quad` — src/quad/from.rs:247-282, 336 -/
def ofF64 (P : Platform) (a : F64) : Option Quad :=
  ofFloat P P.toStr fromStr (fun x => ⟨x, F64.zero, F64.zero, F64.zero⟩) NAN a

/-- `From<f32> for Quad` — src/quad/from.rs:247-282, 310 -/
def ofF32 (P : Platform) (a : F64) : Option Quad :=
  ofFloat P P.toStr32 fromStr (fun x => ⟨x, F64.zero, F64.zero, F64.zero⟩) NAN a

/-- `From<Double> for Quad` — src/quad/from.rs:448-450. `to_string` is `{}` formatting without settings. -/
def ofDouble (P : Platform) (a : Double) : Option Quad :=
  match Double.display P.log10 a {} with
  | none => none
  | some s =>
    match fromStr s with
    | some (.ok v) => some v
    | _ => none

end Quad

end Verif
