import Verif.Model.Platform

/-!
# Model of `src/double/alg.rs` (roots, powers), `trans.rs`, `trig.rs` and `hyper.rs`

`none` is a panic: table index out of bounds, arithmetic overflow of an `i32` in a debug build, or a failing `unwrap`.
-/

namespace Verif

open F64 Prim Util

namespace Double

/-! ## src/double/alg.rs -/

/-- `pre_sqrt` — src/double/alg.rs:260-270 -/
def preSqrt (a : Double) : Option Double :=
  if a.isZero then some a
  else if a.isSignNegative then some NAN
  else if a.isInfinite then some INFINITY
  else none

/-- `sqrt` — src/double/alg.rs:66-85 -/
def sqrt (P : Platform) (a : Double) : Option Double :=
  match preSqrt a with
  | some r => some r
  | none => (ofF64 P (F64.div (ofDec false 1 0) (F64.sqrt a.hi))).map fun x =>
    let ax := a * x
    ax + (a - ax.sqr) * mulPwr2 x half

/-- `pre_nroot` — src/double/alg.rs:273-311; the inner option is the panic of `sqrt`. -/
def preNroot (P : Platform) (a : Double) (n : ℤ) : Option (Option Double) :=
  if n = 0 then some (some NAN)
  else if n = 1 then some (some a)
  else if a.isZero then
    if n.tmod 2 = 0 || a.isSignPositive then
      if n > 0 then some (some ZERO) else some (some INFINITY)
    else if n > 0 then some (some NEG_ZERO)
    else some (some NEG_INFINITY)
  else if a.isInfinite then
    if a.isSignPositive then
      if n > 0 then some (some INFINITY) else some (some ZERO)
    else if n.tmod 2 = 0 then some (some NAN)
    else if n > 0 then some (some NEG_INFINITY)
    else some (some NEG_ZERO)
  else if a.isSignNegative && decide (n.tmod 2 = 0) then some (some NAN)
  else if n = 2 then some (sqrt P a)
  else none

/-- `nroot` — src/double/alg.rs:98-126 -/
def nroot (P : Platform) (a : Double) (n : ℤ) : Option Double :=
  match preNroot P a n with
  | some r => r
  | none =>
    let r := a.abs
    let nd : Double := ⟨F64.ofInt n, F64.zero⟩
    (ofF64 P (P.exp (F64.div (F64.neg (P.ln r.hi)) (F64.ofInt n)))).bind fun x =>
      (powi x n).map fun xn =>
        let x := x + x * (ONE - r * xn) / nd
        let x := if a.isSignNegative then -x else x
        x.recip

/-- `cbrt` — src/double/alg.rs:140-142 -/
def cbrt (P : Platform) (a : Double) : Option Double := nroot P a 3

/-! ## src/double/trans.rs -/

/-- `const INV_K` — src/double/trans.rs:9 -/
def INV_K : Double := ⟨ofDec false 1953125 (-9), F64.zero⟩

/-- `pre_exp` — src/double/trans.rs:271-285 -/
def preExp (a : Double) : Option Double :=
  if F64.lt a.hi (ofDec true 600 0) then some ZERO
  else if F64.gt a.hi (ofDec false 708 0) then some INFINITY
  else if a.isNan then some NAN
  else if a.isZero then some ONE
  else if eq a ONE then some E
  else none

/-- The Taylor loop of `exp` — src/double/trans.rs:85-97: the state is `(r, p, t, i)`; the result is `r` after the final
`r += t`. The loop ends by `i >= 5`; `fuel` is the size of the table and is never exhausted (`C42_loop`). -/
def expLoop (x eps : Double) : ℕ → Double → Double → Double → ℕ → Option Double
  | 0, _, _, _, _ => none
  | fuel + 1, r, p, t, i =>
    let r := r + t
    let p := p * x
    let i := i + 1
    match INV_FACTS[i]? with
    | none => none
    | some c =>
      let t := p * c
      if i ≥ 5 || le t.abs eps then some (r + t) else expLoop x eps fuel r p t i

/-- One expansion step of `exp` — src/double/trans.rs:100-108 -/
def expStep (r : Double) : Double := mulPwr2 r two + r.sqr

/-- The number `m` of `exp` — src/double/trans.rs:68 -/
def expM (a : Double) : F64 := F64.floor (F64.add (F64.div a.hi LN_2.hi) half)

/-- `exp` — src/double/trans.rs:36-117 -/
def exp (a : Double) : Option Double :=
  match preExp a with
  | some r => some r
  | none =>
    let eps := mulPwr2 EPSILON INV_K.hi
    let m := expM a
    let x := (a - LN_2 * ⟨m, F64.zero⟩) * INV_K
    let p := x.sqr
    let r := x + mulPwr2 p half
    let p := p * x
    match INV_FACTS[0]? with
    | none => none
    | some c =>
      let t := p * c
      (expLoop x eps INV_FACTS.length r p t 0).map fun r =>
        let r := expStep (expStep (expStep (expStep (expStep (expStep (expStep (expStep (expStep r))))))))
        let r := r + ONE
        r.ldexp (F64.toI32 m)

/-- `pre_ln` — src/double/trans.rs:288-302 -/
def preLn (a : Double) : Option Double :=
  if a.isNan then some NAN
  else if a.isSignNegative then some NAN
  else if a.isZero then some NEG_INFINITY
  else if a.isInfinite then some INFINITY
  else if eq a ONE then some ZERO
  else none

/-- The Newton loop of `ln` — src/double/trans.rs:171-179. It ends by `i > 5`; `fuel` starts at 7 and is never exhausted
(`C43_loop`). -/
def lnLoop (a eps : Double) : ℕ → ℕ → Double → Option Double
  | 0, _, _ => none
  | fuel + 1, i, x =>
    match exp (-x) with
    | none => none
    | some e =>
      let r := x + a * e - ONE
      if lt (x - r).abs eps || decide (i > 5) then some r else lnLoop a eps fuel (i + 1) r

/-- `ln` — src/double/trans.rs:144-182. `k + 2` is an `i32` addition. -/
def ln (P : Platform) (a : Double) : Option Double :=
  match preLn a with
  | some r => some r
  | none =>
    let x : Double := ⟨P.ln a.hi, F64.zero⟩
    let k := F64.toI32 (F64.floor (P.log2 x.hi.abs))
    match i32? (k + 2) with
    | none => none
    | some k2 =>
      let eps := mulPwr2 EPSILON (F64.powi two k2)
      lnLoop a eps 7 0 x

/-- `log10` — src/double/trans.rs:204-206 -/
def log10 (P : Platform) (a : Double) : Option Double := (ln P a).map fun r => r / LN_10

/-- `log2` — src/double/trans.rs:227-229 -/
def log2 (P : Platform) (a : Double) : Option Double := (ln P a).map fun r => r / LN_2

/-- `pre_log` — src/double/trans.rs:305-313 -/
def preLog (a b : Double) : Option Double :=
  if a.isNan then some NAN
  else if b.isSignNegative || b.isZero then some NAN
  else none

/-- `log` — src/double/trans.rs:254-259 -/
def log (P : Platform) (a b : Double) : Option Double :=
  match preLog a b with
  | some r => some r
  | none => (ln P a).bind fun x => (ln P b).map fun y => x / y

/-- `pre_powf` — src/double/alg.rs:349-369 -/
def prePowf (a n : Double) : Option Double :=
  if a.isZero then
    if n.isZero then some NAN
    else if n.isSignPositive then some ZERO
    else some INFINITY
  else if n.isInfinite then
    if eq a ONE then some NAN
    else if n.isSignPositive then some INFINITY
    else some ZERO
  else none

/-- `powf` — src/double/alg.rs:218-223 -/
def powf (P : Platform) (a n : Double) : Option Double :=
  match prePowf a n with
  | some r => some r
  | none => (ln P a).bind fun l => exp (n * l)

/-! ## src/double/trig.rs -/

/-- The loop of `sin_taylor` and `cos_taylor` — src/double/trig.rs:465-473 and 490-498. It ends when `i` leaves the table;
`fuel` is the size of the table and is never exhausted. -/
def taylorLoop (x threshold : Double) : ℕ → ℕ → Double → Double → Option Double
  | 0, _, _, _ => none
  | fuel + 1, i, r, s =>
    let r := r * x
    match INV_FACTS[i]? with
    | none => none
    | some c =>
      let t := r * c
      let s := s + t
      let i := i + 2
      if i ≥ INV_FACTS.length || le t.abs threshold then some s else taylorLoop x threshold fuel i r s

/-- `sin_taylor` — src/double/trig.rs:455-476 -/
def sinTaylor (a : Double) : Option Double :=
  if a.isZero then some ZERO
  else
    let threshold := mulPwr2 (a.abs * EPSILON) half
    let x := -a.sqr
    taylorLoop x threshold INV_FACTS.length 0 a a

/-- `cos_taylor` — src/double/trig.rs:480-501 -/
def cosTaylor (a : Double) : Option Double :=
  if a.isZero then some ONE
  else
    let threshold := mulPwr2 EPSILON half
    let x := -a.sqr
    taylorLoop x threshold INV_FACTS.length 1 x (ONE + mulPwr2 x half)

/-- `sincos_taylor` — src/double/trig.rs:506-513 -/
def sincosTaylor (P : Platform) (a : Double) : Option (Double × Double) :=
  if a.isZero then some (ZERO, ONE)
  else (sinTaylor a).bind fun s => (sqrt P (ONE - s.sqr)).map fun c => (s, c)

/-- `reduce` — src/double/trig.rs:521-537 -/
def reduce (a : Double) : ℤ × ℤ × Double :=
  let z := (a / TAU).round
  let r := a - z * TAU
  let q := F64.floor (F64.add (F64.div r.hi FRAC_PI_2.hi) half)
  let t := r - (⟨q, F64.zero⟩ : Double) * FRAC_PI_2
  let j := F64.toI32 q
  let q := F64.floor (F64.add (F64.div t.hi FRAC_PI_16.hi) half)
  let t := t - (⟨q, F64.zero⟩ : Double) * FRAC_PI_16
  let k := F64.toI32 q
  (j, k, t)

/-- `c::COSINES[abs_k - 1]` and `c::SINES[abs_k - 1]` for `abs_k = k.abs() as usize`, `k ≠ 0`. -/
def tableUV (k : ℤ) : Option (Double × Double) :=
  (i32? |k|).bind fun ak => (COSINES[ak.toNat - 1]?).bind fun u => (SINES[ak.toNat - 1]?).map fun v => (u, v)

/-- `pre_sin_cos` — src/double/trig.rs:349-357 -/
def preSinCos (a : Double) : Option (Double × Double) :=
  if a.isZero then some (ZERO, ONE)
  else if !a.isFinite then some (NAN, NAN)
  else none

/-- `pre_sin` — src/double/trig.rs:360-368 -/
def preSin (a : Double) : Option Double :=
  if a.isZero then some a
  else if !a.isFinite then some NAN
  else none

/-- `pre_cos` — src/double/trig.rs:371-379 -/
def preCos (a : Double) : Option Double :=
  if a.isZero then some ONE
  else if !a.isFinite then some NAN
  else none

/-- The final quadrant selection of `sin_cos` — src/double/trig.rs:51-56 -/
def quadrant (j : ℤ) (s c : Double) : Double × Double :=
  if j = 0 then (s, c) else if j = 1 then (c, -s) else if j = -1 then (-c, s) else (-s, -c)

/-- `sin_cos` — src/double/trig.rs:30-59 -/
def sinCos (P : Platform) (a : Double) : Option (Double × Double) :=
  match preSinCos a with
  | some r => some r
  | none =>
    let (j, k, t) := reduce a
    (sincosTaylor P t).bind fun (sinT, cosT) =>
      if k = 0 then some (quadrant j sinT cosT)
      else (tableUV k).map fun (u, v) =>
        if k > 0 then quadrant j (u * sinT + v * cosT) (u * cosT - v * sinT)
        else quadrant j (u * sinT - v * cosT) (u * cosT + v * sinT)

/-- `sin` — src/double/trig.rs:75-121 -/
def sin (P : Platform) (a : Double) : Option Double :=
  match preSin a with
  | some r => some r
  | none =>
    let (j, k, t) := reduce a
    if k = 0 then
      if j = 0 then sinTaylor t
      else if j = 1 then cosTaylor t
      else if j = -1 then (cosTaylor t).map fun r => -r
      else (sinTaylor t).map fun r => -r
    else
      (tableUV k).bind fun (u, v) => (sincosTaylor P t).map fun (sinT, cosT) =>
        if k > 0 then
          if j = 0 then u * sinT + v * cosT
          else if j = 1 then u * cosT - v * sinT
          else if j = -1 then -u * cosT + v * sinT
          else -u * sinT - v * cosT
        else
          if j = 0 then u * sinT - v * cosT
          else if j = 1 then u * cosT + v * sinT
          else if j = -1 then -u * cosT - v * sinT
          else -u * sinT + v * cosT

/-- `cos` — src/double/trig.rs:137-174 -/
def cos (P : Platform) (a : Double) : Option Double :=
  match preCos a with
  | some r => some r
  | none =>
    let (j, k, t) := reduce a
    if k = 0 then
      if j = 0 then cosTaylor t
      else if j = 1 then (sinTaylor t).map fun r => -r
      else if j = -1 then sinTaylor t
      else (cosTaylor t).map fun r => -r
    else
      (tableUV k).bind fun (u, v) => (sincosTaylor P t).map fun (sinT, cosT) =>
        if k > 0 then
          if j = 0 then u * cosT - v * sinT
          else if j = 1 then -u * sinT - v * cosT
          else if j = -1 then u * sinT + v * cosT
          else -u * cosT + v * sinT
        else
          if j = 0 then u * cosT + v * sinT
          else if j = 1 then v * cosT - u * sinT
          else if j = -1 then u * sinT - v * cosT
          else -u * cosT - v * sinT

/-- `tan` — src/double/trig.rs:189-192 -/
def tan (P : Platform) (a : Double) : Option Double := (sinCos P a).map fun (s, c) => s / c

/-- `pre_atan2` — src/double/trig.rs:382-424 -/
def preAtan2 (a b : Double) : Option Double :=
  if b.isZero then
    if a.isZero then some NAN
    else if a.isSignPositive then some FRAC_PI_2
    else some (-FRAC_PI_2)
  else if a.isZero then
    if b.isSignPositive then some ZERO else some PI
  else if a.isInfinite then
    if b.isInfinite then some NAN
    else if a.isSignPositive then some FRAC_PI_2
    else some (-FRAC_PI_2)
  else if b.isInfinite then some ZERO
  else if a.isNan || b.isNan then some NAN
  else if eq a b then
    if a.isSignPositive then some FRAC_PI_4 else some (-FRAC_3_PI_4)
  else if eq a (-b) then
    if a.isSignPositive then some FRAC_3_PI_4 else some (-FRAC_PI_4)
  else none

/-- `atan2` — src/double/trig.rs:239-277 -/
def atan2 (P : Platform) (a b : Double) : Option Double :=
  match preAtan2 a b with
  | some r => some r
  | none =>
    (sqrt P (a.sqr + b.sqr)).bind fun r =>
      let x := b / r
      let y := a / r
      (ofF64 P (P.atan2 a.hi b.hi)).bind fun z =>
        (sinCos P z).map fun (sinZ, cosZ) =>
          if F64.gt x.hi.abs y.hi.abs then z + (y - sinZ) / cosZ
          else z - (x - cosZ) / sinZ

/-- `pre_asin` — src/double/trig.rs:427-437 -/
def preAsin (a : Double) : Option Double :=
  if gt a.abs ONE then some NAN
  else if eq a ONE then some FRAC_PI_2
  else if eq a NEG_ONE then some (-FRAC_PI_2)
  else none

/-- `asin` — src/double/trig.rs:294-299 -/
def asin (P : Platform) (a : Double) : Option Double :=
  match preAsin a with
  | some r => some r
  | none => (sqrt P (ONE - a.sqr)).bind fun c => atan2 P a c

/-- `pre_acos` — src/double/trig.rs:440-450 -/
def preAcos (a : Double) : Option Double :=
  if gt a.abs ONE then some NAN
  else if eq a ONE then some ZERO
  else if eq a NEG_ONE then some PI
  else none

/-- `acos` — src/double/trig.rs:316-321 -/
def acos (P : Platform) (a : Double) : Option Double :=
  match preAcos a with
  | some r => some r
  | none => (sqrt P (ONE - a.sqr)).bind fun s => atan2 P s a

/-- `atan` — src/double/trig.rs:335-337 -/
def atan (P : Platform) (a : Double) : Option Double := atan2 P a ONE

/-! ## src/double/hyper.rs -/

/-- The `f64` literal `0.05`. -/
def f005 : F64 := ofDec false 5 (-2)

/-- `pre_sinh` — src/double/hyper.rs:245-255 -/
def preSinh (a : Double) : Option Double :=
  if a.isNan then some NAN
  else if a.isZero then some a
  else if a.isInfinite then some a
  else none

/-- The Taylor loop of `sinh` — src/double/hyper.rs:91-99. `m` is an `i32`; `(m - 1) * m` overflows from `m = 46342` on, so
the loop makes at most 23171 rounds and `fuel` is never exhausted. -/
def sinhLoop (r threshold : Double) : ℕ → ℤ → Double → Double → Option Double
  | 0, _, _, _ => none
  | fuel + 1, m, t, s =>
    match i32? (m + 2) with
    | none => none
    | some m =>
      match i32? ((m - 1) * m) with
      | none => none
      | some d =>
        let t := t * r / ofSmallInt d
        let s := s + t
        if le t.abs threshold then some s else sinhLoop r threshold fuel m t s

/-- `sinh` — src/double/hyper.rs:75-104 -/
def sinh (a : Double) : Option Double :=
  match preSinh a with
  | some r => some r
  | none =>
    if F64.gt a.abs.hi f005 then (exp a).map fun e => mulPwr2 (e - e.recip) half
    else sinhLoop a.sqr (a * EPSILON).abs 23172 1 a a

/-- `pre_sinh_cosh` — src/double/hyper.rs:234-242 -/
def preSinhCosh (a : Double) : Option (Double × Double) :=
  if a.isNan then some (NAN, NAN)
  else if a.isZero then some (ZERO, ONE)
  else none

/-- `sinh_cosh` — src/double/hyper.rs:41-58 -/
def sinhCosh (P : Platform) (a : Double) : Option (Double × Double) :=
  match preSinhCosh a with
  | some r => some r
  | none =>
    if F64.le a.abs.hi f005 then
      (sinh a).bind fun s => (sqrt P (ONE + s.sqr)).map fun c => (s, c)
    else (exp a).map fun e =>
      let i := e.recip
      (mulPwr2 (e - i) half, mulPwr2 (e + i) half)

/-- `pre_cosh` — src/double/hyper.rs:258-268 -/
def preCosh (a : Double) : Option Double :=
  if a.isNan then some NAN
  else if a.isZero then some ONE
  else if a.isInfinite then some INFINITY
  else none

/-- `cosh` — src/double/hyper.rs:119-127 -/
def cosh (a : Double) : Option Double :=
  match preCosh a with
  | some r => some r
  | none => (exp a).map fun e => mulPwr2 (e + e.recip) half

/-- `pre_tanh` — src/double/hyper.rs:271-281 -/
def preTanh (a : Double) : Option Double :=
  if a.isNan then some NAN
  else if a.isZero then some ZERO
  else if a.isInfinite then some a.signum
  else none

/-- `tanh` — src/double/hyper.rs:142-156 -/
def tanh (P : Platform) (a : Double) : Option Double :=
  match preTanh a with
  | some r => some r
  | none =>
    if F64.gt a.abs.hi f005 then (exp a).map fun e =>
      let i := e.recip
      (e - i) / (e + i)
    else (sinhCosh P a).map fun (s, c) => s / c

/-- `pre_asinh` — src/double/hyper.rs:284-296 -/
def preAsinh (a : Double) : Option Double :=
  if a.isZero then some a
  else if a.isInfinite then
    if a.isSignPositive then some INFINITY else some NEG_INFINITY
  else none

/-- `asinh` — src/double/hyper.rs:171-176 -/
def asinh (P : Platform) (a : Double) : Option Double :=
  match preAsinh a with
  | some r => some r
  | none => (sqrt P (a.sqr + ONE)).bind fun q => ln P (a + q)

/-- `pre_acosh` — src/double/hyper.rs:299-309 -/
def preAcosh (a : Double) : Option Double :=
  if lt a ONE then some NAN
  else if eq a ONE then some ZERO
  else if a.isInfinite then some INFINITY
  else none

/-- `acosh` — src/double/hyper.rs:194-199 -/
def acosh (P : Platform) (a : Double) : Option Double :=
  match preAcosh a with
  | some r => some r
  | none => (sqrt P (a.sqr - ONE)).bind fun q => ln P (a + q)

/-- `pre_atanh` — src/double/hyper.rs:312-318 -/
def preAtanh (a : Double) : Option Double := if ge a.abs ONE then some NAN else none

/-- `atanh` — src/double/hyper.rs:217-222 -/
def atanh (P : Platform) (a : Double) : Option Double :=
  match preAtanh a with
  | some r => some r
  | none => (ln P ((ONE + a) / (ONE - a))).map fun r => mulPwr2 r half

end Double

end Verif
