import Verif.Model.Func
import Verif.Model.Tables

/-!
# Model of `src/quad/alg.rs` (roots, powers), `trans.rs`, `trig.rs` and `hyper.rs`

`none` is a panic: table index out of bounds, arithmetic overflow of an `i32` in a debug build, or a failing `unwrap`.
-/

namespace Verif

open F64 Prim Util

namespace Quad

/-! ## src/quad/alg.rs -/

/-- `pre_sqrt` — src/quad/alg.rs:316-326 -/
def preSqrt (a : Quad) : Option Quad :=
  if a.isZero then some ZERO
  else if a.isSignNegative then some NAN
  else if a.isInfinite then some INFINITY
  else none

/-- `sqrt` — src/quad/alg.rs:113-139 -/
def sqrt (P : Platform) (a : Quad) : Option Quad :=
  match preSqrt a with
  | some r => some r
  | none => (ofF64 P (F64.sqrt a.c0)).map fun x =>
    let r := ONE / x
    let h := mulPwr2 a Double.half
    let k : Quad := ⟨Double.half, F64.zero, F64.zero, F64.zero⟩
    let r := r + (k - h * r.sqr) * r
    let r := r + (k - h * r.sqr) * r
    let r := r + (k - h * r.sqr) * r
    r * a

/-- `pre_nroot` — src/quad/alg.rs:329-367; the inner option is the panic of `sqrt`. -/
def preNroot (P : Platform) (a : Quad) (n : ℤ) : Option (Option Quad) :=
  if n = 0 then some (some NAN)
  else if n = 1 then some (some a)
  else if a.isZero then
    if n.tmod 2 = 0 || a.isSignPositive then
      if n > 0 then some (some ZERO) else some (some INFINITY)
    else if n > 0 then some (some NEG_ZERO)
    else some (some NEG_INFINITY)
  else if a.isInfinite then
    if a.isSignPositive then
      if n > 0 then some (some INFINITY) else some (some ZERO)
    else if n.tmod 2 = 0 then some (some NAN)
    else if n > 0 then some (some NEG_INFINITY)
    else some (some NEG_ZERO)
  else if a.isSignNegative && decide (n.tmod 2 = 0) then some (some NAN)
  else if n = 2 then some (sqrt P a)
  else none

/-- `nroot` — src/quad/alg.rs:152-183 -/
def nroot (P : Platform) (a : Quad) (n : ℤ) : Option Quad :=
  match preNroot P a n with
  | some r => r
  | none =>
    let r := a.abs
    let nd : Quad := ⟨F64.ofInt n, F64.zero, F64.zero, F64.zero⟩
    let step : Quad → Option Quad := fun x => (powi x n).map fun xn => x + x * (ONE - r * xn) / nd
    (ofF64 P (P.exp (F64.div (F64.neg (P.ln r.c0)) (F64.ofInt n)))).bind fun x =>
      ((step x).bind step).bind fun x => (step x).map fun x =>
        let x := if F64.lt a.c0 F64.zero then -x else x
        x.recip

/-- `cbrt` — src/quad/alg.rs:196-198 -/
def cbrt (P : Platform) (a : Quad) : Option Quad := nroot P a 3

/-! ## src/quad/trans.rs -/

/-- `const INV_K` — src/quad/trans.rs:9 -/
def INV_K : Quad := ⟨ofDec false 152587890625 (-16), F64.zero, F64.zero, F64.zero⟩

/-- `pre_exp` — src/quad/trans.rs:279-293 -/
def preExp (a : Quad) : Option Quad :=
  if F64.lt a.c0 (ofDec true 470 0) then some ZERO
  else if F64.ge a.c0 (ofDec false 709 0) then some INFINITY
  else if a.isNan then some NAN
  else if a.isZero then some ONE
  else if eq a ONE then some E
  else none

/-- The Taylor loop of `exp` — src/quad/trans.rs:86-98: the state is `(r, p, t, i)`; the result is `r` after the final
`r += t`. The loop ends by `i >= 9`; `fuel` is the size of the table and is never exhausted. -/
def expLoop (x eps : Quad) : ℕ → Quad → Quad → Quad → ℕ → Option Quad
  | 0, _, _, _, _ => none
  | fuel + 1, r, p, t, i =>
    let r := r + t
    let p := p * x
    let i := i + 1
    match INV_FACTS[i]? with
    | none => none
    | some c =>
      let t := p * c
      if i ≥ 9 || le t.abs eps then some (r + t) else expLoop x eps fuel r p t i

/-- One expansion step of `exp` — src/quad/trans.rs:101-116 -/
def expStep (r : Quad) : Quad := mulPwr2 r Double.two + r.sqr

/-- The number `m` of `exp` — src/quad/trans.rs:69 -/
def expM (a : Quad) : F64 := F64.floor (F64.add (F64.div a.c0 LN_2.c0) Double.half)

/-- `exp` — src/quad/trans.rs:37-125 -/
def exp (a : Quad) : Option Quad :=
  match preExp a with
  | some r => some r
  | none =>
    let eps := mulPwr2 EPSILON INV_K.c0
    let m := expM a
    let x := (a - LN_2 * ⟨m, F64.zero, F64.zero, F64.zero⟩) * INV_K
    let p := x.sqr
    let r := x + mulPwr2 p Double.half
    let p := p * x
    match INV_FACTS[0]? with
    | none => none
    | some c =>
      let t := p * c
      (expLoop x eps INV_FACTS.length r p t 0).map fun r =>
        let r := expStep^[16] r
        let r := r + ONE
        r.ldexp (F64.toI32 m)

/-- `pre_ln` — src/quad/trans.rs:296-310 -/
def preLn (a : Quad) : Option Quad :=
  if a.isNan then some NAN
  else if a.isSignNegative then some NAN
  else if a.isZero then some NEG_INFINITY
  else if a.isInfinite then some INFINITY
  else if eq a ONE then some ZERO
  else none

/-- The Newton loop of `ln` — src/quad/trans.rs:179-187. It ends by `i > 5`; `fuel` starts at 7 and is never exhausted. -/
def lnLoop (a eps : Quad) : ℕ → ℕ → Quad → Option Quad
  | 0, _, _ => none
  | fuel + 1, i, x =>
    match exp (-x) with
    | none => none
    | some e =>
      let r := x + a * e - ONE
      if lt (x - r).abs eps || decide (i > 5) then some r else lnLoop a eps fuel (i + 1) r

/-- `ln` — src/quad/trans.rs:152-190. `k + 2` is an `i32` addition. -/
def ln (P : Platform) (a : Quad) : Option Quad :=
  match preLn a with
  | some r => some r
  | none =>
    let x : Quad := ⟨P.ln a.c0, F64.zero, F64.zero, F64.zero⟩
    let k := F64.toI32 (F64.floor (P.log2 x.c0.abs))
    match i32? (k + 2) with
    | none => none
    | some k2 =>
      let eps := mulPwr2 EPSILON (F64.powi Double.two k2)
      lnLoop a eps 7 0 x

/-- `log10` — src/quad/trans.rs:212-214 -/
def log10 (P : Platform) (a : Quad) : Option Quad := (ln P a).map fun r => r / LN_10

/-- `log2` — src/quad/trans.rs:235-237 -/
def log2 (P : Platform) (a : Quad) : Option Quad := (ln P a).map fun r => r / LN_2

/-- `pre_log` — src/quad/trans.rs:313-321 -/
def preLog (a b : Quad) : Option Quad :=
  if a.isNan then some NAN
  else if b.isSignNegative || b.isZero then some NAN
  else none

/-- `log` — src/quad/trans.rs:262-267 -/
def log (P : Platform) (a b : Quad) : Option Quad :=
  match preLog a b with
  | some r => some r
  | none => (ln P a).bind fun x => (ln P b).map fun y => x / y

/-- `pre_powf` — src/quad/alg.rs:405-425 -/
def prePowf (a n : Quad) : Option Quad :=
  if a.isZero then
    if n.isZero then some NAN
    else if n.isSignPositive then some ZERO
    else some INFINITY
  else if n.isInfinite then
    if eq a ONE then some NAN
    else if n.isSignPositive then some INFINITY
    else some ZERO
  else none

/-- `powf` — src/quad/alg.rs:274-279 -/
def powf (P : Platform) (a n : Quad) : Option Quad :=
  match prePowf a n with
  | some r => some r
  | none => (ln P a).bind fun l => exp (n * l)

/-! ## src/quad/trig.rs -/

/-- The loop of `sin_taylor` and `cos_taylor` — src/quad/trig.rs:480-488 and 505-513. It ends when `i` leaves the table;
`fuel` is the size of the table and is never exhausted. -/
def taylorLoop (x threshold : Quad) : ℕ → ℕ → Quad → Quad → Option Quad
  | 0, _, _, _ => none
  | fuel + 1, i, r, s =>
    let r := r * x
    match INV_FACTS[i]? with
    | none => none
    | some c =>
      let t := r * c
      let s := s + t
      let i := i + 2
      if i ≥ INV_FACTS.length || le t.abs threshold then some s else taylorLoop x threshold fuel i r s

/-- `sin_taylor` — src/quad/trig.rs:470-491 -/
def sinTaylor (a : Quad) : Option Quad :=
  if a.isZero then some ZERO
  else
    let threshold := mulPwr2 (EPSILON * a.abs) Double.half
    let x := -a.sqr
    taylorLoop x threshold INV_FACTS.length 0 a a

/-- `cos_taylor` — src/quad/trig.rs:495-516 -/
def cosTaylor (a : Quad) : Option Quad :=
  if a.isZero then some ONE
  else
    let threshold := mulPwr2 EPSILON Double.half
    let x := -a.sqr
    taylorLoop x threshold INV_FACTS.length 1 x (ONE + mulPwr2 x Double.half)

/-- `sincos_taylor` — src/quad/trig.rs:521-528 -/
def sincosTaylor (P : Platform) (a : Quad) : Option (Quad × Quad) :=
  if a.isZero then some (ZERO, ONE)
  else (sinTaylor a).bind fun s => (sqrt P (ONE - s.sqr)).map fun c => (s, c)

/-- `const FRAC_PI_1024` — src/quad/trig.rs:461-466 -/
def FRAC_PI_1024 : Quad :=
  ⟨ofDec false 30679615757712823 (-19), ofDec false 1195944139792337 (-34), ofDec true 2924579892303066 (-51),
    ofDec false 10863810750618759 (-68)⟩

/-- `reduce` — src/quad/trig.rs:536-552 -/
def reduce (a : Quad) : ℤ × ℤ × Quad :=
  let z := (a / TAU).round
  let r := a - z * TAU
  let q := F64.floor (F64.add (F64.div r.c0 FRAC_PI_2.c0) Double.half)
  let t := r - (⟨q, F64.zero, F64.zero, F64.zero⟩ : Quad) * FRAC_PI_2
  let j := F64.toI32 q
  let q := F64.floor (F64.add (F64.div t.c0 FRAC_PI_1024.c0) Double.half)
  let t := t - (⟨q, F64.zero, F64.zero, F64.zero⟩ : Quad) * FRAC_PI_1024
  let k := F64.toI32 q
  (j, k, t)

/-- `c::COSINES[abs_k - 1]` and `c::SINES[abs_k - 1]` for `abs_k = k.abs() as usize`, `k ≠ 0`. -/
def tableUV (k : ℤ) : Option (Quad × Quad) :=
  (i32? |k|).bind fun ak => (COSINES[ak.toNat - 1]?).bind fun u => (SINES[ak.toNat - 1]?).map fun v => (u, v)

/-- `pre_sin_cos` — src/quad/trig.rs:357-365 -/
def preSinCos (a : Quad) : Option (Quad × Quad) :=
  if a.isZero then some (ZERO, ONE)
  else if !a.isFinite then some (NAN, NAN)
  else none

/-- `pre_sin` — src/quad/trig.rs:368-376 -/
def preSin (a : Quad) : Option Quad :=
  if a.isZero then some ZERO
  else if !a.isFinite then some NAN
  else none

/-- `pre_cos` — src/quad/trig.rs:379-387 -/
def preCos (a : Quad) : Option Quad :=
  if a.isZero then some ONE
  else if !a.isFinite then some NAN
  else none

/-- The final quadrant selection of `sin_cos` — src/quad/trig.rs:51-56 -/
def quadrant (j : ℤ) (s c : Quad) : Quad × Quad :=
  if j = 0 then (s, c) else if j = 1 then (c, -s) else if j = -1 then (-c, s) else (-s, -c)

/-- `sin_cos` — src/quad/trig.rs:30-59 -/
def sinCos (P : Platform) (a : Quad) : Option (Quad × Quad) :=
  match preSinCos a with
  | some r => some r
  | none =>
    let (j, k, t) := reduce a
    (sincosTaylor P t).bind fun (sinT, cosT) =>
      if k = 0 then some (quadrant j sinT cosT)
      else (tableUV k).map fun (u, v) =>
        if k > 0 then quadrant j (u * sinT + v * cosT) (u * cosT - v * sinT)
        else quadrant j (u * sinT - v * cosT) (u * cosT + v * sinT)

/-- `sin` — src/quad/trig.rs:75-121 -/
def sin (P : Platform) (a : Quad) : Option Quad :=
  match preSin a with
  | some r => some r
  | none =>
    let (j, k, t) := reduce a
    if k = 0 then
      if j = 0 then sinTaylor t
      else if j = 1 then cosTaylor t
      else if j = -1 then (cosTaylor t).map fun r => -r
      else (sinTaylor t).map fun r => -r
    else
      (tableUV k).bind fun (u, v) => (sincosTaylor P t).map fun (sinT, cosT) =>
        if k > 0 then
          if j = 0 then u * sinT + v * cosT
          else if j = 1 then u * cosT - v * sinT
          else if j = -1 then -u * cosT + v * sinT
          else -u * sinT - v * cosT
        else
          if j = 0 then u * sinT - v * cosT
          else if j = 1 then u * cosT + v * sinT
          else if j = -1 then -u * cosT - v * sinT
          else -u * sinT + v * cosT

/-- `cos` — src/quad/trig.rs:137-174 -/
def cos (P : Platform) (a : Quad) : Option Quad :=
  match preCos a with
  | some r => some r
  | none =>
    let (j, k, t) := reduce a
    if k = 0 then
      if j = 0 then cosTaylor t
      else if j = 1 then (sinTaylor t).map fun r => -r
      else if j = -1 then sinTaylor t
      else (cosTaylor t).map fun r => -r
    else
      (tableUV k).bind fun (u, v) => (sincosTaylor P t).map fun (sinT, cosT) =>
        if k > 0 then
          if j = 0 then u * cosT - v * sinT
          else if j = 1 then -u * sinT - v * cosT
          else if j = -1 then u * sinT + v * cosT
          else -u * cosT + v * sinT
        else
          if j = 0 then u * cosT + v * sinT
          else if j = 1 then v * cosT - u * sinT
          else if j = -1 then u * sinT - v * cosT
          else -u * cosT - v * sinT

/-- `tan` — src/quad/trig.rs:189-192 -/
def tan (P : Platform) (a : Quad) : Option Quad := (sinCos P a).map fun (s, c) => s / c

/-- `pre_atan2` — src/quad/trig.rs:390-432 -/
def preAtan2 (a b : Quad) : Option Quad :=
  if b.isZero then
    if a.isZero then some NAN
    else if a.isSignPositive then some FRAC_PI_2
    else some (-FRAC_PI_2)
  else if a.isZero then
    if b.isSignPositive then some ZERO else some PI
  else if a.isInfinite then
    if b.isInfinite then some NAN
    else if a.isSignPositive then some FRAC_PI_2
    else some (-FRAC_PI_2)
  else if b.isInfinite then some ZERO
  else if a.isNan || b.isNan then some NAN
  else if eq a b then
    if a.isSignPositive then some FRAC_PI_4 else some (-FRAC_3_PI_4)
  else if eq a (-b) then
    if a.isSignPositive then some FRAC_3_PI_4 else some (-FRAC_PI_4)
  else none

/-- `atan2` — src/quad/trig.rs:238-285 -/
def atan2 (P : Platform) (a b : Quad) : Option Quad :=
  match preAtan2 a b with
  | some r => some r
  | none =>
    (sqrt P (a.sqr + b.sqr)).bind fun r =>
      let x := b / r
      let y := a / r
      (ofF64 P (P.atan2 a.c0 b.c0)).bind fun z =>
        let step : Quad → Option Quad := fun z => (sinCos P z).map fun (sinZ, cosZ) =>
          if F64.gt x.c0.abs y.c0.abs then z + (y - sinZ) / cosZ
          else z - (x - cosZ) / sinZ
        ((step z).bind step).bind step

/-- `pre_asin` — src/quad/trig.rs:435-445 -/
def preAsin (a : Quad) : Option Quad :=
  if gt a.abs ONE then some NAN
  else if eq a ONE then some FRAC_PI_2
  else if eq a NEG_ONE then some (-FRAC_PI_2)
  else none

/-- `asin` — src/quad/trig.rs:302-307 -/
def asin (P : Platform) (a : Quad) : Option Quad :=
  match preAsin a with
  | some r => some r
  | none => (sqrt P (ONE - a.sqr)).bind fun c => atan2 P a c

/-- `pre_acos` — src/quad/trig.rs:448-458 -/
def preAcos (a : Quad) : Option Quad :=
  if gt a.abs ONE then some NAN
  else if eq a ONE then some ZERO
  else if eq a NEG_ONE then some PI
  else none

/-- `acos` — src/quad/trig.rs:324-329 -/
def acos (P : Platform) (a : Quad) : Option Quad :=
  match preAcos a with
  | some r => some r
  | none => (sqrt P (ONE - a.sqr)).bind fun s => atan2 P s a

/-- `atan` — src/quad/trig.rs:343-345 -/
def atan (P : Platform) (a : Quad) : Option Quad := atan2 P a ONE

/-! ## src/quad/hyper.rs -/

/-- `pre_sinh` — src/quad/hyper.rs:238-246 -/
def preSinh (a : Quad) : Option Quad :=
  if a.isNan then some NAN
  else if a.isZero then some ZERO
  else none

/-- The Taylor loop of `sinh` — src/quad/hyper.rs:84-92. `m` is an `f64`. Nothing bounds the number of rounds of this loop:
`fuel` is the number of rounds made, and `none` with every `fuel` means that the loop does not end (or panics). -/
def sinhLoop (P : Platform) (r threshold : Quad) : ℕ → F64 → Quad → Quad → Option Quad
  | 0, _, _, _ => none
  | fuel + 1, m, t, s =>
    let m := F64.add m Double.two
    match ofF64 P (F64.mul (F64.sub m (ofDec false 1 0)) m) with
    | none => none
    | some d =>
      let t := t * r / d
      let s := s + t
      if le t.abs threshold then some s else sinhLoop P r threshold fuel m t s

/-- `sinh` — src/quad/hyper.rs:68-97, with at most `rounds` rounds of its loop. -/
def sinh (P : Platform) (rounds : ℕ) (a : Quad) : Option Quad :=
  match preSinh a with
  | some r => some r
  | none =>
    if F64.gt a.abs.c0 Double.f005 then (exp a).map fun e => mulPwr2 (e - e.recip) Double.half
    else sinhLoop P a.sqr (a * EPSILON).abs rounds (ofDec false 1 0) a a

/-- `pre_sinh_cosh` — src/quad/hyper.rs:227-235 -/
def preSinhCosh (a : Quad) : Option (Quad × Quad) :=
  if a.isNan then some (NAN, NAN)
  else if a.isZero then some (ZERO, ONE)
  else none

/-- `sinh_cosh` — src/quad/hyper.rs:36-53 -/
def sinhCosh (P : Platform) (rounds : ℕ) (a : Quad) : Option (Quad × Quad) :=
  match preSinhCosh a with
  | some r => some r
  | none =>
    if F64.le a.abs.c0 Double.f005 then
      (sinh P rounds a).bind fun s => (sqrt P (ONE + s.sqr)).map fun c => (s, c)
    else (exp a).map fun e =>
      let i := e.recip
      (mulPwr2 (e - i) Double.half, mulPwr2 (e + i) Double.half)

/-- `pre_cosh` — src/quad/hyper.rs:249-257 -/
def preCosh (a : Quad) : Option Quad :=
  if a.isNan then some NAN
  else if a.isZero then some ONE
  else none

/-- `cosh` — src/quad/hyper.rs:112-120 -/
def cosh (a : Quad) : Option Quad :=
  match preCosh a with
  | some r => some r
  | none => (exp a).map fun e => mulPwr2 (e + e.recip) Double.half

/-- `pre_tanh` — src/quad/hyper.rs:260-270 -/
def preTanh (a : Quad) : Option Quad :=
  if a.isNan then some NAN
  else if a.isZero then some ZERO
  else if a.isInfinite then some a.signum
  else none

/-- `tanh` — src/quad/hyper.rs:135-149 -/
def tanh (P : Platform) (rounds : ℕ) (a : Quad) : Option Quad :=
  match preTanh a with
  | some r => some r
  | none =>
    if F64.gt a.abs.c0 Double.f005 then (exp a).map fun e =>
      let i := e.recip
      (e - i) / (e + i)
    else (sinhCosh P rounds a).map fun (s, c) => s / c

/-- `pre_asinh` — src/quad/hyper.rs:273-283 -/
def preAsinh (a : Quad) : Option Quad :=
  if a.isInfinite then
    if a.isSignPositive then some INFINITY else some NEG_INFINITY
  else none

/-- `asinh` — src/quad/hyper.rs:164-169 -/
def asinh (P : Platform) (a : Quad) : Option Quad :=
  match preAsinh a with
  | some r => some r
  | none => (sqrt P (a.sqr + ONE)).bind fun q => ln P (a + q)

/-- `pre_acosh` — src/quad/hyper.rs:286-294 -/
def preAcosh (a : Quad) : Option Quad :=
  if lt a ONE then some NAN
  else if a.isInfinite then some INFINITY
  else none

/-- `acosh` — src/quad/hyper.rs:187-192 -/
def acosh (P : Platform) (a : Quad) : Option Quad :=
  match preAcosh a with
  | some r => some r
  | none => (sqrt P (a.sqr - ONE)).bind fun q => ln P (a + q)

/-- `pre_atanh` — src/quad/hyper.rs:297-303 -/
def preAtanh (a : Quad) : Option Quad := if ge a.abs ONE then some NAN else none

/-- `atanh` — src/quad/hyper.rs:210-215 -/
def atanh (P : Platform) (a : Quad) : Option Quad :=
  match preAtanh a with
  | some r => some r
  | none => (ln P ((ONE + a) / (ONE - a))).map fun r => mulPwr2 r Double.half

end Quad

end Verif
