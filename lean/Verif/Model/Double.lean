import Verif.Model.Primitive

/-!
# Model of `Double`: `src/double.rs` and `src/double/{aconsts,common,comp,neg,add,sub,mul,div,misc,rem,iter}.rs`

Reference variants of the operators (`impl Add for &Double` and so on) and the assigning operators only forward to the
by-value operator; they are represented by the same function.
-/

namespace Verif

open F64 Prim Util

/-- `pub struct Double(f64, f64)` — src/double.rs:96-97. `hi` is `.0`, `lo` is `.1`. -/
structure Double where
  hi : F64
  lo : F64
deriving DecidableEq

namespace Double

/-- `Double::new` — src/double.rs:118-120 -/
def new (a b : F64) : Double := ⟨a, b⟩

/-- `Index::index` — src/double.rs:147-156; `none` is the panic. -/
def index (d : Double) (idx : ℕ) : Option F64 :=
  match idx with
  | 0 => some d.hi
  | 1 => some d.lo
  | _ => none

/-- Two decimal literals `Double(n1e e1, n2e e2)`. -/
def lit (s1 : Bool) (n1 : ℕ) (e1 : ℤ) (s2 : Bool) (n2 : ℕ) (e2 : ℤ) : Double := ⟨ofDec s1 n1 e1, ofDec s2 n2 e2⟩

/-- `f64::EPSILON` (`2^-52`) -/
def f64Epsilon : F64 := ofRound false (2 ^ 1022) 1

/-! ## Associated constants — src/double/aconsts.rs -/

/-- src/double/aconsts.rs:25 -/
def EPSILON : Double := ⟨ofDec false 493038065763132 (-46), F64.zero⟩
/-- src/double/aconsts.rs:28 -/
def MIN : Double := lit true 17976931348623157 292 true 9979201547673598 276
/-- src/double/aconsts.rs:31 -/
def MIN_POSITIVE : Double := lit false 22250738585072014 (-324) false 0 0
/-- src/double/aconsts.rs:34 -/
def MAX : Double := lit false 17976931348623157 292 false 9979201547673598 276
/-- src/double/aconsts.rs:49 -/
def NAN : Double := ⟨F64.NAN, F64.zero⟩
/-- src/double/aconsts.rs:52 -/
def INFINITY : Double := ⟨F64.INFINITY, F64.zero⟩
/-- src/double/aconsts.rs:55 -/
def NEG_INFINITY : Double := ⟨F64.NEG_INFINITY, F64.zero⟩
/-- src/double/aconsts.rs:58 -/
def ZERO : Double := ⟨F64.zero, F64.zero⟩
/-- src/double/aconsts.rs:61 -/
def NEG_ZERO : Double := ⟨F64.negZero, F64.zero⟩
/-- src/double/aconsts.rs:64 -/
def ONE : Double := ⟨ofDec false 1 0, F64.zero⟩
/-- src/double/aconsts.rs:67 -/
def NEG_ONE : Double := ⟨ofDec true 1 0, F64.zero⟩
/-- src/double/aconsts.rs:70 -/
def PI : Double := lit false 3141592653589793 (-15) false 12246467991473532 (-32)
/-- src/double/aconsts.rs:73 -/
def TAU : Double := lit false 6283185307179586 (-15) false 2449293598294704 (-31)
/-- src/double/aconsts.rs:76 -/
def FRAC_PI_2 : Double := lit false 15707963267948966 (-16) false 612323399573676 (-31)
/-- src/double/aconsts.rs:79 -/
def FRAC_PI_3 : Double := lit false 10471975511965979 (-16) true 10720817664510912 (-32)
/-- src/double/aconsts.rs:82 -/
def FRAC_PI_4 : Double := lit false 7853981633974483 (-16) false 30616169978683836 (-33)
/-- src/double/aconsts.rs:85 -/
def FRAC_PI_6 : Double := lit false 5235987755982989 (-16) true 5360408832255455 (-32)
/-- src/double/aconsts.rs:88 -/
def FRAC_PI_8 : Double := lit false 39269908169872414 (-17) false 15308084989341906 (-33)
/-- src/double/aconsts.rs:91 -/
def FRAC_PI_16 : Double := lit false 19634954084936207 (-17) false 7654042494670953 (-33)
/-- src/double/aconsts.rs:94 -/
def FRAC_3_PI_2 : Double := lit false 471238898038469 (-14) false 18369701987210292 (-32)
/-- src/double/aconsts.rs:97 -/
def FRAC_3_PI_4 : Double := lit false 2356194490192345 (-15) false 9184850993605146 (-32)
/-- src/double/aconsts.rs:100 -/
def FRAC_5_PI_4 : Double := lit false 39269908169872414 (-16) false 15308084989341908 (-32)
/-- src/double/aconsts.rs:103 -/
def FRAC_7_PI_4 : Double := lit false 5497787143782138 (-15) false 2143131898507869 (-31)
/-- src/double/aconsts.rs:106 -/
def FRAC_1_PI : Double := lit false 3183098861837907 (-16) true 1967867667518248 (-32)
/-- src/double/aconsts.rs:109 -/
def FRAC_2_PI : Double := lit false 6366197723675814 (-16) true 3935735335036497 (-32)
/-- src/double/aconsts.rs:112 -/
def FRAC_2_SQRT_PI : Double := lit false 11283791670955126 (-16) false 1533545961316588 (-32)
/-- src/double/aconsts.rs:115 -/
def SQRT_2 : Double := lit false 14142135623730951 (-16) true 9667293313452915 (-32)
/-- src/double/aconsts.rs:118 -/
def FRAC_1_SQRT_2 : Double := lit false 7071067811865476 (-16) true 4833646656726457 (-32)
/-- src/double/aconsts.rs:121 -/
def E : Double := lit false 2718281828459045 (-15) false 14456468917292497 (-32)
/-- src/double/aconsts.rs:124 -/
def LOG2_10 : Double := lit false 3321928094887362 (-15) false 16616175169735918 (-32)
/-- src/double/aconsts.rs:127 -/
def LOG2_E : Double := lit false 14426950408889634 (-16) false 2035527374093102 (-32)
/-- src/double/aconsts.rs:130 -/
def LOG10_2 : Double := lit false 3010299956639812 (-16) true 28037281277851654 (-34)
/-- src/double/aconsts.rs:133 -/
def LOG10_E : Double := lit false 4342944819032518 (-16) false 10983196502167654 (-33)
/-- src/double/aconsts.rs:136 -/
def LN_2 : Double := lit false 6931471805599453 (-16) false 2319046813846301 (-32)
/-- src/double/aconsts.rs:139 -/
def LN_10 : Double := lit false 2302585092994046 (-15) true 21707562233822496 (-32)

/-! ## Classification — src/double/misc.rs -/

/-- src/double/misc.rs:200-202 -/
def classify (d : Double) : Category := d.hi.classify
/-- src/double/misc.rs:224-226 -/
def isNormal (d : Double) : Bool := d.classify = Category.normal
/-- src/double/misc.rs:238-240 -/
def isZero (d : Double) : Bool := F64.eq d.hi F64.zero
/-- src/double/misc.rs:255-257 -/
def isSignNegative (d : Double) : Bool := d.hi.isSignNegative
/-- src/double/misc.rs:272-274 -/
def isSignPositive (d : Double) : Bool := d.hi.isSignPositive
/-- src/double/misc.rs:288-290 -/
def isNan (d : Double) : Bool := d.hi.isNan
/-- src/double/misc.rs:303-305 -/
def isInfinite (d : Double) : Bool := d.hi.isInfinite
/-- src/double/misc.rs:318-320 -/
def isFinite (d : Double) : Bool := d.hi.isFinite
/-- src/double/misc.rs:338-340 -/
def isSubnormal (d : Double) : Bool := d.classify = Category.subnormal

/-! ## Comparison — src/double/comp.rs -/

/-- `PartialEq::eq` — src/double/comp.rs:33-35 -/
def eq (a b : Double) : Bool := F64.eq a.hi b.hi && F64.eq a.lo b.lo

/-- `PartialOrd::partial_cmp` — src/double/comp.rs:56-61 -/
def partialCmp (a b : Double) : Option Ordering :=
  match F64.partialCmp a.hi b.hi with
  | some .eq => F64.partialCmp a.lo b.lo
  | x => x

/-- `a < b`: default method of `PartialOrd` -/
def lt (a b : Double) : Bool := partialCmp a b = some .lt
/-- `a <= b`: default method of `PartialOrd` -/
def le (a b : Double) : Bool := partialCmp a b = some .lt || partialCmp a b = some .eq
/-- `a > b`: default method of `PartialOrd` -/
def gt (a b : Double) : Bool := partialCmp a b = some .gt
/-- `a >= b`: default method of `PartialOrd` -/
def ge (a b : Double) : Bool := partialCmp a b = some .gt || partialCmp a b = some .eq

/-! ## Negation — src/double/neg.rs -/

/-- `Neg::neg` — src/double/neg.rs:26-28, 48-50 -/
def neg (a : Double) : Double := ⟨F64.neg a.hi, F64.neg a.lo⟩

instance : Neg Double := ⟨neg⟩

/-! ## Addition — src/double/add.rs -/

/-- `pre_add` — src/double/add.rs:168-198 -/
def preAdd (a b : Double) : Option Double :=
  if a.isNan || b.isNan then some NAN
  else if a.isInfinite then
    if b.isInfinite then
      if a.isSignPositive then
        if b.isSignPositive then some INFINITY else some NAN
      else if b.isSignNegative then some NEG_INFINITY
      else some NAN
    else if a.isSignPositive then some INFINITY
    else some NEG_INFINITY
  else if b.isInfinite then
    if b.isSignPositive then some INFINITY else some NEG_INFINITY
  else none

/-- `Add::add` — src/double/add.rs:28-39 (the forms at 59-61, 82-84, 105-107, 126-130, 150-154 forward to it) -/
def add (a b : Double) : Double :=
  match preAdd a b with
  | some r => r
  | none =>
    let (s0, e0) := twoSum a.hi b.hi
    let (s1, e1) := twoSum a.lo b.lo
    let (s2, e2) := quickTwoSum s0 (F64.add s1 e0)
    let (x, y) := renorm2 s2 (F64.add e1 e2)
    ⟨x, y⟩

instance : Add Double := ⟨add⟩

/-! ## Subtraction — src/double/sub.rs -/

/-- `pre_sub` — src/double/sub.rs:171-201 -/
def preSub (a b : Double) : Option Double :=
  if a.isNan || b.isNan then some NAN
  else if a.isInfinite then
    if b.isInfinite then
      if a.isSignPositive then
        if b.isSignPositive then some NAN else some INFINITY
      else if b.isSignNegative then some NAN
      else some NEG_INFINITY
    else if a.isSignPositive then some INFINITY
    else some NEG_INFINITY
  else if b.isInfinite then
    if b.isSignPositive then some NEG_INFINITY else some INFINITY
  else none

/-- `Sub::sub` — src/double/sub.rs:28-39 (other forms forward to it) -/
def sub (a b : Double) : Double :=
  match preSub a b with
  | some r => r
  | none =>
    let (s0, e0) := twoDiff a.hi b.hi
    let (s1, e1) := twoDiff a.lo b.lo
    let (s2, e2) := quickTwoSum s0 (F64.add s1 e0)
    let (x, y) := renorm2 s2 (F64.add e1 e2)
    ⟨x, y⟩

instance : Sub Double := ⟨sub⟩

/-! ## Multiplication — src/double/mul.rs -/

/-- `pre_mul` — src/double/mul.rs:167-195 -/
def preMul (a b : Double) : Option Double :=
  if a.isNan || b.isNan then some NAN
  else if a.isZero then
    if b.isInfinite then some NAN
    else if a.isSignPositive = b.isSignPositive then some ZERO
    else some NEG_ZERO
  else if a.isInfinite then
    if b.isZero then some NAN
    else if a.isSignPositive = b.isSignPositive then some INFINITY
    else some NEG_INFINITY
  else if b.isInfinite then
    if a.isSignPositive = b.isSignPositive then some INFINITY
    else some NEG_INFINITY
  else none

/-- `Mul::mul` — src/double/mul.rs:28-37 (other forms forward to it) -/
def mul (a b : Double) : Double :=
  match preMul a b with
  | some r => r
  | none =>
    let (p, e) := twoProd a.hi b.hi
    let (x, y) := renorm2 p (F64.add (F64.add e (F64.mul a.hi b.lo)) (F64.mul a.lo b.hi))
    ⟨x, y⟩

instance : Mul Double := ⟨mul⟩

/-- `mul_pwr2` — src/double/common.rs:11-13 -/
def mulPwr2 (a : Double) (b : F64) : Double := ⟨F64.mul a.hi b, F64.mul a.lo b⟩

/-! ## Tables — src/double/common.rs -/

/-- `INV_FACTS` — src/double/common.rs:18-34 -/
def INV_FACTS : List Double := [
  lit false 16666666666666666 (-17) false 925185853854297 (-32),
  lit false 41666666666666664 (-18) false 23129646346357427 (-34),
  lit false 8333333333333333 (-18) false 11564823173178714 (-35),
  lit false 1388888888888889 (-18) true 5300543954373577 (-35),
  lit false 1984126984126984 (-19) false 17209558293420705 (-38),
  lit false 248015873015873 (-19) false 21511947866775882 (-39),
  lit false 27557319223985893 (-22) true 1858393274046472 (-37),
  lit false 2755731922398589 (-22) false 23767714622250297 (-39),
  lit false 2505210838544172 (-23) true 1448814070935912 (-39),
  lit false 208767569878681 (-23) true 120734505911326 (-39),
  lit false 16059043836821613 (-26) false 12585294588752098 (-42),
  lit false 11470745597729725 (-27) false 20655512752830745 (-44),
  lit false 7647163731819816 (-28) false 703872877733453 (-44),
  lit false 4779477332387385 (-29) false 4399205485834081 (-46),
  lit false 28114572543455206 (-31) false 16508842730861433 (-47)]

/-- `SINES` — src/double/common.rs:37-42 -/
def SINES : List Double := [
  lit false 19509032201612828 (-17) true 7991079068461734 (-33),
  lit false 3826834323650898 (-16) true 1005077269646159 (-32),
  lit false 5555702330196022 (-16) false 47094109405616756 (-33),
  lit false 7071067811865476 (-16) true 48336466567264573 (-33)]

/-- `COSINES` — src/double/common.rs:45-50 -/
def COSINES : List Double := [
  lit false 9807852804032304 (-16) false 18546939997824996 (-33),
  lit false 9238795325112867 (-16) false 1764504708433667 (-32),
  lit false 8314696123025452 (-16) false 14073856984728008 (-34),
  lit false 7071067811865476 (-16) true 48336466567264573 (-33)]

/-! ## Division — src/double/div.rs -/

/-- `mul_f64` — src/double/div.rs:15-19 -/
def mulF64 (a : Double) (b : F64) : Double :=
  let (p, e) := twoProd a.hi b
  let (x, y) := renorm2 p (F64.add e (F64.mul a.lo b))
  ⟨x, y⟩

/-- `pre_div` — src/double/div.rs:182-210 -/
def preDiv (a b : Double) : Option Double :=
  if a.isNan || b.isNan then some NAN
  else if b.isZero then
    if a.isZero then some NAN
    else if a.isSignNegative = b.isSignPositive then some NEG_INFINITY
    else some INFINITY
  else if a.isInfinite then
    if b.isInfinite then some NAN
    else if a.isSignPositive = b.isSignPositive then some INFINITY
    else some NEG_INFINITY
  else if b.isInfinite then
    if a.isSignPositive = b.isSignPositive then some ZERO
    else some NEG_ZERO
  else none

/-- `Div::div` — src/double/div.rs:38-54 (other forms forward to it) -/
def div (a b : Double) : Double :=
  match preDiv a b with
  | some r => r
  | none =>
    let q1 := F64.div a.hi b.hi
    let r := a - mulF64 b q1
    let q2 := F64.div r.hi b.hi
    let r := r - mulF64 b q2
    let q3 := F64.div r.hi b.hi
    let (x, y) := renorm3 q1 q2 q3
    ⟨x, y⟩

instance : Div Double := ⟨div⟩

/-! ## Rounding to integers etc. — src/double/misc.rs -/

/-- `abs` — src/double/misc.rs:21-27 -/
def abs (a : Double) : Double := if a.isSignNegative then -a else a

/-- `floor` — src/double/misc.rs:43-52 -/
def floor (a : Double) : Double :=
  let hi := a.hi.floor
  if F64.lt (F64.sub hi a.hi).abs f64Epsilon then
    let (x, y) := renorm2 hi a.lo.floor
    ⟨x, y⟩
  else ⟨hi, F64.zero⟩

/-- `ceil` — src/double/misc.rs:68-77 -/
def ceil (a : Double) : Double :=
  let hi := a.hi.ceil
  if F64.lt (F64.sub hi a.hi).abs f64Epsilon then
    let (x, y) := renorm2 hi a.lo.ceil
    ⟨x, y⟩
  else ⟨hi, F64.zero⟩

/-- The literal `0.5`. -/
def half : F64 := ofDec false 5 (-1)

/-- `round` — src/double/misc.rs:94-106 -/
def round (a : Double) : Double :=
  let hi := a.hi.round
  if F64.lt (F64.sub hi a.hi).abs f64Epsilon then
    let lo := a.lo.round
    let (x, y) := renorm2 hi lo
    ⟨x, y⟩
  else if F64.lt (F64.sub (F64.sub hi a.hi).abs half).abs f64Epsilon && F64.lt a.lo F64.zero then
    ⟨F64.sub hi (ofDec false 1 0), F64.zero⟩
  else ⟨hi, F64.zero⟩

/-- `trunc` — src/double/misc.rs:120-126 -/
def trunc (a : Double) : Double := if F64.ge a.hi F64.zero then a.floor else a.ceil

/-- `fract` — src/double/misc.rs:143-145 -/
def fract (a : Double) : Double := a - a.trunc

/-- `signum` — src/double/misc.rs:165-173 -/
def signum (a : Double) : Double :=
  if a.isNan then NAN else if a.isSignNegative then NEG_ONE else ONE

/-! ## Remainder — src/double/rem.rs -/

/-- `Rem::rem` — src/double/rem.rs:33-36 (other forms are the same expression) -/
def rem (a b : Double) : Double :=
  let n := (a / b).floor
  a - b * n

instance : Mod Double := ⟨rem⟩

/-! ## Iterators — src/double/iter.rs -/

/-- `Sum::sum` — src/double/iter.rs:26-31, 46-51 -/
def sum (l : List Double) : Double := l.foldl (fun a b => a + b) ZERO

/-- `Product::product` — src/double/iter.rs:66-71, 86-91 -/
def product (l : List Double) : Double := l.foldl (fun a b => a * b) ONE

end Double

end Verif
