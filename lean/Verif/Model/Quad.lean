import Verif.Model.Alg
import Verif.Model.Parse

/-!
# Model of `Quad`: `src/quad.rs` and `src/quad/{aconsts,common,comp,neg,add,sub,mul,div,misc,rem,iter,from,from_str}.rs`
and the part of `src/quad/alg.rs` that needs no text conversion

Reference variants of the operators and the assigning operators only forward to the by-value operator; they are
represented by the same function.
-/

namespace Verif

open F64 Prim Util

/-- `pub struct Quad(f64, f64, f64, f64)` — src/quad.rs:93-94. -/
structure Quad where
  c0 : F64
  c1 : F64
  c2 : F64
  c3 : F64
deriving DecidableEq

namespace Quad

/-- `Quad::new` — src/quad.rs:96-124 -/
def new (a b c d : F64) : Quad := ⟨a, b, c, d⟩

/-- `Index::index` — src/quad.rs:126-159; `none` is the panic. -/
def index (q : Quad) (idx : ℕ) : Option F64 :=
  match idx with
  | 0 => some q.c0
  | 1 => some q.c1
  | 2 => some q.c2
  | 3 => some q.c3
  | _ => none

/-! ## Associated constants — src/quad/aconsts.rs -/

/-- src/quad/aconsts.rs:25 -/
def EPSILON : Quad := ⟨ofDec false 12154326714572542 (-79), ofDec false 42261844194902035 (-145), F64.zero, F64.zero⟩
/-- src/quad/aconsts.rs:28-33 -/
def MIN : Quad :=
  ⟨ofDec true 17976931348623157 292, ofDec true 9979201547673598 276,
    ofDec true 55395696628011126 259, ofDec true 3075078893078405 244⟩
/-- src/quad/aconsts.rs:36 -/
def MIN_POSITIVE : Quad := ⟨ofDec false 16259745436952323 (-276), F64.zero, F64.zero, F64.zero⟩
/-- src/quad/aconsts.rs:39-44 -/
def MAX : Quad :=
  ⟨ofDec false 17976931348623157 292, ofDec false 9979201547673598 276,
    ofDec false 55395696628011126 259, ofDec false 3075078893078405 244⟩
/-- src/quad/aconsts.rs:59 -/
def NAN : Quad := ⟨F64.NAN, F64.zero, F64.zero, F64.zero⟩
/-- src/quad/aconsts.rs:62 -/
def INFINITY : Quad := ⟨F64.INFINITY, F64.zero, F64.zero, F64.zero⟩
/-- src/quad/aconsts.rs:65 -/
def NEG_INFINITY : Quad := ⟨F64.NEG_INFINITY, F64.zero, F64.zero, F64.zero⟩
/-- src/quad/aconsts.rs:68 -/
def ZERO : Quad := ⟨F64.zero, F64.zero, F64.zero, F64.zero⟩
/-- src/quad/aconsts.rs:71 -/
def NEG_ZERO : Quad := ⟨F64.negZero, F64.zero, F64.zero, F64.zero⟩
/-- src/quad/aconsts.rs:74 -/
def ONE : Quad := ⟨ofDec false 1 0, F64.zero, F64.zero, F64.zero⟩
/-- src/quad/aconsts.rs:77 -/
def NEG_ONE : Quad := ⟨ofDec true 1 0, F64.zero, F64.zero, F64.zero⟩
/-- src/quad/aconsts.rs:80-85 -/
def PI : Quad :=
  ⟨ofDec false 3141592653589793 (-15), ofDec false 12246467991473532 (-32),
    ofDec true 29947698097183397 (-49), ofDec false 11124542208633655 (-65)⟩
/-- src/quad/aconsts.rs:88-93 -/
def TAU : Quad :=
  ⟨ofDec false 6283185307179586 (-15), ofDec false 24492935982947064 (-32),
    ofDec true 5989539619436679 (-48), ofDec false 2224908441726731 (-64)⟩
/-- src/quad/aconsts.rs:96-101 -/
def FRAC_PI_2 : Quad :=
  ⟨ofDec false 15707963267948966 (-16), ofDec false 6123233995736766 (-32),
    ofDec true 14973849048591698 (-49), ofDec false 5562271104316827 (-65)⟩
/-- src/quad/aconsts.rs:104-109 -/
def FRAC_PI_3 : Quad :=
  ⟨ofDec false 10471975511965979 (-16), ofDec true 1072081766451091 (-31),
    ofDec true 9982566032394464 (-49), ofDec true 769561536018215 (-64)⟩
/-- src/quad/aconsts.rs:112-117 -/
def FRAC_PI_4 : Quad :=
  ⟨ofDec false 7853981633974483 (-16), ofDec false 3061616997868383 (-32),
    ofDec true 7486924524295849 (-49), ofDec false 2781135552158413 (-65)⟩
/-- src/quad/aconsts.rs:120-125 -/
def FRAC_PI_6 : Quad :=
  ⟨ofDec false 5235987755982989 (-16), ofDec true 5360408832255455 (-32),
    ofDec true 4991283016197232 (-49), ofDec true 3847807680091076 (-65)⟩
/-- src/quad/aconsts.rs:128-133 -/
def FRAC_PI_8 : Quad :=
  ⟨ofDec false 39269908169872414 (-17), ofDec false 15308084989341915 (-33),
    ofDec true 37434622621479246 (-50), ofDec false 13905677760792066 (-66)⟩
/-- src/quad/aconsts.rs:136-141 -/
def FRAC_PI_16 : Quad :=
  ⟨ofDec false 19634954084936207 (-17), ofDec false 7654042494670958 (-33),
    ofDec true 18717311310739623 (-50), ofDec false 6952838880396033 (-66)⟩
/-- src/quad/aconsts.rs:144-149 -/
def FRAC_3_PI_2 : Quad :=
  ⟨ofDec false 471238898038469 (-14), ofDec false 18369701987210297 (-32),
    ofDec false 78337969295008 (-46), ofDec true 5173596326540972 (-64)⟩
/-- src/quad/aconsts.rs:152-157 -/
def FRAC_3_PI_4 : Quad :=
  ⟨ofDec false 2356194490192345 (-15), ofDec false 9184850993605148 (-32),
    ofDec false 39168984647504 (-46), ofDec true 2586798163270486 (-64)⟩
/-- src/quad/aconsts.rs:160-165 -/
def FRAC_5_PI_4 : Quad :=
  ⟨ofDec false 39269908169872414 (-16), ofDec false 15308084989341916 (-32),
    ofDec true 990643808418708 (-47), ofDec false 4811706604997218 (-64)⟩
/-- src/quad/aconsts.rs:168-173 -/
def FRAC_7_PI_4 : Quad :=
  ⟨ofDec false 5497787143782138 (-15), ofDec false 2143131898507868 (-31),
    ofDec false 9221286550320605 (-49), ofDec false 23622547205188384 (-66)⟩
/-- src/quad/aconsts.rs:176-181 -/
def FRAC_1_PI : Quad :=
  ⟨ofDec false 3183098861837907 (-16), ofDec true 19678676675182486 (-33),
    ofDec true 10721436282893004 (-49), ofDec false 8053563926594112 (-65)⟩
/-- src/quad/aconsts.rs:184-189 -/
def FRAC_2_PI : Quad :=
  ⟨ofDec false 6366197723675814 (-16), ofDec true 3935735335036497 (-32),
    ofDec true 21442872565786008 (-49), ofDec false 16107127853188224 (-65)⟩
/-- src/quad/aconsts.rs:192-197 -/
def FRAC_2_SQRT_PI : Quad :=
  ⟨ofDec false 11283791670955126 (-16), ofDec false 1533545961316588 (-32),
    ofDec true 4765684596693686 (-49), ofDec true 20077946616552623 (-66)⟩
/-- src/quad/aconsts.rs:200-205 -/
def SQRT_2 : Quad :=
  ⟨ofDec false 14142135623730951 (-16), ofDec true 9667293313452913 (-32),
    ofDec false 41386753086994136 (-49), ofDec false 4935546991468354 (-65)⟩
/-- src/quad/aconsts.rs:208-213 -/
def FRAC_1_SQRT_2 : Quad :=
  ⟨ofDec false 7071067811865476 (-16), ofDec true 4833646656726457 (-32),
    ofDec false 20693376543497068 (-49), ofDec false 2467773495734177 (-65)⟩
/-- src/quad/aconsts.rs:216-221 -/
def E : Quad :=
  ⟨ofDec false 2718281828459045 (-15), ofDec false 14456468917292502 (-32),
    ofDec true 21277171080381768 (-49), ofDec false 15156301598412193 (-65)⟩
/-- src/quad/aconsts.rs:224-229 -/
def LOG2_10 : Quad :=
  ⟨ofDec false 3321928094887362 (-15), ofDec false 1661617516973592 (-31),
    ofDec false 12215512178458181 (-48), ofDec false 595511897027825 (-63)⟩
/-- src/quad/aconsts.rs:232-237 -/
def LOG2_E : Quad :=
  ⟨ofDec false 14426950408889634 (-16), ofDec false 20355273740931033 (-33),
    ofDec true 10614659956117258 (-49), ofDec true 13836716780181397 (-66)⟩
/-- src/quad/aconsts.rs:240-245 -/
def LOG10_2 : Quad :=
  ⟨ofDec false 3010299956639812 (-16), ofDec true 28037281277851704 (-34),
    ofDec false 5471948402314639 (-50), ofDec false 5105138983107093 (-66)⟩
/-- src/quad/aconsts.rs:248-253 -/
def LOG10_E : Quad :=
  ⟨ofDec false 4342944819032518 (-16), ofDec false 1098319650216765 (-32),
    ofDec false 3717181233110959 (-49), ofDec false 773448434650429 (-65)⟩
/-- src/quad/aconsts.rs:256-261 -/
def LN_2 : Quad :=
  ⟨ofDec false 6931471805599453 (-16), ofDec false 23190468138462996 (-33),
    ofDec false 5707708438416212 (-49), ofDec true 3582432210601812 (-65)⟩
/-- src/quad/aconsts.rs:264-269 -/
def LN_10 : Quad :=
  ⟨ofDec false 2302585092994046 (-15), ofDec true 21707562233822494 (-32),
    ofDec true 9984262454465777 (-48), ofDec true 4023357454450206 (-64)⟩

/-! ## Classification — src/quad/misc.rs -/

/-- src/quad/misc.rs:227-229 -/
def classify (q : Quad) : Category := q.c0.classify
/-- src/quad/misc.rs:251-253 -/
def isNormal (q : Quad) : Bool := q.classify = Category.normal
/-- src/quad/misc.rs:265-267 -/
def isZero (q : Quad) : Bool := F64.eq q.c0 F64.zero
/-- src/quad/misc.rs:282-284 -/
def isSignNegative (q : Quad) : Bool := q.c0.isSignNegative
/-- src/quad/misc.rs:299-301 -/
def isSignPositive (q : Quad) : Bool := q.c0.isSignPositive
/-- src/quad/misc.rs:315-317 -/
def isNan (q : Quad) : Bool := q.c0.isNan
/-- src/quad/misc.rs:330-332 -/
def isInfinite (q : Quad) : Bool := q.c0.isInfinite
/-- src/quad/misc.rs:345-347 -/
def isFinite (q : Quad) : Bool := q.c0.isFinite
/-- src/quad/misc.rs:365-367 -/
def isSubnormal (q : Quad) : Bool := q.classify = Category.subnormal

/-! ## Comparison — src/quad/comp.rs -/

/-- `PartialEq::eq` — src/quad/comp.rs:28-30 -/
def eq (a b : Quad) : Bool := F64.eq a.c0 b.c0 && F64.eq a.c1 b.c1 && F64.eq a.c2 b.c2 && F64.eq a.c3 b.c3

/-- `PartialOrd::partial_cmp` — src/quad/comp.rs:49-60 -/
def partialCmp (a b : Quad) : Option Ordering :=
  match F64.partialCmp a.c0 b.c0 with
  | some .eq =>
    match F64.partialCmp a.c1 b.c1 with
    | some .eq =>
      match F64.partialCmp a.c2 b.c2 with
      | some .eq => F64.partialCmp a.c3 b.c3
      | x => x
    | x => x
  | x => x

/-- `a < b`: default method of `PartialOrd` -/
def lt (a b : Quad) : Bool := partialCmp a b = some .lt
/-- `a <= b`: default method of `PartialOrd` -/
def le (a b : Quad) : Bool := partialCmp a b = some .lt || partialCmp a b = some .eq
/-- `a > b`: default method of `PartialOrd` -/
def gt (a b : Quad) : Bool := partialCmp a b = some .gt
/-- `a >= b`: default method of `PartialOrd` -/
def ge (a b : Quad) : Bool := partialCmp a b = some .gt || partialCmp a b = some .eq

/-! ## Negation — src/quad/neg.rs -/

/-- `Neg::neg` — src/quad/neg.rs:26-28, 48-50 -/
def neg (a : Quad) : Quad := ⟨F64.neg a.c0, F64.neg a.c1, F64.neg a.c2, F64.neg a.c3⟩

instance : Neg Quad := ⟨neg⟩

/-! ## Addition — src/quad/add.rs

The indices `i` and `j` of the source are represented by the components not yet consumed (`self[i..4]`, `other[j..4]`),
the array `x` with its fill count `k` by the list of the `k` entries written so far. -/

/-- `pre_add` — src/quad/add.rs:236-266 -/
def preAdd (a b : Quad) : Option Quad :=
  if a.isNan || b.isNan then some NAN
  else if a.isInfinite then
    if b.isInfinite then
      if a.isSignPositive then
        if b.isSignPositive then some INFINITY else some NAN
      else if b.isSignNegative then some NEG_INFINITY
      else some NAN
    else if a.isSignPositive then some INFINITY
    else some NEG_INFINITY
  else if b.isInfinite then
    if b.isSignPositive then some INFINITY else some NEG_INFINITY
  else none

/-- The next component in the merge: the larger one in magnitude, `other` on ties — src/quad/add.rs:54-63, 76-82 (with
`index_and_inc`, 13-17). Returns the component and what is left of both operands. Never called with both empty. -/
def pick : List F64 → List F64 → F64 × List F64 × List F64
  | [], [] => (F64.zero, [], [])
  | [], y :: ys => (y, [], ys)
  | x :: xs, [] => (x, xs, [])
  | x :: xs, y :: ys => if F64.gt x.abs y.abs then (x, xs, y :: ys) else (y, x :: xs, ys)

/-- The `while` loop — src/quad/add.rs:66-91. Each round consumes a component, so `fuel = 8` is never used up. -/
def addLoop : ℕ → F64 → F64 → List F64 → List F64 → List F64 → List F64 × List F64 × List F64
  | 0, _, _, la, lb, x => (x, la, lb)
  | fuel + 1, u, v, la, lb, x =>
    if x.length < 4 then
      if la.isEmpty && lb.isEmpty then
        (if x.length < 3 then x ++ [u, v] else x ++ [u], la, lb)
      else
        let (t, la', lb') := pick la lb
        let (s, y, z) := accumulate u v t
        addLoop fuel y z la' lb' (if F64.ne s F64.zero then x ++ [s] else x)
    else (x, la, lb)

/-- `Add::add` — src/quad/add.rs:40-104 (the forms at 106-222 forward to it) -/
def add (a b : Quad) : Quad :=
  match preAdd a b with
  | some r => r
  | none =>
    let (u, la, lb) := pick [a.c0, a.c1, a.c2, a.c3] [b.c0, b.c1, b.c2, b.c3]
    let (v, la, lb) := pick la lb
    let (u, v) := renorm2 u v
    let (x, la, lb) := addLoop 8 u v la lb []
    let x3 := lb.foldl F64.add (la.foldl F64.add (x.getD 3 F64.zero))
    let (p, q, r, s) := renorm4 (x.getD 0 F64.zero) (x.getD 1 F64.zero) (x.getD 2 F64.zero) x3
    ⟨p, q, r, s⟩

instance : Add Quad := ⟨add⟩

/-- `Sub::sub` — src/quad/sub.rs (every form is `self.add(-other)`) -/
def sub (a b : Quad) : Quad := a + (-b)

instance : Sub Quad := ⟨sub⟩

/-! ## Multiplication — src/quad/mul.rs -/

/-- `pre_mul` — src/quad/mul.rs:235-263 -/
def preMul (a b : Quad) : Option Quad :=
  if a.isNan || b.isNan then some NAN
  else if a.isZero then
    if b.isInfinite then some NAN
    else if a.isSignPositive = b.isSignPositive then some ZERO
    else some NEG_ZERO
  else if a.isInfinite then
    if b.isZero then some NAN
    else if a.isSignPositive = b.isSignPositive then some INFINITY
    else some NEG_INFINITY
  else if b.isInfinite then
    if a.isSignPositive = b.isSignPositive then some INFINITY
    else some NEG_INFINITY
  else none

/-- `Mul::mul` — src/quad/mul.rs:54-101 (other forms forward to it) -/
def mul (a b : Quad) : Quad :=
  match preMul a b with
  | some r => r
  | none =>
    let (h0, l0) := twoProd a.c0 b.c0
    let (h1, l1) := twoProd a.c0 b.c1
    let (h2, l2) := twoProd a.c1 b.c0
    let (h3, l3) := twoProd a.c0 b.c2
    let (h4, l4) := twoProd a.c1 b.c1
    let (h5, l5) := twoProd a.c2 b.c0
    let (h6, l6) := twoProd a.c0 b.c3
    let (h7, l7) := twoProd a.c1 b.c2
    let (h8, l8) := twoProd a.c2 b.c1
    let (h9, l9) := twoProd a.c3 b.c0
    let ha := F64.mul a.c1 b.c3
    let hb := F64.mul a.c2 b.c2
    let hc := F64.mul a.c3 b.c1
    let r0 := h0
    let (r1, t0, t1) := threeThreeSum h1 h2 l0
    let (r2, t2, t3) := sixThreeSum t0 h3 h4 h5 l1 l2
    let (r3, t4) := nineTwoSum t1 t2 h6 h7 h8 h9 l3 l4 l5
    let r4 := F64.add (F64.add (F64.add (F64.add (F64.add (F64.add (F64.add (F64.add t3 t4) ha) hb) hc) l6) l7) l8) l9
    let (p, q, r, s) := renorm5 r0 r1 r2 r3 r4
    ⟨p, q, r, s⟩

instance : Mul Quad := ⟨mul⟩

/-- `mul_pwr2` — src/quad/common.rs:9-11 -/
def mulPwr2 (a : Quad) (n : F64) : Quad := ⟨F64.mul a.c0 n, F64.mul a.c1 n, F64.mul a.c2 n, F64.mul a.c3 n⟩

/-! ## Division — src/quad/div.rs -/

/-- `mul_f64` — src/quad/div.rs:20-34 (`s4` is the product `t2 * t3`, as in the source) -/
def mulF64 (a : Quad) (b : F64) : Quad :=
  let (h0, l0) := twoProd a.c0 b
  let (h1, l1) := twoProd a.c1 b
  let (h2, l2) := twoProd a.c2 b
  let h3 := F64.mul a.c3 b
  let s0 := h0
  let (s1, t0) := twoSum h1 l0
  let (s2, t1, t2) := threeThreeSum t0 h2 l1
  let (s3, t3) := threeTwoSum t1 h3 l2
  let s4 := F64.mul t2 t3
  let (p, q, r, s) := renorm5 s0 s1 s2 s3 s4
  ⟨p, q, r, s⟩

/-- `pre_div` — src/quad/div.rs:214-242 -/
def preDiv (a b : Quad) : Option Quad :=
  if a.isNan || b.isNan then some NAN
  else if b.isZero then
    if a.isZero then some NAN
    else if a.isSignNegative = b.isSignPositive then some NEG_INFINITY
    else some INFINITY
  else if a.isInfinite then
    if b.isInfinite then some NAN
    else if a.isSignPositive = b.isSignPositive then some INFINITY
    else some NEG_INFINITY
  else if b.isInfinite then
    if a.isSignPositive = b.isSignPositive then some ZERO
    else some NEG_ZERO
  else none

/-- `Div::div` — src/quad/div.rs:53-82 (other forms forward to it) -/
def div (a b : Quad) : Quad :=
  match preDiv a b with
  | some r => r
  | none =>
    let q0 := F64.div a.c0 b.c0
    let r := a - mulF64 b q0
    let q1 := F64.div r.c0 b.c0
    let r := r - mulF64 b q1
    let q2 := F64.div r.c0 b.c0
    let r := r - mulF64 b q2
    let q3 := F64.div r.c0 b.c0
    let r := r - mulF64 b q3
    let q4 := F64.div r.c0 b.c0
    let (p, q, r, s) := renorm5 q0 q1 q2 q3 q4
    ⟨p, q, r, s⟩

instance : Div Quad := ⟨div⟩

/-! ## Rounding to integers etc. — src/quad/misc.rs -/

/-- `abs` — src/quad/misc.rs:21-27 -/
def abs (a : Quad) : Quad := if a.isSignNegative then -a else a

/-- `renorm4` wrapped into a `Quad`. -/
def ofRenorm4 (a b c d : F64) : Quad :=
  let (a, b, c, d) := renorm4 a b c d
  ⟨a, b, c, d⟩

/-- `(a - b).abs() < f64::EPSILON` -/
def close (a b : F64) : Bool := F64.lt (F64.sub a b).abs Double.f64Epsilon

/-- `floor` — src/quad/misc.rs:41-60 -/
def floor (q : Quad) : Quad :=
  let a := q.c0.floor
  if close a q.c0 then
    let b := q.c1.floor
    if close b q.c1 then
      let c := q.c2.floor
      if close c q.c2 then ofRenorm4 a b c q.c3.floor else ofRenorm4 a b c F64.zero
    else ofRenorm4 a b F64.zero F64.zero
  else ⟨a, F64.zero, F64.zero, F64.zero⟩

/-- `ceil` — src/quad/misc.rs:74-93 -/
def ceil (q : Quad) : Quad :=
  let a := q.c0.ceil
  if close a q.c0 then
    let b := q.c1.ceil
    if close b q.c1 then
      let c := q.c2.ceil
      if close c q.c2 then ofRenorm4 a b c q.c3.ceil else ofRenorm4 a b c F64.zero
    else ofRenorm4 a b F64.zero F64.zero
  else ⟨a, F64.zero, F64.zero, F64.zero⟩

/-- `((a - b).abs() - 0.5).abs() < f64::EPSILON` -/
def halfway (a b : F64) : Bool := F64.lt (F64.sub (F64.sub a b).abs Double.half).abs Double.f64Epsilon

/-- `round` — src/quad/misc.rs:108-133 -/
def round (q : Quad) : Quad :=
  let a := q.c0.round
  if close a q.c0 then
    let b := q.c1.round
    if close b q.c1 then
      let c := q.c2.round
      if close c q.c2 then ofRenorm4 a b c q.c3.round
      else if halfway c q.c2 && F64.lt q.c3 F64.zero then ⟨a, b, F64.sub c (ofDec false 1 0), F64.zero⟩
      else ⟨a, b, c, F64.zero⟩
    else if halfway b q.c1 && F64.lt q.c2 F64.zero then ⟨a, F64.sub b (ofDec false 1 0), F64.zero, F64.zero⟩
    else ⟨a, b, F64.zero, F64.zero⟩
  else if halfway a q.c0 && F64.lt q.c1 F64.zero then ⟨F64.sub a (ofDec false 1 0), F64.zero, F64.zero, F64.zero⟩
  else ⟨a, F64.zero, F64.zero, F64.zero⟩

/-- `trunc` — src/quad/misc.rs:147-153 -/
def trunc (a : Quad) : Quad := if F64.ge a.c0 F64.zero then a.floor else a.ceil

/-- `fract` — src/quad/misc.rs:170-172 -/
def fract (a : Quad) : Quad := a - a.trunc

/-- `signum` — src/quad/misc.rs:192-200 -/
def signum (a : Quad) : Quad :=
  if a.isNan then NAN else if a.isSignNegative then NEG_ONE else ONE

/-! ## Remainder — src/quad/rem.rs -/

/-- `Rem::rem` — src/quad/rem.rs:33-36 (other forms are the same expression) -/
def rem (a b : Quad) : Quad :=
  let n := (a / b).floor
  a - b * n

instance : Mod Quad := ⟨rem⟩

/-! ## Iterators — src/quad/iter.rs -/

/-- `Sum::sum` — src/quad/iter.rs (by value and by reference) -/
def sum (l : List Quad) : Quad := l.foldl (fun a b => a + b) ZERO

/-- `Product::product` — src/quad/iter.rs (by value and by reference) -/
def product (l : List Quad) : Quad := l.foldl (fun a b => a * b) ONE

/-! ## Algebra — src/quad/alg.rs -/

/-- `ldexp` — src/quad/alg.rs:28-36 -/
def ldexp (a : Quad) (n : ℤ) : Quad :=
  let factor := F64.powi Double.two n
  ⟨F64.mul a.c0 factor, F64.mul a.c1 factor, F64.mul a.c2 factor, F64.mul a.c3 factor⟩

/-- `pre_sqr` — src/quad/alg.rs:307-313 -/
def preSqr (a : Quad) : Option Quad := if a.isInfinite then some INFINITY else none

/-- `sqr` — src/quad/alg.rs:51-100 -/
def sqr (a : Quad) : Quad :=
  match preSqr a with
  | some r => r
  | none =>
    let (h0, l0) := twoSqr a.c0
    let (h1, l1) := twoProd (F64.mul Double.two a.c0) a.c1
    let (h2, l2) := twoProd (F64.mul Double.two a.c0) a.c2
    let (h3, l3) := twoSqr a.c1
    let h4 := F64.mul (F64.mul Double.two a.c0) a.c3
    let h5 := F64.mul (F64.mul Double.two a.c1) a.c2
    let r0 := h0
    let (r1, a1) := twoSum h1 l0
    let (b0, b1) := twoSum a1 l1
    let (c0, c1) := twoSum h2 h3
    let (d0, d1) := twoSum b0 c0
    let (e0, e1) := twoSum b1 c1
    let (f0, f1) := twoSum d1 e0
    let (i0, i1) := quickTwoSum f0 (F64.add e1 f1)
    let (r2, j1) := quickTwoSum d0 i0
    let (k0, k1) := quickTwoSum i1 j1
    let (m0, m1) := twoSum h4 h5
    let (n0, n1) := twoSum l2 l3
    let (o0, o1) := twoSum m0 n0
    let (r3, q1) := twoSum k0 o0
    let r4 := F64.add (F64.add (F64.add (F64.add m1 n1) o1) k1) q1
    let (p, q, r, s) := renorm5 r0 r1 r2 r3 r4
    ⟨p, q, r, s⟩

/-- `recip` — src/quad/alg.rs:293-295 -/
def recip (a : Quad) : Quad := ONE / a

/-- `pre_powi` — src/quad/alg.rs:370-402 -/
def prePowi (a : Quad) (n : ℤ) : Option Quad :=
  if n = 0 then some ONE
  else if a.isNan then some NAN
  else if a.isZero then
    if n.tmod 2 = 0 || a.isSignPositive then
      if n > 0 then some ZERO else some INFINITY
    else if n > 0 then some NEG_ZERO
    else some NEG_INFINITY
  else if a.isInfinite then
    if n.tmod 2 = 0 || a.isSignPositive then
      if n > 0 then some INFINITY else some ZERO
    else if n > 0 then some NEG_INFINITY
    else some NEG_ZERO
  else none

/-- The `while` loop of `powi` — src/quad/alg.rs:226-234. `k` at least halves in each round, so `fuel = k` is enough. -/
def powiLoop : ℕ → ℕ → Quad → Quad → Quad
  | 0, _, _, s => s
  | fuel + 1, k, r, s =>
    if k > 0 then
      let s := if k % 2 = 1 then s * r else s
      let k := k / 2
      let r := if k > 0 then r.sqr else r
      powiLoop fuel k r s
    else s

/-- `powi` — src/quad/alg.rs:217-246. `n.abs()` overflows for `i32::MIN`. -/
def powi (a : Quad) (n : ℤ) : Option Quad :=
  match prePowi a n with
  | some r => some r
  | none =>
    match i32? |n| with
    | none => none
    | some k =>
      let k := k.toNat
      let s := if k > 1 then powiLoop k k a ONE else a
      some (if n < 0 then s.recip else s)

/-! ## Conversions — src/quad/from.rs -/

/-- `From<i8>` to `From<u32>` — src/quad/from.rs:98-173 -/
def ofSmallInt (a : ℤ) : Quad := ⟨F64.ofInt a, F64.zero, F64.zero, F64.zero⟩

/-- `from_u64` (with `split_u64`) — src/quad/from.rs:12-16, 28-32 -/
def ofU64 (a : ℕ) : Quad :=
  let (x, y) : ℕ × ℕ := (a / 2 ^ 32 % 2 ^ 32, a % 2 ^ 32)
  ofRenorm4 (F64.mul (F64.ofInt x) (F64.powi Double.two 32)) (F64.ofInt y) F64.zero F64.zero

/-- `from_i64` — src/quad/from.rs:34-50 -/
def ofI64 (a : ℤ) : Quad :=
  let sign := a.sign
  let m : ℕ := if a = -2 ^ 63 then (2 ^ 63 - 1) + 1 else a.natAbs
  let q := ofU64 m
  if sign = -1 then ⟨F64.neg q.c0, F64.neg q.c1, F64.neg q.c2, F64.neg q.c3⟩ else q

/-- `from_u128` (with `split_u128`) — src/quad/from.rs:20-26, 53-62 -/
def ofU128 (a : ℕ) : Quad :=
  let w : ℕ := a / 2 ^ 96 % 2 ^ 32
  let x : ℕ := a / 2 ^ 64 % 2 ^ 32
  let y : ℕ := a / 2 ^ 32 % 2 ^ 32
  let z : ℕ := a % 2 ^ 32
  ofRenorm4 (F64.mul (F64.ofInt w) (F64.powi Double.two 96)) (F64.mul (F64.ofInt x) (F64.powi Double.two 64))
    (F64.mul (F64.ofInt y) (F64.powi Double.two 32)) (F64.ofInt z)

/-- `from_i128` — src/quad/from.rs:65-86 -/
def ofI128 (a : ℤ) : Quad :=
  let sign := a.sign
  let m : ℕ := if a = -2 ^ 127 then (2 ^ 127 - 1) + 1 else a.natAbs
  let q := ofU128 m
  if sign = -1 then ⟨F64.neg q.c0, F64.neg q.c1, F64.neg q.c2, F64.neg q.c3⟩ else q

/-- `From<(f64, f64)> for Quad` — src/quad/from.rs:364-366 -/
def ofPair (p : F64 × F64) : Quad := ⟨p.1, p.2, F64.zero, F64.zero⟩
/-- `From<(f64, f64, f64)> for Quad` — src/quad/from.rs:394-396 -/
def ofTriple (p : F64 × F64 × F64) : Quad := ⟨p.1, p.2.1, p.2.2, F64.zero⟩
/-- `From<(f64, f64, f64, f64)> for Quad` — src/quad/from.rs:426-428 -/
def ofTuple (p : F64 × F64 × F64 × F64) : Quad := ⟨p.1, p.2.1, p.2.2.1, p.2.2.2⟩
/-- `From<Quad> for f64` — src/quad/from.rs:505-507 -/
def toF64 (a : Quad) : F64 := a.c0
/-- `From<Quad> for (f64, f64)` — src/quad/from.rs:527-529 -/
def toPair (a : Quad) : F64 × F64 := (a.c0, a.c1)
/-- `From<Quad> for (f64, f64, f64)` — src/quad/from.rs:550-552 -/
def toTriple (a : Quad) : F64 × F64 × F64 := (a.c0, a.c1, a.c2)
/-- `From<Quad> for (f64, f64, f64, f64)` — src/quad/from.rs:574-576 -/
def toTuple (a : Quad) : F64 × F64 × F64 × F64 := (a.c0, a.c1, a.c2, a.c3)

/-! ## Parsing — src/quad/from_str.rs -/

/-- `const TEN` — src/quad/from_str.rs:10 -/
def TEN : Quad := ⟨F64.ofDec false 10 0, F64.zero, F64.zero, F64.zero⟩

/-- The operations of `Quad` used by the parser; `Quad(d as f64, 0.0, 0.0, 0.0)` at src/quad/from_str.rs:67. -/
def ops : NumOps Quad where
  zero := ZERO
  nan := NAN
  inf := INFINITY
  negInf := NEG_INFINITY
  ten := TEN
  ofDigit d := ⟨F64.ofInt d, F64.zero, F64.zero, F64.zero⟩
  mul a b := a * b
  add a b := a + b
  neg a := -a
  powi := powi

/-- `<Quad as FromStr>::from_str` — src/quad/from_str.rs -/
def fromStr (s : List Char) : Option (Except ErrorKind Quad) := Parse.fromStr ops s

/-- `From<&str> for Quad` — src/quad/from.rs:479-481 -/
def ofStr (s : List Char) : Option Quad :=
  match fromStr s with
  | none => none
  | some (.ok v) => some v
  | some (.error _) => some NAN

end Quad

end Verif
