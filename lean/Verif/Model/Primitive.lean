import Verif.F64

/-!
# Model of `src/common/primitive.rs` and `src/common/utils.rs`

`p::f` of the Rust code is `Prim.f` here, `u::f` is `Util.f`.
-/

namespace Verif

namespace Prim

open F64

/-- `quick_two_sum` — src/common/primitive.rs:57-61 -/
def quickTwoSum (a b : F64) : F64 × F64 :=
  let s := add a b
  let e := sub b (sub s a)
  (s, e)

/-- `two_sum` — src/common/primitive.rs:75-80 -/
def twoSum (a b : F64) : F64 × F64 :=
  let s := add a b
  let v := sub s a
  let e := add (sub a (sub s v)) (sub b v)
  (s, e)

/-- `two_diff` — src/common/primitive.rs:85-90 -/
def twoDiff (a b : F64) : F64 × F64 :=
  let s := sub a b
  let v := sub s a
  let e := sub (sub a (sub s v)) (add b v)
  (s, e)

/-- `two_prod` (the variant compiled unless the cfg `no_fma` is set) — src/common/primitive.rs:121-127 -/
def twoProd (a b : F64) : F64 × F64 :=
  let p := mul a b
  let e := fma a b (neg p)
  (p, e)

/-- `two_sqr` (FMA variant) — src/common/primitive.rs:149-155 -/
def twoSqr (a : F64) : F64 × F64 :=
  let p := mul a a
  let e := fma a a (neg p)
  (p, e)

/-! The variant compiled with the cfg `no_fma`. -/

/-- `SPLIT_FACTOR = 134217729.0` — src/common/primitive.rs:24-25 -/
def SPLIT_FACTOR : F64 := ofDec false 134217729 0
/-- `SPLIT_THRESHOLD = 6.69692879491417e+299` — src/common/primitive.rs:36-37 -/
def SPLIT_THRESHOLD : F64 := ofDec false 669692879491417 285
/-- `SPLIT_SHIFT_DOWN = 3.7252902984619140625e-9` — src/common/primitive.rs:42-43 -/
def SPLIT_SHIFT_DOWN : F64 := ofDec false 37252902984619140625 (-28)
/-- `SPLIT_SHIFT_UP = 268435456.0` — src/common/primitive.rs:48-49 -/
def SPLIT_SHIFT_UP : F64 := ofDec false 268435456 0

/-- `split` — src/common/primitive.rs:99-114 -/
def split (a : F64) : F64 × F64 :=
  if gt a SPLIT_THRESHOLD || lt a (neg SPLIT_THRESHOLD) then
    let s := mul a SPLIT_SHIFT_DOWN
    let t := mul SPLIT_FACTOR s
    let hi := sub t (sub t s)
    let lo := sub s hi
    (mul hi SPLIT_SHIFT_UP, mul lo SPLIT_SHIFT_UP)
  else
    let t := mul SPLIT_FACTOR a
    let hi := sub t (sub t a)
    let lo := sub a hi
    (hi, lo)

/-- `two_prod` (cfg `no_fma`) — src/common/primitive.rs:134-142 -/
def twoProdNoFma (a b : F64) : F64 × F64 :=
  let p := mul a b
  let (ahi, alo) := split a
  let (bhi, blo) := split b
  let e := add (add (add (sub (mul ahi bhi) p) (mul ahi blo)) (mul alo bhi)) (mul alo blo)
  (p, e)

/-- `two_sqr` (cfg `no_fma`) — src/common/primitive.rs:163-170 -/
def twoSqrNoFma (a : F64) : F64 × F64 :=
  let p := mul a a
  let (hi, lo) := split a
  let e := add (add (sub (mul hi hi) p) (mul (mul (ofInt 2) hi) lo)) (mul lo lo)
  (p, e)

end Prim

namespace Util

open F64 Prim

/-- `three_two_sum` — src/common/utils.rs:10-14 -/
def threeTwoSum (a b c : F64) : F64 × F64 :=
  let (u, v) := twoSum a b
  let (s, w) := twoSum c u
  (s, add v w)

/-- `three_three_sum` — src/common/utils.rs:18-23 -/
def threeThreeSum (a b c : F64) : F64 × F64 × F64 :=
  let (u, v) := twoSum a b
  let (s, w) := twoSum c u
  let (e1, e2) := twoSum v w
  (s, e1, e2)

/-- `four_two_sum` — src/common/utils.rs:27-30 -/
def fourTwoSum (a b c d : F64) : F64 × F64 :=
  let (s0, s1) := twoSum a c
  (s0, add (add s1 b) d)

/-- `six_three_sum` — src/common/utils.rs:34-42 -/
def sixThreeSum (a b c d e f : F64) : F64 × F64 × F64 :=
  let (p0, p1, p2) := threeThreeSum a b c
  let (q0, q1, q2) := threeThreeSum d e f
  let (r0, r1) := twoSum p0 q0
  let (s0, s1) := twoSum p1 q1
  let (t0, t1) := twoSum s0 r1
  let u0 := add (add (add p2 q2) s1) t1
  (r0, t0, u0)

/-- `nine_two_sum` — src/common/utils.rs:47-67 -/
def nineTwoSum (a b c d e f g h i : F64) : F64 × F64 :=
  let (p0, p1) := twoSum a b
  let (q0, q1) := twoSum c d
  let (r0, r1) := twoSum e f
  let (s0, s1) := twoSum g h
  let (t0, t1) := fourTwoSum p0 p1 q0 q1
  let (u0, u1) := fourTwoSum r0 r1 s0 s1
  let (v0, v1) := fourTwoSum t0 t1 u0 u1
  let (w0, w1) := twoSum v0 i
  (w0, add w1 v1)

/-- `accumulate` — src/common/utils.rs:75-87 -/
def accumulate (a b c : F64) : F64 × F64 × F64 :=
  let (s, b) := twoSum b c
  let (s, a) := twoSum a s
  let za := F64.eq a F64.zero
  let zb := F64.eq b F64.zero
  if !(za || zb) then (s, a, b)
  else (F64.zero, s, if zb then a else b)

/-- `renorm2` — src/common/utils.rs:95-97 -/
def renorm2 (a b : F64) : F64 × F64 := quickTwoSum a b

/-- `renorm3` — src/common/utils.rs:105-109 (the second call has the smaller operand first, as in the source) -/
def renorm3 (a b c : F64) : F64 × F64 :=
  let (u, v) := quickTwoSum a b
  let (s, w) := quickTwoSum c u
  quickTwoSum s (add v w)

/-- `renorm4` — src/common/utils.rs:117-141 -/
def renorm4 (a b c d : F64) : F64 × F64 × F64 × F64 :=
  let (x, s3) := quickTwoSum c d
  let (x, s2) := quickTwoSum b x
  let (s0, s1) := quickTwoSum a x
  if ne s1 F64.zero then
    let (s1, s2) := quickTwoSum s1 s2
    if ne s2 F64.zero then
      let (s2, s3) := quickTwoSum s2 s3
      (s0, s1, s2, s3)
    else
      let (s1, s2) := quickTwoSum s1 s3
      (s0, s1, s2, F64.zero)
  else
    let (s0, s1) := quickTwoSum s0 s2
    if ne s1 F64.zero then
      let (s1, s2) := quickTwoSum s1 s3
      (s0, s1, s2, F64.zero)
    else
      let (s0, s1) := quickTwoSum s0 s3
      (s0, s1, F64.zero, F64.zero)

/-- `renorm5` — src/common/utils.rs:149-197 -/
def renorm5 (a b c d e : F64) : F64 × F64 × F64 × F64 :=
  let (x, s4) := quickTwoSum d e
  let (x, s3) := quickTwoSum c x
  let (x, s2) := quickTwoSum b x
  let (s0, s1) := quickTwoSum a x
  if ne s1 F64.zero then
    let (s1, s2) := quickTwoSum s1 s2
    if ne s2 F64.zero then
      let (s2, s3) := quickTwoSum s2 s3
      if ne s3 F64.zero then
        (s0, s1, s2, add s3 s4)
      else
        let (s2, s3) := quickTwoSum s2 s4
        (s0, s1, s2, s3)
    else
      let (s1, s2) := quickTwoSum s1 s3
      if ne s2 F64.zero then
        let (s2, s3) := quickTwoSum s2 s4
        (s0, s1, s2, s3)
      else
        let (s1, s2) := quickTwoSum s1 s4
        (s0, s1, s2, F64.zero)
  else
    let (s0, s1) := quickTwoSum s0 s2
    if ne s1 F64.zero then
      let (s1, s2) := quickTwoSum s1 s3
      if ne s2 F64.zero then
        let (s2, s3) := quickTwoSum s2 s4
        (s0, s1, s2, s3)
      else
        let (s1, s2) := quickTwoSum s1 s4
        (s0, s1, s2, F64.zero)
    else
      let (s0, s1) := quickTwoSum s0 s3
      if ne s1 F64.zero then
        let (s1, s2) := quickTwoSum s1 s4
        (s0, s1, s2, F64.zero)
      else
        let (s0, s1) := quickTwoSum s0 s4
        (s0, s1, F64.zero, F64.zero)

end Util

end Verif
