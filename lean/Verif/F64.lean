import Verif.Round

/-!
# Model of the Rust primitive type `f64` (IEEE-754 binary64, round to nearest even)

The repository performs every computation on `f64`. `f64` itself is not code of the repository: this file models
the parts of IEEE-754 and of the Rust standard library that the repository uses. A finite number is a sign and a
magnitude counted in units of `2^-1074` (the smallest positive subnormal); the proof field `IsMag` says that the
magnitude has at most 53 significant bits and is below `2^1024`, so a term of type `F64` is always a legal binary64
value. All functions are executable and the kernel can evaluate them.

The sign of a NaN *produced by arithmetic* is unspecified by Rust; it is the value of an opaque function.
-/

namespace Verif

/-- `m` units of `2^-1074` is a binary64 magnitude: below `2^1024` and at most 53 significant bits. -/
def IsMag (m : ℕ) : Prop := m < 2 ^ 2098 ∧ m % 2 ^ (Nat.log2 m - 52) = 0

instance (m : ℕ) : Decidable (IsMag m) := inferInstanceAs (Decidable (_ ∧ _))

/-- Rust `f64`. -/
inductive F64 where
  /-- NaN with its sign bit. -/
  | nan (neg : Bool)
  /-- Infinity with its sign bit. -/
  | inf (neg : Bool)
  /-- Finite number: sign bit and magnitude in units of `2^-1074`. -/
  | fin (neg : Bool) (mag : ℕ) (h : IsMag mag)
deriving DecidableEq, Repr

/-- Nearest 53-bit value to `num/den` units, ties to even, no upper exponent limit. -/
def roundMag (num den : ℕ) : ℕ :=
  let k := Nat.log2 (num / den) - 52
  let d := den * 2 ^ k
  let q := num / d
  let r := num % d
  (if 2 * r < d then q else if d < 2 * r then q + 1 else if q % 2 = 0 then q else q + 1) * 2 ^ k

theorem expo_div (num : ℕ) {den : ℕ} (_hd : 0 < den) : expo ((num : ℚ) / den) = Nat.log2 (num / den) - 52 := by
  unfold expo
  rw [abs_of_nonneg (by positivity), Nat.floor_div_eq_div]

theorem rnd_eq_roundMag (num : ℕ) {den : ℕ} (hd : 0 < den) : rnd ((num : ℚ) / den) = (roundMag num den : ℤ) := by
  unfold rnd roundMag
  rw [expo_div num hd]
  generalize Nat.log2 (num / den) - 52 = k
  have hD : 0 < den * 2 ^ k := by positivity
  have e1 : (num : ℚ) / den / 2 ^ k = (num : ℚ) / ((den * 2 ^ k : ℕ) : ℚ) := by push_cast; rw [div_div]
  simp only []
  rw [e1]
  generalize den * 2 ^ k = D at *
  have hDq : (0:ℚ) < D := by exact_mod_cast hD
  push_cast
  congr 1
  have hfl : ⌊(num:ℚ) / (D:ℚ)⌋ = ((num / D : ℕ) : ℤ) := by
    have := Rat.floor_intCast_div_natCast (num : ℤ) D
    push_cast at this ⊢
    exact this
  have hfr : Int.fract ((num:ℚ) / (D:ℚ)) = ((num % D : ℕ) : ℚ) / D := by
    unfold Int.fract
    rw [hfl]
    have := Nat.div_add_mod num D
    have h2 : (num : ℚ) = D * ((num / D : ℕ) : ℚ) + ((num % D : ℕ) : ℚ) := by exact_mod_cast this.symm
    have h3 : ((((num / D : ℕ)) : ℤ) : ℚ) = ((num / D : ℕ) : ℚ) := by norm_cast
    rw [h3]
    field_simp
    linarith
  unfold rne
  rw [hfl, hfr]
  have c1 : (2 * (((num % D : ℕ) : ℚ) / D) < 1) ↔ 2 * (num % D) < D := by
    rw [← mul_div_assoc, div_lt_one hDq]; exact_mod_cast Iff.rfl
  have c2 : (1 < 2 * (((num % D : ℕ) : ℚ) / D)) ↔ D < 2 * (num % D) := by
    rw [← mul_div_assoc, one_lt_div hDq]; exact_mod_cast Iff.rfl
  simp only [c1, c2]
  have c3 : (((num / D : ℕ) : ℤ) % 2 = 0) ↔ num / D % 2 = 0 := by omega
  simp only [c3]
  split_ifs <;> push_cast <;> rfl

theorem expo_natCast (m : ℕ) : expo (m : ℚ) = Nat.log2 m - 52 := by
  unfold expo; rw [abs_of_nonneg (by positivity)]; simp

theorem isMag_iff (m : ℕ) : IsMag m ↔ (m < 2 ^ 2098 ∧ Rep (m : ℤ)) := by
  unfold IsMag
  rw [rep_iff]
  push_cast
  rw [expo_natCast]
  have : ((2:ℤ) ^ (Nat.log2 m - 52) ∣ (m : ℤ)) ↔ (2 ^ (Nat.log2 m - 52) ∣ m) := by
    exact_mod_cast Int.natCast_dvd_natCast (m := 2 ^ (Nat.log2 m - 52)) (n := m)
  rw [this, Nat.dvd_iff_mod_eq_zero]

theorem isMag_roundMag {num den : ℕ} (hd : 0 < den) (h : roundMag num den < 2 ^ 2098) : IsMag (roundMag num den) := by
  rw [isMag_iff]
  refine ⟨h, ?_⟩
  rw [← rnd_eq_roundMag num hd]
  exact rep_rnd _

/-- IEEE rounding of the signed exact value `±num/den` units: overflow goes to infinity. -/
def F64.ofRound (neg : Bool) (num den : ℕ) : F64 :=
  if hd : 0 < den then
    if h : roundMag num den < 2 ^ 2098 then .fin neg (roundMag num den) (isMag_roundMag hd h) else .inf neg
  else .nan false

/-- Sign bit of a NaN produced by an arithmetic operation: unspecified. -/
opaque nanSign (op : ℕ) (a b c : F64) : Bool := false

theorem isMag_zero : IsMag 0 := by decide +kernel

namespace F64

/-- `0.0` -/
def zero : F64 := .fin false 0 isMag_zero
/-- `-0.0` -/
def negZero : F64 := .fin true 0 isMag_zero
/-- `f64::NAN` -/
def NAN : F64 := .nan false
/-- `f64::INFINITY` -/
def INFINITY : F64 := .inf false
/-- `f64::NEG_INFINITY` -/
def NEG_INFINITY : F64 := .inf true

/-- An integer converted by `as f64` / `f64::from` (round to nearest even). -/
def ofInt (n : ℤ) : F64 := ofRound (decide (n < 0)) (n.natAbs * 2 ^ 1074) 1

/-- A decimal literal `n * 10^e`, correctly rounded as by rustc; a leading minus sign is `neg`. -/
def ofDec (neg : Bool) (n : ℕ) (e : ℤ) : F64 :=
  if 0 ≤ e then ofRound neg (n * 10 ^ e.toNat * 2 ^ 1074) 1 else ofRound neg (n * 2 ^ 1074) (10 ^ (-e).toNat)

/-- `is_nan` -/
def isNan : F64 → Bool
  | .nan _ => true
  | _ => false

/-- `is_infinite` -/
def isInfinite : F64 → Bool
  | .inf _ => true
  | _ => false

/-- `is_finite` -/
def isFinite : F64 → Bool
  | .fin _ _ _ => true
  | _ => false

/-- `is_sign_negative` -/
def isSignNegative : F64 → Bool
  | .nan s => s
  | .inf s => s
  | .fin s _ _ => s

/-- `is_sign_positive` -/
def isSignPositive (a : F64) : Bool := !a.isSignNegative

/-- `std::num::FpCategory` -/
inductive Category where
  | nan | infinite | zero | subnormal | normal
deriving DecidableEq, Repr

/-- `classify` -/
def classify : F64 → Category
  | .nan _ => .nan
  | .inf _ => .infinite
  | .fin _ m _ => if m = 0 then .zero else if m < 2 ^ 52 then .subnormal else .normal

/-- Unary minus. -/
def neg : F64 → F64
  | .nan s => .nan !s
  | .inf s => .inf !s
  | .fin s m h => .fin (!s) m h

/-- `abs` -/
def abs : F64 → F64
  | .nan _ => .nan false
  | .inf _ => .inf false
  | .fin _ m h => .fin false m h

/-- Signed exact sum `±A/den + ±B/den`, rounded; an exact zero sum is `+0` unless both signs are minus. -/
def ofSum (sa : Bool) (A : ℕ) (sb : Bool) (B : ℕ) (den : ℕ) : F64 :=
  if sa = sb then ofRound sa (A + B) den
  else if B < A then ofRound sa (A - B) den
  else if A < B then ofRound sb (B - A) den
  else zero

/-- `a + b` -/
def add (a b : F64) : F64 :=
  match a, b with
  | .nan _, _ => .nan (nanSign 0 a b b)
  | _, .nan _ => .nan (nanSign 0 a b b)
  | .inf s, .inf t => if s = t then .inf s else .nan (nanSign 0 a b b)
  | .inf s, .fin _ _ _ => .inf s
  | .fin _ _ _, .inf t => .inf t
  | .fin s m _, .fin t n _ => ofSum s m t n 1

/-- `a - b` -/
def sub (a b : F64) : F64 := add a (neg b)

/-- `a * b` -/
def mul (a b : F64) : F64 :=
  match a, b with
  | .nan _, _ => .nan (nanSign 2 a b b)
  | _, .nan _ => .nan (nanSign 2 a b b)
  | .inf s, .inf t => .inf (s != t)
  | .inf s, .fin t n _ => if n = 0 then .nan (nanSign 2 a b b) else .inf (s != t)
  | .fin s m _, .inf t => if m = 0 then .nan (nanSign 2 a b b) else .inf (s != t)
  | .fin s m _, .fin t n _ => ofRound (s != t) (m * n) (2 ^ 1074)

/-- `a / b` -/
def div (a b : F64) : F64 :=
  match a, b with
  | .nan _, _ => .nan (nanSign 3 a b b)
  | _, .nan _ => .nan (nanSign 3 a b b)
  | .inf _, .inf _ => .nan (nanSign 3 a b b)
  | .inf s, .fin t _ _ => .inf (s != t)
  | .fin s _ _, .inf t => .fin (s != t) 0 isMag_zero
  | .fin s m _, .fin t n _ =>
    if n = 0 then (if m = 0 then .nan (nanSign 3 a b b) else .inf (s != t)) else ofRound (s != t) (m * 2 ^ 1074) n

/-- `a.mul_add(b, c)`: `a * b + c` with a single rounding. -/
def fma (a b c : F64) : F64 :=
  match a, b, c with
  | .nan _, _, _ => .nan (nanSign 4 a b c)
  | _, .nan _, _ => .nan (nanSign 4 a b c)
  | _, _, .nan _ => .nan (nanSign 4 a b c)
  | .inf s, .inf t, c => infPlus (s != t) c
  | .inf s, .fin t n _, c => if n = 0 then .nan (nanSign 4 a b c) else infPlus (s != t) c
  | .fin s m _, .inf t, c => if m = 0 then .nan (nanSign 4 a b c) else infPlus (s != t) c
  | .fin _ _ _, .fin _ _ _, .inf u => .inf u
  | .fin s m _, .fin t n _, .fin u l _ => ofSum (s != t) (m * n) u (l * 2 ^ 1074) (2 ^ 1074)
where
  /-- infinity plus a non-NaN number -/
  infPlus (s : Bool) (c : F64) : F64 :=
    match c with
    | .inf u => if s = u then .inf s else .nan (nanSign 4 a b c)
    | _ => .inf s

/-- Order key of a non-NaN number: its signed number of units, infinities beyond every finite number. -/
def key : F64 → Option ℤ
  | .nan _ => none
  | .inf s => some (if s then -2 ^ 2098 else 2 ^ 2098)
  | .fin s m _ => some (if s then -(m : ℤ) else m)

/-- `a == b` -/
def eq (a b : F64) : Bool :=
  match key a, key b with
  | some x, some y => decide (x = y)
  | _, _ => false

/-- `a < b` -/
def lt (a b : F64) : Bool :=
  match key a, key b with
  | some x, some y => decide (x < y)
  | _, _ => false

/-- `a <= b` -/
def le (a b : F64) : Bool :=
  match key a, key b with
  | some x, some y => decide (x ≤ y)
  | _, _ => false

/-- `a > b` -/
def gt (a b : F64) : Bool := lt b a

/-- `a >= b` -/
def ge (a b : F64) : Bool := le b a

/-- `a != b` -/
def ne (a b : F64) : Bool := !(eq a b)

/-- `a.partial_cmp(&b)` -/
def partialCmp (a b : F64) : Option Ordering :=
  match key a, key b with
  | some x, some y => some (compare x y)
  | _, _ => none

/-- Round a magnitude in units to a whole number, given the choice of the integer from quotient and remainder. -/
def toWhole (f : Bool → ℕ → ℕ → ℕ) : F64 → F64
  | .fin s m _ => ofRound s (f s (m / 2 ^ 1074) (m % 2 ^ 1074) * 2 ^ 1074) 1
  | x => x

/-- `floor` -/
def floor : F64 → F64 := toWhole fun s q r => if s && r != 0 then q + 1 else q
/-- `ceil` -/
def ceil : F64 → F64 := toWhole fun s q r => if !s && r != 0 then q + 1 else q
/-- `trunc` -/
def trunc : F64 → F64 := toWhole fun _ q _ => q
/-- `round`: half away from zero -/
def round : F64 → F64 := toWhole fun _ q r => if 2 ^ 1074 ≤ 2 * r then q + 1 else q
/-- `fract` (in `std`: `self - self.trunc()`) -/
def fract (a : F64) : F64 := sub a (trunc a)

/-- `a % b` on `f64` (C `fmod`: exact, sign of `a`). -/
def rem (a b : F64) : F64 :=
  match a, b with
  | .nan _, _ => .nan (nanSign 5 a b b)
  | _, .nan _ => .nan (nanSign 5 a b b)
  | .inf _, _ => .nan (nanSign 5 a b b)
  | a, .inf _ => a
  | .fin s m _, .fin _ n _ => if n = 0 then .nan (nanSign 5 a b b) else ofRound s (m % n) 1

/-- Integer square root by bisection from bit `b` downwards: `r` is the part found so far. -/
def isqrtAux (n : ℕ) : ℕ → ℕ → ℕ
  | 0, r => r
  | b + 1, r => if (r + 2 ^ b) * (r + 2 ^ b) ≤ n then isqrtAux n b (r + 2 ^ b) else isqrtAux n b r

/-- Integer square root. -/
def isqrt (n : ℕ) : ℕ := isqrtAux n (Nat.log2 n / 2 + 1) 0

/-- `sqrt`, correctly rounded. With `N = m * 2^1074`, `√N` units is the exact root; it is always in the normal range. -/
def sqrt : F64 → F64
  | .nan s => .nan s
  | .inf false => .inf false
  | .inf true => .nan (nanSign 6 (.inf true) zero zero)
  | .fin s m h =>
    if m = 0 then .fin s m h
    else if s then .nan (nanSign 6 (.fin s m h) zero zero)
    else
      let N := m * 2 ^ 1074
      let k := Nat.log2 (isqrt N) - 52
      let q := isqrt (N / 4 ^ k)
      let t := (2 * q + 1) * (2 * q + 1) * 4 ^ k
      ofRound false ((if 4 * N < t then q else if t < 4 * N then q + 1 else if q % 2 = 0 then q else q + 1) * 2 ^ k) 1

/-- Truncation to an integer (for the saturating casts); NaN gives 0. The bounds saturate. -/
def toIntSat (lo hi : ℤ) : F64 → ℤ
  | .nan _ => 0
  | .inf s => if s then lo else hi
  | .fin s m _ =>
    let t : ℤ := ((m / 2 ^ 1074 : ℕ) : ℤ)
    max lo (min hi (if s then -t else t))

/-- `a as i32` -/
def toI32 : F64 → ℤ := toIntSat (-2 ^ 31) (2 ^ 31 - 1)
/-- `a as u32`, `a as usize` etc. -/
def toU (bits : ℕ) : F64 → ℤ := toIntSat 0 (2 ^ bits - 1)
/-- `a as i64` etc. -/
def toI (bits : ℕ) : F64 → ℤ := toIntSat (-2 ^ (bits - 1)) (2 ^ (bits - 1) - 1)

/-- Square-and-multiply loop of compiler-rt's `__powidf2`; `n` halves each round, `fuel` bounds the rounds. -/
def powiAux : ℕ → ℕ → F64 → F64 → F64
  | 0, _, _, r => r
  | fuel + 1, n, a, r =>
    let r' := if n % 2 = 1 then mul r a else r
    if n / 2 = 0 then r' else powiAux fuel (n / 2) (mul a a) r'

/-- `a.powi(n)` for `n : i32` (compiler-rt `__powidf2`). -/
def powi (a : F64) (n : ℤ) : F64 :=
  let r := powiAux 32 n.natAbs a (ofInt 1)
  if n < 0 then div (ofInt 1) r else r

/-- The exact value of a finite `f64`, in units of `2^-1074`. Zero for NaN and infinities. -/
def units : F64 → ℤ
  | .fin s m _ => if s then -(m : ℤ) else m
  | _ => 0

/-- The exact value of a finite `f64` as a rational number. Zero (meaningless) for NaN and infinities. -/
def toRat (a : F64) : ℚ := (a.units : ℚ) / 2 ^ 1074

end F64

attribute [irreducible] F64.ofDec

end Verif
