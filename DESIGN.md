# Design

Target: `Barandis/qd` (Rust, /repo): double-double (`Double`) and quad-double (`Quad`) arithmetic on top of `f64`.
The list of properties is `properties.jsonl`; which theorem proves which is in `MANIFEST.json`; the axioms of each theorem are in
`AXIOMS.md` (written by `tools/axioms.py`); the experiments with wrong programs are in `seeded/LOG.jsonl`.

## 1. Trusted base

* Lean 4.33.0's kernel, and Mathlib's definitions of ℤ, ℚ, ℝ, `Real.exp`, `Real.log`, `Real.sin`, `Real.cos`, `Real.pi`, `Real.sqrt`,
  `Complex.arg` and the inverse functions.
* Axioms: `propext`, `Classical.choice`, `Quot.sound` at most, for every theorem; no axiom is added, nothing is left unproved, and
  no compiled evaluation is used (finite facts about concrete numbers and tables are `decide +kernel`, evaluated by the kernel).
* The reading of the Rust source by the definitions in `Verif/Model`, each of which cites file and lines.
* That Rust's `f64` `+ - * / mul_add sqrt floor ceil round trunc %` and comparisons are IEEE-754 binary64 with round to nearest,
  ties to even, gradual underflow and signed zeros (`Verif/F64.lean` is an executable definition of exactly that), that
  `f64::powi` is the repeated multiplication of the model (see below) and that `as` casts saturate.
* Nothing is assumed about the platform's `ln`, `exp`, `log2`, `log10`, `atan2` and `to_string`: they are parameters
  (`structure Platform`). Where a property needs them to be reasonable the theorem has the requirement as an explicit hypothesis
  from `Verif/SpecPlatform.lean`, `Verif/SpecDisplay.lean` or `Verif/SpecAtan2.lean`, and a platform meeting it is constructed
  (`Proofs/PlatformWitness.lean`, `Proofs/TextWitness.lean`, `Proofs/Atan2Witness.lean`):
  `LibmLogs` (`ln` within relative 2^-50, `log2` within 1), `LogOk` (`floor (log10 x)` is the decimal exponent up to a relative
  2^-40 at powers of ten), `FloatText` (decimal text without exponent within half an ulp), `LibmAtan2` (`atan2` within relative 2^-50).

## 2. Layers

1. `Verif/Round.lean` – `rnd : ℚ → ℤ` rounds a rational, measured in units of 2^-1074, to 53 bits, ties to even. Mathematics only.
2. `Verif/F64.lean` – executable `f64`: NaN, ±inf, finite magnitudes as natural numbers of units of 2^-1074.
3. `Verif/Model/*.lean` – the crate, function by function, over `F64`. A function that can panic (index out of range, integer
   overflow in a debug build, `unwrap`, exhausted loop) returns `Option`; `none` is the panic. Loops are recursive functions
   with fuel; for each loop either the fuel is the length of the table it runs over or it is proved that more fuel changes nothing.
4. `Verif/Spec*.lean` – vocabulary of the statements: exact value `val : ℚ`, `Normalized`, same number up to NaN payload,
   the grammar of number texts, decimal value of a text, requirements on the platform.
5. `Verif/Proofs/*.lean` – lemmas. `Verif/Props/*.lean` – the statements `Cxx_…`, with an `example` beside each that a concrete,
   non-trivial case meets the hypotheses.

Proof technique for arithmetic: everything finite is an integer number of units; `Is x n` says that the `f64` `x` is finite and
equals `n` units; `DIs d h l` the same for a pair. `rnd` is nearest, monotone, odd, and exact on 53-bit numbers. Error-free
transforms are proved from that, then each Double operation, then composite functions by the calculus `Ap d x e` ("`d` is
normalized and within `e` of the real number `x`", `Proofs/Approx.lean`, `Proofs/Wide.lean`), and Taylor remainders, Newton steps
and argument reductions on top against Mathlib's real functions.

## 3. What is modelled

| Rust | Lean | modelled | proved about it |
|---|---|---|---|
| common/primitive.rs | Model/Primitive | all (both the FMA and the split variants) | C54, C57 |
| common/utils.rs | Model/Primitive, Model/Platform | all | C57, C58, used everywhere |
| common/display.rs | Model/Display | all | C29–C34, C61 |
| double/{add,sub,mul,div,rem,neg,comp,iter,misc}.rs | Model/Double | all; the operator forms for references and assignment are the same expression | C01–C14, C18–C21, C23, C40, C41, C91, C93, C96 |
| double/from.rs, from_str.rs | Model/Double, Model/Parse, Model/Platform | all | C15, C17, C24–C28, C60, C66 |
| double/display.rs | Model/Display | all formatting traits; the formatter is a record of its flags | C29–C34, C61 |
| double/alg.rs | Model/Alg, Model/Func | all | C35–C39, C59, C65, C67, C88, C95 |
| double/trans.rs | Model/Func | all | C42, C43, C63, C64, C92, C94, C95 |
| double/trig.rs | Model/Func | all | C44–C47, C68, C71, C92, C94 |
| double/hyper.rs | Model/Func | all | C47, C69, C70, C92, C94, C95 |
| double/aconsts.rs, common.rs | Model/Tables, Model/Double | all constants and tables, as the decimal or bit literals of the source | C48, C49, C62 |
| quad/* | Model/Quad, Model/QuadFunc, Model/Tables | arithmetic, comparison, conversions, parsing, rounding, powers, special cases and bodies of the functions | C06, C09–C11, C13, C16, C22, C24–C30, C32–C35, C37–C44, C46–C53, C55, C56, C58, C61, C72–C87, C89–C98 |
| double.rs, quad.rs (`Index`) | Model/Double, Model/Quad | all | C56 |

Not modelled: `error.rs` (only the two kinds of error are), documentation, tests and test macros, the `Debug`/`Default`/`Hash`
derives, which `two_prod` a build selects (a `cfg`; both are modelled, and C54 says when they agree), performance, release-mode
wrapping (the model panics on integer overflow as a debug build does; every such case is named in the notes).

Simplifications: `f64::powi` is modelled as LLVM's loop (repeated squaring); texts are lists of characters rather than bytes;
`Formatter::pad_integral` is modelled by its documented behaviour.

## 4. Plan per property

| Property | Proof idea |
|---|---|
| C57, C58 | integers: nearest/monotone/odd; Dekker, Knuth; the error of sum and product is representable |
| C01–C04, C36 | composition of error-free transforms and bounds on the remaining roundings |
| C05–C07 | uniqueness of the exact error; oddness of rounding; exactness |
| C08–C11 | case analysis over all classes of operands |
| C12–C14, C53 | monotonicity of rounding; lexicographic order |
| C15–C17, C66 | exactness of 32-bit splitting and renormalization; the text route by C60 |
| C18–C23 | exactness of f64 floor etc.; refutations by kernel evaluation where the code is wrong |
| C24–C28, C60 | recursion over the character list; the scanner against a declarative grammar; error per digit |
| C29–C34, C61 | lists of digits, their decimal value, carries; error of digit extraction (both types: each step keeps remainder within [0,10) up to a tracked slack; Quad steps through the slack calculus of C52) |
| C35, C37–C39, C59 | loop invariants; binary powering; case analysis |
| C40 | induction on lists |
| C42–C47 | case analysis; loop bounds (Double: FuncSpecial, Quad: QuadFuncSpecial; comparison of a Quad with a constant by QuadCompare) |
| C48, C49, C62 | kernel evaluation over the whole finite table against rational enclosures of the real constants |
| C63–C65, C67–C71 | argument reduction + Taylor remainder or Newton step, with the `Ap` calculus |
| C50 | refutation by evaluation; error analysis of the merge loop of `add` (QuadMerge, QuadAddLoop, QuadAddLoop2) |
| C52 | refutation by evaluation; exact identities (QuadDivIdent); analysis of `add`, `mul_f64` and `renorm5` without order assumptions (QuadSlack*) |
| C51 | error analysis of every two_sum/two_prod of `mul` and `renorm5`, in units of 2^-1074 (QuadEft, Renorm5, QuadMul, QuadMul2, QuadMul3) |
| C72 | the same for `sqr` (Props/QuadSqr) |
| C73 | `add`, `mul`, `sqr`, `ldexp` for operands whose components decrease only up to a slack (QuadSlack*, QuadSlMul, QuadSlSqr), an error calculus `QA` over ℝ on top (QuadAp), then as for C63 (QuadExp) |
| C74, C75 | Newton step of `ln` in the `QA` calculus with `exp` of a slack-ordered operand (`qexp_any`), the exit test for every exponent the platform may report (Pow2, QuadLn); `powf` = `exp (n ln a)` |
| C76 | long division for operands ordered up to a slack (QuadSlDiv), as a rule of the `QA` calculus (QuadApDiv) |
| C77 | exponential and reciprocal through the `QA` calculus (QuadHyper), halving exactly, quotient by `QA.div` |
| C78 | relative calculus `QR` (QuadRel): each product adds 1/2 unit of 2^-137, induction over the binary powering loop, reciprocal by `QA.div` |
| C79 | digit accumulation as an exact-then-rounded recurrence over texts of any length, power of ten by C78, final product/quotient |
| C80 | special cases by evaluation; integral values exactly; the rest through C79 applied to the platform's text of the value |
| C81 | Newton step `r + r(1/2 − (a/2) r²)` contracts quadratically in the `QA` calculus; four steps from the `f64` start |
| C82 | logarithm (C74) generalized to operands ordered up to a slack `K`, square root (C81) of an approximation (with slack for `acosh` near one, where the radicand cancels), then the sums of the code in the `QA` calculus |
| C83 | loop invariant of the sinh series in the `QA` calculus (sum, power and divisor all relative to |a|), remainder bound from `sinh_rem`, square root of 1 + sinh² for cosh, C77's exponential branch above 0.05 |
| C84 | as C68 in the `QA` calculus: what `round` computes up to 2^36 (including its wrong answer for negative halves), the three reduction steps with their sizes, Taylor loops against `SS`, table entries from C49, the eight sign combinations per function |
| C85 | as C69 in the `QA` calculus: one Newton step from the platform angle takes the error from 2^-45 to 2^-91, the second to the Quad's own rounding; the axes and diagonals by the constants; asin/acos through a square root whose operand is not tightly normalized (`qsqrt_slack`) |
| C86, C87 | the printed text as a text of the grammar (sign, digits, point), its integer and number of decimals bounded, composed with C61 and C60/C79 |
| C88 | the start value's relative error from ln, quotient, exp and text; the binomial estimate of (1+e)^n for integer n of either sign; one Newton step squares the error; reciprocal |
| C89 | the same start value; binary powering of a Newton iterate in the `QT` calculus (QuadRelW); each step squares the error up to 6/2^128 (QuadNroot); three steps; reciprocal |
| C90 | every primitive keeps a grid 2^k (`Gr`, QuadGrid), so results lie on the grid of the operands; the error bounds of C50 and C51 are below one grid step; quotients: the first digit is off by a few units of its last place, the second repairs it exactly (QuadDivInt) |
| C91 | induction on the sequence from the right; one step is C01/C03 (Double) or the approximation calculus `QA.add`, `QA.mulW` (Quad) (Folds) |
| C92 | composition of the accuracy theorems through elementary bounds on exp, log, squares and the Lipschitz constants of sin, cos and tanh (Inverse, Inverse2, QuadInverse, QuadInverse2) |
| C93 | counterexamples by kernel evaluation; closeness from C03 and C51; equality for plain f64 factors on the algebra of f64 values up to the sign of zero (MulComm) |
| C94 | composition of the accuracy theorems with the error of one computed product or sum, through the addition theorems of Mathlib (Identities, QuadIdentities, QuadHyperIdentity); addition theorems (TrigAdd) |
| C95 | accuracy theorems and elementary lower bounds on the growth of exp, log and sqrt (Separated) |
| C96 | the error bounds of single operations (C01–C04) composed through `Ap` (Laws) and, for Quads, `QA` (QuadLaws) |
| C97 | both types are within their bounds of the same real number (TypesAgree, TypesAgree2) |
| C98 | the error bounds and the range of the real function (Ranges) |
| C54 | Veltkamp/Dekker splitting |
| C55, C56 | case analysis |

A property which the code does not have is recorded as `partial`: a theorem `…_refuted` exhibits the failing input (checked by the
kernel), and `…_partial` (or a theorem whose hypotheses exclude exactly those inputs) proves the rest.

## 5. Findings (all refuted claims are theorems)

* `renorm3` (used by the division of Doubles) passes operands to `quick_two_sum` in the wrong order, so for three ordered terms it can lose the last one (`C58_renorm3_refuted`).
* `floor`/`ceil`/`round`/`trunc` compare with EPSILON and are off by one close to integers and halves (C18–C22); `%` inherits it (C23; what it does return for every ordinary pair is `C23_any_partial`, for Quads `C23_quad_any_partial`). Quad `round` at exact halves is right for a positive half in front of anything and for a negative half at the end of a negative number (`C22_round_half_partial`), wrong for others (`C22_round_refuted`).
* `ldexp` with |n| ≥ 1024 is infinite or zero (C39).
* Quad `mul_f64`: `s4 = t2 * t3` should be `t2 + t3`; Quad division of finite numbers can be NaN (C52). Quad addition loses a
  component: relative error 2^-169 (C50). Quad comparison is wrong in rounding ties (C53); `renorm4` leaves ties (C58), so
  u128 → Quad is not half-ulp normalized (C16).
* `0 * x`, `0 / x` lose the sign of zero (C09, C10); overflowing addition gives NaN and is not commutative near Ω (C05).
* Multiplication is not commutative bit for bit: `E * LN_10 ≠ LN_10 * E` for Doubles, `PI * FRAC_1_PI ≠ FRAC_1_PI * PI` for Quads, not even when one factor is a plain `f64` (C93).
* Display: 3 − 2^-60 prints `3` (so `Quad::from(Double)`, which goes through text, gives 3: C86; just below 1.1 it gives 1.01), a number just below 1.1 prints `1.010` (C29, C61), 5e-324 panics (C33), `{:.1e}` of 9.99 is
  `10.0e0` (C34).
* Parsing: `1.5e-2147483648` overflows (C24); `+inf`, `-nan` are rejected, `.`, `-`, `e5`, `_` accepted (C26, C27).
* `Quad::from(-NaN)` panics (C55); Double → Quad goes through 31 decimal digits.
* `sin`/`cos` panic at 7e85 (C44). `round` returning n − 1 for negative halves makes `reduce` return quadrant 6 – harmless
  because the code treats it as 2.
* `ln(-0)` is NaN, not −∞ (C43); `atan2` with NaN and zero/infinite operands is a number, `atan2(y, -∞)` is 0 (C46);
  `tanh(-0)` is +0 (C47); Quad `sqrt(-0)` is +0 (C37).
* Constants SQRT_2, E, LN_2, TAU, FRAC_PI_2 are not the correctly rounded pairs; TAU ≠ 2·PI (C62).
* `tanh` is NaN for every argument above 708 or below −600; `cosh` and `sinh` overflow below −600 although the results are
  representable, so `cosh` is not even there (C69).
* `asinh(±2^512)` and `acosh(2^512)` are NaN because the square overflows; `asinh` of negative arguments loses accuracy with the
  square of the argument (C70 states the bound; beyond −2^53 nothing is left, not proved).
