#!/usr/bin/env python3
"""Writes /verif/properties.jsonl (kept as a script so that entries stay uniform)."""
import json, os
P=[]
def p(id,title,statement,quantifier,why,anchors): P.append(dict(id=id,title=title,statement=statement,quantifier=quantifier,why_tests_cant=why,anchors=anchors))
INF="There are 2^128 (Double) or 2^256 (Quad) operands per argument; tests sample a few dozen, and the failing cases sit at rounding ties, cancellations and binade boundaries."
p("C01","Double + Double is normalized and accurate","For finite normalized a, b whose sum does not overflow, `a + b` is finite, normalized (its first component is the f64 nearest to its exact value) and differs from the exact sum by at most 2^-103 of the exact sum (so exact cancellation is exact).","all pairs of finite normalized Doubles below the overflow range",INF,["src/double/add.rs: Add::add","src/common/primitive.rs: two_sum, quick_two_sum","src/common/utils.rs: renorm2"])
p("C02","Double - Double is normalized and accurate","Same as C01 for `a - b`; moreover `a - b` gives the same Double as `a + (-b)`.","all pairs of finite normalized Doubles below the overflow range",INF,["src/double/sub.rs: Sub::sub","src/common/primitive.rs: two_diff"])
p("C03","Double * Double is normalized and accurate","For finite normalized a, b whose product does not overflow, `a * b` is normalized and differs from the exact product by at most 2^-102 of it plus a few units of the smallest subnormal.","all pairs of finite normalized Doubles whose product stays below the overflow range",INF,["src/double/mul.rs: Mul::mul","src/common/primitive.rs: two_prod"])
p("C04","Double / Double is normalized and accurate","For finite normalized a and nonzero b in a range where no intermediate over- or underflows, `a / b` is normalized and has relative error below 2^-100.","all such pairs",INF,["src/double/div.rs: Div::div, mul_f64","src/common/utils.rs: renorm3"])
p("C05","Addition of Doubles commutes","`a + b` and `b + a` are the same number (bit for bit, or both NaN) for all operands including infinities, NaN, unnormalized and overflowing values.","all pairs of Doubles",INF,["src/double/add.rs"])
p("C06","Negation symmetry of arithmetic","-(-a) is a; (-a) + (-b) equals -(a + b); (-a) * b and a * (-b) equal -(a * b); (-a) / b equals -(a / b) as numbers (zero results compare equal).","all Doubles",INF,["src/double/neg.rs","src/double/add.rs","src/double/mul.rs","src/double/div.rs"])
p("C07","Arithmetic identities","For every finite normalized a: a + 0 = a, 0 + a = a, a - a = 0, a * 1 = a, 1 * a = a.","all finite normalized Doubles",INF,["src/double/add.rs","src/double/sub.rs","src/double/mul.rs"])
p("C08","Infinities and NaN in + and -","With a NaN or infinite operand, Double + and - return what f64 + and - return on the first components (NaN, +inf or -inf), e.g. inf - inf is NaN.","all pairs of Doubles with at least one non-finite operand","The decision tree has many branches in two operands; tests check one literal per branch, not that the tree agrees with IEEE on all inputs.",["src/double/add.rs: pre_add","src/double/sub.rs: pre_sub","src/quad/add.rs: pre_add"])
p("C09","Infinities, zeros and NaN in *","With a NaN, infinite or zero operand, `a * b` classifies as f64 multiplication of the first components does, including the sign of the result.","all pairs with a special operand","A decision tree in two operands and their signs; tests use one literal per branch.",["src/double/mul.rs: pre_mul","src/quad/mul.rs: pre_mul"])
p("C10","Infinities, zeros and NaN in /","With a NaN, infinite or zero operand, `a / b` classifies as f64 division of the first components does, including the sign of the result (x/0 = ±inf, 0/0 = NaN, inf/inf = NaN, x/inf = ±0).","all pairs with a special operand","A decision tree in two operands and their signs; tests use one literal per branch.",["src/double/div.rs: pre_div","src/quad/div.rs: pre_div"])
p("C11","NaN propagates","If any operand of + - * / % is NaN the result is NaN, and a sum or product over an iterator containing a NaN anywhere is NaN, for Double and Quad.","all operands; all finite sequences","Sequences of every length and NaN position.",["src/double/iter.rs","src/quad/iter.rs","src/double/rem.rs","src/quad/rem.rs"])
p("C12","Comparison of Doubles is numeric comparison","For normalized finite Doubles, a < b, a <= b, a == b, a > b hold exactly when the exact values a[0]+a[1] compare that way.","all pairs of finite normalized Doubles",INF,["src/double/comp.rs"])
p("C13","PartialEq and PartialOrd agree with each other","For all Doubles and Quads (any components, NaN included): a == b iff partial_cmp is Some(Equal); partial_cmp is antisymmetric under swapping; < is transitive; NaN in the first component makes every comparison false.","all pairs / triples of Doubles and of Quads","Relational laws over triples of 128/256-bit values.",["src/double/comp.rs","src/quad/comp.rs"])
p("C14","Normalized form of a Double is unique","Two normalized finite Doubles with the same exact value have equal components.","all pairs of finite normalized Doubles","Quantifies over all representations of all values.",["src/lib.rs: Normalization","src/common/utils.rs: renorm2"])
p("C15","Integer to Double conversion is exact","Double::from of every i8..i32, u8..u32, i64 and u64 is normalized and its exact value is the integer (including i64::MIN and u64::MAX).","all values of each integer type","2^64 inputs; the hard ones straddle the 53-bit boundary and the two 32-bit halves.",["src/double/from.rs: from_u64, from_i64, from_int_impl"])
p("C16","Integer to Quad conversion is exact","Quad::from of every integer type including i128/u128 has exactly the integer's value and is normalized.","all values of each integer type","2^128 inputs; carries between the four 32-bit limbs.",["src/quad/from.rs: from_u64, from_i64, from_u128, from_i128","src/common/utils.rs: renorm4"])
p("C17","Conversions back to f64","f64::from(d) of a normalized Double is the f64 nearest to d's exact value; tuple conversions return the components and converting back gives the same number.","all Doubles / Quads",INF,["src/double/from.rs","src/quad/from.rs"])
p("C18","floor is the largest integer not above","Double::floor returns the largest integer value <= self.","all finite normalized Doubles",INF,["src/double/misc.rs: floor"])
p("C19","ceil is the smallest integer not below","Double::ceil returns the smallest integer value >= self.","all finite normalized Doubles",INF,["src/double/misc.rs: ceil"])
p("C20","round is nearest, halves away from zero","Double::round returns the nearest integer, halves away from zero.","all finite normalized Doubles",INF,["src/double/misc.rs: round"])
p("C21","trunc and fract split a number","trunc drops the fraction (towards zero) and fract is what remains: trunc(x) + fract(x) = x, |fract(x)| < 1 with the sign of x.","all finite normalized Doubles",INF,["src/double/misc.rs: trunc, fract"])
p("C22","Quad floor, ceil, round, trunc","Quad::floor/ceil/round/trunc return the integer named by their documentation.","all finite normalized Quads",INF,["src/quad/misc.rs"])
p("C23","Remainder is a floored remainder","a % b is a - b*floor(a/b): for integer valued operands it is the exact mathematical floored remainder, with the sign of b.","all pairs of integer valued Doubles or Quads in range",INF,["src/double/rem.rs","src/quad/rem.rs"])
p("C24","The parser accepts exactly its grammar","For every Unicode string, parsing returns Ok exactly when the trimmed lower-cased text is nan/inf/infinity/-inf/-infinity or is built from digits, underscores, at most one point, at most one sign before the first digit, and an optional e followed by an i32; otherwise it returns Err; it never panics or slices inside a character.","all strings","Unboundedly many strings.",["src/double/from_str.rs","src/quad/from_str.rs"])
p("C25","Parsing integers is exact","A string of decimal digits (with leading zeros or underscores) whose value is below 2^102 (so every integer of up to 30 digits) parses to a normalized Double whose exact value is that integer.","all digit strings with value below 2^102","10^30 strings of unbounded length.",["src/double/from_str.rs: from_str"])
p("C26","A leading sign negates","If s has no sign and parses to x then '-' + s parses to -x and '+' + s parses to x.","all strings","Unboundedly many strings.",["src/double/from_str.rs","src/quad/from_str.rs"])
p("C27","Underscores, case and surrounding blanks do not matter","Removing underscores from the mantissa, changing ASCII case, or adding white space around the text does not change the result of parsing.","all strings","Unboundedly many strings.",["src/double/from_str.rs","src/quad/from_str.rs"])
p("C28","Parse errors are classified","The error is Empty exactly when the trimmed string is empty, and Invalid for every other rejected string; Double::from(&str) is NaN exactly when parsing fails or gives NaN.","all strings","Unboundedly many strings.",["src/double/from_str.rs: pre_from_str","src/error.rs","src/double/from.rs: From<&str>"])
p("C29","Precision gives exactly that many decimals","For every finite value, precision p > 0 prints exactly p characters after the decimal point, p = 0 prints no point (fixed and exponential form).","all finite values and all p","All values times all precisions.",["src/common/display.rs: adjust_prec, place_decimal","src/double/display.rs","src/quad/display.rs"])
p("C30","Width, fill and alignment","The formatted text has max(width, natural length) characters; the natural text appears unchanged, with padding on the side(s) named by the alignment, and sign-aware zero padding goes between sign and digits.","all values and all format specifications","All values times all widths, fills, alignments.",["src/common/display.rs: align_and_fill"])
p("C31","Shortening digits rounds half up","Cutting the digit string to a precision rounds its decimal value half-up, with carries propagating through runs of nines (a carry out of the first digit shows as 10).","all digit strings and lengths","Carry chains of every length.",["src/common/display.rs: round_and_trunc, adjust_prec"])
p("C32","Sign and special value text","NaN, infinities and zeros print as NaN / inf / 0 (0.000 with precision), preceded by '-' exactly when the sign bit is set and by '+' exactly when requested and non negative.","all values and format specifications","All values times all flags.",["src/double/display.rs: push_sign","src/common/display.rs: push_nan, push_inf, push_zero"])
p("C33","Formatting never panics","Display and LowerExp/UpperExp return a string for every Double and every Quad.","all Doubles / Quads and format specifications",INF,["src/double/display.rs","src/quad/display.rs","src/common/display.rs"])
p("C34","Exponential form has one digit before the point","{:e} prints d.ddd with a single non-zero leading digit, also after rounding to a precision.","all finite non-zero values and all precisions","Fails only for values that round up across a power of ten.",["src/double/display.rs: push_digits_exp, LowerExp","src/quad/display.rs: push_digits_exp, LowerExp","src/common/display.rs: place_decimal"])
p("C35","powi is repeated multiplication","powi(0) = 1, powi(1) = x, powi(-n) = 1/powi(n), powi of integers is exact while the result fits, and the sign of the result follows the parity of n; special bases follow IEEE pown.","all Doubles and all i32 exponents","2^128 bases times 2^32 exponents.",["src/double/alg.rs: powi, pre_powi","src/quad/alg.rs: powi"])
p("C36","sqr squares","sqr(x) is normalized, never negative, and within 2^-102 of x*x.","all finite normalized Doubles",INF,["src/double/alg.rs: sqr"])
p("C37","sqrt domain and special values","sqrt of a negative number is NaN, of ±0 is ±0 (Double), of inf is inf, of NaN is NaN.","all Doubles / Quads",INF,["src/double/alg.rs: sqrt, pre_sqrt","src/quad/alg.rs"])
p("C38","nroot/cbrt domain and special values","nroot(0) is NaN, nroot(1) is x, even roots of negative numbers are NaN, nroot(2) is sqrt, and zeros/infinities follow IEEE rootn; cbrt is nroot(3).","all Doubles / Quads and all i32 n","All operands times all n.",["src/double/alg.rs: nroot, pre_nroot, cbrt","src/quad/alg.rs"])
p("C39","ldexp scales exactly","ldexp(x, n) multiplies the exact value by 2^n whenever the result is in range, and preserves normalization.","all finite Doubles and i32 n",INF,["src/double/alg.rs: ldexp","src/double/common.rs: mul_pwr2"])
p("C40","Sum and Product over iterators","sum() is the left fold of + from 0 and product() the left fold of * from 1 (same for references); sums of integer-valued items are exact as long as the absolute values of the items add up to at most 2^104 (Double) or 2^102 (Quad).","all finite sequences","Sequences of every length.",["src/double/iter.rs","src/quad/iter.rs"])
p("C41","Classification predicates partition","Exactly one of nan / infinite / zero / subnormal / normal holds, is_finite is the complement of nan or infinite, and exactly one of is_sign_negative / is_sign_positive holds; abs clears the sign and keeps the magnitude; signum is ±1 by sign bit.","all Doubles / Quads",INF,["src/double/misc.rs","src/quad/misc.rs"])
p("C42","exp: range, special values, loop bounds","exp of a Double is 0 below -600, inf above 708, NaN at NaN, 1 at 0, E at 1, and its Taylor loop performs at most 5 steps and stays inside the table. The same for Quad with the limits -470, 709 and 9 steps.","all Doubles / Quads",INF,["src/double/trans.rs: exp, pre_exp","src/quad/trans.rs: exp, pre_exp"])
p("C43","ln/log special values and loop bounds","ln is NaN for negative, -inf at 0, inf at inf, 0 at 1; the Newton loop ends after at most 7 iterations; log10/log2/log are quotients of ln. Both for Double and Quad.","all Doubles / Quads",INF,["src/double/trans.rs: ln, pre_ln, log, log2, log10","src/quad/trans.rs: ln, pre_ln, log, log2, log10"])
p("C44","sin/cos/sin_cos/tan never index outside their tables","The argument reduction yields |k| <= 4 (Double) / 256 (Quad), so table lookups never panic.","all finite Doubles / Quads",INF,["src/double/trig.rs: reduce, sin, cos, sin_cos","src/quad/trig.rs"])
p("C45","sin_cos agrees with sin and cos","For every argument of magnitude at most 2^45, sin_cos(x) returns a pair; it is component for component what sin(x) and cos(x) return when x is at least a tenth away from every multiple of pi/2, and within (|x| + 29) 2^-101 of them everywhere.","all normalized Doubles in range",INF,["src/double/trig.rs: sin, cos, sin_cos, reduce"])
p("C46","atan2 special values","atan2 follows its documented table of special cases (axes, infinities, NaN, diagonals).","all pairs of Doubles / Quads","Decision tree over two operands.",["src/double/trig.rs: pre_atan2","src/quad/trig.rs"])
p("C47","Inverse and hyperbolic function domains","asin/acos are NaN outside [-1,1], acosh below 1, atanh outside (-1,1); sinh/cosh/tanh special values; asin(±1), acos(±1) exact constants. For Double and Quad.","all Doubles / Quads",INF,["src/double/trig.rs: pre_asin, pre_acos","src/double/hyper.rs","src/quad/trig.rs: pre_asin, pre_acos","src/quad/hyper.rs"])
p("C48","Published constants name the real numbers they claim","All finite associated constants are normalized. Every mathematical constant differs from the real number it names by at most 2^-104 (Double) or 2^-214 (Quad) relative; its first component (Double) or first three components (Quad) are the correctly rounded ones; Double and Quad agree in the first component.","all constants in the tables, against the real numbers","Tests compare strings through the crate's own parser and printer.",["src/double/aconsts.rs","src/quad/aconsts.rs"])
p("C49","Tables of reciprocal factorials, sines and cosines","The internal tables used by exp, sin, cos, sinh and cosh are accurate: entry i of the reciprocal factorials is 1/(i+3)! to a relative error of 2^-107 (Double) and 2^-213 (Quad), the sines and cosines of k*pi/16 (Double) and k*pi/1024 (Quad) are within relative 2^-105 and 2^-210 of the real ones, and every entry is normalized.","all table entries","Tables are only exercised indirectly.",["src/double/common.rs","src/quad/common.rs"])
p("C50","Quad addition: accuracy, identities, symmetry","Quad a + b and a - b are accurate to about 2^-208 of the larger operand; a + 0 = a; a - a = 0; -(a+b) = (-a)+(-b); a - b = a + (-b).","all Quads",INF,["src/quad/add.rs","src/quad/sub.rs","src/common/utils.rs: accumulate, renorm4"])
p("C51","Quad multiplication is accurate","For operands whose components decrease (in particular normalized ones) and whose leading components have a product between 2^-770 and 2^1010 in magnitude, a * b is finite and differs from the exact product by a relative error of at most 2^-204.","all pairs of normalized Quads in range",INF,["src/quad/mul.rs","src/common/utils.rs: three_three_sum, six_three_sum, nine_two_sum, renorm5"])
p("C52","Quad division","a / 1 = a, a / a = 1 and 0 / b = 0 component by component (magnitudes up to 2^970); for operands whose components decrease (in particular normalized ones), with the dividend between 2^-800 and 2^198 and the quotient between 2^-800 and 2^1000 in magnitude, a / b is finite and differs from the exact quotient by a relative error of at most 2^-130; no finiteness is promised outside that range (a finite quotient of Quads near 2^610 can be NaN).","all pairs of Quads in range",INF,["src/quad/div.rs: div, mul_f64","src/common/utils.rs: renorm5, three_two_sum, three_three_sum"])
p("C53","Comparison of Quads is numeric comparison","For normalized Quads comparison of components in order is comparison of exact values.","all pairs of normalized Quads",INF,["src/quad/comp.rs"])
p("C54","The no-FMA product agrees with the FMA product","For normal operands below 2^1023 whose product is between 2^-968 and 2^1020 in magnitude, the split-based two_prod/two_sqr (build without fused multiply-add) return the same pair as the FMA-based ones; a build choice cannot change any result there.","all pairs of f64 in range",INF,["src/common/primitive.rs: split, two_prod, two_sqr"])
p("C55","Double to Quad conversion","Quad::from(Double) returns a value for every Double (never panics) and NaN for NaN.","all Doubles",INF,["src/quad/from.rs: From<Double>"])
p("C56","Indexing","d[i] returns component i for i < 2 (Double) / i < 4 (Quad) and panics for every other index.","all indices","All usize values.",["src/double.rs: Index","src/quad.rs: Index"])
p("C57","Error-free transforms","two_sum, two_diff (all operands), quick_two_sum (|a| >= |b|) and two_prod/two_sqr return the correctly rounded result and the exact rounding error, absent overflow (and underflow for products).","all pairs of f64",INF,["src/common/primitive.rs"])
p("C58","Renormalization preserves the value and normalizes","renorm2/4/5 and the n-ary helper sums keep the exact sum of their inputs (up to the documented discarded tail) and return components each at most half an ulp of the previous one.","all inputs of decreasing magnitude",INF,["src/common/utils.rs"])
p("C59","powi is accurate","For integer exponents n >= 1 powi(n) differs from the exact power by a relative error proportional to the number of multiplications (2n * 2^-102), and 1/x^n likewise for negative n, while intermediate powers stay away from overflow and underflow.","all normalized Doubles and all exponents in range",INF,["src/double/alg.rs: powi, sqr","src/double/mul.rs","src/double/div.rs"])
p("C60","Parsing decimal text is accurate","A number text with digits forming N, L digits, and decimal exponent k (exponent minus number of fraction digits) parses to a normalized Double within (L + abs(k) + 2) * 2^-99 relative error of +-N * 10^k, when abs(k) <= 288, N <= 2^1010 and the value lies between 2^-960 and 2^1020.","all texts of the grammar in that range, of any length","Unboundedly many strings; rounding errors of each digit step and of the power of ten accumulate.",["src/double/from_str.rs: from_str","src/double/alg.rs: powi","src/double/mul.rs","src/double/add.rs"])
p("C61","Formatting shows the value","The decimal number printed by {} or {:e} differs from the exact value of the number by less than one unit in the 30th significant digit (Double; 61st for Quad), then rounded half up to the precision asked for.","all finite Doubles / Quads and format specifications","Digit extraction errors depend on every bit of the number.",["src/double/display.rs: extract_digits, push_digits_fixed, push_digits_exp","src/quad/display.rs: extract_digits","src/common/display.rs"])
p("C62","Double constants are correctly rounded pairs","Every mathematical Double constant is the pair (nearest f64, nearest f64 of the remainder) of the real number it names; in particular TAU is exactly 2 PI.","all Double constants, against the real numbers","Tests compare strings of 31 digits, less than the precision of the pair.",["src/double/aconsts.rs"])
p("C63","exp is accurate","For every Double a whose leading component is between -600 and 708, exp(a) is a normalized, positive Double whose relative error with respect to the real number e^a is at most (|a| + 10) * 2^-102.","all normalized Doubles in range","Argument reduction, a data-dependent Taylor loop and nine squarings accumulate rounding errors that depend on every bit of the operand.",["src/double/trans.rs: exp"])
p("C64","ln is accurate","For every Double a with -707 <= ln a <= 599, ln(a) is a normalized Double within (2 |ln a| + 13) * 2^-102 of the real logarithm, provided the platform's f64 ln and log2 are themselves reasonable; log10, log2 and log inherit the accuracy.","all normalized Doubles in range, all platforms whose f64 logarithm is accurate to 2^-50","A Newton iteration whose exit test is data dependent, started from a platform function.",["src/double/trans.rs: ln, log10, log2, log"])
p("C65","powf is accurate and has its documented special values","powf(a, n) for a > 0 is a^n up to a relative error proportional to |n ln a| 2^-101; zero and infinite operands give the documented values.","all normalized Doubles in range, all accurate platforms",INF,["src/double/alg.rs: powf, pre_powf"])
p("C66","f64 to Double conversion","Double::from(x) keeps NaN, infinities, signed zeros and every f64 with no fractional part exactly; every other finite f64 between 2^-890 and 2^1000 in magnitude becomes a normalized Double within relative 2^-52 of it (the value of its shortest decimal text, not of its bits).","all f64","All 2^64 bit patterns; goes through decimal text and the parser.",["src/double/from.rs: From<f64>","src/common/utils.rs: is_dyadic","src/double/from_str.rs"])
p("C67","sqrt is accurate","For every normalized Double between 2^-900 and 2^1000, sqrt returns a normalized Double within relative 2^-100 of the real square root.","all normalized Doubles in range","A Newton step whose seed passes through f64 arithmetic and decimal text; rounding errors depend on every bit.",["src/double/alg.rs: sqrt","src/double/from.rs: From<f64>"])
p("C68","sin, cos, sin_cos and tan are accurate","For every normalized Double a of magnitude at most 2^45 (zero and the subnormal range included), sin(a), cos(a) and both parts of sin_cos(a) are normalized Doubles within (|a| + 29) 2^-102 of the real values (in particular the quadrant signs are right); for 2^-900 <= |a| <= 0.09 sin has relative error at most 2^-99 and tan 2^-98; tan has the error this implies for the quotient.","all normalized Doubles in range","Argument reduction by multiples of pi, a data-dependent series, tables and four quadrants: the error depends on every bit, and quadrant boundaries are irrational.",["src/double/trig.rs: sin, cos, sin_cos, tan, reduce, sin_taylor, cos_taylor, sincos_taylor","src/double/aconsts.rs: TAU, FRAC_PI_2, FRAC_PI_16","src/double/consts.rs: SINES, COSINES, INV_FACTS"])
p("C69","sinh, cosh, sinh_cosh and tanh are accurate","For every normalized Double a with |a| <= 599: cosh(a) has relative error at most (|a| + 12) 2^-102; if also |a| >= 2^-900, sinh(a) has relative error at most (|a| + 12) 2^-97 (2^-99 for |a| <= 0.049), tanh(a) at most (|a| + 13) 2^-96, and sinh_cosh(a) returns both with these errors; all results are normalized and the series of sinh ends. Beyond that range the functions fail: tanh is NaN for every finite argument above 708 or below -600, and cosh and sinh overflow for every argument below -600.","all normalized Doubles in range, and all outside it for the failures","Cancellation near zero, the switch between the series and the exponential, and overflow of an intermediate exponential are all conditions on every bit of the argument.",["src/double/hyper.rs: sinh, cosh, sinh_cosh, tanh","src/double/trans.rs: exp","src/double/alg.rs: recip, sqrt"])
p("C70","asinh, acosh and atanh are accurate","For every normalized Double a, with errors absolute: asinh(a) for 0 <= a <= 2^400 has error at most (2 asinh(a) + 19) 2^-102, and for |a| <= 2^35 of either sign at most (2 |asinh(a)| + 12 a^2 + 25) 2^-102 (negative arguments cancel); acosh(a) for 1 + 2^-78 <= a <= 2^400 has error at most (2 acosh(a) + 19 + 1/sqrt(a^2-1)) 2^-102; atanh(a) for |a| <= 1 - 2^-800 has error at most (2 |atanh(a)| + 8) 2^-102. For 2^512, whose square overflows, asinh and acosh return NaN, and so does asinh of its negative.","all normalized Doubles in range","The loss by cancellation depends on every bit of the argument; a test can only sample arguments, and the tests of the crate avoid large negative arguments of asinh.",["src/double/hyper.rs: asinh, acosh, atanh","src/double/trans.rs: ln","src/double/alg.rs: sqrt"])
p("C71","atan2, atan, asin and acos are accurate","For every pair of normalized Doubles y, x, each zero or between 2^-400 and 2^400 in magnitude and not both zero, atan2(y, x) is a normalized Double within (52 + 2|t| + 6 t^2) 2^-102 of the angle t of the point (x, y), t in (-pi, pi] (below 2^-95 in all quadrants), and for |t| <= 0.089, however small, within relative 2^-97; atan(a) satisfies the same bounds against the real arc tangent. For |a| <= 1 - 2^-78 (zero or at least 2^-400) asin(a) is within (74 + 1/sqrt(1-a^2)) 2^-102 of the real arc sine, with relative error at most 2^-96 for |a| <= 0.05, and acos(a) within (122 + 1/sqrt(1-a^2)) 2^-102 of the real arc cosine.","all normalized Doubles (pairs for atan2) in range, all quadrants, axes and diagonals","The result must have the right quadrant and the right last bits for every point of the plane, and the Newton step amplifies errors differently in each octant; a test can only sample points.",["src/double/trig.rs: atan2, atan, asin, acos, pre_atan2, pre_asin, pre_acos","src/double/alg.rs: sqrt"])
p("C72","Quad sqr is accurate","For every Quad a whose components decrease (in particular every normalized one) with a leading component between 2^-385 and 2^505 in magnitude, sqr(a) is finite and differs from the exact square by a relative error of at most 2^-203.","all normalized Quads in range",INF,["src/quad/alg.rs: sqr","src/common/utils.rs: renorm5"])
p("C73","exp of Quads is accurate","For every normalized Quad a whose leading component is between -470 and 708, exp(a) returns a finite, positive Quad whose relative error with respect to the real number e^a is at most (|a| + 8) * 2^-126.","all normalized Quads in range","Argument reduction, a data-dependent Taylor loop and sixteen squarings accumulate rounding errors that depend on every bit of the operand; intermediate results are not normalized.",["src/quad/trans.rs: exp","src/quad/alg.rs: sqr, ldexp","src/quad/add.rs","src/quad/mul.rs"])
p("C74","ln of Quads is accurate","On any platform whose f64 logarithms are reasonable, for every positive normalized Quad a with -707 <= ln a <= 469, ln(a) ends and returns a finite Quad within (2 |ln a| + 15) * 2^-126 of the real logarithm.","all positive normalized Quads in range, all accurate platforms","A Newton iteration around exp with a data-dependent exit test; the number of rounds and every rounding error depend on the operand and on the platform's seed.",["src/quad/trans.rs: ln, pre_ln, exp"])
p("C75","powf of Quads is accurate and has its documented special values","powf(a, n) of normalized Quads with a > 0, -707 <= ln a <= 469, W = n ln a between -469 and 707 and |W| + 2 |n| <= 711 is finite and has relative error at most (4 |W| + 18 |n| + 9) * 2^-126 with respect to the real a^n; zero bases and infinite exponents give the coded values.","all normalized Quads in range, all accurate platforms",INF,["src/quad/alg.rs: powf, pre_powf","src/quad/trans.rs: ln, exp"])
p("C76","log10, log2 and log of Quads are accurate","On any platform whose f64 logarithms are reasonable, for every positive normalized Quad a with -707 <= ln a <= 469, log10(a) and log2(a) are finite and within (3 |log10 a| + 8) * 2^-126 and (3 |log2 a| + 25) * 2^-126 of the real logarithms; for every base b in the same range with |ln b| >= 1/100, log(a, b) is finite and within (5 |v| + 17 (1 + |v|) / |ln b|) * 2^-126 of v = log_b(a).","all positive normalized Quads in range, all bases in range, all accurate platforms",INF,["src/quad/trans.rs: log10, log2, log, pre_log","src/quad/div.rs"])
p("C77","cosh, sinh, sinh_cosh and tanh of Quads are accurate","For every normalized Quad a with |a| <= 469, cosh(a) is finite with relative error at most (|a| + 11) * 2^-126; when also |a| >= 0.051, sinh(a) is finite with error at most (|a| + 11) * 2^-126 * cosh a and relative error at most (|a| + 11) * 2^-121, sinh_cosh(a) returns the same sinh and an accurate cosh, and for |a| <= 108 tanh(a) is finite and within (2|a| + 27) * 2^-126 of the real hyperbolic tangent.","all normalized Quads in range",INF,["src/quad/hyper.rs: cosh, sinh, sinh_cosh, tanh","src/quad/trans.rs: exp"])
p("C78","Integer powers of Quads are accurate","For every normalized Quad a and integer 0 < n < 2^31, powi(a, n) is finite with relative error at most n * 2^-138 while 2^-835 <= |a^n| <= 2^895, and powi(a, -n) is finite with relative error at most (n + 2050) * 2^-138 while 2^-760 <= |a^n| <= 2^760.","all normalized Quads, all i32 exponents except i32::MIN and 0, results in range",INF,["src/quad/alg.rs: powi","src/quad/mul.rs","src/quad/div.rs"])
p("C79","Parsing a Quad from decimal text is accurate","Every well-formed decimal text (sign, digits, point, exponent, underscores) whose value N * 10^k has |k| <= 228, 0 < N <= 2^895 and lies between 2^-835 and 2^895 parses to a finite Quad of the right sign whose relative error is at most (number of digits + |k| + 3) * 2^-128.","all well-formed texts of any length below 2^30 characters, values in range",INF,["src/quad/from_str.rs: from_str","src/quad/mul.rs","src/quad/div.rs"])
p("C80","Converting an f64 to a Quad","Zeros (with sign), NaN, infinities and every integral f64 convert to the Quad with exactly that value; on any platform whose f64 text is the usual shortest text, every f64 between 2^-700 and 2^890 in magnitude converts to a finite Quad within relative 2^-52.","all f64 values, all platforms with reasonable float text",INF,["src/quad/from.rs: From<f64>"])
p("C81","sqrt of Quads is accurate","For every normalized Quad a with 2^-830 <= a <= 2^830, on any platform with reasonable float text, sqrt(a) is finite with relative error at most 2^-127 with respect to the real square root.","all normalized Quads in range, all platforms with reasonable float text",INF,["src/quad/alg.rs: sqrt, pre_sqrt","src/quad/mul.rs","src/quad/add.rs"])
p("C82","asinh, acosh and atanh of Quads are accurate","On any platform whose f64 logarithms and text are reasonable: asinh(a) of a normalized Quad is finite and within (2 asinh a + 17) * 2^-126 for 0 <= a <= 2^400 and within (2 |asinh a| + 6 a^2 + 20) * 2^-126 for |a| <= 20; acosh(a) is within (2 acosh a + 18) * 2^-126 for 26/25 <= a <= 2^400; atanh(a) is within (2 |atanh a| + 7 + 3 / (1 - |a|)) * 2^-126 for |a| <= 99/100.","all normalized Quads in range, all accurate platforms",INF,["src/quad/hyper.rs: asinh, acosh, atanh, pre_asinh, pre_acosh, pre_atanh","src/quad/trans.rs: ln","src/quad/alg.rs: sqrt"])
p("C83","sinh, cosh (from sinh_cosh) and tanh of Quads are accurate down to tiny arguments, and the series loop stops","For normalized a with 2^-560 <= |a| <= 469, a budget of 20 rounds is enough for the sinh series (whose loop has no bound in the source): sinh(a) returns a finite Quad within (|a| + 11) * 2^-121 relative, and within 7 * 2^-126 relative for |a| <= 0.048; on platforms with reasonable f64 text, sinh_cosh(a) returns the same sinh and a cosh within (|a| + 11) * 2^-126 relative; tanh(a) is within (2|a| + 27) * 2^-126 for |a| <= 108 and within 8 * 2^-126 relative for |a| <= 0.048.","all normalized Quads in range, all platforms, every loop budget of at least 20",INF,["src/quad/hyper.rs: sinh, sinh_cosh, tanh, sinh_taylor","src/quad/alg.rs: sqrt, sqr","src/quad/div.rs"])
p("C84","sin, cos, sin_cos and tan of Quads are accurate up to 2^29 and return","For normalized a with |a| <= 2^29 (no lower bound), on platforms with reasonable f64 text, sin(a), cos(a) and both results of sin_cos(a) are finite and within (|a|/3 + 9) * 2^-126 of the real sine and cosine; for 2^-560 <= |a| < 0.001 the sine of both functions has relative error at most 3 * 2^-126 and tan(a) at most 6 * 2^-126; where |cos a| >= 1/400, tan(a) is within 6/5 (|a|/3 + 9) * 2^-126 * (1 + |tan a|) / |cos a| of the real tangent.","all normalized Quads in range, all platforms with FloatText",INF,["src/quad/trig.rs: sin, cos, sin_cos, tan, reduce, sin_taylor, cos_taylor, sincos_taylor, FRAC_PI_1024","src/quad/misc.rs: round","src/quad/common.rs: SINES, COSINES, INV_FACTS"])
p("C85","atan2, atan, asin and acos of Quads are accurate","For normalized y, x that are each zero or of magnitude 2^-150..2^150 and not both zero, on platforms with reasonable f64 text and f64 atan2, y.atan2(x) returns a finite Quad within 18 * 2^-126 of the angle of the point (x, y), in the right quadrant and on the axes; angles of at most 97/100000 have relative error at most 5 * 2^-126; atan(a) likewise for the arc tangent. For normalized a that are zero or of magnitude at least 2^-150 with |a| <= 24/25, asin(a) and acos(a) are within 20 * 2^-126 of the real functions, and asin has relative error at most 7 * 2^-126 when |a| <= 9/10000.","all normalized Quads in range, all platforms with FloatText and LibmAtan2",INF,["src/quad/trig.rs: atan2, atan, asin, acos, pre_atan2, pre_asin, pre_acos","src/quad/algebra.rs: sqrt, sqr"])
p("C86","Converting a Double to a Quad keeps the value","Quad::from(x) of a finite Double x has the value of x (up to the accuracy of the 31 digits it goes through).","all finite Doubles, all platforms whose log10 gives the right decimal exponent","The conversion goes through decimal text: digit extraction and parsing errors depend on every bit.",["src/quad/from.rs: From<Double>","src/double/display.rs: extract_digits","src/quad/from_str.rs"])
p("C87","Printing and parsing gives the number back","Parsing the text that {} prints for a finite Double (Quad) gives a number that agrees with it to the 31 (62) digits printed.","all finite Doubles / Quads, all platforms whose log10 gives the right decimal exponent","Two approximate conversions compose; errors depend on every bit.",["src/double/display.rs","src/double/from_str.rs","src/quad/display.rs","src/quad/from_str.rs"])
p("C88","nroot and cbrt of Doubles are accurate","nroot(x, n) and cbrt(x) of a finite Double are within a stated relative error of the real number R that has the sign of x and whose n-th power is x: one Newton step from an f64 start value, so the error is about 6/5|n| times the square of the start value's error, which grows with |ln R|.","all normalized Doubles between 2^-898 and 2^898 in magnitude, all n of fewer than 32 bits other than 0, 1, 2 (|n| >= 3, or a root between 2^-300 and 2^300), all platforms whose ln and exp are within 2^-50 and whose to_string is the shortest text","The error depends on every bit of x, on n, and on the rounding of ln and exp of the platform.",["src/double/alg.rs: nroot, cbrt","src/double/from.rs: From<f64>"])
p("C89","nroot and cbrt of Quads are accurate","nroot(x, n) and cbrt(x) of a finite Quad are within a relative error of 9/2^128 of the real number R that has the sign of x and whose n-th power is x, whatever n: three Newton steps from an f64 start value are always enough.","all normalized Quads between 2^-755 and 2^755 in magnitude, all n of fewer than 32 bits other than 0, 1, 2 (|n| >= 5, or a root between 2^-159 and 2^250), cube roots of numbers between 2^-477 and 2^750, all platforms whose ln and exp are within 2^-50 and whose to_string is the shortest text","The error depends on every bit of all four components of x, on n, and on the rounding of ln and exp of the platform.",["src/quad/alg.rs: nroot, cbrt, powi","src/quad/from.rs: From<f64>"])
p("C90","Quad arithmetic on whole numbers and binary fractions is exact while it fits","If two normalized Quads are multiples of 2^e (whole numbers for e = 0) with coefficients below 2^150, + and - of them are exact; the product of a multiple of 2^e and a multiple of 2^f is exact when its coefficient is below 2^204; the quotient is exact when it is an integer of at most 53 bits and the divisor an integer of at most 46 bits.","all pairs of normalized Quads that are multiples of a power of two (at least 2^-1074, for products 2^-760 in total) and not within a few binary orders of the overflow threshold","Exactness must hold for every pair of up to 204 bit coefficients; the merge and the renormalization branch on every component.",["src/quad/add.rs: add","src/quad/sub.rs: sub","src/quad/mul.rs: mul","src/common/utils.rs: renorm4, renorm5, accumulate"])
p("C91","Sums and products of long sequences stay accurate","`iter.sum()` of n Doubles misses the exact sum by at most n * 2^-102 times the sum of the absolute values, and `iter.product()` has a relative error of at most n * 2^-101 while the partial products stay in range; for Quads the bounds are n * 2^-127 and n * 2^-138. Double results are normalized, Quad results finite.","all sequences of normalized numbers of any length up to 2^60 (Double: 2^90) and any order, whose sum of magnitudes or partial products do not leave the range","The bound is over sequences of every length; rounding errors accumulate and interact through every intermediate value.",["src/double/iter.rs","src/quad/iter.rs","src/double/add.rs: add","src/quad/mul.rs: mul"])
p("C92","Functions undo their inverses","exp(ln a) and sqr(sqrt a) give a back, ln(exp a) gives a back, sqrt(sqr a) gives |a|, sin(asin a), cos(acos a) and tan(atan a) give a back (for Doubles also tanh(atanh a) and, for positive a, sinh(asinh a)) and sin^2 + cos^2 gives 1, each up to a stated error a few units above the precision of the type.","all normalized Doubles and Quads in the ranges of the functions involved","Two long computations are chained, each over a continuum of inputs; a table of samples says nothing about the others.",["src/double/trans.rs: exp, ln","src/double/alg.rs: sqr, sqrt","src/double/trig.rs: sin, cos, asin, acos, sin_cos","src/quad/trans.rs: exp, ln","src/quad/alg.rs: sqr, sqrt","src/double/hyper.rs: sinh, tanh, asinh, atanh","src/quad/trig.rs: sin_cos, sin, cos, tan, asin, acos, atan"])
p("C93","Multiplication commutes","a * b and b * a are the same number.","all pairs of Doubles and of Quads","Commutativity is a statement about all pairs; the order in which the cross products are added differs between the two.",["src/double/mul.rs: mul","src/quad/mul.rs: mul"])
p("C94","Functional equations survive in computed arithmetic","exp(a + b) and exp(a) * exp(b), ln(a * b) and ln(a) + ln(b), sin^2 + cos^2 and 1, sin(a + b) and sin a cos b + cos a sin b, cos(a + b) and cos a cos b - sin a sin b, cosh^2 - sinh^2 and 1, with both sides computed by the library, agree up to a stated error.","all normalized pairs of numbers whose results stay in range","A statement relating several computed results for all inputs; a test compares one input at a time and accepts any tolerance it is given.",["src/double/trans.rs: exp, ln","src/quad/trans.rs: exp, ln","src/double/hyper.rs: sinh_cosh","src/quad/hyper.rs: sinh_cosh","src/double/trig.rs: sin, cos, sin_cos","src/quad/trig.rs: sin, cos, sin_cos"])
p("C95","Computed increasing functions keep order and sign","Two arguments further apart than the accuracy of exp, ln or sqrt give results in the same order; exp of a finite argument is positive, and sinh and tanh have the sign of their argument.","all normalized pairs of numbers in the working range of the function","A statement about all pairs of arguments, in particular about neighbouring ones, of which there are far too many to try.",["src/double/trans.rs: exp, ln","src/double/hyper.rs: sinh, tanh","src/double/alg.rs: sqrt","src/quad/trans.rs: exp, ln","src/quad/alg.rs: sqrt"])
p("C96","The laws of arithmetic hold up to rounding","Regrouping a sum or a product of three numbers, expanding a product over a sum, subtracting what was added and dividing by what was multiplied change the result by no more than a few roundings.","all triples and pairs of normalized Doubles and Quads in the middle of the range","Each law relates two computations for all triples; failures appear only for operands whose parts interact.",["src/double/add.rs: add","src/double/sub.rs: sub","src/double/mul.rs: mul","src/double/div.rs: div","src/quad/add.rs: add","src/quad/sub.rs: sub","src/quad/mul.rs: mul","src/quad/div.rs: div"])
p("C97","The two number types agree","A Double and a Quad that hold the same number get the same answer from the same operation or function, up to the precision of a Double: sums, products, quotients, exp, ln, square roots, sines, cosines, hyperbolic cosines and atan2; comparisons and conversions from integers agree exactly.","all pairs of a normalized Double and a normalized Quad of the same value, in the ranges where both types are accurate","The two types are separate implementations of the same interface; an exchanged argument or a wrong branch in one of them shows only on some inputs.",["src/double/trans.rs","src/quad/trans.rs","src/double/trig.rs","src/quad/trig.rs","src/double/add.rs","src/quad/add.rs"])
p("C98","Computed results stay in the range of the function","A computed sine, cosine or hyperbolic tangent exceeds one in magnitude by no more than its rounding, a hyperbolic cosine is no further below one, and the inverse functions stay between their bounds, so a result can be used where the mathematical one can.","all normalized Doubles and Quads in the stated ranges of each function","Holds for every argument; the arguments that come close to the bounds are the ones where rounding decides, and no list of tests covers them.",["src/double/trig.rs: sin, cos, atan, atan2, asin, acos","src/quad/trig.rs: sin, cos, atan, atan2, asin, acos","src/double/hyper.rs: cosh, tanh","src/quad/hyper.rs: cosh, tanh"])
with open(os.path.join(os.path.dirname(__file__),'..','properties.jsonl'),'w') as f:
    for x in P: f.write(json.dumps(x,ensure_ascii=False)+"\n")
print(len(P))
