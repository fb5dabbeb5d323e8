p('C01','proved',None,'Range: |a.hi|+|b.hi| <= 2^1023.')
p('C02','proved',None,'Accuracy range: |a.hi|+|b.hi| <= 2^1023; a - b = a + (-b) for all Doubles.')
p('C05','partial',None,'Proved for all operands whose finite components stay below 3*2^1022 in total; refuted near overflow (C05_refuted).')
p('C06','proved',None,'For all Doubles including NaN, infinities, unnormalized and overflowing ones; for Quads + - * (Quad division does not have the symmetry, see C52).')
p('C07','proved',None,'For all normalized Doubles, no range restriction.')
p('C08','proved',None,'All pairs with a non-finite operand, sign of the result included.')
p('C09','partial',None,'Proved for NaN/infinite operands and zero first operand incl. sign; a zero second operand gives the number zero but the wrong sign (C09_refuted).')
p('C10','partial',None,'Proved for NaN/infinite operands and zero divisors incl. sign; a zero dividend gives zero but loses the sign (C10_refuted).')
p('C11','proved',None,'Double and Quad: + - * / %, sum and product over sequences.')
p('C12','proved',None,'All pairs of normalized Doubles.')
p('C13','proved',None,'All Doubles and all Quads.')
p('C14','proved',None,'Normalized means first component = f64 sum of the components.')
p('C41','proved',None,'Double and Quad.')
p('C56','proved',None,'Double and Quad.')
p('C03','proved',None,'For all normalized Doubles whose leading product is at most 2^1023: normalized and within 9*2^-106 relative plus two smallest subnormals; below 2^-102 relative without underflow.')
p('C57','proved',None,'two_sum, two_diff, quick_two_sum and the FMA two_prod/two_sqr for all finite f64 absent overflow; product error exact from 2^-969 upward.')
p('C04','proved',None,'Dividend and quotient of the leading components between 2^-962 and 2^1020 in magnitude; divisor any nonzero normalized Double; relative error below 2^-102. C04_div_any: any dividend, subnormal results included, for divisors of at least 2^-40: an absolute term 2^-1010 is added.')
p('C18','partial',None,'The claim is false (C18_refuted: floor(2^-60 - 2^-120) = -1). Proved under the exact condition separating good from bad, and off by at most one for all normalized Doubles.')
p('C19','partial',None,'The claim is false (C19_refuted). Proved under the mirrored condition, off by at most one always.')
p('C20','partial',None,'The claim is false in three cases (C20_refuted); proved outside them for all normalized Doubles.')
p('C21','partial',None,'The claim is false where floor/ceil are (C21_refuted); proved otherwise, fract exactly.')
p('C15','proved',None,'')
p('C17','proved',None,'Double nearest f64; tuples of both types.')
p('C35','proved',None,'Double; Quad identities and special values too.')
p('C36','proved',None,'')
p('C39','partial',None,'Exact scaling and normalization for |n| < 1024 in range; the claim is false for |n| >= 1024 even when the result is representable (C39_refuted), and there the behaviour is characterised completely for Double and Quad: infinity with the sign of the operand (NaN for zero) for n >= 1024, zero for n <= -1024 (C39_big, C39_quad_big).')
p('C40','proved',None,'Folds and exact integer sums for both types; exact integer products for Double.')
p('C59','proved',None,'')
p('C23','partial',None,'Proved for integer valued Doubles with divisor below 2^49 and dividend below 2^102, and for integer valued Quads with divisor at most 2^46 and quotient at most 2^45 (floored remainder, exact); false in general for both types (C23_refuted, C23_quad_refuted). What a % b is for every pair of normalized Doubles with magnitudes between 2^-400 and 2^400 is C23_any_partial: a - b*n for an integer n within one of the floor of a/b, up to a stated rounding error; the same for Quads between 2^-400 and 2^160 with quotient at most 2^45 is C23_quad_any_partial.')
p('C24','partial',None,'Accepted, rejected and panicking texts characterised exactly for all strings shorter than 2^31, Double and Quad (same language). "Never panics" is false: exponent minus fraction digits can overflow i32 (C24_refuted).')
p('C25','proved',None,'Up to 2^104.')
p('C26','partial',None,'Proved for all numeric texts, Double and Quad; false for the texts of infinities and NaN (C26_refuted).')
p('C27','proved',None,'Double and Quad, with the two exceptions shown real (C27_exceptions).')
p('C28','proved',None,'Double and Quad.')
p('C60','proved',None,'')
p('C51','proved',None,'Relative error at most 2^-204 for ordered (hence for normalized) operands with the leading product between 2^-770 and 2^1010.')
p('C50','partial',None,'Proved: symmetry for all Quads; a + 0 = a, a - 0 = a, a - a = 0 up to 2^970; error at most 2^-150 of the larger operand for all ordered Quads up to 2^1016. Full 2^-208 accuracy is false (C50_refuted: not even 2^-169).')
p('C16','partial',None,'All integer types exact; 8..64 bit types normalized. 128 bit types: components fall off by 2^52; the half-ulp normalization claimed is false for some u128 (C16_refuted).')
p('C58','partial',None,'renorm2: exact and normalized. renorm4: exact sum, components fall off by 2^52; half-ulp claim false in tie cases (C58_refuted). renorm5: the same up to one rounding of the last component. three_three_sum and accumulate exact, three_two_sum up to one rounding. renorm3 loses its third argument (C58_renorm3_refuted).')
p('C22','partial',None,'The claim is false (C22_refuted). floor/ceil/trunc/round proved when the first non-integral component keeps a 2^-52 distance from integers (and, for round, halves), |q| <= 2^1000; round also proved at exact halves of the first non-integral component (C22_round_half_partial), with a counterexample for the remaining halves (C22_round_refuted).')
p('C53','partial',None,'False for normalized Quads in rounding ties (C53_refuted); proved for Quads whose components are strictly nearest, and for every normalized Quad against a plain f64 such as ONE (C53_single).')
p('C52','proved',None,'Identities and relative accuracy 2^-130 (error analysis of long division, mul_f64 and renorm5). C52_refuted: outside the range a quotient of finite normalized Quads can be NaN. Special values: see C10.')
p('C29','partial',None,'Exactly p digits after the point whenever the extracted digits are proper; refuted for numbers whose extracted digits contain a ten (just below 1.1). Quad: the same, for 1e-228 <= |x| <= 2^159 (the range in which digit extraction is analysed), and refuted likewise.')
p('C30','proved',None,'Double and Quad, {} and {:e}/{:E}; f64::log10 arbitrary.')
p('C31','proved',None,'')
p('C32','proved',None,'Double and Quad, {} and {:e}/{:E}.')
p('C33','partial',None,'Double, between 1e-288 and 2^1019 and all special values, for a log10 accurate to 2^-40 relative at powers of ten; refuted for the smallest positive number. Quad, between 1e-228 and 2^159 and all special values; refuted for the smallest positive number.')
p('C34','partial',None,'One digit before the point unless the shown number is 10 or more; refuted when rounding reaches ten. Both types (Quad in 1e-228..2^159).')
p('C61','partial',None,'Digits within (-2^-88, +2^-49) relative; the 30-digit claim is refuted (3 - 2^-60 prints 3). Quad, 1e-228..2^159: 62 digits within (-2^-120, +2^-42) relative; the 61-digit claim is refuted by the same number.')
p('C48','proved',None,'All 24 constants of each type against the real numbers (Mathlib), plus normalization of the limits.')
p('C62','partial',None,'True for PI, FRAC_PI_6, FRAC_2_PI, FRAC_2_SQRT_PI, FRAC_1_SQRT_2; refuted for SQRT_2, E, LN_2, TAU, FRAC_PI_2 (last bits wrong).')
p('C49','proved',None,'Against the real 1/n!, sin and cos of Mathlib, every entry of both crates tables.')
p('C54','proved',None,'Normal operands below 2^1023 with product between 2^-968 and 2^1020; C54_outside shows the range is needed.')
p('C37','partial',None,'True for Double; for Quad the sign of zero is lost (C37_quad_refuted), the rest holds. Any platform library.')
p('C38','proved',None,'Double and Quad, any platform library.')
p('C42','proved',None,'Double and Quad, all operands; any fuel gives the five-round (nine-round) result.')
p('C43','partial',None,'All but ln(-0), which is NaN (C43_refuted, C43_quad_refuted). Double and Quad, any platform library.')
p('C44','partial',None,'Proved for all magnitudes up to 2^45 (and NaN, infinities); false for huge arguments: 7e85 panics (C44_refuted). Quad: proved for all magnitudes up to 2^29 (C44_quad_total_partial) and for zero, NaN and infinities (C44_quad_special).')
p('C46','partial',None,'Axes, infinities, diagonals; NaN operands only if the other operand is nonzero and finite; refuted for NaN with zero/infinite operands and for a negative infinite x. Double and Quad.')
p('C47','partial',None,'All but the sign of tanh(-0) (C47_refuted; for Quad also sinh(-0)). Double and Quad.')
p('C55','partial',None,'False: a NaN with the sign bit set panics (C55_refuted), and so does whatever Double cannot be printed. Proved: the conversion returns whenever printing does and the Double is not a negative NaN.')
p('C45','proved',None,'C45_quad_close is the Quad form. C45_table is the form for every finite argument in terms of the reduction.')
p('C63','proved',None,'Double, whole documented range.')
p('C64','proved',None,'Double; any platform library with LibmLogs; log10, log2 and log away from arguments close to one.')
p('C65','proved',None,'Double: special values, NaN, exp(n ln a), and accuracy for any platform library with LibmLogs.')
p('C66','proved',None,'Double; any platform whose f64::to_string meets FloatText (witness text17).')
p('C67','proved',None,'Double; any platform whose f64::to_string meets FloatText.')
p('C68','proved',None,'Double; any platform whose f64::to_string meets FloatText (sin_cos and the table path use sqrt).')
p('C69','proved',None,'Double; sinh_cosh and tanh below 0.05 use sqrt and so need the platform hypothesis FloatText. The _refuted theorems prove the failures named in the statement.')
p('C70','proved',None,'Double; under the platform hypotheses LibmLogs (ln within 2^-50 relative) and, where sqrt is used, FloatText. C70_overflow_refuted proves the failure named in the statement.')
p('C71','proved',None,'Double; under the platform hypotheses LibmAtan2 (f64::atan2 within 2^-50 relative, for coordinates between 2^-401 and 2^401) and FloatText; Proofs/Atan2Witness constructs a platform meeting both. C43/C46 have the arguments 1, -1 and those outside [-1, 1].')
p('C72','proved',None,'Quad; ordered operands, leading component between 2^-385 and 2^505.')
p('C73','proved',None,'Quad, whole documented range. The bound is what the slack-ordered error calculus gives (intermediate Quads are not normalized); the actual error is smaller.')
p('C74','proved',None,'Whole range on which exp of the iterates neither underflows nor overflows; the platform contract is LibmLogs, satisfied by logPlatform.')
p('C75','proved',None,'All special cases; accuracy in a stated range of base and exponent.')
p('C76','proved',None,'Division of slack-ordered Quads (QuadSlDiv, QuadApDiv) applied to the logarithm of C74.')
p('C77','proved',None,'The exponential (C73), its reciprocal, their sum and difference (QuadHyper) and their quotient.')
p('C78','proved',None,'Relative-error calculus QR (QuadRel) and induction over the binary powering loop.')
p('C79','proved',None,'Digit accumulation, powers of ten by powi and a final multiplication or division, over texts of any length.')
p('C80','proved',None,'Exact special and integral cases; the general case through the text of the f64 and C79.')
p('C81','proved',None,'Newton iteration on the reciprocal square root, from the f64 starting value.')
p('C82','proved',None,'Logarithm and square root of approximations with slack (QuadLnOf, QuadSqrtOf).')
p('C83','proved',None,'The 0.05 branch test splits the range; the series loop is proved to stop within 20 rounds.')
p('C84','proved',None,'Beyond 2^29 the statement gives no bound; tan is covered where the cosine is at least 1/400, and near zero.')
p('C85','proved',None,'asin and acos between 24/25 and 1 (and at magnitudes below 2^-150) are not covered by the bound; +-1 and beyond are in C44.')
p('C86','partial',None,'Within relative 2^-48 for 1e-197..2^790 when the digits the code extracts are proper digits; the claim itself is refuted: 3 - 2^-60 converts to 3, and a Double just below 1.1 to 1.01.')
p('C87','partial',None,'Within relative 2^-48 (Double, 1e-239..2^900) or 2^-41 (Quad, 1e-166..2^159) when the digits the code extracts are proper digits; the claim itself is refuted by 3 - 2^-60.')
p('C88','proved',None,'Bound (6/5|n|+11/10) d^2 + 2^-98 with d = (6/5|ln R| + 3/2) 2^-50; cube roots are within 2^-81 everywhere in range and 2^-93 between 2^-8 and 2^8. n = -1, -2 need a root between 2^-300 and 2^300.')
p('C89','proved',None,'Relative error at most 9/2^128 for n of either sign up to 2^31 in magnitude and arguments of either sign; the root must lie between 2^-159 and 2^250 when |n| < 5.')
p('C90','proved',None,'Exact sums and differences of coefficients below 2^150 and exact products with coefficients below 2^204, on every power of two grid; exact integer quotients (C90_div).')
p('C91','proved',None,'Double: n * 2^-102 times the sum of magnitudes (at most 2^1000) and relative n * 2^-101 for products with partial products between 2^-960 and 2^1000; Quad: n * 2^-127 and n * 2^-138.')
p('C92','proved',None,'Double: exp/ln, sqr/sqrt, sin/asin, cos/acos, tan/atan, tanh/atanh, sinh/asinh (positive arguments), Pythagoras; Quad: exp/ln, sqr/sqrt, sin/asin, cos/acos, tan/atan, Pythagoras. Errors (3|ln a| + 24) 2^-102 and the like; the functions of f64 are any that satisfy the platform requirements.')
p('C93','partial',None,'False bit for bit for both types (C93_refuted, C93_quad_refuted). Proved: the two orders differ by at most 2^-101 (Double) and 2^-203 (Quad) of the product, and are identical when one factor is a plain f64 (Double) or when one is infinite or NaN or both are zero. For Quads a plain f64 factor does not help (C93_quad_single_refuted).')
p('C94','proved',None,'Errors 2^-102 times a linear function of the arguments (or of the logarithms); hyperbolic identity relative to the larger square (Quad: (4 |a| + 46) 2^-126, up to 230); Quad: exp and ln with 2^-126, sin^2 + cos^2 in C92_quad_pythagoras. Addition theorems: (4 (|a| + |b|) + 150) 2^-102 up to 2^43, Quads (3/2 (|a| + |b|) + 46) 2^-126 up to 2^28. The functions of f64 are any that satisfy the platform requirements.')
p('C95','proved',None,'Distances (|a| + |b| + 20) 2^-101 for exp, relative (|ln a| + |ln b| + 13) 2^-100 for ln, ratio 1 + 2^-96 for sqrt; for Quads 2^-125, 2^-124, 2^-123 (on the values: the comparison of Quads itself is C53). Nothing is claimed of closer arguments.')
p('C96','proved',None,'Sums: 5 (|a| + |b| + |c|) 2^-103, up to 2^190; products: relative 5 2^-102; distributivity: 36 |a| (|b| + |c|) 2^-106 + 2^-247; (a b) / b: relative 3 2^-102. Quads: sums (|a| + |b| + |c|) 2^-125, products relative 5 2^-139, distributivity |a| (|b| + |c|) 2^-126, (a b) / b relative 2^-126, a + b - b within (|a| + |b|) 2^-125. Exact associativity is refuted (C96_assoc_refuted).')
p('C97','proved',None,'Sums within (|a| + |b|) 2^-102 up to 2^190, products 2^-101, exp (|a| + 11) 2^-102 relatively up to 469, ln (3 |ln a| + 14) 2^-102, sqrt 2^-99, sin and cos (2 |a| + 30) 2^-102 up to 2^29, atan2 131 2^-102, quotients 2^-101 and cosh (|a| + 13) 2^-102 relatively; comparisons (of strictly normalized Quads) and integer conversions agree exactly.')
p('C98','proved',None,'sin, cos, tanh, cosh, atan, atan2, asin, acos of both types; the allowances are the error bounds of C68, C69, C71, C77, C83, C84 and C85.')
