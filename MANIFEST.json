{
 "claims": [
  {
   "property": "C01",
   "status": "proved",
   "theorems": [
    "Verif.C01_add"
   ],
   "note": "Range: |a.hi|+|b.hi| <= 2^1023."
  },
  {
   "property": "C02",
   "status": "proved",
   "theorems": [
    "Verif.C02_sub",
    "Verif.C02_sub_eq_add_neg"
   ],
   "note": "Accuracy range: |a.hi|+|b.hi| <= 2^1023; a - b = a + (-b) for all Doubles."
  },
  {
   "property": "C03",
   "status": "proved",
   "theorems": [
    "Verif.C03_mul",
    "Verif.C03_mul_relative"
   ],
   "note": "For all normalized Doubles whose leading product is at most 2^1023: normalized and within 9*2^-106 relative plus two smallest subnormals; below 2^-102 relative without underflow."
  },
  {
   "property": "C04",
   "status": "proved",
   "theorems": [
    "Verif.C04_div",
    "Verif.C04_div_any",
    "Verif.C04_div_int"
   ],
   "note": "Dividend and quotient of the leading components between 2^-962 and 2^1020 in magnitude; divisor any nonzero normalized Double; relative error below 2^-102. C04_div_any: any dividend, subnormal results included, for divisors of at least 2^-40: an absolute term 2^-1010 is added."
  },
  {
   "property": "C05",
   "status": "partial",
   "theorems": [
    "Verif.C05_add_comm_partial",
    "Verif.C05_refuted"
   ],
   "note": "Proved for all operands whose finite components stay below 3*2^1022 in total; refuted near overflow (C05_refuted)."
  },
  {
   "property": "C06",
   "status": "proved",
   "theorems": [
    "Verif.C06_quad_neg_neg",
    "Verif.C06_quad_mul_neg_left",
    "Verif.C06_quad_mul_neg_right",
    "Verif.C06_neg_neg",
    "Verif.C06_add_neg",
    "Verif.C06_sub_neg",
    "Verif.C06_mul_neg_left",
    "Verif.C06_mul_neg_right",
    "Verif.C06_div_neg_left",
    "Verif.C06_div_neg_right"
   ],
   "note": "For all Doubles including NaN, infinities, unnormalized and overflowing ones; for Quads + - * (Quad division does not have the symmetry, see C52)."
  },
  {
   "property": "C07",
   "status": "proved",
   "theorems": [
    "Verif.C07_add_zero",
    "Verif.C07_sub_self",
    "Verif.C07_sub_zero",
    "Verif.C07_mul_one",
    "Verif.C07_div_one",
    "Verif.C07_div_self"
   ],
   "note": "For all normalized Doubles, no range restriction."
  },
  {
   "property": "C08",
   "status": "proved",
   "theorems": [
    "Verif.C08_add",
    "Verif.C08_sub",
    "Verif.C08_quad_add",
    "Verif.C08_quad_sub"
   ],
   "note": "All pairs with a non-finite operand, sign of the result included."
  },
  {
   "property": "C09",
   "status": "partial",
   "theorems": [
    "Verif.C09_mul_partial",
    "Verif.C09_mul_zero_right_partial",
    "Verif.C09_refuted",
    "Verif.C09_quad_mul_partial",
    "Verif.C09_quad_refuted"
   ],
   "note": "Proved for NaN/infinite operands and zero first operand incl. sign; a zero second operand gives the number zero but the wrong sign (C09_refuted)."
  },
  {
   "property": "C10",
   "status": "partial",
   "theorems": [
    "Verif.C10_div_partial",
    "Verif.C10_zero_div_partial",
    "Verif.C10_refuted",
    "Verif.C10_quad_div_partial"
   ],
   "note": "Proved for NaN/infinite operands and zero divisors incl. sign; a zero dividend gives zero but loses the sign (C10_refuted)."
  },
  {
   "property": "C11",
   "status": "proved",
   "theorems": [
    "Verif.C11_add",
    "Verif.C11_sub",
    "Verif.C11_mul",
    "Verif.C11_div",
    "Verif.C11_rem",
    "Verif.C11_sum",
    "Verif.C11_product",
    "Verif.C11_quad_add",
    "Verif.C11_quad_sub",
    "Verif.C11_quad_mul",
    "Verif.C11_quad_div",
    "Verif.C11_quad_rem",
    "Verif.C11_quad_sum",
    "Verif.C11_quad_product",
    "Verif.C11_quad_sqr"
   ],
   "note": "Double and Quad: + - * / %, sum and product over sequences."
  },
  {
   "property": "C12",
   "status": "proved",
   "theorems": [
    "Verif.C12_partialCmp",
    "Verif.C12_compare"
   ],
   "note": "All pairs of normalized Doubles."
  },
  {
   "property": "C13",
   "status": "proved",
   "theorems": [
    "Verif.C13_quad_eq_iff",
    "Verif.C13_quad_swap",
    "Verif.C13_quad_lt_trans",
    "Verif.C13_quad_le_iff",
    "Verif.C13_quad_nan",
    "Verif.C13_eq_iff",
    "Verif.C13_swap",
    "Verif.C13_gt_iff",
    "Verif.C13_lt_trans",
    "Verif.C13_le_iff",
    "Verif.C13_nan"
   ],
   "note": "All Doubles and all Quads."
  },
  {
   "property": "C14",
   "status": "proved",
   "theorems": [
    "Verif.C14_unique"
   ],
   "note": "Normalized means first component = f64 sum of the components."
  },
  {
   "property": "C15",
   "status": "proved",
   "theorems": [
    "Verif.C15_small",
    "Verif.C15_u64",
    "Verif.C15_i64"
   ],
   "note": ""
  },
  {
   "property": "C16",
   "status": "partial",
   "theorems": [
    "Verif.C16_small",
    "Verif.C16_u64",
    "Verif.C16_u128_partial",
    "Verif.C16_i64",
    "Verif.C16_i128_partial",
    "Verif.C16_refuted"
   ],
   "note": "All integer types exact; 8..64 bit types normalized. 128 bit types: components fall off by 2^52; the half-ulp normalization claimed is false for some u128 (C16_refuted)."
  },
  {
   "property": "C17",
   "status": "proved",
   "theorems": [
    "Verif.C17_quad_tuples",
    "Verif.C17_to_f64",
    "Verif.C17_tuple"
   ],
   "note": "Double nearest f64; tuples of both types."
  },
  {
   "property": "C18",
   "status": "partial",
   "theorems": [
    "Verif.C18_floor_partial",
    "Verif.C18_floor_off",
    "Verif.C18_refuted"
   ],
   "note": "The claim is false (C18_refuted: floor(2^-60 - 2^-120) = -1). Proved under the exact condition separating good from bad, and off by at most one for all normalized Doubles."
  },
  {
   "property": "C19",
   "status": "partial",
   "theorems": [
    "Verif.C19_ceil_partial",
    "Verif.C19_ceil_off",
    "Verif.C19_refuted"
   ],
   "note": "The claim is false (C19_refuted). Proved under the mirrored condition, off by at most one always."
  },
  {
   "property": "C20",
   "status": "partial",
   "theorems": [
    "Verif.C20_round_partial",
    "Verif.C20_refuted"
   ],
   "note": "The claim is false in three cases (C20_refuted); proved outside them for all normalized Doubles."
  },
  {
   "property": "C21",
   "status": "partial",
   "theorems": [
    "Verif.C21_trunc_partial",
    "Verif.C21_fract_partial",
    "Verif.C21_refuted"
   ],
   "note": "The claim is false where floor/ceil are (C21_refuted); proved otherwise, fract exactly."
  },
  {
   "property": "C22",
   "status": "partial",
   "theorems": [
    "Verif.C22_floor_partial",
    "Verif.C22_ceil_partial",
    "Verif.C22_trunc_partial",
    "Verif.C22_round_partial",
    "Verif.C22_refuted",
    "Verif.C22_round_half_partial",
    "Verif.C22_round_refuted"
   ],
   "note": "The claim is false (C22_refuted). floor/ceil/trunc/round proved when the first non-integral component keeps a 2^-52 distance from integers (and, for round, halves), |q| <= 2^1000; round also proved at exact halves of the first non-integral component (C22_round_half_partial), with a counterexample for the remaining halves (C22_round_refuted)."
  },
  {
   "property": "C23",
   "status": "partial",
   "theorems": [
    "Verif.C23_quad_partial",
    "Verif.C23_quad_refuted",
    "Verif.C23_rem_partial",
    "Verif.C23_refuted",
    "Verif.C23_quad_any_partial",
    "Verif.C23_any_partial"
   ],
   "note": "Proved for integer valued Doubles with divisor below 2^49 and dividend below 2^102, and for integer valued Quads with divisor at most 2^46 and quotient at most 2^45 (floored remainder, exact); false in general for both types (C23_refuted, C23_quad_refuted). What a % b is for every pair of normalized Doubles with magnitudes between 2^-400 and 2^400 is C23_any_partial: a - b*n for an integer n within one of the floor of a/b, up to a stated rounding error; the same for Quads between 2^-400 and 2^160 with quotient at most 2^45 is C23_quad_any_partial."
  },
  {
   "property": "C24",
   "status": "partial",
   "theorems": [
    "Verif.C24_quad_accept_partial",
    "Verif.C24_quad_reject",
    "Verif.C24_quad_panic_partial",
    "Verif.C24_same_language",
    "Verif.C24_accept_partial",
    "Verif.C24_reject",
    "Verif.C24_panic_partial",
    "Verif.C24_refuted"
   ],
   "note": "Accepted, rejected and panicking texts characterised exactly for all strings shorter than 2^31, Double and Quad (same language). \"Never panics\" is false: exponent minus fraction digits can overflow i32 (C24_refuted)."
  },
  {
   "property": "C25",
   "status": "proved",
   "theorems": [
    "Verif.C25_integer"
   ],
   "note": "Up to 2^104."
  },
  {
   "property": "C26",
   "status": "partial",
   "theorems": [
    "Verif.C26_quad_sign_partial",
    "Verif.C26_sign_partial",
    "Verif.C26_refuted"
   ],
   "note": "Proved for all numeric texts, Double and Quad; false for the texts of infinities and NaN (C26_refuted)."
  },
  {
   "property": "C27",
   "status": "proved",
   "theorems": [
    "Verif.C27_quad_white",
    "Verif.C27_quad_case",
    "Verif.C27_quad_underscores",
    "Verif.C27_white",
    "Verif.C27_case",
    "Verif.C27_underscores",
    "Verif.C27_exceptions"
   ],
   "note": "Double and Quad, with the two exceptions shown real (C27_exceptions)."
  },
  {
   "property": "C28",
   "status": "proved",
   "theorems": [
    "Verif.C28_quad_classified",
    "Verif.C28_quad_from",
    "Verif.C28_classified",
    "Verif.C28_from",
    "Verif.C28_from_nan"
   ],
   "note": "Double and Quad."
  },
  {
   "property": "C29",
   "status": "partial",
   "theorems": [
    "Verif.C29_quad_range_partial",
    "Verif.C29_quad_refuted",
    "Verif.C29_double_partial",
    "Verif.C29_quad_partial",
    "Verif.C29_refuted"
   ],
   "note": "Exactly p digits after the point whenever the extracted digits are proper; refuted for numbers whose extracted digits contain a ten (just below 1.1). Quad: the same, for 1e-228 <= |x| <= 2^159 (the range in which digit extraction is analysed), and refuted likewise."
  },
  {
   "property": "C30",
   "status": "proved",
   "theorems": [
    "Verif.C30_double",
    "Verif.C30_double_exp",
    "Verif.C30_quad",
    "Verif.C30_quad_exp"
   ],
   "note": "Double and Quad, {} and {:e}/{:E}; f64::log10 arbitrary."
  },
  {
   "property": "C31",
   "status": "proved",
   "theorems": [
    "Verif.C31_round"
   ],
   "note": ""
  },
  {
   "property": "C32",
   "status": "proved",
   "theorems": [
    "Verif.C32_double",
    "Verif.C32_double_exp",
    "Verif.C32_quad",
    "Verif.C32_quad_exp"
   ],
   "note": "Double and Quad, {} and {:e}/{:E}."
  },
  {
   "property": "C33",
   "status": "partial",
   "theorems": [
    "Verif.C33_quad_partial",
    "Verif.C33_quad_refuted",
    "Verif.C33_double_partial",
    "Verif.C33_refuted"
   ],
   "note": "Double, between 1e-288 and 2^1019 and all special values, for a log10 accurate to 2^-40 relative at powers of ten; refuted for the smallest positive number. Quad, between 1e-228 and 2^159 and all special values; refuted for the smallest positive number."
  },
  {
   "property": "C34",
   "status": "partial",
   "theorems": [
    "Verif.C34_quad_partial",
    "Verif.C34_quad_refuted",
    "Verif.C34_double_partial",
    "Verif.C34_refuted"
   ],
   "note": "One digit before the point unless the shown number is 10 or more; refuted when rounding reaches ten. Both types (Quad in 1e-228..2^159)."
  },
  {
   "property": "C35",
   "status": "proved",
   "theorems": [
    "Verif.C35_quad_zero",
    "Verif.C35_quad_one",
    "Verif.C35_quad_recip",
    "Verif.C35_quad_total",
    "Verif.C35_quad_special",
    "Verif.C35_zero",
    "Verif.C35_one",
    "Verif.C35_recip",
    "Verif.C35_total",
    "Verif.C35_special",
    "Verif.C35_int",
    "Verif.C35_sign",
    "Verif.C35_sign_recip"
   ],
   "note": "Double; Quad identities and special values too."
  },
  {
   "property": "C36",
   "status": "proved",
   "theorems": [
    "Verif.C36_sqr",
    "Verif.C36_sqr_relative",
    "Verif.C36_sqr_neg",
    "Verif.C36_sqr_special"
   ],
   "note": ""
  },
  {
   "property": "C37",
   "status": "partial",
   "theorems": [
    "Verif.C37_sqrt_zero",
    "Verif.C37_sqrt_neg",
    "Verif.C37_sqrt_inf",
    "Verif.C37_sqrt_nan",
    "Verif.C37_quad_sqrt",
    "Verif.C37_quad_refuted",
    "Verif.C37_quad_sqrt_nan"
   ],
   "note": "True for Double; for Quad the sign of zero is lost (C37_quad_refuted), the rest holds. Any platform library."
  },
  {
   "property": "C38",
   "status": "proved",
   "theorems": [
    "Verif.C38_special_n",
    "Verif.C38_zero",
    "Verif.C38_inf",
    "Verif.C38_even_neg",
    "Verif.C38_nan",
    "Verif.C38_quad_special_n",
    "Verif.C38_quad_zero",
    "Verif.C38_quad_inf",
    "Verif.C38_quad_even_neg"
   ],
   "note": "Double and Quad, any platform library."
  },
  {
   "property": "C39",
   "status": "partial",
   "theorems": [
    "Verif.C39_ldexp_partial",
    "Verif.C39_refuted",
    "Verif.C39_quad_ldexp_partial",
    "Verif.C39_quad_refuted",
    "Verif.C39_big",
    "Verif.C39_quad_big"
   ],
   "note": "Exact scaling and normalization for |n| < 1024 in range; the claim is false for |n| >= 1024 even when the result is representable (C39_refuted), and there the behaviour is characterised completely for Double and Quad: infinity with the sign of the operand (NaN for zero) for n >= 1024, zero for n <= -1024 (C39_big, C39_quad_big)."
  },
  {
   "property": "C40",
   "status": "proved",
   "theorems": [
    "Verif.C40_quad_fold",
    "Verif.C40_fold",
    "Verif.C40_sum_int",
    "Verif.C40_product_int",
    "Verif.C40_quad_sum_int"
   ],
   "note": "Folds and exact integer sums for both types; exact integer products for Double."
  },
  {
   "property": "C41",
   "status": "proved",
   "theorems": [
    "Verif.C41_quad_partition",
    "Verif.C41_quad_abs",
    "Verif.C41_quad_signum",
    "Verif.C41_partition",
    "Verif.C41_abs",
    "Verif.C41_abs_val",
    "Verif.C41_signum",
    "Verif.C41_quad_abs_val"
   ],
   "note": "Double and Quad."
  },
  {
   "property": "C42",
   "status": "proved",
   "theorems": [
    "Verif.C42_low",
    "Verif.C42_high",
    "Verif.C42_inf",
    "Verif.C42_nan",
    "Verif.C42_zero_one",
    "Verif.C42_total",
    "Verif.C42_loop",
    "Verif.C42_quad_low",
    "Verif.C42_quad_high",
    "Verif.C42_quad_inf",
    "Verif.C42_quad_nan",
    "Verif.C42_quad_zero_one",
    "Verif.C42_quad_loop",
    "Verif.C42_quad_total"
   ],
   "note": "Double and Quad, all operands; any fuel gives the five-round (nine-round) result."
  },
  {
   "property": "C43",
   "status": "partial",
   "theorems": [
    "Verif.C43_special",
    "Verif.C43_loop",
    "Verif.C43_total",
    "Verif.C43_log_special",
    "Verif.C43_log_quotients",
    "Verif.C43_refuted",
    "Verif.C43_quad_special",
    "Verif.C43_quad_loop",
    "Verif.C43_quad_total",
    "Verif.C43_quad_log_special",
    "Verif.C43_quad_log_quotients",
    "Verif.C43_quad_refuted"
   ],
   "note": "All but ln(-0), which is NaN (C43_refuted, C43_quad_refuted). Double and Quad, any platform library."
  },
  {
   "property": "C44",
   "status": "partial",
   "theorems": [
    "Verif.C44_special",
    "Verif.C44_total_partial",
    "Verif.C44_refuted",
    "Verif.C44_quad_total_partial",
    "Verif.C44_quad_special"
   ],
   "note": "Proved for all magnitudes up to 2^45 (and NaN, infinities); false for huge arguments: 7e85 panics (C44_refuted). Quad: proved for all magnitudes up to 2^29 (C44_quad_total_partial) and for zero, NaN and infinities (C44_quad_special)."
  },
  {
   "property": "C45",
   "status": "proved",
   "theorems": [
    "Verif.C45_table",
    "Verif.C45_same",
    "Verif.C45_close",
    "Verif.C45_quad_close"
   ],
   "note": "C45_quad_close is the Quad form. C45_table is the form for every finite argument in terms of the reduction."
  },
  {
   "property": "C46",
   "status": "partial",
   "theorems": [
    "Verif.C46_axes",
    "Verif.C46_inf",
    "Verif.C46_diagonals",
    "Verif.C46_nan_partial",
    "Verif.C46_refuted",
    "Verif.C46_quad_axes",
    "Verif.C46_quad_inf",
    "Verif.C46_quad_diagonals",
    "Verif.C46_quad_nan_partial",
    "Verif.C46_quad_refuted"
   ],
   "note": "Axes, infinities, diagonals; NaN operands only if the other operand is nonzero and finite; refuted for NaN with zero/infinite operands and for a negative infinite x. Double and Quad."
  },
  {
   "property": "C47",
   "status": "partial",
   "theorems": [
    "Verif.C47_asin_acos_domain",
    "Verif.C47_asin_acos_one",
    "Verif.C47_acosh",
    "Verif.C47_atanh",
    "Verif.C47_hyper_zero",
    "Verif.C47_hyper_inf",
    "Verif.C47_nan",
    "Verif.C47_refuted",
    "Verif.C47_quad_asin_acos_domain",
    "Verif.C47_quad_asin_acos_one",
    "Verif.C47_quad_acosh",
    "Verif.C47_quad_atanh",
    "Verif.C47_quad_hyper_zero",
    "Verif.C47_quad_hyper_inf",
    "Verif.C47_quad_nan",
    "Verif.C47_quad_refuted"
   ],
   "note": "All but the sign of tanh(-0) (C47_refuted; for Quad also sinh(-0)). Double and Quad."
  },
  {
   "property": "C48",
   "status": "proved",
   "theorems": [
    "Verif.C48_double_values",
    "Verif.C48_quad_values",
    "Verif.C48_double_normalized",
    "Verif.C48_quad_normalized",
    "Verif.C48_double_first",
    "Verif.C48_quad_first",
    "Verif.C48_agree",
    "Verif.C48_quad_consistent"
   ],
   "note": "All 24 constants of each type against the real numbers (Mathlib), plus normalization of the limits."
  },
  {
   "property": "C49",
   "status": "proved",
   "theorems": [
    "Verif.C49_double_inv_facts",
    "Verif.C49_quad_inv_facts",
    "Verif.C49_double_sines",
    "Verif.C49_quad_sines",
    "Verif.C49_normalized"
   ],
   "note": "Against the real 1/n!, sin and cos of Mathlib, every entry of both crates tables."
  },
  {
   "property": "C50",
   "status": "partial",
   "theorems": [
    "Verif.C50_refuted",
    "Verif.C50_accurate",
    "Verif.C50_normalized",
    "Verif.C50_add_neg",
    "Verif.C50_sub_eq_add_neg",
    "Verif.C50_sub_neg",
    "Verif.C50_add_zero",
    "Verif.C50_sub_zero",
    "Verif.C50_sub_self",
    "Verif.C50_sub_accurate"
   ],
   "note": "Proved: symmetry for all Quads; a + 0 = a, a - 0 = a, a - a = 0 up to 2^970; error at most 2^-150 of the larger operand for all ordered Quads up to 2^1016. Full 2^-208 accuracy is false (C50_refuted: not even 2^-169)."
  },
  {
   "property": "C51",
   "status": "proved",
   "theorems": [
    "Verif.C51_mul_one",
    "Verif.C51_one_mul",
    "Verif.C51_mul_zero",
    "Verif.C51_accurate",
    "Verif.C51_normalized"
   ],
   "note": "Relative error at most 2^-204 for ordered (hence for normalized) operands with the leading product between 2^-770 and 2^1010."
  },
  {
   "property": "C52",
   "status": "proved",
   "theorems": [
    "Verif.C52_accurate",
    "Verif.C52_normalized",
    "Verif.C52_refuted",
    "Verif.C52_div_one",
    "Verif.C52_div_self",
    "Verif.C52_zero_div"
   ],
   "note": "Identities and relative accuracy 2^-130 (error analysis of long division, mul_f64 and renorm5). C52_refuted: outside the range a quotient of finite normalized Quads can be NaN. Special values: see C10."
  },
  {
   "property": "C53",
   "status": "partial",
   "theorems": [
    "Verif.C53_compare_partial",
    "Verif.C53_unique_partial",
    "Verif.C53_refuted",
    "Verif.C53_single",
    "Verif.C53_single_ops"
   ],
   "note": "False for normalized Quads in rounding ties (C53_refuted); proved for Quads whose components are strictly nearest, and for every normalized Quad against a plain f64 such as ONE (C53_single)."
  },
  {
   "property": "C54",
   "status": "proved",
   "theorems": [
    "Verif.C54_two_prod",
    "Verif.C54_two_sqr",
    "Verif.C54_two_prod_exact",
    "Verif.C54_outside"
   ],
   "note": "Normal operands below 2^1023 with product between 2^-968 and 2^1020; C54_outside shows the range is needed."
  },
  {
   "property": "C55",
   "status": "partial",
   "theorems": [
    "Verif.C55_total_partial",
    "Verif.C55_special",
    "Verif.C55_range_partial",
    "Verif.C55_refuted"
   ],
   "note": "False: a NaN with the sign bit set panics (C55_refuted), and so does whatever Double cannot be printed. Proved: the conversion returns whenever printing does and the Double is not a negative NaN."
  },
  {
   "property": "C56",
   "status": "proved",
   "theorems": [
    "Verif.C56_quad_index",
    "Verif.C56_index"
   ],
   "note": "Double and Quad."
  },
  {
   "property": "C57",
   "status": "proved",
   "theorems": [
    "Verif.C57_two_sum",
    "Verif.C57_two_diff",
    "Verif.C57_quick_two_sum",
    "Verif.C57_two_prod",
    "Verif.C57_two_sqr"
   ],
   "note": "two_sum, two_diff, quick_two_sum and the FMA two_prod/two_sqr for all finite f64 absent overflow; product error exact from 2^-969 upward."
  },
  {
   "property": "C58",
   "status": "partial",
   "theorems": [
    "Verif.C58_renorm4_partial",
    "Verif.C58_refuted",
    "Verif.C58_renorm2",
    "Verif.C58_renorm2_order_refuted",
    "Verif.C58_renorm3_refuted",
    "Verif.C58_renorm5_partial",
    "Verif.C58_three_three_sum",
    "Verif.C58_three_two_sum",
    "Verif.C58_accumulate"
   ],
   "note": "renorm2: exact and normalized. renorm4: exact sum, components fall off by 2^52; half-ulp claim false in tie cases (C58_refuted). renorm5: the same up to one rounding of the last component. three_three_sum and accumulate exact, three_two_sum up to one rounding. renorm3 loses its third argument (C58_renorm3_refuted)."
  },
  {
   "property": "C59",
   "status": "proved",
   "theorems": [
    "Verif.C59_powi_accurate",
    "Verif.C59_powi_neg_accurate"
   ],
   "note": ""
  },
  {
   "property": "C60",
   "status": "proved",
   "theorems": [
    "Verif.C60_accurate"
   ],
   "note": ""
  },
  {
   "property": "C61",
   "status": "partial",
   "theorems": [
    "Verif.C61_quad_partial",
    "Verif.C61_quad_refuted",
    "Verif.C61_double_partial",
    "Verif.C61_refuted",
    "Verif.C61_refuted_ten"
   ],
   "note": "Digits within (-2^-88, +2^-49) relative; the 30-digit claim is refuted (3 - 2^-60 prints 3). Quad, 1e-228..2^159: 62 digits within (-2^-120, +2^-42) relative; the 61-digit claim is refuted by the same number."
  },
  {
   "property": "C62",
   "status": "partial",
   "theorems": [
    "Verif.C62_double_second_partial",
    "Verif.C62_refuted",
    "Verif.C62_refuted_tau"
   ],
   "note": "True for PI, FRAC_PI_6, FRAC_2_PI, FRAC_2_SQRT_PI, FRAC_1_SQRT_2; refuted for SQRT_2, E, LN_2, TAU, FRAC_PI_2 (last bits wrong)."
  },
  {
   "property": "C63",
   "status": "proved",
   "theorems": [
    "Verif.C63_exp",
    "Verif.C63_exp_range"
   ],
   "note": "Double, whole documented range."
  },
  {
   "property": "C64",
   "status": "proved",
   "theorems": [
    "Verif.C64_ln",
    "Verif.C64_ln_ap",
    "Verif.C64_log10_log2",
    "Verif.C64_log"
   ],
   "note": "Double; any platform library with LibmLogs; log10, log2 and log away from arguments close to one."
  },
  {
   "property": "C65",
   "status": "proved",
   "theorems": [
    "Verif.C65_special",
    "Verif.C65_def",
    "Verif.C65_nan",
    "Verif.C65_powf"
   ],
   "note": "Double: special values, NaN, exp(n ln a), and accuracy for any platform library with LibmLogs."
  },
  {
   "property": "C66",
   "status": "proved",
   "theorems": [
    "Verif.C66_special",
    "Verif.C66_accurate"
   ],
   "note": "Double; any platform whose f64::to_string meets FloatText (witness text17)."
  },
  {
   "property": "C67",
   "status": "proved",
   "theorems": [
    "Verif.C67_sqrt"
   ],
   "note": "Double; any platform whose f64::to_string meets FloatText."
  },
  {
   "property": "C68",
   "status": "proved",
   "theorems": [
    "Verif.C68_sin_tiny",
    "Verif.C68_tan_tiny",
    "Verif.C68_sin",
    "Verif.C68_cos",
    "Verif.C68_sin_cos",
    "Verif.C68_sin_small",
    "Verif.C68_tan",
    "Verif.C68_tan_small"
   ],
   "note": "Double; any platform whose f64::to_string meets FloatText (sin_cos and the table path use sqrt)."
  },
  {
   "property": "C69",
   "status": "proved",
   "theorems": [
    "Verif.C69_cosh",
    "Verif.C69_sinh",
    "Verif.C69_sinh_small",
    "Verif.C69_sinh_cosh",
    "Verif.C69_tanh",
    "Verif.C69_tanh_refuted",
    "Verif.C69_neg_refuted"
   ],
   "note": "Double; sinh_cosh and tanh below 0.05 use sqrt and so need the platform hypothesis FloatText. The _refuted theorems prove the failures named in the statement."
  },
  {
   "property": "C70",
   "status": "proved",
   "theorems": [
    "Verif.C70_overflow_refuted",
    "Verif.C70_acosh",
    "Verif.C70_atanh",
    "Verif.C70_asinh_nonneg",
    "Verif.C70_asinh"
   ],
   "note": "Double; under the platform hypotheses LibmLogs (ln within 2^-50 relative) and, where sqrt is used, FloatText. C70_overflow_refuted proves the failure named in the statement."
  },
  {
   "property": "C71",
   "status": "proved",
   "theorems": [
    "Verif.C71_atan2",
    "Verif.C71_atan2_small",
    "Verif.C71_atan",
    "Verif.C71_asin",
    "Verif.C71_acos"
   ],
   "note": "Double; under the platform hypotheses LibmAtan2 (f64::atan2 within 2^-50 relative, for coordinates between 2^-401 and 2^401) and FloatText; Proofs/Atan2Witness constructs a platform meeting both. C43/C46 have the arguments 1, -1 and those outside [-1, 1]."
  },
  {
   "property": "C72",
   "status": "proved",
   "theorems": [
    "Verif.C72_accurate",
    "Verif.C72_normalized"
   ],
   "note": "Quad; ordered operands, leading component between 2^-385 and 2^505."
  },
  {
   "property": "C73",
   "status": "proved",
   "theorems": [
    "Verif.C73_quad_exp",
    "Verif.C73_quad_exp_range"
   ],
   "note": "Quad, whole documented range. The bound is what the slack-ordered error calculus gives (intermediate Quads are not normalized); the actual error is smaller."
  },
  {
   "property": "C74",
   "status": "proved",
   "theorems": [
    "Verif.C74_quad_ln"
   ],
   "note": "Whole range on which exp of the iterates neither underflows nor overflows; the platform contract is LibmLogs, satisfied by logPlatform."
  },
  {
   "property": "C75",
   "status": "proved",
   "theorems": [
    "Verif.C75_quad_powf_def",
    "Verif.C75_quad_powf_special",
    "Verif.C75_quad_powf"
   ],
   "note": "All special cases; accuracy in a stated range of base and exponent."
  },
  {
   "property": "C76",
   "status": "proved",
   "theorems": [
    "Verif.C76_quad_log10_log2",
    "Verif.C76_quad_log"
   ],
   "note": "Division of slack-ordered Quads (QuadSlDiv, QuadApDiv) applied to the logarithm of C74."
  },
  {
   "property": "C77",
   "status": "proved",
   "theorems": [
    "Verif.C77_quad_cosh",
    "Verif.C77_quad_sinh",
    "Verif.C77_quad_tanh"
   ],
   "note": "The exponential (C73), its reciprocal, their sum and difference (QuadHyper) and their quotient."
  },
  {
   "property": "C78",
   "status": "proved",
   "theorems": [
    "Verif.C78_quad_powi",
    "Verif.C78_quad_powi_neg"
   ],
   "note": "Relative-error calculus QR (QuadRel) and induction over the binary powering loop."
  },
  {
   "property": "C79",
   "status": "proved",
   "theorems": [
    "Verif.C79_quad_parse"
   ],
   "note": "Digit accumulation, powers of ten by powi and a final multiplication or division, over texts of any length."
  },
  {
   "property": "C80",
   "status": "proved",
   "theorems": [
    "Verif.C80_quad_special",
    "Verif.C80_quad_accurate"
   ],
   "note": "Exact special and integral cases; the general case through the text of the f64 and C79."
  },
  {
   "property": "C81",
   "status": "proved",
   "theorems": [
    "Verif.C81_quad_sqrt"
   ],
   "note": "Newton iteration on the reciprocal square root, from the f64 starting value."
  },
  {
   "property": "C82",
   "status": "proved",
   "theorems": [
    "Verif.C82_quad_atanh",
    "Verif.C82_quad_asinh_nonneg",
    "Verif.C82_quad_asinh",
    "Verif.C82_quad_acosh"
   ],
   "note": "Logarithm and square root of approximations with slack (QuadLnOf, QuadSqrtOf)."
  },
  {
   "property": "C83",
   "status": "proved",
   "theorems": [
    "Verif.C83_quad_sinh",
    "Verif.C83_quad_sinh_cosh",
    "Verif.C83_quad_tanh"
   ],
   "note": "The 0.05 branch test splits the range; the series loop is proved to stop within 20 rounds."
  },
  {
   "property": "C84",
   "status": "proved",
   "theorems": [
    "Verif.C84_quad_sin",
    "Verif.C84_quad_cos",
    "Verif.C84_quad_sin_cos",
    "Verif.C84_quad_sin_small",
    "Verif.C84_quad_tan",
    "Verif.C84_quad_tan_small"
   ],
   "note": "Beyond 2^29 the statement gives no bound; tan is covered where the cosine is at least 1/400, and near zero."
  },
  {
   "property": "C85",
   "status": "proved",
   "theorems": [
    "Verif.C85_quad_asin",
    "Verif.C85_quad_acos",
    "Verif.C85_quad_atan2",
    "Verif.C85_quad_atan"
   ],
   "note": "asin and acos between 24/25 and 1 (and at magnitudes below 2^-150) are not covered by the bound; +-1 and beyond are in C44."
  },
  {
   "property": "C86",
   "status": "partial",
   "theorems": [
    "Verif.C86_value_partial",
    "Verif.C86_refuted",
    "Verif.C86_refuted_ten"
   ],
   "note": "Within relative 2^-48 for 1e-197..2^790 when the digits the code extracts are proper digits; the claim itself is refuted: 3 - 2^-60 converts to 3, and a Double just below 1.1 to 1.01."
  },
  {
   "property": "C87",
   "status": "partial",
   "theorems": [
    "Verif.C87_double_partial",
    "Verif.C87_quad_partial",
    "Verif.C87_refuted"
   ],
   "note": "Within relative 2^-48 (Double, 1e-239..2^900) or 2^-41 (Quad, 1e-166..2^159) when the digits the code extracts are proper digits; the claim itself is refuted by 3 - 2^-60."
  },
  {
   "property": "C88",
   "status": "proved",
   "theorems": [
    "Verif.C88_nroot",
    "Verif.C88_nroot_three",
    "Verif.C88_nroot_rpow",
    "Verif.C88_cbrt"
   ],
   "note": "Bound (6/5|n|+11/10) d^2 + 2^-98 with d = (6/5|ln R| + 3/2) 2^-50; cube roots are within 2^-81 everywhere in range and 2^-93 between 2^-8 and 2^8. n = -1, -2 need a root between 2^-300 and 2^300."
  },
  {
   "property": "C89",
   "status": "proved",
   "theorems": [
    "Verif.C89_quad_nroot",
    "Verif.C89_quad_nroot_five",
    "Verif.C89_quad_nroot_rpow",
    "Verif.C89_quad_cbrt"
   ],
   "note": "Relative error at most 9/2^128 for n of either sign up to 2^31 in magnitude and arguments of either sign; the root must lie between 2^-159 and 2^250 when |n| < 5."
  },
  {
   "property": "C90",
   "status": "proved",
   "theorems": [
    "Verif.C90_div",
    "Verif.C90_add",
    "Verif.C90_sub",
    "Verif.C90_mul",
    "Verif.C90_int"
   ],
   "note": "Exact sums and differences of coefficients below 2^150 and exact products with coefficients below 2^204, on every power of two grid; exact integer quotients (C90_div)."
  },
  {
   "property": "C91",
   "status": "proved",
   "theorems": [
    "Verif.C91_sum",
    "Verif.C91_product",
    "Verif.C91_quad_sum",
    "Verif.C91_quad_product"
   ],
   "note": "Double: n * 2^-102 times the sum of magnitudes (at most 2^1000) and relative n * 2^-101 for products with partial products between 2^-960 and 2^1000; Quad: n * 2^-127 and n * 2^-138."
  },
  {
   "property": "C92",
   "status": "proved",
   "theorems": [
    "Verif.C92_quad_exp_ln",
    "Verif.C92_quad_ln_exp",
    "Verif.C92_quad_sqr_sqrt",
    "Verif.C92_quad_sqrt_sqr",
    "Verif.C92_quad_pythagoras",
    "Verif.C92_exp_ln",
    "Verif.C92_ln_exp",
    "Verif.C92_sqr_sqrt",
    "Verif.C92_sqrt_sqr",
    "Verif.C92_pythagoras",
    "Verif.C92_sin_asin",
    "Verif.C92_cos_acos",
    "Verif.C92_tanh_atanh",
    "Verif.C92_sinh_asinh",
    "Verif.C92_tan_atan",
    "Verif.C92_quad_sin_asin",
    "Verif.C92_quad_cos_acos",
    "Verif.C92_quad_tan_atan"
   ],
   "note": "Double: exp/ln, sqr/sqrt, sin/asin, cos/acos, tan/atan, tanh/atanh, sinh/asinh (positive arguments), Pythagoras; Quad: exp/ln, sqr/sqrt, sin/asin, cos/acos, tan/atan, Pythagoras. Errors (3|ln a| + 24) 2^-102 and the like; the functions of f64 are any that satisfy the platform requirements."
  },
  {
   "property": "C93",
   "status": "partial",
   "theorems": [
    "Verif.C93_refuted",
    "Verif.C93_close_partial",
    "Verif.C93_quad_close_partial",
    "Verif.C93_quad_refuted",
    "Verif.C93_quad_single_refuted",
    "Verif.C93_single_partial",
    "Verif.C93_special_partial",
    "Verif.C93_quad_special_partial"
   ],
   "note": "False bit for bit for both types (C93_refuted, C93_quad_refuted). Proved: the two orders differ by at most 2^-101 (Double) and 2^-203 (Quad) of the product, and are identical when one factor is a plain f64 (Double) or when one is infinite or NaN or both are zero. For Quads a plain f64 factor does not help (C93_quad_single_refuted)."
  },
  {
   "property": "C94",
   "status": "proved",
   "theorems": [
    "Verif.C94_sin_cos",
    "Verif.C94_sinh_cosh",
    "Verif.C94_exp_add",
    "Verif.C94_ln_mul",
    "Verif.C94_quad_exp_add",
    "Verif.C94_quad_ln_mul",
    "Verif.C94_quad_sinh_cosh",
    "Verif.C94_trig_add",
    "Verif.C94_quad_trig_add"
   ],
   "note": "Errors 2^-102 times a linear function of the arguments (or of the logarithms); hyperbolic identity relative to the larger square (Quad: (4 |a| + 46) 2^-126, up to 230); Quad: exp and ln with 2^-126, sin^2 + cos^2 in C92_quad_pythagoras. Addition theorems: (4 (|a| + |b|) + 150) 2^-102 up to 2^43, Quads (3/2 (|a| + |b|) + 46) 2^-126 up to 2^28. The functions of f64 are any that satisfy the platform requirements."
  },
  {
   "property": "C95",
   "status": "proved",
   "theorems": [
    "Verif.C95_exp",
    "Verif.C95_ln",
    "Verif.C95_sqrt",
    "Verif.C95_sign",
    "Verif.C95_quad_exp",
    "Verif.C95_quad_ln",
    "Verif.C95_quad_sqrt"
   ],
   "note": "Distances (|a| + |b| + 20) 2^-101 for exp, relative (|ln a| + |ln b| + 13) 2^-100 for ln, ratio 1 + 2^-96 for sqrt; for Quads 2^-125, 2^-124, 2^-123 (on the values: the comparison of Quads itself is C53). Nothing is claimed of closer arguments."
  },
  {
   "property": "C96",
   "status": "proved",
   "theorems": [
    "Verif.C96_quad_add_assoc",
    "Verif.C96_quad_add_sub_cancel",
    "Verif.C96_quad_mul_assoc",
    "Verif.C96_quad_distrib",
    "Verif.C96_quad_mul_div_cancel",
    "Verif.C96_add_assoc",
    "Verif.C96_add_sub_cancel",
    "Verif.C96_distrib",
    "Verif.C96_mul_assoc",
    "Verif.C96_mul_div_cancel",
    "Verif.C96_assoc_refuted"
   ],
   "note": "Sums: 5 (|a| + |b| + |c|) 2^-103, up to 2^190; products: relative 5 2^-102; distributivity: 36 |a| (|b| + |c|) 2^-106 + 2^-247; (a b) / b: relative 3 2^-102. Quads: sums (|a| + |b| + |c|) 2^-125, products relative 5 2^-139, distributivity |a| (|b| + |c|) 2^-126, (a b) / b relative 2^-126, a + b - b within (|a| + |b|) 2^-125. Exact associativity is refuted (C96_assoc_refuted)."
  },
  {
   "property": "C97",
   "status": "proved",
   "theorems": [
    "Verif.C97_add",
    "Verif.C97_mul",
    "Verif.C97_exp",
    "Verif.C97_ln",
    "Verif.C97_sqrt",
    "Verif.C97_sin_cos",
    "Verif.C97_atan2",
    "Verif.C97_compare",
    "Verif.C97_ints",
    "Verif.C97_div",
    "Verif.C97_cosh"
   ],
   "note": "Sums within (|a| + |b|) 2^-102 up to 2^190, products 2^-101, exp (|a| + 11) 2^-102 relatively up to 469, ln (3 |ln a| + 14) 2^-102, sqrt 2^-99, sin and cos (2 |a| + 30) 2^-102 up to 2^29, atan2 131 2^-102, quotients 2^-101 and cosh (|a| + 13) 2^-102 relatively; comparisons (of strictly normalized Quads) and integer conversions agree exactly."
  },
  {
   "property": "C98",
   "status": "proved",
   "theorems": [
    "Verif.C98_sin_cos",
    "Verif.C98_quad_sin_cos",
    "Verif.C98_cosh",
    "Verif.C98_quad_cosh",
    "Verif.C98_tanh",
    "Verif.C98_quad_tanh",
    "Verif.C98_atan",
    "Verif.C98_quad_atan",
    "Verif.C98_atan2",
    "Verif.C98_quad_atan2",
    "Verif.C98_acos",
    "Verif.C98_asin",
    "Verif.C98_quad_acos_asin"
   ],
   "note": "sin, cos, tanh, cosh, atan, atan2, asin, acos of both types; the allowances are the error bounds of C68, C69, C71, C77, C83, C84 and C85."
  }
 ]
}