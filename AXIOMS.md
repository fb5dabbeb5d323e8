# Axioms per theorem (output of `#print axioms`, written by tools/axioms.py)

## Classical.choice, Quot.sound, propext

* `Verif.C01_add`
* `Verif.C02_sub`
* `Verif.C02_sub_eq_add_neg`
* `Verif.C03_mul`
* `Verif.C03_mul_relative`
* `Verif.C04_div`
* `Verif.C04_div_any`
* `Verif.C04_div_int`
* `Verif.C05_add_comm_partial`
* `Verif.C05_refuted`
* `Verif.C06_add_neg`
* `Verif.C06_div_neg_left`
* `Verif.C06_div_neg_right`
* `Verif.C06_mul_neg_left`
* `Verif.C06_mul_neg_right`
* `Verif.C06_quad_mul_neg_left`
* `Verif.C06_quad_mul_neg_right`
* `Verif.C06_sub_neg`
* `Verif.C07_add_zero`
* `Verif.C07_div_one`
* `Verif.C07_div_self`
* `Verif.C07_mul_one`
* `Verif.C07_sub_self`
* `Verif.C07_sub_zero`
* `Verif.C08_add`
* `Verif.C08_quad_add`
* `Verif.C08_quad_sub`
* `Verif.C08_sub`
* `Verif.C09_mul_partial`
* `Verif.C09_mul_zero_right_partial`
* `Verif.C09_quad_mul_partial`
* `Verif.C09_quad_refuted`
* `Verif.C09_refuted`
* `Verif.C10_div_partial`
* `Verif.C10_quad_div_partial`
* `Verif.C10_refuted`
* `Verif.C10_zero_div_partial`
* `Verif.C11_add`
* `Verif.C11_div`
* `Verif.C11_mul`
* `Verif.C11_product`
* `Verif.C11_quad_add`
* `Verif.C11_quad_div`
* `Verif.C11_quad_mul`
* `Verif.C11_quad_product`
* `Verif.C11_quad_rem`
* `Verif.C11_quad_sqr`
* `Verif.C11_quad_sub`
* `Verif.C11_quad_sum`
* `Verif.C11_rem`
* `Verif.C11_sub`
* `Verif.C11_sum`
* `Verif.C12_compare`
* `Verif.C12_partialCmp`
* `Verif.C13_eq_iff`
* `Verif.C13_gt_iff`
* `Verif.C13_le_iff`
* `Verif.C13_lt_trans`
* `Verif.C13_nan`
* `Verif.C13_quad_eq_iff`
* `Verif.C13_quad_le_iff`
* `Verif.C13_quad_lt_trans`
* `Verif.C13_quad_nan`
* `Verif.C13_quad_swap`
* `Verif.C13_swap`
* `Verif.C14_unique`
* `Verif.C15_i64`
* `Verif.C15_small`
* `Verif.C15_u64`
* `Verif.C16_i128_partial`
* `Verif.C16_i64`
* `Verif.C16_refuted`
* `Verif.C16_small`
* `Verif.C16_u128_partial`
* `Verif.C16_u64`
* `Verif.C17_to_f64`
* `Verif.C18_floor_off`
* `Verif.C18_floor_partial`
* `Verif.C18_refuted`
* `Verif.C19_ceil_off`
* `Verif.C19_ceil_partial`
* `Verif.C19_refuted`
* `Verif.C20_refuted`
* `Verif.C20_round_partial`
* `Verif.C21_fract_partial`
* `Verif.C21_refuted`
* `Verif.C21_trunc_partial`
* `Verif.C22_ceil_partial`
* `Verif.C22_floor_partial`
* `Verif.C22_refuted`
* `Verif.C22_round_half_partial`
* `Verif.C22_round_partial`
* `Verif.C22_round_refuted`
* `Verif.C22_trunc_partial`
* `Verif.C23_any_partial`
* `Verif.C23_quad_any_partial`
* `Verif.C23_quad_partial`
* `Verif.C23_quad_refuted`
* `Verif.C23_refuted`
* `Verif.C23_rem_partial`
* `Verif.C24_accept_partial`
* `Verif.C24_panic_partial`
* `Verif.C24_quad_accept_partial`
* `Verif.C24_quad_panic_partial`
* `Verif.C24_quad_reject`
* `Verif.C24_refuted`
* `Verif.C24_reject`
* `Verif.C24_same_language`
* `Verif.C25_integer`
* `Verif.C26_quad_sign_partial`
* `Verif.C26_refuted`
* `Verif.C26_sign_partial`
* `Verif.C27_case`
* `Verif.C27_exceptions`
* `Verif.C27_quad_case`
* `Verif.C27_quad_underscores`
* `Verif.C27_quad_white`
* `Verif.C27_underscores`
* `Verif.C27_white`
* `Verif.C28_classified`
* `Verif.C28_from`
* `Verif.C28_from_nan`
* `Verif.C28_quad_classified`
* `Verif.C28_quad_from`
* `Verif.C29_double_partial`
* `Verif.C29_quad_partial`
* `Verif.C29_quad_range_partial`
* `Verif.C29_quad_refuted`
* `Verif.C29_refuted`
* `Verif.C30_double`
* `Verif.C30_double_exp`
* `Verif.C30_quad`
* `Verif.C30_quad_exp`
* `Verif.C31_round`
* `Verif.C32_double`
* `Verif.C32_double_exp`
* `Verif.C32_quad`
* `Verif.C32_quad_exp`
* `Verif.C33_double_partial`
* `Verif.C33_quad_partial`
* `Verif.C33_quad_refuted`
* `Verif.C33_refuted`
* `Verif.C34_double_partial`
* `Verif.C34_quad_partial`
* `Verif.C34_quad_refuted`
* `Verif.C34_refuted`
* `Verif.C35_int`
* `Verif.C35_one`
* `Verif.C35_quad_one`
* `Verif.C35_quad_recip`
* `Verif.C35_quad_special`
* `Verif.C35_quad_total`
* `Verif.C35_quad_zero`
* `Verif.C35_recip`
* `Verif.C35_sign`
* `Verif.C35_sign_recip`
* `Verif.C35_special`
* `Verif.C35_total`
* `Verif.C35_zero`
* `Verif.C36_sqr`
* `Verif.C36_sqr_neg`
* `Verif.C36_sqr_relative`
* `Verif.C36_sqr_special`
* `Verif.C37_quad_refuted`
* `Verif.C37_quad_sqrt`
* `Verif.C37_quad_sqrt_nan`
* `Verif.C37_sqrt_inf`
* `Verif.C37_sqrt_nan`
* `Verif.C37_sqrt_neg`
* `Verif.C37_sqrt_zero`
* `Verif.C38_even_neg`
* `Verif.C38_inf`
* `Verif.C38_nan`
* `Verif.C38_quad_even_neg`
* `Verif.C38_quad_inf`
* `Verif.C38_quad_special_n`
* `Verif.C38_quad_zero`
* `Verif.C38_special_n`
* `Verif.C38_zero`
* `Verif.C39_big`
* `Verif.C39_ldexp_partial`
* `Verif.C39_quad_big`
* `Verif.C39_quad_ldexp_partial`
* `Verif.C39_quad_refuted`
* `Verif.C39_refuted`
* `Verif.C40_fold`
* `Verif.C40_product_int`
* `Verif.C40_quad_fold`
* `Verif.C40_quad_sum_int`
* `Verif.C40_sum_int`
* `Verif.C41_abs_val`
* `Verif.C41_partition`
* `Verif.C41_quad_abs_val`
* `Verif.C41_quad_partition`
* `Verif.C41_quad_signum`
* `Verif.C41_signum`
* `Verif.C42_high`
* `Verif.C42_inf`
* `Verif.C42_loop`
* `Verif.C42_low`
* `Verif.C42_nan`
* `Verif.C42_quad_high`
* `Verif.C42_quad_inf`
* `Verif.C42_quad_loop`
* `Verif.C42_quad_low`
* `Verif.C42_quad_nan`
* `Verif.C42_quad_total`
* `Verif.C42_quad_zero_one`
* `Verif.C42_total`
* `Verif.C42_zero_one`
* `Verif.C43_log_quotients`
* `Verif.C43_log_special`
* `Verif.C43_loop`
* `Verif.C43_quad_log_quotients`
* `Verif.C43_quad_log_special`
* `Verif.C43_quad_loop`
* `Verif.C43_quad_refuted`
* `Verif.C43_quad_special`
* `Verif.C43_quad_total`
* `Verif.C43_refuted`
* `Verif.C43_special`
* `Verif.C43_total`
* `Verif.C44_quad_special`
* `Verif.C44_quad_total_partial`
* `Verif.C44_refuted`
* `Verif.C44_special`
* `Verif.C44_total_partial`
* `Verif.C45_close`
* `Verif.C45_quad_close`
* `Verif.C45_same`
* `Verif.C45_table`
* `Verif.C46_axes`
* `Verif.C46_diagonals`
* `Verif.C46_inf`
* `Verif.C46_nan_partial`
* `Verif.C46_quad_axes`
* `Verif.C46_quad_diagonals`
* `Verif.C46_quad_inf`
* `Verif.C46_quad_nan_partial`
* `Verif.C46_quad_refuted`
* `Verif.C46_refuted`
* `Verif.C47_acosh`
* `Verif.C47_asin_acos_domain`
* `Verif.C47_asin_acos_one`
* `Verif.C47_atanh`
* `Verif.C47_hyper_inf`
* `Verif.C47_hyper_zero`
* `Verif.C47_nan`
* `Verif.C47_quad_acosh`
* `Verif.C47_quad_asin_acos_domain`
* `Verif.C47_quad_asin_acos_one`
* `Verif.C47_quad_atanh`
* `Verif.C47_quad_hyper_inf`
* `Verif.C47_quad_hyper_zero`
* `Verif.C47_quad_nan`
* `Verif.C47_quad_refuted`
* `Verif.C47_refuted`
* `Verif.C48_agree`
* `Verif.C48_double_first`
* `Verif.C48_double_normalized`
* `Verif.C48_double_values`
* `Verif.C48_quad_consistent`
* `Verif.C48_quad_first`
* `Verif.C48_quad_normalized`
* `Verif.C48_quad_values`
* `Verif.C49_double_inv_facts`
* `Verif.C49_double_sines`
* `Verif.C49_normalized`
* `Verif.C49_quad_inv_facts`
* `Verif.C49_quad_sines`
* `Verif.C50_accurate`
* `Verif.C50_add_neg`
* `Verif.C50_add_zero`
* `Verif.C50_normalized`
* `Verif.C50_refuted`
* `Verif.C50_sub_accurate`
* `Verif.C50_sub_eq_add_neg`
* `Verif.C50_sub_neg`
* `Verif.C50_sub_self`
* `Verif.C50_sub_zero`
* `Verif.C51_accurate`
* `Verif.C51_mul_one`
* `Verif.C51_mul_zero`
* `Verif.C51_normalized`
* `Verif.C51_one_mul`
* `Verif.C52_accurate`
* `Verif.C52_div_one`
* `Verif.C52_div_self`
* `Verif.C52_normalized`
* `Verif.C52_refuted`
* `Verif.C52_zero_div`
* `Verif.C53_compare_partial`
* `Verif.C53_refuted`
* `Verif.C53_single`
* `Verif.C53_single_ops`
* `Verif.C53_unique_partial`
* `Verif.C54_outside`
* `Verif.C54_two_prod`
* `Verif.C54_two_prod_exact`
* `Verif.C54_two_sqr`
* `Verif.C55_range_partial`
* `Verif.C55_refuted`
* `Verif.C55_special`
* `Verif.C55_total_partial`
* `Verif.C56_index`
* `Verif.C56_quad_index`
* `Verif.C57_quick_two_sum`
* `Verif.C57_two_diff`
* `Verif.C57_two_prod`
* `Verif.C57_two_sqr`
* `Verif.C57_two_sum`
* `Verif.C58_accumulate`
* `Verif.C58_refuted`
* `Verif.C58_renorm2`
* `Verif.C58_renorm2_order_refuted`
* `Verif.C58_renorm3_refuted`
* `Verif.C58_renorm4_partial`
* `Verif.C58_renorm5_partial`
* `Verif.C58_three_three_sum`
* `Verif.C58_three_two_sum`
* `Verif.C59_powi_accurate`
* `Verif.C59_powi_neg_accurate`
* `Verif.C60_accurate`
* `Verif.C61_double_partial`
* `Verif.C61_quad_partial`
* `Verif.C61_quad_refuted`
* `Verif.C61_refuted`
* `Verif.C61_refuted_ten`
* `Verif.C62_double_second_partial`
* `Verif.C62_refuted`
* `Verif.C62_refuted_tau`
* `Verif.C63_exp`
* `Verif.C63_exp_range`
* `Verif.C64_ln`
* `Verif.C64_ln_ap`
* `Verif.C64_log`
* `Verif.C64_log10_log2`
* `Verif.C65_def`
* `Verif.C65_nan`
* `Verif.C65_powf`
* `Verif.C65_special`
* `Verif.C66_accurate`
* `Verif.C66_special`
* `Verif.C67_sqrt`
* `Verif.C68_cos`
* `Verif.C68_sin`
* `Verif.C68_sin_cos`
* `Verif.C68_sin_small`
* `Verif.C68_sin_tiny`
* `Verif.C68_tan`
* `Verif.C68_tan_small`
* `Verif.C68_tan_tiny`
* `Verif.C69_cosh`
* `Verif.C69_neg_refuted`
* `Verif.C69_sinh`
* `Verif.C69_sinh_cosh`
* `Verif.C69_sinh_small`
* `Verif.C69_tanh`
* `Verif.C69_tanh_refuted`
* `Verif.C70_acosh`
* `Verif.C70_asinh`
* `Verif.C70_asinh_nonneg`
* `Verif.C70_atanh`
* `Verif.C70_overflow_refuted`
* `Verif.C71_acos`
* `Verif.C71_asin`
* `Verif.C71_atan`
* `Verif.C71_atan2`
* `Verif.C71_atan2_small`
* `Verif.C72_accurate`
* `Verif.C72_normalized`
* `Verif.C73_quad_exp`
* `Verif.C73_quad_exp_range`
* `Verif.C74_quad_ln`
* `Verif.C75_quad_powf`
* `Verif.C75_quad_powf_def`
* `Verif.C75_quad_powf_special`
* `Verif.C76_quad_log`
* `Verif.C76_quad_log10_log2`
* `Verif.C77_quad_cosh`
* `Verif.C77_quad_sinh`
* `Verif.C77_quad_tanh`
* `Verif.C78_quad_powi`
* `Verif.C78_quad_powi_neg`
* `Verif.C79_quad_parse`
* `Verif.C80_quad_accurate`
* `Verif.C80_quad_special`
* `Verif.C81_quad_sqrt`
* `Verif.C82_quad_acosh`
* `Verif.C82_quad_asinh`
* `Verif.C82_quad_asinh_nonneg`
* `Verif.C82_quad_atanh`
* `Verif.C83_quad_sinh`
* `Verif.C83_quad_sinh_cosh`
* `Verif.C83_quad_tanh`
* `Verif.C84_quad_cos`
* `Verif.C84_quad_sin`
* `Verif.C84_quad_sin_cos`
* `Verif.C84_quad_sin_small`
* `Verif.C84_quad_tan`
* `Verif.C84_quad_tan_small`
* `Verif.C85_quad_acos`
* `Verif.C85_quad_asin`
* `Verif.C85_quad_atan`
* `Verif.C85_quad_atan2`
* `Verif.C86_refuted`
* `Verif.C86_refuted_ten`
* `Verif.C86_value_partial`
* `Verif.C87_double_partial`
* `Verif.C87_quad_partial`
* `Verif.C87_refuted`
* `Verif.C88_cbrt`
* `Verif.C88_nroot`
* `Verif.C88_nroot_rpow`
* `Verif.C88_nroot_three`
* `Verif.C89_quad_cbrt`
* `Verif.C89_quad_nroot`
* `Verif.C89_quad_nroot_five`
* `Verif.C89_quad_nroot_rpow`
* `Verif.C90_add`
* `Verif.C90_div`
* `Verif.C90_int`
* `Verif.C90_mul`
* `Verif.C90_sub`
* `Verif.C91_product`
* `Verif.C91_quad_product`
* `Verif.C91_quad_sum`
* `Verif.C91_sum`
* `Verif.C92_cos_acos`
* `Verif.C92_exp_ln`
* `Verif.C92_ln_exp`
* `Verif.C92_pythagoras`
* `Verif.C92_quad_cos_acos`
* `Verif.C92_quad_exp_ln`
* `Verif.C92_quad_ln_exp`
* `Verif.C92_quad_pythagoras`
* `Verif.C92_quad_sin_asin`
* `Verif.C92_quad_sqr_sqrt`
* `Verif.C92_quad_sqrt_sqr`
* `Verif.C92_quad_tan_atan`
* `Verif.C92_sin_asin`
* `Verif.C92_sinh_asinh`
* `Verif.C92_sqr_sqrt`
* `Verif.C92_sqrt_sqr`
* `Verif.C92_tan_atan`
* `Verif.C92_tanh_atanh`
* `Verif.C93_close_partial`
* `Verif.C93_quad_close_partial`
* `Verif.C93_quad_refuted`
* `Verif.C93_quad_single_refuted`
* `Verif.C93_quad_special_partial`
* `Verif.C93_refuted`
* `Verif.C93_single_partial`
* `Verif.C93_special_partial`
* `Verif.C94_exp_add`
* `Verif.C94_ln_mul`
* `Verif.C94_quad_exp_add`
* `Verif.C94_quad_ln_mul`
* `Verif.C94_quad_sinh_cosh`
* `Verif.C94_quad_trig_add`
* `Verif.C94_sin_cos`
* `Verif.C94_sinh_cosh`
* `Verif.C94_trig_add`
* `Verif.C95_exp`
* `Verif.C95_ln`
* `Verif.C95_quad_exp`
* `Verif.C95_quad_ln`
* `Verif.C95_quad_sqrt`
* `Verif.C95_sign`
* `Verif.C95_sqrt`
* `Verif.C96_add_assoc`
* `Verif.C96_add_sub_cancel`
* `Verif.C96_assoc_refuted`
* `Verif.C96_distrib`
* `Verif.C96_mul_assoc`
* `Verif.C96_mul_div_cancel`
* `Verif.C96_quad_add_assoc`
* `Verif.C96_quad_add_sub_cancel`
* `Verif.C96_quad_distrib`
* `Verif.C96_quad_mul_assoc`
* `Verif.C96_quad_mul_div_cancel`
* `Verif.C97_add`
* `Verif.C97_atan2`
* `Verif.C97_compare`
* `Verif.C97_cosh`
* `Verif.C97_div`
* `Verif.C97_exp`
* `Verif.C97_ints`
* `Verif.C97_ln`
* `Verif.C97_mul`
* `Verif.C97_sin_cos`
* `Verif.C97_sqrt`
* `Verif.C98_acos`
* `Verif.C98_asin`
* `Verif.C98_atan`
* `Verif.C98_atan2`
* `Verif.C98_cosh`
* `Verif.C98_quad_acos_asin`
* `Verif.C98_quad_atan`
* `Verif.C98_quad_atan2`
* `Verif.C98_quad_cosh`
* `Verif.C98_quad_sin_cos`
* `Verif.C98_quad_tanh`
* `Verif.C98_sin_cos`
* `Verif.C98_tanh`

## propext

* `Verif.C06_neg_neg`
* `Verif.C06_quad_neg_neg`
* `Verif.C17_quad_tuples`
* `Verif.C17_tuple`
* `Verif.C41_abs`
* `Verif.C41_quad_abs`

