{"claims": [
  {"property": "C01", "status": "proved", "theorems": ["I256.C01_uint_wrapping_add", "I256.C01_uint_wrapping_sub", "I256.C01_uint_sub_add_cancel"], "note": ""},
  {"property": "C02", "status": "proved", "theorems": ["I256.C02_uint_overflowing_add", "I256.C02_uint_overflowing_sub", "I256.C02_uint_checked_add", "I256.C02_uint_checked_sub", "I256.C02_uint_saturating_add", "I256.C02_uint_saturating_sub", "I256.C02_uint_strict_add", "I256.C02_uint_strict_sub"], "note": ""},
  {"property": "C03", "status": "proved", "theorems": ["I256.C03_int_wrapping_add", "I256.C03_int_wrapping_sub", "I256.C03_int_overflowing_add", "I256.C03_int_overflowing_sub", "I256.C03_int_checked_add", "I256.C03_int_checked_sub", "I256.C03_int_saturating_add", "I256.C03_int_saturating_sub", "I256.C03_int_strict_add_sub"], "note": ""},
  {"property": "C04", "status": "proved", "theorems": ["I256.C04_uint_wrapping_add_signed", "I256.C04_uint_overflowing_add_signed", "I256.C04_uint_overflowing_sub_signed", "I256.C04_uint_checked_add_signed", "I256.C04_uint_saturating_add_signed", "I256.C04_int_overflowing_add_unsigned", "I256.C04_int_overflowing_sub_unsigned", "I256.C04_int_checked_unsigned", "I256.C04_int_saturating_add_unsigned", "I256.C04_int_saturating_sub_unsigned"], "note": ""},
  {"property": "C05", "status": "proved", "theorems": ["I256.C05_uint_add_ulimb", "I256.C05_uint_add_uwide", "I256.C05_int_add_ulimb", "I256.C05_int_add_ilimb", "I256.C05_int_add_uwide", "I256.C05_int_add_iwide", "I256.C05_uint_sub_ulimb", "I256.C05_uint_sub_uwide", "I256.C05_int_sub_ulimb", "I256.C05_int_sub_ilimb", "I256.C05_int_sub_uwide", "I256.C05_int_sub_iwide", "I256.C05_uint_add_ulimb_eq_full", "I256.C05_int_add_ilimb_eq_full", "I256.C05_uint_sub_ulimb_eq_full", "I256.C05_int_sub_ilimb_eq_full"], "note": "Limb and double-limb scalars, unsigned and signed."},
  {"property": "C06", "status": "proved", "theorems": ["I256.C06_uint_wrapping_mul", "I256.C06_int_wrapping_mul", "I256.C06_uint_wrapping_mul_scalar", "I256.C06_int_wrapping_mul_uscalar", "I256.C06_int_wrapping_mul_iscalar"], "note": ""},
  {"property": "C07", "status": "proved", "theorems": ["I256.C07_uint_overflowing_mul", "I256.C07_uint_checked_mul", "I256.C07_uint_saturating_strict_mul", "I256.C07_uint_mul_scalar"], "note": ""},
  {"property": "C08", "status": "partial", "theorems": ["I256.C08_int_mul_all_partial", "I256.C08_int_mul_scalar_all_partial", "I256.C08_int_overflowing_mul_false", "I256.C08_int_overflowing_mul_partial", "I256.C08_int_mul_partial", "I256.C08_int_mul_gap_false", "I256.C08_int_mul_scalar_partial"], "note": "Violated by the code: products just below MIN are not flagged (C08_int_overflowing_mul_false; C08_int_mul_gap_false for all such products). C08_int_mul_all_partial and C08_int_mul_scalar_all_partial give the result of every form for every pair of operands; outside the gap these are the claimed contracts (C08_*_partial)."},
  {"property": "C09", "status": "proved", "theorems": ["I256.C09_chain_mul", "I256.C09_widening_mul", "I256.C09_carrying_mul"], "note": ""},
  {"property": "C10", "status": "proved", "theorems": ["I256.C10_uint_wrapping_pow", "I256.C10_int_wrapping_pow"], "note": ""},
  {"property": "C11", "status": "partial", "theorems": ["I256.C11_int_pow_all_partial", "I256.C11_uint_overflowing_pow", "I256.C11_uint_pow", "I256.C11_int_overflowing_pow_false", "I256.C11_int_overflowing_pow_partial", "I256.C11_int_pow_partial"], "note": "Unsigned proved in full. Signed violated by the code for powers just below MIN (C11_int_overflowing_pow_false); C11_int_pow_all_partial gives the result of every form for every base and exponent, which is the claimed one outside the gap."},
  {"property": "C12", "status": "proved", "theorems": ["I256.C12_uint_div", "I256.C12_uint_overflowing_div", "I256.C12_uint_checked_div", "I256.C12_uint_div_rem"], "note": "Quotient proved for all operands in all forms; panics exactly if DivPanics (see C14)."},
  {"property": "C13", "status": "partial", "theorems": ["I256.C13_exact_cases", "I256.C13_uint_rem_partial", "I256.C13_uint_rem_exact_partial", "I256.C13_uint_rem_forms_partial", "I256.C13_uint_rem_false"], "note": "Violated by the code (C13_uint_rem_false, bug B2). The partial theorems give the returned remainder exactly for every operand pair, and C13_exact_cases lists classes of operands where it is right."},
  {"property": "C14", "status": "partial", "theorems": ["I256.C14_no_panic", "I256.C14_uint_div_partial", "I256.C14_uint_div_false", "I256.C14_uint_div_uwide_false", "I256.C14_int_div_false"], "note": "Violated by the code (C14_uint_div_false, C14_uint_div_uwide_false, C14_int_div_false, bug B2). The partial theorem says exactly when it panics; C14_no_panic: never if the divisor has a leading zero limb."},
  {"property": "C15", "status": "partial", "theorems": ["I256.C15_uint_div_zero_partial", "I256.C15_uint_div_zero_false", "I256.C15_int_div_zero_partial", "I256.C15_int_div_zero_false", "I256.C15_uint_div_zero_all_partial", "I256.C15_int_div_zero_all_partial", "I256.C15_int_div_ceil_zero_partial"], "note": "Violated by the code for 0 / 0 (C15_*_false, bug B4). C15_*_partial state what every form does with a zero divisor for all numerators."},
  {"property": "C16", "status": "proved", "theorems": ["I256.C16_uint_div_ulimb", "I256.C16_uint_div_ulimb_zero", "I256.C16_uint_div_uwide", "I256.C16_uint_div_uwide_zero", "I256.C16_uint_div_ulimb_zero_forms", "I256.C16_uint_div_uwide_zero_forms"], "note": "Limb divisors never panic and are exact; double-limb divisors are exact or panic exactly if DivPanics w 2."},
  {"property": "C17", "status": "partial", "theorems": ["I256.C17_int_rem_all_partial", "I256.C17_int_div_rem_all_partial", "I256.C17_int_wrapping_div", "I256.C17_int_overflowing_div", "I256.C17_int_checked_div", "I256.C17_int_saturating_div", "I256.C17_int_div", "I256.C17_int_rem_partial", "I256.C17_int_rem_forms_partial", "I256.C17_int_div_rem_partial", "I256.C17_int_rem_false"], "note": "Quotient forms proved for all operands. Remainder violated by the code (C17_int_rem_false, bug B2); C17_*_all_partial give the result of every form for every non-zero divisor."},
  {"property": "C18", "status": "partial", "theorems": ["I256.C18_int_div_euclid_all_partial", "I256.C18_int_rem_euclid_all_partial", "I256.C18_int_wrapping_euclid_partial", "I256.C18_int_div_euclid_partial", "I256.C18_int_rem_euclid_partial", "I256.C18_int_euclid_false"], "note": "Violated by the code for some exact multiples (C18_int_euclid_false, bug B2); C18_*_all_partial give the result of every form for every non-zero divisor."},
  {"property": "C19", "status": "partial", "theorems": ["I256.C19_uint_div_floor", "I256.C19_uint_div_ceil_partial", "I256.C19_uint_div_ceil_false", "I256.C19_int_div_floor_partial", "I256.C19_int_div_ceil_partial", "I256.C19_int_false"], "note": "Violated by the code for some exact multiples (C19_*_false, bug B2); complete characterisation for all operands. Unsigned div_floor proved."},
  {"property": "C20", "status": "proved", "theorems": ["I256.C20_uint_wrapping_shl", "I256.C20_int_wrapping_shl", "I256.C20_uint_wrapping_shr", "I256.C20_int_wrapping_shr", "I256.C20_checked_shl", "I256.C20_uint_checked_shr", "I256.C20_int_checked_shr", "I256.C20_strict", "I256.C20_int_overflowing_shl", "I256.C20_int_overflowing_shr"], "note": ""},
  {"property": "C21", "status": "proved", "theorems": ["I256.C21_rotate_left", "I256.C21_rotate_right", "I256.C21_rotate_inverse"], "note": ""},
  {"property": "C22", "status": "proved", "theorems": ["I256.C22_count_ones", "I256.C22_count_zeros", "I256.C22_leading_zeros", "I256.C22_trailing_zeros", "I256.C22_leading_ones", "I256.C22_trailing_ones", "I256.C22_uint_ilog2", "I256.C22_int_ilog2"], "note": ""},
  {"property": "C23", "status": "proved", "theorems": ["I256.C23_and", "I256.C23_or", "I256.C23_xor", "I256.C23_not"], "note": ""},
  {"property": "C24", "status": "proved", "theorems": ["I256.C24_swap_bytes", "I256.C24_reverse_bits", "I256.C24_involution"], "note": "Byte and bit index characterisation of swap_bytes and reverse_bits for every limb width divisible by 8 and every length; both are involutions; signed forms are the same bits."},
  {"property": "C25", "status": "proved", "theorems": ["I256.C25_to_bytes", "I256.C25_to_bytes_value", "I256.C25_from_bytes", "I256.C25_bytes_roundtrip", "I256.C25_bytes_roundtrip_rev", "I256.C25_to_be_le", "I256.C25_limbs", "I256.C25_limbs_roundtrip", "I256.C25_to_array", "I256.C25_from_array", "I256.C25_array_roundtrip"], "note": "Byte i of the value, in both directions, on little- and big-endian targets (parameter be); limb, wide, u32 and u64 arrays; from after to and to after from are the identity."},
  {"property": "C26", "status": "proved", "theorems": ["I256.C26_uint_order", "I256.C26_int_order", "I256.C26_eq"], "note": ""},
  {"property": "C27", "status": "proved", "theorems": ["I256.C27_from_unsigned", "I256.C27_from_signed", "I256.C27_as", "I256.C27_roundtrip", "I256.C27_limb", "I256.C27_as_limb"], "note": ""},
  {"property": "C28", "status": "partial", "theorems": ["I256.C28_try_from_prim", "I256.C28_try_from_signed", "I256.C28_try_from_unsigned_false", "I256.C28_try_from_unsigned_partial"], "note": "TryFrom from signed primitives and from the signed type are fully proved. TryFrom<unsigned> of the signed types rejects MAX (C28_try_from_unsigned_false); every other value is handled correctly (C28_try_from_unsigned_partial)."},
  {"property": "C29", "status": "partial", "theorems": ["I256.C29_sign_only_false", "I256.C29_int_gap_false", "I256.C29_uint_from_str_radix_partial", "I256.C29_int_from_str_radix_partial", "I256.C29_int_gap_partial", "I256.C29_sign_only_partial", "I256.C29_radix_panic", "I256.C29_uint_from_str", "I256.C29_int_from_str_partial"], "note": "False for a sole sign with from_str_radix (C29_sign_only_false) and for negative numbers just below MIN (C29_int_gap_false, the overflow test of B1). Proved for every other string, with the exact results on the excepted ones; unsigned FromStr is proved for all strings."},
  {"property": "C30", "status": "partial", "theorems": ["I256.C30_uint_to_str_radix", "I256.C30_panic", "I256.C30_int_to_str_radix_false", "I256.C30_int_to_str_radix_partial", "I256.C30_int_to_str_radix_negative_partial", "I256.C30_int_to_str_radix_negative_all_partial", "I256.C30_uint_fmt", "I256.C30_int_fmt", "I256.C30_numeral"], "note": "False for signed to_str_radix of negative numbers: wrong for every negative number and base (C30_int_to_str_radix_negative_partial), with the exact output given by C30_int_to_str_radix_negative_all_partial. Proved for unsigned to_str_radix, for signed numbers that are not negative, and for Display, Binary, Octal and hexadecimal of both kinds."},
  {"property": "C31", "status": "partial", "theorems": ["I256.C31_uint_to_str_radix", "I256.C31_uint_display", "I256.C31_int_display", "I256.C31_int_to_str_radix_partial", "I256.C31_int_to_str_radix_false", "I256.C31_int_numeral"], "note": "False for signed to_str_radix of negative numbers, whose writer is wrong (C30). Proved for everything else; the signed parser reads every canonical numeral back."},
  {"property": "C32", "status": "partial", "theorems": ["I256.C32_uint_checked_ilog_false", "I256.C32_uint_base_one_false", "I256.C32_int_checked_ilog_false", "I256.C32_uint_checked_ilog_partial", "I256.C32_uint_checked_ilog_small_partial", "I256.C32_uint_base_one_partial", "I256.C32_uint_ilog_partial", "I256.C32_int_checked_ilog_partial", "I256.C32_int_ilog_partial"], "note": "checked_ilog(3,10) is None instead of Some(0), base 1 never returns (no overflow checks) or panics at the counter overflow, and the signed form panics for 1 <= x < b: negations proved. For b <= x with b >= 2 the result is the exact logarithm; the loop is modelled by a round bound and shown to end."},
  {"property": "C33", "status": "proved", "theorems": ["I256.C33_is_power_of_two", "I256.C33_least", "I256.C33_checked_next_power_of_two", "I256.C33_wrapping_next_power_of_two", "I256.C33_next_power_of_two"], "note": "is_power_of_two, checked/wrapping/plain next_power_of_two against the least power of two not below x; the overflow branch and the overflow-check panic are covered."},
  {"property": "C34", "status": "partial", "theorems": ["I256.C34_uint_is_multiple_of_partial", "I256.C34_uint_next_multiple_of_partial", "I256.C34_uint_is_multiple_of_false", "I256.C34_uint_next_multiple_of_false", "I256.C34_int_next_multiple_of_partial", "I256.C34_uint_next_multiple_of_all_partial", "I256.C34_int_next_multiple_of_all_partial"], "note": "Violated by the code through the wrong remainder (C34_*_false, bug B2); exact when the division is exact, and C34_*_all_partial give the result for every non-zero divisor."},
  {"property": "C35", "status": "proved", "theorems": ["I256.C35_uint_midpoint", "I256.C35_uint_abs_diff"], "note": "midpoint is the floor of the mean and abs_diff is |x-y| for all operands."},
  {"property": "C36", "status": "proved", "theorems": ["I256.C36_int_wrapping_neg", "I256.C36_int_neg", "I256.C36_int_saturating_neg", "I256.C36_int_abs", "I256.C36_int_unsigned_abs", "I256.C36_int_sign_tests", "I256.C36_int_signum", "I256.C36_int_abs_diff"], "note": ""},
  {"property": "C37", "status": "partial", "theorems": ["I256.C37_uint_carrying", "I256.C37_uint_chain_add", "I256.C37_uint_chain_sub", "I256.C37_int_carrying_add_false", "I256.C37_int_borrowing_sub_false", "I256.C37_int_carrying_partial"], "note": "Unsigned forms and chains proved. The signed flag claim is false (witness MIN + (-1) + 1); the partial theorem gives the exact flag condition."},
  {"property": "C38", "status": "partial", "theorems": ["I256.C38_unchecked", "I256.C38_narrow_false", "I256.C38_checked_partial", "I256.C38_all_partial", "I256.C38_narrow_partial"], "note": "Violated by the code for u8 and i8 amounts in builds with overflow checks (C38_narrow_false). C38_all_partial gives the panic condition and the result for every amount of every primitive type; C38_narrow_partial says which 8-bit amounts each width rejects."},
  {"property": "C39", "status": "partial", "theorems": ["I256.C39_unbounded_shl", "I256.C39_uint_unbounded_shr", "I256.C39_int_unbounded_shr_false", "I256.C39_int_unbounded_shr_partial", "I256.C39_int_unbounded_shr_all_partial"], "note": "Left and unsigned right shift proved for all amounts. Signed right shift violates it for negative numbers and amounts >= BITS (C39_int_unbounded_shr_false); C39_int_unbounded_shr_all_partial gives the result for all amounts and shows that these are the only exceptions."},
  {"property": "C40", "status": "partial", "theorems": ["I256.C40_uint_add_sub", "I256.C40_int_add_sub", "I256.C40_uint_add_signed", "I256.C40_int_add_unsigned", "I256.C40_carrying", "I256.C40_int_neg_abs", "I256.C40_abs_diff", "I256.C40_uint_mul", "I256.C40_int_wrapping_mul", "I256.C40_int_mul_partial", "I256.C40_int_overflowing_mul_partial", "I256.C40_uint_pow", "I256.C40_int_pow_partial", "I256.C40_order", "I256.C40_sign_tests", "I256.C40_bitops", "I256.C40_counts", "I256.C40_shift", "I256.C40_rotate", "I256.C40_midpoint", "I256.C40_power_of_two", "I256.C40_casts", "I256.C40_to_bytes", "I256.C40_from_bytes", "I256.C40_swap_bytes", "I256.C40_uint_div_alike_partial", "I256.C40_uint_rem_alike_partial", "I256.C40_uint_div_ceil_alike_partial", "I256.C40_uint_next_multiple_partial", "I256.C40_int_div_alike_partial", "I256.C40_int_rem_alike_partial", "I256.C40_int_div_euclid_alike_partial", "I256.C40_int_rem_euclid_alike_partial", "I256.C40_int_div_round_alike_partial", "I256.C40_int_next_multiple_partial", "I256.C40_uint_next_multiple_false", "I256.C40_uint_div_zero", "I256.C40_int_div_zero", "I256.C40_int_mul_fixed_partial", "I256.C40_uint_div_fixed_partial", "I256.C40_uint_rem_fixed_partial", "I256.C40_int_div_fixed_signed_partial", "I256.C40_int_div_fixed_unsigned_partial", "I256.C40_uint_div_fixed_zero_partial", "I256.C40_uint_div_fixed_false", "I256.C40_int_mul_fixed_false", "I256.C40_int_mul_wide_false", "I256.C40_shift_prim", "I256.C40_shift_big", "I256.C40_int_unbounded_shr", "I256.C40_widening_mul", "I256.C40_int_carrying", "I256.C40_to_primitive", "I256.C40_num_signed", "I256.C40_ilog_partial", "I256.C40_int_from_str_partial", "I256.C40_fmt_debug", "I256.C40_to_str_radix", "I256.C40_fmt", "I256.C40_uint_parse", "I256.C40_int_parse_partial", "I256.C40_uint_fixed", "I256.C40_int_fixed_partial", "I256.C40_uint_div_partial", "I256.C40_uint_rem_partial", "I256.C40_int_div_partial", "I256.C40_int_mul_false", "I256.C40_uint_div_false", "I256.C40_uint_rem_false", "I256.C40_int_fixed_false"], "note": "Proved for all pairs of builds (32/64-bit limbs, any number of limbs that gives the same width): add, sub, mixed-sign forms, carries, neg/abs, unsigned mul and pow, wrapping signed mul and pow, complete products, order, bit operations and counts, all shift operators, rotations, byte order, casts and checked conversions, midpoint, powers of two, num-traits signs, formatting, unsigned parsing, fixed-width scalars. The code violates the full statement (C40_*_false): signed overflow detection in mul/pow/parse depends on the limb size (exact condition in C40_int_overflowing_mul_partial); panics and remainders of division depend on it, and every form of division has an exact condition (iff) for agreement in C40_*_alike_partial, C40_*_fixed_partial and C40_ilog_partial; division by a zero of the same type always agrees and by a zero scalar except for a zero dividend; signed 128-bit scalars panic or are misread on 32-bit limbs. Quotients agree whenever both builds return."},
  {"property": "C41", "status": "partial", "theorems": ["I256.C41_uint_u128", "I256.C41_int_add_sub_panics", "I256.C41_int_mul_u128_swapped", "I256.C41_int_mul_i128_swapped", "I256.C41_int_mul_u128_partial", "I256.C41_int_mul_i128_partial", "I256.C41_int_mul_u128_false", "I256.C41_int_add_u128_false", "I256.C41_int_mul_all_partial"], "note": "Unsigned types: proved exact. Signed types: addition and subtraction panic for all operands (C41_int_add_sub_panics); multiplication uses the scalar with two 32-bit digits exchanged, characterised for all operands (C41_int_mul_all_partial), so it is exact only if these digits agree (C41_int_mul_*_partial)."},
  {"property": "C42", "status": "partial", "theorems": ["I256.C42_int_mul_pow_all_partial", "I256.C42_uint_mul", "I256.C42_int_mul_false", "I256.C42_int_mul_partial", "I256.C42_uint_pow", "I256.C42_int_pow_partial", "I256.C42_uint_add_sub", "I256.C42_int_add_sub"], "note": "Unsigned +, -, *, pow and signed +, - proved for all operands. Signed * and pow with overflow checks violate it for results just below MIN (C42_int_mul_false); exact elsewhere, and C42_int_mul_pow_all_partial covers all operands."},
  {"property": "C43", "status": "partial", "theorems": ["I256.C43_int_midpoint_partial", "I256.C43_int_midpoint_false", "I256.C43_int_midpoint_deviation_partial"], "note": "The result is the mean rounded towards zero for all operands; the documentation claims rounding towards negative infinity, which is refuted by a witness, and the exact set of deviating operands is given."},
  {"property": "C44", "status": "proved", "theorems": ["I256.C44_ring", "I256.C44_signed_eq_unsigned"], "note": ""},
  {"property": "C45", "status": "proved", "theorems": ["I256.C45_checked_signed_diff", "I256.C45_uint_neg"], "note": ""},
  {"property": "C46", "status": "proved", "theorems": ["I256.C46_uint_to_unsigned", "I256.C46_uint_to_signed", "I256.C46_int_to_unsigned", "I256.C46_int_to_signed", "I256.C46_uint_from_primitive", "I256.C46_int_from_primitive", "I256.C46_uint_to_size", "I256.C46_int_to_size", "I256.C46_num_cast"], "note": ""},
  {"property": "C47", "status": "partial", "theorems": ["I256.C47_form_false", "I256.C47_uint_exp_partial", "I256.C47_int_exp_partial"], "note": "The denoted value is right for all numbers; the form differs from the primitive integers exactly for one-digit numbers and multiples of ten."},
  {"property": "C48", "status": "proved", "theorems": ["I256.C48_low_high", "I256.C48_high_mul", "I256.C48_parity"], "note": ""},
  {"property": "C49", "status": "partial", "theorems": ["I256.C49_other_type", "I256.C49_self_false", "I256.C49_self_partial", "I256.C49_self_all_partial", "I256.C49_other_type_unchecked"], "note": "Amounts of the other signedness proved in full, also out of range without overflow checks. Same-type amounts are never range checked (C49_self_false); C49_self_all_partial gives the result for every amount."},
  {"property": "C50", "status": "partial", "theorems": ["I256.C50_is_negative", "I256.C50_is_positive_false", "I256.C50_is_positive_partial", "I256.C50_abs_sub", "I256.C50_signum"], "note": "is_positive(0) returns true, against the num-traits documentation (C50_is_positive_false); proved for all non-zero numbers. The other methods are fully proved."},
  {"property": "C51", "status": "proved", "theorems": ["I256.C51_int_div_uwide_forms", "I256.C51_int_div_ilimb_ops", "I256.C51_int_div_iwide_forms", "I256.C51_int_div_iwide_ops", "I256.C51_int_div_zero_forms", "I256.C51_int_div_ulimb", "I256.C51_int_div_uwide", "I256.C51_int_div_ilimb", "I256.C51_int_div_iwide", "I256.C51_int_div_scalar_zero"], "note": "Limb scalars: exact and never panic. Double-limb scalars: exact or panic exactly if DivPanics w 2."},
  {"property": "C52", "status": "partial", "theorems": ["I256.C52_align_false", "I256.C52_radix_fmt_align_partial", "I256.C52_display_align_partial", "I256.C52_radix_output_partial", "I256.C52_radix_fmt_iff_partial", "I256.C52_radix_fmt_any_fill_partial", "I256.C52_display_iff_partial", "I256.C52_flags_false", "I256.C52_radix_fmt_partial", "I256.C52_display_partial"], "note": "False for several flag combinations and for the alignments < and ^. The exact output is proved for all flags, and agreement with the primitive integers is characterised by an equivalence for every fill character and alignment: for bases 2, 8 and 16 without + exactly when the digits fill the width, or there is no # and the fill characters happen to be right (flag 0 with fill 0; default alignment or >; all digits equal to the fill), plus a coincidence for the fill +; for Display exactly when the text fills the width and, unsigned, there is no +."},
  {"property": "C53", "status": "proved", "theorems": ["I256.C53_uint_add_sub_fixed", "I256.C53_int_add_sub_fixed_unsigned", "I256.C53_int_add_sub_fixed_signed"], "note": "All scalar sizes on both limb sizes; signed 128-bit scalars on 32-bit limbs are in C41."},
  {"property": "C54", "status": "partial", "theorems": ["I256.C54_uint_mul_fixed", "I256.C54_int_mul_fixed_unsigned_partial", "I256.C54_int_mul_fixed_signed_partial", "I256.C54_int_mul_fixed_false", "I256.C54_int_mul_fixed_all_partial"], "note": "Unsigned types: proved. Signed types: violated in the overflow gap of C08 (C54_int_mul_fixed_false), exact outside; C54_int_mul_fixed_all_partial gives every form for all operands."},
  {"property": "C55", "status": "partial", "theorems": ["I256.C55_uint_div_fixed_partial", "I256.C55_uint_div_fixed_zero", "I256.C55_int_div_fixed_unsigned_partial", "I256.C55_int_div_fixed_signed_partial", "I256.C55_int_div_fixed_zero", "I256.C55_uint_div_fixed_false", "I256.C55_int_div_fixed_false", "I256.C55_int_div_fixed_unsigned_all_partial", "I256.C55_int_div_fixed_signed_all_partial", "I256.C55_int_div_fixed_zero_partial", "I256.C55_int_div_fixed_unsigned_false", "I256.C55_int_div_fixed_zero_false", "I256.C55_uint_div_fixed_zero_forms", "I256.C55_int_div_fixed_zero_checked", "I256.C55_int_div_fixed_zero_overflowing"], "note": "Violated by the code: panics for scalars of two limbs and wrong remainders for 128-bit scalars on 32-bit limbs when an estimate is corrected; negative dividends with unsigned scalars then also get a wrong quotient or panic (C55_*_false); 0/0 with a scalar wider than a limb does not panic. Exact panic condition and exact results for every dividend and every divisor, zero included (C55_*_all_partial, C55_*_zero_partial)."},
  {"property": "C56", "status": "proved", "theorems": ["I256.C56_uint_add_sub", "I256.C56_uint_mul", "I256.C56_int_add_sub_neg", "I256.C56_int_mul", "I256.C56_shifts"], "note": "Proved for all operands in the domain of the methods; the overflow test of signed mul is wrong only outside that domain."},
  {"property": "C57", "status": "proved", "theorems": ["I256.C57_prim_int_shifts", "I256.C57_prim_int_shifts_out", "I256.C57_zero_one"], "note": "Proved for both overflow modes."},
  {"property": "C58", "status": "partial", "theorems": ["I256.C58_int_mul_add_all_partial", "I256.C58_uint_mul_add", "I256.C58_int_mul_add_wrapping", "I256.C58_int_mul_add_false", "I256.C58_int_mul_add_partial"], "note": "Unsigned and wrapping forms proved. Signed with overflow checks violated for products just below MIN (C58_int_mul_add_false, bug B1); exact elsewhere, and C58_int_mul_add_all_partial gives the result for all operands."},
  {"property": "C59", "status": "proved", "theorems": ["I256.C59_get_limb", "I256.C59_get_wide", "I256.C59_ends", "I256.C59_equality"], "note": "Proved for both byte orders."},
  {"property": "C60", "status": "proved", "theorems": ["I256.C60_shl_eq_mul_pow", "I256.C60_unbounded_compose", "I256.C60_shift_back", "I256.C60_rotate_compose", "I256.C60_rotate_eq_shifts", "I256.C60_counts"], "note": "Proved for all numbers and amounts."},
  {"property": "C61", "status": "proved", "theorems": ["I256.C61_uint_pow_laws", "I256.C61_int_pow_eq"], "note": "Proved for all bases."},
  {"property": "C62", "status": "proved", "theorems": ["I256.C62_add_bits", "I256.C62_not"], "note": "Proved for all operands."},
  {"property": "C63", "status": "proved", "theorems": ["I256.C63_uint_add", "I256.C63_uint_add_limb", "I256.C63_uint_add_wide", "I256.C63_int_add", "I256.C63_int_add_ulimb", "I256.C63_int_add_ilimb", "I256.C63_int_add_uwide", "I256.C63_int_add_iwide", "I256.C63_uint_sub", "I256.C63_uint_sub_limb", "I256.C63_uint_sub_wide", "I256.C63_int_sub", "I256.C63_int_sub_ulimb", "I256.C63_int_sub_ilimb", "I256.C63_int_sub_uwide", "I256.C63_int_sub_iwide", "I256.C63_negate", "I256.C63_index_checked"], "note": "Proved for both byte orders and any limb width, on the literal transcription of the loops."},
  {"property": "C64", "status": "proved", "theorems": ["I256.C64_mac", "I256.C64_uint_mul", "I256.C64_uint_mul_rejects", "I256.C64_uint_mul_scalar", "I256.C64_int_mul_wrapping", "I256.C64_int_mul_overflowing", "I256.C64_widening_mul"], "note": "Proved for both byte orders and any limb width, on the literal transcription of the loops; the signed flag is stated with the gap of C08."},
  {"property": "C65", "status": "proved", "theorems": ["I256.C65_kernel_left", "I256.C65_kernel_right", "I256.C65_kernel_rejects", "I256.C65_kernel_rotate", "I256.C65_wrapping_shl", "I256.C65_wrapping_shr", "I256.C65_rotate"], "note": "Literal model of the kernels and of the callers; both byte orders."},
  {"property": "C66", "status": "proved", "theorems": ["I256.C66_uint_order", "I256.C66_int_order", "I256.C66_eq", "I256.C66_bitwise", "I256.C66_not", "I256.C66_width_rejects", "I256.C66_count_ones", "I256.C66_zeros", "I256.C66_flip", "I256.C66_swap_array", "I256.C66_sign", "I256.C66_halves"], "note": "Literal model of the loops in src/shared, src/int/ops.rs and src/uint/extensions.rs; both byte orders."},
  {"property": "C67", "status": "proved", "theorems": ["I256.C67_uint_div_rem", "I256.C67_uint_div_rem_zero", "I256.C67_uint_div_rem_ulimb", "I256.C67_uint_div_rem_uwide", "I256.C67_uint_div_rem_u128", "I256.C67_int_neg", "I256.C67_int_div_rem", "I256.C67_int_div_rem_zero", "I256.C67_builds_agree"], "note": "Exact: the only panics are the out-of-range add-back index (B2) and the zero divisor, in every build and byte order."},
  {"property": "C68", "status": "proved", "theorems": ["I256.C68_uint_div_rem_ulimb", "I256.C68_int_div_rem_ulimb", "I256.C68_int_div_rem_ilimb", "I256.C68_int_div_rem_uwide", "I256.C68_int_div_rem_iwide", "I256.C68_int_div_rem_u128", "I256.C68_int_div_rem_i128"], "note": "Exact description of every run: panics, quotients, remainders and stray bits. The 64-bit limbs build of the 128-bit divisions goes through the double limb functions."},
  {"property": "C69", "status": "proved", "theorems": ["I256.C69_from_unsigned", "I256.C69_from_signed", "I256.C69_as", "I256.C69_from_limb", "I256.C69_as_limb", "I256.C69_reinterpret", "I256.C69_min_max", "I256.C69_parity", "I256.C69_ends"], "note": "Literal transcription with memory order, checked accesses and assertions; every run ends normally."},
  {"property": "C70", "status": "proved", "theorems": ["I256.C70_uint_to_str_radix", "I256.C70_int_to_str_radix", "I256.C70_int_to_str_radix_negative", "I256.C70_to_str_radix_panic", "I256.C70_uint_from_str_radix", "I256.C70_int_from_str_radix", "I256.C70_int_from_str_radix_gap", "I256.C70_from_str_radix_rest", "I256.C70_uint_from_str", "I256.C70_int_from_str", "I256.C70_radix_fmt", "I256.C70_display", "I256.C70_exp"], "note": "Literal transcription with memory order, in-place buffer, checked accesses and assertions. The statement describes the behaviour for all inputs, including the inputs on which C29 and C30 are violated."},
  {"property": "C71", "status": "proved", "theorems": ["I256.C71_uint_pow", "I256.C71_int_pow", "I256.C71_uint_ilog", "I256.C71_uint_ilog_base_one", "I256.C71_int_ilog"], "note": "Literal transcription with memory order, checked accesses and assertions. The statement describes the behaviour for all inputs, including those on which C11 and C32 are violated."},
  {"property": "C72", "status": "proved", "theorems": ["I256.C72_uint_arith", "I256.C72_int_arith", "I256.C72_bounds", "I256.C72_from_bool_char", "I256.C72_as_size", "I256.C72_from_size", "I256.C72_uint_strict_neg", "I256.C72_errors"], "note": "Trait methods that only call the inherent method of the same name are covered by the property of that method."},
  {"property": "C73", "status": "proved", "theorems": ["I256.C73_unsigned", "I256.C73_signed", "I256.C73_mul"], "note": "The helpers are public through the math module."},
  {"property": "C74", "status": "proved", "theorems": ["I256.C74_uint", "I256.C74_int"], "note": ""},
  {"property": "C75", "status": "proved", "theorems": ["I256.C75_uint_accepts", "I256.C75_int_accepts", "I256.C75_uint_normal", "I256.C75_int_normal", "I256.C75_case", "I256.C75_zeros"], "note": "The iff theorems cover every text, including a sole sign (accepted as zero by from_str_radix, B6) and the gap (B1)."},
  {"property": "C76", "status": "proved", "theorems": ["I256.C76_binary", "I256.C76_hex", "I256.C76_decimal_length", "I256.C76_parity"], "note": "Compares the writer with the bit counters, the byte conversion, ilog and is_even."},
  {"property": "C77", "status": "proved", "theorems": ["I256.C77_uint_reconstruct", "I256.C77_int_reconstruct", "I256.C77_uint_cancel", "I256.C77_uint_pow2", "I256.C77_int_pow2", "I256.C77_int_rounding"], "note": "The reconstruction laws are equivalences: they also say that the laws fail whenever the remainder is spoilt (B2)."},
  {"property": "C78", "status": "proved", "theorems": ["I256.C78_wrapping", "I256.C78_order", "I256.C78_div", "I256.C78_misc", "I256.C78_checked", "I256.C78_text"], "note": "Results are compared as limbs or as panics, with no hypothesis that the division is exact."},
  {"property": "C79", "status": "proved", "theorems": ["I256.C79_uint_saturating", "I256.C79_int_saturating", "I256.C79_checked", "I256.C79_not", "I256.C79_shr", "I256.C79_midpoint", "I256.C79_abs_diff", "I256.C79_div"], "note": "Signed saturating_mul is left out: it does not respect the order, because of B1 (an example beside C79_int_saturating)."},
  {"property": "C80", "status": "proved", "theorems": ["I256.C80_uint", "I256.C80_int", "I256.C80_mixed", "I256.C80_shift", "I256.C80_saturating", "I256.C80_scalar", "I256.C80_uint_div", "I256.C80_int_div", "I256.C80_div_zero", "I256.C80_uint_div_scalar", "I256.C80_uint_div_scalar_zero", "I256.C80_int_div_uscalar", "I256.C80_int_div_iscalar", "I256.C80_int_div_scalar_zero", "I256.C80_uint_fixed", "I256.C80_int_fixed", "I256.C80_fixed_div", "I256.C80_fixed_div_zero"], "note": "`Agree`, `AgreeIn`, `AgreeZero`, `AgreeZeroIn` and `Clamps` (Verif/SpecForms.lean) state the relations without mentioning values."},
  {"property": "C81", "status": "proved", "theorems": ["I256.C81_uint_sandwich", "I256.C81_uint_log_pow", "I256.C81_uint_mono", "I256.C81_uint_div", "I256.C81_uint_base_two", "I256.C81_uint_log2_mul", "I256.C81_int_sandwich"], "note": "The hypotheses say that the call returns a number, which excludes the cases of B2 and B5."},
  {"property": "C82", "status": "proved", "theorems": ["I256.C82_div_rem", "I256.C82_div_rem_same", "I256.C82_div_rem_wide", "I256.C82_int_div_rem", "I256.C82_int_mul", "I256.C82_int_mul_same", "I256.C82_checked_ilog", "I256.C82_from_str_radix", "I256.C82_int_to_str_radix", "I256.C82_shift_prim", "I256.C82_int_unbounded_shr", "I256.C82_int_carrying", "I256.C82_try_from_unsigned", "I256.C82_limb_n", "I256.C82_div_rem_any_lengths", "I256.C82_div_rem_wide_any_length", "I256.C82_div_rem_u128_any_length", "I256.C82_int_mul_any_lengths", "I256.C82_int_mul_uscalar", "I256.C82_int_add_uwide", "I256.C82_shl_any_amount", "I256.C82_shr_any_amount", "I256.C82_div_rem_u128", "I256.C82_int_add_sub_128", "I256.C82_int_mul_128", "I256.C82_int_midpoint", "I256.C82_is_positive", "I256.C82_exp", "I256.C82_flags"], "note": "About proposed changes of the code, not about the code itself; the claims about the code as it is are those of the properties listed in DESIGN.md."},
  {"property": "C83", "status": "partial", "theorems": ["I256.C83_narrow_false", "I256.C83_full_false", "I256.C83_zero_false", "I256.C83_full_partial", "I256.C83_full_all_partial", "I256.C83_limb", "I256.C83_wide_partial", "I256.C83_wide_all_partial", "I256.C83_from_u128_all_partial", "I256.C83_cmp", "I256.C83_truncate_scalar", "I256.C83_u128_scalar", "I256.C83_builds_agree"], "note": "The code violates the claim (B2, B17): C83_full_all_partial, C83_wide_all_partial and C83_from_u128_all_partial characterise every input of every length, C83_full_partial and C83_wide_partial say where the claim holds. The remaining functions are proved in full."},
  {"property": "C84", "status": "partial", "theorems": ["I256.C84_uint_add", "I256.C84_uint_sub", "I256.C84_uint_limb", "I256.C84_uint_mn", "I256.C84_int_add", "I256.C84_int_sub", "I256.C84_int_uwide_false", "I256.C84_int_uwide_partial", "I256.C84_uint_mul", "I256.C84_uint_mul_scalar", "I256.C84_widening_mul", "I256.C84_int_mul_wrapping_false", "I256.C84_int_mul_wrapping_partial", "I256.C84_int_mul_overflowing_partial", "I256.C84_int_mul_one_limb", "I256.C84_int_mul_uscalar_false", "I256.C84_int_mul_scalar_partial"], "note": "The code violates the claim (B1, B18): C84_int_uwide_false, C84_int_mul_wrapping_false, C84_int_mul_uscalar_false are witnesses; the _partial theorems give the panic condition for every length and the exact condition under which the result is right. The signed products carry the flag gap of B1. The remaining functions are proved in full."},
  {"property": "C85", "status": "partial", "theorems": ["I256.C85_uint_add", "I256.C85_uint_sub", "I256.C85_uint_signed_rhs", "I256.C85_uint_mul", "I256.C85_uint_widening", "I256.C85_uint_carrying", "I256.C85_uint_diff", "I256.C85_uint_neg", "I256.C85_uint_pow", "I256.C85_int_add", "I256.C85_int_sub", "I256.C85_int_add_unsigned", "I256.C85_int_sub_unsigned", "I256.C85_int_mul_partial", "I256.C85_int_carrying_partial", "I256.C85_int_abs_diff", "I256.C85_int_pow_partial", "I256.C85_int_neg", "I256.C85_int_abs", "I256.C85_int_signum"], "note": "The signed products and powers keep the gap of B1 and the signed carrying steps the early flag of C37: the three _partial theorems give the exact behaviour; the witnesses are C08_int_overflowing_mul_false, C11_int_overflowing_pow_false, C37_int_carrying_add_false. Everything else is proved in full."},
  {"property": "C86", "status": "partial", "theorems": ["I256.C86_uint_div", "I256.C86_uint_rem_partial", "I256.C86_uint_div_rem_partial", "I256.C86_uint_div_ceil_partial", "I256.C86_uint_is_multiple_of_partial", "I256.C86_uint_next_multiple_of_partial", "I256.C86_uint_div_zero_partial", "I256.C86_uint_div_zero_pairs_partial", "I256.C86_int_div", "I256.C86_int_rem_partial", "I256.C86_int_div_rem_partial", "I256.C86_int_div_euclid_partial", "I256.C86_int_rem_euclid_partial", "I256.C86_int_round_partial", "I256.C86_int_next_multiple_of_partial", "I256.C86_int_next_multiple_of_neg_one", "I256.C86_int_div_zero_partial", "I256.C86_int_div_zero_pairs_partial", "I256.C86_uint_rem_false", "I256.C86_int_rem_false", "I256.C86_uint_div_panic_false", "I256.C86_uint_multiple_false", "I256.C86_uint_div_zero_false"], "note": "Quotients are proved in full (C86_uint_div, C86_int_div), with the panics of DivPanics. Remainders, rounding and zero divisors have the exact behaviour in the _partial theorems; witnesses C86_uint_rem_false, C86_int_rem_false, C86_uint_div_panic_false, C86_uint_multiple_false, C86_uint_div_zero_false."},
  {"property": "C87", "status": "partial", "theorems": ["I256.C87_shl", "I256.C87_shr", "I256.C87_int_overflowing", "I256.C87_unbounded", "I256.C87_int_unbounded_shr_partial", "I256.C87_prim_partial", "I256.C87_other_type", "I256.C87_self_partial", "I256.C87_count_zeros", "I256.C87_leading_ones", "I256.C87_trailing_ones", "I256.C87_is_power_of_two", "I256.C87_next_power_of_two", "I256.C87_uint_midpoint", "I256.C87_int_midpoint_partial", "I256.C87_narrow_false", "I256.C87_int_unbounded_shr_false", "I256.C87_self_false", "I256.C87_int_midpoint_false"], "note": "Proved in full: checked, strict, overflowing shifts, unbounded shifts of unsigned numbers, amounts of the other big type, counts, powers of two, unsigned midpoint. The other four claims have the exact behaviour in _partial theorems; witnesses C87_narrow_false, C87_int_unbounded_shr_false, C87_self_false, C87_int_midpoint_false."},
  {"property": "C88", "status": "partial", "theorems": ["I256.C88_uint_add_ulimb", "I256.C88_uint_sub_ulimb", "I256.C88_uint_mul_ulimb", "I256.C88_uint_add_uwide", "I256.C88_uint_sub_uwide", "I256.C88_uint_mul_uwide", "I256.C88_int_add_ulimb", "I256.C88_int_sub_ulimb", "I256.C88_int_mul_ulimb_partial", "I256.C88_int_add_ilimb", "I256.C88_int_sub_ilimb", "I256.C88_int_mul_ilimb_partial", "I256.C88_int_add_uwide", "I256.C88_int_sub_uwide", "I256.C88_int_mul_uwide_partial", "I256.C88_int_add_iwide", "I256.C88_int_sub_iwide", "I256.C88_int_mul_iwide_partial", "I256.C88_int_mul_false"], "note": "Addition, subtraction and unsigned multiplication in full. Signed multiplication takes the products in Mul.Gap for representable (C88_int_mul_*_partial, exact for all operands); witness C88_int_mul_false."},
  {"property": "C89", "status": "partial", "theorems": ["I256.C89_uint_add_fixed", "I256.C89_uint_sub_fixed", "I256.C89_uint_mul_fixed", "I256.C89_int_add_fixed_unsigned_partial", "I256.C89_int_add_fixed_signed_partial", "I256.C89_int_sub_fixed_unsigned_partial", "I256.C89_int_sub_fixed_signed_partial", "I256.C89_int_mul_fixed_unsigned_partial", "I256.C89_int_mul_fixed_signed_partial", "I256.C89_int_mul_128_partial", "I256.C89_int_add_sub_u128_panics", "I256.C89_int_mul_false", "I256.C89_int_mul_128_false", "I256.C89_int_add_false"], "note": "Unsigned in full. Signed: exact on 64-bit limbs and for scalars up to 64 bits, apart from the products in Mul.Gap (C89_int_mul_fixed_*_partial, exact for all operands). With 128-bit scalars on 32-bit limbs signed addition and subtraction always panic (C89_int_add_sub_u128_panics) and products use the scalar with two digits exchanged (C89_int_mul_128_partial). Witnesses C89_int_mul_false, C89_int_mul_128_false, C89_int_add_false."},
  {"property": "C90", "status": "partial", "theorems": ["I256.C90_uint_div_ulimb", "I256.C90_uint_div_ulimb_zero", "I256.C90_uint_div_uwide_partial", "I256.C90_uint_div_uwide_zero_partial", "I256.C90_int_div_ulimb", "I256.C90_int_div_ulimb_zero", "I256.C90_int_div_uwide_partial", "I256.C90_int_div_uwide_zero_partial", "I256.C90_int_div_ilimb", "I256.C90_int_div_ilimb_zero", "I256.C90_int_div_iwide_partial", "I256.C90_int_div_iwide_zero_partial", "I256.C90_uint_div_fixed_partial", "I256.C90_uint_div_fixed_zero_partial", "I256.C90_int_div_fixed_unsigned_partial", "I256.C90_int_div_fixed_unsigned_zero_partial", "I256.C90_int_div_fixed_signed_partial", "I256.C90_int_div_fixed_signed_zero_partial", "I256.C90_div_uwide_false", "I256.C90_div_iwide_false", "I256.C90_div_uwide_zero_false", "I256.C90_div_fixed_false"], "note": "Limb divisors in full (C90_*_ulimb, C90_int_div_ilimb and their _zero theorems). Double limbs and fixed-width scalars: for all operands the exact outcome, with the panics of B2 (DivPanics, ScalarPanics), the stray bits of the remainder for a four-limb scalar, and 0 / 0 = 0 (B4). Witnesses C90_div_uwide_false, C90_div_iwide_false, C90_div_uwide_zero_false, C90_div_fixed_false."},
  {"property": "C91", "status": "partial", "theorems": ["I256.C91_left", "I256.C91_right", "I256.C91_effective", "I256.C91_shifted_out_false", "I256.C91_shifted_out_partial", "I256.C91_rotate"], "note": "The crate never passes such amounts: all callers reduce the amount first. Exact behaviour for every amount is proved; the claim that all bits are shifted out fails for two elements without debug assertions."},
  {"property": "C92", "status": "partial", "theorems": ["I256.C92_narrow", "I256.C92_mul_v1", "I256.C92_mul_v2", "I256.C92_mul_v3", "I256.C92_shl", "I256.C92_shr", "I256.C92_shr_low_first_false", "I256.C92_count_ones", "I256.C92_leading_zeros", "I256.C92_mulhi_partial", "I256.C92_mulhi_repaired", "I256.C92_mulhi_false", "I256.C92_divide_by_num_partial", "I256.C92_div_rem_by_num_partial", "I256.C92_divide_by_num_repaired", "I256.C92_magic", "I256.C92_div_rem_by_num_repaired", "I256.C92_divide_by_num_false", "I256.C92_div_rem_by_num_false"], "note": "Multiplications, shifts and counts are proved as stated. The division is wrong in the code (B20): C92_mulhi_false, C92_divide_by_num_false, C92_div_rem_by_num_false; the _partial theorems give the exact value computed, and the _repaired ones prove the division with the three lines corrected."},
  {"property": "C93", "status": "partial", "theorems": ["I256.C93_gen_rejects", "I256.C93_gen_branched_partial", "I256.C93_divide_branched_partial", "I256.C93_gen_branchfree_partial", "I256.C93_divide_branchfree_partial", "I256.C93_divide_repaired", "I256.C93_divide_rejects", "I256.C93_divide_remainder", "I256.C93_gen_repaired_rejects", "I256.C93_bench_magic", "I256.C93_divide_zero_false", "I256.C93_gen_branched_false", "I256.C93_gen_branchfree_false", "I256.C93_gen_range_false", "I256.C93_divide_branchfree_false", "I256.C93_remainder_false"], "note": "False in the code (B21): C93_gen_branched_false, C93_gen_branchfree_false, C93_gen_range_false, C93_divide_branchfree_false, C93_divide_zero_false, C93_remainder_false. The _partial theorems characterise the accepted divisors and prove the branched division exact for positive numerators; C93_divide_repaired proves the corrected script for all divisors and numerators."},
  {"property": "C94", "status": "partial", "theorems": ["I256.C94_choose_multiplier", "I256.C94_fast_shift", "I256.C94_calculate_factors", "I256.C94_fast_divrem_partial", "I256.C94_fast_divrem_repaired", "I256.C94_mulhi_partial", "I256.C94_fast_divrem_above", "I256.C94_mulhi_false", "I256.C94_fast_divrem_false"], "note": "choose_multiplier, fast_shift and calculate_factors are proved as stated. mulhi and the slow path of fast_divrem are wrong in the code (B22): C94_mulhi_false, C94_fast_divrem_false; the _partial theorems give the exact value and the fast path, C94_fast_divrem_repaired the corrected script."},
  {"property": "C95", "status": "partial", "theorems": ["I256.C95_exp_repaired", "I256.C95_exp_debug_false", "I256.C95_exp_partial", "I256.C95_int_exp_partial", "I256.C95_debug_partial", "I256.C95_debug_hex_partial"], "note": "The code ignores precision and width, the unsigned types also '+', and {:x?} prints decimal (C95_exp_debug_false). The _partial theorems give the exact conditions for agreement: for LowerExp/UpperExp and {:?} for all flags, for {:x?} and {:X?} without a width."},
  {"property": "C96", "status": "partial", "theorems": ["I256.C96_uint_full", "I256.C96_uint_limb", "I256.C96_int_full", "I256.C96_int_ulimb", "I256.C96_int_ilimb", "I256.C96_int_mul_overflow_false", "I256.C96_int_mul_overflow_partial", "I256.C96_shift", "I256.C96_rotate", "I256.C96_big_endian_false", "I256.C96_div"], "note": "34 predicates of native_math.rs and 3 of div_math.rs. All hold for every input except the three on the overflow flag of signed products, which fail exactly where C08 says the flag is missing (C96_int_mul_overflow_false, C96_int_mul_overflow_partial). On a big-endian machine the predicates read the halves in the wrong order (C96_big_endian_false); the rotations hold in either byte order."},
  {"property": "C97", "status": "partial", "theorems": ["I256.C97_total", "I256.C97_uint_add", "I256.C97_uint_sub", "I256.C97_uint_mul", "I256.C97_widening_mul", "I256.C97_int_add", "I256.C97_int_sub", "I256.C97_int_wrapping_mul", "I256.C97_int_mul_partial", "I256.C97_bitwise", "I256.C97_order", "I256.C97_uint_div", "I256.C97_uint_rem_partial", "I256.C97_int_div", "I256.C97_int_rem_partial", "I256.C97_int_mul_false", "I256.C97_rem_false", "I256.C97_neg_abs", "I256.C97_pow", "I256.C97_counts", "I256.C97_shift", "I256.C97_int_unbounded_shr_partial", "I256.C97_int_unbounded_shr_false", "I256.C97_cast"], "note": "Stated with BitVec's own +, *, sdiv, srem, smulOverflow, clz, rotateLeft and so on, so the reference does not come from this project. Violated for the overflow flag of signed products (C97_int_mul_false), remainders after an added-back estimate (C97_rem_false) and the unbounded signed right shift (C97_int_unbounded_shr_false); the _partial theorems cover the remaining inputs. Division panics exactly where DivPanics says (C14)."},
  {"property": "C98", "status": "partial", "theorems": ["I256.C98_uint_add", "I256.C98_uint_sub", "I256.C98_uint_mul", "I256.C98_int_add", "I256.C98_int_sub", "I256.C98_int_mul", "I256.C98_uint_fixed", "I256.C98_int_fixed_unsigned_partial", "I256.C98_int_fixed_signed_partial", "I256.C98_int_fixed_false", "I256.C98_uint_div_ulimb", "I256.C98_uint_div_uwide_partial", "I256.C98_uint_div_uwide_panics", "I256.C98_uint_div_uwide_false", "I256.C98_int_div_ilimb", "I256.C98_int_div_iwide_partial", "I256.C98_int_div_iwide_panics", "I256.C98_int_div_ulimb_partial", "I256.C98_int_div_uwide_partial", "I256.C98_int_div_ulimb_false", "I256.C98_uint_div_fixed_partial", "I256.C98_int_div_fixed_partial", "I256.C98_div_zero_partial", "I256.C98_div_zero_false"], "note": "Addition, subtraction and multiplication: equal in all forms for one and two limbs; for fixed widths except signed values with 128-bit scalars on 32-bit limbs (C98_int_fixed_false). Division by one limb: equal. By two limbs and by fixed widths: equal unless an estimate has to be corrected (C98_uint_div_uwide_panics and C98_uint_div_uwide_false say what happens otherwise). Signed by unsigned: equal iff the value is not negative or the divisor divides it (C98_int_div_ulimb_false). Zero divisors: C98_div_zero_partial and C98_div_zero_false."},
  {"property": "C99", "status": "partial", "theorems": ["I256.C99_uint_add_sub", "I256.C99_int_add_sub", "I256.C99_uint_add_signed", "I256.C99_int_add_unsigned", "I256.C99_uint_diff", "I256.C99_int_neg_abs", "I256.C99_int_abs_diff", "I256.C99_uint_mul", "I256.C99_int_wrapping_mul", "I256.C99_int_mul_partial", "I256.C99_uint_pow", "I256.C99_int_wrapping_pow", "I256.C99_int_pow_partial", "I256.C99_int_mul_false", "I256.C99_uint_order", "I256.C99_int_order", "I256.C99_sign_tests", "I256.C99_uint_bitops", "I256.C99_int_bitops", "I256.C99_uint_counts", "I256.C99_nonneg", "I256.C99_int_counts", "I256.C99_int_ilog2", "I256.C99_shl", "I256.C99_uint_shr", "I256.C99_int_shr", "I256.C99_int_unbounded_shr_false", "I256.C99_uint_midpoint", "I256.C99_int_midpoint", "I256.C99_power_of_two", "I256.C99_from_prim", "I256.C99_to_prim", "I256.C99_to_bytes", "I256.C99_uint_div_partial", "I256.C99_uint_rem_partial", "I256.C99_uint_div_ceil_partial", "I256.C99_int_div_partial", "I256.C99_int_div_op_partial", "I256.C99_int_rem_partial", "I256.C99_same_limb_partial", "I256.C99_uint_div_false", "I256.C99_uint_rem_false", "I256.C99_uint_parse", "I256.C99_int_parse_partial", "I256.C99_int_from_str_partial", "I256.C99_uint_to_str_radix", "I256.C99_uint_fmt", "I256.C99_int_fmt", "I256.C99_fmt_debug", "I256.C99_uint_fixed"], "note": "Signed products and powers: all except Mul.Gap (C99_int_mul_false). Division: equal iff both types panic alike (quotient) and keep the same stray bit (remainder); C99_same_limb_partial turns this into a condition on the digit estimates. Signed unbounded_shr: equal for shifts below the narrow width (C99_int_unbounded_shr_false). Signed parsing: all texts except GapText."},
  {"property": "C100", "status": "partial", "theorems": ["I256.C100_exact_partial", "I256.C100_all_partial", "I256.C100_debug_release", "I256.C100_both_builds_partial", "I256.C100_ring", "I256.C100_limb_size_partial", "I256.C100_exact_false"], "note": "The exact reading and the limb size hold for programs no operation of which meets Mul.Gap, DivPanics or a stray remainder (Prog.Tame, decidable); C100_exact_false has the witnesses. C100_all_partial says what every program does in either build, with the known faults as rules (Expr.actual). C100_debug_release and C100_ring are unconditional."},
  {"property": "C101", "status": "partial", "theorems": ["I256.C101_all_partial", "I256.C101_exact_partial", "I256.C101_plain", "I256.C101_debug_release", "I256.C101_rounds", "I256.C101_limb_size_partial", "I256.C101_euclid_partial", "I256.C101_exact_false"], "note": "The exact reading holds for programs that meet no known fault (Cmd.Tame), in particular for all programs without / and % (signed: also without * and pow), C101_plain; C101_exact_false has Euclid's algorithm with a wrong result. C101_all_partial says what every program does in either build, with the known faults as rules. C101_debug_release and C101_rounds are unconditional."},
  {"property": "C102", "status": "proved", "theorems": ["I256.C102_expr", "I256.C102_program", "I256.C102_exact", "I256.C102_debug_release", "I256.C102_same", "I256.C102_limb_size", "I256.C102_euclid"], "note": "About the changed functions of C82, which are not in the crate; C102_same ties them to the code wherever no known fault is met."},
  {"property": "C103", "status": "partial", "theorems": ["I256.C103_wrapping", "I256.C103_strict", "I256.C103_checked", "I256.C103_checked_partial", "I256.C103_never_panics", "I256.C103_saturating_partial", "I256.C103_false"], "note": "C103_wrapping, C103_strict, C103_checked and C103_never_panics hold for every program. Missing: that checked and saturating programs are exact is false where an operation meets B1, B2 or B4 (C103_false); proved elsewhere."},
  {"property": "C104", "status": "partial", "theorems": ["I256.C104_all_partial", "I256.C104_exact_partial", "I256.C104_uint_plain", "I256.C104_int_plain_partial", "I256.C104_debug_release", "I256.C104_exact_false"], "note": "C104_all_partial describes every program and all texts with the known faults as rules; C104_uint_plain (no / and %) and C104_debug_release have no proviso. Missing: exactness is false where a signed operand lies in the gap of C29 or an operation meets a known fault (C104_exact_false); proved elsewhere."},
  {"property": "C105", "status": "proved", "theorems": ["I256.C105_program", "I256.C105_exact", "I256.C105_limb_size", "I256.C105_euclid"], "note": "Holds for every program and all texts."},
  {"property": "C106", "status": "partial", "theorems": ["I256.C106_all_partial", "I256.C106_exact_partial", "I256.C106_plain", "I256.C106_debug_release", "I256.C106_limb_size_partial", "I256.C106_product", "I256.C106_exact_false"], "note": "Holds for every program, with the known faults taken for the rules of the crate (C106_all_partial), exactly where no fault is met (C106_exact_partial, C106_plain), and for the exact signed product of C106_product. The full claim is false (C106_exact_false): `TryFrom` of the largest signed number panics."},
  {"property": "C107", "status": "proved", "theorems": ["I256.C107_program", "I256.C107_exact", "I256.C107_debug_release", "I256.C107_same", "I256.C107_limb_size"], "note": "Holds for every program. The changed functions are not in the crate."},
  {"property": "C108", "status": "proved", "theorems": ["I256.C108_divide", "I256.C108_divide_signed"], "note": "The programs use only operators that C106 proves exact, so they give the right answer where the crate's own `/` and `%` do not."},
  {"property": "C109", "status": "proved", "theorems": ["I256.C109_wrapping_mul", "I256.C109_overflowing_mul", "I256.C109_mul_ulimb", "I256.C109_mul_uwide", "I256.C109_mul_signed", "I256.C109_widening_mul", "I256.C109_pow", "I256.C109_pow_bound", "I256.C109_div", "I256.C109_div_small", "I256.C109_div_all", "I256.C109_div_least", "I256.C109_div_small_exact", "I256.C109_div_signed", "I256.C109_div_signed_all"], "note": "Counts products of two limbs and divisions of a double limb in the source, not machine instructions. Division counts are upper bounds."},
  {"property": "C110", "status": "partial", "theorems": ["I256.C110_documented_partial", "I256.C110_extended", "I256.C110_documented_false", "I256.C110_none"], "note": "The documented numbers for wrapping_mul, overflowing_mul and mul_ulimb hold (C110_documented_partial). The five others do not: the source extends the operand to four limbs and always takes 10 products (C110_extended, C110_none). Products of the source are counted; a compiler may drop products by constant zeros."},
  {"property": "C111", "status": "proved", "theorems": ["I256.C111_first", "I256.C111_first_tight", "I256.C111_refined", "I256.C111_refined_le", "I256.C111_refined_tight", "I256.C111_digit", "I256.C111_underflow"], "note": "The stray 1 and the panic are the mechanism of bug B2, seen in one round; C13 to C15 state their effect on the results."},
  {"property": "C112", "status": "proved", "theorems": ["I256.C112_write", "I256.C112_write_bounds", "I256.C112_write_small", "I256.C112_display", "I256.C112_read", "I256.C112_read_bounds", "I256.C112_read_signed", "I256.C112_ilog", "I256.C112_ilog_panics", "I256.C112_ilog_bounds", "I256.C112_ilog_two"], "note": "The logarithm of C112_ilog is stated where the division x/b does not panic (B1); C112_ilog_panics covers the other inputs. Not counted: additions, comparisons and the power that starts the logarithm (C109 counts the latter)."},
  {"property": "C113", "status": "proved", "theorems": ["I256.C113_root", "I256.C113_gcd"], "note": "The programs are client code, not code of the crate; the theorems say that the operators they use compose to a right result."},
  {"property": "C114", "status": "proved", "theorems": ["I256.C114_product", "I256.C114_product_panics", "I256.C114_power"], "note": "The programs are client code, not code of the crate; the theorems say that the operators they use compose to a right result."},
  {"property": "C115", "status": "proved", "theorems": ["I256.C115_all", "I256.C115_where", "I256.C115_rem", "I256.C115_panics", "I256.C115_rem_signed", "I256.C115_pairs"], "note": "Counts the failures of B2; the bounds are upper bounds, C13 and C14 have the exact conditions and the witnesses."},
  {"property": "C116", "status": "proved", "theorems": ["I256.C116_where", "I256.C116_most", "I256.C116_least", "I256.C116_some", "I256.C116_none"], "note": "Counts the failures of B1."},
  {"property": "C117", "status": "proved", "theorems": ["I256.C117_divisors", "I256.C117_multiples", "I256.C117_twice", "I256.C117_odd", "I256.C117_powers_of_ten", "I256.C117_powers_of_ten_32", "I256.C117_signed"], "note": "Locates the failures of B2 by divisor; the numerators are given by C13."},
  {"property": "C118", "status": "proved", "theorems": ["I256.C118_divisors", "I256.C118_safe", "I256.C118_powers_of_ten", "I256.C118_powers_of_ten_32", "I256.C118_fixed", "I256.C118_signed_unsigned", "I256.C118_signed"], "note": "Locates the panics of C14, C16, C51 and C55 by divisor."},
  {"property": "C119", "status": "proved", "theorems": ["I256.C119_no_panic", "I256.C119_exact", "I256.C119_four", "I256.C119_two_limbs", "I256.C119_long", "I256.C119_odd", "I256.C119_powers_of_ten", "I256.C119_signed"], "note": "The part of B2 that concerns is_multiple_of, div_ceil and the Euclidean forms."},
  {"property": "C120", "status": "proved", "theorems": ["I256.C120_uint", "I256.C120_int", "I256.C120_min", "I256.C120_rem", "I256.C120_powers_of_ten"], "note": "Locates the panics and wrong remainders of B2 by signed divisor."},
  {"property": "C121", "status": "proved", "theorems": ["I256.C121_rem", "I256.C121_panics", "I256.C121_rem_signed", "I256.C121_wide"], "note": "Counts the divisors to which B2 applies."}
]}
