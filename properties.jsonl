{"id": "C01", "title": "Unsigned wrapping add/sub are exact modulo 2^BITS", "statement": "For unsigned x, y: wrapping_add(x,y) denotes (x+y) mod 2^BITS and wrapping_sub(x,y) denotes (x-y) mod 2^BITS.", "quantifier": "all x, y; every supported width (256/384/512/1024 bits and any other multiple of 128 bits from 256 bits on whose bit count fits a u32), both limb sizes", "why_tests_cant": "2^512 operand pairs; a lost carry shows only when a limb is all ones or zero at one particular position, which random 64-bit limbs never hit.", "anchors": ["src/math/add.rs: wrapping_full", "src/math/sub.rs: wrapping_full", "src/uint/wrapping.rs: wrapping_add, wrapping_sub"]}
{"id": "C02", "title": "Unsigned overflow flag of add/sub is exact", "statement": "overflowing_add(x,y) returns true iff x+y >= 2^BITS, overflowing_sub(x,y) returns true iff x < y, and the value is the wrapped result; hence checked_add/checked_sub return Some(v) iff the exact result v is representable, saturating_add clamps to MAX, saturating_sub clamps to 0, strict_* panic iff not representable.", "quantifier": "all x, y; every supported width (256/384/512/1024 bits and any other multiple of 128 bits from 256 bits on whose bit count fits a u32), both limb sizes", "why_tests_cant": "The flag depends on a carry chain across all limbs; tests sample boundary values only at the ends.", "anchors": ["src/math/add.rs: overflowing_full", "src/math/sub.rs: overflowing_full", "src/shared/checked.rs: checked_add, checked_sub", "src/uint/saturating.rs", "src/shared/strict.rs"]}
{"id": "C03", "title": "Signed add/sub: value and overflow flag are exact", "statement": "For signed x, y: wrapping_add/sub give the two's complement reduction of x±y; the overflowing flag is true iff x±y is outside [MIN, MAX]; checked_* is Some(v) iff v=x±y is in range; saturating_* clamps to MIN or MAX on the proper side.", "quantifier": "all x, y; every supported width (256/384/512/1024 bits and any other multiple of 128 bits from 256 bits on whose bit count fits a u32), both limb sizes", "why_tests_cant": "The top limb uses a double signed addition with the flags xor-ed; the case where both overflow needs a lower carry together with two extreme top limbs.", "anchors": ["src/math/add.rs: signed overflowing_full", "src/math/sub.rs: signed overflowing_full", "src/int/overflowing.rs: overflowing_add, overflowing_sub", "src/int/saturating.rs: saturating_add, saturating_sub"]}
{"id": "C04", "title": "Mixed-sign add/sub are exact", "statement": "unsigned + signed (add_signed) and signed ± unsigned (add_unsigned, sub_unsigned) return the wrapped exact result; their overflow flag / None is exact; the saturating variants clamp to the bound on the side of the exact result.", "quantifier": "all x, y; every supported width (256/384/512/1024 bits and any other multiple of 128 bits from 256 bits on whose bit count fits a u32), both limb sizes", "why_tests_cant": "The flag is obtained by xor-ing a sign bit into another flag; four sign/overflow combinations times all magnitudes.", "anchors": ["src/uint/overflowing.rs: overflowing_add_signed", "src/uint/checked.rs: checked_add_signed", "src/uint/saturating.rs: saturating_add_signed", "src/int/overflowing.rs: overflowing_add_unsigned, overflowing_sub_unsigned", "src/int/saturating.rs"]}
{"id": "C05", "title": "Scalar add/sub equals full-width add/sub of the extended scalar", "statement": "Adding or subtracting a native scalar (limb or double limb, unsigned or signed) gives the same value and the same overflow flag as first widening the scalar (zero- or sign-extension) to the full type.", "quantifier": "all x, all scalars y; every supported width (256/384/512/1024 bits and any other multiple of 128 bits from 256 bits on whose bit count fits a u32), both limb sizes", "why_tests_cant": "These are separately written carry loops, each with own corner limbs.", "anchors": ["src/math/add.rs: wrapping_limb, overflowing_limb, wrapping_mn, overflowing_mn, wrapping_ilimb, overflowing_ilimb", "src/math/sub.rs: same names", "src/uint/limb.rs", "src/int/limb.rs"]}
{"id": "C06", "title": "Wrapping multiplication is exact modulo 2^BITS", "statement": "wrapping_mul(x,y) (unsigned and signed) and the scalar forms (u/i limb, u/i wide) denote x*y mod 2^BITS, scalars being zero/sign-extended.", "quantifier": "all x, y; every supported width (256/384/512/1024 bits and any other multiple of 128 bits from 256 bits on whose bit count fits a u32), both limb sizes", "why_tests_cant": "Truncated long multiplication: carries that only propagate for limbs close to the maximum; state space 2^512.", "anchors": ["src/math/mul.rs: wrapping_full, wrapping_limb, wrapping_wide, wrapping_ilimb, wrapping_iwide", "src/uint/wrapping.rs: wrapping_mul", "src/int/wrapping.rs: wrapping_mul"]}
{"id": "C07", "title": "Unsigned multiplication overflow flag is exact", "statement": "overflowing_mul(x,y) is true iff x*y >= 2^BITS; checked_mul is Some(x*y) iff it fits (including its logarithm shortcut); saturating_mul gives min(x*y, MAX).", "quantifier": "all x, y; every supported width (256/384/512/1024 bits and any other multiple of 128 bits from 256 bits on whose bit count fits a u32), both limb sizes", "why_tests_cant": "The flag is a disjunction over a 2D limb matrix; a missing cell is visible on a vanishing fraction of inputs.", "anchors": ["src/math/mul.rs: unsigned overflowing_full", "src/shared/checked.rs: checked_mul", "src/uint/saturating.rs: saturating_mul"]}
{"id": "C08", "title": "Signed multiplication overflow flag is exact", "statement": "overflowing_mul(x,y) for signed types is true iff x*y is outside [MIN, MAX]; checked_mul is Some iff in range; saturating_mul clamps.", "quantifier": "all signed x, y; every supported width (256/384/512/1024 bits and any other multiple of 128 bits from 256 bits on whose bit count fits a u32), both limb sizes", "why_tests_cant": "The only inputs on which the code goes wrong have a negative product within 2^(BITS-limb) below MIN, a set random testing has probability about 2^-64 of hitting.", "anchors": ["src/math/mul.rs: signed overflowing_full", "src/int/overflowing.rs: overflowing_mul", "src/int/saturating.rs: saturating_mul"]}
{"id": "C09", "title": "Widening and carrying multiplication return the complete product", "statement": "widening_mul(x,y) = (lo,hi) with lo + hi*2^BITS = x*y; carrying_mul(x,y,c) = (lo,hi) with lo + hi*2^BITS = x*y + c, for all inputs, with no overflow or panic.", "quantifier": "all x, y, carry; every supported width (256/384/512/1024 bits and any other multiple of 128 bits from 256 bits on whose bit count fits a u32), both limb sizes", "why_tests_cant": "Full product of two BITS-wide numbers, 2^768 inputs.", "anchors": ["src/math/mul.rs: widening", "src/uint/ops.rs: widening_mul, carrying_mul", "src/uint/extensions.rs: high_mul"]}
{"id": "C10", "title": "Wrapping exponentiation is exact", "statement": "wrapping_pow(x,e) denotes x^e mod 2^BITS for unsigned and signed types and every exponent, including e = 0.", "quantifier": "all x, all u32 exponents; every supported width (256/384/512/1024 bits and any other multiple of 128 bits from 256 bits on whose bit count fits a u32), both limb sizes", "why_tests_cant": "Square-and-multiply loop: needs an invariant over the exponent's bits.", "anchors": ["src/shared/wrapping.rs: wrapping_pow"]}
{"id": "C11", "title": "Power overflow detection is exact", "statement": "overflowing_pow(x,e) returns the wrapped power and true iff x^e is not representable; checked_pow is Some(x^e) iff representable; saturating_pow clamps to the right bound.", "quantifier": "all x, all u32 exponents; every supported width (256/384/512/1024 bits and any other multiple of 128 bits from 256 bits on whose bit count fits a u32), both limb sizes", "why_tests_cant": "The flag is accumulated over squarings, some of which may overflow without the final product using them.", "anchors": ["src/shared/overflowing.rs: overflowing_pow", "src/shared/checked.rs: checked_pow", "src/uint/saturating.rs: saturating_pow", "src/int/saturating.rs: saturating_pow"]}
{"id": "C12", "title": "Unsigned quotient is exact", "statement": "For y != 0, whenever unsigned division returns, the quotient is floor(x / y) (wrapping_div, checked_div, div_rem, /, div_euclid, saturating_div, div_floor).", "quantifier": "all x, all y != 0; every supported width (256/384/512/1024 bits and any other multiple of 128 bits from 256 bits on whose bit count fits a u32), both limb sizes", "why_tests_cant": "Knuth algorithm D: the estimate of a quotient digit is off by one with probability about 2^-63 per digit with 64-bit limbs.", "anchors": ["src/math/div.rs: full, full_gt, div_rem_knuth", "src/uint/wrapping.rs: wrapping_div_rem, wrapping_div"]}
{"id": "C13", "title": "Unsigned remainder is exact", "statement": "For y != 0 the remainder returned by wrapping_rem, checked_rem, div_rem, %, rem_euclid equals x mod y, in particular it is < y.", "quantifier": "all x, all y != 0; every supported width (256/384/512/1024 bits and any other multiple of 128 bits from 256 bits on whose bit count fits a u32), both limb sizes", "why_tests_cant": "The failing branch (add back) is taken with probability about 2^-63 on random operands.", "anchors": ["src/math/div.rs: div_rem_knuth", "src/uint/wrapping.rs: wrapping_div_rem, wrapping_rem"]}
{"id": "C14", "title": "Division by a non-zero divisor never panics", "statement": "Unsigned division and remainder by any non-zero divisor (full-width or scalar) return normally.", "quantifier": "all x, all y != 0; every supported width (256/384/512/1024 bits and any other multiple of 128 bits from 256 bits on whose bit count fits a u32), both limb sizes", "why_tests_cant": "The out-of-bounds access sits in the add-back branch, reached with probability about 2^-63.", "anchors": ["src/math/div.rs: div_rem_knuth, wide", "src/uint/limb.rs: wrapping_div_rem_uwide", "src/uint/wrapping.rs: wrapping_div_rem"]}
{"id": "C15", "title": "Division by zero is always rejected", "statement": "Dividing by zero panics in wrapping_div/wrapping_rem/operators and gives None in the checked_* forms; no value is ever returned as a quotient by zero.", "quantifier": "all x; every supported width (256/384/512/1024 bits and any other multiple of 128 bits from 256 bits on whose bit count fits a u32), both limb sizes", "why_tests_cant": "The zero numerator takes a different early exit than every other numerator.", "anchors": ["src/math/div.rs: full, wide, limb", "src/shared/checked.rs: checked_div, checked_rem", "src/uint/ops.rs: is_div_none"]}
{"id": "C16", "title": "Scalar division is exact", "statement": "Dividing by a one-limb scalar returns (floor(x/y), x mod y); dividing by a double-limb scalar, whenever it returns, gives the exact quotient; both reject y = 0 for non-zero x.", "quantifier": "all x, all scalars y; every supported width (256/384/512/1024 bits and any other multiple of 128 bits from 256 bits on whose bit count fits a u32), both limb sizes", "why_tests_cant": "Schoolbook division keeps the invariant r < y at each limb, needed for the hardware divide not to trap.", "anchors": ["src/math/div.rs: limb, wide, div_rem_word", "src/uint/limb.rs: wrapping_div_rem_ulimb, wrapping_div_rem_uwide", "src/int/limb.rs"]}
{"id": "C17", "title": "Signed division truncates towards zero", "statement": "For signed x, y with y != 0: wrapping_div/wrapping_rem give the truncated quotient and a remainder with the sign of x (mod 2^BITS, so MIN / -1 = MIN, remainder 0); overflowing_div flags exactly MIN / -1; checked_div/checked_rem are None exactly for y = 0 or MIN / -1; saturating_div(MIN,-1) = MAX.", "quantifier": "all signed x, y != 0; every supported width (256/384/512/1024 bits and any other multiple of 128 bits from 256 bits on whose bit count fits a u32), both limb sizes", "why_tests_cant": "Sign handling through unsigned_abs with MIN having no positive counterpart.", "anchors": ["src/int/wrapping.rs: wrapping_div_rem", "src/int/overflowing.rs: overflowing_div, overflowing_rem", "src/int/ops.rs: is_div_overflow, is_div_none", "src/int/saturating.rs: saturating_div"]}
{"id": "C18", "title": "Euclidean division laws", "statement": "div_euclid/rem_euclid for signed types: 0 <= r < |y| and x = q*y + r (mod 2^BITS for MIN / -1), in wrapping, overflowing and checked forms.", "quantifier": "all signed x, y != 0; every supported width (256/384/512/1024 bits and any other multiple of 128 bits from 256 bits on whose bit count fits a u32), both limb sizes", "why_tests_cant": "Correction by ±1 after truncated division depends on two signs; boundary MIN.", "anchors": ["src/int/wrapping.rs: wrapping_div_euclid, wrapping_rem_euclid", "src/int/overflowing.rs", "src/shared/checked.rs: checked_div_euclid, checked_rem_euclid"]}
{"id": "C19", "title": "div_floor and div_ceil round as named", "statement": "div_floor(x,y) = floor(x/y) and div_ceil(x,y) = ceil(x/y) as rationals, for unsigned and signed operands, y != 0, excluding MIN / -1.", "quantifier": "all x, y != 0; every supported width (256/384/512/1024 bits and any other multiple of 128 bits from 256 bits on whose bit count fits a u32), both limb sizes", "why_tests_cant": "The signed versions compute the correction as an arithmetic shift of x xor y.", "anchors": ["src/uint/ops.rs: div_floor, div_ceil", "src/int/ops.rs: div_floor, div_ceil"]}
{"id": "C20", "title": "Shifts are exact", "statement": "wrapping_shl(x,s) denotes x*2^(s mod BITS) mod 2^BITS; wrapping_shr is floor(x / 2^(s mod BITS)), arithmetic (rounding to -inf) on signed types; overflowing_/checked_ forms flag exactly s >= BITS.", "quantifier": "all x, all u32 shift amounts; every supported width (256/384/512/1024 bits and any other multiple of 128 bits from 256 bits on whose bit count fits a u32), both limb sizes", "why_tests_cant": "Shift amount splits in limb and bit part with special cases at 0 and limb multiples: 256..1024 amounts times all values.", "anchors": ["src/math/shift.rs: left, right", "src/uint/bitops.rs", "src/int/bitops.rs", "src/shared/checked.rs: checked_shl, checked_shr"]}
{"id": "C21", "title": "Rotations are exact and inverse to each other", "statement": "rotate_left(x,n) moves bit i to bit (i+n) mod BITS for any u32 n; rotate_right(x,n) moves bit i to bit (i-n) mod BITS; rotate_right(rotate_left(x,n),n) = x.", "quantifier": "all x, all u32 n; every supported width (256/384/512/1024 bits and any other multiple of 128 bits from 256 bits on whose bit count fits a u32), both limb sizes", "why_tests_cant": "Carry between limbs wraps around; distinct code for two and more wide limbs.", "anchors": ["src/math/rotate.rs: left, right", "src/shared/bitops.rs: rotate_left, rotate_right"]}
{"id": "C22", "title": "Bit counting is exact", "statement": "count_ones/count_zeros/leading_zeros/trailing_zeros/leading_ones/trailing_ones return the mathematical counts of the BITS-wide representation, count_ones+count_zeros = BITS, and ilog2(x) = BITS-1-leading_zeros(x) = floor(log2 x), None for x <= 0.", "quantifier": "all x; every supported width (256/384/512/1024 bits and any other multiple of 128 bits from 256 bits on whose bit count fits a u32), both limb sizes", "why_tests_cant": "Loops stop early on partial counts; correctness needs a per-limb argument.", "anchors": ["src/shared/bitops.rs: count_ones, count_zeros, leading_zeros, trailing_zeros, leading_ones, trailing_ones", "src/shared/checked.rs: checked_ilog2"]}
{"id": "C23", "title": "Bitwise operators act on every bit independently", "statement": "bit i of x & y, x | y, x ^ y, !x is the corresponding boolean function of the bits i of x and y, for every i < BITS.", "quantifier": "all x, y, i; every supported width (256/384/512/1024 bits and any other multiple of 128 bits from 256 bits on whose bit count fits a u32), both limb sizes", "why_tests_cant": "All bit positions and all values.", "anchors": ["src/shared/bitops.rs: bitand_const, bitor_const, bitxor_const, not_const"]}
{"id": "C24", "title": "swap_bytes and reverse_bits are exact involutions", "statement": "byte i of swap_bytes(x) is byte (BYTES-1-i) of x; bit i of reverse_bits(x) is bit (BITS-1-i) of x; both are involutions.", "quantifier": "all x, i; every supported width (256/384/512/1024 bits and any other multiple of 128 bits from 256 bits on whose bit count fits a u32), both limb sizes", "why_tests_cant": "All bit positions for all values.", "anchors": ["src/shared/endian.rs: swap_bytes, reverse_bits"]}
{"id": "C25", "title": "Byte and limb array conversions are positional and invertible", "statement": "to_le_bytes(x)[i] is byte i of x, to_be_bytes is its reversal, from_*_bytes inverts to_*_bytes in both directions; likewise for limb, wide, u32 and u64 arrays.", "quantifier": "all x, all arrays; every supported width (256/384/512/1024 bits and any other multiple of 128 bits from 256 bits on whose bit count fits a u32), both limb sizes", "why_tests_cant": "Quantified over all values and both byte orders.", "anchors": ["src/shared/endian.rs: to_be_bytes, to_le_bytes, from_be_bytes, from_le_bytes, to_le_limbs, to_be_limbs, to_le_wide, to_be_wide"]}
{"id": "C26", "title": "Comparison is the numeric order", "statement": "lt/le/gt/ge/cmp/eq on unsigned values agree with the order of the denoted naturals and on signed values with the order of the denoted integers; equality of representations is equality of values.", "quantifier": "all x, y; every supported width (256/384/512/1024 bits and any other multiple of 128 bits from 256 bits on whose bit count fits a u32), both limb sizes", "why_tests_cant": "Comparison walks wide limbs from the top with a special operator at the last one and a signed comparison at the first.", "anchors": ["src/shared/ord.rs: lt_const, le_const, gt_const, ge_const, cmp_const, eq_const"]}
{"id": "C27", "title": "Conversions from and to primitive integers are exact", "statement": "from_uN zero-extends (value preserved), from_iN sign-extends (value preserved for signed types, modulo 2^BITS for unsigned), as_uN/as_iN keep the value modulo 2^N; narrowing after widening is the identity.", "quantifier": "all primitive values, all x; every supported width (256/384/512/1024 bits and any other multiple of 128 bits from 256 bits on whose bit count fits a u32), both limb sizes", "why_tests_cant": "All values of all source types.", "anchors": ["src/shared/casts.rs: from_u64, from_u128, from_i64, from_i128, as_u64, as_u128, as_i64, as_i128"]}
{"id": "C28", "title": "Fallible conversions between signed and unsigned succeed iff the value fits", "statement": "TryFrom between the signed and unsigned type of the same width, and from signed primitives to unsigned types, return Ok with the same value iff the value is representable, else Err.", "quantifier": "all x; every supported width (256/384/512/1024 bits and any other multiple of 128 bits from 256 bits on whose bit count fits a u32), both limb sizes", "why_tests_cant": "A single boundary value out of 2^256 is treated wrongly.", "anchors": ["src/int/traits.rs: TryFrom<unsigned>", "src/uint/traits.rs: TryFrom<signed>", "src/shared/traits.rs: TryFrom<primitive>"]}
{"id": "C29", "title": "Parsing returns the exact value or the right error", "statement": "from_str_radix(s, r) with 2 <= r <= 36 returns Ok(v) iff s is an optional sign followed by at least one digit of base r whose value v is representable; an invalid character gives InvalidDigit, a value out of range gives PosOverflow/NegOverflow, the empty string Empty; a radix outside 2..=36 panics.", "quantifier": "all byte strings, all radixes; every supported width (256/384/512/1024 bits and any other multiple of 128 bits from 256 bits on whose bit count fits a u32), both limb sizes", "why_tests_cant": "Infinite set of strings; two loops, one of them without overflow checks guarded by a length bound.", "anchors": ["src/parse.rs: from_str_radix, overflow_digits, char_to_digit", "src/uint/traits.rs: FromStr", "src/int/traits.rs: FromStr"]}
{"id": "C30", "title": "Formatting produces the canonical numeral", "statement": "to_str_radix(x, r) writes the base-r digits of x, most significant first, without leading zeros, upper case, with a leading '-' for negative values; Display/Binary/Octal/Hex use it with the respective radix.", "quantifier": "all x, all radixes 2..=36; every supported width (256/384/512/1024 bits and any other multiple of 128 bits from 256 bits on whose bit count fits a u32), both limb sizes", "why_tests_cant": "All values and all 35 radixes.", "anchors": ["src/write.rs: to_str_radix, digit_to_char", "src/uint/traits.rs: Display, Binary, Octal, LowerHex", "src/int/traits.rs: Display"]}
{"id": "C31", "title": "Parsing inverts formatting", "statement": "from_str_radix(to_str_radix(x, r), r) = Ok(x) for every value and radix; parsing the Display text of any value with FromStr returns that value.", "quantifier": "all x, all radixes 2..=36; every supported width (256/384/512/1024 bits and any other multiple of 128 bits from 256 bits on whose bit count fits a u32), both limb sizes", "why_tests_cant": "All values and radixes.", "anchors": ["src/write.rs: to_str_radix", "src/parse.rs: from_str_radix", "src/uint/traits.rs: FromStr, Display", "src/int/traits.rs: FromStr, Display"]}
{"id": "C32", "title": "Integer logarithm in any base is exact", "statement": "checked_ilog(x, b) = Some(floor(log_b x)) for x >= 1, b >= 2 and None otherwise; ilog panics exactly when checked_ilog is None; signed variants agree on positive values.", "quantifier": "all x, b; every supported width (256/384/512/1024 bits and any other multiple of 128 bits from 256 bits on whose bit count fits a u32), both limb sizes", "why_tests_cant": "Needs the correctness of a lower-bound estimate and termination of a loop.", "anchors": ["src/uint/checked.rs: checked_ilog", "src/uint/ops.rs: ilog", "src/int/checked.rs: checked_ilog"]}
{"id": "C33", "title": "Power-of-two helpers are exact", "statement": "is_power_of_two(x) iff x = 2^k; checked_next_power_of_two(x) is Some(least power of two >= x) iff that is representable; the wrapping form returns 0 otherwise.", "quantifier": "all x; every supported width (256/384/512/1024 bits and any other multiple of 128 bits from 256 bits on whose bit count fits a u32), both limb sizes", "why_tests_cant": "Boundary around each power of two at each limb.", "anchors": ["src/uint/ops.rs: is_power_of_two, next_power_of_two", "src/uint/checked.rs: checked_next_power_of_two", "src/uint/wrapping.rs: wrapping_next_power_of_two"]}
{"id": "C34", "title": "Multiples helpers are exact", "statement": "checked_next_multiple_of(x,y) is Some(least multiple of y that is >= x) iff y != 0 and it is representable; is_multiple_of(x,y) iff y divides x (with y = 0 only dividing 0).", "quantifier": "all x, y; every supported width (256/384/512/1024 bits and any other multiple of 128 bits from 256 bits on whose bit count fits a u32), both limb sizes", "why_tests_cant": "Depends on exact remainders for all operands.", "anchors": ["src/uint/checked.rs: checked_next_multiple_of", "src/uint/ops.rs: is_multiple_of, next_multiple_of", "src/int/ops.rs: next_multiple_of"]}
{"id": "C35", "title": "Unsigned midpoint and absolute difference are exact", "statement": "midpoint(x,y) = floor((x+y)/2) and abs_diff(x,y) = |x-y| for all unsigned x, y with no intermediate overflow.", "quantifier": "all x, y; every supported width (256/384/512/1024 bits and any other multiple of 128 bits from 256 bits on whose bit count fits a u32), both limb sizes", "why_tests_cant": "Identity between bit operations and addition over all values.", "anchors": ["src/uint/ops.rs: midpoint, abs_diff"]}
{"id": "C36", "title": "Signed absolute value, negation and sign are exact", "statement": "wrapping_neg/overflowing_neg/checked_neg and the abs family give -x and |x|, overflowing exactly at MIN; unsigned_abs(x) = |x| for all x; signum, is_negative, is_positive agree with the sign; abs_diff(x,y) = |x-y| as unsigned.", "quantifier": "all x, y; every supported width (256/384/512/1024 bits and any other multiple of 128 bits from 256 bits on whose bit count fits a u32), both limb sizes", "why_tests_cant": "Single exceptional value MIN in 2^256 and carry chains in negation.", "anchors": ["src/int/wrapping.rs: wrapping_neg, wrapping_abs", "src/int/overflowing.rs: overflowing_neg, overflowing_abs", "src/int/ops.rs: unsigned_abs, abs_diff, signum", "src/int/checked.rs: checked_neg, checked_abs"]}
{"id": "C37", "title": "Carry-chained addition and subtraction", "statement": "carrying_add(x,y,c) = (s,c') with s + c'*2^BITS = x+y+c and borrowing_sub(x,y,b) = (d,b') with d - b'*2^BITS = x-y-b for unsigned types; for signed types the returned flag is true iff the exact x±y±c is out of range. Chaining them adds numbers of any number of words exactly.", "quantifier": "all x, y, carry; every supported width (256/384/512/1024 bits and any other multiple of 128 bits from 256 bits on whose bit count fits a u32), both limb sizes; all chain lengths", "why_tests_cant": "Combination of two overflow flags, one special case for signed types.", "anchors": ["src/shared/bigint.rs: carrying_add, borrowing_sub"]}
{"id": "C38", "title": "Shift operators accept every in-range amount of every primitive type", "statement": "x << n and x >> n for n of any primitive integer type equal the shift by n when 0 <= n < BITS, and panic (with overflow checks) exactly when n is outside that range.", "quantifier": "all x, all n of all primitive types; all four widths", "why_tests_cant": "The range test converts BITS to the shift's type; fails for narrow types only, in debug builds only.", "anchors": ["src/shared/shift.rs: Shl, Shr", "src/shared/traits.rs"]}
{"id": "C39", "title": "Unbounded shifts", "statement": "unbounded_shl/unbounded_shr equal the mathematical shift for every amount: 0 for left and unsigned right shifts by >= BITS; the sign fill for signed right shifts.", "quantifier": "all x, all u32 amounts; every supported width (256/384/512/1024 bits and any other multiple of 128 bits from 256 bits on whose bit count fits a u32), both limb sizes", "why_tests_cant": "All amounts up to 2^32 for all values.", "anchors": ["src/shared/unbounded.rs: unbounded_shl, unbounded_shr"]}
{"id": "C40", "title": "Limb size independence", "statement": "Every modelled operation returns the same value on 32-bit-limb and 64-bit-limb builds for the same operands.", "quantifier": "all operands; all widths", "why_tests_cant": "Two separate compile configurations have to be compared over the whole domain.", "anchors": ["src/util.rs: limb_function", "src/types.rs: ULimb, UWide"]}
{"id": "C41", "title": "128-bit scalar operations on 32-bit-limb builds are exact", "statement": "add/sub/mul of a big integer with a u128 or i128 scalar on 32-bit-limb builds give the same result as with the scalar widened to the big type.", "quantifier": "all x, all 128-bit scalars; every supported width (256/384/512/1024 bits and any other multiple of 128 bits from 256 bits on whose bit count fits a u32), both limb sizes", "why_tests_cant": "Only compiled on 32-bit targets; depends on a hand-written limb split of the scalar.", "anchors": ["src/util.rs: u128_to_limb, u128_to_limb_n, i128_to_limb_n", "src/int/limb.rs: wrapping_add_u128, wrapping_mul_u128", "src/uint/limb.rs: wrapping_add_u128"]}
{"id": "C42", "title": "Operators follow the build's overflow mode", "statement": "Without overflow checks +, -, * and pow return the wrapped result; with overflow checks they return the exact result or panic exactly when it is not representable.", "quantifier": "all x, y; both build modes; every supported width (256/384/512/1024 bits and any other multiple of 128 bits from 256 bits on whose bit count fits a u32), both limb sizes", "why_tests_cant": "Mode times all operand pairs.", "anchors": ["src/shared/ops.rs: Add, Sub, Mul, pow"]}
{"id": "C43", "title": "Signed midpoint", "statement": "Signed midpoint(x,y) returns (x+y)/2 computed without overflow, with one fixed rounding direction, as documented (towards negative infinity).", "quantifier": "all signed x, y; every supported width (256/384/512/1024 bits and any other multiple of 128 bits from 256 bits on whose bit count fits a u32), both limb sizes", "why_tests_cant": "Correction term for negative odd sums.", "anchors": ["src/int/ops.rs: midpoint"]}
{"id": "C44", "title": "Wrapping arithmetic is a commutative ring", "statement": "wrapping_add/wrapping_mul are associative and commutative, wrapping_mul distributes over wrapping_add, wrapping_sub undoes wrapping_add, and unsigned and signed wrapping operations agree on representations.", "quantifier": "all x, y, z; every supported width (256/384/512/1024 bits and any other multiple of 128 bits from 256 bits on whose bit count fits a u32), both limb sizes", "why_tests_cant": "Laws over triples: 2^768 cases.", "anchors": ["src/uint/wrapping.rs", "src/int/wrapping.rs"]}
{"id": "C45", "title": "checked_signed_diff and unsigned negation", "statement": "checked_signed_diff(x,y) is Some(x-y) iff x-y fits the signed type; wrapping_neg(x) = -x mod 2^BITS and checked_neg(x) is Some(0) for x = 0 and None otherwise.", "quantifier": "all x, y; every supported width (256/384/512/1024 bits and any other multiple of 128 bits from 256 bits on whose bit count fits a u32), both limb sizes", "why_tests_cant": "Sign of a wrapped difference compared with the operand order over all pairs.", "anchors": ["src/uint/checked.rs: checked_signed_diff, checked_neg", "src/uint/wrapping.rs: wrapping_neg"]}
{"id": "C46", "title": "Conversions to primitive types via num-traits succeed iff the value fits", "statement": "ToPrimitive (to_u8..to_u128, to_i8..to_i128) returns Some(v) with the same value iff it is representable, else None; FromPrimitive likewise.", "quantifier": "all x; every supported width (256/384/512/1024 bits and any other multiple of 128 bits from 256 bits on whose bit count fits a u32), both limb sizes", "why_tests_cant": "Boundary values for each of ten target types.", "anchors": ["src/uint/traits.rs: ToPrimitive, FromPrimitive", "src/int/traits.rs: ToPrimitive, FromPrimitive"]}
{"id": "C47", "title": "Scientific formatting denotes the value", "statement": "LowerExp/UpperExp print d.ddd…eN whose denoted value is the integer, in the form the primitive integers use.", "quantifier": "all x; every supported width (256/384/512/1024 bits and any other multiple of 128 bits from 256 bits on whose bit count fits a u32), both limb sizes", "why_tests_cant": "All values; the one-digit case is special.", "anchors": ["src/uint/traits.rs: LowerExp, UpperExp", "src/int/traits.rs: LowerExp, UpperExp"]}
{"id": "C48", "title": "Halves, high multiplication and parity are exact", "statement": "low(x) = x mod 2^(BITS/2) and high(x) = floor(x / 2^(BITS/2)); high_mul(x,y) = floor(x*y / 2^BITS), the high half of widening_mul(x,y), although it is computed by wrapping half-width products; is_even/is_odd agree with the parity of the value.", "quantifier": "all unsigned x, y; all limb counts (even) and limb widths", "why_tests_cant": "high_mul adds five partial results with wrapping operations; a wrong carry shows only for operands whose partial products are near the wrap-around, a vanishing fraction of 2^512 operand pairs.", "anchors": ["src/uint/extensions.rs:11-59", "src/shared/extensions.rs:7-15"]}
{"id": "C49", "title": "Shift operators with amounts of the crate's own types", "statement": "x << y and x >> y with y of the crate's own types equal the shift by y when 0 <= y < BITS; with overflow checks an amount outside that range panics, as it does for primitive amounts.", "quantifier": "all x, y; every supported width (256/384/512/1024 bits and any other multiple of 128 bits from 256 bits on whose bit count fits a u32), both limb sizes", "why_tests_cant": "Amounts range over all 2^256 values; only the low 32 bits of the amount are used after the range check.", "anchors": ["src/shared/shift.rs: big rule Shl, Shr", "src/shared/ops.rs: Shl, Shr"]}
{"id": "C50", "title": "num-traits Signed methods meet their documentation", "statement": "Signed::abs_sub is max(x - y, 0) with the overflow behaviour of the operator '-', signum is the sign of x and never panics, is_positive holds iff x > 0 and is_negative iff x < 0.", "quantifier": "all x, y; every supported width (256/384/512/1024 bits and any other multiple of 128 bits from 256 bits on whose bit count fits a u32), both limb sizes", "why_tests_cant": "The zero case is a single value; abs_sub must be exact for all pairs including those whose difference overflows.", "anchors": ["src/int/traits.rs:144-179"]}
{"id": "C51", "title": "Signed division by a scalar", "statement": "Dividing a signed number by a non-zero unsigned limb rounds the quotient down and gives a remainder r with 0 <= r < n; dividing by a signed limb truncates towards zero with the sign of the dividend on the remainder, and overflows exactly for MIN / -1; one-limb divisors never panic. Dividing by a double limb gives the same results whenever it returns, and panics exactly if long division on two limbs has to correct an estimate (see C14). A zero divisor gives None in the checked forms.", "quantifier": "all signed x, all non-zero scalars; every supported width (256/384/512/1024 bits and any other multiple of 128 bits from 256 bits on whose bit count fits a u32), both limb sizes, builds with and without overflow checks", "why_tests_cant": "The unsigned-scalar form rounds differently from every other signed division of the crate, and the correction q - 1, n - r is only taken for negative inexact quotients; MIN has no positive counterpart.", "anchors": ["src/int/limb.rs: wrapping_div_rem_ulimb, wrapping_div_rem_uwide, wrapping_div_rem_ilimb, wrapping_div_rem_iwide, overflowing_div_rem_ilimb, checked_div_rem_ilimb", "src/shared/limb.rs: checked_div_rem_ulimb, div_rem_ulimb"]}
{"id": "C52", "title": "Formatting flags", "statement": "With width, fill, alignment, '+', '#' and '0' flags the formatting traits print what the primitive integers print: sign and prefix count towards the width, fill characters go before the sign unless the alignment says otherwise, zeros after the prefix.", "quantifier": "all x, all combinations of flags, all fill characters and alignments; every supported width (256/384/512/1024 bits and any other multiple of 128 bits from 256 bits on whose bit count fits a u32), both limb sizes", "why_tests_cant": "All values times all flag combinations and widths; the usual tests print without a width.", "anchors": ["src/uint/traits.rs: Binary, Octal, LowerHex, UpperHex, Display", "src/int/traits.rs: Binary, Octal, LowerHex, UpperHex, Display"]}
{"id": "C53", "title": "Adding and subtracting fixed-width scalars", "statement": "add/sub of a u32, u64, u128, i32, i64 or i128 scalar (wrapping, overflowing, checked and operator form) gives the result for the scalar widened to the big type, whatever the limb size; signed big integers with 128-bit scalars on 32-bit limbs are treated in C41.", "quantifier": "all x, all scalars; every supported width (256/384/512/1024 bits and any other multiple of 128 bits from 256 bits on whose bit count fits a u32), both limb sizes, builds with and without overflow checks", "why_tests_cant": "Each function selects one of three kernels by the limb size; on a given machine only one of the two builds is ever tested, and carries out of the scalar part depend on all limbs.", "anchors": ["src/uint/limb.rs: *_add_u32 .. *_sub_u128", "src/int/limb.rs: *_add_u32 .. *_sub_i128", "src/shared/limb.rs: add_u32 .. checked_sub_u128"]}
{"id": "C54", "title": "Multiplying by fixed-width scalars", "statement": "mul by a u32, u64, u128, i32, i64 or i128 scalar (wrapping, overflowing, checked and operator form) gives the result for the scalar widened to the big type, with overflow reported exactly if the product does not fit; signed big integers with 128-bit scalars on 32-bit limbs are treated in C41.", "quantifier": "all x, all scalars; every supported width (256/384/512/1024 bits and any other multiple of 128 bits from 256 bits on whose bit count fits a u32), both limb sizes, builds with and without overflow checks", "why_tests_cant": "As for C53; in addition the overflow flag of signed products is wrong only in a gap of relative size 2^-64 (2^-32).", "anchors": ["src/uint/limb.rs: *_mul_u32 .. *_mul_u128", "src/int/limb.rs: *_mul_u32 .. *_mul_i128", "src/shared/limb.rs: mul_u32 .. checked_mul_u128"]}
{"id": "C55", "title": "Dividing by fixed-width scalars", "statement": "div/rem by a non-zero u32, u64 or u128 scalar returns floor(x/n) and x mod n; signed numbers divided by a signed scalar truncate and overflow only for MIN / -1; no non-zero scalar causes a panic; a zero scalar gives None in the checked forms.", "quantifier": "all x, all scalars; even limb counts for the signed types; every supported width (256/384/512/1024 bits and any other multiple of 128 bits from 256 bits on whose bit count fits a u32), both limb sizes, builds with and without overflow checks", "why_tests_cant": "Wrong remainders and panics need a corrected quotient estimate, probability about 2^-31 on 32-bit and 2^-63 on 64-bit limbs, and different scalar sizes fail on different builds.", "anchors": ["src/uint/limb.rs: wrapping_div_rem_u32, wrapping_div_rem_u64, wrapping_div_rem_u128", "src/int/limb.rs: wrapping_div_rem_u32 .. overflowing_div_rem_i128", "src/shared/limb.rs: checked_div_rem_u32 .. div_rem_u128", "src/math/div.rs: from_u128"]}
{"id": "C56", "title": "Unchecked methods are defined and exact inside their contract", "statement": "Whenever the exact sum, difference, product or negation is representable (or the shift amount is below BITS), unchecked_add/sub/mul/neg/shl/shr do not reach unreachable_unchecked and return the exact result.", "quantifier": "all operands of equal width, both limb sizes, all four widths, signed and unsigned", "why_tests_cant": "Undefined behaviour cannot be observed reliably by running the code; a test only sees the inputs it tries, and the claim is about the whole domain in which the caller is allowed to call.", "anchors": ["src/shared/unchecked.rs:32-138", "src/int/unchecked.rs:27-33"]}
{"id": "C57", "title": "num-traits PrimInt shifts, Zero and One", "statement": "signed_shl/signed_shr/unsigned_shl/unsigned_shr shift arithmetically resp. logically whatever the signedness of the type, panic for amounts >= BITS with overflow checks and reduce the amount modulo BITS without; is_zero and is_one hold exactly for the values 0 and 1.", "quantifier": "all numbers, all 32-bit amounts, both overflow modes", "why_tests_cant": "2^256 numbers times 2^32 amounts.", "anchors": ["src/uint/traits.rs:438-455", "src/int/traits.rs:456-473", "src/shared/num_traits_impls.rs:124-151"]}
{"id": "C58", "title": "num-traits MulAdd", "statement": "mul_add(a, b) is the exact self * a + b in the overflow mode of the build: wrapped without overflow checks; with overflow checks exact, or a panic iff the product or the sum is not representable.", "quantifier": "all triples of numbers", "why_tests_cant": "Three full-width operands; the failing products lie in a window of relative size 2^-w just below MIN that random tests do not hit.", "anchors": ["src/shared/num_traits_impls.rs:161-163"]}
{"id": "C59", "title": "Limb access and equality tests", "statement": "get_limb(i) and get_wide(i) return the digit i of the value in base 2^w resp. 2^(2w) on little- and big-endian targets and panic exactly for i out of range; the lowest and highest limb are the value modulo 2^w and the value divided by 2^(BITS-w); eq_branched, eq_const and == agree and decide equality of the values.", "quantifier": "all numbers, all indices, both byte orders", "why_tests_cant": "Tests run on one byte order; the big-endian index arithmetic is never executed on the usual machines.", "anchors": ["src/shared/extensions.rs:19-62", "src/shared/ord.rs:47-82", "src/util.rs:9-28"]}
{"id": "C60", "title": "Shift and rotation laws", "statement": "x << s = x * 2^s; unbounded shifts and rotations compose by adding the amounts; shifting forth and back is masking; a rotation is the or of two shifts; rotations and bit reversal preserve count_ones, and reversal exchanges leading and trailing zeros.", "quantifier": "all numbers and all amounts", "why_tests_cant": "The laws connect independent pieces of code (shift, rotate, mul, pow, counting, byte order) over all numbers and amounts.", "anchors": ["src/math/shift.rs:87-287", "src/math/rotate.rs:60-141", "src/shared/bitops.rs:18-185", "src/shared/endian.rs:44-54"]}
{"id": "C61", "title": "Power laws", "statement": "For the wrapping operations x^(m+n) = x^m * x^n, (x^m)^n = x^(mn), (xy)^n = x^n * y^n, and the signed power has the same limbs as the unsigned one.", "quantifier": "all numbers, all exponents with m+n and mn below 2^32", "why_tests_cant": "Exponents up to 2^32 and full-width bases.", "anchors": ["src/shared/wrapping.rs", "src/uint/wrapping.rs", "src/int/wrapping.rs", "src/math/mul.rs:80-150"]}
{"id": "C62", "title": "Bit operations and arithmetic agree", "statement": "x + y = (x ^ y) + ((x & y) << 1) = (x | y) + (x & y); !x = -x - 1; !!x = x; the laws of De Morgan; x ^ y = (x | y) & !(x & y).", "quantifier": "all pairs of numbers", "why_tests_cant": "Two full-width operands; carries across all limbs are involved on one side only.", "anchors": ["src/shared/bitops.rs:245-270", "src/math/add.rs:50-90", "src/math/sub.rs:50-95"]}
{"id": "C63", "title": "Addition, subtraction and negation kernels run safely in memory", "statement": "Run on arrays in memory of either byte order, with checked indexing, checked native arithmetic and all assertions, the wrapping and overflowing kernels of add.rs and sub.rs (full width, limb, double limb, signed and unsigned) and negate! end normally, never index out of range, and leave the array of the exact result with the exact flag; too short arrays are rejected for double-limb operands.", "quantifier": "all arrays of two limbs or more, both byte orders, all scalars, any limb width", "why_tests_cant": "Tests run on one little-endian machine; an index that is wrong only for the other byte order, or an assertion that fails only for some carries, is never exercised.", "anchors": ["src/math/add.rs:50-112", "src/math/add.rs:142-288", "src/math/add.rs:386-709", "src/math/sub.rs:50-293", "src/math/sub.rs:387-710", "src/math/mul.rs:27-50", "src/util.rs:9-27"]}
{"id": "C64", "title": "Multiplication kernels run safely in memory", "statement": "Run on arrays in memory of either byte order, with checked indexing, checked native double-width arithmetic and all assertions, mac, wrapping_full, overflowing_full, widening and their scalar forms end normally and leave the exact result; mac never overflows its double-width type; the unsigned flag is exact, the signed flag is exact except in the gap of C08; a right factor longer than the left is rejected.", "quantifier": "all arrays, both byte orders, all scalars, any limb width", "why_tests_cant": "Overflow inside a double-width step depends on four operands at their extremes, and index errors of the big-endian layout never show on a little-endian test machine.", "anchors": ["src/math/mul.rs:17-224", "src/math/mul.rs:310-556", "src/math/mul.rs:624-659", "src/math/bigint.rs:36-51"]}
{"id": "C65", "title": "Shifts and rotations run safely in memory", "statement": "Run on arrays in memory of either byte order, with the transmute to double-width elements by way of the bytes, checked indexing, native shifts that panic on an amount of the element width or more, and all assertions, the kernels of shift.rs and rotate.rs and wrapping_shl, wrapping_shr, rotate_left and rotate_right end normally and leave the exact result; the shift kernels reject an amount of the total width or more and arrays of fewer than two elements.", "quantifier": "all arrays of a power-of-two element width, all amounts, both byte orders, signed and unsigned", "why_tests_cant": "A native shift by the full element width, an index underflow in the downward loop, or a wrong half order of the transmute on big-endian machines show only for particular amounts and on machines the tests do not run on.", "anchors": ["src/math/shift.rs:87-287", "src/math/rotate.rs:60-141", "src/shared/bitops.rs:169-185", "src/uint/bitops.rs:18-29", "src/int/bitops.rs:19-30", "src/shared/endian.rs:327-376"]}
{"id": "C66", "title": "Comparisons, bit scans, bitwise operators and halves run safely in memory", "statement": "Run on arrays in memory of either byte order with checked indexing and all assertions, the loops of lt_const, le_const, cmp_const, eq_branchless, eq_branched, bitand_const, bitor_const, bitxor_const, not_const, count_ones, leading_zeros, trailing_zeros, swap_bytes, reverse_bits, swap_array!, is_positive, is_negative, low and high end normally and give the value of the number in the array; a width that is not a multiple of 128 is rejected by from_ne_limbs.", "quantifier": "all arrays, both byte orders, any limb width that is a multiple of 8", "why_tests_cant": "Loops that index the array directly instead of through ne_index! differ from the others only on big-endian machines, which the tests do not run on.", "anchors": ["src/shared/ord.rs:16-159", "src/shared/bitops.rs:17-160", "src/shared/endian.rs:25-54", "src/int/ops.rs:26-54", "src/uint/extensions.rs:11-36", "src/util.rs:9-44"]}
{"id": "C67", "title": "Long division runs in memory exactly as specified in every build", "statement": "Run on arrays in memory of either byte order, with checked indexing, usize subtractions, native arithmetic as compiled with or without overflow checks, debug assertions executed or not, and the x86-64 div instruction or the portable code, the functions of div.rs and wrapping_div_rem, wrapping_div_rem_ulimb, wrapping_div_rem_uwide, wrapping_div_rem_u128 (32-bit limbs) and the signed wrapping_div_rem end normally with the exact quotient and the exact remainder plus the stray limbs of the add-back step, and panic exactly if the add-back step indexes past the divisor or the divisor is zero; all builds give the same result; wrapping_neg, overflowing_neg, overflowing_abs and unsigned_abs end normally and their debug assertion holds.", "quantifier": "all arrays and divisors, both byte orders, all combinations of overflow checks, debug assertions and inline assembler", "why_tests_cant": "Index underflows, a faulting div instruction, a native shift by the full width or a failing debug assertion inside long division depend on rare digit patterns and on the build; big-endian builds are not run.", "anchors": ["src/math/div.rs:45-604", "src/uint/wrapping.rs:228-238", "src/int/wrapping.rs:74-99", "src/int/wrapping.rs:205-211", "src/int/overflowing.rs:174-222", "src/uint/limb.rs:103-107", "src/uint/limb.rs:170-174", "src/uint/limb.rs:361-373"]}
{"id": "C68", "title": "Signed numbers divided by scalars in memory, in every build", "statement": "Run on arrays in memory of either byte order and in every kind of build, the signed wrapping_div_rem_ulimb, div_rem_ulimb, wrapping_div_rem_ilimb, wrapping_div_rem_uwide, wrapping_div_rem_iwide, and with 32-bit limbs wrapping_div_rem_u128 and wrapping_div_rem_i128, return floor quotients and non-negative remainders for unsigned divisors and truncated quotients and remainders for signed divisors. They panic exactly for a zero limb, for a zero double limb or 128-bit divisor with a nonzero dividend, and if the add-back step of long division indexes past the divisor. Stray bits of the add-back step appear in the 128-bit remainders, and with overflow checks make a negative dividend panic.", "quantifier": "all arrays and divisors, both byte orders, all combinations of overflow checks, debug assertions and inline assembler", "why_tests_cant": "The correction of negative remainders runs on the result of the kernel in memory order; the failing add-back step needs rare digit patterns, and big-endian and 32-bit builds are not run.", "anchors": ["src/int/limb.rs:539-582", "src/int/limb.rs:677-712", "src/int/limb.rs:1126-1180", "src/shared/limb.rs:65-74", "src/math/div.rs:45-604"]}
{"id": "C69", "title": "Conversions from and to primitive integers in memory", "statement": "Run on arrays in memory of either byte order, with checked indexing and shifts and the assertions executed, from_u8 ... from_u128, from_i8 ... from_i128, from_ulimb, from_uwide, from_ilimb and from_iwide end normally and store the value (the residue for a negative value on the unsigned types); as_u8 ... as_i128, as_ulimb and as_uwide end normally and return the value modulo the size of the type; the conversions between the signed and the unsigned type keep the array; MIN, MAX, is_even and is_odd are right.", "quantifier": "all arrays and values, both byte orders, limbs of 32 and 64 bits, every number of limbs of at least four", "why_tests_cant": "A wrong index on big-endian machines or for 32-bit limbs shows up in no test that runs; the sign fill of the other limbs must be right for every value.", "anchors": ["src/shared/casts.rs:55-379", "src/shared/extensions.rs:7-61", "src/int/constants.rs:21-34", "src/uint/constants.rs:21-30", "src/util.rs:9-27"]}
{"id": "C70", "title": "Text conversions in memory in every build", "statement": "Run on arrays in memory of either byte order, with the buffer written in place through checked indices, index-driven loops, the assertions executed and native arithmetic checked or wrapping as the build says: unsigned to_str_radix writes the numeral to the end of the buffer, leaves the other bytes alone and returns the slice with the numeral; the signed one does so for numbers that are not negative, and for a negative number writes '-' and one character made from the lowest byte, or panics if overflow checks are on and that sum exceeds a byte; from_str_radix and FromStr end normally and store the value or return the right error, for all strings except a sole sign (read as zero by from_str_radix) and the texts that meet the multiplication error (read as the value plus 2^BITS); Binary, Octal, LowerHex, UpperHex, Display, LowerExp and UpperExp never panic, never fail and print what C30, C47 and C52 describe for every combination of flags.", "quantifier": "all arrays, buffers, strings, bases and flags, both byte orders, limbs of 32 and 64 bits, every even number of limbs of at least four, builds with and without overflow checks and assertions", "why_tests_cant": "The index arithmetic of the buffer, the choice between the checked and the unchecked loop and the byte order of the limbs cannot be tried for all inputs, builds and targets.", "anchors": ["src/write.rs:5-70", "src/parse.rs:8-158", "src/uint/traits.rs:12-150", "src/int/traits.rs:34-120"]}
{"id": "C71", "title": "Powers and logarithms in memory in every build", "statement": "Run on arrays in memory of either byte order, with checked limb accesses, the assertion of the loops executed and native arithmetic checked or wrapping as the build says: wrapping_pow, overflowing_pow, checked_pow and pow end within 32 rounds of their loop for every u32 exponent and return the exact power reduced modulo 2^BITS, with an exact overflow report for unsigned numbers and the report of C11 for signed ones; checked_ilog and ilog end within BITS rounds for every base except 1 and return what C32 describes; unsigned checked_ilog with base 1 never ends without overflow checks and panics with them.", "quantifier": "all arrays and exponents, both byte orders, every limb width that is a multiple of 8, every even number of limbs of at least four that makes BITS a multiple of 128, builds with and without overflow checks and assertions, any number of loop rounds", "why_tests_cant": "Termination of the loops and the truth of the assertion for all exponents and operands, in both byte orders and all kinds of build, cannot be tried out; a loop that does not end cannot be observed by a test.", "anchors": ["src/shared/wrapping.rs:16-36", "src/shared/overflowing.rs:19-46", "src/shared/checked.rs:46-76", "src/shared/checked.rs:187-192", "src/uint/checked.rs:55-84", "src/int/checked.rs:86-91", "src/uint/ops.rs:117-137", "src/int/ops.rs:231-257"]}
{"id": "C72", "title": "Trait implementations compute what their name says", "statement": "WrappingAdd/Sub/Mul, CheckedAdd/Sub/Mul and SaturatingAdd/Sub/Mul of num-traits compute the operation and the overflow treatment they are named for (signed products as described by C08). Bounded gives the least and greatest representable number, Zero 0 and One 1. From<bool> gives 0 or 1 and From<char> the code point. usize and isize are converted in both directions with their value, reduced modulo 2^pointer width where the target is smaller, and from_isize refuses negative numbers for the unsigned types. Unsigned strict_neg gives 0 for 0 and panics otherwise. Errors of the standard library's parser keep their kind, and different kinds of error have different texts.", "quantifier": "all numbers of every limb width (32 and 64 bits for the conversions) and every even number of limbs of at least four, all characters and booleans, all usize and isize values of every pointer width up to 128", "why_tests_cant": "The implementations are generated by macro tables for eight types and many traits, and a wrong entry agrees with the right one on many operands; the theorems cover every operand and pointer width.", "anchors": ["src/shared/num_traits_impls.rs:10-51", "src/shared/num_traits_impls.rs:53-79", "src/shared/num_traits_impls.rs:113-155", "src/shared/num_traits_impls.rs:224-297", "src/shared/traits.rs:57-70", "src/shared/traits.rs:126-134", "src/uint/traits.rs:205-207", "src/uint/traits.rs:235-247", "src/int/traits.rs:209-211", "src/int/traits.rs:239-251", "src/uint/strict.rs:125-130", "src/error.rs:69-96"]}
{"id": "C73", "title": "Limb helpers of math::bigint are exact", "statement": "carrying_add and borrowing_sub on unsigned limbs return a limb and a carry that together are the exact sum or difference. On signed limbs the result is reduced to the range of the type and the flag is set exactly if the true result is outside it, also when the two native steps both overflow and cancel. carrying_mul and mac never overflow their double-width arithmetic and return the exact value in two limbs.", "quantifier": "all limbs of every width (at least two bits for the signed helpers) and both values of the incoming carry", "why_tests_cant": "The helpers take up to four 64-bit operands; the cancelling overflows and the extreme products are single points of that space.", "anchors": ["src/math/bigint.rs:17-51", "src/math/bigint.rs:55-73"]}
{"id": "C74", "title": "Big-endian bytes are ordered like the numbers", "statement": "For unsigned numbers of the same type, to_be_bytes of one is lexicographically smaller than that of the other exactly if the number is smaller, the byte strings are equal exactly if the numbers are, and the comparison operator gives the same answer. For signed numbers the same holds when both have the same sign; otherwise the negative number has the greater byte string.", "quantifier": "all pairs of numbers of every limb width that is a multiple of 8 and every even number of limbs, on little- and big-endian targets", "why_tests_cant": "Keys of ordered stores rely on this relation for every pair of values; tests look at few pairs, and pairs that agree on a long prefix are rare among random ones.", "anchors": ["src/shared/endian.rs:126-128", "src/shared/ord.rs:91-101"]}
{"id": "C75", "title": "Accepted texts and their normal form", "statement": "from_str_radix returns a number exactly for the nonempty texts that consist of digits after an optional sign (only + for unsigned types) and whose value is in range, and it returns that value; the only exception are the signed texts of the gap described by C29. Writing an accepted text out again gives the canonical numeral of its value, and two accepted texts give the same number exactly if their values agree. Upper and lower case letters are interchangeable and leading zeros, before or after a plus sign and after a minus sign, change nothing, for accepted and rejected texts alike.", "quantifier": "all texts of any length, bases 2 to 36, every number of limbs of at least four of 32 or 64 bits", "why_tests_cant": "The set of texts is infinite; the parser switches between an unchecked and a checked loop depending on the length, so leading zeros and letter case meet different code for different lengths.", "anchors": ["src/parse.rs:117-158"]}
{"id": "C76", "title": "Text agrees with bits, bytes, logarithm and parity", "statement": "The binary text of a number has bit i as its i-th character from the right, exactly count_ones ones, max(1, BITS - leading_zeros) characters and, for a nonzero number, trailing_zeros zeros at its end; is_power_of_two holds exactly if it has a single one. The hexadecimal text filled with zeros to full width is the dump of to_be_bytes, in upper or lower case, for both types. The decimal text of an unsigned number of at least 10 has one character more than ilog in base 10, and the last decimal character has the parity reported by is_even, for both types.", "quantifier": "all values, both build modes, every even number of limbs of at least four of 32 or 64 bits", "why_tests_cant": "Writer, bit counters, byte conversion and logarithm are written independently with different word sizes and loops; their agreement on all 2^256 or more values cannot be sampled.", "anchors": ["src/write.rs: to_str_radix", "src/shared/bitops.rs: count_ones, leading_zeros, trailing_zeros", "src/shared/endian.rs: to_be_bytes", "src/uint/checked.rs: checked_ilog", "src/shared/extensions.rs: is_even"]}
{"id": "C77", "title": "Division laws", "statement": "With the operations of the crate: q*y + r = x, q*y does not overflow and r < y hold for the results of an unsigned division, in both build modes, exactly if the division is exact in the sense of C13; the signed laws hold in the same cases with |r| < |y| and the sign of x on r. If x*y is representable and its division by y does not panic, (x*y)/y = x. Division by 1 << s is the right shift by s and the remainder is the mask of the lowest s bits, in every form, and never panics; for signed numbers this holds for div_floor, div_euclid and rem_euclid, negative numbers included. If the division is exact, the signed quotients are related as named: div_euclid is div_floor for positive and div_ceil for negative divisors, the truncated quotient is div_floor for equal and div_ceil for different signs, and div_ceil exceeds div_floor by one exactly if the remainder is not zero.", "quantifier": "all numerators and non-zero divisors, every even number of limbs of at least two (four for the reconstruction laws), both build modes, all shift amounts below BITS (BITS - 1 for signed numbers)", "why_tests_cant": "The laws join long division, multiplication, addition, comparison and shifts; the inputs for which long division has to correct an estimate have density about 2^-63 and are practically never sampled.", "anchors": ["src/math/div.rs: full", "src/uint/wrapping.rs: wrapping_div_rem", "src/int/wrapping.rs: wrapping_div_rem, wrapping_div_euclid, wrapping_rem_euclid", "src/int/ops.rs: div_floor, div_ceil", "src/uint/ops.rs: is_multiple_of"]}
{"id": "C78", "title": "Signed and unsigned type agree on common values", "statement": "wrapping_mul and wrapping_neg are the same function on the limbs in both types; the signed order is the unsigned order of the numbers with flipped top bits. For numbers with clear top bit, fifteen forms of division and remainder (wrapping, operator, strict, saturating, Euclidean, floor, ceiling), shr, midpoint, abs_diff and ilog give the same limbs, panic or spoilt remainder in both types; signed checked_add, checked_mul, checked_pow are the unsigned results filtered by a clear top bit, and unsigned checked_sub is the signed result filtered by a clear top bit. Display and to_str_radix agree exactly for the numbers with clear top bit, the formats in base 2, 8, 16 agree for all numbers, and a text without '-' is accepted by the signed parser with value v exactly if it is by the unsigned one and the top bit of v is clear.", "quantifier": "all pairs of numbers (with the stated signs), all shift amounts, bases, texts, exponents below 2^32, both build modes", "why_tests_cant": "The claim compares two separately written implementations on 512 bits of input each; the disagreements would sit at the rare corrections of long division and at overflow boundaries.", "anchors": ["src/int/wrapping.rs: wrapping_mul, wrapping_div_rem, wrapping_div_euclid", "src/uint/wrapping.rs: wrapping_mul, wrapping_div_rem", "src/int/ops.rs: div_floor, div_ceil, midpoint, ilog", "src/uint/ops.rs: div_ceil, midpoint, ilog", "src/shared/ord.rs: lt, cmp", "src/int/checked.rs: checked_add, checked_mul", "src/int/traits.rs: Display"]}
{"id": "C79", "title": "Arithmetic respects the order", "statement": "In terms of the crate's own comparisons: saturating add, mul (unsigned), pow (unsigned) and sub in the first operand preserve <=, saturating sub in the second operand and saturating neg reverse it; sums and differences that do not overflow have exactly the order of their operands; bitwise negation reverses both orders; right shifts preserve them; the midpoint lies between its arguments and is symmetric; abs_diff is a distance (symmetric, zero only for equal numbers, triangle inequality); quotients by a common divisor preserve <= (positive divisor in the signed type) and unsigned quotients of a common numerator reverse it.", "quantifier": "all triples of numbers, all shift amounts, exponents below 2^32; for division all operands for which it returns", "why_tests_cant": "Three full-width operands; a violation would need two neighbouring inputs to be treated by different branches (overflow, carry, estimate correction), which sampling practically never produces.", "anchors": ["src/shared/ord.rs: le, cmp", "src/uint/saturating.rs: saturating_add, saturating_mul, saturating_pow", "src/int/saturating.rs: saturating_add, saturating_sub, saturating_neg", "src/uint/ops.rs: midpoint, abs_diff", "src/int/ops.rs: midpoint, abs_diff", "src/math/shift.rs: right", "src/math/div.rs: full"]}
{"id": "C80", "title": "The forms of one operation agree", "statement": "For every operation and all operands, the overflowing form (a value and a flag) determines the others: the wrapping form returns the value; the checked form is None iff the flag is set, otherwise Some of the value; the strict form panics iff the flag is set; the operator is the strict form in a build with overflow checks and the wrapping form otherwise; the saturating form is the value, or the bound on the side of the exact result if the flag is set. If one form panics on a nonzero divisor, all do. For a zero divisor the checked form is None, the strict form panics, and the overflowing form follows the wrapping form with no flag.", "quantifier": "all operands of every width, including those where the flag or the remainder itself is wrong (B1, B2) and those where the division panics; exponents below 2^32; both builds", "why_tests_cant": "The forms take different routes to the same answer (logarithm shortcut in checked_mul, separate MIN / -1 branch in the overflowing divisions, separate power loops); they could differ on the few operands between two routes.", "anchors": ["src/shared/checked.rs: checked_mul, checked_pow, checked_div", "src/shared/strict.rs: strict_add, strict_div", "src/shared/ops.rs: add, mul, div, rem", "src/int/overflowing.rs: overflowing_div, overflowing_rem, overflowing_rem_euclid", "src/int/saturating.rs: saturating_mul, saturating_pow, saturating_div", "src/shared/limb.rs: checked_add_ulimb, add_ulimb, checked_div_rem_ulimb, div_rem_u128", "src/int/limb.rs: overflowing_div_rem_ilimb, checked_add_i128, overflowing_div_i32"]}
{"id": "C81", "title": "Logarithm laws", "statement": "In terms of the crate's own operations: if checked_ilog(x, base) returns k then checked_pow(base, k) is Some and at most x, and checked_pow(base, k+1) is None or greater than x (signed and unsigned); the logarithm of a power that does not overflow is its exponent, and that call never panics; the logarithm does not decrease with x and does not increase with the base; dividing x by the base takes one off; to base 2 checked_ilog agrees with checked_ilog2; checked_ilog2 of a product that does not overflow is the sum of the logarithms or one more.", "quantifier": "all numbers and bases of every width for which the calls return", "why_tests_cant": "The start value of the loop in checked_ilog is an estimate from two binary logarithms; an estimate one too high is wrong only just below powers of the base, and there are about BITS of them per base among 2^BITS numbers.", "anchors": ["src/uint/checked.rs: checked_ilog", "src/int/checked.rs: checked_ilog", "src/shared/checked.rs: checked_pow, checked_mul", "src/uint/ops.rs: ilog"]}
{"id": "C82", "title": "Repairs", "statement": "For each of the disagreements B1 to B19 there is a change of a few lines with which the full claim holds for all inputs: long division with the add-back loop ended at limb n and a zero test panics exactly for a zero divisor and is otherwise exact (unsigned, two-limb, 128-bit on 32-bit limbs, and signed); the signed overflow flag of multiplication with all limbs compared with MIN is exact; checked_ilog with the guard base <= 1 and an early Some(0) ends with the integer logarithm; from_str_radix with an error for a sole sign parses every string as specified; the signed to_str_radix on the absolute value writes every value; shift operators with a wider range test accept amounts of every primitive type; unbounded_shr with -1, carrying_add with an exclusive or, try_from with <=, and the 128-bit split with limbs in order are exact; on that split and the kernels for equal lengths, signed add, sub and mul of 128-bit scalars on 32-bit limbs are exact in all forms; the signed midpoint without its last step rounds towards negative infinity; is_positive with > is false for zero; LowerExp and UpperExp without the trailing zeros write the form of the primitive integers, and Display and the radix traits on pad_integral heed the flags as they do. The public functions of math, for array lengths and amounts the crate does not use: division with the shorter numerator extended is exact for all lengths; the signed product on absolute values is exact for all lengths; signed sums and products with unsigned scalars as wide as the array have the right flag; shifts with the branch for two elements restricted to amounts below the width are exact for every amount. Where the code was right the changed division and multiplication return the same result.", "quantifier": "all inputs of every width and limb size", "why_tests_cant": "Whether a proposed fix is complete cannot be seen from the failing inputs: the add-back step occurs for about one in 2^63 random quotient digits, and the window of the multiplication flag has a share of about 2^-64 of the products.", "anchors": ["src/math/div.rs: full, wide, from_u128, div_rem_knuth", "src/math/mul.rs: overflowing_full", "src/uint/checked.rs: checked_ilog", "src/parse.rs: from_str_radix", "src/write.rs: to_str_radix", "src/shared/shift.rs: Shl, Shr", "src/shared/unbounded.rs: unbounded_shr", "src/shared/bigint.rs: carrying_add, borrowing_sub", "src/int/traits.rs: try_from, is_positive, fmt", "src/util.rs: u128_to_limb_n, i128_to_limb_n", "src/int/limb.rs: *_add_u128 .. *_mul_i128", "src/int/ops.rs: midpoint", "src/uint/traits.rs: fmt", "src/math/mul.rs: wrapping_full, overflowing_ulimb, overflowing_uwide", "src/math/add.rs, src/math/sub.rs: overflowing_uwide", "src/math/shift.rs: left, right"]}
{"id": "C83", "title": "Public division functions on arrays of any lengths", "statement": "math::div::full, wide, limb, limb_padded, from_u128, cmp, truncate and the scalar conversions, called with arrays of any lengths (equal or not, also empty), return the exact quotient and remainder and panic exactly for a zero divisor or an array too short for the result; every build (overflow checks, debug assertions, div instruction) returns the same.", "quantifier": "all arrays of all lengths M and N, all divisors, both limb sizes, every build", "why_tests_cant": "The functions are generic in two lengths and the crate itself only calls them with equal ones; which of the other combinations panic depends on the sizes of the values and, through the add-back step, on quotient digits that random operands meet with probability 2^-63.", "anchors": ["src/math/div.rs: full, wide, limb, from_u128, cmp, truncate, scalar1, scalar2, scalar_u128, u128_scalar"]}
{"id": "C84", "title": "Public add, sub and mul functions on arrays of any lengths", "statement": "The functions of math::add, math::sub and math::mul, called with arrays of any lengths, panic exactly when an array is too short for the function and otherwise return the sum, difference or product modulo 2^(BITS*N), with the overflow flag set exactly when the result does not fit.", "quantifier": "all arrays of all lengths (equal or not where the function is generic in two lengths), all scalars, both byte orders, both limb sizes", "why_tests_cant": "The functions are generic in one or two lengths and the crate only calls them with 4 to 32 limbs; the tests in the crate use one or two lengths and the failing combinations need a negative factor that is shorter than the other one, or an array of the length of the scalar.", "anchors": ["src/math/add.rs: wrapping_full, overflowing_full, wrapping_mn, overflowing_mn, wrapping_ulimb, overflowing_uwide", "src/math/sub.rs: wrapping_full, overflowing_full, overflowing_ulimb", "src/math/mul.rs: wrapping_full, overflowing_full, widening_full, overflowing_ulimb"]}
{"id": "C85", "title": "All forms of the arithmetic methods in memory", "statement": "The wrapping, overflowing, checked, saturating and strict forms and the operators of addition, subtraction, multiplication, negation, absolute value and exponentiation (also with an operand of the other signedness), carrying_add, borrowing_sub, widening_mul, carrying_mul, high_mul, abs_diff, checked_signed_diff and signum, run on arrays in either byte order with checked indices, never fail in any other way than by the documented panic and return the value and the flag that the exact result determines.", "quantifier": "all arrays of every even length from 4 on whose width is a multiple of 128 bits, all operands, both byte orders, both limb sizes, builds with and without overflow checks", "why_tests_cant": "The tests of the crate run on one machine of one byte order and in one kind of build, and on chosen operands; the claim is about all operands of all types on both byte orders, including operands where only one of the forms goes wrong.", "anchors": ["src/shared/checked.rs: checked_mul", "src/uint/wrapping.rs: wrapping_add, wrapping_sub, wrapping_neg", "src/uint/overflowing.rs: overflowing_add, overflowing_sub, overflowing_add_signed", "src/uint/saturating.rs: saturating_add_signed", "src/int/saturating.rs: saturating_mul, saturating_pow", "src/int/checked.rs: checked_add_unsigned", "src/int/ops.rs: abs_diff, signum"]}
{"id": "C86", "title": "All forms of division in memory", "statement": "The wrapping, overflowing, checked, saturating and strict forms and the operators of div, rem, div_rem, div_euclid and rem_euclid, and div_floor, div_ceil, next_multiple_of and is_multiple_of, of the unsigned and the signed types, run on arrays in either byte order with checked indices, panic only where documented and return the quotient, the remainder and the overflow flag that the mathematical division determines.", "quantifier": "all arrays of every even length from 4 on whose width is a multiple of 128 bits, all dividends and divisors (zero included), both byte orders, both limb sizes, builds with and without overflow checks, debug assertions or the assembly division", "why_tests_cant": "The tests of the crate divide chosen numbers on one machine and in one kind of build. Wrong remainders and panics occur only for divisors where the estimate of a quotient digit has to be corrected, and each form of the method may treat them differently.", "anchors": ["src/math/div.rs", "src/uint/wrapping.rs: wrapping_div, wrapping_rem", "src/shared/checked.rs: checked_div, checked_rem", "src/uint/ops.rs: div_ceil, next_multiple_of, is_multiple_of", "src/int/wrapping.rs: wrapping_div_euclid, wrapping_rem_euclid", "src/int/overflowing.rs: overflowing_div, overflowing_rem", "src/int/ops.rs: div_floor, div_ceil, next_multiple_of"]}
{"id": "C87", "title": "Shift forms, bit counts, powers of two and midpoints in memory", "statement": "The checked, strict, overflowing and unbounded shifts, the shift operators with amounts of primitive types and of the big integer types, count_zeros, leading_ones, trailing_ones, is_power_of_two, the forms of next_power_of_two and midpoint, run on arrays in either byte order with checked indices, reject exactly the amounts that are documented as rejected and otherwise leave the number that shifting, counting or averaging the mathematical value determines.", "quantifier": "all arrays of every even length from 4 on whose width is a multiple of 128 bits, all amounts of every width (negative ones included), both byte orders, both limb sizes, builds with and without overflow checks", "why_tests_cant": "The tests of the crate shift chosen numbers by a few amounts of type i32 on one machine. The wrong limits occur only for amounts of other types, and a slip in the order of the limbs shows only on a big-endian machine.", "anchors": ["src/shared/shift.rs", "src/shared/ops.rs: Shl, Shr", "src/shared/checked.rs: checked_shl, checked_shr", "src/shared/strict.rs: strict_shl, strict_shr", "src/shared/unbounded.rs", "src/int/overflowing.rs: overflowing_shl, overflowing_shr", "src/uint/ops.rs: is_power_of_two, next_power_of_two, midpoint", "src/int/ops.rs: midpoint", "src/shared/bitops.rs: count_zeros, leading_ones, trailing_ones"]}
{"id": "C88", "title": "Arithmetic with limb and double-limb scalars in memory", "statement": "Addition, subtraction and multiplication of a big integer with a scalar of one or two limbs, signed or unsigned, in the wrapping, overflowing and checked forms and as operators, run on arrays in either byte order with checked indices, agree with exact integer arithmetic: the wrapped value, the overflow flag, None or the panic exactly if the result is out of range.", "quantifier": "all arrays of every even length from 4 on whose width is a multiple of 128 bits, all scalars, both byte orders, both limb sizes, builds with and without overflow checks", "why_tests_cant": "The tests of the crate use chosen scalars on a little-endian machine with 64-bit limbs. A slip in the sign extension of the scalar, in the order of its two limbs or in a carry shows only for other scalars, limb sizes or byte orders.", "anchors": ["src/uint/limb.rs: wrapping_add_ulimb, overflowing_mul_uwide", "src/int/limb.rs: wrapping_add_ilimb, overflowing_mul_iwide, checked_sub_ilimb", "src/shared/limb.rs: add_ulimb, checked_mul_uwide", "src/math/add.rs", "src/math/sub.rs", "src/math/mul.rs"]}
{"id": "C89", "title": "Arithmetic with fixed-width scalars in memory", "statement": "Addition, subtraction and multiplication of a big integer with a u32, u64, u128, i32, i64 or i128, in the wrapping, overflowing and checked forms and as operators, run on arrays in either byte order with checked indices, agree with exact integer arithmetic: the wrapped value, the overflow flag, None or the panic exactly if the result is out of range.", "quantifier": "all arrays of 32-bit or 64-bit limbs whose width is a multiple of 128 bits and at least 256 bits, all scalars, both byte orders, builds with and without overflow checks", "why_tests_cant": "The 128-bit scalars take another path on 32-bit limbs, where they are split by a transmute or limb by limb. The tests run on 64-bit limbs and a little-endian machine and never take it.", "anchors": ["src/util.rs: u128_to_limb, u128_to_limb_n, i128_to_limb_n", "src/uint/limb.rs: wrapping_add_u128, overflowing_mul_u64", "src/int/limb.rs: wrapping_mul_i128, overflowing_add_u64, checked_sub_i32", "src/shared/limb.rs: add_u32, checked_mul_u128"]}
{"id": "C90", "title": "The forms of division by a scalar in memory", "statement": "Division of a big integer by a limb, a double limb or a scalar of 32, 64 or 128 bits, in the wrapping, overflowing and checked forms and as operators, giving quotient and remainder together or alone, run on arrays in either byte order with checked indices, returns the exact quotient and remainder for every nonzero divisor, overflows only for MIN / -1, and panics or returns None for a zero divisor.", "quantifier": "all arrays of limbs whose width is a multiple of 128 bits (for scalars of fixed width: of 32-bit or 64-bit limbs and at least 256 bits), all scalars, both byte orders, builds with and without overflow checks, debug assertions and inline assembly", "why_tests_cant": "The failing inputs of the long division are a vanishing part of all inputs, and the paths for 32-bit limbs and big-endian arrays are not run by the tests.", "anchors": ["src/uint/limb.rs: wrapping_div_rem_ulimb, wrapping_div_rem_uwide, checked_div_rem_ulimb", "src/int/limb.rs: wrapping_div_rem_ilimb, overflowing_div_rem_iwide, checked_div_rem_ulimb", "src/shared/limb.rs: div_rem_ulimb, checked_div_u128", "src/math/div.rs: limb, full"]}
{"id": "C91", "title": "The public shift and rotate functions on arrays of any length", "statement": "The functions of math::shift and math::rotate, run on an array of any number of elements of a power-of-two width, move every bit by the given amount: the left shift gives x * 2^s modulo the width, the right shifts give the floor of x / 2^s of the unsigned or signed number, and the rotations move bit i to bit i + n modulo the width. An array of fewer than two elements panics. An amount of the width or more panics with debug assertions; without them all bits are shifted out (with copies of the sign for the signed right shift).", "quantifier": "all element widths that are powers of two, all arrays of any length (below 2^32 bits in total), all amounts, both byte orders, builds with and without debug assertions and overflow checks", "why_tests_cant": "The tests run the functions on the lengths and amounts that the types use, in one build and one byte order; the behaviour for larger amounts depends on the build.", "anchors": ["src/math/shift.rs: left_u64, right_u64, right_i64 (from the macro define)", "src/math/rotate.rs: left_u64, right_u64 (from the macro define)"]}
{"id": "C92", "title": "The algorithms of the benchmarks compute what they measure", "statement": "The three candidate multiplications of devel/benches/mul_algos.rs give the product modulo the square of the word; the six candidate shifts of shift_algos.rs agree with each other and shift the two-word number by the amount modulo its width, and panic with debug assertions for an amount of the width or more; the two ways of bit_algos.rs to count ones and leading zeros count those of the 256-bit number; the division by multiplication of div_by_mul.rs gives the quotient and remainder of every 256-bit number by 10 and by 0x12345678.", "quantifier": "all operands; the multiplications for every half-word width (three bits or more for the second version), the shifts for every word width and amount, builds with and without debug assertions and overflow checks, both byte orders for the division", "why_tests_cant": "The results of a benchmark go to black_box and are never compared with anything, so a wrong candidate is measured as if it were right; the errors of the high product show only where the sum of the cross products matters.", "anchors": ["devel/benches/mul_algos.rs: mul_v1, mul_v2, mul_v3", "devel/benches/shift_algos.rs: shl!, shr!", "devel/benches/bit_algos.rs: count_ones, leading_zeros", "devel/benches/div_by_mul.rs: mulhi, divide_by_num, div_rem_by_num"]}
{"id": "C93", "title": "The division by multiplication of the Python script", "statement": "etc/libdivide.py generates, for every bit count b and every divisor d with 1 <= d < 2^b, a divider in both modes; the divider gives floor(n / d), and n mod d for the remainder, for every n below 2^b. A divisor of 0 raises ZeroDivisionError, a divisor outside [1, 2^b) ValueError. The factors in devel/benches/div_by_mul.rs are those that the script generates.", "quantifier": "all bit counts up to 2^14 (the size of the shift field), all divisors, all numerators, both modes", "why_tests_cant": "There are no tests of the script, and the factor and shift are right or wrong depending on the rounding error of 2^k / d; that the error is small enough for every numerator of 256 bits cannot be tried out.", "anchors": ["etc/libdivide.py: unsigned_gen_impl, unsigned_gen_branched, unsigned_gen_branchfree, unsigned_divide_branched, unsigned_divide_branchfree, Divider", "devel/benches/div_by_mul.rs: div10_magic, div1234_magic"]}
{"id": "C94", "title": "The magic numbers of the second Python script", "statement": "etc/magic.py: the factor and shift of choose_multiplier divide every number of the precision by the divisor (if the rounded logarithm is at least the true one); fast_shift is the number of trailing zeros; mulhi is the upper half of the product; fast_divrem with the factors of calculate_factors gives the quotient and remainder of every number of 2h bits by a divisor of h bits. Odd divisors and factors of more than 2h bits raise NotImplementedError.", "quantifier": "all divisors, bit counts, numerators and rounded logarithms, signed and unsigned precision", "why_tests_cant": "There are no tests of the script; whether the rounded factor is right for every numerator of 128 or more bits depends on an error bound that samples do not reach.", "anchors": ["etc/magic.py: choose_multiplier, fast_shift, calculate_factors, fast_divrem, mulhi"]}
{"id": "C95", "title": "Exponents and debug output with flags", "statement": "With a precision, width, fill, alignment, '+' and '0' flags, LowerExp and UpperExp print what the primitive integers print (the digits rounded to the precision, halves to even, padded to the width), and Debug prints what theirs prints, including the hexadecimal form for {:x?} and {:X?}.", "quantifier": "all x, all precisions and combinations of flags, all fill characters and alignments; every supported width (256/384/512/1024 bits and any other multiple of 128 bits from 256 bits on whose bit count fits a u32), both limb sizes", "why_tests_cant": "All values times all precisions, widths and flags; the tests print without flags.", "anchors": ["src/uint/traits.rs: LowerExp, UpperExp", "src/int/traits.rs: LowerExp, UpperExp", "src/shared/traits.rs: Debug"]}
{"id": "C96", "title": "The developer quickcheck predicates hold for every input", "statement": "Every quickcheck predicate of devel/tests/native_math.rs (two 32-bit limbs against u64 and i64) and of devel/tests/div_math.rs (limb division against u128) returns true for every input, not only for the sampled ones.", "quantifier": "all 64-bit and 128-bit operands, all scalar operands and all shift amounts; both byte orders for the rotations", "why_tests_cant": "quickcheck draws a few hundred of the 2^128 pairs of operands; the inputs for which three of the predicates fail are too rare to be drawn.", "anchors": ["devel/tests/native_math.rs", "devel/tests/div_math.rs: L52-L83"]}
{"id": "C97", "title": "The operations are those of bit vectors", "statement": "On the same bits, the operations compute what the bit vectors of Lean's core library compute: sums, differences, products, quotients, remainders, powers, negation and absolute value in their wrapping, overflowing, checked, strict, saturating and operator forms, bitwise operations, shifts, rotations, counts, reversal, comparisons, the full product and conversions. The overflow flags are BitVec's overflow predicates.", "quantifier": "all bit vectors a, b of n bits and all limb arrays with these bits; every even number of limbs from 4 on, every limb width above 1 (powers of two for the shifts, 32 and 64 for the conversions), both settings of overflow checks", "why_tests_cant": "devel/tests/ops.rs compares with another crate on a few hundred random pairs per operation; the pairs for which the overflow flag or the remainder differ are too rare to be drawn.", "anchors": ["devel/tests/ops.rs", "src/uint", "src/int", "src/shared"]}
{"id": "C98", "title": "An operation with a scalar is the operation with the converted scalar", "statement": "For every operation that takes a primitive scalar (one limb, two limbs, or 32, 64 or 128 bits; signed or unsigned), the wrapping, overflowing, checked and operator forms return what the corresponding form on two wide values returns when the scalar is converted with From, and panic in the same cases. The remainder of a division, which the scalar form returns as a scalar, equals the full remainder after conversion.", "quantifier": "all values of any even number of limbs from 4 on, all scalars, 32- and 64-bit limbs, both settings of overflow checks", "why_tests_cant": "devel/tests/ops.rs states these equalities as quickcheck predicates, and only for u256 and i256 with one and two limbs; the divisions that differ need a wrong estimate, which random scalars practically never give, and predicates with signed values and unsigned divisors would need negative values that the divisor does not divide.", "anchors": ["devel/tests/ops.rs", "devel/tests/util.rs", "src/shared/limb.rs", "src/uint/limb.rs", "src/int/limb.rs"]}
{"id": "C99", "title": "A wider type gives the same results wherever the narrow one has room", "statement": "Take two types of the crate, the second with at least as many bits, and the same numbers in both. Then wrapping operations return the lowest bits of what the wide type returns; an operation overflows, returns None or panics in the narrow type iff the wide operation does so or its exact result does not fit the narrow type; saturating operations return the nearest number the narrow type has; comparisons, counts, logarithms, divisions, right shifts, conversions, printed text and parsed values are the same.", "quantifier": "all pairs of types of the crate (including different limb sizes) with the second at least as wide, all operands representable in the narrow type, all exponents, shifts, texts, radixes and format flags, both settings of overflow checks", "why_tests_cant": "No test of the crate compares two widths; an error in a loop bound shows up only for one width, and the divisions that differ need operands for which a quotient digit estimate is corrected, which random operands practically never give.", "anchors": ["src/lib.rs: type definitions", "src/types.rs: ULimb, UWide", "src/math/add.rs", "src/math/sub.rs", "src/math/mul.rs", "src/math/div.rs", "src/math/shift.rs", "src/parse.rs", "src/write.rs"]}
{"id": "C100", "title": "Straight-line programs compute what they compute on the integers", "statement": "Take a sequence of assignments whose right-hand sides are arbitrary expressions over the operators + - * / % & | ^ ! - << >> and pow of one type. In a build with overflow checks it ends with the values that the same program has on the integers, and panics iff an intermediate result does not fit, a divisor is zero or a shift amount is not below BITS. A program that ends with overflow checks ends with the same values without them. Without overflow checks a program over + - * ! - << and pow never panics and returns the unbounded integer result reduced modulo 2^BITS. The size of the limbs makes no difference.", "quantifier": "all programs (any length, any nesting of expressions), all initial values, all types of the crate, signed and unsigned, both limb sizes", "why_tests_cant": "The tests check single operations on random operands. A composition can meet representations that no single test produced, e.g. a remainder with a stray bit that is the operand of the next operation, and programs are unbounded in length.", "anchors": ["src/shared/ops.rs:20-148", "src/shared/bitops.rs:241-265", "src/shared/shift.rs:5-31", "src/int/traits.rs:12-26"]}
{"id": "C101", "title": "Programs with branches and loops behave as on the integers", "statement": "Take a program over one type built from assignments (expressions as in C100), conditions (== != < <= > >= combined with ! && ||), if and while. In a build with overflow checks it takes the branches and the number of rounds that it takes on the integers, ends with the same values, and panics iff an intermediate result does not fit, a divisor is zero or a shift amount is not below BITS. A program that ends with overflow checks ends with the same values without them. The size of the limbs makes no difference. In particular Euclid's algorithm ends with the greatest common divisor.", "quantifier": "all programs (any nesting of loops, branches and expressions), all initial values, any number of rounds, all types of the crate, signed and unsigned, both limb sizes", "why_tests_cant": "Termination and the number of rounds depend on comparisons of values that earlier rounds computed; one wrong remainder changes the control flow. Tests check single operations on random operands and cannot enumerate programs or rounds.", "anchors": ["src/shared/ops.rs:20-148", "src/shared/ord.rs:16-198", "src/shared/bitops.rs:241-265", "src/shared/shift.rs:5-31", "src/int/traits.rs:12-26"]}
{"id": "C102", "title": "Two repairs make every program exact", "statement": "Change two functions of the crate: long division (add-back loop one limb shorter, zero divisor tested first: B2, B4) and the signed overflowing product (the minimum is compared on all limbs: B1). Then every program over one type with the operators + - * / % & | ^ ! unary - << >> and pow, comparisons, if and while does exactly what it should: with overflow checks it behaves as on the integers and panics iff an intermediate result does not fit, a divisor is zero or a shift amount is not below BITS; without overflow checks results wrap and only division by zero panics; a program that does not panic with overflow checks has the same outcome without; the size of the limbs makes no difference; programs that met none of the faults are not affected; and Euclid's algorithm ends with the greatest common divisor for all operands.", "quantifier": "all programs (any nesting of loops, branches and expressions), all initial values, any number of rounds, all types of the crate, signed and unsigned, both limb sizes, both builds", "why_tests_cant": "That a set of changes is sufficient is a statement about all programs and operands; the faults show only on operands that random tests practically never meet, so tests pass before and after the change.", "anchors": ["src/math/div.rs:45-64", "src/math/div.rs:302-425", "src/math/mul.rs:433-471", "src/shared/ops.rs:20-148", "src/shared/ord.rs:16-198", "src/int/wrapping.rs:74-99"]}
{"id": "C103", "title": "Programs written with checked, strict, wrapping or saturating methods", "statement": "Write the programs of C100 with methods in place of the operators. With wrapping_* the program does, in every build, what the operators do without overflow checks; with strict_* what they do with overflow checks. With checked_* and `?` it never panics, returns the values that the program has on the integers, and returns None just if an intermediate result does not fit, a divisor is zero or a shift amount is too large. With saturating_* each sum, difference, product, quotient, power and negation is the nearest value of the type, and only a zero divisor panics.", "quantifier": "all programs (any nesting of expressions, any number of assignments), all initial values, all types of the crate, signed and unsigned, both limb sizes, both builds", "why_tests_cant": "The programs and the operands cannot be enumerated, and the exceptions show only on operands that random tests practically never meet.", "anchors": ["src/shared/checked.rs:16-179", "src/shared/strict.rs:19-104", "src/uint/wrapping.rs:22-290", "src/int/wrapping.rs:22-213", "src/uint/saturating.rs:22-98", "src/int/saturating.rs:22-144"]}
{"id": "C104", "title": "Programs from decimal text to decimal text", "statement": "A program that parses its operands with FromStr, computes with the operators, branches and loops of C101 and prints its result with Display writes the numeral of the integer that the program computes from the integers denoted by the texts. It rejects the operands just if one of them is not a decimal number in range, and panics just if an intermediate result does not fit, a divisor is zero or a shift amount is too large.", "quantifier": "all programs, all lists of texts (any bytes, any length), any bound on the rounds of the loops, all types of the crate, signed and unsigned, both limb sizes, both pointer sizes, both builds", "why_tests_cant": "The texts and the programs cannot be enumerated; the claim joins the parser, the operators, the comparisons and the printer, and its exceptions are single ranges of operands that random tests practically never meet.", "anchors": ["src/uint/traits.rs:35-40", "src/uint/traits.rs:137-150", "src/int/traits.rs:38-51", "src/int/traits.rs:64-71", "src/parse.rs:1-164", "src/write.rs:30-70", "src/shared/ops.rs:53-131", "src/shared/ord.rs:180-198"]}
{"id": "C105", "title": "The repairs of C102 make every program from text to text exact", "statement": "Replace the long division and the signed product by their repaired forms (B1, B2, B4), also where the signed parser multiplies. Then every program of C104 writes the numeral of the integer that it computes from the integers denoted by its texts, rejects the operands just if one is not a decimal number in range, and panics just if it should, with no exception; the text depends neither on the limb size nor on the pointer size; and Euclid's algorithm writes the numeral of the greatest common divisor.", "quantifier": "all programs, all lists of texts, any bound on the rounds of the loops, all types of the crate, signed and unsigned, both limb sizes, both pointer sizes, both builds", "why_tests_cant": "Whether a repair is complete is a statement about all programs and all texts.", "anchors": ["src/int/traits.rs:38-51", "src/uint/traits.rs:137-150", "src/parse.rs:117-158", "src/math/mul.rs:457-469", "src/math/div.rs:397-415", "src/shared/ops.rs:53-131"]}
{"id": "C106", "title": "Programs over the signed and the unsigned type of one width", "statement": "Add literals of the 128-bit primitive types, `as_signed`, `as_unsigned`, `unsigned_abs` and `TryFrom` with `unwrap` in both directions to the programs of C101, with variables of both types. In a build with overflow checks such a program does just what it does on the integers: the same branches, the same number of rounds, the same final values, and a panic just if an intermediate result does not fit, a divisor is zero, a shift amount is too large or a `TryFrom` is out of range. A program that ends there ends with the same variables in a build without the checks, and the limb size has no effect. In particular client code can form the exact signed product, with a panic just if it does not fit, by way of the absolute values.", "quantifier": "all programs, all values of the variables, any bound on the rounds of the loops, all types of the crate, both limb sizes, both builds", "why_tests_cant": "The claim is about all programs that mix the two types; the value that `TryFrom` wrongly rejects is one in 2^256.", "anchors": ["src/shared/casts.rs:91-106", "src/shared/casts.rs:197-214", "src/shared/casts.rs:371-379", "src/int/ops.rs:68-70", "src/int/traits.rs:134-140", "src/uint/traits.rs:165-171", "src/shared/ops.rs:53-131", "src/shared/ord.rs:180-198"]}
{"id": "C107", "title": "The repairs make every program over both types of a width exact", "statement": "Replace the long division, the signed product and `TryFrom` to the signed type by their repaired forms (B1, B2, B4, B11). Then every program of C106 does what it should do in either build, with no exception: with overflow checks it does just what it does on the integers, without them each result is reduced modulo 2^BITS; a program that does not panic with the checks has the same outcome without; a program that meets no fault is not affected by the repairs; and the outcome does not depend on the limb size.", "quantifier": "all programs over the two types of a width, all values of the variables, any bound on the rounds of the loops, all types of the crate, both limb sizes, both builds", "why_tests_cant": "Whether a set of repairs is complete is a statement about all programs.", "anchors": ["src/int/traits.rs:134-140", "src/math/mul.rs:457-469", "src/math/div.rs:397-415", "src/shared/ops.rs:53-131", "src/shared/casts.rs:371-379"]}
{"id": "C108", "title": "Client code can divide exactly with the operators that are exact", "statement": "A client of the crate can compute the quotient and the remainder without the faults of the long division: a program of comparisons, shifts, additions and subtractions over the unsigned type (a shift-and-subtract division) ends with the exact quotient and remainder in both builds, in at most BITS rounds of each loop. A program that goes by way of the absolute values does the same for the signed type, rounded toward zero. In a build with overflow checks both panic for a divisor of zero, and the signed one for MIN / -1.", "quantifier": "all dividends and divisors, any values of the other variables, all types of the crate, both limb sizes, both builds", "why_tests_cant": "The dividend and the divisor range over 2^512 or more pairs, and the operands that show the fault of the built-in division are rare.", "anchors": ["src/shared/ops.rs:53-131", "src/shared/ord.rs:180-198", "src/shared/casts.rs:371-379", "src/int/ops.rs:68-70", "src/uint/traits.rs:165-171"]}
{"id": "C109", "title": "The work of multiplication, powers and division does not depend on the numbers", "statement": "On N limbs wrapping and overflowing multiplication of either type always take N(N+1)/2 products of limbs, multiplication by an unsigned limb N, by an unsigned double limb 2N-1, multiplication by a signed limb or double limb as many as by a number of full size, and the widening multiplication N*N. A power takes one multiplication per halving of the exponent and one per binary digit 1, hence at most 63. A division of a number of a limbs by one of b >= 2 limbs takes at most a-b+1 rounds, each with at most N+2 products and one division of two limbs by one; a division by one limb takes no product and at most N divisions. Signed division takes the work of the division of the magnitudes.", "quantifier": "all operands, any number of limbs, any limb size, all 32-bit exponents", "why_tests_cant": "Running times are noisy and the operands with the most rounds are rare; a count for all operands needs a proof.", "anchors": ["src/math/mul.rs:80-207", "src/math/mul.rs:433-471", "src/math/mul.rs:624-659", "src/shared/wrapping.rs:16-36", "src/shared/overflowing.rs:19-46", "src/math/div.rs:45-64", "src/math/div.rs:134-173", "src/math/div.rs:302-425"]}
{"id": "C110", "title": "The documented numbers of multiplications", "statement": "For 256-bit numbers on 64-bit limbs the documentation names the number of multiplications at worst: 10 for wrapping_mul and overflowing_mul, 4 for multiplication by an unsigned limb (5 for the signed type), 4 for the signed wrapping_mul_ilimb, 4 for the signed overflowing_mul_ulimb and overflowing_mul_uwide and 5 for overflowing_mul_ilimb and overflowing_mul_iwide. The source takes no more than that.", "quantifier": "all 256-bit operands on 64-bit limbs, all limbs and double limbs", "why_tests_cant": "The number of products is not visible in a result.", "anchors": ["src/lib.rs:50-55", "src/uint/wrapping.rs:72-76", "src/uint/limb.rs:55-58", "src/int/wrapping.rs:51-54", "src/int/overflowing.rs:80-81", "src/int/limb.rs:505-507", "src/int/limb.rs:520-522", "src/int/limb.rs:1256-1257", "src/int/limb.rs:1269-1270", "src/int/limb.rs:1367-1368", "src/int/limb.rs:1380-1381"]}
{"id": "C111", "title": "The digit estimates of the long division are as its comments say", "statement": "In a round of div_rem_knuth with a divisor whose highest bit is set: the first estimate [a1,a0]/b0 is the quotient digit or at most 2 too large; the refined one is [a2,a1,a0]/[b1,b0], not greater than the first, and the digit or 1 too large; the subtraction underflows exactly if it is 1 too large; if the round ends, the digit stored is exact and the numerator has become the remainder, with a stray 1 above it if the estimate was corrected. The round panics only if the estimate has to be corrected and the divisor fills its array. Both bounds are attained.", "quantifier": "all normalised divisors of at least two limbs, all numerators, any array sizes, any limb size", "why_tests_cant": "An estimate that has to be corrected occurs about once in 2^63 rounds with random operands.", "anchors": ["src/math/div.rs:323-326", "src/math/div.rs:347-380", "src/math/div.rs:382-418"]}
{"id": "C112", "title": "How much work writing, reading and the logarithm take", "statement": "to_str_radix of the unsigned types and Display of the signed types make no products of limbs; for each digit but the first they divide once if the number left is below two limbs and N times otherwise, so between d-1 and N*(d-1) divisions for d digits. from_str_radix of the unsigned types makes N products for each digit read and reads nothing after the digit that makes the number too large or after the first character that is not a digit. That of the signed types makes N products for each digit of a text of at most BYTES (2*BYTES-1 up to radix 16) characters and N*(N+1)/2 for each digit of a longer one, fewer only if it overflows. checked_ilog starts at log2(x)/(log2(b)+1) and makes one division x/b for each further unit of the result and one to stop; in base two that is about half the bits of x.", "quantifier": "all numbers, texts, radices 2 to 36, both limb sizes, every even N >= 4 (reading: N >= 1, 2)", "why_tests_cant": "Tests look at results; the number of operations made on the way is not visible to them, and a loop that stops late returns the same text.", "anchors": ["src/write.rs:30-70", "src/parse.rs:43-158", "src/uint/checked.rs:55-84", "src/int/traits.rs:64-71", "src/shared/limb.rs:822-842"]}
{"id": "C113", "title": "Square root and greatest common divisor in client code", "statement": "The crate leaves isqrt out. A square root by shifts, additions and subtractions written with its operators gives the root rounded down and what is left, for every operand, in builds with and without overflow checks; no intermediate result overflows and each loop takes at most BITS rounds. The algorithm of Euclid with the division of C108 gives the greatest common divisor of every two operands, zeros included, in at most 2*BITS+1 rounds, although the remainder of the crate itself is wrong or a panic for some of the divisions it makes.", "quantifier": "all operands, every type of the crate, both limb sizes, both builds", "why_tests_cant": "A root has 2^256 and more arguments, and the divisions that go wrong inside an algorithm of Euclid are too rare to be met by random operands.", "anchors": ["src/uint/ops.rs:154-159", "src/shared/ops.rs:53-131", "src/shared/ord.rs:180-198"]}
{"id": "C114", "title": "Modular products and powers in client code", "statement": "A product modulo u3 by doubling and adding, and a power modulo u3 by squaring with it, written with the operators of the crate, are exact for a first factor (base) below the modulus, any second factor, and any exponent as wide as the type, in builds with and without overflow checks. No step overflows even when the modulus takes all the bits of the type, and each loop takes at most BITS rounds. With overflow checks a first factor above the modulus is a panic unless the second factor is zero.", "quantifier": "all operands below the modulus (moduli above one for the power), every type of the crate, both limb sizes, both builds", "why_tests_cant": "Three 256-bit operands; the carries that matter occur for moduli next to 2^BITS, and powers go through hundreds of products.", "anchors": ["src/shared/ops.rs:53-131", "src/shared/ord.rs:180-198", "src/uint/wrapping.rs:66-91"]}
{"id": "C115", "title": "How many operands are divided wrongly", "statement": "For every nonzero divisor, at most a fraction 7*(LIMBS-1)/2^LIMB_BITS of all numerators gets a wrong remainder or a panic from the unsigned remainders, at most 7/2^LIMB_BITS of them a panic from the unsigned divisions, and at most 14*(LIMBS-1)/2^LIMB_BITS of the signed numerators a wrong signed remainder or a panic; the same bound holds over all pairs. A wrong remainder needs a prefix of the limbs of the numerator whose quotient by the divisor ends in the digit 2^LIMB_BITS-2, or whose remainder falls short of the divisor by at most 2/2^LIMB_BITS of it.", "quantifier": "all nonzero divisors and all numerators, every even number of limbs from two on, both limb sizes, both builds", "why_tests_cant": "It is why tests cannot find the fault: random 256-bit operands meet it less than once in 2^59 divisions, and counting the operands by running them is out of reach.", "anchors": ["src/math/div.rs:302-425", "src/shared/ops.rs:53-131", "src/uint/wrapping.rs:66-91"]}
{"id": "C116", "title": "How many signed products overflow without notice", "statement": "A signed product breaks the contract of overflowing_mul, checked_mul, saturating_mul, strict_mul and * with overflow checks exactly when it lies below MIN by less than one unit of the top limb, 2^(BITS-LIMB_BITS). For each factor y other than 0, 1 and -1, the number of factors x that it happens with is between (2^(BITS-LIMB_BITS)-1)/|y| and 2^(BITS-LIMB_BITS)/|y|+1; so it is at least one for every y of absolute value up to 2^(BITS-LIMB_BITS), and such a product comes back positive and unflagged. For 0, 1 and -1 it never happens.", "quantifier": "all signed factors, every number of limbs, both limb sizes", "why_tests_cant": "Random 256-bit factors meet it less than once in 2^250 pairs, and a small factor with a random one less than once in 2^64; counting by running is out of reach.", "anchors": ["src/math/mul.rs: signed overflowing_full", "src/int/overflowing.rs: overflowing_mul", "src/int/saturating.rs: saturating_mul", "src/shared/checked.rs: checked_mul"]}
{"id": "C117", "title": "Which divisors are divided by wrongly", "statement": "The unsigned remainder by y is wrong or a panic for some numerator exactly when y has a binary digit of one beyond its leading 2*LIMB_BITS digits and is below 2^(BITS-1), or y has a zero top limb and the upper half u and lower half l of its leading 2*LIMB_BITS digits satisfy u < l. In the first case all numerators q*y-k with 1 <= k <= q and 2 <= q <= 2^(LIMB_BITS-1) are wrong; (2*y-1)%y comes out too large by the power of two above y, or panics if y has no zero top limb. This covers every odd divisor of more than two limbs, and for U256 on 64-bit limbs the powers of ten with exponents 32, 42, 44, 45, 50 and 55 to 76 (on 32-bit limbs 17 and 27 to 76). The signed remainder by y of a number of absolute value 2*|y|-1 is wrong in the same way.", "quantifier": "all nonzero divisors and all numerators, every even number of limbs from two on, both limb sizes, both builds", "why_tests_cant": "A statement that no numerator exists for a divisor cannot be tested with 2^256 numerators, and random numerators meet the fault too rarely to tell the divisors apart (C115).", "anchors": ["src/math/div.rs:302-425", "src/shared/ops.rs:53-131", "src/uint/wrapping.rs:66-91"]}
{"id": "C118", "title": "Which double-limb divisors panic", "statement": "For an unsigned number of at least three limbs, the division by a nonzero double-limb divisor (div_uwide, rem_uwide, div_rem_uwide and their wrapping, checked and overflowing forms; the u128 functions with 64-bit limbs and the u64 functions with 32-bit limbs) panics for some numerator exactly when the divisor, moved up until its top bit is set, has an upper half u and a lower half l with u < l. Divisors that fit one limb and divisors with an upper half of all ones never panic. Among the powers of ten only 10^32 (64-bit limbs) and 10^17 (32-bit limbs) panic for some numerator. Signed numbers divided by a double limb panic for the same absolute values of the divisor.", "quantifier": "all nonzero double-limb divisors and all numerators of at least three limbs, both limb sizes, both builds", "why_tests_cant": "That no numerator panics for a divisor is a statement on 2^256 or more numerators, and the numerators that do panic are too rare to be met at random (C115).", "anchors": ["src/uint/limb.rs:170-174", "src/int/limb.rs:677-690", "src/shared/limb.rs:150-165", "src/math/div.rs:302-425"]}
{"id": "C119", "title": "Division of exact multiples", "statement": "If y divides x, no division or remainder of x by y panics and the quotient is exact, signed and unsigned. If also the quotient x/y is below 2^LIMB_BITS or y has at most one leading zero limb, the remainder is zero, is_multiple_of is true, and div_ceil and the Euclidean quotient are exact. On four limbs, is_multiple_of(y) is false for some multiple of y exactly when y fits two limbs and, moved up until its top bit is set, has an upper half u and a lower half l with u + 2 <= l; for U256 with 64-bit limbs 10^32 is the only such power of ten. On six limbs or more a divisor of at most two limbs has such a multiple exactly when u < l. A divisor of n limbs with 2n below the number of limbs and a digit of one after its leading 2*LIMB_BITS digits always has one, its multiple by 2^(n*LIMB_BITS+1) - 1: for U512 with 64-bit limbs every odd y from 2^128 to 2^192 has is_multiple_of false for (2^193 - 1)*y.", "quantifier": "all multiples of all divisors, every even number of limbs from two on (the first characterisation: four limbs), both limb sizes, both builds", "why_tests_cant": "The multiples of a divisor that fail are too rare for random tests, and that none fails for a divisor is a statement on up to 2^256 multiples.", "anchors": ["src/math/div.rs:302-425", "src/shared/ops.rs:53-131", "src/uint/ops.rs:94-102", "src/uint/ops.rs:199-206"]}
{"id": "C120", "title": "Divisors for which a division panics, and signed divisors with wrong remainders", "statement": "Let N be the number of limbs, y a nonzero divisor of absolute value a with L digits in base two, and let 'long' mean that a has a digit of one after its leading 2*LIMB_BITS digits. Some unsigned division by y panics exactly when y has no leading zero limb, is below 2^(BITS-1) and is long. Some signed wrapping, saturating or checked division by y panics exactly when a >= 2^(LIMB_BITS*(N-1)), a < 2^(BITS-2) + 2^(LIMB_BITS*(N-2)-1) and a is long; the operator and the strict form then panic too. MIN divided by any y with 2^(BITS-2) < a < 2^(BITS-2) + 2^(LIMB_BITS*(N-2)-1) panics in every form, although the quotient is 1 or -1. Some signed remainder by y is wrong or panics exactly when a < 2^(BITS-2) + 2^(LIMB_BITS*(N-2)-1) and a is long, or a < 2^(LIMB_BITS*(N-1)-1) + 2^(LIMB_BITS*(N-2)) and the leading 2*LIMB_BITS digits of a have an upper half below the lower half; for I256 with 64-bit limbs these powers of ten are 10^k with k = 32, 42, 44, 45, 50 and 55 to 76.", "quantifier": "all nonzero divisors, every even number of limbs from four on, both limb sizes, both builds", "why_tests_cant": "That a divisor is safe is a statement on up to 2^256 numerators, and the bounds are met by single numerators such as MIN.", "anchors": ["src/math/div.rs:302-425", "src/uint/wrapping.rs:66-91", "src/int/wrapping.rs: wrapping_div_rem", "src/int/overflowing.rs: overflowing_div, overflowing_rem"]}
{"id": "C121", "title": "How many divisors are affected by the division error", "statement": "Let N be the number of limbs, W the limb size and BITS = W*N. The unsigned divisors for which some remainder is wrong or panics number at most 2^(BITS-1) and at least 2^(BITS-1) - BITS*2^(2*W), so they are half of all divisors up to a negligible part (2^136 of 2^255 for U256 with 64-bit limbs). Those for which some division panics number at most 2^(BITS-1) and at least 2^(BITS-1) - 2^(W*(N-1)) - BITS*2^(2*W). The signed divisors for which some wrapping remainder is wrong or panics number at most 2^(BITS-1) + 2^(W*(N-2)) and at least 2^(BITS-1) - 2*BITS*2^(2*W). Of the 2^(2*W) double-limb divisors (u128 with 64-bit limbs) at least 2^(2*W-3) - 2^(W-2), about an eighth, make the division of some number panic.", "quantifier": "all divisors, every even number of limbs (two or more for the unsigned remainder, four or more otherwise), every limb size above one bit, both builds", "why_tests_cant": "The claim counts divisors among 2^256 or more, and each is counted for a numerator that random tests almost never draw (C115).", "anchors": ["src/math/div.rs:302-425", "src/uint/wrapping.rs:66-91", "src/int/wrapping.rs: wrapping_div_rem"]}
