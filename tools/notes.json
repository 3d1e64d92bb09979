{
 "C05": {
  "status": "proved",
  "note": "Limb and double-limb scalars, unsigned and signed."
 },
 "C35": {
  "note": "midpoint is the floor of the mean and abs_diff is |x-y| for all operands."
 },
 "C37": {
  "status": "partial",
  "note": "Unsigned forms and chains proved. The signed flag claim is false (witness MIN + (-1) + 1); the partial theorem gives the exact flag condition."
 },
 "C42": {
  "note": "Unsigned +, -, *, pow and signed +, - proved for all operands. Signed * and pow with overflow checks violate it for results just below MIN (C42_int_mul_false); exact elsewhere, and C42_int_mul_pow_all_partial covers all operands."
 },
 "C08": {
  "note": "Violated by the code: products just below MIN are not flagged (C08_int_overflowing_mul_false; C08_int_mul_gap_false for all such products). C08_int_mul_all_partial and C08_int_mul_scalar_all_partial give the result of every form for every pair of operands; outside the gap these are the claimed contracts (C08_*_partial)."
 },
 "C11": {
  "note": "Unsigned proved in full. Signed violated by the code for powers just below MIN (C11_int_overflowing_pow_false); C11_int_pow_all_partial gives the result of every form for every base and exponent, which is the claimed one outside the gap."
 },
 "C38": {
  "note": "Violated by the code for u8 and i8 amounts in builds with overflow checks (C38_narrow_false). C38_all_partial gives the panic condition and the result for every amount of every primitive type; C38_narrow_partial says which 8-bit amounts each width rejects."
 },
 "C39": {
  "note": "Left and unsigned right shift proved for all amounts. Signed right shift violates it for negative numbers and amounts >= BITS (C39_int_unbounded_shr_false); C39_int_unbounded_shr_all_partial gives the result for all amounts and shows that these are the only exceptions."
 },
 "C49": {
  "note": "Amounts of the other signedness proved in full, also out of range without overflow checks. Same-type amounts are never range checked (C49_self_false); C49_self_all_partial gives the result for every amount."
 },
 "C28": {
  "status": "partial",
  "note": "TryFrom from signed primitives and from the signed type are fully proved. TryFrom<unsigned> of the signed types rejects MAX (C28_try_from_unsigned_false); every other value is handled correctly (C28_try_from_unsigned_partial)."
 },
 "C50": {
  "status": "partial",
  "note": "is_positive(0) returns true, against the num-traits documentation (C50_is_positive_false); proved for all non-zero numbers. The other methods are fully proved."
 },
 "C12": {
  "note": "Quotient proved for all operands in all forms; panics exactly if DivPanics (see C14)."
 },
 "C13": {
  "note": "Violated by the code (C13_uint_rem_false, bug B2). The partial theorems give the returned remainder exactly for every operand pair, and C13_exact_cases lists classes of operands where it is right."
 },
 "C14": {
  "note": "Violated by the code (C14_uint_div_false, C14_uint_div_uwide_false, C14_int_div_false, bug B2). The partial theorem says exactly when it panics; C14_no_panic: never if the divisor has a leading zero limb."
 },
 "C15": {
  "note": "Violated by the code for 0 / 0 (C15_*_false, bug B4). C15_*_partial state what every form does with a zero divisor for all numerators."
 },
 "C16": {
  "status": "proved",
  "note": "Limb divisors never panic and are exact; double-limb divisors are exact or panic exactly if DivPanics w 2."
 },
 "C17": {
  "note": "Quotient forms proved for all operands. Remainder violated by the code (C17_int_rem_false, bug B2); C17_*_all_partial give the result of every form for every non-zero divisor."
 },
 "C18": {
  "note": "Violated by the code for some exact multiples (C18_int_euclid_false, bug B2); C18_*_all_partial give the result of every form for every non-zero divisor."
 },
 "C19": {
  "note": "Violated by the code for some exact multiples (C19_*_false, bug B2); complete characterisation for all operands. Unsigned div_floor proved."
 },
 "C34": {
  "note": "Violated by the code through the wrong remainder (C34_*_false, bug B2); exact when the division is exact, and C34_*_all_partial give the result for every non-zero divisor."
 },
 "C51": {
  "status": "proved",
  "note": "Limb scalars: exact and never panic. Double-limb scalars: exact or panic exactly if DivPanics w 2."
 },
 "C24": {
  "note": "Byte and bit index characterisation of swap_bytes and reverse_bits for every limb width divisible by 8 and every length; both are involutions; signed forms are the same bits."
 },
 "C25": {
  "note": "Byte i of the value, in both directions, on little- and big-endian targets (parameter be); limb, wide, u32 and u64 arrays; from after to and to after from are the identity."
 },
 "C32": {
  "note": "checked_ilog(3,10) is None instead of Some(0), base 1 never returns (no overflow checks) or panics at the counter overflow, and the signed form panics for 1 <= x < b: negations proved. For b <= x with b >= 2 the result is the exact logarithm; the loop is modelled by a round bound and shown to end."
 },
 "C33": {
  "note": "is_power_of_two, checked/wrapping/plain next_power_of_two against the least power of two not below x; the overflow branch and the overflow-check panic are covered."
 },
 "C43": {
  "note": "The result is the mean rounded towards zero for all operands; the documentation claims rounding towards negative infinity, which is refuted by a witness, and the exact set of deviating operands is given."
 },
 "C29": {
  "status": "partial",
  "note": "False for a sole sign with from_str_radix (C29_sign_only_false) and for negative numbers just below MIN (C29_int_gap_false, the overflow test of B1). Proved for every other string, with the exact results on the excepted ones; unsigned FromStr is proved for all strings."
 },
 "C30": {
  "note": "False for signed to_str_radix of negative numbers: wrong for every negative number and base (C30_int_to_str_radix_negative_partial), with the exact output given by C30_int_to_str_radix_negative_all_partial. Proved for unsigned to_str_radix, for signed numbers that are not negative, and for Display, Binary, Octal and hexadecimal of both kinds."
 },
 "C31": {
  "status": "partial",
  "note": "False for signed to_str_radix of negative numbers, whose writer is wrong (C30). Proved for everything else; the signed parser reads every canonical numeral back."
 },
 "C47": {
  "status": "partial",
  "note": "The denoted value is right for all numbers; the form differs from the primitive integers exactly for one-digit numbers and multiples of ten."
 },
 "C52": {
  "note": "False for several flag combinations and for the alignments < and ^. The exact output is proved for all flags, and agreement with the primitive integers is characterised by an equivalence for every fill character and alignment: for bases 2, 8 and 16 without + exactly when the digits fill the width, or there is no # and the fill characters happen to be right (flag 0 with fill 0; default alignment or >; all digits equal to the fill), plus a coincidence for the fill +; for Display exactly when the text fills the width and, unsigned, there is no +."
 },
 "C41": {
  "note": "Unsigned types: proved exact. Signed types: addition and subtraction panic for all operands (C41_int_add_sub_panics); multiplication uses the scalar with two 32-bit digits exchanged, characterised for all operands (C41_int_mul_all_partial), so it is exact only if these digits agree (C41_int_mul_*_partial)."
 },
 "C53": {
  "status": "proved",
  "note": "All scalar sizes on both limb sizes; signed 128-bit scalars on 32-bit limbs are in C41."
 },
 "C54": {
  "note": "Unsigned types: proved. Signed types: violated in the overflow gap of C08 (C54_int_mul_fixed_false), exact outside; C54_int_mul_fixed_all_partial gives every form for all operands."
 },
 "C55": {
  "note": "Violated by the code: panics for scalars of two limbs and wrong remainders for 128-bit scalars on 32-bit limbs when an estimate is corrected; negative dividends with unsigned scalars then also get a wrong quotient or panic (C55_*_false); 0/0 with a scalar wider than a limb does not panic. Exact panic condition and exact results for every dividend and every divisor, zero included (C55_*_all_partial, C55_*_zero_partial)."
 },
 "C40": {
  "note": "Proved for all pairs of builds (32/64-bit limbs, any number of limbs that gives the same width): add, sub, mixed-sign forms, carries, neg/abs, unsigned mul and pow, wrapping signed mul and pow, complete products, order, bit operations and counts, all shift operators, rotations, byte order, casts and checked conversions, midpoint, powers of two, num-traits signs, formatting, unsigned parsing, fixed-width scalars. The code violates the full statement (C40_*_false): signed overflow detection in mul/pow/parse depends on the limb size (exact condition in C40_int_overflowing_mul_partial); panics and remainders of division depend on it, and every form of division has an exact condition (iff) for agreement in C40_*_alike_partial, C40_*_fixed_partial and C40_ilog_partial; division by a zero of the same type always agrees and by a zero scalar except for a zero dividend; signed 128-bit scalars panic or are misread on 32-bit limbs. Quotients agree whenever both builds return."
 },
 "C56": {
  "status": "proved",
  "note": "Proved for all operands in the domain of the methods; the overflow test of signed mul is wrong only outside that domain."
 },
 "C57": {
  "status": "proved",
  "note": "Proved for both overflow modes."
 },
 "C58": {
  "note": "Unsigned and wrapping forms proved. Signed with overflow checks violated for products just below MIN (C58_int_mul_add_false, bug B1); exact elsewhere, and C58_int_mul_add_all_partial gives the result for all operands."
 },
 "C59": {
  "status": "proved",
  "note": "Proved for both byte orders."
 },
 "C60": {
  "status": "proved",
  "note": "Proved for all numbers and amounts."
 },
 "C61": {
  "status": "proved",
  "note": "Proved for all bases."
 },
 "C62": {
  "status": "proved",
  "note": "Proved for all operands."
 },
 "C63": {
  "status": "proved",
  "note": "Proved for both byte orders and any limb width, on the literal transcription of the loops."
 },
 "C64": {
  "status": "proved",
  "note": "Proved for both byte orders and any limb width, on the literal transcription of the loops; the signed flag is stated with the gap of C08."
 },
 "C65": {
  "status": "proved",
  "note": "Literal model of the kernels and of the callers; both byte orders."
 },
 "C66": {
  "status": "proved",
  "note": "Literal model of the loops in src/shared, src/int/ops.rs and src/uint/extensions.rs; both byte orders."
 },
 "C67": {
  "note": "Exact: the only panics are the out-of-range add-back index (B2) and the zero divisor, in every build and byte order."
 },
 "C68": {
  "note": "Exact description of every run: panics, quotients, remainders and stray bits. The 64-bit limbs build of the 128-bit divisions goes through the double limb functions."
 },
 "C69": {
  "note": "Literal transcription with memory order, checked accesses and assertions; every run ends normally."
 },
 "C70": {
  "note": "Literal transcription with memory order, in-place buffer, checked accesses and assertions. The statement describes the behaviour for all inputs, including the inputs on which C29 and C30 are violated."
 },
 "C71": {
  "note": "Literal transcription with memory order, checked accesses and assertions. The statement describes the behaviour for all inputs, including those on which C11 and C32 are violated."
 },
 "C72": {
  "note": "Trait methods that only call the inherent method of the same name are covered by the property of that method."
 },
 "C73": {
  "note": "The helpers are public through the math module."
 },
 "C74": {
  "note": ""
 },
 "C75": {
  "note": "The iff theorems cover every text, including a sole sign (accepted as zero by from_str_radix, B6) and the gap (B1)."
 },
 "C76": {
  "note": "Compares the writer with the bit counters, the byte conversion, ilog and is_even."
 },
 "C77": {
  "note": "The reconstruction laws are equivalences: they also say that the laws fail whenever the remainder is spoilt (B2)."
 },
 "C78": {
  "note": "Results are compared as limbs or as panics, with no hypothesis that the division is exact."
 },
 "C79": {
  "note": "Signed saturating_mul is left out: it does not respect the order, because of B1 (an example beside C79_int_saturating)."
 },
 "C80": {
  "note": "`Agree`, `AgreeIn`, `AgreeZero`, `AgreeZeroIn` and `Clamps` (Verif/SpecForms.lean) state the relations without mentioning values."
 },
 "C81": {
  "note": "The hypotheses say that the call returns a number, which excludes the cases of B2 and B5."
 },
 "C82": {
  "note": "About proposed changes of the code, not about the code itself; the claims about the code as it is are those of the properties listed in DESIGN.md."
 },
 "C83": {
  "note": "The code violates the claim (B2, B17): C83_full_all_partial, C83_wide_all_partial and C83_from_u128_all_partial characterise every input of every length, C83_full_partial and C83_wide_partial say where the claim holds. The remaining functions are proved in full."
 },
 "C84": {
  "note": "The code violates the claim (B1, B18): C84_int_uwide_false, C84_int_mul_wrapping_false, C84_int_mul_uscalar_false are witnesses; the _partial theorems give the panic condition for every length and the exact condition under which the result is right. The signed products carry the flag gap of B1. The remaining functions are proved in full."
 },
 "C85": {
  "note": "The signed products and powers keep the gap of B1 and the signed carrying steps the early flag of C37: the three _partial theorems give the exact behaviour; the witnesses are C08_int_overflowing_mul_false, C11_int_overflowing_pow_false, C37_int_carrying_add_false. Everything else is proved in full."
 },
 "C86": {
  "note": "Quotients are proved in full (C86_uint_div, C86_int_div), with the panics of DivPanics. Remainders, rounding and zero divisors have the exact behaviour in the _partial theorems; witnesses C86_uint_rem_false, C86_int_rem_false, C86_uint_div_panic_false, C86_uint_multiple_false, C86_uint_div_zero_false."
 },
 "C87": {
  "note": "Proved in full: checked, strict, overflowing shifts, unbounded shifts of unsigned numbers, amounts of the other big type, counts, powers of two, unsigned midpoint. The other four claims have the exact behaviour in _partial theorems; witnesses C87_narrow_false, C87_int_unbounded_shr_false, C87_self_false, C87_int_midpoint_false."
 },
 "C88": {
  "note": "Addition, subtraction and unsigned multiplication in full. Signed multiplication takes the products in Mul.Gap for representable (C88_int_mul_*_partial, exact for all operands); witness C88_int_mul_false."
 },
 "C89": {
  "note": "Unsigned in full. Signed: exact on 64-bit limbs and for scalars up to 64 bits, apart from the products in Mul.Gap (C89_int_mul_fixed_*_partial, exact for all operands). With 128-bit scalars on 32-bit limbs signed addition and subtraction always panic (C89_int_add_sub_u128_panics) and products use the scalar with two digits exchanged (C89_int_mul_128_partial). Witnesses C89_int_mul_false, C89_int_mul_128_false, C89_int_add_false."
 },
 "C90": {
  "status": "partial",
  "note": "Limb divisors in full (C90_*_ulimb, C90_int_div_ilimb and their _zero theorems). Double limbs and fixed-width scalars: for all operands the exact outcome, with the panics of B2 (DivPanics, ScalarPanics), the stray bits of the remainder for a four-limb scalar, and 0 / 0 = 0 (B4). Witnesses C90_div_uwide_false, C90_div_iwide_false, C90_div_uwide_zero_false, C90_div_fixed_false."
 },
 "C91": {
  "status": "partial",
  "note": "The crate never passes such amounts: all callers reduce the amount first. Exact behaviour for every amount is proved; the claim that all bits are shifted out fails for two elements without debug assertions."
 },
 "C92": {
  "status": "partial",
  "note": "Multiplications, shifts and counts are proved as stated. The division is wrong in the code (B20): C92_mulhi_false, C92_divide_by_num_false, C92_div_rem_by_num_false; the _partial theorems give the exact value computed, and the _repaired ones prove the division with the three lines corrected."
 },
 "C93": {
  "status": "partial",
  "note": "False in the code (B21): C93_gen_branched_false, C93_gen_branchfree_false, C93_gen_range_false, C93_divide_branchfree_false, C93_divide_zero_false, C93_remainder_false. The _partial theorems characterise the accepted divisors and prove the branched division exact for positive numerators; C93_divide_repaired proves the corrected script for all divisors and numerators."
 },
 "C94": {
  "status": "partial",
  "note": "choose_multiplier, fast_shift and calculate_factors are proved as stated. mulhi and the slow path of fast_divrem are wrong in the code (B22): C94_mulhi_false, C94_fast_divrem_false; the _partial theorems give the exact value and the fast path, C94_fast_divrem_repaired the corrected script."
 },
 "C95": {
  "status": "partial",
  "note": "The code ignores precision and width, the unsigned types also '+', and {:x?} prints decimal (C95_exp_debug_false). The _partial theorems give the exact conditions for agreement: for LowerExp/UpperExp and {:?} for all flags, for {:x?} and {:X?} without a width."
 },
 "C96": {
  "status": "partial",
  "note": "34 predicates of native_math.rs and 3 of div_math.rs. All hold for every input except the three on the overflow flag of signed products, which fail exactly where C08 says the flag is missing (C96_int_mul_overflow_false, C96_int_mul_overflow_partial). On a big-endian machine the predicates read the halves in the wrong order (C96_big_endian_false); the rotations hold in either byte order."
 },
 "C97": {
  "status": "partial",
  "note": "Stated with BitVec's own +, *, sdiv, srem, smulOverflow, clz, rotateLeft and so on, so the reference does not come from this project. Violated for the overflow flag of signed products (C97_int_mul_false), remainders after an added-back estimate (C97_rem_false) and the unbounded signed right shift (C97_int_unbounded_shr_false); the _partial theorems cover the remaining inputs. Division panics exactly where DivPanics says (C14)."
 },
 "C98": {
  "status": "partial",
  "note": "Addition, subtraction and multiplication: equal in all forms for one and two limbs; for fixed widths except signed values with 128-bit scalars on 32-bit limbs (C98_int_fixed_false). Division by one limb: equal. By two limbs and by fixed widths: equal unless an estimate has to be corrected (C98_uint_div_uwide_panics and C98_uint_div_uwide_false say what happens otherwise). Signed by unsigned: equal iff the value is not negative or the divisor divides it (C98_int_div_ulimb_false). Zero divisors: C98_div_zero_partial and C98_div_zero_false."
 },
 "C99": {
  "status": "partial",
  "note": "Signed products and powers: all except Mul.Gap (C99_int_mul_false). Division: equal iff both types panic alike (quotient) and keep the same stray bit (remainder); C99_same_limb_partial turns this into a condition on the digit estimates. Signed unbounded_shr: equal for shifts below the narrow width (C99_int_unbounded_shr_false). Signed parsing: all texts except GapText."
 },
 "C100": {
  "note": "The exact reading and the limb size hold for programs no operation of which meets Mul.Gap, DivPanics or a stray remainder (Prog.Tame, decidable); C100_exact_false has the witnesses. C100_all_partial says what every program does in either build, with the known faults as rules (Expr.actual). C100_debug_release and C100_ring are unconditional."
 },
 "C101": {
  "status": "partial",
  "note": "The exact reading holds for programs that meet no known fault (Cmd.Tame), in particular for all programs without / and % (signed: also without * and pow), C101_plain; C101_exact_false has Euclid's algorithm with a wrong result. C101_all_partial says what every program does in either build, with the known faults as rules. C101_debug_release and C101_rounds are unconditional."
 },
 "C102": {
  "status": "proved",
  "note": "About the changed functions of C82, which are not in the crate; C102_same ties them to the code wherever no known fault is met."
 },
 "C103": {
  "status": "partial",
  "note": "C103_wrapping, C103_strict, C103_checked and C103_never_panics hold for every program. Missing: that checked and saturating programs are exact is false where an operation meets B1, B2 or B4 (C103_false); proved elsewhere."
 },
 "C104": {
  "status": "partial",
  "note": "C104_all_partial describes every program and all texts with the known faults as rules; C104_uint_plain (no / and %) and C104_debug_release have no proviso. Missing: exactness is false where a signed operand lies in the gap of C29 or an operation meets a known fault (C104_exact_false); proved elsewhere."
 },
 "C105": {
  "status": "proved",
  "note": "Holds for every program and all texts."
 },
 "C106": {
  "status": "partial",
  "note": "Holds for every program, with the known faults taken for the rules of the crate (C106_all_partial), exactly where no fault is met (C106_exact_partial, C106_plain), and for the exact signed product of C106_product. The full claim is false (C106_exact_false): `TryFrom` of the largest signed number panics."
 },
 "C107": {
  "status": "proved",
  "note": "Holds for every program. The changed functions are not in the crate."
 },
 "C108": {
  "status": "proved",
  "note": "The programs use only operators that C106 proves exact, so they give the right answer where the crate's own `/` and `%` do not."
 },
 "C109": {
  "status": "proved",
  "note": "Counts products of two limbs and divisions of a double limb in the source, not machine instructions. Division counts are upper bounds."
 },
 "C110": {
  "status": "partial",
  "note": "The documented numbers for wrapping_mul, overflowing_mul and mul_ulimb hold (C110_documented_partial). The five others do not: the source extends the operand to four limbs and always takes 10 products (C110_extended, C110_none). Products of the source are counted; a compiler may drop products by constant zeros."
 },
 "C111": {
  "status": "proved",
  "note": "The stray 1 and the panic are the mechanism of bug B2, seen in one round; C13 to C15 state their effect on the results."
 },
 "C112": {
  "status": "proved",
  "note": "The logarithm of C112_ilog is stated where the division x/b does not panic (B1); C112_ilog_panics covers the other inputs. Not counted: additions, comparisons and the power that starts the logarithm (C109 counts the latter)."
 },
 "C113": {
  "status": "proved",
  "note": "The programs are client code, not code of the crate; the theorems say that the operators they use compose to a right result."
 },
 "C114": {
  "status": "proved",
  "note": "The programs are client code, not code of the crate; the theorems say that the operators they use compose to a right result."
 },
 "C115": {
  "status": "proved",
  "note": "Counts the failures of B2; the bounds are upper bounds, C13 and C14 have the exact conditions and the witnesses."
 },
 "C116": {
  "status": "proved",
  "note": "Counts the failures of B1."
 },
 "C117": {
  "status": "proved",
  "note": "Locates the failures of B2 by divisor; the numerators are given by C13."
 },
 "C118": {
  "status": "proved",
  "note": "Locates the panics of C14, C16, C51 and C55 by divisor."
 },
 "C119": {
  "status": "proved",
  "note": "The part of B2 that concerns is_multiple_of, div_ceil and the Euclidean forms."
 },
 "C120": {
  "status": "proved",
  "note": "Locates the panics and wrong remainders of B2 by signed divisor."
 },
 "C121": {
  "status": "proved",
  "note": "Counts the divisors to which B2 applies."
 }
}
