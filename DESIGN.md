# Verification design for i256-rs (crate version 0.2.1)

The crate implements fixed-width big integers (`U256/I256`, and with features the 384, 512
and 1024 bit pairs) on arrays of native limbs.  All types come from one set of macros, so the
model is written once, for every limb width `w` and every limb count `N`; the shipped
configurations (`w = 64`, `N = 4, 6, 8, 16` and `w = 32`, `N = 8, 12, 16, 32`) are instances.

## 1. What is modelled and how

* A limb is a `BitVec w`.  A limb array is a `List (BitVec w)` in **logical little-endian
  order** (element 0 is the least significant limb).  The Rust code indexes through `ne_index!`
  (`src/util.rs` L8-28), which counts from the least significant limb on either byte order, so
  the list is the sequence `ne_index!(x[0]), ne_index!(x[1]), ...` on both kinds of target.
* Native operations on limbs (`overflowing_add`, `wrapping_sub`, widening multiplication by
  cast, shifts by less than the width, `leading_zeros`, ...) are modelled by `BitVec` operations
  (`Verif/Model/Limb.lean`).  Their meaning is the documented one of Rust's primitive integers.
* `&mut`/array updates become functions returning the new list; `while` loops become structural
  recursion on the limb lists or on the loop counter.
* A panic (failed `assert!`, index out of bounds, division by zero, arithmetic overflow with
  overflow checks) is the value `Res.panic` of the result type `Res`.  Functions which cannot
  panic for the array sizes of the crate are plain functions; the `N >= 2` asserts at the head
  of the add/sub/shift kernels become hypotheses `2 ≤ N` of the theorems.
* The build switch `have_overflow_checks` (`build.rs`) is a Boolean parameter where it matters.
* The limb size switch is the parameter `w` (`32` or `64`); "wide" is width `w + w`.

The specification side (`Verif/Spec.lean`) is small and does not mention the model's helpers:
`toNat : List (BitVec w) → Nat` (positional value), `toInt` (two's complement value), the
integer functions of Lean core/Mathlib (`/`, `%`, `Int.tdiv`, `Int.emod`, `2 ^ n`, `Nat.log`,
`Nat.testBit`, `Nat.ofDigits`, ...).

The result contracts of the method families (`WrapU`, `OverU`, `CheckU`, `StrictU`, `OpU`, `SatU` and
the signed versions) are defined there once, each in two lines.  `Verif/SpecDiv.lean` adds the integer
functions that say when Knuth's quotient digit estimate is wrong (`overEst`, `strayRem`, `DivPanics`,
`DivExact`) and `Yields P Q r`: `r` panics iff `P` and otherwise returns a value satisfying `Q`.

Modules: `Verif/Spec.lean` (specification), `Verif/Model/*.lean` (model, with file and line
citations), `Verif/Lemmas/*.lean` (helper lemmas), `Verif/Props/*.lean` (property theorems and,
beside each, an example that its hypotheses can be met), imported by `Verif.lean`.

The kernels of `src/math` are modelled twice.  The functional model (`Model/Add.lean` etc.) recurses
over limb lists and carries the arithmetic proofs.  The literal model (`Model/Raw*.lean`) transcribes
the source statement by statement: arrays in memory order for either byte order, checked indexing,
`while` loops with an index, native arithmetic that panics as in a build with overflow checks, executed
assertions.  `Lemmas/Raw*.lean` prove that the two agree, so the reading of the loops is itself checked
(C63 and following).

`Props/CrateTypes.lean` shows that every type of the crate (eight types, two limb sizes) meets the
hypotheses on limb size and limb count that the theorems use.

## 2. Trusted base

* Lean 4.33.0's kernel, and the three standard axioms `propext`, `Classical.choice`,
  `Quot.sound`.  Every property theorem depends on at most these (`#print axioms`, checked by the
  gate).  There are no axioms of our own, no `sorry`, no `native_decide`, no `bv_decide`.
* The reading of the Rust source: the theorems are about the model.  The tie is the line
  citation beside each definition.  The code was not executed.  As a check of the reading,
  `Props/CrateTests.lean` repeats the crate's own unit tests (src and devel/tests) on the model, about 250
  assertions with the values the authors expect; all hold.
* The semantics of Rust's primitive integer operations as documented, including `u128::from_str`
  (used by `FromStr` on short strings, modelled by its documented contract) and the x86 `div`
  instruction (modelled as quotient and remainder when `hi < divisor`, a fault otherwise).
* Byte-level `transmute` between limb arrays and byte/wide arrays in `src/shared/endian.rs` is
  modelled as regrouping of the memory image; the byte order of the target is the parameter
  `be : Bool` of `Verif/Model/Endian.lean`, and the theorems hold for both.

Not modelled: performance, inlining, `const`-ness, hashing, `serde`/`num-traits` glue apart from what is
named below, floating-point conversions (`unimplemented!` in the source).

## 3. Plan per property

| id | modelled code | proof |
|----|---------------|-------|
| C01 | carry/borrow loops of `math/add.rs`, `math/sub.rs` | induction on the limb list with carry-in; value equation `r + c·2^(wN) = x + y + c₀` |
| C02 | `overflowing_full`, checked/saturating/strict wrappers | corollary of the value equation |
| C03 | signed kernels with the `c0 ^ c1` top limb | split list at the top limb, signed analysis of one limb |
| C04 | mixed sign wrappers | corollaries of C02/C03 |
| C05 | the limb, wide and m×n loops | same induction, operand shorter than the number |
| C06 | truncated long multiplication | invariant per row: partial product modulo `2^(wM)` |
| C07 | overflow matrix | invariant: flag iff some dropped part is non-zero; `checked_mul` via log2 bounds |
| C08 | signed wrapper with `is_min` test | **false in the code** (bug B1): negation with witness; `_partial` under the condition that excludes the window; all operands in `Props/GapAll.lean` (contracts in `SpecGap.lean`) |
| C09 | `widening`, `carrying_mul` | row invariant without truncation |
| C10 | square and multiply | strong induction on the exponent |
| C11 | flag accumulation | unsigned: exact; signed: partial because of B1, all operands in `Props/GapAll.lean` |
| C12 | Knuth division `div.rs` | digit estimate bounds, loop invariant `x = q·y·B^j + rest` |
| C13 | same | **false in the code** (B2): negation; `_partial`: the returned remainder is `x mod y + strayRem`, an explicit function of the two numbers; right iff `DivExact`, with sufficient conditions |
| C14 | same, with the index panic | **false in the code** (B2): negation; `_partial`: panics iff `DivPanics` |
| C15 | early exits of `full`/`wide` | **false in the code** for `0 / 0` (B4): negation; `_partial` for non-zero numerators, for checked forms, and the result of every form for a zero divisor |
| C16 | `limb`, `wide` | induction from the top limb, invariant `r < y`; zero scalars: every form |
| C17 | `int/wrapping.rs` div_rem and wrappers | from C12/C13 through `unsigned_abs`; remainder partial through B2, result of all forms given for all inputs with the stray bits |
| C18 | Euclidean wrappers | from C17; exact multiples wrong through B2: negation, complete characterisation as `_partial` |
| C19 | `div_floor`, `div_ceil` | from C12/C17; exact multiples wrong through B2: negation, `_partial` |
| C20 | `math/shift.rs` | value equations per limb/bit shift |
| C21 | `math/rotate.rs` | as C20 plus bit-index characterisation |
| C22 | `shared/bitops.rs` loops | induction on limbs |
| C23 | limb-wise maps | `testBit` of the positional value |
| C24 | limb reversal plus limb operation | bit-index characterisation |
| C25 | regrouping | list lemmas, both directions |
| C26 | `ord.rs` loop on wide limbs | induction from the top |
| C27 | casts | value equations |
| C28 | TryFrom | **boundary value wrong** (B11): negation; `_partial` |
| C29 | `parse.rs` | induction on the digit list; unchecked loop by length bound; signs without digits accepted (B6) and B1 in the signed checked loop: negations, `_partial` |
| C30 | `write.rs` | strong induction; signed negative values wrong (B7): negation, `_partial` |
| C31 | both | composition |
| C32 | `checked_ilog` | fuelled loop, termination proof for base ≥ 2; B5: negations, `_partial` |
| C33 | `one_less_than_next_power_of_two` etc. | from C20, C22 |
| C34 | `next_multiple_of`, `is_multiple_of` | from C12/C13 (partial through B2); result for all inputs with the stray bits |
| C35 | `midpoint`, `abs_diff` | identity `x + y = (x xor y) + 2 (x and y)` |
| C36 | negation and abs | from C03 |
| C37 | `carrying_add`, `borrowing_sub` | from C02; signed flag wrong (B10): negation, `_partial`; chain by induction |
| C38 | `shared/shift.rs` range test | decision logic over the primitive types; B9: negation, `_partial`; every amount of every type characterised (`Props/ShiftAll.lean`) |
| C39 | `unbounded.rs` | from C20; signed deviation (B13) stated exactly for every amount |
| C40 | all of the above | both limb sizes meet the same contract (`SpecSame`, `Lemmas/Same`), so results denote the same number; where the contract mentions the limb size (division, `Lemmas/SameDiv`) the theorem is an iff that says when the builds agree; `_false` where detection of overflow, division or signed 128-bit scalars depend on the limb size |
| C41 | `util.rs` limb split on 32-bit limbs | B3/B12: negations, `_partial`; exact result for all operands |
| C42 | operators | from C01-C11; signed `*`, `pow` for all operands in `Props/GapAll.lean` |
| C43 | signed midpoint | exact rounding direction; doc deviation B14 |
| C44 | ring laws | from C01/C06 and injectivity of the value |
| C45 | `checked_signed_diff`, unsigned neg | from C01/C26 |
| C46 | num-traits conversions | from C26/C27 |
| C47 | scientific format | from C30; form deviation B8 |
| C48 | halves, `high_mul`, parity | from C06/C09; five wrapping half-width partial products |
| C49 | shift operators with the crate's own types | low 32 bits of the amount; same-type amounts unchecked, characterised for every amount and build |
| C50 | num-traits `Signed` | from C26/C04/C36; deviation B15 |
| C51 | signed division by scalars | from C16 through `unsigned_abs`; floor style for unsigned scalars, truncating for signed ones |
| C52 | flags of the formatting traits | comparison with `pad_integral`; B16: negation; `_partial` theorems give the exact output for all flags and the exact condition of agreement, for every fill character and alignment (`SpecAlign.lean`) |
| C53 | fixed-width scalars, add/sub | reduce to the one-, two- and four-limb kernels by scalar and limb size |
| C54 | fixed-width scalars, mul | same; B1: negation, `_partial`; all operands in `Props/GapAll.lean` |
| C55 | fixed-width scalars, div/rem | same; B2: exact panic condition, quotient and remainder for every input (`Props/FixedStray.lean`), negation, `_partial` |
| C56 | `unchecked_*` (`Model/Glue.lean`, undefined behaviour is `none`) | from the checked forms |
| C57 | `PrimInt` shifts, `is_zero`, `is_one` | from C20, C38 |
| C58 | `mul_add` | from C42; signed partial through B1, all operands in `Props/GapAll.lean` |
| C59 | `get_limb`, `get_wide`, `eq_branched` | array indexing and regrouping of bytes for both byte orders |
| C60 | shifts, rotations, counts against each other | bit index characterisations, uniqueness of the value |
| C61 | `wrapping_pow`, `wrapping_mul` | from C06, C10 and uniqueness of the value |
| C62 | bit operations, add, sub, neg | bit extensionality |
| C63 | `add.rs`, `sub.rs`, `negate!` literally (`Model/Raw*.lean`) | loop invariants tie the literal run to the functional model (`Lemmas/Raw*.lean`), then C01-C05 |
| C64 | `mul.rs` literally | same, then C06-C09 |
| C65 | `shift.rs`, `rotate.rs` and their callers literally, with the `transmute` to double-width elements | same, then C20, C21 |
| C66 | the loops of `shared/ord.rs`, `shared/bitops.rs`, `shared/endian.rs`, `int/ops.rs`, `uint/extensions.rs`, `swap_array!` literally | same, then C22-C24, C26, C48 |
| C67 | `math/div.rs` literally, with the kind of build (`Cfg`) as a parameter, and its callers | equal to the functional model of C12-C19, then `full_spec`, `wideDiv_spec`, `fromU128_spec` |
| C68 | the scalar divisions of `int/limb.rs` literally, above the kernels of C67 | equal to the functional model of C55 and C17-C19, then `limbU`, `limbS`, `wideU`, `wideS`, `iDivRemFixU_all`, `iDivRemFixI_all` |
| C69 | `shared/casts.rs` and the constants literally | equal to the functional model of C27, then C27's theorems |
| C70 | `write.rs`, `parse.rs` and the formatting traits literally | equal to the functional models of C29, C30, C47 and C52 by loop invariants, then their theorems |
| C71 | the loops of `wrapping_pow`, `overflowing_pow` and `checked_ilog` literally | equal to the functional models of C10, C11 and C32 by loop invariants, then their theorems |
| C72 | the macro tables and the conversions that the trait methods add | the theorems of C01, C02, C03, C06-C08, C27, C45 and C46 |
| C73 | `carryingAdd`, `borrowingSub`, `carryingAddI`, `borrowingSubI` and the checked `Raw.carryingMul`, `Raw.mac` | bit-vector arithmetic; the top-limb lemmas of signed addition |
| C74 | `Endian.toBeBytes`, `Ord.lt` | C20 and C25, induction over the byte strings |
| C75 | `fromStrRadix`, `fromStr`, `toStrRadix`, `fmtDisplay` | C29 and C30; the parse contract determines the result |
| C76 | `fmtBinary`, `fmtUpperHex`, `fmtLowerHex`, `fmtDisplay`, `Bits`, `Endian.toBeBytes`, `U.ilog`, `isEven` | C22, C25, C30, C32, C48 and C52; the digits of `numeral` by position |
| C77 | `wrappingDivRem`, `divFloor`, `divCeil`, `wrappingDivEuclid`, `mul`, `add`, `Ord`, `wrappingShl`, `wrappingShr` | C12, C13, C17-C20; a spoilt remainder exceeds the divisor, so the laws hold exactly for `DivExact` |
| C78 | `wrappingMul`, `Ord.lt`, division forms, `wrappingShr`, `midpoint`, `absDiff`, `ilog`, `checkedAdd`/`Mul`/`Pow`/`Sub`, `fmt*`, `toStrRadix`, `fromStrRadix` of `U` and `I` | C06, C12-C19, C26, C30, C32, C35, C36, C43, C75; a `WrapS` and an `ExactU` result for the same integer have the same limbs |
| C79 | `Ord.le`, `Ord.cmp`, `saturating*`, `checkedAdd`/`Sub`, `Bits.not`, `wrappingShr`, `midpoint`, `absDiff`, `wrappingDiv` | C02, C03, C07, C11, C12, C17, C20, C23, C26, C35, C36, C43 |
| C80 | `wrapping*`, `overflowing*`, `checked*`, `strict*`, `saturating*`, operators of `U` and `I`, also with scalars of all types | C01-C08, C10, C11, C17, C36, C51, C53-C55 |
| C81 | `checkedIlog`, `checkedIlog2`, `checkedPow`, `checkedMul`, `wrappingDiv`, `Ord.le`, `Ord.lt` | C07, C11, C12, C14, C22, C26, C32 |
| C82 | `Repair.*` in `Verif/Repair` (changed copies, not code of the crate), for B1 to B19 (B20 to B22 are repaired in C92 to C94) | C08, C12-C15, C17, C28-C30, C32, C37-C39, C41, C43, C47, C50, C52, C55, C83, C84, C91 |
| C83 | `math::div` with unequal lengths | loops keep the lengths and end (`Lemmas/MathDiv.lean`), long division for `M` and `N` limbs apart; B2, B17: negations, `_partial` theorems give panic condition and value for every input |
| C84 | `math::add`, `math::sub`, `math::mul` at any lengths | panic conditions read off the transcription, values from the kernels of `RawAdd`/`RawMul`; B1, B18: negations, `_partial` theorems with the exact condition |
| C85 | literal forms of the arithmetic methods | each method is transcribed on arrays in memory order above the kernels of `RawAdd`, `RawMul`, `RawPow`; agreement with the functional model, then C01–C11, C35–C37, C45; B1 and B10 carry over |
| C86 | literal forms of division | each method is transcribed on arrays in memory order above the long division of `RawDiv`; agreement with the functional model, then C12–C15, C17–C19, C34; the disagreements about spoilt remainders, panics and zero divisors carry over |
| C87 | literal forms of the shifts | each method is transcribed on arrays in memory order above the shifts of `RawShift`; agreement with the functional model, then C20, C22, C33, C35, C38, C39, C43, C49; the disagreements about narrow amounts, unbounded right shifts, amounts of the same type and the signed midpoint carry over |
| C88 | literal forms with scalars | each method is transcribed on arrays in memory order above the kernels of `RawAdd` and `RawMul`; the runs of the two kernels give all four forms; the values are those of C05–C08, signed products keep the gap of C08 |
| C89 | literal forms with fixed-width scalars | `u128_to_limb` is transcribed as the transmute of the bytes, `u128_to_limb_n` and `i128_to_limb_n` as checked writes; each method chooses its kernel by the limb size as the code does; the values are those of C41, C53 and C54 |
| C90 | literal forms of division by scalars | the forms are written over the literal `div_rem` as the macros do, with the i32 forms going through a limb; the values are those of C16, C51 and C55, with the exact panics and stray bits of the long division |
| C91 | literal shift and rotate functions, every length, amount and build | the loops of C65 with the amount test as a debug assertion; amounts of the width or more are treated by cases on the number of elements. Fails for two elements without debug assertions: `left_u64([1, 0], 128)` is `[0, 1]`, as `limb_n` is only compared with zero (`C91_shifted_out_false`); what happens there is stated exactly by `effective` |
| C92 | candidate algorithms of the benchmarks | the multiplications by the digits in base `2^h`, carries by bounds; the shifts through one common reference form; the counts through those of C22; the division from the error bound of the magic number (`IsMagic`). **False in the code** for the division (bug B20): `C92_mulhi_false`, `C92_divide_by_num_false`, `C92_div_rem_by_num_false`; the `_partial` theorems say exactly what is computed, the repaired forms are proved |
| C93 | `etc/libdivide.py` | Python's exceptions as error values, `more` as an optional value; the factors by the error bound `Bench.magic_div`, the carry test of the masked sum by cases. **False in the code** (bug B21): most divisors raise `UnboundLocalError` (`C93_gen_branched_false`), the branch-free mode does not divide (`C93_divide_branchfree_false`), zero is not divided, `2^b` is accepted; the `_partial` theorems say exactly which divisors are accepted and what is computed, and the repaired script is proved for all divisors and numerators |
| C94 | `etc/magic.py` | the loop keeps `2^s < m d <= 2^s + 2^(s-p)`, then `Bench.magic_div`; floating-point logarithms are an argument. **False in the code** (bug B22): `mulhi` cuts the partial products (`C94_mulhi_false`), so `fast_divrem` is wrong from the fast path's limit on (`C94_fast_divrem_false`); the repaired form is proved |
| C95 | `LowerExp`, `UpperExp`, `Debug` with a precision and all flags | the place of the point and of the `e` fixes the fill and the precision. **False in the code** (bug B23, `C95_exp_debug_false`); `_partial` theorems give the exact condition of agreement (`SpecSci.lean`); a repair that rounds the text (`Repair/Sci.lean`) is proved for every flag |
| C96 | predicates of `devel/tests/native_math.rs` and `div_math.rs` (`Model/QuickCheck.lean`) | each is proved for all inputs, with the bit vectors of Lean's core library as the reference (SpecBits.lean). Three predicates on signed products with an overflow flag fail exactly in the gap of B1, and the halves are read in little-endian order, so the predicates fail on a big-endian machine; both have witnesses. |
| C97 | all operations with a counterpart in core `BitVec` | the contracts of C01 to C48 are turned into bit vectors (`SpecBits.lean`); the reference is a library definition instead of the project's own vocabulary. **False in the code** for the overflow of signed products (B1), remainders (B2) and the unbounded signed right shift: negations with witnesses and `_partial` theorems that say what happens instead |
| C98 | scalar forms against full forms: `ulimb`, `uwide`, `ilimb`, `iwide`, `Fix` | contracts of both sides determine the result (`*.unique`), so equal contracts give equal results; `SameForms` in SpecForms.lean. **False in the code** for signed operations with 128-bit scalars on 32-bit limbs, for division by two limbs where the scalar form panics and the full form returns, for signed division by an unsigned scalar, which rounds down, and for zero divided by zero |
| C99 | every operation at two widths and two limb sizes; `WidenU`, `WidenS`, `Cuts`, `NarrowFlag`, `NarrowOpt`, `NarrowRes`, `NarrowParsed` in SpecWiden.lean | from the contracts of C01 to C54 at both widths: the same exact result `z` determines both sides. **False in the code** for signed products just below the minimum of the narrow type, for signed unbounded right shifts by at least the narrow width, and for divisions: u256 panics or returns a right remainder where u512 returns a remainder with a stray bit; the exact condition is proved |
| C100 | `Expr.eval` and `Prog.run` in Model/Prog.lean apply the operators of the crate; `Expr.exact`, `Prog.exact`, `Expr.poly`, `Tame` in SpecProg.lean are integer functions | induction over programs and expressions from C12, C13, C15, C17, C23, C36, C38, C42, C80 and C97. **False in the code** without `Tame`: a remainder with a stray bit and a signed product in the gap; debug against release and the modular reading are unconditional, and `Expr.actual` (the faults as rules) describes every program in both builds |
| C101 | `Cond.eval` and `Cmd.run` in Model/Loop.lean add the comparisons, `if` and `while` to C100, with a bound on the rounds; `Cmd.sem`, `Cmd.Tame`, `Plain` in SpecLoop.lean are integer functions | simulation of the integer program, by induction over programs and rounds, from C26 and C100. **False in the code**: Euclid's algorithm on `178 * (2^159 - 2) - 2` and `2^159 - 2` ends with the latter. `Cmd.actual` (the faults as rules) describes every program in both builds; programs without `/` and `%` (signed: also without `*` and `pow`) need no proviso, Euclid's algorithm none if one operand has one limb or both have two |
| C102 | `Repair.eval`, `Repair.test`, `Repair.run` in Repair/Prog.lean: the evaluation of C100 and C101 with `/`, `%`, signed `*` and signed `pow` on the changed functions of C82; `Expr.ideal`, `Cmd.ideal` in SpecIdeal.lean are integer functions | simulation as in C101 with no proviso; the power loop is exact on any exact product; with overflow checks `ideal` is `exact`. Not a property of the existing code: it says that B1, B2 and B4 are all that separates the operators from their meaning |
| C103 | `Expr.checked`, `Expr.strict`, `Expr.wrapping`, `Expr.saturating` and the same of `Prog` in Model/Style.lean | compare the forms with the operators by C80, then induction on the program; `Expr.clamped` in SpecStyle.lean is the meaning of the saturating program. Checked and saturating programs only where no operation meets B1, B2 or B4 |
| C104 | `Calc.read`, `Calc.print` and `Calc.main` in Model/Calc.lean | join C29, C101 and C30; `calculator` in SpecCalc.lean is the meaning on the integers. Exact only where no operand is in the gap of B1 and no operation meets B1, B2 or B4; `C104_all_partial` says what happens everywhere |
| C105 | `Repair.fromStrS`, `Repair.parse` and `Repair.main` in Repair/Calc.lean | the same join as in C104 with C82 for the parser and C102 for the operators |
| C106 | `Move.run` and `Mix.run` in Model/Mixed.lean | induction over the program as in C101, with C27, C28 and C36 for the conversions. Exact only where no operation meets B1, B2, B4 or B11; `C106_all_partial` says what happens everywhere, `C106_product` is a client's exact signed product |
| C107 | `Repair.move` and `Repair.runMix` in Repair/Mixed.lean | induction over the program with C102 for the operators; `Mix.ideal` in SpecMixed.lean says what a program should do |
| C108 | programs `Sample.divide` and `Sample.divideS` in Props/Client.lean over Model/Mixed.lean | loop invariants on the integers, carried over to the limbs by C106 |
| C109 | `Model/Work.lean`: the loops of multiplication, powers and division with a counter beside the result | erasing the counter gives the functions of the model; the counter by induction over the loops; closed forms of the sums (`SpecWork.lean`) |
| C110 | `Model/Work.lean` | C109 at four limbs. **False in the code** (B24, `C110_documented_false`) for the five functions of the signed type that extend a limb to the full size: `C110_extended` gives their count, 10; `C110_documented_partial` confirms the other numbers |
| C111 | `Div.estimate`, `Div.subLoop`, `Div.knuthStep` of Model/Div.lean | arithmetic of the leading limbs (`Lemmas/DivNat.lean`, `Lemmas/DivStep.lean`); concrete digits attain both bounds |
| C112 | `Count.*` of Model/WorkText.lean: the functions of Model/Parse.lean and Model/Write.lean with counters; rounds of `U.ilogLoop` | erasing the counters gives back the functions (`Lemmas/WorkText.lean`); induction over the digits; the loop of the logarithm needs exactly `log - estimate + 1` rounds |
| C113 | two programs over `Mix` (Model/Mixed.lean): `Sample.root`, `Sample.euclidean` | loop invariants on the integers, transferred to the limbs by C106; the root is compared with its definition by squares, the divisor with `Nat.gcd` |
| C114 | programs over `Mix` (Model/Mixed.lean): `Sample.addTo`, `Sample.mulMod`, `Sample.powMod` | loop invariants on the integers, one nested in the other, transferred to the limbs by C106; compared with `*`, `^` and `%` of the naturals |
| C115 | the division model of C13-C17 (Model/Div.lean), `addBack` and `DivExact` of SpecDiv.lean | the quotient digit estimate is wrong only near the next multiple or at digit B-2; count these prefixes in `Finset.range`, carry the count to sets of limb lists by injectivity of `toNat` |
| C116 | the multiplication model of C08 (Model/Mul.lean) | absolute values of the factors are consecutive integers; count the multiples of y in an interval with `Finset.Ioc`, both ways by injections |
| C117 | the division model of C13 (Model/Div.lean), `addBack` of SpecDiv.lean | both directions on the estimate of a quotient digit from the top two limbs: it is exact if the other limbs are zero and the top limbs differ, and one too large just below a multiple |
| C118 | the double-limb division of C16 and C55 (Model/Div.lean, Model/Fixed.lean), `addBack` of SpecDiv.lean | C117's analysis of the estimate with a divisor of exactly two limbs: no limbs below the top two, so only equal top limbs need a correction |
| C119 | the division model of C13 (Model/Div.lean), `addBack` of SpecDiv.lean | the partial remainders of an exact quotient are multiples of the divisor cut after a limb: the last is exact, so only earlier digits can be estimated wrong |
| C120 | the division models of C12 and C17 (Model/Div.lean, Model/DivApi.lean), `addBack` of SpecDiv.lean | C117's analysis with numerators of at most half the range; the bound is met only by the minimum, where the estimate is two and the digit one |
| C121 | the division models of C12 and C17 (Model/Div.lean, Model/DivApi.lean) | count the divisors named by C117 and C120: a number of L digits with no one after the first 2*W digits is fixed by those digits, so there are at most 2^(2*W) for each L |

## 4. Disagreements between code and properties found so far

* **B1** `src/math/mul.rs` L457-469 (signed `overflowing_full`): `is_min` compares only the top
  limb with the minimum, so a negative product whose magnitude lies strictly between `2^(BITS-1)`
  and `2^(BITS-1) + 2^(BITS-w)` is reported as not overflowing.  Example (I256, 64-bit limbs):
  `((2^255+1)/3) * (-3)`: flag `false`, value `2^255 - 1`.  It reaches `checked_mul`,
  `saturating_mul`, `strict_mul`, `checked_pow`, operators in debug builds, and
  `from_str_radix`: `"-(2^255+2)"` written in decimal parses to `Ok(2^255 - 2)`.
* **B2** `src/math/div.rs` L397-415 (Knuth add-back): the loop runs over `n + 1` limbs and then adds
  the carry once more.  If the divisor fills its array, `divisor[n]` is out of bounds and panics;
  otherwise limb `j + n` of the running numerator is left at 1, which corrupts the remainder
  (not the quotient).  Examples on U256: `(3*2^189) % (2^189 + 1)` gives `3*2^189 - 2`, larger than the
  divisor; `(3*2^253) / (2^253 + 1)` panics; `2^191 / (2^127 + 2^64 - 1)` with a `u128` divisor
  panics.  When an exact multiple is divided the remainder becomes non-zero, so `div_ceil`,
  `div_floor`, `div_euclid` are off by one and `is_multiple_of`, `next_multiple_of` are wrong.
  C115 bounds how many operands are affected, C117 and C118 say which divisors are (for `U256` every
  odd divisor from `2^128` to `2^255`, and `10^32` as a `u128`).  C119 says for which divisors exact
  multiples go wrong (with 64-bit limbs, for `U256` only divisors below `2^128`, for `U512` also every odd
  one from `2^128` to `2^192`), and C120 which divisors make a division panic, signed or unsigned
  (`I256::MIN / (2^254 + 1)` does).  C121 counts them: half of all divisors, and about an eighth or more of the `u128` ones.
* **B3** `src/util.rs` L124-165: on 32-bit limbs limbs 1 and 3 of the split scalar are exchanged.
* **B4** `src/math/div.rs` L53-56, L76-80: `0 / 0` returns a value (`(1, 0)` from `full`, `(0, 0)`
  from `wide`) instead of panicking.
* **B5** `src/uint/checked.rs` L55-84: the guard is `base <= 0` instead of `base <= 1` (base 1 never
  ends without overflow checks and panics when the `u32` counter overflows with them) and
  `self < base` gives `None` instead of `Some(0)`; the signed `checked_ilog` unwraps that `None` and
  panics (`src/int/checked.rs`).
* **B6** `src/parse.rs` L117-158: a sign without digits (`"+"`, `"-"`) parses to `Ok(0)` with
  `from_str_radix` (`FromStr` rejects it, because short strings go through the primitive parser).
* **B7** `src/write.rs` L30-70: `to_str_radix` on negative signed values writes `-` and one
  character derived from the low byte, or panics with overflow checks; wrong for every negative number.
* **B8** `src/uint/traits.rs` L87-107: one-digit values print as `5.e0` (primitives print `5e0`);
  trailing zeros are kept, `1.500e3` (primitives print `1.5e3`).
* **B9** `src/shared/shift.rs` L13, L27: `Self::BITS as u8` is 0 for 256, 512, 1024 bits, so with
  overflow checks every shift by a `u8`/`i8` panics.
* **B10** `src/shared/bigint.rs`: signed `carrying_add`/`borrowing_sub` combine the two flags with
  `|`; the result can be representable although the flag is true.
* **B11** `src/int/traits.rs` L130-141: `try_from` rejects the unsigned value equal to `MAX`.
* **B12** `src/int/limb.rs`: on 32-bit limbs `wrapping_add_u128` and relatives call a kernel that
  asserts `M > N` with `M = N` and always panic.
* **B13** `src/shared/unbounded.rs` L35: `unbounded_shr` on negative signed values by `>= BITS`
  gives 0 (the primitive gives -1).
* **B14** `src/int/ops.rs` L328: the documentation of the signed midpoint says rounding towards
  negative infinity, the code rounds towards zero.
* **B15** `src/int/traits.rs` L171-173: num-traits `Signed::is_positive` is `>= 0`, so it is true for
  zero; num-traits documents false.
* **B16** `src/uint/traits.rs` L13-126: `Display` ignores width and fill, the unsigned types ignore `+`,
  `#` writes the prefix before the fill and does not count it, `{:08x}` pads with blanks, and the alignment
  is ignored.
* **B17** `src/math/div.rs`, public functions with lengths the crate itself does not use: `full<M, N>` with
  `M < N` panics for a numerator below the divisor and for a divisor of two or more limbs; `wide<1>` panics
  for a numerator below the divisor; `from_u128<M>` with `M < 4` panics for every numerator but zero; with
  `M > N` the add-back step (B2) spoils the remainder or panics as with equal lengths; `0 / 0` is `(1, 0)`
  or `(0, 0)` instead of a panic.
* **B18** `src/math/add.rs`, `sub.rs`, `mul.rs`, public functions with lengths the crate itself does not use:
  the signed `mul::wrapping_full<M, N>` with `N < M` does not sign-extend a negative shorter factor (its
  `overflowing_full` does); the signed `overflowing_uwide` with two limbs, and the signed product by an
  unsigned limb with one limb, read the unsigned scalar as a signed number, so the flag is wrong.
* **B19** `src/math/shift.rs` L101, L231: with two elements and without debug assertions, an amount of the
  width or more is taken as one element and the bits modulo the element width, so `left_u64([1, 0], 128)`
  is `[0, 1]`; with more elements all bits are shifted out.  The callers in the crate reduce the amount.
* **B20** `devel/benches/div_by_mul.rs`: `mulhi` (L35) adds the low instead of the high half of the cross sum,
  so the benchmark's `10 / 10` is 0; the indicator path (L50) subtracts 1 instead of the quotient; the
  remainder (L62) is formed with the magic number instead of the divisor.  The candidates `shr!` of
  `shift_algos.rs` take the high word first, unlike `shl!`.
* **B21** `etc/libdivide.py`: `more` is only assigned under L201, so a divisor that needs the long factor
  raises `UnboundLocalError` in the branched mode (every such divisor, 7 for example) and often in the
  branch-free mode; L249 and L271 subtract 1 instead of the high product, so the branch-free `8 / 8` is 0;
  L168 accepts `2**bits`; the numerator 0 fails the assertions L240 and L266; `unsigned_remainder` calls
  itself without end.
* **B22** `etc/magic.py` L105-114: `mulhi` masks the partial products before their carries are taken, so it is
  not the upper half, and `fast_divrem` is wrong for numerators that need it (`2**65 / 10` for example).
* **B23** `src/uint/traits.rs` L87-107, `src/int/traits.rs` L76-111, `src/shared/traits.rs` L119-124: `LowerExp`
  and `UpperExp` ignore the precision and the width (the unsigned types also `+`), and `{:x?}` prints decimal
  (C95; witness `C95_exp_debug_false`; the exponent forms are repaired in `C95_exp_repaired`).
* **B24** `src/int/limb.rs` L520, L1256, L1269, L1367, L1380: the documentation of five functions of the signed
  type promises 4 or 5 multiplications at worst; the source always takes 10 (C110; `C110_documented_false`).

## Tests of the theorems against wrong programs

`seeded/LOG.jsonl` has one line per edit of the model, made in a copy outside this directory.
`failed` lists the property theorems whose statement is false for the edited model: with proofs
stripped, each statement that mentions the edited definition is evaluated on samples until an
instance is found that meets the hypotheses and violates the conclusion; `_false` theorems count as
failed if their witness no longer checks.  `theorems_checked` is the number of statements evaluated.
`lemmas_broken_on_rebuild` lists the proofs that stop working when the unchanged proofs are rebuilt
on the edited model; this alone does not show that a claim is false.
So far 1089 edits have been tried.  Each violates at least one theorem, except the edits whose `note`
says that they are equivalent to the original or repair a defect of the source.  Where random samples
did not reach the fault, the refuting instance was written by hand and checked by evaluation; the
`note` says so.
