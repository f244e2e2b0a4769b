# Design: a Lean 4 model of mamrhein/f256.rs

## Trusted base

* Lean 4.33.0's kernel and Mathlib's definitions used in the statements
  (`ℝ`, `Real.sqrt`, `Real.log`, `Real.logb`, `Real.pi`, `Real.exp`, `Real.sin`, `Real.cos`, `BitVec`, `Nat`, `Int`, `List`).
* The axioms `propext`, `Classical.choice` and `Quot.sound` only. No axiom is
  added, no `sorry`/`admit`, no `native_decide`, no `bv_decide`.
* The transcription of the Rust source into Lean definitions. Every definition
  of the model cites the file and lines it transcribes and names its
  simplifications.

## Semantics that is modelled

* The *release* build: primitive integer arithmetic wraps (`BitVec`), shift
  counts of primitive integers are masked, `debug_assert!` is absent.
* Everything that panics in a release build (`assert!`, division by zero,
  array index out of range, `unreachable!`) is an explicit `none`. The operators
  `+ - *` of the wide integers panic on overflow in the code, so they return
  `Option` in the model. Theorems state `f x = some r ∧ ...`, so absence of
  panics is part of the claim.
* For the wide integers' base type `U128` the checked operators `+ - *` are
  modelled strictly (overflow is `none`); if the strict model returns `some r`,
  then both the debug and the release build compute `r`.
* Loops are bounded recursions on explicit fuel, or structural folds. Running
  out of fuel is `none`; the theorems show it does not happen.
* `i32`/`u32` exponent arithmetic is done in `Int`/`Nat`. Each use is in range
  (the ranges are small compared to 2^31); where Rust's unsigned subtraction
  could wrap the model says so.
* References, `Copy`, `const fn`, inlining, traits' static dispatch are not
  modelled (they have no observable effect), except for the forms of the binary
  operators (C49), where variables are locations of a store.

## Layers

1. `Verif/Model/U128.lean`, `UInt.lean`: `U128 = BitVec 128`, the trait `BigUInt`
   as a Lean class and the generic `UInt α = {hi, lo}` with the instance
   `BigUInt α → BigUInt (UInt α)`, so `U256`, `U512`, `U1024` are obtained as in
   the code.
2. `Verif/Spec/*.lean`: the specification, independent of the model: the value
   of a 256-bit pattern as a real number, round-to-nearest-even as a *relation*
   between a real number and an f256 ("no finite f256 is nearer; ties go to the
   even pattern; overflow threshold"), nearest integers, etc.
3. `Verif/Model/F256*.lean`: the f256 functions, one by one.
4. `Verif/Proofs/*.lean`: refinement lemmas (wide integers refine `Nat`; the
   rounding lemma "bits = t·2^236 + rne(v/2^t)").
5. `Verif/Props/*.lean`: one theorem (or several) per property, with a
   non-vacuity example beside each.

## Which parts of the code are modelled and which are not

Modelled, function by function (the comments of the definitions give the lines):

* `src/lib.rs`, `src/consts.rs`, `src/num_traits.rs`, `src/binops/*`, `src/fused_ops/*`, `src/math/sqrt.rs`,
  `src/math/log.rs` (`ln`, `log2`, `log10`), `src/math/feynman.rs`, `src/math/circular_fns/*`.
* `src/math/big_float.rs` and `src/math/fp509.rs` as far as the functions above use them.
* `src/conv/*`: conversions from integers and floats, parsing (all three paths), `Display`, `LowerExp`, `UpperExp`, `Debug`.
* `src/big_uint/*` for the widths which are used. The forms of an operator for owned values and references share one definition.

Not modelled:

* `log` and `ln_1p` (`src/math/log.rs`): they are `unimplemented!()`, so they panic for all arguments.
* Functions which nothing public calls: `trunc`, `quantum`, `flip_sign`, `copy_sign` and the shifts of `BigFloat`, `mul2` of `FP492`,
  `any_non_normal`, `Default`, `PartialEq` and `From` of the decimal used for slow parsing.
* `Debug` and `Display` of internal types (wide integers except `U256` in the `Debug` of `f256`, `FP492`, the product of `fma.rs`).
* The internals of Rust's formatter (`core::fmt`): the model receives the options and writes the text.
* Behaviour of debug builds (overflow checks and `debug_assert!`), test modules, `tests`, `analysis`, and the crates `pow*_lut`, which generate
  tables (C45, C68 model the table that the code uses by the rule by which it is generated).
* Time and memory.

## How each property is treated

| property | model | proof |
|---|---|---|
| C01-C03 add/sub | `binops/add.rs` in full | refinement to Nat, sticky-bit lemma, relational rounding lemma |
| C04-C05 mul | `binops/mul.rs` in full | same; the false-tie defect for subnormal results is proved as a counterexample, the rest `_partial` |
| C06-C07 div | `binops/div.rs` in full | same |
| C08 rem | `binops/rem.rs` in full | modular arithmetic; the sign of zero and the wide division defect as counterexamples |
| C09 fma | `fused_ops/fma.rs` | defects as counterexamples, main range `_partial` |
| C10 sum of squares | `fused_ops/sos.rs` | defects as counterexamples, main range `_partial` |
| C11 sqrt | `math/sqrt.rs` in full | loop invariant of the digit recurrence |
| C12 eq | `binops/cmp.rs` | case analysis on the encoding |
| C13-C16 order, min/max/clamp | `binops/cmp.rs`, `lib.rs` | the order of negative numbers is reversed in the code: counterexamples plus `_partial` theorems |
| C17 classification | `lib.rs` | Nat refinement; `classify` of non-canonical NaN is a counterexample |
| C18 neg/abs | `lib.rs` | bit-level |
| C19 bits/bytes | `lib.rs` | lists of bytes, base-256 digits |
| C20-C24 integral functions | `lib.rs` | Nat refinement; `round_tie_even` defect as counterexample |
| C25-C26 scaling | `lib.rs` | defects as counterexamples, rest `_partial` |
| C27 ulp | `lib.rs` | Nat refinement |
| C28 ints, C29 floats | `conv/from_int.rs`, `conv/from_float.rs` | exactness via the value function |
| C30-C31 encode/decode/fields | `lib.rs` | exactness / rounding lemma |
| C32-C35 algebra | — | consequences of correct rounding |
| C36-C40 wide integers | `big_uint/*` | induction over the nesting of `UInt`; defects of `rounding_div`, `U128::rem_pow2`, full division as counterexamples |
| C41-C43 parsing | `conv/from_str/*` | byte lists; defects as counterexamples |
| C44 formatting | `conv/to_str/{mod,dec_repr,formatted,powers_of_five}.rs` | the Ryū tables live in build-time generated files that are not in the repository; they are modelled by their documented formula. `Formatter::pad_integral` and `Display` for `u64`/`i32` of the standard library are modelled as documented. Error bound of the scaled multiplication, the interval kept by removing digits, then C42 for reading; for very large and small magnitudes the same with a scaling factor of relative error below 2^-499 |
| C45 formatting with a precision | `conv/to_str/{mod,to_fixed_prec}.rs` (fixed point; scientific see C68) | the table crate `f256_pow10_div_pow2_lut` is not in the repository; it is modelled by `analysis/gen_ryu_print_helper_tables.py`. A chunk of 19 digits is the product with a truncated table entry; exact if nothing is truncated or the rest is large enough. Then the digits before the last chunk, the decision about the last one, and the carry through the text. Zero and padding are done by the standard library and modelled as documented |
| C46-C47 tables/estimates | `conv/to_str/common.rs`, `conv/to_str/dec_repr.rs:24-46`, `conv/from_str/fast_exact.rs:79-183` | neighbouring fractions of the logarithm, checked by comparing powers; the table by kernel evaluation of all 103 entries |
| C48 recip, C49 operator forms, C56 num_traits | `lib.rs`, `binops/mod.rs` | corollaries |
| C54 degrees/radians | `lib.rs` `to_degrees`, `to_radians` | error bounds on the domain where the code works, against Mathlib's pi; counterexamples elsewhere |
| C53, C58 logarithms | `math/log.rs`, `math/feynman.rs`, `math/fp509.rs` | series enclosure of `log(1+2^-n)` checked against the whole table; loop invariant bounds the error of the product and of the sum; then relative error |
| C57 constants | `consts.rs` | pi (Machin), e (series) and gamma (integral of `log t * exp (-t)`, cut at 256, Taylor polynomial with 1024 terms) enclosed to 300 bits, then each constant is compared |
| C50 no panics | all modelled functions | corollary of the `= some` statements |
| C51, C59 circular functions: special values, symmetry, `sin_cos` | `math/circular_fns/` | case analysis |
| C52 accuracy of `sin`, `cos` | `math/circular_fns/`, `math/fp509.rs`, `math/big_float.rs` | Taylor bounds against the tables of coefficients; every entry of the table of 2/pi against an enclosure of pi with 262872 bits; distance of all f256 numbers to the multiples of pi/2 by a certificate for each exponent; then ulp bound |
| C60 accuracy of `tan` | `math/circular_fns/tan.rs` | C52, the distance to the zeros of sine and cosine, and C06 |
| C61 short literals are reproduced | `conv/from_str`, `conv/to_str` | C42 for reading; removing digits stops at the largest power of ten with a multiple in the interval, so the literal is the number found |
| C62 accuracy of `atan` | `math/circular_fns/{atan,approx_atan}.rs`, `math/fp509.rs`, `math/big_float.rs` | the table is checked entry by entry against the differences `arctan((k+1)/256) - arctan(k/256)`, the polynomial against the Taylor series; then the error of each step, and C57 for the constants |
| C63 `atan2` | `math/circular_fns/atan.rs`, `math/big_float.rs` | the argument of a complex number is expressed by the arc tangent; absolute errors of the sums with `π/2` and `π`, relative errors in the right half plane; counterexamples for the rest |
| C64 `asin` | `math/circular_fns/asin_acos.rs`, `math/big_float.rs`, `math/fp509.rs` | `√` of a `BigFloat` by an invariant of its loop; error of `x/√(1-x²)` relative to `1/(1-x²)`; arc tangent of a `BigFloat`; the absolute error bound holds on the whole domain |
| C65 `acos` | the same | `π/2` minus the result of C64 before rounding |
| C66 width, fill, alignment, `+`, `0` | `conv/to_str/{mod,formatted}.rs`; `pad_integral` and `format!` of the standard library modelled as documented | a list of bytes; the fill character is the list of its bytes and counts as one character. Zeros in front of the digits do not change the value |
| C67 `atan` and `asin` are odd | `math/circular_fns/{atan,approx_atan,asin_acos}.rs`, `big_float.rs`, `fp509.rs` | every step commutes with the change of sign, as long as its value is not zero, which the error bounds of C62 and C64 exclude |
| C68 scientific notation with a precision | `conv/to_str/{mod,to_fixed_prec}.rs`, tables as for C45 | the estimate of the decimal exponent, computed with `f64::log2` of the platform (`conv/to_str/common.rs:25-27`), is a parameter of the model; the theorems say how good it has to be. The display of a 512-bit integer is its decimal text. Numbers from 1 to `2^512`: one rounded multiplication or division. The other numbers: chunks of 19 digits from the tables, as for C45; the sequence of the chunks is `⌊x·10^(19c+κ)⌋`, if the digits are not too close to a cut for the table entries, which are truncated below 1 and rounded up for integers; then the carry through the text |
| C69 error of a sum | `binops/add.rs` | composition of C01 and C02; the differences are multiples of the smaller quantum with at most 237 bits |
| C70 error of a product | `binops/mul.rs`, `fused_ops/fma.rs` | composition of C04 and C09; the error has at most 237 bits |
| C71 `sqrt` of a square | `binops/mul.rs`, `math/sqrt.rs` | composition of C04 and C11; relative error of the square against the distance of neighbours |
| C72 difference of unequal numbers | `binops/{add,cmp}.rs` | composition of C02 and C12; an exact sum of two numbers is inexact only above `2^237` quanta |
| C73 midpoint | `binops/add.rs`, `binops/div.rs` | composition of C01 and C06; twice a number is representable or out of range |
| C74 representable results | `binops/{add,mul,div}.rs` | from C01, C02, C04, C06; the defect of C04 does not concern exact products |
| C75 integers and `f64` products | `binops/*.rs`, `conv/from_float.rs` | from C74 and C29 |
| C76 integer quotient | `binops/div.rs`, `lib.rs` (`floor`) | from C06 and C20; the relative error is below the distance to the next integer |
| C77 range of sine and cosine | `math/circular_fns/*.rs`, `math/fp509.rs` | the approximation exceeds 1 by at most a quarter unit, which is rounded away |
| C78 integers are printed with their digits and read back | Props/IntText.lean | exactness of the shortest decimal of an integer (C44), the digits written by the chunked output, uniqueness of digits without a leading zero |
| C79 the debug text shows the exact value and identifies the number | Model/Debug.lean, Props/Debug.lean | decoding of finite numbers, digits determine numbers, texts split at commas |
| C80 a coordinate divided by the length of its vector is at most one | Props/Normalise.lean | the square root undoes squaring (C71), monotonicity of addition, square root and rounding |
| C81 rounding to integers is monotone | Props/IntegralMono.lean | corollary of C20-C22; nearest integers are out of order at most at a common midpoint |
| C82 the squares of sine and cosine add up to one | Props/Pythagoras.lean | the absolute error of the sine for all arguments (C52_sin_absolute), the error of the cosine, range of the results (C77) |
| C83 sign and order of the logarithms | Props/LogOrder.lean | the relative error (C58), the bound of all logarithms, and a lower bound of log(1 + d) |
| C84 the error of a running sum | Props/Accumulate.lean | induction over the list; the relative error of every addition, which is exact in the subnormal range |
| C85 the error of a running product | Props/Horner.lean | induction over the list; C04, C05 |
| C86 the error of Horner's scheme | Props/Horner.lean | induction over the coefficients; C01, C04, C05 |
| C87 compensated summation | Props/Compensated.lean | induction over the list with the exact sum of the errors as ghost value; C69 and the relative error of additions |
| C88 the errors of scalar products and lengths | Props/DotNorm.lean | C84 for the products, relative errors of products (C04) and square roots (C11) |
| C89 sums and products with their remainders | Model/ErrorFree.lean, Props/Remainders.lean | C69, C70, C74 applied to the functions of the crate; counterexample for `sum` |
| C90 bisection terminates and finds neighbours | Props/Bisection.lean | the sum or its half is exact; the number of smallest quanta between the ends is a variant |
| C91 errors of operations measured in ulp() | Props/HalfUlp.lean | correct rounding is within half a quantum of the result, and ulp() is that quantum |
| C92 absorption of small terms, counting | Props/Absorb.lean | no number is nearer to x than half of ulp(); induction over the list and over the number of increments |
| C93 extreme elements of lists | Props/Extremes.lean | induction over the list; false without conditions on the signs, counterexamples proved |
| C94 sorting by total_cmp | Props/Sorting.lean | total_cmp is a linear order of the bit patterns; false for the order of negative values, counterexample proved |
| C95 computed enclosures of exact results | Props/Enclosure.lean | the bounds are exact or infinite, and every operation is within one ulp() (C91) |
| C96 monotone sums, scalar products, polynomials | Props/MonotoneLoops.lean | induction over the lists with the monotonicity of + and * (C34) |
| C97 exact sums of fixed-point numbers | Props/FixedPoint.lean | every partial sum is representable; induction over the list and the permutation |
| C98 errors of sums in any order | Props/TreeSum.lean | induction over the expression with the relative error of + |
| C55 almost_eq | `lib.rs` | corollary |

## Disagreements between code and property found so far

(recorded here as they are confirmed by a proved counterexample)

* **C13-C16** `total_cmp`, `partial_cmp`, `<`, `<=`, `>`, `>=`, `min`, `max`, `clamp`: two negative
  numbers are ordered the wrong way round (`src/lib.rs:825`, `src/binops/cmp.rs`): `-1 < -2` holds in
  the code. Proved: `C13_counterexample`, `C14_counterexample`, `C15_counterexample`,
  `C16_counterexample`; `C13_both_negative` describes what happens for all such pairs.
  The consequence for the extreme elements of lists is C93: `C93_counterexample`, and the
  conditions under which folding with `max` and `min` is right.
  Sorting is C94: `C94_negatives`, `C94_counterexample`.
* **C17** `classify` returns `Normal` for a NaN whose payload is not the canonical one
  (`C17_classify_counterexample`).
* **C04** `*` with a subnormal result may round a value slightly above a midpoint down, because the
  rounding bits computed for the full significand (`src/binops/mul.rs:31-34`) drop a non-zero
  remainder below a quarter unit (`C04_counterexample`).
* **C38** the full division `UInt::div_rem` (`src/big_uint/uint_generic/binops/divrem.rs:105-151`)
  panics in a release build for some dividends with the top bit set, and for some divisors dividing
  the dividend it returns a remainder equal to the divisor (`C38_counterexample`).
* **C39** `U128::rem_pow2` (`src/big_uint/uint128.rs`) does not mask: `5.rem_pow2(2) = 5`
  (`C39_remPow2_counterexample`). The rounding shift does not depend on it.
* **C40** `rounding_div` takes `rhs >> 1` for half of an odd divisor: `4 / 3` is rounded to 2
  (`C40_counterexample`).
* **C22** `round_tie_even` compares only the upper 128 bits with those of 1/2
  (`src/lib.rs:1100-1103`): every number strictly between 1/2 and 1/2 + 2^-109 in magnitude is
  rounded to 0 (`C22_near_half`).
* **C25** `mul_pow2` compares `biased exponent + n` with the maximum also for subnormal numbers
  (`src/lib.rs:1150`): a subnormal number scaled by 2^524287 or more gives infinity even if the
  product is representable (`C25_fails`).
* **C26** `div_pow2` (`src/lib.rs:1217-1249`): if `n` equals the biased exponent, the hidden bit is
  dropped (`C26_fails_a`: half of the smallest normal number is 0); for small positive numbers a
  quotient above one half of the smallest subnormal is rounded to 0 (`C26_fails_b`).
* **C30** `encode` has no overflow handling; outside its documented domain it gives unrelated numbers
  (`C30_overflow_garbage`). The property is restricted to the documented domain.
* Results of `trunc`, `ceil`, `round`, `round_tie_even` that are zero are always `+0`, also for
  negative operands. The properties are about values, so this is no violation.
* **C08** `%` (`src/binops/rem.rs`) inherits the defects of the 256-bit division: it panics for some
  normal operands whose exponents differ by 19 modulo 256, and for some subnormal divisors it returns
  the divisor itself. A negative exact multiple gives `+0` (`C08_counterexample`).
* **C09** `mul_add` (`src/fused_ops/fma.rs:354-396`) shifts subnormal results by a constant distance
  instead of one depending on the exponent: `2^-131072 * 2^-131071 + 2^-262378` gives twice the
  exact value (`C09_counterexample`). If the addend is subnormal and has the opposite sign, the
  wrong operand may be taken for the larger one; the difference then borrows out of 768 bits and the
  shift asserts: `2^-131072 * 2^-131072 - 2^-262378` panics in a release build (`C09_panics`).
* **C10** `sum_of_squares` (`src/fused_ops/sos.rs:102-128`) drops the sticky bit when it normalises the
  sum. If `x^2` is exactly a midpoint and `y^2` is tiny, the midpoint is rounded instead of the sum:
  `(2 - 2^-118)^2 + 2^-1000` is rounded down (`C10_counterexample`). If one operand is subnormal, its
  square is ignored altogether (`C10_one_tiny`).
* **C50** Consequently `%` and `mul_add` can panic for finite operands (`C50_counterexample`); all other
  modelled operations return for all operands (`C50_partial`).
- C41: the parser accepts a mantissa without any digit (`"."`, `"+."`, `".e5"`) as zero and an exponent with a
  sign but without digits (`"1e+"`). `f64::from_str` rejects both. The accepted language is proved exactly
  (`C41_number`).
- C42: five defects of `f256::from_str`, each proved on the model. (1) `Decimal::round` (`conv/big_decimal.rs`) looks
  at the digit behind the last one, which is a left-over of an earlier shift: the literal of `2^300` (91 digits)
  is parsed one unit in the last place too large (`C42_counterexample_exact`). (2) Ties which reach the slow path
  or the approximate path are not always rounded to even: `(2^237 + 3) * 2^40` (`C42_counterexample_tie`).
  (3) `-0` (without exponent) is parsed as `+0` (`C42_counterexample_zero`). (4) The exponent arithmetic overflows
  `i32`: `0.01e-2147483647` is parsed as infinity in a release build (`C42_counterexample_wrap`). (5) The lower limit for exponents
  does not account for 77-digit significands: `11...1e-79057` is parsed as zero (`C42_counterexample_cutoff`).
- C54: `to_degrees` uses a constant whose last 18 bits are wrong (error 269375 instead of at most 1), so that even
  `1.0.to_degrees()` is not the number nearest to `180/pi` (`C54_counterexample_degrees`). `to_radians` rounds twice
  (`C54_counterexample_radians`, `121.0`). Both have no case for zeros, infinities and NaNs and do not handle results
  in the subnormal or overflow range: `0.0.to_degrees()` is `2^-233` in a release build (a debug build panics in
  `msb`), `INFINITY.to_degrees()` is a negative finite number (`C54_counterexample_special`).
- C58: `FP492::imul_round` (`math/fp509.rs`) rounds up whenever a discarded limb is not zero, not only above one half
  (operator precedence of `||` and `&&`). This is harmless for the accuracy proved, but the logarithm is not always
  the nearest number: `ln(1 + 6 * 2^-236)` is the neighbour on the wrong side (`C58_not_nearest`).
- C52: `FP492::from(&f256)` (`math/fp509.rs:231-250`) limits the shift to 492 bits. So all numbers below `2^-492` with a
  normal representation are converted to `2^-492`, and `sin` returns `2^-492` for them (`C52_sin_small`; `sin(2^-1000)` in
  `C52_counterexample`). Subnormal numbers are converted to zero. From `2^-492` to `2^-256` the low bits of the argument
  are lost. `tan` inherits this (C60, `C60_counterexample`).
- C44: the shortest digits do not always read back. (1) For powers of two the interval below is only half as wide as the one
  above. `shortest_from_bin_repr` (`conv/to_str/dec_repr.rs`) narrows it for integers (all of them) instead of
  powers of two (all of them), and `2^-116` is printed as a number nearer to its predecessor
  (`C44_counterexample_pow2`). (2) `is_multiple_of_pow5` uses the
  defective `div_rem` (C38) for divisors above 128 bits and misses multiples; an odd number is printed as the midpoint above it,
  which is read as its successor (`C44_counterexample_mid`). (3) `-0` is printed as `-0`, which is read as
  `+0` (`C44_counterexample_zero`).
- C45: `{:.p}` does not always print the nearest decimal. (1) The integer part is printed with the shortest digits which
  identify it, so integers of `2^238` and above are not printed exactly (`C45_counterexample_int`, `2^300 + 2^64`). (2) The
  entries of the table of `10^(19c) / 2^k` are rounded down. If a product is just above an integer the chunk of
  digits is one too small, and the following ones do not make up for it: the number read from `1.5e-30` is printed as
  `0.00…0149999999` with 38 places (`C45_counterexample_fraction`). This needs a fraction below `2^-83`. The second point
  depends on the table being the one written by the script in `analysis`.
- C63: `atan2` is wrong in three ways. (1) For operands of the same absolute value the constant for `π/2` is used instead of the
  one for `π/4`: `atan2(1, 1)` is `π/2`, and so on in every quadrant (`C63_diagonal_false`). (2) After NaN and zeros have been
  dealt with, the code assumes that both operands are infinite; if only one is, the result is that for two infinities
  (`C63_one_infinite_false`; `atan2(1, inf)` is `π/4` instead of zero). (3) The quotient is converted to the fixed point format,
  which has no bits below `2^-492`: `atan2(2^-500, 1)` is zero (`C63_underflow_false`), and
  `atan2((1 + 2^-236) * 2^-400, 1)` is one unit in the last place off (`C63_small_false`). The error in the right half plane is at most
  one unit in the last place plus `6 * 2^-492` (`C63_small`).
- C64, C65: the argument `x/√(1-x²)` is computed with 255 bits. For `x` close to 1 the subtraction `1 - x²` cancels most of them,
  because `x²` has been rounded before. For `x = 1 - 2^-129` the arc sine is off by more than `2^38` units in the last place
  (`C64_near_one_false`) and the arc cosine by more than `2^100` (`C65_near_one_false`): the last 100 of its 237 bits are wrong. The
  absolute error never exceeds `2^-131` (`C64_total`, `C65_total`), and for `|x| ≤ 1 - 2^-12` (arc sine) and
  `-1 + 2^-12 ≤ x ≤ 31/32` (arc cosine) both are within 0.51 units in the last place.
- `BigFloat::mul` does not adjust the exponent if rounding the product carries into bit 255. For the squares computed by `asin` and
  `acos` this does not happen, see `bigSquare_spec`: the operands have 237 bits.
- C66: `format_nan` (`conv/to_str/mod.rs:33-44`) ignores the fill character: `{:*>5}` of NaN is padded with spaces
  (`C66_counterexample_fill`). With the zero flag infinities are padded with zeros: `{:05}` gives `00inf`, which `from_str` rejects
  (`C66_counterexample_inf`).
- C68: for large integers the entries of the table are not exact enough if the number is just below a multiple of a power of
  `10^19`: the largest number below `10^156` printed with `{:.75e}` is `1.` with 42 zeroes and then the digits of `9.99…`, all chunks of
  nines having become zeroes except those exact enough to stay (`C68_counterexample_table`).
- C68: `{:.pe}` rounds some ties below 1 the wrong way: `{:.0e}` of 0.25 gives `3e-1` instead of `2e-1`, because the test for a tie
  in `bin_fract_2_scientific` (`conv/to_str/to_fixed_prec.rs:457-552`) uses the precision instead of the number of digits behind the
  decimal point (`C68_counterexample`). If the number is so close below a power of ten that `f64` cannot tell its logarithm from an
  integer, the decimal exponent is estimated too large; with a precision of 20 or so `10 - 2^-60` is then printed as
  `9.9999999999999999991e1`, ten times too large (`C68_counterexample_estimate`; it assumes that the platform computes 1 as logarithm, which
  correct rounding of each step does).
- C89: `sum` (`src/lib.rs:1448-1454`, crate-internal, not used at present) subtracts `ta` where Knuth's algorithm subtracts `s - b`: the remainder of
  `1 + 1` is returned as -1, and for every exact sum `a + b` it is `-a` instead of 0 (C89_counterexample, C89_sum_exact).
