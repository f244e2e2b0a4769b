{"claims": [
 {"property": "C01", "status": "proved", "theorems": ["Verif.Props.C01_add", "Verif.Props.C01_total"], "note": ""},
 {"property": "C02", "status": "proved", "theorems": ["Verif.Props.C02_sub", "Verif.Props.C02_sub_eq_add_neg", "Verif.Props.C01_total"], "note": ""},
 {"property": "C03", "status": "proved", "theorems": ["Verif.Props.C03_nan", "Verif.Props.C03_inf_opposite", "Verif.Props.C03_inf_same", "Verif.Props.C03_inf_finite", "Verif.Props.C03_zero_finite", "Verif.Props.C03_zeros", "Verif.Props.C03_exact_zero"], "note": ""},
 {"property": "C04", "status": "partial", "theorems": ["Verif.Props.C04_mul_partial", "Verif.Props.C04_error", "Verif.Props.C04_counterexample"], "note": "Correct rounding for products in the normal range, and for subnormal results unless the exact product lies slightly above a midpoint. There the code loses the sticky bit (src/binops/mul.rs:31-34) and the property is false: counterexample proved. Error bound 5/8 quantum proved for all subnormal results."},
 {"property": "C05", "status": "proved", "theorems": ["Verif.Props.C05_nan", "Verif.Props.C05_inf_zero", "Verif.Props.C05_inf", "Verif.Props.C05_zero"], "note": ""},
 {"property": "C06", "status": "proved", "theorems": ["Verif.Props.C06_div", "Verif.Props.C06_total"], "note": ""},
 {"property": "C07", "status": "proved", "theorems": ["Verif.Props.C07_nan", "Verif.Props.C07_invalid", "Verif.Props.C07_infinite", "Verif.Props.C07_zero", "Verif.Props.C06_total"], "note": ""},
 {"property": "C08", "status": "partial", "theorems": ["Verif.Props.C08_rem_partial", "Verif.Props.C08_special", "Verif.Props.C08_counterexample"], "note": "Proved for all finite x and finite non-zero y except subnormal y with a significand in [2^128, 2^192): if the call returns, the result is exact, smaller than y and has the sign of x or is +0; it returns unless the exponent gap is 19 mod 256 and the significand of x is among the 2^129 largest (or y is a large subnormal). False in full: C08_counterexample shows a panic, a negative exact multiple giving +0, and a remainder equal to the divisor."},
 {"property": "C09", "status": "partial", "theorems": ["Verif.Props.C09_mul_add_partial", "Verif.Props.C09_cancel", "Verif.Props.C09_nan", "Verif.Props.C09_inf_zero", "Verif.Props.C09_inf_product", "Verif.Props.C09_inf_addend", "Verif.Props.C09_zero_product", "Verif.Props.C09_zero_addend", "Verif.Props.C09_zero_zero", "Verif.Props.C09_counterexample", "Verif.Props.C09_panics"], "note": "Correct rounding proved for all finite operands with a result in the normal range and factors that are normal or zero (also for subnormal factors if product and addend have the same sign and the significands are at least 2). Special operands, zero operands and exact cancellation proved in full. False for subnormal results: the code returns wrong values (C09_counterexample) or panics (C09_panics)."},
 {"property": "C10", "status": "partial", "theorems": ["Verif.Props.C10_sos_partial", "Verif.Props.C10_error", "Verif.Props.C10_tiny", "Verif.Props.C10_one_tiny", "Verif.Props.C10_zero", "Verif.Props.C10_square", "Verif.Props.C10_square_add_partial", "Verif.Props.C10_total", "Verif.Props.C10_comm", "Verif.Props.C10_nan", "Verif.Props.C10_inf", "Verif.Props.C10_counterexample"], "note": "Correct rounding proved for all normal operands unless the exact sum exceeds a midpoint by less than 2^-256 units in the last place; there it is false (C10_counterexample). For all normal operands the result is the rounding of a number within relative 2^-255 below the exact sum. Missing: one operand subnormal or zero with a subnormal result (inherits C04)."},
 {"property": "C11", "status": "proved", "theorems": ["Verif.Props.C11_sqrt", "Verif.Props.C11_special", "Verif.Props.C11_total", "Verif.Props.C11_exact"], "note": ""},
 {"property": "C12", "status": "proved", "theorems": ["Verif.Props.C12_eq_iff", "Verif.Props.C12_symm", "Verif.Props.C12_trans", "Verif.Props.C12_refl", "Verif.Props.C12_zeros"], "note": ""},
 {"property": "C13", "status": "partial", "theorems": ["Verif.Props.C13_none", "Verif.Props.C13_partial", "Verif.Props.C13_both_negative", "Verif.Props.C13_counterexample", "Verif.Props.C13_operators"], "note": "The code orders two negative numbers the wrong way round; C13_counterexample is a witness, C13_both_negative says what is returned instead, C13_partial is the property for all pairs that are not both negative."},
 {"property": "C14", "status": "partial", "theorems": ["Verif.Props.C14_refl_antisymm", "Verif.Props.C14_swap", "Verif.Props.C14_trans", "Verif.Props.C14_totalOrder_partial", "Verif.Props.C14_both_negative", "Verif.Props.C14_counterexample"], "note": "total_cmp is a total order, but reversed among negatives (witness proved)."},
 {"property": "C15", "status": "partial", "theorems": ["Verif.Props.C15_nan", "Verif.Props.C15_choice", "Verif.Props.C15_partial", "Verif.Props.C15_counterexample"], "note": "min/max of two negatives are exchanged by the code (witness proved); proved for pairs that are not both negative."},
 {"property": "C16", "status": "partial", "theorems": ["Verif.Props.C16_panic", "Verif.Props.C16_nan", "Verif.Props.C16_partial", "Verif.Props.C16_counterexample"], "note": "Same cause as C13."},
 {"property": "C17", "status": "partial", "theorems": ["Verif.Props.C17_partition", "Verif.Props.C17_predicates", "Verif.Props.C17_finite", "Verif.Props.C17_classify_partial", "Verif.Props.C17_classify_nan", "Verif.Props.C17_classify_counterexample"], "note": "The predicates are proved in full; classify returns Normal for NaNs with a non-canonical payload (witness proved)."},
 {"property": "C18", "status": "proved", "theorems": ["Verif.Props.C18_neg", "Verif.Props.C18_abs", "Verif.Props.C18_neg_neg", "Verif.Props.C18_neg_val", "Verif.Props.C18_abs_val", "Verif.Props.C18_sign_predicates", "Verif.Props.C18_class"], "note": ""},
 {"property": "C19", "status": "proved", "theorems": ["Verif.Props.C19_bits", "Verif.Props.C19_be_value", "Verif.Props.C19_roundtrip", "Verif.Props.C19_roundtrip'"], "note": ""},
 {"property": "C20", "status": "proved", "theorems": ["Verif.Props.C20_floor", "Verif.Props.C20_ceil", "Verif.Props.C20_trunc", "Verif.Props.C20_total"], "note": ""},
 {"property": "C21", "status": "proved", "theorems": ["Verif.Props.C21_round"], "note": ""},
 {"property": "C22", "status": "partial", "theorems": ["Verif.Props.C22_roundTieEven_partial", "Verif.Props.C22_near_half"], "note": "Proved for all finite numbers except those strictly between 1/2 and 1/2 + 2^-109 in magnitude; C22_near_half proves that the code returns 0 for every one of these, so the property is false there."},
 {"property": "C23", "status": "proved", "theorems": ["Verif.Props.C23_split"], "note": ""},
 {"property": "C24", "status": "proved", "theorems": ["Verif.Props.C24_special", "Verif.Props.C24_integers", "Verif.Props.C24_idempotent"], "note": ""},
 {"property": "C25", "status": "partial", "theorems": ["Verif.Props.C25_mulPow2_partial", "Verif.Props.C25_exact_partial", "Verif.Props.C25_mul2", "Verif.Props.C25_special", "Verif.Props.C25_fails"], "note": "Proved for all finite operands and all u32 exponents except subnormal operands with n >= 524287, where the code returns infinity although the result may be finite (C25_fails). mul2 is proved in full."},
 {"property": "C26", "status": "partial", "theorems": ["Verif.Props.C26_divPow2_partial", "Verif.Props.C26_div2_partial", "Verif.Props.C26_special", "Verif.Props.C26_fails_a", "Verif.Props.C26_fails_b"], "note": "False when the biased exponent of the operand equals n (half of the smallest normal number is 0) and for positive operands below 2^-262141 whose quotient lies between half of the smallest subnormal and the smallest subnormal; proved for all other operands and exponents."},
 {"property": "C27", "status": "proved", "theorems": ["Verif.Props.C27_ulp", "Verif.Props.C27_gap", "Verif.Props.C27_next", "Verif.Props.C27_special"], "note": ""},
 {"property": "C28", "status": "proved", "theorems": ["Verif.Props.C28_signed", "Verif.Props.C28_unsigned", "Verif.Props.C28_i128", "Verif.Props.C28_u128", "Verif.Props.C28_u256"], "note": ""},
 {"property": "C29", "status": "proved", "theorems": ["Verif.Props.C29_f32", "Verif.Props.C29_f64"], "note": ""},
 {"property": "C30", "status": "proved", "theorems": ["Verif.Props.C30_encode", "Verif.Props.C30_encode_exact", "Verif.Props.C30_decode", "Verif.Props.C30_overflow_garbage"], "note": "Encoding proved beyond the documented domain: for all 256-bit significands as long as c * 2^t < 2^262144. Larger products give garbage (C30_overflow_garbage), outside the documented domain."},
 {"property": "C31", "status": "proved", "theorems": ["Verif.Props.C31_accessors"], "note": ""},
 {"property": "C32", "status": "proved", "theorems": ["Verif.Props.C32_add_comm", "Verif.Props.C32_mul_comm"], "note": ""},
 {"property": "C33", "status": "proved", "theorems": ["Verif.Props.C33_add_zero", "Verif.Props.C33_add_neg_zero", "Verif.Props.C33_sub_self", "Verif.Props.C33_mul_one", "Verif.Props.C33_div_one", "Verif.Props.C33_div_self", "Verif.Props.C33_neg_add", "Verif.Props.C33_neg_mul", "Verif.Props.C33_neg_div"], "note": "x + (+0) for x = -0 is +0, the equal value, as IEEE requires."},
 {"property": "C34", "status": "proved", "theorems": ["Verif.Props.C34_add_mono", "Verif.Props.C34_sub_mono", "Verif.Props.C34_div_mono", "Verif.Props.C34_mul_mono", "Verif.Props.C34_sqrt_mono"], "note": ""},
 {"property": "C35", "status": "proved", "theorems": ["Verif.Props.C35_sterbenz"], "note": ""},
 {"property": "C36", "status": "proved", "theorems": ["Verif.Props.C36_words", "Verif.Props.C36_add", "Verif.Props.C36_carryingAdd", "Verif.Props.C36_sub", "Verif.Props.C36_incr_decr", "Verif.Props.C36_cmp", "Verif.Props.C36_shift", "Verif.Props.C36_zeros", "Verif.Props.C36_bitops"], "note": "for every width 128*2^n"},
 {"property": "C37", "status": "proved", "theorems": ["Verif.Props.C37_wideningMul", "Verif.Props.C37_carryingMul", "Verif.Props.C37_mul"], "note": "for every width 128*2^n"},
 {"property": "C38", "status": "partial", "theorems": ["Verif.Props.C38_div_u128", "Verif.Props.C38_div_u64", "Verif.Props.C38_div_half", "Verif.Props.C38_div_full_partial", "Verif.Props.C38_counterexample"], "note": "Exact and total for divisors of 64, 128 bits (any dividend width) and for U256 by U128. The full U256 by U256 division is proved exact where it returns, except that the remainder may equal the divisor, and total for dividends below 2^255; the property is false outside: it panics or returns remainder = divisor (counterexamples proved)."},
 {"property": "C39", "status": "proved", "theorems": ["Verif.Props.C39_roundingDivPow2", "Verif.Props.C39_remPow2", "Verif.Props.C39_remPow2_counterexample"], "note": "Rounding shift exact at every width. The helper rem_pow2 is right from 256 bits on; for U128 it is wrong (counterexample), which rounding_div_pow2 does not use."},
 {"property": "C40", "status": "partial", "theorems": ["Verif.Props.C40_roundingDivPow10", "Verif.Props.C40_roundingDiv_partial", "Verif.Props.C40_counterexample"], "note": "Division by powers of ten proved in full. rounding_div is false for odd divisors (counterexample: 4/3 gives 2); proved for even divisors and dividends below half of the range."},
 {"property": "C41", "status": "partial", "theorems": ["Verif.Props.C41_partial", "Verif.Props.C41_from_str", "Verif.Props.C41_number", "Verif.Props.C41_nan", "Verif.Props.C41_inf", "Verif.Props.C41_total", "Verif.Props.C41_counterexample"], "note": "Exact description of the language accepted by the literal parser (FloatRepr::from_str), for strings of any length: no panic, every string of the grammar is accepted, nan / inf / infinity exactly as stated. Missing: strings such as \".\", \".e5\" and \"1e+\" should be rejected and are accepted (proved), so the property is false of the code. C41_from_str lifts this to f256::from_str: it never panics, and is Ok exactly for the accepted strings."},
 {"property": "C42", "status": "partial", "theorems": ["Verif.Props.C42_partial", "Verif.Props.C42_medium_partial", "Verif.Props.C42_short", "Verif.Props.C42_zero_partial", "Verif.Props.C42_counterexample_exact", "Verif.Props.C42_counterexample_tie", "Verif.Props.C42_counterexample_zero", "Verif.Props.C42_counterexample_wrap", "Verif.Props.C42_counterexample_cutoff"], "note": "All paths (fast exact, fast approximate, slow) are modelled. Proved without reservation for values m*10^j with m < 2^237 and |j| <= 102, however written. Up to 77 significant digits and |j| <= 1024: correctly rounded unless the value is at or just above a midpoint. Literals of any length and exponent: correctly rounded unless the value is at or just above (relative distance below 2^-252) a number or a midpoint. Missing: exactly these neighbourhoods, where the code is wrong (2^300 is parsed one ulp too large, long ties go to odd), i32 overflow of exponents, the cutoff for tiny values, the sign of -0; each with a proved counterexample, so the property as stated is false of the code."},
 {"property": "C43", "status": "proved", "theorems": ["Verif.Props.C43_test", "Verif.Props.C43_value", "Verif.Props.C43_words", "Verif.Props.C43_dot", "Verif.Props.C43_dot_value", "Verif.Props.C43_dot_value7"], "note": "All strings and all 2^64 words. Also proved: the test for seven digits around a dot and the removal of the dot."},
 {"property": "C44", "status": "partial", "theorems": ["Verif.Props.C44_display_partial", "Verif.Props.C44_exp_partial", "Verif.Props.C44_wide_display_partial", "Verif.Props.C44_wide_exp_partial", "Verif.Props.C44_total", "Verif.Props.C44_int", "Verif.Props.C44_special", "Verif.Props.C44_counterexample_pow2", "Verif.Props.C44_counterexample_mid", "Verif.Props.C44_counterexample_zero"], "note": "Proved: formatting with {}, {:e} and {:E} never panics, and for every finite number other than zero it writes a decimal literal of the right sign within 1/2 + 2^-260 units in the last place. If that distance is below 1/2 and the number is not a normal power of two, the number is the correct rounding of the literal, and from_str reads it back if the distance is between 2^-15 and 1/2 - 2^-15 units (for subnormals: not below 10^-78979). For normal numbers from 2^-471 to 2^604 which are not powers of two (and without an odd significand whose upper midpoint is a multiple of 5^56) the correct rounding of the literal is always the number itself, and it is read back also from short literals and from those near the number. Infinities and NaNs are read back. False in general: 2^-116, one odd number and -0 are read back as other numbers (proved). Integers below 2^237, powers of two among them, are printed exactly and read back. Missing: other powers of two, and literals close to a midpoint or (outside of the middle range) to the number."},
 {"property": "C45", "status": "partial", "theorems": ["Verif.Props.C45_fixed_partial", "Verif.Props.C45_small", "Verif.Props.C45_large_fraction", "Verif.Props.C45_limit", "Verif.Props.C45_counterexample_int", "Verif.Props.C45_counterexample_fraction"], "note": "Proved: nearest decimal with p places, ties to even, exact layout of the text, for every finite number which is not an integer of 2^237 or above, for all p up to 18, and up to the documented limit 75 if the fraction is at least 2^-83 or FixedClear holds. A precision above 75 panics as documented (C45_limit). False in general: integers of 2^238 and above are printed with the shortest digits only, and below 2^-83 the truncated table gives wrong digits (1.5e-30 with 38 places); both counterexamples are proved. The table crate is not in the repository; it is modelled by the script which generates it."},
 {"property": "C46", "status": "proved", "theorems": ["Verif.Props.C46_log10_pow2", "Verif.Props.C46_log10_pow5", "Verif.Props.C46_log2_pow5", "Verif.Props.C46_floor_log10", "Verif.Props.C46_ceil_log2_pow5_partial", "Verif.Props.C46_ceil_zero"], "note": "floor_log10_pow2 states no domain; proved for |i| <= 4000000, which includes all exponents of f256. In addition floor_log10 is exact on all positive u64. ceil_log2_pow5, derived from the estimates, is exact except for i = 0 (C46_ceil_zero)."},
 {"property": "C47", "status": "proved", "theorems": ["Verif.Props.C47_table"], "note": "The finite table is checked entry by entry in the kernel against 5^i; the value of each entry is then proved as a real number."},
 {"property": "C48", "status": "proved", "theorems": ["Verif.Props.C48_recip", "Verif.Props.C48_special"], "note": ""},
 {"property": "C49", "status": "proved", "theorems": ["Verif.Props.C49_forms"], "note": "Variables are locations of a store; the forwarding macros are modelled form by form. The operators themselves are the functions of the other claims."},
 {"property": "C50", "status": "partial", "theorems": ["Verif.Props.C50_partial", "Verif.Props.C50_counterexample"], "note": "Every operation except % and mul_add returns for all operands (clamp: unless the bounds are in the wrong order, as documented). % and mul_add can panic for finite operands (witnesses proved), so the property is false of the code; the conditions under which they return are proved."},
 {"property": "C51", "status": "proved", "theorems": ["Verif.Props.C51_nan", "Verif.Props.C51_zero", "Verif.Props.C51_sin_odd", "Verif.Props.C51_cos_even", "Verif.Props.C51_sin_cos"], "note": "Special values of sin, cos and tan; sin is odd and cos is even bit for bit; the pair returned by sin_cos has the same symmetry. The oddness of tan is not stated (the property does not ask for it)."},
 {"property": "C52", "status": "partial", "theorems": ["Verif.Props.C52_sin_partial", "Verif.Props.C52_cos", "Verif.Props.C52_sin_absolute", "Verif.Props.C52_sin_small", "Verif.Props.C52_counterexample"], "note": "Proved: cos of every finite number, and sin of every finite number with |x| >= 2^-256, is a finite number at most 1.01 units in the last place from Mathlib's cosine and sine. This covers all ranges of the argument reduction. The sine of every finite number has an absolute error of at most the larger of 1.01 units in the last place and 2^-490 (C52_sin_absolute). Missing: the last 0.01 unit. False for the sine of small arguments: every normal number below 2^-492 gets the sine 2^-492 (proved)."},
 {"property": "C53", "status": "proved", "theorems": ["Verif.Props.C53_nan", "Verif.Props.C53_finite"], "note": "NaN for NaNs, infinities, zeros and every pattern with the sign bit set; finite for all positive finite numbers."},
 {"property": "C54", "status": "partial", "theorems": ["Verif.Props.C54_degrees_partial", "Verif.Props.C54_radians_partial", "Verif.Props.C54_counterexample_degrees", "Verif.Props.C54_counterexample_radians", "Verif.Props.C54_counterexample_special"], "note": "Proved for all inputs from 2^-262147 (to_degrees, up to overflow) resp. 2^-262136 (to_radians, all larger finite numbers): finite, right sign, relative error against Mathlib's pi at most 2^-235 resp. 2^-236. Missing: correct rounding and special values, where the code is wrong: 1.0.to_degrees() is not the nearest number to 180/pi (the scaled constant has 18 wrong bits), 121.0.to_radians() is rounded twice, 0.0.to_degrees() = 2^-233 in a release build, infinities and NaN become finite numbers (all proved)."},
 {"property": "C55", "status": "proved", "theorems": ["Verif.Props.C55_almost_eq", "Verif.Props.C55_special"], "note": "Exact: the comparison is of the exact distance with N ulp, for all finite pairs; false as soon as one operand is infinite or NaN."},
 {"property": "C56", "status": "proved", "theorems": ["Verif.Props.C56_zero", "Verif.Props.C56_one", "Verif.Props.C56_tests", "Verif.Props.C56_radix_ok", "Verif.Props.C56_radix_error", "Verif.Props.C56_radix_value", "Verif.Props.C56_radix_i128"], "note": "zero() + (-0) is +0, which equals -0. The values parsed with radix 10 are those of C42, here for up to 71 digits and for all i128."},
 {"property": "C57", "status": "proved", "theorems": ["Verif.Props.C57_consts"], "note": "All 18 constants, against Mathlib's pi, exp, sqrt and Euler-Mascheroni constant: bounds for pi from a Machin formula, for e from the series, for gamma from the integral of log t exp(-t) (Proofs/EulerGamma.lean), 300 bits each."},
 {"property": "C58", "status": "proved", "theorems": ["Verif.Props.C58_ln", "Verif.Props.C58_log2", "Verif.Props.C58_log10", "Verif.Props.C58_error", "Verif.Props.C58_exact", "Verif.Props.C58_log2_pow", "Verif.Props.C58_log10_pow", "Verif.Props.C58_sign", "Verif.Props.C58_not_nearest"], "note": "The result is the correctly rounded value of a number with relative distance at most 2^-244 from Mathlib's logarithm, so its relative error is at most 2^-237 + 2^-243. All 492 rows of the table are checked against enclosures of the logarithm in the kernel. That the result is not always the nearest number is proved too (C58_not_nearest, 1 + 6*2^-236)."},
 {"property": "C59", "status": "proved", "theorems": ["Verif.Props.C59_sin_cos"], "note": "For every bit pattern sin_cos returns exactly the pair of the results of sin and cos (and panics only if one of them does)."},
 {"property": "C60", "status": "partial", "theorems": ["Verif.Props.C60_tan_partial", "Verif.Props.C60_counterexample"], "note": "Proved for |x| >= 2^-256: tan returns a finite number with a relative error of at most 2.53 * 2^-236. False for small arguments: tan(2^-1000) is computed as 2^-492 (proved)."},
 {"property": "C61", "status": "proved", "theorems": ["Verif.Props.C61_literal"], "note": "Any spelling of the literal; the wrap hypothesis only excludes literals with 2^31 or more characters or exponents of that size."},
 {"property": "C62", "status": "proved", "theorems": ["Verif.Props.C62_atan", "Verif.Props.C62_atan_sharp", "Verif.Props.C62_special", "Verif.Props.C62_range"], "note": "0.67 units in the last place for all finite numbers, 0.51 from 2^-117 on; results of at most FRAC_PI_2 in absolute value; NaN, infinities and zeros as documented."},
 {"property": "C63", "status": "partial", "theorems": ["Verif.Props.C63_atan2_partial", "Verif.Props.C63_special", "Verif.Props.C63_total", "Verif.Props.C63_diagonal_false", "Verif.Props.C63_one_infinite_false", "Verif.Props.C63_underflow_false", "Verif.Props.C63_small", "Verif.Props.C63_small_false"], "note": "Proved: no panic for any operands; 0.51 units in the last place for finite operands with different absolute values, except quotients below 2^-243 in the right half plane; NaN, zeros and two infinities. False in general, with proofs: operands with the same absolute value give \u00b1\u03c0/2 (atan2(1, 1) = \u03c0/2), one infinite operand is treated like two (atan2(1, inf) = \u03c0/4), and small quotients underflow (atan2(2^-500, 1) = 0). Below 2^-243 the quotient loses bits (atan2((1+2^-236)*2^-400, 1) is a whole unit off); the error is then at most one unit in the last place plus 6*2^-492 (C63_small)."},
 {"property": "C64", "status": "partial", "theorems": ["Verif.Props.C64_asin_partial", "Verif.Props.C64_one", "Verif.Props.C64_outside", "Verif.Props.C64_total", "Verif.Props.C64_near_one_false"], "note": "Proved: 0.51 units in the last place for |x| <= 1 - 2^-12 and for |x| = 1; NaN outside of the domain; on the whole domain no panic, an absolute error of at most 2^-131 and a result from -\u03c0/2 to \u03c0/2. One unit in the last place is false close to 1: for 1 - 2^-129 the result is more than 2^38 units off."},
 {"property": "C65", "status": "partial", "theorems": ["Verif.Props.C65_acos_partial", "Verif.Props.C65_one", "Verif.Props.C65_outside", "Verif.Props.C65_total", "Verif.Props.C65_near_one_false"], "note": "Proved: 0.51 units in the last place for -1 + 2^-12 <= x <= 31/32; 0 for 1 and the nearest number to \u03c0 for -1; NaN outside of the domain; on the whole domain no panic, an absolute error of at most 2^-131 and a result from 0 to \u03c0. One unit in the last place is false close to 1: for 1 - 2^-129 the result is more than 2^100 units off."},
 {"property": "C66", "status": "partial", "theorems": ["Verif.Props.C66_display_partial", "Verif.Props.C66_exp_partial", "Verif.Props.C66_exp_prec_partial", "Verif.Props.C66_nan", "Verif.Props.C66_value", "Verif.Props.C66_display_value_partial", "Verif.Props.C66_counterexample_fill", "Verif.Props.C66_counterexample_inf"], "note": "Proved for all options and all numbers but NaN: the text is the plain text with the padding asked for, for {} and {:e}/{:E} with and without precision; with + and 0 a decimal literal stays one with the same value (and denotes the number for the numbers of C44). False: NaN is padded with spaces whatever the fill character, and {:05} of infinity gives 00inf, which cannot be read."},
 {"property": "C67", "status": "proved", "theorems": ["Verif.Props.C67_atan_odd", "Verif.Props.C67_asin_odd"], "note": "Exact equality of the bit patterns, the panics included (there are none, see C62 and C64)."},
 {"property": "C68", "status": "partial", "theorems": ["Verif.Props.C68_sci_partial", "Verif.Props.C68_log_partial", "Verif.Props.C68_chunks_partial", "Verif.Props.C68_counterexample_table", "Verif.Props.C68_limit", "Verif.Props.C68_zero", "Verif.Props.C68_counterexample", "Verif.Props.C68_counterexample_estimate"], "note": "Correctly rounded for numbers from 1 to 2^512, if the estimate of the exponent got from the platform logarithm is good enough (up to p = 10 an error of 10^-12 does); zero and the limit of 75 in full. False below 1 ({:.0e} of 0.25 is 3e-1), and with large p for numbers just below a power of ten (ten times too large, if the logarithm is rounded up). Below 1 (subnormal numbers included) and from 2^512 on: correctly rounded unless the number is a tie or its digits are too close to a cut between chunks for the table; there it is false (the largest number below 10^156 with p = 75 is off in the 43rd digit)."},
 {"property": "C69", "status": "proved", "theorems": ["Verif.Props.C69_fast_two_sum", "Verif.Props.C69_two_sum"], "note": "Both algorithms, for all finite operands, as compositions of the modelled addition and subtraction."},
 {"property": "C70", "status": "proved", "theorems": ["Verif.Props.C70_two_product"], "note": "For all normal factors in the stated range."},
 {"property": "C71", "status": "proved", "theorems": ["Verif.Props.C71_sqrt_square"], "note": "For all numbers whose square is in the normal range."},
 {"property": "C72", "status": "proved", "theorems": ["Verif.Props.C72_sub_zero"], "note": "For all finite operands."},
 {"property": "C73", "status": "proved", "theorems": ["Verif.Props.C73_midpoint"], "note": "For all finite operands with a finite sum."},
 {"property": "C74", "status": "proved", "theorems": ["Verif.Props.C74_add", "Verif.Props.C74_mul", "Verif.Props.C74_div"], "note": "For all finite operands. For the square root see C11_exact."},
 {"property": "C75", "status": "proved", "theorems": ["Verif.Props.C75_int", "Verif.Props.C75_f64_mul"], "note": "For all integers within the limit and all finite f64."},
 {"property": "C76", "status": "proved", "theorems": ["Verif.Props.C76_floor_div"], "note": "For all integers within the limit."},
 {"property": "C77", "status": "proved", "theorems": ["Verif.Props.C77_range"], "note": "For all finite arguments."},
 {"property": "C78", "status": "proved", "theorems": ["Verif.Props.C78_int_text", "Verif.Props.C78_u128", "Verif.Props.C78_i128"], "note": ""},
 {"property": "C79", "status": "proved", "theorems": ["Verif.Props.C79_debug", "Verif.Props.C79_special", "Verif.Props.C79_debug_inj"], "note": ""},
 {"property": "C80", "status": "proved", "theorems": ["Verif.Props.C80_unit"], "note": ""},
 {"property": "C81", "status": "proved", "theorems": ["Verif.Props.C81_directed", "Verif.Props.C81_nearest", "Verif.Props.C81_order"], "note": "Holds for round_tie_even although it does not always give the nearest integer (C22)."},
 {"property": "C82", "status": "proved", "theorems": ["Verif.Props.C82_pythagoras"], "note": "Holds for all finite arguments although the relative error of the sine of tiny arguments is not bounded (C52)."},
 {"property": "C83", "status": "proved", "theorems": ["Verif.Props.C83_sign", "Verif.Props.C83_order"], "note": ""},
 {"property": "C84", "status": "proved", "theorems": ["Verif.Props.C84_total", "Verif.Props.C84_sticky", "Verif.Props.C84_error", "Verif.Props.C84_finite"], "note": ""},
 {"property": "C85", "status": "proved", "theorems": ["Verif.Props.C85_product", "Verif.Props.C85_power"], "note": ""},
 {"property": "C86", "status": "proved", "theorems": ["Verif.Props.C86_total", "Verif.Props.C86_sticky", "Verif.Props.C86_error"], "note": ""},
 {"property": "C87", "status": "proved", "theorems": ["Verif.Props.C87_compensated"], "note": ""},
 {"property": "C88", "status": "proved", "theorems": ["Verif.Props.C88_total", "Verif.Props.C88_dot", "Verif.Props.C88_norm"], "note": ""},
 {"property": "C89", "status": "partial", "theorems": ["Verif.Props.C89_fast_sum", "Verif.Props.C89_fast_mul", "Verif.Props.C89_sum_partial", "Verif.Props.C89_sum_exact", "Verif.Props.C89_counterexample"], "note": "Proved for fast_sum and fast_mul. False for sum, which returns the remainder -1 for 1 + 1, and -a for every exact sum a + b (proved); its first result is the rounded sum. The functions are internal and not used at present."},
 {"property": "C90", "status": "proved", "theorems": ["Verif.Props.C90_strict", "Verif.Props.C90_bisection"], "note": ""},
 {"property": "C91", "status": "proved", "theorems": ["Verif.Props.C91_add", "Verif.Props.C91_sub", "Verif.Props.C91_div", "Verif.Props.C91_sqrt", "Verif.Props.C91_mul"], "note": ""},
 {"property": "C92", "status": "proved", "theorems": ["Verif.Props.C92_absorb", "Verif.Props.C92_stagnation", "Verif.Props.C92_count"], "note": ""},
 {"property": "C93", "status": "partial", "theorems": ["Verif.Props.C93_max_partial", "Verif.Props.C93_min_partial", "Verif.Props.C93_counterexample"], "note": "Same cause as C13 and C15: two negative numbers are compared the wrong way round (witnesses proved). Proved for max if any element is positive, whatever the others are, and for min if no sign bit is set."},
 {"property": "C94", "status": "partial", "theorems": ["Verif.Props.C94_sort", "Verif.Props.C94_ascending_partial", "Verif.Props.C94_negatives", "Verif.Props.C94_counterexample"], "note": "Same cause as C14: existence and uniqueness of the sorted list are proved in full; the order of values is proved except for pairs of negative numbers, which are proved to be in descending order (witness proved)."},
 {"property": "C95", "status": "proved", "theorems": ["Verif.Props.C95_add_sub", "Verif.Props.C95_mul_div", "Verif.Props.C95_sqrt"], "note": ""},
 {"property": "C96", "status": "proved", "theorems": ["Verif.Props.C96_sum", "Verif.Props.C96_bound", "Verif.Props.C96_horner", "Verif.Props.C96_dot"], "note": ""},
 {"property": "C97", "status": "proved", "theorems": ["Verif.Props.C97_exact", "Verif.Props.C97_order"], "note": ""},
 {"property": "C98", "status": "proved", "theorems": ["Verif.Props.C98_total", "Verif.Props.C98_error"], "note": ""}
]}
