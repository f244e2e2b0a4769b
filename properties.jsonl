{"id": "C01", "title": "Addition is correctly rounded", "statement": "For finite x and y, x + y is the f256 value nearest to the exact real sum, ties to the even last bit, and is ±infinity exactly when the exact sum rounds past the largest finite value; the call never panics.", "quantifier": "all pairs of finite f256 bit patterns (zeros, subnormals, normals, both signs)", "why_tests_cant": "2^512 operand pairs; rounding, carry and cancellation bugs hide in measure-zero alignments (ties, sticky bits, exponent boundaries) that sampling does not hit.", "anchors": ["src/binops/add.rs: add, add_or_sub_subnormals, add_or_sub_normals_exact, add_or_sub_rounded", "src/lib.rs: f256"]}
{"id": "C02", "title": "Subtraction is correctly rounded", "statement": "For finite x and y, x - y is the f256 value nearest to the exact real difference, ties to even, and equals x + (-y) bit for bit.", "quantifier": "all pairs of finite f256 bit patterns", "why_tests_cant": "2^512 operand pairs; rounding, carry and cancellation bugs hide in measure-zero alignments (ties, sticky bits, exponent boundaries) that sampling does not hit.", "anchors": ["src/binops/add.rs: Sub for f256", "src/lib.rs: negated"]}
{"id": "C03", "title": "Special operands and zero signs of addition", "statement": "NaN operands give NaN; inf + (-inf) gives NaN; inf + finite gives that inf; an exactly zero sum is +0 unless both operands are -0.", "quantifier": "all pairs of f256 bit patterns with at least one non-finite operand or a zero sum", "why_tests_cant": "2^237 NaN patterns and all infinite/finite pairs must take the right branch.", "anchors": ["src/binops/add.rs: add"]}
{"id": "C04", "title": "Multiplication is correctly rounded", "statement": "For finite x and y, x * y is the f256 value nearest to the exact product, ties to even, with sign the xor of the operand signs; the call never panics.", "quantifier": "all pairs of finite f256 bit patterns", "why_tests_cant": "2^512 operand pairs; rounding, carry and cancellation bugs hide in measure-zero alignments (ties, sticky bits, exponent boundaries) that sampling does not hit.", "anchors": ["src/binops/mul.rs: mul_signifs, mul_abs_finite, mul"]}
{"id": "C05", "title": "Special operands of multiplication", "statement": "NaN operands give NaN, inf * 0 gives NaN, inf * nonzero gives inf with the xor sign, 0 * finite gives a zero with the xor sign.", "quantifier": "all pairs of f256 bit patterns with a special operand", "why_tests_cant": "2^237 NaN patterns combined with every other operand.", "anchors": ["src/binops/mul.rs: mul"]}
{"id": "C06", "title": "Division is correctly rounded", "statement": "For finite x and finite nonzero y, x / y is the f256 value nearest to the exact quotient, ties to even, with the xor sign; the call never panics.", "quantifier": "all pairs of finite f256 bit patterns with nonzero divisor", "why_tests_cant": "2^512 operand pairs; rounding, carry and cancellation bugs hide in measure-zero alignments (ties, sticky bits, exponent boundaries) that sampling does not hit.", "anchors": ["src/binops/div.rs: div_signifs, div"]}
{"id": "C07", "title": "Special operands of division", "statement": "NaN operands give NaN; 0/0 and inf/inf give NaN; finite/0 gives inf; inf/finite gives inf; finite/inf gives zero; signs are the xor of the operand signs.", "quantifier": "all pairs of f256 bit patterns with a special operand", "why_tests_cant": "2^237 NaN patterns combined with every other operand.", "anchors": ["src/binops/div.rs: div"]}
{"id": "C08", "title": "Remainder is exact", "statement": "For finite x and finite nonzero y, x % y equals x - y*trunc(x/y) exactly, is smaller in magnitude than y and has the sign of x; the call never panics.", "quantifier": "all pairs of finite f256 bit patterns with nonzero divisor", "why_tests_cant": "Exponent gaps up to 524k make the modular exponentiation path arbitrarily long; exact-multiple cases are rare.", "anchors": ["src/binops/rem.rs: rem", "src/big_uint/uint_generic/binops/divrem.rs: div_rem"]}
{"id": "C09", "title": "Fused multiply-add rounds once", "statement": "For finite x, y, z, x.mul_add(y, z) is the f256 value nearest to the exact real x*y+z, ties to even.", "quantifier": "all triples of finite f256 bit patterns", "why_tests_cant": "2^768 triples; cancellation and subnormal alignment cases are rare.", "anchors": ["src/fused_ops/fma.rs: fma, u768", "src/lib.rs: mul_add"]}
{"id": "C10", "title": "Sum of squares rounds once", "statement": "For finite x and y, x.sum_of_squares(y) is the f256 value nearest to the exact real x^2+y^2, ties to even; square() equals x * x.", "quantifier": "all pairs of finite f256 bit patterns", "why_tests_cant": "2^512 operand pairs; rounding, carry and cancellation bugs hide in measure-zero alignments (ties, sticky bits, exponent boundaries) that sampling does not hit.", "anchors": ["src/fused_ops/sos.rs: sos", "src/lib.rs: sum_of_squares, square, square_add"]}
{"id": "C11", "title": "Square root is correctly rounded", "statement": "For every finite non-negative x, x.sqrt() is the f256 value nearest to the exact real square root, ties to even; sqrt of a negative nonzero number or NaN is NaN, sqrt(+-0) = +-0, sqrt(inf) = inf.", "quantifier": "all f256 bit patterns", "why_tests_cant": "2^256 inputs; digit-recurrence loop of 237 steps and odd/even exponents.", "anchors": ["src/math/sqrt.rs: sqrt"]}
{"id": "C12", "title": "Equality is IEEE equality", "statement": "x == y holds exactly when neither is NaN and both denote the same extended real value; in particular +0 == -0, NaN != NaN, and == is symmetric and transitive.", "quantifier": "all pairs (and triples) of f256 bit patterns", "why_tests_cant": "Every pair of bit patterns must be compared.", "anchors": ["src/binops/cmp.rs: eq"]}
{"id": "C13", "title": "Ordering follows the real order", "statement": "partial_cmp is None exactly when an operand is NaN, and otherwise is the order of the denoted extended real values; <, <=, >, >= agree with it.", "quantifier": "all pairs of f256 bit patterns", "why_tests_cant": "2^512 pairs; each sign combination is a quarter of all inputs.", "anchors": ["src/binops/cmp.rs: partial_cmp", "src/lib.rs: total_cmp"]}
{"id": "C14", "title": "total_cmp is the IEEE totalOrder", "statement": "total_cmp is a total order (reflexive, antisymmetric on bit patterns, transitive, total) and orders -NaN < -inf < negatives < -0 < +0 < positives < inf < NaN, consistently with the real values.", "quantifier": "all pairs and triples of f256 bit patterns", "why_tests_cant": "A law over triples of 2^256 patterns.", "anchors": ["src/lib.rs: total_cmp"]}
{"id": "C15", "title": "min and max return the smaller / larger operand", "statement": "If neither operand is NaN, x.min(y) and x.max(y) return one of the operands whose value is the minimum/maximum; if exactly one is NaN the other operand is returned.", "quantifier": "all pairs of f256 bit patterns", "why_tests_cant": "2^512 pairs.", "anchors": ["src/lib.rs: max, min"]}
{"id": "C16", "title": "clamp restricts to the interval", "statement": "For lo <= hi, x.clamp(lo, hi) is lo if x < lo, hi if x > hi, else x; NaN stays NaN; it panics exactly when not lo <= hi.", "quantifier": "all triples of f256 bit patterns", "why_tests_cant": "2^768 triples.", "anchors": ["src/lib.rs: clamp"]}
{"id": "C17", "title": "Classification partitions the bit patterns", "statement": "Every bit pattern is exactly one of NaN, infinite, zero, subnormal, normal; is_nan, is_infinite, is_finite, eq_zero, is_subnormal, is_normal, is_special and classify all agree with the IEEE encoding.", "quantifier": "all f256 bit patterns", "why_tests_cant": "2^256 patterns including 2^237 NaN payloads.", "anchors": ["src/lib.rs: is_nan, is_infinite, is_finite, is_subnormal, is_normal, classify, eq_zero, is_special"]}
{"id": "C18", "title": "Negation and abs only touch the sign", "statement": "-x flips the sign bit and nothing else, abs clears it and nothing else; so -(-x) = x bit for bit, the value is negated / its absolute value, and is_sign_negative/positive report the sign bit.", "quantifier": "all f256 bit patterns", "why_tests_cant": "Must hold for every pattern including NaNs and zeros.", "anchors": ["src/lib.rs: abs, negated, is_sign_positive, is_sign_negative", "src/binops/mod.rs: Neg"]}
{"id": "C19", "title": "Bit and byte encodings round-trip", "statement": "from_bits(to_bits(x)) = x and from_xx_bytes(to_xx_bytes(x)) = x for big, little and native endian, every (u128,u128) pair / 32-byte array is accepted, and the little-endian array is the reverse of the big-endian one, which lists the bits from sign to last fraction bit.", "quantifier": "all f256 bit patterns and all 32-byte arrays", "why_tests_cant": "2^256 patterns.", "anchors": ["src/lib.rs: to_bits, from_bits, to_be_bytes, to_le_bytes, to_ne_bytes, from_be_bytes, from_le_bytes, from_ne_bytes"]}
{"id": "C20", "title": "trunc, floor and ceil are exact", "statement": "For finite x: trunc(x), floor(x), ceil(x) are integers equal to the real truncation, floor and ceiling of x, without rounding error.", "quantifier": "all finite f256 bit patterns", "why_tests_cant": "Every exponent/fraction alignment, including carries into the next binade.", "anchors": ["src/lib.rs: trunc, floor, ceil"]}
{"id": "C21", "title": "round rounds half away from zero", "statement": "For finite x, x.round() is the nearest integer, ties away from zero, exactly.", "quantifier": "all finite f256 bit patterns", "why_tests_cant": "Ties and carries at every exponent.", "anchors": ["src/lib.rs: round, nearest_integral"]}
{"id": "C22", "title": "round_tie_even rounds half to even", "statement": "For finite x, x.round_tie_even() is the nearest integer, ties to even, exactly.", "quantifier": "all finite f256 bit patterns", "why_tests_cant": "Ties and neighbours of ties at every exponent.", "anchors": ["src/lib.rs: round_tie_even, nearest_integral"]}
{"id": "C23", "title": "split / fract decompose exactly", "statement": "For finite x, trunc(x) + fract(x) equals x exactly as real numbers, |fract(x)| < 1, fract(x) has the sign of x or is zero, and split returns the same pair.", "quantifier": "all finite f256 bit patterns", "why_tests_cant": "Exactness for every alignment.", "anchors": ["src/lib.rs: fract, split"]}
{"id": "C24", "title": "Integer-preserving on special values", "statement": "trunc, floor, ceil, round, round_tie_even return NaN for NaN, and return infinities and integers unchanged in value; their results are idempotent.", "quantifier": "all f256 bit patterns", "why_tests_cant": "2^256 patterns.", "anchors": ["src/lib.rs: trunc, floor, ceil, round, round_tie_even"]}
{"id": "C25", "title": "Scaling up by powers of two", "statement": "x.mul_pow2(n) is the correctly rounded value of x * 2^n (exact unless it overflows to infinity), for every n; mul2 is mul_pow2(1).", "quantifier": "all finite f256 bit patterns and all u32 exponents", "why_tests_cant": "Subnormal-to-normal transitions and overflow thresholds for every n.", "anchors": ["src/lib.rs: mul2, mul_pow2"]}
{"id": "C26", "title": "Scaling down by powers of two", "statement": "x.div_pow2(n) is the correctly rounded value of x / 2^n for every n; div2 is div_pow2(1).", "quantifier": "all finite f256 bit patterns and all u32 exponents", "why_tests_cant": "Normal-to-subnormal transitions with rounding for every n.", "anchors": ["src/lib.rs: div2, div_pow2"]}
{"id": "C27", "title": "ulp is the local spacing", "statement": "For finite x, x.ulp() is positive and equals the distance between x and the next f256 number of larger magnitude in the same binade (the weight of the last significand bit); NaN and infinities give NaN.", "quantifier": "all f256 bit patterns", "why_tests_cant": "Every exponent including the subnormal boundary.", "anchors": ["src/lib.rs: ulp"]}
{"id": "C28", "title": "Integers convert exactly", "statement": "f256::from(i) denotes exactly the integer i for every i8..i128 and u8..u128.", "quantifier": "all values of all primitive integer types up to 128 bits", "why_tests_cant": "2^128 values per type.", "anchors": ["src/conv/from_int.rs: From impls, from_i64, from_i128, from_u64, from_u128"]}
{"id": "C29", "title": "f32 and f64 convert exactly", "statement": "f256::from(x) denotes exactly the same value as the f32/f64 x, keeps signs of zeros and infinities, and maps NaN to NaN.", "quantifier": "all 2^32 f32 and 2^64 f64 bit patterns", "why_tests_cant": "2^64 patterns.", "anchors": ["src/conv/from_float.rs: from"]}
{"id": "C30", "title": "Encoding and decoding are inverse", "statement": "from_sign_exp_signif(s, t, c) denotes (-1)^s * c * 2^t exactly when that is representable and else the nearest value; as_sign_exp_signif of a finite x returns a triple denoting x, with odd or zero c, and re-encoding it gives x back.", "quantifier": "all signs, all exponents t and significands c of the documented domain (t >= -262378, c < 2^237, t <= 261907), moreover all 256-bit c with c * 2^t < 2^262144; all finite f256", "why_tests_cant": "Every significand width and the subnormal boundary.", "anchors": ["src/lib.rs: encode, decode, from_sign_exp_signif, as_sign_exp_signif"]}
{"id": "C31", "title": "Field accessors agree with the value", "statement": "For finite nonzero x: value = (-1)^sign * integral_significand * 2^quantum_exponent = (-1)^sign * significand * 2^exponent.", "quantifier": "all finite f256 bit patterns", "why_tests_cant": "2^256 patterns.", "anchors": ["src/lib.rs: sign, exponent, quantum_exponent, significand, integral_significand"]}
{"id": "C32", "title": "Addition and multiplication commute", "statement": "x + y and y + x (and x * y and y * x) are the same bit pattern whenever the result is not NaN, and NaN together.", "quantifier": "all pairs of f256 bit patterns", "why_tests_cant": "2^512 operand pairs; rounding, carry and cancellation bugs hide in measure-zero alignments (ties, sticky bits, exponent boundaries) that sampling does not hit.", "anchors": ["src/binops/add.rs: add", "src/binops/mul.rs: mul"]}
{"id": "C33", "title": "Algebraic identities", "statement": "x + 0 = x, x - x = +0, x * 1 = x, x / 1 = x, x / x = 1 for finite (nonzero where needed) x; negation distributes over addition, multiplication and division up to the sign of an exact zero sum.", "quantifier": "all finite f256 bit patterns / pairs", "why_tests_cant": "Law over all inputs.", "anchors": ["src/binops/add.rs", "src/binops/mul.rs", "src/binops/div.rs"]}
{"id": "C34", "title": "Arithmetic is monotone", "statement": "If x <= y then x + z <= y + z, x * z <= y * z for z >= 0, and sqrt x <= sqrt y (as real values of the results, for non-overflowing finite cases and saturating to infinity otherwise).", "quantifier": "all triples of finite f256 bit patterns", "why_tests_cant": "Relates pairs of computations over 2^768 triples.", "anchors": ["src/binops/add.rs", "src/binops/mul.rs", "src/math/sqrt.rs"]}
{"id": "C35", "title": "Exact subtraction of nearby values", "statement": "If y/2 <= x <= 2y (Sterbenz) then x - y is exact.", "quantifier": "all pairs of positive finite f256 values within a factor of two", "why_tests_cant": "2^490 pairs.", "anchors": ["src/binops/add.rs"]}
{"id": "C36", "title": "Wide integer addition, subtraction and shifts are exact", "statement": "The 256/512/1024-bit integers the type is built on add, subtract and shift exactly modulo 2^width, report overflow exactly when it occurs, compare as numbers and count leading/trailing zeros exactly, at every width.", "quantifier": "all operand pairs, all shift counts below the width, all nesting depths of the generic integer", "why_tests_cant": "2^512..2^2048 operand pairs.", "anchors": ["src/big_uint/uint_generic/mod.rs", "src/big_uint/uint_generic/binops/add.rs, sub.rs, shl.rs, shr.rs", "src/big_uint/uint128.rs"]}
{"id": "C37", "title": "Wide integer multiplication is exact", "statement": "The double-width product of two wide integers equals the mathematical product for every pair, at every width.", "quantifier": "all operand pairs, all nesting depths", "why_tests_cant": "Carry chains across limbs.", "anchors": ["src/big_uint/uint128.rs: widening_mul", "src/big_uint/uint_generic/mod.rs: widening_mul", "src/big_uint/uint_generic/binops/mul.rs"]}
{"id": "C38", "title": "Wide integer division is exact", "statement": "Dividing a wide integer by a nonzero integer returns q and r with n = q*d + r and r < d, and never panics.", "quantifier": "all dividends and nonzero divisors, for each divisor width", "why_tests_cant": "Quotient-estimate correction steps are hit by rare operands.", "anchors": ["src/big_uint/uint_generic/mod.rs: div_rem_subuint_special", "src/big_uint/uint_generic/binops/divrem.rs", "src/big_uint/uint128.rs"]}
{"id": "C39", "title": "Rounding division by powers of two", "statement": "Rounding right shift of a wide integer returns the nearest integer to n/2^k, ties to even.", "quantifier": "all wide integers and all shift counts", "why_tests_cant": "2^256 values times 255 shifts.", "anchors": ["src/big_uint/uint_generic/mod.rs: rounding_div_pow2, rem_pow2", "src/big_uint/uint128.rs"]}
{"id": "C40", "title": "Rounding division", "statement": "Rounding division of wide integers returns the nearest integer to n/d, ties to even, for every nonzero d.", "quantifier": "all dividends and nonzero divisors", "why_tests_cant": "Odd divisors near half are rare in tests.", "anchors": ["src/big_uint/uint_generic/mod.rs: rounding_div", "src/big_uint/uint128.rs: rounding_div"]}
{"id": "C41", "title": "Parsing accepts exactly the literal grammar", "statement": "from_str succeeds exactly on strings of the form [+-] (digits[.[digits]] | .digits) [(e|E)[+-]digits], or [+-] inf / infinity / nan (case-insensitive), and is an error on every other string; it never panics.", "quantifier": "all byte strings of any length", "why_tests_cant": "Infinite input space.", "anchors": ["src/conv/from_str/mod.rs", "src/conv/from_str/float_repr.rs", "src/conv/from_str/common.rs"]}
{"id": "C42", "title": "Parsing is correctly rounded", "statement": "Parsing a decimal literal returns the f256 nearest to the exact decimal value, ties to even, with the sign of the literal (also for zero).", "quantifier": "all decimal literals of any length", "why_tests_cant": "Infinite input space; halfway literals.", "anchors": ["src/conv/from_str/mod.rs", "src/conv/from_str/fast_exact.rs", "src/conv/from_str/fast_approx.rs", "src/conv/from_str/slow_exact.rs"]}
{"id": "C43", "title": "Eight-digit chunk parsing", "statement": "The word-parallel digit test accepts a chunk of 8 bytes exactly when all are ASCII digits, and the word-parallel conversion of such a chunk returns its decimal value, so digit strings are read exactly.", "quantifier": "all 2^64 chunks; all digit strings", "why_tests_cant": "2^64 chunks; carries across byte lanes.", "anchors": ["src/conv/from_str/common.rs: chunk_contains_8_digits, chunk_to_u64"]}
{"id": "C44", "title": "Formatting shortest digits round-trips", "statement": "Formatting a finite x with {} / {:e} and parsing the result gives x back bit for bit.", "quantifier": "all finite f256 bit patterns", "why_tests_cant": "2^256 values.", "anchors": ["src/conv/to_str/dec_repr.rs", "src/conv/from_str/mod.rs"]}
{"id": "C45", "title": "Fixed precision formatting is correctly rounded", "statement": "Formatting with precision p prints the decimal with p digits nearest to x, ties to even.", "quantifier": "all finite f256, all precisions", "why_tests_cant": "2^256 values times unbounded precisions.", "anchors": ["src/conv/to_str/to_fixed_prec.rs"]}
{"id": "C46", "title": "Decimal-exponent estimates are exact", "statement": "The integer approximations of floor(log10(2^i)), floor(log10(5^i)) and floor(log2(5^i)) used for formatting are exact on their documented domains.", "quantifier": "every i in the documented domain of each helper", "why_tests_cant": "Tens of thousands of i, each a comparison of numbers with up to hundreds of thousands of bits.", "anchors": ["src/conv/to_str/common.rs: floor_log10_pow2", "src/conv/to_str/dec_repr.rs: floor_log10_pow5, floor_log2_pow5"]}
{"id": "C47", "title": "Power-of-five table is exact", "statement": "Every entry of the table of powers of five used for exact parsing is exactly 5^i.", "quantifier": "all table indices", "why_tests_cant": "Needs exact big-number evaluation of each entry.", "anchors": ["src/conv/from_str/fast_exact.rs: POWERS_OF_FIVE"]}
{"id": "C48", "title": "Reciprocal", "statement": "x.recip() is 1 / x correctly rounded for finite nonzero x, with 1/+-0 = +-inf and 1/+-inf = +-0.", "quantifier": "all f256 bit patterns", "why_tests_cant": "2^256 inputs.", "anchors": ["src/lib.rs: recip"]}
{"id": "C49", "title": "Operator forms agree", "statement": "a op b, a op &b, &a op b, &a op &b and a op= b give the same bits for +, -, *, /, %.", "quantifier": "all pairs of f256 bit patterns and all forms", "why_tests_cant": "2^512 pairs times 5 forms.", "anchors": ["src/binops/mod.rs: forward_ref_binop, forward_op_assign"]}
{"id": "C50", "title": "Arithmetic never panics", "statement": "+, -, *, /, %, mul_add, sum_of_squares, sqrt, comparisons, rounding and scaling terminate without panic for every bit pattern.", "quantifier": "all f256 bit patterns in every operand position", "why_tests_cant": "A single bad pattern out of 2^512 suffices to crash.", "anchors": ["src/binops/*.rs", "src/fused_ops/*.rs", "src/math/sqrt.rs", "src/lib.rs"]}
{"id": "C51", "title": "Trigonometric functions on special values and symmetry", "statement": "sin, cos, tan of NaN and infinities are NaN; sin(0) = tan(0) = 0 and cos(0) = 1; sin(-x) = -sin(x) and cos(-x) = cos(x) bit for bit for every nonzero finite x.", "quantifier": "all f256 bit patterns", "why_tests_cant": "2^256 inputs.", "anchors": ["src/math/circular_fns/sin.rs, cos.rs, tan.rs, sin_cos.rs"]}
{"id": "C52", "title": "Trigonometric functions are accurate", "statement": "sin and cos of finite x are within one ulp of the exact value.", "quantifier": "all finite f256 bit patterns", "why_tests_cant": "Transcendental accuracy over 2^256 inputs.", "anchors": ["src/math/circular_fns"]}
{"id": "C53", "title": "Logarithm domain", "statement": "ln, log2 and log10 return NaN for NaN, infinities, zeros and negatives, and a number for every positive finite x.", "quantifier": "all f256 bit patterns", "why_tests_cant": "2^256 inputs.", "anchors": ["src/math/log.rs"]}
{"id": "C54", "title": "Degrees and radians conversion", "statement": "x.to_degrees() and x.to_radians() are the correctly rounded product of x and 180/pi resp. pi/180 as rounded constants, special values mapping to special values.", "quantifier": "all f256 bit patterns", "why_tests_cant": "2^256 inputs.", "anchors": ["src/lib.rs: to_degrees, to_radians"]}
{"id": "C55", "title": "almost_eq is a tolerance comparison", "statement": "x.almost_eq(y, eps-style bounds) holds exactly when the distance is within the documented bound.", "quantifier": "all f256 pairs", "why_tests_cant": "2^512 pairs.", "anchors": ["src/lib.rs: almost_eq"]}
{"id": "C56", "title": "num_traits view agrees", "statement": "Zero/One/Num implementations: zero() + x = x, one() * x = x, is_zero iff x == 0, is_one iff x == 1; from_str_radix rejects every radix other than 10 and accepts with radix 10 what from_str accepts, with the same value.", "quantifier": "all f256 bit patterns", "why_tests_cant": "2^256 inputs.", "anchors": ["src/num_traits.rs"]}
{"id": "C57", "title": "Mathematical constants are correctly rounded", "statement": "Each published constant (PI, TAU, FRAC_3_PI_2, FRAC_PI_2, FRAC_PI_3, FRAC_PI_4, FRAC_PI_6, FRAC_PI_8, FRAC_1_PI, FRAC_2_PI, SQRT_PI, FRAC_2_SQRT_PI, SQRT_2, FRAC_1_SQRT_2, SQRT_5, PHI, GAMMA, E) is the f256 number nearest to the real number its name stands for.", "quantifier": "all constants of the consts module; the claim compares each with an irrational (or not known rational) real number", "why_tests_cant": "The expected value is a real number with infinitely many digits; a test can only compare with another literal, whose correctness is the very question.", "anchors": ["src/consts.rs"]}
{"id": "C58", "title": "Accuracy of the logarithms", "statement": "For every positive finite x, ln, log2 and log10 return the true logarithm with a relative error only slightly above that of correct rounding; the result is exact whenever the logarithm is representable (ln 1, log2 of powers of two, log10 of powers of ten), and ln x has the sign of x - 1.", "quantifier": "all positive finite f256 numbers", "why_tests_cant": "2^255 inputs, 984 table constants of 512 bits; errors accumulate over 492 steps in a way that depends on the argument.", "anchors": ["src/math/log.rs", "src/math/feynman.rs", "src/math/fp509.rs"]}
{"id": "C59", "title": "sin_cos agrees with sin and cos", "statement": "x.sin_cos() returns the pair (x.sin(), x.cos()), bit for bit.", "quantifier": "all f256 bit patterns", "why_tests_cant": "2^256 inputs; the joint approximation has its own cut-off and its own table of signs.", "anchors": ["src/math/circular_fns/sin_cos.rs", "src/math/circular_fns/approx_sin_cos.rs"]}
{"id": "C60", "title": "The tangent is accurate", "statement": "For every finite x, tan returns a finite number with a relative error of at most 3 * 2^-236, however close x is to a pole.", "quantifier": "all finite f256 bit patterns", "why_tests_cant": "2^256 inputs; the quotient amplifies any error of the reduction near the poles, and which numbers are near a pole is not known to a test.", "anchors": ["src/math/circular_fns/tan.rs", "src/math/circular_fns/sin_cos.rs", "src/binops/div.rs"]}
{"id": "C61", "title": "Short decimal literals survive reading and printing", "statement": "A decimal literal with at most 71 significant digits (f256::DIGITS), a magnitude of at most 10^71 and no digit below 10^-102 is read as a number whose {}, {:e} and {:E} texts denote exactly the value of the literal, and are read as the same number again.", "quantifier": "all strings which are such literals, however they are written", "why_tests_cant": "10^71 significands at each of 174 positions of the decimal point, in arbitrarily many spellings; the interplay of two independent table-driven conversions.", "anchors": ["src/conv/from_str/mod.rs", "src/conv/to_str/mod.rs", "src/conv/to_str/dec_repr.rs", "src/lib.rs"]}
{"id": "C62", "title": "The arc tangent is accurate and stays in its range", "statement": "For every finite x, atan returns a finite number within one unit in the last place of the exact arc tangent, never more than FRAC_PI_2 in absolute value. Infinities give +-FRAC_PI_2, zeros themselves, NaN gives NaN. The call never panics.", "quantifier": "all f256 bit patterns", "why_tests_cant": "2^256 inputs in five code paths; the accuracy rests on a table of 256 constants, a polynomial of degree 65 and on two cut-offs.", "anchors": ["src/math/circular_fns/atan.rs", "src/math/circular_fns/approx_atan.rs", "src/math/fp509.rs", "src/math/big_float.rs"]}
{"id": "C63", "title": "atan2 returns the angle of the point (x, y)", "statement": "For all finite x and y, not both zero, y.atan2(x) is within one unit in the last place of the angle of the point (x, y), in (-π, π]. If both are zero the result is zero, if one operand is NaN the result is NaN, and for infinite operands the result is the limit. The call never panics.", "quantifier": "all pairs of f256 bit patterns", "why_tests_cant": "2^512 pairs of operands in several code paths: which operand is larger, the quadrant, quotients that underflow the fixed point format, equal magnitudes, infinite operands.", "anchors": ["src/math/circular_fns/atan.rs", "src/math/circular_fns/approx_atan.rs", "src/math/big_float.rs"]}
{"id": "C64", "title": "asin is accurate on its domain and NaN outside of it", "statement": "For every x with |x| ≤ 1 the call x.asin() does not panic and yields a number within one unit in the last place of the arc sine of x, in the range from -π/2 to π/2. For NaN, infinite operands and |x| > 1 the result is NaN.", "quantifier": "all f256 bit patterns", "why_tests_cant": "2^256 operands; the argument x/√(1-x²) suffers from cancellation that depends on how close x is to 1, and the tests compare a handful of operands.", "anchors": ["src/math/circular_fns/asin_acos.rs", "src/math/circular_fns/approx_atan.rs", "src/math/big_float.rs", "src/math/fp509.rs"]}
{"id": "C65", "title": "acos is accurate on its domain and NaN outside of it", "statement": "For every x with |x| ≤ 1 the call x.acos() does not panic and yields a number within one unit in the last place of the arc cosine of x, in the range from 0 to π. For NaN, infinite operands and |x| > 1 the result is NaN.", "quantifier": "all f256 bit patterns", "why_tests_cant": "2^256 operands; close to 1 the result is close to zero, so that an absolute error that is harmless elsewhere affects half of the digits.", "anchors": ["src/math/circular_fns/asin_acos.rs", "src/math/circular_fns/approx_atan.rs", "src/math/big_float.rs", "src/math/fp509.rs"]}
{"id": "C66", "title": "Width, fill, alignment and flags only add padding", "statement": "Formatting with {}, {:.p}, {:e} or {:E} and any width, fill character, alignment, + and 0 flag writes the sign and the digits of the text without these options, padded to at least the given number of characters: with the fill character in front (by default and for >), behind (<) or evenly on both sides (^); with the 0 flag by zeros between sign and digits. The flags + and 0 do not change the number denoted, and the text can still be read.", "quantifier": "all f256 bit patterns, all combinations of options, all widths", "why_tests_cant": "The options multiply with 2^256 values and unbounded widths, and different code (the crate's own padding, pad_integral, format!) handles ordinary numbers, zeros and infinities, and NaNs.", "anchors": ["src/conv/to_str/mod.rs", "src/conv/to_str/formatted.rs", "src/conv/to_str/dec_repr.rs"]}
{"id": "C67", "title": "The arc tangent and the arc sine are odd", "statement": "atan(-x) is atan(x) with the sign changed, bit for bit, for every f256 but NaN (the zeros and the infinities included), and asin(-x) is asin(x) with the sign changed for every x from -1 to 1.", "quantifier": "all f256 bit patterns that are not NaN (atan); all f256 from -1 to 1 (asin)", "why_tests_cant": "The sign is handled in different places on each of the paths (fixed point in two's complement, floating point with a sign of its own, constants with the sign set), and rounding in two's complement need not be symmetric; no sample shows that all 2^255 pairs agree.", "anchors": ["src/math/circular_fns/atan.rs", "src/math/circular_fns/approx_atan.rs", "src/math/circular_fns/asin_acos.rs", "src/math/big_float.rs", "src/math/fp509.rs"]}
{"id": "C68", "title": "Scientific notation with a precision is correctly rounded", "statement": "Formatting a finite f256 other than zero with {:.pe} or {:.pE}, p up to 75, writes one digit other than 0, then, if p is not 0, a point and p digits, then the letter and the decimal exponent; the number written is the one with p + 1 significant digits nearest to the value, ties to even, and has its sign. Zero is written with p zeroes and exponent 0. Any p above 75 panics for numbers other than zero and does not for zeroes, infinities and NaN.", "quantifier": "all f256 bit patterns, all precisions", "why_tests_cant": "There are five different paths with tables of hundreds of segments, an estimated exponent computed in f64, and carries that may lengthen the number; wrong digits occur only near ties and near powers of ten, at particular combinations of the 2^256 values with 76 precisions.", "anchors": ["src/conv/to_str/to_fixed_prec.rs", "src/conv/to_str/mod.rs", "src/conv/to_str/common.rs"]}
{"id": "C69", "title": "The rounding error of a sum can be recovered exactly", "statement": "For finite f256 a, b whose sum s = a + b does not overflow: if |b| <= |a|, then t = b - (s - a) satisfies s + t = a + b exactly (Fast2Sum). Whatever the magnitudes, with v = s - a (also finite) t = (a - (s - v)) + (b - v) satisfies s + t = a + b exactly (2Sum).", "quantifier": "all pairs of finite f256, subnormal numbers included", "why_tests_cant": "Compensated summation relies on it for every pair; it needs correct rounding of every intermediate result, and fails only for pairs where one of them is off by a unit or a tie goes the wrong way.", "anchors": ["src/binops/add.rs"]}
{"id": "C70", "title": "Fused multiply-add recovers the rounding error of a product", "statement": "For normal f256 x, y whose product p = x * y does not overflow and is at least 2^-261668 in magnitude, x.mul_add(y, -p) is exactly x*y - p.", "quantifier": "all such pairs", "why_tests_cant": "2^500 pairs; the exact difference has to come out of a subtraction where all leading bits cancel.", "anchors": ["src/fused_ops/fma.rs", "src/binops/mul.rs"]}
{"id": "C71", "title": "The square root of a square is the absolute value", "statement": "(x * x).sqrt() equals x.abs() bit for bit, unless x * x overflows or is below the smallest normal number.", "quantifier": "all finite f256 with a square in the normal range", "why_tests_cant": "Both operations round; that the two errors never add up to another number has to be shown for all 2^254 operands.", "anchors": ["src/math/sqrt.rs", "src/binops/mul.rs"]}
{"id": "C72", "title": "A difference is zero only for equal numbers", "statement": "For finite f256 x, y: x - y is zero exactly if x == y, and otherwise it has the sign of the exact difference. No difference of distinct numbers underflows to zero.", "quantifier": "all pairs of finite f256", "why_tests_cant": "2^508 pairs; the interesting ones are neighbours at every exponent and among the subnormal numbers.", "anchors": ["src/binops/add.rs", "src/binops/cmp.rs"]}
{"id": "C73", "title": "The midpoint lies between its ends", "statement": "For finite f256 a <= b whose sum a + b does not overflow, m = (a + b) / 2 is finite and a <= m <= b, so bisection never leaves its interval.", "quantifier": "all pairs of finite f256 with a finite sum", "why_tests_cant": "The sum and the quotient are rounded separately; a violation would need particular last bits of both.", "anchors": ["src/binops/add.rs", "src/binops/div.rs"]}
{"id": "C74", "title": "Representable results are exact", "statement": "If the exact sum, difference, product or quotient of two finite f256 is itself an f256 number (subnormal ones included), the operation returns exactly this number.", "quantifier": "all pairs of finite f256 whose exact result is representable", "why_tests_cant": "2^500 pairs; in particular products of normal numbers that are subnormal go through a second rounding step which must do nothing.", "anchors": ["src/binops/add.rs", "src/binops/mul.rs", "src/binops/div.rs"]}
{"id": "C75", "title": "Integer arithmetic and products of f64 are exact", "statement": "Sums, differences and products of integers stored in f256 are exact as long as the result is at most 2^237 in magnitude, and so are quotients without remainder. f256::from(a) * f256::from(b) is exactly a*b for all finite f64 a, b.", "quantifier": "all integers within the limit; all 2^128 pairs of f64", "why_tests_cant": "2^128 pairs of f64, 2^237 integers.", "anchors": ["src/binops/add.rs", "src/binops/mul.rs", "src/binops/div.rs", "src/conv/from_float.rs"]}
{"id": "C76", "title": "The floor of a quotient is the integer quotient", "statement": "For integers 0 <= m < 2^237 and n > 0 stored in f256, (m / n).floor() is exactly the integer quotient of m and n: rounding never lifts the quotient to the next integer.", "quantifier": "all such pairs of integers", "why_tests_cant": "Fails only for quotients immediately below an integer if at all; sampling does not hit them.", "anchors": ["src/binops/div.rs", "src/lib.rs: floor"]}
{"id": "C77", "title": "Sine and cosine stay between -1 and 1", "statement": "For every finite x, x.sin() and x.cos() are finite numbers with an absolute value of at most 1, also where the exact value is so close to 1 that an error of one unit would leave the interval.", "quantifier": "all finite f256 bit patterns", "why_tests_cant": "2^256 arguments, all ranges of the argument reduction; a violation needs an argument next to a multiple of pi/2.", "anchors": ["src/math/circular_fns/sin.rs", "src/math/circular_fns/cos.rs", "src/math/circular_fns/approx_cos.rs", "src/math/circular_fns/reduce.rs", "src/math/fp509.rs"]}
{"id": "C78", "title": "Integers are printed with their digits and read back", "statement": "An f256 holding an integer of absolute value below 2^237 is formatted by `{}` as exactly the decimal digits of that integer, without leading zeros, point or exponent, with a leading '-' if it is negative; and parsing that text gives the same f256 bit for bit. In particular this holds for f256::from(n) for every u128 and every i128.", "quantifier": "every f256 holding an integer n with |n| < 2^237 (negative zero excluded), every u128, every i128", "why_tests_cant": "There are more than 2^237 such integers and each takes its own path through the shortest decimal search, the removal of trailing zeros and the chunked output of digits; tests compare a few texts.", "anchors": ["src/conv/to_str/mod.rs", "src/conv/to_str/dec_repr.rs", "src/conv/from_str/mod.rs", "src/conv/from_int.rs"]}
{"id": "C79", "title": "The debug text shows the exact value and identifies the number", "statement": "For a finite f256, `{:?}` writes (s, t, (0xhi, 0xlo)): the sign bit, an exponent in decimal and the two halves of an integral significand as 32 hexadecimal digits each, and the value is exactly (-1)^s * (hi * 2^128 + lo) * 2^t. Infinities and NaNs are written as \"inf\", \"-inf\" and \"NaN\" in quotes. Two numbers that are no NaNs and have the same text are the same bit for bit.", "quantifier": "all f256 bit patterns; for the last part all pairs", "why_tests_cant": "Injectivity is a statement about all pairs of 2^256 patterns; tests compare a few texts.", "anchors": ["src/conv/to_str/mod.rs", "src/lib.rs", "src/big_uint/uint_generic/mod.rs"]}
{"id": "C80", "title": "Dividing a coordinate by the length of its vector gives at most one", "statement": "For finite x and y whose squares and their sum do not overflow, with x*x in the normal range, the length l = (x*x + y*y).sqrt() satisfies |x| <= l, and |x / l| <= 1, in spite of the roundings of the five operations.", "quantifier": "all pairs of finite f256 bit patterns with x*x normal and no overflow", "why_tests_cant": "2^512 pairs; a violation by one unit needs y tiny and a rare combination of roundings.", "anchors": ["src/binops/mul.rs", "src/binops/add.rs", "src/binops/div.rs", "src/math/sqrt.rs"]}
{"id": "C81", "title": "Rounding to integers is monotone", "statement": "If x <= y for finite x and y, then floor, ceil, trunc, round and round_tie_even of x are at most those of y; and floor(x) <= trunc(x) <= ceil(x), floor(x) <= round(x) <= ceil(x).", "quantifier": "all pairs of finite f256 bit patterns", "why_tests_cant": "2^512 pairs; the functions have separate branches for small, large and integral magnitudes, and order could be lost where branches meet.", "anchors": ["src/lib.rs"]}
{"id": "C82", "title": "The squares of sine and cosine add up to one", "statement": "For every finite x, however large or small, sin(x) and cos(x) return finite numbers s and c with |s^2 + c^2 - 1| <= 2^-233 (the squares and the sum being exact).", "quantifier": "all finite f256 bit patterns", "why_tests_cant": "2^256 inputs with a separate reduction for small, medium and large arguments; a wrong octant or a lost bit of 2/pi shows for few of them.", "anchors": ["src/math/circular_fns/sin.rs", "src/math/circular_fns/cos.rs", "src/math/circular_fns/approx_sin.rs", "src/math/circular_fns/approx_cos.rs", "src/math/circular_fns/reduce.rs"]}
{"id": "C83", "title": "Logarithms have the right sign and keep the order", "statement": "For positive finite x, each of ln, log2 and log10 is positive, zero or negative exactly when x is above, equal to or below 1. For positive finite x and y with x * (1 + 2^-214) <= y, each of the three logarithms of x is less than that of y.", "quantifier": "all positive finite f256 numbers, all pairs of them", "why_tests_cant": "2^510 pairs; the order could be lost for single arguments where a digit of the table-driven product is chosen differently.", "anchors": ["src/math/log.rs", "src/math/feynman.rs"]}
{"id": "C84", "title": "The rounding errors of a running sum of any length are bounded", "statement": "Adding up finite numbers in a loop never panics; a finite final result shows that no step overflowed; and it differs from the exact sum by at most (1 + 2^-237)^n - 1 times the sum of the absolute values, for n additions. If that bound rules overflow out, the result is finite.", "quantifier": "all lists of finite f256 numbers, of any length, with any signs and magnitudes including subnormal ones", "why_tests_cant": "Lists of unbounded length over 2^256 values; a single addition with a larger error would invalidate the bound.", "anchors": ["src/binops/add.rs"]}
{"id": "C85", "title": "The rounding errors of running products and powers are bounded", "statement": "A product of n factors, or a power, calculated by repeated multiplication has a relative error of at most (1 + 2^-237)^n - 1 if the result is finite and no step is less than the smallest normal number.", "quantifier": "all lists of finite f256 numbers, of any length, without underflow", "why_tests_cant": "Lists of unbounded length over 2^256 values.", "anchors": ["src/binops/mul.rs"]}
{"id": "C86", "title": "The rounding errors of Horner's scheme are bounded", "statement": "Evaluating a polynomial of degree n by a = a * x + c never panics, and if the result is finite and no product underflows (products equal to zero are allowed), it differs from the exact value of the polynomial by at most (1 + 2^-237)^(2n) - 1 times the value at |x| of the polynomial with the absolute values of the coefficients. A finite result shows that no step overflowed.", "quantifier": "all finite x and lists of finite coefficients, of any length", "why_tests_cant": "Polynomials of unbounded degree over 2^256 values.", "anchors": ["src/binops/mul.rs", "src/binops/add.rs"]}
{"id": "C87", "title": "Compensated summation is as good as summation in twice the precision", "statement": "Summation with the error-free transformation of C69, the rounding errors being added up separately and added at the end, never panics or overflows for up to 2^236 finite numbers whose absolute values add up to at most 2^262141. Its error is at most 2^-237 times the absolute value of the exact sum plus 5 * (n * 2^-237)^2 times the sum of the absolute values.", "quantifier": "all lists of up to 2^236 finite f256 numbers with absolute values adding up to at most 2^262141", "why_tests_cant": "Lists of any length over 2^256 values; a single addition or subtraction that is not correctly rounded would invalidate the result.", "anchors": ["src/binops/add.rs"]}
{"id": "C88", "title": "The rounding errors of scalar products and vector lengths are bounded", "statement": "A scalar product of two vectors of dimension n, calculated by a += x * y, never panics; if the result is finite and no product underflows, it is off by at most (1 + 2^-237)^(n+1) - 1 times the sum of the absolute values of the products. The square root of the scalar product of a vector with itself is then its length with a relative error of at most (1 + 2^-237)^(n+2) - 1. A finite result shows that nothing overflowed.", "quantifier": "all vectors of any dimension with finite components whose products are 0 or not below the smallest normal number", "why_tests_cant": "Vectors of unbounded dimension over 2^256 values.", "anchors": ["src/binops/mul.rs", "src/binops/add.rs", "src/math/sqrt.rs"]}
{"id": "C89", "title": "Sums and products with their remainders", "statement": "fast_sum (for |a| >= |b|), sum and fast_mul return the correctly rounded sum or product together with its exact remainder, so that both results add up to the exact sum or product, unless something overflows or underflows.", "quantifier": "all pairs of finite f256 numbers without overflow (fast_mul: normal factors with a product of at least 2^-261668)", "why_tests_cant": "2^512 pairs; exactness of the remainder depends on the roundings of all steps.", "anchors": ["src/lib.rs:1437-1463"]}
{"id": "C90", "title": "Bisection terminates and finds neighbouring numbers", "statement": "For finite a < b below 2^262142 in magnitude, (a + b) / 2 is strictly between a and b whenever any f256 number is. Thus bisection that stops when the midpoint equals an end terminates for every predicate that is false for a and true for b, and returns two neighbouring numbers, the predicate being false for the first and true for the second.", "quantifier": "all pairs of such numbers, subnormal ones included, and all predicates", "why_tests_cant": "2^511 pairs and arbitrary predicates; a midpoint rounded to an end too early, or a loop without progress, may exist for a few pairs only.", "anchors": ["src/binops/add.rs", "src/binops/div.rs", "src/binops/cmp.rs"]}
{"id": "C91", "title": "The error of an operation is at most half of ulp() of its result", "statement": "If a sum, difference or quotient of finite numbers is finite, it differs from the exact result by at most half of what ulp() returns for it; the same holds of every square root of a finite non-negative number, and of products not below the smallest normal number. Every finite product is within 5/8 ulp().", "quantifier": "all finite operands with a finite result, subnormal results included", "why_tests_cant": "2^512 pairs of operands; ulp() and the operations are separate pieces of code whose agreement at every power of two and in the subnormal range no sample settles.", "anchors": ["src/lib.rs", "src/binops/add.rs", "src/binops/mul.rs", "src/binops/div.rs", "src/math/sqrt.rs"]}
{"id": "C92", "title": "Terms that are too small leave a sum unchanged, and counting is exact up to 2^237", "statement": "Adding a finite number below a quarter of x.ulp() to a finite non-zero x returns x itself, and so does adding any list of such numbers one after the other. A counter that starts at 0 and is incremented n times by 1 has exactly the value n as long as n is at most 2^237, and keeps the value 2^237 from then on.", "quantifier": "all finite x, lists of any length of small terms, all numbers n of increments", "why_tests_cant": "No test can count to 2^237 or try all pairs of a number and a small term; in particular x next to a power of two or the largest finite number.", "anchors": ["src/binops/add.rs", "src/lib.rs"]}
{"id": "C93", "title": "Folding with max and min gives the largest and smallest element", "statement": "Folding a list with max (min), starting with NaN, returns an element of the list that is not NaN and not less (not greater) than any other element that is not NaN, if there is one. Because the code orders negative numbers the wrong way round, this holds of max if there is a positive element, and of min if no sign bit is set; without these conditions it is false.", "quantifier": "lists of any length, with NaNs at any place", "why_tests_cant": "Lists of arbitrary length and content; whether a wrong comparison of two elements spoils the result depends on the order of the list.", "anchors": ["src/lib.rs", "src/binops/cmp.rs"]}
{"id": "C94", "title": "Sorting with total_cmp has one result, in ascending order", "statement": "Every list of f256, NaNs included, can be sorted by total_cmp, and any correct sorting method, stable or not, gives the same list. Numbers are ascending in the result. Because the code orders negative numbers the wrong way round, the last sentence holds only of pairs that are not both negative; the negative numbers come first, in descending order.", "quantifier": "lists of any length and all their permutations", "why_tests_cant": "Sorting is reliable only if the comparison is transitive, total and antisymmetric for all of the 2^768 triples of bit patterns.", "anchors": ["src/lib.rs", "src/binops/cmp.rs"]}
{"id": "C95", "title": "A result minus and plus its ulp() encloses the exact result", "statement": "If the result z of +, -, *, / or sqrt for finite operands is finite, then the computed numbers z - z.ulp() and z + z.ulp() are not NaN, and the exact result lies between them, ends included; an end that overflows is infinite.", "quantifier": "all finite operands with a finite result, subnormal results and the largest finite number included", "why_tests_cant": "2^512 pairs of operands; a bound rounded to the wrong side, or a wrong ulp() next to a power of two, would break the guarantee for a few results only.", "anchors": ["src/lib.rs", "src/binops/add.rs", "src/binops/mul.rs", "src/binops/div.rs", "src/math/sqrt.rs"]}
{"id": "C96", "title": "Sums, scalar products and polynomials are monotone", "statement": "If no term of a running sum decreases, the computed sum does not decrease. A computed sum of non-negative numbers is non-negative and not less than any of its terms. The same monotonicity holds of scalar products with non-negative components and of Horner's scheme with non-negative coefficients at non-negative points, as long as the results are finite.", "quantifier": "lists of any length, in particular products in the subnormal range, which the code does not always round correctly", "why_tests_cant": "Lists of arbitrary length; a single non-monotone rounding in one step would be enough to break it.", "anchors": ["src/binops/add.rs", "src/binops/mul.rs"]}
{"id": "C97", "title": "Sums of fixed-point numbers of any length are exact in any order", "statement": "If all terms of a running sum are multiples of one power of two and the absolute values of the multipliers add up to at most 2^237, the sum is exact. Adding the same terms in any other order gives an equal result.", "quantifier": "lists of any length, all their permutations, all powers of two from the smallest subnormal number up", "why_tests_cant": "Lists of arbitrary length in arbitrary order; floating-point addition is not associative in general.", "anchors": ["src/binops/add.rs"]}
{"id": "C98", "title": "The error of sums with any placement of parentheses is bounded by the depth", "statement": "Adding any number of terms in any order and with any placement of parentheses, such as pairwise or in parallel, never panics. A finite result differs from the exact sum by at most (1 + 2^-237)^d - 1 times the sum of the absolute values, where d is the largest number of additions a term takes part in.", "quantifier": "all expressions built from additions, of any size and shape, and all values of their terms", "why_tests_cant": "Expressions of arbitrary size; the exact sum is not available in f256 to compare with.", "anchors": ["src/binops/add.rs"]}
