{"id": "C01", "title": "fabs clears exactly the sign bit", "statement": "fabs(x) has the sign bit cleared and every other bit equal to x's, so it is |x| for every number, +inf for infinities, and keeps NaN payloads.", "quantifier": "every bit pattern (NaNs with any payload, infinities, both zeros, subnormals, normals) of f16, f32, f64 and f128", "why_tests_cant": "2^64 and 2^128 inputs cannot be enumerated; NaN payloads and signs are rarely sampled.", "anchors": ["libm/src/math/generic/fabs.rs: fabs", "libm/src/math/fabs.rs: fabs, fabsf, fabsf16, fabsf128", "libm/src/math/support/float_traits.rs: Float::abs, SIGN_MASK"]}
{"id": "C02", "title": "copysign takes magnitude from x and sign from y", "statement": "copysign(x, y) has y's sign bit and all of x's other bits, including when either is NaN.", "quantifier": "every pair of bit patterns of each of the four formats", "why_tests_cant": "pairs of 64/128-bit patterns cannot be enumerated.", "anchors": ["libm/src/math/generic/copysign.rs: copysign", "libm/src/math/copysign.rs"]}
{"id": "C03", "title": "trunc is the integer part toward zero", "statement": "For finite x, trunc(x) is exactly the integer nearest to zero-side: |trunc(x)| = floor(|x|), with x's sign bit (so -0.5 gives -0.0); infinities are returned unchanged and NaN gives NaN. No rounding or overflow ever occurs.", "quantifier": "every bit pattern (NaNs with any payload, infinities, both zeros, subnormals, normals) of f16, f32, f64 and f128", "why_tests_cant": "the bit-mask arithmetic depends on the exponent; every exponent/fraction combination must be right.", "anchors": ["libm/src/math/generic/trunc.rs: trunc, trunc_status", "libm/src/math/trunc.rs"]}
{"id": "C04", "title": "floor is the greatest integer not above x", "statement": "For finite x, floor(x) is exactly the greatest integer <= x; zero results keep the sign rules of IEEE 754 (floor(-0.0) = -0.0, floor(0.3) = +0.0); infinities and NaN pass through.", "quantifier": "every bit pattern (NaNs with any payload, infinities, both zeros, subnormals, normals) of f16, f32, f64 and f128", "why_tests_cant": "carries of the mask addition into the exponent field happen for rare inputs only.", "anchors": ["libm/src/math/generic/floor.rs: floor, floor_status", "libm/src/math/floor.rs"]}
{"id": "C05", "title": "ceil is the least integer not below x", "statement": "For finite x, ceil(x) is exactly the least integer >= x; ceil of a number in (-1,0) is -0.0; infinities and NaN pass through.", "quantifier": "every bit pattern (NaNs with any payload, infinities, both zeros, subnormals, normals) of f16, f32, f64 and f128", "why_tests_cant": "as for floor.", "anchors": ["libm/src/math/generic/ceil.rs: ceil, ceil_status", "libm/src/math/ceil.rs"]}
{"id": "C06", "title": "round goes to the nearest integer, ties away from zero", "statement": "For finite x, round(x) is exactly the nearest integer with ties away from zero, keeping the sign of x on zero; infinities and NaN pass through.", "quantifier": "every bit pattern (NaNs with any payload, infinities, both zeros, subnormals, normals) of f16, f32, f64 and f128", "why_tests_cant": "the implementation adds 0.5 - ulp/4 in floating point and truncates; correctness near ties and near 2^SIG_BITS depends on rounding of that addition for every input.", "anchors": ["libm/src/math/generic/round.rs: round", "libm/src/math/round.rs"]}
{"id": "C07", "title": "rint / roundeven go to the nearest integer, ties to even", "statement": "For finite x, rint(x) and roundeven(x) are exactly the nearest integer with ties to even, keeping the sign of x on zero; infinities and NaN pass through.", "quantifier": "every bit pattern (NaNs with any payload, infinities, both zeros, subnormals, normals) of f16, f32, f64 and f128", "why_tests_cant": "the implementation adds and subtracts 1/EPSILON and relies on the FPU's rounding for every input.", "anchors": ["libm/src/math/generic/rint.rs: rint_round", "libm/src/math/rint.rs", "libm/src/math/roundeven.rs"]}
{"id": "C08", "title": "INEXACT status of trunc/floor/ceil", "statement": "The status returned by the status-reporting trunc/floor/ceil is INEXACT exactly when the result differs in value from x, and OK otherwise.", "quantifier": "every bit pattern (NaNs with any payload, infinities, both zeros, subnormals, normals) of f16, f32, f64 and f128", "why_tests_cant": "the flag is derived from masked bits along several branches.", "anchors": ["libm/src/math/generic/trunc.rs: trunc_status", "libm/src/math/generic/floor.rs: floor_status", "libm/src/math/generic/ceil.rs: ceil_status", "libm/src/math/support/env.rs: Status, FpResult"]}
{"id": "C09", "title": "fmin / fmax return the smaller / larger number and ignore NaN", "statement": "If exactly one argument is NaN the other one is returned; if both are NaN the result is NaN; otherwise the result is one of the arguments and is <= (fmin) or >= (fmax) both.", "quantifier": "every pair of bit patterns of each format", "why_tests_cant": "pairs of patterns; mixed NaN/zero cases.", "anchors": ["libm/src/math/generic/fmin.rs: fmin", "libm/src/math/generic/fmax.rs: fmax", "libm/src/math/fmin_fmax.rs"]}
{"id": "C10", "title": "fminimum / fmaximum propagate NaN and order zeros", "statement": "If either argument is NaN the result is NaN; otherwise the result is the smaller / larger argument where -0 < +0.", "quantifier": "every pair of bit patterns of each format", "why_tests_cant": "pairs of patterns; signed zeros and NaN signs interact.", "anchors": ["libm/src/math/generic/fminimum.rs", "libm/src/math/generic/fmaximum.rs", "libm/src/math/fminimum_fmaximum.rs"]}
{"id": "C11", "title": "fminimum_num / fmaximum_num ignore NaN and order zeros", "statement": "If exactly one argument is NaN the other one is returned; otherwise the smaller / larger argument where -0 < +0.", "quantifier": "every pair of bit patterns of each format", "why_tests_cant": "pairs of patterns; signed zeros, NaN signs and payloads interact.", "anchors": ["libm/src/math/generic/fminimum_num.rs", "libm/src/math/generic/fmaximum_num.rs", "libm/src/math/fminimum_fmaximum_num.rs"]}
{"id": "C12", "title": "fdim is the positive difference", "statement": "fdim(x,y) is NaN if either argument is NaN, +0 if x <= y, and the correctly rounded x - y otherwise (never negative).", "quantifier": "every pair of bit patterns of each format", "why_tests_cant": "pairs of patterns.", "anchors": ["libm/src/math/generic/fdim.rs", "libm/src/math/fdim.rs"]}
{"id": "C13", "title": "frexp decomposes exactly", "statement": "For finite nonzero x, frexp(x) = (m, e) with 0.5 <= |m| < 1 and m * 2^e == x exactly (also for subnormals); zero, infinity and NaN return x itself.", "quantifier": "every f32 and f64 bit pattern", "why_tests_cant": "subnormals need an exact rescale through a recursive call.", "anchors": ["libm/src/math/frexp.rs: frexp", "libm/src/math/frexpf.rs: frexpf"]}
{"id": "C14", "title": "ilogb is floor(log2 |x|)", "statement": "For finite nonzero x, 2^ilogb(x) <= |x| < 2^(ilogb(x)+1) (also for subnormals); zero and NaN give FP_ILOGB0 / FP_ILOGBNAN, infinity gives i32::MAX; the loop always terminates.", "quantifier": "every f32 and f64 bit pattern", "why_tests_cant": "subnormal normalisation loop.", "anchors": ["libm/src/math/ilogb.rs: ilogb", "libm/src/math/ilogbf.rs: ilogbf"]}
{"id": "C15", "title": "modf splits exactly into integer and fraction", "statement": "modf(x) = (f, i) with i = trunc(x), i + f == x exactly, |f| < 1, both carrying x's sign bit; infinity gives (signed zero, infinity); NaN gives NaNs.", "quantifier": "every f32 and f64 bit pattern", "why_tests_cant": "the subtraction must be exact for every input.", "anchors": ["libm/src/math/modf.rs: modf", "libm/src/math/modff.rs: modff"]}
{"id": "C16", "title": "nextafter is the adjacent float", "statement": "nextafter(x,y) returns y if x == y, NaN if either is NaN, and otherwise the representable value adjacent to x in the direction of y: there is no float strictly between.", "quantifier": "every pair of f32 / f64 bit patterns", "why_tests_cant": "pairs of patterns; carry across exponent, subnormal and infinity boundaries.", "anchors": ["libm/src/math/nextafter.rs: nextafter", "libm/src/math/nextafterf.rs: nextafterf"]}
{"id": "C17", "title": "scalbn / ldexp round x*2^n exactly once", "statement": "For every x and every i32 n, scalbn(x,n) (and ldexp) is the correctly rounded value of x * 2^n (round-to-nearest-even), with correct overflow to infinity and gradual underflow, without double rounding; zero, infinity and NaN are preserved; no integer overflow.", "quantifier": "every bit pattern of each format and every i32 exponent", "why_tests_cant": "the staged multiplications can double-round for specific mantissa/exponent combinations.", "anchors": ["libm/src/math/generic/scalbn.rs: scalbn", "libm/src/math/scalbn.rs", "libm/src/math/ldexp.rs"]}
{"id": "C18", "title": "fmod is exact", "statement": "For finite x and finite nonzero y, fmod(x,y) is exactly x - trunc(x/y)*y: it is smaller than |y| in magnitude, differs from x by an integer multiple of y, and has x's sign (also when zero). NaN if x is infinite, y is zero or either is NaN; x if y is infinite. The loop terminates and no shift overflows.", "quantifier": "every pair of bit patterns of each format", "why_tests_cant": "the loop can run for 2^15 iterations; pairs of patterns.", "anchors": ["libm/src/math/generic/fmod.rs: fmod", "libm/src/math/fmod.rs"]}
{"id": "C19", "title": "remquo / remainder are exact", "statement": "For finite x and finite nonzero y, the remainder is exactly x - n*y with n the integer nearest x/y (ties to even), so |r| <= |y|/2; the returned quotient has n's sign and agrees with |n| modulo 2^31; no arithmetic overflow or panic occurs.", "quantifier": "every pair of f32 / f64 bit patterns", "why_tests_cant": "shift-subtract loop over quotients up to 2^2100; pairs of patterns.", "anchors": ["libm/src/math/remquo.rs: remquo", "libm/src/math/remquof.rs: remquof", "libm/src/math/remainder.rs", "libm/src/math/remainderf.rs"]}
{"id": "C20", "title": "sqrt is correctly rounded", "statement": "For every x >= 0, sqrt(x) is the float nearest to the real square root of x; sqrt(-0.0) = -0.0, sqrt(+inf)=+inf, and negative or NaN arguments give NaN.", "quantifier": "every bit pattern (NaNs with any payload, infinities, both zeros, subnormals, normals) of f16, f32, f64 and f128", "why_tests_cant": "the Goldschmidt iteration works on truncated fixed point numbers with a table; the error bound must hold for every mantissa (2^53, 2^113 of them).", "anchors": ["libm/src/math/generic/sqrt.rs: sqrt, sqrt_round, goldschmidt, RSQRT_TAB", "libm/src/math/sqrt.rs"]}
{"id": "C21", "title": "fma rounds x*y+z once", "statement": "For finite arguments fma(x,y,z) is the exact real x*y+z rounded once to nearest even (with overflow to infinity, gradual underflow and IEEE sign-of-zero rules); infinities and NaNs follow IEEE 754.", "quantifier": "every triple of f64 (and f128) bit patterns", "why_tests_cant": "triples of patterns; the sticky bit logic matters only for extremely rare alignments.", "anchors": ["libm/src/math/fma.rs: fma, fmaf128, fma_round, Norm"]}
{"id": "C22", "title": "fmaf / fmaf16 through a wider type round once", "statement": "fmaf computed through f64 arithmetic yields the exact x*y+z rounded once to f32 for every triple.", "quantifier": "every triple of f32 bit patterns", "why_tests_cant": "double rounding only shows for rare triples.", "anchors": ["libm/src/math/fma_wide.rs: fmaf, fma_wide_round"]}
{"id": "C23", "title": "256-bit helper arithmetic is exact", "statement": "Widening multiplication of u128 gives the exact 256-bit product; addition and right shift of u256 agree with arithmetic modulo 2^256; hi/lo extraction is consistent; the constants MIN/MAX bound the type's values.", "quantifier": "all pairs of 128-bit / 256-bit operands and all shift counts below 256", "why_tests_cant": "2^256 operand pairs.", "anchors": ["libm/src/math/support/big.rs: u256, i256, HInt, DInt"]}
{"id": "C24", "title": "hex float literals parse to the correctly rounded value", "statement": "For every well-formed hexadecimal literal whose value is in range, parse_any returns the float nearest in the chosen rounding mode together with the correct INEXACT/UNDERFLOW/OVERFLOW status; hf32/hf64/... accept exactly the literals whose value is representable and return exactly that value.", "quantifier": "all strings of hex digits (any length) with any exponent and each rounding mode", "why_tests_cant": "unbounded strings.", "anchors": ["libm/src/math/support/hex_float.rs: parse_any, parse_finite, parse_hex, parse_hex_exact"]}
{"id": "C25", "title": "hex float parser never panics", "statement": "parse_any returns Ok or Err for every byte string: malformed strings are Err and no arithmetic overflow or out-of-range access occurs.", "quantifier": "all byte strings", "why_tests_cant": "unbounded strings, overflow only for special digit counts/exponents.", "anchors": ["libm/src/math/support/hex_float.rs: parse_hex, parse_finite, parse_any"]}
{"id": "C26", "title": "hex formatting round-trips", "statement": "Formatting any finite float in hexadecimal and parsing the text gives back the same bits, with status OK.", "quantifier": "every bit pattern (NaNs with any payload, infinities, both zeros, subnormals, normals) of f16, f32, f64 and f128", "why_tests_cant": "all bit patterns of four formats.", "anchors": ["libm/src/math/support/hex_float.rs: fmt_any_hex, Hexf, parse_any"]}
{"id": "C27", "title": "Status flags form a set", "statement": "Combining statuses is a union: each query (inexact, underflow, ...) on s.with(t) is true iff it is true on s or on t; setting a flag changes only that flag.", "quantifier": "all pairs of status values", "why_tests_cant": "algebraic law.", "anchors": ["libm/src/math/support/env.rs: Status"]}
{"id": "C28", "title": "hypot special values and symmetries", "statement": "hypot/hypotf return +inf if either argument is infinite, even if the other is NaN; otherwise NaN if either is NaN; the result does not depend on the order or signs of the arguments; hypot(x,0)=|x|; result is never negative.", "quantifier": "every pair of f32 / f64 bit patterns", "why_tests_cant": "pairs of patterns.", "anchors": ["libm/src/math/hypot.rs: hypot", "libm/src/math/hypotf.rs: hypotf"]}
{"id": "C29", "title": "pow special values", "statement": "pow(x,\u00b10)=1 and pow(1,y)=1 even for NaN; otherwise NaN arguments give NaN; a finite negative base with a non-integer finite exponent gives NaN; zero, infinite and \u00b11 bases and infinite exponents follow C Annex F exactly; pow(x,1)=x, pow(x,2)=x*x, pow(x,0.5)=sqrt(x) for x>=0, and pow(x,-1) = 1/x.", "quantifier": "every pair of f32 / f64 bit patterns", "why_tests_cant": "pairs of patterns; oddness test of huge exponents.", "anchors": ["libm/src/math/pow.rs: pow", "libm/src/math/powf.rs: powf"]}
{"id": "C30", "title": "exponential family special values", "statement": "exp, exp2, exp10 and expm1 (f32, f64): NaN -> NaN, +inf -> +inf, -inf -> 0 (or -1), 0 -> exactly 1 (or the same zero), saturate to inf/0 outside the documented range.", "quantifier": "every bit pattern of f32 / f64", "why_tests_cant": "whole ranges of inputs must take the right branch.", "anchors": ["libm/src/math/exp.rs", "libm/src/math/expf.rs", "libm/src/math/exp2.rs", "libm/src/math/exp2f.rs", "libm/src/math/exp10.rs", "libm/src/math/expm1.rs"]}
{"id": "C31", "title": "logarithm domain handling", "statement": "log, log2, log10, log1p (f32, f64): any negative nonzero argument (below -1 for log1p) gives NaN, \u00b10 (or -1) gives -inf, +inf gives +inf, NaN gives NaN, 1 (or 0) gives a zero.", "quantifier": "every bit pattern of f32 / f64", "why_tests_cant": "whole ranges of inputs must take the right branch.", "anchors": ["libm/src/math/log.rs", "libm/src/math/logf.rs", "libm/src/math/log2.rs", "libm/src/math/log2f.rs", "libm/src/math/log10.rs", "libm/src/math/log10f.rs", "libm/src/math/log1p.rs", "libm/src/math/log1pf.rs"]}
{"id": "C32", "title": "odd and even symmetry", "statement": "sin, tan, asin, atan, sinh, tanh, asinh, atanh, cbrt, erf are odd and cos, cosh, fabs are even, bit for bit: f(-x) = -f(x) (resp. f(x)) for every non-NaN x.", "quantifier": "every non-NaN bit pattern of f32 / f64", "why_tests_cant": "must hold for all inputs through the complete floating-point computation.", "anchors": ["libm/src/math/sin.rs", "libm/src/math/cos.rs", "libm/src/math/tan.rs", "libm/src/math/asin.rs", "libm/src/math/atan.rs", "libm/src/math/sinh.rs", "libm/src/math/tanh.rs", "libm/src/math/cbrt.rs", "libm/src/math/erf.rs"]}
{"id": "C33", "title": "sincos equals (sin, cos)", "statement": "sincos(x) returns bit for bit the pair (sin(x), cos(x)) for every x, in f64 and f32.", "quantifier": "every bit pattern of f32 / f64", "why_tests_cant": "every input, all quadrants.", "anchors": ["libm/src/math/sincos.rs", "libm/src/math/sincosf.rs", "libm/src/math/sin.rs", "libm/src/math/cos.rs", "libm/src/math/sinf.rs", "libm/src/math/cosf.rs"]}
{"id": "C34", "title": "trigonometric argument-domain handling", "statement": "sin, cos, tan and sincos of \u00b1inf or NaN are NaN; tiny arguments return x (or 1) exactly; the quadrant index is always within 0..3 so no unreachable branch is taken.", "quantifier": "every bit pattern of f32 / f64", "why_tests_cant": "every input.", "anchors": ["libm/src/math/sin.rs", "libm/src/math/cos.rs", "libm/src/math/tan.rs", "libm/src/math/sincos.rs", "libm/src/math/sinf.rs", "libm/src/math/cosf.rs", "libm/src/math/tanf.rs"]}
{"id": "C35", "title": "inverse function domains", "statement": "asin, acos return NaN for |x| > 1 and NaN; acosh NaN for x < 1; atanh NaN for |x|>1 and \u00b1inf at \u00b11; atan2 and atan special cases follow Annex F.", "quantifier": "every bit pattern of f32 / f64", "why_tests_cant": "whole ranges of inputs must take the right branch.", "anchors": ["libm/src/math/asin.rs", "libm/src/math/acos.rs", "libm/src/math/acosh.rs", "libm/src/math/atanh.rs", "libm/src/math/atan2.rs", "libm/src/math/atan.rs"]}
{"id": "C36", "title": "unchecked table lookups stay in bounds", "statement": "Every table access done without bounds checks in release builds (exp2, exp2f, sqrt, rem_pio2_large, atan, exp, ...) uses an index inside the table for every input.", "quantifier": "every bit pattern", "why_tests_cant": "memory safety must hold for all inputs; out-of-bounds reads may go unnoticed in tests.", "anchors": ["libm/src/math/mod.rs: i!", "libm/src/math/exp2.rs", "libm/src/math/exp2f.rs", "libm/src/math/generic/sqrt.rs", "libm/src/math/rem_pio2_large.rs", "libm/src/math/atan.rs", "libm/src/math/exp.rs"]}
{"id": "C37", "title": "large-argument reduction is memory safe and total", "statement": "The large-argument trigonometric reduction reads and writes only inside its fixed arrays and terminates with a quadrant in 0..7 for every finite input.", "quantifier": "every finite f64 / f32 above the small-argument cutoff", "why_tests_cant": "memory safety and termination for all inputs.", "anchors": ["libm/src/math/rem_pio2_large.rs: rem_pio2_large", "libm/src/math/rem_pio2.rs", "libm/src/math/rem_pio2f.rs"]}
{"id": "C38", "title": "32-bit x86 ceil/floor agree with the portable ones", "statement": "The i586 versions of ceil and floor return the same bits as the portable versions for every non-NaN f64.", "quantifier": "every non-NaN f64 bit pattern", "why_tests_cant": "2^64 inputs.", "anchors": ["libm/src/math/arch/i586.rs: ceil, floor", "libm/src/math/generic/ceil.rs", "libm/src/math/generic/floor.rs"]}
{"id": "C39", "title": "the generic Libm<T> facade dispatches faithfully", "statement": "Every method of Libm<f32>/Libm<f64> forwards to the free function of the same name for that type, with the argument order unchanged.", "quantifier": "all methods and all arguments", "why_tests_cant": "table-driven macro code; a swapped pair may only differ in ulps.", "anchors": ["libm/src/libm_helper.rs: libm_helper!"]}
{"id": "C40", "title": "word accessors are inverse to each other", "statement": "Reading the high/low 32-bit words and reassembling gives back the same f64 bits; setting one word leaves the other unchanged.", "quantifier": "every f64 bit pattern and every 32-bit word", "why_tests_cant": "2^64 x 2^32.", "anchors": ["libm/src/math/mod.rs: get_high_word, get_low_word, with_set_high_word, with_set_low_word, combine_words"]}
{"id": "C41", "title": "float decomposition helpers are consistent", "statement": "Building a float from sign, exponent and fraction and reading them back is the identity; the unbiased exponent, subnormal/infinite/NaN predicates and constants (MAX, MIN_POSITIVE_NORMAL, EPSILON, ...) agree with the IEEE meaning of the bits.", "quantifier": "every bit pattern (NaNs with any payload, infinities, both zeros, subnormals, normals) of f16, f32, f64 and f128", "why_tests_cant": "all bit patterns of four formats.", "anchors": ["libm/src/math/support/float_traits.rs: Float, from_parts, ex, exp_unbiased, frac, normalize"]}
{"id": "C42", "title": "hypot is accurate and overflows only when it must", "statement": "For all finite x, y the result of hypot (hypotf) is within 2^-52*h + 2^-1075 (2^-23*h + 2^-150) of h = sqrt(x^2+y^2), less than two ulp, or it is +inf and h is within a relative 2^-51 (2^-22) of 2^1024 (2^128); no intermediate overflow or underflow spoils the result.", "quantifier": "every pair of finite f64 / f32 values", "why_tests_cant": "pairs of patterns; scaling boundaries and cancellation in the split products.", "anchors": ["libm/src/math/hypot.rs: hypot, sq", "libm/src/math/hypotf.rs: hypotf"]}
{"id": "C43", "title": "exp10 of small integers is correctly rounded", "statement": "For every f32 x that is an integer between -7 and 7 (f64 x: between -15 and 15), exp10f(x) (exp10(x)) is the correctly rounded value of 10^x (exact for non-negative x).", "quantifier": "all f32 (f64) arguments equal to an integer n with |n| <= 7 (15)", "why_tests_cant": "A test can compare the fifteen results with literals, but not that the integer detection (modff) recognises exactly these arguments and that the table holds correctly rounded powers.", "anchors": ["libm/src/math/exp10f.rs: exp10f, P10", "libm/src/math/exp10.rs: exp10, P10"]}
{"id": "C44", "title": "pow of a negated base", "statement": "For every even integer exponent y and every base x (f64 and f32), pow(-x, y) and pow(x, y) have the same bits; for every odd integer exponent they are exactly opposite (or both NaN).", "quantifier": "all bases (every bit pattern) and all integer-valued exponents", "why_tests_cant": "The number of integer exponents and bases is astronomically large, and the parity test works on the bits of y in three exponent ranges.", "anchors": ["libm/src/math/pow.rs: pow", "libm/src/math/powf.rs: powf"]}
{"id": "C45", "title": "the digit tables of the argument reduction are the digits of 2/pi and pi/2", "statement": "Every entry of the 2/pi tables used to reduce huge trigonometric arguments (66 entries on 32-bit targets, 690 on 64-bit targets) is the corresponding 24-bit digit of the exact binary expansion of 2/pi, and the leading k chunks of the pi/2 table sum to pi/2 truncated to 24k bits.", "quantifier": "every entry of both tables, i.e. 16560 bits of 2/pi", "why_tests_cant": "A wrong digit affects only arguments of particular huge exponents; a test would have to compare with an independent value of pi to 16560 bits.", "anchors": ["libm/src/math/rem_pio2_large.rs: IPIO2", "libm/src/math/rem_pio2_large.rs: PIO2"]}
{"id": "C46", "title": "accuracy of the single-precision trigonometric functions", "statement": "For every finite f32, sinf and cosf return a finite float within 0.8 units in the last place of the exact sine and cosine of the argument, and tanf within 0.95 units of the exact tangent; huge arguments included.", "quantifier": "every finite f32 bit pattern, against the real functions", "why_tests_cant": "The claim compares with the real functions for every argument up to 2^128, where the reduction modulo pi/2 needs a lower bound on the distance of any float to a multiple of pi/2.", "anchors": ["libm/src/math/sinf.rs: sinf", "libm/src/math/cosf.rs: cosf", "libm/src/math/tanf.rs: tanf", "libm/src/math/rem_pio2f.rs: rem_pio2f", "libm/src/math/k_sinf.rs", "libm/src/math/k_cosf.rs", "libm/src/math/k_tanf.rs"]}
{"id": "C47", "title": "hyperbolic functions: special values", "statement": "sinh, tanh, asinh return the same zero for a zero and NaN for NaN; sinh and asinh return the same infinity for an infinity and tanh returns plus or minus one; cosh returns 1 for both zeros, plus infinity for both infinities and NaN for NaN. None of them fails for any argument. The f32 versions behave the same.", "quantifier": "every bit pattern of f32 / f64", "why_tests_cant": "NaN has 2^53 encodings, and absence of failure concerns every argument.", "anchors": ["libm/src/math/sinh.rs", "libm/src/math/cosh.rs", "libm/src/math/tanh.rs", "libm/src/math/asinh.rs", "libm/src/math/sinhf.rs", "libm/src/math/coshf.rs", "libm/src/math/tanhf.rs", "libm/src/math/asinhf.rs"]}
{"id": "C48", "title": "error functions: special values and saturation", "statement": "erf and erfc never panic. erf returns NaN for NaN, the same zero for a zero, plus or minus one for an infinity and for every finite |x| >= 6. erfc returns NaN for NaN, +0 for +inf and for every x >= 28, 2 for -inf and every x <= -28, and 1 - x correctly rounded where |x| < 2^-56. The f32 versions behave the same.", "quantifier": "every bit pattern of f32 / f64", "why_tests_cant": "Saturation and absence of panics concern every argument of huge ranges; NaN has 2^53 encodings.", "anchors": ["libm/src/math/erf.rs: erf, erfc", "libm/src/math/erff.rs: erff, erfcf"]}
{"id": "C49", "title": "cube root: accuracy, exactness and special values", "statement": "cbrt and cbrtf never panic. They return NaN for NaN and the argument itself for zeros and infinities. For every other argument the result is finite and within 0.500001 units in the last place of the real cube root, subnormal arguments included, and when the argument is exactly the cube of a float the result is that float.", "quantifier": "every bit pattern of f32 / f64, against the real cube root", "why_tests_cant": "The bound concerns every one of 2^64 arguments and compares with a real number; the initial approximation, the Newton step with a rounding error recovered by fma, the scaling by thirds of exponents and the final cleanup of low bits all take part.", "anchors": ["libm/src/math/cbrt.rs: cbrt, cbrt_round", "libm/src/math/cbrtf.rs: cbrtf"]}
{"id": "C50", "title": "accuracy of the double-precision sine and cosine", "statement": "For every finite f64, sin and cos return a finite double within one unit in the last place of the exact sine and cosine of the argument, and sincos returns both within one unit; arguments up to the largest double included.", "quantifier": "every finite f64 bit pattern, against the real functions", "why_tests_cant": "There are 2^64 arguments and the claim compares with the real functions: near multiples of pi/2 the result depends on a 1140-bit table of 2/pi and on a lower bound of the distance of any double to a multiple of pi/2.", "anchors": ["libm/src/math/sin.rs: sin", "libm/src/math/cos.rs: cos", "libm/src/math/sincos.rs: sincos", "libm/src/math/rem_pio2.rs: rem_pio2", "libm/src/math/rem_pio2_large.rs: rem_pio2_large", "libm/src/math/k_sin.rs: k_sin", "libm/src/math/k_cos.rs: k_cos"]}
{"id": "C51", "title": "pow, powf and exp10 never panic", "statement": "pow(x, y), powf(x, y) and exp10(x) return a value for every pair of arguments: no intermediate i32/u32 operation overflows, no shift amount is out of range, no table index is out of bounds and no internal call fails, in debug builds with overflow checks included.", "quantifier": "every pair of f64 / f32 bit patterns", "why_tests_cant": "the exponent arithmetic on the high words depends on intermediate rounded values (y*log2 x); overflow would need a rare combination of a pair of 64-bit patterns.", "anchors": ["libm/src/math/pow.rs: pow", "libm/src/math/powf.rs: powf", "libm/src/math/exp10.rs: exp10"]}
{"id": "C52", "title": "tgamma and tgammaf: special values, poles, factorials, saturation", "statement": "tgamma / tgammaf return for every argument. NaN gives NaN, +inf gives +inf, -inf gives NaN, a zero gives an infinity of the same sign, and every negative integer gives NaN. At the integers 1..23 the result is the correctly rounded (n-1)!. For every finite argument with |x| >= 184 that is no negative integer the result is the correct rounding of Gamma(x): +inf for positive x, and for negative x a zero with the sign of Gamma(x).", "quantifier": "every f64 / f32 bit pattern", "why_tests_cant": "the sign of the underflowed result alternates between consecutive integers over the whole negative range; whether Gamma(x) underflows next to a pole depends on how close to an integer a float can be; totality depends on pow and exp and on a table index for all arguments.", "anchors": ["libm/src/math/tgamma.rs: tgamma, FACT, sinpi", "libm/src/math/tgammaf.rs: tgammaf"]}
{"id": "C53", "title": "lgamma_r and lgammaf_r: special values, poles and the sign of Gamma", "statement": "lgamma_r / lgammaf_r return for every argument. NaN gives NaN, both infinities give +inf, zeros and negative integers (the poles) give +inf, and 1 and 2 give exactly (+0, 1). For every other finite argument the second component is the sign of Gamma(x), 1 or -1; at +0 it is 1 and at -0 it is -1.", "quantifier": "every f64 / f32 bit pattern", "why_tests_cant": "the sign comes from an approximate sin(pi*x): it must be exactly zero at every negative integer and have the right sign at every float between two integers, however close to one of them.", "anchors": ["libm/src/math/lgamma_r.rs: lgamma_r, sin_pi", "libm/src/math/lgammaf_r.rs: lgammaf_r, sin_pi", "libm/src/math/lgamma.rs: lgamma", "libm/src/math/lgammaf.rs: lgammaf"]}
{"id": "C54", "title": "Bessel functions: every call returns", "statement": "j0, j1, jn, y0, y1, yn and their f32 versions return for every argument and, for jn and yn, every order: no panic, no overflow of a loop counter, no endless loop.", "quantifier": "every f64 / f32 bit pattern and every i32 order", "why_tests_cant": "jn and jnf run a loop whose length depends on the argument and the order and that counts in an i32; it ends only because a rounded three-term recurrence keeps growing, which is a statement about all pairs of an order and an argument.", "anchors": ["libm/src/math/jn.rs: jn, yn", "libm/src/math/jnf.rs: jnf, ynf", "libm/src/math/j0.rs", "libm/src/math/j1.rs", "libm/src/math/j0f.rs", "libm/src/math/j1f.rs"]}
{"id": "C55", "title": "Bessel functions: special values", "statement": "NaN gives NaN. jn(0, x) is j0(x) and jn(1, x) is j1(x), likewise for yn. The functions of the first kind give a zero at the infinities, 1 at zero for order 0, and for every other order a zero with the sign of (-1)^n-symmetric continuation: at +-0 and odd n the sign of the zero argument, inverted for a negative order; +0 for even n. The functions of the second kind give NaN for every negative argument, +0 at +inf, and at either zero -inf, or +inf when the order is negative and odd.", "quantifier": "every f64 / f32 bit pattern and every i32 order", "why_tests_cant": "the number of orders and of NaN and negative arguments is too large to enumerate.", "anchors": ["libm/src/math/jn.rs: jn, yn", "libm/src/math/jnf.rs: jnf, ynf", "libm/src/math/j0.rs: j0, y0", "libm/src/math/j1.rs: j1, y1", "libm/src/math/j0f.rs: j0f, y0f", "libm/src/math/j1f.rs: j1f, y1f"]}
{"id": "C56", "title": "Bessel functions: parity in the argument and in the order", "statement": "For every finite x: jn(n, -x) is (-1)^n jn(n, x) and jn(-n, x) is (-1)^n jn(n, x), bit for bit (two NaNs count as equal); yn(-n, x) is (-1)^n yn(n, x). The same for jnf and ynf.", "quantifier": "every finite f64 / f32 bit pattern and every i32 order n whose negative is an i32", "why_tests_cant": "the symmetry must survive every rounding in three different algorithms chosen by the argument and the order.", "anchors": ["libm/src/math/jn.rs: jn, yn", "libm/src/math/jnf.rs: jnf, ynf", "libm/src/math/j0.rs: j0", "libm/src/math/j1.rs: j1", "libm/src/math/j0f.rs: j0f", "libm/src/math/j1f.rs: j1f"]}
{"id": "C57", "title": "accuracy of the double-precision tangent", "statement": "For every finite f64, tan returns a finite double within one and a half units in the last place of the exact tangent of the argument; arguments up to the largest double, and arguments next to the poles, included.", "quantifier": "every finite f64 bit pattern, against the real tangent", "why_tests_cant": "There are 2^64 arguments and the claim compares with the real function; next to a pole the result depends on how close a double can come to an odd multiple of pi/2 and on a compensated reciprocal of the reduced tangent.", "anchors": ["libm/src/math/tan.rs: tan", "libm/src/math/k_tan.rs: k_tan", "libm/src/math/rem_pio2.rs: rem_pio2", "libm/src/math/rem_pio2_large.rs: rem_pio2_large"]}
{"id": "C58", "title": "accuracy of exp and expf", "statement": "For every finite argument x for which the exact value e^x does not round to infinity, exp returns a finite double within 1.3 units in the last place of e^x and expf a finite single within 1.35 units in the last place; subnormal results and results that underflow to zero included.", "quantifier": "every finite f64 / f32 bit pattern whose exact exponential is below the overflow threshold, against the real exponential function", "why_tests_cant": "The claim compares with a real function on 2^64 arguments; the error comes from the cancellation in the argument reduction, the rational approximation and a second rounding of subnormal results.", "anchors": ["libm/src/math/exp.rs: exp", "libm/src/math/expf.rs: expf"]}
{"id": "C59", "title": "accuracy of exp2 and exp2f", "statement": "For every finite argument x for which the exact value 2^x does not round to infinity, exp2 returns a finite double within 0.76 units in the last place of 2^x and exp2f a finite single within 0.503 units in the last place; subnormal results and results that underflow to zero included.", "quantifier": "every finite f64 / f32 bit pattern whose exact power of two is below the overflow threshold, against the real function 2^x", "why_tests_cant": "The claim compares with a real function on 2^64 arguments; a single wrong bit in one of the 512 table constants would change only the results of a thin set of arguments.", "anchors": ["libm/src/math/exp2.rs: exp2", "libm/src/math/exp2f.rs: exp2f"]}
{"id": "C60", "title": "accuracy of log and logf", "statement": "For every finite positive argument, subnormals included, log returns a finite double and logf a finite single within 0.99 units in the last place of the natural logarithm of the argument; the call never panics.", "quantifier": "every finite positive f64 / f32 bit pattern, against the real logarithm", "why_tests_cant": "The claim compares with a real function on 2^63 arguments; the worst cases lie where the exponent part and the logarithm of the reduced argument cancel, and next to 1, where the result must keep full relative accuracy.", "anchors": ["libm/src/math/log.rs: log", "libm/src/math/logf.rs: logf"]}
{"id": "C61", "title": "accuracy of log1p and log1pf", "statement": "For every finite argument greater than minus one, log1p returns a finite double and log1pf a finite single within 0.99 units in the last place of the natural logarithm of one plus the argument; the call never panics.", "quantifier": "every finite f64 / f32 bit pattern above -1, against the real logarithm of 1+x", "why_tests_cant": "The claim compares with a real function on 2^63 arguments; the rounding of 1+x must be undone by a correction term whose exactness depends on the binade of 1+x, and tiny arguments must keep full relative accuracy.", "anchors": ["libm/src/math/log1p.rs: log1p", "libm/src/math/log1pf.rs: log1pf"]}
{"id": "C62", "title": "accuracy of log2, log2f, log10 and log10f", "statement": "For every finite positive argument log2 returns a finite double within 1.11 units in the last place of the base-two logarithm and log10 one within 1.31 units of the base-ten logarithm; log2f and log10f return finite singles within 1.06 and 1.22 units. At one the result is exactly zero; the call never panics.", "quantifier": "every finite positive f64 / f32 bit pattern, subnormals included, against the real base-two and base-ten logarithms", "why_tests_cant": "The claim compares with a real function on 2^63 arguments; the worst cases are cancellations between the exponent and the logarithm of the reduced argument, and for log2f and log10f they depend on a single reduced argument and on exactness of a final addition.", "anchors": ["libm/src/math/log2.rs: log2", "libm/src/math/log10.rs: log10", "libm/src/math/log2f.rs: log2f", "libm/src/math/log10f.rs: log10f"]}
{"id": "C63", "title": "accuracy of atan and atanf", "statement": "For every finite argument atan returns a finite double, and atanf a finite single, within 0.99 units in the last place of the real arctangent; the call never panics.", "quantifier": "every finite f64 / f32 bit pattern, subnormals and huge values included, against the real arctangent", "why_tests_cant": "The claim compares with a real function on 2^64 arguments; five branches use different reductions whose rounding errors meet the unit in the last place differently, and the worst case is not at a branch boundary.", "anchors": ["libm/src/math/atan.rs: atan", "libm/src/math/atanf.rs: atanf"]}
{"id": "C64", "title": "accuracy of asin, acos, asinf and acosf", "statement": "For every argument from -1 to 1, asin returns a finite double within 1.15 units in the last place of the real arcsine and acos one within 0.99 units of the real arccosine; asinf and acosf return finite singles within 0.99 units. acos and acosf of 1 are exactly zero; the call never panics.", "quantifier": "every f64 / f32 bit pattern whose value lies in [-1, 1], subnormals and both endpoints included, against the real arcsine and arccosine", "why_tests_cant": "The claim compares with a real function on 2^63 arguments; the branches above one half depend on the rounding of a square root, on a high part cut from it and on an exact difference of high parts.", "anchors": ["libm/src/math/asin.rs: asin", "libm/src/math/acos.rs: acos", "libm/src/math/asinf.rs: asinf", "libm/src/math/acosf.rs: acosf"]}
{"id": "C65", "title": "accuracy of atan2 and atan2f", "statement": "For all finite y and x with y not zero or x positive, atan2(y, x) returns a finite double, and atan2f a finite single, within 2.99 units in the last place of the angle of the point (x, y), that is of the argument of the complex number x + iy in (-pi, pi]; the call never panics. Zero y with x negative or zero is covered by the table of special cases.", "quantifier": "every pair of finite f64 / f32 bit patterns outside the half line where the result depends on the sign of a zero, quotients that underflow or overflow included, against the real angle", "why_tests_cant": "The claim compares with a real function on 2^128 pairs of arguments; the quotient can underflow to a subnormal, overflow or lose all its bits, and the left half plane subtracts a rounded angle from a two-part pi.", "anchors": ["libm/src/math/atan2.rs: atan2", "libm/src/math/atan2f.rs: atan2f"]}
{"id": "C66", "title": "accuracy of expm1 and expm1f", "statement": "For every finite x whose e^x - 1 is below the overflow threshold, expm1(x) returns a finite double within 1.45 units in the last place of e^x - 1, and for every finite x up to 88.7216796875 expm1f(x) returns a finite single within 1.45 units in the last place of it, also for x near zero where e^x - 1 is tiny and for x near -1 and 1 where the subtraction cancels; the call never panics. (Between 88.7216796875 and the true overflow point expm1f returns infinity.)", "quantifier": "every finite f64 bit pattern below the overflow point and every f32 bit pattern up to 88.7216796875, against the real function e^x - 1", "why_tests_cant": "The claim compares with a real function on 2^64 arguments; seven branches select different ways of recombining the scaled kernel, and the relative error is worst where e^x - 1 cancels.", "anchors": ["libm/src/math/expm1.rs: expm1", "libm/src/math/expm1f.rs: expm1f"]}
{"id": "C67", "title": "accuracy of sinh, cosh, tanh and their f32 versions", "statement": "For every finite x: tanh(x) and tanhf(x) return a finite float within 5.7 units in the last place of the hyperbolic tangent of x; cosh(x) and coshf(x) one within 3.95 units in the last place of the hyperbolic cosine whenever that is below the overflow threshold; sinh(x) one within 5.4 units in the last place of the hyperbolic sine whenever that does not round to an infinity, and so does sinhf(x) unless 88.7216796875 < |x| < 88.72283172607421875, where it returns a NaN although the hyperbolic sine is about 1.7e38 (half the largest float). No call panics. Thus cosh and sinh stay finite on the stretch above 709.78 (88.72 for f32) where e^x itself overflows.", "quantifier": "every finite f64 and f32 bit pattern, against Mathlib's real sinh, cosh and tanh", "why_tests_cant": "The claim compares with real functions on 2^64 arguments; each function switches between five formulas at bit-pattern thresholds, and errors of the inner exponential pass through divisions and cancelling subtractions; the failing stretch of sinhf is 150 consecutive magnitudes between two thresholds of different functions.", "anchors": ["libm/src/math/sinh.rs: sinh", "libm/src/math/sinhf.rs: sinhf", "libm/src/math/cosh.rs: cosh", "libm/src/math/coshf.rs: coshf", "libm/src/math/tanh.rs: tanh", "libm/src/math/tanhf.rs: tanhf", "libm/src/math/expo2.rs: expo2", "libm/src/math/k_expo2.rs: k_expo2", "libm/src/math/k_expo2f.rs: k_expo2f"]}
{"id": "C68", "title": "accuracy of asinh, acosh, atanh and their f32 versions", "statement": "asinh(x) and asinhf(x) return, for every finite x, a finite float within 4.7 units in the last place of the inverse hyperbolic sine of x; acosh(x) and acoshf(x), for every finite x >= 1, one within 4.7 units in the last place of the inverse hyperbolic cosine; atanh(x) and atanhf(x), for every -1 < x < 1, one within 4.5 units in the last place of the inverse hyperbolic tangent. No such call panics, overflows or returns a NaN, up to the largest finite argument and down to the smallest subnormal, next to 1 included.", "quantifier": "every finite f64 and f32 bit pattern in the domain, against Mathlib's Real.arsinh, Real.arcosh and Real.artanh", "why_tests_cant": "The claim compares with real functions on up to 2^64 arguments; each function composes a rounded square root, divisions and a logarithm, whose errors are amplified near zeros of the logarithm, and switches formulas at bit-pattern thresholds where the neglected terms must stay below the rounding unit.", "anchors": ["libm/src/math/asinh.rs: asinh", "libm/src/math/asinhf.rs: asinhf", "libm/src/math/acosh.rs: acosh", "libm/src/math/acoshf.rs: acoshf", "libm/src/math/atanh.rs: atanh", "libm/src/math/atanhf.rs: atanhf"]}
{"id": "C69", "title": "accuracy of exp10 and exp10f", "statement": "exp10(x) returns, for every finite x whose power 10^x is below the overflow threshold, a finite float within 5.95 units in the last place of 10^x, and within 1.45 units when |x| >= 16; exp10f(x), for every finite x whose power 10^x is below the overflow threshold, one within 5.22 units in the last place. No such call panics, overflows or returns a NaN, down to results that are subnormal or underflow to zero.", "quantifier": "every finite f64 and f32 bit pattern with 10^x below the format's overflow threshold, against Mathlib's real power", "why_tests_cant": "The claim compares with a real function on up to 2^64 arguments; the implementation changes algorithm at |x| = 16 (8 for f32), combines a table of rounded powers of ten with a rounded exp2, and elsewhere runs pow's double-double product and exponential, whose overflow and underflow filters act on single floats next to the threshold.", "anchors": ["libm/src/math/exp10.rs: exp10", "libm/src/math/exp10f.rs: exp10f", "libm/src/math/pow.rs: pow", "libm/src/math/exp2.rs: exp2"]}
{"id": "C70", "title": "sine and cosine never leave [-1, 1]", "statement": "For every finite argument sin, cos, sinf and cosf return a finite number r with -1 <= r <= 1: the rounding errors of the reduction and of the polynomials never push a result past the extreme values, so that for instance asin(sin(x)), acos(cos(x)) and sqrt(1 - sin(x)^2) are always inside their domains.", "quantifier": "every finite f64 and f32 bit pattern", "why_tests_cant": "The risk is at the arguments nearest to odd multiples of pi/2 (multiples of pi for the cosine), which are scattered over the whole exponent range; there the exact value differs from 1 by far less than a unit in the last place and one wrong rounding leaves the interval.", "anchors": ["libm/src/math/sin.rs: sin", "libm/src/math/cos.rs: cos", "libm/src/math/sinf.rs: sinf", "libm/src/math/cosf.rs: cosf"]}
{"id": "C71", "title": "logarithms change sign exactly at one", "statement": "For every positive finite x, log(x), log2(x) and log10(x) and their single-precision forms return a finite number that is positive exactly if x > 1, zero exactly if x = 1 and negative exactly if x < 1. For every finite x > -1, log1p(x) and log1pf(x) return a finite number of the sign of x, zero exactly at x = 0, even for subnormal x.", "quantifier": "every positive finite f64 and f32 bit pattern (log1p: every finite one above -1)", "why_tests_cant": "The arguments next to one suffer cancellation between the exponent part and the polynomial; a sign error could appear at any of 2^63 arguments and not be near a tested point.", "anchors": ["libm/src/math/log.rs: log", "libm/src/math/logf.rs: logf", "libm/src/math/log2.rs: log2", "libm/src/math/log2f.rs: log2f", "libm/src/math/log10.rs: log10", "libm/src/math/log10f.rs: log10f", "libm/src/math/log1p.rs: log1p", "libm/src/math/log1pf.rs: log1pf"]}
{"id": "C72", "title": "rounding functions and square root are monotone", "statement": "trunc, floor, ceil, round, rint and roundeven preserve the order: for all x <= y that are not NaN, infinities and zeros of both signs included, f(x) <= f(y) and neither is NaN. The square root does so on zeros, positive numbers and +inf. In every format f16, f32, f64 and f128.", "quantifier": "all pairs of non-NaN bit patterns x <= y of each format (nonnegative ones for sqrt)", "why_tests_cant": "A statement about pairs: 2^128 of them in f64 and more in f128, and a violation needs only one pair of neighbours that straddles a branch of the implementation.", "anchors": ["libm/src/math/generic/trunc.rs: trunc", "libm/src/math/generic/floor.rs: floor", "libm/src/math/generic/ceil.rs: ceil", "libm/src/math/generic/round.rs: round", "libm/src/math/generic/rint.rs: rint_round", "libm/src/math/generic/sqrt.rs: sqrt"]}
{"id": "C73", "title": "hyperbolic functions, expm1 and arccosine respect the ranges of the mathematical functions", "statement": "For every finite argument, |tanh(x)| <= 1 and |tanhf(x)| <= 1. For every finite argument whose exact result does not round to infinity, cosh(x) >= 1, coshf(x) >= 1 and expm1(x) >= -1; expm1f(x) >= -1 for every finite x up to 88.7216796875, below which it does not overflow. For every x in [-1, 1], acos(x) and acosf(x) are nonnegative, and zero exactly if x = 1. All these results are finite.", "quantifier": "every finite f64 and f32 bit pattern in the stated domain", "why_tests_cant": "An accuracy of several units in the last place does not by itself exclude a tanh just above 1 or a cosh just below 1; the values next to these limits fill whole binades, so sampling cannot exclude a single exceeding result.", "anchors": ["libm/src/math/tanh.rs: tanh", "libm/src/math/tanhf.rs: tanhf", "libm/src/math/cosh.rs: cosh", "libm/src/math/coshf.rs: coshf", "libm/src/math/expm1.rs: expm1", "libm/src/math/expm1f.rs: expm1f", "libm/src/math/acos.rs: acos", "libm/src/math/acosf.rs: acosf"]}
{"id": "C74", "title": "sine, cosine and tangent have the sign of the exact value at every finite argument", "statement": "For every finite x, sin(x), cos(x) and tan(x), and sinf, cosf and tanf, return a finite number that is positive, zero or negative exactly if the mathematical sine, cosine or tangent of x is. In particular the cosine is never zero and the tangent never infinite, and a double next to a multiple of pi/2 is put on the right side of it, however large it is.", "quantifier": "every finite f64 and f32 bit pattern", "why_tests_cant": "The sign depends on the reduction of the argument modulo pi/2 to more than a thousand bits; the arguments closest to a multiple of pi/2 are spread over 2^64 bit patterns and cannot be enumerated.", "anchors": ["libm/src/math/sin.rs: sin", "libm/src/math/cos.rs: cos", "libm/src/math/tan.rs: tan", "libm/src/math/sinf.rs: sinf", "libm/src/math/cosf.rs: cosf", "libm/src/math/tanf.rs: tanf", "libm/src/math/rem_pio2.rs: rem_pio2", "libm/src/math/rem_pio2_large.rs: rem_pio2_large"]}
{"id": "C75", "title": "odd functions and expm1 keep the sign of the argument", "statement": "For every finite x of the domain, asin, atan, sinh, tanh, asinh, atanh, expm1 and their single-precision forms return a finite number that is positive, zero or negative exactly if x is; a nonzero subnormal argument never gives zero. For sinh and expm1 the domain is the set of arguments whose exact result does not round to infinity; sinhf and expm1f exclude the arguments above 88.7216796875 at which their intermediate result overflows.", "quantifier": "every finite f64 and f32 bit pattern in the domain of the function", "why_tests_cant": "A result of zero or of the wrong sign could occur at any one of 2^64 arguments, for example where subnormal intermediate results are rounded to zero.", "anchors": ["libm/src/math/asin.rs: asin", "libm/src/math/asinf.rs: asinf", "libm/src/math/atan.rs: atan", "libm/src/math/atanf.rs: atanf", "libm/src/math/sinh.rs: sinh", "libm/src/math/sinhf.rs: sinhf", "libm/src/math/tanh.rs: tanh", "libm/src/math/tanhf.rs: tanhf", "libm/src/math/asinh.rs: asinh", "libm/src/math/asinhf.rs: asinhf", "libm/src/math/atanh.rs: atanh", "libm/src/math/atanhf.rs: atanhf", "libm/src/math/expm1.rs: expm1", "libm/src/math/expm1f.rs: expm1f"]}
{"id": "C76", "title": "the exponentials are never negative and lie on the right side of one", "statement": "For every finite x whose exponential does not round to infinity, exp(x) and expf(x) return a finite number that is at least 0, at least 1 if x >= 0 and at most 1 if x <= 0. exp2(x) is finite and at least 0 for every finite x with 2^x below the overflow threshold. This includes the arguments whose exponential is subnormal or underflows.", "quantifier": "every finite f64 and f32 bit pattern below the overflow threshold", "why_tests_cant": "The accuracy bound of more than one unit in the last place allows a result below 1 for a positive x or below 0 for an underflowing x; excluding every one of the 2^64 arguments needs a proof.", "anchors": ["libm/src/math/exp.rs: exp", "libm/src/math/expf.rs: expf", "libm/src/math/exp2.rs: exp2"]}
{"id": "C77", "title": "a power has the sign of the exact power", "statement": "pow(x, y) and powf(x, y) return for all arguments. Unless the result is NaN, its sign bit is clear whenever x has a clear sign bit or y is not an odd integer, and set whenever x has its sign bit set and y is an odd integer. This includes zero and infinite bases, results that overflow, underflow or are subnormal, and the sign of a zero result.", "quantifier": "every pair of f64 bit patterns and every pair of f32 bit patterns", "why_tests_cant": "The sign of the general case depends on a kernel value being positive and on exponent arithmetic in the high word not reaching the sign bit, for all 2^128 pairs.", "anchors": ["libm/src/math/pow.rs: pow", "libm/src/math/powf.rs: powf"]}
{"id": "C78", "title": "acosh is positive above one and zero exactly at one", "statement": "For every finite x >= 1, acosh(x) and acoshf(x) return a finite number that is zero if x = 1 and positive if x > 1, however close x is to one.", "quantifier": "every finite f64 and f32 bit pattern of at least one", "why_tests_cant": "A result of zero or below zero next to one would come from cancellation in x - 1 and in the logarithm, at any of 2^62 arguments.", "anchors": ["libm/src/math/acosh.rs: acosh", "libm/src/math/acoshf.rs: acoshf"]}
{"id": "C79", "title": "exp10 is never negative", "statement": "For every finite x whose power of ten does not round to infinity, exp10(x) and exp10f(x) return a finite number that is at least 0. This includes the arguments whose power of ten is subnormal or underflows.", "quantifier": "every finite f64 and f32 bit pattern below the overflow threshold", "why_tests_cant": "The accuracy bound of several units in the last place allows a negative result where the power of ten is subnormal or underflows; excluding it for all arguments needs the sign of pow and of exp2.", "anchors": ["libm/src/math/exp10.rs: exp10", "libm/src/math/exp10f.rs: exp10f"]}
