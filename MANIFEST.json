{
 "claims": [
  {
   "property": "C01",
   "status": "proved",
   "theorems": [
    "Verif.fabs_bits",
    "Verif.fabs_value"
   ],
   "note": "all formats"
  },
  {
   "property": "C02",
   "status": "proved",
   "theorems": [
    "Verif.copysign_bits",
    "Verif.copysign_value"
   ],
   "note": "all formats"
  },
  {
   "property": "C03",
   "status": "proved",
   "theorems": [
    "Verif.trunc_finite",
    "Verif.trunc_nonfinite"
   ],
   "note": "all formats"
  },
  {
   "property": "C04",
   "status": "proved",
   "theorems": [
    "Verif.floor_finite",
    "Verif.floor_nonfinite",
    "Verif.floor_ceil_add_no_overflow"
   ],
   "note": "all formats"
  },
  {
   "property": "C05",
   "status": "proved",
   "theorems": [
    "Verif.ceil_finite",
    "Verif.ceil_nonfinite",
    "Verif.floor_ceil_add_no_overflow"
   ],
   "note": "all formats"
  },
  {
   "property": "C06",
   "status": "proved",
   "theorems": [
    "Verif.round_finite",
    "Verif.round_nonfinite"
   ],
   "note": "all formats; the float addition inside is the modelled IEEE addition"
  },
  {
   "property": "C07",
   "status": "proved",
   "theorems": [
    "Verif.rint_finite",
    "Verif.rint_nonfinite",
    "Verif.roundeven_eq_rint",
    "Verif.rint_status"
   ],
   "note": "all formats"
  },
  {
   "property": "C08",
   "status": "partial",
   "theorems": [
    "Verif.trunc_status_partial",
    "Verif.floor_status_partial",
    "Verif.ceil_status_partial",
    "Verif.trunc_status_wrong",
    "Verif.floor_status_wrong",
    "Verif.ceil_status_wrong"
   ],
   "note": "The property is false of the code for normal powers of two below 1 (e.g. 0.5 reports OK): witnesses in *_wrong; proved for all other arguments."
  },
  {
   "property": "C09",
   "status": "proved",
   "theorems": [
    "Verif.fmin_one_nan",
    "Verif.fmax_one_nan",
    "Verif.fmin_both_nan",
    "Verif.fmax_both_nan",
    "Verif.fmin_spec",
    "Verif.fmax_spec"
   ],
   "note": "all formats"
  },
  {
   "property": "C10",
   "status": "proved",
   "theorems": [
    "Verif.fminimum_nan",
    "Verif.fmaximum_nan",
    "Verif.fminimum_spec",
    "Verif.fmaximum_spec"
   ],
   "note": "all formats"
  },
  {
   "property": "C11",
   "status": "partial",
   "theorems": [
    "Verif.fminimumNum_one_nan",
    "Verif.fminimumNum_both_nan",
    "Verif.fminimumNum_spec",
    "Verif.fmaximumNum_both_nan",
    "Verif.fmaximumNum_spec",
    "Verif.fmaximumNum_one_nan_partial",
    "Verif.fmaximumNum_nan_wrong"
   ],
   "note": "fully proved for fminimum_num; the NaN rule is false of the code for fmaximum_num(-0.0, +NaN) (witness fmaximumNum_nan_wrong), proved for all other cases"
  },
  {
   "property": "C12",
   "status": "proved",
   "theorems": [
    "Verif.fdim_nan",
    "Verif.fdim_le",
    "Verif.fdim_gt",
    "Verif.fdim_gt_inf"
   ],
   "note": "all formats"
  },
  {
   "property": "C13",
   "status": "proved",
   "theorems": [
    "Verif.frexp_finite",
    "Verif.frexp_special",
    "Verif.frexpf_finite",
    "Verif.frexpf_special"
   ],
   "note": "f64 and f32; termination of the recursion included"
  },
  {
   "property": "C14",
   "status": "proved",
   "theorems": [
    "Verif.ilogb_finite",
    "Verif.ilogb_special",
    "Verif.ilogbf_finite",
    "Verif.ilogbf_special"
   ],
   "note": "f64 and f32; termination of the loop included"
  },
  {
   "property": "C15",
   "status": "proved",
   "theorems": [
    "Verif.modf_finite",
    "Verif.modf_nonfinite",
    "Verif.modff_finite",
    "Verif.modff_nonfinite"
   ],
   "note": "f64 and f32"
  },
  {
   "property": "C16",
   "status": "proved",
   "theorems": [
    "Verif.nextafter_spec",
    "Verif.nextafter_nan",
    "Verif.nextafterf_spec",
    "Verif.nextafterf_nan"
   ],
   "note": "f64 and f32; absence of integer overflow included"
  },
  {
   "property": "C17",
   "status": "proved",
   "theorems": [
    "Verif.scalbn_finite",
    "Verif.scalbn_exact",
    "Verif.scalbn_special",
    "Verif.ldexp_finite",
    "Verif.ldexp_special",
    "Verif.IsRNE.unique"
   ],
   "note": "All four formats, every i32 exponent; no i32 overflow and no failing debug_assert included."
  },
  {
   "property": "C18",
   "status": "proved",
   "theorems": [
    "Verif.fmod_finite",
    "Verif.fmod_inf",
    "Verif.fmod_invalid"
   ],
   "note": "All formats; no panic in any checked shift/subtraction is part of the statements."
  },
  {
   "property": "C19",
   "status": "proved",
   "theorems": [
    "Verif.remquo_spec",
    "Verif.remquof_spec",
    "Verif.remquo_inf",
    "Verif.remquof_inf",
    "Verif.remquo_invalid",
    "Verif.remquof_invalid",
    "Verif.remainder_spec",
    "Verif.remainderf_spec",
    "Verif.remainder_special",
    "Verif.remainderf_special"
   ],
   "note": "f64 and f32; absence of integer overflow and termination included"
  },
  {
   "property": "C20",
   "status": "proved",
   "theorems": [
    "Verif.sqrtf16_correct",
    "Verif.sqrtf_correct",
    "Verif.sqrt_correct",
    "Verif.sqrtf128_correct",
    "Verif.sqrtf16_total",
    "Verif.sqrtf_total",
    "Verif.sqrt_total",
    "Verif.sqrtf128_total",
    "Verif.IsSqrt.exact",
    "Verif.wmulh_u128",
    "Verif.Generic.sqrtRound_pos",
    "Verif.Generic.sqrtRound_fixed",
    "Verif.Generic.sqrtRound_invalid"
   ],
   "note": "All four formats, every bit pattern; IsSqrt is the full behaviour. No panic in any checked addition, cast or table index is part of the statements. The intrinsics chosen by select_implementation! are not modelled."
  },
  {
   "property": "C21",
   "status": "partial",
   "theorems": [
    "Verif.fma_partial",
    "Verif.fma_near",
    "Verif.fma_far",
    "Verif.fma_exact_product",
    "Verif.fma_total",
    "Verif.fma_special",
    "Verif.fma_hair_wrong"
   ],
   "note": "f64 and f128. The property is false of the code when the product lies a hair above a multiple of a quarter of the spacing of z and is far smaller than z (FmaHair; witness fma_hair_wrong: a sticky bit is computed from an already shifted word). Proved: correct rounding and zero sign for every other finite triple (in particular |z| <= 2^(ew+1)|xy|, or 2^(sb+3)|xy| <= |z|, or xy representable), no panic for any triple, IEEE rules for infinities and NaNs."
  },
  {
   "property": "C22",
   "status": "partial",
   "theorems": [
    "Verif.fmaf_partial",
    "Verif.fmaf_normal",
    "Verif.fmaf_zero",
    "Verif.fmaf_total",
    "Verif.fmaf_special",
    "Verif.fmaf_hair_wrong"
   ],
   "note": "The property is false of the code for subnormal results a hair away from a midpoint (FmafHair; witness fmaf_hair_wrong). Proved: correct rounding and zero sign for every other finite triple (in particular every result with |xy+z| >= 2^-126), no panic for any triple, IEEE rules for infinities and NaNs. fmaf16 is unimplemented!() in the code."
  },
  {
   "property": "C23",
   "status": "partial",
   "theorems": [
    "Verif.U256.widenMul_exact",
    "Verif.U256.widenMul_lo_hi",
    "Verif.U256.add_exact",
    "Verif.U256.shr_exact",
    "Verif.U256.shr_panics_iff",
    "Verif.U256.or_exact",
    "Verif.U256.not_exact",
    "Verif.U256.consts",
    "Verif.U256.widen_exact",
    "Verif.U256.signed_exact",
    "Verif.I256.widen_exact",
    "Verif.I256.zeroWidenMul_exact",
    "Verif.I256.consts_partial",
    "Verif.I256.max_not_upper_bound",
    "Verif.U256.derived_order_not_numeric",
    "Verif.Prim.widenMul_exact",
    "Verif.Prim.zeroWidenMul_exact",
    "Verif.Prim.widenMulS_exact",
    "Verif.Prim.lo_hi_exact",
    "Verif.Prim.hiS_eq",
    "Verif.Prim.fromLoHi_exact"
   ],
   "note": "Everything proved except that i256::MAX is not an upper bound (it is negative: max_not_upper_bound). Also recorded: the derived comparison of u256 is not numeric (derived_order_not_numeric)."
  },
  {
   "property": "C24",
   "status": "partial",
   "theorems": [
    "Verif.HexFloat.parse_correct_partial",
    "Verif.HexFloat.hf_exact_partial",
    "Verif.HexFloat.parse_f128_wraps"
   ],
   "note": "Every rounding mode, every format with at most 128 bits, digit strings of any length up to 2^28 digits. Missing: literals whose digit count and exponent together exceed 2^30 (the code can overflow i32 there), and binary128 values of at least 2^49154, where the property is false of the code (witness parse_f128_wraps: 0x1p65536 parses as exactly 1.0)."
  },
  {
   "property": "C25",
   "status": "partial",
   "theorems": [
    "Verif.HexFloat.parse_total_partial",
    "Verif.HexFloat.parse_malformed_partial",
    "Verif.HexFloat.parse_accepts_only_literals",
    "Verif.HexFloat.parse_exponent_panics"
   ],
   "note": "The property is false of the code: large exponents overflow u32/i32 arithmetic (witness parse_exponent_panics). Proved: no panic for every byte string up to 2^27 bytes whose exponent digits stay at most 2^29; malformed strings are errors; only literals, inf and nan are accepted (any byte string)."
  },
  {
   "property": "C26",
   "status": "proved",
   "theorems": [
    "Verif.HexFloat.fmt_parse_finite",
    "Verif.HexFloat.fmt_hf_finite",
    "Verif.HexFloat.fmt_parse_inf",
    "Verif.HexFloat.fmt_parse_nan"
   ],
   "note": "all formats and every rounding mode of the parser; infinities and NaN signs too"
  },
  {
   "property": "C27",
   "status": "proved",
   "theorems": [
    "Verif.status_with",
    "Verif.status_with_laws",
    "Verif.status_set_underflow",
    "Verif.status_set_inexact",
    "Verif.status_flags_distinct"
   ],
   "note": ""
  },
  {
   "property": "C28",
   "status": "proved",
   "theorems": [
    "Verif.hypot_correct",
    "Verif.hypotf_correct"
   ],
   "note": "IsHypot: special values, commutativity, sign independence, zero argument, never negative, no failing check, every pair of bit patterns."
  },
  {
   "property": "C29",
   "status": "proved",
   "theorems": [
    "Verif.pow_special",
    "Verif.powf_special"
   ],
   "note": "IsPowFn; every pair of bit patterns covered by the listed cases, f64 and f32"
  },
  {
   "property": "C30",
   "status": "proved",
   "theorems": [
    "Verif.exp_special",
    "Verif.expf_special",
    "Verif.exp2_special",
    "Verif.exp2f_special",
    "Verif.expm1_special",
    "Verif.expm1f_special",
    "Verif.expm1f_early_overflow",
    "Verif.exp10_special",
    "Verif.exp10f_special",
    "Verif.exp10_special_full"
   ],
   "note": "Saturation is stated as: wherever the correct rounding of the exact value is infinite or zero, the function returns it (exp, exp2, exp10 and their single-precision forms; for expm1, expm1f the corresponding limits). expm1f in addition returns +inf slightly too early; witness expm1f_early_overflow."
  },
  {
   "property": "C31",
   "status": "proved",
   "theorems": [
    "Verif.log_domain",
    "Verif.log2_domain",
    "Verif.log10_domain",
    "Verif.log1p_domain",
    "Verif.logf_domain",
    "Verif.log2f_domain",
    "Verif.log10f_domain",
    "Verif.log1pf_domain"
   ],
   "note": "every bit pattern; absence of integer overflow included"
  },
  {
   "property": "C32",
   "status": "proved",
   "theorems": [
    "Verif.sinf_odd",
    "Verif.tanf_odd",
    "Verif.cosf_even",
    "Verif.sinh_odd",
    "Verif.sinhf_odd",
    "Verif.tanh_odd",
    "Verif.tanhf_odd",
    "Verif.asinh_odd",
    "Verif.asinhf_odd",
    "Verif.atanh_odd",
    "Verif.atanhf_odd",
    "Verif.cosh_even",
    "Verif.coshf_even",
    "Verif.fabs_even",
    "Verif.asin_odd",
    "Verif.asinf_odd",
    "Verif.atan_odd",
    "Verif.atanf_odd",
    "Verif.erf_odd",
    "Verif.erff_odd",
    "Verif.cbrt_odd",
    "Verif.cbrtf_odd",
    "Verif.sin_odd",
    "Verif.cos_even",
    "Verif.tan_odd"
   ],
   "note": "Every listed function in both precisions, for every non-NaN bit pattern (the sign of a NaN result is left open)."
  },
  {
   "property": "C33",
   "status": "proved",
   "theorems": [
    "Verif.sincos_eq",
    "Verif.sincosf_eq"
   ],
   "note": "every bit pattern, f64 and f32"
  },
  {
   "property": "C34",
   "status": "proved",
   "theorems": [
    "Verif.sin_trig",
    "Verif.cos_trig",
    "Verif.tan_trig",
    "Verif.sinf_trig",
    "Verif.cosf_trig",
    "Verif.tanf_trig",
    "Verif.sincos_total",
    "Verif.sincosf_total",
    "Verif.sincos_trig",
    "Verif.sincosf_trig"
   ],
   "note": "IsTrig and IsSincos: special values, tiny arguments, no panic and no unreachable branch, every bit pattern"
  },
  {
   "property": "C35",
   "status": "partial",
   "theorems": [
    "Verif.acosh_domain_partial",
    "Verif.acoshf_domain_partial",
    "Verif.acosh_full_fails",
    "Verif.acoshf_full_fails",
    "Verif.atanh_domain",
    "Verif.atanhf_domain",
    "Verif.asin_domain",
    "Verif.asinf_domain",
    "Verif.acos_domain",
    "Verif.acosf_domain",
    "Verif.atan_special",
    "Verif.atanf_special",
    "Verif.atan2_special",
    "Verif.atan2f_special"
   ],
   "note": "asin, acos, atan, atan2, atanh: proved. acosh: false of the code between -2^26 and -4096 (f32: -2^12 and -16) with witnesses; proved elsewhere."
  },
  {
   "property": "C36",
   "status": "proved",
   "theorems": [
    "Verif.Exp2.core_total",
    "Verif.Exp2f.core_total",
    "Verif.exp_special",
    "Verif.Exp10f.look_total",
    "Verif.sqrt_total",
    "Verif.sqrtf_total",
    "Verif.sqrtf16_total",
    "Verif.sqrtf128_total",
    "Verif.Exp10.look_total",
    "Verif.rem_pio2_total",
    "Verif.rem_pio2f_total",
    "Verif.atan_special",
    "Verif.atanf_special",
    "Verif.pow_total",
    "Verif.powf_total",
    "Verif.tgamma_special",
    "Verif.Tgamma.fact_some"
   ],
   "note": "exp, exp2, exp2f, exp10f, exp10, rem_pio2_large, atan, pow, powf and the four sqrt tables: totality theorems, where an out-of-range index is a failure (none). tgamma: factorial table."
  },
  {
   "property": "C37",
   "status": "proved",
   "theorems": [
    "Verif.rem_pio2_large_total",
    "Verif.rem_pio2f_large_total",
    "Verif.rem_pio2_total",
    "Verif.rem_pio2f_total"
   ],
   "note": "Both digit tables (32-bit and 64-bit targets). Out-of-bounds accesses, i32 overflow, usize wrap-around and running out of loop fuel are all none in the model; the theorems show none is never returned. The heart is a continued-fraction certificate per exponent (Verif.CF.away) showing that no float is too close to a multiple of pi/2."
  },
  {
   "property": "C38",
   "status": "partial",
   "theorems": [
    "Verif.i586_ceil_differs",
    "Verif.i586_floor_differs",
    "Verif.i586_ceil_partial",
    "Verif.i586_floor_partial"
   ],
   "note": "The property is false of the code: ceil(-0.5) and floor(-0.0) give +0.0 on i586 and -0.0 portably (witness theorems). Proved: exactly the negative zeros differ."
  },
  {
   "property": "C39",
   "status": "partial",
   "theorems": [
    "Verif.libm_f32_forwards",
    "Verif.libm_f64_forwards_partial",
    "Verif.libm_f64_roundeven_wrong",
    "Verif.libm_f128_forwards",
    "Verif.libm_f16_forwards_partial"
   ],
   "note": "For every method of the whole table and whatever the free functions compute. False for one method of Libm<f64>, whose name is misspelt roundevem (witness)."
  },
  {
   "property": "C40",
   "status": "proved",
   "theorems": [
    "Verif.words_split",
    "Verif.combine_get",
    "Verif.words_combine",
    "Verif.set_high_word",
    "Verif.set_low_word"
   ],
   "note": ""
  },
  {
   "property": "C41",
   "status": "partial",
   "theorems": [
    "Verif.accessors",
    "Verif.fromParts_parts",
    "Verif.parts_fromParts",
    "Verif.fromParts_value",
    "Verif.isSubnormal_iff",
    "Verif.isSubnormal_zero_wrong",
    "Verif.eqRepr_iff",
    "Verif.min_max_bound",
    "Verif.epsilon_spec",
    "Verif.minPositiveNormal_spec",
    "Verif.expMinSubnorm_spec",
    "Verif.normalize_spec"
   ],
   "note": "everything proved except that is_subnormal is also true for zero (isSubnormal_zero_wrong); its exact meaning is isSubnormal_iff"
  },
  {
   "property": "C42",
   "status": "proved",
   "theorems": [
    "Verif.hypot_correct",
    "Verif.hypotf_correct"
   ],
   "note": "field acc of IsHypot, against the real square root of Mathlib, for every pair of finite arguments, subnormal and huge ones included"
  },
  {
   "property": "C43",
   "status": "proved",
   "theorems": [
    "Verif.exp10f_integer",
    "Verif.exp10_integer"
   ],
   "note": ""
  },
  {
   "property": "C44",
   "status": "proved",
   "theorems": [
    "Verif.pow_sym",
    "Verif.powf_sym"
   ],
   "note": "IsPowSym"
  },
  {
   "property": "C45",
   "status": "proved",
   "theorems": [
    "Verif.ipio2_narrow_correct",
    "Verif.ipio2_correct",
    "Verif.pio2_chunks_correct"
   ],
   "note": "Against Real.pi of Mathlib: Machin formula with binary splitting evaluated by the kernel in integer arithmetic."
  },
  {
   "property": "C46",
   "status": "proved",
   "theorems": [
    "Verif.sinf_accurate",
    "Verif.cosf_accurate",
    "Verif.tanf_accurate",
    "Verif.sincosf_accurate"
   ],
   "note": "Against Real.sin, Real.cos, Real.tan; no panic included. Uses a continued-fraction bound on the distance of floats to multiples of pi/2 and term-by-term rounding analysis."
  },
  {
   "property": "C47",
   "status": "proved",
   "theorems": [
    "Verif.sinh_special",
    "Verif.sinhf_special",
    "Verif.tanh_special",
    "Verif.tanhf_special",
    "Verif.asinh_special",
    "Verif.asinhf_special",
    "Verif.cosh_special",
    "Verif.coshf_special"
   ],
   "note": "every bit pattern"
  },
  {
   "property": "C48",
   "status": "proved",
   "theorems": [
    "Verif.erf_special",
    "Verif.erff_special",
    "Verif.erfc_special",
    "Verif.erfcf_special"
   ],
   "note": "IsErfSpecial, IsErfcSpecial: every bit pattern"
  },
  {
   "property": "C49",
   "status": "proved",
   "theorems": [
    "Verif.cbrt_spec",
    "Verif.cbrtf_spec"
   ],
   "note": "IsCbrt 0.500001: every bit pattern, accuracy in units in the last place, exact cubes"
  },
  {
   "property": "C50",
   "status": "proved",
   "theorems": [
    "Verif.sin_accurate",
    "Verif.cos_accurate",
    "Verif.sincos_accurate"
   ],
   "note": "Against Real.sin and Real.cos in units in the last place, for every finite double; absence of panics included. All four reduction paths (none, one-step, Cody-Waite with three stages, Payne-Hanek with the table of 2/pi) are covered."
  },
  {
   "property": "C51",
   "status": "proved",
   "theorems": [
    "Verif.pow_total",
    "Verif.powf_total",
    "Verif.exp10_special"
   ],
   "note": "none in the model is an overflow, an out-of-range shift or an out-of-bounds index; the theorems show none is never returned. Needs bounds on the rounded double-word logarithm and on the reduced argument of the exponential (Verif.PowT)."
  },
  {
   "property": "C52",
   "status": "proved",
   "theorems": [
    "Verif.tgamma_special",
    "Verif.tgammaf_special"
   ],
   "note": "Gamma is Mathlib's Real.Gamma; far from the origin monotonicity, the reflection formula and the distance of a float to the integers give over- and underflow."
  },
  {
   "property": "C53",
   "status": "proved",
   "theorems": [
    "Verif.lgamma_r_special",
    "Verif.lgammaf_r_special",
    "Verif.lgamma_total",
    "Verif.lgammaf_total"
   ],
   "note": "The reduction modulo two is exact, the sine and cosine kernels have the sign of the function they approximate (Verif.SinPi)."
  },
  {
   "property": "C54",
   "status": "proved",
   "theorems": [
    "Verif.j0_total",
    "Verif.j1_total",
    "Verif.y0_total",
    "Verif.y1_total",
    "Verif.jn_total",
    "Verif.yn_total",
    "Verif.j0f_total",
    "Verif.j1f_total",
    "Verif.y0f_total",
    "Verif.y1f_total",
    "Verif.jnf_total",
    "Verif.ynf_total"
   ],
   "note": "The counting loop of jn and jnf: the rounded recurrence gains at least one half in every step, because a step can lose something only when it changes binade (Verif.Grow.step)."
  },
  {
   "property": "C55",
   "status": "proved",
   "theorems": [
    "Verif.jn_special",
    "Verif.yn_special",
    "Verif.jnf_special",
    "Verif.ynf_special"
   ],
   "note": "Specification in Verif.Spec.Bessel."
  },
  {
   "property": "C56",
   "status": "proved",
   "theorems": [
    "Verif.jn_parity",
    "Verif.yn_parity",
    "Verif.jnf_parity",
    "Verif.ynf_parity"
   ],
   "note": "At the infinities the sign of the zero result is not antisymmetric (Verif.j1_inf), hence finite arguments."
  },
  {
   "property": "C57",
   "status": "proved",
   "theorems": [
    "Verif.tan_accurate"
   ],
   "note": "Against Real.tan in units in the last place, for every finite double; absence of panics included. Both branches of the kernel (direct and reflected at pi/4), both parities with the compensated reciprocal, all reduction paths."
  },
  {
   "property": "C58",
   "status": "proved",
   "theorems": [
    "Verif.exp_accurate",
    "Verif.expf_accurate"
   ],
   "note": "Against Real.exp in units in the last place; with Verif.exp_special / Verif.expf_special (C30) the remaining arguments give infinity exactly. No panic is part of the claim."
  },
  {
   "property": "C59",
   "status": "proved",
   "theorems": [
    "Verif.exp2_accurate",
    "Verif.exp2f_accurate"
   ],
   "note": "Against the real function 2^x in units in the last place; absence of panics included. Every entry of both tables is checked by the kernel against the real power (Verif.Exp2.tab, Verif.Exp2f.tab)."
  },
  {
   "property": "C60",
   "status": "proved",
   "theorems": [
    "Verif.log_accurate",
    "Verif.logf_accurate"
   ],
   "note": "Against Real.log in units in the last place, for every finite positive argument of both precisions; absence of panics included."
  },
  {
   "property": "C61",
   "status": "proved",
   "theorems": [
    "Verif.log1p_accurate",
    "Verif.log1pf_accurate"
   ],
   "note": "Against Real.log (1 + x) in units in the last place, for every finite argument above -1 of both precisions; absence of panics included."
  },
  {
   "property": "C62",
   "status": "proved",
   "theorems": [
    "Verif.log2_accurate",
    "Verif.log10_accurate",
    "Verif.log2f_accurate",
    "Verif.log10f_accurate"
   ],
   "note": "Against Real.logb 2 and Real.logb 10 in units in the last place, for every finite positive argument of both precisions; absence of panics included."
  },
  {
   "property": "C63",
   "status": "proved",
   "theorems": [
    "Verif.atan_accurate",
    "Verif.atanf_accurate"
   ],
   "note": "Against Real.arctan in units in the last place, for every finite argument of both precisions; absence of panics included."
  },
  {
   "property": "C64",
   "status": "proved",
   "theorems": [
    "Verif.asin_accurate",
    "Verif.acos_accurate",
    "Verif.asinf_accurate",
    "Verif.acosf_accurate"
   ],
   "note": "Against Real.arcsin and Real.arccos in units in the last place, for every argument from -1 to 1 of both precisions; absence of panics included."
  },
  {
   "property": "C65",
   "status": "proved",
   "theorems": [
    "Verif.atan2_accurate",
    "Verif.atan2f_accurate"
   ],
   "note": "Against the argument of a complex number (Mathlib Complex.arg) in units in the last place, for all finite pairs with y nonzero or x positive; absence of panics included. The remaining pairs have a zero y and a result fixed by the signs of the zeros (C35)."
  },
  {
   "property": "C66",
   "status": "proved",
   "theorems": [
    "Verif.expm1_accurate",
    "Verif.expm1f_accurate"
   ],
   "note": "Against Real.exp x - 1 in units in the last place; absence of panics included. expm1f is claimed up to its own overflow threshold 88.7216796875, above which it returns infinity too early (Verif.expm1f_early_overflow)."
  },
  {
   "property": "C67",
   "status": "proved",
   "theorems": [
    "Verif.sinh_accurate",
    "Verif.sinhf_accurate",
    "Verif.sinhf_nan_gap",
    "Verif.cosh_accurate",
    "Verif.coshf_accurate",
    "Verif.tanh_accurate",
    "Verif.tanhf_accurate"
   ],
   "note": "Against Mathlib sinh, cosh, tanh in units in the last place; absence of panics included. For sinhf the 150 magnitudes between the overflow threshold of expm1f and the switch to k_expo2f are excluded, and sinhf_nan_gap proves that each of them returns a NaN."
  },
  {
   "property": "C68",
   "status": "proved",
   "theorems": [
    "Verif.asinh_accurate",
    "Verif.asinhf_accurate",
    "Verif.acosh_accurate",
    "Verif.acoshf_accurate",
    "Verif.atanh_accurate",
    "Verif.atanhf_accurate"
   ],
   "note": "Against Mathlib arsinh, arcosh, artanh in units in the last place, for every finite argument of the domain; absence of panics included. Builds on C20 (square root), C60 (log) and C61 (log1p)."
  },
  {
   "property": "C69",
   "status": "proved",
   "theorems": [
    "Verif.exp10_accurate",
    "Verif.exp10_accurate_outside",
    "Verif.exp10f_accurate"
   ],
   "note": "Against the real power of ten in units in the last place, for every finite argument below overflow; absence of panics included. The large-argument branch of exp10 is an accuracy proof for pow at the base 10."
  },
  {
   "property": "C70",
   "status": "proved",
   "theorems": [
    "Verif.sin_range",
    "Verif.cos_range",
    "Verif.sinf_range",
    "Verif.cosf_range"
   ],
   "note": "From C46 and C50 and the irrationality of pi: a result within one unit in the last place of a number of magnitude strictly below one cannot exceed one."
  },
  {
   "property": "C71",
   "status": "proved",
   "theorems": [
    "Verif.log_sign",
    "Verif.logf_sign",
    "Verif.log2_sign",
    "Verif.log2f_sign",
    "Verif.log10_sign",
    "Verif.log10f_sign",
    "Verif.log1p_sign",
    "Verif.log1pf_sign"
   ],
   "note": "From C60, C61, C62 and a lower bound of the exact logarithm next to one."
  },
  {
   "property": "C72",
   "status": "proved",
   "theorems": [
    "Verif.trunc_monotone",
    "Verif.floor_monotone",
    "Verif.ceil_monotone",
    "Verif.round_monotone",
    "Verif.rint_monotone",
    "Verif.roundeven_monotone",
    "Verif.sqrt_monotone",
    "Verif.sqrtf_monotone",
    "Verif.sqrtf16_monotone",
    "Verif.sqrtf128_monotone"
   ],
   "note": "Order of the extended rationals; the rounding functions for every format at once."
  },
  {
   "property": "C73",
   "status": "proved",
   "theorems": [
    "Verif.tanh_range",
    "Verif.tanhf_range",
    "Verif.cosh_range",
    "Verif.coshf_range",
    "Verif.expm1_range",
    "Verif.expm1f_range",
    "Verif.acos_range",
    "Verif.acosf_range"
   ],
   "note": "From the accuracy theorems away from the limits of the range, and from the monotonicity of the last rounded operations next to them."
  },
  {
   "property": "C74",
   "status": "proved",
   "theorems": [
    "Verif.sin_sign",
    "Verif.cos_sign",
    "Verif.tan_sign",
    "Verif.sinf_sign",
    "Verif.cosf_sign",
    "Verif.tanf_sign",
    "Verif.cos_nonzero",
    "Verif.cosf_nonzero"
   ],
   "note": "The lower bound of the distance to a multiple of pi/2 comes from the proof of the argument reduction."
  },
  {
   "property": "C75",
   "status": "proved",
   "theorems": [
    "Verif.asin_sign",
    "Verif.asinf_sign",
    "Verif.atan_sign",
    "Verif.atanf_sign",
    "Verif.sinh_sign",
    "Verif.sinhf_sign",
    "Verif.tanh_sign",
    "Verif.tanhf_sign",
    "Verif.asinh_sign",
    "Verif.asinhf_sign",
    "Verif.atanh_sign",
    "Verif.atanhf_sign",
    "Verif.expm1_sign",
    "Verif.expm1f_sign"
   ],
   "note": "From the accuracy theorems; the sixteen smallest magnitudes, where several units in the last place exceed the value, are evaluated one by one."
  },
  {
   "property": "C76",
   "status": "proved",
   "theorems": [
    "Verif.exp_sides",
    "Verif.expf_sides",
    "Verif.exp2_nonneg"
   ],
   "note": "The sign is carried through the last scaling; the side of one follows from rounded 1 + x for small arguments and from the accuracy otherwise."
  },
  {
   "property": "C77",
   "status": "proved",
   "theorems": [
    "Verif.pow_sign",
    "Verif.powf_sign"
   ],
   "note": "For all pairs of bit patterns; the sign is carried through the kernel, the scaling and the overflow and underflow exits, and transferred to a negative base by C44. That the result of a positive base is never NaN is not part of the claim."
  },
  {
   "property": "C78",
   "status": "proved",
   "theorems": [
    "Verif.acosh_sign",
    "Verif.acoshf_sign"
   ],
   "note": "From C68 and a lower bound of the exact value at the float after one."
  },
  {
   "property": "C79",
   "status": "proved",
   "theorems": [
    "Verif.exp10_nonneg",
    "Verif.exp10f_nonneg"
   ],
   "note": "From C69 for arguments from -40 on, below from the sign of pow (C77) and of exp2 (C76)."
  }
 ]
}