# Formal model of rust-lang/libm in Lean 4 — design

## Approach

* **Formats.** `Fmt` (exponent width, significand width, side conditions) with the four instances
  `f16 f32 f64 f128`. A float is a bit pattern (`Flt F`, wrapper of `BitVec F.bits`), exactly as the
  Rust code sees it through `to_bits`/`from_bits`. Theorems are stated for every `Fmt`, or for the
  concrete formats the Rust function exists for.
* **Meaning.** `Verif/Spec` defines, independently of the code, the value `toRat x : ℚ` of a finite
  pattern, the classifiers (NaN, infinite, zero, sign), and what "correctly rounded" means:
  `IsRNE q r` (r is a nearest float, ties to even significand, overflow threshold
  `(2 - 2^-p) * 2^emax`, sign rules).
* **Machine arithmetic.** Rust `+ - * /`, comparisons, casts on floats are IEEE 754
  operations. They are modelled as "exact rational, then round to nearest even" by an executable
  rounding function, which is *proved* to satisfy the independent spec `IsRNE`. NaN
  results are a canonical quiet NaN; theorems about NaN only claim "is NaN" where Rust leaves
  the payload open.
* **Code.** Each Rust function is one (computable, total) Lean function, citing file and lines.
  Loops are structural/well-founded recursions; integer overflow, shift overflow and array bounds,
  where relevant, are explicit error values (`Option`/`Except`), so that "does not
  panic" is a theorem about the result.
* **Theorems.** One file per property group in `Verif/Props`, with a non-vacuity `example` beside
  each theorem; helper lemmas live elsewhere (`Verif/Theory`).

## Trusted base

* Lean 4.33.0 kernel; axioms `propext`, `Classical.choice`, `Quot.sound` only.
* The transcription of the Rust code into `Verif/Model` (by hand, cited line by line).
* That the hardware/compiler implements IEEE 754 binary arithmetic with round-to-nearest-even for
  Rust's float operators.
* Not modelled: the `select_implementation!` arch intrinsics (aarch64, wasm32, x86 SSE2), the
  `force_eval!` side effects (FP exception flags of the hardware), timing.
* Modelled: fabs, copysign, trunc/floor/ceil/round/rint/roundeven, min/max families, fdim, frexp, ilogb, modf,
  nextafter, ldexp/scalbn, fmod, remainder/remquo, i586 ceil/floor, u256/i256, fma (all formats), the hex float parser and
  formatter, sqrt (all formats), hypot, the exp and log families, pow, sin/cos/tan/sincos with the argument reduction,
  the inverse trigonometric functions, the hyperbolic functions and their inverses, cbrt, erf/erfc,
  the gamma functions and the Bessel functions.

## Plan per property

| id | model | proof |
|----|-------|-------|
| C01 C02 | `Model/Basic` fabs, copysign | bit-vector extensionality |
| C03 C04 C05 C08 | trunc/floor/ceil with status | value = integer part via mask arithmetic; C08 is false of the code for powers of two below 1: negation with witness, `_partial` elsewhere |
| C06 C07 | round, rint through modelled `+`,`-` | monotonicity of rounding, exactness near 2^SIG_BITS |
| C09 C10 C11 C12 | min/max families, fdim | case analysis on comparisons; C11: `fmaximum_num(-0.0, +NaN)` is NaN in the code: negation with witness + `_partial` |
| C13 C14 C15 C16 | frexp, ilogb, modf, nextafter | value arithmetic on decomposed patterns, loop induction |
| C17 | scalbn generic incl. f16 branch | staged products are exact or harmless; single rounding theorem |
| C18 C19 | fmod, remquo loops | loop invariants over unbounded iteration counts |
| C20 | sqrt Goldschmidt | table bound (whole table by kernel evaluation) + error analysis of fixed-point iteration |
| C21 C22 | fma_round, fma_wide | sticky-bit argument; suspected defect in sticky bit computation (witness) |
| C23 | u256 arithmetic | Nat arithmetic |
| C24 C25 C26 | hex float parser / formatter on byte lists | induction on strings; overflow as error value (suspected defects: exponent overflow panics) |
| C27 | Status flags | bit algebra |
| C28–C35 | decision logic and full float computation of transcendental functions | branch analysis, sign symmetry of IEEE operations |
| C36 C37 | table indices, rem_pio2_large | index bounds as explicit errors |
| C38 | i586 ceil/floor | suspected defect: sign of zero lost (witness) + `_partial` |
| C39 | dispatch table of libm_helper (`Model/Facade`, generated from the macro invocations) | every row of the finite table compared with the naming rule by kernel evaluation |
| C42 | hypot in binary64/binary32 arithmetic | standard-model error analysis (`Theory/Err`, `Theory/Hypot*`) against `Real.sqrt` |
| C43 | exp10f table and integer detection | modff theorem + whole table by kernel evaluation |
| C44 | pow, powf | sign-commutation lemmas of IEEE operations (`Theory/Neg`), bit-level parity test = parity of the value |
| C45 | the 2/pi and pi/2 tables | Machin formula with binary splitting in exact integer arithmetic, evaluated by the kernel, against `Real.pi` |
| C46 | sinf, cosf, tanf with the f64 kernels and the reduction | Taylor bounds of the real functions, error calculus `As`, polynomial bounds (`PolyBd`), distance of floats to multiples of pi/2 by continued fractions (`CF`, `CF2`); stated in units in the last place (`Spec/Ulp`) |
| C47 | sinh, cosh, tanh, asinh | sign split off bit for bit (`Theory/Odd`), branch analysis |
| C48 | erf, erfc, erff, erfcf with their rational kernels | error calculus bounds the correction far below one (`Theory/ErfKern`), branch analysis, exponent bounds of the float exponential |
| C49 | cbrt, cbrtf | relative error calculus for the Newton and Halley steps, fma recovers the rounding errors, bit-level splitting of the exponent, opposite arguments give opposite iterates |
| C50 | sin, cos, sincos with the whole reduction rem_pio2 / rem_pio2_large | both words of the reduced argument within 2^-62 relatively (`Theory/RemSmall`, `RemMed`, `RplNear`), kernels within one unit (`Theory/KernD`, `TrigD`), distance of doubles to multiples of pi/2 by continued fractions |
| C51 | pow, powf, exp10 | error calculus for a generic format (`Theory/AsW`), truncation to the high word (`PowCut`), bounds for the double-word logarithm (`PowLog`, `PowSum`) and the reduced exponential (`PowTail`), then every checked integer operation (`PowSplit`, `PowTot`, `PowTot2`, `PowfTot`) |
| C52 | tgamma, tgammaf | `Real.Gamma` monotone on [2,∞) and the reflection formula (`Theory/GammaR`), factorial table by kernel evaluation, totality from C51 |
| C53 | lgamma_r, lgammaf_r, lgamma, lgammaf | exactness of the reduction modulo two and signs of the kernels (`Theory/SinPi`), sign of Γ between the poles by reflection |
| C54 | j0, j1, jn, y0, y1, yn and f32 versions | straight-line parts by the totality of sin, cos, sqrt and log; the counting loop of jn by an invariant on the growth of the rounded recurrence (`Theory/Grow`) |
| C55 | the same | case analysis on the argument words; specification in `Spec/Bessel` |
| C56 | the same | equality up to sign propagated through every operation (`Theory/Neg`) |
| C57 | tan, k_tan | error calculus on the odd polynomial in three ranges (`Theory/TanPoly`, `TanReal`), exact differences and cleared low words (`Cut`), the compensated reciprocal (`TanInv`), the reflection tan(π/4 − ρ) (`TanBig`) |
| C58 | exp, expf | exact argument reduction (product with the short leading part of ln 2, exact difference), error calculus on the rational approximation, Taylor bound for the real function, one lemma for the scaled and possibly subnormal result (`Theory/ExpEnd`, `ExpReal`, `ExpD`, `ExpRed`, `ExpF`) |
| C59 | exp2, exp2f | rounding by adding 1.5·2^k made exact (`Theory/Magic`), every table entry compared with the real power by raising it to the 256th power in ℚ (`Theory/Exp2Tab`), polynomial bound, error calculus, one final rounding (`Theory/Exp2D`, `Exp2F`, `UlpTop`) |
| C60 | log, logf | the reduction `x = 2^k(1+f)` read off the bits (`Theory/LogRed`), the polynomial against the series of log((1+s)/(1-s)) (`Theory/LogReal`), absolute and relative error calculi for `s(hfsq+R)` (`Theory/LogCore`, `LogAs`), the final additions by binade, with an exactness argument where k = ±1 and the result is below 1/2 (`Theory/LogBody`) |
| C61 | log1p, log1pf | the same sum as C60 with the correction `c` added; `c` is shown to be the rounding error of `1 + x` divided by `1 + x`, with an exact numerator, while `k` is below 54 (25), and the omitted error is bounded by a quarter of a unit in the last place above (`Props/Log1pAcc`) |
| C62 | log2, log2f, log10, log10f | the high part of the logarithm, cut to half the word, is multiplied exactly by the high part of `1/ln 2` (`1/ln 10`); the constants are compared with `Real.log 2` and `Real.log 10` through rational enclosures; relative accuracy near 1, absolute error against the unit in the last place of the result elsewhere, with the exact final addition of log10f and the one reduced argument below `sqrt(1/2)` of log2f treated apart (`Theory/LogHi`, `Theory/Log2Body`, `Props/Log2Acc`) |
| C63 | atan, atanf | the arctangent series with an explicit remainder bounds the error of the polynomial; the reductions `(x-c)/(1+cx)` have exact numerators and a bounded denominator error; each of seven ranges is charged against the unit in the last place of its result (`Theory/AtanAcc`, `Props/AtanAcc`) |
| C64 | asin, acos, asinf, acosf | the derivative of `x + x R(x²)` is compared with `1/√(1-x²)` through a polynomial certificate, which bounds the error of the rational kernel; above one half `asin a = π/2 - 2 asin √((1-a)/2)` with the rounding error of the square root recovered from the cut high part (`Theory/AsinReal`, `AsinKern`, `AsinSqrt`, `AsinAcc`, `AsinBig`, `Props/AsinAcc`) |
| C65 | atan2, atan2f | exponent-field comparisons become ratio bounds, so the rounded quotient is finite and its error (relative, or absolute when subnormal) passes through the slope of the arctangent; in the left half plane π is taken in two parts (`Theory/Atan2Acc`, `Props/Atan2Acc`) |
| C66 | expm1, expm1f | a real bound for the rational kernel, its rounding error, the two-part argument reduction with its correction term, then one lemma per recombination branch of the exponent k (0, ±1, 2–19, 20–56, the rest, the top binade) (`Theory/Expm1Real`, `Expm1K`, `Expm1End`, `Props/Expm1Acc`) |
| C67 | sinh, cosh, tanh (f64, f32) | a calculus of relative errors over rounded operations, the same in both formats (`Theory/Rl`); each formula analysed at the computed value of e^x - 1 and compared with the exact one through its divided difference (`Theory/HypCore`); the exact scaling of the large-argument exponential and the branch thresholds (`Props/HypAcc`) |
| C68 | asinh, acosh, atanh (f64, f32) | the calculus of C67 with rules for a correctly rounded square root (relative errors halve), for log (errors become absolute, and the argument is above e) and for log1p (relative errors do not grow); each branch analysed against the exact identity it implements, e.g. 1/(sqrt(x^2+1)+x) = sqrt(x^2+1)-x (`Theory/InvHypCore`); thresholds and Sterbenz subtractions per format (`Props/InvHypAcc`) |
| C69 | exp10, exp10f | the table lookup, the product by log2 10 and exp2 analysed with the relative-error calculus (`Props/Exp10Acc`); from 16 on, pow(10, x): the double-double product is exact up to 2^-66, the integer part splits off exactly, the rational approximation is the one of exp (C58), and adding to the exponent field or scalbn is one more rounding (`Theory/PowExp`) |
| C70 | sin, cos, sinf, cosf | consequence of C46 and C50: a rational argument is not a multiple of pi/2, so the exact value is strictly inside (-1, 1), where a unit in the last place is half the spacing above 1 (`Props/Range`) |
| C71 | log, log2, log10, log1p (both precisions) | consequence of C60 to C62: next to one the exact logarithm is far above the error bound; for log1p of subnormals the bound 0.99 is below one unit (`Props/Range`) |
| C72 | trunc, floor, ceil, round, rint, roundeven, sqrt (all formats) | from the characterisations C03 to C07 and C20, on pairs of arguments (`Props/Monotone`) |
| C73 | tanh, cosh, expm1, acos (both precisions) | from the accuracy theorems C64, C66 and C67 away from the limits of the range; near them from the last rounded operations, which are monotone (`Props/RangeHyp`) |
| C74 | sin, cos, tan (both precisions) | the argument reduction gives a lower bound of the distance to a multiple of pi/2, so the exact value is far above the error of C46, C50 and C57 (`Props/Signs`) |
| C75 | asin, atan, sinh, tanh, asinh, atanh, expm1 (both precisions) | the exact value is at least half the argument next to zero, so the accuracy theorems C63 to C68 decide the sign from sixteen smallest subnormals on; the remaining magnitudes are evaluated (`Props/Signs`) |
| C76 | exp, expf, exp2 | nonnegative because the scaled kernel value is; next to zero the result is the rounded `1 + x`, elsewhere the accuracy C58 decides (`Props/ExpRange`) |
| C77 | pow, powf | the kernel value is positive and the exponent field added to it cannot reach the sign bit, so every exit has the sign of the factor `s`; the decision structure and C44 give the rest (`Theory/PowSplit`, `Theory/PowTot`, `Theory/PowTot2`, `Theory/PowfTot`, `Props/PowSign`) |
| C78 | acosh, acoshf | the exact value at the float after one is far above the error of C68 (`Props/AcoshSign`) |
| C79 | exp10, exp10f | accuracy C69 where the power of ten is at least `10^-40`; elsewhere the sign of `pow` and `exp2` (`Props/Exp10Range`) |
| C40 C41 | word helpers, Float trait helpers | bit-vector algebra |

Accuracy (ULP) claims about transcendental functions (sin, exp, pow, ...) need certified real analysis of the
approximating polynomials; they are stated only where listed above (C42, C46, C49, C50, C57, C58, C59, C60, C61, C62, C63, C64, C65, C66, C67, C68, C69). The saturation part of C30 is nevertheless
stated against the real exponential function of Mathlib: `IsExpFn.saturate` says that wherever the correctly rounded
exact value is infinite or zero, so is the result. For exp10f it is reached through the accuracy of exp2, for exp10 through
the exactness of the leading product of its logarithm (`Theory/Pow10`, `Props/Exp10Sat`).

## Discrepancies found

Where a property is false of the code, the negation is proved with a concrete witness, and the property is
proved under the weakest hypothesis found (suffix `_partial`).

1. `fmaximum_num(-0.0, NaN)` returns NaN (C11, `fmaximumNum_nan_wrong`).
2. `trunc`/`floor`/`ceil` report status OK instead of INEXACT for normal powers of two below 1
   (C08, `trunc_status_wrong` …).
3. `is_subnormal(0.0)` is true (C41, `isSubnormal_zero_wrong`).
4. i586 `ceil`/`floor` lose the sign of a zero result (C38, `i586_ceil_differs` …).
5. `i256::MAX` is negative and the derived order of `u256` is not numeric (C23).
6. `fma` computes the sticky bit of the shifted product from a word that was already shifted
   (fma.rs 96-98), so a product slightly above a tie is rounded as a tie (C21, `fma_hair_wrong`).
7. `fmaf` rounds twice when the result is a binary32 subnormal: the halfway test looks at the last bits of a
   normal result only (C22, `fmaf_hair_wrong`).
8. The hex float parser overflows `u32`/`i32` on large exponents such as `0x1p4294967296` or `0x1p2147483647`, a
   panic in builds with overflow checks (C25, `parse_exponent_panics`).
9. For binary128 the parser shifts a too large exponent out of the 128-bit word: `0x1p65536` is accepted as exactly
   `1.0` with status OK (C24, `parse_f128_wraps`).
10. `expm1f` returns `+inf` for arguments in (88.72168, 88.72284], where the exact value is still finite (C30,
   `expm1f_early_overflow`).
11. `acosh` and `acoshf` are not NaN for all arguments below one: `acosh(-8192) = -inf`, `acosh(-3*2^24)` is about 17.3,
   `acoshf(-2048) = -inf` (C35, `acosh_full_fails`, `acoshf_full_fails`).
