/-!
# Model of the generic facade `Libm<T>` (libm_helper.rs)

The macro turns one line `(fn name(a: A, b: B) -> (R); => target);` into a method that calls `target` on its parameters in the
order of their declaration.  Values are opaque: the model is about names and arguments only.
-/

namespace Verif
namespace Facade

/-- libm_helper.rs 39: one line of the macro input -/
structure Entry where
  name : String
  params : List (String × String)
  ret : List String
  target : String
deriving DecidableEq

/-- libm_helper.rs 39-44: the method `name` of a table of methods.  A call binds the parameters to the arguments and passes the
values found under the parameter names to the free function; `none` when there is no such method or the number of arguments is
wrong, which the compiler rejects. -/
def call {V R : Type} (free : String → List V → R) (table : List Entry) (name : String) (args : List V) : Option R :=
  (table.find? fun e => e.name == name).bind fun e =>
  if args.length = e.params.length then
    let env := (e.params.map (·.1)).zip args
    ((e.params.map (·.1)).mapM fun p => env.lookup p).map fun vs => free e.target vs
  else none

/-- libm_helper.rs 52-109 -/
def tablef32 : List Entry := [
  ⟨"acos", [("x", "f32")], ["f32"], "acosf"⟩,
  ⟨"acosh", [("x", "f32")], ["f32"], "acoshf"⟩,
  ⟨"asin", [("x", "f32")], ["f32"], "asinf"⟩,
  ⟨"asinh", [("x", "f32")], ["f32"], "asinhf"⟩,
  ⟨"atan", [("x", "f32")], ["f32"], "atanf"⟩,
  ⟨"atan2", [("y", "f32"), ("x", "f32")], ["f32"], "atan2f"⟩,
  ⟨"atanh", [("x", "f32")], ["f32"], "atanhf"⟩,
  ⟨"cbrt", [("x", "f32")], ["f32"], "cbrtf"⟩,
  ⟨"ceil", [("x", "f32")], ["f32"], "ceilf"⟩,
  ⟨"copysign", [("x", "f32"), ("y", "f32")], ["f32"], "copysignf"⟩,
  ⟨"cos", [("x", "f32")], ["f32"], "cosf"⟩,
  ⟨"cosh", [("x", "f32")], ["f32"], "coshf"⟩,
  ⟨"erf", [("x", "f32")], ["f32"], "erff"⟩,
  ⟨"erfc", [("x", "f32")], ["f32"], "erfcf"⟩,
  ⟨"exp", [("x", "f32")], ["f32"], "expf"⟩,
  ⟨"exp10", [("x", "f32")], ["f32"], "exp10f"⟩,
  ⟨"exp2", [("x", "f32")], ["f32"], "exp2f"⟩,
  ⟨"expm1", [("x", "f32")], ["f32"], "expm1f"⟩,
  ⟨"fabs", [("x", "f32")], ["f32"], "fabsf"⟩,
  ⟨"fdim", [("x", "f32"), ("y", "f32")], ["f32"], "fdimf"⟩,
  ⟨"floor", [("x", "f32")], ["f32"], "floorf"⟩,
  ⟨"fma", [("x", "f32"), ("y", "f32"), ("z", "f32")], ["f32"], "fmaf"⟩,
  ⟨"fmax", [("x", "f32"), ("y", "f32")], ["f32"], "fmaxf"⟩,
  ⟨"fmin", [("x", "f32"), ("y", "f32")], ["f32"], "fminf"⟩,
  ⟨"fmod", [("x", "f32"), ("y", "f32")], ["f32"], "fmodf"⟩,
  ⟨"frexp", [("x", "f32")], ["f32", "i32"], "frexpf"⟩,
  ⟨"hypot", [("x", "f32"), ("y", "f32")], ["f32"], "hypotf"⟩,
  ⟨"ilogb", [("x", "f32")], ["i32"], "ilogbf"⟩,
  ⟨"j0", [("x", "f32")], ["f32"], "j0f"⟩,
  ⟨"j1", [("x", "f32")], ["f32"], "j1f"⟩,
  ⟨"jn", [("n", "i32"), ("x", "f32")], ["f32"], "jnf"⟩,
  ⟨"ldexp", [("x", "f32"), ("n", "i32")], ["f32"], "ldexpf"⟩,
  ⟨"lgamma", [("x", "f32")], ["f32"], "lgammaf"⟩,
  ⟨"lgamma_r", [("x", "f32")], ["f32", "i32"], "lgammaf_r"⟩,
  ⟨"log", [("x", "f32")], ["f32"], "logf"⟩,
  ⟨"log10", [("x", "f32")], ["f32"], "log10f"⟩,
  ⟨"log1p", [("x", "f32")], ["f32"], "log1pf"⟩,
  ⟨"log2", [("x", "f32")], ["f32"], "log2f"⟩,
  ⟨"modf", [("x", "f32")], ["f32", "f32"], "modff"⟩,
  ⟨"nextafter", [("x", "f32"), ("y", "f32")], ["f32"], "nextafterf"⟩,
  ⟨"pow", [("x", "f32"), ("y", "f32")], ["f32"], "powf"⟩,
  ⟨"remainder", [("x", "f32"), ("y", "f32")], ["f32"], "remainderf"⟩,
  ⟨"remquo", [("x", "f32"), ("y", "f32")], ["f32", "i32"], "remquof"⟩,
  ⟨"rint", [("x", "f32")], ["f32"], "rintf"⟩,
  ⟨"round", [("x", "f32")], ["f32"], "roundf"⟩,
  ⟨"roundeven", [("x", "f32")], ["f32"], "roundevenf"⟩,
  ⟨"scalbn", [("x", "f32"), ("n", "i32")], ["f32"], "scalbnf"⟩,
  ⟨"sin", [("x", "f32")], ["f32"], "sinf"⟩,
  ⟨"sincos", [("x", "f32")], ["f32", "f32"], "sincosf"⟩,
  ⟨"sinh", [("x", "f32")], ["f32"], "sinhf"⟩,
  ⟨"sqrt", [("x", "f32")], ["f32"], "sqrtf"⟩,
  ⟨"tan", [("x", "f32")], ["f32"], "tanf"⟩,
  ⟨"tanh", [("x", "f32")], ["f32"], "tanhf"⟩,
  ⟨"tgamma", [("x", "f32")], ["f32"], "tgammaf"⟩,
  ⟨"trunc", [("x", "f32")], ["f32"], "truncf"⟩,
  ⟨"y0", [("x", "f32")], ["f32"], "y0f"⟩,
  ⟨"y1", [("x", "f32")], ["f32"], "y1f"⟩,
  ⟨"yn", [("n", "i32"), ("x", "f32")], ["f32"], "ynf"⟩]

/-- libm_helper.rs 118-183 -/
def tablef64 : List Entry := [
  ⟨"acos", [("x", "f64")], ["f64"], "acos"⟩,
  ⟨"acosh", [("x", "f64")], ["f64"], "acosh"⟩,
  ⟨"asin", [("x", "f64")], ["f64"], "asin"⟩,
  ⟨"asinh", [("x", "f64")], ["f64"], "asinh"⟩,
  ⟨"atan", [("x", "f64")], ["f64"], "atan"⟩,
  ⟨"atan2", [("y", "f64"), ("x", "f64")], ["f64"], "atan2"⟩,
  ⟨"atanh", [("x", "f64")], ["f64"], "atanh"⟩,
  ⟨"cbrt", [("x", "f64")], ["f64"], "cbrt"⟩,
  ⟨"ceil", [("x", "f64")], ["f64"], "ceil"⟩,
  ⟨"copysign", [("x", "f64"), ("y", "f64")], ["f64"], "copysign"⟩,
  ⟨"cos", [("x", "f64")], ["f64"], "cos"⟩,
  ⟨"cosh", [("x", "f64")], ["f64"], "cosh"⟩,
  ⟨"erf", [("x", "f64")], ["f64"], "erf"⟩,
  ⟨"erfc", [("x", "f64")], ["f64"], "erfc"⟩,
  ⟨"exp", [("x", "f64")], ["f64"], "exp"⟩,
  ⟨"exp10", [("x", "f64")], ["f64"], "exp10"⟩,
  ⟨"exp2", [("x", "f64")], ["f64"], "exp2"⟩,
  ⟨"expm1", [("x", "f64")], ["f64"], "expm1"⟩,
  ⟨"fabs", [("x", "f64")], ["f64"], "fabs"⟩,
  ⟨"fdim", [("x", "f64"), ("y", "f64")], ["f64"], "fdim"⟩,
  ⟨"floor", [("x", "f64")], ["f64"], "floor"⟩,
  ⟨"fma", [("x", "f64"), ("y", "f64"), ("z", "f64")], ["f64"], "fma"⟩,
  ⟨"fmax", [("x", "f64"), ("y", "f64")], ["f64"], "fmax"⟩,
  ⟨"fmaximum", [("x", "f64"), ("y", "f64")], ["f64"], "fmaximum"⟩,
  ⟨"fmaximum_num", [("x", "f64"), ("y", "f64")], ["f64"], "fmaximum_num"⟩,
  ⟨"fmaximum_numf", [("x", "f32"), ("y", "f32")], ["f32"], "fmaximum_numf"⟩,
  ⟨"fmaximumf", [("x", "f32"), ("y", "f32")], ["f32"], "fmaximumf"⟩,
  ⟨"fmin", [("x", "f64"), ("y", "f64")], ["f64"], "fmin"⟩,
  ⟨"fminimum", [("x", "f64"), ("y", "f64")], ["f64"], "fminimum"⟩,
  ⟨"fminimum_num", [("x", "f64"), ("y", "f64")], ["f64"], "fminimum_num"⟩,
  ⟨"fminimum_numf", [("x", "f32"), ("y", "f32")], ["f32"], "fminimum_numf"⟩,
  ⟨"fminimumf", [("x", "f32"), ("y", "f32")], ["f32"], "fminimumf"⟩,
  ⟨"fmod", [("x", "f64"), ("y", "f64")], ["f64"], "fmod"⟩,
  ⟨"frexp", [("x", "f64")], ["f64", "i32"], "frexp"⟩,
  ⟨"hypot", [("x", "f64"), ("y", "f64")], ["f64"], "hypot"⟩,
  ⟨"ilogb", [("x", "f64")], ["i32"], "ilogb"⟩,
  ⟨"j0", [("x", "f64")], ["f64"], "j0"⟩,
  ⟨"j1", [("x", "f64")], ["f64"], "j1"⟩,
  ⟨"jn", [("n", "i32"), ("x", "f64")], ["f64"], "jn"⟩,
  ⟨"ldexp", [("x", "f64"), ("n", "i32")], ["f64"], "ldexp"⟩,
  ⟨"lgamma", [("x", "f64")], ["f64"], "lgamma"⟩,
  ⟨"lgamma_r", [("x", "f64")], ["f64", "i32"], "lgamma_r"⟩,
  ⟨"log", [("x", "f64")], ["f64"], "log"⟩,
  ⟨"log10", [("x", "f64")], ["f64"], "log10"⟩,
  ⟨"log1p", [("x", "f64")], ["f64"], "log1p"⟩,
  ⟨"log2", [("x", "f64")], ["f64"], "log2"⟩,
  ⟨"modf", [("x", "f64")], ["f64", "f64"], "modf"⟩,
  ⟨"nextafter", [("x", "f64"), ("y", "f64")], ["f64"], "nextafter"⟩,
  ⟨"pow", [("x", "f64"), ("y", "f64")], ["f64"], "pow"⟩,
  ⟨"remainder", [("x", "f64"), ("y", "f64")], ["f64"], "remainder"⟩,
  ⟨"remquo", [("x", "f64"), ("y", "f64")], ["f64", "i32"], "remquo"⟩,
  ⟨"rint", [("x", "f64")], ["f64"], "rint"⟩,
  ⟨"round", [("x", "f64")], ["f64"], "round"⟩,
  ⟨"roundevem", [("x", "f64")], ["f64"], "roundeven"⟩,
  ⟨"scalbn", [("x", "f64"), ("n", "i32")], ["f64"], "scalbn"⟩,
  ⟨"sin", [("x", "f64")], ["f64"], "sin"⟩,
  ⟨"sincos", [("x", "f64")], ["f64", "f64"], "sincos"⟩,
  ⟨"sinh", [("x", "f64")], ["f64"], "sinh"⟩,
  ⟨"sqrt", [("x", "f64")], ["f64"], "sqrt"⟩,
  ⟨"tan", [("x", "f64")], ["f64"], "tan"⟩,
  ⟨"tanh", [("x", "f64")], ["f64"], "tanh"⟩,
  ⟨"tgamma", [("x", "f64")], ["f64"], "tgamma"⟩,
  ⟨"trunc", [("x", "f64")], ["f64"], "trunc"⟩,
  ⟨"y0", [("x", "f64")], ["f64"], "y0"⟩,
  ⟨"y1", [("x", "f64")], ["f64"], "y1"⟩,
  ⟨"yn", [("n", "i32"), ("x", "f64")], ["f64"], "yn"⟩]

/-- libm_helper.rs 193-211 -/
def tablef16 : List Entry := [
  ⟨"ceil", [("x", "f16")], ["f16"], "ceilf16"⟩,
  ⟨"copysign", [("x", "f16"), ("y", "f16")], ["f16"], "copysignf16"⟩,
  ⟨"fabs", [("x", "f16")], ["f16"], "fabsf16"⟩,
  ⟨"fdim", [("x", "f16"), ("y", "f16")], ["f16"], "fdimf16"⟩,
  ⟨"floor", [("x", "f16")], ["f16"], "floorf16"⟩,
  ⟨"fmax", [("x", "f16"), ("y", "f16")], ["f16"], "fmaxf16"⟩,
  ⟨"fmaximum_num", [("x", "f16"), ("y", "f16")], ["f16"], "fmaximum_numf16"⟩,
  ⟨"fmaximumf16", [("x", "f16"), ("y", "f16")], ["f16"], "fmaximumf16"⟩,
  ⟨"fmin", [("x", "f16"), ("y", "f16")], ["f16"], "fminf16"⟩,
  ⟨"fminimum", [("x", "f16"), ("y", "f16")], ["f16"], "fminimumf16"⟩,
  ⟨"fminimum_num", [("x", "f16"), ("y", "f16")], ["f16"], "fminimum_numf16"⟩,
  ⟨"fmod", [("x", "f16"), ("y", "f16")], ["f16"], "fmodf16"⟩,
  ⟨"ldexp", [("x", "f16"), ("n", "i32")], ["f16"], "ldexpf16"⟩,
  ⟨"rint", [("x", "f16")], ["f16"], "rintf16"⟩,
  ⟨"round", [("x", "f16")], ["f16"], "roundf16"⟩,
  ⟨"roundeven", [("x", "f16")], ["f16"], "roundevenf16"⟩,
  ⟨"scalbn", [("x", "f16"), ("n", "i32")], ["f16"], "scalbnf16"⟩,
  ⟨"sqrtf", [("x", "f16")], ["f16"], "sqrtf16"⟩,
  ⟨"truncf", [("x", "f16")], ["f16"], "truncf16"⟩]

/-- libm_helper.rs 221-240 -/
def tablef128 : List Entry := [
  ⟨"ceil", [("x", "f128")], ["f128"], "ceilf128"⟩,
  ⟨"copysign", [("x", "f128"), ("y", "f128")], ["f128"], "copysignf128"⟩,
  ⟨"fabs", [("x", "f128")], ["f128"], "fabsf128"⟩,
  ⟨"fdim", [("x", "f128"), ("y", "f128")], ["f128"], "fdimf128"⟩,
  ⟨"floor", [("x", "f128")], ["f128"], "floorf128"⟩,
  ⟨"fma", [("x", "f128"), ("y", "f128"), ("z", "f128")], ["f128"], "fmaf128"⟩,
  ⟨"fmax", [("x", "f128"), ("y", "f128")], ["f128"], "fmaxf128"⟩,
  ⟨"fmaximum", [("x", "f128"), ("y", "f128")], ["f128"], "fmaximumf128"⟩,
  ⟨"fmaximum_num", [("x", "f128"), ("y", "f128")], ["f128"], "fmaximum_numf128"⟩,
  ⟨"fmin", [("x", "f128"), ("y", "f128")], ["f128"], "fminf128"⟩,
  ⟨"fminimum", [("x", "f128"), ("y", "f128")], ["f128"], "fminimumf128"⟩,
  ⟨"fminimum_num", [("x", "f128"), ("y", "f128")], ["f128"], "fminimum_numf128"⟩,
  ⟨"fmod", [("x", "f128"), ("y", "f128")], ["f128"], "fmodf128"⟩,
  ⟨"ldexp", [("x", "f128"), ("n", "i32")], ["f128"], "ldexpf128"⟩,
  ⟨"rint", [("x", "f128")], ["f128"], "rintf128"⟩,
  ⟨"round", [("x", "f128")], ["f128"], "roundf128"⟩,
  ⟨"roundeven", [("x", "f128")], ["f128"], "roundevenf128"⟩,
  ⟨"scalbn", [("x", "f128"), ("n", "i32")], ["f128"], "scalbnf128"⟩,
  ⟨"sqrt", [("x", "f128")], ["f128"], "sqrtf128"⟩,
  ⟨"trunc", [("x", "f128")], ["f128"], "truncf128"⟩]

end Facade
end Verif
