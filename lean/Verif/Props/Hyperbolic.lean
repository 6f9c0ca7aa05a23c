import Verif.Model.Hyperbolic
import Verif.Theory.Odd

/-!
# C32: the hyperbolic functions and their inverses are odd or even
-/

set_option linter.unusedTactic false
set_option linter.unreachableTactic false

namespace Verif
open Flt

namespace Hyp

theorem ite_flip {F : Fmt} (c : Prop) [Decidable c] (s : Bool) (t : Flt F) (h : c ↔ s = true) :
    (if c then -t else t) = flip s t := by
  unfold Flt.flip
  by_cases hc : c
  · rw [if_pos hc, if_pos (h.1 hc)]
  · rw [if_neg hc, if_neg (fun hs => hc (h.2 hs))]

/-- `tanh` on the absolute value -/
def tanhA (x : Flt f64) : Option (Flt f64) :=
  let w := getHighWord x
  if w > 0x3fe193ea#32 then
    if w > 0x40340000#32 then some (1.0 - 0.0 / x)
    else (expm1 (2.0 * x)).map fun t => 1.0 - 2.0 / (t + 2.0)
  else if w > 0x3fd058ae#32 then (expm1 (2.0 * x)).map fun t => t / (t + 2.0)
  else if w ≥ 0x00100000#32 then (expm1 (-2.0 * x)).map fun t => -t / (t + 2.0)
  else some x

theorem tanh_eq (x : Flt f64) : tanh x = (tanhA x.ab).map (flip x.sign) := by
  unfold tanh tanhA
  simp only [ab_u64, bits64_u64, ite_flip _ _ _ (u64_sign_ne x)]
  all_goals rfl

theorem tanhA_tot (x : Flt f64) : ∃ r, tanhA x = some r := by
  unfold tanhA
  dsimp only
  split_ifs
  all_goals first | exact ⟨_, rfl⟩ | exact map_total (expm1_tot _) | exact map_total (expm1f_tot _) | exact map_total (log_tot _) | exact map_total (logf_tot _) | exact map_total (log1p_tot _) | exact map_total (log1pf_tot _) | exact bind_total (sqrt_tot _) (fun _ => log_tot _) | exact bind_total (sqrt_tot _) (fun _ => log1p_tot _) | exact bind_total (sqrtf_tot _) (fun _ => logf_tot _) | exact bind_total (sqrtf_tot _) (fun _ => log1pf_tot _)

/-- `tanhf` on the absolute value -/
def tanhfA (x : Flt f32) : Option (Flt f32) :=
  let w := x.u32
  if w > 0x3f0c9f54#32 then
    if w > 0x41200000#32 then some (1.0 + 0.0 / x)
    else (expm1f (2.0 * x)).map fun t => 1.0 - 2.0 / (t + 2.0)
  else if w > 0x3e82c578#32 then (expm1f (2.0 * x)).map fun t => t / (t + 2.0)
  else if w ≥ 0x00800000#32 then (expm1f (-2.0 * x)).map fun t => -t / (t + 2.0)
  else some x

theorem tanhf_eq (x : Flt f32) : tanhf x = (tanhfA x.ab).map (flip x.sign) := by
  unfold tanhf tanhfA
  simp only [ab_u32, bits32_u32, ite_flip _ _ _ (u32_sign_ne x)]
  all_goals rfl

theorem tanhfA_tot (x : Flt f32) : ∃ r, tanhfA x = some r := by
  unfold tanhfA
  dsimp only
  split_ifs
  all_goals first | exact ⟨_, rfl⟩ | exact map_total (expm1_tot _) | exact map_total (expm1f_tot _) | exact map_total (log_tot _) | exact map_total (logf_tot _) | exact map_total (log1p_tot _) | exact map_total (log1pf_tot _) | exact bind_total (sqrt_tot _) (fun _ => log_tot _) | exact bind_total (sqrt_tot _) (fun _ => log1p_tot _) | exact bind_total (sqrtf_tot _) (fun _ => logf_tot _) | exact bind_total (sqrtf_tot _) (fun _ => log1pf_tot _)

/-- `asinh` on the absolute value -/
def asinhA (x : Flt f64) : Option (Flt f64) :=
  let e := x.mb / 2 ^ 52
  if e ≥ 0x3ff + 26 then (log x).map (· + Asinh.ln2)
  else if e ≥ 0x3ff + 1 then do
    let s ← sqrt (x * x + 1.0)
    log (2.0 * x + 1.0 / (s + x))
  else if e ≥ 0x3ff - 26 then do
    let s ← sqrt (x * x + 1.0)
    log1p (x + x * x / (s + 1.0))
  else some x

theorem asinh_eq (x : Flt f64) : asinh x = (asinhA x.ab).map (flip x.sign) := by
  unfold asinh asinhA
  simp only [exp64_field, ab_u64, bits64_u64, ite_flip _ _ _ (u64_sign_ne x), ab_mb]
  all_goals rfl

theorem asinhA_tot (x : Flt f64) : ∃ r, asinhA x = some r := by
  unfold asinhA
  dsimp only
  split_ifs
  all_goals first | exact ⟨_, rfl⟩ | exact map_total (expm1_tot _) | exact map_total (expm1f_tot _) | exact map_total (log_tot _) | exact map_total (logf_tot _) | exact map_total (log1p_tot _) | exact map_total (log1pf_tot _) | exact bind_total (sqrt_tot _) (fun _ => log_tot _) | exact bind_total (sqrt_tot _) (fun _ => log1p_tot _) | exact bind_total (sqrtf_tot _) (fun _ => logf_tot _) | exact bind_total (sqrtf_tot _) (fun _ => log1pf_tot _)

/-- `asinhf` on the absolute value -/
def asinhfA (x : Flt f32) : Option (Flt f32) :=
  let i := x.u32
  if i ≥ 0x3f800000#32 + (12#32 <<< 23) then (logf x).map (· + Asinhf.ln2)
  else if i ≥ 0x3f800000#32 + (1#32 <<< 23) then do
    let s ← sqrtf (x * x + 1.0)
    logf (2.0 * x + 1.0 / (s + x))
  else if i ≥ 0x3f800000#32 - (12#32 <<< 23) then do
    let s ← sqrtf (x * x + 1.0)
    log1pf (x + x * x / (s + 1.0))
  else some x

theorem asinhf_eq (x : Flt f32) : asinhf x = (asinhfA x.ab).map (flip x.sign) := by
  unfold asinhf asinhfA
  simp only [ab_u32, bits32_u32, ite_flip _ _ _ (u32_sign_ne x)]
  all_goals rfl

theorem asinhfA_tot (x : Flt f32) : ∃ r, asinhfA x = some r := by
  unfold asinhfA
  dsimp only
  split_ifs
  all_goals first | exact ⟨_, rfl⟩ | exact map_total (expm1_tot _) | exact map_total (expm1f_tot _) | exact map_total (log_tot _) | exact map_total (logf_tot _) | exact map_total (log1p_tot _) | exact map_total (log1pf_tot _) | exact bind_total (sqrt_tot _) (fun _ => log_tot _) | exact bind_total (sqrt_tot _) (fun _ => log1p_tot _) | exact bind_total (sqrtf_tot _) (fun _ => logf_tot _) | exact bind_total (sqrtf_tot _) (fun _ => log1pf_tot _)

/-- `atanh` on the absolute value -/
def atanhA (x : Flt f64) : Option (Flt f64) :=
  let e := x.mb / 2 ^ 52
  if e < 0x3ff - 1 then
    if e < 0x3ff - 32 then some x
    else (log1p (2.0 * x + 2.0 * x * x / (1.0 - x))).map (0.5 * ·)
  else (log1p (2.0 * (x / (1.0 - x)))).map (0.5 * ·)

theorem atanh_eq (x : Flt f64) : atanh x = (atanhA x.ab).map (flip x.sign) := by
  unfold atanh atanhA
  simp only [exp64_field, ab_u64, bits64_u64, ite_flip _ _ _ (u64_sign_ne x), ab_mb]
  all_goals rfl

theorem atanhA_tot (x : Flt f64) : ∃ r, atanhA x = some r := by
  unfold atanhA
  dsimp only
  split_ifs
  all_goals first | exact ⟨_, rfl⟩ | exact map_total (expm1_tot _) | exact map_total (expm1f_tot _) | exact map_total (log_tot _) | exact map_total (logf_tot _) | exact map_total (log1p_tot _) | exact map_total (log1pf_tot _) | exact bind_total (sqrt_tot _) (fun _ => log_tot _) | exact bind_total (sqrt_tot _) (fun _ => log1p_tot _) | exact bind_total (sqrtf_tot _) (fun _ => logf_tot _) | exact bind_total (sqrtf_tot _) (fun _ => log1pf_tot _)

/-- `atanhf` on the absolute value -/
def atanhfA (x : Flt f32) : Option (Flt f32) :=
  let u := x.u32
  if u < 0x3f800000#32 - (1#32 <<< 23) then
    if u < 0x3f800000#32 - (32#32 <<< 23) then some x
    else (log1pf (2.0 * x + 2.0 * x * x / (1.0 - x))).map (0.5 * ·)
  else (log1pf (2.0 * (x / (1.0 - x)))).map (0.5 * ·)

theorem atanhf_eq (x : Flt f32) : atanhf x = (atanhfA x.ab).map (flip x.sign) := by
  unfold atanhf atanhfA
  simp only [ab_u32, bits32_u32, ite_flip _ _ _ (u32_sign_ne x)]
  all_goals rfl

theorem atanhfA_tot (x : Flt f32) : ∃ r, atanhfA x = some r := by
  unfold atanhfA
  dsimp only
  split_ifs
  all_goals first | exact ⟨_, rfl⟩ | exact map_total (expm1_tot _) | exact map_total (expm1f_tot _) | exact map_total (log_tot _) | exact map_total (logf_tot _) | exact map_total (log1p_tot _) | exact map_total (log1pf_tot _) | exact bind_total (sqrt_tot _) (fun _ => log_tot _) | exact bind_total (sqrt_tot _) (fun _ => log1p_tot _) | exact bind_total (sqrtf_tot _) (fun _ => logf_tot _) | exact bind_total (sqrtf_tot _) (fun _ => log1pf_tot _)

end Hyp

/-- **C32**: odd, bit for bit, for every argument that is not a NaN; the result is always defined (no panic). -/
theorem tanh_odd : OddFn tanh := odd_map (fun _ _ => Hyp.tanhA_tot _) Hyp.tanh_eq
theorem tanhf_odd : OddFn tanhf := odd_map (fun _ _ => Hyp.tanhfA_tot _) Hyp.tanhf_eq
theorem asinh_odd : OddFn asinh := odd_map (fun _ _ => Hyp.asinhA_tot _) Hyp.asinh_eq
theorem asinhf_odd : OddFn asinhf := odd_map (fun _ _ => Hyp.asinhfA_tot _) Hyp.asinhf_eq
theorem atanh_odd : OddFn atanh := odd_map (fun _ _ => Hyp.atanhA_tot _) Hyp.atanh_eq
theorem atanhf_odd : OddFn atanhf := odd_map (fun _ _ => Hyp.atanhfA_tot _) Hyp.atanhf_eq

example : ¬ (1.5 : Flt f64).isNaN ∧ ¬ (-0.0 : Flt f32).isNaN ∧ ¬ (inf f64 true).isNaN := by decide +kernel

namespace Hyp

theorem sinh_eq (x : Flt f64) : sinh x =
    if getHighWord x.ab < 0x40862e42#32 then
      (expm1 x.ab).map fun t =>
        if getHighWord x.ab < 0x3ff00000#32 then
          if getHighWord x.ab < 0x3ff00000#32 - (26#32 <<< 20) then x
          else flip x.sign 0.5 * (2.0 * t - t * t / (t + 1.0))
        else flip x.sign 0.5 * (t + t / (t + 1.0))
    else (expo2 x.ab).map fun e => 2.0 * flip x.sign 0.5 * e := by
  unfold sinh
  simp only [ab_u64, bits64_u64, ite_flip _ _ _ (u64_sign_ne x)]
  all_goals rfl

theorem sinhf_eq (x : Flt f32) : sinhf x =
    if x.ab.u32 < 0x42b17217#32 then
      (expm1f x.ab).map fun t =>
        if x.ab.u32 < 0x3f800000#32 then
          if x.ab.u32 < 0x3f800000#32 - (12#32 <<< 23) then x
          else flip x.sign 0.5 * (2.0 * t - t * t / (t + 1.0))
        else flip x.sign 0.5 * (t + t / (t + 1.0))
    else (kExpo2f x.ab).map fun e => 2.0 * flip x.sign 0.5 * e := by
  unfold sinhf
  simp only [ab_u32, bits32_u32, ite_flip _ _ _ (u32_sign_ne x)]
  all_goals rfl

theorem opp_half {F : Fmt} (s : Bool) (h v : Flt F) : Opp true (flip s h * v) (flip (!s) h * v) := by
  have := mul_flip true false (flip s h) v
  rw [Flt.flip_flip] at this
  simpa [Flt.flip] using this

theorem opp_two {F : Fmt} (s : Bool) (a h v : Flt F) : Opp true (a * flip s h * v) (a * flip (!s) h * v) := by
  have h1 := mul_flip false true a (flip s h)
  rw [Flt.flip_flip] at h1
  have h2 := h1.mul (Opp.refl v)
  simpa [Flt.flip] using h2

end Hyp

/-- **C32** -/
theorem sinh_odd : OddFn sinh := by
  refine OddFn.of_opp fun x hx => ?_
  rw [Hyp.sinh_eq, Hyp.sinh_eq, ab_neg, sign_neg]
  split_ifs
  · obtain ⟨t, ht⟩ := expm1_tot x.ab
    rw [ht]
    exact ⟨_, _, rfl, rfl, Opp.neg x⟩
  · obtain ⟨t, ht⟩ := expm1_tot x.ab
    rw [ht]
    exact ⟨_, _, rfl, rfl, Hyp.opp_half _ _ _⟩
  · obtain ⟨t, ht⟩ := expm1_tot x.ab
    rw [ht]
    exact ⟨_, _, rfl, rfl, Hyp.opp_half _ _ _⟩
  · obtain ⟨t, ht⟩ := expo2_tot x.ab
    rw [ht]
    exact ⟨_, _, rfl, rfl, Hyp.opp_two _ _ _ _⟩

/-- **C32** -/
theorem sinhf_odd : OddFn sinhf := by
  refine OddFn.of_opp fun x hx => ?_
  rw [Hyp.sinhf_eq, Hyp.sinhf_eq, ab_neg, sign_neg]
  split_ifs
  · obtain ⟨t, ht⟩ := expm1f_tot x.ab
    rw [ht]
    exact ⟨_, _, rfl, rfl, Opp.neg x⟩
  · obtain ⟨t, ht⟩ := expm1f_tot x.ab
    rw [ht]
    exact ⟨_, _, rfl, rfl, Hyp.opp_half _ _ _⟩
  · obtain ⟨t, ht⟩ := expm1f_tot x.ab
    rw [ht]
    exact ⟨_, _, rfl, rfl, Hyp.opp_half _ _ _⟩
  · obtain ⟨t, ht⟩ := kExpo2f_tot x.ab
    rw [ht]
    exact ⟨_, _, rfl, rfl, Hyp.opp_two _ _ _ _⟩

theorem cosh_total (x : Flt f64) : ∃ r, cosh x = some r := by
  unfold cosh
  dsimp only
  split_ifs
  all_goals first | exact ⟨_, rfl⟩ | exact map_total (expm1_tot _) | exact map_total (exp_tot _) | exact kExpo2_tot _

/-- **C32** -/
theorem cosh_even : EvenFn cosh := by
  intro x _
  obtain ⟨r, hr⟩ := cosh_total x
  refine ⟨r, r, hr, ?_, Or.inl rfl⟩
  rw [← hr]
  unfold cosh
  simp only [ab_u64, ab_neg]

theorem coshf_total (x : Flt f32) : ∃ r, coshf x = some r := by
  unfold coshf
  dsimp only
  split_ifs
  all_goals first | exact ⟨_, rfl⟩ | exact map_total (expm1f_tot _) | exact map_total (expf_tot _) | exact kExpo2f_tot _

/-- **C32** -/
theorem coshf_even : EvenFn coshf := by
  intro x _
  obtain ⟨r, hr⟩ := coshf_total x
  refine ⟨r, r, hr, ?_, Or.inl rfl⟩
  rw [← hr]
  unfold coshf
  simp only [ab_u32, ab_neg]

/-- **C32** for `fabs`, every format -/
theorem fabs_even (F : Fmt) : EvenFn (fun x : Flt F => some (Generic.fabs x)) := fun x _ =>
  ⟨_, _, rfl, rfl, Or.inl (by rw [fabs_ab, fabs_ab, ab_neg])⟩

end Verif
