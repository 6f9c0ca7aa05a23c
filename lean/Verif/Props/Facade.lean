import Verif.Model.Facade

/-!
# C39: the generic facade dispatches to the free function of the same name

`Libm<f64>::m` must be the free function `m`, and `Libm<f32>::m` the free function `mf` (`lgammaf_r` for `lgamma_r`), on the same
arguments in the same order, whatever the free functions do.  One method of `Libm<f64>` has a misspelt name.
-/

namespace Verif
namespace Facade

/-- the C name of the single-precision version of a function -/
def singleName (m : String) : String := if m = "lgamma_r" then "lgammaf_r" else m ++ "f"

/-- every method of the table forwards its arguments to the free function called `nm` of its own name, except those in `bad` -/
def Forwards (table : List Entry) (nm : String → String) (bad : List String) : Prop :=
  ∀ (V R : Type) (free : String → List V → R) (e : Entry), e ∈ table → e.name ∉ bad →
    ∀ args : List V, args.length = e.params.length → call free table e.name args = some (free (nm e.name) args)

theorem lookup_zip {V : Type} : ∀ (ks : List String) (vs : List V), ks.Nodup → vs.length = ks.length →
    ∀ env : List (String × V), (∀ k ∈ ks, env.lookup k = (ks.zip vs).lookup k) → (ks.mapM fun p => env.lookup p) = some vs
  | [], [], _, _, _, _ => rfl
  | k :: ks, v :: vs, hn, hl, env, he => by
    rw [List.nodup_cons] at hn
    have h1 : env.lookup k = some v := by
      rw [he k (by simp)]
      simp
    have h2 := lookup_zip ks vs hn.2 (by simpa using hl) env (fun p hp => by
      rw [he p (List.mem_cons_of_mem _ hp), List.zip_cons_cons, List.lookup_cons]
      have : (p == k) = false := by
        rw [beq_eq_false_iff_ne]
        rintro rfl
        exact hn.1 hp
      rw [this])
    rw [List.mapM_cons, h1, h2]
    rfl

theorem forwards_of {table : List Entry} {nm : String → String} {bad : List String}
    (h : table.all (fun e => decide (((table.find? fun e' => e'.name == e.name) = some e) ∧ (e.params.map (·.1)).Nodup ∧
      (e.name ∈ bad ∨ e.target = nm e.name))) = true) : Forwards table nm bad := by
  intro V R free e he hb args hl
  rw [List.all_eq_true] at h
  have := h e he
  rw [decide_eq_true_iff] at this
  obtain ⟨h1, h2, h3⟩ := this
  unfold call
  rw [h1]
  simp only [Option.bind_some, if_pos hl]
  rw [lookup_zip _ args h2 (by simpa using hl) _ (fun _ _ => rfl)]
  rcases h3 with h3 | h3
  · exact absurd h3 hb
  · rw [h3]; rfl

end Facade
open Facade

/-- **C39**: `Libm<f32>` -/
theorem libm_f32_forwards : Forwards tablef32 singleName [] := forwards_of (by decide +kernel)

/-- **C39**, every method of `Libm<f64>` but one -/
theorem libm_f64_forwards_partial : Forwards tablef64 id ["roundevem"] := forwards_of (by decide +kernel)

/-- **C39** is false for one method: `Libm<f64>` has no method `roundeven`; it is called `roundevem` -/
theorem libm_f64_roundeven_wrong {V R : Type} (free : String → List V → R) (x : V) :
    call free tablef64 "roundeven" [x] = none ∧ call free tablef64 "roundevem" [x] = some (free "roundeven" [x]) := by
  constructor
  · unfold call
    rw [show (tablef64.find? fun e => e.name == "roundeven") = none by decide +kernel]
    rfl
  · unfold call
    rw [show (tablef64.find? fun e => e.name == "roundevem") = some ⟨"roundevem", [("x", "f64")], ["f64"], "roundeven"⟩ by decide +kernel]
    rfl

/-- `Libm<f128>` -/
theorem libm_f128_forwards : Forwards tablef128 (· ++ "f128") [] := forwards_of (by decide +kernel)

/-- `Libm<f16>`, three of whose methods have irregular names -/
theorem libm_f16_forwards_partial : Forwards tablef16 (· ++ "f16") ["fmaximumf16", "sqrtf", "truncf"] := forwards_of (by decide +kernel)

/-- the hypotheses are met: `Libm<f32>::atan2(y, x)` is `atan2f(y, x)`, in this order -/
example : call (fun n (l : List Nat) => (n, l)) tablef32 "atan2" [1, 2] = some ("atan2f", [1, 2]) := by decide +kernel

end Verif
