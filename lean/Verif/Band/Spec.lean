import Verif.Band.Model

/-! # What colour terms mean -/

namespace Verif.Band.Spec

open Verif Verif.Band

variable {K : Type} [Field K] [LinearOrder K]

/-- The mean reflectance of a template through a filter, given the registered templates: the photon integral of the
registered template if there is one, the packaged integral otherwise, over the norm of the filter. The outer `none` is an
unknown filter or template. -/
def reflectance (d : Data K) (templates : Str → Option (Curve K)) (id f : Str) : Option (Option K) :=
  match d.norm f, templates id with
  | none, _ => none
  | some n, none => (d.integrals id f).map fun x => x.map (· / n)
  | some n, some t => (d.filters.lookup f).map fun c => (photon d.sun c t).map (· / n)

/-- The mean reflectance of a composition: weights count by their share. -/
def compReflectance (d : Data K) (templates : Str → Option (Curve K)) (comp : Comp K) (f : Str) : Option (Option K) :=
  match comp with
  | .template id => reflectance d templates id f
  | .mix c w =>
    match reflectance d templates "C".toList f, reflectance d templates "S".toList f with
    | some (some x), some (some y) => some (some (c / (c + w) * x + w / (c + w) * y))
    | some _, some _ => some none
    | _, _ => none

/-- The template last registered under a name in a history. -/
def lastRegistered (ops : List (Op K)) (id : Str) : Option (Curve K) :=
  ops.foldl (fun acc op =>
    match op with
    | .register i wl rf =>
      if i = id then
        match checkTemplate i wl rf with
        | .ok t => some t
        | .error _ => acc
      else acc
    | _ => acc) none

/-- Two templates with the same wavelengths, mixed. -/
def mixed (c w : K) (a b : Curve K) : Curve K := List.zipWith (fun p q => (p.1, c * p.2 + w * q.2)) a b

end Verif.Band.Spec
