import Verif.Spec

/-!
# Specification: imported keys

A key is imported with the keys callback, which returns an identifier, and destroyed by that identifier.
-/

namespace Verif.Spec

open Verif

/-- how often the import of a key returned the identifier `kid` -/
def imports (kid : Bytes) (L : List Ev) : Nat :=
  L.countP fun
    | .importKey _ _ (some k) => k == kid
    | _ => false

/-- how often the key `kid` was destroyed -/
def destroys (kid : Bytes) (L : List Ev) : Nat :=
  L.countP fun
    | .destroyKey k => k == kid
    | _ => false

/-- Every imported key is destroyed, once, and only keys that were imported before are destroyed. -/
def KeysReleased (L : List Ev) : Prop :=
  ∀ kid, destroys kid L = imports kid L ∧ ∀ P, P <+: L → destroys kid P ≤ imports kid P

/-- an allocation failed -/
def AllocFailed (L : List Ev) : Prop := ∃ n, Ev.alloc n false ∈ L

end Verif.Spec
