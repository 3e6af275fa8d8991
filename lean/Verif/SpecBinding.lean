import Verif.SpecItem
import Verif.SpecPrims

/-!
# Specification: what a transcript hash binds
-/

namespace Verif.Spec

open Verif

/-- In the history `h` the party completed a handshake, in either role, that began with `m1` and had the values `v`. -/
def TookPart (L : List Ev) (su : Suite) (method : Nat) (h : History) (m1 : Bytes) (v : Values) : Prop :=
  (∃ n1 n3 m2 m3 x kid pkR,
    (.compose1 n1, .ok (.bytes m1)) ∈ h ∧ (.process2 m2, .ok .unit) ∈ h ∧ (.compose3 n3, .ok (.bytes m3)) ∈ h ∧
    InitiatorView L su method m1 m2 m3 x kid pkR v) ∨
  (∃ n2 m2 m3 y kid pkI,
    (.process1 m1, .ok .unit) ∈ h ∧ (.compose2 n2, .ok (.bytes m2)) ∈ h ∧ (.process3 m3, .ok .unit) ∈ h ∧
    ResponderView L su method m1 m2 m3 y kid pkI v)

/-- No two inputs hashed by the parties have the same hash. -/
def NoCollision (L L' : List Ev) : Prop := ∀ {x y o}, HashCall L x o → HashCall L' y o → x = y

/-- The hashed plaintext is exactly what RFC 9528 prescribes, with nothing behind it, and the credential is a single
CBOR item. -/
def Whole2 (v : Values) : Prop := (∃ cr p, Plaintext2 cr p v.ptxt2) ∧ Item (cred v.credR)
@[inherit_doc Whole2] def Whole3 (v : Values) : Prop := (∃ p, Plaintext3 p v.ptxt3) ∧ Item (cred v.credI)

end Verif.Spec
