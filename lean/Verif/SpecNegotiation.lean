import Verif.SpecConfig

/-!
# Specification: what RFC 9528 asks of suites, OSCORE identifiers and message 4
-/

namespace Verif.Spec

open Verif

/-- RFC 9528, section 5.2.3: the Responder supports the selected suite `v`, the last one in SUITES_I, and none of those the
Initiator listed before. -/
def RightSuite (supported offered : List Int) (v : Int) : Prop :=
  offered.getLast? = some v ∧ v ∈ supported ∧ ∀ w ∈ offered.dropLast, w ∉ supported

/-- the suites that were configured -/
def supported (c : Ctx) : List Int := (suites c).map Suite.value

/-- an exporter call (of the three exporter functions) succeeded -/
def Exported (h : History) : Prop := ∃ o x, (o, .ok x) ∈ h ∧ isExporter o = true

/-- is this a call for message 4? -/
def isMessage4 : Op → Bool
  | .compose4 _ | .process4 _ => true
  | _ => false

end Verif.Spec
