import Verif.SpecForget
import Verif.SpecHonest

/-!
# Specification: exports and key updates after a handshake (C93)
-/

namespace Verif.Spec

open Verif

/-- Calls an application may make after a handshake: exports with labels for applications, key updates with up to 60000 bytes
of entropy, and OSCORE exports, one at the beginning (`allowed`) and one after each key update. -/
def Orderly (su : Suite) : (allowed : Bool) → List Op → Prop
  | _, [] => True
  | a, .exportSecret label n :: l => (32768 ≤ label ∧ label ≤ 65535) ∧ SecretLen su n ∧ Orderly su a l
  | _, .keyUpdate b :: l => (0 < b.length ∧ b.length ≤ 60000) ∧ Orderly su true l
  | a, .exportOscore m n x y :: l => a = true ∧ SecretLen su m ∧ SecretLen su n ∧ 65000 ≤ x ∧ 65000 ≤ y ∧ Orderly su false l
  | _, _ :: _ => False

/-- What RFC 9528 says they return, from PRK_out and the OSCORE identifiers of sender and recipient: section 4.2.1 for the
exporter, appendix A.1 for OSCORE, appendix H for key updates. -/
def served (P : Prims) (su : Suite) (sender recipient : Bytes) : (prkOut : Bytes) → List Op → History
  | _, [] => []
  | p, .exportSecret label n :: l =>
    (.exportSecret label n, .ok (.bytes (exporterOf P su label n p))) :: served P su sender recipient p l
  | p, .keyUpdate b :: l => (.keyUpdate b, .ok .unit) :: served P su sender recipient (P.kdf p 11 b su.hash) l
  | p, .exportOscore m n x y :: l =>
    (.exportOscore m n x y, .ok (.oscore ⟨exporterOf P su 0 m p, exporterOf P su 1 n p, sender, recipient⟩)) ::
      served P su sender recipient p l
  | p, _ :: l => served P su sender recipient p l

end Verif.Spec
