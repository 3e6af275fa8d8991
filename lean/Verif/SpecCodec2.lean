import Verif.SpecCbor
import Verif.CborSchemas

/-!
# Specification: the grammar of the structures that are hashed, signed and authenticated

RFC 9528 section 4.1.2 (info), RFC 9052 sections 4.4 and 5.3 (Sig_structure, Enc_structure); `/repo/backends/cbor/cddl`.
-/

namespace Verif.Spec

/-- info = ( label : int, context : bstr, length : uint ) -/
def InfoSeq (label : Int) (context : Bytes) (length : Nat) (b : Bytes) : Prop :=
  ∃ x y z, IntItem label x ∧ BstrItem context y ∧ IntItem length z ∧ b = x ++ y ++ z

/-- Enc_structure = [ "Encrypt0", protected : bstr, external_aad : bstr ] -/
def EncStructureItem (prot aad b : Bytes) : Prop :=
  ∃ x y z, TstrItem (ascii "Encrypt0") x ∧ BstrItem prot y ∧ BstrItem aad z ∧ Container 4 [x, y, z] b

/-- Sig_structure = [ "Signature1", protected : bstr, external_aad : bstr, payload : bstr ] -/
def SigStructureItem (prot aad payload b : Bytes) : Prop :=
  ∃ x y z w, TstrItem (ascii "Signature1") x ∧ BstrItem prot y ∧ BstrItem aad z ∧ BstrItem payload w ∧ Container 4 [x, y, z, w] b

end Verif.Spec
