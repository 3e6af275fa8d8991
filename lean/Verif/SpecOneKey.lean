import Verif.SpecKeyShare

/-!
# Specification: encryption with one key
-/

namespace Verif.Spec

open Verif

/-- The API call `o`, which the session `N` made after the calls `h`, made the calls `L` to the application. -/
def InCall (N : Node) (h : History) (o : Op) (L : List Ev) : Prop :=
  ∃ r t a b, N.hist = h ++ (o, r) :: t ∧ Session N.env N.cfg N.start N.log h a ∧ step N.env N.cfg o a = (r, b) ∧
    (∀ u, r ≠ .ub u) ∧ Run N.env N.cfg b t N.state ∧ L = during a b

/-- In that call the session asked for an AEAD encryption with the key `k` and the nonce `iv`, successful or not. -/
def EncryptsWith (N : Node) (h : History) (o : Op) (k iv : Bytes) : Prop :=
  ∃ L kid aad pt ct, InCall N h o L ∧ Made [.importKey .encrypt k (some kid), .encrypt kid iv aad pt ct] L

/-- Likewise for an AEAD decryption. -/
def DecryptsWith (N : Node) (h : History) (o : Op) (k iv : Bytes) : Prop :=
  ∃ L kid aad ct pt, InCall N h o L ∧ Made [.importKey .decrypt k (some kid), .decrypt kid iv aad ct pt] L

/-- The session asked for an AEAD encryption or decryption with the key `k`, in the call `o` after the calls `h`. -/
def UsesAeadKey (N : Node) (h : History) (o : Op) (k : Bytes) : Prop :=
  ∃ iv, EncryptsWith N h o k iv ∨ DecryptsWith N h o k iv

/-- the session composed message 1, or processed it, with success -/
def Initiates (N : Node) : Prop := ∃ n m1, (.compose1 n, .ok (.bytes m1)) ∈ N.hist
@[inherit_doc Initiates] def Responds (N : Node) : Prop := ∃ m1, (.process1 m1, .ok .unit) ∈ N.hist

/-- An Initiator does not compose message 4. RFC 9528, section 5.5: message 4 is the Responder's. -/
def FourFromResponder (N : Node) : Prop := Initiates N → ∀ n r, (.compose4 n, r) ∉ N.hist

end Verif.Spec
