import Verif.SpecPeer
import Verif.SpecSuiteParties

/-!
# Specification: an application that uses a shipped cipher suite, and a peer that follows RFC 9528
-/

namespace Verif.Spec.Rfc

open Verif Psa

/-- a signature of the suite: valid, and of the length of the suite's signatures -/
def suiteSig (A : Algs) (q : Params) (pk m sig : Bytes) : Bool := SignatureOk A q pk m sig && sig.length == q.sign

/-- What the local party needs for a handshake with the method `me` and the shipped suite `q`. It authenticates with `p`, by
signatures if `signs`; `own` is its key in the key store. The peer authenticates with `peer`, by signatures if `peerSigns`;
the application knows it, as the credential `c`. -/
structure SuiteLocal {τ : Type} (A : Algs) (q : Params) (k : Bounds) (me : Nat) (signs peerSigns : Bool) (X : Psa.App τ)
    (J : τ → Prop) (cfg : Config) (id : Nat) (own : Key) (p : Identity) (i : Id) (g : Choice) (peer : Auth) (c : Cred) :
    Prop where
  shipped : q ∈ shipped
  method : me < 4
  hosts : Hosts X k J p
  room : Roomy cfg q.table
  items : k.items ≤ cfg.maxEad
  /-- HKDF-Expand gives at most 255 times the length of the hash -/
  derive : 1000 ≤ k.expand ∧ k.expand ≤ 255 * q.hash.len
  choice : g.Ok cfg q.table
  cid : CidOk cfg g.cid
  /-- the own key and credential -/
  kid : p.kid = kidBytes id ∧ id < 2 ^ 32
  key : OwnKey A q own p signs
  denotes : Denotes p.cred i
  credOk : CredOk cfg cfg p.cred
  /-- the peer's key and credential -/
  peerKey : if peerSigns then VerifyKey A q peer.pk else peer.pk = (primsOf A q).pub peer.sk ∧ isPriv A q peer.sk
  known : ∀ w, J w.2 → (X.credVerify w peer.id.asked).1 = some (c, some peer.pk) ∧ (X.credVerify w peer.id.asked).2.1 = w.1 ∧
    J (X.credVerify w peer.id.asked).2.2
  same : idCred c = peer.id.map ∧ cred c = peer.cred
  peerOk : CredOk cfg cfg c
  peerFits : peer.id.Fits cfg

end Verif.Spec.Rfc
