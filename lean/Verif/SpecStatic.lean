import Verif.SpecCalls
import Verif.SpecKeys
import Verif.SpecTrace

/-!
# Specification: what private keys are used for in key agreements
-/

namespace Verif.Spec

open Verif

/-- The key agreements in a list of calls with a key that the library had not itself imported directly before: the
identifier of the key and the public key it is combined with. -/
def statics : List Ev → List (Bytes × Bytes)
  | [] => []
  | .keyAgreement kid peer _ :: L => (kid, peer) :: statics L
  | .importKey .keyAgreement _ (some k) :: .keyAgreement kid peer _ :: L =>
    if kid = k then statics L else (kid, peer) :: statics L
  | _ :: L => statics L

/-- The other key agreements: the private key that was imported directly before, and the public key it is combined
with. -/
def ephemerals : List Ev → List (Bytes × Bytes)
  | [] => []
  | .importKey .keyAgreement priv (some k) :: .keyAgreement kid peer _ :: L =>
    if kid = k then (priv, peer) :: ephemerals L else ephemerals L
  | _ :: L => ephemerals L

/-- `gy` is the G_Y of the message `m2`: its first bytes, as many as a public key has -/
def GyOf (su : Suite) (m2 gy : Bytes) : Prop := ∃ ct, StartsBstr (gy ++ ct) m2 ∧ gy.length = su.eccKey

/-- What a party uses its static private key for, in the call `o`: in the method where it does not sign, once, with
the peer's ephemeral public key `peer`. The key is the one the credentials callback supplied. -/
def UsesStatic (o : Op) (c : Ctx) (L : List Ev) (kid peer : Bytes) : Prop :=
  (∃ cr, CredSupplied L cr kid) ∧ peer = c.dhPeerPub ∧
    ((∃ n, o = .compose2 n ∧ c.status = .receivedM1 ∧ responderSigns c.chosenMethod = false) ∨
      ∃ n, o = .compose3 n ∧ c.status = .verifiedM2 ∧ initiatorSigns c.chosenMethod = false)

/-- `pk` is the public key that the credentials callback returned with a credential (empty if it returned none) -/
def PeerKey (L : List Ev) (pk : Bytes) : Prop :=
  ∃ id cr p, Ev.credVerify id (some (cr, p)) ∈ L ∧ pk = p.getD []

/-- What a party uses an ephemeral private key `priv` for, in the call `o`. The Responder makes the key and combines it
with G_X. The Initiator combines its key with the G_Y of the message it is given. In the methods where the peer does
not sign, a party also combines its key with the static public key of the peer's credential. -/
def UsesEphemeral (o : Op) (c : Ctx) (L : List Ev) (priv peer : Bytes) : Prop :=
  (∃ n, o = .compose2 n ∧ c.status = .receivedM1 ∧ peer = c.dhPeerPub ∧ ∃ pub, KeyPairCall L priv pub) ∨
    (∃ m, o = .process2 m ∧ c.status = .waitM2 ∧ priv = c.dhPriv ∧
      (GyOf c.suite m peer ∨ responderSigns c.chosenMethod = false ∧ PeerKey L peer)) ∨
    ∃ m, o = .process3 m ∧ c.status = .waitM3 ∧ priv = c.dhPriv ∧ initiatorSigns c.chosenMethod = false ∧ PeerKey L peer

/-- `peer` is an ephemeral public key that the party received in the session with the history `h`: the G_X of a
message 1 that it accepted and whose method has it authenticate with a static key, or the first bytes of the
(G_Y, CIPHERTEXT_2) of a message 2 that it accepted. -/
def FromPeer (h : History) (peer : Bytes) : Prop :=
  (∃ m1 l, ∃ me : Nat, (.process1 m1, .ok .unit) ∈ h ∧ StartsMessage1 me l peer m1 ∧ responderSigns me = false) ∨
    ∃ m2 ct, (.process2 m2, .ok .unit) ∈ h ∧ StartsBstr (peer ++ ct) m2

end Verif.Spec
