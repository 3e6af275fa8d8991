import Verif.SpecSuite
import Verif.SpecHonest

/-!
# Specification: two applications that use a shipped cipher suite and can complete a handshake
-/

namespace Verif.Spec

open Verif Psa

variable {τ : Type}

/-- The key store is in order: no call fails any more, a slot is free, what the random generator gives can be used as a
private key, and the application's own key is there. -/
structure InOrder (A : Algs) (q : Params) (id : Nat) (own : Key) (s : Store) : Prop where
  calm : ∀ n, s.clock ≤ n → s.fault n = false
  free : s.freeId ≠ none
  draws : ∀ n, s.clock ≤ n → isPriv A q (fitLen q.ecc (s.rand n))
  own : s.find id = some own

/-- The application's own callbacks work and leave the key store alone. It authenticates as `p`; `J` says which of its states
are in order. -/
structure Hosts (X : Psa.App τ) (k : Bounds) (J : τ → Prop) (p : Identity) : Prop where
  alloc : ∀ w n, J w.2 → (X.alloc w n).1 = true ∧ (X.alloc w n).2.1 = w.1 ∧ J (X.alloc w n).2.2
  eadCompose : ∀ w m, J w.2 → (∃ ts, (X.eadCompose w m).1 = some ts ∧ EadOk k ts) ∧ (X.eadCompose w m).2.1 = w.1 ∧
    J (X.eadCompose w m).2.2
  eadProcess : ∀ w m ts, J w.2 → (X.eadProcess w m ts).1 = true ∧ (X.eadProcess w m ts).2.1 = w.1 ∧
    J (X.eadProcess w m ts).2.2
  credFetch : ∀ w, J w.2 → (X.credFetch w).1 = some (p.cred, p.kid) ∧ (X.credFetch w).2.1 = w.1 ∧ J (X.credFetch w).2.2

/-- It also knows `p'`. -/
structure Serves (X : Psa.App τ) (k : Bounds) (J : τ → Prop) (p p' : Identity) : Prop extends Hosts X k J p where
  credVerify : ∀ w i, SentAs p'.cred i → J w.2 → (X.credVerify w (asReceived i)).1 = some (p'.cred, some p'.pk) ∧
    (X.credVerify w (asReceived i)).2.1 = w.1 ∧ J (X.credVerify w (asReceived i)).2.2

/-- `own` is the private key of the identity, imported for its use, and the public key belongs to it. For signatures on
the NIST curves the public key is an uncompressed point; for EdDSA the private key is the seed and the public key. -/
def OwnKey (A : Algs) (q : Params) (own : Key) (p : Identity) : Bool → Prop
  | true => own = ⟨attrOf q .signature p.sk.length, p.sk⟩ ∧ match q.curve with
    | none => p.sk.length = 64 ∧ p.pk.length = 32 ∧ ∀ m, A.ed25519Verify p.pk m (A.ed25519Sign p.sk m) = true
    | some c => A.ecPriv (8 * c.len) p.sk = true ∧ p.pk = A.ecPub (8 * c.len) p.sk
  | false => own = ⟨attrOf q .keyAgreement p.sk.length, p.sk⟩ ∧ isPriv A q p.sk ∧ p.pk = (primsOf A q).pub p.sk

/-- A public key that can be imported to verify signatures: on the NIST curves an uncompressed point, for EdDSA 32 bytes. -/
def VerifyKey (A : Algs) (q : Params) (pk : Bytes) : Prop :=
  match q.curve with
  | none => pk.length = 32
  | some c => pk.length = 1 + 2 * c.len ∧ A.ecPoint (8 * c.len) pk = true

/-- Everything two parties need for a handshake with the method `me` and the shipped suite `q`. -/
structure SuiteParties (A : Algs) (q : Params) (k : Bounds) (me : Nat) {τI τR : Type} (XI : Psa.App τI) (XR : Psa.App τR)
    (JI : τI → Prop) (JR : τR → Prop) (cfgI cfgR : Config) (idI idR : Nat) (ownI ownR : Key) (pI pR : Identity)
    (gI gR : Choice) : Prop where
  shipped : q ∈ shipped
  laws : AlgLaws A q
  method : me < 4
  servesI : Serves XI k JI pI pR
  servesR : Serves XR k JR pR pI
  /-- keys and credentials -/
  kidI : pI.kid = kidBytes idI ∧ idI < 2 ^ 32
  kidR : pR.kid = kidBytes idR ∧ idR < 2 ^ 32
  keyI : OwnKey A q ownI pI (initiatorSigns me)
  keyR : OwnKey A q ownR pR (responderSigns me)
  credI : CredOk cfgI cfgR pI.cred
  credR : CredOk cfgI cfgR pR.cred
  /-- bounds: HKDF-Expand gives at most 255 times the length of the hash -/
  items : k.items ≤ cfgI.maxEad ∧ k.items ≤ cfgR.maxEad
  derive : 1000 ≤ k.expand ∧ k.expand ≤ 255 * q.hash.len
  keystream : (idCred pR.cred).length + k.ead + 2100 ≤ k.expand
  roomI : Roomy cfgI q.table
  roomR : Roomy cfgR q.table
  /-- settings -/
  choiceI : gI.Ok cfgI q.table
  choiceR : gR.Ok cfgR q.table
  methodI : gI.methods.head? = some me
  methodR : me ∈ gR.methods
  suites : gI.suites.length ≤ cfgR.maxSuites
  cidI : CidOk cfgR gI.cid
  cidR : CidOk cfgI gR.cid

end Verif.Spec
