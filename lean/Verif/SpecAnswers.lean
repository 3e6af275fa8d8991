import Verif.SpecHonest
import Verif.SpecKeys

/-!
# Specification: the party whose calls must not fail

Premises on the local application and its settings only. Nothing is said about the peer.
-/

namespace Verif.Spec

open Verif

/-- An application whose callbacks do not fail and compute the primitives of the suite `su`, with a credential that can be
sent, and settings within the limits. `signs`: does it authenticate with a signature in this method? -/
structure Sender {σ : Type} (P : Prims) (V : Bytes → Bytes → Bytes → Bool) (su : Suite) (k : Bounds) (signs : Nat → Bool)
    (I : σ → Prop) (E : Env σ) (cfg : Config) (p : Identity) (g : Choice) : Prop where
  lawful : P.Lawful
  suite : SuiteOk su
  sized : P.Sized su
  honest : Honest P su k I E
  room : Roomy cfg su
  items : k.items ≤ cfg.maxEad
  derive : 1000 ≤ k.expand
  keystream : (idCred p.cred).length + k.ead + 2100 ≤ k.expand
  cids : cfg.maxCid < 1000
  choice : g.Ok cfg su
  cid : CidOk cfg g.cid
  methods : ∀ me ∈ g.methods, me < 4
  owns : ∀ me ∈ g.methods, Owns P V su (signs me) I E p
  credOk : CredOk cfg cfg p.cred

/-- No call of this history created or destroyed the context, and none changed a setting. -/
def Undisturbed (h : History) : Prop := ∀ p ∈ h, restarts p.1 = false ∧ (isSetter p.1 = true → succeeded p.2 = false)

/-- The history has no call of the exporter interface. -/
def NoExporter (h : History) : Prop := ∀ p ∈ h, isExporter p.1 = false

/-- `b` is a public key. -/
def PublicKey (P : Prims) (b : Bytes) : Prop := ∃ x, P.priv x ∧ b = P.pub x

/-- G_X of the accepted message_1 is a public key. -/
def GoodGx (P : Prims) (h : History) : Prop :=
  ∀ m1 r me su gx, (.process1 m1, .ok r) ∈ h → StartsMessage1 me su gx m1 → PublicKey P gx

/-- G_Y of the accepted message_2 is a public key. -/
def GoodGy (P : Prims) (su : Suite) (h : History) : Prop :=
  ∀ m2 r b, (.process2 m2, .ok r) ∈ h → StartsBstr b m2 → PublicKey P (b.take su.eccKey)

/-- The message calls of a completed handshake, with or without message 4. -/
def finished : List (List Call) :=
  [[.process1, .compose2, .process3], [.process1, .compose2, .process3, .compose4], [.compose1, .process2, .compose3],
    [.compose1, .process2, .compose3, .process4]]

end Verif.Spec
