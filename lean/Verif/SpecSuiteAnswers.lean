import Verif.SpecAnswers
import Verif.SpecSuitePeer

/-!
# Specification: an application with a shipped suite whose calls must not fail

As `Sender`, in terms of the key store and the application. Nothing is said about the peer.
-/

namespace Verif.Spec

open Verif Psa

/-- An application with its own callbacks, a shipped suite `q`, a credential that can be sent with its own key for each method
it uses, and settings within the limits. `signs`: does it authenticate with a signature in this method? -/
structure SuiteSender {τ : Type} (A : Algs) (q : Params) (k : Bounds) (signs : Nat → Bool) (X : Psa.App τ) (J : τ → Prop)
    (cfg : Config) (id : Nat) (own : Key) (p : Identity) (g : Choice) : Prop where
  shipped : q ∈ shipped
  hosts : Hosts X k J p
  room : Roomy cfg q.table
  items : k.items ≤ cfg.maxEad
  derive : 1000 ≤ k.expand ∧ k.expand ≤ 255 * q.hash.len
  keystream : (idCred p.cred).length + k.ead + 2100 ≤ k.expand
  cids : cfg.maxCid < 1000
  choice : g.Ok cfg q.table
  cid : CidOk cfg g.cid
  methods : ∀ me ∈ g.methods, me < 4
  kid : p.kid = kidBytes id ∧ id < 2 ^ 32
  key : ∀ me ∈ g.methods, OwnKey A q own p (signs me)
  credOk : CredOk cfg cfg p.cred

end Verif.Spec
