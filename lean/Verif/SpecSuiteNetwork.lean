import Verif.SpecSuite
import Verif.SpecMatching

/-!
# Specification: sessions with a shipped cipher suite on a network the attacker controls

As `SpecAgreement`, `SpecConfirm` and `SpecMatching`, but all sessions use one of the shipped cipher suites, on PSA
Crypto. What the callbacks compute is then known, and what is assumed are only properties of the algorithms.
-/

namespace Verif.Spec

open Verif Psa

/-- A session with a shipped cipher suite: the rest of the application, the key store and the application's state at the
start, the API calls made so far, and the private keys behind the key identifiers the application supplies. -/
structure Site : Type 1 where
  {τ : Type}
  app : Psa.App τ
  cfg : Config
  start : World τ
  log : List Ev
  hist : History
  state : St (World τ)
  key : Bytes → Bytes

/-- the session -/
def Site.node (A : Algs) (q : Params) (S : Site) : Node := ⟨suiteEnv A q S.app, S.cfg, S.start, S.log, S.hist, S.state⟩

/-- The session is in order: as in C66, and the application leaves the keys of others in the key store alone and had its
own key there from the start. -/
structure Site.Good (A : Algs) (q : Params) (S : Site) : Prop where
  node : (S.node A q).Good
  decent : Decent A S.app
  valid : Valid A S.start.1
  anchored : Anchored q S.app S.start.1 S.key

/-- `pk` is the public key of `sk` for signatures -/
def SigningKey (A : Algs) (q : Params) (sk pk : Bytes) : Prop :=
  match q.curve with
  | none => ∀ m, A.ed25519Verify pk m (A.ed25519Sign sk m) = true
  | some c => pk = A.ecPub (8 * c.len) sk

/-- The session has supplied a credential, and the private key it used with it is that of `pk`. -/
structure Site.Owns (A : Algs) (q : Params) (S : Site) (pk : Bytes) : Prop where
  supplied : ∃ c kid, CredSupplied (S.node A q).calls c kid
  agrees : ∀ {c kid g o}, CredSupplied (S.node A q).calls c kid → AgreeStaticCall (S.node A q).calls kid g o →
    pk = (primsOf A q).pub (S.key kid)
  signs : ∀ {c kid m s}, CredSupplied (S.node A q).calls c kid → SignCall (S.node A q).calls kid m s →
    SigningKey A q (S.key kid) pk

/-- Sessions `W` with the shipped cipher suite `q`, where the private keys of the public keys in `honest` are used in these
sessions only. What the attacker cannot do:

* `noCollision`: find two inputs with the same hash, among what is hashed in the sessions;
* `distinct`: find two contexts with the same MAC_2 of the length of a hash;
* `fresh`: make two sessions generate the same ephemeral key;
* `signatures`, `macs`: sign or compute a MAC for the owner of an honest key (as in `Network`);
* `sealed3`, `sealed4`: encrypt with a session's K_3 or K_4 if the session has accepted an honest key. -/
structure SuiteNetwork (A : Algs) (q : Params) {ι : Type} (W : ι → Site) (honest : Bytes → Prop) : Prop where
  good : ∀ i, (W i).Good A q
  suite : ∀ i, ((W i).node A q).suite = q.table
  noCollision : ∀ {i j x y o p}, HashCall ((W i).node A q).calls x o → HashCall ((W j).node A q).calls y p →
    A.hash q.hash x = A.hash q.hash y → x = y
  distinct : ∀ {i j p c r c' o o'}, ExpandCall ((W i).node A q).calls p 2 c q.hashLen o →
    ExpandCall ((W j).node A q).calls r 2 c' q.hashLen o' →
    A.hkdfExpand q.hash p (info 2 c q.hashLen) q.hashLen = A.hkdfExpand q.hash r (info 2 c' q.hashLen) q.hashLen → c = c'
  fresh : ∀ {i j x y g}, KeyPairCall ((W i).node A q).calls x g → KeyPairCall ((W j).node A q).calls y g → i = j
  signatures : ∀ {i pk input sig}, honest pk → VerifyCall ((W i).node A q).calls pk input sig →
    ∃ j kid sig', (W j).Owns A q pk ∧ SignCall ((W j).node A q).calls kid input sig'
  macs : ∀ {i pk label c n mac}, honest pk → TrustsMac ((W i).node A q) label →
    MacUnder ((W i).node A q).calls pk label c n mac →
    ∃ j prk, j ≠ i ∧ (W j).Owns A q pk ∧ ExpandCall ((W j).node A q).calls prk label c n mac
  sealed3 : Sealed3 (fun i => (W i).node A q) honest
  sealed4 : Sealed (fun i => (W i).node A q) honest

end Verif.Spec
