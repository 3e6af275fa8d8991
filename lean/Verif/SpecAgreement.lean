import Verif.SpecBinding

/-!
# Specification: agreement in spite of an active attacker

Any number of sessions of parties that use this library, on a network the attacker controls: nothing is assumed about
the messages that are given to the API. What is assumed is what cryptography provides (`Network`).
-/

namespace Verif.Spec

open Verif

/-- A session: the application and the library in one process, with the API calls made so far. -/
structure Node : Type 1 where
  {σ : Type}
  env : Env σ
  cfg : Config
  start : σ
  log : List Ev
  hist : History
  state : St σ

/-- the calls to the application in the session -/
def Node.calls (N : Node) : List Ev := sessionCalls N.log N.state

/-- the method and the cipher suite -/
def Node.method (N : Node) : Nat := N.state.ctx.chosenMethod
@[inherit_doc Node.method] def Node.suite (N : Node) : Suite := N.state.ctx.suite

/-- The session is a proper one, the application's credentials are CBOR items, and nothing of 2^64 bytes or more is
derived from or signed. -/
structure Node.Good (N : Node) : Prop where
  proper : Proper N.env N.cfg N.start N.log N.hist N.state
  supplied : ∀ {c kid}, Ev.credFetch (some (c, kid)) ∈ N.calls → Item (idCred c) ∧ Item (cred c)
  returned : ∀ {id c pk}, Ev.credVerify id (some (c, pk)) ∈ N.calls → Item (idCred c) ∧ Item (cred c)
  infos : ∀ {kid i n o}, Ev.expand kid i n o ∈ N.calls → i.length < 2 ^ 64
  signed : ∀ {kid i o}, Ev.sign kid i o ∈ N.calls → i.length < 2 ^ 64

/-- the suite selected by SUITES_I: the only one, or the last of the list -/
def selectedSuite : Suites → Option Int
  | .one v => some v
  | .list l => l.getLast?

/-- What message 2 establishes: the method, the number of the cipher suite, message_1 and its G_X, G_Y, the transcript hashes, C_R, ID_CRED_R, CRED_R, EAD_2 and
MAC_2. -/
structure Data2 where
  method : Nat
  suite : Int
  m1 : Bytes
  gx : Bytes
  gy : Bytes
  th1 : Bytes
  th2 : Bytes
  cr : Cid
  idCred : Bytes
  cred : Bytes
  ead : Bytes
  mac : Bytes

/-- context_2 -/
def Data2.context (d : Data2) : Bytes := cidItem d.cr ++ d.idCred ++ encBstr d.th2 ++ d.cred ++ d.ead

/-- What both sides have in common: they know message_1 and computed the transcript hashes and MAC_2. -/
structure Shares2 (N : Node) (d : Data2) : Prop where
  method : N.method = d.method
  suite : N.suite.value = d.suite
  message1 : ∃ l, StartsMessage1 d.method l d.gx d.m1 ∧ selectedSuite l = some d.suite
  th1 : HashCall N.calls d.m1 d.th1
  th2 : HashCall N.calls (encBstr d.gy ++ encBstr d.th1) d.th2
  mac : ∃ prk n, ExpandCall N.calls prk 2 d.context n d.mac

/-- In the session `N` an Initiator accepted `m2` from the party with the public key `pk`, with the data `d`. -/
structure Accepted2 (N : Node) (m2 : Bytes) (d : Data2) (pk : Bytes) : Prop extends Shares2 N d where
  sent : ∃ n, (.compose1 n, .ok (.bytes d.m1)) ∈ N.hist
  accepted : (.process2 m2, .ok .unit) ∈ N.hist
  ephemeral : ∃ x, KeyPairCall N.calls x d.gx
  received : d.gy.length = N.suite.eccKey ∧ ∃ c, StartsBstr (d.gy ++ c) m2
  peer : ∃ id c, CredAccepted N.calls id c pk ∧ idCred c = d.idCred ∧ cred c = d.cred

/-- In the session `N` a Responder accepted `d.m1` and answered it, as itself, with the data `d`. (Its call of
`edhoc_message_2_compose` can still have failed afterwards, for example because the buffer was too small.) -/
structure Answered2 (N : Node) (d : Data2) : Prop extends Shares2 N d where
  received : (.process1 d.m1, .ok .unit) ∈ N.hist
  called : ∃ n r, (.compose2 n, r) ∈ N.hist
  ephemeral : ∃ y, KeyPairCall N.calls y d.gy
  own : ∃ c kid, CredSupplied N.calls c kid ∧ idCred c = d.idCred ∧ cred c = d.cred
  cid : N.state.ctx.cid = d.cr

/-- What message 3 establishes. `ptxt2Cred` is PLAINTEXT_2 followed by CRED_R; `cr` is the C_R it begins with. -/
structure Data3 where
  method : Nat
  suite : Int
  m1 : Bytes
  gx : Bytes
  gy : Bytes
  th1 : Bytes
  th2 : Bytes
  th3 : Bytes
  cr : Cid
  ptxt2Cred : Bytes
  idCred : Bytes
  cred : Bytes
  ead : Bytes
  mac : Bytes

/-- context_3 -/
def Data3.context (d : Data3) : Bytes := d.idCred ++ encBstr d.th3 ++ d.cred ++ d.ead

@[inherit_doc Shares2]
structure Shares3 (N : Node) (d : Data3) : Prop where
  method : N.method = d.method
  suite : N.suite.value = d.suite
  message1 : ∃ l, StartsMessage1 d.method l d.gx d.m1 ∧ selectedSuite l = some d.suite
  th1 : HashCall N.calls d.m1 d.th1
  th2 : HashCall N.calls (encBstr d.gy ++ encBstr d.th1) d.th2
  th3 : HashCall N.calls (encBstr d.th2 ++ d.ptxt2Cred) d.th3
  cid : ∃ x r, CidItem d.cr x ∧ d.ptxt2Cred = x ++ r
  mac : ∃ prk n, ExpandCall N.calls prk 6 d.context n d.mac

/-- In the session `N` a Responder accepted `m3` from the party with the public key `pk`, with the data `d`. -/
structure Accepted3 (N : Node) (m3 : Bytes) (d : Data3) (pk : Bytes) : Prop extends Shares3 N d where
  received : (.process1 d.m1, .ok .unit) ∈ N.hist
  answered : ∃ n m2, (.compose2 n, .ok (.bytes m2)) ∈ N.hist
  accepted : (.process3 m3, .ok .unit) ∈ N.hist
  ephemeral : ∃ y, KeyPairCall N.calls y d.gy
  peer : ∃ id c, CredAccepted N.calls id c pk ∧ idCred c = d.idCred ∧ cred c = d.cred
  own : N.state.ctx.cid = d.cr

/-- In the session `N` an Initiator sent `d.m1`, accepted a message 2 with G_Y, and answered it, as itself, with the
data `d`. -/
structure Answered3 (N : Node) (d : Data3) : Prop extends Shares3 N d where
  sent : ∃ n, (.compose1 n, .ok (.bytes d.m1)) ∈ N.hist
  accepted : d.gy.length = N.suite.eccKey ∧ ∃ m2 c, (.process2 m2, .ok .unit) ∈ N.hist ∧ StartsBstr (d.gy ++ c) m2
  called : ∃ n r, (.compose3 n, r) ∈ N.hist
  ephemeral : ∃ x, KeyPairCall N.calls x d.gx
  own : ∃ c kid, CredSupplied N.calls c kid ∧ idCred c = d.idCred ∧ cred c = d.cred

/-- The peer authenticates with a static Diffie-Hellman key, and the session accepted its MAC: MAC_2 (label 2) as
Initiator, MAC_3 (label 6) as Responder. -/
def TrustsMac (N : Node) (label : Nat) : Prop :=
  (label = 2 ∧ responderSigns N.method = false ∧ ∃ m, (.process2 m, .ok .unit) ∈ N.hist) ∨
    (label = 6 ∧ initiatorSigns N.method = false ∧ ∃ m, (.process3 m, .ok .unit) ∈ N.hist)

/-- `mac` was computed with a key extracted from the Diffie-Hellman secret of the session's own ephemeral key and the
public key `pk` -/
def MacUnder (L : List Ev) (pk : Bytes) (label : Nat) (context : Bytes) (n : Nat) (mac : Bytes) : Prop :=
  ∃ x gx g salt prk, KeyPairCall L x gx ∧ AgreeCall L x pk g ∧ ExtractCall L salt g prk ∧
    ExpandCall L prk label context n mac

/-- Sessions `W`, where session `i` belongs to the owner of the key `pk` if `owns i pk`, and where the private keys of
the public keys in `honest` are used in these sessions only. What the attacker cannot do:

* `noCollision`: find two inputs with the same hash;
* `distinct`: find two contexts with the same MAC_2, if that has the length of a hash;
* `fresh`: make two sessions generate the same ephemeral key;
* `signatures`: sign for the owner of an honest key; what is accepted as signed was signed by a session of the owner;
* `macs`: compute a MAC for the owner of an honest key; if a MAC is accepted, another session, of the owner, has
  computed it, with the same context. -/
structure Network {ι : Type} (W : ι → Node) (owns : ι → Bytes → Prop) (honest : Bytes → Prop) : Prop where
  good : ∀ i, (W i).Good
  noCollision : ∀ i j, NoCollision (W i).calls (W j).calls
  distinct : ∀ {i j p c q c' mac}, ExpandCall (W i).calls p 2 c (W i).suite.hash mac →
    ExpandCall (W j).calls q 2 c' (W i).suite.hash mac → c = c'
  fresh : ∀ {i j x y g}, KeyPairCall (W i).calls x g → KeyPairCall (W j).calls y g → i = j
  signatures : ∀ {i pk input sig}, honest pk → VerifyCall (W i).calls pk input sig →
    ∃ j kid sig', owns j pk ∧ SignCall (W j).calls kid input sig'
  macs : ∀ {i pk label c n mac}, honest pk → TrustsMac (W i) label → MacUnder (W i).calls pk label c n mac →
    ∃ j prk, j ≠ i ∧ owns j pk ∧ ExpandCall (W j).calls prk label c n mac

end Verif.Spec
