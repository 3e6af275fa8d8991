import Verif.Export
import Verif.SpecHonest

/-!
# Specification: RFC 9528 for a peer that need not be this library

The messages, transcript hashes and keys of EDHOC as functions of what the two parties contribute, and what an
application has to provide so that the library completes a handshake with such a peer.
-/

namespace Verif.Spec.Rfc

open Verif

/-- ID_CRED_x (section 3.5.3): a key identifier, certificates, or the hash of a certificate -/
inductive Id
  | kid (b : Bytes)
  | x5chain (certs : List Bytes)
  | x5t (alg : IntOrBytes) (hash : Bytes)
  deriving DecidableEq

/-- ID_CRED_x as a COSE header map. A key identifier is a byte string (RFC 9052). -/
def Id.map : Id → Bytes
  | .kid b => mapHead 1 ++ encInt 4 ++ encBstr b
  | .x5chain [c] => mapHead 1 ++ encInt 33 ++ encBstr c
  | .x5chain l => mapHead 1 ++ encInt 33 ++ arrayHead l.length ++ (l.map encBstr).flatten
  | .x5t (.int a) h => mapHead 1 ++ encInt 34 ++ arrayHead 2 ++ encInt a ++ encBstr h
  | .x5t (.bstr a) h => mapHead 1 ++ encInt 34 ++ arrayHead 2 ++ encTstr a ++ encBstr h

/-- the integer whose CBOR encoding is this one byte (section 3.3.2) -/
def oneByteInt : Bytes → Option Int
  | [x] => if x.toNat ≤ 23 then some x.toNat else if 32 ≤ x.toNat ∧ x.toNat ≤ 55 then some (31 - x.toNat) else none
  | _ => none

/-- ID_CRED_x in a plaintext (section 3.5.3.2): a key identifier is sent without the map, as byte string, or as it is if it
is the encoding of a one-byte integer. -/
def Id.field : Id → Bytes
  | .kid b => if (oneByteInt b).isSome then b else encBstr b
  | i => i.map

/-- the question to the application about a received ID_CRED_x -/
def Id.asked : Id → Cred
  | .kid b => .kid [] false (match oneByteInt b with | some v => .int v | none => .bstr b)
  | .x5chain l => .x5chain l
  | .x5t a h => .x5t [] h a

/-- What a party authenticates with: ID_CRED_x, CRED_x, the private key (for static Diffie-Hellman) and the public key. -/
structure Auth where
  id : Id
  cred : Bytes
  sk : Bytes
  pk : Bytes

/-- What both parties contribute to a handshake: method, ephemeral private keys, message_1, the parties, plaintexts. -/
structure Trace where
  method : Nat
  x : Bytes
  y : Bytes
  message1 : Bytes
  responder : Auth
  initiator : Auth
  plaintext2 : Bytes
  plaintext3 : Bytes

section messages

variable (P : Prims) (V : Bytes → Bytes → Bytes → Bool) (su : Suite) (t : Trace)

/-- TH_2 and PRK_2e -/
def th2 : Bytes := P.hash (encBstr (P.pub t.y) ++ encBstr (P.hash t.message1))
@[inherit_doc th2] def prk2e : Bytes := P.extract (th2 P t) (P.dh t.x (P.pub t.y))

/-- PRK_3e2m; with a static key, from G_RX -/
def prk3e2m : Bytes :=
  if responderSigns t.method then prk2e P t
  else P.extract (P.expand (prk2e P t) (info 1 (th2 P t) su.hash) su.hash) (P.dh t.responder.sk (P.pub t.x))

/-- MAC_2 with the context C_R, ID_CRED_R, TH_2, CRED_R, EAD_2 -/
def mac2 (cR : Cid) (e : List EadTok) : Bytes :=
  let n := if responderSigns t.method then su.hash else su.mac
  P.expand (prk3e2m P su t)
    (info 2 (cidItem cR ++ t.responder.id.map ++ encBstr (th2 P t) ++ t.responder.cred ++ ead e) n) n

/-- TH_3 -/
def th3 : Bytes := P.hash (encBstr (th2 P t) ++ t.plaintext2 ++ t.responder.cred)

/-- PRK_4e3m; with a static key, from G_IY -/
def prk4e3m : Bytes :=
  if initiatorSigns t.method then prk3e2m P su t
  else P.extract (P.expand (prk3e2m P su t) (info 5 (th3 P t) su.hash) su.hash) (P.dh t.initiator.sk (P.pub t.y))

/-- MAC_3 with the context ID_CRED_I, TH_3, CRED_I, EAD_3 -/
def mac3 (e : List EadTok) : Bytes :=
  let n := if initiatorSigns t.method then su.hash else su.mac
  P.expand (prk4e3m P su t) (info 6 (t.initiator.id.map ++ encBstr (th3 P t) ++ t.initiator.cred ++ ead e) n) n

/-- TH_4 and PRK_out -/
def th4 : Bytes := P.hash (encBstr (th3 P t) ++ t.plaintext3 ++ t.initiator.cred)
@[inherit_doc th4] def prkOut : Bytes := P.expand (prk4e3m P su t) (info 7 (th4 P t) su.hash) su.hash

/-- EDHOC_Exporter(label, h'', n) -/
def exporter (label n : Nat) : Bytes :=
  P.expand (P.expand (prkOut P su t) (info 10 [] su.hash) su.hash) (info label [] n) n

/-- Signature_or_MAC_x: a signature of the Sig_structure, or the MAC -/
def Authentic (signs : Bool) (a : Auth) (th : Bytes) (e : List EadTok) (mac sig : Bytes) : Prop :=
  if signs then
    V a.pk (arrayHead 4 ++ encTstr [0x53, 0x69, 0x67, 0x6e, 0x61, 0x74, 0x75, 0x72, 0x65, 0x31] ++ encBstr a.id.map ++
      encBstr (encBstr th ++ a.cred ++ ead e) ++ encBstr mac) sig = true
  else sig = mac

/-- `m` is a message_2 with the connection identifier `cR`, the EAD items `e` and Signature_or_MAC_2 `sig` -/
structure IsMessage2 (cR : Cid) (e : List EadTok) (sig m : Bytes) : Prop where
  key : P.priv t.y
  auth : Authentic V (responderSigns t.method) t.responder (th2 P t) e (mac2 P su t cR e) sig
  plaintext : t.plaintext2 = cidItem cR ++ t.responder.id.field ++ encBstr sig ++ ead e
  message : m = encBstr (P.pub t.y ++
    xorBytes t.plaintext2 (P.expand (prk2e P t) (info 0 (th2 P t) t.plaintext2.length) t.plaintext2.length))

/-- `m` is a message_3 with the EAD items `e` and Signature_or_MAC_3 `sig` -/
structure IsMessage3 (e : List EadTok) (sig m : Bytes) : Prop where
  auth : Authentic V (initiatorSigns t.method) t.initiator (th3 P t) e (mac3 P su t e) sig
  plaintext : t.plaintext3 = t.initiator.id.field ++ encBstr sig ++ ead e
  message : m = encBstr (P.enc (P.expand (prk3e2m P su t) (info 3 (th3 P t) su.aeadKey) su.aeadKey)
    (P.expand (prk3e2m P su t) (info 4 (th3 P t) su.aeadIv) su.aeadIv) (encStructure (th3 P t)) t.plaintext3)

/-- `m` is a message_4 with the EAD items `e` -/
def IsMessage4 (e : List EadTok) (m : Bytes) : Prop :=
  m = encBstr (P.enc (P.expand (prk4e3m P su t) (info 8 (th4 P t) su.aeadKey) su.aeadKey)
    (P.expand (prk4e3m P su t) (info 9 (th4 P t) su.aeadIv) su.aeadIv) (encStructure (th4 P t)) (ead e))

end messages

/-- `c`, as the application gives it to the library, stands for ID_CRED_x `i`. -/
inductive Denotes : Cred → Id → Prop
  | kid (cred : Bytes) {b : Bytes} : oneByteInt b = none → SizeOk b → Denotes (.kid cred false (.bstr b)) (.kid b)
  | kidInt (cred : Bytes) {b : Bytes} : oneByteInt b ≠ none → Denotes (.kid cred true (.bstr b)) (.kid b)
  | cert {c : Bytes} : SizeOk c → Denotes (.x5chain [c]) (.x5chain [c])
  | chain {l : List Bytes} : 2 ≤ l.length → l.length ≤ 3 → (∀ c ∈ l, SizeOk c) → Denotes (.x5chain l) (.x5chain l)
  | hashInt (cert : Bytes) {a : Int} {h : Bytes} : Int32Range a → SizeOk h → Denotes (.x5t cert h (.int a)) (.x5t (.int a) h)
  | hashTstr (cert : Bytes) {a h : Bytes} : SizeOk a → SizeOk h → Denotes (.x5t cert h (.bstr a)) (.x5t (.bstr a) h)

/-- What an application that supplies the credential `c` says ID_CRED_x is: `edhoc_auth_cred_key_id` has the key
identifier as byte string, or as an integer that stands for its one-byte encoding (RFC 9528, section 3.3.2); the other
member, `cred_is_cbor`, is about the credential. -/
def meant : Cred → Option Id
  | .kid _ _ (.bstr b) => some (.kid b)
  | .kid _ _ (.int v) => if -24 ≤ v ∧ v ≤ 23 then some (.kid (encInt v)) else none
  | .x5chain l => some (.x5chain l)
  | .x5t _ h a => some (.x5t a h)
  | _ => none

/-- `p` (PLAINTEXT_2 without C_R, or PLAINTEXT_3) and `context` (context_2 without C_R, or context_3) have ID_CRED_x `i` as
RFC 9528 says. -/
def HasId (i : Id) (c : Cred) (th sig : Bytes) (e : List EadTok) (p context : Bytes) : Prop :=
  p = i.field ++ encBstr sig ++ ead e ∧ context = i.map ++ encBstr th ++ cred c ++ ead e

/-- Credentials the library sends as RFC 9528 says: certificates, and key identifiers as byte strings, where
`cred_is_cbor` is set if and only if the key identifier is the encoding of a one-byte integer. -/
def SentRight : Cred → Prop
  | .kid _ f (.bstr b) => f = (oneByteInt b).isSome
  | .kid _ _ (.int _) => False
  | _ => True

/-- A received ID_CRED_x the library can take. -/
def Id.Fits (cfg : Config) : Id → Prop
  | .kid b => b.length ≤ cfg.maxKid + 1 ∧ SizeOk b
  | .x5chain l => 1 ≤ l.length ∧ l.length ≤ 3 ∧ (2 ≤ l.length → l.length ≤ cfg.maxCerts) ∧ ∀ c ∈ l, SizeOk c
  | .x5t (.int a) h => Int32Range a ∧ SizeOk h
  | .x5t (.bstr a) h => a.length ≤ cfg.maxHashAlg + 1 ∧ SizeOk a ∧ SizeOk h

/-- What the local party needs. It authenticates with `p`, by signatures if `signs`; its settings are `g`. The peer
authenticates with `peer`, by signatures if `peerSigns`; the application knows it, as the credential `c`. -/
structure Local {σ : Type} (P : Prims) (V : Bytes → Bytes → Bytes → Bool) (su : Suite) (k : Bounds) (me : Nat)
    (signs peerSigns : Bool) (I : σ → Prop) (E : Env σ) (cfg : Config) (p : Identity) (i : Id) (g : Choice) (peer : Auth)
    (c : Cred) : Prop where
  method : me < 4
  lawful : P.Lawful
  suite : SuiteOk su
  sized : P.Sized su
  honest : Honest P su k I E
  room : Roomy cfg su
  items : k.items ≤ cfg.maxEad
  derive : 1000 ≤ k.expand
  choice : g.Ok cfg su
  cid : CidOk cfg g.cid
  /-- the own credential -/
  owns : Owns P V su signs I E p
  denotes : Denotes p.cred i
  credOk : CredOk cfg cfg p.cred
  /-- the peer's credential -/
  peerKey : peer.pk ≠ [] ∧ (peerSigns = false → peer.pk = P.pub peer.sk ∧ P.priv peer.sk)
  known : ∀ e, I e → (E.credVerify e peer.id.asked).1 = some (c, some peer.pk) ∧ I (E.credVerify e peer.id.asked).2
  same : idCred c = peer.id.map ∧ cred c = peer.cred
  verify : peerSigns = true → ∀ e, I e → ∃ kid, (E.importKey e .verify peer.pk).1 = some kid ∧
    ∀ m s, m ≠ [] → V peer.pk m s = true → (E.verify (E.importKey e .verify peer.pk).2 kid m s).1 = true ∧
      I (E.destroyKey (E.verify (E.importKey e .verify peer.pk).2 kid m s).2 kid)
  peerOk : CredOk cfg cfg c
  peerFits : peer.id.Fits cfg

/-- The local party as RFC 9528 sees it. -/
def authOf (p : Identity) (i : Id) : Auth := ⟨i, cred p.cred, p.sk, p.pk⟩

/-- What the library can take of the peer's EAD items, Signature_or_MAC and plaintext. -/
structure Takes (k : Bounds) (e : List EadTok) (sig ptxt : Bytes) : Prop where
  ead : EadOk k e
  sig : 0 < sig.length ∧ sig.length ≤ 1000
  ptxt : ptxt.length ≤ 61100

/-- A message_1 the library can take: it selects the suite `su`, the suites are few and integers of 32 bits. -/
structure Takes1 (cfg : Config) (k : Bounds) (su : Suite) (suites : List Int) (cI : Cid) (e : List EadTok) : Prop where
  selected : suites.getLast? = some su.value
  suites : suites.length ≤ 3 ∧ suites.length ≤ cfg.maxSuites ∧ ∀ v ∈ suites, Int32Range v
  cid : CidOk cfg cI
  ead : EadOk k e

/-- In the state `s`, OSCORE keys can be exported, and they are those of RFC 9528. -/
def Exports {σ : Type} (E : Env σ) (cfg : Config) (P : Prims) (su : Suite) (t : Trace) (own peer : Cid) (n : Nat) (s : St σ) : Prop :=
  ∀ a b, SecretLen su a → SecretLen su b → ∃ s', Run E cfg s [(.exportOscore a b n n, .ok (.oscore
    ⟨exporter P su t 0 a, exporter P su t 1 b, oscoreIdOf peer, oscoreIdOf own⟩))] s'

end Verif.Spec.Rfc
