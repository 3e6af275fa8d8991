import Verif.SpecRound
import Verif.SpecPrims
import Verif.SpecConfig

/-!
# Specification: honest applications with enough room

The premises under which a handshake must complete: callbacks that do not fail and compute the primitives of the
cipher suite, credentials that the peer knows, and data that is within the configured limits and below 64 KiB.
-/

namespace Verif.Spec

open Verif

variable {σ : Type}

/-- The lengths of a cipher suite: not zero, below 1 KiB, and no IV that needs a longer length field than the key. -/
structure SuiteOk (su : Suite) : Prop where
  hash : 0 < su.hash ∧ su.hash ≤ 1000
  mac : 0 < su.mac ∧ su.mac ≤ 1000
  ecc : 0 < su.eccKey ∧ su.eccKey ≤ 1000
  sign : 0 < su.eccSign ∧ su.eccSign ≤ 1000
  key : 0 < su.aeadKey ∧ su.aeadKey ≤ 1000
  iv : 0 < su.aeadIv ∧ su.aeadIv ≤ 1000
  ivKey : su.aeadIv ≤ 23 ∨ su.aeadIv ≤ su.aeadKey
  tag : 0 < su.aeadTag ∧ su.aeadTag ≤ 1000

/-- The outputs of the primitives have the lengths of the cipher suite. -/
structure Prims.Sized (P : Prims) (su : Suite) : Prop where
  hash : ∀ b, (P.hash b).length = su.hash
  extract : ∀ salt ikm, (P.extract salt ikm).length = su.hash
  expand : ∀ prk info n, (P.expand prk info n).length = n
  pub : ∀ x, P.priv x → (P.pub x).length = su.eccKey
  dh : ∀ x y, P.priv x → P.priv y → (P.dh x (P.pub y)).length = su.eccKey
  enc : ∀ k iv aad p, (P.enc k iv aad p).length = p.length + su.aeadTag

/-- Bounds on what an application is asked for: EAD items in a message, bytes of EAD in a message, bytes derived in one
call. -/
structure Bounds where
  items : Nat
  ead : Nat
  expand : Nat

/-- The keys the library imports, apart from those for signatures. -/
def KeyFits (P : Prims) (su : Suite) (raw : Bytes) : KeyType → Prop
  | .makeKeyPair => raw = []
  | .keyAgreement => P.priv raw
  | .extract => raw.length = su.eccKey
  | .expand => raw.length = su.hash
  | .encrypt | .decrypt => raw.length = su.aeadKey
  | .signature | .verify => False

/-- In the state `e` of the application, `kid` stands for the key `raw`, imported for the use given by the key type: the
operation does not fail, it computes the primitive, and once the key is destroyed the application is in order (`I`)
again. Between the import for a new key pair and its creation the library may allocate memory. -/
def KeyOf (P : Prims) (su : Suite) (k : Bounds) (I : σ → Prop) (E : Env σ) (e : σ) (kid raw : Bytes) : KeyType → Prop
  | .makeKeyPair => (∀ n, (E.alloc e n).1 = true) ∧ ∀ e', (e' = e ∨ ∃ n, e' = (E.alloc e n).2) →
      ∃ x, (E.makeKeyPair e' kid).1 = some (x, P.pub x) ∧ P.priv x ∧ x.length = su.eccKey ∧
        I (E.destroyKey (E.makeKeyPair e' kid).2 kid)
  | .keyAgreement => ∀ y, P.priv y → (E.keyAgreement e kid (P.pub y)).1 = some (P.dh raw (P.pub y)) ∧
      I (E.destroyKey (E.keyAgreement e kid (P.pub y)).2 kid)
  | .extract => ∀ salt, salt.length = su.hash → (E.extract e kid salt).1 = some (P.extract salt raw) ∧
      I (E.destroyKey (E.extract e kid salt).2 kid)
  | .expand => ∀ info n, info ≠ [] → 0 < n → n ≤ k.expand → (E.expand e kid info n).1 = some (P.expand raw info n) ∧
      I (E.destroyKey (E.expand e kid info n).2 kid)
  | .encrypt => ∀ iv aad p, iv.length = su.aeadIv → aad ≠ [] → p.length < 65536 →
      (E.encrypt e kid iv aad p).1 = some (P.enc raw iv aad p) ∧ I (E.destroyKey (E.encrypt e kid iv aad p).2 kid)
  | .decrypt => ∀ iv aad p, iv.length = su.aeadIv → aad ≠ [] → p.length < 65536 →
      (E.decrypt e kid iv aad (P.enc raw iv aad p)).1 = some p ∧
        I (E.destroyKey (E.decrypt e kid iv aad (P.enc raw iv aad p)).2 kid)
  | .signature | .verify => True

/-- EAD items a peer can take. -/
structure EadOk (k : Bounds) (ts : List EadTok) : Prop where
  count : ts.length ≤ k.items ∧ ts.length ≤ 3
  label : ∀ t ∈ ts, -65536 ≤ t.label ∧ t.label ≤ 65535
  size : (ead ts).length ≤ k.ead ∧ (ead ts).length ≤ 20000

/-- An honest application. `I` says which of its states are in order; in these no callback fails, they compute the
primitives, and it stays in order. Key pairs and EAD may differ from call to call. -/
structure Honest (P : Prims) (su : Suite) (k : Bounds) (I : σ → Prop) (E : Env σ) : Prop where
  alloc : ∀ e n, I e → (E.alloc e n).1 = true ∧ I (E.alloc e n).2
  key : ∀ e t raw, I e → KeyFits P su raw t →
    ∃ kid, (E.importKey e t raw).1 = some kid ∧ KeyOf P su k I E (E.importKey e t raw).2 kid raw t
  hash : ∀ e b, I e → b ≠ [] → (E.hash e b).1 = some (P.hash b) ∧ I (E.hash e b).2
  eadCompose : ∀ e m, I e → (∃ ts, (E.eadCompose e m).1 = some ts ∧ EadOk k ts) ∧ I (E.eadCompose e m).2
  eadProcess : ∀ e m ts, I e → (E.eadProcess e m ts).1 = true ∧ I (E.eadProcess e m ts).2

/-- What a party authenticates with: its credential, the identifier of its private key, the private key behind it (for
static Diffie-Hellman), the public key. -/
structure Identity where
  cred : Cred
  kid : Bytes
  sk : Bytes
  pk : Bytes

/-- The application `E` owns the identity `p`. `signs`: it is used for signatures, otherwise for static
Diffie-Hellman. -/
structure Owns (P : Prims) (valid : Bytes → Bytes → Bytes → Bool) (su : Suite) (signs : Bool) (I : σ → Prop)
    (E : Env σ) (p : Identity) : Prop where
  fetch : ∀ e, I e → (E.credFetch e).1 = some (p.cred, p.kid) ∧ I (E.credFetch e).2
  pk : p.pk ≠ []
  sign : signs = true → ∀ e m, I e → m ≠ [] → (∃ s, (E.sign e p.kid m).1 = some s ∧ 0 < s.length ∧
    s.length ≤ su.eccSign ∧ valid p.pk m s = true) ∧ I (E.sign e p.kid m).2
  agree : signs = false → p.pk = P.pub p.sk ∧ P.priv p.sk ∧ ∀ e y, I e → P.priv y →
    (E.keyAgreement e p.kid (P.pub y)).1 = some (P.dh p.sk (P.pub y)) ∧ I (E.keyAgreement e p.kid (P.pub y)).2

/-- the received ID_CRED as it is given to the application -/
def asReceived : IdCred → Cred
  | .int v => .kid [] false (.int v)
  | .bstr b => .kid [] false (.bstr b)
  | .map m =>
    match m.x5chain, m.x5t with
    | some (.one c), _ => .x5chain [c]
    | some (.list l), _ => .x5chain l
    | none, some (a, fp) => .x5t [] fp a
    | none, none => .other 0

/-- The application `E` knows the identity `p`: asked about its identifier it gives the credential and the public key,
and with the public key it accepts valid signatures (if it is used for signatures). -/
structure Recognises (valid : Bytes → Bytes → Bytes → Bool) (signs : Bool) (I : σ → Prop) (E : Env σ) (p : Identity) :
    Prop where
  cred : ∀ i, SentAs p.cred i → ∀ e, I e →
    (E.credVerify e (asReceived i)).1 = some (p.cred, some p.pk) ∧ I (E.credVerify e (asReceived i)).2
  verify : signs = true → ∀ e, I e → ∃ kid, (E.importKey e .verify p.pk).1 = some kid ∧
    ∀ m s, m ≠ [] → valid p.pk m s = true → (E.verify (E.importKey e .verify p.pk).2 kid m s).1 = true ∧
      I (E.destroyKey (E.verify (E.importKey e .verify p.pk).2 kid m s).2 kid)

/-- The credential fits the fixed-size arrays of the library: the CBOR encoding of a key identifier takes at most
`maxKid` bytes (one more if the application encoded it, which must not be the empty string then), at most `maxCerts` certificates, at most
`maxHashAlg + 1` characters for the name of the hash algorithm. -/
def CredRoom (cfg : Config) : Cred → Prop
  | .kid _ false (.bstr b) => (encBstr b).length ≤ cfg.maxKid
  | .kid _ true (.bstr b) => b.length ≤ cfg.maxKid + 1 ∧ b ≠ encBstr []
  | .x5chain l => l.length ≤ cfg.maxCerts
  | .x5t _ _ (.bstr a) => a.length ≤ cfg.maxHashAlg + 1
  | _ => True

/-- A credential that can be sent in messages between libraries with the configurations `cfg` and `cfg'`. -/
structure CredOk (cfg cfg' : Config) (c : Cred) : Prop where
  sent : ∃ i, SentAs c i
  room : CredRoom cfg c
  room' : CredRoom cfg' c
  hashAlg : ∀ cert fp a, c = .x5t cert fp (.int a) → -65536 ≤ a ∧ a ≤ 65535
  size : (idCred c).length + (cred c).length ≤ 40000

/-- A connection identifier the peer (configuration `cfg`) can take. -/
def CidOk (cfg : Config) : Cid → Prop
  | .int v => -24 ≤ v ∧ v ≤ 23
  | .bstr b => b.length ≤ cfg.maxCid + 1 ∧ b.length ≤ 1000

/-- Buffers of the cipher suite's lengths fit into the library's arrays, and a large buffer can be had. -/
structure Roomy (cfg : Config) (su : Suite) : Prop where
  hash : su.hash ≤ cfg.maxMac
  ecc : su.eccKey ≤ cfg.maxEccKey
  memory : cfg.backend = .heap ∨ 200000 + cfg.macCtxSize ≤ cfg.stackMax ∧ cfg.zeroVlaOk = true

/-- A context ready for a handshake with the suite `su`, as last of at most three suites. -/
structure Ready (su : Suite) (c : Ctx) : Prop where
  status : c.status = .start ∧ c.thState = .invalid ∧ c.prkState = .invalid
  bound : c.hasKeys = true ∧ c.hasCrypto = true ∧ c.hasCred = true
  clean : c.ead = [] ∧ c.peerCsuite = []
  suites : 1 ≤ c.csuiteLen ∧ c.csuiteLen ≤ 3 ∧ c.csuiteLen ≤ c.csuiteArr.length
  numbers : SuiteNumbers c
  selected : (Spec.suites c).getLast? = some su

/-- The settings of a party. `ead`: are the two EAD callbacks bound? -/
structure Choice where
  methods : List Nat
  suites : List Suite
  cid : Cid
  ead : Option (Bool × Bool)

/-- The calls with which the party configures its context. -/
def Choice.settings (g : Choice) : List Op :=
  [.setMethods g.methods, .setSuites g.suites, .setCid g.cid, .bindKeys true, .bindCrypto true, .bindCred true] ++
    match g.ead with
    | none => []
    | some (a, b) => [.bindEad a b]

/-- Initialisation and configuration. -/
def Choice.calls (g : Choice) : List Op := .init :: g.settings

/-- The settings are documented ones, there are at most three suites, their numbers are 32-bit integers, the last one
is `su`. -/
structure Choice.Ok (cfg : Config) (su : Suite) (g : Choice) : Prop where
  domain : ∀ o ∈ g.settings, documented cfg o
  few : g.suites.length ≤ 3
  numbers : ∀ q ∈ g.suites, -2147483648 ≤ q.value ∧ q.value ≤ 2147483647
  selected : g.suites.getLast? = some su

/-- Everything two parties need for a handshake with the method `me` and the cipher suite `su`. `II` and `IR` are the
states in which the applications are in order, `k` bounds what they are asked for. -/
structure Parties (P : Prims) (valid : Bytes → Bytes → Bytes → Bool) (su : Suite) (k : Bounds) (me : Nat) {σI σR : Type}
    (II : σI → Prop) (IR : σR → Prop) (EI : Env σI) (ER : Env σR) (cfgI cfgR : Config) (pI pR : Identity) (gI gR : Choice) : Prop where
  /-- cryptography -/
  method : me < 4
  lawful : P.Lawful
  suite : SuiteOk su
  sized : P.Sized su
  honestI : Honest P su k II EI
  honestR : Honest P su k IR ER
  /-- credentials -/
  ownsI : Owns P valid su (initiatorSigns me) II EI pI
  ownsR : Owns P valid su (responderSigns me) IR ER pR
  knowsI : Recognises valid (initiatorSigns me) IR ER pI
  knowsR : Recognises valid (responderSigns me) II EI pR
  credI : CredOk cfgI cfgR pI.cred
  credR : CredOk cfgI cfgR pR.cred
  /-- bounds: the EAD items fit into both contexts, keys and secrets and the plaintext of message 2 (whose keystream is
  derived in one call) can be derived -/
  items : k.items ≤ cfgI.maxEad ∧ k.items ≤ cfgR.maxEad
  derive : 1000 ≤ k.expand
  keystream : (idCred pR.cred).length + k.ead + 2100 ≤ k.expand
  /-- memory -/
  roomI : Roomy cfgI su
  roomR : Roomy cfgR su
  /-- settings: the Initiator proposes its first method and its last suite -/
  choiceI : gI.Ok cfgI su
  choiceR : gR.Ok cfgR su
  methodI : gI.methods.head? = some me
  methodR : me ∈ gR.methods
  suites : gI.suites.length ≤ cfgR.maxSuites
  cidI : CidOk cfgR gI.cid
  cidR : CidOk cfgI gR.cid

/-- The length of an exported secret: its CBOR encoding is no longer than that of the hash length. -/
def SecretLen (su : Suite) (n : Nat) : Prop := 0 < n ∧ (n ≤ 23 ∨ 24 ≤ su.hash ∧ n ≤ 255)

/-- All these calls succeeded without output. -/
def done (l : List Op) : History := l.map fun o => (o, .ok .unit)

end Verif.Spec
