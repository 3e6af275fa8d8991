import Verif.SpecCalls
import Verif.SpecConfig

/-!
# Specification: transcript, key schedule and exported keys of a session

`L` is the list of callback calls of a session.
-/

namespace Verif.Spec

open Verif

variable {σ : Type}

/-- the callback calls of a session that began with the log `log` -/
def sessionCalls (log : List Ev) (s' : St σ) : List Ev := s'.log.drop log.length

/-- The handshake was completed as Initiator, as Responder. -/
def AsInitiator (h : History) : Prop := [.compose1, .process2, .compose3] <+: messages h
@[inherit_doc AsInitiator] def AsResponder (h : History) : Prop := [.process1, .compose2, .process3] <+: messages h

/-- The values of a handshake. -/
structure Values where
  /-- ephemeral public keys and their shared secret -/
  gx : Bytes
  gy : Bytes
  gxy : Bytes
  /-- transcript hashes; `th1` is H(message_1) -/
  th1 : Bytes
  th2 : Bytes
  th3 : Bytes
  th4 : Bytes
  /-- pseudorandom keys -/
  prk2e : Bytes
  prk3e2m : Bytes
  prk4e3m : Bytes
  /-- plaintexts and credentials -/
  ptxt2 : Bytes
  ptxt3 : Bytes
  credR : Cred
  credI : Cred

/-- RFC 9528, sections 5.3.2, 5.3.3 and 5.4.2: TH_2 = H(G_Y, H(message_1)), TH_3 = H(TH_2, PLAINTEXT_2, CRED_R),
TH_4 = H(TH_3, PLAINTEXT_3, CRED_I). -/
structure Transcript (L : List Ev) (m1 : Bytes) (v : Values) : Prop where
  th1 : HashCall L m1 v.th1
  th2 : HashCall L (encBstr v.gy ++ encBstr v.th1) v.th2
  th3 : HashCall L (encBstr v.th2 ++ v.ptxt2 ++ cred v.credR) v.th3
  th4 : HashCall L (encBstr v.th3 ++ v.ptxt3 ++ cred v.credI) v.th4

/-- RFC 9528, section 4.1.1. `gRX g`: `g` is the secret of the Responder's static key and G_X; `gIY g`: of the
Initiator's static key and G_Y. `n`: hash length. -/
structure KeySchedule (L : List Ev) (method n : Nat) (v : Values) (gRX gIY : Bytes → Prop) : Prop where
  prk2e : ExtractCall L v.th2 v.gxy v.prk2e
  prk3e2m : NextKey L 1 (responderSigns method) v.prk2e v.th2 n gRX v.prk3e2m
  prk4e3m : NextKey L 5 (initiatorSigns method) v.prk3e2m v.th3 n gIY v.prk4e3m

/-- `b` begins with METHOD, SUITES_I and G_X -/
def StartsMessage1 (method : Int) (suites : Suites) (gx b : Bytes) : Prop :=
  ∃ me su g r, IntItem method me ∧ SuitesItem suites su ∧ BstrItem gx g ∧ b = me ++ su ++ g ++ r

/-- What an Initiator did in a completed handshake: `x` is its ephemeral private key, `kid` identifies its static
private key, `pkR` is the public key of the Responder's credential. -/
structure InitiatorView (L : List Ev) (su : Suite) (method : Nat) (m1 m2 m3 x kid pkR : Bytes) (v : Values) :
    Prop where
  ephemeral : KeyPairCall L x v.gx
  message1 : ∃ l, StartsMessage1 method l v.gx m1
  message2 : ∃ c2 ks, StartsBstr (v.gy ++ c2) m2 ∧ v.gy.length = su.eccKey ∧
    ExpandCall L v.prk2e 0 v.th2 c2.length ks ∧ v.ptxt2 = xorBytes c2 ks
  message3 : ∃ k3 iv3 c3, ExpandCall L v.prk3e2m 3 v.th3 su.aeadKey k3 ∧ ExpandCall L v.prk3e2m 4 v.th3 su.aeadIv iv3 ∧
    EncryptCall L k3 iv3 (encStructure v.th3) v.ptxt3 c3 ∧ m3 = encBstr c3
  agreed : AgreeCall L x v.gy v.gxy
  accepted : ∃ id, CredAccepted L id v.credR pkR
  supplied : CredSupplied L v.credI kid
  transcript : Transcript L m1 v
  keys : KeySchedule L method su.hash v (AgreeCall L x pkR) (AgreeStaticCall L kid v.gy)

/-- What a Responder did in a completed handshake: `y` is its ephemeral private key, `kid` identifies its static
private key, `pkI` is the public key of the Initiator's credential. -/
structure ResponderView (L : List Ev) (su : Suite) (method : Nat) (m1 m2 m3 y kid pkI : Bytes) (v : Values) :
    Prop where
  ephemeral : KeyPairCall L y v.gy
  message1 : ∃ l, StartsMessage1 method l v.gx m1
  message2 : ∃ ks, ExpandCall L v.prk2e 0 v.th2 v.ptxt2.length ks ∧ m2 = encBstr (v.gy ++ xorBytes v.ptxt2 ks) ∧
    v.gy.length = su.eccKey
  message3 : ∃ k3 iv3 c3, ExpandCall L v.prk3e2m 3 v.th3 su.aeadKey k3 ∧ ExpandCall L v.prk3e2m 4 v.th3 su.aeadIv iv3 ∧
    StartsBstr c3 m3 ∧ DecryptCall L k3 iv3 (encStructure v.th3) c3 v.ptxt3
  agreed : AgreeCall L y v.gx v.gxy
  accepted : ∃ id, CredAccepted L id v.credI pkI
  supplied : CredSupplied L v.credR kid
  transcript : Transcript L m1 v
  keys : KeySchedule L method su.hash v (AgreeStaticCall L kid v.gx) (AgreeCall L y pkI)

/-- What is assumed of the selected suite and of the hash callback: the lengths of the suite fit into 32 bits, public
keys are not empty, and hashes have the length the suite says. -/
structure Regular (L : List Ev) (su : Suite) : Prop where
  small : SuiteSmall su
  ecc : 0 < su.eccKey ∧ su.eccKey < 2 ^ 32
  hash : ∀ i o, Ev.hash i (some o) ∈ L → o.length = su.hash

/-- Suite numbers fit into an `int32_t`. -/
def SuiteNumbers (c : Ctx) : Prop := ∀ su ∈ suites c, -2147483648 ≤ su.value ∧ su.value ≤ 2147483647

/-- the input of a message call -/
def input : Op → Option Bytes
  | .process1 b | .process2 b | .process3 b | .process4 b => some b
  | _ => none

/-- All messages of the history are shorter than 4 GiB. -/
def ShortMessages (h : History) : Prop :=
  ∀ p ∈ h, (∀ m, input p.1 = some m → m.length < 2 ^ 32) ∧ ∀ m, p.2 = .ok (.bytes m) → m.length < 2 ^ 32

/-- PRK_out after the key updates with entropies `es`: the first is Expand(PRK_4e3m, (7, TH_4, n)), each update gives
Expand(PRK_out, (11, entropy, n)). -/
inductive EpochKey (L : List Ev) (prk4e3m th4 : Bytes) (n : Nat) : List Bytes → Bytes → Prop
  | first {out : Bytes} : ExpandCall L prk4e3m 7 th4 n out → EpochKey L prk4e3m th4 n [] out
  | update {es : List Bytes} {p b q : Bytes} : EpochKey L prk4e3m th4 n es p → ExpandCall L p 11 b n q →
      EpochKey L prk4e3m th4 n (es ++ [b]) q

/-- the entropies of the successful key updates, in order -/
def updates (h : History) : List Bytes :=
  h.filterMap fun p => match p with
    | (.keyUpdate b, .ok _) => some b
    | _ => none

/-- The exporter: EDHOC_Exporter(label, h'', n) = Expand(PRK_exporter, (label, h'', n)) with PRK_exporter =
Expand(PRK_out, (10, h'', hash length)). -/
def ExportedFrom (L : List Ev) (prkOut : Bytes) (hash label n : Nat) (out : Bytes) : Prop :=
  ∃ x, ExpandCall L prkOut 10 [] hash x ∧ ExpandCall L x label [] n out

/-- What a context holds after the handshake: TH_4, and PRK_4e3m or, once an exporter was used, PRK_out. -/
def HoldsKeys (L : List Ev) (prk4e3m th4 : Bytes) (n : Nat) (es : List Bytes) (c : Ctx) : Prop :=
  c.th = th4 ∧ c.thState = .th4 ∧
    ((c.prkState = .prk4e3m ∧ c.prk = prk4e3m ∧ es = []) ∨
      (c.prkState = .out ∧ EpochKey L prk4e3m th4 n es c.prk))

/-- `v` are the values of the handshake that was completed in the history `h`, in one of the roles. -/
def HandshakeValues (L : List Ev) (su : Suite) (method : Nat) (h : History) (v : Values) : Prop :=
  (∃ n1 n3 m1 m2 m3 x kid pkR,
    (.compose1 n1, .ok (.bytes m1)) ∈ h ∧ (.process2 m2, .ok .unit) ∈ h ∧ (.compose3 n3, .ok (.bytes m3)) ∈ h ∧
    InitiatorView L su method m1 m2 m3 x kid pkR v) ∨
  (∃ n2 m1 m2 m3 y kid pkI,
    (.process1 m1, .ok .unit) ∈ h ∧ (.compose2 n2, .ok (.bytes m2)) ∈ h ∧ (.process3 m3, .ok .unit) ∈ h ∧
    ResponderView L su method m1 m2 m3 y kid pkI v)

end Verif.Spec
