import Verif.SpecAgreement

/-!
# Specification: which sessions can have the same key
-/

namespace Verif.Spec

open Verif

/-- After the calls `h`, which complete the handshake, the session `N` exported `out`, of `n` bytes: with
`edhoc_export_prk_exporter`, or as the OSCORE master secret, which has the label 0. -/
def ExportsKey (N : Node) (h : History) (label n : Nat) (out : Bytes) : Prop :=
  complete h ∧ n < 2 ^ 32 ∧ ∃ t,
    (N.hist = h ++ (.exportSecret label n, .ok (.bytes out)) :: t) ∨
    (label = 0 ∧ ∃ b c d o, N.hist = h ++ (.exportOscore n b c d, .ok (.oscore o)) :: t ∧ b < 2 ^ 32 ∧ o.secret = out)

/-- No two calls of Expand with a result of `b` bytes or more have the same result, unless key and info are the same. -/
def NoExpandCollision (b : Nat) (L L' : List Ev) : Prop :=
  ∀ {p kid i n p' kid' i' n' o}, Made [.importKey .expand p (some kid), .expand kid i n (some o)] L →
    Made [.importKey .expand p' (some kid'), .expand kid' i' n' (some o)] L' → b ≤ o.length → p = p' ∧ i = i'

/-- Sessions on a network the attacker controls. Nothing is assumed about peers, keys and messages, only this: hash and
Expand have no collisions (Expand with results of `b` bytes or more), and no two sessions generate the same ephemeral
key. -/
structure Sessions {ι : Type} (b : Nat) (W : ι → Node) : Prop where
  good : ∀ i, (W i).Good
  long : ∀ i, b ≤ (W i).suite.hash
  noCollision : ∀ i j, NoCollision (W i).calls (W j).calls
  noExpand : ∀ i j, NoExpandCollision b (W i).calls (W j).calls
  fresh : ∀ {i j x y g}, KeyPairCall (W i).calls x g → KeyPairCall (W j).calls y g → i = j

/-- In the history `h` the session completed a handshake as Initiator that began with `m1` and had the values `v`. -/
def InitiatedWith (N : Node) (h : History) (m1 : Bytes) (v : Values) : Prop :=
  ∃ n1 n3 m2 m3 x kid pkR,
    (.compose1 n1, .ok (.bytes m1)) ∈ h ∧ (.process2 m2, .ok .unit) ∈ h ∧ (.compose3 n3, .ok (.bytes m3)) ∈ h ∧
    InitiatorView N.calls N.suite N.method m1 m2 m3 x kid pkR v

/-- Likewise, as Responder. -/
def RespondedWith (N : Node) (h : History) (m1 : Bytes) (v : Values) : Prop :=
  ∃ n2 m2 m3 y kid pkI,
    (.process1 m1, .ok .unit) ∈ h ∧ (.compose2 n2, .ok (.bytes m2)) ∈ h ∧ (.process3 m3, .ok .unit) ∈ h ∧
    ResponderView N.calls N.suite N.method m1 m2 m3 y kid pkI v

/-- Two handshakes with the same data: the ephemeral keys, the transcript, PRK_4e3m, plaintexts and credentials. If what
was received is well-formed, each credential is the same. -/
structure SameData (v w : Values) : Prop where
  gx : v.gx = w.gx
  gy : v.gy = w.gy
  th4 : v.th4 = w.th4
  prk4e3m : v.prk4e3m = w.prk4e3m
  strings2 : v.ptxt2 ++ cred v.credR = w.ptxt2 ++ cred w.credR
  strings3 : v.ptxt3 ++ cred v.credI = w.ptxt3 ++ cred w.credI
  message2 : Whole2 v → Whole2 w → v.ptxt2 = w.ptxt2 ∧ cred v.credR = cred w.credR
  message3 : Whole3 v → Whole3 w → v.ptxt3 = w.ptxt3 ∧ cred v.credI = cred w.credI

end Verif.Spec
