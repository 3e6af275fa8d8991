import Verif.SpecCbor
import Verif.Spec

/-!
# Specification: memory safety

What the library may rely on (callbacks bound, sizes within the configuration, callbacks that stay within the buffers
they are given), and the faults that are known to remain.
-/

namespace Verif.Spec

open Verif

variable {σ : Type}

/-- all callbacks are bound -/
def AllBound (c : Ctx) : Prop := c.hasKeys = true ∧ c.hasCrypto = true ∧ c.hasCred = true

/-- the sizes of every configured cipher suite are within the configured maxima -/
def SuitesFit (cfg : Config) (c : Ctx) : Prop :=
  ∀ su ∈ c.csuiteArr, su.hash ≤ cfg.maxMac ∧ su.eccKey ≤ cfg.maxEccKey

/-- the configured maxima are below 64 KiB (the library's estimates of CBOR sizes are right only there) -/
def SmallMaxima (cfg : Config) : Prop := cfg.maxMac < 65536 ∧ cfg.maxCid < 65536

/-- The credential fits the fixed-size arrays of `struct edhoc_auth_creds`: key identifier, certificate chain,
compact encoding. -/
def CredFits (cfg : Config) : Cred → Prop
  | .kid _ true (.bstr b) => b.length ≤ cfg.maxKid + 1
  | .x5chain certs => certs.length ≤ cfg.maxCerts
  | .any _ (some (.integer, b)) _ => b.length ≤ 4
  | .any _ (some (.byteString, b)) _ => b.length ≤ cfg.maxKid + 1
  | _ => True

/-- The callbacks report no more bytes than the buffer they were given holds, and hand out credentials that fit. -/
structure Tame (E : Env σ) (cfg : Config) (su : Suite) : Prop where
  hash : ∀ e b h, (E.hash e b).1 = some h → h.length ≤ su.hash
  sign : ∀ e k b h, (E.sign e k b).1 = some h → h.length ≤ su.eccSign
  encrypt : ∀ e k iv aad p h, (E.encrypt e k iv aad p).1 = some h → h.length ≤ p.length + su.aeadTag
  fetch : ∀ e r, (E.credFetch e).1 = some r → CredFits cfg r.1
  verify : ∀ e c r, (E.credVerify e c).1 = some r → CredFits cfg r.1

/-- The faults of the stack backend: a buffer that is larger than the stack, or of size zero. -/
def StackFault (cfg : Config) (u : UB) : Prop := cfg.backend = .stack ∧ (u = .stack ∨ u = .zeroVla)

/-- a received plaintext names its sender by a key identifier that is longer than the array it is copied to -/
def LongKid (cfg : Config) (i : IdCred) : Prop := ∃ b, i = .bstr b ∧ cfg.maxKid + 1 < b.length

/-- The head of a byte string that is not there: it announces more bytes than follow, or it is not the shortest head (the
decoder refuses those after it has read the length). -/
def Broken (t : Bytes) : Prop :=
  ∃ n hd rest, 0 < n ∧ Head 2 n hd ∧ t = hd ++ rest ∧ (rest.length < n ∨ ∃ hd', Head 2 n hd' ∧ hd'.length < hd.length)

/-- What an application has to provide: all callbacks bound and within their contract, cipher suites within the
configured maxima, room for two or three EAD tokens. -/
structure Sound (E : Env σ) (cfg : Config) (c : Ctx) : Prop where
  bound : AllBound c
  suites : SuitesFit cfg c
  maxima : SmallMaxima cfg
  tame : Tame E cfg c.suite
  ead : cfg.maxEad = 2 ∨ cfg.maxEad = 3

/-- The known situations in which a call reads or writes outside an object. -/
inductive KnownFault (E : Env σ) (cfg : Config) : Op → St σ → St σ → Prop
  /-- message_2 with a byte string that is shorter than G_Y -/
  | shortMessage2 {s s' : St σ} {gyct item rest : Bytes} (hi : BstrItem gyct item)
      (hs : gyct.length < s.ctx.suite.eccKey) : KnownFault E cfg (.process2 (item ++ rest)) s s'
  /-- message_2 whose plaintext names the Responder by an overlong key identifier -/
  | longKid2 {s s' : St σ} {gyct item rest kid info ks ptxt r : Bytes} {n : Nat} {c : Cid} {q : Ptxt}
      (hi : BstrItem gyct item) (hk : Ev.expand kid info n (some ks) ∈ during s s')
      (hx : xorBytes (gyct.drop s.ctx.suite.eccKey) ks = ptxt ++ r) (hp : Plaintext2 c q ptxt)
      (hl : LongKid cfg q.idCred) : KnownFault E cfg (.process2 (item ++ rest)) s s'
  /-- message_3 whose plaintext names the Initiator by an overlong key identifier -/
  | longKid3 {s s' : St σ} {ctxt item rest kid iv aad ptxt r : Bytes} {q : Ptxt}
      (hi : BstrItem ctxt item) (hd : Ev.decrypt kid iv aad ctxt (some (ptxt ++ r)) ∈ during s s')
      (hp : Plaintext3 q ptxt) (hl : LongKid cfg q.idCred) : KnownFault E cfg (.process3 (item ++ rest)) s s'
  /-- message_1 that is cut off in G_X -/
  | cutGx {s s' : St σ} {me : Int} {su : Suites} {x y t : Bytes} (hd : cfg.dec.early = true) (hm : IntItem me x)
      (hs : SuitesItem su y) (ht : Broken t) : KnownFault E cfg (.process1 (x ++ y ++ t)) s s'
  /-- message_1 that is cut off in C_I -/
  | cutCid {s s' : St σ} {me : Int} {su : Suites} {gx x y z t : Bytes} (hd : cfg.dec.early = true) (hm : IntItem me x)
      (hs : SuitesItem su y) (hg : BstrItem gx z) (ht : Broken t) : KnownFault E cfg (.process1 (x ++ y ++ z ++ t)) s s'
  /-- message_1 that is cut off in the value of an EAD item -/
  | cutEad1 {s s' : St σ} {m : Msg1} {b t : Bytes} (hd : cfg.dec.early = true) (hm : Message1 m b) (he : m.ead ≠ [])
      (ht : Broken t) : KnownFault E cfg (.process1 (b ++ t)) s s'
  /-- message_2 whose plaintext is cut off in the value of an EAD item -/
  | cutEad2 {s s' : St σ} {gyct item rest kid info ks ptxt t : Bytes} {n : Nat} {c : Cid} {q : Ptxt}
      (hd : cfg.dec.early = true) (hi : BstrItem gyct item) (hk : Ev.expand kid info n (some ks) ∈ during s s')
      (hx : xorBytes (gyct.drop s.ctx.suite.eccKey) ks = ptxt ++ t) (hp : Plaintext2 c q ptxt) (he : q.ead ≠ [])
      (ht : Broken t) : KnownFault E cfg (.process2 (item ++ rest)) s s'
  /-- message_3 whose plaintext is cut off in the value of an EAD item -/
  | cutEad3 {s s' : St σ} {ctxt item rest kid iv aad ptxt t : Bytes} {q : Ptxt} (hd : cfg.dec.early = true)
      (hi : BstrItem ctxt item) (hk : Ev.decrypt kid iv aad ctxt (some (ptxt ++ t)) ∈ during s s')
      (hp : Plaintext3 q ptxt) (he : q.ead ≠ []) (ht : Broken t) : KnownFault E cfg (.process3 (item ++ rest)) s s'
  /-- message_4 whose plaintext is cut off in the value of an EAD item -/
  | cutEad4 {s s' : St σ} {ctxt item rest kid iv aad ptxt t : Bytes} {q : List EadTok} (hd : cfg.dec.early = true)
      (hi : BstrItem ctxt item) (hk : Ev.decrypt kid iv aad ctxt (some (ptxt ++ t)) ∈ during s s')
      (hp : Plaintext4 q ptxt) (he : q ≠ []) (ht : Broken t) : KnownFault E cfg (.process4 (item ++ rest)) s s'
  /-- a buffer for message_3 that is one byte too short -/
  | buffer3 {s s' s2 : St σ} {n : Nat} {msg : Bytes} (hc : step E cfg (.compose3 (n + 1)) s = (.ok (.bytes msg), s2))
      (hl : msg.length = n + 1) : KnownFault E cfg (.compose3 n) s s'

end Verif.Spec
