import Verif.SpecCbor
import Verif.Spec

/-!
# Specification: memory demand

How many bytes of working memory a call may ask the memory backend for, as a function of the configuration, the cipher
suite, the length of the input and the sizes of what the application hands over.
-/

namespace Verif.Spec

open Verif

variable {σ : Type}

/-- the sizes of the buffers requested from the heap, in order -/
def requested (l : List Ev) : List Nat := l.filterMap fun v => match v with | .alloc n _ => some n | _ => none

/-- bytes of a key identifier or of the name of a hash algorithm -/
def nameBytes : IntOrBytes → Nat
  | .int _ => 0
  | .bstr b => b.length

/-- bytes in all the strings of a credential -/
def credBytes : Cred → Nat
  | .other _ => 0
  | .kid cred _ id => cred.length + nameBytes id
  | .x5chain certs => (certs.map List.length).sum
  | .x5t cert fp alg => cert.length + fp.length + nameBytes alg
  | .any idCred comp cred => idCred.length + (comp.map fun p => p.2.length).getD 0 + cred.length

/-- bytes in all EAD values -/
def eadBytes (ts : List EadTok) : Nat := (ts.map fun t => (t.value.getD []).length).sum

/-- What the application adds to a handshake is at most `L` bytes: its own credential, what it knows about the peer's
credential beyond the part that was received, its EAD. -/
structure Modest (E : Env σ) (L : Nat) : Prop where
  fetch : ∀ e r, (E.credFetch e).1 = some r → credBytes r.1 ≤ L
  verify : ∀ e c r, (E.credVerify e c).1 = some r → credBytes r.1 ≤ credBytes c + L
  ead : ∀ e m ts, (E.eadCompose e m).1 = some ts → eadBytes ts ≤ L

/-- a MAC context with a credential of `n` bytes (parts of it are in there twice) and EAD of `a` bytes -/
def contextSize (cfg : Config) (n a : Nat) : Nat := 2 * n + a + cfg.maxCid + cfg.maxMac + 5 * cfg.maxCerts + 57

/-- a plaintext with such a MAC context -/
def plaintextSize (cfg : Config) (su : Suite) (n a : Nat) : Nat :=
  contextSize cfg n a + cfg.maxCid + cfg.maxKid + su.eccSign + su.mac + 17

/-- a derivation of PRK_3e2m or PRK_4e3m -/
def prkSize (cfg : Config) (su : Suite) : Nat := su.hash + su.eccKey + cfg.maxMac + 13

/-- MAC context, MAC, and signature or comparison -/
def macSize (cfg : Config) (su : Suite) (n a : Nat) : Nat :=
  cfg.macCtxSize + 3 * contextSize cfg n a + 2 * su.hash + 2 * su.mac + 39

/-- AEAD key, nonce and additional data -/
def aeadSize (cfg : Config) (su : Suite) : Nat := su.aeadKey + su.aeadIv + 2 * cfg.maxMac + 26

/-- the cipher suite a call works with: message_1 settles for the last configured one -/
def suiteFor (c : Ctx) : Op → Suite
  | .compose1 _ => c.csuiteArr.getD (c.csuiteLen - 1) Suite.zero
  | _ => c.suite

/-- an upper bound for the sum of all buffers a call requests -/
def demand (cfg : Config) (su : Suite) (L : Nat) : Op → Nat
  | .compose1 _ => su.eccKey
  | .compose2 _ =>
    2 * su.eccKey + 2 * su.hash + 2 * cfg.maxMac + 28 + prkSize cfg su + macSize cfg su L L + su.eccSign + su.mac +
      4 * plaintextSize cfg su L L + contextSize cfg L L
  | .process2 msg =>
    su.eccKey + su.hash + 2 * cfg.maxMac + 28 + prkSize cfg su + macSize cfg su (msg.length + L) msg.length +
      3 * msg.length + contextSize cfg (msg.length + L) msg.length
  | .compose3 _ =>
    aeadSize cfg su + prkSize cfg su + macSize cfg su L L + su.eccSign + su.mac + su.aeadTag + cfg.maxMac + 5 +
      3 * plaintextSize cfg su L L + contextSize cfg L L
  | .process3 msg =>
    aeadSize cfg su + prkSize cfg su + macSize cfg su (msg.length + L) msg.length + cfg.maxMac + 5 + 2 * msg.length +
      contextSize cfg (msg.length + L) msg.length
  | .compose4 _ => aeadSize cfg su + su.aeadTag + 2 * (L + 27)
  | .process4 msg => aeadSize cfg su + msg.length
  | .exportSecret _ _ => cfg.maxMac + su.hash + 25
  | .keyUpdate entropy => cfg.maxMac + entropy.length + 20
  | .exportOscore _ _ _ _ => 2 * (cfg.maxMac + su.hash + 25)
  | _ => 0

/-- The received message is too short for what it must contain: the length of the rest, computed by an unchecked
subtraction, wraps around. -/
inductive Wraps (c : Ctx) : Op → Prop
  /-- message_2 shorter than G_Y -/
  | message2 {gyct item rest : Bytes} (hi : BstrItem gyct item) (h : gyct.length < c.suite.eccKey) :
      Wraps c (.process2 (item ++ rest))
  /-- a ciphertext in message_3 shorter than the AEAD tag -/
  | message3 {ctxt item rest : Bytes} (hi : BstrItem ctxt item) (h : ctxt.length < c.suite.aeadTag) :
      Wraps c (.process3 (item ++ rest))
  /-- a ciphertext in message_4 shorter than the AEAD tag -/
  | message4 {ctxt item rest : Bytes} (hi : BstrItem ctxt item) (h : ctxt.length < c.suite.aeadTag) :
      Wraps c (.process4 (item ++ rest))

/-- The buffer is for something of length zero. -/
inductive Empty (cfg : Config) : Op → St σ → St σ → Prop
  /-- message_2 that ends after G_Y -/
  | message2 {s s' : St σ} {gyct item rest : Bytes} (hi : BstrItem gyct item) (h : gyct.length = s.ctx.suite.eccKey) :
      Empty cfg (.process2 (item ++ rest)) s s'
  /-- a ciphertext in message_3 that is only the AEAD tag -/
  | message3 {s s' : St σ} {ctxt item rest : Bytes} (hi : BstrItem ctxt item) (h : ctxt.length = s.ctx.suite.aeadTag) :
      Empty cfg (.process3 (item ++ rest)) s s'
  /-- a message_4 that was composed without EAD: its ciphertext is only the AEAD tag -/
  | message4 {s s' : St σ} {ctxt item rest : Bytes} (hi : BstrItem ctxt item) (h : ctxt.length = s.ctx.suite.aeadTag) :
      Empty cfg (.process4 (item ++ rest)) s s'
  /-- no EAD for message_4 -/
  | noEad4 {s s' : St σ} {n : Nat}
      (h : s.ctx.hasEadCompose = false ∨ cfg.maxEad = 0 ∨ Ev.eadCompose .msg4 (some []) ∈ during s s') :
      Empty cfg (.compose4 n) s s'

/-- no size of the cipher suite is zero -/
def Suite.Positive (su : Suite) : Prop :=
  su.hash ≠ 0 ∧ su.mac ≠ 0 ∧ su.eccKey ≠ 0 ∧ su.eccSign ≠ 0 ∧ su.aeadKey ≠ 0 ∧ su.aeadIv ≠ 0 ∧ su.aeadTag ≠ 0

end Verif.Spec
