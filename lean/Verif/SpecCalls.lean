import Verif.Spec
import Verif.SpecWire
import Verif.SpecCbor

/-!
# Specification: what was computed, in terms of callback calls

`L` is a list of callback calls, usually `during s s'`. Each predicate says that the calls in `L` include those that
compute a value from others. The library never computes a hash, a key or a signature itself: all of them come from
the application's callbacks, and a symmetric key is used by importing it, using the key identifier it got, and
destroying it.
-/

namespace Verif.Spec

open Verif

variable {σ : Type}

/-- `calls` are consecutive calls in `L` -/
def Made (calls L : List Ev) : Prop := calls <:+: L

/-- `out = H(input)` -/
def HashCall (L : List Ev) (input out : Bytes) : Prop := Ev.hash input (some out) ∈ L

/-- `out = EDHOC_Expand(prk, (label, context, n), n)` -/
def ExpandCall (L : List Ev) (prk : Bytes) (label : Nat) (context : Bytes) (n : Nat) (out : Bytes) : Prop :=
  out.length = n ∧ ∃ kid, Made [.importKey .expand prk (some kid), .expand kid (info label context n) n (some out),
    .destroyKey kid] L

/-- `out = EDHOC_Extract(salt, ikm)` -/
def ExtractCall (L : List Ev) (salt ikm out : Bytes) : Prop :=
  ∃ kid, Made [.importKey .extract ikm (some kid), .extract kid salt (some out), .destroyKey kid] L

/-- `(priv, pub)` is a new key pair -/
def KeyPairCall (L : List Ev) (priv pub : Bytes) : Prop :=
  ∃ kid, Made [.makeKeyPair kid (some (priv, pub)), .destroyKey kid] L

/-- `out` is the Diffie-Hellman secret of the private key `sk` and the public key `pk` -/
def AgreeCall (L : List Ev) (sk pk out : Bytes) : Prop :=
  ∃ kid, Made [.importKey .keyAgreement sk (some kid), .keyAgreement kid pk (some out), .destroyKey kid] L

/-- `out` is the Diffie-Hellman secret of the application's private key `kid` and the public key `pk` -/
def AgreeStaticCall (L : List Ev) (kid pk out : Bytes) : Prop := Ev.keyAgreement kid pk (some out) ∈ L

/-- `ct = AEAD(k, iv, aad, pt)` -/
def EncryptCall (L : List Ev) (k iv aad pt ct : Bytes) : Prop :=
  ∃ kid, Made [.importKey .encrypt k (some kid), .encrypt kid iv aad pt (some ct), .destroyKey kid] L

/-- AEAD decryption of `ct` was accepted and gave `pt` -/
def DecryptCall (L : List Ev) (k iv aad ct pt : Bytes) : Prop :=
  ∃ kid, Made [.importKey .decrypt k (some kid), .decrypt kid iv aad ct (some pt), .destroyKey kid] L

/-- the application accepted the signature `sig` of `input` under the public key `pk` -/
def VerifyCall (L : List Ev) (pk input sig : Bytes) : Prop :=
  ∃ kid, Made [.importKey .verify pk (some kid), .verify kid input sig true, .destroyKey kid] L

/-- the application signed `input` with its private key `kid` -/
def SignCall (L : List Ev) (kid input sig : Bytes) : Prop := Ev.sign kid input (some sig) ∈ L

/-- the application accepted the credential `id` and returned the full credential and its public key -/
def CredAccepted (L : List Ev) (id cred : Cred) (pk : Bytes) : Prop := Ev.credVerify id (some (cred, some pk)) ∈ L

/-- the application supplied its own credential and the identifier of its private key -/
def CredSupplied (L : List Ev) (cred : Cred) (kid : Bytes) : Prop := Ev.credFetch (some (cred, kid)) ∈ L

/-- PRK_3e2m (`label = 1`, from PRK_2e and TH_2) or PRK_4e3m (`label = 5`, from PRK_3e2m and TH_3): the previous key
if the party in question signs, otherwise Extract(Expand(prk, (label, th, n)), G) with the static Diffie-Hellman
secret `G`. -/
def NextKey (L : List Ev) (label : Nat) (signs : Bool) (prk th : Bytes) (n : Nat) (agreed : Bytes → Prop)
    (next : Bytes) : Prop :=
  if signs then next = prk
  else ∃ salt g, ExpandCall L prk label th n salt ∧ agreed g ∧ ExtractCall L salt g next

/-- Signature_or_MAC: the MAC itself, or a signature over the Sig_structure with it that satisfies `ok` -/
def SignatureOrMac (signs : Bool) (cred : Cred) (th : Bytes) (ead : List EadTok) (mac field : Bytes)
    (ok : (input sig : Bytes) → Prop) : Prop :=
  if signs then ok (sigStructure cred th ead mac) field else field = mac

/-- the length of MAC_2 and MAC_3 -/
def macLen (signs : Bool) (su : Suite) : Nat := if signs then su.hash else su.mac

/-- All lengths of the suite fit into 32 bits. -/
def SuiteSmall (su : Suite) : Prop :=
  su.aeadKey < 2 ^ 32 ∧ su.aeadIv < 2 ^ 32 ∧ su.hash < 2 ^ 32 ∧ su.mac < 2 ^ 32

instance (su : Suite) : Decidable (SuiteSmall su) := by unfold SuiteSmall; infer_instance

/-- `b` begins with a CBOR byte string with content `s` -/
def StartsBstr (s b : Bytes) : Prop := ∃ x r, BstrItem s x ∧ b = x ++ r

/-- `b` begins with PLAINTEXT_2 / PLAINTEXT_3 / the EAD items of PLAINTEXT_4 -/
def StartsPlaintext2 (cr : Cid) (p : Ptxt) (b : Bytes) : Prop := ∃ x r, Plaintext2 cr p x ∧ b = x ++ r
@[inherit_doc StartsPlaintext2]
def StartsPlaintext3 (p : Ptxt) (b : Bytes) : Prop := ∃ x r, Plaintext3 p x ∧ b = x ++ r
@[inherit_doc StartsPlaintext2]
def StartsPlaintext4 (ts : List EadTok) (b : Bytes) : Prop := ∃ x r, Plaintext4 ts x ∧ b = x ++ r

end Verif.Spec
