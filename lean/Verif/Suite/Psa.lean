import Verif.Types

/-!
# The cryptographic libraries under the shipped cipher suites

The suites in `/repo/helpers` call PSA Crypto, compact25519, liboqs and XKCP. These are not part of the repository; this file says
what the model takes them to do. The algorithms are functions (`Algs`) about which nothing is assumed here. The key store is
concrete: keys with a type, a usage policy and one permitted algorithm; any call may fail (`fault`), and random bytes come
from `rand`.

Simplified: PSA status codes are dropped (the suites only compare with `PSA_SUCCESS`), volatile keys only, and the
policies are those without wildcards.
-/

namespace Verif.Psa

inductive HashAlg | sha256 | sha384
  deriving DecidableEq, Repr

/-- `PSA_HASH_LENGTH` -/
def HashAlg.len : HashAlg → Nat
  | .sha256 => 32
  | .sha384 => 48

inductive AeadAlg | ccm | gcm | chacha20Poly1305
  deriving DecidableEq, Repr

/-- `psa_algorithm_t`. `aead a tag` is `PSA_ALG_AEAD_WITH_SHORTENED_TAG(a, tag)`. -/
inductive Alg
  | none | ecdh | ecdsa (h : HashAlg) | hkdfExtract (h : HashAlg) | hkdfExpand (h : HashAlg) | aead (a : AeadAlg) (tag : Nat)
  deriving DecidableEq, Repr

/-- `PSA_KEY_USAGE_*` -/
inductive Usage | export | derive | signMessage | signHash | verifyMessage | verifyHash | encrypt | decrypt
  deriving DecidableEq, Repr

/-- `psa_key_type_t`; the elliptic curve keys are those of the family `PSA_ECC_FAMILY_SECP_R1`. -/
inductive Kind | rawData | derive | aes | chacha20 | eccKeyPair | eccPublicKey
  deriving DecidableEq, Repr

/-- `psa_key_attributes_t` -/
structure Attr where
  usage : List Usage
  alg : Alg
  kind : Kind
  bits : Nat
  deriving DecidableEq, Repr

structure Key where
  attr : Attr
  data : Bytes
  deriving DecidableEq, Repr

/-- The algorithms, as functions. The curve of the family SECP_R1 is given by its size in bits. -/
structure Algs where
  hash : HashAlg → Bytes → Bytes
  /-- `salt ikm` -/
  hkdfExtract : HashAlg → Bytes → Bytes → Bytes
  /-- `prk info length` -/
  hkdfExpand : HashAlg → Bytes → Bytes → Nat → Bytes
  /-- `tag length, key, nonce, associated data, plaintext` -/
  enc : AeadAlg → Nat → Bytes → Bytes → Bytes → Bytes → Bytes
  /-- `tag length, key, nonce, associated data, ciphertext` -/
  dec : AeadAlg → Nat → Bytes → Bytes → Bytes → Bytes → Option Bytes
  /-- is this a private key? -/
  ecPriv : Nat → Bytes → Bool
  /-- the public key, uncompressed: `04 | X | Y` -/
  ecPub : Nat → Bytes → Bytes
  /-- is this an uncompressed public key, with a point of the curve? -/
  ecPoint : Nat → Bytes → Bool
  /-- the x-coordinate of the product of private key and uncompressed public key -/
  ecdh : Nat → Bytes → Bytes → Bytes
  /-- `private key, digest, randomness` -/
  ecdsaSign : HashAlg → Nat → Bytes → Bytes → Bytes → Bytes
  /-- `public key, digest, signature` -/
  ecdsaVerify : HashAlg → Nat → Bytes → Bytes → Bytes → Bool
  /-- `c25519_smult`: `u-coordinate, scalar` -/
  x25519 : Bytes → Bytes → Bytes
  /-- `private key (seed and public key), message` -/
  ed25519Sign : Bytes → Bytes → Bytes
  /-- `public key, message, signature` -/
  ed25519Verify : Bytes → Bytes → Bytes → Bool

/-- The state of PSA: the volatile keys, the number of key slots, the calls made so far, which calls fail for a reason outside
the model, what the random generator gives. -/
structure Store where
  keys : List (Nat × Key)
  slots : Nat
  clock : Nat
  fault : Nat → Bool
  rand : Nat → Bytes

/-- the key behind an identifier -/
def Store.find (s : Store) (id : Nat) : Option Key := s.keys.lookup id

/-- identifiers of volatile keys are in the vendor range -/
def idMin : Nat := 0x40000000

/-- the identifier for a new key: the first free slot -/
def Store.freeId (s : Store) : Option Nat :=
  ((List.range (min s.slots 65536)).map (idMin + ·)).find? fun i => (s.find i).isNone

/-- Programs over PSA. -/
def P (α : Type) : Type := Store → Res α × Store

namespace P

variable {α β : Type}

/-- return -/
def ret (a : α) : P α := fun s => (.ok a, s)

/-- sequencing -/
def bind (m : P α) (f : α → P β) : P β := fun s =>
  match m s with
  | (.ok a, s') => f a s'
  | (.err e, s') => (.err e, s')
  | (.ub u, s') => (.ub u, s')

instance : Monad P where
  pure := P.ret
  bind := P.bind

/-- return with an error code -/
def fail (e : Err) : P α := fun s => (.err e, s)

/-- `if (!b) return e;` -/
def require (b : Bool) (e : Err) : P Unit := fun s => (if b then .ok () else .err e, s)

/-- proceed only when an operation is defined -/
def guardUB (b : Bool) (u : UB) : P Unit := fun s => (if b then .ok () else .ub u, s)

/-- a call to PSA whose failure is reported as a crypto failure: `f` gives the result and the new keys -/
def psa (f : Store → Option (α × List (Nat × Key))) : P α := fun s =>
  let s' := { s with clock := s.clock + 1 }
  if s.fault s.clock then (.err .crypto, s') else
    match f s with
    | some (a, ks) => (.ok a, { s' with keys := ks })
    | none => (.err .crypto, s')

/-- a call that does not change the keys -/
def query (f : Store → Option α) : P α := psa fun s => (f s).map (·, s.keys)

end P

open P

variable (A : Algs)

/-- Can `data` be a key of this kind and size? -/
def keyOk (a : Attr) (data : Bytes) : Bool :=
  match a.kind with
  | .rawData | .derive => 0 < data.length && a.bits == 8 * data.length
  | .aes => a.bits == 8 * data.length && (data.length == 16 || data.length == 24 || data.length == 32)
  | .chacha20 => a.bits == 8 * data.length && data.length == 32
  | .eccKeyPair => a.bits == 8 * data.length && A.ecPriv a.bits data
  | .eccPublicKey => 8 * data.length == 2 * a.bits + 8 && A.ecPoint a.bits data

/-- put a key into the first free slot -/
def insert (s : Store) (k : Key) : Option (Nat × List (Nat × Key)) :=
  s.freeId.map fun id => (id, (id, k) :: s.keys)

/-- `psa_import_key` -/
def importKey (a : Attr) (data : Bytes) : P Nat :=
  psa fun s => if keyOk A a data then insert s ⟨a, data⟩ else none

/-- `n` random bytes for the next call -/
def Store.random (s : Store) (n : Nat) : Bytes := fitLen n (s.rand s.clock)

/-- `psa_generate_key` for an elliptic curve key pair. PSA draws until it has a private key; here a draw that is none is
counted as a failure. -/
def generateKey (a : Attr) : P Nat :=
  psa fun s => if keyOk A a (s.random (a.bits / 8)) then insert s ⟨a, s.random (a.bits / 8)⟩ else none

/-- `psa_destroy_key`. The identifier 0 is accepted and ignored. -/
def destroyKey (id : Nat) : P Unit :=
  psa fun s => if id = 0 then some ((), s.keys) else
    if (s.find id).isSome then some ((), s.keys.filter fun p => p.1 != id) else none

/-- `psa_get_key_attributes` -/
def getAttr (id : Nat) : P Attr := query fun s => (s.find id).map Key.attr

/-- the key, if its policy permits this use with this algorithm -/
def Store.permitted (s : Store) (id : Nat) (u : Usage) (a : Alg) : Option Key :=
  (s.find id).bind fun k => if k.attr.usage.contains u && k.attr.alg == a then some k else none

/-- `psa_export_key` into a buffer of `n` bytes -/
def exportKey (id n : Nat) : P Bytes :=
  query fun s => (s.find id).bind fun k =>
    if k.attr.usage.contains .export && k.data.length ≤ n then some k.data else none

/-- `psa_export_public_key` into a buffer of `n` bytes -/
def exportPublicKey (id n : Nat) : P Bytes :=
  query fun s => (s.find id).bind fun k =>
    if k.attr.kind == .eccKeyPair && (A.ecPub k.attr.bits k.data).length ≤ n then some (A.ecPub k.attr.bits k.data) else none

/-- `psa_generate_random` -/
def generateRandom (n : Nat) : P Bytes := query fun s => some (s.random n)

/-- `psa_raw_key_agreement` into a buffer of `n` bytes; the peer's public key is validated -/
def rawKeyAgreement (a : Alg) (id : Nat) (peer : Bytes) (n : Nat) : P Bytes :=
  query fun s => (s.permitted id .derive a).bind fun k =>
    if a == .ecdh && k.attr.kind == .eccKeyPair && A.ecPoint k.attr.bits peer &&
      (A.ecdh k.attr.bits k.data peer).length ≤ n then some (A.ecdh k.attr.bits k.data peer) else none

/-- `psa_hash_compute` into a buffer of `n` bytes -/
def hashCompute (h : HashAlg) (input : Bytes) (n : Nat) : P Bytes :=
  query fun _ => if h.len ≤ n then some (A.hash h input) else none

/-- `psa_sign_hash` into a buffer of `n` bytes -/
def signHash (id : Nat) (a : Alg) (digest : Bytes) (n : Nat) : P Bytes :=
  query fun s => (s.permitted id .signHash a).bind fun k =>
    match a with
    | .ecdsa h =>
      if k.attr.kind == .eccKeyPair && digest.length == h.len && k.attr.bits / 4 ≤ n then
        some (A.ecdsaSign h k.attr.bits k.data digest (s.rand s.clock)) else none
    | _ => none

/-- `psa_verify_hash` -/
def verifyHash (id : Nat) (a : Alg) (digest sig : Bytes) : P Unit :=
  query fun s => (s.permitted id .verifyHash a).bind fun k =>
    match a with
    | .ecdsa h =>
      let pk := if k.attr.kind == .eccKeyPair then A.ecPub k.attr.bits k.data else k.data
      if (k.attr.kind == .eccKeyPair || k.attr.kind == .eccPublicKey) && digest.length == h.len &&
        A.ecdsaVerify h k.attr.bits pk digest sig then some () else none
    | _ => none

/-- limits of the AEAD algorithms: nonce length and plaintext length -/
def aeadFits (a : AeadAlg) (nonce ptxt : Nat) : Bool :=
  match a with
  | .ccm => 7 ≤ nonce && nonce ≤ 13 && ptxt < 256 ^ (15 - nonce)
  | .gcm => 0 < nonce
  | .chacha20Poly1305 => nonce == 12

/-- is this a key for the AEAD algorithm? -/
def aeadKind : AeadAlg → Kind
  | .chacha20Poly1305 => .chacha20
  | _ => .aes

/-- `psa_aead_encrypt` into a buffer of `n` bytes -/
def aeadEncrypt (id : Nat) (a : Alg) (nonce ad ptxt : Bytes) (n : Nat) : P Bytes :=
  query fun s => (s.permitted id .encrypt a).bind fun k =>
    match a with
    | .aead b t =>
      if k.attr.kind == aeadKind b && aeadFits b nonce.length ptxt.length && ptxt.length + t ≤ n then
        some (A.enc b t k.data nonce ad ptxt) else none
    | _ => none

/-- `psa_aead_decrypt` into a buffer of `n` bytes -/
def aeadDecrypt (id : Nat) (a : Alg) (nonce ad ctxt : Bytes) (n : Nat) : P Bytes :=
  query fun s => (s.permitted id .decrypt a).bind fun k =>
    match a with
    | .aead b t =>
      if k.attr.kind == aeadKind b && t ≤ ctxt.length && aeadFits b nonce.length (ctxt.length - t) &&
        ctxt.length - t ≤ n then A.dec b t k.data nonce ad ctxt else none
    | _ => none

/-! ## Key derivation operations -/

/-- `psa_key_derivation_operation_t` -/
structure Deriv where
  alg : Alg
  salt : Option Bytes
  secret : Option Bytes
  info : Option Bytes
  capacity : Nat

/-- `psa_key_derivation_setup` -/
def derivSetup (a : Alg) : P Deriv :=
  query fun _ => match a with
    | .hkdfExtract h => some ⟨a, none, none, none, h.len⟩
    | .hkdfExpand h => some ⟨a, none, none, none, 255 * h.len⟩
    | _ => none

/-- `psa_key_derivation_input_bytes` with `PSA_KEY_DERIVATION_INPUT_SALT`: HKDF-Extract, before the secret, once -/
def derivSalt (d : Deriv) (b : Bytes) : P Deriv :=
  query fun _ => match d.alg, d.salt, d.secret with
    | .hkdfExtract _, none, none => some { d with salt := some b }
    | _, _, _ => none

/-- `psa_key_derivation_input_bytes` with `PSA_KEY_DERIVATION_INPUT_INFO`: HKDF-Expand, after the secret, once -/
def derivInfo (d : Deriv) (b : Bytes) : P Deriv :=
  query fun _ => match d.alg, d.secret, d.info with
    | .hkdfExpand _, some _, none => some { d with info := some b }
    | _, _, _ => none

/-- `psa_key_derivation_input_key` with `PSA_KEY_DERIVATION_INPUT_SECRET`: HKDF-Extract after the salt; HKDF-Expand with a
key of the length of the hash -/
def derivSecret (d : Deriv) (id : Nat) : P Deriv :=
  query fun s => (s.permitted id .derive d.alg).bind fun k =>
    if k.attr.kind != .derive then none else
    match d.alg, d.salt, d.secret with
    | .hkdfExtract _, some _, none => some { d with secret := some k.data }
    | .hkdfExpand h, none, none => if k.data.length = h.len then some { d with secret := some k.data } else none
    | _, _, _ => none

/-- `psa_key_derivation_set_capacity` -/
def derivCapacity (d : Deriv) (n : Nat) : P Deriv :=
  query fun _ => if n ≤ d.capacity then some { d with capacity := n } else none

/-- `psa_key_derivation_output_bytes` -/
def derivOutput (d : Deriv) (n : Nat) : P Bytes :=
  query fun _ => if d.capacity < n then none else
    match d.alg, d.salt, d.secret, d.info with
    | .hkdfExtract h, some salt, some ikm, _ => some ((A.hkdfExtract h salt ikm).take n)
    | .hkdfExpand h, _, some prk, some info => some (A.hkdfExpand h prk info n)
    | _, _, _, _ => none

end Verif.Psa
