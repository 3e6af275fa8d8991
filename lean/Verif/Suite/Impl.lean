import Verif.Suite.Psa

/-!
# The shipped cipher suites 0, 2, 4 and 24

`/repo/helpers/src/edhoc_cipher_suite_{0,2,4,24}.c`. Suites 0 and 4 are the same program up to constants (X25519, EdDSA), and so
are suites 2 and 24 (P-256 and P-384, ECDSA); each pair is one definition with parameters. Line numbers are those of suites 0
and 2; suite 4 has the lines of suite 0, suite 24 those of suite 2, one later from line 573 on.

Checks for NULL pointers are left out (the library passes none). Sizes of output buffers are arguments. A call returns the
bytes it writes.
-/

namespace Verif.Psa

open P

/-- A short Weierstrass curve y² = x³ - 3x + b over the integers modulo p. -/
structure Curve where
  p : Nat
  b : Nat
  /-- bytes of a coordinate -/
  len : Nat
  deriving DecidableEq, Repr

/-- `MBEDTLS_ECP_DP_SECP256R1` (FIPS 186-4, D.1.2.3) -/
def p256 : Curve where
  p := 0xFFFFFFFF00000001000000000000000000000000FFFFFFFFFFFFFFFFFFFFFFFF
  b := 0x5AC635D8AA3A93E7B3EBBD55769886BC651D06B0CC53B0F63BCE3C3E27D2604B
  len := 32

/-- `MBEDTLS_ECP_DP_SECP384R1` (FIPS 186-4, D.1.2.4) -/
def p384 : Curve where
  p := 0xFFFFFFFFFFFFFFFFFFFFFFFFFFFFFFFFFFFFFFFFFFFFFFFFFFFFFFFFFFFFFFFEFFFFFFFF0000000000000000FFFFFFFF
  b := 0xB3312FA7E23EE7E4988E056BE3F82D19181D9C6EFE8141120314088F5013875AC656398D8A2ED19D2A85C8EDD3EC2AEF
  len := 48

/-- What the suites differ in: the curve (`none`: X25519 and EdDSA), hash, AEAD, and the lengths of their tables. -/
structure Params where
  value : Int
  curve : Option Curve
  hash : HashAlg
  aead : AeadAlg
  aeadKey : Nat
  aeadTag : Nat
  aeadIv : Nat
  hashLen : Nat
  mac : Nat
  ecc : Nat
  sign : Nat
  deriving DecidableEq, Repr

/-- `/repo/helpers/src/edhoc_cipher_suite_0.c:39-49,67-150` -/
def suite0 : Params := ⟨0, none, .sha256, .ccm, 16, 8, 13, 32, 8, 32, 64⟩

/-- `/repo/helpers/src/edhoc_cipher_suite_2.c:38-51,175-265,389-391` -/
def suite2 : Params := ⟨2, some p256, .sha256, .ccm, 16, 8, 13, 32, 8, 32, 64⟩

/-- `/repo/helpers/src/edhoc_cipher_suite_4.c:39-49,67-150` -/
def suite4 : Params := ⟨4, none, .sha256, .chacha20Poly1305, 32, 16, 12, 32, 16, 32, 64⟩

/-- `/repo/helpers/src/edhoc_cipher_suite_24.c:38-51,175-265,389-391` -/
def suite24 : Params := ⟨24, some p384, .sha384, .gcm, 32, 16, 12, 48, 16, 48, 96⟩

/-- `edhoc_cipher_suite_0_suite` and its like. `/repo/helpers/src/edhoc_cipher_suite_0.c:588-597`,
`/repo/helpers/src/edhoc_cipher_suite_2.c:807-816`, `/repo/helpers/src/edhoc_cipher_suite_4.c:588-597`,
`/repo/helpers/src/edhoc_cipher_suite_24.c:808-817`. -/
def Params.table (q : Params) : Suite where
  value := q.value
  aeadKey := q.aeadKey
  aeadTag := q.aeadTag
  aeadIv := q.aeadIv
  hash := q.hashLen
  mac := q.mac
  eccKey := q.ecc
  eccSign := q.sign

variable (A : Algs)

/-! ## Point decompression -/

/-- `mbedtls_mpi_exp_mod`: square and multiply; the fuel bounds the bits of the exponent -/
def powMod (p : Nat) : Nat → Nat → Nat → Nat
  | 0, _, _ => 1 % p
  | fuel + 1, a, e =>
    if e = 0 then 1 % p
    else
      let r := powMod p fuel (a * a % p) (e / 2)
      if e % 2 = 1 then a * r % p else r

/-- the right side x³ - 3x + b modulo p. `/repo/helpers/src/edhoc_cipher_suite_2.c:110-127` -/
def Curve.rhs (c : Curve) (x : Nat) : Nat := ((((x * x : Nat) : Int) - 3) * x + c.b).emod c.p |>.toNat

/-- its square root, if there is one: the power (p + 1) / 4. `/repo/helpers/src/edhoc_cipher_suite_2.c:129-141` -/
def Curve.root (c : Curve) (x : Nat) : Nat := powMod c.p (8 * c.len) (c.rhs x) ((c.p + 1) / 4)

/-- `mbedtls_ecp_decompress`: `04 | X | Y` for the given X. The parity of Y is chosen by comparing the first byte of X with 3.
`/repo/helpers/src/edhoc_cipher_suite_2.c:69-157` -/
def decompress (c : Curve) (raw : Bytes) : Bytes :=
  let r := c.root (beNat raw)
  let y := if decide (raw.head? = some 3) != (r % 2 == 1) then c.p - r else r
  4 :: raw ++ beBytes c.len y

/-! ## Keys -/

/-- the attributes of a key. Suites 0 and 4 (`/repo/helpers/src/edhoc_cipher_suite_0.c:67-140`) store keys for key
agreement and signatures as raw data. Suites 2 and 24: `/repo/helpers/src/edhoc_cipher_suite_2.c:171-259`. -/
def attrOf (q : Params) (t : KeyType) (n : Nat) : Attr :=
  match t, q.curve with
  | .makeKeyPair, _ => ⟨[.export], .ecdh, .eccKeyPair, 8 * q.ecc⟩
  | .keyAgreement, some _ => ⟨[.derive], .ecdh, .eccKeyPair, 8 * q.ecc⟩
  | .signature, some _ => ⟨[.signMessage, .signHash], .ecdsa q.hash, .eccKeyPair, 8 * q.ecc⟩
  | .verify, some _ => ⟨[.verifyMessage, .verifyHash], .ecdsa q.hash, .eccPublicKey, 8 * q.ecc⟩
  | .keyAgreement, none => ⟨[.export], .none, .rawData, 8 * 32⟩
  | .signature, none => ⟨[.export], .none, .rawData, 8 * 64⟩
  | .verify, none => ⟨[.export], .none, .rawData, 8 * 32⟩
  | .extract, _ => ⟨[.derive], .hkdfExtract q.hash, .derive, 8 * n⟩
  | .expand, _ => ⟨[.derive], .hkdfExpand q.hash, .derive, 8 * n⟩
  | .encrypt, _ => ⟨[.encrypt], .aead q.aead q.aeadTag, aeadKind q.aead, 8 * q.aeadKey⟩
  | .decrypt, _ => ⟨[.decrypt], .aead q.aead q.aeadTag, aeadKind q.aead, 8 * q.aeadKey⟩

/-- `key_import`. For a new key pair suites 0 and 4 return at once and leave the identifier as it is: 0.
`/repo/helpers/src/edhoc_cipher_suite_0.c:59-157`, `/repo/helpers/src/edhoc_cipher_suite_2.c:161-283`. -/
def keyImport (q : Params) (t : KeyType) (raw : Bytes) : P Nat :=
  match t, q.curve with
  | .makeKeyPair, none => pure 0
  | .makeKeyPair, some _ => generateKey A (attrOf q t raw.length)
  | _, _ => importKey A (attrOf q t raw.length) raw

/-- `key_destroy`. `/repo/helpers/src/edhoc_cipher_suite_0.c:159-178`, `/repo/helpers/src/edhoc_cipher_suite_2.c:285-304`. -/
def keyDestroy (id : Nat) : P Unit := destroyKey id

/-- change one byte -/
def updAt (l : Bytes) (i : Nat) (f : UInt8 → UInt8) : Bytes := l.modify i f

/-- `c25519_prepare` (RFC 7748, `decodeScalar25519`) -/
def clamp (k : Bytes) : Bytes := updAt (updAt k 0 (· &&& 0xf8)) 31 fun b => (b &&& 0x7f) ||| 0x40

/-- `c25519_base_x` -/
def basePoint : Bytes := 9 :: List.replicate 31 0

/-- `make_key_pair`: private and public key, into buffers of `n` and `m` bytes. Suites 2 and 24 copy `m` bytes of the public
key, whatever `m` is.
`/repo/helpers/src/edhoc_cipher_suite_0.c:180-213`, `/repo/helpers/src/edhoc_cipher_suite_2.c:306-349`. -/
def makePair (q : Params) (id n m : Nat) : P (Bytes × Bytes) := do
  require (n != 0 && m != 0) .invalidArgument
  match q.curve with
  | none =>
    require (32 ≤ n && 32 ≤ m) .crypto
    let seed ← generateRandom 32
    pure (clamp seed, A.x25519 basePoint (clamp seed))
  | some c =>
    let priv ← exportKey id n
    require (priv.length == c.len) .crypto
    let pub ← exportPublicKey A id (2 * c.len + 1)
    guardUB (m ≤ 2 * c.len) .oob
    pure (priv, (fitLen (2 * c.len + 1) pub).drop 1 |>.take m)

/-- `key_agreement` into a buffer of `n` bytes.
`/repo/helpers/src/edhoc_cipher_suite_0.c:215-256`, `/repo/helpers/src/edhoc_cipher_suite_2.c:351-434`. -/
def keyAgree (q : Params) (id : Nat) (peer : Bytes) (n : Nat) : P Bytes := do
  require (peer.length != 0 && n != 0) .invalidArgument
  match q.curve with
  | none =>
    require (peer.length == 32 && n == 32) .crypto
    let priv ← exportKey id 32
    require (priv.length == 32) .crypto
    pure (A.x25519 peer (clamp priv))
  | some c =>
    require (peer.length == c.len && n == c.len) .crypto
    let pk ← query fun _ => some (decompress c peer)
    let attr ← getAttr id
    rawKeyAgreement A attr.alg id pk n

/-- `hash` into a buffer of `n` bytes.
`/repo/helpers/src/edhoc_cipher_suite_0.c:546-567`, `/repo/helpers/src/edhoc_cipher_suite_2.c:765-786`. -/
def hashInput (q : Params) (input : Bytes) (n : Nat) : P Bytes := do
  require (input.length != 0 && n != 0) .invalidArgument
  hashCompute A q.hash input n

/-- `signature` into a buffer of `n` bytes.
`/repo/helpers/src/edhoc_cipher_suite_0.c:258-293`, `/repo/helpers/src/edhoc_cipher_suite_2.c:436-497`. -/
def signInput (q : Params) (id : Nat) (input : Bytes) (n : Nat) : P Bytes := do
  require (input.length != 0 && n != 0) .invalidArgument
  require (n == q.sign) .crypto
  match q.curve with
  | none =>
    let priv ← exportKey id 64
    require (priv.length == 64) .crypto
    pure (A.ed25519Sign priv input)
  | some _ =>
    let attr ← getAttr id
    let digest ← hashInput A q input q.hash.len
    require (digest.length == q.hash.len) .crypto
    let sig ← signHash A id attr.alg digest n
    require (sig.length == q.sign) .crypto
    pure sig

/-- `verify`.
`/repo/helpers/src/edhoc_cipher_suite_0.c:295-334`, `/repo/helpers/src/edhoc_cipher_suite_2.c:499-553`. -/
def verifyInput (q : Params) (id : Nat) (input sig : Bytes) : P Unit := do
  require (input.length != 0 && sig.length != 0) .invalidArgument
  require (sig.length == q.sign) .crypto
  match q.curve with
  | none =>
    let pub ← exportKey id 32
    require (pub.length == 32) .crypto
    require (A.ed25519Verify pub input sig) .crypto
  | some _ =>
    let attr ← getAttr id
    let digest ← hashInput A q input q.hash.len
    require (digest.length == q.hash.len) .crypto
    verifyHash A id attr.alg digest sig

/-- `extract` into a buffer of `n` bytes. The operation is aborted on every path; it is a local variable.
`/repo/helpers/src/edhoc_cipher_suite_0.c:336-401`, `/repo/helpers/src/edhoc_cipher_suite_2.c:555-620`. -/
def extractKey (id : Nat) (salt : Bytes) (n : Nat) : P Bytes := do
  require (salt.length != 0 && n != 0) .invalidArgument
  let attr ← getAttr id
  let d ← derivSetup attr.alg
  let d ← derivSalt d salt
  let d ← derivSecret d id
  let d ← derivCapacity d n
  derivOutput A d n

/-- `expand` into a buffer of `n` bytes.
`/repo/helpers/src/edhoc_cipher_suite_0.c:403-466`, `/repo/helpers/src/edhoc_cipher_suite_2.c:622-685`. -/
def expandKey (id : Nat) (info : Bytes) (n : Nat) : P Bytes := do
  require (info.length != 0 && n != 0) .invalidArgument
  let attr ← getAttr id
  let d ← derivSetup attr.alg
  let d ← derivSecret d id
  let d ← derivInfo d info
  let d ← derivCapacity d n
  derivOutput A d n

/-- `encrypt` into a buffer of `n` bytes.
`/repo/helpers/src/edhoc_cipher_suite_0.c:468-505`, `/repo/helpers/src/edhoc_cipher_suite_2.c:687-724`. -/
def encryptText (id : Nat) (nonce ad ptxt : Bytes) (n : Nat) : P Bytes := do
  require (nonce.length != 0 && ad.length != 0 && n != 0) .invalidArgument
  let attr ← getAttr id
  aeadEncrypt A id attr.alg nonce ad ptxt n

/-- `decrypt` into a buffer of `n` bytes.
`/repo/helpers/src/edhoc_cipher_suite_0.c:507-544`, `/repo/helpers/src/edhoc_cipher_suite_2.c:726-763`. -/
def decryptText (id : Nat) (nonce ad ctxt : Bytes) (n : Nat) : P Bytes := do
  require (nonce.length != 0 && ad.length != 0 && ctxt.length != 0) .invalidArgument
  let attr ← getAttr id
  aeadDecrypt A id attr.alg nonce ad ctxt n

end Verif.Psa
