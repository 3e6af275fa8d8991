import Verif.Suite.Env
import Verif.SpecPrims

/-!
# Specification: the shipped cipher suites

The registry entries (RFC 9528, section 10.2), the primitives a suite stands for, and what is taken for granted about the
algorithms.
-/

namespace Verif.Spec

open Verif Psa

/-- the suites in `/repo/helpers` (without the experimental one) -/
def shipped : List Params := [suite0, suite2, suite4, suite24]

/-- An entry of the registry "EDHOC Cipher Suites". -/
structure Registered where
  number : Int
  /-- AEAD algorithm, with the lengths of key, tag and nonce (RFC 9053, section 4) -/
  aead : AeadAlg
  key : Nat
  tag : Nat
  nonce : Nat
  /-- hash algorithm -/
  hash : HashAlg
  /-- length of MAC_2 and MAC_3 with static Diffie-Hellman -/
  mac : Nat
  /-- curve for key exchange: its prime and the bytes of a public key; `none` for a curve in Montgomery form -/
  curve : Option Curve
  point : Nat
  /-- length of a signature -/
  sign : Nat
  deriving DecidableEq

/-- AES-CCM-16-64-128, SHA-256, 8, X25519, EdDSA -/
def reg0 : Registered := ⟨0, .ccm, 16, 8, 13, .sha256, 8, none, 32, 64⟩

/-- AES-CCM-16-64-128, SHA-256, 8, P-256, ES256 -/
def reg2 : Registered := ⟨2, .ccm, 16, 8, 13, .sha256, 8,
  some ⟨2 ^ 256 - 2 ^ 224 + 2 ^ 192 + 2 ^ 96 - 1,
    41058363725152142129326129780047268409114441015993725554835256314039467401291, 32⟩, 32, 64⟩

/-- ChaCha20/Poly1305, SHA-256, 16, X25519, EdDSA -/
def reg4 : Registered := ⟨4, .chacha20Poly1305, 32, 16, 12, .sha256, 16, none, 32, 64⟩

/-- A256GCM, SHA-384, 16, P-384, ES384 -/
def reg24 : Registered := ⟨24, .gcm, 32, 16, 12, .sha384, 16,
  some ⟨2 ^ 384 - 2 ^ 128 - 2 ^ 96 + 2 ^ 32 - 1,
    27580193559959705877849011840389048093056905856361568521428707301988689241309860865136260764883745107765439761230575, 48⟩, 48, 96⟩

/-- the entries for the shipped suites -/
def registry : List Registered := [reg0, reg2, reg4, reg24]

/-- The suite is the registered one. -/
structure Matches (q : Params) (r : Registered) : Prop where
  number : q.table.value = r.number
  aead : q.aead = r.aead ∧ q.table.aeadKey = r.key ∧ q.table.aeadTag = r.tag ∧ q.table.aeadIv = r.nonce
  hash : q.hash = r.hash ∧ q.table.hash = r.hash.len
  mac : q.table.mac = r.mac
  curve : q.curve = r.curve ∧ q.table.eccKey = r.point
  sign : q.table.eccSign = r.sign

/-- A point with the coordinates X and Y, as byte strings: numbers below the prime that satisfy the equation. -/
structure Point (c : Curve) (X Y : Bytes) : Prop where
  lenX : X.length = c.len
  lenY : Y.length = c.len
  ltX : beNat X < c.p
  ltY : beNat Y < c.p
  eqn : ((beNat Y : Int) ^ 2 - ((beNat X : Int) ^ 3 - 3 * (beNat X : Int) + c.b)) % c.p = 0

/-- is this a private key of the suite? -/
def isPriv (A : Algs) (q : Params) (x : Bytes) : Prop :=
  match q.curve with
  | none => x.length = 32
  | some c => x.length = c.len ∧ A.ecPriv (8 * c.len) x = true

/-- The primitives of a suite. On the NIST curves public keys and shared secrets are x-coordinates (RFC 9528, appendix B);
there the secret is computed with any point that has the peer's x-coordinate. -/
noncomputable def primsOf (A : Algs) (q : Params) : Prims where
  hash := A.hash q.hash
  extract := A.hkdfExtract q.hash
  expand := A.hkdfExpand q.hash
  priv := isPriv A q
  pub := fun x => match q.curve with
    | none => A.x25519 basePoint (clamp x)
    | some c => ((A.ecPub (8 * c.len) x).drop 1).take c.len
  dh := fun x pk => match q.curve with
    | none => A.x25519 pk (clamp x)
    | some c => open Classical in
      if h : ∃ Y, Point c pk Y then A.ecdh (8 * c.len) x (4 :: pk ++ h.choose) else []
  enc := A.enc q.aead q.aeadTag
  dec := A.dec q.aead q.aeadTag

/-- What is taken for granted about an elliptic curve: keys are encoded as they should be, the shared secret is the same for a
point and its negative, and Diffie-Hellman works. -/
structure CurveLaws (A : Algs) (c : Curve) : Prop where
  priv : ∀ x, A.ecPriv (8 * c.len) x = true → x.length = c.len
  point : ∀ b, A.ecPoint (8 * c.len) b = true ↔ ∃ X Y, b = 4 :: X ++ Y ∧ Point c X Y
  pub : ∀ x, A.ecPriv (8 * c.len) x = true → A.ecPoint (8 * c.len) (A.ecPub (8 * c.len) x) = true
  same : ∀ x X Y Y', A.ecPriv (8 * c.len) x = true → Point c X Y → Point c X Y' →
    A.ecdh (8 * c.len) x (4 :: X ++ Y) = A.ecdh (8 * c.len) x (4 :: X ++ Y')
  dh : ∀ x y, A.ecPriv (8 * c.len) x = true → A.ecPriv (8 * c.len) y = true →
    A.ecdh (8 * c.len) x (A.ecPub (8 * c.len) y) = A.ecdh (8 * c.len) y (A.ecPub (8 * c.len) x)
  size : ∀ x b, A.ecPriv (8 * c.len) x = true → A.ecPoint (8 * c.len) b = true → (A.ecdh (8 * c.len) x b).length = c.len

/-- What is taken for granted about the algorithms of a suite. -/
structure AlgLaws (A : Algs) (q : Params) : Prop where
  hash : ∀ b, (A.hash q.hash b).length = q.hash.len
  extract : ∀ salt ikm, (A.hkdfExtract q.hash salt ikm).length = q.hash.len
  expand : ∀ prk info n, (A.hkdfExpand q.hash prk info n).length = n
  enc : ∀ k iv aad p, (A.enc q.aead q.aeadTag k iv aad p).length = p.length + q.aeadTag
  dec : ∀ k iv aad p, A.dec q.aead q.aeadTag k iv aad (A.enc q.aead q.aeadTag k iv aad p) = some p
  curve : ∀ c, q.curve = some c → CurveLaws A c
  ecdsa : ∀ c, q.curve = some c → ∀ x d r, A.ecPriv (8 * c.len) x = true → d.length = q.hash.len →
    (A.ecdsaSign q.hash (8 * c.len) x d r).length = q.sign ∧
      A.ecdsaVerify q.hash (8 * c.len) (A.ecPub (8 * c.len) x) d (A.ecdsaSign q.hash (8 * c.len) x d r) = true
  x25519 : q.curve = none → (∀ u k, (A.x25519 u k).length = 32) ∧ ∀ x y, x.length = 32 → y.length = 32 →
    A.x25519 (A.x25519 basePoint (clamp y)) (clamp x) = A.x25519 (A.x25519 basePoint (clamp x)) (clamp y)
  ed25519 : q.curve = none → ∀ sk m, (A.ed25519Sign sk m).length = 64

variable {τ : Type}

/-- every key in the store passed the check at its import -/
def Valid (A : Algs) (s : Store) : Prop := ∀ i k, s.find i = some k → keyOk A k.attr k.data = true

/-- the keys stay where they are, maybe there are more -/
def Kept (s s' : Store) : Prop := ∀ i k, s.find i = some k → s'.find i = some k

/-- The application's own callbacks only add keys, and only through PSA. -/
structure Decent (A : Algs) (X : App τ) : Prop where
  alloc : ∀ w n, Kept w.1 (X.alloc w n).2.1 ∧ (Valid A w.1 → Valid A (X.alloc w n).2.1)
  eadCompose : ∀ w m, Kept w.1 (X.eadCompose w m).2.1 ∧ (Valid A w.1 → Valid A (X.eadCompose w m).2.1)
  eadProcess : ∀ w m l, Kept w.1 (X.eadProcess w m l).2.1 ∧ (Valid A w.1 → Valid A (X.eadProcess w m l).2.1)
  credFetch : ∀ w, Kept w.1 (X.credFetch w).2.1 ∧ (Valid A w.1 → Valid A (X.credFetch w).2.1)
  credVerify : ∀ w c, Kept w.1 (X.credVerify w c).2.1 ∧ (Valid A w.1 → Valid A (X.credVerify w c).2.1)

/-- The identifiers the application supplies with its credential are those of keys it had in the store (`s`) before: `sk`
gives the bytes of the keys. -/
def Anchored (q : Params) (X : App τ) (s : Store) (sk : Bytes → Bytes) : Prop :=
  ∀ w c kid, (X.credFetch w).1 = some (c, kid) → kidNat kid ≠ 0 ∧ ∃ k, s.find (kidNat kid) = some k ∧ k.data = sk kid ∧
    ∀ c, q.curve = some c → k.attr.bits = 8 * c.len

/-- `sig` is a signature of `input` with the private key `sk` -/
def SignedWith (A : Algs) (q : Params) (sk input sig : Bytes) : Prop :=
  match q.curve with
  | none => sig = A.ed25519Sign sk input
  | some c => ∃ r, sig = A.ecdsaSign q.hash (8 * c.len) sk (A.hash q.hash input) r

/-- `sig` is accepted as a signature of `input` under the public key `pk` -/
def SignatureOk (A : Algs) (q : Params) (pk input sig : Bytes) : Bool :=
  match q.curve with
  | none => A.ed25519Verify pk input sig
  | some c => A.ecdsaVerify q.hash (8 * c.len) pk (A.hash q.hash input) sig

/-- Some operation for keys of this type succeeds with the key `kid`. -/
def Usable {σ : Type} (E : Env σ) (e : σ) (kid : Bytes) : KeyType → Prop
  | .makeKeyPair => (E.makeKeyPair e kid).1 ≠ none
  | .keyAgreement => ∃ pk, (E.keyAgreement e kid pk).1 ≠ none
  | .signature => ∃ m, (E.sign e kid m).1 ≠ none
  | .verify => ∃ m sig, (E.verify e kid m sig).1 = true
  | .extract => ∃ salt, (E.extract e kid salt).1 ≠ none
  | .expand => ∃ info n, (E.expand e kid info n).1 ≠ none
  | .encrypt => ∃ iv ad p, (E.encrypt e kid iv ad p).1 ≠ none
  | .decrypt => ∃ iv ad c, (E.decrypt e kid iv ad c).1 ≠ none

end Verif.Spec
