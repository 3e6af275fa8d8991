import Verif.Real.Curve
import Verif.Real.Aead

/-!
# X25519 and Ed25519 (RFC 7748, RFC 8032)

Not a model of code in the repository: the standards' algorithms, to instantiate `Psa.Algs`. Both work on Curve25519 in
Montgomery form: X25519 on points with the given u-coordinate (on the curve or its twist), Ed25519 through the map between
the two forms of the curve.
-/

namespace Verif.Real

/-- 2^255 - 19 -/
def q25519 : Nat := 57896044618658097711785492504343953926634992332820282019728792003956564819949

/-- Curve25519: v² = u³ + 486662u² + u -/
def mont : Weier := ⟨q25519, 486662, 1, 0⟩

/-- the twist by 2, with the coordinates 2u and 2v -/
def twist : Weier := ⟨q25519, 2 * 486662, 4, 0⟩

/-- a square root of -1: 2^((p-1)/4) -/
def sqrtM1 : Nat := 19681161376707505956807079304988542015446066515923890162744021073123829784752

/-- a square root modulo 2^255 - 19 -/
def root (a : Nat) : Option Nat :=
  force (power q25519 a 43 ((q25519 + 3) / 8)) fun c =>
  if c * c % q25519 = a then some c
  else force (c * sqrtM1 % q25519) fun c => if c * c % q25519 = a then some c else none

/-- a point of `W` with this first coordinate -/
def lift (W : Weier) (u : Nat) : Pt :=
  force ((u * u * u + W.a2 * (u * u) + W.a4 * u + W.a6) % W.p) fun a => (root a).map fun v => (u, v)

/-- the first coordinate, zero at infinity -/
def uOf : Pt → Nat
  | none => 0
  | some (u, _) => u

/-- the multiple `k` of the points with the coordinate `u` -/
def montMul (u k : Nat) : Nat :=
  match lift mont u with
  | some P => uOf (mont.mul 256 (some P) k)
  | none =>
    match lift twist (2 * u % q25519) with
    | some P => uOf (twist.mul 256 (some P) k) * ((q25519 + 1) / 2) % q25519
    | none => 0

/-- X25519 (RFC 7748, section 5), for a scalar that is already decoded (`Psa.clamp`) -/
def x25519 (u k : Bytes) : Bytes :=
  force (ofBytesLe (u.take 32) % 2 ^ 255 % q25519) fun u => force (ofBytesLe (k.take 32)) fun k =>
  force (montMul u k) fun r => toBytesLe 32 r

open Psa (clamp basePoint)

set_option maxRecDepth 100000 in
/-- RFC 7748, section 5.2: a point on the curve and one on the twist -/
example :
    x25519 (toBytes 32 0xe6db6867583030db3594c1a424b15f7c726624ec26b3353b10a903a6d0ab1c4c)
      (clamp (toBytes 32 0xa546e36bf0527c9d3b16154b82465edd62144c0ac1fc5a18506a2244ba449ac4)) =
      toBytes 32 0xc3da55379de9c6908e94ea4df28d084f32eccf03491c71f754b4075577a28552 ∧
    x25519 (toBytes 32 0xe5210f12786811d3f4b7959d0538ae2c31dbe7106fc03c3efc4cd549c715a493)
      (clamp (toBytes 32 0x4b66e9d4d1b4673c5ad22691957d6af5c11b6421e0ea01d42ca4169e7918ba0d)) =
      toBytes 32 0x95cbde9476e8907d7aade45cb4b873f88b595a68799fa152e6f8f7647aac7957 := by decide +kernel

/-! ## Ed25519 -/

/-- the base point of RFC 8032 on Curve25519 (RFC 7748, section 4.1) -/
def edBase : Pt := some (9, 14781619447589544791020593568409986887264606134616475288964881837755586237401)

/-- the order of the base point -/
def edOrder : Nat := 7237005577332262213973186563042994240857116359379907606001950938285454250989

/-- the square root of -486664 in the map between the curves: x = c u / v -/
def edRoot : Nat := 51042569399160536130206135233146329284152202253034631822681833788666877215207

/-- the first coordinate on the Edwards curve -/
def edX (u v : Nat) : Nat := edRoot * u * inv q25519 v % q25519

/-- the form of a point in 32 bytes: y, and the parity of x (RFC 8032, section 5.1.2) -/
def edEncode : Pt → Bytes
  | none => toBytesLe 32 1
  | some (u, v) =>
    force ((u + (q25519 - 1)) * inv q25519 (u + 1) % q25519 + edX u v % 2 * 2 ^ 255) fun n => toBytesLe 32 n

/-- the point with this form (RFC 8032, section 5.1.3) -/
def edDecode (b : Bytes) : Option Pt :=
  if b.length ≠ 32 then none
  else force (ofBytesLe b % 2 ^ 255) fun y => force (ofBytesLe b / 2 ^ 255) fun s =>
  if q25519 ≤ y then none
  else if y = 1 then if s = 0 then some none else none
  else
    force ((1 + y) * inv q25519 (1 + (q25519 - y)) % q25519) fun u =>
    match lift mont u with
    | none => none
    | some (u, v) =>
      if edX u v % 2 = s then some (some (u, v))
      else if edX u v = 0 then none
      else some (some (u, (q25519 - v) % q25519))

/-- the negative -/
def edNeg : Pt → Pt
  | none => none
  | some (u, v) => some (u, (q25519 - v) % q25519)

/-- the secret scalar of a seed -/
def edScalar (seed : Bytes) : Nat := ofBytesLe (Psa.clamp ((sha512 seed).take 32))

/-- the public key of a seed -/
def edPub (seed : Bytes) : Bytes := force (edScalar seed) fun a => edEncode (mont.mul 256 edBase a)

/-- The signature with a private key that consists of seed and public key (RFC 8032, section 5.1.6). -/
def ed25519Sign (sk m : Bytes) : Bytes :=
  force (edScalar (sk.take 32)) fun a =>
  force (ofBytesLe (sha512 ((sha512 (sk.take 32)).drop 32 ++ m)) % edOrder) fun r =>
  let R := edEncode (mont.mul 256 edBase r)
  force (ofBytesLe (sha512 (R ++ sk.drop 32 ++ m)) % edOrder) fun k =>
  R ++ toBytesLe 32 ((r + k * a) % edOrder)

/-- The check of a signature (RFC 8032, section 5.1.7), without the cofactor. -/
def ed25519Verify (pk m sig : Bytes) : Bool :=
  match edDecode pk with
  | none => false
  | some A =>
    force (ofBytesLe (sig.drop 32)) fun s =>
    force (ofBytesLe (sha512 (sig.take 32 ++ pk ++ m)) % edOrder) fun k =>
    decide (sig.length = 64) && decide (s < edOrder) &&
      edEncode (mont.add (mont.mul 256 edBase s) (mont.mul 256 (edNeg A) k)) == sig.take 32

/-- RFC 8032, section 7.1, test 2 -/
example :
    edPub (toBytes 32 0x4ccd089b28ff96da9db6c346ec114e0f5b8a319f35aba624da8cf6ed4fb8a6fb) =
      toBytes 32 0x3d4017c3e843895a92b70aa74d1b7ebc9c982ccf2ec4968cc0cd55f12af4660c ∧
    ed25519Sign (toBytes 32 0x4ccd089b28ff96da9db6c346ec114e0f5b8a319f35aba624da8cf6ed4fb8a6fb ++
        toBytes 32 0x3d4017c3e843895a92b70aa74d1b7ebc9c982ccf2ec4968cc0cd55f12af4660c) [0x72] =
      toBytes 64 0x92a009a9f0d4cab8720e820b5f642540a2b27b5416503f8fb3762223ebdb69da085ac1e43e15996e458f3613d0f11d8c387b2eaeb4302aeeb00d291612bb0c00 ∧
    ed25519Verify (toBytes 32 0x3d4017c3e843895a92b70aa74d1b7ebc9c982ccf2ec4968cc0cd55f12af4660c) [0x72]
      (toBytes 64 0x92a009a9f0d4cab8720e820b5f642540a2b27b5416503f8fb3762223ebdb69da085ac1e43e15996e458f3613d0f11d8c387b2eaeb4302aeeb00d291612bb0c00) = true ∧
    ed25519Verify (toBytes 32 0x3d4017c3e843895a92b70aa74d1b7ebc9c982ccf2ec4968cc0cd55f12af4660c) [0x73]
      (toBytes 64 0x92a009a9f0d4cab8720e820b5f642540a2b27b5416503f8fb3762223ebdb69da085ac1e43e15996e458f3613d0f11d8c387b2eaeb4302aeeb00d291612bb0c00) = false := by
  decide +kernel

end Verif.Real
