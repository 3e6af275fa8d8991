import Verif.Types
import Verif.Suite.Psa

/-!
# SHA-256, SHA-384 and SHA-512 (FIPS 180-4), HMAC (RFC 2104) and HKDF (RFC 5869)

Not a model of code in the repository: the standards' algorithms, to instantiate `Psa.Algs`. Words are natural numbers.
-/

namespace Verif.Real

/-- big-endian bytes to a number -/
def ofBytes (b : Bytes) : Nat := b.foldl (fun n x => 256 * n + x.toNat) 0

/-- the last `k` big-endian bytes of a number -/
def toBytes : Nat → Nat → Bytes
  | 0, _ => []
  | k + 1, n => UInt8.ofNat (n >>> (8 * k)) :: toBytes k n

/-- `f n`, with `n` evaluated first -/
def force {α : Type} (n : Nat) (f : Nat → α) : α :=
  match n with
  | 0 => f 0
  | m + 1 => f (m + 1)

theorem force_eq {α : Type} (n : Nat) (f : Nat → α) : force n f = f n := by cases n <;> rfl

/-- What the members of the family differ in: word size, its power of two, rotations and shifts, round constants. -/
structure Sha where
  /-- bits of a word -/
  w : Nat
  /-- 2 to the power of that -/
  mod : Nat
  bigA : Nat × Nat × Nat
  bigE : Nat × Nat × Nat
  small0 : Nat × Nat × Nat
  small1 : Nat × Nat × Nat
  k : List Nat

namespace Sha

variable (S : Sha)

def add (x y : Nat) : Nat := Nat.mod (Nat.add x y) S.mod

/-- A word twice in a row: its low bits after a shift to the right are the rotated word. The bits above them are cut off
when the result is added. -/
def twice (x : Nat) : Nat := Nat.mul x (Nat.succ S.mod)

/-- three rotations, modulo 2 ^ w -/
def rot3 (t : Nat × Nat × Nat) (x : Nat) : Nat :=
  force (S.twice x) fun x => Nat.xor (Nat.shiftRight x t.1) (Nat.xor (Nat.shiftRight x t.2.1) (Nat.shiftRight x t.2.2))

/-- two rotations and a shift, modulo 2 ^ w -/
def rot2 (t : Nat × Nat × Nat) (y : Nat) : Nat :=
  force (S.twice y) fun x => Nat.xor (Nat.shiftRight x t.1) (Nat.xor (Nat.shiftRight x t.2.1) (Nat.shiftRight y t.2.2))

/-- the working variables -/
structure Vars where
  (a b c d e f g h : Nat)

def ch (x y z : Nat) : Nat := Nat.xor z (Nat.land x (Nat.xor y z))

def maj (x y z : Nat) : Nat := Nat.lor (Nat.land x y) (Nat.land z (Nat.lor x y))

/-- the rounds, with the working variables and the next sixteen words of the message schedule -/
def rounds : List Nat → (a b c d e f g h w0 w1 w2 w3 w4 w5 w6 w7 w8 w9 w10 w11 w12 w13 w14 w15 : Nat) → Vars
  | [], a, b, c, d, e, f, g, h, _, _, _, _, _, _, _, _, _, _, _, _, _, _, _, _ => ⟨a, b, c, d, e, f, g, h⟩
  | k :: ks, a, b, c, d, e, f, g, h, w0, w1, w2, w3, w4, w5, w6, w7, w8, w9, w10, w11, w12, w13, w14, w15 =>
    force (Nat.mod (Nat.add (Nat.add (S.rot2 S.small1 w14) w9) (Nat.add (S.rot2 S.small0 w1) w0)) S.mod) fun w16 =>
    force (Nat.add (Nat.add h (S.rot3 S.bigE e)) (Nat.add (ch e f g) (Nat.add k w0))) fun t1 =>
    force (Nat.mod (Nat.add d t1) S.mod) fun e' =>
    force (Nat.mod (Nat.add t1 (Nat.add (S.rot3 S.bigA a) (maj a b c))) S.mod) fun a' =>
    rounds ks a' a b c e' e f g w1 w2 w3 w4 w5 w6 w7 w8 w9 w10 w11 w12 w13 w14 w15 w16

/-- bytes of a word -/
def wb : Nat := S.w / 8

def words : Nat → Bytes → List Nat
  | 0, _ => []
  | n + 1, b => force (ofBytes (b.take S.wb)) fun x => x :: words n (b.drop S.wb)

def sum (h v : Vars) : Vars :=
  force (S.add h.a v.a) fun a => force (S.add h.b v.b) fun b => force (S.add h.c v.c) fun c => force (S.add h.d v.d) fun d =>
  force (S.add h.e v.e) fun e => force (S.add h.f v.f) fun f => force (S.add h.g v.g) fun g => force (S.add h.h v.h) fun h =>
  ⟨a, b, c, d, e, f, g, h⟩

def block (h : Vars) (b : Bytes) : Vars :=
  match S.words 16 b with
  | [w0, w1, w2, w3, w4, w5, w6, w7, w8, w9, w10, w11, w12, w13, w14, w15] =>
    S.sum h (S.rounds S.k h.a h.b h.c h.d h.e h.f h.g h.h w0 w1 w2 w3 w4 w5 w6 w7 w8 w9 w10 w11 w12 w13 w14 w15)
  | _ => h

def blocks : Nat → Bytes → Vars → Vars
  | 0, _, h => h
  | n + 1, b, h => blocks n (b.drop (16 * S.wb)) (S.block h (b.take (16 * S.wb)))

/-- the message with its padding -/
def pad (b : Bytes) : Bytes :=
  b ++ 0x80 :: List.replicate ((32 * S.wb - (b.length + 1 + 2 * S.wb) % (16 * S.wb)) % (16 * S.wb)) 0 ++
    toBytes (2 * S.wb) (8 * b.length)

def digest (iv : Vars) (b : Bytes) : Bytes :=
  let m := S.pad b
  let v := S.blocks (m.length / (16 * S.wb)) m iv
  toBytes S.wb v.a ++ toBytes S.wb v.b ++ toBytes S.wb v.c ++ toBytes S.wb v.d ++ toBytes S.wb v.e ++ toBytes S.wb v.f ++
    toBytes S.wb v.g ++ toBytes S.wb v.h

end Sha

/-- the constants of SHA-256 -/
def k256 : List Nat := [
  0x428a2f98, 0x71374491, 0xb5c0fbcf, 0xe9b5dba5, 0x3956c25b, 0x59f111f1, 0x923f82a4, 0xab1c5ed5, 0xd807aa98,
  0x12835b01, 0x243185be, 0x550c7dc3, 0x72be5d74, 0x80deb1fe, 0x9bdc06a7, 0xc19bf174, 0xe49b69c1, 0xefbe4786,
  0x0fc19dc6, 0x240ca1cc, 0x2de92c6f, 0x4a7484aa, 0x5cb0a9dc, 0x76f988da, 0x983e5152, 0xa831c66d, 0xb00327c8,
  0xbf597fc7, 0xc6e00bf3, 0xd5a79147, 0x06ca6351, 0x14292967, 0x27b70a85, 0x2e1b2138, 0x4d2c6dfc, 0x53380d13,
  0x650a7354, 0x766a0abb, 0x81c2c92e, 0x92722c85, 0xa2bfe8a1, 0xa81a664b, 0xc24b8b70, 0xc76c51a3, 0xd192e819,
  0xd6990624, 0xf40e3585, 0x106aa070, 0x19a4c116, 0x1e376c08, 0x2748774c, 0x34b0bcb5, 0x391c0cb3, 0x4ed8aa4a,
  0x5b9cca4f, 0x682e6ff3, 0x748f82ee, 0x78a5636f, 0x84c87814, 0x8cc70208, 0x90befffa, 0xa4506ceb, 0xbef9a3f7,
  0xc67178f2]

/-- the constants of SHA-384 and SHA-512 -/
def k512 : List Nat := [
  0x428a2f98d728ae22, 0x7137449123ef65cd, 0xb5c0fbcfec4d3b2f, 0xe9b5dba58189dbbc, 0x3956c25bf348b538,
  0x59f111f1b605d019, 0x923f82a4af194f9b, 0xab1c5ed5da6d8118, 0xd807aa98a3030242, 0x12835b0145706fbe,
  0x243185be4ee4b28c, 0x550c7dc3d5ffb4e2, 0x72be5d74f27b896f, 0x80deb1fe3b1696b1, 0x9bdc06a725c71235,
  0xc19bf174cf692694, 0xe49b69c19ef14ad2, 0xefbe4786384f25e3, 0x0fc19dc68b8cd5b5, 0x240ca1cc77ac9c65,
  0x2de92c6f592b0275, 0x4a7484aa6ea6e483, 0x5cb0a9dcbd41fbd4, 0x76f988da831153b5, 0x983e5152ee66dfab,
  0xa831c66d2db43210, 0xb00327c898fb213f, 0xbf597fc7beef0ee4, 0xc6e00bf33da88fc2, 0xd5a79147930aa725,
  0x06ca6351e003826f, 0x142929670a0e6e70, 0x27b70a8546d22ffc, 0x2e1b21385c26c926, 0x4d2c6dfc5ac42aed,
  0x53380d139d95b3df, 0x650a73548baf63de, 0x766a0abb3c77b2a8, 0x81c2c92e47edaee6, 0x92722c851482353b,
  0xa2bfe8a14cf10364, 0xa81a664bbc423001, 0xc24b8b70d0f89791, 0xc76c51a30654be30, 0xd192e819d6ef5218,
  0xd69906245565a910, 0xf40e35855771202a, 0x106aa07032bbd1b8, 0x19a4c116b8d2d0c8, 0x1e376c085141ab53,
  0x2748774cdf8eeb99, 0x34b0bcb5e19b48a8, 0x391c0cb3c5c95a63, 0x4ed8aa4ae3418acb, 0x5b9cca4f7763e373,
  0x682e6ff3d6b2b8a3, 0x748f82ee5defb2fc, 0x78a5636f43172f60, 0x84c87814a1f0ab72, 0x8cc702081a6439ec,
  0x90befffa23631e28, 0xa4506cebde82bde9, 0xbef9a3f7b2c67915, 0xc67178f2e372532b, 0xca273eceea26619c,
  0xd186b8c721c0c207, 0xeada7dd6cde0eb1e, 0xf57d4f7fee6ed178, 0x06f067aa72176fba, 0x0a637dc5a2c898a6,
  0x113f9804bef90dae, 0x1b710b35131c471b, 0x28db77f523047d84, 0x32caab7b40c72493, 0x3c9ebe0a15c9bebc,
  0x431d67c49c100d4c, 0x4cc5d4becb3e42b6, 0x597f299cfc657e2a, 0x5fcb6fab3ad6faec, 0x6c44198c4a475817]

def sha256p : Sha := ⟨32, 0x100000000, (2, 13, 22), (6, 11, 25), (7, 18, 3), (17, 19, 10), k256⟩

def sha512p : Sha := ⟨64, 0x10000000000000000, (28, 34, 39), (14, 18, 41), (1, 8, 7), (19, 61, 6), k512⟩

def iv256 : Sha.Vars := ⟨
  0x6a09e667, 0xbb67ae85, 0x3c6ef372, 0xa54ff53a, 0x510e527f, 0x9b05688c, 0x1f83d9ab, 0x5be0cd19⟩

def iv384 : Sha.Vars := ⟨
  0xcbbb9d5dc1059ed8, 0x629a292a367cd507, 0x9159015a3070dd17, 0x152fecd8f70e5939, 0x67332667ffc00b31,
  0x8eb44a8768581511, 0xdb0c2e0d64f98fa7, 0x47b5481dbefa4fa4⟩

def iv512 : Sha.Vars := ⟨
  0x6a09e667f3bcc908, 0xbb67ae8584caa73b, 0x3c6ef372fe94f82b, 0xa54ff53a5f1d36f1, 0x510e527fade682d1,
  0x9b05688c2b3e6c1f, 0x1f83d9abfb41bd6b, 0x5be0cd19137e2179⟩

def sha256 (b : Bytes) : Bytes := sha256p.digest iv256 b

def sha384 (b : Bytes) : Bytes := (sha512p.digest iv384 b).take 48

def sha512 (b : Bytes) : Bytes := sha512p.digest iv512 b

example : sha256 [0x61, 0x62, 0x63] = toBytes 32 0xba7816bf8f01cfea414140de5dae2223b00361a396177a9cb410ff61f20015ad := by
  decide +kernel

theorem toBytes_length (k n : Nat) : (toBytes k n).length = k := by
  induction k with
  | zero => rfl
  | succ k ih => simp [toBytes, ih]

theorem Sha.digest_length (S : Sha) (iv : Sha.Vars) (b : Bytes) : (S.digest iv b).length = 8 * S.wb := by
  simp only [Sha.digest, List.length_append, toBytes_length]
  omega

/-! ## The hash algorithms of the suites -/

open Psa (HashAlg)

def hash : HashAlg → Bytes → Bytes
  | .sha256, b => sha256 b
  | .sha384, b => sha384 b

/-- bytes of an input block -/
def blockLen : HashAlg → Nat
  | .sha256 => 64
  | .sha384 => 128

theorem hash_length (a : HashAlg) (b : Bytes) : (hash a b).length = a.len := by
  cases a
  · exact Sha.digest_length ..
  · show ((sha512p.digest iv384 b).take 48).length = 48
    rw [List.length_take, Sha.digest_length]
    rfl

/-- the key of HMAC, as long as a block -/
def hmacKey (a : HashAlg) (k : Bytes) : Bytes :=
  let k := if blockLen a < k.length then hash a k else k
  k ++ List.replicate (blockLen a - k.length) 0

def hmac (a : HashAlg) (k m : Bytes) : Bytes :=
  let k := hmacKey a k
  hash a (k.map (· ^^^ 0x5c) ++ hash a (k.map (· ^^^ 0x36) ++ m))

def hkdfExtract (a : HashAlg) (salt ikm : Bytes) : Bytes := hmac a salt ikm

/-- the blocks T(i), T(i+1), ... after the block `t` -/
def hkdfBlocks (a : HashAlg) (prk info : Bytes) : Nat → Nat → Bytes → Bytes
  | 0, _, _ => []
  | n + 1, i, t =>
    let t := hmac a prk (t ++ info ++ [UInt8.ofNat i])
    t ++ hkdfBlocks a prk info n (i + 1) t

def hkdfExpand (a : HashAlg) (prk info : Bytes) (n : Nat) : Bytes :=
  (hkdfBlocks a prk info ((n + a.len - 1) / a.len) 1 []).take n

theorem hmac_length (a : HashAlg) (k m : Bytes) : (hmac a k m).length = a.len := hash_length ..

theorem hkdfBlocks_length (a : HashAlg) (prk info : Bytes) (n i : Nat) (t : Bytes) :
    (hkdfBlocks a prk info n i t).length = n * a.len := by
  induction n generalizing i t with
  | zero => simp [hkdfBlocks]
  | succ n ih => rw [hkdfBlocks, List.length_append, ih, hmac_length, Nat.succ_mul]; omega

theorem hkdfExpand_length (a : HashAlg) (prk info : Bytes) (n : Nat) : (hkdfExpand a prk info n).length = n := by
  rw [hkdfExpand, List.length_take, hkdfBlocks_length]
  refine Nat.min_eq_left ?_
  cases a
  · show n ≤ (n + 32 - 1) / 32 * 32
    omega
  · show n ≤ (n + 48 - 1) / 48 * 48
    omega

end Verif.Real
