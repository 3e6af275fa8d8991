import Verif.Real.Curve

/-!
# P-256 and P-384: Diffie-Hellman and ECDSA (SEC 1)

Not a model of code in the repository: the standards' algorithms, to instantiate `Psa.Algs`.
-/

namespace Verif.Real

open Psa (Curve p256 p384)

/-- a curve with its base point and the order of this point -/
structure Nist where
  c : Curve
  n : Nat
  gx : Nat
  gy : Nat

namespace Nist

variable (N : Nist)

def w : Weier := ⟨N.c.p, 0, N.c.p - 3, N.c.b⟩

def g : Pt := some (N.gx, N.gy)

def bits : Nat := 8 * N.c.len

/-- the uncompressed form -/
def encode : Pt → Bytes
  | none => [0]
  | some (x, y) => 4 :: (beBytes N.c.len x ++ beBytes N.c.len y)

/-- the point with an uncompressed form -/
def decode : Bytes → Pt
  | [] => none
  | t :: r =>
    if t = 4 ∧ r.length = 2 * N.c.len then
      force (ofBytes (r.take N.c.len)) fun x => force (ofBytes (r.drop N.c.len)) fun y =>
      if N.w.on x y then some (x, y) else none
    else none

/-- is this a private key: between 1 and the order? -/
def isPriv (x : Bytes) : Bool := x.length == N.c.len && decide (0 < ofBytes x) && decide (ofBytes x < N.n)

/-- the public key -/
def pub (x : Bytes) : Bytes := force (ofBytes x) fun d => N.encode (N.w.mul N.bits N.g d)

/-- the x-coordinate, as bytes; zero for the point at infinity -/
def xOf : Pt → Bytes
  | none => beBytes N.c.len 0
  | some (x, _) => beBytes N.c.len x

def ecdh (x b : Bytes) : Bytes := force (ofBytes x) fun d => N.xOf (N.w.mul N.bits (N.decode b) d)

/-- a signature of `e` with the private key `d` and the ephemeral key `k`, unless a part of it is zero -/
def signWith (d e k : Nat) : Option (Nat × Nat) :=
  match N.w.mul N.bits N.g k with
  | none => none
  | some (x, _) =>
    force (x % N.n) fun r => force (inv N.n k * (e + r * d) % N.n) fun s => if r = 0 ∨ s = 0 then none else some (r, s)

/-- A signature. The ephemeral key is taken from the random bytes; should a part of the signature be zero, it is tried again
with 1 and then with 2. -/
def sign (x digest rand : Bytes) : Bytes :=
  force (ofBytes x) fun d => force (ofBytes digest) fun e => force (ofBytes rand % (N.n - 1) + 1) fun k =>
  match (N.signWith d e k).orElse fun _ => (N.signWith d e 1).orElse fun _ => N.signWith d e 2 with
  | some (r, s) => beBytes N.c.len r ++ beBytes N.c.len s
  | none => []

def verify (pk digest sig : Bytes) : Bool :=
  match N.decode pk with
  | none => false
  | some q =>
    force (ofBytes digest) fun e =>
    force (ofBytes (sig.take N.c.len)) fun r => force (ofBytes (sig.drop N.c.len)) fun s =>
    if sig.length = 2 * N.c.len ∧ 0 < r ∧ r < N.n ∧ 0 < s ∧ s < N.n then
      force (inv N.n s) fun v =>
      match N.w.add (N.w.mul N.bits N.g (e * v % N.n)) (N.w.mul N.bits (some q) (r * v % N.n)) with
      | none => false
      | some (x, _) => x % N.n == r
    else false

end Nist

/-- FIPS 186-4, D.1.2.3 -/
def nist256 : Nist where
  c := p256
  n := 0xFFFFFFFF00000000FFFFFFFFFFFFFFFFBCE6FAADA7179E84F3B9CAC2FC632551
  gx := 0x6B17D1F2E12C4247F8BCE6E563A440F277037D812DEB33A0F4A13945D898C296
  gy := 0x4FE342E2FE1A7F9B8EE7EB4A7C0F9E162BCE33576B315ECECBB6406837BF51F5

/-- FIPS 186-4, D.1.2.4 -/
def nist384 : Nist where
  c := p384
  n := 0xFFFFFFFFFFFFFFFFFFFFFFFFFFFFFFFFFFFFFFFFFFFFFFFFC7634D81F4372DDF581A0DB248B0A77AECEC196ACCC52973
  gx := 0xAA87CA22BE8B05378EB1C71EF320AD746E1D3B628BA79B9859F741E082542A385502F25DBF55296C3A545E3872760AB7
  gy := 0x3617DE4A96262C6F5D9E98BF9292DC29F8F41DBD289A147CE9DA3113B5F0B8C00A60B1CE1D7E819D7A431D7C90EA0E5F

/-- the curve with a given size in bits -/
def nistOf (bits : Nat) : Nist := if bits = 384 then nist384 else nist256

/-- RFC 6979, A.2.5: private and public key, and the signature of "sample" with SHA-256 -/
example :
    nist256.pub (toBytes 32 0xC9AFA9D845BA75166B5C215767B1D6934E50C3DB36E89B127B8A622B120F6721) =
      4 :: toBytes 32 0x60FED4BA255A9D31C961EB74C6356D68C049B8923B61FA6CE669622E60F29FB6 ++
        toBytes 32 0x7903FE1008B8BC99A41AE9E95628BC64F2F1B20C2D7E9F5177A3C294D4462299 ∧
    nist256.sign (toBytes 32 0xC9AFA9D845BA75166B5C215767B1D6934E50C3DB36E89B127B8A622B120F6721)
      (sha256 [0x73, 0x61, 0x6d, 0x70, 0x6c, 0x65]) (toBytes 32 (0xA6E3C57DD01ABE90086538398355DD4C3B17AA873382B0F24D6129493D8AAD60 - 1)) =
      toBytes 32 0xEFD48B2AACB6A8FD1140DD9CD45E81D69D2C877B56AAF991C34D0EA84EAF3716 ++
      toBytes 32 0xF7CB1C942D657C41D436C7A1B6E29F65F3E900DBB9AFF4064DC4AB2F843ACDA8 ∧
    nist256.verify (4 :: toBytes 32 0x60FED4BA255A9D31C961EB74C6356D68C049B8923B61FA6CE669622E60F29FB6 ++
        toBytes 32 0x7903FE1008B8BC99A41AE9E95628BC64F2F1B20C2D7E9F5177A3C294D4462299)
      (sha256 [0x73, 0x61, 0x6d, 0x70, 0x6c, 0x65])
      (toBytes 32 0xEFD48B2AACB6A8FD1140DD9CD45E81D69D2C877B56AAF991C34D0EA84EAF3716 ++
      toBytes 32 0xF7CB1C942D657C41D436C7A1B6E29F65F3E900DBB9AFF4064DC4AB2F843ACDA8) = true := by decide +kernel

end Verif.Real
