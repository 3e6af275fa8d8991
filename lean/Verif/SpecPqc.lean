import Verif.Pqc.Impl

/-!
# Specification of the post-quantum suite

What the theorems about the experimental post-quantum suite refer to: the laws of the algorithms, the two reserved key handles, and
which private key belongs to a handle, read off a history of calls and results.
-/

namespace Verif.Spec.Pqc

open Verif.Pqc (PqAlgs Call Out State Act)

/-- ML-KEM-512, ML-DSA-44, SHAKE256 and KMAC256: the lengths of FIPS 203 and FIPS 204, and decapsulation is the inverse of
encapsulation. (ML-KEM fails with probability below 2^-138; here it does not fail.) -/
structure Laws (B : PqAlgs) : Prop where
  ek : ∀ r, (B.kemPair r).1.length = 800
  dk : ∀ r, (B.kemPair r).2.length = 1632
  ct : ∀ ek r, (B.kemEncaps ek r).1.length = 768
  ss : ∀ ek r, (B.kemEncaps ek r).2.length = 32
  ss' : ∀ dk ct, (B.kemDecaps dk ct).length = 32
  inverse : ∀ r r', B.kemDecaps (B.kemPair r).2 (B.kemEncaps (B.kemPair r).1 r').1 = (B.kemEncaps (B.kemPair r).1 r').2
  sig : ∀ sk m r, (B.dsaSign sk m r).length = 2420
  shake : ∀ b n, (B.shake256 b n).length = n
  kmac : ∀ k i n c, (B.kmac256 k i (8 * n) c).length = n

/-- RFC 9528, 4.1: KMAC256(K, X, 8 * L, ""). -/
def kmac (B : PqAlgs) (key input : Bytes) (n : Nat) : Bytes := B.kmac256 (key, 8 * key.length) (input, 8 * input.length) (8 * n) ([], 0)

/-- the handles of key pairs -/
def reserved : List Nat := [0x3FFFFFFE, 0x3FFFFFFF]

/-- What a program knows about a handle of a key pair. -/
inductive KeyState
  /-- not given out, or destroyed -/
  | absent
  /-- given out, no key pair yet -/
  | empty
  /-- with the private key of the last key pair -/
  | holds (dk : Bytes)
  deriving DecidableEq, Repr

/-- the effect of a call and its result on the handle `h` -/
def note (h : Nat) (k : KeyState) : Call × Res Out → KeyState
  | (.importKey .makeKeyPair _, .ok (.handle i)) => if i = h then .empty else k
  | (.destroyKey i, _) => if i = h then .absent else k
  | (.makeKeyPair i _ _, .ok (.pair dk _)) => if i = h then .holds dk else k
  | _ => k

/-- the handle `h` after a history -/
def keyState (tr : List (Call × Res Out)) (h : Nat) : KeyState := tr.foldl (note h) .absent

/-- `n` bytes that are zero -/
def zeros (n : Nat) : Bytes := List.replicate n 0

/-- The static memory of a handle: zero if it is not in use, and else nothing but its private key. -/
def memory : KeyState → Verif.Pqc.Slot
  | .absent => ⟨false, .makeKeyPair, zeros 2560, 0⟩
  | .empty => ⟨true, .makeKeyPair, zeros 2560, 0⟩
  | .holds dk => ⟨true, .makeKeyPair, dk ++ zeros (2560 - 1632), 1632⟩

/-- The key with the handle `h` stays in place: the suite is not asked to destroy it, and other uses of PSA leave it as it is
in `s`. -/
def Stays (h : Nat) (s : State) (as : List Act) : Prop :=
  ∀ a ∈ as, match a with
    | .call (.destroyKey i) => i ≠ h
    | .other p => p.find h = s.psa.find h
    | _ => True

/-- The next `k` calls to the libraries below do not fail for a reason outside the model. -/
def works (s : State) (k : Nat) : Prop := ∀ i < k, s.psa.fault (s.psa.clock + i) = false

/-- the lengths of the keys for each use -/
def properLen : KeyType → Nat → Prop
  | .makeKeyPair, _ => True
  | .keyAgreement, n => n = 1632
  | .signature, n => n = 2560
  | .verify, n => n = 1312
  | .extract, n => 0 < n ∧ n ≤ 256
  | .expand, n => n = 64
  | .encrypt, n => n = 16
  | .decrypt, n => n = 16

/-- the use of a key by a call -/
def use : Call → Option (KeyType × Nat)
  | .makeKeyPair h _ _ => some (.makeKeyPair, h)
  | .decapsulate h _ _ => some (.keyAgreement, h)
  | .sign h _ _ => some (.signature, h)
  | .verify h _ _ => some (.verify, h)
  | .extract h _ _ => some (.extract, h)
  | .expand h _ _ => some (.expand, h)
  | .encrypt h _ _ _ _ => some (.encrypt, h)
  | .decrypt h _ _ _ _ => some (.decrypt, h)
  | _ => none

/-- does a result fit into the buffers of the call? -/
def fits : Call → Out → Prop
  | .makeKeyPair _ n m, .pair a b => a.length ≤ n ∧ b.length ≤ m
  | .encapsulate _ n m, .pair a b => a.length ≤ n ∧ b.length ≤ m
  | .decapsulate _ _ n, .bytes b => b.length ≤ n
  | .sign _ _ n, .bytes b => b.length ≤ n
  | .extract _ _ n, .bytes b => b.length ≤ n
  | .expand _ _ n, .bytes b => b.length = n
  | .hash _ n, .bytes b => b.length ≤ n
  | .encrypt _ _ _ p n, .bytes _ => p.length + 16 ≤ n
  | .decrypt _ _ _ c n, .bytes _ => c.length ≤ n + 16
  | .importKey _ _, .handle _ => True
  | .destroyKey _, .done => True
  | .verify _ _ _, .done => True
  | _, _ => False

end Verif.Spec.Pqc
