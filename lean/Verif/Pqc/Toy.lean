import Verif.Pqc.Keys
import Verif.Suite.Toy

/-!
# Post-quantum algorithms for examples

Not secure, but lawful.
-/

namespace Verif.Pqc.Toy

open Psa (Store)
open Psa.Toy (stretch stretch_length)
open Spec.Pqc

/-- toy algorithms -/
def pq : PqAlgs where
  kemPair r := (List.replicate 800 (r.getD 0 0), List.replicate 1632 (r.getD 0 0))
  kemEncaps ek r := (List.replicate 768 (r.getD 0 0), List.replicate 32 (ek.getD 0 0 + r.getD 0 0))
  kemDecaps dk ct := List.replicate 32 (dk.getD 0 0 + ct.getD 0 0)
  dsaSign sk m r := r.take 1 ++ stretch (2420 - (r.take 1).length) (sk.take 1 ++ m)
  dsaVerify pk m sig := sig.drop 1 == stretch 2419 (pk.take 1 ++ m)
  shake256 b n := stretch n b
  kmac256 k i n c := stretch (n / 8) (k.1 ++ i.1 ++ c.1)

theorem first (n : Nat) (hn : 0 < n) (a : UInt8) : (List.replicate n a).getD 0 0 = a := by
  cases n with
  | zero => cases hn
  | succ n => rfl

theorem pq_laws : Laws pq where
  ek _ := List.length_replicate (n := 800)
  dk _ := List.length_replicate (n := 1632)
  ct _ _ := List.length_replicate (n := 768)
  ss _ _ := List.length_replicate (n := 32)
  ss' _ _ := List.length_replicate (n := 32)
  inverse r r' := by
    simp only [pq]
    rw [first 1632 (by decide), first 768 (by decide), first 800 (by decide)]
  sig sk m r := by
    simp only [pq, List.length_append, stretch_length]
    have : (r.take 1).length ≤ 1 := List.length_take_le 1 r
    omega
  shake b n := stretch_length n b
  kmac k i n c := by
    simp only [pq, stretch_length]
    omega

/-- PSA without keys; calls after the hundredth fail -/
def psa : Store where
  keys := []
  slots := 8
  clock := 0
  fault n := decide (100 ≤ n)
  rand n := [UInt8.ofNat (n + 5), 1, 2, 3]

/-- before -/
def start : State := .start psa

/-- an imported key -/
def imported (t : KeyType) (raw : Bytes) : State := (call Psa.Toy.algs pq (.importKey t raw) start).2

theorem imported_ok {t : KeyType} {raw : Bytes} (h : (call Psa.Toy.algs pq (.importKey t raw) start).1 = .ok (.handle 0x40000000)) :
    call Psa.Toy.algs pq (.importKey t raw) start = (.ok (.handle 0x40000000), imported t raw) := Prod.ext h rfl

instance (s : State) (k : Nat) : Decidable (works s k) :=
  inferInstanceAs (Decidable (∀ i < k, s.psa.fault (s.psa.clock + i) = false))

/-- a history that leaves the first imported key in place -/
def later : List Act := [.call (.hash [1, 2] 64), .call (.importKey .expand [9]), .call (.importKey .makeKeyPair []),
  .call (.makeKeyPair 0x3FFFFFFE 1632 800), .call (.destroyKey 0x40000001), .call (.destroyKey 0x3FFFFFFE)]

theorem later_stays (s : State) : Stays 0x40000000 s later := by
  intro a ha
  simp only [later, List.mem_cons, List.not_mem_nil, or_false] at ha
  rcases ha with rfl | rfl | rfl | rfl | rfl | rfl <;> first | trivial | (show _ ≠ _; decide)

/-- a history with both handles of key pairs in use -/
def busy : List Act := [.call (.importKey .makeKeyPair []), .call (.makeKeyPair 0x3FFFFFFE 1632 800),
  .call (.importKey .makeKeyPair []), .call (.makeKeyPair 0x3FFFFFFF 1632 800), .call (.destroyKey 0x3FFFFFFE),
  .call (.importKey .makeKeyPair []), .call (.makeKeyPair 0x3FFFFFFE 2000 2000)]

/-- the states of the handles, after a history -/
def known (as : List Act) : List KeyState := reserved.map (keyState (run Psa.Toy.algs pq as start).1)

end Verif.Pqc.Toy
