import Verif.Spec

/-!
# Specification: how much work a call makes
-/

namespace Verif.Spec

open Verif

/-- Numbers of calls to the application: public-key operations (key pairs, key agreements, signatures and their
verification), symmetric operations (hash, Extract, Expand, AEAD), imports and destructions of keys, calls to the
credential and EAD callbacks, and requests for memory. -/
structure Work where
  publicKey : Nat
  symmetric : Nat
  keys : Nat
  application : Nat
  memory : Nat
  deriving DecidableEq, Repr

namespace Work

instance : Zero Work := ⟨⟨0, 0, 0, 0, 0⟩⟩

instance : Add Work := ⟨fun a b => ⟨a.publicKey + b.publicKey, a.symmetric + b.symmetric, a.keys + b.keys,
  a.application + b.application, a.memory + b.memory⟩⟩

instance : LE Work := ⟨fun a b => a.publicKey ≤ b.publicKey ∧ a.symmetric ≤ b.symmetric ∧ a.keys ≤ b.keys ∧
  a.application ≤ b.application ∧ a.memory ≤ b.memory⟩

instance (a b : Work) : Decidable (a ≤ b) := inferInstanceAs (Decidable (_ ∧ _))

end Work

/-- one call -/
def workOf : Ev → Work
  | .makeKeyPair _ _ | .keyAgreement _ _ _ | .sign _ _ _ | .verify _ _ _ _ => ⟨1, 0, 0, 0, 0⟩
  | .hash _ _ | .extract _ _ _ | .expand _ _ _ _ | .encrypt _ _ _ _ _ | .decrypt _ _ _ _ _ => ⟨0, 1, 0, 0, 0⟩
  | .importKey _ _ _ | .destroyKey _ => ⟨0, 0, 1, 0, 0⟩
  | .eadCompose _ _ | .eadProcess _ _ _ | .credFetch _ | .credVerify _ _ => ⟨0, 0, 0, 1, 0⟩
  | .alloc _ _ => ⟨0, 0, 0, 0, 1⟩

/-- all calls of a list -/
def work : List Ev → Work
  | [] => 0
  | v :: l => workOf v + work l

/-- What an API call makes at most, however long the received message is and whatever it contains. -/
def budget : Op → Work
  | .compose1 _ => ⟨1, 1, 2, 1, 1⟩
  | .process1 _ => ⟨0, 1, 0, 1, 0⟩
  | .compose2 _ => ⟨3, 7, 14, 2, 14⟩
  | .process2 _ => ⟨2, 7, 14, 2, 11⟩
  | .compose3 _ => ⟨1, 7, 12, 2, 14⟩
  | .process3 _ => ⟨1, 7, 14, 2, 12⟩
  | .compose4 _ => ⟨0, 3, 6, 1, 6⟩
  | .process4 _ => ⟨0, 3, 6, 1, 5⟩
  | .exportSecret _ _ => ⟨0, 3, 6, 0, 4⟩
  | .keyUpdate _ => ⟨0, 2, 4, 0, 2⟩
  | .exportOscore _ _ _ _ => ⟨0, 6, 12, 0, 8⟩
  | _ => 0

/-- what the message calls of a session make at most, all together -/
def handshakeBudget : Work := ⟨4, 18, 34, 6, 32⟩

/-- what the other calls of a history make at most: exports and key updates -/
def otherBudget (h : History) : Work :=
  (h.map fun p => if callOf p.1 = none then budget p.1 else 0).foldr (· + ·) 0

end Verif.Spec
