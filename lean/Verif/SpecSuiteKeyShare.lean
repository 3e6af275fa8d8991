import Verif.SpecSuiteNetwork
import Verif.SpecKeyShare

/-!
# Specification: which sessions with a shipped cipher suite can have the same key
-/

namespace Verif.Spec

open Verif Psa

/-- `n` bytes were derived from the key `p` with the info `x` -/
def Derived (L : List Ev) (p x : Bytes) (n : Nat) : Prop :=
  ∃ kid o, Made [.importKey .expand p (some kid), .expand kid x n (some o)] L

/-- Sessions `W` with the shipped cipher suite `q` on a network the attacker controls. Nothing is assumed about peers,
long-term keys and messages. What the attacker cannot do:

* `noCollision`: find two inputs with the same hash, among what is hashed in the sessions;
* `noExpand`: find two keys or infos from which HKDF-Expand derives the same `b` bytes or more, among those used in the
  sessions;
* `fresh`: make two sessions generate the same ephemeral key. -/
structure SuiteSessions (A : Algs) (q : Params) {ι : Type} (b : Nat) (W : ι → Site) : Prop where
  good : ∀ i, (W i).Good A q
  suite : ∀ i, ((W i).node A q).suite = q.table
  long : b ≤ q.hashLen
  noCollision : ∀ {i j x y o p}, HashCall ((W i).node A q).calls x o → HashCall ((W j).node A q).calls y p →
    A.hash q.hash x = A.hash q.hash y → x = y
  noExpand : ∀ {i j p x r y n}, Derived ((W i).node A q).calls p x n → Derived ((W j).node A q).calls r y n → b ≤ n →
    A.hkdfExpand q.hash p x n = A.hkdfExpand q.hash r y n → p = r ∧ x = y
  fresh : ∀ {i j x y g}, KeyPairCall ((W i).node A q).calls x g → KeyPairCall ((W j).node A q).calls y g → i = j

end Verif.Spec
