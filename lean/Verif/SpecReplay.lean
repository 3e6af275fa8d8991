import Verif.SpecMatching
import Verif.SpecOneKey

/-!
# Specification: recorded messages
-/

namespace Verif.Spec

open Verif

/-- the call with which a session accepts message 2, 3 or 4 -/
def accepts : Nat → Bytes → Op
  | 2, m => .process2 m
  | 3, m => .process3 m
  | _, m => .process4 m

/-- the session accepted `m` as message `n` -/
def Accepts (N : Node) (n : Nat) (m : Bytes) : Prop := (accepts n m, .ok .unit) ∈ N.hist

/-- Sessions on a network the attacker controls, who cannot encrypt with a K_3 or K_4 of a session that has accepted an
honest key (`Sealed3`, `Sealed`), and where encryptions with different keys have different ciphertexts. -/
structure Recorded {ι : Type} (b : Nat) (W : ι → Node) (honest : Bytes → Prop) : Prop extends Sessions b W where
  sealed3 : Sealed3 W honest
  sealed4 : Sealed W honest
  apart : ∀ {i j k iv aad pt k' iv' aad' pt' ct}, EncryptCall (W i).calls k iv aad pt ct →
    EncryptCall (W j).calls k' iv' aad' pt' ct → k = k'

end Verif.Spec
