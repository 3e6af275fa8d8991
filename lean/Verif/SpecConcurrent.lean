import Verif.SpecHonest
import Verif.SpecShared

/-!
# Specification: handshakes that run at the same time (C92)
-/

namespace Verif.Spec

open Verif

variable {ι σ : Type}

/-- Whatever is called on whichever context, the state `I` the application is in stays. -/
def Steady (E : ι → Env σ) (cfg : Config) (I : σ → Prop) : Prop :=
  ∀ i o s r s', I s.env → step (E i) cfg o s = (r, s') → (∀ u, r ≠ .ub u) → I s'.env

/-- The messages that were composed, if any, are `m1`, `m2`, `m3` and `m4`. -/
structure Relay (hI hR : History) (m1 m2 m3 m4 : Bytes) : Prop where
  message1 : ∀ n m, (.compose1 n, .ok (.bytes m)) ∈ hI → m = m1
  message2 : ∀ n m, (.compose2 n, .ok (.bytes m)) ∈ hR → m = m2
  message3 : ∀ n m, (.compose3 n, .ok (.bytes m)) ∈ hI → m = m3
  message4 : ∀ n m, (.compose4 n, .ok (.bytes m)) ∈ hR → m = m4

/-- The functions called, in order. -/
def called (h : History) : List Op := h.map Prod.fst

end Verif.Spec
