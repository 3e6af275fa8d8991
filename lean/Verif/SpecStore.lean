import Verif.SpecSuiteAnswers
import Verif.SpecShared

/-!
# Specification: what stays in the key store
-/

namespace Verif.Spec

open Verif Psa

/-- The application's own callbacks do not use the key store. -/
structure Apart {τ : Type} (X : Psa.App τ) : Prop where
  alloc : ∀ w n, (X.alloc w n).2.1 = w.1
  eadCompose : ∀ w m, (X.eadCompose w m).2.1 = w.1
  eadProcess : ∀ w m ts, (X.eadProcess w m ts).2.1 = w.1
  credFetch : ∀ w, (X.credFetch w).2.1 = w.1
  credVerify : ∀ w c, (X.credVerify w c).2.1 = w.1

/-- From now on PSA does not fail for a reason outside of the model. -/
def Reliable (s : Store) : Prop := ∀ n, s.clock ≤ n → s.fault n = false

/-- There is the same key, or none, behind every identifier; nothing else changed but the time. -/
structure SameStore (s s' : Store) : Prop where
  keys : ∀ i, i < 2 ^ 32 → s'.find i = s.find i
  slots : s'.slots = s.slots
  fault : s'.fault = s.fault
  rand : s'.rand = s.rand
  clock : s.clock ≤ s'.clock

/-- The application's own callbacks keep the application in order, whatever they are asked. -/
structure Retains {τ : Type} (X : Psa.App τ) (J : τ → Prop) : Prop where
  alloc : ∀ w n, J w.2 → J (X.alloc w n).2.2
  eadCompose : ∀ w m, J w.2 → J (X.eadCompose w m).2.2
  eadProcess : ∀ w m ts, J w.2 → J (X.eadProcess w m ts).2.2
  credFetch : ∀ w, J w.2 → J (X.credFetch w).2.2
  credVerify : ∀ w c, J w.2 → J (X.credVerify w c).2.2

/-- Working memory never runs out: buffers are on the stack, or the allocator does not fail. -/
def NeverOut {τ : Type} (cfg : Config) (X : Psa.App τ) : Prop := cfg.backend = .stack ∨ ∀ w n, (X.alloc w n).1 = true

end Verif.Spec
