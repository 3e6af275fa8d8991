import Verif.Residue
import Verif.SpecCalls

/-!
# Specification: histories of an application whose failed callbacks write to their output
-/

namespace Verif.Spec

open Verif

variable {σ : Type}

/-- The history `h` leads from `s` to `s'` when failed callbacks leave `w`: no call had undefined behaviour. -/
inductive RunW (E : Env σ) (cfg : Config) (w : Residue σ) : St σ → History → St σ → Prop
  | nil (s : St σ) : RunW E cfg w s [] s
  | cons {s s1 s2 : St σ} {o : Op} {r : Res Out} {h : History} :
      stepW E cfg w o s = (r, s1) → (∀ u, r ≠ .ub u) → RunW E cfg w s1 h s2 →
      RunW E cfg w s ((o, r) :: h) s2

/-- `h` is such a history since the last initialisation. -/
def SessionW (E : Env σ) (cfg : Config) (w : Residue σ) (e : σ) (log : List Ev) (h : History) (s' : St σ) : Prop :=
  RunW E cfg w ⟨Ctx.fresh, e, log⟩ h s' ∧ ∀ p ∈ h, restarts p.1 = false

/-- An expansion to PRK_out (label 7) or to the PRK_out of the next key epoch (label 11) failed: the two
derivations whose output replaces their key. -/
def FailedInPlace (L : List Ev) : Prop :=
  ∃ kid context hash n label, (label = 7 ∨ label = 11) ∧ Ev.expand kid (info label context hash) n none ∈ L

end Verif.Spec
