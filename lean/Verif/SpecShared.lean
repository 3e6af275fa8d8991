import Verif.Spec

/-!
# Specification: several contexts in one program (C38)

The events of the log carry the arguments and the answer of each callback.
-/

namespace Verif.Spec

/-- The question an event asks: the event with its answer removed. -/
def _root_.Verif.Ev.asks : Ev → Ev
  | .alloc n _ => .alloc n false
  | .importKey t raw _ => .importKey t raw none
  | .destroyKey kid => .destroyKey kid
  | .makeKeyPair kid _ => .makeKeyPair kid none
  | .keyAgreement kid peer _ => .keyAgreement kid peer none
  | .sign kid input _ => .sign kid input none
  | .verify kid input sig _ => .verify kid input sig false
  | .extract kid salt _ => .extract kid salt none
  | .expand kid info n _ => .expand kid info n none
  | .encrypt kid iv aad ptxt _ => .encrypt kid iv aad ptxt none
  | .decrypt kid iv aad ctxt _ => .decrypt kid iv aad ctxt none
  | .hash input _ => .hash input none
  | .eadCompose m _ => .eadCompose m none
  | .eadProcess m toks _ => .eadProcess m toks false
  | .credFetch _ => .credFetch none
  | .credVerify c _ => .credVerify c none

/-- Two logs part at a callback that was asked the same and answered differently. -/
def Fork (l l' : List Ev) : Prop :=
  ∃ pre e e' q q', l = pre ++ e :: q ∧ l' = pre ++ e' :: q' ∧ e ≠ e' ∧ e.asks = e'.asks

/-- A program with contexts `ι`: the contexts, the state of the application they share, and what each has asked it. -/
structure World (ι σ : Type) where
  ctx : ι → Ctx
  env : σ
  log : ι → List Ev

variable {ι σ : Type}

/-- the state a call on context `i` works on -/
def World.at (w : World ι σ) (i : ι) : St σ := ⟨w.ctx i, w.env, w.log i⟩

/-- the world after a call on context `i` ended in state `s` -/
def World.put [DecidableEq ι] (w : World ι σ) (i : ι) (s : St σ) : World ι σ :=
  ⟨fun j => if j = i then s.ctx else w.ctx j, s.env, fun j => if j = i then s.log else w.log j⟩

/-- Calls on several contexts, in any order; each context has its own callbacks, on a common state. -/
inductive Program [DecidableEq ι] (E : ι → Env σ) (cfg : Config) : World ι σ → List (ι × Op × Res Out) → World ι σ → Prop
  | nil (w) : Program E cfg w [] w
  | cons {w w2 i o r s h} : step (E i) cfg o (w.at i) = (r, s) → (∀ u, r ≠ .ub u) → Program E cfg (w.put i s) h w2 →
      Program E cfg w ((i, o, r) :: h) w2

/-- the calls on context `i` -/
def callsOn [DecidableEq ι] (i : ι) (h : List (ι × Op × Res Out)) : History :=
  h.filterMap fun x => if x.1 = i then some x.2 else none

end Verif.Spec
