/-
Specification for C84: the life of a context.
-/
import Verif.Spec

namespace Verif.Spec

/-- A context with nothing in it: all zero, but for the marks that a refused message call leaves (the session
is aborted, which message it was about, the role, the protocol error code). -/
def Blank (c : Ctx) : Prop :=
  ∃ status message role code, (status = .start ∨ status = .aborted) ∧
    c = { Ctx.zero with status := status, message := message, role := role, errorCode := code }

/-- The call was refused for the state of the context or for its arguments. -/
def refusal (r : Res Out) : Prop := r = .err .badState ∨ r = .err .invalidArgument

end Verif.Spec
