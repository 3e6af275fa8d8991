import Verif.SpecCalls

/-!
# Specification: who the application is

The application's identity reaches the library through two callbacks: the one that returns its own credential, and the
one that signs with its private key.
-/

namespace Verif.Spec

open Verif

variable {σ : Type}

/-- The same application with another identity: another credential and another signature key. Everything else is as
before, also what the callbacks keep in the application's state. -/
def Env.as (E : Env σ) (own : σ → Option (Cred × Bytes) × σ) (sign : σ → Bytes → Bytes → Option Bytes × σ) : Env σ :=
  { E with credFetch := own, sign := sign }

/-- The library asks the application who it is, or has it sign. -/
def Reveals : Ev → Prop
  | .credFetch _ | .sign _ _ _ => True
  | _ => False

end Verif.Spec
