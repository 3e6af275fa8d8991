import Verif.Spec

/-!
# Specification: calls that differ in the size of the caller's buffer
-/

namespace Verif.Spec

open Verif

/-- The calls that write a message into a buffer of the caller, as functions of the buffer's size. -/
def composes : List (Nat → Op) := [.compose1, .compose2, .compose3, .compose4]

/-- The same call with the same arguments, except for the size of the buffers for messages and for the OSCORE
identifiers. -/
inductive Resized : Op → Op → Prop
  | same (o : Op) : Resized o o
  | compose {f : Nat → Op} (n m : Nat) : f ∈ composes → Resized (f n) (f m)
  | oscore (a b c d c' d' : Nat) : Resized (.exportOscore a b c d) (.exportOscore a b c' d')

/-- the same calls up to the sizes of buffers -/
inductive ResizedAll : List Op → List Op → Prop
  | nil : ResizedAll [] []
  | cons {o o' : Op} {l l' : List Op} : Resized o o' → ResizedAll l l' → ResizedAll (o :: l) (o' :: l')

end Verif.Spec
