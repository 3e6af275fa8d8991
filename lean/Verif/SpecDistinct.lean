import Verif.SpecKeyShare

/-!
# Specification: everything a session exports
-/

namespace Verif.Spec

open Verif

/-- After the calls `h`, which complete the handshake, the session `N` exported `out`, of `n` bytes: with
`edhoc_export_prk_exporter`, or as the OSCORE master secret (label 0) or master salt (label 1). -/
def ExportsValue (N : Node) (h : History) (label n : Nat) (out : Bytes) : Prop :=
  ExportsKey N h label n out ∨
    (complete h ∧ n < 2 ^ 32 ∧ label = 1 ∧
      ∃ t a c d o, N.hist = h ++ (.exportOscore a n c d, .ok (.oscore o)) :: t ∧ a < 2 ^ 32 ∧ o.salt = out)

end Verif.Spec
