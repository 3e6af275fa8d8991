import Verif.Real.Rfc2
import Verif.Real.Rfc2I

/-!
# RFC 9529, chapter 2: the Responder

One trace per module, to bound memory; each module imports the one before.
-/

namespace Verif.Real.Rfc2

/-- The Responder's calls give the messages and secrets of the RFC. -/
example : results envR (store skR ephR, ()) opsR = expectedR := by decide +kernel

end Verif.Real.Rfc2
