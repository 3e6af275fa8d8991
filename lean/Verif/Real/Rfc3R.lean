import Verif.Real.Rfc3
import Verif.Real.Rfc3I

/-!
# RFC 9529, chapter 3: the Responder

One trace per module, to bound memory; each module imports the one before.
-/

namespace Verif.Real.Rfc3

/-- The Responder's calls give the messages and secrets of the RFC. -/
example : results envR (store skR ephR, ()) opsR = expectedR := by decide +kernel

end Verif.Real.Rfc3
