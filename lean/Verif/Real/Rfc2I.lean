import Verif.Real.Rfc2

/-!
# RFC 9529, chapter 2: the Initiator

One trace per module, to bound memory; each module imports the one before.
-/

namespace Verif.Real.Rfc2

/-- The Initiator's calls give the messages and secrets of the RFC. -/
example : results envI (store skI ephI, ()) opsI = expectedI := by decide +kernel

end Verif.Real.Rfc2
