import Verif.SpecAgreement

/-!
# Specification: what an application asked for

The methods and cipher suites an application configured, read off the calls it made.
-/

namespace Verif.Spec

open Verif

/-- the methods given to a successful call of `edhoc_set_methods` -/
def givenMethods : Op × Res Out → Option (List Nat)
  | (.setMethods l, .ok _) => some l
  | _ => none

/-- the cipher suites given to a successful call of `edhoc_set_cipher_suites` -/
def givenSuites : Op × Res Out → Option (List Suite)
  | (.setSuites l, .ok _) => some l
  | _ => none

/-- The methods the application configured: those of the last successful call. -/
def wantedMethods (h : History) : List Nat := ((h.filterMap givenMethods).getLast?).getD []

/-- The cipher suites the application configured, the most preferred one last. -/
def wantedSuites (h : History) : List Suite := ((h.filterMap givenSuites).getLast?).getD []

/-- What the two applications of a handshake wanted, `hI` the calls of the Initiator's and `hR` of the Responder's, is
what they got: the method is the first one the Initiator configured (method 0, if it configured none), and the Responder
configured it; and the cipher suite is the one both prefer to all others they configured. -/
structure NoDowngrade (hI hR : History) (method : Nat) (suite : Int) : Prop where
  first : method = (wantedMethods hI).headD 0
  allowed : method ∈ wantedMethods hR
  preferredI : ((wantedSuites hI).map Suite.value).getLast? = some suite
  preferredR : ((wantedSuites hR).map Suite.value).getLast? = some suite

end Verif.Spec
