import Verif.SpecCalls
import Verif.SpecTrace

/-!
# Specification: what the authentication key signs
-/

namespace Verif.Spec

open Verif

/-- how many signatures were asked for in a list of calls, whether or not the application made them -/
def signatures (L : List Ev) : Nat :=
  L.countP fun
    | .sign _ _ _ => true
    | _ => false

/-- The Responder's signature of message 2, asked for in the calls `L`: by the party's own credential `cr` and the key
`kid` that goes with it, over the Sig_structure of ID_CRED_R, TH_2, CRED_R, EAD_2 and MAC_2. TH_2 and MAC_2 were computed
in the same calls, the first with a G_Y generated in them; `th1` is H(message_1). -/
def SignsMessage2 (L : List Ev) (cid : Cid) (su : Suite) (th1 kid input : Bytes) : Prop :=
  ∃ cr y gy th2 ead mac prk, CredSupplied L cr kid ∧ KeyPairCall L y gy ∧
    HashCall L (encBstr gy ++ encBstr th1) th2 ∧ ExpandCall L prk 2 (context2 cid cr th2 ead) su.hash mac ∧
    input = sigStructure cr th2 ead mac

/-- The Initiator's signature of message 3, in the same way, over ID_CRED_I, TH_3, CRED_I, EAD_3 and MAC_3. -/
def SignsMessage3 (L : List Ev) (su : Suite) (th3 kid input : Bytes) : Prop :=
  ∃ cr ead mac prk, CredSupplied L cr kid ∧ ExpandCall L prk 6 (context3 cr th3 ead) su.hash mac ∧
    input = sigStructure cr th3 ead mac

end Verif.Spec
