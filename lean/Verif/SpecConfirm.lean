import Verif.SpecAgreement

/-!
# Specification: what message 4 confirms

Message 4 tells the Initiator that the Responder has accepted message 3.
-/

namespace Verif.Spec

open Verif

/-- What a complete handshake establishes. `ptxt2Cred` is PLAINTEXT_2 followed by CRED_R, `cr` the C_R it begins with,
`ptxt3Cred` is PLAINTEXT_3 followed by CRED_I; `idCred` and `cred` are ID_CRED_R and CRED_R. -/
structure Data4 where
  method : Nat
  suite : Int
  m1 : Bytes
  gx : Bytes
  gy : Bytes
  th1 : Bytes
  th2 : Bytes
  th3 : Bytes
  th4 : Bytes
  cr : Cid
  ptxt2Cred : Bytes
  ptxt3Cred : Bytes
  idCred : Bytes
  cred : Bytes

/-- What both sides have in common; the contexts hold TH_4. -/
structure Shares4 (N : Node) (d : Data4) : Prop where
  method : N.method = d.method
  suite : N.suite.value = d.suite
  message1 : ∃ l, StartsMessage1 d.method l d.gx d.m1 ∧ selectedSuite l = some d.suite
  th1 : HashCall N.calls d.m1 d.th1
  th2 : HashCall N.calls (encBstr d.gy ++ encBstr d.th1) d.th2
  th3 : HashCall N.calls (encBstr d.th2 ++ d.ptxt2Cred) d.th3
  th4 : HashCall N.calls (encBstr d.th3 ++ d.ptxt3Cred) d.th4
  cid : ∃ x r, CidItem d.cr x ∧ d.ptxt2Cred = x ++ r
  holds : N.state.ctx.th = d.th4

/-- In the session `N` an Initiator accepted `m4` from the party with the public key `pk`, with the data `d`. -/
structure Accepted4 (N : Node) (m4 : Bytes) (d : Data4) (pk : Bytes) : Prop extends Shares4 N d where
  sent : ∃ n, (.compose1 n, .ok (.bytes d.m1)) ∈ N.hist
  accepted : ∃ m2, (.process2 m2, .ok .unit) ∈ N.hist
  answered : ∃ n m3, (.compose3 n, .ok (.bytes m3)) ∈ N.hist
  confirmed : (.process4 m4, .ok .unit) ∈ N.hist
  ephemeral : ∃ x, KeyPairCall N.calls x d.gx
  peer : ∃ id c, CredAccepted N.calls id c pk ∧ idCred c = d.idCred ∧ cred c = d.cred

/-- In the session `N` a Responder, as itself, accepted message 1 and message 3, with the data `d`, and called
`edhoc_message_4_compose`. (That call can have failed after encryption, for example because the buffer was too small.) -/
structure Answered4 (N : Node) (d : Data4) : Prop extends Shares4 N d where
  received : (.process1 d.m1, .ok .unit) ∈ N.hist
  answered : ∃ n m2, (.compose2 n, .ok (.bytes m2)) ∈ N.hist
  accepted : ∃ m3, (.process3 m3, .ok .unit) ∈ N.hist
  called : ∃ n r, (.compose4 n, r) ∈ N.hist
  ephemeral : ∃ y, KeyPairCall N.calls y d.gy
  own : ∃ c kid, CredSupplied N.calls c kid ∧ idCred c = d.idCred ∧ cred c = d.cred
  ownCid : N.state.ctx.cid = d.cr

/-- What the attacker cannot do, in addition to `Network`: encrypt with a session's K_4 (derived with label 8), if the
session has accepted a credential with an honest public key. What is accepted was encrypted in one of the sessions,
maybe in the same one. -/
def Sealed {ι : Type} (W : ι → Node) (honest : Bytes → Prop) : Prop :=
  ∀ {i id c pk prk th n k iv aad pt ct}, honest pk → CredAccepted (W i).calls id c pk →
    ExpandCall (W i).calls prk 8 th n k → DecryptCall (W i).calls k iv aad ct pt →
    ∃ j, EncryptCall (W j).calls k iv aad pt ct

end Verif.Spec
