import Verif.SpecTrace
import Verif.SpecWire
import Verif.SpecCodes
import Verif.SpecKeys

/-!
# Specification: what a session asks of its application, and in which order (C86)
-/

namespace Verif.Spec

open Verif

/-- The requests that have to do with one handshake: for EAD, credentials, signatures and AEAD. (Key derivations are
also made by exports, which the application may call at any time.) -/
def ask : Ev → Option Kind
  | .encrypt _ _ _ _ _ => some .encrypt
  | .decrypt _ _ _ _ _ => some .decrypt
  | .sign _ _ _ => some .sign
  | .verify _ _ _ _ => some .verify
  | .eadCompose m _ => some (.eadCompose m)
  | .eadProcess m _ _ => some (.eadProcess m)
  | .credFetch _ => some .credFetch
  | .credVerify _ _ => some .credVerify
  | _ => none

/-- the requests in a list of calls -/
def asked (L : List Ev) : List Kind := L.filterMap ask

/-- What each message call asks for, at most, in this order. -/
def asksOf : Call → List Kind
  | .compose1 => [.eadCompose .msg1]
  | .process1 => [.eadProcess .msg1]
  | .compose2 => [.credFetch, .eadCompose .msg2, .sign]
  | .process2 => [.eadProcess .msg2, .credVerify, .verify]
  | .compose3 => [.eadCompose .msg3, .credFetch, .sign, .encrypt]
  | .process3 => [.decrypt, .eadProcess .msg3, .credVerify, .verify]
  | .compose4 => [.eadCompose .msg4, .encrypt]
  | .process4 => [.decrypt, .eadProcess .msg4]

/-- What a handshake with these message calls asks for, at most, in this order. -/
def script (q : List Call) : List Kind := q.flatMap asksOf

/-- not a request for EAD -/
def otherThanEad : Kind → Bool
  | .eadCompose _ | .eadProcess _ => false
  | _ => true

/-- What a successful message call asks for with this method, EAD apart: all of it, once, in this order. -/
def needs (method : Nat) : Call → List Kind
  | .compose1 | .process1 => []
  | .compose2 => if responderSigns method then [.credFetch, .sign] else [.credFetch]
  | .process2 => if responderSigns method then [.credVerify, .verify] else [.credVerify]
  | .compose3 => if initiatorSigns method then [.credFetch, .sign, .encrypt] else [.credFetch, .encrypt]
  | .process3 => if initiatorSigns method then [.decrypt, .credVerify, .verify] else [.decrypt, .credVerify]
  | .compose4 => [.encrypt]
  | .process4 => [.decrypt]

end Verif.Spec
