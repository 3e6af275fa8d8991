import Verif.Types

/-!
# Specification: what RFC 9528 puts on the wire and into MACs and signatures

Only CBOR items (`encInt`, `encBstr`, `encTstr`, `head`) are used here.
-/

namespace Verif.Spec

open Verif

/-- array of `n` elements, map of `n` entries -/
def arrayHead (n : Nat) : Bytes := head 4 n
@[inherit_doc arrayHead] def mapHead (n : Nat) : Bytes := head 5 n

/-- A connection identifier as CBOR item. -/
def cidItem : Cid → Bytes
  | .int v => encInt v
  | .bstr b => encBstr b

/-- ID_CRED_x: `{4: kid}`, `{33: cert}` or `{33: [certs]}`, `{34: [alg, hash]}`, or what the application gave. -/
def idCred : Cred → Bytes
  | .kid _ _ (.int v) => mapHead 1 ++ encInt 4 ++ encInt v
  | .kid _ _ (.bstr b) => mapHead 1 ++ encInt 4 ++ encBstr b
  | .x5chain [c] => mapHead 1 ++ encInt 33 ++ encBstr c
  | .x5chain certs => mapHead 1 ++ encInt 33 ++ arrayHead certs.length ++ (certs.map encBstr).flatten
  | .x5t _ fp (.int a) => mapHead 1 ++ encInt 34 ++ arrayHead 2 ++ encInt a ++ encBstr fp
  | .x5t _ fp (.bstr a) => mapHead 1 ++ encInt 34 ++ arrayHead 2 ++ encTstr a ++ encBstr fp
  | .any i _ _ => i
  | .other _ => []

/-- CRED_x: the credential; a byte string unless the application says it is CBOR already. For a certificate chain
it is the end-entity certificate. -/
def cred : Cred → Bytes
  | .kid c true _ => c
  | .kid c false _ => encBstr c
  | .x5chain certs => encBstr (certs.headD [])
  | .x5t c _ _ => encBstr c
  | .any _ _ c => c
  | .other _ => []

/-- EAD items -/
def ead (ts : List EadTok) : Bytes :=
  (ts.map fun t => encInt t.label ++ (match t.value with | some v => encBstr v | none => [])).flatten

/-- SUITES_I: a single suite, or the array of all of them -/
def suitesItem : List Int → Bytes
  | [v] => encInt v
  | l => arrayHead l.length ++ (l.map encInt).flatten

/-- message_1 = ( METHOD, SUITES_I, G_X, C_I, ? EAD_1 ) -/
def message1 (method : Nat) (suites : List Int) (gx : Bytes) (ci : Cid) (e : List EadTok) : Bytes :=
  encInt method ++ suitesItem suites ++ encBstr gx ++ cidItem ci ++ ead e

/-- context_2 = << C_R, ID_CRED_R, TH_2, CRED_R, ? EAD_2 >> -/
def context2 (cr : Cid) (c : Cred) (th2 : Bytes) (e : List EadTok) : Bytes :=
  cidItem cr ++ idCred c ++ encBstr th2 ++ cred c ++ ead e

/-- context_3 = << ID_CRED_I, TH_3, CRED_I, ? EAD_3 >> -/
def context3 (c : Cred) (th3 : Bytes) (e : List EadTok) : Bytes :=
  idCred c ++ encBstr th3 ++ cred c ++ ead e

/-- info = ( label, context, length ) -/
def info (label : Nat) (context : Bytes) (length : Nat) : Bytes :=
  encInt label ++ encBstr context ++ encInt length

/-- Sig_structure = [ "Signature1", << ID_CRED_x >>, << TH, CRED_x, ? EAD >>, MAC ] -/
def sigStructure (c : Cred) (th : Bytes) (e : List EadTok) (mac : Bytes) : Bytes :=
  arrayHead 4 ++ encTstr [0x53, 0x69, 0x67, 0x6e, 0x61, 0x74, 0x75, 0x72, 0x65, 0x31] ++
    encBstr (idCred c) ++ encBstr (encBstr th ++ cred c ++ ead e) ++ encBstr mac

/-- Enc_structure = [ "Encrypt0", h'', TH ] -/
def encStructure (th : Bytes) : Bytes :=
  arrayHead 3 ++ encTstr [0x45, 0x6e, 0x63, 0x72, 0x79, 0x70, 0x74, 0x30] ++ encBstr [] ++ encBstr th

/-- Does the Responder authenticate with a signature in this method? -/
def responderSigns (method : Nat) : Bool := method == 0 || method == 2

/-- Does the Initiator authenticate with a signature in this method? -/
def initiatorSigns (method : Nat) : Bool := method == 0 || method == 1

end Verif.Spec
