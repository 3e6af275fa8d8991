import Verif.Gen.Zcbor
import Verif.CborSchemas

/-!
# The C structures of the generated code

`/repo/backends/cbor/include/backend_cbor_edhoc_types.h`, `backend_cbor_x509_types.h`. The members of a union are kept apart, except
that writing one makes a pointer in another meaningless (`none`). Arrays have three elements. Each structure comes with its
value after `memset(0)` or `= { 0 }` and with what the library reads from it.
-/

namespace Verif.Gen

/-- a string of length 0 with a NULL pointer -/
def ZStr.zero : ZStr := ⟨0, none⟩

/-- the bytes of a string, as far as there are any -/
def ZStr.bytes (z : ZStr) : Bytes := (z.ptr.getD []).take z.len

/-- A length without bytes: it was written before the decoder failed. -/
def ZStr.over (z : ZStr) : Nat := if z.ptr = none then z.len else 0

/-- `union { int32_t; struct zcbor_string; }` with its choice. -/
structure IntStr where
  int : Int
  str : ZStr
  isInt : Bool
  deriving DecidableEq, Repr

/-- The address of the integer. -/
def IntStr.setInt (v : Int) (r : IntStr) : IntStr := { r with int := v, str := { r.str with ptr := none } }

/-- The address of the string. -/
def IntStr.setStr (z : ZStr) (r : IntStr) : IntStr := { r with str := z }

/-- the value, as an integer or a string -/
def IntStr.value (r : IntStr) : IntOrBytes := if r.isInt then .int r.int else .bstr r.str.bytes

/-- the value, as a connection identifier -/
def IntStr.cid (r : IntStr) : Cid := if r.isInt then .int r.int else .bstr r.str.bytes

/-- `struct suites_r`, `/repo/backends/cbor/include/backend_cbor_edhoc_types.h:45-57`; `suites_int` is at the place of the
first element of the list. -/
structure SuitesR where
  ints : List Int
  count : Nat
  isOne : Bool
  deriving DecidableEq, Repr

def SuitesR.zero : SuitesR := ⟨[0, 0, 0], 0, false⟩

/-- The address of the list and of its count. -/
def SuitesR.list (r : SuitesR) : List Int × Nat := (r.ints, r.count)

def SuitesR.setList (a : List Int × Nat) (r : SuitesR) : SuitesR := { r with ints := a.1, count := a.2 }

/-- The address of `suites_int`. -/
def SuitesR.first (r : SuitesR) : Int := r.ints.getD 0 0

def SuitesR.setFirst (v : Int) (r : SuitesR) : SuitesR := { r with ints := r.ints.set 0 v }

/-- the suites that were read -/
def SuitesR.value (r : SuitesR) : Suites := if r.isOne then .one (r.ints.getD 0 0) else .list (r.ints.take r.count)

/-- `struct ead_x`, `struct ead_y`. `/repo/backends/cbor/include/backend_cbor_edhoc_types.h:34-38`,
`backend_cbor_x509_types.h:110-114`. -/
structure EadX where
  label : Int
  value : ZStr
  present : Bool
  deriving DecidableEq, Repr

def EadX.zero : EadX := ⟨0, .zero, false⟩

/-- The library copies label, pointer and length and does not look at `present`. -/
def EadX.tok (e : EadX) : EadTok := ⟨e.label, e.value.ptr.map (·.take e.value.len)⟩

/-- `struct EAD_1` ... `struct EAD_4`, `struct ead`: an array and the number of its elements. -/
abbrev EadArr := List EadX × Nat

def eadZero : EadArr := ([.zero, .zero, .zero], 0)

/-- the tokens the library sees -/
def toks (a : EadArr) : List EadTok := (a.1.take a.2).map EadX.tok

/-- the bytes announced by a token that has none -/
def overs (a : EadArr) : Nat := ((a.1.take a.2).map fun e => e.value.over).sum

/-- `struct message_1`. `/repo/backends/cbor/include/backend_cbor_edhoc_types.h:82-96`. -/
structure Msg1R where
  method : Int
  suites : SuitesR
  gx : ZStr
  ci : IntStr
  ead : EadArr
  eadPresent : Bool
  deriving DecidableEq, Repr

def Msg1R.zero : Msg1R := ⟨0, .zero, .zero, ⟨0, .zero, false⟩, eadZero, false⟩

/-- what the library reads -/
def Msg1R.value (r : Msg1R) : Msg1 := ⟨r.method, r.suites.value, r.gx.bytes, r.ci.cid, toks r.ead⟩

/-- lengths without bytes -/
def Msg1R.overs (r : Msg1R) : Nat × Nat × Nat := (r.gx.over, if r.ci.isInt then 0 else r.ci.str.over, Gen.overs r.ead)

/-- `struct COSE_X509_r`. `/repo/backends/cbor/include/backend_cbor_x509_types.h:39-51`. -/
structure X509R where
  one : ZStr
  certs : List ZStr × Nat
  isList : Bool
  deriving DecidableEq, Repr

def X509R.zero : X509R := ⟨.zero, ([.zero, .zero, .zero], 0), false⟩

def X509R.value (r : X509R) : X5chain :=
  if r.isList then .list ((r.certs.1.take r.certs.2).map ZStr.bytes) else .one r.one.bytes

/-- `struct COSE_CertHash`. `/repo/backends/cbor/include/backend_cbor_x509_types.h:57-67`. -/
structure CertHashR where
  alg : IntStr
  hash : ZStr
  deriving DecidableEq, Repr

def CertHashR.zero : CertHashR := ⟨⟨0, .zero, true⟩, .zero⟩

def CertHashR.value (r : CertHashR) : IntOrBytes × Bytes := (r.alg.value, r.hash.bytes)

/-- `struct map`, `struct id_cred_x`: each entry with its `present` flag.
`/repo/backends/cbor/include/backend_cbor_x509_types.h:73-80, 101-108`. -/
structure MapR where
  kid : Bool × IntStr
  x5chain : Bool × X509R
  x5t : Bool × CertHashR
  deriving DecidableEq, Repr

def MapR.zero : MapR := ⟨(false, ⟨0, .zero, true⟩), (false, .zero), (false, .zero)⟩

def MapR.value (r : MapR) : CredMap where
  kid := if r.kid.1 then some r.kid.2.value else none
  x5chain := if r.x5chain.1 then some r.x5chain.2.value else none
  x5t := if r.x5t.1 then some r.x5t.2.value else none

/-- which member of the ID_CRED union -/
inductive IdChoice | int | bstr | map
  deriving DecidableEq, Repr

/-- `plaintext_2_ID_CRED_R_*`, `plaintext_3_ID_CRED_I_*`.
`/repo/backends/cbor/include/backend_cbor_x509_types.h:129-139, 151-160`. -/
structure IdCredR where
  int : Int
  str : ZStr
  map : MapR
  choice : IdChoice
  deriving DecidableEq, Repr

def IdCredR.zero : IdCredR := ⟨0, .zero, .zero, .int⟩

def IdCredR.value (r : IdCredR) : IdCred :=
  match r.choice with
  | .int => .int r.int
  | .bstr => .bstr r.str.bytes
  | .map => .map r.map.value

/-- `struct plaintext_3`; `struct plaintext_2` after C_R. `/repo/backends/cbor/include/backend_cbor_x509_types.h:150-164`. -/
structure PtxtR where
  id : IdCredR
  sig : ZStr
  ead : EadArr
  eadPresent : Bool
  deriving DecidableEq, Repr

def PtxtR.zero : PtxtR := ⟨.zero, .zero, eadZero, false⟩

def PtxtR.value (r : PtxtR) : Ptxt := ⟨r.id.value, r.sig.bytes, toks r.ead⟩

/-- `struct plaintext_2`. `/repo/backends/cbor/include/backend_cbor_x509_types.h:121-143`. -/
structure Ptxt2R where
  cr : IntStr
  rest : PtxtR
  deriving DecidableEq, Repr

def Ptxt2R.zero : Ptxt2R := ⟨⟨0, .zero, false⟩, .zero⟩

/-- `struct plaintext_4`. `/repo/backends/cbor/include/backend_cbor_x509_types.h:171-174`. -/
structure Ptxt4R where
  ead : EadArr
  present : Bool
  deriving DecidableEq, Repr

def Ptxt4R.zero : Ptxt4R := ⟨eadZero, false⟩

/-- which member of ERR_INFO -/
inductive InfoChoice | text | suites | bool
  deriving DecidableEq, Repr

/-- `struct message_error_ERR_INFO_r`. `/repo/backends/cbor/include/backend_cbor_edhoc_types.h:59-69`. -/
structure ErrInfoR where
  text : ZStr
  suites : SuitesR
  choice : InfoChoice
  deriving DecidableEq, Repr

def ErrInfoR.zero : ErrInfoR := ⟨.zero, .zero, .text⟩

def ErrInfoR.value (r : ErrInfoR) : ErrInfo :=
  match r.choice with
  | .text => .text r.text.bytes
  | .suites => .suites r.suites.value
  | .bool => .true_

/-- `struct message_error`. `/repo/backends/cbor/include/backend_cbor_edhoc_types.h:71-75`. -/
structure ErrMsgR where
  code : Int
  info : Bool × ErrInfoR
  deriving DecidableEq, Repr

def ErrMsgR.zero : ErrMsgR := ⟨0, (false, .zero)⟩

def ErrMsgR.value (r : ErrMsgR) : Int × Option ErrInfo := (r.code, if r.info.1 then some r.info.2.value else none)

end Verif.Gen
