import Verif.Gen.Types

/-!
# The generated encoders

`/repo/backends/cbor/src/backend_cbor_*_encode.c` and the functions of zcbor 0.8.1 they call, as built with
`ZCBOR_CANONICAL` (`/repo/cmake/externals_sources.cmake:16`): containers have a definite length. What an encoder has written
before it fails is not modelled; the library does not use it.
-/

namespace Verif.Gen

/-- The parts of `zcbor_state_t` that change: what has been written, and how many elements. -/
structure EFrame where
  out : Bytes
  elems : Nat
  deriving DecidableEq, Repr

/-- `zcbor_state_t` for encoding: the current values, the backups (the newest first), the number of backups there is
room for, the size of the output buffer. -/
structure EState where
  cur : EFrame
  baks : List EFrame
  room : Nat
  cap : Nat
  deriving DecidableEq, Repr

/-- An encoder succeeds or fails. -/
def Enc := EState → Option EState

/-- `f && g` -/
def Enc.and (f g : Enc) : Enc := fun s => match f s with
  | some s' => g s'
  | none => none

/-- `!present || f` -/
def Enc.when (present : Bool) (f : Enc) : Enc := fun s => if present then f s else some s

/-- `choice ? f : g` -/
def Enc.pick (choice : Bool) (f g : Enc) : Enc := fun s => if choice then f s else g s

/-- `condition || (zcbor_error(...), false)` -/
def need (b : Bool) : Enc := fun s => if b then some s else none

/-- One item is written, if it fits: `value_encode` and `str_encode` in zcbor. -/
def item (b : Bytes) : Enc := fun s =>
  if s.cur.out.length + b.length ≤ s.cap then some { s with cur := ⟨s.cur.out ++ b, s.cur.elems + 1⟩ } else none

/-- `zcbor_int32_encode` -/
def putInt (v : Int) : Enc := item (encInt v)

/-- `zcbor_uint32_encode`, `zcbor_uint32_put` -/
def putUint (v : Nat) : Enc := item (head 0 v)

/-- `zcbor_bstr_encode` (`m = 2`), `zcbor_tstr_encode` (`m = 3`) -/
def putStr (m : Nat) (z : ZStr) : Enc := item (head m z.len ++ z.bytes)

/-- `zcbor_bool_put(state, true)` -/
def putTrue : Enc := item [0xF5]

/-- `zcbor_list_start_encode` (`m = 4`), `zcbor_map_start_encode` (`m = 5`): backup, and a head for `most` elements that is
replaced at the end. -/
def startEncode (m most : Nat) : Enc := fun s =>
  if s.room ≤ s.baks.length then none
  else if s.cur.out.length + (head m most).length ≤ s.cap then
    some { s with cur := ⟨s.cur.out ++ head m most, 0⟩, baks := s.cur :: s.baks }
  else none

/-- `zcbor_list_end_encode`, `zcbor_map_end_encode`: the head is written again with the number of elements (pairs), and what
follows it is moved if the length of the head has changed. -/
def endEncode (m most : Nat) : Enc := fun s =>
  match s.baks with
  | [] => none
  | top :: more =>
    let h := head m (if m = 5 then s.cur.elems / 2 else s.cur.elems)
    if top.out.length + h.length ≤ s.cap then
      some { s with cur := ⟨top.out ++ h ++ s.cur.out.drop (top.out.length + (head m most).length), top.elems + 1⟩, baks := more }
    else none

/-- `start && (f || (zcbor_list_map_end_force_encode(state), false)) && end` -/
def container (m most : Nat) (f : Enc) : Enc := (startEncode m most).and (f.and (endEncode m most))

/-- `zcbor_multi_encode`: the first `n` elements of an array. -/
def multiPut {α : Type} (f : α → Enc) : List α → Enc
  | [] => fun s => some s
  | x :: xs => (f x).and (multiPut f xs)

/-- `zcbor_multi_encode_minmax` -/
def multiEncode {α : Type} (f : α → Enc) (least most : Nat) (a : List α × Nat) : Enc :=
  (need (decide (least ≤ a.2) && decide (a.2 ≤ most))).and (multiPut f (a.1.take a.2))

/-- `zcbor_entry_function` with `states` state structures and `elems` elements: what was written. -/
def entryEncode (f : Enc) (states elems cap : Nat) : Option Bytes :=
  (f ⟨⟨[], elems⟩, [], states - 2, cap⟩).map fun s => s.cur.out

/-! ## The generated code -/

/-- `encode_suites`. `/repo/backends/cbor/src/backend_cbor_message_1_encode.c:25-42`, `backend_cbor_message_error_encode.c:24-41`. -/
def encodeSuites (r : SuitesR) : Enc :=
  Enc.pick (!r.isOne) (container 4 3 (multiEncode putInt 2 3 (r.ints, r.count))) (putInt r.first)

/-- `encode_ead_x`, `encode_ead_y`. `/repo/backends/cbor/src/backend_cbor_message_1_encode.c:44-60`,
`backend_cbor_ead_encode.c:23-39`, `backend_cbor_plaintext_4_encode.c:24-40` and the other plaintext encoders. -/
def encodeEadX (x : EadX) : Enc := (putInt x.label).and (Enc.when x.present (putStr 2 x.value))

/-- `encode_EAD_1` ... `encode_EAD_4`, `encode_ead`. `/repo/backends/cbor/src/backend_cbor_message_1_encode.c:62-77`,
`backend_cbor_ead_encode.c:41-56`, `backend_cbor_plaintext_4_encode.c:42-57` and the other plaintext encoders. -/
def encodeEad (a : EadArr) : Enc := multiEncode encodeEadX 1 3 a

/-- C_I, C_R and `encode_connection_identifier`. `/repo/backends/cbor/src/backend_cbor_message_1_encode.c:87-91`,
`backend_cbor_plaintext_2_encode.c:184-188`, `backend_cbor_connection_identifier_encode.c:32-45`. -/
def encodeCid (r : IntStr) : Enc :=
  Enc.pick (!r.isInt) (putStr 2 r.str) ((need (decide (-24 ≤ r.int) && decide (r.int ≤ 23))).and (putInt r.int))

/-- `encode_message_1`. `/repo/backends/cbor/src/backend_cbor_message_1_encode.c:79-103`. -/
def encodeMsg1 (r : Msg1R) : Enc :=
  (putInt r.method).and <| (encodeSuites r.suites).and <| (putStr 2 r.gx).and <| (encodeCid r.ci).and <|
    Enc.when r.eadPresent (encodeEad r.ead)

/-- `cbor_encode_message_1`. `/repo/backends/cbor/src/backend_cbor_message_1_encode.c:107-115`. -/
def cborEncodeMsg1 (cap : Nat) (r : Msg1R) : Option Bytes := entryEncode (encodeMsg1 r) 4 10 cap

/-- `cbor_encode_connection_identifier`. `/repo/backends/cbor/src/backend_cbor_connection_identifier_encode.c:49-59`. -/
def cborEncodeCid (cap : Nat) (r : IntStr) : Option Bytes := entryEncode (encodeCid r) 3 1 cap

/-- `cbor_encode_ead`. `/repo/backends/cbor/src/backend_cbor_ead_encode.c:60-69`. -/
def cborEncodeEad (cap : Nat) (a : EadArr) : Option Bytes := entryEncode (encodeEad a) 2 6 cap

/-- `cbor_encode_byte_string_type_bstr_type`, `cbor_encode_message_2_G_Y_CIPHERTEXT_2`, `cbor_encode_message_3_CIPHERTEXT_3`,
`cbor_encode_message_4_CIPHERTEXT_4`. `/repo/backends/cbor/src/backend_cbor_bstr_type_encode.c:22-50`, `backend_cbor_message_2_encode.c`,
`_3_`, `_4_`. -/
def cborEncodeBstr (cap : Nat) (z : ZStr) : Option Bytes := entryEncode (putStr 2 z) 2 1 cap

/-- `cbor_encode_integer_type_int_type`. `/repo/backends/cbor/src/backend_cbor_int_type_encode.c:22-50`. -/
def cborEncodeInt (cap : Nat) (v : Int) : Option Bytes := entryEncode (putInt v) 2 1 cap

/-- `encode_info`, `cbor_encode_info`. `/repo/backends/cbor/src/backend_cbor_info_encode.c:22-52`. -/
def cborEncodeInfo (cap : Nat) (label : Int) (context : ZStr) (length : Nat) : Option Bytes :=
  entryEncode ((putInt label).and ((putStr 2 context).and (putUint length))) 2 3 cap

/-- `encode_enc_structure`, `cbor_encode_enc_structure`. `/repo/backends/cbor/src/backend_cbor_enc_structure_encode.c:20-53`. -/
def cborEncodeEncStructure (cap : Nat) (prot aad : ZStr) : Option Bytes :=
  entryEncode (container 4 3 ((putStr 3 ⟨8, some (ascii "Encrypt0")⟩).and ((putStr 2 prot).and (putStr 2 aad)))) 3 1 cap

/-- `encode_sig_structure`, `cbor_encode_sig_structure`. `/repo/backends/cbor/src/backend_cbor_sig_structure_encode.c:20-54`. -/
def cborEncodeSigStructure (cap : Nat) (prot aad payload : ZStr) : Option Bytes :=
  entryEncode (container 4 4 ((putStr 3 ⟨10, some (ascii "Signature1")⟩).and ((putStr 2 prot).and
    ((putStr 2 aad).and (putStr 2 payload))))) 3 1 cap

/-- An integer or a string of major type `m`. `/repo/backends/cbor/src/backend_cbor_id_cred_x_encode.c:33-35, 93-95`. -/
def encodeIntStr (m : Nat) (r : IntStr) : Enc := Enc.pick r.isInt (putInt r.int) (putStr m r.str)

/-- `encode_repeated_id_cred_x_kid`, `encode_repeated_map_kid`. `/repo/backends/cbor/src/backend_cbor_id_cred_x_encode.c:27-45`. -/
def encodeKid (r : IntStr) : Enc := (putUint 4).and (encodeIntStr 2 r)

/-- `encode_COSE_X509`. `/repo/backends/cbor/src/backend_cbor_id_cred_x_encode.c:47-64`. -/
def encodeX509 (r : X509R) : Enc :=
  Enc.pick (!r.isList) (putStr 2 r.one) (container 4 3 (multiEncode (putStr 2) 2 3 r.certs))

/-- `encode_repeated_id_cred_x_x5chain`. `/repo/backends/cbor/src/backend_cbor_id_cred_x_encode.c:66-82`. -/
def encodeX5chain (r : X509R) : Enc := (putUint 33).and (encodeX509 r)

/-- `encode_COSE_CertHash`. `/repo/backends/cbor/src/backend_cbor_id_cred_x_encode.c:84-102`. -/
def encodeCertHash (r : CertHashR) : Enc := container 4 2 ((encodeIntStr 3 r.alg).and (putStr 2 r.hash))

/-- `encode_repeated_id_cred_x_x5t`. `/repo/backends/cbor/src/backend_cbor_id_cred_x_encode.c:104-120`. -/
def encodeX5t (r : CertHashR) : Enc := (putUint 34).and (encodeCertHash r)

/-- `encode_id_cred_x`, `encode_map`. `/repo/backends/cbor/src/backend_cbor_id_cred_x_encode.c:122-139`,
`backend_cbor_plaintext_2_encode.c:125-142`, `backend_cbor_plaintext_3_encode.c:125-142`. -/
def encodeMap (r : MapR) : Enc :=
  container 5 3 ((Enc.when r.kid.1 (encodeKid r.kid.2)).and ((Enc.when r.x5chain.1 (encodeX5chain r.x5chain.2)).and
    (Enc.when r.x5t.1 (encodeX5t r.x5t.2))))

/-- `cbor_encode_id_cred_x`. `/repo/backends/cbor/src/backend_cbor_id_cred_x_encode.c:143-152`. -/
def cborEncodeIdCred (cap : Nat) (r : MapR) : Option Bytes := entryEncode (encodeMap r) 5 1 cap

/-- `encode_plaintext_4`, `cbor_encode_plaintext_4`. `/repo/backends/cbor/src/backend_cbor_plaintext_4_encode.c:59-87`. -/
def cborEncodePtxt4 (cap : Nat) (r : Ptxt4R) : Option Bytes := entryEncode (Enc.when r.present (encodeEad r.ead)) 2 6 cap

/-- `encode_repeated_message_error_ERR_INFO`. `/repo/backends/cbor/src/backend_cbor_message_error_encode.c:43-61`. -/
def encodeErrInfo (r : ErrInfoR) : Enc :=
  match r.choice with
  | .text => putStr 3 r.text
  | .suites => encodeSuites r.suites
  | .bool => putTrue

/-- `encode_message_error`, `cbor_encode_message_error`. `/repo/backends/cbor/src/backend_cbor_message_error_encode.c:63-92`. -/
def cborEncodeErrMsg (cap : Nat) (r : ErrMsgR) : Option Bytes :=
  entryEncode ((putInt r.code).and (Enc.when r.info.1 (encodeErrInfo r.info.2))) 5 2 cap

end Verif.Gen
