import Verif.Gen.Types

/-!
# The generated decoders

`/repo/backends/cbor/src/backend_cbor_*_decode.c`, one definition for each generated function; functions that are repeated in
several files under the same or another name have one definition.
-/

namespace Verif.Gen

variable (d : DecCfg)

/-- `decode_suites`. `/repo/backends/cbor/src/backend_cbor_message_1_decode.c:25-42`, `backend_cbor_message_error_decode.c:24-41`. -/
def decodeSuites : Dec SuitesR :=
  unionStart.and <| Dec.unionEnd <|
    Dec.or
      (((listStart d).and
        (((multi (int32 d) 0 2 3).into SuitesR.list SuitesR.setList).orForce.and
          containerEnd)).and (assign fun r => { r with isOne := false }))
      (unionElem.and (((int32 d).into SuitesR.first SuitesR.setFirst).and
        (assign fun r => { r with isOne := true })))

/-- `decode_ead_x`, `decode_ead_y`. `/repo/backends/cbor/src/backend_cbor_message_1_decode.c:44-60`,
`backend_cbor_plaintext_2_decode.c:144-160`, `backend_cbor_plaintext_3_decode.c:144-160`, `backend_cbor_plaintext_4_decode.c:24-40`. -/
def decodeEadX : Dec EadX :=
  ((int32 d).into EadX.label (fun v r => { r with label := v })).and
    (((str d 2).into EadX.value (fun z r => { r with value := z })).noting fun b r => { r with present := b })

/-- `decode_EAD_1` ... `decode_EAD_4`. `/repo/backends/cbor/src/backend_cbor_message_1_decode.c:62-77`,
`backend_cbor_plaintext_2_decode.c:162-177`, `backend_cbor_plaintext_3_decode.c:162-177`, `backend_cbor_plaintext_4_decode.c:42-57`. -/
def decodeEad : Dec EadArr := multi (decodeEadX d) .zero 1 3

/-- C_I, C_R: the union of a byte string and an integer in -24..23, choice "bstr" first.
`/repo/backends/cbor/src/backend_cbor_message_1_decode.c:88-91`, `backend_cbor_plaintext_2_decode.c:185-188`. -/
def decodeCid : Dec IntStr :=
  unionStart.and <| Dec.unionEnd <|
    Dec.or
      (((str d 2).into IntStr.str IntStr.setStr).and (assign fun r => { r with isInt := false }))
      ((((int32 d).into IntStr.int IntStr.setInt).and (check fun r => decide (-24 ≤ r.int) && decide (r.int ≤ 23))).and
        (assign fun r => { r with isInt := true }))

/-- `cbor_decode_connection_identifier`. `/repo/backends/cbor/src/backend_cbor_connection_identifier_decode.c:32-58`. -/
def cborDecodeCid (bs : Bytes) : Bool × Bytes × IntStr := entry (decodeCid d) 3 1 ⟨0, .zero, false⟩ bs

/-- `decode_message_1`. `/repo/backends/cbor/src/backend_cbor_message_1_decode.c:79-102`. -/
def decodeMsg1 : Dec Msg1R :=
  ((int32 d).into Msg1R.method fun v r => { r with method := v }).and <|
  ((decodeSuites d).into Msg1R.suites fun v r => { r with suites := v }).and <|
  ((str d 2).into Msg1R.gx fun v r => { r with gx := v }).and <|
  ((decodeCid d).into Msg1R.ci fun v r => { r with ci := v }).and <|
  ((decodeEad d).into Msg1R.ead fun v r => { r with ead := v }).noting fun b r => { r with eadPresent := b }

/-- `cbor_decode_message_1`. `/repo/backends/cbor/src/backend_cbor_message_1_decode.c:106-115`. -/
def cborDecodeMsg1 (bs : Bytes) : Bool × Bytes × Msg1R := entry (decodeMsg1 d) 4 10 .zero bs

/-- `decode_message_2_G_Y_CIPHERTEXT_2`, `decode_message_3_CIPHERTEXT_3`, `decode_message_4_CIPHERTEXT_4`,
`decode_byte_string_type_bstr_type` with their entry functions. `/repo/backends/cbor/src/backend_cbor_message_2_decode.c:22-50`,
`backend_cbor_message_3_decode.c`, `backend_cbor_message_4_decode.c`, `backend_cbor_bstr_type_decode.c`. -/
def cborDecodeBstr (bs : Bytes) : Bool × Bytes × ZStr := entry (str d 2) 2 1 .zero bs

/-- `cbor_decode_integer_type_int_type`. `/repo/backends/cbor/src/backend_cbor_int_type_decode.c:22-50`. -/
def cborDecodeInt (bs : Bytes) : Bool × Bytes × Int := entry (int32 d) 2 1 0 bs

/-- The union of an integer and a string of major type `m`, choice "int" first. `/repo/backends/cbor/src/backend_cbor_plaintext_2_decode.c:37-38,
93-94`, `backend_cbor_plaintext_3_decode.c:37-38, 93-94`. -/
def decodeIntStr (m : Nat) : Dec IntStr :=
  unionStart.and <| Dec.unionEnd <|
    Dec.or
      (((int32 d).into IntStr.int IntStr.setInt).and (assign fun r => { r with isInt := true }))
      (((str d m).into IntStr.str IntStr.setStr).and (assign fun r => { r with isInt := false }))

/-- `decode_repeated_map_kid`. `/repo/backends/cbor/src/backend_cbor_plaintext_2_decode.c:30-48`, `backend_cbor_plaintext_3_decode.c:30-48`. -/
def decodeKid : Dec IntStr := (uint32Expect d 4).and (decodeIntStr d 2)

/-- `decode_COSE_X509`. `/repo/backends/cbor/src/backend_cbor_plaintext_2_decode.c:50-67`, `backend_cbor_plaintext_3_decode.c:50-67`. -/
def decodeX509 : Dec X509R :=
  unionStart.and <| Dec.unionEnd <|
    Dec.or
      (((str d 2).into X509R.one fun z r => { r with one := z }).and (assign fun r => { r with isList := false }))
      (unionElem.and
        (((listStart d).and
          (((multi (str d 2) .zero 2 3).into X509R.certs fun a r => { r with certs := a }).orForce.and containerEnd)).and
          (assign fun r => { r with isList := true })))

/-- `decode_repeated_map_x5chain`. `/repo/backends/cbor/src/backend_cbor_plaintext_2_decode.c:69-85`, `backend_cbor_plaintext_3_decode.c:69-85`. -/
def decodeX5chain : Dec X509R := (uint32Expect d 33).and (decodeX509 d)

/-- `decode_COSE_CertHash`. `/repo/backends/cbor/src/backend_cbor_plaintext_2_decode.c:87-105`, `backend_cbor_plaintext_3_decode.c:87-105`. -/
def decodeCertHash : Dec CertHashR :=
  (listStart d).and <|
    (((decodeIntStr d 3).into CertHashR.alg fun v r => { r with alg := v }).and
      ((str d 2).into CertHashR.hash fun z r => { r with hash := z })).orForce.and containerEnd

/-- `decode_repeated_map_x5t`. `/repo/backends/cbor/src/backend_cbor_plaintext_2_decode.c:107-123`, `backend_cbor_plaintext_3_decode.c:107-123`. -/
def decodeX5t : Dec CertHashR := (uint32Expect d 34).and (decodeCertHash d)

/-- `decode_map`. `/repo/backends/cbor/src/backend_cbor_plaintext_2_decode.c:125-142`, `backend_cbor_plaintext_3_decode.c:125-142`. -/
def decodeMap : Dec MapR :=
  (mapStart d).and <|
    (((present (decodeKid d) ⟨0, .zero, true⟩).into MapR.kid fun v r => { r with kid := v }).and <|
     ((present (decodeX5chain d) .zero).into MapR.x5chain fun v r => { r with x5chain := v }).and <|
     ((present (decodeX5t d) .zero).into MapR.x5t fun v r => { r with x5t := v })).orForce.and containerEnd

/-- ID_CRED_R, ID_CRED_I. `/repo/backends/cbor/src/backend_cbor_plaintext_2_decode.c:189-191`, `backend_cbor_plaintext_3_decode.c:185-187`. -/
def decodeIdCred : Dec IdCredR :=
  unionStart.and <| Dec.unionEnd <|
    Dec.or
      (((int32 d).into IdCredR.int fun v r => { r with int := v, str := { r.str with ptr := none } }).and
        (assign fun r => { r with choice := .int }))
    (Dec.or
      (((str d 2).into IdCredR.str fun z r => { r with str := z }).and (assign fun r => { r with choice := .bstr }))
      (unionElem.and (((decodeMap d).into IdCredR.map fun v r => { r with map := v }).and
        (assign fun r => { r with choice := .map }))))

/-- `decode_plaintext_3`, and `decode_plaintext_2` after C_R. `/repo/backends/cbor/src/backend_cbor_plaintext_3_decode.c:179-199`,
`backend_cbor_plaintext_2_decode.c:189-193`. -/
def decodePtxt : Dec PtxtR :=
  ((decodeIdCred d).into PtxtR.id fun v r => { r with id := v }).and <|
  ((str d 2).into PtxtR.sig fun v r => { r with sig := v }).and <|
  ((decodeEad d).into PtxtR.ead fun v r => { r with ead := v }).noting fun b r => { r with eadPresent := b }

/-- `decode_plaintext_2`. `/repo/backends/cbor/src/backend_cbor_plaintext_2_decode.c:179-203`. -/
def decodePtxt2 : Dec Ptxt2R :=
  ((decodeCid d).into Ptxt2R.cr fun v r => { r with cr := v }).and <|
  ((decodePtxt d).into Ptxt2R.rest fun v r => { r with rest := v })

/-- `cbor_decode_plaintext_2`. `/repo/backends/cbor/src/backend_cbor_plaintext_2_decode.c:207-216`. -/
def cborDecodePtxt2 (bs : Bytes) : Bool × Bytes × Ptxt2R := entry (decodePtxt2 d) 6 9 .zero bs

/-- `cbor_decode_plaintext_3`. `/repo/backends/cbor/src/backend_cbor_plaintext_3_decode.c:203-212`. -/
def cborDecodePtxt3 (bs : Bytes) : Bool × Bytes × PtxtR := entry (decodePtxt d) 6 8 .zero bs

/-- `decode_plaintext_4`. `/repo/backends/cbor/src/backend_cbor_plaintext_4_decode.c:59-74`. -/
def decodePtxt4 : Dec Ptxt4R :=
  ((decodeEad d).into Ptxt4R.ead fun v r => { r with ead := v }).noting fun b r => { r with present := b }

/-- `cbor_decode_plaintext_4`. `/repo/backends/cbor/src/backend_cbor_plaintext_4_decode.c:78-87`. -/
def cborDecodePtxt4 (bs : Bytes) : Bool × Bytes × Ptxt4R := entry (decodePtxt4 d) 2 6 .zero bs

/-- `decode_repeated_message_error_ERR_INFO`. `/repo/backends/cbor/src/backend_cbor_message_error_decode.c:43-61`. -/
def decodeErrInfo : Dec ErrInfoR :=
  unionStart.and <| Dec.unionEnd <|
    Dec.or
      (((str d 3).into ErrInfoR.text fun z r => { r with text := z }).and (assign fun r => { r with choice := .text }))
    (Dec.or
      (unionElem.and (((decodeSuites d).into ErrInfoR.suites fun v r => { r with suites := v }).and
        (assign fun r => { r with choice := .suites })))
      (unionElem.and (trueExpect.and (assign fun r => { r with choice := .bool }))))

/-- `decode_message_error`. `/repo/backends/cbor/src/backend_cbor_message_error_decode.c:63-79`. -/
def decodeErrMsg : Dec ErrMsgR :=
  ((int32 d).into ErrMsgR.code fun v r => { r with code := v }).and <|
  ((present (decodeErrInfo d) .zero).into ErrMsgR.info fun v r => { r with info := v })

/-- `cbor_decode_message_error`. `/repo/backends/cbor/src/backend_cbor_message_error_decode.c:83-92`. -/
def cborDecodeErrMsg (bs : Bytes) : Bool × Bytes × ErrMsgR := entry (decodeErrMsg d) 5 2 .zero bs

end Verif.Gen
