import Verif.Gen.Encode
import Verif.Gen.Decode

/-!
# Generated coders that the library itself does not call

They are compiled with the library and declared in its headers: the decoders of EAD, ID_CRED_x, info, Enc_structure and
Sig_structure, and the encoders of PLAINTEXT_2 and PLAINTEXT_3 (the library writes these field by field).
-/

namespace Verif.Gen

variable (d : DecCfg)

/-- `zcbor_tstr_expect`: a text string with exactly these bytes. Otherwise the input is given back. -/
def tstrExpect {ρ : Type} (v : Bytes) : Dec ρ := fun s r =>
  if s.cur.elems = 0 then (false, s, r)
  else
    match getStr d 3 s.cur.payload with
    | some (b, rest) => if b = v then (true, s.eat rest, r) else (false, s, r)
    | none => (false, s, r)

/-- `zcbor_uint32_decode`. On failure the variable may have been written to. -/
def uint32 : Dec Nat := fun s r =>
  if s.cur.elems = 0 then (false, s, r)
  else
    match getHead d.strict 4 s.cur.payload with
    | some (m, a, rest) => if m = 0 then (true, s.eat rest, a) else (false, s, r)
    | none => (false, s, if startsInt s.cur.payload then (d.junk s.cur.payload).toNat else r)

/-- `cbor_decode_ead`. `/repo/backends/cbor/src/backend_cbor_ead_decode.c:23-69`. -/
def cborDecodeEad (bs : Bytes) : Bool × Bytes × EadArr := entry (decodeEad d) 2 6 eadZero bs

/-- `cbor_decode_id_cred_x`; `decode_id_cred_x` and its parts are those of the plaintexts under other names.
`/repo/backends/cbor/src/backend_cbor_id_cred_x_decode.c:27-152`. -/
def cborDecodeIdCred (bs : Bytes) : Bool × Bytes × MapR := entry (decodeMap d) 5 1 .zero bs

/-- `struct info`. `/repo/backends/cbor/include/backend_cbor_edhoc_types.h:28-32`. -/
structure InfoR where
  label : Int
  context : ZStr
  length : Nat
  deriving DecidableEq, Repr

/-- the fields of info -/
def InfoR.value (r : InfoR) : Int × Bytes × Nat := (r.label, r.context.bytes, r.length)

/-- `decode_info`. `/repo/backends/cbor/src/backend_cbor_info_decode.c:20-38`. -/
def decodeInfo : Dec InfoR :=
  ((int32 d).into InfoR.label fun v r => { r with label := v }).and <|
  ((str d 2).into InfoR.context fun v r => { r with context := v }).and <|
  (uint32 d).into InfoR.length fun v r => { r with length := v }

/-- `cbor_decode_info`. `/repo/backends/cbor/src/backend_cbor_info_decode.c:42-52`. -/
def cborDecodeInfo (bs : Bytes) : Bool × Bytes × InfoR := entry (decodeInfo d) 2 3 ⟨0, .zero, 0⟩ bs

/-- `struct enc_structure`. `/repo/backends/cbor/include/backend_cbor_enc_structure_types.h:28-31`. -/
structure EncStructureR where
  prot : ZStr
  aad : ZStr
  deriving DecidableEq, Repr

/-- `decode_enc_structure`. `/repo/backends/cbor/src/backend_cbor_enc_structure_decode.c:20-39`. -/
def decodeEncStructure : Dec EncStructureR :=
  (listStart d).and <|
    ((tstrExpect d (ascii "Encrypt0")).and <|
     ((str d 2).into EncStructureR.prot fun v r => { r with prot := v }).and <|
     (str d 2).into EncStructureR.aad fun v r => { r with aad := v }).orForce.and containerEnd

/-- `cbor_decode_enc_structure`. `/repo/backends/cbor/src/backend_cbor_enc_structure_decode.c:43-53`. -/
def cborDecodeEncStructure (bs : Bytes) : Bool × Bytes × EncStructureR := entry (decodeEncStructure d) 3 1 ⟨.zero, .zero⟩ bs

/-- `struct sig_structure`. `/repo/backends/cbor/include/backend_cbor_sig_structure_types.h:28-32`. -/
structure SigStructureR where
  prot : ZStr
  aad : ZStr
  payload : ZStr
  deriving DecidableEq, Repr

/-- `decode_sig_structure`. `/repo/backends/cbor/src/backend_cbor_sig_structure_decode.c:20-40`. -/
def decodeSigStructure : Dec SigStructureR :=
  (listStart d).and <|
    ((tstrExpect d (ascii "Signature1")).and <|
     ((str d 2).into SigStructureR.prot fun v r => { r with prot := v }).and <|
     ((str d 2).into SigStructureR.aad fun v r => { r with aad := v }).and <|
     (str d 2).into SigStructureR.payload fun v r => { r with payload := v }).orForce.and containerEnd

/-- `cbor_decode_sig_structure`. `/repo/backends/cbor/src/backend_cbor_sig_structure_decode.c:44-54`. -/
def cborDecodeSigStructure (bs : Bytes) : Bool × Bytes × SigStructureR :=
  entry (decodeSigStructure d) 3 1 ⟨.zero, .zero, .zero⟩ bs

/-- ID_CRED_R, ID_CRED_I in the plaintexts. `/repo/backends/cbor/src/backend_cbor_plaintext_2_encode.c:189-192`,
`backend_cbor_plaintext_3_encode.c:184-187`. -/
def encodePtxtId (r : IdCredR) : Enc :=
  match r.choice with
  | .int => putInt r.int
  | .bstr => putStr 2 r.str
  | .map => encodeMap r.map

/-- `encode_plaintext_3`, and `encode_plaintext_2` after C_R. `/repo/backends/cbor/src/backend_cbor_plaintext_3_encode.c:179-199`,
`backend_cbor_plaintext_2_encode.c:189-194`. -/
def encodePtxt (r : PtxtR) : Enc :=
  (encodePtxtId r.id).and <| (putStr 2 r.sig).and <| Enc.when r.eadPresent (encodeEad r.ead)

/-- `cbor_encode_plaintext_2`. `/repo/backends/cbor/src/backend_cbor_plaintext_2_encode.c:179-217`. -/
def cborEncodePtxt2 (cap : Nat) (r : Ptxt2R) : Option Bytes :=
  entryEncode ((encodeCid r.cr).and (encodePtxt r.rest)) 6 9 cap

/-- `cbor_encode_plaintext_3`. `/repo/backends/cbor/src/backend_cbor_plaintext_3_encode.c:179-212`. -/
def cborEncodePtxt3 (cap : Nat) (r : PtxtR) : Option Bytes := entryEncode (encodePtxt r) 6 8 cap

end Verif.Gen
