import Verif.Types

/-!
# The generated CBOR encoders and decoders

Model of `/repo/backends/cbor/src/backend_cbor_*.c`. Encoders are total functions from the
structure to `Option Bytes` (`none`: the schema rejects the value); the capacity check is separate
(`fits`). Decoders ignore trailing bytes, as the callers do.
-/

namespace Verif

/-! ## Shared pieces -/

/-- One EAD item. `/repo/backends/cbor/src/backend_cbor_ead_encode.c:23-41` and the copies of it in the
message_1, plaintext_2, plaintext_3 and plaintext_4 encoders. -/
def encEadTok (t : EadTok) : Bytes :=
  encInt t.label ++ (match t.value with | some v => encBstr v | none => [])

/-- EAD: one to three items. `/repo/backends/cbor/src/backend_cbor_ead_encode.c:43-59`. -/
def encEad (ts : List EadTok) : Option Bytes :=
  if 1 ≤ ts.length ∧ ts.length ≤ 3 then some (ts.map encEadTok).flatten else none

/-- Optional EAD: absent when there is no token. -/
def encEadOpt (ts : List EadTok) : Option Bytes :=
  if ts.isEmpty then some [] else encEad ts

/-- One EAD item. `/repo/backends/cbor/src/backend_cbor_ead_decode.c:23-41`: label, then the value if a
byte string follows. -/
def getEadTok (d : DecCfg) (bs : Bytes) : Option (EadTok × Bytes) :=
  match getInt d bs with
  | none => none
  | some (l, r) =>
    match getBstr d r with
    | some (v, r') => some (⟨l, some v⟩, r')
    | none => some (⟨l, none⟩, r)

/-- EAD: up to three items, as many as decode.
`/repo/backends/cbor/src/backend_cbor_ead_decode.c:43-59`; absent when the list is empty. -/
def getEad (d : DecCfg) (bs : Bytes) : List EadTok × Bytes := getMany (getEadTok d) 3 bs

/-- The length left behind in the value of the last item `getEad` reads, if that value does not decode (then nothing
can be read after it). The library passes this length on: it does not look at `ead_value_present`. -/
def staleEad (d : DecCfg) : Nat → Bytes → Nat
  | 0, _ => 0
  | fuel + 1, bs =>
    match getInt d bs with
    | none => 0
    | some (_, r) =>
      match getBstr d r with
      | some (_, r') => staleEad d fuel r'
      | none => if stale d r = 0 then staleEad d fuel r else stale d r

/-- Connection identifier: a byte string or an integer in -24..23.
`/repo/backends/cbor/src/backend_cbor_message_1_encode.c` (C_I),
`backend_cbor_plaintext_2_encode.c` (C_R), `backend_cbor_connection_identifier_encode.c`. -/
def encCid : Cid → Option Bytes
  | .int v => if -24 ≤ v ∧ v ≤ 23 then some (encInt v) else none
  | .bstr b => some (encBstr b)

/-- Decoder for the same union (`backend_cbor_connection_identifier_decode.c:37-52`). -/
def getCid (d : DecCfg) (bs : Bytes) : Option (Cid × Bytes) :=
  match getBstr d bs with
  | some (b, r) => some (.bstr b, r)
  | none =>
    match getInt d bs with
    | some (v, r) => if -24 ≤ v ∧ v ≤ 23 then some (.int v, r) else none
    | none => none

/-- SUITES_I: `list` of 2 to 3 integers, or one `int`. `struct suites_r`,
`/repo/backends/cbor/include/backend_cbor_edhoc_types.h:45-57`. -/
inductive Suites
  | list (l : List Int)
  | one (v : Int)
  deriving DecidableEq, Repr

/-- `/repo/backends/cbor/src/backend_cbor_message_1_encode.c`, `encode_suites`. -/
def encSuites : Suites → Option Bytes
  | .list l => if 2 ≤ l.length ∧ l.length ≤ 3 then
      some (encListHead l.length ++ (l.map encInt).flatten) else none
  | .one v => some (encInt v)

/-- `decode_suites`, `/repo/backends/cbor/src/backend_cbor_message_1_decode.c:26-46`. On failure the second component is what
the decoder leaves in `suites_int_l_int[0..count]` (the choice stays "list", value 0). An indefinite list without its end
is not given up properly: `zcbor_list_end_decode` fails before it has removed the backup of the list, the second
alternative then starts from there, behind the head of the list, and takes the first element for a single suite. It can
do so only if more elements may follow the list (`more`). -/
def getSuites (d : DecCfg) (more : Bool) (bs : Bytes) : Option (Suites × Bytes) × List Int :=
  match getContainer d 4 bs with
  | some (n, r) =>
    match getElems (getInt d) 3 n r with
    | (l, n', r') =>
      if 2 ≤ l.length then
        match endContainer n' r' with
        | some r'' => (some (.list l, r''), [])
        | none =>
          match more, n, getInt d r with
          | true, none, some (v, r1) => (some (.one v, r1), [])
          | _, _, _ => (none, l)
      else (none, l)
  | none =>
    match getInt d bs with
    | some (v, r) => (some (.one v, r), [])
    | none => (none, [])

/-! ## message_1 -/

/-- `struct message_1`. `/repo/backends/cbor/include/backend_cbor_edhoc_types.h:82-96`. -/
structure Msg1 where
  method : Int
  suites : Suites
  gx : Bytes
  ci : Cid
  ead : List EadTok
  deriving DecidableEq, Repr

/-- `cbor_encode_message_1`. `/repo/backends/cbor/src/backend_cbor_message_1_encode.c`. -/
def encMsg1 (m : Msg1) : Option Bytes :=
  match encSuites m.suites, encCid m.ci, encEadOpt m.ead with
  | some s, some c, some e => some (encInt m.method ++ s ++ encBstr m.gx ++ c ++ e)
  | _, _, _ => none

/-- `cbor_decode_message_1` into a zeroed structure: was it a success, and what the structure
contains afterwards also when it was not (`edhoc_message_1_process` goes on in that case).
`/repo/backends/cbor/src/backend_cbor_message_1_decode.c`. A C_I integer outside -24..23 leaves the choice
at "bstr" with length 0. -/
def getMsg1 (d : DecCfg) (bs : Bytes) : Bool × Msg1 :=
  match getInt d bs with
  | none => (false, ⟨if startsInt bs then d.junk bs else 0, .list [], [], .bstr [], []⟩)
  | some (me, r1) =>
    match getSuites d true r1 with
    | (none, l) => (false, ⟨me, .list l, [], .bstr [], []⟩)
    | (some (su, r2), _) =>
      match getBstr d r2 with
      | none => (false, ⟨me, su, [], .bstr [], []⟩)
      | some (gx, r3) =>
        match getCid d r3 with
        | none => (false, ⟨me, su, gx, .bstr [], []⟩)
        | some (ci, r4) => (true, ⟨me, su, gx, ci, (getEad d r4).1⟩)

/-- The lengths a failed decoder leaves behind in G_X, C_I and the last EAD_1 value of `struct message_1`. -/
def staleMsg1 (d : DecCfg) (bs : Bytes) : Nat × Nat × Nat :=
  match getInt d bs with
  | none => (0, 0, 0)
  | some (_, r1) =>
    match (getSuites d true r1).1 with
    | none => (0, 0, 0)
    | some (_, r2) =>
      match getBstr d r2 with
      | none => (stale d r2, 0, 0)
      | some (_, r3) =>
        match getCid d r3 with
        | none => (0, stale d r3, 0)
        | some (_, r4) => (0, 0, staleEad d 3 r4)

/-! ## message_2, message_3, message_4 -/

/-- `cbor_decode_message_2/3/4`: one byte string.
`/repo/backends/cbor/src/backend_cbor_message_2_decode.c:22-40`, `_3_`, `_4_`. -/
def getMsgBstr (d : DecCfg) (bs : Bytes) : Option Bytes := (getBstr d bs).map Prod.fst

/-! ## ID_CRED_x maps -/

/-- x5chain value: a single certificate, or a list of two or three.
`struct COSE_X509_r`, `/repo/backends/cbor/include/backend_cbor_x509_types.h`. -/
inductive X5chain
  | one (c : Bytes)
  | list (l : List Bytes)
  deriving DecidableEq, Repr

/-- `struct map` / `struct id_cred_x`: the optional entries 4 (kid), 33 (x5chain), 34 (x5t). -/
structure CredMap where
  kid : Option IntOrBytes
  x5chain : Option X5chain
  x5t : Option (IntOrBytes × Bytes)
  deriving DecidableEq, Repr

/-- integer or byte string -/
def encIntOrBstr : IntOrBytes → Bytes
  | .int v => encInt v
  | .bstr b => encBstr b

/-- integer or text string -/
def encIntOrTstr : IntOrBytes → Bytes
  | .int v => encInt v
  | .bstr b => encTstr b

/-- `encode_COSE_X509`, `/repo/backends/cbor/src/backend_cbor_id_cred_x_encode.c`. -/
def encX5chain : X5chain → Option Bytes
  | .one c => some (encBstr c)
  | .list l => if 2 ≤ l.length ∧ l.length ≤ 3 then
      some (encListHead l.length ++ (l.map encBstr).flatten) else none

/-- `encode_COSE_CertHash`: the list `[hashAlg, hashValue]`. -/
def encCertHash (p : IntOrBytes × Bytes) : Bytes :=
  encListHead 2 ++ encIntOrTstr p.1 ++ encBstr p.2

/-- number of entries -/
def CredMap.count (m : CredMap) : Nat :=
  (if m.kid.isSome then 1 else 0) + (if m.x5chain.isSome then 1 else 0) +
    (if m.x5t.isSome then 1 else 0)

/-- `encode_id_cred_x` / `encode_map`.
`/repo/backends/cbor/src/backend_cbor_id_cred_x_encode.c`, `backend_cbor_plaintext_2_encode.c`, `backend_cbor_plaintext_3_encode.c`. -/
def encCredMap (m : CredMap) : Option Bytes :=
  let k := match m.kid with | some v => encInt 4 ++ encIntOrBstr v | none => []
  let t := match m.x5t with | some p => encInt 34 ++ encCertHash p | none => []
  match m.x5chain with
  | none => some (encMapHead m.count ++ k ++ t)
  | some x =>
    match encX5chain x with
    | some b => some (encMapHead m.count ++ k ++ (encInt 33 ++ b) ++ t)
    | none => none

/-- integer or byte string -/
def getIntOrBstr (d : DecCfg) (bs : Bytes) : Option (IntOrBytes × Bytes) :=
  match getInt d bs with
  | some (v, r) => some (.int v, r)
  | none => match getBstr d bs with
    | some (b, r) => some (.bstr b, r)
    | none => none

/-- integer or text string -/
def getIntOrTstr (d : DecCfg) (bs : Bytes) : Option (IntOrBytes × Bytes) :=
  match getInt d bs with
  | some (v, r) => some (.int v, r)
  | none => match getTstr d bs with
    | some (b, r) => some (.bstr b, r)
    | none => none

/-- `decode_COSE_X509`, `/repo/backends/cbor/src/backend_cbor_plaintext_2_decode.c`. -/
def getX5chain (d : DecCfg) (bs : Bytes) : Option (X5chain × Bytes) :=
  match getBstr d bs with
  | some (b, r) => some (.one b, r)
  | none =>
    match getContainer d 4 bs with
    | none => none
    | some (n, r) =>
      match getElems (getBstr d) 3 n r with
      | (l, n', r') =>
        if 2 ≤ l.length then
          match endContainer n' r' with
          | some r'' => some (.list l, r'')
          | none => none
        else none

/-- `decode_COSE_CertHash`. -/
def getCertHash (d : DecCfg) (bs : Bytes) : Option ((IntOrBytes × Bytes) × Bytes) :=
  match getContainer d 4 bs with
  | none => none
  | some (n, r) =>
    match useElem n with
    | none => none
    | some n1 =>
      match getIntOrTstr d r with
      | none => none
      | some (a, r1) =>
        match useElem n1 with
        | none => none
        | some n2 =>
          match getBstr d r1 with
          | none => none
          | some (h, r2) =>
            match endContainer n2 r2 with
            | some r3 => some ((a, h), r3)
            | none => none

/-- An optional map entry: `zcbor_present_decode` of key `k` followed by `p`. Restores the input
when the entry is not there (or does not decode). -/
def getEntry {α : Type} (d : DecCfg) (k : Nat) (p : Bytes → Option (α × Bytes))
    (n : Option Nat) (bs : Bytes) : Option α × Option Nat × Bytes :=
  match useElem n with
  | none => (none, n, bs)
  | some n' =>
    match expectUint d k bs with
    | none => (none, n, bs)
    | some r =>
      match p r with
      | none => (none, n, bs)
      | some (a, r') => (some a, n', r')

/-- `decode_map` / `decode_id_cred_x`. -/
def getCredMap (d : DecCfg) (bs : Bytes) : Option (CredMap × Bytes) :=
  match getContainer d 5 bs with
  | none => none
  | some (n, r) =>
    match getEntry d 4 (getIntOrBstr d) n r with
    | (k, n1, r1) =>
      match getEntry d 33 (getX5chain d) n1 r1 with
      | (x, n2, r2) =>
        match getEntry d 34 (getCertHash d) n2 r2 with
        | (t, n3, r3) =>
          match endContainer n3 r3 with
          | some r4 => some (⟨k, x, t⟩, r4)
          | none => none

/-! ## PLAINTEXT_2, PLAINTEXT_3, PLAINTEXT_4 -/

/-- ID_CRED_R / ID_CRED_I on the wire: compact kid (integer or byte string) or a map. -/
inductive IdCred
  | int (v : Int)
  | bstr (b : Bytes)
  | map (m : CredMap)
  deriving DecidableEq, Repr

/-- ID_CRED union of the plaintext encoders. -/
def encIdCred : IdCred → Option Bytes
  | .int v => some (encInt v)
  | .bstr b => some (encBstr b)
  | .map m => encCredMap m

/-- ID_CRED union of the plaintext decoders. -/
def getIdCred (d : DecCfg) (bs : Bytes) : Option (IdCred × Bytes) :=
  match getInt d bs with
  | some (v, r) => some (.int v, r)
  | none =>
    match getBstr d bs with
    | some (b, r) => some (.bstr b, r)
    | none =>
      match getCredMap d bs with
      | some (m, r) => some (.map m, r)
      | none => none

/-- Contents of PLAINTEXT_3 (and of PLAINTEXT_2 after C_R). -/
structure Ptxt where
  idCred : IdCred
  sig : Bytes
  ead : List EadTok
  deriving DecidableEq, Repr

/-- `cbor_decode_plaintext_3`. `/repo/backends/cbor/src/backend_cbor_plaintext_3_decode.c`. -/
def getPtxt3 (d : DecCfg) (bs : Bytes) : Option Ptxt :=
  match getIdCred d bs with
  | none => none
  | some (i, r) =>
    match getBstr d r with
    | none => none
    | some (s, r') => some ⟨i, s, (getEad d r').1⟩

/-- `cbor_decode_plaintext_2`. `/repo/backends/cbor/src/backend_cbor_plaintext_2_decode.c`. -/
def getPtxt2 (d : DecCfg) (bs : Bytes) : Option (Cid × Ptxt) :=
  match getCid d bs with
  | none => none
  | some (c, r) =>
    match getPtxt3 d r with
    | none => none
    | some p => some (c, p)

/-- The length left behind in the last EAD value of `struct plaintext_3`. -/
def stalePtxt3 (d : DecCfg) (bs : Bytes) : Nat :=
  match getIdCred d bs with
  | none => 0
  | some (_, r) =>
    match getBstr d r with
    | none => 0
    | some (_, r') => staleEad d 3 r'

/-- The same in `struct plaintext_2`. -/
def stalePtxt2 (d : DecCfg) (bs : Bytes) : Nat :=
  match getCid d bs with
  | none => 0
  | some (_, r) => stalePtxt3 d r

/-- `cbor_decode_plaintext_4`: never fails. `/repo/backends/cbor/src/backend_cbor_plaintext_4_decode.c:59-76`. -/
def getPtxt4 (d : DecCfg) (bs : Bytes) : List EadTok := (getEad d bs).1

/-! ## Internal structures -/

/-- `info = (label, context, length)`. `/repo/backends/cbor/src/backend_cbor_info_encode.c:22-44`;
`length` is a `uint32_t`. -/
def encInfo (label : Nat) (context : Bytes) (length : Nat) : Bytes :=
  encInt label ++ encBstr context ++ head 0 length

/-- ASCII text as bytes -/
def ascii (s : String) : Bytes := s.toList.map fun c => UInt8.ofNat c.toNat

/-- `Enc_structure = ["Encrypt0", protected, external_aad]`.
`/repo/backends/cbor/src/backend_cbor_enc_structure_encode.c:22-43`. -/
def encEncStructure (prot aad : Bytes) : Bytes :=
  encListHead 3 ++ encTstr (ascii "Encrypt0") ++ encBstr prot ++ encBstr aad

/-- `Sig_structure = ["Signature1", protected, external_aad, payload]`.
`/repo/backends/cbor/src/backend_cbor_sig_structure_encode.c:22-44`. -/
def encSigStructure (prot aad payload : Bytes) : Bytes :=
  encListHead 4 ++ encTstr (ascii "Signature1") ++ encBstr prot ++ encBstr aad ++ encBstr payload

/-! ## Error message -/

/-- ERR_INFO. `/repo/backends/cbor/include/backend_cbor_edhoc_types.h:59-69`. -/
inductive ErrInfo
  | text (t : Bytes)
  | suites (s : Suites)
  | true_
  deriving DecidableEq, Repr

/-- ERR_INFO encoder. `/repo/backends/cbor/src/backend_cbor_message_error_encode.c:43-63`. -/
def encErrInfo : ErrInfo → Option Bytes
  | .text t => some (encTstr t)
  | .suites s => encSuites s
  | .true_ => some [0xF5]

/-- `cbor_encode_message_error`. `/repo/backends/cbor/src/backend_cbor_message_error_encode.c:63-82`. -/
def encErrMsg (code : Int) (info : Option ErrInfo) : Option Bytes :=
  match info with
  | none => some (encInt code)
  | some i =>
    match encErrInfo i with
    | some b => some (encInt code ++ b)
    | none => none

/-- ERR_INFO decoder. `/repo/backends/cbor/src/backend_cbor_message_error_decode.c:43-62`. -/
def getErrInfo (d : DecCfg) (bs : Bytes) : Option (ErrInfo × Bytes) :=
  match getTstr d bs with
  | some (t, r) => some (.text t, r)
  | none =>
    match (getSuites d false bs).1 with
    | some (s, r) => some (.suites s, r)
    | none =>
      match expectTrue bs with
      | some r => some (.true_, r)
      | none => none

/-- `cbor_decode_message_error`. `/repo/backends/cbor/src/backend_cbor_message_error_decode.c:63-82`: an ERR_INFO that does not
decode counts as absent. -/
def getErrMsg (d : DecCfg) (bs : Bytes) : Option (Int × Option ErrInfo) :=
  match getInt d bs with
  | none => none
  | some (c, r) =>
    match getErrInfo d r with
    | some (i, _) => some (c, some i)
    | none => some (c, none)

end Verif
