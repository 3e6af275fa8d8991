import Verif.CborSchemas

/-!
# Functions shared by the messages

Model of `/repo/library/edhoc_common.c`.
-/

namespace Verif

open M

variable {σ : Type}

/-! ## Sizes of CBOR items -/

/-- `(int32_t)n` for a `size_t` value -/
def i32 (n : Nat) : Int := ((n : Int) + 2147483648) % 4294967296 - 2147483648

/-- `(uint32_t)n` for a `size_t` value -/
def u32 (n : Nat) : Nat := n % 4294967296

/-- `size_t` subtraction -/
def subSize (a b : Nat) : Nat :=
  if b ≤ a then a - b else a + 18446744073709551616 - b

/-- `edhoc_cbor_int_mem_req`. `/repo/library/edhoc_common.c:572-584`. -/
def intMemReq (v : Int) : Nat :=
  if -24 ≤ v ∧ v ≤ 23 then 1
  else if -256 ≤ v ∧ v ≤ 255 then 2
  else if -65536 ≤ v ∧ v ≤ 65535 then 3
  else 4

/-- `edhoc_cbor_tstr_oh`, `edhoc_cbor_bstr_oh`. `/repo/library/edhoc_common.c:586-614` (the two have the same
body). -/
def bstrOh (n : Nat) : Nat :=
  if n ≤ 23 then 1
  else if n ≤ 255 then 2
  else if n ≤ 65535 then 3
  else if n ≤ 4294967295 then 4
  else 5

/-- `edhoc_cbor_map_oh`. `/repo/library/edhoc_common.c:616-621`. -/
def mapOh : Nat := 3

/-- `edhoc_cbor_array_oh`. `/repo/library/edhoc_common.c:623-633`. -/
def arrayOh (n : Nat) : Nat :=
  if n < 24 then 1 else if n < 256 then 2 else if n < 65535 then 3 else 4

/-- `comp_cid_len`. `/repo/library/edhoc_common.c:180-203`. -/
def cidLen : Cid → Nat
  | .int _ => 1
  | .bstr b => b.length + bstrOh b.length

/-- `comp_id_cred_len`. `/repo/library/edhoc_common.c:205-282`. A chain with more certificates than the
array holds is read out of bounds. -/
def idCredLen (cfg : Config) : Cred → Res Nat
  | .any idCred _ _ => .ok idCred.length
  | .kid _ _ id =>
    match id with
    | .int v => .ok (mapOh + intMemReq v)
    | .bstr b => .ok (mapOh + b.length + bstrOh b.length)
  | .x5chain certs =>
    if cfg.maxCerts < certs.length then .ub .oob
    else
      .ok (mapOh + (certs.map fun c => c.length + bstrOh c.length).sum +
        (if 1 < certs.length then arrayOh certs.length else 0))
  | .x5t _ fp alg =>
    match alg with
    | .int v => .ok (mapOh + arrayOh 1 + intMemReq v + fp.length + bstrOh fp.length)
    | .bstr b => .ok (mapOh + arrayOh 1 + b.length + bstrOh b.length + fp.length + bstrOh fp.length)
  | .other _ => .err .notSupported

/-- `comp_th_len`. `/repo/library/edhoc_common.c:284-296`. -/
def thLen (n : Nat) : Res Nat := if n = 0 then .err .invalidArgument else .ok (n + bstrOh n)

/-- `comp_cred_len`. `/repo/library/edhoc_common.c:298-334`. -/
def credLen : Cred → Res Nat
  | .any _ _ cred => .ok cred.length
  | .kid cred _ _ => .ok (cred.length + bstrOh cred.length)
  | .x5chain certs => .ok ((certs.headD []).length + bstrOh (certs.headD []).length)
  | .x5t cert _ _ => .ok (cert.length + bstrOh cert.length)
  | .other _ => .err .notSupported

/-- length of an EAD value; 0 for a NULL pointer -/
def EadTok.valueLen (t : EadTok) : Nat := (t.value.getD []).length

/-- `comp_ead_len`. `/repo/library/edhoc_common.c:336-350`. -/
def eadLen (ts : List EadTok) : Nat :=
  (ts.map fun t => intMemReq t.label + t.valueLen + bstrOh t.valueLen).sum

/-! ## MAC context -/

/-- `struct mac_context`. `/repo/include/edhoc_common.h:48-93`: the five consecutive parts of its buffer and
the compact encoding of ID_CRED. `idInt` is the four bytes in memory of `id_cred_int`
(little-endian machine). -/
structure MacCtx where
  connId : Bytes
  idCred : Bytes
  th : Bytes
  cred : Bytes
  ead : Bytes
  isComp : Bool
  encType : EncType
  idInt : Bytes
  idBstr : Bytes
  deriving DecidableEq, Repr

/-- the buffer `buf[0..buf_len]` -/
def MacCtx.buf (m : MacCtx) : Bytes := m.connId ++ m.idCred ++ m.th ++ m.cred ++ m.ead

/-- `buf` starting at `th`: the external AAD of the signature -/
def MacCtx.aad (m : MacCtx) : Bytes := m.th ++ m.cred ++ m.ead

/-- little-endian bytes of an `int32_t` -/
def leBytes (v : Int) : Bytes :=
  let n := (v % 4294967296).toNat
  [UInt8.ofNat n, UInt8.ofNat (n / 256), UInt8.ofNat (n / 65536), UInt8.ofNat (n / 16777216)]

/-- Compact encoding of ID_CRED: type, integer bytes, byte string. -/
structure Comp where
  encType : EncType
  idInt : Bytes
  idBstr : Bytes
  deriving DecidableEq, Repr

/-- `kid_compact_encoding`. `/repo/library/edhoc_common.c:352-439`. -/
def kidCompact (cfg : Config) (isCbor : Bool) : IntOrBytes → Res Comp
  | .int v =>
    if isCbor then .ok ⟨.integer, leBytes v, []⟩
    else
      match fits 4 (encInt v) with
      | some b => .ok ⟨.integer, fitLen 4 b, []⟩
      | none => .err .cbor
  | .bstr b =>
    if isCbor then
      if b.length = 1 then
        match getInt cfg.dec (b ++ [0, 0, 0]) with
        | none => .err .cbor
        | some (r, _) =>
          if intMemReq r = 1 then .ok ⟨.integer, b ++ [0, 0, 0], []⟩
          else if b.length ≤ cfg.maxKid + 1 then .ok ⟨.byteString, [0, 0, 0, 0], b⟩
          else .ub .oob
      else if b.length ≤ cfg.maxKid + 1 then .ok ⟨.byteString, [0, 0, 0, 0], b⟩
      else .ub .oob
    else
      match fits cfg.maxKid (encBstr b) with
      | some e => .ok ⟨.byteString, [0, 0, 0, 0], e⟩
      | none => .err .cbor

/-- C_R for the MAC_2 context: the peer's identifier for the Initiator, the own one for the
Responder. `/repo/library/edhoc_common.c:663-671`. -/
def macCid (c : Ctx) : Cid :=
  match c.role with
  | .initiator => c.peerCid
  | .responder => c.cid

/-- `edhoc_comp_mac_context_length`. `/repo/library/edhoc_common.c:635-721`. -/
def macContextLen (cfg : Config) (c : Ctx) (cr : Cred) : Res Nat := do
  Res.require (c.message != .msg4) .badState
  let l1 := if c.message = .msg2 then cidLen (macCid c) else 0
  let l2 ← idCredLen cfg cr
  let l3 ← thLen c.th.length
  let l4 ← credLen cr
  pure (l1 + l2 + l3 + l4 + eadLen c.ead)

/-- the map form of ID_CRED. `/repo/library/edhoc_common.c:823-925`. -/
def credMap : Cred → Res CredMap
  | .kid _ _ id => .ok ⟨some id, none, none⟩
  | .x5chain certs =>
    if certs.length = 0 then .err .badState
    else if certs.length = 1 then .ok ⟨none, some (.one (certs.headD [])), none⟩
    else if 3 < certs.length then .err .bufferTooSmall
    else .ok ⟨none, some (.list certs), none⟩
  | .x5t _ fp alg => .ok ⟨none, none, some (alg, fp)⟩
  | .any _ _ _ => .ok ⟨none, none, none⟩
  | .other _ => .err .credentials

/-- encoding of ID_CRED into `cap` bytes. `/repo/library/edhoc_common.c:927-941`. -/
def macIdCred (cap : Nat) (cr : Cred) : Res Bytes := do
  let m ← credMap cr
  match cr with
  | .any idCred _ _ => .ok idCred
  | _ => Res.ofOption .cbor ((encCredMap m).bind (fits cap))

/-- compact encoding of ID_CRED. `/repo/library/edhoc_common.c:943-977`. -/
def macComp (cfg : Config) : Cred → Res (Option Comp)
  | .kid _ isCbor id => do
    let k ← Res.mapErr .cbor (kidCompact cfg isCbor id)
    pure (some k)
  | .any _ (some (.integer, b)) _ =>
    if b.length ≤ 4 then .ok (some ⟨.integer, fitLen 4 b, []⟩) else .ub .oob
  | .any _ (some (.byteString, b)) _ =>
    if b.length ≤ cfg.maxKid + 1 then .ok (some ⟨.byteString, [0, 0, 0, 0], b⟩) else .ub .oob
  | _ => .ok none

/-- encoding of CRED into `cap` bytes. `/repo/library/edhoc_common.c:1011-1066`. -/
def macCred (cap : Nat) : Cred → Res Bytes
  | .kid cred isCbor _ => if isCbor then .ok cred else Res.ofOption .cbor (fits cap (encBstr cred))
  | .any _ _ cred => .ok cred
  | .x5chain certs => Res.ofOption .cbor (fits cap (encBstr (certs.headD [])))
  | .x5t cert _ _ => Res.ofOption .cbor (fits cap (encBstr cert))
  | .other _ => .err .credentials

/-- `edhoc_comp_mac_context` with a buffer of `bufLen` bytes. `/repo/library/edhoc_common.c:723-1137`.
The `guardUB` steps are the places where a part is written at its offset with its own capacity,
without a check against the end of the buffer. -/
def macContext (cfg : Config) (c : Ctx) (cr : Cred) (bufLen : Nat) : Res MacCtx := do
  Res.require (c.message != .msg4) .badState
  Res.require (c.message != .msg2 || c.thState == .th2) .badState
  Res.require (c.message != .msg3 || c.thState == .th3) .badState
  -- C_R
  let connId ←
    (if c.message = .msg2 then
      Res.bind (Res.guardUB (cidLen (macCid c) ≤ bufLen) .oob) fun _ =>
        match macCid c with
        | .int v => Res.ofOption .cbor (fits 1 (encInt v))
        | .bstr b => Res.ofOption .cbor (fits (cidLen (.bstr b)) (encBstr b))
    else .ok [])
  -- ID_CRED
  let l2 ← idCredLen cfg cr
  Res.guardUB (connId.length + l2 ≤ bufLen) .oob
  let idCred ← macIdCred l2 cr
  let comp ← macComp cfg cr
  -- TH
  let o3 := connId.length + idCred.length
  let l3 ← thLen c.th.length
  Res.guardUB (o3 + l3 ≤ bufLen) .oob
  let th ← Res.ofOption .cbor (fits l3 (encBstr c.th))
  -- CRED
  let o4 := o3 + th.length
  let l4 ← credLen cr
  Res.guardUB (o4 + l4 ≤ bufLen) .oob
  let cred ← macCred l4 cr
  -- EAD
  let o5 := o4 + cred.length
  let ead ←
    (if c.ead.isEmpty then .ok []
    else
      Res.bind (Res.guardUB (c.ead.length ≤ 3) .oob) fun _ =>
      Res.bind (Res.guardUB (o5 + eadLen c.ead ≤ bufLen) .oob) fun _ =>
        Res.ofOption .cbor ((encEad c.ead).bind (fits (eadLen c.ead))))
  Res.require (o5 + ead.length ≤ bufLen) .bufferTooSmall
  pure
    { connId := connId, idCred := idCred, th := th, cred := cred, ead := ead
      isComp := comp.isSome
      encType := (comp.map Comp.encType).getD .integer
      idInt := (comp.map Comp.idInt).getD [0, 0, 0, 0]
      idBstr := (comp.map Comp.idBstr).getD [] }

/-! ## MAC and Signature_or_MAC -/

/-- Does the current message carry a signature (`true`) or a MAC (`false`)? The `switch` over the
method shared by `/repo/library/edhoc_common.c:1154-1190, 1314-1350, 1371-1410, 1431-1479`. `none`: invalid
message or method. -/
def usesSign (c : Ctx) : Option Bool :=
  match c.message with
  | .msg2 =>
    if c.chosenMethod = 0 ∨ c.chosenMethod = 2 then some true
    else if c.chosenMethod = 1 ∨ c.chosenMethod = 3 then some false
    else none
  | .msg3 =>
    if c.chosenMethod = 0 ∨ c.chosenMethod = 1 then some true
    else if c.chosenMethod = 2 ∨ c.chosenMethod = 3 then some false
    else none
  | _ => none

/-- `edhoc_comp_mac_length`. `/repo/library/edhoc_common.c:1139-1194`. -/
def macLength (c : Ctx) : Res Nat :=
  match usesSign c with
  | some true => .ok c.suite.hash
  | some false => .ok c.suite.mac
  | none => .err .notPermitted

/-- `edhoc_comp_sign_or_mac_length`. `/repo/library/edhoc_common.c:1299-1355`. -/
def signOrMacLength (c : Ctx) : Res Nat :=
  match usesSign c with
  | some true => .ok c.suite.eccSign
  | some false => .ok c.suite.mac
  | none => .err .notPermitted

/-- KDF label of the MAC of the current message. `/repo/library/edhoc_common.c:1229-1233`. -/
def macLabel (c : Ctx) : Nat := if c.message = .msg3 then 6 else 2

/-- `edhoc_comp_mac`. `/repo/library/edhoc_common.c:1196-1297`. -/
def compMac (E : Env σ) (cfg : Config) (buf : Bytes) (macLen : Nat) : M σ Bytes := do
  let c ← getCtx
  require (macLen != 0) .invalidArgument
  require (c.message != .msg4) .badState
  require (c.message != .msg2 || c.prkState == .prk3e2m) .badState
  require (c.message != .msg3 || c.prkState == .prk4e3m) .badState
  let n := intMemReq (macLabel c) + (buf.length + bstrOh buf.length) + intMemReq (i32 macLen)
  memAlloc E cfg n
  let info ← ofOption .cbor (fits n (encInfo (macLabel c) buf (u32 macLen)))
  require (c.message != .msg1) .notPermitted
  let r ← withKey E .expand c.prk .crypto (fun kid => expand E kid info macLen)
  ofOption .crypto r

/-- size of the buffer for the Sig_structure. `/repo/library/edhoc_common.c:461-469, 521-529`. -/
def sigBufLen (m : MacCtx) (macLen : Nat) : Nat :=
  11 + bstrOh 11 + m.idCred.length + bstrOh m.idCred.length + m.aad.length + bstrOh m.aad.length +
    macLen + intMemReq (i32 macLen)

/-- `sign_cose_sign_1`. `/repo/library/edhoc_common.c:441-498`. The callback's reported length is not checked
against the buffer: more than `signSize` bytes is a fault of the callback. -/
def signCose (E : Env σ) (cfg : Config) (privKeyId : Bytes) (m : MacCtx) (mac : Bytes)
    (signSize : Nat) : M σ Bytes := do
  memAlloc E cfg (sigBufLen m mac.length)
  let input ← ofOption .cbor
    (fits (sigBufLen m mac.length) (encSigStructure m.idCred m.aad mac))
  let r ← sign E privKeyId input
  let sig ← ofOption .crypto r
  guardUB (sig.length ≤ signSize) .callback
  pure sig

/-- `verify_cose_sign_1`. `/repo/library/edhoc_common.c:500-568`. -/
def verifyCose (E : Env σ) (cfg : Config) (m : MacCtx) (pubKey mac sig : Bytes) : M σ Unit := do
  memAlloc E cfg (sigBufLen m mac.length)
  let input ← ofOption .cbor
    (fits (sigBufLen m mac.length) (encSigStructure m.idCred m.aad mac))
  let r ← withKey E .verify pubKey .crypto (fun kid => verify E kid input sig)
  require r .crypto

/-- `edhoc_comp_sign_or_mac`. `/repo/library/edhoc_common.c:1357-1414`. A MAC longer than the output buffer is
written out of bounds. -/
def compSignOrMac (E : Env σ) (cfg : Config) (privKeyId : Bytes) (m : MacCtx) (mac : Bytes)
    (signSize : Nat) : M σ Bytes := do
  let c ← getCtx
  require (mac.length != 0 && signSize != 0) .invalidArgument
  match usesSign c with
  | some true => signCose E cfg privKeyId m mac signSize
  | some false => do
    guardUB (mac.length ≤ signSize) .oob
    pure mac
  | none => fail (if c.message = .msg2 ∨ c.message = .msg3 then .notPermitted else .badState)

/-- `edhoc_verify_sign_or_mac`. `/repo/library/edhoc_common.c:1416-1483`. `pubKey = none` is a NULL pointer. -/
def verifySignOrMac (E : Env σ) (cfg : Config) (m : MacCtx) (pubKey : Option Bytes)
    (signOrMac mac : Bytes) : M σ Unit := do
  let c ← getCtx
  let pk ← ofOption .invalidArgument pubKey
  require (pk.length != 0 && signOrMac.length != 0 && mac.length != 0) .invalidArgument
  match usesSign c with
  | some true => verifyCose E cfg m pk mac signOrMac
  | some false =>
    require (decide (mac.length = signOrMac.length) && decide (signOrMac = mac))
      (if c.message = .msg2 then .invalidSignOrMac2 else .invalidSignOrMac3)
  | none => fail (if c.message = .msg2 ∨ c.message = .msg3 then .notPermitted else .badState)

/-! ## EAD callbacks -/

/-- EAD compose. `/repo/library/edhoc_message_1.c:200-228` and the same code in messages 2, 3 and 4. -/
def eadCompose (E : Env σ) (cfg : Config) : M σ Unit := do
  let c ← getCtx
  whenM (c.hasEadCompose && cfg.maxEad != 0) (do
    let r ← call (fun e => E.eadCompose e c.message) (.eadCompose c.message)
    let ts ← ofOption .eadCompose r
    modCtx (fun c => { c with ead := ts })
    require (ts.length ≤ cfg.maxEad) .eadCompose)

/-- EAD process in messages 2, 3 and 4. `/repo/library/edhoc_message_2.c:1913-1938` and the same code in
messages 3 and 4. -/
def eadProcess (E : Env σ) (cfg : Config) : M σ Unit := do
  let c ← getCtx
  whenM (c.hasEadProcess && cfg.maxEad != 0 && !c.ead.isEmpty) (do
    let ok ← call (fun e => E.eadProcess e c.message c.ead) (.eadProcess c.message c.ead)
    require ok .eadProcess)

/-- clear the EAD tokens at the end of a message -/
def clearEad : M σ Unit := modCtx fun c => { c with ead := [] }

end Verif
