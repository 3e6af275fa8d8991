import Verif.Msg3

/-!
# message_4

Model of `/repo/library/edhoc_message_4.c`.
-/

namespace Verif

open M

variable {σ : Type}

/-- State check of message_4 (both directions; the role of the session is not looked at).
`/repo/library/edhoc_message_4.c:582-588, 782-788`. -/
def okCompleted (c : Ctx) : Bool :=
  c.status == .completed && c.thState == .th4 && c.prkState == .prk4e3m

/-- The three buffers and `compute_key_iv_aad_4` as called by compose and process.
`/repo/library/edhoc_message_4.c:275-290, 649-690, 812-853`. -/
def keyIvAad4 (E : Env σ) (cfg : Config) : M σ (Bytes × Bytes × Bytes) := do
  let c ← getCtx
  memAlloc E cfg c.suite.aeadKey
  memAlloc E cfg c.suite.aeadIv
  memAlloc E cfg (aadLen c.th.length)
  mapErr .crypto (do
    require (c.suite.aeadKey != 0 && c.suite.aeadIv != 0) .invalidArgument
    require (c.thState == .th4 && c.prkState == .prk4e3m) .badState
    keyIvAad E cfg 8 9)

/-- `prepare_plaintext_4`. `/repo/library/edhoc_message_4.c:218-262`. -/
def preparePtxt4 (c : Ctx) (size : Nat) : Res Bytes := do
  Res.require (c.ead.length ≤ 3) .bufferTooSmall
  Res.ofOption .cbor ((encEadOpt c.ead).bind (fits size))

/-- `gen_msg_4`. `/repo/library/edhoc_message_4.c:439-464`. -/
def genMsg4 (ctxt : Bytes) (size : Nat) : M σ Bytes := do
  require (ctxt.length != 0 && size != 0) .invalidArgument
  ofOption .cbor (fits size (encBstr ctxt))

/-- `edhoc_message_4_compose`. `/repo/library/edhoc_message_4.c:571-761`. `eadLen` is also the computation of
`compute_plaintext_4_len` (lines 198-216). -/
def message4Compose (E : Env σ) (cfg : Config) (size : Nat) : M σ Bytes := do
  require (size != 0) .invalidArgument
  enter okCompleted .msg4 .responder
  eadCompose E cfg
  let c ← getCtx
  memAlloc E cfg (eadLen c.ead)
  let ptxt ← ofRes (Res.mapErr .cbor (preparePtxt4 c (eadLen c.ead)))
  let kia ← keyIvAad4 E cfg
  memAlloc E cfg (eadLen c.ead + c.suite.aeadTag)
  let ct ← mapErr .crypto
    (aeadEncrypt E kia.1 kia.2.1 kia.2.2 ptxt (eadLen c.ead + c.suite.aeadTag))
  let msg ← mapErr .cbor (genMsg4 ct size)
  modCtx fun c => { c with ead := [], status := .persisted, errorCode := .success }
  pure msg

/-- `parse_plaintext_4`. `/repo/library/edhoc_message_4.c:527-557`. -/
def parsePtxt4 (cfg : Config) (ptxt : Bytes) : M σ Unit := do
  let ts := getPtxt4 cfg.dec ptxt
  guardUB (ts.length ≤ cfg.maxEad + 1) .oob
  modCtx fun c => { c with ead := ts }
  handOver cfg (staleEad cfg.dec 3 ptxt)

/-- `edhoc_message_4_process`. `/repo/library/edhoc_message_4.c:772-934`. The plaintext length is an
unchecked `size_t` subtraction. -/
def message4Process (E : Env σ) (cfg : Config) (msg : Bytes) : M σ Unit := do
  require (msg.length != 0) .invalidArgument
  enter okCompleted .msg4 .initiator
  let ctxt ← ofOption .msg4Process (getMsgBstr cfg.dec msg)
  let kia ← keyIvAad4 E cfg
  let c ← getCtx
  let pLen := subSize ctxt.length c.suite.aeadTag
  memAlloc E cfg pLen
  let ptxt ← mapErr .crypto (aeadDecrypt E kia.1 kia.2.1 kia.2.2 ctxt pLen)
  mapErr .cbor (parsePtxt4 cfg ptxt)
  eadProcess E cfg
  modCtx fun c => { c with ead := [], status := .persisted, errorCode := .success }

end Verif
