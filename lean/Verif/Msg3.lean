import Verif.Msg2

/-!
# message_3

Model of `/repo/library/edhoc_message_3.c`.
-/

namespace Verif

open M

variable {σ : Type}

/-! ## Key schedule and transcript hash -/

/-- `comp_salt_4e3m`. `/repo/library/edhoc_message_3.c:1037-1106`. -/
def compSalt4e3m (E : Env σ) (cfg : Config) : M σ Bytes := do
  let c ← getCtx
  require (c.suite.hash != 0) .invalidArgument
  require (c.thState == .th3 && c.prkState == .prk3e2m) .badState
  kdfExact E cfg c.prk 5 c.th c.suite.hash

/-- `comp_giy`. `/repo/library/edhoc_message_3.c:1108-1176`. -/
def compGiy (E : Env σ) (privKeyId pubKey : Bytes) : M σ Bytes := do
  let c ← getCtx
  require (c.suite.eccKey != 0) .invalidArgument
  match c.role with
  | .initiator => agreeStatic E privKeyId
  | .responder => agreeEphemeral E pubKey

/-- `comp_prk_4e3m`. `/repo/library/edhoc_message_3.c:270-374`. -/
def compPrk4e3m (E : Env σ) (cfg : Config) (privKeyId pubKey : Bytes) : M σ Unit := do
  let c ← getCtx
  require (c.prkState == .prk3e2m) .badState
  if c.chosenMethod = 0 ∨ c.chosenMethod = 1 then
    modCtx fun c => { c with prkState := .prk4e3m }
  else if c.chosenMethod = 2 ∨ c.chosenMethod = 3 then do
    memAlloc E cfg c.suite.hash
    let salt ← mapErr .crypto (compSalt4e3m E cfg)
    memAlloc E cfg c.suite.eccKey
    let giy ← mapErr .crypto (compGiy E privKeyId pubKey)
    let p ← extractPrk E cfg giy salt
    modCtx fun c => { c with prk := p, prkState := .prk4e3m }
  else fail .notPermitted

/-- EDHOC_Expand with `info = (label, context, len)` encoded into a buffer of `n` bytes (which may be
larger than the encoding). `/repo/library/edhoc_message_3.c:542-579` and the same code for IV_3, K_4, IV_4,
PRK_out, PRK_exporter and the exporter. -/
def expandInfo (E : Env σ) (n : Nat) (prk : Bytes) (label : Nat) (context : Bytes)
    (len outLen : Nat) : M σ Bytes := do
  let info ← ofOption .cbor (fits n (encInfo label context (u32 len)))
  let r ← withKey E .expand prk .crypto (fun kid => expand E kid info outLen)
  ofOption .crypto r

/-- `comp_aad_3_len`, `compute_aad_4_len`. `/repo/library/edhoc_message_3.c:490-505`,
`/repo/library/edhoc_message_4.c:264-273`. -/
def aadLen (thLen : Nat) : Nat := 9 + bstrOh 9 + 1 + thLen + bstrOh thLen

/-- `comp_key_iv_aad_3` (labels 3 and 4) and `compute_key_iv_aad_4` (labels 8 and 9), after their
argument and state checks. `/repo/library/edhoc_message_3.c:524-636`, `/repo/library/edhoc_message_4.c:292-405`. The whole AAD buffer is
passed on, so a shorter encoding would leave zero bytes at its end. -/
def keyIvAad (E : Env σ) (cfg : Config) (labelK labelIv : Nat) : M σ (Bytes × Bytes × Bytes) := do
  let c ← getCtx
  let n := 1 + (c.th.length + bstrOh c.th.length) + intMemReq (i32 c.suite.aeadKey)
  memAlloc E cfg n
  let k ← expandInfo E n c.prk labelK c.th c.suite.aeadKey c.suite.aeadKey
  let iv ← expandInfo E n c.prk labelIv c.th c.suite.aeadIv c.suite.aeadIv
  let aad ← ofOption .cbor (fits (aadLen c.th.length) (encEncStructure [] c.th))
  pure (k, iv, fitLen (aadLen c.th.length) aad)

/-- The three buffers and `comp_key_iv_aad_3` as called by compose and process.
`/repo/library/edhoc_message_3.c:507-523, 1262-1304, 1622-1664`. -/
def keyIvAad3 (E : Env σ) (cfg : Config) : M σ (Bytes × Bytes × Bytes) := do
  let c ← getCtx
  memAlloc E cfg c.suite.aeadKey
  memAlloc E cfg c.suite.aeadIv
  memAlloc E cfg (aadLen c.th.length)
  mapErr .crypto (do
    require (c.suite.aeadKey != 0 && c.suite.aeadIv != 0) .invalidArgument
    require (c.thState == .th3) .badState
    keyIvAad E cfg 3 4)

/-- `comp_th_4`. `/repo/library/edhoc_message_3.c:677-756`. -/
def compTh4 (E : Env σ) (cfg : Config) (cred ptxt : Bytes) : M σ Unit := do
  let c ← getCtx
  require (ptxt.length != 0) .invalidArgument
  require (c.thState == .th3) .badState
  let n := (c.th.length + bstrOh c.th.length) + ptxt.length + cred.length
  memAlloc E cfg n
  let a ← ofOption .cbor (fits n (encBstr c.th))
  guardUB (a.length + ptxt.length + cred.length ≤ n) .oob
  let h ← hashTh E cfg (fitLen n (a ++ ptxt ++ cred))
  modCtx fun c => { c with th := h, thState := .th4 }

/-! ## AEAD -/

/-- `comp_ciphertext` after its argument checks, and `compute_ciphertext`.
`/repo/library/edhoc_message_3.c:653-675`, `/repo/library/edhoc_message_4.c:414-437`. The callback's reported length is not
checked against the buffer of `size` bytes. -/
def aeadEncrypt (E : Env σ) (key iv aad ptxt : Bytes) (size : Nat) : M σ Bytes := do
  let r ← withKey E .encrypt key .crypto (fun kid => encrypt E kid iv aad ptxt)
  let ct ← ofOption .crypto r
  guardUB (ct.length ≤ size) .callback
  pure ct

/-- `decrypt_ciphertext_3` after its argument checks, and `decrypt_ciphertext_4`.
`/repo/library/edhoc_message_3.c:828-851`, `/repo/library/edhoc_message_4.c:500-525`. -/
def aeadDecrypt (E : Env σ) (key iv aad ctxt : Bytes) (ptxtLen : Nat) : M σ Bytes := do
  let r ← withKey E .decrypt key .crypto (fun kid => decrypt E kid iv aad ctxt)
  let pt ← ofOption .crypto r
  require (pt.length == ptxtLen) .crypto
  pure pt

/-! ## message_3 -/

/-- `comp_plaintext_3_len`: the length of the own connection identifier is added although
PLAINTEXT_3 does not contain it. `/repo/library/edhoc_message_3.c:376-418`. -/
def ptxt3Len (c : Ctx) (m : MacCtx) (signLen : Nat) : Res Nat := ptxt2Len c m signLen

/-- `prepare_plaintext_3`. `/repo/library/edhoc_message_3.c:420-488`. -/
def preparePtxt3 (m : MacCtx) (sig : Bytes) (size : Nat) : Res Bytes := do
  Res.require (sig.length != 0 && size != 0) .invalidArgument
  ptxtTail m sig 0 size

/-- `gen_msg_3`: the capacity given to the encoder is one more than the size of the buffer.
`/repo/library/edhoc_message_3.c:758-783`. -/
def genMsg3 (ctxt : Bytes) (size : Nat) : M σ Bytes := do
  require (ctxt.length != 0 && size != 0) .invalidArgument
  let msg ← ofOption .cbor (fits (size + 1) (encBstr ctxt))
  guardUB (msg.length ≤ size) .oob
  pure msg

/-- State check of message_3 compose. `/repo/library/edhoc_message_3.c:1208-1214`. -/
def okVerifiedM2 (c : Ctx) : Bool :=
  c.status == .verifiedM2 && c.thState == .th3 && c.prkState == .prk3e2m

/-- `edhoc_message_3_compose`. `/repo/library/edhoc_message_3.c:1197-1557`. -/
def message3Compose (E : Env σ) (cfg : Config) (size : Nat) : M σ Bytes := do
  require (size != 0) .invalidArgument
  enter okVerifiedM2 .msg3 .initiator
  eadCompose E cfg
  let f ← credFetch E
  let f ← ofOption .credentials f
  let kia ← keyIvAad3 E cfg
  mapErr .crypto (compPrk4e3m E cfg f.2 [])
  let m ← buildMacCtx E cfg none f.1
  let c ← getCtx
  let macLen ← ofRes (Res.mapErr .invalidMac3 (macLength c))
  memAlloc E cfg macLen
  let mac ← mapErr .invalidMac3 (compMac E cfg m.buf macLen)
  let sLen ← ofRes (signOrMacLength c)
  memAlloc E cfg sLen
  let sig ← compSignOrMac E cfg f.2 m mac sLen
  let pLen ← ofRes (ptxt3Len c m sig.length)
  memAlloc E cfg pLen
  let ptxt ← ofRes (Res.mapErr .cbor (preparePtxt3 m sig pLen))
  memAlloc E cfg (ptxt.length + c.suite.aeadTag)
  let ct ← mapErr .crypto (aeadEncrypt E kia.1 kia.2.1 kia.2.2 ptxt (ptxt.length + c.suite.aeadTag))
  mapErr .transcriptHash (compTh4 E cfg m.cred ptxt)
  let msg ← mapErr .cbor (genMsg3 ct size)
  modCtx fun c =>
    { c with ead := [], oscoreAllowed := true, status := .completed, errorCode := .success }
  pure msg

/-- State check of message_3 process. `/repo/library/edhoc_message_3.c:1586-1592`. -/
def okWaitM3 (c : Ctx) : Bool :=
  c.status == .waitM3 && c.thState == .th3 && c.prkState == .prk3e2m

/-- The union member selected by a received ID_CRED map in message_3: x5chain wins over x5t; a map
with neither leaves the zeroed structure. `/repo/library/edhoc_message_3.c:894-1005`. -/
def credOfMap3 (cfg : Config) (m : CredMap) : Res Cred :=
  match m.x5chain with
  | some (.one c) => .ok (.x5chain [c])
  | some (.list l) => recvChain cfg l
  | none =>
    match m.x5t with
    | some (.int a, fp) => .ok (.x5t [] fp (.int a))
    | some (.bstr a, fp) => recvHash cfg a fp
    | none => .ok (.other 0)

/-- `parse_plaintext_3`. `/repo/library/edhoc_message_3.c:853-1035`. -/
def parsePtxt3 (cfg : Config) (ptxt : Bytes) : M σ (Cred × Bytes) := do
  require (ptxt.length != 0) .invalidArgument
  let p ← ofOption .cbor (getPtxt3 cfg.dec ptxt)
  let cr ← ofRes (credOfIdCred cfg credOfMap3 p.idCred)
  storeEad cfg p.ead (stalePtxt3 cfg.dec ptxt)
  pure (cr, p.sig)

/-- `edhoc_message_3_process`. `/repo/library/edhoc_message_3.c:1576-1852`. The plaintext length is an
unchecked `size_t` subtraction. -/
def message3Process (E : Env σ) (cfg : Config) (msg : Bytes) : M σ Unit := do
  require (msg.length != 0) .invalidArgument
  enter okWaitM3 .msg3 .responder
  let ctxt ← ofOption .msg3Process (getMsgBstr cfg.dec msg)
  let kia ← keyIvAad3 E cfg
  let c ← getCtx
  let pLen := subSize ctxt.length c.suite.aeadTag
  memAlloc E cfg pLen
  let ptxt ← mapErr .crypto (do
    require (ctxt.length != 0 && pLen != 0) .invalidArgument
    aeadDecrypt E kia.1 kia.2.1 kia.2.2 ctxt pLen)
  let p ← mapErr .cbor (parsePtxt3 cfg ptxt)
  eadProcess E cfg
  let v ← verifyCred E p.1
  mapErr .crypto (compPrk4e3m E cfg [] (v.2.getD []))
  let m ← buildMacCtx E cfg (some .invalidMac3) v.1
  let c ← getCtx
  let macLen ← ofRes (Res.mapErr .invalidMac3 (macLength c))
  memAlloc E cfg macLen
  let mac ← mapErr .invalidMac3 (compMac E cfg m.buf macLen)
  mapErr .invalidSignOrMac3 (verifySignOrMac E cfg m v.2 p.2 mac)
  mapErr .transcriptHash (compTh4 E cfg m.cred ptxt)
  modCtx fun c =>
    { c with ead := [], oscoreAllowed := true, status := .completed, errorCode := .success }

end Verif
