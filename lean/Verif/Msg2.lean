import Verif.Msg1

/-!
# message_2

Model of `/repo/library/edhoc_message_2.c`.
-/

namespace Verif

open M

variable {σ : Type}

/-! ## Key schedule and transcript hashes -/

/-- `gen_dh_keys`. `/repo/library/edhoc_message_2.c:274-317`. -/
def genDhKeys (E : Env σ) (cfg : Config) : M σ Unit := do
  let c ← getCtx
  let kp ← withKey E .makeKeyPair [] .crypto (fun kid => do
    guardUB (c.suite.eccKey ≤ cfg.maxEccKey) .oob
    makeKeyPair E kid)
  let kp ← ofOption .crypto kp
  modCtx fun c => { c with dhPriv := kp.1, dhPub := kp.2 }
  require (kp.1.length == c.suite.eccKey && kp.2.length == c.suite.eccKey) .crypto

/-- `comp_dh_secret`. `/repo/library/edhoc_message_2.c:319-357`. -/
def compDhSecret (E : Env σ) (cfg : Config) : M σ Unit := do
  let c ← getCtx
  let s ← withKey E .keyAgreement c.dhPriv .crypto (fun kid => do
    guardUB (c.suite.eccKey ≤ cfg.maxEccKey) .oob
    keyAgreement E kid c.dhPeerPub)
  let s ← ofOption .crypto s
  modCtx fun c => { c with dhSecret := s }
  require (s.length == c.suite.eccKey) .crypto

/-- G_Y: received by the Initiator, generated by the Responder. `/repo/library/edhoc_message_2.c:395-408`. -/
def gY (c : Ctx) : Bytes :=
  match c.role with
  | .initiator => c.dhPeerPub
  | .responder => c.dhPub

/-- `comp_th_2`. `/repo/library/edhoc_message_2.c:359-463`. -/
def compTh2 (E : Env σ) (cfg : Config) : M σ Unit := do
  let c ← getCtx
  require (c.thState == .th1) .badState
  let gyLen := c.suite.eccKey + bstrOh c.suite.eccKey
  let hLen := c.suite.hash + bstrOh c.suite.hash
  memAlloc E cfg (gyLen + hLen)
  let a ← ofOption .cbor (fits gyLen (encBstr (gY c)))
  require (a.length == gyLen) .cbor
  let b ← ofOption .cbor (fits hLen (encBstr c.th))
  require (b.length == hLen) .cbor
  let h ← hashTh E cfg (a ++ b)
  modCtx fun c => { c with th := h, thState := .th2 }

/-- `crypto.extract` into `ctx->prk`, with the length check. `/repo/library/edhoc_message_2.c:481-503, 575-602`. -/
def extractPrk (E : Env σ) (cfg : Config) (ikm salt : Bytes) : M σ Bytes := do
  let c ← getCtx
  let r ← withKey E .extract ikm .crypto (fun kid => do
    guardUB (c.suite.hash ≤ cfg.maxMac) .oob
    extract E kid salt)
  let p ← ofOption .crypto r
  require (p.length == c.suite.hash) .crypto
  pure p

/-- `comp_prk_2e`. `/repo/library/edhoc_message_2.c:465-506`. -/
def compPrk2e (E : Env σ) (cfg : Config) : M σ Unit := do
  let c ← getCtx
  require (c.thState == .th2 && c.prkState == .invalid) .badState
  let p ← extractPrk E cfg c.dhSecret c.th
  modCtx fun c => { c with prk := p, prkState := .prk2e }

/-- EDHOC_Expand with `info = (label, context, outLen)`, where the encoded info must fill its buffer
exactly. `/repo/library/edhoc_message_2.c:782-831` and the same code for SALT_3e2m and SALT_4e3m. -/
def kdfExact (E : Env σ) (cfg : Config) (prk : Bytes) (label : Nat) (context : Bytes)
    (outLen : Nat) : M σ Bytes := do
  let n := intMemReq label + (context.length + bstrOh context.length) + intMemReq (i32 outLen)
  memAlloc E cfg n
  let info ← ofOption .cbor (fits n (encInfo label context (u32 outLen)))
  require (info.length == n) .cbor
  let r ← withKey E .expand prk .crypto (fun kid => expand E kid info outLen)
  ofOption .crypto r

/-- `comp_salt_3e2m`. `/repo/library/edhoc_message_2.c:1258-1327`. -/
def compSalt3e2m (E : Env σ) (cfg : Config) : M σ Bytes := do
  let c ← getCtx
  require (c.suite.hash != 0) .invalidArgument
  require (c.thState == .th2 && c.prkState == .prk2e) .badState
  kdfExact E cfg c.prk 1 c.th c.suite.hash

/-- `comp_grx` (Initiator) and `comp_giy` (Responder) with the ephemeral key: import it, wipe it,
agree with the peer's static public key, destroy the imported key.
`/repo/library/edhoc_message_2.c:1340-1368`, `/repo/library/edhoc_message_3.c:1138-1166`. -/
def agreeEphemeral (E : Env σ) (pubKey : Bytes) : M σ Bytes := do
  let c ← getCtx
  let k ← importKey E .keyAgreement c.dhPriv
  modCtx fun c => { c with dhPriv := [] }
  let kid ← ofOption .crypto k
  let r ← keyAgreement E kid pubKey
  destroyKey E kid
  let s ← ofOption .crypto r
  require (s.length == c.suite.eccKey) .crypto
  pure s

/-- the same with the own static key (not imported by the library).
`/repo/library/edhoc_message_2.c:1370-1386`, `/repo/library/edhoc_message_3.c:1118-1136`. -/
def agreeStatic (E : Env σ) (privKeyId : Bytes) : M σ Bytes := do
  let c ← getCtx
  let r ← keyAgreement E privKeyId c.dhPeerPub
  let s ← ofOption .crypto r
  require (s.length == c.suite.eccKey) .crypto
  pure s

/-- `comp_grx`. `/repo/library/edhoc_message_2.c:1329-1397`. -/
def compGrx (E : Env σ) (privKeyId pubKey : Bytes) : M σ Bytes := do
  let c ← getCtx
  require (c.suite.eccKey != 0) .invalidArgument
  match c.role with
  | .initiator => agreeEphemeral E pubKey
  | .responder => agreeStatic E privKeyId

/-- `comp_prk_3e2m`. `/repo/library/edhoc_message_2.c:508-614`. -/
def compPrk3e2m (E : Env σ) (cfg : Config) (privKeyId pubKey : Bytes) : M σ Unit := do
  let c ← getCtx
  require (c.prkState == .prk2e) .badState
  if c.chosenMethod = 0 ∨ c.chosenMethod = 2 then
    modCtx fun c => { c with prkState := .prk3e2m }
  else if c.chosenMethod = 1 ∨ c.chosenMethod = 3 then do
    memAlloc E cfg c.suite.hash
    let salt ← mapErr .crypto (compSalt3e2m E cfg)
    memAlloc E cfg c.suite.eccKey
    let grx ← mapErr .crypto (compGrx E privKeyId pubKey)
    let p ← extractPrk E cfg grx salt
    modCtx fun c => { c with prk := p, prkState := .prk3e2m }
  else fail .notPermitted

/-- `comp_keystream`. `/repo/library/edhoc_message_2.c:762-833`. -/
def compKeystream (E : Env σ) (cfg : Config) (prk2e : Bytes) (n : Nat) : M σ Bytes := do
  let c ← getCtx
  require (prk2e.length != 0 && n != 0) .invalidArgument
  require (c.thState == .th2) .badState
  kdfExact E cfg prk2e 0 c.th n

/-- `xor_arrays`. `/repo/library/edhoc_message_2.c:835-839`. -/
def xorBytes (a b : Bytes) : Bytes := List.zipWith (fun x y => x ^^^ y) a b

/-- Write `new` over the first bytes of a buffer of `n` bytes that contains `old`. -/
def overlay (n : Nat) (new old : Bytes) : Bytes := fitLen n (new ++ old.drop new.length)

/-- `comp_th_3`. `/repo/library/edhoc_message_2.c:1184-1256`. The reported hash length is not checked: a short
hash leaves the tail of TH_2 in place. -/
def compTh3 (E : Env σ) (cfg : Config) (cred ptxt : Bytes) : M σ Unit := do
  let c ← getCtx
  require (ptxt.length != 0) .invalidArgument
  require (c.thState == .th2) .badState
  let n := (c.th.length + bstrOh c.th.length) + ptxt.length + cred.length
  memAlloc E cfg n
  let a ← ofOption .cbor (fits n (encBstr c.th))
  guardUB (a.length + ptxt.length + cred.length ≤ n) .oob
  guardUB (c.suite.hash ≤ cfg.maxMac) .oob
  let r ← hash E (fitLen n (a ++ ptxt ++ cred))
  let h ← ofOption .crypto r
  guardUB (h.length ≤ c.suite.hash) .callback
  modCtx fun c => { c with th := overlay c.suite.hash h c.th, thState := .th3 }

/-! ## PLAINTEXT_2 and message_2 -/

/-- the `int32_t` with the given little-endian bytes -/
def leInt (b : Bytes) : Int :=
  i32 ((b.getD 0 0).toNat + 256 * (b.getD 1 0).toNat + 65536 * (b.getD 2 0).toNat +
    16777216 * (b.getD 3 0).toNat)

/-- length of ID_CRED in the plaintext. `/repo/library/edhoc_message_2.c:637-650`, `/repo/library/edhoc_message_3.c:397-410`. -/
def idCredPtxtLen (m : MacCtx) : Nat :=
  if m.isComp then
    match m.encType with
    | .integer => intMemReq (leInt m.idInt)
    | .byteString => m.idBstr.length + bstrOh m.idBstr.length
  else m.idCred.length

/-- `comp_plaintext_2_len`. `/repo/library/edhoc_message_2.c:616-658`. -/
def ptxt2Len (c : Ctx) (m : MacCtx) (signLen : Nat) : Res Nat :=
  if signLen = 0 then .err .invalidArgument
  else
    .ok ((match c.cid with
      | .int v => intMemReq v
      | .bstr b => b.length + bstrOh b.length) +
      idCredPtxtLen m + (signLen + bstrOh signLen) + m.ead.length)

/-- ID_CRED as written into the plaintext. `/repo/library/edhoc_message_2.c:709-730`,
`/repo/library/edhoc_message_3.c:431-452`: one byte of the integer, or the compact byte string, or the map. -/
def idCredPtxt (m : MacCtx) : Bytes :=
  if m.isComp then
    match m.encType with
    | .integer => m.idInt.take 1
    | .byteString => m.idBstr
  else m.idCred

/-- ID_CRED, Signature_or_MAC and EAD, written at offset `off` of a buffer of `size` bytes.
`/repo/library/edhoc_message_2.c:709-755`, `/repo/library/edhoc_message_3.c:431-483`. -/
def ptxtTail (m : MacCtx) (sig : Bytes) (off size : Nat) : Res Bytes := do
  let id := idCredPtxt m
  Res.guardUB (off + id.length ≤ size) .oob
  let s ← Res.ofOption .cbor (fits (sig.length + bstrOh sig.length) (encBstr sig))
  Res.guardUB (off + id.length + s.length ≤ size) .oob
  Res.guardUB (off + id.length + s.length + m.ead.length ≤ size) .oob
  pure (id ++ s ++ m.ead)

/-- `prepare_plaintext_2`. `/repo/library/edhoc_message_2.c:660-760`. -/
def preparePtxt2 (c : Ctx) (m : MacCtx) (sig : Bytes) (size : Nat) : Res Bytes := do
  let cid ← Res.ofOption .cbor (fits size
    (match c.cid with | .int v => encInt v | .bstr b => encBstr b))
  let t ← ptxtTail m sig cid.length size
  pure (cid ++ t)

/-- `prepare_message_2`. `/repo/library/edhoc_message_2.c:841-893`. -/
def prepareMsg2 (E : Env σ) (cfg : Config) (ctxt : Bytes) (size : Nat) : M σ Bytes := do
  let c ← getCtx
  require (ctxt.length != 0 && size != 0) .invalidArgument
  memAlloc E cfg (c.dhPub.length + ctxt.length)
  ofOption .cbor (fits size (encBstr (c.dhPub ++ ctxt)))

/-- Build the MAC context in a fresh buffer. `/repo/library/edhoc_message_2.c:1549-1582` and the same code in
`edhoc_message_2_process`, `edhoc_message_3_compose`, `edhoc_message_3_process`. `eLen`: what a
failing length computation is turned into. -/
def buildMacCtx (E : Env σ) (cfg : Config) (eLen : Option Err) (cr : Cred) : M σ MacCtx := do
  let c ← getCtx
  let n ← ofRes (match eLen with
    | some e => Res.mapErr e (macContextLen cfg c cr)
    | none => macContextLen cfg c cr)
  memAlloc E cfg (cfg.macCtxSize + n)
  ofRes (macContext cfg c cr n)

/-- State check of message_2 compose. `/repo/library/edhoc_message_2.c:1433-1435`. -/
def okReceivedM1 (c : Ctx) : Bool :=
  c.status == .receivedM1 && c.thState == .th1 && c.prkState == .invalid

/-- `edhoc_message_2_compose`. `/repo/library/edhoc_message_2.c:1422-1749`. -/
def message2Compose (E : Env σ) (cfg : Config) (size : Nat) : M σ Bytes := do
  require (size != 0) .invalidArgument
  enter okReceivedM1 .msg2 .responder
  mapErr .ephemeralDh (genDhKeys E cfg)
  mapErr .ephemeralDh (compDhSecret E cfg)
  mapErr .transcriptHash (compTh2 E cfg)
  mapErr .prk (compPrk2e E cfg)
  let c ← getCtx
  memAlloc E cfg c.prk.length
  let prk2e := c.prk
  let f ← credFetch E
  let f ← ofOption .credentials f
  eadCompose E cfg
  mapErr .prk (compPrk3e2m E cfg f.2 [])
  let m ← buildMacCtx E cfg none f.1
  let c ← getCtx
  let macLen ← ofRes (macLength c)
  memAlloc E cfg macLen
  let mac ← compMac E cfg m.buf macLen
  let sLen ← ofRes (signOrMacLength c)
  memAlloc E cfg sLen
  let sig ← compSignOrMac E cfg f.2 m mac sLen
  let pLen ← ofRes (Res.mapErr .bufferTooSmall (ptxt2Len c m sig.length))
  memAlloc E cfg pLen
  let ptxt ← ofRes (Res.mapErr .cbor (preparePtxt2 c m sig pLen))
  memAlloc E cfg ptxt.length
  let ks ← mapErr .crypto (compKeystream E cfg prk2e ptxt.length)
  mapErr .transcriptHash (compTh3 E cfg m.cred ptxt)
  let msg ← mapErr .cbor (prepareMsg2 E cfg (xorBytes ptxt ks) size)
  modCtx fun c => { c with ead := [], status := .waitM3, errorCode := .success }
  pure msg

/-- State check of message_2 process. `/repo/library/edhoc_message_2.c:1781-1783`. -/
def okWaitM2 (c : Ctx) : Bool :=
  c.status == .waitM2 && c.thState == .th1 && c.prkState == .invalid

/-- A received certificate chain. `/repo/library/edhoc_message_2.c:1058-1092`, `/repo/library/edhoc_message_3.c:916-948`. -/
def recvChain (cfg : Config) (l : List Bytes) : Res Cred :=
  if l.length ≤ cfg.maxCerts then
    if cfg.maxCerts < l.length then .ub .oob else .ok (.x5chain l)
  else .err .bufferTooSmall

/-- A received fingerprint with the name of its algorithm. `/repo/library/edhoc_message_2.c:1121-1145`,
`/repo/library/edhoc_message_3.c:974-997`. -/
def recvHash (cfg : Config) (a fp : Bytes) : Res Cred :=
  if a.length ≤ cfg.maxHashAlg + 1 then
    if cfg.maxHashAlg + 1 < a.length then .ub .oob else .ok (.x5t [] fp (.bstr a))
  else .err .bufferTooSmall

/-- The union member selected by a received ID_CRED map in message_2: x5t wins over x5chain; a map
with neither leaves the zeroed structure. `/repo/library/edhoc_message_2.c:1025-1135`. -/
def credOfMap2 (cfg : Config) (m : CredMap) : Res Cred := do
  let c1 ← (match m.x5chain with
    | some (.one c) => (.ok (.x5chain [c]) : Res Cred)
    | some (.list l) => recvChain cfg l
    | none => .ok (.other 0))
  match m.x5t with
  | some (.int a, fp) => .ok (.x5t [] fp (.int a))
  | some (.bstr a, fp) => recvHash cfg a fp
  | none => .ok c1

/-- ID_CRED of a received plaintext; a key identifier longer than its array is written out of
bounds. `/repo/library/edhoc_message_2.c:1005-1135`, `/repo/library/edhoc_message_3.c:875-1005`. -/
def credOfIdCred (cfg : Config) (ofMap : Config → CredMap → Res Cred) : IdCred → Res Cred
  | .int v => .ok (.kid [] false (.int v))
  | .bstr b => if b.length ≤ cfg.maxKid + 1 then .ok (.kid [] false (.bstr b)) else .ub .oob
  | .map m => ofMap cfg m

/-- The application gets a value of `over` bytes that are not there. (The callback that will read it is the next thing to
happen; the model stops here.) -/
def handOver (cfg : Config) (over : Nat) : M σ Unit := do
  let c ← getCtx
  guardUB (over == 0 || !(c.hasEadProcess && cfg.maxEad != 0)) .oob

/-- EAD tokens of a received plaintext: stored without a check against the array, and with the length in `ead_value` even if
no value was decoded. `/repo/library/edhoc_message_2.c:1159-1177`, `/repo/library/edhoc_message_3.c:1012-1030`. -/
def storeEad (cfg : Config) (ts : List EadTok) (over : Nat) : M σ Unit :=
  whenM (!ts.isEmpty) (do
    guardUB (ts.length ≤ cfg.maxEad + 1) .oob
    modCtx fun c => { c with ead := ts }
    handOver cfg over)

/-- `parse_plaintext_2`. `/repo/library/edhoc_message_2.c:958-1182`. -/
def parsePtxt2 (cfg : Config) (ptxt : Bytes) : M σ (Cred × Bytes) := do
  require (ptxt.length != 0) .invalidArgument
  let p ← ofOption .cbor (getPtxt2 cfg.dec ptxt)
  storePeerCid cfg .bufferTooSmall p.1
  let cr ← ofRes (credOfIdCred cfg credOfMap2 p.2.idCred)
  storeEad cfg p.2.ead (stalePtxt2 cfg.dec ptxt)
  pure (cr, p.2.sig)

/-- `cred.verify`; a failure sets the error code. `/repo/library/edhoc_message_2.c:1940-1953`. -/
def verifyCred (E : Env σ) (cr : Cred) : M σ (Cred × Option Bytes) := do
  let r ← credVerify E cr
  whenM r.isNone (modCtx fun c => { c with errorCode := .unknownCred })
  ofOption .credentials r

/-- `parse_msg_2` and `comp_ciphertext_2_len`: G_Y and the ciphertext. `/repo/library/edhoc_message_2.c:895-956`.
The ciphertext length is computed by a `size_t` subtraction that is not checked; for a message
shorter than G_Y it wraps around, and both copies read past the end of the message. -/
def parseMsg2 (E : Env σ) (cfg : Config) (msg : Bytes) : M σ Bytes := do
  let c ← getCtx
  let b ← ofOption .bufferTooSmall (getMsgBstr cfg.dec msg)
  memAlloc E cfg (subSize b.length c.suite.eccKey)
  guardUB (c.suite.eccKey ≤ cfg.maxEccKey) .oob
  guardUB (c.suite.eccKey ≤ b.length) .oob
  modCtx fun c => { c with dhPeerPub := b.take c.suite.eccKey }
  pure (b.drop c.suite.eccKey)

/-- `edhoc_message_2_process`. `/repo/library/edhoc_message_2.c:1771-2061`. -/
def message2Process (E : Env σ) (cfg : Config) (msg : Bytes) : M σ Unit := do
  require (msg.length != 0) .invalidArgument
  enter okWaitM2 .msg2 .initiator
  let ctxt ← parseMsg2 E cfg msg
  mapErr .ephemeralDh (compDhSecret E cfg)
  mapErr .transcriptHash (compTh2 E cfg)
  mapErr .prk (compPrk2e E cfg)
  memAlloc E cfg ctxt.length
  let c ← getCtx
  let ks ← mapErr .crypto (compKeystream E cfg c.prk ctxt.length)
  let ptxt := xorBytes ctxt ks
  let p ← mapErr .cbor (parsePtxt2 cfg ptxt)
  eadProcess E cfg
  let v ← verifyCred E p.1
  mapErr .prk (compPrk3e2m E cfg [] (v.2.getD []))
  let m ← buildMacCtx E cfg (some .invalidMac2) v.1
  let c ← getCtx
  let macLen ← ofRes (macLength c)
  memAlloc E cfg macLen
  let mac ← compMac E cfg m.buf macLen
  mapErr .invalidSignOrMac2 (verifySignOrMac E cfg m v.2 p.2 mac)
  mapErr .transcriptHash (compTh3 E cfg m.cred ptxt)
  modCtx fun c => { c with ead := [], status := .verifiedM2, errorCode := .success }

end Verif
