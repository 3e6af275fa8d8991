import Verif.Common

/-!
# message_1

Model of `/repo/library/edhoc_message_1.c`.
-/

namespace Verif

open M

variable {σ : Type}

/-- Start of every message function: state check, then the session counts as aborted until the
function has succeeded. E.g. `/repo/library/edhoc_message_1.c:80-88`. -/
def enter (ok : Ctx → Bool) (m : Msg) (r : Role) : M σ Unit := do
  let c ← getCtx
  require (ok c) .badState
  modCtx fun c => { c with status := .aborted, errorCode := .unspecified, message := m, role := r }

/-- State check of message_1. `/repo/library/edhoc_message_1.c:80-83, 311-313`. -/
def okStart (c : Ctx) : Bool :=
  c.status == .start && c.thState == .invalid && c.prkState == .invalid

/-- Choose the last configured suite. `/repo/library/edhoc_message_1.c:90-98, 337-345`. -/
def chooseSuite : M σ Unit := do
  let c ← getCtx
  require (c.csuiteLen != 0) .badState
  modCtx fun c => { c with chosenIdx := c.csuiteLen - 1 }

/-- SUITES_I of message_1. `/repo/library/edhoc_message_1.c:148-176`. -/
def suitesI (c : Ctx) : Suites :=
  if c.csuiteLen = 1 then .one c.suite.value
  else .list ((c.csuiteArr.take c.csuiteLen).map Suite.value)

/-- EAD tokens as message_1 encodes them: the value is always marked present.
`/repo/library/edhoc_message_1.c:230-250`. -/
def eadAlwaysValue (ts : List EadTok) : List EadTok :=
  ts.map fun t => { t with value := some (t.value.getD []) }

/-- hash into the transcript buffer, with the length check. `/repo/library/edhoc_message_1.c:262-278` and the
same code for TH_2 and TH_4. -/
def hashTh (E : Env σ) (cfg : Config) (input : Bytes) : M σ Bytes := do
  let c ← getCtx
  guardUB (c.suite.hash ≤ cfg.maxMac) .oob
  let r ← hash E input
  let h ← ofOption .crypto r
  require (h.length == c.suite.hash) .crypto
  pure h

/-- `edhoc_message_1_compose`. `/repo/library/edhoc_message_1.c:67-288`. `size`: size of the output buffer.
Only the bytes of the private key that the callback reports are kept. -/
def message1Compose (E : Env σ) (cfg : Config) (size : Nat) : M σ Bytes := do
  require (size != 0) .invalidArgument
  enter okStart .msg1 .initiator
  chooseSuite
  modCtx fun c => { c with chosenMethod := c.method.headD 0 }
  let c ← getCtx
  -- ephemeral key pair
  let k ← importKey E .makeKeyPair []
  let kid ← ofOption .ephemeralDh k
  memAlloc E cfg c.suite.eccKey
  let kp ← makeKeyPair E kid
  destroyKey E kid
  let kp ← ofOption .ephemeralDh kp
  modCtx fun c => { c with dhPriv := kp.1 }
  require (kp.1.length == c.suite.eccKey && kp.2.length == c.suite.eccKey) .ephemeralDh
  -- SUITES_I, EAD_1
  require (c.csuiteLen ≤ 3) .bufferTooSmall
  eadCompose E cfg
  let c' ← getCtx
  guardUB (c'.ead.length ≤ 3) .oob
  let msg ← ofOption .cbor
    ((encMsg1 ⟨(c.chosenMethod : Int), suitesI c, kp.2, c.cid, eadAlwaysValue c'.ead⟩).bind
      (fits size))
  let h ← hashTh E cfg msg
  modCtx fun c =>
    { c with th := h, ead := [], thState := .th1, status := .waitM2, errorCode := .success }
  pure msg

/-- Peer cipher suites. `/repo/library/edhoc_message_1.c:365-432`: store them, then the suite the peer
selected must be our chosen one. -/
def checkSuites (cfg : Config) (su : Suites) : M σ Unit := do
  let c ← getCtx
  match su with
  | .one v => do
    guardUB (c.peerCsuite.length < cfg.maxSuites) .oob
    modCtx fun c => { c with peerCsuite := (c.peerCsuite ++ [v]).take 1 }
    whenM (c.suite.value != v) (do
      modCtx fun c => { c with errorCode := .wrongSuite }
      fail .msg1Process)
  | .list l => do
    whenM l.isEmpty (do
      modCtx fun c => { c with errorCode := .wrongSuite }
      fail .msg1Process)
    require (l.length ≤ cfg.maxSuites) .bufferTooSmall
    modCtx fun c => { c with peerCsuite := l }
    whenM (l.getLast? != some c.suite.value) (do
      modCtx fun c => { c with errorCode := .wrongSuite }
      fail .msg1Process)

/-- C_I. `/repo/library/edhoc_message_1.c:446-487`. -/
def storePeerCid (cfg : Config) (e : Err) (ci : Cid) : M σ Unit := do
  match ci with
  | .int v => require (decide (-24 ≤ v) && decide (v ≤ 23)) e
  | .bstr b => do
    require (b.length ≤ cfg.maxCid + 1) e
    guardUB (b.length ≤ cfg.maxCid + 1) .oob
  modCtx fun c => { c with peerCid := ci }

/-- EAD_1. `/repo/library/edhoc_message_1.c:506-552`. `over`: the length left behind in the last value; the callback gets
a value of that length, although the bytes are not there. -/
def processEad1 (E : Env σ) (cfg : Config) (ts : List EadTok) (over : Nat) : M σ Unit := do
  let c ← getCtx
  whenM (!ts.isEmpty && c.hasEadProcess) (do
    require (ts.length ≤ cfg.maxEad) .bufferTooSmall
    guardUB (ts.length ≤ cfg.maxEad + 1) .oob
    modCtx fun c => { c with ead := ts }
    guardUB (over == 0) .oob
    let ok ← call (fun e => E.eadProcess e .msg1 ts) (.eadProcess .msg1 ts)
    clearEad
    require ok .eadProcess)

/-- `edhoc_message_1_process`. `/repo/library/edhoc_message_1.c:301-575`. A decoding failure is not noticed:
the check at lines 331-335 also requires `msg_1_len <= len`, and `len` stays 0 when decoding
fails, so the function goes on with the partly filled structure. The lengths of strings that did not
decode are taken at their word (lines 434-443, 462-480). -/
def message1Process (E : Env σ) (cfg : Config) (msg : Bytes) : M σ Unit := do
  require (msg.length != 0) .invalidArgument
  enter okStart .msg1 .responder
  let m := (getMsg1 cfg.dec msg).2
  let st := staleMsg1 cfg.dec msg
  chooseSuite
  let c ← getCtx
  let me ← ofOption .msg1Process (c.method.find? (fun (x : Nat) => decide ((x : Int) = m.method)))
  modCtx fun c => { c with chosenMethod := me }
  checkSuites cfg m.suites
  require (m.gx.length + st.1 == c.suite.eccKey) .msg1Process
  guardUB (c.suite.eccKey ≤ cfg.maxEccKey && st.1 == 0) .oob
  modCtx fun c => { c with dhPeerPub := m.gx }
  require (st.2.1 ≤ cfg.maxCid + 1) .msg1Process
  guardUB (st.2.1 == 0) .oob
  storePeerCid cfg .msg1Process m.ci
  processEad1 E cfg m.ead st.2.2
  let h ← hashTh E cfg msg
  modCtx fun c => { c with th := h, thState := .th1, status := .receivedM1, errorCode := .success }

end Verif
