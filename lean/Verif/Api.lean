import Verif.Exporter
import Verif.ErrorMsg
import Verif.Helpers

/-!
# The API of one session

Model of `/repo/library/edhoc.c` (life cycle, setters, error queries) and the step function over all API
calls that take a context.
-/

namespace Verif

open M

variable {σ : Type}

/-- `edhoc_context_init`: `*ctx = { .is_init = true }`. `/repo/library/edhoc.c:34-46`. -/
def Ctx.fresh : Ctx := { Ctx.zero with isInit := true }

/-- `edhoc_context_init`. `/repo/library/edhoc.c:34-46`. -/
def contextInit : M σ Unit := modCtx fun _ => Ctx.fresh

/-- `edhoc_context_deinit`. `/repo/library/edhoc.c:48-63`. -/
def contextDeinit : M σ Unit := do
  let c ← getCtx
  require c.isInit .badState
  modCtx fun _ => Ctx.zero

/-- `edhoc_set_methods`. `/repo/library/edhoc.c:65-83`. -/
def setMethods (ms : List Nat) : M σ Unit := do
  let c ← getCtx
  require (ms.length != 0 && ms.length ≤ 4) .invalidArgument
  require c.isInit .badState
  guardUB (ms.length ≤ 4) .oob
  modCtx fun c => { c with method := ms }

/-- `edhoc_set_cipher_suites`. `/repo/library/edhoc.c:85-108`. Array entries beyond the new ones are kept. -/
def setSuites (cfg : Config) (l : List Suite) : M σ Unit := do
  let c ← getCtx
  require (l.length != 0) .invalidArgument
  require c.isInit .badState
  require (l.length ≤ cfg.maxSuites) .badState
  guardUB (l.length ≤ cfg.maxSuites) .oob
  modCtx fun c => { c with csuiteLen := l.length, csuiteArr := l ++ c.csuiteArr.drop l.length }

/-- `edhoc_set_connection_id`. `/repo/library/edhoc.c:110-152`. -/
def setCid (cfg : Config) (cid : Cid) : M σ Unit := do
  let c ← getCtx
  require c.isInit .badState
  require (match cid with
    | .int v => decide (-24 ≤ v) && decide (v ≤ 23)
    | .bstr b => b.length != 0 && b.length ≤ cfg.maxCid) .badState
  guardUB (match cid with
    | .int _ => true
    | .bstr b => b.length ≤ cfg.maxCid + 1) .oob
  modCtx fun c => { c with cid := cid }

/-- `edhoc_set_user_context`. `/repo/library/edhoc.c:154-169`. The pointer itself is not part of the model. -/
def setUserCtx : M σ Unit := do
  let c ← getCtx
  require c.isInit .badState

/-- `edhoc_bind_ead`. `/repo/library/edhoc.c:171-191`. The flags: is the member non-NULL. -/
def bindEad (compose process : Bool) : M σ Unit := do
  let c ← getCtx
  require c.isInit .badState
  require (compose || process) .badState
  modCtx fun c => { c with hasEadCompose := compose, hasEadProcess := process }

/-- `edhoc_bind_keys`. `/repo/library/edhoc.c:193-213`. `complete`: no member is NULL. -/
def bindKeys (complete : Bool) : M σ Unit := do
  let c ← getCtx
  require c.isInit .badState
  require complete .badState
  modCtx fun c => { c with hasKeys := true }

/-- `edhoc_bind_crypto`. `/repo/library/edhoc.c:215-240`. -/
def bindCrypto (complete : Bool) : M σ Unit := do
  let c ← getCtx
  require c.isInit .badState
  require complete .badState
  modCtx fun c => { c with hasCrypto := true }

/-- `edhoc_bind_credentials`. `/repo/library/edhoc.c:242-263`. -/
def bindCred (complete : Bool) : M σ Unit := do
  let c ← getCtx
  require c.isInit .badState
  require complete .badState
  modCtx fun c => { c with hasCred := true }

/-- `edhoc_error_get_code`. `/repo/library/edhoc.c:265-280`. -/
def errorGetCode : M σ ErrCode := do
  let c ← getCtx
  require c.isInit .badState
  pure c.errorCode

/-- `edhoc_error_get_cipher_suites`. `/repo/library/edhoc.c:282-326`. (The own suites are already written when the
second size check fails; the result then does not count.) -/
def errorGetSuites (ownSize peerSize : Nat) : M σ (List Int × List Int) := do
  let c ← getCtx
  require (ownSize != 0 && peerSize != 0) .invalidArgument
  require c.isInit .badState
  require (c.errorCode == .wrongSuite) .badState
  require (c.csuiteLen ≤ ownSize) .bufferTooSmall
  require (c.peerCsuite.length ≤ peerSize) .bufferTooSmall
  guardUB (c.csuiteLen ≤ ownSize && c.peerCsuite.length ≤ peerSize) .oob
  pure ((c.csuiteArr.take c.csuiteLen).map Suite.value, c.peerCsuite)

/-- API calls on a context. -/
inductive Op
  /-- any function, with a NULL pointer for a mandatory argument -/
  | nullArg
  | init
  | deinit
  | setMethods (ms : List Nat)
  | setSuites (l : List Suite)
  | setCid (c : Cid)
  | setUserCtx
  | bindEad (compose process : Bool)
  | bindKeys (complete : Bool)
  | bindCrypto (complete : Bool)
  | bindCred (complete : Bool)
  | compose1 (size : Nat)
  | process1 (msg : Bytes)
  | compose2 (size : Nat)
  | process2 (msg : Bytes)
  | compose3 (size : Nat)
  | process3 (msg : Bytes)
  | compose4 (size : Nat)
  | process4 (msg : Bytes)
  | exportSecret (label len : Nat)
  | keyUpdate (entropy : Bytes)
  | exportOscore (secretLen saltLen sidSize ridSize : Nat)
  | getCode
  | getSuites (ownSize peerSize : Nat)
  deriving DecidableEq, Repr

/-- What a call gives back besides the return code. -/
inductive Out
  | unit
  | bytes (b : Bytes)
  | oscore (o : Oscore)
  | code (c : ErrCode)
  | suites (own peer : List Int)
  deriving DecidableEq, Repr

/-- apply a function to the result -/
def M.mapOut {α : Type} (f : α → Out) (m : M σ α) : M σ Out := do
  let a ← m
  pure (f a)

/-- One API call. Every function rejects NULL arguments before anything else. -/
def step (E : Env σ) (cfg : Config) : Op → M σ Out
  | .nullArg => M.fail .invalidArgument
  | .init => M.mapOut (fun _ => .unit) contextInit
  | .deinit => M.mapOut (fun _ => .unit) contextDeinit
  | .setMethods ms => M.mapOut (fun _ => .unit) (Verif.setMethods ms)
  | .setSuites l => M.mapOut (fun _ => .unit) (Verif.setSuites cfg l)
  | .setCid c => M.mapOut (fun _ => .unit) (Verif.setCid cfg c)
  | .setUserCtx => M.mapOut (fun _ => .unit) Verif.setUserCtx
  | .bindEad a b => M.mapOut (fun _ => .unit) (Verif.bindEad a b)
  | .bindKeys b => M.mapOut (fun _ => .unit) (Verif.bindKeys b)
  | .bindCrypto b => M.mapOut (fun _ => .unit) (Verif.bindCrypto b)
  | .bindCred b => M.mapOut (fun _ => .unit) (Verif.bindCred b)
  | .compose1 n => M.mapOut .bytes (message1Compose E cfg n)
  | .process1 b => M.mapOut (fun _ => .unit) (message1Process E cfg b)
  | .compose2 n => M.mapOut .bytes (message2Compose E cfg n)
  | .process2 b => M.mapOut (fun _ => .unit) (message2Process E cfg b)
  | .compose3 n => M.mapOut .bytes (message3Compose E cfg n)
  | .process3 b => M.mapOut (fun _ => .unit) (message3Process E cfg b)
  | .compose4 n => M.mapOut .bytes (message4Compose E cfg n)
  | .process4 b => M.mapOut (fun _ => .unit) (message4Process E cfg b)
  | .exportSecret l n => M.mapOut .bytes (Verif.exportSecret E cfg l n)
  | .keyUpdate b => M.mapOut (fun _ => .unit) (Verif.keyUpdate E cfg b)
  | .exportOscore a b c d => M.mapOut .oscore (Verif.exportOscore E cfg a b c d)
  | .getCode => M.mapOut .code errorGetCode
  | .getSuites a b => M.mapOut (fun p => .suites p.1 p.2) (errorGetSuites a b)

end Verif
