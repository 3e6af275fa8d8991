import Verif.Cbor

/-!
# Types, external world and the execution monad

* `Config`: the build-time configuration.
* `Ctx`: `struct edhoc_context`.
* `Env`: the application callbacks (keys, crypto, credentials, EAD) and the memory backend.
  They are parameters of the model: nothing is assumed about them unless a theorem says so.
* `M`: programs that can succeed, return an error code, or hit undefined behaviour (`UB`).
-/

namespace Verif

/-- Error codes of the API. `/repo/include/edhoc_values.h:30-110`. -/
inductive Err
  | generic | notSupported | notPermitted | bufferTooSmall | badState | invalidArgument
  | notEnoughMemory | cbor | crypto | credentials | eadCompose | eadProcess
  | msg1Process | msg2Process | msg3Process | msg4Process
  | ephemeralDh | transcriptHash | prk | invalidMac2 | invalidSignOrMac2 | invalidMac3
  | invalidSignOrMac3
  deriving DecidableEq, Repr, Inhabited

/-- Ways in which the C program leaves defined behaviour. -/
inductive UB
  /-- read or write outside an object -/
  | oob
  /-- call through a NULL callback pointer -/
  | nullCall
  /-- stack buffer larger than the stack -/
  | stack
  /-- stack buffer of size zero -/
  | zeroVla
  /-- a callback reported more output than the buffer it was given -/
  | callback
  deriving DecidableEq, Repr

/-- Outcome of a call. -/
inductive Res (α : Type)
  | ok (a : α)
  | err (e : Err)
  | ub (u : UB)
  deriving DecidableEq, Repr

namespace Res

variable {α β : Type}

/-- sequencing -/
def bind (m : Res α) (f : α → Res β) : Res β :=
  match m with
  | .ok a => f a
  | .err e => .err e
  | .ub u => .ub u

instance : Monad Res where
  pure := Res.ok
  bind := Res.bind

/-- `if (!b) return e;` -/
def require (b : Bool) (e : Err) : Res Unit := if b then .ok () else .err e

/-- proceed only when an operation is defined -/
def guardUB (b : Bool) (u : UB) : Res Unit := if b then .ok () else .ub u

/-- `some` or an error -/
def ofOption (e : Err) : Option α → Res α
  | some a => .ok a
  | none => .err e

/-- `if (EDHOC_SUCCESS != m) return e;` -/
def mapErr (e : Err) : Res α → Res α
  | .err _ => .err e
  | r => r

end Res

/-- `enum edhoc_role`. `/repo/include/edhoc_context.h`. -/
inductive Role | initiator | responder
  deriving DecidableEq, Repr

/-- `enum edhoc_message`. `/repo/include/edhoc_ead.h:29-38`. -/
inductive Msg | msg1 | msg2 | msg3 | msg4
  deriving DecidableEq, Repr

/-- `enum edhoc_state_machine`. `/repo/include/edhoc_context.h`. -/
inductive Status
  | start | aborted | receivedM1 | verifiedM1 | waitM2 | receivedM2 | verifiedM2
  | waitM3 | receivedM3 | receivedM4 | completed | persisted
  deriving DecidableEq, Repr

/-- Numeric value of the enumerator (used by the `<` comparisons of the exporter). -/
def Status.toNat : Status → Nat
  | .start => 0 | .aborted => 1 | .receivedM1 => 2 | .verifiedM1 => 3 | .waitM2 => 4
  | .receivedM2 => 5 | .verifiedM2 => 6 | .waitM3 => 7 | .receivedM3 => 8 | .receivedM4 => 9
  | .completed => 10 | .persisted => 11

/-- `enum edhoc_th_state`. `/repo/include/edhoc_context.h`. -/
inductive ThState | invalid | th1 | th2 | th3 | th4
  deriving DecidableEq, Repr

/-- `enum edhoc_prk_state`. `/repo/include/edhoc_context.h`. -/
inductive PrkState | invalid | prk2e | prk3e2m | prk4e3m | out | exporter
  deriving DecidableEq, Repr

/-- Numeric value of the enumerator. -/
def PrkState.toNat : PrkState → Nat
  | .invalid => 0 | .prk2e => 1 | .prk3e2m => 2 | .prk4e3m => 3 | .out => 4 | .exporter => 5

/-- `enum edhoc_error_code`. `/repo/include/edhoc_context.h`. -/
inductive ErrCode | success | unspecified | wrongSuite | unknownCred
  deriving DecidableEq, Repr

/-- `enum edhoc_key_type`. `/repo/include/edhoc_crypto.h:29-47`. -/
inductive KeyType
  | makeKeyPair | keyAgreement | signature | verify | extract | expand | encrypt | decrypt
  deriving DecidableEq, Repr

/-- `struct edhoc_cipher_suite`. `/repo/include/edhoc_crypto.h:92-117`. -/
structure Suite where
  value : Int
  aeadKey : Nat
  aeadTag : Nat
  aeadIv : Nat
  hash : Nat
  mac : Nat
  eccKey : Nat
  eccSign : Nat
  deriving DecidableEq, Repr

/-- A zeroed cipher suite entry. -/
def Suite.zero : Suite := ⟨0, 0, 0, 0, 0, 0, 0, 0⟩

/-- `struct edhoc_connection_id`: only the member selected by `encode_type` is kept. -/
inductive Cid
  | int (v : Int)
  | bstr (b : Bytes)
  deriving DecidableEq, Repr

/-- Integer or byte string (`encode_type` plus the selected member). -/
inductive IntOrBytes
  | int (v : Int)
  | bstr (b : Bytes)
  deriving DecidableEq, Repr

/-- `enum edhoc_encode_type`. -/
inductive EncType | integer | byteString
  deriving DecidableEq, Repr

/-- `struct edhoc_auth_creds` without the private key identifier: label plus the union member it
selects. `/repo/include/edhoc_credentials.h:60-225`.
`other`: any label without a union member (also the zeroed structure). -/
inductive Cred
  | other (label : Int)
  | kid (cred : Bytes) (isCbor : Bool) (id : IntOrBytes)
  | x5chain (certs : List Bytes)
  | x5t (cert fp : Bytes) (alg : IntOrBytes)
  | any (idCred : Bytes) (comp : Option (EncType × Bytes)) (cred : Bytes)
  deriving DecidableEq, Repr

/-- `struct edhoc_ead_token`; `none` is a NULL value pointer (then the length is 0). -/
structure EadTok where
  label : Int
  value : Option Bytes
  deriving DecidableEq, Repr

/-- Memory backend. `/repo/backends/memory/include/edhoc_backend_memory.h`. -/
inductive Backend | stack | heap
  deriving DecidableEq, Repr

/-- Build-time configuration (`CONFIG_LIBEDHOC_*`), plus the platform facts the model leaves open. -/
structure Config where
  maxSuites : Nat
  maxCid : Nat
  maxEccKey : Nat
  maxMac : Nat
  maxEad : Nat
  maxKid : Nat
  maxHashAlg : Nat
  maxCerts : Nat
  backend : Backend
  /-- largest stack buffer the platform supports -/
  stackMax : Nat
  /-- the compiler accepts stack buffers of size zero (GCC and Clang do; ISO C does not) -/
  zeroVlaOk : Bool
  /-- `sizeof(struct mac_context)` -/
  macCtxSize : Nat
  dec : DecCfg

/-- Calls to the outside world, in order, with arguments and results. -/
inductive Ev
  | alloc (n : Nat) (ok : Bool)
  | importKey (t : KeyType) (raw : Bytes) (r : Option Bytes)
  | destroyKey (kid : Bytes)
  | makeKeyPair (kid : Bytes) (r : Option (Bytes × Bytes))
  | keyAgreement (kid peer : Bytes) (r : Option Bytes)
  | sign (kid input : Bytes) (r : Option Bytes)
  | verify (kid input sig : Bytes) (ok : Bool)
  | extract (kid salt : Bytes) (r : Option Bytes)
  | expand (kid info : Bytes) (n : Nat) (r : Option Bytes)
  | encrypt (kid iv aad ptxt : Bytes) (r : Option Bytes)
  | decrypt (kid iv aad ctxt : Bytes) (r : Option Bytes)
  | hash (input : Bytes) (r : Option Bytes)
  | eadCompose (m : Msg) (r : Option (List EadTok))
  | eadProcess (m : Msg) (toks : List EadTok) (ok : Bool)
  | credFetch (r : Option (Cred × Bytes))
  | credVerify (c : Cred) (r : Option (Cred × Option Bytes))
  deriving DecidableEq, Repr

/-- The application callbacks and the allocator, over an arbitrary private state `σ`.
`none` / `false` is a failure return.
`/repo/include/edhoc_crypto.h:54-304`, `/repo/include/edhoc_ead.h:56-93`,
`/repo/include/edhoc_credentials.h:227-263`. -/
structure Env (σ : Type) where
  alloc : σ → Nat → Bool × σ
  importKey : σ → KeyType → Bytes → Option Bytes × σ
  destroyKey : σ → Bytes → σ
  makeKeyPair : σ → Bytes → Option (Bytes × Bytes) × σ
  keyAgreement : σ → Bytes → Bytes → Option Bytes × σ
  sign : σ → Bytes → Bytes → Option Bytes × σ
  verify : σ → Bytes → Bytes → Bytes → Bool × σ
  extract : σ → Bytes → Bytes → Option Bytes × σ
  expand : σ → Bytes → Bytes → Nat → Option Bytes × σ
  encrypt : σ → Bytes → Bytes → Bytes → Bytes → Option Bytes × σ
  decrypt : σ → Bytes → Bytes → Bytes → Bytes → Option Bytes × σ
  hash : σ → Bytes → Option Bytes × σ
  eadCompose : σ → Msg → Option (List EadTok) × σ
  eadProcess : σ → Msg → List EadTok → Bool × σ
  credFetch : σ → Option (Cred × Bytes) × σ
  credVerify : σ → Cred → Option (Cred × Option Bytes) × σ

/-- `struct edhoc_context`. `/repo/include/edhoc_context.h`.
Buffers are kept as the list of their valid bytes. `csuiteArr` is the array contents (entries
beyond `csuiteLen` are stale or zero). The bound callbacks are kept as flags: which function was
bound does not matter to the library, only whether the pointer is NULL. `user_ctx` is only ever
passed through and is part of the environment. -/
structure Ctx where
  isInit : Bool
  chosenMethod : Nat
  method : List Nat
  chosenIdx : Nat
  csuiteArr : List Suite
  csuiteLen : Nat
  peerCsuite : List Int
  cid : Cid
  peerCid : Cid
  dhPub : Bytes
  dhPriv : Bytes
  dhPeerPub : Bytes
  dhSecret : Bytes
  oscoreAllowed : Bool
  status : Status
  message : Msg
  role : Role
  thState : ThState
  th : Bytes
  prkState : PrkState
  prk : Bytes
  hasKeys : Bool
  hasCrypto : Bool
  hasCred : Bool
  hasEadCompose : Bool
  hasEadProcess : Bool
  ead : List EadTok
  errorCode : ErrCode
  deriving DecidableEq, Repr

/-- The all-zero context (`memset(ctx, 0, sizeof(*ctx))`). -/
def Ctx.zero : Ctx where
  isInit := false
  chosenMethod := 0
  method := []
  chosenIdx := 0
  csuiteArr := []
  csuiteLen := 0
  peerCsuite := []
  cid := .int 0
  peerCid := .int 0
  dhPub := []
  dhPriv := []
  dhPeerPub := []
  dhSecret := []
  oscoreAllowed := false
  status := .start
  message := .msg1
  role := .initiator
  thState := .invalid
  th := []
  prkState := .invalid
  prk := []
  hasKeys := false
  hasCrypto := false
  hasCred := false
  hasEadCompose := false
  hasEadProcess := false
  ead := []
  errorCode := .success

/-- The cipher suite in use: `ctx->csuite[ctx->chosen_csuite_idx]`. -/
def Ctx.suite (c : Ctx) : Suite := c.csuiteArr.getD c.chosenIdx Suite.zero

/-- State of a call: the context, the callbacks' private state, the calls made so far. -/
structure St (σ : Type) where
  ctx : Ctx
  env : σ
  log : List Ev

/-- Programs. -/
def M (σ α : Type) : Type := St σ → Res α × St σ

namespace M

variable {σ α β : Type}

/-- return -/
def ret (a : α) : M σ α := fun s => (.ok a, s)

/-- sequencing: an error or undefined behaviour ends the program -/
def bind (m : M σ α) (f : α → M σ β) : M σ β := fun s =>
  match m s with
  | (.ok a, s') => f a s'
  | (.err e, s') => (.err e, s')
  | (.ub u, s') => (.ub u, s')

instance : Monad (M σ) where
  pure := M.ret
  bind := M.bind

/-- return with an error code -/
def fail (e : Err) : M σ α := fun s => (.err e, s)

/-- undefined behaviour -/
def undef (u : UB) : M σ α := fun s => (.ub u, s)

/-- `if (!b) return e;` -/
def require (b : Bool) (e : Err) : M σ Unit := fun s => (if b then .ok () else .err e, s)

/-- proceed only when an operation is defined -/
def guardUB (b : Bool) (u : UB) : M σ Unit := fun s => (if b then .ok () else .ub u, s)

/-- `if (EDHOC_SUCCESS != m) return e;` -/
def mapErr (e : Err) (m : M σ α) : M σ α := fun s =>
  match m s with
  | (.err _, s') => (.err e, s')
  | r => r

/-- `some` or an error -/
def ofOption (e : Err) (o : Option α) : M σ α := fun s =>
  (match o with | some a => .ok a | none => .err e, s)

/-- a computation without effects -/
def ofRes (r : Res α) : M σ α := fun s => (r, s)

/-- `if (b) m` -/
def whenM (b : Bool) (m : M σ Unit) : M σ Unit := fun s => if b then m s else (.ok (), s)

/-- read the context -/
def getCtx : M σ Ctx := fun s => (.ok s.ctx, s)

/-- update the context -/
def modCtx (f : Ctx → Ctx) : M σ Unit := fun s => (.ok (), { s with ctx := f s.ctx })

/-- one call to the outside world -/
def call (f : σ → β × σ) (ev : β → Ev) : M σ β := fun s =>
  (.ok (f s.env).1, { s with env := (f s.env).2, log := s.log ++ [ev (f s.env).1] })

end M

open M

variable {σ : Type}

/-- call through `ctx->keys` -/
def needKeys : M σ Unit := do
  let c ← getCtx
  guardUB c.hasKeys .nullCall

/-- call through `ctx->crypto` -/
def needCrypto : M σ Unit := do
  let c ← getCtx
  guardUB c.hasCrypto .nullCall

/-- call through `ctx->cred` -/
def needCred : M σ Unit := do
  let c ← getCtx
  guardUB c.hasCred .nullCall

/-- `EDHOC_MEM_ALLOC` followed by the NULL check.
`/repo/backends/memory/include/edhoc_backend_memory.h`: the stack backend cannot report failure;
the heap backend returns NULL when the allocator does. The buffer is zeroed. -/
def memAlloc (E : Env σ) (cfg : Config) (n : Nat) : M σ Unit :=
  match cfg.backend with
  | .stack => do
    guardUB (n ≤ cfg.stackMax) .stack
    guardUB (cfg.zeroVlaOk || n != 0) .zeroVla
  | .heap => do
    let ok ← call (fun e => E.alloc e n) (.alloc n)
    require ok .notEnoughMemory

/-- `keys.import_key` -/
def importKey (E : Env σ) (t : KeyType) (raw : Bytes) : M σ (Option Bytes) := do
  needKeys
  call (fun e => E.importKey e t raw) (.importKey t raw)

/-- `keys.destroy_key` (the library ignores the result) -/
def destroyKey (E : Env σ) (kid : Bytes) : M σ Unit := do
  needKeys
  call (fun e => ((), E.destroyKey e kid)) (fun _ => .destroyKey kid)

/-- import a key, use it in one crypto call, destroy it: the pattern every key in the library follows
(except in `edhoc_message_1_compose`). A failed import is error `e` and ends the function. -/
def withKey {α : Type} (E : Env σ) (t : KeyType) (raw : Bytes) (e : Err) (op : Bytes → M σ α) :
    M σ α := do
  let k ← importKey E t raw
  let kid ← ofOption e k
  let r ← op kid
  destroyKey E kid
  pure r

/-- `crypto.make_key_pair`: private key, public key -/
def makeKeyPair (E : Env σ) (kid : Bytes) : M σ (Option (Bytes × Bytes)) := do
  needCrypto
  call (fun e => E.makeKeyPair e kid) (.makeKeyPair kid)

/-- `crypto.key_agreement` -/
def keyAgreement (E : Env σ) (kid peer : Bytes) : M σ (Option Bytes) := do
  needCrypto
  call (fun e => E.keyAgreement e kid peer) (.keyAgreement kid peer)

/-- `crypto.signature` -/
def sign (E : Env σ) (kid input : Bytes) : M σ (Option Bytes) := do
  needCrypto
  call (fun e => E.sign e kid input) (.sign kid input)

/-- `crypto.verify` -/
def verify (E : Env σ) (kid input sig : Bytes) : M σ Bool := do
  needCrypto
  call (fun e => E.verify e kid input sig) (.verify kid input sig)

/-- `crypto.extract` -/
def extract (E : Env σ) (kid salt : Bytes) : M σ (Option Bytes) := do
  needCrypto
  call (fun e => E.extract e kid salt) (.extract kid salt)

/-- exactly `n` bytes: the callback fills the buffer it is given; what it leaves out stays zero -/
def fitLen (n : Nat) (b : Bytes) : Bytes := b.take n ++ List.replicate (n - b.length) 0

/-- `crypto.expand`: the callback fills exactly the `n` bytes it is asked for. -/
def expand (E : Env σ) (kid info : Bytes) (n : Nat) : M σ (Option Bytes) := do
  needCrypto
  call (fun e => let r := E.expand e kid info n; (r.1.map (fitLen n), r.2)) (.expand kid info n)

/-- `crypto.encrypt` -/
def encrypt (E : Env σ) (kid iv aad ptxt : Bytes) : M σ (Option Bytes) := do
  needCrypto
  call (fun e => E.encrypt e kid iv aad ptxt) (.encrypt kid iv aad ptxt)

/-- `crypto.decrypt` -/
def decrypt (E : Env σ) (kid iv aad ctxt : Bytes) : M σ (Option Bytes) := do
  needCrypto
  call (fun e => E.decrypt e kid iv aad ctxt) (.decrypt kid iv aad ctxt)

/-- `crypto.hash` -/
def hash (E : Env σ) (input : Bytes) : M σ (Option Bytes) := do
  needCrypto
  call (fun e => E.hash e input) (.hash input)

/-- `cred.fetch` -/
def credFetch (E : Env σ) : M σ (Option (Cred × Bytes)) := do
  needCred
  call (fun e => E.credFetch e) .credFetch

/-- `cred.verify` -/
def credVerify (E : Env σ) (c : Cred) : M σ (Option (Cred × Option Bytes)) := do
  needCred
  call (fun e => E.credVerify e c) (.credVerify c)

end Verif
