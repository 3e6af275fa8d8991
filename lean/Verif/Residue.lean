import Verif.Api

/-!
# Failed callbacks that wrote to their output

`Env` says what a callback returns. It does not say what a failed callback leaves in the buffer it was to fill, and
the model of the library (`step`) takes a buffer to be as before then. Here an arbitrary content is left in each
buffer of the context that a callback is given as output (`struct edhoc_context` members `dh_pub_key`, `dh_priv_key`,
`dh_secret`, `th`, `prk`, `ead_token`), and `stepW` is the API with it.
-/

namespace Verif

open M

variable {σ : Type}

/-- What failed callbacks leave in the buffers they were given, depending on the state of the environment.
The documentation of the callbacks says nothing about it (`/repo/include/edhoc_crypto.h:54-304`). -/
structure Residue (σ : Type) where
  /-- the key in the context, when the exporter derives the next one in place; the second argument is the old key -/
  key : σ → Bytes → Bytes
  dhPub : σ → Bytes
  dhPriv : σ → Bytes
  dhSecret : σ → Bytes
  th : σ → Bytes
  prk : σ → Bytes
  ead : σ → List EadTok

/-- EDHOC_Expand from the key in the context into the same buffer: `ctx->crypto.expand(.., key_id, info, len, ctx->prk,
ctx->prk_len)`. `/repo/library/edhoc_exporter.c:120-155, 195-228`. Compare `expandInfo`. -/
def expandInPlace (E : Env σ) (w : Residue σ) (n label : Nat) (context : Bytes) : M σ Unit := do
  let c ← getCtx
  let info ← ofOption .cbor (fits n (encInfo label context (u32 c.suite.hash)))
  let r ← withKey E .expand c.prk .crypto (fun kid => expand E kid info c.prk.length)
  match r with
  | some p => modCtx fun c => { c with prk := p, prkState := .out }
  | none => fun s => (.err .crypto, { s with ctx := { s.ctx with prk := fitLen c.prk.length (w.key s.env c.prk) } })

/-- `compute_prk_out`. `/repo/library/edhoc_exporter.c:82-156`. -/
def compPrkOutW (E : Env σ) (cfg : Config) (w : Residue σ) : M σ Unit := do
  let c ← getCtx
  require (c.thState == .th4 && c.prkState == .prk4e3m) .badState
  let n := 1 + (c.th.length + bstrOh c.th.length) + intMemReq (i32 c.suite.hash)
  memAlloc E cfg n
  expandInPlace E w n 7 c.th

/-- `compute_new_prk_out`. `/repo/library/edhoc_exporter.c:158-229`. -/
def compNewPrkOutW (E : Env σ) (cfg : Config) (w : Residue σ) (entropy : Bytes) : M σ Unit := do
  let c ← getCtx
  require (c.prkState == .out) .badState
  let n := 1 + (entropy.length + bstrOh entropy.length) + intMemReq (i32 c.suite.hash)
  memAlloc E cfg n
  expandInPlace E w n 11 entropy

/-- Compute PRK_out unless that was done before. `/repo/library/edhoc_exporter.c:341-349, 445-453`. -/
def ensurePrkOutW (E : Env σ) (cfg : Config) (w : Residue σ) : M σ Unit := do
  let c ← getCtx
  whenM (c.prkState == .prk4e3m) (mapErr .prk (compPrkOutW E cfg w))

/-- `edhoc_export_prk_exporter`, steps 2 to 4. `/repo/library/edhoc_exporter.c:351-427`. `compute_prk_exporter` and the last
expansion write to local buffers. -/
def exportTail (E : Env σ) (cfg : Config) (label secretLen : Nat) (hash : Nat) : M σ Bytes := do
  memAlloc E cfg hash
  let p ← mapErr .prk (compPrkExporter E cfg)
  let n := intMemReq (i32 label) + 1 + intMemReq (i32 hash)
  memAlloc E cfg n
  expandInfo E n p label [] secretLen secretLen

/-- `edhoc_export_prk_exporter`. `/repo/library/edhoc_exporter.c:314-427`. -/
def exportSecretW (E : Env σ) (cfg : Config) (w : Residue σ) (label secretLen : Nat) : M σ Bytes := do
  require (label ≤ 65535 && secretLen != 0) .invalidArgument
  require (label == 0 || label == 1 || 32768 ≤ label) .badState
  let c ← getCtx
  require (c.status.toNat ≤ Status.persisted.toNat &&
    PrkState.prk4e3m.toNat ≤ c.prkState.toNat) .badState
  ensurePrkOutW E cfg w
  exportTail E cfg label secretLen c.suite.hash

/-- `edhoc_export_key_update`. `/repo/library/edhoc_exporter.c:429-470`. -/
def keyUpdateW (E : Env σ) (cfg : Config) (w : Residue σ) (entropy : Bytes) : M σ Unit := do
  require (entropy.length != 0) .invalidArgument
  let c ← getCtx
  require (Status.completed.toNat ≤ c.status.toNat &&
    PrkState.prk4e3m.toNat ≤ c.prkState.toNat) .badState
  modCtx fun c => { c with status := .aborted }
  ensurePrkOutW E cfg w
  mapErr .prk (compNewPrkOutW E cfg w entropy)
  modCtx fun c' => { c' with status := c.status, oscoreAllowed := true }

/-- `edhoc_export_oscore_session`. `/repo/library/edhoc_exporter.c:479-627`. -/
def exportOscoreW (E : Env σ) (cfg : Config) (w : Residue σ) (secretLen saltLen sidSize ridSize : Nat) :
    M σ Oscore := do
  require (secretLen != 0 && saltLen != 0 && sidSize != 0 && ridSize != 0) .invalidArgument
  let c ← getCtx
  require c.oscoreAllowed .badState
  require (Status.completed.toNat ≤ c.status.toNat &&
    PrkState.prk4e3m.toNat ≤ c.prkState.toNat) .badState
  modCtx fun c => { c with status := .aborted, oscoreAllowed := false }
  let secret ← mapErr .prk (exportSecretW E cfg w 0 secretLen)
  let salt ← mapErr .prk (exportSecretW E cfg w 1 saltLen)
  let sid ← ofRes (oscoreId sidSize c.peerCid)
  let rid ← ofRes (oscoreId ridSize c.cid)
  modCtx fun c' => { c' with status := c.status }
  pure ⟨secret, salt, sid, rid⟩

/-- The buffers of the context that a failed message call may have left with any content. A message call sets the
status to aborted before its first callback; TH_4 and PRK_4e3m are marked as present once they are complete, and
message_4 does not write to them (`/repo/library/edhoc_message_1.c`, `_2.c`, `_3.c`, `_4.c`: the callbacks whose
output is `ctx->dh_pub_key`, `dh_priv_key`, `dh_secret`, `th`, `prk`, `ead_token`). Simplification: the content is
put there when the call returns, not when the callback does; a message call returns at once when a callback fails. -/
def leave (w : Residue σ) (s : St σ) : St σ :=
  if s.ctx.status = .aborted then
    { s with ctx := { s.ctx with
        dhPub := w.dhPub s.env, dhPriv := w.dhPriv s.env, dhSecret := w.dhSecret s.env, ead := w.ead s.env,
        th := if s.ctx.thState = .th4 then s.ctx.th else w.th s.env,
        prk := if PrkState.prk4e3m.toNat ≤ s.ctx.prkState.toNat then s.ctx.prk else w.prk s.env } }
  else s

/-- a message call, with what its failed callbacks left -/
def leaving {α : Type} (w : Residue σ) (m : M σ α) : M σ α := fun s =>
  match m s with
  | (.err e, s') => (.err e, leave w s')
  | r => r

/-- One API call (`step`) of a library whose failed callbacks leave `w`. -/
def stepW (E : Env σ) (cfg : Config) (w : Residue σ) (o : Op) : M σ Out :=
  match o with
  | .exportSecret l n => M.mapOut .bytes (exportSecretW E cfg w l n)
  | .keyUpdate b => M.mapOut (fun _ => .unit) (keyUpdateW E cfg w b)
  | .exportOscore a b c d => M.mapOut .oscore (exportOscoreW E cfg w a b c d)
  | .compose1 _ | .process1 _ | .compose2 _ | .process2 _ | .compose3 _ | .process3 _ | .compose4 _ | .process4 _ =>
    leaving w (step E cfg o)
  | _ => step E cfg o

end Verif
