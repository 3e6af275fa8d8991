import Verif.Msg4

/-!
# Exporter

Model of `/repo/library/edhoc_exporter.c`.
-/

namespace Verif

open M

variable {σ : Type}

/-- `compute_prk_out`. `/repo/library/edhoc_exporter.c:82-156`. -/
def compPrkOut (E : Env σ) (cfg : Config) : M σ Unit := do
  let c ← getCtx
  require (c.thState == .th4 && c.prkState == .prk4e3m) .badState
  let n := 1 + (c.th.length + bstrOh c.th.length) + intMemReq (i32 c.suite.hash)
  memAlloc E cfg n
  let p ← expandInfo E n c.prk 7 c.th c.suite.hash c.prk.length
  modCtx fun c => { c with prk := p, prkState := .out }

/-- `compute_new_prk_out`. `/repo/library/edhoc_exporter.c:158-229`. -/
def compNewPrkOut (E : Env σ) (cfg : Config) (entropy : Bytes) : M σ Unit := do
  let c ← getCtx
  require (c.prkState == .out) .badState
  let n := 1 + (entropy.length + bstrOh entropy.length) + intMemReq (i32 c.suite.hash)
  memAlloc E cfg n
  let p ← expandInfo E n c.prk 11 entropy c.suite.hash c.prk.length
  modCtx fun c => { c with prk := p, prkState := .out }

/-- `compute_prk_exporter`. `/repo/library/edhoc_exporter.c:231-303`. -/
def compPrkExporter (E : Env σ) (cfg : Config) : M σ Bytes := do
  let c ← getCtx
  require (c.prkState == .out) .badState
  let n := 1 + 1 + intMemReq (i32 c.suite.hash)
  memAlloc E cfg n
  expandInfo E n c.prk 10 [] c.suite.hash c.suite.hash

/-- Compute PRK_out unless that was done before. `/repo/library/edhoc_exporter.c:341-349, 445-453`. -/
def ensurePrkOut (E : Env σ) (cfg : Config) : M σ Unit := do
  let c ← getCtx
  whenM (c.prkState == .prk4e3m) (mapErr .prk (compPrkOut E cfg))

/-- `edhoc_export_prk_exporter`. `/repo/library/edhoc_exporter.c:314-427`. -/
def exportSecret (E : Env σ) (cfg : Config) (label secretLen : Nat) : M σ Bytes := do
  require (label ≤ 65535 && secretLen != 0) .invalidArgument
  require (label == 0 || label == 1 || 32768 ≤ label) .badState
  let c ← getCtx
  require (c.status.toNat ≤ Status.persisted.toNat &&
    PrkState.prk4e3m.toNat ≤ c.prkState.toNat) .badState
  ensurePrkOut E cfg
  memAlloc E cfg c.suite.hash
  let p ← mapErr .prk (compPrkExporter E cfg)
  let n := intMemReq (i32 label) + 1 + intMemReq (i32 c.suite.hash)
  memAlloc E cfg n
  expandInfo E n p label [] secretLen secretLen

/-- `edhoc_export_key_update`. `/repo/library/edhoc_exporter.c:429-470`. -/
def keyUpdate (E : Env σ) (cfg : Config) (entropy : Bytes) : M σ Unit := do
  require (entropy.length != 0) .invalidArgument
  let c ← getCtx
  require (Status.completed.toNat ≤ c.status.toNat &&
    PrkState.prk4e3m.toNat ≤ c.prkState.toNat) .badState
  modCtx fun c => { c with status := .aborted }
  ensurePrkOut E cfg
  mapErr .prk (compNewPrkOut E cfg entropy)
  modCtx fun c' => { c' with status := c.status, oscoreAllowed := true }

/-- OSCORE identifier: integer connection identifiers are CBOR encoded, byte strings are copied.
`/repo/library/edhoc_exporter.c:533-567, 583-612`. -/
def oscoreId (size : Nat) : Cid → Res Bytes
  | .int v => Res.ofOption .cbor (fits size (encInt v))
  | .bstr b => Res.ofOption .bufferTooSmall (fits size b)

/-- What `edhoc_export_oscore_session` returns. -/
structure Oscore where
  secret : Bytes
  salt : Bytes
  sid : Bytes
  rid : Bytes
  deriving DecidableEq, Repr

/-- `edhoc_export_oscore_session`. `/repo/library/edhoc_exporter.c:479-627`. -/
def exportOscore (E : Env σ) (cfg : Config) (secretLen saltLen sidSize ridSize : Nat) :
    M σ Oscore := do
  require (secretLen != 0 && saltLen != 0 && sidSize != 0 && ridSize != 0) .invalidArgument
  let c ← getCtx
  require c.oscoreAllowed .badState
  require (Status.completed.toNat ≤ c.status.toNat &&
    PrkState.prk4e3m.toNat ≤ c.prkState.toNat) .badState
  modCtx fun c => { c with status := .aborted, oscoreAllowed := false }
  let secret ← mapErr .prk (exportSecret E cfg 0 secretLen)
  let salt ← mapErr .prk (exportSecret E cfg 1 saltLen)
  let sid ← ofRes (oscoreId sidSize c.peerCid)
  let rid ← ofRes (oscoreId ridSize c.cid)
  modCtx fun c' => { c' with status := c.status }
  pure ⟨secret, salt, sid, rid⟩

end Verif
