import Verif.Api

/-!
# Specification: histories of API calls

The vocabulary in which the properties of sessions are stated. Nothing here looks inside the library
functions: only at calls, their results, and the application's log.
-/

namespace Verif.Spec

open Verif

variable {σ : Type}

/-- A history: calls with their results. -/
abbrev History := List (Op × Res Out)

/-- The history `h` leads from `s` to `s'`: no call had undefined behaviour. -/
inductive Run (E : Env σ) (cfg : Config) : St σ → History → St σ → Prop
  | nil (s : St σ) : Run E cfg s [] s
  | cons {s s1 s2 : St σ} {o : Op} {r : Res Out} {h : History} :
      step E cfg o s = (r, s1) → (∀ u, r ≠ .ub u) → Run E cfg s1 h s2 →
      Run E cfg s ((o, r) :: h) s2

/-- The eight message calls. -/
inductive Call | compose1 | process1 | compose2 | process2 | compose3 | process3 | compose4 | process4
  deriving DecidableEq, Repr

/-- Which message call is this? -/
def callOf : Op → Option Call
  | .compose1 _ => some .compose1
  | .process1 _ => some .process1
  | .compose2 _ => some .compose2
  | .process2 _ => some .process2
  | .compose3 _ => some .compose3
  | .process3 _ => some .process3
  | .compose4 _ => some .compose4
  | .process4 _ => some .process4
  | _ => none

/-- Are the output buffers and the input of the call non-empty? -/
def usable : Op → Bool
  | .compose1 n | .compose2 n | .compose3 n | .compose4 n => n != 0
  | .process1 b | .process2 b | .process3 b | .process4 b | .keyUpdate b => b.length != 0
  | .exportOscore a b c d => a != 0 && b != 0 && c != 0 && d != 0
  | _ => true

/-- did the call succeed? -/
def succeeded : Res Out → Bool
  | .ok _ => true
  | _ => false

/-- The successful message calls of a history, in order. -/
def messages (h : History) : List Call :=
  h.filterMap fun p => if succeeded p.2 then callOf p.1 else none

/-- Calls that end the session or start a new one. -/
def restarts : Op → Bool
  | .init | .deinit => true
  | _ => false

/-- The call sequences of RFC 9528. Message 4 is optional. -/
def roleSequences : List (List Call) :=
  [[.compose1, .process2, .compose3, .compose4], [.compose1, .process2, .compose3, .process4],
   [.process1, .compose2, .process3, .compose4], [.process1, .compose2, .process3, .process4]]

/-- `h` is a history since the last initialisation. -/
def Session (E : Env σ) (cfg : Config) (e : σ) (log : List Ev) (h : History) (s' : St σ) : Prop :=
  Run E cfg ⟨Ctx.fresh, e, log⟩ h s' ∧ ∀ p ∈ h, restarts p.1 = false

/-- What `edhoc_error_get_code` would return. -/
def reportedCode (s : St σ) : ErrCode := s.ctx.errorCode

/-- The session is over: whatever is called, in whatever order, as long as the context is not initialised
again, message calls return BAD_STATE (INVALID_ARGUMENT for an empty buffer). -/
def Dead (E : Env σ) (cfg : Config) (s : St σ) : Prop :=
  ∀ h s', Run E cfg s h s' → (∀ p ∈ h, p.1 ≠ .init) →
    ∀ p ∈ h, callOf p.1 ≠ none →
      p.2 = .err (if usable p.1 then .badState else .invalidArgument)

/-- is this call an export of an OSCORE session? -/
def isOscore : Op → Bool
  | .exportOscore _ _ _ _ => true
  | _ => false

/-- is this call a key update? -/
def isUpdate : Op → Bool
  | .keyUpdate _ => true
  | _ => false

/-- is this call one of the three exporter functions? -/
def isExporter : Op → Bool
  | .exportSecret _ _ | .keyUpdate _ | .exportOscore _ _ _ _ => true
  | _ => false

/-- The call is refused: BAD_STATE (INVALID_ARGUMENT for an empty buffer), the context is as it was, and no
callback was called. -/
def Refused (E : Env σ) (cfg : Config) (o : Op) (s : St σ) : Prop :=
  step E cfg o s = (.err (if usable o then .badState else .invalidArgument), s)

/-- From here on, message calls, key updates and OSCORE exports are refused, until the context is initialised or
de-initialised. -/
def Frozen (E : Env σ) (cfg : Config) (s : St σ) : Prop :=
  ∀ h s', Run E cfg s h s' → (∀ p ∈ h, restarts p.1 = false) →
    ∀ o, (callOf o ≠ none ∨ isUpdate o = true ∨ isOscore o = true) → Refused E cfg o s'

/-- The calls to the application made between two states. -/
def during (s s' : St σ) : List Ev := s'.log.drop s.log.length

/-- The credential callback rejected a credential between the two states. -/
def RejectedCred (s s' : St σ) : Prop := ∃ c, Ev.credVerify c none ∈ during s s'

/-- The suite the context prefers: the last of the configured ones. -/
def preferred (c : Ctx) : Int := (c.csuiteArr.getD (c.csuiteLen - 1) Suite.zero).value

/-- The message call `k` comes next in a role sequence. -/
def inOrder (h : History) (k : Call) : Prop := ∃ q ∈ roleSequences, messages h ++ [k] <+: q

/-- The handshake is complete: message 3 was composed or processed successfully. -/
def complete (h : History) : Prop := .compose3 ∈ messages h ∨ .process3 ∈ messages h

/-- In `h`, a message call that came next in its role sequence, with usable arguments, failed. (Message 4 is
refused after an exporter call.) -/
def HandshakeFailed (h : History) : Prop :=
  ∃ h1 o er h2 k, h = h1 ++ (o, .err er) :: h2 ∧ callOf o = some k ∧ usable o = true ∧ inOrder h1 k ∧
    (k ∈ [.compose4, .process4] → ∀ p ∈ h1, isExporter p.1 = false)

end Verif.Spec
