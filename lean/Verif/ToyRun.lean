import Verif.Toy
import Verif.Spec

/-!
# Whole histories with the toy application
-/

namespace Verif.Toy

open Verif Spec

variable {σ : Type}

/-- undefined behaviour? -/
def isUb : Res Out → Bool
  | .ub _ => true
  | _ => false

/-- the history of a list of calls -/
def hist (E : Env σ) (cfg : Config) : List Op → St σ → History × St σ
  | [], s => ([], s)
  | o :: os, s =>
    let r := step E cfg o s
    let t := hist E cfg os r.2
    ((o, r.1) :: t.1, t.2)

theorem hist_run {E : Env σ} {cfg : Config} (ops : List Op) (s : St σ)
    (h : ((hist E cfg ops s).1.all fun p => !isUb p.2) = true) :
    Run E cfg s (hist E cfg ops s).1 (hist E cfg ops s).2 := by
  induction ops generalizing s with
  | nil => exact .nil s
  | cons o os ih =>
    simp only [hist, List.all_cons, Bool.and_eq_true] at h ⊢
    refine .cons (s1 := (step E cfg o s).2) rfl ?_ (ih _ h.2)
    intro u hu
    rw [hu] at h
    simp [isUb] at h

/-- the calls of a history that is a session -/
theorem hist_session {E : Env σ} {cfg : Config} (ops : List Op) (e : σ) (log : List Ev)
    (h : ((hist E cfg ops ⟨Ctx.fresh, e, log⟩).1.all fun p => !isUb p.2 && !restarts p.1) = true) :
    Session E cfg e log (hist E cfg ops ⟨Ctx.fresh, e, log⟩).1 (hist E cfg ops ⟨Ctx.fresh, e, log⟩).2 := by
  simp only [List.all_eq_true, Bool.and_eq_true, Bool.not_eq_true'] at h
  refine ⟨hist_run _ _ ?_, fun p hp => (h p hp).2⟩
  simp only [List.all_eq_true, Bool.not_eq_true']
  exact fun p hp => (h p hp).1

/-- a fresh context -/
def fresh : St Unit := ⟨Ctx.fresh, (), []⟩

/-- set-up calls after initialisation -/
def conf (method : Nat) (cid : Cid) : List Op :=
  [.setMethods [method], .setSuites [suite], .setCid cid, .bindEad true true,
    .bindKeys true, .bindCrypto true, .bindCred true]

/-- the `n`-th message of an honest handshake -/
def msg (method n : Nat) : Bytes := bytesOf ((shake method).1.getD (2 * (n - 1)) (.err .generic))

/-- an Initiator's calls -/
def callsI (method : Nat) : List Op :=
  conf method (.int 5) ++
    [.compose1 100, .process2 (msg method 2), .compose3 100, .process4 (msg method 4)]

/-- a Responder's calls -/
def callsR (method : Nat) : List Op :=
  conf method (.bstr [0x18, 9]) ++
    [.process1 (msg method 1), .compose2 100, .process3 (msg method 3), .compose4 100]

/-- result and state at the end of a list of calls -/
def after (p : Party) (ops : List Op) : St Unit := (hist (env p) cfg ops fresh).2

/-- the results of a list of calls -/
def hst (p : Party) (ops : List Op) : History := (hist (env p) cfg ops fresh).1

theorem session (p : Party) (ops : List Op)
    (h : ((hst p ops).all fun p => !isUb p.2 && !restarts p.1) = true) :
    Session (env p) cfg () [] (hst p ops) (after p ops) := hist_session ops () [] h

theorem session_I3 : Session (env alice) cfg () [] (hst alice (callsI 3)) (after alice (callsI 3)) :=
  session _ _ (by decide +kernel)

theorem session_R3 : Session (env bob) cfg () [] (hst bob (callsR 3)) (after bob (callsR 3)) :=
  session _ _ (by decide +kernel)

end Verif.Toy
