import Verif.Covers
import Verif.ToyCheck

/-!
# Larger limits and another backend for memory (C80)

A session that works with one build configuration works in the same way with every configuration that allows at least as
much, whichever backend for memory the two use.
-/

namespace Verif

open M Spec

section
variable {σ : Type} {E : Env σ} {cfg cfg' : Config}

namespace Sim

theorem setMethods {ms : List Nat} : Sim (Verif.setMethods ms : M σ Unit) (Verif.setMethods ms) := by
  unfold Verif.setMethods
  sim

theorem setSuites {l : List Suite} (hc : Covers E cfg cfg') : Sim (Verif.setSuites cfg l : M σ Unit) (Verif.setSuites cfg' l) := by
  unfold Verif.setSuites
  sim
  all_goals limit

theorem setCid {c : Cid} (hc : Covers E cfg cfg') : Sim (Verif.setCid cfg c : M σ Unit) (Verif.setCid cfg' c) := by
  unfold Verif.setCid
  cases c with
  | int v => sim
  | bstr b =>
    have h2 := hc.cid
    sim
    · refine require fun h => ?_
      simp only [Bool.and_eq_true, decide_eq_true_eq] at h ⊢
      exact ⟨h.1, by omega⟩
    · limit

theorem setUserCtx : Sim (Verif.setUserCtx : M σ Unit) Verif.setUserCtx := by
  unfold Verif.setUserCtx
  sim

theorem bindEad {a b : Bool} : Sim (Verif.bindEad a b : M σ Unit) (Verif.bindEad a b) := by
  unfold Verif.bindEad
  sim

theorem bindKeys {b : Bool} : Sim (Verif.bindKeys b : M σ Unit) (Verif.bindKeys b) := by
  unfold Verif.bindKeys
  sim

theorem bindCrypto {b : Bool} : Sim (Verif.bindCrypto b : M σ Unit) (Verif.bindCrypto b) := by
  unfold Verif.bindCrypto
  sim

theorem bindCred {b : Bool} : Sim (Verif.bindCred b : M σ Unit) (Verif.bindCred b) := by
  unfold Verif.bindCred
  sim

theorem errorGetCode : Sim (Verif.errorGetCode : M σ _) Verif.errorGetCode := by
  unfold Verif.errorGetCode
  sim

theorem errorGetSuites {a b : Nat} : Sim (Verif.errorGetSuites a b : M σ _) (Verif.errorGetSuites a b) := by
  unfold Verif.errorGetSuites
  sim

theorem step (hc : Covers E cfg cfg') (o : Op) : Sim (Verif.step E cfg o) (Verif.step E cfg' o) := by
  cases o <;> unfold Verif.step
  case nullArg => exact fail _ _
  case init => exact mapOut _ (modCtx _)
  case deinit =>
    refine mapOut _ ?_
    unfold contextDeinit
    sim
  case setMethods => exact mapOut _ setMethods
  case setSuites => exact mapOut _ (setSuites hc)
  case setCid => exact mapOut _ (setCid hc)
  case setUserCtx => exact mapOut _ setUserCtx
  case bindEad => exact mapOut _ bindEad
  case bindKeys => exact mapOut _ bindKeys
  case bindCrypto => exact mapOut _ bindCrypto
  case bindCred => exact mapOut _ bindCred
  case compose1 => exact mapOut _ (message1Compose hc)
  case process1 => exact mapOut _ (message1Process hc)
  case compose2 => exact mapOut _ (message2Compose hc)
  case process2 => exact mapOut _ (message2Process hc)
  case compose3 => exact mapOut _ (message3Compose hc)
  case process3 => exact mapOut _ (message3Process hc)
  case compose4 => exact mapOut _ (message4Compose hc)
  case process4 => exact mapOut _ (message4Process hc)
  case exportSecret => exact mapOut _ (exportSecret hc)
  case keyUpdate => exact mapOut _ (keyUpdate hc)
  case exportOscore => exact mapOut _ (exportOscore hc)
  case getCode => exact mapOut _ errorGetCode
  case getSuites => exact mapOut _ errorGetSuites

end Sim

/-- **C80**, one call: a call that succeeds with `cfg` succeeds with every `cfg'` that allows at least as much, with the same
result, the same session afterwards, and the same calls to the application except for requests for memory. -/
theorem C80_call (hc : Covers E cfg cfg') {o : Op} {x : Out} {s s' : St σ} (h : step E cfg o s = (.ok x, s')) :
    ∃ t, step E cfg' o s = (.ok x, t) ∧ Twin s' t :=
  Sim.step hc o s s x s' ⟨rfl, rfl, rfl⟩ h

/-- **C80**, histories: a history all of whose calls succeed with `cfg` is one with `cfg'`, with the same results. -/
theorem C80_history (hc : Covers E cfg cfg') {h : History} {s s' t : St σ} (hr : Run E cfg s h s')
    (ho : ∀ p ∈ h, succeeded p.2 = true) (ht : Twin s t) : ∃ t', Run E cfg' t h t' ∧ Twin s' t' := by
  induction hr generalizing t with
  | nil s => exact ⟨t, .nil t, ht⟩
  | @cons s s1 s2 o r h hs hd _ ih =>
    have k := ho _ (List.mem_cons_self ..)
    cases r <;> simp only [succeeded, Bool.false_eq_true] at k
    obtain ⟨t1, h1, h2⟩ := Sim.step hc o s t _ s1 ht hs
    obtain ⟨t', h3, h4⟩ := ih (fun p hp => ho p (List.mem_cons_of_mem _ hp)) h2
    exact ⟨t', .cons h1 hd h3, h4⟩

/-- **C80**, sessions: a session all of whose calls succeed with `cfg` is a session with `cfg'`, with the same results, the
same keys at the end, and the same calls to the application except for requests for memory. -/
theorem C80_session (hc : Covers E cfg cfg') {e : σ} {log : List Ev} {h : History} {s' : St σ}
    (hs : Session E cfg e log h s') (ho : ∀ p ∈ h, succeeded p.2 = true) :
    ∃ t', Session E cfg' e log h t' ∧ t'.ctx = s'.ctx ∧ t'.env = s'.env ∧ seen t'.log = seen s'.log := by
  obtain ⟨t', h1, h2, h3, h4⟩ := C80_history hc hs.1 ho ⟨rfl, rfl, rfl⟩
  exact ⟨t', ⟨h1, hs.2⟩, h2.symm, h3.symm, h4.symm⟩

/-- **C80**, backends: if two configurations allow the same (say, one with the stack and one with the heap, both with enough
memory), then a call succeeds with the one exactly if it does with the other. -/
theorem C80_backends (h1 : Covers E cfg cfg') (h2 : Covers E cfg' cfg) (o : Op) (s : St σ) (x : Out) :
    (step E cfg o s).1 = .ok x ↔ (step E cfg' o s).1 = .ok x := by
  constructor
  · intro h
    obtain ⟨t, ht, _⟩ := C80_call h1 (x := x) (s' := (step E cfg o s).2) (Prod.ext h rfl)
    rw [ht]
  · intro h
    obtain ⟨t, ht, _⟩ := C80_call h2 (x := x) (s' := (step E cfg' o s).2) (Prod.ext h rfl)
    rw [ht]

end

/-- a build with small limits that has its buffers on the stack -/
def Toy.small : Config := { Toy.cfg with maxMac := 4, maxEccKey := 3, maxKid := 1, backend := .stack, stackMax := 400 }

/-- a build with large limits and with buffers from the heap -/
def Toy.roomy : Config := { Toy.cfg with
  maxSuites := 9, maxCid := 9, maxEccKey := 99, maxMac := 99, maxEad := 9, maxKid := 9, maxHashAlg := 9, maxCerts := 9
  macCtxSize := 150 }

theorem Toy.covers : Covers (Toy.env Toy.alice) Toy.small Toy.roomy where
  suites := by decide
  cid := by decide
  eccKey := by decide
  mac := by decide
  ead := by decide
  noEad := by decide
  kid := by decide
  hashAlg := by decide
  certs := by decide
  dec := rfl
  memory _ _ _ := rfl
  macMemory _ _ _ := rfl
  apart _ _ := rfl

/-- Non-vacuity: the Initiator's handshake, exports and key update with the small build, and hence with the large one. -/
example : ∃ h s s', Session (Toy.env Toy.alice) Toy.small () [] h s ∧ h.map Prod.fst = Toy.callsI 3 ++ Toy.exports ∧
    (∀ p ∈ h, succeeded p.2 = true) ∧ Session (Toy.env Toy.alice) Toy.roomy () [] h s' ∧ s'.ctx = s.ctx := by
  have hs := Toy.hist_session (E := Toy.env Toy.alice) (cfg := Toy.small) (Toy.callsI 3 ++ Toy.exports) () [] (by decide +kernel)
  have ho : ∀ p ∈ (Toy.hist (Toy.env Toy.alice) Toy.small (Toy.callsI 3 ++ Toy.exports) ⟨Ctx.fresh, (), []⟩).1, succeeded p.2 = true := by
    have : ((Toy.hist (Toy.env Toy.alice) Toy.small (Toy.callsI 3 ++ Toy.exports) ⟨Ctx.fresh, (), []⟩).1.all fun p => succeeded p.2) = true := by
      decide +kernel
    simpa using this
  obtain ⟨t, h1, h2, _⟩ := C80_session Toy.covers hs ho
  exact ⟨_, _, t, hs, by decide +kernel, ho, h1, h2⟩

/-- The limits matter: with a smaller one, composing message 1 writes out of bounds. -/
example : (step (Toy.env Toy.alice) { Toy.small with maxMac := 3 } (.compose1 100)
      (Toy.after Toy.alice (Toy.conf 3 (.int 5)))).1 = .ub .oob ∧
    succeeded (step (Toy.env Toy.alice) Toy.small (.compose1 100) (Toy.after Toy.alice (Toy.conf 3 (.int 5)))).1 = true := by
  decide +kernel

end Verif
