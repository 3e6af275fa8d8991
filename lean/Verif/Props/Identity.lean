import Verif.SpecIdentity
import Verif.Props.Separation
import Verif.Props.Auth
import Verif.Props.Complete
import Verif.Events
import Verif.Heads
import Verif.Growth
import Verif.ToyRun

/-!
# C75: the Initiator's identity is not used before the Responder is authenticated
-/

namespace Verif

open M Spec

variable {σ : Type} {E : Env σ} {cfg : Config}

/-- calls other than the composition of messages 2 and 3 use neither callback -/
theorem step_as (own : σ → Option (Cred × Bytes) × σ) (sg : σ → Bytes → Bytes → Option Bytes × σ) {o : Op}
    (h2 : ∀ n, o ≠ .compose2 n) (h3 : ∀ n, o ≠ .compose3 n) : step (Env.as E own sg) cfg o = step E cfg o := by
  cases o
  case compose2 n => exact absurd rfl (h2 n)
  case compose3 n => exact absurd rfl (h3 n)
  all_goals rfl

/-- a call that reveals the identity -/
theorem reveals_step {o : Op} {s s' : St σ} {r : Res Out} (h : step E cfg o s = (r, s')) (hd : r.Defined) {v : Ev}
    (hv : v ∈ during s s') (hr : Reveals v) :
    (∃ n, o = .compose2 n ∧ s.ctx.status = .receivedM1) ∨ ∃ n, o = .compose3 n ∧ s.ctx.status = .verifiedM2 := by
  have hp := C33_performs h hd
  have hk : .credFetch ∈ performs o ∨ .sign ∈ performs o := by
    cases v <;> simp only [Reveals] at hr
    · exact Or.inr (within_mem hp .sign hv)
    · exact Or.inl (within_mem hp .credFetch hv)
  have key : ∀ k, callOf o = some k → okOf k s.ctx = true := by
    intro k ho
    cases hok : okOf k s.ctx with
    | true => rfl
    | false =>
      rw [message_rejected ho hok] at h
      obtain ⟨_, rfl⟩ := Prod.mk.inj h
      simp [during] at hv
  cases o <;> simp [performs] at hk
  case compose2 n => exact Or.inl ⟨n, rfl, (by have := key .compose2 rfl; simp [okOf, okReceivedM1] at this; exact this.1.1)⟩
  case compose3 n => exact Or.inr ⟨n, rfl, (by have := key .compose3 rfl; simp [okOf, okVerifiedM2] at this; exact this.1.1)⟩

/-- **C75** (when). Whenever the library asks the application for its own credential or for a signature, in whatever
session, then either the session is an Initiator's, its `edhoc_message_2_process` has succeeded, and
`edhoc_message_3_compose` is running; or it is a Responder's that has accepted message 1, and `edhoc_message_2_compose`
is running. -/
theorem C75_when {e : σ} {log : List Ev} {h : History} {s s' : St σ} {o : Op} {r : Res Out}
    (hs : Session E cfg e log h s) (hst : step E cfg o s = (r, s')) (hd : r.Defined) {v : Ev} (hv : v ∈ during s s')
    (hr : Reveals v) :
    (∃ n, o = .compose3 n ∧ messages h = [.compose1, .process2]) ∨
      ∃ n, o = .compose2 n ∧ messages h = [.process1] := by
  have hp := past_session hs
  rcases reveals_step hst hd hv hr with ⟨n, rfl, h1⟩ | ⟨n, rfl, h1⟩
  · rw [h1] at hp; exact Or.inr ⟨n, rfl, hp⟩
  · rw [h1] at hp; exact Or.inl ⟨n, rfl, hp⟩

/-- **C75** (what an attacker sees). As long as a session has accepted no message of its peer, it does not depend on the
identity of the application: with any other credential and any other signature key, the same calls have the same
results, byte for byte, the same calls to the application are made, and the session ends in the same state. So whoever
is not accepted as Responder learns nothing about who the Initiator is, not even by comparing what it returns. -/
theorem C75_independent {e : σ} {log : List Ev} {h : History} {s : St σ} (hs : Session E cfg e log h s)
    (h1 : .process1 ∉ messages h) (h2 : .process2 ∉ messages h) (own : σ → Option (Cred × Bytes) × σ)
    (sg : σ → Bytes → Bytes → Option Bytes × σ) :
    Session (Env.as E own sg) cfg e log h s ∧ ∀ v ∈ sessionCalls log s, ¬ Reveals v := by
  revert h1 h2
  refine session_ind (P := fun h s => .process1 ∉ messages h → .process2 ∉ messages h →
    Session (Env.as E own sg) cfg e log h s ∧ ∀ v ∈ sessionCalls log s, ¬ Reveals v) ?_ ?_ hs
  · intro _ _
    exact ⟨⟨.nil _, by simp⟩, by simp [sessionCalls]⟩
  · intro h s o r s' hs ih hst hd hr h1 h2
    rw [messages_append, List.mem_append, not_or] at h1 h2
    obtain ⟨⟨hrun, hno⟩, hq⟩ := ih h1.1 h2.1
    have hp := past_session hs
    have hst' : step (Env.as E own sg) cfg o s = (r, s') := by
      have rej : ∀ k, callOf o = some k → okOf k s.ctx = false →
          step (Env.as E own sg) cfg o s = (r, s') := by
        intro k ho hk
        rw [message_rejected ho hk] at hst ⊢
        exact hst
      by_cases c2 : ∃ n, o = .compose2 n
      · obtain ⟨n, rfl⟩ := c2
        refine rej .compose2 rfl ?_
        cases hk : okOf .compose2 s.ctx with
        | false => rfl
        | true =>
          have e1 : s.ctx.status = .receivedM1 := by simp [okOf, okReceivedM1] at hk; exact hk.1.1
          rw [e1] at hp
          simp only [Past] at hp
          rw [hp] at h1
          simp at h1
      · by_cases c3 : ∃ n, o = .compose3 n
        · obtain ⟨n, rfl⟩ := c3
          refine rej .compose3 rfl ?_
          cases hk : okOf .compose3 s.ctx with
          | false => rfl
          | true =>
            have e1 : s.ctx.status = .verifiedM2 := by simp [okOf, okVerifiedM2] at hk; exact hk.1.1
            rw [e1] at hp
            simp only [Past] at hp
            rw [hp] at h2
            simp at h2
        · rw [step_as own sg (fun n hn => c2 ⟨n, hn⟩) (fun n hn => c3 ⟨n, hn⟩)]
          exact hst
    refine ⟨⟨run_snoc hrun hst' hd, ?_⟩, ?_⟩
    · intro p hp
      rcases List.mem_append.1 hp with hp | hp
      · exact hno p hp
      · simp only [List.mem_singleton] at hp; subst hp; exact hr
    · intro v hv hrv
      rw [sessionCalls_eq (s := ⟨Ctx.fresh, e, log⟩) rfl, during_split (run_grow hs.1) (step_grow hst hd)] at hv
      rcases List.mem_append.1 hv with hv | hv
      · exact hq v hv hrv
      · rcases C75_when hs hst hd hv hrv with ⟨n, _, hm⟩ | ⟨n, _, hm⟩
        · rw [hm] at h2; simp at h2
        · rw [hm] at h1; simp at h1

namespace Toy

/-- message 2 of an honest handshake with a wrong last bit -/
def forged2 : Bytes := (msg 3 2).dropLast ++ [((msg 3 2).getLastD 0) ^^^ 1]

/-- an Initiator that is given the forged message, and goes on -/
def fooled : List Op := conf 3 (.int 5) ++ [.compose1 64, .process2 forged2, .compose3 64]

/-- Non-vacuity: the session of `fooled` meets the hypotheses. The forged message is refused only at the end, when its
MAC is compared: the application has accepted the credential by then. -/
example : Session (env alice) Toy.cfg () [] (hst alice fooled) (after alice fooled) ∧ messages (hst alice fooled) = [.compose1] ∧
    (hst alice fooled).drop 8 = [(.process2 forged2, .err .invalidSignOrMac2), (.compose3 64, .err .badState)] ∧
    (∃ c, CredAccepted (sessionCalls [] (after alice fooled)) (.x5chain [[1, 2, 3]]) c [0, 237]) :=
  ⟨Toy.session alice _ (by decide +kernel), by decide +kernel, by decide +kernel, .x5chain [[1, 2, 3]], by
    show _ ∈ _; decide +kernel⟩

example (own : Unit → Option (Cred × Bytes) × Unit) (sg : Unit → Bytes → Bytes → Option Bytes × Unit) :
    Session (Env.as (env alice) own sg) Toy.cfg () [] (hst alice fooled) (after alice fooled) :=
  (C75_independent (Toy.session alice _ (by decide +kernel)) (by decide +kernel) (by decide +kernel) own sg).1

/-- Once the Responder is authenticated the identity matters: without a credential the composition of message 3 fails
where it succeeds with one. -/
example : (hist (env alice) Toy.cfg (callsI 3) fresh).1.map (fun p => succeeded p.2) ≠
    (hist (Env.as (env alice) (fun e => (none, e)) (env alice).sign) Toy.cfg (callsI 3) fresh).1.map fun p => succeeded p.2 := by
  decide +kernel

/-- an Initiator up to the acceptance of message 2 -/
def trusting : List Op := conf 3 (.int 5) ++ [.compose1 100, .process2 (msg 3 2)]

/-- Non-vacuity of `C75_when`: an honest Initiator asks for its credential when it composes message 3. -/
example : ∃ s, Session (env alice) Toy.cfg () [] (hst alice trusting) s ∧
    succeeded (step (env alice) Toy.cfg (.compose3 100) s).1 = true ∧
    ∃ v ∈ during s (step (env alice) Toy.cfg (.compose3 100) s).2, Reveals v := by
  refine ⟨after alice trusting, Toy.session alice trusting (by decide +kernel), by decide +kernel, ?_⟩
  have : (during (after alice trusting)
      (step (env alice) Toy.cfg (.compose3 100) (after alice trusting)).2).any
      (fun v => match v with | .credFetch _ => true | _ => false) = true := by decide +kernel
  obtain ⟨v, h1, h2⟩ := List.any_eq_true.1 this
  refine ⟨v, h1, ?_⟩
  cases v <;> simp at h2
  trivial

end Toy

end Verif
