/-
C84: the life of a context.
-/
import Verif.SpecLife
import Verif.Props.History
import Verif.Props.Setters
import Verif.Props.Secrets
import Verif.Props.Negotiation

namespace Verif

open Spec

variable {σ : Type}

theorem blank_zero : Blank Ctx.zero := ⟨.start, .msg1, .initiator, .success, .inl rfl, rfl⟩

theorem Spec.Blank.init {c : Ctx} (h : Blank c) : c.isInit = false := by obtain ⟨_, _, _, _, _, rfl⟩ := h; rfl

theorem Spec.Blank.suites {c : Ctx} (h : Blank c) : c.csuiteLen = 0 := by obtain ⟨_, _, _, _, _, rfl⟩ := h; rfl

theorem Spec.Blank.prkState {c : Ctx} (h : Blank c) : c.prkState = .invalid := by
  obtain ⟨_, _, _, _, _, rfl⟩ := h; rfl

theorem Spec.Blank.status {c : Ctx} (h : Blank c) : c.status = .start ∨ c.status = .aborted := by
  obtain ⟨_, _, _, _, h, rfl⟩ := h; exact h

theorem Spec.Blank.entered {s : St σ} (h : Blank s.ctx) (m : Msg) (ro : Role) : Blank (entered m ro s).ctx := by
  obtain ⟨st, m', r', e', _, h⟩ := h
  exact ⟨.aborted, m, ro, .unspecified, .inr rfl, by simp only [Verif.entered, h]⟩

/-- A message call on a blank context is refused. -/
theorem blank_message {E : Env σ} {cfg : Config} {o : Op} {k : Call} (hk : callOf o = some k) {s s' : St σ}
    {r : Res Out} (h : step E cfg o s = (r, s')) (hb : Blank s.ctx) :
    refusal r ∧ Blank s'.ctx ∧ s'.env = s.env ∧ s'.log = s.log := by
  by_cases ho : okOf k s.ctx = true
  · have hst : s.ctx.status = .start := by
      rcases hb.status with h | h
      · exact h
      · rw [aborted_not_ok h] at ho; cases ho
    have hk1 : k = .compose1 ∨ k = .process1 := by
      by_cases hn : k = .compose1 ∨ k = .process1
      · exact hn
      · rw [start_not_ok hst (by simpa using hn)] at ho
        cases ho
    have key : ∃ m ro, step E cfg o s =
        (.err (if usable o then .badState else .invalidArgument),
          if usable o then entered m ro s else s) := by
      cases o <;> simp only [callOf, Option.some.injEq, reduceCtorEq] at hk <;> subst hk <;>
        simp only [reduceCtorEq, or_self, or_false, or_true] at hk1 <;>
        unfold step
      case compose1 n =>
        exact ⟨_, _, mapOut_err (by unfold message1Compose; exact guard_no_suites ho hb.suites)⟩
      case process1 n =>
        exact ⟨_, _, mapOut_err (by unfold message1Process; exact guard_no_suites ho hb.suites)⟩
    obtain ⟨m, ro, h1⟩ := key
    rw [h1] at h
    simp only [Prod.mk.injEq] at h
    obtain ⟨rfl, rfl⟩ := h
    cases usable o
    · exact ⟨.inr rfl, hb, rfl, rfl⟩
    · exact ⟨.inl rfl, hb.entered m ro, rfl, rfl⟩
  · rw [message_rejected (E := E) (cfg := cfg) hk (by simpa using ho)] at h
    simp only [Prod.mk.injEq] at h
    obtain ⟨rfl, rfl⟩ := h
    exact ⟨by cases usable o <;> simp [refusal], hb, rfl, rfl⟩

/-- Every call but an initialisation is refused on a blank context. -/
theorem blank_step {E : Env σ} {cfg : Config} {o : Op} (hn : o ≠ .init) {s s' : St σ} {r : Res Out}
    (h : step E cfg o s = (r, s')) (hb : Blank s.ctx) :
    refusal r ∧ Blank s'.ctx ∧ s'.env = s.env ∧ s'.log = s.log := by
  have same : ∀ e, (e = .badState ∨ e = .invalidArgument) → step E cfg o s = (.err e, s) →
      refusal r ∧ Blank s'.ctx ∧ s'.env = s.env ∧ s'.log = s.log := by
    intro e he h1
    rw [h1] at h
    simp only [Prod.mk.injEq] at h
    obtain ⟨rfl, rfl⟩ := h
    exact ⟨by rcases he with rfl | rfl <;> simp [refusal], hb, rfl, rfl⟩
  by_cases hs : isSetter o = true
  · rcases C30_setters (E := E) (cfg := cfg) hs s with ⟨hi, _⟩ | ⟨_, e, he, h1⟩
    · rw [hb.init] at hi; cases hi
    · exact same e he h1
  · cases hk : callOf o with
    | some k => exact blank_message hk h hb
    | none =>
      have hu : okUpdate s.ctx = false := by
        unfold okUpdate; rw [hb.prkState]; simp [PrkState.toNat]
      have ref : Refused E cfg o s → refusal r ∧ Blank s'.ctx ∧ s'.env = s.env ∧ s'.log = s.log := by
        intro hr
        exact same _ (by cases usable o <;> simp) hr
      cases o <;> simp only [callOf, reduceCtorEq, isSetter, not_true_eq_false] at hk hs hn
      case nullArg => exact same .invalidArgument (.inr rfl) rfl
      case deinit =>
        refine same .badState (.inl rfl) ?_
        simp [step, M.mapOut, contextDeinit, Bind.bind, M.bind, M.getCtx, M.require, hb.init]
      case exportSecret l n =>
        obtain ⟨e, he, h1⟩ := exportSecret_rejected (E := E) (cfg := cfg) (label := l) (n := n) (s := s)
          (by unfold okExport; rw [hb.prkState]; simp [PrkState.toNat])
        exact same e he (mapOut_err h1)
      case keyUpdate b => exact ref (update_refused hu (.inl rfl))
      case exportOscore a b c d => exact ref (update_refused hu (.inr rfl))
      case getCode =>
        refine same .badState (.inl rfl) ?_
        simp [step, M.mapOut, errorGetCode, Bind.bind, M.bind, M.getCtx, M.require, hb.init]
      case getSuites a b =>
        cases hab : (a != 0 && b != 0) with
        | true =>
          refine same .badState (.inl rfl) ?_
          simp only [step, M.mapOut, errorGetSuites, Bind.bind, M.bind, M.getCtx, M.require, hab, hb.init,
            Bool.false_eq_true, if_true, if_false]
        | false =>
          refine same .invalidArgument (.inr rfl) ?_
          simp only [step, M.mapOut, errorGetSuites, Bind.bind, M.bind, M.getCtx, M.require, hab,
            Bool.false_eq_true, if_false]
      case init => exact absurd rfl hn

theorem blank_run {E : Env σ} {cfg : Config} {s s' : St σ} {h : History} (hr : Run E cfg s h s')
    (hn : ∀ p ∈ h, p.1 ≠ .init) (hb : Blank s.ctx) :
    (∀ p ∈ h, refusal p.2) ∧ Blank s'.ctx ∧ s'.env = s.env ∧ s'.log = s.log := by
  induction hr with
  | nil s => exact ⟨by simp, hb, rfl, rfl⟩
  | cons hs _ _ ih =>
    obtain ⟨h1, h2, h3, h4⟩ := blank_step (hn _ List.mem_cons_self) hs hb
    obtain ⟨i1, i2, i3, i4⟩ := ih (fun p hp => hn p (List.mem_cons_of_mem _ hp)) h2
    refine ⟨?_, i2, i3.trans h3, i4.trans h4⟩
    intro p hp
    rcases List.mem_cons.mp hp with rfl | hp
    · exact h1
    · exact i1 p hp

/-- **C84**, the end: after de-initialisation every call is refused until the context is initialised again. No
callback is called, and the context stays without contents. -/
theorem C84_closed {E : Env σ} {cfg : Config} {s s1 s' : St σ} {o : Out} {h : History}
    (hd : step E cfg .deinit s = (.ok o, s1)) (hr : Run E cfg s1 h s') (hn : ∀ p ∈ h, p.1 ≠ .init) :
    (∀ p ∈ h, refusal p.2) ∧ Blank s'.ctx ∧ s'.env = s.env ∧ s'.log = s.log := by
  have hz := C19_deinit hd
  have he : s1.env = s.env ∧ s1.log = s.log := by
    obtain ⟨r0, h0, ⟨a, rfl, _⟩ | ⟨e, rfl, hr⟩ | ⟨u, rfl, hr⟩⟩ := mapOut_cases hd
    · simp only [contextDeinit, bind_ok, getCtx_ok, require_ok, modCtx_ok] at h0
      obtain ⟨_, _, ⟨rfl, rfl⟩, _, _, ⟨_, rfl⟩, rfl⟩ := h0
      exact ⟨rfl, rfl⟩
    · cases hr
    · cases hr
  obtain ⟨h1, h2, h3, h4⟩ := blank_run hr hn (hz ▸ blank_zero)
  exact ⟨h1, h2, h3.trans he.1, h4.trans he.2⟩

/-- **C84**, the whole life: wherever in a life a context is initialised, and whatever it contained then, what
follows up to the next initialisation or de-initialisation is a session: everything proved about sessions holds
for it. -/
theorem C84_session {E : Env σ} {cfg : Config} {s s' : St σ} {h1 h2 h3 : History} {r : Res Out}
    (hr : Run E cfg s (h1 ++ (.init, r) :: (h2 ++ h3)) s') (hn : ∀ p ∈ h2, restarts p.1 = false) :
    r = .ok .unit ∧ ∃ s1 s2, Run E cfg s h1 s1 ∧ Session E cfg s1.env s1.log h2 s2 ∧ Run E cfg s2 h3 s' := by
  obtain ⟨s1, a, b⟩ := run_append hr
  cases b with
  | cons hs _ hr =>
    obtain ⟨s2, c, d⟩ := run_append hr
    simp only [step, M.mapOut, contextInit, M.modCtx, Prod.mk.injEq] at hs
    obtain ⟨rfl, rfl⟩ := hs
    exact ⟨rfl, s1, s2, a, ⟨c, hn⟩, d⟩

/-- **C84**, de-initialisation: it always succeeds on the context of a session, and leaves zeros. -/
theorem C84_deinit {E : Env σ} {cfg : Config} {e : σ} {log : List Ev} {h : History} {s : St σ}
    (hs : Session E cfg e log h s) :
    step E cfg .deinit s = (.ok .unit, { s with ctx := Ctx.zero }) := by
  simp [step, M.mapOut, contextDeinit, Bind.bind, M.bind, M.getCtx, M.require, M.modCtx, Pure.pure, M.ret, session_init hs]

namespace Toy

/-- a handshake, the end of the context, and a second handshake in it after calls that come too late -/
def life : List Op :=
  .init :: callsI 3 ++ [.deinit, .exportSecret 32768 16, .compose1 100, .deinit, .setMethods [3]] ++
    .init :: callsI 3 ++ [.exportSecret 32768 16]

/-- the calls on the context between its end and its second start -/
def tooLate : List Op := [.exportSecret 32768 16, .compose1 100, .deinit, .setMethods [3]]

end Toy

example : Run (Toy.env Toy.alice) Toy.cfg Toy.fresh (Toy.hst Toy.alice Toy.life) (Toy.after Toy.alice Toy.life) :=
  Toy.hist_run _ _ (by decide +kernel)

example : ((Toy.hst Toy.alice Toy.life).map fun p => succeeded p.2) =
    (List.replicate (Toy.callsI 3).length true |>.cons true) ++ [true, false, false, false, false] ++
    (List.replicate (Toy.callsI 3).length true |>.cons true) ++ [true] := by decide +kernel

example : (step (Toy.env Toy.alice) Toy.cfg .deinit (Toy.after Toy.alice (Toy.callsI 3))).1 = .ok .unit ∧
    Run (Toy.env Toy.alice) Toy.cfg (step (Toy.env Toy.alice) Toy.cfg .deinit (Toy.after Toy.alice (Toy.callsI 3))).2
      (Toy.hist (Toy.env Toy.alice) Toy.cfg Toy.tooLate
        (step (Toy.env Toy.alice) Toy.cfg .deinit (Toy.after Toy.alice (Toy.callsI 3))).2).1
      (Toy.hist (Toy.env Toy.alice) Toy.cfg Toy.tooLate
        (step (Toy.env Toy.alice) Toy.cfg .deinit (Toy.after Toy.alice (Toy.callsI 3))).2).2 :=
  ⟨by decide +kernel, Toy.hist_run _ _ (by decide +kernel)⟩

end Verif
