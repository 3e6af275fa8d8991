import Verif.Step
import Verif.ToyRun

/-!
# Properties of whole histories: C01, C02, C03, C04, C15

Vocabulary: `Verif/Spec.lean`.
-/

namespace Verif

open M Spec

variable {σ α β γ : Type}

/-! ## Runs -/

theorem run_append {E : Env σ} {cfg : Config} {s s2 : St σ} {h1 h2 : History}
    (h : Run E cfg s (h1 ++ h2) s2) : ∃ s1, Run E cfg s h1 s1 ∧ Run E cfg s1 h2 s2 := by
  induction h1 generalizing s with
  | nil => exact ⟨s, .nil s, h⟩
  | cons p h1 ih =>
    cases h with
    | cons hs hd hr =>
      obtain ⟨s1, a, b⟩ := ih hr
      exact ⟨s1, .cons hs hd a, b⟩

theorem run_cons {E : Env σ} {cfg : Config} {s s2 : St σ} {o : Op} {r : Res Out} {h : History}
    (hr : Run E cfg s ((o, r) :: h) s2) :
    ∃ s1, step E cfg o s = (r, s1) ∧ r.Defined ∧ Run E cfg s1 h s2 := by
  cases hr with
  | cons hs hd hr => exact ⟨_, hs, hd, hr⟩

theorem messages_append (h1 h2 : History) : messages (h1 ++ h2) = messages h1 ++ messages h2 := by
  simp [messages]

/-- what one call adds to the list of successful message calls -/
def added (o : Op) (r : Res Out) : List Call := messages [(o, r)]

theorem messages_cons (o : Op) (r : Res Out) (h : History) :
    messages ((o, r) :: h) = added o r ++ messages h := messages_append [(o, r)] h

theorem added_none {o : Op} {r : Res Out} (h : callOf o = none) : added o r = [] := by
  simp [added, messages, h]

theorem added_err {o : Op} {e : Err} : added o (.err e) = [] := by
  simp [added, messages, succeeded]

theorem added_ok {o : Op} {k : Call} {a : Out} (h : callOf o = some k) : added o (.ok a) = [k] := by
  simp [added, messages, succeeded, h]

theorem ctl1_proj {c d : Ctx} (h : c.ctl1 = d) : c.errorCode = d.errorCode ∧ c.status = d.status ∧
    c.isInit = d.isInit ∧ c.oscoreAllowed = d.oscoreAllowed :=
  ⟨(by have hh := congrArg Ctx.errorCode h; exact hh), (by have hh := congrArg Ctx.status h; exact hh),
   (by have hh := congrArg Ctx.isInit h; exact hh),
   (by have hh := congrArg Ctx.oscoreAllowed h; exact hh)⟩

/-! ## C01 -/

/-- which message calls have succeeded in a given status -/
def Past (p : List Call) : Status → Prop
  | .start => p = []
  | .waitM2 => p = [.compose1]
  | .receivedM1 => p = [.process1]
  | .verifiedM2 => p = [.compose1, .process2]
  | .waitM3 => p = [.process1, .compose2]
  | .completed => p = [.compose1, .process2, .compose3] ∨ p = [.process1, .compose2, .process3]
  | .persisted => p ∈ roleSequences
  | .aborted => ∃ q ∈ roleSequences, p <+: q
  | _ => False

theorem past_prefix {p : List Call} {st : Status} (h : Past p st) :
    ∃ q ∈ roleSequences, p <+: q := by
  cases st <;> simp only [Past] at h
  case aborted => exact h
  case persisted => exact ⟨p, h, List.prefix_refl _⟩
  case completed => rcases h with rfl | rfl <;> decide
  all_goals (subst h; decide)

theorem past_next {p : List Call} {k : Call} {c : Ctx} (h : Past p c.status)
    (hk : okOf k c = true) : Past (p ++ [k]) (nextOf k) := by
  cases k <;> simp only [okOf, okStart, okReceivedM1, okWaitM2, okVerifiedM2, okWaitM3, okCompleted,
    Bool.and_eq_true, beq_iff_eq] at hk <;>
    (have hs := hk.1.1; rw [hs] at h; simp only [Past] at h)
  case compose4 => rcases h with rfl | rfl <;> simp [Past, nextOf, roleSequences]
  case process4 => rcases h with rfl | rfl <;> simp [Past, nextOf, roleSequences]
  all_goals (subst h; simp [Past, nextOf])

theorem past_step {E : Env σ} {cfg : Config} {o : Op} {s s' : St σ} {r : Res Out} {p : List Call}
    (h : step E cfg o s = (r, s')) (hd : r.Defined) (hr : restarts o = false)
    (hp : Past p s.ctx.status) : Past (p ++ added o r) s'.ctx.status := by
  cases hk : callOf o with
  | none =>
    rw [added_none hk, List.append_nil]
    have := step_other hk hr h hd
    rcases this.2.2 with ⟨h1, _⟩ | ⟨_, _, _, _, _, h1, _⟩ | ⟨_, _, _, _, _, _, _, _, h1, _⟩ | ⟨_, _, h1, _⟩
    · rwa [h1]
    · rwa [h1]
    · rwa [h1]
    · rw [h1]; exact past_prefix hp
  | some k =>
    rcases step_message hk h hd with ⟨_, rfl, rfl⟩ | ⟨_, _, rfl, rfl⟩ |
      ⟨_, _, ⟨e, rfl⟩, _, _, _, hc⟩ | ⟨_, ho, ⟨a, rfl⟩, _, hc⟩
    · rwa [added_err, List.append_nil]
    · rwa [added_err, List.append_nil]
    · rw [added_err, List.append_nil, (ctl1_proj hc).2.1]
      exact past_prefix hp
    · rw [added_ok hk, (ctl1_proj hc).2.1]
      exact past_next hp ho

theorem past_run {E : Env σ} {cfg : Config} {s s' : St σ} {h : History} (hr : Run E cfg s h s') :
    ∀ {p : List Call}, (∀ q ∈ h, restarts q.1 = false) → Past p s.ctx.status →
      Past (p ++ messages h) s'.ctx.status := by
  induction hr with
  | nil s => intro p _ hp; simpa [messages] using hp
  | cons hs hd _ ih =>
    intro p hn hp
    have h1 := past_step hs hd (hn _ (List.mem_cons_self ..)) hp
    have h2 := ih (fun q hq => hn q (List.mem_cons_of_mem _ hq)) h1
    rwa [messages_cons, ← List.append_assoc]

theorem past_session {E : Env σ} {cfg : Config} {e : σ} {log : List Ev} {h : History} {s' : St σ}
    (hs : Session E cfg e log h s') : Past (messages h) s'.ctx.status := by
  have := past_run hs.1 (p := []) hs.2 rfl
  simpa using this

/-- **C01** (handshake order). Since initialisation the successful message calls are, in order, a
prefix of an RFC 9528 role sequence. -/
theorem C01_handshake_order {E : Env σ} {cfg : Config} {e : σ} {log : List Ev} {h : History}
    {s' : St σ} (hs : Session E cfg e log h s') :
    ∃ q ∈ roleSequences, messages h <+: q := past_prefix (past_session hs)

/-- Non-vacuity: whole handshakes are sessions, for both roles. -/
example : messages (Toy.hst Toy.alice (Toy.callsI 3)) = [.compose1, .process2, .compose3, .process4] ∧
    messages (Toy.hst Toy.bob (Toy.callsR 3)) = [.process1, .compose2, .process3, .compose4] := by
  decide +kernel
example := C01_handshake_order Toy.session_I3

/-! ## C02 -/

/-- no message call is accepted -/
def Over (c : Ctx) : Prop :=
  c.status = .aborted ∨ (c.isInit = false ∧ c.csuiteLen = 0 ∧ c.status = .start)

theorem aborted_not_ok {k : Call} {c : Ctx} (h : c.status = .aborted) : okOf k c = false := by
  cases k <;> simp [okOf, okStart, okReceivedM1, okWaitM2, okVerifiedM2, okWaitM3, okCompleted, h]

theorem start_not_ok {k : Call} {c : Ctx} (h : c.status = .start)
    (hk : k ≠ .compose1 ∧ k ≠ .process1) : okOf k c = false := by
  cases k <;> simp [okOf, okReceivedM1, okWaitM2, okVerifiedM2, okWaitM3, okCompleted, h] at hk ⊢

theorem mapOut_err {m : M σ α} {f : α → Out} {s s' : St σ} {e : Err} (h : m s = (.err e, s')) :
    M.mapOut f m s = (.err e, s') := by
  simp [M.mapOut, Bind.bind, M.bind, h]

theorem guard_rejected {arg : Bool} {ok : Ctx → Bool} {m : Msg} {ro : Role} {body : M σ α}
    {s : St σ} (h : ok s.ctx = false) :
    (M.require arg .invalidArgument >>= fun _ => enter ok m ro >>= fun _ => body) s =
      (.err (if arg then .badState else .invalidArgument), s) := by
  cases arg <;> simp [Bind.bind, M.bind, M.require, enter, M.getCtx, h]

/-- a message call that the phase does not allow has no effect -/
theorem message_rejected {E : Env σ} {cfg : Config} {o : Op} {k : Call} (hk : callOf o = some k)
    {s : St σ} (h : okOf k s.ctx = false) :
    step E cfg o s = (.err (if usable o then .badState else .invalidArgument), s) := by
  cases o <;> simp only [callOf, Option.some.injEq, reduceCtorEq] at hk <;> subst hk <;>
    simp only [okOf] at h <;> unfold step <;> apply mapOut_err
  case compose1 n => unfold message1Compose; exact guard_rejected h
  case process1 n => unfold message1Process; exact guard_rejected h
  case compose2 n => unfold message2Compose; exact guard_rejected h
  case process2 n => unfold message2Process; exact guard_rejected h
  case compose3 n => unfold message3Compose; exact guard_rejected h
  case process3 n => unfold message3Process; exact guard_rejected h
  case compose4 n => unfold message4Compose; exact guard_rejected h
  case process4 n => unfold message4Process; exact guard_rejected h

theorem guard_no_suites {arg : Bool} {m : Msg} {ro : Role} {body : M σ α}
    {s : St σ} (ho : okStart s.ctx = true) (h0 : s.ctx.csuiteLen = 0) :
    (M.require arg .invalidArgument >>= fun _ => enter okStart m ro >>= fun _ =>
      chooseSuite >>= fun _ => body) s =
      (.err (if arg then .badState else .invalidArgument), if arg then entered m ro s else s) := by
  cases arg <;> simp [Bind.bind, M.bind, M.require, enter, M.getCtx, ho, M.modCtx, chooseSuite, h0,
    entered]

/-- without configured suites message_1 cannot be composed or processed -/
theorem no_suites {E : Env σ} {cfg : Config} {o : Op} {k : Call} (hk : callOf o = some k)
    {s s' : St σ} {r : Res Out} (h : step E cfg o s = (r, s')) (h0 : s.ctx.csuiteLen = 0)
    (hst : s.ctx.status = .start) (hi : s.ctx.isInit = false) :
    r = .err (if usable o then .badState else .invalidArgument) ∧ Over s'.ctx := by
  have hover : Over s.ctx := Or.inr ⟨hi, h0, hst⟩
  by_cases ho : okOf k s.ctx = true
  · have hk1 : k = .compose1 ∨ k = .process1 := by
      by_cases hn : k = .compose1 ∨ k = .process1
      · exact hn
      · rw [start_not_ok hst (by simpa using hn)] at ho
        cases ho
    have key : ∃ m ro, step E cfg o s =
        (.err (if usable o then .badState else .invalidArgument),
          if usable o then entered m ro s else s) := by
      cases o <;> simp only [callOf, Option.some.injEq, reduceCtorEq] at hk <;> subst hk <;>
        simp only [reduceCtorEq, or_self, or_false, or_true] at hk1 <;>
        unfold step
      case compose1 n =>
        exact ⟨_, _, mapOut_err (by unfold message1Compose; exact guard_no_suites ho h0)⟩
      case process1 n =>
        exact ⟨_, _, mapOut_err (by unfold message1Process; exact guard_no_suites ho h0)⟩
    obtain ⟨m, ro, h1⟩ := key
    rw [h1] at h
    simp only [Prod.mk.injEq] at h
    obtain ⟨rfl, rfl⟩ := h
    refine ⟨rfl, ?_⟩
    cases usable o
    · exact hover
    · exact Or.inl rfl
  · have h2 := message_rejected (E := E) (cfg := cfg) hk (by simpa using ho)
    rw [h2] at h
    simp only [Prod.mk.injEq] at h
    obtain ⟨rfl, rfl⟩ := h
    exact ⟨rfl, hover⟩

/-- other calls do not reopen the session -/
theorem over_other {E : Env σ} {cfg : Config} {o : Op} (hk : callOf o = none) (hn : o ≠ .init)
    {s s' : St σ} {r : Res Out} (h : step E cfg o s = (r, s')) (hd : r.Defined)
    (ho : Over s.ctx) : Over s'.ctx := by
  by_cases hdo : o = .deinit
  · subst hdo
    unfold step at h
    obtain ⟨r0, h0, _⟩ := mapOut_cases h
    cases hi : s.ctx.isInit with
    | false =>
      simp only [contextDeinit, Bind.bind, M.bind, M.getCtx, M.require, hi, Bool.false_eq_true,
        ↓reduceIte, Prod.mk.injEq] at h0
      rw [← h0.2]; exact ho
    | true =>
      simp only [contextDeinit, Bind.bind, M.bind, M.getCtx, M.require, hi, M.modCtx,
        ↓reduceIte, Prod.mk.injEq] at h0
      rw [← h0.2]; exact Or.inr ⟨rfl, rfl, rfl⟩
  have hre : restarts o = false := by cases o <;> simp_all [restarts]
  have hot := step_other hk hre h hd
  rcases ho with ho | ⟨hi, h0, hst⟩
  · left
    rcases hot.2.2 with ⟨h1, _⟩ | ⟨_, _, _, _, _, h1, _⟩ | ⟨_, _, _, _, _, _, _, _, h1, _⟩ |
      ⟨_, _, h1, _⟩ <;> rw [h1]
    all_goals exact ho
  · have hu : okUpdate s.ctx = false := by
      have : ¬ Status.completed.toNat ≤ Status.start.toNat := by decide
      simp [okUpdate, hst, this]
    have hst' : s'.ctx.status = .start := by
      rcases hot.2.2 with ⟨h1, _⟩ | ⟨_, _, _, _, h2, _⟩ | ⟨_, _, _, _, _, _, _, h2, _⟩ | ⟨h2, _⟩
      · exact h1.trans hst
      · rw [hu] at h2; cases h2
      · simp [okOscore, hu] at h2
      · rw [hu] at h2; cases h2
    refine Or.inr ⟨hot.2.1.trans hi, ?_, hst'⟩
    rw [← h0]
    cases o <;> simp only [callOf, reduceCtorEq] at hk <;> simp only [restarts, reduceCtorEq] at hre <;>
      unfold step at h
    case nullArg =>
      simp only [M.fail, Prod.mk.injEq] at h
      rw [← h.2]
    case exportSecret l n =>
      obtain ⟨r0, h1, hr0⟩ := mapOut_cases h
      have hd0 : (exportSecret E cfg l n s).1.Defined := by
        rw [h1]
        rcases hr0 with ⟨a, rfl, _⟩ | ⟨e, rfl, _⟩ | ⟨u, rfl, rfl⟩
        · simp
        · simp
        · simp at hd
      have := (exportSecret_rctl E cfg l n s hd0).2
      rw [h1] at this
      have hh := congrArg Ctx.csuiteLen this
      exact hh
    case keyUpdate b =>
      obtain ⟨r0, h1, _⟩ := mapOut_cases h
      unfold keyUpdate at h1
      unfold okUpdate at hu
      by_cases hb : b.length = 0
      · simp only [Bind.bind, M.bind, M.require, hb, bne_self_eq_false, Bool.false_eq_true,
          ↓reduceIte, Prod.mk.injEq] at h1
        rw [← h1.2]
      · simp only [Bind.bind, M.bind, M.require, M.getCtx, hu, bne_iff_ne, ne_eq, hb,
          not_false_eq_true, ↓reduceIte, Bool.false_eq_true, Prod.mk.injEq] at h1
        rw [← h1.2]
    case exportOscore a b c d =>
      obtain ⟨r0, h1, hr0⟩ := mapOut_cases h
      have hd0 : r0.Defined := by
        rcases hr0 with ⟨a, rfl, _⟩ | ⟨e, rfl, _⟩ | ⟨u, rfl, rfl⟩
        · simp
        · simp
        · simp at hd
      rcases exportOscore_outcome E cfg a b c d h1 hd0 with ⟨_, rfl, rfl⟩ | ⟨_, _, rfl, rfl⟩ |
        ⟨_, ho, _⟩
      · rfl
      · rfl
      · simp [okOscore, hu] at ho
    all_goals
      obtain ⟨r0, h1, _⟩ := mapOut_cases h
      simp only [Verif.setMethods, Verif.setSuites, Verif.setCid, Verif.setUserCtx, Verif.bindEad,
        Verif.bindKeys, Verif.bindCrypto, Verif.bindCred, errorGetCode, errorGetSuites,
        Bind.bind, M.bind, M.getCtx, M.require, hi, Bool.false_eq_true, ↓reduceIte] at h1
      first
      | (simp only [Prod.mk.injEq] at h1; rw [← h1.2])
      | (split at h1 <;> (rename_i he; split at he <;> simp_all))

theorem over_dead {E : Env σ} {cfg : Config} {s : St σ} (ho : Over s.ctx) : Dead E cfg s := by
  intro h s' hr
  induction hr with
  | nil s => simp
  | @cons s s1 s2 o r h hs hd hr ih =>
    intro hn p hp hc
    have ho1 : o ≠ .init := hn _ (List.mem_cons_self ..)
    have key : Over s1.ctx ∧ (callOf o ≠ none →
        r = .err (if usable o then .badState else .invalidArgument)) := by
      cases hk : callOf o with
      | none => exact ⟨over_other hk ho1 hs hd ho, fun h => absurd rfl h⟩
      | some k =>
        rcases ho with ho | ⟨hi, h0, hst⟩
        · rw [message_rejected hk (aborted_not_ok ho)] at hs
          simp only [Prod.mk.injEq] at hs
          obtain ⟨rfl, rfl⟩ := hs
          exact ⟨Or.inl ho, fun _ => rfl⟩
        · have := no_suites hk hs h0 hst hi
          exact ⟨this.2, fun _ => this.1⟩
    rcases List.mem_cons.1 hp with rfl | hp
    · exact key.2 hc
    · exact ih key.1 (fun q hq => hn q (List.mem_cons_of_mem _ hq)) p hp hc

theorem keyUpdate_refused {E : Env σ} {cfg : Config} {b : Bytes} {s : St σ}
    (h : okUpdate s.ctx = false) : Refused E cfg (.keyUpdate b) s := by
  unfold Refused step
  apply mapOut_err
  unfold okUpdate at h
  by_cases hb : b.length = 0
  · simp [keyUpdate, usable, hb, Bind.bind, M.bind, M.require]
  · simp [keyUpdate, usable, Bind.bind, M.bind, M.require, M.getCtx, h, hb]

theorem exportOscore_refused {E : Env σ} {cfg : Config} {a b c d : Nat} {s : St σ}
    (h : okOscore s.ctx = false) : Refused E cfg (.exportOscore a b c d) s := by
  unfold Refused step
  apply mapOut_err
  unfold okOscore okUpdate at h
  cases hb : (a != 0 && b != 0 && c != 0 && d != 0) with
  | false => simp only [exportOscore, usable, hb, Bind.bind, M.bind, M.require, Bool.false_eq_true,
      ↓reduceIte]
  | true =>
    cases h1 : s.ctx.oscoreAllowed with
    | false => simp only [exportOscore, usable, hb, Bind.bind, M.bind, M.require, M.getCtx, h1,
        Bool.false_eq_true, ↓reduceIte]
    | true =>
      rw [h1, Bool.true_and] at h
      simp only [exportOscore, usable, hb, Bind.bind, M.bind, M.require, M.getCtx, h1, h,
        Bool.false_eq_true, ↓reduceIte]

theorem update_refused {E : Env σ} {cfg : Config} {o : Op} {s : St σ} (h : okUpdate s.ctx = false)
    (ho : isUpdate o = true ∨ isOscore o = true) : Refused E cfg o s := by
  cases o <;> simp [isUpdate, isOscore] at ho
  · exact keyUpdate_refused h
  · exact exportOscore_refused (by simp [okOscore, h])

theorem aborted_run {E : Env σ} {cfg : Config} {s s' : St σ} {h : History}
    (hr : Run E cfg s h s') : (∀ p ∈ h, restarts p.1 = false) → s.ctx.status = .aborted →
    s'.ctx.status = .aborted := by
  induction hr with
  | nil s => exact fun _ h => h
  | @cons s s1 s2 o r h hs hd hr ih =>
    intro hn ho
    refine ih (fun q hq => hn q (List.mem_cons_of_mem _ hq)) ?_
    cases hk : callOf o with
    | none =>
      have hot := step_other hk (hn _ (List.mem_cons_self ..)) hs hd
      rcases hot.2.2 with ⟨h1, _⟩ | ⟨_, _, _, _, _, h1, _⟩ | ⟨_, _, _, _, _, _, _, _, h1, _⟩ |
        ⟨_, _, h1, _⟩ <;> rw [h1]
      all_goals exact ho
    | some k =>
      rw [message_rejected hk (aborted_not_ok ho)] at hs
      simp only [Prod.mk.injEq] at hs
      rw [← hs.2]; exact ho

theorem aborted_okUpdate {c : Ctx} (h : c.status = .aborted) : okUpdate c = false := by
  have : ¬ Status.completed.toNat ≤ Status.aborted.toNat := by decide
  simp [okUpdate, h, this]

theorem aborted_frozen {E : Env σ} {cfg : Config} {s : St σ} (h : s.ctx.status = .aborted) :
    Frozen E cfg s := by
  intro hh s' hr hn o ho
  have ha := aborted_run hr hn h
  rcases ho with ho | ho
  · cases hk : callOf o with
    | none => exact absurd hk ho
    | some k => exact message_rejected hk (aborted_not_ok ha)
  · exact update_refused (aborted_okUpdate ha) ho

/-- **C02** (failure aborts the session for good). A message call that fails either was refused
without any effect, or ends the session: whatever is called from then on, and however the
callbacks behave, message calls return BAD_STATE until the context is initialised again. Key updates and
OSCORE exports are refused too. -/
theorem C02_failure_aborts {E : Env σ} {cfg : Config} {o : Op} {s s' : St σ} {e : Err}
    (ho : callOf o ≠ none) (h : step E cfg o s = (.err e, s')) :
    Refused E cfg o s ∨ (Dead E cfg s' ∧ Frozen E cfg s') := by
  cases hk : callOf o with
  | none => exact absurd hk ho
  | some k =>
    rcases step_message hk h (by simp) with ⟨hu, he, rfl⟩ | ⟨hu, _, he, rfl⟩ |
      ⟨_, _, _, _, _, _, hc⟩ | ⟨_, _, ⟨a, he⟩, _⟩
    · left
      unfold Refused; rw [h, he, hu]; rfl
    · left
      unfold Refused; rw [h, he, hu]; rfl
    · right
      have hs := (ctl1_proj hc).2.1
      exact ⟨over_dead (Or.inl hs), aborted_frozen hs⟩
    · cases he

/-- Non-vacuity: a damaged message_2 fails in decryption, not by refusal. -/
example : (step (Toy.env Toy.alice) Toy.cfg (.process2 [0x43, 1, 2, 3])
      (Toy.after Toy.alice (Toy.conf 3 (.int 5) ++ [.compose1 100]))).1 = .err .cbor ∧
    callOf (.process2 [0x43, 1, 2, 3]) ≠ none := by
  decide +kernel

/-! ## C03 -/

/-- **C03** (rejected calls have no effect), message calls: a message call that does not come next in
any role sequence is refused. -/
theorem C03_message_out_of_order {E : Env σ} {cfg : Config} {e : σ} {log : List Ev} {h : History}
    {s : St σ} (hs : Session E cfg e log h s) {o : Op} {k : Call} (hk : callOf o = some k)
    (hn : ∀ q ∈ roleSequences, ¬ messages h ++ [k] <+: q) : Refused E cfg o s := by
  cases ho : okOf k s.ctx with
  | false => exact message_rejected hk ho
  | true =>
    obtain ⟨q, hq, hp⟩ := past_prefix (past_next (past_session hs) ho)
    exact absurd hp (hn q hq)

/-- **C03**, key update and OSCORE export: refused unless the handshake is complete. -/
theorem C03_export_before_completion {E : Env σ} {cfg : Config} {e : σ} {log : List Ev}
    {h : History} {s : St σ} (hs : Session E cfg e log h s) (hn : ¬ complete h) {o : Op}
    (ho : isUpdate o = true ∨ isOscore o = true) : Refused E cfg o s := by
  refine update_refused ?_ ho
  have hp := past_session hs
  unfold okUpdate
  cases hst : s.ctx.status <;> rw [hst] at hp <;> simp only [Past] at hp <;> simp [Status.toNat]
  · exfalso
    apply hn
    rcases hp with hp | hp <;> simp [complete, hp]
  · exfalso
    apply hn
    unfold complete
    generalize messages h = p at hp
    revert p
    decide

/-- Non-vacuity: message 3 cannot be processed by an Initiator that waits for message 2, and an export is not possible
then. -/
example : (∀ q ∈ roleSequences,
      ¬ messages (Toy.hst Toy.alice (Toy.conf 3 (.int 5) ++ [.compose1 100])) ++ [.process3] <+: q) ∧
    ¬ complete (Toy.hst Toy.alice (Toy.conf 3 (.int 5) ++ [.compose1 100])) := by
  unfold complete
  decide +kernel

/-! ## C04 -/

theorem saw_during {s s' : St σ} {v : Ev} (h : Saw [v] s s') : v ∈ during s s' := by
  obtain ⟨a, b, h⟩ := h
  unfold during
  rw [h, List.drop_left]
  simp

theorem quiet_during {s s' : St σ} (h : Quiet s s') : ¬ RejectedCred s s' := by
  obtain ⟨l, h, hn⟩ := h
  rintro ⟨c, hc⟩
  unfold during at hc
  rw [h, List.drop_left] at hc
  exact hn c hc

/-- **C04** (protocol error code). After a message call that was not refused:
the code is 0 exactly when the call succeeded; after a failure it is 3 exactly when the
credential callback rejected a credential during the call; it is 2 only after a failed
`edhoc_message_1_process` on a message in which the decoder did not find the suite that the context
prefers as the selected one. (Otherwise it is 1, as there are only four codes.) -/
theorem C04_error_code {E : Env σ} {cfg : Config} {o : Op} {s s' : St σ} {r : Res Out}
    (ho : callOf o ≠ none) (h : step E cfg o s = (r, s')) (hd : r.Defined) :
    Refused E cfg o s ∨
    ((reportedCode s' = .success ↔ succeeded r = true) ∧
     (succeeded r = false → (reportedCode s' = .unknownCred ↔ RejectedCred s s')) ∧
     (reportedCode s' = .wrongSuite → ∃ b, o = .process1 b ∧
        (getMsg1 cfg.dec b).2.suites.selected ≠ some (preferred s.ctx))) := by
  cases hk : callOf o with
  | none => exact absurd hk ho
  | some k =>
    rcases step_message hk h hd with ⟨hu, rfl, rfl⟩ | ⟨hu, _, rfl, rfl⟩ |
      ⟨_, _, ⟨e, rfl⟩, hg, code, hm, hc⟩ | ⟨_, _, ⟨a, rfl⟩, hg, hc⟩
    · left
      unfold Refused; rw [h, hu]; rfl
    · left
      unfold Refused; rw [h, hu]; rfl
    · right
      have hcode : reportedCode s' = code := (ctl1_proj hc).1
      rw [hcode]
      cases code <;> simp only [CodeMeans] at hm
      · refine ⟨by simp [succeeded], fun _ => ⟨by simp, fun hr => absurd hr (quiet_during hm)⟩, by simp⟩
      · refine ⟨by simp [succeeded], fun _ => ⟨by simp, fun hr => absurd hr (quiet_during hm.1)⟩, fun _ => hm.2⟩
      · refine ⟨by simp [succeeded], fun _ => ⟨fun _ => ?_, fun _ => rfl⟩, by simp⟩
        obtain ⟨c, hc⟩ := hm
        exact ⟨c, saw_during hc⟩
    · right
      have hcode : reportedCode s' = .success := (ctl1_proj hc).1
      rw [hcode]
      exact ⟨by simp [succeeded], by simp [succeeded], by simp⟩

/-- **C04**, the query: on an initialised context `edhoc_error_get_code` returns that code and changes nothing. -/
theorem C04_get_code {E : Env σ} {cfg : Config} {s : St σ} (h : s.ctx.isInit = true) :
    step E cfg .getCode s = (.ok (.code (reportedCode s)), s) := by
  simp [step, M.mapOut, errorGetCode, Bind.bind, M.bind, M.getCtx, M.require, h, Pure.pure, M.ret,
    reportedCode]

/-- Non-vacuity: all four codes occur. Success; a damaged message; a message_1 with suite 9; a message_2 whose
credential the Initiator does not know (Mallory has no credentials in the database). -/
example :
    reportedCode (Toy.after Toy.alice (Toy.callsI 3)) = .success ∧
    reportedCode (step (Toy.env Toy.alice) Toy.cfg (.process2 [0x43, 1, 2, 3])
      (Toy.after Toy.alice (Toy.conf 3 (.int 5) ++ [.compose1 100]))).2 = .unspecified ∧
    reportedCode (step (Toy.env Toy.bob) Toy.cfg (.process1 [3, 9, 66, 0, 124, 5])
      (Toy.after Toy.bob (Toy.conf 3 (.int 5)))).2 = .wrongSuite ∧
    reportedCode (step (Toy.env { Toy.alice with db := fun _ => none }) Toy.cfg
      (.process2 (Toy.msg 3 2))
      (Toy.after Toy.alice (Toy.conf 3 (.int 5) ++ [.compose1 100]))).2 = .unknownCred := by
  decide +kernel

/-! ## C15 -/

/-- `Late`: the handshake was completed, so message 3 cannot be sent or received again -/
def Late (c : Ctx) : Prop := c.status = .completed ∨ c.status = .persisted ∨ c.status = .aborted

theorem late_step {E : Env σ} {cfg : Config} {o : Op} {s s' : St σ} {r : Res Out}
    (h : step E cfg o s = (r, s')) (hd : r.Defined) (hr : restarts o = false)
    (hl : Late s.ctx) : Late s'.ctx ∧ (callOf o = some .compose3 ∨ callOf o = some .process3 →
      ∃ e, r = .err e) := by
  cases hk : callOf o with
  | none =>
    refine ⟨?_, by simp⟩
    have := step_other hk hr h hd
    rcases this.2.2 with ⟨h1, _⟩ | ⟨_, _, _, _, _, h1, _⟩ | ⟨_, _, _, _, _, _, _, _, h1, _⟩ | ⟨_, _, h1, _⟩
    · unfold Late; rwa [h1]
    · unfold Late; rwa [h1]
    · unfold Late; rwa [h1]
    · exact Or.inr (Or.inr h1)
  | some k =>
    rcases step_message hk h hd with ⟨_, rfl, rfl⟩ | ⟨_, _, rfl, rfl⟩ |
      ⟨_, _, ⟨e, rfl⟩, _, _, _, hc⟩ | ⟨_, ho, ⟨a, rfl⟩, _, hc⟩
    · exact ⟨hl, fun _ => ⟨_, rfl⟩⟩
    · exact ⟨hl, fun _ => ⟨_, rfl⟩⟩
    · exact ⟨Or.inr (Or.inr (ctl1_proj hc).2.1), fun _ => ⟨_, rfl⟩⟩
    · have hs := (ctl1_proj hc).2.1
      cases k <;> simp only [okOf, okStart, okReceivedM1, okWaitM2, okVerifiedM2, okWaitM3, okCompleted,
        Bool.and_eq_true, beq_iff_eq] at ho <;>
        simp only [Late, ho.1.1, reduceCtorEq, or_self] at hl
      · exact ⟨Or.inr (Or.inl hs), by simp⟩
      · exact ⟨Or.inr (Or.inl hs), by simp⟩

/-- which calls make an OSCORE export possible -/
def opens (p : Op × Res Out) : Prop :=
  succeeded p.2 = true ∧
    (isUpdate p.1 = true ∨ callOf p.1 = some .compose3 ∨ callOf p.1 = some .process3)

theorem allowed_step {E : Env σ} {cfg : Config} {o : Op} {s s' : St σ} {r : Res Out}
    (h : step E cfg o s = (r, s')) (hd : r.Defined) (hr : restarts o = false)
    (ha : s'.ctx.oscoreAllowed = true) : s.ctx.oscoreAllowed = true ∨ opens (o, r) := by
  cases hk : callOf o with
  | none =>
    have := step_other hk hr h hd
    rcases this.2.2 with ⟨_, h1, _⟩ | ⟨_, _, rfl, rfl, _⟩ | ⟨_, _, _, _, _, _, _, _, _, h1⟩ | ⟨_, _, _, h1⟩
    · left; rwa [← h1]
    · right; exact ⟨rfl, Or.inl rfl⟩
    · rw [h1] at ha; cases ha
    · left; exact h1 ha
  | some k =>
    rcases step_message hk h hd with ⟨_, rfl, rfl⟩ | ⟨_, _, rfl, rfl⟩ |
      ⟨_, _, ⟨e, rfl⟩, _, _, _, hc⟩ | ⟨_, ho, ⟨a, rfl⟩, _, hc⟩
    · exact Or.inl ha
    · exact Or.inl ha
    · left; rw [(ctl1_proj hc).2.2.2] at ha; exact ha
    · rw [(ctl1_proj hc).2.2.2] at ha
      simp only [Bool.or_eq_true] at ha
      rcases ha with ha | ha
      · right
        refine ⟨rfl, Or.inr ?_⟩
        rw [hk]
        cases k <;> simp [finOf] at ha ⊢
      · exact Or.inl ha

theorem allowed_run {E : Env σ} {cfg : Config} {s s' : St σ} {h : History} (hr : Run E cfg s h s') :
    (∀ p ∈ h, restarts p.1 = false) → s'.ctx.oscoreAllowed = true →
      s.ctx.oscoreAllowed = true ∨ ∃ p ∈ h, opens p := by
  induction hr with
  | nil s => exact fun _ h => Or.inl h
  | @cons s s1 s2 o r h hs hd hr ih =>
    intro hn ha
    rcases ih (fun q hq => hn q (List.mem_cons_of_mem _ hq)) ha with h1 | ⟨p, hp, ho⟩
    · rcases allowed_step hs hd (hn _ (List.mem_cons_self ..)) h1 with h2 | h2
      · exact Or.inl h2
      · exact Or.inr ⟨_, List.mem_cons_self .., h2⟩
    · exact Or.inr ⟨p, List.mem_cons_of_mem _ hp, ho⟩

theorem late_run {E : Env σ} {cfg : Config} {s s' : St σ} {h : History} (hr : Run E cfg s h s') :
    (∀ p ∈ h, restarts p.1 = false) → Late s.ctx →
      ∀ p ∈ h, opens p → isUpdate p.1 = true := by
  induction hr with
  | nil s => simp
  | @cons s s1 s2 o r h hs hd hr ih =>
    intro hn hl p hp ho
    have h1 := late_step hs hd (hn _ (List.mem_cons_self ..)) hl
    rcases List.mem_cons.1 hp with rfl | hp
    · rcases ho.2 with h2 | h2
      · exact h2
      · obtain ⟨e, rfl⟩ := h1.2 h2
        exact absurd ho.1 (by simp [succeeded])
    · exact ih (fun q hq => hn q (List.mem_cons_of_mem _ hq)) h1.1 p hp ho

theorem oscore_step {E : Env σ} {cfg : Config} {o : Op} {s s' : St σ} {r : Res Out}
    (h : step E cfg o s = (r, s')) (hd : r.Defined) (ho : isOscore o = true)
    (hs : succeeded r = true) : okOscore s.ctx = true ∧ s'.ctx.oscoreAllowed = false ∧
      s'.ctx.status = s.ctx.status := by
  have hk : callOf o = none := by cases o <;> simp [isOscore] at ho ⊢ <;> rfl
  have hr : restarts o = false := by cases o <;> simp [isOscore] at ho ⊢ <;> rfl
  have := step_other hk hr h hd
  rcases this.2.2 with ⟨_, _, h1⟩ | ⟨_, _, rfl, _⟩ | ⟨_, _, _, _, _, _, _, h1, h2, h3⟩ | ⟨_, ⟨e, rfl⟩, _⟩
  · cases o <;> simp only [isOscore, Bool.false_eq_true] at ho
    cases r with
    | ok x => exact absurd rfl (h1 _ _ _ _ x rfl)
    | err e => simp [succeeded] at hs
    | ub u => simp at hd
  · simp [isOscore] at ho
  · exact ⟨h1, h3, h2⟩
  · simp [succeeded] at hs

theorem okUpdate_late {c : Ctx} (h : okUpdate c = true) :
    c.status = .completed ∨ c.status = .persisted := by
  unfold okUpdate at h
  cases hs : c.status <;> simp [hs, Status.toNat] at h ⊢

/-- **C15** (one OSCORE export per key epoch), two exports: between two successful OSCORE exports of a session
there is a successful key update. -/
theorem C15_one_export_per_epoch {E : Env σ} {cfg : Config} {e : σ} {log : List Ev}
    {h1 h2 h3 : History} {s' : St σ} {o1 o2 : Op} {r1 r2 : Res Out}
    (hs : Session E cfg e log (h1 ++ (o1, r1) :: (h2 ++ (o2, r2) :: h3)) s')
    (ho1 : isOscore o1 = true) (ho2 : isOscore o2 = true)
    (hr1 : succeeded r1 = true) (hr2 : succeeded r2 = true) :
    ∃ p ∈ h2, isUpdate p.1 = true ∧ succeeded p.2 = true := by
  obtain ⟨hr, hn⟩ := hs
  obtain ⟨s1, _, hr⟩ := run_append hr
  obtain ⟨s2, hs1, hd1, hr⟩ := run_cons hr
  obtain ⟨s3, hr', hr⟩ := run_append hr
  obtain ⟨s4, hs2, hd2, _⟩ := run_cons hr
  obtain ⟨a1, a2, a3⟩ := oscore_step hs1 hd1 ho1 hr1
  obtain ⟨b1, _⟩ := oscore_step hs2 hd2 ho2 hr2
  have hn2 : ∀ p ∈ h2, restarts p.1 = false := fun p hp => hn p (by simp [hp])
  have b2 : s3.ctx.oscoreAllowed = true := by
    unfold okOscore at b1; simp only [Bool.and_eq_true] at b1; exact b1.1
  have a4 : okUpdate s1.ctx = true := by
    unfold okOscore at a1; simp only [Bool.and_eq_true] at a1; exact a1.2
  rcases allowed_run hr' hn2 b2 with h | ⟨p, hp, hop⟩
  · rw [a2] at h; cases h
  · refine ⟨p, hp, late_run hr' hn2 ?_ p hp hop, hop.1⟩
    unfold Late
    rw [a3]
    rcases okUpdate_late a4 with h | h
    · exact Or.inl h
    · exact Or.inr (Or.inl h)

/-- **C15**, the first export: none before the handshake is complete. -/
theorem C15_none_before_completion {E : Env σ} {cfg : Config} {e : σ} {log : List Ev}
    {h : History} {s' : St σ} {o : Op} {r : Res Out}
    (hs : Session E cfg e log (h ++ [(o, r)]) s')
    (ho : isOscore o = true) (hr : succeeded r = true) : complete h := by
  by_cases hc : complete h
  · exact hc
  · obtain ⟨hrun, hn⟩ := hs
    obtain ⟨s1, h1, h2⟩ := run_append hrun
    obtain ⟨s2, h3, _, _⟩ := run_cons h2
    have := C03_export_before_completion (E := E) (cfg := cfg) (e := e) (log := log)
      ⟨h1, fun p hp => hn p (by simp [hp])⟩ hc (Or.inr ho)
    unfold Refused at this
    rw [this] at h3
    simp only [Prod.mk.injEq] at h3
    rw [← h3.1] at hr
    simp [succeeded] at hr

/-- Non-vacuity: export, refused second export, key update, export. -/
example : (Toy.hst Toy.alice (Toy.callsI 3 ++ [.exportOscore 16 8 8 8, .exportOscore 16 8 8 8,
      .keyUpdate [1, 2], .exportOscore 16 8 8 8])).map (fun p => succeeded p.2) =
    List.replicate 11 true ++ [true, false, true, true] := by
  decide +kernel

end Verif
