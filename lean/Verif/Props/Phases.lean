import Verif.Phase

/-!
# Properties of phases: the rest of C02 and C03

Vocabulary: `Verif/Spec.lean`.
-/

namespace Verif

open M Spec

variable {σ : Type} {E : Env σ} {cfg : Config}

theorem out_step {o : Op} {s s' : St σ} {r : Res Out} (h : step E cfg o s = (r, s')) (hd : r.Defined)
    (hr : restarts o = false) (hx : isExporter o = false) (hp : s.ctx.status = .aborted ∨ s.ctx.prkState ≠ .out) :
    s'.ctx.status = .aborted ∨ s'.ctx.prkState ≠ .out := by
  cases hk : callOf o with
  | some k =>
    rcases step_message hk h hd with ⟨_, _, rfl⟩ | ⟨_, _, _, rfl⟩ | ⟨_, _, _, _, _, _, hc⟩ | ⟨_, ho, ⟨a, rfl⟩, _⟩
    · exact hp
    · exact hp
    · exact Or.inl (ctl1_proj hc).2.1
    · right
      cases k
      case compose1 =>
        obtain ⟨n, m, rfl, rfl, c⟩ := step_compose1 hk h
        obtain ⟨_, h0, _, _, priv, pub, kid, ts, th, _, _, _, _, _, _, _, _, _, h1⟩ := message1Compose_ok c
        simp only [okStart, Bool.and_eq_true, beq_iff_eq] at h0
        rw [h1]; show s.ctx.prkState ≠ .out; rw [h0.2]; simp
      case process1 =>
        obtain ⟨m, rfl, rfl, c⟩ := step_process1 hk h
        obtain ⟨_, h0, _, m1, me, p, th, _, _, _, _, _, _, _, _, h1⟩ := message1Process_ok c
        simp only [okStart, Bool.and_eq_true, beq_iff_eq] at h0
        rw [h1]; show s.ctx.prkState ≠ .out; rw [h0.2]; simp
      case compose2 =>
        obtain ⟨n, m, rfl, rfl, c⟩ := step_compose2 hk h
        obtain ⟨_, _, _, _, h1⟩ := message2Compose_ok c
        rw [h1.ctx]; simp
      case process2 =>
        obtain ⟨m, rfl, rfl, c⟩ := step_process2 hk h
        obtain ⟨_, _, _, _, _, _, _, h1⟩ := message2Process_ok c
        rw [h1.ctx]; simp
      case compose3 =>
        obtain ⟨n, m, rfl, rfl, c⟩ := step_compose3 hk h
        obtain ⟨_, _, h1⟩ := message3Compose_ok c
        rw [h1.ctx]; simp
      case process3 =>
        obtain ⟨m, rfl, rfl, c⟩ := step_process3 hk h
        obtain ⟨_, _, _, _, h1⟩ := message3Process_ok c
        rw [h1.ctx]; simp
      case compose4 =>
        obtain ⟨n, m, rfl, rfl, c⟩ := step_compose4 hk h
        obtain ⟨_, _, _, _, _, h1⟩ := message4Compose_ok c
        have h2 := h1.state
        simp only [okCompleted, Bool.and_eq_true, beq_iff_eq] at h2
        rw [h1.ctx]; show s.ctx.prkState ≠ .out; rw [h2.2]; simp
      case process4 =>
        obtain ⟨m, rfl, rfl, c⟩ := step_process4 hk h
        obtain ⟨_, _, _, _, h1⟩ := message4Process_ok c
        have h2 := h1.state
        simp only [okCompleted, Bool.and_eq_true, beq_iff_eq] at h2
        rw [h1.ctx]; show s.ctx.prkState ≠ .out; rw [h2.2]; simp
  | none =>
    by_cases hs : isSetter o = true
    · rcases C30_setters (E := E) (cfg := cfg) hs s with ⟨_, _, c', h1, h2⟩ | ⟨_, e, _, h1⟩
      · rw [h] at h1
        simp only [Prod.mk.injEq] at h1
        rw [h1.2]
        cases o <;> simp only [Stored] at h2
        case setSuites => rw [h2.2.2]; exact hp
        all_goals (subst h2; exact hp)
      · rw [h] at h1
        simp only [Prod.mk.injEq] at h1
        rwa [h1.2]
    · cases o <;> simp only [callOf, reduceCtorEq] at hk <;> simp only [restarts, Bool.true_eq_false] at hr <;>
        simp only [isSetter, not_true_eq_false] at hs <;> simp only [isExporter, Bool.true_eq_false] at hx
      case nullArg =>
        simp only [step, M.fail, Prod.mk.injEq] at h
        rwa [← h.2]
      case getCode => rwa [getCode_state h]
      case getSuites a b => rwa [getSuites_state h hd]

theorem out_run {s s' : St σ} {h : History} (hr : Run E cfg s h s') :
    (∀ p ∈ h, restarts p.1 = false) → (∀ p ∈ h, isExporter p.1 = false) →
      (s.ctx.status = .aborted ∨ s.ctx.prkState ≠ .out) → s'.ctx.status = .aborted ∨ s'.ctx.prkState ≠ .out := by
  induction hr with
  | nil s => exact fun _ _ h => h
  | @cons s s1 s2 o r h hs hd hr ih =>
    intro hn hx hp
    exact ih (fun q hq => hn q (List.mem_cons_of_mem _ hq)) (fun q hq => hx q (List.mem_cons_of_mem _ hq))
      (out_step hs hd (hn _ (List.mem_cons_self ..)) (hx _ (List.mem_cons_self ..)) hp)

/-- the call sequences before each call -/
theorem inOrder_past {h : History} {k : Call} {st : Status} (hp : Past (messages h) st) (ha : st ≠ .aborted)
    (hi : inOrder h k) : (k ∈ [.compose1, .process1] ∧ st = .start) ∨ (k = .compose2 ∧ st = .receivedM1) ∨
      (k = .process2 ∧ st = .waitM2) ∨ (k = .compose3 ∧ st = .verifiedM2) ∨ (k = .process3 ∧ st = .waitM3) ∨
      (k ∈ [.compose4, .process4] ∧ st = .completed) := by
  unfold inOrder at hi
  generalize messages h = p at *
  obtain ⟨q, hq, hpre⟩ := hi
  simp only [roleSequences, List.mem_cons, List.not_mem_nil, or_false] at hq
  have hl : p.length + 1 ≤ 4 := by
    have := hpre.length_le
    rcases hq with rfl | rfl | rfl | rfl <;> simpa using this
  cases st <;> simp only [Past] at hp
  case aborted => exact absurd rfl ha
  case completed => rcases hp with rfl | rfl <;> rcases hq with rfl | rfl | rfl | rfl <;> simp_all
  case persisted =>
    simp only [roleSequences, List.mem_cons, List.not_mem_nil, or_false] at hp
    rcases hp with rfl | rfl | rfl | rfl <;> simp at hl
  all_goals (subst hp; rcases hq with rfl | rfl | rfl | rfl <;> simp_all)

theorem phase_ok {c : Ctx} {h : History} {k : Call} (hp : Phase c) (hpast : Past (messages h) c.status)
    (ha : c.status ≠ .aborted) (hi : inOrder h k) (h4 : k ∈ [.compose4, .process4] → c.prkState ≠ .out) :
    okOf k c = true := by
  have h2 := hp.2
  rcases inOrder_past hpast ha hi with ⟨hk, hs⟩ | ⟨rfl, hs⟩ | ⟨rfl, hs⟩ | ⟨rfl, hs⟩ | ⟨rfl, hs⟩ | ⟨hk, hs⟩ <;>
    rw [hs] at h2 <;> simp only at h2
  · simp only [List.mem_cons, List.not_mem_nil, or_false] at hk
    rcases hk with rfl | rfl <;> simp [okOf, okStart, hs, h2.1, h2.2]
  · simp [okOf, okReceivedM1, hs, h2.1, h2.2]
  · simp [okOf, okWaitM2, hs, h2.1, h2.2]
  · simp [okOf, okVerifiedM2, hs, h2.1, h2.2]
  · simp [okOf, okWaitM3, hs, h2.1, h2.2]
  · have h5 := h4 hk
    have h6 := h2.2.resolve_right h5
    simp only [List.mem_cons, List.not_mem_nil, or_false] at hk
    rcases hk with rfl | rfl <;> simp [okOf, okCompleted, hs, h2.1, h6]

theorem not_dead_status {s : St σ} (h : ¬ Dead E cfg s) : s.ctx.status ≠ .aborted :=
  fun ha => h (over_dead (Or.inl ha))

/-- **C02**, second half: in a session that is still alive, the message call that comes next (with non-empty
arguments) is always accepted for processing. So if it fails, for whatever reason, the session is over. For message 4
this needs that no exporter was called before. -/
theorem C02_next_call_fails {e : σ} {log : List Ev} {h : History} {s s' : St σ} (hs : Session E cfg e log h s)
    (hd : ¬ Dead E cfg s) {o : Op} {k : Call} (hk : callOf o = some k) (hu : usable o = true) (hi : inOrder h k)
    (h4 : k ∈ [.compose4, .process4] → ∀ p ∈ h, isExporter p.1 = false) {er : Err}
    (hf : step E cfg o s = (.err er, s')) : Dead E cfg s' ∧ Frozen E cfg s' := by
  have ha := not_dead_status hd
  have hok := phase_ok (session_phase hs) (past_session hs) ha hi (fun hk4 =>
    (out_run hs.1 hs.2 (h4 hk4) (Or.inr (by simp [Ctx.fresh, Ctx.zero]))).resolve_left ha)
  rcases step_message hk hf (by simp) with ⟨h1, _⟩ | ⟨_, h1, _⟩ | ⟨_, _, _, _, _, _, hc⟩ | ⟨_, _, ⟨a, he⟩, _⟩
  · rw [hu] at h1; cases h1
  · rw [hok] at h1; cases h1
  · have hs := (ctl1_proj hc).2.1
    exact ⟨over_dead (Or.inl hs), aborted_frozen hs⟩
  · cases he

/-- Non-vacuity: a session waiting for message 2 is alive (the genuine message 2 is processed), and a damaged
message 2 comes next. -/
example : inOrder (Toy.hst Toy.alice (Toy.conf 3 (.int 5) ++ [.compose1 100])) .process2 ∧
    (step (Toy.env Toy.alice) Toy.cfg (.process2 (Toy.msg 3 2))
      (Toy.after Toy.alice (Toy.conf 3 (.int 5) ++ [.compose1 100]))).1 = .ok .unit ∧
    (step (Toy.env Toy.alice) Toy.cfg (.process2 [0x43, 1, 2, 3])
      (Toy.after Toy.alice (Toy.conf 3 (.int 5) ++ [.compose1 100]))).1 = .err .cbor := by
  unfold inOrder
  decide +kernel

/-- **C03**, exporter: in a session that is still alive and has not completed the handshake, a call of the exporter
fails and has no effect. -/
theorem C03_secret_before_completion {e : σ} {log : List Ev} {h : History} {s : St σ}
    (hs : Session E cfg e log h s) (hd : ¬ Dead E cfg s) (hn : ¬ complete h) (label n : Nat) :
    ∃ er, (er = .badState ∨ er = .invalidArgument) ∧ step E cfg (.exportSecret label n) s = (.err er, s) := by
  have ha := not_dead_status hd
  have h2 := (session_phase hs).2
  have hp := past_session hs
  have hlt : s.ctx.prkState.toNat < PrkState.prk4e3m.toNat := by
    cases hst : s.ctx.status <;> rw [hst] at h2 hp <;> simp only [Past] at h2 hp
    case aborted => exact absurd hst ha
    case completed =>
      exfalso; apply hn
      rcases hp with hp | hp <;> simp [complete, hp]
    case persisted =>
      exfalso; apply hn
      unfold complete
      generalize messages h = p at hp
      revert p; decide
    all_goals (rw [h2.2]; decide)
  obtain ⟨er, h3, h4⟩ := exportSecret_rejected E cfg (label := label) (n := n) (s := s)
    (by unfold okExport; rw [decide_eq_false (p := PrkState.prk4e3m.toNat ≤ s.ctx.prkState.toNat) (by omega)]; simp)
  exact ⟨er, h3, mapOut_err (f := Out.bytes) h4⟩

/-- Non-vacuity: a session waiting for message 2 is alive and not complete. -/
example : ¬ complete (Toy.hst Toy.alice (Toy.conf 3 (.int 5) ++ [.compose1 100])) ∧
    (step (Toy.env Toy.alice) Toy.cfg (.process2 (Toy.msg 3 2))
      (Toy.after Toy.alice (Toy.conf 3 (.int 5) ++ [.compose1 100]))).1 = .ok .unit := by
  unfold complete
  decide +kernel

end Verif
