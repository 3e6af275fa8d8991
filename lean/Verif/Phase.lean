import Verif.Chain
import Verif.Export

/-!
# Session invariant: the state of the keys in each phase
-/

namespace Verif

open M Spec

variable {σ : Type} {E : Env σ} {cfg : Config}

/-- the phase of the session determines the state of transcript hash and pseudorandom key; no EAD tokens are left
over -/
def Phase (c : Ctx) : Prop :=
  (c.status ≠ .aborted → c.ead = []) ∧
  match c.status with
  | .start => c.thState = .invalid ∧ c.prkState = .invalid
  | .waitM2 | .receivedM1 => c.thState = .th1 ∧ c.prkState = .invalid
  | .verifiedM2 | .waitM3 => c.thState = .th3 ∧ c.prkState = .prk3e2m
  | .completed | .persisted => c.thState = .th4 ∧ (c.prkState = .prk4e3m ∨ c.prkState = .out)
  | .aborted => True
  | _ => False

theorem phase_fresh : Phase Ctx.fresh := ⟨fun _ => rfl, rfl, rfl⟩

theorem phase_aborted {c : Ctx} (h : c.status = .aborted) : Phase c := by
  unfold Phase; rw [h]; exact ⟨fun h => absurd rfl h, trivial⟩

theorem Phase.stored {c c' : Ctx} {o : Op} (h : Phase c) (hs : Stored c c' o) : Phase c' := by
  cases o <;> simp only [Stored] at hs
  case setMethods => subst hs; exact h
  case setSuites => rw [hs.2.2]; exact h
  case setCid => subst hs; exact h
  case setUserCtx => subst hs; exact h
  case bindEad => subst hs; exact h
  case bindKeys => subst hs; exact h
  case bindCrypto => subst hs; exact h
  case bindCred => subst hs; exact h

theorem Phase.out {c : Ctx} (h : Phase c) (hp : c.prkState = .prk4e3m ∨ c.prkState = .out) (p : Bytes)
    (b : Bool) : Phase { c with prk := p, prkState := .out, oscoreAllowed := b } := by
  unfold Phase at *
  obtain ⟨h1, h2⟩ := h
  refine ⟨h1, ?_⟩
  cases hs : c.status <;> rw [hs] at h2 <;> simp only at h2 ⊢
  case start => rcases hp with hp | hp <;> rw [hp] at h2 <;> simp at h2
  case receivedM1 => rcases hp with hp | hp <;> rw [hp] at h2 <;> simp at h2
  case waitM2 => rcases hp with hp | hp <;> rw [hp] at h2 <;> simp at h2
  case verifiedM2 => rcases hp with hp | hp <;> rw [hp] at h2 <;> simp at h2
  case waitM3 => rcases hp with hp | hp <;> rw [hp] at h2 <;> simp at h2
  case completed => exact ⟨h2.1, Or.inr trivial⟩
  case persisted => exact ⟨h2.1, Or.inr trivial⟩

theorem phase_message {o : Op} {k : Call} {s s' : St σ} {x : Out} (hk : callOf o = some k)
    (h : step E cfg o s = (.ok x, s')) (hp : Phase s.ctx) (hok : okOf k s.ctx = true) : Phase s'.ctx := by
  cases k
  case compose1 =>
    obtain ⟨n, m, rfl, rfl, c⟩ := step_compose1 hk h
    obtain ⟨_, h0, _, _, priv, pub, kid, ts, th, _, _, _, _, _, _, _, _, _, h1⟩ := message1Compose_ok c
    unfold okStart at h0
    simp only [Bool.and_eq_true, beq_iff_eq] at h0
    have h2 := hp.2
    rw [h0.1.1] at h2
    rw [h1]; exact ⟨fun _ => rfl, rfl, h2.2⟩
  case process1 =>
    obtain ⟨m, rfl, rfl, c⟩ := step_process1 hk h
    obtain ⟨_, h0, _, m1, me, p, th, _, _, _, _, _, _, _, _, h1⟩ := message1Process_ok c
    unfold okStart at h0
    simp only [Bool.and_eq_true, beq_iff_eq] at h0
    have h2 := hp.2
    have h3 := hp.1
    rw [h0.1.1] at h2 h3
    rw [h1]
    refine ⟨fun _ => ?_, rfl, h2.2⟩
    simp only [h3 (by simp), ite_self]
  case compose2 =>
    obtain ⟨n, m, rfl, rfl, c⟩ := step_compose2 hk h
    obtain ⟨_, _, _, _, h1⟩ := message2Compose_ok c
    rw [h1.ctx]; exact ⟨fun _ => rfl, rfl, rfl⟩
  case process2 =>
    obtain ⟨m, rfl, rfl, c⟩ := step_process2 hk h
    obtain ⟨_, _, _, _, _, _, _, h1⟩ := message2Process_ok c
    rw [h1.ctx]; exact ⟨fun _ => rfl, rfl, rfl⟩
  case compose3 =>
    obtain ⟨n, m, rfl, rfl, c⟩ := step_compose3 hk h
    obtain ⟨_, _, h1⟩ := message3Compose_ok c
    rw [h1.ctx]; exact ⟨fun _ => rfl, rfl, Or.inl rfl⟩
  case process3 =>
    obtain ⟨m, rfl, rfl, c⟩ := step_process3 hk h
    obtain ⟨_, _, _, _, h1⟩ := message3Process_ok c
    rw [h1.ctx]; exact ⟨fun _ => rfl, rfl, Or.inl rfl⟩
  case compose4 =>
    obtain ⟨n, m, rfl, rfl, c⟩ := step_compose4 hk h
    obtain ⟨_, _, _, _, _, h1⟩ := message4Compose_ok c
    have h2 := h1.state
    unfold okCompleted at h2
    simp only [Bool.and_eq_true, beq_iff_eq] at h2
    rw [h1.ctx]; exact ⟨fun _ => rfl, h2.1.2, Or.inl h2.2⟩
  case process4 =>
    obtain ⟨m, rfl, rfl, c⟩ := step_process4 hk h
    obtain ⟨_, _, _, _, h1⟩ := message4Process_ok c
    have h2 := h1.state
    unfold okCompleted at h2
    simp only [Bool.and_eq_true, beq_iff_eq] at h2
    rw [h1.ctx]; exact ⟨fun _ => rfl, h2.1.2, Or.inl h2.2⟩

theorem Phase.outCtx {s s' : St σ} (h : Phase s.ctx) (hc : OutCtx s s') : Phase s'.ctx := by
  rcases hc.2 with h1 | ⟨h1, _, p, _, _, h2, _⟩
  · rwa [h1]
  · rw [h2]; exact h.out (Or.inl h1) p s.ctx.oscoreAllowed

/-- results of the other calls, in terms of the function called -/
theorem step_export {l n : Nat} {s s' : St σ} {r : Res Out} (h : step E cfg (.exportSecret l n) s = (r, s')) :
    ∃ r0, exportSecret E cfg l n s = (r0, s') ∧ ((∃ a, r0 = .ok a ∧ r = .ok (.bytes a)) ∨
      (∃ e, r0 = .err e ∧ r = .err e) ∨ (∃ u, r0 = .ub u ∧ r = .ub u)) := mapOut_cases h

@[inherit_doc step_export]
theorem step_update {b : Bytes} {s s' : St σ} {r : Res Out} (h : step E cfg (.keyUpdate b) s = (r, s')) :
    ∃ r0, keyUpdate E cfg b s = (r0, s') ∧ ((∃ a, r0 = .ok a ∧ r = .ok .unit) ∨
      (∃ e, r0 = .err e ∧ r = .err e) ∨ (∃ u, r0 = .ub u ∧ r = .ub u)) := mapOut_cases h

@[inherit_doc step_export]
theorem step_oscore {a b c d : Nat} {s s' : St σ} {r : Res Out}
    (h : step E cfg (.exportOscore a b c d) s = (r, s')) :
    ∃ r0, exportOscore E cfg a b c d s = (r0, s') ∧ ((∃ a, r0 = .ok a ∧ r = .ok (.oscore a)) ∨
      (∃ e, r0 = .err e ∧ r = .err e) ∨ (∃ u, r0 = .ub u ∧ r = .ub u)) := mapOut_cases h

theorem phase_step {o : Op} {s s' : St σ} {r : Res Out} (h : step E cfg o s = (r, s')) (hd : r.Defined)
    (hr : restarts o = false) (hp : Phase s.ctx) : Phase s'.ctx := by
  cases hk : callOf o with
  | some k =>
    rcases step_message hk h hd with ⟨_, _, rfl⟩ | ⟨_, _, _, rfl⟩ | ⟨_, _, _, _, _, _, hc⟩ | ⟨_, ho, ⟨a, rfl⟩, _⟩
    · exact hp
    · exact hp
    · exact phase_aborted (ctl1_proj hc).2.1
    · exact phase_message hk h hp ho
  | none =>
    by_cases hs : isSetter o = true
    · rcases C30_setters (E := E) (cfg := cfg) hs s with ⟨_, _, c', h1, h2⟩ | ⟨_, e, _, h1⟩
      · rw [h] at h1
        simp only [Prod.mk.injEq] at h1
        rw [h1.2]; exact hp.stored h2
      · rw [h] at h1
        simp only [Prod.mk.injEq] at h1
        rwa [h1.2]
    · cases o <;> simp only [callOf, reduceCtorEq] at hk <;> simp only [restarts, Bool.true_eq_false] at hr <;>
        simp only [isSetter, not_true_eq_false] at hs
      case nullArg =>
        simp only [step, M.fail, Prod.mk.injEq] at h
        rwa [← h.2]
      case exportSecret l n =>
        obtain ⟨r0, h0, hr0⟩ := step_export h
        have := exportSecret_pres E cfg l n s
        rw [h0] at this
        refine hp.outCtx (this ?_)
        rcases hr0 with ⟨a, rfl, _⟩ | ⟨e, rfl, _⟩ | ⟨u, rfl, rfl⟩ <;> simp_all
      case keyUpdate b =>
        obtain ⟨r0, h0, ⟨a, rfl, rfl⟩ | ⟨e, rfl, rfl⟩ | ⟨u, rfl, rfl⟩⟩ := step_update h
        · obtain ⟨_, _, _, hq, p, q, kid, _, _, _, _, hc⟩ := keyUpdate_ok h0
          rw [hc]; exact hp.out (hq.imp And.left id) q true
        · rcases keyUpdate_outcome E cfg b h0 (by simp) with ⟨_, _, rfl⟩ | ⟨_, _, _, rfl⟩ | ⟨_, _, ⟨_, hc⟩ | ⟨⟨_, ha⟩, _⟩⟩
          · exact hp
          · exact hp
          · exact phase_aborted (by have hh := congrArg Ctx.status hc; exact hh)
          · cases ha
        · simp at hd
      case exportOscore a b c d =>
        obtain ⟨r0, h0, ⟨x, rfl, rfl⟩ | ⟨e, rfl, rfl⟩ | ⟨u, rfl, rfl⟩⟩ := step_oscore h
        · obtain ⟨_, _, _, _, _, _, _, _, _, hq, p, x1, x2, _, _, hc, _⟩ := exportOscore_ok h0
          rw [hc]; exact hp.out (hq.imp And.left id) p false
        · rcases exportOscore_outcome E cfg a b c d h0 (by simp) with
            ⟨_, _, rfl⟩ | ⟨_, _, _, rfl⟩ | ⟨_, _, ⟨_, hc⟩ | ⟨⟨_, ha⟩, _⟩⟩
          · exact hp
          · exact hp
          · exact phase_aborted (by have hh := congrArg Ctx.status hc; exact hh)
          · cases ha
        · simp at hd
      case getCode => rwa [getCode_state h]
      case getSuites a b => rwa [getSuites_state h hd]

theorem phase_run {s s' : St σ} {h : History} (hr : Run E cfg s h s') :
    (∀ p ∈ h, restarts p.1 = false) → Phase s.ctx → Phase s'.ctx := by
  induction hr with
  | nil s => exact fun _ h => h
  | @cons s s1 s2 o r h hs hd hr ih =>
    intro hn hp
    exact ih (fun q hq => hn q (List.mem_cons_of_mem _ hq)) (phase_step hs hd (hn _ (List.mem_cons_self ..)) hp)

theorem session_phase {e : σ} {log : List Ev} {h : History} {s : St σ} (hs : Session E cfg e log h s) :
    Phase s.ctx := phase_run hs.1 hs.2 phase_fresh

theorem session_ead {e : σ} {log : List Ev} {h : History} {s : St σ} (hs : Session E cfg e log h s)
    (ha : s.ctx.status ≠ .aborted) : s.ctx.ead = [] := (session_phase hs).1 ha

end Verif
