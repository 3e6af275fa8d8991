import Verif.Heads
import Verif.Record

/-!
# Where in a session a MAC or a signature was computed
-/

namespace Verif

open M Spec

variable {σ : Type} {E : Env σ} {cfg : Config}

/-! ## Suite, method and identifier stay -/

/-- what is fixed with message 1 -/
def Ctx.used (c : Ctx) : List Suite × Suite × Nat × Cid := (suites c, c.suite, c.chosenMethod, c.cid)

theorem used_ctl {c c' : Ctx} (h : c'.ctl.used = c.ctl.used) : c'.used = c.used := h

theorem used_keep {c c' : Ctx} (h : c'.keep = c.keep) : c'.used = c.used := (congrArg Ctx.used h :)

theorem used_outcome {α : Type} {arg fin : Bool} {ok : Ctx → Bool} {m : Msg} {ro : Role} {st : Status} {f : M σ α}
    {g : α → Out} (ho : Outcome arg ok m ro RCred (QDone st fin) f) {s s' : St σ} {r : Res Out}
    (h : M.mapOut g f s = (r, s')) (hd : r.Defined) : s'.ctx.used = s.ctx.used := by
  obtain ⟨r0, h0, hr⟩ := mapOut_cases h
  have hd0 : r0.Defined := by
    rcases hr with ⟨a, rfl, _⟩ | ⟨e, rfl, _⟩ | ⟨u, rfl, rfl⟩
    · simp
    · simp
    · exact absurd rfl (hd u)
  rcases ho s r0 s' h0 hd0 with ⟨_, _, rfl⟩ | ⟨_, _, _, rfl⟩ | ⟨_, _, _, _, hq⟩ | ⟨_, _, _, _, hq⟩
  · rfl
  · rfl
  · refine used_ctl ?_
    rcases hq with ⟨hq, _⟩ | ⟨hq, _⟩ <;> rw [hq] <;> rfl
  · refine used_ctl ?_
    rw [hq]; rfl

theorem used_step {o : Op} {s s' : St σ} {r : Res Out} (h : step E cfg o s = (r, s')) (hd : r.Defined)
    (hr : restarts o = false) (hc : reconf (o, r) = false) (hs : s.ctx.status ≠ .start) :
    s'.ctx.used = s.ctx.used := by
  have no : okStart s.ctx = false := by
    unfold okStart
    cases hb : s.ctx.status == .start
    · rfl
    · exact absurd (by simpa using hb) hs
  have none1 : ∀ {k}, callOf o = some k → okOf k = okStart → s'.ctx.used = s.ctx.used := by
    intro k hk hok
    rcases step_message hk h hd with ⟨_, _, rfl⟩ | ⟨_, _, _, rfl⟩ | ⟨_, h1, _⟩ | ⟨_, h1, _⟩
    · rfl
    · rfl
    · rw [hok, no] at h1; cases h1
    · rw [hok, no] at h1; cases h1
  by_cases hs : isSetter o = true
  · rcases C30_setters (E := E) (cfg := cfg) hs s with ⟨_, _, c', h1, _⟩ | ⟨_, e, _, h1⟩
    · rw [h] at h1
      simp only [Prod.mk.injEq] at h1
      rw [h1.1] at hc
      simp [reconf, hs, succeeded] at hc
    · rw [h] at h1
      simp only [Prod.mk.injEq] at h1
      rw [h1.2]
  · cases o <;> simp only [restarts, Bool.true_eq_false] at hr <;> simp only [isSetter, not_true_eq_false] at hs
    case nullArg =>
      simp only [step, M.fail, Prod.mk.injEq] at h
      rw [h.2]
    case compose1 n => exact none1 rfl rfl
    case process1 n => exact none1 rfl rfl
    case compose2 n => exact used_outcome (message2Compose_outcome E cfg n) h hd
    case process2 n => exact used_outcome (message2Process_outcome E cfg n) h hd
    case compose3 n => exact used_outcome (message3Compose_outcome E cfg n) h hd
    case process3 n => exact used_outcome (message3Process_outcome E cfg n) h hd
    case compose4 n => exact used_outcome (message4Compose_outcome E cfg n) h hd
    case process4 n => exact used_outcome (message4Process_outcome E cfg n) h hd
    case exportSecret l n =>
      obtain ⟨r0, h0, hr0⟩ := step_export h
      have hd0 : r0.Defined := by
        rcases hr0 with ⟨a, rfl, _⟩ | ⟨e, rfl, _⟩ | ⟨u, rfl, rfl⟩ <;> simp_all
      have h1 := exportSecret_mod E cfg l n s
      rw [h0] at h1
      exact used_keep (h1 hd0).2.1
    case keyUpdate b =>
      obtain ⟨r0, h0, ⟨a, rfl, rfl⟩ | ⟨e, rfl, rfl⟩ | ⟨u, rfl, rfl⟩⟩ := step_update h
      · obtain ⟨_, _, _, hq, p, q, kid, _, _, _, _, hc⟩ := keyUpdate_ok h0
        rw [hc]; rfl
      · exact used_keep (keyUpdate_err E cfg h0).2.1
      · simp at hd
    case exportOscore a b c d =>
      obtain ⟨r0, h0, hr0⟩ := step_oscore h
      have hd0 : r0.Defined := by
        rcases hr0 with ⟨a, rfl, _⟩ | ⟨e, rfl, _⟩ | ⟨u, rfl, rfl⟩ <;> simp_all
      have h1 := exportOscore_mod E cfg a b c d s
      rw [h0] at h1
      exact used_keep (h1 hd0).2.1
    case getCode => rw [getCode_state h]
    case getSuites a b => rw [getSuites_state h hd]

theorem used_run {s s' : St σ} {h : History} (hr : Run E cfg s h s') :
    ∀ {p : List Call}, (∀ q ∈ h, restarts q.1 = false) → (∀ q ∈ h, reconf q = false) → Past p s.ctx.status → p ≠ [] →
      s'.ctx.used = s.ctx.used := by
  induction hr with
  | nil s => intros; rfl
  | @cons s s1 s2 o r h hs hd _ ih =>
    intro p hn hc hp h0
    have n1 := hn _ (List.mem_cons_self ..)
    have e1 := used_step hs hd n1 (hc _ (List.mem_cons_self ..)) (by
      intro hst; rw [hst] at hp; exact h0 hp)
    exact (ih (fun q hq => hn q (List.mem_cons_of_mem _ hq)) (fun q hq => hc q (List.mem_cons_of_mem _ hq))
      (past_step hs hd n1 hp) (by simp [h0])).trans e1

/-! ## The call in which something was computed -/

theorem locate {s s' : St σ} {h : History} (hr : Run E cfg s h s') {v : Ev} (hv : v ∈ during s s') :
    ∃ h1 o r h2 a b, h = h1 ++ (o, r) :: h2 ∧ Run E cfg s h1 a ∧ step E cfg o a = (r, b) ∧ r.Defined ∧
      Run E cfg b h2 s' ∧ v ∈ during a b := by
  induction hr with
  | nil s => simp [during] at hv
  | @cons s s1 s2 o r h hs hd hr ih =>
    rw [during_split (step_grow hs hd) (run_grow hr)] at hv
    rcases List.mem_append.1 hv with hv | hv
    · exact ⟨[], o, r, h, s, s1, rfl, .nil s, hs, hd, hr, hv⟩
    · obtain ⟨h1, o', r', h2, a, b, rfl, c1, c2, c3, c4, c5⟩ := ih hv
      exact ⟨(o, r) :: h1, o', r', h2, a, b, rfl, .cons hs hd c1, c2, c3, c4, c5⟩

/-- the call `o` of a session, from `a` to `b`, after the calls `h1` -/
structure Placed (E : Env σ) (cfg : Config) (e : σ) (log : List Ev) (h : History) (s' : St σ) (h1 : History) (o : Op)
    (r : Res Out) (a b : St σ) : Prop where
  split : ∃ h2, h = h1 ++ (o, r) :: h2 ∧ Run E cfg b h2 s'
  before : Session E cfg e log h1 a
  step : step E cfg o a = (r, b)
  defined : r.Defined

theorem session_locate {e : σ} {log : List Ev} {h : History} {s' : St σ} (hs : Session E cfg e log h s') {v : Ev}
    (hv : v ∈ sessionCalls log s') : ∃ h1 o r a b, Placed E cfg e log h s' h1 o r a b ∧ v ∈ during a b := by
  obtain ⟨h1, o, r, h2, a, b, rfl, c1, c2, c3, c4, c5⟩ := locate hs.1 hv
  exact ⟨h1, o, r, a, b, ⟨⟨h2, rfl, c4⟩, ⟨c1, fun q hq => hs.2 q (by simp [hq])⟩, c2, c3⟩, c5⟩

theorem session_at {e : σ} {log : List Ev} {h : History} {s' : St σ} (hs : Session E cfg e log h s') {p : Op × Res Out}
    (hp : p ∈ h) : ∃ h1 a b, Placed E cfg e log h s' h1 p.1 p.2 a b := by
  obtain ⟨h1, h2, rfl⟩ := List.append_of_mem hp
  obtain ⟨a, r1, r2⟩ := run_append hs.1
  obtain ⟨b, e2, d2, r3⟩ := run_cons r2
  exact ⟨h1, a, b, ⟨h2, rfl, r3⟩, ⟨r1, fun q hq => hs.2 q (by simp [hq])⟩, e2, d2⟩

section
variable {e : σ} {log : List Ev} {h h1 : History} {s' a b : St σ} {o : Op} {r : Res Out}

theorem Placed.mem (p : Placed E cfg e log h s' h1 o r a b) : (o, r) ∈ h := by
  obtain ⟨h2, rfl, _⟩ := p.split
  simp

theorem Placed.sub (p : Placed E cfg e log h s' h1 o r a b) : h1 ⊆ h := by
  obtain ⟨h2, rfl, _⟩ := p.split
  intro q hq; simp [hq]

theorem Placed.calls (p : Placed E cfg e log h s' h1 o r a b) :
    sessionCalls log a ++ during a b <:+: sessionCalls log s' := by
  obtain ⟨h2, rfl, hr⟩ := p.split
  have g0 := run_grow p.before.1
  have g1 := step_grow p.step p.defined
  have e1 := during_split g0 g1
  have := infix_of (Saw.refl _) (g0.left g1) (run_grow hr)
  rw [e1] at this
  exact this

theorem Placed.settled (p : Placed E cfg e log h s' h1 o r a b) (hset : Settled h) : Settled h1 := by
  obtain ⟨h2, rfl, _⟩ := p.split
  unfold Settled at *
  exact (List.pairwise_append.1 hset).1

/-- the state before the call already had the suite, the method and the identifier -/
theorem Placed.used (p : Placed E cfg e log h s' h1 o r a b) (hs : Session E cfg e log h s') (hset : Settled h)
    (hm : messages h1 ≠ []) : s'.ctx.used = a.ctx.used := by
  obtain ⟨h2, rfl, hr⟩ := p.split
  obtain ⟨k, ks, hk⟩ := List.exists_cons_of_ne_nil hm
  obtain ⟨g1, o1, x, h3, _, _, rfl, hk1, _⟩ := first_message p.before.1 hk
  rw [List.append_assoc, List.cons_append] at hset
  have hc := settled_suffix hk1 hset
  have hn : ∀ q ∈ (o, r) :: h2, restarts q.1 = false := fun q hq => hs.2 q (by simp only [List.mem_append]; exact .inr hq)
  exact used_run (.cons p.step p.defined hr) hn (fun q hq => hc q (by simp only [List.mem_append]; exact .inr hq))
    (past_session p.before) hm

end

/-! ## The calls before -/

section
variable {e : σ} {log : List Ev} {h : History} {a : St σ}

theorem stage_wait2 (hs : Session E cfg e log h a) (hset : Settled h) (ho : okWaitM2 a.ctx = true) :
    ∃ n m1 s1, (.compose1 n, .ok (.bytes m1)) ∈ h ∧ messages h = [.compose1] ∧ Configured s1.ctx ∧ OwnCid cfg s1.ctx ∧
      s1.log = log ∧ message1Compose E cfg n s1 = (.ok m1, a) := by
  have hst : a.ctx.status = .waitM2 := by simp [okWaitM2] at ho; exact ho.1.1
  have hp := past_session hs
  rw [hst] at hp
  obtain ⟨g1, o, x, s1, s2, h2, rfl, u1, k1, hc, hw, he, hl, st1, r1⟩ := session_first hs hset hp
  obtain ⟨n1, m1, rfl, rfl, c1⟩ := step_compose1 k1 st1
  have := r1.stay (early_after1 hc c1) (by rw [hst]; simp)
  subst this
  exact ⟨n1, m1, s1, by simp, hp, hc, hw, hl, c1⟩

theorem stage_received1 (hs : Session E cfg e log h a) (hset : Settled h) (ho : okReceivedM1 a.ctx = true) :
    ∃ m1 s1, (.process1 m1, .ok .unit) ∈ h ∧ messages h = [.process1] ∧ Configured s1.ctx ∧ OwnCid cfg s1.ctx ∧
      s1.log = log ∧ message1Process E cfg m1 s1 = (.ok (), a) := by
  have hst : a.ctx.status = .receivedM1 := by simp [okReceivedM1] at ho; exact ho.1.1
  have hp := past_session hs
  rw [hst] at hp
  obtain ⟨g1, o, x, s1, s2, h2, rfl, u1, k1, hc, hw, he, hl, st1, r1⟩ := session_first hs hset hp
  obtain ⟨m1, rfl, rfl, c1⟩ := step_process1 k1 st1
  have := r1.stay (early_after1' hc c1) (by rw [hst]; simp)
  subst this
  exact ⟨m1, s1, by simp, hp, hc, hw, hl, c1⟩

theorem stage_verified2 (hs : Session E cfg e log h a) (hset : Settled h) (ho : okVerifiedM2 a.ctx = true) :
    ∃ n m1 m2 s1 s2, (.compose1 n, .ok (.bytes m1)) ∈ h ∧ (.process2 m2, .ok .unit) ∈ h ∧
      messages h = [.compose1, .process2] ∧ Configured s1.ctx ∧ OwnCid cfg s1.ctx ∧
      s1.log = log ∧ message1Compose E cfg n s1 = (.ok m1, s2) ∧ message2Process E cfg m2 s2 = (.ok (), a) := by
  have hst : a.ctx.status = .verifiedM2 := by simp [okVerifiedM2] at ho; exact ho.1.1
  have hp := past_session hs
  rw [hst] at hp
  obtain ⟨g1, o, x, s1, s2, h2, rfl, u1, k1, hc, hw, he, hl, st1, r1⟩ := session_first hs hset hp
  obtain ⟨n1, m1, rfl, rfl, c1⟩ := step_compose1 k1 st1
  obtain ⟨g2, o2, x2, s3, h3, rfl, u2, k2, st2, r2⟩ := r1.next (early_after1 hc c1)
  obtain ⟨m2, rfl, rfl, c2⟩ := step_process2 k2 st2
  have := r2.stay (early_after2 c2) (by rw [hst]; simp)
  subst this
  exact ⟨n1, m1, m2, s1, s2, by simp, by simp, hp, hc, hw, hl, c1, c2⟩

theorem stage_wait3 (hs : Session E cfg e log h a) (hset : Settled h) (ho : okWaitM3 a.ctx = true) :
    ∃ n m1 m2 s1 s2, (.process1 m1, .ok .unit) ∈ h ∧ (.compose2 n, .ok (.bytes m2)) ∈ h ∧
      messages h = [.process1, .compose2] ∧ Configured s1.ctx ∧ OwnCid cfg s1.ctx ∧
      s1.log = log ∧ message1Process E cfg m1 s1 = (.ok (), s2) ∧ message2Compose E cfg n s2 = (.ok m2, a) := by
  have hst : a.ctx.status = .waitM3 := by simp [okWaitM3] at ho; exact ho.1.1
  have hp := past_session hs
  rw [hst] at hp
  obtain ⟨g1, o, x, s1, s2, h2, rfl, u1, k1, hc, hw, he, hl, st1, r1⟩ := session_first hs hset hp
  obtain ⟨m1, rfl, rfl, c1⟩ := step_process1 k1 st1
  obtain ⟨g2, o2, x2, s3, h3, rfl, u2, k2, st2, r2⟩ := r1.next (early_after1' hc c1)
  obtain ⟨n2, m2, rfl, rfl, c2⟩ := step_compose2 k2 st2
  have := r2.stay (early_after2' c2) (by rw [hst]; simp)
  subst this
  exact ⟨n2, m1, m2, s1, s2, by simp, by simp, hp, hc, hw, hl, c1, c2⟩

end

end Verif
