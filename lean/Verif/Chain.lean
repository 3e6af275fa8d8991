import Verif.Props.History
import Verif.Props.Setters
import Verif.Message3

/-!
# Sessions as chains of message calls

A session in which the message calls of one role succeeded consists of the configuration, then the calls, each
starting in the state in which the previous one ended.
-/

namespace Verif

open M Spec

variable {σ : Type} {E : Env σ} {cfg : Config}

/-- a context that was initialised and configured, nothing else -/
def Configured (c : Ctx) : Prop :=
  c = { Ctx.fresh with
    method := c.method, csuiteArr := c.csuiteArr, csuiteLen := c.csuiteLen, cid := c.cid
    hasKeys := c.hasKeys, hasCrypto := c.hasCrypto, hasCred := c.hasCred
    hasEadCompose := c.hasEadCompose, hasEadProcess := c.hasEadProcess }

theorem configured_fresh : Configured Ctx.fresh := rfl

theorem Configured.stored {c c' : Ctx} {o : Op} (h : Configured c) (hs : Stored c c' o) : Configured c' := by
  cases o <;> simp only [Stored] at hs
  case setMethods => subst hs; unfold Configured at *; rw [h]
  case setSuites => rw [hs.2.2]; unfold Configured at *; rw [h]
  case setCid => subst hs; unfold Configured at *; rw [h]
  case setUserCtx => subst hs; exact h
  case bindEad => subst hs; unfold Configured at *; rw [h]
  case bindKeys => subst hs; unfold Configured at *; rw [h]
  case bindCrypto => subst hs; unfold Configured at *; rw [h]
  case bindCred => subst hs; unfold Configured at *; rw [h]

/-- the connection identifier is one `edhoc_set_connection_id` accepts -/
def OwnCid (cfg : Config) (c : Ctx) : Prop := documented cfg (.setCid c.cid)

theorem ownCid_fresh : OwnCid cfg Ctx.fresh := ⟨by decide, by decide⟩

theorem OwnCid.stored {c c' : Ctx} {o : Op} (h : OwnCid cfg c) (hd : documented cfg o) (hs : Stored c c' o) :
    OwnCid cfg c' := by
  unfold OwnCid at *
  cases o <;> simp only [Stored] at hs
  case setMethods => subst hs; exact h
  case setSuites => rw [hs.2.2]; exact h
  case setCid => subst hs; exact hd
  case setUserCtx => subst hs; exact h
  case bindEad => subst hs; exact h
  case bindKeys => subst hs; exact h
  case bindCrypto => subst hs; exact h
  case bindCred => subst hs; exact h

/-- before the handshake is complete -/
def Early (c : Ctx) : Prop :=
  c.status.toNat < Status.completed.toNat ∧ c.prkState.toNat < PrkState.prk4e3m.toNat

instance (c : Ctx) : Decidable (Early c) := by unfold Early; infer_instance

theorem Configured.early {c : Ctx} (h : Configured c) : Early c := by
  rw [h]; exact (by decide : Early Ctx.fresh)

theorem Configured.start {c : Ctx} (h : Configured c) : c.status = .start := by
  rw [h]; rfl

theorem Early.noUpdate {c : Ctx} (h : Early c) : okUpdate c = false := by
  have := h.1
  unfold okUpdate
  rw [decide_eq_false (by omega)]; rfl

/-- did a configuration call succeed? -/
def reconf (p : Op × Res Out) : Bool := isSetter p.1 && succeeded p.2

theorem getCode_state {s s' : St σ} {r : Res Out} (h : step E cfg .getCode s = (r, s')) : s' = s := by
  unfold step at h
  obtain ⟨r0, h0, _⟩ := mapOut_cases h
  unfold errorGetCode at h0
  simp only [Bind.bind, M.bind, M.getCtx, M.require] at h0
  cases hi : s.ctx.isInit <;> simp only [hi, Bool.false_eq_true, ↓reduceIte, Pure.pure, M.ret, Prod.mk.injEq] at h0
  · exact h0.2.symm
  · exact h0.2.symm

theorem Pres.of_eq {α : Type} {m : M σ α} (h : Pres (fun s s' => s' = s) m) {s s' : St σ} {r : Res α}
    (hm : m s = (r, s')) (hd : r.Defined) : s' = s := by
  have := h s (by rw [hm]; exact hd)
  rw [hm] at this
  exact this

theorem eq_frame : Frame (fun s s' : St σ => s' = s) := ⟨fun _ => rfl, fun h1 h2 => h2.trans h1⟩

theorem getSuites_state {a b : Nat} {s s' : St σ} {r : Res Out} (h : step E cfg (.getSuites a b) s = (r, s'))
    (hd : r.Defined) : s' = s := by
  unfold step at h
  refine Pres.of_eq (Pres.mapOut eq_frame _ ?_) h hd
  unfold errorGetSuites
  repeat' first
  | with_reducible refine Pres.bind eq_frame ?_ (fun _ => ?_)
  | with_reducible exact Pres.getCtx eq_frame
  | with_reducible exact Pres.require eq_frame _ _
  | with_reducible exact Pres.guardUB eq_frame _ _
  | with_reducible exact Pres.pure eq_frame _

theorem early_noExport {l n : Nat} {s s' : St σ} {r : Res Out} (hs : s.ctx.prkState.toNat < PrkState.prk4e3m.toNat)
    (h : step E cfg (.exportSecret l n) s = (r, s')) : s' = s ∧ ∃ e, r = .err e := by
  unfold step at h
  obtain ⟨e, _, h1⟩ := exportSecret_rejected E cfg (label := l) (n := n) (s := s)
    (by unfold okExport; rw [decide_eq_false (p := PrkState.prk4e3m.toNat ≤ s.ctx.prkState.toNat) (by omega)]; simp)
  have h2 := mapOut_err (f := Out.bytes) h1
  rw [show M.mapOut Out.bytes (exportSecret E cfg l n) s = (r, s') from h] at h2
  simp only [Prod.mk.injEq] at h2
  exact ⟨h2.2, e, h2.1⟩

/-- before completion, a call that is not a successful message call or a successful configuration call either
aborts the session or does nothing -/
theorem still_step {o : Op} {s s' : St σ} {r : Res Out} (h : step E cfg o s = (r, s')) (hd : r.Defined)
    (hr : restarts o = false) (hc : reconf (o, r) = false) (hm : added o r = []) (he : Early s.ctx) :
    s' = s ∨ s'.ctx.status = .aborted := by
  cases hk : callOf o with
  | some k =>
    rcases step_message hk h hd with ⟨_, _, rfl⟩ | ⟨_, _, _, rfl⟩ | ⟨_, _, _, _, _, _, hc⟩ | ⟨_, _, ⟨a, rfl⟩, _⟩
    · exact Or.inl rfl
    · exact Or.inl rfl
    · exact Or.inr (ctl1_proj hc).2.1
    · rw [added_ok hk] at hm; simp at hm
  | none =>
    left
    by_cases hs : isSetter o = true
    · rcases C30_setters (E := E) (cfg := cfg) hs s with ⟨_, _, c', h1, _⟩ | ⟨_, e, _, h1⟩
      · rw [h] at h1
        simp only [Prod.mk.injEq] at h1
        rw [h1.1] at hc
        simp [reconf, hs, succeeded] at hc
      · rw [h] at h1
        simp only [Prod.mk.injEq] at h1
        exact h1.2
    · cases o <;> simp only [callOf, reduceCtorEq] at hk <;> simp only [restarts, Bool.true_eq_false] at hr <;>
        simp only [isSetter, not_true_eq_false] at hs
      case nullArg =>
        simp only [step, M.fail, Prod.mk.injEq] at h
        exact h.2.symm
      case exportSecret l n => exact (early_noExport he.2 h).1
      case keyUpdate b =>
        rw [keyUpdate_refused he.noUpdate] at h
        simp only [Prod.mk.injEq] at h
        exact h.2.symm
      case exportOscore a b c d =>
        rw [update_refused he.noUpdate (Or.inr rfl)] at h
        simp only [Prod.mk.injEq] at h
        exact h.2.symm
      case getCode => exact getCode_state h
      case getSuites a b => exact getSuites_state h hd

theorem still_run {s s' : St σ} {h : History} (hr : Run E cfg s h s') :
    (∀ p ∈ h, restarts p.1 = false) → (∀ p ∈ h, reconf p = false) → messages h = [] → Early s.ctx →
      s'.ctx.status ≠ .aborted → s' = s := by
  induction hr with
  | nil s => intros; rfl
  | @cons s s1 s2 o r h hs hd hr ih =>
    intro hn hc hm he ha
    rw [messages_cons, List.append_eq_nil_iff] at hm
    have hn' : ∀ q ∈ h, restarts q.1 = false := fun q hq => hn q (List.mem_cons_of_mem _ hq)
    rcases still_step hs hd (hn _ (List.mem_cons_self ..)) (hc _ (List.mem_cons_self ..)) hm.1 he with rfl | h1
    · exact ih hn' (fun q hq => hc q (List.mem_cons_of_mem _ hq)) hm.2 he ha
    · exact absurd (aborted_run hr hn' h1) ha

/-- until the first successful message call, the context is only configured, and no callback is called -/
theorem config_run {s s' : St σ} {h : History} (hr : Run E cfg s h s') :
    (∀ p ∈ h, restarts p.1 = false) → messages h = [] → Configured s.ctx → OwnCid cfg s.ctx →
      s'.ctx.status ≠ .aborted → Configured s'.ctx ∧ OwnCid cfg s'.ctx ∧ s'.env = s.env ∧ s'.log = s.log := by
  induction hr with
  | nil s => intro _ _ h k _; exact ⟨h, k, rfl, rfl⟩
  | @cons s s1 s2 o r h hs hd hr ih =>
    intro hn hm hc ho ha
    rw [messages_cons, List.append_eq_nil_iff] at hm
    have hn' : ∀ q ∈ h, restarts q.1 = false := fun q hq => hn q (List.mem_cons_of_mem _ hq)
    have key : (Configured s1.ctx ∧ OwnCid cfg s1.ctx ∧ s1.env = s.env ∧ s1.log = s.log) ∨ s1.ctx.status = .aborted := by
      cases hx : reconf (o, r) with
      | false =>
        rcases still_step hs hd (hn _ (List.mem_cons_self ..)) hx hm.1 hc.early with rfl | h1
        · exact Or.inl ⟨hc, ho, rfl, rfl⟩
        · exact Or.inr h1
      | true =>
        simp only [reconf, Bool.and_eq_true] at hx
        left
        rcases C30_setters (E := E) (cfg := cfg) hx.1 s with ⟨_, hd', c', h1, h2⟩ | ⟨_, e, _, h1⟩
        · rw [hs] at h1
          simp only [Prod.mk.injEq] at h1
          rw [h1.2]; exact ⟨hc.stored h2, ho.stored hd' h2, rfl, rfl⟩
        · rw [hs] at h1
          simp only [Prod.mk.injEq] at h1
          rw [h1.2]; exact ⟨hc, ho, rfl, rfl⟩
    rcases key with ⟨k1, k4, k2, k3⟩ | h1
    · obtain ⟨a, d, b, c⟩ := ih hn' hm.2 k1 k4 ha
      exact ⟨a, d, b.trans k2, c.trans k3⟩
    · exact absurd (aborted_run hr hn' h1) ha

/-- the first successful message call -/
theorem first_message {s s' : St σ} {h : History} {k : Call} {ks : List Call} (hr : Run E cfg s h s')
    (hm : messages h = k :: ks) : ∃ h1 o x h2 a b, h = h1 ++ (o, .ok x) :: h2 ∧ callOf o = some k ∧
      messages h1 = [] ∧ messages h2 = ks ∧ Run E cfg s h1 a ∧ step E cfg o a = (.ok x, b) ∧
      a.ctx.status ≠ .aborted ∧ Run E cfg b h2 s' := by
  induction hr with
  | nil s => simp [messages] at hm
  | @cons s s1 s2 o r h hs hd hr ih =>
    rw [messages_cons] at hm
    cases ha : added o r with
    | nil =>
      rw [ha, List.nil_append] at hm
      obtain ⟨h1, o', x, h2, a, b, rfl, h3, h4, h5, h6, h7, h8, h9⟩ := ih hm
      exact ⟨(o, r) :: h1, o', x, h2, a, b, rfl, h3, by rw [messages_cons, ha, h4]; rfl, h5,
        .cons hs hd h6, h7, h8, h9⟩
    | cons k' l =>
      cases hk : callOf o with
      | none => rw [added_none hk] at ha; simp at ha
      | some k'' =>
        rcases step_message hk hs hd with ⟨_, rfl, _⟩ | ⟨_, _, rfl, _⟩ | ⟨_, _, ⟨e, rfl⟩, _⟩ | ⟨_, ho, ⟨x, rfl⟩, _⟩
        · rw [added_err] at ha; simp at ha
        · rw [added_err] at ha; simp at ha
        · rw [added_err] at ha; simp at ha
        · rw [added_ok hk, List.singleton_append, List.cons.injEq] at hm
          obtain ⟨rfl, rfl⟩ := hm
          refine ⟨[], o, x, h, s, s1, rfl, hk, rfl, rfl, .nil s, hs, ?_, hr⟩
          intro hab
          rw [aborted_not_ok hab] at ho
          cases ho

theorem settled_suffix {h1 h2 : History} {o : Op} {x : Out} {k : Call} (hk : callOf o = some k)
    (h : Settled (h1 ++ (o, .ok x) :: h2)) : ∀ p ∈ h2, reconf p = false := by
  unfold Settled at h
  rw [List.pairwise_append, List.pairwise_cons] at h
  intro p hp
  have := h.2.1.1 p hp (by rw [hk]; simp) rfl
  unfold reconf
  cases hs : succeeded p.2 with
  | false => simp
  | true => rw [this hs]; rfl

/-- what is left of a session after some message calls -/
structure Rest (E : Env σ) (cfg : Config) (s : St σ) (h : History) (ks : List Call) (s' : St σ) : Prop where
  run : Run E cfg s h s'
  noRestart : ∀ p ∈ h, restarts p.1 = false
  noReconf : ∀ p ∈ h, reconf p = false
  msgs : messages h = ks

/-- the first message call of a session -/
theorem session_first {e : σ} {log : List Ev} {h : History} {s' : St σ} {k : Call} {ks : List Call}
    (hs : Session E cfg e log h s') (hset : Settled h) (hm : messages h = k :: ks) :
    ∃ h1 o x a b h2, h = h1 ++ (o, .ok x) :: h2 ∧ messages h1 = [] ∧ callOf o = some k ∧ Configured a.ctx ∧ OwnCid cfg a.ctx ∧ a.env = e ∧ a.log = log ∧
      step E cfg o a = (.ok x, b) ∧ Rest E cfg b h2 ks s' := by
  obtain ⟨h1, o, x, h2, a, b, rfl, hk, hm1, hm2, hr1, hst, ha, hr2⟩ := first_message hs.1 hm
  have hn := hs.2
  obtain ⟨hc, ho, he, hl⟩ := config_run hr1 (fun p hp => hn p (List.mem_append_left _ hp)) hm1 configured_fresh ownCid_fresh ha
  refine ⟨h1, o, x, a, b, h2, rfl, hm1, hk, hc, ho, he, hl, hst, hr2, fun p hp => hn p (by simp [hp]),
    settled_suffix hk hset, hm2⟩

/-- the next message call -/
theorem Rest.next {s s' : St σ} {h : History} {k : Call} {ks : List Call} (hr : Rest E cfg s h (k :: ks) s')
    (he : Early s.ctx) :
    ∃ h1 o x b h2, h = h1 ++ (o, .ok x) :: h2 ∧ messages h1 = [] ∧ callOf o = some k ∧ step E cfg o s = (.ok x, b) ∧
      Rest E cfg b h2 ks s' := by
  obtain ⟨h1, o, x, h2, a, b, rfl, hk, hm1, hm2, hr1, hst, ha, hr2⟩ := first_message hr.run hr.msgs
  have := still_run hr1 (fun p hp => hr.noRestart p (List.mem_append_left _ hp))
    (fun p hp => hr.noReconf p (List.mem_append_left _ hp)) hm1 he ha
  subst this
  exact ⟨h1, o, x, b, h2, rfl, hm1, hk, hst, hr2, fun p hp => hr.noRestart p (by simp [hp]),
    fun p hp => hr.noReconf p (by simp [hp]), hm2⟩

theorem Rest.stay {s s' : St σ} {h : History} (hr : Rest E cfg s h [] s') (he : Early s.ctx)
    (ha : s'.ctx.status ≠ .aborted) : s' = s := still_run hr.run hr.noRestart hr.noReconf hr.msgs he ha

/-! ## The calls of each role -/

/-- inversion of `callOf` and of successful steps -/
theorem step_compose1 {o : Op} {x : Out} {s s' : St σ} (hk : callOf o = some .compose1)
    (h : step E cfg o s = (.ok x, s')) :
    ∃ n m, o = .compose1 n ∧ x = .bytes m ∧ message1Compose E cfg n s = (.ok m, s') := by
  cases o <;> simp only [callOf, Option.some.injEq, reduceCtorEq] at hk
  unfold step at h
  obtain ⟨a, h1, h2⟩ := mapOut_ok.1 h
  exact ⟨_, a, rfl, h2.symm, h1⟩

@[inherit_doc step_compose1]
theorem step_process1 {o : Op} {x : Out} {s s' : St σ} (hk : callOf o = some .process1)
    (h : step E cfg o s = (.ok x, s')) :
    ∃ m, o = .process1 m ∧ x = .unit ∧ message1Process E cfg m s = (.ok (), s') := by
  cases o <;> simp only [callOf, Option.some.injEq, reduceCtorEq] at hk
  unfold step at h
  obtain ⟨a, h1, h2⟩ := mapOut_ok.1 h
  exact ⟨_, rfl, h2.symm, h1⟩

@[inherit_doc step_compose1]
theorem step_compose2 {o : Op} {x : Out} {s s' : St σ} (hk : callOf o = some .compose2)
    (h : step E cfg o s = (.ok x, s')) :
    ∃ n m, o = .compose2 n ∧ x = .bytes m ∧ message2Compose E cfg n s = (.ok m, s') := by
  cases o <;> simp only [callOf, Option.some.injEq, reduceCtorEq] at hk
  unfold step at h
  obtain ⟨a, h1, h2⟩ := mapOut_ok.1 h
  exact ⟨_, a, rfl, h2.symm, h1⟩

@[inherit_doc step_compose1]
theorem step_process2 {o : Op} {x : Out} {s s' : St σ} (hk : callOf o = some .process2)
    (h : step E cfg o s = (.ok x, s')) :
    ∃ m, o = .process2 m ∧ x = .unit ∧ message2Process E cfg m s = (.ok (), s') := by
  cases o <;> simp only [callOf, Option.some.injEq, reduceCtorEq] at hk
  unfold step at h
  obtain ⟨a, h1, h2⟩ := mapOut_ok.1 h
  exact ⟨_, rfl, h2.symm, h1⟩

@[inherit_doc step_compose1]
theorem step_compose3 {o : Op} {x : Out} {s s' : St σ} (hk : callOf o = some .compose3)
    (h : step E cfg o s = (.ok x, s')) :
    ∃ n m, o = .compose3 n ∧ x = .bytes m ∧ message3Compose E cfg n s = (.ok m, s') := by
  cases o <;> simp only [callOf, Option.some.injEq, reduceCtorEq] at hk
  unfold step at h
  obtain ⟨a, h1, h2⟩ := mapOut_ok.1 h
  exact ⟨_, a, rfl, h2.symm, h1⟩

@[inherit_doc step_compose1]
theorem step_process3 {o : Op} {x : Out} {s s' : St σ} (hk : callOf o = some .process3)
    (h : step E cfg o s = (.ok x, s')) :
    ∃ m, o = .process3 m ∧ x = .unit ∧ message3Process E cfg m s = (.ok (), s') := by
  cases o <;> simp only [callOf, Option.some.injEq, reduceCtorEq] at hk
  unfold step at h
  obtain ⟨a, h1, h2⟩ := mapOut_ok.1 h
  exact ⟨_, rfl, h2.symm, h1⟩

@[inherit_doc step_compose1]
theorem step_compose4 {o : Op} {x : Out} {s s' : St σ} (hk : callOf o = some .compose4)
    (h : step E cfg o s = (.ok x, s')) :
    ∃ n m, o = .compose4 n ∧ x = .bytes m ∧ message4Compose E cfg n s = (.ok m, s') := by
  cases o <;> simp only [callOf, Option.some.injEq, reduceCtorEq] at hk
  unfold step at h
  obtain ⟨a, h1, h2⟩ := mapOut_ok.1 h
  exact ⟨_, a, rfl, h2.symm, h1⟩

@[inherit_doc step_compose1]
theorem step_process4 {o : Op} {x : Out} {s s' : St σ} (hk : callOf o = some .process4)
    (h : step E cfg o s = (.ok x, s')) :
    ∃ m, o = .process4 m ∧ x = .unit ∧ message4Process E cfg m s = (.ok (), s') := by
  cases o <;> simp only [callOf, Option.some.injEq, reduceCtorEq] at hk
  unfold step at h
  obtain ⟨a, h1, h2⟩ := mapOut_ok.1 h
  exact ⟨_, rfl, h2.symm, h1⟩

/-- An Initiator's completed handshake: `s1` is the configured context, `s2`, `s3`, `s4` the states after the three
calls, `s'` any later state of the session. -/
structure InitiatorChain (E : Env σ) (cfg : Config) (e : σ) (log : List Ev) (h : History) (s' : St σ)
    (n1 n3 : Nat) (m1 m2 m3 : Bytes) (s1 s2 s3 s4 : St σ) (h4 : History) (ks : List Call) : Prop where
  conf : Configured s1.ctx
  cid : OwnCid cfg s1.ctx
  env : s1.env = e
  log : s1.log = log
  call1 : message1Compose E cfg n1 s1 = (.ok m1, s2)
  call2 : message2Process E cfg m2 s2 = (.ok (), s3)
  call3 : message3Compose E cfg n3 s3 = (.ok m3, s4)
  in1 : (.compose1 n1, .ok (.bytes m1)) ∈ h
  in2 : (.process2 m2, .ok .unit) ∈ h
  in3 : (.compose3 n3, .ok (.bytes m3)) ∈ h
  split : ∃ h0 p, h = h0 ++ p :: h4 ∧ messages h0 = [.compose1, .process2] ∧ callOf p.1 = some .compose3
  rest : Rest E cfg s4 h4 ks s'

/-- A Responder's completed handshake. -/
structure ResponderChain (E : Env σ) (cfg : Config) (e : σ) (log : List Ev) (h : History) (s' : St σ)
    (n2 : Nat) (m1 m2 m3 : Bytes) (s1 s2 s3 s4 : St σ) (h4 : History) (ks : List Call) : Prop where
  conf : Configured s1.ctx
  cid : OwnCid cfg s1.ctx
  env : s1.env = e
  log : s1.log = log
  call1 : message1Process E cfg m1 s1 = (.ok (), s2)
  call2 : message2Compose E cfg n2 s2 = (.ok m2, s3)
  call3 : message3Process E cfg m3 s3 = (.ok (), s4)
  in1 : (.process1 m1, .ok .unit) ∈ h
  in2 : (.compose2 n2, .ok (.bytes m2)) ∈ h
  in3 : (.process3 m3, .ok .unit) ∈ h
  split : ∃ h0 p, h = h0 ++ p :: h4 ∧ messages h0 = [.process1, .compose2] ∧ callOf p.1 = some .process3
  rest : Rest E cfg s4 h4 ks s'

theorem early_after1 {n : Nat} {m : Bytes} {s s' : St σ} (hc : Configured s.ctx)
    (h : message1Compose E cfg n s = (.ok m, s')) : Early s'.ctx := by
  obtain ⟨_, _, _, _, priv, pub, kid, ts, th, _, _, _, _, _, _, _, _, _, h1⟩ := message1Compose_ok h
  have : s.ctx.prkState = .invalid := by rw [hc]; rfl
  rw [h1]; unfold Early chosen; simp only [this]; decide

theorem early_after1' {m : Bytes} {u : Unit} {s s' : St σ} (hc : Configured s.ctx)
    (h : message1Process E cfg m s = (.ok u, s')) : Early s'.ctx := by
  obtain ⟨_, _, _, _, _, _, _, _, _, _, _, _, _, _, _, h1⟩ := message1Process_ok h
  have : s.ctx.prkState = .invalid := by rw [hc]; rfl
  rw [h1]; unfold Early chosen; simp only [this]; decide

theorem early_after2 {m : Bytes} {u : Unit} {s s' : St σ}
    (h : message2Process E cfg m s = (.ok u, s')) : Early s'.ctx := by
  obtain ⟨_, _, _, _, _, _, _, h1⟩ := message2Process_ok h
  rw [h1.ctx]; unfold Early; simp only []; decide

theorem early_after2' {n : Nat} {m : Bytes} {s s' : St σ}
    (h : message2Compose E cfg n s = (.ok m, s')) : Early s'.ctx := by
  obtain ⟨_, _, _, _, h1⟩ := message2Compose_ok h
  rw [h1.ctx]; unfold Early; simp only []; decide

/-- a session in which an Initiator's calls succeeded -/
theorem initiator_chain {e : σ} {log : List Ev} {h : History} {s' : St σ} {ks : List Call}
    (hs : Session E cfg e log h s') (hset : Settled h)
    (hm : messages h = .compose1 :: .process2 :: .compose3 :: ks) :
    ∃ n1 n3 m1 m2 m3 s1 s2 s3 s4 h4, InitiatorChain E cfg e log h s' n1 n3 m1 m2 m3 s1 s2 s3 s4 h4 ks := by
  obtain ⟨g1, o1, x1, s1, s2, h2, rfl, u1, k1, hc, ho, he, hl, st1, r1⟩ := session_first hs hset hm
  obtain ⟨n1, m1, rfl, rfl, c1⟩ := step_compose1 k1 st1
  obtain ⟨g2, o2, x2, s3, h3, rfl, u2, k2, st2, r2⟩ := r1.next (early_after1 hc c1)
  obtain ⟨m2, rfl, rfl, c2⟩ := step_process2 k2 st2
  obtain ⟨g3, o3, x3, s4, h4, rfl, u3, k3, st3, r3⟩ := r2.next (early_after2 c2)
  obtain ⟨n3, m3, rfl, rfl, c3⟩ := step_compose3 k3 st3
  refine ⟨n1, n3, m1, m2, m3, s1, s2, s3, s4, h4, hc, ho, he, hl, c1, c2, c3, by simp, by simp, by simp, ?_, r3⟩
  exact ⟨g1 ++ (.compose1 n1, .ok (.bytes m1)) :: (g2 ++ (.process2 m2, .ok .unit) :: g3), (.compose3 n3, .ok (.bytes m3)),
    by simp, by
    rw [messages_append, messages_cons, messages_append, messages_cons, u1, u2, u3, added_ok k1, added_ok k2]; rfl, rfl⟩

/-- a session in which a Responder's calls succeeded -/
theorem responder_chain {e : σ} {log : List Ev} {h : History} {s' : St σ} {ks : List Call}
    (hs : Session E cfg e log h s') (hset : Settled h)
    (hm : messages h = .process1 :: .compose2 :: .process3 :: ks) :
    ∃ n2 m1 m2 m3 s1 s2 s3 s4 h4, ResponderChain E cfg e log h s' n2 m1 m2 m3 s1 s2 s3 s4 h4 ks := by
  obtain ⟨g1, o1, x1, s1, s2, h2, rfl, u1, k1, hc, ho, he, hl, st1, r1⟩ := session_first hs hset hm
  obtain ⟨m1, rfl, rfl, c1⟩ := step_process1 k1 st1
  obtain ⟨g2, o2, x2, s3, h3, rfl, u2, k2, st2, r2⟩ := r1.next (early_after1' hc c1)
  obtain ⟨n2, m2, rfl, rfl, c2⟩ := step_compose2 k2 st2
  obtain ⟨g3, o3, x3, s4, h4, rfl, u3, k3, st3, r3⟩ := r2.next (early_after2' c2)
  obtain ⟨m3, rfl, rfl, c3⟩ := step_process3 k3 st3
  refine ⟨n2, m1, m2, m3, s1, s2, s3, s4, h4, hc, ho, he, hl, c1, c2, c3, by simp, by simp, by simp, ?_, r3⟩
  exact ⟨g1 ++ (.process1 m1, .ok .unit) :: (g2 ++ (.compose2 n2, .ok (.bytes m2)) :: g3), (.process3 m3, .ok .unit),
    by simp, by
    rw [messages_append, messages_cons, messages_append, messages_cons, u1, u2, u3, added_ok k1, added_ok k2]; rfl, rfl⟩

end Verif
