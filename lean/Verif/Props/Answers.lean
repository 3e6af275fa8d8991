import Verif.SpecAnswers
import Verif.Props.Peer
import Verif.Props.Phases
import Verif.Props.Agree

/-!
# C65: a peer cannot make the calls that answer it fail
-/

namespace Verif

open M Spec

variable {σ : Type} {E : Env σ} {I : σ → Prop} {cfg : Config} {P : Prims} {V : Bytes → Bytes → Bytes → Bool} {su : Suite}
  {k : Bounds} {signs : Nat → Bool} {p : Identity} {g : Choice}

theorem run_det {s a b : St σ} {h : History} (h1 : Run E cfg s h a) (h2 : Run E cfg s h b) : a = b := by
  induction h1 with
  | nil s => cases h2; rfl
  | cons hs _ _ ih =>
    cases h2 with
    | cons hs' _ hr =>
      rw [hs] at hs'
      cases hs'
      exact ih hr

theorem Spec.Sender.host (h : Sender P V su k signs I E cfg p g) : Host P su k I E cfg :=
  ⟨h.honest, h.sized, h.suite, h.room, h.items, h.derive⟩

theorem Spec.Sender.sizes (h : Sender P V su k signs I E cfg p g) : CredSizes cfg p.cred := by
  obtain ⟨i, hi⟩ := h.credOk.sent
  exact credSizes hi h.credOk.room h.credOk.hashAlg h.credOk.size

theorem Spec.Sender.head (h : Sender P V su k signs I E cfg p g) : g.methods.headD 0 ∈ g.methods := by
  have := (h.choice.domain (.setMethods g.methods) (by simp [Choice.settings])).1
  cases hg : g.methods with
  | nil => rw [hg] at this; simp at this
  | cons a l => simp

/-- the state after configuration, and what follows -/
theorem Spec.Sender.start (h : Sender P V su k signs I E cfg p g) {s s1 : St σ} {hist : History} {ks : List Call}
    (hr : Run E cfg s (done g.calls ++ hist) s1) (hu : Undisturbed hist) (hm : messages hist = ks) :
    ∃ s0, Ready su s0.ctx ∧ s0.ctx.method = g.methods ∧ s0.ctx.cid = g.cid ∧ Early s0.ctx ∧ Rest E cfg s0 hist ks s1 := by
  obtain ⟨s0, r0, e1, e2, e3, -, -⟩ := configured (E := E) h.choice s
  obtain ⟨a, ra, rb⟩ := run_append hr
  cases run_det r0 ra
  refine ⟨s0, e1, e2, e3, ?_, rb, fun p hp => (hu p hp).1, fun p hp => ?_, hm⟩
  · unfold Early
    rw [e1.status.1, e1.status.2.2]
    decide
  · unfold reconf
    cases hs : isSetter p.1 with
    | false => rfl
    | true => rw [(hu p hp).2 hs]; rfl

/-- **C65**, message_1. -/
theorem C65_message1 (h : Sender P V su k initiatorSigns I E cfg p g) {s s1 : St σ} {hist : History}
    (hr : Run E cfg s (done g.calls ++ hist) s1) (hu : Undisturbed hist) (hm : messages hist = []) (ha : ¬ Dead E cfg s1)
    (hj : I s1.env) {n : Nat} (hn : 65000 ≤ n) :
    ∃ m s2, step E cfg (.compose1 n) s1 = (.ok (.bytes m), s2) := by
  obtain ⟨s0, e1, e2, e3, e4, r⟩ := h.start hr hu hm
  cases r.stay e4 (not_dead_status ha)
  have hd : g.methods.head? = some (g.methods.headD 0) := by
    have := h.head
    cases hg : g.methods with
    | nil => rw [hg] at this; cases this
    | cons a l => rfl
  obtain ⟨m1, s2, q1, -⟩ := message1Compose_wp h.host e1 (by rw [e2]; exact hd) (by rw [e3]; exact h.cid)
    (by omega : 60000 ≤ n) ⟨rfl, hj⟩
  exact ⟨m1, s2, mapOut_ok.2 ⟨m1, q1, rfl⟩⟩

theorem Spec.Sender.cidOk (h : Sender P V su k signs I E cfg p g) {ci : Cid} (hc : CidFits cfg ci) : CidOk cfg ci := by
  have := h.cids
  cases ci <;> simp only [CidFits, CidOk] at hc ⊢ <;> omega

/-- the Responder after message_1 -/
theorem Spec.Sender.heard (h : Sender P V su k signs I E cfg p g) {s0 b : St σ} {m1 : Bytes} (e1 : Ready su s0.ctx)
    (e2 : s0.ctx.method = g.methods) (hp : message1Process E cfg m1 s0 = (.ok (), b)) :
    ∃ me l gx, me ∈ g.methods ∧ StartsMessage1 me l gx m1 ∧ Going su me s0.ctx b.ctx ∧
      (b.ctx.status = .receivedM1 ∧ b.ctx.thState = .th1 ∧ b.ctx.prkState = .invalid) ∧ b.ctx.dhPeerPub = gx ∧
      CidOk cfg b.ctx.peerCid ∧ b.ctx.th.length = su.hash := by
  obtain ⟨_, _, _, m, me, pc, th, hm, h1, h2, _, h3, h4, _, h5, h6⟩ := message1Process_ok hp
  subst hm
  have hsu : (chosen s0.ctx 0).suite = su := Verif.Ready.suite e1
  rw [hsu] at h3 h5
  have hst := getMsg1_start (d := cfg.dec) (b := m1) (by
    intro h0
    rw [h0] at h3
    have := h.suite.ecc.1
    simp at h3
    omega)
  rw [← h2] at hst
  refine ⟨me, _, _, by rw [← e2]; exact h1, hst, ⟨?_, ?_, ?_, ?_⟩, ?_, ?_, ?_, ?_⟩
  all_goals rw [h6]
  · exact ⟨e1.bound.1, e1.bound.2.1, e1.bound.2.2, hsu⟩
  · rfl
  · rfl
  · simp only [e1.clean.1, ite_self]
  · exact ⟨rfl, rfl, e1.status.2.2⟩
  · exact h.cidOk h4
  · exact h5

/-- **C65**, message_2. After any accepted message_1 whose G_X is a public key, `edhoc_message_2_compose` succeeds. -/
theorem C65_message2 (h : Sender P V su k responderSigns I E cfg p g) {s s1 : St σ} {hist : History}
    (hr : Run E cfg s (done g.calls ++ hist) s1) (hu : Undisturbed hist) (hm : messages hist = [.process1])
    (hg : GoodGx P hist) (ha : ¬ Dead E cfg s1) (hj : I s1.env) {n : Nat} (hn : 65000 ≤ n) :
    ∃ m s2, step E cfg (.compose2 n) s1 = (.ok (.bytes m), s2) := by
  obtain ⟨s0, e1, e2, e3, e4, r⟩ := h.start hr hu hm
  obtain ⟨h1, o, x, b, h2, rfl, _, hk, hs, r1⟩ := r.next e4
  obtain ⟨m1, rfl, rfl, c1⟩ := step_process1 hk hs
  obtain ⟨me, l, gx, g1, g2, g3, g4, g5, g6, g7⟩ := h.heard e1 e2 c1
  obtain ⟨x, hx, rfl⟩ := hg m1 .unit me l gx (by simp) g2
  cases r1.stay (by unfold Early; rw [g4.1, g4.2.2]; decide) (not_dead_status ha)
  obtain ⟨m2, s2, q2, -⟩ := message2Compose_any h.host h.lawful (h.methods me g1) (h.owns me g1) h.sizes h.credOk.size
    (cfg' := cfg) (by rw [e3]; exact h.cid) h.keystream g7 hx ⟨g3, g4, g5, rfl, rfl⟩ hn ⟨rfl, hj⟩
  exact ⟨m2, s2, mapOut_ok.2 ⟨m2, q2, rfl⟩⟩

theorem overlay_length (n : Nat) (a b : Bytes) : (overlay n a b).length = n := fitLen_length _ _

/-- what a session knows once message_2 has been composed or accepted -/
structure Mid (su : Suite) (cfg : Config) (g : Choice) (c0 c : Ctx) : Prop where
  method : c.chosenMethod ∈ g.methods
  going : Going su c.chosenMethod c0 c
  keys : c.thState = .th3 ∧ c.prkState = .prk3e2m
  cid : CidOk cfg c.peerCid
  th : c.th.length = su.hash
  prk : c.prk.length = su.hash

/-- the Initiator up to message_2 -/
theorem Spec.Sender.initiator (h : Sender P V su k signs I E cfg p g) {s s1 : St σ} {hist : History} {ks : List Call}
    (hr : Run E cfg s (done g.calls ++ hist) s1) (hu : Undisturbed hist) (hm : messages hist = .compose1 :: .process2 :: ks) :
    ∃ s0 b m2 ct h1 h2, s0.cid = g.cid ∧ hist = h1 ++ (.process2 m2, .ok .unit) :: h2 ∧ Rest E cfg b h2 ks s1 ∧
      Mid su cfg g s0 b.ctx ∧ b.ctx.status = .verifiedM2 ∧ StartsBstr (b.ctx.dhPeerPub ++ ct) m2 ∧
      b.ctx.dhPeerPub.length = su.eccKey := by
  obtain ⟨s0, e1, e2, e3, e4, r⟩ := h.start hr hu hm
  obtain ⟨h1, o, x, a, h2, rfl, _, hk, hs, r1⟩ := r.next e4
  obtain ⟨n, m1, rfl, rfl, c1⟩ := step_compose1 hk hs
  obtain ⟨_, _, _, _, priv, pub, kid, ts, th, _, _, _, _, _, _, _, hth, _, hc⟩ := message1Compose_ok c1
  obtain ⟨h3, o, x, b, h4, rfl, _, hk, hs, r2⟩ := r1.next (by
    have q1 : a.ctx.status = .waitM2 := by rw [hc]
    have q2 : a.ctx.prkState = .invalid := by rw [hc]; exact e1.status.2.2
    unfold Early
    rw [q1, q2]; decide)
  obtain ⟨m2, rfl, rfl, c2⟩ := step_process2 hk hs
  obtain ⟨gy, ctxt, cid, q, id, pk, v, c2⟩ := message2Process_ok c2
  have hsu0 : (chosen s0.ctx 0).suite = su := Verif.Ready.suite e1
  have hsu : a.ctx.suite = su := by rw [hc]; exact hsu0
  have hme : a.ctx.chosenMethod = g.methods.headD 0 := by rw [hc, ← e2]; rfl
  have hci : a.ctx.cid = s0.ctx.cid := by rw [hc]; rfl
  have hlive : Live su a.ctx := by rw [hc]; exact ⟨e1.bound.1, e1.bound.2.1, e1.bound.2.2, hsu0⟩
  have hb := c2.ctx
  have hpl := c2.prk3e2m.length c2.prk2eLen
  have hgl := c2.gyLen
  rw [hsu] at hpl hgl
  refine ⟨s0.ctx, b, m2, ctxt, h1 ++ (.compose1 n, .ok (.bytes m1)) :: h3, h4, e3, by simp, r2,
    ⟨?_, ⟨⟨?_, ?_, ?_, ?_⟩, ?_, ?_, ?_⟩, ?_, ?_, ?_, ?_⟩, ?_, ?_, ?_⟩
  all_goals rw [hb]
  · show a.ctx.chosenMethod ∈ g.methods
    rw [hme]; exact h.head
  · exact hlive.keys
  · exact hlive.crypto
  · exact hlive.cred
  · exact hlive.suite
  · exact hci
  · exact ⟨rfl, rfl⟩
  · exact h.cidOk c2.cidFits
  · show (overlay a.ctx.suite.hash v.h3 v.th2).length = su.hash
    rw [overlay_length, hsu]
  · exact hpl
  · exact getMsgBstr_sound c2.parsed
  · exact hgl

/-- **C65**, message_3. After any accepted message_2 whose G_Y is a public key, `edhoc_message_3_compose` succeeds. -/
theorem C65_message3 (h : Sender P V su k initiatorSigns I E cfg p g) {s s1 : St σ} {hist : History}
    (hr : Run E cfg s (done g.calls ++ hist) s1) (hu : Undisturbed hist) (hm : messages hist = [.compose1, .process2])
    (hg : GoodGy P su hist) (ha : ¬ Dead E cfg s1) (hj : I s1.env) {n : Nat} (hn : 65000 ≤ n) :
    ∃ m s2, step E cfg (.compose3 n) s1 = (.ok (.bytes m), s2) := by
  obtain ⟨c0, b, m2, ct, h1, h2, e3, rfl, r, md, st, sb, gl⟩ := h.initiator hr hu hm
  obtain ⟨y, hy, hgy⟩ := hg m2 .unit _ (by simp) sb
  rw [← gl, List.take_left] at hgy
  cases r.stay (by unfold Early; rw [st, md.keys.2]; decide) (not_dead_status ha)
  obtain ⟨m3, s2, q3, -⟩ := message3Compose_any h.host (h.methods _ md.method) (h.owns _ md.method) h.sizes h.credOk.size md.cid
    (cfg' := cfg) (c0 := c0) (by rw [e3]; exact h.cid) md.th md.prk hy ⟨md.going, md.keys, hgy, rfl, rfl, rfl⟩ st hn ⟨rfl, hj⟩
  exact ⟨m3, s2, mapOut_ok.2 ⟨m3, q3, rfl⟩⟩

/-- the Responder up to message_2 -/
theorem Spec.Sender.responder (h : Sender P V su k signs I E cfg p g) {s s1 : St σ} {hist : History} {ks : List Call}
    (hr : Run E cfg s (done g.calls ++ hist) s1) (hu : Undisturbed hist) (hm : messages hist = .process1 :: .compose2 :: ks) :
    ∃ s0 b h1 h2, s0.cid = g.cid ∧ hist = h1 ++ h2 ∧ Rest E cfg b h2 ks s1 ∧
      Mid su cfg g s0 b.ctx ∧ b.ctx.status = .waitM3 := by
  obtain ⟨s0, e1, e2, e3, e4, r⟩ := h.start hr hu hm
  obtain ⟨h1, o, x, a, h2, rfl, _, hk, hs, r1⟩ := r.next e4
  obtain ⟨m1, rfl, rfl, c1⟩ := step_process1 hk hs
  obtain ⟨me, l, gx, g1, g2, g3, g4, g5, g6, g7⟩ := h.heard e1 e2 c1
  obtain ⟨h3, o, x, b, h4, rfl, _, hk, hs, r2⟩ := r1.next (by unfold Early; rw [g4.1, g4.2.2]; decide)
  obtain ⟨n, m2, rfl, rfl, c2⟩ := step_compose2 hk hs
  obtain ⟨priv, pub, kid, v, c2⟩ := message2Compose_ok c2
  have hb := c2.ctx
  have hpl := c2.prk3e2m.length c2.prk2eLen
  rw [g3.live.suite] at hpl
  refine ⟨s0.ctx, b, h1 ++ (.process1 m1, .ok .unit) :: (h3 ++ [(.compose2 n, .ok (.bytes m2))]), h4, e3, by simp, r2,
    ⟨?_, ⟨⟨?_, ?_, ?_, ?_⟩, ?_, ?_, ?_⟩, ?_, ?_, ?_, ?_⟩, ?_⟩
  all_goals rw [hb]
  · show a.ctx.chosenMethod ∈ g.methods
    rw [g3.method]; exact g1
  · exact g3.live.keys
  · exact g3.live.crypto
  · exact g3.live.cred
  · exact g3.live.suite
  · exact g3.cid
  · exact ⟨rfl, rfl⟩
  · exact g6
  · show (overlay a.ctx.suite.hash v.h3 v.th2).length = su.hash
    rw [overlay_length, g3.live.suite]
  · exact hpl

/-- what a session knows once the handshake is complete, before the first call of the exporter -/
structure Full (su : Suite) (cfg : Config) (c0 c : Ctx) : Prop where
  after : AfterM3 su c.chosenMethod c.prk c.th c.peerCid c0 c
  cid : CidOk cfg c.peerCid
  th : c.th.length = su.hash
  prk : c.prk.length = su.hash

/-- a call that is not a successful message call or a successful configuration call, nor a call of the exporter, either
aborts the session or does nothing -/
theorem hold_step {o : Op} {s s' : St σ} {r : Res Out} (h : step E cfg o s = (r, s')) (hd : r.Defined)
    (hr : restarts o = false) (hc : reconf (o, r) = false) (hm : added o r = []) (he : isExporter o = false) :
    s' = s ∨ s'.ctx.status = .aborted ∧ s.ctx.status ≠ .persisted := by
  cases hk : callOf o with
  | some k =>
    rcases step_message hk h hd with ⟨_, _, rfl⟩ | ⟨_, _, _, rfl⟩ | ⟨_, ho, _, _, _, _, hc⟩ | ⟨_, _, ⟨a, rfl⟩, _⟩
    · exact Or.inl rfl
    · exact Or.inl rfl
    · refine Or.inr ⟨(ctl1_proj hc).2.1, fun hp => ?_⟩
      cases k <;> simp [okOf, okStart, okReceivedM1, okWaitM2, okVerifiedM2, okWaitM3, okCompleted, hp] at ho
    · rw [added_ok hk] at hm; simp at hm
  | none =>
    left
    by_cases hs : isSetter o = true
    · rcases C30_setters (E := E) (cfg := cfg) hs s with ⟨_, _, c', h1, _⟩ | ⟨_, e, _, h1⟩
      · rw [h] at h1
        simp only [Prod.mk.injEq] at h1
        rw [h1.1] at hc
        simp [reconf, hs, succeeded] at hc
      · rw [h] at h1
        simp only [Prod.mk.injEq] at h1
        exact h1.2
    · cases o <;> simp only [callOf, reduceCtorEq] at hk <;> simp only [restarts, Bool.true_eq_false] at hr <;>
        simp only [isSetter, not_true_eq_false] at hs <;> simp only [isExporter, Bool.true_eq_false] at he
      case nullArg =>
        simp only [step, M.fail, Prod.mk.injEq] at h
        exact h.2.symm
      case getCode => exact getCode_state h
      case getSuites a b => exact getSuites_state h hd

theorem hold_run {s s' : St σ} {h : History} (hr : Run E cfg s h s') :
    (∀ p ∈ h, restarts p.1 = false) → (∀ p ∈ h, reconf p = false) → messages h = [] → NoExporter h →
      s'.ctx.status ≠ .aborted → s' = s := by
  induction hr with
  | nil s => intros; rfl
  | @cons s s1 s2 o r h hs hd hr ih =>
    intro hn hc hm he ha
    rw [messages_cons, List.append_eq_nil_iff] at hm
    have hn' : ∀ q ∈ h, restarts q.1 = false := fun q hq => hn q (List.mem_cons_of_mem _ hq)
    rcases hold_step hs hd (hn _ (List.mem_cons_self ..)) (hc _ (List.mem_cons_self ..)) hm.1 (he _ (List.mem_cons_self ..)) with rfl | h1
    · exact ih hn' (fun q hq => hc q (List.mem_cons_of_mem _ hq)) hm.2 (fun q hq => he q (List.mem_cons_of_mem _ hq)) ha
    · exact absurd (aborted_run hr hn' h1.1) ha

/-- after message 4 the session is not aborted any more -/
theorem hold_persisted {s s' : St σ} {h : History} (hr : Run E cfg s h s') :
    (∀ p ∈ h, restarts p.1 = false) → (∀ p ∈ h, reconf p = false) → messages h = [] → NoExporter h →
      s.ctx.status = .persisted → s' = s := by
  induction hr with
  | nil s => intros; rfl
  | @cons s s1 s2 o r h hs hd hr ih =>
    intro hn hc hm he hp
    rw [messages_cons, List.append_eq_nil_iff] at hm
    have hs1 : s1 = s := (hold_step hs hd (hn _ (List.mem_cons_self ..)) (hc _ (List.mem_cons_self ..)) hm.1
      (he _ (List.mem_cons_self ..))).resolve_right fun h => h.2 hp
    subst hs1
    exact ih (fun q hq => hn q (List.mem_cons_of_mem _ hq)) (fun q hq => hc q (List.mem_cons_of_mem _ hq)) hm.2
      (fun q hq => he q (List.mem_cons_of_mem _ hq)) hp

/-- the next message call, once the handshake is complete -/
theorem Rest.later {s s' : St σ} {h : History} {k : Call} {ks : List Call} (hr : Rest E cfg s h (k :: ks) s')
    (he : NoExporter h) :
    ∃ o x b h2, callOf o = some k ∧ step E cfg o s = (.ok x, b) ∧ Rest E cfg b h2 ks s' ∧ NoExporter h2 := by
  obtain ⟨h1, o, x, h2, a, b, rfl, hk, hm1, hm2, hr1, hst, ha, hr2⟩ := first_message hr.run hr.msgs
  have := hold_run hr1 (fun p hp => hr.noRestart p (List.mem_append_left _ hp))
    (fun p hp => hr.noReconf p (List.mem_append_left _ hp)) hm1 (fun p hp => he p (List.mem_append_left _ hp)) ha
  subst this
  exact ⟨o, x, b, h2, hk, hst, ⟨hr2, fun p hp => hr.noRestart p (by simp [hp]),
    fun p hp => hr.noReconf p (by simp [hp]), hm2⟩, fun p hp => he p (by simp [hp])⟩

/-- once the handshake is complete -/
theorem Spec.Sender.complete (h : Sender P V su k signs I E cfg p g) {s s1 : St σ} {hist : History} {l : List Call}
    (hr : Run E cfg s (done g.calls ++ hist) s1) (hu : Undisturbed hist) (hl : l ∈ finished) (hm : messages hist = l)
    (hx : NoExporter hist) (ha : l.length = 4 ∨ ¬ Dead E cfg s1) :
    ∃ c0, c0.cid = g.cid ∧ Full su cfg c0 s1.ctx ∧ (s1.ctx.status = .completed ∧ l.length = 3 ∨ s1.ctx.status = .persisted ∧ l.length = 4) := by
  have tail : ∀ {c0 : Ctx} {b : St σ} {h2 : History} {ks : List Call}, Rest E cfg b h2 ks s1 → NoExporter h2 →
      Full su cfg c0 b.ctx → b.ctx.status = .completed → ks = [] ∧ l.length = 3 ∨ ks = [.compose4] ∨ ks = [.process4] →
      Full su cfg c0 s1.ctx ∧ (s1.ctx.status = .completed ∧ ks.length = 0 ∨ s1.ctx.status = .persisted ∧ ks.length = 1) := by
    intro c0 b h2 ks r nx f st hk
    rcases hk with ⟨rfl, hl3⟩ | rfl | rfl
    · cases hold_run r.run r.noRestart r.noReconf r.msgs nx (not_dead_status (ha.resolve_left (by omega)))
      exact ⟨f, Or.inl ⟨st, rfl⟩⟩
    · obtain ⟨o, x, b', h3, hk, hs, r3, nx3⟩ := r.later nx
      obtain ⟨n, m, rfl, rfl, c⟩ := step_compose4 hk hs
      obtain ⟨_, _, _, _, _, c⟩ := message4Compose_ok c
      cases hold_persisted r3.run r3.noRestart r3.noReconf r3.msgs nx3 (by rw [c.ctx])
      obtain ⟨⟨⟨⟨f1, f2, f3, f4⟩, f5, f6, f7⟩, f8, f9, f10, f11, f12⟩, f13, f14, f15⟩ := f
      rw [c.ctx]
      exact ⟨⟨⟨⟨⟨f1, f2, f3, f4⟩, f5, f6, rfl⟩, f8, f9, f10, f11, f12⟩, f13, f14, f15⟩, Or.inr ⟨rfl, rfl⟩⟩
    · obtain ⟨o, x, b', h3, hk, hs, r3, nx3⟩ := r.later nx
      obtain ⟨m, rfl, rfl, c⟩ := step_process4 hk hs
      obtain ⟨_, _, _, _, c⟩ := message4Process_ok c
      cases hold_persisted r3.run r3.noRestart r3.noReconf r3.msgs nx3 (by rw [c.ctx])
      obtain ⟨⟨⟨⟨f1, f2, f3, f4⟩, f5, f6, f7⟩, f8, f9, f10, f11, f12⟩, f13, f14, f15⟩ := f
      rw [c.ctx]
      exact ⟨⟨⟨⟨⟨f1, f2, f3, f4⟩, f5, f6, rfl⟩, f8, f9, f10, f11, f12⟩, f13, f14, f15⟩, Or.inr ⟨rfl, rfl⟩⟩
  have resp : ∀ {ks : List Call}, messages hist = .process1 :: .compose2 :: .process3 :: ks →
      ks = [] ∧ l.length = 3 ∨ ks = [.compose4] ∨ ks = [.process4] →
      ∃ c0, c0.cid = g.cid ∧ Full su cfg c0 s1.ctx ∧ (s1.ctx.status = .completed ∧ ks.length = 0 ∨ s1.ctx.status = .persisted ∧ ks.length = 1) := by
    intro ks hm hk
    obtain ⟨c0, b, h1, h2, e3, rfl, r, md, st⟩ := h.responder hr hu hm
    obtain ⟨h3, o, x, b', h4, rfl, _, hk', hs, r3⟩ := r.next (by unfold Early; rw [st, md.keys.2]; decide)
    obtain ⟨m3, rfl, rfl, c⟩ := step_process3 hk' hs
    obtain ⟨_, _, _, v, c⟩ := message3Process_ok c
    have pl := c.prk4e3m.length (by rw [md.going.live.suite]; exact md.prk)
    have tl := c.th4Len
    rw [md.going.live.suite] at pl tl
    refine ⟨c0, e3, tail r3 (fun p hp => hx p (by simp [hp])) ?_ (by rw [c.ctx]) hk⟩
    obtain ⟨⟨f1, f2, f3, f4⟩, f5, f6, f7⟩ := md.going
    rw [c.ctx]
    exact ⟨⟨⟨⟨f1, f2, f3, f4⟩, rfl, f6, rfl⟩, ⟨rfl, rfl⟩, rfl, rfl, rfl, rfl⟩, md.cid, tl, pl⟩
  have init : ∀ {ks : List Call}, messages hist = .compose1 :: .process2 :: .compose3 :: ks →
      ks = [] ∧ l.length = 3 ∨ ks = [.compose4] ∨ ks = [.process4] →
      ∃ c0, c0.cid = g.cid ∧ Full su cfg c0 s1.ctx ∧ (s1.ctx.status = .completed ∧ ks.length = 0 ∨ s1.ctx.status = .persisted ∧ ks.length = 1) := by
    intro ks hm hk
    obtain ⟨c0, b, _, _, h1, h2, e3, rfl, r, md, st, _, _⟩ := h.initiator hr hu hm
    obtain ⟨h3, o, x, b', h4, rfl, _, hk', hs, r3⟩ := r.next (by unfold Early; rw [st, md.keys.2]; decide)
    obtain ⟨n, m3, rfl, rfl, c⟩ := step_compose3 hk' hs
    obtain ⟨_, v, c⟩ := message3Compose_ok c
    have pl := c.prk4e3m.length (by rw [md.going.live.suite]; exact md.prk)
    have tl := c.th4Len
    rw [md.going.live.suite] at pl tl
    refine ⟨c0, e3, tail r3 (fun p hp => hx p (by simp [hp])) ?_ (by rw [c.ctx]) hk⟩
    obtain ⟨⟨f1, f2, f3, f4⟩, f5, f6, f7⟩ := md.going
    rw [c.ctx]
    exact ⟨⟨⟨⟨f1, f2, f3, f4⟩, rfl, f6, rfl⟩, ⟨rfl, rfl⟩, rfl, rfl, rfl, rfl⟩, md.cid, tl, pl⟩
  simp only [finished, List.mem_cons, List.not_mem_nil, or_false] at hl
  rcases hl with rfl | rfl | rfl | rfl
  · obtain ⟨c0, e3, f, st⟩ := resp hm (Or.inl ⟨rfl, rfl⟩)
    exact ⟨c0, e3, f, st.imp (fun h => ⟨h.1, rfl⟩) (fun h => ⟨h.1, by simp at h⟩)⟩
  · obtain ⟨c0, e3, f, st⟩ := resp hm (Or.inr (Or.inl rfl))
    exact ⟨c0, e3, f, st.imp (fun h => ⟨h.1, by simp at h⟩) (fun h => ⟨h.1, rfl⟩)⟩
  · obtain ⟨c0, e3, f, st⟩ := init hm (Or.inl ⟨rfl, rfl⟩)
    exact ⟨c0, e3, f, st.imp (fun h => ⟨h.1, rfl⟩) (fun h => ⟨h.1, by simp at h⟩)⟩
  · obtain ⟨c0, e3, f, st⟩ := init hm (Or.inr (Or.inr rfl))
    exact ⟨c0, e3, f, st.imp (fun h => ⟨h.1, by simp at h⟩) (fun h => ⟨h.1, rfl⟩)⟩

/-- **C65**, message_4. After any accepted message_3, `edhoc_message_4_compose` succeeds, unless the exporter was called
before. -/
theorem C65_message4 (h : Sender P V su k signs I E cfg p g) {s s1 : St σ} {hist : History}
    (hr : Run E cfg s (done g.calls ++ hist) s1) (hu : Undisturbed hist)
    (hm : messages hist = [.process1, .compose2, .process3]) (hx : NoExporter hist) (ha : ¬ Dead E cfg s1) (hj : I s1.env)
    {n : Nat} (hn : 65000 ≤ n) : ∃ m s2, step E cfg (.compose4 n) s1 = (.ok (.bytes m), s2) := by
  obtain ⟨c0, -, f, st⟩ := h.complete hr hu (by simp [finished]) hm hx (Or.inr ha)
  obtain ⟨m4, s2, q4, -⟩ := message4Compose_wp h.host f.after f.th f.prk (by simpa using st) hn ⟨rfl, hj⟩
  exact ⟨m4, s2, mapOut_ok.2 ⟨m4, q4, rfl⟩⟩

/-- **C65**, exporter. Once a handshake is complete (with or without message 4), whatever the peer sent, secrets and OSCORE
keys can be exported. -/
theorem C65_export (h : Sender P V su k signs I E cfg p g) {s s1 : St σ} {hist : History} {l : List Call}
    (hr : Run E cfg s (done g.calls ++ hist) s1) (hu : Undisturbed hist) (hl : l ∈ finished) (hm : messages hist = l)
    (hx : NoExporter hist) (ha : l.length = 4 ∨ ¬ Dead E cfg s1) (hj : I s1.env) {a b n label : Nat} (ha' : SecretLen su a)
    (hb : SecretLen su b) (hn : 65000 ≤ n) (hlab : 32768 ≤ label ∧ label ≤ 65535) :
    (∃ x s2, step E cfg (.exportSecret label a) s1 = (.ok (.bytes x), s2)) ∧
      ∃ o s2, step E cfg (.exportOscore a b n n) s1 = (.ok (.oscore o), s2) := by
  obtain ⟨c0, e3, f, st⟩ := h.complete hr hu hl hm hx ha
  constructor
  · obtain ⟨x, s2, q, -⟩ := exportSecret_gets (label := label) (n := a) h.host f.after.live (fun _ => f.after.keys.1)
      (Or.inl f.after.keys.2) f.th f.prk (Or.inr (Or.inr hlab)) (secretLen_oh ha') s1 ⟨rfl, hj⟩
    exact ⟨x, s2, mapOut_ok.2 ⟨_, q, rfl⟩⟩
  · obtain ⟨o, s2, q, -⟩ := exportOscore_wp h.host f.after.live f.after.keys.1 f.after.keys.2 f.th f.prk
      (st.imp And.left And.left) f.after.oscore (cfg' := cfg) (by rw [f.after.cid, e3]; exact h.cid) f.cid (secretLen_oh ha')
      (secretLen_oh hb) (by omega : 1003 ≤ n) ⟨rfl, hj⟩
    exact ⟨o, s2, mapOut_ok.2 ⟨_, q, rfl⟩⟩

/-! ## Concrete peers -/

namespace Toy

theorem sender {m : Nat} (hm : m < 4) (signs : Nat → Bool) :
    Sender prims valid suite bounds signs (fun _ => True) (env carol) Toy.cfg idC (choice m (.int 5)) where
  lawful := lawful
  suite := suiteOk
  sized := sized
  honest := (localParty hm true true).honest
  room := (localParty hm true true).room
  items := by decide
  derive := by decide
  keystream := by decide +kernel
  cids := by decide
  choice := (parties hm).choiceI
  cid := ⟨by decide, by decide⟩
  methods := by simp [choice, hm]
  owns _ _ := owns rfl rfl rfl rfl
  credOk := (localParty hm true true).credOk

/-- the session of Carol with these messages -/
theorem carolRun (m : Nat) (ops : List Op)
    (h : ((hist (env carol) Toy.cfg ((choice m (.int 5)).calls ++ ops) start).1.all fun p => !isUb p.2) = true)
    {t : History} (ht : (hist (env carol) Toy.cfg ((choice m (.int 5)).calls ++ ops) start).1 = done (choice m (.int 5)).calls ++ t) :
    Run (env carol) Toy.cfg start (done (choice m (.int 5)).calls ++ t)
      (hist (env carol) Toy.cfg ((choice m (.int 5)).calls ++ ops) start).2 := by
  rw [← ht]; exact hist_run _ _ h

end Toy

theorem not_dead_of {s : St σ} {o : Op} {k : Call} {x : Out} (hk : callOf o = some k) (h : (step E cfg o s).1 = .ok x) :
    ¬ Dead E cfg s := by
  intro hd
  have hi : o ≠ .init := by rintro rfl; cases hk
  have := hd [(o, .ok x)] (step E cfg o s).2 (.cons (by rw [← h]) nofun (.nil _)) (by simpa using hi) _
    (List.mem_singleton.2 rfl) (by simp [hk])
  cases this

/-- Non-vacuity of `C65_message2`: a message_1 with a stray byte at the end, which no conforming Initiator sends. It is
accepted, and message_2 is composed. -/
example : ∃ m s2, step (Toy.env Toy.carol) Toy.cfg (.compose2 65000)
    (Toy.hist (Toy.env Toy.carol) Toy.cfg ((Toy.choice 3 (.int 5)).calls ++ [.process1 [3, 2, 66, 0, 124, 5, 0xff]]) Toy.start).2 =
      (.ok (.bytes m), s2) := by
  refine C65_message2 (Toy.sender (by decide : 3 < 4) responderSigns)
    (Toy.carolRun 3 [.process1 [3, 2, 66, 0, 124, 5, 0xff]] (by decide +kernel)
      (t := [(.process1 [3, 2, 66, 0, 124, 5, 0xff], .ok .unit)]) (by decide +kernel))
    (by intro p hp; cases List.mem_singleton.1 hp; exact ⟨rfl, nofun⟩) rfl ?_
    (not_dead_of (o := .compose2 100) rfl
      (x := .bytes [73, 0, 124, 193, 132, 214, 219, 153, 195, 86]) (by decide +kernel)) trivial (Nat.le_refl _)
  intro m1 r me su gx hm h
  cases List.mem_singleton.1 hm
  have := startsMessage1_unique h (getMsg1_start (d := Toy.cfg.dec) (by decide +kernel))
  exact ⟨[0, 82], trivial, this.2.2.trans (by decide +kernel)⟩

/-- a message_2 for Carol, with a stray byte at the end -/
def Toy.stray2 : Bytes := [71, 0, 120, 38, 27, 113, 171, 128, 0xff]
/-- a message_3 for Carol, with a stray byte at the end -/
def Toy.stray3 : Bytes := [71, 42, 66, 69, 98, 163, 236, 163, 0xff]

/-- Carol as Initiator, up to message_2 -/
def Toy.carolI : List Op := [.compose1 100, .process2 Toy.stray2, .getCode]
@[inherit_doc Toy.carolI]
def Toy.carolHI : History := [(.compose1 100, .ok (.bytes [3, 2, 66, 0, 124, 5, 1, 65, 7])), (.process2 Toy.stray2, .ok .unit),
  (.getCode, .ok (.code .success))]

/-- Non-vacuity of `C65_message3`. -/
example : ∃ m s2, step (Toy.env Toy.carol) Toy.cfg (.compose3 65000)
    (Toy.hist (Toy.env Toy.carol) Toy.cfg ((Toy.choice 3 (.int 5)).calls ++ Toy.carolI) Toy.start).2 = (.ok (.bytes m), s2) := by
  refine C65_message3 (Toy.sender (by decide : 3 < 4) initiatorSigns)
    (Toy.carolRun 3 Toy.carolI (by decide +kernel) (t := Toy.carolHI) (by decide +kernel))
    (show ∀ p ∈ Toy.carolHI, _ by simp [Toy.carolHI, restarts, isSetter]) rfl ?_
    (not_dead_of (o := .compose3 100) rfl
      (x := .bytes [74, 66, 1, 2, 66, 52, 206, 34, 224, 173, 224]) (by decide +kernel)) trivial (Nat.le_refl _)
  intro m2 r b hm h
  simp only [Toy.carolHI, List.mem_cons, Prod.mk.injEq, reduceCtorEq, false_and, List.not_mem_nil, or_false, false_or,
    Op.process2.injEq] at hm
  obtain ⟨rfl, _⟩ := hm
  have := startsBstr_unique h (getMsgBstr_sound (d := Toy.cfg.dec) (s := [0, 120, 38, 27, 113, 171, 128]) (by decide +kernel))
  subst this
  exact ⟨[0, 200], trivial, by decide +kernel⟩

/-- Carol as Responder, up to message_3 -/
def Toy.carolR : List Op := [.process1 [3, 2, 66, 0, 120, 6], .compose2 100, .process3 Toy.stray3]
@[inherit_doc Toy.carolR]
def Toy.carolHR : History := [(.process1 [3, 2, 66, 0, 120, 6], .ok .unit),
  (.compose2 100, .ok (.bytes [73, 0, 124, 83, 37, 104, 105, 47, 90, 77])), (.process3 Toy.stray3, .ok .unit)]

theorem Toy.carolR_alive : ¬ Dead (Toy.env Toy.carol) Toy.cfg
    (Toy.hist (Toy.env Toy.carol) Toy.cfg ((Toy.choice 3 (.int 5)).calls ++ Toy.carolR) Toy.start).2 :=
  not_dead_of (o := .compose4 100) rfl (x := .bytes [67, 190, 64, 190]) (by decide +kernel)

/-- Non-vacuity of `C65_message4` and `C65_export`. -/
example : (∃ m s2, step (Toy.env Toy.carol) Toy.cfg (.compose4 65000)
    (Toy.hist (Toy.env Toy.carol) Toy.cfg ((Toy.choice 3 (.int 5)).calls ++ Toy.carolR) Toy.start).2 = (.ok (.bytes m), s2)) ∧
    (∃ x s2, step (Toy.env Toy.carol) Toy.cfg (.exportSecret 40000 16)
      (Toy.hist (Toy.env Toy.carol) Toy.cfg ((Toy.choice 3 (.int 5)).calls ++ Toy.carolR) Toy.start).2 = (.ok (.bytes x), s2)) ∧
    ∃ o s2, step (Toy.env Toy.carol) Toy.cfg (.exportOscore 16 8 65000 65000)
      (Toy.hist (Toy.env Toy.carol) Toy.cfg ((Toy.choice 3 (.int 5)).calls ++ Toy.carolR) Toy.start).2 = (.ok (.oscore o), s2) := by
  have hr := Toy.carolRun 3 Toy.carolR (by decide +kernel) (t := Toy.carolHR) (by decide +kernel)
  have hu : Undisturbed Toy.carolHR := show ∀ p ∈ Toy.carolHR, _ by simp [Toy.carolHR, restarts, isSetter]
  have hx : NoExporter Toy.carolHR := show ∀ p ∈ Toy.carolHR, _ by simp [Toy.carolHR, isExporter]
  exact ⟨C65_message4 (Toy.sender (by decide : 3 < 4) responderSigns) hr hu rfl hx Toy.carolR_alive trivial (Nat.le_refl _),
    C65_export (Toy.sender (by decide : 3 < 4) responderSigns) hr hu (List.mem_cons_self ..) rfl hx (Or.inr Toy.carolR_alive) trivial
      ⟨by decide, Or.inl (by decide)⟩ ⟨by decide, Or.inl (by decide)⟩ (Nat.le_refl _) (by decide)⟩

end Verif
