import Verif.Agree
import Verif.OnCtx
import Verif.After
import Verif.Props.Signing
import Verif.Props.Setters
import Verif.Record
import Verif.Chain
import Verif.Phase

/-!
# C73: what private keys are used for in key agreements
-/

namespace Verif

open M Spec

variable {σ α : Type} {E : Env σ} {cfg : Config}

/-! ## The calls of one API call -/

theorem other_skip {v : Ev} (h : v.noDh = true) (L : List Ev) : statics (v :: L) = statics L ∧
    ephemerals (v :: L) = ephemerals L := by
  cases v
  case keyAgreement a b c => simp [Ev.noDh] at h
  case importKey t raw r =>
    cases t <;> cases r <;> first | (simp [Ev.noDh] at h; done) | exact ⟨by rw [statics] <;> simp, by rw [ephemerals] <;> simp⟩
  all_goals exact ⟨by rw [statics] <;> simp, by rw [ephemerals] <;> simp⟩

namespace Agreements

variable {eph own : Bytes → Bytes → Prop} {n : Nat} {L : List Ev}

theorem statics_append (h : Agreements eph own n L) (L' : List Ev) : statics (L ++ L') = statics L ++ statics L' := by
  induction h with
  | nil => simp [statics]
  | other h1 _ ih => rw [List.cons_append, (other_skip h1 _).1, (other_skip h1 _).1, ih]
  | ephemeral h1 _ ih => simp [statics, ih]
  | own h1 _ ih => simp [statics, ih]

theorem ephemerals_append (h : Agreements eph own n L) (L' : List Ev) :
    ephemerals (L ++ L') = ephemerals L ++ ephemerals L' := by
  induction h with
  | nil => simp [ephemerals]
  | other h1 _ ih => rw [List.cons_append, (other_skip h1 _).2, (other_skip h1 _).2, ih]
  | ephemeral h1 _ ih => simp [ephemerals, ih]
  | own h1 _ ih => simp [ephemerals, ih]

theorem statics_spec (h : Agreements eph own n L) : (statics L).length ≤ n ∧ ∀ p ∈ statics L, own p.1 p.2 := by
  induction h with
  | nil => simp [statics]
  | other h1 _ ih => rw [(other_skip h1 _).1]; exact ih
  | ephemeral h1 _ ih => simpa [statics] using ih
  | own h1 _ ih =>
    simp only [statics, List.length_cons, List.mem_cons]
    refine ⟨by omega, ?_⟩
    rintro p (rfl | hp)
    · exact h1
    · exact ih.2 p hp

theorem ephemerals_spec (h : Agreements eph own n L) : ∀ p ∈ ephemerals L, eph p.1 p.2 := by
  induction h with
  | nil => simp [ephemerals]
  | other h1 _ ih => rw [(other_skip h1 _).2]; exact ih
  | ephemeral h1 _ ih =>
    simp only [ephemerals, ↓reduceIte, List.mem_cons]
    rintro p (rfl | hp)
    · exact h1
    · exact ih p hp
  | own h1 _ ih => simpa [ephemerals] using ih

end Agreements

theorem defined_mapOut {r0 : Res α} {r : Res Out} {f : α → Out} (hd : r.Defined)
    (hr : (∃ a, r0 = .ok a ∧ r = .ok (f a)) ∨ (∃ e, r0 = .err e ∧ r = .err e) ∨ ∃ u, r0 = .ub u ∧ r = .ub u) :
    r0.Defined := by
  rcases hr with ⟨a, rfl, _⟩ | ⟨e, rfl, _⟩ | ⟨u, rfl, rfl⟩ <;> simp_all

theorem Agr.more {eph own : Bytes → Bytes → Prop} {s s' : St σ} (h : Agr eph own 0 s s') : Agr eph own 1 s s' := by
  obtain ⟨es, h, h'⟩ := h
  exact ⟨es, h, h'.weaken⟩

/-- every API call -/
theorem step_agr {o : Op} {s s' : St σ} {r : Res Out} (h : step E cfg o s = (r, s')) (hd : r.Defined) :
    Agr (UsesEphemeral o s.ctx (during s s')) (UsesStatic o s.ctx (during s s')) 1 s s' := by
  by_cases ha : Plain.agreeing o = false
  · exact (Agr.plain (h := Plain.step E cfg ha) h hd)
  cases o <;> simp only [Plain.agreeing, not_true_eq_false] at ha
  case compose2 n =>
    obtain ⟨r0, h0, hr⟩ := mapOut_cases h
    refine (message2Compose_agr h0 (defined_mapOut hd hr)).mono (fun a b h => Or.inl ?_) fun a b h => ?_
    · have hst := h.1
      simp only [okReceivedM1, Bool.and_eq_true, beq_iff_eq] at hst
      exact ⟨n, rfl, hst.1.1, h.2.1, h.2.2⟩
    · have hst := h.1
      simp only [okReceivedM1, Bool.and_eq_true, beq_iff_eq] at hst
      exact ⟨h.2.2.2, h.2.1, Or.inl ⟨n, rfl, hst.1.1, h.2.2.1⟩⟩
  case process2 m =>
    obtain ⟨r0, h0, hr⟩ := mapOut_cases h
    refine ((message2Process_agr h0 (defined_mapOut hd hr)).mono (fun a b h => Or.inr (Or.inl ?_)) fun a b h => h.elim).more
    · have hst := h.1
      simp only [okWaitM2, Bool.and_eq_true, beq_iff_eq] at hst
      exact ⟨m, rfl, hst.1.1, h.2.1, h.2.2⟩
  case compose3 n =>
    obtain ⟨r0, h0, hr⟩ := mapOut_cases h
    refine (message3Compose_agr h0 (defined_mapOut hd hr)).mono (fun a b h => h.elim) fun a b h => ?_
    have hst := h.1
    simp only [okVerifiedM2, Bool.and_eq_true, beq_iff_eq] at hst
    exact ⟨h.2.2.2, h.2.1, Or.inr ⟨n, rfl, hst.1.1, h.2.2.1⟩⟩
  case process3 m =>
    obtain ⟨r0, h0, hr⟩ := mapOut_cases h
    refine ((message3Process_agr h0 (defined_mapOut hd hr)).mono (fun a b h => Or.inr (Or.inr ?_)) fun a b h => h.elim).more
    · have hst := h.1
      simp only [okWaitM3, Bool.and_eq_true, beq_iff_eq] at hst
      exact ⟨m, rfl, hst.1.1, h.2.1, h.2.2⟩

/-- **C73** (what a private key is used for). In any API call, in any state and however the call ends: the static
private key takes part in at most one key agreement. If it does, then the call composes the party's own authenticated
message, the method has the party authenticate with a static key, the key is the one that the credentials callback
returned in this call, and it is combined with the ephemeral public key the peer sent. Every other key agreement is
one that `UsesEphemeral` lists. -/
theorem C73_used {o : Op} {s s' : St σ} {r : Res Out} (h : step E cfg o s = (r, s')) (hd : r.Defined) :
    (statics (during s s')).length ≤ 1 ∧
    (∀ kid peer, (kid, peer) ∈ statics (during s s') → UsesStatic o s.ctx (during s s') kid peer) ∧
    ∀ priv peer, (priv, peer) ∈ ephemerals (during s s') → UsesEphemeral o s.ctx (during s s') priv peer := by
  have ha := (step_agr h hd).during
  exact ⟨ha.statics_spec.1, fun kid peer hp => ha.statics_spec.2 _ hp, fun priv peer hp => ha.ephemerals_spec _ hp⟩

/-! ## Once per session -/

theorem static_beyond {o : Op} {s s' : St σ} {r : Res Out} (h : step E cfg o s = (r, s')) (hd : r.Defined)
    (hv : statics (during s s') ≠ []) : beyond s.ctx.status = false ∧ beyond s'.ctx.status = true := by
  obtain ⟨p, hp⟩ := List.exists_mem_of_ne_nil _ hv
  have hu := (C73_used h hd).2.1 p.1 p.2 hp
  have ne : s' ≠ s := by rintro rfl; rw [during_self] at hp; simp [statics] at hp
  have key : ∀ {k : Call}, callOf o = some k → (k = .compose2 ∨ k = .compose3) → beyond s'.ctx.status = true := by
    intro k hk hkk
    rcases step_message hk h hd with ⟨_, _, h1⟩ | ⟨_, _, _, h1⟩ | ⟨_, ho, _, _, c, _, h1⟩ | ⟨_, ho, _, _, h1⟩
    · exact absurd h1 ne
    · exact absurd h1 ne
    · have h2 : s'.ctx.status = .aborted := (congrArg Ctx.status h1 :)
      rw [h2]; rfl
    · have h2 : s'.ctx.status = nextOf k := (congrArg Ctx.status h1 :)
      rw [h2]; rcases hkk with rfl | rfl <;> rfl
  rcases hu.2.2 with ⟨n, rfl, h1, _⟩ | ⟨n, rfl, h1, _⟩
  · exact ⟨by rw [h1]; rfl, key rfl (Or.inl rfl)⟩
  · exact ⟨by rw [h1]; rfl, key rfl (Or.inr rfl)⟩

theorem static_split {o : Op} {s s1 s' : St σ} {r : Res Out} {h : History} (h1 : step E cfg o s = (r, s1))
    (hd : r.Defined) (hr : Run E cfg s1 h s') :
    statics (during s s') = statics (during s s1) ++ statics (during s1 s') := by
  rw [during_split (step_grow h1 hd) (run_grow hr)]
  exact (step_agr h1 hd).during.statics_append _

theorem ephemeral_split {o : Op} {s s1 s' : St σ} {r : Res Out} {h : History} (h1 : step E cfg o s = (r, s1))
    (hd : r.Defined) (hr : Run E cfg s1 h s') :
    ephemerals (during s s') = ephemerals (during s s1) ++ ephemerals (during s1 s') := by
  rw [during_split (step_grow h1 hd) (run_grow hr)]
  exact (step_agr h1 hd).during.ephemerals_append _

theorem static_never {s s' : St σ} {h : History} (hr : Run E cfg s h s') (hn : ∀ p ∈ h, restarts p.1 = false)
    (hb : beyond s.ctx.status = true) : statics (during s s') = [] := by
  induction hr with
  | nil s => rw [during_self]; rfl
  | cons h1 hd hr ih =>
    have hs : restarts _ = false := hn _ (List.mem_cons_self ..)
    rw [static_split h1 hd hr, ih (fun p hp => hn p (List.mem_cons_of_mem _ hp)) (beyond_step hs h1 hd hb),
      List.append_nil]
    refine Classical.byContradiction fun hv => ?_
    rw [(static_beyond h1 hd hv).1] at hb; cases hb

/-- **C73** (once). Between two initialisations of a context the static private key takes part in at most one key
agreement, whatever calls are made, in which order, and however they end. -/
theorem C73_once {s s' : St σ} {h : History} (hr : Run E cfg s h s') (hn : ∀ p ∈ h, restarts p.1 = false) :
    (statics (during s s')).length ≤ 1 := by
  induction hr with
  | nil s => rw [during_self]; simp [statics]
  | @cons s s1 s2 o r h h1 hd hr ih =>
    rw [static_split h1 hd hr, List.length_append]
    by_cases hv : statics (during s s1) = []
    · have := ih fun p hp => hn p (List.mem_cons_of_mem _ hp)
      rw [hv]; simpa using this
    · have h2 := static_never hr (fun p hp => hn p (List.mem_cons_of_mem _ hp)) (static_beyond h1 hd hv).2
      have h3 := (C73_used h1 hd).1
      rw [h2]; simpa using h3

/-! ## Sessions -/

/-- the keys of the key agreements -/
def Ctx.agreement (c : Ctx) : Bytes × Bytes × Nat := (c.dhPriv, c.dhPeerPub, c.chosenMethod)

theorem agreement_keep {c c' : Ctx} (h : c'.keep = c.keep) : c'.agreement = c.agreement := by
  have h1 : c'.dhPriv = c.dhPriv := (congrArg Ctx.dhPriv h :)
  have h2 : c'.dhPeerPub = c.dhPeerPub := (congrArg Ctx.dhPeerPub h :)
  have h3 : c'.chosenMethod = c.chosenMethod := (congrArg Ctx.chosenMethod h :)
  simp only [Ctx.agreement, h1, h2, h3]

theorem agreement_other {o : Op} (hk : callOf o = none) (hr : restarts o = false) {s s' : St σ} {r : Res Out}
    (h : step E cfg o s = (r, s')) (hd : r.Defined) : s'.ctx.agreement = s.ctx.agreement := by
  by_cases hs : isSetter o = true
  · rcases C30_setters (E := E) (cfg := cfg) hs s with ⟨_, _, c', h1, h2⟩ | ⟨_, e, _, h1⟩
    · rw [h] at h1
      simp only [Prod.mk.injEq] at h1
      rw [h1.2]
      cases o <;> simp only [Stored] at h2
      case setSuites => rw [h2.2.2]; rfl
      all_goals (subst h2; rfl)
    · rw [h] at h1
      simp only [Prod.mk.injEq] at h1
      rw [h1.2]
  · cases o <;> simp only [restarts, Bool.true_eq_false] at hr <;> simp only [isSetter, not_true_eq_false] at hs <;>
      simp only [callOf, reduceCtorEq] at hk
    case nullArg =>
      simp only [step, M.fail, Prod.mk.injEq] at h
      rw [h.2]
    case exportSecret l n =>
      obtain ⟨r0, h0, hr0⟩ := mapOut_cases h
      have h1 := exportSecret_mod E cfg l n s
      rw [h0] at h1
      exact agreement_keep (h1 (defined_mapOut hd hr0)).2.1
    case keyUpdate b =>
      obtain ⟨r0, h0, ⟨a, rfl, rfl⟩ | ⟨e, rfl, rfl⟩ | ⟨u, rfl, rfl⟩⟩ := mapOut_cases h
      · obtain ⟨_, _, _, hq, p, q, kid, _, _, _, _, hc⟩ := keyUpdate_ok h0
        rw [hc]; rfl
      · exact agreement_keep (keyUpdate_err E cfg h0).2.1
      · simp at hd
    case exportOscore a b c d =>
      obtain ⟨r0, h0, hr0⟩ := mapOut_cases h
      have h1 := exportOscore_mod E cfg a b c d s
      rw [h0] at h1
      exact agreement_keep (h1 (defined_mapOut hd hr0)).2.1
    case getCode => rw [getCode_state h]
    case getSuites a b => rw [getSuites_state h hd]

/-- what a session knows about its keys -/
structure HoldsPair (log : List Ev) (h : History) (s : St σ) : Prop where
  gx : s.ctx.status = .receivedM1 → s.ctx.dhPeerPub = [] ∨ ∃ m1 l, (.process1 m1, .ok .unit) ∈ h ∧
    StartsMessage1 s.ctx.chosenMethod l s.ctx.dhPeerPub m1
  gy : s.ctx.status = .verifiedM2 → ∃ m2 ct, (.process2 m2, .ok .unit) ∈ h ∧ StartsBstr (s.ctx.dhPeerPub ++ ct) m2
  own : s.ctx.status = .waitM2 ∨ s.ctx.status = .waitM3 → ∃ pub, KeyPairCall (sessionCalls log s) s.ctx.dhPriv pub

theorem session_split {e : σ} {log : List Ev} {h : History} {s s' : St σ} (hs : Session E cfg e log h s) (g : Grow s s') :
    sessionCalls log s' = sessionCalls log s ++ during s s' :=
  during_split (s := ⟨Ctx.fresh, e, log⟩) (run_grow hs.1) g

theorem session_holds {e : σ} {log : List Ev} : ∀ {h : History} {s : St σ}, Session E cfg e log h s → HoldsPair log h s := by
  refine session_ind ⟨fun q => (nomatch q), fun q => (nomatch q), fun q => by rcases q with q | q <;> cases q⟩ ?_
  intro h s o r s' hs ih h1 hd hr
  have g := step_grow h1 hd
  have sp := session_split hs g
  have i1 : sessionCalls log s <:+: sessionCalls log s' := by rw [sp]; exact (List.prefix_append _ _).isInfix
  have i2 : during s s' <:+: sessionCalls log s' := by rw [sp]; exact (List.suffix_append _ _).isInfix
  have same : s'.ctx.status = s.ctx.status → s'.ctx.agreement = s.ctx.agreement → HoldsPair log (h ++ [(o, r)]) s' := by
    intro e1 e2
    simp only [Ctx.agreement, Prod.mk.injEq] at e2
    obtain ⟨e2, e3, e4⟩ := e2
    refine ⟨fun q => ?_, fun q => ?_, fun q => ?_⟩
    · rw [e1] at q
      rw [e3, e4]
      rcases ih.gx q with q | ⟨m1, l, q1, q2⟩
      · exact Or.inl q
      · exact Or.inr ⟨m1, l, List.mem_append_left _ q1, q2⟩
    · rw [e1] at q
      rw [e3]
      obtain ⟨m2, ct, q1, q2⟩ := ih.gy q
      exact ⟨m2, ct, List.mem_append_left _ q1, q2⟩
    · rw [e1] at q
      rw [e2]
      obtain ⟨pub, q⟩ := ih.own q
      exact ⟨pub, q.mono i1⟩
  have no : s'.ctx.status = .aborted → HoldsPair log (h ++ [(o, r)]) s' := by
    intro e1
    refine ⟨fun q => ?_, fun q => ?_, fun q => ?_⟩ <;> rw [e1] at q
    · cases q
    · cases q
    · rcases q with q | q <;> cases q
  cases hk : callOf o with
  | none =>
    have ha := agreement_other hk hr h1 hd
    obtain ⟨_, _, h3⟩ := step_other hk hr h1 hd
    rcases h3 with ⟨h3, _⟩ | ⟨_, _, _, _, _, h3, _⟩ | ⟨_, _, _, _, _, _, _, _, h3, _⟩ | ⟨_, _, h3, _⟩
    · exact same h3 ha
    · exact same h3 ha
    · exact same h3 ha
    · exact no h3
  | some k =>
    rcases step_message hk h1 hd with ⟨_, _, rfl⟩ | ⟨_, _, _, rfl⟩ | ⟨_, ho, _, _, c, _, h2⟩ | ⟨_, ho, ⟨x, rfl⟩, _, h2⟩
    · exact same rfl rfl
    · exact same rfl rfl
    · exact no (congrArg Ctx.status h2 :)
    · have st : s'.ctx.status = nextOf k := (congrArg Ctx.status h2 :)
      cases k
      case process1 =>
        obtain ⟨m1, rfl, rfl, q⟩ := step_process1 hk h1
        obtain ⟨_, _, _, m, me, p, th, rfl, _, q1, _, _, _, _, _, q2⟩ := message1Process_ok q
        refine ⟨fun _ => ?_, fun q => ?_, fun q => ?_⟩
        · rw [q2]
          by_cases h0 : (getMsg1 cfg.dec m1).2.gx = []
          · exact Or.inl h0
          · refine Or.inr ⟨m1, (getMsg1 cfg.dec m1).2.suites, by simp, ?_⟩
            have := getMsg1_start (d := cfg.dec) (b := m1) h0
            rw [← q1] at this
            exact this
        · rw [st] at q; cases q
        · rw [st] at q; rcases q with q | q <;> cases q
      case process2 =>
        obtain ⟨m2, rfl, rfl, q⟩ := step_process2 hk h1
        obtain ⟨gy, ctxt, cid, p, id, pk, v, c2⟩ := message2Process_ok q
        refine ⟨fun q => ?_, fun _ => ?_, fun q => ?_⟩
        · rw [st] at q; cases q
        · rw [c2.ctx]
          exact ⟨m2, ctxt, by simp, getMsgBstr_sound c2.parsed⟩
        · rw [st] at q; rcases q with q | q <;> cases q
      case compose1 =>
        obtain ⟨n, m1, rfl, rfl, q⟩ := step_compose1 hk h1
        obtain ⟨_, _, _, _, priv, pub, kid, ts, th, _, _, _, _, w, _, _, _, _, c⟩ := message1Compose_ok q
        refine ⟨fun q => ?_, fun q => ?_, fun _ => ?_⟩
        · rw [st] at q; cases q
        · rw [st] at q; cases q
        · rw [c]
          exact ⟨pub, KeyPairCall.mono i2 ⟨kid, w.made⟩⟩
      case compose2 =>
        obtain ⟨n, m2, rfl, rfl, q⟩ := step_compose2 hk h1
        obtain ⟨priv, pub, kid, v, c2⟩ := message2Compose_ok q
        obtain ⟨k, hk⟩ := c2.keyPair
        refine ⟨fun q => ?_, fun q => ?_, fun _ => ?_⟩
        · rw [st] at q; cases q
        · rw [st] at q; cases q
        · rw [c2.ctx]
          exact ⟨pub, KeyPairCall.mono i2 ⟨k, List.IsInfix.trans ⟨[.importKey .makeKeyPair [] (some k)], [], rfl⟩ hk.made⟩⟩
      all_goals
        refine ⟨fun q => ?_, fun q => ?_, fun q => ?_⟩ <;> rw [st] at q
        · cases q
        · cases q
        · rcases q with q | q <;> cases q

/-- **C73** (sessions). In a session the static private key is combined only with an ephemeral public key from a message
that the party accepted in this session, and every other private key that takes part in a key agreement was made in
this session. -/
theorem C73_session {e : σ} {log : List Ev} {h : History} {s s' : St σ} (hs : Session E cfg e log h s) {o : Op}
    {r : Res Out} (h1 : step E cfg o s = (r, s')) (hd : r.Defined) :
    (∀ kid peer, (kid, peer) ∈ statics (during s s') → peer ≠ [] → FromPeer h peer) ∧
    ∀ priv peer, (priv, peer) ∈ ephemerals (during s s') → ∃ pub, KeyPairCall (sessionCalls log s') priv pub := by
  have ih := session_holds hs
  have sp := session_split hs (step_grow h1 hd)
  have i1 : sessionCalls log s <:+: sessionCalls log s' := by rw [sp]; exact (List.prefix_append _ _).isInfix
  have i2 : during s s' <:+: sessionCalls log s' := by rw [sp]; exact (List.suffix_append _ _).isInfix
  obtain ⟨_, u1, u2⟩ := C73_used h1 hd
  refine ⟨fun kid peer hp h0 => ?_, fun priv peer hp => ?_⟩
  · obtain ⟨_, rfl, ⟨n, rfl, st, hm⟩ | ⟨n, rfl, st, hm⟩⟩ := u1 kid peer hp
    · rcases ih.gx st with q | ⟨m1, l, q1, q2⟩
      · exact absurd q h0
      · exact Or.inl ⟨m1, l, _, q1, q2, hm⟩
    · exact Or.inr (ih.gy st)
  · rcases u2 priv peer hp with ⟨n, rfl, st, _, pub, hk⟩ | ⟨m, rfl, st, rfl, _⟩ | ⟨m, rfl, st, rfl, _⟩
    · exact ⟨pub, hk.mono i2⟩
    · obtain ⟨pub, hk⟩ := ih.own (Or.inl st)
      exact ⟨pub, hk.mono i1⟩
    · obtain ⟨pub, hk⟩ := ih.own (Or.inr st)
      exact ⟨pub, hk.mono i1⟩

/-! ## The hypotheses are met -/

/-- A party uses its static key exactly in the methods in which it does not sign. In method 3 the Responder, in its ninth
call, combines it with the G_X of the message it accepted; both parties then use their ephemeral keys twice. -/
example :
    [0, 1, 2, 3].map (fun m => (statics (Toy.after Toy.bob (Toy.callsR m)).log).length) = [0, 1, 0, 1] ∧
    [0, 1, 2, 3].map (fun m => (statics (Toy.after Toy.alice (Toy.callsI m)).log).length) = [0, 0, 1, 1] ∧
    (ephemerals (Toy.after Toy.bob (Toy.callsR 3)).log).length = 2 ∧
    (ephemerals (Toy.after Toy.alice (Toy.callsI 3)).log).length = 2 ∧
    (ephemerals (Toy.after Toy.bob (Toy.callsR 0)).log).length = 1 ∧
    statics (during (Toy.after Toy.bob (Toy.callsR 3 |>.take 8)) (Toy.after Toy.bob (Toy.callsR 3 |>.take 9))) =
      [([0, 23], (Toy.after Toy.bob (Toy.callsR 3 |>.take 8)).ctx.dhPeerPub)] ∧
    (Toy.after Toy.bob (Toy.callsR 3 |>.take 8)).ctx.dhPeerPub = [0, 124] := by
  decide +kernel

end Verif
