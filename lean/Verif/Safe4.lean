import Verif.Safe3
import Verif.Phase
import Verif.OnCtx

/-!
# Runs without undefined behaviour: sessions, and the calls after the handshake
-/

namespace Verif

open M Spec

variable {σ α β : Type} {E : Env σ} {cfg : Config}

/-! ## The stored transcript hash fits its array -/

/-- the transcript hash of a live session fits its array -/
def ThFits (cfg : Config) (c : Ctx) : Prop := c.status = .aborted ∨ c.th.length ≤ cfg.maxMac

theorem thFits_compose1 {n : Nat} {m : Bytes} {s s' : St σ} (h : message1Compose E cfg n s = (.ok m, s')) :
    s'.ctx.th.length ≤ cfg.maxMac := by
  unfold message1Compose at h
  iterate 18 obtain ⟨_, _, _, h⟩ := bind_ok.1 h
  obtain ⟨th, s1, h1, h⟩ := bind_ok.1 h
  obtain ⟨_, s2, h2, h⟩ := bind_ok.1 h
  obtain ⟨rfl, rfl⟩ := pure_ok.1 h
  obtain ⟨_, l1, l2, _⟩ := hashTh_ok h1
  obtain ⟨⟨c2, _⟩, _⟩ := modCtx_st.1 h2
  rw [c2]
  show th.length ≤ _
  omega

theorem thFits_process1 {b : Bytes} {u : Unit} {s s' : St σ} (h : message1Process E cfg b s = (.ok u, s')) :
    s'.ctx.th.length ≤ cfg.maxMac := by
  unfold message1Process at h
  iterate 14 obtain ⟨_, _, _, h⟩ := bind_ok.1 h
  obtain ⟨th, s1, h1, h⟩ := bind_ok.1 h
  obtain ⟨_, l1, l2, _⟩ := hashTh_ok h1
  obtain ⟨⟨c2, _⟩, _⟩ := modCtx_st.1 h
  rw [c2]
  show th.length ≤ _
  omega

theorem thFits_stored {c c' : Ctx} {o : Op} (h : ThFits cfg c) (hs : Stored c c' o) : ThFits cfg c' := by
  cases o <;> simp only [Stored] at hs
  case setMethods => subst hs; exact h
  case setSuites => rw [hs.2.2]; exact h
  case setCid => subst hs; exact h
  case setUserCtx => subst hs; exact h
  case bindEad => subst hs; exact h
  case bindKeys => subst hs; exact h
  case bindCrypto => subst hs; exact h
  case bindCred => subst hs; exact h

theorem thFits_message {o : Op} {k : Call} {s s' : St σ} {x : Out} (hk : callOf o = some k)
    (h : step E cfg o s = (.ok x, s')) (hp : ThFits cfg s.ctx) : ThFits cfg s'.ctx := by
  cases k
  case compose1 =>
    obtain ⟨n, m, rfl, rfl, c⟩ := step_compose1 hk h
    exact Or.inr (thFits_compose1 c)
  case process1 =>
    obtain ⟨m, rfl, rfl, c⟩ := step_process1 hk h
    exact Or.inr (thFits_process1 c)
  case compose2 =>
    obtain ⟨n, m, rfl, rfl, c⟩ := step_compose2 hk h
    obtain ⟨_, _, _, _, h1⟩ := message2Compose_ok c
    rw [h1.ctx]; exact Or.inr (by show (overlay _ _ _).length ≤ _; rw [overlay, fitLen_length]; exact h1.hashMax)
  case process2 =>
    obtain ⟨m, rfl, rfl, c⟩ := step_process2 hk h
    obtain ⟨_, _, _, _, _, _, _, h1⟩ := message2Process_ok c
    rw [h1.ctx]; exact Or.inr (by show (overlay _ _ _).length ≤ _; rw [overlay, fitLen_length]; exact h1.hashMax)
  case compose3 =>
    obtain ⟨n, m, rfl, rfl, c⟩ := step_compose3 hk h
    obtain ⟨_, _, h1⟩ := message3Compose_ok c
    rw [h1.ctx]; exact Or.inr (h1.th4Len ▸ h1.hashMax)
  case process3 =>
    obtain ⟨m, rfl, rfl, c⟩ := step_process3 hk h
    obtain ⟨_, _, _, _, h1⟩ := message3Process_ok c
    rw [h1.ctx]; exact Or.inr (h1.th4Len ▸ h1.hashMax)
  case compose4 =>
    obtain ⟨n, m, rfl, rfl, c⟩ := step_compose4 hk h
    obtain ⟨_, _, _, _, _, h1⟩ := message4Compose_ok c
    have h2 := h1.state
    unfold okCompleted at h2
    simp only [Bool.and_eq_true, beq_iff_eq] at h2
    rw [h1.ctx]
    exact Or.inr (hp.resolve_left fun h => by rw [h] at h2; simp at h2)
  case process4 =>
    obtain ⟨m, rfl, rfl, c⟩ := step_process4 hk h
    obtain ⟨_, _, _, _, h1⟩ := message4Process_ok c
    have h2 := h1.state
    unfold okCompleted at h2
    simp only [Bool.and_eq_true, beq_iff_eq] at h2
    rw [h1.ctx]
    exact Or.inr (hp.resolve_left fun h => by rw [h] at h2; simp at h2)

theorem thFits_step {o : Op} {s s' : St σ} {r : Res Out} (h : step E cfg o s = (r, s')) (hd : r.Defined)
    (hr : restarts o = false) (hp : ThFits cfg s.ctx) : ThFits cfg s'.ctx := by
  cases hk : callOf o with
  | some k =>
    rcases step_message hk h hd with ⟨_, _, rfl⟩ | ⟨_, _, _, rfl⟩ | ⟨_, _, _, _, _, _, hc⟩ | ⟨_, ho, ⟨a, rfl⟩, _⟩
    · exact hp
    · exact hp
    · exact Or.inl (ctl1_proj hc).2.1
    · exact thFits_message hk h hp
  | none =>
    by_cases hs : isSetter o = true
    · rcases C30_setters (E := E) (cfg := cfg) hs s with ⟨_, _, c', h1, h2⟩ | ⟨_, e, _, h1⟩
      · rw [h] at h1
        simp only [Prod.mk.injEq] at h1
        rw [h1.2]; exact thFits_stored hp h2
      · rw [h] at h1
        simp only [Prod.mk.injEq] at h1
        rwa [h1.2]
    · cases o <;> simp only [callOf, reduceCtorEq] at hk <;> simp only [restarts, Bool.true_eq_false] at hr <;>
        simp only [isSetter, not_true_eq_false] at hs
      case nullArg =>
        simp only [step, M.fail, Prod.mk.injEq] at h
        rwa [← h.2]
      case exportSecret l n =>
        obtain ⟨r0, h0, hr0⟩ := step_export h
        have := exportSecret_pres E cfg l n s
        rw [h0] at this
        have hc : OutCtx s s' := this (by rcases hr0 with ⟨a, rfl, _⟩ | ⟨e, rfl, _⟩ | ⟨u, rfl, rfl⟩ <;> simp_all)
        rcases hc.2 with h1 | ⟨h1, _, p, _, _, h2, _⟩
        · rwa [h1]
        · rw [h2]; exact hp
      case keyUpdate b =>
        obtain ⟨r0, h0, ⟨a, rfl, rfl⟩ | ⟨e, rfl, rfl⟩ | ⟨u, rfl, rfl⟩⟩ := step_update h
        · obtain ⟨_, _, _, hq, p, q, kid, _, _, _, _, hc⟩ := keyUpdate_ok h0
          rw [hc]; exact hp
        · rcases keyUpdate_outcome E cfg b h0 (by simp) with ⟨_, _, rfl⟩ | ⟨_, _, _, rfl⟩ | ⟨_, _, ⟨_, hc⟩ | ⟨⟨_, ha⟩, _⟩⟩
          · exact hp
          · exact hp
          · exact Or.inl (by have hh := congrArg Ctx.status hc; exact hh)
          · cases ha
        · simp at hd
      case exportOscore a b c d =>
        obtain ⟨r0, h0, ⟨x, rfl, rfl⟩ | ⟨e, rfl, rfl⟩ | ⟨u, rfl, rfl⟩⟩ := step_oscore h
        · obtain ⟨_, _, _, _, _, _, _, _, _, hq, p, x1, x2, _, _, hc, _⟩ := exportOscore_ok h0
          rw [hc]; exact hp
        · rcases exportOscore_outcome E cfg a b c d h0 (by simp) with
            ⟨_, _, rfl⟩ | ⟨_, _, _, rfl⟩ | ⟨_, _, ⟨_, hc⟩ | ⟨⟨_, ha⟩, _⟩⟩
          · exact hp
          · exact hp
          · exact Or.inl (by have hh := congrArg Ctx.status hc; exact hh)
          · cases ha
        · simp at hd
      case getCode => rwa [getCode_state h]
      case getSuites a b => rwa [getSuites_state h hd]

theorem session_thFits {e : σ} {log : List Ev} {h : History} {s : St σ} (hs : Session E cfg e log h s) :
    ThFits cfg s.ctx :=
  session_ind (E := E) (cfg := cfg) (P := fun _ s => ThFits cfg s.ctx) (Or.inr (Nat.zero_le _))
    (fun _ _ _ _ _ _ hp h hd hr => thFits_step h hd hr hp) hs

theorem okOf_live {k : Call} {c : Ctx} (h : okOf k c = true) : c.status ≠ .aborted := by
  intro ha
  cases k <;> simp [okOf, okStart, okReceivedM1, okWaitM2, okVerifiedM2, okWaitM3, okCompleted, ha] at h

/-- a session whose next message call is accepted -/
theorem session_found {e : σ} {log : List Ev} {h : History} {s : St σ} (hs : Session E cfg e log h s)
    (hb : AllBound s.ctx) {k : Call} (ho : okOf k s.ctx = true) : Found cfg s.ctx where
  keys := hb.1
  crypto := hb.2.1
  cred := hb.2.2
  th := (session_thFits hs).resolve_left (okOf_live ho)
  ead := session_ead hs (okOf_live ho)
  cid := session_ownCid hs

theorem session_suiteLen {e : σ} {log : List Ev} {h : History} {s : St σ} (hs : Session E cfg e log h s) :
    s.ctx.csuiteLen ≤ cfg.maxSuites := by
  refine session_conf (E := E) (cfg := cfg) (P := fun c => c.csuiteLen ≤ cfg.maxSuites) (Nat.zero_le _) ?_ hs
  intro c c' o hd ho hc
  cases o <;> simp only [Stored] at ho
  case setMethods => subst ho; exact hc
  case setSuites => simp only [documented] at hd; show c'.csuiteLen ≤ _; rw [ho.2.1]; exact hd.2
  case setCid => subst ho; exact hc
  case setUserCtx => subst ho; exact hc
  case bindEad => subst ho; exact hc
  case bindKeys => subst ho; exact hc
  case bindCrypto => subst ho; exact hc
  case bindCred => subst ho; exact hc

theorem limits_getD {c : Ctx} (hf : SuitesFit cfg c) (hm : SmallMaxima cfg) (i : Nat) :
    Limits cfg (c.csuiteArr.getD i Suite.zero) := by
  by_cases hi : i < c.csuiteArr.length
  · have : c.csuiteArr.getD i Suite.zero ∈ c.csuiteArr := by
      rw [List.getD_eq_getElem?_getD, List.getElem?_eq_getElem hi]; exact List.getElem_mem hi
    exact ⟨(hf _ this).1, (hf _ this).2, hm⟩
  · have : c.csuiteArr.getD i Suite.zero = Suite.zero := by
      rw [List.getD_eq_getElem?_getD, List.getElem?_eq_none (by omega)]; rfl
    rw [this]
    exact ⟨Nat.zero_le _, Nat.zero_le _, hm⟩

/-! ## Exporter and key update -/

/-- the callbacks these calls need are bound -/
def Armed (c : Ctx) : Prop := c.hasKeys = true ∧ c.hasCrypto = true

/-- `Keep` for the calls after the handshake -/
abbrev Derives (cfg : Config) (m : M σ α) : Prop := Keep Armed (StackFault cfg) m (fun _ => True)

theorem Derives.memAlloc (n : Nat) : Derives cfg (Verif.memAlloc E cfg n) := by
  unfold Verif.memAlloc
  split
  · rename_i hb
    refine (Keep.guardLax ⟨hb, Or.inl rfl⟩).bind fun _ _ => Keep.guardLax ⟨hb, Or.inr rfl⟩
  · exact (Keep.call _ _).bind fun _ _ => (Keep.require _ _).any

theorem Derives.needKeys : Derives cfg (Verif.needKeys : M σ Unit) := Keep.getCtx.bind fun _ h => Keep.guardUB _ h.1
theorem Derives.needCrypto : Derives cfg (Verif.needCrypto : M σ Unit) := Keep.getCtx.bind fun _ h => Keep.guardUB _ h.2

theorem Derives.expandInfo (n : Nat) (p : Bytes) (l : Nat) (b : Bytes) (i j : Nat) :
    Derives cfg (Verif.expandInfo E n p l b i j) := by
  unfold Verif.expandInfo Verif.withKey Verif.importKey Verif.destroyKey Verif.expand
  refine (Keep.ofOption _ _).bind fun _ _ => Keep.bind (Q := fun _ => True) ?_ fun _ _ => (Keep.ofOption _ _).any
  refine (Derives.needKeys.bind fun _ _ => (Keep.call _ _).any).bind fun _ _ => (Keep.ofOption _ _).bind fun _ _ => ?_
  refine (Derives.needCrypto.bind fun _ _ => (Keep.call _ _).any).bind fun _ _ => ?_
  exact (Derives.needKeys.bind fun _ _ => (Keep.call _ _).any).bind fun _ _ => (Keep.pure _).any

theorem Derives.ensurePrkOut : Derives cfg (Verif.ensurePrkOut E cfg) := by
  unfold Verif.ensurePrkOut Verif.compPrkOut
  refine Keep.getCtx.bind fun _ _ => Keep.whenM (Q := fun _ => True) _ fun _ => Keep.mapErr _ ?_
  refine Keep.getCtx.bind fun c _ => ?_
  dsimp only
  generalize 1 + (c.th.length + bstrOh c.th.length) + intMemReq (i32 c.suite.hash) = n
  refine (Keep.require _ _).bind fun _ _ => (Derives.memAlloc _).bind fun _ _ => ?_
  refine (Derives.expandInfo _ _ _ _ _ _).bind fun _ _ => ?_
  exact Keep.modCtx (fun _ h => ⟨h.1, h.2⟩)

theorem Derives.exportSecret (l n : Nat) : Derives cfg (Verif.exportSecret E cfg l n) := by
  unfold Verif.exportSecret
  refine (Keep.require _ _).bind fun _ _ => (Keep.require _ _).bind fun _ _ => Keep.getCtx.bind fun _ _ => ?_
  refine (Keep.require _ _).bind fun _ _ => Derives.ensurePrkOut.bind fun _ _ => (Derives.memAlloc _).bind fun _ _ => ?_
  refine (Keep.mapErr _ (Q := fun _ => True) ?_).bind fun _ _ => (Derives.memAlloc _).bind fun _ _ => Derives.expandInfo _ _ _ _ _ _
  unfold Verif.compPrkExporter
  exact Keep.getCtx.bind fun _ _ => (Keep.require _ _).bind fun _ _ => (Derives.memAlloc _).bind fun _ _ => Derives.expandInfo _ _ _ _ _ _

theorem Derives.keyUpdate (b : Bytes) : Derives cfg (Verif.keyUpdate E cfg b) := by
  unfold Verif.keyUpdate
  refine (Keep.require _ _).bind fun _ _ => Keep.getCtx.bind fun _ _ => (Keep.require _ _).bind fun _ _ => ?_
  refine (Keep.modCtx (fun _ h => ⟨h.1, h.2⟩)).bind fun _ _ => Derives.ensurePrkOut.bind fun _ _ => ?_
  refine (Keep.mapErr _ (Q := fun _ => True) ?_).bind fun _ _ => Keep.modCtx (fun _ h => ⟨h.1, h.2⟩)
  unfold Verif.compNewPrkOut
  refine Keep.getCtx.bind fun c _ => ?_
  dsimp only
  generalize 1 + (b.length + bstrOh b.length) + intMemReq (i32 c.suite.hash) = n
  refine (Keep.require _ _).bind fun _ _ => (Derives.memAlloc _).bind fun _ _ => ?_
  refine (Derives.expandInfo _ _ _ _ _ _).bind fun _ _ => ?_
  exact Keep.modCtx (fun _ h => ⟨h.1, h.2⟩)

theorem oscoreId_no_ub (n : Nat) (c : Cid) (u : UB) : oscoreId n c ≠ .ub u := by
  cases c <;> simp only [oscoreId, Res.ofOption] <;> split <;> simp

theorem Derives.exportOscore (a b c d : Nat) : Derives cfg (Verif.exportOscore E cfg a b c d) := by
  unfold Verif.exportOscore
  refine (Keep.require _ _).bind fun _ _ => Keep.getCtx.bind fun _ _ => (Keep.require _ _).bind fun _ _ => ?_
  refine (Keep.require _ _).bind fun _ _ => (Keep.modCtx (fun _ h => ⟨h.1, h.2⟩)).bind fun _ _ => ?_
  refine (Keep.mapErr _ (Derives.exportSecret _ _)).bind fun _ _ => (Keep.mapErr _ (Derives.exportSecret _ _)).bind fun _ _ => ?_
  refine (Keep.ofRes (oscoreId_no_ub _ _)).bind fun _ _ => (Keep.ofRes (oscoreId_no_ub _ _)).bind fun _ _ => ?_
  exact (Keep.modCtx (fun _ h => ⟨h.1, h.2⟩)).bind fun _ _ => (Keep.pure _).any

end Verif
