import Verif.OuterX
import Verif.Spec

/-!
# Summary of one API call
-/

namespace Verif

open M Spec

variable {σ α β γ : Type}

theorem mapOut_cases {m : M σ α} {f : α → Out} {s s' : St σ} {r : Res Out}
    (h : M.mapOut f m s = (r, s')) :
    ∃ r0, m s = (r0, s') ∧ ((∃ a, r0 = .ok a ∧ r = .ok (f a)) ∨ (∃ e, r0 = .err e ∧ r = .err e) ∨
      (∃ u, r0 = .ub u ∧ r = .ub u)) := by
  unfold M.mapOut at h
  simp only [Bind.bind, M.bind] at h
  rcases hm : m s with ⟨r0, s1⟩
  rw [hm] at h
  cases r0 with
  | ok a =>
    simp only [Pure.pure, M.ret, Prod.mk.injEq] at h
    obtain ⟨rfl, rfl⟩ := h
    exact ⟨_, rfl, Or.inl ⟨a, rfl, rfl⟩⟩
  | err e =>
    simp only [Prod.mk.injEq] at h
    obtain ⟨rfl, rfl⟩ := h
    exact ⟨_, rfl, Or.inr (Or.inl ⟨e, rfl, rfl⟩)⟩
  | ub u =>
    simp only [Prod.mk.injEq] at h
    obtain ⟨rfl, rfl⟩ := h
    exact ⟨_, rfl, Or.inr (Or.inr ⟨u, rfl, rfl⟩)⟩

/-- state check of a message call -/
def okOf : Call → Ctx → Bool
  | .compose1 | .process1 => okStart
  | .compose2 => okReceivedM1
  | .process2 => okWaitM2
  | .compose3 => okVerifiedM2
  | .process3 => okWaitM3
  | .compose4 | .process4 => okCompleted

/-- message of a message call -/
def msgOf : Call → Msg
  | .compose1 | .process1 => .msg1
  | .compose2 | .process2 => .msg2
  | .compose3 | .process3 => .msg3
  | .compose4 | .process4 => .msg4

/-- role a message call gives the context -/
def roleOf : Call → Role
  | .compose1 | .process2 | .compose3 | .process4 => .initiator
  | .process1 | .compose2 | .process3 | .compose4 => .responder

/-- status after a successful message call -/
def nextOf : Call → Status
  | .compose1 => .waitM2
  | .process1 => .receivedM1
  | .compose2 => .waitM3
  | .process2 => .verifiedM2
  | .compose3 | .process3 => .completed
  | .compose4 | .process4 => .persisted

/-- does the call complete the handshake? -/
def finOf : Call → Bool
  | .compose3 | .process3 => true
  | _ => false

/-- what an error code after a failed message call means -/
def CodeMeans (cfg : Config) (o : Op) (s s' : St σ) : ErrCode → Prop
  | .success => False
  | .unspecified => Quiet s s'
  | .wrongSuite => Quiet s s' ∧ ∃ b, o = .process1 b ∧ (getMsg1 cfg.dec b).2.suites.selected ≠
      some (s.ctx.csuiteArr.getD (s.ctx.csuiteLen - 1) Suite.zero).value
  | .unknownCred => ∃ c, Saw [.credVerify c none] s s'

/-- how a message call ends -/
def MsgStep (cfg : Config) (k : Call) (o : Op) (s : St σ) (r : Res Out) (s' : St σ) : Prop :=
  (usable o = false ∧ r = .err .invalidArgument ∧ s' = s) ∨
  (usable o = true ∧ okOf k s.ctx = false ∧ r = .err .badState ∧ s' = s) ∨
  (usable o = true ∧ okOf k s.ctx = true ∧ (∃ e, r = .err e) ∧ Grow s s' ∧
    ∃ code, CodeMeans cfg o s s' code ∧ s'.ctx.ctl1 = { s.ctx.ctl1 with
      status := .aborted, errorCode := code, message := msgOf k, role := roleOf k }) ∨
  (usable o = true ∧ okOf k s.ctx = true ∧ (∃ a, r = .ok a) ∧ Grow s s' ∧
    s'.ctx.ctl1 = { s.ctx.ctl1 with
      status := nextOf k, errorCode := .success, message := msgOf k, role := roleOf k
      oscoreAllowed := finOf k || s.ctx.oscoreAllowed })

theorem ctl1_eq (c : Ctx) : c.ctl1 = { c.ctl with chosenMethod := 0, chosenIdx := 0 } := rfl

theorem msgStep_of {cfg : Config} {k : Call} {o : Op} {arg : Bool} {f : M σ α} {g : α → Out}
    {R Q : St σ → St σ → Prop} (ha : arg = usable o)
    (ho : Outcome arg (okOf k) (msgOf k) (roleOf k) R Q f)
    (hR : ∀ s s', R (entered (msgOf k) (roleOf k) s) s' → Grow s s' ∧
      ∃ code, CodeMeans cfg o s s' code ∧ s'.ctx.ctl1 = { s.ctx.ctl1 with
        status := .aborted, errorCode := code, message := msgOf k, role := roleOf k })
    (hQ : ∀ s s', Q (entered (msgOf k) (roleOf k) s) s' → Grow s s' ∧
      s'.ctx.ctl1 = { s.ctx.ctl1 with
        status := nextOf k, errorCode := .success, message := msgOf k, role := roleOf k
        oscoreAllowed := finOf k || s.ctx.oscoreAllowed })
    {s s' : St σ} {r : Res Out} (h : M.mapOut g f s = (r, s')) (hd : r.Defined) :
    MsgStep cfg k o s r s' := by
  subst ha
  obtain ⟨r0, h0, hr⟩ := mapOut_cases h
  have hd0 : r0.Defined := by
    rcases hr with ⟨a, rfl, _⟩ | ⟨e, rfl, _⟩ | ⟨u, rfl, rfl⟩
    · simp
    · simp
    · simp at hd
  rcases ho s r0 s' h0 hd0 with ⟨h1, h2, h3⟩ | ⟨h1, h2, h3, h4⟩ | ⟨h1, h2, ⟨e, h3⟩, h4⟩ |
    ⟨h1, h2, ⟨a, h3⟩, h4⟩
  · subst h2
    rcases hr with ⟨a, h5, _⟩ | ⟨e, h5, rfl⟩ | ⟨u, h5, _⟩
    · cases h5
    · cases h5; exact Or.inl ⟨h1, rfl, h3⟩
    · cases h5
  · subst h3
    rcases hr with ⟨a, h5, _⟩ | ⟨e, h5, rfl⟩ | ⟨u, h5, _⟩
    · cases h5
    · cases h5; exact Or.inr (Or.inl ⟨h1, h2, rfl, h4⟩)
    · cases h5
  · subst h3
    rcases hr with ⟨a, h5, _⟩ | ⟨e, h5, rfl⟩ | ⟨u, h5, _⟩
    · cases h5
    · exact Or.inr (Or.inr (Or.inl ⟨h1, h2, ⟨_, rfl⟩, hR _ _ h4⟩))
    · cases h5
  · subst h3
    rcases hr with ⟨a, h5, rfl⟩ | ⟨e, h5, _⟩ | ⟨u, h5, _⟩
    · exact Or.inr (Or.inr (Or.inr ⟨h1, h2, ⟨_, rfl⟩, hQ _ _ h4⟩))
    · cases h5
    · cases h5

theorem rcred_code {cfg : Config} {o : Op} {m : Msg} {ro : Role} {s s' : St σ}
    (h : RCred (entered m ro s) s') : Grow s s' ∧
      ∃ code, CodeMeans cfg o s s' code ∧ s'.ctx.ctl1 = { s.ctx.ctl1 with
        status := .aborted, errorCode := code, message := m, role := ro } := by
  refine ⟨h.1, ?_⟩
  rcases h.2 with ⟨h2, q⟩ | ⟨h2, c, w⟩
  · refine ⟨.unspecified, q, ?_⟩
    rw [ctl1_eq, h2]; rfl
  · refine ⟨.unknownCred, ⟨c, w⟩, ?_⟩
    rw [ctl1_eq, h2]; rfl

theorem qdone_done {st : Status} {fin : Bool} {m : Msg} {ro : Role} {s s' : St σ}
    (h : QDone st fin (entered m ro s) s') : Grow s s' ∧
      s'.ctx.ctl1 = { s.ctx.ctl1 with
        status := st, errorCode := .success, message := m, role := ro
        oscoreAllowed := fin || s.ctx.oscoreAllowed } := by
  refine ⟨h.1, ?_⟩
  rw [ctl1_eq, h.2]; rfl

theorem step_message {E : Env σ} {cfg : Config} {o : Op} {k : Call} (hk : callOf o = some k)
    {s s' : St σ} {r : Res Out} (h : step E cfg o s = (r, s')) (hd : r.Defined) :
    MsgStep cfg k o s r s' := by
  cases o <;> simp only [callOf, Option.some.injEq, reduceCtorEq] at hk <;> subst hk <;>
    unfold step at h
  case compose1 n =>
    refine msgStep_of (k := .compose1) (o := .compose1 n) rfl (message1Compose_outcome E cfg n) ?_ ?_ h hd
    · intro s s' hr
      refine ⟨hr.1.grow, .unspecified, hr.1, ?_⟩
      rw [hr.2]; rfl
    · intro s s' hr
      refine ⟨hr.1, ?_⟩
      rw [hr.2]; rfl
  case process1 b =>
    refine msgStep_of (k := .process1) (o := .process1 b) rfl (message1Process_outcome E cfg b) ?_ ?_ h hd
    · intro s s' hr
      refine ⟨hr.1.grow, ?_⟩
      rcases hr.2 with h2 | ⟨n, h2⟩
      · exact ⟨.unspecified, hr.1, by rw [h2]; rfl⟩
      · exact ⟨.wrongSuite, ⟨hr.1, _, rfl, n⟩, by rw [h2]; rfl⟩
    · intro s s' hr
      refine ⟨hr.1, ?_⟩
      rw [hr.2]; rfl
  case compose2 n =>
    exact msgStep_of (k := .compose2) (o := .compose2 n) rfl (message2Compose_outcome E cfg n) (fun _ _ => rcred_code)
      (fun _ _ => qdone_done) h hd
  case process2 n =>
    exact msgStep_of (k := .process2) (o := .process2 n) rfl (message2Process_outcome E cfg n) (fun _ _ => rcred_code)
      (fun _ _ => qdone_done) h hd
  case compose3 n =>
    exact msgStep_of (k := .compose3) (o := .compose3 n) rfl (message3Compose_outcome E cfg n) (fun _ _ => rcred_code)
      (fun _ _ => qdone_done) h hd
  case process3 n =>
    exact msgStep_of (k := .process3) (o := .process3 n) rfl (message3Process_outcome E cfg n) (fun _ _ => rcred_code)
      (fun _ _ => qdone_done) h hd
  case compose4 n =>
    exact msgStep_of (k := .compose4) (o := .compose4 n) rfl (message4Compose_outcome E cfg n) (fun _ _ => rcred_code)
      (fun _ _ => qdone_done) h hd
  case process4 n =>
    exact msgStep_of (k := .process4) (o := .process4 n) rfl (message4Process_outcome E cfg n) (fun _ _ => rcred_code)
      (fun _ _ => qdone_done) h hd

/-! ## The other calls -/

/-- how a call that is not a message call and does not restart the session ends -/
def OtherStep (o : Op) (s : St σ) (r : Res Out) (s' : St σ) : Prop :=
  s'.ctx.errorCode = s.ctx.errorCode ∧ s'.ctx.isInit = s.ctx.isInit ∧
  ((s'.ctx.status = s.ctx.status ∧ s'.ctx.oscoreAllowed = s.ctx.oscoreAllowed ∧
      (∀ a b c d x, o = .exportOscore a b c d → r ≠ .ok x)) ∨
    (∃ b x, o = .keyUpdate b ∧ r = .ok x ∧ okUpdate s.ctx = true ∧
      s'.ctx.status = s.ctx.status ∧ s'.ctx.oscoreAllowed = true) ∨
    (∃ a b c d x, o = .exportOscore a b c d ∧ r = .ok x ∧ okOscore s.ctx = true ∧
      s'.ctx.status = s.ctx.status ∧ s'.ctx.oscoreAllowed = false) ∨
    (okUpdate s.ctx = true ∧ (∃ e, r = .err e) ∧ s'.ctx.status = .aborted ∧
      (s'.ctx.oscoreAllowed = true → s.ctx.oscoreAllowed = true)))

/-- a setter: some checks on the context, then an update -/
theorem setter_step {o : Op} {s s' : St σ} {r : Res Out} {m : M σ α} {g : α → Out}
    (hm : Pres (Keeps fun c => (c.errorCode, c.isInit, c.status, c.oscoreAllowed)) m)
    (hn : ∀ a b c d, o ≠ .exportOscore a b c d)
    (h : M.mapOut g m s = (r, s')) (hd : r.Defined) : OtherStep o s r s' := by
  have := Pres.mapOut (keeps_frame _) g hm s
  rw [h] at this
  have h2 := this hd
  simp only [Keeps, Prod.mk.injEq] at h2
  obtain ⟨h3, h4, h5, h6⟩ := h2
  exact ⟨h3, h4, Or.inl ⟨h5, h6, fun a b c d x ho => absurd ho (hn a b c d)⟩⟩

theorem ctl_proj {c c' : Ctx} (h : c'.ctl = c.ctl) : c'.errorCode = c.errorCode ∧
    c'.isInit = c.isInit ∧ c'.status = c.status ∧ c'.oscoreAllowed = c.oscoreAllowed :=
  ⟨(by have hh := congrArg Ctx.errorCode h; exact hh), (by have hh := congrArg Ctx.isInit h; exact hh), (by have hh := congrArg Ctx.status h; exact hh),
    (by have hh := congrArg Ctx.oscoreAllowed h; exact hh)⟩

theorem step_other {E : Env σ} {cfg : Config} {o : Op} (hk : callOf o = none)
    (hr : restarts o = false)
    {s s' : St σ} {r : Res Out} (h : step E cfg o s = (r, s')) (hd : r.Defined) :
    OtherStep o s r s' := by
  cases o <;> simp only [callOf, reduceCtorEq] at hk <;> simp only [restarts, reduceCtorEq] at hr <;>
    unfold step at h
  case nullArg =>
    simp only [M.fail, Prod.mk.injEq] at h
    obtain ⟨rfl, rfl⟩ := h
    exact ⟨rfl, rfl, Or.inl ⟨rfl, rfl, by simp⟩⟩
  case setMethods ms =>
    refine setter_step ?_ (by simp) h hd
    unfold Verif.setMethods
    repeat' first
    | with_reducible refine Pres.bind (keeps_frame _) ?_ (fun _ => ?_)
    | with_reducible exact Pres.getCtx (keeps_frame _)
    | with_reducible exact Pres.require (keeps_frame _) _ _
    | with_reducible exact Pres.guardUB (keeps_frame _) _ _
    | exact Pres.modCtx _ fun s => rfl
  case setSuites ms =>
    refine setter_step ?_ (by simp) h hd
    unfold Verif.setSuites
    repeat' first
    | with_reducible refine Pres.bind (keeps_frame _) ?_ (fun _ => ?_)
    | with_reducible exact Pres.getCtx (keeps_frame _)
    | with_reducible exact Pres.require (keeps_frame _) _ _
    | with_reducible exact Pres.guardUB (keeps_frame _) _ _
    | exact Pres.modCtx _ fun s => rfl
  case setCid ms =>
    refine setter_step ?_ (by simp) h hd
    unfold Verif.setCid
    repeat' first
    | with_reducible refine Pres.bind (keeps_frame _) ?_ (fun _ => ?_)
    | with_reducible exact Pres.getCtx (keeps_frame _)
    | with_reducible exact Pres.require (keeps_frame _) _ _
    | with_reducible exact Pres.guardUB (keeps_frame _) _ _
    | exact Pres.modCtx _ fun s => rfl
  case setUserCtx =>
    refine setter_step ?_ (by simp) h hd
    unfold Verif.setUserCtx
    repeat' first
    | with_reducible refine Pres.bind (keeps_frame _) ?_ (fun _ => ?_)
    | with_reducible exact Pres.getCtx (keeps_frame _)
    | with_reducible exact Pres.require (keeps_frame _) _ _
    | with_reducible exact Pres.guardUB (keeps_frame _) _ _
  case bindEad a b =>
    refine setter_step ?_ (by simp) h hd
    unfold Verif.bindEad
    repeat' first
    | with_reducible refine Pres.bind (keeps_frame _) ?_ (fun _ => ?_)
    | with_reducible exact Pres.getCtx (keeps_frame _)
    | with_reducible exact Pres.require (keeps_frame _) _ _
    | with_reducible exact Pres.guardUB (keeps_frame _) _ _
    | exact Pres.modCtx _ fun s => rfl
  case bindKeys b =>
    refine setter_step ?_ (by simp) h hd
    unfold Verif.bindKeys
    repeat' first
    | with_reducible refine Pres.bind (keeps_frame _) ?_ (fun _ => ?_)
    | with_reducible exact Pres.getCtx (keeps_frame _)
    | with_reducible exact Pres.require (keeps_frame _) _ _
    | with_reducible exact Pres.guardUB (keeps_frame _) _ _
    | exact Pres.modCtx _ fun s => rfl
  case bindCrypto b =>
    refine setter_step ?_ (by simp) h hd
    unfold Verif.bindCrypto
    repeat' first
    | with_reducible refine Pres.bind (keeps_frame _) ?_ (fun _ => ?_)
    | with_reducible exact Pres.getCtx (keeps_frame _)
    | with_reducible exact Pres.require (keeps_frame _) _ _
    | with_reducible exact Pres.guardUB (keeps_frame _) _ _
    | exact Pres.modCtx _ fun s => rfl
  case bindCred b =>
    refine setter_step ?_ (by simp) h hd
    unfold Verif.bindCred
    repeat' first
    | with_reducible refine Pres.bind (keeps_frame _) ?_ (fun _ => ?_)
    | with_reducible exact Pres.getCtx (keeps_frame _)
    | with_reducible exact Pres.require (keeps_frame _) _ _
    | with_reducible exact Pres.guardUB (keeps_frame _) _ _
    | exact Pres.modCtx _ fun s => rfl
  case getCode =>
    refine setter_step ?_ (by simp) h hd
    unfold errorGetCode
    repeat' first
    | with_reducible refine Pres.bind (keeps_frame _) ?_ (fun _ => ?_)
    | with_reducible exact Pres.getCtx (keeps_frame _)
    | with_reducible exact Pres.require (keeps_frame _) _ _
    | with_reducible exact Pres.guardUB (keeps_frame _) _ _
    | with_reducible exact Pres.pure (keeps_frame _) _
  case getSuites a b =>
    refine setter_step ?_ (by simp) h hd
    unfold errorGetSuites
    repeat' first
    | with_reducible refine Pres.bind (keeps_frame _) ?_ (fun _ => ?_)
    | with_reducible exact Pres.getCtx (keeps_frame _)
    | with_reducible exact Pres.require (keeps_frame _) _ _
    | with_reducible exact Pres.guardUB (keeps_frame _) _ _
    | with_reducible exact Pres.pure (keeps_frame _) _
  case exportSecret l n =>
    refine setter_step ?_ (by simp) h hd
    refine (exportSecret_rctl E cfg l n).mono fun s s' h => ?_
    obtain ⟨h1, h2, h3, h4⟩ := ctl_proj h.2
    simp only [Keeps, h1, h2, h3, h4]
  case keyUpdate b =>
    obtain ⟨r0, h0, hr0⟩ := mapOut_cases h
    have hd0 : r0.Defined := by
      rcases hr0 with ⟨a, rfl, _⟩ | ⟨e, rfl, _⟩ | ⟨u, rfl, rfl⟩
      · simp
      · simp
      · simp at hd
    rcases keyUpdate_outcome E cfg b h0 hd0 with ⟨_, _, rfl⟩ | ⟨_, _, _, rfl⟩ |
      ⟨_, ho, ⟨⟨e, rfl⟩, hc⟩ | ⟨⟨a, rfl⟩, hc⟩⟩
    · exact ⟨rfl, rfl, Or.inl ⟨rfl, rfl, by simp⟩⟩
    · exact ⟨rfl, rfl, Or.inl ⟨rfl, rfl, by simp⟩⟩
    · refine ⟨(by have hh := congrArg Ctx.errorCode hc; exact hh), (by have hh := congrArg Ctx.isInit hc; exact hh),
        Or.inr (Or.inr (Or.inr ⟨ho, ?_, (by have hh := congrArg Ctx.status hc; exact hh), ?_⟩))⟩
      · rcases hr0 with ⟨a, h5, _⟩ | ⟨e, h5, rfl⟩ | ⟨u, h5, _⟩
        · cases h5
        · exact ⟨_, rfl⟩
        · cases h5
      · intro hx
        have := (by have hh := congrArg Ctx.oscoreAllowed hc; exact hh)
        exact this.symm.trans hx
    · refine ⟨(by have hh := congrArg Ctx.errorCode hc; exact hh), (by have hh := congrArg Ctx.isInit hc; exact hh),
        Or.inr (Or.inl ⟨b, ?_⟩)⟩
      rcases hr0 with ⟨a, h5, rfl⟩ | ⟨e, h5, _⟩ | ⟨u, h5, _⟩
      · exact ⟨_, rfl, rfl, ho, (by have hh := congrArg Ctx.status hc; exact hh), (by have hh := congrArg Ctx.oscoreAllowed hc; exact hh)⟩
      · cases h5
      · cases h5
  case exportOscore a b c d =>
    obtain ⟨r0, h0, hr0⟩ := mapOut_cases h
    have hd0 : r0.Defined := by
      rcases hr0 with ⟨a, rfl, _⟩ | ⟨e, rfl, _⟩ | ⟨u, rfl, rfl⟩
      · simp
      · simp
      · simp at hd
    rcases exportOscore_outcome E cfg a b c d h0 hd0 with ⟨_, rfl, rfl⟩ | ⟨_, _, rfl, rfl⟩ |
      ⟨_, ho, ⟨⟨e, rfl⟩, hc⟩ | ⟨⟨a, rfl⟩, hc⟩⟩
    · rcases hr0 with ⟨a, h5, _⟩ | ⟨e, h5, rfl⟩ | ⟨u, h5, _⟩
      · cases h5
      · exact ⟨rfl, rfl, Or.inl ⟨rfl, rfl, by simp⟩⟩
      · cases h5
    · rcases hr0 with ⟨a, h5, _⟩ | ⟨e, h5, rfl⟩ | ⟨u, h5, _⟩
      · cases h5
      · exact ⟨rfl, rfl, Or.inl ⟨rfl, rfl, by simp⟩⟩
      · cases h5
    · refine ⟨(by have hh := congrArg Ctx.errorCode hc; exact hh), (by have hh := congrArg Ctx.isInit hc; exact hh),
        Or.inr (Or.inr (Or.inr ⟨?_, ?_, (by have hh := congrArg Ctx.status hc; exact hh), ?_⟩))⟩
      · unfold okOscore at ho
        simp only [Bool.and_eq_true] at ho
        exact ho.2
      · rcases hr0 with ⟨a, h5, _⟩ | ⟨e, h5, rfl⟩ | ⟨u, h5, _⟩
        · cases h5
        · exact ⟨_, rfl⟩
        · cases h5
      · intro hx
        have := (by have hh := congrArg Ctx.oscoreAllowed hc; exact hh)
        have h7 : s'.ctx.oscoreAllowed = false := this
        rw [hx] at h7; cases h7
    · refine ⟨(by have hh := congrArg Ctx.errorCode hc; exact hh), (by have hh := congrArg Ctx.isInit hc; exact hh),
        Or.inr (Or.inr (Or.inl ?_))⟩
      rcases hr0 with ⟨x, h5, rfl⟩ | ⟨e, h5, _⟩ | ⟨u, h5, _⟩
      · exact ⟨_, _, _, _, _, rfl, rfl, ho, (by have hh := congrArg Ctx.status hc; exact hh), (by have hh := congrArg Ctx.oscoreAllowed hc; exact hh)⟩
      · cases h5
      · cases h5

end Verif
