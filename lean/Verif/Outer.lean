import Verif.Inner

/-!
# How an API call ends

`Ends R Q m`: a run of `m` that fails relates start and end by `R`, one that succeeds by `Q`.
-/

namespace Verif

open M

variable {σ α β γ : Type}

/-- A failing run relates start and end state by `R`, a successful one by `Q`. -/
def Ends (R Q : St σ → St σ → Prop) (m : M σ α) : Prop :=
  ∀ s, (∀ e s', m s = (.err e, s') → R s s') ∧ (∀ a s', m s = (.ok a, s') → Q s s')

/-- `R` followed by `Q` is in `Q` -/
structure Absorb (R Q : St σ → St σ → Prop) : Prop where
  absorb : ∀ {a b c}, R a b → Q b c → Q a c

theorem Ends.bind {R Q : St σ → St σ → Prop} (hR : Frame R) (hq : Absorb R Q) {m : M σ α} {f : α → M σ β} (hm : Pres R m)
    (hf : ∀ a, Ends R Q (f a)) : Ends R Q (m >>= f) := by
  intro s
  have e : (m >>= f) s = M.bind m f s := rfl
  rw [e]
  have h1 := hm s
  unfold M.bind
  rcases h : m s with ⟨r, s1⟩
  rw [h] at h1
  cases r with
  | ok a =>
    have h2 := hf a s1
    exact ⟨fun e s' h' => hR.trans (h1 (by simp)) (h2.1 e s' h'),
      fun b s' h' => hq.absorb (h1 (by simp)) (h2.2 b s' h')⟩
  | err e =>
    refine ⟨fun e s' h' => ?_, fun b s' h' => ?_⟩
    · simp only [Prod.mk.injEq] at h'
      rw [← h'.2]; exact h1 (by simp)
    · simp at h'
  | ub u => exact ⟨fun e s' h' => by simp at h', fun b s' h' => by simp at h'⟩

theorem Ends.modCtx {R Q : St σ → St σ → Prop} {f : Ctx → Ctx}
    (h : ∀ s : St σ, Q s { s with ctx := f s.ctx }) : Ends R Q (modCtx f : M σ Unit) := by
  intro s
  refine ⟨fun e s' h' => by simp [M.modCtx] at h', fun a s' h' => ?_⟩
  rw [modCtx_ok] at h'
  rw [← h']; exact h s

theorem Ends.modCtx_pure {R Q : St σ → St σ → Prop} {f : Ctx → Ctx} {a : α}
    (h : ∀ s : St σ, Q s { s with ctx := f s.ctx }) :
    Ends R Q (M.modCtx f >>= fun _ => Pure.pure a) := by
  intro s
  refine ⟨fun e s' h' => ?_, fun a s' h' => ?_⟩
  · simp [Bind.bind, M.bind, M.modCtx, Pure.pure, M.ret] at h'
  · simp only [bind_ok, modCtx_ok, pure_ok] at h'
    obtain ⟨_, s1, rfl, _, rfl⟩ := h'
    exact h s

/-! ## The credential check and the error code -/

/-- The control part is unchanged, except that the error code may have become "unknown credential"
after the credential callback rejected a credential. -/
def RCred (s s' : St σ) : Prop :=
  Grow s s' ∧ ((s'.ctx.ctl = s.ctx.ctl ∧ Quiet s s') ∨
    (s'.ctx.ctl = { s.ctx.ctl with errorCode := .unknownCred } ∧
      ∃ c, Saw [.credVerify c none] s s'))

theorem rcred_frame : Frame (RCred (σ := σ)) where
  refl s := ⟨Saw.refl s, Or.inl ⟨rfl, Quiet.refl s⟩⟩
  trans := by
    rintro a b c ⟨g1, h1⟩ ⟨g2, h2⟩
    refine ⟨g1.left g2, ?_⟩
    rcases h2 with ⟨h2, q2⟩ | ⟨h2, k, w⟩
    · rcases h1 with ⟨h1, q1⟩ | ⟨h1, k, w⟩
      · exact Or.inl ⟨h2.trans h1, q1.trans q2⟩
      · exact Or.inr ⟨h2.trans h1, k, w.left g2⟩
    · refine Or.inr ⟨?_, k, Saw.right g1 w⟩
      rcases h1 with ⟨h1, _⟩ | ⟨h1, _, _⟩
      · rw [h2, h1]
      · rw [h2, h1]

/-- nothing is rejected in an event of an inner function -/
theorem quiet_inner_ev {s : St σ} {e : σ} {v : Ev} (h : v.isKey = false) :
    Quiet s ⟨s.ctx, e, s.log ++ [v]⟩ :=
  quiet_ev rfl (by rintro c rfl; simp [Ev.isKey] at h)

theorem quiet_app_ev {s : St σ} {e : σ} {v : Ev} (h : v.isApp = true) :
    Quiet s ⟨s.ctx, e, s.log ++ [v]⟩ :=
  quiet_ev rfl (by rintro c rfl; simp [Ev.isApp] at h)

theorem quiet_inner : Inner (Quiet (σ := σ)) where
  toFrame := quiet_frame
  upd _ _ _ := quiet_of_log rfl
  ev _ _ _ h := quiet_inner_ev h
  exp _ _ _ _ _ _ _ _ _ := quiet_ev rfl (by simp)
  imp0 _ _ _ _ := quiet_ev rfl (by simp)
  key s1 s3 e2 e4 t raw kid h := by
    have h1 : Quiet s1 ⟨s1.ctx, e2, s1.log ++ [.importKey t raw (some kid)]⟩ := quiet_ev rfl (by simp)
    have h2 : Quiet s3 ⟨s3.ctx, e4, s3.log ++ [.destroyKey kid]⟩ := quiet_ev rfl (by simp)
    exact (h1.trans h).trans h2

theorem grow_inner : Inner (Grow (σ := σ)) where
  toFrame := grow_frame
  upd _ _ _ := grow_of_log rfl
  ev _ _ _ _ := (saw_ext rfl).grow
  exp _ _ _ _ _ _ _ _ _ := (saw_ext rfl).grow
  imp0 _ _ _ _ := (saw_ext rfl).grow
  key s1 s3 e2 e4 t raw kid h := by
    have h1 : Grow s1 ⟨s1.ctx, e2, s1.log ++ [.importKey t raw (some kid)]⟩ := (saw_ext rfl).grow
    have h2 : Grow s3 ⟨s3.ctx, e4, s3.log ++ [.destroyKey kid]⟩ := (saw_ext rfl).grow
    exact (h1.left h).left h2

theorem ctl_inner : Inner (Keeps (σ := σ) Ctx.ctl) where
  toFrame := keeps_frame _
  upd _ _ h := h
  ev _ _ _ _ := rfl
  exp _ _ _ _ _ _ _ _ _ := rfl
  imp0 _ _ _ _ := rfl
  key _ _ _ _ _ _ _ h := h

theorem rcred_inner : App (RCred (σ := σ)) where
  toFrame := rcred_frame
  upd s c h := ⟨grow_of_log rfl, Or.inl ⟨h, quiet_of_log rfl⟩⟩
  ev _ _ _ h := ⟨(saw_ext rfl).grow, Or.inl ⟨rfl, quiet_inner_ev h⟩⟩
  exp _ _ _ _ _ _ _ _ _ := ⟨(saw_ext rfl).grow, Or.inl ⟨rfl, quiet_ev rfl (by simp)⟩⟩
  app _ _ _ h := ⟨(saw_ext rfl).grow, Or.inl ⟨rfl, quiet_app_ev h⟩⟩
  imp0 _ _ _ _ := ⟨(saw_ext rfl).grow, Or.inl ⟨rfl, quiet_ev rfl (by simp)⟩⟩
  key s1 s3 e2 e4 t raw kid h := by
    have h1 : RCred s1 ⟨s1.ctx, e2, s1.log ++ [.importKey t raw (some kid)]⟩ :=
      ⟨(saw_ext rfl).grow, Or.inl ⟨rfl, quiet_ev rfl (by simp)⟩⟩
    have h2 : RCred s3 ⟨s3.ctx, e4, s3.log ++ [.destroyKey kid]⟩ :=
      ⟨(saw_ext rfl).grow, Or.inl ⟨rfl, quiet_ev rfl (by simp)⟩⟩
    exact rcred_frame.trans (rcred_frame.trans h1 h) h2

theorem needCred_cases (s : St σ) :
    (s.ctx.hasCred = true ∧ (needCred : M σ Unit) s = (.ok (), s)) ∨
      (needCred : M σ Unit) s = (.ub .nullCall, s) := by
  by_cases h : s.ctx.hasCred = true
  · left; simp [needCred, Bind.bind, M.bind, M.getCtx, M.guardUB, h]
  · right; simp [needCred, Bind.bind, M.bind, M.getCtx, M.guardUB, h]

/-- the three outcomes of `verifyCred` -/
theorem verifyCred_cases (E : Env σ) (cr : Cred) (s : St σ) :
    (∃ v e, E.credVerify s.env cr = (some v, e) ∧
      verifyCred E cr s = (.ok v, ⟨s.ctx, e, s.log ++ [.credVerify cr (some v)]⟩)) ∨
    (∃ e, E.credVerify s.env cr = (none, e) ∧
      verifyCred E cr s = (.err .credentials,
        ⟨{ s.ctx with errorCode := .unknownCred }, e, s.log ++ [.credVerify cr none]⟩)) ∨
    (verifyCred E cr s = (.ub .nullCall, s)) := by
  unfold verifyCred credVerify
  rcases needCred_cases s with ⟨_, h⟩ | h
  · rcases hv : E.credVerify s.env cr with ⟨v, e⟩
    cases v with
    | some v =>
      left
      refine ⟨v, e, rfl, ?_⟩
      simp [Bind.bind, M.bind, h, M.call, hv, M.whenM, M.ofOption]
    | none =>
      right; left
      refine ⟨e, rfl, ?_⟩
      simp [Bind.bind, M.bind, h, M.call, hv, M.whenM, M.ofOption, M.modCtx]
  · right; right
    simp [Bind.bind, M.bind, h]

theorem verifyCred_rcred (E : Env σ) (cr : Cred) : Pres (RCred (σ := σ)) (verifyCred E cr) := by
  intro s hd
  rcases verifyCred_cases E cr s with ⟨v, e, _, h⟩ | ⟨e, _, h⟩ | h
  · rw [h]; exact ⟨(saw_ext rfl).grow, Or.inl ⟨rfl, quiet_ev rfl (by simp)⟩⟩
  · rw [h]; exact ⟨(saw_ext rfl).grow, Or.inr ⟨rfl, cr, saw_ext rfl⟩⟩
  · rw [h] at hd; simp at hd


/-! ## The frame of a message call -/

/-- the state after the entry checks -/
def entered (m : Msg) (r : Role) (s : St σ) : St σ :=
  { s with ctx := { s.ctx with
      status := .aborted, errorCode := .unspecified, message := m, role := r } }

/-- How a message call without undefined behaviour ends: rejected without any effect, or run and
failed, or run and succeeded. -/
def Outcome (arg : Bool) (ok : Ctx → Bool) (m : Msg) (ro : Role) (R Q : St σ → St σ → Prop)
    (f : M σ α) : Prop :=
  ∀ s r s', f s = (r, s') → r.Defined →
    (arg = false ∧ r = .err .invalidArgument ∧ s' = s) ∨
    (arg = true ∧ ok s.ctx = false ∧ r = .err .badState ∧ s' = s) ∨
    (arg = true ∧ ok s.ctx = true ∧ (∃ e, r = .err e) ∧ R (entered m ro s) s') ∨
    (arg = true ∧ ok s.ctx = true ∧ (∃ a, r = .ok a) ∧ Q (entered m ro s) s')

theorem outcome_of {arg : Bool} {ok : Ctx → Bool} {m : Msg} {ro : Role}
    {R Q : St σ → St σ → Prop} {body : M σ α} (hb : Ends R Q body) :
    Outcome arg ok m ro R Q
      (M.require arg .invalidArgument >>= fun _ => enter ok m ro >>= fun _ => body) := by
  intro s r s' h hd
  cases arg with
  | false =>
    simp only [Bind.bind, M.bind, M.require, Bool.false_eq_true, ↓reduceIte, Prod.mk.injEq] at h
    exact Or.inl ⟨rfl, h.1.symm, h.2.symm⟩
  | true =>
    by_cases ho : ok s.ctx = true
    · have he : (enter ok m ro : M σ Unit) s = (.ok (), entered m ro s) := by
        simp [enter, Bind.bind, M.bind, M.getCtx, M.require, ho, M.modCtx, entered]
      have hb' := hb (entered m ro s)
      have h' : body (entered m ro s) = (r, s') := by
        simpa [Bind.bind, M.bind, M.require, he] using h
      cases r with
      | ub u => simp at hd
      | err e => exact Or.inr (Or.inr (Or.inl ⟨rfl, ho, ⟨e, rfl⟩, hb'.1 _ _ h'⟩))
      | ok a => exact Or.inr (Or.inr (Or.inr ⟨rfl, ho, ⟨a, rfl⟩, hb'.2 _ _ h'⟩))
    · have ho' : ok s.ctx = false := by simpa using ho
      have he : (enter ok m ro : M σ Unit) s = (.err .badState, s) := by
        simp [enter, Bind.bind, M.bind, M.getCtx, M.require, ho']
      have h' : ((.err .badState, s) : Res α × St σ) = (r, s') := by
        simpa [Bind.bind, M.bind, M.require, he] using h
      simp only [Prod.mk.injEq] at h'
      exact Or.inr (Or.inl ⟨rfl, ho', h'.1.symm, h'.2.symm⟩)

/-- Success of a message call: the control part ends with the given status and no error; with
`fin`, the OSCORE export is allowed. -/
def QDone (st : Status) (fin : Bool) (s s' : St σ) : Prop :=
  Grow s s' ∧ s'.ctx.ctl = { s.ctx.ctl with
    status := st, errorCode := .success, oscoreAllowed := fin || s.ctx.oscoreAllowed }

theorem qdone_absorb {st : Status} {fin : Bool} :
    Absorb (σ := σ) RCred (QDone st fin) := by
  constructor
  intro a b c h q
  refine ⟨h.1.left q.1, ?_⟩
  have ho : b.ctx.oscoreAllowed = a.ctx.oscoreAllowed := by
    have : b.ctx.ctl.oscoreAllowed = a.ctx.ctl.oscoreAllowed := by
      rcases h.2 with ⟨h, _⟩ | ⟨h, _⟩ <;> rw [h]
    exact this
  rw [q.2, ho]
  rcases h.2 with ⟨h, _⟩ | ⟨h, _⟩ <;> rw [h]

/-- goes through the body of a message function -/
macro "ends" : tactic => `(tactic|
  repeat' first
  | with_reducible refine Ends.modCtx_pure (fun s => ?_)
  | with_reducible refine Ends.bind rcred_frame qdone_absorb ?_ (fun _ => ?_)
  | with_reducible refine Ends.modCtx (fun s => ?_)
  | with_reducible exact Pres.require rcred_frame _ _
  | with_reducible exact Pres.guardUB rcred_frame _ _
  | with_reducible exact Pres.ofOption rcred_frame _ _
  | with_reducible exact Pres.ofRes rcred_frame _
  | with_reducible exact Pres.getCtx rcred_frame
  | with_reducible exact rcred_inner.memAlloc _ _ _
  | with_reducible exact rcred_inner.credFetch _
  | with_reducible exact rcred_inner.genDhKeys _ _
  | with_reducible exact rcred_inner.compDhSecret _ _
  | with_reducible exact rcred_inner.compTh2 _ _
  | with_reducible exact rcred_inner.compTh3 _ _ _ _
  | with_reducible exact rcred_inner.compTh4 _ _ _ _
  | with_reducible exact rcred_inner.compPrk2e _ _
  | with_reducible exact rcred_inner.compPrk3e2m _ _ _ _
  | with_reducible exact rcred_inner.compPrk4e3m _ _ _ _
  | with_reducible exact rcred_inner.compKeystream _ _ _ _
  | with_reducible exact rcred_inner.buildMacCtx _ _ _ _
  | with_reducible exact rcred_inner.compMac _ _ _ _
  | with_reducible exact rcred_inner.compSignOrMac _ _ _ _ _ _
  | with_reducible exact rcred_inner.verifySignOrMac _ _ _ _ _ _
  | with_reducible exact rcred_inner.prepareMsg2 _ _ _ _
  | with_reducible exact rcred_inner.eadCompose _ _
  | with_reducible exact rcred_inner.eadProcess _ _
  | with_reducible exact rcred_inner.parseMsg2 _ _ _
  | with_reducible exact rcred_inner.parsePtxt2 _ _
  | with_reducible exact rcred_inner.parsePtxt3 _ _
  | with_reducible exact rcred_inner.parsePtxt4 _ _
  | with_reducible exact rcred_inner.keyIvAad3 _ _
  | with_reducible exact rcred_inner.keyIvAad4 _ _
  | with_reducible exact rcred_inner.aeadEncrypt _ _ _ _ _ _
  | with_reducible exact rcred_inner.aeadDecrypt _ _ _ _ _ _
  | with_reducible exact rcred_inner.genMsg3 _ _
  | with_reducible exact rcred_inner.genMsg4 _ _
  | with_reducible exact verifyCred_rcred _ _
  | with_reducible refine Pres.bind rcred_frame ?_ (fun _ => ?_)
  | with_reducible refine Pres.mapErr _ ?_)

variable (E : Env σ) (cfg : Config)

theorem message2Compose_outcome (n : Nat) :
    Outcome (n != 0) okReceivedM1 .msg2 .responder RCred (QDone .waitM3 false)
      (message2Compose E cfg n) := by
  unfold message2Compose
  refine outcome_of ?_
  ends
  exact ⟨grow_of_log rfl, by simp [Ctx.ctl]⟩

theorem message2Process_outcome (b : Bytes) :
    Outcome (b.length != 0) okWaitM2 .msg2 .initiator RCred (QDone .verifiedM2 false)
      (message2Process E cfg b) := by
  unfold message2Process
  refine outcome_of ?_
  ends
  exact ⟨grow_of_log rfl, by simp [Ctx.ctl]⟩

theorem message3Compose_outcome (n : Nat) :
    Outcome (n != 0) okVerifiedM2 .msg3 .initiator RCred (QDone .completed true)
      (message3Compose E cfg n) := by
  unfold message3Compose
  refine outcome_of ?_
  ends
  exact ⟨grow_of_log rfl, by simp [Ctx.ctl]⟩

theorem message3Process_outcome (b : Bytes) :
    Outcome (b.length != 0) okWaitM3 .msg3 .responder RCred (QDone .completed true)
      (message3Process E cfg b) := by
  unfold message3Process
  refine outcome_of ?_
  ends
  exact ⟨grow_of_log rfl, by simp [Ctx.ctl]⟩

theorem message4Compose_outcome (n : Nat) :
    Outcome (n != 0) okCompleted .msg4 .responder RCred (QDone .persisted false)
      (message4Compose E cfg n) := by
  unfold message4Compose
  refine outcome_of ?_
  ends
  exact ⟨grow_of_log rfl, by simp [Ctx.ctl]⟩

theorem message4Process_outcome (b : Bytes) :
    Outcome (b.length != 0) okCompleted .msg4 .initiator RCred (QDone .persisted false)
      (message4Process E cfg b) := by
  unfold message4Process
  refine outcome_of ?_
  ends
  exact ⟨grow_of_log rfl, by simp [Ctx.ctl]⟩

end Verif
