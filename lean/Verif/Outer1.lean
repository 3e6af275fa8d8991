import Verif.Outer

/-!
# How a message_1 call ends, and exporter calls
-/

namespace Verif

open M

variable {σ α β γ : Type}

/-- The control part without the negotiated method and suite. -/
def Ctx.ctl1 (c : Ctx) : Ctx := { c.ctl with chosenMethod := 0, chosenIdx := 0 }

/-- The control part without the negotiated method. -/
def Ctx.ctlM (c : Ctx) : Ctx := { c.ctl with chosenMethod := 0 }

/-- the suite selected by the peer -/
def Suites.selected : Suites → Option Int
  | .one v => some v
  | .list l => l.getLast?

/-- The control part is unchanged, up to the negotiated method, and up to an error code that
may have become "wrong selected cipher suite" because `su` does not select the suite in use. -/
def RSuite (su : Suites) (s s' : St σ) : Prop :=
  Quiet s s' ∧ (s'.ctx.ctlM = s.ctx.ctlM ∨
    (su.selected ≠ some s.ctx.suite.value ∧
      s'.ctx.ctlM = { s.ctx.ctlM with errorCode := .wrongSuite }))

/-- The same for the whole of message_1: the suite in use is the last one configured. -/
def RSuite1 (su : Suites) (s s' : St σ) : Prop :=
  Quiet s s' ∧ (s'.ctx.ctl1 = s.ctx.ctl1 ∨
    (su.selected ≠ some (s.ctx.csuiteArr.getD (s.ctx.csuiteLen - 1) Suite.zero).value ∧
      s'.ctx.ctl1 = { s.ctx.ctl1 with errorCode := .wrongSuite }))

/-- The control part is unchanged, up to the negotiated method and suite. -/
def RKeep1 (s s' : St σ) : Prop := Quiet s s' ∧ s'.ctx.ctl1 = s.ctx.ctl1

theorem rkeep1_frame : Frame (RKeep1 (σ := σ)) where
  refl s := ⟨Quiet.refl s, rfl⟩
  trans := by
    rintro a b c ⟨g1, h1⟩ ⟨g2, h2⟩
    exact ⟨g1.trans g2, h2.trans h1⟩

theorem rkeep1_of_ctl {s s' : St σ} (hg : Quiet s s') (h : s'.ctx.ctl = s.ctx.ctl) : RKeep1 s s' :=
  ⟨hg, by unfold Ctx.ctl1; rw [h]⟩

theorem rkeep1_inner : App (RKeep1 (σ := σ)) where
  toFrame := rkeep1_frame
  upd s c h := rkeep1_of_ctl (quiet_of_log rfl) h
  ev _ _ _ h := rkeep1_of_ctl (quiet_inner_ev h) rfl
  exp _ _ _ _ _ _ _ _ _ := rkeep1_of_ctl (quiet_ev rfl (by simp)) rfl
  app _ _ _ h := rkeep1_of_ctl (quiet_app_ev h) rfl
  imp0 _ _ _ _ := rkeep1_of_ctl (quiet_ev rfl (by simp)) rfl
  key s1 s3 e2 e4 t raw kid h := by
    have h1 : RKeep1 s1 ⟨s1.ctx, e2, s1.log ++ [.importKey t raw (some kid)]⟩ :=
      rkeep1_of_ctl (quiet_ev rfl (by simp)) rfl
    have h2 : RKeep1 s3 ⟨s3.ctx, e4, s3.log ++ [.destroyKey kid]⟩ :=
      rkeep1_of_ctl (quiet_ev rfl (by simp)) rfl
    exact rkeep1_frame.trans (rkeep1_frame.trans h1 h) h2

theorem rkeep1_upd {s : St σ} {c : Ctx} (h : c.ctl1 = s.ctx.ctl1) : RKeep1 s { s with ctx := c } :=
  ⟨quiet_of_log rfl, h⟩

/-- The control part is unchanged, up to the negotiated method. -/
def RKeepM (s s' : St σ) : Prop := Quiet s s' ∧ s'.ctx.ctlM = s.ctx.ctlM

theorem rkeepM_frame : Frame (RKeepM (σ := σ)) where
  refl s := ⟨Quiet.refl s, rfl⟩
  trans := by
    rintro a b c ⟨g1, h1⟩ ⟨g2, h2⟩
    exact ⟨g1.trans g2, h2.trans h1⟩

theorem rkeepM_of_ctl {s s' : St σ} (hg : Quiet s s') (h : s'.ctx.ctl = s.ctx.ctl) : RKeepM s s' :=
  ⟨hg, by unfold Ctx.ctlM; rw [h]⟩

theorem rkeepM_inner : App (RKeepM (σ := σ)) where
  toFrame := rkeepM_frame
  upd s c h := rkeepM_of_ctl (quiet_of_log rfl) h
  ev _ _ _ h := rkeepM_of_ctl (quiet_inner_ev h) rfl
  exp _ _ _ _ _ _ _ _ _ := rkeepM_of_ctl (quiet_ev rfl (by simp)) rfl
  app _ _ _ h := rkeepM_of_ctl (quiet_app_ev h) rfl
  imp0 _ _ _ _ := rkeepM_of_ctl (quiet_ev rfl (by simp)) rfl
  key s1 s3 e2 e4 t raw kid h := by
    have h1 : RKeepM s1 ⟨s1.ctx, e2, s1.log ++ [.importKey t raw (some kid)]⟩ :=
      rkeepM_of_ctl (quiet_ev rfl (by simp)) rfl
    have h2 : RKeepM s3 ⟨s3.ctx, e4, s3.log ++ [.destroyKey kid]⟩ :=
      rkeepM_of_ctl (quiet_ev rfl (by simp)) rfl
    exact rkeepM_frame.trans (rkeepM_frame.trans h1 h) h2

theorem suite_of_ctlM {c c' : Ctx} (h : c'.ctlM = c.ctlM) : c'.suite = c.suite := by
  have h1 : c'.ctlM.suite = c.ctlM.suite := by rw [h]
  exact h1

theorem suite_of_ctlM' {c c' : Ctx} {e : ErrCode} (h : c'.ctlM = { c.ctlM with errorCode := e }) :
    c'.suite = c.suite := by
  have h1 : c'.ctlM.suite = ({ c.ctlM with errorCode := e } : Ctx).suite := by rw [h]
  exact h1

theorem rsuite_frame {su : Suites} : Frame (RSuite (σ := σ) su) where
  refl s := ⟨Quiet.refl s, Or.inl rfl⟩
  trans := by
    rintro a b c ⟨g1, h1⟩ ⟨g2, h2⟩
    refine ⟨g1.trans g2, ?_⟩
    rcases h2 with h2 | ⟨n2, h2⟩ <;> rcases h1 with h1 | ⟨n1, h1⟩
    · exact Or.inl (h2.trans h1)
    · exact Or.inr ⟨n1, h2.trans h1⟩
    · rw [suite_of_ctlM h1] at n2
      exact Or.inr ⟨n2, by rw [h2, h1]⟩
    · exact Or.inr ⟨n1, by rw [h2, h1]⟩

theorem rsuite_upd {su : Suites} {s : St σ} {c : Ctx} (h : c.ctlM = s.ctx.ctlM) :
    RSuite su s { s with ctx := c } :=
  ⟨quiet_of_log rfl, Or.inl h⟩

theorem rsuite_of_keepM {su : Suites} {s s' : St σ} (h : RKeepM s s') : RSuite su s s' :=
  ⟨h.1, Or.inl h.2⟩

/-- Success of a message_1 call. -/
def QDone1 (st : Status) (s s' : St σ) : Prop :=
  Grow s s' ∧ s'.ctx.ctl1 = { s.ctx.ctl1 with status := st, errorCode := .success }

/-- The same, and the suite in use is unchanged. -/
def QDoneM (st : Status) (s s' : St σ) : Prop :=
  Grow s s' ∧ s'.ctx.ctlM = { s.ctx.ctlM with status := st, errorCode := .success }

theorem qdoneM_absorb {st : Status} {su : Suites} : Absorb (σ := σ) (RSuite su) (QDoneM st) := by
  constructor
  intro a b c h q
  refine ⟨h.1.grow.left q.1, ?_⟩
  rw [q.2]
  rcases h.2 with h | ⟨_, h⟩ <;> rw [h]

theorem qdone1_absorb_keep {st : Status} : Absorb (σ := σ) RKeep1 (QDone1 st) := by
  constructor
  intro a b c h q
  refine ⟨h.1.grow.left q.1, ?_⟩
  rw [q.2, h.2]

theorem importKey_keep1 (E : Env σ) (t : KeyType) (raw : Bytes) :
    Pres (RKeep1 (σ := σ)) (importKey E t raw) := by
  unfold importKey
  exact rkeep1_inner.needKeys.bind rkeep1_frame fun _ =>
    Pres.call _ _ fun s => rkeep1_of_ctl (quiet_ev rfl (by simp)) rfl

theorem destroyKey_keep1 (E : Env σ) (k : Bytes) : Pres (RKeep1 (σ := σ)) (destroyKey E k) := by
  unfold destroyKey
  exact rkeep1_inner.needKeys.bind rkeep1_frame fun _ =>
    Pres.call _ _ fun s => rkeep1_of_ctl (quiet_ev rfl (by simp)) rfl

theorem chooseSuite_keep1 : Pres (RKeep1 (σ := σ)) chooseSuite := by
  unfold chooseSuite
  refine (Pres.getCtx rkeep1_frame).bind rkeep1_frame fun _ =>
    (Pres.require rkeep1_frame _ _).bind rkeep1_frame fun _ =>
    Pres.modCtx _ fun s => ⟨quiet_of_log rfl, rfl⟩

/-- relation for the part of `checkSuites` after the suite in use was read -/
theorem checkSuites_rsuite (cfg : Config) (su : Suites) :
    Pres (RSuite (σ := σ) su) (checkSuites cfg su) := by
  intro s
  -- the suite in use does not change, so the comparison can be made with the start state
  have hw : ∀ (b : Bool), (b = true → su.selected ≠ some s.ctx.suite.value) →
      ∀ s1 : St σ, RKeepM s s1 → ∀ r s2,
        (whenM b (modCtx (fun c => { c with errorCode := .wrongSuite }) >>= fun _ =>
          fail .msg1Process) : M σ Unit) s1 = (r, s2) → RSuite su s s2 := by
    intro b hb s1 hk r s2 h
    cases b with
    | false =>
      simp only [M.whenM, Bool.false_eq_true, ↓reduceIte, Prod.mk.injEq] at h
      rw [← h.2]; exact rsuite_of_keepM hk
    | true =>
      simp only [M.whenM, Bind.bind, M.bind, M.modCtx, M.fail, ↓reduceIte, Prod.mk.injEq] at h
      rw [← h.2]
      refine ⟨hk.1.trans (quiet_of_log rfl), Or.inr ⟨hb rfl, ?_⟩⟩
      rw [← hk.2]; rfl
  intro hd
  rcases hrun : checkSuites cfg su s with ⟨r, s'⟩
  show RSuite su s s'
  unfold checkSuites at hrun
  cases su with
  | one v =>
    simp only [Bind.bind, M.bind, M.getCtx, M.guardUB, M.modCtx] at hrun
    by_cases hl : s.ctx.peerCsuite.length < cfg.maxSuites
    · simp only [hl, decide_true, ↓reduceIte] at hrun
      refine hw _ ?_ _ ?_ _ _ hrun
      · intro h hc
        simp only [Suites.selected, Option.some.injEq] at hc
        simp [hc] at h
      · exact ⟨quiet_of_log rfl, rfl⟩
    · simp only [hl, decide_false, Bool.false_eq_true, ↓reduceIte, Prod.mk.injEq] at hrun
      rw [← hrun.2]; exact rsuite_frame.refl s
  | list l =>
    simp only [Bind.bind, M.bind, M.getCtx, M.require, M.modCtx] at hrun
    cases l with
    | nil =>
      simp only [List.isEmpty_nil, M.whenM, ↓reduceIte, M.bind, M.modCtx, M.fail, Prod.mk.injEq] at hrun
      rw [← hrun.2]
      exact ⟨quiet_of_log rfl, Or.inr ⟨by simp [Suites.selected], rfl⟩⟩
    | cons x xs =>
      by_cases hl : (x :: xs).length ≤ cfg.maxSuites
      · simp only [List.isEmpty_cons, M.whenM, Bool.false_eq_true, ↓reduceIte, hl, decide_true] at hrun
        refine hw _ ?_ _ ?_ _ _ hrun
        · intro h hc
          simp only [Suites.selected] at hc
          rw [hc] at h
          simp at h
        · exact ⟨quiet_of_log rfl, rfl⟩
      · simp only [List.isEmpty_cons, M.whenM, Bool.false_eq_true, ↓reduceIte, hl, decide_false,
          Prod.mk.injEq] at hrun
        rw [← hrun.2]; exact rsuite_frame.refl s

variable (E : Env σ) (cfg : Config)

theorem message1Compose_outcome (n : Nat) :
    Outcome (n != 0) okStart .msg1 .initiator RKeep1 (QDone1 .waitM2) (message1Compose E cfg n) := by
  unfold message1Compose
  refine outcome_of ?_
  repeat' first
  | with_reducible refine Ends.modCtx_pure (fun s => ?_)
  | with_reducible refine Ends.bind rkeep1_frame qdone1_absorb_keep ?_ (fun _ => ?_)
  | with_reducible exact Pres.require rkeep1_frame _ _
  | with_reducible exact Pres.guardUB rkeep1_frame _ _
  | with_reducible exact Pres.ofOption rkeep1_frame _ _
  | with_reducible exact Pres.getCtx rkeep1_frame
  | with_reducible exact chooseSuite_keep1
  | with_reducible exact importKey_keep1 _ _ _
  | with_reducible exact destroyKey_keep1 _ _
  | with_reducible exact rkeep1_inner.makeKeyPair _ _
  | with_reducible exact rkeep1_inner.memAlloc _ _ _
  | with_reducible exact rkeep1_inner.hashTh _ _ _
  | with_reducible exact rkeep1_inner.eadCompose _ _
  | with_reducible refine Pres.modCtx _ (fun s => rkeep1_upd ?_)
  | (exact (rfl : (_ : Ctx) = _))
  exact ⟨grow_of_log rfl, by simp [Ctx.ctl, Ctx.ctl1]⟩

theorem message1Process_rest (b : Bytes) : Ends (σ := σ) (RSuite (getMsg1 cfg.dec b).2.suites)
    (QDoneM .receivedM1) (do
      let c ← getCtx
      let me ← ofOption .msg1Process
        (c.method.find? (fun (x : Nat) => decide ((x : Int) = (getMsg1 cfg.dec b).2.method)))
      modCtx fun c => { c with chosenMethod := me }
      checkSuites cfg (getMsg1 cfg.dec b).2.suites
      require ((getMsg1 cfg.dec b).2.gx.length + (staleMsg1 cfg.dec b).1 == c.suite.eccKey) .msg1Process
      guardUB (c.suite.eccKey ≤ cfg.maxEccKey && (staleMsg1 cfg.dec b).1 == 0) .oob
      modCtx fun c => { c with dhPeerPub := (getMsg1 cfg.dec b).2.gx }
      require ((staleMsg1 cfg.dec b).2.1 ≤ cfg.maxCid + 1) .msg1Process
      guardUB ((staleMsg1 cfg.dec b).2.1 == 0) .oob
      storePeerCid cfg .msg1Process (getMsg1 cfg.dec b).2.ci
      processEad1 E cfg (getMsg1 cfg.dec b).2.ead (staleMsg1 cfg.dec b).2.2
      let h ← hashTh E cfg b
      modCtx fun c =>
        { c with th := h, thState := .th1, status := .receivedM1, errorCode := .success }) := by
  have hk : ∀ {α : Type} {m : M σ α}, Pres RKeepM m → Pres (RSuite (getMsg1 cfg.dec b).2.suites) m :=
    fun h => h.mono fun _ _ => rsuite_of_keepM
  repeat' first
  | with_reducible refine Ends.modCtx (fun s => ?_)
  | with_reducible refine Ends.bind rsuite_frame qdoneM_absorb ?_ (fun _ => ?_)
  | with_reducible exact Pres.require rsuite_frame _ _
  | with_reducible exact Pres.guardUB rsuite_frame _ _
  | with_reducible exact Pres.ofOption rsuite_frame _ _
  | with_reducible exact Pres.getCtx rsuite_frame
  | with_reducible exact checkSuites_rsuite _ _
  | with_reducible exact hk (rkeepM_inner.hashTh _ _ _)
  | with_reducible exact hk (rkeepM_inner.processEad1 _ _ _ _)
  | with_reducible exact hk (rkeepM_inner.storePeerCid _ _ _)
  | with_reducible refine Pres.modCtx _ (fun s => rsuite_upd ?_)
  | (exact (rfl : (_ : Ctx) = _))
  exact ⟨grow_of_log rfl, by simp [Ctx.ctl, Ctx.ctlM]⟩

theorem message1Process_outcome (b : Bytes) :
    Outcome (b.length != 0) okStart .msg1 .responder (RSuite1 (getMsg1 cfg.dec b).2.suites)
      (QDone1 .receivedM1) (message1Process E cfg b) := by
  unfold message1Process
  refine outcome_of ?_
  intro s
  have hr := message1Process_rest E cfg b
    { s with ctx := { s.ctx with chosenIdx := s.ctx.csuiteLen - 1 } }
  have h1 : ∀ c : Ctx, c.ctl1 = { c.ctlM with chosenIdx := 0 } := fun c => rfl
  by_cases hc : s.ctx.csuiteLen = 0
  · refine ⟨fun e s' h => ?_, fun a s' h => ?_⟩ <;>
      simp only [chooseSuite, Bind.bind, M.bind, M.getCtx, M.require, hc, bne_self_eq_false,
        Bool.false_eq_true, ↓reduceIte, Prod.mk.injEq] at h
    · rw [← h.2]; exact ⟨Quiet.refl _, Or.inl rfl⟩
    · simp at h
  · have hcs : (chooseSuite : M σ Unit) s = (.ok (),
        { s with ctx := { s.ctx with chosenIdx := s.ctx.csuiteLen - 1 } }) := by
      simp [chooseSuite, Bind.bind, M.bind, M.getCtx, M.require, M.modCtx, hc]
    refine ⟨fun e s' h => ?_, fun a s' h => ?_⟩
    · simp only [Bind.bind] at h hr
      unfold M.bind at h
      rw [hcs] at h
      obtain ⟨g, h2⟩ := hr.1 e s' h
      refine ⟨g, ?_⟩
      rcases h2 with h2 | ⟨n, h2⟩
      · left; rw [h1, h2, h1]; rfl
      · right; refine ⟨n, ?_⟩; rw [h1, h2, h1]; rfl
    · simp only [Bind.bind] at h hr
      unfold M.bind at h
      rw [hcs] at h
      obtain ⟨g, h2⟩ := hr.2 a s' h
      refine ⟨g, ?_⟩
      rw [h1, h2, h1]; rfl

end Verif
