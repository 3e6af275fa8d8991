import Verif.Outer1

/-!
# How an exporter call ends, and the summary of all calls
-/

namespace Verif

open M

variable {σ α β γ : Type}

/-- The control part changes by `f`. -/
def QCtl (f : Ctx → Ctx) (s s' : St σ) : Prop := s'.ctx.ctl = f s.ctx.ctl

/-- The control part stays, the log grows. -/
def RCtl (s s' : St σ) : Prop := Grow s s' ∧ s'.ctx.ctl = s.ctx.ctl

theorem rctl_inner : Inner (RCtl (σ := σ)) where
  toFrame := ⟨fun s => ⟨Saw.refl s, rfl⟩, fun h1 h2 => ⟨h1.1.left h2.1, h2.2.trans h1.2⟩⟩
  upd s c h := ⟨grow_of_log rfl, h⟩
  ev _ _ _ _ := ⟨(saw_ext rfl).grow, rfl⟩
  exp _ _ _ _ _ _ _ _ _ := ⟨(saw_ext rfl).grow, rfl⟩
  imp0 _ _ _ _ := ⟨(saw_ext rfl).grow, rfl⟩
  key s1 s3 e2 e4 t raw kid h := by
    have h1 : Grow s1 ⟨s1.ctx, e2, s1.log ++ [.importKey t raw (some kid)]⟩ := (saw_ext rfl).grow
    have h2 : Grow s3 ⟨s3.ctx, e4, s3.log ++ [.destroyKey kid]⟩ := (saw_ext rfl).grow
    exact ⟨(h1.left h.1).left h2, h.2⟩

theorem rctl_absorb {f : Ctx → Ctx} : Absorb (σ := σ) RCtl (QCtl f) :=
  ⟨fun h q => by unfold QCtl at *; rw [q, h.2]⟩

variable (E : Env σ) (cfg : Config)

/-- may `edhoc_export_prk_exporter` run? -/
def okExport (label n : Nat) (c : Ctx) : Bool :=
  (label ≤ 65535 && n != 0) && (label == 0 || label == 1 || 32768 ≤ label) &&
    decide (PrkState.prk4e3m.toNat ≤ c.prkState.toNat)

theorem status_le (st : Status) : st.toNat ≤ Status.persisted.toNat := by cases st <;> decide

theorem exportSecret_rejected {label n : Nat} {s : St σ} (h : okExport label n s.ctx = false) :
    ∃ e, (e = .badState ∨ e = .invalidArgument) ∧ exportSecret E cfg label n s = (.err e, s) := by
  unfold okExport at h
  have hs := status_le s.ctx.status
  unfold exportSecret
  simp only [Bind.bind, M.bind, M.require, M.getCtx]
  by_cases h1 : (label ≤ 65535 && n != 0) = true
  · by_cases h2 : (label == 0 || label == 1 || 32768 ≤ label) = true
    · rw [h1, h2] at h
      simp only [Bool.and_self, Bool.true_and, decide_eq_false_iff_not] at h
      refine ⟨.badState, Or.inl rfl, ?_⟩
      rw [h1, h2]
      simp [h]
    · refine ⟨.badState, Or.inl rfl, ?_⟩
      simp only [Bool.not_eq_true] at h2
      simp [h1, h2]
  · refine ⟨.invalidArgument, Or.inr rfl, ?_⟩
    simp only [Bool.not_eq_true] at h1
    simp [h1]

theorem exportSecret_rctl (label n : Nat) : Pres (RCtl (σ := σ)) (exportSecret E cfg label n) :=
  rctl_inner.exportSecret E cfg label n

/-- may `edhoc_export_key_update` run? -/
def okUpdate (c : Ctx) : Bool :=
  decide (Status.completed.toNat ≤ c.status.toNat) &&
    decide (PrkState.prk4e3m.toNat ≤ c.prkState.toNat)

theorem keyUpdate_outcome (b : Bytes) {s s' : St σ} {r : Res Unit}
    (h : keyUpdate E cfg b s = (r, s')) (hd : r.Defined) :
    (b.length = 0 ∧ r = .err .invalidArgument ∧ s' = s) ∨
    (b.length ≠ 0 ∧ okUpdate s.ctx = false ∧ r = .err .badState ∧ s' = s) ∨
    (b.length ≠ 0 ∧ okUpdate s.ctx = true ∧
      ((∃ e, r = .err e) ∧ s'.ctx.ctl = { s.ctx.ctl with status := .aborted } ∨
       (∃ a, r = .ok a) ∧ s'.ctx.ctl = { s.ctx.ctl with oscoreAllowed := true })) := by
  unfold keyUpdate at h
  by_cases hb : b.length = 0
  · left
    simp only [Bind.bind, M.bind, M.require, hb, bne_self_eq_false, Bool.false_eq_true,
      ↓reduceIte, Prod.mk.injEq] at h
    exact ⟨hb, h.1.symm, h.2.symm⟩
  · right
    by_cases ho : okUpdate s.ctx = true
    · right
      refine ⟨hb, ho, ?_⟩
      have hbody : ∀ c0 : Ctx, Ends (σ := σ) RCtl
          (QCtl fun c => { c with status := c0.status, oscoreAllowed := true })
          (ensurePrkOut E cfg >>= fun _ => mapErr .prk (compNewPrkOut E cfg b) >>= fun _ =>
            modCtx fun c' => { c' with status := c0.status, oscoreAllowed := true }) := by
        intro c0
        refine Ends.bind rctl_inner.toFrame rctl_absorb (rctl_inner.ensurePrkOut E cfg) fun _ => ?_
        refine Ends.bind rctl_inner.toFrame rctl_absorb
          (Pres.mapErr _ (rctl_inner.compNewPrkOut E cfg b)) fun _ => ?_
        exact Ends.modCtx fun s => rfl
      have hs := hbody s.ctx { s with ctx := { s.ctx with status := .aborted } }
      unfold okUpdate at ho
      simp only [Bind.bind, M.bind, M.require, M.getCtx, M.modCtx, ho, bne_iff_ne, ne_eq, hb,
        not_false_eq_true, ↓reduceIte] at h hs
      cases r with
      | ub u => simp at hd
      | err e => exact Or.inl ⟨⟨e, rfl⟩, (hs.1 _ _ h).2⟩
      | ok a => exact Or.inr ⟨⟨a, rfl⟩, hs.2 _ _ h⟩
    · left
      simp only [Bool.not_eq_true] at ho
      refine ⟨hb, ho, ?_⟩
      unfold okUpdate at ho
      simp only [Bind.bind, M.bind, M.require, M.getCtx, ho, bne_iff_ne, ne_eq, hb,
        not_false_eq_true, ↓reduceIte, Bool.false_eq_true, Prod.mk.injEq] at h
      exact ⟨h.1.symm, h.2.symm⟩

/-- may `edhoc_export_oscore_session` run? -/
def okOscore (c : Ctx) : Bool := c.oscoreAllowed && okUpdate c

theorem exportOscore_outcome (a b c d : Nat) {s s' : St σ} {r : Res Oscore}
    (h : exportOscore E cfg a b c d s = (r, s')) (hd : r.Defined) :
    ((a = 0 ∨ b = 0 ∨ c = 0 ∨ d = 0) ∧ r = .err .invalidArgument ∧ s' = s) ∨
    ((a ≠ 0 ∧ b ≠ 0 ∧ c ≠ 0 ∧ d ≠ 0) ∧ okOscore s.ctx = false ∧ r = .err .badState ∧ s' = s) ∨
    ((a ≠ 0 ∧ b ≠ 0 ∧ c ≠ 0 ∧ d ≠ 0) ∧ okOscore s.ctx = true ∧
      ((∃ e, r = .err e) ∧
          s'.ctx.ctl = { s.ctx.ctl with status := .aborted, oscoreAllowed := false } ∨
       (∃ x, r = .ok x) ∧ s'.ctx.ctl = { s.ctx.ctl with oscoreAllowed := false })) := by
  unfold exportOscore at h
  by_cases hb : (a != 0 && b != 0 && c != 0 && d != 0) = true
  · have hb' : a ≠ 0 ∧ b ≠ 0 ∧ c ≠ 0 ∧ d ≠ 0 := by simpa [and_assoc] using hb
    right
    by_cases ho : okOscore s.ctx = true
    · right
      refine ⟨hb', ho, ?_⟩
      have hbody : ∀ c0 : Ctx, Ends (σ := σ) RCtl
          (QCtl fun c => { c with status := c0.status })
          (mapErr .prk (exportSecret E cfg 0 a) >>= fun secret =>
            mapErr .prk (exportSecret E cfg 1 b) >>= fun salt =>
            ofRes (oscoreId c c0.peerCid) >>= fun sid =>
            ofRes (oscoreId d c0.cid) >>= fun rid =>
            modCtx (fun c' => { c' with status := c0.status }) >>= fun _ =>
            pure (Oscore.mk secret salt sid rid)) := by
        intro c0
        refine Ends.bind rctl_inner.toFrame rctl_absorb
          (Pres.mapErr _ (exportSecret_rctl E cfg _ _)) fun _ => ?_
        refine Ends.bind rctl_inner.toFrame rctl_absorb
          (Pres.mapErr _ (exportSecret_rctl E cfg _ _)) fun _ => ?_
        refine Ends.bind rctl_inner.toFrame rctl_absorb (Pres.ofRes rctl_inner.toFrame _) fun _ => ?_
        refine Ends.bind rctl_inner.toFrame rctl_absorb (Pres.ofRes rctl_inner.toFrame _) fun _ => ?_
        exact Ends.modCtx_pure fun s => rfl
      have hs := hbody s.ctx
        { s with ctx := { s.ctx with status := .aborted, oscoreAllowed := false } }
      unfold okOscore okUpdate at ho
      simp only [Bool.and_eq_true] at ho
      obtain ⟨ho1, ho2, ho3⟩ := ho
      simp only [Bind.bind, M.bind, M.require, M.getCtx, M.modCtx, ho1, ho2, ho3, hb, Bool.and_self,
        ↓reduceIte] at h hs
      cases r with
      | ub u => simp at hd
      | err e => exact Or.inl ⟨⟨e, rfl⟩, (hs.1 _ _ h).2⟩
      | ok x => exact Or.inr ⟨⟨x, rfl⟩, hs.2 _ _ h⟩
    · left
      simp only [Bool.not_eq_true] at ho
      refine ⟨hb', ho, ?_⟩
      unfold okOscore okUpdate at ho
      cases h1 : s.ctx.oscoreAllowed with
      | false =>
        simp only [Bind.bind, M.bind, M.require, M.getCtx, h1, hb,
          ↓reduceIte, Bool.false_eq_true, Prod.mk.injEq] at h
        exact ⟨h.1.symm, h.2.symm⟩
      | true =>
        rw [h1, Bool.true_and] at ho
        simp only [Bind.bind, M.bind, M.require, M.getCtx, h1, hb, ho,
          ↓reduceIte, Bool.false_eq_true, Prod.mk.injEq] at h
        exact ⟨h.1.symm, h.2.symm⟩
  · left
    simp only [Bool.not_eq_true] at hb
    simp only [Bind.bind, M.bind, M.require, hb, Bool.false_eq_true,
      ↓reduceIte, Prod.mk.injEq] at h
    refine ⟨?_, h.1.symm, h.2.symm⟩
    simpa [Classical.or_iff_not_imp_left] using hb

end Verif
