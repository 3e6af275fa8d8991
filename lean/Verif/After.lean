import Verif.Phase
import Verif.SpecCalls

/-!
# After the handshake: what later calls do to the keys
-/

namespace Verif

open M Spec

variable {σ : Type} {E : Env σ} {cfg : Config}

/-- The part of the context that stays as it is once the handshake is complete. -/
def Ctx.keep (c : Ctx) : Ctx :=
  { c with
    ead := [], status := .start, errorCode := .success, message := .msg1, role := .initiator
    oscoreAllowed := false, prk := [], prkState := .invalid }

theorem keep_proj {c c' : Ctx} (h : c'.keep = c.keep) : c'.th = c.th ∧ c'.thState = c.thState ∧
    c'.suite = c.suite ∧ c'.cid = c.cid ∧ c'.peerCid = c.peerCid ∧ c'.dhPriv = c.dhPriv ∧
    c'.chosenMethod = c.chosenMethod :=
  ⟨(congrArg Ctx.th h :), (congrArg Ctx.thState h :), (congrArg Ctx.suite h :), (congrArg Ctx.cid h :),
    (congrArg Ctx.peerCid h :), (congrArg Ctx.dhPriv h :), (congrArg Ctx.chosenMethod h :)⟩

/-- PRK_4e3m was replaced by PRK_out -/
def ToOut (s s' : St σ) : Prop :=
  s.ctx.prkState = .prk4e3m ∧ s.ctx.thState = .th4 ∧ s'.ctx.prkState = .out ∧
    s'.ctx.prk.length = s.ctx.prk.length ∧
    ∃ kid, Saw (evExpand kid s.ctx.prk (encInfo 7 s.ctx.th (u32 s.ctx.suite.hash)) s.ctx.prk.length s'.ctx.prk) s s'

/-- What later calls do to the context, apart from a successful key update: they may replace PRK_4e3m by PRK_out. -/
def OutMod (s s' : St σ) : Prop :=
  Grow s s' ∧ s'.ctx.keep = s.ctx.keep ∧
    ((s'.ctx.prk = s.ctx.prk ∧ s'.ctx.prkState = s.ctx.prkState) ∨ ToOut s s')

theorem outMod_calls : Calls (OutMod (σ := σ)) where
  refl s := ⟨Saw.refl s, rfl, Or.inl ⟨rfl, rfl⟩⟩
  trans := by
    rintro a b c ⟨g1, k1, h1⟩ ⟨g2, k2, h2⟩
    refine ⟨g1.left g2, k2.trans k1, ?_⟩
    obtain ⟨e1, e2, e3, _⟩ := keep_proj k1
    rcases h1 with ⟨p1, q1⟩ | ⟨h1, h2', h3, h4, kid, h5⟩
    · rcases h2 with ⟨p2, q2⟩ | ⟨h1, h2, h3, h4, kid, h5⟩
      · exact Or.inl ⟨p2.trans p1, q2.trans q1⟩
      · rw [p1, e1, e3] at h5
        exact Or.inr ⟨q1 ▸ h1, e2 ▸ h2, h3, by rw [h4, p1], kid, Saw.right g1 h5⟩
    · rcases h2 with ⟨p2, q2⟩ | ⟨j1, _⟩
      · exact Or.inr ⟨h1, h2', q2.trans h3, by rw [p2, h4], kid, by rw [p2]; exact h5.left g2⟩
      · rw [h3] at j1; cases j1
  ev s _ _ _ := ⟨(saw_ext rfl).grow, rfl, Or.inl ⟨rfl, rfl⟩⟩
  exp _ _ _ _ _ _ _ _ _ := ⟨(saw_ext rfl).grow, rfl, Or.inl ⟨rfl, rfl⟩⟩
  imp0 _ _ _ _ := ⟨(saw_ext rfl).grow, rfl, Or.inl ⟨rfl, rfl⟩⟩
  key s1 s3 e2 e4 t raw kid h := by
    have g1 : Grow s1 ⟨s1.ctx, e2, s1.log ++ [.importKey t raw (some kid)]⟩ := (saw_ext rfl).grow
    have g2 : Grow s3 ⟨s3.ctx, e4, s3.log ++ [.destroyKey kid]⟩ := (saw_ext rfl).grow
    obtain ⟨g, k, h⟩ := h
    refine ⟨(g1.left g).left g2, k, ?_⟩
    rcases h with h | ⟨h1, h2, h3, h4, kid, h5⟩
    · exact Or.inl h
    · exact Or.inr ⟨h1, h2, h3, h4, kid, Saw.mid h5 g1 g2⟩

theorem OutMod.upd {f : Ctx → Ctx} (h : ∀ c, (f c).keep = c.keep ∧ (f c).prk = c.prk ∧ (f c).prkState = c.prkState) :
    Pres (OutMod (σ := σ)) (modCtx f) :=
  Pres.modCtx f fun s => ⟨grow_of_log rfl, (h s.ctx).1, Or.inl (h s.ctx).2⟩

theorem OutCtx.mod {s s' : St σ} (h : OutCtx s s') : OutMod s s' := by
  obtain ⟨g, h⟩ := h
  rcases h with h | ⟨h1, h2, p, kid, h3, h4, h5⟩
  · exact ⟨g, by rw [h], Or.inl (by rw [h]; exact ⟨rfl, rfl⟩)⟩
  · exact ⟨g, by rw [h4]; rfl, Or.inr ⟨h1, h2, by rw [h4], by rw [h4]; exact h3, kid, by rw [h4]; exact h5⟩⟩

section

variable (E cfg)

theorem enter_mod (ok : Ctx → Bool) (m : Msg) (r : Role) : Pres (OutMod (σ := σ)) (enter ok m r) := by
  have F := (outMod_calls (σ := σ)).toFrame
  unfold enter
  refine (Pres.getCtx F).bind F fun _ => ?_
  refine (Pres.require F _ _).bind F fun _ => ?_
  exact OutMod.upd (by intro c; exact ⟨rfl, rfl, rfl⟩)

theorem eadCompose_mod : Pres (OutMod (σ := σ)) (eadCompose E cfg) := by
  have F := (outMod_calls (σ := σ)).toFrame
  unfold eadCompose
  refine (Pres.getCtx F).bind F fun c => ?_
  refine Pres.whenM F _ ?_
  refine (Pres.call _ _ fun _ => ⟨(saw_ext rfl).grow, rfl, Or.inl ⟨rfl, rfl⟩⟩).bind F fun _ => ?_
  refine (Pres.ofOption F _ _).bind F fun _ => ?_
  refine (OutMod.upd (by intro c; exact ⟨rfl, rfl, rfl⟩)).bind F fun _ => ?_
  exact Pres.require F _ _

theorem eadProcess_mod : Pres (OutMod (σ := σ)) (eadProcess E cfg) := by
  have F := (outMod_calls (σ := σ)).toFrame
  unfold eadProcess
  refine (Pres.getCtx F).bind F fun c => ?_
  refine Pres.whenM F _ ?_
  refine (Pres.call _ _ fun _ => ⟨(saw_ext rfl).grow, rfl, Or.inl ⟨rfl, rfl⟩⟩).bind F fun _ => ?_
  exact Pres.require F _ _

theorem message4Compose_mod (n : Nat) : Pres (OutMod (σ := σ)) (message4Compose E cfg n) := by
  have C := outMod_calls (σ := σ)
  have F := C.toFrame
  unfold message4Compose
  refine (Pres.require F _ _).bind F fun _ => ?_
  refine (enter_mod _ _ _).bind F fun _ => ?_
  refine (eadCompose_mod E cfg).bind F fun _ => ?_
  refine (Pres.getCtx F).bind F fun c => ?_
  refine (C.memAlloc E cfg _).bind F fun _ => ?_
  refine (Pres.ofRes F _).bind F fun _ => ?_
  refine (C.keyIvAad4 E cfg).bind F fun _ => ?_
  refine (C.memAlloc E cfg _).bind F fun _ => ?_
  refine (Pres.mapErr _ (C.aeadEncrypt E _ _ _ _ _)).bind F fun _ => ?_
  refine (Pres.mapErr _ ?_).bind F fun _ => ?_
  · unfold genMsg4
    exact (Pres.require F _ _).bind F fun _ => Pres.ofOption F _ _
  · exact (OutMod.upd (by intro c; exact ⟨rfl, rfl, rfl⟩)).bind F fun _ => Pres.pure F _

theorem message4Process_mod (b : Bytes) : Pres (OutMod (σ := σ)) (message4Process E cfg b) := by
  have C := outMod_calls (σ := σ)
  have F := C.toFrame
  unfold message4Process
  refine (Pres.require F _ _).bind F fun _ => ?_
  refine (enter_mod _ _ _).bind F fun _ => ?_
  refine (Pres.ofOption F _ _).bind F fun _ => ?_
  refine (C.keyIvAad4 E cfg).bind F fun _ => ?_
  refine (Pres.getCtx F).bind F fun c => ?_
  refine (C.memAlloc E cfg _).bind F fun _ => ?_
  refine (Pres.mapErr _ (C.aeadDecrypt E _ _ _ _ _)).bind F fun _ => ?_
  refine (Pres.mapErr _ ?_).bind F fun _ => ?_
  · unfold parsePtxt4
    exact (Pres.guardUB F _ _).bind F fun _ => Pres.bind F (OutMod.upd (by intro c; exact ⟨rfl, rfl, rfl⟩)) fun _ => (Pres.getCtx F).bind F fun _ => Pres.guardUB F _ _
  · exact (eadProcess_mod E cfg).bind F fun _ => OutMod.upd (by intro c; exact ⟨rfl, rfl, rfl⟩)

theorem exportSecret_mod (l n : Nat) : Pres (OutMod (σ := σ)) (exportSecret E cfg l n) :=
  (exportSecret_pres E cfg l n).mono fun _ _ h => h.mod

theorem exportOscore_mod (a b c d : Nat) : Pres (OutMod (σ := σ)) (exportOscore E cfg a b c d) := by
  have C := outMod_calls (σ := σ)
  have F := C.toFrame
  unfold exportOscore
  refine (Pres.require F _ _).bind F fun _ => ?_
  refine (Pres.getCtx F).bind F fun _ => ?_
  refine (Pres.require F _ _).bind F fun _ => ?_
  refine (Pres.require F _ _).bind F fun _ => ?_
  refine (OutMod.upd (by intro c; exact ⟨rfl, rfl, rfl⟩)).bind F fun _ => ?_
  refine (Pres.mapErr _ (exportSecret_mod E cfg _ _)).bind F fun _ => ?_
  refine (Pres.mapErr _ (exportSecret_mod E cfg _ _)).bind F fun _ => ?_
  refine (Pres.ofRes F _).bind F fun _ => ?_
  refine (Pres.ofRes F _).bind F fun _ => ?_
  exact (OutMod.upd (by intro c; exact ⟨rfl, rfl, rfl⟩)).bind F fun _ => Pres.pure F _

theorem mapErr_ends {α : Type} {R Q : St σ → St σ → Prop} {m : M σ α} (e : Err) (h : Ends R Q m) :
    Ends R Q (mapErr e m) := by
  intro s
  obtain ⟨h1, h2⟩ := h s
  unfold M.mapErr
  rcases hm : m s with ⟨r, s1⟩
  rw [hm] at h1 h2
  cases r with
  | ok a =>
    simp only [Prod.mk.injEq, Res.ok.injEq, reduceCtorEq, false_and, false_implies, implies_true, true_and]
    exact fun _ _ h => h2 _ _ (by rw [h.1, h.2])
  | err e =>
    simp only [Prod.mk.injEq, Res.err.injEq, reduceCtorEq, false_and, false_implies, implies_true, and_true]
    intro _ _ h; exact h1 _ _ (by rw [h.2])
  | ub u => simp

theorem Ends.then {α β : Type} {R Q : St σ → St σ → Prop} {m : M σ α} {f : α → M σ β} (hm : Ends R (fun _ _ => True) m)
    (hf : ∀ a, Ends (fun _ _ => False) Q (f a)) : Ends R (fun _ _ => True) (m >>= f) := by
  intro s
  refine ⟨fun e s' h => ?_, fun _ _ _ => trivial⟩
  have h' : M.bind m f s = (.err e, s') := h
  unfold M.bind at h'
  rcases h1 : m s with ⟨r, s1⟩
  rw [h1] at h'
  cases r with
  | ok a => exact ((hf a s1).1 _ _ h').elim
  | err e' =>
    simp only [Prod.mk.injEq] at h'
    rw [← h'.2]; exact (hm s).1 _ _ h1
  | ub u => simp at h'

theorem keyUpdate_err {b : Bytes} {s s' : St σ} {e : Err} (h : keyUpdate E cfg b s = (.err e, s')) :
    OutMod s s' := by
  have C := outMod_calls (σ := σ)
  have F := C.toFrame
  have : Ends (OutMod (σ := σ)) (fun _ _ => True) (keyUpdate E cfg b) := by
    unfold keyUpdate
    refine Ends.bind F absorb_true (Pres.require F _ _) fun _ => ?_
    refine Ends.bind F absorb_true (Pres.getCtx F) fun c => ?_
    refine Ends.bind F absorb_true (Pres.require F _ _) fun _ => ?_
    refine Ends.bind F absorb_true (OutMod.upd (by intro c; exact ⟨rfl, rfl, rfl⟩)) fun _ => ?_
    refine Ends.bind F absorb_true ((ensurePrkOut_pres E cfg).mono fun _ _ h => h.mod) fun _ => ?_
    refine Ends.then (Q := fun _ _ => True) (mapErr_ends _ fun s => ⟨fun _ _ h => ?_, fun _ _ _ => trivial⟩) fun _ => ?_
    · exact (compNewPrkOut_err E cfg h).outCtx.mod
    · exact Ends.modCtx fun _ => trivial
  exact (this s).1 _ _ h

end

/-- what later calls do -/
theorem later_step {o : Op} {s s' : St σ} {r : Res Out} (h : step E cfg o s = (r, s')) (hd : r.Defined)
    (hr : restarts o = false) (hx : reconf (o, r) = false) (hl : Late s.ctx) :
    Late s'.ctx ∧ (OutMod s s' ∨ ∃ b u, o = .keyUpdate b ∧ r = .ok .unit ∧ keyUpdate E cfg b s = (.ok u, s')) ∧
      (∀ b, o = .keyUpdate b → succeeded r = false → OutMod s s') := by
  have same : s' = s → Late s'.ctx ∧ OutMod s s' := by rintro rfl; exact ⟨hl, outMod_calls.toFrame.refl _⟩
  have fin : (Late s'.ctx ∧ OutMod s s') → Late s'.ctx ∧
      (OutMod s s' ∨ ∃ b u, o = .keyUpdate b ∧ r = .ok .unit ∧ keyUpdate E cfg b s = (.ok u, s')) ∧
      (∀ b, o = .keyUpdate b → succeeded r = false → OutMod s s') :=
    fun h => ⟨h.1, Or.inl h.2, fun _ _ _ => h.2⟩
  cases hk : callOf o with
  | some k =>
    refine fin ?_
    have hlate : Late s'.ctx := by
      rcases step_message hk h hd with ⟨_, _, rfl⟩ | ⟨_, _, _, rfl⟩ | ⟨_, _, _, _, _, _, hc⟩ | ⟨_, ho, ⟨a, rfl⟩, _⟩
      · exact hl
      · exact hl
      · exact Or.inr (Or.inr (ctl1_proj hc).2.1)
      · cases k <;> simp only [okOf, okStart, okReceivedM1, okWaitM2, okVerifiedM2, okWaitM3, okCompleted,
          Bool.and_eq_true, beq_iff_eq] at ho
        case compose4 =>
          obtain ⟨n, m, rfl, rfl, c⟩ := step_compose4 hk h
          obtain ⟨_, _, _, _, _, h1⟩ := message4Compose_ok c
          rw [h1.ctx]; exact Or.inr (Or.inl rfl)
        case process4 =>
          obtain ⟨m, rfl, rfl, c⟩ := step_process4 hk h
          obtain ⟨_, _, _, _, h1⟩ := message4Process_ok c
          rw [h1.ctx]; exact Or.inr (Or.inl rfl)
        all_goals (unfold Late at hl; rw [ho.1.1] at hl; simp at hl)
    refine ⟨hlate, ?_⟩
    cases k
    case compose4 =>
      cases o <;> simp only [callOf, Option.some.injEq, reduceCtorEq] at hk
      rename_i n
      have h' : M.mapOut Out.bytes (message4Compose E cfg n) s = (r, s') := h
      have := Pres.mapOut outMod_calls.toFrame Out.bytes (message4Compose_mod E cfg n) s
      rw [h'] at this
      exact this hd
    case process4 =>
      cases o <;> simp only [callOf, Option.some.injEq, reduceCtorEq] at hk
      rename_i m
      have h' : M.mapOut (fun _ => Out.unit) (message4Process E cfg m) s = (r, s') := h
      have := Pres.mapOut outMod_calls.toFrame (fun _ => Out.unit) (message4Process_mod E cfg m) s
      rw [h'] at this
      exact this hd
    all_goals
      refine (same ?_).2
      rcases step_message hk h hd with ⟨_, _, rfl⟩ | ⟨_, _, _, rfl⟩ | ⟨_, ho, _⟩ | ⟨_, ho, _⟩
      · rfl
      · rfl
      · simp only [okOf, okStart, okReceivedM1, okWaitM2, okVerifiedM2, okWaitM3, okCompleted,
          Bool.and_eq_true, beq_iff_eq] at ho
        unfold Late at hl; rw [ho.1.1] at hl; simp at hl
      · simp only [okOf, okStart, okReceivedM1, okWaitM2, okVerifiedM2, okWaitM3, okCompleted,
          Bool.and_eq_true, beq_iff_eq] at ho
        unfold Late at hl; rw [ho.1.1] at hl; simp at hl
  | none =>
    by_cases hs : isSetter o = true
    · refine fin (same ?_)
      rcases C30_setters (E := E) (cfg := cfg) hs s with ⟨_, _, c', h1, h2⟩ | ⟨_, e, _, h1⟩
      · rw [h] at h1
        simp only [Prod.mk.injEq] at h1
        rw [h1.1] at hx
        simp [reconf, hs, succeeded] at hx
      · rw [h] at h1
        simp only [Prod.mk.injEq] at h1
        exact h1.2
    · cases o <;> simp only [callOf, reduceCtorEq] at hk <;> simp only [restarts, Bool.true_eq_false] at hr <;>
        simp only [isSetter, not_true_eq_false] at hs
      case nullArg =>
        simp only [step, M.fail, Prod.mk.injEq] at h
        exact fin (same h.2.symm)
      case exportSecret l n =>
        obtain ⟨r0, h0, hr0⟩ := step_export h
        have hd0 : r0.Defined := by
          rcases hr0 with ⟨a, rfl, _⟩ | ⟨e, rfl, _⟩ | ⟨u, rfl, rfl⟩ <;> simp_all
        have h1 := exportSecret_pres E cfg l n s
        rw [h0] at h1
        have h2 := h1 hd0
        refine fin ⟨?_, h2.mod⟩
        rcases h2.2 with h3 | ⟨_, _, _, _, _, h3, _⟩ <;> rw [h3] <;> exact hl
      case keyUpdate b =>
        obtain ⟨r0, h0, ⟨a, rfl, rfl⟩ | ⟨e, rfl, rfl⟩ | ⟨u, rfl, rfl⟩⟩ := step_update h
        · obtain ⟨_, _, _, hq, p, q, kid, _, _, _, _, hc⟩ := keyUpdate_ok h0
          refine ⟨by rw [hc]; exact hl, Or.inr ⟨b, a, rfl, rfl, h0⟩, fun _ _ h => by simp [succeeded] at h⟩
        · have hm := keyUpdate_err E cfg h0
          refine ⟨?_, Or.inl hm, fun _ _ _ => hm⟩
          rcases keyUpdate_outcome E cfg b h0 (by simp) with ⟨_, _, rfl⟩ | ⟨_, _, _, rfl⟩ | ⟨_, _, ⟨_, hc⟩ | ⟨⟨_, ha⟩, _⟩⟩
          · exact hl
          · exact hl
          · exact Or.inr (Or.inr (by have hh := congrArg Ctx.status hc; exact hh))
          · cases ha
        · simp at hd
      case exportOscore a b c d =>
        obtain ⟨r0, h0, hr0⟩ := step_oscore h
        have hd0 : r0.Defined := by
          rcases hr0 with ⟨a, rfl, _⟩ | ⟨e, rfl, _⟩ | ⟨u, rfl, rfl⟩ <;> simp_all
        have h1 := exportOscore_mod E cfg a b c d s
        rw [h0] at h1
        refine fin ⟨?_, h1 hd0⟩
        rcases exportOscore_outcome E cfg a b c d h0 hd0 with
          ⟨_, _, rfl⟩ | ⟨_, _, _, rfl⟩ | ⟨_, _, ⟨_, hc⟩ | ⟨_, hc⟩⟩
        · exact hl
        · exact hl
        · exact Or.inr (Or.inr (by have hh := congrArg Ctx.status hc; exact hh))
        · have hh := congrArg Ctx.status hc
          have hh' : s'.ctx.status = s.ctx.status := hh
          unfold Late; rw [hh']; exact hl
      case getCode => exact fin (same (getCode_state h))
      case getSuites a b => exact fin (same (getSuites_state h hd))

end Verif
