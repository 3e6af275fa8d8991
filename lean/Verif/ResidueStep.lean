import Verif.ResidueStale

/-!
# Calls on an aborted context do not see what failed callbacks left
-/

namespace Verif

open M Spec

variable {σ α β : Type} (E : Env σ) (cfg : Config)

theorem exportSecret_eq (l n : Nat) (s : St σ) : exportSecret E cfg l n s =
    if (l ≤ 65535 && n != 0) = true then
      if (l == 0 || l == 1 || decide (32768 ≤ l)) = true then
        if (decide (s.ctx.status.toNat ≤ Status.persisted.toNat) &&
            decide (PrkState.prk4e3m.toNat ≤ s.ctx.prkState.toNat)) = true then
          (ensurePrkOut E cfg >>= fun _ => exportTail E cfg l n s.ctx.suite.hash) s
        else (.err .badState, s)
      else (.err .badState, s)
    else (.err .invalidArgument, s) := by
  rw [exportSecret_tail]
  cases b1 : (decide (l ≤ 65535) && n != 0)
  · simp only [Bind.bind, M.bind, M.require, Bool.false_eq_true, ↓reduceIte]
  cases b2 : (l == 0 || l == 1 || decide (32768 ≤ l))
  · simp only [Bind.bind, M.bind, M.require, Bool.false_eq_true, ↓reduceIte]
  cases b3 : (decide (s.ctx.status.toNat ≤ Status.persisted.toNat) &&
            decide (PrkState.prk4e3m.toNat ≤ s.ctx.prkState.toNat))
  · simp only [Bind.bind, M.bind, M.require, getCtx, b3, Bool.false_eq_true, ↓reduceIte]
  · simp only [Bind.bind, M.bind, M.require, getCtx, b3, ↓reduceIte]

/-- the keys of a context -/
def Ctx.keyPart (c : Ctx) : Status × ThState × Bytes × PrkState × Bytes := (c.status, c.thState, c.th, c.prkState, c.prk)

theorem plain_keep {o : Op} (hk : callOf o = none) (hr : restarts o = false) (he : ∀ l n, o ≠ .exportSecret l n)
    (hu : isUpdate o = false) (ho : isOscore o = false) : Pres (Keeps (σ := σ) Ctx.keyPart) (step E cfg o) := by
  cases o <;> simp only [callOf, restarts, isUpdate, isOscore, reduceCtorEq, Bool.true_eq_false] at hk hr hu ho
  case exportSecret l n => exact absurd rfl (he l n)
  all_goals unfold step
  case nullArg => exact Pres.fail (keeps_frame _) _
  all_goals refine Pres.mapOut (keeps_frame _) _ ?_
  all_goals first
    | unfold setMethods | unfold setSuites | unfold setCid | unfold setUserCtx | unfold bindEad | unfold bindKeys | unfold bindCrypto
    | unfold bindCred | unfold errorGetCode | unfold errorGetSuites
  all_goals
    repeat' first
    | with_reducible refine Pres.bind (keeps_frame _) ?_ (fun _ => ?_)
    | with_reducible exact Pres.getCtx (keeps_frame _)
    | with_reducible exact Pres.require (keeps_frame _) _ _
    | with_reducible exact Pres.guardUB (keeps_frame _) _ _
    | with_reducible exact Pres.pure (keeps_frame _) _
    | exact Pres.modCtx _ fun s => rfl

/-- two states that differ at most in what failed callbacks left -/
def Alike (s t : St σ) : Prop := s.env = t.env ∧ s.log = t.log ∧ (Stale s.ctx t.ctx ∨ s.ctx = t.ctx)

theorem tail_keep {l : Nat} (hl : l ≤ 65535) (n hash : Nat) : Pres (KeepG (σ := σ) fun c => c) (exportTail E cfg l n hash) := by
  have hk := keepG_calls (σ := σ) (fun c => c)
  unfold exportTail
  refine (hk.memAlloc E cfg _).bind hk.toFrame fun _ => ?_
  refine (Pres.mapErr _ (hk.compPrkExporter E cfg)).bind hk.toFrame fun _ => ?_
  refine (hk.memAlloc E cfg _).bind hk.toFrame fun _ => ?_
  exact hk.expandInfo E _ _ _ _ _ _ hl

theorem tail_pres {l : Nat} (hl : l ≤ 65535) (n hash : Nat) :
    Pres (Keeps (σ := σ) fun c => c) (exportTail E cfg l n hash) :=
  (tail_keep E cfg hl n hash).mono fun _ _ h => h.2

theorem core_pres {l : Nat} (hl : l ≤ 65535) (n hash : Nat) : Pres (Keeps (σ := σ) fun c => c.status)
    (ensurePrkOut E cfg >>= fun _ => exportTail E cfg l n hash) := by
  refine Pres.bind (keeps_frame _) ((ensurePrkOut_pres E cfg).mono ?_) fun _ => (tail_pres E cfg hl n hash).mono ?_
  · rintro s s' ⟨_, h | ⟨_, _, _, _, _, h, _⟩⟩
    · exact congrArg Ctx.status h
    · simp only [Keeps, h]
  · exact fun _ _ h => congrArg Ctx.status h

theorem export_alike {l n : Nat} {c : Ctx} {x : σ} {L : List Ev} (ha : c.status = .aborted) {a b d t p : Bytes} {e : List EadTok}
    (h3 : c.thState = .th4 → t = c.th) (h4 : PrkState.prk4e3m.toNat ≤ c.prkState.toNat → p = c.prk)
    {r : Res Bytes} {t' : St σ} (h : exportSecret E cfg l n ⟨Ctx.overAll a b d t p e c, x, L⟩ = (r, t')) (hd : r.Defined) :
    ∃ s', exportSecret E cfg l n ⟨c, x, L⟩ = (r, s') ∧ Alike s' t' := by
  have stale : Stale c (Ctx.overAll a b d t p e c) := ⟨ha, a, b, d, t, p, e, rfl, h3, h4⟩
  have same : ∀ z, (Res.err z, (⟨Ctx.overAll a b d t p e c, x, L⟩ : St σ)) = (r, t') →
      ∃ s', (Res.err (α := Bytes) z, (⟨c, x, L⟩ : St σ)) = (r, s') ∧ Alike s' t' := by
    intro z hz
    simp only [Prod.mk.injEq] at hz
    obtain ⟨rfl, rfl⟩ := hz
    exact ⟨_, rfl, rfl, rfl, Or.inl stale⟩
  by_cases hp : PrkState.prk4e3m.toNat ≤ c.prkState.toNat
  · have hp' := h4 hp
    subst hp'
    -- the checks pass or fail for both
    have lift : (l ≤ 65535 → ∀ r1 t1, (ensurePrkOut E cfg >>= fun _ => exportTail E cfg l n c.suite.hash)
          (⟨Ctx.overAll a b d t c.prk e c, x, L⟩ : St σ) = (r1, t1) → r1.Defined →
          ∃ s', (ensurePrkOut E cfg >>= fun _ => exportTail E cfg l n c.suite.hash) (⟨c, x, L⟩ : St σ) = (r1, s') ∧ Alike s' t1) →
        ∃ s', exportSecret E cfg l n ⟨c, x, L⟩ = (r, s') ∧ Alike s' t' := by
      intro hcore
      rw [exportSecret_eq] at h ⊢
      have e1 : (Ctx.overAll a b d t c.prk e c).status = c.status := rfl
      have e2 : (Ctx.overAll a b d t c.prk e c).prkState = c.prkState := rfl
      have e3 : (Ctx.overAll a b d t c.prk e c).suite = c.suite := rfl
      simp only [e1, e2, e3] at h
      split at h
      · rename_i q1
        rw [if_pos q1]
        split at h
        · rename_i q2
          rw [if_pos q2]
          split at h
          · rename_i q3
            rw [if_pos q3]
            simp only [Bool.and_eq_true, decide_eq_true_eq] at q1
            exact hcore q1.1 _ _ h hd
          · rename_i q3
            rw [if_neg q3]
            exact same _ h
        · rename_i q2
          rw [if_neg q2]
          exact same _ h
      · rename_i q1
        rw [if_neg q1]
        exact same _ h
    refine lift ?_
    clear lift same h hd
    intro hl r1 t1 h hd
    by_cases h43 : c.prkState = .prk4e3m
    · by_cases ht : c.thState = .th4
      · -- TH_4 and PRK_4e3m are there: the rest does not matter
        have ht' := h3 ht
        subst ht'
        have hin : Indep (Ctx.overDh a b d e) (ensurePrkOut E cfg >>= fun _ => exportTail E cfg l n c.suite.hash) :=
          (ensurePrkOut_overDh E cfg).bind fun _ => exportTail_overDh E cfg l n _
        have hi := hin ⟨c, x, L⟩
        have hc : Ctx.overDh a b d e c = Ctx.overAll a b d c.th c.prk e c := rfl
        simp only [hc] at hi
        rw [h] at hi
        have hpres := core_pres E cfg hl n c.suite.hash (⟨c, x, L⟩ : St σ)
        rcases hs : (ensurePrkOut E cfg >>= fun _ => exportTail E cfg l n c.suite.hash) ⟨c, x, L⟩ with ⟨r1, s1⟩
        rw [hs] at hi hpres
        simp only [Prod.mk.injEq] at hi
        obtain ⟨rfl, rfl⟩ := hi
        refine ⟨s1, rfl, rfl, rfl, Or.inl ?_⟩
        have hst : s1.ctx.status = .aborted := (hpres hd).trans ha
        exact ⟨hst, a, b, d, s1.ctx.th, s1.ctx.prk, e, rfl, fun _ => rfl, fun _ => rfl⟩
      · -- TH_4 is not there: refused
        have key : ∀ c2 : Ctx, c2.prkState = .prk4e3m → c2.thState = c.thState →
            (ensurePrkOut E cfg) (⟨c2, x, L⟩ : St σ) = (.err .prk, ⟨c2, x, L⟩) := by
          intro c2 h1 h2
          have : (c2.thState == ThState.th4) = false := by rw [h2]; simpa using ht
          simp [ensurePrkOut, compPrkOut, Bind.bind, M.bind, getCtx, M.whenM, M.mapErr, M.require, h1, this]
        simp only [Bind.bind, M.bind, key (Ctx.overAll a b d t c.prk e c) h43 rfl, key c h43 rfl] at h ⊢
        simp only [Prod.mk.injEq] at h
        obtain ⟨rfl, rfl⟩ := h
        exact ⟨_, rfl, rfl, rfl, Or.inl stale⟩
    · -- PRK_out is there: TH is not read
      have hb : (c.prkState == PrkState.prk4e3m) = false := by simpa using h43
      have key : ∀ c2 : Ctx, c2.prkState = c.prkState → (ensurePrkOut E cfg) (⟨c2, x, L⟩ : St σ) = (.ok (), ⟨c2, x, L⟩) := by
        intro c2 h1
        simp [ensurePrkOut, Bind.bind, M.bind, getCtx, M.whenM, h1, hb]
      have hi := exportTail_over (a := a) (b := b) (d := d) (t := t) (e := e) E cfg l n c.suite.hash ⟨c, x, L⟩
      have hc : Ctx.over a b d t e c = Ctx.overAll a b d t c.prk e c := rfl
      simp only [hc] at hi
      simp only [Bind.bind, M.bind, key (Ctx.overAll a b d t c.prk e c) rfl, key c rfl] at h ⊢
      rw [h] at hi
      have hpres := tail_pres E cfg hl n c.suite.hash (⟨c, x, L⟩ : St σ)
      rcases hs : exportTail E cfg l n c.suite.hash ⟨c, x, L⟩ with ⟨r2, s1⟩
      rw [hs] at hi hpres
      simp only [Prod.mk.injEq] at hi
      obtain ⟨rfl, rfl⟩ := hi
      have hcc : s1.ctx = c := hpres hd
      refine ⟨s1, rfl, rfl, rfl, Or.inl ?_⟩
      rw [hcc]
      exact ⟨ha, a, b, d, t, c.prk, e, rfl, h3, fun _ => rfl⟩
  · have hb : decide (PrkState.prk4e3m.toNat ≤ c.prkState.toNat) = false := by simpa using hp
    have hb' : decide (PrkState.prk4e3m.toNat ≤ (Ctx.overAll a b d t p e c).prkState.toNat) = false := hb
    rw [exportSecret_eq] at h ⊢
    simp only [hb, hb', Bool.and_false, Bool.false_eq_true, ↓reduceIte] at h ⊢
    split at h
    · rename_i q1
      rw [if_pos q1]
      split at h
      · rename_i q2
        rw [if_pos q2]
        exact same _ h
      · rename_i q2
        rw [if_neg q2]
        exact same _ h
    · rename_i q1
      rw [if_neg q1]
      exact same _ h

/-- a call on an aborted context gives the same result, whatever failed callbacks left in it -/
theorem stale_step {o : Op} {s t : St σ} (ha : Alike s t) {r : Res Out} {t' : St σ} (h : step E cfg o t = (r, t')) (hd : r.Defined) :
    ∃ s', step E cfg o s = (r, s') ∧ Alike s' t' := by
  obtain ⟨c, x, L⟩ := s
  obtain ⟨c', x', L'⟩ := t
  obtain ⟨rfl, rfl, hc⟩ := ha
  simp only at hc
  rcases hc with hc | rfl
  rotate_left
  · exact ⟨t', h, rfl, rfl, Or.inr rfl⟩
  have hc0 := hc
  obtain ⟨h1, a, b, d, t, p, e, rfl, h3, h4⟩ := hc
  have h1' : (Ctx.overAll a b d t p e c).status = .aborted := h1
  have refused : Refused E cfg o ⟨Ctx.overAll a b d t p e c, x, L⟩ → Refused E cfg o ⟨c, x, L⟩ →
      ∃ s', step E cfg o ⟨c, x, L⟩ = (r, s') ∧ Alike s' t' := by
    intro q1 q2
    rw [q1] at h
    simp only [Prod.mk.injEq] at h
    obtain ⟨rfl, rfl⟩ := h
    exact ⟨_, q2, rfl, rfl, Or.inl hc0⟩
  cases hk : callOf o with
  | some k => exact refused (message_rejected hk (aborted_not_ok h1')) (message_rejected hk (aborted_not_ok h1))
  | none =>
    by_cases hu : isUpdate o = true ∨ isOscore o = true
    · exact refused (update_refused (aborted_okUpdate h1') hu) (update_refused (aborted_okUpdate h1) hu)
    · have hu1 : isUpdate o = false := by cases q : isUpdate o <;> simp [q] at hu ⊢
      have hu2 : isOscore o = false := by cases q : isOscore o <;> simp [q] at hu ⊢
      cases hr : restarts o with
      | false =>
        by_cases he : ∃ l n, o = .exportSecret l n
        · obtain ⟨l, n, rfl⟩ := he
          unfold step at h ⊢
          simp only [M.mapOut, Bind.bind, M.bind] at h ⊢
          rcases hx : exportSecret E cfg l n ⟨Ctx.overAll a b d t p e c, x, L⟩ with ⟨r1, t1⟩
          rw [hx] at h
          cases r1 with
          | ub u => simp only [Prod.mk.injEq] at h; rw [← h.1] at hd; exact absurd rfl (hd u)
          | ok v =>
            obtain ⟨s1, hs, hal⟩ := export_alike E cfg h1 h3 h4 hx (by intro u; simp)
            simp only [pure, M.ret, Prod.mk.injEq] at h
            obtain ⟨rfl, rfl⟩ := h
            exact ⟨s1, by rw [hs]; rfl, hal⟩
          | err v =>
            obtain ⟨s1, hs, hal⟩ := export_alike E cfg h1 h3 h4 hx (by intro u; simp)
            simp only [Prod.mk.injEq] at h
            obtain ⟨rfl, rfl⟩ := h
            exact ⟨s1, by rw [hs], hal⟩
        · have he' : ∀ l n, o ≠ .exportSecret l n := fun l n q => he ⟨l, n, q⟩
          have hi := plain_indep E cfg hk hr he' hu1 hu2 a b d t p e ⟨c, x, L⟩
          have hp := plain_keep E cfg hk hr he' hu1 hu2 (⟨c, x, L⟩ : St σ)
          rw [h] at hi
          rcases hs : step E cfg o ⟨c, x, L⟩ with ⟨r1, s1⟩
          rw [hs] at hi hp
          simp only [Prod.mk.injEq] at hi
          obtain ⟨rfl, rfl⟩ := hi
          have hp := hp hd
          simp only [Keeps, Ctx.keyPart, Prod.mk.injEq] at hp
          obtain ⟨p1, p2, p3, p4, p5⟩ := hp
          refine ⟨s1, rfl, rfl, rfl, Or.inl ⟨p1.trans h1, a, b, d, t, p, e, rfl, ?_, ?_⟩⟩
          · rw [p2, p3]; exact h3
          · rw [p4, p5]; exact h4
      | true =>
        cases o <;> simp only [restarts, Bool.false_eq_true] at hr
        · simp only [step, M.mapOut, contextInit, Bind.bind, M.bind, modCtx, pure, M.ret, Prod.mk.injEq] at h ⊢
          obtain ⟨rfl, rfl⟩ := h
          exact ⟨_, ⟨rfl, rfl⟩, rfl, rfl, Or.inr rfl⟩
        · have hi : (Ctx.overAll a b d t p e c).isInit = c.isInit := rfl
          cases hii : c.isInit
          · simp only [step, M.mapOut, contextDeinit, Bind.bind, M.bind, M.require, getCtx, hi, hii,
              Bool.false_eq_true, ↓reduceIte, Prod.mk.injEq] at h ⊢
            obtain ⟨rfl, rfl⟩ := h
            exact ⟨_, ⟨rfl, rfl⟩, rfl, rfl, Or.inl hc0⟩
          · simp only [step, M.mapOut, contextDeinit, Bind.bind, M.bind, modCtx, pure, M.ret, M.require, getCtx, hi, hii,
              ↓reduceIte, Prod.mk.injEq] at h ⊢
            obtain ⟨rfl, rfl⟩ := h
            exact ⟨_, ⟨rfl, rfl⟩, rfl, rfl, Or.inr rfl⟩

end Verif
