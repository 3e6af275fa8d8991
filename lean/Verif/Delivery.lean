import Verif.Emits
import Verif.Bridge

/-!
# When the EAD process callback is called

Stepping through a process function from the knowledge that the callback was called.
-/

namespace Verif

open M Spec

variable {σ α β : Type}

/-- not a call to the EAD process callback -/
def notEad : Kind → Bool
  | .eadProcess _ => false
  | _ => true

theorem noEad_of_within {ks : List Kind} {es : List Ev} (h : Within ks es) (hk : ks.all notEad = true) :
    ∀ m ts b, Ev.eadProcess m ts b ∉ es := by
  intro m ts b
  induction h with
  | nil => simp
  | skip h1 _ ih =>
    intro hm
    rcases List.mem_cons.1 hm with rfl | hm
    · cases h1
    · exact ih hk hm
  | hit h1 _ ih =>
    simp only [List.all_cons, Bool.and_eq_true] at hk
    intro hm
    rcases List.mem_cons.1 hm with rfl | hm
    · cases h1; cases hk.1
    · exact ih hk.2 hm
  | miss _ ih =>
    simp only [List.all_cons, Bool.and_eq_true] at hk
    exact ih hk.2

/-- message `msg` is being worked on and the EAD process callback was not called since `s0` -/
def NoEad (msg : Msg) (s0 s : St σ) : Prop :=
  s.ctx.message = msg ∧ ∃ es, s.log = s0.log ++ es ∧ ∀ m ts b, Ev.eadProcess m ts b ∉ es

theorem NoEad.not_mem {msg : Msg} {s0 s : St σ} (h : NoEad msg s0 s) {m : Msg} {ts : List EadTok} {b : Bool} :
    Ev.eadProcess m ts b ∉ during s0 s := by
  obtain ⟨_, es, h1, h2⟩ := h
  unfold during
  rw [h1, List.drop_left]
  exact h2 m ts b

/-- a program that does not call the callback -/
def NoEadIn (msg : Msg) (m : M σ α) : Prop := ∃ ks, Emits msg m ks ∧ ks.all notEad = true

theorem NoEadIn.after {msg : Msg} {m : M σ α} (hm : NoEadIn msg m) {s0 s s' : St σ} {r : Res α} (hn : NoEad msg s0 s)
    (h : m s = (r, s')) (hd : r.Defined) : NoEad msg s0 s' := by
  obtain ⟨ks, he, hk⟩ := hm
  obtain ⟨h1, es, h2, h3⟩ := hn
  have h4 := he s h1
  rw [h] at h4
  obtain ⟨h5, es', h6, h7⟩ := h4 hd
  refine ⟨h5, es ++ es', by rw [h6, h2, List.append_assoc], fun m ts b hm => ?_⟩
  rcases List.mem_append.1 hm with hm | hm
  · exact h3 m ts b hm
  · exact noEad_of_within h7 hk m ts b hm

/-- If the callback was called in the end, it was not in this step. -/
theorem NoEadIn.step {msg : Msg} {m : M σ α} (hm : NoEadIn msg m) {f : α → M σ β} {s0 s s' : St σ} {r : Res β}
    (hn : NoEad msg s0 s) (h : (m >>= f) s = (r, s')) (hd : r.Defined) (hx : ¬ NoEad msg s0 s') :
    ∃ a s1, m s = (.ok a, s1) ∧ f a s1 = (r, s') ∧ NoEad msg s0 s1 := by
  rcases bind_cases h hd with ⟨a, s1, h1, h2⟩ | ⟨e, h1⟩
  · exact ⟨a, s1, h1, h2, hm.after hn h1 (by simp)⟩
  · exact absurd (hm.after hn h1 (by simp)) hx

theorem Emits.noEad {msg : Msg} {m : M σ α} {ks : List Kind} (h : Emits msg m ks) (hk : ks.all notEad = true := by rfl) :
    NoEadIn msg m := ⟨ks, h, hk⟩

theorem NoEad.mod {msg : Msg} {g : Ctx → Ctx} {f : Unit → M σ β} {s0 s s' : St σ} {r : Res β} (hn : NoEad msg s0 s)
    (h : (M.modCtx g >>= f) s = (r, s')) (hd : r.Defined) (hx : ¬ NoEad msg s0 s')
    (hg : ∀ c, (g c).message = c.message := by exact fun _ => rfl) :
    ∃ s1, M.modCtx g s = (.ok (), s1) ∧ f () s1 = (r, s') ∧ NoEad msg s0 s1 := by
  obtain ⟨u, s1, h1, h2, h3⟩ := (Emits.modCtx hg).noEad.step hn h hd hx
  exact ⟨s1, h1, h2, h3⟩

/-- the start of every process function -/
theorem NoEad.enter {ok : Ctx → Bool} {msg : Msg} {ro : Role} {b : Bool} {e : Err} {f : Unit → M σ β} {s s' : St σ}
    {r : Res β} (h : (M.require b e >>= fun _ => Verif.enter ok msg ro >>= f) s = (r, s')) (hd : r.Defined)
    {m : Msg} {ts : List EadTok} {q : Bool} (hx : Ev.eadProcess m ts q ∈ during s s') :
    ∃ s1, Verif.enter ok msg ro s = (.ok (), s1) ∧ f () s1 = (r, s') ∧ NoEad msg s s1 ∧ ¬ NoEad msg s s' := by
  have hq : ¬ NoEad msg s s' := fun hn => hn.not_mem hx
  have same : s.log = s'.log → False := by
    intro hl
    unfold during at hx
    rw [← hl, List.drop_length] at hx
    cases hx
  rcases bind_cases h hd with ⟨_, s1, h1, h2⟩ | ⟨_, h1⟩
  · obtain ⟨_, rfl⟩ := require_ok.1 h1
    rcases bind_cases h2 hd with ⟨_, s2, h3, h4⟩ | ⟨_, h3⟩
    · obtain ⟨_, c1, l1⟩ := enter_st h3
      exact ⟨s2, h3, h4, ⟨by rw [c1], [], by rw [l1]; simp, by simp⟩, hq⟩
    · exfalso
      unfold Verif.enter at h3
      rcases bind_cases h3 (by simp) with ⟨_, s2, h4, h5⟩ | ⟨_, h4⟩
      · obtain ⟨rfl, rfl⟩ := getCtx_ok.1 h4
        rcases bind_cases h5 (by simp) with ⟨_, s2, h6, h7⟩ | ⟨_, h6⟩
        · simp [M.modCtx] at h7
        · unfold M.require at h6
          split at h6
          · simp at h6
          · simp only [Prod.mk.injEq] at h6
            exact same (by rw [h6.2])
      · simp [M.getCtx] at h4
  · exfalso
    unfold M.require at h1
    split at h1
    · simp at h1
    · simp only [Prod.mk.injEq] at h1
      exact same (by rw [h1.2])

theorem require_state {b : Bool} {e : Err} {s s' : St σ} {x : Res Unit} (h : M.require b e s = (x, s')) : s' = s := by
  unfold M.require at h
  split at h <;> exact (congrArg Prod.snd h).symm

/-- The step that calls the callback, in messages 2, 3 and 4. -/
theorem eadProcess_event {E : Env σ} {cfg : Config} {msg : Msg} {f : Unit → M σ β} {s0 s s' : St σ} {r : Res β}
    (hn : NoEad msg s0 s) (h : (eadProcess E cfg >>= f) s = (r, s')) (hd : r.Defined) (hf : ∀ u, NoEadIn msg (f u)) :
    Grow s s' ∧ ∀ {m ts q}, Ev.eadProcess m ts q ∈ during s0 s' →
      m = msg ∧ ts = s.ctx.ead ∧ ts ≠ [] ∧ processesEad cfg s.ctx = true := by
  -- what the step itself does
  have key : ∀ {x : Res Unit} {s1 : St σ}, eadProcess E cfg s = (x, s1) → x.Defined →
      s1.ctx.message = msg ∧ (s1.log = s.log ∨ ∃ q, s1.log = s.log ++ [.eadProcess msg s.ctx.ead q] ∧ s.ctx.ead ≠ [] ∧
        processesEad cfg s.ctx = true) := by
    intro x s1 hx hxd
    unfold eadProcess at hx
    rcases bind_cases hx hxd with ⟨c, s2, h1, h2⟩ | ⟨_, h1⟩
    · obtain ⟨rfl, rfl⟩ := getCtx_ok.1 h1
      unfold M.whenM at h2
      split at h2
      · rename_i hg
        simp only [Bool.and_eq_true, Bool.not_eq_true', List.isEmpty_eq_false_iff] at hg
        have hp : processesEad cfg s.ctx = true := by simpa [processesEad] using hg.1
        rw [hn.1] at h2
        rcases bind_cases h2 hxd with ⟨q, s3, h3, h4⟩ | ⟨_, h3⟩
        · obtain ⟨_, rfl⟩ := call_ok.1 h3
          obtain rfl := require_state h4
          exact ⟨hn.1, Or.inr ⟨_, rfl, hg.2, hp⟩⟩
        · simp [M.call] at h3
      · have := congrArg Prod.snd h2
        have : s1 = s := this.symm
        subst this
        exact ⟨hn.1, Or.inl rfl⟩
    · simp [M.getCtx] at h1
  obtain ⟨_, es, l0, n0⟩ := hn
  -- the rest
  have rest : ∀ {s1 : St σ}, s1.ctx.message = msg → ((∃ u, f u s1 = (r, s')) ∨ s1 = s') →
      ∃ es', s'.log = s1.log ++ es' ∧ ∀ m ts b, Ev.eadProcess m ts b ∉ es' := by
    intro s1 hm hc
    rcases hc with ⟨u, hu⟩ | rfl
    · have := (hf u).after (s0 := s1) ⟨hm, [], by simp, by simp⟩ hu hd
      exact this.2
    · exact ⟨[], by simp, by simp⟩
  have fin : ∀ {x : Res Unit} {s1 : St σ}, eadProcess E cfg s = (x, s1) → x.Defined →
      ((∃ u, f u s1 = (r, s')) ∨ s1 = s') → Grow s s' ∧ ∀ {m ts q}, Ev.eadProcess m ts q ∈ during s0 s' →
      m = msg ∧ ts = s.ctx.ead ∧ ts ≠ [] ∧ processesEad cfg s.ctx = true := by
    intro x s1 hx hxd hc
    obtain ⟨hm, hl⟩ := key hx hxd
    obtain ⟨es', l2, n2⟩ := rest hm hc
    rcases hl with hl | ⟨q, hl, he, hp⟩
    · refine ⟨(saw_ext (by rw [l2, hl])).grow, fun {m ts q} hmem => ?_⟩
      unfold during at hmem
      rw [l2, hl, l0, List.append_assoc, List.drop_left] at hmem
      rcases List.mem_append.1 hmem with hmem | hmem
      · exact absurd hmem (n0 _ _ _)
      · exact absurd hmem (n2 _ _ _)
    · refine ⟨(saw_ext (by rw [l2, hl, List.append_assoc])).grow, fun {m ts q} hmem => ?_⟩
      unfold during at hmem
      rw [l2, hl, l0, List.append_assoc, List.append_assoc, List.drop_left] at hmem
      rcases List.mem_append.1 hmem with hmem | hmem
      · exact absurd hmem (n0 _ _ _)
      · rcases List.mem_append.1 hmem with hmem | hmem
        · simp only [List.mem_singleton, Ev.eadProcess.injEq] at hmem
          exact ⟨hmem.1, hmem.2.1, by rw [hmem.2.1]; exact he, hp⟩
        · exact absurd hmem (n2 _ _ _)
  rcases bind_cases h hd with ⟨u, s1, h1, h2⟩ | ⟨e, h1⟩
  · exact fin h1 (by simp) (Or.inl ⟨u, h2⟩)
  · exact fin h1 (by simp) (Or.inr rfl)

/-- The step that calls the callback, in message 1. -/
theorem processEad1_event {E : Env σ} {cfg : Config} {toks : List EadTok} {over : Nat} {f : Unit → M σ β} {s0 s s' : St σ} {r : Res β}
    (hn : NoEad .msg1 s0 s) (h : (processEad1 E cfg toks over >>= f) s = (r, s')) (hd : r.Defined)
    (hf : ∀ u, NoEadIn .msg1 (f u)) {m : Msg} {ts : List EadTok} {q : Bool} (hx : Ev.eadProcess m ts q ∈ during s0 s') :
    m = .msg1 ∧ ts = toks ∧ ts ≠ [] ∧ ts.length ≤ cfg.maxEad ∧ s.ctx.hasEadProcess = true := by
  have key : ∀ {x : Res Unit} {s1 : St σ}, processEad1 E cfg toks over s = (x, s1) → x.Defined →
      s1.ctx.message = .msg1 ∧ (s1.log = s.log ∨ ∃ q, s1.log = s.log ++ [.eadProcess .msg1 toks q] ∧ toks ≠ [] ∧
        toks.length ≤ cfg.maxEad ∧ s.ctx.hasEadProcess = true) := by
    intro x s1 hx hxd
    unfold processEad1 at hx
    rcases bind_cases hx hxd with ⟨c, s2, h1, h2⟩ | ⟨_, h1⟩
    · obtain ⟨rfl, rfl⟩ := getCtx_ok.1 h1
      unfold M.whenM at h2
      split at h2
      · rename_i hg
        simp only [Bool.and_eq_true, Bool.not_eq_true', List.isEmpty_eq_false_iff] at hg
        rcases bind_cases h2 hxd with ⟨_, s3, h3, h4⟩ | ⟨_, h3⟩
        · obtain ⟨hle, rfl⟩ := require_ok.1 h3
          rcases bind_cases h4 hxd with ⟨_, _, h5, h4⟩ | ⟨_, h5⟩
          rotate_left
          · unfold M.guardUB at h5
            split at h5 <;> simp at h5
          obtain ⟨_, rfl⟩ := guardUB_ok.1 h5
          rcases bind_cases h4 hxd with ⟨_, s4, h5, h6⟩ | ⟨_, h5⟩
          · obtain rfl := modCtx_ok.1 h5
            rcases bind_cases h6 hxd with ⟨_, _, h7, h6⟩ | ⟨_, h7⟩
            · obtain ⟨_, rfl⟩ := guardUB_ok.1 h7
              rcases bind_cases h6 hxd with ⟨q, s5, h7, h8⟩ | ⟨_, h7⟩
              · obtain ⟨_, rfl⟩ := call_ok.1 h7
                rcases bind_cases h8 hxd with ⟨_, s6, h9, h10⟩ | ⟨_, h9⟩
                · unfold clearEad at h9
                  obtain rfl := modCtx_ok.1 h9
                  obtain rfl := require_state h10
                  exact ⟨hn.1, Or.inr ⟨_, rfl, hg.1, by simpa using hle, hg.2⟩⟩
                · simp [clearEad, M.modCtx] at h9
              · simp [M.call] at h7
            · unfold M.guardUB at h7
              split at h7 <;> simp at h7
          · simp [M.modCtx] at h5
        · unfold M.require at h3
          split at h3
          · simp at h3
          · simp only [Prod.mk.injEq] at h3
            rw [← h3.2]
            exact ⟨hn.1, Or.inl rfl⟩
      · have := congrArg Prod.snd h2
        have : s1 = s := this.symm
        subst this
        exact ⟨hn.1, Or.inl rfl⟩
    · simp [M.getCtx] at h1
  obtain ⟨_, es, l0, n0⟩ := hn
  have rest : ∀ {s1 : St σ}, s1.ctx.message = .msg1 → ((∃ u, f u s1 = (r, s')) ∨ s1 = s') →
      ∃ es', s'.log = s1.log ++ es' ∧ ∀ m ts b, Ev.eadProcess m ts b ∉ es' := by
    intro s1 hm hc
    rcases hc with ⟨u, hu⟩ | rfl
    · exact ((hf u).after (s0 := s1) ⟨hm, [], by simp, by simp⟩ hu hd).2
    · exact ⟨[], by simp, by simp⟩
  have fin : ∀ {x : Res Unit} {s1 : St σ}, processEad1 E cfg toks over s = (x, s1) → x.Defined →
      ((∃ u, f u s1 = (r, s')) ∨ s1 = s') →
      m = .msg1 ∧ ts = toks ∧ ts ≠ [] ∧ ts.length ≤ cfg.maxEad ∧ s.ctx.hasEadProcess = true := by
    intro x s1 hp hpd hc
    obtain ⟨hm, hl⟩ := key hp hpd
    obtain ⟨es', l2, n2⟩ := rest hm hc
    unfold during at hx
    rcases hl with hl | ⟨q', hl, he, hle, hh⟩
    · rw [l2, hl, l0, List.append_assoc, List.drop_left] at hx
      rcases List.mem_append.1 hx with hx | hx
      · exact absurd hx (n0 _ _ _)
      · exact absurd hx (n2 _ _ _)
    · rw [l2, hl, l0, List.append_assoc, List.append_assoc, List.drop_left] at hx
      rcases List.mem_append.1 hx with hx | hx
      · exact absurd hx (n0 _ _ _)
      · rcases List.mem_append.1 hx with hx | hx
        · simp only [List.mem_singleton, Ev.eadProcess.injEq] at hx
          exact ⟨hx.1, hx.2.1, by rw [hx.2.1]; exact he, by rw [hx.2.1]; exact hle, hh⟩
        · exact absurd hx (n2 _ _ _)
  rcases bind_cases h hd with ⟨u, s1, h1, h2⟩ | ⟨e, h1⟩
  · exact fin h1 (by simp) (Or.inl ⟨u, h2⟩)
  · exact fin h1 (by simp) (Or.inr rfl)

end Verif
