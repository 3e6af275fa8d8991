import Verif.SpecResidue
import Verif.Export
import Verif.Growth
import Verif.Props.History

/-!
# The API with and without residues: same behaviour, or a derivation of PRK_out failed
-/

namespace Verif

open M Spec

variable {σ α β : Type}

/-- between `s` and `s'` a derivation of PRK_out failed, and the callback does not leave the key as it was -/
def BadKey (w : Residue σ) (s s' : St σ) : Prop :=
  (∃ L, s'.log = s.log ++ L ∧ FailedInPlace L) ∧ ¬ ∀ e b, w.key e b = b

theorem BadKey.right {w : Residue σ} {s s1 s' : St σ} (g : Grow s s1) : BadKey w s1 s' → BadKey w s s' := by
  obtain ⟨a, b, g⟩ := g
  rintro ⟨⟨L, h, kid, c, hh, n, l, hl, hm⟩, hw⟩
  refine ⟨?_, hw⟩
  exact ⟨(a ++ ([] ++ b)) ++ L, by rw [h, g]; simp, kid, c, hh, n, l, hl, List.mem_append_right _ hm⟩

/-- `m'` does what `m` does in `s`, or fails because a derivation of PRK_out failed -/
def SameOr (w : Residue σ) (m m' : M σ α) (s : St σ) : Prop := m' s = m s ∨ ∃ e s', m' s = (.err e, s') ∧ BadKey w s s'

theorem SameOr.rfl' {w : Residue σ} {m : M σ α} {s : St σ} : SameOr w m m s := Or.inl rfl

theorem SameOr.bind {w : Residue σ} {m m' : M σ α} {k k' : α → M σ β} {s : St σ} (h : SameOr w m m' s)
    (hg : ∀ a s1, m s = (.ok a, s1) → Grow s s1)
    (hk : ∀ a s1, m s = (.ok a, s1) → SameOr w (k a) (k' a) s1) : SameOr w (m >>= k) (m' >>= k') s := by
  rcases h with h | ⟨e, s', h, hb⟩
  · unfold SameOr
    simp only [Bind.bind, M.bind, h]
    rcases hm : m s with ⟨r, s1⟩
    cases r with
    | ok a =>
      rcases hk a s1 hm with h2 | ⟨e, s', h2, hb⟩
      · exact Or.inl h2
      · exact Or.inr ⟨e, s', h2, hb.right (hg a s1 hm)⟩
    | err e => exact Or.inl rfl
    | ub u => exact Or.inl rfl
  · exact Or.inr ⟨e, s', by simp only [Bind.bind, M.bind, h], hb⟩

theorem SameOr.mapErr {w : Residue σ} {m m' : M σ α} {e : Err} {s : St σ} (h : SameOr w m m' s) :
    SameOr w (M.mapErr e m) (M.mapErr e m') s := by
  rcases h with h | ⟨e', s', h, hb⟩
  · exact Or.inl (by simp only [M.mapErr, h])
  · exact Or.inr ⟨e, s', by simp only [M.mapErr, h], hb⟩

theorem SameOr.whenM {w : Residue σ} {m m' : M σ Unit} {b : Bool} {s : St σ} (h : SameOr w m m' s) :
    SameOr w (M.whenM b m) (M.whenM b m') s := by
  cases b
  · exact Or.inl rfl
  · exact h

/-- same first statement that only reads or calls -/
theorem SameOr.next {w : Residue σ} {m : M σ α} {k k' : α → M σ β} {s : St σ} (hg : ∀ a s1, m s = (.ok a, s1) → Grow s s1)
    (hk : ∀ a s1, m s = (.ok a, s1) → SameOr w (k a) (k' a) s1) : SameOr w (m >>= k) (m >>= k') s :=
  SameOr.bind SameOr.rfl' hg hk

theorem encInfo_info (label : Nat) (context : Bytes) (n : Nat) : encInfo label context n = Spec.info label context n := by
  simp [encInfo, Spec.info, encInt]

variable (E : Env σ) (cfg : Config) (w : Residue σ)

theorem expandInPlace_same {n label : Nat} {context : Bytes} (hl : label = 7 ∨ label = 11) (s : St σ) :
    SameOr w (expandInfo E n s.ctx.prk label context s.ctx.suite.hash s.ctx.prk.length >>= fun p =>
      modCtx fun c => { c with prk := p, prkState := .out }) (expandInPlace E w n label context) s := by
  unfold expandInPlace expandInfo
  simp only [Bind.bind, M.bind, getCtx, SameOr]
  cases hf : fits n (encInfo label context (u32 s.ctx.suite.hash)) with
  | none => left; rfl
  | some info =>
    simp only [ofOption]
    have hi : info = Spec.info label context (u32 s.ctx.suite.hash) := by
      unfold fits at hf
      split at hf
      · cases hf; rw [encInfo_info]
      · cases hf
    cases hk : s.ctx.hasKeys
    · left; simp [withKey, importKey, needKeys, Bind.bind, M.bind, getCtx, guardUB, hk]
    · rcases hi1 : E.importKey s.env .expand s.ctx.prk with ⟨r1, e1⟩
      cases r1 with
      | none => left; simp [withKey, importKey, needKeys, Bind.bind, M.bind, getCtx, guardUB, hk, M.call, hi1, ofOption]
      | some kid =>
        cases hc : s.ctx.hasCrypto
        · left
          simp [withKey, importKey, needKeys, needCrypto, expand, Bind.bind, M.bind, getCtx, guardUB, hk, hc, M.call, hi1, ofOption]
        · rcases hx : E.expand e1 kid info s.ctx.prk.length with ⟨r2, e2⟩
          cases r2 with
          | some p =>
            left
            simp [withKey, importKey, needKeys, needCrypto, expand, destroyKey, Bind.bind, M.bind, getCtx, guardUB, hk, hc,
              M.call, hi1, ofOption, hx, pure, M.ret]
          | none =>
            by_cases hw : ∀ e b, w.key e b = b
            · left
              simp [withKey, importKey, needKeys, needCrypto, expand, destroyKey, Bind.bind, M.bind, getCtx, guardUB, hk, hc,
                M.call, hi1, ofOption, hx, pure, M.ret, hw, fitLen_self]
              have hcc : ∀ c : Ctx, c.hasKeys = true → c.hasCrypto = true → { c with hasKeys := true, hasCrypto := true } = c := by
                intro c h1 h2
                cases c
                simp_all
              exact hcc _ hk hc
            right
            simp only [withKey, importKey, needKeys, needCrypto, expand, destroyKey, Bind.bind, M.bind, getCtx, guardUB, hk, hc,
              M.call, hi1, ofOption, hx, pure, M.ret, if_true, Option.map_none]
            refine ⟨_, _, rfl, ⟨[.importKey .expand s.ctx.prk (some kid), .expand kid info s.ctx.prk.length none, .destroyKey kid], ?_, kid, context,
              u32 s.ctx.suite.hash, s.ctx.prk.length, label, hl, ?_⟩, hw⟩
            · simp
            · simp [hi]

theorem memAlloc_grow {n : Nat} {a : Unit} {s s1 : St σ} (h : memAlloc E cfg n s = (.ok a, s1)) : Grow s s1 := by
  have := (keepG_calls (σ := σ) (fun c => c)).memAlloc E cfg n s (by rw [h]; intro u; simp)
  rw [h] at this
  exact this.1

theorem memAlloc_ctx {n : Nat} {a : Unit} {s s1 : St σ} (h : memAlloc E cfg n s = (.ok a, s1)) : s1.ctx = s.ctx := by
  have := (keepG_calls (σ := σ) (fun c => c)).memAlloc E cfg n s (by rw [h]; intro u; simp)
  rw [h] at this
  exact this.2

theorem require_grow {b : Bool} {e : Err} {a : Unit} {s s1 : St σ} (h : M.require b e s = (.ok a, s1)) : Grow s s1 := by
  simp only [M.require, Prod.mk.injEq] at h
  rw [← h.2]; exact Saw.refl _

theorem compPrkOut_same (s : St σ) : SameOr w (compPrkOut E cfg) (compPrkOutW E cfg w) s := by
  unfold compPrkOut compPrkOutW
  refine SameOr.next (fun a s1 h => by simp only [getCtx, Prod.mk.injEq] at h; rw [← h.2]; exact Saw.refl _) ?_
  intro c s1 h
  simp only [getCtx, Prod.mk.injEq, Res.ok.injEq] at h
  obtain ⟨rfl, rfl⟩ := h
  refine SameOr.next (fun _ _ h => require_grow h) ?_
  intro _ s1 h
  simp only [M.require, Prod.mk.injEq] at h
  obtain ⟨_, rfl⟩ := h
  refine SameOr.next (fun _ _ h => memAlloc_grow E cfg h) ?_
  intro _ s1 h
  have := memAlloc_ctx E cfg h
  rw [← this]
  exact expandInPlace_same E w (Or.inl rfl) s1

theorem compNewPrkOut_same (b : Bytes) (s : St σ) : SameOr w (compNewPrkOut E cfg b) (compNewPrkOutW E cfg w b) s := by
  unfold compNewPrkOut compNewPrkOutW
  refine SameOr.next (fun a s1 h => by simp only [getCtx, Prod.mk.injEq] at h; rw [← h.2]; exact Saw.refl _) ?_
  intro c s1 h
  simp only [getCtx, Prod.mk.injEq, Res.ok.injEq] at h
  obtain ⟨rfl, rfl⟩ := h
  refine SameOr.next (fun _ _ h => require_grow h) ?_
  intro _ s1 h
  simp only [M.require, Prod.mk.injEq] at h
  obtain ⟨_, rfl⟩ := h
  refine SameOr.next (fun _ _ h => memAlloc_grow E cfg h) ?_
  intro _ s1 h
  have := memAlloc_ctx E cfg h
  rw [← this]
  exact expandInPlace_same E w (Or.inr rfl) s1

theorem getCtx_grow {c : Ctx} {s s1 : St σ} (h : (getCtx : M σ Ctx) s = (.ok c, s1)) : Grow s s1 := by
  simp only [getCtx, Prod.mk.injEq] at h; rw [← h.2]; exact Saw.refl _

theorem modCtx_grow {f : Ctx → Ctx} {a : Unit} {s s1 : St σ} (h : (modCtx f : M σ Unit) s = (.ok a, s1)) : Grow s s1 := by
  simp only [modCtx, Prod.mk.injEq] at h; rw [← h.2]; exact ⟨[], [], by simp⟩

theorem ensurePrkOut_same (s : St σ) : SameOr w (ensurePrkOut E cfg) (ensurePrkOutW E cfg w) s := by
  unfold ensurePrkOut ensurePrkOutW
  exact SameOr.next (fun _ _ h => getCtx_grow h) fun _ s1 _ => (compPrkOut_same E cfg w s1).mapErr.whenM

theorem pres_grow {m : M σ α} (h : Pres (OutCtx (σ := σ)) m) {a : α} {s s1 : St σ} (hm : m s = (.ok a, s1)) : Grow s s1 := by
  have := h s (by rw [hm]; intro u; simp)
  rw [hm] at this
  exact this.1

theorem exportSecret_same (l n : Nat) (s : St σ) : SameOr w (exportSecret E cfg l n) (exportSecretW E cfg w l n) s := by
  unfold exportSecret exportSecretW
  refine SameOr.next (fun _ _ h => require_grow h) fun _ s1 _ => ?_
  refine SameOr.next (fun _ _ h => require_grow h) fun _ s1 _ => ?_
  refine SameOr.next (fun _ _ h => getCtx_grow h) fun _ s1 _ => ?_
  refine SameOr.next (fun _ _ h => require_grow h) fun _ s1 _ => ?_
  exact SameOr.bind (ensurePrkOut_same E cfg w s1) (fun _ _ h => pres_grow (ensurePrkOut_pres E cfg) h) fun _ s1 _ => SameOr.rfl'

theorem keyUpdate_same (b : Bytes) (s : St σ) : SameOr w (keyUpdate E cfg b) (keyUpdateW E cfg w b) s := by
  unfold keyUpdate keyUpdateW
  refine SameOr.next (fun _ _ h => require_grow h) fun _ s1 _ => ?_
  refine SameOr.next (fun _ _ h => getCtx_grow h) fun _ s1 _ => ?_
  refine SameOr.next (fun _ _ h => require_grow h) fun _ s1 _ => ?_
  refine SameOr.next (fun _ _ h => modCtx_grow h) fun _ s1 _ => ?_
  refine SameOr.bind (ensurePrkOut_same E cfg w s1) (fun _ _ h => pres_grow (ensurePrkOut_pres E cfg) h) fun _ s1 _ => ?_
  refine SameOr.bind (compNewPrkOut_same E cfg w b s1).mapErr (fun _ _ h => ?_) fun _ s1 _ => SameOr.rfl'
  rw [mapErr_ok] at h
  obtain ⟨_, _, _, _, _, g⟩ := compNewPrkOut_ok h
  exact g.grow

theorem exportOscore_same (a b c d : Nat) (s : St σ) : SameOr w (exportOscore E cfg a b c d) (exportOscoreW E cfg w a b c d) s := by
  have hp := fun l n => Pres.mapErr .prk (exportSecret_pres E cfg l n)
  unfold exportOscore exportOscoreW
  refine SameOr.next (fun _ _ h => require_grow h) fun _ s1 _ => ?_
  refine SameOr.next (fun _ _ h => getCtx_grow h) fun _ s1 _ => ?_
  refine SameOr.next (fun _ _ h => require_grow h) fun _ s1 _ => ?_
  refine SameOr.next (fun _ _ h => require_grow h) fun _ s1 _ => ?_
  refine SameOr.next (fun _ _ h => modCtx_grow h) fun _ s1 _ => ?_
  refine SameOr.bind (exportSecret_same E cfg w 0 a s1).mapErr (fun _ _ h => pres_grow (hp _ _) h) fun _ s1 _ => ?_
  exact SameOr.bind (exportSecret_same E cfg w 1 b s1).mapErr (fun _ _ h => pres_grow (hp _ _) h) fun _ s1 _ => SameOr.rfl'

theorem SameOr.mapOut {w : Residue σ} {m m' : M σ α} {f : α → Out} {s : St σ} (h : SameOr w m m' s) :
    SameOr w (M.mapOut f m) (M.mapOut f m') s := by
  rcases h with h | ⟨e, s', h, hb⟩
  · exact Or.inl (by simp only [M.mapOut, Bind.bind, M.bind, h])
  · exact Or.inr ⟨e, s', by simp only [M.mapOut, Bind.bind, M.bind, h], hb⟩

/-- calls other than message calls -/
theorem stepW_same {o : Op} (hk : callOf o = none) (s : St σ) : SameOr w (step E cfg o) (stepW E cfg w o) s := by
  cases o <;> simp only [callOf, reduceCtorEq] at hk
  case exportSecret l n => exact (exportSecret_same E cfg w l n s).mapOut
  case keyUpdate b => exact (keyUpdate_same E cfg w b s).mapOut
  case exportOscore a b c d => exact (exportOscore_same E cfg w a b c d s).mapOut
  all_goals exact SameOr.rfl'

/-- message calls -/
theorem stepW_message {o : Op} {k : Call} (hk : callOf o = some k) (s : St σ) :
    stepW E cfg w o s = leaving w (step E cfg o) s := by
  cases o <;> simp only [callOf, reduceCtorEq] at hk <;> rfl

end Verif
