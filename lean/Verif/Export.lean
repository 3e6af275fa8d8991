import Verif.Facts
import Verif.OuterX

/-!
# Exporters: what they do to the context, on success and on failure
-/

namespace Verif

open M

variable {σ α : Type}

/-- `inner!` for relations that are only closed under calls; updates of the context are left over -/
macro "calls!" hR:ident : tactic => `(tactic|
  repeat' first
  | with_reducible refine Pres.bindFits (Calls.toFrame $hR) (fun _ _ => ?_)
  | with_reducible refine Pres.bind (Calls.toFrame $hR) ?_ (fun _ => ?_)
  | with_reducible exact Pres.pure (Calls.toFrame $hR) _
  | with_reducible exact Pres.fail (Calls.toFrame $hR) _
  | with_reducible exact Pres.undef (Calls.toFrame $hR) _
  | with_reducible exact Pres.require (Calls.toFrame $hR) _ _
  | with_reducible exact Pres.guardUB (Calls.toFrame $hR) _ _
  | with_reducible exact Pres.ofOption (Calls.toFrame $hR) _ _
  | with_reducible exact Pres.ofRes (Calls.toFrame $hR) _
  | with_reducible exact Pres.getCtx (Calls.toFrame $hR)
  | with_reducible refine Pres.mapErr _ ?_
  | with_reducible refine Pres.whenM (Calls.toFrame $hR) _ ?_
  | with_reducible refine Pres.ite ?_ ?_
  | with_reducible exact Calls.memAlloc $hR _ _ _
  | with_reducible exact Calls.expand $hR _ _ _ _ ⟨_, _, _, by assumption, by label!⟩
  | with_reducible exact Calls.encrypt $hR _ _ _ _ _
  | with_reducible exact Calls.decrypt $hR _ _ _ _ _
  | with_reducible refine Calls.withKey $hR _ _ _ _ _ (fun _ => ?_) (fun _ => ?_)
  | with_reducible exact noErr_encrypt _ _ _ _ _
  | with_reducible exact noErr_decrypt _ _ _ _ _
  | with_reducible exact noErr_expand _ _ _ _
  | with_reducible refine noErr_bind (noErr_guardUB _ _) (fun _ => ?_)
  | with_reducible refine Pres.call _ _ (fun s => Calls.ev $hR s _ _ ?_)
  | with_reducible assumption
  | exact (rfl : (_ : Bool) = _))

/-- The log grows, the value `π` of the context does not change. -/
def KeepG {γ : Type} (π : Ctx → γ) (s s' : St σ) : Prop := Grow s s' ∧ π s'.ctx = π s.ctx

theorem keepG_calls {γ : Type} (π : Ctx → γ) : Calls (KeepG (σ := σ) π) where
  toFrame := ⟨fun s => ⟨Saw.refl s, rfl⟩, fun h1 h2 => ⟨h1.1.left h2.1, h2.2.trans h1.2⟩⟩
  ev _ _ _ _ := ⟨(saw_ext rfl).grow, rfl⟩
  exp _ _ _ _ _ _ _ _ _ := ⟨(saw_ext rfl).grow, rfl⟩
  imp0 _ _ _ _ := ⟨(saw_ext rfl).grow, rfl⟩
  key s1 s3 e2 e4 t raw kid h := by
    have h1 : Grow s1 ⟨s1.ctx, e2, s1.log ++ [.importKey t raw (some kid)]⟩ := (saw_ext rfl).grow
    have h2 : Grow s3 ⟨s3.ctx, e4, s3.log ++ [.destroyKey kid]⟩ := (saw_ext rfl).grow
    exact ⟨(h1.left h.1).left h2, h.2⟩

section calls

variable {R : St σ → St σ → Prop} (hR : Calls R) (E : Env σ) (cfg : Config)

include hR

theorem Calls.expandInfo (n : Nat) (a : Bytes) (l : Nat) (b : Bytes) (k o : Nat) (hl : l ≤ 65535) :
    Pres R (Verif.expandInfo E n a l b k o) := by
  unfold Verif.expandInfo
  calls! hR

theorem Calls.compPrkExporter : Pres R (Verif.compPrkExporter E cfg) := by
  have h1 := fun x0 x1 x2 x3 x4 x5 hl => Calls.expandInfo hR E x0 x1 x2 x3 x4 x5 hl
  unfold Verif.compPrkExporter
  calls! hR
  all_goals exact h1 _ _ _ _ _ _ (by label!)

theorem Calls.keyIvAad (a b : Nat) (ha : a ≤ 65535) (hb : b ≤ 65535) : Pres R (Verif.keyIvAad E cfg a b) := by
  have h1 := fun x0 x1 x2 x3 x4 x5 hl => Calls.expandInfo hR E x0 x1 x2 x3 x4 x5 hl
  unfold Verif.keyIvAad
  calls! hR
  all_goals exact h1 _ _ _ _ _ _ (by label!)

theorem Calls.keyIvAad4 : Pres R (Verif.keyIvAad4 E cfg) := by
  have h1 := fun x0 x1 h1 h2 => Calls.keyIvAad hR E cfg x0 x1 h1 h2
  unfold Verif.keyIvAad4
  calls! hR
  all_goals exact h1 _ _ (by label!) (by label!)

theorem Calls.aeadEncrypt (a b c d : Bytes) (n : Nat) : Pres R (Verif.aeadEncrypt E a b c d n) := by
  unfold Verif.aeadEncrypt
  calls! hR

theorem Calls.aeadDecrypt (a b c d : Bytes) (n : Nat) : Pres R (Verif.aeadDecrypt E a b c d n) := by
  unfold Verif.aeadDecrypt
  calls! hR

end calls

section

variable (E : Env σ) (cfg : Config)

/-- What an exporter does to the key: nothing, or it replaces PRK_4e3m by PRK_out. -/
def OutCtx (s s' : St σ) : Prop :=
  Grow s s' ∧ (s'.ctx = s.ctx ∨ (s.ctx.prkState = .prk4e3m ∧ s.ctx.thState = .th4 ∧
    ∃ p kid, p.length = s.ctx.prk.length ∧ s'.ctx = { s.ctx with prk := p, prkState := .out } ∧
      Saw (evExpand kid s.ctx.prk (encInfo 7 s.ctx.th (u32 s.ctx.suite.hash)) s.ctx.prk.length p) s s'))

theorem outCtx_frame : Frame (OutCtx (σ := σ)) where
  refl s := ⟨Saw.refl s, Or.inl rfl⟩
  trans := by
    rintro a b c ⟨g1, h1⟩ ⟨g2, h2⟩
    refine ⟨g1.left g2, ?_⟩
    rcases h1 with h1 | ⟨p1, t1, p, kid, l, e, w⟩
    · rcases h2 with h2 | ⟨p2, t2, p, kid, l, e, w⟩
      · exact Or.inl (h2.trans h1)
      · rw [h1] at p2 t2 l e w
        exact Or.inr ⟨p2, t2, p, kid, l, e, w.mid g1 (Saw.refl _)⟩
    · rcases h2 with h2 | ⟨p2, _⟩
      · exact Or.inr ⟨p1, t1, p, kid, l, h2.trans e, w.left g2⟩
      · rw [e] at p2; simp at p2

theorem KeepG.outCtx {s s' : St σ} (h : KeepG (fun c => c) s s') : OutCtx s s' := ⟨h.1, Or.inl h.2⟩

theorem absorb_true {R : St σ → St σ → Prop} : Absorb R (fun _ _ => True) := ⟨fun _ _ => trivial⟩

theorem compPrkOut_pres : Pres (OutCtx (σ := σ)) (compPrkOut E cfg) := by
  intro s hd
  rcases h : compPrkOut E cfg s with ⟨r, s'⟩
  rw [h] at hd
  cases r with
  | ub u => simp at hd
  | ok a =>
    obtain ⟨h1, h2, p, kid, l, c, g⟩ := compPrkOut_ok h
    exact ⟨g.grow, Or.inr ⟨h2, h1, p, kid, l, c, g⟩⟩
  | err e =>
    -- the only update is the last statement, which does not fail
    have hk := keepG_calls (σ := σ) (fun c => c)
    have : Ends (KeepG (σ := σ) fun c => c) (fun _ _ => True) (compPrkOut E cfg) := by
      unfold compPrkOut
      refine Ends.bind hk.toFrame absorb_true (Pres.getCtx hk.toFrame) fun _ => ?_
      refine Ends.bind hk.toFrame absorb_true (Pres.require hk.toFrame _ _) fun _ => ?_
      refine Ends.bind hk.toFrame absorb_true (hk.memAlloc E cfg _) fun _ => ?_
      refine Ends.bind hk.toFrame absorb_true (hk.expandInfo E _ _ _ _ _ _ (by decide)) fun _ => ?_
      exact Ends.modCtx fun _ => trivial
    exact ((this s).1 _ _ h).outCtx

theorem compNewPrkOut_err {b : Bytes} {s s' : St σ} {e : Err} (h : compNewPrkOut E cfg b s = (.err e, s')) :
    KeepG (fun c => c) s s' := by
  have hk := keepG_calls (σ := σ) (fun c => c)
  have : Ends (KeepG (σ := σ) fun c => c) (fun _ _ => True) (compNewPrkOut E cfg b) := by
    unfold compNewPrkOut
    refine Ends.bind hk.toFrame absorb_true (Pres.getCtx hk.toFrame) fun _ => ?_
    refine Ends.bind hk.toFrame absorb_true (Pres.require hk.toFrame _ _) fun _ => ?_
    refine Ends.bind hk.toFrame absorb_true (hk.memAlloc E cfg _) fun _ => ?_
    refine Ends.bind hk.toFrame absorb_true (hk.expandInfo E _ _ _ _ _ _ (by decide)) fun _ => ?_
    exact Ends.modCtx fun _ => trivial
  exact (this s).1 _ _ h

theorem keep_outCtx {α : Type} {m : M σ α} (h : Pres (KeepG fun c => c) m) : Pres (OutCtx (σ := σ)) m :=
  h.mono fun _ _ h => h.outCtx

theorem ensurePrkOut_pres : Pres (OutCtx (σ := σ)) (ensurePrkOut E cfg) := by
  unfold ensurePrkOut
  exact (Pres.getCtx outCtx_frame).bind outCtx_frame fun _ =>
    Pres.whenM outCtx_frame _ (Pres.mapErr _ (compPrkOut_pres E cfg))

/-- on every path, an exporter at most replaces PRK_4e3m by PRK_out -/
theorem exportSecret_pres (label n : Nat) : Pres (OutCtx (σ := σ)) (exportSecret E cfg label n) := by
  have hk := keepG_calls (σ := σ) (fun c => c)
  have F := outCtx_frame (σ := σ)
  unfold exportSecret
  refine Pres.bindRequire F fun hl => ?_
  simp only [Bool.and_eq_true, decide_eq_true_eq] at hl
  refine (Pres.require F _ _).bind F fun _ => ?_
  refine (Pres.getCtx F).bind F fun _ => ?_
  refine (Pres.require F _ _).bind F fun _ => ?_
  refine (ensurePrkOut_pres E cfg).bind F fun _ => ?_
  refine (keep_outCtx (hk.memAlloc E cfg _)).bind F fun _ => ?_
  refine (Pres.mapErr _ (keep_outCtx (hk.compPrkExporter E cfg))).bind F fun _ => ?_
  refine (keep_outCtx (hk.memAlloc E cfg _)).bind F fun _ => ?_
  exact keep_outCtx (hk.expandInfo E _ _ _ _ _ _ hl.1)

variable {E cfg} {s s' : St σ}

theorem okUpdate_of {c : Ctx} (h : (Status.completed.toNat ≤ c.status.toNat &&
    PrkState.prk4e3m.toNat ≤ c.prkState.toNat) = true) : okUpdate c = true := h

theorem keyUpdate_ok {b : Bytes} {u : Unit} (h : keyUpdate E cfg b s = (.ok u, s')) :
    b ≠ [] ∧ okUpdate s.ctx = true ∧ Grow s s' ∧
      (s.ctx.prkState = .prk4e3m ∧ s.ctx.thState = .th4 ∨ s.ctx.prkState = .out) ∧ ∃ p q kid,
      OutStep s.ctx p s s' ∧ p.length = s.ctx.prk.length ∧ q.length = p.length ∧
      Saw (evExpand kid p (encInfo 11 b (u32 s.ctx.suite.hash)) p.length q) s s' ∧
      s'.ctx = { s.ctx with prk := q, prkState := .out, oscoreAllowed := true } := by
  simp only [keyUpdate, bind_ok, getCtx_ok, require_ok, mapErr_ok, modCtx_ok] at h
  obtain ⟨_, _, ⟨h0, rfl⟩, _, _, ⟨rfl, rfl⟩, _, _, ⟨h1, rfl⟩, _, _, rfl, _, s1, h2, _, s2, h3, rfl⟩ := h
  obtain ⟨g1, p, l1, o1, c1⟩ := ensurePrkOut_ok h2
  obtain ⟨q1, q, kid, l2, c2, g2⟩ := compNewPrkOut_ok h3
  simp only [Ctx.suite] at c1 g2 l2 o1
  rw [c1] at g2 q1 l2 c2
  simp only at g2 q1 l2 c2 l1
  have hst : s.ctx.prkState = .prk4e3m ∧ s.ctx.thState = .th4 ∨ s.ctx.prkState = .out := by
    obtain ⟨a, b, _⟩ | ⟨a, _⟩ := o1
    · exact Or.inl ⟨a, b⟩
    · rw [if_neg a] at q1; exact Or.inr q1
  refine ⟨by rintro rfl; simp at h0, h1, g1.left g2.grow, hst, p, q, kid, ?_, l1, l2, ?_, ?_⟩
  · obtain ⟨a, b, k, g⟩ | ⟨a, b⟩ := o1
    · exact Or.inl ⟨a, b, k, g.left g2.grow⟩
    · exact Or.inr ⟨a, b⟩
  · exact Saw.right g1 g2
  · rw [c2]

/-- OSCORE identifier of a connection identifier: integers in their (one byte) CBOR encoding, byte strings as they
are -/
def oscoreIdOf : Cid → Bytes
  | .int v => encInt v
  | .bstr b => b

theorem oscoreId_ok {n : Nat} {c : Cid} {b : Bytes} (h : oscoreId n c = .ok b) :
    b = oscoreIdOf c ∧ b.length ≤ n := by
  cases c <;> simp only [oscoreId, Res.ofOption_ok] at h <;> obtain ⟨rfl, h2⟩ := fits_some h <;> exact ⟨rfl, h2⟩

theorem exportOscore_ok {a b c d : Nat} {o : Oscore} (h : exportOscore E cfg a b c d s = (.ok o, s')) :
    (a ≠ 0 ∧ b ≠ 0 ∧ c ≠ 0 ∧ d ≠ 0) ∧ okOscore s.ctx = true ∧ Grow s s' ∧
      o.secret.length = a ∧ o.salt.length = b ∧
      o.sid = oscoreIdOf s.ctx.peerCid ∧ o.sid.length ≤ c ∧ o.rid = oscoreIdOf s.ctx.cid ∧ o.rid.length ≤ d ∧
      (s.ctx.prkState = .prk4e3m ∧ s.ctx.thState = .th4 ∨ s.ctx.prkState = .out) ∧ ∃ p x y,
      OutStep s.ctx p s s' ∧ p.length = s.ctx.prk.length ∧
      s'.ctx = { s.ctx with prk := p, prkState := .out, oscoreAllowed := false } ∧
      (∃ k1, x.length = s.ctx.suite.hash ∧ Saw (evExpand k1 p (encInfo 10 [] (u32 s.ctx.suite.hash)) s.ctx.suite.hash x) s s') ∧
      (∃ k2, Saw (evExpand k2 x (encInfo 0 [] (u32 a)) a o.secret) s s') ∧
      (∃ k1, y.length = s.ctx.suite.hash ∧ Saw (evExpand k1 p (encInfo 10 [] (u32 s.ctx.suite.hash)) s.ctx.suite.hash y) s s') ∧
      (∃ k2, Saw (evExpand k2 y (encInfo 1 [] (u32 b)) b o.salt) s s') := by
  simp only [exportOscore, bind_ok, getCtx_ok, require_ok, mapErr_ok, modCtx_ok, ofRes_ok, pure_ok] at h
  obtain ⟨_, _, ⟨h0, rfl⟩, _, _, ⟨rfl, rfl⟩, _, _, ⟨h1, rfl⟩, _, _, ⟨h2, rfl⟩, _, _, rfl, x1, s1, h3, x2, s2, h4,
    x3, _, ⟨h5, rfl⟩, x4, _, ⟨h6, rfl⟩, _, _, rfl, rfl, rfl⟩ := h
  obtain ⟨_, _, _, n1, g1, st1, p, x, o1, l1, c1, ⟨k1, lx, w1⟩, ⟨k2, w2⟩⟩ := exportSecret_ok h3
  obtain ⟨_, _, _, n2, g2, st2, p', y, o2, l2, c2, ⟨k3, ly, w3⟩, ⟨k4, w4⟩⟩ := exportSecret_ok h4
  obtain ⟨i1, j1⟩ := oscoreId_ok h5
  obtain ⟨i2, j2⟩ := oscoreId_ok h6
  rw [c1] at o2
  obtain ⟨q, _⟩ | ⟨_, rfl⟩ := o2
  · simp at q
  rw [c1] at c2 w3
  simp only [Ctx.suite] at c1 c2 w1 w2 w3 w4
  refine ⟨by simpa [and_assoc] using h0, by unfold okOscore; rw [h1]; exact h2,
    Grow.trans (a := s) g1 g2, n1, n2, i1, j1, i2, j2, st1, p', x, y, ?_, l1, by rw [c2],
    ⟨k1, lx, Saw.left w1 g2⟩, ⟨k2, Saw.left w2 g2⟩, ⟨k3, ly.trans (by rw [c1]; rfl), Saw.right (s := s) g1 w3⟩, ⟨k4, Saw.right (s := s) g1 w4⟩⟩
  obtain ⟨a, b, k, g⟩ | ⟨a, b⟩ := o1
  · exact Or.inl ⟨a, b, k, Saw.left g g2⟩
  · exact Or.inr ⟨a, b⟩

end

end Verif
