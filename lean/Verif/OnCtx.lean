import Verif.Props.Negotiation
import Verif.Record

/-!
# What API calls do to the transcript state and to the ephemeral key

`Soft P`: a preorder on contexts that contains every change apart from a new ephemeral private key and the
step to TH_4. One lemma per API function, for every way the call can end.
-/

namespace Verif

open M Spec

variable {σ α : Type}

/-- a preorder on contexts that only looks at the transcript state, the ephemeral private key, the method, and whether
PRK_out was computed -/
structure Soft (P : Ctx → Ctx → Prop) : Prop where
  refl : ∀ c, P c c
  trans : ∀ {a b c}, P a b → P b c → P a c
  keep : ∀ c c' : Ctx, c'.thState = c.thState → c'.dhPriv = c.dhPriv →
    c'.chosenMethod = c.chosenMethod → (c'.prkState = .out → c.prkState = .out) → P c c'
  wipe : ∀ c : Ctx, P c { c with dhPriv := [] }
  th : ∀ (c : Ctx) (t : Bytes) (ts : ThState), ts ≠ .th4 → P c { c with th := t, thState := ts }

/-- the relation of the contexts -/
def OnCtx (P : Ctx → Ctx → Prop) (s s' : St σ) : Prop := P s.ctx s'.ctx

namespace Soft

variable {P : Ctx → Ctx → Prop} (hP : Soft P) (E : Env σ) (cfg : Config)

include hP

theorem frame : Frame (OnCtx (σ := σ) P) := ⟨fun s => hP.refl s.ctx, fun h1 h2 => hP.trans h1 h2⟩

theorem fapp : FApp (OnCtx (σ := σ) P) where
  toFrame := hP.frame
  ev _ _ _ _ := hP.refl _
  exp _ _ _ _ _ _ _ _ _ := hP.refl _
  imp0 _ _ _ _ := hP.refl _
  key _ _ _ _ _ _ _ h := h
  soft s c h1 h2 h3 h4 := hP.keep _ _ h2 h3 (congrArg Ctx.chosenMethod h1 :) h4
  wipe s := hP.wipe _
  th23 s t ts h := hP.th _ _ _ (by rcases h with rfl | rfl <;> simp)
  app _ _ _ _ := hP.refl _

theorem mod {f : Ctx → Ctx} (h1 : ∀ c, (f c).thState = c.thState) (h2 : ∀ c, (f c).dhPriv = c.dhPriv)
    (h3 : ∀ c, (f c).chosenMethod = c.chosenMethod) (h4 : ∀ c, (f c).prkState = c.prkState) :
    Pres (OnCtx P) (M.modCtx f : M σ Unit) :=
  Pres.modCtx _ fun s => hP.keep _ _ (h1 s.ctx) (h2 s.ctx) (h3 s.ctx) (fun h => (h4 s.ctx).symm.trans h)

theorem modTh {f : Ctx → Ctx} (ts : ThState) (hts : ts ≠ .th4) (h1 : ∀ c, (f c).thState = ts)
    (h2 : ∀ c, (f c).dhPriv = c.dhPriv) (h3 : ∀ c, (f c).chosenMethod = c.chosenMethod)
    (h4 : ∀ c, (f c).prkState = c.prkState) :
    Pres (OnCtx P) (M.modCtx f : M σ Unit) :=
  Pres.modCtx _ fun s => hP.trans (hP.th s.ctx (f s.ctx).th ts hts) 
    (hP.keep _ _ (h1 s.ctx) (h2 s.ctx) (h3 s.ctx) (fun h => (h4 s.ctx).symm.trans h))

theorem needKeys : Pres (OnCtx P) (Verif.needKeys : M σ Unit) := hP.fapp.needKeys

theorem importKey (t : KeyType) (b : Bytes) : Pres (OnCtx P) (Verif.importKey E t b) :=
  (hP.needKeys).bind hP.frame fun _ => Pres.call _ _ fun _ => hP.refl _

theorem destroyKey (b : Bytes) : Pres (OnCtx P) (Verif.destroyKey E b) :=
  (hP.needKeys).bind hP.frame fun _ => Pres.call _ _ fun _ => hP.refl _

theorem verifyCred (cr : Cred) : Pres (OnCtx P) (Verif.verifyCred E cr) := by
  unfold Verif.verifyCred Verif.credVerify
  refine Pres.bind hP.frame ?_ fun _ => ?_
  · exact (hP.fapp.needCred).bind hP.frame fun _ => Pres.call _ _ fun _ => hP.refl _
  · refine (Pres.whenM hP.frame _ (hP.mod (by intro c; rfl) (by intro c; rfl) (by intro c; rfl) (by intro c; rfl))).bind hP.frame fun _ => ?_
    exact Pres.ofOption hP.frame _ _

theorem enter (ok : Ctx → Bool) (m : Msg) (r : Role) : Pres (OnCtx P) (Verif.enter ok m r : M σ Unit) := by
  unfold Verif.enter
  refine (Pres.getCtx hP.frame).bind hP.frame fun _ => ?_
  refine (Pres.require hP.frame _ _).bind hP.frame fun _ => ?_
  exact hP.mod (by intro c; rfl) (by intro c; rfl) (by intro c; rfl) (by intro c; rfl)

theorem chooseSuite : Pres (OnCtx P) (Verif.chooseSuite : M σ Unit) := by
  unfold Verif.chooseSuite
  refine (Pres.getCtx hP.frame).bind hP.frame fun _ => ?_
  refine (Pres.require hP.frame _ _).bind hP.frame fun _ => ?_
  exact hP.mod (by intro c; rfl) (by intro c; rfl) (by intro c; rfl) (by intro c; rfl)

theorem checkSuites (su : Suites) : Pres (OnCtx P) (Verif.checkSuites cfg su : M σ Unit) := by
  unfold Verif.checkSuites
  refine (Pres.getCtx hP.frame).bind hP.frame fun _ => ?_
  cases su with
  | one v =>
    refine (Pres.guardUB hP.frame _ _).bind hP.frame fun _ => ?_
    refine (hP.mod (by intro c; rfl) (by intro c; rfl) (by intro c; rfl) (by intro c; rfl)).bind hP.frame fun _ => ?_
    exact Pres.whenM hP.frame _
      ((hP.mod (by intro c; rfl) (by intro c; rfl) (by intro c; rfl) (by intro c; rfl)).bind hP.frame fun _ => Pres.fail hP.frame _)
  | list l =>
    have h : Pres (OnCtx P) ((M.modCtx fun c => { c with errorCode := .wrongSuite }) >>= fun _ =>
        (M.fail .msg1Process : M σ Unit)) :=
      (hP.mod (by intro c; rfl) (by intro c; rfl) (by intro c; rfl) (by intro c; rfl)).bind hP.frame fun _ => Pres.fail hP.frame _
    refine (Pres.whenM hP.frame _ h).bind hP.frame fun _ => ?_
    refine (Pres.require hP.frame _ _).bind hP.frame fun _ => ?_
    refine (hP.mod (by intro c; rfl) (by intro c; rfl) (by intro c; rfl) (by intro c; rfl)).bind hP.frame fun _ => ?_
    exact Pres.whenM hP.frame _ h

theorem genDhKeys (hd : ∀ (c : Ctx) (x y : Bytes), P c { c with dhPriv := x, dhPub := y }) :
    Pres (OnCtx P) (Verif.genDhKeys E cfg) := by
  have h := (hP.fapp (σ := σ)).toFine
  unfold Verif.genDhKeys
  fine! h
  exact Pres.modCtx _ fun s => hd _ _ _

theorem compTh4 (ht : ∀ (c : Ctx) (t : Bytes), P c { c with th := t, thState := .th4 }) (a b : Bytes) :
    Pres (OnCtx P) (Verif.compTh4 E cfg a b) := by
  have h := (hP.fapp (σ := σ)).toFine
  have h_hashTh := fun x0 => h.hashTh E cfg x0
  unfold Verif.compTh4
  fine! h
  · exact h_hashTh _
  · exact Pres.modCtx _ fun s => ht _ _

end Soft

/-- goes through the body of an API function -/
macro "soft!" hP:ident : tactic => `(tactic|
  repeat' first
  | with_reducible refine Pres.bind (Soft.frame $hP) ?_ (fun _ => ?_)
  | with_reducible exact Pres.pure (Soft.frame $hP) _
  | with_reducible exact Pres.require (Soft.frame $hP) _ _
  | with_reducible exact Pres.guardUB (Soft.frame $hP) _ _
  | with_reducible exact Pres.ofOption (Soft.frame $hP) _ _
  | with_reducible exact Pres.ofRes (Soft.frame $hP) _
  | with_reducible exact Pres.getCtx (Soft.frame $hP)
  | with_reducible exact Soft.enter $hP _ _ _
  | with_reducible exact Soft.chooseSuite $hP
  | with_reducible exact Soft.checkSuites $hP _ _
  | with_reducible exact Soft.importKey $hP _ _ _
  | with_reducible exact Soft.destroyKey $hP _ _
  | with_reducible exact Soft.verifyCred $hP _ _
  | with_reducible exact (Soft.fapp $hP).memAlloc _ _ _
  | with_reducible exact (Soft.fapp $hP).makeKeyPair _ _
  | with_reducible exact (Soft.fapp $hP).credFetch _
  | with_reducible exact (Soft.fapp $hP).hashTh _ _ _
  | with_reducible exact (Soft.fapp $hP).compDhSecret _ _
  | with_reducible exact (Soft.fapp $hP).compTh2 _ _
  | with_reducible exact (Soft.fapp $hP).compTh3 _ _ _ _
  | with_reducible exact (Soft.fapp $hP).compPrk2e _ _
  | with_reducible exact (Soft.fapp $hP).compPrk3e2m _ _ _ _
  | with_reducible exact (Soft.fapp $hP).compPrk4e3m _ _ _ _
  | with_reducible exact (Soft.fapp $hP).compKeystream _ _ _ _
  | with_reducible exact (Soft.fapp $hP).buildMacCtx _ _ _ _
  | with_reducible exact (Soft.fapp $hP).compMac _ _ _ _
  | with_reducible exact (Soft.fapp $hP).compSignOrMac _ _ _ _ _ _
  | with_reducible exact (Soft.fapp $hP).verifySignOrMac _ _ _ _ _ _
  | with_reducible exact (Soft.fapp $hP).prepareMsg2 _ _ _ _
  | with_reducible exact (Soft.fapp $hP).eadCompose _ _
  | with_reducible exact (Soft.fapp $hP).eadProcess _ _
  | with_reducible exact (Soft.fapp $hP).processEad1 _ _ _ _
  | with_reducible exact (Soft.fapp $hP).storePeerCid _ _ _
  | with_reducible exact (Soft.fapp $hP).parseMsg2 _ _ _
  | with_reducible exact (Soft.fapp $hP).parsePtxt2 _ _
  | with_reducible exact (Soft.fapp $hP).parsePtxt3 _ _
  | with_reducible exact (Soft.fapp $hP).parsePtxt4 _ _
  | with_reducible exact (Soft.fapp $hP).keyIvAad3 _ _
  | with_reducible exact (Soft.fapp $hP).keyIvAad4 _ _
  | with_reducible exact (Soft.fapp $hP).aeadEncrypt _ _ _ _ _ _
  | with_reducible exact (Soft.fapp $hP).aeadDecrypt _ _ _ _ _ _
  | with_reducible exact (Soft.fapp $hP).genMsg3 _ _
  | with_reducible exact (Soft.fapp $hP).genMsg4 _ _
  | with_reducible refine Pres.mapErr _ ?_
  | (with_reducible refine Soft.mod $hP ?_ ?_ ?_ ?_) <;> exact fun _ => rfl
  | (with_reducible refine Soft.modTh $hP .th1 (by decide) ?_ ?_ ?_ ?_) <;> exact fun _ => rfl
  | with_reducible assumption)

namespace Soft

variable {P : Ctx → Ctx → Prop} (hP : Soft P) (E : Env σ) (cfg : Config)

include hP

theorem message1Compose (hd : ∀ (c : Ctx) (x : Bytes), P c { c with dhPriv := x })
    (hm : ∀ (c : Ctx) (m : Nat), P c { c with chosenMethod := m }) (n : Nat) :
    Pres (OnCtx P) (Verif.message1Compose E cfg n) := by
  unfold Verif.message1Compose
  soft! hP
  · exact Pres.modCtx _ fun s => hm _ _
  · exact Pres.modCtx _ fun s => hd _ _

theorem message1Process (hm : ∀ (c : Ctx) (m : Nat), P c { c with chosenMethod := m }) (b : Bytes) :
    Pres (OnCtx P) (Verif.message1Process E cfg b) := by
  unfold Verif.message1Process
  soft! hP
  exact Pres.modCtx _ fun s => hm _ _

theorem message2Compose (hd : ∀ (c : Ctx) (x y : Bytes), P c { c with dhPriv := x, dhPub := y }) (n : Nat) :
    Pres (OnCtx P) (Verif.message2Compose E cfg n) := by
  have h1 := hP.genDhKeys E cfg hd
  unfold Verif.message2Compose
  soft! hP

theorem message2Process (b : Bytes) : Pres (OnCtx P) (Verif.message2Process E cfg b) := by
  unfold Verif.message2Process
  soft! hP

theorem message3Compose (ht : ∀ (c : Ctx) (t : Bytes), P c { c with th := t, thState := .th4 }) (n : Nat) :
    Pres (OnCtx P) (Verif.message3Compose E cfg n) := by
  have h1 := fun x0 x1 => hP.compTh4 E cfg ht x0 x1
  unfold Verif.message3Compose
  soft! hP
  exact h1 _ _

theorem message3Process (ht : ∀ (c : Ctx) (t : Bytes), P c { c with th := t, thState := .th4 }) (b : Bytes) :
    Pres (OnCtx P) (Verif.message3Process E cfg b) := by
  have h1 := fun x0 x1 => hP.compTh4 E cfg ht x0 x1
  unfold Verif.message3Process
  soft! hP
  exact h1 _ _

theorem message4Compose (n : Nat) : Pres (OnCtx P) (Verif.message4Compose E cfg n) := by
  unfold Verif.message4Compose
  soft! hP

theorem message4Process (b : Bytes) : Pres (OnCtx P) (Verif.message4Process E cfg b) := by
  unfold Verif.message4Process
  soft! hP

theorem compPrkOut (ho : ∀ (c : Ctx) (p : Bytes), P c { c with prk := p, prkState := .out }) :
    Pres (OnCtx P) (Verif.compPrkOut E cfg) := by
  have h := (hP.fapp (σ := σ)).toFine
  have h_expandInfo := fun x0 x1 x2 x3 x4 x5 hl => h.expandInfo E x0 x1 x2 x3 x4 x5 hl
  unfold Verif.compPrkOut
  fine! h
  · exact h_expandInfo _ _ _ _ _ _ (by label!)
  · exact Pres.modCtx _ fun s => ho _ _

theorem compNewPrkOut (ho : ∀ (c : Ctx) (p : Bytes), P c { c with prk := p, prkState := .out }) (b : Bytes) :
    Pres (OnCtx P) (Verif.compNewPrkOut E cfg b) := by
  have h := (hP.fapp (σ := σ)).toFine
  have h_expandInfo := fun x0 x1 x2 x3 x4 x5 hl => h.expandInfo E x0 x1 x2 x3 x4 x5 hl
  unfold Verif.compNewPrkOut
  fine! h
  · exact h_expandInfo _ _ _ _ _ _ (by label!)
  · exact Pres.modCtx _ fun s => ho _ _

theorem ensurePrkOut (ho : ∀ (c : Ctx) (p : Bytes), P c { c with prk := p, prkState := .out }) :
    Pres (OnCtx P) (Verif.ensurePrkOut E cfg) := by
  unfold Verif.ensurePrkOut
  refine (Pres.getCtx hP.frame).bind hP.frame fun _ => ?_
  exact Pres.whenM hP.frame _ (Pres.mapErr _ (hP.compPrkOut E cfg ho))

theorem exportSecret (ho : ∀ (c : Ctx) (p : Bytes), P c { c with prk := p, prkState := .out }) (l n : Nat) :
    Pres (OnCtx P) (Verif.exportSecret E cfg l n) := by
  have h1 := hP.ensurePrkOut E cfg ho
  have h2 := fun x0 x1 x2 x3 x4 x5 hl => (hP.fapp (σ := σ)).expandInfo E x0 x1 x2 x3 x4 x5 hl
  have h3 := (hP.fapp (σ := σ)).compPrkExporter E cfg
  unfold Verif.exportSecret
  refine Pres.bindRequire hP.frame fun hl => ?_
  simp only [Bool.and_eq_true, decide_eq_true_eq] at hl
  soft! hP
  exact h2 _ _ _ _ _ _ hl.1

theorem keyUpdate (ho : ∀ (c : Ctx) (p : Bytes), P c { c with prk := p, prkState := .out }) (b : Bytes) :
    Pres (OnCtx P) (Verif.keyUpdate E cfg b) := by
  have h1 := hP.ensurePrkOut E cfg ho
  have h2 := hP.compNewPrkOut E cfg ho b
  unfold Verif.keyUpdate
  soft! hP

theorem exportOscore (ho : ∀ (c : Ctx) (p : Bytes), P c { c with prk := p, prkState := .out }) (a b c d : Nat) :
    Pres (OnCtx P) (Verif.exportOscore E cfg a b c d) := by
  have h1 := fun x0 x1 => hP.exportSecret E cfg ho x0 x1
  unfold Verif.exportOscore
  soft! hP
  all_goals exact h1 _ _

theorem setter {o : Op} (hs : isSetter o = true) : Pres (OnCtx P) (step E cfg o) := by
  intro s hd
  rcases C30_setters (E := E) (cfg := cfg) hs s with ⟨_, _, c', h1, h2⟩ | ⟨_, e, _, h1⟩
  · rw [h1]
    cases o <;> simp only [Stored] at h2
    case setSuites => rw [h2.2.2]; exact hP.keep _ _ rfl rfl rfl (fun h => h)
    all_goals (subst h2; exact hP.keep _ _ rfl rfl rfl (fun h => h))
  · rw [h1]; exact hP.refl _

/-- calls of a session that are neither message nor exporter calls -/
theorem other {o : Op} (hr : restarts o = false) (hk : callOf o = none) (hx : isExporter o = false) :
    Pres (OnCtx P) (step E cfg o) := by
  cases o <;> simp only [callOf, restarts, isExporter, reduceCtorEq] at hr hk hx
  case nullArg => exact Pres.fail hP.frame _
  case getCode =>
    refine Pres.mapOut hP.frame _ ?_
    unfold errorGetCode
    soft! hP
  case getSuites a b =>
    refine Pres.mapOut hP.frame _ ?_
    unfold errorGetSuites
    soft! hP
  all_goals exact hP.setter E cfg rfl

/-- calls of a session that neither make an ephemeral key nor compute TH_4 -/
theorem later0 (ho : ∀ (c : Ctx) (p : Bytes), P c { c with prk := p, prkState := .out })
    {o : Op} (hr : restarts o = false)
    (hk : callOf o ∉ [some .compose1, some .process1, some .compose2, some .compose3, some .process3]) :
    Pres (OnCtx P) (step E cfg o) := by
  cases o <;> simp only [callOf, List.mem_cons, reduceCtorEq, List.not_mem_nil, or_self, or_false, not_false_eq_true,
    not_true_eq_false, true_or, or_true] at hk <;> simp only [restarts, reduceCtorEq] at hr
  case process2 b => exact Pres.mapOut hP.frame _ (hP.message2Process E cfg b)
  case compose4 b => exact Pres.mapOut hP.frame _ (hP.message4Compose E cfg b)
  case process4 b => exact Pres.mapOut hP.frame _ (hP.message4Process E cfg b)
  case exportSecret a b => exact Pres.mapOut hP.frame _ (hP.exportSecret E cfg ho a b)
  case keyUpdate b => exact Pres.mapOut hP.frame _ (hP.keyUpdate E cfg ho b)
  case exportOscore a b c d => exact Pres.mapOut hP.frame _ (hP.exportOscore E cfg ho a b c d)
  all_goals exact hP.other E cfg rfl rfl rfl

/-- every call of a session other than the first two messages -/
theorem later (ht : ∀ (c : Ctx) (t : Bytes), P c { c with th := t, thState := .th4 })
    (ho : ∀ (c : Ctx) (p : Bytes), P c { c with prk := p, prkState := .out }) {o : Op} (hr : restarts o = false)
    (hk : callOf o ∉ [some .compose1, some .process1, some .compose2]) : Pres (OnCtx P) (step E cfg o) := by
  by_cases h3 : callOf o ∈ [some .compose3, some .process3]
  · cases o <;> simp [callOf] at h3
    case compose3 b => exact Pres.mapOut hP.frame _ (hP.message3Compose E cfg ht b)
    case process3 b => exact Pres.mapOut hP.frame _ (hP.message3Process E cfg ht b)
  · refine hP.later0 E cfg ho hr ?_
    simp only [List.mem_cons, List.not_mem_nil, or_false] at hk h3 ⊢
    rintro (h | h | h | h | h) <;> simp [h] at hk h3

end Soft

/-- induction over the calls of a session -/
theorem session_ind {E : Env σ} {cfg : Config} {e : σ} {log : List Ev} {P : History → St σ → Prop}
    (h0 : P [] ⟨Ctx.fresh, e, log⟩)
    (hs : ∀ h s o r s', Session E cfg e log h s → P h s → step E cfg o s = (r, s') → r.Defined →
      restarts o = false → P (h ++ [(o, r)]) s') :
    ∀ {h s}, Session E cfg e log h s → P h s := by
  intro h
  induction h using snoc_ind with
  | h0 => intro s hs'; cases hs'.1; exact h0
  | hs h p ih =>
    intro s' hs'
    obtain ⟨s1, r1, r2⟩ := run_append hs'.1
    obtain ⟨s2, e2, d2, r3⟩ := run_cons r2
    cases r3
    have hs1 : Session E cfg e log h s1 := ⟨r1, fun q hq => hs'.2 q (by simp [hq])⟩
    exact hs h s1 p.1 p.2 s' hs1 (ih hs1) e2 d2 (hs'.2 p (by simp))

end Verif
