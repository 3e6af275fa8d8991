import Verif.OnCtx

/-!
# What API calls send to the application

`LogRel Q`: a property of the list of calls to the application made by an API call that is closed under everything the
library does. One lemma per API function, for every way the call can end. The first message is the exception: its
lemma has one more hypothesis, because a key is not destroyed when an allocation fails.
-/

namespace Verif

open M Spec

variable {σ α : Type}

/-- a property of lists of callback calls that is closed under what the library does -/
structure LogRel (Q : List Ev → Prop) : Prop where
  nil : Q []
  app : ∀ {a b}, Q a → Q b → Q (a ++ b)
  plain : ∀ v : Ev, (∀ t b r, v ≠ .importKey t b r) → (∀ k, v ≠ .destroyKey k) → (∀ k i n r, v ≠ .expand k i n r) → Q [v]
  exp : ∀ (kid : Bytes) (l : Nat) (c : Bytes) (m n : Nat) (out : Option Bytes), l ≤ 65535 →
    Q [.expand kid (encInfo l c (u32 m)) n out]
  imp0 : ∀ (t : KeyType) (raw : Bytes), Q [.importKey t raw none]
  key : ∀ (t : KeyType) (raw kid : Bytes) (es : List Ev), Q es →
    Q (.importKey t raw (some kid) :: es ++ [.destroyKey kid])

/-- the calls to the application between two states have the property `Q` -/
def OnLog (Q : List Ev → Prop) (s s' : St σ) : Prop := ∃ es, s'.log = s.log ++ es ∧ Q es

theorem onLog_during {Q : List Ev → Prop} {s s' : St σ} (h : OnLog Q s s') :
    Q (during s s') ∧ s'.log = s.log ++ during s s' := by
  obtain ⟨es, h1, h2⟩ := h
  have h3 : during s s' = es := by simp [during, h1]
  rw [h3]; exact ⟨h2, h1⟩

namespace LogRel

variable {Q : List Ev → Prop} (hQ : LogRel Q) (E : Env σ) (cfg : Config)

include hQ

theorem frame : Frame (OnLog (σ := σ) Q) where
  refl _ := ⟨[], by simp, hQ.nil⟩
  trans h1 h2 := by
    obtain ⟨e1, h1, q1⟩ := h1
    obtain ⟨e2, h2, q2⟩ := h2
    exact ⟨e1 ++ e2, by rw [h2, h1, List.append_assoc], hQ.app q1 q2⟩

theorem same {s s' : St σ} (h : s'.log = s.log) : OnLog Q s s' := ⟨[], by simp [h], hQ.nil⟩

theorem inner : App (OnLog (σ := σ) Q) where
  toFrame := hQ.frame
  ev s e v h := ⟨[v], rfl, hQ.plain v (by rintro t b r rfl; simp [Ev.isKey] at h) (by rintro k rfl; simp [Ev.isKey] at h)
    (by rintro k i n r rfl; simp [Ev.isKey] at h)⟩
  exp s e kid l c m n out h := ⟨_, rfl, hQ.exp kid l c m n out h⟩
  imp0 s e t raw := ⟨_, rfl, hQ.imp0 t raw⟩
  key s1 s3 e2 e4 t raw kid h := by
    obtain ⟨es, h1, h2⟩ := h
    exact ⟨_, by simp [h1], hQ.key t raw kid es h2⟩
  upd s c _ := hQ.same rfl
  soft s c _ _ _ _ := hQ.same rfl
  wipe s := hQ.same rfl
  th23 s t ts _ := hQ.same rfl
  app s e v h := ⟨[v], rfl, hQ.plain v (by rintro t b r rfl; simp [Ev.isApp] at h) (by rintro k rfl; simp [Ev.isApp] at h)
    (by rintro k i n r rfl; simp [Ev.isApp] at h)⟩

theorem modCtx (f : Ctx → Ctx) : Pres (OnLog Q) (M.modCtx f : M σ Unit) := Pres.modCtx _ fun _ => hQ.same rfl

theorem verifyCred (cr : Cred) : Pres (OnLog Q) (Verif.verifyCred E cr) := by
  unfold Verif.verifyCred Verif.credVerify
  refine Pres.bind hQ.frame ?_ fun _ => ?_
  · refine (hQ.inner.needCred).bind hQ.frame fun _ => Pres.call _ _ fun _ => ⟨_, rfl, hQ.plain _ ?_ ?_ ?_⟩ <;>
      (intros; simp)
  · refine (Pres.whenM hQ.frame _ (hQ.modCtx _)).bind hQ.frame fun _ => ?_
    exact Pres.ofOption hQ.frame _ _

theorem enter (ok : Ctx → Bool) (m : Msg) (r : Role) : Pres (OnLog Q) (Verif.enter ok m r : M σ Unit) := by
  unfold Verif.enter
  refine (Pres.getCtx hQ.frame).bind hQ.frame fun _ => ?_
  refine (Pres.require hQ.frame _ _).bind hQ.frame fun _ => ?_
  exact hQ.modCtx _

theorem chooseSuite : Pres (OnLog Q) (Verif.chooseSuite : M σ Unit) := by
  unfold Verif.chooseSuite
  refine (Pres.getCtx hQ.frame).bind hQ.frame fun _ => ?_
  refine (Pres.require hQ.frame _ _).bind hQ.frame fun _ => ?_
  exact hQ.modCtx _

theorem checkSuites (su : Suites) : Pres (OnLog Q) (Verif.checkSuites cfg su : M σ Unit) := by
  unfold Verif.checkSuites
  refine (Pres.getCtx hQ.frame).bind hQ.frame fun _ => ?_
  have h : Pres (OnLog Q) ((M.modCtx fun c => { c with errorCode := .wrongSuite }) >>= fun _ =>
      (M.fail .msg1Process : M σ Unit)) := (hQ.modCtx _).bind hQ.frame fun _ => Pres.fail hQ.frame _
  cases su with
  | one v =>
    refine (Pres.guardUB hQ.frame _ _).bind hQ.frame fun _ => ?_
    exact (hQ.modCtx _).bind hQ.frame fun _ => Pres.whenM hQ.frame _ h
  | list l =>
    refine (Pres.whenM hQ.frame _ h).bind hQ.frame fun _ => ?_
    refine (Pres.require hQ.frame _ _).bind hQ.frame fun _ => ?_
    exact (hQ.modCtx _).bind hQ.frame fun _ => Pres.whenM hQ.frame _ h

end LogRel

/-- goes through the body of an API function -/
macro "logs!" hQ:ident : tactic => `(tactic|
  repeat' first
  | with_reducible refine Pres.bind (LogRel.frame $hQ) ?_ (fun _ => ?_)
  | with_reducible exact Pres.pure (LogRel.frame $hQ) _
  | with_reducible exact Pres.require (LogRel.frame $hQ) _ _
  | with_reducible exact Pres.guardUB (LogRel.frame $hQ) _ _
  | with_reducible exact Pres.ofOption (LogRel.frame $hQ) _ _
  | with_reducible exact Pres.ofRes (LogRel.frame $hQ) _
  | with_reducible exact Pres.getCtx (LogRel.frame $hQ)
  | with_reducible exact LogRel.enter $hQ _ _ _
  | with_reducible exact LogRel.chooseSuite $hQ
  | with_reducible exact LogRel.modCtx $hQ _
  | with_reducible exact LogRel.checkSuites $hQ _ _
  | with_reducible exact (LogRel.inner $hQ).genDhKeys _ _
  | with_reducible exact (LogRel.inner $hQ).compTh4 _ _ _ _
  | with_reducible exact (LogRel.inner $hQ).ensurePrkOut _ _
  | with_reducible exact (LogRel.inner $hQ).compNewPrkOut _ _ _
  | with_reducible exact (LogRel.inner $hQ).exportSecret _ _ _ _
  | with_reducible exact LogRel.verifyCred $hQ _ _
  | with_reducible exact (LogRel.inner $hQ).memAlloc _ _ _
  | with_reducible exact (LogRel.inner $hQ).makeKeyPair _ _
  | with_reducible exact (LogRel.inner $hQ).credFetch _
  | with_reducible exact (LogRel.inner $hQ).hashTh _ _ _
  | with_reducible exact (LogRel.inner $hQ).compDhSecret _ _
  | with_reducible exact (LogRel.inner $hQ).compTh2 _ _
  | with_reducible exact (LogRel.inner $hQ).compTh3 _ _ _ _
  | with_reducible exact (LogRel.inner $hQ).compPrk2e _ _
  | with_reducible exact (LogRel.inner $hQ).compPrk3e2m _ _ _ _
  | with_reducible exact (LogRel.inner $hQ).compPrk4e3m _ _ _ _
  | with_reducible exact (LogRel.inner $hQ).compKeystream _ _ _ _
  | with_reducible exact (LogRel.inner $hQ).buildMacCtx _ _ _ _
  | with_reducible exact (LogRel.inner $hQ).compMac _ _ _ _
  | with_reducible exact (LogRel.inner $hQ).compSignOrMac _ _ _ _ _ _
  | with_reducible exact (LogRel.inner $hQ).verifySignOrMac _ _ _ _ _ _
  | with_reducible exact (LogRel.inner $hQ).prepareMsg2 _ _ _ _
  | with_reducible exact (LogRel.inner $hQ).eadCompose _ _
  | with_reducible exact (LogRel.inner $hQ).eadProcess _ _
  | with_reducible exact (LogRel.inner $hQ).processEad1 _ _ _ _
  | with_reducible exact (LogRel.inner $hQ).storePeerCid _ _ _
  | with_reducible exact (LogRel.inner $hQ).parseMsg2 _ _ _
  | with_reducible exact (LogRel.inner $hQ).parsePtxt2 _ _
  | with_reducible exact (LogRel.inner $hQ).parsePtxt3 _ _
  | with_reducible exact (LogRel.inner $hQ).parsePtxt4 _ _
  | with_reducible exact (LogRel.inner $hQ).keyIvAad3 _ _
  | with_reducible exact (LogRel.inner $hQ).keyIvAad4 _ _
  | with_reducible exact (LogRel.inner $hQ).aeadEncrypt _ _ _ _ _ _
  | with_reducible exact (LogRel.inner $hQ).aeadDecrypt _ _ _ _ _ _
  | with_reducible exact (LogRel.inner $hQ).genMsg3 _ _
  | with_reducible exact (LogRel.inner $hQ).genMsg4 _ _
  | with_reducible refine Pres.mapErr _ ?_
  | with_reducible assumption)

namespace LogRel

variable {Q : List Ev → Prop} (hQ : LogRel Q) (E : Env σ) (cfg : Config)

include hQ

theorem memAlloc_cases (n : Nat) {s s' : St σ} {r : Res Unit} (h : Verif.memAlloc E cfg n s = (r, s'))
    (hd : r.Defined) : (r = .ok () ∧ OnLog Q s s') ∨ (cfg.backend = .heap ∧ s'.log = s.log ++ [.alloc n false]) := by
  unfold Verif.memAlloc at h
  cases hb : cfg.backend <;> simp only [hb] at h
  · obtain ⟨_, s1, h1, h⟩ | ⟨e, h1⟩ := bind_cases h hd
    · obtain ⟨_, rfl⟩ := guardUB_ok.1 h1
      refine Or.inl ?_
      unfold M.guardUB at h
      split at h
      · simp only [Prod.mk.injEq] at h; exact ⟨h.1.symm, hQ.same (by rw [h.2])⟩
      · simp only [Prod.mk.injEq] at h; rw [← h.1] at hd; simp at hd
    · exact absurd h1 (noErr_guardUB _ _ _ _ _)
  · obtain ⟨x, s1, h1, h⟩ | ⟨e, h1⟩ := bind_cases h hd
    · obtain ⟨⟨_, _, hl⟩, _⟩ := call_st.1 h1
      unfold M.require at h
      cases x <;> simp only [if_true, if_false, Bool.false_eq_true, Prod.mk.injEq] at h
      · exact Or.inr ⟨rfl, by rw [← h.2, hl]⟩
      · refine Or.inl ⟨h.1.symm, [.alloc n true], by rw [← h.2, hl], hQ.plain _ ?_ ?_ ?_⟩ <;> (intros; simp)
    · exact absurd h1 (noErr_call _ _ _ _ _)

/-- the ephemeral key of message 1: the key stays imported if the allocation fails -/
theorem makeKey1 (hleak : cfg.backend = .heap → ∀ kid n, Q [.importKey .makeKeyPair [] (some kid), .alloc n false]) (n : Nat)
    {β : Type} (f : Option (Bytes × Bytes) → M σ β) (hf : ∀ kp, Pres (OnLog Q) (f kp)) :
    Pres (OnLog Q) (Verif.importKey E .makeKeyPair [] >>= fun k => ofOption .ephemeralDh k >>= fun kid =>
      Verif.memAlloc E cfg n >>= fun _ => Verif.makeKeyPair E kid >>= fun kp =>
      Verif.destroyKey E kid >>= fun _ => f kp) := by
  intro s hd
  rcases h : (Verif.importKey E .makeKeyPair [] >>= fun k => ofOption .ephemeralDh k >>= fun kid =>
      Verif.memAlloc E cfg n >>= fun _ => Verif.makeKeyPair E kid >>= fun kp =>
      Verif.destroyKey E kid >>= fun _ => f kp) s with ⟨r, s'⟩
  rw [h] at hd
  obtain ⟨k, s1, h1, h⟩ | ⟨e, h1⟩ := bind_cases h hd
  rotate_left
  · exact absurd h1 (noErr_bind (noErr_bind noErr_getCtx fun _ => noErr_guardUB _ _) (fun _ => noErr_call _ _) _ _ _)
  obtain ⟨_, l1⟩ := importKey_st h1
  obtain ⟨kid, s2, h2, h⟩ | ⟨e, h2⟩ := bind_cases h hd
  rotate_left
  · unfold M.ofOption at h2
    cases k with
    | none => simp only [Prod.mk.injEq] at h2; exact ⟨_, by rw [← h2.2, l1], hQ.imp0 _ _⟩
    | some kid => simp at h2
  obtain ⟨rfl, rfl⟩ := ofOption_ok.1 h2
  obtain ⟨_, s3, h3, h⟩ | ⟨e, h3⟩ := bind_cases h hd
  rotate_left
  · rcases hQ.memAlloc_cases E cfg n h3 (by simp) with ⟨h4, _⟩ | ⟨hb, h4⟩
    · simp at h4
    · exact ⟨_, by rw [h4, l1, List.append_assoc]; rfl, hleak hb kid n⟩
  obtain ⟨es, h4, q4⟩ : OnLog Q s1 s3 := by
    have h4 := (hQ.inner (σ := σ)).memAlloc E cfg n s1
    rw [h3] at h4
    exact h4 (by simp)
  obtain ⟨kp, s5, h5, h⟩ | ⟨e, h5⟩ := bind_cases h hd
  rotate_left
  · exact absurd h5 (noErr_makeKeyPair _ _ _ _ _)
  obtain ⟨_, l5⟩ := makeKeyPair_st h5
  obtain ⟨_, s6, h6, h⟩ | ⟨e, h6⟩ := bind_cases h hd
  rotate_left
  · exact absurd h6 (noErr_bind (noErr_bind noErr_getCtx fun _ => noErr_guardUB _ _) (fun _ => noErr_call _ _) _ _ _)
  obtain ⟨_, l6⟩ := destroyKey_st h6
  have h7 := hf kp s6
  rw [h] at h7
  refine hQ.frame.trans ⟨_, ?_, hQ.key .makeKeyPair [] kid (es ++ [.makeKeyPair kid kp]) (hQ.app q4 (hQ.plain _ ?_ ?_ ?_))⟩
    (h7 hd)
  · simp [l6, l5, h4, l1]
  all_goals (intros; simp)

theorem message1Compose (hleak : cfg.backend = .heap → ∀ kid n, Q [.importKey .makeKeyPair [] (some kid), .alloc n false]) (n : Nat) :
    Pres (OnLog Q) (Verif.message1Compose E cfg n) := by
  have h1 := fun (x : Nat) (f : Option (Bytes × Bytes) → M σ Bytes) => hQ.makeKey1 E cfg hleak x f
  unfold Verif.message1Compose
  refine (Pres.require hQ.frame _ _).bind hQ.frame fun _ => ?_
  refine (hQ.enter _ _ _).bind hQ.frame fun _ => ?_
  refine (hQ.chooseSuite).bind hQ.frame fun _ => ?_
  refine (hQ.modCtx _).bind hQ.frame fun _ => ?_
  refine (Pres.getCtx hQ.frame).bind hQ.frame fun _ => ?_
  refine h1 _ _ fun kp => ?_
  logs! hQ

theorem message1Process (b : Bytes) : Pres (OnLog Q) (Verif.message1Process E cfg b) := by
  unfold Verif.message1Process
  logs! hQ

theorem message2Compose (n : Nat) : Pres (OnLog Q) (Verif.message2Compose E cfg n) := by
  unfold Verif.message2Compose
  logs! hQ

theorem message2Process (b : Bytes) : Pres (OnLog Q) (Verif.message2Process E cfg b) := by
  unfold Verif.message2Process
  logs! hQ

theorem message3Compose (n : Nat) : Pres (OnLog Q) (Verif.message3Compose E cfg n) := by
  unfold Verif.message3Compose
  logs! hQ

theorem message3Process (b : Bytes) : Pres (OnLog Q) (Verif.message3Process E cfg b) := by
  unfold Verif.message3Process
  logs! hQ

theorem message4Compose (n : Nat) : Pres (OnLog Q) (Verif.message4Compose E cfg n) := by
  unfold Verif.message4Compose
  logs! hQ

theorem message4Process (b : Bytes) : Pres (OnLog Q) (Verif.message4Process E cfg b) := by
  unfold Verif.message4Process
  logs! hQ

theorem exportSecret (l n : Nat) : Pres (OnLog Q) (Verif.exportSecret E cfg l n) :=
  hQ.inner.exportSecret E cfg l n

theorem keyUpdate (b : Bytes) : Pres (OnLog Q) (Verif.keyUpdate E cfg b) := by
  unfold Verif.keyUpdate
  logs! hQ

theorem exportOscore (a b c d : Nat) : Pres (OnLog Q) (Verif.exportOscore E cfg a b c d) := by
  unfold Verif.exportOscore
  logs! hQ

theorem setter {o : Op} (hs : isSetter o = true) : Pres (OnLog Q) (step E cfg o) := by
  intro s hd
  rcases C30_setters (E := E) (cfg := cfg) hs s with ⟨_, _, c', h1, h2⟩ | ⟨_, e, _, h1⟩ <;> rw [h1] <;> exact hQ.same rfl

/-- every call other than composing message 1 -/
theorem step_other {o : Op} (ho : ∀ n, o ≠ .compose1 n) : Pres (OnLog Q) (step E cfg o) := by
  cases o
  case compose1 n => exact absurd rfl (ho n)
  case nullArg => exact Pres.fail hQ.frame _
  case init => exact Pres.mapOut hQ.frame _ (hQ.modCtx _)
  case deinit => 
    refine Pres.mapOut hQ.frame _ ?_
    unfold contextDeinit
    logs! hQ
  case getCode =>
    refine Pres.mapOut hQ.frame _ ?_
    unfold errorGetCode
    logs! hQ
  case getSuites a b =>
    refine Pres.mapOut hQ.frame _ ?_
    unfold errorGetSuites
    logs! hQ
  case process1 b => exact Pres.mapOut hQ.frame _ (hQ.message1Process E cfg b)
  case compose2 b => exact Pres.mapOut hQ.frame _ (hQ.message2Compose E cfg b)
  case process2 b => exact Pres.mapOut hQ.frame _ (hQ.message2Process E cfg b)
  case compose3 b => exact Pres.mapOut hQ.frame _ (hQ.message3Compose E cfg b)
  case process3 b => exact Pres.mapOut hQ.frame _ (hQ.message3Process E cfg b)
  case compose4 b => exact Pres.mapOut hQ.frame _ (hQ.message4Compose E cfg b)
  case process4 b => exact Pres.mapOut hQ.frame _ (hQ.message4Process E cfg b)
  case exportSecret a b => exact Pres.mapOut hQ.frame _ (hQ.exportSecret E cfg a b)
  case keyUpdate b => exact Pres.mapOut hQ.frame _ (hQ.keyUpdate E cfg b)
  case exportOscore a b c d => exact Pres.mapOut hQ.frame _ (hQ.exportOscore E cfg a b c d)
  all_goals exact hQ.setter E cfg rfl

end LogRel

end Verif
