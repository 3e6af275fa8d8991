import Verif.Tally
import Verif.OnCtx

/-!
# How much work a program makes in a message with a given method

`TallyAt p m c`: in a state with message, role and method `p`, `m` makes calls to the application that add up to `c` at
most, however it ends. A static Diffie-Hellman key and a signature exclude each other, so the bounds are sharper than
those of `Tally`.
-/

namespace Verif

open M Spec

variable {σ α β : Type}

/-- what decides how a message is authenticated -/
def Ctx.place (c : Ctx) : Msg × Role × Nat := (c.message, c.role, c.chosenMethod)

/-- see above -/
def TallyAt (p : Msg × Role × Nat) (m : M σ α) (c : Work) : Prop :=
  ∀ s, s.ctx.place = p → ∃ es, (m s).2.log = s.log ++ es ∧ work es ≤ c

/-- message, role and method stay -/
def SamePlace (s s' : St σ) : Prop := s'.ctx.place = s.ctx.place

theorem samePlace_frame : Frame (SamePlace (σ := σ)) := ⟨fun _ => rfl, fun h1 h2 => h2.trans h1⟩

theorem samePlace_ctl {s s' : St σ} (h : s'.ctx.ctl = s.ctx.ctl) : SamePlace s s' := by
  have h1 := congrArg Ctx.place h
  exact h1

theorem samePlace_app : App (SamePlace (σ := σ)) where
  toFrame := samePlace_frame
  upd _ _ h := samePlace_ctl h
  ev _ _ _ _ := rfl
  exp _ _ _ _ _ _ _ _ _ := rfl
  app _ _ _ _ := rfl
  imp0 _ _ _ _ := rfl
  key _ _ _ _ _ _ _ h := h

theorem bind_match (m : M σ α) (f : α → M σ β) (s : St σ) : (m >>= f) s = match m s with
    | (.ok a, s1) => f a s1
    | (.err e, s1) => (.err e, s1)
    | (.ub u, s1) => (.ub u, s1) := rfl

namespace TallyAt

variable {p : Msg × Role × Nat}

theorem of {m : M σ α} {c : Work} (h : Tally m c) : TallyAt p m c := fun s _ => h s

theorem mono {m : M σ α} {c d : Work} (h : TallyAt p m c) (hl : c ≤ d) : TallyAt p m d := by
  intro s hs
  obtain ⟨es, h1, h2⟩ := h s hs
  exact ⟨es, h1, Work.le_trans h2 hl⟩

theorem bind {m : M σ α} {f : α → M σ β} {c d : Work} (hk : Pres SamePlace m) (h1 : TallyAt p m c)
    (h2 : ∀ a, TallyAt p (f a) d) : TallyAt p (m >>= f) (c + d) := by
  intro s hs
  obtain ⟨es, l1, w1⟩ := h1 s hs
  have hk' := hk s
  rcases hm : m s with ⟨r, s1⟩
  rw [hm] at l1 hk'
  rw [bind_match, hm]
  cases r with
  | ok a =>
    obtain ⟨es2, l2, w2⟩ := h2 a s1 ((hk' (by simp)).trans hs)
    refine ⟨es ++ es2, by rw [l2, l1, List.append_assoc], ?_⟩
    rw [work_append]
    exact Work.add_le w1 w2
  | err e => exact ⟨es, l1, Work.le_trans w1 (Work.le_add_right _ _)⟩
  | ub u => exact ⟨es, l1, Work.le_trans w1 (Work.le_add_right _ _)⟩

/-- a first step that sets message and role -/
theorem enterBind {f : Unit → M σ β} {c : Work} (ok : Ctx → Bool) (m : Msg) (r : Role)
    (h : ∀ n a, TallyAt (m, r, n) (f a) c) : Tally (Verif.enter ok m r >>= f) c := by
  intro s
  rcases hm : Verif.enter ok m r s with ⟨x, s1⟩
  rw [bind_match, hm]
  obtain ⟨es, l1, w1⟩ := Tally.enter (σ := σ) ok m r s
  rw [hm] at l1
  cases x with
  | ok a =>
    have hp : s1.ctx.place = (m, r, s1.ctx.chosenMethod) := by
      simp only [Verif.enter, bind_ok, getCtx_ok, require_ok, modCtx_ok] at hm
      obtain ⟨_, _, ⟨rfl, rfl⟩, _, _, ⟨_, rfl⟩, hm⟩ := hm
      obtain ⟨_, rfl⟩ := hm
      rfl
    obtain ⟨es2, l2, w2⟩ := h _ a s1 hp
    refine ⟨es ++ es2, by rw [l2, l1, List.append_assoc], ?_⟩
    rw [work_append]
    refine Work.le_trans (Work.add_le w1 w2) ?_
    rw [Work.zero_add]
    exact Work.le_refl _
  | err e => exact ⟨es, l1, Work.le_trans w1 (Work.zero_le _)⟩
  | ub u => exact ⟨es, l1, Work.le_trans w1 (Work.zero_le _)⟩

theorem mapErr {m : M σ α} {c : Work} (e : Err) (h : TallyAt p m c) : TallyAt p (M.mapErr e m) c := by
  intro s hs
  have h1 := h s hs
  unfold M.mapErr
  rcases hm : m s with ⟨r, s'⟩
  rw [hm] at h1
  cases r <;> exact h1

/-- a first step that reads the context -/
theorem ctx {f : Ctx → M σ β} {c : Work} (h : ∀ x, x.place = p → TallyAt p (f x) c) :
    TallyAt p (M.getCtx >>= f) c := fun s hs => h s.ctx hs s hs

end TallyAt

theorem samePlace_verifyCred (E : Env σ) (c : Cred) : Pres SamePlace (Verif.verifyCred E c) := by
  unfold Verif.verifyCred Verif.credVerify
  refine Pres.bind samePlace_frame (Pres.bind samePlace_frame samePlace_app.toFApp.needCred fun _ =>
    Pres.call _ _ fun s => rfl) fun r => ?_
  cases r with
  | none => exact Pres.bind samePlace_frame (Pres.modCtx _ fun _ => rfl) fun _ => Pres.fail samePlace_frame _
  | some v => exact Pres.pure samePlace_frame _

/-- message, role and method stay -/
macro "stay" : tactic => `(tactic|
  first
  | with_reducible exact samePlace_app.toFApp.memAlloc _ _ _
  | with_reducible exact samePlace_app.toFApp.makeKeyPair _ _
  | with_reducible exact samePlace_app.toFApp.hashTh _ _ _
  | with_reducible exact samePlace_app.toFApp.compDhSecret _ _
  | with_reducible exact samePlace_app.toFApp.compTh2 _ _
  | with_reducible exact samePlace_app.toFApp.compTh3 _ _ _ _
  | with_reducible exact samePlace_app.toFApp.compPrk2e _ _
  | with_reducible exact samePlace_app.toFApp.compPrk3e2m _ _ _ _
  | with_reducible exact samePlace_app.toFApp.compPrk4e3m _ _ _ _
  | with_reducible exact samePlace_app.toFApp.compKeystream _ _ _ _
  | with_reducible exact samePlace_app.toFApp.buildMacCtx _ _ _ _
  | with_reducible exact samePlace_app.toFApp.compMac _ _ _ _
  | with_reducible exact samePlace_app.toFApp.compSignOrMac _ _ _ _ _ _
  | with_reducible exact samePlace_app.toFApp.verifySignOrMac _ _ _ _ _ _
  | with_reducible exact samePlace_app.toFApp.prepareMsg2 _ _ _ _
  | with_reducible exact samePlace_app.toFApp.eadCompose _ _
  | with_reducible exact samePlace_app.toFApp.eadProcess _ _
  | with_reducible exact samePlace_app.toFApp.credFetch _
  | with_reducible exact samePlace_app.toFApp.parseMsg2 _ _ _
  | with_reducible exact samePlace_app.toFApp.parsePtxt2 _ _
  | with_reducible exact samePlace_app.toFApp.parsePtxt3 _ _
  | with_reducible exact samePlace_app.toFApp.keyIvAad3 _ _
  | with_reducible exact samePlace_app.toFApp.aeadEncrypt _ _ _ _ _ _
  | with_reducible exact samePlace_app.toFApp.aeadDecrypt _ _ _ _ _ _
  | with_reducible exact samePlace_app.toFApp.genMsg3 _ _
  | with_reducible exact samePlace_app.toFApp.compSalt3e2m _ _
  | with_reducible exact samePlace_app.toFApp.compSalt4e3m _ _
  | with_reducible exact samePlace_app.toFApp.compGrx _ _ _
  | with_reducible exact samePlace_app.toFApp.compGiy _ _ _
  | with_reducible exact samePlace_app.toFApp.extractPrk _ _ _ _
  | with_reducible exact samePlace_app.toInner.genDhKeys _ _
  | with_reducible exact samePlace_app.toInner.compTh4 _ _ _ _
  | with_reducible exact samePlace_verifyCred _ _
  | exact Pres.modCtx _ fun _ => rfl
  | with_reducible exact Pres.pure samePlace_frame _
  | with_reducible exact Pres.require samePlace_frame _ _
  | with_reducible exact Pres.guardUB samePlace_frame _ _
  | with_reducible exact Pres.ofOption samePlace_frame _ _
  | with_reducible exact Pres.ofRes samePlace_frame _
  | with_reducible exact Pres.getCtx samePlace_frame
  | with_reducible refine Pres.mapErr _ ?_
  | with_reducible refine Pres.bind samePlace_frame ?_ (fun _ => ?_))

/-- adds up the costs of a sequence, with the facts at hand about the steps that depend on the method -/
macro "placed " h1:ident h2:ident : tactic => `(tactic|
  repeat' first
  | with_reducible apply TallyAt.bind
  | with_reducible intro _
  | with_reducible apply TallyAt.mapErr
  | with_reducible exact $h1 _ _
  | with_reducible exact $h2 _ _
  | with_reducible exact $h2 _ _ _ _
  | with_reducible apply TallyAt.of
  | stay
  | tally1)

namespace TallyAt

/-! ## The steps that depend on the method -/

variable (E : Env σ) (cfg : Config)

theorem compGrxR (m : Msg) (n : Nat) (a b : Bytes) :
    TallyAt (m, .responder, n) (Verif.compGrx E a b) ⟨1, 0, 0, 0, 0⟩ := by
  unfold Verif.compGrx
  refine ctx fun c hc => ?_
  have hr : c.role = .responder := congrArg (·.2.1) hc
  simp only [hr]
  exact of (Tally.skip (Tally.require _ _) fun _ => Tally.agreeStatic _ _)

theorem compGiyI (m : Msg) (n : Nat) (a b : Bytes) :
    TallyAt (m, .initiator, n) (Verif.compGiy E a b) ⟨1, 0, 0, 0, 0⟩ := by
  unfold Verif.compGiy
  refine ctx fun c hc => ?_
  have hr : c.role = .initiator := congrArg (·.2.1) hc
  simp only [hr]
  exact of (Tally.skip (Tally.require _ _) fun _ => Tally.agreeStatic _ _)

theorem prk3Sig (m : Msg) (r : Role) (n : Nat) (hn : ¬(n = 1 ∨ n = 3)) (a b : Bytes) :
    TallyAt (m, r, n) (Verif.compPrk3e2m E cfg a b) 0 := by
  unfold Verif.compPrk3e2m
  refine ctx fun c hc => ?_
  have hm : c.chosenMethod = n := congrArg (·.2.2) hc
  refine of (Tally.skip (Tally.require _ _) fun _ => ?_)
  split
  · exact Tally.modCtx _
  · rw [if_neg (hm ▸ hn)]
    exact Tally.fail _

theorem prk4Sig (m : Msg) (r : Role) (n : Nat) (hn : ¬(n = 2 ∨ n = 3)) (a b : Bytes) :
    TallyAt (m, r, n) (Verif.compPrk4e3m E cfg a b) 0 := by
  unfold Verif.compPrk4e3m
  refine ctx fun c hc => ?_
  have hm : c.chosenMethod = n := congrArg (·.2.2) hc
  refine of (Tally.skip (Tally.require _ _) fun _ => ?_)
  split
  · exact Tally.modCtx _
  · rw [if_neg (hm ▸ hn)]
    exact Tally.fail _

theorem prk3StaticR (m : Msg) (n : Nat) (a b : Bytes) :
    TallyAt (m, .responder, n) (Verif.compPrk3e2m E cfg a b) ⟨1, 2, 4, 0, 3⟩ := by
  have hg := fun a b => compGrxR E m n a b
  unfold Verif.compPrk3e2m
  refine ctx fun c _ => ?_
  refine (TallyAt.bind (Pres.require samePlace_frame _ _) (of (Tally.require _ _)) fun _ => ?_).mono
    (by rw [Work.zero_add]; exact Work.le_refl _)
  split
  · exact (of (Tally.modCtx _)).mono (Work.zero_le _)
  · split
    · apply mono
      · focus placed hg hg
      · decide
    · exact (of (Tally.fail _)).mono (Work.zero_le _)

theorem prk4StaticI (m : Msg) (n : Nat) (a b : Bytes) :
    TallyAt (m, .initiator, n) (Verif.compPrk4e3m E cfg a b) ⟨1, 2, 4, 0, 3⟩ := by
  have hg := fun a b => compGiyI E m n a b
  unfold Verif.compPrk4e3m
  refine ctx fun c _ => ?_
  refine (TallyAt.bind (Pres.require samePlace_frame _ _) (of (Tally.require _ _)) fun _ => ?_).mono
    (by rw [Work.zero_add]; exact Work.le_refl _)
  split
  · exact (of (Tally.modCtx _)).mono (Work.zero_le _)
  · split
    · apply mono
      · focus placed hg hg
      · decide
    · exact (of (Tally.fail _)).mono (Work.zero_le _)

theorem usesSign_mac2 {c : Ctx} {r : Role} {n : Nat} (hn : ¬(n = 0 ∨ n = 2)) (hc : c.place = (.msg2, r, n)) :
    usesSign c ≠ some true := by
  have hm : c.chosenMethod = n := congrArg (·.2.2) hc
  have h2 : c.message = .msg2 := congrArg (·.1) hc
  unfold usesSign
  simp only [h2, hm, if_neg hn]
  split <;> simp

theorem usesSign_mac3 {c : Ctx} {r : Role} {n : Nat} (hn : ¬(n = 0 ∨ n = 1)) (hc : c.place = (.msg3, r, n)) :
    usesSign c ≠ some true := by
  have hm : c.chosenMethod = n := congrArg (·.2.2) hc
  have h2 : c.message = .msg3 := congrArg (·.1) hc
  unfold usesSign
  simp only [h2, hm, if_neg hn]
  split <;> simp

theorem signMac (hu : ∀ c : Ctx, c.place = p → usesSign c ≠ some true) (k : Bytes) (m : MacCtx) (b : Bytes) (n : Nat) :
    TallyAt p (Verif.compSignOrMac E cfg k m b n) 0 := by
  unfold Verif.compSignOrMac
  refine ctx fun c hc => of (Tally.skip (Tally.require _ _) fun _ => ?_)
  have := hu c hc
  generalize usesSign c = u at this ⊢
  rcases u with _ | _ | _
  · exact Tally.fail _
  · exact Tally.skip (Tally.guardUB _ _) fun _ => Tally.pure _
  · exact absurd rfl this

theorem verifyMac (hu : ∀ c : Ctx, c.place = p → usesSign c ≠ some true) (m : MacCtx) (k : Option Bytes) (a b : Bytes) :
    TallyAt p (Verif.verifySignOrMac E cfg m k a b) 0 := by
  unfold Verif.verifySignOrMac
  refine ctx fun c hc => of (Tally.skip (Tally.ofOption _ _) fun _ => Tally.skip (Tally.require _ _) fun _ => ?_)
  have := hu c hc
  generalize usesSign c = u at this ⊢
  rcases u with _ | _ | _
  · exact Tally.fail _
  · exact Tally.require _ _
  · exact absurd rfl this

/-! ## The calls -/

theorem message2Compose (n : Nat) : Tally (Verif.message2Compose E cfg n : M σ _) ⟨3, 7, 14, 2, 14⟩ := by
  unfold Verif.message2Compose
  refine Tally.skip (Tally.require _ _) fun _ => enterBind _ _ _ fun k _ => ?_
  by_cases hk : k = 1 ∨ k = 3
  · have h1 := fun a b => prk3StaticR E cfg .msg2 k a b
    have h2 := fun a b c d => signMac E cfg (p := (.msg2, .responder, k))
      (fun c hc => usesSign_mac2 (by omega) hc) a b c d
    apply mono
    · focus placed h1 h2
    · decide
  · have h1 := fun a b => prk3Sig E cfg .msg2 .responder k hk a b
    apply mono
    · focus placed h1 h1
    · decide

theorem message2Process (n : Bytes) : Tally (Verif.message2Process E cfg n : M σ _) ⟨2, 7, 14, 2, 11⟩ := by
  unfold Verif.message2Process
  refine Tally.skip (Tally.require _ _) fun _ => enterBind _ _ _ fun k _ => ?_
  by_cases hk : k = 1 ∨ k = 3
  · have h2 := fun a b c d => verifyMac E cfg (p := (.msg2, .initiator, k))
      (fun c hc => usesSign_mac2 (by omega) hc) a b c d
    apply mono
    · focus placed h2 h2
    · decide
  · have h1 := fun a b => prk3Sig E cfg .msg2 .initiator k hk a b
    apply mono
    · focus placed h1 h1
    · decide

theorem message3Compose (n : Nat) : Tally (Verif.message3Compose E cfg n : M σ _) ⟨1, 7, 12, 2, 14⟩ := by
  unfold Verif.message3Compose
  refine Tally.skip (Tally.require _ _) fun _ => enterBind _ _ _ fun k _ => ?_
  by_cases hk : k = 2 ∨ k = 3
  · have h1 := fun a b => prk4StaticI E cfg .msg3 k a b
    have h2 := fun a b c d => signMac E cfg (p := (.msg3, .initiator, k))
      (fun c hc => usesSign_mac3 (by omega) hc) a b c d
    apply mono
    · focus placed h1 h2
    · decide
  · have h1 := fun a b => prk4Sig E cfg .msg3 .initiator k hk a b
    apply mono
    · focus placed h1 h1
    · decide

theorem message3Process (n : Bytes) : Tally (Verif.message3Process E cfg n : M σ _) ⟨1, 7, 14, 2, 12⟩ := by
  unfold Verif.message3Process
  refine Tally.skip (Tally.require _ _) fun _ => enterBind _ _ _ fun k _ => ?_
  by_cases hk : k = 2 ∨ k = 3
  · have h2 := fun a b c d => verifyMac E cfg (p := (.msg3, .responder, k))
      (fun c hc => usesSign_mac3 (by omega) hc) a b c d
    apply mono
    · focus placed h2 h2
    · decide
  · have h1 := fun a b => prk4Sig E cfg .msg3 .responder k hk a b
    apply mono
    · focus placed h1 h1
    · decide

end TallyAt

end Verif
