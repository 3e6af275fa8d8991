import Verif.Emits
import Verif.TallyAt

/-!
# Which operations a message call performs with a given method

`EmitsAt p m ks`: in a state with message, role and method `p`, `m` makes calls of the kinds `ks` at most, in this
order, however it ends (undefined behaviour apart). With a static Diffie-Hellman key nothing is signed or verified.
-/

namespace Verif

open M Spec

variable {σ α β : Type}

/-- see above -/
def EmitsAt (p : Msg × Role × Nat) (m : M σ α) (ks : List Kind) : Prop :=
  ∀ s, s.ctx.place = p → (m s).1.Defined → ∃ es, (m s).2.log = s.log ++ es ∧ Spec.Within ks es

namespace EmitsAt

variable {p : Msg × Role × Nat}

theorem of {m : M σ α} {L : List Kind} (h : Emits p.1 m L) : EmitsAt p m L := fun s hs hd =>
  (h s (congrArg (·.1) hs) hd).2

theorem mono {m : M σ α} {L L' : List Kind} (h : EmitsAt p m L) (hL : L.Sublist L') : EmitsAt p m L' := by
  intro s hs hd
  obtain ⟨es, h1, h2⟩ := h s hs hd
  exact ⟨es, h1, within_sublist h2 hL⟩

theorem bind {m : M σ α} {f : α → M σ β} {L1 L2 : List Kind} (hk : Pres SamePlace m) (h1 : EmitsAt p m L1)
    (h2 : ∀ a, EmitsAt p (f a) L2) : EmitsAt p (m >>= f) (L1 ++ L2) := by
  intro s hs hd
  rcases h : (m >>= f) s with ⟨r, s'⟩
  rw [h] at hd
  have h1 := h1 s hs
  have hk' := hk s
  rcases bind_cases h hd with ⟨a, s1, hm, hf⟩ | ⟨e, hm⟩
  · rw [hm] at h1 hk'
    obtain ⟨es, l1, w1⟩ := h1 (by simp)
    have h2 := h2 a s1 ((hk' (by simp)).trans hs)
    rw [hf] at h2
    obtain ⟨es2, l2, w2⟩ := h2 hd
    exact ⟨es ++ es2, by rw [l2, l1, List.append_assoc], within_append w1 w2⟩
  · rw [hm] at h1
    obtain ⟨es, l1, w1⟩ := h1 (by simp)
    refine ⟨es, l1, ?_⟩
    have := within_append w1 (within_nil L2)
    rwa [List.append_nil] at this

theorem bind0 {m : M σ α} {f : α → M σ β} {L : List Kind} (hk : Pres SamePlace m) (h1 : Emits p.1 m [])
    (h2 : ∀ a, EmitsAt p (f a) L) : EmitsAt p (m >>= f) L := bind hk (of h1) h2

theorem bindL {m : M σ α} {f : α → M σ β} {k : Kind} {L : List Kind} (hk : Pres SamePlace m) (h1 : Emits p.1 m [k])
    (h2 : ∀ a, EmitsAt p (f a) L) : EmitsAt p (m >>= f) (k :: L) := bind hk (of h1) h2

theorem mapErr {m : M σ α} {L : List Kind} (e : Err) (h : EmitsAt p m L) : EmitsAt p (M.mapErr e m) L := by
  intro s hs
  have h1 := h s hs
  unfold M.mapErr
  rcases hm : m s with ⟨r, s'⟩
  rw [hm] at h1
  cases r <;> simpa using h1

/-- a first step that reads the context -/
theorem ctx {f : Ctx → M σ β} {L : List Kind} (h : ∀ x, x.place = p → EmitsAt p (f x) L) :
    EmitsAt p (M.getCtx >>= f) L := fun s hs => h s.ctx hs s hs

/-- a first step that sets message and role -/
theorem enterBind {f : Unit → M σ β} {L : List Kind} (ok : Ctx → Bool) (m : Msg) (r : Role) (s : St σ)
    (h : EmitsAt (m, r, s.ctx.chosenMethod) (f ()) L) (hd : ((Verif.enter ok m r >>= f) s).1.Defined) :
    ∃ es, ((Verif.enter ok m r >>= f) s).2.log = s.log ++ es ∧ Spec.Within L es := by
  rcases hx : (Verif.enter ok m r >>= f) s with ⟨x, s'⟩
  rw [hx] at hd
  rcases bind_cases hx hd with ⟨a, s1, hm, hf⟩ | ⟨e, hm⟩
  · simp only [Verif.enter, bind_ok, getCtx_ok, require_ok, modCtx_ok] at hm
    obtain ⟨_, _, ⟨rfl, rfl⟩, _, _, ⟨_, rfl⟩, hm⟩ := hm
    obtain ⟨_, rfl⟩ := hm
    have := h _ rfl (by rw [hf]; exact hd)
    rw [hf] at this
    exact this
  · refine ⟨[], ?_, within_nil _⟩
    have hl : s'.log = s.log := by
      have := congrArg (fun x => x.2.log) hm
      cases ho : ok s.ctx <;> simpa [Verif.enter, Bind.bind, M.bind, M.getCtx, M.require, M.modCtx, ho] using this.symm
    simpa using hl

/-! ## The steps that depend on the method -/

variable (E : Env σ) (cfg : Config)

theorem signMac (hu : ∀ c : Ctx, c.place = p → usesSign c ≠ some true) (k : Bytes) (m : MacCtx) (b : Bytes) (n : Nat) :
    EmitsAt p (Verif.compSignOrMac E cfg k m b n) [] := by
  unfold Verif.compSignOrMac
  refine ctx fun c hc => of (Emits.bind0 (Emits.require _ _) fun _ => ?_)
  have := hu c hc
  generalize usesSign c = u at this ⊢
  rcases u with _ | _ | _
  · exact Emits.fail _
  · exact Emits.bind0 (Emits.guardUB _ _) fun _ => Emits.pure _
  · exact absurd rfl this

theorem verifyMac (hu : ∀ c : Ctx, c.place = p → usesSign c ≠ some true) (m : MacCtx) (k : Option Bytes) (a b : Bytes) :
    EmitsAt p (Verif.verifySignOrMac E cfg m k a b) [] := by
  unfold Verif.verifySignOrMac
  refine ctx fun c hc => of (Emits.bind0 (Emits.ofOption _ _) fun _ => Emits.bind0 (Emits.require _ _) fun _ => ?_)
  have := hu c hc
  generalize usesSign c = u at this ⊢
  rcases u with _ | _ | _
  · exact Emits.fail _
  · exact Emits.require _ _
  · exact absurd rfl this

end EmitsAt

/-- passes over steps that are of no kind -/
macro "steps3" : tactic => `(tactic|
  repeat (with_reducible refine EmitsAt.bind0 ?_ ?_ (fun _ => ?_); (focus ((repeat' stay); done)); focus (quiet2; done)))

namespace EmitsAt

variable (E : Env σ) (cfg : Config)

theorem message2Compose (n : Nat) (s : St σ) (hm : ¬ (s.ctx.chosenMethod = 0 ∨ s.ctx.chosenMethod = 2))
    (hd : (Verif.message2Compose E cfg n s).1.Defined) :
    ∃ es, (Verif.message2Compose E cfg n s).2.log = s.log ++ es ∧
      Spec.Within [.credFetch, .eadCompose .msg2, .derive 1, .derive 2, .derive 0] es := by
  revert hd
  unfold Verif.message2Compose
  refine Emits.lead s fun hd => enterBind _ _ _ s ?_ hd
  steps3
  refine bindL (by stay) (Emits.credFetch _) fun _ => ?_
  steps3
  refine bindL (by stay) (Emits.eadCompose _ _) fun _ => ?_
  refine bindL (by repeat' stay) (Emits.mapErr _ (Emits.compPrk3e2m _ _ _ _)) fun _ => ?_
  steps3
  refine bindL (by stay) (Emits.compMac _ _ _ _) fun _ => ?_
  steps3
  refine bind (L1 := []) (by stay) (signMac E cfg (fun c hc => TallyAt.usesSign_mac2 hm hc) _ _ _ _) fun _ => ?_
  steps3
  refine bindL (by repeat' stay) (Emits.mapErr _ (Emits.compKeystream _ _ _ _)) fun _ => ?_
  refine of ?_
  quiet2

theorem message2Process (b : Bytes) (s : St σ) (hm : ¬ (s.ctx.chosenMethod = 0 ∨ s.ctx.chosenMethod = 2))
    (hd : (Verif.message2Process E cfg b s).1.Defined) :
    ∃ es, (Verif.message2Process E cfg b s).2.log = s.log ++ es ∧
      Spec.Within [.derive 0, .eadProcess .msg2, .credVerify, .derive 1, .derive 2] es := by
  revert hd
  unfold Verif.message2Process
  refine Emits.lead s fun hd => enterBind _ _ _ s ?_ hd
  steps3
  refine bindL (by repeat' stay) (Emits.mapErr _ (Emits.compKeystream _ _ _ _)) fun _ => ?_
  steps3
  refine bindL (by stay) (Emits.eadProcess _ _) fun _ => ?_
  refine bindL (by stay) (Emits.verifyCred _ _) fun _ => ?_
  refine bindL (by repeat' stay) (Emits.mapErr _ (Emits.compPrk3e2m _ _ _ _)) fun _ => ?_
  steps3
  refine bindL (by stay) (Emits.compMac _ _ _ _) fun _ => ?_
  refine bind (L1 := []) (by repeat' stay) (mapErr _ (verifyMac E cfg (fun c hc => TallyAt.usesSign_mac2 hm hc) _ _ _ _)) fun _ => ?_
  refine of ?_
  quiet2

theorem message3Compose (n : Nat) (s : St σ) (hm : ¬ (s.ctx.chosenMethod = 0 ∨ s.ctx.chosenMethod = 1))
    (hd : (Verif.message3Compose E cfg n s).1.Defined) :
    ∃ es, (Verif.message3Compose E cfg n s).2.log = s.log ++ es ∧
      Spec.Within [.eadCompose .msg3, .credFetch, .derive 3, .derive 4, .derive 5, .derive 6, .encrypt] es := by
  revert hd
  unfold Verif.message3Compose
  refine Emits.lead s fun hd => enterBind _ _ _ s ?_ hd
  steps3
  refine bindL (by stay) (Emits.eadCompose _ _) fun _ => ?_
  refine bindL (by stay) (Emits.credFetch _) fun _ => ?_
  steps3
  refine bind (by stay) (of (Emits.keyIvAad3 _ _)) fun _ => ?_
  refine bindL (by repeat' stay) (Emits.mapErr _ (Emits.compPrk4e3m _ _ _ _)) fun _ => ?_
  steps3
  refine bindL (by repeat' stay) (Emits.mapErr _ (Emits.compMac _ _ _ _)) fun _ => ?_
  steps3
  refine bind (L1 := []) (by stay) (signMac E cfg (fun c hc => TallyAt.usesSign_mac3 hm hc) _ _ _ _) fun _ => ?_
  steps3
  refine bindL (by repeat' stay) (Emits.mapErr _ (Emits.aeadEncrypt _ _ _ _ _ _)) fun _ => ?_
  refine of ?_
  quiet2

theorem message3Process (b : Bytes) (s : St σ) (hm : ¬ (s.ctx.chosenMethod = 0 ∨ s.ctx.chosenMethod = 1))
    (hd : (Verif.message3Process E cfg b s).1.Defined) :
    ∃ es, (Verif.message3Process E cfg b s).2.log = s.log ++ es ∧
      Spec.Within [.derive 3, .derive 4, .decrypt, .eadProcess .msg3, .credVerify, .derive 5, .derive 6] es := by
  revert hd
  unfold Verif.message3Process
  refine Emits.lead s fun hd => enterBind _ _ _ s ?_ hd
  steps3
  refine bind (by stay) (of (Emits.keyIvAad3 _ _)) fun _ => ?_
  steps3
  refine bindL (by repeat' stay) (Emits.mapErr _ (Emits.bind0 (Emits.require _ _) fun _ => Emits.aeadDecrypt _ _ _ _ _ _)) fun _ => ?_
  steps3
  refine bindL (by stay) (Emits.eadProcess _ _) fun _ => ?_
  refine bindL (by stay) (Emits.verifyCred _ _) fun _ => ?_
  refine bindL (by repeat' stay) (Emits.mapErr _ (Emits.compPrk4e3m _ _ _ _)) fun _ => ?_
  steps3
  refine bindL (by repeat' stay) (Emits.mapErr _ (Emits.compMac _ _ _ _)) fun _ => ?_
  refine bind (L1 := []) (by repeat' stay) (mapErr _ (verifyMac E cfg (fun c hc => TallyAt.usesSign_mac3 hm hc) _ _ _ _)) fun _ => ?_
  refine of ?_
  quiet2

end EmitsAt

end Verif
