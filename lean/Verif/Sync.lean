import Verif.SpecShared
import Verif.Logic

/-!
# Two applications, one program

`Sync K m m'`: `m` and `m'`, the same program with two applications, started with the same context, give the same result and the
same context unless a callback answers the same question differently. `K` is what the second application guarantees of its calls.
-/

namespace Verif

open M Spec

variable {σ τ α β : Type}

/-- An answer of the expected length, where the library fixes the length. -/
def Ev.Fit : Ev → Prop
  | .expand _ _ n (some r) => r.length = n
  | _ => True

theorem Fork.left {l l' : List Ev} (p : List Ev) : Fork l l' → Fork (p ++ l) (p ++ l') := by
  rintro ⟨pre, e, e', q, q', rfl, rfl, h⟩
  exact ⟨p ++ pre, e, e', q, q', by simp, by simp, h⟩

theorem Fork.right {l l' : List Ev} (a b : List Ev) : Fork l l' → Fork (l ++ a) (l' ++ b) := by
  rintro ⟨pre, e, e', q, q', rfl, rfl, h⟩
  exact ⟨pre, e, e', q ++ a, q' ++ b, by simp, by simp, h⟩

/-- What holds of an application's calls. -/
structure Trace (K : τ → List Ev → τ → Prop) : Prop where
  nil : ∀ e, K e [] e
  app : ∀ {a b c l l'}, K a l b → K b l' c → K a (l ++ l') c

structure Sync (K : τ → List Ev → τ → Prop) (m : M σ α) (m' : M τ α) : Prop where
  left : ∀ s, ∃ l, (m s).2.log = s.log ++ l ∧ ∀ e ∈ l, e.Fit
  right : ∀ s, ∃ l, (m' s).2.log = s.log ++ l ∧ K s.env l (m' s).2.env
  both : ∀ s s', s.ctx = s'.ctx → ∀ l l', (m s).2.log = s.log ++ l → (m' s').2.log = s'.log ++ l' →
    Fork l l' ∨ l = l' ∧ (m s).1 = (m' s').1 ∧ (m s).2.ctx = (m' s').2.ctx

variable {K : τ → List Ev → τ → Prop}

/-- neither side calls the application -/
theorem Sync.still (hK : Trace K) {m : M σ α} {m' : M τ α} (h1 : ∀ s, (m s).2.log = s.log)
    (h2 : ∀ s, (m' s).2.log = s.log ∧ (m' s).2.env = s.env)
    (h3 : ∀ s s', s.ctx = s'.ctx → (m s).1 = (m' s').1 ∧ (m s).2.ctx = (m' s').2.ctx) : Sync K m m' where
  left s := ⟨[], by simp [h1]⟩
  right s := ⟨[], by simp [h2], by rw [(h2 s).2]; exact hK.nil _⟩
  both s s' hc l l' e1 e2 := by
    rw [h1] at e1
    rw [(h2 s').1] at e2
    have q1 : l = [] := by simpa using e1
    have q2 : l' = [] := by simpa using e2
    exact Or.inr ⟨by rw [q1, q2], h3 s s' hc⟩

theorem append_nil_of {x a k p : List Ev} (h1 : x = a ++ k) (h2 : x = a ++ (k ++ p)) : p = [] := by
  have h := congrArg List.length (h1.symm.trans h2)
  simp only [List.length_append] at h
  exact List.length_eq_zero_iff.1 (by omega)

theorem Sync.bind (hK : Trace K) {m : M σ α} {m' : M τ α} {f : α → M σ β} {f' : α → M τ β} (h : Sync K m m')
    (hf : ∀ a, Sync K (f a) (f' a)) : Sync K (m >>= f) (m' >>= f') := by
  have e : ∀ s, (m >>= f) s = M.bind m f s := fun _ => rfl
  have e' : ∀ s, (m' >>= f') s = M.bind m' f' s := fun _ => rfl
  constructor
  · intro s
    rw [e]
    obtain ⟨l, h1, h2⟩ := h.left s
    unfold M.bind
    rcases hm : m s with ⟨r, s1⟩
    rw [hm] at h1
    cases r with
    | ok a =>
      obtain ⟨l2, h3, h4⟩ := (hf a).left s1
      refine ⟨l ++ l2, by rw [h3, h1]; simp, ?_⟩
      intro x hx
      rcases List.mem_append.1 hx with hx | hx
      · exact h2 x hx
      · exact h4 x hx
    | err e => exact ⟨l, h1, h2⟩
    | ub u => exact ⟨l, h1, h2⟩
  · intro s
    rw [e']
    obtain ⟨l, h1, h2⟩ := h.right s
    unfold M.bind
    rcases hm : m' s with ⟨r, s1⟩
    rw [hm] at h1 h2
    cases r with
    | ok a =>
      obtain ⟨l2, h3, h4⟩ := (hf a).right s1
      exact ⟨l ++ l2, by rw [h3, h1]; simp, hK.app h2 h4⟩
    | err e => exact ⟨l, h1, h2⟩
    | ub u => exact ⟨l, h1, h2⟩
  · intro s s' hc l l' e1 e2
    rw [e] at e1 ⊢
    rw [e'] at e2 ⊢
    obtain ⟨k, h1, -⟩ := h.left s
    obtain ⟨k', h1', -⟩ := h.right s'
    have hb := h.both s s' hc k k' h1 h1'
    unfold M.bind at e1 e2 ⊢
    rcases hm : m s with ⟨r, s1⟩
    rcases hm' : m' s' with ⟨r', s1'⟩
    rw [hm] at e1 h1 hb
    rw [hm'] at e2 h1' hb
    dsimp only at e1 e2 h1 h1' hb ⊢
    -- the log of the rest
    have q1 : ∃ p, l = k ++ p := by
      cases r with
      | ok a =>
        obtain ⟨p, hp, -⟩ := (hf a).left s1
        exact ⟨p, by dsimp only at e1; rw [hp, h1, List.append_assoc] at e1; exact (List.append_cancel_left e1).symm⟩
      | err x => exact ⟨[], by dsimp only at e1; rw [h1] at e1; simpa using (List.append_cancel_left e1).symm⟩
      | ub x => exact ⟨[], by dsimp only at e1; rw [h1] at e1; simpa using (List.append_cancel_left e1).symm⟩
    have q2 : ∃ p, l' = k' ++ p := by
      cases r' with
      | ok a =>
        obtain ⟨p, hp, -⟩ := (hf a).right s1'
        exact ⟨p, by dsimp only at e2; rw [hp, h1', List.append_assoc] at e2; exact (List.append_cancel_left e2).symm⟩
      | err x => exact ⟨[], by dsimp only at e2; rw [h1'] at e2; simpa using (List.append_cancel_left e2).symm⟩
      | ub x => exact ⟨[], by dsimp only at e2; rw [h1'] at e2; simpa using (List.append_cancel_left e2).symm⟩
    obtain ⟨p, rfl⟩ := q1
    obtain ⟨p', rfl⟩ := q2
    rcases hb with hb | ⟨rfl, rfl, hc1⟩
    · exact Or.inl (Fork.right _ _ hb)
    · cases r with
      | ok a =>
        dsimp only at e1 e2 ⊢
        rcases (hf a).both s1 s1' hc1 p p' (by rw [h1, List.append_assoc]; exact e1)
          (by rw [h1', List.append_assoc]; exact e2) with hb | ⟨rfl, h2⟩
        · exact Or.inl (Fork.left _ hb)
        · exact Or.inr ⟨rfl, h2⟩
      | err x =>
        dsimp only at e1 e2 ⊢
        exact Or.inr ⟨by rw [append_nil_of h1 e1, append_nil_of h1' e2], rfl, hc1⟩
      | ub x =>
        dsimp only at e1 e2 ⊢
        exact Or.inr ⟨by rw [append_nil_of h1 e1, append_nil_of h1' e2], rfl, hc1⟩

section
variable (hK : Trace K)
include hK

theorem Sync.pure (a : α) : Sync K (pure a : M σ α) (pure a : M τ α) :=
  .still hK (fun _ => rfl) (fun _ => ⟨rfl, rfl⟩) fun _ _ h => ⟨rfl, h⟩
theorem Sync.fail (e : Err) : Sync K (M.fail e : M σ α) (M.fail e : M τ α) :=
  .still hK (fun _ => rfl) (fun _ => ⟨rfl, rfl⟩) fun _ _ h => ⟨rfl, h⟩
theorem Sync.undef (e : UB) : Sync K (M.undef e : M σ α) (M.undef e : M τ α) :=
  .still hK (fun _ => rfl) (fun _ => ⟨rfl, rfl⟩) fun _ _ h => ⟨rfl, h⟩
theorem Sync.require (b : Bool) (e : Err) : Sync K (M.require b e : M σ Unit) (M.require b e : M τ Unit) :=
  .still hK (fun _ => rfl) (fun _ => ⟨rfl, rfl⟩) fun _ _ h => ⟨rfl, h⟩
theorem Sync.guardUB (b : Bool) (e : UB) : Sync K (M.guardUB b e : M σ Unit) (M.guardUB b e : M τ Unit) :=
  .still hK (fun _ => rfl) (fun _ => ⟨rfl, rfl⟩) fun _ _ h => ⟨rfl, h⟩
theorem Sync.ofOption (e : Err) (o : Option α) : Sync K (M.ofOption e o : M σ α) (M.ofOption e o : M τ α) :=
  .still hK (fun _ => rfl) (fun _ => ⟨rfl, rfl⟩) fun _ _ h => ⟨rfl, h⟩
theorem Sync.ofRes (r : Res α) : Sync K (M.ofRes r : M σ α) (M.ofRes r : M τ α) :=
  .still hK (fun _ => rfl) (fun _ => ⟨rfl, rfl⟩) fun _ _ h => ⟨rfl, h⟩
theorem Sync.getCtx : Sync K (getCtx : M σ Ctx) (getCtx : M τ Ctx) :=
  .still hK (fun _ => rfl) (fun _ => ⟨rfl, rfl⟩) fun _ _ h => ⟨congrArg Res.ok h, h⟩
theorem Sync.modCtx (f : Ctx → Ctx) : Sync K (modCtx f : M σ Unit) (modCtx f : M τ Unit) :=
  .still hK (fun _ => rfl) (fun _ => ⟨rfl, rfl⟩) fun _ _ h => ⟨rfl, congrArg f h⟩

theorem Sync.whenM {m : M σ Unit} {m' : M τ Unit} (b : Bool) (h : Sync K m m') : Sync K (M.whenM b m) (M.whenM b m') := by
  cases b with
  | true => exact h
  | false => exact Sync.pure hK ()

end

theorem Sync.ite {p : Prop} [Decidable p] {m n : M σ α} {m' n' : M τ α} (h1 : Sync K m m') (h2 : Sync K n n') :
    Sync K (if p then m else n) (if p then m' else n') := by
  split
  · exact h1
  · exact h2

theorem mapErr_snd (e : Err) (m : M σ α) (s : St σ) : (M.mapErr e m s).2 = (m s).2 := by
  unfold M.mapErr
  rcases m s with ⟨r, s1⟩
  cases r <;> rfl

theorem Sync.mapErr {m : M σ α} {m' : M τ α} (e : Err) (h : Sync K m m') : Sync K (M.mapErr e m) (M.mapErr e m') where
  left s := by rw [mapErr_snd]; exact h.left s
  right s := by rw [mapErr_snd]; exact h.right s
  both s s' hc l l' := by
    rw [mapErr_snd, mapErr_snd]
    intro e1 e2
    rcases h.both s s' hc l l' e1 e2 with h | ⟨h1, h2, h3⟩
    · exact Or.inl h
    · refine Or.inr ⟨h1, ?_, h3⟩
      unfold M.mapErr
      rcases hm : m s with ⟨r, s1⟩
      rcases hm' : m' s' with ⟨r', s1'⟩
      rw [hm, hm'] at h2
      dsimp only at h2
      subst h2
      cases r <;> rfl

theorem Sync.mapOut (hK : Trace K) {m : M σ α} {m' : M τ α} (f : α → Out) (h : Sync K m m') :
    Sync K (M.mapOut f m) (M.mapOut f m') := h.bind hK fun a => Sync.pure hK (f a)

/-- a call to the application -/
theorem Sync.call {f : σ → β × σ} {f' : τ → β × τ} {ev : β → Ev} (h1 : ∀ a b, ev a = ev b → a = b)
    (h2 : ∀ a b, (ev a).asks = (ev b).asks) (h3 : ∀ e, (ev (f e).1).Fit) (h4 : ∀ e, K e [ev (f' e).1] (f' e).2) :
    Sync K (M.call f ev) (M.call f' ev) where
  left s := ⟨[ev (f s.env).1], rfl, by simpa using h3 s.env⟩
  right s := ⟨[ev (f' s.env).1], rfl, h4 s.env⟩
  both s s' hc l l' e1 e2 := by
    have e1 := (List.append_cancel_left e1).symm
    have e2 := (List.append_cancel_left e2).symm
    subst e1 e2
    by_cases h : (f s.env).1 = (f' s'.env).1
    · exact Or.inr ⟨by rw [h], congrArg Res.ok h, hc⟩
    · exact Or.inl ⟨[], _, _, [], [], rfl, rfl, fun e => h (h1 _ _ e), h2 _ _⟩

/-- the second application's guarantee, for each callback -/
structure Link (E' : Env τ) (K : τ → List Ev → τ → Prop) : Prop extends Trace K where
  alloc : ∀ e n, K e [.alloc n (E'.alloc e n).1] (E'.alloc e n).2
  importKey : ∀ e t b, K e [.importKey t b (E'.importKey e t b).1] (E'.importKey e t b).2
  destroyKey : ∀ e k, K e [.destroyKey k] (E'.destroyKey e k)
  makeKeyPair : ∀ e k, K e [.makeKeyPair k (E'.makeKeyPair e k).1] (E'.makeKeyPair e k).2
  keyAgreement : ∀ e k p, K e [.keyAgreement k p (E'.keyAgreement e k p).1] (E'.keyAgreement e k p).2
  sign : ∀ e k b, K e [.sign k b (E'.sign e k b).1] (E'.sign e k b).2
  verify : ∀ e k b c, K e [.verify k b c (E'.verify e k b c).1] (E'.verify e k b c).2
  extract : ∀ e k b, K e [.extract k b (E'.extract e k b).1] (E'.extract e k b).2
  expand : ∀ e k b n, K e [.expand k b n ((E'.expand e k b n).1.map (fitLen n))] (E'.expand e k b n).2
  encrypt : ∀ e k a b c, K e [.encrypt k a b c (E'.encrypt e k a b c).1] (E'.encrypt e k a b c).2
  decrypt : ∀ e k a b c, K e [.decrypt k a b c (E'.decrypt e k a b c).1] (E'.decrypt e k a b c).2
  hash : ∀ e b, K e [.hash b (E'.hash e b).1] (E'.hash e b).2
  eadCompose : ∀ e m, K e [.eadCompose m (E'.eadCompose e m).1] (E'.eadCompose e m).2
  eadProcess : ∀ e m l, K e [.eadProcess m l (E'.eadProcess e m l).1] (E'.eadProcess e m l).2
  credFetch : ∀ e, K e [.credFetch (E'.credFetch e).1] (E'.credFetch e).2
  credVerify : ∀ e c, K e [.credVerify c (E'.credVerify e c).1] (E'.credVerify e c).2

/-- the proved functions -/
syntax "sync_fn" ident : tactic
macro_rules | `(tactic| sync_fn $_) => `(tactic| fail)

/-- goes through a program -/
macro "sync!" h:ident : tactic => `(tactic|
  repeat' first
  | with_reducible refine Sync.bind (Link.toTrace $h) ?_ (fun _ => ?_)
  | with_reducible exact Sync.pure (Link.toTrace $h) _
  | with_reducible exact Sync.fail (Link.toTrace $h) _
  | with_reducible exact Sync.undef (Link.toTrace $h) _
  | with_reducible exact Sync.require (Link.toTrace $h) _ _
  | with_reducible exact Sync.guardUB (Link.toTrace $h) _ _
  | with_reducible exact Sync.ofOption (Link.toTrace $h) _ _
  | with_reducible exact Sync.ofRes (Link.toTrace $h) _
  | with_reducible exact Sync.getCtx (Link.toTrace $h)
  | with_reducible exact Sync.modCtx (Link.toTrace $h) _
  | with_reducible refine Sync.mapErr _ ?_
  | with_reducible refine Sync.whenM (Link.toTrace $h) _ ?_
  | with_reducible refine Sync.ite ?_ ?_
  | sync_fn $h
  | with_reducible assumption)

namespace Link

variable {E : Env σ} {E' : Env τ} (h : Link E' K) (cfg : Config)
include h

theorem needKeys : Sync K (Verif.needKeys : M σ Unit) (Verif.needKeys : M τ Unit) := by unfold Verif.needKeys; sync! h
theorem needCrypto : Sync K (Verif.needCrypto : M σ Unit) (Verif.needCrypto : M τ Unit) := by unfold Verif.needCrypto; sync! h
theorem needCred : Sync K (Verif.needCred : M σ Unit) (Verif.needCred : M τ Unit) := by unfold Verif.needCred; sync! h
macro_rules | `(tactic| sync_fn $h) => `(tactic| with_reducible exact Link.needKeys $h)
macro_rules | `(tactic| sync_fn $h) => `(tactic| with_reducible exact Link.needCrypto $h)
macro_rules | `(tactic| sync_fn $h) => `(tactic| with_reducible exact Link.needCred $h)

end Link
end Verif
