import Verif.SpecDemand
import Verif.Safe4

/-!
# What a computation asks the memory backend for

`Costs cfg Z I B m J φ`: from a context with `I`, the buffers `m` requests add up to at most `B` bytes, none is empty unless
`Z`; if `m` succeeds then `J` holds of the context and `φ` of the result. In all cases the transcript hash still fits its
array. One lemma per inner function.
-/

namespace Verif

open M Spec

variable {σ α β : Type}

/-- the buffers `m` requests when it starts in `s` -/
def CostsAt (cfg : Config) (Z : Prop) (s : St σ) (B : Nat) (m : M σ α) (J : Ctx → Prop) (φ : α → Prop) : Prop :=
  ∃ es, (m s).2.log = s.log ++ es ∧ (requested es).sum ≤ B ∧
    (0 ∈ requested es → Z) ∧ (m s).2.ctx.th.length ≤ cfg.maxMac ∧ match (m s).1 with
    | .ok a => J (m s).2.ctx ∧ φ a
    | .err _ => True
    | .ub u => (u = .stack → cfg.stackMax < B) ∧ (u = .zeroVla → Z)

/-- the buffers `m` requests add up to at most `B` bytes, none is empty unless `Z` -/
def Costs (cfg : Config) (Z : Prop) (I : Ctx → Prop) (B : Nat) (m : M σ α) (J : Ctx → Prop) (φ : α → Prop) : Prop :=
  ∀ s, I s.ctx → s.ctx.th.length ≤ cfg.maxMac → CostsAt cfg Z s B m J φ

namespace Costs

variable {cfg : Config} {Z : Prop} {I J K : Ctx → Prop} {B B1 B2 : Nat}

theorem requested_append (a b : List Ev) : requested (a ++ b) = requested a ++ requested b := by
  simp [requested]

/-- the second part starts where the first ended -/
theorem bindAt {m : M σ α} {f : α → M σ β} {φ : α → Prop} {ψ : β → Prop} {s : St σ} (hm : CostsAt cfg Z s B1 m J φ)
    (hf : ∀ a s1, m s = (.ok a, s1) → s1.ctx.th.length ≤ cfg.maxMac → J s1.ctx → φ a → CostsAt cfg Z s1 B2 (f a) K ψ) :
    CostsAt cfg Z s (B1 + B2) (m >>= f) K ψ := by
  obtain ⟨e1, l1, b1, z1, t1, h1⟩ := hm
  show ∃ es, (M.bind m f s).2.log = _ ∧ _ ∧ _ ∧ (M.bind m f s).2.ctx.th.length ≤ _ ∧ match (M.bind m f s).1 with
    | .ok a => K (M.bind m f s).2.ctx ∧ ψ a | .err _ => True | .ub u => _
  unfold M.bind
  rcases h : m s with ⟨r, s1⟩
  rw [h] at l1 t1 h1
  cases r with
  | ok a =>
    obtain ⟨e2, l2, b2, z2, t2, h2⟩ := hf a s1 h t1 h1.1 h1.2
    refine ⟨e1 ++ e2, ?_, ?_, ?_, t2, ?_⟩
    · show (f a s1).2.log = _
      rw [l2, l1, List.append_assoc]
    · rw [requested_append, List.sum_append]; omega
    · rw [requested_append, List.mem_append]; exact fun h => h.elim z1 z2
    · show match (f a s1).1 with | .ok a => _ | .err _ => _ | .ub u => _
      revert h2
      cases (f a s1).1 with
      | ok b => exact fun h => h
      | err e => exact fun h => h
      | ub u => exact fun h => ⟨fun hu => by have := h.1 hu; omega, h.2⟩
  | err e => exact ⟨e1, l1, by omega, z1, t1, trivial⟩
  | ub u => exact ⟨e1, l1, by omega, z1, t1, fun hu => by have := h1.1 hu; omega, h1.2⟩

theorem bind {m : M σ α} {f : α → M σ β} {φ : α → Prop} {ψ : β → Prop} (hm : Costs cfg Z I B1 m J φ)
    (hf : ∀ a, φ a → Costs cfg Z J B2 (f a) K ψ) : Costs cfg Z I (B1 + B2) (m >>= f) K ψ :=
  fun s hi ht => bindAt (hm s hi ht) fun a s1 _ t1 j1 p1 => hf a p1 s1 j1 t1

theorem leAt {m : M σ α} {φ : α → Prop} {s : St σ} (h : CostsAt cfg Z s B m J φ) (hb : B ≤ B1) : CostsAt cfg Z s B1 m J φ := by
  obtain ⟨e1, l1, b1, z1, t1, h1⟩ := h
  refine ⟨e1, l1, by omega, z1, t1, ?_⟩
  revert h1
  cases (m s).1 with
  | ok a => exact fun h => h
  | err e => exact fun _ => trivial
  | ub u => exact fun h => ⟨fun hu => by have := h.1 hu; omega, h.2⟩

theorem mono {m : M σ α} {I' J' : Ctx → Prop} {φ ψ : α → Prop} (h : Costs cfg Z I B m J φ) (hi : ∀ c, I' c → I c)
    (hb : B ≤ B1) (hj : ∀ c, J c → J' c) (hq : ∀ a, φ a → ψ a) : Costs cfg Z I' B1 m J' ψ := by
  intro s hs ht
  obtain ⟨e1, l1, b1, z1, t1, h1⟩ := h s (hi _ hs) ht
  refine ⟨e1, l1, by omega, z1, t1, ?_⟩
  revert h1
  cases (m s).1 with
  | ok a => exact fun h => ⟨hj _ h.1, hq a h.2⟩
  | err e => exact fun _ => trivial
  | ub u => exact fun h => ⟨fun hu => by have := h.1 hu; omega, h.2⟩

theorem le {m : M σ α} {φ : α → Prop} (h : Costs cfg Z I B m J φ) (hb : B ≤ B1) : Costs cfg Z I B1 m J φ :=
  h.mono (fun _ h => h) hb (fun _ h => h) (fun _ h => h)

theorem pre {m : M σ α} {I' : Ctx → Prop} {φ : α → Prop} (hi : ∀ c, I' c → I c) (h : Costs cfg Z I B m J φ) :
    Costs cfg Z I' B m J φ :=
  h.mono hi (Nat.le_refl _) (fun _ h => h) (fun _ h => h)

theorem res {m : M σ α} {φ ψ : α → Prop} (h : Costs cfg Z I B m J φ) (hq : ∀ a, φ a → ψ a) : Costs cfg Z I B m J ψ :=
  h.mono (fun _ h => h) (Nat.le_refl _) (fun _ h => h) hq

theorem any {m : M σ α} {φ : α → Prop} (h : Costs cfg Z I B m J φ) : Costs cfg Z I B m J (fun _ => True) :=
  h.res fun _ _ => trivial

/-- after a step that asks for nothing -/
theorem seq {m : M σ α} {f : α → M σ β} {φ : α → Prop} {ψ : β → Prop} (hm : Costs cfg Z I 0 m J φ)
    (hf : ∀ a, φ a → Costs cfg Z J B (f a) K ψ) : Costs cfg Z I B (m >>= f) K ψ :=
  (hm.bind hf).le (by omega)

/-- a computation that asks for nothing and leaves the context as it is -/
theorem free {m : M σ α} {φ : α → Prop} (h : ∀ s, (m s).2 = s ∧ match (m s).1 with
    | .ok a => φ a | .err _ => True | .ub u => u ≠ .stack ∧ u ≠ .zeroVla) : Costs cfg Z I 0 m I φ := by
  intro s hi ht
  obtain ⟨h1, h2⟩ := h s
  unfold CostsAt
  rw [h1]
  refine ⟨[], by simp, by simp [requested], by simp [requested], ht, ?_⟩
  revert h2
  cases (m s).1 with
  | ok a => exact fun h => ⟨hi, h⟩
  | err e => exact fun _ => trivial
  | ub u => exact fun h => ⟨fun hu => absurd hu h.1, fun hu => absurd hu h.2⟩

theorem pure (a : α) : Costs cfg Z I 0 (Pure.pure a : M σ α) I (fun x => x = a) := free fun _ => ⟨rfl, rfl⟩
theorem fail (e : Err) : Costs cfg Z I 0 (M.fail e : M σ α) I (fun _ => True) := free fun _ => ⟨rfl, trivial⟩

theorem getCtx : Costs cfg Z I 0 (M.getCtx : M σ Ctx) I (fun c => I c ∧ c.th.length ≤ cfg.maxMac) :=
  fun s hi ht => ⟨[], by simp [M.getCtx], by simp [requested], by simp [requested], ht, hi, hi, ht⟩

theorem require (b : Bool) (e : Err) : Costs cfg Z I 0 (M.require b e : M σ Unit) I (fun _ => b = true) := by
  cases b
  · exact free fun _ => ⟨rfl, trivial⟩
  · exact free fun _ => ⟨rfl, rfl⟩

theorem guardUB (b : Bool) {u : UB} (h1 : u ≠ .stack) (h2 : u ≠ .zeroVla) :
    Costs cfg Z I 0 (M.guardUB b u : M σ Unit) I (fun _ => b = true) := by
  cases b
  · exact free fun _ => ⟨rfl, h1, h2⟩
  · exact free fun _ => ⟨rfl, rfl⟩

theorem oob (b : Bool) : Costs cfg Z I 0 (M.guardUB b .oob : M σ Unit) I (fun _ => b = true) := guardUB b (by simp) (by simp)
theorem callback (b : Bool) : Costs cfg Z I 0 (M.guardUB b .callback : M σ Unit) I (fun _ => b = true) :=
  guardUB b (by simp) (by simp)

theorem ofOption (e : Err) (o : Option α) : Costs cfg Z I 0 (M.ofOption e o : M σ α) I (fun a => o = some a) := by
  cases o with
  | none => exact free fun _ => ⟨rfl, trivial⟩
  | some a => exact free fun _ => ⟨rfl, rfl⟩

theorem ofRes {r : Res α} (h : r ≠ .ub .stack ∧ r ≠ .ub .zeroVla) :
    Costs cfg Z I 0 (M.ofRes r : M σ α) I (fun a => r = .ok a) := by
  refine free fun s => ⟨rfl, ?_⟩
  unfold M.ofRes
  cases r with
  | ok a => rfl
  | err e => trivial
  | ub u => exact ⟨fun hu => h.1 (by rw [hu]), fun hu => h.2 (by rw [hu])⟩

theorem modCtx {f : Ctx → Ctx} (h : ∀ c, I c → J (f c)) (ht : ∀ c : Ctx, c.th.length ≤ cfg.maxMac → (f c).th.length ≤ cfg.maxMac) :
    Costs cfg Z I 0 (M.modCtx f : M σ Unit) J (fun _ => True) :=
  fun s hi h1 => ⟨[], by simp [M.modCtx], by simp [requested], by simp [requested], ht _ h1, h s.ctx hi, trivial⟩

/-- a change of the context apart from the transcript hash -/
theorem mod {f : Ctx → Ctx} (h : ∀ c, I c → J (f c)) (ht : ∀ c, (f c).th = c.th := by intro c; rfl) :
    Costs cfg Z I 0 (M.modCtx f : M σ Unit) J (fun _ => True) :=
  modCtx h fun c h1 => (ht c) ▸ h1

theorem call (f : σ → β × σ) (ev : β → Ev) (h : ∀ b, requested [ev b] = []) :
    Costs cfg Z I 0 (M.call f ev) I (fun b => ∃ e, (f e).1 = b) := by
  intro s hi ht
  refine ⟨[ev (f s.env).1], rfl, ?_, ?_, ht, hi, s.env, rfl⟩ <;> rw [h] <;> simp

theorem mapErr {m : M σ α} {φ : α → Prop} (e : Err) (h : Costs cfg Z I B m J φ) : Costs cfg Z I B (M.mapErr e m) J φ := by
  intro s hi ht
  obtain ⟨e1, l1, b1, z1, t1, h1⟩ := h s hi ht
  unfold CostsAt M.mapErr
  rcases hm : m s with ⟨r, s1⟩
  rw [hm] at l1 t1 h1
  cases r <;> exact ⟨e1, l1, b1, z1, t1, h1⟩

theorem mapOut {m : M σ α} {φ : α → Prop} (g : α → Out) (h : Costs cfg Z I B m J φ) :
    Costs cfg Z I B (M.mapOut g m) J (fun _ => True) := by
  unfold M.mapOut
  exact (h.bind fun _ _ => (Costs.pure _).any).le (by omega)

theorem whenM {m : M σ Unit} {φ : Unit → Prop} (b : Bool) (h : b = true → Costs cfg Z I B m I φ) :
    Costs cfg Z I B (M.whenM b m) I (fun _ => True) := by
  cases b
  · exact (Costs.pure (σ := σ) ()).any.le (Nat.zero_le _)
  · exact (h rfl).any

theorem ite {p : Prop} [Decidable p] {m n : M σ α} {φ : α → Prop} (h1 : p → Costs cfg Z I B m J φ)
    (h2 : ¬ p → Costs cfg Z I B n J φ) : Costs cfg Z I B (if p then m else n) J φ := by
  split
  · exact h1 ‹_›
  · exact h2 ‹_›

end Costs

section inner

variable {E : Env σ} {cfg : Config} {Z : Prop} {I : Ctx → Prop}

theorem Costs.memAlloc {n : Nat} (h : n = 0 → Z) : Costs cfg Z I n (Verif.memAlloc E cfg n) I (fun _ => True) := by
  unfold Verif.memAlloc
  split
  · intro s hi ht
    show ∃ es, (M.bind _ _ s).2.log = _ ∧ _
    unfold M.bind M.guardUB
    by_cases h1 : n ≤ cfg.stackMax
    · by_cases h2 : (cfg.zeroVlaOk || n != 0) = true
      · simp only [h1, decide_true, if_true, h2]
        exact ⟨[], by simp, by simp [requested], by simp [requested], ht, hi, trivial⟩
      · simp only [h1, decide_true, if_true, h2]
        refine ⟨[], by simp, by simp [requested], by simp [requested], ht, by simp, fun _ => h ?_⟩
        simp only [Bool.or_eq_true, bne_iff_ne, ne_eq, not_or, Decidable.not_not] at h2
        exact h2.2
    · simp only [h1, decide_false, Bool.false_eq_true, if_false]
      exact ⟨[], by simp, by simp [requested], by simp [requested], ht, fun _ => by omega, by simp⟩
  · refine (Costs.bind (φ := fun _ => True) (B1 := n) (B2 := 0) (J := I) ?_ fun _ _ => (Costs.require _ _).any)
    refine fun s hi ht => ⟨[.alloc n (E.alloc s.env n).1], rfl, by simp [requested], ?_, ht, hi, trivial⟩
    simp only [requested, List.filterMap_cons, List.filterMap_nil, List.mem_singleton]
    exact fun hz => h hz.symm

theorem Costs.needKeys : Costs cfg Z I 0 (Verif.needKeys : M σ Unit) I (fun _ => True) :=
  Costs.getCtx.seq fun _ _ => (Costs.guardUB _ (by simp) (by simp)).any

theorem Costs.needCrypto : Costs cfg Z I 0 (Verif.needCrypto : M σ Unit) I (fun _ => True) :=
  Costs.getCtx.seq fun _ _ => (Costs.guardUB _ (by simp) (by simp)).any

theorem Costs.needCred : Costs cfg Z I 0 (Verif.needCred : M σ Unit) I (fun _ => True) :=
  Costs.getCtx.seq fun _ _ => (Costs.guardUB _ (by simp) (by simp)).any

theorem Costs.importKey (t : KeyType) (b : Bytes) : Costs cfg Z I 0 (Verif.importKey E t b) I (fun _ => True) :=
  Costs.needKeys.seq fun _ _ => (Costs.call _ _ fun _ => rfl).any

theorem Costs.destroyKey (b : Bytes) : Costs cfg Z I 0 (Verif.destroyKey E b) I (fun _ => True) :=
  Costs.needKeys.seq fun _ _ => (Costs.call _ _ fun _ => rfl).any

theorem Costs.withKey {t : KeyType} {b : Bytes} {e : Err} {op : Bytes → M σ α} {φ : α → Prop}
    (h : ∀ k, Costs cfg Z I 0 (op k) I φ) : Costs cfg Z I 0 (Verif.withKey E t b e op) I φ := by
  unfold Verif.withKey
  refine (Costs.importKey _ _).seq fun _ _ => (Costs.ofOption _ _).seq fun kid _ => (h kid).seq fun a ha => ?_
  exact (Costs.destroyKey _).seq fun _ _ => (Costs.pure a).res fun x hx => hx ▸ ha

theorem Costs.makeKeyPair (b : Bytes) : Costs cfg Z I 0 (Verif.makeKeyPair E b) I (fun _ => True) :=
  Costs.needCrypto.seq fun _ _ => (Costs.call _ _ fun _ => rfl).any

theorem Costs.keyAgreement (a b : Bytes) : Costs cfg Z I 0 (Verif.keyAgreement E a b) I (fun _ => True) :=
  Costs.needCrypto.seq fun _ _ => (Costs.call _ _ fun _ => rfl).any

theorem Costs.sign (a b : Bytes) : Costs cfg Z I 0 (Verif.sign E a b) I (fun _ => True) :=
  Costs.needCrypto.seq fun _ _ => (Costs.call _ _ fun _ => rfl).any

theorem Costs.verify (a b c : Bytes) : Costs cfg Z I 0 (Verif.verify E a b c) I (fun _ => True) :=
  Costs.needCrypto.seq fun _ _ => (Costs.call _ _ fun _ => rfl).any

theorem Costs.extract (a b : Bytes) : Costs cfg Z I 0 (Verif.extract E a b) I (fun _ => True) :=
  Costs.needCrypto.seq fun _ _ => (Costs.call _ _ fun _ => rfl).any

theorem Costs.expand (a b : Bytes) (n : Nat) :
    Costs cfg Z I 0 (Verif.expand E a b n) I (fun r => ∀ x, r = some x → x.length = n) := by
  refine Costs.needCrypto.seq fun _ _ => (Costs.call _ _ fun _ => rfl).res ?_
  rintro r ⟨e, rfl⟩ x hx
  simp only [Option.map_eq_some_iff] at hx
  obtain ⟨y, _, rfl⟩ := hx
  exact fitLen_length n y

theorem Costs.encrypt (a b c d : Bytes) : Costs cfg Z I 0 (Verif.encrypt E a b c d) I (fun _ => True) :=
  Costs.needCrypto.seq fun _ _ => (Costs.call _ _ fun _ => rfl).any

theorem Costs.decrypt (a b c d : Bytes) : Costs cfg Z I 0 (Verif.decrypt E a b c d) I (fun _ => True) :=
  Costs.needCrypto.seq fun _ _ => (Costs.call _ _ fun _ => rfl).any

theorem Costs.hash (a : Bytes) : Costs cfg Z I 0 (Verif.hash E a) I (fun _ => True) :=
  Costs.needCrypto.seq fun _ _ => (Costs.call _ _ fun _ => rfl).any

theorem Costs.credFetch : Costs cfg Z I 0 (Verif.credFetch E) I (fun r => ∃ e, (E.credFetch e).1 = r) :=
  Costs.needCred.seq fun _ _ => Costs.call _ _ fun _ => rfl

theorem Costs.credVerify (c : Cred) : Costs cfg Z I 0 (Verif.credVerify E c) I (fun r => ∃ e, (E.credVerify e c).1 = r) :=
  Costs.needCred.seq fun _ _ => Costs.call _ _ fun _ => rfl

end inner

end Verif
