import Verif.Api

/-!
# Reasoning about programs

* `_ok` lemmas: what a successful run of a primitive did.
* `Saw L s s'`: between `s` and `s'` the calls `L` were made, one directly after the other.
* `Pres R m`: every run of `m` without undefined behaviour relates its start and end state by `R`.
-/

namespace Verif

open M

variable {σ α β γ : Type}

/-! ## Successful runs -/

section ok

variable {s s' : St σ}

theorem bind_ok {m : M σ α} {f : α → M σ β} {b : β} :
    (m >>= f) s = (.ok b, s') ↔ ∃ a s1, m s = (.ok a, s1) ∧ f a s1 = (.ok b, s') := by
  show M.bind m f s = _ ↔ _
  unfold M.bind
  rcases h : m s with ⟨r, s1⟩
  cases r <;> simp [and_assoc]

theorem pure_ok {a b : α} : (pure a : M σ α) s = (.ok b, s') ↔ a = b ∧ s = s' := by
  show M.ret a s = _ ↔ _
  simp [M.ret]

theorem fail_ok {e : Err} {b : α} : (M.fail e : M σ α) s = (.ok b, s') ↔ False := by
  simp [M.fail]

theorem undef_ok {e : UB} {b : α} : (M.undef e : M σ α) s = (.ok b, s') ↔ False := by
  simp [M.undef]

theorem require_ok {b : Bool} {e : Err} {u : Unit} :
    (M.require b e : M σ Unit) s = (.ok u, s') ↔ b = true ∧ s = s' := by
  cases b <;> simp [M.require]

theorem guardUB_ok {b : Bool} {e : UB} {u : Unit} :
    (M.guardUB b e : M σ Unit) s = (.ok u, s') ↔ b = true ∧ s = s' := by
  cases b <;> simp [M.guardUB]

theorem ofOption_ok {o : Option α} {e : Err} {a : α} :
    (M.ofOption e o : M σ α) s = (.ok a, s') ↔ o = some a ∧ s = s' := by
  cases o <;> simp [M.ofOption]

theorem ofRes_ok {r : Res α} {a : α} :
    (M.ofRes r : M σ α) s = (.ok a, s') ↔ r = .ok a ∧ s = s' := by
  simp [M.ofRes]

theorem mapErr_ok {m : M σ α} {e : Err} {a : α} :
    M.mapErr e m s = (.ok a, s') ↔ m s = (.ok a, s') := by
  unfold M.mapErr
  rcases h : m s with ⟨r, s1⟩
  cases r <;> simp

theorem whenM_ok {b : Bool} {m : M σ Unit} {u : Unit} :
    M.whenM b m s = (.ok u, s') ↔ (b = true ∧ m s = (.ok (), s')) ∨ (b = false ∧ s = s') := by
  cases b <;> simp [M.whenM]

theorem getCtx_ok {c : Ctx} : (getCtx : M σ Ctx) s = (.ok c, s') ↔ s.ctx = c ∧ s = s' := by
  simp [getCtx]

theorem modCtx_ok {f : Ctx → Ctx} {u : Unit} :
    (modCtx f : M σ Unit) s = (.ok u, s') ↔ { s with ctx := f s.ctx } = s' := by
  simp [modCtx]

theorem call_ok {f : σ → β × σ} {ev : β → Ev} {b : β} :
    M.call f ev s = (.ok b, s') ↔
      (f s.env).1 = b ∧ { s with env := (f s.env).2, log := s.log ++ [ev b] } = s' := by
  simp only [M.call, Prod.mk.injEq, Res.ok.injEq]
  constructor
  · rintro ⟨rfl, rfl⟩; exact ⟨rfl, rfl⟩
  · rintro ⟨rfl, rfl⟩; exact ⟨rfl, rfl⟩

theorem mapOut_ok {m : M σ α} {f : α → Out} {o : Out} :
    M.mapOut f m s = (.ok o, s') ↔ ∃ a, m s = (.ok a, s') ∧ f a = o := by
  unfold M.mapOut
  rw [bind_ok]
  simp only [pure_ok]
  constructor
  · rintro ⟨a, s1, h, rfl, rfl⟩; exact ⟨a, h, rfl⟩
  · rintro ⟨a, h, rfl⟩; exact ⟨a, s', h, rfl, rfl⟩

end ok

/-! `Res` programs -/

theorem Res.bind_ok {m : Res α} {f : α → Res β} {b : β} :
    (m >>= f) = .ok b ↔ ∃ a, m = .ok a ∧ f a = .ok b := by
  show Res.bind m f = _ ↔ _
  cases m <;> simp [Res.bind]

theorem Res.bind_ok' {m : Res α} {f : α → Res β} {b : β} :
    Res.bind m f = .ok b ↔ ∃ a, m = .ok a ∧ f a = .ok b := by
  cases m <;> simp [Res.bind]

theorem Res.pure_ok {a b : α} : (pure a : Res α) = .ok b ↔ a = b := by
  show Res.ok a = _ ↔ _
  simp

theorem Res.require_ok {b : Bool} {e : Err} {u : Unit} :
    Res.require b e = .ok u ↔ b = true := by cases b <;> simp [Res.require]

theorem Res.guardUB_ok {b : Bool} {e : UB} {u : Unit} :
    Res.guardUB b e = .ok u ↔ b = true := by cases b <;> simp [Res.guardUB]

theorem Res.ofOption_ok {o : Option α} {e : Err} {a : α} :
    Res.ofOption e o = .ok a ↔ o = some a := by cases o <;> simp [Res.ofOption]

theorem Res.mapErr_ok {m : Res α} {e : Err} {a : α} :
    Res.mapErr e m = .ok a ↔ m = .ok a := by cases m <;> simp [Res.mapErr]

/-! ## Calls made between two states -/

/-- Between `s` and `s'` the calls `L` were made, one directly after the other. -/
def Saw (L : List Ev) (s s' : St σ) : Prop :=
  ∃ l1 l2, s'.log = s.log ++ (l1 ++ (L ++ l2))

/-- Between `s` and `s'` the log only grew. -/
abbrev Grow (s s' : St σ) : Prop := Saw [] s s'

theorem Saw.refl (s : St σ) : Grow s s := ⟨[], [], by simp⟩

theorem Saw.right {L : List Ev} {s s1 s2 : St σ} : Grow s s1 → Saw L s1 s2 → Saw L s s2 := by
  rintro ⟨a, b, h⟩ ⟨c, d, h'⟩
  exact ⟨a ++ b ++ c, d, by rw [h', h]; simp⟩

theorem Saw.left {L : List Ev} {s s1 s2 : St σ} : Saw L s s1 → Grow s1 s2 → Saw L s s2 := by
  rintro ⟨a, b, h⟩ ⟨c, d, h'⟩
  exact ⟨a, b ++ c ++ d, by rw [h', h]; simp⟩

theorem Saw.grow {L : List Ev} {s s' : St σ} : Saw L s s' → Grow s s' := by
  rintro ⟨a, b, h⟩
  exact ⟨a, L ++ b, by simpa using h⟩

theorem Saw.sub {L M N : List Ev} {s s' : St σ} : Saw (L ++ (M ++ N)) s s' → Saw M s s' := by
  rintro ⟨a, b, h⟩
  exact ⟨a ++ L, N ++ b, by simpa using h⟩

theorem Saw.infix {L : List Ev} {s s' : St σ} : Saw L s s' → L <:+: s'.log := by
  rintro ⟨a, b, h⟩
  exact ⟨s.log ++ a, b, by rw [h]; simp⟩

theorem grow_iff {s s' : St σ} : Grow s s' ↔ ∃ l, s'.log = s.log ++ l := by
  constructor
  · rintro ⟨a, b, h⟩; exact ⟨a ++ b, by simpa using h⟩
  · rintro ⟨l, h⟩; exact ⟨l, [], by simpa using h⟩

theorem saw_ext {L : List Ev} {s s' : St σ} (h : s'.log = s.log ++ L) : Saw L s s' :=
  ⟨[], [], by simpa using h⟩

theorem grow_of_log {s s' : St σ} (h : s'.log = s.log) : Grow s s' := ⟨[], [], by simpa using h⟩

/-! ## Runs without undefined behaviour -/

/-- not undefined -/
def Res.Defined (r : Res α) : Prop := ∀ u, r ≠ .ub u

@[simp] theorem Res.defined_ok (a : α) : (Res.ok a).Defined := by intro u h; cases h
@[simp] theorem Res.defined_err (e : Err) : (Res.err e : Res α).Defined := by intro u h; cases h
@[simp] theorem Res.not_defined_ub (u : UB) : ¬ (Res.ub u : Res α).Defined := fun h => h u rfl

/-- Every run of `m` without undefined behaviour relates its start and end state by `R`. -/
def Pres (R : St σ → St σ → Prop) (m : M σ α) : Prop := ∀ s, (m s).1.Defined → R s (m s).2

/-- Reflexive and transitive relations, closed under calls to the outside world. -/
structure Frame (R : St σ → St σ → Prop) : Prop where
  refl : ∀ s, R s s
  trans : ∀ {a b c}, R a b → R b c → R a c

theorem Pres.ok {R : St σ → St σ → Prop} {m : M σ α} (h : Pres R m) {s s' : St σ} {a : α}
    (hm : m s = (.ok a, s')) : R s s' := by
  have := h s (by rw [hm]; simp)
  rwa [hm] at this

theorem Pres.err {R : St σ → St σ → Prop} {m : M σ α} (h : Pres R m) {s s' : St σ} {e : Err}
    (hm : m s = (.err e, s')) : R s s' := by
  have := h s (by rw [hm]; simp)
  rwa [hm] at this

theorem Pres.mono {R R' : St σ → St σ → Prop} {m : M σ α} (h : Pres R m)
    (hr : ∀ s s', R s s' → R' s s') : Pres R' m := fun s hd => hr _ _ (h s hd)

section pres

variable {R : St σ → St σ → Prop}

theorem Pres.bind (hR : Frame R) {m : M σ α} {f : α → M σ β} (hm : Pres R m)
    (hf : ∀ a, Pres R (f a)) : Pres R (m >>= f) := by
  intro s hd
  have e : (m >>= f) s = M.bind m f s := rfl
  rw [e] at hd ⊢
  have h1 := hm s
  unfold M.bind at hd ⊢
  rcases h : m s with ⟨r, s1⟩
  rw [h] at h1 hd
  cases r with
  | ok a => exact hR.trans (h1 (by simp)) (hf a s1 hd)
  | err e => exact h1 (by simp)
  | ub u => simp at hd

theorem Pres.pure (hR : Frame R) (a : α) : Pres R (pure a : M σ α) := fun s _ => hR.refl s
theorem Pres.fail (hR : Frame R) (e : Err) : Pres R (M.fail e : M σ α) := fun s _ => hR.refl s
theorem Pres.undef (hR : Frame R) (u : UB) : Pres R (M.undef u : M σ α) := fun s _ => hR.refl s
theorem Pres.require (hR : Frame R) (b : Bool) (e : Err) : Pres R (M.require b e : M σ Unit) :=
  fun s _ => hR.refl s
theorem Pres.guardUB (hR : Frame R) (b : Bool) (e : UB) : Pres R (M.guardUB b e : M σ Unit) :=
  fun s _ => hR.refl s
theorem Pres.ofOption (hR : Frame R) (e : Err) (o : Option α) :
    Pres R (M.ofOption e o : M σ α) := fun s _ => hR.refl s
theorem Pres.ofRes (hR : Frame R) (r : Res α) : Pres R (M.ofRes r : M σ α) :=
  fun s _ => hR.refl s
theorem Pres.getCtx (hR : Frame R) : Pres R (getCtx : M σ Ctx) := fun s _ => hR.refl s

/-- `bind` after a check -/
theorem Pres.bindRequire (hR : Frame R) {b : Bool} {e : Err} {f : Unit → M σ β} (hf : b = true → Pres R (f ())) :
    Pres R (M.require b e >>= f) := by
  cases b with
  | true => exact Pres.bind hR (Pres.require hR _ _) fun _ => hf rfl
  | false =>
    intro s hd
    exact hR.refl s

/-- `bind` after an encoding into a buffer -/
theorem Pres.bindFits (hR : Frame R) {n : Nat} {x : Bytes} {e : Err} {f : Bytes → M σ β}
    (hf : ∀ y, y = x → Pres R (f y)) : Pres R (M.ofOption e (fits n x) >>= f) := by
  intro s hd
  unfold fits at hd ⊢
  split at hd
  · rename_i h
    rw [if_pos h]
    exact hf x rfl s hd
  · rename_i h
    rw [if_neg h]
    exact hR.refl s

theorem Pres.mapErr {m : M σ α} (e : Err) (hm : Pres R m) : Pres R (M.mapErr e m) := by
  intro s hd
  have h1 := hm s
  unfold M.mapErr at hd ⊢
  rcases h : m s with ⟨r, s1⟩
  rw [h] at h1 hd
  cases r with
  | ok a => exact h1 (by simp)
  | err e => exact h1 (by simp)
  | ub u => simp at hd

theorem Pres.whenM (hR : Frame R) {m : M σ Unit} (b : Bool) (hm : Pres R m) :
    Pres R (M.whenM b m) := by
  cases b
  · exact fun s _ => hR.refl s
  · exact hm

theorem Pres.ite {p : Prop} [Decidable p] {m n : M σ α} (hm : Pres R m) (hn : Pres R n) :
    Pres R (if p then m else n) := by
  split
  · exact hm
  · exact hn

theorem Pres.modCtx (f : Ctx → Ctx) (h : ∀ s : St σ, R s { s with ctx := f s.ctx }) :
    Pres R (modCtx f : M σ Unit) := fun s _ => h s

theorem Pres.call (f : σ → β × σ) (ev : β → Ev)
    (h : ∀ s : St σ, R s { s with env := (f s.env).2, log := s.log ++ [ev (f s.env).1] }) :
    Pres R (M.call f ev) := fun s _ => h s

theorem Pres.mapOut (hR : Frame R) {m : M σ α} (f : α → Out) (hm : Pres R m) :
    Pres R (M.mapOut f m) := hm.bind hR fun a => Pres.pure hR (f a)

end pres

/-! ## Frames -/

/-- The value `π` of the context does not change. -/
def Keeps (π : Ctx → γ) (s s' : St σ) : Prop := π s'.ctx = π s.ctx

theorem keeps_frame (π : Ctx → γ) : Frame (Keeps (σ := σ) π) :=
  ⟨fun _ => rfl, fun h1 h2 => h2.trans h1⟩

theorem grow_frame : Frame (Grow (σ := σ)) := ⟨Saw.refl, fun h1 h2 => h1.left h2⟩

/-- The log only grew, and no credential was rejected. -/
def Quiet (s s' : St σ) : Prop := ∃ l, s'.log = s.log ++ l ∧ ∀ c, Ev.credVerify c none ∉ l

theorem Quiet.refl (s : St σ) : Quiet s s := ⟨[], by simp, by simp⟩

theorem Quiet.trans {a b c : St σ} : Quiet a b → Quiet b c → Quiet a c := by
  rintro ⟨l, h, n⟩ ⟨m, k, o⟩
  refine ⟨l ++ m, by rw [k, h, List.append_assoc], fun c => ?_⟩
  simp only [List.mem_append, not_or]
  exact ⟨n c, o c⟩

theorem Quiet.grow {a b : St σ} : Quiet a b → Grow a b := by
  rintro ⟨l, h, _⟩
  exact grow_iff.2 ⟨l, h⟩

theorem Quiet.not_saw {a b : St σ} {c : Cred} (h : Quiet a b) : ¬ Saw [.credVerify c none] a b := by
  obtain ⟨l, h, n⟩ := h
  rintro ⟨x, y, h2⟩
  rw [h] at h2
  have h3 := List.append_cancel_left h2
  apply n c
  rw [h3]; simp

theorem quiet_of_log {s s' : St σ} (h : s'.log = s.log) : Quiet s s' := ⟨[], by simpa using h, by simp⟩

theorem quiet_ev {s s' : St σ} {v : Ev} (h : s'.log = s.log ++ [v]) (hv : ∀ c, v ≠ .credVerify c none) :
    Quiet s s' := ⟨[v], h, fun c hc => hv c (by simpa using Eq.symm (List.mem_singleton.1 hc))⟩

theorem quiet_frame : Frame (Quiet (σ := σ)) := ⟨Quiet.refl, Quiet.trans⟩

/-- both relations -/
def Both (R R' : St σ → St σ → Prop) (s s' : St σ) : Prop := R s s' ∧ R' s s'

/-- Structural proof of `Pres`: goes through the program; what is left are the updates of the context and the
calls. -/
macro "pres_step" hR:term : tactic => `(tactic|
  first
  | apply Pres.bind $hR
  | intro _
  | apply Pres.pure $hR
  | apply Pres.fail $hR
  | apply Pres.undef $hR
  | apply Pres.require $hR
  | apply Pres.guardUB $hR
  | apply Pres.ofOption $hR
  | apply Pres.ofRes $hR
  | apply Pres.getCtx $hR
  | apply Pres.mapErr
  | apply Pres.whenM $hR
  | apply Pres.ite
  | assumption)

end Verif
