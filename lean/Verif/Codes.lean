import Verif.SpecCodes
import Verif.Logic

/-!
# Return codes: the logic

`Does T S G m`: `m` calls only the callbacks in the table `T`; when one of them fails, `m` returns one of the codes the table
gives, or a value that `G` tells to be bad; all codes that `m` returns are in `S`. After a failure only keys are
destroyed.
-/

namespace Verif

open M Spec

variable {σ α β : Type}

/-- codes by callback -/
abbrev Table := List (Callback × List Err)

def Callback.all : List Callback := [.alloc, .importKey, .destroyKey, .makeKeyPair, .keyAgreement, .sign, .verify, .extract, .expand,
  .encrypt, .decrypt, .hash, .eadCompose, .eadProcess, .credFetch, .credVerify]

def Err.all : List Err := [.generic, .notSupported, .notPermitted, .bufferTooSmall, .badState, .invalidArgument,
  .notEnoughMemory, .cbor, .crypto, .credentials, .eadCompose, .eadProcess, .msg1Process, .msg2Process, .msg3Process,
  .msg4Process, .ephemeralDh, .transcriptHash, .prk, .invalidMac2, .invalidSignOrMac2, .invalidMac3, .invalidSignOrMac3]

theorem Callback.mem_all (k : Callback) : k ∈ Callback.all := by cases k <;> decide
theorem Err.mem_all (e : Err) : e ∈ Err.all := by cases e <;> decide

/-- list inclusion -/
def subErr (S S' : List Err) : Bool := S.all fun e => S'.contains e

theorem subErr_mem {S S' : List Err} (h : subErr S S' = true) {e : Err} (he : e ∈ S) : e ∈ S' := by
  simpa using List.all_eq_true.1 h e he

/-- `T'` allows what `T` allows -/
def Table.le (T T' : Table) : Bool := Callback.all.all fun k =>
  match T.lookup k with
  | none => true
  | some L => match T'.lookup k with
    | none => false
    | some L' => subErr L L'

theorem Table.le_get {T T' : Table} (h : T.le T' = true) {k : Callback} {L : List Err} (hk : T.lookup k = some L) :
    ∃ L', T'.lookup k = some L' ∧ ∀ e ∈ L, e ∈ L' := by
  have := List.all_eq_true.1 h k (Callback.mem_all k)
  rw [hk] at this
  dsimp only at this
  split at this
  · simp at this
  · rename_i L' h'
    exact ⟨L', h', fun e he => subErr_mem this he⟩

/-- one code more -/
def Table.plus (e : Err) (T : Table) : Table := T.map fun p => (p.1, e :: p.2)
/-- one code instead -/
def Table.only (e : Err) (T : Table) : Table := T.map fun p => (p.1, [e])
/-- these callbacks, and any code -/
def anyOf (ks : List Callback) : Table := ks.map fun k => (k, Err.all)

theorem Table.lookup_map {T : Table} {f : List Err → List Err} {k : Callback} {L : List Err} (h : T.lookup k = some L) :
    (T.map fun p => (p.1, f p.2)).lookup k = some (f L) := by
  induction T with
  | nil => simp at h
  | cons p T ih =>
    obtain ⟨k', L'⟩ := p
    simp only [List.map_cons, List.lookup_cons] at h ⊢
    split at h
    · simp_all
    · simp_all

/-- the outcome of a program in which a callback failed -/
def Bad (L : List Err) (G : α → Bool) : Res α → Prop
  | .ok a => G a = false
  | .err e => e ∈ L
  | .ub _ => True

/-- keys are destroyed, nothing else -/
def Cleanup (l : List Ev) : Prop := ∀ v ∈ l, v.callback = .destroyKey

/-- after a failed call keys are destroyed, nothing else -/
def Stops (l : List Ev) : Prop := ∀ a v b, l = a ++ v :: b → v.failed = true → Cleanup b

theorem Cleanup.nil : Cleanup [] := fun _ h => by cases h

theorem Cleanup.append {l l' : List Ev} (h : Cleanup l) (h' : Cleanup l') : Cleanup (l ++ l') := fun v hv => by
  rcases List.mem_append.1 hv with hv | hv
  · exact h v hv
  · exact h' v hv

theorem Stops.nil : Stops [] := fun a v b h => by cases a <;> cases h

theorem Stops.single (v : Ev) : Stops [v] := fun a x b h _ => by
  cases a with
  | nil => cases h; exact Cleanup.nil
  | cons y a => cases a <;> cases h

theorem Stops.cleanup {l l' : List Ev} (h : Stops l) (h' : Cleanup l') : Stops (l ++ l') := by
  intro a v b e hf
  rcases List.append_eq_append_iff.1 e with ⟨c, rfl, e2⟩ | ⟨c, e1, e2⟩
  · exact fun x hx => h' x (e2 ▸ by simp [hx])
  · cases c with
    | nil => exact fun x hx => h' x (by rw [List.nil_append] at e2; exact e2 ▸ by simp [hx])
    | cons y c =>
      cases e2
      exact (h a v c e1 hf).append h'

theorem Stops.after {l l' : List Ev} (h : ∀ v ∈ l, v.failed ≠ true) (h' : Stops l') : Stops (l ++ l') := by
  intro a v b e hf
  rcases List.append_eq_append_iff.1 e with ⟨c, rfl, e2⟩ | ⟨c, rfl, e2⟩
  · exact h' c v b e2 hf
  · cases c with
    | nil => exact h' [] v b e2.symm hf
    | cons y c => cases e2; exact absurd hf (h v (by simp))

def Does (T : Table) (S : List Err) (G : α → Bool) (m : M σ α) : Prop :=
  ∀ s, (m s).1.Defined → ∃ l, (m s).2.log = s.log ++ l ∧
    (∀ ev ∈ l, ∃ L, T.lookup ev.callback = some L ∧ (ev.failed = true → Bad L G (m s).1)) ∧
    (∀ e, (m s).1 = .err e → e ∈ S) ∧ Stops l

/-- every value is fine -/
abbrev fine : α → Bool := fun _ => true

theorem Bad.mono {L L' : List Err} {G : α → Bool} (h : ∀ e ∈ L, e ∈ L') {r : Res α} (hb : Bad L G r) : Bad L' G r := by
  cases r with
  | ok a => exact hb
  | err e => exact h e hb
  | ub u => trivial

theorem Does.mono {T T' : Table} {S S' : List Err} {G : α → Bool} {m : M σ α} (h : Does T S G m) (h1 : T.le T' = true)
    (h2 : subErr S S' = true) : Does T' S' G m := by
  intro s hd
  obtain ⟨l, e1, e2, e3, e4⟩ := h s hd
  refine ⟨l, e1, fun ev hev => ?_, fun e he => subErr_mem h2 (e3 e he), e4⟩
  obtain ⟨L, q1, q2⟩ := e2 ev hev
  obtain ⟨L', q3, q4⟩ := Table.le_get h1 q1
  exact ⟨L', q3, fun hf => (q2 hf).mono q4⟩

/-- `bind` when the first program may return a bad value -/
theorem Does.bindG {T0 T : Table} {S0 S : List Err} {G : α → Bool} {G' : β → Bool} {m : M σ α} {f : α → M σ β}
    (hm : Does T0 S0 G m) (h1 : T0.le T = true) (h2 : subErr S0 S = true) (hf : ∀ a, Does T S G' (f a))
    (hb : ∀ a, G a = false → ∀ s, (f a s).1.Defined → ∀ k L, T0.lookup k = some L → ∀ L', T.lookup k = some L' →
      Bad L' G' (f a s).1)
    (hc : ∀ a, G a = false → ∀ s, (f a s).1.Defined → ∃ l, (f a s).2.log = s.log ++ l ∧ Cleanup l) :
    Does T S G' (m >>= f) := by
  intro s hd
  have e : (m >>= f) s = M.bind m f s := rfl
  rw [e] at hd ⊢
  unfold M.bind at hd ⊢
  have hm' := hm s
  rcases h : m s with ⟨r, s1⟩
  rw [h] at hd hm'
  cases r with
  | ok a =>
    obtain ⟨l1, e1, e2, -, e3⟩ := hm' (by simp)
    obtain ⟨l2, e4, e5, e6, e7⟩ := hf a s1 hd
    refine ⟨l1 ++ l2, by dsimp only at e1 ⊢; rw [e4, e1, List.append_assoc], fun ev hev => ?_, e6, ?_⟩
    · rcases List.mem_append.1 hev with hev | hev
      · obtain ⟨L, q1, q2⟩ := e2 ev hev
        obtain ⟨L', q3, q4⟩ := Table.le_get h1 q1
        exact ⟨L', q3, fun hfail => hb a (q2 hfail) s1 hd _ _ q1 _ q3⟩
      · exact e5 ev hev
    · by_cases hg : G a = false
      · obtain ⟨l3, c1, c2⟩ := hc a hg s1 hd
        cases List.append_cancel_left (e4.symm.trans c1)
        exact e3.cleanup c2
      · refine Stops.after (fun v hv hfail => ?_) e7
        obtain ⟨L, -, q2⟩ := e2 v hv
        exact hg (q2 hfail)
  | err x =>
    obtain ⟨l1, e1, e2, e3, e4⟩ := hm' (by simp)
    refine ⟨l1, e1, fun ev hev => ?_, fun e he => subErr_mem h2 (e3 e (by simpa using he)), e4⟩
    obtain ⟨L, q1, q2⟩ := e2 ev hev
    obtain ⟨L', q3, q4⟩ := Table.le_get h1 q1
    exact ⟨L', q3, fun hf => q4 _ (q2 hf)⟩
  | ub u => simp at hd

theorem Table.le_refl' (T : Table) : T.le T = true := by
  refine List.all_eq_true.2 fun k _ => ?_
  split
  · rfl
  · rename_i L h
    simp [subErr]

theorem subErr_refl (S : List Err) : subErr S S = true := by simp [subErr]

variable {T T0 : Table} {S S0 : List Err} {G : α → Bool}

theorem Does.bind {G' : β → Bool} {m : M σ α} {f : α → M σ β} (hm : Does T S fine m) (hf : ∀ a, Does T S G' (f a)) :
    Does T S G' (m >>= f) :=
  hm.bindG (Table.le_refl' _) (subErr_refl _) hf (fun _ h => by simp at h) fun _ h => by simp at h

theorem Table.plus_le {T0 T : Table} {e : Err} (h : (T0.plus e).le T = true) {k : Callback} {L : List Err}
    (hk : T0.lookup k = some L) : ∃ L', T.lookup k = some L' ∧ e ∈ L' ∧ ∀ x ∈ L, x ∈ L' := by
  obtain ⟨L', q1, q2⟩ := Table.le_get h (Table.lookup_map (f := (e :: ·)) hk)
  exact ⟨L', q1, q2 e (List.mem_cons_self ..), fun x hx => q2 x (List.mem_cons_of_mem _ hx)⟩

/-- The first program may return a bad value; then the second one returns `e`. -/
theorem Does.via {G' : β → Bool} {m : M σ α} {f : α → M σ β} {e : Err} (hm : Does T0 S0 G m)
    (h1 : (T0.plus e).le T = true) (h2 : subErr S0 S = true) (hf : ∀ a, Does T S G' (f a))
    (hb : ∀ a, G a = false → ∀ s, (f a s).1.Defined →
      (f a s).1 = .err e ∧ ∃ l, (f a s).2.log = s.log ++ l ∧ Cleanup l) : Does T S G' (m >>= f) := by
  refine Does.bindG hm (T := T) (S := S) ?_ h2 hf ?_ fun a ha s hd => (hb a ha s hd).2
  · refine List.all_eq_true.2 fun k hk => ?_
    split
    · rfl
    · rename_i L hL
      obtain ⟨L', q1, -, q2⟩ := Table.plus_le h1 hL
      simp only [q1]
      exact List.all_eq_true.2 fun x hx => by simpa using q2 x hx
  · intro a ha s hd k L hL L' hL'
    rw [(hb a ha s hd).1]
    obtain ⟨L2, q1, q2, -⟩ := Table.plus_le h1 hL
    rw [hL'] at q1
    cases q1
    exact q2

/-- a callback's result, checked -/
theorem Does.bindOpt {G' : β → Bool} {m : M σ (Option α)} {e : Err} {f : α → M σ β} (hm : Does T0 S0 Option.isSome m)
    (h1 : (T0.plus e).le T = true) (h2 : subErr (e :: S0) S = true) (hf : ∀ a, Does T S G' (f a)) :
    Does T S G' (m >>= fun r => M.ofOption e r >>= f) := by
  have he : e ∈ S := subErr_mem h2 (List.mem_cons_self ..)
  refine hm.via h1 ?_ (fun r => ?_) ?_
  · simp only [subErr, List.all_cons, Bool.and_eq_true] at h2
    exact h2.2
  · cases r with
    | none => exact fun s _ => ⟨[], by simp [Bind.bind, M.bind, M.ofOption], by simp, by
        intro x hx
        have : e = x := by simpa [Bind.bind, M.bind, M.ofOption] using hx
        exact this ▸ he, Stops.nil⟩
    | some a => exact hf a
  · intro a ha s _
    cases a with
    | some a => simp at ha
    | none => exact ⟨rfl, [], by simp [Bind.bind, M.bind, M.ofOption], Cleanup.nil⟩

theorem Does.pure (a : α) : Does T S fine (pure a : M σ α) := fun s _ => ⟨[], by simp [Pure.pure, M.ret], by simp, by simp [Pure.pure, M.ret], Stops.nil⟩
theorem Does.fail {e : Err} (h : e ∈ S) : Does T S fine (M.fail e : M σ α) :=
  fun s _ => ⟨[], by simp [M.fail], by simp, by simp [M.fail, h], Stops.nil⟩
theorem Does.require {b : Bool} {e : Err} (h : e ∈ S) : Does T S fine (M.require b e : M σ Unit) :=
  fun s _ => ⟨[], by simp [M.require], by simp, by cases b <;> simp [M.require, h], Stops.nil⟩
theorem Does.guardUB {b : Bool} {e : UB} : Does T S fine (M.guardUB b e : M σ Unit) :=
  fun s _ => ⟨[], by simp [M.guardUB], by simp, by cases b <;> simp [M.guardUB], Stops.nil⟩
theorem Does.ofOption {o : Option α} {e : Err} (h : e ∈ S) : Does T S fine (M.ofOption e o : M σ α) :=
  fun s _ => ⟨[], by simp [M.ofOption], by simp, by cases o <;> simp [M.ofOption, h], Stops.nil⟩
theorem Does.ofRes {r : Res α} (h : ∀ e, r = .err e → e ∈ S) : Does T S fine (M.ofRes r : M σ α) :=
  fun s _ => ⟨[], by simp [M.ofRes], by simp, h, Stops.nil⟩
theorem Does.getCtx : Does T S fine (getCtx : M σ Ctx) := fun s _ => ⟨[], by simp [M.getCtx], by simp, by simp [M.getCtx], Stops.nil⟩
theorem Does.modCtx {f : Ctx → Ctx} : Does T S fine (modCtx f : M σ Unit) :=
  fun s _ => ⟨[], by simp [M.modCtx], by simp, by simp [M.modCtx], Stops.nil⟩

theorem Does.whenM {b : Bool} {m : M σ Unit} (h : Does T S fine m) : Does T S fine (M.whenM b m) := by
  cases b with
  | true => exact h
  | false => exact Does.pure ()

theorem Does.ite {p : Prop} [Decidable p] {m n : M σ α} (hm : Does T S G m) (hn : Does T S G n) :
    Does T S G (if p then m else n) := by
  split
  · exact hm
  · exact hn

/-- any error becomes `e` -/
theorem Does.mapErr {e : Err} {m : M σ α} (h : Does T0 S0 fine m) (h1 : (T0.only e).le T = true) (h2 : e ∈ S) :
    Does T S fine (M.mapErr e m) := by
  intro s hd
  have hm := h s
  unfold M.mapErr at hd ⊢
  rcases hms : m s with ⟨r, s1⟩
  rw [hms] at hd hm
  have key : ∀ ev : Ev, (∃ L, T0.lookup ev.callback = some L ∧ (ev.failed = true → Bad L fine r)) →
      ∃ L, T.lookup ev.callback = some L ∧ e ∈ L ∧ (ev.failed = true → Bad L fine (r : Res α) ∨ ∃ x, r = .err x) := by
    rintro ev ⟨L, q1, q2⟩
    obtain ⟨L', q3, q4⟩ := Table.le_get h1 (Table.lookup_map (f := fun _ => [e]) q1)
    refine ⟨L', q3, q4 e (by simp), fun hf => ?_⟩
    have := q2 hf
    cases r with
    | ok a => simp [Bad] at this
    | err x => exact Or.inr ⟨x, rfl⟩
    | ub u => exact Or.inl trivial
  cases r with
  | ok a =>
    obtain ⟨l, e1, e2, e3, e4⟩ := hm (by simp)
    refine ⟨l, e1, fun ev hev => ?_, by simp, e4⟩
    obtain ⟨L, q1, q2, q3⟩ := key ev (e2 ev hev)
    refine ⟨L, q1, fun hf => ?_⟩
    rcases q3 hf with q | ⟨x, q⟩
    · exact q
    · cases q
  | err x =>
    obtain ⟨l, e1, e2, e3, e4⟩ := hm (by simp)
    refine ⟨l, e1, fun ev hev => ?_, by simp [h2], e4⟩
    obtain ⟨L, q1, q2, q3⟩ := key ev (e2 ev hev)
    exact ⟨L, q1, fun _ => q2⟩
  | ub u => simp at hd

/-- one call -/
theorem Does.call {f : σ → β × σ} {ev : β → Ev} {G : β → Bool} {k : Callback} (h1 : ∀ b, (ev b).callback = k)
    (h2 : ∀ b, (ev b).failed = true → G b = false) : Does [(k, [])] [] G (M.call f ev) := by
  intro s _
  refine ⟨[ev (f s.env).1], rfl, fun v hv => ?_, by simp [M.call], Stops.single _⟩
  cases List.mem_singleton.1 hv
  exact ⟨[], by simp [List.lookup, h1], fun hf => h2 _ hf⟩

/-- a callback's result, returned -/
theorem Does.tailOpt {m : M σ (Option α)} {e : Err} (hm : Does T0 S0 Option.isSome m)
    (h1 : (T0.plus e).le T = true) (h2 : subErr (e :: S0) S = true) : Does T S fine (m >>= fun r => M.ofOption e r) := by
  have : (m >>= fun r => M.ofOption e r) = (m >>= fun r => M.ofOption e r >>= fun a => (Pure.pure a : M σ α)) := by
    funext s
    simp only [Bind.bind, M.bind, M.ofOption, Pure.pure, M.ret]
    rcases m s with ⟨r, s1⟩
    cases r with
    | ok o => cases o <;> rfl
    | err e => rfl
    | ub u => rfl
  rw [this]
  exact hm.bindOpt h1 h2 fun a => Does.pure a

/-- a program that does not fail, and calls no callback but the one that destroys keys -/
def NeverFails (m : M σ α) : Prop :=
  ∀ s, (∀ e, (m s).1 ≠ .err e) ∧ ∃ l, (m s).2.log = s.log ++ l ∧ Cleanup l

/-- the same with something in between -/
theorem Does.bindOptVia {G' : β → Bool} {m : M σ (Option α)} {e : Err} {g : Option α → M σ Unit} {f : α → M σ β}
    (hm : Does T0 S0 Option.isSome m) (h1 : (T0.plus e).le T = true) (h2 : subErr (e :: S0) S = true)
    (hq : ∀ r, NeverFails (g r)) (hg : ∀ r, Does T S fine (g r)) (hf : ∀ a, Does T S G' (f a)) :
    Does T S G' (m >>= fun r => g r >>= fun _ => M.ofOption e r >>= f) := by
  have he : e ∈ S := subErr_mem h2 (List.mem_cons_self ..)
  refine hm.via h1 ?_ (fun r => (hg r).bind fun _ => ?_) ?_
  · simp only [subErr, List.all_cons, Bool.and_eq_true] at h2
    exact h2.2
  · cases r with
    | none => exact fun s _ => ⟨[], by simp [Bind.bind, M.bind, M.ofOption], by simp, by
        intro x hx
        have : e = x := by simpa [Bind.bind, M.bind, M.ofOption] using hx
        exact this ▸ he, Stops.nil⟩
    | some a => exact hf a
  · intro a ha s hd
    cases a with
    | some a => simp at ha
    | none =>
      have hq := hq none s
      simp only [Bind.bind, M.bind, M.ofOption] at hd ⊢
      rcases hgs : g none s with ⟨r, s1⟩
      rw [hgs] at hd hq
      cases r with
      | ok u => exact ⟨rfl, hq.2⟩
      | err x => exact absurd rfl (hq.1 x)
      | ub u => simp at hd

/-- a callback that says yes or no -/
theorem Does.bindBool {m : M σ Bool} {e : Err} {f : M σ Unit} (hm : Does T0 S0 id m) (hf : Does T S fine f)
    (hq : NeverFails f) (h1 : (T0.plus e).le T = true) (h2 : subErr (e :: S0) S = true) :
    Does T S fine (m >>= fun b => f >>= fun _ => M.require b e) := by
  have he : e ∈ S := subErr_mem h2 (List.mem_cons_self ..)
  refine hm.via h1 ?_ (fun b => hf.bind fun _ => Does.require he) ?_
  · simp only [subErr, List.all_cons, Bool.and_eq_true] at h2
    exact h2.2
  · intro a ha s hd
    cases ha
    have hq := hq s
    simp only [Bind.bind, M.bind, M.require] at hd ⊢
    rcases hgs : f s with ⟨r, s1⟩
    rw [hgs] at hd hq
    cases r with
    | ok u => exact ⟨rfl, hq.2⟩
    | err x => exact absurd rfl (hq.1 x)
    | ub u => simp at hd

theorem Does.tailBool {m : M σ Bool} {e : Err} (hm : Does T0 S0 id m)
    (h1 : (T0.plus e).le T = true) (h2 : subErr (e :: S0) S = true) : Does T S fine (m >>= fun b => M.require b e) :=
  hm.bindBool (f := Pure.pure ()) (Does.pure _) (fun s => ⟨fun e h => by simp [Pure.pure, M.ret] at h, [],
    by simp [Pure.pure, M.ret], Cleanup.nil⟩) h1 h2

end Verif
