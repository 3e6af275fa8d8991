import Verif.Sync2
import Verif.OnCtx
import Verif.Props.Handles

/-!
# The log is a run of the application

The calls in the log of a session, in their order and with the answers in the log, take the application from its state at the
beginning to its state at the end.
-/

namespace Verif

variable {σ : Type}

/-- One call: the application answers so and goes from one state to the other. The bytes of an expand call are logged as the
library reads them from its buffer. -/
def Ran1 (E : Env σ) (e : σ) (v : Ev) (e' : σ) : Prop :=
  match v with
  | .alloc n r => E.alloc e n = (r, e')
  | .importKey t b r => E.importKey e t b = (r, e')
  | .destroyKey k => E.destroyKey e k = e'
  | .makeKeyPair k r => E.makeKeyPair e k = (r, e')
  | .keyAgreement k p r => E.keyAgreement e k p = (r, e')
  | .sign k b r => E.sign e k b = (r, e')
  | .verify k b c r => E.verify e k b c = (r, e')
  | .extract k b r => E.extract e k b = (r, e')
  | .expand k b n r => ∃ o, E.expand e k b n = (o, e') ∧ r = o.map (fitLen n)
  | .encrypt k a b c r => E.encrypt e k a b c = (r, e')
  | .decrypt k a b c r => E.decrypt e k a b c = (r, e')
  | .hash b r => E.hash e b = (r, e')
  | .eadCompose m r => E.eadCompose e m = (r, e')
  | .eadProcess m l r => E.eadProcess e m l = (r, e')
  | .credFetch r => E.credFetch e = (r, e')
  | .credVerify c r => E.credVerify e c = (r, e')

/-- Calls in a row. -/
inductive Ran (E : Env σ) : σ → List Ev → σ → Prop
  | nil (e) : Ran E e [] e
  | cons {e e1 e2 v l} : Ran1 E e v e1 → Ran E e1 l e2 → Ran E e (v :: l) e2

variable {E : Env σ} {cfg : Config}

theorem Ran.append {a b c : σ} {l l' : List Ev} (h : Ran E a l b) (h' : Ran E b l' c) : Ran E a (l ++ l') c := by
  induction h with
  | nil e => exact h'
  | cons h1 _ ih => exact .cons h1 (ih h')

theorem Ran.one {a b : σ} {v : Ev} (h : Ran1 E a v b) : Ran E a [v] b := .cons h (.nil _)

theorem Ran.split {a c : σ} {l l' : List Ev} (h : Ran E a (l ++ l') c) : ∃ b, Ran E a l b ∧ Ran E b l' c := by
  induction l generalizing a with
  | nil => exact ⟨a, .nil _, h⟩
  | cons v l ih =>
    cases h with
    | cons h1 h2 =>
      obtain ⟨b, h3, h4⟩ := ih h2
      exact ⟨b, .cons h1 h3, h4⟩

theorem Ran.link (E : Env σ) : Link E (Ran E) where
  nil := .nil
  app := Ran.append
  alloc e n := .one (v := _) rfl
  importKey e t b := .one (v := _) rfl
  destroyKey e k := .one (v := _) rfl
  makeKeyPair e k := .one (v := _) rfl
  keyAgreement e k p := .one (v := _) rfl
  sign e k b := .one (v := _) rfl
  verify e k b c := .one (v := _) rfl
  extract e k b := .one (v := _) rfl
  expand e k b n := .one ⟨_, rfl, rfl⟩
  encrypt e k a b c := .one (v := _) rfl
  decrypt e k a b c := .one (v := _) rfl
  hash e b := .one (v := _) rfl
  eadCompose e m := .one (v := _) rfl
  eadProcess e m l := .one (v := _) rfl
  credFetch e := .one (v := _) rfl
  credVerify e c := .one (v := _) rfl

/-- the calls made by an API call -/
theorem step_ran {o : Op} {s s' : St σ} {r : Res Out} (h : step E cfg o s = (r, s')) :
    ∃ l, s'.log = s.log ++ l ∧ Ran E s.env l s'.env := by
  obtain ⟨l, h1, h2⟩ := ((Ran.link E).f_step (E := E) cfg o).right s
  rw [h] at h1 h2
  exact ⟨l, h1, h2⟩

open Spec

/-- the calls made in a session -/
theorem session_ran {e : σ} {log : List Ev} {h : History} {s : St σ} (hs : Session E cfg e log h s) :
    s.log = log ++ sessionCalls log s ∧ Ran E e (sessionCalls log s) s.env := by
  have : ∃ l, s.log = log ++ l ∧ Ran E e l s.env := by
    refine session_ind (P := fun _ s => ∃ l, s.log = log ++ l ∧ Ran E e l s.env) ⟨[], by simp, .nil _⟩ ?_ hs
    rintro h s o r s' - ⟨l, h1, h2⟩ h3 - -
    obtain ⟨l', h4, h5⟩ := step_ran h3
    exact ⟨l ++ l', by rw [h4, h1, List.append_assoc], h2.append h5⟩
  obtain ⟨l, h1, h2⟩ := this
  have h3 : sessionCalls log s = l := by simp [sessionCalls, h1]
  rw [h3]; exact ⟨h1, h2⟩

/-- the part of the log that belongs to a call: the application's states before and after it -/
theorem Ran.mem {a c : σ} {l : List Ev} {v : Ev} (h : Ran E a l c) (hv : v ∈ l) :
    ∃ l1 l2 b1 b2, l = l1 ++ v :: l2 ∧ Ran E a l1 b1 ∧ Ran1 E b1 v b2 ∧ Ran E b2 l2 c := by
  obtain ⟨l1, l2, rfl⟩ := List.append_of_mem hv
  obtain ⟨b1, h1, h2⟩ := h.split
  cases h2 with
  | cons h3 h4 => exact ⟨l1, l2, b1, _, rfl, h1, h3, h4⟩

/-- consecutive calls -/
theorem Ran.made {a c : σ} {l vs : List Ev} (h : Ran E a l c) (hv : Made vs l) :
    ∃ l1 l2 b1 b2, l = l1 ++ vs ++ l2 ∧ Ran E a l1 b1 ∧ Ran E b1 vs b2 := by
  obtain ⟨l1, l2, rfl⟩ := hv
  obtain ⟨b2, h1, -⟩ := h.split
  obtain ⟨b1, h1, h2⟩ := h1.split
  exact ⟨l1, l2, b1, b2, rfl, h1, h2⟩

/-! ## The library destroys only keys it imported -/

/-- At no time more keys of an identifier were destroyed than imported. -/
def OnlyOwn (L : List Ev) : Prop := ∀ kid P, P <+: L → destroys kid P ≤ imports kid P

theorem KeysReleased.own {L : List Ev} (h : KeysReleased L) : OnlyOwn L := fun kid P hP => (h kid).2 P hP

theorem OnlyOwn.append {a b : List Ev} (h1 : OnlyOwn a) (h2 : OnlyOwn b) : OnlyOwn (a ++ b) := by
  intro kid P hP
  rcases prefix_split hP with h | ⟨w, rfl, h⟩
  · exact h1 kid P h
  · rw [imports_append, destroys_append]
    have := h1 kid a (List.prefix_refl _)
    have := h2 kid w h
    omega

theorem OnlyOwn.one {v : Ev} (h : ∀ k, v ≠ .destroyKey k) : OnlyOwn [v] := by
  intro kid P hP
  have hd : destroys kid [v] = 0 := by
    cases v <;> simp_all [destroys]
  rw [List.prefix_cons_iff] at hP
  rcases hP with rfl | ⟨t, rfl, hP⟩
  · exact Nat.le_refl _
  · rw [List.prefix_nil.1 hP, hd]; exact Nat.zero_le _

theorem OnlyOwn.key (t : KeyType) (raw k : Bytes) {es : List Ev} (h : OnlyOwn es) :
    OnlyOwn (.importKey t raw (some k) :: es ++ [.destroyKey k]) := by
  intro kid
  have e1 : ∀ L, imports kid (.importKey t raw (some k) :: L) = imports kid L + if k == kid then 1 else 0 := by
    intro L; simp [imports, List.countP_cons]
  have e2 : ∀ L, destroys kid (.importKey t raw (some k) :: L) = destroys kid L := by intro L; simp [destroys]
  have e3 : imports kid [.destroyKey k] = 0 := by simp [imports]
  have e4 : destroys kid [.destroyKey k] = if k == kid then 1 else 0 := by simp [destroys, List.countP_cons]
  rw [List.cons_append]
  intro P hP
  rw [List.prefix_cons_iff] at hP
  rcases hP with rfl | ⟨u, rfl, hP⟩
  · exact Nat.le_refl _
  rw [e1, e2]
  rcases prefix_split hP with h1 | ⟨w, rfl, h1⟩
  · have := h kid u h1
    omega
  · have := h kid es (List.prefix_refl _)
    rw [imports_append, destroys_append]
    rw [List.prefix_cons_iff] at h1
    rcases h1 with rfl | ⟨x, rfl, h1⟩
    · simp only [destroys, imports, List.countP_nil] at *; omega
    · rw [List.prefix_nil.1 h1, e3, e4]; omega

theorem own_logRel : LogRel OnlyOwn where
  nil := KeysReleased.own released_logRel.nil
  app := OnlyOwn.append
  plain v _ h2 _ := OnlyOwn.one h2
  exp kid l c m n out _ := OnlyOwn.one (by simp)
  imp0 t raw := OnlyOwn.one (by simp)
  key t raw kid es h := OnlyOwn.key t raw kid h

/-- every API call, on every path, destroys only keys it imported itself -/
theorem step_own {o : Op} {s s' : St σ} {r : Res Out} (h : step E cfg o s = (r, s')) (hd : r.Defined) :
    OnlyOwn (during s s') := by
  by_cases h1 : ∃ n, o = .compose1 n
  · obtain ⟨n, rfl⟩ := h1
    have h2 := Pres.mapOut (own_logRel.frame (σ := σ)) Out.bytes
      (own_logRel.message1Compose E cfg (fun _ kid m =>
        OnlyOwn.append (a := [_]) (b := [_]) (OnlyOwn.one (by simp)) (OnlyOwn.one (by simp))) n) s
    have h3 : M.mapOut Out.bytes (message1Compose E cfg n) s = (r, s') := h
    rw [h3] at h2
    exact (onLog_during (h2 hd)).1
  · have h2 := own_logRel.step_other E cfg (o := o) (fun n hn => h1 ⟨n, hn⟩) s
    rw [h] at h2
    exact (onLog_during (h2 hd)).1

theorem session_own {e : σ} {log : List Ev} {h : History} {s : St σ} (hs : Session E cfg e log h s) :
    OnlyOwn (sessionCalls log s) := by
  have : ∃ l, s.log = log ++ l ∧ OnlyOwn l := by
    refine session_ind (P := fun _ s => ∃ l, s.log = log ++ l ∧ OnlyOwn l) ⟨[], by simp, own_logRel.nil⟩ ?_ hs
    rintro h s o r s' - ⟨l, h1, h2⟩ h3 hd -
    obtain ⟨l', h4, -⟩ := step_ran h3
    have h5 := step_own h3 hd
    have h6 : during s s' = l' := by simp [during, h4]
    rw [h6] at h5
    exact ⟨l ++ l', by rw [h4, h1, List.append_assoc], h2.append h5⟩
  obtain ⟨l, h1, h2⟩ := this
  have h3 : sessionCalls log s = l := by simp [sessionCalls, h1]
  rw [h3]; exact h2

end Verif
