import Verif.Sync2
import Verif.Props.Wire

/-!
# Independence of contexts (C38)

A call's effect is determined by its arguments, the context and the answers of the callbacks. When calls on several contexts
are interleaved, each context goes through what it would go through alone, with an application that gives the same answers.
-/

namespace Verif

open M Spec

variable {σ τ ι : Type}

/-! ## An application that replays answers -/

/-- answers from a recording -/
def replay : Env (List Ev) where
  alloc t _ := (match t.head? with | some (.alloc _ ok) => ok | _ => false, t.tail)
  importKey t _ _ := (match t.head? with | some (.importKey _ _ r) => r | _ => none, t.tail)
  destroyKey t _ := t.tail
  makeKeyPair t _ := (match t.head? with | some (.makeKeyPair _ r) => r | _ => none, t.tail)
  keyAgreement t _ _ := (match t.head? with | some (.keyAgreement _ _ r) => r | _ => none, t.tail)
  sign t _ _ := (match t.head? with | some (.sign _ _ r) => r | _ => none, t.tail)
  verify t _ _ _ := (match t.head? with | some (.verify _ _ _ r) => r | _ => false, t.tail)
  extract t _ _ := (match t.head? with | some (.extract _ _ r) => r | _ => none, t.tail)
  expand t _ _ _ := (match t.head? with | some (.expand _ _ _ r) => r | _ => none, t.tail)
  encrypt t _ _ _ _ := (match t.head? with | some (.encrypt _ _ _ _ r) => r | _ => none, t.tail)
  decrypt t _ _ _ _ := (match t.head? with | some (.decrypt _ _ _ _ r) => r | _ => none, t.tail)
  hash t _ := (match t.head? with | some (.hash _ r) => r | _ => none, t.tail)
  eadCompose t _ := (match t.head? with | some (.eadCompose _ r) => r | _ => none, t.tail)
  eadProcess t _ _ := (match t.head? with | some (.eadProcess _ _ r) => r | _ => false, t.tail)
  credFetch t := (match t.head? with | some (.credFetch r) => r | _ => none, t.tail)
  credVerify t _ := (match t.head? with | some (.credVerify _ r) => r | _ => none, t.tail)

/-- Each call takes one entry of the recording, and is answered by it if the entry is for that question. -/
def Follows : List Ev → List Ev → List Ev → Prop
  | t, [], t' => t' = t
  | t, e' :: l, t' => (∀ e, t.head? = some e → e.Fit → e.asks = e'.asks → e' = e) ∧ Follows t.tail l t'

theorem follows_app : ∀ {l a b c l'}, Follows a l b → Follows b l' c → Follows a (l ++ l') c
  | [], _, _, _, _, h, h' => by cases h; exact h'
  | _ :: _, _, _, _, _, ⟨h1, h2⟩, h' => ⟨h1, follows_app h2 h'⟩

theorem follows_one {t : List Ev} {e' : Ev} (h : ∀ e, t.head? = some e → e.Fit → e.asks = e'.asks → e' = e) :
    Follows t [e'] t.tail := ⟨h, rfl⟩

theorem replay_link : Link replay Follows where
  nil _ := rfl
  app := follows_app
  alloc t _ := follows_one fun e h _ a => by cases e <;> simp_all [replay, Ev.asks]
  importKey t _ _ := follows_one fun e h _ a => by cases e <;> simp_all [replay, Ev.asks]
  destroyKey t _ := follows_one fun e h _ a => by cases e <;> simp_all [Ev.asks]
  makeKeyPair t _ := follows_one fun e h _ a => by cases e <;> simp_all [replay, Ev.asks]
  keyAgreement t _ _ := follows_one fun e h _ a => by cases e <;> simp_all [replay, Ev.asks]
  sign t _ _ := follows_one fun e h _ a => by cases e <;> simp_all [replay, Ev.asks]
  verify t _ _ _ := follows_one fun e h _ a => by cases e <;> simp_all [replay, Ev.asks]
  extract t _ _ := follows_one fun e h _ a => by cases e <;> simp_all [replay, Ev.asks]
  expand t k b n := follows_one fun e h f a => by
    cases e with
    | expand k' b' n' r =>
      simp only [Ev.asks, Ev.expand.injEq] at a
      obtain ⟨rfl, rfl, rfl, -⟩ := a
      simp only [replay, h]
      cases r with
      | none => rfl
      | some r => simp only [Option.map_some, fitLen_self (show r.length = n' from f)]
    | _ => simp [Ev.asks] at a
  encrypt t _ _ _ _ := follows_one fun e h _ a => by cases e <;> simp_all [replay, Ev.asks]
  decrypt t _ _ _ _ := follows_one fun e h _ a => by cases e <;> simp_all [replay, Ev.asks]
  hash t _ := follows_one fun e h _ a => by cases e <;> simp_all [replay, Ev.asks]
  eadCompose t _ := follows_one fun e h _ a => by cases e <;> simp_all [replay, Ev.asks]
  eadProcess t _ _ := follows_one fun e h _ a => by cases e <;> simp_all [replay, Ev.asks]
  credFetch t := follows_one fun e h _ a => by cases e <;> simp_all [replay, Ev.asks]
  credVerify t _ := follows_one fun e h _ a => by cases e <;> simp_all [replay, Ev.asks]

theorem follows_fork : ∀ {pre e e' q q' rest t'}, Follows (pre ++ e :: q ++ rest) (pre ++ e' :: q') t' → e.Fit →
    e.asks = e'.asks → e' = e
  | [], _, _, _, _, _, _, ⟨h, _⟩, f, a => h _ rfl f a
  | _ :: _, _, _, _, _, _, _, ⟨_, h⟩, f, a => follows_fork h f a

theorem follows_end : ∀ {l rest t'}, Follows (l ++ rest) l t' → t' = rest
  | [], _, _, h => h
  | _ :: _, _, _, ⟨_, h⟩ => follows_end h

/-- Replaying the answers of a call reproduces the call. -/
theorem replay_step {E : Env σ} {cfg : Config} {o : Op} {s s1 : St σ} {r : Res Out} (h : step E cfg o s = (r, s1)) :
    ∃ l, s1.log = s.log ++ l ∧ ∀ rest, step replay cfg o ⟨s.ctx, l ++ rest, s.log⟩ = (r, ⟨s1.ctx, rest, s1.log⟩) := by
  have k := replay_link.f_step (E := E) cfg o
  obtain ⟨l, h1, h2⟩ := k.left s
  rw [h] at h1
  refine ⟨l, h1, fun rest => ?_⟩
  obtain ⟨l', h3, h4⟩ := k.right ⟨s.ctx, l ++ rest, s.log⟩
  rcases hr : step replay cfg o ⟨s.ctx, l ++ rest, s.log⟩ with ⟨r', s2⟩
  have h5 := k.both s ⟨s.ctx, l ++ rest, s.log⟩ rfl l l' (by rw [h]; exact h1) h3
  rw [hr] at h3 h4 h5
  rw [h] at h5
  rcases h5 with ⟨pre, e, e', q, q', rfl, rfl, h6, h7⟩ | ⟨rfl, h6, h7⟩
  · exact absurd (follows_fork h4 (h2 e (by simp)) h7).symm h6
  · have h8 := follows_end h4
    obtain ⟨c, e, g⟩ := s2
    dsimp only at h3 h6 h7 h8 h1
    subst h6 h7 h8
    rw [h1, h3]

/-! ## C38 -/

theorem true_link (E : Env τ) : Link E fun _ _ _ => True := by
  constructor
  · exact ⟨fun _ => trivial, fun _ _ => trivial⟩
  all_goals intros; trivial

/-- **C38, determinism**: two calls of the same function with the same arguments on equal contexts, in programs with any two
applications, ask their applications the same questions up to the first answer that differs. If no answer differs they
return the same and leave the same context. -/
theorem C38_determined {E : Env σ} {E' : Env τ} {cfg : Config} {o : Op} {s s1 : St σ} {s' s1' : St τ} {r r' : Res Out}
    (hc : s.ctx = s'.ctx) (h : step E cfg o s = (r, s1)) (h' : step E' cfg o s' = (r', s1')) :
    ∃ l l', s1.log = s.log ++ l ∧ s1'.log = s'.log ++ l' ∧ (Fork l l' ∨ l = l' ∧ r = r' ∧ s1.ctx = s1'.ctx) := by
  have k := (true_link E').f_step (E := E) cfg o
  obtain ⟨l, h1, -⟩ := k.left s
  obtain ⟨l', h2, -⟩ := k.right s'
  have h3 := k.both s s' hc l l' h1 h2
  rw [h] at h1 h3
  rw [h'] at h2 h3
  exact ⟨l, l', h1, h2, h3⟩

variable [DecidableEq ι]

/-- **C38, isolation**: calls on other contexts do not change a context. -/
theorem C38_isolated {E : ι → Env σ} {cfg : Config} {w w' : World ι σ} {h : List (ι × Op × Res Out)}
    (hp : Program E cfg w h w') {i : ι} (hi : ∀ x ∈ h, x.1 ≠ i) : w'.ctx i = w.ctx i ∧ w'.log i = w.log i := by
  induction hp with
  | nil => exact ⟨rfl, rfl⟩
  | @cons w w2 j o r s h e d p ih =>
    have n : ¬ i = j := fun x => hi _ (List.mem_cons_self ..) x.symm
    obtain ⟨h1, h2⟩ := ih fun x hx => hi x (List.mem_cons_of_mem _ hx)
    rw [h1, h2]
    simp [World.put, n]

/-- **C38, interleaving**: in a program that interleaves calls on any number of contexts, each context goes through a run of
its own: the calls on it, with the results they had, from the context at the start to the context at the end, with the
same questions to an application of its own. Every theorem about the runs of one context therefore holds of each context
of the program, since those theorems are about all applications. -/
theorem C38_alone {E : ι → Env σ} {cfg : Config} {w w' : World ι σ} {h : List (ι × Op × Res Out)}
    (hp : Program E cfg w h w') (i : ι) :
    ∃ t, Run replay cfg ⟨w.ctx i, t, w.log i⟩ (callsOn i h) ⟨w'.ctx i, [], w'.log i⟩ := by
  induction hp with
  | nil w => exact ⟨[], .nil _⟩
  | @cons w w2 j o r s h e d p ih =>
    obtain ⟨t, ih⟩ := ih
    by_cases n : i = j
    · subst n
      obtain ⟨l, h1, h2⟩ := replay_step e
      refine ⟨l ++ t, ?_⟩
      have q : callsOn i ((i, o, r) :: h) = (o, r) :: callsOn i h := by simp [callsOn]
      rw [q]
      refine .cons (h2 t) d ?_
      simpa [World.put] using ih
    · refine ⟨t, ?_⟩
      have q : callsOn i ((j, o, r) :: h) = callsOn i h := by simp [callsOn, Ne.symm n]
      rw [q]
      simpa [World.put, n] using ih

/-- **C38, sessions**: a context that was initialised and is not initialised again goes through a session of its own. -/
theorem C38_session {E : ι → Env σ} {cfg : Config} {w w' : World ι σ} {h : List (ι × Op × Res Out)}
    (hp : Program E cfg w h w') {i : ι} (hw : w.ctx i = Ctx.fresh) (hr : ∀ p ∈ callsOn i h, restarts p.1 = false) :
    ∃ t, Session replay cfg t (w.log i) (callsOn i h) ⟨w'.ctx i, [], w'.log i⟩ := by
  obtain ⟨t, ht⟩ := C38_alone hp i
  rw [hw] at ht
  exact ⟨t, ht, hr⟩

/-! ## Non-vacuity -/

namespace Toy

/-- run a program -/
def program (E : ι → Env σ) (cfg : Config) : List (ι × Op) → World ι σ → List (ι × Op × Res Out) × World ι σ
  | [], w => ([], w)
  | (i, o) :: os, w =>
    let r := step (E i) cfg o (w.at i)
    let t := program E cfg os (w.put i r.2)
    ((i, o, r.1) :: t.1, t.2)

theorem program_run {E : ι → Env σ} {cfg : Config} (ops : List (ι × Op)) (w : World ι σ)
    (h : ((program E cfg ops w).1.all fun p => !isUb p.2.2) = true) :
    Program E cfg w (program E cfg ops w).1 (program E cfg ops w).2 := by
  induction ops generalizing w with
  | nil => exact .nil _
  | cons x os ih =>
    obtain ⟨i, o⟩ := x
    simp only [program, List.all_cons, Bool.and_eq_true] at h
    refine .cons rfl ?_ (ih _ h.2)
    intro u hu
    rw [hu] at h
    simp [isUb] at h

/-- Alice's and Bob's context in one program -/
def two (b : Bool) : Env Unit := if b then env alice else env bob

/-- both contexts initialised -/
def twoFresh : World Bool Unit := ⟨fun _ => Ctx.fresh, (), fun _ => []⟩

/-- their calls, taking turns -/
def turns : List (Bool × Op) := ((callsI 3).zip (callsR 3)).flatMap fun p => [(true, p.1), (false, p.2)]

end Toy

/-- Alice and Bob, two contexts in one program, complete the handshake; every call succeeds. -/
example : Program Toy.two Toy.cfg Toy.twoFresh (Toy.program Toy.two Toy.cfg Toy.turns Toy.twoFresh).1
      (Toy.program Toy.two Toy.cfg Toy.turns Toy.twoFresh).2 ∧
    callsOn true (Toy.program Toy.two Toy.cfg Toy.turns Toy.twoFresh).1 = Toy.hst Toy.alice (Toy.callsI 3) ∧
    callsOn false (Toy.program Toy.two Toy.cfg Toy.turns Toy.twoFresh).1 = Toy.hst Toy.bob (Toy.callsR 3) ∧
    ∃ t, Session replay Toy.cfg t [] (Toy.hst Toy.bob (Toy.callsR 3))
      ⟨(Toy.program Toy.two Toy.cfg Toy.turns Toy.twoFresh).2.ctx false, [],
        (Toy.program Toy.two Toy.cfg Toy.turns Toy.twoFresh).2.log false⟩ := by
  have h1 := Toy.program_run (E := Toy.two) (cfg := Toy.cfg) Toy.turns Toy.twoFresh (by decide +kernel)
  have h2 : callsOn false (Toy.program Toy.two Toy.cfg Toy.turns Toy.twoFresh).1 = Toy.hst Toy.bob (Toy.callsR 3) := by
    decide +kernel
  obtain ⟨t, ht⟩ := C38_session h1 (i := false) rfl (by rw [h2]; decide +kernel)
  rw [h2] at ht
  exact ⟨h1, by decide +kernel, h2, t, ht⟩

/-- Non-vacuity of `C38_determined`: the two contexts are equal at the start, and with the same first calls they stay equal; a
callback that answers differently makes the logs fork. -/
example : (Toy.after Toy.alice (Toy.conf 3 (.int 5))).ctx = (Toy.after Toy.bob (Toy.conf 3 (.int 5))).ctx ∧
    Fork (step (Toy.env Toy.alice) Toy.cfg (.compose1 100) (Toy.after Toy.alice (Toy.conf 3 (.int 5)))).2.log
      (step (Toy.env Toy.bob) Toy.cfg (.compose1 100) (Toy.after Toy.bob (Toy.conf 3 (.int 5)))).2.log := by
  exact ⟨by decide +kernel, [.importKey .makeKeyPair [] (some []), .alloc 2 true],
    .makeKeyPair [] (some ([1, 77], [0, 124])), .makeKeyPair [] (some ([0, 200], [0, 120])),
    [.destroyKey [], .eadCompose .msg1 (some [⟨1, some [7]⟩]), .hash [3, 2, 66, 0, 124, 5, 1, 65, 7] (some [97, 52, 97, 52])],
    [.destroyKey [], .eadCompose .msg1 (some []), .hash [3, 2, 66, 0, 120, 5] (some [0, 224, 0, 224])],
    by decide +kernel, by decide +kernel, by decide, rfl⟩

end Verif
