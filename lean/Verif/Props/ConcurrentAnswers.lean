import Verif.Props.Concurrent

/-!
# C92: answers to a peer while other sessions go on
-/

namespace Verif

open M Spec

section
variable {σ : Type} {E : Env σ} {I : σ → Prop} {cfg : Config} {P : Prims} {V : Bytes → Bytes → Bytes → Bool} {su : Suite}
  {k : Bounds} {signs : Nat → Bool} {p : Identity} {g : Choice}

/-- the calls of a run can be replayed -/
theorem replay_run {s s' : St σ} {h : History} (hr : Run E cfg s h s') :
    ∃ l, ∀ t, Run replay cfg ⟨s.ctx, l ++ t, s.log⟩ h ⟨s'.ctx, t, s'.log⟩ := by
  induction hr with
  | nil s => exact ⟨[], fun t => .nil _⟩
  | cons e d _ ih =>
    obtain ⟨l2, ih⟩ := ih
    obtain ⟨l1, -, h2⟩ := replay_step e
    refine ⟨l1 ++ l2, fun t => ?_⟩
    rw [List.append_assoc]
    exact .cons (h2 (l2 ++ t)) d (ih t)

/-- so can those on one context of a program, with any continuation -/
theorem replay_program {ι : Type} [DecidableEq ι] {Es : ι → Env σ} {w w' : World ι σ} {h : List (ι × Op × Res Out)}
    (hp : Program Es cfg w h w') (i : ι) (t' : List Ev) :
    ∃ t, Run replay cfg ⟨w.ctx i, t, w.log i⟩ (callsOn i h) ⟨w'.ctx i, t', w'.log i⟩ := by
  induction hp with
  | nil w => exact ⟨t', .nil _⟩
  | @cons w w2 j o r s h e d p ih =>
    obtain ⟨t, ih⟩ := ih
    by_cases n : i = j
    · subst n
      obtain ⟨l, h1, h2⟩ := replay_step e
      refine ⟨l ++ t, ?_⟩
      have q : callsOn i ((i, o, r) :: h) = (o, r) :: callsOn i h := by simp [callsOn]
      rw [q]
      refine .cons (h2 t) d ?_
      simpa [World.put] using ih
    · refine ⟨t, ?_⟩
      have q : callsOn i ((j, o, r) :: h) = callsOn i h := by
        simp only [callsOn, List.filterMap_cons]
        rw [if_neg (fun x => n x.symm)]
      rw [q]
      simpa [World.put, n] using ih

/-- a session that is not over is not over when it is replayed, with a suitable continuation -/
theorem replay_alive {s : St σ} (h : ¬ Dead E cfg s) : ∃ t, ¬ Dead replay cfg ⟨s.ctx, t, s.log⟩ := by
  apply Classical.byContradiction
  intro hn
  refine h fun hist s' hr hi p hp hc => ?_
  obtain ⟨l, hl⟩ := replay_run hr
  have hd : Dead replay cfg ⟨s.ctx, l ++ [], s.log⟩ := Classical.byContradiction fun x => hn ⟨_, x⟩
  exact hd hist _ (hl []) hi p hp hc

/-- what `Sender` says apart from the callbacks -/
theorem Spec.Sender.replayed (h : Sender P V su k signs I E cfg p g) :
    Sender P V su k signs (fun _ : List Ev => False) replay cfg p g :=
  { h with
    honest := ⟨nofun, nofun, nofun, nofun, nofun⟩
    owns := fun me hm =>
      ⟨nofun, (h.owns me hm).pk, fun _ _ _ => nofun, fun hs => ⟨((h.owns me hm).agree hs).1, ((h.owns me hm).agree hs).2.1, fun _ _ => nofun⟩⟩ }

end

section
variable {σ ι : Type} [DecidableEq ι] {E : ι → Env σ} {I : σ → Prop} {cfg : Config} {P : Prims}
  {V : Bytes → Bytes → Bytes → Bool} {su : Suite} {k : Bounds} {signs : Nat → Bool} {p : Identity} {g : Choice} {i : ι}
  {w w' : World ι σ} {h : List (ι × Op × Res Out)} {hist : History} {n : Nat}

/-- no calls, from whichever contexts, bring the application out of order -/
theorem C92_steady (hk : Steady E cfg I) (hp : Program E cfg w h w') (hj : I w.env) : I w'.env := by
  induction hp with
  | nil w => exact hj
  | cons e d _ ih => exact ih (hk _ _ _ _ _ hj e d)

theorem replayed (hp : Program E cfg w h w') (hc : callsOn i h = done g.calls ++ hist) (ha : ¬ Dead (E i) cfg (w'.at i)) :
    ∃ s s1, s1.ctx = w'.ctx i ∧ Run replay cfg s (done g.calls ++ hist) s1 ∧ ¬ Dead replay cfg s1 := by
  obtain ⟨t, ht⟩ := replay_alive ha
  obtain ⟨t0, hr⟩ := replay_program hp i t
  rw [hc] at hr
  exact ⟨_, _, rfl, hr, ht⟩

/-- **C92**, answers of an Initiator. One context of a device is configured and has then been used in any way, with a peer that
may be hostile; calls on any other contexts, with any results, go on meanwhile. As long as the session is not over, composing
the message that is due succeeds. -/
theorem C92_initiator (hS : Sender P V su k initiatorSigns I (E i) cfg p g) (hk : Steady E cfg I) (hp : Program E cfg w h w')
    (hj : I w.env) (hc : callsOn i h = done g.calls ++ hist) (hu : Undisturbed hist) (ha : ¬ Dead (E i) cfg (w'.at i))
    (hn : 65000 ≤ n) :
    (messages hist = [] → ∃ m s, step (E i) cfg (.compose1 n) (w'.at i) = (.ok (.bytes m), s)) ∧
      (messages hist = [.compose1, .process2] → GoodGy P su hist →
        ∃ m s, step (E i) cfg (.compose3 n) (w'.at i) = (.ok (.bytes m), s)) := by
  have hj := C92_steady hk hp hj
  obtain ⟨s, s1, e, hr, ha⟩ := replayed hp hc ha
  refine ⟨fun hm => ?_, fun hm hg => ?_⟩
  · obtain ⟨s0, e1, e2, e3, e4, r⟩ := hS.replayed.start hr hu hm
    cases r.stay e4 (not_dead_status ha)
    have hd : g.methods.head? = some (g.methods.headD 0) := by
      have := hS.head
      cases hg : g.methods with
      | nil => rw [hg] at this; cases this
      | cons a l => rfl
    obtain ⟨m1, s2, q1, -⟩ := message1Compose_wp hS.host e1 (by rw [e2]; exact hd) (by rw [e3]; exact hS.cid)
      (by omega : 60000 ≤ n) (s := w'.at i) ⟨e.symm, hj⟩
    exact ⟨m1, s2, mapOut_ok.2 ⟨m1, q1, rfl⟩⟩
  · obtain ⟨c0, b, m2, ct, h1, h2, e3, rfl, r, md, st, sb, gl⟩ := hS.replayed.initiator hr hu hm
    obtain ⟨y, hy, hgy⟩ := hg m2 .unit _ (by simp) sb
    rw [← gl, List.take_left] at hgy
    cases r.stay (by unfold Early; rw [st, md.keys.2]; decide) (not_dead_status ha)
    obtain ⟨m3, s2, q3, -⟩ := message3Compose_any hS.host (hS.methods _ md.method) (hS.owns _ md.method) hS.sizes
      hS.credOk.size md.cid (cfg' := cfg) (c0 := c0) (by rw [e3]; exact hS.cid) md.th md.prk hy
      ⟨md.going, md.keys, hgy, rfl, rfl, rfl⟩ st hn (s := w'.at i) ⟨e.symm, hj⟩
    exact ⟨m3, s2, mapOut_ok.2 ⟨m3, q3, rfl⟩⟩

/-- **C92**, answers of a Responder. -/
theorem C92_responder (hS : Sender P V su k responderSigns I (E i) cfg p g) (hk : Steady E cfg I) (hp : Program E cfg w h w')
    (hj : I w.env) (hc : callsOn i h = done g.calls ++ hist) (hu : Undisturbed hist) (ha : ¬ Dead (E i) cfg (w'.at i))
    (hn : 65000 ≤ n) :
    (messages hist = [.process1] → GoodGx P hist → ∃ m s, step (E i) cfg (.compose2 n) (w'.at i) = (.ok (.bytes m), s)) ∧
      (messages hist = [.process1, .compose2, .process3] → NoExporter hist →
        ∃ m s, step (E i) cfg (.compose4 n) (w'.at i) = (.ok (.bytes m), s)) := by
  have hj := C92_steady hk hp hj
  obtain ⟨s, s1, e, hr, ha⟩ := replayed hp hc ha
  refine ⟨fun hm hg => ?_, fun hm hx => ?_⟩
  · obtain ⟨s0, e1, e2, e3, e4, r⟩ := hS.replayed.start hr hu hm
    obtain ⟨h1, o, x, b, h2, rfl, _, hk, hs, r1⟩ := r.next e4
    obtain ⟨m1, rfl, rfl, c1⟩ := step_process1 hk hs
    obtain ⟨me, l, gx, g1, g2, g3, g4, g5, g6, g7⟩ := hS.replayed.heard e1 e2 c1
    obtain ⟨x, hx, rfl⟩ := hg m1 .unit me l gx (by simp) g2
    cases r1.stay (by unfold Early; rw [g4.1, g4.2.2]; decide) (not_dead_status ha)
    obtain ⟨m2, s2, q2, -⟩ := message2Compose_any hS.host hS.lawful (hS.methods me g1) (hS.owns me g1) hS.sizes hS.credOk.size
      (cfg' := cfg) (by rw [e3]; exact hS.cid) hS.keystream g7 hx ⟨g3, g4, g5, rfl, rfl⟩ hn (s := w'.at i) ⟨e.symm, hj⟩
    exact ⟨m2, s2, mapOut_ok.2 ⟨m2, q2, rfl⟩⟩
  · obtain ⟨c0, -, f, st⟩ := hS.replayed.complete hr hu (by simp [finished]) hm hx (Or.inr ha)
    obtain ⟨m4, s2, q4, -⟩ := message4Compose_wp hS.host f.after f.th f.prk (by simpa using st) hn (s := w'.at i) ⟨e.symm, hj⟩
    exact ⟨m4, s2, mapOut_ok.2 ⟨m4, q4, rfl⟩⟩

/-- **C92**, exporter. Once the handshake is complete, whatever the peer sent and whatever went on on other contexts, secrets
and OSCORE keys can be exported. -/
theorem C92_export (hS : Sender P V su k signs I (E i) cfg p g) (hk : Steady E cfg I) (hp : Program E cfg w h w')
    (hj : I w.env) (hc : callsOn i h = done g.calls ++ hist) (hu : Undisturbed hist) {l : List Call} (hl : l ∈ finished)
    (hm : messages hist = l) (hx : NoExporter hist) (ha : l.length = 4 ∨ ¬ Dead (E i) cfg (w'.at i)) {a b label : Nat}
    (ha' : SecretLen su a) (hb : SecretLen su b) (hn : 65000 ≤ n) (hlab : 32768 ≤ label ∧ label ≤ 65535) :
    (∃ x s, step (E i) cfg (.exportSecret label a) (w'.at i) = (.ok (.bytes x), s)) ∧
      ∃ o s, step (E i) cfg (.exportOscore a b n n) (w'.at i) = (.ok (.oscore o), s) := by
  have hj := C92_steady hk hp hj
  obtain ⟨s, s1, e, hr, ha⟩ : ∃ s s1, s1.ctx = w'.ctx i ∧ Run replay cfg s (done g.calls ++ hist) s1 ∧
      (l.length = 4 ∨ ¬ Dead replay cfg s1) := by
    rcases ha with ha | ha
    · obtain ⟨t, hr⟩ := replay_program hp i []
      rw [hc] at hr
      exact ⟨_, _, rfl, hr, Or.inl ha⟩
    · obtain ⟨s, s1, e, hr, ha⟩ := replayed hp hc ha
      exact ⟨s, s1, e, hr, Or.inr ha⟩
  obtain ⟨c0, e3, f, st⟩ := hS.replayed.complete hr hu hl hm hx ha
  constructor
  · obtain ⟨x, s2, q, -⟩ := exportSecret_gets (label := label) (n := a) hS.host f.after.live (fun _ => f.after.keys.1)
      (Or.inl f.after.keys.2) f.th f.prk (Or.inr (Or.inr hlab)) (secretLen_oh ha') (w'.at i) ⟨e.symm, hj⟩
    exact ⟨x, s2, mapOut_ok.2 ⟨_, q, rfl⟩⟩
  · obtain ⟨o, s2, q, -⟩ := exportOscore_wp hS.host f.after.live f.after.keys.1 f.after.keys.2 f.th f.prk
      (st.imp And.left And.left) f.after.oscore (cfg' := cfg) (by rw [f.after.cid, e3]; exact hS.cid) f.cid (secretLen_oh ha')
      (secretLen_oh hb) (by omega : 1003 ≤ n) (s := w'.at i) ⟨e.symm, hj⟩
    exact ⟨o, s2, mapOut_ok.2 ⟨_, q, rfl⟩⟩

end

section
open Psa
variable {A : Algs} {k : Bounds} {signs : Nat → Bool} {τ ι : Type} [DecidableEq ι] {J : τ → Prop} {cfg : Config} {id : Nat}
  {own : Key} {p : Identity} {g : Choice} {qs : ι → Params} {Xs : ι → Psa.App τ} {i : ι}
  {w w' : Spec.World ι (Psa.World τ)} {h : List (ι × Op × Res Out)} {hist : History} {n : Nat}

/-- **C92** for the shipped suites, Initiator: the contexts of a device share a key store that is in order at the start. -/
theorem C92_suites_initiator (hl : AlgLaws A (qs i)) (hS : SuiteSender A (qs i) k initiatorSigns (Xs i) J cfg id own p g)
    (hX : ∀ i, Apart (Xs i)) (hJ : ∀ i, Retains (Xs i) J) (hm : ∀ i, NeverOut cfg (Xs i))
    (hp : Program (fun i => suiteEnv A (qs i) (Xs i)) cfg w h w') (o : InOrder A (qs i) id own w.env.1) (j : J w.env.2)
    (hc : callsOn i h = done g.calls ++ hist) (hu : Undisturbed hist)
    (ha : ¬ Dead (suiteEnv A (qs i) (Xs i)) cfg (w'.at i)) (hn : 65000 ≤ n) :
    (messages hist = [] → ∃ m s, step (suiteEnv A (qs i) (Xs i)) cfg (.compose1 n) (w'.at i) = (.ok (.bytes m), s)) ∧
      (messages hist = [.compose1, .process2] → GoodGy (primsOf A (qs i)) (qs i).table hist →
        ∃ m s, step (suiteEnv A (qs i) (Xs i)) cfg (.compose3 n) (w'.at i) = (.ok (.bytes m), s)) :=
  C92_initiator (E := fun i => suiteEnv A (qs i) (Xs i)) (i := i) (suite_sender hl hS)
    (suites_steady (Xs := Xs) hX hJ hm hS.kid.2) hp ⟨o, j⟩ hc hu ha hn

/-- **C92** for the shipped suites, Responder. -/
theorem C92_suites_responder (hl : AlgLaws A (qs i)) (hS : SuiteSender A (qs i) k responderSigns (Xs i) J cfg id own p g)
    (hX : ∀ i, Apart (Xs i)) (hJ : ∀ i, Retains (Xs i) J) (hm : ∀ i, NeverOut cfg (Xs i))
    (hp : Program (fun i => suiteEnv A (qs i) (Xs i)) cfg w h w') (o : InOrder A (qs i) id own w.env.1) (j : J w.env.2)
    (hc : callsOn i h = done g.calls ++ hist) (hu : Undisturbed hist)
    (ha : ¬ Dead (suiteEnv A (qs i) (Xs i)) cfg (w'.at i)) (hn : 65000 ≤ n) :
    (messages hist = [.process1] → GoodGx (primsOf A (qs i)) hist →
        ∃ m s, step (suiteEnv A (qs i) (Xs i)) cfg (.compose2 n) (w'.at i) = (.ok (.bytes m), s)) ∧
      (messages hist = [.process1, .compose2, .process3] → NoExporter hist →
        ∃ m s, step (suiteEnv A (qs i) (Xs i)) cfg (.compose4 n) (w'.at i) = (.ok (.bytes m), s)) :=
  C92_responder (E := fun i => suiteEnv A (qs i) (Xs i)) (i := i) (suite_sender hl hS)
    (suites_steady (Xs := Xs) hX hJ hm hS.kid.2) hp ⟨o, j⟩ hc hu ha hn

end

/-! ## A concrete case -/

namespace Psa.Toy

/-- two Responders on one device: one has message_3, the other is given garbage instead -/
def beside (q : Params) : List (Bool × Op) := steps2R q ++ [(false, .process3 [1, 2, 3]), (true, .process3 (msg3 q true))]

theorem beside_check : (shipped.all fun q =>
    ((onR q (beside q)).1.all fun p => !Verif.Toy.isUb p.2.2) &&
    decide (callsOn true (onR q (beside q)).1 = done (choice q 3 (.bstr [0x18, 9])).calls ++
      [(.process1 (msg1 q true), .ok .unit), (.compose2 65000, .ok (.bytes (msg2 q true))), (.process3 (msg3 q true), .ok .unit)]) &&
    decide ((callsOn false (onR q (beside q)).1).getLast?.map (fun p => succeeded p.2) = some false) &&
    succeeded (step (manyR q true) Verif.Toy.cfg (.compose4 300) ((onR q (beside q)).2.at true)).1) = true := by decide +kernel

/-- one context starts a session, the other is given garbage -/
def started (q : Params) : List (Bool × Op) := setups q (.bstr [0x18, 9]) ++ [(false, .process1 [1, 2, 3])]

theorem started_check : (shipped.all fun q =>
    ((onR q (started q)).1.all fun p => !Verif.Toy.isUb p.2.2) &&
    decide (callsOn true (onR q (started q)).1 = done (choice q 3 (.bstr [0x18, 9])).calls ++ []) &&
    succeeded (step (manyR q true) Verif.Toy.cfg (.compose1 300) ((onR q (started q)).2.at true)).1) = true := by decide +kernel

end Psa.Toy

attribute [local irreducible] Psa.Toy.onI Psa.Toy.onR

/-- Non-vacuity of `C92_responder` and `C92_suites_responder`, for each shipped suite: the Responder next to a session that
failed composes message 4. -/
example {q : Psa.Params} (hq : q ∈ shipped) :
    ∃ m s, step (Psa.Toy.manyR q true) Verif.Toy.cfg (.compose4 65000) ((Psa.Toy.onR q (Psa.Toy.beside q)).2.at true) =
      (.ok (.bytes m), s) := by
  have c := List.all_eq_true.1 Psa.Toy.beside_check q hq
  simp only [Bool.and_eq_true, decide_eq_true_eq] at c
  obtain ⟨⟨⟨u, e⟩, -⟩, d⟩ := c
  have r : Program (Psa.Toy.manyR q) Verif.Toy.cfg ⟨fun _ => Ctx.fresh, (Psa.Toy.storeOf q 0x43 false, ()), fun _ => []⟩
      (Psa.Toy.onR q (Psa.Toy.beside q)).1 (Psa.Toy.onR q (Psa.Toy.beside q)).2 := by
    unfold Psa.Toy.onR at u ⊢
    exact Verif.Toy.program_run _ _ u
  refine (C92_suites_responder (qs := fun _ : Bool => q) (i := true) (Psa.Toy.algs_laws hq)
    (Psa.Toy.sender hq (by decide : 3 < 4) 0x43 responderSigns (Psa.Toy.publicOf q 0x21 false))
    (fun _ => Psa.Toy.apart _ _ _) (fun _ => Psa.Toy.retains _ _ _) (fun _ => Or.inr fun _ _ => rfl) r
    (Psa.Toy.inOrder hq 0x43 false) trivial e ?_ (not_dead_if rfl d) (Nat.le_refl 65000)).2 rfl ?_
  · intro p hp
    simp only [List.mem_cons, List.not_mem_nil, or_false] at hp
    rcases hp with rfl | rfl | rfl <;> exact ⟨rfl, nofun⟩
  · intro p hp
    simp only [List.mem_cons, List.not_mem_nil, or_false] at hp
    rcases hp with rfl | rfl | rfl <;> rfl

/-- Non-vacuity of `C92_export`: at the same point it can also export keys. -/
example {q : Psa.Params} (hq : q ∈ shipped) :
    (∃ x s, step (Psa.Toy.manyR q true) Verif.Toy.cfg (.exportSecret 40000 16) ((Psa.Toy.onR q (Psa.Toy.beside q)).2.at true) =
      (.ok (.bytes x), s)) ∧
    ∃ o s, step (Psa.Toy.manyR q true) Verif.Toy.cfg (.exportOscore 16 8 65000 65000)
      ((Psa.Toy.onR q (Psa.Toy.beside q)).2.at true) = (.ok (.oscore o), s) := by
  have c := List.all_eq_true.1 Psa.Toy.beside_check q hq
  simp only [Bool.and_eq_true, decide_eq_true_eq] at c
  obtain ⟨⟨⟨u, e⟩, -⟩, d⟩ := c
  have r : Program (Psa.Toy.manyR q) Verif.Toy.cfg ⟨fun _ => Ctx.fresh, (Psa.Toy.storeOf q 0x43 false, ()), fun _ => []⟩
      (Psa.Toy.onR q (Psa.Toy.beside q)).1 (Psa.Toy.onR q (Psa.Toy.beside q)).2 := by
    unfold Psa.Toy.onR at u ⊢
    exact Verif.Toy.program_run _ _ u
  refine C92_export (E := Psa.Toy.manyR q) (i := true) (suite_sender (Psa.Toy.algs_laws hq)
    (Psa.Toy.sender hq (by decide : 3 < 4) 0x43 responderSigns (Psa.Toy.publicOf q 0x21 false)))
    (suites_steady (qs := fun _ : Bool => q) (Xs := fun _ => Psa.Toy.app Psa.Toy.credR Psa.Toy.credI (Psa.Toy.publicOf q 0x21 false))
      (fun _ => Psa.Toy.apart _ _ _) (fun _ => Psa.Toy.retains _ _ _) (fun _ => Or.inr fun _ _ => rfl) (by decide)) r
    ⟨Psa.Toy.inOrder hq 0x43 false, trivial⟩ e ?_ (l := [.process1, .compose2, .process3]) (by simp [finished]) rfl ?_
    (Or.inr (not_dead_if rfl d)) (Standard.secretLen hq).1 (Standard.secretLen hq).2 (Nat.le_refl 65000) (by decide)
  · intro p hp
    simp only [List.mem_cons, List.not_mem_nil, or_false] at hp
    rcases hp with rfl | rfl | rfl <;> exact ⟨rfl, nofun⟩
  · intro p hp
    simp only [List.mem_cons, List.not_mem_nil, or_false] at hp
    rcases hp with rfl | rfl | rfl <;> rfl

/-- Non-vacuity of `C92_initiator` and `C92_suites_initiator`: next to a session that failed, message 1 is composed. -/
example {q : Psa.Params} (hq : q ∈ shipped) :
    ∃ m s, step (Psa.Toy.manyR q true) Verif.Toy.cfg (.compose1 65000) ((Psa.Toy.onR q (Psa.Toy.started q)).2.at true) =
      (.ok (.bytes m), s) := by
  have c := List.all_eq_true.1 Psa.Toy.started_check q hq
  simp only [Bool.and_eq_true, decide_eq_true_eq] at c
  obtain ⟨⟨u, e⟩, d⟩ := c
  have r : Program (Psa.Toy.manyR q) Verif.Toy.cfg ⟨fun _ => Ctx.fresh, (Psa.Toy.storeOf q 0x43 false, ()), fun _ => []⟩
      (Psa.Toy.onR q (Psa.Toy.started q)).1 (Psa.Toy.onR q (Psa.Toy.started q)).2 := by
    unfold Psa.Toy.onR at u ⊢
    exact Verif.Toy.program_run _ _ u
  exact (C92_suites_initiator (qs := fun _ : Bool => q) (i := true) (Psa.Toy.algs_laws hq)
    (Psa.Toy.sender hq (by decide : 3 < 4) 0x43 initiatorSigns (Psa.Toy.publicOf q 0x21 false))
    (fun _ => Psa.Toy.apart _ _ _) (fun _ => Psa.Toy.retains _ _ _) (fun _ => Or.inr fun _ _ => rfl) r
    (Psa.Toy.inOrder hq 0x43 false) trivial e nofun (not_dead_if rfl d) (Nat.le_refl 65000)).1 rfl

end Verif
