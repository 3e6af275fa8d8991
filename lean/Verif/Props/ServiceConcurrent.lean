import Verif.Props.Service
import Verif.Props.ConcurrentAnswers

/-!
# C93: exports and key updates while other sessions go on
-/

namespace Verif

open M Spec

section
variable {σ : Type} {E : Env σ} {cfg cfg' : Config} {su : Suite}

/-- successful calls leave a context after a handshake as one -/
theorem serving_run {s s' : St σ} {h : History} (hr : Run E cfg s h s') : Serving su cfg cfg' s.ctx →
    (∀ p ∈ h, succeeded p.2 = true) → ∀ {rest : List Op}, Orderly su s.ctx.oscoreAllowed (called h ++ rest) →
    Serving su cfg cfg' s'.ctx ∧ Orderly su s'.ctx.oscoreAllowed rest := by
  induction hr with
  | nil s => exact fun h _ _ ho => ⟨h, ho⟩
  | @cons s s1 s2 o r t e d _ ih =>
    intro h hs rest ho
    have h0 : succeeded r = true := hs _ (List.mem_cons_self ..)
    have hs' : ∀ p ∈ t, succeeded p.2 = true := fun p hp => hs p (List.mem_cons_of_mem _ hp)
    have same : ∀ {q : Bytes} {a : Bool}, q.length = s.ctx.prk.length →
        s1.ctx = { s.ctx with prk := q, prkState := .out, oscoreAllowed := a } → Serving su cfg cfg' s1.ctx := by
      intro q a hq hc
      rw [hc]
      exact ⟨⟨h.live.keys, h.live.crypto, h.live.cred, h.live.suite⟩, h.status, Or.inr rfl, nofun, h.th, hq.trans h.prk, h.cid, h.peer⟩
    cases o
    case exportSecret label n =>
      obtain ⟨r0, q, ⟨a, rfl, _⟩ | ⟨_, _, rfl⟩ | ⟨_, _, rfl⟩⟩ := step_export e
      · obtain ⟨_, _, _, _, _, _, p, _, _, l1, c1, _⟩ := exportSecret_ok q
        exact ih (same (a := s.ctx.oscoreAllowed) l1 c1) hs' (by rw [c1]; exact ho.2.2)
      · cases h0
      · cases h0
    case keyUpdate b =>
      obtain ⟨r0, q, ⟨a, rfl, _⟩ | ⟨_, _, rfl⟩ | ⟨_, _, rfl⟩⟩ := step_update e
      · obtain ⟨_, _, _, _, p, q, _, _, l1, l2, _, c1⟩ := keyUpdate_ok q
        exact ih (same (l2.trans l1) c1) hs' (by rw [c1]; exact ho.2)
      · cases h0
      · cases h0
    case exportOscore a b x y =>
      obtain ⟨r0, q, ⟨a, rfl, _⟩ | ⟨_, _, rfl⟩ | ⟨_, _, rfl⟩⟩ := step_oscore e
      · obtain ⟨_, _, _, _, _, _, _, _, _, _, p, _, _, _, l1, c1, _⟩ := exportOscore_ok q
        exact ih (same l1 c1) hs' (by rw [c1]; exact ho.2.2.2.2.2)
      · cases h0
      · cases h0
    all_goals exact (ho : False).elim

end

section
variable {σ ι : Type} [DecidableEq ι] {E : ι → Env σ} {I : σ → Prop} {cfg : Config} {P : Prims}
  {V : Bytes → Bytes → Bytes → Bool} {su : Suite} {k : Bounds} {signs : Nat → Bool} {p : Identity} {g : Choice} {i : ι}
  {w w1 w2 : World ι σ} {h1 h2 : List (ι × Op × Res Out)} {hist : History}

/-- **C93** on a device with several sessions. A handshake was completed on one context (in `h1`), whatever the peer sent; then
exports, key updates and OSCORE exports were called on it (in `h2`), one OSCORE export per key update. Calls on any other
contexts, with any results, go on meanwhile. The next such call succeeds. -/
theorem C93_concurrent (hS : Sender P V su k signs I (E i) cfg p g) (hk : Steady E cfg I) (hp1 : Program E cfg w h1 w1)
    (hp2 : Program E cfg w1 h2 w2) (hj : I w.env) (hc : callsOn i h1 = done g.calls ++ hist) (hu : Undisturbed hist)
    {l : List Call} (hl : l ∈ finished) (hm : messages hist = l) (hx : NoExporter hist)
    (ha : l.length = 4 ∨ ¬ Dead (E i) cfg (w1.at i)) (hs : ∀ p ∈ callsOn i h2, succeeded p.2 = true) {o : Op}
    (ho : Orderly su true (called (callsOn i h2) ++ [o])) :
    ∃ x s, step (E i) cfg o (w2.at i) = (.ok x, s) := by
  have hj2 := C92_steady hk hp2 (C92_steady hk hp1 hj)
  obtain ⟨s, s1, e, hr, ha⟩ : ∃ s s1, s1.ctx = w1.ctx i ∧ Run replay cfg s (done g.calls ++ hist) s1 ∧
      (l.length = 4 ∨ ¬ Dead replay cfg s1) := by
    rcases ha with ha | ha
    · obtain ⟨t, hr⟩ := replay_program hp1 i []
      rw [hc] at hr
      exact ⟨_, _, rfl, hr, Or.inl ha⟩
    · obtain ⟨s, s1, e, hr, ha⟩ := replayed hp1 hc ha
      exact ⟨s, s1, e, hr, Or.inr ha⟩
  obtain ⟨c0, e3, f, st⟩ := hS.replayed.complete hr hu hl hm hx ha
  have sv : Serving su cfg cfg s1.ctx := f.after.serving (st.imp And.left And.left) f.th f.prk (by rw [e3]; exact hS.cid) f.cid
  have al := f.after.oscore
  rw [e] at sv al
  obtain ⟨t, hr2⟩ := replay_program hp2 i []
  obtain ⟨sv2, ho2⟩ := serving_run hr2 sv hs (rest := [o]) (by rw [show (w1.ctx i).oscoreAllowed = true from al]; exact ho)
  obtain ⟨s', r⟩ := serves_run hS.host [o] (w2.at i) sv2 hj2 ho2
  cases o
  case exportSecret => cases r with | cons q _ _ => exact ⟨_, _, q⟩
  case keyUpdate => cases r with | cons q _ _ => exact ⟨_, _, q⟩
  case exportOscore => cases r with | cons q _ _ => exact ⟨_, _, q⟩
  all_goals exact (ho2 : False).elim

end

section
open Psa
variable {A : Algs} {k : Bounds} {signs : Nat → Bool} {τ ι : Type} [DecidableEq ι] {J : τ → Prop} {cfg : Config} {id : Nat}
  {own : Key} {p : Identity} {g : Choice} {qs : ι → Params} {Xs : ι → Psa.App τ} {i : ι}
  {w w1 w2 : Spec.World ι (Psa.World τ)} {h1 h2 : List (ι × Op × Res Out)} {hist : History}

/-- **C93** for the shipped suites on a device with several sessions, which share a key store that is in order at the start. -/
theorem C93_suites_concurrent (ha' : AlgLaws A (qs i)) (hS : SuiteSender A (qs i) k signs (Xs i) J cfg id own p g)
    (hX : ∀ i, Apart (Xs i)) (hJ : ∀ i, Retains (Xs i) J) (hn : ∀ i, NeverOut cfg (Xs i))
    (hp1 : Program (fun i => suiteEnv A (qs i) (Xs i)) cfg w h1 w1) (hp2 : Program (fun i => suiteEnv A (qs i) (Xs i)) cfg w1 h2 w2)
    (o : InOrder A (qs i) id own w.env.1) (j : J w.env.2) (hc : callsOn i h1 = done g.calls ++ hist) (hu : Undisturbed hist)
    {l : List Call} (hl : l ∈ finished) (hm : messages hist = l) (hx : NoExporter hist)
    (ha : l.length = 4 ∨ ¬ Dead (suiteEnv A (qs i) (Xs i)) cfg (w1.at i)) (hs : ∀ p ∈ callsOn i h2, succeeded p.2 = true) {c : Op}
    (ho : Orderly (qs i).table true (called (callsOn i h2) ++ [c])) :
    ∃ x s, step (suiteEnv A (qs i) (Xs i)) cfg c (w2.at i) = (.ok x, s) :=
  C93_concurrent (E := fun i => suiteEnv A (qs i) (Xs i)) (i := i) (suite_sender ha' hS)
    (suites_steady (Xs := Xs) hX hJ hn hS.kid.2) hp1 hp2 ⟨o, j⟩ hc hu hl hm hx ha hs ho

end

/-! ## A concrete case -/

namespace Psa.Toy

/-- after message_3: exports and a key update on one context, calls that fail on the other one in between -/
def onwards (q : Params) : List (Bool × Op × Res Out) × Spec.World Bool (World Unit) :=
  Verif.Toy.program (manyR q) Verif.Toy.cfg
    [(true, .exportOscore 16 8 65000 65000), (false, .process3 [4, 5]), (true, .exportSecret 40000 16), (false, .keyUpdate [7]),
      (true, .keyUpdate [1, 2, 3]), (false, .compose1 300)] (onR q (beside q)).2

theorem onwards_check : (shipped.all fun q =>
    ((onwards q).1.all fun p => !Verif.Toy.isUb p.2.2) &&
    ((callsOn true (onwards q).1).all fun p => succeeded p.2) && ((callsOn false (onwards q).1).all fun p => !succeeded p.2) &&
    decide (called (callsOn true (onwards q).1) = [.exportOscore 16 8 65000 65000, .exportSecret 40000 16, .keyUpdate [1, 2, 3]])) = true := by
  decide +kernel

end Psa.Toy

attribute [local irreducible] Psa.Toy.onI Psa.Toy.onR

/-- Non-vacuity of `C93_concurrent` and `C93_suites_concurrent`, for each shipped suite: after a key update, an OSCORE context
can be exported again, next to a session that failed. -/
example {q : Psa.Params} (hq : q ∈ shipped) :
    ∃ x s, step (Psa.Toy.manyR q true) Verif.Toy.cfg (.exportOscore 16 8 65000 65000) ((Psa.Toy.onwards q).2.at true) = (.ok x, s) := by
  have c := List.all_eq_true.1 Psa.Toy.beside_check q hq
  simp only [Bool.and_eq_true, decide_eq_true_eq] at c
  obtain ⟨⟨⟨u, e⟩, -⟩, d⟩ := c
  have c' := List.all_eq_true.1 Psa.Toy.onwards_check q hq
  rw [Bool.and_eq_true, Bool.and_eq_true, Bool.and_eq_true, decide_eq_true_eq] at c'
  obtain ⟨⟨⟨u', s'⟩, -⟩, e'⟩ := c'
  have r : Program (Psa.Toy.manyR q) Verif.Toy.cfg ⟨fun _ => Ctx.fresh, (Psa.Toy.storeOf q 0x43 false, ()), fun _ => []⟩
      (Psa.Toy.onR q (Psa.Toy.beside q)).1 (Psa.Toy.onR q (Psa.Toy.beside q)).2 := by
    unfold Psa.Toy.onR at u ⊢
    exact Verif.Toy.program_run _ _ u
  have r' : Program (Psa.Toy.manyR q) Verif.Toy.cfg (Psa.Toy.onR q (Psa.Toy.beside q)).2 (Psa.Toy.onwards q).1
      (Psa.Toy.onwards q).2 := Verif.Toy.program_run _ _ u'
  refine C93_suites_concurrent (qs := fun _ : Bool => q) (i := true) (Psa.Toy.algs_laws hq)
    (Psa.Toy.sender hq (by decide : 3 < 4) 0x43 responderSigns (Psa.Toy.publicOf q 0x21 false))
    (fun _ => Psa.Toy.apart _ _ _) (fun _ => Psa.Toy.retains _ _ _) (fun _ => Or.inr fun _ _ => rfl) r r'
    (Psa.Toy.inOrder hq 0x43 false) trivial e ?_ (l := [.process1, .compose2, .process3]) (by simp [finished]) rfl ?_
    (Or.inr (not_dead_if rfl d)) (List.all_eq_true.1 s') ?_
  · intro p hp
    simp only [List.mem_cons, List.not_mem_nil, or_false] at hp
    rcases hp with rfl | rfl | rfl <;> exact ⟨rfl, nofun⟩
  · intro p hp
    simp only [List.mem_cons, List.not_mem_nil, or_false] at hp
    rcases hp with rfl | rfl | rfl <;> rfl
  · rw [e']
    simp [Orderly, SecretLen]

end Verif
