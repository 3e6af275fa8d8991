import Verif.SpecSuiteAnswers
import Verif.Props.Answers
import Verif.Props.SuitePeer

/-!
# C65 for the shipped suites: a peer cannot make the calls that answer it fail
-/

namespace Verif

open Spec Psa

variable {τ : Type} {A : Algs} {q : Params} {X : Psa.App τ} {k : Bounds} {signs : Nat → Bool} {J : τ → Prop}
  {cfg : Config} {id : Nat} {own : Key} {p : Identity} {g : Choice}

/-- An application with a shipped suite is a party in the sense of C65. -/
theorem suite_sender (hl : AlgLaws A q) (h : SuiteSender A q k signs X J cfg id own p g) :
    Sender (primsOf A q) (validSig A q) q.table k signs (Psa.Fine A q id own J) (suiteEnv A q X) cfg p g where
  lawful := prims_lawful hl
  suite := suite_ok h.shipped
  sized := prims_sized hl h.shipped
  honest := suite_honest hl h.shipped h.hosts h.derive.2
  room := h.room
  items := h.items
  derive := h.derive.1
  keystream := h.keystream
  cids := h.cids
  choice := h.choice
  cid := h.cid
  methods := h.methods
  owns me hm := suite_owns hl h.shipped h.hosts h.kid (h.key me hm)
  credOk := h.credOk

section
variable {s s1 : St (World τ)} {hist : History} {n : Nat}

/-- **C65** for the shipped suites, Initiator. The key store and the application are in order when the call is made. Message 1
is composed after the settings; message 3 is composed after any message_2 that was accepted, if its G_Y is a public key. -/
theorem C65_suites_initiator (hl : AlgLaws A q) (h : SuiteSender A q k initiatorSigns X J cfg id own p g)
    (hr : Run (suiteEnv A q X) cfg s (done g.calls ++ hist) s1) (hu : Undisturbed hist)
    (ha : ¬ Dead (suiteEnv A q X) cfg s1) (o : InOrder A q id own s1.env.1) (j : J s1.env.2) (hn : 65000 ≤ n) :
    (messages hist = [] → ∃ m s2, step (suiteEnv A q X) cfg (.compose1 n) s1 = (.ok (.bytes m), s2)) ∧
      (messages hist = [.compose1, .process2] → GoodGy (primsOf A q) q.table hist →
        ∃ m s2, step (suiteEnv A q X) cfg (.compose3 n) s1 = (.ok (.bytes m), s2)) :=
  ⟨fun hm => C65_message1 (suite_sender hl h) hr hu hm ha ⟨o, j⟩ hn,
    fun hm hg => C65_message3 (suite_sender hl h) hr hu hm hg ha ⟨o, j⟩ hn⟩

/-- **C65** for the shipped suites, Responder. Message 2 is composed after any message_1 that was accepted, if its G_X is a
public key; message 4 is composed after any message_3 that was accepted. -/
theorem C65_suites_responder (hl : AlgLaws A q) (h : SuiteSender A q k responderSigns X J cfg id own p g)
    (hr : Run (suiteEnv A q X) cfg s (done g.calls ++ hist) s1) (hu : Undisturbed hist)
    (ha : ¬ Dead (suiteEnv A q X) cfg s1) (o : InOrder A q id own s1.env.1) (j : J s1.env.2) (hn : 65000 ≤ n) :
    (messages hist = [.process1] → GoodGx (primsOf A q) hist →
        ∃ m s2, step (suiteEnv A q X) cfg (.compose2 n) s1 = (.ok (.bytes m), s2)) ∧
      (messages hist = [.process1, .compose2, .process3] → NoExporter hist →
        ∃ m s2, step (suiteEnv A q X) cfg (.compose4 n) s1 = (.ok (.bytes m), s2)) :=
  ⟨fun hm hg => C65_message2 (suite_sender hl h) hr hu hm hg ha ⟨o, j⟩ hn,
    fun hm hx => C65_message4 (suite_sender hl h) hr hu hm hx ha ⟨o, j⟩ hn⟩

/-- **C65** for the shipped suites, exporter. Once a handshake is complete, whatever the peer sent, secrets and OSCORE keys can
be exported. -/
theorem C65_suites_export (hl : AlgLaws A q) (h : SuiteSender A q k signs X J cfg id own p g)
    (hr : Run (suiteEnv A q X) cfg s (done g.calls ++ hist) s1) (hu : Undisturbed hist) {l : List Call} (hf : l ∈ finished)
    (hm : messages hist = l) (hx : NoExporter hist) (ha : l.length = 4 ∨ ¬ Dead (suiteEnv A q X) cfg s1)
    (o : InOrder A q id own s1.env.1) (j : J s1.env.2) {a b label : Nat} (ha' : SecretLen q.table a)
    (hb : SecretLen q.table b) (hn : 65000 ≤ n) (hlab : 32768 ≤ label ∧ label ≤ 65535) :
    (∃ x s2, step (suiteEnv A q X) cfg (.exportSecret label a) s1 = (.ok (.bytes x), s2)) ∧
      ∃ e s2, step (suiteEnv A q X) cfg (.exportOscore a b n n) s1 = (.ok (.oscore e), s2) :=
  C65_export (suite_sender hl h) hr hu hf hm hx ha ⟨o, j⟩ ha' hb hn hlab

end

/-! ## Concrete peers -/

namespace Psa.Toy

theorem sender {q : Params} (hq : q ∈ shipped) {me : Nat} (hm : me < 4) (b : UInt8) (signs : Nat → Bool) (pk : Bytes) :
    SuiteSender algs q Verif.Toy.bounds signs (app credR credI pk) (fun _ => True) Verif.Toy.cfg idMin (ownOf q b (signs me))
      (party q credR b (signs me)) (choice q me (.bstr [0x18, 9])) where
  shipped := hq
  hosts := ⟨fun _ _ _ => ⟨rfl, rfl, trivial⟩, fun _ _ _ => ⟨⟨[], rfl, by decide, by simp, by decide⟩, rfl, trivial⟩,
    fun _ _ _ _ => ⟨rfl, rfl, trivial⟩, fun _ _ => ⟨rfl, rfl, trivial⟩⟩
  room := (suiteParties hq hm).roomI
  items := by decide
  derive := (suiteParties hq hm).derive
  keystream := (suiteParties hq hm).keystream
  cids := by decide
  choice := (suiteParties hq hm).choiceR
  cid := (suiteParties hq hm).cidR
  methods := by simp [choice, hm]
  kid := ⟨rfl, by decide⟩
  key me' h := by
    cases List.mem_singleton.1 h
    exact ownKey hq _ _ _
  credOk := (suiteParties hq hm).credR

/-- a Responder with method 3, set up, and the calls that follow -/
def answering (q : Params) (ops : List Op) : History × St (World Unit) :=
  Verif.Toy.hist (suiteEnv algs q (app credR credI (publicOf q 0x21 false))) Verif.Toy.cfg
    ((choice q 3 (.bstr [0x18, 9])).calls ++ ops) ⟨Ctx.fresh, (storeOf q 0x43 false, ()), []⟩

/-- the last message of this history -/
def lastOf (h : History) : Bytes :=
  match h.getLast? with
  | some (_, .ok (.bytes b)) => b
  | _ => []

/-- its Initiator -/
def calling (q : Params) (ops : List Op) : History × St (World Unit) :=
  Verif.Toy.hist (suiteEnv algs q (app credI credR (publicOf q 0x43 false))) Verif.Toy.cfg
    ((choice q 3 (.int 5)).calls ++ .compose1 300 :: ops) ⟨Ctx.fresh, (storeOf q 0x21 false, ()), []⟩

/-- message_1 and message_3, each with a stray byte at the end, which no conforming Initiator sends -/
def stray1 (q : Params) : Bytes := lastOf (calling q []).1 ++ [0xff]
@[inherit_doc stray1]
def stray3 (q : Params) : Bytes :=
  lastOf (calling q [.process2 (lastOf (answering q [.process1 (lastOf (calling q []).1), .compose2 300]).1), .compose3 300]).1 ++
    [0xff]

/-- the Responder's calls up to message_1 and message_3 -/
def until1 (q : Params) : List Op := [.process1 (stray1 q)]
@[inherit_doc until1]
def until3 (q : Params) : List Op := [.process1 (lastOf (calling q []).1), .compose2 300, .process3 (stray3 q)]

/-- the Responder sees these messages and can answer them; in message_1 there is a public key -/
theorem answers_check : (shipped.all fun q =>
    ((answering q (until1 q)).1.all fun p => !Verif.Toy.isUb p.2) && ((answering q (until3 q)).1.all fun p => !Verif.Toy.isUb p.2) &&
    decide ((answering q (until1 q)).1 = done (choice q 3 (.bstr [0x18, 9])).calls ++ [(.process1 (stray1 q), .ok .unit)]) &&
    decide ((answering q (until3 q)).1 = done (choice q 3 (.bstr [0x18, 9])).calls ++ [(.process1 (lastOf (calling q []).1), .ok .unit),
      (.compose2 300, .ok (.bytes (lastOf (answering q [.process1 (lastOf (calling q []).1), .compose2 300]).1))),
      (.process3 (stray3 q), .ok .unit)]) &&
    decide ((answering q (until1 q)).2.env.1.keys = (storeOf q 0x43 false).keys ∧
      (answering q (until3 q)).2.env.1.keys = (storeOf q 0x43 false).keys) &&
    succeeded (step (suiteEnv algs q (app credR credI (publicOf q 0x21 false))) Verif.Toy.cfg (.compose2 300) (answering q (until1 q)).2).1 &&
    succeeded (step (suiteEnv algs q (app credR credI (publicOf q 0x21 false))) Verif.Toy.cfg (.compose4 300) (answering q (until3 q)).2).1 &&
    !(getMsg1 Verif.Toy.cfg.dec (stray1 q)).2.gx.isEmpty &&
    (List.range 10).any fun n => decide ((getMsg1 Verif.Toy.cfg.dec (stray1 q)).2.gx =
      pubOf q (fitLen q.ecc ((storeOf q 0x21 false).rand n)))) = true := by
  decide +kernel

theorem answering_run {q : Params} {ops : List Op} {t : History} (h : ((answering q ops).1.all fun p => !Verif.Toy.isUb p.2) = true)
    (ht : (answering q ops).1 = done (choice q 3 (.bstr [0x18, 9])).calls ++ t) :
    Run (suiteEnv algs q (app credR credI (publicOf q 0x21 false))) Verif.Toy.cfg ⟨Ctx.fresh, (storeOf q 0x43 false, ()), []⟩
      (done (choice q 3 (.bstr [0x18, 9])).calls ++ t) (answering q ops).2 := by
  rw [← ht]; exact Verif.Toy.hist_run _ _ h

set_option maxRecDepth 100000 in
theorem answers_store {q : Params} (hq : q ∈ shipped) : Later (storeOf q 0x43 false) (answering q (until1 q)).2.env.1 ∧
    Later (storeOf q 0x43 false) (answering q (until3 q)).2.env.1 := by
  have c := List.all_eq_true.1 answers_check q hq
  simp only [Bool.and_eq_true, decide_eq_true_eq] at c
  obtain ⟨⟨⟨⟨_, c1, c2⟩, _⟩, _⟩, _⟩ := c.1
  simp only [shipped, List.mem_cons, List.not_mem_nil, or_false] at hq
  rcases hq with rfl | rfl | rfl | rfl <;>
    exact ⟨⟨c1, rfl, rfl, rfl, Nat.zero_le _⟩, ⟨c2, rfl, rfl, rfl, Nat.zero_le _⟩⟩

end Psa.Toy

attribute [local irreducible] Psa.Toy.answering Psa.Toy.calling Psa.Toy.stray1 Psa.Toy.stray3

theorem not_dead_if {σ : Type} {E : Env σ} {cfg : Config} {s : St σ} {o : Op} {c : Call} (hc : callOf o = some c)
    (h : succeeded (step E cfg o s).1 = true) : ¬ Dead E cfg s := by
  cases hx : (step E cfg o s).1 with
  | ok x => exact not_dead_of hc hx
  | _ => rw [hx] at h; cases h

/-- Non-vacuity of `C65_suites_responder`, for each shipped suite: a message_1 and a message_3 with a stray byte at the end are
accepted and answered. -/
example {q : Params} (hq : q ∈ shipped) :
    (∃ m s2, step (suiteEnv Psa.Toy.algs q (Psa.Toy.app Psa.Toy.credR Psa.Toy.credI (Psa.Toy.publicOf q 0x21 false))) Verif.Toy.cfg
      (.compose2 65000) (Psa.Toy.answering q (Psa.Toy.until1 q)).2 = (.ok (.bytes m), s2)) ∧
    ∃ m s2, step (suiteEnv Psa.Toy.algs q (Psa.Toy.app Psa.Toy.credR Psa.Toy.credI (Psa.Toy.publicOf q 0x21 false))) Verif.Toy.cfg
      (.compose4 65000) (Psa.Toy.answering q (Psa.Toy.until3 q)).2 = (.ok (.bytes m), s2) := by
  have c := List.all_eq_true.1 Psa.Toy.answers_check q hq
  simp only [Bool.and_eq_true, decide_eq_true_eq, Bool.not_eq_true', List.any_eq_true] at c
  obtain ⟨⟨⟨⟨⟨⟨⟨⟨u1, u3⟩, t1⟩, t3⟩, -⟩, d1⟩, d3⟩, hne⟩, j, -, hj⟩ := c
  have H := Psa.Toy.sender hq (by decide : 3 < 4) 0x43 responderSigns (Psa.Toy.publicOf q 0x21 false)
  have o := Psa.Toy.answers_store hq
  constructor
  · have r := Psa.Toy.answering_run u1 t1
    refine (C65_suites_responder (Psa.Toy.algs_laws hq) H r ?_ (not_dead_if rfl d1)
      ((Psa.Toy.inOrder hq 0x43 false).later o.1) trivial (Nat.le_refl _)).1 rfl ?_
    · intro p hp; cases List.mem_singleton.1 hp; exact ⟨rfl, nofun⟩
    · intro m1 r me su gx hm h
      cases List.mem_singleton.1 hm
      have := startsMessage1_unique h (getMsg1_start (d := Verif.Toy.cfg.dec) (by
        intro h0; rw [h0] at hne; cases hne))
      exact ⟨_, (Psa.Toy.inOrder hq 0x21 false).draws j (Nat.zero_le _), (this.2.2.trans hj).trans (Psa.Toy.pubOf_eq hq).symm⟩
  · have r := Psa.Toy.answering_run u3 t3
    refine (C65_suites_responder (Psa.Toy.algs_laws hq) H r ?_ (not_dead_if rfl d3)
      ((Psa.Toy.inOrder hq 0x43 false).later o.2) trivial (Nat.le_refl _)).2 rfl ?_
    · intro p hp
      simp only [List.mem_cons, List.not_mem_nil, or_false] at hp
      rcases hp with rfl | rfl | rfl <;> exact ⟨rfl, nofun⟩
    · intro p hp
      simp only [List.mem_cons, List.not_mem_nil, or_false] at hp
      rcases hp with rfl | rfl | rfl <;> rfl

/-- Non-vacuity of `C65_suites_export`: after that message_3, secrets can be exported. -/
example {q : Params} (hq : q ∈ shipped) :
    ∃ x s2, step (suiteEnv Psa.Toy.algs q (Psa.Toy.app Psa.Toy.credR Psa.Toy.credI (Psa.Toy.publicOf q 0x21 false))) Verif.Toy.cfg
      (.exportSecret 40000 16) (Psa.Toy.answering q (Psa.Toy.until3 q)).2 = (.ok (.bytes x), s2) := by
  have c := List.all_eq_true.1 Psa.Toy.answers_check q hq
  simp only [Bool.and_eq_true, decide_eq_true_eq] at c
  obtain ⟨⟨⟨⟨⟨⟨⟨⟨-, u3⟩, -⟩, t3⟩, -⟩, -⟩, d3⟩, -⟩, -⟩ := c
  have H := Psa.Toy.sender hq (by decide : 3 < 4) 0x43 responderSigns (Psa.Toy.publicOf q 0x21 false)
  have r := Psa.Toy.answering_run u3 t3
  refine (C65_suites_export (Psa.Toy.algs_laws hq) H r ?_ (l := [.process1, .compose2, .process3]) (by simp [finished]) rfl ?_
    (Or.inr (not_dead_if rfl d3)) ((Psa.Toy.inOrder hq 0x43 false).later (Psa.Toy.answers_store hq).2) trivial
    (Standard.secretLen hq).1 (Standard.secretLen hq).2 (Nat.le_refl _) ⟨by decide, by decide⟩).1
  · intro p hp
    simp only [List.mem_cons, List.not_mem_nil, or_false] at hp
    rcases hp with rfl | rfl | rfl <;> exact ⟨rfl, nofun⟩
  · intro p hp
    simp only [List.mem_cons, List.not_mem_nil, or_false] at hp
    rcases hp with rfl | rfl | rfl <;> rfl

/-- The premises of `C65_suites_initiator` can be met with the algorithms of the standards, for all keys. -/
example {q : Params} (hq : q ∈ shipped) {m : Nat} (hm : m < 4) {x : Bytes} (hx : StandardSecret q (initiatorSigns m) x)
    {r : Nat → Bytes} (hr : ∀ n, isPriv Real.algs q (fitLen q.ecc (r n))) :
    SuiteSender Real.algs q Verif.Toy.bounds
      initiatorSigns (Psa.Toy.app Standard.local_ Psa.Toy.credI []) (fun _ => True) Verif.Toy.cfg idMin
      (Standard.own q (initiatorSigns m) x) (Standard.party q Standard.local_ (initiatorSigns m) x)
      (Psa.Toy.choice q m (.int 5)) ∧ InOrder Real.algs q idMin (Standard.own q (initiatorSigns m) x)
        (Standard.store q (initiatorSigns m) x r) := by
  refine ⟨⟨hq, ⟨fun _ _ _ => ⟨rfl, rfl, trivial⟩, fun _ _ _ => ⟨⟨[], rfl, by decide, by simp, by decide⟩, rfl, trivial⟩,
    fun _ _ _ _ => ⟨rfl, rfl, trivial⟩, fun _ _ => ⟨rfl, rfl, trivial⟩⟩, (Psa.Toy.suiteParties hq hm).roomI, by decide,
    (Psa.Toy.suiteParties hq hm).derive,
    show (idCred Standard.local_).length + Verif.Toy.bounds.ead + 2100 ≤ Verif.Toy.bounds.expand by decide +kernel, by decide,
    (Psa.Toy.suiteParties hq hm).choiceI, ⟨by decide, by decide⟩, by simp [Psa.Toy.choice, hm], ⟨rfl, by decide⟩, ?_, ?_⟩,
    Standard.inOrder _ _ hr⟩
  · intro me h
    cases List.mem_singleton.1 h
    exact C58_own_key hx _ _
  · exact ⟨⟨_, (Rfc.denotes_sent (.kid _ rfl (by unfold SizeOk; decide))).2.1⟩, show 3 ≤ 4 by decide, show 3 ≤ 4 by decide,
      nofun, show (idCred Standard.local_).length + (cred Standard.local_).length ≤ 40000 by decide +kernel⟩

end Verif
