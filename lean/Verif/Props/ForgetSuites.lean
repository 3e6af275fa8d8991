import Verif.Props.Forget
import Verif.Props.SuiteHandshake

/-!
# C70 for the cipher suites that come with the library

Vocabulary: `Verif/SpecForget.lean`, `Verif/SpecSuite.lean`.
-/

namespace Verif

open M Spec Psa

variable {τ : Type} {A : Algs} {q : Params} {X : Psa.App τ} {cfg : Config} {w : World τ} {log : List Ev} {sk : Bytes → Bytes}

/-- **C70 is violated** with each of the shipped cipher suites, for all algorithms below that satisfy the laws of the suite
and whatever calls to PSA fail: in method 0 a secret exported before the first key update can be computed at any later time
from the shared secret in the context, the messages and the credentials. -/
theorem C70_suites_violated (hl : AlgLaws A q) (hq : q ∈ shipped) (hX : Decent A X) (hv : Valid A w.1)
    (hA : Anchored q X w.1 sk) {h t : History} {label n : Nat} {out : Bytes} {s : St (World τ)}
    (g : Proper (suiteEnv A q X) cfg w log (h ++ (.exportSecret label n, .ok (.bytes out)) :: t) s) (hc : complete h)
    (hu : updates h = []) (hm : s.ctx.chosenMethod = 0) (hn : n < 2 ^ 32) :
    ∃ m1 m2 m3 d2 d3 credR credI, Exchanged h m1 m2 m3 ∧ StartsBstr d2 m2 ∧ StartsBstr d3 m3 ∧
      CredUsed (sessionCalls log s) credR ∧ CredUsed (sessionCalls log s) credI ∧
      (firstPrkOut (primsOf A q) s.ctx.suite s.ctx.dhSecret m1 d2 d3 (cred credR) (cred credI)).map
        (exporterOf (primsOf A q) s.ctx.suite label n) = some out :=
  C70_violated g hc hu hm hn (C49_faithful hl hq hX hv hA g.session) (prims_lawful hl)

/-- **C70 is violated** with each of the shipped cipher suites for the OSCORE export, in the same way. -/
theorem C70_suites_oscore_violated (hl : AlgLaws A q) (hq : q ∈ shipped) (hX : Decent A X) (hv : Valid A w.1)
    (hA : Anchored q X w.1 sk) {h t : History} {a b c d : Nat} {o : Oscore} {s : St (World τ)}
    (g : Proper (suiteEnv A q X) cfg w log (h ++ (.exportOscore a b c d, .ok (.oscore o)) :: t) s) (hc : complete h)
    (hu : updates h = []) (hm : s.ctx.chosenMethod = 0) (ha : a < 2 ^ 32) (hb : b < 2 ^ 32) :
    ∃ m1 m2 m3 d2 d3 credR credI, Exchanged h m1 m2 m3 ∧ StartsBstr d2 m2 ∧ StartsBstr d3 m3 ∧
      CredUsed (sessionCalls log s) credR ∧ CredUsed (sessionCalls log s) credI ∧
      (firstPrkOut (primsOf A q) s.ctx.suite s.ctx.dhSecret m1 d2 d3 (cred credR) (cred credI)).map
        (fun k => (exporterOf (primsOf A q) s.ctx.suite 0 a k, exporterOf (primsOf A q) s.ctx.suite 1 b k)) =
        some (o.secret, o.salt) :=
  C70_oscore_violated g hc hu hm ha hb (C49_faithful hl hq hX hv hA g.session) (prims_lawful hl)

/-! ## A concrete case: both parties sign, the Initiator exports, then updates the key twice -/

namespace Psa.Toy

/-- run of a party that signs -/
def signing (q : Params) (own peer : Cred) (b b' : UInt8) (cid : Cid) (ops : List Op) : History × St (World Unit) :=
  Verif.Toy.hist (suiteEnv algs q (app own peer (publicOf q b' true))) Verif.Toy.cfg
    ((choice q 0 cid).settings ++ ops) ⟨Ctx.fresh, (storeOf q b true, ()), []⟩

/-- the Initiator and the Responder -/
def signI (q : Params) (ops : List Op) : History × St (World Unit) := signing q credI credR 0x21 0x43 (.int 5) ops
def signR (q : Params) (ops : List Op) : History × St (World Unit) := signing q credR credI 0x43 0x21 (.bstr [0x18, 9]) ops

/-- what the last call of a run returned -/
def lastBytes (r : History × St (World Unit)) : Bytes :=
  match r.1.getLast? with
  | some (_, .ok (.bytes b)) => b
  | _ => []

def lastOscore (r : History × St (World Unit)) : Oscore :=
  match r.1.getLast? with
  | some (_, .ok (.oscore o)) => o
  | _ => ⟨[], [], [], []⟩

/-- the Initiator's handshake -/
def signed3 (q : Params) : List Op :=
  [.compose1 300, .process2 (lastBytes (signR q [.process1 (lastBytes (signI q [.compose1 300])), .compose2 300])), .compose3 300]

/-- what comes after it -/
def thereafter : List Op := [.exportSecret 40000 20, .exportOscore 16 8 4 4, .keyUpdate [1, 2, 3], .keyUpdate [4]]

/-- the exports -/
def exported1 (q : Params) : Bytes := lastBytes (signI q (signed3 q ++ thereafter.take 1))
def exported2 (q : Params) : Oscore := lastOscore (signI q (signed3 q ++ thereafter.take 2))

theorem thereafter_check : (shipped.all fun q => properB q (signI q (signed3 q ++ thereafter)).1 (signI q (signed3 q ++ thereafter)).2 &&
    Verif.Toy.completeB (signI q (signed3 q)).1 && decide (updates (signI q (signed3 q)).1 = []) &&
    decide ((signI q (signed3 q ++ thereafter)).2.ctx.chosenMethod = 0) &&
    decide ((signI q (signed3 q ++ thereafter)).1 = (signI q (signed3 q)).1 ++
      [(.exportSecret 40000 20, .ok (.bytes (exported1 q))), (.exportOscore 16 8 4 4, .ok (.oscore (exported2 q))),
       (.keyUpdate [1, 2, 3], .ok .unit), (.keyUpdate [4], .ok .unit)])) = true := by decide +kernel

theorem valid_signer {q : Params} (hq : q ∈ shipped) (b : UInt8) : Valid algs (storeOf q b true) := by
  intro i k h
  rw [store_find h]
  simp only [shipped, List.mem_cons, List.not_mem_nil, or_false] at hq
  rcases hq with rfl | rfl | rfl | rfl <;>
    simp [keyOk, attrOf, secretOf, useOf, suite0, suite2, suite4, suite24, algs, p256, p384]

theorem anchored_signer {q : Params} (hq : q ∈ shipped) (b : UInt8) (cred peer : Cred) (pk : Bytes) :
    Anchored q (app cred peer pk) (storeOf q b true) (fun _ => secretOf q b true) := by
  intro w c kid h
  simp only [app, Option.some.injEq, Prod.mk.injEq] at h
  rw [← h.2, show kidNat (kidBytes idMin) = idMin from by decide +kernel]
  refine ⟨by decide, ownOf q b true, rfl, rfl, ?_⟩
  intro c hc
  simp only [shipped, List.mem_cons, List.not_mem_nil, or_false] at hq
  rcases hq with rfl | rfl | rfl | rfl <;> first
    | (cases hc; rfl)
    | cases hc

end Psa.Toy

/-- Non-vacuity: with each suite, after two key updates, what was exported before them follows from the context. -/
example : ∀ q ∈ shipped, ∃ m1 m2 m3 d2 d3 credR credI, Exchanged (Psa.Toy.signI q (Psa.Toy.signed3 q)).1 m1 m2 m3 ∧
    StartsBstr d2 m2 ∧ StartsBstr d3 m3 ∧
    (firstPrkOut (primsOf Psa.Toy.algs q) q.table
        (Psa.Toy.signI q (Psa.Toy.signed3 q ++ Psa.Toy.thereafter)).2.ctx.dhSecret m1 d2 d3 (cred credR) (cred credI)).map
      (exporterOf (primsOf Psa.Toy.algs q) q.table 40000 20) = some (Psa.Toy.exported1 q) := by
  intro q hq
  have h := List.all_eq_true.1 Psa.Toy.thereafter_check q hq
  simp only [Bool.and_eq_true, decide_eq_true_eq] at h
  obtain ⟨⟨⟨⟨h1, h2⟩, h3⟩, h4⟩, h5⟩ := h
  simp only [Psa.Toy.properB, Bool.and_eq_true, decide_eq_true_eq] at h1
  obtain ⟨⟨⟨⟨⟨a1, a2⟩, a3⟩, a4⟩, a5⟩, a6⟩ := h1
  have g : Proper (suiteEnv Psa.Toy.algs q (Psa.Toy.app Psa.Toy.credI Psa.Toy.credR (Psa.Toy.publicOf q 0x43 true))) Verif.Toy.cfg
      (Psa.Toy.storeOf q 0x21 true, ()) [] (Psa.Toy.signI q (Psa.Toy.signed3 q ++ Psa.Toy.thereafter)).1
      (Psa.Toy.signI q (Psa.Toy.signed3 q ++ Psa.Toy.thereafter)).2 := by
    refine ⟨Verif.Toy.hist_session _ _ _ a1, Verif.Toy.settled_of a2, ?_, Verif.Toy.numbers_of a5, Verif.Toy.short_of a6⟩
    rw [a3]
    exact Verif.Toy.regular_of (Psa.Toy.table_small hq).1 (Psa.Toy.table_small hq).2 a4
  rw [h5] at g
  obtain ⟨m1, m2, m3, d2, d3, cR, cI, q1, q2, q3, _, _, e⟩ :=
    C70_suites_violated (t := _ :: _ :: [_]) (Psa.Toy.algs_laws hq) hq (Psa.Toy.decent _ _ _) (Psa.Toy.valid_signer hq _)
      (Psa.Toy.anchored_signer hq _ _ _ _) g (Verif.Toy.complete_of h2) h3 h4 (by decide)
  rw [a3] at e
  exact ⟨m1, m2, m3, d2, d3, cR, cI, q1, q2, q3, e⟩

/-- The exports are not empty, and the key in the context is not the one they came from. -/
example : (shipped.all fun q => decide ((Psa.Toy.exported1 q).length = 20) && decide ((Psa.Toy.exported2 q).secret.length = 16) &&
    decide ((Psa.Toy.signI q (Psa.Toy.signed3 q ++ Psa.Toy.thereafter)).2.ctx.prk ≠
      (Psa.Toy.signI q (Psa.Toy.signed3 q ++ Psa.Toy.thereafter.take 2)).2.ctx.prk)) = true := by
  decide +kernel

end Verif
