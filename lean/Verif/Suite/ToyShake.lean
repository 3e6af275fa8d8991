import Verif.Suite.Toy
import Verif.ToyPeers

/-!
# A handshake with a shipped cipher suite and toy algorithms

Method 3: both sides authenticate with static Diffie-Hellman keys they have imported before.
-/

namespace Verif.Psa.Toy

open Spec

/-- the application's private keys -/
def skI (q : Params) : Bytes := List.replicate q.ecc 0x21
def skR (q : Params) : Bytes := List.replicate q.ecc 0x43

/-- public key -/
def pubOf (q : Params) (sk : Bytes) : Bytes :=
  match q.curve with
  | none => algs.x25519 basePoint (clamp sk)
  | some c => (base c).1

def credI : Cred := .kid [0x41, 0x42] false (.int 5)
def credR : Cred := .kid [0x43, 0x44, 0x45] false (.bstr [1, 2])

def appI (q : Params) : App Unit := app credI credR (pubOf q (skR q))
def appR (q : Params) : App Unit := app credR credI (pubOf q (skI q))

def envI (q : Params) : Env (World Unit) := suiteEnv algs q (appI q)
def envR (q : Params) : Env (World Unit) := suiteEnv algs q (appR q)

def worldI (q : Params) : World Unit := (store q .keyAgreement (skI q), ())
def worldR (q : Params) : World Unit := ({store q .keyAgreement (skR q) with rand := fun n => [9, UInt8.ofNat n]}, ())

/-- set-up calls -/
def conf (q : Params) (cid : Cid) : List Op :=
  [.setMethods [3], .setSuites [q.table], .setCid cid, .bindEad true true, .bindKeys true, .bindCrypto true, .bindCred true]

/-- result of the last call -/
def result (E : Env (World Unit)) (w : World Unit) (ops : List Op) : Bytes :=
  match (Verif.Toy.hist E Verif.Toy.cfg ops ⟨Ctx.fresh, w, []⟩).1.getLast? with
  | some (_, .ok (.bytes b)) => b
  | _ => []

/-- the Initiator's calls up to message 1 and 3, the Responder's up to message 2 and 4 -/
def upto1 (q : Params) : List Op := conf q (.int 5) ++ [.compose1 200]
def upto2 (q : Params) : List Op :=
  conf q (.bstr [0x18, 9]) ++ [.process1 (result (envI q) (worldI q) (upto1 q)), .compose2 300]
def upto3 (q : Params) : List Op :=
  upto1 q ++ [.process2 (result (envR q) (worldR q) (upto2 q)), .compose3 300]
def upto4 (q : Params) : List Op :=
  upto2 q ++ [.process3 (result (envI q) (worldI q) (upto3 q)), .compose4 300]
def opsI (q : Params) : List Op :=
  upto3 q ++ [.process4 (result (envR q) (worldR q) (upto4 q))]

def histI (q : Params) : History := (Verif.Toy.hist (envI q) Verif.Toy.cfg (opsI q) ⟨Ctx.fresh, worldI q, []⟩).1
def histR (q : Params) : History := (Verif.Toy.hist (envR q) Verif.Toy.cfg (upto4 q) ⟨Ctx.fresh, worldR q, []⟩).1
def endI (q : Params) : St (World Unit) := (Verif.Toy.hist (envI q) Verif.Toy.cfg (opsI q) ⟨Ctx.fresh, worldI q, []⟩).2
def endR (q : Params) : St (World Unit) := (Verif.Toy.hist (envR q) Verif.Toy.cfg (upto4 q) ⟨Ctx.fresh, worldR q, []⟩).2

/-- what can be checked about a session -/
def properB (q : Params) (h : History) (s : St (World Unit)) : Bool :=
  (h.all fun p => !Verif.Toy.isUb p.2 && !restarts p.1) && Verif.Toy.settledB h &&
    decide (s.ctx.suite = q.table) && Verif.Toy.regularB (sessionCalls [] s) q.table &&
    Verif.Toy.numbersB s.ctx && Verif.Toy.shortB h

theorem table_small {q : Params} (hq : q ∈ shipped) :
    SuiteSmall q.table ∧ 0 < q.table.eccKey ∧ q.table.eccKey < 2 ^ 32 := by
  simp only [shipped, List.mem_cons, List.not_mem_nil, or_false] at hq
  rcases hq with rfl | rfl | rfl | rfl <;> decide

theorem properI {q : Params} (hq : q ∈ shipped) (h : properB q (histI q) (endI q) = true) :
    Proper (envI q) Verif.Toy.cfg (worldI q) [] (histI q) (endI q) := by
  simp only [properB, Bool.and_eq_true, decide_eq_true_eq] at h
  obtain ⟨⟨⟨⟨⟨h1, h2⟩, h3⟩, h4⟩, h5⟩, h6⟩ := h
  refine ⟨Verif.Toy.hist_session _ _ _ h1, Verif.Toy.settled_of h2, ?_,
    Verif.Toy.numbers_of h5, Verif.Toy.short_of h6⟩
  rw [h3]
  exact Verif.Toy.regular_of (table_small hq).1 (table_small hq).2 h4

theorem properR {q : Params} (hq : q ∈ shipped) (h : properB q (histR q) (endR q) = true) :
    Proper (envR q) Verif.Toy.cfg (worldR q) [] (histR q) (endR q) := by
  simp only [properB, Bool.and_eq_true, decide_eq_true_eq] at h
  obtain ⟨⟨⟨⟨⟨h1, h2⟩, h3⟩, h4⟩, h5⟩, h6⟩ := h
  refine ⟨Verif.Toy.hist_session _ _ _ h1, Verif.Toy.settled_of h2, ?_,
    Verif.Toy.numbers_of h5, Verif.Toy.short_of h6⟩
  rw [h3]
  exact Verif.Toy.regular_of (table_small hq).1 (table_small hq).2 h4

theorem decent (cred peer : Cred) (pk : Bytes) : Decent algs (app cred peer pk) :=
  ⟨fun _ _ => ⟨fun _ _ => id, id⟩, fun _ _ => ⟨fun _ _ => id, id⟩, fun _ _ _ => ⟨fun _ _ => id, id⟩,
    fun _ => ⟨fun _ _ => id, id⟩, fun _ _ => ⟨fun _ _ => id, id⟩⟩

theorem pubOf_eq {q : Params} (hq : q ∈ shipped) {sk : Bytes} : (primsOf algs q).pub sk = pubOf q sk := by
  simp only [shipped, List.mem_cons, List.not_mem_nil, or_false] at hq
  rcases hq with rfl | rfl | rfl | rfl <;> first | rfl | decide +kernel

theorem isPriv_ok {q : Params} (hq : q ∈ shipped) (b : UInt8) : isPriv algs q (List.replicate q.ecc b) := by
  simp only [shipped, List.mem_cons, List.not_mem_nil, or_false] at hq
  rcases hq with rfl | rfl | rfl | rfl <;> simp [isPriv, suite0, suite2, suite4, suite24, algs, p256, p384]

/-- what is supplied as a credential is what the peer accepts -/
def knowsB (pk : Bytes) (L L' : List Ev) : Bool :=
  L.all fun p => L'.all fun q => match p, q with
    | .credFetch (some (c, _)), .credVerify _ (some (c', some pk')) => decide (Spec.cred c' = Spec.cred c) && pk' == pk
    | _, _ => true

theorem knows {q : Params} (hq : q ∈ shipped) {b : UInt8} {L L' : List Ev} {st : Bool}
    (h : knowsB (pubOf q (List.replicate q.ecc b)) L L' = true) :
    Knows (primsOf algs q) (fun _ => List.replicate q.ecc b) st L L' := by
  have hm : ∀ p ∈ L, ∀ q ∈ L', _ := fun p hp q hq => List.all_eq_true.1 (List.all_eq_true.1 h p hp) q hq
  intro c kid i c' pk h1 h2
  have := hm _ h1 _ h2
  simp only [Bool.and_eq_true, decide_eq_true_eq, beq_iff_eq] at this
  exact ⟨this.1, fun _ => ⟨by rw [pubOf_eq hq]; exact this.2, isPriv_ok hq b⟩⟩

theorem store_find {q : Params} {sk : Bytes} {t : KeyType} {i : Nat} {k : Key} (h : (store q t sk).find i = some k) :
    k = ⟨attrOf q t sk.length, sk⟩ := by
  simp only [store, Store.find, List.lookup] at h
  split at h
  · exact (Option.some.inj h).symm
  · cases h

theorem valid {q : Params} (hq : q ∈ shipped) (b : UInt8) :
    Valid algs (store q .keyAgreement (List.replicate q.ecc b)) := by
  intro i k h
  rw [store_find h]
  simp only [shipped, List.mem_cons, List.not_mem_nil, or_false] at hq
  rcases hq with rfl | rfl | rfl | rfl <;>
    simp [keyOk, attrOf, suite0, suite2, suite4, suite24, algs, p256, p384]

theorem anchored {q : Params} (hq : q ∈ shipped) (b : UInt8) (cred peer : Cred) (pk : Bytes) :
    Anchored q (app cred peer pk) (store q .keyAgreement (List.replicate q.ecc b)) (fun _ => List.replicate q.ecc b) := by
  intro w c kid h
  simp only [app, Option.some.injEq, Prod.mk.injEq] at h
  rw [← h.2, show kidNat (kidBytes idMin) = idMin from by decide +kernel]
  refine ⟨by decide, ⟨attrOf q .keyAgreement (List.replicate q.ecc b).length, List.replicate q.ecc b⟩, ?_, rfl, ?_⟩
  · simp [store, Store.find, List.lookup]
  · intro c hc
    simp only [shipped, List.mem_cons, List.not_mem_nil, or_false] at hq
    rcases hq with rfl | rfl | rfl | rfl <;> first
      | (cases hc; rfl)
      | cases hc

end Verif.Psa.Toy
