import Verif.SpecService
import Verif.Props.SuiteAnswers

/-!
# C93: exports and key updates after a handshake

Vocabulary: `Verif/SpecService.lean`.
-/

namespace Verif

open M Spec

section
variable {σ : Type} {E : Env σ} {I : σ → Prop} {cfg cfg' : Config} {P : Prims} {V : Bytes → Bytes → Bytes → Bool} {su : Suite}
  {k : Bounds} {me : Nat} {c c0 : Ctx}

/-- a context after a handshake -/
structure Serving (su : Suite) (cfg cfg' : Config) (c : Ctx) : Prop where
  live : Live su c
  status : c.status = .completed ∨ c.status = .persisted
  key : c.prkState = .prk4e3m ∨ c.prkState = .out
  hash : c.prkState = .prk4e3m → c.thState = .th4
  th : c.th.length = su.hash
  prk : c.prk.length = su.hash
  cid : CidOk cfg' c.cid
  peer : CidOk cfg c.peerCid

theorem prkOutOf_length (H : Host P su k I E cfg) (h : c.prk.length = su.hash) : (prkOutOf P su c).length = su.hash := by
  unfold prkOutOf
  split
  · exact H.sized.expand _ _ _
  · exact h

theorem compNewPrkOut_gets (H : Host P su k I E cfg) (hc : Live su c) (hp : c.prkState = .out) (hk : c.prk.length = su.hash)
    {b : Bytes} (h0 : 0 < b.length) (h1 : b.length ≤ 60000) :
    Gets I (compNewPrkOut E cfg b) c () { c with prk := P.kdf c.prk 11 b su.hash, prkState := .out } := by
  have z := H.suite.hash
  have z3 := bstrOh_le3 (n := su.hash) (by omega)
  have z4 := bstrOh_le3 (n := b.length) (by omega)
  unfold compNewPrkOut
  refine Gets.getCtx.bind ((Gets.require (by rw [hp]; rfl)).bind ?_)
  rw [hc.suite, hk, i32_small (by omega : su.hash < 65536), intMemReq_nat (by omega)]
  refine (memAlloc_gets H.honest H.room (by omega)).bind ?_
  exact (expandInfo_gets H hc hk (by omega) (by omega) (by omega) (by omega) (by omega)).bind (Gets.modCtx.cast rfl)

theorem keyUpdate_gets (H : Host P su k I E cfg) (h : Serving su cfg cfg' c) {b : Bytes} (h0 : 0 < b.length) (h1 : b.length ≤ 60000) :
    Gets I (keyUpdate E cfg b) c ()
      { c with prk := P.kdf (prkOutOf P su c) 11 b su.hash, prkState := .out, oscoreAllowed := true } := by
  have l := prkOutOf_length H h.prk
  unfold keyUpdate
  refine (Gets.require (by simp only [bne_iff_ne, ne_eq]; omega)).bind (Gets.getCtx.bind ((Gets.require ?_).bind (Gets.modCtx.bind ?_)))
  · have h1 : Status.completed.toNat ≤ c.status.toNat := by rcases h.status with h | h <;> rw [h] <;> decide
    have h2 : PrkState.prk4e3m.toNat ≤ c.prkState.toNat := by rcases h.key with h | h <;> rw [h] <;> decide
    simp only [Bool.and_eq_true, decide_eq_true_eq]
    exact ⟨h1, h2⟩
  refine (ensurePrkOut_gets H (c := { c with status := .aborted }) ⟨h.live.keys, h.live.crypto, h.live.cred, h.live.suite⟩
    h.hash h.key h.th h.prk).bind ?_
  have e : prkOutOf P su { c with status := .aborted } = prkOutOf P su c := rfl
  rw [e]
  generalize prkOutOf P su c = p at *
  refine Gets.bind (a := ()) (c1 := { c with prk := P.kdf p 11 b su.hash, prkState := .out, status := .aborted })
    (Gets.mapErr ?_) (Gets.modCtx.cast rfl)
  exact compNewPrkOut_gets H (c := { c with prk := p, prkState := .out, status := .aborted })
    ⟨h.live.keys, h.live.crypto, h.live.cred, h.live.suite⟩ rfl l h0 h1

theorem exportOscore_gets (H : Host P su k I E cfg) (h : Serving su cfg cfg' c) (ho : c.oscoreAllowed = true)
    {a b x y : Nat} (ha : SecretLen su a) (hb : SecretLen su b) (hx : 65000 ≤ x) (hy : 65000 ≤ y) :
    Gets I (exportOscore E cfg a b x y) c
      ⟨exporterOf P su 0 a (prkOutOf P su c), exporterOf P su 1 b (prkOutOf P su c), oscoreIdOf c.peerCid, oscoreIdOf c.cid⟩
      { c with prk := prkOutOf P su c, prkState := .out, oscoreAllowed := false } := by
  have ha' := secretLen_oh ha
  have hb' := secretLen_oh hb
  unfold exportOscore
  refine (Gets.require ?_).bind (Gets.getCtx.bind ((Gets.require ho).bind ((Gets.require ?_).bind (Gets.modCtx.bind ?_))))
  · simp only [Bool.and_eq_true, bne_iff_ne, ne_eq]; omega
  · have h1 : Status.completed.toNat ≤ c.status.toNat := by rcases h.status with h | h <;> rw [h] <;> decide
    have h2 : PrkState.prk4e3m.toNat ≤ c.prkState.toNat := by rcases h.key with h | h <;> rw [h] <;> decide
    simp only [Bool.and_eq_true, decide_eq_true_eq]
    exact ⟨h1, h2⟩
  refine (exportSecret_gets H (c := { c with status := .aborted, oscoreAllowed := false })
    ⟨h.live.keys, h.live.crypto, h.live.cred, h.live.suite⟩ h.hash h.key h.th h.prk (Or.inl rfl) ha').mapErr.bind ?_
  have e : prkOutOf P su { c with status := .aborted, oscoreAllowed := false } = prkOutOf P su c := rfl
  rw [e]
  have l := prkOutOf_length H h.prk
  generalize prkOutOf P su c = p at *
  refine (exportSecret_gets H (c := { c with prk := p, prkState := .out, status := .aborted, oscoreAllowed := false })
    ⟨h.live.keys, h.live.crypto, h.live.cred, h.live.suite⟩ nofun (Or.inr rfl) h.th l (Or.inr (Or.inl rfl)) hb').mapErr.bind ?_
  refine (Gets.ofRes (oscoreId_of h.peer (by omega))).bind ((Gets.ofRes (oscoreId_of h.cid (by omega))).bind
    (Gets.modCtx.bind (Gets.pure)))

/-- all calls succeed, with the values of the specification -/
theorem serves_run (H : Host P su k I E cfg) : ∀ (ops : List Op) (s : St σ), Serving su cfg cfg' s.ctx → I s.env →
    Orderly su s.ctx.oscoreAllowed ops →
    ∃ s', Run E cfg s (served P su (oscoreIdOf s.ctx.peerCid) (oscoreIdOf s.ctx.cid) (prkOutOf P su s.ctx) ops) s' := by
  intro ops
  induction ops with
  | nil => exact fun s _ _ _ => ⟨s, .nil _⟩
  | cons o l ih =>
    intro s h hj ho
    have hl := prkOutOf_length H h.prk
    cases o
    case exportSecret label n =>
      obtain ⟨h1, h2, h3⟩ := ho
      obtain ⟨x, s1, q, rfl, e, j⟩ := exportSecret_gets (label := label) (n := n) H h.live h.hash h.key h.th h.prk
        (Or.inr (Or.inr h1)) (secretLen_oh h2) s ⟨rfl, hj⟩
      obtain ⟨s2, r⟩ := ih s1 (by
        rw [e]
        exact ⟨⟨h.live.keys, h.live.crypto, h.live.cred, h.live.suite⟩, h.status, Or.inr rfl, nofun, h.th, hl, h.cid, h.peer⟩)
        j (by rw [e]; exact h3)
      rw [e] at r
      exact ⟨s2, .cons (mapOut_ok.2 ⟨_, q, rfl⟩) defined_ok r⟩
    case keyUpdate b =>
      obtain ⟨h1, h3⟩ := ho
      obtain ⟨x, s1, q, rfl, e, j⟩ := keyUpdate_gets H h h1.1 h1.2 s ⟨rfl, hj⟩
      obtain ⟨s2, r⟩ := ih s1 (by
        rw [e]
        exact ⟨⟨h.live.keys, h.live.crypto, h.live.cred, h.live.suite⟩, h.status, Or.inr rfl, nofun, h.th,
          H.sized.expand _ _ _, h.cid, h.peer⟩)
        j (by rw [e]; exact h3)
      rw [e] at r
      exact ⟨s2, .cons (mapOut_ok.2 ⟨_, q, rfl⟩) defined_ok r⟩
    case exportOscore a b x y =>
      obtain ⟨h0, h1, h2, hx, hy, h3⟩ := ho
      obtain ⟨o, s1, q, rfl, e, j⟩ := exportOscore_gets H h h0 h1 h2 hx hy s ⟨rfl, hj⟩
      obtain ⟨s2, r⟩ := ih s1 (by
        rw [e]
        exact ⟨⟨h.live.keys, h.live.crypto, h.live.cred, h.live.suite⟩, h.status, Or.inr rfl, nofun, h.th, hl, h.cid, h.peer⟩)
        j (by rw [e]; exact h3)
      rw [e] at r
      exact ⟨s2, .cons (mapOut_ok.2 ⟨_, q, rfl⟩) defined_ok r⟩
    all_goals exact ho.elim

theorem AfterM3.serving {prk4 th4 : Bytes} {ci : Cid} (h : AfterM3 su me prk4 th4 ci c0 c)
    (hs : c.status = .completed ∨ c.status = .persisted) (ht : th4.length = su.hash) (hp : prk4.length = su.hash)
    (h1 : CidOk cfg' c0.cid) (h2 : CidOk cfg ci) : Serving su cfg cfg' c :=
  ⟨h.live, hs, Or.inl h.keys.2, fun _ => h.keys.1, by rw [h.th]; exact ht, by rw [h.prk]; exact hp, by rw [h.cid]; exact h1,
    by rw [h.peerCid]; exact h2⟩

theorem AfterM3.prkOut {prk4 th4 : Bytes} {ci : Cid} (h : AfterM3 su me prk4 th4 ci c0 c) :
    prkOutOf P su c = P.kdf prk4 7 th4 su.hash := by
  unfold prkOutOf
  rw [if_pos h.keys.2, h.prk, h.th]
  rfl

/-- **C93**, one party. Once a handshake is complete (with or without message 4), whatever the peer sent, any number of exports,
key updates and OSCORE exports in any order succeed, with one OSCORE export per key update; what they return follows from one
PRK_out as RFC 9528 says. -/
theorem C93_serves {signs : Nat → Bool} {p : Identity} {g : Choice} (h : Sender P V su k signs I E cfg p g) {s s1 : St σ}
    {hist : History} {l : List Call} (hr : Run E cfg s (done g.calls ++ hist) s1) (hu : Undisturbed hist) (hl : l ∈ finished)
    (hm : messages hist = l) (hx : NoExporter hist) (ha : l.length = 4 ∨ ¬ Dead E cfg s1) (hj : I s1.env) :
    ∃ prkOut peer, ∀ ops, Orderly su true ops →
      ∃ s2, Run E cfg s1 (served P su peer (oscoreIdOf g.cid) prkOut ops) s2 := by
  obtain ⟨c0, e3, f, st⟩ := h.complete hr hu hl hm hx ha
  have hs : Serving su cfg cfg s1.ctx := f.after.serving (st.imp And.left And.left) f.th f.prk (by rw [e3]; exact h.cid) f.cid
  refine ⟨prkOutOf P su s1.ctx, oscoreIdOf s1.ctx.peerCid, fun ops ho => ?_⟩
  have := serves_run h.host ops s1 hs hj (by rw [f.after.oscore]; exact ho)
  rwa [f.after.cid, e3] at this

end

section
variable {σI σR : Type} {P : Prims} {V : Bytes → Bytes → Bytes → Bool} {su : Suite} {k : Bounds} {me : Nat}
  {II : σI → Prop} {IR : σR → Prop} {EI : Env σI} {ER : Env σR} {cfgI cfgR : Config} {pI pR : Identity} {gI gR : Choice}

theorem run_more {σ : Type} {E : Env σ} {cfg : Config} {s s1 s2 : St σ} {h h' : History} (h1 : Run E cfg s h s1)
    (h2 : Run E cfg s1 h' s2) : Run E cfg s (h ++ h') s2 := by
  induction h1 with
  | nil s => exact h2
  | cons a b _ ih => exact .cons a b (ih h2)

/-- **C93**, both parties. After a handshake of two honest parties, with or without message 4, both may export secrets and
OSCORE keys and update the key, each in its own order and as often as it likes. Every call succeeds, and what both get follows
from the same PRK_out: after the same key updates, the same exports have the same values. -/
theorem C93_in_step (h : Parties P V su k me II IR EI ER cfgI cfgR pI pR gI gR) {sI : St σI} {sR : St σR}
    (jI : II sI.env) (jR : IR sR.env) {n : Nat} (hn : 65000 ≤ n) (four : Bool) :
    ∃ m1 m2 m3 m4 prkOut, ∀ opsI opsR, Orderly su true opsI → Orderly su true opsR → ∃ sI' sR',
      Run EI cfgI sI (done gI.calls ++
        [(.compose1 n, .ok (.bytes m1)), (.process2 m2, .ok .unit), (.compose3 n, .ok (.bytes m3))] ++
        (if four then [(.process4 m4, .ok .unit)] else []) ++
        served P su (oscoreIdOf gR.cid) (oscoreIdOf gI.cid) prkOut opsI) sI' ∧
      Run ER cfgR sR (done gR.calls ++
        [(.process1 m1, .ok .unit), (.compose2 n, .ok (.bytes m2)), (.process3 m3, .ok .unit)] ++
        (if four then [(.compose4 n, .ok (.bytes m4))] else []) ++
        served P su (oscoreIdOf gI.cid) (oscoreIdOf gR.cid) prkOut opsR) sR' := by
  have HI : Host P su k II EI cfgI := ⟨h.honestI, h.sized, h.suite, h.roomI, h.items.1, h.derive⟩
  have HR : Host P su k IR ER cfgR := ⟨h.honestR, h.sized, h.suite, h.roomR, h.items.2, h.derive⟩
  obtain ⟨m1, m2, m3, prk4, th4, cI, cR, i3, r3, kI, kR, a3, b3, sa, sb, eI, eR, tl, pl, w1, w2⟩ := handshake h jI jR hn
  have oI : ∀ s : St σI, II s.env → AfterM3 su me prk4 th4 gR.cid cI s.ctx → (s.ctx.status = .completed ∨ s.ctx.status = .persisted) →
      ∀ ops, Orderly su true ops →
      ∃ s', Run EI cfgI s (served P su (oscoreIdOf gR.cid) (oscoreIdOf gI.cid) (P.kdf prk4 7 th4 su.hash) ops) s' := by
    intro s hj hs hst ops ho
    have := serves_run HI ops s (hs.serving (cfg' := cfgR) hst tl pl (by rw [eI]; exact h.cidI) h.cidR) hj (by rw [hs.oscore]; exact ho)
    rwa [hs.prkOut, hs.peerCid, hs.cid, eI] at this
  have oR : ∀ s : St σR, IR s.env → AfterM3 su me prk4 th4 gI.cid cR s.ctx → (s.ctx.status = .completed ∨ s.ctx.status = .persisted) →
      ∀ ops, Orderly su true ops →
      ∃ s', Run ER cfgR s (served P su (oscoreIdOf gI.cid) (oscoreIdOf gR.cid) (P.kdf prk4 7 th4 su.hash) ops) s' := by
    intro s hj hs hst ops ho
    have := serves_run HR ops s (hs.serving (cfg' := cfgI) hst tl pl (by rw [eR]; exact h.cidR) h.cidI) hj (by rw [hs.oscore]; exact ho)
    rwa [hs.prkOut, hs.peerCid, hs.cid, eR] at this
  cases four with
  | false =>
    refine ⟨m1, m2, m3, [], P.kdf prk4 7 th4 su.hash, fun opsI opsR hI hR => ?_⟩
    obtain ⟨i4, t1⟩ := oI i3 w1 a3 (Or.inl sa) opsI hI
    obtain ⟨r4, t2⟩ := oR r3 w2 b3 (Or.inl sb) opsR hR
    refine ⟨i4, r4, ?_, ?_⟩
    · simpa using run_more kI t1
    · simpa using run_more kR t2
  | true =>
    obtain ⟨m4, r4, q7, ts4, g4, b4, w3⟩ := message4Compose_wp HR b3 tl pl sb hn ⟨rfl, w2⟩
    obtain ⟨_, i4, q8, a4, w4⟩ := message4Process_wp HI a3 tl pl sa g4 ⟨rfl, w1⟩
    refine ⟨m1, m2, m3, m4, P.kdf prk4 7 th4 su.hash, fun opsI opsR hI hR => ?_⟩
    obtain ⟨i5, t1⟩ := oI i4 w4 a4.toAfterM3 (Or.inr a4.done) opsI hI
    obtain ⟨r5, t2⟩ := oR r4 w3 b4.toAfterM3 (Or.inr b4.done) opsR hR
    refine ⟨i5, r5, ?_, ?_⟩
    · simpa using run_more (run_snoc kI (o := .process4 m4) (mapOut_ok.2 ⟨(), q8, rfl⟩) defined_ok) t1
    · simpa using run_more (run_snoc kR (o := .compose4 n) (mapOut_ok.2 ⟨m4, q7, rfl⟩) defined_ok) t2

end

section
open Psa
variable {A : Algs} {q : Params} {k : Bounds}

/-- **C93** for the shipped suites, one party. -/
theorem C93_suites_serves {τ : Type} {X : Psa.App τ} {J : τ → Prop} {cfg : Config} {id : Nat} {own : Key} {p : Identity} {g : Choice}
    {signs : Nat → Bool} (hl : AlgLaws A q) (h : SuiteSender A q k signs X J cfg id own p g) {s s1 : St (World τ)} {hist : History}
    (hr : Run (suiteEnv A q X) cfg s (done g.calls ++ hist) s1) (hu : Undisturbed hist) {l : List Call} (hf : l ∈ finished)
    (hm : messages hist = l) (hx : NoExporter hist) (ha : l.length = 4 ∨ ¬ Dead (suiteEnv A q X) cfg s1)
    (o : InOrder A q id own s1.env.1) (j : J s1.env.2) :
    ∃ prkOut peer, ∀ ops, Orderly q.table true ops →
      ∃ s2, Run (suiteEnv A q X) cfg s1 (served (primsOf A q) q.table peer (oscoreIdOf g.cid) prkOut ops) s2 :=
  C93_serves (suite_sender hl h) hr hu hf hm hx ha ⟨o, j⟩

/-- **C93** for the shipped suites, both parties. -/
theorem C93_suites_in_step {τI τR : Type} {XI : Psa.App τI} {XR : Psa.App τR} {JI : τI → Prop} {JR : τR → Prop}
    {cfgI cfgR : Config} {idI idR : Nat} {ownI ownR : Key} {pI pR : Identity} {gI gR : Choice} {me : Nat}
    (h : SuiteParties A q k me XI XR JI JR cfgI cfgR idI idR ownI ownR pI pR gI gR)
    {sI : St (World τI)} {sR : St (World τR)}
    (oI : InOrder A q idI ownI sI.env.1) (jI : JI sI.env.2) (oR : InOrder A q idR ownR sR.env.1) (jR : JR sR.env.2)
    {n : Nat} (hn : 65000 ≤ n) (four : Bool) :
    ∃ m1 m2 m3 m4 prkOut, ∀ opsI opsR, Orderly q.table true opsI → Orderly q.table true opsR → ∃ sI' sR',
      Run (suiteEnv A q XI) cfgI sI (done gI.calls ++
        [(.compose1 n, .ok (.bytes m1)), (.process2 m2, .ok .unit), (.compose3 n, .ok (.bytes m3))] ++
        (if four then [(.process4 m4, .ok .unit)] else []) ++
        served (primsOf A q) q.table (oscoreIdOf gR.cid) (oscoreIdOf gI.cid) prkOut opsI) sI' ∧
      Run (suiteEnv A q XR) cfgR sR (done gR.calls ++
        [(.process1 m1, .ok .unit), (.compose2 n, .ok (.bytes m2)), (.process3 m3, .ok .unit)] ++
        (if four then [(.compose4 n, .ok (.bytes m4))] else []) ++
        served (primsOf A q) q.table (oscoreIdOf gI.cid) (oscoreIdOf gR.cid) prkOut opsR) sR' :=
  C93_in_step (suite_parties h) ⟨oI, jI⟩ ⟨oR, jR⟩ hn four

end

/-! ## Concrete cases -/

namespace Toy

/-- two key updates with exports before, between and after them -/
def services : List Op := [.exportOscore 16 8 65000 65000, .exportSecret 40000 16, .keyUpdate [1, 2, 3], .exportSecret 40000 16,
  .exportOscore 16 8 65000 65000, .keyUpdate [4], .exportSecret 65535 8]

/-- key updates only -/
def renewals : List Op := [.keyUpdate [1, 2, 3], .keyUpdate [4], .exportSecret 65535 8]

theorem services_orderly {su : Suite} : Orderly su true services ∧ Orderly su true renewals := by
  simp [services, renewals, Orderly, SecretLen]

/-- what the two have to return in the end is the same -/
theorem services_last (P : Prims) (su : Suite) (a b a' b' p : Bytes) :
    (served P su a b p services).getLast? = (served P su a' b' p renewals).getLast? := rfl

/-- and the first secret is not the second -/
theorem services_differ : ((served prims suite [] [] [1, 2, 3, 4] services)[1]?.map Prod.snd) ≠
    ((served prims suite [] [] [1, 2, 3, 4] services)[3]?.map Prod.snd) ∧
    (served prims suite [] [] [1, 2, 3, 4] services).length = 7 := by decide +kernel

end Toy

/-- Non-vacuity of `C93_in_step`: each method, with and without message 4. -/
example {m : Nat} (hm : m < 4) (four : Bool) : ∃ m1 m2 m3 m4 prkOut sI' sR',
    Run (Toy.env Toy.alice) Toy.cfg Toy.start (done (Toy.choice m (.int 5)).calls ++
      [(.compose1 65000, .ok (.bytes m1)), (.process2 m2, .ok .unit), (.compose3 65000, .ok (.bytes m3))] ++
      (if four then [(.process4 m4, .ok .unit)] else []) ++ served Toy.prims Toy.suite [0x18, 9] [5] prkOut Toy.services) sI' ∧
    Run (Toy.env Toy.bob) Toy.cfg Toy.start (done (Toy.choice m (.bstr [0x18, 9])).calls ++
      [(.process1 m1, .ok .unit), (.compose2 65000, .ok (.bytes m2)), (.process3 m3, .ok .unit)] ++
      (if four then [(.compose4 65000, .ok (.bytes m4))] else []) ++
      served Toy.prims Toy.suite [5] [0x18, 9] prkOut Toy.renewals) sR' := by
  obtain ⟨m1, m2, m3, m4, p, h⟩ := C93_in_step (Toy.parties hm) (sI := Toy.start) (sR := Toy.start) trivial trivial
    (Nat.le_refl 65000) four
  exact ⟨m1, m2, m3, m4, p, h _ _ Toy.services_orderly.1 Toy.services_orderly.2⟩

/-- Non-vacuity of `C93_serves`: after the message_3 with a stray byte. -/
example : ∃ prkOut peer s2, Run (Toy.env Toy.carol) Toy.cfg
    (Toy.hist (Toy.env Toy.carol) Toy.cfg ((Toy.choice 3 (.int 5)).calls ++ Toy.carolR) Toy.start).2
    (served Toy.prims Toy.suite peer [5] prkOut Toy.services) s2 := by
  have hr := Toy.carolRun 3 Toy.carolR (by decide +kernel) (t := Toy.carolHR) (by decide +kernel)
  have hu : Undisturbed Toy.carolHR := show ∀ p ∈ Toy.carolHR, _ by simp [Toy.carolHR, restarts, isSetter]
  have hx : NoExporter Toy.carolHR := show ∀ p ∈ Toy.carolHR, _ by simp [Toy.carolHR, isExporter]
  obtain ⟨p, peer, h⟩ := C93_serves (Toy.sender (by decide : 3 < 4) responderSigns) hr hu (List.mem_cons_self ..) rfl hx
    (Or.inr Toy.carolR_alive) trivial
  exact ⟨p, peer, h _ Toy.services_orderly.1⟩

/-- Non-vacuity of `C93_suites_in_step`: each suite and each method. -/
example {q : Psa.Params} (hq : q ∈ shipped) {m : Nat} (hm : m < 4) (four : Bool) : ∃ m1 m2 m3 m4 prkOut sI' sR',
    Run (Psa.suiteEnv Psa.Toy.algs q (Psa.Toy.app Psa.Toy.credI Psa.Toy.credR (Psa.Toy.publicOf q 0x43 (responderSigns m)))) Toy.cfg
      ⟨Ctx.fresh, (Psa.Toy.storeOf q 0x21 (initiatorSigns m), ()), []⟩ (done (Psa.Toy.choice q m (.int 5)).calls ++
      [(.compose1 65000, .ok (.bytes m1)), (.process2 m2, .ok .unit), (.compose3 65000, .ok (.bytes m3))] ++
      (if four then [(.process4 m4, .ok .unit)] else []) ++
      served (primsOf Psa.Toy.algs q) q.table [0x18, 9] [5] prkOut Toy.services) sI' ∧
    Run (Psa.suiteEnv Psa.Toy.algs q (Psa.Toy.app Psa.Toy.credR Psa.Toy.credI (Psa.Toy.publicOf q 0x21 (initiatorSigns m)))) Toy.cfg
      ⟨Ctx.fresh, (Psa.Toy.storeOf q 0x43 (responderSigns m), ()), []⟩ (done (Psa.Toy.choice q m (.bstr [0x18, 9])).calls ++
      [(.process1 m1, .ok .unit), (.compose2 65000, .ok (.bytes m2)), (.process3 m3, .ok .unit)] ++
      (if four then [(.compose4 65000, .ok (.bytes m4))] else []) ++
      served (primsOf Psa.Toy.algs q) q.table [5] [0x18, 9] prkOut Toy.renewals) sR' := by
  obtain ⟨m1, m2, m3, m4, p, h⟩ := C93_suites_in_step (Psa.Toy.suiteParties hq hm)
    (sI := ⟨Ctx.fresh, (Psa.Toy.storeOf q 0x21 (initiatorSigns m), ()), []⟩)
    (sR := ⟨Ctx.fresh, (Psa.Toy.storeOf q 0x43 (responderSigns m), ()), []⟩)
    (Psa.Toy.inOrder hq _ _) trivial (Psa.Toy.inOrder hq _ _) trivial (Nat.le_refl 65000) four
  exact ⟨m1, m2, m3, m4, p, h _ _ Toy.services_orderly.1 Toy.services_orderly.2⟩

/-- Non-vacuity of `C93_suites_serves`: each suite, after a message_3 of a peer. -/
example {q : Psa.Params} (hq : q ∈ shipped) : ∃ prkOut peer s2,
    Run (Psa.suiteEnv Psa.Toy.algs q (Psa.Toy.app Psa.Toy.credR Psa.Toy.credI (Psa.Toy.publicOf q 0x21 false))) Toy.cfg
      (Psa.Toy.answering q (Psa.Toy.until3 q)).2 (served (primsOf Psa.Toy.algs q) q.table peer [0x18, 9] prkOut Toy.services) s2 := by
  have c := List.all_eq_true.1 Psa.Toy.answers_check q hq
  simp only [Bool.and_eq_true, decide_eq_true_eq] at c
  obtain ⟨⟨⟨⟨⟨⟨⟨⟨-, u3⟩, -⟩, t3⟩, -⟩, -⟩, d3⟩, -⟩, -⟩ := c
  have H := Psa.Toy.sender hq (by decide : 3 < 4) 0x43 responderSigns (Psa.Toy.publicOf q 0x21 false)
  have r := Psa.Toy.answering_run u3 t3
  obtain ⟨p, peer, h⟩ := C93_suites_serves (Psa.Toy.algs_laws hq) H r (by
      intro p hp
      simp only [List.mem_cons, List.not_mem_nil, or_false] at hp
      rcases hp with rfl | rfl | rfl <;> exact ⟨rfl, nofun⟩) (l := [.process1, .compose2, .process3]) (by simp [finished]) rfl (by
      intro p hp
      simp only [List.mem_cons, List.not_mem_nil, or_false] at hp
      rcases hp with rfl | rfl | rfl <;> rfl)
    (Or.inr (not_dead_if rfl d3)) ((Psa.Toy.inOrder hq 0x43 false).later (Psa.Toy.answers_store hq).2) trivial
  exact ⟨p, peer, h _ Toy.services_orderly.1⟩

end Verif
