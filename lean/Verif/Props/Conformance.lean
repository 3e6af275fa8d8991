import Verif.SpecNegotiation
import Verif.Config
import Verif.Props.Negotiation
import Verif.Props.Secrets
import Verif.Props.Keys
import Verif.Props.Wire
import Verif.Props.Phases
import Verif.Props.Peer
import Verif.Props.Ead

/-!
# Rules of RFC 9528 the library follows in part: selection of suites (C62), OSCORE identifiers (C63), exporter and
message 4 (C64)
-/

namespace Verif

open M Spec

variable {σ : Type} {E : Env σ} {cfg : Config}

/-! ## C62 -/

theorem preferred_last {c : Ctx} (h : (suites c).length = c.csuiteLen) (h0 : c.csuiteLen ≠ 0) :
    (supported c).getLast? = some (preferred c) := by
  unfold supported preferred
  have hl : c.csuiteLen ≤ c.csuiteArr.length := by
    unfold suites at h
    rw [List.length_take] at h
    omega
  rw [List.getLast?_map, List.getLast?_eq_getElem?, h]
  unfold suites
  rw [List.getElem?_take, if_pos (by omega), List.getD_eq_getElem?_getD]
  cases hx : c.csuiteArr[c.csuiteLen - 1]? with
  | some a => rfl
  | none => rw [List.getElem?_eq_none_iff] at hx; omega

theorem last_mem {α : Type} {l : List α} {a : α} (h : l.getLast? = some a) : a ∈ l := List.mem_of_getLast? h

theorem nodup_last {l : List Int} {v : Int} (hl : l.getLast? = some v) (hn : l.Nodup) : ∀ w ∈ l.dropLast, w ≠ v := by
  rintro w hw rfl
  obtain ⟨h0, rfl⟩ := List.getLast?_eq_some_iff.1 hl
  rw [List.dropLast_concat] at hw
  exact (List.nodup_append.1 hn).2.2 _ hw _ (List.mem_singleton.2 rfl) rfl

/-- **C62** (accepted messages). In every session, a message_1 that is accepted selects a configured suite. If it is the only
configured one, and SUITES_I has no repetitions, the Responder supports none of those listed before. Missing: several
configured suites, where only the last one counts (`C62_violated`). -/
theorem C62_accepted_partial {e : σ} {log : List Ev} {h : History} {s s' : St σ} (hs : Session E cfg e log h s) {msg : Bytes}
    {x : Out} (hok : step E cfg (.process1 msg) s = (.ok x, s')) (hecc : 0 < s'.ctx.suite.eccKey) :
    ∃ me su gx, StartsMessage1 me su gx msg ∧ (suiteValues su).getLast? = some s'.ctx.suite.value ∧
      (supported s.ctx).getLast? = some s'.ctx.suite.value ∧
      ((supported s.ctx).length = 1 → (suiteValues su).Nodup → RightSuite (supported s.ctx) (suiteValues su) s'.ctx.suite.value) := by
  obtain ⟨me, su, gx, h1, h2, h3⟩ := C05_selected_suite hok hecc
  have h0 : s.ctx.csuiteLen ≠ 0 := by
    obtain ⟨m, hm, rfl, c⟩ := step_process1 rfl hok
    exact (message1Process_ok c).2.2.1
  have h4 := preferred_last (session_suites hs) h0
  rw [← h3] at h2 h4
  refine ⟨me, su, gx, h1, h2, h4, fun h5 h6 => ⟨h2, last_mem h4, fun w hw hc => ?_⟩⟩
  match hl : supported s.ctx, h5 with
  | [v], _ =>
    rw [hl] at h4 hc
    simp only [List.getLast?_singleton, Option.some.injEq] at h4
    rw [List.mem_singleton, h4] at hc
    exact nodup_last h2 h6 w hw hc


/-- **C62** (messages that have to be accepted). A Responder with one configured suite accepts every message_1 of a conforming
Initiator that selects this suite. Missing: several configured suites, and more than three in SUITES_I (`C62_violated`). -/
theorem C62_accepts_partial {I : σ → Prop} {P : Prims} {V : Bytes → Bytes → Bytes → Bool} {su : Suite} {k : Bounds} {me : Nat}
    {p : Identity} {g : Choice} {i : Rfc.Id} {peer : Rfc.Auth} {c : Cred}
    (h : Rfc.Local P V su k me (responderSigns me) (initiatorSigns me) I E cfg p i g peer c)
    (hm : me ∈ g.methods) (hx : (idCred p.cred).length + k.ead + 2100 ≤ k.expand) {s : St σ} (hj : I s.env) (hone : g.suites = [su])
    {x : Bytes} {offered : List Int} {v : Int} {cI : Cid} {e1 : List EadTok} (hp : P.priv x)
    (hr : RightSuite (g.suites.map Suite.value) offered v)
    (hf : offered.length ≤ 3 ∧ offered.length ≤ cfg.maxSuites ∧ ∀ v ∈ offered, Int32Range v) (hc : CidOk cfg cI) (he : EadOk k e1) :
    ∃ s', Run E cfg s (done g.calls ++ [(.process1 (message1 me offered (P.pub x) cI e1), .ok .unit)]) s' := by
  have hv : v = su.value := by
    have := hr.2.1
    rw [hone] at this
    simpa using this
  obtain ⟨_, _, _, _, m2, s2, r, _⟩ := C59_responder h hm hx hj (Nat.le_refl 65000) hp ⟨hv ▸ hr.1, hf, hc, he⟩
  have e : done g.calls ++ [(Op.process1 (message1 me offered (P.pub x) cI e1), Res.ok Out.unit), (.compose2 65000, .ok (.bytes m2))] =
      (done g.calls ++ [(Op.process1 (message1 me offered (P.pub x) cI e1), Res.ok Out.unit)]) ++ [(.compose2 65000, .ok (.bytes m2))] := by
    simp
  rw [e] at r
  obtain ⟨s1, r, _⟩ := run_append r
  exact ⟨s1, r⟩

/-- Non-vacuity: Bob, who supports suite 2, is offered [8, 9, 2]. -/
example : ∃ s', (Session (Toy.env Toy.bob) Toy.cfg () [] (Toy.hst Toy.bob (Toy.conf 3 (.int 9))) (Toy.after Toy.bob (Toy.conf 3 (.int 9))) ∧
    step (Toy.env Toy.bob) Toy.cfg (.process1 (message1 3 [8, 9, 2] (Toy.dhPub Toy.alice.eph) (.int 5) []))
      (Toy.after Toy.bob (Toy.conf 3 (.int 9))) = (.ok .unit, s') ∧ 0 < s'.ctx.suite.eccKey ∧
    (supported (Toy.after Toy.bob (Toy.conf 3 (.int 9))).ctx).length = 1) :=
  ⟨_, Toy.session _ _ (by decide +kernel), eq_of_fst (by decide +kernel), by decide +kernel, by decide +kernel⟩

@[inherit_doc C62_accepts_partial]
example (m : Nat) (hm : m < 4) := C62_accepts_partial (Toy.localParty hm _ _) (by simp [Toy.choice]) (by decide +kernel)
  (s := Toy.start) trivial rfl (x := [1, 77]) (offered := [24, 2]) (v := 2) (cI := .bstr [0x18, 9]) (e1 := []) trivial
  ⟨rfl, by simp [Toy.choice, Toy.suite], by simp [Toy.choice, Toy.suite]⟩ ⟨by decide, by decide, by decide⟩ ⟨by decide, by decide⟩
  ⟨by decide, by decide, by decide⟩

namespace Toy

/-- a second suite -/
def suite24 : Suite := { suite with value := 24 }

/-- settings with given suites -/
def confSuites (l : List Suite) (cid : Cid) : List Op := conf 3 cid ++ [.setSuites l]

/-- the EAD item of message 1 -/
def ead1 : List EadTok := [⟨1, some [7]⟩]

end Toy

instance (s o : List Int) (v : Int) : Decidable (RightSuite s o v) := inferInstanceAs (Decidable (_ ∧ _ ∧ ∀ w ∈ _, _))

/-- **C62** fails. A Responder that supports the suites 2 and 24
* rejects a message_1 with SUITES_I = 2, and reports 2 as one of its own suites; as this is all the Initiator supports, it
  can only send the same message again;
* accepts SUITES_I = [2, 24], although it supports 2, which the Initiator prefers.

A Responder that supports the suite 2 rejects SUITES_I = [7, 8, 9, 2] and reports that it
supports 2 and was offered [7, 8, 9]. -/
theorem C62_violated :
    let R := Toy.after Toy.bob (Toy.confSuites [Toy.suite, Toy.suite24] (.int 9))
    let R' := Toy.after Toy.bob (Toy.conf 3 (.int 9))
    let m := Toy.msg 3 1
    let m' := message1 3 [2, 24] (Toy.dhPub Toy.alice.eph) (.int 5) Toy.ead1
    let m'' := message1 3 [7, 8, 9, 2] (Toy.dhPub Toy.alice.eph) (.int 5) Toy.ead1
    Session (Toy.env Toy.bob) Toy.cfg () [] (Toy.hst Toy.bob (Toy.confSuites [Toy.suite, Toy.suite24] (.int 9))) R ∧
    Session (Toy.env Toy.bob) Toy.cfg () [] (Toy.hst Toy.bob (Toy.conf 3 (.int 9))) R' ∧
    supported R.ctx = [2, 24] ∧ supported R'.ctx = [2] ∧
    (RightSuite [2, 24] [2] 2 ∧ m = message1 3 [2] (Toy.dhPub Toy.alice.eph) (.int 5) Toy.ead1 ∧
      (step (Toy.env Toy.bob) Toy.cfg (.process1 m) R).1 = .err .msg1Process ∧
      reportedCode (step (Toy.env Toy.bob) Toy.cfg (.process1 m) R).2 = .wrongSuite ∧
      (step (Toy.env Toy.bob) Toy.cfg (.getSuites 3 3) (step (Toy.env Toy.bob) Toy.cfg (.process1 m) R).2).1 =
        .ok (.suites [2, 24] [2])) ∧
    (¬ RightSuite [2, 24] [2, 24] 24 ∧ (step (Toy.env Toy.bob) Toy.cfg (.process1 m') R).1 = .ok .unit) ∧
    (RightSuite [2] [7, 8, 9, 2] 2 ∧
      (step (Toy.env Toy.bob) Toy.cfg (.process1 m'') R').1 = .err .msg1Process ∧
      (step (Toy.env Toy.bob) Toy.cfg (.getSuites 3 3) (step (Toy.env Toy.bob) Toy.cfg (.process1 m'') R').2).1 =
        .ok (.suites [2] [7, 8, 9]) ∧
      (step (Toy.env Toy.bob) Toy.cfg (.process1 (message1 3 [8, 9, 2] (Toy.dhPub Toy.alice.eph) (.int 5) Toy.ead1)) R').1 = .ok .unit) := by
  refine ⟨Toy.session _ _ (by decide +kernel), Toy.session _ _ (by decide +kernel), by decide +kernel, by decide +kernel,
    ⟨by decide, by decide +kernel, by decide +kernel, by decide +kernel, by decide +kernel⟩,
    ⟨by decide, by decide +kernel⟩, by decide, by decide +kernel, by decide +kernel, by decide +kernel⟩

/-! ## C63 -/

/-- **C63**. The two OSCORE identifiers an export returns are distinct exactly if the connection identifiers have distinct
OSCORE forms. Missing: that the library refuses equal ones (`C63_violated`). -/
theorem C63_distinct_partial {s s' : St σ} {a b c d : Nat} {o : Oscore}
    (hok : step E cfg (.exportOscore a b c d) s = (.ok (.oscore o), s')) :
    o.sid ≠ o.rid ↔ oscoreIdOf s.ctx.peerCid ≠ oscoreIdOf s.ctx.cid := by
  obtain ⟨r0, h0, ⟨a', rfl, h1⟩ | ⟨_, _, h'⟩ | ⟨_, _, h'⟩⟩ := step_oscore hok
  · simp only [Res.ok.injEq, Out.oscore.injEq] at h1
    subst h1
    obtain ⟨_, _, _, _, _, i1, _, i2, _⟩ := exportOscore_ok h0
    rw [i1, i2]
  · cases h'
  · cases h'

namespace Toy

/-- the message that the last call composed -/
def lastMsg (p : Party) (ops : List Op) : Bytes := bytesOf ((hst p ops).getLastD (.getCode, .err .generic)).2

/-- A handshake of Alice and Bob with these connection identifiers: the calls of Alice and of Bob up to message 3. -/
def meetI1 (cI : Cid) : List Op := conf 3 cI ++ [.compose1 100]
@[inherit_doc meetI1] def meetR2 (cI cR : Cid) : List Op := conf 3 cR ++ [.process1 (lastMsg alice (meetI1 cI)), .compose2 100]
@[inherit_doc meetI1] def meetI3 (cI cR : Cid) : List Op :=
  meetI1 cI ++ [.process2 (lastMsg bob (meetR2 cI cR)), .compose3 100]
@[inherit_doc meetI1] def meetR3 (cI cR : Cid) : List Op := meetR2 cI cR ++ [.process3 (lastMsg alice (meetI3 cI cR))]

end Toy

/-- **C63** fails, for equal connection identifiers and for 5 and h'05': the handshake completes and both parties export
an OSCORE context with equal identifiers. -/
theorem C63_violated : ∀ cR ∈ [Cid.int 5, .bstr [5]],
    Session (Toy.env Toy.alice) Toy.cfg () [] (Toy.hst Toy.alice (Toy.meetI3 (.int 5) cR)) (Toy.after Toy.alice (Toy.meetI3 (.int 5) cR)) ∧
    Session (Toy.env Toy.bob) Toy.cfg () [] (Toy.hst Toy.bob (Toy.meetR3 (.int 5) cR)) (Toy.after Toy.bob (Toy.meetR3 (.int 5) cR)) ∧
    ∃ secret salt,
      (step (Toy.env Toy.alice) Toy.cfg (.exportOscore 2 2 9 9) (Toy.after Toy.alice (Toy.meetI3 (.int 5) cR))).1 =
        .ok (.oscore ⟨secret, salt, [5], [5]⟩) ∧
      (step (Toy.env Toy.bob) Toy.cfg (.exportOscore 2 2 9 9) (Toy.after Toy.bob (Toy.meetR3 (.int 5) cR))).1 =
        .ok (.oscore ⟨secret, salt, [5], [5]⟩) := by
  intro cR hc
  simp only [List.mem_cons, List.not_mem_nil, or_false] at hc
  rcases hc with rfl | rfl
  · exact ⟨Toy.session _ _ (by decide +kernel), Toy.session _ _ (by decide +kernel), [204, 137], [141, 74], by decide +kernel, by decide +kernel⟩
  · exact ⟨Toy.session _ _ (by decide +kernel), Toy.session _ _ (by decide +kernel), [106, 24], [43, 217], by decide +kernel, by decide +kernel⟩

/-- Non-vacuity of the partial theorem. -/
example := C63_distinct_partial (E := Toy.env Toy.alice) (cfg := Toy.cfg) (s := Toy.after Toy.alice (Toy.meetI3 (.int 5) (.int 6)))
  (a := 2) (b := 2) (c := 9) (d := 9) (o := ⟨[67, 241], [4, 178], [6], [5]⟩) (eq_of_fst (by decide +kernel))

/-! ## C64 -/

theorem okOf_out {k : Call} {c : Ctx} (h : c.prkState = .out) : okOf k c = false := by
  cases k <;> simp [okOf, okStart, okReceivedM1, okWaitM2, okVerifiedM2, okWaitM3, okCompleted, h]

theorem stayOut_step {o : Op} {s s' : St σ} {r : Res Out} (h : step E cfg o s = (r, s')) (hd : r.Defined)
    (hr : restarts o = false) (ho : s.ctx.prkState = .out) : s'.ctx.prkState = .out := by
  have mod : OutMod s s' → s'.ctx.prkState = .out := by
    rintro ⟨_, _, h1 | h1⟩
    · rw [h1.2]; exact ho
    · exact h1.2.2.1
  have modP : Pres OutMod (step E cfg o) → s'.ctx.prkState = .out := by
    intro hp
    have := hp s
    rw [h] at this
    exact mod (this hd)
  have F' := (outMod_calls (σ := σ)).toFrame
  cases hk : callOf o with
  | some k =>
    rw [message_rejected hk (okOf_out ho)] at h
    rw [← (Prod.mk.inj h).2]; exact ho
  | none =>
    by_cases hs : isSetter o = true
    · rcases C30_setters (E := E) (cfg := cfg) hs s with ⟨_, _, c', h1, h2⟩ | ⟨_, e, _, h1⟩
      · rw [h] at h1
        simp only [Prod.mk.injEq] at h1
        rw [h1.2]
        cases o <;> simp only [Stored] at h2
        case setSuites => rw [h2.2.2]; exact ho
        all_goals (subst h2; exact ho)
      · rw [h] at h1
        simp only [Prod.mk.injEq] at h1
        rwa [h1.2]
    · cases o <;> simp only [callOf, reduceCtorEq] at hk <;> simp only [restarts, Bool.true_eq_false] at hr <;>
        simp only [isSetter, not_true_eq_false] at hs
      case exportSecret l n => exact modP (Pres.mapOut F' _ (exportSecret_mod E cfg l n))
      case exportOscore a b c d => exact modP (Pres.mapOut F' _ (exportOscore_mod E cfg a b c d))
      case keyUpdate b =>
        obtain ⟨r0, h0, ⟨a, rfl, _⟩ | ⟨e, rfl, _⟩ | ⟨u, _, rfl⟩⟩ := step_update h
        · obtain ⟨_, _, _, _, _, _, _, _, _, _, _, c⟩ := keyUpdate_ok h0
          rw [c]
        · exact mod (keyUpdate_err E cfg h0)
        · simp at hd
      case nullArg =>
        simp only [step, M.fail, Prod.mk.injEq] at h
        rwa [← h.2]
      case getCode => rwa [getCode_state h]
      case getSuites a b => rwa [getSuites_state h hd]

theorem exporter_out {o : Op} {s s' : St σ} {x : Out} (h : step E cfg o s = (.ok x, s')) (ho : isExporter o = true) :
    s'.ctx.prkState = .out := by
  cases o <;> simp only [isExporter, Bool.false_eq_true] at ho
  case exportSecret l n =>
    obtain ⟨r0, h0, ⟨a', rfl, h1⟩ | ⟨_, _, h'⟩ | ⟨_, _, h'⟩⟩ := step_export h
    · obtain ⟨_, _, _, _, _, _, _, _, _, _, c, _⟩ := exportSecret_ok h0
      rw [c]
    · cases h'
    · cases h'
  case exportOscore a b c d =>
    obtain ⟨r0, h0, ⟨a', rfl, h1⟩ | ⟨_, _, h'⟩ | ⟨_, _, h'⟩⟩ := step_oscore h
    · obtain ⟨_, _, _, _, _, _, _, _, _, _, _, _, _, _, _, c, _⟩ := exportOscore_ok h0
      rw [c]
    · cases h'
    · cases h'
  case keyUpdate b =>
    obtain ⟨r0, h0, ⟨a', rfl, h1⟩ | ⟨_, _, h'⟩ | ⟨_, _, h'⟩⟩ := step_update h
    · obtain ⟨_, _, _, _, _, _, _, _, _, _, _, c⟩ := keyUpdate_ok h0
      rw [c]
    · cases h'
    · cases h'

theorem run_stayOut {s s' : St σ} {h : History} (hs : Run E cfg s h s') (hn : ∀ p ∈ h, restarts p.1 = false)
    (h0 : s.ctx.prkState = .out ∨ Exported h) : s'.ctx.prkState = .out := by
  induction hs with
  | nil s =>
    rcases h0 with h0 | ⟨_, _, h0, _⟩
    · exact h0
    · cases h0
  | @cons s s1 s2 o r h hs hd hr ih =>
    refine ih (fun p hp => hn p (List.mem_cons_of_mem _ hp)) ?_
    have hn := hn (o, r) (List.mem_cons_self ..)
    rcases h0 with h0 | ⟨o', x, h0, h1⟩
    · exact Or.inl (stayOut_step hs hd hn h0)
    · rcases List.mem_cons.1 h0 with h0 | h0
      · cases h0
        exact Or.inl (exporter_out hs h1)
      · exact Or.inr ⟨o', x, h0, h1⟩

/-- **C64**. In a session that is still alive, after messages 1 to 3 a call for message 4 is taken up, if no exporter was called
(it succeeds, or fails for its own reason and ends the session). Missing: that an exporter call makes no difference
(`C64_violated`). -/
theorem C64_message4_partial {e : σ} {log : List Ev} {h : History} {s : St σ} (hs : Session E cfg e log h s)
    (hd : ¬ Dead E cfg s) (h3 : messages h = [.compose1, .process2, .compose3] ∨ messages h = [.process1, .compose2, .process3])
    (hx : ∀ p ∈ h, isExporter p.1 = false) {o : Op} (ho : isMessage4 o = true) (hu : usable o = true) : ¬ Refused E cfg o s := by
  intro hr
  obtain ⟨k, hk, h4⟩ : ∃ k, callOf o = some k ∧ (k = .compose4 ∨ k = .process4) := by
    cases o <;> simp only [isMessage4, Bool.false_eq_true] at ho
    · exact ⟨_, rfl, Or.inl rfl⟩
    · exact ⟨_, rfl, Or.inr rfl⟩
  have hi : inOrder h k := by
    unfold inOrder
    rcases h3 with h3 | h3 <;> rcases h4 with rfl | rfl <;> rw [h3] <;> decide
  obtain ⟨hd', -⟩ := C02_next_call_fails hs hd hk hu hi (fun _ => hx) hr
  exact hd hd'

/-- **C64** fails, in every session: once an exporter call succeeded, message 4 can neither be composed nor processed. -/
theorem C64_violated {e : σ} {log : List Ev} {h : History} {s : St σ} (hs : Session E cfg e log h s)
    (hx : Exported h) {o : Op} (ho : isMessage4 o = true) : Refused E cfg o s := by
  have hp := run_stayOut hs.1 hs.2 (Or.inr hx)
  cases o <;> simp only [isMessage4, Bool.false_eq_true] at ho
  case compose4 => exact message_rejected rfl (okOf_out hp)
  case process4 => exact message_rejected rfl (okOf_out hp)

/-- Non-vacuity of the partial theorem: Bob composes message 4. -/
example : ¬ Refused (Toy.env Toy.bob) Toy.cfg (.compose4 100) (Toy.after Toy.bob (Toy.meetR3 (.int 5) (.int 6))) := by
  refine C64_message4_partial (h := Toy.hst Toy.bob (Toy.meetR3 (.int 5) (.int 6))) (Toy.session _ _ (by decide +kernel)) ?_
    (Or.inr (by decide +kernel)) (by decide +kernel) rfl rfl
  intro hd
  have := hd [(.compose4 100, .ok (.bytes (Toy.lastMsg Toy.bob (Toy.meetR3 (.int 5) (.int 6) ++ [.compose4 100]))))] _
    (.cons (eq_of_fst (by decide +kernel)) (by simp) (.nil _)) (by simp) _ (List.mem_singleton.2 rfl) (by simp [callOf])
  simp at this

/-- Non-vacuity of `C64_violated`: an honest handshake in which the Responder exports before it would compose message 4, or the Initiator
before it would process it. Without the export, message 4 is composed and accepted. -/
example :
    let I := Toy.meetI3 (.int 5) (.int 6)
    let R := Toy.meetR3 (.int 5) (.int 6)
    let m4 := Toy.lastMsg Toy.bob (R ++ [.compose4 100])
    let x := Op.exportOscore 2 2 9 9
    (step (Toy.env Toy.bob) Toy.cfg (.compose4 100) (Toy.after Toy.bob R)).1 = .ok (.bytes m4) ∧
    (step (Toy.env Toy.alice) Toy.cfg (.process4 m4) (Toy.after Toy.alice I)).1 = .ok .unit ∧
    (step (Toy.env Toy.bob) Toy.cfg (.compose4 100) (Toy.after Toy.bob (R ++ [x]))).1 = .err .badState ∧
    (step (Toy.env Toy.alice) Toy.cfg (.process4 m4) (Toy.after Toy.alice (I ++ [x]))).1 = .err .badState ∧
    Session (Toy.env Toy.bob) Toy.cfg () [] (Toy.hst Toy.bob (R ++ [x])) (Toy.after Toy.bob (R ++ [x])) ∧
    ((Toy.hst Toy.bob (R ++ [x])).getLast?.map fun p => (p.2 matches .ok _, isExporter p.1)) = some (true, true) :=
  ⟨by decide +kernel, by decide +kernel, by decide +kernel, by decide +kernel, Toy.session _ _ (by decide +kernel),
    by decide +kernel⟩

end Verif
