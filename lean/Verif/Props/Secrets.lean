import Verif.OnCtx
import Verif.Props.Phases
import Verif.ToyPeers

/-!
# C17, C19: when keys can be exported, and what is wiped

Vocabulary: `Verif/Spec.lean`.
-/

namespace Verif

open M Spec

variable {σ : Type} {E : Env σ} {cfg : Config}

/-! ## C17 -/

/-- no step to TH_4 -/
def NoTh4 (c c' : Ctx) : Prop := c'.thState = .th4 → c.thState = .th4

theorem noTh4_soft : Soft NoTh4 where
  refl _ h := h
  trans h1 h2 h := h1 (h2 h)
  keep c c' h1 _ _ _ h := by rw [← h1]; exact h
  wipe _ h := h
  th c t ts h1 h2 := absurd h2 h1

theorem compTh4_err {a b : Bytes} : Ends (OnCtx (σ := σ) NoTh4) (fun _ _ => True) (compTh4 E cfg a b) := by
  have F := noTh4_soft.frame (σ := σ)
  have A : Absorb (σ := σ) (OnCtx NoTh4) (fun _ _ => True) := ⟨fun _ _ => trivial⟩
  unfold compTh4
  refine Ends.bind F A (Pres.getCtx F) fun _ => ?_
  refine Ends.bind F A (Pres.require F _ _) fun _ => ?_
  refine Ends.bind F A (Pres.require F _ _) fun _ => ?_
  refine Ends.bind F A (noTh4_soft.fapp.memAlloc _ _ _) fun _ => ?_
  refine Ends.bind F A (Pres.ofOption F _ _) fun _ => ?_
  refine Ends.bind F A (Pres.guardUB F _ _) fun _ => ?_
  refine Ends.bind F A (noTh4_soft.fapp.hashTh _ _ _) fun _ => ?_
  exact Ends.modCtx fun _ => trivial

/-- message 3 that is rejected by the Responder does not reach TH_4 -/
theorem message3Process_err {b : Bytes} :
    Ends (OnCtx (σ := σ) NoTh4) (fun _ _ => True) (message3Process E cfg b) := by
  have F := noTh4_soft.frame (σ := σ)
  have A : Absorb (σ := σ) (OnCtx NoTh4) (fun _ _ => True) := ⟨fun _ _ => trivial⟩
  have hP := noTh4_soft
  unfold message3Process
  refine Ends.bind F A (Pres.require F _ _) fun _ => ?_
  refine Ends.bind F A (hP.enter _ _ _) fun _ => ?_
  refine Ends.bind F A (Pres.ofOption F _ _) fun _ => ?_
  refine Ends.bind F A (hP.fapp.keyIvAad3 _ _) fun _ => ?_
  refine Ends.bind F A (Pres.getCtx F) fun _ => ?_
  refine Ends.bind F A (hP.fapp.memAlloc _ _ _) fun _ => ?_
  refine Ends.bind F A (Pres.mapErr _ ((Pres.require F _ _).bind F fun _ => hP.fapp.aeadDecrypt _ _ _ _ _ _)) fun _ => ?_
  refine Ends.bind F A (Pres.mapErr _ (hP.fapp.parsePtxt3 _ _)) fun _ => ?_
  refine Ends.bind F A (hP.fapp.eadProcess _ _) fun _ => ?_
  refine Ends.bind F A (hP.verifyCred _ _) fun _ => ?_
  refine Ends.bind F A (Pres.mapErr _ (hP.fapp.compPrk4e3m _ _ _ _)) fun _ => ?_
  refine Ends.bind F A (hP.fapp.buildMacCtx _ _ _ _) fun _ => ?_
  refine Ends.bind F A (Pres.getCtx F) fun _ => ?_
  refine Ends.bind F A (Pres.ofRes F _) fun _ => ?_
  refine Ends.bind F A (hP.fapp.memAlloc _ _ _) fun _ => ?_
  refine Ends.bind F A (Pres.mapErr _ (hP.fapp.compMac _ _ _ _)) fun _ => ?_
  refine Ends.bind F A (Pres.mapErr _ (hP.fapp.verifySignOrMac _ _ _ _ _ _)) fun _ => ?_
  exact Ends.then (Q := fun _ _ => True) (mapErr_ends _ compTh4_err) fun _ => Ends.modCtx fun _ => trivial

/-- which calls reach TH_4 -/
theorem th4_step {o : Op} {s s' : St σ} {r : Res Out} (h : step E cfg o s = (r, s')) (hd : r.Defined)
    (hr : restarts o = false) (h4 : s'.ctx.thState = .th4) : s.ctx.thState = .th4 ∨
      (s.ctx.status = .verifiedM2 ∧ (∃ n, o = .compose3 n) ∧ usable o = true) ∨
      ((∃ b, o = .process3 b) ∧ ∃ a, r = .ok a) := by
  have pres : Pres (OnCtx NoTh4) (step E cfg o) → s.ctx.thState = .th4 := by
    intro hp
    have := hp s
    rw [h] at this
    exact this hd h4
  by_cases hk : callOf o ∈ [some .compose1, some .process1, some .compose2]
  · refine Or.inl (pres ?_)
    cases o <;> simp [callOf] at hk
    case compose1 n =>
      exact Pres.mapOut noTh4_soft.frame _ (noTh4_soft.message1Compose E cfg (fun _ _ h => h) (fun _ _ h => h) n)
    case process1 b => exact Pres.mapOut noTh4_soft.frame _ (noTh4_soft.message1Process E cfg (fun _ _ h => h) b)
    case compose2 n => exact Pres.mapOut noTh4_soft.frame _ (noTh4_soft.message2Compose E cfg (fun _ _ _ h => h) n)
  · by_cases h3 : callOf o = some .compose3
    · rcases step_message h3 h hd with ⟨_, _, rfl⟩ | ⟨_, _, _, rfl⟩ | ⟨hu, ho, _⟩ | ⟨hu, ho, _⟩
      · exact Or.inl h4
      · exact Or.inl h4
      all_goals
        refine Or.inr (Or.inl ⟨?_, ?_, hu⟩)
        · simp only [okOf, okVerifiedM2, Bool.and_eq_true, beq_iff_eq] at ho
          exact ho.1.1
        · cases o <;> simp only [callOf, Option.some.injEq, reduceCtorEq] at h3
          exact ⟨_, rfl⟩
    · by_cases h5 : callOf o = some .process3
      · cases o <;> simp only [callOf, Option.some.injEq, reduceCtorEq] at h5
        rename_i b
        cases r with
        | ub u => simp at hd
        | ok a => exact Or.inr (Or.inr ⟨⟨b, rfl⟩, a, rfl⟩)
        | err er =>
          refine Or.inl ?_
          obtain ⟨r0, h0, hr0⟩ := mapOut_cases (m := message3Process E cfg b) (f := fun _ => Out.unit) h
          rcases hr0 with ⟨a, rfl, hr0⟩ | ⟨e, rfl, _⟩ | ⟨u, rfl, hr0⟩
          · cases hr0
          · exact (message3Process_err s).1 _ _ h0 h4
          · cases hr0
      · refine Or.inl (pres (noTh4_soft.later0 E cfg (fun _ _ h => h) hr ?_))
        simp only [List.mem_cons, List.not_mem_nil, or_false] at hk ⊢
        rintro (h | h | h | h | h) <;> simp [h] at hk h3 h5

/-- The transcript of a session is complete only if the handshake is, or if the Initiator failed to compose message 3
after it had authenticated the Responder. -/
theorem th4_session {e : σ} {log : List Ev} {h : History} {s : St σ} (hs : Session E cfg e log h s) :
    s.ctx.thState = .th4 → complete h ∨
      ∃ h1 n er h2, h = h1 ++ (.compose3 n, .err er) :: h2 ∧ n ≠ 0 ∧ inOrder h1 .compose3 := by
  refine session_ind (P := fun h s => s.ctx.thState = .th4 → complete h ∨
      ∃ h1 n er h2, h = h1 ++ (.compose3 n, .err er) :: h2 ∧ n ≠ 0 ∧ inOrder h1 .compose3) ?_ ?_ hs
  · intro h; simp [Ctx.fresh, Ctx.zero] at h
  · intro h s o r s' hs ih h1 hd hr h4
    rcases th4_step h1 hd hr h4 with h5 | ⟨hst, ⟨n, rfl⟩, hu⟩ | ⟨⟨b, rfl⟩, a, rfl⟩
    · rcases ih h5 with hc | ⟨h1, n, er, h2, rfl, hn, hi⟩
      · exact Or.inl (complete_append hc)
      · exact Or.inr ⟨h1, n, er, h2 ++ [(o, r)], by simp, hn, hi⟩
    · cases r with
      | ub u => simp at hd
      | ok a => exact Or.inl (by simp [complete, messages, succeeded, callOf])
      | err er =>
        refine Or.inr ⟨h, n, er, [], rfl, by simpa [usable] using hu, ?_⟩
        have hp := past_session hs
        rw [hst] at hp
        simp only [Past] at hp
        exact ⟨[.compose1, .process2, .compose3, .compose4], by simp [roleSequences], by rw [hp]; decide⟩
    · exact Or.inl (by simp [complete, messages, succeeded, callOf])

/-- no step to PRK_out -/
def NoOut (c c' : Ctx) : Prop := c'.prkState = .out → c.prkState = .out

theorem noOut_soft : Soft NoOut where
  refl _ h := h
  trans h1 h2 h := h1 (h2 h)
  keep _ _ _ _ _ h := h
  wipe _ h := h
  th _ _ _ _ h := h

/-- PRK_out is computed from the final transcript hash only -/
theorem toOut_step {o : Op} {s s' : St σ} {r : Res Out} (h : step E cfg o s = (r, s')) (hd : r.Defined)
    (hr : restarts o = false) (ho : s'.ctx.prkState = .out) : s.ctx.prkState = .out ∨ s.ctx.thState = .th4 := by
  have hP := noOut_soft
  have pres : Pres (OnCtx NoOut) (step E cfg o) → s.ctx.prkState = .out ∨ s.ctx.thState = .th4 := by
    intro hp
    have := hp s
    rw [h] at this
    exact Or.inl (this hd ho)
  have mod : OutMod s s' → s.ctx.prkState = .out ∨ s.ctx.thState = .th4 := by
    rintro ⟨_, _, h1 | h1⟩
    · exact Or.inl (h1.2 ▸ ho)
    · exact Or.inr h1.2.1
  have modP : Pres OutMod (step E cfg o) → s.ctx.prkState = .out ∨ s.ctx.thState = .th4 := by
    intro hp
    have := hp s
    rw [h] at this
    exact mod (this hd)
  have F := hP.frame (σ := σ)
  have F' := (outMod_calls (σ := σ)).toFrame
  cases o
  case init => simp [restarts] at hr
  case deinit => simp [restarts] at hr
  case compose1 n =>
    exact pres (Pres.mapOut F _ (hP.message1Compose E cfg (fun _ _ h => h) (fun _ _ h => h) n))
  case process1 b => exact pres (Pres.mapOut F _ (hP.message1Process E cfg (fun _ _ h => h) b))
  case compose2 n => exact pres (Pres.mapOut F _ (hP.message2Compose E cfg (fun _ _ _ h => h) n))
  case process2 b => exact pres (Pres.mapOut F _ (hP.message2Process E cfg b))
  case compose3 n => exact pres (Pres.mapOut F _ (hP.message3Compose E cfg (fun _ _ h => h) n))
  case process3 b => exact pres (Pres.mapOut F _ (hP.message3Process E cfg (fun _ _ h => h) b))
  case compose4 n => exact pres (Pres.mapOut F _ (hP.message4Compose E cfg n))
  case process4 b => exact pres (Pres.mapOut F _ (hP.message4Process E cfg b))
  case exportSecret l n => exact modP (Pres.mapOut F' _ (exportSecret_mod E cfg l n))
  case exportOscore a b c d => exact modP (Pres.mapOut F' _ (exportOscore_mod E cfg a b c d))
  case keyUpdate b =>
    obtain ⟨r0, h0, ⟨a, rfl, _⟩ | ⟨e, rfl, _⟩ | ⟨u, _, rfl⟩⟩ := step_update h
    · obtain ⟨_, _, _, h1 | h1, _⟩ := keyUpdate_ok h0
      · exact Or.inr h1.2
      · exact Or.inl h1
    · exact mod (keyUpdate_err E cfg h0)
    · simp at hd
  all_goals exact pres (hP.other E cfg rfl rfl rfl)

/-- the handshake is complete, or the Initiator failed to compose message 3 after it had authenticated the
Responder -/
def CompleteOr3 (h : History) : Prop :=
  complete h ∨ ∃ h1 n er h2, h = h1 ++ (.compose3 n, .err er) :: h2 ∧ n ≠ 0 ∧ inOrder h1 .compose3

theorem CompleteOr3.append {h h' : History} (hc : CompleteOr3 h) : CompleteOr3 (h ++ h') := by
  rcases hc with hc | ⟨h1, n, er, h2, rfl, hn, hi⟩
  · exact Or.inl (complete_append hc)
  · exact Or.inr ⟨h1, n, er, h2 ++ h', by simp, hn, hi⟩

theorem out_session {e : σ} {log : List Ev} {h : History} {s : St σ} (hs : Session E cfg e log h s) :
    s.ctx.prkState = .out → CompleteOr3 h := by
  refine session_ind (P := fun h s => s.ctx.prkState = .out → CompleteOr3 h) ?_ ?_ hs
  · intro h; simp [Ctx.fresh, Ctx.zero] at h
  · intro h s o r s' hs ih h1 hd hr ho
    rcases toOut_step h1 hd hr ho with h2 | h2
    · exact (ih h2).append
    · exact CompleteOr3.append (th4_session hs h2)

/-- **C17**, exporter. If `edhoc_export_prk_exporter` succeeds, the handshake is complete, or else the party is an
Initiator that has authenticated the Responder and whose `edhoc_message_3_compose` then failed. (The property excludes
the second case, see `C17_violated`.) -/
theorem C17_secret_partial {e : σ} {log : List Ev} {h : History} {l n : Nat} {out : Out} {s' : St σ}
    (hs : Session E cfg e log (h ++ [(.exportSecret l n, .ok out)]) s') :
    complete h ∨ ∃ h1 n er h2, h = h1 ++ (.compose3 n, .err er) :: h2 ∧ n ≠ 0 ∧ inOrder h1 .compose3 := by
  obtain ⟨s1, r1, r2⟩ := run_append hs.1
  obtain ⟨s2, e2, d2, r3⟩ := run_cons r2
  have hs1 : Session E cfg e log h s1 := ⟨r1, fun q hq => hs.2 q (by simp [hq])⟩
  obtain ⟨r0, h0, ⟨a, rfl, _⟩ | ⟨_, _, hr⟩ | ⟨_, _, hr⟩⟩ := step_export e2
  · obtain ⟨_, _, _, _, _, h1 | h1, _⟩ := exportSecret_ok h0
    · exact th4_session hs1 h1.2
    · exact out_session hs1 h1
  · cases hr
  · cases hr

/-- the handshake of a session fails: from then on the session is aborted -/
theorem failed_aborted {e : σ} {log : List Ev} {h : History} {s : St σ} (hs : Session E cfg e log h s)
    (hf : HandshakeFailed h) : s.ctx.status = .aborted := by
  obtain ⟨h1, o, er, h2, k, rfl, hk, hu, hi, h4⟩ := hf
  obtain ⟨s1, r1, r2⟩ := run_append hs.1
  obtain ⟨s2, e2, d2, r3⟩ := run_cons r2
  have hs1 : Session E cfg e log h1 s1 := ⟨r1, fun q hq => hs.2 q (by simp [hq])⟩
  by_cases ha : s1.ctx.status = .aborted
  · exact aborted_run r2 (fun q hq => hs.2 q (List.mem_append_right _ hq)) ha
  have hok := phase_ok (session_phase hs1) (past_session hs1) ha hi (fun hk4 =>
    (out_run hs1.1 hs1.2 (h4 hk4) (Or.inr (by simp [Ctx.fresh, Ctx.zero]))).resolve_left ha)
  refine aborted_run r3 (fun q hq => hs.2 q (List.mem_append_right _ (List.mem_cons_of_mem _ hq))) ?_
  rcases step_message hk e2 (by simp) with ⟨h1, _⟩ | ⟨_, h1, _⟩ | ⟨_, _, _, _, _, _, hc⟩ | ⟨_, _, ⟨a, he⟩, _⟩
  · rw [hu] at h1; cases h1
  · rw [hok] at h1; cases h1
  · exact (ctl1_proj hc).2.1
  · cases he

/-- **C17**, key update and OSCORE export: they succeed only if the handshake is complete and no step of it, message 4
included, has failed. -/
theorem C17_update_oscore {e : σ} {log : List Ev} {h : History} {o : Op} {out : Out} {s' : St σ}
    (hs : Session E cfg e log (h ++ [(o, .ok out)]) s') (ho : isUpdate o = true ∨ isOscore o = true) :
    complete h ∧ ¬ HandshakeFailed h := by
  obtain ⟨s1, r1, r2⟩ := run_append hs.1
  obtain ⟨s2, e2, d2, r3⟩ := run_cons r2
  have hs1 : Session E cfg e log h s1 := ⟨r1, fun q hq => hs.2 q (by simp [hq])⟩
  constructor
  · refine Classical.byContradiction fun hn => ?_
    have := C03_export_before_completion hs1 hn ho
    unfold Refused at this
    rw [e2] at this
    cases this
  · intro hf
    have := aborted_frozen (E := E) (cfg := cfg) (failed_aborted hs1 hf) [] s1 (.nil _) (by simp) o (Or.inr ho)
    unfold Refused at this
    rw [e2] at this
    cases this

/-- the Initiator authenticates the Responder, cannot compose message 3 because the output buffer is too small, and
exports keys -/
def ops17 : List Op := Toy.conf 3 (.int 5) ++ [.compose1 100, .process2 (Toy.msg 3 2), .compose3 5, .exportSecret 32768 16]

/-- **C17 is violated**: an Initiator can export keys in a session whose handshake has failed and is not complete. -/
theorem C17_violated : ∃ (h1 h2 : History) (l n : Nat) (out : Out) (s' : St Unit),
    Session (Toy.env Toy.alice) Toy.cfg () [] (h1 ++ (.compose3 5, .err .cbor) :: h2 ++ [(.exportSecret l n, .ok out)]) s' ∧
      ¬ complete (h1 ++ (.compose3 5, .err .cbor) :: h2) ∧ HandshakeFailed (h1 ++ (.compose3 5, .err .cbor) :: h2) := by
  refine ⟨(Toy.hst Toy.alice ops17).take 9, [], 32768, 16,
    .bytes [121, 166, 211, 0, 45, 90, 135, 165, 210, 255, 44, 89, 134, 179, 224, 13], Toy.after Toy.alice ops17, ?_, ?_, ?_⟩
  · have h := Toy.session Toy.alice ops17 (by decide +kernel)
    have e : Toy.hst Toy.alice ops17 = (Toy.hst Toy.alice ops17).take 9 ++ (.compose3 5, .err .cbor) :: [] ++
      [(.exportSecret 32768 16, .ok (.bytes [121, 166, 211, 0, 45, 90, 135, 165, 210, 255, 44, 89, 134, 179, 224, 13]))] := by
      decide +kernel
    rw [← e]
    exact h
  · unfold complete; decide +kernel
  · exact ⟨_, _, _, [], .compose3, rfl, rfl, rfl,
      ⟨[.compose1, .process2, .compose3, .compose4], by simp [roleSequences], by decide +kernel⟩, by simp⟩

/-- Non-vacuity of `C17_secret_partial` and `C17_update_oscore`: exports in completed sessions. -/
def ops17b : List Op := Toy.callsI 3 ++ [.exportSecret 32768 16, .keyUpdate [1, 2], .exportOscore 4 4 8 8]

example : Session (Toy.env Toy.alice) Toy.cfg () [] (Toy.hst Toy.alice ops17b) (Toy.after Toy.alice ops17b) ∧
    (((Toy.hst Toy.alice ops17b).drop 11).map fun p => succeeded p.2) = [true, true, true] :=
  ⟨Toy.session Toy.alice ops17b (by decide +kernel), by decide +kernel⟩

/-! ## C19 -/

/-- **C19**, second half: after de-initialisation every field of the context is zero. -/
theorem C19_deinit {s s' : St σ} {o : Out} (h : step E cfg .deinit s = (.ok o, s')) : s'.ctx = Ctx.zero := by
  obtain ⟨r0, h0, ⟨a, rfl, _⟩ | ⟨e, rfl, hr⟩ | ⟨u, rfl, hr⟩⟩ := mapOut_cases h
  · simp only [contextDeinit, bind_ok, getCtx_ok, require_ok, modCtx_ok] at h0
    obtain ⟨_, _, ⟨rfl, rfl⟩, _, _, ⟨_, rfl⟩, rfl⟩ := h0
    rfl
  · cases hr
  · cases hr

/-- the method is fixed, and no ephemeral key appears -/
def Wiped (c c' : Ctx) : Prop := c'.chosenMethod = c.chosenMethod ∧ (c.dhPriv = [] → c'.dhPriv = [])

theorem wiped_soft : Soft Wiped where
  refl _ := ⟨rfl, fun h => h⟩
  trans h1 h2 := ⟨h2.1.trans h1.1, fun h => h2.2 (h1.2 h)⟩
  keep _ _ _ h1 h2 _ := ⟨h2, fun h => h1.trans h⟩
  wipe _ := ⟨rfl, fun _ => rfl⟩
  th _ _ _ _ := ⟨rfl, fun h => h⟩

/-- **C19**. The Initiator wipes its ephemeral private key when message 2 is accepted and the Responder authenticates
with a static key; the Responder wipes its own when message 3 is accepted and the Initiator authenticates with a static
key. It never reappears. (In the other methods it stays in the context, see `C19_violated`.) -/
theorem C19_wiped_partial {e : σ} {log : List Ev} {h : History} {s : St σ} (hs : Session E cfg e log h s)
    (hm : (.process2 ∈ messages h ∧ responderSigns s.ctx.chosenMethod = false) ∨
      (.process3 ∈ messages h ∧ initiatorSigns s.ctx.chosenMethod = false)) : s.ctx.dhPriv = [] := by
  revert hm
  refine session_ind (P := fun h s => (.process2 ∈ messages h ∧ responderSigns s.ctx.chosenMethod = false) ∨
      (.process3 ∈ messages h ∧ initiatorSigns s.ctx.chosenMethod = false) → s.ctx.dhPriv = []) ?_ ?_ hs
  · simp [messages]
  · intro h s o r s' hs ih h1 hd hr hm
    by_cases hk : callOf o ∈ [some .compose1, some .process1, some .compose2]
    · obtain ⟨k, hk1, hk2⟩ : ∃ k, callOf o = some k ∧ k ∈ [.compose1, .process1, .compose2] := by
        simp only [List.mem_cons, List.not_mem_nil, or_false] at hk
        rcases hk with hk | hk | hk
        · exact ⟨_, hk, by simp⟩
        · exact ⟨_, hk, by simp⟩
        · exact ⟨_, hk, by simp⟩
      have hmsg : ∀ {k'}, k' = .process2 ∨ k' = .process3 → k' ∈ messages (h ++ [(o, r)]) → k' ∈ messages h := by
        intro k' hk' hin
        rw [messages_append, List.mem_append] at hin
        refine hin.resolve_right fun hin => ?_
        simp only [messages, List.filterMap_cons, List.filterMap_nil] at hin
        cases hsr : succeeded r <;> simp only [hsr, hk1] at hin <;> simp at hin
        subst hin
        rcases hk' with rfl | rfl <;> simp at hk2
      have hm' : (.process2 ∈ messages h ∧ responderSigns s'.ctx.chosenMethod = false) ∨
          (.process3 ∈ messages h ∧ initiatorSigns s'.ctx.chosenMethod = false) := by
        rcases hm with hm | hm
        · exact Or.inl ⟨hmsg (Or.inl rfl) hm.1, hm.2⟩
        · exact Or.inr ⟨hmsg (Or.inr rfl) hm.1, hm.2⟩
      have start : okOf k s.ctx = true → False := by
        intro ho
        have hp := past_session hs
        simp only [List.mem_cons, List.not_mem_nil, or_false] at hk2
        rcases hk2 with rfl | rfl | rfl <;>
          simp only [okOf, okStart, okReceivedM1, Bool.and_eq_true, beq_iff_eq] at ho <;> rw [ho.1.1] at hp <;>
          simp only [Past] at hp <;> simp [hp] at hm'
      rcases step_message hk1 h1 hd with ⟨_, _, rfl⟩ | ⟨_, _, _, rfl⟩ | ⟨_, ho, _⟩ | ⟨_, ho, _⟩
      · exact ih hm'
      · exact ih hm'
      · exact (start ho).elim
      · exact (start ho).elim
    · have hw : Wiped s.ctx s'.ctx := by
        have := wiped_soft.later E cfg (fun _ _ => ⟨rfl, fun h => h⟩) (fun _ _ => ⟨rfl, fun h => h⟩) hr hk s
        rw [h1] at this
        exact this hd
      rw [hw.1] at hm
      have new : ∀ {k : Call}, k ∈ messages (h ++ [(o, r)]) → k ∈ messages h ∨ (callOf o = some k ∧ ∃ a, r = .ok a) := by
        intro k hin
        rw [messages_append, List.mem_append] at hin
        refine hin.imp id fun hin => ?_
        simp only [messages, List.filterMap_cons, List.filterMap_nil] at hin
        cases r <;> simp [succeeded] at hin
        cases hk : callOf o <;> simp [hk] at hin
        exact ⟨by rw [hin], _, rfl⟩
      rcases hm with ⟨h2, h3⟩ | ⟨h2, h3⟩
      · rcases new h2 with h2 | ⟨h5, a, rfl⟩
        · exact hw.2 (ih (Or.inl ⟨h2, h3⟩))
        · obtain ⟨m, rfl, _, c⟩ := step_process2 h5 h1
          obtain ⟨_, _, _, _, _, _, _, h4⟩ := message2Process_ok c
          rw [h4.ctx]; simp [h3]
      · rcases new h2 with h2 | ⟨h5, a, rfl⟩
        · exact hw.2 (ih (Or.inr ⟨h2, h3⟩))
        · obtain ⟨m, rfl, _, c⟩ := step_process3 h5 h1
          obtain ⟨_, _, _, _, h4⟩ := message3Process_ok c
          rw [h4.ctx]; simp [h3]

/-- Non-vacuity: an Initiator in method 3, and a Responder in method 2. Both had a key before. -/
example : .process2 ∈ messages (Toy.hst Toy.alice (Toy.callsI 3)) ∧
    responderSigns (Toy.after Toy.alice (Toy.callsI 3)).ctx.chosenMethod = false ∧
    (Toy.after Toy.alice ((Toy.callsI 3).take 8)).ctx.dhPriv ≠ [] ∧
    .process3 ∈ messages (Toy.hst Toy.bob (Toy.callsR 2)) ∧
    initiatorSigns (Toy.after Toy.bob (Toy.callsR 2)).ctx.chosenMethod = false ∧
    (Toy.after Toy.bob ((Toy.callsR 2).take 9)).ctx.dhPriv ≠ [] := by
  decide +kernel

/-- **C19 is violated** when the peer signs: the ephemeral private key is in the context after the whole handshake. -/
theorem C19_violated :
    (∃ h s, Session (Toy.env Toy.alice) Toy.cfg () [] h s ∧
      messages h = [.compose1, .process2, .compose3, .process4] ∧ s.ctx.dhPriv ≠ []) ∧
    (∃ h s, Session (Toy.env Toy.bob) Toy.cfg () [] h s ∧
      messages h = [.process1, .compose2, .process3, .compose4] ∧ s.ctx.dhPriv ≠ []) :=
  ⟨⟨_, _, Toy.session Toy.alice (Toy.callsI 0) (by decide +kernel), by decide +kernel, by decide +kernel⟩,
    ⟨_, _, Toy.session Toy.bob (Toy.callsR 0) (by decide +kernel), by decide +kernel, by decide +kernel⟩⟩

end Verif
