import Verif.SpecScript
import Verif.Props.Separation
import Verif.Props.Codes
import Verif.Props.History
import Verif.Growth

/-!
# C86: what a session asks of its application, and in which order
-/

namespace Verif

open M Spec

variable {σ : Type} {E : Env σ} {cfg : Config}

theorem asked_append (a b : List Ev) : asked (a ++ b) = asked a ++ asked b := List.filterMap_append

theorem asked_within {ks : List Kind} {L : List Ev} (h : Spec.Within ks L) :
    (asked L).Sublist (ks.filter fun k => match k with | .derive _ => false | _ => true) := by
  induction h with
  | nil => exact List.Sublist.refl _
  | @skip ks v L hv _ ih =>
    have : ask v = none := by cases v <;> first | rfl | cases hv
    unfold asked at ih ⊢
    rw [List.filterMap_cons_none this]
    exact ih
  | @hit k ks v L hk _ ih =>
    unfold asked at ih ⊢
    cases hk <;> simp only [List.filterMap_cons, ask, List.filter_cons] <;> first | exact ih | exact ih.cons_cons _
  | @miss k ks L _ ih =>
    cases k <;> simp only [List.filter_cons, if_true, Bool.false_eq_true, if_false] <;>
      first | exact ih | exact ih.cons _

theorem asked_message {o : Op} {k : Call} (hk : callOf o = some k) {s s' : St σ} {r : Res Out}
    (h : step E cfg o s = (r, s')) (hd : r.Defined) : (asked (during s s')).Sublist (asksOf k) := by
  have h1 := asked_within (C33_performs h hd)
  cases o <;> simp only [callOf, Option.some.injEq, reduceCtorEq] at hk <;> subst hk <;> exact h1

theorem asked_other {o : Op} (hk : callOf o = none) {s s' : St σ} {r : Res Out}
    (h : step E cfg o s = (r, s')) (hd : r.Defined) : asked (during s s') = [] := by
  have h1 := asked_within (C33_performs h hd)
  cases o <;> simp only [callOf, reduceCtorEq] at hk <;> exact List.sublist_nil.1 h1

/-- The requests of a session, and where the handshake stands. -/
theorem script_session {e : σ} {log : List Ev} {h : History} {s : St σ} (hs : Session E cfg e log h s) :
    ∃ es, s.log = log ++ es ∧ ∃ p, Past p s.ctx.status ∧ (asked es).Sublist (script p) := by
  refine session_ind (P := fun _ s => ∃ es, s.log = log ++ es ∧ ∃ p, Past p s.ctx.status ∧
    (asked es).Sublist (script p)) ?_ ?_ hs
  · exact ⟨[], by simp, [], rfl, List.Sublist.refl _⟩
  · intro h s o r s' _ ih hst hd hr
    obtain ⟨es, l1, p, hp, w1⟩ := ih
    have l2 : s'.log = log ++ (es ++ during s s') := by
      obtain ⟨b, g⟩ := grow_iff.1 (step_grow hst hd)
      unfold during
      rw [g, l1]; simp
    cases hk : callOf o with
    | none =>
      have ha := asked_other hk hst hd
      refine ⟨_, l2, p, ?_, by rw [asked_append, ha, List.append_nil]; exact w1⟩
      have := past_step hst hd hr hp
      rwa [added_none hk, List.append_nil] at this
    | some k =>
      have ha := asked_message hk hst hd
      have hsub : (asked (es ++ during s s')).Sublist (script (p ++ [k])) := by
        rw [asked_append]
        unfold script
        rw [List.flatMap_append, List.flatMap_cons, List.flatMap_nil, List.append_nil]
        exact w1.append ha
      rcases step_message hk hst hd with ⟨_, _, rfl⟩ | ⟨_, _, _, rfl⟩ | ⟨_, h1, _, _, _, _, h2⟩ | ⟨_, h1, _, _, h2⟩
      · exact ⟨es, l1, p, hp, w1⟩
      · exact ⟨es, l1, p, hp, w1⟩
      · refine ⟨_, l2, p ++ [k], ?_, hsub⟩
        rw [(ctl1_proj h2).2.1]
        exact past_prefix (past_next hp h1)
      · refine ⟨_, l2, p ++ [k], ?_, hsub⟩
        rw [(ctl1_proj h2).2.1]
        exact past_next hp h1

/-- **C86**, order: whatever is called and whatever is received, a session asks its application for EAD, credentials,
signatures and AEAD in the order of one handshake, and for each of them at most once. -/
theorem C86_order {e : σ} {log : List Ev} {h : History} {s : St σ} (hs : Session E cfg e log h s) :
    ∃ q ∈ roleSequences, (asked (sessionCalls log s)).Sublist (script q) := by
  obtain ⟨es, l1, p, hp, w⟩ := script_session hs
  obtain ⟨q, hq, t, ht⟩ := past_prefix hp
  refine ⟨q, hq, ?_⟩
  unfold sessionCalls
  rw [l1, List.drop_left]
  refine w.trans ?_
  rw [← ht]
  unfold script
  rw [List.flatMap_append]
  exact List.sublist_append_left _ _

/-- **C86**, one call: the first callback that fails is the last one that is called, but for the destruction of keys. -/
theorem C86_call_stops {o : Op} {s s' : St σ} {r : Res Out} (h : step E cfg o s = (r, s')) (hd : r.Defined)
    {a b : List Ev} {v : Ev} (hv : during s s' = a ++ v :: b) (hf : v.failed = true) :
    (∃ e, r = .err e) ∧ ∀ x ∈ b, x.callback = .destroyKey := by
  have hd' : (step E cfg o s).1.Defined := by rw [h]; exact hd
  have hl : (step E cfg o s).2.log = s.log ++ during s s' := by
    rw [h]
    obtain ⟨b, g⟩ := grow_iff.1 (step_grow h hd)
    unfold during
    rw [g]; simp
  obtain ⟨l', h1, -, -, h4⟩ := does_step E cfg o s hd'
  cases List.append_cancel_left (hl.symm.trans h1)
  refine ⟨?_, h4 a v b hv hf⟩
  have := C43_no_failure_lost E cfg o s hd' hl (by rw [hv]; simp) hf
  rwa [h] at this

theorem asked_cleanup {l : List Ev} (h : ∀ x ∈ l, x.callback = .destroyKey) : asked l = [] := by
  unfold asked
  rw [List.filterMap_eq_nil_iff]
  intro x hx
  have := h x hx
  cases x <;> first | rfl | cases this

/-- **C86**, a session: after one of these requests failed, none follows, whatever is called. -/
theorem C86_session_stops {e : σ} {log : List Ev} {h : History} {s : St σ} (hs : Session E cfg e log h s)
    {a b : List Ev} {v : Ev} (hv : sessionCalls log s = a ++ v :: b) (hf : v.failed = true) (ha : ask v ≠ none) :
    asked b = [] ∧ s.ctx.status = .aborted := by
  have key : ∃ es, s.log = log ++ es ∧ ∀ a v b, es = a ++ v :: b → v.failed = true → ask v ≠ none →
      asked b = [] ∧ s.ctx.status = .aborted := by
    refine session_ind (P := fun _ s => ∃ es, s.log = log ++ es ∧ ∀ a v b, es = a ++ v :: b → v.failed = true →
      ask v ≠ none → asked b = [] ∧ s.ctx.status = .aborted) ?_ ?_ hs
    · exact ⟨[], by simp, fun a v b h => by cases a <;> cases h⟩
    · intro h s o r s' _ ih hst hd hr
      obtain ⟨es, l1, w⟩ := ih
      have l2 : s'.log = log ++ (es ++ during s s') := by
        obtain ⟨b, g⟩ := grow_iff.1 (step_grow hst hd)
        unfold during
        rw [g, l1]; simp
      -- an aborted session asks for nothing more and stays aborted
      have dead : s.ctx.status = .aborted → asked (during s s') = [] ∧ s'.ctx.status = .aborted := by
        intro hab
        cases hk : callOf o with
        | none =>
          refine ⟨asked_other hk hst hd, ?_⟩
          rcases (step_other hk hr hst hd).2.2 with ⟨h1, _⟩ | ⟨_, _, _, _, _, h1, _⟩ |
              ⟨_, _, _, _, _, _, _, _, h1, _⟩ | ⟨_, _, h1, _⟩
          · rw [h1, hab]
          · rw [h1, hab]
          · rw [h1, hab]
          · exact h1
        | some k =>
          have no := aborted_not_ok (k := k) hab
          have same : s' = s → asked (during s s') = [] ∧ s'.ctx.status = .aborted := by
            rintro rfl
            exact ⟨by simp [during, asked], hab⟩
          rcases step_message hk hst hd with ⟨_, _, h2⟩ | ⟨_, _, _, h2⟩ | ⟨_, h1, _⟩ | ⟨_, h1, _⟩
          · exact same h2
          · exact same h2
          · rw [no] at h1; cases h1
          · rw [no] at h1; cases h1
      -- a failed request is part of a message call, which aborts the session
      have new : ∀ a v b, during s s' = a ++ v :: b → v.failed = true → ask v ≠ none →
          asked b = [] ∧ s'.ctx.status = .aborted := by
        intro a v b hv hf ha
        obtain ⟨⟨e, rfl⟩, hc⟩ := C86_call_stops hst hd hv hf
        refine ⟨asked_cleanup hc, ?_⟩
        have here : s' ≠ s := by
          rintro rfl
          simp [during] at hv
        cases hk : callOf o with
        | none =>
          have := asked_other hk hst hd
          rw [hv, asked_append] at this
          have := (List.append_eq_nil_iff.1 this).2
          unfold asked at this
          rw [List.filterMap_eq_nil_iff] at this
          exact absurd (this v (by simp)) ha
        | some k =>
          rcases step_message hk hst hd with ⟨_, _, h2⟩ | ⟨_, _, _, h2⟩ | ⟨_, _, _, _, _, _, h2⟩ | ⟨_, _, ⟨_, h2⟩, _⟩
          · exact absurd h2 here
          · exact absurd h2 here
          · exact (ctl1_proj h2).2.1
          · cases h2
      refine ⟨_, l2, ?_⟩
      intro a v b hv hf ha
      rcases List.append_eq_append_iff.1 hv with ⟨c, rfl, e2⟩ | ⟨c, e1, e2⟩
      · exact new c v b e2 hf ha
      · cases c with
        | nil => exact new [] v b e2.symm hf ha
        | cons y c =>
          obtain ⟨rfl, rfl⟩ := List.cons.inj e2
          obtain ⟨w1, w2⟩ := w a v c e1 hf ha
          obtain ⟨d1, d2⟩ := dead w2
          refine ⟨?_, d2⟩
          show asked (c ++ during s s') = []
          rw [asked_append, w1, d1]; rfl
  obtain ⟨es, l1, w⟩ := key
  unfold sessionCalls at hv
  rw [l1, List.drop_left] at hv
  exact w a v b hv hf ha

/-! ## Concrete sessions -/

/-- a Responder with method 0 asks for everything in its script -/
example : asked (sessionCalls [] (Toy.after Toy.bob (Toy.callsR 0))) =
    script [.process1, .compose2, .process3, .compose4] := by decide +kernel

example : ∃ q ∈ roleSequences, (asked (sessionCalls [] (Toy.after Toy.alice (Toy.callsI 3)))).Sublist (script q) :=
  C86_order Toy.session_I3

/-- an Initiator with method 0, to whom nothing is sent in EAD_2 -/
example : asked (sessionCalls [] (Toy.after Toy.alice (Toy.callsI 0))) =
    (script [.compose1, .process2, .compose3, .process4]).filter (· ≠ .eadProcess .msg2) := by decide +kernel

/-- message 3 with one byte changed on its way -/
def Toy.changed3 : List Op := (Toy.callsR 0).map fun o =>
  match o with
  | .process3 b => .process3 (b.set 5 77)
  | o => o

/-- its decryption fails; the session asks for nothing afterwards, although `edhoc_message_4_compose` is called -/
example : Session (Toy.env Toy.bob) Toy.cfg () [] (Toy.hst Toy.bob Toy.changed3) (Toy.after Toy.bob Toy.changed3) ∧
    asked (sessionCalls [] (Toy.after Toy.bob Toy.changed3)) =
      [.eadProcess .msg1, .credFetch, .eadCompose .msg2, .sign, .decrypt] ∧
    ((sessionCalls [] (Toy.after Toy.bob Toy.changed3)).any fun v => v.failed && ask v == some .decrypt) = true ∧
    (Toy.hst Toy.bob Toy.changed3).map (fun p => succeeded p.2) =
      [true, true, true, true, true, true, true, true, true, false, false] :=
  ⟨Toy.session _ _ (by decide +kernel), by decide +kernel, by decide +kernel, by decide +kernel⟩

end Verif
