import Verif.EmitsAt
import Verif.Props.Script
import Verif.Props.StaticKey

/-!
# C86: what a session asks of its application, exactly
-/

namespace Verif

open M Spec

variable {σ : Type} {E : Env σ} {cfg : Config}

theorem sublist_all {α : Type} {L K : List α} (h : L.Sublist K) (hn : K.Nodup) (ha : ∀ k ∈ K, k ∈ L) : L = K := by
  induction h with
  | slnil => rfl
  | cons k hs _ =>
    have := hs.subset (ha k List.mem_cons_self)
    exact absurd this (List.nodup_cons.1 hn).1
  | cons_cons k hs ih =>
    rw [ih (List.nodup_cons.1 hn).2 fun x hx => ?_]
    rcases List.mem_cons.1 (ha x (List.mem_cons_of_mem _ hx)) with rfl | h
    · exact absurd hx (List.nodup_cons.1 hn).1
    · exact h

theorem asked_mem {L : List Ev} {v : Ev} {k : Kind} (hv : v ∈ L) (hk : ask v = some k) (hn : otherThanEad k = true) :
    k ∈ (asked L).filter otherThanEad :=
  List.mem_filter.2 ⟨List.mem_filterMap.2 ⟨v, hv, hk⟩, hn⟩

theorem asked_within' {ks K : List Kind} {s s' : St σ} (h : ∃ es, s'.log = s.log ++ es ∧ Spec.Within ks es)
    (hK : (ks.filter fun k => match k with | .derive _ => false | _ => true).filter otherThanEad = K) :
    ((asked (during s s')).filter otherThanEad).Sublist K := by
  obtain ⟨es, h1, h2⟩ := h
  have : during s s' = es := by unfold during; rw [h1, List.drop_left]
  rw [this, ← hK]
  exact (asked_within h2).filter _

/-- One message call that succeeded. -/
theorem needs_step {o : Op} {k : Call} (hk : callOf o = some k) {s s' : St σ} {x : Out}
    (h : step E cfg o s = (.ok x, s')) :
    (asked (during s s')).filter otherThanEad = needs s'.ctx.chosenMethod k ∧
      (k = .compose1 ∨ k = .process1 ∨ s'.ctx.chosenMethod = s.ctx.chosenMethod) := by
  have hsub := (asked_message hk h (by simp)).filter otherThanEad
  have mem : ∀ {v : Ev} {k : Kind}, v ∈ during s s' → ask v = some k → otherThanEad k = true →
      k ∈ (asked (during s s')).filter otherThanEad := asked_mem
  cases o <;> simp only [callOf, Option.some.injEq, reduceCtorEq] at hk <;> subst hk
  case compose1 => exact ⟨List.sublist_nil.1 hsub, .inl rfl⟩
  case process1 => exact ⟨List.sublist_nil.1 hsub, .inr (.inl rfl)⟩
  case compose2 n =>
    obtain ⟨_, h0, _⟩ := mapOut_ok.1 h
    obtain ⟨_, _, kid, v, c⟩ := message2Compose_ok h0
    have hm : s'.ctx.chosenMethod = s.ctx.chosenMethod := by rw [c.ctx]
    refine ⟨?_, .inr (.inr hm)⟩
    rw [hm]
    have f := mem c.fetch.mem rfl rfl
    simp only [needs]
    split
    · next hs =>
      rcases c.sig with ⟨_, g⟩ | ⟨g, _⟩
      · have g' := mem g.mem rfl rfl
        exact sublist_all hsub (by decide) (by simp [f, g', -List.mem_filter])
      · rw [hs] at g; cases g
    · next hs =>
      have e := EmitsAt.message2Compose E cfg n s (by simpa [responderSigns] using hs) (by rw [h0]; simp)
      rw [h0] at e
      exact sublist_all (asked_within' e rfl) (by decide) (by simp [f, -List.mem_filter])
  case process2 n =>
    obtain ⟨_, h0, _⟩ := mapOut_ok.1 h
    obtain ⟨_, _, _, _, _, _, v, c⟩ := message2Process_ok h0
    have hm : s'.ctx.chosenMethod = s.ctx.chosenMethod := by rw [c.ctx]
    refine ⟨?_, .inr (.inr hm)⟩
    rw [hm]
    have f := mem c.verified.mem rfl rfl
    simp only [needs]
    split
    · next hs =>
      rcases c.auth with ⟨_, _, g⟩ | ⟨g, _⟩
      · have g := mem (Saw.mem (Saw.sub (L := [_]) (M := [_]) (N := [_]) g)) rfl rfl
        exact sublist_all hsub (by decide) (by simp [f, g, -List.mem_filter])
      · rw [hs] at g; cases g
    · next hs =>
      have e := EmitsAt.message2Process E cfg n s (by simpa [responderSigns] using hs) (by rw [h0]; simp)
      rw [h0] at e
      exact sublist_all (asked_within' e rfl) (by decide) (by simp [f, -List.mem_filter])
  case compose3 n =>
    obtain ⟨_, h0, _⟩ := mapOut_ok.1 h
    obtain ⟨kid, v, c⟩ := message3Compose_ok h0
    have hm : s'.ctx.chosenMethod = s.ctx.chosenMethod := by rw [c.ctx]
    refine ⟨?_, .inr (.inr hm)⟩
    rw [hm]
    have f := mem c.fetch.mem rfl rfl
    obtain ⟨_, en⟩ := c.encrypted
    have en := mem (Saw.mem (Saw.sub (L := [_]) (M := [_]) (N := [_]) en)) rfl rfl
    simp only [needs]
    split
    · next hs =>
      rcases c.sig with ⟨_, g⟩ | ⟨g, _⟩
      · have g' := mem g.mem rfl rfl
        exact sublist_all hsub (by decide) (by simp [f, en, g', -List.mem_filter])
      · rw [hs] at g; cases g
    · next hs =>
      have e := EmitsAt.message3Compose E cfg n s (by simpa [initiatorSigns] using hs) (by rw [h0]; simp)
      rw [h0] at e
      exact sublist_all (asked_within' e rfl) (by decide) (by simp [f, en, -List.mem_filter])
  case process3 n =>
    obtain ⟨_, h0, _⟩ := mapOut_ok.1 h
    obtain ⟨_, _, _, v, c⟩ := message3Process_ok h0
    have hm : s'.ctx.chosenMethod = s.ctx.chosenMethod := by rw [c.ctx]
    refine ⟨?_, .inr (.inr hm)⟩
    rw [hm]
    have f := mem c.verified.mem rfl rfl
    obtain ⟨_, de⟩ := c.decrypted
    have de := mem (Saw.mem (Saw.sub (L := [_]) (M := [_]) (N := [_]) de)) rfl rfl
    simp only [needs]
    split
    · next hs =>
      rcases c.auth with ⟨_, _, g⟩ | ⟨g, _⟩
      · have g := mem (Saw.mem (Saw.sub (L := [_]) (M := [_]) (N := [_]) g)) rfl rfl
        exact sublist_all hsub (by decide) (by simp [f, de, g, -List.mem_filter])
      · rw [hs] at g; cases g
    · next hs =>
      have e := EmitsAt.message3Process E cfg n s (by simpa [initiatorSigns] using hs) (by rw [h0]; simp)
      rw [h0] at e
      exact sublist_all (asked_within' e rfl) (by decide) (by simp [f, de, -List.mem_filter])
  case compose4 n =>
    obtain ⟨_, h0, _⟩ := mapOut_ok.1 h
    obtain ⟨_, _, _, _, _, c⟩ := message4Compose_ok h0
    refine ⟨?_, .inr (.inr (by rw [c.ctx]))⟩
    obtain ⟨_, en⟩ := c.encrypted
    have en := mem (Saw.mem (Saw.sub (L := [_]) (M := [_]) (N := [_]) en)) rfl rfl
    exact sublist_all (K := [Kind.encrypt]) hsub (by decide) (by simp [en, -List.mem_filter])
  case process4 n =>
    obtain ⟨_, h0, _⟩ := mapOut_ok.1 h
    obtain ⟨_, _, _, _, c⟩ := message4Process_ok h0
    refine ⟨?_, .inr (.inr (by rw [c.ctx]))⟩
    obtain ⟨_, de⟩ := c.decrypted
    have de := mem (Saw.mem (Saw.sub (L := [_]) (M := [_]) (N := [_]) de)) rfl rfl
    exact sublist_all (K := [Kind.decrypt]) hsub (by decide) (by simp [de, -List.mem_filter])

/-- **C86**, exactly: as long as nothing failed, the requests other than for EAD are those that the messages so far need
with the session's method, each once and in the order of the handshake. So a handshake completes only after the
application supplied its own credential, accepted the peer's credential and, where the method asks for it, signed and
accepted a signature; and it is asked for nothing else. -/
theorem C86_exact {e : σ} {log : List Ev} {h : History} {s : St σ} (hs : Session E cfg e log h s)
    (hn : s.ctx.status ≠ .aborted) :
    (asked (sessionCalls log s)).filter otherThanEad = (messages h).flatMap (needs s.ctx.chosenMethod) := by
  revert hn
  refine session_ind (P := fun h s => s.ctx.status ≠ .aborted →
    (asked (sessionCalls log s)).filter otherThanEad = (messages h).flatMap (needs s.ctx.chosenMethod)) ?_ ?_ hs
  · intro _
    simp [sessionCalls, asked, messages]
  · intro h s o r s' hs ih hst hd hr hn
    have sp := session_split hs (step_grow hst hd)
    rw [messages_append, List.flatMap_append, sp, asked_append, List.filter_append]
    cases hk : callOf o with
    | none =>
      have hm : s'.ctx.chosenMethod = s.ctx.chosenMethod := by
        have := agreement_other hk hr hst hd
        simp only [Ctx.agreement, Prod.mk.injEq] at this
        exact this.2.2
      have hq : messages [(o, r)] = [] := by simp [messages, hk]
      have hsn : s.ctx.status ≠ .aborted := by
        intro hab
        rcases (step_other hk hr hst hd).2.2 with ⟨h1, _⟩ | ⟨_, _, _, _, _, h1, _⟩ |
            ⟨_, _, _, _, _, _, _, _, h1, _⟩ | ⟨_, _, h1, _⟩
        · exact hn (h1.trans hab)
        · exact hn (h1.trans hab)
        · exact hn (h1.trans hab)
        · exact hn h1
      rw [hq, asked_other hk hst hd, hm, ih hsn]
      simp
    | some k =>
      have same : s' = s → messages [(o, r)] = [] → (asked (sessionCalls log s)).filter otherThanEad ++
          (asked (during s s')).filter otherThanEad = (messages h).flatMap (needs s'.ctx.chosenMethod) ++
            (messages [(o, r)]).flatMap (needs s'.ctx.chosenMethod) := by
        rintro rfl hq
        rw [hq, ih hn, during_self]
        simp [asked]
      rcases step_message hk hst hd with ⟨_, h1, h2⟩ | ⟨_, _, h1, h2⟩ | ⟨_, _, _, _, _, _, h2⟩ | ⟨_, ho, ⟨a, rfl⟩, _⟩
      · exact same h2 (by simp [messages, h1, succeeded])
      · exact same h2 (by simp [messages, h1, succeeded])
      · exact absurd (ctl1_proj h2).2.1 hn
      · have hsn : s.ctx.status ≠ .aborted := by
          intro hab
          rw [aborted_not_ok hab] at ho
          cases ho
        obtain ⟨n1, n2⟩ := needs_step hk hst
        have hq : messages [(o, .ok a)] = [k] := by simp [messages, hk, succeeded]
        rw [hq, n1, ih hsn]
        congr 1
        · have none : s.ctx.status = .start → messages h = [] := by
            intro h0
            have := past_session hs
            rw [h0] at this
            exact this
          rcases n2 with rfl | rfl | n2
          · rw [none (by simp only [okOf, okStart, Bool.and_eq_true, beq_iff_eq] at ho; exact ho.1.1)]; rfl
          · rw [none (by simp only [okOf, okStart, Bool.and_eq_true, beq_iff_eq] at ho; exact ho.1.1)]; rfl
          · rw [n2]
        · simp

/-! ## Concrete sessions -/

/-- The Initiator with method 3: no signatures. -/
example : (asked (sessionCalls [] (Toy.after Toy.alice (Toy.callsI 3)))).filter otherThanEad =
    [.credVerify, .credFetch, .encrypt, .decrypt] := by
  have h := C86_exact Toy.session_I3 (by decide +kernel)
  rw [h]
  decide +kernel

/-- The Responder with method 0: it signs and verifies a signature. -/
example : (asked (sessionCalls [] (Toy.after Toy.bob (Toy.callsR 0)))).filter otherThanEad =
    [.credFetch, .sign, .decrypt, .credVerify, .verify, .encrypt] := by
  have h := C86_exact (Toy.session Toy.bob (Toy.callsR 0) (by decide +kernel)) (by decide +kernel)
  rw [h]
  decide +kernel

/-- The hypothesis is needed: a failed request is also one. -/
example : (Toy.after Toy.bob Toy.changed3).ctx.status = .aborted ∧
    (asked (sessionCalls [] (Toy.after Toy.bob Toy.changed3))).filter otherThanEad = [.credFetch, .sign, .decrypt] ∧
    (messages (Toy.hst Toy.bob Toy.changed3)).flatMap (needs 0) = [.credFetch, .sign] := by decide +kernel

end Verif
