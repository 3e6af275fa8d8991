import Verif.SpecSigning
import Verif.Heads
import Verif.Growth
import Verif.ToyRun

/-!
# C72: what the authentication key signs
-/

namespace Verif

open M Spec

variable {σ α : Type} {E : Env σ} {cfg : Config}

theorem signatures_append (a b : List Ev) : signatures (a ++ b) = signatures a + signatures b := by
  simp [signatures]

theorem signatures_pos {L : List Ev} (h : signatures L ≠ 0) : ∃ kid i o, Ev.sign kid i o ∈ L := by
  obtain ⟨v, h1, h2⟩ := List.countP_pos_iff.1 (Nat.pos_of_ne_zero h)
  cases v <;> simp at h2
  exact ⟨_, _, _, h1⟩

theorem signatures_le {ks : List Kind} {L : List Ev} (h : Within ks L) : signatures L ≤ ks.count .sign := by
  induction h with
  | nil => simp [signatures]
  | skip hv _ ih =>
    rename_i v L _
    cases v <;> simp_all [signatures, kindless]
  | miss _ ih => exact Nat.le_trans ih (List.count_le_count_cons)
  | hit hv _ ih =>
    cases hv <;> simp only [signatures, List.countP_cons, List.count_cons, beq_iff_eq, reduceCtorEq, if_false, if_true,
      Bool.false_eq_true] at ih ⊢ <;> simpa [signatures] using ih

/-- **C72** (what is signed). Whenever the library asks the application for a signature, in any API call, in any state
and however the call ends, then either the call is `edhoc_message_2_compose` of a Responder whose method has it sign,
or `edhoc_message_3_compose` of an Initiator whose method has it sign. The key is the one the credentials callback
returned in the same call, and what is signed is the Sig_structure of RFC 9528 with that credential, with the
transcript hash of the session and with a MAC that was derived in the same call. A call asks for at most one
signature. -/
theorem C72_signed {o : Op} {s s' : St σ} {r : Res Out} (h : step E cfg o s = (r, s')) (hd : r.Defined)
    (hs : SuiteSmall s.ctx.suite) :
    signatures (during s s') ≤ 1 ∧
    ∀ kid i g, Ev.sign kid i g ∈ during s s' →
      (∃ n, o = .compose2 n ∧ s.ctx.status = .receivedM1 ∧ responderSigns s.ctx.chosenMethod = true ∧
        SignsMessage2 (during s s') s.ctx.cid s.ctx.suite s.ctx.th kid i) ∨
      ∃ n, o = .compose3 n ∧ s.ctx.status = .verifiedM2 ∧ initiatorSigns s.ctx.chosenMethod = true ∧
        SignsMessage3 (during s s') s.ctx.suite s.ctx.th kid i := by
  have hp := C33_performs h hd
  refine ⟨Nat.le_trans (signatures_le hp) (by cases o <;> simp [performs]), ?_⟩
  intro kid i g hv
  have hk := within_mem hp .sign hv
  cases o
  case compose2 n =>
    refine Or.inl ⟨n, rfl, ?_⟩
    obtain ⟨r0, h0, hr⟩ := mapOut_cases h
    have hd0 : r0.Defined := by
      rcases hr with ⟨a, rfl, _⟩ | ⟨e, rfl, _⟩ | ⟨u, rfl, rfl⟩ <;> simp_all
    obtain ⟨y, gy, k, cr, th2, ts, mac, hh, hx⟩ := message2Compose_head h0 hd0 hv .sign
    obtain ⟨rfl, rfl, hm⟩ := hx _ _ _ rfl
    obtain ⟨kk, hkp⟩ := hh.keyPair
    obtain ⟨prk, hprk⟩ := hh.prk
    have hst := hh.state
    simp only [okReceivedM1, Bool.and_eq_true, beq_iff_eq] at hst
    rw [hm] at hprk
    exact ⟨hst.1.1, hm, cr, y, gy, th2, ts, mac, prk, hh.fetch.mem, ⟨kk, List.IsInfix.trans ⟨[.importKey .makeKeyPair [] (some kk)], [], rfl⟩ hkp.made⟩, hh.hash.call,
      hprk.call hs.2.2.1, rfl⟩
  case compose3 n =>
    refine Or.inr ⟨n, rfl, ?_⟩
    obtain ⟨r0, h0, hr⟩ := mapOut_cases h
    have hd0 : r0.Defined := by
      rcases hr with ⟨a, rfl, _⟩ | ⟨e, rfl, _⟩ | ⟨u, rfl, rfl⟩ <;> simp_all
    obtain ⟨k, cr, ts, mac, hh, hx⟩ := message3Compose_head h0 hd0 hv .sign
    obtain ⟨rfl, rfl, hm⟩ := hx _ _ _ rfl
    obtain ⟨prk, hprk⟩ := hh.prk
    have hst := hh.state
    simp only [okVerifiedM2, Bool.and_eq_true, beq_iff_eq] at hst
    rw [hm] at hprk
    exact ⟨hst.1.1, hm, cr, ts, mac, prk, hh.fetch.mem, hprk.call hs.2.2.1, rfl⟩
  all_goals simp [performs] at hk

/-! ## Once per session -/

/-- the party has composed its own authenticated message, or the session has failed -/
def beyond : Status → Bool
  | .waitM3 | .completed | .persisted | .aborted => true
  | _ => false

theorem beyond_step {o : Op} (hn : restarts o = false) {s s' : St σ} {r : Res Out} (h : step E cfg o s = (r, s'))
    (hd : r.Defined) (hb : beyond s.ctx.status = true) : beyond s'.ctx.status = true := by
  cases hk : callOf o with
  | some k =>
    rcases step_message hk h hd with ⟨_, _, h1⟩ | ⟨_, _, _, h1⟩ | ⟨_, hok, _, _, c, _, h1⟩ | ⟨_, hok, _, _, h1⟩
    · rw [h1]; exact hb
    · rw [h1]; exact hb
    · have h2 : s'.ctx.status = .aborted := (congrArg Ctx.status h1 :)
      rw [h2]; rfl
    · have h2 : s'.ctx.status = nextOf k := (congrArg Ctx.status h1 :)
      rw [h2]
      cases k <;> simp only [okOf, okStart, okReceivedM1, okWaitM2, okVerifiedM2, okWaitM3, okCompleted, Bool.and_eq_true,
        beq_iff_eq] at hok <;> first | rfl | (rw [hok.1.1] at hb; cases hb)
  | none =>
    obtain ⟨_, _, h3⟩ := step_other hk hn h hd
    rcases h3 with ⟨h3, _⟩ | ⟨_, _, _, _, _, h3, _⟩ | ⟨_, _, _, _, _, _, _, _, h3, _⟩ | ⟨_, _, h3, _⟩ <;> rw [h3]
    all_goals first | exact hb | rfl

/-- A call that signs is the last one to sign. -/
theorem sign_beyond {o : Op} {s s' : St σ} {r : Res Out} (h : step E cfg o s = (r, s')) (hd : r.Defined)
    (hv : signatures (during s s') ≠ 0) : beyond s.ctx.status = false ∧ beyond s'.ctx.status = true := by
  obtain ⟨kid, i, g, hv⟩ := signatures_pos hv
  have hk := within_mem (C33_performs h hd) .sign hv
  have ne : s' ≠ s := by rintro rfl; rw [during_self] at hv; cases hv
  have key : ∀ {k : Call}, callOf o = some k → (k = .compose2 ∨ k = .compose3) →
      beyond s.ctx.status = false ∧ beyond s'.ctx.status = true := by
    intro k hk hkk
    have hok : okOf k s.ctx = true → beyond s.ctx.status = false := by
      intro hok
      rcases hkk with rfl | rfl <;> simp only [okOf, okReceivedM1, okVerifiedM2, Bool.and_eq_true, beq_iff_eq] at hok <;>
        rw [hok.1.1] <;> rfl
    rcases step_message hk h hd with ⟨_, _, h1⟩ | ⟨_, _, _, h1⟩ | ⟨_, ho, _, _, c, _, h1⟩ | ⟨_, ho, _, _, h1⟩
    · exact absurd h1 ne
    · exact absurd h1 ne
    · have h2 : s'.ctx.status = .aborted := (congrArg Ctx.status h1 :)
      exact ⟨hok ho, by rw [h2]; rfl⟩
    · have h2 : s'.ctx.status = nextOf k := (congrArg Ctx.status h1 :)
      refine ⟨hok ho, ?_⟩
      rw [h2]; rcases hkk with rfl | rfl <;> rfl
  cases o
  case compose2 n => exact key rfl (Or.inl rfl)
  case compose3 n => exact key rfl (Or.inr rfl)
  all_goals simp [performs] at hk

theorem sign_never {s s' : St σ} {h : History} (hr : Run E cfg s h s') (hn : ∀ p ∈ h, restarts p.1 = false)
    (hb : beyond s.ctx.status = true) : signatures (during s s') = 0 := by
  induction hr with
  | nil s => rw [during_self]; rfl
  | cons h1 hd hr ih =>
    have hs : restarts _ = false := hn _ (List.mem_cons_self ..)
    rw [during_split (step_grow h1 hd) (run_grow hr), signatures_append,
      ih (fun p hp => hn p (List.mem_cons_of_mem _ hp)) (beyond_step hs h1 hd hb), Nat.add_zero]
    refine Classical.byContradiction fun hv => ?_
    rw [(sign_beyond h1 hd hv).1] at hb; cases hb

/-- **C72** (once). Between two initialisations of a context the library asks for at most one signature, whatever calls
are made, in which order, and however they end. -/
theorem C72_once {s s' : St σ} {h : History} (hr : Run E cfg s h s') (hn : ∀ p ∈ h, restarts p.1 = false) :
    signatures (during s s') ≤ 1 := by
  induction hr with
  | nil s => rw [during_self]; simp [signatures]
  | @cons s s1 s2 o r h h1 hd hr ih =>
    rw [during_split (step_grow h1 hd) (run_grow hr), signatures_append]
    by_cases hv : signatures (during s s1) = 0
    · have := ih fun p hp => hn p (List.mem_cons_of_mem _ hp)
      omega
    · have h2 := sign_never hr (fun p hp => hn p (List.mem_cons_of_mem _ hp)) (sign_beyond h1 hd hv).2
      have h3 := Nat.le_trans (signatures_le (C33_performs h1 hd)) (show (performs o).count .sign ≤ 1 by
        cases o <;> simp [performs])
      omega

/-! ## The hypotheses are met -/

/-- In method 0 the Responder signs when it composes message 2 (its ninth call), the Initiator when it composes message 3;
in method 3 nobody signs. -/
example : SuiteSmall Toy.suite ∧
    signatures (during (Toy.after Toy.bob (Toy.callsR 0 |>.take 8)) (Toy.after Toy.bob (Toy.callsR 0 |>.take 9))) = 1 ∧
    signatures (during (Toy.after Toy.alice (Toy.callsI 0 |>.take 9)) (Toy.after Toy.alice (Toy.callsI 0 |>.take 10))) = 1 ∧
    signatures (Toy.after Toy.bob (Toy.callsR 0)).log = 1 ∧ signatures (Toy.after Toy.alice (Toy.callsI 0)).log = 1 ∧
    signatures (Toy.after Toy.bob (Toy.callsR 3)).log = 0 ∧ signatures (Toy.after Toy.alice (Toy.callsI 3)).log = 0 := by
  decide +kernel

end Verif
