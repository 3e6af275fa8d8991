import Verif.SpecBuffer
import Verif.Buffer
import Verif.Props.Wire

/-!
# The size of the caller's buffer (C79)

The size of the buffer decides whether a call succeeds and nothing else.
-/

namespace Verif

open M Spec

section
variable {σ : Type} {E : Env σ} {cfg : Config} {s s' : St σ}

theorem mapOut_run {α : Type} {m : M σ α} {f : α → Out} {a : α} (h : m s = (.ok a, s')) :
    M.mapOut f m s = (.ok (f a), s') := mapOut_ok.2 ⟨a, h, rfl⟩

open Classical in
/-- the outcome of a call whose message `b` does not fit -/
noncomputable def tooSmall (f : Nat → Op) (b : Bytes) (n : Nat) : Res Out :=
  if f = .compose3 ∧ n + 1 = b.length then .ub .oob else .err .cbor

theorem resized {f : Nat → Op} (hf : f ∈ composes) {n : Nat} {b : Bytes} (h : step E cfg (f n) s = (.ok (.bytes b), s')) :
    b ≠ [] ∧ ∀ n', n' ≠ 0 → (b.length ≤ n' → step E cfg (f n') s = (.ok (.bytes b), s')) ∧
      (n' < b.length → ∃ s'', step E cfg (f n') s = (tooSmall f b n', s'')) := by
  simp only [composes, List.mem_cons, List.not_mem_nil, or_false] at hf
  rcases hf with rfl | rfl | rfl | rfl
  · have hn : (Op.compose1 : Nat → Op) ≠ .compose3 := fun h => by cases congrFun h 0
    obtain ⟨a, h1, h2⟩ := mapOut_ok.1 h
    cases h2
    obtain ⟨h3, h4⟩ := Buffer.message1Compose n b s' h1
    refine ⟨h3, fun n' hn' => ⟨fun hl => mapOut_run ((h4 n' hn').1 hl), fun hl => ?_⟩⟩
    obtain ⟨s'', h5⟩ := (h4 n' hn').2 hl
    refine ⟨s'', ?_⟩
    unfold tooSmall
    rw [if_neg (fun h => hn h.1)]
    exact bind_err h5 _
  · have hn : (Op.compose2 : Nat → Op) ≠ .compose3 := fun h => by cases congrFun h 0
    obtain ⟨a, h1, h2⟩ := mapOut_ok.1 h
    cases h2
    obtain ⟨h3, h4⟩ := Buffer.message2Compose n b s' h1
    refine ⟨h3, fun n' hn' => ⟨fun hl => mapOut_run ((h4 n' hn').1 hl), fun hl => ?_⟩⟩
    obtain ⟨s'', h5⟩ := (h4 n' hn').2 hl
    refine ⟨s'', ?_⟩
    unfold tooSmall
    rw [if_neg (fun h => hn h.1)]
    exact bind_err h5 _
  · obtain ⟨a, h1, h2⟩ := mapOut_ok.1 h
    cases h2
    obtain ⟨h3, h4⟩ := Buffer.message3Compose n b s' h1
    refine ⟨h3, fun n' hn' => ⟨fun hl => mapOut_run ((h4 n' hn').1 hl), fun hl => ?_⟩⟩
    obtain ⟨s'', h5⟩ := (h4 n' hn').2 hl
    refine ⟨s'', ?_⟩
    unfold tooSmall
    unfold short3 at h5
    split at h5
    · rename_i hx
      rw [if_pos ⟨rfl, hx⟩]
      exact bind_ub h5 _
    · rename_i hx
      rw [if_neg (fun h => hx h.2)]
      exact bind_err h5 _
  · have hn : (Op.compose4 : Nat → Op) ≠ .compose3 := fun h => by cases congrFun h 0
    obtain ⟨a, h1, h2⟩ := mapOut_ok.1 h
    cases h2
    obtain ⟨h3, h4⟩ := Buffer.message4Compose n b s' h1
    refine ⟨h3, fun n' hn' => ⟨fun hl => mapOut_run ((h4 n' hn').1 hl), fun hl => ?_⟩⟩
    obtain ⟨s'', h5⟩ := (h4 n' hn').2 hl
    refine ⟨s'', ?_⟩
    unfold tooSmall
    rw [if_neg (fun h => hn h.1)]
    exact bind_err h5 _

/-- **C79**, messages: a compose call that succeeds returns the same message, and leaves the same state, with every buffer
the message fits into. -/
theorem C79_enough {f : Nat → Op} (hf : f ∈ composes) {n : Nat} {b : Bytes}
    (h : step E cfg (f n) s = (.ok (.bytes b), s')) {n' : Nat} (hn : b.length ≤ n') :
    step E cfg (f n') s = (.ok (.bytes b), s') := by
  obtain ⟨hb, h1⟩ := resized hf h
  have : b.length ≠ 0 := by simpa using hb
  exact (h1 n' (by omega)).1 hn

/-- **C79**, messages: with a smaller buffer the call fails. A buffer of no bytes is refused without an effect; any other
ends the session. (A buffer one byte too small for message 3 overflows: the finding recorded for C22.) -/
theorem C79_too_small {f : Nat → Op} (hf : f ∈ composes) {n : Nat} {b : Bytes}
    (h : step E cfg (f n) s = (.ok (.bytes b), s')) {n' : Nat} (hn : n' < b.length) :
    (n' = 0 ∧ step E cfg (f n') s = (.err .invalidArgument, s)) ∨
    (f = .compose3 ∧ n' + 1 = b.length ∧ (step E cfg (f n') s).1 = .ub .oob) ∨
    ∃ s'', step E cfg (f n') s = (.err .cbor, s'') ∧ Dead E cfg s'' ∧ Frozen E cfg s'' := by
  have hc : callOf (f n') ≠ none := by
    simp only [composes, List.mem_cons, List.not_mem_nil, or_false] at hf
    rcases hf with rfl | rfl | rfl | rfl <;> simp [callOf]
  by_cases h0 : n' = 0
  · subst h0
    left
    refine ⟨rfl, ?_⟩
    simp only [composes, List.mem_cons, List.not_mem_nil, or_false] at hf
    rcases hf with rfl | rfl | rfl | rfl <;> rfl
  · right
    obtain ⟨s'', h1⟩ := ((resized hf h).2 n' h0).2 hn
    unfold tooSmall at h1
    split at h1
    · rename_i hx
      exact Or.inl ⟨hx.1, hx.2, by rw [h1]⟩
    · right
      refine ⟨s'', h1, ?_⟩
      rcases C02_failure_aborts hc h1 with hr | hr
      · unfold Refused at hr
        rw [h1] at hr
        simp only [Prod.mk.injEq, Res.err.injEq] at hr
        exact absurd hr.1 (by split <;> simp)
      · exact hr

/-- **C79**, messages: from one state a compose call succeeds exactly with the buffers its message fits into. -/
theorem C79_exactly {f : Nat → Op} (hf : f ∈ composes) {n : Nat} {b : Bytes}
    (h : step E cfg (f n) s = (.ok (.bytes b), s')) (n' : Nat) :
    succeeded (step E cfg (f n') s).1 = true ↔ b.length ≤ n' := by
  constructor
  · intro h1
    apply Classical.byContradiction
    intro hl
    rcases C79_too_small hf h (Nat.lt_of_not_le hl) with ⟨_, h2⟩ | ⟨_, _, h2⟩ | ⟨_, h2, _⟩ <;> rw [h2] at h1 <;> cases h1
  · intro h1
    rw [C79_enough hf h h1]
    rfl

/-- **C79**, identifiers: an OSCORE export that succeeds returns the same keys and identifiers, and leaves the same state,
with every pair of buffers the identifiers fit into. With smaller buffers it fails and ends the session. -/
theorem C79_oscore {a b c d : Nat} {o : Oscore} (h : step E cfg (.exportOscore a b c d) s = (.ok (.oscore o), s')) {c' d' : Nat}
    (hc : c' ≠ 0) (hd : d' ≠ 0) :
    (o.sid.length ≤ c' → o.rid.length ≤ d' → step E cfg (.exportOscore a b c' d') s = (.ok (.oscore o), s')) ∧
    (c' < o.sid.length ∨ d' < o.rid.length → ∃ e ∈ [Err.cbor, Err.bufferTooSmall], ∃ s'',
      step E cfg (.exportOscore a b c' d') s = (.err e, s'') ∧ Frozen E cfg s'') := by
  obtain ⟨x, h1, h2⟩ := mapOut_ok.1 h
  cases h2
  obtain ⟨h3, h4⟩ := exportOscore_size h1 hc hd
  refine ⟨fun hl hr => mapOut_run (h3 hl hr), fun hs => ?_⟩
  obtain ⟨e, he, s'', h5, h6⟩ := h4 hs
  exact ⟨e, he, s'', bind_err h5 _, aborted_frozen h6⟩

theorem step_bytes {f : Nat → Op} (hf : f ∈ composes) {n : Nat} {x : Out} (h : step E cfg (f n) s = (.ok x, s')) :
    ∃ b, x = .bytes b := by
  simp only [composes, List.mem_cons, List.not_mem_nil, or_false] at hf
  rcases hf with rfl | rfl | rfl | rfl <;> obtain ⟨b, _, h2⟩ := mapOut_ok.1 h <;> exact ⟨b, h2.symm⟩

/-- two successful calls that differ in the sizes of buffers have the same outcome -/
theorem resized_step {o o' : Op} (hr : Resized o o') {x x' : Out} {s1 s2 : St σ}
    (h : step E cfg o s = (.ok x, s1)) (h' : step E cfg o' s = (.ok x', s2)) : x = x' ∧ s1 = s2 := by
  cases hr with
  | same => rw [h] at h'; cases h'; exact ⟨rfl, rfl⟩
  | @compose f n m hf =>
    obtain ⟨b, rfl⟩ := step_bytes hf h
    obtain ⟨b', rfl⟩ := step_bytes hf h'
    have := (C79_exactly hf h m).1 (by rw [h']; rfl)
    rw [C79_enough hf h this] at h'
    cases h'
    exact ⟨rfl, rfl⟩
  | oscore a b c d c' d' =>
    obtain ⟨y, h1, h2⟩ := mapOut_ok.1 h
    cases h2
    obtain ⟨y', h1', h2'⟩ := mapOut_ok.1 h'
    cases h2'
    obtain ⟨⟨_, _, hc, hd⟩, _, _, _, _, i1, l1, i2, l2, _⟩ := exportOscore_ok h1'
    obtain ⟨_, _, _, _, _, j1, _, j2, _⟩ := exportOscore_ok h1
    have := (C79_oscore h hc hd).1 (by rw [j1, ← i1]; exact l1) (by rw [j2, ← i2]; exact l2)
    rw [this] at h'
    cases h'
    exact ⟨rfl, rfl⟩

/-- **C79**, histories: two histories from the same state whose calls differ only in the sizes of buffers, and all of whose
calls succeed, return the same values and end in the same state. -/
theorem C79_histories {h h' : History} {s1 s2 : St σ} (hr : ResizedAll (h.map Prod.fst) (h'.map Prod.fst))
    (h1 : Run E cfg s h s1) (h2 : Run E cfg s h' s2) (ho : ∀ p ∈ h, succeeded p.2 = true) (ho' : ∀ p ∈ h', succeeded p.2 = true) :
    h.map Prod.snd = h'.map Prod.snd ∧ s1 = s2 := by
  induction h1 generalizing h' with
  | nil s =>
    cases h2 with
    | nil => exact ⟨rfl, rfl⟩
    | cons => cases hr
  | @cons s t s1 o r h hs hd _ ih =>
    cases h2 with
    | nil => cases hr
    | @cons _ t' _ o' r' h' hs' hd' hrun' =>
      simp only [List.map_cons] at hr
      cases hr with
      | cons hq hr =>
        have k1 := ho _ (List.mem_cons_self ..)
        have k2 := ho' _ (List.mem_cons_self ..)
        cases r <;> simp only [succeeded, Bool.false_eq_true] at k1
        cases r' <;> simp only [succeeded, Bool.false_eq_true] at k2
        obtain ⟨rfl, rfl⟩ := resized_step hq hs hs'
        obtain ⟨e1, e2⟩ := ih hr hrun' (fun p hp => ho p (List.mem_cons_of_mem _ hp)) (fun p hp => ho' p (List.mem_cons_of_mem _ hp))
        exact ⟨by simp [e1], e2⟩

end

/-- Non-vacuity: composing message 3 (of 9 bytes) succeeds with 9 and with 100 bytes, runs out of the buffer with 8, and fails
with 7. -/
example : composes[2]? = some .compose3 ∧ let s := Toy.after Toy.alice beforeM3
    (step (Toy.env Toy.alice) Toy.cfg (.compose3 100) s).1 = .ok (.bytes [72, 5, 66, 140, 253, 34, 216, 141, 216]) ∧
    (step (Toy.env Toy.alice) Toy.cfg (.compose3 9) s).1 = .ok (.bytes [72, 5, 66, 140, 253, 34, 216, 141, 216]) ∧
    (step (Toy.env Toy.alice) Toy.cfg (.compose3 8) s).1 = .ub .oob ∧
    (step (Toy.env Toy.alice) Toy.cfg (.compose3 7) s).1 = .err .cbor := by
  refine ⟨rfl, ?_⟩
  decide +kernel

/-- Non-vacuity: an export with the buffers of `Toy.exports` succeeds with identifiers of one and two bytes; it succeeds with
buffers of these sizes, and fails with a smaller one. -/
example : let s := Toy.after Toy.alice (Toy.callsI 3)
    (∃ o, (step (Toy.env Toy.alice) Toy.cfg (.exportOscore 16 8 4 4) s).1 = .ok (.oscore o) ∧ o.sid.length = 2 ∧ o.rid.length = 1) ∧
    succeeded (step (Toy.env Toy.alice) Toy.cfg (.exportOscore 16 8 2 1) s).1 = true ∧
    (step (Toy.env Toy.alice) Toy.cfg (.exportOscore 16 8 1 1) s).1 = .err .bufferTooSmall := by
  refine ⟨⟨⟨[164, 82, 0, 189, 107, 25, 199, 132, 50, 224, 157, 75, 249, 167, 100, 18], [93, 11, 185, 118, 36, 210, 128, 61], [0x18, 9], [5]⟩, ?_, rfl, rfl⟩, ?_, ?_⟩ <;> decide +kernel

/-- Non-vacuity: the Initiator's calls of a handshake with buffers of 100 bytes and of just enough bytes. -/
example : ResizedAll (Toy.callsI 3) (Toy.conf 3 (.int 5) ++
      [.compose1 (Toy.msg 3 1).length, .process2 (Toy.msg 3 2), .compose3 9, .process4 (Toy.msg 3 4)]) ∧
    ((Toy.hst Toy.alice (Toy.callsI 3)).all fun p => succeeded p.2) = true ∧
    ((Toy.hst Toy.alice (Toy.conf 3 (.int 5) ++
      [.compose1 (Toy.msg 3 1).length, .process2 (Toy.msg 3 2), .compose3 9, .process4 (Toy.msg 3 4)])).all fun p => succeeded p.2) = true := by
  refine ⟨?_, by decide +kernel, by decide +kernel⟩
  have h : ∀ (l a b : List Op), ResizedAll a b → ResizedAll (l ++ a) (l ++ b) := by
    intro l a b h
    induction l with
    | nil => exact h
    | cons o l ih => exact .cons (.same o) ih
  refine h _ _ _ ?_
  exact .cons (.compose (f := .compose1) _ _ (by simp [composes])) (.cons (.same _)
    (.cons (.compose (f := .compose3) _ _ (by simp [composes])) (.cons (.same _) .nil)))

end Verif
