import Verif.Demand5
import Verif.Props.Safety

/-!
# C69: how much working memory a call asks for
-/

namespace Verif

open M Spec

variable {σ : Type} {E : Env σ} {cfg : Config} {e : σ} {log : List Ev} {h : History} {s s' : St σ} {o : Op} {r : Res Out}
  {L : Nat}

/-- **C69, size.** In every session, whatever is received: the buffers a call requests add up to at most `demand`, a
linear function of the sizes of the configuration, the cipher suite, the received message and what the application
provides. On the stack backend, a stack that has this much room is enough. Missing for the full claim: messages with a
wrapped length. -/
theorem C69_demand_partial (hs : Session E cfg e log h s) (hE : Modest E L) (hm : cfg.maxEad ≤ 3) (hr : restarts o = false)
    (hst : step E cfg o s = (r, s')) (hw : ¬ Wraps s.ctx o) :
    (requested (during s s')).sum ≤ demand cfg (suiteFor s.ctx o) L o ∧
    (r = .ub .stack → cfg.stackMax < demand cfg (suiteFor s.ctx o) L o) := by
  obtain ⟨es, h1, h2, _, _, h3⟩ := Costs.leAt (Costs.step (Z := True) (o := o) hE hm hr (session_enters hs)
    (session_th hE hm hs) (fun _ => trivial) (fun _ => trivial) (fun _ => trivial)) (need_le hw)
  rw [hst] at h1 h3
  refine ⟨?_, ?_⟩
  · unfold during
    rw [h1, List.drop_left]
    exact h2
  · rintro rfl
    exact h3.1 rfl

/-- **C69, nothing empty.** In every session, whatever is received: a call requests a buffer of no bytes only if a size of
the cipher suite is zero or the message has nothing to put there. Missing for the full claim: those messages. -/
theorem C69_nonzero_partial (hs : Session E cfg e log h s) (hE : Modest E L) (hm : cfg.maxEad ≤ 3) (hr : restarts o = false)
    (hst : step E cfg o s = (r, s')) (hw : ¬ Wraps s.ctx o) (hp : Suite.Positive (suiteFor s.ctx o))
    (he : ¬ Spec.Empty cfg o s s') : 0 ∉ requested (during s s') ∧ r ≠ .ub .zeroVla := by
  obtain ⟨es, h1, _, h2, _, h3⟩ := Costs.step (Z := False) (o := o) hE hm hr (session_enters hs)
    (session_th hE hm hs) (fun h => h hp) (by rw [hst]; exact he) hw
  rw [hst] at h1 h3
  refine ⟨?_, ?_⟩
  · unfold during
    rw [h1, List.drop_left]
    exact h2
  · rintro rfl
    exact h3.2 rfl

/-! ### The hypotheses are met -/

theorem Toy.modest_alice : Modest (Toy.env Toy.alice) 3 where
  fetch e r h := by cases h; decide
  verify e c r h := by
    simp only [Toy.env, Toy.alice, Option.map_eq_some_iff] at h
    obtain ⟨q, hq, rfl⟩ := h
    split at hq <;> cases hq
    rename_i hc
    exact Nat.le_trans (by decide) (Nat.le_add_left 3 _)
  ead e m ts h := by cases h; cases m <;> decide

theorem Toy.modest_bob : Modest (Toy.env Toy.bob) 3 where
  fetch e r h := by cases h; decide
  verify e c r h := by
    simp only [Toy.env, Toy.bob, Option.map_eq_some_iff] at h
    obtain ⟨q, hq, rfl⟩ := h
    split at hq <;> cases hq
    exact Nat.le_trans (by decide) (Nat.le_add_left 3 _)
  ead e m ts h := by cases h; cases m <;> decide

/-- a short byte string in its shortest form has only one reading -/
theorem short_reading {x y item rest : Bytes} (hy : y.length < 24) (hi : BstrItem x item)
    (h : UInt8.ofNat (64 + y.length) :: y = item ++ rest) : x = y := by
  have h1 : BstrItem y ([UInt8.ofNat (2 * 32 + y.length)] ++ y) := ⟨_, .short hy, rfl⟩
  exact (bstrItem_unamb hi h1 (by rw [← h, List.append_nil]; rfl)).1

theorem not_wraps2 {c : Ctx} {y : Bytes} (hy : y.length < 24) (h : c.suite.eccKey ≤ y.length) :
    ¬ Wraps c (.process2 (UInt8.ofNat (64 + y.length) :: y)) := by
  generalize ho : Op.process2 (UInt8.ofNat (64 + y.length) :: y) = o
  intro hw
  cases hw with
  | message2 hi hlt =>
    injection ho with ho
    rw [short_reading hy hi ho] at hlt
    omega
  | message3 => cases ho
  | message4 => cases ho

theorem not_empty2 {y : Bytes} (hy : y.length < 24) (h : s.ctx.suite.eccKey < y.length) :
    ¬ Spec.Empty cfg (.process2 (UInt8.ofNat (64 + y.length) :: y)) s s' := by
  generalize ho : Op.process2 (UInt8.ofNat (64 + y.length) :: y) = o
  intro hw
  cases hw with
  | message2 hi he =>
    injection ho with ho
    rw [short_reading hy hi ho] at he
    omega
  | message3 => cases ho
  | message4 => cases ho
  | noEad4 => cases ho

/-- Non-vacuity: an honest message_2 is accepted; no length wraps, nothing is empty. The bound says something: 219 bytes
are requested, at most 1100 are promised. -/
example : Modest (Toy.env Toy.alice) 3 ∧ Suite.Positive (Toy.after Toy.alice waitM2).ctx.suite ∧
    (step (Toy.env Toy.alice) Toy.cfg (.process2 (Toy.msg 3 2)) (Toy.after Toy.alice waitM2)).1 = .ok .unit ∧
    ¬ Wraps (Toy.after Toy.alice waitM2).ctx (.process2 (Toy.msg 3 2)) ∧
    (∀ s', ¬ Spec.Empty Toy.cfg (.process2 (Toy.msg 3 2)) (Toy.after Toy.alice waitM2) s') ∧
    (requested (during (Toy.after Toy.alice waitM2)
      (step (Toy.env Toy.alice) Toy.cfg (.process2 (Toy.msg 3 2)) (Toy.after Toy.alice waitM2)).2)).sum = 219 ∧
    demand Toy.cfg Toy.suite 3 (.process2 (Toy.msg 3 2)) = 1100 := by
  have hm : Toy.msg 3 2 = UInt8.ofNat (64 + ((Toy.msg 3 2).drop 1).length) :: (Toy.msg 3 2).drop 1 := by decide +kernel
  have h1 : ((Toy.msg 3 2).drop 1).length < 24 := by decide +kernel
  have h2 : (Toy.after Toy.alice waitM2).ctx.suite.eccKey < ((Toy.msg 3 2).drop 1).length := by decide +kernel
  refine ⟨Toy.modest_alice, by unfold Suite.Positive; decide +kernel, by decide +kernel, ?_, fun s' => ?_, by decide +kernel,
    by decide +kernel⟩
  · rw [hm]; exact not_wraps2 h1 (Nat.le_of_lt h2)
  · rw [hm]; exact not_empty2 h1 h2

/-- Non-vacuity: composing never wraps; a message_2 of 16 bytes takes 240 bytes of buffers, a message_3 of 9 bytes takes 203. -/
example : (∀ n, ¬ Wraps (Toy.after Toy.bob beforeM2).ctx (.compose2 n)) ∧
    (∀ n s', ¬ Spec.Empty Toy.cfg (.compose2 n) (Toy.after Toy.bob beforeM2) s') ∧
    (requested (during (Toy.after Toy.bob beforeM2)
      (step (Toy.env Toy.bob) Toy.cfg (.compose2 100) (Toy.after Toy.bob beforeM2)).2)).sum = 240 ∧
    demand Toy.cfg Toy.suite 3 (.compose2 100) = 1539 ∧
    (requested (during (Toy.after Toy.alice beforeM3)
      (step (Toy.env Toy.alice) Toy.cfg (.compose3 100) (Toy.after Toy.alice beforeM3)).2)).sum = 203 ∧
    demand Toy.cfg Toy.suite 3 (.compose3 100) = 1424 :=
  ⟨(fun n h => by cases h), (fun n s' h => by cases h), by decide +kernel, by decide +kernel, by decide +kernel, by decide +kernel⟩

/-! ### The code violates the full claim -/

/-- **C69 is violated** by `edhoc_message_3_process` and `edhoc_message_4_process`: for a byte string of one byte, more than
2^63 bytes are requested. -/
theorem C69_wrap_violated :
    (∃ h s b, Session (Toy.env Toy.bob) Toy.cfg () [] h s ∧ Modest (Toy.env Toy.bob) 3 ∧ b.length = 2 ∧
      demand Toy.cfg s.ctx.suite 3 (.process3 b) < 1000 ∧
      2 ^ 63 < (requested (during s (step (Toy.env Toy.bob) Toy.cfg (.process3 b) s).2)).sum) ∧
    (∃ h s b, Session (Toy.env Toy.alice) Toy.cfg () [] h s ∧ Modest (Toy.env Toy.alice) 3 ∧ b.length = 2 ∧
      demand Toy.cfg s.ctx.suite 3 (.process4 b) < 1000 ∧
      2 ^ 63 < (requested (during s (step (Toy.env Toy.alice) Toy.cfg (.process4 b) s).2)).sum) :=
  ⟨⟨_, _, [0x41, 0], waitM3_session, Toy.modest_bob, rfl, by decide +kernel, by decide +kernel⟩,
    ⟨_, _, [0x41, 0], waitM4_session, Toy.modest_alice, rfl, by decide +kernel, by decide +kernel⟩⟩

/-- a Responder that sends no EAD at all -/
def quietBob : Toy.Party := { Toy.bob with ead := fun _ => [] }
/-- its message_4: the byte string of the tag alone -/
def quietM4 : Bytes := Toy.bytesOf (step (Toy.env quietBob) Toy.cfg (.compose4 100) (Toy.after quietBob beforeM4)).1

/-- **C69 is violated** by `edhoc_message_4_compose` and `edhoc_message_4_process` in an honest handshake without EAD in
message_4: both sides request a buffer of no bytes for the plaintext (with the heap backend `calloc` may answer NULL then). -/
theorem C69_empty_violated :
    (∃ h s, Session (Toy.env quietBob) Toy.cfg () [] h s ∧ Suite.Positive s.ctx.suite ∧
      (step (Toy.env quietBob) Toy.cfg (.compose4 100) s).1 = .ok (.bytes quietM4) ∧
      0 ∈ requested (during s (step (Toy.env quietBob) Toy.cfg (.compose4 100) s).2)) ∧
    (∃ h s, Session (Toy.env Toy.alice) Toy.cfg () [] h s ∧ Suite.Positive s.ctx.suite ∧
      (step (Toy.env Toy.alice) Toy.cfg (.process4 quietM4) s).1 = .ok .unit ∧
      0 ∈ requested (during s (step (Toy.env Toy.alice) Toy.cfg (.process4 quietM4) s).2)) :=
  ⟨⟨_, _, Toy.session quietBob beforeM4 (by decide +kernel), by unfold Suite.Positive; decide +kernel, by decide +kernel,
      by decide +kernel⟩,
    ⟨_, _, waitM4_session, by unfold Suite.Positive; decide +kernel, by decide +kernel, by decide +kernel⟩⟩

/-- the stack backend, on a compiler for which an array of length zero is undefined (as the C standard has it) -/
def strictStack : Config := { Toy.cfg with backend := .stack, zeroVlaOk := false }

/-- **C69 is violated** with the default backend, which takes buffers from the stack: composing message_4 without EAD in an
honest handshake declares an array of length zero, and so does processing it. -/
theorem C69_zero_array_violated :
    (∃ h s, Session (Toy.env quietBob) strictStack () [] h s ∧
      (step (Toy.env quietBob) strictStack (.compose4 100) s).1 = .ub .zeroVla) ∧
    (∃ h s, Session (Toy.env Toy.alice) strictStack () [] h s ∧
      (step (Toy.env Toy.alice) strictStack (.process4 quietM4) s).1 = .ub .zeroVla) :=
  ⟨⟨_, _, Toy.hist_session beforeM4 () [] (by decide +kernel), by decide +kernel⟩,
    ⟨_, _, Toy.hist_session waitM4 () [] (by decide +kernel), by decide +kernel⟩⟩

/-- with EAD in message_4 the same backend works -/
example : (step (Toy.env Toy.bob) strictStack (.compose4 100)
    (Toy.hist (Toy.env Toy.bob) strictStack beforeM4 Toy.fresh).2).1 = .ok (.bytes (Toy.msg 3 4)) := by decide +kernel

end Verif
