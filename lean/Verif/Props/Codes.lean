import Verif.Codes4
import Verif.Props.Wire

/-!
# Return codes (C42, C43, C44)
-/

namespace Verif

open M Spec

variable {σ : Type}

/-- **C42**. Every error an API call returns, in any state and with any application, is documented for that function in
`edhoc.h`, or is one of the `exceptions`. Missing: the exceptions; each of
them is returned in some session (`C42_violated`). -/
theorem C42_documented_partial (E : Env σ) (cfg : Config) (o : Op) (s : St σ) {e : Err} (h : (step E cfg o s).1 = .err e) :
    e ∈ retvals o ∨ e ∈ exceptions o := by
  obtain ⟨l, -, -, h3, -⟩ := does_step E cfg o s (by rw [h]; simp)
  exact List.mem_append.1 (h3 e h)

/-- **C43**. No failure is swallowed: when the allocator or any callback (other than the one that destroys a key) fails
during an API call, the call returns an error. -/
theorem C43_no_failure_lost (E : Env σ) (cfg : Config) (o : Op) (s : St σ) {l : List Ev} {ev : Ev}
    (hd : (step E cfg o s).1.Defined) (hl : (step E cfg o s).2.log = s.log ++ l) (hev : ev ∈ l) (hf : ev.failed = true) :
    ∃ e, (step E cfg o s).1 = .err e := by
  obtain ⟨l', h1, h2, -⟩ := does_step E cfg o s hd
  cases List.append_cancel_left (hl.symm.trans h1)
  obtain ⟨L, -, q⟩ := h2 ev hev
  have q := q hf
  cases hr : (step E cfg o s).1 with
  | ok a => rw [hr] at q; simp [Bad] at q
  | err e => exact ⟨e, rfl⟩
  | ub u => rw [hr] at hd; simp at hd

/-- **C44**. The code tells what failed: the call returns a code that belongs to the failed callback. -/
theorem C44_cause (E : Env σ) (cfg : Config) (o : Op) (s : St σ) {l : List Ev} {ev : Ev} {e : Err}
    (he : (step E cfg o s).1 = .err e) (hl : (step E cfg o s).2.log = s.log ++ l) (hev : ev ∈ l) (hf : ev.failed = true) :
    e ∈ cause o ev.callback := by
  obtain ⟨l', h1, h2, -⟩ := does_step E cfg o s (by rw [he]; simp)
  cases List.append_cancel_left (hl.symm.trans h1)
  obtain ⟨L, q1, q⟩ := h2 ev hev
  have q := q hf
  rw [causes_get] at q1
  cases q1
  rw [he] at q
  exact q

/-! ## Witnesses -/

/-- alice, whose `expand` fails for MAC_3 -/
def Toy.noMac3 : Env Unit := { Toy.env Toy.alice with
  expand := fun e k i n => if i.head? = some 6 then (none, e) else (Toy.env Toy.alice).expand e k i n }

/-- bob, whose credential has an unknown label -/
def Toy.bobOther : Toy.Party := { Toy.bob with cred := .other 99 }

/-- alice, whose credential has an unknown label -/
def Toy.aliceOther : Toy.Party := { Toy.alice with cred := .other 99 }

/-- alice and bob, who have no block of `k` bytes -/
def Toy.without (p : Toy.Party) (k : Nat) : Toy.Party := { p with noMem := fun n => n == k }

/-- bob with a long EAD_4 -/
def Toy.bobLongEad : Toy.Party := { Toy.bob with ead := fun m => if m = .msg4 then [⟨100, some (List.replicate 40 1)⟩] else [] }

/-- In some session the call `o` returns the error `e`. -/
def Spec.Returned (o : Op) (e : Err) : Prop :=
  ∃ (E : Env Unit) (h : History) (s : St Unit), Session E Toy.cfg () [] h s ∧ (step E Toy.cfg o s).1 = .err e

theorem Toy.returned {p : Toy.Party} {ops : List Op} {o : Op} {e : Err}
    (h : ((Toy.hst p ops).all fun p => !Toy.isUb p.2 && !restarts p.1) = true)
    (h2 : (step (Toy.env p) Toy.cfg o (Toy.after p ops)).1 = .err e) : Returned o e :=
  ⟨_, _, _, Toy.session p ops h, h2⟩

/-- a call of each function with exceptions -/
def Toy.calls42 : List Op := [.compose1 100, .compose2 100, .process2 (Toy.msg 3 2), .compose3 100, .process3 (Toy.msg 3 3),
  .compose4 100, .process4 (Toy.msg 3 4), .exportSecret 40000 5]

/-- **C42** fails: each of the exceptions is returned, by each of the functions, in some session, and is not documented. -/
theorem C42_violated : ∀ o ∈ Toy.calls42, ∀ e ∈ exceptions o, Returned o e ∧ e ∉ retvals o := by
  simp only [Toy.calls42, exceptions, List.forall_mem_cons, List.not_mem_nil, false_implies, implies_true, and_true]
  refine ⟨⟨?_, by decide⟩, ⟨⟨?_, by decide⟩, ?_, by decide⟩, ⟨?_, by decide⟩, ⟨⟨?_, by decide⟩, ⟨?_, by decide⟩, ?_, by decide⟩,
    ⟨?_, by decide⟩, ⟨?_, by decide⟩, ⟨?_, by decide⟩, ?_, by decide⟩
  · exact Toy.returned (p := Toy.without Toy.alice 2) (ops := Toy.conf 3 (.int 5)) (by decide +kernel) (by decide +kernel)
  · exact Toy.returned (p := Toy.without Toy.bob 4) (ops := beforeM2) (by decide +kernel) (by decide +kernel)
  · exact Toy.returned (p := Toy.bobOther) (ops := beforeM2) (by decide +kernel) (by decide +kernel)
  · exact Toy.returned (p := Toy.without Toy.alice 13) (ops := Toy.conf 3 (.int 5) ++ [.compose1 100]) (by decide +kernel)
      (by decide +kernel)
  · exact Toy.returned (p := Toy.without Toy.alice 3) (ops := beforeM3) (by decide +kernel) (by decide +kernel)
  · exact Toy.returned (p := Toy.aliceOther) (ops := beforeM3) (by decide +kernel) (by decide +kernel)
  · exact ⟨_, _, _, Toy.hist_session (E := Toy.noMac3) beforeM3 () [] (by decide +kernel), by decide +kernel⟩
  · exact Toy.returned (p := Toy.without Toy.bob 3) (ops := beforeM2 ++ [.compose2 100]) (by decide +kernel)
      (by decide +kernel)
  · exact Toy.returned (p := Toy.without Toy.bobLongEad 44) (ops := beforeM4) (by decide +kernel) (by decide +kernel)
  · exact Toy.returned (p := Toy.without Toy.alice 5) (ops := beforeM3 ++ [.compose3 100]) (by decide +kernel)
      (by decide +kernel)
  · exact Toy.returned (p := Toy.without Toy.alice 5) (ops := beforeM3 ++ [.compose3 100]) (by decide +kernel)
      (by decide +kernel)

/-- the witnesses for C43 and C44: a failed `expand`, and a failed verification -/
example : ∃ l, (step Toy.noMac3 Toy.cfg (.compose3 100) (Toy.hist Toy.noMac3 Toy.cfg beforeM3 Toy.fresh).2).2.log
      = (Toy.hist Toy.noMac3 Toy.cfg beforeM3 Toy.fresh).2.log ++ l ∧ ∃ ev ∈ l, ev.failed = true ∧ ev.callback = .expand :=
  ⟨(step Toy.noMac3 Toy.cfg (.compose3 100) (Toy.hist Toy.noMac3 Toy.cfg beforeM3 Toy.fresh).2).2.log.drop
    (Toy.hist Toy.noMac3 Toy.cfg beforeM3 Toy.fresh).2.log.length, by decide +kernel, by decide +kernel⟩

/-- alice, whose `verify` says no -/
def Toy.noVerify : Env Unit := { Toy.env Toy.alice with verify := fun e _ _ _ => (false, e) }
@[inherit_doc Toy.noVerify]
def Toy.noVerifyB : Env Unit := { Toy.env Toy.bob with verify := fun e _ _ _ => (false, e) }

def Toy.m0I : List Op := Toy.conf 0 (.int 5) ++ [.compose1 100]
def Toy.m0R : List Op := Toy.conf 0 (.bstr [0x18, 9]) ++ [.process1 (Toy.msg 0 1), .compose2 100]

example : (step Toy.noVerify Toy.cfg (.process2 (Toy.msg 0 2)) (Toy.hist Toy.noVerify Toy.cfg Toy.m0I Toy.fresh).2).1
    = .err .invalidSignOrMac2 := by decide +kernel
example : (step Toy.noVerifyB Toy.cfg (.process3 (Toy.msg 0 3)) (Toy.hist Toy.noVerifyB Toy.cfg Toy.m0R Toy.fresh).2).1
    = .err .invalidSignOrMac3 := by decide +kernel

end Verif
