import Verif.TallyAt
import Verif.Props.History
import Verif.Growth
import Verif.Heads
import Verif.OnCtx
import Verif.ToyRun

/-!
# C77: the work a call and a session make is bounded
-/

namespace Verif

open M Spec

variable {σ α : Type} {E : Env σ} {cfg : Config}

theorem Tally.mapOut {m : M σ α} {g : α → Out} {c : Work} (h : Tally m c) : Tally (M.mapOut g m) c := by
  unfold M.mapOut
  exact (h.bind fun a => Tally.pure (g a)).mono (Work.le_refl _)

theorem Tally.step (o : Op) : Tally (Verif.step E cfg o) (budget o) := by
  cases o <;> unfold Verif.step
  case nullArg => exact Tally.fail _
  case compose1 n => exact (Tally.message1Compose E cfg n).mapOut
  case process1 n => exact (Tally.message1Process E cfg n).mapOut
  case compose2 n => exact (TallyAt.message2Compose E cfg n).mapOut
  case process2 n => exact (TallyAt.message2Process E cfg n).mapOut
  case compose3 n => exact (TallyAt.message3Compose E cfg n).mapOut
  case process3 n => exact (TallyAt.message3Process E cfg n).mapOut
  case compose4 n => exact (Tally.message4Compose E cfg n).mapOut
  case process4 n => exact (Tally.message4Process E cfg n).mapOut
  case exportSecret l n => exact (Tally.exportSecret E cfg l n).mapOut
  case keyUpdate b => exact (Tally.keyUpdate E cfg b).mapOut
  case exportOscore a b c d => exact (Tally.exportOscore E cfg a b c d).mapOut
  all_goals
    refine Tally.mapOut ?_
    first
      | exact Tally.modCtx _
      | (simp only [contextDeinit, Verif.setMethods, Verif.setSuites, Verif.setCid, Verif.setUserCtx, Verif.bindEad,
          Verif.bindKeys, Verif.bindCrypto, Verif.bindCred, errorGetCode, errorGetSuites]
         show Tally _ 0
         repeat (first
           | exact Tally.modCtx _
           | exact Tally.pure _
           | exact Tally.require _ _
           | (refine Tally.skip Tally.getCtx fun _ => ?_)
           | (refine Tally.skip (Tally.require _ _) fun _ => ?_)
           | (refine Tally.skip (Tally.guardUB _ _) fun _ => ?_)))

/-- **C77** (one call). An API call, in whatever state, however it ends and whatever it is given, makes no more calls to
the application than its budget says. In particular the processing of message 1, which anybody can send, makes no
public-key operation. -/
theorem C77_call {o : Op} {s s' : St σ} {r : Res Out} (h : step E cfg o s = (r, s')) :
    work (during s s') ≤ budget o := by
  obtain ⟨es, h1, h2⟩ := Tally.step (E := E) (cfg := cfg) o s
  rw [h] at h1
  unfold during
  rw [h1, List.drop_left]
  exact h2

/-! ## A session -/

/-- what the message calls made at most that lead to the status -/
def spent : Status → Work
  | .start => 0
  | .waitM2 => ⟨1, 1, 2, 1, 1⟩
  | .receivedM1 => ⟨0, 1, 0, 1, 0⟩
  | .verifiedM2 => ⟨3, 8, 16, 3, 12⟩
  | .waitM3 => ⟨3, 8, 14, 3, 14⟩
  | .completed => ⟨4, 15, 28, 5, 26⟩
  | _ => handshakeBudget

theorem spent_le (t : Status) : spent t ≤ handshakeBudget := by cases t <;> decide

theorem spent_message {o : Op} {k : Call} (hk : callOf o = some k) {c : Ctx} (h : okOf k c = true) :
    spent c.status + budget o ≤ spent (nextOf k) := by
  cases o <;> simp only [callOf, Option.some.injEq, reduceCtorEq] at hk <;> subst hk <;>
    simp only [okOf, okStart, okReceivedM1, okWaitM2, okVerifiedM2, okWaitM3, okCompleted, Bool.and_eq_true,
      beq_iff_eq] at h <;>
    simp only [h, budget] <;> decide

theorem otherBudget_snoc (h : History) (p : Op × Res Out) :
    otherBudget (h ++ [p]) = otherBudget h + if callOf p.1 = none then budget p.1 else 0 := by
  unfold otherBudget
  induction h with
  | nil => exact (Work.zero_add _).symm
  | cons q h ih =>
    simp only [List.cons_append, List.map_cons, List.foldr_cons] at ih ⊢
    rw [ih, Work.add_assoc]

theorem Spec.Work.add_right_comm (a b c : Work) : a + b + c = a + c + b :=
  Work.ext' (Nat.add_right_comm _ _ _) (Nat.add_right_comm _ _ _) (Nat.add_right_comm _ _ _)
    (Nat.add_right_comm _ _ _) (Nat.add_right_comm _ _ _)

theorem spent_session {e : σ} {log : List Ev} {h : History} {s : St σ} (hs : Session E cfg e log h s) :
    ∃ es, s.log = log ++ es ∧ work es ≤ spent s.ctx.status + otherBudget h := by
  refine session_ind (P := fun h s => ∃ es, s.log = log ++ es ∧ work es ≤ spent s.ctx.status + otherBudget h) ?_ ?_ hs
  · exact ⟨[], by simp, Work.zero_le _⟩
  · intro h s o r s' _ ih hst hd hr
    obtain ⟨es, l1, w1⟩ := ih
    obtain ⟨fs, l2, w2⟩ := Tally.step (E := E) (cfg := cfg) o s
    rw [hst] at l2
    rw [otherBudget_snoc]
    have l3 : s'.log = log ++ (es ++ fs) := by rw [← List.append_assoc, ← l1]; exact l2
    have w3 : work (es ++ fs) ≤ spent s.ctx.status + otherBudget h + budget o := by
      rw [work_append]; exact Work.add_le w1 w2
    cases hk : callOf o with
    | none =>
      refine ⟨_, l3, Work.le_trans w3 ?_⟩
      simp only [if_true]
      rw [Work.add_assoc]
      refine Work.add_le ?_ (Work.le_refl _)
      rcases (step_other hk hr hst hd).2.2 with ⟨h1, _⟩ | ⟨_, _, _, _, _, h1, _⟩ | ⟨_, _, _, _, _, _, _, _, h1, _⟩ |
          ⟨_, _, h1, _⟩ <;> rw [h1]
      · exact Work.le_refl _
      · exact Work.le_refl _
      · exact Work.le_refl _
      · exact spent_le _
    | some k =>
      simp only [reduceCtorEq, if_false, Work.add_zero]
      rw [Work.add_right_comm] at w3
      rcases step_message hk hst hd with ⟨_, _, rfl⟩ | ⟨_, _, _, rfl⟩ | ⟨_, h1, _, _, _, _, h2⟩ | ⟨_, h1, _, _, h2⟩
      · exact ⟨es, l1, w1⟩
      · exact ⟨es, l1, w1⟩
      · refine ⟨_, l3, Work.le_trans w3 (Work.add_le ?_ (Work.le_refl _))⟩
        have : s'.ctx.status = .aborted := congrArg Ctx.status h2
        rw [this]
        exact Work.le_trans (spent_message hk h1) (spent_le _)
      · refine ⟨_, l3, Work.le_trans w3 (Work.add_le ?_ (Work.le_refl _))⟩
        have : s'.ctx.status = nextOf k := congrArg Ctx.status h2
        rw [this]
        exact spent_message hk h1

/-- **C77** (a session). However many calls a session makes and whatever messages it is given, its message calls make
no more calls to the application than those of one handshake; only exports and key updates, which the application asks
for, add to that. -/
theorem C77_session {e : σ} {log : List Ev} {h : History} {s : St σ} (hs : Session E cfg e log h s) :
    work (sessionCalls log s) ≤ handshakeBudget + otherBudget h := by
  obtain ⟨es, h1, h2⟩ := spent_session hs
  unfold sessionCalls
  rw [h1, List.drop_left]
  exact Work.le_trans h2 (Work.add_le (spent_le _) (Work.le_refl _))

theorem otherBudget_publicKey (h : History) :
    (otherBudget h).publicKey = 0 ∧ (otherBudget h).application = 0 := by
  unfold otherBudget
  induction h with
  | nil => exact ⟨rfl, rfl⟩
  | cons p h ih =>
    simp only [List.map_cons, List.foldr_cons]
    have hp : (if callOf p.1 = none then budget p.1 else 0 : Work).publicKey = 0 ∧
        (if callOf p.1 = none then budget p.1 else 0 : Work).application = 0 := by
      generalize p.1 = o
      cases o <;> exact ⟨rfl, rfl⟩
    exact ⟨(Nat.add_eq_zero_iff.2 ⟨hp.1, ih.1⟩ : _ + _ = 0), (Nat.add_eq_zero_iff.2 ⟨hp.2, ih.2⟩ : _ + _ = 0)⟩

/-- **C77** (public-key operations). A session of any length makes at most four public-key operations and at most six
calls to the credential and EAD callbacks. -/
theorem C77_publicKey {e : σ} {log : List Ev} {h : History} {s : St σ} (hs : Session E cfg e log h s) :
    (work (sessionCalls log s)).publicKey ≤ 4 ∧ (work (sessionCalls log s)).application ≤ 6 := by
  obtain ⟨h1, _, _, h4, _⟩ := C77_session hs
  obtain ⟨k1, k2⟩ := otherBudget_publicKey h
  exact ⟨Nat.le_trans h1 (by show 4 + _ ≤ 4; omega), Nat.le_trans h4 (by show 6 + _ ≤ 6; omega)⟩

/-! ## Concrete sessions -/

/-- A Responder with method 3 makes exactly as much work as the bound allows: no number in it can be lowered. -/
example : work (sessionCalls [] (Toy.after Toy.bob (Toy.callsR 3))) = handshakeBudget := by decide +kernel

example : work (sessionCalls [] (Toy.after Toy.alice (Toy.callsI 3))) = ⟨4, 18, 34, 5, 31⟩ := by decide +kernel

/-- the theorem for it -/
example : work (sessionCalls [] (Toy.after Toy.bob (Toy.callsR 3))) ≤ handshakeBudget := by
  have h := C77_session Toy.session_R3
  have h0 : otherBudget (Toy.hst Toy.bob (Toy.callsR 3)) = 0 := by decide +kernel
  rwa [h0] at h

/-- processing message 1 of a toy handshake reaches its bound -/
example : work (during (Toy.after Toy.bob (Toy.conf 3 (.int 6))) (step (Toy.env Toy.bob) Toy.cfg
    (.process1 (Toy.msg 3 1)) (Toy.after Toy.bob (Toy.conf 3 (.int 6)))).2) = budget (.process1 (Toy.msg 3 1)) := by
  decide +kernel

/-- the work of the last of a party's first `n` calls -/
def Toy.lastWork (p : Toy.Party) (calls : List Op) (n : Nat) : Work :=
  work (during (Toy.after p (calls.take (n - 1))) (Toy.after p (calls.take n)))

/-- so do the other calls of a toy handshake with method 3 (nobody sends EAD in message 2 here) -/
example : Toy.lastWork Toy.alice (Toy.callsI 3) 8 = budget (.compose1 100) ∧
    Toy.lastWork Toy.bob (Toy.callsR 3) 9 = budget (.compose2 100) ∧
    Toy.lastWork Toy.alice (Toy.callsI 3) 9 + ⟨0, 0, 0, 1, 0⟩ = budget (.process2 []) ∧
    Toy.lastWork Toy.alice (Toy.callsI 3) 10 = budget (.compose3 100) ∧
    Toy.lastWork Toy.bob (Toy.callsR 3) 10 = budget (.process3 []) ∧
    Toy.lastWork Toy.bob (Toy.callsR 3) 11 = budget (.compose4 100) ∧
    Toy.lastWork Toy.alice (Toy.callsI 3) 11 = budget (.process4 []) := by decide +kernel

/-- with signatures the same number of public-key operations, less of everything else -/
example : work (sessionCalls [] (Toy.after Toy.bob (Toy.callsR 0))) = ⟨4, 14, 26, 6, 28⟩ := by decide +kernel

end Verif
