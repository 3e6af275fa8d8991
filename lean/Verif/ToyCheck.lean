import Verif.ToyRun
import Verif.SpecKeys

/-!
# Checking the hypotheses of the property theorems on histories of the toy application
-/

namespace Verif.Toy

open Verif Spec

def regularB (L : List Ev) (su : Suite) : Bool :=
  L.all fun e => match e with
    | .hash _ (some o) => o.length == su.hash
    | _ => true

theorem regular_of {L : List Ev} {su : Suite} (h0 : SuiteSmall su) (h1 : 0 < su.eccKey ∧ su.eccKey < 2 ^ 32)
    (h : regularB L su = true) : Regular L su := by
  refine ⟨h0, h1, fun i o hm => ?_⟩
  have := List.all_eq_true.1 h _ hm
  simpa using this

def shortB (h : History) : Bool :=
  h.all fun p => (match input p.1 with
    | some m => decide (m.length < 2 ^ 32)
    | none => true) && match p.2 with
    | .ok (.bytes m) => decide (m.length < 2 ^ 32)
    | _ => true

theorem short_of {h : History} (hb : shortB h = true) : ShortMessages h := by
  intro p hp
  have := List.all_eq_true.1 hb p hp
  simp only [Bool.and_eq_true] at this
  refine ⟨fun m hm => ?_, fun m hm => ?_⟩
  · rw [hm] at this; simpa using this.1
  · rw [hm] at this; simpa using this.2

def settledB : History → Bool
  | [] => true
  | p :: h => ((callOf p.1).isNone || !succeeded p.2 || h.all fun q => !succeeded q.2 || !isSetter q.1) && settledB h

theorem settled_of {h : History} (hb : settledB h = true) : Settled h := by
  unfold Settled
  induction h with
  | nil => exact .nil
  | cons p h ih =>
    simp only [settledB, Bool.and_eq_true, Bool.or_eq_true] at hb
    refine .cons (fun q hq h1 h2 h3 => ?_) (ih hb.2)
    rcases hb.1 with (h | h) | h
    · simp at h; exact absurd h h1
    · simp [h2] at h
    · have := List.all_eq_true.1 h q hq
      simpa [h3] using this

def numbersB (c : Ctx) : Bool :=
  (suites c).all fun s => decide (-2147483648 ≤ s.value) && decide (s.value ≤ 2147483647)

theorem numbers_of {c : Ctx} (h : numbersB c = true) : SuiteNumbers c := by
  intro s hs
  have := List.all_eq_true.1 h s hs
  simpa using this

/-- all of the above for a list of calls of the toy application -/
def checkB (p : Party) (ops : List Op) : Bool :=
  ((hst p ops).all fun p => !isUb p.2 && !restarts p.1) && settledB (hst p ops) &&
    decide ((after p ops).ctx.suite = suite) && regularB (sessionCalls [] (after p ops)) suite &&
    numbersB (after p ops).ctx && shortB (hst p ops)

theorem check {p : Party} {ops : List Op} (h : checkB p ops = true) :
    Session (env p) cfg () [] (hst p ops) (after p ops) ∧ Settled (hst p ops) ∧
      Regular (sessionCalls [] (after p ops)) (after p ops).ctx.suite ∧ SuiteNumbers (after p ops).ctx ∧
      ShortMessages (hst p ops) := by
  simp only [checkB, Bool.and_eq_true, decide_eq_true_eq] at h
  obtain ⟨⟨⟨⟨⟨h1, h2⟩, h3⟩, h4⟩, h5⟩, h6⟩ := h
  refine ⟨session _ _ h1, settled_of h2, ?_, numbers_of h5, short_of h6⟩
  rw [h3]
  exact regular_of (by decide) (by decide) h4

theorem hist_append {σ : Type} {E : Env σ} {cfg : Config} (l l' : List Op) (s : St σ) :
    hist E cfg (l ++ l') s = ((hist E cfg l s).1 ++ (hist E cfg l' (hist E cfg l s).2).1,
      (hist E cfg l' (hist E cfg l s).2).2) := by
  induction l generalizing s with
  | nil => rfl
  | cons o l ih => simp only [List.cons_append, hist, ih]

/-- the same for a last call with result `x` -/
theorem check_last {p : Party} {ops : List Op} {o : Op} {x : Out} (h : checkB p (ops ++ [o]) = true)
    (hx : (step (env p) cfg o (after p ops)).1 = .ok x) :
    Session (env p) cfg () [] (hst p ops ++ [(o, .ok x)]) (after p (ops ++ [o])) ∧
      Settled (hst p ops ++ [(o, .ok x)]) ∧
      Regular (sessionCalls [] (after p (ops ++ [o]))) (after p (ops ++ [o])).ctx.suite ∧
      SuiteNumbers (after p (ops ++ [o])).ctx ∧ ShortMessages (hst p ops ++ [(o, .ok x)]) := by
  have e : hst p ops ++ [(o, .ok x)] = hst p (ops ++ [o]) := by
    unfold hst
    rw [hist_append, ← hx]
    rfl
  rw [e]
  exact check h

/-- has the handshake been completed? -/
def completeB (h : History) : Bool := (messages h).any fun k => k == .compose3 || k == .process3

theorem complete_of {h : History} (hb : completeB h = true) : complete h := by
  simp only [completeB, List.any_eq_true, Bool.or_eq_true, beq_iff_eq] at hb
  obtain ⟨k, hk, rfl | rfl⟩ := hb
  · exact Or.inl hk
  · exact Or.inr hk

/-- the `n`-th call succeeds, and hashes have the right length in it -/
def stepB (p : Party) (ops : List Op) (n : Nat) : Bool :=
  match ops[n]? with
  | none => false
  | some o =>
    let s := after p (ops.take n)
    let r := step (env p) cfg o s
    succeeded r.1 && regularB (during s r.2) s.ctx.suite

/-- the result of an OSCORE export -/
def oscoreOf : Res Out → Oscore
  | .ok (.oscore o) => o
  | _ => ⟨[], [], [], []⟩

/-- the methods -/
def methods : List Nat := [0, 1, 2, 3]

/-- exporter calls after the handshake -/
def exports : List Op := [.exportSecret 40000 20, .exportOscore 16 8 4 4, .keyUpdate [7, 7], .exportSecret 40000 20,
  .exportOscore 16 8 4 4]

theorem checkI : (methods.all fun m => checkB alice (callsI m ++ exports)) = true := by decide +kernel
theorem checkR : (methods.all fun m => checkB bob (callsR m ++ exports)) = true := by decide +kernel

end Verif.Toy
