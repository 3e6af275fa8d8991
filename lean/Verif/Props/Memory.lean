/-
C45: the library returns all memory it takes.
-/
import Verif.MemSkeleton

namespace Verif.Mem

/-- The list of functions is complete. -/
theorem Fn.mem_all (f : Fn) : f ∈ Fn.all := by cases f <;> decide

/-- Every function passes the check. -/
theorem check_code (f : Fn) : check (code f) [] = some ([], []) := by
  have : ∀ f, f ∈ Fn.all → check (code f) [] = some ([], []) := by decide +kernel
  exact this f f.mem_all

/-- **C45.** Whatever the allocations, the callbacks and the checks of any function of the library give,
in that function and in those it calls: it returns with every working buffer it allocated released. On
the way no buffer is accessed or released while not allocated (so never after its release, never after a
failed allocation, never twice), and no pointer to allocated memory is overwritten. -/
theorem C45_memory_returned (f : Fn) (o : Out Buf) (h : Run code (code f) [] o) : o = .done [] := by
  rcases check_sound check_code h (check_code f) with h | ⟨_, m, _⟩ | ⟨_, m, _⟩
  · exact h
  · cases m
  · cases m

/-- The same for a piece of a function: a call from inside the library cannot disturb the caller. -/
theorem C45_calls_are_neutral (f : Fn) (L : List Buf) (o : Out Buf) (h : Run code (.call f) L o) :
    o = .next L := by
  cases h with
  | call _ => rfl
  | callBad h n => exact absurd (C45_memory_returned f _ h) n

/-! ### The hypotheses are met -/

/-- Run a statement by the choices of `w`: `true` for a successful allocation, the first alternative, one
more round. -/
def exec {β φ : Type} [DecidableEq β] (code : φ → Stm β φ) :
    Nat → Stm β φ → List Bool → List β → Option (Out β × List Bool)
  | 0, _, _, _ => none
  | _ + 1, .skip, w, L => some (.next L, w)
  | _ + 1, .alloc b, w, L =>
    if b ∈ L then some (.fault, w) else
    match w with
    | true :: w => some (.next (b :: L), w)
    | false :: w => some (.next L, w)
    | [] => none
  | _ + 1, .free b, w, L => if b ∈ L then some (.next (L.erase b), w) else some (.fault, w)
  | _ + 1, .use b, w, L => if b ∈ L then some (.next L, w) else some (.fault, w)
  | n + 1, .ifNull b s, w, L => if b ∈ L then some (.next L, w) else exec code n s w L
  | n + 1, .seq s t, w, L =>
    match exec code n s w L with
    | some (.next M, w) => exec code n t w M
    | r => r
  | n + 1, .alt s t, w, L =>
    match w with
    | true :: w => exec code n s w L
    | false :: w => exec code n t w L
    | [] => none
  | n + 1, .loop s, w, L =>
    match w with
    | false :: w => some (.next L, w)
    | true :: w =>
      match exec code n s w L with
      | some (.next M, w) => exec code n (.loop s) w M
      | some (.brk M, w) => some (.next M, w)
      | r => r
    | [] => none
  | n + 1, .scope s, w, L =>
    match exec code n s w L with
    | some (.brk M, w) => some (.next M, w)
    | r => r
  | _ + 1, .brk, w, L => some (.brk L, w)
  | _ + 1, .ret, w, L => some (.done L, w)
  | n + 1, .call f, w, L =>
    match exec code n (code f) w [] with
    | some (.done [], w) => some (.next L, w)
    | some (_, w) => some (.fault, w)
    | none => none

theorem exec_run {β φ : Type} [DecidableEq β] {code : φ → Stm β φ} : ∀ (n : Nat) (s : Stm β φ)
    (w : List Bool) (L : List β) (o : Out β) (w' : List Bool),
    exec code n s w L = some (o, w') → Run code s L o := by
  intro n
  induction n with
  | zero => intro s w L o w' h; cases h
  | succ n ih =>
    intro s w L o w' h
    cases s with
    | skip => simp only [exec] at h; cases h; exact .skip
    | alloc b =>
      simp only [exec] at h
      split at h
      · cases h; exact .overwritten ‹_›
      · split at h
        · cases h; exact .allocated ‹_›
        · cases h; exact .noMemory ‹_›
        · cases h
    | free b =>
      simp only [exec] at h
      split at h
      · cases h; exact .freed ‹_›
      · cases h; exact .freedTwice ‹_›
    | use b =>
      simp only [exec] at h
      split at h
      · cases h; exact .used ‹_›
      · cases h; exact .usedDead ‹_›
    | ifNull b s =>
      simp only [exec] at h
      split at h
      · cases h; exact .notNull ‹_›
      · exact .isNull ‹_› (ih _ _ _ _ _ h)
    | seq s t =>
      simp only [exec] at h
      split at h
      · rename_i h1; exact .seq (ih _ _ _ _ _ h1) (ih _ _ _ _ _ h)
      · rename_i h1; exact .seqEnd (ih _ _ _ _ _ h) fun M e => h1 M w' (by rw [← e]; exact h)
    | alt s t =>
      simp only [exec] at h
      split at h
      · exact .left (ih _ _ _ _ _ h)
      · exact .right (ih _ _ _ _ _ h)
      · cases h
    | loop s =>
      simp only [exec] at h
      split at h
      · cases h; exact .stop
      · split at h
        · rename_i h1; exact .round (ih _ _ _ _ _ h1) (ih _ _ _ _ _ h)
        · rename_i h1; cases h; exact .loopBreak (ih _ _ _ _ _ h1)
        · rename_i h1 h2
          have r := ih _ _ _ _ _ h
          cases o with
          | next M => exact absurd h (h1 M w')
          | brk M => exact absurd h (h2 M w')
          | done M => exact .loopDone r
          | fault => exact .loopFault r
      · cases h
    | scope s =>
      simp only [exec] at h
      split at h
      · rename_i h1; cases h; exact .scopeBreak (ih _ _ _ _ _ h1)
      · rename_i h1; exact .scope (ih _ _ _ _ _ h) fun M e => h1 M w' (by rw [← e]; exact h)
    | brk => simp only [exec] at h; cases h; exact .brk
    | ret => simp only [exec] at h; cases h; exact .ret
    | call f =>
      simp only [exec] at h
      split at h
      · rename_i h1; cases h; exact .call (ih _ _ _ _ _ h1)
      · rename_i h1 h2; cases h
        exact .callBad (ih _ _ _ _ _ h2) fun e => h1 e
      · cases h

/-- Choices from digits, to write a run down. -/
def bits (s : List Nat) : List Bool := s.map (· == 1)

/-- A whole run of processing message 4: five buffers are allocated, one of them in a called function. -/
example : Run code (code .edhoc_message_4_process) [] (.done []) :=
  exec_run 100 _ (bits [0,0,0,0,0,1,1,0,0,0,0,0,0,0,0,0,0,0,0,1,0,0,0,0,0,0,0,0,0,0,0,0,1,0,0,0,0,0,0,0,
    0,1,0,0,0,0,0,0,0]) _ _ [] (by decide +kernel)

/-- A run of composing message 4 in which the last allocation, that of the ciphertext, fails. -/
example : Run code (code .edhoc_message_4_compose) [] (.done []) :=
  exec_run 100 _ (bits [0,0,0,0,0,0,1,0,0,0,0,1,1,0,0,0,0,0,0,0,0,0,0,0,0,1,0,0,0,0,0,0,0,0,0,0,0,0,0,0,
    1,0,0,0,0,0,0]) _ _ [] (by decide +kernel)

/-- The semantics does tell a leak: a function that forgets a buffer on its error path. -/
example : Run (φ := Unit) (fun _ => .skip)
    (seq [.alloc Buf.key, .ifNull .key .ret, alt [seq [.ret], seq []], .free .key, .ret]) [] (.done [.key]) :=
  exec_run 100 _ (bits [1, 1]) _ _ [] (by decide +kernel)

/-- The semantics does tell a use after release. -/
example : Run (φ := Unit) (fun _ => .skip)
    (seq [.alloc Buf.key, .ifNull .key .ret, .free .key, .use .key, .ret]) [] .fault :=
  exec_run 100 _ (bits [1]) _ _ [] (by decide +kernel)

end Verif.Mem
