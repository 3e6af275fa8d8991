import Verif.SpecPqc
import Verif.Suite.Logic

/-!
# Reasoning about the post-quantum suite
-/

namespace Verif.Pqc

open Psa (Store Algs Attr Key)
open M Spec.Pqc

variable {α β : Type} {A : Algs} {B : PqAlgs}

theorem bind_run {m : M α} {f : α → M β} {s s1 : State} {a : α} (h : m s = (.ok a, s1)) : (m >>= f) s = f a s1 := by
  show M.bind m f s = _
  rw [M.bind, h]

theorem bind_err {m : M α} {f : α → M β} {s s1 : State} {e : Err} (h : m s = (.err e, s1)) : (m >>= f) s = (.err e, s1) := by
  show M.bind m f s = _
  rw [M.bind, h]

theorem mbind_ok {m : M α} {f : α → M β} {s s' : State} {b : β} :
    (m >>= f) s = (.ok b, s') ↔ ∃ a s1, m s = (.ok a, s1) ∧ f a s1 = (.ok b, s') := by
  show M.bind m f s = _ ↔ _
  rw [M.bind]
  constructor
  · intro h
    split at h
    · exact ⟨_, _, by assumption, h⟩
    · cases h
    · cases h
  · rintro ⟨a, s1, h1, h2⟩
    rw [h1]; exact h2

theorem mpure_ok {a b : α} {s s' : State} : (pure a : M α) s = (.ok b, s') ↔ a = b ∧ s = s' := by
  show (Res.ok a, s) = _ ↔ _
  simp

theorem mrequire_ok {b : Bool} {e : Err} {s s' : State} {a : Unit} : M.require b e s = (.ok a, s') ↔ b = true ∧ s = s' := by
  cases b <;> simp [M.require]

theorem mguard_ok {b : Bool} {u : UB} {s s' : State} {a : Unit} : M.guardUB b u s = (.ok a, s') ↔ b = true ∧ s = s' := by
  cases b <;> simp [M.guardUB]

theorem lift_ok {m : Psa.P α} {s s' : State} {a : α} :
    M.lift m s = (.ok a, s') ↔ ∃ p, m s.psa = (.ok a, p) ∧ s' = { s with psa := p } := by
  simp only [M.lift, Prod.mk.injEq]
  constructor
  · rintro ⟨h, rfl⟩; exact ⟨_, Prod.ext h rfl, rfl⟩
  · rintro ⟨p, h, rfl⟩; rw [h]; exact ⟨rfl, rfl⟩

/-- the state after a call that does not change the keys -/
def State.tick (s : State) : State := { s with psa := s.psa.tick }

@[simp] theorem State.tick_slots (s : State) : s.tick.slots = s.slots := rfl
@[simp] theorem State.tick_find (s : State) (h : Nat) : s.tick.psa.find h = s.psa.find h := rfl
@[simp] theorem State.tick_fault (s : State) : s.tick.psa.fault = s.psa.fault := rfl
@[simp] theorem State.tick_clock (s : State) : s.tick.psa.clock = s.psa.clock + 1 := rfl
@[simp] theorem State.tick_rand (s : State) : s.tick.psa.rand = s.psa.rand := rfl

theorem oqs_ok {f : Bytes → Option α} {s s' : State} {a : α} :
    M.oqs f s = (.ok a, s') ↔ s.psa.fault s.psa.clock = false ∧ f (s.psa.rand s.psa.clock) = some a ∧ s' = s.tick := by
  rw [M.oqs, lift_ok]
  constructor
  · rintro ⟨p, h, rfl⟩
    obtain ⟨h1, h2, rfl⟩ := Psa.query_ok.1 h
    exact ⟨h1, h2, rfl⟩
  · rintro ⟨h1, h2, rfl⟩
    exact ⟨_, Psa.query_ok.2 ⟨h1, h2, rfl⟩, rfl⟩

/-! ## What does not touch the slots -/

/-- the slots stay as they are -/
def Still (m : M α) : Prop := ∀ s, (m s).2.slots = s.slots

theorem Still.bind {m : M α} {f : α → M β} (h1 : Still m) (h2 : ∀ a, Still (f a)) : Still (m >>= f) := by
  intro s
  show (M.bind m f s).2.slots = _
  have := h1 s
  rw [M.bind]
  split <;> rename_i h <;> rw [h] at this
  · rw [h2, this]
  · exact this
  · exact this

theorem Still.pure (a : α) : Still (pure a : M α) := fun _ => rfl
theorem Still.require (b : Bool) (e : Err) : Still (M.require b e) := fun _ => rfl
theorem Still.guard (b : Bool) (u : UB) : Still (M.guardUB b u) := fun _ => rfl
theorem Still.lift (m : Psa.P α) : Still (M.lift m) := fun _ => rfl
theorem Still.oqs (f : Bytes → Option α) : Still (M.oqs f) := fun _ => rfl

theorem Still.exportRaw (h n : Nat) : Still (exportRaw h n) := by
  intro s
  rw [Pqc.exportRaw]
  split
  · split
    · rfl
    · split
      · rfl
      · split
        · rfl
        · split <;> rfl
  · rfl

macro "still" : tactic => `(tactic| repeat first
  | exact Still.pure _ | exact Still.require _ _ | exact Still.guard _ _ | exact Still.lift _ | exact Still.oqs _
  | exact Still.exportRaw _ _ | refine Still.bind ?_ fun _ => ?_)

/-- calls that do not touch the slots -/
theorem call_still {c : Call} (h1 : ∀ r, c ≠ .importKey .makeKeyPair r) (h2 : ∀ h, c ≠ .destroyKey h)
    (h3 : ∀ h n m, c ≠ .makeKeyPair h n m) : Still (call A B c) := by
  cases c with
  | importKey t raw => cases t <;> first | exact absurd rfl (h1 raw) | (simp only [call, keyImport]; still)
  | destroyKey h => exact absurd rfl (h2 h)
  | makeKeyPair h n m => exact absurd rfl (h3 h n m)
  | encapsulate => simp only [call, Pqc.encapsulate]; still
  | decapsulate => simp only [call, Pqc.decapsulate]; still
  | sign => simp only [call, signInput]; still
  | verify => simp only [call, verifyInput]; still
  | extract => simp only [call, extractKey, kdfKmac]; still
  | expand => simp only [call, expandKey, kdfKmac]; still
  | encrypt => simp only [call, encryptText]; still
  | decrypt => simp only [call, decryptText]; still
  | hash => simp only [call, hashInput]; still

/-! ## The slots and the history -/

/-- a private key has its length -/
def Sized : KeyState → Prop
  | .holds dk => dk.length = dkLen
  | _ => True

/-- the slots hold what is known about the handles -/
def Match (s : State) (k0 k1 : KeyState) : Prop := s.slots = [memory k0, memory k1] ∧ Sized k0 ∧ Sized k1

theorem reserved_iff {h : Nat} : isSlotHandle h = true ↔ h = base ∨ h = base + 1 := by
  have : base + maxSlots = base + 2 := rfl
  simp only [isSlotHandle, Bool.and_eq_true, decide_eq_true_eq, this]
  omega

@[simp] theorem memory_used (k : KeyState) : (memory k).inUse = true ↔ k ≠ .absent := by cases k <;> simp [memory]

theorem slotFrom_eq {s : State} {k0 k1 : KeyState} (hm : Match s k0 k1) (h : Nat) :
    slotFromHandle s h = if h = base then (if k0 = .absent then none else some 0)
      else if h = base + 1 then (if k1 = .absent then none else some 1) else none := by
  rw [slotFromHandle, hm.1]
  by_cases h0 : h = base
  · subst h0
    rw [if_pos (reserved_iff.2 (.inl rfl)), if_pos rfl, Nat.sub_self]
    cases k0 <;> simp [memory, maxSlots]
  · rw [if_neg h0]
    by_cases h1 : h = base + 1
    · subst h1
      rw [if_pos (reserved_iff.2 (.inr rfl)), if_pos rfl, Nat.add_sub_cancel_left]
      cases k1 <;> simp [memory, maxSlots]
    · rw [if_neg h1, if_neg]
      rw [reserved_iff]
      rintro (rfl | rfl)
      · exact h0 rfl
      · exact h1 rfl

/-- the slot of a handle that was given out -/
theorem slotAt_eq {s : State} {k0 k1 : KeyState} (hm : Match s k0 k1) (h : Nat) :
    ((slotFromHandle s h).bind fun i => s.slots[i]?) = if h = base then (if k0 = .absent then none else some (memory k0))
      else if h = base + 1 then (if k1 = .absent then none else some (memory k1)) else none := by
  rw [slotFrom_eq hm, hm.1]
  split
  · split <;> rfl
  · split
    · split <;> rfl
    · rfl

/-- A new handle: the first of the two that is not in use. -/
theorem alloc_eq {s : State} {k0 k1 : KeyState} (hm : Match s k0 k1) (raw : Bytes) :
    (k0 = .absent ∧ (call A B (.importKey .makeKeyPair raw) s).1 = .ok (.handle base) ∧
        Match (call A B (.importKey .makeKeyPair raw) s).2 .empty k1) ∨
      (k0 ≠ .absent ∧ k1 = .absent ∧ (call A B (.importKey .makeKeyPair raw) s).1 = .ok (.handle (base + 1)) ∧
        Match (call A B (.importKey .makeKeyPair raw) s).2 k0 .empty) ∨
      (k0 ≠ .absent ∧ k1 ≠ .absent ∧ call A B (.importKey .makeKeyPair raw) s = (.err .crypto, s)) := by
  obtain ⟨hs, z0, z1⟩ := hm
  by_cases h0 : k0 = .absent
  · subst h0
    left
    have : slotAlloc .makeKeyPair s = (.ok base, { s with slots := [memory .empty, memory k1] }) := by
      rw [slotAlloc, hs]; rfl
    have e : call A B (.importKey .makeKeyPair raw) s = _ := bind_run this
    rw [e]
    exact ⟨rfl, rfl, rfl, trivial, z1⟩
  · have u0 : (memory k0).inUse = true := (memory_used k0).2 h0
    by_cases h1 : k1 = .absent
    · subst h1
      right; left
      have : slotAlloc .makeKeyPair s = (.ok (base + 1), { s with slots := [memory k0, memory .empty] }) := by
        rw [slotAlloc, hs]
        simp only [firstFree, u0, if_true]
        rfl
      have e : call A B (.importKey .makeKeyPair raw) s = _ := bind_run this
      rw [e]
      exact ⟨h0, rfl, rfl, rfl, z0, trivial⟩
    · have u1 : (memory k1).inUse = true := (memory_used k1).2 h1
      right; right
      have : slotAlloc .makeKeyPair s = (.err .crypto, s) := by
        rw [slotAlloc, hs]
        simp only [firstFree, u0, u1, if_true]
      exact ⟨h0, h1, bind_err this⟩

/-- Destroying a handle. -/
theorem destroy_eq {s : State} {k0 k1 : KeyState} (hm : Match s k0 k1) (h : Nat) :
    Match (call A B (.destroyKey h) s).2 (if h = base then .absent else k0) (if h = base + 1 then .absent else k1) := by
  have e : (call A B (.destroyKey h) s).2 = (keyDestroy h s).2 := by
    show (M.bind _ _ s).2 = _
    rw [M.bind]
    split <;> rename_i x <;> rw [x] <;> rfl
  rw [e, keyDestroy]
  by_cases hr : isSlotHandle h = true
  · rw [if_pos hr, slotFree, slotFrom_eq hm]
    rcases reserved_iff.1 hr with rfl | rfl
    · simp only [if_pos]
      rw [if_neg (show ¬ base = base + 1 by omega)]
      by_cases h0 : k0 = .absent
      · subst h0; rw [if_pos rfl]; exact hm
      · rw [if_neg h0]
        exact ⟨by show s.slots.set 0 _ = _; rw [hm.1]; rfl, trivial, hm.2.2⟩
    · rw [if_neg (show ¬ base + 1 = base by omega)]
      simp only [if_pos]
      rw [if_neg (show ¬ base + 1 = base by omega)]
      by_cases h1 : k1 = .absent
      · subst h1; rw [if_pos rfl]; exact hm
      · rw [if_neg h1]
        exact ⟨by show s.slots.set 1 _ = _; rw [hm.1]; rfl, hm.2.1, trivial⟩
  · rw [if_neg hr]
    have h0 : h ≠ base := fun x => hr (reserved_iff.2 (.inl x))
    have h1 : h ≠ base + 1 := fun x => hr (reserved_iff.2 (.inr x))
    rw [if_neg h0, if_neg h1]
    exact hm

theorem require_true {b : Bool} {e : Err} {s : State} (h : b = true) : M.require b e s = (.ok (), s) := by rw [M.require, h]; rfl
theorem require_false {b : Bool} {e : Err} {s : State} (h : b = false) : M.require b e s = (.err e, s) := by rw [M.require, h]; rfl
theorem guard_true {b : Bool} {u : UB} {s : State} (h : b = true) : M.guardUB b u s = (.ok (), s) := by rw [M.guardUB, h]; rfl

theorem oqs_run {f : Bytes → Option α} {s : State} {a : α} (h1 : s.psa.fault s.psa.clock = false)
    (h2 : f (s.psa.rand s.psa.clock) = some a) : M.oqs f s = (.ok a, s.tick) := oqs_ok.2 ⟨h1, h2, rfl⟩

theorem oqs_fault {f : Bytes → Option α} {s : State} (h1 : s.psa.fault s.psa.clock = true) : M.oqs f s = (.err .crypto, s.tick) := by
  simp only [M.oqs, M.lift, Psa.P.query, Psa.P.psa, h1, if_true]
  rfl

theorem call_run {m : M α} {f : α → Out} {s s1 : State} {a : α} (h : m s = (.ok a, s1)) :
    (do let x ← m; pure (f x) : M Out) s = (.ok (f a), s1) := bind_run h

theorem call_err {m : M α} {f : α → Out} {s s1 : State} {e : Err} (h : m s = (.err e, s1)) :
    (do let x ← m; pure (f x) : M Out) s = (.err e, s1) := bind_err h

/-- Filling a slot. -/
def fill (dk : Bytes) (x : Slot) : Slot := { x with material := overwrite x.material (dk.take dkLen), len := dkLen }

theorem fill_eq {k : KeyState} {dk : Bytes} (hk : k ≠ .absent) (hz : Sized k) (hd : dk.length = dkLen) :
    fill dk (memory k) = memory (.holds dk) := by
  have ht : dk.take dkLen = dk := by rw [← hd]; exact List.take_length
  cases k with
  | absent => exact absurd rfl hk
  | empty =>
    simp only [fill, memory, overwrite, ht, hd, zeros, List.drop_replicate]
    rfl
  | holds b =>
    simp only [fill, memory, overwrite, ht, hd]
    show (⟨true, .makeKeyPair, dk ++ List.drop dkLen (b ++ zeros (2560 - 1632)), dkLen⟩ : Slot) = _
    rw [List.drop_append_of_le_length (by rw [show b.length = dkLen from hz]; exact Nat.le_refl _),
      show b.drop dkLen = [] by rw [← show b.length = dkLen from hz]; exact List.drop_length, List.nil_append]
    rfl

/-- A new key pair. -/
theorem pair_eq (hl : Laws B) {s : State} {k0 k1 : KeyState} (hm : Match s k0 k1) (h n m : Nat) :
    call A B (.makeKeyPair h n m) s =
      if n = 0 ∨ m = 0 then (.err .invalidArgument, s)
      else if ¬ ((h = base ∧ k0 ≠ .absent) ∨ (h = base + 1 ∧ k1 ≠ .absent)) then (.err .invalidArgument, s)
      else if n < dkLen ∨ m < ekLen then (.err .bufferTooSmall, s)
      else if s.psa.fault s.psa.clock then (.err .crypto, s.tick)
      else (.ok (.pair (B.kemPair (s.psa.rand s.psa.clock)).2 (B.kemPair (s.psa.rand s.psa.clock)).1),
        { s.tick with slots :=
          [memory (if h = base then .holds (B.kemPair (s.psa.rand s.psa.clock)).2 else k0),
           memory (if h = base + 1 then .holds (B.kemPair (s.psa.rand s.psa.clock)).2 else k1)] }) := by
  by_cases c0 : n = 0 ∨ m = 0
  · rw [if_pos c0]
    refine call_err (bind_err (require_false ?_))
    rcases c0 with rfl | rfl <;> simp
  rw [if_neg c0]
  have r0 : M.require (n != 0 && m != 0) .invalidArgument s = (.ok (), s) := require_true (by simp; omega)
  by_cases c1 : (h = base ∧ k0 ≠ .absent) ∨ (h = base + 1 ∧ k1 ≠ .absent)
  · rw [if_neg (not_not_intro c1)]
    have hi : ∃ i, slotFromHandle s h = some i ∧ ∃ x, s.slots[i]? = some x ∧ x.type = .makeKeyPair ∧
        ∀ dk, dk.length = dkLen → s.slots.modify i (fill dk) =
          [memory (if h = base then .holds dk else k0), memory (if h = base + 1 then .holds dk else k1)] := by
      rw [slotFrom_eq hm, hm.1]
      rcases c1 with ⟨rfl, hk⟩ | ⟨rfl, hk⟩
      · refine ⟨0, by rw [if_pos rfl, if_neg hk], _, rfl, by cases k0 <;> rfl, fun dk hd => ?_⟩
        rw [if_pos rfl, if_neg (show ¬ base = base + 1 by omega), ← fill_eq hk hm.2.1 hd]
        rfl
      · refine ⟨1, by rw [if_neg (show ¬ base + 1 = base by omega), if_pos rfl, if_neg hk], _, rfl, by cases k1 <;> rfl,
          fun dk hd => ?_⟩
        rw [if_pos rfl, if_neg (show ¬ base + 1 = base by omega), ← fill_eq hk hm.2.2 hd]
        rfl
    obtain ⟨i, hi, x, hx, ht, hf⟩ := hi
    have r1 : (fun s : State => (match slotFromHandle s h with
        | some i => match s.slots[i]? with
          | some x => if x.type = .makeKeyPair then (.ok i, s) else (.err .invalidArgument, s)
          | none => (.err .invalidArgument, s)
        | none => (.err .invalidArgument, s) : Res Nat × State)) s = (.ok i, s) := by
      simp only [hi, hx, ht, if_true]
    by_cases c2 : n < dkLen ∨ m < ekLen
    · rw [if_pos c2]
      refine call_err ((bind_run r0).trans ((bind_run r1).trans (bind_err (require_false ?_))))
      simp; omega
    rw [if_neg c2]
    have d2 : (decide (dkLen ≤ n) && decide (ekLen ≤ m)) = true := by simp; omega
    have d3 : (decide (dkLen ≤ n) && decide (ekLen ≤ m) && decide (dkLen ≤ skLen)) = true := by rw [d2]; rfl
    have r2 := require_true (e := .bufferTooSmall) (s := s) d2
    have r3 := guard_true (u := .oob) (s := s) d3
    by_cases c3 : s.psa.fault s.psa.clock = true
    · rw [if_pos c3]
      exact call_err ((bind_run r0).trans ((bind_run r1).trans ((bind_run r2).trans ((bind_run r3).trans (bind_err (oqs_fault c3))))))
    · rw [if_neg c3]
      have r4 : M.oqs (fun r => some (B.kemPair r)) s = _ := oqs_run (Bool.eq_false_iff.2 c3) rfl
      refine call_run (a := ((B.kemPair (s.psa.rand s.psa.clock)).2, (B.kemPair (s.psa.rand s.psa.clock)).1))
        ((bind_run r0).trans ((bind_run r1).trans ((bind_run r2).trans ((bind_run r3).trans ((bind_run r4).trans ?_)))))
      refine Prod.ext rfl ?_
      show { s.tick with slots := s.slots.modify i (fill (B.kemPair (s.psa.rand s.psa.clock)).2) } = _
      rw [hf _ (hl.dk _)]
  · rw [if_pos c1]
    refine call_err ((bind_run r0).trans (bind_err ?_))
    have : slotFromHandle s h = none := by
      rw [slotFrom_eq hm]
      split
      · split
        · rfl
        · rename_i a b; exact absurd (.inl ⟨a, b⟩) c1
      · split
        · split
          · rfl
          · rename_i a b; exact absurd (.inr ⟨a, b⟩) c1
        · rfl
    simp only [this]

/-- One call: the slots follow what is known about the handles. -/
theorem call_match (hl : Laws B) {s : State} {k0 k1 : KeyState} (hm : Match s k0 k1) (c : Call) :
    Match (call A B c s).2 (note base k0 (c, (call A B c s).1)) (note (base + 1) k1 (c, (call A B c s).1)) := by
  by_cases h1 : ∃ r, c = .importKey .makeKeyPair r
  · obtain ⟨r, rfl⟩ := h1
    rcases alloc_eq (A := A) (B := B) hm r with ⟨-, e, h⟩ | ⟨-, -, e, h⟩ | ⟨-, -, e⟩
    · rw [e]; simp only [note, if_true]; rw [if_neg (show ¬ base = base + 1 by omega)]; exact h
    · rw [e]; simp only [note, if_true]; rw [if_neg (show ¬ base + 1 = base by omega)]; exact h
    · rw [e]; exact hm
  by_cases h2 : ∃ h, c = .destroyKey h
  · obtain ⟨h, rfl⟩ := h2
    exact destroy_eq hm h
  by_cases h3 : ∃ h n m, c = .makeKeyPair h n m
  · obtain ⟨h, n, m, rfl⟩ := h3
    rw [pair_eq hl hm]
    split
    · exact hm
    · split
      · exact hm
      · split
        · exact hm
        · split
          · exact hm
          · refine ⟨rfl, ?_, ?_⟩
            · show Sized (if h = base then _ else _)
              split
              · exact hl.dk _
              · exact hm.2.1
            · show Sized (if h = base + 1 then _ else _)
              split
              · exact hl.dk _
              · exact hm.2.2
  · have hs := call_still (A := A) (B := B) (fun r e => h1 ⟨r, e⟩) (fun h e => h2 ⟨h, e⟩) (fun h n m e => h3 ⟨h, n, m, e⟩) s
    have hn : ∀ h k r, note h k (c, r) = k := by
      intro h k r
      cases c with
      | importKey t raw => cases t <;> first | rfl | exact absurd ⟨raw, rfl⟩ h1
      | destroyKey i => exact absurd ⟨i, rfl⟩ h2
      | makeKeyPair i n m => exact absurd ⟨i, n, m, rfl⟩ h3
      | _ => rfl
    rw [hn, hn]
    exact ⟨hs.trans hm.1, hm.2⟩

/-- A history. -/
theorem run_match (hl : Laws B) : ∀ (as : List Act) {s : State} {k0 k1 : KeyState}, Match s k0 k1 →
    Match (run A B as s).2 ((run A B as s).1.foldl (note base) k0) ((run A B as s).1.foldl (note (base + 1)) k1)
  | [], _, _, _, hm => hm
  | .call c :: as, _, _, _, hm => run_match hl as (call_match hl hm c)
  | .other _ :: as, _, _, _, hm => run_match hl as hm

theorem start_match (p : Store) : Match (.start p) .absent .absent := ⟨rfl, trivial, trivial⟩

/-- The slots after a history from the start. -/
theorem run_start (hl : Laws B) (as : List Act) (p : Store) :
    Match (run A B as (.start p)).2 (keyState (run A B as (.start p)).1 base) (keyState (run A B as (.start p)).1 (base + 1)) :=
  run_match hl as (start_match p)

end Verif.Pqc
