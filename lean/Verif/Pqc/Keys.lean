import Verif.Pqc.Logic

/-!
# Keys of the post-quantum suite in PSA
-/

namespace Verif.Pqc

open Psa (Store Algs Attr Key)
open M Spec.Pqc

variable {α β : Type} {A : Algs} {B : PqAlgs}

theorem fst_ok {m : M α} {s : State} {a : α} : (m s).1 = .ok a ↔ ∃ s', m s = (.ok a, s') :=
  ⟨fun h => ⟨_, Prod.ext h rfl⟩, fun ⟨_, h⟩ => by rw [h]⟩

theorem ok_snd {m : M α} {s : State} {a : α} (h : (m s).1 = .ok a) : m s = (.ok a, (m s).2) := Prod.ext h rfl

/-! ## Keys stay -/

/-- a key with the handle `h` stays -/
def Leaves (h : Nat) (m : M α) : Prop := ∀ s k, s.psa.find h = some k → (m s).2.psa.find h = some k

theorem Leaves.bind {h : Nat} {m : M α} {f : α → M β} (h1 : Leaves h m) (h2 : ∀ a, Leaves h (f a)) : Leaves h (m >>= f) := by
  intro s k hk
  show (M.bind m f s).2.psa.find h = _
  have := h1 s k hk
  rw [M.bind]
  split <;> rename_i e <;> rw [e] at this
  · exact h2 _ _ _ this
  · exact this
  · exact this

theorem Leaves.same {h : Nat} {m : M α} (hm : ∀ s, (m s).2.psa.keys = s.psa.keys) : Leaves h m := by
  intro s k hk
  rw [Store.find, hm]
  exact hk

theorem Leaves.pure (h : Nat) (a : α) : Leaves h (pure a : M α) := .same fun _ => rfl
theorem Leaves.require (h : Nat) (b : Bool) (e : Err) : Leaves h (M.require b e) := .same fun _ => rfl
theorem Leaves.guard (h : Nat) (b : Bool) (u : UB) : Leaves h (M.guardUB b u) := .same fun _ => rfl

theorem Leaves.query (h : Nat) (f : Store → Option α) : Leaves h (M.lift (Psa.P.query f)) := by
  refine .same fun s => ?_
  obtain ⟨n, hn, -⟩ := Psa.Reads.query f s.psa
  show ((Psa.P.query f s.psa).2).keys = _
  rw [hn]

theorem Leaves.oqs (h : Nat) (f : Bytes → Option α) : Leaves h (M.oqs f) := .query h _

theorem Leaves.exportRaw (h i n : Nat) : Leaves h (exportRaw i n) := by
  intro s k hk
  rw [Pqc.exportRaw]
  split
  · split
    · exact hk
    · split
      · exact hk
      · split
        · exact hk
        · split <;> exact hk
  · exact Leaves.query h _ s k hk

theorem Leaves.slotFree (h i : Nat) : Leaves h (slotFree i) := by
  intro s k hk
  rw [Pqc.slotFree]
  split <;> exact hk

theorem Leaves.slotAlloc (h : Nat) (t : KeyType) : Leaves h (slotAlloc t) := by
  intro s k hk
  rw [Pqc.slotAlloc]
  split <;> exact hk

theorem Leaves.importKey (h : Nat) (a : Attr) (raw : Bytes) : Leaves h (M.lift (Psa.importKey A a raw)) := by
  intro s k hk
  cases hr : Psa.importKey A a raw s.psa with
  | mk r p =>
    have e : (M.lift (Psa.importKey A a raw) s).2.psa = p := by rw [M.lift, hr]
    rw [e]
    cases r with
    | ok i =>
      obtain ⟨-, ha⟩ := Psa.importKey_ok hr
      rw [ha.find]
      split
      · rename_i e2
        rw [e2, Psa.freeId_none ha.free] at hk
        cases hk
      · exact hk
    | err e1 =>
      have : p = s.psa.tick := by
        simp only [Psa.importKey, Psa.P.psa] at hr
        split at hr
        · exact (congrArg Prod.snd hr).symm
        · split at hr
          · cases hr
          · exact (congrArg Prod.snd hr).symm
      rw [this]; exact hk
    | ub u =>
      simp only [Psa.importKey, Psa.P.psa] at hr
      split at hr
      · cases hr
      · split at hr <;> cases hr

theorem Leaves.destroyKey {h i : Nat} (hi : i ≠ h) : Leaves h (M.lift (Psa.destroyKey i)) := by
  intro s k hk
  show (Psa.destroyKey i s.psa).2.find h = _
  simp only [Psa.destroyKey, Psa.P.psa]
  split
  · exact hk
  · split
    · rename_i h1
      split at h1
      · cases h1; exact hk
      · split at h1
        · cases h1
          show List.lookup h (s.psa.keys.filter fun p => p.1 != i) = _
          rw [Psa.lookup_filter, if_neg (fun e => hi e.symm)]
          exact hk
        · cases h1
    · exact hk

macro "leaves" : tactic => `(tactic| repeat first
  | with_reducible exact Leaves.pure _ _ | with_reducible exact Leaves.require _ _ _ | with_reducible exact Leaves.guard _ _ _
  | with_reducible exact Leaves.importKey _ _ _ | with_reducible exact Leaves.oqs _ _ | with_reducible exact Leaves.exportRaw _ _ _
  | with_reducible exact Leaves.slotAlloc _ _ | with_reducible exact Leaves.query _ _
  | with_reducible refine Leaves.bind ?_ fun _ => ?_)

/-- A call leaves every key in place but the one it destroys. -/
theorem call_leaves {c : Call} {h : Nat} (hc : c ≠ .destroyKey h) : Leaves h (call A B c) := by
  cases c with
  | importKey t raw => cases t <;> (simp only [call, keyImport]; leaves)
  | destroyKey i =>
    simp only [call, keyDestroy]
    refine Leaves.bind ?_ fun _ => Leaves.pure _ _
    split
    · exact .slotFree _ _
    · exact .destroyKey fun e => hc (by rw [e])
  | makeKeyPair i n m =>
    simp only [call, makePair]
    refine Leaves.bind ?_ fun _ => Leaves.pure _ _
    refine Leaves.bind (.require _ _ _) fun _ => Leaves.bind ?_ fun _ => ?_
    · intro s k hk
      dsimp only
      split
      · split
        · split <;> exact hk
        · exact hk
      · exact hk
    · refine Leaves.bind (.require _ _ _) fun _ => Leaves.bind (.guard _ _ _) fun _ => Leaves.bind (.oqs _ _) fun _ => ?_
      intro s k hk
      exact hk
  | encapsulate => simp only [call, Pqc.encapsulate]; leaves
  | decapsulate => simp only [call, Pqc.decapsulate]; leaves
  | sign => simp only [call, signInput]; leaves
  | verify => simp only [call, verifyInput]; leaves
  | extract => simp only [call, extractKey, kdfKmac]; leaves
  | expand => simp only [call, expandKey, kdfKmac]; leaves
  | encrypt => simp only [call, encryptText, Psa.aeadEncrypt]; leaves
  | decrypt => simp only [call, decryptText, Psa.aeadDecrypt]; leaves
  | hash => simp only [call, hashInput]; leaves

/-- A history that keeps a key. -/
theorem run_stays {h : Nat} {s0 : State} {k : Key} (h0 : s0.psa.find h = some k) : ∀ (as : List Act) {s : State},
    Stays h s0 as → s.psa.find h = some k → (run A B as s).2.psa.find h = some k
  | [], _, _, hk => hk
  | .call c :: as, s, hs, hk => by
    refine run_stays h0 as (fun a ha => hs a (List.mem_cons_of_mem _ ha)) ?_
    refine call_leaves ?_ s k hk
    rintro rfl
    exact hs _ List.mem_cons_self rfl
  | .other p :: as, s, hs, hk => by
    refine run_stays h0 as (fun a ha => hs a (List.mem_cons_of_mem _ ha)) ?_
    exact (hs _ List.mem_cons_self).trans h0

/-! ## Import -/

/-- A successful import of a key other than a key pair. -/
theorem import_ok {t : KeyType} {raw : Bytes} {h : Nat} {s s1 : State} (ht : t ≠ .makeKeyPair)
    (hc : call A B (.importKey t raw) s = (.ok (.handle h), s1)) :
    s.psa.find h = none ∧ s1.psa.find h = some ⟨attrOf t raw.length, raw⟩ ∧ Psa.idMin ≤ h ∧ s1.slots = s.slots ∧
      Psa.keyOk A (attrOf t raw.length) raw = true := by
  have hi : keyImport A t raw = M.lift (Psa.importKey A (attrOf t raw.length) raw) := by
    cases t <;> first | rfl | exact absurd rfl ht
  simp only [call, mbind_ok, hi, lift_ok, mpure_ok] at hc
  obtain ⟨i, s2, ⟨p, h1, rfl⟩, h2, rfl⟩ := hc
  cases h2
  obtain ⟨hk, ha⟩ := Psa.importKey_ok h1
  exact ⟨Psa.freeId_none ha.free, by show p.find h = _; rw [ha.find, if_pos rfl], (Psa.freeId_range ha.free).1, rfl, hk⟩

theorem notSlot {h : Nat} (hh : Psa.idMin ≤ h) : isSlotHandle h = false := by
  rw [Bool.eq_false_iff, Ne, reserved_iff]
  simp only [Psa.idMin, base, userMax, maxSlots] at *
  omega

/-! ## Use -/

/-- export from PSA -/
theorem export_ok {h n : Nat} {s s' : State} {b : Bytes} (hh : isSlotHandle h = false) :
    exportRaw h n s = (.ok b, s') ↔ s.psa.fault s.psa.clock = false ∧
      (∃ k, s.psa.find h = some k ∧ .export ∈ k.attr.usage ∧ k.data.length ≤ n ∧ b = k.data) ∧ s' = s.tick := by
  rw [exportRaw, if_neg (by rw [hh]; exact Bool.false_ne_true), lift_ok]
  simp only [Psa.exportKey, Psa.query_ok, Option.bind_eq_some_iff]
  constructor
  · rintro ⟨p, ⟨h1, ⟨k, hk, h2⟩, rfl⟩, rfl⟩
    split at h2
    · rename_i h3
      simp only [Bool.and_eq_true, List.contains_iff_mem, decide_eq_true_eq] at h3
      cases h2
      exact ⟨h1, ⟨k, hk, h3.1, h3.2, rfl⟩, rfl⟩
    · cases h2
  · rintro ⟨h1, ⟨k, hk, h2, h3, rfl⟩, rfl⟩
    refine ⟨_, ⟨h1, ⟨k, hk, ?_⟩, rfl⟩, rfl⟩
    rw [if_pos]
    simp only [Bool.and_eq_true, List.contains_iff_mem, decide_eq_true_eq]
    exact ⟨h2, h3⟩

/-! ## Key pairs in slots -/

/-- what is known about a handle, of the two -/
def pick (h : Nat) (k0 k1 : KeyState) : KeyState := if h = base then k0 else k1

/-- export of a private key from a slot -/
theorem export_slot {s : State} {k0 k1 : KeyState} (hm : Match s k0 k1) {h : Nat} (hr : isSlotHandle h = true) (n : Nat) :
    exportRaw h n s = match pick h k0 k1 with
      | .holds dk => if n < dkLen then (.err .bufferTooSmall, s) else (.ok dk, s)
      | _ => (.err .crypto, s) := by
  rw [exportRaw, if_pos hr, slotAt_eq hm]
  have key : ∀ k : KeyState, Sized k → (match (if k = .absent then none else some (memory k) : Option Slot) with
      | none => ((.err .crypto, s) : Res Bytes × State)
      | some x => if x.len = 0 then (.err .crypto, s)
        else if n < x.len then (.err .bufferTooSmall, s)
        else if x.material.length < x.len then (.ub .oob, s)
        else (.ok (x.material.take x.len), s)) = match k with
      | .holds dk => if n < dkLen then (.err .bufferTooSmall, s) else (.ok dk, s)
      | _ => (.err .crypto, s) := by
    intro k hz
    cases k with
    | absent => rfl
    | empty => rfl
    | holds dk =>
      have hz : dk.length = 1632 := hz
      have hm' : memory (.holds dk) = ⟨true, .makeKeyPair, dk ++ zeros (2560 - 1632), dkLen⟩ := rfl
      rw [if_neg (fun h => by cases h), hm']
      dsimp only
      rw [if_neg (show ¬ dkLen = 0 by decide)]
      split
      · rfl
      · have hl : ¬ (dk ++ zeros (2560 - 1632)).length < dkLen := by rw [List.length_append, hz, dkLen]; omega
        rw [if_neg hl, show dkLen = dk.length from hz.symm, List.take_left]
  rcases reserved_iff.1 hr with rfl | rfl
  · rw [if_pos rfl, pick, if_pos rfl]; exact key k0 hm.2.1
  · rw [if_neg (show ¬ base + 1 = base by omega), if_pos rfl, pick, if_neg (show ¬ base + 1 = base by omega)]; exact key k1 hm.2.2

/-- Decapsulation with a key pair in a slot. -/
theorem decaps_slot {s : State} {k0 k1 : KeyState} (hm : Match s k0 k1) {h : Nat} (hr : isSlotHandle h = true) (ct : Bytes) (n : Nat) :
    call A B (.decapsulate h ct n) s =
      if ct.length ≠ ctLen then (.err .invalidArgument, s)
      else if n < ssLen then (.err .bufferTooSmall, s)
      else match pick h k0 k1 with
        | .holds dk => if s.psa.fault s.psa.clock then (.err .crypto, s.tick) else (.ok (.bytes (B.kemDecaps dk ct)), s.tick)
        | _ => (.err .crypto, s) := by
  by_cases c0 : ct.length = ctLen
  · rw [if_neg (not_not_intro c0)]
    have r0 : M.require (ct.length == ctLen) .invalidArgument s = (.ok (), s) := require_true (by rw [beq_iff_eq]; exact c0)
    by_cases c1 : n < ssLen
    · rw [if_pos c1]
      exact call_err ((bind_run r0).trans (bind_err (require_false (by simp; omega))))
    · rw [if_neg c1]
      have r1 := require_true (b := decide (ssLen ≤ n)) (e := .bufferTooSmall) (s := s) (by simp; omega)
      have r3 := guard_true (b := decide (ssLen ≤ n)) (u := .oob) (s := s) (by simp; omega)
      have hx := export_slot hm hr dkLen
      have hz : Sized (pick h k0 k1) := by
        rw [pick]; split
        · exact hm.2.1
        · exact hm.2.2
      generalize pick h k0 k1 = k at hx hz
      cases k with
      | absent => exact call_err ((bind_run r0).trans ((bind_run r1).trans (bind_err hx)))
      | empty => exact call_err ((bind_run r0).trans ((bind_run r1).trans (bind_err hx)))
      | holds dk =>
        simp only [Nat.lt_irrefl, if_false] at hx
        have r2 : M.require (dk.length == dkLen) .crypto s = (.ok (), s) := require_true (by rw [beq_iff_eq]; exact hz)
        dsimp only
        split
        · rename_i c
          exact call_err ((bind_run r0).trans ((bind_run r1).trans ((bind_run hx).trans ((bind_run r2).trans ((bind_run r3).trans
            (oqs_fault c))))))
        · rename_i c
          exact call_run ((bind_run r0).trans ((bind_run r1).trans ((bind_run hx).trans ((bind_run r2).trans ((bind_run r3).trans
            (oqs_run (Bool.eq_false_iff.2 c) rfl))))))
  · rw [if_pos c0]
    exact call_err (bind_err (require_false (by simp; exact c0)))

/-- A private key stays with its handle. -/
theorem note_keeps {s : State} {k0 k1 : KeyState} (hm : Match s k0 k1) {h : Nat} {dk : Bytes} (hr : isSlotHandle h = true)
    (hk : pick h k0 k1 = .holds dk) {c : Call} (h1 : c ≠ .destroyKey h) (h2 : ∀ n m, c ≠ .makeKeyPair h n m) :
    note h (pick h k0 k1) (c, (call A B c s).1) = .holds dk := by
  cases c with
  | importKey t raw =>
    cases t with
    | makeKeyPair =>
      rcases alloc_eq (A := A) (B := B) hm raw with ⟨e0, e, -⟩ | ⟨-, e0, e, -⟩ | ⟨-, -, e⟩
      · rw [e]
        simp only [note]
        rw [if_neg]
        · exact hk
        · rintro rfl
          rw [pick, if_pos rfl, e0] at hk
          cases hk
      · rw [e]
        simp only [note]
        rw [if_neg]
        · exact hk
        · rintro rfl
          rw [pick, if_neg (show ¬ base + 1 = base by omega), e0] at hk
          cases hk
      · rw [e]; exact hk
    | _ => exact hk
  | destroyKey i =>
    simp only [note]
    rw [if_neg (fun e => h1 (by rw [e]))]
    exact hk
  | makeKeyPair i n m =>
    have hi : i ≠ h := fun e => h2 n m (by rw [e])
    generalize (call A B (.makeKeyPair i n m) s).1 = r
    cases r with
    | ok o =>
      cases o with
      | pair a b => simp only [note]; rw [if_neg hi]; exact hk
      | _ => exact hk
    | _ => exact hk
  | _ => exact hk

/-- A history that keeps a private key. -/
theorem run_keeps (hl : Laws B) {h : Nat} {dk : Bytes} (hr : isSlotHandle h = true) : ∀ (as : List Act) {s : State} {k0 k1 : KeyState},
    Match s k0 k1 → pick h k0 k1 = .holds dk →
    (∀ a ∈ as, a ≠ .call (.destroyKey h) ∧ ∀ n m, a ≠ .call (.makeKeyPair h n m)) →
    ∃ k0 k1, Match (run A B as s).2 k0 k1 ∧ pick h k0 k1 = .holds dk
  | [], _, k0, k1, hm, hk, _ => ⟨k0, k1, hm, hk⟩
  | .call c :: as, s, k0, k1, hm, hk, hs => by
    refine run_keeps hl hr as (call_match hl hm c) ?_ fun a ha => hs a (List.mem_cons_of_mem _ ha)
    have hc := hs _ List.mem_cons_self
    have := note_keeps (A := A) (B := B) hm hr hk (c := c) (fun e => hc.1 (by rw [e])) fun n m e => hc.2 n m (by rw [e])
    rw [pick] at this ⊢
    split
    · rename_i e; rw [if_pos e] at this; rw [← e]; exact this
    · rename_i e
      rw [if_neg e] at this
      rcases reserved_iff.1 hr with e' | e'
      · exact absurd e' e
      · rw [← e']; exact this
  | .other _ :: as, _, _, _, hm, hk, hs =>
    run_keeps hl hr as (show Match _ _ _ from hm) hk fun a ha => hs a (List.mem_cons_of_mem _ ha)

/-! ## No undefined behaviour -/

/-- no undefined behaviour from a state with these slots -/
def NoUb (k0 k1 : KeyState) (m : M α) : Prop := ∀ s, Match s k0 k1 → ∀ u, (m s).1 ≠ .ub u

theorem NoUb.bind {k0 k1 : KeyState} {m : M α} {f : α → M β} (h1 : NoUb k0 k1 m) (hs : Still m) (h2 : ∀ a, NoUb k0 k1 (f a)) :
    NoUb k0 k1 (m >>= f) := by
  intro s hm u
  show (M.bind m f s).1 ≠ _
  have hn := h1 s hm
  have hs := hs s
  rw [M.bind]
  split <;> rename_i e <;> rw [e] at hn hs
  · exact h2 _ _ ⟨hs.trans hm.1, hm.2⟩ u
  · exact fun h => by cases h
  · exact absurd rfl (hn _)

/-- after a check, what follows may rely on it -/
theorem NoUb.check {k0 k1 : KeyState} {b : Bool} {e : Err} {f : Unit → M β} (h : b = true → NoUb k0 k1 (f ())) :
    NoUb k0 k1 (M.require b e >>= f) := by
  intro s hm u
  cases hb : b with
  | true => rw [bind_run (require_true rfl)]; exact h hb s hm u
  | false => rw [bind_err (require_false rfl)]; exact fun h => by cases h

theorem NoUb.pure {k0 k1 : KeyState} (a : α) : NoUb k0 k1 (pure a : M α) := fun _ _ _ h => by cases h

theorem NoUb.guard {k0 k1 : KeyState} {b : Bool} {u : UB} {f : Unit → M β} (hb : b = true) (h : NoUb k0 k1 (f ())) :
    NoUb k0 k1 (M.guardUB b u >>= f) := by
  intro s hm u
  rw [bind_run (guard_true hb)]
  exact h s hm u

theorem NoUb.psa {k0 k1 : KeyState} (f : Store → Option (α × List (Nat × Key))) : NoUb k0 k1 (M.lift (Psa.P.psa f)) := by
  intro s _ u
  show (Psa.P.psa f s.psa).1 ≠ _
  simp only [Psa.P.psa]
  split
  · exact fun h => by cases h
  · split <;> exact fun h => by cases h

theorem NoUb.oqs {k0 k1 : KeyState} (f : Bytes → Option α) : NoUb k0 k1 (M.oqs f) := .psa _

theorem NoUb.exportRaw {k0 k1 : KeyState} (h n : Nat) : NoUb k0 k1 (exportRaw h n) := by
  intro s hm u
  by_cases hr : isSlotHandle h = true
  · rw [export_slot hm hr]
    split
    · split <;> exact fun h => by cases h
    · exact fun h => by cases h
  · rw [Pqc.exportRaw, if_neg hr]
    exact NoUb.psa _ s hm u

/-- No call has undefined behaviour. -/
theorem call_noUb (hl : Laws B) {k0 k1 : KeyState} (c : Call) : NoUb k0 k1 (call A B c) := by
  cases c with
  | importKey t raw =>
    intro s hm u
    by_cases ht : t = .makeKeyPair
    · subst ht
      rcases alloc_eq (A := A) (B := B) hm raw with ⟨-, e, -⟩ | ⟨-, -, e, -⟩ | ⟨-, -, e⟩ <;> rw [e] <;> exact fun h => by cases h
    · have hi : keyImport A t raw = M.lift (Psa.importKey A (attrOf t raw.length) raw) := by
        cases t <;> first | rfl | exact absurd rfl ht
      simp only [call, hi]
      exact NoUb.bind (.psa _) (.lift _) (fun _ => .pure _) s hm u
  | destroyKey h =>
    intro s hm u
    simp only [call, keyDestroy]
    by_cases hr : isSlotHandle h = true
    · simp only [if_pos hr]
      have : ∃ s', slotFree h s = (.ok (), s') := by rw [slotFree]; split <;> exact ⟨_, rfl⟩
      obtain ⟨s', e⟩ := this
      rw [bind_run e]
      exact fun h => by cases h
    · simp only [if_neg hr]
      exact NoUb.bind (.psa _) (.lift _) (fun _ => .pure _) s hm u
  | makeKeyPair h n m =>
    intro s hm u
    rw [pair_eq hl hm]
    split
    · exact fun h => by cases h
    · split
      · exact fun h => by cases h
      · split
        · exact fun h => by cases h
        · split <;> exact fun h => by cases h
  | encapsulate ek n m =>
    simp only [call, Pqc.encapsulate]
    exact .bind (.check fun _ => .check fun hb => .guard hb (.oqs _)) (by still) fun _ => .pure _
  | decapsulate h ct n =>
    simp only [call, Pqc.decapsulate]
    exact .bind (.check fun _ => .check fun hb => .bind (.exportRaw _ _) (.exportRaw _ _) fun _ => .check fun _ => .guard hb (.oqs _))
      (by still) fun _ => .pure _
  | sign h i n =>
    simp only [call, signInput]
    exact .bind (.check fun hb => .bind (.exportRaw _ _) (.exportRaw _ _) fun _ => .check fun _ => .guard hb (.oqs _))
      (by still) fun _ => .pure _
  | verify h i g =>
    simp only [call, verifyInput]
    exact .bind (.bind (.exportRaw _ _) (.exportRaw _ _) fun _ => .check fun _ => .oqs _) (by still) fun _ => .pure _
  | extract h g n =>
    simp only [call, extractKey, kdfKmac]
    exact .bind (.check fun _ => .check fun hb => .bind (.exportRaw _ _) (.exportRaw _ _) fun _ => .guard hb (.check fun _ => .oqs _))
      (by still) fun _ => .pure _
  | expand h i n =>
    simp only [call, expandKey, kdfKmac]
    exact .bind (.check fun _ => .bind (.exportRaw _ _) (.exportRaw _ _) fun _ => .check fun _ => .oqs _) (by still) fun _ => .pure _
  | encrypt => exact .bind (.psa _) (.lift _) fun _ => .pure _
  | decrypt => exact .bind (.psa _) (.lift _) fun _ => .pure _
  | hash i n =>
    simp only [call, hashInput]
    exact .bind (.check fun hb => .guard hb (.pure _)) (by still) fun _ => .pure _

/-! ## No failure is lost -/

/-- a success means that no call below failed -/
def Sees (m : M α) : Prop := ∀ s a s', m s = (.ok a, s') → s'.psa.fault = s.psa.fault ∧ s.psa.clock ≤ s'.psa.clock ∧
  ∀ i, s.psa.clock ≤ i → i < s'.psa.clock → s.psa.fault i = false

theorem Sees.bind {m : M α} {f : α → M β} (h1 : Sees m) (h2 : ∀ a, Sees (f a)) : Sees (m >>= f) := by
  intro s b s' h
  obtain ⟨a, s1, h3, h4⟩ := mbind_ok.1 h
  obtain ⟨e1, l1, f1⟩ := h1 _ _ _ h3
  obtain ⟨e2, l2, f2⟩ := h2 a _ _ _ h4
  refine ⟨e2.trans e1, Nat.le_trans l1 l2, fun i hi hj => ?_⟩
  by_cases hk : i < s1.psa.clock
  · exact f1 i hi hk
  · rw [← e1]; exact f2 i (Nat.not_lt.1 hk) hj

theorem Sees.same {m : M α} (hm : ∀ s, (m s).2.psa = s.psa) : Sees m := by
  intro s a s' h
  have : s'.psa = s.psa := by have := hm s; rw [h] at this; exact this
  rw [this]
  exact ⟨rfl, Nat.le_refl _, fun i h1 h2 => absurd h1 (Nat.not_le.2 h2)⟩

theorem Sees.psa (f : Store → Option (α × List (Nat × Key))) : Sees (M.lift (Psa.P.psa f)) := by
  intro s a s' h
  obtain ⟨p, h1, rfl⟩ := lift_ok.1 h
  obtain ⟨hf, ks, -, rfl⟩ := Psa.psa_ok.1 h1
  refine ⟨rfl, Nat.le_succ _, fun i hi hj => ?_⟩
  obtain rfl : i = s.psa.clock := Nat.le_antisymm (Nat.lt_succ_iff.1 hj) hi
  exact hf

theorem Sees.pure (a : α) : Sees (pure a : M α) := .same fun _ => rfl
theorem Sees.require (b : Bool) (e : Err) : Sees (M.require b e) := .same fun _ => rfl
theorem Sees.guard (b : Bool) (u : UB) : Sees (M.guardUB b u) := .same fun _ => rfl
theorem Sees.oqs (f : Bytes → Option α) : Sees (M.oqs f) := .psa _

theorem Sees.exportRaw (h n : Nat) : Sees (exportRaw h n) := by
  by_cases hr : isSlotHandle h = true
  · refine .same fun s => ?_
    rw [Pqc.exportRaw, if_pos hr]
    split
    · rfl
    · split
      · rfl
      · split
        · rfl
        · split <;> rfl
  · have : Pqc.exportRaw h n = M.lift (Psa.exportKey h n) := by funext s; rw [Pqc.exportRaw, if_neg hr]
    rw [this]
    exact .psa _

macro "sees" : tactic => `(tactic| repeat first
  | with_reducible exact Sees.pure _ | with_reducible exact Sees.require _ _ | with_reducible exact Sees.guard _ _
  | with_reducible exact Sees.oqs _ | with_reducible exact Sees.exportRaw _ _ | with_reducible refine Sees.bind ?_ fun _ => ?_
  | exact Sees.psa _)

theorem call_sees (c : Call) : Sees (call A B c) := by
  cases c with
  | importKey t raw =>
    cases t <;> simp only [call, keyImport]
    case makeKeyPair =>
      refine Sees.bind (.same fun s => ?_) fun _ => .pure _
      rw [slotAlloc]
      split <;> rfl
    all_goals sees
  | destroyKey i =>
    simp only [call, keyDestroy]
    refine Sees.bind ?_ fun _ => .pure _
    split
    · refine .same fun s => ?_
      rw [slotFree]
      split <;> rfl
    · exact .psa _
  | makeKeyPair i n m =>
    simp only [call, makePair]
    refine Sees.bind (.bind (.require _ _) fun _ => .bind (.same fun s => ?_) fun _ => .bind (.require _ _) fun _ =>
      .bind (.guard _ _) fun _ => .bind (.oqs _) fun _ => .same fun _ => rfl) fun _ => .pure _
    split
    · split
      · split <;> rfl
      · rfl
    · rfl
  | encapsulate => simp only [call, Pqc.encapsulate]; sees
  | decapsulate => simp only [call, Pqc.decapsulate]; sees
  | sign => simp only [call, signInput]; sees
  | verify => simp only [call, verifyInput]; sees
  | extract => simp only [call, extractKey, kdfKmac]; sees
  | expand => simp only [call, expandKey, kdfKmac]; sees
  | encrypt => simp only [call, encryptText, Psa.aeadEncrypt, Psa.P.query]; sees
  | decrypt => simp only [call, decryptText, Psa.aeadDecrypt, Psa.P.query]; sees
  | hash => simp only [call, hashInput]; sees

end Verif.Pqc
