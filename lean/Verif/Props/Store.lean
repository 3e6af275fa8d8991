import Verif.SpecStore
import Verif.Props.SuiteAnswers
import Verif.Props.SuiteNetwork
import Verif.Props.Shared

/-!
# C91: no call leaves a key in the key store
-/

namespace Verif

open Spec Psa

variable {τ : Type} {A : Algs} {q : Params} {X : Psa.App τ}

theorem Spec.SameStore.refl (s : Store) : SameStore s s := ⟨fun _ _ => rfl, rfl, rfl, rfl, Nat.le_refl _⟩

theorem Spec.SameStore.trans {a b c : Store} (h : SameStore a b) (h' : SameStore b c) : SameStore a c :=
  ⟨fun i hi => (h'.keys i hi).trans (h.keys i hi), h'.slots.trans h.slots, h'.fault.trans h.fault, h'.rand.trans h.rand,
    Nat.le_trans h.clock h'.clock⟩

theorem Spec.SameStore.reliable {a b : Store} (h : SameStore a b) (hr : Reliable a) : Reliable b := by
  intro n hn
  rw [h.fault]
  exact hr n (Nat.le_trans h.clock hn)

/-- everything but the keys stays -/
structure Onward (s s' : Store) : Prop where
  slots : s'.slots = s.slots
  fault : s'.fault = s.fault
  rand : s'.rand = s.rand
  clock : s.clock ≤ s'.clock

theorem Onward.refl (s : Store) : Onward s s := ⟨rfl, rfl, rfl, Nat.le_refl _⟩

theorem Onward.tick (s : Store) : Onward s s.tick := ⟨rfl, rfl, rfl, Nat.le_succ _⟩

theorem Onward.trans {a b c : Store} (h : Onward a b) (h' : Onward b c) : Onward a c :=
  ⟨h'.slots.trans h.slots, h'.fault.trans h.fault, h'.rand.trans h.rand, Nat.le_trans h.clock h'.clock⟩

theorem Onward.reads {α : Type} {m : P α} (hm : Reads m) (s : Store) : Onward s (m s).2 := by
  obtain ⟨n, h, -⟩ := hm s
  rw [h]
  exact ⟨rfl, rfl, rfl, Nat.le_add_right _ _⟩

theorem Onward.destroy (id : Nat) (s : Store) : Onward s (keyDestroy id s).2 := by
  rw [keyDestroy, Psa.destroyKey]
  rcases h : P.psa (fun s => if id = 0 then some ((), s.keys) else
    if (s.find id).isSome then some ((), s.keys.filter fun p => p.1 != id) else none) s with ⟨r, s'⟩
  cases r with
  | ub u => exact absurd h psa_ub
  | err e => rw [psa_err h]; exact .tick _
  | ok a =>
    obtain ⟨-, ks, -, h2⟩ := psa_ok.1 h
    rw [h2]
    exact ⟨rfl, rfl, rfl, Nat.le_succ _⟩

/-- a call that is neither an import nor a destruction -/
theorem ran1_same (hX : Apart X) {v : Ev} {w w' : World τ} (h : Ran1 (suiteEnv A q X) w v w')
    (hi : ∀ t b r, v ≠ .importKey t b r) (hd : ∀ k, v ≠ .destroyKey k) : Onward w.1 w'.1 ∧ ∀ i, w'.1.find i = w.1.find i := by
  have go : ∀ {β : Type} {m : P β} {r : Option β}, Reads m → runP m w = (r, w') →
      Onward w.1 w'.1 ∧ ∀ i, w'.1.find i = w.1.find i := by
    intro β m r hm hr
    rw [(runP_store hr).1]
    exact ⟨.reads hm _, hm.find _⟩
  have eq : w'.1 = w.1 → Onward w.1 w'.1 ∧ ∀ i, w'.1.find i = w.1.find i := by
    intro e; rw [e]; exact ⟨.refl _, fun _ => rfl⟩
  cases v with
  | importKey t b r => exact absurd rfl (hi t b r)
  | destroyKey k => exact absurd rfl (hd k)
  | alloc n r => have := hX.alloc w n; rw [show X.alloc w n = (r, w') from h] at this; exact eq this
  | eadCompose m r => have := hX.eadCompose w m; rw [show X.eadCompose w m = (r, w') from h] at this; exact eq this
  | eadProcess m l r => have := hX.eadProcess w m l; rw [show X.eadProcess w m l = (r, w') from h] at this; exact eq this
  | credFetch r => have := hX.credFetch w; rw [show X.credFetch w = (r, w') from h] at this; exact eq this
  | credVerify c r => have := hX.credVerify w c; rw [show X.credVerify w c = (r, w') from h] at this; exact eq this
  | makeKeyPair k r => exact go (reads_makePair _ _ _) h
  | keyAgreement k p r => exact go (reads_keyAgree _ _ _) h
  | sign k b r => exact go (reads_sign _ _ _) h
  | verify k b c r =>
    simp only [Ran1, suiteEnv, Prod.mk.injEq] at h
    exact go (r := (runP (verifyInput A q (kidNat k) b c) w).1) (reads_verify _ _ _) (Prod.ext rfl h.2)
  | extract k b r => exact go (reads_extract _ _ _) h
  | expand k b n r =>
    obtain ⟨o, h1, -⟩ := h
    exact go (reads_expand _ _ _) h1
  | encrypt k a b c r => exact go (reads_encrypt _ _ _ _ _) h
  | decrypt k a b c r => exact go (reads_decrypt _ _ _ _ _) h
  | hash b r => exact go (reads_hash _ _) h

theorem imports_one (kid : Bytes) (v : Ev) :
    imports kid [v] = 0 ∧ (∀ t b, v ≠ .importKey t b (some kid)) ∨ imports kid [v] = 1 ∧ ∃ t b, v = .importKey t b (some kid) := by
  cases v with
  | importKey t b r =>
    cases r with
    | none => left; exact ⟨by simp [imports], by simp⟩
    | some k =>
      by_cases hk : k = kid
      · subst hk; right; exact ⟨by simp [imports], t, b, rfl⟩
      · left; exact ⟨by simp [imports, hk], by simp [hk]⟩
  | _ => left; exact ⟨by simp [imports], by simp⟩

theorem destroys_one (kid : Bytes) (v : Ev) :
    destroys kid [v] = 0 ∧ v ≠ .destroyKey kid ∨ destroys kid [v] = 1 ∧ v = .destroyKey kid := by
  cases v with
  | destroyKey k =>
    by_cases hk : k = kid
    · subst hk; right; exact ⟨by simp [destroys], rfl⟩
    · left; exact ⟨by simp [destroys, hk], by simp [hk]⟩
  | _ => left; exact ⟨by simp [destroys], by simp⟩

/-- destroying a key that is there -/
theorem destroy_there {id : Nat} {s : Store} (hr : Reliable s) (h0 : id ≠ 0) (h : s.find id ≠ none) :
    (keyDestroy id s).2.find id = none := by
  rw [keyDestroy, Psa.destroyKey]
  have h1 : (s.find id).isSome = true := by
    cases hf : s.find id with
    | none => exact absurd hf h
    | some k => rfl
  have h2 : P.psa (fun s => if id = 0 then some ((), s.keys) else
      if (s.find id).isSome then some ((), s.keys.filter fun p => p.1 != id) else none) s =
        (.ok (), { s.tick with keys := s.keys.filter fun p => p.1 != id }) :=
    psa_ok.2 ⟨hr _ (Nat.le_refl _), _, by rw [if_neg h0, if_pos h1], rfl⟩
  rw [h2]
  show (s.keys.filter fun p => p.1 != id).lookup id = none
  rw [lookup_filter, if_pos rfl]

/-- The calls of an API call up to some point. A key that was imported and not yet destroyed is the only one more. -/
structure Spare (s s' : Store) (l : List Ev) : Prop where
  onward : Onward s s'
  zero : s'.find 0 = s.find 0
  named : ∀ kid, 0 < imports kid l → kidNat kid ≠ 0 → kidNat kid < 2 ^ 32 ∧ kid = kidBytes (kidNat kid)
  keys : ∀ i, i < 2 ^ 32 → i ≠ 0 → imports (kidBytes i) l = destroys (kidBytes i) l ∧ s'.find i = s.find i ∨
    imports (kidBytes i) l = destroys (kidBytes i) l + 1 ∧ s.find i = none ∧ s'.find i ≠ none

/-- nothing happens to the keys -/
theorem Spare.next {s s1 s' : Store} {l : List Ev} {v : Ev} (h : Spare s s1 l) (ho : Onward s1 s')
    (hi : ∀ kid, kidNat kid ≠ 0 → imports kid [v] = 0 ∧ destroys kid [v] = 0) (hf : ∀ i, s'.find i = s1.find i) :
    Spare s s' (l ++ [v]) where
  onward := h.onward.trans ho
  zero := (hf 0).trans h.zero
  named kid hp h0 := by
    rw [imports_append, (hi kid h0).1] at hp
    exact h.named kid hp h0
  keys i hi' h0 := by
    obtain ⟨e1, e2⟩ := hi (kidBytes i) (by rw [kid_round hi']; exact h0)
    rw [imports_append, destroys_append, e1, e2, hf]
    exact h.keys i hi' h0

theorem import_other {kid : Bytes} {t : KeyType} {b : Bytes} {r : Option Bytes} (h : r ≠ some kid) :
    imports kid [Ev.importKey t b r] = 0 := by
  rcases imports_one kid (.importKey t b r) with ⟨e, -⟩ | ⟨-, t', b', e'⟩
  · exact e
  · cases e'; exact absurd rfl h

theorem ran_spare (hX : Apart X) {l : List Ev} {w w' : World τ} (h : Ran (suiteEnv A q X) w l w') (ho : OnlyOwn l)
    (hr : Reliable w.1) : Spare w.1 w'.1 l := by
  induction l using snoc_ind generalizing w' with
  | h0 => cases h; exact ⟨.refl _, rfl, fun kid h => absurd h (Nat.lt_irrefl _), fun i _ _ => Or.inl ⟨rfl, rfl⟩⟩
  | hs l v ih =>
    obtain ⟨w1, h1, h2⟩ := h.split
    have h2 : Ran1 (suiteEnv A q X) w1 v w' := by
      cases h2 with
      | cons a b => cases b; exact a
    have h3 := ih h1 (fun kid P hP => ho kid P (hP.trans (List.prefix_append _ _)))
    have hr1 : Reliable w1.1 := fun n hn => by rw [h3.onward.fault]; exact hr n (Nat.le_trans h3.onward.clock hn)
    by_cases hi : ∃ t b r, v = .importKey t b r
    · obtain ⟨t, b, r, rfl⟩ := hi
      have hdz : ∀ kid, destroys kid [Ev.importKey t b r] = 0 := fun kid => by simp [destroys]
      cases r with
      | none =>
        have h6 := import_store h2
        have h7 : w'.1 = w1.1 ∨ w'.1 = w1.1.tick := by
          rcases import_cases h6.2.2 with ⟨i, k, e, -⟩ | ⟨-, e, -⟩ | ⟨-, h7⟩
          · have := h6.1
            simp [runP, e, Psa.Res.toOption] at this
          · exact Or.inl e
          · exact Or.inr h7
        rcases h7 with h7 | h7
        · exact h3.next (by rw [h7]; exact .refl _) (fun _ _ => ⟨import_other nofun, hdz _⟩) fun _ => by rw [h7]
        · exact h3.next (by rw [h7]; exact .tick _) (fun _ _ => ⟨import_other nofun, hdz _⟩) fun _ => by rw [h7]; rfl
      | some kid =>
        rcases import_some h2 with ⟨j, k, rfl, e, h6, -⟩ | ⟨e, h6, -⟩
        · have hj := freeId_range h6.free
          have hj2 : j < 2 ^ 32 := by simp only [idMin] at hj; omega
          refine ⟨h3.onward.trans ?_, ?_, fun kid hp h0 => ?_, fun i hi h0 => ?_⟩
          · rw [h6.store]; exact ⟨rfl, rfl, rfl, Nat.le_succ _⟩
          · rw [h6.find, if_neg (by simp only [idMin] at hj; omega)]; exact h3.zero
          · rw [imports_append] at hp
            by_cases hk : kidBytes j = kid
            · subst hk; rw [e]; exact ⟨hj2, rfl⟩
            · rw [import_other (by simp [hk])] at hp
              exact h3.named kid hp h0
          · rw [imports_append, destroys_append, hdz, h6.find]
            by_cases hij : i = j
            · subst hij
              right
              have hf := freeId_none h6.free
              rcases h3.keys i hi h0 with ⟨a, c⟩ | ⟨-, -, c⟩
              · refine ⟨?_, ?_, by simp⟩
                · rw [a]; simp [imports]
                · rw [← c]; exact hf
              · exact absurd hf c
            · rw [if_neg hij, import_other (by
                intro h8
                have := congrArg kidNat (Option.some.inj h8)
                rw [kid_round hj2, kid_round hi] at this
                exact hij this.symm)]
              exact h3.keys i hi h0
        · refine h3.next (by rw [h6]; exact .refl _) (fun kid' h0 => ⟨import_other ?_, hdz _⟩) fun _ => by rw [h6]
          rintro h8
          cases h8
          exact h0 e
    · by_cases hd : ∃ kd, v = .destroyKey kd
      · obtain ⟨kd, rfl⟩ := hd
        have hiz : ∀ kid, imports kid [Ev.destroyKey kd] = 0 := fun kid => by simp [imports]
        have h6 := destroy_store h2
        by_cases hk0 : kidNat kd = 0
        · refine h3.next (by rw [h6]; exact .destroy _ _) (fun kid h0 => ⟨hiz _, ?_⟩) fun i => ?_
          · rcases destroys_one kid (.destroyKey kd) with ⟨e, -⟩ | ⟨-, e⟩
            · exact e
            · cases e; exact absurd hk0 h0
          · rw [h6]
            rcases destroy_find (id := kidNat kd) w1.1 i with e | ⟨-, e, -⟩
            · exact e
            · exact absurd hk0 e
        · have h7 := ho kd _ (List.prefix_refl _)
          rw [imports_append, destroys_append, hiz] at h7
          have h8 : destroys kd [Ev.destroyKey kd] = 1 := by simp [destroys]
          rw [h8] at h7
          obtain ⟨hlt, hkd⟩ := h3.named kd (by omega) hk0
          refine ⟨h3.onward.trans (by rw [h6]; exact .destroy _ _), ?_, fun kid hp h0 => ?_, fun i hi h0 => ?_⟩
          · rw [h6]
            rcases destroy_find (id := kidNat kd) w1.1 0 with e | ⟨e, -⟩
            · exact e.trans h3.zero
            · exact absurd e.symm hk0
          · rw [imports_append, hiz] at hp
            exact h3.named kid hp h0
          · rw [imports_append, destroys_append, hiz, h6]
            by_cases hik : i = kidNat kd
            · subst hik
              rw [← hkd, h8]
              have h9 := h3.keys _ hi h0
              rw [← hkd] at h9
              rcases h9 with ⟨a, -⟩ | ⟨a, c, d⟩
              · omega
              · exact Or.inl ⟨by omega, by rw [c]; exact destroy_there hr1 h0 d⟩
            · have e1 : destroys (kidBytes i) [Ev.destroyKey kd] = 0 := by
                rcases destroys_one (kidBytes i) (.destroyKey kd) with ⟨e, -⟩ | ⟨-, e⟩
                · exact e
                · cases e; exact absurd (kid_round (by assumption)).symm hik
              rw [e1]
              rcases destroy_find (id := kidNat kd) w1.1 i with e | ⟨e, -⟩
              · rw [e]; exact h3.keys i hi h0
              · exact absurd e hik
      · have hi' : ∀ t b r, v ≠ .importKey t b r := fun t b r e => hi ⟨t, b, r, e⟩
        have hd' : ∀ k, v ≠ .destroyKey k := fun k e => hd ⟨k, e⟩
        obtain ⟨h5, h6⟩ := ran1_same hX h2 hi' hd'
        refine h3.next h5 (fun kid _ => ⟨?_, ?_⟩) h6
        · rcases imports_one kid v with ⟨e, -⟩ | ⟨-, t, b, e⟩
          · exact e
          · exact absurd e (hi' _ _ _)
        · rcases destroys_one kid v with ⟨e, -⟩ | ⟨-, e⟩
          · exact e
          · exact absurd e (hd' _)

/-! ## The property -/

section
variable {cfg : Config} {s s' : St (World τ)}

/-- **C91**. A key store that works, an application that leaves it alone. No API call, whatever its arguments, whatever the
messages and whether it succeeds or fails, leaves a key in the store or takes one away. (The exception, `C91_violated`:
composing message 1 when an allocation fails.) -/
theorem C91_call_partial (hX : Apart X) {o : Op} {r : Res Out} (h : step (suiteEnv A q X) cfg o s = (r, s')) (hd : ∀ u, r ≠ .ub u)
    (hr : Reliable s.env.1) (ho : (∀ n, o ≠ .compose1 n) ∨ cfg.backend = .stack ∨ ¬ AllocFailed (during s s')) :
    SameStore s.env.1 s'.env.1 := by
  obtain ⟨l, h1, h2⟩ := step_ran h
  have h3 := C18_released_partial h hd ho
  have h4 : during s s' = l := by simp [during, h1]
  rw [h4] at h3
  have h5 := ran_spare hX h2 (KeysReleased.own h3) hr
  refine ⟨fun i hi => ?_, h5.onward.slots, h5.onward.fault, h5.onward.rand, h5.onward.clock⟩
  have h6 := (h3 (kidBytes i)).1
  by_cases h0 : i = 0
  · subst h0; exact h5.zero
  · rcases h5.keys i hi h0 with ⟨-, e⟩ | ⟨e, -⟩
    · exact e
    · omega

/-- no allocation fails in this call -/
theorem neverOut (hm : NeverOut cfg X) {o : Op} {r : Res Out} (h : step (suiteEnv A q X) cfg o s = (r, s')) :
    cfg.backend = .stack ∨ ¬ AllocFailed (during s s') := by
  refine hm.imp id fun hm => ?_
  rintro ⟨n, hn⟩
  obtain ⟨l, h1, h2⟩ := step_ran h
  have h4 : during s s' = l := by simp [during, h1]
  rw [h4] at hn
  clear h1 h4 h
  generalize s.env = e at h2
  generalize s'.env = e' at h2
  induction h2 with
  | nil => cases hn
  | @cons a b c v l h3 h4 ih =>
    rcases List.mem_cons.1 hn with rfl | hn
    · have := hm a n
      rw [show X.alloc a n = (false, b) from h3] at this
      cases this
    · exact ih hn

/-- **C91**, histories. The same for any history of calls, if working memory does not run out. -/
theorem C91_history_partial (hX : Apart X) (hm : NeverOut cfg X) {h : History} (hr : Run (suiteEnv A q X) cfg s h s')
    (hs : Reliable s.env.1) : SameStore s.env.1 s'.env.1 := by
  induction hr with
  | nil s => exact .refl _
  | cons h1 hd _ ih =>
    have h2 := C91_call_partial hX h1 hd hs (Or.inr (neverOut hm h1))
    exact h2.trans (ih (h2.reliable hs))

theorem Spec.SameStore.freeId {a b : Store} (h : SameStore a b) : b.freeId = a.freeId := by
  unfold Store.freeId
  rw [h.slots, List.find?_map, List.find?_map]
  congr 1
  refine List.find?_congr fun i hi => ?_
  have := List.mem_range.1 hi
  simp only [Function.comp]
  rw [h.keys _ (by simp only [idMin]; omega)]

/-- **C91**. A key store that is in order for a handshake stays so. -/
theorem C91_in_order {id : Nat} {own : Key} (hid : id < 2 ^ 32) {a b : Store} (h : SameStore a b) (ho : InOrder A q id own a) :
    InOrder A q id own b where
  calm := h.reliable ho.calm
  free := by rw [h.freeId]; exact ho.free
  draws n hn := by rw [h.rand]; exact ho.draws n (Nat.le_trans h.clock hn)
  own := by rw [h.keys id hid]; exact ho.own

end

/-- **C91**, several sessions. Any number of contexts, each with its own shipped suite and application, share one key store.
Calls on them in any order, with any arguments and messages, leave the keys in the store as they were. -/
theorem C91_program_partial {ι : Type} [DecidableEq ι] {qs : ι → Params} {Xs : ι → Psa.App τ} {cfg : Config}
    {w w' : Spec.World ι (Psa.World τ)} {h : List (ι × Op × Res Out)} (hX : ∀ i, Apart (Xs i)) (hm : ∀ i, NeverOut cfg (Xs i))
    (hp : Program (fun i => suiteEnv A (qs i) (Xs i)) cfg w h w') (hs : Reliable w.env.1) : SameStore w.env.1 w'.env.1 := by
  induction hp with
  | nil w => exact .refl _
  | cons h1 hd _ ih =>
    have h2 := C91_call_partial (hX _) h1 hd hs (Or.inr (neverOut (hm _) h1))
    exact h2.trans (ih (h2.reliable hs))

/-! ## After any history -/

theorem ran1_retains {J : τ → Prop} (hX : Retains X J) {v : Ev} {w w' : World τ} (h : Ran1 (suiteEnv A q X) w v w')
    (hj : J w.2) : J w'.2 := by
  have go : ∀ {β : Type} {m : P β} {r : Option β}, runP m w = (r, w') → J w'.2 := by
    intro β m r hr
    rw [(runP_store hr).2]; exact hj
  cases v with
  | importKey t b r =>
    have := (import_store h).2.1
    rw [← this]; exact hj
  | destroyKey k =>
    have h : (runP (keyDestroy (kidNat k)) w).2 = w' := h
    rw [← h]; exact hj
  | alloc n r => have := hX.alloc w n hj; rwa [show X.alloc w n = (r, w') from h] at this
  | eadCompose m r => have := hX.eadCompose w m hj; rwa [show X.eadCompose w m = (r, w') from h] at this
  | eadProcess m l r => have := hX.eadProcess w m l hj; rwa [show X.eadProcess w m l = (r, w') from h] at this
  | credFetch r => have := hX.credFetch w hj; rwa [show X.credFetch w = (r, w') from h] at this
  | credVerify c r => have := hX.credVerify w c hj; rwa [show X.credVerify w c = (r, w') from h] at this
  | makeKeyPair k r => exact go h
  | keyAgreement k p r => exact go h
  | sign k b r => exact go h
  | verify k b c r =>
    simp only [Ran1, suiteEnv, Prod.mk.injEq] at h
    exact go (r := (runP (verifyInput A q (kidNat k) b c) w).1) (Prod.ext rfl h.2)
  | extract k b r => exact go h
  | expand k b n r =>
    obtain ⟨o, h1, -⟩ := h
    exact go h1
  | encrypt k a b c r => exact go h
  | decrypt k a b c r => exact go h
  | hash b r => exact go h

theorem ran_retains {J : τ → Prop} (hX : Retains X J) {l : List Ev} {w w' : World τ} (h : Ran (suiteEnv A q X) w l w')
    (hj : J w.2) : J w'.2 := by
  induction h with
  | nil => exact hj
  | cons h3 _ ih => exact ih (ran1_retains hX h3 hj)

theorem run_retains {J : τ → Prop} {cfg : Config} (hX : Retains X J) {s s' : St (World τ)} {h : History}
    (hr : Run (suiteEnv A q X) cfg s h s') (hj : J s.env.2) : J s'.env.2 := by
  induction hr with
  | nil s => exact hj
  | cons h1 _ _ ih =>
    obtain ⟨l, -, h2⟩ := step_ran h1
    exact ih (ran_retains hX h2 hj)

section
variable {k : Bounds} {signs : Nat → Bool} {J : τ → Prop} {cfg : Config} {id : Nat} {own : Key} {p : Identity} {g : Choice}
  {s s1 : St (World τ)} {hist : History} {n : Nat}

/-- a store and an application that are in order at the start are so after any history -/
theorem order_after (hX : Apart X) (hJ : Retains X J) (hm : NeverOut cfg X) (hid : id < 2 ^ 32)
    (hr : Run (suiteEnv A q X) cfg s hist s1) (o : InOrder A q id own s.env.1) (j : J s.env.2) :
    InOrder A q id own s1.env.1 ∧ J s1.env.2 :=
  ⟨C91_in_order hid (C91_history_partial hX hm hr o.calm) o, run_retains hJ hr j⟩

/-- **C91**, answers. As `C65_suites_responder`, but the key store and the application have to be in order only when the
session starts. -/
theorem C91_responder (hl : AlgLaws A q) (h : SuiteSender A q k responderSigns X J cfg id own p g) (hX : Apart X)
    (hJ : Retains X J) (hm : NeverOut cfg X) (hr : Run (suiteEnv A q X) cfg s (done g.calls ++ hist) s1) (hu : Undisturbed hist)
    (ha : ¬ Dead (suiteEnv A q X) cfg s1) (o : InOrder A q id own s.env.1) (j : J s.env.2) (hn : 65000 ≤ n) :
    (messages hist = [.process1] → GoodGx (primsOf A q) hist →
        ∃ m s2, step (suiteEnv A q X) cfg (.compose2 n) s1 = (.ok (.bytes m), s2)) ∧
      (messages hist = [.process1, .compose2, .process3] → NoExporter hist →
        ∃ m s2, step (suiteEnv A q X) cfg (.compose4 n) s1 = (.ok (.bytes m), s2)) := by
  obtain ⟨o, j⟩ := order_after hX hJ hm h.kid.2 hr o j
  exact C65_suites_responder hl h hr hu ha o j hn

/-- **C91**, answers of an Initiator. -/
theorem C91_initiator (hl : AlgLaws A q) (h : SuiteSender A q k initiatorSigns X J cfg id own p g) (hX : Apart X)
    (hJ : Retains X J) (hm : NeverOut cfg X) (hr : Run (suiteEnv A q X) cfg s (done g.calls ++ hist) s1) (hu : Undisturbed hist)
    (ha : ¬ Dead (suiteEnv A q X) cfg s1) (o : InOrder A q id own s.env.1) (j : J s.env.2) (hn : 65000 ≤ n) :
    (messages hist = [] → ∃ m s2, step (suiteEnv A q X) cfg (.compose1 n) s1 = (.ok (.bytes m), s2)) ∧
      (messages hist = [.compose1, .process2] → GoodGy (primsOf A q) q.table hist →
        ∃ m s2, step (suiteEnv A q X) cfg (.compose3 n) s1 = (.ok (.bytes m), s2)) := by
  obtain ⟨o, j⟩ := order_after hX hJ hm h.kid.2 hr o j
  exact C65_suites_initiator hl h hr hu ha o j hn

end

section
variable {k : Bounds} {me : Nat} {τI τR : Type} {XI : Psa.App τI} {XR : Psa.App τR} {JI : τI → Prop} {JR : τR → Prop}
  {cfgI cfgR : Config} {idI idR : Nat} {ownI ownR : Key} {pI pR : Identity} {gI gR : Choice}

/-- **C91**, handshakes. Two applications with a shipped suite, each with a key store that is in order at the start. Each has
then gone through any history: handshakes with anyone, forged and malformed messages, failed calls, exports. After that the
two complete a handshake with each other, as on the first day. -/
theorem C91_handshake (h : SuiteParties A q k me XI XR JI JR cfgI cfgR idI idR ownI ownR pI pR gI gR)
    (aI : Apart XI) (aR : Apart XR) (rI : Retains XI JI) (rR : Retains XR JR) (mI : NeverOut cfgI XI) (mR : NeverOut cfgR XR)
    {s0I sI : St (World τI)} {s0R sR : St (World τR)} {hI hR : History} (bI : Run (suiteEnv A q XI) cfgI s0I hI sI)
    (bR : Run (suiteEnv A q XR) cfgR s0R hR sR)
    (oI : InOrder A q idI ownI s0I.env.1) (jI : JI s0I.env.2) (oR : InOrder A q idR ownR s0R.env.1) (jR : JR s0R.env.2)
    {n a b : Nat} (hn : 65000 ≤ n) (ha : SecretLen q.table a) (hb : SecretLen q.table b) (four : Bool) :
    ∃ m1 m2 m3 m4 secret salt sI' sR',
      Run (suiteEnv A q XI) cfgI sI (done gI.calls ++
        [(.compose1 n, .ok (.bytes m1)), (.process2 m2, .ok .unit), (.compose3 n, .ok (.bytes m3))] ++
        (if four then [(.process4 m4, .ok .unit)] else []) ++
        [(.exportOscore a b n n, .ok (.oscore ⟨secret, salt, oscoreIdOf gR.cid, oscoreIdOf gI.cid⟩))]) sI' ∧
      Run (suiteEnv A q XR) cfgR sR (done gR.calls ++
        [(.process1 m1, .ok .unit), (.compose2 n, .ok (.bytes m2)), (.process3 m3, .ok .unit)] ++
        (if four then [(.compose4 n, .ok (.bytes m4))] else []) ++
        [(.exportOscore a b n n, .ok (.oscore ⟨secret, salt, oscoreIdOf gI.cid, oscoreIdOf gR.cid⟩))]) sR' := by
  obtain ⟨oI, jI⟩ := order_after aI rI mI h.kidI.2 bI oI jI
  obtain ⟨oR, jR⟩ := order_after aR rR mR h.kidR.2 bR oR jR
  exact C51_completes h oI jI oR jR hn ha hb four

end

/-! ## Concrete cases -/

attribute [local irreducible] Psa.Toy.answering Psa.Toy.calling Psa.Toy.stray1 Psa.Toy.stray3

namespace Psa.Toy

theorem apart (cred peer : Cred) (pk : Bytes) : Apart (app cred peer pk) :=
  ⟨fun _ _ => rfl, fun _ _ => rfl, fun _ _ _ => rfl, fun _ => rfl, fun _ _ => rfl⟩

theorem retains (cred peer : Cred) (pk : Bytes) : Retains (app cred peer pk) (fun _ => True) :=
  ⟨fun _ _ _ => trivial, fun _ _ _ => trivial, fun _ _ _ _ => trivial, fun _ _ => trivial, fun _ _ _ => trivial⟩

/-- an Initiator whose allocator has no block for the ephemeral public key -/
def noRoom (q : Params) : App Unit := { app credI credR [1] with alloc := fun w n => (n != q.ecc, w) }

/-- seven times: it sets up a context and asks for message 1 -/
def sevenTimes (q : Params) : List Op := (List.replicate 7 ((choice q 3 (.int 5)).calls ++ [.compose1 300])).flatten

/-- its program -/
def tired (q : Params) : History × St (World Unit) :=
  Verif.Toy.hist (suiteEnv algs q (noRoom q)) Verif.Toy.cfg (sevenTimes q) ⟨Ctx.fresh, (storeOf q 0x21 false, ()), []⟩

end Psa.Toy

/-- **C91 is violated** on the NIST curves: each time the allocation of the buffer for the ephemeral public key fails, message 1
leaves the key it generated in the key store. After seven times the eight slots of this store are full, and message 1 can
never be composed again, although allocations do not fail any more. -/
theorem C91_violated : ∃ q ∈ shipped, Apart (Psa.Toy.noRoom q) ∧ Reliable (Psa.Toy.storeOf q 0x21 false) ∧
    Run (suiteEnv Psa.Toy.algs q (Psa.Toy.noRoom q)) Verif.Toy.cfg ⟨Ctx.fresh, (Psa.Toy.storeOf q 0x21 false, ()), []⟩
      (Psa.Toy.tired q).1 (Psa.Toy.tired q).2 ∧
    (Psa.Toy.storeOf q 0x21 false).freeId = some (idMin + 1) ∧ (Psa.Toy.tired q).2.env.1.freeId = none ∧
    (Psa.Toy.tired q).1.getLast? = some (.compose1 300, .err .notEnoughMemory) ∧
    (Verif.Toy.hist (suiteEnv Psa.Toy.algs q (Psa.Toy.app Psa.Toy.credI Psa.Toy.credR [1])) Verif.Toy.cfg
      ((Psa.Toy.choice q 3 (.int 5)).calls ++ [.compose1 300]) (Psa.Toy.tired q).2).1.getLast?.map Prod.snd =
        some (.err .ephemeralDh) := by
  refine ⟨suite2, by simp [shipped], ⟨fun _ _ => rfl, fun _ _ => rfl, fun _ _ _ => rfl, fun _ => rfl, fun _ _ => rfl⟩,
    fun _ _ => rfl, Verif.Toy.hist_run _ _ (by decide +kernel), by decide +kernel, by decide +kernel, by decide +kernel,
    by decide +kernel⟩

/-- Non-vacuity of `C91_call_partial` and `C91_history_partial`, for each shipped suite: a Responder that accepted a message_1
and a message_3, the latter with a stray byte. -/
example {q : Params} (hq : q ∈ shipped) :
    SameStore (Psa.Toy.storeOf q 0x43 false) (Psa.Toy.answering q (Psa.Toy.until3 q)).2.env.1 := by
  have c := List.all_eq_true.1 Psa.Toy.answers_check q hq
  simp only [Bool.and_eq_true, decide_eq_true_eq] at c
  obtain ⟨⟨⟨⟨⟨⟨⟨⟨-, u3⟩, -⟩, t3⟩, -⟩, -⟩, -⟩, -⟩, -⟩ := c
  exact C91_history_partial (Psa.Toy.apart _ _ _) (Or.inr fun _ _ => rfl) (Psa.Toy.answering_run u3 t3) fun _ _ => rfl

/-- Non-vacuity of `C91_handshake`, for each shipped suite and method: whatever calls were made before. -/
example {q : Params} (hq : q ∈ shipped) {me : Nat} (hm : me < 4) {sI sR : St (Psa.World Unit)} {hI hR : History}
    (bI : Run (suiteEnv Psa.Toy.algs q (Psa.Toy.app Psa.Toy.credI Psa.Toy.credR (Psa.Toy.publicOf q 0x43 (responderSigns me))))
      Verif.Toy.cfg ⟨Ctx.fresh, (Psa.Toy.storeOf q 0x21 (initiatorSigns me), ()), []⟩ hI sI)
    (bR : Run (suiteEnv Psa.Toy.algs q (Psa.Toy.app Psa.Toy.credR Psa.Toy.credI (Psa.Toy.publicOf q 0x21 (initiatorSigns me))))
      Verif.Toy.cfg ⟨Ctx.fresh, (Psa.Toy.storeOf q 0x43 (responderSigns me), ()), []⟩ hR sR) :
    ∃ m1 m2 m3 m4 secret salt sI' sR',
      Run (suiteEnv Psa.Toy.algs q (Psa.Toy.app Psa.Toy.credI Psa.Toy.credR (Psa.Toy.publicOf q 0x43 (responderSigns me))))
        Verif.Toy.cfg sI (done (Psa.Toy.choice q me (.int 5)).calls ++
        [(.compose1 65000, .ok (.bytes m1)), (.process2 m2, .ok .unit), (.compose3 65000, .ok (.bytes m3))] ++
        [(.process4 m4, .ok .unit)] ++
        [(.exportOscore 16 8 65000 65000, .ok (.oscore ⟨secret, salt, oscoreIdOf (.bstr [0x18, 9]), oscoreIdOf (.int 5)⟩))]) sI' ∧
      Run (suiteEnv Psa.Toy.algs q (Psa.Toy.app Psa.Toy.credR Psa.Toy.credI (Psa.Toy.publicOf q 0x21 (initiatorSigns me))))
        Verif.Toy.cfg sR (done (Psa.Toy.choice q me (.bstr [0x18, 9])).calls ++
        [(.process1 m1, .ok .unit), (.compose2 65000, .ok (.bytes m2)), (.process3 m3, .ok .unit)] ++
        [(.compose4 65000, .ok (.bytes m4))] ++
        [(.exportOscore 16 8 65000 65000, .ok (.oscore ⟨secret, salt, oscoreIdOf (.int 5), oscoreIdOf (.bstr [0x18, 9])⟩))]) sR' :=
  C91_handshake (Psa.Toy.suiteParties hq hm) (Psa.Toy.apart _ _ _) (Psa.Toy.apart _ _ _) (Psa.Toy.retains _ _ _)
    (Psa.Toy.retains _ _ _) (Or.inr fun _ _ => rfl) (Or.inr fun _ _ => rfl) bI bR (Psa.Toy.inOrder hq _ _) trivial
    (Psa.Toy.inOrder hq _ _) trivial (Nat.le_refl 65000) (Standard.secretLen hq).1 (Standard.secretLen hq).2 true

/-- Non-vacuity of `C91_program_partial`: two contexts of one device, one with each role, that talk to each other through one
key store. -/
example {q : Params} (ops : List (Bool × Op)) (w : Spec.World Bool (Psa.World Unit)) (hs : Reliable w.env.1)
    (h : ((Verif.Toy.program (fun b => suiteEnv Psa.Toy.algs q (Psa.Toy.appOf q b)) Verif.Toy.cfg ops w).1.all
      fun p => !Verif.Toy.isUb p.2.2) = true) :
    SameStore w.env.1 (Verif.Toy.program (fun b => suiteEnv Psa.Toy.algs q (Psa.Toy.appOf q b)) Verif.Toy.cfg ops w).2.env.1 := by
  refine C91_program_partial (fun b => ?_) (fun b => Or.inr ?_) (Verif.Toy.program_run ops w h) hs
  · cases b <;> exact Psa.Toy.apart _ _ _
  · cases b <;> exact fun _ _ => rfl

/-- such a program: both contexts take their first steps -/
example : ((Verif.Toy.program (fun b => suiteEnv Psa.Toy.algs suite2 (Psa.Toy.appOf suite2 b)) Verif.Toy.cfg
    (((Psa.Toy.opsOf suite2 true).zip (Psa.Toy.opsOf suite2 false)).flatMap fun p => [(true, p.1), (false, p.2)])
    ⟨fun _ => Ctx.fresh, Psa.Toy.worldOf suite2 true, fun _ => []⟩).1.all fun p => !Verif.Toy.isUb p.2.2) = true := by
  decide +kernel

/-- Non-vacuity of `C91_responder`: after that message_3, message 4 is composed. -/
example {q : Params} (hq : q ∈ shipped) :
    ∃ m s2, step (suiteEnv Psa.Toy.algs q (Psa.Toy.app Psa.Toy.credR Psa.Toy.credI (Psa.Toy.publicOf q 0x21 false))) Verif.Toy.cfg
      (.compose4 65000) (Psa.Toy.answering q (Psa.Toy.until3 q)).2 = (.ok (.bytes m), s2) := by
  have c := List.all_eq_true.1 Psa.Toy.answers_check q hq
  simp only [Bool.and_eq_true, decide_eq_true_eq] at c
  obtain ⟨⟨⟨⟨⟨⟨⟨⟨-, u3⟩, -⟩, t3⟩, -⟩, -⟩, d3⟩, -⟩, -⟩ := c
  have H := Psa.Toy.sender hq (by decide : 3 < 4) 0x43 responderSigns (Psa.Toy.publicOf q 0x21 false)
  refine (C91_responder (Psa.Toy.algs_laws hq) H (Psa.Toy.apart _ _ _) (Psa.Toy.retains _ _ _) (Or.inr fun _ _ => rfl)
    (Psa.Toy.answering_run u3 t3) ?_ (not_dead_if rfl d3) (Psa.Toy.inOrder hq 0x43 false) trivial (Nat.le_refl _)).2 rfl ?_
  · intro p hp
    simp only [List.mem_cons, List.not_mem_nil, or_false] at hp
    rcases hp with rfl | rfl | rfl <;> exact ⟨rfl, nofun⟩
  · intro p hp
    simp only [List.mem_cons, List.not_mem_nil, or_false] at hp
    rcases hp with rfl | rfl | rfl <;> rfl

end Verif
