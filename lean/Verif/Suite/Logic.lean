import Verif.Suite.Impl
import Verif.CborLemmas

/-!
# Reasoning about the shipped cipher suites
-/

namespace Verif.Psa

open P

variable {α β : Type} {A : Algs}

/-- the store after a call that does not change the keys -/
def Store.tick (s : Store) : Store := { s with clock := s.clock + 1 }

@[simp] theorem Store.tick_find (s : Store) (i : Nat) : s.tick.find i = s.find i := rfl
@[simp] theorem Store.tick_keys (s : Store) : s.tick.keys = s.keys := rfl
@[simp] theorem Store.tick_fault (s : Store) : s.tick.fault = s.fault := rfl
@[simp] theorem Store.tick_slots (s : Store) : s.tick.slots = s.slots := rfl
@[simp] theorem Store.tick_rand (s : Store) : s.tick.rand = s.rand := rfl
@[simp] theorem Store.tick_clock (s : Store) : s.tick.clock = s.clock + 1 := rfl
@[simp] theorem Store.tick_permitted (s : Store) (i : Nat) (u : Usage) (a : Alg) :
    s.tick.permitted i u a = s.permitted i u a := rfl

theorem bind_def (m : P α) (f : α → P β) (s : Store) : (m >>= f) s = P.bind m f s := rfl

theorem pure_def (a : α) (s : Store) : (pure a : P α) s = (.ok a, s) := rfl

theorem pbind_ok {m : P α} {f : α → P β} {s s' : Store} {b : β} :
    (m >>= f) s = (.ok b, s') ↔ ∃ a s1, m s = (.ok a, s1) ∧ f a s1 = (.ok b, s') := by
  rw [bind_def, P.bind]
  constructor
  · intro h
    split at h
    · exact ⟨_, _, by assumption, h⟩
    · cases h
    · cases h
  · rintro ⟨a, s1, h1, h2⟩
    rw [h1]; exact h2

theorem pbind_run {m : P α} {f : α → P β} {s s1 : Store} {a : α} (h : m s = (.ok a, s1)) : (m >>= f) s = f a s1 := by
  rw [bind_def, P.bind, h]

theorem ppure_ok {a b : α} {s s' : Store} : (pure a : P α) s = (.ok b, s') ↔ a = b ∧ s = s' := by
  rw [pure_def]; simp

theorem prequire_ok {b : Bool} {e : Err} {s s' : Store} {a : Unit} : P.require b e s = (.ok a, s') ↔ b = true ∧ s = s' := by
  cases b <;> simp [P.require]

theorem pguard_ok {b : Bool} {u : UB} {s s' : Store} {a : Unit} : P.guardUB b u s = (.ok a, s') ↔ b = true ∧ s = s' := by
  cases b <;> simp [P.guardUB]

theorem psa_ok {f : Store → Option (α × List (Nat × Key))} {s s' : Store} {a : α} : psa f s = (.ok a, s') ↔
    s.fault s.clock = false ∧ ∃ ks, f s = some (a, ks) ∧ s' = { s.tick with keys := ks } := by
  simp only [psa]
  cases s.fault s.clock
  · simp only [Bool.false_eq_true, if_false, true_and]
    rcases f s with - | ⟨b, ks⟩
    · simp
    · simp only [Prod.mk.injEq, Res.ok.injEq, Option.some.injEq]
      constructor
      · rintro ⟨rfl, h⟩; exact ⟨ks, ⟨rfl, rfl⟩, h.symm⟩
      · rintro ⟨ks', ⟨rfl, rfl⟩, rfl⟩; exact ⟨rfl, rfl⟩
  · simp

theorem query_ok {f : Store → Option α} {s s' : Store} {a : α} : query f s = (.ok a, s') ↔
    s.fault s.clock = false ∧ f s = some a ∧ s' = s.tick := by
  rw [query, psa_ok]
  constructor
  · rintro ⟨h, ks, h1, h2⟩
    cases hf : f s with
    | none => simp [hf] at h1
    | some b =>
      simp only [hf, Option.map_some, Option.some.injEq, Prod.mk.injEq] at h1
      obtain ⟨rfl, rfl⟩ := h1
      exact ⟨h, rfl, h2⟩
  · rintro ⟨h, h1, h2⟩
    exact ⟨h, s.keys, by simp [h1], h2⟩

/-- A program that only reads: the keys stay, time goes on; if it succeeds, no call failed on the way. -/
def Reads (m : P α) : Prop := ∀ s, ∃ n, (m s).2 = { s with clock := s.clock + n } ∧
  ((∃ a, (m s).1 = .ok a) → ∀ i, i < n → s.fault (s.clock + i) = false)

theorem Reads.pure (a : α) : Reads (pure a : P α) := fun s => ⟨0, rfl, fun _ _ h => absurd h (Nat.not_lt_zero _)⟩

theorem Reads.require (b : Bool) (e : Err) : Reads (P.require b e) :=
  fun s => ⟨0, rfl, fun _ _ h => absurd h (Nat.not_lt_zero _)⟩

theorem Reads.guard (b : Bool) (u : UB) : Reads (P.guardUB b u) :=
  fun s => ⟨0, rfl, fun _ _ h => absurd h (Nat.not_lt_zero _)⟩

theorem Reads.query (f : Store → Option α) : Reads (query f) := by
  intro s
  refine ⟨1, ?_, ?_⟩
  · simp only [P.query, psa]
    cases s.fault s.clock
    · cases f s <;> rfl
    · rfl
  · intro h i hi
    obtain rfl : i = 0 := by omega
    simp only [P.query, psa] at h
    cases hf : s.fault s.clock
    · rfl
    · simp [hf] at h

theorem Reads.bind {m : P α} {f : α → P β} (hm : Reads m) (hf : ∀ a, Reads (f a)) : Reads (m >>= f) := by
  intro s
  obtain ⟨n, h1, h2⟩ := hm s
  rw [bind_def, P.bind]
  rcases hs : m s with ⟨r, s1⟩
  rw [hs] at h1 h2
  cases r with
  | err e => exact ⟨n, h1, by simp⟩
  | ub u => exact ⟨n, h1, by simp⟩
  | ok a =>
    simp only at h1
    subst h1
    obtain ⟨k, h3, h4⟩ := hf a { s with clock := s.clock + n }
    refine ⟨n + k, by rw [h3]; simp [Nat.add_assoc], fun ho i hi => ?_⟩
    by_cases hn : i < n
    · exact h2 ⟨a, rfl⟩ i hn
    · have := h4 ho (i - n) (by omega)
      simp only at this
      rwa [show s.clock + n + (i - n) = s.clock + i by omega] at this

/-- the number of key slots that are taken; volatile identifiers are pairwise different -/
def Store.Wf (s : Store) : Prop := (s.keys.map Prod.fst).Nodup

theorem find_cons (s : Store) (i j : Nat) (k : Key) :
    ({ s with keys := (i, k) :: s.keys } : Store).find j = if j = i then some k else s.find j := by
  simp only [Store.find, List.lookup_cons]
  by_cases h : j = i
  · subst h; simp
  · have : (j == i) = false := by simpa using h
    simp [h, this]

theorem lookup_filter (l : List (Nat × Key)) (i j : Nat) :
    (l.filter fun p => p.1 != i).lookup j = if j = i then none else l.lookup j := by
  induction l with
  | nil => simp
  | cons p l ih =>
    obtain ⟨a, b⟩ := p
    simp only [List.filter_cons, List.lookup_cons]
    by_cases hp : a = i
    · subst hp
      by_cases hj : j = a
      · subst hj; simp [ih]
      · have : (j == a) = false := by simpa using hj
        simp [ih, hj, this]
    · rw [if_pos (by simpa using hp), List.lookup_cons, ih]
      by_cases hj : j = i
      · subst hj
        have : (j == a) = false := by simpa using fun h => hp h.symm
        simp [this]
      · simp [hj]

theorem freeId_none {s : Store} {i : Nat} (h : s.freeId = some i) : s.find i = none := by
  have := List.find?_some h
  simpa [Option.isNone_iff_eq_none] using this

theorem freeId_range {s : Store} {i : Nat} (h : s.freeId = some i) : idMin ≤ i ∧ i < idMin + 65536 := by
  have := List.mem_of_find?_eq_some h
  simp only [List.mem_map, List.mem_range] at this
  obtain ⟨a, ha, rfl⟩ := this
  omega

theorem insert_ok {s : Store} {k : Key} {r : Nat × List (Nat × Key)} (h : insert s k = some r) :
    s.freeId = some r.1 ∧ r.2 = (r.1, k) :: s.keys := by
  simp only [insert, Option.map_eq_some_iff] at h
  obtain ⟨i, h1, rfl⟩ := h
  exact ⟨h1, rfl⟩

/-- a new key was put under the identifier `i` -/
structure Added (s s' : Store) (i : Nat) (k : Key) : Prop where
  nofault : s.fault s.clock = false
  free : s.freeId = some i
  store : s' = { s.tick with keys := (i, k) :: s.keys }

theorem Added.find {s s' : Store} {i : Nat} {k : Key} (h : Added s s' i k) (j : Nat) :
    s'.find j = if j = i then some k else s.find j := by
  rw [h.store]; exact find_cons s.tick i j k

theorem importKey_ok {s s' : Store} {a : Attr} {b : Bytes} {i : Nat} (h : importKey A a b s = (.ok i, s')) :
    keyOk A a b = true ∧ Added s s' i ⟨a, b⟩ := by
  obtain ⟨h1, ks, h2, h3⟩ := psa_ok.1 h
  split at h2
  · next hk =>
    obtain ⟨h4, h5⟩ := insert_ok h2
    simp only at h4 h5
    exact ⟨hk, h1, h4, by rw [h3, h5]⟩
  · cases h2

theorem generateKey_ok {s s' : Store} {a : Attr} {i : Nat} (h : generateKey A a s = (.ok i, s')) :
    keyOk A a (s.random (a.bits / 8)) = true ∧ Added s s' i ⟨a, s.random (a.bits / 8)⟩ := by
  obtain ⟨h1, ks, h2, h3⟩ := psa_ok.1 h
  split at h2
  · next hk =>
    obtain ⟨h4, h5⟩ := insert_ok h2
    simp only at h4 h5
    exact ⟨hk, h1, h4, by rw [h3, h5]⟩
  · cases h2

theorem permitted_ok {s : Store} {i : Nat} {u : Usage} {a : Alg} {k : Key} (h : s.permitted i u a = some k) :
    s.find i = some k ∧ u ∈ k.attr.usage ∧ k.attr.alg = a := by
  simp only [Store.permitted, Option.bind_eq_some_iff] at h
  obtain ⟨k', h1, h2⟩ := h
  split at h2
  · next hc =>
    simp only [Option.some.injEq] at h2
    subst h2
    simp only [Bool.and_eq_true, List.contains_iff_mem, beq_iff_eq] at hc
    exact ⟨h1, hc.1, hc.2⟩
  · cases h2

end Verif.Psa
