/-
Bounds on nested calls and on the number of allocated buffers, computed from the skeletons.
-/
import Verif.SpecNesting

namespace Verif.Mem

variable {β φ : Type} [DecidableEq β]

/-- the larger depth and the larger number -/
def join (a b : Nat × Nat) : Nat × Nat := (max a.1 b.1, max a.2 b.2)

/-- Depth and number of buffers that `Sees` cannot exceed, if `tbl` says so for the functions that are called. -/
def peak (tbl : φ → Nat × Nat) : Stm β φ → List β → Nat × Nat
  | .alloc _, L => (0, L.length + 1)
  | .ifNull b s, L => if b ∈ L then (0, L.length) else peak tbl s L
  | .seq s t, L =>
    match check s L with
    | some (S, _) => S.eraseDups.foldr (fun M acc => join (peak tbl t M) acc) (peak tbl s L)
    | none => (0, L.length)
  | .alt s t, L => join (peak tbl s L) (peak tbl t L)
  | .loop s, L =>
    match check s L with
    | some (_, B) => B.foldr (fun M acc => join (0, M.length) acc) (peak tbl s L)
    | none => (0, L.length)
  | .scope s, L =>
    match check s L with
    | some (_, B) => B.foldr (fun M acc => join (0, M.length) acc) (peak tbl s L)
    | none => (0, L.length)
  | .call f, L => ((tbl f).1 + 1, L.length + (tbl f).2)
  | _, L => (0, L.length)

/-- both are at most -/
def Below (d n : Nat) (p : Nat × Nat) : Prop := d ≤ p.1 ∧ n ≤ p.2

theorem Below.left {d n : Nat} {a b : Nat × Nat} (h : Below d n a) : Below d n (join a b) :=
  ⟨Nat.le_trans h.1 (Nat.le_max_left ..), Nat.le_trans h.2 (Nat.le_max_left ..)⟩

theorem Below.right {d n : Nat} {a b : Nat × Nat} (h : Below d n b) : Below d n (join a b) :=
  ⟨Nat.le_trans h.1 (Nat.le_max_right ..), Nat.le_trans h.2 (Nat.le_max_right ..)⟩

theorem below_init {α : Type} {d n : Nat} {g : α → Nat × Nat} {x : Nat × Nat} (h : Below d n x) :
    ∀ l : List α, Below d n (l.foldr (fun M acc => join (g M) acc) x)
  | [] => h
  | _ :: l => (below_init h l).right

theorem below_mem {α : Type} {d n : Nat} {g : α → Nat × Nat} {x : Nat × Nat} {M : α} :
    ∀ {l : List α}, M ∈ l → Below d n (g M) → Below d n (l.foldr (fun M acc => join (g M) acc) x)
  | a :: l, hm, h => by
    rcases List.mem_cons.1 hm with rfl | hm
    · exact h.left
    · exact (below_mem hm h).right

theorem peak_here (tbl : φ → Nat × Nat) (s : Stm β φ) (L : List β) : Below 0 L.length (peak tbl s L) := by
  induction s generalizing L with
  | skip => exact ⟨Nat.le_refl _, Nat.le_refl _⟩
  | alloc b => exact ⟨Nat.le_refl _, Nat.le_succ _⟩
  | free b => exact ⟨Nat.le_refl _, Nat.le_refl _⟩
  | use b => exact ⟨Nat.le_refl _, Nat.le_refl _⟩
  | ifNull b s ih =>
    unfold peak; split
    · exact ⟨Nat.le_refl _, Nat.le_refl _⟩
    · exact ih L
  | seq s t ih1 ih2 =>
    unfold peak; split
    · exact below_init (ih1 L) _
    · exact ⟨Nat.le_refl _, Nat.le_refl _⟩
  | alt s t ih1 ih2 => unfold peak; exact (ih1 L).left
  | loop s ih =>
    unfold peak; split
    · exact below_init (ih L) _
    · exact ⟨Nat.le_refl _, Nat.le_refl _⟩
  | scope s ih =>
    unfold peak; split
    · exact below_init (ih L) _
    · exact ⟨Nat.le_refl _, Nat.le_refl _⟩
  | brk => exact ⟨Nat.le_refl _, Nat.le_refl _⟩
  | call f => exact ⟨Nat.zero_le _, Nat.le_add_right _ _⟩
  | ret => exact ⟨Nat.le_refl _, Nat.le_refl _⟩

theorem foldr_check_mem {t : Stm β φ} {B : List (List β)} {x : List β} :
    ∀ {l : List (List β)} {S' B' : List (List β)},
      l.foldr (fun M acc =>
        match acc, check t M with
        | some (S', B'), some (S₂, B₂) => some (S₂ ++ S', B₂ ++ B')
        | _, _ => none) (some ([], B)) = some (S', B') →
      x ∈ S' → ∃ M S₂ B₂, M ∈ l ∧ check t M = some (S₂, B₂) ∧ x ∈ S₂ := by
  intro l
  induction l with
  | nil =>
    intro S' B' h m
    simp only [List.foldr_nil, Option.some.injEq, Prod.mk.injEq] at h
    rw [← h.1] at m; cases m
  | cons a l ih =>
    intro S' B' h m
    simp only [List.foldr_cons] at h
    split at h
    case h_1 Sa Ba S₂ B₂ hl ha =>
      injection h with h; injection h with h1 h2; subst h1; subst h2
      rcases List.mem_append.1 m with m | m
      · exact ⟨a, S₂, B₂, List.mem_cons_self, ha, m⟩
      · obtain ⟨M, S3, B3, h1, h2, h3⟩ := ih hl m
        exact ⟨M, S3, B3, List.mem_cons_of_mem _ h1, h2, h3⟩
    case h_2 => cases h

/-- what is allocated after a statement -/
theorem peak_after (tbl : φ → Nat × Nat)
    (s : Stm β φ) : ∀ {L M : List β} {S B : List (List β)}, check s L = some (S, B) → M ∈ S →
      Below 0 M.length (peak tbl s L) := by
  induction s with
  | skip => intro L M S B e m; cases e; simp only [List.mem_singleton] at m; subst m; exact peak_here tbl _ _
  | alloc b =>
    intro L M S B e m
    simp only [check] at e
    split at e
    · cases e
    · cases e
      simp only [List.mem_cons, List.not_mem_nil, or_false] at m
      rcases m with rfl | rfl
      · exact ⟨Nat.le_refl _, Nat.le_refl _⟩
      · exact ⟨Nat.le_refl _, Nat.le_succ _⟩
  | free b =>
    intro L M S B e m
    simp only [check] at e
    split at e
    · cases e
      simp only [List.mem_singleton] at m; subst m
      exact ⟨Nat.le_refl _, List.length_erase_le⟩
    · cases e
  | use b =>
    intro L M S B e m
    simp only [check] at e
    split at e
    · cases e; simp only [List.mem_singleton] at m; subst m; exact peak_here tbl _ _
    · cases e
  | ifNull b s ih =>
    intro L M S B e m
    simp only [check] at e
    unfold peak
    split at e
    · rename_i hb; rw [if_pos hb]
      cases e; simp only [List.mem_singleton] at m; subst m; exact ⟨Nat.le_refl _, Nat.le_refl _⟩
    · rename_i hb; rw [if_neg hb]; exact ih e m
  | seq s t ih1 ih2 =>
    intro L M S B e m
    simp only [check] at e
    split at e
    · cases e
    · rename_i S1 B1 e1
      obtain ⟨K, S2, B2, k, e2, m⟩ := foldr_check_mem e m
      simp only [peak, e1]
      exact below_mem k (ih2 e2 m)
  | alt s t ih1 ih2 =>
    intro L M S B e m
    simp only [check] at e
    split at e
    · rename_i e1 e2; cases e
      unfold peak
      rcases List.mem_append.1 m with m | m
      · exact (ih1 e1 m).left
      · exact (ih2 e2 m).right
    · cases e
  | loop s ih =>
    intro L M S B e m
    simp only [check] at e
    split at e
    · rename_i S1 B1 e1
      split at e
      · cases e
        simp only [peak, e1]
        rcases List.mem_cons.1 m with rfl | m
        · exact below_init (peak_here tbl _ _) _
        · exact below_mem m ⟨Nat.le_refl _, Nat.le_refl _⟩
      · cases e
    · cases e
  | scope s ih =>
    intro L M S B e m
    simp only [check] at e
    split at e
    · rename_i S1 B1 e1
      cases e
      simp only [peak, e1]
      rcases List.mem_append.1 m with m | m
      · exact below_init (ih e1 m) _
      · exact below_mem m ⟨Nat.le_refl _, Nat.le_refl _⟩
    · cases e
  | brk => intro L M S B e m; cases e; cases m
  | call f => intro L M S B e m; cases e; simp only [List.mem_singleton] at m; subst m; exact peak_here tbl _ _
  | ret =>
    intro L M S B e m
    simp only [check] at e
    split at e
    · cases e; cases m
    · cases e

/-- If every function passes the check and keeps to its bounds, no moment exceeds them. -/
theorem peak_sound {code : φ → Stm β φ} (hc : ∀ f, check (code f) [] = some ([], [])) {tbl : φ → Nat × Nat}
    (ht : ∀ f, (peak tbl (code f) []).1 ≤ (tbl f).1 ∧ (peak tbl (code f) []).2 ≤ (tbl f).2) {s : Stm β φ}
    {L : List β} {d n : Nat} (h : Sees code s L d n) :
    ∀ {S B : List (List β)}, check s L = some (S, B) → Below d n (peak tbl s L) := by
  induction h with
  | here => intro S B _; exact peak_here tbl _ _
  | after r =>
    intro S B e
    rcases check_sound hc r e with h | ⟨M, m, h⟩ | ⟨M, m, h⟩
    · cases h
    · cases h; exact peak_after tbl _ e m
    · cases h
  | isNull b _ ih =>
    intro S B e
    simp only [check, if_neg b] at e
    unfold peak; rw [if_neg b]
    exact ih e
  | first _ ih =>
    intro S B e
    simp only [check] at e
    split at e
    · cases e
    · rename_i e1
      simp only [peak, e1]
      exact below_init (ih e1) _
  | second r _ ih =>
    intro S B e
    simp only [check] at e
    split at e
    · cases e
    · rename_i S1 B1 e1
      obtain ⟨_, f⟩ := foldr_check e
      simp only [peak, e1]
      rcases check_sound hc r e1 with h | ⟨M, m, h⟩ | ⟨M, m, h⟩
      · cases h
      · cases h
        obtain ⟨S2, B2, e2, _, _⟩ := f _ (by simpa using m)
        exact below_mem (by simpa using m) (ih e2)
      · cases h
  | left _ ih =>
    intro S B e
    simp only [check] at e
    split at e
    · rename_i e1 e2
      unfold peak; exact (ih e1).left
    · cases e
  | right _ ih =>
    intro S B e
    simp only [check] at e
    split at e
    · rename_i e1 e2
      unfold peak; exact (ih e2).right
    · cases e
  | round _ ih =>
    intro S B e
    simp only [check] at e
    split at e
    · rename_i e1
      simp only [peak, e1]
      exact below_init (ih e1) _
    · cases e
  | nextRound r _ ih =>
    intro S B e
    have e' := e
    simp only [check] at e
    split at e
    · rename_i S1 B1 e1
      split at e
      · rename_i ha
        rcases check_sound hc r e1 with h | ⟨M, m, h⟩ | ⟨M, m, h⟩
        · cases h
        · cases h
          have := List.all_eq_true.1 ha _ m
          simp only [decide_eq_true_eq] at this
          subst this; exact ih e'
        · cases h
      · cases e
    · cases e
  | scope _ ih =>
    intro S B e
    simp only [check] at e
    split at e
    · rename_i e1
      simp only [peak, e1]
      exact below_init (ih e1) _
    · cases e
  | call _ ih =>
    intro S B _
    have h1 := ih (hc _)
    have h2 := ht ‹_›
    unfold peak
    exact ⟨Nat.succ_le_succ (Nat.le_trans h1.1 h2.1), Nat.add_le_add_left (Nat.le_trans h1.2 h2.2) _⟩

end Verif.Mem
