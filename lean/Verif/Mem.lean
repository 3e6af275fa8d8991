/-
A small language for the use of working buffers in the C functions, and its semantics.

The macros EDHOC_MEM_ALLOC and EDHOC_MEM_FREE are those of /repo/backends/memory (heap and custom
backend): the first binds a pointer to fresh memory or to NULL, the second releases the memory and sets
the pointer to NULL. The language keeps exactly what matters to them; see `MemSkeleton.lean` for the
functions of the library written in it.
-/

namespace Verif.Mem

/-- Statements over buffers `β` and functions `φ`. -/
inductive Stm (β φ : Type) where
  /-- Nothing. -/
  | skip
  /-- `EDHOC_MEM_ALLOC(t, b, n)`: may fail and leave `b` equal to NULL. -/
  | alloc (b : β)
  /-- `EDHOC_MEM_FREE(b)`. -/
  | free (b : β)
  /-- A statement or condition that reads or writes the memory of `b`, or hands it to a function. -/
  | use (b : β)
  /-- `if (NULL == b) { s }`. -/
  | ifNull (b : β) (s : Stm β φ)
  | seq (s t : Stm β φ)
  /-- Either of the two: a branch on anything else than NULL. -/
  | alt (s t : Stm β φ)
  /-- Any number of rounds. -/
  | loop (s : Stm β φ)
  /-- A `switch`: the target of a `break` inside. -/
  | scope (s : Stm β φ)
  /-- `break`. -/
  | brk
  /-- Call of a function of the library. -/
  | call (f : φ)
  | ret

/-- Statements one after the other. -/
def seq {β φ : Type} : List (Stm β φ) → Stm β φ
  | [] => .skip
  | s :: l => .seq s (seq l)

/-- One of the statements. -/
def alt {β φ : Type} : List (Stm β φ) → Stm β φ
  | [] => .skip
  | [s] => s
  | s :: l => .alt s (alt l)

/-- How a statement ends. The list holds the buffers of the running function that are allocated. -/
inductive Out (β : Type) where
  /-- Normally. -/
  | next (live : List β)
  /-- By `break`. -/
  | brk (live : List β)
  /-- By `return`: these buffers were not released. -/
  | done (live : List β)
  /-- Memory error: access to, or release of, a buffer that is not allocated; a pointer to allocated
  memory overwritten; or a called function that leaks or has a memory error itself. -/
  | fault
  deriving DecidableEq

/-- `Run code s L o`: statement `s`, begun with the buffers `L` allocated, can end as `o`, for some
outcome of the allocations, of the branches and of the number of rounds of the loops. -/
inductive Run {β φ : Type} [DecidableEq β] (code : φ → Stm β φ) : Stm β φ → List β → Out β → Prop
  | skip : Run code .skip L (.next L)
  | allocated : b ∉ L → Run code (.alloc b) L (.next (b :: L))
  | noMemory : b ∉ L → Run code (.alloc b) L (.next L)
  | overwritten : b ∈ L → Run code (.alloc b) L .fault
  | freed : b ∈ L → Run code (.free b) L (.next (L.erase b))
  | freedTwice : b ∉ L → Run code (.free b) L .fault
  | used : b ∈ L → Run code (.use b) L (.next L)
  | usedDead : b ∉ L → Run code (.use b) L .fault
  | isNull : b ∉ L → Run code s L o → Run code (.ifNull b s) L o
  | notNull : b ∈ L → Run code (.ifNull b s) L (.next L)
  | seq : Run code s L (.next M) → Run code t M o → Run code (.seq s t) L o
  | seqEnd : Run code s L o → (∀ M, o ≠ .next M) → Run code (.seq s t) L o
  | left : Run code s L o → Run code (.alt s t) L o
  | right : Run code t L o → Run code (.alt s t) L o
  | stop : Run code (.loop s) L (.next L)
  | round : Run code s L (.next M) → Run code (.loop s) M o → Run code (.loop s) L o
  | loopBreak : Run code s L (.brk M) → Run code (.loop s) L (.next M)
  | loopDone : Run code s L (.done M) → Run code (.loop s) L (.done M)
  | loopFault : Run code s L .fault → Run code (.loop s) L .fault
  | scope : Run code s L o → (∀ M, o ≠ .brk M) → Run code (.scope s) L o
  | scopeBreak : Run code s L (.brk M) → Run code (.scope s) L (.next M)
  | brk : Run code .brk L (.brk L)
  | ret : Run code .ret L (.done L)
  /-- The called function has its own buffers, none of them allocated at first. -/
  | call : Run code (code f) [] (.done []) → Run code (.call f) L (.next L)
  | callBad : Run code (code f) [] o → o ≠ .done [] → Run code (.call f) L .fault

/-- The states in which a statement can end normally and by `break`; `none` if it may end otherwise than
normally, by `break`, or by a return with nothing allocated. -/
def check {β φ : Type} [DecidableEq β] : Stm β φ → List β → Option (List (List β) × List (List β))
  | .skip, L => some ([L], [])
  | .alloc b, L => if b ∈ L then none else some ([b :: L, L], [])
  | .free b, L => if b ∈ L then some ([L.erase b], []) else none
  | .use b, L => if b ∈ L then some ([L], []) else none
  | .ifNull b s, L => if b ∈ L then some ([L], []) else check s L
  | .seq s t, L =>
    match check s L with
    | none => none
    | some (S, B) => S.eraseDups.foldr (fun M acc =>
        match acc, check t M with
        | some (S', B'), some (S₂, B₂) => some (S₂ ++ S', B₂ ++ B')
        | _, _ => none) (some ([], B))
  | .alt s t, L =>
    match check s L, check t L with
    | some (S, B), some (S', B') => some (S ++ S', B ++ B')
    | _, _ => none
  | .loop s, L =>
    match check s L with
    | some (S, B) => if S.all (· = L) then some (L :: B, []) else none
    | none => none
  | .scope s, L =>
    match check s L with
    | some (S, B) => some (S ++ B, [])
    | none => none
  | .brk, L => some ([], [L])
  | .call _, L => some ([L], [])
  | .ret, L => if L = [] then some ([], []) else none

/-- What `check` promises. -/
def Ok {β : Type} (S B : List (List β)) (o : Out β) : Prop :=
  o = .done [] ∨ (∃ M, M ∈ S ∧ o = .next M) ∨ (∃ M, M ∈ B ∧ o = .brk M)

theorem foldr_check {β φ : Type} [DecidableEq β] {t : Stm β φ} {B : List (List β)} :
    ∀ {l : List (List β)} {S' B' : List (List β)},
      l.foldr (fun M acc =>
        match acc, check t M with
        | some (S', B'), some (S₂, B₂) => some (S₂ ++ S', B₂ ++ B')
        | _, _ => none) (some ([], B)) = some (S', B') →
      (∀ M, M ∈ B → M ∈ B') ∧
      ∀ M, M ∈ l → ∃ S₂ B₂, check t M = some (S₂, B₂) ∧ (∀ x, x ∈ S₂ → x ∈ S') ∧ ∀ x, x ∈ B₂ → x ∈ B' := by
  intro l
  induction l with
  | nil => intro S' B' h; simp only [List.foldr_nil, Option.some.injEq, Prod.mk.injEq] at h; simp [← h.2]
  | cons a l ih =>
    intro S' B' h
    simp only [List.foldr_cons] at h
    split at h
    case h_1 Sa Ba S₂ B₂ hl ha =>
      injection h with h; injection h with h1 h2; subst h1; subst h2
      obtain ⟨i1, i2⟩ := ih hl
      refine ⟨fun M hM => List.mem_append_right _ (i1 M hM), fun M hM => ?_⟩
      rcases List.mem_cons.1 hM with rfl | hM
      · exact ⟨S₂, B₂, ha, fun x hx => List.mem_append_left _ hx, fun x hx => List.mem_append_left _ hx⟩
      · obtain ⟨S3, B3, e, u, v⟩ := i2 M hM
        exact ⟨S3, B3, e, fun x hx => List.mem_append_right _ (u x hx),
          fun x hx => List.mem_append_right _ (v x hx)⟩
    case h_2 => cases h

theorem Ok.mono {β : Type} {S B S' B' : List (List β)} {o : Out β} (h : Ok S B o)
    (h1 : ∀ x, x ∈ S → x ∈ S') (h2 : ∀ x, x ∈ B → x ∈ B') : Ok S' B' o := by
  rcases h with h | ⟨M, m, h⟩ | ⟨M, m, h⟩
  · exact .inl h
  · exact .inr (.inl ⟨M, h1 M m, h⟩)
  · exact .inr (.inr ⟨M, h2 M m, h⟩)

/-- If every function passes the check, then `check` covers every run of every statement. -/
theorem check_sound {β φ : Type} [DecidableEq β] {code : φ → Stm β φ}
    (hc : ∀ f, check (code f) [] = some ([], [])) {s : Stm β φ} {L : List β} {o : Out β}
    (h : Run code s L o) : ∀ {S B}, check s L = some (S, B) → Ok S B o := by
  induction h with
  | skip => intro S B e; cases e; exact .inr (.inl ⟨_, by simp, rfl⟩)
  | allocated n => intro S B e; simp only [check, if_neg n] at e; cases e; exact .inr (.inl ⟨_, by simp, rfl⟩)
  | noMemory n => intro S B e; simp only [check, if_neg n] at e; cases e; exact .inr (.inl ⟨_, by simp, rfl⟩)
  | overwritten n => intro S B e; simp only [check, if_pos n] at e; cases e
  | freed n => intro S B e; simp only [check, if_pos n] at e; cases e; exact .inr (.inl ⟨_, by simp, rfl⟩)
  | freedTwice n => intro S B e; simp only [check, if_neg n] at e; cases e
  | used n => intro S B e; simp only [check, if_pos n] at e; cases e; exact .inr (.inl ⟨_, by simp, rfl⟩)
  | usedDead n => intro S B e; simp only [check, if_neg n] at e; cases e
  | isNull n _ ih => intro S B e; simp only [check, if_neg n] at e; exact ih e
  | notNull n => intro S B e; simp only [check, if_pos n] at e; cases e; exact .inr (.inl ⟨_, by simp, rfl⟩)
  | seq _ _ ih1 ih2 =>
    intro S B e; simp only [check] at e
    split at e
    · cases e
    · rename_i S1 B1 e1
      obtain ⟨_, f⟩ := foldr_check e
      rcases ih1 e1 with h | ⟨M, m, h⟩ | ⟨M, m, h⟩
      · cases h
      · cases h
        obtain ⟨S2, B2, e2, u, v⟩ := f _ (by simpa using m)
        exact (ih2 e2).mono u v
      · cases h
  | seqEnd _ n ih =>
    intro S B e; simp only [check] at e
    split at e
    · cases e
    · rename_i S1 B1 e1
      obtain ⟨g, _⟩ := foldr_check e
      rcases ih e1 with h | ⟨M, m, h⟩ | ⟨M, m, h⟩
      · exact .inl h
      · exact absurd h (n M)
      · exact .inr (.inr ⟨M, g M m, h⟩)
  | left _ ih =>
    intro S B e; simp only [check] at e
    split at e
    · rename_i e1 e2; cases e
      exact (ih e1).mono (fun _ => List.mem_append_left _) fun _ => List.mem_append_left _
    · cases e
  | right _ ih =>
    intro S B e; simp only [check] at e
    split at e
    · rename_i e1 e2; cases e
      exact (ih e2).mono (fun _ => List.mem_append_right _) fun _ => List.mem_append_right _
    · cases e
  | stop =>
    intro S B e; simp only [check] at e
    split at e
    · split at e
      · cases e; exact .inr (.inl ⟨_, by simp, rfl⟩)
      · cases e
    · cases e
  | round _ _ ih1 ih2 =>
    intro S B e; have e' := e; simp only [check] at e
    split at e
    · rename_i S1 B1 e1
      split at e
      · rename_i ha
        rcases ih1 e1 with h | ⟨M, m, h⟩ | ⟨M, m, h⟩
        · cases h
        · cases h
          have := List.all_eq_true.1 ha _ m
          simp only [decide_eq_true_eq] at this
          subst this; exact ih2 e'
        · cases h
      · cases e
    · cases e
  | loopBreak _ ih =>
    intro S B e; simp only [check] at e
    split at e
    · rename_i S1 B1 e1
      split at e
      · cases e
        rcases ih e1 with h | ⟨M, m, h⟩ | ⟨M, m, h⟩
        · cases h
        · cases h
        · cases h; exact .inr (.inl ⟨_, by simp [m], rfl⟩)
      · cases e
    · cases e
  | loopDone _ ih =>
    intro S B e; simp only [check] at e
    split at e
    · rename_i S1 B1 e1
      rcases ih e1 with h | ⟨M, m, h⟩ | ⟨M, m, h⟩
      · exact .inl h
      · cases h
      · cases h
    · cases e
  | loopFault _ ih =>
    intro S B e; simp only [check] at e
    split at e
    · rename_i S1 B1 e1
      rcases ih e1 with h | ⟨M, m, h⟩ | ⟨M, m, h⟩ <;> cases h
    · cases e
  | scope _ n ih =>
    intro S B e; simp only [check] at e
    split at e
    · rename_i S1 B1 e1
      cases e
      rcases ih e1 with h | ⟨M, m, h⟩ | ⟨M, m, h⟩
      · exact .inl h
      · exact .inr (.inl ⟨M, by simp [m], h⟩)
      · exact absurd h (n M)
    · cases e
  | scopeBreak _ ih =>
    intro S B e; simp only [check] at e
    split at e
    · rename_i S1 B1 e1
      cases e
      rcases ih e1 with h | ⟨M, m, h⟩ | ⟨M, m, h⟩
      · cases h
      · cases h
      · cases h; exact .inr (.inl ⟨_, by simp [m], rfl⟩)
    · cases e
  | brk => intro S B e; cases e; exact .inr (.inr ⟨_, by simp, rfl⟩)
  | ret =>
    intro S B e; simp only [check] at e
    split at e
    · rename_i h; rw [h]; exact .inl rfl
    · cases e
  | call _ _ => intro S B e; cases e; exact .inr (.inl ⟨_, by simp, rfl⟩)
  | callBad _ n ih =>
    intro S B e
    rcases ih (hc _) with h | ⟨M, m, h⟩ | ⟨M, m, h⟩
    · exact absurd h n
    · cases m
    · cases m

end Verif.Mem
