/-
A checker for the language of Wipe.lean, and its soundness.
-/
import Verif.SpecWipe

namespace Verif.Wipe

open Verif.Mem (Buf Fn)

/-- The buffers of both lists. -/
def join (X Y : List Buf) : List Buf := X.filter (· ∉ Y) ++ Y

theorem mem_join {b : Buf} {X Y : List Buf} : b ∈ join X Y ↔ b ∈ X ∨ b ∈ Y := by
  simp only [join, List.mem_append, List.mem_filter, decide_eq_true_eq]
  by_cases h : b ∈ Y <;> simp [h]

/-- Weakest precondition of a statement of function `me`: however it ends, normally with `Qn`, by `break`
with `Qb`, or by `return` having left no more of `K` behind than `lim` allows. -/
def wp (K : List Buf) (lim : Fn → Bool → List Buf) (me : Fn) :
    Stm → (St → Prop) → (St → Prop) → St → Prop
  | .skip, Qn, _, σ => Qn σ
  | .alloc b, Qn, _, σ => Qn (σ.allocated b) ∧ Qn σ
  | .free b, Qn, _, σ => Qn (σ.freed b)
  | .wipe b, Qn, _, σ => Qn (σ.wiped b)
  | .use b, Qn, _, σ => Qn (σ.used b)
  | .ifNull b s, Qn, Qb, σ => (b ∉ σ.live → wp K lim me s Qn Qb σ) ∧ (b ∈ σ.live → Qn σ)
  | .seq s t, Qn, Qb, σ => wp K lim me s (fun τ => wp K lim me t Qn Qb τ) Qb σ
  | .alt s t, Qn, Qb, σ => wp K lim me s Qn Qb σ ∧ wp K lim me t Qn Qb σ
  | .loop s, Qn, _, σ => ∃ I : St → Prop, I σ ∧ ∀ τ, I τ → Qn τ ∧ wp K lim me s I Qn τ
  | .scope s, Qn, _, σ => wp K lim me s Qn Qn σ
  | .brk, _, Qb, σ => Qb σ
  | .set, Qn, _, σ => ∀ r, Qn { σ with ok := r }
  | .call f, Qn, _, σ => ∀ r, Qn { σ with left := join (lim f r) σ.left }
  | .callRet f, Qn, _, σ => ∀ r, Qn { σ with left := join (lim f r) σ.left, ok := r }
  | .onFail s, Qn, Qb, σ => (σ.ok = false → wp K lim me s Qn Qb σ) ∧ (σ.ok = true → Qn σ)
  | .onFailOr s, Qn, Qb, σ => wp K lim me s Qn Qb σ ∧ (σ.ok = true → Qn σ)
  | .ret v, _, _, σ => ∀ r, v.gives σ.ok r → ∀ b, b ∈ K → b ∈ σ.left → b ∈ lim me r

/-- `σ'` is as `σ`, but may have left more of `K` behind. -/
structure Le (K : List Buf) (σ σ' : St) : Prop where
  live : σ.live = σ'.live
  dirty : σ.dirty = σ'.dirty
  ok : σ.ok = σ'.ok
  left : ∀ b, b ∈ K → b ∈ σ.left → b ∈ σ'.left

/-- What holds of an outcome. -/
def Meets (K : List Buf) (lim : Fn → Bool → List Buf) (me : Fn) (Qn Qb : St → Prop) : Out → Prop
  | .next τ => ∃ τ', Le K τ τ' ∧ Qn τ'
  | .brk τ => ∃ τ', Le K τ τ' ∧ Qb τ'
  | .done r X => ∀ b, b ∈ K → b ∈ X → b ∈ lim me r

theorem wp_sound {K : List Buf} {lim : Fn → Bool → List Buf} {code : Fn → Stm}
    (hc : ∀ f, wp K lim f (code f) (fun _ => False) (fun _ => False) .begin)
    {s : Stm} {σ : St} {o : Out} (h : Run code s σ o) :
    ∀ {me Qn Qb σ'}, Le K σ σ' → wp K lim me s Qn Qb σ' → Meets K lim me Qn Qb o := by
  have self : ∀ {f r X}, (∀ {me Qn Qb σ'}, Le K St.begin σ' → wp K lim me (code f) Qn Qb σ' →
      Meets K lim me Qn Qb (.done r X)) → ∀ b, b ∈ K → b ∈ X → b ∈ lim f r := by
    intro f r X ih
    exact ih ⟨rfl, rfl, rfl, fun _ _ h => h⟩ (hc f)
  induction h with
  | skip => intro me Qn Qb σ' l w; exact ⟨_, l, w⟩
  | @allocated b =>
    intro me Qn Qb σ' l w
    exact ⟨σ'.allocated b, ⟨by simp only [St.allocated, l.live], by simp only [St.allocated, l.dirty],
      l.ok, l.left⟩, w.1⟩
  | noMemory => intro me Qn Qb σ' l w; exact ⟨_, l, w.2⟩
  | @free b σ =>
    intro me Qn Qb σ' l w
    refine ⟨σ'.freed b, ⟨by simp only [St.freed, l.live], by simp only [St.freed, l.dirty], l.ok,
      fun c hc h => ?_⟩, w⟩
    simp only [St.freed, l.dirty] at h ⊢
    split at h
    · rename_i d; rw [if_pos d]
      rcases List.mem_cons.1 h with rfl | h
      · exact List.mem_cons_self
      · exact List.mem_cons_of_mem _ (l.left c hc h)
    · rename_i d; rw [if_neg d]; exact l.left c hc h
  | @wipe b =>
    intro me Qn Qb σ' l w
    exact ⟨σ'.wiped b, ⟨l.live, by simp only [St.wiped, l.dirty], l.ok, l.left⟩, w⟩
  | @use b =>
    intro me Qn Qb σ' l w
    exact ⟨σ'.used b, ⟨l.live, by simp only [St.used, l.dirty], l.ok, l.left⟩, w⟩
  | isNull n _ ih => intro me Qn Qb σ' l w; exact ih l (w.1 (l.live ▸ n))
  | notNull n => intro me Qn Qb σ' l w; exact ⟨_, l, w.2 (l.live ▸ n)⟩
  | seq _ _ ih1 ih2 =>
    intro me Qn Qb σ' l w
    obtain ⟨τ', l', w'⟩ := ih1 l w
    exact ih2 l' w'
  | @seqEnd _ _ o _ _ n ih =>
    intro me Qn Qb σ' l w
    have := ih l w
    cases o with
    | next τ => exact absurd rfl (n τ)
    | brk τ => exact this
    | done r X => exact this
  | left _ ih => intro me Qn Qb σ' l w; exact ih l w.1
  | right _ ih => intro me Qn Qb σ' l w; exact ih l w.2
  | stop => intro me Qn Qb σ' l w; obtain ⟨I, i, w⟩ := w; exact ⟨_, l, (w _ i).1⟩
  | round _ _ ih1 ih2 =>
    intro me Qn Qb σ' l w; obtain ⟨I, i, w⟩ := w
    obtain ⟨τ', l', i'⟩ := ih1 l (w _ i).2
    exact ih2 l' ⟨I, i', w⟩
  | loopBreak _ ih => intro me Qn Qb σ' l w; obtain ⟨I, i, w⟩ := w; exact ih l (w _ i).2
  | loopDone _ ih =>
    intro me Qn Qb σ' l w; obtain ⟨I, i, w⟩ := w
    have := ih l (w _ i).2
    exact this
  | @scope _ _ o _ n ih =>
    intro me Qn Qb σ' l w
    have := ih l w
    cases o with
    | next τ => exact this
    | brk τ => exact absurd rfl (n τ)
    | done r X => exact this
  | scopeBreak _ ih => intro me Qn Qb σ' l w; exact ih l w
  | brk => intro me Qn Qb σ' l w; exact ⟨_, l, w⟩
  | set r => intro me Qn Qb σ' l w; exact ⟨{ σ' with ok := r }, ⟨l.live, l.dirty, rfl, l.left⟩, w r⟩
  | @call f r X _ _ ih =>
    intro me Qn Qb σ' l w
    refine ⟨{ σ' with left := join (lim f r) σ'.left },
      ⟨l.live, l.dirty, l.ok, fun b hb h => mem_join.2 ?_⟩, w r⟩
    rcases List.mem_append.1 h with h | h
    · exact .inl (self ih b hb h)
    · exact .inr (l.left b hb h)
  | @callRet f r X _ _ ih =>
    intro me Qn Qb σ' l w
    refine ⟨{ σ' with left := join (lim f r) σ'.left, ok := r },
      ⟨l.live, l.dirty, rfl, fun b hb h => mem_join.2 ?_⟩, w r⟩
    rcases List.mem_append.1 h with h | h
    · exact .inl (self ih b hb h)
    · exact .inr (l.left b hb h)
  | failed e _ ih => intro me Qn Qb σ' l w; exact ih l (w.1 (l.ok ▸ e))
  | passed e => intro me Qn Qb σ' l w; exact ⟨_, l, w.2 (l.ok ▸ e)⟩
  | failedOr _ ih => intro me Qn Qb σ' l w; exact ih l w.1
  | passedOr e => intro me Qn Qb σ' l w; exact ⟨_, l, w.2 (l.ok ▸ e)⟩
  | ret g =>
    intro me Qn Qb σ' l w b hb h
    exact w _ (l.ok ▸ g) b hb (l.left b hb h)

/-- Weakest preconditions are monotone. -/
theorem wp_mono {K : List Buf} {lim : Fn → Bool → List Buf} {me : Fn} : ∀ (s : Stm)
    {Qn Qb Rn Rb : St → Prop} {σ : St}, (∀ τ, Qn τ → Rn τ) → (∀ τ, Qb τ → Rb τ) →
    wp K lim me s Qn Qb σ → wp K lim me s Rn Rb σ := by
  intro s
  induction s with
  | skip => intro Qn Qb Rn Rb σ h1 h2 w; exact h1 _ w
  | alloc b => intro Qn Qb Rn Rb σ h1 h2 w; exact ⟨h1 _ w.1, h1 _ w.2⟩
  | free b => intro Qn Qb Rn Rb σ h1 h2 w; exact h1 _ w
  | wipe b => intro Qn Qb Rn Rb σ h1 h2 w; exact h1 _ w
  | use b => intro Qn Qb Rn Rb σ h1 h2 w; exact h1 _ w
  | ifNull b s ih => intro Qn Qb Rn Rb σ h1 h2 w; exact ⟨fun n => ih h1 h2 (w.1 n), fun n => h1 _ (w.2 n)⟩
  | seq s t ih1 ih2 => intro Qn Qb Rn Rb σ h1 h2 w; exact ih1 (fun τ => ih2 h1 h2) h2 w
  | alt s t ih1 ih2 => intro Qn Qb Rn Rb σ h1 h2 w; exact ⟨ih1 h1 h2 w.1, ih2 h1 h2 w.2⟩
  | loop s ih =>
    intro Qn Qb Rn Rb σ h1 h2 w
    obtain ⟨I, i, w⟩ := w
    exact ⟨I, i, fun τ t => ⟨h1 _ (w τ t).1, ih (fun _ h => h) h1 (w τ t).2⟩⟩
  | scope s ih => intro Qn Qb Rn Rb σ h1 h2 w; exact ih h1 h1 w
  | brk => intro Qn Qb Rn Rb σ h1 h2 w; exact h2 _ w
  | set => intro Qn Qb Rn Rb σ h1 h2 w r; exact h1 _ (w r)
  | call f => intro Qn Qb Rn Rb σ h1 h2 w r; exact h1 _ (w r)
  | callRet f => intro Qn Qb Rn Rb σ h1 h2 w r; exact h1 _ (w r)
  | onFail s ih => intro Qn Qb Rn Rb σ h1 h2 w; exact ⟨fun e => ih h1 h2 (w.1 e), fun e => h1 _ (w.2 e)⟩
  | onFailOr s ih => intro Qn Qb Rn Rb σ h1 h2 w; exact ⟨ih h1 h2 w.1, fun e => h1 _ (w.2 e)⟩
  | ret v => intro Qn Qb Rn Rb σ h1 h2 w; exact w

/-- The ends of a statement begun in one of several states. -/
def each (c : St → Option (List St × List St)) : List St → Option (List St × List St)
  | [] => some ([], [])
  | σ :: l =>
    match c σ, each c l with
    | some (S, B), some (S', B') => some (S ++ S', B ++ B')
    | _, _ => none

theorem each_some {c : St → Option (List St × List St)} : ∀ {l S B}, each c l = some (S, B) →
    ∀ σ, σ ∈ l → ∃ S₁ B₁, c σ = some (S₁, B₁) ∧ (∀ τ, τ ∈ S₁ → τ ∈ S) ∧ ∀ τ, τ ∈ B₁ → τ ∈ B := by
  intro l
  induction l with
  | nil => intro S B _ σ m; cases m
  | cons a l ih =>
    intro S B h σ m
    simp only [each] at h
    split at h
    · rename_i S1 B1 S2 B2 e1 e2
      cases h
      rcases List.mem_cons.1 m with rfl | m
      · exact ⟨S1, B1, e1, fun τ => List.mem_append_left _, fun τ => List.mem_append_left _⟩
      · obtain ⟨S3, B3, e, u, v⟩ := ih e2 σ m
        exact ⟨S3, B3, e, fun τ t => List.mem_append_right _ (u τ t),
          fun τ t => List.mem_append_right _ (v τ t)⟩
    · cases h

/-- The states reached after at most so many rounds. -/
def rounds (c : St → Option (List St × List St)) : Nat → List St → List St
  | 0, S => S
  | n + 1, S =>
    match each c S with
    | some (S', _) => rounds c n (S ++ S').eraseDups
    | none => S

/-- The results a `return` can have, as a list. -/
def Val.results : Val → Bool → List Bool
  | .ok, _ => [true]
  | .err, _ => [false]
  | .var, last => [last]
  | .any, _ => [true, false]

theorem Val.mem_results {v : Val} {last r : Bool} (h : v.gives last r) : r ∈ v.results last := by
  cases v <;> simp_all [Val.gives, Val.results]

/-- The states in which a statement can end normally and by `break`; `none` if a `return` could leave more
of `K` behind than `lim` allows. -/
def check (K : List Buf) (lim : Fn → Bool → List Buf) (me : Fn) :
    Stm → St → Option (List St × List St)
  | .skip, σ => some ([σ], [])
  | .alloc b, σ => some ([σ.allocated b, σ], [])
  | .free b, σ => some ([σ.freed b], [])
  | .wipe b, σ => some ([σ.wiped b], [])
  | .use b, σ => some ([σ.used b], [])
  | .ifNull b s, σ => if b ∈ σ.live then some ([σ], []) else check K lim me s σ
  | .seq s t, σ =>
    match check K lim me s σ with
    | none => none
    | some (S, B) =>
      match each (check K lim me t) S.eraseDups with
      | none => none
      | some (S', B') => some (S', B ++ B')
  | .alt s t, σ =>
    match check K lim me s σ, check K lim me t σ with
    | some (S, B), some (S', B') => some (S ++ S', B ++ B')
    | _, _ => none
  | .loop s, σ =>
    let S := rounds (check K lim me s) 3 [σ]
    match each (check K lim me s) S with
    | some (S', B) => if σ ∈ S ∧ S'.all (· ∈ S) then some (S ++ B, []) else none
    | none => none
  | .scope s, σ =>
    match check K lim me s σ with
    | some (S, B) => some (S ++ B, [])
    | none => none
  | .brk, σ => some ([], [σ])
  | .set, σ => some ([{ σ with ok := true }, { σ with ok := false }], [])
  | .call f, σ => some ([true, false].map fun r => { σ with left := join (lim f r) σ.left }, [])
  | .callRet f, σ =>
    some ([true, false].map fun r => { σ with left := join (lim f r) σ.left, ok := r }, [])
  | .onFail s, σ => if σ.ok then some ([σ], []) else check K lim me s σ
  | .onFailOr s, σ =>
    match check K lim me s σ with
    | some (S, B) => some (if σ.ok then σ :: S else S, B)
    | none => none
  | .ret v, σ =>
    if (v.results σ.ok).all fun r => K.all fun b => b ∉ σ.left ∨ b ∈ lim me r
    then some ([], []) else none

theorem check_wp {K : List Buf} {lim : Fn → Bool → List Buf} {me : Fn} : ∀ (s : Stm) {σ : St}
    {S B : List St}, check K lim me s σ = some (S, B) → wp K lim me s (· ∈ S) (· ∈ B) σ := by
  intro s
  induction s with
  | skip => intro σ S B h; cases h; exact List.mem_cons_self
  | alloc b => intro σ S B h; cases h; exact ⟨List.mem_cons_self, by simp⟩
  | free b => intro σ S B h; cases h; exact List.mem_cons_self
  | wipe b => intro σ S B h; cases h; exact List.mem_cons_self
  | use b => intro σ S B h; cases h; exact List.mem_cons_self
  | ifNull b s ih =>
    intro σ S B h
    simp only [check] at h
    split at h
    · rename_i m; cases h; exact ⟨fun n => absurd m n, fun _ => List.mem_cons_self⟩
    · rename_i m; exact ⟨fun _ => ih h, fun n => absurd n m⟩
  | seq s t ih1 ih2 =>
    intro σ S B h
    simp only [check] at h
    split at h
    · cases h
    · rename_i S1 B1 e1
      split at h
      · cases h
      · rename_i S2 B2 e2
        cases h
        refine wp_mono s (fun τ t' => ?_) (fun τ t' => List.mem_append_left _ t') (ih1 e1)
        obtain ⟨S3, B3, e, u, v⟩ := each_some e2 τ (by simpa using t')
        exact wp_mono t u (fun τ h => List.mem_append_right _ (v τ h)) (ih2 e)
  | alt s t ih1 ih2 =>
    intro σ S B h
    simp only [check] at h
    split at h
    · rename_i e1 e2; cases h
      exact ⟨wp_mono s (fun _ => List.mem_append_left _) (fun _ => List.mem_append_left _) (ih1 e1),
        wp_mono t (fun _ => List.mem_append_right _) (fun _ => List.mem_append_right _) (ih2 e2)⟩
    · cases h
  | loop s ih =>
    intro σ S B h
    simp only [check] at h
    split at h
    · rename_i S1 B1 e1
      split at h
      · rename_i g
        cases h
        refine ⟨(· ∈ rounds (check K lim me s) 3 [σ]), g.1, fun τ t => ⟨List.mem_append_left _ t, ?_⟩⟩
        obtain ⟨S3, B3, e, u, v⟩ := each_some e1 τ t
        refine wp_mono s (fun ρ r => ?_) (fun ρ r => List.mem_append_right _ (v ρ r)) (ih e)
        simpa using List.all_eq_true.1 g.2 ρ (u ρ r)
      · cases h
    · cases h
  | scope s ih =>
    intro σ S B h
    simp only [check] at h
    split at h
    · rename_i S1 B1 e1; cases h
      exact wp_mono s (fun _ => List.mem_append_left _) (fun _ => List.mem_append_right _) (ih e1)
    · cases h
  | brk => intro σ S B h; cases h; exact List.mem_cons_self
  | set => intro σ S B h r; cases h; cases r <;> simp
  | call f => intro σ S B h r; cases h; cases r <;> simp
  | callRet f => intro σ S B h r; cases h; cases r <;> simp
  | onFail s ih =>
    intro σ S B h
    simp only [check] at h
    split at h
    · rename_i e; cases h; exact ⟨fun n => absurd e (by simp [n]), fun _ => List.mem_cons_self⟩
    · rename_i e; exact ⟨fun _ => ih h, fun n => absurd n e⟩
  | onFailOr s ih =>
    intro σ S B h
    simp only [check] at h
    split at h
    · rename_i S1 B1 e1; cases h
      refine ⟨wp_mono s (fun τ t => ?_) (fun _ h => h) (ih e1), fun e => by rw [if_pos e]; exact List.mem_cons_self⟩
      split
      · exact List.mem_cons_of_mem _ t
      · exact t
    · cases h
  | ret v =>
    intro σ S B h
    simp only [check] at h
    split at h
    · rename_i g
      intro r hr b hb hl
      have := List.all_eq_true.1 (List.all_eq_true.1 g r (Val.mem_results hr)) b hb
      simp only [decide_eq_true_eq] at this
      exact this.resolve_left (fun n => n hl)
    · cases h

/-- If every function passes the check, `lim` bounds what each leaves behind. -/
theorem check_sound {K : List Buf} {lim : Fn → Bool → List Buf} {code : Fn → Stm}
    (hc : ∀ f, check K lim f (code f) .begin = some ([], [])) {f : Fn} {r : Bool} {X : List Buf}
    (h : Run code (code f) .begin (.done r X)) : ∀ b, b ∈ K → b ∈ X → b ∈ lim f r := by
  have hw : ∀ f, wp K lim f (code f) (fun _ => False) (fun _ => False) .begin := fun f =>
    wp_mono _ (fun _ m => by cases m) (fun _ m => by cases m) (check_wp _ (hc f))
  exact wp_sound hw h ⟨rfl, rfl, rfl, fun _ _ h => h⟩ (hw f)

end Verif.Wipe
