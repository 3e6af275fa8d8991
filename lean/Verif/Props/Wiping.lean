/-
C83: what the library leaves in working memory it gives back.
-/
import Verif.WipeCheck
import Verif.Props.Memory

namespace Verif.Wipe

open Verif.Mem (Buf Fn)

/-- The skeletons are those of C45 with something added. -/
theorem erase_code (f : Fn) : erase (code f) = Mem.code f := by
  cases f <;> rfl

/-- Every function passes the check. -/
theorem check_code (f : Fn) :
    check Spec.keyMaterial Spec.leftBehind f (code f) .begin = some ([], []) := by
  have : ∀ f, f ∈ Fn.all →
      check Spec.keyMaterial Spec.leftBehind f (code f) .begin = some ([], []) := by decide +kernel
  exact this f f.mem_all

/-! ### Runs by choices -/

/-- Run a statement by the choices of `w`: `true` for a successful allocation, the first alternative, one
more round, a success, a further condition that holds. -/
def exec (code : Fn → Stm) : Nat → Stm → List Bool → St → Option (Out × List Bool)
  | 0, _, _, _ => none
  | _ + 1, .skip, w, σ => some (.next σ, w)
  | _ + 1, .alloc b, w, σ =>
    match w with
    | true :: w => some (.next (σ.allocated b), w)
    | false :: w => some (.next σ, w)
    | [] => none
  | _ + 1, .free b, w, σ => some (.next (σ.freed b), w)
  | _ + 1, .wipe b, w, σ => some (.next (σ.wiped b), w)
  | _ + 1, .use b, w, σ => some (.next (σ.used b), w)
  | n + 1, .ifNull b s, w, σ => if b ∈ σ.live then some (.next σ, w) else exec code n s w σ
  | n + 1, .seq s t, w, σ =>
    match exec code n s w σ with
    | some (.next τ, w) => exec code n t w τ
    | r => r
  | n + 1, .alt s t, w, σ =>
    match w with
    | true :: w => exec code n s w σ
    | false :: w => exec code n t w σ
    | [] => none
  | n + 1, .loop s, w, σ =>
    match w with
    | false :: w => some (.next σ, w)
    | true :: w =>
      match exec code n s w σ with
      | some (.next τ, w) => exec code n (.loop s) w τ
      | some (.brk τ, w) => some (.next τ, w)
      | r => r
    | [] => none
  | n + 1, .scope s, w, σ =>
    match exec code n s w σ with
    | some (.brk τ, w) => some (.next τ, w)
    | r => r
  | _ + 1, .brk, w, σ => some (.brk σ, w)
  | _ + 1, .set, w, σ =>
    match w with
    | r :: w => some (.next { σ with ok := r }, w)
    | [] => none
  | n + 1, .call f, w, σ =>
    match exec code n (code f) w .begin with
    | some (.done _ X, w) => some (.next { σ with left := X ++ σ.left }, w)
    | _ => none
  | n + 1, .callRet f, w, σ =>
    match exec code n (code f) w .begin with
    | some (.done r X, w) => some (.next { σ with left := X ++ σ.left, ok := r }, w)
    | _ => none
  | n + 1, .onFail s, w, σ => if σ.ok then some (.next σ, w) else exec code n s w σ
  | n + 1, .onFailOr s, w, σ =>
    if σ.ok then
      match w with
      | true :: w => exec code n s w σ
      | false :: w => some (.next σ, w)
      | [] => none
    else exec code n s w σ
  | _ + 1, .ret v, w, σ =>
    match v with
    | .ok => some (.done true σ.left, w)
    | .err => some (.done false σ.left, w)
    | .var => some (.done σ.ok σ.left, w)
    | .any => some (.done true σ.left, w)

theorem exec_run {code : Fn → Stm} : ∀ (n : Nat) (s : Stm) (w : List Bool) (σ : St) (o : Out)
    (w' : List Bool), exec code n s w σ = some (o, w') → Run code s σ o := by
  intro n
  induction n with
  | zero => intro s w σ o w' h; cases h
  | succ n ih =>
    intro s w σ o w' h
    cases s with
    | skip => cases h; exact .skip
    | alloc b =>
      simp only [exec] at h
      split at h
      · cases h; exact .allocated
      · cases h; exact .noMemory
      · cases h
    | free b => cases h; exact .free
    | wipe b => cases h; exact .wipe
    | use b => cases h; exact .use
    | ifNull b s =>
      simp only [exec] at h
      split at h
      · cases h; exact .notNull ‹_›
      · exact .isNull ‹_› (ih _ _ _ _ _ h)
    | seq s t =>
      simp only [exec] at h
      split at h
      · rename_i h1; exact .seq (ih _ _ _ _ _ h1) (ih _ _ _ _ _ h)
      · rename_i h1; exact .seqEnd (ih _ _ _ _ _ h) fun τ e => h1 τ w' (by rw [← e]; exact h)
    | alt s t =>
      simp only [exec] at h
      split at h
      · exact .left (ih _ _ _ _ _ h)
      · exact .right (ih _ _ _ _ _ h)
      · cases h
    | loop s =>
      simp only [exec] at h
      split at h
      · cases h; exact .stop
      · split at h
        · rename_i h1; exact .round (ih _ _ _ _ _ h1) (ih _ _ _ _ _ h)
        · rename_i h1; cases h; exact .loopBreak (ih _ _ _ _ _ h1)
        · rename_i h1 h2
          have r := ih _ _ _ _ _ h
          cases o with
          | next τ => exact absurd h (h1 τ w')
          | brk τ => exact absurd h (h2 τ w')
          | done r' X => exact .loopDone r
      · cases h
    | scope s =>
      simp only [exec] at h
      split at h
      · rename_i h1; cases h; exact .scopeBreak (ih _ _ _ _ _ h1)
      · rename_i h1; exact .scope (ih _ _ _ _ _ h) fun τ e => h1 τ w' (by rw [← e]; exact h)
    | brk => cases h; exact .brk
    | set =>
      simp only [exec] at h
      split at h
      · cases h; exact .set _
      · cases h
    | call f =>
      simp only [exec] at h
      split at h
      · rename_i h1; cases h; exact .call (ih _ _ _ _ _ h1)
      · cases h
    | callRet f =>
      simp only [exec] at h
      split at h
      · rename_i h1; cases h; exact .callRet (ih _ _ _ _ _ h1)
      · cases h
    | onFail s =>
      simp only [exec] at h
      split at h
      · cases h; exact .passed ‹_›
      · rename_i e; exact .failed (by simpa using e) (ih _ _ _ _ _ h)
    | onFailOr s =>
      simp only [exec] at h
      split at h
      · split at h
        · exact .failedOr (ih _ _ _ _ _ h)
        · cases h; exact .passedOr ‹_›
        · cases h
      · exact .failedOr (ih _ _ _ _ _ h)
    | ret v =>
      cases v <;> simp only [exec] at h <;> cases h <;> exact .ret (by simp [Val.gives])

/-- The lowest `n` bits of a number, the highest of them first. -/
def bits (n x : Nat) : List Bool := (List.range n).map fun i => x.testBit (n - 1 - i)

/-- Choices that make a function leave a buffer behind, with or without success. -/
def witness : Fn → Bool → Buf → Nat × Nat
  | .edhoc_export_prk_exporter, true, .prk_exporter => (36, 0x19fb9fbfb)
  | .edhoc_export_prk_exporter, false, .prk_exporter => (18, 0x67ef)
  | .edhoc_export_oscore_session, true, .prk_exporter => (84, 0x119fb9fbfb19fb9fbfbdd)
  | .edhoc_export_oscore_session, false, .prk_exporter => (22, 0x467ef)
  | .comp_prk_3e2m, false, .grx => (18, 0x67ef)
  | .edhoc_message_2_compose, true, .keystream => (176, 0x2e71fa47788eaa41dcffb3cc387ee77fd7fef27ecf5a)
  | .edhoc_message_2_compose, false, .grx => (56, 0x2e71fa477867ef)
  | .edhoc_message_2_compose, false, .prk_2e => (39, 0x1738fd23bd)
  | .edhoc_message_2_compose, false, .keystream => (152, 0x2e71fa47788eaa41dcffb3cc387ee77fd7fef3)
  | .edhoc_message_2_process, true, .keystream => (157, 0x7738fd23a7edaf48eaa41dcffb3cc387eeffb3d)
  | .edhoc_message_2_process, false, .grx => (77, 0x7738fd23a7edaf467ef)
  | .edhoc_message_2_process, false, .keystream => (37, 0x7738fd23b)
  | .comp_prk_4e3m, false, .giy => (18, 0x67ef)
  | .edhoc_message_3_compose, true, .key => (156, 0x3bb9fbb91d5483b9ff679870fdceffafef973d3)
  | .edhoc_message_3_compose, false, .giy => (47, 0x1ddcfddc67ef)
  | .edhoc_message_3_compose, false, .key => (14, 0xeef)
  | .edhoc_message_3_process, true, .key => (143, 0x16dcfddee6e91d5483b9ff679870fddff67a)
  | .edhoc_message_3_process, false, .giy => (62, 0xb6e7eef737467ef)
  | .edhoc_message_3_process, false, .key => (14, 0xb6f)
  | .edhoc_message_4_compose, true, .key => (42, 0xe2bf9fbbfb)
  | .edhoc_message_4_compose, false, .key => (20, 0x38aff)
  | .edhoc_message_4_process, true, .key => (41, 0x5bf3f77f36)
  | .edhoc_message_4_process, false, .key => (14, 0xb7f)
  | _, _, _ => (0, 0)

/-- A run of `f` by the choices of `witness` leaves `b` behind. -/
def shown (f : Fn) (ok : Bool) (b : Buf) : Bool :=
  match exec code 200 (code f) (bits (witness f ok b).1 (witness f ok b).2) .begin with
  | some (.done r X, _) => r == ok && X.contains b
  | _ => false

theorem shown_all : Fn.all.all (fun f => [true, false].all fun ok =>
    (Spec.leftBehind f ok).all fun b => shown f ok b) = true := by decide +kernel

theorem leaves_of_shown {f : Fn} {ok : Bool} {b : Buf} (h : shown f ok b = true) :
    ∃ X, Spec.Leaves f ok X ∧ b ∈ X := by
  unfold shown at h
  split at h
  · rename_i r X w e
    simp only [Bool.and_eq_true, beq_iff_eq, List.contains_iff_mem] at h
    obtain ⟨rfl, m⟩ := h
    exact ⟨X, exec_run _ _ _ _ _ _ e, m⟩
  · cases h

/-- **C83 (violated).** The library gives back working memory with key material in it. -/
theorem C83_keys_left : ¬ Spec.WipesKeys := by
  intro h
  obtain ⟨X, l, m⟩ := leaves_of_shown (f := .edhoc_message_3_compose) (ok := true) (b := .key)
    (by decide +kernel)
  exact h _ _ X l .key (by decide) m

/-- **C83, the part that holds.** No function of the library that returns successfully has, itself or in a
function it called, given back memory that still held PRK_2e or a Diffie-Hellman secret of a static key
(G_RX, G_IY): they are set to zero first. What is missing: the same for KEYSTREAM_2, K_3, K_4 and
PRK_exporter, and for functions that fail. -/
theorem C83_success_partial (f : Fn) (X : List Buf) (h : Spec.Leaves f true X) :
    Buf.grx ∉ X ∧ Buf.giy ∉ X ∧ Buf.prk_2e ∉ X := by
  have t := check_sound check_code h
  refine ⟨fun m => ?_, fun m => ?_, fun m => ?_⟩
  · have := t _ (by decide) m; cases f <;> revert this <;> decide
  · have := t _ (by decide) m; cases f <;> revert this <;> decide
  · have := t _ (by decide) m; cases f <;> revert this <;> decide

/-- **C83, exactly.** The table `leftBehind` says for each function of the library which key material it can
leave behind when it succeeds and when it fails: nothing that is not in the table, and everything that
is. -/
theorem C83_exact_partial (f : Fn) (ok : Bool) (b : Buf) (hb : b ∈ Spec.keyMaterial) :
    (∃ X, Spec.Leaves f ok X ∧ b ∈ X) ↔ b ∈ Spec.leftBehind f ok := by
  constructor
  · rintro ⟨X, h, m⟩
    exact check_sound check_code h b hb m
  · intro m
    have s := List.all_eq_true.1 (List.all_eq_true.1 (List.all_eq_true.1 shown_all f f.mem_all) ok
      (by cases ok <;> simp)) b m
    exact leaves_of_shown s

/-! ### The hypotheses are met -/

/-- Composing message_2 can succeed. -/
example : ∃ X, Spec.Leaves .edhoc_message_2_compose true X :=
  let ⟨X, h, _⟩ := leaves_of_shown (f := .edhoc_message_2_compose) (ok := true) (b := .keystream)
    (by decide +kernel)
  ⟨X, h⟩

/-- PRK_3e2m can be computed from G_RX: its salt, which is public, stays in memory, G_RX does not. -/
example : ∃ X, Spec.Leaves .comp_prk_3e2m true X ∧ Buf.salt_3e2m ∈ X ∧ Buf.grx ∉ X := by
  have h : exec code 200 (code .comp_prk_3e2m) (bits 26 0x67eef6) .begin =
      some (.done true [.salt_3e2m, .info], []) := by rfl
  exact ⟨_, exec_run _ _ _ _ _ _ h, by decide, by decide⟩

/-- If it fails early, PRK_2e stays. -/
example : ∃ X, Spec.Leaves .edhoc_message_2_compose false X ∧ Buf.prk_2e ∈ X :=
  leaves_of_shown (by decide +kernel)

end Verif.Wipe
