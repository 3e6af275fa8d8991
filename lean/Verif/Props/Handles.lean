import Verif.Logs
import Verif.SpecHandles
import Verif.ToyRun

/-!
# C18: imported keys are destroyed
-/

namespace Verif

open M Spec

variable {σ α : Type} {E : Env σ} {cfg : Config}

theorem prefix_split {P a b : List α} (h : P <+: a ++ b) : P <+: a ∨ ∃ t, P = a ++ t ∧ t <+: b := by
  induction a generalizing P with
  | nil => exact Or.inr ⟨P, rfl, h⟩
  | cons x a ih =>
    rw [List.cons_append, List.prefix_cons_iff] at h
    rcases h with rfl | ⟨t, rfl, h⟩
    · exact Or.inl (List.nil_prefix)
    · rcases ih h with h1 | ⟨u, rfl, h1⟩
      · exact Or.inl (by simpa using h1)
      · exact Or.inr ⟨u, rfl, h1⟩

theorem imports_append (kid : Bytes) (a b : List Ev) : imports kid (a ++ b) = imports kid a + imports kid b := by
  simp [imports]

theorem destroys_append (kid : Bytes) (a b : List Ev) : destroys kid (a ++ b) = destroys kid a + destroys kid b := by
  simp [destroys]

theorem released_nil : KeysReleased [] := by
  intro kid
  refine ⟨rfl, fun P h => ?_⟩
  rw [List.prefix_nil.1 h]
  exact Nat.le_refl _

theorem released_append {a b : List Ev} (ha : KeysReleased a) (hb : KeysReleased b) : KeysReleased (a ++ b) := by
  intro kid
  refine ⟨by rw [imports_append, destroys_append, (ha kid).1, (hb kid).1], fun P h => ?_⟩
  rcases prefix_split h with h1 | ⟨t, rfl, h1⟩
  · exact (ha kid).2 P h1
  · rw [imports_append, destroys_append, (ha kid).1]
    have := (hb kid).2 t h1
    omega

theorem released_one {v : Ev} (h1 : ∀ t b k, v ≠ .importKey t b (some k)) (h2 : ∀ k, v ≠ .destroyKey k) :
    KeysReleased [v] := by
  have hd : ∀ kid, destroys kid [v] = 0 := by
    intro kid
    simp only [destroys, List.countP_cons, List.countP_nil]
    cases v <;> simp_all
  have hi : ∀ kid, imports kid [v] = 0 := by
    intro kid
    simp only [imports, List.countP_cons, List.countP_nil]
    cases v <;> simp_all
  intro kid
  refine ⟨by rw [hd, hi], fun P h => ?_⟩
  rw [List.prefix_cons_iff] at h
  rcases h with rfl | ⟨t, rfl, h⟩
  · exact Nat.le_refl _
  · rw [List.prefix_nil.1 h, hd]; exact Nat.zero_le _

theorem released_key (t : KeyType) (raw k : Bytes) {es : List Ev} (h : KeysReleased es) :
    KeysReleased (.importKey t raw (some k) :: es ++ [.destroyKey k]) := by
  intro kid
  have e1 : ∀ L, imports kid (.importKey t raw (some k) :: L) = imports kid L + if k == kid then 1 else 0 := by
    intro L; simp [imports, List.countP_cons]
  have e2 : ∀ L, destroys kid (.importKey t raw (some k) :: L) = destroys kid L := by intro L; simp [destroys]
  have e3 : imports kid [.destroyKey k] = 0 := by simp [imports]
  have e4 : destroys kid [.destroyKey k] = if k == kid then 1 else 0 := by simp [destroys, List.countP_cons]
  rw [List.cons_append]
  refine ⟨by rw [e1, e2, imports_append, destroys_append, e3, e4, (h kid).1]; omega, fun P hP => ?_⟩
  rw [List.prefix_cons_iff] at hP
  rcases hP with rfl | ⟨u, rfl, hP⟩
  · exact Nat.le_refl _
  rw [e1, e2]
  rcases prefix_split hP with h1 | ⟨w, rfl, h1⟩
  · have := (h kid).2 u h1
    omega
  · rw [imports_append, destroys_append, (h kid).1]
    rw [List.prefix_cons_iff] at h1
    rcases h1 with rfl | ⟨x, rfl, h1⟩
    · simp [destroys, imports]
    · rw [List.prefix_nil.1 h1, e3, e4]; omega

theorem released_logRel : LogRel KeysReleased where
  nil := released_nil
  app := released_append
  plain v h1 h2 _ := released_one (fun t b k => h1 t b _) h2
  exp kid l c m n out _ := released_one (by simp) (by simp)
  imp0 t raw := released_one (by simp) (by simp)
  key t raw kid es h := released_key t raw kid h

theorem released_or_alloc : LogRel fun L => AllocFailed L ∨ KeysReleased L where
  nil := Or.inr released_nil
  app h1 h2 := by
    rcases h1 with ⟨n, h1⟩ | h1
    · exact Or.inl ⟨n, List.mem_append_left _ h1⟩
    rcases h2 with ⟨n, h2⟩ | h2
    · exact Or.inl ⟨n, List.mem_append_right _ h2⟩
    · exact Or.inr (released_append h1 h2)
  plain v h1 h2 _ := Or.inr (released_one (fun t b k => h1 t b _) h2)
  exp kid l c m n out _ := Or.inr (released_one (by simp) (by simp))
  imp0 t raw := Or.inr (released_one (by simp) (by simp))
  key t raw kid es h := by
    rcases h with ⟨n, h⟩ | h
    · exact Or.inl ⟨n, by simp [h]⟩
    · exact Or.inr (released_key t raw kid h)

/-- **C18**. Every API call destroys every key it imports, once, whether it succeeds or fails, and destroys no other
key. (The exception, `C18_violated`: composing message 1 when an allocation fails. With buffers on the stack no
allocation fails.) -/
theorem C18_released_partial {o : Op} {s s' : St σ} {r : Res Out} (h : step E cfg o s = (r, s')) (hd : r.Defined)
    (ho : (∀ n, o ≠ .compose1 n) ∨ cfg.backend = .stack ∨ ¬ AllocFailed (during s s')) :
    KeysReleased (during s s') := by
  by_cases h1 : ∃ n, o = .compose1 n
  · obtain ⟨n, rfl⟩ := h1
    rcases ho with ho | ho | ho
    · exact absurd rfl (ho n)
    · have h2 := Pres.mapOut (released_logRel.frame (σ := σ)) Out.bytes
        (released_logRel.message1Compose E cfg (by intro h; rw [ho] at h; simp at h) n) s
      have h3 : M.mapOut Out.bytes (message1Compose E cfg n) s = (r, s') := h
      rw [h3] at h2
      exact (onLog_during (h2 hd)).1
    · have h2 := Pres.mapOut (released_or_alloc.frame (σ := σ)) Out.bytes
        (released_or_alloc.message1Compose E cfg (by intro _ kid m; exact Or.inl ⟨m, by simp⟩) n) s
      have h3 : M.mapOut Out.bytes (message1Compose E cfg n) s = (r, s') := h
      rw [h3] at h2
      exact (onLog_during (h2 hd)).1.resolve_left ho
  · have h2 := released_logRel.step_other E cfg (o := o) (fun n hn => h1 ⟨n, hn⟩) s
    rw [h] at h2
    exact (onLog_during (h2 hd)).1

/-- The toy handshake: message 2 is composed with seven keys, all of them destroyed. -/
example : (step (Toy.env Toy.bob) Toy.cfg (.compose2 100)
      (Toy.after Toy.bob (Toy.conf 3 (.bstr [0x18, 9]) ++ [.process1 (Toy.msg 3 1)]))).1 =
      .ok (.bytes (Toy.msg 3 2)) ∧
    ((during (Toy.after Toy.bob (Toy.conf 3 (.bstr [0x18, 9]) ++ [.process1 (Toy.msg 3 1)]))
      (step (Toy.env Toy.bob) Toy.cfg (.compose2 100)
        (Toy.after Toy.bob (Toy.conf 3 (.bstr [0x18, 9]) ++ [.process1 (Toy.msg 3 1)]))).2).countP
          fun | .destroyKey _ => true | _ => false) = 7 := by decide +kernel

/-- an Initiator whose allocator has no block for the ephemeral public key -/
def Toy.noRoom : Toy.Party := { Toy.alice with noMem := fun n => n == Toy.suite.eccKey }

/-- **C18 is violated**: if the allocation of the buffer for the ephemeral public key fails, message 1 returns an error
and the key it imported is never destroyed. -/
theorem C18_violated :
    (step (Toy.env Toy.noRoom) Toy.cfg (.compose1 100) (Toy.after Toy.noRoom (Toy.conf 3 (.int 5)))).1 =
      .err .notEnoughMemory ∧
    ∃ kid, imports kid (step (Toy.env Toy.noRoom) Toy.cfg (.compose1 100)
        (Toy.after Toy.noRoom (Toy.conf 3 (.int 5)))).2.log = 1 ∧
      destroys kid (step (Toy.env Toy.noRoom) Toy.cfg (.compose1 100)
        (Toy.after Toy.noRoom (Toy.conf 3 (.int 5)))).2.log = 0 :=
  ⟨by decide +kernel, [], by decide +kernel, by decide +kernel⟩

end Verif
