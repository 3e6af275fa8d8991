import Verif.Gen.Unused
import Verif.Gen.Refine2
import Verif.CborRound

/-!
# What a decoder that accepts has read
-/

namespace Verif.Gen

open Spec

variable {ρ α : Type} {d : DecCfg}

theorem and_inv {f g : Dec ρ} {s s' : State} {r r' : ρ} (h : f.and g s r = (true, s', r')) :
    ∃ s1 r1, f s r = (true, s1, r1) ∧ g s1 r1 = (true, s', r') := by
  unfold Dec.and at h
  split at h
  · rename_i s1 r1 h1
    exact ⟨s1, r1, h1, h⟩
  · cases h

theorem into_inv {f : Dec α} {get : ρ → α} {put : α → ρ → ρ} {s s' : State} {r r' : ρ}
    (h : f.into get put s r = (true, s', r')) : ∃ a, f s (get r) = (true, s', a) ∧ r' = put a r := by
  unfold Dec.into at h
  rcases hf : f s (get r) with ⟨b, t, a⟩
  rw [hf] at h
  simp only [Prod.mk.injEq] at h
  obtain ⟨rfl, rfl, rfl⟩ := h
  exact ⟨a, rfl, rfl⟩

theorem orForce_inv {f : Dec ρ} {s s' : State} {r r' : ρ} (h : f.orForce s r = (true, s', r')) : f s r = (true, s', r') := by
  unfold Dec.orForce at h
  split at h
  · rename_i h1
    rw [h1]; exact h
  · cases h

theorem int32_inv {s s' : State} {x v : Int} (h : int32 d s x = (true, s', v)) :
    s.cur.elems ≠ 0 ∧ ∃ rest, getInt d s.cur.payload = some (v, rest) ∧ s' = s.eat rest := by
  unfold int32 at h
  split at h
  · cases h
  · rename_i he
    split at h
    · rename_i v' rest hg
      simp only [Prod.mk.injEq, true_and] at h
      obtain ⟨rfl, rfl⟩ := h
      exact ⟨he, rest, hg, rfl⟩
    · cases h

theorem str_inv {m : Nat} {s s' : State} {x z : ZStr} (h : str d m s x = (true, s', z)) :
    s.cur.elems ≠ 0 ∧ ∃ rest, getStr d m s.cur.payload = some (z.bytes, rest) ∧ s' = s.eat rest := by
  unfold str at h
  split at h
  · cases h
  · rename_i he
    split at h
    · rename_i b rest hg
      simp only [Prod.mk.injEq, true_and] at h
      obtain ⟨rfl, rfl⟩ := h
      exact ⟨he, rest, by rw [bytes_some]; exact hg, rfl⟩
    · cases h

theorem tstr_inv {v : Bytes} {s s' : State} {x z : ρ} (h : tstrExpect d v s x = (true, s', z)) :
    s.cur.elems ≠ 0 ∧ ∃ rest, getTstr d s.cur.payload = some (v, rest) ∧ s' = s.eat rest ∧ z = x := by
  unfold tstrExpect at h
  split at h
  · cases h
  · rename_i he
    split at h
    · rename_i b rest hg
      split at h
      · rename_i hb
        simp only [Prod.mk.injEq, true_and] at h
        obtain ⟨rfl, rfl⟩ := h
        subst hb
        exact ⟨he, rest, hg, rfl, rfl⟩
      · cases h
    · cases h

theorem uint32_inv {s s' : State} {x v : Nat} (h : uint32 d s x = (true, s', v)) :
    s.cur.elems ≠ 0 ∧ ∃ rest, getHead d.strict 4 s.cur.payload = some (0, v, rest) ∧ s' = s.eat rest := by
  unfold uint32 at h
  split at h
  · cases h
  · rename_i he
    split at h
    · rename_i m a rest hg
      split at h
      · rename_i hm
        simp only [Prod.mk.injEq, true_and] at h
        obtain ⟨rfl, rfl⟩ := h
        subst hm
        exact ⟨he, rest, hg, rfl⟩
      · cases h
    · cases h

theorem start_inv {m : Nat} {s s' : State} {x z : ρ} (h : containerStart d m s x = (true, s', z)) :
    ∃ n r, getContainer d m s.cur.payload = some (n, r) ∧
      s' = ⟨⟨r, n.getD largeElems, n.isNone⟩, (s.eat r).cur :: s.baks, s.room⟩ ∧ z = x := by
  by_cases he : s.cur.elems = 0
  · rw [containerStart_zero he] at h; cases h
  · cases hg : getContainer d m s.cur.payload with
    | none => rw [containerStart_none hg] at h; cases h
    | some y =>
      obtain ⟨n, r⟩ := y
      by_cases hB : s.room ≤ s.baks.length
      · simp [containerStart, lift, he, hg, State.newBackup, State.eat, hB] at h
      · obtain ⟨⟨p, e, i⟩, B, R⟩ := s
        rw [containerStart_some he (by simpa using hB) hg] at h
        simp only [Prod.mk.injEq, true_and] at h
        obtain ⟨rfl, rfl⟩ := h
        exact ⟨n, r, rfl, rfl, rfl⟩

theorem end_inv {s s' : State} {x z : ρ} (h : containerEnd s x = (true, s', z)) :
    z = x ∧ ∃ r, s'.cur.payload = r ∧
      ((s.cur.indef = false ∧ s.cur.elems = 0 ∧ s.cur.payload = r) ∨ (s.cur.indef = true ∧ s.cur.payload = 0xFF :: r)) := by
  obtain ⟨⟨p, e, i⟩, B, R⟩ := s
  unfold containerEnd lift at h
  cases i with
  | true =>
    cases p with
    | nil => simp at h
    | cons b p =>
      simp only [if_true] at h
      split at h
      · rename_i hb
        subst hb
        cases B with
        | nil => simp [State.process] at h
        | cons t B =>
          simp only [State.process] at h
          split at h
          · simp at h
          · simp only [Prod.mk.injEq, true_and] at h
            obtain ⟨rfl, rfl⟩ := h
            exact ⟨rfl, p, rfl, Or.inr ⟨rfl, rfl⟩⟩
      · simp at h
  | false =>
    cases B with
    | nil => simp [State.process] at h
    | cons t B =>
      simp only [State.process, Bool.false_eq_true, if_false] at h
      split at h
      · simp at h
      · rename_i he
        simp only [Prod.mk.injEq, true_and] at h
        obtain ⟨rfl, rfl⟩ := h
        exact ⟨rfl, p, rfl, Or.inl ⟨rfl, by simpa using he, rfl⟩⟩

/-- The elements of a container: as many as announced. -/
theorem elems_inv {m : Nat} {n : Option Nat} {hd tl r : Bytes} {elems : List Bytes} (hb : Began m n hd)
    (hl : ∀ j < elems.length, n.getD largeElems - j ≠ 0)
    (he : (n.isNone = false ∧ n.getD largeElems - elems.length = 0 ∧ tl = r) ∨ (n.isNone = true ∧ tl = 0xFF :: r)) :
    ∃ c, Container m elems c ∧ hd ++ elems.flatten ++ tl = c ++ r := by
  cases n with
  | none =>
    rcases he with ⟨h, -⟩ | ⟨-, rfl⟩
    · cases h
    · exact container_of hb (n' := none) (by simp [Left]) (by simp [endContainer])
  | some k =>
    rcases he with ⟨-, h, rfl⟩ | ⟨h, -⟩
    · refine container_of hb (n' := some 0) ?_ (by simp [endContainer])
      simp only [Option.getD_some] at h hl
      rcases Nat.lt_or_ge k elems.length with h1 | h1
      · exact absurd (Nat.sub_self k) (hl k h1)
      · simp only [Left]; omega
    · cases h

theorem cborDecodeInfo_inv {bs rest : Bytes} {r : InfoR} (h : cborDecodeInfo d bs = (true, rest, r)) :
    ∃ r1 r2, getInt d bs = some (r.label, r1) ∧ getBstr d r1 = some (r.context.bytes, r2) ∧
      getHead d.strict 4 r2 = some (0, r.length, rest) := by
  unfold cborDecodeInfo entry at h
  rcases hf : decodeInfo d ⟨⟨bs, 3, false⟩, [], 2 - 2⟩ ⟨0, .zero, 0⟩ with ⟨b, s, x⟩
  rw [hf] at h
  simp only [Prod.mk.injEq] at h
  obtain ⟨rfl, rfl, rfl⟩ := h
  obtain ⟨s1, x1, h1, h2⟩ := and_inv hf
  obtain ⟨s2, x2, h3, h4⟩ := and_inv h2
  obtain ⟨a1, i1, rfl⟩ := into_inv h1
  obtain ⟨a2, i2, rfl⟩ := into_inv h3
  obtain ⟨a3, i3, rfl⟩ := into_inv h4
  obtain ⟨-, t1, j1, rfl⟩ := int32_inv i1
  obtain ⟨-, t2, j2, rfl⟩ := str_inv i2
  obtain ⟨-, t3, j3, rfl⟩ := uint32_inv i3
  exact ⟨t1, t2, j1, j2, j3⟩

theorem cborDecodeEncStructure_sound {bs rest : Bytes} {r : EncStructureR} (h : cborDecodeEncStructure d bs = (true, rest, r)) :
    ∃ b, (∃ x y z, TstrItem (ascii "Encrypt0") x ∧ BstrItem r.prot.bytes y ∧ BstrItem r.aad.bytes z ∧ Container 4 [x, y, z] b) ∧
      bs = b ++ rest := by
  unfold cborDecodeEncStructure entry at h
  rcases hf : decodeEncStructure d ⟨⟨bs, 1, false⟩, [], 3 - 2⟩ ⟨.zero, .zero⟩ with ⟨b, s, x⟩
  rw [hf] at h
  simp only [Prod.mk.injEq] at h
  obtain ⟨rfl, rfl, rfl⟩ := h
  obtain ⟨s0, x0, h0, h1⟩ := and_inv hf
  obtain ⟨n, r0, g0, rfl, rfl⟩ := start_inv h0
  obtain ⟨s1, x1, h2, h3⟩ := and_inv h1
  obtain ⟨s2, x2, h4, h5⟩ := and_inv (orForce_inv h2)
  obtain ⟨s3, x3, h6, h7⟩ := and_inv h5
  obtain ⟨a2, i2, rfl⟩ := into_inv h6
  obtain ⟨a3, i3, rfl⟩ := into_inv h7
  obtain ⟨e1, t1, j1, rfl, rfl⟩ := tstr_inv h4
  obtain ⟨e2, t2, j2, rfl⟩ := str_inv i2
  obtain ⟨e3, t3, j3, rfl⟩ := str_inv i3
  obtain ⟨rfl, r', hr, he⟩ := end_inv h3
  obtain ⟨hd, hb, h8⟩ := getContainer_sound (by omega) g0
  obtain ⟨b1, k1, h9⟩ := getTstr_sound j1
  obtain ⟨b2, k2, h10⟩ := getBstr_sound j2
  obtain ⟨b3, k3, h11⟩ := getBstr_sound j3
  simp only [State.eat] at h8 h9 h10 h11 e1 e2 e3 he
  obtain ⟨c, hc, h12⟩ := elems_inv (elems := [b1, b2, b3]) (tl := t3) (r := r') hb
    (by intro j hj; have : j < 3 := hj; omega) (by simpa [Nat.sub_sub] using he)
  refine ⟨c, ⟨b1, b2, b3, k1, k2, k3, hc⟩, ?_⟩
  rw [hr, ← h12, h8, h9, h10, h11]
  simp

theorem cborDecodeSigStructure_sound {bs rest : Bytes} {r : SigStructureR} (h : cborDecodeSigStructure d bs = (true, rest, r)) :
    ∃ b, (∃ x y z w, TstrItem (ascii "Signature1") x ∧ BstrItem r.prot.bytes y ∧ BstrItem r.aad.bytes z ∧
        BstrItem r.payload.bytes w ∧ Container 4 [x, y, z, w] b) ∧ bs = b ++ rest := by
  unfold cborDecodeSigStructure entry at h
  rcases hf : decodeSigStructure d ⟨⟨bs, 1, false⟩, [], 3 - 2⟩ ⟨.zero, .zero, .zero⟩ with ⟨b, s, x⟩
  rw [hf] at h
  simp only [Prod.mk.injEq] at h
  obtain ⟨rfl, rfl, rfl⟩ := h
  obtain ⟨s0, x0, h0, h1⟩ := and_inv hf
  obtain ⟨n, r0, g0, rfl, rfl⟩ := start_inv h0
  obtain ⟨s1, x1, h2, h3⟩ := and_inv h1
  obtain ⟨s2, x2, h4, h5⟩ := and_inv (orForce_inv h2)
  obtain ⟨s3, x3, h6, h7⟩ := and_inv h5
  obtain ⟨s4, x4, h6', h7'⟩ := and_inv h7
  obtain ⟨a2, i2, rfl⟩ := into_inv h6
  obtain ⟨a3, i3, rfl⟩ := into_inv h6'
  obtain ⟨a4, i4, rfl⟩ := into_inv h7'
  obtain ⟨e1, t1, j1, rfl, rfl⟩ := tstr_inv h4
  obtain ⟨e2, t2, j2, rfl⟩ := str_inv i2
  obtain ⟨e3, t3, j3, rfl⟩ := str_inv i3
  obtain ⟨e4, t4, j4, rfl⟩ := str_inv i4
  obtain ⟨rfl, r', hr, he⟩ := end_inv h3
  obtain ⟨hd, hb, h8⟩ := getContainer_sound (by omega) g0
  obtain ⟨b1, k1, h9⟩ := getTstr_sound j1
  obtain ⟨b2, k2, h10⟩ := getBstr_sound j2
  obtain ⟨b3, k3, h11⟩ := getBstr_sound j3
  obtain ⟨b4, k4, h11'⟩ := getBstr_sound j4
  simp only [State.eat] at h8 h9 h10 h11 h11' e1 e2 e3 e4 he
  obtain ⟨c, hc, h12⟩ := elems_inv (elems := [b1, b2, b3, b4]) (tl := t4) (r := r') hb
    (by intro j hj; have : j < 4 := hj; omega) (by simpa [Nat.sub_sub] using he)
  refine ⟨c, ⟨b1, b2, b3, b4, k1, k2, k3, k4, hc⟩, ?_⟩
  rw [hr, ← h12, h8, h9, h10, h11, h11']
  simp

end Verif.Gen
