import Verif.CborSound
import Verif.SpecCalls

/-!
# The grammar of `Verif/SpecCbor.lean` is unambiguous, and the encoders follow it
-/

namespace Verif

open Spec

/-- No encoding is a prefix of another, and an encoding has one value. -/
def Unamb {α : Type} (R : α → Bytes → Prop) : Prop :=
  ∀ {a b : α} {x y r r' : Bytes}, R a x → R b y → x ++ r = y ++ r' → a = b ∧ x = y ∧ r = r'

theorem ofNat_inj {a b : Nat} (ha : a < 256) (hb : b < 256) (h : UInt8.ofNat a = UInt8.ofNat b) : a = b := by
  have := congrArg UInt8.toNat h
  simp only [UInt8.toNat_ofNat'] at this
  omega

theorem beBytes_inj {k a b : Nat} (ha : a < 256 ^ k) (hb : b < 256 ^ k) (h : beBytes k a = beBytes k b) : a = b := by
  have := congrArg beNat h
  rwa [beNat_beBytes, beNat_beBytes, Nat.mod_eq_of_lt ha, Nat.mod_eq_of_lt hb] at this

theorem Head.unamb {m m' a a' : Nat} {x y r r' : Bytes} (hm : m < 8) (hm' : m' < 8) (hx : Head m a x) (hy : Head m' a' y)
    (h : x ++ r = y ++ r') : m = m' ∧ a = a' ∧ x = y ∧ r = r' := by
  cases hx with
  | short h1 =>
    cases hy with
    | short h2 =>
      simp only [List.cons_append, List.nil_append, List.cons.injEq] at h
      have := ofNat_inj (by omega) (by omega) h.1
      obtain rfl : m = m' := by omega
      obtain rfl : a = a' := by omega
      exact ⟨rfl, rfl, rfl, h.2⟩
    | long k h2 h3 =>
      simp only [List.cons_append, List.nil_append, List.cons.injEq] at h
      have := ofNat_inj (by omega) (by omega) h.1
      omega
  | long k h1 h2 =>
    cases hy with
    | short h3 =>
      simp only [List.cons_append, List.nil_append, List.cons.injEq] at h
      have := ofNat_inj (by omega) (by omega) h.1
      omega
    | long k' h3 h4 =>
      simp only [List.cons_append, List.cons.injEq] at h
      have := ofNat_inj (by omega) (by omega) h.1
      obtain rfl : m = m' := by omega
      obtain rfl : k = k' := by omega
      obtain ⟨h5, h6⟩ := List.append_inj h.2 (by rw [beBytes_length, beBytes_length])
      obtain rfl := beBytes_inj h2 h4 h5
      exact ⟨rfl, rfl, rfl, h6⟩

theorem Head.first {m a : Nat} {x : Bytes} (hm : m < 8) (h : Head m a x) :
    ∃ n t, n < 28 ∧ x = UInt8.ofNat (m * 32 + n) :: t := by
  cases h with
  | short h => exact ⟨a, [], by omega, rfl⟩
  | long k h1 _ => exact ⟨24 + k, _, by omega, by rw [Nat.add_assoc]⟩

theorem intItem_unamb : Unamb IntItem := by
  intro a b x y r r' hx hy h
  rcases hx with ⟨h1, hx⟩ | ⟨h1, hx⟩ <;> rcases hy with ⟨h2, hy⟩ | ⟨h2, hy⟩
  · obtain ⟨_, e, h⟩ := Head.unamb (by omega) (by omega) hx hy h
    exact ⟨by omega, h⟩
  · obtain ⟨e, _⟩ := Head.unamb (by omega) (by omega) hx hy h
    omega
  · obtain ⟨e, _⟩ := Head.unamb (by omega) (by omega) hx hy h
    omega
  · obtain ⟨_, e, h⟩ := Head.unamb (by omega) (by omega) hx hy h
    exact ⟨by omega, h⟩

theorem bstrItem_unamb : Unamb BstrItem := by
  rintro a b x y r r' ⟨hx, h1, rfl⟩ ⟨hy, h2, rfl⟩ h
  rw [List.append_assoc, List.append_assoc] at h
  obtain ⟨_, e, rfl, h'⟩ := Head.unamb (by omega) (by omega) h1 h2 h
  obtain ⟨rfl, rfl⟩ := List.append_inj h' e
  exact ⟨rfl, rfl, rfl⟩

theorem tstrItem_unamb : Unamb TstrItem := by
  rintro a b x y r r' ⟨hx, h1, rfl⟩ ⟨hy, h2, rfl⟩ h
  rw [List.append_assoc, List.append_assoc] at h
  obtain ⟨_, e, rfl, h'⟩ := Head.unamb (by omega) (by omega) h1 h2 h
  obtain ⟨rfl, rfl⟩ := List.append_inj h' e
  exact ⟨rfl, rfl, rfl⟩

theorem startsBstr_unique {a b m : Bytes} (h1 : StartsBstr a m) (h2 : StartsBstr b m) : a = b := by
  obtain ⟨x, r, h1, rfl⟩ := h1
  obtain ⟨y, r', h2, h⟩ := h2
  exact (bstrItem_unamb h1 h2 h).1

theorem IntItem.first {v : Int} {x : Bytes} (h : IntItem v x) : ∃ n t, n < 60 ∧ x = UInt8.ofNat n :: t := by
  rcases h with ⟨_, h⟩ | ⟨_, h⟩
  · obtain ⟨n, t, h1, rfl⟩ := Head.first (by omega) h
    exact ⟨0 * 32 + n, t, by omega, rfl⟩
  · obtain ⟨n, t, h1, rfl⟩ := Head.first (by omega) h
    exact ⟨1 * 32 + n, t, by omega, rfl⟩

/-- sequences of the same length -/
theorem each_unamb {α : Type} {R : α → Bytes → Prop} (hR : Unamb R) {l l' : List α} {bs bs' : List Bytes} {r r' : Bytes}
    (h1 : Each R l bs) (h2 : Each R l' bs') (hl : bs.length = bs'.length)
    (h : bs.flatten ++ r = bs'.flatten ++ r') : l = l' ∧ bs = bs' ∧ r = r' := by
  induction h1 generalizing l' bs' with
  | nil =>
    cases h2 with
    | nil => exact ⟨rfl, rfl, h⟩
    | cons _ _ => simp at hl
  | @cons a b l bs ha _ ih =>
    cases h2 with
    | nil => simp at hl
    | @cons a' b' l' bs' ha' h2 =>
      simp only [List.flatten_cons, List.append_assoc] at h
      obtain ⟨rfl, rfl, h3⟩ := hR ha ha' h
      obtain ⟨rfl, rfl, h4⟩ := ih h2 (by simpa using hl) h3
      exact ⟨rfl, rfl, h4⟩

/-- sequences up to a break byte -/
theorem each_break {α : Type} {R : α → Bytes → Prop} (hR : Unamb R)
    (hf : ∀ {a x}, R a x → ∃ n t, n < 255 ∧ x = UInt8.ofNat n :: t) {l l' : List α}
    {bs bs' : List Bytes} {r r' : Bytes} (h1 : Each R l bs) (h2 : Each R l' bs')
    (h : bs.flatten ++ [0xFF] ++ r = bs'.flatten ++ [0xFF] ++ r') : l = l' ∧ bs = bs' ∧ r = r' := by
  have key : ∀ {a x y z}, R a x → 0xFF :: y = x ++ z → False := by
    intro a x y z hx e
    obtain ⟨n, t, hn, rfl⟩ := hf hx
    simp only [List.cons_append, List.cons.injEq] at e
    have := ofNat_inj (a := 255) (by omega) (by omega) e.1
    omega
  induction h1 generalizing l' bs' with
  | nil =>
    cases h2 with
    | nil => simpa using h
    | cons ha _ =>
      simp only [List.flatten_nil, List.nil_append, List.flatten_cons, List.append_assoc, List.cons_append] at h
      exact (key ha h).elim
  | @cons a b l bs ha _ ih =>
    cases h2 with
    | nil =>
      simp only [List.flatten_nil, List.nil_append, List.flatten_cons, List.append_assoc, List.cons_append] at h
      exact (key ha h.symm).elim
    | @cons a' b' l' bs' ha' h2 =>
      simp only [List.flatten_cons, List.append_assoc] at h
      obtain ⟨rfl, rfl, h3⟩ := hR ha ha' h
      obtain ⟨rfl, rfl, h4⟩ := ih h2 (by simpa using h3)
      exact ⟨rfl, rfl, h4⟩

theorem arrayOf_unamb {α : Type} {R : α → Bytes → Prop} (hR : Unamb R)
    (hf : ∀ {a x}, R a x → ∃ n t, n < 255 ∧ x = UInt8.ofNat n :: t) : Unamb (ArrayOf R) := by
  rintro a b x y r r' ⟨bs, e1, h1⟩ ⟨bs', e2, h2⟩ h
  rcases h1 with ⟨hd, h1, rfl⟩ | rfl <;> rcases h2 with ⟨hd', h2, rfl⟩ | rfl
  · rw [List.append_assoc, List.append_assoc] at h
    obtain ⟨_, e, rfl, h'⟩ := Head.unamb (by omega) (by omega) h1 h2 h
    obtain ⟨rfl, rfl, rfl⟩ := each_unamb hR e1 e2 e h'
    exact ⟨rfl, rfl, rfl⟩
  · obtain ⟨n, t, hn, rfl⟩ := Head.first (by omega) h1
    simp only [List.cons_append, List.cons.injEq] at h
    have := ofNat_inj (by omega) (by omega) h.1
    omega
  · obtain ⟨n, t, hn, rfl⟩ := Head.first (by omega) h2
    simp only [List.cons_append, List.cons.injEq] at h
    have := ofNat_inj (by omega) (by omega) h.1
    omega
  · simp only [List.cons_append, List.cons.injEq, true_and] at h
    obtain ⟨rfl, rfl, rfl⟩ := each_break hR hf e1 e2 h
    exact ⟨rfl, rfl, rfl⟩

theorem suitesItem_unamb : Unamb SuitesItem := by
  intro a b x y r r' hx hy h
  have hf : ∀ {v x}, IntItem v x → ∃ n t, n < 255 ∧ x = UInt8.ofNat n :: t := by
    intro v x h
    obtain ⟨n, t, h1, h2⟩ := IntItem.first h
    exact ⟨n, t, by omega, h2⟩
  have mixed : ∀ {l v x y r r'}, SuitesItem (.list l) x → SuitesItem (.one v) y → x ++ r = y ++ r' → False := by
    rintro l v x y r r' ⟨_, bs, _, hc⟩ hi h
    obtain ⟨n, t, hn, rfl⟩ := IntItem.first hi
    rcases hc with ⟨hd, h1, rfl⟩ | rfl
    · obtain ⟨n', t', hn', rfl⟩ := Head.first (by omega) h1
      simp only [List.cons_append, List.cons.injEq] at h
      have := ofNat_inj (by omega) (by omega) h.1
      omega
    · simp only [List.cons_append, List.cons.injEq] at h
      have := ofNat_inj (by omega) (by omega) h.1
      omega
  cases a with
  | one v =>
    cases b with
    | one w =>
      obtain ⟨rfl, h'⟩ := intItem_unamb hx hy h
      exact ⟨rfl, h'⟩
    | list l => exact (mixed hy hx h.symm).elim
  | list l =>
    cases b with
    | one w => exact (mixed hx hy h).elim
    | list l' =>
      obtain ⟨rfl, h'⟩ := arrayOf_unamb intItem_unamb hf hx.2 hy.2 h
      exact ⟨rfl, h'⟩

theorem cidItem_unamb : Unamb CidItem := by
  intro a b x y r r' hx hy h
  have mixed : ∀ {s v x y r r'}, CidItem (.bstr s) x → CidItem (.int v) y → x ++ r = y ++ r' → False := by
    rintro s v x y r r' ⟨hd, h1, rfl⟩ ⟨_, _, hi⟩ h
    obtain ⟨n, t, hn, rfl⟩ := IntItem.first hi
    obtain ⟨n', t', hn', rfl⟩ := Head.first (by omega) h1
    simp only [List.cons_append, List.cons.injEq] at h
    have := ofNat_inj (by omega) (by omega) h.1
    omega
  cases a with
  | int v =>
    cases b with
    | int w =>
      obtain ⟨rfl, h'⟩ := intItem_unamb hx.2.2 hy.2.2 h
      exact ⟨rfl, h'⟩
    | bstr s => exact (mixed hy hx h.symm).elim
  | bstr s =>
    cases b with
    | int w => exact (mixed hx hy h).elim
    | bstr s' =>
      obtain ⟨rfl, h'⟩ := bstrItem_unamb hx hy h
      exact ⟨rfl, h'⟩

/-! ## Encoders -/

theorem head_item {m a : Nat} (ha : a < 2 ^ 64) : Head m a (head m a) := by
  unfold head
  split
  · exact .short (by omega)
  · split
    · exact .long 0 (by omega) (by simpa using ‹a < 256›)
    · split
      · exact .long 1 (by omega) (by simpa using ‹a < 65536›)
      · split
        · exact .long 2 (by omega) (by simpa using ‹a < 4294967296›)
        · exact .long 3 (by omega) (by simpa using ha)

theorem encInt_item {v : Int} (h : Int65Range v) : IntItem v (encInt v) := by
  unfold Int65Range at h
  unfold encInt
  split
  · exact Or.inl ⟨by omega, head_item (by omega)⟩
  · exact Or.inr ⟨by omega, head_item (by omega)⟩

theorem encBstr_item {b : Bytes} (h : SizeOk b) : BstrItem b (encBstr b) := ⟨_, head_item h, rfl⟩

theorem encTstr_item {b : Bytes} (h : SizeOk b) : TstrItem b (encTstr b) := ⟨_, head_item h, rfl⟩

theorem each_map {α : Type} {R : α → Bytes → Prop} {f : α → Bytes} {l : List α} (h : ∀ a ∈ l, R a (f a)) :
    Each R l (l.map f) := by
  induction l with
  | nil => exact .nil
  | cons a l ih =>
    exact .cons (h a (List.mem_cons_self ..)) (ih fun b hb => h b (List.mem_cons_of_mem _ hb))

theorem encCid_item {c : Cid} {b : Bytes} (h : encCid c = some b) (hs : ∀ x, c = .bstr x → SizeOk x) : CidItem c b := by
  cases c with
  | int v =>
    simp only [encCid] at h
    split at h
    · rename_i hv
      simp only [Option.some.injEq] at h; subst h
      exact ⟨hv.1, hv.2, encInt_item (by unfold Int65Range; omega)⟩
    · simp at h
  | bstr x =>
    simp only [encCid, Option.some.injEq] at h; subst h
    exact encBstr_item (hs x rfl)

/-- the integers of SUITES_I -/
def suiteValues : Suites → List Int
  | .one v => [v]
  | .list l => l

theorem encSuites_item {su : Suites} {b : Bytes} (h : encSuites su = some b) (hv : ∀ v ∈ suiteValues su, Int65Range v) :
    SuitesItem su b := by
  cases su with
  | one v =>
    simp only [encSuites, Option.some.injEq] at h; subst h
    exact encInt_item (hv v (by simp [suiteValues]))
  | list l =>
    simp only [encSuites] at h
    split at h
    · rename_i hl
      simp only [Option.some.injEq] at h; subst h
      refine ⟨hl.1, l.map encInt, each_map fun v hv' => encInt_item (hv v hv'), Or.inl ⟨_, ?_, rfl⟩⟩
      rw [List.length_map]
      exact head_item (by omega)
    · simp at h

end Verif
