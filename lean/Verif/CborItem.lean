import Verif.SpecItem
import Verif.CborGrammar

/-!
# CBOR items are prefix-free

So a CBOR sequence splits into its items in one way. The items of the message grammar are CBOR items.
-/

namespace Verif

open Spec

theorem Item.first {b : Bytes} (h : Item b) : ∃ n t, n < 255 ∧ b = UInt8.ofNat n :: t := by
  have key : ∀ {m a : Nat} {hd : Bytes} (_ : m < 8) (_ : Head m a hd) (x : Bytes), ∃ n t, n < 255 ∧ hd ++ x = UInt8.ofNat n :: t := by
    intro m a hd hm h x
    obtain ⟨n, t, hn, rfl⟩ := Head.first hm h
    exact ⟨m * 32 + n, t ++ x, by omega, rfl⟩
  cases h with
  | scalar hm h => simpa using key (by omega) h []
  | string hm h => exact key (by omega) h _
  | array h _ => exact key (by omega) h _
  | map h _ _ => exact key (by omega) h _
  | tag h _ => exact key (by omega) h _
  | @indef m bs h1 h2 _ => exact ⟨m * 32 + 31, _, by omega, rfl⟩

/-- what follows the head of an item of definite length -/
inductive Body : Nat → Nat → Bytes → Prop
  | scalar {m a : Nat} : m = 0 ∨ m = 1 ∨ m = 7 → Body m a []
  | string {m : Nat} {s : Bytes} : m = 2 ∨ m = 3 → Body m s.length s
  | array {bs : List Bytes} : (∀ b ∈ bs, Item b) → Body 4 bs.length bs.flatten
  | map {n : Nat} {bs : List Bytes} : bs.length = 2 * n → (∀ b ∈ bs, Item b) → Body 5 n bs.flatten
  | tag {a : Nat} {b : Bytes} : Item b → Body 6 a b

theorem Item.split {b : Bytes} (h : Item b) :
    (∃ m a hd x, m < 8 ∧ Head m a hd ∧ Body m a x ∧ b = hd ++ x) ∨
      ∃ (m : Nat) (bs : List Bytes), 2 ≤ m ∧ m ≤ 5 ∧ (∀ x ∈ bs, Item x) ∧ b = UInt8.ofNat (m * 32 + 31) :: (bs.flatten ++ [0xFF]) := by
  cases h with
  | scalar hm h => exact .inl ⟨_, _, _, [], by omega, h, .scalar hm, by simp⟩
  | string hm h => exact .inl ⟨_, _, _, _, by omega, h, .string hm, rfl⟩
  | array h hb => exact .inl ⟨_, _, _, _, by omega, h, .array hb, rfl⟩
  | map h hl hb => exact .inl ⟨_, _, _, _, by omega, h, .map hl hb, rfl⟩
  | tag h hb => exact .inl ⟨_, _, _, _, by omega, h, .tag hb, rfl⟩
  | indef h1 h2 hb => exact .inr ⟨_, _, h1, h2, hb, rfl⟩

/-- No item is a prefix of another. -/
def PrefixFree (a : Bytes) : Prop := ∀ {b r r' : Bytes}, Item b → a ++ r = b ++ r' → a = b ∧ r = r'

theorem flatten_split {bs bs' : List Bytes} (h1 : ∀ b ∈ bs, PrefixFree b) (h2 : ∀ b ∈ bs', Item b)
    (hl : bs.length = bs'.length) {r r' : Bytes} (h : bs.flatten ++ r = bs'.flatten ++ r') : bs = bs' ∧ r = r' := by
  induction bs generalizing bs' with
  | nil =>
    cases bs' with
    | nil => exact ⟨rfl, h⟩
    | cons => simp at hl
  | cons b bs ih =>
    cases bs' with
    | nil => simp at hl
    | cons b' bs' =>
      simp only [List.flatten_cons, List.append_assoc] at h
      obtain ⟨e, h3⟩ := h1 b (by simp) (h2 b' (by simp)) h
      obtain ⟨e', h4⟩ := ih (fun c hc => h1 c (by simp [hc])) (fun c hc => h2 c (by simp [hc])) (by simpa using hl) h3
      exact ⟨by rw [e, e'], h4⟩

theorem item_break {b y z : Bytes} (h : Item b) (e : (0xFF : UInt8) :: y = b ++ z) : False := by
  obtain ⟨n, t, hn, rfl⟩ := Item.first h
  simp only [List.cons_append, List.cons.injEq] at e
  have := ofNat_inj (a := 255) (by omega) (by omega) e.1
  omega

theorem flatten_break {bs bs' : List Bytes} (h0 : ∀ b ∈ bs, Item b) (h1 : ∀ b ∈ bs, PrefixFree b) (h2 : ∀ b ∈ bs', Item b)
    {r r' : Bytes} (h : bs.flatten ++ [0xFF] ++ r = bs'.flatten ++ [0xFF] ++ r') : bs = bs' ∧ r = r' := by
  induction bs generalizing bs' with
  | nil =>
    cases bs' with
    | nil => simpa using h
    | cons b' bs' =>
      simp only [List.flatten_nil, List.nil_append, List.flatten_cons, List.append_assoc, List.cons_append] at h
      exact (item_break (h2 b' (by simp)) h).elim
  | cons b bs ih =>
    cases bs' with
    | nil =>
      simp only [List.flatten_nil, List.nil_append, List.flatten_cons, List.append_assoc, List.cons_append] at h
      exact (item_break (h0 b (by simp)) h.symm).elim
    | cons b' bs' =>
      simp only [List.flatten_cons, List.append_assoc] at h
      obtain ⟨e, h3⟩ := h1 b (by simp) (h2 b' (by simp)) h
      obtain ⟨e', h4⟩ := ih (bs' := bs') (fun c hc => h0 c (by simp [hc])) (fun c hc => h1 c (by simp [hc]))
        (fun c hc => h2 c (by simp [hc])) (by simpa using h3)
      exact ⟨by rw [e, e'], h4⟩

/-- A definite item against any item: heads agree. -/
theorem split_definite {m a : Nat} {hd x b r r' : Bytes} (hm : m < 8) (h : Head m a hd) (hb : Item b)
    (e : hd ++ x ++ r = b ++ r') : ∃ y, Body m a y ∧ b = hd ++ y ∧ x ++ r = y ++ r' := by
  rcases Item.split hb with ⟨m', a', hd', y, hm', h', b', rfl⟩ | ⟨m', bs, h1, h2, _, rfl⟩
  · rw [List.append_assoc, List.append_assoc] at e
    obtain ⟨rfl, rfl, rfl, e1⟩ := Head.unamb hm hm' h h' e
    exact ⟨y, b', rfl, e1⟩
  · obtain ⟨n, t, hn, rfl⟩ := Head.first hm h
    simp only [List.cons_append, List.cons.injEq] at e
    have := ofNat_inj (by omega) (by omega) e.1
    omega

theorem Item.prefixFree {a : Bytes} (h : Item a) : PrefixFree a := by
  induction h with
  | @scalar m a hd hm h =>
    intro b r r' hb e0
    obtain ⟨y, hy, rfl, e⟩ := split_definite (x := []) (by omega) h hb (by simpa using e0)
    cases hy with
    | scalar _ => exact ⟨by simp, by simpa using e⟩
    | string h' => omega
    | array => omega
    | map => omega
    | tag => omega
  | @string m hd s hm h =>
    intro b r r' hb e0
    obtain ⟨y, hy, rfl, e⟩ := split_definite (by omega) h hb e0
    generalize hn : s.length = n at hy
    cases hy with
    | scalar _ => omega
    | string h' =>
      obtain ⟨rfl, e1⟩ := List.append_inj e hn
      exact ⟨rfl, e1⟩
    | array => omega
    | map => omega
    | tag => omega
  | @array hd bs h _ ih =>
    intro b r r' hb e0
    obtain ⟨y, hy, rfl, e⟩ := split_definite (by omega) h hb e0
    generalize hn : bs.length = n at hy
    cases hy with
    | scalar h' => omega
    | string h' => omega
    | array h2 =>
      obtain ⟨rfl, e1⟩ := flatten_split ih h2 hn e
      exact ⟨rfl, e1⟩
  | @map n hd bs h hl _ ih =>
    intro b r r' hb e0
    obtain ⟨y, hy, rfl, e⟩ := split_definite (by omega) h hb e0
    cases hy with
    | scalar h' => omega
    | string h' => omega
    | map hl' h2 =>
      obtain ⟨rfl, e1⟩ := flatten_split ih h2 (by omega) e
      exact ⟨rfl, e1⟩
  | @tag a hd c h _ ih =>
    intro b r r' hb e0
    obtain ⟨y, hy, rfl, e⟩ := split_definite (by omega) h hb e0
    cases hy with
    | scalar h' => omega
    | string h' => omega
    | tag h2 =>
      obtain ⟨rfl, e1⟩ := ih h2 e
      exact ⟨rfl, e1⟩
  | @indef m bs h1 h2 h0 ih =>
    intro b r r' hb e
    rcases Item.split hb with ⟨m', a', hd', y, hm', h', b', rfl⟩ | ⟨m', bs', h1', h2', h0', rfl⟩
    · obtain ⟨n, t, hn, rfl⟩ := Head.first hm' h'
      simp only [List.cons_append, List.cons.injEq] at e
      have := ofNat_inj (by omega) (by omega) e.1
      omega
    · simp only [List.cons_append, List.cons.injEq] at e
      have hm := ofNat_inj (by omega) (by omega) e.1
      obtain rfl : m = m' := by omega
      obtain ⟨rfl, e1⟩ := flatten_break h0 ih h0' e.2
      exact ⟨rfl, e1⟩

/-- A sequence of items splits in one way. -/
theorem itemSeq_unique {bs bs' : List Bytes} (h1 : ∀ b ∈ bs, Item b) (h2 : ∀ b ∈ bs', Item b)
    (h : bs.flatten = bs'.flatten) : bs = bs' := by
  have ne : ∀ {b x : Bytes}, Item b → [] = b ++ x → False := by
    intro b x hb e
    obtain ⟨n, t, _, rfl⟩ := Item.first hb
    simp at e
  induction bs generalizing bs' with
  | nil =>
    cases bs' with
    | nil => rfl
    | cons b' bs' => exact (ne (h2 b' (by simp)) (h.trans List.flatten_cons)).elim
  | cons b bs ih =>
    cases bs' with
    | nil => exact (ne (h1 b (by simp)) (h.symm.trans List.flatten_cons)).elim
    | cons b' bs' =>
      simp only [List.flatten_cons] at h
      obtain ⟨e, h3⟩ := Item.prefixFree (h1 b (by simp)) (h2 b' (by simp)) h
      rw [e, ih (fun c hc => h1 c (by simp [hc])) (fun c hc => h2 c (by simp [hc])) h3]

/-- A CBOR sequence followed by one item: both are determined. -/
theorem seq_then_item {a b x y : Bytes} (ha : ItemSeq a) (hb : ItemSeq b) (hx : Item x) (hy : Item y)
    (h : a ++ x = b ++ y) : a = b ∧ x = y := by
  obtain ⟨as, ha, rfl⟩ := ha
  obtain ⟨bs, hb, rfl⟩ := hb
  have e : as ++ [x] = bs ++ [y] := itemSeq_unique
    (by intro b hb; rcases List.mem_append.1 hb with h | h; exact ha _ h; rw [List.mem_singleton.1 h]; exact hx)
    (by intro c hc; rcases List.mem_append.1 hc with h | h; exact hb _ h; rw [List.mem_singleton.1 h]; exact hy)
    (by simpa using h)
  obtain ⟨e1, e2⟩ := List.append_inj' e rfl
  exact ⟨by rw [e1], by simpa using e2⟩

/-! ## The message grammar -/

theorem seq_nil : ItemSeq [] := ⟨[], by simp, rfl⟩

theorem item_seq {b : Bytes} (h : Item b) : ItemSeq b := ⟨[b], by simpa using h, by simp⟩

theorem seq_append {a b : Bytes} (ha : ItemSeq a) (hb : ItemSeq b) : ItemSeq (a ++ b) := by
  obtain ⟨as, ha, rfl⟩ := ha
  obtain ⟨bs, hb, rfl⟩ := hb
  exact ⟨as ++ bs, by intro b h; rcases List.mem_append.1 h with h | h; exact ha _ h; exact hb _ h, by simp⟩

theorem seq_flatten {bs : List Bytes} (h : ∀ b ∈ bs, ItemSeq b) : ItemSeq bs.flatten := by
  induction bs with
  | nil => exact seq_nil
  | cons b bs ih =>
    rw [List.flatten_cons]
    exact seq_append (h b (by simp)) (ih fun b hb => h b (by simp [hb]))

theorem IntItem.item {v : Int} {b : Bytes} (h : IntItem v b) : Item b := by
  rcases h with ⟨_, h⟩ | ⟨_, h⟩
  · exact .scalar (.inl rfl) h
  · exact .scalar (.inr (.inl rfl)) h

theorem BstrItem.item {s b : Bytes} (h : BstrItem s b) : Item b := by
  obtain ⟨hd, h, rfl⟩ := h
  exact .string (.inl rfl) h

theorem TstrItem.item {s b : Bytes} (h : TstrItem s b) : Item b := by
  obtain ⟨hd, h, rfl⟩ := h
  exact .string (.inr rfl) h

theorem Each.items {α : Type} {R : α → Bytes → Prop} (P : Bytes → Prop) (hR : ∀ {a b}, R a b → P b) {l : List α}
    {bs : List Bytes} (h : Each R l bs) : ∀ b ∈ bs, P b := by
  induction h with
  | nil => simp
  | cons h _ ih =>
    intro b hb
    rcases List.mem_cons.1 hb with rfl | hb
    · exact hR h
    · exact ih b hb

theorem Container.item {bs : List Bytes} {b : Bytes} (h : Container 4 bs b) (hb : ∀ b ∈ bs, Item b) : Item b := by
  rcases h with ⟨hd, h, rfl⟩ | rfl
  · exact .array h hb
  · exact .indef (by omega) (by omega) hb

theorem ArrayOf.item {α : Type} {R : α → Bytes → Prop} (hR : ∀ {a b}, R a b → Item b) {l : List α} {b : Bytes}
    (h : ArrayOf R l b) : Item b := by
  obtain ⟨bs, h, hc⟩ := h
  exact Container.item hc (Each.items Item hR h)

theorem CidItem.item {c : Cid} {b : Bytes} (h : CidItem c b) : Item b := by
  cases c with
  | int v => exact IntItem.item h.2.2
  | bstr s => exact BstrItem.item h

theorem ChainItem.item {c : X5chain} {b : Bytes} (h : ChainItem c b) : Item b := by
  cases c with
  | one s => exact BstrItem.item h
  | list l => exact ArrayOf.item BstrItem.item h.2

theorem KidItem.item {v : IntOrBytes} {b : Bytes} (h : KidItem v b) : Item b := by
  cases v with
  | int v => exact IntItem.item h
  | bstr s => exact BstrItem.item h

theorem HashItem.item {p : IntOrBytes × Bytes} {b : Bytes} (h : HashItem p b) : Item b := by
  obtain ⟨x, y, hx, hy, hc⟩ := h
  refine Container.item hc ?_
  intro b hb
  rcases List.mem_cons.1 hb with rfl | hb
  · obtain ⟨v | s, _⟩ := p
    · exact IntItem.item hx
    · exact TstrItem.item hx
  · rw [List.mem_singleton.1 hb]
    exact BstrItem.item hy

theorem Entry.items {α : Type} {k : Nat} {R : α → Bytes → Prop} (hR : ∀ {a b}, R a b → Item b) {o : Option α}
    {l : List (Bytes × Bytes)} (h : Entry k R o l) : ∀ p ∈ l, Item p.1 ∧ Item p.2 := by
  cases o with
  | none => cases h; simp
  | some a =>
    obtain ⟨x, y, hx, hy, rfl⟩ := h
    intro p hp
    rw [List.mem_singleton.1 hp]
    exact ⟨.scalar (.inl rfl) hx, hR hy⟩

theorem MapItem.item {l : List (Bytes × Bytes)} {b : Bytes} (h : MapItem l b) (hl : ∀ p ∈ l, Item p.1 ∧ Item p.2) :
    Item b := by
  have e : (l.map fun p => p.1 ++ p.2).flatten = (l.map fun p => [p.1, p.2]).flatten.flatten := by
    clear h hl
    induction l with
    | nil => rfl
    | cons p l ih => simp [ih]
  have hi : ∀ b ∈ (l.map fun p => [p.1, p.2]).flatten, Item b := by
    intro b hb
    simp only [List.mem_flatten, List.mem_map] at hb
    obtain ⟨_, ⟨p, hp, rfl⟩, hb⟩ := hb
    simp only [List.mem_cons, List.not_mem_nil, or_false] at hb
    rcases hb with rfl | rfl
    · exact (hl p hp).1
    · exact (hl p hp).2
  rcases h with ⟨hd, h, rfl⟩ | rfl
  · rw [e]
    refine .map h ?_ hi
    clear e hi h hl
    induction l with
    | nil => rfl
    | cons p l ih => simp only [List.map_cons, List.flatten_cons, List.length_append, List.length_cons, ih]; simp; omega
  · rw [e]
    exact .indef (m := 5) (by omega) (by omega) hi

theorem IdCredItem.item {i : IdCred} {b : Bytes} (h : IdCredItem i b) : Item b := by
  cases i with
  | int v => exact IntItem.item h
  | bstr s => exact BstrItem.item h
  | map m =>
    obtain ⟨x, y, z, hx, hy, hz, h⟩ := h
    refine MapItem.item h ?_
    intro p hp
    rcases List.mem_append.1 hp with hp | hp
    · rcases List.mem_append.1 hp with hp | hp
      · exact Entry.items KidItem.item hx p hp
      · exact Entry.items ChainItem.item hy p hp
    · exact Entry.items HashItem.item hz p hp

theorem EadItem.seq {t : EadTok} {b : Bytes} (h : EadItem t b) : ItemSeq b := by
  obtain ⟨x, y, hx, rfl, hy⟩ := h
  refine seq_append (item_seq (IntItem.item hx)) ?_
  cases hv : t.value with
  | none => rw [hv] at hy; cases hy; exact seq_nil
  | some v => rw [hv] at hy; exact item_seq (BstrItem.item hy)

theorem SeqOf.seq {ts : List EadTok} {b : Bytes} (h : SeqOf EadItem ts b) : ItemSeq b := by
  obtain ⟨bs, h, rfl⟩ := h
  exact seq_flatten (Each.items ItemSeq EadItem.seq h)

theorem Plaintext3.seq {p : Ptxt} {b : Bytes} (h : Plaintext3 p b) : ItemSeq b := by
  obtain ⟨i, s, e, hi, hs, he, rfl⟩ := h
  exact seq_append (seq_append (item_seq (IdCredItem.item hi)) (item_seq (BstrItem.item hs))) (SeqOf.seq he)

theorem Plaintext2.seq {c : Cid} {p : Ptxt} {b : Bytes} (h : Plaintext2 c p b) : ItemSeq b := by
  obtain ⟨x, t, hc, ht, rfl⟩ := h
  exact seq_append (item_seq (CidItem.item hc)) (Plaintext3.seq ht)

end Verif
