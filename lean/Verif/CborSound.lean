import Verif.SpecCbor
import Verif.SpecSafety
import Verif.CborLemmas

/-!
# The decoders only accept what the grammar allows
-/

namespace Verif

open Spec

variable {d : DecCfg}

theorem getHead_sound {st : Bool} {ml m a : Nat} {bs r : Bytes} (h : getHead st ml bs = some (m, a, r)) :
    ∃ hd, Head m a hd ∧ bs = hd ++ r := by
  cases bs with
  | nil => simp [getHead] at h
  | cons b t =>
    simp only [getHead] at h
    have hb : b.toNat < 256 := b.toNat_lt
    split at h
    · rename_i h1
      simp only [Option.some.injEq, Prod.mk.injEq] at h
      obtain ⟨rfl, rfl, rfl⟩ := h
      refine ⟨_, .short (by omega), ?_⟩
      rw [show b.toNat / 32 * 32 + b.toNat % 32 = b.toNat from by omega, UInt8.ofNat_toNat]
      rfl
    · rename_i h1
      split at h
      · simp at h
      · rename_i h2
        split at h
        · simp at h
        · split at h
          · simp at h
          · rename_i h3 h4
            split at h
            · simp at h
            · simp only [Option.some.injEq, Prod.mk.injEq] at h
              obtain ⟨rfl, rfl, rfl⟩ := h
              generalize hk : b.toNat % 32 - 24 = k at *
              have hl : (List.take (2 ^ k) t).length = 2 ^ k := by rw [List.length_take]; omega
              have hlt := beNat_lt (List.take (2 ^ k) t)
              rw [hl] at hlt
              refine ⟨_, .long k (by omega) hlt, ?_⟩
              have he := beBytes_beNat (List.take (2 ^ k) t)
              rw [hl] at he
              rw [he, show b.toNat / 32 * 32 + 24 + k = b.toNat from by omega, UInt8.ofNat_toNat,
                List.cons_append, List.take_append_drop]

theorem getInt_sound {v : Int} {bs r : Bytes} (h : getInt d bs = some (v, r)) :
    ∃ b, IntItem v b ∧ bs = b ++ r := by
  unfold getInt at h
  split at h
  · rename_i m a r' hh
    obtain ⟨hd, h1, h2⟩ := getHead_sound hh
    split at h
    · simp at h
    · split at h
      · rename_i hm
        simp only [Option.some.injEq, Prod.mk.injEq] at h
        obtain ⟨rfl, rfl⟩ := h
        exact ⟨hd, Or.inl ⟨by omega, by subst hm; simpa using h1⟩, h2⟩
      · split at h
        · rename_i hm
          simp only [Option.some.injEq, Prod.mk.injEq] at h
          obtain ⟨rfl, rfl⟩ := h
          refine ⟨hd, Or.inr ⟨by omega, ?_⟩, h2⟩
          subst hm
          rw [show (-1 - (-1 - (a : Int))).toNat = a from by omega]
          exact h1
        · simp at h
  · simp at h

theorem getStr_sound {m : Nat} {s bs r : Bytes} (h : getStr d m bs = some (s, r)) :
    ∃ hd, Head m s.length hd ∧ bs = hd ++ s ++ r := by
  unfold getStr at h
  split at h
  · rename_i m' a r' hh
    obtain ⟨hd, h1, rfl⟩ := getHead_sound hh
    split at h
    · rename_i hc
      simp only [Option.some.injEq, Prod.mk.injEq] at h
      obtain ⟨rfl, rfl⟩ := h
      obtain ⟨rfl, hc⟩ := hc
      refine ⟨hd, ?_, ?_⟩
      · rw [List.length_take, Nat.min_eq_left hc]; exact h1
      · rw [List.append_assoc, List.take_append_drop]
    · simp at h
  · simp at h

theorem getBstr_sound {s bs r : Bytes} (h : getBstr d bs = some (s, r)) :
    ∃ b, BstrItem s b ∧ bs = b ++ r := by
  obtain ⟨hd, h1, h2⟩ := getStr_sound h
  exact ⟨hd ++ s, ⟨hd, h1, rfl⟩, h2⟩

theorem getTstr_sound {s bs r : Bytes} (h : getTstr d bs = some (s, r)) :
    ∃ b, TstrItem s b ∧ bs = b ++ r := by
  obtain ⟨hd, h1, h2⟩ := getStr_sound h
  exact ⟨hd ++ s, ⟨hd, h1, rfl⟩, h2⟩

theorem expectUint_sound {v : Nat} {bs r : Bytes} (h : expectUint d v bs = some r) :
    ∃ b, Head 0 v b ∧ bs = b ++ r := by
  unfold expectUint at h
  split at h
  · rename_i m a r' hh
    obtain ⟨hd, h1, h2⟩ := getHead_sound hh
    split at h
    · rename_i hc
      simp only [Option.some.injEq] at h
      obtain ⟨rfl, rfl⟩ := hc
      subst h
      exact ⟨hd, h1, h2⟩
    · simp at h
  · simp at h

/-- a started container: how it began, and how many elements are left -/
def Began (m : Nat) (total : Option Nat) (b : Bytes) : Prop :=
  match total with
  | some n => Head m n b
  | none => b = [UInt8.ofNat (m * 32 + 31)]

theorem getContainer_sound {m : Nat} (hm : m < 7) {n : Option Nat} {bs r : Bytes}
    (h : getContainer d m bs = some (n, r)) :
    ∃ b, Began m n b ∧ bs = b ++ r := by
  cases bs with
  | nil => simp [getContainer] at h
  | cons b t =>
    simp only [getContainer] at h
    split at h
    · rename_i hb
      split at h
      · simp only [Option.some.injEq, Prod.mk.injEq] at h
        obtain ⟨rfl, rfl⟩ := h
        exact ⟨_, rfl, by rw [← hb, UInt8.ofNat_toNat]; rfl⟩
      · simp at h
    · split at h
      · rename_i m' a r' hh
        obtain ⟨hd, h1, h2⟩ := getHead_sound hh
        split at h
        · rename_i hc
          simp only [Option.some.injEq, Prod.mk.injEq] at h
          obtain ⟨rfl, rfl⟩ := h
          subst hc
          exact ⟨hd, h1, h2⟩
        · simp at h
      · simp at h

/-- number of elements left after `k` were read -/
def Left (total left : Option Nat) (k : Nat) : Prop :=
  match total, left with
  | some n, some n' => n = n' + k
  | none, none => True
  | _, _ => False

theorem Left.zero (n : Option Nat) : Left n n 0 := by cases n <;> simp [Left]

theorem Left.trans {a b c : Option Nat} {i j : Nat} (h : Left a b i) (k : Left b c j) : Left a c (i + j) := by
  cases a <;> cases b <;> cases c <;> simp only [Left] at * <;> omega

theorem useElem_left {n n' : Option Nat} (h : useElem n = some n') : Left n n' 1 := by
  unfold useElem at h
  split at h
  · simp at h
  · simp only [Option.some.injEq] at h; subst h; simp [Left]
  · simp only [Option.some.injEq] at h; subst h; simp [Left]

theorem endContainer_sound {n : Option Nat} {bs r : Bytes} (h : endContainer n bs = some r) :
    (n = some 0 ∧ bs = r) ∨ (n = none ∧ bs = 0xFF :: r) := by
  unfold endContainer at h
  split at h
  · simp only [Option.some.injEq] at h; exact Or.inl ⟨rfl, h⟩
  · simp at h
  · split at h
    · rename_i hb
      simp only [Option.some.injEq] at h
      subst h hb; exact Or.inr ⟨rfl, rfl⟩
    · simp at h
  · simp at h

theorem container_of {m : Nat} {n n' : Option Nat} {b b' r : Bytes} {elems : List Bytes} (h1 : Began m n b)
    (h2 : Left n n' elems.length) (h3 : endContainer n' b' = some r) :
    ∃ c, Container m elems c ∧ b ++ elems.flatten ++ b' = c ++ r := by
  rcases endContainer_sound h3 with ⟨rfl, rfl⟩ | ⟨rfl, rfl⟩
  · cases n with
    | none => simp [Left] at h2
    | some n =>
      simp only [Left, Nat.zero_add] at h2
      subst h2
      exact ⟨b ++ elems.flatten, Or.inl ⟨b, h1, rfl⟩, rfl⟩
  · cases n with
    | some n => simp [Left] at h2
    | none =>
      simp only [Began] at h1
      subst h1
      exact ⟨_, Or.inr rfl, by simp⟩

theorem getElems_sound {α : Type} {p : Bytes → Option (α × Bytes)} {R : α → Bytes → Prop}
    (hp : ∀ {a bs r}, p bs = some (a, r) → ∃ b, R a b ∧ bs = b ++ r) (f : Nat) (n : Option Nat) (bs : Bytes) :
    ∃ es, Each R (getElems p f n bs).1 es ∧ Left n (getElems p f n bs).2.1 es.length ∧
      bs = es.flatten ++ (getElems p f n bs).2.2 := by
  induction f generalizing n bs with
  | zero => exact ⟨[], .nil, Left.zero n, rfl⟩
  | succ f ih =>
    simp only [getElems]
    split
    · exact ⟨[], .nil, Left.zero n, rfl⟩
    · rename_i n' hn
      split
      · exact ⟨[], .nil, Left.zero n, rfl⟩
      · rename_i a bs' ha
        obtain ⟨b, h1, rfl⟩ := hp ha
        obtain ⟨es, h2, h3, h4⟩ := ih n' bs'
        refine ⟨b :: es, .cons h1 h2, ?_, ?_⟩
        · have := (useElem_left hn).trans h3
          rw [List.length_cons, Nat.add_comm]; exact this
        · rw [List.flatten_cons, List.append_assoc, ← h4]

theorem getMany_sound {α : Type} {p : Bytes → Option (α × Bytes)} {R : α → Bytes → Prop}
    (hp : ∀ {a bs r}, p bs = some (a, r) → ∃ b, R a b ∧ bs = b ++ r) (f : Nat) (bs : Bytes) :
    ∃ b, SeqOf R (getMany p f bs).1 b ∧ bs = b ++ (getMany p f bs).2 := by
  induction f generalizing bs with
  | zero => exact ⟨[], ⟨[], .nil, rfl⟩, rfl⟩
  | succ f ih =>
    simp only [getMany]
    split
    · exact ⟨[], ⟨[], .nil, rfl⟩, rfl⟩
    · rename_i a bs' ha
      obtain ⟨b, h1, rfl⟩ := hp ha
      obtain ⟨t, ⟨es, h2, rfl⟩, h3⟩ := ih bs'
      exact ⟨b ++ es.flatten, ⟨b :: es, .cons h1 h2, rfl⟩, by rw [List.append_assoc, ← h3]⟩

theorem getEadTok_sound {t : EadTok} {bs r : Bytes} (h : getEadTok d bs = some (t, r)) :
    ∃ b, EadItem t b ∧ bs = b ++ r := by
  unfold getEadTok at h
  split at h
  · simp at h
  · rename_i l r1 h1
    obtain ⟨x, i1, rfl⟩ := getInt_sound h1
    split at h
    · rename_i v r2 h2
      obtain ⟨y, i2, rfl⟩ := getBstr_sound h2
      simp only [Option.some.injEq, Prod.mk.injEq] at h
      obtain ⟨rfl, rfl⟩ := h
      exact ⟨x ++ y, ⟨x, y, i1, rfl, i2⟩, by simp⟩
    · simp only [Option.some.injEq, Prod.mk.injEq] at h
      obtain ⟨rfl, rfl⟩ := h
      exact ⟨x ++ [], ⟨x, [], i1, rfl, rfl⟩, by simp⟩

theorem getEad_sound (bs : Bytes) : ∃ b, SeqOf EadItem (getEad d bs).1 b ∧ bs = b ++ (getEad d bs).2 :=
  getMany_sound getEadTok_sound 3 bs

theorem getMany_length {α : Type} (p : Bytes → Option (α × Bytes)) (f : Nat) (bs : Bytes) :
    (getMany p f bs).1.length ≤ f := by
  induction f generalizing bs with
  | zero => simp [getMany]
  | succ f ih =>
    simp only [getMany]
    split
    · simp
    · simpa using ih _

theorem getEad_length (bs : Bytes) : (getEad d bs).1.length ≤ 3 := getMany_length _ 3 bs

theorem getCid_sound {c : Cid} {bs r : Bytes} (h : getCid d bs = some (c, r)) :
    ∃ b, CidItem c b ∧ bs = b ++ r := by
  unfold getCid at h
  split at h
  · rename_i s r1 h1
    simp only [Option.some.injEq, Prod.mk.injEq] at h
    obtain ⟨rfl, rfl⟩ := h
    exact getBstr_sound h1
  · split at h
    · rename_i v r1 h1
      split at h
      · rename_i hv
        simp only [Option.some.injEq, Prod.mk.injEq] at h
        obtain ⟨rfl, rfl⟩ := h
        obtain ⟨b, i1, h2⟩ := getInt_sound h1
        exact ⟨b, ⟨hv.1, hv.2, i1⟩, h2⟩
      · simp at h
    · simp at h

/-- an integer is no byte string -/
theorem getBstr_none_of_int {v : Int} {bs r : Bytes} (h : getInt d bs = some (v, r)) : getBstr d bs = none := by
  unfold getBstr getStr
  split
  · rename_i m a r' h8
    unfold getInt at h
    split at h
    · rename_i h4
      have := (getHead_weak h4).symm.trans (getHead_weak h8)
      simp only [Option.some.injEq, Prod.mk.injEq] at this
      obtain ⟨rfl, rfl, rfl⟩ := this
      rw [if_neg]
      rintro ⟨rfl, -⟩
      split at h
      · simp at h
      · rw [if_neg (by omega), if_neg (by omega)] at h
        simp at h
    · simp at h
  · rfl

/-- what `decode_suites` takes for a single suite in a list without end -/
theorem elems_second {p : Bytes → Option (α × Bytes)} {n : Option Nat} {bs : Bytes} {fuel : Nat}
    (h : 2 ≤ (getElems p fuel n bs).1.length) {a : α} {r : Bytes} (h1 : p bs = some (a, r)) : ∃ x, p r = some x := by
  match fuel with
  | 0 => simp [getElems] at h
  | fuel + 1 =>
    rw [getElems] at h
    split at h
    · simp at h
    · rename_i n' hn
      rw [h1] at h
      simp only [List.length_cons] at h
      match fuel with
      | 0 => simp [getElems] at h
      | fuel + 1 =>
        rw [getElems] at h
        split at h
        · simp at h
        · split at h
          · simp at h
          · exact ⟨_, by assumption⟩

/-- The second case can only occur if lists of indefinite length are accepted: the first element of a list without end. -/
theorem getSuites_sound {more : Bool} {su : Suites} {bs r : Bytes} (h : (getSuites d more bs).1 = some (su, r)) :
    (∃ b, SuitesItem su b ∧ bs = b ++ r) ∨
      ∃ v x b, su = .one v ∧ IntItem v b ∧ bs = x ++ b ++ r ∧ d.indef = true ∧ more = true ∧ ∃ w, getInt d r = some w := by
  unfold getSuites at h
  split at h
  · rename_i n r1 h1
    have hc := h1
    obtain ⟨hd, i1, rfl⟩ := getContainer_sound (by omega) h1
    obtain ⟨es, i2, i3, h2⟩ := getElems_sound (p := getInt d) getInt_sound 3 n r1
    split at h
    rename_i l n' r' hl
    rw [hl] at i2 i3 h2
    split at h
    · rename_i h3
      split at h
      · rename_i r'' h4
        simp only [Option.some.injEq, Prod.mk.injEq] at h
        obtain ⟨rfl, rfl⟩ := h
        obtain ⟨c, i4, h5⟩ := container_of i1 i3 h4
        exact Or.inl ⟨c, ⟨h3, es, i2, i4⟩, by rw [h2, ← h5, List.append_assoc]⟩
      · split at h
        · rename_i v r2 h5
          simp only [Option.some.injEq, Prod.mk.injEq] at h
          obtain ⟨rfl, rfl⟩ := h
          obtain ⟨b, i5, h6⟩ := getInt_sound h5
          have h7 := elems_second (p := getInt d) (fuel := 3) (n := none) (by rw [hl]; exact h3) h5
          refine Or.inr ⟨v, hd, b, rfl, i5, by rw [h6, List.append_assoc], ?_, rfl, h7⟩
          unfold getContainer at hc
          split at hc
          · simp at hc
          · split at hc
            · split at hc
              · assumption
              · simp at hc
            · split at hc
              · split at hc <;> simp at hc
              · simp at hc
        · simp at h
    · simp at h
  · split at h
    · rename_i v r1 h1
      simp only [Option.some.injEq, Prod.mk.injEq] at h
      obtain ⟨rfl, rfl⟩ := h
      exact Or.inl (getInt_sound h1)
    · simp at h

/-- a successful decode of message_1 -/
theorem getMsg1_sound {bs : Bytes} {m : Msg1} (h : getMsg1 d bs = (true, m)) :
    ∃ b r, Message1 m b ∧ bs = b ++ r ∧ m.ead.length ≤ 3 := by
  unfold getMsg1 at h
  split at h
  · simp at h
  · rename_i me r1 h1
    obtain ⟨b1, i1, rfl⟩ := getInt_sound h1
    split at h
    · simp at h
    · rename_i su r2 l h2
      have hsu := getSuites_sound (d := d) (su := su) (r := r2) (by rw [h2])
      split at h
      · simp at h
      · rename_i gx r3 h3
        obtain ⟨b2, i2, rfl⟩ : ∃ b, SuitesItem su b ∧ r1 = b ++ r2 := by
          rcases hsu with hsu | ⟨-, -, -, -, -, -, -, -, ⟨_, _⟩, hn⟩
          · exact hsu
          · rw [getBstr_none_of_int hn] at h3; cases h3
        obtain ⟨b3, i3, rfl⟩ := getBstr_sound h3
        split at h
        · simp at h
        · rename_i ci r4 h4
          obtain ⟨b4, i4, rfl⟩ := getCid_sound h4
          simp only [Prod.mk.injEq, true_and] at h
          subst h
          obtain ⟨b5, i5, h5⟩ := getEad_sound (d := d) r4
          refine ⟨b1 ++ b2 ++ b3 ++ b4 ++ b5, (getEad d r4).2, ⟨b1, b2, b3, b4, b5, i1, i2, i3, i4, i5, rfl⟩, ?_,
            getEad_length _⟩
          simp only [List.append_assoc]
          rw [← h5]

theorem getMsgBstr_sound {s bs : Bytes} (h : getMsgBstr d bs = some s) : ∃ b r, BstrItem s b ∧ bs = b ++ r := by
  unfold getMsgBstr at h
  rw [Option.map_eq_some_iff] at h
  obtain ⟨⟨s', r⟩, h1, rfl⟩ := h
  obtain ⟨b, i1, h2⟩ := getBstr_sound h1
  exact ⟨b, r, i1, h2⟩

theorem getIntOrBstr_sound {v : IntOrBytes} {bs r : Bytes} (h : getIntOrBstr d bs = some (v, r)) :
    ∃ b, KidItem v b ∧ bs = b ++ r := by
  unfold getIntOrBstr at h
  split at h
  · rename_i h1
    simp only [Option.some.injEq, Prod.mk.injEq] at h
    obtain ⟨rfl, rfl⟩ := h
    exact getInt_sound h1
  · split at h
    · rename_i h1
      simp only [Option.some.injEq, Prod.mk.injEq] at h
      obtain ⟨rfl, rfl⟩ := h
      exact getBstr_sound h1
    · simp at h

theorem getIntOrTstr_sound {v : IntOrBytes} {bs r : Bytes} (h : getIntOrTstr d bs = some (v, r)) :
    ∃ b, AlgItem v b ∧ bs = b ++ r := by
  unfold getIntOrTstr at h
  split at h
  · rename_i h1
    simp only [Option.some.injEq, Prod.mk.injEq] at h
    obtain ⟨rfl, rfl⟩ := h
    exact getInt_sound h1
  · split at h
    · rename_i h1
      simp only [Option.some.injEq, Prod.mk.injEq] at h
      obtain ⟨rfl, rfl⟩ := h
      exact getTstr_sound h1
    · simp at h

theorem getX5chain_sound {x : X5chain} {bs r : Bytes} (h : getX5chain d bs = some (x, r)) :
    ∃ b, ChainItem x b ∧ bs = b ++ r := by
  unfold getX5chain at h
  split at h
  · rename_i h1
    simp only [Option.some.injEq, Prod.mk.injEq] at h
    obtain ⟨rfl, rfl⟩ := h
    exact getBstr_sound h1
  · split at h
    · simp at h
    · rename_i n r1 h1
      obtain ⟨hd, i1, rfl⟩ := getContainer_sound (by omega) h1
      obtain ⟨es, i2, i3, h2⟩ := getElems_sound (p := getBstr d) getBstr_sound 3 n r1
      split at h
      rename_i l n' r' hl
      rw [hl] at i2 i3 h2
      split at h
      · rename_i h3
        split at h
        · rename_i r'' h4
          simp only [Option.some.injEq, Prod.mk.injEq] at h
          obtain ⟨rfl, rfl⟩ := h
          obtain ⟨c, i4, h5⟩ := container_of i1 i3 h4
          exact ⟨c, ⟨h3, es, i2, i4⟩, by rw [h2, ← h5, List.append_assoc]⟩
        · simp at h
      · simp at h

theorem getCertHash_sound {p : IntOrBytes × Bytes} {bs r : Bytes} (h : getCertHash d bs = some (p, r)) :
    ∃ b, HashItem p b ∧ bs = b ++ r := by
  unfold getCertHash at h
  split at h
  · simp at h
  · rename_i n r0 h1
    obtain ⟨hd, i1, rfl⟩ := getContainer_sound (by omega) h1
    split at h
    · simp at h
    · rename_i n1 u1
      split at h
      · simp at h
      · rename_i a r1 h2
        obtain ⟨x, i2, rfl⟩ := getIntOrTstr_sound h2
        split at h
        · simp at h
        · rename_i n2 u2
          split at h
          · simp at h
          · rename_i fp r2 h3
            obtain ⟨y, i3, rfl⟩ := getBstr_sound h3
            split at h
            · rename_i r3 h4
              simp only [Option.some.injEq, Prod.mk.injEq] at h
              obtain ⟨rfl, rfl⟩ := h
              obtain ⟨c, i4, h5⟩ := container_of (elems := [x, y]) i1
                ((useElem_left u1).trans (useElem_left u2)) h4
              refine ⟨c, ⟨x, y, i2, i3, i4⟩, ?_⟩
              rw [← h5]; simp
            · simp at h

theorem getEntry_sound {α : Type} {k : Nat} {p : Bytes → Option (α × Bytes)} {R : α → Bytes → Prop}
    (hp : ∀ {a bs r}, p bs = some (a, r) → ∃ b, R a b ∧ bs = b ++ r) (n : Option Nat) (bs : Bytes) :
    ∃ l, Entry k R (getEntry d k p n bs).1 l ∧ Left n (getEntry d k p n bs).2.1 l.length ∧
      bs = (l.map fun q => q.1 ++ q.2).flatten ++ (getEntry d k p n bs).2.2 := by
  unfold getEntry
  split
  · exact ⟨[], rfl, Left.zero n, rfl⟩
  · rename_i n' hu
    split
    · exact ⟨[], rfl, Left.zero n, rfl⟩
    · rename_i r h1
      obtain ⟨x, i1, rfl⟩ := expectUint_sound h1
      split
      · exact ⟨[], rfl, Left.zero n, rfl⟩
      · rename_i a r' h2
        obtain ⟨y, i2, rfl⟩ := hp h2
        exact ⟨[(x, y)], ⟨x, y, i1, i2, rfl⟩, useElem_left hu, by simp⟩

theorem getCredMap_sound {m : CredMap} {bs r : Bytes} (h : getCredMap d bs = some (m, r)) :
    ∃ b, CredMapItem m b ∧ bs = b ++ r := by
  unfold getCredMap at h
  split at h
  · simp at h
  · rename_i n r0 h1
    obtain ⟨hd, i1, rfl⟩ := getContainer_sound (by omega) h1
    obtain ⟨x, e1, l1, q1⟩ := getEntry_sound (d := d) (k := 4) getIntOrBstr_sound n r0
    split at h
    rename_i k n1 r1 g1
    rw [g1] at e1 l1 q1
    obtain ⟨y, e2, l2, q2⟩ := getEntry_sound (d := d) (k := 33) getX5chain_sound n1 r1
    split at h
    rename_i c n2 r2 g2
    rw [g2] at e2 l2 q2
    obtain ⟨z, e3, l3, q3⟩ := getEntry_sound (d := d) (k := 34) getCertHash_sound n2 r2
    split at h
    rename_i t n3 r3 g3
    rw [g3] at e3 l3 q3
    split at h
    · rename_i r4 h4
      simp only [Option.some.injEq, Prod.mk.injEq] at h
      obtain ⟨rfl, rfl⟩ := h
      have hl : Left n n3 ((x ++ y ++ z).map fun q => q.1 ++ q.2).length := by
        rw [List.length_map, List.length_append, List.length_append]
        exact (l1.trans l2).trans l3
      obtain ⟨b, i4, h5⟩ := container_of i1 hl h4
      refine ⟨b, ⟨x, y, z, e1, e2, e3, ?_⟩, ?_⟩
      · rcases i4 with ⟨hd', j1, j2⟩ | j
        · exact Or.inl ⟨hd', by simpa using j1, j2⟩
        · exact Or.inr j
      · rw [← h5]
        simp only at q1 q2 q3
        rw [q1, q2, q3]
        simp
    · simp at h

theorem getIdCred_sound {i : IdCred} {bs r : Bytes} (h : getIdCred d bs = some (i, r)) :
    ∃ b, IdCredItem i b ∧ bs = b ++ r := by
  unfold getIdCred at h
  split at h
  · rename_i h1
    simp only [Option.some.injEq, Prod.mk.injEq] at h
    obtain ⟨rfl, rfl⟩ := h
    exact getInt_sound h1
  · split at h
    · rename_i h1
      simp only [Option.some.injEq, Prod.mk.injEq] at h
      obtain ⟨rfl, rfl⟩ := h
      exact getBstr_sound h1
    · split at h
      · rename_i h1
        simp only [Option.some.injEq, Prod.mk.injEq] at h
        obtain ⟨rfl, rfl⟩ := h
        exact getCredMap_sound h1
      · simp at h

theorem getPtxt3_sound {p : Ptxt} {bs : Bytes} (h : getPtxt3 d bs = some p) :
    p.ead.length ≤ 3 ∧ ∃ b r, Plaintext3 p b ∧ bs = b ++ r := by
  unfold getPtxt3 at h
  split at h
  · simp at h
  · rename_i i r1 h1
    obtain ⟨x, i1, rfl⟩ := getIdCred_sound h1
    split at h
    · simp at h
    · rename_i s r2 h2
      obtain ⟨y, i2, rfl⟩ := getBstr_sound h2
      simp only [Option.some.injEq] at h
      subst h
      obtain ⟨z, i3, h3⟩ := getEad_sound (d := d) r2
      refine ⟨getEad_length _, x ++ y ++ z, (getEad d r2).2, ⟨x, y, z, i1, i2, i3, rfl⟩, ?_⟩
      simp only [List.append_assoc]
      rw [← h3]

theorem getPtxt2_sound {c : Cid} {p : Ptxt} {bs : Bytes} (h : getPtxt2 d bs = some (c, p)) :
    p.ead.length ≤ 3 ∧ ∃ b r, Plaintext2 c p b ∧ bs = b ++ r := by
  unfold getPtxt2 at h
  split at h
  · simp at h
  · rename_i c' r1 h1
    obtain ⟨x, i1, rfl⟩ := getCid_sound h1
    split at h
    · simp at h
    · rename_i p' h2
      simp only [Option.some.injEq, Prod.mk.injEq] at h
      obtain ⟨rfl, rfl⟩ := h
      obtain ⟨l, y, r, i2, rfl⟩ := getPtxt3_sound h2
      exact ⟨l, x ++ y, r, ⟨x, y, i1, i2, rfl⟩, by simp⟩

theorem getPtxt4_sound (bs : Bytes) :
    (getPtxt4 d bs).length ≤ 3 ∧ ∃ b r, Plaintext4 (getPtxt4 d bs) b ∧ bs = b ++ r := by
  obtain ⟨b, h1, h2⟩ := getEad_sound (d := d) bs
  exact ⟨getEad_length _, b, _, h1, h2⟩

theorem getErrInfo_sound {i : ErrInfo} {bs r : Bytes} (h : getErrInfo d bs = some (i, r)) :
    ∃ b, ErrInfoItem i b ∧ bs = b ++ r := by
  unfold getErrInfo at h
  split at h
  · rename_i h1
    simp only [Option.some.injEq, Prod.mk.injEq] at h
    obtain ⟨rfl, rfl⟩ := h
    exact getTstr_sound h1
  · split at h
    · rename_i h1
      simp only [Option.some.injEq, Prod.mk.injEq] at h
      obtain ⟨rfl, rfl⟩ := h
      rcases getSuites_sound h1 with h2 | ⟨v, x, b, rfl, h2, h3, h4, h5, -⟩
      · exact h2
      · simp at h5
    · split at h
      · rename_i r1 h1
        simp only [Option.some.injEq, Prod.mk.injEq] at h
        obtain ⟨rfl, rfl⟩ := h
        refine ⟨[0xF5], rfl, ?_⟩
        unfold expectTrue at h1
        split at h1
        · split at h1
          · rename_i hb
            simp only [Option.some.injEq] at h1
            subst h1 hb; rfl
          · simp at h1
        · simp at h1
      · simp at h

/-! ## What failed decoders leave behind -/

theorem longHead_of {m a : Nat} {bs r : Bytes} (h1 : getHead true 8 bs = none) (h2 : getHead false 8 bs = some (m, a, r)) :
    ∃ hd hd', Head m a hd ∧ bs = hd ++ r ∧ Head m a hd' ∧ hd'.length < hd.length := by
  obtain ⟨hd, h3, h4⟩ := getHead_sound h2
  refine ⟨hd, ?_⟩
  have hl : bs.length = hd.length + r.length := by rw [h4, List.length_append]
  suffices h : ∃ hd', Head m a hd' ∧ hd'.length + r.length < bs.length by
    obtain ⟨hd', h5, h6⟩ := h
    exact ⟨hd', h3, h4, h5, by omega⟩
  clear h3 h4 hl
  cases bs with
  | nil => simp [getHead] at h2
  | cons b t =>
    simp only [getHead] at h1 h2
    split at h2
    · rename_i h; rw [if_pos h] at h1; simp at h1
    rename_i h; rw [if_neg h] at h1
    split at h2
    · simp at h2
    rename_i h27; rw [if_neg h27] at h1
    split at h2
    · simp at h2
    rename_i h8; rw [if_neg h8] at h1
    split at h2
    · simp at h2
    rename_i hlen; rw [if_neg hlen] at h1
    simp only [Bool.false_and, Bool.false_eq_true, if_false, Option.some.injEq, Prod.mk.injEq] at h2
    obtain ⟨rfl, hv, rfl⟩ := h2
    rw [hv] at h1
    simp only [Bool.true_and, decide_eq_true_eq, ite_eq_left_iff, reduceCtorEq, imp_false, Decidable.not_not] at h1
    have hc : b.toNat % 32 - 24 = 0 ∨ b.toNat % 32 - 24 = 1 ∨ b.toNat % 32 - 24 = 2 ∨ b.toNat % 32 - 24 = 3 := by omega
    generalize b.toNat / 32 = m at *
    simp only [List.length_cons, List.length_drop]
    rcases hc with hk | hk | hk | hk <;> rw [hk] at h1 hlen ⊢ <;> simp only [minArg] at h1
    · exact ⟨_, .short h1, by simp only [List.length_cons, List.length_nil]; omega⟩
    · exact ⟨_, .long 0 (by omega) h1, by simp only [List.length_cons, beBytes_length]; omega⟩
    · exact ⟨_, .long 1 (by omega) h1, by simp only [List.length_cons, beBytes_length]; omega⟩
    · exact ⟨_, .long 2 (by omega) h1, by simp only [List.length_cons, beBytes_length]; omega⟩

theorem stale_sound {bs : Bytes} (h : stale d bs ≠ 0) : d.early = true ∧ Broken bs := by
  unfold stale at h
  split at h
  · simp at h
  rename_i hb
  split at h
  · rename_i he
    refine ⟨he, ?_⟩
    split at h
    · rename_i m a r h2
      split at h
      · rename_i hm
        subst hm
        unfold getBstr getStr at hb
        split at hb
        · rename_i m' a' r' h3
          have := h2.symm.trans (getHead_weak h3)
          simp only [Option.some.injEq, Prod.mk.injEq] at this
          obtain ⟨rfl, rfl, rfl⟩ := this
          obtain ⟨hd, h4, h5⟩ := getHead_sound h2
          refine ⟨a, hd, r, Nat.pos_of_ne_zero h, h4, h5, Or.inl ?_⟩
          split at hb
          · simp at hb
          · omega
        · rename_i h3
          cases hs : d.strict with
          | false => rw [hs, h2] at h3; simp at h3
          | true =>
            rw [hs] at h3
            obtain ⟨hd, hd', h4, h5, h6, h7⟩ := longHead_of h3 h2
            exact ⟨a, hd, r, Nat.pos_of_ne_zero h, h4, h5, Or.inr ⟨hd', h6, h7⟩⟩
      · simp at h
    · simp at h
  · simp at h

theorem staleEad_sound {f : Nat} {bs : Bytes} (h : staleEad d f bs ≠ 0) :
    d.early = true ∧ ∃ ts b t, ts ≠ [] ∧ SeqOf EadItem ts b ∧ bs = b ++ t ∧ Broken t := by
  induction f generalizing bs with
  | zero => simp [staleEad] at h
  | succ f ih =>
    unfold staleEad at h
    split at h
    · simp at h
    · rename_i l r h1
      obtain ⟨x, i1, rfl⟩ := getInt_sound h1
      split at h
      · rename_i v r' h2
        obtain ⟨y, i2, rfl⟩ := getBstr_sound h2
        obtain ⟨he, ts, b, t, -, ⟨es, i3, rfl⟩, rfl, ht⟩ := ih h
        exact ⟨he, ⟨l, some v⟩ :: ts, _, t, by simp, ⟨(x ++ y) :: es, .cons ⟨x, y, i1, rfl, i2⟩ i3, rfl⟩,
          by simp only [List.flatten_cons, List.append_assoc], ht⟩
      · split at h
        · obtain ⟨he, ts, b, t, -, ⟨es, i3, rfl⟩, rfl, ht⟩ := ih h
          exact ⟨he, ⟨l, none⟩ :: ts, _, t, by simp, ⟨x :: es, .cons ⟨x, [], i1, by simp, rfl⟩ i3, rfl⟩,
            by simp only [List.flatten_cons, List.append_assoc], ht⟩
        · obtain ⟨he, hb⟩ := stale_sound h
          exact ⟨he, [⟨l, none⟩], x, r, by simp, ⟨[x], .cons ⟨x, [], i1, by simp, rfl⟩ .nil, by simp⟩, rfl, hb⟩

theorem stalePtxt3_sound {bs : Bytes} (h : stalePtxt3 d bs ≠ 0) :
    d.early = true ∧ ∃ q b t, q.ead ≠ [] ∧ Plaintext3 q b ∧ bs = b ++ t ∧ Broken t := by
  unfold stalePtxt3 at h
  split at h
  · simp at h
  · rename_i i r h1
    obtain ⟨x, i1, rfl⟩ := getIdCred_sound h1
    split at h
    · simp at h
    · rename_i sig r' h2
      obtain ⟨y, i2, rfl⟩ := getBstr_sound h2
      obtain ⟨he, ts, b, t, h0, h3, rfl, ht⟩ := staleEad_sound h
      exact ⟨he, ⟨i, sig, ts⟩, x ++ y ++ b, t, h0, ⟨x, y, b, i1, i2, h3, rfl⟩, by simp only [List.append_assoc], ht⟩

theorem stalePtxt2_sound {bs : Bytes} (h : stalePtxt2 d bs ≠ 0) :
    d.early = true ∧ ∃ c q b t, q.ead ≠ [] ∧ Plaintext2 c q b ∧ bs = b ++ t ∧ Broken t := by
  unfold stalePtxt2 at h
  split at h
  · simp at h
  · rename_i c r h1
    obtain ⟨x, i1, rfl⟩ := getCid_sound h1
    obtain ⟨he, q, b, t, h0, h3, rfl, ht⟩ := stalePtxt3_sound h
    exact ⟨he, c, q, x ++ b, t, h0, ⟨x, b, i1, h3, rfl⟩, by simp only [List.append_assoc], ht⟩

/-- where the decoder of message_1 has stopped -/
theorem staleMsg1_sound {bs : Bytes} (h : staleMsg1 d bs ≠ (0, 0, 0)) : d.early = true ∧
    ((∃ me su x y t, IntItem me x ∧ SuitesItem su y ∧ bs = x ++ y ++ t ∧ Broken t) ∨
      (∃ me su gx x y z t, IntItem me x ∧ SuitesItem su y ∧ BstrItem gx z ∧ bs = x ++ y ++ z ++ t ∧ Broken t) ∨
      ∃ m b t, m.ead ≠ [] ∧ Message1 m b ∧ bs = b ++ t ∧ Broken t) := by
  unfold staleMsg1 at h
  split at h
  · simp at h
  · rename_i me r1 h1
    obtain ⟨x, i1, rfl⟩ := getInt_sound h1
    split at h
    · simp at h
    · rename_i su r2 h2
      have hsu := getSuites_sound h2
      split at h
      · rename_i h3
        have hs : stale d r2 ≠ 0 := by simpa using h
        obtain ⟨he, hb⟩ := stale_sound hs
        rcases hsu with ⟨y, i2, rfl⟩ | ⟨-, -, -, -, -, -, -, -, ⟨_, _⟩, hn⟩
        · exact ⟨he, Or.inl ⟨me, su, x, y, r2, i1, i2, by simp only [List.append_assoc], hb⟩⟩
        · exact absurd (stale_of_int hn) hs
      · rename_i gx r3 h3
        obtain ⟨y, i2, rfl⟩ : ∃ b, SuitesItem su b ∧ r1 = b ++ r2 := by
          rcases hsu with hsu | ⟨-, -, -, -, -, -, -, -, ⟨_, _⟩, hn⟩
          · exact hsu
          · rw [getBstr_none_of_int hn] at h3; cases h3
        obtain ⟨z, i3, rfl⟩ := getBstr_sound h3
        split at h
        · have hs : stale d r3 ≠ 0 := by simpa using h
          obtain ⟨he, hb⟩ := stale_sound hs
          exact ⟨he, Or.inr (Or.inl ⟨me, su, gx, x, y, z, r3, i1, i2, i3, by simp only [List.append_assoc], hb⟩)⟩
        · rename_i c r4 h4
          obtain ⟨w, i4, rfl⟩ := getCid_sound h4
          obtain ⟨he, ts, b, t, h0, h5, rfl, ht⟩ := staleEad_sound (by simpa using h)
          exact ⟨he, Or.inr (Or.inr ⟨⟨me, su, gx, c, ts⟩, x ++ y ++ z ++ w ++ b, t, h0,
            ⟨x, y, z, w, b, i1, i2, i3, i4, h5, rfl⟩, by simp only [List.append_assoc], ht⟩)⟩

end Verif
