import Verif.Gen.Decode
import Verif.CborSound

/-!
# Lemmas about the zcbor runtime
-/

namespace Verif.Gen

variable {ρ α : Type} {d : DecCfg}

theorem seq_true {f g : Dec ρ} {s s' : State} {r r' : ρ} (h : f s r = (true, s', r')) : f.and g s r = g s' r' := by
  simp only [Dec.and, h]

theorem seq_false {f g : Dec ρ} {s s' : State} {r r' : ρ} (h : f s r = (false, s', r')) :
    f.and g s r = (false, s', r') := by
  simp only [Dec.and, h]

theorem alt_true {f g : Dec ρ} {s s' : State} {r r' : ρ} (h : f s r = (true, s', r')) : f.or g s r = (true, s', r') := by
  simp only [Dec.or, h]

theorem alt_false {f g : Dec ρ} {s s' : State} {r r' : ρ} (h : f s r = (false, s', r')) : f.or g s r = g s' r' := by
  simp only [Dec.or, h]

theorem into_eq {f : Dec α} {get : ρ → α} {put : α → ρ → ρ} {s s' : State} {r : ρ} {a : α} {b : Bool}
    (h : f s (get r) = (b, s', a)) : f.into get put s r = (b, s', put a r) := by
  simp only [Dec.into, h]

theorem noting_eq {f : Dec ρ} {put : Bool → ρ → ρ} {s s' : State} {r r' : ρ} {b : Bool} (h : f s r = (b, s', r')) :
    f.noting put s r = (true, s', put b r') := by
  simp only [Dec.noting, h]

theorem unionEnd_eq {f : Dec ρ} {s : State} {c t : Frame} {B : List Frame} {R : Nat} {r r' : ρ} {b : Bool}
    (h : f s r = (b, ⟨c, t :: B, R⟩, r')) : f.unionEnd s r = (b, ⟨c, B, R⟩, r') := by
  simp [Dec.unionEnd, h, State.process]

theorem orForce_true {f : Dec ρ} {s s' : State} {r r' : ρ} (h : f s r = (true, s', r')) :
    f.orForce s r = (true, s', r') := by
  simp only [Dec.orForce, h]

theorem orForce_false {f : Dec ρ} {s : State} {c t : Frame} {B : List Frame} {R : Nat} {r r' : ρ}
    (h : f s r = (false, ⟨c, t :: B, R⟩, r')) : f.orForce s r = (false, ⟨t, B, R⟩, r') := by
  simp only [Dec.orForce, h, State.process]
  split <;> rfl

theorem assign_eq {f : ρ → ρ} {s : State} {r : ρ} : assign f s r = (true, s, f r) := rfl

theorem check_eq {p : ρ → Bool} {b : Bool} {s : State} {r : ρ} (h : p r = b) : check p s r = (b, s, r) := by
  simp [check, h]

/-! ## Items -/

theorem int32_zero {bs : Bytes} {i : Bool} {B : List Frame} {R : Nat} {x : Int} :
    int32 d ⟨⟨bs, 0, i⟩, B, R⟩ x = (false, ⟨⟨bs, 0, i⟩, B, R⟩, x) := rfl

theorem int32_some {bs r : Bytes} {e : Nat} {i : Bool} {B : List Frame} {R : Nat} {v x : Int} (he : e ≠ 0)
    (h : getInt d bs = some (v, r)) : int32 d ⟨⟨bs, e, i⟩, B, R⟩ x = (true, ⟨⟨r, e - 1, i⟩, B, R⟩, v) := by
  simp [int32, he, h, State.eat]

/-- what a failed `zcbor_int32_decode` leaves behind -/
def leftInt (d : DecCfg) (bs : Bytes) (x : Int) : Int := if startsInt bs then d.junk bs else x

theorem int32_none {bs : Bytes} {e : Nat} {i : Bool} {B : List Frame} {R : Nat} {x : Int} (he : e ≠ 0)
    (h : getInt d bs = none) : int32 d ⟨⟨bs, e, i⟩, B, R⟩ x = (false, ⟨⟨bs, e, i⟩, B, R⟩, leftInt d bs x) := by
  simp [int32, he, h, leftInt]

/-- what a failed `zcbor_bstr_decode` or `zcbor_tstr_decode` leaves behind -/
def leftStr (d : DecCfg) (m : Nat) (bs : Bytes) (x : ZStr) : ZStr :=
  if d.early then
    match getHead false 8 bs with
    | some (m', a, _) => if m' = m then { x with len := a } else x
    | none => x
  else x

theorem leftStr_ptr (m : Nat) (bs : Bytes) (x : ZStr) : (leftStr d m bs x).ptr = x.ptr := by
  unfold leftStr
  split
  · split
    · split <;> rfl
    · rfl
  · rfl

theorem str_some {m : Nat} {bs b r : Bytes} {e : Nat} {i : Bool} {B : List Frame} {R : Nat} {x : ZStr} (he : e ≠ 0)
    (h : getStr d m bs = some (b, r)) :
    str d m ⟨⟨bs, e, i⟩, B, R⟩ x = (true, ⟨⟨r, e - 1, i⟩, B, R⟩, ⟨b.length, some b⟩) := by
  simp [str, he, h, State.eat]

theorem str_none {m : Nat} {bs : Bytes} {e : Nat} {i : Bool} {B : List Frame} {R : Nat} {x : ZStr} (he : e ≠ 0)
    (h : getStr d m bs = none) :
    str d m ⟨⟨bs, e, i⟩, B, R⟩ x = (false, ⟨⟨bs, e, i⟩, B, R⟩, leftStr d m bs x) := by
  simp only [str, he, h, if_false]
  rfl

theorem str_zero {m : Nat} {bs : Bytes} {i : Bool} {B : List Frame} {R : Nat} {x : ZStr} :
    str d m ⟨⟨bs, 0, i⟩, B, R⟩ x = (false, ⟨⟨bs, 0, i⟩, B, R⟩, x) := rfl

@[simp] theorem bytes_some (b : Bytes) : ZStr.bytes ⟨b.length, some b⟩ = b := by simp [ZStr.bytes]

@[simp] theorem over_some (b : Bytes) (n : Nat) : ZStr.over ⟨n, some b⟩ = 0 := by simp [ZStr.over]

theorem bytes_left (m : Nat) (bs : Bytes) : (leftStr d m bs .zero).bytes = [] := by
  have h : (leftStr d m bs .zero).ptr = none := leftStr_ptr ..
  simp [ZStr.bytes, h]

theorem over_left {bs : Bytes} (h : getBstr d bs = none) : (leftStr d 2 bs .zero).over = stale d bs := by
  have hp : (leftStr d 2 bs .zero).ptr = none := leftStr_ptr ..
  simp only [ZStr.over, hp, if_true, stale, h]
  unfold leftStr
  split
  · split
    · rename_i hh
      rw [hh]
      simp only
      split <;> rfl
    · rename_i hh
      rw [hh]; rfl
  · rfl

theorem uint32_some {v : Nat} {bs r : Bytes} {e : Nat} {i : Bool} {B : List Frame} {R : Nat} {x : ρ} (he : e ≠ 0)
    (h : expectUint d v bs = some r) : uint32Expect d v ⟨⟨bs, e, i⟩, B, R⟩ x = (true, ⟨⟨r, e - 1, i⟩, B, R⟩, x) := by
  simp [uint32Expect, he, h, State.eat]

theorem uint32_none {v : Nat} {s : State} {x : ρ} (h : expectUint d v s.cur.payload = none) :
    uint32Expect d v s x = (false, s, x) := by
  simp only [uint32Expect, h]
  split <;> rfl

theorem uint32_zero {v : Nat} {s : State} {x : ρ} (h : s.cur.elems = 0) : uint32Expect d v s x = (false, s, x) := by
  simp [uint32Expect, h]

/-! ## Unions and containers -/

theorem unionStart_eq {c : Frame} {B : List Frame} {R : Nat} {x : ρ} (h : B.length < R) :
    unionStart ⟨c, B, R⟩ x = (true, ⟨c, c :: B, R⟩, x) := by
  have : ¬ R ≤ B.length := by omega
  simp [unionStart, lift, State.newBackup, this]

theorem unionElem_eq {c t : Frame} {B : List Frame} {R : Nat} {x : ρ} :
    unionElem ⟨c, t :: B, R⟩ x = (true, ⟨t, t :: B, R⟩, x) := by
  simp [unionElem, lift, State.process]

theorem containerStart_some {m : Nat} {bs r : Bytes} {n : Option Nat} {e : Nat} {i : Bool} {B : List Frame} {R : Nat} {x : ρ}
    (he : e ≠ 0) (hB : B.length < R) (h : getContainer d m bs = some (n, r)) :
    containerStart d m ⟨⟨bs, e, i⟩, B, R⟩ x =
      (true, ⟨⟨r, n.getD largeElems, n.isNone⟩, ⟨r, e - 1, i⟩ :: B, R⟩, x) := by
  have : ¬ R ≤ B.length := by omega
  simp [containerStart, lift, he, h, State.newBackup, State.eat, this]

theorem containerStart_none {m : Nat} {s : State} {x : ρ} (h : getContainer d m s.cur.payload = none) :
    containerStart d m s x = (false, s, x) := by
  simp only [containerStart, lift, h]
  split <;> rfl

theorem containerStart_zero {m : Nat} {s : State} {x : ρ} (h : s.cur.elems = 0) :
    containerStart d m s x = (false, s, x) := by
  simp [containerStart, lift, h]

/-- The element count `e` of the runtime is that of the schema, `n`, where each element of the schema counts `c` times; at
least `k` more can be read from a container of indefinite length. -/
def Cnt (c : Nat) (n : Option Nat) (e : Nat) (i : Bool) (k : Nat) : Prop :=
  match n with
  | some m => e = c * m ∧ i = false
  | none => k ≤ e ∧ e ≤ largeElems ∧ i = true

theorem containerEnd_some {c : Nat} {n : Option Nat} {bs r : Bytes} {e k : Nat} {i : Bool} {t : Frame} {B : List Frame}
    {R : Nat} {x : ρ} (hn : Cnt c n e i k) (h : endContainer n bs = some r) :
    containerEnd ⟨⟨bs, e, i⟩, t :: B, R⟩ x = (true, ⟨{ t with payload := r }, B, R⟩, x) := by
  match n, bs, h with
  | some 0, bs, h =>
    obtain ⟨rfl, rfl⟩ := hn
    simp only [endContainer, Option.some.injEq] at h
    subst h
    simp [containerEnd, lift, State.process]
  | none, b :: bs, h =>
    obtain ⟨_, h2, rfl⟩ := hn
    simp only [endContainer] at h
    split at h
    · rename_i hb
      simp only [Option.some.injEq] at h
      subst h hb
      have : ¬ largeElems < e := by omega
      simp [containerEnd, lift, State.process, this]
    · simp at h

theorem containerEnd_none {c : Nat} (hc : 0 < c) {n : Option Nat} {bs : Bytes} {e k : Nat} {i : Bool} {t : Frame} {B : List Frame}
    {R : Nat} {x : ρ} (hn : Cnt c n e i k) (h : endContainer n bs = none) :
    containerEnd ⟨⟨bs, e, i⟩, t :: B, R⟩ x =
      (false, if n.isSome then ⟨t, B, R⟩ else ⟨⟨bs, e, i⟩, t :: B, R⟩, x) := by
  match n, bs, h with
  | some (m + 1), bs, _ =>
    obtain ⟨rfl, rfl⟩ := hn
    have : 0 < c * (m + 1) := Nat.mul_pos hc (by omega)
    simp [containerEnd, lift, State.process, this]
  | none, [], _ =>
    obtain ⟨_, h2, rfl⟩ := hn
    simp [containerEnd, lift]
  | none, b :: bs, h =>
    obtain ⟨_, h2, rfl⟩ := hn
    simp only [endContainer] at h
    split at h
    · simp at h
    · rename_i hb
      simp [containerEnd, lift, hb]

theorem Cnt.start (n : Option Nat) {k : Nat} (hk : k ≤ largeElems) : Cnt 1 n (n.getD largeElems) n.isNone k := by
  cases n with
  | none => exact ⟨hk, Nat.le_refl _, rfl⟩
  | some m => exact ⟨by simp, rfl⟩

/-! ## Lists -/

/-- A decoder that reads one element with `p` and leaves the state alone if it fails. -/
def Reads {α β : Type} (f : Dec β) (p : Bytes → Option (α × Bytes)) (w : α → β) : Prop :=
  (∀ bs e i B R x, e ≠ 0 → ∀ v r, p bs = some (v, r) → f ⟨⟨bs, e, i⟩, B, R⟩ x = (true, ⟨⟨r, e - 1, i⟩, B, R⟩, w v)) ∧
  (∀ bs e i B R x, e = 0 ∨ p bs = none → ∃ y, f ⟨⟨bs, e, i⟩, B, R⟩ x = (false, ⟨⟨bs, e, i⟩, B, R⟩, y))

theorem int32_reads : Reads (int32 d) (getInt d) id := by
  refine ⟨fun bs e i B R x he v r h => int32_some he h, fun bs e i B R x h => ?_⟩
  rcases Nat.eq_zero_or_pos e with rfl | he
  · exact ⟨_, int32_zero⟩
  · exact ⟨_, int32_none (by omega) (h.resolve_left (by omega))⟩

/-- a string as it is read -/
def zstr (b : Bytes) : ZStr := ⟨b.length, some b⟩

theorem str_reads (m : Nat) : Reads (str d m) (getStr d m) zstr := by
  refine ⟨fun bs e i B R x he v r h => str_some he h, fun bs e i B R x h => ?_⟩
  rcases Nat.eq_zero_or_pos e with rfl | he
  · exact ⟨_, str_zero⟩
  · exact ⟨_, str_none (by omega) (h.resolve_left (by omega))⟩

theorem multiGo_elems {α β : Type} {f : Dec β} {p : Bytes → Option (α × Bytes)} {w : α → β} {zero : β} (hf : Reads f p w) :
    ∀ (fuel : Nat) (n : Option Nat) (bs : Bytes) (e : Nat) (i : Bool) (B : List Frame) (R : Nat) (done rest : List β),
      Cnt 1 n e i fuel → fuel ≤ rest.length →
      ∃ rest', multiGo f zero fuel done.length ⟨⟨bs, e, i⟩, B, R⟩ (done ++ rest) =
        (done.length + (getElems p fuel n bs).1.length,
          ⟨⟨(getElems p fuel n bs).2.2, e - (getElems p fuel n bs).1.length, i⟩, B, R⟩,
          done ++ (getElems p fuel n bs).1.map w ++ rest') ∧
        Cnt 1 (getElems p fuel n bs).2.1 (e - (getElems p fuel n bs).1.length) i 0 := by
  intro fuel
  induction fuel with
  | zero =>
    intro n bs e i B R done rest hn _
    refine ⟨rest, by simp [multiGo, getElems], ?_⟩
    cases n <;> simpa [getElems, Cnt] using hn
  | succ fuel ih =>
    intro n bs e i B R done rest hn hr
    obtain ⟨z, rest, rfl⟩ : ∃ z t, rest = z :: t := by
      cases rest with
      | nil => simp at hr
      | cons z t => exact ⟨z, t, rfl⟩
    have hn0 : Cnt 1 n e i 0 := by
      cases n with
      | none => exact ⟨Nat.zero_le _, hn.2.1, hn.2.2⟩
      | some m => exact hn
    have fail : e = 0 ∨ p bs = none → getElems p (fuel + 1) n bs = ([], n, bs) →
        ∃ rest', multiGo f zero (fuel + 1) done.length ⟨⟨bs, e, i⟩, B, R⟩ (done ++ z :: rest) =
          (done.length + (getElems p (fuel + 1) n bs).1.length,
            ⟨⟨(getElems p (fuel + 1) n bs).2.2, e - (getElems p (fuel + 1) n bs).1.length, i⟩, B, R⟩,
            done ++ (getElems p (fuel + 1) n bs).1.map w ++ rest') ∧
          Cnt 1 (getElems p (fuel + 1) n bs).2.1 (e - (getElems p (fuel + 1) n bs).1.length) i 0 := by
      intro h1 h2
      obtain ⟨y, hy⟩ := hf.2 bs e i B R ((done ++ z :: rest).getD done.length zero) h1
      rw [h2]
      refine ⟨y :: rest, ?_, by simpa using hn0⟩
      simp only [multiGo, hy]
      simp
    cases hu : useElem n with
    | none =>
      have he : e = 0 := by
        match n, hu with
        | some 0, _ => simpa using hn.1
      exact fail (Or.inl he) (by simp [getElems, hu])
    | some n' =>
      cases hp : p bs with
      | none => exact fail (Or.inr hp) (by simp [getElems, hu, hp])
      | some v =>
        obtain ⟨v, r⟩ := v
        have he : e ≠ 0 ∧ Cnt 1 n' (e - 1) i fuel := by
          match n, hu with
          | some (m + 1), hu =>
            simp only [useElem, Option.some.injEq] at hu
            subst hu
            obtain ⟨rfl, rfl⟩ := hn
            exact ⟨by omega, by omega, rfl⟩
          | none, hu =>
            simp only [useElem, Option.some.injEq] at hu
            subst hu
            obtain ⟨h1, h2, rfl⟩ := hn
            exact ⟨by omega, by omega, by omega, rfl⟩
        obtain ⟨rest', h1, h2⟩ := ih n' r (e - 1) i B R (done ++ [w v]) rest he.2 (by simpa using hr)
        have hg : getElems p (fuel + 1) n bs = (v :: (getElems p fuel n' r).1, (getElems p fuel n' r).2) := by
          simp [getElems, hu, hp]
        have hset : (done ++ z :: rest).set done.length (w v) = done ++ [w v] ++ rest := by simp
        have hlen : done.length + 1 = (done ++ [w v]).length := by simp
        have e1 : e - 1 - (getElems p fuel n' r).1.length = e - ((getElems p fuel n' r).1.length + 1) := by omega
        rw [hg]
        refine ⟨rest', ?_, ?_⟩
        · simp only [multiGo, hf.1 bs e i B R _ he.1 v r hp]
          rw [hset, hlen, h1, e1]
          simp only [List.length_append, List.length_cons, List.length_nil, List.map_cons, List.append_assoc, List.singleton_append,
            Prod.mk.injEq, and_true]
          omega
        · simp only [List.length_cons]
          rw [← e1]
          exact h2

theorem multi_elems {α β : Type} {f : Dec β} {p : Bytes → Option (α × Bytes)} {w : α → β} {zero : β} (hf : Reads f p w) {k most : Nat}
    {n : Option Nat} {bs : Bytes} {e : Nat} {i : Bool} {B : List Frame} {R : Nat} {a : List β × Nat} (hn : Cnt 1 n e i most)
    (ha : most ≤ a.1.length) :
    ∃ rest', multi f zero k most ⟨⟨bs, e, i⟩, B, R⟩ a =
        (decide (k ≤ (getElems p most n bs).1.length),
          ⟨⟨(getElems p most n bs).2.2, e - (getElems p most n bs).1.length, i⟩, B, R⟩,
          ((getElems p most n bs).1.map w ++ rest', (getElems p most n bs).1.length)) ∧
        Cnt 1 (getElems p most n bs).2.1 (e - (getElems p most n bs).1.length) i 0 := by
  obtain ⟨rest', h1, h2⟩ := multiGo_elems (zero := zero) hf most n bs e i B R [] a.1 hn ha
  refine ⟨rest', ?_, h2⟩
  simp only [List.length_nil, List.nil_append, Nat.zero_add] at h1
  simp only [multi, h1]

end Verif.Gen
