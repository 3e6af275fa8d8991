import Verif.Gen.Basics

/-!
# The generated decoder of message_1 and the schema
-/

namespace Verif.Gen

variable {d : DecCfg}

theorem getContainer_notInt {n : Option Nat} {bs r : Bytes} (h : getContainer d 4 bs = some (n, r)) :
    startsInt bs = false ∧ getInt d bs = none := by
  obtain ⟨b, t, rfl, hb⟩ : ∃ b t, bs = b :: t ∧ b.toNat / 32 = 4 := by
    unfold getContainer at h
    split at h
    · simp at h
    · rename_i b t
      refine ⟨b, t, rfl, ?_⟩
      split at h
      · omega
      · split at h
        · rename_i m' a r' hh
          have : m' = b.toNat / 32 := by
            simp only [getHead] at hh
            repeat' split at hh
            all_goals first | (simp at hh; done) | (simp only [Option.some.injEq, Prod.mk.injEq] at hh; exact hh.1.symm)
          split at h
          · omega
          · simp at h
        · simp at h
  refine ⟨by simp [startsInt, hb], ?_⟩
  unfold getInt
  split
  · rename_i m a r' hh
    have : m = b.toNat / 32 := by
      simp only [getHead] at hh
      repeat' split at hh
      all_goals first | (simp at hh; done) | (simp only [Option.some.injEq, Prod.mk.injEq] at hh; exact hh.1.symm)
    split
    · rfl
    · rw [if_neg (by omega), if_neg (by omega)]
  · rfl

/-- How `decode_suites` ends when it succeeds: either as it should, or behind the first element of a list that has no end. -/
def SuitesDone (d : DecCfg) (e : Nat) (i : Bool) (B : List Frame) (rest : Bytes) (s : State) (R : Nat) : Prop :=
  s = ⟨⟨rest, e - 1, i⟩, B, R⟩ ∨ (s.cur.payload = rest ∧ ∃ w, getInt d rest = some w)

theorem decodeSuites_some {bs rest : Bytes} {e : Nat} {i : Bool} {B : List Frame} {R : Nat} {su : Suites} {l : List Int}
    (he : e ≠ 0) (hB : B.length + 2 ≤ R) (h : getSuites d (decide (2 ≤ e)) bs = (some (su, rest), l)) :
    ∃ s r, decodeSuites d ⟨⟨bs, e, i⟩, B, R⟩ .zero = (true, s, r) ∧ r.value = su ∧ SuitesDone d e i B rest s R := by
  have hu : unionStart ⟨⟨bs, e, i⟩, B, R⟩ SuitesR.zero = (true, ⟨⟨bs, e, i⟩, ⟨bs, e, i⟩ :: B, R⟩, .zero) := unionStart_eq (by omega)
  unfold decodeSuites
  rw [seq_true hu]
  unfold getSuites at h
  cases hc : getContainer d 4 bs with
  | none =>
    rw [hc] at h
    simp only at h
    cases hi : getInt d bs with
    | none => simp [hi] at h
    | some x =>
      obtain ⟨v, r⟩ := x
      simp only [hi, Prod.mk.injEq, Option.some.injEq] at h
      obtain ⟨⟨rfl, rfl⟩, -⟩ := h
      exact ⟨_, _, unionEnd_eq ((alt_false (seq_false (seq_false (containerStart_none hc)))).trans
        ((seq_true unionElem_eq).trans ((seq_true (into_eq (int32_some he hi))).trans assign_eq))), rfl, Or.inl rfl⟩
  | some x =>
    obtain ⟨n, r⟩ := x
    rw [hc] at h
    simp only at h
    have hcs := containerStart_some (ρ := SuitesR) (x := .zero) (i := i) (B := ⟨bs, e, i⟩ :: B) (R := R) he (by simp; omega) hc
    obtain ⟨rest', hm, hcnt⟩ := multi_elems (zero := (0 : Int)) (k := 2) (most := 3) (B := ⟨r, e - 1, i⟩ :: ⟨bs, e, i⟩ :: B) (R := R)
      (bs := r) (a := ([0, 0, 0], 0)) (int32_reads (d := d)) (Cnt.start n (by decide)) (by simp)
    rcases hg : getElems (getInt d) 3 n r with ⟨xs, n', r'⟩
    rw [hg] at h hm hcnt
    simp only at h hm hcnt
    split at h
    · rename_i h2
      simp only [decide_eq_true h2] at hm
      cases hend : endContainer n' r' with
      | some r'' =>
        simp only [hend, Prod.mk.injEq, Option.some.injEq] at h
        obtain ⟨⟨rfl, rfl⟩, -⟩ := h
        refine ⟨_, _, unionEnd_eq (alt_true ((seq_true ((seq_true hcs).trans
          ((seq_true (orForce_true (into_eq (get := SuitesR.list) (r := .zero) hm))).trans (containerEnd_some hcnt hend)))).trans assign_eq)), ?_, Or.inl rfl⟩
        simp [SuitesR.value, SuitesR.setList]
      | none =>
        simp only [hend] at h
        split at h
        · rename_i v r1 he2 hi
          simp only [Prod.mk.injEq, Option.some.injEq] at h
          obtain ⟨⟨rfl, rfl⟩, -⟩ := h
          have he1 : e - 1 ≠ 0 := by simp only [decide_eq_true_eq] at he2; omega
          obtain rfl : n' = none := by
            cases n' with
            | none => rfl
            | some k => exact absurd hcnt.2 (by simp)
          have h7 := elems_second (p := getInt d) (fuel := 3) (n := none) (by rw [hg]; exact h2) hi
          refine ⟨_, _, unionEnd_eq ((alt_false (seq_false ((seq_true hcs).trans
            ((seq_true (orForce_true (into_eq (get := SuitesR.list) (r := .zero) hm))).trans
              (containerEnd_none (by decide) hcnt hend))))).trans
            ((seq_true unionElem_eq).trans ((seq_true (into_eq (int32_some he1 hi))).trans assign_eq))), ?_, Or.inr ⟨rfl, h7⟩⟩
          cases xs with
          | nil => simp at h2
          | cons y ys => simp [SuitesR.value, SuitesR.setList, SuitesR.setFirst]
        · simp at h
    · simp at h

/-- How `decode_suites` leaves the backups when it fails. -/
theorem decodeSuites_none {bs : Bytes} {e : Nat} {i : Bool} {B : List Frame} {R : Nat} {l : List Int}
    (he : e ≠ 0) (hB : B.length + 2 ≤ R) (h : getSuites d (decide (2 ≤ e)) bs = (none, l)) :
    ∃ s r, decodeSuites d ⟨⟨bs, e, i⟩, B, R⟩ .zero = (false, s, r) ∧ r.value = .list l ∧ s.room = R ∧
      (s.baks = B ∨ (s.baks = ⟨bs, e, i⟩ :: B ∧ (getContainer d 4 bs).isSome)) := by
  have hu : unionStart ⟨⟨bs, e, i⟩, B, R⟩ SuitesR.zero = (true, ⟨⟨bs, e, i⟩, ⟨bs, e, i⟩ :: B, R⟩, .zero) := unionStart_eq (by omega)
  unfold decodeSuites
  rw [seq_true hu]
  unfold getSuites at h
  cases hc : getContainer d 4 bs with
  | none =>
    rw [hc] at h
    simp only at h
    cases hi : getInt d bs with
    | some x => simp [hi] at h
    | none =>
      simp only [hi, Prod.mk.injEq, true_and] at h
      subst h
      exact ⟨_, _, unionEnd_eq ((alt_false (seq_false (seq_false (containerStart_none hc)))).trans
        ((seq_true unionElem_eq).trans (seq_false (into_eq (int32_none he hi))))), rfl, rfl, Or.inl rfl⟩
  | some x =>
    obtain ⟨n, r⟩ := x
    rw [hc] at h
    simp only at h
    have hni := getContainer_notInt hc
    have hcs := containerStart_some (ρ := SuitesR) (x := .zero) (i := i) (B := ⟨bs, e, i⟩ :: B) (R := R) he (by simp; omega) hc
    obtain ⟨rest', hm, hcnt⟩ := multi_elems (zero := (0 : Int)) (k := 2) (most := 3) (B := ⟨r, e - 1, i⟩ :: ⟨bs, e, i⟩ :: B) (R := R)
      (bs := r) (a := ([0, 0, 0], 0)) (int32_reads (d := d)) (Cnt.start n (by decide)) (by simp)
    rcases hg : getElems (getInt d) 3 n r with ⟨xs, n', r'⟩
    rw [hg] at h hm hcnt
    simp only at h hm hcnt
    split at h
    · rename_i h2
      simp only [decide_eq_true h2] at hm
      cases hend : endContainer n' r' with
      | some r'' => simp [hend] at h
      | none =>
        simp only [hend] at h
        · have hend' := (alt_false (g := unionElem.and (((int32 d).into SuitesR.first SuitesR.setFirst).and
            (assign fun r => { r with isOne := true }))) (seq_false (g := assign fun r => { r with isOne := false }) ((seq_true hcs).trans
            ((seq_true (orForce_true (into_eq (get := SuitesR.list) (put := SuitesR.setList) (r := .zero) hm))).trans
              (containerEnd_none (by decide) hcnt hend)))))
          cases n with
          | some k =>
            obtain rfl : xs = l := by
              by_cases h3 : 2 ≤ e <;> simpa [h3] using h
            obtain ⟨k', rfl⟩ : ∃ k', n' = some k' := by
              cases n' with
              | none => exact absurd hcnt.2.2 (by simp)
              | some k => exact ⟨k, rfl⟩
            refine ⟨_, _, unionEnd_eq (hend'.trans ((seq_true unionElem_eq).trans
              (seq_false (into_eq (int32_none he hni.2))))), ?_, rfl, Or.inl rfl⟩
            cases xs with
            | nil => simp at h2
            | cons y ys => simp [SuitesR.value, SuitesR.setList, SuitesR.setFirst, SuitesR.first, leftInt, hni.1, SuitesR.zero]
          | none =>
            obtain rfl : n' = none := by
              cases n' with
              | none => rfl
              | some k => exact absurd hcnt.2 (by simp)
            have hsome : ∃ w, getInt d r = some w := by
              cases xs with
              | nil => simp at h2
              | cons y ys =>
                cases hx : getInt d r with
                | some w => exact ⟨w, rfl⟩
                | none => simp [getElems, useElem, hx] at hg
            obtain ⟨w, hw⟩ := hsome
            have h3 : ¬ 2 ≤ e := by
              intro h3
              simp [h3, hw] at h
            obtain rfl : xs = l := by simpa [h3] using h
            have he1 : e - 1 = 0 := by omega
            rw [he1] at hend'
            refine ⟨_, _, unionEnd_eq (hend'.trans ((seq_true unionElem_eq).trans
              (seq_false (into_eq int32_zero)))), ?_, rfl, Or.inr ⟨rfl, rfl⟩⟩
            cases xs with
            | nil => simp at h2
            | cons y ys => simp [SuitesR.value, SuitesR.setList, SuitesR.setFirst, SuitesR.first, SuitesR.zero]
    · rename_i h2
      simp only [decide_eq_false h2] at hm
      simp only [Prod.mk.injEq, true_and] at h
      subst h
      refine ⟨_, _, unionEnd_eq ((alt_false (seq_false ((seq_true hcs).trans
            (seq_false (orForce_false (into_eq (get := SuitesR.list) (put := SuitesR.setList) (r := .zero) hm)))))).trans
            ((seq_true unionElem_eq).trans (seq_false (into_eq (int32_none he hni.2))))), ?_, rfl, Or.inl rfl⟩
      cases xs with
      | nil => simp [SuitesR.value, SuitesR.setList, SuitesR.setFirst, SuitesR.zero]
      | cons y ys => simp [SuitesR.value, SuitesR.setList, SuitesR.setFirst, SuitesR.first, leftInt, hni.1, SuitesR.zero]

/-! ## External authorization data -/

theorem decodeEadX_none {bs : Bytes} {e : Nat} {i : Bool} {B : List Frame} {R : Nat} {x : EadX} (he : e ≠ 0)
    (h : getInt d bs = none) : ∃ y, decodeEadX d ⟨⟨bs, e, i⟩, B, R⟩ x = (false, ⟨⟨bs, e, i⟩, B, R⟩, y) :=
  ⟨_, seq_false (into_eq (int32_none he h))⟩

theorem decodeEadX_value {bs r r' v : Bytes} {l : Int} {e : Nat} {i : Bool} {B : List Frame} {R : Nat} {x : EadX} (he : 2 ≤ e)
    (h : getInt d bs = some (l, r)) (h2 : getBstr d r = some (v, r')) :
    decodeEadX d ⟨⟨bs, e, i⟩, B, R⟩ x = (true, ⟨⟨r', e - 1 - 1, i⟩, B, R⟩, ⟨l, zstr v, true⟩) :=
  (seq_true (into_eq (int32_some (by omega) h))).trans (noting_eq (into_eq (str_some (by omega) h2)))

theorem decodeEadX_bare {bs r : Bytes} {l : Int} {e : Nat} {i : Bool} {B : List Frame} {R : Nat} {x : EadX} (he : 2 ≤ e)
    (h : getInt d bs = some (l, r)) (h2 : getBstr d r = none) :
    decodeEadX d ⟨⟨bs, e, i⟩, B, R⟩ x = (true, ⟨⟨r, e - 1, i⟩, B, R⟩, ⟨l, leftStr d 2 r x.value, false⟩) :=
  (seq_true (into_eq (int32_some (by omega) h))).trans (noting_eq (into_eq (str_none (by omega) h2)))

theorem multiGo_ead : ∀ (fuel : Nat) (bs : Bytes) (e : Nat) (i : Bool) (B : List Frame) (R : Nat) (done : List EadX), 2 * fuel ≤ e →
    ∃ xs rest' e', multiGo (decodeEadX d) .zero fuel done.length ⟨⟨bs, e, i⟩, B, R⟩ (done ++ List.replicate fuel EadX.zero) =
        (done.length + xs.length, ⟨⟨(getMany (getEadTok d) fuel bs).2, e', i⟩, B, R⟩, done ++ xs ++ rest') ∧
      xs.map EadX.tok = (getMany (getEadTok d) fuel bs).1 ∧ (xs.map fun e => e.value.over).sum = staleEad d fuel bs := by
  intro fuel
  induction fuel with
  | zero =>
    intro bs e i B R done _
    exact ⟨[], [], e, by simp [multiGo, getMany], by simp [getMany], by simp [staleEad]⟩
  | succ fuel ih =>
    intro bs e i B R done he
    have hget : (done ++ List.replicate (fuel + 1) EadX.zero).getD done.length EadX.zero = .zero := by
      simp [List.replicate_succ]
    have hset : ∀ y, (done ++ List.replicate (fuel + 1) EadX.zero).set done.length y =
        (done ++ [y]) ++ List.replicate fuel EadX.zero := by
      intro y; simp [List.replicate_succ]
    cases hi : getInt d bs with
    | none =>
      obtain ⟨y, hy⟩ := decodeEadX_none (i := i) (B := B) (R := R) (x := .zero) (show e ≠ 0 by omega) hi
      refine ⟨[], y :: List.replicate fuel EadX.zero, e, ?_, ?_, ?_⟩
      · simp only [multiGo, hget, hy, hset]
        simp [getMany, getEadTok, hi]
      · simp [getMany, getEadTok, hi]
      · simp [staleEad, hi]
    | some x =>
      obtain ⟨l, r⟩ := x
      have hlen : ∀ y : EadX, done.length + 1 = (done ++ [y]).length := by simp
      cases hb : getBstr d r with
      | some z =>
        obtain ⟨v, r'⟩ := z
        obtain ⟨xs, rest', e', h1, h2, h3⟩ := ih r' (e - 1 - 1) i B R (done ++ [⟨l, zstr v, true⟩]) (by omega)
        refine ⟨⟨l, zstr v, true⟩ :: xs, rest', e', ?_, ?_, ?_⟩
        · simp only [multiGo, hget, decodeEadX_value (show 2 ≤ e by omega) hi hb, hset]
          rw [hlen ⟨l, zstr v, true⟩, h1]
          simp [getMany, getEadTok, hi, hb, Nat.add_comm, Nat.add_left_comm]
        · simp [getMany, getEadTok, hi, hb, h2, EadX.tok, zstr]
        · simp [staleEad, hi, hb, h3, zstr]
      | none =>
        obtain ⟨xs, rest', e', h1, h2, h3⟩ := ih r (e - 1) i B R (done ++ [⟨l, leftStr d 2 r .zero, false⟩]) (by omega)
        refine ⟨⟨l, leftStr d 2 r .zero, false⟩ :: xs, rest', e', ?_, ?_, ?_⟩
        · simp only [multiGo, hget, decodeEadX_bare (x := .zero) (show 2 ≤ e by omega) hi hb, hset]
          have hz : leftStr d 2 r EadX.zero.value = leftStr d 2 r .zero := rfl
          rw [hz, hlen ⟨l, leftStr d 2 r .zero, false⟩, h1]
          simp [getMany, getEadTok, hi, hb, Nat.add_comm, Nat.add_left_comm]
        · have hp : (leftStr d 2 r .zero).ptr = none := leftStr_ptr ..
          simp [getMany, getEadTok, hi, hb, h2, EadX.tok, hp]
        · simp only [List.map_cons, List.sum_cons, h3, over_left hb, staleEad, hi, hb]
          by_cases hs : stale d r = 0
          · simp [hs]
          · rw [if_neg hs]
            have hn : getInt d r = none := by
              cases hn : getInt d r with
              | none => rfl
              | some w => exact absurd (stale_of_int (v := w.1) (r := w.2) hn) hs
            cases fuel <;> simp [staleEad, hn]

theorem decodeEad_eq {bs : Bytes} {e : Nat} {i : Bool} {B : List Frame} {R : Nat} (he : 6 ≤ e) :
    ∃ b s a, decodeEad d ⟨⟨bs, e, i⟩, B, R⟩ eadZero = (b, s, a) ∧ toks a = (getEad d bs).1 ∧ overs a = staleEad d 3 bs ∧
      b = !(toks a).isEmpty := by
  obtain ⟨xs, rest', e', h1, h2, h3⟩ := multiGo_ead (d := d) 3 bs e i B R [] (by omega)
  have hz : eadZero.1 = [] ++ List.replicate 3 EadX.zero := rfl
  have hm : decodeEad d ⟨⟨bs, e, i⟩, B, R⟩ eadZero = (decide (1 ≤ ([] : List EadX).length + xs.length),
      ⟨⟨(getMany (getEadTok d) 3 bs).2, e', i⟩, B, R⟩, ([] ++ xs ++ rest', ([] : List EadX).length + xs.length)) := by
    unfold decodeEad multi
    rw [hz]
    simp only [List.length_nil] at h1 ⊢
    rw [h1]
  refine ⟨_, _, _, hm, ?_, ?_, ?_⟩
  · simp [toks, h2, getEad]
  · simp [overs, h3]
  · cases xs <;> simp [toks]

/-! ## Connection identifiers -/

/-- a zeroed union whose first member is the string -/
def IntStr.zeroStr : IntStr := ⟨0, .zero, false⟩

theorem decodeCid_some {bs r : Bytes} {c : Cid} {e : Nat} {i : Bool} {B : List Frame} {R : Nat} (he : e ≠ 0) (hB : B.length < R)
    (h : getCid d bs = some (c, r)) :
    ∃ x, decodeCid d ⟨⟨bs, e, i⟩, B, R⟩ .zeroStr = (true, ⟨⟨r, e - 1, i⟩, B, R⟩, x) ∧ x.cid = c ∧
      (if x.isInt then 0 else x.str.over) = 0 := by
  have hu : unionStart ⟨⟨bs, e, i⟩, B, R⟩ IntStr.zeroStr = (true, ⟨⟨bs, e, i⟩, ⟨bs, e, i⟩ :: B, R⟩, .zeroStr) := unionStart_eq hB
  unfold decodeCid
  rw [seq_true hu]
  unfold getCid at h
  cases hb : getBstr d bs with
  | some y =>
    obtain ⟨b, r'⟩ := y
    simp only [hb, Option.some.injEq, Prod.mk.injEq] at h
    obtain ⟨rfl, rfl⟩ := h
    refine ⟨_, unionEnd_eq (alt_true ((seq_true (into_eq (str_some he hb))).trans assign_eq)), ?_, ?_⟩
    · simp [IntStr.cid, IntStr.setStr]
    · simp [IntStr.setStr]
  | none =>
    simp only [hb] at h
    cases hi : getInt d bs with
    | none => simp [hi] at h
    | some y =>
      obtain ⟨v, r'⟩ := y
      simp only [hi] at h
      split at h
      · rename_i hv
        simp only [Option.some.injEq, Prod.mk.injEq] at h
        obtain ⟨rfl, rfl⟩ := h
        refine ⟨_, unionEnd_eq ((alt_false (seq_false (into_eq (str_none he hb)))).trans ((seq_true ((seq_true
          (into_eq (int32_some he hi))).trans (check_eq (b := true) (by simp [IntStr.setInt, hv])))).trans assign_eq)), rfl, rfl⟩
      · simp at h

theorem decodeCid_none {bs : Bytes} {e : Nat} {i : Bool} {B : List Frame} {R : Nat} (he : e ≠ 0) (hB : B.length < R)
    (h : getCid d bs = none) :
    ∃ s x, decodeCid d ⟨⟨bs, e, i⟩, B, R⟩ .zeroStr = (false, s, x) ∧ x.cid = .bstr [] ∧
      (if x.isInt then 0 else x.str.over) = stale d bs := by
  have hu : unionStart ⟨⟨bs, e, i⟩, B, R⟩ IntStr.zeroStr = (true, ⟨⟨bs, e, i⟩, ⟨bs, e, i⟩ :: B, R⟩, .zeroStr) := unionStart_eq hB
  unfold decodeCid
  rw [seq_true hu]
  unfold getCid at h
  have hp : ∀ m, (leftStr d m bs .zero).ptr = none := fun m => leftStr_ptr ..
  cases hb : getBstr d bs with
  | some y => simp [hb] at h
  | none =>
    simp only [hb] at h
    have ho := over_left hb
    simp only [ZStr.over, hp, if_true] at ho
    cases hi : getInt d bs with
    | none =>
      refine ⟨_, _, unionEnd_eq ((alt_false (seq_false (into_eq (str_none he hb)))).trans (seq_false (seq_false
          (into_eq (int32_none he hi))))), ?_, ?_⟩
      · simp [IntStr.cid, IntStr.setInt, IntStr.setStr, IntStr.zeroStr, ZStr.bytes]
      · simp [IntStr.setInt, IntStr.setStr, IntStr.zeroStr, ZStr.over, ho]
    | some y =>
      obtain ⟨v, r'⟩ := y
      simp only [hi] at h
      split at h
      · simp at h
      · rename_i hv
        have hv' : (decide (-24 ≤ v) && decide (v ≤ 23)) = false := by
          rw [← Bool.not_eq_true, Bool.and_eq_true, decide_eq_true_eq, decide_eq_true_eq]
          exact hv
        refine ⟨_, _, unionEnd_eq ((alt_false (seq_false (into_eq (str_none he hb)))).trans (seq_false ((seq_true
          (into_eq (int32_some he hi))).trans (check_eq (b := false) (by exact hv'))))), ?_, ?_⟩
        · simp [IntStr.cid, IntStr.setInt, IntStr.setStr, IntStr.zeroStr, ZStr.bytes]
        · simp [IntStr.setInt, IntStr.setStr, IntStr.zeroStr, ZStr.over, ho]

/-! ## message_1 -/

theorem leftStr_int {bs : Bytes} {x : ZStr} {w : Int × Bytes} (h : getInt d bs = some w) : leftStr d 2 bs x = x := by
  obtain ⟨v, r⟩ := w
  unfold getInt at h
  unfold leftStr
  split at h
  · rename_i m a r' hh
    have hm : m ≠ 2 := by
      rintro rfl
      split at h
      · simp at h
      · rw [if_neg (by omega), if_neg (by omega)] at h
        simp at h
    split
    · split
      · rename_i m' a' r'' hh'
        have : m' = m := by
          cases bs with
          | nil => simp [getHead] at hh
          | cons b t =>
            have one : ∀ {st : Bool} {k m a : Nat} {r : Bytes}, getHead st k (b :: t) = some (m, a, r) → m = b.toNat / 32 := by
              intro st k m a r hh
              simp only [getHead] at hh
              repeat' split at hh
              all_goals first | (simp at hh; done) | (simp only [Option.some.injEq, Prod.mk.injEq] at hh; exact hh.1.symm)
            rw [one hh, one hh']
        rw [if_neg (by omega)]
      · rfl
    · rfl
  · simp at h

theorem cborDecodeCid_eq (bs : Bytes) :
    ∃ b rest r, cborDecodeCid d bs = (b, rest, r) ∧ (if b then some (r.cid, rest) else none) = getCid d bs := by
  unfold cborDecodeCid entry
  cases h : getCid d bs with
  | none =>
    obtain ⟨s, x, h1, -⟩ := decodeCid_none (e := 1) (i := false) (B := []) (R := 1) (by decide) (by decide) h
    exact ⟨_, _, _, by rw [show (⟨0, .zero, false⟩ : IntStr) = .zeroStr from rfl, h1], rfl⟩
  | some y =>
    obtain ⟨c, r⟩ := y
    obtain ⟨x, h1, h2, -⟩ := decodeCid_some (e := 1) (i := false) (B := []) (R := 1) (by decide) (by decide) h
    exact ⟨_, _, _, by rw [show (⟨0, .zero, false⟩ : IntStr) = .zeroStr from rfl, h1], by rw [← h2]; rfl⟩

theorem cborDecodeMsg1_eq (bs : Bytes) :
    ∃ b rest r, cborDecodeMsg1 d bs = (b, rest, r) ∧ (b, r.value) = getMsg1 d bs ∧ r.overs = staleMsg1 d bs ∧
      r.eadPresent = !r.value.ead.isEmpty := by
  suffices h : ∃ b s r, decodeMsg1 d ⟨⟨bs, 10, false⟩, [], 2⟩ .zero = (b, s, r) ∧ (b, r.value) = getMsg1 d bs ∧
      r.overs = staleMsg1 d bs ∧ r.eadPresent = !r.value.ead.isEmpty by
    obtain ⟨b, s, r, h1, h2⟩ := h
    exact ⟨b, s.cur.payload, r, by simp only [cborDecodeMsg1, entry, h1], h2⟩
  unfold decodeMsg1 getMsg1 staleMsg1
  cases h1 : getInt d bs with
  | none =>
    exact ⟨_, _, _, seq_false (into_eq (int32_none (by decide) h1)), rfl, rfl, rfl⟩
  | some x =>
    obtain ⟨me, r1⟩ := x
    have e1 := into_eq (put := fun v r => { r with method := v }) (get := Msg1R.method) (r := .zero)
      (int32_some (e := 10) (i := false) (B := []) (R := 2) (by decide) h1)
    simp only
    rw [seq_true e1]
    rcases h2 : getSuites d true r1 with ⟨_ | ⟨su, r2⟩, l⟩
    · obtain ⟨s, r, h3, h4, -⟩ := decodeSuites_none (e := 9) (i := false) (B := []) (R := 2) (by decide) (by decide) h2
      refine ⟨_, _, _, seq_false (into_eq (get := Msg1R.suites) h3), ?_, rfl, rfl⟩
      simp only [Msg1R.value, h4]
      rfl
    · obtain ⟨s, r, h3, h4, h5⟩ := decodeSuites_some (e := 9) (i := false) (B := []) (R := 2) (by decide) (by decide) h2
      rw [seq_true (into_eq (get := Msg1R.suites) h3)]
      simp only
      cases h6 : getBstr d r2 with
      | none =>
        have hs : ∃ s', str d 2 s .zero = (false, s', leftStr d 2 r2 .zero) := by
          rcases h5 with rfl | ⟨h5, w, h7⟩
          · exact ⟨_, str_none (by decide) h6⟩
          · obtain ⟨⟨p, e, i⟩, B, R⟩ := s
            simp only at h5
            subst h5
            rw [leftStr_int h7]
            by_cases he : e = 0
            · subst he; exact ⟨_, rfl⟩
            · exact ⟨_, by rw [str_none he h6, leftStr_int h7]⟩
        obtain ⟨s', hs⟩ := hs
        refine ⟨_, _, _, seq_false (into_eq (get := Msg1R.gx) hs), ?_, ?_, rfl⟩
        · simp only [Msg1R.value, h4, bytes_left]
          rfl
        · simp only [Msg1R.overs, over_left h6]
          rfl
      | some x =>
        obtain ⟨gx, r3⟩ := x
        obtain rfl : s = ⟨⟨r2, 9 - 1, false⟩, [], 2⟩ := by
          rcases h5 with rfl | ⟨-, w, h7⟩
          · rfl
          · rw [getBstr_none_of_int (v := w.1) (r := w.2) h7] at h6
            simp at h6
        rw [seq_true (into_eq (get := Msg1R.gx) (str_some (by decide) h6))]
        simp only
        cases h7 : getCid d r3 with
        | none =>
          obtain ⟨s', x, h8, h9, h10⟩ := decodeCid_none (e := 7) (i := false) (B := []) (R := 2) (by decide) (by decide) h7
          refine ⟨_, _, _, seq_false (into_eq (get := Msg1R.ci) h8), ?_, ?_, rfl⟩
          · simp only [Msg1R.value, h4, h9, bytes_some]
            rfl
          · simp only [Msg1R.overs, h10, over_some]
            rfl
        | some x =>
          obtain ⟨ci, r4⟩ := x
          obtain ⟨x, h8, h9, h10⟩ := decodeCid_some (e := 7) (i := false) (B := []) (R := 2) (by decide) (by decide) h7
          rw [seq_true (into_eq (get := Msg1R.ci) h8)]
          obtain ⟨b, s', a, h11, h12, h13, h14⟩ := decodeEad_eq (d := d) (bs := r4) (e := 6) (i := false) (B := []) (R := 2) (by decide)
          refine ⟨_, _, _, noting_eq (into_eq (get := Msg1R.ead) h11), ?_, ?_, h14⟩
          · simp only [Msg1R.value, h4, h9, bytes_some, h12]
          · simp only [Msg1R.overs, h10, over_some, h13]

end Verif.Gen
