import Verif.Cbor

/-!
# Facts about CBOR items

Lengths, round trips and unique readability of the encodings.
-/

namespace Verif

/-! ## Big-endian numbers -/

theorem beBytes_length (k v : Nat) : (beBytes k v).length = k := by
  induction k with
  | zero => rfl
  | succ k ih => simp [beBytes, ih]

theorem beNat_beBytes (k v : Nat) : beNat (beBytes k v) = v % 256 ^ k := by
  induction k with
  | zero => simp [beBytes, beNat, Nat.mod_one]
  | succ k ih =>
    simp only [beBytes, beNat, beBytes_length, ih]
    have : (UInt8.ofNat (v / 256 ^ k)).toNat = v / 256 ^ k % 256 := by simp
    rw [this, Nat.mod_pow_succ, Nat.mul_comm]
    omega

theorem beNat_lt (b : Bytes) : beNat b < 256 ^ b.length := by
  induction b with
  | nil => simp [beNat]
  | cons x r ih =>
    simp only [beNat, List.length_cons, Nat.pow_succ]
    have := x.toNat_lt
    have h1 : x.toNat * 256 ^ r.length ≤ 255 * 256 ^ r.length := Nat.mul_le_mul_right _ (by omega)
    omega

theorem beBytes_beNat (b : Bytes) : beBytes b.length (beNat b) = b := by
  induction b with
  | nil => rfl
  | cons x r ih =>
    have hlt := beNat_lt r
    have hpos : 0 < 256 ^ r.length := Nat.pow_pos (by omega)
    simp only [List.length_cons, beBytes, beNat, List.cons.injEq]
    constructor
    · rw [Nat.mul_comm, Nat.mul_add_div hpos, Nat.div_eq_of_lt hlt]
      simp
    · have aux : ∀ k v w, v % 256 ^ k = w % 256 ^ k → beBytes k v = beBytes k w := by
        intro k
        induction k with
        | zero => intros; rfl
        | succ k ih2 =>
          intro v w h
          have h0 : v % 256 ^ k = w % 256 ^ k := by
            have h1 : v % 256 ^ (k+1) % 256 ^ k = w % 256 ^ (k+1) % 256 ^ k := by rw [h]
            rwa [Nat.mod_mod_of_dvd _ (Nat.pow_dvd_pow 256 (Nat.le_succ k)),
              Nat.mod_mod_of_dvd _ (Nat.pow_dvd_pow 256 (Nat.le_succ k))] at h1
          simp only [beBytes, ih2 _ _ h0, List.cons.injEq, and_true]
          rw [Nat.mod_pow_succ, Nat.mod_pow_succ, h0] at h
          have h2 : v / 256 ^ k % 256 = w / 256 ^ k % 256 := by
            have hp : 0 < 256 ^ k := Nat.pow_pos (by omega)
            have := Nat.add_left_cancel h
            exact Nat.eq_of_mul_eq_mul_left hp this
          apply UInt8.toNat_inj.1
          simpa using h2
      rw [aux r.length _ (beNat r), ih]
      rw [Nat.mul_comm, Nat.mul_add_mod]

/-! ## Heads -/

/-- number of bytes of a minimal head -/
def headLen (a : Nat) : Nat :=
  if a ≤ 23 then 1 else if a < 256 then 2 else if a < 65536 then 3 else if a < 4294967296 then 5 else 9

theorem head_length (m a : Nat) : (head m a).length = headLen a := by
  unfold head headLen
  split
  · rfl
  split
  · rfl
  split
  · rfl
  split
  · rfl
  · rfl

theorem headLen_pos (a : Nat) : 0 < headLen a := by
  unfold headLen
  split <;> (try split) <;> (try split) <;> (try split) <;> omega

/-- the first byte of a head -/
theorem first_div {m x : Nat} (hm : m < 8) (hx : x < 32) :
    (UInt8.ofNat (m * 32 + x)).toNat / 32 = m ∧ (UInt8.ofNat (m * 32 + x)).toNat % 32 = x := by
  have : (UInt8.ofNat (m * 32 + x)).toNat = m * 32 + x := by
    simp only [UInt8.toNat_ofNat']
    exact Nat.mod_eq_of_lt (by omega)
  rw [this]
  omega

theorem getHead_long {strict : Bool} {maxLen m k ai a : Nat} {r : Bytes} (hm : m < 8)
    (hai : 24 ≤ ai) (hai2 : ai ≤ 27) (hk : 2 ^ (ai - 24) = k) (hmax : k ≤ maxLen)
    (ha : a < 256 ^ k) (hmin : minArg k ≤ a) :
    getHead strict maxLen (UInt8.ofNat (m * 32 + ai) :: (beBytes k a ++ r)) = some (m, a, r) := by
  obtain ⟨h1, h2⟩ := first_div hm (x := ai) (by omega)
  have hl : (beBytes k a ++ r).take k = beBytes k a := by
    rw [List.take_append_of_le_length (by rw [beBytes_length]; exact Nat.le_refl _),
      List.take_of_length_le (by rw [beBytes_length]; exact Nat.le_refl _)]
  have hd : (beBytes k a ++ r).drop k = r := by
    rw [List.drop_append_of_le_length (by rw [beBytes_length]; exact Nat.le_refl _),
      List.drop_of_length_le (by rw [beBytes_length]; exact Nat.le_refl _), List.nil_append]
  simp only [getHead, h1, h2]
  rw [if_neg (by omega), if_neg (by omega), hk, if_neg (by omega), if_neg (by
    rw [List.length_append, beBytes_length]; omega), hl, hd, beNat_beBytes, Nat.mod_eq_of_lt ha]
  rw [if_neg (by simp; omega)]

/-- A minimal head is read back, whatever follows, by a lenient and by a strict decoder. -/
theorem getHead_head {strict : Bool} {maxLen m a : Nat} (r : Bytes) (hm : m < 8)
    (h : (a < 4294967296 ∧ 4 ≤ maxLen) ∨ (a < 18446744073709551616 ∧ 8 ≤ maxLen)) :
    getHead strict maxLen (head m a ++ r) = some (m, a, r) := by
  unfold head
  split
  · rename_i ha
    obtain ⟨h1, h2⟩ := first_div hm (x := a) (by omega)
    simp only [List.cons_append, List.nil_append, getHead, h1, h2]
    rw [if_pos ha]
  split
  · exact getHead_long hm (by omega) (by omega) (by decide) (by omega) (by omega) (by simp [minArg]; omega)
  split
  · exact getHead_long hm (by omega) (by omega) (by decide) (by omega) (by omega) (by simp [minArg]; omega)
  split
  · exact getHead_long hm (by omega) (by omega) (by decide) (by omega) (by omega) (by simp [minArg]; omega)
  · exact getHead_long hm (by omega) (by omega) (by decide) (by omega) (by omega) (by simp [minArg]; omega)

/-- What a strict decoder reads is the minimal head. -/
theorem head_getHead {maxLen m a : Nat} {bs r : Bytes}
    (h : getHead true maxLen bs = some (m, a, r)) : bs = head m a ++ r ∧ m < 8 := by
  cases bs with
  | nil => simp [getHead] at h
  | cons b t =>
    have hb := b.toNat_lt
    have hb8 : UInt8.ofNat (b.toNat / 32 * 32 + b.toNat % 32) = b := by
      have : b.toNat / 32 * 32 + b.toNat % 32 = b.toNat := by omega
      rw [this]; simp
    simp only [getHead] at h
    split at h
    · rename_i h1
      simp only [Option.some.injEq, Prod.mk.injEq] at h
      obtain ⟨rfl, rfl, rfl⟩ := h
      refine ⟨?_, by omega⟩
      simp only [head, h1, if_true, hb8, List.cons_append, List.nil_append]
    split at h
    · simp at h
    split at h
    · simp at h
    split at h
    · simp at h
    split at h
    · simp at h
    · rename_i h1 h2 h3 h4 h5
      simp only [Option.some.injEq, Prod.mk.injEq] at h
      obtain ⟨rfl, hv, rfl⟩ := h
      refine ⟨?_, by omega⟩
      generalize hk : 2 ^ (b.toNat % 32 - 24) = k at *
      have hl : (t.take k).length = k := by rw [List.length_take]; omega
      have hlt := beNat_lt (t.take k)
      have hbe := beBytes_beNat (t.take k)
      rw [hl, hv] at hlt hbe
      have ht : t = beBytes k a ++ t.drop k := by rw [hbe]; exact (List.take_append_drop k t).symm
      simp only [Bool.true_and, decide_eq_true_eq] at h5
      rw [hv] at h5
      have hcases : b.toNat % 32 = 24 ∨ b.toNat % 32 = 25 ∨ b.toNat % 32 = 26 ∨ b.toNat % 32 = 27 := by
        omega
      rcases hcases with hc | hc | hc | hc <;> rw [hc] at hk hb8 <;> subst hk <;>
        simp [minArg] at h5 hlt ht ⊢ <;> unfold head
      · rw [if_neg (by omega), if_pos (by omega), hb8]
        simp only [List.cons_append]; rw [← ht]
      · rw [if_neg (by omega), if_neg (by omega), if_pos (by omega), hb8]
        simp only [List.cons_append]; rw [← ht]
      · rw [if_neg (by omega), if_neg (by omega), if_neg (by omega), if_pos (by omega), hb8]
        simp only [List.cons_append]; rw [← ht]
      · rw [if_neg (by omega), if_neg (by omega), if_neg (by omega), if_neg (by omega), hb8]
        simp only [List.cons_append]; rw [← ht]

/-- Heads can be read in one way only. -/
theorem head_inj {m m' a a' : Nat} {r r' : Bytes} (hm : m < 8) (hm' : m' < 8)
    (ha : a < 18446744073709551616) (ha' : a' < 18446744073709551616)
    (h : head m a ++ r = head m' a' ++ r') : m = m' ∧ a = a' ∧ r = r' := by
  have h1 := getHead_head (strict := true) (maxLen := 8) r hm (Or.inr ⟨ha, Nat.le_refl _⟩)
  have h2 := getHead_head (strict := true) (maxLen := 8) r' hm' (Or.inr ⟨ha', Nat.le_refl _⟩)
  rw [h, h2] at h1
  simp only [Option.some.injEq, Prod.mk.injEq] at h1
  exact ⟨h1.1.symm, h1.2.1.symm, h1.2.2.symm⟩

/-! ## Integers -/

/-- the values of an `int32_t` -/
def Int32Range (v : Int) : Prop := -2147483648 ≤ v ∧ v ≤ 2147483647

instance (v : Int) : Decidable (Int32Range v) := inferInstanceAs (Decidable (_ ∧ _))

theorem getInt_encInt {d : DecCfg} {v : Int} (r : Bytes) (hv : Int32Range v) :
    getInt d (encInt v ++ r) = some (v, r) := by
  unfold Int32Range at hv
  unfold encInt
  split
  · unfold getInt
    rw [getHead_head r (by omega) (Or.inl ⟨by omega, Nat.le_refl _⟩)]
    simp only [↓reduceIte]
    rw [if_neg (by omega)]
    simp only [Option.some.injEq, Prod.mk.injEq, and_true]
    omega
  · unfold getInt
    rw [getHead_head r (by omega) (Or.inl ⟨by omega, Nat.le_refl _⟩)]
    simp only [Nat.one_ne_zero, ↓reduceIte]
    rw [if_neg (by omega)]
    simp only [Option.some.injEq, Prod.mk.injEq, and_true]
    omega

theorem getInt_range {d : DecCfg} {v : Int} {b r : Bytes} (h : getInt d b = some (v, r)) :
    Int32Range v := by
  unfold Int32Range
  unfold getInt at h
  split at h
  · split at h
    · simp at h
    · split at h
      · simp only [Option.some.injEq, Prod.mk.injEq] at h; omega
      · split at h
        · simp only [Option.some.injEq, Prod.mk.injEq] at h; omega
        · simp at h
  · simp at h

theorem encInt_getInt {d : DecCfg} (hd : d.strict = true) {v : Int} {b r : Bytes}
    (h : getInt d b = some (v, r)) : b = encInt v ++ r := by
  unfold getInt at h
  rw [hd] at h
  split at h
  · rename_i m a r0 hh
    have := head_getHead hh
    split at h
    · simp at h
    · split at h
      · rename_i hm
        simp only [Option.some.injEq, Prod.mk.injEq] at h
        obtain ⟨rfl, rfl⟩ := h
        rw [this.1, hm]
        simp [encInt]
      · split at h
        · rename_i hm
          simp only [Option.some.injEq, Prod.mk.injEq] at h
          obtain ⟨rfl, rfl⟩ := h
          rw [this.1, hm]
          unfold encInt
          rw [if_neg (by omega)]
          have : (-1 - (-1 - (a : Int))).toNat = a := by omega
          rw [this]
        · simp at h
  · simp at h

/-- integers that have an encoding with at most 8 argument bytes -/
def Int65Range (v : Int) : Prop := -18446744073709551616 ≤ v ∧ v < 18446744073709551616

theorem encInt_inj {v w : Int} {r r' : Bytes} (hv : Int65Range v) (hw : Int65Range w)
    (h : encInt v ++ r = encInt w ++ r') : v = w ∧ r = r' := by
  unfold Int65Range at hv hw
  unfold encInt at h
  split at h <;> split at h
  · have := head_inj (by omega) (by omega) (by omega) (by omega) h
    exact ⟨by omega, this.2.2⟩
  · have := head_inj (by omega) (by omega) (by omega) (by omega) h
    omega
  · have := head_inj (by omega) (by omega) (by omega) (by omega) h
    omega
  · have := head_inj (by omega) (by omega) (by omega) (by omega) h
    exact ⟨by omega, this.2.2⟩

theorem Int32Range.to65 {v : Int} (h : Int32Range v) : Int65Range v := by
  unfold Int32Range at h; unfold Int65Range; omega

/-! ## Strings -/

/-- lengths an object can have on a machine with 64-bit `size_t` -/
abbrev SizeOk (b : Bytes) : Prop := b.length < 18446744073709551616

theorem encBstr_length (b : Bytes) : (encBstr b).length = headLen b.length + b.length := by
  simp [encBstr, head_length]

theorem getStr_enc {d : DecCfg} {m : Nat} (hm : m < 8) {b : Bytes} (r : Bytes) (hb : SizeOk b) :
    getStr d m (head m b.length ++ b ++ r) = some (b, r) := by
  unfold getStr
  rw [List.append_assoc, getHead_head (b ++ r) hm (Or.inr ⟨hb, Nat.le_refl _⟩)]
  simp

theorem getBstr_encBstr {d : DecCfg} {b : Bytes} (r : Bytes) (hb : SizeOk b) :
    getBstr d (encBstr b ++ r) = some (b, r) := getStr_enc (by omega) r hb

theorem getTstr_encTstr {d : DecCfg} {b : Bytes} (r : Bytes) (hb : SizeOk b) :
    getTstr d (encTstr b ++ r) = some (b, r) := getStr_enc (by omega) r hb

theorem enc_getStr {d : DecCfg} (hd : d.strict = true) {m : Nat} {s b r : Bytes}
    (h : getStr d m b = some (s, r)) : b = head m s.length ++ s ++ r := by
  unfold getStr at h
  rw [hd] at h
  split at h
  · rename_i m' a r0 hh
    have := head_getHead hh
    split at h
    · rename_i hm
      simp only [Option.some.injEq, Prod.mk.injEq] at h
      obtain ⟨rfl, rfl⟩ := h
      rw [this.1, hm.1, List.length_take, Nat.min_eq_left hm.2, List.append_assoc,
        List.take_append_drop]
    · simp at h
  · simp at h

theorem encBstr_getBstr {d : DecCfg} (hd : d.strict = true) {s b r : Bytes}
    (h : getBstr d b = some (s, r)) : b = encBstr s ++ r := enc_getStr hd h

theorem encTstr_getTstr {d : DecCfg} (hd : d.strict = true) {s b r : Bytes}
    (h : getTstr d b = some (s, r)) : b = encTstr s ++ r := enc_getStr hd h

theorem encBstr_inj {a b r r' : Bytes} (ha : SizeOk a) (hb : SizeOk b)
    (h : encBstr a ++ r = encBstr b ++ r') : a = b ∧ r = r' := by
  unfold encBstr at h
  rw [List.append_assoc, List.append_assoc] at h
  have := head_inj (by omega) (by omega) ha hb h
  exact List.append_inj this.2.2 this.2.1

/-- a different major type does not decode -/
theorem getStr_head_ne {d : DecCfg} {m m' a : Nat} {r : Bytes} (hm : m < 8) (hne : m ≠ m')
    (ha : a < 18446744073709551616) : getStr d m' (head m a ++ r) = none := by
  unfold getStr
  rw [getHead_head r hm (Or.inr ⟨ha, Nat.le_refl _⟩)]
  simp [hne]

theorem getInt_head_ne {d : DecCfg} {m a : Nat} {r : Bytes} (hm : m < 8) (h2 : 2 ≤ m) :
    getInt d (head m a ++ r) = none := by
  unfold getInt
  by_cases ha : a < 4294967296
  · rw [getHead_head r hm (Or.inl ⟨ha, Nat.le_refl _⟩)]
    simp only
    split
    · rfl
    · rw [if_neg (by omega), if_neg (by omega)]
  · have : getHead d.strict 4 (head m a ++ r) = none := by
      unfold head
      rw [if_neg (by omega), if_neg (by omega), if_neg (by omega), if_neg (by omega)]
      obtain ⟨h3, h4⟩ := first_div hm (x := 27) (by omega)
      simp only [List.cons_append, getHead, h3, h4]
      simp
    rw [this]

theorem getBstr_encInt {d : DecCfg} {v : Int} {r : Bytes} (hv : Int65Range v) :
    getBstr d (encInt v ++ r) = none := by
  unfold Int65Range at hv
  unfold encInt getBstr
  split
  · exact getStr_head_ne (by omega) (by omega) (by omega)
  · exact getStr_head_ne (by omega) (by omega) (by omega)

/-- a head that is accepted is also accepted if everything is -/
theorem getHead_weak {st : Bool} {ml : Nat} {bs : Bytes} {x : Nat × Nat × Bytes} (h : getHead st ml bs = some x) :
    getHead false 8 bs = some x := by
  cases bs with
  | nil => simp [getHead] at h
  | cons b t =>
    simp only [getHead] at h ⊢
    split at h
    · rename_i h1; rw [if_pos h1]; exact h
    · rename_i h1
      rw [if_neg h1]
      split at h
      · simp at h
      · rename_i h2
        rw [if_neg h2]
        split at h
        · simp at h
        · split at h
          · simp at h
          · rename_i h3 h4
            have h8 : ¬(8 < 2 ^ (b.toNat % 32 - 24)) := by
              have : 2 ^ (b.toNat % 32 - 24) ≤ 2 ^ 3 := Nat.pow_le_pow_right (by omega) (by omega)
              omega
            rw [if_neg h8, if_neg h4]
            simp only [Bool.false_and, Bool.false_eq_true, if_false]
            split at h
            · simp at h
            · exact h

/-- nothing is left behind where an integer is read -/
theorem stale_of_int {d : DecCfg} {v : Int} {bs r : Bytes} (h : getInt d bs = some (v, r)) : stale d bs = 0 := by
  unfold getInt at h
  unfold stale
  split at h
  · rename_i m a r' h1
    rw [getHead_weak h1]
    split
    · rfl
    · split
      · show (if m = 2 then a else 0) = 0
        rw [if_neg]
        rintro rfl
        split at h
        · simp at h
        · rw [if_neg (by omega), if_neg (by omega)] at h
          simp at h
      · rfl
  · simp at h

theorem stale_encInt {d : DecCfg} {v : Int} (hv : Int32Range v) (r : Bytes) : stale d (encInt v ++ r) = 0 :=
  stale_of_int (getInt_encInt r hv)

theorem getInt_encBstr {d : DecCfg} {b r : Bytes} : getInt d (encBstr b ++ r) = none := by
  unfold encBstr
  rw [List.append_assoc]
  exact getInt_head_ne (by omega) (by omega)

theorem getInt_nil {d : DecCfg} : getInt d [] = none := by simp [getInt, getHead]
theorem getBstr_nil {d : DecCfg} : getBstr d [] = none := by simp [getBstr, getStr, getHead]
theorem getTstr_nil {d : DecCfg} : getTstr d [] = none := by simp [getTstr, getStr, getHead]

end Verif
