import Verif.Gen.Refine1

/-!
# The generated decoders of the plaintexts and the schema
-/

namespace Verif.Gen

variable {d : DecCfg}

/-- A decoder of a value reads it with `p`; `view` is what the structure then contains. Nothing is said about what it leaves
behind if it fails. -/
def ReadsAs {α β : Type} (f : Dec β) (zero : β) (p : Bytes → Option (α × Bytes)) (view : β → α) (room : Nat) : Prop :=
  ∀ bs e i B R, e ≠ 0 → B.length + room ≤ R →
    match p bs with
    | some (a, r) => ∃ x, f ⟨⟨bs, e, i⟩, B, R⟩ zero = (true, ⟨⟨r, e - 1, i⟩, B, R⟩, x) ∧ view x = a
    | none => ∃ s x, f ⟨⟨bs, e, i⟩, B, R⟩ zero = (false, s, x)

/-- integer or string, choice "int" -/
def IntStr.zeroInt : IntStr := ⟨0, .zero, true⟩

/-- integer or string of major type `m` -/
def getIntOrStr (d : DecCfg) (m : Nat) (bs : Bytes) : Option (IntOrBytes × Bytes) :=
  match getInt d bs with
  | some (v, r) => some (.int v, r)
  | none => match getStr d m bs with
    | some (b, r) => some (.bstr b, r)
    | none => none

theorem decodeIntStr_reads (m : Nat) : ReadsAs (decodeIntStr d m) .zeroInt (getIntOrStr d m) IntStr.value 1 := by
  intro bs e i B R he hB
  have hu : unionStart ⟨⟨bs, e, i⟩, B, R⟩ IntStr.zeroInt = (true, ⟨⟨bs, e, i⟩, ⟨bs, e, i⟩ :: B, R⟩, .zeroInt) := unionStart_eq (by omega)
  unfold decodeIntStr
  rw [seq_true hu]
  unfold getIntOrStr
  cases hi : getInt d bs with
  | some y =>
    obtain ⟨v, r⟩ := y
    exact ⟨_, unionEnd_eq (alt_true ((seq_true (into_eq (int32_some he hi))).trans assign_eq)), rfl⟩
  | none =>
    cases hb : getStr d m bs with
    | some y =>
      obtain ⟨b, r⟩ := y
      refine ⟨_, unionEnd_eq ((alt_false (seq_false (into_eq (int32_none he hi)))).trans
        ((seq_true (into_eq (str_some he hb))).trans assign_eq)), ?_⟩
      simp [IntStr.value, IntStr.setStr]
    | none =>
      exact ⟨_, _, unionEnd_eq ((alt_false (seq_false (into_eq (int32_none he hi)))).trans
        (seq_false (into_eq (str_none he hb))))⟩

theorem decodeX509_reads : ReadsAs (decodeX509 d) .zero (getX5chain d) X509R.value 2 := by
  intro bs e i B R he hB
  have hu : unionStart ⟨⟨bs, e, i⟩, B, R⟩ X509R.zero = (true, ⟨⟨bs, e, i⟩, ⟨bs, e, i⟩ :: B, R⟩, .zero) := unionStart_eq (by omega)
  unfold decodeX509
  rw [seq_true hu]
  unfold getX5chain
  cases hb : getBstr d bs with
  | some y =>
    obtain ⟨b, r⟩ := y
    refine ⟨_, unionEnd_eq (alt_true ((seq_true (into_eq (str_some he hb))).trans assign_eq)), ?_⟩
    simp [X509R.value]
  | none =>
    have h1 := (into_eq (get := X509R.one) (put := fun z r => { r with one := z }) (r := .zero)
      (str_none (d := d) (i := i) (B := ⟨bs, e, i⟩ :: B) (R := R) (x := X509R.zero.one) he hb))
    simp only
    cases hc : getContainer d 4 bs with
    | none =>
      exact ⟨_, _, unionEnd_eq ((alt_false (seq_false h1)).trans ((seq_true unionElem_eq).trans
        (seq_false (seq_false (containerStart_none hc)))))⟩
    | some y =>
      obtain ⟨n, r⟩ := y
      have hcs := containerStart_some (ρ := X509R) (x := { X509R.zero with one := leftStr d 2 bs X509R.zero.one }) (i := i)
        (B := ⟨bs, e, i⟩ :: B) (R := R) he (by simp; omega) hc
      obtain ⟨rest', hm, hcnt⟩ := multi_elems (zero := ZStr.zero) (k := 2) (most := 3) (B := ⟨r, e - 1, i⟩ :: ⟨bs, e, i⟩ :: B) (R := R)
        (bs := r) (a := ([.zero, .zero, .zero], 0)) (str_reads (d := d) 2) (Cnt.start n (by decide)) (by simp)
      have hgb : getElems (getStr d 2) 3 n r = getElems (getBstr d) 3 n r := rfl
      rw [hgb] at hm hcnt
      rcases hg : getElems (getBstr d) 3 n r with ⟨xs, n', r'⟩
      rw [hg] at hm hcnt
      simp only at hm hcnt ⊢
      rw [hg]
      simp only
      by_cases h2 : 2 ≤ xs.length
      · simp only [decide_eq_true h2] at hm
        rw [if_pos h2]
        cases hend : endContainer n' r' with
        | some r'' =>
          refine ⟨_, unionEnd_eq ((alt_false (seq_false h1)).trans ((seq_true unionElem_eq).trans ((seq_true
            ((seq_true hcs).trans ((seq_true (orForce_true (into_eq (get := X509R.certs)
              (r := { X509R.zero with one := leftStr d 2 bs X509R.zero.one }) hm))).trans
              (containerEnd_some hcnt hend)))).trans assign_eq))), ?_⟩
          simp only [X509R.value, if_true]
          rw [show xs.length = (xs.map zstr).length by simp, List.take_left, List.map_map]
          congr 1
          conv => rhs; rw [← List.map_id xs]
          exact List.map_congr_left fun b _ => bytes_some b
        | none =>
          have h3 := ((alt_false (g := unionElem.and
        (((listStart d).and
          (((multi (str d 2) .zero 2 3).into X509R.certs fun a r => { r with certs := a }).orForce.and containerEnd)).and
          (assign fun r => { r with isList := true }))) (seq_false (g := assign fun r => { r with isList := false }) h1)).trans ((seq_true unionElem_eq).trans (seq_false
            ((seq_true hcs).trans ((seq_true (orForce_true (into_eq (get := X509R.certs)
              (r := { X509R.zero with one := leftStr d 2 bs X509R.zero.one }) hm))).trans
              (containerEnd_none (by decide) hcnt hend))))))
          cases n' with
          | none => exact ⟨_, _, unionEnd_eq h3⟩
          | some k => exact ⟨_, _, unionEnd_eq h3⟩
      · simp only [decide_eq_false h2] at hm
        rw [if_neg h2]
        exact ⟨_, _, unionEnd_eq ((alt_false (seq_false h1)).trans ((seq_true unionElem_eq).trans (seq_false
            ((seq_true hcs).trans (seq_false (orForce_false (into_eq (get := X509R.certs)
              (r := { X509R.zero with one := leftStr d 2 bs X509R.zero.one }) hm)))))))⟩

theorem useElem_cnt {c : Nat} {n : Option Nat} {e k : Nat} {i : Bool} (hn : Cnt c n e i (k + c)) :
    match useElem n with
    | none => e = 0
    | some n' => c ≤ e ∧ Cnt c n' (e - c) i k := by
  match n with
  | some 0 => exact hn.1
  | some (m + 1) =>
    obtain ⟨rfl, rfl⟩ := hn
    rw [Nat.mul_add]
    exact ⟨by omega, by omega, rfl⟩
  | none =>
    obtain ⟨h1, h2, rfl⟩ := hn
    exact ⟨by omega, by omega, by omega, rfl⟩

theorem orForce_any {ρ : Type} {f : Dec ρ} {s s' : State} {r r' : ρ} (h : f s r = (false, s', r')) :
    ∃ s'', f.orForce s r = (false, s'', r') := by
  refine ⟨(s'.process true true false maxElems).2, ?_⟩
  unfold Dec.orForce
  rw [h]

theorem unionEnd_any {ρ : Type} {f : Dec ρ} {s s' : State} {r r' : ρ} {b : Bool} (h : f s r = (b, s', r')) :
    ∃ s'', f.unionEnd s r = (b, s'', r') := by
  refine ⟨(s'.process false true false s'.cur.elems).2, ?_⟩
  unfold Dec.unionEnd
  rw [h]

theorem decodeCertHash_reads : ReadsAs (decodeCertHash d) .zero (getCertHash d) CertHashR.value 2 := by
  intro bs e i B R he hB
  unfold decodeCertHash getCertHash
  cases hc : getContainer d 4 bs with
  | none => exact ⟨_, _, seq_false (containerStart_none hc)⟩
  | some y =>
    obtain ⟨n, r⟩ := y
    have hcs := containerStart_some (ρ := CertHashR) (x := .zero) (i := i) (B := B) (R := R) he (by omega) hc
    have hcnt : Cnt 1 n (n.getD largeElems) n.isNone (1 + 1) := Cnt.start n (by decide)
    generalize n.getD largeElems = e0 at hcs hcnt
    generalize n.isNone = i0 at hcs hcnt
    have hu := useElem_cnt hcnt
    rw [seq_true (f := listStart d) hcs]
    simp only
    cases hu1 : useElem n with
    | none =>
      rw [hu1] at hu
      simp only at hu
      subst hu
      have h1 : decodeIntStr d 3 ⟨⟨r, 0, i0⟩, ⟨r, e - 1, i⟩ :: B, R⟩ .zeroInt = (false, ⟨⟨r, 0, i0⟩, ⟨r, e - 1, i⟩ :: B, R⟩, .zeroInt) := by
        unfold decodeIntStr
        exact (seq_true (unionStart_eq (by simp; omega))).trans (unionEnd_eq ((alt_false (seq_false (into_eq int32_zero))).trans
          (seq_false (into_eq str_zero))))
      exact ⟨_, _, seq_false (orForce_false (seq_false (into_eq (get := CertHashR.alg) (r := .zero) h1)))⟩
    | some n1 =>
      rw [hu1] at hu
      obtain ⟨he0, hc1⟩ := hu
      have h1 := decodeIntStr_reads (d := d) 3 r e0 i0 (⟨r, e - 1, i⟩ :: B) R (by omega) (by simp; omega)
      have hgt : getIntOrStr d 3 r = getIntOrTstr d r := rfl
      rw [hgt] at h1
      simp only
      cases ha : getIntOrTstr d r with
      | none =>
        simp only
        rw [ha] at h1
        obtain ⟨s, x, h1⟩ := h1
        have h2 := seq_false (g := (str d 2).into CertHashR.hash fun z r => { r with hash := z })
          (into_eq (get := CertHashR.alg) (put := fun v r => { r with alg := v }) (r := .zero) h1)
        obtain ⟨s', h3⟩ := orForce_any h2
        exact ⟨_, _, seq_false h3⟩
      | some y =>
        obtain ⟨a, r1⟩ := y
        rw [ha] at h1
        obtain ⟨x, h1, h1v⟩ := h1
        have h1 := into_eq (get := CertHashR.alg) (put := fun v r => { r with alg := v }) (r := .zero) h1
        have hu := useElem_cnt hc1
        simp only
        cases hu2 : useElem n1 with
        | none =>
          rw [hu2] at hu
          simp only at hu
          rw [hu] at h1
          exact ⟨_, _, seq_false (orForce_false ((seq_true h1).trans (into_eq str_zero)))⟩
        | some n2 =>
          rw [hu2] at hu
          obtain ⟨he1, hc2⟩ := hu
          simp only
          cases hb : getBstr d r1 with
          | none => exact ⟨_, _, seq_false (orForce_false ((seq_true h1).trans (into_eq (str_none (by omega) hb))))⟩
          | some y =>
            obtain ⟨b, r2⟩ := y
            have h2 := (seq_true h1).trans (into_eq (get := CertHashR.hash) (put := fun z r => { r with hash := z })
              (str_some (i := i0) (B := ⟨r, e - 1, i⟩ :: B) (R := R) (by omega) hb))
            simp only
            cases hend : endContainer n2 r2 with
            | some r3 =>
              refine ⟨_, (seq_true (orForce_true h2)).trans (containerEnd_some hc2 hend), ?_⟩
              simp [CertHashR.value, h1v]
            | none =>
              exact ⟨_, _, (seq_true (orForce_true h2)).trans (containerEnd_none (by decide) hc2 hend)⟩

/-! ## The map -/

theorem expectUint_ne {k k' : Nat} {bs r : Bytes} (h : expectUint d k bs = some r) (hk : k ≠ k') : expectUint d k' bs = none := by
  unfold expectUint at h ⊢
  split at h
  · split at h
    · rename_i hm
      rw [if_neg (by omega)]
    · simp at h
  · simp at h

theorem expectUint_notBreak {k : Nat} {bs r : Bytes} (h : expectUint d k bs = some r) : ∃ b t, bs = b :: t ∧ b ≠ 0xFF := by
  unfold expectUint at h
  split at h
  · rename_i m a r' hh
    split at h
    · rename_i hm
      cases bs with
      | nil => simp [getHead] at hh
      | cons b t =>
        refine ⟨b, t, rfl, ?_⟩
        rintro rfl
        simp [getHead] at hh
    · simp at h
  · simp at h

/-- A map entry was begun that could not be read: its key is still the next item. Nothing can succeed from here. -/
def Stuck (d : DecCfg) (k : Nat) (s : State) (n : Option Nat) (bs : Bytes) : Prop :=
  s.cur.payload = bs ∧ s.cur.elems ≠ 0 ∧ (∃ r, expectUint d k bs = some r) ∧ n ≠ some 0

theorem Stuck.ends {ρ : Type} {k : Nat} {s : State} {n : Option Nat} {bs : Bytes} {x : ρ} (h : Stuck d k s n bs) :
    (∃ s', containerEnd s x = (false, s', x)) ∧ endContainer n bs = none := by
  obtain ⟨h1, h2, ⟨r, h3⟩, h4⟩ := h
  obtain ⟨b, t, rfl, hb⟩ := expectUint_notBreak h3
  constructor
  · have h : (containerEnd s x).1 = false := by
      simp only [containerEnd, lift, h1, hb, if_false]
      split
      · rfl
      · unfold State.process
        split
        · rfl
        · simp only
          rw [if_pos (by omega)]
    exact ⟨(containerEnd s x).2.1, Prod.ext h rfl⟩
  · match n, h4 with
    | none, _ => simp [endContainer, hb]
    | some (m + 1), _ => rfl

theorem Stuck.entry {α β : Type} {k k' : Nat} (hk : k ≠ k') {f : Dec β} {p : Bytes → Option (α × Bytes)} {zero : β} {s : State}
    {n : Option Nat} {bs : Bytes} {x : Bool × β} (h : Stuck d k s n bs) :
    (∃ s' x', present ((uint32Expect d k').and f) zero s x = (true, s', x') ∧ Stuck d k s' n bs) ∧
      getEntry d k' p n bs = (none, n, bs) := by
  obtain ⟨h1, h2, ⟨r, h3⟩, h4⟩ := h
  have h5 := expectUint_ne h3 hk
  constructor
  · have h6 : uint32Expect d k' s ([x.2].getD 0 zero) = (false, s, [x.2].getD 0 zero) := uint32_none (by rw [h1]; exact h5)
    refine ⟨s, (false, x.2), ?_, ?_⟩
    · unfold present
      simp only [multiGo, seq_false h6]
      simp
    · exact ⟨h1, h2, ⟨r, h3⟩, h4⟩
  · unfold getEntry
    rw [h5]
    cases useElem n <;> rfl

theorem present_entry {α β : Type} {k : Nat} {f : Dec β} {p : Bytes → Option (α × Bytes)} {view : β → α} {zero : β} {room : Nat}
    (hf : ReadsAs f zero p view room) {n : Option Nat} {bs : Bytes} {e j : Nat} {i : Bool} {B : List Frame} {R : Nat}
    (hn : Cnt 2 n e i (j + 2)) (hB : B.length + room ≤ R) :
    ∃ s x, present ((uint32Expect d k).and f) zero ⟨⟨bs, e, i⟩, B, R⟩ (false, zero) = (true, s, x) ∧
      (if x.1 then some (view x.2) else none) = (getEntry d k p n bs).1 ∧
      ((∃ e', s = ⟨⟨(getEntry d k p n bs).2.2, e', i⟩, B, R⟩ ∧ Cnt 2 (getEntry d k p n bs).2.1 e' i j) ∨
        (getEntry d k p n bs = (none, n, bs) ∧ Stuck d k s n bs)) := by
  have hn0 : Cnt 2 n e i j := by
    cases n with
    | none => exact ⟨by have := hn.1; omega, hn.2.1, hn.2.2⟩
    | some m => exact hn
  have hu := useElem_cnt hn
  have fails : ∀ s' y, ((uint32Expect d k).and f) ⟨⟨bs, e, i⟩, B, R⟩ zero = (false, s', y) →
      present ((uint32Expect d k).and f) zero ⟨⟨bs, e, i⟩, B, R⟩ (false, zero) =
        (true, { s' with cur := { s'.cur with payload := bs, elems := e } }, (false, y)) := by
    intro s' y h
    unfold present
    simp only [multiGo, List.getD_cons_zero, h, List.set_cons_zero]
    rfl
  unfold getEntry
  cases hu1 : useElem n with
  | none =>
    rw [hu1] at hu
    simp only at hu
    have h1 := fails _ _ (seq_false (uint32_zero (by simpa using hu)))
    exact ⟨_, _, h1, rfl, Or.inl ⟨e, rfl, hn0⟩⟩
  | some n' =>
    rw [hu1] at hu
    obtain ⟨he, hn'⟩ := hu
    simp only
    cases hk : expectUint d k bs with
    | none =>
      have h1 := fails _ _ (seq_false (uint32_none hk))
      exact ⟨_, _, h1, rfl, Or.inl ⟨e, rfl, hn0⟩⟩
    | some r =>
      have h1 := hf r (e - 1) i B R (by omega) hB
      have h2 := uint32_some (x := zero) (i := i) (B := B) (R := R) (show e ≠ 0 by omega) hk
      simp only
      cases hp : p r with
      | none =>
        rw [hp] at h1
        obtain ⟨s', y, h1⟩ := h1
        have h3 := fails _ _ ((seq_true h2).trans h1)
        refine ⟨_, _, h3, rfl, Or.inr ⟨rfl, rfl, by simp only; omega, ⟨r, hk⟩, ?_⟩⟩
        rintro rfl
        simp [useElem] at hu1
      | some y =>
        obtain ⟨a, r'⟩ := y
        rw [hp] at h1
        obtain ⟨x, h1, hv⟩ := h1
        have h3 : present ((uint32Expect d k).and f) zero ⟨⟨bs, e, i⟩, B, R⟩ (false, zero) =
            (true, ⟨⟨r', e - 1 - 1, i⟩, B, R⟩, (true, x)) := by
          unfold present
          simp only [multiGo, List.getD_cons_zero, (seq_true h2).trans h1, List.set_cons_zero]
          rfl
        exact ⟨_, _, h3, by simp [hv], Or.inl ⟨e - 2, rfl, hn'⟩⟩

theorem mapStart_some {ρ : Type} {bs r : Bytes} {n : Option Nat} {e : Nat} {i : Bool} {B : List Frame} {R : Nat} {x : ρ}
    (he : e ≠ 0) (hB : B.length < R) (h : getContainer d 5 bs = some (n, r)) :
    (∃ e' i', mapStart d ⟨⟨bs, e, i⟩, B, R⟩ x = (true, ⟨⟨r, e', i'⟩, ⟨r, e - 1, i⟩ :: B, R⟩, x) ∧ Cnt 2 n e' i' 6) ∨
      ((∃ s, mapStart d ⟨⟨bs, e, i⟩, B, R⟩ x = (false, s, x)) ∧ ∃ m, n = some m ∧ 3 < m) := by
  have h1 := containerStart_some (x := x) (i := i) (B := B) (R := R) he hB h
  cases n with
  | none =>
    refine Or.inl ⟨largeElems, true, ?_, by decide, Nat.le_refl _, rfl⟩
    unfold mapStart
    rw [h1]
    rfl
  | some m =>
    by_cases hm : maxElems / 2 ≤ m
    · refine Or.inr ⟨⟨⟨⟨bs, m + 1, false⟩, ⟨r, e - 1, i⟩ :: B, R⟩, ?_⟩, m, rfl, ?_⟩
      · unfold mapStart
        rw [h1]
        simp only [Option.isNone_some, Option.getD_some, hm, if_true]
        rfl
      · have : (3 : Nat) < maxElems / 2 := by decide
        omega
    · refine Or.inl ⟨m * 2, false, ?_, by omega, rfl⟩
      unfold mapStart
      rw [h1]
      simp only [Option.isNone_some, Option.getD_some, hm, if_false]
      rfl

theorem getEntry_count {α : Type} {k : Nat} {p : Bytes → Option (α × Bytes)} {m : Nat} {bs : Bytes} :
    ∃ m', (getEntry d k p (some m) bs).2.1 = some m' ∧ m ≤ m' + 1 := by
  unfold getEntry
  cases m with
  | zero => exact ⟨0, rfl, by omega⟩
  | succ m =>
    simp only [useElem]
    cases expectUint d k bs with
    | none => exact ⟨m + 1, rfl, by omega⟩
    | some r =>
      simp only
      cases p r with
      | none => exact ⟨m + 1, rfl, by omega⟩
      | some y => exact ⟨m, rfl, by omega⟩

theorem getCredMap_big {m : Nat} {bs r : Bytes} (h : getContainer d 5 bs = some (some m, r)) (hm : 3 < m) :
    getCredMap d bs = none := by
  unfold getCredMap
  rw [h]
  simp only
  obtain ⟨m1, h1, h1'⟩ := getEntry_count (d := d) (k := 4) (p := getIntOrBstr d) (m := m) (bs := r)
  rcases g1 : getEntry d 4 (getIntOrBstr d) (some m) r with ⟨k, n1, r1⟩
  rw [g1] at h1
  simp only at h1 ⊢
  subst h1
  obtain ⟨m2, h2, h2'⟩ := getEntry_count (d := d) (k := 33) (p := getX5chain d) (m := m1) (bs := r1)
  rcases g2 : getEntry d 33 (getX5chain d) (some m1) r1 with ⟨k2, n2, r2⟩
  rw [g2] at h2
  simp only at h2 ⊢
  subst h2
  obtain ⟨m3, h3, h3'⟩ := getEntry_count (d := d) (k := 34) (p := getCertHash d) (m := m2) (bs := r2)
  rcases g3 : getEntry d 34 (getCertHash d) (some m2) r2 with ⟨k3, n3, r3⟩
  rw [g3] at h3
  simp only at h3 ⊢
  subst h3
  obtain ⟨m4, rfl⟩ : ∃ m4, m3 = m4 + 1 := ⟨m3 - 1, by omega⟩
  rfl

theorem decodeMap_reads : ReadsAs (decodeMap d) .zero (getCredMap d) MapR.value 3 := by
  intro bs e i B R he hB
  cases hc : getContainer d 5 bs with
  | none =>
    have : getCredMap d bs = none := by simp [getCredMap, hc]
    rw [this]
    have h0 : mapStart d ⟨⟨bs, e, i⟩, B, R⟩ MapR.zero = (false, ⟨⟨bs, e, i⟩, B, R⟩, .zero) := by
      unfold mapStart
      rw [containerStart_none hc]
    exact ⟨_, _, seq_false h0⟩
  | some y =>
    obtain ⟨n, r⟩ := y
    rcases mapStart_some (x := MapR.zero) (i := i) (B := B) (R := R) he (by omega) hc with ⟨e0, i0, h0, hn0⟩ | ⟨⟨s, h0⟩, m, rfl, hm⟩
    rotate_left
    · rw [getCredMap_big hc hm]
      exact ⟨_, _, seq_false h0⟩
    unfold decodeMap getCredMap
    rw [hc, seq_true h0]
    simp only
    -- the three entries, in a world that is still good or already stuck
    obtain ⟨s1, x1, h1, v1, c1⟩ := present_entry (d := d) (k := 4) (decodeIntStr_reads 2) (bs := r) (B := ⟨r, e - 1, i⟩ :: B) (R := R)
      (j := 4) hn0 (by simp; omega)
    have g1' : getEntry d 4 (getIntOrStr d 2) n r = getEntry d 4 (getIntOrBstr d) n r := rfl
    rw [g1'] at v1 c1
    rcases g1 : getEntry d 4 (getIntOrBstr d) n r with ⟨k1, n1, r1⟩
    rw [g1] at v1 c1
    simp only at v1 c1 ⊢
    have h1 := into_eq (get := MapR.kid) (put := fun v r => { r with kid := v }) (r := .zero) h1
    rcases c1 with ⟨e1, rfl, hn1⟩ | ⟨hg, hs1⟩
    rotate_left
    · simp only [Prod.mk.injEq] at hg
      obtain ⟨rfl, rfl, rfl⟩ := hg
      obtain ⟨⟨s2, x2, h2, hs2⟩, g2⟩ := hs1.entry (k' := 33) (by decide) (f := decodeX509 d) (p := getX5chain d) (zero := .zero)
        (x := (false, .zero))
      obtain ⟨⟨s3, x3, h3, hs3⟩, g3⟩ := hs2.entry (k' := 34) (by decide) (f := decodeCertHash d) (p := getCertHash d) (zero := .zero)
        (x := (false, .zero))
      rw [g2]
      simp only
      rw [g3]
      simp only
      rw [hs3.ends (x := MapR.zero).2]
      obtain ⟨⟨s4, h4⟩, -⟩ := hs3.ends (x := (⟨x1, x2, x3⟩ : MapR))
      exact ⟨_, _, (seq_true (orForce_true ((seq_true h1).trans ((seq_true (into_eq (get := MapR.x5chain) h2)).trans
        (into_eq (get := MapR.x5t) h3))))).trans h4⟩
    obtain ⟨s2, x2, h2, v2, c2⟩ := present_entry (d := d) (k := 33) decodeX509_reads (bs := r1) (B := ⟨r, e - 1, i⟩ :: B) (R := R)
      (j := 2) hn1 (by simp; omega)
    rcases g2 : getEntry d 33 (getX5chain d) n1 r1 with ⟨k2, n2, r2⟩
    rw [g2] at v2 c2
    simp only at v2 c2 ⊢
    rcases c2 with ⟨e2, rfl, hn2⟩ | ⟨hg, hs2⟩
    rotate_left
    · simp only [Prod.mk.injEq] at hg
      obtain ⟨rfl, rfl, rfl⟩ := hg
      obtain ⟨⟨s3, x3, h3, hs3⟩, g3⟩ := hs2.entry (k' := 34) (by decide) (f := decodeCertHash d) (p := getCertHash d) (zero := .zero)
        (x := (false, .zero))
      rw [g3]
      simp only
      rw [hs3.ends (x := MapR.zero).2]
      obtain ⟨⟨s4, h4⟩, -⟩ := hs3.ends (x := (⟨x1, x2, x3⟩ : MapR))
      exact ⟨_, _, (seq_true (orForce_true ((seq_true h1).trans ((seq_true (into_eq (get := MapR.x5chain) h2)).trans
        (into_eq (get := MapR.x5t) h3))))).trans h4⟩
    obtain ⟨s3, x3, h3, v3, c3⟩ := present_entry (d := d) (k := 34) decodeCertHash_reads (bs := r2) (B := ⟨r, e - 1, i⟩ :: B) (R := R)
      (j := 0) hn2 (by simp; omega)
    rcases g3 : getEntry d 34 (getCertHash d) n2 r2 with ⟨k3, n3, r3⟩
    rw [g3] at v3 c3
    simp only at v3 c3 ⊢
    have h3' := (seq_true h1).trans ((seq_true (into_eq (get := MapR.x5chain) (put := fun v r => { r with x5chain := v }) h2)).trans
        (into_eq (get := MapR.x5t) (put := fun v r => { r with x5t := v }) h3))
    rcases c3 with ⟨e3, rfl, hn3⟩ | ⟨hg, hs3⟩
    rotate_left
    · simp only [Prod.mk.injEq] at hg
      obtain ⟨rfl, rfl, rfl⟩ := hg
      rw [hs3.ends (x := MapR.zero).2]
      obtain ⟨⟨s4, h4⟩, -⟩ := hs3.ends (x := (⟨x1, x2, x3⟩ : MapR))
      exact ⟨_, _, (seq_true (orForce_true h3')).trans h4⟩
    cases hend : endContainer n3 r3 with
    | none => exact ⟨_, _, (seq_true (orForce_true h3')).trans (containerEnd_none (by decide) hn3 hend)⟩
    | some r4 =>
      refine ⟨_, (seq_true (orForce_true h3')).trans (containerEnd_some hn3 hend), ?_⟩
      simp only [MapR.value, v1, v2, v3]

/-! ## The plaintexts -/

theorem decodeIdCred_reads : ReadsAs (decodeIdCred d) .zero (getIdCred d) IdCredR.value 4 := by
  intro bs e i B R he hB
  have hu : unionStart ⟨⟨bs, e, i⟩, B, R⟩ IdCredR.zero = (true, ⟨⟨bs, e, i⟩, ⟨bs, e, i⟩ :: B, R⟩, .zero) := unionStart_eq (by omega)
  unfold decodeIdCred
  rw [seq_true hu]
  unfold getIdCred
  cases hi : getInt d bs with
  | some y =>
    obtain ⟨v, r⟩ := y
    exact ⟨_, unionEnd_eq (alt_true ((seq_true (into_eq (int32_some he hi))).trans assign_eq)), rfl⟩
  | none =>
    simp only
    cases hb : getBstr d bs with
    | some y =>
      obtain ⟨b, r⟩ := y
      refine ⟨_, unionEnd_eq ((alt_false (seq_false (into_eq (int32_none he hi)))).trans
        (alt_true ((seq_true (into_eq (str_some he hb))).trans assign_eq))), ?_⟩
      simp [IdCredR.value]
    | none =>
      have hm := decodeMap_reads (d := d) bs e i (⟨bs, e, i⟩ :: B) R he (by simp; omega)
      simp only
      cases hg : getCredMap d bs with
      | some y =>
        obtain ⟨m, r⟩ := y
        rw [hg] at hm
        obtain ⟨x, hm, hv⟩ := hm
        refine ⟨_, unionEnd_eq ((alt_false (seq_false (into_eq (int32_none he hi)))).trans
          ((alt_false (seq_false (into_eq (str_none he hb)))).trans ((seq_true unionElem_eq).trans
            ((seq_true (into_eq (get := IdCredR.map) hm)).trans assign_eq)))), ?_⟩
        simp only [IdCredR.value, hv]
      | none =>
        rw [hg] at hm
        obtain ⟨s, x, hm⟩ := hm
        obtain ⟨s', h⟩ := unionEnd_any (((alt_false (g := Dec.or
          (((str d 2).into IdCredR.str fun z r => { r with str := z }).and (assign fun r => { r with choice := .bstr }))
          (unionElem.and (((decodeMap d).into IdCredR.map fun v r => { r with map := v }).and
            (assign fun r => { r with choice := .map })))) (seq_false (g := assign fun r => { r with choice := .int })
              (into_eq (get := IdCredR.int) (put := fun v r => { r with int := v, str := { r.str with ptr := none } })
              (r := .zero) (int32_none he hi))))).trans
          ((alt_false (seq_false (into_eq (str_none he hb)))).trans ((seq_true unionElem_eq).trans
            (seq_false (into_eq (get := IdCredR.map) hm)))))
        exact ⟨_, _, h⟩

/-- `cbor_decode_plaintext_3` and the part of `cbor_decode_plaintext_2` after C_R. -/
theorem decodePtxt_eq {bs : Bytes} {e : Nat} {i : Bool} {B : List Frame} {R : Nat} (he : 8 ≤ e) (hB : B.length + 4 ≤ R) :
    ∃ b s r, decodePtxt d ⟨⟨bs, e, i⟩, B, R⟩ .zero = (b, s, r) ∧ (if b then some r.value else none) = getPtxt3 d bs ∧
      (b = true → overs r.ead = stalePtxt3 d bs) ∧ r.eadPresent = !(toks r.ead).isEmpty := by
  unfold decodePtxt getPtxt3 stalePtxt3
  have h1 := decodeIdCred_reads (d := d) bs e i B R (by omega) hB
  cases hg : getIdCred d bs with
  | none =>
    rw [hg] at h1
    obtain ⟨s, x, h1⟩ := h1
    exact ⟨_, _, _, seq_false (into_eq (get := PtxtR.id) h1), rfl, by simp, rfl⟩
  | some y =>
    obtain ⟨id, r1⟩ := y
    rw [hg] at h1
    obtain ⟨x, h1, hv⟩ := h1
    rw [seq_true (into_eq (get := PtxtR.id) (r := .zero) h1)]
    simp only
    cases hb : getBstr d r1 with
    | none => exact ⟨_, _, _, seq_false (into_eq (str_none (by omega) hb)), rfl, by simp, rfl⟩
    | some y =>
      obtain ⟨sg, r2⟩ := y
      rw [seq_true (into_eq (str_some (by omega) hb))]
      obtain ⟨b, s', a, h3, h4, h5, h6⟩ := decodeEad_eq (d := d) (bs := r2) (e := e - 1 - 1) (i := i) (B := B) (R := R) (by omega)
      refine ⟨_, _, _, noting_eq (into_eq (get := PtxtR.ead) h3), ?_, fun _ => h5, h6⟩
      simp [PtxtR.value, hv, h4]

/-- what the library reads from a `struct plaintext_2` -/
def Ptxt2R.value (r : Ptxt2R) : Cid × Ptxt := (r.cr.cid, r.rest.value)

theorem cborDecodePtxt3_eq (bs : Bytes) :
    ∃ b rest r, cborDecodePtxt3 d bs = (b, rest, r) ∧ (if b then some r.value else none) = getPtxt3 d bs ∧
      (b = true → overs r.ead = stalePtxt3 d bs) ∧ r.eadPresent = !(toks r.ead).isEmpty := by
  obtain ⟨b, s, r, h1, h2⟩ := decodePtxt_eq (d := d) (bs := bs) (e := 8) (i := false) (B := []) (R := 4) (by decide) (by decide)
  exact ⟨b, s.cur.payload, r, by simp only [cborDecodePtxt3, entry, h1], h2⟩

theorem cborDecodePtxt2_eq (bs : Bytes) :
    ∃ b rest r, cborDecodePtxt2 d bs = (b, rest, r) ∧ (if b then some r.value else none) = getPtxt2 d bs ∧
      (b = true → overs r.rest.ead = stalePtxt2 d bs) ∧ r.rest.eadPresent = !(toks r.rest.ead).isEmpty := by
  suffices h : ∃ b s r, decodePtxt2 d ⟨⟨bs, 9, false⟩, [], 4⟩ .zero = (b, s, r) ∧
      (if b then some r.value else none) = getPtxt2 d bs ∧ (b = true → overs r.rest.ead = stalePtxt2 d bs) ∧ r.rest.eadPresent = !(toks r.rest.ead).isEmpty by
    obtain ⟨b, s, r, h1, h2⟩ := h
    exact ⟨b, s.cur.payload, r, by simp only [cborDecodePtxt2, entry, h1], h2⟩
  unfold decodePtxt2 getPtxt2 stalePtxt2
  cases hc : getCid d bs with
  | none =>
    obtain ⟨s, x, h1, -⟩ := decodeCid_none (e := 9) (i := false) (B := []) (R := 4) (by decide) (by decide) hc
    exact ⟨_, _, _, seq_false (into_eq (get := Ptxt2R.cr) h1), rfl, by simp, rfl⟩
  | some y =>
    obtain ⟨c, r1⟩ := y
    obtain ⟨x, h1, h2, -⟩ := decodeCid_some (e := 9) (i := false) (B := []) (R := 4) (by decide) (by decide) hc
    rw [seq_true (into_eq (get := Ptxt2R.cr) h1)]
    obtain ⟨b, s, r, h3, h4, h5, h6⟩ := decodePtxt_eq (d := d) (bs := r1) (e := 8) (i := false) (B := []) (R := 4) (by decide) (by decide)
    refine ⟨_, _, _, into_eq (get := Ptxt2R.rest) h3, ?_, h5, h6⟩
    simp only
    rw [← h4]
    cases b
    · rfl
    · simp [Ptxt2R.value, h2]

theorem cborDecodePtxt4_eq (bs : Bytes) :
    ∃ rest r, cborDecodePtxt4 d bs = (true, rest, r) ∧ toks r.ead = getPtxt4 d bs ∧ overs r.ead = staleEad d 3 bs ∧
      r.present = !(toks r.ead).isEmpty := by
  obtain ⟨b, s', a, h3, h4, h5, h6⟩ := decodeEad_eq (d := d) (bs := bs) (e := 6) (i := false) (B := []) (R := 0) (by decide)
  have h := noting_eq (put := fun b r => { r with present := b }) (into_eq (get := Ptxt4R.ead) (put := fun v r => { r with ead := v })
    (r := .zero) h3)
  refine ⟨s'.cur.payload, ⟨a, b⟩, ?_, h4, h5, h6⟩
  unfold cborDecodePtxt4 entry decodePtxt4
  rw [h]

theorem cborDecodeBstr_eq (bs : Bytes) :
    ∃ b rest r, cborDecodeBstr d bs = (b, rest, r) ∧ (if b then some r.bytes else none) = getMsgBstr d bs := by
  unfold cborDecodeBstr entry getMsgBstr
  cases hb : getBstr d bs with
  | none => rw [str_none (by decide) hb]; exact ⟨_, _, _, rfl, rfl⟩
  | some y => rw [str_some (by decide) hb]; exact ⟨_, _, _, rfl, by simp⟩

theorem cborDecodeInt_eq (bs : Bytes) :
    ∃ b rest r, cborDecodeInt d bs = (b, rest, r) ∧ (if b then some (r, rest) else none) = getInt d bs := by
  unfold cborDecodeInt entry
  cases hb : getInt d bs with
  | none => rw [int32_none (by decide) hb]; exact ⟨_, _, _, rfl, rfl⟩
  | some y => rw [int32_some (by decide) hb]; exact ⟨_, _, _, rfl, by simp⟩

/-! ## The error message -/

theorem decodeErrInfo_reads {bs : Bytes} {i : Bool} {B : List Frame} {R : Nat} (hB : B.length + 3 ≤ R) :
    match getErrInfo d bs with
    | some (a, _) => ∃ s x, decodeErrInfo d ⟨⟨bs, 1, i⟩, B, R⟩ .zero = (true, s, x) ∧ x.value = a
    | none => ∃ s x, decodeErrInfo d ⟨⟨bs, 1, i⟩, B, R⟩ .zero = (false, s, x) := by
  have hu : unionStart ⟨⟨bs, 1, i⟩, B, R⟩ ErrInfoR.zero = (true, ⟨⟨bs, 1, i⟩, ⟨bs, 1, i⟩ :: B, R⟩, .zero) := unionStart_eq (by omega)
  unfold decodeErrInfo
  rw [seq_true hu]
  unfold getErrInfo
  cases hb : getTstr d bs with
  | some y =>
    obtain ⟨b, r⟩ := y
    refine ⟨_, _, unionEnd_eq (alt_true ((seq_true (into_eq (str_some (by decide) hb))).trans assign_eq)), ?_⟩
    simp [ErrInfoR.value]
  | none =>
    simp only
    rcases hg : getSuites d false bs with ⟨_ | ⟨su, r⟩, l⟩
    · simp only
      obtain ⟨s, x, h1, -, hR, hbk⟩ := decodeSuites_none (e := 1) (i := i) (B := ⟨bs, 1, i⟩ :: B) (R := R) (by decide) (by simp; omega) hg
      obtain ⟨B', hs⟩ : ∃ B', s = ⟨s.cur, ⟨bs, 1, i⟩ :: B', R⟩ := by
        obtain ⟨c, k, R'⟩ := s
        simp only at hR hbk
        subst hR
        rcases hbk with rfl | ⟨rfl, -⟩
        · exact ⟨_, rfl⟩
        · exact ⟨_, rfl⟩
      rw [hs] at h1
      cases ht : expectTrue bs with
      | some r =>
        have h2 : trueExpect ⟨⟨bs, 1, i⟩, ⟨bs, 1, i⟩ :: B', R⟩ (⟨leftStr d 3 bs .zero, x, .text⟩ : ErrInfoR) =
            (true, ⟨⟨r, 0, i⟩, ⟨bs, 1, i⟩ :: B', R⟩, ⟨leftStr d 3 bs .zero, x, .text⟩) := by
          simp [trueExpect, ht, State.eat]
        exact ⟨_, _, unionEnd_eq ((alt_false (seq_false (into_eq (str_none (by decide) hb)))).trans
          ((alt_false ((seq_true unionElem_eq).trans (seq_false (into_eq (get := ErrInfoR.suites) h1)))).trans
            ((seq_true unionElem_eq).trans ((seq_true h2).trans assign_eq)))), rfl⟩
      | none =>
        have h2 : trueExpect ⟨⟨bs, 1, i⟩, ⟨bs, 1, i⟩ :: B', R⟩ (⟨leftStr d 3 bs .zero, x, .text⟩ : ErrInfoR) =
            (false, ⟨⟨bs, 1, i⟩, ⟨bs, 1, i⟩ :: B', R⟩, ⟨leftStr d 3 bs .zero, x, .text⟩) := by
          simp [trueExpect, ht]
        exact ⟨_, _, unionEnd_eq ((alt_false (seq_false (into_eq (str_none (by decide) hb)))).trans
          ((alt_false ((seq_true unionElem_eq).trans (seq_false (into_eq (get := ErrInfoR.suites) h1)))).trans
            ((seq_true unionElem_eq).trans (seq_false h2))))⟩
    · obtain ⟨s, x, h1, h2, -⟩ := decodeSuites_some (e := 1) (i := i) (B := ⟨bs, 1, i⟩ :: B) (R := R) (by decide) (by simp; omega) hg
      simp only
      obtain ⟨s', h⟩ := unionEnd_any ((alt_false (g := Dec.or
          (unionElem.and (((decodeSuites d).into ErrInfoR.suites fun v r => { r with suites := v }).and
            (assign fun r => { r with choice := .suites })))
          (unionElem.and (trueExpect.and (assign fun r => { r with choice := .bool })))) (seq_false
            (g := assign fun r => { r with choice := .text })
            (into_eq (get := ErrInfoR.text) (put := fun z r => { r with text := z }) (r := .zero)
              (str_none (e := 1) (i := i) (B := ⟨bs, 1, i⟩ :: B) (R := R) (by decide) hb)))).trans
          (alt_true ((seq_true unionElem_eq).trans ((seq_true (into_eq (get := ErrInfoR.suites) h1)).trans assign_eq))))
      exact ⟨_, _, h, by simp [ErrInfoR.value, h2]⟩

theorem cborDecodeErrMsg_eq (bs : Bytes) :
    ∃ b rest r, cborDecodeErrMsg d bs = (b, rest, r) ∧ (if b then some r.value else none) = getErrMsg d bs := by
  suffices h : ∃ b s r, decodeErrMsg d ⟨⟨bs, 2, false⟩, [], 3⟩ .zero = (b, s, r) ∧
      (if b then some r.value else none) = getErrMsg d bs by
    obtain ⟨b, s, r, h1, h2⟩ := h
    exact ⟨b, s.cur.payload, r, by simp only [cborDecodeErrMsg, entry, h1], h2⟩
  unfold decodeErrMsg getErrMsg
  cases h1 : getInt d bs with
  | none => exact ⟨_, _, _, seq_false (into_eq (int32_none (by decide) h1)), rfl⟩
  | some y =>
    obtain ⟨c, r1⟩ := y
    have e1 := into_eq (put := fun v r => { r with code := v }) (get := ErrMsgR.code) (r := .zero)
      (int32_some (e := 2) (i := false) (B := []) (R := 3) (by decide) h1)
    rw [seq_true e1]
    have h2 := decodeErrInfo_reads (d := d) (bs := r1) (i := false) (B := []) (R := 3) (by decide)
    simp only
    cases h3 : getErrInfo d r1 with
    | none =>
      rw [h3] at h2
      obtain ⟨s, x, h2⟩ := h2
      have h4 : present (decodeErrInfo d) .zero ⟨⟨r1, 1, false⟩, [], 3⟩ (false, .zero) =
          (true, { s with cur := { s.cur with payload := r1, elems := 1 } }, (false, x)) := by
        unfold present
        simp only [multiGo, List.getD_cons_zero, h2, List.set_cons_zero]
        rfl
      exact ⟨_, _, _, into_eq (get := ErrMsgR.info) h4, rfl⟩
    | some y =>
      obtain ⟨a, r2⟩ := y
      rw [h3] at h2
      obtain ⟨s, x, h2, hv⟩ := h2
      have h4 : present (decodeErrInfo d) .zero ⟨⟨r1, 1, false⟩, [], 3⟩ (false, .zero) = (true, s, (true, x)) := by
        unfold present
        simp only [multiGo, List.getD_cons_zero, h2, List.set_cons_zero]
        rfl
      exact ⟨_, _, _, into_eq (get := ErrMsgR.info) h4, by simp [ErrMsgR.value, hv]⟩


end Verif.Gen
