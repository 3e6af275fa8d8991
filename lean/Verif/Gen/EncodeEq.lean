import Verif.Gen.Encode
import Verif.CborLemmas

/-!
# The generated encoders and the schemas
-/

namespace Verif.Gen

/-- An encoder writes `b` (`none`: rejects its input) as `n` elements, if there is room in the buffer; `room`: the number of backups
it needs. -/
def Writes (f : Enc) (b : Option Bytes) (n room : Nat) : Prop :=
  ∀ s : EState, s.cur.out.length ≤ s.cap → s.baks.length + room ≤ s.room →
    f s = b.bind fun b => if s.cur.out.length + b.length ≤ s.cap then
      some { s with cur := ⟨s.cur.out ++ b, s.cur.elems + n⟩ } else none

theorem Writes.mono {f : Enc} {b : Option Bytes} {n k k' : Nat} (h : Writes f b n k) (hk : k ≤ k') : Writes f b n k' :=
  fun s h1 h2 => h s h1 (by omega)

theorem Writes.item (b : Bytes) : Writes (item b) (some b) 1 0 := fun _ _ _ => rfl

theorem Writes.fail (f : Enc) (hf : ∀ s, f s = none) (n k : Nat) : Writes f none n k := fun s _ _ => hf s

theorem Writes.and {f g : Enc} {b c : Bytes} {n m k : Nat} (hf : Writes f (some b) n k) (hg : Writes g (some c) m k) :
    Writes (f.and g) (some (b ++ c)) (n + m) k := by
  intro s h1 h2
  simp only [Enc.and, hf s h1 h2, Option.bind_some, List.length_append]
  by_cases h : s.cur.out.length + b.length ≤ s.cap
  · rw [if_pos h]
    simp only
    refine (hg ⟨⟨s.cur.out ++ b, s.cur.elems + n⟩, s.baks, s.room, s.cap⟩ (by simpa using h) h2).trans ?_
    simp only [Option.bind_some, List.length_append, List.append_assoc, Nat.add_assoc]
  · rw [if_neg h, if_neg (by omega)]

theorem Writes.and_none {f g : Enc} {b : Bytes} {n m k : Nat} (hf : Writes f (some b) n k) (hg : Writes g none m k) :
    Writes (f.and g) none (n + m) k := by
  intro s h1 h2
  simp only [Enc.and, hf s h1 h2, Option.bind_some]
  by_cases h : s.cur.out.length + b.length ≤ s.cap
  · rw [if_pos h]
    simp only
    exact hg ⟨⟨s.cur.out ++ b, s.cur.elems + n⟩, s.baks, s.room, s.cap⟩ (by simpa using h) h2
  · rw [if_neg h]; rfl

theorem Writes.none_and {f g : Enc} {n k : Nat} (m : Nat) (hf : Writes f none n k) : Writes (f.and g) none m k := by
  intro s h1 h2
  simp only [Enc.and, hf s h1 h2, Option.bind_none]

theorem Writes.skip (f : Enc) (k : Nat) : Writes (Enc.when false f) (some []) 0 k := by
  intro s h1 _
  simp [Enc.when, h1]

theorem Writes.when {f : Enc} {b : Option Bytes} {n k : Nat} (h : Writes f b n k) : Writes (Enc.when true f) b n k := h

theorem Writes.need {f : Enc} {b : Option Bytes} {n k : Nat} (h : Writes f b n k) : Writes ((need true).and f) b n k := h

theorem Writes.unmet {f : Enc} {n k : Nat} : Writes ((Gen.need false).and f) none n k := fun _ _ _ => rfl

theorem Writes.multi {α : Type} {f : α → Enc} {w : α → Bytes} {k : Nat} (c : α → Nat) : ∀ xs : List α,
    (∀ x ∈ xs, Writes (f x) (some (w x)) (c x) k) → Writes (multiPut f xs) (some (xs.map w).flatten) ((xs.map c).sum) k
  | [], _ => by
    intro s h1 _
    simp [multiPut, h1]
  | x :: xs, h => by
    simp only [List.map_cons, List.flatten_cons, List.sum_cons]
    exact (h x (by simp)).and (Writes.multi c xs fun y hy => h y (by simp [hy]))

theorem sum_ones {α : Type} (xs : List α) : (xs.map fun _ => 1).sum = xs.length := by
  induction xs with
  | nil => rfl
  | cons x xs ih => simp only [List.map_cons, List.sum_cons, ih, List.length_cons]; omega

theorem head_small {m a : Nat} (h : a ≤ 23) : (head m a).length = 1 := by simp [head, h]

theorem Writes.container {f : Enc} {b : Bytes} {m most n k : Nat} (h : Writes f (some b) n k) (hm : most ≤ 23)
    (hn : (if m = 5 then n / 2 else n) ≤ 23) :
    Writes (Gen.container m most f) (some (head m (if m = 5 then n / 2 else n) ++ b)) 1 (k + 1) := by
  intro s h1 h2
  have l1 := head_small (m := m) hm
  have l2 := head_small (m := m) hn
  simp only [Gen.container, Enc.and, startEncode, l1]
  rw [if_neg (by omega)]
  by_cases h3 : s.cur.out.length + 1 ≤ s.cap
  · rw [if_pos h3]
    simp only
    rw [h _ (by simpa [l1] using h3) (by simp; omega)]
    simp only [Option.bind_some, List.length_append, l1, l2]
    by_cases h4 : s.cur.out.length + 1 + b.length ≤ s.cap
    · rw [if_pos h4, if_pos (by omega)]
      simp only [endEncode, Nat.zero_add, l2, l1]
      rw [if_pos h3]
      have hd : (s.cur.out ++ head m most ++ b).drop (s.cur.out.length + 1) = b := by
        rw [← l1, ← List.length_append, List.drop_left]
      rw [hd, List.append_assoc]
    · rw [if_neg h4, if_neg (by omega)]
  · rw [if_neg h3]
    simp only [Option.bind_some, List.length_append, l2]
    rw [if_neg (by omega)]

theorem Writes.container_none {f : Enc} {m most n k : Nat} (h : Writes f none n k) :
    Writes (Gen.container m most f) none 1 (k + 1) := by
  intro s h1 h2
  simp only [Gen.container, Enc.and, startEncode]
  rw [if_neg (by omega)]
  split
  · rename_i s' hs
    split at hs
    · rename_i h3
      simp only [Option.some.injEq] at hs
      subst hs
      rw [h _ (by simpa using h3) (by simp; omega)]
      rfl
    · simp at hs
  · rfl

theorem Writes.entry {f : Enc} {b : Option Bytes} {n k states elems cap : Nat} (h : Writes f b n k) (hk : k ≤ states - 2) :
    entryEncode f states elems cap = b.bind (fits cap) := by
  unfold entryEncode
  rw [h _ (by simp) (by simpa using hk)]
  cases b with
  | none => rfl
  | some b =>
    simp only [Option.bind_some, List.length_nil, Nat.zero_add, fits, List.nil_append]
    split <;> rfl

/-- A string whose bytes are all there. -/
def ZStr.Full (z : ZStr) : Prop := z.bytes.length = z.len

theorem putStr_writes {m : Nat} {z : ZStr} (h : z.Full) : Writes (putStr m z) (some (head m z.bytes.length ++ z.bytes)) 1 0 := by
  unfold putStr
  rw [← h]
  exact Writes.item _

theorem bstr_writes {z : ZStr} (h : z.Full) : Writes (putStr 2 z) (some (encBstr z.bytes)) 1 0 := putStr_writes h

theorem tstr_writes {z : ZStr} (h : z.Full) : Writes (putStr 3 z) (some (encTstr z.bytes)) 1 0 := putStr_writes h

theorem int_writes (v : Int) : Writes (putInt v) (some (encInt v)) 1 0 := Writes.item _

/-! ## Suites, EAD, connection identifiers -/

theorem encodeSuites_writes {r : SuitesR} (h : r.count ≤ r.ints.length) : Writes (encodeSuites r) (encSuites r.value) 1 1 := by
  unfold encodeSuites SuitesR.value encSuites
  cases r.isOne with
  | true => exact (int_writes _).mono (by omega)
  | false =>
    simp only [Bool.false_eq_true, if_false, List.length_take]
    by_cases hc : 2 ≤ r.count ∧ r.count ≤ 3
    · rw [if_pos (by omega), show min r.count r.ints.length = r.count by omega]
      have h1 : Writes (multiEncode putInt 2 3 (r.ints, r.count)) (some ((r.ints.take r.count).map encInt).flatten) r.count 0 := by
        unfold multiEncode
        simp only [decide_eq_true hc.1, decide_eq_true hc.2, Bool.and_true]
        have h2 := Writes.multi (f := putInt) (w := encInt) (fun _ => 1) (r.ints.take r.count) fun x _ => int_writes x
        have h3 : ((r.ints.take r.count).map fun _ => 1).sum = r.count := by rw [sum_ones]; simp; omega
        rw [h3] at h2
        exact h2.need
      have h4 := h1.container (m := 4) (most := 3) (by omega) (by simp; omega)
      exact h4
    · rw [if_neg (by omega)]
      have : (decide (2 ≤ r.count) && decide (r.count ≤ 3)) = false := by
        rw [← Bool.not_eq_true, Bool.and_eq_true, decide_eq_true_eq, decide_eq_true_eq]; exact hc
      have h1 : Writes (multiEncode putInt 2 3 (r.ints, r.count)) none 0 0 := by
        unfold multiEncode
        simp only [this]
        exact Writes.unmet
      exact h1.container_none

/-- the item the encoder is given -/
def EadX.item (x : EadX) : EadTok := ⟨x.label, if x.present then some x.value.bytes else none⟩

/-- the items the encoder is given -/
def items (a : EadArr) : List EadTok := (a.1.take a.2).map EadX.item

/-- An array of EAD items in which every value is there. -/
def EadOk (a : EadArr) : Prop := a.2 ≤ a.1.length ∧ ∀ x ∈ a.1.take a.2, x.present = true → x.value.Full

theorem encodeEad_writes {a : EadArr} (h : EadOk a) : ∃ n, Writes (encodeEad a) (encEad (items a)) n 0 := by
  unfold encodeEad multiEncode encEad items
  simp only [List.length_map, List.length_take]
  by_cases hc : 1 ≤ a.2 ∧ a.2 ≤ 3
  · have := h.1
    rw [if_pos (by omega)]
    simp only [decide_eq_true hc.1, decide_eq_true hc.2, Bool.and_true]
    refine ⟨((a.1.take a.2).map fun x => 1 + if x.present then 1 else 0).sum, Writes.need ?_⟩
    · rw [List.map_map]
      refine Writes.multi (fun x : EadX => 1 + if x.present then 1 else 0) _ fun x hx => ?_
      unfold encodeEadX
      simp only [Function.comp, encEadTok, EadX.item]
      refine (int_writes _).and ?_
      cases hp : x.present with
      | true => exact (bstr_writes (h.2 x hx hp)).when
      | false => exact Writes.skip _ _
  · have := h.1
    rw [if_neg (by omega)]
    have : (decide (1 ≤ a.2) && decide (a.2 ≤ 3)) = false := by
      rw [← Bool.not_eq_true, Bool.and_eq_true, decide_eq_true_eq, decide_eq_true_eq]; exact hc
    simp only [this]
    exact ⟨0, Writes.unmet⟩

theorem encodeEadOpt_writes {a : EadArr} {present : Bool} (h : EadOk a) (hp : present = decide (a.2 ≠ 0)) :
    ∃ n, Writes (Enc.when present (encodeEad a)) (encEadOpt (items a)) n 0 := by
  unfold encEadOpt
  by_cases hc : a.2 = 0
  · subst hp
    simp only [hc, ne_eq, not_true_eq_false, decide_false]
    have : items a = [] := by simp [items, hc]
    rw [this]
    exact ⟨0, Writes.skip _ _⟩
  · have : (items a).isEmpty = false := by
      have := h.1
      rw [List.isEmpty_eq_false_iff]
      intro he
      have := congrArg List.length he
      simp only [items, List.length_map, List.length_take, List.length_nil] at this
      omega
    rw [this]
    simp only [hp, ne_eq, hc, not_false_eq_true, decide_true, Bool.false_eq_true, if_false]
    obtain ⟨n, h1⟩ := encodeEad_writes h
    exact ⟨n, h1.when⟩

theorem encodeCid_writes {r : IntStr} (h : r.isInt = false → r.str.Full) : Writes (encodeCid r) (encCid r.cid) 1 0 := by
  unfold encodeCid IntStr.cid encCid
  cases hi : r.isInt with
  | false => exact bstr_writes (h hi)
  | true =>
    simp only [if_true]
    by_cases hc : -24 ≤ r.int ∧ r.int ≤ 23
    · rw [if_pos hc]
      simp only [decide_eq_true hc.1, decide_eq_true hc.2, Bool.and_true]
      exact int_writes _
    · rw [if_neg hc]
      have : (decide (-24 ≤ r.int) && decide (r.int ≤ 23)) = false := by
        rw [← Bool.not_eq_true, Bool.and_eq_true, decide_eq_true_eq, decide_eq_true_eq]; exact hc
      simp only [this]
      exact Writes.unmet (f := putInt r.int)

/-! ## message_1 -/

/-- what the encoder is given -/
def Msg1R.input (r : Msg1R) : Msg1 := ⟨r.method, r.suites.value, r.gx.bytes, r.ci.cid, items r.ead⟩

/-- A structure filled as the library fills it: arrays with as many elements as announced, strings with all their bytes, EAD_1 present if
there are items. -/
def Msg1R.Ok (r : Msg1R) : Prop :=
  r.suites.count ≤ r.suites.ints.length ∧ r.gx.Full ∧ (r.ci.isInt = false → r.ci.str.Full) ∧ EadOk r.ead ∧ r.eadPresent = decide (r.ead.2 ≠ 0)

theorem Writes.seq {f g : Enc} {b c : Option Bytes} {n m k k' : Nat} (hf : Writes f b n k) (hg : Writes g c m k') :
    Writes (f.and g) (b.bind fun x => c.bind fun y => some (x ++ y)) (n + m) (max k k') := by
  have hf := hf.mono (Nat.le_max_left k k')
  have hg := hg.mono (Nat.le_max_right k k')
  cases b with
  | none => exact hf.none_and _
  | some b =>
    cases c with
    | none => exact hf.and_none hg
    | some c => exact hf.and hg

theorem cborEncodeMsg1_eq {r : Msg1R} (h : r.Ok) (cap : Nat) : cborEncodeMsg1 cap r = (encMsg1 r.input).bind (fits cap) := by
  obtain ⟨h1, h2, h3, h4, h5⟩ := h
  obtain ⟨n, h6⟩ := encodeEadOpt_writes h4 h5
  have hw := (int_writes r.method).seq ((encodeSuites_writes h1).seq ((bstr_writes h2).seq ((encodeCid_writes h3).seq h6)))
  unfold cborEncodeMsg1 encodeMsg1
  rw [hw.entry (by decide)]
  congr 1
  unfold encMsg1 Msg1R.input
  simp only [Option.bind_some]
  cases encSuites r.suites.value <;> cases encCid r.ci.cid <;> cases encEadOpt (items r.ead) <;> simp

/-! ## Single items and structures -/

theorem cborEncodeCid_eq {r : IntStr} (h : r.isInt = false → r.str.Full) (cap : Nat) :
    cborEncodeCid cap r = (encCid r.cid).bind (fits cap) := (encodeCid_writes h).entry (by decide)

theorem cborEncodeEad_eq {a : EadArr} (h : EadOk a) (cap : Nat) : cborEncodeEad cap a = (encEad (items a)).bind (fits cap) := by
  obtain ⟨n, h1⟩ := encodeEad_writes h
  exact h1.entry (by decide)

theorem cborEncodePtxt4_eq {r : Ptxt4R} (h : EadOk r.ead) (hp : r.present = decide (r.ead.2 ≠ 0)) (cap : Nat) :
    cborEncodePtxt4 cap r = (encEadOpt (items r.ead)).bind (fits cap) := by
  obtain ⟨n, h1⟩ := encodeEadOpt_writes h hp
  exact h1.entry (by decide)

theorem cborEncodeBstr_eq {z : ZStr} (h : z.Full) (cap : Nat) : cborEncodeBstr cap z = fits cap (encBstr z.bytes) :=
  (bstr_writes h).entry (by decide)

theorem cborEncodeInt_eq (v : Int) (cap : Nat) : cborEncodeInt cap v = fits cap (encInt v) := (int_writes v).entry (by decide)

theorem cborEncodeInfo_eq {label : Nat} {context : ZStr} {length : Nat} (h : context.Full) (cap : Nat) :
    cborEncodeInfo cap label context length = fits cap (encInfo label context.bytes length) := by
  have hw := (int_writes label).seq ((bstr_writes h).seq (Writes.item (head 0 length)))
  unfold cborEncodeInfo putUint
  rw [hw.entry (by decide)]
  simp [encInfo]

theorem cborEncodeEncStructure_eq {prot aad : ZStr} (h1 : prot.Full) (h2 : aad.Full) (cap : Nat) :
    cborEncodeEncStructure cap prot aad = fits cap (encEncStructure prot.bytes aad.bytes) := by
  have h0 : ZStr.Full ⟨8, some (ascii "Encrypt0")⟩ := by unfold ZStr.Full; decide
  have hb : ZStr.bytes ⟨8, some (ascii "Encrypt0")⟩ = ascii "Encrypt0" := by decide
  have hw := ((tstr_writes h0).and ((bstr_writes h1).and (bstr_writes h2))).container (m := 4) (most := 3) (by decide) (by decide)
  unfold cborEncodeEncStructure
  rw [hw.entry (by decide), hb]
  simp [encEncStructure, encListHead]

theorem cborEncodeSigStructure_eq {prot aad payload : ZStr} (h1 : prot.Full) (h2 : aad.Full) (h3 : payload.Full) (cap : Nat) :
    cborEncodeSigStructure cap prot aad payload = fits cap (encSigStructure prot.bytes aad.bytes payload.bytes) := by
  have h0 : ZStr.Full ⟨10, some (ascii "Signature1")⟩ := by unfold ZStr.Full; decide
  have hb : ZStr.bytes ⟨10, some (ascii "Signature1")⟩ = ascii "Signature1" := by decide
  have hw := ((tstr_writes h0).and ((bstr_writes h1).and ((bstr_writes h2).and (bstr_writes h3)))).container (m := 4) (most := 4)
    (by decide) (by decide)
  unfold cborEncodeSigStructure
  rw [hw.entry (by decide), hb]
  simp [encSigStructure, encListHead]

/-! ## ID_CRED_x -/

theorem encodeIntBstr_writes {r : IntStr} (h : r.isInt = false → r.str.Full) :
    Writes (encodeIntStr 2 r) (some (encIntOrBstr r.value)) 1 0 := by
  unfold encodeIntStr IntStr.value encIntOrBstr
  cases hi : r.isInt with
  | true => exact int_writes _
  | false => exact bstr_writes (h hi)

theorem encodeIntTstr_writes {r : IntStr} (h : r.isInt = false → r.str.Full) :
    Writes (encodeIntStr 3 r) (some (encIntOrTstr r.value)) 1 0 := by
  unfold encodeIntStr IntStr.value encIntOrTstr
  cases hi : r.isInt with
  | true => exact int_writes _
  | false => exact tstr_writes (h hi)

/-- filled as the library does -/
def X509R.Ok (r : X509R) : Prop :=
  if r.isList then r.certs.2 ≤ r.certs.1.length ∧ ∀ z ∈ r.certs.1.take r.certs.2, z.Full else r.one.Full

theorem encodeX509_writes {r : X509R} (h : r.Ok) : Writes (encodeX509 r) (encX5chain r.value) 1 1 := by
  unfold X509R.Ok at h
  unfold encodeX509 X509R.value encX5chain
  cases hi : r.isList with
  | false =>
    rw [hi] at h
    exact (bstr_writes (by simpa using h)).mono (by omega)
  | true =>
    rw [hi] at h
    simp only [if_true, List.length_map, List.length_take] at h ⊢
    have h0 := h.1
    by_cases hc : 2 ≤ r.certs.2 ∧ r.certs.2 ≤ 3
    · rw [if_pos (by omega), show min r.certs.2 r.certs.1.length = r.certs.2 by omega]
      have h1 : Writes (multiEncode (putStr 2) 2 3 r.certs)
          (some ((r.certs.1.take r.certs.2).map fun z => encBstr z.bytes).flatten) r.certs.2 0 := by
        unfold multiEncode
        simp only [decide_eq_true hc.1, decide_eq_true hc.2, Bool.and_true]
        have h2 := Writes.multi (f := putStr 2) (w := fun z => encBstr z.bytes) (fun _ => 1) (r.certs.1.take r.certs.2) fun x hx =>
          bstr_writes (h.2 x hx)
        have h3 : ((r.certs.1.take r.certs.2).map fun _ => 1).sum = r.certs.2 := by rw [sum_ones]; simp; omega
        rw [h3] at h2
        exact h2.need
      have h4 := h1.container (m := 4) (most := 3) (by omega) (by simp; omega)
      rw [List.map_map]
      exact h4
    · rw [if_neg (by omega)]
      have : (decide (2 ≤ r.certs.2) && decide (r.certs.2 ≤ 3)) = false := by
        rw [← Bool.not_eq_true, Bool.and_eq_true, decide_eq_true_eq, decide_eq_true_eq]; exact hc
      have h1 : Writes (multiEncode (putStr 2) 2 3 r.certs) none 0 0 := by
        unfold multiEncode
        simp only [this]
        exact Writes.unmet
      exact h1.container_none

/-- filled as the library does -/
def CertHashR.Ok (r : CertHashR) : Prop := (r.alg.isInt = false → r.alg.str.Full) ∧ r.hash.Full

theorem encodeCertHash_writes {r : CertHashR} (h : r.Ok) : Writes (encodeCertHash r) (some (encCertHash r.value)) 1 1 := by
  have hw := ((encodeIntTstr_writes h.1).and (bstr_writes h.2)).container (m := 4) (most := 2) (by decide) (by decide)
  simpa [encodeCertHash, encCertHash, encListHead, CertHashR.value] using hw

/-- filled as the library does -/
def MapR.Ok (r : MapR) : Prop :=
  (r.kid.1 = true → r.kid.2.isInt = false → r.kid.2.str.Full) ∧ (r.x5chain.1 = true → r.x5chain.2.Ok) ∧
    (r.x5t.1 = true → r.x5t.2.Ok)

theorem encodeMap_writes {r : MapR} (h : r.Ok) : Writes (encodeMap r) (encCredMap r.value) 1 2 := by
  obtain ⟨h1, h2, h3⟩ := h
  have w1 : Writes (Enc.when r.kid.1 (encodeKid r.kid.2))
      (some (match r.value.kid with | some v => encInt 4 ++ encIntOrBstr v | none => []))
      (2 * if r.value.kid.isSome then 1 else 0) 1 := by
    cases hk : r.kid.1 with
    | false => simp only [MapR.value, hk]; exact Writes.skip _ _
    | true =>
      simp only [MapR.value, hk]
      exact ((Writes.item _).and (encodeIntBstr_writes (h1 hk))).mono (by omega)
  have w3 : Writes (Enc.when r.x5t.1 (encodeX5t r.x5t.2))
      (some (match r.value.x5t with | some p => encInt 34 ++ encCertHash p | none => []))
      (2 * if r.value.x5t.isSome then 1 else 0) 1 := by
    cases hk : r.x5t.1 with
    | false => simp only [MapR.value, hk]; exact Writes.skip _ _
    | true =>
      simp only [MapR.value, hk]
      exact (((Writes.item _).mono (Nat.zero_le _)).and (encodeCertHash_writes (h3 hk)))
  have w2 : Writes (Enc.when r.x5chain.1 (encodeX5chain r.x5chain.2))
      (match r.value.x5chain with | some x => (encX5chain x).map (encInt 33 ++ ·) | none => some [])
      (2 * if r.value.x5chain.isSome then 1 else 0) 1 := by
    cases hk : r.x5chain.1 with
    | false => simp only [MapR.value, hk]; exact Writes.skip _ _
    | true =>
      simp only [MapR.value, hk]
      have := ((Writes.item (head 0 33)).mono (Nat.zero_le 1)).seq (encodeX509_writes (h2 hk))
      simp only [Option.bind_some] at this
      simp only [if_true]
      cases hx : encX5chain r.x5chain.2.value with
      | none => rw [hx] at this; exact this
      | some b => rw [hx] at this; exact this
  have hn : ∀ b, Writes ((Enc.when r.kid.1 (encodeKid r.kid.2)).and ((Enc.when r.x5chain.1 (encodeX5chain r.x5chain.2)).and
      (Enc.when r.x5t.1 (encodeX5t r.x5t.2)))) (some b) ((2 * if r.value.kid.isSome then 1 else 0) +
        ((2 * if r.value.x5chain.isSome then 1 else 0) + (2 * if r.value.x5t.isSome then 1 else 0))) 1 →
      Writes (encodeMap r) (some (encMapHead r.value.count ++ b)) 1 2 := by
    intro b hw
    have hc : ((2 * if r.value.kid.isSome then 1 else 0) + ((2 * if r.value.x5chain.isSome then 1 else 0) +
        (2 * if r.value.x5t.isSome then 1 else 0))) = 2 * r.value.count := by unfold CredMap.count; omega
    have hle : r.value.count ≤ 3 := by
      unfold CredMap.count
      split <;> split <;> split <;> omega
    rw [hc] at hw
    have h4 := hw.container (m := 5) (most := 3) (by decide) (by simp; omega)
    simp only [if_true, Nat.mul_div_cancel_left _ (show 0 < 2 by decide)] at h4
    exact h4
  unfold encCredMap
  cases hx : r.value.x5chain with
  | none =>
    rw [hx] at w2
    have := hn _ (by rw [hx]; exact w1.and (w2.and w3))
    simp only [List.append_assoc, List.nil_append] at this ⊢
    exact this
  | some x =>
    rw [hx] at w2
    simp only at w2 ⊢
    cases he : encX5chain x with
    | none =>
      rw [he] at w2
      exact (w1.and_none (w2.none_and 0)).container_none
    | some b =>
      rw [he] at w2
      have := hn _ (by rw [hx]; exact w1.and (w2.and w3))
      simp only [List.append_assoc] at this ⊢
      exact this

theorem cborEncodeIdCred_eq {r : MapR} (h : r.Ok) (cap : Nat) : cborEncodeIdCred cap r = (encCredMap r.value).bind (fits cap) :=
  (encodeMap_writes h).entry (by decide)

/-! ## The error message -/

/-- filled as the library does -/
def ErrInfoR.Ok (r : ErrInfoR) : Prop :=
  match r.choice with
  | .text => r.text.Full
  | .suites => r.suites.count ≤ r.suites.ints.length
  | .bool => True

theorem encodeErrInfo_writes {r : ErrInfoR} (h : r.Ok) : Writes (encodeErrInfo r) (encErrInfo r.value) 1 1 := by
  unfold ErrInfoR.Ok at h
  unfold encodeErrInfo ErrInfoR.value encErrInfo
  cases hc : r.choice with
  | text => rw [hc] at h; exact (tstr_writes h).mono (by omega)
  | suites => rw [hc] at h; exact encodeSuites_writes h
  | bool => exact (Writes.item _).mono (by omega)

theorem cborEncodeErrMsg_eq {r : ErrMsgR} (h : r.info.1 = true → r.info.2.Ok) (cap : Nat) :
    cborEncodeErrMsg cap r = (encErrMsg r.value.1 r.value.2).bind (fits cap) := by
  unfold cborEncodeErrMsg ErrMsgR.value encErrMsg
  cases hi : r.info.1 with
  | false =>
    have hw := (int_writes r.code).and (Writes.skip (encodeErrInfo r.info.2) 0)
    rw [hw.entry (by decide)]
    simp
  | true =>
    have hw := (int_writes r.code).seq (encodeErrInfo_writes (h hi)).when
    rw [hw.entry (by decide)]
    simp only [if_true, Option.bind_some]
    cases encErrInfo r.info.2.value <;> rfl

end Verif.Gen
