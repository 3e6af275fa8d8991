import Verif.CborRound
import Verif.SpecHelpers
import Verif.Props.Wire

/-!
# C25, C29, C31, C32: encoding and decoding
-/

namespace Verif

open Spec

variable {σ : Type} {d : DecCfg}

/-! ## C31: connection identifiers in front of a message -/

/-- **C31** (equality). Equality of connection identifiers as the helper sees it is equality. -/
theorem C31_equal (a b : Cid) : cidEqual a b = true ↔ a = b := by
  cases a <;> cases b <;> simp [cidEqual]
  rintro rfl; rfl

theorem byteOf_encInt {v : Int} (h0 : 0 ≤ v) (h1 : v ≤ 23) : [byteOf v] = encInt v := by
  unfold byteOf encInt head
  rw [if_pos h0, if_pos (by omega)]
  congr 2
  omega

theorem int8Of_byteOf {v : Int} (h0 : 0 ≤ v) (h1 : v ≤ 23) : int8Of (byteOf v) = v := by
  have : (byteOf v).toNat = v.toNat := by
    simp only [byteOf, UInt8.toNat_ofNat']
    omega
  unfold int8Of
  rw [this, if_pos (by omega)]
  omega

/-- **C31** (round trip), for non-negative integers and byte strings. If a connection identifier fits in front of a
message, it is prepended; what the application then sends decodes to the identifier and the message. Missing: negative
integers, see `C31_violated`. -/
theorem C31_prepend_extract_partial {maxCid : Nat} {c : Cid} {e : Bytes} {p : Prepended} {m : Bytes}
    (hc : (∃ v : Int, c = .int v ∧ 0 ≤ v ∧ v ≤ 23) ∨ ∃ b, c = .bstr b ∧ b ≠ [] ∧ b.length ≤ maxCid)
    (he : encCid c = some e) (hm : m ≠ []) (hfit : e.length + m.length ≤ p.buf.length) (hs : p.buf.length < 2 ^ 64) :
    ∃ q r, prependCid maxCid p c = .ok q ∧ q.pos = some e.length ∧ q.msgSize = p.buf.length - e.length ∧
      prependResize (place q e.length m) = .ok r ∧ r.buf = e ++ m ∧ extractCid d maxCid r.buf = .ok (c, m) := by
  have hel : 0 < e.length := by
    rcases hc with ⟨v, rfl, h0, h1⟩ | ⟨b, rfl, h0, h1⟩
    · simp only [encCid] at he; rw [if_pos ⟨by omega, h1⟩] at he
      simp only [Option.some.injEq] at he
      rw [← he, ← byteOf_encInt h0 h1]; simp
    · simp only [encCid, Option.some.injEq] at he
      rw [← he]; unfold encBstr; simp only [List.length_append]
      have := List.length_pos_iff.2 h0
      omega
  have hml : 0 < m.length := List.length_pos_iff.2 hm
  have hq : prependCid maxCid p c = .ok ⟨writeAt0 p.buf e, some e.length, p.buf.length - e.length⟩ := by
    unfold prependCid
    rw [if_neg (by omega)]
    rcases hc with ⟨v, rfl, h0, h1⟩ | ⟨b, rfl, h0, h1⟩
    · simp only [encCid] at he; rw [if_pos ⟨by omega, h1⟩] at he
      simp only [Option.some.injEq] at he
      simp only [← he, ← byteOf_encInt h0 h1, List.length_singleton]
    · have := List.length_pos_iff.2 h0
      simp only [he, Option.bind_some, fits]
      rw [if_neg (by omega), if_pos (by omega)]
  refine ⟨_, ⟨e ++ m, some e.length, m.length⟩, hq, rfl, rfl, ?_, rfl, ?_⟩
  · have hlen : (writeAt0 p.buf e).length = p.buf.length := by
      simp only [writeAt0, List.length_append, List.length_drop]; omega
    have ht : (writeAt0 p.buf e).take e.length = e := by simp [writeAt0]
    have hpl : ((writeAt0 p.buf e).take e.length ++ m ++ (writeAt0 p.buf e).drop (e.length + m.length)).length =
        p.buf.length := by
      simp only [List.length_append, List.length_take, List.length_drop, hlen]; omega
    unfold prependResize place
    simp only [hpl]
    rw [if_neg (by omega), if_neg (by omega), if_neg (by omega)]
    rw [ht, ← List.length_append, List.take_left']
    rfl
  · have hx := getCid_encCid (d := d) he (fun x hx => by
      rcases hc with ⟨v, rfl, _⟩ | ⟨b, rfl, _, _⟩
      · cases hx
      · cases hx
        simp only [encCid, Option.some.injEq, encBstr] at he
        have : x.length ≤ e.length := by rw [← he]; simp
        unfold SizeOk; omega) m
    obtain ⟨b0, t, rfl⟩ : ∃ b0 t, e = b0 :: t := by cases e <;> simp_all
    unfold extractCid
    simp only [List.cons_append] at hx ⊢
    rw [hx]
    rcases hc with ⟨v, rfl, h0, h1⟩ | ⟨b, rfl, h0, h1⟩
    · simp only [encCid] at he; rw [if_pos ⟨by omega, h1⟩] at he
      simp only [Option.some.injEq, ← byteOf_encInt h0 h1, List.cons.injEq] at he
      simp only [← he.1, int8Of_byteOf h0 h1]
    · simp only
      rw [if_neg (by omega)]

/-- a byte string identifier in front of a message of three bytes -/
example : ∃ q r, prependCid 7 ⟨List.replicate 10 0, none, 0⟩ (.bstr [1, 2]) = .ok q ∧
    prependResize (place q 3 [9, 8, 7]) = .ok r ∧ r.buf = [0x42, 1, 2, 9, 8, 7] ∧
    extractCid ⟨true, false, fun _ => 0, true⟩ 7 r.buf = .ok (.bstr [1, 2], [9, 8, 7]) :=
  ⟨⟨[0x42, 1, 2, 0, 0, 0, 0, 0, 0, 0], some 3, 7⟩, ⟨[0x42, 1, 2, 9, 8, 7], some 3, 3⟩, by decide⟩

theorem getHead_major {st : Bool} {ml m a : Nat} {b : UInt8} {t r : Bytes} (h : getHead st ml (b :: t) = some (m, a, r)) :
    m = b.toNat / 32 := by
  simp only [getHead] at h
  split at h
  · simp only [Option.some.injEq, Prod.mk.injEq] at h; exact h.1.symm
  split at h
  · simp at h
  split at h
  · simp at h
  split at h
  · simp at h
  split at h
  · simp at h
  · simp only [Option.some.injEq, Prod.mk.injEq] at h; exact h.1.symm

/-- nothing that begins with a byte of major type 7 is a connection identifier -/
theorem getCid_major7 {b : UInt8} (hb : 224 ≤ b.toNat) (t : Bytes) : getCid d (b :: t) = none := by
  have h7 : b.toNat / 32 = 7 := by have := b.toNat_lt; omega
  have h1 : getBstr d (b :: t) = none := by
    unfold getBstr getStr
    split
    · rename_i h
      rw [if_neg (by have := getHead_major h; omega)]
    · rfl
  have h2 : getInt d (b :: t) = none := by
    unfold getInt
    split
    · rename_i h
      have := getHead_major h
      split
      · rfl
      · rw [if_neg (by omega), if_neg (by omega)]
    · rfl
  simp only [getCid, h1, h2]

/-- **C31 is violated** for every negative identifier, although contexts accept them: it is prepended, but cannot be
extracted from the result. -/
theorem C31_violated {v : Int} (h0 : -24 ≤ v) (h1 : v < 0) {maxCid : Nat} {p : Prepended} {m : Bytes} (hm : m ≠ [])
    (hf : 1 + m.length ≤ p.buf.length) :
    ∃ q r, prependCid maxCid p (.int v) = .ok q ∧ prependResize (place q 1 m) = .ok r ∧ r.buf = byteOf v :: m ∧
      extractCid d maxCid r.buf = .err .cbor := by
  obtain ⟨b0, t, hp⟩ : ∃ b0 t, p.buf = b0 :: t := by cases hb : p.buf <;> simp_all
  have hml : 0 < m.length := List.length_pos_iff.2 hm
  rw [hp, List.length_cons] at hf
  refine ⟨⟨byteOf v :: t, some 1, t.length⟩, ⟨byteOf v :: m, some 1, m.length⟩, by simp [prependCid, writeAt0, hp], ?_, rfl, ?_⟩
  · have e1 : (m ++ t.drop m.length).length = t.length := by simp; omega
    have e2 : List.drop (1 + m.length) (byteOf v :: t) = t.drop m.length := by rw [Nat.add_comm]; rfl
    have h1 : ¬ (t.length + 1 = 0 ∨ m.length = 0) := by omega
    have h2 : ¬ (t.length + 1 < 1) := by omega
    have h3 : ¬ (t.length + 1 < 1 + m.length) := by omega
    simp only [prependResize, place, e2, List.take_succ_cons, List.take_zero, List.cons_append, List.nil_append, List.length_cons,
      e1, if_neg h1, if_neg h2, if_neg h3]
    rw [Nat.add_comm 1, List.take_succ_cons, List.take_left']
    rfl
  · have : (byteOf v).toNat = (v % 256).toNat := by simp only [byteOf, UInt8.toNat_ofNat']; omega
    unfold extractCid
    simp only [getCid_major7 (d := d) (b := byteOf v) (by omega) m]

/-- The other way round: the encoding of a negative identifier is extracted as a different identifier, which no context
accepts. -/
theorem C31_negative_extracted {v : Int} (h0 : -24 ≤ v) (h1 : v < 0) {maxCid : Nat} {e m : Bytes}
    (he : encCid (.int v) = some e) : extractCid d maxCid (e ++ m) = .ok (.int (31 - v), m) := by
  have hx := getCid_encCid (d := d) he (fun x hx => by cases hx) m
  simp only [encCid] at he
  rw [if_pos ⟨h0, by omega⟩] at he
  have e1 : encInt v = [UInt8.ofNat (1 * 32 + (-1 - v).toNat)] := by
    unfold encInt head
    rw [if_neg (by omega), if_pos (by omega)]
  rw [e1, Option.some.injEq] at he
  subst he
  unfold extractCid
  simp only [List.cons_append, List.nil_append] at hx ⊢
  rw [hx]
  have e2 : (UInt8.ofNat (1 * 32 + (-1 - v).toNat)).toNat = 32 + (-1 - v).toNat := by
    simp only [UInt8.toNat_ofNat']; omega
  simp only [int8Of, e2]
  rw [if_pos (by omega)]
  congr 3
  omega

/-! ## C32: flows -/

/-- **C32** (forward flow). If there is room for the marker and the message, what the application sends after
prepending is recognised as forward flow, with the message. -/
theorem C32_forward {p : Prepended} {m : Bytes} (hm : m ≠ []) (hfit : 1 + m.length ≤ p.buf.length) :
    ∃ q r, prependFlow p = .ok q ∧ q.pos = some 1 ∧ q.msgSize = p.buf.length - 1 ∧
      prependResize (place q 1 m) = .ok r ∧ r.buf = 0xF5 :: m ∧ extractFlow (some r.buf) = ⟨true, false, some m⟩ := by
  obtain ⟨b0, t, hp⟩ : ∃ b0 t, p.buf = b0 :: t := by cases hb : p.buf <;> simp_all
  have hml : 0 < m.length := List.length_pos_iff.2 hm
  rw [hp, List.length_cons] at hfit
  refine ⟨⟨0xF5 :: t, some 1, t.length⟩, ⟨0xF5 :: m, some 1, m.length⟩, by simp [prependFlow, writeAt0, hp], rfl, by simp [hp],
    ?_, rfl, ?_⟩
  · have e1 : (m ++ t.drop m.length).length = t.length := by simp; omega
    have e2 : List.drop (1 + m.length) (0xF5 :: t) = t.drop m.length := by rw [Nat.add_comm]; rfl
    have h1 : ¬ (t.length + 1 = 0 ∨ m.length = 0) := by omega
    have h2 : ¬ (t.length + 1 < 1) := by omega
    have h3 : ¬ (t.length + 1 < 1 + m.length) := by omega
    simp only [prependResize, place, e2, List.take_succ_cons, List.take_zero, List.cons_append, List.nil_append, List.length_cons,
      e1, if_neg h1, if_neg h2, if_neg h3]
    rw [Nat.add_comm 1, List.take_succ_cons, List.take_left']
    rfl
  · simp [extractFlow, hml]

/-- **C32** (recognition). Forward flow is recognised exactly in front of a message, reverse flow exactly without a
buffer, and never both. -/
theorem C32_recognised (b : Option Bytes) :
    ((extractFlow b).forward = true ↔ ∃ m, m ≠ [] ∧ b = some (0xF5 :: m) ∧ (extractFlow b).msg = some m) ∧
    ((extractFlow b).reverse = true ↔ b = none) ∧ ((extractFlow b).forward = false → (extractFlow b).msg = none) := by
  cases b with
  | none => simp [extractFlow]
  | some b =>
    cases b with
    | nil => simp [extractFlow]
    | cons x t =>
      by_cases h : 1 < (x :: t).length ∧ (x :: t).head? = some 0xF5
      · have h' := h
        simp only [List.length_cons, List.head?_cons, Option.some.injEq] at h'
        simp only [extractFlow, if_pos h, List.drop_succ_cons, List.drop_zero]
        refine ⟨⟨fun _ => ⟨t, ?_, by rw [h'.2], rfl⟩, fun _ => trivial⟩, by simp, by simp⟩
        rintro rfl
        simp at h'
      · simp only [extractFlow, if_neg h]
        refine ⟨⟨by simp, ?_⟩, by simp, by simp⟩
        rintro ⟨m, _, _, h⟩
        simp at h

/-- A message in the reverse flow: no marker, no content. -/
example : extractFlow none = ⟨false, true, none⟩ ∧ extractFlow (some [0xF5, 3]) = ⟨true, false, some [3]⟩ ∧
    extractFlow (some [0xF5]) = ⟨false, false, none⟩ := by decide

/-! ## C29: error messages -/

theorem errInfoOf_ok {code : Int} {info : Option ErrArg} {i : Option ErrInfo} (h : errInfoOf code info = .ok i)
    (h0 : 0 ≤ code) (h3 : code ≤ 3) :
    (code = 0 ∧ i = none ∧ errMeaning code.toNat info = .nothing) ∨
    (code = 3 ∧ i = some .true_ ∧ errMeaning code.toNat info = .nothing) ∨
    (code = 1 ∧ ∃ b w t, info = some ⟨.text b, t, w⟩ ∧ w ≤ b.length ∧ 0 < w ∧ i = some (.text (b.take w))) ∨
    (code = 2 ∧ ∃ l w t, info = some ⟨.suites l, t, w⟩ ∧ w ≤ l.length ∧ 0 < w ∧ w ≤ 3 ∧
      ((∃ v, l.take w = [v] ∧ i = some (.suites (.one v))) ∨ (2 ≤ w ∧ i = some (.suites (.list (l.take w)))))) := by
  unfold errInfoOf at h
  have hn : ∀ c : Nat, c ≠ 1 → c ≠ 2 → errMeaning c info = .nothing := by
    intro c h1 h2
    unfold errMeaning
    split <;> simp [*]
  split at h
  · rename_i hc
    simp only [Res.ok.injEq] at h
    exact Or.inl ⟨hc, h.symm, hn _ (by omega) (by omega)⟩
  split at h
  · rename_i hc
    simp only [Res.ok.injEq] at h
    exact Or.inr (Or.inl ⟨hc, h.symm, hn _ (by omega) (by omega)⟩)
  split at h
  · simp at h
  split at h
  · simp at h
  rename_i a hne
  obtain ⟨buf, t, w⟩ := a
  split at h
  · rename_i hc
    refine Or.inr (Or.inr (Or.inl ⟨hc, ?_⟩))
    cases buf with
    | text b =>
      simp only at h
      split at h
      · simp at h
      · simp only [Res.ok.injEq] at h
        exact ⟨b, w, t, rfl, by omega, by simp only at hne; omega, h.symm⟩
    | null => simp at hne
    | suites l => simp at h
  · refine Or.inr (Or.inr (Or.inr ⟨by omega, ?_⟩))
    cases buf with
    | suites l =>
      simp only at h hne
      split at h
      · simp at h
      split at h
      · rename_i hw
        subst hw
        simp only [Res.ok.injEq] at h
        refine ⟨l, 1, t, rfl, by omega, by omega, by omega, Or.inl ?_⟩
        cases l with
        | nil => simp at *
        | cons v l => exact ⟨v, by simp, by simpa using h.symm⟩
      split at h
      · simp at h
      · simp only [Res.ok.injEq] at h
        exact ⟨l, w, t, rfl, by omega, by omega, by omega, Or.inr ⟨by omega, h.symm⟩⟩
    | null => simp at hne
    | text b => simp at h

theorem errorProcess_enc {total : Nat} {code : Int} {info : Option ErrArg} {i : Option ErrInfo} {m : Bytes}
    (hi : errInfoOf code info = .ok i) (h0 : 0 ≤ code) (h3 : code ≤ 3) (he : encErrMsg code i = some m)
    (hs : m.length < 2 ^ 64) (hv : ∀ l t w, info = some ⟨.suites l, t, w⟩ → ∀ v ∈ l, Int32Range v) :
    (total = 0 → errorProcess d m total = (some code.toNat, .ok .nothing)) ∧
    (entries (errMeaning code.toNat info) ≤ total → 0 < total →
      errorProcess d m total = (some code.toNat, .ok (errMeaning code.toNat info))) := by
  have hne : ¬ m.length = 0 := by
    have hc : 0 < (encInt code).length := by
      unfold encInt
      split <;> rw [head_length] <;> unfold headLen <;> (repeat' split) <;> omega
    unfold encErrMsg at he
    split at he
    · simp only [Option.some.injEq] at he; rw [← he]; omega
    · split at he
      · simp only [Option.some.injEq] at he; rw [← he, List.length_append]; omega
      · simp at he
  have hr : Int32Range code := by unfold Int32Range; omega
  rcases errInfoOf_ok hi h0 h3 with ⟨rfl, rfl, hm⟩ | ⟨rfl, rfl, hm⟩ | ⟨rfl, b, w, t, rfl, hw, hw0, rfl⟩ |
    ⟨rfl, l, w, t, rfl, hw, hw0, hw3, hl⟩
  · have hg := getErrMsg_enc (d := d) he hr (by simp) (by simp)
    rw [hm]
    simp [errorProcess, hne, hg]
  · have hg := getErrMsg_enc (d := d) he hr (by simp) (by simp)
    rw [hm]
    simp [errorProcess, hne, hg]
  · have hg := getErrMsg_enc (d := d) he hr (by
      intro t ht
      simp only [Option.some.injEq, ErrInfo.text.injEq] at ht
      subst ht
      simp only [encErrMsg, encErrInfo, Option.some.injEq, encTstr] at he
      unfold SizeOk
      have : (b.take w).length ≤ m.length := by rw [← he]; simp only [List.length_append]; omega
      omega) (by simp)
    have hlen : (b.take w).length = w := by simp; omega
    simp only [errorProcess, hne, hg, errMeaning, entries, Int.toNat_one, if_true, if_false, hlen]
    refine ⟨fun h => by simp [h], fun h1 h2 => ?_⟩
    rw [if_neg (by omega), if_neg (by omega)]
    simp only [errText, hlen]
    rw [if_neg (by omega)]
  · have hmem : ∀ v ∈ l.take w, Int32Range v := fun v h => hv l t w rfl v (List.mem_of_mem_take h)
    have hlen : (l.take w).length = w := by simp; omega
    have hg := getErrMsg_enc (d := d) he hr (by rcases hl with ⟨v, _, rfl⟩ | ⟨_, rfl⟩ <;> simp) (by
      intro s hs v h
      rcases hl with ⟨v', e, rfl⟩ | ⟨_, rfl⟩
      · simp only [Option.some.injEq, ErrInfo.suites.injEq] at hs
        subst hs
        simp only [suiteValues, List.mem_singleton] at h
        exact hmem v (by rw [e, h]; simp)
      · simp only [Option.some.injEq, ErrInfo.suites.injEq] at hs
        subst hs
        exact hmem v h)
    have e2 : (2 : Int).toNat = 2 := rfl
    simp only [errorProcess, hne, hg, errMeaning, entries, e2, if_true, if_false, hlen]
    refine ⟨fun h => by simp [h], fun h1 h2 => ?_⟩
    rw [if_neg (by omega), if_neg (by omega), if_neg (by omega)]
    rcases hl with ⟨v', e, rfl⟩ | ⟨_, rfl⟩
    · simp [errSuites, e]
    · simp only [errSuites, hlen]
      rw [if_neg (by omega)]

/-- **C29**. The receiver of a composed error message learns the error code, and, with enough room, the text or the
suites; with no room it learns the code only. -/
theorem C29_error_message {size total : Nat} {code : Int} {info : Option ErrArg} {m : Bytes}
    (h : errorCompose size code info = .ok m) (hs : m.length < 2 ^ 64)
    (hv : ∀ l t w, info = some ⟨.suites l, t, w⟩ → ∀ v ∈ l, Int32Range v) :
    m.length ≤ size ∧ 0 ≤ code ∧ code ≤ 3 ∧
    (total = 0 → errorProcess d m total = (some code.toNat, .ok .nothing)) ∧
    (entries (errMeaning code.toNat info) ≤ total → 0 < total →
      errorProcess d m total = (some code.toNat, .ok (errMeaning code.toNat info))) := by
  unfold errorCompose at h
  simp only [Bind.bind, Res.bind, Res.require] at h
  split at h
  · rename_i h1
    split at h
    · rename_i h2
      split at h2
      · rename_i h3
        simp only [Bool.and_eq_true, decide_eq_true_eq] at h3
        split at h
        · rename_i i hi
          simp only [Res.ofOption] at h
          split at h
          · rename_i x hx
            simp only [Res.ok.injEq] at h
            subst h
            cases he : encErrMsg code i with
            | none => simp [he] at hx
            | some y =>
              simp only [he, Option.bind_some, fits] at hx
              split at hx
              · rename_i hl
                simp only [Option.some.injEq] at hx
                subst hx
                exact ⟨hl, h3.1, h3.2, errorProcess_enc hi h3.1 h3.2 he hs hv⟩
              · simp at hx
          · simp at h
        · simp at h
        · simp at h
      · simp at h2
    · simp at h
    · simp at h
  · simp at h
  · simp at h

/-- two suites -/
example : ∃ m, errorCompose 10 2 (some ⟨.suites [2, 3], 2, 2⟩) = .ok m ∧ m = [2, 0x82, 2, 3] ∧
    errorProcess ⟨true, false, fun _ => 0, true⟩ m 5 = (some 2, .ok (.suites [2, 3])) :=
  ⟨_, rfl, by decide, by decide⟩

/-- **C29**. Composing succeeds exactly when the caller gives what the code calls for and the message fits; the size it needs
does not depend on the room there is. -/
theorem C29_composes {code : Int} {info : Option ErrArg} (hb : BufferOk code info) :
    (Complete code info → ∃ m : Bytes, ∀ size, size ≠ 0 →
      errorCompose size code info = if m.length ≤ size then .ok m else .err .cbor) ∧
    (¬ Complete code info → ∀ size, ∃ e, errorCompose size code info = .err e) := by
  have hgo : ∀ i m, 0 ≤ code → code ≤ 3 → errInfoOf code info = .ok i → encErrMsg code i = some m →
      ∀ size, size ≠ 0 → errorCompose size code info = if m.length ≤ size then .ok m else .err .cbor := by
    intro i m h0 h3 hi hm size hz
    simp only [errorCompose, Bind.bind, Res.bind, Res.require, hi, hm, Res.ofOption, fits, Option.bind_some]
    rw [if_pos (by simpa using hz), if_pos (by simp [h0, h3])]
    by_cases hl : m.length ≤ size
    · simp [hl]
    · simp [hl]
  constructor
  · intro hc
    cases hc with
    | success => exact ⟨_, hgo none _ (by omega) (by omega) rfl rfl⟩
    | unknownCred => exact ⟨_, hgo _ _ (by omega) (by omega) rfl rfl⟩
    | @unspecified b t w h1 h2 =>
      have h3 := (hb.1 b t w rfl).2
      refine ⟨_, hgo (some (.text (b.take w))) _ (by omega) (by omega) ?_ rfl⟩
      simp only [errInfoOf]
      rw [if_neg (by omega), if_neg (by omega), if_neg (by simp; omega), if_pos trivial, if_neg (by omega)]
    | @wrongSuite l t w h1 h2 h4 =>
      have h3 := (hb.2 l t w rfl).2
      have hi : errInfoOf 2 (some ⟨.suites l, t, w⟩) =
          .ok (some (.suites (if w = 1 then .one (l.headD 0) else .list (l.take w)))) := by
        simp only [errInfoOf]
        rw [if_neg (by omega), if_neg (by omega), if_neg (by simp; omega), if_neg (by omega), if_neg (by omega)]
        by_cases hw : w = 1
        · simp [hw]
        · rw [if_neg hw, if_neg (by omega), if_neg hw]
      by_cases hw : w = 1
      · rw [if_pos hw] at hi
        exact ⟨_, hgo _ _ (by omega) (by omega) hi rfl⟩
      · rw [if_neg hw] at hi
        have hlen : (l.take w).length = w := by simp; omega
        have he : encSuites (.list (l.take w)) = some (encListHead w ++ ((l.take w).map encInt).flatten) := by
          simp only [encSuites, hlen]
          rw [if_pos ⟨by omega, h4⟩]
        refine ⟨_, hgo _ (encInt 2 ++ (encListHead w ++ ((l.take w).map encInt).flatten)) (by omega) (by omega) hi ?_⟩
        simp only [encErrMsg, encErrInfo, he]
  · intro hc size
    simp only [errorCompose, Bind.bind, Res.bind, Res.require]
    by_cases hz : size = 0
    · subst hz; exact ⟨.invalidArgument, rfl⟩
    rw [if_pos (by simpa using hz)]
    by_cases hr : 0 ≤ code ∧ code ≤ 3
    rotate_left
    · rw [if_neg (by simpa using hr)]; exact ⟨_, rfl⟩
    rw [if_pos (by simpa using hr)]
    suffices h : ∃ e, errInfoOf code info = .err e by
      obtain ⟨e, h⟩ := h
      exact ⟨e, by simp only [h]⟩
    have hcase : code = 1 ∨ code = 2 := by
      have h0 : code ≠ 0 := fun h => hc (h ▸ .success _)
      have h3 : code ≠ 3 := fun h => hc (h ▸ .unknownCred _)
      omega
    cases info with
    | none => rcases hcase with rfl | rfl <;> exact ⟨_, rfl⟩
    | some a =>
      obtain ⟨buf, t, w⟩ := a
      by_cases hg : buf = .null ∨ t = 0 ∨ w = 0 ∨ t < w
      · refine ⟨.invalidArgument, ?_⟩
        simp only [errInfoOf]
        rw [if_neg (by omega), if_neg (by omega), if_pos hg]
      rcases hcase with rfl | rfl
      · cases buf with
        | null => simp at hg
        | text b => exact absurd (.unspecified (by omega) (by omega)) hc
        | suites l => exact absurd rfl (hb.2 l t w rfl).1
      · cases buf with
        | null => simp at hg
        | text b => exact absurd rfl (hb.1 b t w rfl).1
        | suites l =>
          have h3 := (hb.2 l t w rfl).2
          have h4 : 3 < w := by
            apply Classical.byContradiction
            intro h4
            exact hc (.wrongSuite (by omega) (by omega) (by omega))
          refine ⟨.bufferTooSmall, ?_⟩
          simp only [errInfoOf]
          rw [if_neg (by omega), if_neg (by omega), if_neg hg, if_neg (by omega), if_neg (by omega), if_neg (by omega),
            if_pos h4]

/-- A text of two bytes in a buffer of three is composed; a text longer than its buffer is not. -/
example : BufferOk 1 (some ⟨.text [72, 105, 0], 3, 2⟩) ∧ Complete 1 (some ⟨.text [72, 105, 0], 3, 2⟩) ∧
    errorCompose 4 1 (some ⟨.text [72, 105, 0], 3, 2⟩) = .ok [1, 0x62, 72, 105] ∧
    errorCompose 3 1 (some ⟨.text [72, 105, 0], 3, 2⟩) = .err .cbor ∧
    ¬ Complete 1 (some ⟨.text [72, 105], 2, 3⟩) ∧ BufferOk 1 (some ⟨.text [72, 105], 2, 3⟩) := by
  refine ⟨⟨?_, ?_⟩, .unspecified (by decide) (by decide), by decide, by decide, ?_, ?_, ?_⟩
  · rintro b t w h; cases h; exact ⟨by decide, by decide⟩
  · rintro l t w h; cases h
  · intro h; cases h; omega
  · rintro b t w h; cases h; exact ⟨by decide, by decide⟩
  · rintro l t w h; cases h

/-! ## C41: received error messages -/

/-- **C41** (code). The code that is reported is the one in the message, 0 to 3; other codes are refused. Missing: that
the error information is read as what the message says, see `C41_violated`. -/
theorem C41_error_code_partial {m : Bytes} {total : Nat} {c : Option Nat} {r : Res ErrOut}
    (h : errorProcess d m total = (c, r)) :
    (∀ k, c = some k → k ≤ 3 ∧ ∃ x y, IntItem (k : Int) x ∧ m = x ++ y) ∧
    (∀ o, r = .ok o → c ≠ none ∧ entries o ≤ total) ∧
    (∀ u, r = .ub u → c = some 1 ∧ ∃ x y l t, IntItem 1 x ∧ SuitesItem (.list l) y ∧ 3 ≤ l.length ∧ m = x ++ y ++ t) := by
  unfold errorProcess at h
  split at h
  · simp only [Prod.mk.injEq] at h
    obtain ⟨rfl, rfl⟩ := h
    simp
  split at h
  · simp only [Prod.mk.injEq] at h
    obtain ⟨rfl, rfl⟩ := h
    simp
  rename_i code i hg
  have hint : ∃ x y, IntItem code x ∧ m = x ++ y ∧ ∀ j, i = some j → ∃ b t, ErrInfoItem j b ∧ y = b ++ t := by
    unfold getErrMsg at hg
    split at hg
    · simp at hg
    · rename_i c r h1
      obtain ⟨x, hx, rfl⟩ := getInt_sound h1
      split at hg
      · rename_i h2
        simp only [Option.some.injEq, Prod.mk.injEq] at hg
        obtain ⟨rfl, rfl⟩ := hg
        refine ⟨x, _, hx, rfl, fun j hj => ?_⟩
        cases hj
        obtain ⟨b, hb, rfl⟩ := getErrInfo_sound h2
        exact ⟨b, _, hb, rfl⟩
      · simp only [Option.some.injEq, Prod.mk.injEq] at hg
        obtain ⟨rfl, rfl⟩ := hg
        exact ⟨x, r, hx, rfl, by simp⟩
  obtain ⟨x, y, hx, hm, hi⟩ := hint
  have one : ∀ k : Nat, (k : Int) = code → k ≤ 3 → ∀ k', some k = some k' → k' ≤ 3 ∧ ∃ x y, IntItem (k' : Int) x ∧ m = x ++ y := by
    rintro k rfl hk k' hk'
    cases hk'
    exact ⟨hk, x, y, hx, hm⟩
  split at h
  · rename_i hc
    simp only [Prod.mk.injEq] at h
    obtain ⟨rfl, rfl⟩ := h
    exact ⟨one 0 hc.symm (by omega), by rintro _ ⟨⟩; exact ⟨by simp, by simp [entries]⟩, by simp⟩
  split at h
  · rename_i hc
    simp only [Prod.mk.injEq] at h
    obtain ⟨rfl, rfl⟩ := h
    refine ⟨one 1 hc.symm (by omega), fun o ho => ⟨by simp, ?_⟩, fun u hu => ⟨rfl, ?_⟩⟩
    · split at ho
      · cases ho; simp [entries]
      · unfold errText at ho
        split at ho
        · cases ho; simp [entries]
        · split at ho
          · simp at ho
          · cases ho; simp only [entries]; omega
        · simp only at ho
          split at ho
          · simp at ho
          split at ho
          · cases ho; simp [entries]
          · simp at ho
        · cases ho; simp [entries]
    · split at hu
      · simp at hu
      · unfold errText at hu
        split at hu
        · simp at hu
        · split at hu <;> simp at hu
        · rename_i l
          simp only at hu
          split at hu
          · simp at hu
          split at hu
          · simp at hu
          · rename_i hl
            obtain ⟨b, t, hb, rfl⟩ : ∃ b t, SuitesItem (.list l) b ∧ y = b ++ t := hi _ rfl
            refine ⟨x, b, l, t, hc ▸ hx, hb, ?_, by rw [hm, List.append_assoc]⟩
            apply Classical.byContradiction
            intro hlt
            rw [List.getD_eq_getElem?_getD, List.getElem?_eq_none (by omega)] at hl
            simp at hl
        · simp at hu
  split at h
  · rename_i hc
    simp only [Prod.mk.injEq] at h
    obtain ⟨rfl, rfl⟩ := h
    refine ⟨one 2 hc.symm (by omega), fun o ho => ⟨by simp, ?_⟩, fun u hu => ?_⟩
    · split at ho
      · cases ho; simp [entries]
      · unfold errSuites at ho
        split at ho
        · cases ho; simp [entries]
        · cases ho; simp only [entries, List.length_singleton]; omega
        · split at ho
          · simp at ho
          · cases ho; simp only [entries]; omega
        · cases ho; simp [entries]
    · split at hu
      · simp at hu
      · unfold errSuites at hu
        split at hu
        · simp at hu
        · simp at hu
        · split at hu <;> simp at hu
        · simp at hu
  split at h
  · rename_i hc
    simp only [Prod.mk.injEq] at h
    obtain ⟨rfl, rfl⟩ := h
    exact ⟨one 3 hc.symm (by omega), by rintro _ ⟨⟩; exact ⟨by simp, by simp [entries]⟩, by simp⟩
  · simp only [Prod.mk.injEq] at h
    obtain ⟨rfl, rfl⟩ := h
    simp

/-- **C41 is violated**: a list of three suites under code 1, which any peer can send, makes the receiver copy a text
from an address that the sender chose. -/
theorem C41_violated : errorProcess d [1, 0x83, 1, 2, 3] 10 = (some 1, .ub .oob) := by
  have := getErrMsg_enc (d := d) (c := 1) (i := some (.suites (.list [1, 2, 3]))) (b := [1, 0x83, 1, 2, 3]) (by decide)
    (by decide) (by simp) (by simp [suiteValues, Int32Range])
  simp [errorProcess, this, errText]

/-- A text under code 2 is reported as an empty list of suites. -/
theorem C41_text_as_suites : errorProcess d [2, 0x62, 0x68, 0x69] 10 = (some 2, .ok (.suites [])) := by
  have := getErrMsg_enc (d := d) (c := 2) (i := some (.text [0x68, 0x69])) (b := [2, 0x62, 0x68, 0x69]) (by decide)
    (by decide) (by simp [SizeOk]) (by simp)
  simp [errorProcess, this, errSuites]

/-! ## C25: decoding what was encoded -/

/-- **C25**, message_1: what the encoder writes decodes to the same message. -/
theorem C25_message1 {m : Msg1} {b : Bytes} (h : encMsg1 m = some b) (hw : m.Wire) : getMsg1 d b = (true, m) :=
  getMsg1_encMsg1 h hw

example : ∃ b, encMsg1 ⟨3, .list [6, 2], [1, 2, 3], .int (-5), [⟨1, some [7]⟩, ⟨-2, none⟩]⟩ = some b ∧
    b = [3, 0x82, 6, 2, 0x43, 1, 2, 3, 0x24, 1, 0x41, 7, 0x21] ∧
    Msg1.Wire ⟨3, .list [6, 2], [1, 2, 3], .int (-5), [⟨1, some [7]⟩, ⟨-2, none⟩]⟩ :=
  ⟨_, rfl, by decide, by decide, by decide, by decide, by simp, by simp [EadTok.Wire, Int32Range, SizeOk]⟩

/-- **C25**, the byte strings that are message_2, message_3 and message_4 -/
theorem C25_bstr {b : Bytes} (h : b.length < 2 ^ 64) : getMsgBstr d (encBstr b) = some b := getMsgBstr_enc h

/-- **C25**, error message -/
theorem C25_error {c : Int} {i : Option ErrInfo} {b : Bytes} (h : encErrMsg c i = some b) (hc : Int32Range c)
    (h1 : ∀ t, i = some (.text t) → SizeOk t)
    (h2 : ∀ s, i = some (.suites s) → ∀ v ∈ suiteValues s, Int32Range v) : getErrMsg d b = some (c, i) :=
  getErrMsg_enc h hc h1 h2

/-- **C25**, PLAINTEXT_2. What a successful `edhoc_message_2_compose` encrypts decodes to C_R, the identifier of the
application's credential, Signature_or_MAC_2 and the EAD items. Missing: credentials that are not sent as RFC 9528
prescribes, see `C25_violated`. -/
theorem C25_plaintext2_partial {E : Env σ} {cfg : Config} {s s' : St σ} {e : σ} {log : List Ev} {h : History} {n : Nat}
    {msg : Bytes} (hs : Session E cfg e log h s)
    (hc : step E cfg (.compose2 n) s = (.ok (.bytes msg), s')) (hm : msg.length < 2 ^ 32) :
    ∃ gy ks ptxt cr kid sig ts,
      msg = encBstr (gy ++ List.zipWith (· ^^^ ·) ptxt ks) ∧ ks.length = ptxt.length ∧
      CredSupplied (during s s') cr kid ∧ SentEad cfg s.ctx (during s s') .msg2 ts ∧
      (∀ i, SentAs cr i → Sizes sig ts → ts.length ≤ 3 → getPtxt2 d ptxt = some (s.ctx.cid, ⟨i, sig, ts⟩)) := by
  obtain ⟨_, _, h1, h2, hc⟩ := step_compose2 rfl hc
  cases h1; cases h2
  obtain ⟨priv, pub, kid, v, c⟩ := message2Compose_ok hc
  have hst : s.ctx.status ≠ .aborted := by
    have := c.state
    simp only [okReceivedM1, Bool.and_eq_true, beq_iff_eq] at this
    intro h; rw [h] at this; simp at this
  have hks : v.ks.length = v.ptxt.length := c.ks.1
  have hx : (xorBytes v.ptxt v.ks).length = v.ptxt.length := xorBytes_length hks
  have hm2 := hm
  rw [c.out, encBstr_length, List.length_append, hx] at hm2
  obtain ⟨t, ht, hp⟩ := c.ptxt
  refine ⟨pub, v.ks, v.ptxt, v.cred, kid, v.sig, v.ead, c.out, hks, c.fetch.mem, sentEad_of c.ead (session_ead hs hst), ?_⟩
  intro i hi hz hl
  rw [hp]
  refine getPtxt2_enc (ownCid_enc (session_ownCid hs)) (fun x hx => ?_) (ptxtTail_dec ht hi hz.1 hz.2 hl d)
  unfold SizeOk
  rw [hp, hx] at hm2
  simp only [cidItem, List.length_append, encBstr_length] at hm2
  omega

/-- **C25**, PLAINTEXT_3, like PLAINTEXT_2 -/
theorem C25_plaintext3_partial {E : Env σ} {cfg : Config} {s s' : St σ} {e : σ} {log : List Ev} {h : History} {n : Nat}
    {msg : Bytes} (hs : Session E cfg e log h s) (hc : step E cfg (.compose3 n) s = (.ok (.bytes msg), s')) :
    ∃ k iv ct ptxt cr kid sig ts,
      EncryptCall (during s s') k iv (encStructure s.ctx.th) ptxt ct ∧ msg = encBstr ct ∧
      CredSupplied (during s s') cr kid ∧ SentEad cfg s.ctx (during s s') .msg3 ts ∧
      (∀ i, SentAs cr i → Sizes sig ts → ts.length ≤ 3 → getPtxt3 d ptxt = some ⟨i, sig, ts⟩) := by
  obtain ⟨_, _, h1, h2, hc⟩ := step_compose3 rfl hc
  cases h1; cases h2
  obtain ⟨kid, v, c⟩ := message3Compose_ok hc
  have hst : s.ctx.status ≠ .aborted := by
    have := c.state
    simp only [okVerifiedM2, Bool.and_eq_true, beq_iff_eq] at this
    intro h; rw [h] at this; simp at this
  exact ⟨v.k3, v.iv3, v.ctxt, v.ptxt, v.cred, kid, v.sig, v.ead, c.encrypted.call, c.out, c.fetch.mem,
    sentEad_of c.ead (session_ead hs hst), fun i hi hz hl => ptxtTail_dec c.ptxt hi hz.1 hz.2 hl d⟩

/-- **C25**, PLAINTEXT_4 -/
theorem C25_plaintext4 {E : Env σ} {cfg : Config} {s s' : St σ} {e : σ} {log : List Ev} {h : History} {n : Nat}
    {msg : Bytes} (hs : Session E cfg e log h s) (hc : step E cfg (.compose4 n) s = (.ok (.bytes msg), s')) :
    ∃ k iv ct ptxt ts,
      EncryptCall (during s s') k iv (encStructure s.ctx.th) ptxt ct ∧ msg = encBstr ct ∧
      SentEad cfg s.ctx (during s s') .msg4 ts ∧
      ((∀ t ∈ ts, Int32Range t.label ∧ ∀ v, t.value = some v → SizeOk v) → ts.length ≤ 3 → getPtxt4 d ptxt = ts) := by
  obtain ⟨_, _, h1, h2, hc⟩ := step_compose4 rfl hc
  cases h1; cases h2
  obtain ⟨ts, k, iv, ptxt, ct, c⟩ := message4Compose_ok hc
  have hst : s.ctx.status ≠ .aborted := by
    have := c.state
    simp only [okCompleted, Bool.and_eq_true, beq_iff_eq] at this
    intro h; rw [h] at this; simp at this
  refine ⟨k, iv, ct, ptxt, ts, c.encrypted.call, c.out, sentEad_of c.composed (session_ead hs hst), fun ht hl => ?_⟩
  rw [c.plain]
  exact getPtxt4_enc ht hl

/-- a Responder whose key identifier is the integer 100 -/
def Toy.bob100 : Toy.Party := { Toy.bob with cred := .kid [1, 2, 3] false (.int 100) }

/-- **C25 is violated**: of a key identifier outside -24..23 one byte is sent. The message is composed, but PLAINTEXT_2
cannot be decoded. -/
theorem C25_violated : ∃ (h : History) (s s' : St Unit) (n : Nat) (gy ks ptxt kid th2 : Bytes),
    Session (Toy.env Toy.bob100) Toy.cfg () [] h s ∧
    step (Toy.env Toy.bob100) Toy.cfg (.compose2 n) s = (.ok (.bytes (encBstr (gy ++ List.zipWith (· ^^^ ·) ptxt ks))), s') ∧
    Ev.expand kid (info 0 th2 ptxt.length) ptxt.length (some ks) ∈ during s s' ∧
    ∀ d, getPtxt2 d ptxt = none := by
  refine ⟨Toy.hst Toy.bob100 beforeM2, Toy.after Toy.bob100 beforeM2,
    (step (Toy.env Toy.bob100) Toy.cfg (.compose2 100) (Toy.after Toy.bob100 beforeM2)).2, 100, [0, 120],
    [34, 51, 53, 55, 57, 74, 76], [66, 24, 9, 24, 66, 61, 34], [243, 16, 243, 16], [89, 181, 89, 181],
    Toy.session Toy.bob100 beforeM2 (by decide +kernel), Prod.ext (by decide +kernel) rfl, by decide +kernel, ?_⟩
  rintro ⟨s, i, j⟩
  cases s <;> cases i <;> rfl

/-! ## C37: the encryption of PLAINTEXT_2 -/

/-- **C37** (involution). Decrypting with the keystream returns the plaintext, and the lengths are the same. -/
theorem C37_involution {p k : Bytes} (h : k.length = p.length) :
    List.zipWith (· ^^^ ·) (List.zipWith (· ^^^ ·) p k) k = p ∧ (List.zipWith (· ^^^ ·) p k).length = p.length :=
  ⟨xorBytes_invol h, xorBytes_length h⟩

/-- **C37** (keystream of the sender). The keystream is as long as the plaintext: the library asked for that many bytes,
and the length is part of the info string. -/
theorem C37_compose {E : Env σ} {cfg : Config} {s s' : St σ} {n : Nat} {msg : Bytes}
    (hc : step E cfg (.compose2 n) s = (.ok (.bytes msg), s')) (hm : msg.length < 2 ^ 32) :
    ∃ gy prk th ks ptxt, msg = encBstr (gy ++ List.zipWith (· ^^^ ·) ptxt ks) ∧ ks.length = ptxt.length ∧
      gy.length = s.ctx.suite.eccKey ∧ ExpandCall (during s s') prk 0 th ptxt.length ks := by
  obtain ⟨_, _, h1, h2, hc⟩ := step_compose2 rfl hc
  cases h1; cases h2
  obtain ⟨priv, pub, kid, v, c⟩ := message2Compose_ok hc
  have hx : (xorBytes v.ptxt v.ks).length = v.ptxt.length := xorBytes_length c.ks.1
  have hm2 := hm
  rw [c.out, encBstr_length, List.length_append, hx] at hm2
  exact ⟨pub, v.prk2e, v.th2, v.ks, v.ptxt, c.out, c.ks.1, c.pubLen, c.ks.call (by omega)⟩

/-- **C37** (keystream of the receiver). The keystream is as long as the ciphertext, the whole ciphertext is decrypted,
and what was hashed into TH_3 is the result. -/
theorem C37_process {E : Env σ} {cfg : Config} {s s' : St σ} {msg : Bytes}
    (hc : step E cfg (.process2 msg) s = (.ok .unit, s')) (hm : msg.length < 2 ^ 32) :
    ∃ gy ct prk th2 ks th3 cr, StartsBstr (gy ++ ct) msg ∧ ks.length = ct.length ∧ gy.length = s.ctx.suite.eccKey ∧
      ExpandCall (during s s') prk 0 th2 ct.length ks ∧
      HashCall (during s s') (encBstr th2 ++ List.zipWith (· ^^^ ·) ct ks ++ cred cr) th3 := by
  obtain ⟨_, h1, _, hc⟩ := step_process2 rfl hc
  cases h1
  obtain ⟨gy, ct, cid, p, id, pk, v, c⟩ := message2Process_ok hc
  have hl := getMsgBstr_length c.parsed
  rw [List.length_append] at hl
  have h3 := c.th3.call
  rw [c.ptxt] at h3
  exact ⟨gy, ct, v.prk2e, v.th2, v.ks, v.h3, v.cred, getMsgBstr_sound c.parsed, c.ks.1, c.gyLen, c.ks.call (by omega), h3⟩

example : (step (Toy.env Toy.alice) Toy.cfg (.process2 (Toy.msg 3 2))
    (Toy.after Toy.alice (Toy.conf 3 (.int 5) ++ [.compose1 100]))).1 = .ok .unit := by decide +kernel

end Verif
