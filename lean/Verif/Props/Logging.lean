import Verif.SpecLog
import Verif.LogText

/-!
# C81: logging is well defined, shows data as it is, and shows it at the debug level only
-/

namespace Verif

open Logging Spec

/-! ## Formats -/

/-- The format consists of printable characters and of conversions that fit the arguments, one for each. -/
def Logging.wellTyped : List Char → List CType → Bool
  | [], a => a.isEmpty
  | '%' :: 'd' :: f, t :: a => t != .size && wellTyped f a
  | '%' :: 'z' :: 'u' :: f, t :: a => t == .size && wellTyped f a
  | c :: f, a => c != '%' && 32 ≤ c.toNat && c.toNat ≤ 126 && wellTyped f a

/-- formats fit their arguments, hex dumps are of the severity `dbg`, and texts are printable -/
def Logging.Stmt.fine : Stmt → Bool
  | .print _ _ f a => wellTyped f.toList (a.map Prod.fst)
  | .dump _ s t _ _ => s == .dbg && t.toList.all fun c => 32 ≤ c.toNat && c.toNat ≤ 126

set_option maxRecDepth 100000 in
/-- checked for each of the 838 statements -/
theorem statements_fine : (statements.all fun p => p.2.all Stmt.fine) = true := by decide +kernel

theorem printable_digit {n : Nat} (h : n < 10) : Printable (Nat.digitChar n) := by
  have : n = 0 ∨ n = 1 ∨ n = 2 ∨ n = 3 ∨ n = 4 ∨ n = 5 ∨ n = 6 ∨ n = 7 ∨ n = 8 ∨ n = 9 := by omega
  rcases this with h | h | h | h | h | h | h | h | h | h <;> subst h <;> exact ⟨by decide, by decide⟩

theorem oneLine_toDigitsCore (k n : Nat) (l : List Char) (h : OneLine l) : OneLine (Nat.toDigitsCore 10 k n l) := by
  induction k generalizing n l with
  | zero => simpa only [Nat.toDigitsCore] using h
  | succ k ih =>
    have hd : OneLine ((n % 10).digitChar :: l) := by
      intro c hc
      rcases List.mem_cons.1 hc with rfl | hc
      · exact printable_digit (Nat.mod_lt _ (by decide))
      · exact h c hc
    simp only [Nat.toDigitsCore]
    split
    · exact hd
    · exact ih _ _ hd

theorem oneLine_decNat (n : Nat) : OneLine (decNat n) := by
  unfold decNat Nat.toDigits
  exact oneLine_toDigitsCore _ _ _ (by intro c hc; cases hc)

theorem Spec.OneLine.append {a b : List Char} (ha : OneLine a) (hb : OneLine b) : OneLine (a ++ b) := by
  intro c hc
  rcases List.mem_append.1 hc with h | h
  · exact ha c h
  · exact hb c h

theorem Spec.OneLine.cons {c : Char} {b : List Char} (ha : Printable c) (hb : OneLine b) : OneLine (c :: b) := by
  intro d hc
  rcases List.mem_cons.1 hc with rfl | h
  · exact ha
  · exact hb d h

theorem oneLine_decInt (v : Int) : OneLine (decInt v) := by
  unfold decInt
  split
  · exact OneLine.cons ⟨by decide, by decide⟩ (oneLine_decNat _)
  · exact oneLine_decNat _

theorem printf_fine {f : List Char} {ts : List CType} (h : wellTyped f ts = true) {vs : List Int} (hl : ts.length = vs.length) :
    ∃ r, printf f (ts.zip vs) = some r ∧ OneLine r := by
  fun_induction wellTyped f ts generalizing vs with
  | case1 a => exact ⟨[], by simp only [printf], by intro c hc; cases hc⟩
  | case2 f t a ih =>
    cases vs with
    | nil => simp at hl
    | cons v vs =>
      simp only [Bool.and_eq_true, bne_iff_ne, ne_eq] at h
      obtain ⟨r, h1, h2⟩ := ih h.2 (vs := vs) (by simpa using hl)
      exact ⟨decInt v ++ r, by simp [printf, h.1, h1], (oneLine_decInt v).append h2⟩
  | case3 f t a ih =>
    cases vs with
    | nil => simp at hl
    | cons v vs =>
      simp only [Bool.and_eq_true, beq_iff_eq] at h
      obtain ⟨r, h1, h2⟩ := ih h.2 (vs := vs) (by simpa using hl)
      exact ⟨decNat v.toNat ++ r, by simp [printf, h.1, h1], (oneLine_decNat _).append h2⟩
  | case4 c f a n1 n2 ih =>
    simp only [Bool.and_eq_true, bne_iff_ne, ne_eq, decide_eq_true_eq] at h
    obtain ⟨⟨⟨hc, h3⟩, h4⟩, h5⟩ := h
    obtain ⟨r, h1, h2⟩ := ih h5 hl
    refine ⟨c :: r, ?_, OneLine.cons ⟨h3, h4⟩ h2⟩
    rw [printf]
    · simp [hc, h1]
    all_goals intros; simp_all

/-! ## Hex dumps -/

theorem hex_digits : ∀ n, n < 16 → unhex (hexDigit n) = n ∧ hexDigit n ≠ ' ' ∧ Printable (hexDigit n) := by
  have : ∀ n, n < 16 → unhex (hexDigit n) = n ∧ hexDigit n ≠ ' ' ∧ 32 ≤ (hexDigit n).toNat ∧ (hexDigit n).toNat ≤ 126 := by
    decide
  exact this

theorem unhex_byte (b : UInt8) :
    UInt8.ofNat (16 * unhex (hexDigit (b.toNat / 16)) + unhex (hexDigit (b.toNat % 16))) = b := by
  have hb := b.toNat_lt
  rw [(hex_digits (b.toNat / 16) (by omega)).1, (hex_digits (b.toNat % 16) (by omega)).1, Nat.div_add_mod]
  exact UInt8.ofNat_toNat

theorem printable_hexCell (b : UInt8) : OneLine (hexCell b) := by
  have hb := b.toNat_lt
  exact .cons (hex_digits _ (by omega)).2.2 (.cons (hex_digits _ (by omega)).2.2
    (.cons ⟨by decide, by decide⟩ (by intro c hc; cases hc)))

theorem printable_asciiCell (b : UInt8) : Printable (asciiCell b) := by
  have h : ∀ n, n < 127 → (Char.ofNat n).toNat = n := by decide
  unfold asciiCell
  split
  · rename_i hb
    unfold Printable
    rw [h _ (by omega)]
    exact hb
  · exact ⟨by decide, by decide⟩

theorem oneLine_blanks (n : Nat) : OneLine (List.replicate n ' ') := by
  intro c hc
  rw [(List.mem_replicate.1 hc).2]
  exact ⟨by decide, by decide⟩

theorem oneLine_nil : OneLine [] := by intro c hc; cases hc

theorem lines_nil : Lines [] := by intro c hc; cases hc

section
variable {data : List UInt8} {length : Nat} (hl : length ≤ data.length) (i : Nat)
include hl

theorem hexCols_fine (k : Nat) (hk : k ≤ 16) : ∃ h, hexCols data length i k = some h ∧
    h.length = 3 * k + (if 9 ≤ k then 1 else 0) ∧ OneLine h ∧
    ∀ rest, readCells k (h ++ rest) = ((data.take length).drop (i + (16 - k))).take k := by
  induction k with
  | zero => exact ⟨[], rfl, rfl, oneLine_nil, fun _ => by simp [readCells]⟩
  | succ k ih =>
    obtain ⟨r, h1, h2, h3, h4⟩ := ih (by omega)
    have e1 : 16 - (k + 1) = 15 - k := by omega
    have e2 : i + (16 - k) = i + (15 - k) + 1 := by omega
    have hg : OneLine (if 15 - k = 7 then [' '] else []) := by
      split
      · exact .cons ⟨by decide, by decide⟩ oneLine_nil
      · intro c hc; cases hc
    have hn : ((if 15 - k = 7 then [' '] else [] : List Char)).length = if k = 8 then 1 else 0 := by
      by_cases h : k = 8
      · subst h; rfl
      · rw [if_neg (by omega), if_neg h]; rfl
    have hdrop : ∀ rest : List Char, (if k = 8 then ((if 15 - k = 7 then [' '] else []) ++ (r ++ rest)).drop 1
        else (if 15 - k = 7 then [' '] else []) ++ (r ++ rest)) = r ++ rest := by
      intro rest
      by_cases h : k = 8
      · subst h; rfl
      · rw [if_neg (by omega), if_neg (by omega)]; rfl
    simp only [hexCols, h1]
    by_cases hi : i + (15 - k) < length
    · rw [if_pos hi]
      have hd : i + (15 - k) < data.length := by omega
      rw [List.getElem?_eq_getElem hd]
      refine ⟨_, rfl, ?_, ((printable_hexCell _).append hg).append h3, fun rest => ?_⟩
      · simp only [List.length_append, h2, hn, hexCell, List.length_cons, List.length_nil]
        split <;> split <;> split <;> omega
      · rw [e1]
        have hlen : i + (15 - k) < (data.take length).length := by rw [List.length_take]; omega
        rw [List.drop_eq_getElem_cons hlen, List.take_succ_cons, ← e2, ← h4 rest]
        have hb : (data.take length)[i + (15 - k)] = data[i + (15 - k)] := List.getElem_take
        rw [hb]
        generalize data[i + (15 - k)] = b
        have hb := b.toNat_lt
        simp only [hexCell, List.cons_append, List.nil_append, List.append_assoc, readCells]
        rw [if_neg (hex_digits (b.toNat / 16) (by omega)).2.1, unhex_byte, hdrop]
    · rw [if_neg hi]
      refine ⟨_, rfl, ?_, (OneLine.append (oneLine_blanks 3) hg).append h3, fun rest => ?_⟩
      · simp only [List.length_append, h2, hn, List.length_cons, List.length_nil]
        split <;> split <;> split <;> omega
      · simp only [List.cons_append, List.nil_append, List.append_assoc, readCells, if_true]
        rw [e1, List.drop_eq_nil_of_le (by rw [List.length_take]; omega)]
        rfl

theorem asciiCols_fine (k : Nat) (hk : k ≤ 16) : ∃ a, asciiCols data length i k = some a ∧ OneLine a ∧
    a.length = min k (length - (i + (16 - k))) := by
  induction k with
  | zero => exact ⟨[], rfl, oneLine_nil, by simp⟩
  | succ k ih =>
    obtain ⟨r, h1, h2, h3⟩ := ih (by omega)
    simp only [asciiCols, h1]
    by_cases hi : i + (15 - k) < length
    · rw [if_pos hi, List.getElem?_eq_getElem (by omega)]
      exact ⟨_, rfl, .cons (printable_asciiCell _) h2, by simp only [List.length_cons, h3]; omega⟩
    · rw [if_neg hi]
      exact ⟨[], rfl, oneLine_nil, by simp only [List.length_nil]; omega⟩

theorem hexRow_fine : ∃ r, hexRow data length i = some r ∧ Lines r ∧
    r.length = 87 + min 16 (length - i) ∧ ∀ rest, readRow (r ++ rest) = ((data.take length).drop i).take 16 := by
  obtain ⟨h, h1, h2, h3, h4⟩ := hexCols_fine hl i 16 (Nat.le_refl _)
  obtain ⟨a, a1, a2, a3⟩ := asciiCols_fine hl i 16 (Nat.le_refl _)
  refine ⟨List.replicate 35 ' ' ++ h ++ ['|'] ++ a ++ ['|', '\n'], by simp only [hexRow, h1, a1]; rfl, ?_, ?_, fun rest => ?_⟩
  · intro c hc
    simp only [List.mem_append, List.mem_cons, List.not_mem_nil, or_false] at hc
    obtain (((hc | hc) | rfl) | hc) | rfl | rfl := hc
    · exact Or.inl (oneLine_blanks _ c hc)
    · exact Or.inl (h3 c hc)
    · exact Or.inl ⟨by decide, by decide⟩
    · exact Or.inl (a2 c hc)
    · exact Or.inl ⟨by decide, by decide⟩
    · exact Or.inr rfl
  · simp only [List.length_append, List.length_replicate, h2, a3, List.length_cons, List.length_nil]
    simp only [Nat.reduceLeDiff, if_true]
    omega
  · unfold readRow
    have : (List.replicate 35 ' ' ++ h ++ ['|'] ++ a ++ ['|', '\n'] ++ rest).drop 35 =
        h ++ (['|'] ++ (a ++ (['|', '\n'] ++ rest))) := by
      simp only [List.append_assoc]
      exact List.drop_left' (by simp)
    rw [this, h4]
    rfl

theorem hexRows_fine (n : Nat) (i : Nat) (hn : length - i ≤ n) : ∃ r, hexRows data length i = some r ∧ Lines r ∧
    readDump n r = (data.take length).drop i := by
  induction n generalizing i with
  | zero =>
    refine ⟨[], ?_, lines_nil, ?_⟩
    · rw [hexRows, if_neg (by omega)]
    · rw [List.drop_eq_nil_of_le (by rw [List.length_take]; omega)]; rfl
  | succ n ih =>
    by_cases hi : i < length
    · obtain ⟨r, h1, h2, h3, h4⟩ := hexRow_fine hl i
      obtain ⟨t, t1, t2, t3⟩ := ih (i + 16) (by omega)
      refine ⟨r ++ t, ?_, ?_, ?_⟩
      · rw [hexRows, if_pos hi, h1, t1]; rfl
      · intro c hc
        rcases List.mem_append.1 hc with hc | hc
        · exact h2 c hc
        · exact t2 c hc
      · rw [readDump, if_neg (by intro h; have := congrArg List.length h; simp only [List.length_append, h3, List.length_nil] at this; omega)]
        have hr : (readRow (r ++ t)).length = min 16 (length - i) := by
          rw [h4, List.length_take, List.length_drop, List.length_take]; omega
        have hd : (r ++ t).drop (87 + (readRow (r ++ t)).length) = t := List.drop_left' (by rw [h3, hr])
        show readRow (r ++ t) ++ readDump n ((r ++ t).drop (87 + (readRow (r ++ t)).length)) = _
        rw [hd, t3, h4, ← List.drop_drop, List.take_append_drop]
    · refine ⟨[], ?_, lines_nil, ?_⟩
      · rw [hexRows, if_neg hi]
      · rw [List.drop_eq_nil_of_le (by rw [List.length_take]; omega)]; rfl

end

/-! ## Time -/

theorem decNat_small : ∀ n, n < 1000 → (decNat n).length ≤ 3 := by decide +kernel

theorem decNat_two : ∀ n, n < 100 → (decNat n).length ≤ 2 := by decide +kernel

theorem padInt_length {w : Nat} {v : Int} (h : (decNat v.natAbs).length ≤ w) : (padInt w v).length ≤ w + 1 := by
  unfold padInt
  split
  · simp only [List.length_cons, List.length_append, List.length_replicate]; omega
  · simp only [List.length_append, List.length_replicate]; omega

theorem tmod_small (v : Int) {n : Nat} (hn : 0 < n) : (v.tmod n).natAbs < n := by
  rw [Int.natAbs_tmod]
  exact Nat.mod_lt _ hn

/-- the time as it is meant, of any length -/
def Spec.fullTime (hour min sec usec : Int) : List Char :=
  ['['] ++ padInt 2 (hour.tmod 24) ++ [':'] ++ padInt 2 (min.tmod 60) ++ [':'] ++ padInt 2 (sec.tmod 60) ++ ['.'] ++
    padInt 3 ((usec.tdiv 1000).tmod 1000) ++ [','] ++ padInt 3 ((usec.tmod 1000).tmod 1000) ++ [']']

/-- **C81**, time: whatever the clock says, the time is shorter than its buffer and is not cut. -/
theorem C81_time (hour min sec usec : Int) :
    (fullTime hour min sec usec).length < 32 ∧ timestamp hour min sec usec = fullTime hour min sec usec := by
  have h1 : (padInt 2 (hour.tmod 24)).length ≤ 3 := padInt_length (decNat_two _ (Nat.lt_trans (tmod_small hour (n := 24) (by decide)) (by decide)))
  have h2 : (padInt 2 (min.tmod 60)).length ≤ 3 := padInt_length (decNat_two _ (Nat.lt_trans (tmod_small min (n := 60) (by decide)) (by decide)))
  have h3 : (padInt 2 (sec.tmod 60)).length ≤ 3 := padInt_length (decNat_two _ (Nat.lt_trans (tmod_small sec (n := 60) (by decide)) (by decide)))
  have h4 : (padInt 3 ((usec.tdiv 1000).tmod 1000)).length ≤ 4 := padInt_length (decNat_small _ (tmod_small (usec.tdiv 1000) (n := 1000) (by decide)))
  have h5 : (padInt 3 ((usec.tmod 1000).tmod 1000)).length ≤ 4 := padInt_length (decNat_small _ (tmod_small (usec.tmod 1000) (n := 1000) (by decide)))
  have h : (fullTime hour min sec usec).length < 32 := by
    simp only [fullTime, List.length_append, List.length_cons, List.length_nil]
    omega
  exact ⟨h, List.take_of_length_le (Nat.le_of_lt_succ h)⟩

/-! ## Statements -/

section
variable {file : String} {l : List Stmt} {st : Stmt} (hf : (file, l) ∈ statements) (hs : st ∈ l)
include hf hs

theorem stmt_fine : st.fine = true :=
  List.all_eq_true.1 (List.all_eq_true.1 statements_fine _ hf) _ hs

variable (level : Nat) (time func : List Char)

/-- **C81**, messages: a formatted message of a severity that is enabled is written on one line without control characters,
whatever the values of its arguments. -/
theorem C81_message {n : Nat} {s : Sev} {f : String} {a : List (CType × String)} (hst : st = .print n s f a) {vals : List Int}
    (hv : ArgValues st vals) (he : s.level ≤ level) (data : Option (List UInt8)) (length : Nat) :
    ∃ text, OneLine text ∧ emit level time func st vals data length = some (header s time func ++ text ++ ['\n']) := by
  have h := stmt_fine hf hs
  subst hst
  obtain ⟨r, h1, h2⟩ := printf_fine h (vs := vals) (by simpa using hv.1)
  refine ⟨r, h2, ?_⟩
  have : enabled level s = true := by simp only [enabled, Bool.not_eq_true', decide_eq_false_iff_not]; omega
  simp only [emit, Stmt.sev, this, if_true, printBody, h1, Option.map_some, List.append_assoc]

/-- **C81**, hex dumps: a dump that is enabled shows exactly the bytes it is given, and writes no control characters besides
the ends of lines, whatever the bytes. -/
theorem C81_dump {n : Nat} {s : Sev} {t p q : String} (hst : st = .dump n s t p q) {d : List UInt8} {length : Nat}
    (hl : length ≤ d.length) (hne : length ≠ 0) (he : s.level ≤ level) (vals : List Int) :
    ∃ rows, Lines rows ∧ readDump length rows = d.take length ∧
      emit level time func st vals (some d) length = some (header s time func ++ t.toList ++ ['\n', '\n'] ++ rows) := by
  have h := stmt_fine hf hs
  subst hst
  obtain ⟨r, h1, h2, h3⟩ := hexRows_fine hl length 0 (by omega)
  refine ⟨r, h2, by simpa using h3, ?_⟩
  have : enabled level s = true := by simp only [enabled, Bool.not_eq_true', decide_eq_false_iff_not]; omega
  simp only [emit, Stmt.sev, this, if_true, dumpAll, if_neg hne, h1, Option.map_some]

/-- **C81**, no undefined behaviour: at every level, with values of the types of the arguments and readable data, every
statement is defined. -/
theorem C81_defined {vals : List Int} (hv : ArgValues st vals) {data : Option (List UInt8)} {length : Nat}
    (hr : Readable data length) : ∃ out, emit level time func st vals data length = some out := by
  by_cases he : enabled level st.sev = true
  · have hle : st.sev.level ≤ level := by
      simp only [enabled, Bool.not_eq_true', decide_eq_false_iff_not] at he; omega
    cases hst : st with
    | print n s f a =>
      rw [hst] at hle
      obtain ⟨text, _, h⟩ := C81_message hf hs level time func hst hv hle data length
      exact ⟨_, hst ▸ h⟩
    | dump n s t p q =>
      rw [hst] at hle
      cases data with
      | none => exact ⟨_, by simp only [emit, dumpAll]; split <;> rfl⟩
      | some d =>
        by_cases hn : length = 0
        · exact ⟨[], by simp only [emit, dumpAll, hn, if_true, ite_self]⟩
        · obtain ⟨rows, _, _, h⟩ := C81_dump hf hs level time func hst (hr d rfl) hn hle vals
          exact ⟨_, hst ▸ h⟩
  · exact ⟨[], by simp only [emit, if_neg he]⟩

/-- **C81**, secrets: below the debug level no statement shows what is in memory; what it writes does not depend on it. -/
theorem C81_secret (hlev : level < 4) (vals : List Int) (data data' : Option (List UInt8)) (length length' : Nat) :
    emit level time func st vals data length = emit level time func st vals data' length' := by
  have h := stmt_fine hf hs
  cases st with
  | print n s f a => rfl
  | dump n s t p q =>
    simp only [Stmt.fine, Bool.and_eq_true, beq_iff_eq] at h
    have : enabled level s = false := by
      simp only [enabled, h.1, Sev.level, Bool.not_eq_false', decide_eq_true_eq]; exact hlev
    simp only [emit, Stmt.sev, this, Bool.false_eq_true, if_false]

end

/-- **C81**, silence: with the default level nothing is written. -/
theorem C81_silent (time func : List Char) (st : Stmt) (vals : List Int) (data : Option (List UInt8)) (length : Nat) :
    emit 0 time func st vals data length = some [] := by
  have : enabled 0 st.sev = false := by cases st.sev <;> rfl
  simp only [emit, this, Bool.false_eq_true, if_false]

set_option maxRecDepth 100000 in
/-- **C81**, no effects: the arguments of log statements are read only. They contain no assignment, increment or call, so that
leaving statements out (a lower level) changes nothing else. -/
theorem C81_no_effect : ∀ p ∈ statements, ∀ st ∈ p.2, ∀ a ∈ st.arguments, NoEffect a = true := by
  have : (statements.all fun p => p.2.all fun st => st.arguments.all fun a => NoEffect a) = true := by decide +kernel
  intro p hp st hs a ha
  exact List.all_eq_true.1 (List.all_eq_true.1 (List.all_eq_true.1 this p hp) st hs) a ha

/-- calls, assignments and increments would be noticed -/
example : NoEffect "get(x)" = false ∧ NoEffect "x = 1" = false ∧ NoEffect "i++" = false ∧ NoEffect "(*f)(x)" = false ∧
    NoEffect "(const uint8_t *)&ctx->cid.int_value" = true ∧ NoEffect "ARRAY_SIZE(ctx->ead_token) - 1" = true := by
  decide +kernel

/-- Non-vacuity: an error that shows a length, and a dump. -/
example : emit 1 (timestamp 9 5 7 12034) [] (.print 327 .err "Invalid label: %zu" [(.size, "label")]) [42] none 0 =
    some "[09:05:07.012,034] \x1b[31m<err>\x1b[0m libedhoc: Invalid label: 42\n".toList := by decide +kernel

example : emit 4 [] "f".toList (.dump 1 .dbg "X" "p" "n") [] (some [0x0a, 0x41, 0xff]) 3 =
    some ("\x20\x1b[36m<dbg>\x1b[0m libedhoc: f: X\n\n                                   " ++
      "0a 41 ff                                         |.A.|\n").toList := by decide +kernel

/-- At the debug level the ephemeral private key is written to the log. -/
example : .dump 141 .dbg "X" "ctx->dh_priv_key" "ctx->dh_priv_key_len" ∈ message1 := by
  simp [message1]

end Verif
