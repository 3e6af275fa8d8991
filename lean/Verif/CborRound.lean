import Verif.CborGrammar

/-!
# The decoders accept what the encoders produce

For values whose integers fit `int32_t` and whose strings have sizes below `2 ^ 64`.
-/

namespace Verif

open Spec

variable {d : DecCfg}

theorem getHead_nil {st : Bool} {ml : Nat} : getHead st ml [] = none := rfl

/-! ## Containers -/

theorem head_cons (m a : Nat) (hm : m < 7) : ∃ b t, head m a = b :: t ∧ b.toNat ≠ m * 32 + 31 ∧ b.toNat / 32 = m := by
  have key : ∀ x, x < 31 → (UInt8.ofNat (m * 32 + x)).toNat ≠ m * 32 + 31 ∧ (UInt8.ofNat (m * 32 + x)).toNat / 32 = m := by
    intro x hx
    have := first_div (show m < 8 by omega) (x := x) (by omega)
    exact ⟨by omega, this.1⟩
  unfold head
  split
  · exact ⟨_, _, rfl, key _ (by omega)⟩
  split
  · exact ⟨_, _, rfl, key _ (by omega)⟩
  split
  · exact ⟨_, _, rfl, key _ (by omega)⟩
  split <;> exact ⟨_, _, rfl, key _ (by omega)⟩

theorem getContainer_head {m n : Nat} (hm : m < 7) (hn : n < 2 ^ 64) (r : Bytes) :
    getContainer d m (head m n ++ r) = some (some n, r) := by
  obtain ⟨b, t, h1, h2, _⟩ := head_cons m n hm
  have h3 := getHead_head (strict := d.strict) (maxLen := 8) (m := m) (a := n) r (by omega) (Or.inr ⟨hn, Nat.le_refl _⟩)
  rw [h1] at h3 ⊢
  rw [List.cons_append] at h3 ⊢
  simp only [getContainer, if_neg h2, h3, if_true]

/-- a container of another major type is not taken -/
theorem getContainer_head_ne {m m' n : Nat} (hm : m < 7) (hm' : m' < 7) (h : m ≠ m') (hn : n < 2 ^ 64) (r : Bytes) :
    getContainer d m' (head m n ++ r) = none := by
  obtain ⟨b, t, h1, h2, h4⟩ := head_cons m n hm
  have h3 := getHead_head (strict := d.strict) (maxLen := 8) (m := m) (a := n) r (by omega) (Or.inr ⟨hn, Nat.le_refl _⟩)
  rw [h1] at h3 ⊢
  rw [List.cons_append] at h3 ⊢
  have h5 : b.toNat ≠ m' * 32 + 31 := by omega
  simp only [getContainer, if_neg h5, h3, if_neg h]

theorem getContainer_encInt {v : Int} (hv : Int65Range v) (m : Nat) (hm : 2 ≤ m) (hm' : m < 7) (r : Bytes) :
    getContainer d m (encInt v ++ r) = none := by
  unfold Int65Range at hv
  unfold encInt
  split
  · exact getContainer_head_ne (by omega) hm' (by omega) (by omega) r
  · exact getContainer_head_ne (by omega) hm' (by omega) (by omega) r

theorem getElems_enc {α : Type} {p : Bytes → Option (α × Bytes)} {f : α → Bytes} (l : List α)
    (h : ∀ a ∈ l, ∀ r, p (f a ++ r) = some (a, r)) (fuel : Nat) (hf : l.length ≤ fuel) (r : Bytes) :
    getElems p fuel (some l.length) ((l.map f).flatten ++ r) = (l, some 0, r) := by
  induction l generalizing fuel with
  | nil => cases fuel <;> rfl
  | cons a l ih =>
    cases fuel with
    | zero => simp at hf
    | succ fuel =>
      simp only [List.length_cons, List.map_cons, List.flatten_cons, List.append_assoc]
      simp only [getElems, useElem, h a (by simp)]
      rw [ih (fun x hx => h x (by simp [hx])) fuel (by simpa using hf)]

/-! ## Connection identifiers, suites, EAD -/

theorem getCid_encCid {c : Cid} {b : Bytes} (h : encCid c = some b) (hs : ∀ x, c = .bstr x → SizeOk x) (r : Bytes) :
    getCid d (b ++ r) = some (c, r) := by
  cases c with
  | int v =>
    simp only [encCid] at h
    split at h
    · rename_i hv
      simp only [Option.some.injEq] at h
      subst h
      have h32 : Int32Range v := by unfold Int32Range; omega
      simp only [getCid, getBstr_encInt h32.to65, getInt_encInt r h32, if_pos hv]
    · simp at h
  | bstr x =>
    simp only [encCid, Option.some.injEq] at h
    subst h
    simp only [getCid, getBstr_encBstr r (hs x rfl)]

theorem getSuites_encSuites {su : Suites} {b : Bytes} (h : encSuites su = some b)
    (hv : ∀ v ∈ suiteValues su, Int32Range v) (more : Bool) (r : Bytes) : getSuites d more (b ++ r) = (some (su, r), []) := by
  cases su with
  | one v =>
    simp only [encSuites, Option.some.injEq] at h
    subst h
    have h32 := hv v (by simp [suiteValues])
    simp only [getSuites, getContainer_encInt h32.to65 4 (by omega) (by omega), getInt_encInt r h32]
  | list l =>
    simp only [encSuites] at h
    split at h
    · rename_i hl
      simp only [Option.some.injEq, encListHead] at h
      subst h
      rw [List.append_assoc]
      simp only [getSuites, getContainer_head (d := d) (m := 4) (by omega) (show l.length < 2 ^ 64 by omega)]
      rw [getElems_enc l (fun a ha r => getInt_encInt r (hv a (by simpa [suiteValues] using ha))) 3 hl.2]
      simp only [if_pos hl.1, endContainer]
    · simp at h

/-- the token can be carried by the CBOR schema -/
def EadTok.Wire (t : EadTok) : Prop := Int32Range t.label ∧ ∀ v, t.value = some v → SizeOk v

theorem getEadTok_enc {t : EadTok} (ht : t.Wire) {r : Bytes} (hr : getBstr d r = none) :
    getEadTok d (encEadTok t ++ r) = some (t, r) := by
  obtain ⟨l, v⟩ := t
  unfold encEadTok
  rw [List.append_assoc]
  simp only [getEadTok, getInt_encInt _ ht.1]
  cases v with
  | none => simp only [List.nil_append, hr]
  | some v => simp only [getBstr_encBstr r (ht.2 v rfl)]

theorem getMany_ead {ts : List EadTok} (ht : ∀ t ∈ ts, t.Wire) {r : Bytes} (hr : getBstr d r = none)
    {fuel : Nat} (hf : ts.length ≤ fuel) (hr' : ts.length < fuel → getInt d r = none) :
    getMany (getEadTok d) fuel ((ts.map encEadTok).flatten ++ r) = (ts, r) := by
  induction ts generalizing fuel with
  | nil =>
    cases fuel with
    | zero => rfl
    | succ f => simp [getMany, getEadTok, hr' (by simp)]
  | cons t ts ih =>
    cases fuel with
    | zero => simp at hf
    | succ f =>
      have hb : getBstr d ((ts.map encEadTok).flatten ++ r) = none := by
        cases ts with
        | nil => exact hr
        | cons t' ts =>
          simp only [List.map_cons, List.flatten_cons, List.append_assoc]
          unfold encEadTok
          rw [List.append_assoc]
          exact getBstr_encInt (ht t' (by simp)).1.to65
      simp only [List.map_cons, List.flatten_cons, List.append_assoc, getMany]
      rw [getEadTok_enc (ht t (by simp)) hb]
      simp only
      rw [ih (fun x hx => ht x (by simp [hx])) (by simpa using hf) (fun h => hr' (by simpa using h))]

theorem specEad_eq (ts : List EadTok) : Spec.ead ts = (ts.map encEadTok).flatten := rfl

/-- up to three tokens at the end of the input -/
theorem getEad_enc {ts : List EadTok} (ht : ∀ t ∈ ts, t.Wire) (hl : ts.length ≤ 3) :
    getEad d (Spec.ead ts) = (ts, []) := by
  have := getMany_ead (d := d) ht (r := []) getBstr_nil (fuel := 3) hl (fun _ => getInt_nil)
  rw [List.append_nil] at this
  exact this

theorem stale_nil : stale d [] = 0 := by
  unfold stale
  split
  · rfl
  · simp [getHead]

theorem staleEad_enc {ts : List EadTok} (ht : ∀ t ∈ ts, t.Wire) (fuel : Nat) : staleEad d fuel (Spec.ead ts) = 0 := by
  rw [specEad_eq]
  induction ts generalizing fuel with
  | nil =>
    cases fuel with
    | zero => rfl
    | succ f => simp [staleEad, getInt_nil]
  | cons t ts ih =>
    cases fuel with
    | zero => rfl
    | succ f =>
      have i := ih (fun x hx => ht x (by simp [hx])) f
      obtain ⟨l, v⟩ := t
      have h := ht _ List.mem_cons_self
      simp only [List.map_cons, List.flatten_cons, encEadTok, List.append_assoc, staleEad, getInt_encInt _ h.1]
      cases v with
      | some v => simp only [getBstr_encBstr _ (h.2 v rfl)]; exact i
      | none =>
        simp only [List.nil_append]
        cases ts with
        | nil => simp only [List.map_nil, List.flatten_nil, getBstr_nil, stale_nil, if_true]; exact i
        | cons t' ts =>
          have hh := (ht t' (by simp)).1
          have hb : getBstr d ((List.map encEadTok (t' :: ts)).flatten) = none := by
            simp only [List.map_cons, List.flatten_cons, encEadTok, List.append_assoc]
            exact getBstr_encInt hh.to65
          have hz : stale d ((List.map encEadTok (t' :: ts)).flatten) = 0 := by
            simp only [List.map_cons, List.flatten_cons, encEadTok, List.append_assoc]
            exact stale_encInt hh _
          rw [hb, hz]
          exact i

theorem encEadOpt_eq {ts : List EadTok} {b : Bytes} (h : encEadOpt ts = some b) : b = Spec.ead ts ∧ ts.length ≤ 3 := by
  unfold encEadOpt at h
  split at h
  · rename_i he
    cases ts with
    | nil => simp only [Option.some.injEq] at h; subst h; exact ⟨rfl, by simp⟩
    | cons => simp at he
  · unfold encEad at h
    split at h
    · rename_i hl
      simp only [Option.some.injEq] at h
      exact ⟨h.symm, hl.2⟩
    · simp at h

/-! ## message_1 -/

/-- message_1 can be carried by the CBOR schema -/
structure Msg1.Wire (m : Msg1) : Prop where
  method : Int32Range m.method
  suites : ∀ v ∈ suiteValues m.suites, Int32Range v
  gx : SizeOk m.gx
  ci : ∀ x, m.ci = .bstr x → SizeOk x
  ead : ∀ t ∈ m.ead, t.Wire

theorem getMsg1_encMsg1 {m : Msg1} {b : Bytes} (h : encMsg1 m = some b) (hw : m.Wire) : getMsg1 d b = (true, m) := by
  unfold encMsg1 at h
  split at h
  · rename_i su ci ea h1 h2 h3
    simp only [Option.some.injEq] at h
    subst h
    obtain ⟨rfl, hl⟩ := encEadOpt_eq h3
    simp only [List.append_assoc]
    simp only [getMsg1, getInt_encInt _ hw.method, getSuites_encSuites h1 hw.suites, getBstr_encBstr _ hw.gx,
      getCid_encCid h2 hw.ci, getEad_enc hw.ead hl]
  · simp at h

theorem staleMsg1_encMsg1 {m : Msg1} {b : Bytes} (h : encMsg1 m = some b) (hw : m.Wire) : staleMsg1 d b = (0, 0, 0) := by
  unfold encMsg1 at h
  split at h
  · rename_i su ci ea h1 h2 h3
    simp only [Option.some.injEq] at h
    subst h
    obtain ⟨rfl, hl⟩ := encEadOpt_eq h3
    simp only [List.append_assoc]
    simp only [staleMsg1, getInt_encInt _ hw.method, getSuites_encSuites h1 hw.suites, getBstr_encBstr _ hw.gx,
      getCid_encCid h2 hw.ci, staleEad_enc hw.ead]
  · simp at h

/-! ## Credential maps -/

theorem getIntOrBstr_enc {v : IntOrBytes} (h1 : ∀ i, v = .int i → Int32Range i) (h2 : ∀ b, v = .bstr b → SizeOk b)
    (r : Bytes) : getIntOrBstr d (encIntOrBstr v ++ r) = some (v, r) := by
  cases v with
  | int i => simp only [getIntOrBstr, encIntOrBstr, getInt_encInt r (h1 i rfl)]
  | bstr b => simp only [getIntOrBstr, encIntOrBstr, getInt_encBstr, getBstr_encBstr r (h2 b rfl)]

theorem getInt_encTstr {b r : Bytes} : getInt d (encTstr b ++ r) = none := by
  unfold encTstr
  rw [List.append_assoc]
  exact getInt_head_ne (by omega) (by omega)

theorem getIntOrTstr_enc {v : IntOrBytes} (h1 : ∀ i, v = .int i → Int32Range i) (h2 : ∀ b, v = .bstr b → SizeOk b)
    (r : Bytes) : getIntOrTstr d (encIntOrTstr v ++ r) = some (v, r) := by
  cases v with
  | int i => simp only [getIntOrTstr, encIntOrTstr, getInt_encInt r (h1 i rfl)]
  | bstr b => simp only [getIntOrTstr, encIntOrTstr, getInt_encTstr, getTstr_encTstr r (h2 b rfl)]

theorem getX5chain_enc {x : X5chain} {b : Bytes} (h : encX5chain x = some b)
    (hs : ∀ c, x = .one c → SizeOk c) (hl : ∀ l, x = .list l → ∀ c ∈ l, SizeOk c) (r : Bytes) :
    getX5chain d (b ++ r) = some (x, r) := by
  cases x with
  | one c =>
    simp only [encX5chain, Option.some.injEq] at h
    subst h
    simp only [getX5chain, getBstr_encBstr r (hs c rfl)]
  | list l =>
    simp only [encX5chain] at h
    split at h
    · rename_i hn
      simp only [Option.some.injEq, encListHead] at h
      subst h
      rw [List.append_assoc]
      have hb : getBstr d (head 4 l.length ++ ((l.map encBstr).flatten ++ r)) = none :=
        getStr_head_ne (by omega) (by omega) (by omega)
      simp only [getX5chain, hb, getContainer_head (d := d) (m := 4) (by omega) (show l.length < 2 ^ 64 by omega)]
      rw [getElems_enc l (fun a ha r => getBstr_encBstr r (hl l rfl a ha)) 3 hn.2]
      simp only [if_pos hn.1, endContainer]
    · simp at h

theorem getCertHash_enc {p : IntOrBytes × Bytes} (h1 : ∀ i, p.1 = .int i → Int32Range i)
    (h2 : ∀ b, p.1 = .bstr b → SizeOk b) (h3 : SizeOk p.2) (r : Bytes) :
    getCertHash d (encCertHash p ++ r) = some (p, r) := by
  unfold encCertHash encListHead
  simp only [List.append_assoc]
  simp only [getCertHash, getContainer_head (d := d) (m := 4) (by omega) (show (2 : Nat) < 2 ^ 64 by omega), useElem,
    getIntOrTstr_enc h1 h2, getBstr_encBstr _ h3, endContainer]

theorem expectUint_enc {k k' : Nat} (hk : k < 4294967296) (r : Bytes) :
    expectUint d k' (encInt (k : Int) ++ r) = if k = k' then some r else none := by
  have : encInt (k : Int) = head 0 k := by simp [encInt]
  rw [this]
  simp only [expectUint, getHead_head r (show 0 < 8 by omega) (Or.inl ⟨hk, Nat.le_refl _⟩), true_and]

theorem getEntry_enc {α : Type} {k n : Nat} {p : Bytes → Option (α × Bytes)} {a : α} {b : Bytes} (hk : k < 4294967296)
    (r : Bytes) (hp : p (b ++ r) = some (a, r)) :
    getEntry d k p (some (n + 1)) (encInt (k : Int) ++ b ++ r) = (some a, some n, r) := by
  rw [List.append_assoc]
  simp only [getEntry, useElem, expectUint_enc hk, if_true, hp]

theorem getEntry_skip {α : Type} {k k' n : Nat} {p : Bytes → Option (α × Bytes)} {r : Bytes} (hk : k < 4294967296)
    (h : k ≠ k') : getEntry d k' p (some (n + 1)) (encInt (k : Int) ++ r) = (none, some (n + 1), encInt (k : Int) ++ r) := by
  simp only [getEntry, useElem, expectUint_enc hk, if_neg h]

theorem getEntry_end {α : Type} {k : Nat} {p : Bytes → Option (α × Bytes)} {r : Bytes} :
    getEntry d k p (some 0) r = (none, some 0, r) := rfl

/-- the map can be carried by the CBOR schema -/
structure CredMap.Wire (m : CredMap) : Prop where
  kidInt : ∀ i, m.kid = some (.int i) → Int32Range i
  kidBstr : ∀ b, m.kid = some (.bstr b) → SizeOk b
  cert : ∀ c, m.x5chain = some (.one c) → SizeOk c
  chain : ∀ l, m.x5chain = some (.list l) → ∀ c ∈ l, SizeOk c
  algInt : ∀ i fp, m.x5t = some (.int i, fp) → Int32Range i
  algTstr : ∀ b fp, m.x5t = some (.bstr b, fp) → SizeOk b
  hash : ∀ a fp, m.x5t = some (a, fp) → SizeOk fp

theorem getCredMap_enc {m : CredMap} {b : Bytes} (h : encCredMap m = some b) (hw : m.Wire) (r : Bytes) :
    getCredMap d (b ++ r) = some (m, r) := by
  obtain ⟨k, x, t⟩ := m
  have hk : ∀ v, k = some v → ∀ n r, getEntry d 4 (getIntOrBstr d) (some (n + 1)) (encInt 4 ++ encIntOrBstr v ++ r) =
      (some v, some n, r) := by
    rintro v rfl n r
    exact getEntry_enc (k := 4) (by omega) r (getIntOrBstr_enc (fun i e => hw.kidInt i (by rw [e]))
      (fun i e => hw.kidBstr i (by rw [e])) r)
  have hx : ∀ v c, x = some v → encX5chain v = some c → ∀ n r, getEntry d 33 (getX5chain d) (some (n + 1))
      (encInt 33 ++ c ++ r) = (some v, some n, r) := by
    rintro v c rfl hc n r
    exact getEntry_enc (k := 33) (by omega) r (getX5chain_enc hc (fun i e => hw.cert i (by rw [e]))
      (fun i e => hw.chain i (by rw [e])) r)
  have ht : ∀ v, t = some v → ∀ n r, getEntry d 34 (getCertHash d) (some (n + 1)) (encInt 34 ++ encCertHash v ++ r) =
      (some v, some n, r) := by
    rintro ⟨a, fp⟩ rfl n r
    exact getEntry_enc (k := 34) (by omega) r (getCertHash_enc (fun i e => hw.algInt i fp (by simp at e; rw [e]))
      (fun i e => hw.algTstr i fp (by simp at e; rw [e])) (hw.hash a fp rfl) r)
  have s33 : ∀ n r, getEntry d 4 (getIntOrBstr d) (some (n + 1)) (encInt 33 ++ r) = (none, some (n + 1), encInt 33 ++ r) :=
    fun n r => getEntry_skip (k := 33) (by omega) (by omega)
  have s34 : ∀ n r, getEntry d 4 (getIntOrBstr d) (some (n + 1)) (encInt 34 ++ r) = (none, some (n + 1), encInt 34 ++ r) :=
    fun n r => getEntry_skip (k := 34) (by omega) (by omega)
  have s34' : ∀ n r, getEntry d 33 (getX5chain d) (some (n + 1)) (encInt 34 ++ r) = (none, some (n + 1), encInt 34 ++ r) :=
    fun n r => getEntry_skip (k := 34) (by omega) (by omega)
  have hc : ∀ n r, n < 4 → getContainer d 5 (encMapHead n ++ r) = some (some n, r) :=
    fun n r hn => getContainer_head (by omega) (by omega) r
  cases k <;> cases x <;> cases t <;> simp only [encCredMap, CredMap.count,
    Option.isSome_none, Option.isSome_some, Bool.false_eq_true, if_false, if_true, Nat.zero_add, Nat.reduceAdd] at h <;>
    (try split at h) <;> simp only [Option.some.injEq, reduceCtorEq] at h
  all_goals
    subst h
    simp only [List.append_nil, List.append_assoc, getCredMap, hc _ _ (show 0 < 4 by omega), hc _ _ (show 1 < 4 by omega),
      hc _ _ (show 2 < 4 by omega), hc _ _ (show 3 < 4 by omega)]
    try simp only [← List.append_assoc (encInt 4)]
    try simp only [hk _ rfl 0, hk _ rfl 1, hk _ rfl 2]
    try simp only [s33 0, s33 1, s34 0]
    try simp only [← List.append_assoc (encInt 33), hx _ _ rfl (by assumption) 0, hx _ _ rfl (by assumption) 1]
    try simp only [s34' 0]
    try simp only [← List.append_assoc (encInt 34), ht _ rfl 0]
    try simp only [getEntry_end, endContainer]

/-! ## ID_CRED and plaintexts -/

/-- an ID_CRED that can be carried by the CBOR schema -/
def IdCred.Wire : IdCred → Prop
  | .int v => Int32Range v
  | .bstr b => SizeOk b
  | .map m => m.Wire

theorem getIdCred_enc {i : IdCred} {b : Bytes} (h : encIdCred i = some b) (hw : i.Wire) (r : Bytes) :
    getIdCred d (b ++ r) = some (i, r) := by
  cases i with
  | int v =>
    simp only [encIdCred, Option.some.injEq] at h
    subst h
    simp only [getIdCred, getInt_encInt r hw]
  | bstr x =>
    simp only [encIdCred, Option.some.injEq] at h
    subst h
    simp only [getIdCred, getInt_encBstr, getBstr_encBstr r hw]
  | map m =>
    simp only [encIdCred] at h
    have h1 := getCredMap_enc (d := d) h hw r
    obtain ⟨t, ht⟩ : ∃ t, b = head 5 m.count ++ t := by
      unfold encCredMap encMapHead at h
      simp only at h
      split at h
      · simp only [Option.some.injEq, List.append_assoc] at h; exact ⟨_, h.symm⟩
      · split at h
        · simp only [Option.some.injEq, List.append_assoc] at h; exact ⟨_, h.symm⟩
        · simp at h
    have hc : m.count < 2 ^ 64 := by unfold CredMap.count; split <;> split <;> split <;> omega
    have h2 : getInt d (b ++ r) = none := by rw [ht, List.append_assoc]; exact getInt_head_ne (by omega) (by omega)
    have h3 : getBstr d (b ++ r) = none := by
      rw [ht, List.append_assoc]; exact getStr_head_ne (by omega) (by omega) hc
    simp only [getIdCred, h1, h2, h3]

theorem getPtxt3_enc {p : Ptxt} {b : Bytes} (h : encIdCred p.idCred = some b) (hi : p.idCred.Wire) (hs : SizeOk p.sig)
    (he : ∀ t ∈ p.ead, t.Wire) (hl : p.ead.length ≤ 3) : getPtxt3 d (b ++ encBstr p.sig ++ Spec.ead p.ead) = some p := by
  rw [List.append_assoc]
  simp only [getPtxt3, getIdCred_enc h hi, getBstr_encBstr _ hs, getEad_enc he hl]

theorem getPtxt2_enc {c : Cid} {x t : Bytes} {p : Ptxt} (hc : encCid c = some x) (hs : ∀ b, c = .bstr b → SizeOk b)
    (h : getPtxt3 d t = some p) : getPtxt2 d (x ++ t) = some (c, p) := by
  simp only [getPtxt2, getCid_encCid hc hs, h]

theorem stalePtxt3_enc {p : Ptxt} {b : Bytes} (h : encIdCred p.idCred = some b) (hi : p.idCred.Wire) (hs : SizeOk p.sig)
    (he : ∀ t ∈ p.ead, t.Wire) : stalePtxt3 d (b ++ encBstr p.sig ++ Spec.ead p.ead) = 0 := by
  rw [List.append_assoc]
  simp only [stalePtxt3, getIdCred_enc h hi, getBstr_encBstr _ hs, staleEad_enc he]

theorem stalePtxt2_enc {c : Cid} {x t : Bytes} (hc : encCid c = some x) (hs : ∀ b, c = .bstr b → SizeOk b)
    (h : stalePtxt3 d t = 0) : stalePtxt2 d (x ++ t) = 0 := by
  simp only [stalePtxt2, getCid_encCid hc hs, h]

theorem getPtxt4_enc {ts : List EadTok} (he : ∀ t ∈ ts, t.Wire) (hl : ts.length ≤ 3) : getPtxt4 d (Spec.ead ts) = ts := by
  simp only [getPtxt4, getEad_enc he hl]

theorem getMsgBstr_enc {b : Bytes} (h : SizeOk b) : getMsgBstr d (encBstr b) = some b := by
  have := getBstr_encBstr (d := d) [] h
  rw [List.append_nil] at this
  simp only [getMsgBstr, this, Option.map_some]

/-! ## Error message -/

theorem getErrInfo_enc {i : ErrInfo} {b : Bytes} (h : encErrInfo i = some b) (h1 : ∀ t, i = .text t → SizeOk t)
    (h2 : ∀ s, i = .suites s → ∀ v ∈ suiteValues s, Int32Range v) (r : Bytes) :
    getErrInfo d (b ++ r) = some (i, r) := by
  cases i with
  | text t =>
    simp only [encErrInfo, Option.some.injEq] at h
    subst h
    simp only [getErrInfo, getTstr_encTstr r (h1 t rfl)]
  | suites s =>
    simp only [encErrInfo] at h
    have h3 := getSuites_encSuites (d := d) h (h2 s rfl) false r
    have h4 : getTstr d (b ++ r) = none := by
      cases s with
      | one v =>
        simp only [encSuites, Option.some.injEq] at h
        subst h
        have hv := (h2 _ rfl v (by simp [suiteValues])).to65
        unfold Int65Range at hv
        unfold encInt
        split
        · exact getStr_head_ne (by omega) (by omega) (by omega)
        · exact getStr_head_ne (by omega) (by omega) (by omega)
      | list l =>
        simp only [encSuites] at h
        split at h
        · simp only [Option.some.injEq, encListHead] at h
          subst h
          rw [List.append_assoc]
          exact getStr_head_ne (by omega) (by omega) (by omega)
        · simp at h
    simp only [getErrInfo, h3, h4]
  | true_ =>
    simp only [encErrInfo, Option.some.injEq] at h
    subst h
    have e : ∀ ml, getHead d.strict ml (0xF5 :: r) = some (7, 21, r) := by
      intro ml; unfold getHead; simp
    have hc : getContainer d 4 (0xF5 :: r) = none := by simp [getContainer, e]
    simp only [getErrInfo, List.singleton_append, getTstr, getStr, e, getSuites, hc, getInt, expectTrue]
    simp

theorem getErrMsg_enc {c : Int} {i : Option ErrInfo} {b : Bytes} (h : encErrMsg c i = some b) (hc : Int32Range c)
    (h1 : ∀ t, i = some (.text t) → SizeOk t)
    (h2 : ∀ s, i = some (.suites s) → ∀ v ∈ suiteValues s, Int32Range v) : getErrMsg d b = some (c, i) := by
  unfold encErrMsg at h
  cases i with
  | none =>
    simp only [Option.some.injEq] at h
    subst h
    have := getInt_encInt (d := d) [] hc
    rw [List.append_nil] at this
    simp only [getErrMsg, this]
    have : getErrInfo d [] = none := by simp [getErrInfo, getTstr_nil, getSuites, getContainer, getInt_nil, expectTrue]
    rw [this]
  | some i =>
    cases h3 : encErrInfo i with
    | none => simp [h3] at h
    | some x =>
      simp only [h3, Option.some.injEq] at h
      subst h
      have := getErrInfo_enc (d := d) h3 (fun t e => h1 t (by rw [e])) (fun s e => h2 s (by rw [e])) []
      rw [List.append_nil] at this
      simp only [getErrMsg, getInt_encInt _ hc, this]

end Verif
