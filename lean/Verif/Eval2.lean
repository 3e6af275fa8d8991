import Verif.Eval
import Verif.Sent

/-!
# The sizes computed by the library are large enough
-/

namespace Verif

open M Spec

variable {σ : Type} {cfg : Config}

theorem encInt_length {v : Int} (h1 : -65536 ≤ v) (h2 : v ≤ 65535) : (encInt v).length = intMemReq v := by
  have hb : ∀ n : Nat, n < 65536 → bstrOh n = if n ≤ 23 then 1 else if n ≤ 255 then 2 else 3 := by
    intro n hn
    unfold bstrOh
    repeat' split
    all_goals omega
  unfold encInt
  split
  · rw [head_length, headLen_small (by omega), hb _ (by omega)]
    unfold intMemReq
    repeat' split
    all_goals omega
  · rw [head_length, headLen_small (by omega), hb _ (by omega)]
    unfold intMemReq
    repeat' split
    all_goals omega

/-! ## EAD -/

theorem encEadTok_size {t : EadTok} (h1 : -65536 ≤ t.label ∧ t.label ≤ 65535) (h2 : (encEadTok t).length < 65536) :
    (encEadTok t).length ≤ intMemReq t.label + t.valueLen + bstrOh t.valueLen ∧
      intMemReq t.label + t.valueLen + bstrOh t.valueLen ≤ (encEadTok t).length + 1 := by
  obtain ⟨l, v⟩ := t
  have h3 := encInt_length h1.1 h1.2
  cases v with
  | none => simp [encEadTok, EadTok.valueLen, h3, bstrOh]
  | some v =>
    simp only [encEadTok, List.length_append, encBstr_length] at h2
    simp [encEadTok, EadTok.valueLen, h3, encBstr_small (show v.length < 65536 by omega)]
    omega

theorem ead_cons (t : EadTok) (ts : List EadTok) : Spec.ead (t :: ts) = encEadTok t ++ Spec.ead ts := rfl

theorem eadLen_size {ts : List EadTok} (h1 : ∀ t ∈ ts, -65536 ≤ t.label ∧ t.label ≤ 65535)
    (h2 : (Spec.ead ts).length < 65536) :
    (Spec.ead ts).length ≤ eadLen ts ∧ eadLen ts ≤ (Spec.ead ts).length + ts.length := by
  induction ts with
  | nil => exact ⟨Nat.le_refl _, Nat.le_refl _⟩
  | cons t ts ih =>
    rw [ead_cons, List.length_append] at h2
    obtain ⟨h3, h4⟩ := ih (fun t ht => h1 t (List.mem_cons_of_mem _ ht)) (by omega)
    obtain ⟨h5, h6⟩ := encEadTok_size (h1 t List.mem_cons_self) (by omega)
    rw [ead_cons, List.length_append, List.length_cons]
    have : eadLen (t :: ts) = intMemReq t.label + t.valueLen + bstrOh t.valueLen + eadLen ts := rfl
    omega

/-! ## Credentials -/

/-- what is computed for a credential that can be sent -/
structure CredSizes (cfg : Config) (cr : Cred) : Prop where
  id : ∃ l, idCredLen cfg cr = .ok l ∧ macIdCred l cr = .ok (idCred cr) ∧ (idCred cr).length ≤ l ∧
    l ≤ (idCred cr).length + 1
  comp : ∃ k, macComp cfg cr = .ok k ∧ (idWire cr k).length ≤ (idCred cr).length
  cred : ∃ l, credLen cr = .ok l ∧ macCred l cr = .ok (cred cr) ∧ (cred cr).length ≤ l ∧ l ≤ (cred cr).length + 3

theorem fitsRes {n : Nat} {b : Bytes} (h : b.length ≤ n) {e : Err} : Res.ofOption e (fits n b) = .ok b := by
  rw [fits_of h]; rfl

theorem macIdCred_total {cr : Cred} {m : CredMap} {b : Bytes} (h1 : credMap cr = .ok m) (h2 : encCredMap m = some b)
    (hne : ∀ i x y, cr ≠ .any i x y) : b = idCred cr ∧ ∀ l, b.length ≤ l → macIdCred l cr = .ok b := by
  have h3 : ∀ l, b.length ≤ l → macIdCred l cr = .ok b := by
    intro l hl
    unfold macIdCred
    cases cr with
    | any i x y => exact absurd rfl (hne i x y)
    | _ => exact Res.bind_ok.2 ⟨m, h1, by simp only [h2, Option.bind_some]; exact fitsRes hl⟩
  exact ⟨macIdCred_spec (h3 _ (Nat.le_refl _)), h3⟩

theorem certs_size {l : List Bytes} (h : ((l.map encBstr).flatten).length < 65536) :
    (l.map fun c => c.length + bstrOh c.length).sum = ((l.map encBstr).flatten).length := by
  induction l with
  | nil => rfl
  | cons c l ih =>
    simp only [List.map_cons, List.flatten_cons, List.length_append] at h
    simp only [List.map_cons, List.sum_cons, List.flatten_cons, List.length_append]
    rw [ih (by omega), encBstr_small (by rw [encBstr_length] at h; omega)]

/-- the credential itself -/
theorem cred_bstr {b : Bytes} (h : (encBstr b).length ≤ 40000) (e : Err) :
    Res.ofOption e (fits (b.length + bstrOh b.length) (encBstr b)) = .ok (encBstr b) ∧
      (encBstr b).length = b.length + bstrOh b.length := by
  have h1 : (encBstr b).length = b.length + bstrOh b.length := encBstr_small (by rw [encBstr_length] at h; omega)
  exact ⟨fitsRes (by omega), h1⟩

theorem kidCred_size {c : Bytes} {ic : Bool} {id : IntOrBytes} (h : (Spec.cred (.kid c ic id)).length ≤ 40000) :
    ∃ l, credLen (.kid c ic id) = .ok l ∧ macCred l (.kid c ic id) = .ok (Spec.cred (.kid c ic id)) ∧
      (Spec.cred (.kid c ic id)).length ≤ l ∧ l ≤ (Spec.cred (.kid c ic id)).length + 3 := by
  cases ic with
  | true =>
    have h' : c.length ≤ 40000 := h
    have := bstrOh_le3 (n := c.length) (by omega)
    exact ⟨_, rfl, rfl, Nat.le_add_right _ _, Nat.add_le_add_left this _⟩
  | false =>
    obtain ⟨h1, h2⟩ := cred_bstr h .cbor
    exact ⟨_, rfl, h1, Nat.le_of_eq h2, by simp only [Spec.cred]; omega⟩

theorem kidInt_size {c : Bytes} {ic : Bool} {v : Int} (h1 : -65536 ≤ v) (h2 : v ≤ 65535) :
    ∃ l, idCredLen cfg (.kid c ic (.int v)) = .ok l ∧ macIdCred l (.kid c ic (.int v)) = .ok (idCred (.kid c ic (.int v))) ∧
      (idCred (.kid c ic (.int v))).length ≤ l ∧ l ≤ (idCred (.kid c ic (.int v))).length + 1 := by
  have hl : (idCred (.kid c ic (.int v))).length = 2 + intMemReq v := by
    simp [idCred, mapHead, head_length, headLen, encInt_length h1 h2, show (encInt 4).length = 1 from rfl]
    omega
  obtain ⟨h3, h4⟩ := macIdCred_total (cr := .kid c ic (.int v)) rfl rfl (by simp)
  rw [h3] at h4
  exact ⟨_, rfl, h4 _ (by rw [hl, mapOh]; omega), by rw [hl, mapOh]; omega, by rw [hl, mapOh]; omega⟩

theorem kidBstr_size {c b : Bytes} {ic : Bool} (h : (idCred (.kid c ic (.bstr b))).length ≤ 40000) :
    ∃ l, idCredLen cfg (.kid c ic (.bstr b)) = .ok l ∧ macIdCred l (.kid c ic (.bstr b)) = .ok (idCred (.kid c ic (.bstr b))) ∧
      (idCred (.kid c ic (.bstr b))).length ≤ l ∧ l ≤ (idCred (.kid c ic (.bstr b))).length + 1 := by
  have hl : (idCred (.kid c ic (.bstr b))).length = 2 + (encBstr b).length := by
    simp [idCred, mapHead, head_length, headLen, show (encInt 4).length = 1 from rfl]
    omega
  have h5 := (cred_bstr (b := b) (by omega) .cbor).2
  obtain ⟨h3, h4⟩ := macIdCred_total (cr := .kid c ic (.bstr b)) rfl rfl (by simp)
  rw [h3] at h4
  exact ⟨_, rfl, h4 _ (by rw [hl, mapOh]; omega), by rw [hl, mapOh]; omega, by rw [hl, mapOh]; omega⟩

theorem kidComp {c : Bytes} {ic : Bool} {id : IntOrBytes} {q : Comp} (h : kidCompact cfg ic id = .ok q)
    (hq : q.idBstr.length ≤ (idCred (.kid c ic id)).length) :
    ∃ k, macComp cfg (.kid c ic id) = .ok k ∧ (idWire (.kid c ic id) k).length ≤ (idCred (.kid c ic id)).length := by
  refine ⟨some q, by simp only [macComp]; rw [h]; rfl, ?_⟩
  simp only [idWire]
  split
  · have : 1 ≤ (idCred (.kid c ic id)).length := by cases id <;> simp [idCred, mapHead, head_length, headLen] <;> omega
    rw [List.length_take]
    omega
  · exact hq

theorem credSizes {cr : Cred} {i : IdCred} (h : SentAs cr i) (hr : CredRoom cfg cr)
    (ha : ∀ cert fp a, cr = .x5t cert fp (.int a) → -65536 ≤ a ∧ a ≤ 65535)
    (hz : (idCred cr).length + (Spec.cred cr).length ≤ 40000) : CredSizes cfg cr := by
  cases h with
  | @kidInt c v h1 h2 =>
    refine ⟨kidInt_size (by omega) (by omega), ?_, kidCred_size (by omega)⟩
    have : (encInt v).length = 1 := by rw [encInt_small h1 h2]; rfl
    refine kidComp (q := ⟨.integer, fitLen 4 (encInt v), []⟩) ?_ (Nat.zero_le _)
    simp only [kidCompact, Bool.false_eq_true, if_false]
    rw [fits_of (by omega)]
  | @kidUint c v h1 h2 =>
    exact ⟨kidInt_size (by omega) (by omega), kidComp (q := ⟨.integer, leBytes v, []⟩) rfl (Nat.zero_le _), kidCred_size (by omega)⟩
  | @kidBstr c b h1 =>
    refine ⟨kidBstr_size (by omega), ?_, kidCred_size (by omega)⟩
    refine kidComp (q := ⟨.byteString, [0, 0, 0, 0], encBstr b⟩) ?_ (by simp only [idCred, List.length_append]; omega)
    simp only [kidCompact, Bool.false_eq_true, if_false]
    rw [fits_of hr]
  | @kidCborInt c v h1 h2 =>
    refine ⟨kidBstr_size (by omega), ?_, kidCred_size (by omega)⟩
    refine kidComp (q := ⟨.integer, encInt v ++ [0, 0, 0], []⟩) ?_ (Nat.zero_le _)
    have : (encInt v).length = 1 := by rw [encInt_small h1 h2]; rfl
    simp only [kidCompact, if_true, this]
    rw [getInt_encInt _ (by constructor <;> omega)]
    simp only
    rw [if_pos]
    unfold intMemReq
    rw [if_pos ⟨h1, h2⟩]
  | @kidCborBstr c b h1 =>
    refine ⟨kidBstr_size (by omega), ?_, kidCred_size (by omega)⟩
    refine kidComp (q := ⟨.byteString, [0, 0, 0, 0], encBstr b⟩) ?_
      (by simp only [idCred, List.length_append, encBstr_length]; omega)
    have : (encBstr b).length ≠ 1 := by
      intro h
      have hp := headLen_pos b.length
      rw [encBstr_length] at h
      have : b = [] := List.length_eq_zero_iff.1 (by omega)
      subst this
      exact hr.2 rfl
    simp only [kidCompact, if_true, if_neg this, if_pos hr.1]
  | @cert c h1 =>
    obtain ⟨h3, h4⟩ := macIdCred_total (cr := .x5chain [c]) rfl rfl (by simp)
    have hl : (idCred (.x5chain [c])).length = 3 + (encBstr c).length := by
      simp [idCred, mapHead, head_length, headLen, show (encInt 33).length = 2 from rfl]
      omega
    obtain ⟨h5, h6⟩ := cred_bstr (b := c) (by omega) .cbor
    rw [h3] at h4
    refine ⟨⟨mapOh + (c.length + bstrOh c.length), ?_, h4 _ (by rw [hl, mapOh]; omega), ?_, ?_⟩, ⟨none, rfl, Nat.le_refl _⟩,
      ⟨_, rfl, h5, Nat.le_of_eq h6, ?_⟩⟩
    · have : ¬ cfg.maxCerts < 1 := Nat.not_lt.2 hr
      simp [idCredLen, this]
    · rw [hl, mapOh]; omega
    · rw [hl, mapOh]; omega
    · simp only [Spec.cred, List.headD_cons]; omega
  | @chain l h1 h2 h3 =>
    match l, h1 with
    | a :: b :: t, _ =>
    have hm : credMap (.x5chain (a :: b :: t)) = .ok ⟨none, some (.list (a :: b :: t)), none⟩ := by
      simp only [credMap]
      rw [if_neg (by simp), if_neg (by simp), if_neg (by omega)]
    have he : encCredMap ⟨none, some (.list (a :: b :: t)), none⟩ =
        some (encMapHead 1 ++ [] ++ (encInt 33 ++ (encListHead (a :: b :: t).length ++ ((a :: b :: t).map encBstr).flatten)) ++ []) := by
      simp only [encCredMap, encX5chain]
      rw [if_pos ⟨by simp, h2⟩]
      rfl
    obtain ⟨h4, h5⟩ := macIdCred_total hm he (by simp)
    have hl : (idCred (.x5chain (a :: b :: t))).length = 4 + (((a :: b :: t).map encBstr).flatten).length := by
      rw [← h4]
      simp only [List.append_nil, List.length_append, encMapHead, encListHead, head_length,
        show (encInt 33).length = 2 from rfl, show headLen 1 = 1 from rfl]
      rw [show headLen (a :: b :: t).length = 1 by unfold headLen; rw [if_pos (by omega)]]
      omega
    have h6 := certs_size (l := a :: b :: t) (by omega)
    obtain ⟨h7, h8⟩ := cred_bstr (b := a) (by have := hz; simp only [Spec.cred, List.headD_cons] at this; omega) .cbor
    rw [h4] at h5
    have h9 : idCredLen cfg (.x5chain (a :: b :: t)) = .ok (mapOh + (((a :: b :: t).map encBstr).flatten).length + 1) := by
      simp only [idCredLen]
      rw [if_neg (Nat.not_lt.2 hr), if_pos (by simp), h6, arrayOh, if_pos (by omega)]
    refine ⟨⟨_, h9, h5 _ (by rw [hl, mapOh]; omega), ?_, ?_⟩, ⟨none, rfl, Nat.le_refl _⟩,
      ⟨_, rfl, h7, Nat.le_of_eq h8, ?_⟩⟩
    · rw [hl, mapOh]; omega
    · rw [hl, mapOh]; omega
    · simp only [Spec.cred, List.headD_cons]; omega
  | @hashInt c a fp h1 h2 =>
    obtain ⟨h3, h4⟩ := macIdCred_total (cr := .x5t c fp (.int a)) rfl rfl (by simp)
    obtain ⟨h5, h6⟩ := ha _ _ _ rfl
    have hl : (idCred (.x5t c fp (.int a))).length = 4 + intMemReq a + (encBstr fp).length := by
      simp [idCred, mapHead, arrayHead, head_length, headLen, show (encInt 34).length = 2 from rfl, encInt_length h5 h6]
      omega
    rw [h3] at h4
    have h7 := (cred_bstr (b := fp) (by omega) .cbor).2
    obtain ⟨h8, h9⟩ := cred_bstr (b := c) (by have := hz; simp only [Spec.cred] at this; omega) .cbor
    have h10 : idCredLen cfg (.x5t c fp (.int a)) = .ok (4 + intMemReq a + fp.length + bstrOh fp.length) := rfl
    refine ⟨⟨_, h10, h4 _ (by rw [hl]; omega), ?_, ?_⟩, ⟨none, rfl, Nat.le_refl _⟩, ⟨_, rfl, h8, Nat.le_of_eq h9, ?_⟩⟩
    · rw [hl]; omega
    · rw [hl]; omega
    · simp only [Spec.cred]; omega
  | @hashTstr c a fp h1 h2 =>
    obtain ⟨h3, h4⟩ := macIdCred_total (cr := .x5t c fp (.bstr a)) rfl rfl (by simp)
    have hl : (idCred (.x5t c fp (.bstr a))).length = 4 + (encBstr a).length + (encBstr fp).length := by
      simp [idCred, mapHead, arrayHead, head_length, headLen, show (encInt 34).length = 2 from rfl, encTstr, encBstr]
      omega
    rw [h3] at h4
    have h7 := (cred_bstr (b := fp) (by omega) .cbor).2
    have h7' := (cred_bstr (b := a) (by omega) .cbor).2
    obtain ⟨h8, h9⟩ := cred_bstr (b := c) (by have := hz; simp only [Spec.cred] at this; omega) .cbor
    have h10 : idCredLen cfg (.x5t c fp (.bstr a)) = .ok (4 + a.length + bstrOh a.length + fp.length + bstrOh fp.length) := rfl
    refine ⟨⟨_, h10, h4 _ (by rw [hl]; omega), ?_, ?_⟩, ⟨none, rfl, Nat.le_refl _⟩, ⟨_, rfl, h8, Nat.le_of_eq h9, ?_⟩⟩
    · rw [hl]; omega
    · rw [hl]; omega
    · simp only [Spec.cred]; omega

/-! ## MAC context -/

theorem cidLen_size {c : Cid} (h : CidOk cfg c) :
    (cidItem c).length = cidLen c ∧ (∀ v, c = .int v → (encInt v).length = 1) := by
  cases c with
  | int v =>
    have h1 : (encInt v).length = 1 := by rw [encInt_small h.1 h.2]; rfl
    exact ⟨h1, by rintro _ ⟨⟩; exact h1⟩
  | bstr b => exact ⟨encBstr_small (by have := h.2; omega), by rintro _ ⟨⟩⟩

theorem cidLen_le {c : Cid} (h : CidOk cfg c) : cidLen c ≤ 1003 := by
  cases c with
  | int v => simp [cidLen]
  | bstr b =>
    have := h.2
    have := bstrOh_le3 (n := b.length) (by omega)
    simp only [cidLen]
    omega

/-- the MAC context of a message with a credential that can be sent -/
theorem macContext_total {cfg' : Config} {c : Ctx} {cr : Cred} {su : Suite} {k : Bounds} (hs : SuiteOk su)
    (hm : c.message = .msg2 ∧ c.thState = .th2 ∨ c.message = .msg3 ∧ c.thState = .th3)
    (ht : c.th.length = su.hash) (hz : CredSizes cfg cr) (hl : (idCred cr).length + (cred cr).length ≤ 40000)
    (he : EadOk k c.ead) (hcid : CidOk cfg' (macCid c)) :
    ∃ n m, macContextLen cfg c cr = .ok n ∧ n ≤ 200000 ∧ macContext cfg c cr n = .ok m := by
  obtain ⟨l2, h1, h2, h3, h4⟩ := hz.id
  obtain ⟨q, h5, _⟩ := hz.comp
  obtain ⟨l4, h6, h7, h8, h9⟩ := hz.cred
  obtain ⟨e1, e2⟩ := eadLen_size he.label (by have := he.size; omega)
  have e3 := he.size
  have e4 := he.count
  have t0 := hs.hash
  have t1 : (encBstr c.th).length = su.hash + bstrOh su.hash := by rw [encBstr_small (by omega), ht]
  have t2 := bstrOh_le3 (n := su.hash) (by omega)
  have t3 : thLen c.th.length = .ok (su.hash + bstrOh su.hash) := by
    rw [ht]; unfold thLen; rw [if_neg (by omega)]
  have c1 := cidLen_le hcid
  obtain ⟨c2, c3⟩ := cidLen_size hcid
  have hlen : macContextLen cfg c cr = .ok ((if c.message = .msg2 then cidLen (macCid c) else 0) + l2 +
      (su.hash + bstrOh su.hash) + l4 + eadLen c.ead) := by
    simp only [macContextLen, Res.bind_ok, Res.require_ok, Res.pure_ok]
    refine ⟨(), by rcases hm with ⟨h, _⟩ | ⟨h, _⟩ <;> rw [h] <;> rfl, l2, h1, _, t3, l4, h6, rfl⟩
  have hi : (if c.message = .msg2 then cidLen (macCid c) else 0) ≤ 1003 := by split <;> omega
  suffices h : ∃ m, macContext cfg c cr ((if c.message = .msg2 then cidLen (macCid c) else 0) + l2 +
      (su.hash + bstrOh su.hash) + l4 + eadLen c.ead) = .ok m by
    obtain ⟨m, h⟩ := h
    exact ⟨_, m, hlen, by omega, h⟩
  generalize hN : (if c.message = .msg2 then cidLen (macCid c) else 0) + l2 + (su.hash + bstrOh su.hash) + l4 +
    eadLen c.ead = N
  have hx : (if c.message = .msg2 then
      Res.bind (Res.guardUB (cidLen (macCid c) ≤ N) .oob) fun _ =>
        match macCid c with
        | .int v => Res.ofOption .cbor (fits 1 (encInt v))
        | .bstr b => Res.ofOption .cbor (fits (cidLen (.bstr b)) (encBstr b))
      else .ok []) = .ok (if c.message = .msg2 then cidItem (macCid c) else []) := by
    split
    · rename_i h
      rw [if_pos h] at hN
      refine Res.bind_ok'.2 ⟨(), Res.guardUB_ok.2 (decide_eq_true (by omega)), ?_⟩
      cases hq : macCid c with
      | int v => exact fitsRes (Nat.le_of_eq (c3 v hq))
      | bstr b => rw [hq] at c2; exact fitsRes (Nat.le_of_eq c2)
    · rfl
  have hxl : (if c.message = .msg2 then cidItem (macCid c) else []).length =
      (if c.message = .msg2 then cidLen (macCid c) else 0) := by
    split
    · exact c2
    · rfl
  generalize (if c.message = .msg2 then cidItem (macCid c) else []) = x at hx hxl
  generalize (if c.message = .msg2 then cidLen (macCid c) else 0) = lx at hN hxl
  have hE : ∀ o, o + eadLen c.ead ≤ N → (if c.ead.isEmpty then .ok []
      else
        Res.bind (Res.guardUB (c.ead.length ≤ 3) .oob) fun _ =>
        Res.bind (Res.guardUB (o + eadLen c.ead ≤ N) .oob) fun _ =>
          Res.ofOption .cbor ((encEad c.ead).bind (fits (eadLen c.ead)))) = .ok (ead c.ead) := by
    intro o ho
    split
    · rename_i h
      rw [List.isEmpty_iff.1 h]
      rfl
    · rename_i h
      refine Res.bind_ok'.2 ⟨(), Res.guardUB_ok.2 (decide_eq_true e4.2), ?_⟩
      refine Res.bind_ok'.2 ⟨(), Res.guardUB_ok.2 (decide_eq_true ho), ?_⟩
      have : encEad c.ead = some (ead c.ead) := by
        have h1 : 1 ≤ c.ead.length := by
          cases hq : c.ead with
          | nil => simp [hq] at h
          | cons => simp
        exact if_pos ⟨h1, e4.2⟩
      rw [this]
      exact fitsRes e1
  simp only [macContext, Res.bind_ok, Res.require_ok, Res.guardUB_ok, Res.pure_ok, decide_eq_true_eq]
  have m1 : (c.message != .msg4) = true := by rcases hm with ⟨h, _⟩ | ⟨h, _⟩ <;> rw [h] <;> rfl
  have m2 : (c.message != .msg2 || c.thState == .th2) = true := by
    rcases hm with ⟨h, h'⟩ | ⟨h, h'⟩ <;> rw [h, h'] <;> rfl
  have m3 : (c.message != .msg3 || c.thState == .th3) = true := by
    rcases hm with ⟨h, h'⟩ | ⟨h, h'⟩ <;> rw [h, h'] <;> rfl
  exact ⟨_, (), m1, (), m2, (), m3, x, hx, l2, h1, (), by omega, _, h2, q, h5, _, t3, (), by omega, _,
    fitsRes (Nat.le_of_eq t1), l4, h6, (), by omega, _, h7, _, hE _ (by omega), (), by omega, rfl⟩

end Verif
