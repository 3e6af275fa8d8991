import Verif.Eval3
import Verif.Sent
import Verif.Received

/-!
# Runs that succeed: keystream, transcript hashes, plaintexts, AEAD, EAD and credentials
-/

namespace Verif

open M Spec

variable {σ : Type} {E : Env σ} {I : σ → Prop} {cfg : Config} {P : Prims} {V : Bytes → Bytes → Bytes → Bool} {su : Suite} {k : Bounds}
  {c : Ctx}

theorem usesSign_msg2 (h : c.message = .msg2) (hm : c.chosenMethod < 4) :
    usesSign c = some (responderSigns c.chosenMethod) := by
  have : c.chosenMethod = 0 ∨ c.chosenMethod = 1 ∨ c.chosenMethod = 2 ∨ c.chosenMethod = 3 := by omega
  unfold usesSign
  rw [h]
  rcases this with h | h | h | h <;> rw [h] <;> rfl

theorem usesSign_msg3 (h : c.message = .msg3) (hm : c.chosenMethod < 4) :
    usesSign c = some (initiatorSigns c.chosenMethod) := by
  have : c.chosenMethod = 0 ∨ c.chosenMethod = 1 ∨ c.chosenMethod = 2 ∨ c.chosenMethod = 3 := by omega
  unfold usesSign
  rw [h]
  rcases this with h | h | h | h <;> rw [h] <;> rfl

theorem macLength_of {b : Bool} (h : usesSign c = some b) : macLength c = .ok (macLenOf b c.suite) := by
  unfold macLength macLenOf
  rw [h]
  cases b <;> rfl

theorem signOrMacLength_of {b : Bool} (h : usesSign c = some b) :
    signOrMacLength c = .ok (if b then c.suite.eccSign else c.suite.mac) := by
  unfold signOrMacLength
  rw [h]
  cases b <;> rfl

theorem macLenOf_le (h : SuiteOk su) (b : Bool) : 0 < macLenOf b su ∧ macLenOf b su ≤ 1000 := by
  unfold macLenOf
  cases b
  · exact h.mac
  · exact h.hash

/-! ## Plaintexts -/

theorem idCredPtxt_le (m : MacCtx) : (idCredPtxt m).length ≤ idCredPtxtLen m := by
  unfold idCredPtxt idCredPtxtLen
  split
  · cases m.encType with
    | integer =>
      have : 1 ≤ intMemReq (leInt m.idInt) := by
        unfold intMemReq
        repeat' split
        all_goals omega
      simp only [List.length_take]
      omega
    | byteString => exact Nat.le_add_right _ _
  · exact Nat.le_refl _

theorem idCredPtxtLen_le (m : MacCtx) (h : (idCredPtxt m).length < 65536) :
    idCredPtxtLen m ≤ (idCredPtxt m).length + 5 := by
  unfold idCredPtxt at h ⊢
  unfold idCredPtxtLen
  split
  · rename_i hi
    rw [if_pos hi] at h
    cases he : m.encType with
    | integer =>
      simp only
      unfold intMemReq
      repeat' split
      all_goals omega
    | byteString =>
      rw [he] at h
      have := bstrOh_le3 (n := m.idBstr.length) h
      simp only
      omega
  · omega

theorem ptxtTail_total {m : MacCtx} {sig : Bytes} {off n : Nat} (hs : sig.length < 65536)
    (h : off + (idCredPtxt m).length + (sig.length + bstrOh sig.length) + m.ead.length ≤ n) :
    ptxtTail m sig off n = .ok (idCredPtxt m ++ encBstr sig ++ m.ead) := by
  have h1 : (encBstr sig).length = sig.length + bstrOh sig.length := encBstr_small hs
  simp only [ptxtTail, Res.bind_ok, Res.guardUB_ok, Res.ofOption_ok, Res.pure_ok, decide_eq_true_eq]
  exact ⟨(), by omega, _, fits_of (by omega), (), by omega, (), by omega, rfl⟩

theorem preparePtxt3_total {m : MacCtx} {sig : Bytes} {n : Nat} (hs : 0 < sig.length ∧ sig.length < 65536)
    (hn : ptxt3Len c m sig.length = .ok n) :
    preparePtxt3 m sig n = .ok (idCredPtxt m ++ encBstr sig ++ m.ead) := by
  have h1 := idCredPtxt_le m
  simp only [ptxt3Len, ptxt2Len, if_neg (show sig.length ≠ 0 by omega), Res.ok.injEq] at hn
  simp only [preparePtxt3, Res.bind_ok, Res.require_ok, Bool.and_eq_true, bne_iff_ne, ne_eq]
  exact ⟨(), ⟨by omega, by omega⟩, ptxtTail_total hs.2 (by omega)⟩

theorem ptxt2Len_total {m : MacCtx} {sig : Bytes} {cfg' : Config} (hs : 0 < sig.length ∧ sig.length < 65536)
    (hc : CidOk cfg' c.cid) : ∃ n, ptxt2Len c m sig.length = .ok n ∧
      n = (cidItem c.cid).length + idCredPtxtLen m + (sig.length + bstrOh sig.length) + m.ead.length := by
  refine ⟨_, if_neg (by omega), ?_⟩
  cases hv : c.cid with
  | int v =>
    rw [hv] at hc
    simp only [cidItem, encInt_length (v := v) (by have := hc.1; omega) (by have := hc.2; omega)]
  | bstr b =>
    rw [hv] at hc
    simp only [cidItem, encBstr_small (b := b) (by have := hc.2; omega)]

theorem preparePtxt2_total {m : MacCtx} {sig : Bytes} {n : Nat} (hs : 0 < sig.length ∧ sig.length < 65536)
    (hn : n = (cidItem c.cid).length + idCredPtxtLen m + (sig.length + bstrOh sig.length) + m.ead.length) :
    preparePtxt2 c m sig n = .ok (cidItem c.cid ++ (idCredPtxt m ++ encBstr sig ++ m.ead)) := by
  have h1 := idCredPtxt_le m
  simp only [preparePtxt2, Res.bind_ok, Res.ofOption_ok, Res.pure_ok]
  refine ⟨cidItem c.cid, ?_, _, ptxtTail_total hs.2 (by omega), rfl⟩
  have h2 : (cidItem c.cid).length ≤ n := by omega
  revert h2
  cases c.cid <;> exact fits_of

section run

variable (H : Host P su k I E cfg) (hc : Live su c)

include H hc

/-! ## Keystream, TH_3, TH_4 -/

theorem compKeystream_gets {prk : Bytes} {n : Nat} (hk : prk.length = su.hash) (hn : 0 < n ∧ n < 65536) (he : n ≤ k.expand) (ht : c.thState = .th2)
    (hl : c.th.length = su.hash) :
    Gets I (compKeystream E cfg prk n) c (P.expand prk (info 0 c.th n) n) c := by
  have h0 := H.suite.hash
  unfold compKeystream
  refine Gets.getCtx.bind ((Gets.require ?_).bind ((Gets.require (by simp [ht])).bind ?_))
  · simp only [Bool.and_eq_true, bne_iff_ne, ne_eq]; omega
  · exact kdfExact_gets H hc hk (by omega) (by omega) hn.2 hn.1 he

theorem compTh3_gets {cr ptxt : Bytes} (ht : c.thState = .th2) (hl : c.th.length = su.hash) (hp : 0 < ptxt.length)
    (hn : ptxt.length + cr.length ≤ 150000) :
    Gets I (compTh3 E cfg cr ptxt) c () { c with th := P.hash (encBstr c.th ++ ptxt ++ cr), thState := .th3 } := by
  have h0 := H.suite.hash
  have h1 : (encBstr c.th).length = c.th.length + bstrOh c.th.length := encBstr_small (by omega)
  have h2 := bstrOh_le3 (n := c.th.length) (by omega)
  unfold compTh3
  refine Gets.getCtx.bind ((Gets.require ?_).bind ((Gets.require (by simp [ht])).bind ?_))
  · simp only [bne_iff_ne, ne_eq]; omega
  refine (memAlloc_gets H.honest H.room (by omega)).bind ((Gets.ofOption (fits_of (by omega))).bind ?_)
  refine (Gets.guardUB (by simp only [decide_eq_true_eq]; omega)).bind ((Gets.guardUB (hc.hashOk H)).bind ?_)
  rw [fitLen_self (by simp only [List.length_append]; omega)]
  refine (hash_gets H hc (append_ne (append_ne (encBstr_ne _)))).bind ((Gets.ofOption rfl).bind ((Gets.guardUB ?_).bind ?_))
  · simp [hc.suite, H.sized.hash]
  · refine Gets.modCtx.cast ?_
    have h3 : overlay c.suite.hash (P.hash (encBstr c.th ++ ptxt ++ cr)) c.th = P.hash (encBstr c.th ++ ptxt ++ cr) := by
      unfold overlay
      rw [List.drop_eq_nil_of_le (by rw [H.sized.hash]; omega), List.append_nil]
      exact fitLen_self (by rw [hc.suite]; exact H.sized.hash _)
    rw [h3]

theorem compTh4_gets {cr ptxt : Bytes} (ht : c.thState = .th3) (hl : c.th.length = su.hash) (hp : 0 < ptxt.length)
    (hn : ptxt.length + cr.length ≤ 150000) :
    Gets I (compTh4 E cfg cr ptxt) c () { c with th := P.hash (encBstr c.th ++ ptxt ++ cr), thState := .th4 } := by
  have h0 := H.suite.hash
  have h1 : (encBstr c.th).length = c.th.length + bstrOh c.th.length := encBstr_small (by omega)
  have h2 := bstrOh_le3 (n := c.th.length) (by omega)
  unfold compTh4
  refine Gets.getCtx.bind ((Gets.require ?_).bind ((Gets.require (by simp [ht])).bind ?_))
  · simp only [bne_iff_ne, ne_eq]; omega
  refine (memAlloc_gets H.honest H.room (by omega)).bind ((Gets.ofOption (fits_of (by omega))).bind ?_)
  refine (Gets.guardUB (by simp only [decide_eq_true_eq]; omega)).bind ?_
  rw [fitLen_self (by simp only [List.length_append]; omega)]
  exact (hashTh_gets H hc (append_ne (append_ne (encBstr_ne _)))).bind Gets.modCtx

/-! ## AEAD -/

theorem expandInfo_gets {prk : Bytes} (hk : prk.length = su.hash) {label len n : Nat} {context : Bytes} (h1 : label ≤ 23)
    (h2 : context.length < 65536) (h0 : 0 < len) (h3 : len ≤ 1000)
    (h4 : 1 + (context.length + bstrOh context.length) + bstrOh len ≤ n) :
    Gets I (expandInfo E n prk label context len len) c (P.expand prk (info label context len) len) c := by
  have h5 := encInfo_size (label := label) (n := len) (context := context) (by omega) h2 (by omega)
  have h6 : intMemReq label = 1 := by unfold intMemReq; rw [if_pos (by omega)]
  rw [h6, i32_small (by omega), intMemReq_nat (by omega)] at h5
  unfold expandInfo
  refine (Gets.ofOption (fits_of (by omega))).bind ((expand_gets H hc hk (encInfo_ne _ _ _) h0
    (by have := H.derive; omega)).bind (Gets.ofOption ?_))
  rw [encInfo_spec _ _ (by omega)]

omit H hc in
theorem ivFits (h : SuiteOk su) : bstrOh su.aeadIv ≤ bstrOh su.aeadKey := by
  have h1 := h.ivKey
  have h2 := h.iv
  have h3 := h.key
  unfold bstrOh
  repeat' split
  all_goals omega

omit H hc in
theorem encStructure_length {th : Bytes} (h : th.length < 65536) : (encStructure th).length = aadLen th.length := by
  have h1 : (encBstr th).length = th.length + bstrOh th.length := encBstr_small h
  have h2 : (encStructure th).length = (encBstr th).length + 11 := by
    simp only [encStructure, List.length_append]
    have : (arrayHead 3).length + (encTstr [69, 110, 99, 114, 121, 112, 116, 48]).length + (encBstr []).length = 11 := by
      decide +kernel
    omega
  rw [h2, h1]
  unfold aadLen
  rw [show bstrOh 9 = 1 from rfl]
  omega

/-- key, IV and AAD of a message -/
def keyIv (P : Prims) (su : Suite) (lk li : Nat) (prk th : Bytes) : Bytes × Bytes × Bytes :=
  (P.expand prk (info lk th su.aeadKey) su.aeadKey, P.expand prk (info li th su.aeadIv) su.aeadIv, encStructure th)

theorem keyIvAad_gets {lk li : Nat} (h1 : lk ≤ 23) (h2 : li ≤ 23) (hl : c.th.length = su.hash)
    (hk : c.prk.length = su.hash) :
    Gets I (keyIvAad E cfg lk li) c (keyIv P su lk li c.prk c.th) c := by
  have e0 := H.suite.hash
  have e1 := H.suite.key
  have e2 := H.suite.iv
  have e3 := ivFits H.suite
  have e4 := bstrOh_le3 (n := c.th.length) (by omega)
  have e5 := bstrOh_le3 (n := su.aeadKey) (by omega)
  have e6 := encStructure_length (th := c.th) (by omega)
  unfold keyIvAad
  refine Gets.getCtx.bind ?_
  dsimp only
  rw [hc.suite, i32_small (by omega), intMemReq_nat (by omega)]
  refine (memAlloc_gets H.honest H.room (by omega)).bind ?_
  refine (expandInfo_gets H hc hk h1 (by omega) (by omega) (by omega) (Nat.le_refl _)).bind ?_
  refine (expandInfo_gets H hc hk h2 (by omega) (by omega) (by omega) (by omega)).bind ?_
  rw [encEncStructure_spec]
  refine (Gets.ofOption (fits_of (by omega))).bind ?_
  rw [fitLen_self e6]
  exact Gets.pure

omit hc in
theorem aadLen_small {n : Nat} (h : n = su.hash) : aadLen n ≤ 200000 := by
  have e0 := H.suite.hash
  have := bstrOh_le3 (n := n) (by omega)
  unfold aadLen
  rw [show bstrOh 9 = 1 from rfl]
  omega

theorem keyIvAad3_gets (ht : c.thState = .th3) (hl : c.th.length = su.hash) (hk : c.prk.length = su.hash) :
    Gets I (keyIvAad3 E cfg) c (keyIv P su 3 4 c.prk c.th) c := by
  have e1 := H.suite.key
  have e2 := H.suite.iv
  have e3 := aadLen_small H hl
  unfold keyIvAad3
  refine Gets.getCtx.bind ?_
  rw [hc.suite]
  refine (memAlloc_gets H.honest H.room (by omega)).bind ((memAlloc_gets H.honest H.room (by omega)).bind ?_)
  refine (memAlloc_gets H.honest H.room (by omega)).bind (Gets.mapErr ?_)
  refine (Gets.require ?_).bind ((Gets.require (by simp [ht])).bind (keyIvAad_gets H hc (by omega) (by omega) hl hk))
  simp only [Bool.and_eq_true, bne_iff_ne, ne_eq]; omega

theorem keyIvAad4_gets (ht : c.thState = .th4) (hp : c.prkState = .prk4e3m) (hl : c.th.length = su.hash)
    (hk : c.prk.length = su.hash) :
    Gets I (keyIvAad4 E cfg) c (keyIv P su 8 9 c.prk c.th) c := by
  have e1 := H.suite.key
  have e2 := H.suite.iv
  have e3 := aadLen_small H hl
  unfold keyIvAad4
  refine Gets.getCtx.bind ?_
  rw [hc.suite]
  refine (memAlloc_gets H.honest H.room (by omega)).bind ((memAlloc_gets H.honest H.room (by omega)).bind ?_)
  refine (memAlloc_gets H.honest H.room (by omega)).bind (Gets.mapErr ?_)
  refine (Gets.require ?_).bind ((Gets.require (by simp [ht, hp])).bind (keyIvAad_gets H hc (by omega) (by omega) hl hk))
  simp only [Bool.and_eq_true, bne_iff_ne, ne_eq]; omega

theorem aeadEncrypt_gets {key iv aad p : Bytes} {n : Nat} (hk : key.length = su.aeadKey) (hi : iv.length = su.aeadIv)
    (ha : aad ≠ []) (hp : p.length < 65536) (h : p.length + su.aeadTag ≤ n) :
    Gets I (aeadEncrypt E key iv aad p n) c (P.enc key iv aad p) c := by
  unfold aeadEncrypt
  refine Gets.bind (a := some (P.enc key iv aad p)) (withKey_gets H.honest .encrypt _ hk hc.keys fun s kid hs hk => ?_) ?_
  · subst hs
    exact keyCall_wp (J := fun e => I (E.destroyKey e kid)) hc.crypto (hk _ _ _ hi ha hp)
  · refine (Gets.ofOption rfl).bind ((Gets.guardUB ?_).bind Gets.pure)
    simp only [decide_eq_true_eq, H.sized.enc]
    exact h

theorem aeadDecrypt_gets {key iv aad p : Bytes} {n : Nat} (hk : key.length = su.aeadKey) (hi : iv.length = su.aeadIv)
    (ha : aad ≠ []) (hp : p.length < 65536) (h : p.length = n) :
    Gets I (aeadDecrypt E key iv aad (P.enc key iv aad p) n) c p c := by
  unfold aeadDecrypt
  refine Gets.bind (a := some p) (withKey_gets H.honest .decrypt _ hk hc.keys fun s kid hs hk => ?_) ?_
  · subst hs
    exact keyCall_wp (J := fun e => I (E.destroyKey e kid)) hc.crypto (hk _ _ _ hi ha hp)
  · exact (Gets.ofOption rfl).bind ((Gets.require (by simp [h])).bind Gets.pure)

/-! ## EAD -/

omit hc

theorem eadCompose_wp {s : St σ} (hs : At I s c) (he : c.ead = []) :
    Wp (eadCompose E cfg) s fun _ s' => ∃ ts, EadOk k ts ∧ At I s' { c with ead := ts } := by
  unfold eadCompose
  refine Wp.step Gets.getCtx hs fun s1 hs1 => ?_
  unfold whenM
  split
  · obtain ⟨⟨ts, h1, h2⟩, h3⟩ := H.honest.eadCompose s1.env c.message hs1.2
    refine Wp.bind ⟨_, _, rfl, ?_⟩
    rw [h1]
    refine Wp.bind ⟨ts, _, rfl, ?_⟩
    refine Wp.bind ⟨(), _, rfl, ?_⟩
    refine ⟨(), _, require_ok.2 ⟨?_, rfl⟩, ts, h2, ?_, h3⟩
    · have := h2.count
      have := H.ead
      simp only [decide_eq_true_eq]
      omega
    · simp only [hs1.1]
  · refine ⟨(), s1, rfl, [], ⟨⟨Nat.zero_le _, Nat.zero_le _⟩, by simp, Nat.zero_le _, Nat.zero_le _⟩, ?_, hs1.2⟩
    rw [hs1.1]
    cases c
    cases he
    rfl

theorem eadProcess_gets : Gets I (eadProcess E cfg) c () c := by
  unfold eadProcess
  refine Gets.getCtx.bind ?_
  unfold whenM
  split
  · exact (Gets.call fun e he => H.honest.eadProcess e _ _ he).bind (Gets.require rfl)
  · exact Gets.pure

theorem processEad1_wp {ts : List EadTok} (hn : ts.length ≤ k.items) (he : c.ead = []) : Gets I (processEad1 E cfg ts 0) c () c := by
  unfold processEad1
  refine Gets.getCtx.bind ?_
  unfold whenM
  split
  · have := H.ead
    refine (Gets.require (by simp only [decide_eq_true_eq]; omega)).bind ?_
    refine (Gets.guardUB (by simp only [decide_eq_true_eq]; omega)).bind (Gets.modCtx.bind ((Gets.guardUB rfl).bind ?_))
    refine (Gets.call fun e he => H.honest.eadProcess e _ _ he).bind ?_
    refine Gets.bind Gets.modCtx ((Gets.require rfl).cast ?_)
    cases c
    cases he
    rfl
  · exact Gets.pure

omit H in
theorem handOver_gets : Gets I (handOver cfg 0 : M σ Unit) c () c := by
  unfold handOver
  exact Gets.getCtx.bind (Gets.guardUB rfl)

theorem storeEad_gets {ts : List EadTok} (hn : ts.length ≤ k.items) (he : c.ead = []) :
    Gets I (storeEad cfg ts 0 : M σ Unit) c () { c with ead := ts } := by
  unfold storeEad whenM
  have := H.ead
  split
  · exact (Gets.guardUB (by simp only [decide_eq_true_eq]; omega)).bind (Gets.modCtx.bind handOver_gets)
  · rename_i h
    have h' : ts = [] := by simpa using h
    subst h'
    refine Gets.pure.cast ?_
    cases c
    cases he
    rfl

/-! ## Credentials, connection identifiers -/

omit H

include hc in
theorem credFetch_gets {cr : Cred} {kid : Bytes} (h : ∀ e, I e → (E.credFetch e).1 = some (cr, kid) ∧ I (E.credFetch e).2) :
    Gets I (credFetch E) c (some (cr, kid)) c := by
  unfold credFetch
  exact (needCred_gets hc.cred).bind (Gets.call h)

include hc in
theorem verifyCred_gets {i cr : Cred} {pk : Bytes} (h : ∀ e, I e → (E.credVerify e i).1 = some (cr, some pk) ∧ I (E.credVerify e i).2) :
    Gets I (verifyCred E i) c (cr, some pk) c := by
  unfold verifyCred
  refine Gets.bind (a := some (cr, some pk)) ?_ ((Gets.whenM_false rfl).bind (Gets.ofOption rfl))
  unfold credVerify
  exact (needCred_gets hc.cred).bind (Gets.call h)

theorem storePeerCid_gets {e : Err} {cid : Cid} (h : CidOk cfg cid) :
    Gets I (storePeerCid cfg e cid : M σ Unit) c () { c with peerCid := cid } := by
  unfold storePeerCid
  cases cid with
  | int v => exact (Gets.require (by simpa using And.intro h.1 h.2)).bind Gets.modCtx
  | bstr b => exact (Gets.require (by simpa using h.1)).bind ((Gets.guardUB (by simpa using h.1)).bind Gets.modCtx)

theorem cred_received {cr : Cred} {i : IdCred} (h : SentAs cr i) (hr : CredRoom cfg cr) :
    credOfIdCred cfg credOfMap2 i = .ok (asReceived i) ∧ credOfIdCred cfg credOfMap3 i = .ok (asReceived i) := by
  cases h with
  | kidInt c h1 h2 => exact ⟨rfl, rfl⟩
  | kidUint c h1 h2 => exact ⟨rfl, rfl⟩
  | @kidBstr c b h1 =>
    have : b.length ≤ cfg.maxKid + 1 := by
      have h2 : (encBstr b).length ≤ cfg.maxKid := hr
      rw [encBstr_length] at h2
      omega
    exact ⟨if_pos this, if_pos this⟩
  | kidCborInt c h1 h2 => exact ⟨rfl, rfl⟩
  | @kidCborBstr c b h1 =>
    have : b.length ≤ cfg.maxKid + 1 := by
      have h2 : (encBstr b).length ≤ cfg.maxKid + 1 := hr.1
      rw [encBstr_length] at h2
      omega
    exact ⟨if_pos this, if_pos this⟩
  | cert h1 => exact ⟨rfl, rfl⟩
  | @chain l h1 h2 h3 =>
    have h4 : l.length ≤ cfg.maxCerts := hr
    refine ⟨?_, ?_⟩ <;> simp [credOfIdCred, credOfMap2, credOfMap3, recvChain_eq, recvHash_eq, h4, asReceived] <;> rfl
  | hashInt c h1 h2 => exact ⟨rfl, rfl⟩
  | @hashTstr c a fp h1 h2 =>
    have h4 : a.length ≤ cfg.maxHashAlg + 1 := hr
    refine ⟨?_, ?_⟩ <;> simp [credOfIdCred, credOfMap2, credOfMap3, recvChain_eq, recvHash_eq, h4, asReceived] <;> rfl

end run

end Verif
