import Verif.Eval2

/-!
# Runs that succeed: MAC, signature, plaintext, keys of messages 2, 3 and 4
-/

namespace Verif

open M Spec

variable {σ : Type} {E : Env σ} {I : σ → Prop} {cfg : Config} {P : Prims} {V : Bytes → Bytes → Bytes → Bool} {su : Suite} {k : Bounds}
  {c : Ctx}

/-- the next pseudorandom key: the same one after a signature, otherwise extracted from a static secret `g` -/
def nextPrk (P : Prims) (su : Suite) (label : Nat) (signs : Bool) (prk th g : Bytes) : Bytes :=
  if signs then prk else P.extract (P.expand prk (info label th su.hash) su.hash) g

section run

variable (H : Host P su k I E cfg) (hc : Live su c)

include H hc

/-! ## PRK_3e2m, PRK_4e3m -/

theorem agreeEphemeral_gets {pk y : Bytes} (hx : P.priv c.dhPriv) (hy : pk = P.pub y) (hp : P.priv y) :
    Gets I (agreeEphemeral E pk) c (P.dh c.dhPriv pk) { c with dhPriv := [] } := by
  subst hy
  intro s hs
  unfold agreeEphemeral
  refine Wp.step Gets.getCtx hs fun s0 hs0 => ?_
  refine Wp.bind ((importKey_wp H.honest .keyAgreement _ hx hs0 hc.keys).mono ?_)
  rintro _ s1 ⟨hs1, kid, rfl, hk⟩
  refine Wp.bind ⟨(), _, rfl, ?_⟩
  refine Wp.bind ⟨kid, _, rfl, ?_⟩
  refine Wp.bind (keyCall_wp (b := some (P.dh c.dhPriv (P.pub y))) (J := fun e => I (E.destroyKey e kid)) ?_ ?_ |>.mono ?_)
  · show s1.ctx.hasCrypto = true
    rw [hs1]; exact hc.crypto
  · exact hk y hp
  · rintro _ s2 ⟨rfl, hs2, hi⟩
    have hs2' : s2.ctx = { c with dhPriv := [] } := by rw [hs2]; simp only; rw [hs1]
    refine Wp.bind ((destroyKey_wp hs2' hc.keys hi).mono fun _ s3 hs3 => ?_)
    refine Wp.step (Gets.ofOption rfl) hs3 fun s4 hs4 => ?_
    exact Wp.step (Gets.require (by simp [hc.suite, H.sized.dh _ _ hx hp])) hs4 fun s5 hs5 => ⟨_, s5, rfl, rfl, hs5⟩

omit H hc in
/-- `kid` stands for the private key `sk` -/
def StaticKey (P : Prims) (I : σ → Prop) (E : Env σ) (kid sk : Bytes) : Prop :=
  P.priv sk ∧ ∀ e y, I e → P.priv y → (E.keyAgreement e kid (P.pub y)).1 = some (P.dh sk (P.pub y)) ∧
    I (E.keyAgreement e kid (P.pub y)).2

omit H in
theorem agreeStatic_gets (hp : P.Sized su) {kid sk y : Bytes} (hy : c.dhPeerPub = P.pub y) (hpy : P.priv y)
    (ha : StaticKey P I E kid sk) :
    Gets I (agreeStatic E kid) c (P.dh sk c.dhPeerPub) c := by
  unfold agreeStatic
  refine Gets.getCtx.bind ?_
  refine Gets.bind (a := some (P.dh sk c.dhPeerPub)) ?_ ((Gets.ofOption rfl).bind ((Gets.require ?_).bind Gets.pure))
  · unfold keyAgreement
    rw [hy]
    exact (needCrypto_gets hc.crypto).bind (Gets.call fun e he => ha.2 e y he hpy)
  · rw [hy]; simp [hc.suite, hp.dh _ _ ha.1 hpy]

theorem compSalt3e2m_gets (ht : c.thState = .th2) (hp : c.prkState = .prk2e) (hl : c.th.length = su.hash)
    (hk : c.prk.length = su.hash) :
    Gets I (compSalt3e2m E cfg) c (P.expand c.prk (info 1 c.th su.hash) su.hash) c := by
  have h0 := H.suite.hash
  unfold compSalt3e2m
  refine Gets.getCtx.bind ((Gets.require (by simp [hc.suite]; omega)).bind ((Gets.require (by simp [ht, hp])).bind ?_))
  rw [hc.suite]
  exact kdfExact_gets H hc hk (by omega) (by omega) (by omega) (by omega) (by have := H.derive; omega)

theorem compSalt4e3m_gets (ht : c.thState = .th3) (hp : c.prkState = .prk3e2m) (hl : c.th.length = su.hash)
    (hk : c.prk.length = su.hash) :
    Gets I (compSalt4e3m E cfg) c (P.expand c.prk (info 5 c.th su.hash) su.hash) c := by
  have h0 := H.suite.hash
  unfold compSalt4e3m
  refine Gets.getCtx.bind ((Gets.require (by simp [hc.suite]; omega)).bind ((Gets.require (by simp [ht, hp])).bind ?_))
  rw [hc.suite]
  exact kdfExact_gets H hc hk (by omega) (by omega) (by omega) (by omega) (by have := H.derive; omega)

theorem allocHash_gets : Gets I (memAlloc E cfg c.suite.hash) c () c :=
  memAlloc_gets H.honest H.room (by rw [hc.suite]; have := H.suite.hash; omega)

theorem allocEcc_gets : Gets I (memAlloc E cfg c.suite.eccKey) c () c :=
  memAlloc_gets H.honest H.room (by rw [hc.suite]; have := H.suite.ecc; omega)

/-- PRK_3e2m, Responder -/
theorem prk3R_gets {kid sk y : Bytes} (hm : c.chosenMethod < 4) (hr : c.role = .responder) (ht : c.thState = .th2)
    (hp : c.prkState = .prk2e) (hl : c.th.length = su.hash) (hk : c.prk.length = su.hash) (hy : c.dhPeerPub = P.pub y) (hpy : P.priv y)
    (ha : responderSigns c.chosenMethod = false → StaticKey P I E kid sk) :
    Gets I (compPrk3e2m E cfg kid []) c () { c with
      prk := nextPrk P su 1 (responderSigns c.chosenMethod) c.prk c.th (P.dh sk c.dhPeerPub), prkState := .prk3e2m } := by
  unfold compPrk3e2m
  refine Gets.getCtx.bind ((Gets.require (by simp [hp])).bind ?_)
  split
  · rename_i h
    have : responderSigns c.chosenMethod = true := by simpa [responderSigns] using h
    rw [this]
    exact Gets.modCtx
  · rename_i h
    have hs : responderSigns c.chosenMethod = false := by simpa [responderSigns] using h
    rw [if_pos (by omega), hs]
    refine (allocHash_gets H hc).bind ((compSalt3e2m_gets H hc ht hp hl hk).mapErr.bind ?_)
    refine (allocEcc_gets H hc).bind (Gets.bind (Gets.mapErr ?_) ((extractPrk_gets H hc
      (by rw [hy]; exact H.sized.dh _ _ (ha hs).1 hpy) (H.sized.expand _ _ _)).bind Gets.modCtx))
    unfold compGrx
    refine Gets.getCtx.bind ((Gets.require (by simp [hc.suite]; have := H.suite.ecc; omega)).bind ?_)
    rw [hr]
    exact agreeStatic_gets hc H.sized hy hpy (ha hs)

/-- PRK_3e2m, Initiator -/
theorem prk3I_gets {pk y : Bytes} (hm : c.chosenMethod < 4) (hr : c.role = .initiator) (ht : c.thState = .th2)
    (hp : c.prkState = .prk2e) (hl : c.th.length = su.hash) (hk : c.prk.length = su.hash) (hx : P.priv c.dhPriv)
    (hy : responderSigns c.chosenMethod = false → pk = P.pub y ∧ P.priv y) :
    Gets I (compPrk3e2m E cfg [] pk) c () { c with
      dhPriv := if responderSigns c.chosenMethod then c.dhPriv else []
      prk := nextPrk P su 1 (responderSigns c.chosenMethod) c.prk c.th (P.dh c.dhPriv pk), prkState := .prk3e2m } := by
  unfold compPrk3e2m
  refine Gets.getCtx.bind ((Gets.require (by simp [hp])).bind ?_)
  split
  · rename_i h
    have : responderSigns c.chosenMethod = true := by simpa [responderSigns] using h
    rw [this]
    exact Gets.modCtx
  · rename_i h
    have hs : responderSigns c.chosenMethod = false := by simpa [responderSigns] using h
    rw [if_pos (by omega), hs]
    refine (allocHash_gets H hc).bind ((compSalt3e2m_gets H hc ht hp hl hk).mapErr.bind ?_)
    refine (allocEcc_gets H hc).bind (Gets.bind (a := P.dh c.dhPriv pk) (c1 := { c with dhPriv := [] }) (Gets.mapErr ?_)
      ((extractPrk_gets (c := { c with dhPriv := [] }) H ⟨hc.keys, hc.crypto, hc.cred, hc.suite⟩
        (by rw [(hy hs).1]; exact H.sized.dh _ _ hx (hy hs).2) (H.sized.expand _ _ _)).bind Gets.modCtx))
    unfold compGrx
    refine Gets.getCtx.bind ((Gets.require (by simp [hc.suite]; have := H.suite.ecc; omega)).bind ?_)
    have hg := agreeEphemeral_gets H hc hx (hy hs).1 (hy hs).2
    generalize ({ c with dhPriv := [] } : Ctx) = c' at hg ⊢
    rw [hr]
    exact hg

/-- PRK_4e3m, Initiator -/
theorem prk4I_gets {kid sk y : Bytes} (hm : c.chosenMethod < 4) (hr : c.role = .initiator) (ht : c.thState = .th3)
    (hp : c.prkState = .prk3e2m) (hl : c.th.length = su.hash) (hk : c.prk.length = su.hash) (hy : c.dhPeerPub = P.pub y) (hpy : P.priv y)
    (ha : initiatorSigns c.chosenMethod = false → StaticKey P I E kid sk) :
    Gets I (compPrk4e3m E cfg kid []) c () { c with
      prk := nextPrk P su 5 (initiatorSigns c.chosenMethod) c.prk c.th (P.dh sk c.dhPeerPub), prkState := .prk4e3m } := by
  unfold compPrk4e3m
  refine Gets.getCtx.bind ((Gets.require (by simp [hp])).bind ?_)
  split
  · rename_i h
    have : initiatorSigns c.chosenMethod = true := by simpa [initiatorSigns] using h
    rw [this]
    exact Gets.modCtx
  · rename_i h
    have hs : initiatorSigns c.chosenMethod = false := by simpa [initiatorSigns] using h
    rw [if_pos (by omega), hs]
    refine (allocHash_gets H hc).bind ((compSalt4e3m_gets H hc ht hp hl hk).mapErr.bind ?_)
    refine (allocEcc_gets H hc).bind (Gets.bind (Gets.mapErr ?_) ((extractPrk_gets H hc
      (by rw [hy]; exact H.sized.dh _ _ (ha hs).1 hpy) (H.sized.expand _ _ _)).bind Gets.modCtx))
    unfold compGiy
    refine Gets.getCtx.bind ((Gets.require (by simp [hc.suite]; have := H.suite.ecc; omega)).bind ?_)
    rw [hr]
    exact agreeStatic_gets hc H.sized hy hpy (ha hs)

/-- PRK_4e3m, Responder -/
theorem prk4R_gets {pk y : Bytes} (hm : c.chosenMethod < 4) (hr : c.role = .responder) (ht : c.thState = .th3)
    (hp : c.prkState = .prk3e2m) (hl : c.th.length = su.hash) (hk : c.prk.length = su.hash) (hx : P.priv c.dhPriv)
    (hy : initiatorSigns c.chosenMethod = false → pk = P.pub y ∧ P.priv y) :
    Gets I (compPrk4e3m E cfg [] pk) c () { c with
      dhPriv := if initiatorSigns c.chosenMethod then c.dhPriv else []
      prk := nextPrk P su 5 (initiatorSigns c.chosenMethod) c.prk c.th (P.dh c.dhPriv pk), prkState := .prk4e3m } := by
  unfold compPrk4e3m
  refine Gets.getCtx.bind ((Gets.require (by simp [hp])).bind ?_)
  split
  · rename_i h
    have : initiatorSigns c.chosenMethod = true := by simpa [initiatorSigns] using h
    rw [this]
    exact Gets.modCtx
  · rename_i h
    have hs : initiatorSigns c.chosenMethod = false := by simpa [initiatorSigns] using h
    rw [if_pos (by omega), hs]
    refine (allocHash_gets H hc).bind ((compSalt4e3m_gets H hc ht hp hl hk).mapErr.bind ?_)
    refine (allocEcc_gets H hc).bind (Gets.bind (a := P.dh c.dhPriv pk) (c1 := { c with dhPriv := [] }) (Gets.mapErr ?_)
      ((extractPrk_gets (c := { c with dhPriv := [] }) H ⟨hc.keys, hc.crypto, hc.cred, hc.suite⟩
        (by rw [(hy hs).1]; exact H.sized.dh _ _ hx (hy hs).2) (H.sized.expand _ _ _)).bind Gets.modCtx))
    unfold compGiy
    refine Gets.getCtx.bind ((Gets.require (by simp [hc.suite]; have := H.suite.ecc; omega)).bind ?_)
    have hg := agreeEphemeral_gets H hc hx (hy hs).1 (hy hs).2
    generalize ({ c with dhPriv := [] } : Ctx) = c' at hg ⊢
    rw [hr]
    exact hg

/-! ## MAC context, MAC, Signature_or_MAC -/

omit hc in
theorem buildMacCtx_gets {cfg' : Config} {cr : Cred} (eLen : Option Err)
    (hm : c.message = .msg2 ∧ c.thState = .th2 ∨ c.message = .msg3 ∧ c.thState = .th3)
    (ht : c.th.length = su.hash) (hz : CredSizes cfg cr) (hl : (idCred cr).length + (cred cr).length ≤ 40000)
    (he : EadOk k c.ead) (hcid : CidOk cfg' (macCid c)) :
    ∃ m, Gets I (buildMacCtx E cfg eLen cr) c m c ∧ MacParts cfg c cr m := by
  obtain ⟨n, m, h1, h2, h3⟩ := macContext_total H.suite hm ht hz hl he hcid
  refine ⟨m, ?_, macContext_ok h3⟩
  unfold buildMacCtx
  refine Gets.getCtx.bind (Gets.bind (a := n) (Gets.ofRes ?_) ?_)
  · rw [h1]; cases eLen <;> rfl
  · exact (memAlloc_gets H.honest H.room (by omega)).bind (Gets.ofRes h3)

theorem compMac_gets {buf : Bytes} {n : Nat} (h0 : 0 < n ∧ n ≤ 1000) (hb : buf.length < 65536)
    (hk : c.prk.length = su.hash)
    (hm : c.message = .msg2 ∧ c.prkState = .prk3e2m ∨ c.message = .msg3 ∧ c.prkState = .prk4e3m) :
    Gets I (compMac E cfg buf n) c (P.expand c.prk (info (macLabel c) buf n) n) c := by
  have hlab : macLabel c < 65536 := by unfold macLabel; split <;> omega
  have hn : n < 65536 := by omega
  have hl := encInfo_size hlab hb hn
  have h4 : intMemReq (macLabel c) ≤ 3 := by rw [intMemReq_nat hlab]; exact bstrOh_le3 hlab
  have h5 : intMemReq (i32 n) ≤ 3 := by rw [i32_small hn, intMemReq_nat hn]; exact bstrOh_le3 hn
  have h6 := bstrOh_le3 hb
  unfold compMac
  dsimp only
  refine Gets.getCtx.bind ((Gets.require (by simp; omega)).bind ?_)
  refine (Gets.require (by rcases hm with ⟨h, _⟩ | ⟨h, _⟩ <;> rw [h] <;> rfl)).bind ?_
  refine (Gets.require (by rcases hm with ⟨h, h'⟩ | ⟨h, h'⟩ <;> rw [h, h'] <;> rfl)).bind ?_
  refine (Gets.require (by rcases hm with ⟨h, h'⟩ | ⟨h, h'⟩ <;> rw [h, h'] <;> rfl)).bind ?_
  have hm2 : intMemReq (macLabel c) + (buf.length + bstrOh buf.length) + intMemReq (i32 n) ≤ 200000 := by omega
  generalize intMemReq (macLabel c) + (buf.length + bstrOh buf.length) + intMemReq (i32 n) = m at hl hm2 ⊢
  refine (memAlloc_gets H.honest H.room (by omega)).bind ((Gets.ofOption (fits_of (Nat.le_of_eq hl))).bind ?_)
  refine (Gets.require (by rcases hm with ⟨h, _⟩ | ⟨h, _⟩ <;> rw [h] <;> rfl)).bind ?_
  refine (expand_gets H hc hk (encInfo_ne _ _ _) h0.1 (by have := H.derive; omega)).bind (Gets.ofOption ?_)
  rw [encInfo_spec _ _ (by omega)]

omit H hc in
theorem sigStructure_size {cr : Cred} {m : MacCtx} (hm : MacParts cfg c cr m) {mac : Bytes}
    (h1 : m.idCred.length < 65536) (h2 : m.aad.length < 65536) (h3 : mac.length < 65536) :
    (sigStructure cr c.th c.ead mac).length = sigBufLen m mac.length ∧ sigBufLen m mac.length ≤ 200000 := by
  have h4 := bstrOh_le3 h1
  have h5 := bstrOh_le3 h2
  have h6 := bstrOh_le3 h3
  have h7 : intMemReq (i32 mac.length) = bstrOh mac.length := by rw [i32_small h3, intMemReq_nat h3]
  rw [← hm.sig]
  have hb : bstrOh 11 = 1 := rfl
  constructor
  · have hh : (encListHead 4 ++ encTstr (ascii "Signature1")).length = 12 := by decide +kernel
    unfold encSigStructure sigBufLen
    simp only [List.length_append] at hh ⊢
    rw [encBstr_small h1, encBstr_small h2, encBstr_small h3, h7, hb]
    omega
  · unfold sigBufLen
    rw [h7, hb]
    omega

omit H hc in
theorem sigStructure_ne (cr : Cred) (th : Bytes) (ts : List EadTok) (mac : Bytes) : sigStructure cr th ts mac ≠ [] := by
  intro h
  have h1 := congrArg List.length h
  simp only [sigStructure, List.length_append, List.length_nil, encBstr_length] at h1
  have := headLen_pos mac.length
  omega

/-- with the public key `pk` the application accepts valid signatures -/
def VerifyKey (V : Bytes → Bytes → Bytes → Bool) (I : σ → Prop) (E : Env σ) (pk : Bytes) : Prop :=
  ∀ e, I e → ∃ kid, (E.importKey e .verify pk).1 = some kid ∧
    ∀ m s, m ≠ [] → V pk m s = true → (E.verify (E.importKey e .verify pk).2 kid m s).1 = true ∧
      I (E.destroyKey (E.verify (E.importKey e .verify pk).2 kid m s).2 kid)

/-- `sig` is what a party with the public key `pk` sends as Signature_or_MAC -/
structure SigOf (V : Bytes → Bytes → Bytes → Bool) (signs : Bool) (pk : Bytes) (cr : Cred) (th : Bytes) (ts : List EadTok)
    (mac sig : Bytes) : Prop where
  size : 0 < sig.length ∧ sig.length ≤ 1000
  sign : signs = true → V pk (sigStructure cr th ts mac) sig = true
  mac : signs = false → sig = mac

theorem compSignOrMac_wp {signs : Bool} {p : Identity} {m : MacCtx} {mac : Bytes} {s : St σ} (hs : At I s c)
    (ho : Owns P V su signs I E p) (hu : usesSign c = some signs) (hm : MacParts cfg c p.cred m)
    (h1 : m.idCred.length < 65536) (h2 : m.aad.length < 65536) (hn : mac.length = macLenOf signs su) :
    Wp (compSignOrMac E cfg p.kid m mac (if signs then su.eccSign else su.mac)) s fun sig s' =>
      SigOf V signs p.pk p.cred c.th c.ead mac sig ∧ At I s' c := by
  have e1 := H.suite.hash
  have e2 := H.suite.mac
  have e3 := H.suite.sign
  have hmac : 0 < mac.length ∧ mac.length ≤ 1000 := by rw [hn]; unfold macLenOf; split <;> omega
  obtain ⟨z1, z2⟩ := sigStructure_size (mac := mac) hm h1 h2 (by omega)
  unfold compSignOrMac
  refine Wp.step Gets.getCtx hs fun s1 hs1 => ?_
  refine Wp.step (Gets.require ?_) hs1 fun s2 hs2 => ?_
  · cases signs <;> simp only [Bool.and_eq_true, bne_iff_ne, ne_eq, if_true, Bool.false_eq_true, if_false] <;> omega
  rw [hu]
  cases signs with
  | true =>
    simp only [if_true]
    unfold signCose
    rw [hm.sig]
    refine Wp.step (memAlloc_gets H.honest H.room (by omega)) hs2 fun s3 hs3 => ?_
    refine Wp.step (Gets.ofOption (fits_of (Nat.le_of_eq z1))) hs3 fun s4 hs4 => ?_
    obtain ⟨⟨sig, g1, g2, g3, g4⟩, g5⟩ := ho.sign rfl s4.env (sigStructure p.cred c.th c.ead mac) hs4.2
      (sigStructure_ne _ _ _ _)
    refine Wp.bind ((keyCall_wp (J := I) (by rw [hs4.1]; exact hc.crypto) ⟨g1, g5⟩).mono ?_)
    rintro _ s5 ⟨rfl, hs5, hi⟩
    refine Wp.step (Gets.ofOption rfl) ⟨hs5.trans hs4.1, hi⟩ fun s6 hs6 => ?_
    refine Wp.step (Gets.guardUB (by simpa using g3)) hs6 fun s7 hs7 => ?_
    exact ⟨sig, s7, rfl, ⟨⟨g2, by omega⟩, fun _ => g4, fun h => (by cases h)⟩, hs7⟩
  | false =>
    refine Wp.step (Gets.guardUB ?_) hs2 fun s3 hs3 => ?_
    · simp [hn, macLenOf]
    · exact ⟨mac, s3, rfl, ⟨hmac, fun h => (by cases h), fun _ => rfl⟩, hs3⟩

theorem verifySignOrMac_gets {signs : Bool} {pk : Bytes} {cr : Cred} {m : MacCtx} {mac sig : Bytes} (hpk : pk ≠ [])
    (hv : signs = true → VerifyKey V I E pk)
    (hu : usesSign c = some signs) (hm : MacParts cfg c cr m)
    (h1 : m.idCred.length < 65536) (h2 : m.aad.length < 65536) (hn : 0 < mac.length ∧ mac.length ≤ 1000)
    (hsig : SigOf V signs pk cr c.th c.ead mac sig) :
    Gets I (verifySignOrMac E cfg m (some pk) sig mac) c () c := by
  obtain ⟨z1, z2⟩ := sigStructure_size (mac := mac) hm h1 h2 (by omega)
  have h0 := hsig.size
  unfold verifySignOrMac
  refine Gets.getCtx.bind ((Gets.ofOption rfl).bind ((Gets.require ?_).bind ?_))
  · have : pk.length ≠ 0 := fun h => hpk (List.length_eq_zero_iff.1 h)
    simp only [Bool.and_eq_true, bne_iff_ne, ne_eq]
    omega
  rw [hu]
  cases signs with
  | true =>
    simp only
    unfold verifyCose
    rw [hm.sig]
    refine (memAlloc_gets H.honest H.room (by omega)).bind ((Gets.ofOption (fits_of (Nat.le_of_eq z1))).bind ?_)
    refine Gets.bind (a := true) ?_ (Gets.require rfl)
    intro s hs
    unfold withKey importKey
    refine Wp.bind (Wp.step (needKeys_gets hc.keys) hs fun s1 hs1 => ?_)
    obtain ⟨kid, g1, g2⟩ := hv rfl s1.env hs1.2
    obtain ⟨g3, g4⟩ := g2 _ _ (sigStructure_ne _ _ _ _) (hsig.sign rfl)
    refine ⟨_, _, rfl, Wp.bind ⟨kid, _, ofOption_ok.2 ⟨g1, rfl⟩, ?_⟩⟩
    refine Wp.bind (keyCall_wp (b := true) (J := fun e => I (E.destroyKey e kid)) ?_ ⟨g3, g4⟩ |>.mono ?_)
    · rw [hs1.1]; exact hc.crypto
    · rintro _ s2 ⟨rfl, hs2, hi⟩
      exact Wp.bind ((destroyKey_wp (hs2.trans hs1.1) hc.keys hi).mono fun _ s' hs' => ⟨_, _, rfl, rfl, hs'⟩)
  | false =>
    exact Gets.require (by simp [hsig.mac rfl])

end run

end Verif
