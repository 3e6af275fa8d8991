import Verif.Eval5

/-!
# Runs that succeed: message 2
-/

namespace Verif

open M Spec

variable {σ : Type} {E : Env σ} {I : σ → Prop} {cfg cfg' : Config} {P : Prims} {V : Bytes → Bytes → Bytes → Bool} {su : Suite} {k : Bounds} {me : Nat}
  {c c0 : Ctx}

/-- values of message_2: ephemeral keys, H(message_1), the Responder's static secret -/
structure Keys2 where
  th2 : Bytes
  prk2e : Bytes
  prk3e2m : Bytes

/-- the keys of message_2, from G_Y, H(message_1), the ephemeral secret and the static secret -/
def keys2 (P : Prims) (su : Suite) (me : Nat) (gy th1 gxy grx : Bytes) : Keys2 :=
  let th2 := P.hash (encBstr gy ++ encBstr th1)
  let prk2e := P.extract th2 gxy
  ⟨th2, prk2e, nextPrk P su 1 (responderSigns me) prk2e th2 grx⟩

theorem nextPrk_length (h : P.Sized su) {label : Nat} {b : Bool} {prk th g : Bytes} (hp : prk.length = su.hash) :
    (nextPrk P su label b prk th g).length = su.hash := by
  unfold nextPrk
  split
  · exact hp
  · exact h.extract _ _

theorem prk3e2m_length (h : P.Sized su) (gy th1 gxy grx : Bytes) : (keys2 P su me gy th1 gxy grx).prk3e2m.length = su.hash := by
  unfold keys2
  exact nextPrk_length h (h.extract _ _)

/-- MAC_2 -/
def mac2 (P : Prims) (su : Suite) (me : Nat) (v : Keys2) (cid : Cid) (cr : Cred) (ts : List EadTok) : Bytes :=
  let n := macLenOf (responderSigns me) su
  P.expand v.prk3e2m (info 2 (context2 cid cr v.th2 ts) n) n

/-- message_2 of an honest Responder with the ephemeral key `y` -/
structure Flight2 (P : Prims) (V : Bytes → Bytes → Bytes → Bool) (su : Suite) (k : Bounds) (me : Nat) (cfg : Config) (p : Identity)
    (cid : Cid) (v : Keys2) (y : Bytes) (ts : List EadTok) (sig ptxt m2 : Bytes) : Prop where
  key : P.priv y
  ead : EadOk k ts
  auth : SigOf V (responderSigns me) p.pk p.cred v.th2 ts (mac2 P su me v cid p.cred ts) sig
  parts : ∃ t, PtxtTail cfg p.cred sig ts t ∧ ptxt = cidItem cid ++ t
  size : 0 < ptxt.length ∧ ptxt.length ≤ 62100 ∧ ptxt.length ≤ k.expand
  msg : m2 = encBstr (P.pub y ++ xorBytes ptxt (P.expand v.prk2e (info 0 v.th2 ptxt.length) ptxt.length))

/-- the state of a session with TH_3 = `th3` and PRK_3e2m = `prk3` -/
structure Before3 (su : Suite) (me : Nat) (th3 prk3 : Bytes) (ci : Cid) (gp : Bytes) (c0 c : Ctx) : Prop extends
    Going su me c0 c where
  keys : c.thState = .th3 ∧ c.prkState = .prk3e2m
  peerPub : c.dhPeerPub = gp
  peerCid : c.peerCid = ci
  th : c.th = th3
  prk : c.prk = prk3

/-- the state of a session after message_2 -/
abbrev AfterM2 (P : Prims) (su : Suite) (me : Nat) (v : Keys2) (ptxt : Bytes) (cr : Cred) (ci : Cid) (gp : Bytes)
    (c0 c : Ctx) : Prop := Before3 su me (P.hash (encBstr v.th2 ++ ptxt ++ cred cr)) v.prk3e2m ci gp c0 c

theorem context2_size {cid : Cid} {cr : Cred} {th : Bytes} {ts : List EadTok} (hcid : CidOk cfg' cid)
    (hc : (idCred cr).length + (cred cr).length ≤ 40000) (ht : th.length ≤ 1000) (he : EadOk k ts) :
    (context2 cid cr th ts).length < 65536 := by
  have h1 := (encCid_total hcid).2
  have h2 : (encBstr th).length ≤ 1003 := by
    rw [encBstr_small (by omega)]; have := bstrOh_le3 (n := th.length) (by omega); omega
  have h3 := he.size
  simp only [context2, List.length_append]
  omega

theorem macCtx_sizes {cr : Cred} {m : MacCtx} (hm : MacParts cfg c cr m) (hc : (idCred cr).length + (cred cr).length ≤ 40000)
    (ht : c.th.length ≤ 1000) (he : EadOk k c.ead) : m.idCred.length < 65536 ∧ m.aad.length < 65536 := by
  have h2 : (encBstr c.th).length ≤ 1003 := by
    rw [encBstr_small (by omega)]; have := bstrOh_le3 (n := c.th.length) (by omega); omega
  have h3 := he.size
  unfold MacCtx.aad
  rw [hm.idCred, hm.th, hm.cred, hm.ead]
  simp only [List.length_append]
  omega

theorem mac_length (H : Host P su k I E cfg) (prk i : Bytes) (b : Bool) :
    (P.expand prk i (macLenOf b su)).length = macLenOf b su := H.sized.expand _ _ _

theorem idWire_size {cr : Cred} {m : MacCtx} (hm : MacParts cfg c cr m) (hz : CredSizes cfg cr) :
    (idCredPtxt m).length ≤ (idCred cr).length := by
  obtain ⟨q, h1, h2⟩ := hm.idWire
  obtain ⟨q', h3, h4⟩ := hz.comp
  rw [h1] at h3
  cases h3
  rw [h2]
  exact h4

theorem xor_self (a b : Bytes) (h : b.length = a.length) : xorBytes (xorBytes a b) b = a := by
  unfold xorBytes
  induction a generalizing b with
  | nil => rfl
  | cons x a ih =>
    cases b with
    | nil => cases h
    | cons y b =>
      simp only [List.zipWith_cons_cons]
      rw [ih b (by simpa using h)]
      congr 1
      rw [UInt8.xor_assoc, UInt8.xor_self, UInt8.xor_zero]

theorem xor_length (a b : Bytes) (h : b.length = a.length) : (xorBytes a b).length = a.length := by
  unfold xorBytes
  simp [h]

theorem wire_of_eadOk {ts : List EadTok} (h : EadOk k ts) : ∀ t ∈ ts, t.Wire := by
  intro t ht
  refine ⟨?_, ?_⟩
  · have := h.label t ht
    unfold Int32Range
    omega
  · intro v hv
    have h3 : ∀ ts : List EadTok, t ∈ ts → (encBstr v).length ≤ (Spec.ead ts).length := by
      intro ts
      induction ts with
      | nil => intro h; cases h
      | cons a ts ih =>
        intro h
        rw [ead_cons, List.length_append]
        rcases List.mem_cons.1 h with rfl | h
        · have : (encBstr v).length ≤ (encEadTok t).length := by
            obtain ⟨l, w⟩ := t
            cases hv
            simp [encEadTok]
          omega
        · have := ih h
          omega
    have h4 := h3 ts ht
    have h5 := h.size
    rw [encBstr_length] at h4
    unfold SizeOk
    omega

/-! ## Compose -/

theorem message2Compose_any (H : Host P su k I E cfg) (hP : P.Lawful) {p : Identity} (hm4 : me < 4)
    (ho : Owns P V su (responderSigns me) I E p) (hz : CredSizes cfg p.cred)
    (hl : (idCred p.cred).length + (cred p.cred).length ≤ 40000) (hcid : CidOk cfg' c0.cid)
    (hb : (idCred p.cred).length + k.ead + 2100 ≤ k.expand)
    {x th1 : Bytes} (hth1 : th1.length = su.hash) {ci : Cid} (hx : P.priv x) (hR : Heard1 P su me x th1 ci c0 c) {n : Nat} (hn : 65000 ≤ n) {s : St σ} (hs : At I s c) :
    Wp (message2Compose E cfg n) s fun m2 s' =>
      ∃ y ts sig ptxt, let v := keys2 P su me (P.pub y) th1 (P.dh x (P.pub y)) (P.dh p.sk (P.pub x))
        Flight2 P V su k me cfg p c0.cid v y ts sig ptxt m2 ∧
        AfterM2 P su me v ptxt p.cred ci (P.pub x) c0 s'.ctx ∧ s'.ctx.status = .waitM3 ∧ s'.ctx.dhPriv = y ∧
          I s'.env := by
  have z1 := H.suite.hash
  have z2 := H.suite.ecc
  have z3 := H.suite.sign
  have z4 := H.suite.mac
  unfold message2Compose
  refine Wp.go hs (Gets.require (by simp only [bne_iff_ne, ne_eq]; omega)) fun s1 hs1 => ?_
  refine Wp.new hs1 (enter_gets (by simp [okReceivedM1, hR.state])) fun c2 s2 hc2 hs2 => ?_
  have l2 : Live su c2 := by rw [hc2]; exact ⟨hR.live.keys, hR.live.crypto, hR.live.cred, hR.live.suite⟩
  refine Wp.bind ((genDhKeys_wp H l2 hs2).mapErr.mono ?_)
  rintro _ s3 ⟨y, hy, hyp, hs3⟩
  obtain ⟨c3, hc3⟩ : ∃ c3, c3 = s3.ctx := ⟨_, rfl⟩
  rw [hs3.1] at hc3
  rw [← hc3] at hs3
  have l3 : Live su c3 := by rw [hc3]; exact ⟨l2.keys, l2.crypto, l2.cred, l2.suite⟩
  have p3 : c3.dhPeerPub = P.pub x := by rw [hc3, hc2]; exact hR.peerPub
  refine Wp.new hs3 (compDhSecret_gets H l3 (by rw [hc3]; exact hyp) p3 hx).mapErr fun c4 s4 hc4 hs4 => ?_
  have l4 : Live su c4 := by rw [hc4]; exact ⟨l3.keys, l3.crypto, l3.cred, l3.suite⟩
  have t4 : c4.th = th1 := by rw [hc4, hc3, hc2]; exact hR.th
  have g4 : gY c4 = P.pub y := by unfold gY; rw [hc4, hc3, hc2]
  refine Wp.new hs4 (compTh2_gets H l4 (by rw [hc4, hc3, hc2]; exact hR.state.2.1) (by rw [t4]; exact hth1)
    (by rw [g4]; exact H.sized.pub _ hyp)).mapErr fun c5 s5 hc5 hs5 => ?_
  have l5 : Live su c5 := by rw [hc5]; exact ⟨l4.keys, l4.crypto, l4.cred, l4.suite⟩
  refine Wp.new hs5 (compPrk2e_gets H l5 (by rw [hc5]) (by rw [hc5, hc4, hc3, hc2]; exact hR.state.2.2)
    (by rw [hc5]; exact H.sized.hash _)
    (by rw [hc5, hc4, p3, hc3]; exact H.sized.dh _ _ hyp hx)).mapErr
    fun c6 s6 hc6 hs6 => ?_
  have l6 : Live su c6 := by rw [hc6]; exact ⟨l5.keys, l5.crypto, l5.cred, l5.suite⟩
  obtain ⟨v, hv⟩ : ∃ v, v = keys2 P su me (P.pub y) th1 (P.dh x (P.pub y)) (P.dh p.sk (P.pub x)) := ⟨_, rfl⟩
  have t6 : c6.th = v.th2 := by rw [hc6, hc5, hv, g4, t4]; rfl
  have tl6 : c6.th.length = su.hash := by rw [t6, hv]; exact H.sized.hash _
  have k6 : c6.prk = v.prk2e := by
    rw [hc6, hc5, hv, g4, t4]
    have : c4.dhSecret = P.dh x (P.pub y) := by rw [hc4, p3, hc3]; exact hP.dh _ _ hyp hx
    simp only [this]; rfl
  have kl6 : v.prk2e.length = su.hash := by rw [hv]; exact H.sized.extract _ _
  have s6' : c6.thState = .th2 ∧ c6.prkState = .prk2e := ⟨by rw [hc6, hc5], by rw [hc6]⟩
  have m6 : c6.message = .msg2 ∧ c6.role = .responder := by rw [hc6, hc5, hc4, hc3, hc2]; exact ⟨rfl, rfl⟩
  have e6 : c6.ead = [] := by rw [hc6, hc5, hc4, hc3, hc2]; exact hR.ead
  have me6 : c6.chosenMethod = me := by rw [hc6, hc5, hc4, hc3, hc2]; exact hR.method
  have cid6 : c6.cid = c0.cid := by rw [hc6, hc5, hc4, hc3, hc2]; exact hR.cid
  have pc6 : c6.peerCid = ci := by rw [hc6, hc5, hc4, hc3, hc2]; exact hR.peerCid
  have pp6 : c6.dhPeerPub = P.pub x := by rw [hc6, hc5, hc4]; exact p3
  have y6 : c6.dhPriv = y ∧ c6.dhPub = P.pub y := by rw [hc6, hc5, hc4, hc3]; exact ⟨rfl, rfl⟩
  clear hc6 hc5 hc4 hc3 hc2
  refine Wp.go hs6 Gets.getCtx fun s7 hs7 => ?_
  refine Wp.go hs7 (memAlloc_gets H.honest H.room (by rw [k6]; omega)) fun s8 hs8 => ?_
  refine Wp.go hs8 (credFetch_gets l6 ho.fetch) fun s9 hs9 => ?_
  refine Wp.go hs9 (Gets.ofOption rfl) fun s10 hs10 => ?_
  refine Wp.bind ((eadCompose_wp H hs10 e6).mono ?_)
  rintro _ s11 ⟨ts, hts, hs11⟩
  obtain ⟨c11, hc11⟩ : ∃ c11, c11 = s11.ctx := ⟨_, rfl⟩
  rw [hs11.1] at hc11
  rw [← hc11] at hs11
  have l11 : Live su c11 := by rw [hc11]; exact ⟨l6.keys, l6.crypto, l6.cred, l6.suite⟩
  refine Wp.new hs11 (prk3R_gets (sk := p.sk) H l11 (by rw [hc11, me6]; exact hm4) (by rw [hc11]; exact m6.2)
    (by rw [hc11]; exact s6'.1) (by rw [hc11]; exact s6'.2) (by rw [hc11]; exact tl6)
    (by rw [hc11]; exact (congrArg List.length k6).trans kl6) (by rw [hc11]; exact pp6) hx
    (by rw [hc11, me6]; exact fun h => (ho.agree h).2)).mapErr fun c12 s12 hc12 hs12 => ?_
  have l12 : Live su c12 := by rw [hc12]; exact ⟨l11.keys, l11.crypto, l11.cred, l11.suite⟩
  have me12 : c12.chosenMethod = me := by rw [hc12, hc11]; exact me6
  have t12 : c12.th = v.th2 := by rw [hc12, hc11]; exact t6
  have tl12 : c12.th.length = su.hash := by rw [hc12, hc11]; exact tl6
  have e12 : c12.ead = ts := by rw [hc12, hc11]
  have k12 : c12.prk = v.prk3e2m := by
    rw [hc12, hc11]
    simp only [me6, k6, t6, pp6]
    rw [hv]; rfl
  have kl12 : c12.prk.length = su.hash := by rw [k12, hv]; exact prk3e2m_length H.sized _ _ _ _
  have st12 : c12.thState = .th2 ∧ c12.prkState = .prk3e2m := by rw [hc12, hc11]; exact ⟨s6'.1, rfl⟩
  have m12 : c12.message = .msg2 := by rw [hc12, hc11]; exact m6.1
  have cid12 : c12.cid = c0.cid := by rw [hc12, hc11]; exact cid6
  have mc12 : macCid c12 = c0.cid := by
    have : c12.role = .responder := by rw [hc12, hc11]; exact m6.2
    unfold macCid
    rw [this]; exact cid12
  have pc12 : c12.peerCid = ci := by rw [hc12, hc11]; exact pc6
  have pp12 : c12.dhPeerPub = P.pub x := by rw [hc12, hc11]; exact pp6
  have y12 : c12.dhPriv = y ∧ c12.dhPub = P.pub y := by rw [hc12, hc11]; exact y6
  clear hc12 hc11
  obtain ⟨m, hm1, hm2⟩ := buildMacCtx_gets (c := c12) H none (Or.inl ⟨m12, st12.1⟩) tl12 hz hl (by rw [e12]; exact hts)
    (by rw [mc12]; exact hcid)
  have hu : usesSign c12 = some (responderSigns me) := by rw [← me12]; exact usesSign_msg2 m12 (by rw [me12]; exact hm4)
  have hml := macLenOf_le H.suite (responderSigns me)
  obtain ⟨q1, q2⟩ := macCtx_sizes hm2 hl (by omega) (by rw [e12]; exact hts)
  have hbuf : m.buf = context2 c0.cid p.cred v.th2 ts := by rw [hm2.buf2 m12, mc12, t12, e12]
  have hbl : m.buf.length < 65536 := by
    rw [hbuf]; exact context2_size hcid hl (by rw [← t12]; omega) hts
  have hlab : macLabel c12 = 2 := by unfold macLabel; rw [m12]; rfl
  refine Wp.go hs12 hm1 fun s13 hs13 => ?_
  refine Wp.go hs13 Gets.getCtx fun s14 hs14 => ?_
  refine Wp.go hs14 (Gets.ofRes (macLength_of hu)) fun s15 hs15 => ?_
  rw [l12.suite]
  refine Wp.go hs15 (memAlloc_gets H.honest H.room (by omega)) fun s16 hs16 => ?_
  refine Wp.go hs16 (compMac_gets H l12 (n := macLenOf (responderSigns me) su) hml hbl kl12 (Or.inl ⟨m12, st12.2⟩))
    fun s17 hs17 => ?_
  rw [k12, hlab, hbuf]
  refine Wp.go hs17 (Gets.ofRes (signOrMacLength_of hu)) fun s18 hs18 => ?_
  rw [l12.suite]
  refine Wp.go hs18 (memAlloc_gets H.honest H.room (by split <;> omega)) fun s19 hs19 => ?_
  refine Wp.bind ((compSignOrMac_wp H l12 (m := m) hs19 ho hu hm2 q1 q2 (mac_length H _ _ _)).mono ?_)
  rintro sig s20 ⟨hsig, hs20⟩
  rw [t12, e12] at hsig
  have hsl := hsig.size
  obtain ⟨pl, hpl, hpl'⟩ := ptxt2Len_total (c := c12) (m := m) (cfg' := cfg') (sig := sig) ⟨hsl.1, by omega⟩
    (by rw [cid12]; exact hcid)
  have hid := idWire_size hm2 hz
  have hid2 := idCredPtxtLen_le m (by omega)
  have hcl := (encCid_total hcid).2
  have hel : m.ead.length ≤ k.ead ∧ m.ead.length ≤ 20000 := by rw [hm2.ead, e12]; exact hts.size
  have hoh := bstrOh_le3 (n := sig.length) (by omega)
  have hprep := preparePtxt2_total (c := c12) (m := m) (sig := sig) ⟨hsl.1, by omega⟩ hpl'
  rw [cid12] at hprep hpl'
  refine Wp.go hs20 (Gets.ofRes (by rw [hpl]; rfl)) fun s21 hs21 => ?_
  refine Wp.go hs21 (memAlloc_gets H.honest H.room (by omega)) fun s22 hs22 => ?_
  refine Wp.go hs22 (Gets.ofRes (by rw [hprep]; rfl)) fun s23 hs23 => ?_
  obtain ⟨ptxt, hpt⟩ : ∃ ptxt, ptxt = cidItem c0.cid ++ (idCredPtxt m ++ encBstr sig ++ m.ead) := ⟨_, rfl⟩
  rw [← hpt]
  have hptl : 0 < ptxt.length ∧ ptxt.length ≤ 62100 ∧ ptxt.length ≤ k.expand := by
    have := encBstr_small (b := sig) (by omega)
    have h0 : 0 < (encBstr sig).length := by omega
    rw [hpt]
    simp only [List.length_append]
    omega
  refine Wp.go hs23 (memAlloc_gets H.honest H.room (by omega)) fun s24 hs24 => ?_
  rw [k6]
  refine Wp.go hs24 (compKeystream_gets H l12 (n := ptxt.length) kl6 ⟨hptl.1, by omega⟩ hptl.2.2 st12.1 tl12).mapErr fun s25 hs25 => ?_
  rw [t12]
  rw [hm2.cred]
  refine Wp.new hs25 (compTh3_gets H l12 st12.1 tl12 hptl.1 (by omega)).mapErr fun c26 s26 hc26 hs26 => ?_
  obtain ⟨ks, hks⟩ : ∃ ks, ks = P.expand v.prk2e (info 0 v.th2 ptxt.length) ptxt.length := ⟨_, rfl⟩
  have hksl : ks.length = ptxt.length := by rw [hks]; exact H.sized.expand _ _ _
  rw [← hks]
  have hxl := xor_length ptxt ks hksl
  have l26 : Live su c26 := by rw [hc26]; exact ⟨l12.keys, l12.crypto, l12.cred, l12.suite⟩
  have y26 : c26.dhPub = P.pub y := by rw [hc26]; exact y12.2
  have hmsg : Gets I (prepareMsg2 E cfg (xorBytes ptxt ks) n) c26 (encBstr (P.pub y ++ xorBytes ptxt ks)) c26 := by
    unfold prepareMsg2
    refine Gets.getCtx.bind ((Gets.require ?_).bind ?_)
    · simp only [Bool.and_eq_true, bne_iff_ne, ne_eq]; omega
    · rw [y26]
      have h1 := H.sized.pub y hyp
      refine (memAlloc_gets H.honest H.room (by omega)).bind (Gets.ofOption (fits_of ?_))
      have h2 : (P.pub y ++ xorBytes ptxt ks).length = su.eccKey + ptxt.length := by
        rw [List.length_append, h1, hxl]
      rw [encBstr_small (by omega), h2]
      have := bstrOh_le3 (n := su.eccKey + ptxt.length) (by omega)
      omega
  refine Wp.go hs26 hmsg.mapErr fun s27 hs27 => ?_
  refine Wp.new hs27 Gets.modCtx fun c28 s28 hc28 hs28 => ?_
  refine ⟨_, s28, rfl, y, ts, sig, ptxt, ?_⟩
  rw [← hv]
  refine ⟨⟨hyp, hts, hsig, ⟨_, ?_, hpt⟩, hptl, by rw [hks]⟩, ⟨⟨⟨?_, ?_, ?_, ?_⟩, ?_, ?_, ?_⟩, ?_, ?_, ?_, ?_, ?_⟩, ?_, ?_,
    hs28.2⟩
  · obtain ⟨q, hq1, hq2⟩ := hm2.idWire
    exact ⟨q, hq1, by rw [hq2, hm2.ead, e12]⟩
  all_goals rw [hs28.1, hc28]
  · exact l26.keys
  · exact l26.crypto
  · exact l26.cred
  · exact l26.suite
  all_goals rw [hc26]
  · exact me12
  · exact cid12
  · exact ⟨rfl, st12.2⟩
  · exact pp12
  · exact pc12
  · rw [t12]
  · exact k12
  · exact y12.1

/-! ## Process -/

theorem message2Compose_wp (H : Host P su k I E cfg) (hP : P.Lawful) {p : Identity} (hm4 : me < 4)
    (ho : Owns P V su (responderSigns me) I E p) (hz : CredSizes cfg p.cred)
    (hl : (idCred p.cred).length + (cred p.cred).length ≤ 40000) (hcid : CidOk cfg' c0.cid)
    (hb : (idCred p.cred).length + k.ead + 2100 ≤ k.expand)
    {x m1 : Bytes} {ci : Cid} (hx : P.priv x) (hR : RespM1 P su me x m1 ci c0 c) {n : Nat} (hn : 65000 ≤ n) {s : St σ} (hs : At I s c) :
    Wp (message2Compose E cfg n) s fun m2 s' =>
      ∃ y ts sig ptxt, let v := keys2 P su me (P.pub y) (P.hash m1) (P.dh x (P.pub y)) (P.dh p.sk (P.pub x))
        Flight2 P V su k me cfg p c0.cid v y ts sig ptxt m2 ∧
        AfterM2 P su me v ptxt p.cred ci (P.pub x) c0 s'.ctx ∧ s'.ctx.status = .waitM3 ∧ s'.ctx.dhPriv = y ∧
          I s'.env :=
  message2Compose_any H hP hm4 ho hz hl hcid hb (H.sized.hash _) hx hR hn hs

theorem parseMsg2_gets (H : Host P su k I E cfg) (hc : Live su c) {y ct : Bytes} (hy : P.priv y) (hl : ct.length ≤ 63000) :
    Gets I (parseMsg2 E cfg (encBstr (P.pub y ++ ct))) c ct { c with dhPeerPub := P.pub y } := by
  have h1 := H.sized.pub y hy
  have h2 := H.suite.ecc
  have h3 : (P.pub y ++ ct).length = su.eccKey + ct.length := by rw [List.length_append, h1]
  unfold parseMsg2
  refine Gets.getCtx.bind ((Gets.ofOption (getMsgBstr_enc (by unfold SizeOk; omega))).bind ?_)
  refine (memAlloc_gets H.honest H.room (by
    rw [h3, hc.suite]; unfold subSize; rw [if_pos (Nat.le_add_right _ _)]; omega)).bind ?_
  refine (Gets.guardUB (hc.eccOk H)).bind ((Gets.guardUB (by rw [h3, hc.suite]; simp)).bind ?_)
  have h4 : (P.pub y ++ ct).take c.suite.eccKey = P.pub y := by
    rw [hc.suite, ← h1]; exact List.take_left'  rfl
  have h5 : (P.pub y ++ ct).drop c.suite.eccKey = ct := by
    rw [hc.suite, ← h1]; exact List.drop_left' rfl
  rw [h5]
  refine Gets.modCtx.bind (Gets.pure.cast ?_)
  rw [h4]

/-- the end of a plaintext a receiver can take: ID_CRED as `i`, Signature_or_MAC, EAD -/
structure Tail (cfg : Config) (i : IdCred) (sig : Bytes) (ts : List EadTok) (t : Bytes) : Prop where
  enc : ∃ b, encIdCred i = some b ∧ t = b ++ encBstr sig ++ Spec.ead ts
  wire : i.Wire
  recv : credOfIdCred cfg credOfMap2 i = .ok (asReceived i) ∧ credOfIdCred cfg credOfMap3 i = .ok (asReceived i)

theorem PtxtTail.tail {cr : Cred} {i : IdCred} {sig t : Bytes} {ts : List EadTok} (ht : PtxtTail cfg' cr sig ts t)
    (hi : SentAs cr i) (hr : CredRoom cfg cr) : Tail cfg i sig ts t := by
  obtain ⟨q, hq, h⟩ := ht
  obtain ⟨h1, h2⟩ := sentAs_enc hi hq
  exact ⟨⟨_, h1, h⟩, h2, cred_received hi hr⟩

theorem Tail.dec {i : IdCred} {sig t : Bytes} {ts : List EadTok} (h : Tail cfg i sig ts t) (hs : SizeOk sig)
    (ht : ∀ t ∈ ts, t.Wire) (hl : ts.length ≤ 3) (d : DecCfg) : getPtxt3 d t = some ⟨i, sig, ts⟩ ∧ stalePtxt3 d t = 0 := by
  obtain ⟨⟨b, h1, rfl⟩, h2, -⟩ := h
  exact ⟨getPtxt3_enc (p := ⟨i, sig, ts⟩) h1 h2 hs ht hl, stalePtxt3_enc (p := ⟨i, sig, ts⟩) h1 h2 hs ht⟩

/-- the application knows the identity `p` under the identifier `i` -/
structure KnowsAs (V : Bytes → Bytes → Bytes → Bool) (signs : Bool) (I : σ → Prop) (E : Env σ) (p : Identity) (i : IdCred) :
    Prop where
  cred : ∀ e, I e →
    (E.credVerify e (asReceived i)).1 = some (p.cred, some p.pk) ∧ I (E.credVerify e (asReceived i)).2
  verify : signs = true → ∀ e, I e → ∃ kid, (E.importKey e .verify p.pk).1 = some kid ∧
    ∀ m s, m ≠ [] → V p.pk m s = true → (E.verify (E.importKey e .verify p.pk).2 kid m s).1 = true ∧
      I (E.destroyKey (E.verify (E.importKey e .verify p.pk).2 kid m s).2 kid)

theorem _root_.Verif.Spec.Recognises.as {signs : Bool} {p : Identity} {i : IdCred} (h : Recognises V signs I E p)
    (hi : SentAs p.cred i) : KnowsAs V signs I E p i := ⟨h.cred i hi, h.verify⟩

/-- message_2 as an Initiator can take it -/
structure Recv2 (P : Prims) (V : Bytes → Bytes → Bytes → Bool) (su : Suite) (k : Bounds) (me : Nat) (cfg : Config) (p : Identity)
    (i : IdCred) (cid : Cid) (v : Keys2) (y : Bytes) (ts : List EadTok) (sig ptxt m2 : Bytes) : Prop where
  key : P.priv y
  ead : EadOk k ts
  auth : SigOf V (responderSigns me) p.pk p.cred v.th2 ts (mac2 P su me v cid p.cred ts) sig
  parts : ∃ t, Tail cfg i sig ts t ∧ ptxt = cidItem cid ++ t
  size : 0 < ptxt.length ∧ ptxt.length ≤ 62100 ∧ ptxt.length ≤ k.expand
  msg : m2 = encBstr (P.pub y ++ xorBytes ptxt (P.expand v.prk2e (info 0 v.th2 ptxt.length) ptxt.length))

theorem Flight2.recv {p : Identity} {i : IdCred} {cid : Cid} {v : Keys2} {y sig ptxt m2 : Bytes} {ts : List EadTok}
    (h : Flight2 P V su k me cfg' p cid v y ts sig ptxt m2) (hi : SentAs p.cred i) (hr : CredRoom cfg p.cred) :
    Recv2 P V su k me cfg p i cid v y ts sig ptxt m2 := by
  obtain ⟨t, h1, h2⟩ := h.parts
  exact ⟨h.key, h.ead, h.auth, ⟨t, h1.tail hi hr, h2⟩, h.size, h.msg⟩

theorem parsePtxt2_gets (H : Host P su k I E cfg) {i : IdCred} {cid : Cid} {sig t ptxt : Bytes}
    {ts : List EadTok} (ht : Tail cfg i sig ts t) (hp : ptxt = cidItem cid ++ t) (h0 : 0 < ptxt.length)
    (hs : sig.length ≤ 1000) (he : EadOk k ts) (hcid : CidOk cfg cid)
    (hce : c.ead = []) :
    Gets I (parsePtxt2 cfg ptxt : M σ (Cred × Bytes)) c (asReceived i, sig) { c with peerCid := cid, ead := ts } := by
  obtain ⟨h1, h1'⟩ := ht.dec (by unfold SizeOk; omega) (wire_of_eadOk he) he.count.2 cfg.dec
  have h2 := getPtxt2_enc (d := cfg.dec) (encCid_total hcid).1 (by
    rintro b rfl
    have := hcid.2
    unfold SizeOk
    omega) h1
  have h3 := stalePtxt2_enc (d := cfg.dec) (t := t) (encCid_total hcid).1 (by
    rintro b rfl
    have := hcid.2
    unfold SizeOk
    omega) h1'
  rw [← hp] at h2 h3
  unfold parsePtxt2
  rw [h3]
  refine (Gets.require (by simp only [bne_iff_ne, ne_eq]; omega)).bind ((Gets.ofOption h2).bind ?_)
  refine (storePeerCid_gets hcid).bind ((Gets.ofRes ht.recv.1).bind ?_)
  generalize hd : ({ c with peerCid := cid } : Ctx) = d
  have hde : d.ead = [] := by rw [← hd]; exact hce
  refine (storeEad_gets H he.count.1 hde).bind (Gets.pure.cast ?_)
  rw [← hd]

theorem message2Process_wp (H : Host P su k I E cfg) {p : Identity} {i : IdCred} (hm4 : me < 4)
    (hpk : p.pk ≠ []) (hst : responderSigns me = false → p.pk = P.pub p.sk ∧ P.priv p.sk) (hP : P.Lawful)
    (hk : KnowsAs V (responderSigns me) I E p i) (hz : CredSizes cfg p.cred)
    (hl : (idCred p.cred).length + (cred p.cred).length ≤ 40000) {cid : Cid} (hcid : CidOk cfg cid)
    {x y m1 sig ptxt m2 : Bytes} {ts : List EadTok}
    (hx : P.priv x) (hI : InitM1 P su me x m1 c0 c) {v : Keys2}
    (hv : v = keys2 P su me (P.pub y) (P.hash m1) (P.dh x (P.pub y)) (P.dh p.sk (P.pub x)))
    (hf : Recv2 P V su k me cfg p i cid v y ts sig ptxt m2) {s : St σ} (hs : At I s c) :
    Wp (message2Process E cfg m2) s fun _ s' =>
      AfterM2 P su me v ptxt p.cred cid (P.pub y) c0 s'.ctx ∧ s'.ctx.status = .verifiedM2 ∧ I s'.env := by
  have z1 := H.suite.hash
  have z2 := H.suite.ecc
  have hpl := hf.size
  obtain ⟨ks, hks⟩ : ∃ ks, ks = P.expand v.prk2e (info 0 v.th2 ptxt.length) ptxt.length := ⟨_, rfl⟩
  have hksl : ks.length = ptxt.length := by rw [hks]; exact H.sized.expand _ _ _
  have hmsg := hf.msg
  rw [← hks] at hmsg
  have hxl := xor_length ptxt ks hksl
  unfold message2Process
  refine Wp.go hs (Gets.require ?_) fun s1 hs1 => ?_
  · have : 0 < m2.length := by rw [hmsg, encBstr_length, List.length_append, H.sized.pub y hf.key]; omega
    simp only [bne_iff_ne, ne_eq]; omega
  refine Wp.new hs1 (enter_gets (by simp [okWaitM2, hI.state])) fun c2 s2 hc2 hs2 => ?_
  have l2 : Live su c2 := by rw [hc2]; exact ⟨hI.live.keys, hI.live.crypto, hI.live.cred, hI.live.suite⟩
  rw [hmsg]
  refine Wp.new hs2 (parseMsg2_gets H l2 hf.key (by omega)) fun c3 s3 hc3 hs3 => ?_
  have l3 : Live su c3 := by rw [hc3]; exact ⟨l2.keys, l2.crypto, l2.cred, l2.suite⟩
  have p3 : c3.dhPeerPub = P.pub y := by rw [hc3]
  refine Wp.new hs3 (compDhSecret_gets H l3 (by rw [hc3, hc2]; exact hI.priv.symm ▸ hx) p3 hf.key).mapErr fun c4 s4 hc4 hs4 => ?_
  have l4 : Live su c4 := by rw [hc4]; exact ⟨l3.keys, l3.crypto, l3.cred, l3.suite⟩
  have t4 : c4.th = P.hash m1 := by rw [hc4, hc3, hc2]; exact hI.th
  have g4 : gY c4 = P.pub y := by unfold gY; rw [hc4, hc3, hc2]
  refine Wp.new hs4 (compTh2_gets H l4 (by rw [hc4, hc3, hc2]; exact hI.state.2.1) (by rw [t4]; exact H.sized.hash _)
    (by rw [g4]; exact H.sized.pub _ hf.key)).mapErr fun c5 s5 hc5 hs5 => ?_
  have l5 : Live su c5 := by rw [hc5]; exact ⟨l4.keys, l4.crypto, l4.cred, l4.suite⟩
  refine Wp.new hs5 (compPrk2e_gets H l5 (by rw [hc5]) (by rw [hc5, hc4, hc3, hc2]; exact hI.state.2.2)
    (by rw [hc5]; exact H.sized.hash _)
    (by rw [hc5, hc4, p3, hc3, hc2]; exact H.sized.dh _ _ (hI.priv.symm ▸ hx) hf.key)).mapErr
    fun c6 s6 hc6 hs6 => ?_
  have l6 : Live su c6 := by rw [hc6]; exact ⟨l5.keys, l5.crypto, l5.cred, l5.suite⟩
  have t6 : c6.th = v.th2 := by rw [hc6, hc5, hv, g4, t4]; rfl
  have tl6 : c6.th.length = su.hash := by rw [t6, hv]; exact H.sized.hash _
  have x6 : c6.dhPriv = x := by rw [hc6, hc5, hc4, hc3, hc2]; exact hI.priv
  have k6 : c6.prk = v.prk2e := by
    rw [hc6, hc5, hv, g4, t4]
    have : c4.dhSecret = P.dh x (P.pub y) := by
      rw [hc4, p3, hc3, hc2]; simp only [hI.priv]
    simp only [this]; rfl
  have kl6 : v.prk2e.length = su.hash := by rw [hv]; exact H.sized.extract _ _
  have s6' : c6.thState = .th2 ∧ c6.prkState = .prk2e := ⟨by rw [hc6, hc5], by rw [hc6]⟩
  have m6 : c6.message = .msg2 ∧ c6.role = .initiator := by rw [hc6, hc5, hc4, hc3, hc2]; exact ⟨rfl, rfl⟩
  have e6 : c6.ead = [] := by rw [hc6, hc5, hc4, hc3, hc2]; exact hI.ead
  have me6 : c6.chosenMethod = me := by rw [hc6, hc5, hc4, hc3, hc2]; exact hI.method
  have cid6 : c6.cid = c0.cid := by rw [hc6, hc5, hc4, hc3, hc2]; exact hI.cid
  have pp6 : c6.dhPeerPub = P.pub y := by rw [hc6, hc5, hc4]; exact p3
  clear hc6 hc5 hc4 hc3 hc2
  refine Wp.go hs6 (memAlloc_gets H.honest H.room (by omega)) fun s7 hs7 => ?_
  refine Wp.go hs7 Gets.getCtx fun s8 hs8 => ?_
  rw [k6, hxl]
  refine Wp.go hs8 (compKeystream_gets H l6 (n := ptxt.length) kl6 ⟨hpl.1, by omega⟩ hpl.2.2 s6'.1 tl6).mapErr fun s9 hs9 => ?_
  rw [t6, ← hks, xor_self _ _ hksl]
  obtain ⟨t, hpt1, hpt2⟩ := hf.parts
  refine Wp.new hs9 (parsePtxt2_gets H hpt1 hpt2 hpl.1 hf.auth.size.2 hf.ead hcid e6).mapErr
    fun c10 s10 hc10 hs10 => ?_
  have l10 : Live su c10 := by rw [hc10]; exact ⟨l6.keys, l6.crypto, l6.cred, l6.suite⟩
  refine Wp.go hs10 (eadProcess_gets H) fun s11 hs11 => ?_
  refine Wp.go hs11 (verifyCred_gets l10 hk.cred) fun s12 hs12 => ?_
  refine Wp.new hs12 (prk3I_gets (y := p.sk) H l10 (by rw [hc10, me6]; exact hm4) (by rw [hc10]; exact m6.2)
    (by rw [hc10]; exact s6'.1) (by rw [hc10]; exact s6'.2) (by rw [hc10]; exact tl6)
    (by rw [hc10]; exact (congrArg List.length k6).trans kl6) (by rw [hc10]; exact x6.symm ▸ hx)
    (by rw [hc10, me6]; exact hst)).mapErr fun c13 s13 hc13 hs13 => ?_
  have l13 : Live su c13 := by rw [hc13]; exact ⟨l10.keys, l10.crypto, l10.cred, l10.suite⟩
  have me13 : c13.chosenMethod = me := by rw [hc13, hc10]; exact me6
  have t13 : c13.th = v.th2 := by rw [hc13, hc10]; exact t6
  have tl13 : c13.th.length = su.hash := by rw [hc13, hc10]; exact tl6
  have e13 : c13.ead = ts := by rw [hc13, hc10]
  have k13 : c13.prk = v.prk3e2m := by
    rw [hc13, hc10]
    simp only [me6, k6, t6, x6, Option.getD_some]
    rw [hv]
    unfold keys2 nextPrk
    dsimp only
    split
    · rfl
    · rename_i h
      have h' : responderSigns me = false := by simpa using h
      rw [(hst h').1, hP.dh x p.sk hx (hst h').2]
  have kl13 : c13.prk.length = su.hash := by rw [k13, hv]; exact prk3e2m_length H.sized _ _ _ _
  have st13 : c13.thState = .th2 ∧ c13.prkState = .prk3e2m := by rw [hc13, hc10]; exact ⟨s6'.1, rfl⟩
  have m13 : c13.message = .msg2 := by rw [hc13, hc10]; exact m6.1
  have cid13 : c13.cid = c0.cid := by rw [hc13, hc10]; exact cid6
  have pc13 : c13.peerCid = cid := by rw [hc13, hc10]
  have mc13 : macCid c13 = cid := by
    have : c13.role = .initiator := by rw [hc13, hc10]; exact m6.2
    unfold macCid
    rw [this]; exact pc13
  have pp13 : c13.dhPeerPub = P.pub y := by rw [hc13, hc10]; exact pp6
  clear hc13 hc10
  obtain ⟨m, hm1, hm2⟩ := buildMacCtx_gets (c := c13) H (some .invalidMac2) (Or.inl ⟨m13, st13.1⟩) tl13 hz hl
    (by rw [e13]; exact hf.ead) (by rw [mc13]; exact hcid)
  have hu : usesSign c13 = some (responderSigns me) := by rw [← me13]; exact usesSign_msg2 m13 (by rw [me13]; exact hm4)
  have hml := macLenOf_le H.suite (responderSigns me)
  obtain ⟨q1, q2⟩ := macCtx_sizes hm2 hl (by omega) (by rw [e13]; exact hf.ead)
  have hbuf : m.buf = context2 cid p.cred v.th2 ts := by rw [hm2.buf2 m13, mc13, t13, e13]
  have hbl : m.buf.length < 65536 := by
    rw [hbuf]; exact context2_size hcid hl (by rw [← t13]; omega) hf.ead
  have hlab : macLabel c13 = 2 := by unfold macLabel; rw [m13]; rfl
  refine Wp.go hs13 hm1 fun s14 hs14 => ?_
  refine Wp.go hs14 Gets.getCtx fun s15 hs15 => ?_
  refine Wp.go hs15 (Gets.ofRes (macLength_of hu)) fun s16 hs16 => ?_
  rw [l13.suite]
  refine Wp.go hs16 (memAlloc_gets H.honest H.room (by omega)) fun s17 hs17 => ?_
  refine Wp.go hs17 (compMac_gets H l13 (n := macLenOf (responderSigns me) su) hml hbl kl13 (Or.inl ⟨m13, st13.2⟩))
    fun s18 hs18 => ?_
  rw [k13, hlab, hbuf]
  refine Wp.go hs18 (verifySignOrMac_gets H l13 hpk hk.verify hu hm2 q1 q2 (by rw [mac_length H]; exact hml)
    (by rw [t13, e13]; exact hf.auth)).mapErr fun s19 hs19 => ?_
  rw [hm2.cred]
  refine Wp.new hs19 (compTh3_gets H l13 st13.1 tl13 hpl.1 (by omega)).mapErr fun c20 s20 hc20 hs20 => ?_
  refine (Gets.modCtx.wp hs20).mono ?_
  rintro _ s21 ⟨_, hs21⟩
  refine ⟨?_, ?_, hs21.2⟩ <;> rw [hs21.1, hc20]
  refine ⟨⟨⟨l13.keys, l13.crypto, l13.cred, l13.suite⟩, me13, cid13, rfl⟩, ⟨rfl, st13.2⟩, pp13, pc13, ?_, k13⟩
  show P.hash _ = _
  rw [t13]

end Verif
