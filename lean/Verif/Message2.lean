import Verif.Facts

/-!
# What a successful message_2 call did
-/

namespace Verif

open M

variable {σ : Type}

section msgs

variable {E : Env σ} {cfg : Config} {s s' : St σ}

/-! ## Plaintexts -/

theorem ptxtTail_ok {m : MacCtx} {sig : Bytes} {off n : Nat} {p : Bytes}
    (h : ptxtTail m sig off n = .ok p) :
    p = idCredPtxt m ++ encBstr sig ++ m.ead ∧ off + p.length ≤ n := by
  simp only [ptxtTail, Res.bind_ok, Res.guardUB_ok, Res.ofOption_ok, Res.pure_ok, decide_eq_true_eq] at h
  obtain ⟨_, _, x, h1, _, _, _, h2, rfl⟩ := h
  obtain ⟨rfl, _⟩ := fits_some h1
  refine ⟨rfl, ?_⟩
  simp only [List.length_append]
  omega

theorem preparePtxt2_ok {c : Ctx} {m : MacCtx} {sig : Bytes} {n : Nat} {p : Bytes}
    (h : preparePtxt2 c m sig n = .ok p) :
    p = Spec.cidItem c.cid ++ (idCredPtxt m ++ encBstr sig ++ m.ead) ∧ p.length ≤ n := by
  simp only [preparePtxt2, Res.bind_ok, Res.ofOption_ok, Res.pure_ok] at h
  obtain ⟨x, h1, t, h2, rfl⟩ := h
  obtain ⟨h3, _⟩ := fits_some h1
  obtain ⟨rfl, h4⟩ := ptxtTail_ok h2
  have h5 : x = Spec.cidItem c.cid := by
    rw [h3]; cases c.cid <;> rfl
  subst h5
  exact ⟨rfl, by rw [List.length_append]; exact h4⟩

theorem preparePtxt3_ok {m : MacCtx} {sig : Bytes} {n : Nat} {p : Bytes}
    (h : preparePtxt3 m sig n = .ok p) :
    p = idCredPtxt m ++ encBstr sig ++ m.ead ∧ p.length ≤ n := by
  simp only [preparePtxt3, Res.bind_ok, Res.require_ok] at h
  obtain ⟨_, _, h⟩ := h
  obtain ⟨h1, h2⟩ := ptxtTail_ok h
  exact ⟨h1, by omega⟩

theorem MacParts.idWire {c : Ctx} {cr : Cred} {m : MacCtx} (h : MacParts cfg c cr m) :
    ∃ k, macComp cfg cr = .ok k ∧ idCredPtxt m = Verif.idWire cr k := by
  obtain ⟨k, h1, h2, h3, h4, h5⟩ := h.comp
  refine ⟨k, h1, ?_⟩
  unfold idCredPtxt Verif.idWire
  rw [h2, h3, h4, h5, h.idCred]
  cases k with
  | none => simp
  | some k => simp only [Option.isSome_some, if_true, Option.map_some, Option.getD_some]; cases k.encType <;> rfl

/-- The plaintext of message 2 or 3 without C_R. -/
def PtxtTail (cfg : Config) (cr : Cred) (sig : Bytes) (e : List EadTok) (p : Bytes) : Prop :=
  ∃ k, macComp cfg cr = .ok k ∧ p = idWire cr k ++ encBstr sig ++ Spec.ead e

/-! ## message_2 compose -/

/-- the values of a run of message 2 -/
structure Vals2 where
  gxy : Bytes
  th2 : Bytes
  prk2e : Bytes
  prk3e2m : Bytes
  cred : Cred
  ead : List EadTok
  mac : Bytes
  sig : Bytes
  ptxt : Bytes
  ks : Bytes
  /-- what the hash callback returned for TH_3 -/
  h3 : Bytes

/-- `edhoc_message_2_compose` succeeded. `kid`: the application's private authentication key. -/
structure Composed2 (cfg : Config) (s s' : St σ) (size : Nat) (priv pub kid : Bytes) (v : Vals2)
    (msg : Bytes) : Prop where
  size0 : size ≠ 0
  state : okReceivedM1 s.ctx = true
  method : s.ctx.chosenMethod ≤ 3
  grow : Grow s s'
  keyPair : ∃ k, Saw (evKeyPair k priv pub) s s'
  privLen : priv.length = s.ctx.suite.eccKey
  pubLen : pub.length = s.ctx.suite.eccKey
  agreed : AgreedRaw priv s.ctx.dhPeerPub v.gxy s s'
  th2 : Hashed (encBstr pub ++ encBstr s.ctx.th) v.th2 s s'
  th2Len : v.th2.length = s.ctx.suite.hash
  hashMax : s.ctx.suite.hash ≤ cfg.maxMac
  prk2e : Extracted v.th2 v.gxy v.prk2e s s'
  prk2eLen : v.prk2e.length = s.ctx.suite.hash
  fetch : Saw [.credFetch (some (v.cred, kid))] s s'
  ead : ComposedEad cfg s.ctx .msg2 v.ead s s'
  prk3e2m : NextPrk 1 (Spec.responderSigns s.ctx.chosenMethod) v.prk2e v.th2 s.ctx.suite.hash
    (AgreedStatic kid s.ctx.dhPeerPub) v.prk3e2m s s'
  mac : Expanded v.prk3e2m 2 (Spec.context2 s.ctx.cid v.cred v.th2 v.ead)
    (macLenOf (Spec.responderSigns s.ctx.chosenMethod) s.ctx.suite) v.mac s s'
  sig : Signed (Spec.responderSigns s.ctx.chosenMethod) kid v.cred v.th2 v.ead v.mac v.sig s s'
  ptxt : ∃ t, PtxtTail cfg v.cred v.sig v.ead t ∧ v.ptxt = Spec.cidItem s.ctx.cid ++ t
  ks : Expanded v.prk2e 0 v.th2 v.ptxt.length v.ks s s'
  th3 : Hashed (encBstr v.th2 ++ v.ptxt ++ Spec.cred v.cred) v.h3 s s'
  h3Len : v.h3.length ≤ s.ctx.suite.hash
  out : msg = encBstr (pub ++ xorBytes v.ptxt v.ks)
  fits : msg.length ≤ size
  ctx : s'.ctx = { s.ctx with
    dhPriv := priv, dhPub := pub, dhSecret := v.gxy
    th := overlay s.ctx.suite.hash v.h3 v.th2, thState := .th3
    prk := v.prk3e2m, prkState := .prk3e2m, ead := []
    status := .waitM3, errorCode := .success, message := .msg2, role := .responder }

theorem message2Compose_ok {size : Nat} {msg : Bytes} (h : message2Compose E cfg size s = (.ok msg, s')) :
    ∃ priv pub kid v, Composed2 cfg s s' size priv pub kid v msg := by
  unfold message2Compose at h
  obtain ⟨_, _, h0', h⟩ := bind_ok.1 h
  obtain ⟨h0, rfl⟩ := require_ok.1 h0'
  obtain ⟨_, s1, h1, h⟩ := bind_ok.1 h
  obtain ⟨e1, c1, l1⟩ := enter_st h1
  have g1 : Grow s s1 := grow_of_log l1
  obtain ⟨_, s2, h2, h⟩ := bind_ok.1 h
  obtain ⟨priv, pub, kk, c2, hp1, hp2, w2⟩ := genDhKeys_ok (mapErr_ok.1 h2)
  obtain ⟨_, s3, h3, h⟩ := bind_ok.1 h
  obtain ⟨gxy, ka, c3, _, w3⟩ := compDhSecret_ok (mapErr_ok.1 h3)
  obtain ⟨_, s4, h4, h⟩ := bind_ok.1 h
  obtain ⟨_, th2, c4, lt2, x2, _, _, w4⟩ := compTh2_ok (mapErr_ok.1 h4)
  obtain ⟨_, s5, h5, h⟩ := bind_ok.1 h
  obtain ⟨_, _, prk2e, ke, c5, lp2, w5⟩ := compPrk2e_ok (mapErr_ok.1 h5)
  obtain ⟨_, _, hc, h⟩ := bind_ok.1 h
  obtain ⟨rfl, rfl⟩ := getCtx_ok.1 hc
  obtain ⟨_, s6, h6, h⟩ := bind_ok.1 h
  obtain ⟨c6, g6⟩ := memAlloc_ok h6
  obtain ⟨f', s7, h7, h⟩ := bind_ok.1 h
  obtain ⟨f, s8, h8, h⟩ := bind_ok.1 h
  obtain ⟨c8, l8⟩ := fetch_ok h7 h8
  obtain ⟨_, s9, h9, h⟩ := bind_ok.1 h
  obtain ⟨ts, c9, w9⟩ := eadCompose_ok h9
  have g9 := eadCompose_grow h9
  obtain ⟨_, s10, h10, h⟩ := bind_ok.1 h
  obtain ⟨g10, prk3, w10, c10⟩ := prk3e2m_next (mapErr_ok.1 h10)
  obtain ⟨m, s11, h11, h⟩ := bind_ok.1 h
  obtain ⟨c11, g11, n, _, hmac⟩ := buildMacCtx_ok h11
  have hm := macContext_ok hmac
  obtain ⟨_, _, hc, h⟩ := bind_ok.1 h
  obtain ⟨rfl, rfl⟩ := getCtx_ok.1 hc
  obtain ⟨macLen, _, h12', h⟩ := bind_ok.1 h
  obtain ⟨h12, rfl⟩ := ofRes_ok.1 h12'
  obtain ⟨_, s12, h13, h⟩ := bind_ok.1 h
  obtain ⟨c12, g12⟩ := memAlloc_ok h13
  obtain ⟨mac, s13, h14, h⟩ := bind_ok.1 h
  obtain ⟨_, _, c13, lmac, km, w13⟩ := compMac_ok h14
  obtain ⟨sLen, _, h15', h⟩ := bind_ok.1 h
  obtain ⟨h15, rfl⟩ := ofRes_ok.1 h15'
  obtain ⟨_, s14, h16, h⟩ := bind_ok.1 h
  obtain ⟨c14, g14⟩ := memAlloc_ok h16
  obtain ⟨sig, s15, h17, h⟩ := bind_ok.1 h
  obtain ⟨_, c15, g15, _, w15⟩ := compSignOrMac_ok h17
  obtain ⟨pLen, _, h18', h⟩ := bind_ok.1 h
  obtain ⟨h18, rfl⟩ := ofRes_ok.1 h18'
  obtain ⟨_, s16, h19, h⟩ := bind_ok.1 h
  obtain ⟨c16, g16⟩ := memAlloc_ok h19
  obtain ⟨ptxt, _, h20', h⟩ := bind_ok.1 h
  obtain ⟨h20, rfl⟩ := ofRes_ok.1 h20'
  obtain ⟨hpt, _⟩ := preparePtxt2_ok (Res.mapErr_ok.1 h20)
  obtain ⟨_, s17, h21, h⟩ := bind_ok.1 h
  obtain ⟨c17, g17⟩ := memAlloc_ok h21
  obtain ⟨ks, s18, h22, h⟩ := bind_ok.1 h
  obtain ⟨_, _, c18, lks, kks, w18⟩ := compKeystream_ok (mapErr_ok.1 h22)
  obtain ⟨_, s19, h23, h⟩ := bind_ok.1 h
  obtain ⟨_, _, t3, lt3, c19, w19⟩ := compTh3_ok (mapErr_ok.1 h23)
  obtain ⟨out, s20, h24, h⟩ := bind_ok.1 h
  obtain ⟨c20, g20, rfl, hfit, _⟩ := prepareMsg2_ok (mapErr_ok.1 h24)
  obtain ⟨_, s21, h25, h⟩ := bind_ok.1 h
  obtain ⟨⟨c21, l21⟩, _⟩ := modCtx_st.1 h25
  obtain ⟨rfl, rfl⟩ := pure_ok.1 h
  have g21 : Grow s20 s21 := grow_of_log l21
  -- contexts
  have C2 : s2.ctx = { s.ctx with
      dhPriv := priv, dhPub := pub
      status := .aborted, errorCode := .unspecified, message := .msg2, role := .responder } := by
    rw [c2, c1]
  have C3 : s3.ctx = { s.ctx with
      dhPriv := priv, dhPub := pub, dhSecret := gxy
      status := .aborted, errorCode := .unspecified, message := .msg2, role := .responder } := by
    rw [c3, C2]
  have C4 : s4.ctx = { s.ctx with
      dhPriv := priv, dhPub := pub, dhSecret := gxy, th := th2, thState := .th2
      status := .aborted, errorCode := .unspecified, message := .msg2, role := .responder } := by
    rw [c4, C3]
  have C5 : s5.ctx = { s.ctx with
      dhPriv := priv, dhPub := pub, dhSecret := gxy, th := th2, thState := .th2
      prk := prk2e, prkState := .prk2e
      status := .aborted, errorCode := .unspecified, message := .msg2, role := .responder } := by
    rw [c5, C4]
  have C9 : s9.ctx = { s.ctx with
      dhPriv := priv, dhPub := pub, dhSecret := gxy, th := th2, thState := .th2
      prk := prk2e, prkState := .prk2e, ead := ts
      status := .aborted, errorCode := .unspecified, message := .msg2, role := .responder } := by
    rw [c9, c8, c6, C5]
  have C10 : s10.ctx = { s.ctx with
      dhPriv := priv, dhPub := pub, dhSecret := gxy, th := th2, thState := .th2
      prk := prk3, prkState := .prk3e2m, ead := ts
      status := .aborted, errorCode := .unspecified, message := .msg2, role := .responder } := by
    rw [c10, C9]; simp
  have C11 : s11.ctx = s10.ctx := c11
  have C12 : s12.ctx = s10.ctx := c12.trans C11
  have C13 : s13.ctx = s10.ctx := c13.trans C12
  have C14 : s14.ctx = s10.ctx := c14.trans C13
  have C15 : s15.ctx = s10.ctx := c15.trans C14
  have C17 : s17.ctx = s10.ctx := c17.trans (c16.trans C15)
  have C18 : s18.ctx = s10.ctx := c18.trans C17
  -- growth
  have G1 := g1
  have G2 := G1.trans w2.grow
  have G3 := G2.trans w3.grow
  have G4 := G3.trans w4.grow
  have G5 := G4.trans w5.grow
  have G6 := G5.trans g6
  have G8 := G6.trans (saw_ext l8).grow
  have G9 := G8.trans g9
  have G10 := G9.trans g10
  have G11 := G10.trans g11
  have G12 := G11.trans g12
  have G13 := G12.trans w13.grow
  have G14 := G13.trans g14
  have G15 := G14.trans g15
  have G16 := G15.trans g16
  have G17 := G16.trans g17
  have G18 := G17.trans w18.grow
  have G19 := G18.trans w19.grow
  have H19 := g20.trans g21
  have H18 := w19.grow.trans H19
  have H17 := w18.grow.trans H18
  have H16 := g17.trans H17
  have H15 := g16.trans H16
  have H14 := g15.trans H15
  have H13 := g14.trans H14
  have H12 := w13.grow.trans H13
  have H11 := g12.trans H12
  have H10 := g11.trans H11
  have H9 := g10.trans H10
  have H8 := g9.trans H9
  have H6 := (saw_ext l8).grow.trans H8
  have H5 := g6.trans H6
  have H4 := w5.grow.trans H5
  have H3 := w4.grow.trans H4
  have H2 := w3.grow.trans H3
  rw [C11, C10] at h12
  obtain ⟨hml, hmeth⟩ := macLength2 rfl h12
  refine ⟨priv, pub, f.2, ⟨gxy, th2, prk2e, prk3, f.1, ts, mac, sig, ptxt, ks, t3⟩, ?_⟩
  constructor
  case size0 => simpa using h0
  case state => exact e1
  case method => exact hmeth
  case grow => exact G19.trans H19
  case keyPair => exact ⟨kk, w2.mid G1 H2⟩
  case privLen => rw [hp1, c1]; rfl
  case pubLen => rw [hp2, c1]; rfl
  case agreed => rw [C2] at w3; exact ⟨ka, w3.mid G2 H3⟩
  case th2 => rw [C3] at w4; exact w4.mid G3 H4
  case th2Len => rw [lt2, C3]; rfl
  case hashMax => rw [C3] at x2; exact x2
  case prk2e => rw [C4] at w5; exact ⟨ke, w5.mid G4 H5⟩
  case prk2eLen => rw [lp2, C4]; rfl
  case fetch => exact (saw_ext l8).mid G6 H8
  case ead =>
    rw [c8, c6, C5] at w9
    obtain ⟨a, b, d⟩ | ⟨a, b, _⟩ := w9
    · exact Or.inl ⟨a, b, (saw_ext d).mid G8 H9⟩
    · exact Or.inr ⟨a, b⟩
  case prk3e2m =>
    rw [C9] at w10
    refine NextPrk.mid (A := AgreedStatic f.2 s.ctx.dhPeerPub) G9 ?_ H10 (fun d hd => hd.mid G9 H10)
    exact w10
  case mac =>
    rw [C12, C10] at w13
    rw [hm.buf2 (by rw [C10]), C10] at w13
    refine Expanded.mid G12 ⟨?_, km, ?_⟩ H13
    · rw [lmac, hml]; rfl
    · rw [hml] at w13; exact w13
  case sig =>
    rw [C14, C10] at w15
    obtain ⟨a, b⟩ | ⟨a, b⟩ := w15
    · refine Or.inl ⟨(usesSign2 rfl a).1, ?_⟩
      rw [hm.sig, C10] at b
      exact b.mid G14 H15
    · exact Or.inr ⟨(usesSign2 rfl a).1, b⟩
  case ptxt =>
    obtain ⟨k, hk1, hk2⟩ := hm.idWire
    rw [C11] at hpt
    refine ⟨_, ⟨k, hk1, rfl⟩, ?_⟩
    rw [hpt, hk2, hm.ead, C10]
  case ks =>
    rw [C17, C10, C5] at w18
    exact Expanded.mid G17 ⟨lks, kks, w18⟩ H18
  case th3 =>
    rw [C18, C10, hm.cred] at w19
    exact w19.mid G18 H19
  case h3Len => rw [C18, C10] at lt3; exact lt3
  case out => rw [c19, C18, C10]
  case fits => exact hfit
  case ctx => rw [c21, c20, c19, C18, C10]; rfl

theorem parsePtxt2_st {ptxt : Bytes} {r : Cred × Bytes} (h : parsePtxt2 cfg ptxt s = (.ok r, s')) :
    ∃ ci p, getPtxt2 cfg.dec ptxt = some (ci, p) ∧ credOfIdCred cfg credOfMap2 p.idCred = .ok r.1 ∧
      r.2 = p.sig ∧ s'.ctx = { s.ctx with
        peerCid := ci, ead := if p.ead.isEmpty then s.ctx.ead else p.ead } ∧ CidFits cfg ci ∧
      s'.log = s.log := by
  have h' := h
  simp only [parsePtxt2, bind_ok, require_ok, ofOption_ok, ofRes_ok, pure_ok] at h'
  obtain ⟨_, _, ⟨_, rfl⟩, p, _, ⟨h1, rfl⟩, _, s1, h2, _⟩ := h'
  obtain ⟨ci, q, a, b, c, rfl⟩ := parsePtxt2_ok h
  rw [h1] at a
  simp only [Option.some.injEq] at a
  subst a
  exact ⟨_, _, h1, b, c, rfl, (storePeerCid_ok h2).2, rfl⟩

theorem parsePtxt3_st {ptxt : Bytes} {r : Cred × Bytes} (h : parsePtxt3 cfg ptxt s = (.ok r, s')) :
    ∃ p, getPtxt3 cfg.dec ptxt = some p ∧ credOfIdCred cfg credOfMap3 p.idCred = .ok r.1 ∧
      r.2 = p.sig ∧ s'.ctx = { s.ctx with ead := if p.ead.isEmpty then s.ctx.ead else p.ead } ∧
      s'.log = s.log := by
  obtain ⟨p, a, b, c, rfl⟩ := parsePtxt3_ok h
  exact ⟨p, a, b, c, rfl, rfl⟩

/-! ## message_2 process -/

/-- `edhoc_message_2_process` succeeded: `gy`, `ctxt` are the parts of the message, `cid` is the C_R in the
plaintext, `id` the received ID_CRED_R, `pk` the public key of the Responder. -/
structure Processed2 (cfg : Config) (s s' : St σ) (msg gy ctxt : Bytes) (cid : Cid) (p : Ptxt) (id : Cred)
    (pk : Bytes) (v : Vals2) : Prop where
  nonempty : msg ≠ []
  state : okWaitM2 s.ctx = true
  method : s.ctx.chosenMethod ≤ 3
  grow : Grow s s'
  parsed : getMsgBstr cfg.dec msg = some (gy ++ ctxt)
  gyLen : gy.length = s.ctx.suite.eccKey
  ctxt0 : ctxt ≠ []
  agreed : AgreedRaw s.ctx.dhPriv gy v.gxy s s'
  th2 : Hashed (encBstr gy ++ encBstr s.ctx.th) v.th2 s s'
  th2Len : v.th2.length = s.ctx.suite.hash
  hashMax : s.ctx.suite.hash ≤ cfg.maxMac
  prk2e : Extracted v.th2 v.gxy v.prk2e s s'
  prk2eLen : v.prk2e.length = s.ctx.suite.hash
  ks : Expanded v.prk2e 0 v.th2 ctxt.length v.ks s s'
  ptxt : v.ptxt = xorBytes ctxt v.ks
  decoded : getPtxt2 cfg.dec v.ptxt = some (cid, p)
  cidFits : CidFits cfg cid
  idCred : credOfIdCred cfg credOfMap2 p.idCred = .ok id
  sigEq : v.sig = p.sig
  eadEq : v.ead = if p.ead.isEmpty then s.ctx.ead else p.ead
  ead : ProcessedEad cfg s.ctx .msg2 v.ead s s'
  verified : Saw [.credVerify id (some (v.cred, some pk))] s s'
  pk0 : pk ≠ []
  prk3e2m : NextPrk 1 (Spec.responderSigns s.ctx.chosenMethod) v.prk2e v.th2 s.ctx.suite.hash
    (AgreedRaw s.ctx.dhPriv pk) v.prk3e2m s s'
  mac : Expanded v.prk3e2m 2 (Spec.context2 cid v.cred v.th2 v.ead)
    (macLenOf (Spec.responderSigns s.ctx.chosenMethod) s.ctx.suite) v.mac s s'
  auth : Authenticated (Spec.responderSigns s.ctx.chosenMethod) pk v.cred v.th2 v.ead v.mac v.sig s s'
  th3 : Hashed (encBstr v.th2 ++ v.ptxt ++ Spec.cred v.cred) v.h3 s s'
  h3Len : v.h3.length ≤ s.ctx.suite.hash
  ctx : s'.ctx = { s.ctx with
    dhPriv := if Spec.responderSigns s.ctx.chosenMethod then s.ctx.dhPriv else []
    dhPeerPub := gy, dhSecret := v.gxy, peerCid := cid
    th := overlay s.ctx.suite.hash v.h3 v.th2, thState := .th3
    prk := v.prk3e2m, prkState := .prk3e2m, ead := []
    status := .verifiedM2, errorCode := .success, message := .msg2, role := .initiator }

theorem message2Process_ok {msg : Bytes} {u : Unit} (h : message2Process E cfg msg s = (.ok u, s')) :
    ∃ gy ctxt cid p id pk v, Processed2 cfg s s' msg gy ctxt cid p id pk v := by
  unfold message2Process at h
  obtain ⟨_, _, h0', h⟩ := bind_ok.1 h
  obtain ⟨h0, rfl⟩ := require_ok.1 h0'
  obtain ⟨_, s1, h1, h⟩ := bind_ok.1 h
  obtain ⟨e1, c1, l1⟩ := enter_st h1
  have g1 : Grow s s1 := grow_of_log l1
  obtain ⟨ctxt, s2, h2, h⟩ := bind_ok.1 h
  obtain ⟨b, hb, hbl, hctxt, g2, c2⟩ := parseMsg2_ok h2
  obtain ⟨_, s3, h3, h⟩ := bind_ok.1 h
  obtain ⟨gxy, ka, c3, _, w3⟩ := compDhSecret_ok (mapErr_ok.1 h3)
  obtain ⟨_, s4, h4, h⟩ := bind_ok.1 h
  obtain ⟨_, th2, c4, lt2, x2, _, _, w4⟩ := compTh2_ok (mapErr_ok.1 h4)
  obtain ⟨_, s5, h5, h⟩ := bind_ok.1 h
  obtain ⟨_, _, prk2e, ke, c5, lp2, w5⟩ := compPrk2e_ok (mapErr_ok.1 h5)
  obtain ⟨_, s6, h6, h⟩ := bind_ok.1 h
  obtain ⟨c6, g6⟩ := memAlloc_ok h6
  obtain ⟨_, _, hc, h⟩ := bind_ok.1 h
  obtain ⟨rfl, rfl⟩ := getCtx_ok.1 hc
  obtain ⟨ks, s7, h7, h⟩ := bind_ok.1 h
  obtain ⟨_, hct0, c7, lks, kks, w7⟩ := compKeystream_ok (mapErr_ok.1 h7)
  obtain ⟨p', s8, h8, h⟩ := bind_ok.1 h
  obtain ⟨cid, p, hdec, hid, hsig, c8, hfits, l8⟩ := parsePtxt2_st (mapErr_ok.1 h8)
  obtain ⟨_, s9, h9, h⟩ := bind_ok.1 h
  obtain ⟨c9, w9⟩ := eadProcess_ok h9
  have g9 := eadProcess_grow h9
  obtain ⟨vr, s10, h10, h⟩ := bind_ok.1 h
  obtain ⟨c10, l10⟩ := verifyCred_ok h10
  obtain ⟨_, s11, h11, h⟩ := bind_ok.1 h
  obtain ⟨g11, prk3, w11, c11⟩ := prk3e2m_next (mapErr_ok.1 h11)
  obtain ⟨m, s12, h12, h⟩ := bind_ok.1 h
  obtain ⟨c12, g12, n, _, hmac⟩ := buildMacCtx_ok h12
  have hm := macContext_ok hmac
  obtain ⟨_, _, hc, h⟩ := bind_ok.1 h
  obtain ⟨rfl, rfl⟩ := getCtx_ok.1 hc
  obtain ⟨macLen, _, h13', h⟩ := bind_ok.1 h
  obtain ⟨h13, rfl⟩ := ofRes_ok.1 h13'
  obtain ⟨_, s13, h14, h⟩ := bind_ok.1 h
  obtain ⟨c13, g13⟩ := memAlloc_ok h14
  obtain ⟨mac, s14, h15, h⟩ := bind_ok.1 h
  obtain ⟨_, _, c14, lmac, km, w14⟩ := compMac_ok h15
  obtain ⟨_, s15, h16, h⟩ := bind_ok.1 h
  obtain ⟨c15, g15, pk, hpk, hpk0, _, _, w15⟩ := verifySignOrMac_ok (mapErr_ok.1 h16)
  obtain ⟨_, s16, h17, h⟩ := bind_ok.1 h
  obtain ⟨_, _, t3, lt3, c16, w16⟩ := compTh3_ok (mapErr_ok.1 h17)
  obtain ⟨⟨c17, l17⟩, _⟩ := modCtx_st.1 h
  have g17 : Grow s16 s' := grow_of_log l17
  have g8 : Grow s7 s8 := grow_of_log l8
  -- contexts
  have hctx : s1.ctx.suite = s.ctx.suite := by rw [c1]; rfl
  rw [hctx] at hbl hctxt
  have C2 : s2.ctx = { s.ctx with
      dhPeerPub := b.take s.ctx.suite.eccKey
      status := .aborted, errorCode := .unspecified, message := .msg2, role := .initiator } := by
    rw [c2, c1]; rfl
  have C3 : s3.ctx = { s.ctx with
      dhPeerPub := b.take s.ctx.suite.eccKey, dhSecret := gxy
      status := .aborted, errorCode := .unspecified, message := .msg2, role := .initiator } := by
    rw [c3, C2]
  have C4 : s4.ctx = { s.ctx with
      dhPeerPub := b.take s.ctx.suite.eccKey, dhSecret := gxy, th := th2, thState := .th2
      status := .aborted, errorCode := .unspecified, message := .msg2, role := .initiator } := by
    rw [c4, C3]
  have C5 : s5.ctx = { s.ctx with
      dhPeerPub := b.take s.ctx.suite.eccKey, dhSecret := gxy, th := th2, thState := .th2
      prk := prk2e, prkState := .prk2e
      status := .aborted, errorCode := .unspecified, message := .msg2, role := .initiator } := by
    rw [c5, C4]
  have C8 : s8.ctx = { s.ctx with
      dhPeerPub := b.take s.ctx.suite.eccKey, dhSecret := gxy, th := th2, thState := .th2
      prk := prk2e, prkState := .prk2e, peerCid := cid
      ead := if p.ead.isEmpty then s.ctx.ead else p.ead
      status := .aborted, errorCode := .unspecified, message := .msg2, role := .initiator } := by
    rw [c8, c7, c6, C5]
  have C9 : s9.ctx = s8.ctx := c9
  have C10 : s10.ctx = s8.ctx := c10.trans C9
  have C11 : s11.ctx = { s.ctx with
      dhPriv := if Spec.responderSigns s.ctx.chosenMethod then s.ctx.dhPriv else []
      dhPeerPub := b.take s.ctx.suite.eccKey, dhSecret := gxy, th := th2, thState := .th2
      prk := prk3, prkState := .prk3e2m, peerCid := cid
      ead := if p.ead.isEmpty then s.ctx.ead else p.ead
      status := .aborted, errorCode := .unspecified, message := .msg2, role := .initiator } := by
    rw [c11, C10, C8]
    cases Spec.responderSigns s.ctx.chosenMethod <;> simp
  have C12 : s12.ctx = s11.ctx := c12
  have C13 : s13.ctx = s11.ctx := c13.trans C12
  have C14 : s14.ctx = s11.ctx := c14.trans C13
  have C15 : s15.ctx = s11.ctx := c15.trans C14
  -- growth
  have G1 := g1
  have G2 := G1.trans g2
  have G3 := G2.trans w3.grow
  have G4 := G3.trans w4.grow
  have G5 := G4.trans w5.grow
  have G6 := G5.trans g6
  have G7 := G6.trans w7.grow
  have G8 := G7.trans g8
  have G9 := G8.trans g9
  have G10 := G9.trans (saw_ext l10).grow
  have G11 := G10.trans g11
  have G12 := G11.trans g12
  have G13 := G12.trans g13
  have G14 := G13.trans w14.grow
  have G15 := G14.trans g15
  have G16 := G15.trans w16.grow
  have H16 := g17
  have H15 := w16.grow.trans H16
  have H14 := g15.trans H15
  have H13 := w14.grow.trans H14
  have H12 := g13.trans H13
  have H11 := g12.trans H12
  have H10 := g11.trans H11
  have H9 := (saw_ext l10).grow.trans H10
  have H8 := g9.trans H9
  have H7 := g8.trans H8
  have H6 := w7.grow.trans H7
  have H5 := g6.trans H6
  have H4 := w5.grow.trans H5
  have H3 := w4.grow.trans H4
  rw [C12, C11] at h13
  obtain ⟨hml, hmeth⟩ := macLength2 rfl h13
  refine ⟨b.take s.ctx.suite.eccKey, ctxt, cid, p, p'.1, pk,
    ⟨gxy, th2, prk2e, prk3, vr.1, if p.ead.isEmpty then s.ctx.ead else p.ead, mac, p'.2, xorBytes ctxt ks, ks, t3⟩, ?_⟩
  constructor
  case nonempty => intro hn; subst hn; simp at h0
  case state => exact e1
  case method => exact hmeth
  case grow => exact G16.trans H16
  case parsed => rw [hb, hctxt, List.take_append_drop]
  case gyLen => rw [List.length_take]; omega
  case ctxt0 => intro hn; subst hn; simp at hct0
  case agreed => rw [C2] at w3; exact ⟨ka, w3.mid G2 H3⟩
  case th2 => rw [C3] at w4; exact w4.mid G3 H4
  case th2Len => rw [lt2, C3]; rfl
  case hashMax => rw [C3] at x2; exact x2
  case prk2e => rw [C4] at w5; exact ⟨ke, w5.mid G4 H5⟩
  case prk2eLen => rw [lp2, C4]; rfl
  case ks =>
    rw [c6, C5] at w7
    exact Expanded.mid G6 ⟨lks, kks, w7⟩ H7
  case ptxt => rfl
  case decoded => exact hdec
  case cidFits => exact hfits
  case idCred => exact hid
  case sigEq => exact hsig
  case eadEq => rfl
  case ead =>
    rw [C8] at w9
    intro a b
    obtain ⟨_, _, d⟩ | ⟨x | x, _⟩ := w9
    · exact (saw_ext d).mid G8 H9
    · rw [show processesEad cfg s.ctx = false from x] at a; simp at a
    · exact absurd x b
  case verified =>
    have : vr = (vr.1, some pk) := by rw [← hpk]
    rw [this] at l10
    exact (saw_ext l10).mid G9 H10
  case pk0 => exact hpk0
  case prk3e2m =>
    rw [C10, C8, hpk] at w11
    refine NextPrk.mid (A := AgreedRaw s.ctx.dhPriv pk) G10 ?_ H11 (fun d hd => hd.mid G10 H11)
    exact w11
  case mac =>
    rw [C13, C11] at w14
    rw [hm.buf2 (by rw [C11]), C11] at w14
    refine Expanded.mid G13 ⟨?_, km, ?_⟩ H14
    · rw [lmac, hml]; rfl
    · rw [hml] at w14; exact w14
  case auth =>
    rw [C14, C11] at w15
    obtain ⟨a, k, b⟩ | ⟨a, b⟩ := w15
    · refine Or.inl ⟨(usesSign2 rfl a).1, k, ?_⟩
      rw [hm.sig, C11] at b
      exact b.mid G14 H15
    · exact Or.inr ⟨(usesSign2 rfl a).1, b⟩
  case th3 =>
    rw [C15, C11, hm.cred] at w16
    exact w16.mid G15 H16
  case h3Len => rw [C15, C11] at lt3; exact lt3
  case ctx => rw [c17, c16, C15, C11]; rfl

end msgs

end Verif
