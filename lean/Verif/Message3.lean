import Verif.Message2

/-!
# What a successful message_3 or message_4 call did
-/

namespace Verif

open M

variable {σ : Type}

section msgs

variable {E : Env σ} {cfg : Config} {s s' : St σ}

theorem KeyIvAad.keys {a b : Nat} {c : Ctx} {k iv aad : Bytes} (h : KeyIvAad a b c k iv aad s s') :
    AeadKeys a b c.prk c.th c.suite k iv s s' ∧ aad = Spec.encStructure c.th := by
  obtain ⟨h1, h2, h3, k1, k2, h4, h5⟩ := h
  exact ⟨⟨⟨h1, k1, h4⟩, ⟨h2, k2, h5⟩⟩, by rw [h3, encEncStructure_spec]⟩

/-! ## message_3 compose -/

/-- the values of a run of message 3 -/
structure Vals3 where
  k3 : Bytes
  iv3 : Bytes
  prk4e3m : Bytes
  cred : Cred
  ead : List EadTok
  mac : Bytes
  sig : Bytes
  ptxt : Bytes
  ctxt : Bytes
  th4 : Bytes

/-- `edhoc_message_3_compose` succeeded. `kid`: the application's private authentication key. -/
structure Composed3 (cfg : Config) (s s' : St σ) (size : Nat) (kid : Bytes) (v : Vals3) (msg : Bytes) :
    Prop where
  size0 : size ≠ 0
  state : okVerifiedM2 s.ctx = true
  method : s.ctx.chosenMethod ≤ 3
  grow : Grow s s'
  ead : ComposedEad cfg s.ctx .msg3 v.ead s s'
  fetch : Saw [.credFetch (some (v.cred, kid))] s s'
  keys : AeadKeys 3 4 s.ctx.prk s.ctx.th s.ctx.suite v.k3 v.iv3 s s'
  prk4e3m : NextPrk 5 (Spec.initiatorSigns s.ctx.chosenMethod) s.ctx.prk s.ctx.th s.ctx.suite.hash
    (AgreedStatic kid s.ctx.dhPeerPub) v.prk4e3m s s'
  mac : Expanded v.prk4e3m 6 (Spec.context3 v.cred s.ctx.th v.ead)
    (macLenOf (Spec.initiatorSigns s.ctx.chosenMethod) s.ctx.suite) v.mac s s'
  sig : Signed (Spec.initiatorSigns s.ctx.chosenMethod) kid v.cred s.ctx.th v.ead v.mac v.sig s s'
  ptxt : PtxtTail cfg v.cred v.sig v.ead v.ptxt
  encrypted : Encrypted v.k3 v.iv3 (Spec.encStructure s.ctx.th) v.ptxt v.ctxt s s'
  ctxtLen : v.ctxt.length ≤ v.ptxt.length + s.ctx.suite.aeadTag
  ctxt0 : v.ctxt ≠ []
  th4 : Hashed (encBstr s.ctx.th ++ v.ptxt ++ Spec.cred v.cred) v.th4 s s'
  th4Len : v.th4.length = s.ctx.suite.hash
  hashMax : s.ctx.suite.hash ≤ cfg.maxMac
  out : msg = encBstr v.ctxt
  fits : msg.length ≤ size
  ctx : s'.ctx = { s.ctx with
    th := v.th4, thState := .th4, prk := v.prk4e3m, prkState := .prk4e3m, ead := []
    oscoreAllowed := true
    status := .completed, errorCode := .success, message := .msg3, role := .initiator }

theorem message3Compose_ok {size : Nat} {msg : Bytes} (h : message3Compose E cfg size s = (.ok msg, s')) :
    ∃ kid v, Composed3 cfg s s' size kid v msg := by
  unfold message3Compose at h
  obtain ⟨_, _, h0', h⟩ := bind_ok.1 h
  obtain ⟨h0, rfl⟩ := require_ok.1 h0'
  obtain ⟨_, s1, h1, h⟩ := bind_ok.1 h
  obtain ⟨e1, c1, l1⟩ := enter_st h1
  have g1 : Grow s s1 := grow_of_log l1
  obtain ⟨_, s2, h2, h⟩ := bind_ok.1 h
  obtain ⟨ts, c2, w2⟩ := eadCompose_ok h2
  have g2 := eadCompose_grow h2
  obtain ⟨f', s3, h3, h⟩ := bind_ok.1 h
  obtain ⟨f, s4, h4, h⟩ := bind_ok.1 h
  obtain ⟨c4, l4⟩ := fetch_ok h3 h4
  obtain ⟨kia, s5, h5, h⟩ := bind_ok.1 h
  obtain ⟨c5, g5, w5⟩ := keyIvAad3_ok h5
  obtain ⟨w5, haad⟩ := w5.keys
  obtain ⟨_, s6, h6, h⟩ := bind_ok.1 h
  obtain ⟨g6, prk4, w6, c6⟩ := prk4e3m_next (mapErr_ok.1 h6)
  obtain ⟨m, s7, h7, h⟩ := bind_ok.1 h
  obtain ⟨c7, g7, n, _, hmac⟩ := buildMacCtx_ok h7
  have hm := macContext_ok hmac
  obtain ⟨_, _, hc, h⟩ := bind_ok.1 h
  obtain ⟨rfl, rfl⟩ := getCtx_ok.1 hc
  obtain ⟨macLen, _, h8', h⟩ := bind_ok.1 h
  obtain ⟨h8, rfl⟩ := ofRes_ok.1 h8'
  obtain ⟨_, s9, h9, h⟩ := bind_ok.1 h
  obtain ⟨c9, g9⟩ := memAlloc_ok h9
  obtain ⟨mac, s10, h10, h⟩ := bind_ok.1 h
  obtain ⟨_, _, c10, lmac, km, w10⟩ := compMac_ok (mapErr_ok.1 h10)
  obtain ⟨sLen, _, h11', h⟩ := bind_ok.1 h
  obtain ⟨h11, rfl⟩ := ofRes_ok.1 h11'
  obtain ⟨_, s12, h12, h⟩ := bind_ok.1 h
  obtain ⟨c12, g12⟩ := memAlloc_ok h12
  obtain ⟨sig, s13, h13, h⟩ := bind_ok.1 h
  obtain ⟨_, c13, g13, _, w13⟩ := compSignOrMac_ok h13
  obtain ⟨pLen, _, h14', h⟩ := bind_ok.1 h
  obtain ⟨h14, rfl⟩ := ofRes_ok.1 h14'
  obtain ⟨_, s15, h15, h⟩ := bind_ok.1 h
  obtain ⟨c15, g15⟩ := memAlloc_ok h15
  obtain ⟨ptxt, _, h16', h⟩ := bind_ok.1 h
  obtain ⟨h16, rfl⟩ := ofRes_ok.1 h16'
  obtain ⟨hpt, _⟩ := preparePtxt3_ok (Res.mapErr_ok.1 h16)
  obtain ⟨_, s17, h17, h⟩ := bind_ok.1 h
  obtain ⟨c17, g17⟩ := memAlloc_ok h17
  obtain ⟨ct, s18, h18, h⟩ := bind_ok.1 h
  obtain ⟨c18, lct, kct, w18⟩ := aeadEncrypt_ok (mapErr_ok.1 h18)
  obtain ⟨_, s19, h19, h⟩ := bind_ok.1 h
  obtain ⟨_, _, t4, lt4, x4, c19, w19⟩ := compTh4_ok (mapErr_ok.1 h19)
  obtain ⟨out, s20, h20, h⟩ := bind_ok.1 h
  obtain ⟨rfl, rfl, hfit, hct0⟩ := genMsg3_ok (mapErr_ok.1 h20)
  obtain ⟨_, s21, h21, h⟩ := bind_ok.1 h
  obtain ⟨⟨c21, l21⟩, _⟩ := modCtx_st.1 h21
  obtain ⟨rfl, rfl⟩ := pure_ok.1 h
  -- contexts
  have C4 : s4.ctx = { s.ctx with
      ead := ts
      status := .aborted, errorCode := .unspecified, message := .msg3, role := .initiator } := by
    rw [c4, c2, c1]
  have C5 : s5.ctx = s4.ctx := c5
  have C6 : s6.ctx = { s.ctx with
      ead := ts, prk := prk4, prkState := .prk4e3m
      status := .aborted, errorCode := .unspecified, message := .msg3, role := .initiator } := by
    rw [c6, C5, C4]; simp
  have C7 : s7.ctx = s6.ctx := c7
  have C9 : s9.ctx = s6.ctx := c9.trans C7
  have C12 : s12.ctx = s6.ctx := c12.trans (c10.trans C9)
  have C18 : s18.ctx = s6.ctx := c18.trans (c17.trans (c15.trans (c13.trans C12)))
  -- growth
  have G1 := g1
  have G2 := G1.trans g2
  have G4 := G2.trans (saw_ext l4).grow
  have G5 := G4.trans g5
  have G6 := G5.trans g6
  have G7 := G6.trans g7
  have G9 := G7.trans g9
  have G10 := G9.trans w10.grow
  have G12 := G10.trans g12
  have G13 := G12.trans g13
  have G15 := G13.trans g15
  have G17 := G15.trans g17
  have G18 := G17.trans w18.grow
  have G19 := G18.trans w19.grow
  have H19 : Grow s20 s21 := grow_of_log l21
  have H18 := w19.grow.trans H19
  have H17 := w18.grow.trans H18
  have H15 := g17.trans H17
  have H13 := g15.trans H15
  have H12 := g13.trans H13
  have H10 := g12.trans H12
  have H9 := w10.grow.trans H10
  have H7 := g9.trans H9
  have H6 := g7.trans H7
  have H5 := g6.trans H6
  have H4 := g5.trans H5
  have H2 := (saw_ext l4).grow.trans H4
  rw [C7, C6] at h8
  obtain ⟨hml, hmeth⟩ := macLength3 rfl (Res.mapErr_ok.1 h8)
  refine ⟨f.2, ⟨kia.1, kia.2.1, prk4, f.1, ts, mac, sig, ptxt, ct, t4⟩, ?_⟩
  constructor
  case size0 => simpa using h0
  case state => exact e1
  case method => exact hmeth
  case grow => exact G19.trans H19
  case ead =>
    rw [c1] at w2
    obtain ⟨a, b, d⟩ | ⟨a, b, _⟩ := w2
    · exact Or.inl ⟨a, b, (saw_ext d).mid G1 H2⟩
    · exact Or.inr ⟨a, b⟩
  case fetch => exact (saw_ext l4).mid G2 H4
  case keys => rw [C4] at w5; exact w5.mid G4 H5
  case prk4e3m =>
    rw [C5, C4] at w6
    refine NextPrk.mid (A := AgreedStatic f.2 s.ctx.dhPeerPub) G5 ?_ H6 (fun d hd => hd.mid G5 H6)
    exact w6
  case mac =>
    rw [C9, C6] at w10
    rw [hm.buf3 (by rw [C6]), C6] at w10
    refine Expanded.mid G9 ⟨?_, km, ?_⟩ H10
    · rw [lmac, hml]; rfl
    · rw [hml] at w10; exact w10
  case sig =>
    rw [C12, C6] at w13
    obtain ⟨a, b⟩ | ⟨a, b⟩ := w13
    · refine Or.inl ⟨(usesSign3 rfl a).1, ?_⟩
      rw [hm.sig, C6] at b
      exact b.mid G12 H13
    · exact Or.inr ⟨(usesSign3 rfl a).1, b⟩
  case ptxt =>
    obtain ⟨k, hk1, hk2⟩ := hm.idWire
    refine ⟨k, hk1, ?_⟩
    rw [hpt, hk2, hm.ead, C6]
  case encrypted =>
    rw [haad, C4] at w18
    exact Encrypted.mid G17 ⟨kct, w18⟩ H18
  case ctxtLen => rw [C7, C6] at lct; exact lct
  case ctxt0 => exact hct0
  case th4 =>
    rw [C18, C6, hm.cred] at w19
    exact w19.mid G18 H19
  case th4Len => rw [lt4, C18, C6]; rfl
  case hashMax => rw [C18, C6] at x4; exact x4
  case out => rfl
  case fits => exact hfit
  case ctx => rw [c21, c19, C18, C6]

/-! ## message_3 process -/

/-- `edhoc_message_3_process` succeeded: `id` is the received ID_CRED_I, `pk` the Initiator's public key. -/
structure Processed3 (cfg : Config) (s s' : St σ) (msg : Bytes) (p : Ptxt) (id : Cred) (pk : Bytes)
    (v : Vals3) : Prop where
  nonempty : msg ≠ []
  state : okWaitM3 s.ctx = true
  method : s.ctx.chosenMethod ≤ 3
  grow : Grow s s'
  parsed : getMsgBstr cfg.dec msg = some v.ctxt
  keys : AeadKeys 3 4 s.ctx.prk s.ctx.th s.ctx.suite v.k3 v.iv3 s s'
  decrypted : Decrypted v.k3 v.iv3 (Spec.encStructure s.ctx.th) v.ctxt v.ptxt s s'
  ptxtLen : v.ptxt.length = subSize v.ctxt.length s.ctx.suite.aeadTag
  decoded : getPtxt3 cfg.dec v.ptxt = some p
  idCred : credOfIdCred cfg credOfMap3 p.idCred = .ok id
  sigEq : v.sig = p.sig
  eadEq : v.ead = if p.ead.isEmpty then s.ctx.ead else p.ead
  ead : ProcessedEad cfg s.ctx .msg3 v.ead s s'
  verified : Saw [.credVerify id (some (v.cred, some pk))] s s'
  pk0 : pk ≠ []
  prk4e3m : NextPrk 5 (Spec.initiatorSigns s.ctx.chosenMethod) s.ctx.prk s.ctx.th s.ctx.suite.hash
    (AgreedRaw s.ctx.dhPriv pk) v.prk4e3m s s'
  mac : Expanded v.prk4e3m 6 (Spec.context3 v.cred s.ctx.th v.ead)
    (macLenOf (Spec.initiatorSigns s.ctx.chosenMethod) s.ctx.suite) v.mac s s'
  auth : Authenticated (Spec.initiatorSigns s.ctx.chosenMethod) pk v.cred s.ctx.th v.ead v.mac v.sig s s'
  th4 : Hashed (encBstr s.ctx.th ++ v.ptxt ++ Spec.cred v.cred) v.th4 s s'
  th4Len : v.th4.length = s.ctx.suite.hash
  hashMax : s.ctx.suite.hash ≤ cfg.maxMac
  ctx : s'.ctx = { s.ctx with
    dhPriv := if Spec.initiatorSigns s.ctx.chosenMethod then s.ctx.dhPriv else []
    th := v.th4, thState := .th4, prk := v.prk4e3m, prkState := .prk4e3m, ead := []
    oscoreAllowed := true
    status := .completed, errorCode := .success, message := .msg3, role := .responder }

theorem message3Process_ok {msg : Bytes} {u : Unit} (h : message3Process E cfg msg s = (.ok u, s')) :
    ∃ p id pk v, Processed3 cfg s s' msg p id pk v := by
  unfold message3Process at h
  obtain ⟨_, _, h0', h⟩ := bind_ok.1 h
  obtain ⟨h0, rfl⟩ := require_ok.1 h0'
  obtain ⟨_, s1, h1, h⟩ := bind_ok.1 h
  obtain ⟨e1, c1, l1⟩ := enter_st h1
  have g1 : Grow s s1 := grow_of_log l1
  obtain ⟨ctxt, _, h2', h⟩ := bind_ok.1 h
  obtain ⟨h2, rfl⟩ := ofOption_ok.1 h2'
  obtain ⟨kia, s3, h3, h⟩ := bind_ok.1 h
  obtain ⟨c3, g3, w3⟩ := keyIvAad3_ok h3
  obtain ⟨w3, haad⟩ := w3.keys
  obtain ⟨_, _, hc, h⟩ := bind_ok.1 h
  obtain ⟨rfl, rfl⟩ := getCtx_ok.1 hc
  obtain ⟨_, s4, h4, h⟩ := bind_ok.1 h
  obtain ⟨c4, g4⟩ := memAlloc_ok h4
  obtain ⟨ptxt, s5, h5', h⟩ := bind_ok.1 h
  obtain ⟨_, _, h6', h5⟩ := bind_ok.1 (mapErr_ok.1 h5')
  obtain ⟨h6, rfl⟩ := require_ok.1 h6'
  obtain ⟨c5, lpt, kpt, w5⟩ := aeadDecrypt_ok h5
  obtain ⟨p', s8, h8, h⟩ := bind_ok.1 h
  obtain ⟨p, hdec, hid, hsig, c8, l8⟩ := parsePtxt3_st (mapErr_ok.1 h8)
  have g8 : Grow s5 s8 := grow_of_log l8
  obtain ⟨_, s9, h9, h⟩ := bind_ok.1 h
  obtain ⟨c9, w9⟩ := eadProcess_ok h9
  have g9 := eadProcess_grow h9
  obtain ⟨vr, s10, h10, h⟩ := bind_ok.1 h
  obtain ⟨c10, l10⟩ := verifyCred_ok h10
  obtain ⟨_, s11, h11, h⟩ := bind_ok.1 h
  obtain ⟨g11, prk4, w11, c11⟩ := prk4e3m_next (mapErr_ok.1 h11)
  obtain ⟨m, s12, h12, h⟩ := bind_ok.1 h
  obtain ⟨c12, g12, n, _, hmac⟩ := buildMacCtx_ok h12
  have hm := macContext_ok hmac
  obtain ⟨_, _, hc, h⟩ := bind_ok.1 h
  obtain ⟨rfl, rfl⟩ := getCtx_ok.1 hc
  obtain ⟨macLen, _, h13', h⟩ := bind_ok.1 h
  obtain ⟨h13, rfl⟩ := ofRes_ok.1 h13'
  obtain ⟨_, s13, h14, h⟩ := bind_ok.1 h
  obtain ⟨c13, g13⟩ := memAlloc_ok h14
  obtain ⟨mac, s14, h15, h⟩ := bind_ok.1 h
  obtain ⟨_, _, c14, lmac, km, w14⟩ := compMac_ok (mapErr_ok.1 h15)
  obtain ⟨_, s15, h16, h⟩ := bind_ok.1 h
  obtain ⟨c15, g15, pk, hpk, hpk0, _, _, w15⟩ := verifySignOrMac_ok (mapErr_ok.1 h16)
  obtain ⟨_, s16, h17, h⟩ := bind_ok.1 h
  obtain ⟨_, _, t4, lt4, x4, c16, w16⟩ := compTh4_ok (mapErr_ok.1 h17)
  obtain ⟨⟨c17, l17⟩, _⟩ := modCtx_st.1 h
  -- contexts
  have C3 : s3.ctx = s1.ctx := c3
  have C8 : s8.ctx = { s.ctx with
      ead := if p.ead.isEmpty then s.ctx.ead else p.ead
      status := .aborted, errorCode := .unspecified, message := .msg3, role := .responder } := by
    rw [c8, c5, c4, c3, c1]
  have C9 : s9.ctx = s8.ctx := c9
  have C10 : s10.ctx = s8.ctx := c10.trans C9
  have C11 : s11.ctx = { s.ctx with
      dhPriv := if Spec.initiatorSigns s.ctx.chosenMethod then s.ctx.dhPriv else []
      prk := prk4, prkState := .prk4e3m
      ead := if p.ead.isEmpty then s.ctx.ead else p.ead
      status := .aborted, errorCode := .unspecified, message := .msg3, role := .responder } := by
    rw [c11, C10, C8]
    cases Spec.initiatorSigns s.ctx.chosenMethod <;> simp
  have C12 : s12.ctx = s11.ctx := c12
  have C13 : s13.ctx = s11.ctx := c13.trans C12
  have C14 : s14.ctx = s11.ctx := c14.trans C13
  have C15 : s15.ctx = s11.ctx := c15.trans C14
  -- growth
  have G1 := g1
  have G3 := G1.trans g3
  have G4 := G3.trans g4
  have G5 := G4.trans w5.grow
  have G8 := G5.trans g8
  have G9 := G8.trans g9
  have G10 := G9.trans (saw_ext l10).grow
  have G11 := G10.trans g11
  have G12 := G11.trans g12
  have G13 := G12.trans g13
  have G14 := G13.trans w14.grow
  have G15 := G14.trans g15
  have G16 := G15.trans w16.grow
  have H16 : Grow s16 s' := grow_of_log l17
  have H15 := w16.grow.trans H16
  have H14 := g15.trans H15
  have H13 := w14.grow.trans H14
  have H12 := g13.trans H13
  have H11 := g12.trans H12
  have H10 := g11.trans H11
  have H9 := (saw_ext l10).grow.trans H10
  have H8 := g9.trans H9
  have H5 := g8.trans H8
  have H4 := w5.grow.trans H5
  have H3 := g4.trans H4
  rw [C12, C11] at h13
  obtain ⟨hml, hmeth⟩ := macLength3 rfl (Res.mapErr_ok.1 h13)
  refine ⟨p, p'.1, pk, ⟨kia.1, kia.2.1, prk4, vr.1, if p.ead.isEmpty then s.ctx.ead else p.ead, mac, p'.2, ptxt,
    ctxt, t4⟩, ?_⟩
  constructor
  case nonempty => intro hn; subst hn; simp at h0
  case state => exact e1
  case method => exact hmeth
  case grow => exact G16.trans H16
  case parsed => exact h2
  case keys => rw [c1] at w3; exact w3.mid G1 H3
  case decrypted =>
    rw [haad, c1] at w5
    exact Decrypted.mid G4 ⟨kpt, w5⟩ H5
  case ptxtLen => rw [lpt, c3, c1]; rfl
  case decoded => exact hdec
  case idCred => exact hid
  case sigEq => exact hsig
  case eadEq => rfl
  case ead =>
    rw [C8] at w9
    intro a b
    obtain ⟨_, _, d⟩ | ⟨x | x, _⟩ := w9
    · exact (saw_ext d).mid G8 H9
    · rw [show processesEad cfg s.ctx = false from x] at a; simp at a
    · exact absurd x b
  case verified =>
    have : vr = (vr.1, some pk) := by rw [← hpk]
    rw [this] at l10
    exact (saw_ext l10).mid G9 H10
  case pk0 => exact hpk0
  case prk4e3m =>
    rw [C10, C8, hpk] at w11
    refine NextPrk.mid (A := AgreedRaw s.ctx.dhPriv pk) G10 ?_ H11 (fun d hd => hd.mid G10 H11)
    exact w11
  case mac =>
    rw [C13, C11] at w14
    rw [hm.buf3 (by rw [C11]), C11] at w14
    refine Expanded.mid G13 ⟨?_, km, ?_⟩ H14
    · rw [lmac, hml]; rfl
    · rw [hml] at w14; exact w14
  case auth =>
    rw [C14, C11] at w15
    obtain ⟨a, k, b⟩ | ⟨a, b⟩ := w15
    · refine Or.inl ⟨(usesSign3 rfl a).1, k, ?_⟩
      rw [hm.sig, C11] at b
      exact b.mid G14 H15
    · exact Or.inr ⟨(usesSign3 rfl a).1, b⟩
  case th4 =>
    rw [C15, C11, hm.cred] at w16
    exact w16.mid G15 H16
  case th4Len => rw [lt4, C15, C11]; rfl
  case hashMax => rw [C15, C11] at x4; exact x4
  case ctx => rw [c17, c16, C15, C11]

/-! ## message_4 -/

/-- `edhoc_message_4_compose` succeeded. -/
structure Composed4 (cfg : Config) (s s' : St σ) (size : Nat) (ead : List EadTok) (k iv ptxt ctxt msg : Bytes) :
    Prop where
  size0 : size ≠ 0
  state : okCompleted s.ctx = true
  grow : Grow s s'
  composed : ComposedEad cfg s.ctx .msg4 ead s s'
  plain : ptxt = Spec.ead ead
  eadLen : ead.length ≤ 3
  keys : AeadKeys 8 9 s.ctx.prk s.ctx.th s.ctx.suite k iv s s'
  encrypted : Encrypted k iv (Spec.encStructure s.ctx.th) ptxt ctxt s s'
  ctxt0 : ctxt ≠ []
  out : msg = encBstr ctxt
  fits : msg.length ≤ size
  ctx : s'.ctx = { s.ctx with
    ead := [], status := .persisted, errorCode := .success, message := .msg4, role := .responder }

theorem message4Compose_ok {size : Nat} {msg : Bytes} (h : message4Compose E cfg size s = (.ok msg, s')) :
    ∃ ead k iv ptxt ctxt, Composed4 cfg s s' size ead k iv ptxt ctxt msg := by
  unfold message4Compose at h
  obtain ⟨_, _, h0', h⟩ := bind_ok.1 h
  obtain ⟨h0, rfl⟩ := require_ok.1 h0'
  obtain ⟨_, s1, h1, h⟩ := bind_ok.1 h
  obtain ⟨e1, c1, l1⟩ := enter_st h1
  have g1 : Grow s s1 := grow_of_log l1
  obtain ⟨_, s2, h2, h⟩ := bind_ok.1 h
  obtain ⟨ts, c2, w2⟩ := eadCompose_ok h2
  have g2 := eadCompose_grow h2
  obtain ⟨_, _, hc, h⟩ := bind_ok.1 h
  obtain ⟨rfl, rfl⟩ := getCtx_ok.1 hc
  obtain ⟨_, s3, h3, h⟩ := bind_ok.1 h
  obtain ⟨c3, g3⟩ := memAlloc_ok h3
  obtain ⟨ptxt, _, h4', h⟩ := bind_ok.1 h
  obtain ⟨h4, rfl⟩ := ofRes_ok.1 h4'
  have h4 := Res.mapErr_ok.1 h4
  simp only [preparePtxt4, Res.bind_ok, Res.require_ok, Res.ofOption_ok, Option.bind_eq_some_iff] at h4
  obtain ⟨_, hl3, x, hx, hp⟩ := h4
  obtain ⟨hp, _⟩ := fits_some hp
  obtain ⟨hx, hx3⟩ := encEadOpt_spec hx
  obtain ⟨kia, s5, h5, h⟩ := bind_ok.1 h
  obtain ⟨c5, g5, w5⟩ := keyIvAad4_ok h5
  obtain ⟨w5, haad⟩ := w5.keys
  obtain ⟨_, s6, h6, h⟩ := bind_ok.1 h
  obtain ⟨c6, g6⟩ := memAlloc_ok h6
  obtain ⟨ct, s7, h7, h⟩ := bind_ok.1 h
  obtain ⟨c7, lct, kct, w7⟩ := aeadEncrypt_ok (mapErr_ok.1 h7)
  obtain ⟨out, s8, h8, h⟩ := bind_ok.1 h
  obtain ⟨rfl, rfl, hfit, hct0⟩ := genMsg4_ok (mapErr_ok.1 h8)
  obtain ⟨_, s9, h9, h⟩ := bind_ok.1 h
  obtain ⟨⟨c9, l9⟩, _⟩ := modCtx_st.1 h9
  obtain ⟨rfl, rfl⟩ := pure_ok.1 h
  have C2 : s2.ctx = { s.ctx with
      ead := ts
      status := .aborted, errorCode := .unspecified, message := .msg4, role := .responder } := by
    rw [c2, c1]
  have C3 : s3.ctx = s2.ctx := c3
  have C7 : s8.ctx = s2.ctx := c7.trans (c6.trans (c5.trans C3))
  have G1 := g1
  have G2 := G1.trans g2
  have G3 := G2.trans g3
  have G5 := G3.trans g5
  have G6 := G5.trans g6
  have G7 := G6.trans w7.grow
  have H7 : Grow s8 s9 := grow_of_log l9
  have H6 := w7.grow.trans H7
  have H5 := g6.trans H6
  have H3 := g5.trans H5
  have H2 := g3.trans H3
  refine ⟨ts, kia.1, kia.2.1, ptxt, ct, ?_⟩
  constructor
  case size0 => simpa using h0
  case state => exact e1
  case grow => exact G7.trans H7
  case composed =>
    rw [c1] at w2
    obtain ⟨a, b, d⟩ | ⟨a, b, _⟩ := w2
    · exact Or.inl ⟨a, b, (saw_ext d).mid G1 H2⟩
    · exact Or.inr ⟨a, b⟩
  case plain => rw [hp, hx, C2]
  case eadLen => rw [C2] at hx3; exact hx3
  case keys => rw [C3, C2] at w5; exact w5.mid G3 H5
  case encrypted =>
    rw [haad, C3, C2] at w7
    exact Encrypted.mid G6 ⟨kct, w7⟩ H7
  case ctxt0 => exact hct0
  case out => rfl
  case fits => exact hfit
  case ctx => rw [c9, C7, C2]

/-- `edhoc_message_4_process` succeeded. -/
structure Processed4 (cfg : Config) (s s' : St σ) (msg k iv ctxt ptxt : Bytes) : Prop where
  nonempty : msg ≠ []
  state : okCompleted s.ctx = true
  grow : Grow s s'
  parsed : getMsgBstr cfg.dec msg = some ctxt
  keys : AeadKeys 8 9 s.ctx.prk s.ctx.th s.ctx.suite k iv s s'
  decrypted : Decrypted k iv (Spec.encStructure s.ctx.th) ctxt ptxt s s'
  ptxtLen : ptxt.length = subSize ctxt.length s.ctx.suite.aeadTag
  ead : ProcessedEad cfg s.ctx .msg4 (getPtxt4 cfg.dec ptxt) s s'
  ctx : s'.ctx = { s.ctx with
    ead := [], status := .persisted, errorCode := .success, message := .msg4, role := .initiator }

theorem message4Process_ok {msg : Bytes} {u : Unit} (h : message4Process E cfg msg s = (.ok u, s')) :
    ∃ k iv ctxt ptxt, Processed4 cfg s s' msg k iv ctxt ptxt := by
  unfold message4Process at h
  obtain ⟨_, _, h0', h⟩ := bind_ok.1 h
  obtain ⟨h0, rfl⟩ := require_ok.1 h0'
  obtain ⟨_, s1, h1, h⟩ := bind_ok.1 h
  obtain ⟨e1, c1, l1⟩ := enter_st h1
  have g1 : Grow s s1 := grow_of_log l1
  obtain ⟨ctxt, _, h2', h⟩ := bind_ok.1 h
  obtain ⟨h2, rfl⟩ := ofOption_ok.1 h2'
  obtain ⟨kia, s3, h3, h⟩ := bind_ok.1 h
  obtain ⟨c3, g3, w3⟩ := keyIvAad4_ok h3
  obtain ⟨w3, haad⟩ := w3.keys
  obtain ⟨_, _, hc, h⟩ := bind_ok.1 h
  obtain ⟨rfl, rfl⟩ := getCtx_ok.1 hc
  obtain ⟨_, s4, h4, h⟩ := bind_ok.1 h
  obtain ⟨c4, g4⟩ := memAlloc_ok h4
  obtain ⟨ptxt, s5, h5, h⟩ := bind_ok.1 h
  obtain ⟨c5, lpt, kpt, w5⟩ := aeadDecrypt_ok (mapErr_ok.1 h5)
  obtain ⟨_, s8, h8, h⟩ := bind_ok.1 h
  have h8' := parsePtxt4_ok (mapErr_ok.1 h8)
  have c8 := congrArg St.ctx h8'
  have l8 := congrArg St.log h8'
  simp only at c8 l8
  have g8 : Grow s5 s8 := grow_of_log l8
  obtain ⟨_, s9, h9, h⟩ := bind_ok.1 h
  obtain ⟨c9, w9⟩ := eadProcess_ok h9
  have g9 := eadProcess_grow h9
  obtain ⟨⟨c10, l10⟩, _⟩ := modCtx_st.1 h
  have C8 : s8.ctx = { s.ctx with
      ead := getPtxt4 cfg.dec ptxt
      status := .aborted, errorCode := .unspecified, message := .msg4, role := .initiator } := by
    rw [c8, c5, c4, c3, c1]
  have G1 := g1
  have G3 := G1.trans g3
  have G4 := G3.trans g4
  have G5 := G4.trans w5.grow
  have G8 := G5.trans g8
  have G9 := G8.trans g9
  have H9 : Grow s9 s' := grow_of_log l10
  have H8 := g9.trans H9
  have H5 := g8.trans H8
  have H4 := w5.grow.trans H5
  have H3 := g4.trans H4
  refine ⟨kia.1, kia.2.1, ctxt, ptxt, ?_⟩
  constructor
  case nonempty => intro hn; subst hn; simp at h0
  case state => exact e1
  case grow => exact G9.trans H9
  case parsed => exact h2
  case keys => rw [c1] at w3; exact w3.mid G1 H3
  case decrypted =>
    rw [haad, c1] at w5
    exact Decrypted.mid G4 ⟨kpt, w5⟩ H5
  case ptxtLen => rw [lpt, c3, c1]; rfl
  case ead =>
    rw [C8] at w9
    intro a b
    obtain ⟨_, _, d⟩ | ⟨x | x, _⟩ := w9
    · exact (saw_ext d).mid G8 H9
    · rw [show processesEad cfg s.ctx = false from x] at a; simp at a
    · exact absurd x b
  case ctx => rw [c10, c9, C8]

end msgs

end Verif
