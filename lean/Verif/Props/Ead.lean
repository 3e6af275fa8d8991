import Verif.Delivery
import Verif.Props.Mirror
import Verif.Props.Wire
import Verif.Props.Separation

/-!
# C27, C28: external authorization data

Vocabulary: the message grammar (`Verif/SpecCbor.lean`), callback calls (`Verif/SpecCalls.lean`), `performs`
(`Verif/SpecTrace.lean`).
-/

namespace Verif

open M Spec

variable {σ : Type} {E : Env σ} {cfg : Config}

/-! ## C27: delivery -/

theorem getMsg1_ead {d : DecCfg} {b : Bytes} (h : (getMsg1 d b).2.ead ≠ []) : (getMsg1 d b).1 = true := by
  unfold getMsg1 at h ⊢
  revert h
  cases getInt d b with
  | none => simp
  | some x =>
    rcases hs : getSuites d true x.2 with ⟨_ | y, l⟩
    · simp [hs]
    · cases hg : getBstr d y.2 with
      | none => simp [hs, hg]
      | some z => cases hc : getCid d z.2 <;> simp [hs, hg, hc]

theorem mapOut_defined {α : Type} {m : M σ α} {f : α → Out} {s s' : St σ} {r : Res Out} (h : M.mapOut f m s = (r, s'))
    (hd : r.Defined) : ∃ r0, m s = (r0, s') ∧ r0.Defined := by
  obtain ⟨r0, h1, h2⟩ := mapOut_cases h
  refine ⟨r0, h1, ?_⟩
  rcases h2 with ⟨a, rfl, _⟩ | ⟨e, rfl, _⟩ | ⟨u, rfl, rfl⟩
  · simp
  · simp
  · exact absurd hd (by simp)

/-- **C27**, message_1. The tokens `edhoc_message_1_process` hands to the application, whatever its result, are EAD items
of the message, in order, and they are not more than configured. Missing: that they are all of them, see
`C27_dropped`. -/
theorem C27_message1_partial {s s' : St σ} {msg : Bytes} {r : Res Out} (h : step E cfg (.process1 msg) s = (r, s'))
    (hd : r.Defined) {m : Msg} {ts : List EadTok} {q : Bool} (hx : Ev.eadProcess m ts q ∈ during s s') :
    m = .msg1 ∧ ts ≠ [] ∧ ts.length ≤ cfg.maxEad ∧ ts.length ≤ 3 ∧
      ∃ m1 b rest, Message1 m1 b ∧ msg = b ++ rest ∧ ts = m1.ead := by
  unfold step at h
  obtain ⟨r0, h, hd⟩ := mapOut_defined h hd
  unfold message1Process at h
  obtain ⟨s1, _, h, n1, hn⟩ := NoEad.enter h hd hx
  obtain ⟨_, s2, _, h, n2⟩ := (Emits.chooseSuite (σ := σ)).noEad.step n1 h hd hn
  obtain ⟨c, s3, _, h, n3⟩ := (Emits.getCtx (σ := σ)).noEad.step n2 h hd hn
  obtain ⟨me, s4, _, h, n4⟩ := (Emits.ofOption (σ := σ) _ _).noEad.step n3 h hd hn
  obtain ⟨s5, _, h, n5⟩ := n4.mod h hd hn
  obtain ⟨_, s6, _, h, n6⟩ := (Emits.checkSuites (σ := σ) _ _).noEad.step n5 h hd hn
  obtain ⟨_, s7, _, h, n7⟩ := (Emits.require (σ := σ) _ _).noEad.step n6 h hd hn
  obtain ⟨_, s8, _, h, n8⟩ := (Emits.guardUB (σ := σ) _ _).noEad.step n7 h hd hn
  obtain ⟨s9, _, h, n9⟩ := n8.mod h hd hn
  obtain ⟨_, s9, _, h, n9⟩ := (Emits.require (σ := σ) _ _).noEad.step n9 h hd hn
  obtain ⟨_, s9, _, h, n9⟩ := (Emits.guardUB (σ := σ) _ _).noEad.step n9 h hd hn
  obtain ⟨_, s10, _, h, n10⟩ := (Emits.storePeerCid (σ := σ) _ _ _).noEad.step n9 h hd hn
  obtain ⟨rfl, rfl, h0, hle, _⟩ := processEad1_event n10 h hd
    (fun _ => ((Emits.hashTh E cfg msg).bind0 fun _ => Emits.modCtx (by intro c; rfl)).noEad) hx
  have ht := getMsg1_ead h0
  obtain ⟨b, rest, i1, i2, i3⟩ := getMsg1_sound (d := cfg.dec) (bs := msg) (m := (getMsg1 cfg.dec msg).2) (Prod.ext ht rfl)
  exact ⟨rfl, h0, hle, i3, _, b, rest, i1, i2, rfl⟩

/-- **C27**, message_2. The tokens `edhoc_message_2_process` hands to the application, whatever its result, are EAD items
of the decrypted message, in order; there are at most three of them. Missing: that they are all of them, and that they
are not more than configured, see `C27_dropped` and `C27_too_many`. -/
theorem C27_message2_partial {e : σ} {log : List Ev} {h : History} {s s' : St σ} (hs : Session E cfg e log h s)
    {msg : Bytes} (hlen : msg.length < 2 ^ 32) {r : Res Out} (h : step E cfg (.process2 msg) s = (r, s'))
    (hd : r.Defined) {m : Msg} {ts : List EadTok} {q : Bool} (hx : Ev.eadProcess m ts q ∈ during s s') :
    m = .msg2 ∧ ts ≠ [] ∧ ts.length ≤ 3 ∧ ∃ gy ctxt gxy th2 prk2e ks cr p,
      StartsBstr (gy ++ ctxt) msg ∧ gy.length = s.ctx.suite.eccKey ∧
      AgreeCall (during s s') s.ctx.dhPriv gy gxy ∧
      HashCall (during s s') (encBstr gy ++ encBstr s.ctx.th) th2 ∧
      ExtractCall (during s s') th2 gxy prk2e ∧
      ExpandCall (during s s') prk2e 0 th2 ctxt.length ks ∧
      StartsPlaintext2 cr p (xorBytes ctxt ks) ∧ ts = p.ead := by
  unfold step at h
  obtain ⟨r0, h, hd⟩ := mapOut_defined h hd
  unfold message2Process at h
  obtain ⟨s1, h1, h, n1, hn⟩ := NoEad.enter h hd hx
  obtain ⟨hst, c1, l1⟩ := enter_st h1
  have g1 : Grow s s1 := grow_of_log l1
  obtain ⟨ctxt, s2, h2, h, n2⟩ := (Emits.parseMsg2 E cfg _).noEad.step n1 h hd hn
  obtain ⟨b, hb, hbl, hctxt, g2, c2⟩ := parseMsg2_ok h2
  obtain ⟨_, s3, h3, h, n3⟩ := (Emits.mapErr _ (Emits.compDhSecret E cfg)).noEad.step n2 h hd hn
  obtain ⟨gxy, ka, c3, _, w3⟩ := compDhSecret_ok (mapErr_ok.1 h3)
  obtain ⟨_, s4, h4, h, n4⟩ := (Emits.mapErr _ (Emits.compTh2 E cfg)).noEad.step n3 h hd hn
  obtain ⟨_, th2, c4, lt2, _, _, _, w4⟩ := compTh2_ok (mapErr_ok.1 h4)
  obtain ⟨_, s5, h5, h, n5⟩ := (Emits.mapErr _ (Emits.compPrk2e E cfg)).noEad.step n4 h hd hn
  obtain ⟨_, _, prk2e, ke, c5, lp2, w5⟩ := compPrk2e_ok (mapErr_ok.1 h5)
  obtain ⟨_, s6, h6, h, n6⟩ := (Emits.memAlloc E cfg _).noEad.step n5 h hd hn
  obtain ⟨c6, g6⟩ := memAlloc_ok h6
  obtain ⟨_, _, hc, h, _⟩ := (Emits.getCtx (σ := σ)).noEad.step n6 h hd hn
  obtain ⟨rfl, rfl⟩ := getCtx_ok.1 hc
  obtain ⟨ks, s7, h7, h, n7⟩ := (Emits.mapErr _ (Emits.compKeystream E cfg _ _)).noEad.step n6 h hd hn
  obtain ⟨_, hct0, c7, lks, kks, w7⟩ := compKeystream_ok (mapErr_ok.1 h7)
  obtain ⟨p', s8, h8, h, n8⟩ := (Emits.mapErr _ (Emits.parsePtxt2 cfg _)).noEad.step n7 h hd hn
  obtain ⟨cid, p, hdec, hid, hsig, c8, hfits, l8⟩ := parsePtxt2_st (mapErr_ok.1 h8)
  obtain ⟨g9, hev⟩ := eadProcess_event n8 h hd (by
    intro u
    refine Emits.noEad (ks := [.credVerify, .derive 1, .derive 2, .verify]) ?_
    refine Emits.bindL (Emits.verifyCred _ _) fun _ => ?_
    refine Emits.bindL (Emits.mapErr _ (Emits.compPrk3e2m _ _ _ _)) fun _ => ?_
    steps2
    refine Emits.bindL (Emits.compMac _ _ _ _) fun _ => ?_
    refine Emits.bindL (Emits.mapErr _ (Emits.verifySignOrMac _ _ _ _ _ _)) fun _ => ?_
    quiet2)
  obtain ⟨rfl, hts, h0, _⟩ := hev hx
  have g8 : Grow s7 s8 := grow_of_log l8
  have ha : s.ctx.status ≠ .aborted := by
    simp only [okWaitM2, Bool.and_eq_true, beq_iff_eq] at hst
    rw [hst.1.1]; simp
  have he : s.ctx.ead = [] := session_ead hs ha
  have C7 : s7.ctx.ead = s.ctx.ead := by rw [c7, c6, c5, c4, c3, c2, c1]
  have hp : ts = p.ead := by
    rw [hts, c8]
    simp only
    cases hpe : p.ead with
    | nil => rw [C7, he]; rfl
    | cons a l => rfl
  have G2 := g1.trans g2
  have G3 := G2.trans w3.grow
  have G4 := G3.trans w4.grow
  have G5 := G4.trans w5.grow
  have G6 := G5.trans g6
  have H7 := g8.trans g9
  have H6 := w7.grow.trans H7
  have H5 := g6.trans H6
  have H4 := w5.grow.trans H5
  have H3 := w4.grow.trans H4
  have hbl' := getMsgBstr_length hb
  obtain ⟨hl3, hp2⟩ := getPtxt2_sound hdec
  have ec : s1.ctx.suite = s.ctx.suite := by rw [c1]; rfl
  rw [ec] at hbl hctxt
  have C2 : s2.ctx = { s.ctx with
      dhPeerPub := b.take s.ctx.suite.eccKey
      status := .aborted, errorCode := .unspecified, message := .msg2, role := .initiator } := by
    rw [c2, c1]; rfl
  have C3 : s3.ctx = { s.ctx with
      dhPeerPub := b.take s.ctx.suite.eccKey, dhSecret := gxy
      status := .aborted, errorCode := .unspecified, message := .msg2, role := .initiator } := by
    rw [c3, C2]
  have C4 : s4.ctx = { s.ctx with
      dhPeerPub := b.take s.ctx.suite.eccKey, dhSecret := gxy, th := th2, thState := .th2
      status := .aborted, errorCode := .unspecified, message := .msg2, role := .initiator } := by
    rw [c4, C3]
  have C5 : s5.ctx = { s.ctx with
      dhPeerPub := b.take s.ctx.suite.eccKey, dhSecret := gxy, th := th2, thState := .th2
      prk := prk2e, prkState := .prk2e
      status := .aborted, errorCode := .unspecified, message := .msg2, role := .initiator } := by
    rw [c5, C4]
  rw [C2] at w3
  rw [C3] at w4
  rw [C4] at w5
  rw [c6, C5] at w7
  have hcl : ctxt.length < 2 ^ 32 := by rw [hctxt, List.length_drop]; omega
  refine ⟨rfl, h0, by rw [hp]; exact hl3, b.take s.ctx.suite.eccKey, ctxt, gxy, th2, prk2e, ks, cid, p, ?_, ?_,
    AgreedRaw.call ⟨ka, w3.mid G2 H3⟩, Hashed.call (Hashed.mid G3 w4 H4), Extracted.call ⟨ke, w5.mid G4 H5⟩,
    Expanded.call (Expanded.mid G6 ⟨lks, kks, w7⟩ H7) hcl, hp2, hp⟩
  · rw [hctxt, List.take_append_drop]; exact getMsgBstr_sound hb
  · rw [List.length_take]; omega

/-- **C27**, message_3. The tokens `edhoc_message_3_process` hands to the application, whatever its result, are EAD items
of the decrypted message, in order; there are at most three of them. Missing: that they are all of them, and that they
are not more than configured, see `C27_dropped` and `C27_too_many`. -/
theorem C27_message3_partial {e : σ} {log : List Ev} {h : History} {s s' : St σ} (hs : Session E cfg e log h s)
    (hsu : SuiteSmall s.ctx.suite) {msg : Bytes} {r : Res Out} (h : step E cfg (.process3 msg) s = (r, s'))
    (hd : r.Defined) {m : Msg} {ts : List EadTok} {q : Bool} (hx : Ev.eadProcess m ts q ∈ during s s') :
    m = .msg3 ∧ ts ≠ [] ∧ ts.length ≤ 3 ∧ ∃ ctxt k3 iv3 ptxt p,
      StartsBstr ctxt msg ∧
      ExpandCall (during s s') s.ctx.prk 3 s.ctx.th s.ctx.suite.aeadKey k3 ∧
      ExpandCall (during s s') s.ctx.prk 4 s.ctx.th s.ctx.suite.aeadIv iv3 ∧
      DecryptCall (during s s') k3 iv3 (encStructure s.ctx.th) ctxt ptxt ∧
      StartsPlaintext3 p ptxt ∧ ts = p.ead := by
  unfold step at h
  obtain ⟨r0, h, hd⟩ := mapOut_defined h hd
  unfold message3Process at h
  obtain ⟨s1, h1, h, n1, hn⟩ := NoEad.enter h hd hx
  obtain ⟨hst, c1, l1⟩ := enter_st h1
  have g1 : Grow s s1 := grow_of_log l1
  obtain ⟨ctxt, _, h2', h, n2⟩ := (Emits.ofOption (σ := σ) _ _).noEad.step n1 h hd hn
  obtain ⟨h2, rfl⟩ := ofOption_ok.1 h2'
  obtain ⟨kia, s3, h3, h, n3⟩ := (Emits.keyIvAad3 E cfg).noEad.step n2 h hd hn
  obtain ⟨c3, g3, w3⟩ := keyIvAad3_ok h3
  obtain ⟨w3, haad⟩ := w3.keys
  obtain ⟨_, _, hc, h, _⟩ := (Emits.getCtx (σ := σ)).noEad.step n3 h hd hn
  obtain ⟨rfl, rfl⟩ := getCtx_ok.1 hc
  obtain ⟨_, s4, h4, h, n4⟩ := (Emits.memAlloc E cfg _).noEad.step n3 h hd hn
  obtain ⟨c4, g4⟩ := memAlloc_ok h4
  obtain ⟨ptxt, s5, h5', h, n5⟩ := (Emits.mapErr _ (Emits.bind0 (Emits.require _ _) fun _ =>
    Emits.aeadDecrypt E _ _ _ _ _)).noEad.step n4 h hd hn
  obtain ⟨_, _, h6', h5⟩ := bind_ok.1 (mapErr_ok.1 h5')
  obtain ⟨h6, rfl⟩ := require_ok.1 h6'
  obtain ⟨c5, lpt, kpt, w5⟩ := aeadDecrypt_ok h5
  obtain ⟨p', s8, h8, h, n8⟩ := (Emits.mapErr _ (Emits.parsePtxt3 cfg _)).noEad.step n5 h hd hn
  obtain ⟨p, hdec, hid, hsig, c8, l8⟩ := parsePtxt3_st (mapErr_ok.1 h8)
  obtain ⟨g9, hev⟩ := eadProcess_event n8 h hd (by
    intro u
    refine Emits.noEad (ks := [.credVerify, .derive 5, .derive 6, .verify]) ?_
    refine Emits.bindL (Emits.verifyCred _ _) fun _ => ?_
    refine Emits.bindL (Emits.mapErr _ (Emits.compPrk4e3m _ _ _ _)) fun _ => ?_
    steps2
    refine Emits.bindL (Emits.mapErr _ (Emits.compMac _ _ _ _)) fun _ => ?_
    refine Emits.bindL (Emits.mapErr _ (Emits.verifySignOrMac _ _ _ _ _ _)) fun _ => ?_
    quiet2)
  obtain ⟨rfl, hts, h0, _⟩ := hev hx
  have g8 : Grow s5 s8 := grow_of_log l8
  have ha : s.ctx.status ≠ .aborted := by
    simp only [okWaitM3, Bool.and_eq_true, beq_iff_eq] at hst
    rw [hst.1.1]; simp
  have C5 : s5.ctx.ead = s.ctx.ead := by rw [c5, c4, c3, c1]
  have hp : ts = p.ead := by
    rw [hts, c8]
    simp only
    cases hpe : p.ead with
    | nil => rw [C5, session_ead hs ha]; rfl
    | cons a l => rfl
  have G3 := g1.trans g3
  have G4 := G3.trans g4
  have H5 := g8.trans g9
  have H4 := w5.grow.trans H5
  have H3 := g4.trans H4
  obtain ⟨hl3, hp3⟩ := getPtxt3_sound hdec
  rw [c1] at w3
  rw [haad, c1] at w5
  have w3 := w3.mid g1 H3
  exact ⟨rfl, h0, by rw [hp]; exact hl3, ctxt, kia.1, kia.2.1, ptxt, p, getMsgBstr_sound h2, w3.1.call hsu.1,
    w3.2.call hsu.2.1, Decrypted.call (Decrypted.mid G4 ⟨kpt, w5⟩ H5), hp3, hp⟩

/-- **C27**, message_4. The tokens `edhoc_message_4_process` hands to the application, whatever its result, are EAD items
of the decrypted message, in order; there are at most three of them. Missing: that they are all of them, and that they
are not more than configured, see `C27_dropped` and `C27_too_many`. -/
theorem C27_message4_partial {s s' : St σ} (hsu : SuiteSmall s.ctx.suite) {msg : Bytes} {r : Res Out}
    (h : step E cfg (.process4 msg) s = (r, s')) (hd : r.Defined) {m : Msg} {ts : List EadTok} {q : Bool}
    (hx : Ev.eadProcess m ts q ∈ during s s') :
    m = .msg4 ∧ ts ≠ [] ∧ ts.length ≤ 3 ∧ ∃ ctxt k4 iv4 ptxt,
      StartsBstr ctxt msg ∧
      ExpandCall (during s s') s.ctx.prk 8 s.ctx.th s.ctx.suite.aeadKey k4 ∧
      ExpandCall (during s s') s.ctx.prk 9 s.ctx.th s.ctx.suite.aeadIv iv4 ∧
      DecryptCall (during s s') k4 iv4 (encStructure s.ctx.th) ctxt ptxt ∧
      StartsPlaintext4 ts ptxt := by
  unfold step at h
  obtain ⟨r0, h, hd⟩ := mapOut_defined h hd
  unfold message4Process at h
  obtain ⟨s1, h1, h, n1, hn⟩ := NoEad.enter h hd hx
  obtain ⟨hst, c1, l1⟩ := enter_st h1
  have g1 : Grow s s1 := grow_of_log l1
  obtain ⟨ctxt, _, h2', h, n2⟩ := (Emits.ofOption (σ := σ) _ _).noEad.step n1 h hd hn
  obtain ⟨h2, rfl⟩ := ofOption_ok.1 h2'
  obtain ⟨kia, s3, h3, h, n3⟩ := (Emits.keyIvAad4 E cfg).noEad.step n2 h hd hn
  obtain ⟨c3, g3, w3⟩ := keyIvAad4_ok h3
  obtain ⟨w3, haad⟩ := w3.keys
  obtain ⟨_, _, hc, h, _⟩ := (Emits.getCtx (σ := σ)).noEad.step n3 h hd hn
  obtain ⟨rfl, rfl⟩ := getCtx_ok.1 hc
  obtain ⟨_, s4, h4, h, n4⟩ := (Emits.memAlloc E cfg _).noEad.step n3 h hd hn
  obtain ⟨c4, g4⟩ := memAlloc_ok h4
  obtain ⟨ptxt, s5, h5, h, n5⟩ := (Emits.mapErr _ (Emits.aeadDecrypt E _ _ _ _ _)).noEad.step n4 h hd hn
  obtain ⟨c5, lpt, kpt, w5⟩ := aeadDecrypt_ok (mapErr_ok.1 h5)
  obtain ⟨_, s8, h8, h, n8⟩ := (Emits.mapErr _ (Emits.parsePtxt4 cfg _)).noEad.step n5 h hd hn
  have h8' := parsePtxt4_ok (mapErr_ok.1 h8)
  obtain ⟨g9, hev⟩ := eadProcess_event n8 h hd (by
    intro u
    exact (Emits.modCtx (by intro c; rfl)).noEad)
  obtain ⟨rfl, hts, h0, _⟩ := hev hx
  have g8 : Grow s5 s8 := grow_of_log (by rw [h8'])
  have hp : ts = getPtxt4 cfg.dec ptxt := by rw [hts, h8']
  have G3 := g1.trans g3
  have G4 := G3.trans g4
  have H5 := g8.trans g9
  have H4 := w5.grow.trans H5
  have H3 := g4.trans H4
  obtain ⟨hl3, hp4⟩ := getPtxt4_sound (d := cfg.dec) ptxt
  rw [c1] at w3
  rw [haad, c1] at w5
  have w3 := w3.mid g1 H3
  exact ⟨rfl, h0, by rw [hp]; exact hl3, ctxt, kia.1, kia.2.1, ptxt, getMsgBstr_sound h2, w3.1.call hsu.1,
    w3.2.call hsu.2.1, Decrypted.call (Decrypted.mid G4 ⟨kpt, w5⟩ H5), by rw [hp]; exact hp4⟩

/-- Non-vacuity: in an honest handshake Bob is shown EAD_1 and EAD_3, Alice EAD_4. -/
example : Ev.eadProcess .msg1 [⟨1, some [7]⟩] true ∈ during (Toy.after Toy.bob ((Toy.callsR 3).take 7))
      (step (Toy.env Toy.bob) Toy.cfg (.process1 (Toy.msg 3 1)) (Toy.after Toy.bob ((Toy.callsR 3).take 7))).2 ∧
    Ev.eadProcess .msg3 [⟨-3, none⟩] true ∈ during (Toy.after Toy.bob ((Toy.callsR 3).take 9))
      (step (Toy.env Toy.bob) Toy.cfg (.process3 (Toy.msg 3 3)) (Toy.after Toy.bob ((Toy.callsR 3).take 9))).2 ∧
    Ev.eadProcess .msg4 [⟨100, some [1, 2]⟩] true ∈ during (Toy.after Toy.alice ((Toy.callsI 3).take 10))
      (step (Toy.env Toy.alice) Toy.cfg (.process4 (Toy.msg 3 4)) (Toy.after Toy.alice ((Toy.callsI 3).take 10))).2 := by
  decide +kernel

/-- **C27**, at most once: no API call makes two calls to the EAD process callback. -/
theorem C27_at_most_once {o : Op} {s s' : St σ} {r : Res Out} (h : step E cfg o s = (r, s')) (hd : r.Defined) :
    deliveries (during s s') ≤ 1 := by
  have hw := C33_performs h hd
  have hc : ∀ {ks : List Kind} {L : List Ev}, Spec.Within ks L → deliveries L ≤ ks.countP fun k => !notEad k := by
    intro ks L hw
    unfold deliveries
    induction hw with
    | nil => simp
    | @skip ks v L h1 _ ih =>
      rw [List.countP_cons]
      cases v <;> first | (cases h1; done) | simpa using ih
    | @hit k ks v L h1 _ ih =>
      rw [List.countP_cons, List.countP_cons]
      revert ih
      generalize ks.countP (fun k => !notEad k) = n
      intro ih
      cases h1 <;> simp [notEad] <;> omega
    | miss _ ih => rw [List.countP_cons]; omega
  refine Nat.le_trans (hc hw) ?_
  cases o <;> simp [performs, notEad]

/-- **C27**, on success, message_1. If a callback is registered and `edhoc_message_1_process` accepts the encoding of a
message_1 with EAD items, the callback was called with all of them and accepted them. (An encoding has at most three.) -/
theorem C27_success1 {s s' : St σ} {msg : Bytes} {x : Out} (h : step E cfg (.process1 msg) s = (.ok x, s'))
    (hcb : s.ctx.hasEadProcess = true) {m1 : Msg1} (hm : encMsg1 m1 = some msg) (hw : m1.Wire) (h0 : m1.ead ≠ []) :
    Ev.eadProcess .msg1 m1.ead true ∈ during s s' := by
  obtain ⟨m, hm', rfl, c⟩ := step_process1 rfl h
  cases hm'
  obtain ⟨_, _, _, m', _, _, _, e1, _, _, _, _, _, hx, _⟩ := message1Process_ok c
  rw [getMsg1_encMsg1 hm hw] at e1
  subst e1
  rcases hx with ⟨_, _, _, hl⟩ | ⟨h1, _⟩
  · unfold during
    rw [hl, List.drop_left]
    exact List.mem_cons_self ..
  · rcases h1 with h1 | h1
    · rw [hcb] at h1; cases h1
    · exact absurd h1 h0

/-- **C27**, on success, message_2. If a callback is registered and `edhoc_message_2_process` succeeds, PLAINTEXT_2
contains items of a plaintext and, if EAD items are among them, the callback was called with these and accepted them. -/
theorem C27_success2 {e : σ} {log : List Ev} {h : History} {s s' : St σ} (hs : Session E cfg e log h s) {msg : Bytes}
    {x : Out} (hlen : msg.length < 2 ^ 32) (hok : step E cfg (.process2 msg) s = (.ok x, s'))
    (hcb : s.ctx.hasEadProcess = true) (h0 : cfg.maxEad ≠ 0) :
    ∃ gy ctxt prk2e th2 ks c p, StartsBstr (gy ++ ctxt) msg ∧ ExpandCall (during s s') prk2e 0 th2 ctxt.length ks ∧
      StartsPlaintext2 c p (xorBytes ctxt ks) ∧ (p.ead ≠ [] → Ev.eadProcess .msg2 p.ead true ∈ during s s') := by
  obtain ⟨m, hm, rfl, c⟩ := step_process2 rfl hok
  cases hm
  obtain ⟨gy, ctxt, cr, p, id, pk, v, c⟩ := message2Process_ok c
  have ha : s.ctx.status ≠ .aborted := by
    have := c.state
    simp only [okWaitM2, Bool.and_eq_true, beq_iff_eq] at this
    rw [this.1.1]; simp
  have he := ead_eq (session_ead hs ha) c.eadEq
  have hl := getMsgBstr_length c.parsed
  rw [List.length_append] at hl
  have h4 := c.ead
  rw [he] at h4
  refine ⟨gy, ctxt, v.prk2e, v.th2, v.ks, cr, p, getMsgBstr_sound c.parsed, c.ks.call (by omega), ?_, fun h1 => ?_⟩
  · have := (getPtxt2_sound c.decoded).2
    rwa [c.ptxt] at this
  · exact (h4 (by simp [processesEad, hcb, h0]) h1).mem

/-- **C27**, on success, message_3. -/
theorem C27_success3 {e : σ} {log : List Ev} {h : History} {s s' : St σ} (hs : Session E cfg e log h s) {msg : Bytes}
    {x : Out} (hok : step E cfg (.process3 msg) s = (.ok x, s'))
    (hcb : s.ctx.hasEadProcess = true) (h0 : cfg.maxEad ≠ 0) :
    ∃ ctxt k3 iv3 ptxt p, StartsBstr ctxt msg ∧ DecryptCall (during s s') k3 iv3 (encStructure s.ctx.th) ctxt ptxt ∧
      StartsPlaintext3 p ptxt ∧ (p.ead ≠ [] → Ev.eadProcess .msg3 p.ead true ∈ during s s') := by
  obtain ⟨m, hm, rfl, c⟩ := step_process3 rfl hok
  cases hm
  obtain ⟨p, id, pk, v, c⟩ := message3Process_ok c
  have ha : s.ctx.status ≠ .aborted := by
    have := c.state
    simp only [okWaitM3, Bool.and_eq_true, beq_iff_eq] at this
    rw [this.1.1]; simp
  have he := ead_eq (session_ead hs ha) c.eadEq
  have h4 := c.ead
  rw [he] at h4
  exact ⟨v.ctxt, v.k3, v.iv3, v.ptxt, p, getMsgBstr_sound c.parsed, c.decrypted.call, (getPtxt3_sound c.decoded).2,
    fun h1 => (h4 (by simp [processesEad, hcb, h0]) h1).mem⟩

/-- **C27**, on success, message_4. -/
theorem C27_success4 {s s' : St σ} {msg : Bytes} {x : Out} (hok : step E cfg (.process4 msg) s = (.ok x, s'))
    (hcb : s.ctx.hasEadProcess = true) (h0 : cfg.maxEad ≠ 0) :
    ∃ ctxt k4 iv4 ptxt ts, StartsBstr ctxt msg ∧ DecryptCall (during s s') k4 iv4 (encStructure s.ctx.th) ctxt ptxt ∧
      StartsPlaintext4 ts ptxt ∧ (ts ≠ [] → Ev.eadProcess .msg4 ts true ∈ during s s') := by
  obtain ⟨m, hm, rfl, c⟩ := step_process4 rfl hok
  cases hm
  obtain ⟨k, iv, ctxt, ptxt, c⟩ := message4Process_ok c
  exact ⟨ctxt, k, iv, ptxt, _, getMsgBstr_sound c.parsed, c.decrypted.call, (getPtxt4_sound ptxt).2,
    fun h1 => (c.ead (by simp [processesEad, hcb, h0]) h1).mem⟩

/-! ### What is missing -/

/-- Alice's message_1 with four EAD items, with labels 1, 2, 3 and -4; the last is critical. -/
def fourEads : Bytes := [3, 2, 66, 0, 124, 5, 1, 2, 3, 0x23]

/-- **C27 is violated**: a fourth EAD item is dropped, although it is critical (RFC 9528, section 3.8: the recipient must
abort on a critical item it cannot process). Bob accepts the message and is shown the first three items. -/
theorem C27_dropped : ∃ (h : History) (s s' : St Unit) (m1 : Msg1),
    Session (Toy.env Toy.bob) Toy.cfg () [] h s ∧ Message1 m1 fourEads ∧ m1.ead = [⟨1, none⟩, ⟨2, none⟩, ⟨3, none⟩, ⟨-4, none⟩] ∧
    step (Toy.env Toy.bob) Toy.cfg (.process1 fourEads) s = (.ok .unit, s') ∧
    Ev.eadProcess .msg1 [⟨1, none⟩, ⟨2, none⟩, ⟨3, none⟩] true ∈ during s s' ∧ deliveries (during s s') = 1 := by
  refine ⟨Toy.hst Toy.bob (Toy.conf 3 (.bstr [0x18, 9])), Toy.after Toy.bob (Toy.conf 3 (.bstr [0x18, 9])), _,
    ⟨3, .one 2, [0, 124], .int 5, [⟨1, none⟩, ⟨2, none⟩, ⟨3, none⟩, ⟨-4, none⟩]⟩, Toy.session _ _ (by decide +kernel), ?_, rfl,
    Prod.ext (by decide +kernel) rfl, by decide +kernel, by decide +kernel⟩
  have rng : ∀ v : Int, Int32Range v → Int65Range v := by unfold Int32Range Int65Range; intro v; omega
  exact ⟨encInt 3, encInt 2, encBstr [0, 124], encInt 5, Spec.ead [⟨1, none⟩, ⟨2, none⟩, ⟨3, none⟩, ⟨-4, none⟩],
    encInt_item (rng _ (by decide)), encInt_item (rng _ (by decide)), encBstr_item (by unfold SizeOk; decide),
    ⟨by decide, by decide, encInt_item (rng _ (by decide))⟩,
    ead_item (by
      simp only [List.mem_cons, List.not_mem_nil, or_false]
      rintro t (rfl | rfl | rfl | rfl) <;> exact ⟨by decide, by simp⟩),
    by decide⟩

/-- Bob sends three EAD items in message 2; Alice's library is configured for two. -/
def threeEads : Toy.Party := { Toy.bob with ead := fun m => if m = .msg2 then [⟨1, none⟩, ⟨2, none⟩, ⟨3, none⟩] else [] }

@[inherit_doc threeEads] def twoEadCfg : Config := { Toy.cfg with maxEad := 2 }

/-- the message 2 of `threeEads` -/
def threeEadsMsg : Bytes :=
  Toy.bytesOf (step (Toy.env threeEads) Toy.cfg (.compose2 100)
    (Toy.after threeEads (Toy.conf 3 (.bstr [0x18, 9]) ++ [.process1 (Toy.msg 3 1)]))).1

/-- Alice's calls -/
def twoEadCalls : List Op := Toy.conf 3 (.int 5) ++ [.compose1 100]

/-- the state after Alice's calls -/
def twoEadSt : St Unit := (Toy.hist (Toy.env Toy.alice) twoEadCfg twoEadCalls Toy.fresh).2

theorem eq_of_fst {α β : Type} {x : α × β} {a : α} (h : x.1 = a) : x = (a, x.2) := by subst h; rfl

/-- **C27 is violated**: more tokens are handed to the application than configured. Alice's library is configured for two
EAD tokens (`CONFIG_LIBEDHOC_MAX_NR_OF_EAD_TOKENS`), message 2 has three, and the callback gets three. -/
theorem C27_too_many : ∃ (h : History) (s s' : St Unit) (msg : Bytes),
    Session (Toy.env Toy.alice) twoEadCfg () [] h s ∧ twoEadCfg.maxEad = 2 ∧
    step (Toy.env Toy.alice) twoEadCfg (.process2 msg) s = (.ok .unit, s') ∧
    Ev.eadProcess .msg2 [⟨1, none⟩, ⟨2, none⟩, ⟨3, none⟩] true ∈ during s s' :=
  ⟨(Toy.hist (Toy.env Toy.alice) twoEadCfg twoEadCalls Toy.fresh).1, twoEadSt,
    (step (Toy.env Toy.alice) twoEadCfg (.process2 threeEadsMsg) twoEadSt).2, threeEadsMsg,
    Toy.hist_session twoEadCalls () [] (by decide +kernel), rfl, eq_of_fst (by decide +kernel), by decide +kernel⟩

end Verif
