import Verif.Bridge

/-!
# C07, C08, C34: authentication of the peer and key confirmation

Vocabulary: `Verif/Spec.lean` (sessions), `Verif/SpecCbor.lean` (what a byte string says), `Verif/SpecWire.lean`
(context_2, context_3, Sig_structure, Enc_structure), `Verif/SpecCalls.lean` (callback calls).
-/

namespace Verif

open M Spec

variable {σ : Type} {E : Env σ} {cfg : Config}

theorem getMsgBstr_length {d : DecCfg} {msg b : Bytes} (h : getMsgBstr d msg = some b) : b.length ≤ msg.length := by
  obtain ⟨x, r, ⟨hd, _, rfl⟩, rfl⟩ := getMsgBstr_sound h
  simp only [List.length_append]
  omega

/-- **C07**. If an Initiator's `edhoc_message_2_process` succeeds, then in that call: message_2 is a byte string
G_Y || CIPHERTEXT_2; TH_2, PRK_2e and KEYSTREAM_2 were derived from it, and PLAINTEXT_2 is the ciphertext XOR the
keystream; the application accepted the credential that PLAINTEXT_2 identifies; MAC_2 was derived from PRK_3e2m and
context_2; and the received Signature_or_MAC_2 is MAC_2 itself or a signature over the Sig_structure that the
application accepted with the public key of that credential. -/
theorem C07_responder_authenticated {e : σ} {log : List Ev} {h : History} {s s' : St σ}
    (hs : Session E cfg e log h s) {msg : Bytes} (hsu : SuiteSmall s.ctx.suite) (hlen : msg.length < 2 ^ 32) {x : Out}
    (hok : step E cfg (.process2 msg) s = (.ok x, s')) :
    ∃ gy ctxt gxy th2 prk2e ks ptxt cr p id cred pk prk3e2m mac,
      StartsBstr (gy ++ ctxt) msg ∧ gy.length = s.ctx.suite.eccKey ∧
      AgreeCall (during s s') s.ctx.dhPriv gy gxy ∧
      HashCall (during s s') (encBstr gy ++ encBstr s.ctx.th) th2 ∧
      ExtractCall (during s s') th2 gxy prk2e ∧
      ExpandCall (during s s') prk2e 0 th2 ctxt.length ks ∧
      ptxt = xorBytes ctxt ks ∧
      StartsPlaintext2 cr p ptxt ∧
      Identifies p.idCred id ∧
      CredAccepted (during s s') id cred pk ∧
      NextKey (during s s') 1 (responderSigns s.ctx.chosenMethod) prk2e th2 s.ctx.suite.hash
        (AgreeCall (during s s') s.ctx.dhPriv pk) prk3e2m ∧
      ExpandCall (during s s') prk3e2m 2 (context2 cr cred th2 p.ead)
        (macLen (responderSigns s.ctx.chosenMethod) s.ctx.suite) mac ∧
      SignatureOrMac (responderSigns s.ctx.chosenMethod) cred th2 p.ead mac p.sig
        (VerifyCall (during s s') pk) ∧
      s.ctx.chosenMethod ≤ 3 ∧ s'.ctx.prk = prk3e2m ∧ s'.ctx.peerCid = cr := by
  obtain ⟨m, hm, rfl, c⟩ := step_process2 rfl hok
  cases hm
  obtain ⟨gy, ctxt, cr, p, id, pk, v, c⟩ := message2Process_ok c
  have ha : s.ctx.status ≠ .aborted := by
    have := c.state
    simp only [okWaitM2, Bool.and_eq_true, beq_iff_eq] at this
    rw [this.1.1]; simp
  have he := ead_eq (session_ead hs ha) c.eadEq
  have hl := getMsgBstr_length c.parsed
  rw [List.length_append] at hl
  have hauth := c.auth.call
  rw [he, c.sigEq] at hauth
  have hmac := c.mac.call (macLen_lt hsu)
  rw [he] at hmac
  refine ⟨gy, ctxt, v.gxy, v.th2, v.prk2e, v.ks, v.ptxt, cr, p, id, v.cred, pk, v.prk3e2m, v.mac,
    getMsgBstr_sound c.parsed, c.gyLen, c.agreed.call, c.th2.call, c.prk2e.call, c.ks.call (by omega), c.ptxt,
    (getPtxt2_sound c.decoded).2, credOfIdCred2 c.idCred, c.verified.mem,
    c.prk3e2m.call hsu.2.2.1 (fun g hg => hg.call), hmac, hauth, c.method, ?_, ?_⟩
  · rw [c.ctx]
  · rw [c.ctx]

/-- Non-vacuity: an Initiator's session, about to process the message 2 of the honest Responder, for each method. -/
example : ∀ m ∈ [0, 1, 2, 3],
    (step (Toy.env Toy.alice) Toy.cfg (.process2 (Toy.msg m 2))
      (Toy.after Toy.alice (Toy.conf m (.int 5) ++ [.compose1 100]))).1 = .ok .unit ∧
    SuiteSmall (Toy.after Toy.alice (Toy.conf m (.int 5) ++ [.compose1 100])).ctx.suite ∧
    (Toy.msg m 2).length < 2 ^ 32 ∧
    ((Toy.hst Toy.alice (Toy.conf m (.int 5) ++ [.compose1 100])).all fun p =>
      !Toy.isUb p.2 && !restarts p.1) = true := by
  decide +kernel

/-- **C08**. If a Responder's `edhoc_message_3_process` succeeds, then in that call: message_3 is the byte string
CIPHERTEXT_3; K_3 and IV_3 were derived and the application's AEAD accepted the ciphertext with AAD
[Encrypt0, h'', TH_3]; the application accepted the credential that PLAINTEXT_3 identifies; MAC_3 was derived from
PRK_4e3m and context_3; and the received Signature_or_MAC_3 is MAC_3 itself or a signature over the Sig_structure
that the application accepted with the public key of that credential. -/
theorem C08_initiator_authenticated {e : σ} {log : List Ev} {h : History} {s s' : St σ}
    (hs : Session E cfg e log h s) {msg : Bytes} (hsu : SuiteSmall s.ctx.suite) {x : Out}
    (hok : step E cfg (.process3 msg) s = (.ok x, s')) :
    ∃ ctxt k3 iv3 ptxt p id cred pk prk4e3m mac,
      StartsBstr ctxt msg ∧
      ExpandCall (during s s') s.ctx.prk 3 s.ctx.th s.ctx.suite.aeadKey k3 ∧
      ExpandCall (during s s') s.ctx.prk 4 s.ctx.th s.ctx.suite.aeadIv iv3 ∧
      DecryptCall (during s s') k3 iv3 (encStructure s.ctx.th) ctxt ptxt ∧
      StartsPlaintext3 p ptxt ∧
      Identifies p.idCred id ∧
      CredAccepted (during s s') id cred pk ∧
      NextKey (during s s') 5 (initiatorSigns s.ctx.chosenMethod) s.ctx.prk s.ctx.th s.ctx.suite.hash
        (AgreeCall (during s s') s.ctx.dhPriv pk) prk4e3m ∧
      ExpandCall (during s s') prk4e3m 6 (context3 cred s.ctx.th p.ead)
        (macLen (initiatorSigns s.ctx.chosenMethod) s.ctx.suite) mac ∧
      SignatureOrMac (initiatorSigns s.ctx.chosenMethod) cred s.ctx.th p.ead mac p.sig
        (VerifyCall (during s s') pk) ∧
      s.ctx.chosenMethod ≤ 3 ∧ s'.ctx.prk = prk4e3m := by
  obtain ⟨m, hm, rfl, c⟩ := step_process3 rfl hok
  cases hm
  obtain ⟨p, id, pk, v, c⟩ := message3Process_ok c
  have ha : s.ctx.status ≠ .aborted := by
    have := c.state
    simp only [okWaitM3, Bool.and_eq_true, beq_iff_eq] at this
    rw [this.1.1]; simp
  have he := ead_eq (session_ead hs ha) c.eadEq
  have hauth := c.auth.call
  rw [he, c.sigEq] at hauth
  have hmac := c.mac.call (macLen_lt hsu)
  rw [he] at hmac
  refine ⟨v.ctxt, v.k3, v.iv3, v.ptxt, p, id, v.cred, pk, v.prk4e3m, v.mac,
    getMsgBstr_sound c.parsed, c.keys.1.call hsu.1, c.keys.2.call hsu.2.1, c.decrypted.call,
    (getPtxt3_sound c.decoded).2, credOfIdCred3 c.idCred, c.verified.mem,
    c.prk4e3m.call hsu.2.2.1 (fun g hg => hg.call), hmac, hauth, c.method, ?_⟩
  rw [c.ctx]

/-- Non-vacuity: a Responder's session, about to process the message 3 of the honest Initiator, for each method. -/
example : ∀ m ∈ [0, 1, 2, 3],
    (step (Toy.env Toy.bob) Toy.cfg (.process3 (Toy.msg m 3)) (Toy.after Toy.bob
      (Toy.conf m (.bstr [0x18, 9]) ++ [.process1 (Toy.msg m 1), .compose2 100]))).1 = .ok .unit ∧
    SuiteSmall (Toy.after Toy.bob
      (Toy.conf m (.bstr [0x18, 9]) ++ [.process1 (Toy.msg m 1), .compose2 100])).ctx.suite ∧
    ((Toy.hst Toy.bob (Toy.conf m (.bstr [0x18, 9]) ++ [.process1 (Toy.msg m 1), .compose2 100])).all fun p =>
      !Toy.isUb p.2 && !restarts p.1) = true := by
  decide +kernel

/-- **C34**. If `edhoc_message_4_process` succeeds then message_4 is a byte string that the application's AEAD
accepted under K_4, IV_4, derived in that call from the context's key (PRK_4e3m) and transcript hash (TH_4), with AAD
[Encrypt0, h'', TH_4]. -/
theorem C34_message_4_confirms {s s' : St σ} {msg : Bytes} (hsu : SuiteSmall s.ctx.suite) {x : Out}
    (hok : step E cfg (.process4 msg) s = (.ok x, s')) :
    s.ctx.prkState = .prk4e3m ∧ s.ctx.thState = .th4 ∧ ∃ ctxt k4 iv4 ptxt,
      StartsBstr ctxt msg ∧
      ExpandCall (during s s') s.ctx.prk 8 s.ctx.th s.ctx.suite.aeadKey k4 ∧
      ExpandCall (during s s') s.ctx.prk 9 s.ctx.th s.ctx.suite.aeadIv iv4 ∧
      DecryptCall (during s s') k4 iv4 (encStructure s.ctx.th) ctxt ptxt := by
  obtain ⟨m, hm, rfl, c⟩ := step_process4 rfl hok
  cases hm
  obtain ⟨k, iv, ctxt, ptxt, c⟩ := message4Process_ok c
  have hst := c.state
  simp only [okCompleted, Bool.and_eq_true, beq_iff_eq] at hst
  exact ⟨hst.2, hst.1.2, ctxt, k, iv, ptxt, getMsgBstr_sound c.parsed, c.keys.1.call hsu.1, c.keys.2.call hsu.2.1,
    c.decrypted.call⟩

/-- Non-vacuity: the Initiator processes message 4 at the end of an honest handshake. -/
example : ∀ m ∈ [0, 1, 2, 3],
    (step (Toy.env Toy.alice) Toy.cfg (.process4 (Toy.msg m 4)) (Toy.after Toy.alice
      ((Toy.callsI m).take 10))).1 = .ok .unit ∧
    SuiteSmall (Toy.after Toy.alice ((Toy.callsI m).take 10)).ctx.suite := by
  decide +kernel

end Verif
