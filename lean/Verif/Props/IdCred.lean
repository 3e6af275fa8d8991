import Verif.Props.Peer
import Verif.Props.Wire

/-!
# C60: ID_CRED_x in messages and MACs
-/

namespace Verif

open M Spec Spec.Rfc

variable {σ : Type} {E : Env σ} {cfg : Config}

theorem ne_encBstr (b : Bytes) : b ≠ encBstr b := by
  intro h
  have := congrArg List.length h
  rw [encBstr_length] at this
  have := headLen_pos b.length
  omega

theorem idWire_cbor {c b : Bytes} {k : Option Comp} (h : macComp cfg (.kid c true (.bstr b)) = .ok k) :
    Verif.idWire (.kid c true (.bstr b)) k = b := by
  simp only [macComp, kidCompact, if_true, Res.bind_ok, Res.mapErr_ok] at h
  obtain ⟨q, hq, h⟩ := h
  cases h
  split at hq
  · rename_i h1
    obtain ⟨x, rfl⟩ := List.length_eq_one_iff.1 h1
    split at hq
    · cases hq
    · split at hq
      · cases hq; rfl
      · split at hq
        · cases hq; rfl
        · cases hq
  · split at hq
    · cases hq; rfl
    · cases hq

theorem idWire_plain {c b : Bytes} {k : Option Comp} (h : macComp cfg (.kid c false (.bstr b)) = .ok k) :
    Verif.idWire (.kid c false (.bstr b)) k = encBstr b := by
  simp only [macComp, kidCompact, Bool.false_eq_true, if_false, Res.bind_ok, Res.mapErr_ok] at h
  obtain ⟨q, hq, h⟩ := h
  cases h
  split at hq
  · rename_i e he
    cases hq
    exact (fits_some he).1
  · cases hq

/-- which credentials are sent as RFC 9528 says -/
theorem id_exact {cr : Cred} {i : Id} {k : Option Comp} (hm : meant cr = some i) (hk : macComp cfg cr = .ok k) :
    (Verif.idWire cr k = i.field ∧ idCred cr = i.map) ↔ SentRight cr := by
  match cr, hm with
  | .kid c true (.bstr b), hm =>
    cases hm
    rw [idWire_cbor hk]
    simp only [SentRight, Id.field]
    cases hb : (oneByteInt b).isSome
    · simp [ne_encBstr]
    · simp [idCred, Id.map]
  | .kid c false (.bstr b), hm =>
    cases hm
    rw [idWire_plain hk]
    simp only [SentRight, Id.field]
    cases hb : (oneByteInt b).isSome
    · simp [idCred, Id.map]
    · simp [Ne.symm (ne_encBstr b)]
  | .kid c f (.int v), hm =>
    simp only [meant] at hm
    split at hm
    · cases hm
      simp [SentRight, idCred, Id.map, ne_encBstr]
    · cases hm
  | .x5chain [a], hm => cases hm; cases hk; simp [Verif.idWire, Id.field, idCred, Id.map, SentRight]
  | .x5chain [], hm => cases hm; cases hk; simp [Verif.idWire, Id.field, idCred, Id.map, SentRight]
  | .x5chain (a :: b :: l), hm => cases hm; cases hk; simp [Verif.idWire, Id.field, idCred, Id.map, SentRight]
  | .x5t c h (.int a), hm => cases hm; cases hk; simp [Verif.idWire, Id.field, idCred, Id.map, SentRight]
  | .x5t c h (.bstr a), hm => cases hm; cases hk; simp [Verif.idWire, Id.field, idCred, Id.map, SentRight]

theorem hasId_iff {cr : Cred} {i : Id} {th sig p : Bytes} {ts : List EadTok} (hm : meant cr = some i)
    (hp : PtxtTail cfg cr sig ts p) : HasId i cr th sig ts p (idCred cr ++ encBstr th ++ cred cr ++ ead ts) ↔ SentRight cr := by
  obtain ⟨k, hk, rfl⟩ := hp
  rw [← id_exact hm hk]
  unfold HasId
  simp only [List.append_assoc, List.append_cancel_right_eq]

/-- **C60**, message_3, for the credentials of `SentRight`. When `edhoc_message_3_compose` succeeds with a credential that means
ID_CRED_I `i`, the encrypted PLAINTEXT_3 is ( ID_CRED_I in the form of section 3.5.3.2, Signature_or_MAC_3, EAD_3 ) and the
context of MAC_3 has the map ID_CRED_I, exactly if the credential is one of `SentRight`. Missing: the other credentials, see
`C60_violated`. -/
theorem C60_message3_partial {e : σ} {log : List Ev} {h : History} {s s' : St σ} {n : Nat} {msg : Bytes}
    (hs : Session E cfg e log h s) (hc : step E cfg (.compose3 n) s = (.ok (.bytes msg), s'))
    (hsu : SuiteSmall s.ctx.suite) :
    ∃ k iv ct ptxt context prk len mac cr kid sig ts,
      CredSupplied (during s s') cr kid ∧ SentEad cfg s.ctx (during s s') .msg3 ts ∧
      EncryptCall (during s s') k iv (encStructure s.ctx.th) ptxt ct ∧ msg = encBstr ct ∧
      ExpandCall (during s s') prk 6 context len mac ∧
      ∀ i, meant cr = some i → (HasId i cr s.ctx.th sig ts ptxt context ↔ SentRight cr) := by
  obtain ⟨_, _, h1, h2, hc⟩ := step_compose3 rfl hc
  cases h1; cases h2
  obtain ⟨kid, v, c⟩ := message3Compose_ok hc
  have hst : s.ctx.status ≠ .aborted := by
    have := c.state
    simp only [okVerifiedM2, Bool.and_eq_true, beq_iff_eq] at this
    intro h; rw [h] at this; simp at this
  exact ⟨v.k3, v.iv3, v.ctxt, v.ptxt, _, _, _, v.mac, v.cred, kid, v.sig, v.ead, c.fetch.mem,
    sentEad_of c.ead (session_ead hs hst), c.encrypted.call, c.out, c.mac.call (macLen_lt hsu), fun i hi => hasId_iff hi c.ptxt⟩

/-- **C60**, message_2. The same with the context C_R, ID_CRED_R, TH_2, CRED_R, EAD_2. -/
theorem C60_message2_partial {e : σ} {log : List Ev} {h : History} {s s' : St σ} {n : Nat} {msg : Bytes}
    (hs : Session E cfg e log h s) (hc : step E cfg (.compose2 n) s = (.ok (.bytes msg), s'))
    (hm : msg.length < 2 ^ 32) (hsu : SuiteSmall s.ctx.suite) :
    ∃ y gy prk2e ks ptxt context th2 prk len mac cr kid sig ts,
      CredSupplied (during s s') cr kid ∧ SentEad cfg s.ctx (during s s') .msg2 ts ∧ KeyPairCall (during s s') y gy ∧
      ExpandCall (during s s') prk2e 0 th2 (cidItem s.ctx.cid ++ ptxt).length ks ∧
      msg = encBstr (gy ++ List.zipWith (· ^^^ ·) (cidItem s.ctx.cid ++ ptxt) ks) ∧
      ExpandCall (during s s') prk 2 (cidItem s.ctx.cid ++ context) len mac ∧
      ∀ i, meant cr = some i → (HasId i cr th2 sig ts ptxt context ↔ SentRight cr) := by
  obtain ⟨_, _, h1, h2, hc⟩ := step_compose2 rfl hc
  cases h1; cases h2
  obtain ⟨priv, pub, kid, v, c⟩ := message2Compose_ok hc
  have hst : s.ctx.status ≠ .aborted := by
    have := c.state
    simp only [okReceivedM1, Bool.and_eq_true, beq_iff_eq] at this
    intro h; rw [h] at this; simp at this
  obtain ⟨k, hk⟩ := c.keyPair
  have hks : v.ks.length = v.ptxt.length := c.ks.1
  have hx : (xorBytes v.ptxt v.ks).length = v.ptxt.length := xorBytes_length hks
  rw [c.out, encBstr_length, List.length_append, hx] at hm
  obtain ⟨t, ht, hp⟩ := c.ptxt
  refine ⟨priv, pub, v.prk2e, v.ks, t, idCred v.cred ++ encBstr v.th2 ++ cred v.cred ++ ead v.ead, v.th2, v.prk3e2m,
    macLenOf (responderSigns s.ctx.chosenMethod) s.ctx.suite, v.mac, v.cred, kid, v.sig, v.ead, c.fetch.mem,
    sentEad_of c.ead (session_ead hs hst),
    ⟨k, List.IsInfix.trans ⟨[.importKey .makeKeyPair [] (some k)], [], rfl⟩ hk.made⟩,
    by rw [← hp]; exact c.ks.call (by omega), by rw [← hp]; exact c.out, ?_, fun i hi => hasId_iff hi ht⟩
  have := c.mac.call (macLen_lt hsu)
  simpa [context2] using this

/-! ## Witnesses -/

/-- Alice with another credential -/
def alike (c : Cred) : Toy.Party := { Toy.alice with cred := c }

/-- the state before she composes message_3, and after -/
def atM3 (c : Cred) : St Unit := Toy.after (alike c) beforeM3
@[inherit_doc atM3] def pastM3 (c : Cred) : Res Out × St Unit := step (Toy.env (alike c)) Toy.cfg (.compose3 100) (atM3 c)

/-- a key identifier of two bytes of a CBOR credential; a key identifier h'32' of a credential that is not CBOR; the integers
-19 and -5 -/
def misSent : List Cred :=
  [.kid [0xa0] true (.bstr [1, 2]), .kid [1, 2, 3] false (.bstr [0x32]), .kid [0xa0] true (.int (-19)), .kid [0xa0] true (.int (-5))]

/-- what was encrypted does not start with `b` -/
def notSent (b : Bytes) (L : List Ev) : Bool :=
  L.all fun e => match e with
    | .encrypt _ _ _ pt _ => !b.isPrefixOf pt
    | _ => true

theorem notSent_spec {b : Bytes} {L : List Ev} (h : notSent b L = true) {k iv aad pt ct : Bytes}
    (he : EncryptCall L k iv aad pt ct) : ¬ b <+: pt := by
  obtain ⟨kid, hk⟩ := he
  have h6 := List.all_eq_true.1 h (.encrypt kid iv aad pt (some ct)) (hk.subset (by simp))
  simp only [Bool.not_eq_true'] at h6
  rw [← List.isPrefixOf_iff_prefix, h6]
  exact Bool.false_ne_true

theorem pastM3_step {c : Cred} {r : Res Out} (h : (pastM3 c).1 = r) :
    step (Toy.env (alike c)) Toy.cfg (.compose3 100) (atM3 c) = (r, (pastM3 c).2) := by
  rw [← h]
  exact (Prod.eta (pastM3 c)).symm

theorem atM3_session {c : Cred} (h : ((Toy.hst (alike c) beforeM3).all fun p => !Toy.isUb p.2 && !restarts p.1) = true) :
    Session (Toy.env (alike c)) Toy.cfg () [] (Toy.hst (alike c) beforeM3) (atM3 c) := by
  unfold atM3
  exact Toy.session _ _ h

/-- a message was composed -/
def composed : Res Out → Bool
  | .ok (.bytes _) => true
  | _ => false

theorem composed_spec {r : Res Out} (h : composed r = true) : ∃ m, r = .ok (.bytes m) := by
  unfold composed at h
  split at h
  · exact ⟨_, rfl⟩
  · cases h

/-- **C60 is violated.** The Initiator's application supplies one of these credentials, the call succeeds, and what it encrypts
does not start with ID_CRED_I in the form of RFC 9528. -/
theorem C60_violated : ∀ c ∈ misSent, ∃ (i : Id) (h : History) (s s' : St Unit) (msg kid : Bytes),
    meant c = some i ∧ Session (Toy.env (alike c)) Toy.cfg () [] h s ∧
    step (Toy.env (alike c)) Toy.cfg (.compose3 100) s = (.ok (.bytes msg), s') ∧ CredSupplied (during s s') c kid ∧
    ∀ k iv aad pt ct, EncryptCall (during s s') k iv aad pt ct → ¬ i.field <+: pt := by
  have key : ∀ c i, meant c = some i →
      ((Toy.hst (alike c) beforeM3).all fun p => !Toy.isUb p.2 && !restarts p.1) = true →
      composed (pastM3 c).1 = true → Ev.credFetch (some (c, [0, 9])) ∈ during (atM3 c) (pastM3 c).2 →
      notSent i.field (during (atM3 c) (pastM3 c).2) = true →
      ∃ (i : Id) (h : History) (s s' : St Unit) (msg kid : Bytes),
        meant c = some i ∧ Session (Toy.env (alike c)) Toy.cfg () [] h s ∧
        step (Toy.env (alike c)) Toy.cfg (.compose3 100) s = (.ok (.bytes msg), s') ∧ CredSupplied (during s s') c kid ∧
        ∀ k iv aad pt ct, EncryptCall (during s s') k iv aad pt ct → ¬ i.field <+: pt := by
    intro c i h1 h2 h3 h4 h5
    obtain ⟨msg, h3⟩ := composed_spec h3
    exact ⟨i, _, atM3 c, (pastM3 c).2, msg, [0, 9], h1, atM3_session h2, pastM3_step h3, h4,
      fun _ _ _ _ _ he => notSent_spec h5 he⟩
  intro c hc
  simp only [misSent, List.mem_cons, List.not_mem_nil, or_false] at hc
  rcases hc with rfl | rfl | rfl | rfl
  · exact key _ (.kid [1, 2]) rfl (by decide +kernel) (by decide +kernel) (by decide +kernel) (by decide +kernel)
  · exact key _ (.kid [0x32]) rfl (by decide +kernel) (by decide +kernel) (by decide +kernel) (by decide +kernel)
  · exact key _ (.kid [0x32]) (by decide) (by decide +kernel) (by decide +kernel) (by decide +kernel) (by decide +kernel)
  · exact key _ (.kid [0x24]) (by decide) (by decide +kernel) (by decide +kernel) (by decide +kernel) (by decide +kernel)

/-- Bob, who knows every key identifier, as the credential `f` makes of it -/
def trusting (f : Cred → Cred) : Toy.Party := { Toy.bob with db := fun q => some (f q, Toy.dhPub [0, 9]) }

/-- message_3 with a credential -/
def m3With (c : Cred) : Bytes := match (pastM3 c).1 with | .ok (.bytes m) => m | _ => []

/-- the handshake up to message_3 -/
def beforeP3 : List Op := beforeM2 ++ [.compose2 100]

/-- all calls succeeded -/
def allOk (h : History) : Bool := h.all fun p => match p.2 with | .ok _ => true | _ => false

/-- Both parties use the library and agree on the credential, and all calls succeed up to message_3; but with a key
identifier of two bytes of a CBOR credential, or a negative integer, the Responder cannot read message_3, whatever its
application answers. -/
theorem C60_unreadable : ∀ c ∈ [Cred.kid [0xa0] true (.bstr [1, 2]), .kid [0xa0] true (.int (-19)), .kid [0xa0] true (.int (-5))],
    allOk (Toy.hst (alike c) beforeM3) = true ∧ allOk (Toy.hst (trusting fun _ => c) beforeP3) = true ∧
    (pastM3 c).1 = .ok (.bytes (m3With c)) ∧
    (step (Toy.env (trusting fun _ => c)) Toy.cfg (.process3 (m3With c)) (Toy.after (trusting fun _ => c) beforeP3)).1 =
      .err .cbor := by
  intro c hc
  simp only [List.mem_cons, List.not_mem_nil, or_false] at hc
  rcases hc with rfl | rfl | rfl
  all_goals exact ⟨by decide +kernel, by decide +kernel, by decide +kernel, by decide +kernel⟩

/-- the application that does what `edhoc_credentials.h:81-87` says: it adds the credential to what it received -/
def addCred (c : Bytes) (cbor : Bool) : Cred → Cred
  | .kid _ _ i => .kid c cbor i
  | q => q

/-- **C60 is violated** for received messages. ID_CRED_I is { 4 : h'2a' }, sent as the integer -11, and message_3 is as
RFC 9528 says. The Responder's application receives the integer and adds the credential; the library then computes MAC_3
over { 4 : -11 } and rejects the message. If the application also replaces the integer by the byte string, it is accepted. -/
theorem C60_received_violated :
    let c := Cred.kid [0xa0] true (.bstr [0x2a])
    SentRight c ∧ allOk (Toy.hst (alike c) beforeM3) = true ∧ (pastM3 c).1 = .ok (.bytes (m3With c)) ∧
    (let bob := trusting (addCred [0xa0] true)
     allOk (Toy.hst bob beforeP3) = true ∧
      (step (Toy.env bob) Toy.cfg (.process3 (m3With c)) (Toy.after bob beforeP3)).1 = .err .invalidSignOrMac3) ∧
    (let bob := trusting fun _ => c
     allOk (Toy.hst bob beforeP3) = true ∧
      (step (Toy.env bob) Toy.cfg (.process3 (m3With c)) (Toy.after bob beforeP3)).1 = .ok .unit) :=
  ⟨rfl, by decide +kernel, by decide +kernel, ⟨by decide +kernel, by decide +kernel⟩, by decide +kernel, by decide +kernel⟩

/-- There is no way to say it right: if the key identifier is not the encoding of a one-byte integer and CRED_x is a CBOR map
(a CWT Claims Set, as in RFC 9529), then no `edhoc_auth_cred_key_id` means this and is sent right. -/
theorem C60_no_setting {b x : Bytes} (hb : oneByteInt b = none) (hx : ∃ y r, x = y :: r ∧ y.toNat / 32 = 5) {c : Bytes} {f : Bool}
    {k : IntOrBytes} (hm : meant (.kid c f k) = some (.kid b)) (hc : cred (.kid c f k) = x) : ¬ SentRight (.kid c f k) := by
  intro hs
  cases k with
  | int v => exact hs
  | bstr b' =>
    cases hm
    have hs : f = (oneByteInt b).isSome := hs
    rw [hb] at hs
    subst hs
    obtain ⟨y, r, rfl, hy⟩ := hx
    have hc : encBstr c = y :: r := hc
    obtain ⟨q, t, h1, _, h3⟩ := head_cons 2 c.length (by decide)
    unfold encBstr at hc
    rw [h1] at hc
    cases (List.cons.inj hc).1
    omega

/-- Such credentials exist: key identifier h'0102' and CRED_x the empty map. -/
example : oneByteInt [1, 2] = none ∧ meant (.kid [0xa0] true (.bstr [1, 2])) = some (.kid [1, 2]) ∧
    cred (.kid [0xa0] true (.bstr [1, 2])) = [0xa0] := ⟨rfl, rfl, rfl⟩

/-- Non-vacuity of `C60_message3_partial`: message_3 with a key identifier of two bytes. -/
example : let c := Cred.kid [1, 2, 3] false (.bstr [1, 2])
    SentRight c ∧ meant c = some (.kid [1, 2]) ∧ Session (Toy.env (alike c)) Toy.cfg () [] (Toy.hst (alike c) beforeM3) (atM3 c) ∧
    (pastM3 c).1 = .ok (.bytes (m3With c)) ∧ SuiteSmall (atM3 c).ctx.suite :=
  ⟨rfl, rfl, atM3_session (by decide +kernel), by decide +kernel, by decide +kernel⟩

/-- Non-vacuity of `C60_message2_partial`: Bob's certificate. -/
example : SentRight Toy.bob.cred ∧ meant Toy.bob.cred = some (.x5chain [[1, 2, 3]]) ∧
    Session (Toy.env Toy.bob) Toy.cfg () [] (Toy.hst Toy.bob beforeM2) (Toy.after Toy.bob beforeM2) ∧
    (step (Toy.env Toy.bob) Toy.cfg (.compose2 100) (Toy.after Toy.bob beforeM2)).1 = .ok (.bytes (Toy.msg 3 2)) ∧
    (Toy.msg 3 2).length < 2 ^ 32 ∧ SuiteSmall (Toy.after Toy.bob beforeM2).ctx.suite :=
  ⟨trivial, rfl, Toy.session _ _ (by decide +kernel), by decide +kernel, by decide +kernel, by decide +kernel⟩

end Verif
