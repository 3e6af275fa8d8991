import Verif.Sent
import Verif.Config
import Verif.Props.Negotiation

/-!
# C20, C21, C22: what the compose calls write

Vocabulary: `message1`, `encStructure` (`Verif/SpecWire.lean`), the grammar of plaintexts (`Verif/SpecCbor.lean`),
`SentAs` (`Verif/SpecRound.lean`), callback calls (`Verif/SpecCalls.lean`).
-/

namespace Verif

open M Spec

variable {σ : Type} {E : Env σ} {cfg : Config}

/-- the EAD tokens that were sent -/
theorem sentEad_of {s s' : St σ} {m : Msg} {ts : List EadTok} (h : ComposedEad cfg s.ctx m ts s s') (h0 : s.ctx.ead = []) :
    SentEad cfg s.ctx (during s s') m ts := by
  obtain ⟨h1, h2, h3⟩ | ⟨h1, h2⟩ := h
  · exact Or.inl ⟨h1, h2, h3.mem⟩
  · exact Or.inr ⟨h1, h2.trans h0⟩

/-! ## C20: message_1 -/

theorem suitesItem_enc {c : Ctx} {b : Bytes} (hl : (suites c).length = c.csuiteLen) (h0 : c.csuiteLen ≠ 0)
    (h : encSuites (suitesI (chosen c 0)) = some b) : b = suitesItem ((suites c).map Suite.value) := by
  unfold suitesI at h
  split at h
  · rename_i h1
    have h1 : c.csuiteLen = 1 := h1
    simp only [encSuites, Option.some.injEq] at h
    rw [h1] at hl
    have h2 := hl
    unfold suites at hl
    rw [h1] at hl
    obtain ⟨a, t, ha⟩ : ∃ a t, c.csuiteArr = a :: t := by
      cases hc : c.csuiteArr with
      | nil => rw [hc] at hl; simp at hl
      | cons a t => exact ⟨a, t, rfl⟩
    have e : suites c = [a] := by unfold suites; rw [h1, ha]; rfl
    rw [e, ← h]
    simp [suitesItem, Ctx.suite, chosen, h1, ha]
  · rename_i h1
    have h1 : c.csuiteLen ≠ 1 := h1
    simp only [encSuites] at h
    split at h
    · simp only [Option.some.injEq] at h
      have e : ((chosen c 0).csuiteArr.take (chosen c 0).csuiteLen).map Suite.value = (suites c).map Suite.value := rfl
      rw [e] at h
      rw [← h]
      have h3 : ((suites c).map Suite.value).length ≠ 1 := by rw [List.length_map, hl]; exact h1
      unfold suitesItem
      split
      · rename_i v hv
        rw [hv] at h3; simp at h3
      · rfl
    · cases h

theorem eadAlwaysValue_id {ts : List EadTok} (h : ∀ t ∈ ts, t.value ≠ none) : eadAlwaysValue ts = ts := by
  unfold eadAlwaysValue
  refine (List.map_congr_left fun t ht => ?_).trans (List.map_id ts)
  obtain ⟨l, v⟩ := t
  cases v with
  | none => exact absurd rfl (h _ ht)
  | some v => rfl

/-- **C20**, except for EAD items without a value. A successful `edhoc_message_1_compose` writes METHOD (the first
configured method, 0 if none is configured), SUITES_I (all configured suites), G_X (a fresh key of the suite's length),
C_I and the EAD items of the application, in the encoding of RFC 9528, and stays within the buffer. Missing: EAD items
without a value are not encoded as RFC 9528 says, see `C20_violated`. -/
theorem C20_message1_partial {e : σ} {log : List Ev} {h : History} {s s' : St σ} {n : Nat} {msg : Bytes}
    (hs : Session E cfg e log h s) (hc : step E cfg (.compose1 n) s = (.ok (.bytes msg), s'))
    (hv : ∀ ts, Ev.eadCompose .msg1 (some ts) ∈ during s s' → ∀ t ∈ ts, t.value ≠ none) :
    ∃ x gx ts, KeyPairCall (during s s') x gx ∧ gx.length = s'.ctx.suite.eccKey ∧
      s'.ctx.suite.value = preferred s.ctx ∧ SentEad cfg s.ctx (during s s') .msg1 ts ∧
      msg = message1 (s.ctx.method.headD 0) ((suites s.ctx).map Suite.value) gx s.ctx.cid ts ∧ msg.length ≤ n := by
  obtain ⟨_, _, h1, h2, hc⟩ := step_compose1 rfl hc
  cases h1; cases h2
  obtain ⟨_, hst, hl, _, priv, pub, kid, ts, th, _, hp, hts, _, hk, hm, hf, _, _, hctx⟩ := message1Compose_ok hc
  have hst : s.ctx.status = .start := by
    simp only [okStart, Bool.and_eq_true, beq_iff_eq] at hst
    exact hst.1.1
  have hts := sentEad_of (m := .msg1) hts (session_ead hs (by rw [hst]; simp))
  have hv : ∀ t ∈ ts, t.value ≠ none := by
    rcases hts with ⟨_, _, h⟩ | ⟨_, rfl⟩
    · exact hv ts h
    · simp
  obtain ⟨su, ci, ea, h1, h2, h3, h4⟩ := encMsg1_ok hm
  refine ⟨priv, pub, ts, ⟨kid, hk.made⟩, by rw [hp, hctx]; rfl, by rw [hctx]; rfl, hts, ?_, hf⟩
  simp only at h1 h2 h3 h4
  rw [h4, suitesItem_enc (session_suites hs) hl h1]
  have e2 : ci = cidItem s.ctx.cid := Option.some.inj (h2.symm.trans (ownCid_enc (session_ownCid hs)))
  rw [e2, (encEadOpt_spec h3).1, eadAlwaysValue_id hv]
  rfl

/-- all EAD items of message_1 have a value -/
def valuesB (L : List Ev) : Bool :=
  L.all fun e => match e with
    | .eadCompose .msg1 (some ts) => ts.all fun t => t.value.isSome
    | _ => true

theorem values_of {L : List Ev} (h : valuesB L = true) :
    ∀ ts, Ev.eadCompose .msg1 (some ts) ∈ L → ∀ t ∈ ts, t.value ≠ none := by
  intro ts ht t hm hv
  have h1 := List.all_eq_true.1 h _ ht
  have h2 := List.all_eq_true.1 h1 t hm
  rw [hv] at h2
  cases h2

/-- Non-vacuity: Alice sends one EAD item with a value in message_1. -/
example : Session (Toy.env Toy.alice) Toy.cfg () [] (Toy.hst Toy.alice (Toy.conf 3 (.int 5)))
      (Toy.after Toy.alice (Toy.conf 3 (.int 5))) ∧
    (step (Toy.env Toy.alice) Toy.cfg (.compose1 100) (Toy.after Toy.alice (Toy.conf 3 (.int 5)))).1 =
      .ok (.bytes (message1 3 [2] [0, 124] (.int 5) [⟨1, some [7]⟩])) ∧
    (∀ ts, Ev.eadCompose .msg1 (some ts) ∈ during (Toy.after Toy.alice (Toy.conf 3 (.int 5)))
        (step (Toy.env Toy.alice) Toy.cfg (.compose1 100) (Toy.after Toy.alice (Toy.conf 3 (.int 5)))).2 →
      ∀ t ∈ ts, t.value ≠ none) :=
  ⟨Toy.session _ _ (by decide +kernel), by decide +kernel, values_of (by decide +kernel)⟩

/-- Alice with an EAD item without a value in message_1 -/
def plainEad : Toy.Party := { Toy.alice with ead := fun m => if m = .msg1 then [⟨1, none⟩] else [] }

/-- **C20 is violated** for EAD items without a value: the EAD callback returns one item with label 1 and no value, and
message_1 contains an item with an empty value instead (`0x01 0x40`, not `0x01`). -/
theorem C20_violated : ∃ (p : Toy.Party) (h : History) (s s' : St Unit) (msg : Bytes),
    Session (Toy.env p) Toy.cfg () [] h s ∧ step (Toy.env p) Toy.cfg (.compose1 100) s = (.ok (.bytes msg), s') ∧
    Ev.eadCompose .msg1 (some [⟨1, none⟩]) ∈ during s s' ∧
    msg = message1 3 [2] [0, 124] (.int 5) [⟨1, some []⟩] ∧
    msg ≠ message1 3 [2] [0, 124] (.int 5) [⟨1, none⟩] :=
  ⟨plainEad, Toy.hst plainEad (Toy.conf 3 (.int 5)), Toy.after plainEad (Toy.conf 3 (.int 5)),
    (step (Toy.env plainEad) Toy.cfg (.compose1 100) (Toy.after plainEad (Toy.conf 3 (.int 5)))).2,
    [3, 2, 66, 0, 124, 5, 1, 64], Toy.session _ _ (by decide +kernel), Prod.ext (by decide +kernel) rfl, by decide +kernel,
    by decide +kernel, by decide +kernel⟩

/-! ## C21: messages 2, 3 and 4 -/

/-- The application's tokens and the authentication field are values the C types can hold. -/
def Sizes (sig : Bytes) (ts : List EadTok) : Prop :=
  SizeOk sig ∧ ∀ t ∈ ts, Int32Range t.label ∧ ∀ v, t.value = some v → SizeOk v

/-- **C21**, message_2. A successful `edhoc_message_2_compose` writes the byte string G_Y || CIPHERTEXT_2, where G_Y is a
fresh key of the suite's length, CIPHERTEXT_2 is PLAINTEXT_2 XOR KEYSTREAM_2, KEYSTREAM_2 is expanded with label 0 and
TH_2 from PRK_2e = Extract(TH_2, G_XY), TH_2 = H(G_Y, H(message_1)), and PLAINTEXT_2 contains C_R, the identifier of the
application's credential, Signature_or_MAC_2 and the application's EAD items. It stays within the buffer. -/
theorem C21_message2 {e : σ} {log : List Ev} {h : History} {s s' : St σ} {n : Nat} {msg : Bytes}
    (hs : Session E cfg e log h s) (hc : step E cfg (.compose2 n) s = (.ok (.bytes msg), s')) (hm : msg.length < 2 ^ 32) :
    ∃ y gy gxy th2 prk2e ks ptxt cr kid sig ts,
      KeyPairCall (during s s') y gy ∧ gy.length = s.ctx.suite.eccKey ∧
      AgreeCall (during s s') y s.ctx.dhPeerPub gxy ∧ HashCall (during s s') (encBstr gy ++ encBstr s.ctx.th) th2 ∧
      ExtractCall (during s s') th2 gxy prk2e ∧ ExpandCall (during s s') prk2e 0 th2 ptxt.length ks ∧
      msg = encBstr (gy ++ List.zipWith (· ^^^ ·) ptxt ks) ∧ msg.length ≤ n ∧
      CredSupplied (during s s') cr kid ∧ SentEad cfg s.ctx (during s s') .msg2 ts ∧
      (∀ i, SentAs cr i → Sizes sig ts → Plaintext2 s.ctx.cid ⟨i, sig, ts⟩ ptxt) := by
  obtain ⟨_, _, h1, h2, hc⟩ := step_compose2 rfl hc
  cases h1; cases h2
  obtain ⟨priv, pub, kid, v, c⟩ := message2Compose_ok hc
  have hst : s.ctx.status ≠ .aborted := by
    have := c.state
    simp only [okReceivedM1, Bool.and_eq_true, beq_iff_eq] at this
    intro h; rw [h] at this; simp at this
  obtain ⟨k, hk⟩ := c.keyPair
  have hks : v.ks.length = v.ptxt.length := c.ks.1
  have hx : (xorBytes v.ptxt v.ks).length = v.ptxt.length := xorBytes_length hks
  have hm2 := hm
  rw [c.out, encBstr_length, List.length_append, hx] at hm2
  obtain ⟨t, ht, hp⟩ := c.ptxt
  refine ⟨priv, pub, v.gxy, v.th2, v.prk2e, v.ks, v.ptxt, v.cred, kid, v.sig, v.ead,
    ⟨k, List.IsInfix.trans ⟨[.importKey .makeKeyPair [] (some k)], [], rfl⟩ hk.made⟩, c.pubLen, c.agreed.call,
    c.th2.call, c.prk2e.call, c.ks.call (by omega), c.out, c.fits, c.fetch.mem, sentEad_of c.ead (session_ead hs hst), ?_⟩
  intro i hi hz
  refine ⟨_, t, ?_, ptxtTail_item ht hi hz.1 hz.2, hp⟩
  refine encCid_item (ownCid_enc (session_ownCid hs)) fun x hx => ?_
  unfold SizeOk
  rw [hp, hx] at hm2
  simp only [cidItem, List.length_append, encBstr_length] at hm2
  omega

/-- **C21**, message_3. A successful `edhoc_message_3_compose` writes the byte string CIPHERTEXT_3, which is the AEAD
encryption of PLAINTEXT_3 with K_3, IV_3 (labels 3 and 4, from the pseudorandom key and transcript hash of the context) and
AAD ["Encrypt0", h'', TH_3]; PLAINTEXT_3 contains the identifier of the application's credential, Signature_or_MAC_3 and
the application's EAD items. It stays within the buffer. -/
theorem C21_message3 {e : σ} {log : List Ev} {h : History} {s s' : St σ} {n : Nat} {msg : Bytes}
    (hs : Session E cfg e log h s) (hc : step E cfg (.compose3 n) s = (.ok (.bytes msg), s'))
    (hsu : SuiteSmall s.ctx.suite) :
    ∃ k iv ct ptxt cr kid sig ts,
      ExpandCall (during s s') s.ctx.prk 3 s.ctx.th s.ctx.suite.aeadKey k ∧
      ExpandCall (during s s') s.ctx.prk 4 s.ctx.th s.ctx.suite.aeadIv iv ∧
      EncryptCall (during s s') k iv (encStructure s.ctx.th) ptxt ct ∧
      msg = encBstr ct ∧ msg.length ≤ n ∧
      CredSupplied (during s s') cr kid ∧ SentEad cfg s.ctx (during s s') .msg3 ts ∧
      (∀ i, SentAs cr i → Sizes sig ts → Plaintext3 ⟨i, sig, ts⟩ ptxt) := by
  obtain ⟨_, _, h1, h2, hc⟩ := step_compose3 rfl hc
  cases h1; cases h2
  obtain ⟨kid, v, c⟩ := message3Compose_ok hc
  have hst : s.ctx.status ≠ .aborted := by
    have := c.state
    simp only [okVerifiedM2, Bool.and_eq_true, beq_iff_eq] at this
    intro h; rw [h] at this; simp at this
  exact ⟨v.k3, v.iv3, v.ctxt, v.ptxt, v.cred, kid, v.sig, v.ead, c.keys.1.call hsu.1, c.keys.2.call hsu.2.1, c.encrypted.call,
    c.out, c.fits, c.fetch.mem, sentEad_of c.ead (session_ead hs hst), fun i hi hz => ptxtTail_item c.ptxt hi hz.1 hz.2⟩

/-- **C21**, message_4: the byte string CIPHERTEXT_4, the AEAD encryption of the application's EAD items with K_4, IV_4
(labels 8 and 9, from the pseudorandom key and transcript hash of the context) and AAD ["Encrypt0", h'', TH_4]. -/
theorem C21_message4 {e : σ} {log : List Ev} {h : History} {s s' : St σ} {n : Nat} {msg : Bytes}
    (hs : Session E cfg e log h s) (hc : step E cfg (.compose4 n) s = (.ok (.bytes msg), s'))
    (hsu : SuiteSmall s.ctx.suite) :
    ∃ k iv ct ts,
      ExpandCall (during s s') s.ctx.prk 8 s.ctx.th s.ctx.suite.aeadKey k ∧
      ExpandCall (during s s') s.ctx.prk 9 s.ctx.th s.ctx.suite.aeadIv iv ∧
      EncryptCall (during s s') k iv (encStructure s.ctx.th) (Spec.ead ts) ct ∧
      msg = encBstr ct ∧ msg.length ≤ n ∧ SentEad cfg s.ctx (during s s') .msg4 ts := by
  obtain ⟨_, _, h1, h2, hc⟩ := step_compose4 rfl hc
  cases h1; cases h2
  obtain ⟨ts, k, iv, ptxt, ct, c⟩ := message4Compose_ok hc
  have hst : s.ctx.status ≠ .aborted := by
    have := c.state
    simp only [okCompleted, Bool.and_eq_true, beq_iff_eq] at this
    intro h; rw [h] at this; simp at this
  have he := c.encrypted.call
  rw [c.plain] at he
  exact ⟨k, iv, ct, ts, c.keys.1.call hsu.1, c.keys.2.call hsu.2.1, he, c.out, c.fits,
    sentEad_of c.composed (session_ead hs hst)⟩

/-- the calls before message_2, message_3 and message_4 in honest handshakes -/
def beforeM2 : List Op := Toy.conf 3 (.bstr [0x18, 9]) ++ [.process1 (Toy.msg 3 1)]
@[inherit_doc beforeM2]
def beforeM3 : List Op := Toy.conf 3 (.int 5) ++ [.compose1 100, .process2 (Toy.msg 3 2)]
@[inherit_doc beforeM2]
def beforeM4 : List Op := beforeM2 ++ [.compose2 100, .process3 (Toy.msg 3 3)]

/-- Non-vacuity of `C21_message2`: Bob sends message_2; his credential is a certificate. -/
example : Session (Toy.env Toy.bob) Toy.cfg () [] (Toy.hst Toy.bob beforeM2) (Toy.after Toy.bob beforeM2) ∧
    (step (Toy.env Toy.bob) Toy.cfg (.compose2 100) (Toy.after Toy.bob beforeM2)).1 = .ok (.bytes (Toy.msg 3 2)) ∧
    (Toy.msg 3 2).length < 2 ^ 32 ∧ ∃ i, SentAs Toy.bob.cred i :=
  ⟨Toy.session Toy.bob beforeM2 (by decide +kernel), by decide +kernel, by decide +kernel, _, .cert (by decide)⟩

/-- Non-vacuity of `C21_message3`: Alice sends message_3; her credential is a key identifier. -/
example : Session (Toy.env Toy.alice) Toy.cfg () [] (Toy.hst Toy.alice beforeM3) (Toy.after Toy.alice beforeM3) ∧
    (step (Toy.env Toy.alice) Toy.cfg (.compose3 100) (Toy.after Toy.alice beforeM3)).1 = .ok (.bytes (Toy.msg 3 3)) ∧
    SuiteSmall (Toy.after Toy.alice beforeM3).ctx.suite ∧ ∃ i, SentAs Toy.alice.cred i :=
  ⟨Toy.session Toy.alice beforeM3 (by decide +kernel), by decide +kernel, by decide +kernel, _,
    .kidInt _ (by decide) (by decide)⟩

/-- Non-vacuity of `C21_message4`: Bob sends message_4 with an EAD item. -/
example : Session (Toy.env Toy.bob) Toy.cfg () [] (Toy.hst Toy.bob beforeM4) (Toy.after Toy.bob beforeM4) ∧
    (step (Toy.env Toy.bob) Toy.cfg (.compose4 100) (Toy.after Toy.bob beforeM4)).1 = .ok (.bytes (Toy.msg 3 4)) ∧
    SuiteSmall (Toy.after Toy.bob beforeM4).ctx.suite :=
  ⟨Toy.session Toy.bob beforeM4 (by decide +kernel), by decide +kernel, by decide +kernel⟩

/-! ## C22: output buffers -/

/-- The output fits the buffers the caller gave. -/
def Within : Op → Out → Prop
  | .compose1 n, .bytes b | .compose2 n, .bytes b | .compose3 n, .bytes b | .compose4 n, .bytes b => b.length ≤ n
  | .exportSecret _ n, .bytes b => b.length ≤ n
  | .exportOscore a b c d, .oscore o => o.secret.length ≤ a ∧ o.salt.length ≤ b ∧ o.sid.length ≤ c ∧ o.rid.length ≤ d
  | .getSuites a b, .suites own peer => own.length ≤ a ∧ peer.length ≤ b
  | _, _ => True

/-- **C22**, for calls that succeed: what is written, and the length that is reported, never exceed the size of the
caller's buffer. Missing: a call that does not succeed may have written past the end, see `C22_violated`. -/
theorem C22_outputs_fit_partial {s s' : St σ} {o : Op} {x : Out} (h : step E cfg o s = (.ok x, s')) : Within o x := by
  cases o <;> try (cases x <;> exact trivial)
  case compose1 n =>
    obtain ⟨_, _, h1, rfl, h⟩ := step_compose1 rfl h
    cases h1
    obtain ⟨_, _, _, _, _, _, _, _, _, _, _, _, _, _, _, h, _⟩ := message1Compose_ok h
    exact h
  case compose2 n =>
    obtain ⟨_, _, h1, rfl, h⟩ := step_compose2 rfl h
    cases h1
    obtain ⟨_, _, _, _, c⟩ := message2Compose_ok h
    exact c.fits
  case compose3 n =>
    obtain ⟨_, _, h1, rfl, h⟩ := step_compose3 rfl h
    cases h1
    obtain ⟨_, _, c⟩ := message3Compose_ok h
    exact c.fits
  case compose4 n =>
    obtain ⟨_, _, h1, rfl, h⟩ := step_compose4 rfl h
    cases h1
    obtain ⟨_, _, _, _, _, c⟩ := message4Compose_ok h
    exact c.fits
  case exportSecret l n =>
    obtain ⟨r, h1, ⟨a, rfl, h2⟩ | ⟨_, _, h2⟩ | ⟨_, _, h2⟩⟩ := step_export h <;> cases h2
    obtain ⟨_, _, _, h, _⟩ := exportSecret_ok h1
    exact Nat.le_of_eq h
  case exportOscore =>
    obtain ⟨r, h1, ⟨a, rfl, h2⟩ | ⟨_, _, h2⟩ | ⟨_, _, h2⟩⟩ := step_oscore h <;> cases h2
    obtain ⟨_, _, _, h3, h4, _, h5, _, h6, _⟩ := exportOscore_ok h1
    exact ⟨Nat.le_of_eq h3, Nat.le_of_eq h4, h5, h6⟩
  case getSuites a b =>
    obtain ⟨r, h1, ⟨p, rfl, h2⟩ | ⟨_, _, h2⟩ | ⟨_, _, h2⟩⟩ := mapOut_cases h <;> cases h2
    simp only [errorGetSuites, bind_ok, getCtx_ok, require_ok, guardUB_ok, pure_ok] at h1
    obtain ⟨_, _, ⟨rfl, rfl⟩, _, _, ⟨_, rfl⟩, _, _, ⟨_, rfl⟩, _, _, ⟨_, rfl⟩, _, _, ⟨h3, rfl⟩, _, _, ⟨h4, rfl⟩, _, _, ⟨_, rfl⟩, rfl, _⟩ := h1
    have h3 := of_decide_eq_true h3
    have h4 := of_decide_eq_true h4
    refine ⟨?_, h4⟩
    rw [List.length_map, List.length_take]
    omega

/-- Non-vacuity: the four compose calls and the exporters succeed in an honest handshake. -/
example : ∀ n ∈ [1, 2, 3, 4], Toy.msg 3 n ≠ [] := by decide +kernel

/-- **C22 is violated** by `edhoc_message_3_compose`: with a buffer one byte shorter than message_3 (here 8 bytes for 9), the
library writes past the end of the buffer. -/
theorem C22_violated : ∃ (h : History) (s : St Unit) (n : Nat),
    Session (Toy.env Toy.alice) Toy.cfg () [] h s ∧
    (∃ msg, (step (Toy.env Toy.alice) Toy.cfg (.compose3 (n + 1)) s).1 = .ok (.bytes msg) ∧ msg.length = n + 1) ∧
    (step (Toy.env Toy.alice) Toy.cfg (.compose3 n) s).1 = .ub .oob := by
  refine ⟨Toy.hst Toy.alice beforeM3, Toy.after Toy.alice beforeM3, 8, Toy.session Toy.alice beforeM3 (by decide +kernel),
    ⟨[72, 5, 66, 140, 253, 34, 216, 141, 216], by decide +kernel, rfl⟩, by decide +kernel⟩

end Verif
