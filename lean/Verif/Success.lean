import Verif.Outer1

/-!
# What a successful run of an inner function did

For each inner function: the context afterwards, and the calls that were made.
-/

namespace Verif

open M

variable {σ α β γ : Type}

/-! ## Primitives -/

section prim

variable {E : Env σ} {cfg : Config} {s s' : St σ}

theorem memAlloc_ok {n : Nat} {u : Unit} (h : memAlloc E cfg n s = (.ok u, s')) :
    s'.ctx = s.ctx ∧ Grow s s' := by
  have hc : ∀ x : Bool, (call (fun e => E.alloc e n) (.alloc n) s = (.ok x, s')) →
      s'.ctx = s.ctx ∧ Grow s s' := by
    intro x hx
    rw [call_ok] at hx
    obtain ⟨_, rfl⟩ := hx
    exact ⟨rfl, (saw_ext rfl).grow⟩
  unfold memAlloc at h
  cases hb : cfg.backend <;> simp only [hb] at h
  · simp only [bind_ok, guardUB_ok] at h
    obtain ⟨_, s1, ⟨_, rfl⟩, _, rfl⟩ := h
    exact ⟨rfl, Saw.refl _⟩
  · simp only [bind_ok, require_ok] at h
    obtain ⟨x, s1, h1, _, rfl⟩ := h
    exact hc x h1

theorem needKeys_ok {u : Unit} : (needKeys : M σ Unit) s = (.ok u, s') ↔
    s.ctx.hasKeys = true ∧ s = s' := by
  simp only [needKeys, bind_ok, getCtx_ok, guardUB_ok]
  constructor
  · rintro ⟨c, s1, ⟨rfl, rfl⟩, h, rfl⟩; exact ⟨h, rfl⟩
  · rintro ⟨h, rfl⟩; exact ⟨_, _, ⟨rfl, rfl⟩, h, rfl⟩

theorem needCrypto_ok {u : Unit} : (needCrypto : M σ Unit) s = (.ok u, s') ↔
    s.ctx.hasCrypto = true ∧ s = s' := by
  simp only [needCrypto, bind_ok, getCtx_ok, guardUB_ok]
  constructor
  · rintro ⟨c, s1, ⟨rfl, rfl⟩, h, rfl⟩; exact ⟨h, rfl⟩
  · rintro ⟨h, rfl⟩; exact ⟨_, _, ⟨rfl, rfl⟩, h, rfl⟩

theorem needCred_ok {u : Unit} : (needCred : M σ Unit) s = (.ok u, s') ↔
    s.ctx.hasCred = true ∧ s = s' := by
  simp only [needCred, bind_ok, getCtx_ok, guardUB_ok]
  constructor
  · rintro ⟨c, s1, ⟨rfl, rfl⟩, h, rfl⟩; exact ⟨h, rfl⟩
  · rintro ⟨h, rfl⟩; exact ⟨_, _, ⟨rfl, rfl⟩, h, rfl⟩

/-- a call through `ctx->crypto` -/
theorem crypto_ok {f : σ → β × σ} {ev : β → Ev} {b : β} :
    (needCrypto >>= fun _ => M.call f ev) s = (.ok b, s') ↔
      s.ctx.hasCrypto = true ∧ (f s.env).1 = b ∧
        ⟨s.ctx, (f s.env).2, s.log ++ [ev b]⟩ = s' := by
  simp only [bind_ok, needCrypto_ok, call_ok]
  constructor
  · rintro ⟨_, s1, ⟨h, rfl⟩, h1, h2⟩; exact ⟨h, h1, h2⟩
  · rintro ⟨h, h1, h2⟩; exact ⟨(), s, ⟨h, rfl⟩, h1, h2⟩

theorem cred_ok {f : σ → β × σ} {ev : β → Ev} {b : β} :
    (needCred >>= fun _ => M.call f ev) s = (.ok b, s') ↔
      s.ctx.hasCred = true ∧ (f s.env).1 = b ∧
        ⟨s.ctx, (f s.env).2, s.log ++ [ev b]⟩ = s' := by
  simp only [bind_ok, needCred_ok, call_ok]
  constructor
  · rintro ⟨_, s1, ⟨h, rfl⟩, h1, h2⟩; exact ⟨h, h1, h2⟩
  · rintro ⟨h, h1, h2⟩; exact ⟨(), s, ⟨h, rfl⟩, h1, h2⟩

theorem keys_ok {f : σ → β × σ} {ev : β → Ev} {b : β} :
    (needKeys >>= fun _ => M.call f ev) s = (.ok b, s') ↔
      s.ctx.hasKeys = true ∧ (f s.env).1 = b ∧
        ⟨s.ctx, (f s.env).2, s.log ++ [ev b]⟩ = s' := by
  simp only [bind_ok, needKeys_ok, call_ok]
  constructor
  · rintro ⟨_, s1, ⟨h, rfl⟩, h1, h2⟩; exact ⟨h, h1, h2⟩
  · rintro ⟨h, h1, h2⟩; exact ⟨(), s, ⟨h, rfl⟩, h1, h2⟩

theorem withKey_ok {t : KeyType} {raw : Bytes} {e : Err} {op : Bytes → M σ α} {r : α} :
    withKey E t raw e op s = (.ok r, s') ↔
      s.ctx.hasKeys = true ∧ ∃ kid e1 s2, E.importKey s.env t raw = (some kid, e1) ∧
        op kid ⟨s.ctx, e1, s.log ++ [.importKey t raw (some kid)]⟩ = (.ok r, s2) ∧
        s2.ctx.hasKeys = true ∧
        s' = ⟨s2.ctx, E.destroyKey s2.env kid, s2.log ++ [.destroyKey kid]⟩ := by
  unfold withKey importKey destroyKey
  simp only [bind_ok, ofOption_ok, pure_ok]
  simp only [needKeys_ok, call_ok]
  constructor
  · rintro ⟨k, s1, ⟨_, _, ⟨hk, rfl⟩, h1, rfl⟩, kid, s2, ⟨rfl, rfl⟩, x, s3, h3, u, s4,
      ⟨_, _, ⟨hk2, rfl⟩, -, rfl⟩, rfl, rfl⟩
    exact ⟨hk, kid, _, s3, Prod.ext h1 rfl, h3, hk2, rfl⟩
  · rintro ⟨hk, kid, e1, s2, h1, h2, hk2, rfl⟩
    refine ⟨some kid, _, ⟨(), s, ⟨hk, rfl⟩, by rw [h1], rfl⟩, kid, _, ⟨rfl, rfl⟩, r, s2, ?_,
      (), _, ⟨(), s2, ⟨hk2, rfl⟩, trivial, rfl⟩, rfl, rfl⟩
    rw [h1]; exact h2

/-- `withKey` around a single crypto call: the three calls that were made -/
theorem withKey_crypto_ok {t : KeyType} {raw : Bytes} {e : Err} {f : Bytes → σ → β × σ}
    {ev : Bytes → β → Ev} {r : β}
    (h : withKey E t raw e (fun kid => needCrypto >>= fun _ => M.call (f kid) (ev kid)) s =
      (.ok r, s')) :
    s'.ctx = s.ctx ∧ ∃ kid e1, E.importKey s.env t raw = (some kid, e1) ∧ (f kid e1).1 = r ∧
      s'.log = s.log ++ [.importKey t raw (some kid), ev kid r, .destroyKey kid] := by
  rw [withKey_ok] at h
  obtain ⟨_, kid, e1, s2, h1, h2, _, rfl⟩ := h
  rw [crypto_ok] at h2
  obtain ⟨_, h2, rfl⟩ := h2
  exact ⟨rfl, kid, e1, h1, h2, by simp⟩

theorem withKey_guard_crypto_ok {t : KeyType} {raw : Bytes} {e : Err} {f : Bytes → σ → β × σ}
    {ev : Bytes → β → Ev} {r : β} {b : Bool} {u : UB}
    (h : withKey E t raw e (fun kid => M.guardUB b u >>= fun _ =>
      needCrypto >>= fun _ => M.call (f kid) (ev kid)) s = (.ok r, s')) :
    b = true ∧ s'.ctx = s.ctx ∧ ∃ kid e1, E.importKey s.env t raw = (some kid, e1) ∧
      (f kid e1).1 = r ∧
      s'.log = s.log ++ [.importKey t raw (some kid), ev kid r, .destroyKey kid] := by
  rw [withKey_ok] at h
  obtain ⟨_, kid, e1, s2, h1, h2, _, rfl⟩ := h
  rw [bind_ok] at h2
  obtain ⟨_, s3, h3, h2⟩ := h2
  rw [guardUB_ok] at h3
  obtain ⟨hb, rfl⟩ := h3
  rw [crypto_ok] at h2
  obtain ⟨_, h2, rfl⟩ := h2
  exact ⟨hb, rfl, kid, e1, h1, h2, by simp⟩

end prim

/-! ## The calls around a key -/

/-- `out` was expanded from `prk` with `info` -/
def evExpand (kid prk info : Bytes) (n : Nat) (out : Bytes) : List Ev :=
  [.importKey .expand prk (some kid), .expand kid info n (some out), .destroyKey kid]

/-- `out` was extracted from `ikm` with `salt` -/
def evExtract (kid ikm salt out : Bytes) : List Ev :=
  [.importKey .extract ikm (some kid), .extract kid salt (some out), .destroyKey kid]

/-- `out` is the agreement of the raw private key `sk` with `pk` -/
def evAgree (kid sk pk out : Bytes) : List Ev :=
  [.importKey .keyAgreement sk (some kid), .keyAgreement kid pk (some out), .destroyKey kid]

/-- a key pair was generated -/
def evKeyPair (kid priv pub : Bytes) : List Ev :=
  [.importKey .makeKeyPair [] (some kid), .makeKeyPair kid (some (priv, pub)), .destroyKey kid]

/-- the signature was accepted -/
def evVerify (kid pk input sig : Bytes) : List Ev :=
  [.importKey .verify pk (some kid), .verify kid input sig true, .destroyKey kid]

/-- AEAD encryption -/
def evEncrypt (kid key iv aad ptxt ctxt : Bytes) : List Ev :=
  [.importKey .encrypt key (some kid), .encrypt kid iv aad ptxt (some ctxt), .destroyKey kid]

/-- AEAD decryption accepted -/
def evDecrypt (kid key iv aad ctxt ptxt : Bytes) : List Ev :=
  [.importKey .decrypt key (some kid), .decrypt kid iv aad ctxt (some ptxt), .destroyKey kid]

theorem fitLen_length (n : Nat) (b : Bytes) : (fitLen n b).length = n := by
  unfold fitLen
  simp only [List.length_append, List.length_take, List.length_replicate]
  omega

theorem fitLen_self {n : Nat} {b : Bytes} (h : b.length = n) : fitLen n b = b := by
  unfold fitLen
  subst h
  simp

section inner

variable {E : Env σ} {cfg : Config} {s s' : St σ}

theorem withExpand_ok {prk info : Bytes} {n : Nat} {e e' : Err} {r : Bytes} {m : Option Bytes}
    {s1 : St σ}
    (h : withKey E .expand prk e (fun kid => expand E kid info n) s = (.ok m, s1))
    (h' : (M.ofOption e' m : M σ Bytes) s1 = (.ok r, s')) :
    s'.ctx = s.ctx ∧ r.length = n ∧ ∃ kid, s'.log = s.log ++ evExpand kid prk info n r := by
  rw [ofOption_ok] at h'
  obtain ⟨rfl, rfl⟩ := h'
  obtain ⟨hc, kid, e1, _, h2, hl⟩ := withKey_crypto_ok h
  refine ⟨hc, ?_, kid, hl⟩
  simp only [Option.map_eq_some_iff] at h2
  obtain ⟨x, _, rfl⟩ := h2
  exact fitLen_length _ _

theorem kdfExact_ok {prk : Bytes} {label : Nat} {context : Bytes} {n : Nat} {r : Bytes}
    (h : kdfExact E cfg prk label context n s = (.ok r, s')) :
    s'.ctx = s.ctx ∧ r.length = n ∧
      ∃ kid, Saw (evExpand kid prk (encInfo label context (u32 n)) n r) s s' := by
  simp only [kdfExact, bind_ok, ofOption_ok, require_ok, fits] at h
  obtain ⟨_, s1, h1, info, s2, ⟨h2, rfl⟩, _, _, ⟨_, rfl⟩, m, s3, h3, h4, rfl⟩ := h
  obtain ⟨c1, g1⟩ := memAlloc_ok h1
  obtain ⟨c2, l, kid, g2⟩ := withExpand_ok (e' := .crypto) h3 (ofOption_ok.2 ⟨h4, rfl⟩)
  split at h2
  · simp only [Option.some.injEq] at h2
    subst h2
    exact ⟨c2.trans c1, l, kid, g1.right (saw_ext g2)⟩
  · simp at h2

theorem expandInfo_ok {k : Nat} {prk : Bytes} {label : Nat} {context : Bytes} {len n : Nat}
    {r : Bytes} (h : expandInfo E k prk label context len n s = (.ok r, s')) :
    s'.ctx = s.ctx ∧ r.length = n ∧
      ∃ kid, s'.log = s.log ++ evExpand kid prk (encInfo label context (u32 len)) n r := by
  simp only [expandInfo, bind_ok, ofOption_ok, fits] at h
  obtain ⟨info, s2, ⟨h2, rfl⟩, m, s3, h3, h4, rfl⟩ := h
  obtain ⟨c2, l, kid, g2⟩ := withExpand_ok (e' := .crypto) h3 (ofOption_ok.2 ⟨h4, rfl⟩)
  split at h2
  · simp only [Option.some.injEq] at h2
    subst h2
    exact ⟨c2, l, kid, g2⟩
  · simp at h2

theorem hashTh_ok {input r : Bytes} (h : hashTh E cfg input s = (.ok r, s')) :
    s'.ctx = s.ctx ∧ r.length = s.ctx.suite.hash ∧ s.ctx.suite.hash ≤ cfg.maxMac ∧
      s'.log = s.log ++ [.hash input (some r)] := by
  simp only [hashTh, hash, bind_ok, getCtx_ok, guardUB_ok, ofOption_ok, require_ok, pure_ok,
    needCrypto_ok, call_ok] at h
  obtain ⟨_, _, ⟨rfl, rfl⟩, _, _, ⟨hb, rfl⟩, x, _, ⟨_, _, ⟨_, rfl⟩, h2, rfl⟩, y, _, ⟨rfl, rfl⟩,
    _, _, ⟨hl, rfl⟩, rfl, rfl⟩ := h
  refine ⟨rfl, by simpa using hl, by simpa using hb, rfl⟩

theorem genDhKeys_ok {u : Unit} (h : genDhKeys E cfg s = (.ok u, s')) :
    ∃ priv pub kid, s'.ctx = { s.ctx with dhPriv := priv, dhPub := pub } ∧
      priv.length = s.ctx.suite.eccKey ∧ pub.length = s.ctx.suite.eccKey ∧
      Saw (evKeyPair kid priv pub) s s' := by
  simp only [genDhKeys, makeKeyPair, bind_ok, getCtx_ok, ofOption_ok, modCtx_ok, require_ok] at h
  obtain ⟨_, _, ⟨rfl, rfl⟩, kp, s1, h1, kp', _, ⟨rfl, rfl⟩, _, _, rfl, hl, rfl⟩ := h
  obtain ⟨_, hc, kid, e1, _, _, hlog⟩ := withKey_guard_crypto_ok h1
  simp only [Bool.and_eq_true, beq_iff_eq] at hl
  exact ⟨kp'.1, kp'.2, kid, by rw [hc], hl.1, hl.2, saw_ext hlog⟩

theorem compDhSecret_ok {u : Unit} (h : compDhSecret E cfg s = (.ok u, s')) :
    ∃ sec kid, s'.ctx = { s.ctx with dhSecret := sec } ∧ sec.length = s.ctx.suite.eccKey ∧
      Saw (evAgree kid s.ctx.dhPriv s.ctx.dhPeerPub sec) s s' := by
  simp only [compDhSecret, keyAgreement, bind_ok, getCtx_ok, ofOption_ok, modCtx_ok, require_ok] at h
  obtain ⟨_, _, ⟨rfl, rfl⟩, x, s1, h1, x', _, ⟨rfl, rfl⟩, _, _, rfl, hl, rfl⟩ := h
  obtain ⟨_, hc, kid, e1, _, _, hlog⟩ := withKey_guard_crypto_ok h1
  exact ⟨x', kid, by rw [hc], by simpa using hl, saw_ext hlog⟩

theorem fits_some {n : Nat} {b r : Bytes} (h : fits n b = some r) : r = b ∧ b.length ≤ n := by
  unfold fits at h
  split at h
  · simp only [Option.some.injEq] at h; exact ⟨h.symm, by assumption⟩
  · simp at h

theorem compTh2_ok {u : Unit} (h : compTh2 E cfg s = (.ok u, s')) :
    s.ctx.thState = .th1 ∧ ∃ t, s'.ctx = { s.ctx with th := t, thState := .th2 } ∧
      t.length = s.ctx.suite.hash ∧ s.ctx.suite.hash ≤ cfg.maxMac ∧
      (encBstr (gY s.ctx)).length = s.ctx.suite.eccKey + bstrOh s.ctx.suite.eccKey ∧
      (encBstr s.ctx.th).length = s.ctx.suite.hash + bstrOh s.ctx.suite.hash ∧
      Saw [.hash (encBstr (gY s.ctx) ++ encBstr s.ctx.th) (some t)] s s' := by
  simp only [compTh2, bind_ok, getCtx_ok, ofOption_ok, modCtx_ok, require_ok] at h
  obtain ⟨_, _, ⟨rfl, rfl⟩, _, _, ⟨h0, rfl⟩, _, s1, h1, a, _, ⟨ha, rfl⟩, _, _, ⟨hal, rfl⟩,
    b, _, ⟨hb, rfl⟩, _, _, ⟨hbl, rfl⟩, t, s2, h2, rfl⟩ := h
  obtain ⟨c1, g1⟩ := memAlloc_ok h1
  obtain ⟨c2, l2, x2, g2⟩ := hashTh_ok h2
  obtain ⟨rfl, _⟩ := fits_some ha
  obtain ⟨rfl, _⟩ := fits_some hb
  refine ⟨by simpa using h0, t, by rw [c2, c1], by rw [l2, c1], c1 ▸ x2, by simpa using hal,
    by simpa using hbl, g1.right (saw_ext g2)⟩

theorem extractPrk_ok {ikm salt r : Bytes} (h : extractPrk E cfg ikm salt s = (.ok r, s')) :
    s'.ctx = s.ctx ∧ r.length = s.ctx.suite.hash ∧
      ∃ kid, s'.log = s.log ++ evExtract kid ikm salt r := by
  simp only [extractPrk, extract, bind_ok, getCtx_ok, ofOption_ok, require_ok, pure_ok] at h
  obtain ⟨_, _, ⟨rfl, rfl⟩, x, s1, h1, x', _, ⟨rfl, rfl⟩, _, _, ⟨hl, rfl⟩, rfl, rfl⟩ := h
  obtain ⟨_, hc, kid, e1, _, _, hlog⟩ := withKey_guard_crypto_ok h1
  exact ⟨hc, by simpa using hl, kid, hlog⟩

theorem compPrk2e_ok {u : Unit} (h : compPrk2e E cfg s = (.ok u, s')) :
    s.ctx.thState = .th2 ∧ s.ctx.prkState = .invalid ∧ ∃ p kid,
      s'.ctx = { s.ctx with prk := p, prkState := .prk2e } ∧ p.length = s.ctx.suite.hash ∧
      Saw (evExtract kid s.ctx.dhSecret s.ctx.th p) s s' := by
  simp only [compPrk2e, bind_ok, getCtx_ok, modCtx_ok, require_ok] at h
  obtain ⟨_, _, ⟨rfl, rfl⟩, _, _, ⟨h0, rfl⟩, p, s1, h1, rfl⟩ := h
  obtain ⟨c1, l1, kid, g1⟩ := extractPrk_ok h1
  simp only [Bool.and_eq_true, beq_iff_eq] at h0
  exact ⟨h0.1, h0.2, p, kid, by rw [c1], l1, saw_ext g1⟩

theorem compSalt3e2m_ok {r : Bytes} (h : compSalt3e2m E cfg s = (.ok r, s')) :
    s.ctx.thState = .th2 ∧ s.ctx.prkState = .prk2e ∧ s'.ctx = s.ctx ∧
      r.length = s.ctx.suite.hash ∧ ∃ kid,
      Saw (evExpand kid s.ctx.prk (encInfo 1 s.ctx.th (u32 s.ctx.suite.hash)) s.ctx.suite.hash r) s s' := by
  simp only [compSalt3e2m, bind_ok, getCtx_ok, require_ok] at h
  obtain ⟨_, _, ⟨rfl, rfl⟩, _, _, ⟨_, rfl⟩, _, _, ⟨h0, rfl⟩, h1⟩ := h
  obtain ⟨c, l, g⟩ := kdfExact_ok h1
  simp only [Bool.and_eq_true, beq_iff_eq] at h0
  exact ⟨h0.1, h0.2, c, l, g⟩

theorem compSalt4e3m_ok {r : Bytes} (h : compSalt4e3m E cfg s = (.ok r, s')) :
    s.ctx.thState = .th3 ∧ s.ctx.prkState = .prk3e2m ∧ s'.ctx = s.ctx ∧
      r.length = s.ctx.suite.hash ∧ ∃ kid,
      Saw (evExpand kid s.ctx.prk (encInfo 5 s.ctx.th (u32 s.ctx.suite.hash)) s.ctx.suite.hash r) s s' := by
  simp only [compSalt4e3m, bind_ok, getCtx_ok, require_ok] at h
  obtain ⟨_, _, ⟨rfl, rfl⟩, _, _, ⟨_, rfl⟩, _, _, ⟨h0, rfl⟩, h1⟩ := h
  obtain ⟨c, l, g⟩ := kdfExact_ok h1
  simp only [Bool.and_eq_true, beq_iff_eq] at h0
  exact ⟨h0.1, h0.2, c, l, g⟩

theorem agreeEphemeral_ok {pk r : Bytes} (h : agreeEphemeral E pk s = (.ok r, s')) :
    s'.ctx = { s.ctx with dhPriv := [] } ∧ r.length = s.ctx.suite.eccKey ∧
      ∃ kid, s'.log = s.log ++ evAgree kid s.ctx.dhPriv pk r := by
  simp only [agreeEphemeral, importKey, destroyKey, keyAgreement, bind_ok, getCtx_ok, ofOption_ok,
    modCtx_ok, require_ok, pure_ok] at h
  simp only [needKeys_ok, needCrypto_ok, call_ok] at h
  obtain ⟨_, _, ⟨rfl, rfl⟩, k, _, ⟨_, _, ⟨_, rfl⟩, h1, rfl⟩, _, _, rfl, kid, _, ⟨rfl, rfl⟩,
    x, _, ⟨_, _, ⟨_, rfl⟩, h2, rfl⟩, _, _, ⟨_, _, ⟨_, rfl⟩, _, rfl⟩, y, _, ⟨rfl, rfl⟩,
    _, _, ⟨hl, rfl⟩, rfl, rfl⟩ := h
  exact ⟨rfl, by simpa using hl, kid, by simp [evAgree]⟩

theorem agreeStatic_ok {k r : Bytes} (h : agreeStatic E k s = (.ok r, s')) :
    s'.ctx = s.ctx ∧ r.length = s.ctx.suite.eccKey ∧
      s'.log = s.log ++ [.keyAgreement k s.ctx.dhPeerPub (some r)] := by
  simp only [agreeStatic, keyAgreement, bind_ok, getCtx_ok, ofOption_ok, require_ok, pure_ok,
    needCrypto_ok, call_ok] at h
  obtain ⟨_, _, ⟨rfl, rfl⟩, x, _, ⟨_, _, ⟨_, rfl⟩, h2, rfl⟩, y, _, ⟨rfl, rfl⟩,
    _, _, ⟨hl, rfl⟩, rfl, rfl⟩ := h
  exact ⟨rfl, by simpa using hl, rfl⟩

/-- How the static Diffie-Hellman secret was obtained: by the ephemeral key, which is wiped, or by the own
static key. -/
def Agreed (eph : Bool) (c : Ctx) (privKeyId pubKey out : Bytes) (s s' : St σ) : Prop :=
  if eph then ∃ kid, Saw (evAgree kid c.dhPriv pubKey out) s s'
  else Saw [.keyAgreement privKeyId c.dhPeerPub (some out)] s s'

theorem Agreed.left {eph : Bool} {c : Ctx} {k p o : Bytes} {s s1 s2 : St σ}
    (h : Agreed eph c k p o s s1) (g : Grow s1 s2) : Agreed eph c k p o s s2 := by
  unfold Agreed at *
  split at h <;> rename_i he <;> simp only [he]
  · obtain ⟨kid, h⟩ := h; exact ⟨kid, h.left g⟩
  · exact h.left g

theorem Agreed.right {eph : Bool} {c : Ctx} {k p o : Bytes} {s s1 s2 : St σ}
    (g : Grow s s1) (h : Agreed eph c k p o s1 s2) : Agreed eph c k p o s s2 := by
  unfold Agreed at *
  split at h <;> rename_i he <;> simp only [he]
  · obtain ⟨kid, h⟩ := h; exact ⟨kid, Saw.right g h⟩
  · exact Saw.right g h

theorem Agreed.grow {eph : Bool} {c : Ctx} {k p o : Bytes} {s s1 : St σ}
    (h : Agreed eph c k p o s s1) : Grow s s1 := by
  unfold Agreed at *
  split at h
  · obtain ⟨kid, h⟩ := h; exact h.grow
  · exact h.grow

theorem compGrx_ok {k pk r : Bytes} (h : compGrx E k pk s = (.ok r, s')) :
    s'.ctx = { s.ctx with
      dhPriv := if s.ctx.role = .initiator then [] else s.ctx.dhPriv } ∧
      Agreed (decide (s.ctx.role = .initiator)) s.ctx k pk r s s' := by
  simp only [compGrx, bind_ok, getCtx_ok, require_ok] at h
  obtain ⟨_, _, ⟨rfl, rfl⟩, _, _, ⟨_, rfl⟩, h⟩ := h
  cases hr : s.ctx.role with
  | initiator =>
    rw [hr] at h
    obtain ⟨c, _, kid, g⟩ := agreeEphemeral_ok h
    simp only [Agreed, decide_true, if_true]
    exact ⟨c, kid, saw_ext g⟩
  | responder =>
    rw [hr] at h
    obtain ⟨c, _, g⟩ := agreeStatic_ok h
    simp only [Agreed, reduceCtorEq, decide_false, Bool.false_eq_true, if_false]
    exact ⟨c, saw_ext g⟩

theorem compGiy_ok {k pk r : Bytes} (h : compGiy E k pk s = (.ok r, s')) :
    s'.ctx = { s.ctx with
      dhPriv := if s.ctx.role = .responder then [] else s.ctx.dhPriv } ∧
      Agreed (decide (s.ctx.role = .responder)) s.ctx k pk r s s' := by
  simp only [compGiy, bind_ok, getCtx_ok, require_ok] at h
  obtain ⟨_, _, ⟨rfl, rfl⟩, _, _, ⟨_, rfl⟩, h⟩ := h
  cases hr : s.ctx.role with
  | responder =>
    rw [hr] at h
    obtain ⟨c, _, kid, g⟩ := agreeEphemeral_ok h
    simp only [Agreed, decide_true, if_true]
    exact ⟨c, kid, saw_ext g⟩
  | initiator =>
    rw [hr] at h
    obtain ⟨c, _, g⟩ := agreeStatic_ok h
    simp only [Agreed, reduceCtorEq, decide_false, Bool.false_eq_true, if_false]
    exact ⟨c, saw_ext g⟩

/-- How the next PRK was obtained by static Diffie-Hellman: a salt expanded from the previous one, a shared
secret, and their extraction. -/
def PrkStep (label : Nat) (eph : Bool) (c : Ctx) (k pk p : Bytes) (s s' : St σ) : Prop :=
  ∃ salt dh k1 k2, salt.length = c.suite.hash ∧
    Saw (evExpand k1 c.prk (encInfo label c.th (u32 c.suite.hash)) c.suite.hash salt) s s' ∧
    Agreed eph c k pk dh s s' ∧ Saw (evExtract k2 dh salt p) s s'

theorem compPrk3e2m_ok {k pk : Bytes} {u : Unit} (h : compPrk3e2m E cfg k pk s = (.ok u, s')) :
    s.ctx.prkState = .prk2e ∧ Grow s s' ∧
    (((s.ctx.chosenMethod = 0 ∨ s.ctx.chosenMethod = 2) ∧
        s'.ctx = { s.ctx with prkState := .prk3e2m }) ∨
      ((s.ctx.chosenMethod = 1 ∨ s.ctx.chosenMethod = 3) ∧ ∃ p,
        s'.ctx = { s.ctx with
          dhPriv := if s.ctx.role = .initiator then [] else s.ctx.dhPriv
          prk := p, prkState := .prk3e2m } ∧ p.length = s.ctx.suite.hash ∧
        PrkStep 1 (decide (s.ctx.role = .initiator)) s.ctx k pk p s s')) := by
  unfold compPrk3e2m at h
  simp only [bind_ok, getCtx_ok, require_ok] at h
  obtain ⟨_, _, ⟨rfl, rfl⟩, _, _, ⟨h0, rfl⟩, h⟩ := h
  refine ⟨by simpa using h0, ?_⟩
  split at h
  · rw [modCtx_ok] at h
    subst h
    exact ⟨grow_of_log rfl, Or.inl ⟨by assumption, rfl⟩⟩
  · split at h
    · simp only [bind_ok, mapErr_ok, modCtx_ok] at h
      obtain ⟨_, s1, h1, salt, s2, h2, _, s3, h3, dh, s4, h4, p, s5, h5, rfl⟩ := h
      obtain ⟨c1, g1⟩ := memAlloc_ok h1
      obtain ⟨_, _, c2, l2, k1, g2⟩ := compSalt3e2m_ok h2
      obtain ⟨c3, g3⟩ := memAlloc_ok h3
      obtain ⟨c4, g4⟩ := compGrx_ok h4
      obtain ⟨c5, l5, k2, g5⟩ := extractPrk_ok h5
      rw [c1] at g2 c2 l2
      rw [c2] at c3
      rw [c3] at c4 g4
      have g6 : Grow s5 { s5 with ctx := { s5.ctx with prk := p, prkState := .prk3e2m } } :=
        grow_of_log rfl
      have g5' := (saw_ext g5).left g6
      have G4 := g4.grow
      have G2 := g2.grow
      refine ⟨((((g1.left G2).left g3).left G4).left g5'.grow), Or.inr ⟨by assumption, p, ?_, ?_, ?_⟩⟩
      · simp only [c5, c4]
      · rw [l5, c4]; rfl
      · refine ⟨salt, dh, k1, k2, l2, ?_, ?_, ?_⟩
        · exact ((((Saw.right g1 g2).left g3).left G4).left g5'.grow)
        · exact Agreed.right (g1.left (G2.left g3)) (g4.left g5'.grow)
        · exact Saw.right (((g1.left G2).left g3).left G4) g5'
    · simp [fail_ok] at h

theorem compPrk4e3m_ok {k pk : Bytes} {u : Unit} (h : compPrk4e3m E cfg k pk s = (.ok u, s')) :
    s.ctx.prkState = .prk3e2m ∧ Grow s s' ∧
    (((s.ctx.chosenMethod = 0 ∨ s.ctx.chosenMethod = 1) ∧
        s'.ctx = { s.ctx with prkState := .prk4e3m }) ∨
      ((s.ctx.chosenMethod = 2 ∨ s.ctx.chosenMethod = 3) ∧ ∃ p,
        s'.ctx = { s.ctx with
          dhPriv := if s.ctx.role = .responder then [] else s.ctx.dhPriv
          prk := p, prkState := .prk4e3m } ∧ p.length = s.ctx.suite.hash ∧
        PrkStep 5 (decide (s.ctx.role = .responder)) s.ctx k pk p s s')) := by
  unfold compPrk4e3m at h
  simp only [bind_ok, getCtx_ok, require_ok] at h
  obtain ⟨_, _, ⟨rfl, rfl⟩, _, _, ⟨h0, rfl⟩, h⟩ := h
  refine ⟨by simpa using h0, ?_⟩
  split at h
  · rw [modCtx_ok] at h
    subst h
    exact ⟨grow_of_log rfl, Or.inl ⟨by assumption, rfl⟩⟩
  · split at h
    · simp only [bind_ok, mapErr_ok, modCtx_ok] at h
      obtain ⟨_, s1, h1, salt, s2, h2, _, s3, h3, dh, s4, h4, p, s5, h5, rfl⟩ := h
      obtain ⟨c1, g1⟩ := memAlloc_ok h1
      obtain ⟨_, _, c2, l2, k1, g2⟩ := compSalt4e3m_ok h2
      obtain ⟨c3, g3⟩ := memAlloc_ok h3
      obtain ⟨c4, g4⟩ := compGiy_ok h4
      obtain ⟨c5, l5, k2, g5⟩ := extractPrk_ok h5
      rw [c1] at g2 c2 l2
      rw [c2] at c3
      rw [c3] at c4 g4
      have g6 : Grow s5 { s5 with ctx := { s5.ctx with prk := p, prkState := .prk4e3m } } :=
        grow_of_log rfl
      have g5' := (saw_ext g5).left g6
      have G4 := g4.grow
      have G2 := g2.grow
      refine ⟨((((g1.left G2).left g3).left G4).left g5'.grow), Or.inr ⟨by assumption, p, ?_, ?_, ?_⟩⟩
      · simp only [c5, c4]
      · rw [l5, c4]; rfl
      · refine ⟨salt, dh, k1, k2, l2, ?_, ?_, ?_⟩
        · exact ((((Saw.right g1 g2).left g3).left G4).left g5'.grow)
        · exact Agreed.right (g1.left (G2.left g3)) (g4.left g5'.grow)
        · exact Saw.right (((g1.left G2).left g3).left G4) g5'
    · simp [fail_ok] at h

theorem compKeystream_ok {prk2e r : Bytes} {n : Nat}
    (h : compKeystream E cfg prk2e n s = (.ok r, s')) :
    s.ctx.thState = .th2 ∧ n ≠ 0 ∧ s'.ctx = s.ctx ∧ r.length = n ∧
      ∃ kid, Saw (evExpand kid prk2e (encInfo 0 s.ctx.th (u32 n)) n r) s s' := by
  simp only [compKeystream, bind_ok, getCtx_ok, require_ok] at h
  obtain ⟨_, _, ⟨rfl, rfl⟩, _, _, ⟨h0, rfl⟩, _, _, ⟨h1, rfl⟩, h2⟩ := h
  obtain ⟨c, l, g⟩ := kdfExact_ok h2
  simp only [Bool.and_eq_true, bne_iff_ne, ne_eq] at h0
  exact ⟨by simpa using h1, h0.2, c, l, g⟩

end inner

end Verif
