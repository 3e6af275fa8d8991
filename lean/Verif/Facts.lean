import Verif.Message

/-!
# What was computed, in terms of the calls that were made

Each predicate says that between two states the application callbacks were called so as to compute a value.
-/

namespace Verif

open M

variable {σ : Type}

theorem Saw.mid {L : List Ev} {s a b s' : St σ} (h : Saw L a b) (G : Grow s a) (H : Grow b s') : Saw L s s' :=
  (Saw.right G h).left H

theorem Grow.trans {a b c : St σ} (h : Grow a b) (k : Grow b c) : Grow a c := h.left k

/-- `out` is the hash of `input` -/
def Hashed (input out : Bytes) (s s' : St σ) : Prop := Saw [.hash input (some out)] s s'

/-- `out` is EDHOC_Expand of `prk` with `info = (label, context, n)` -/
def Expanded (prk : Bytes) (label : Nat) (context : Bytes) (n : Nat) (out : Bytes) (s s' : St σ) : Prop :=
  out.length = n ∧ ∃ kid, Saw (evExpand kid prk (encInfo label context (u32 n)) n out) s s'

/-- `out` is EDHOC_Extract of `salt` and `ikm` -/
def Extracted (salt ikm out : Bytes) (s s' : St σ) : Prop := ∃ kid, Saw (evExtract kid ikm salt out) s s'

/-- `out` is the Diffie-Hellman secret of the private key `sk` and the public key `pk` -/
def AgreedRaw (sk pk out : Bytes) (s s' : St σ) : Prop := ∃ kid, Saw (evAgree kid sk pk out) s s'

/-- `out` is the Diffie-Hellman secret of the application's private key named `kid` and the public key `pk` -/
def AgreedStatic (kid pk out : Bytes) (s s' : St σ) : Prop := Saw [.keyAgreement kid pk (some out)] s s'

/-- The key of AEAD and the IV are expanded from `prk`, with the transcript hash as context. -/
def AeadKeys (labelK labelIv : Nat) (prk th : Bytes) (su : Suite) (k iv : Bytes) (s s' : St σ) : Prop :=
  Expanded prk labelK th su.aeadKey k s s' ∧ Expanded prk labelIv th su.aeadIv iv s s'

/-- AEAD encryption of `ptxt` gave `ct` -/
def Encrypted (k iv aad ptxt ct : Bytes) (s s' : St σ) : Prop := ∃ kid, Saw (evEncrypt kid k iv aad ptxt ct) s s'

/-- AEAD decryption of `ct` was accepted and gave `ptxt` -/
def Decrypted (k iv aad ct ptxt : Bytes) (s s' : St σ) : Prop := ∃ kid, Saw (evDecrypt kid k iv aad ct ptxt) s s'

/-- The application accepted the signature of `input` under the public key `pk`. -/
def Verified (pk input sig : Bytes) (s s' : St σ) : Prop := ∃ kid, Saw (evVerify kid pk input sig) s s'

section mid

variable {s a b s' : St σ}

theorem Hashed.mid {i o : Bytes} (G : Grow s a) (h : Hashed i o a b) (H : Grow b s') : Hashed i o s s' :=
  Saw.mid h G H

theorem Expanded.mid {p c o : Bytes} {l n : Nat} (G : Grow s a) (h : Expanded p l c n o a b) (H : Grow b s') :
    Expanded p l c n o s s' := ⟨h.1, h.2.elim fun k h => ⟨k, Saw.mid h G H⟩⟩

theorem Extracted.mid {p c o : Bytes} (G : Grow s a) (h : Extracted p c o a b) (H : Grow b s') :
    Extracted p c o s s' := h.elim fun k h => ⟨k, Saw.mid h G H⟩

theorem AgreedRaw.mid {p c o : Bytes} (G : Grow s a) (h : AgreedRaw p c o a b) (H : Grow b s') :
    AgreedRaw p c o s s' := h.elim fun k h => ⟨k, Saw.mid h G H⟩

theorem AgreedStatic.mid {p c o : Bytes} (G : Grow s a) (h : AgreedStatic p c o a b) (H : Grow b s') :
    AgreedStatic p c o s s' := Saw.mid h G H

theorem AeadKeys.mid {x y : Nat} {p t k i : Bytes} {u : Suite} (G : Grow s a) (h : AeadKeys x y p t u k i a b)
    (H : Grow b s') : AeadKeys x y p t u k i s s' := ⟨h.1.mid G H, h.2.mid G H⟩

theorem Encrypted.mid {k i d p c : Bytes} (G : Grow s a) (h : Encrypted k i d p c a b) (H : Grow b s') :
    Encrypted k i d p c s s' := h.elim fun k h => ⟨k, Saw.mid h G H⟩

theorem Decrypted.mid {k i d p c : Bytes} (G : Grow s a) (h : Decrypted k i d p c a b) (H : Grow b s') :
    Decrypted k i d p c s s' := h.elim fun k h => ⟨k, Saw.mid h G H⟩

theorem Verified.mid {k i d : Bytes} (G : Grow s a) (h : Verified k i d a b) (H : Grow b s') :
    Verified k i d s s' := h.elim fun k h => ⟨k, Saw.mid h G H⟩

end mid

/-- How PRK_3e2m (`label = 1`) or PRK_4e3m (`label = 5`) `next` was obtained from the previous key: unchanged if
the party authenticates with a signature, otherwise extracted from the static Diffie-Hellman secret. `agreed`
tells how that secret was computed. -/
def NextPrk (label : Nat) (signs : Bool) (prk th : Bytes) (n : Nat) (agreed : Bytes → St σ → St σ → Prop)
    (next : Bytes) (s s' : St σ) : Prop :=
  (signs = true ∧ next = prk) ∨
    (signs = false ∧ next.length = n ∧ ∃ salt dh, Expanded prk label th n salt s s' ∧ agreed dh s s' ∧
      Extracted salt dh next s s')

/-- the EAD tokens `ts` were composed for message `m` -/
def ComposedEad (cfg : Config) (c : Ctx) (m : Msg) (ts : List EadTok) (s s' : St σ) : Prop :=
  (composesEad cfg c = true ∧ ts.length ≤ cfg.maxEad ∧ Saw [.eadCompose m (some ts)] s s') ∨
    (composesEad cfg c = false ∧ ts = c.ead)

/-- the EAD tokens `ts` of message `m` were handed to the application, which accepted them -/
def ProcessedEad (cfg : Config) (c : Ctx) (m : Msg) (ts : List EadTok) (s s' : St σ) : Prop :=
  processesEad cfg c = true → ts ≠ [] → Saw [.eadProcess m ts true] s s'

/-- Signature_or_MAC `sig` composed from the MAC -/
def Signed (signs : Bool) (kid : Bytes) (cr : Cred) (th : Bytes) (ead : List EadTok) (mac sig : Bytes)
    (s s' : St σ) : Prop :=
  (signs = true ∧ Saw [.sign kid (Spec.sigStructure cr th ead mac) (some sig)] s s') ∨
    (signs = false ∧ sig = mac)

/-- Signature_or_MAC `sig` accepted for the credential `cr` with public key `pk` -/
def Authenticated (signs : Bool) (pk : Bytes) (cr : Cred) (th : Bytes) (ead : List EadTok) (mac sig : Bytes)
    (s s' : St σ) : Prop :=
  (signs = true ∧ Verified pk (Spec.sigStructure cr th ead mac) sig s s') ∨ (signs = false ∧ sig = mac)

/-- Length of the MAC -/
def macLenOf (signs : Bool) (su : Suite) : Nat := if signs then su.hash else su.mac

/-- ID_CRED_x as it is put into the plaintext: in compact encoding if there is one, otherwise the map. -/
def idWire (cr : Cred) : Option Comp → Bytes
  | none => Spec.idCred cr
  | some k => match k.encType with | .integer => k.idInt.take 1 | .byteString => k.idBstr

section mid2

variable {s a b s' : St σ}

theorem ComposedEad.mid {cfg : Config} {c : Ctx} {m : Msg} {ts : List EadTok} (G : Grow s a)
    (h : ComposedEad cfg c m ts a b) (H : Grow b s') : ComposedEad cfg c m ts s s' := by
  obtain ⟨x, y, z⟩ | h := h
  · exact Or.inl ⟨x, y, z.mid G H⟩
  · exact Or.inr h

theorem ProcessedEad.mid {cfg : Config} {c : Ctx} {m : Msg} {ts : List EadTok} (G : Grow s a)
    (h : ProcessedEad cfg c m ts a b) (H : Grow b s') : ProcessedEad cfg c m ts s s' :=
  fun x y => (h x y).mid G H

theorem Signed.mid {x : Bool} {k t m g : Bytes} {cr : Cred} {e : List EadTok} (G : Grow s a)
    (h : Signed x k cr t e m g a b) (H : Grow b s') : Signed x k cr t e m g s s' := by
  obtain ⟨x, y⟩ | h := h
  · exact Or.inl ⟨x, y.mid G H⟩
  · exact Or.inr h

theorem Authenticated.mid {x : Bool} {k t m g : Bytes} {cr : Cred} {e : List EadTok} (G : Grow s a)
    (h : Authenticated x k cr t e m g a b) (H : Grow b s') : Authenticated x k cr t e m g s s' := by
  obtain ⟨x, y⟩ | h := h
  · exact Or.inl ⟨x, y.mid G H⟩
  · exact Or.inr h

theorem NextPrk.mid {l n : Nat} {x : Bool} {p t q : Bytes} {A : Bytes → St σ → St σ → Prop} (G : Grow s a)
    (h : NextPrk l x p t n A q a b) (H : Grow b s') (hA : ∀ d, A d a b → A d s s') :
    NextPrk l x p t n A q s s' := by
  obtain h | ⟨h1, h2, salt, dh, e1, e2, e3⟩ := h
  · exact Or.inl h
  · exact Or.inr ⟨h1, h2, salt, dh, e1.mid G H, hA _ e2, e3.mid G H⟩

end mid2

section facts

variable {E : Env σ} {cfg : Config} {s s' : St σ}

theorem method2 {c : Ctx} (h : c.chosenMethod = 0 ∨ c.chosenMethod = 2) :
    Spec.responderSigns c.chosenMethod = true := by
  rcases h with h | h <;> rw [h] <;> rfl

theorem method2' {c : Ctx} (h : c.chosenMethod = 1 ∨ c.chosenMethod = 3) :
    Spec.responderSigns c.chosenMethod = false := by
  rcases h with h | h <;> rw [h] <;> rfl

theorem method3 {c : Ctx} (h : c.chosenMethod = 0 ∨ c.chosenMethod = 1) :
    Spec.initiatorSigns c.chosenMethod = true := by
  rcases h with h | h <;> rw [h] <;> rfl

theorem method3' {c : Ctx} (h : c.chosenMethod = 2 ∨ c.chosenMethod = 3) :
    Spec.initiatorSigns c.chosenMethod = false := by
  rcases h with h | h <;> rw [h] <;> rfl

theorem usesSign2 {c : Ctx} {b : Bool} (hm : c.message = .msg2) (h : usesSign c = some b) :
    Spec.responderSigns c.chosenMethod = b ∧ c.chosenMethod ≤ 3 := by
  unfold usesSign at h
  rw [hm] at h
  simp only at h
  split at h
  · rename_i hc
    simp only [Option.some.injEq] at h
    exact ⟨by rw [method2 hc, h], by omega⟩
  · split at h
    · rename_i hc
      simp only [Option.some.injEq] at h
      exact ⟨by rw [method2' hc, h], by omega⟩
    · simp at h

theorem usesSign3 {c : Ctx} {b : Bool} (hm : c.message = .msg3) (h : usesSign c = some b) :
    Spec.initiatorSigns c.chosenMethod = b ∧ c.chosenMethod ≤ 3 := by
  unfold usesSign at h
  rw [hm] at h
  simp only at h
  split at h
  · rename_i hc
    simp only [Option.some.injEq] at h
    exact ⟨by rw [method3 hc, h], by omega⟩
  · split at h
    · rename_i hc
      simp only [Option.some.injEq] at h
      exact ⟨by rw [method3' hc, h], by omega⟩
    · simp at h

theorem macLength2 {c : Ctx} {n : Nat} (hm : c.message = .msg2) (h : macLength c = .ok n) :
    n = macLenOf (Spec.responderSigns c.chosenMethod) c.suite ∧ c.chosenMethod ≤ 3 := by
  obtain ⟨h1, h2⟩ | ⟨h1, h2⟩ := macLength_ok h
  · obtain ⟨h3, h4⟩ := usesSign2 hm h1
    rw [h3, h2]; exact ⟨rfl, h4⟩
  · obtain ⟨h3, h4⟩ := usesSign2 hm h1
    rw [h3, h2]; exact ⟨rfl, h4⟩

theorem macLength3 {c : Ctx} {n : Nat} (hm : c.message = .msg3) (h : macLength c = .ok n) :
    n = macLenOf (Spec.initiatorSigns c.chosenMethod) c.suite ∧ c.chosenMethod ≤ 3 := by
  obtain ⟨h1, h2⟩ | ⟨h1, h2⟩ := macLength_ok h
  · obtain ⟨h3, h4⟩ := usesSign3 hm h1
    rw [h3, h2]; exact ⟨rfl, h4⟩
  · obtain ⟨h3, h4⟩ := usesSign3 hm h1
    rw [h3, h2]; exact ⟨rfl, h4⟩

/-- how the party in role `r` computes the static Diffie-Hellman secret of message 2 (`eph := initiator`) or
message 3 (`eph := responder`) -/
def StaticDh (eph : Role) (c : Ctx) (kid pk dh : Bytes) (s s' : St σ) : Prop :=
  if c.role = eph then AgreedRaw c.dhPriv pk dh s s' else AgreedStatic kid c.dhPeerPub dh s s'

theorem StaticDh.mid {e : Role} {c : Ctx} {k p d : Bytes} {s a b s' : St σ} (G : Grow s a)
    (h : StaticDh e c k p d a b) (H : Grow b s') : StaticDh e c k p d s s' := by
  unfold StaticDh at *
  split at h
  · rw [if_pos (by assumption)]; exact h.mid G H
  · rw [if_neg (by assumption)]; exact h.mid G H

theorem agreed_static {r : Role} {c : Ctx} {k pk dh : Bytes}
    (h : Agreed (decide (c.role = r)) c k pk dh s s') : StaticDh r c k pk dh s s' := by
  unfold Agreed at h
  unfold StaticDh
  by_cases hr : c.role = r
  · rw [if_pos (by simpa using hr)] at h
    rw [if_pos hr]; exact h
  · rw [if_neg (by simpa using hr)] at h
    rw [if_neg hr]; exact h

theorem prk3e2m_next {k pk : Bytes} {u : Unit} (h : compPrk3e2m E cfg k pk s = (.ok u, s')) :
    Grow s s' ∧ ∃ p,
      NextPrk 1 (Spec.responderSigns s.ctx.chosenMethod) s.ctx.prk s.ctx.th s.ctx.suite.hash
        (StaticDh .initiator s.ctx k pk) p s s' ∧
      s'.ctx = { s.ctx with
        dhPriv := if Spec.responderSigns s.ctx.chosenMethod = false ∧ s.ctx.role = .initiator then []
          else s.ctx.dhPriv
        prk := p, prkState := .prk3e2m } := by
  obtain ⟨_, g, ⟨hm, hc⟩ | ⟨hm, p, hc, hl, salt, dh, k1, k2, hs, h1, h2, h3⟩⟩ := compPrk3e2m_ok h
  · exact ⟨g, s.ctx.prk, Or.inl ⟨method2 hm, rfl⟩, by rw [hc, method2 hm]; simp⟩
  · rw [method2' hm]
    exact ⟨g, p, Or.inr ⟨rfl, hl, salt, dh, ⟨hs, k1, h1⟩, agreed_static h2, k2, h3⟩, by rw [hc]; simp⟩

theorem prk4e3m_next {k pk : Bytes} {u : Unit} (h : compPrk4e3m E cfg k pk s = (.ok u, s')) :
    Grow s s' ∧ ∃ p,
      NextPrk 5 (Spec.initiatorSigns s.ctx.chosenMethod) s.ctx.prk s.ctx.th s.ctx.suite.hash
        (StaticDh .responder s.ctx k pk) p s s' ∧
      s'.ctx = { s.ctx with
        dhPriv := if Spec.initiatorSigns s.ctx.chosenMethod = false ∧ s.ctx.role = .responder then []
          else s.ctx.dhPriv
        prk := p, prkState := .prk4e3m } := by
  obtain ⟨_, g, ⟨hm, hc⟩ | ⟨hm, p, hc, hl, salt, dh, k1, k2, hs, h1, h2, h3⟩⟩ := compPrk4e3m_ok h
  · exact ⟨g, s.ctx.prk, Or.inl ⟨method3 hm, rfl⟩, by rw [hc, method3 hm]; simp⟩
  · rw [method3' hm]
    exact ⟨g, p, Or.inr ⟨rfl, hl, salt, dh, ⟨hs, k1, h1⟩, agreed_static h2, k2, h3⟩, by rw [hc]; simp⟩

end facts

end Verif
