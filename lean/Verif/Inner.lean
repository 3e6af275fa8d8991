import Verif.Logic

/-!
# What the inner functions leave alone

`Inner R`: a relation that contains every change an inner function of a message can make. One
generic lemma per function; used with several relations `R`.
-/

namespace Verif

open M

variable {σ α β γ : Type}

/-- The part of the context that only the outer part of an API call changes. -/
def Ctx.ctl (c : Ctx) : Ctx :=
  { c with
    peerCsuite := [], peerCid := .int 0, dhPub := [], dhPriv := [], dhPeerPub := [], dhSecret := []
    thState := .invalid, th := [], prkState := .invalid, prk := [], ead := [] }

/-- calls to the credential and EAD callbacks, apart from the check of a credential -/
def Ev.isApp : Ev → Bool
  | .credFetch _ => true
  | .eadCompose _ _ => true
  | .eadProcess _ _ _ => true
  | _ => false

/-- import and destroy of a key, key derivation, and calls to the credential and EAD callbacks -/
def Ev.isKey : Ev → Bool
  | .importKey _ _ _ => true
  | .destroyKey _ => true
  | .expand _ _ _ _ => true
  | .credVerify _ _ => true
  | .credFetch _ => true
  | .eadCompose _ _ => true
  | .eadProcess _ _ _ => true
  | _ => false

/-- A relation closed under calls to callbacks, and under a key that is imported, used and destroyed. -/
structure Calls (R : St σ → St σ → Prop) : Prop extends Frame R where
  ev : ∀ (s : St σ) (e : σ) (v : Ev), v.isKey = false → R s ⟨s.ctx, e, s.log ++ [v]⟩
  exp : ∀ (s : St σ) (e : σ) (kid : Bytes) (l : Nat) (c : Bytes) (m n : Nat) (out : Option Bytes), l ≤ 65535 →
    R s ⟨s.ctx, e, s.log ++ [.expand kid (encInfo l c (u32 m)) n out]⟩
  imp0 : ∀ (s : St σ) (e : σ) (t : KeyType) (raw : Bytes),
    R s ⟨s.ctx, e, s.log ++ [.importKey t raw none]⟩
  key : ∀ (s1 s3 : St σ) (e2 e4 : σ) (t : KeyType) (raw kid : Bytes),
    R ⟨s1.ctx, e2, s1.log ++ [.importKey t raw (some kid)]⟩ s3 →
    R s1 ⟨s3.ctx, e4, s3.log ++ [.destroyKey kid]⟩

/-- A relation closed under what inner functions do, apart from the generation of the ephemeral key, the
computation of TH_4 and of PRK_out: calls, and updates of the working part of the context. -/
structure Fine (R : St σ → St σ → Prop) : Prop extends Calls R where
  soft : ∀ (s : St σ) (c : Ctx), c.ctl = s.ctx.ctl → c.thState = s.ctx.thState → c.dhPriv = s.ctx.dhPriv →
    (c.prkState = .out → s.ctx.prkState = .out) → R s { s with ctx := c }
  wipe : ∀ (s : St σ), R s { s with ctx := { s.ctx with dhPriv := [] } }
  th23 : ∀ (s : St σ) (t : Bytes) (ts : ThState), ts = .th2 ∨ ts = .th3 →
    R s { s with ctx := { s.ctx with th := t, thState := ts } }

/-- ... and under calls to the credential and EAD callbacks -/
structure FApp (R : St σ → St σ → Prop) : Prop extends Fine R where
  app : ∀ (s : St σ) (e : σ) (v : Ev), v.isApp = true → R s ⟨s.ctx, e, s.log ++ [v]⟩

/-- A relation closed under what inner functions do: calls, and updates of the working part of the context. -/
structure Inner (R : St σ → St σ → Prop) : Prop extends Fine R where
  upd : ∀ (s : St σ) (c : Ctx), c.ctl = s.ctx.ctl → R s { s with ctx := c }
  soft := fun s c h _ _ _ => upd s c h
  wipe := fun s => upd s _ rfl
  th23 := fun s _ _ _ => upd s _ rfl

/-- ... and under calls to the credential and EAD callbacks -/
structure App (R : St σ → St σ → Prop) : Prop extends FApp R, Inner R

/-- an operation that never returns an error code -/
def NoErr (m : M σ α) : Prop := ∀ s e s', m s ≠ (.err e, s')

theorem noErr_bind {m : M σ α} {f : α → M σ β} (hm : NoErr m) (hf : ∀ a, NoErr (f a)) :
    NoErr (m >>= f) := by
  intro s e s' h
  have e1 : (m >>= f) s = M.bind m f s := rfl
  rw [e1] at h
  unfold M.bind at h
  rcases h1 : m s with ⟨r, s1⟩
  rw [h1] at h
  cases r with
  | ok a => exact hf a _ _ _ h
  | err e => exact hm _ _ _ h1
  | ub u => simp at h

theorem noErr_guardUB (b : Bool) (u : UB) : NoErr (M.guardUB b u : M σ Unit) := by
  intro s e s'; unfold M.guardUB; cases b <;> simp

theorem noErr_getCtx : NoErr (getCtx : M σ Ctx) := by intro s e s'; simp [getCtx]

theorem noErr_call (f : σ → β × σ) (ev : β → Ev) : NoErr (M.call f ev) := by
  intro s e s'; simp [M.call]

theorem noErr_needCrypto : NoErr (needCrypto : M σ Unit) :=
  noErr_bind noErr_getCtx fun _ => noErr_guardUB _ _

theorem noErr_crypto {f : σ → β × σ} {ev : β → Ev} : NoErr (needCrypto >>= fun _ => M.call f ev) :=
  noErr_bind noErr_needCrypto fun _ => noErr_call _ _

theorem noErr_guard_crypto {f : σ → β × σ} {ev : β → Ev} {b : Bool} {u : UB} :
    NoErr (M.guardUB b u >>= fun _ => needCrypto >>= fun _ => M.call f ev) :=
  noErr_bind (noErr_guardUB _ _) fun _ => noErr_crypto

theorem noErr_makeKeyPair (E : Env σ) (k : Bytes) : NoErr (Verif.makeKeyPair E k) := noErr_crypto
theorem noErr_keyAgreement (E : Env σ) (k p : Bytes) : NoErr (Verif.keyAgreement E k p) := noErr_crypto
theorem noErr_sign (E : Env σ) (k p : Bytes) : NoErr (Verif.sign E k p) := noErr_crypto
theorem noErr_verify (E : Env σ) (k p q : Bytes) : NoErr (Verif.verify E k p q) := noErr_crypto
theorem noErr_extract (E : Env σ) (k p : Bytes) : NoErr (Verif.extract E k p) := noErr_crypto
theorem noErr_encrypt (E : Env σ) (a b c d : Bytes) : NoErr (Verif.encrypt E a b c d) := noErr_crypto
theorem noErr_decrypt (E : Env σ) (a b c d : Bytes) : NoErr (Verif.decrypt E a b c d) := noErr_crypto
theorem noErr_expand (E : Env σ) (k i : Bytes) (n : Nat) : NoErr (Verif.expand E k i n) := noErr_crypto

/-- apply the structural rules -/
macro "calls" hR:ident : tactic => `(tactic|
  repeat' first
  | with_reducible refine Pres.bind (Calls.toFrame $hR) ?_ (fun _ => ?_)
  | with_reducible exact Pres.pure (Calls.toFrame $hR) _
  | with_reducible exact Pres.fail (Calls.toFrame $hR) _
  | with_reducible exact Pres.undef (Calls.toFrame $hR) _
  | with_reducible exact Pres.require (Calls.toFrame $hR) _ _
  | with_reducible exact Pres.guardUB (Calls.toFrame $hR) _ _
  | with_reducible exact Pres.ofOption (Calls.toFrame $hR) _ _
  | with_reducible exact Pres.ofRes (Calls.toFrame $hR) _
  | with_reducible exact Pres.getCtx (Calls.toFrame $hR)
  | with_reducible refine Pres.mapErr _ ?_
  | with_reducible refine Pres.whenM (Calls.toFrame $hR) _ ?_
  | with_reducible refine Pres.ite ?_ ?_
  | exact Pres.call _ _ (fun s => Calls.ev $hR s _ _ rfl)
  | assumption)

namespace Calls

variable {R : St σ → St σ → Prop}

theorem needKeys (hR : Calls R) : Pres R (Verif.needKeys : M σ Unit) := by
  unfold Verif.needKeys; calls hR

theorem needCrypto (hR : Calls R) : Pres R (Verif.needCrypto : M σ Unit) := by
  unfold Verif.needCrypto; calls hR

theorem needCred (hR : Calls R) : Pres R (Verif.needCred : M σ Unit) := by
  unfold Verif.needCred; calls hR

theorem memAlloc (hR : Calls R) (E : Env σ) (cfg : Config) (n : Nat) :
    Pres R (Verif.memAlloc E cfg n) := by
  unfold Verif.memAlloc
  split <;> calls hR

theorem makeKeyPair (hR : Calls R) (E : Env σ) (k : Bytes) : Pres R (Verif.makeKeyPair E k) := by
  unfold Verif.makeKeyPair
  exact (hR.needCrypto).bind hR.toFrame fun _ => Pres.call _ _ (fun s => hR.ev s _ _ rfl)

theorem keyAgreement (hR : Calls R) (E : Env σ) (k p : Bytes) :
    Pres R (Verif.keyAgreement E k p) := by
  unfold Verif.keyAgreement
  exact (hR.needCrypto).bind hR.toFrame fun _ => Pres.call _ _ (fun s => hR.ev s _ _ rfl)

theorem sign (hR : Calls R) (E : Env σ) (k p : Bytes) : Pres R (Verif.sign E k p) := by
  unfold Verif.sign
  exact (hR.needCrypto).bind hR.toFrame fun _ => Pres.call _ _ (fun s => hR.ev s _ _ rfl)

theorem verify (hR : Calls R) (E : Env σ) (k p q : Bytes) : Pres R (Verif.verify E k p q) := by
  unfold Verif.verify
  exact (hR.needCrypto).bind hR.toFrame fun _ => Pres.call _ _ (fun s => hR.ev s _ _ rfl)

theorem extract (hR : Calls R) (E : Env σ) (k p : Bytes) : Pres R (Verif.extract E k p) := by
  unfold Verif.extract
  exact (hR.needCrypto).bind hR.toFrame fun _ => Pres.call _ _ (fun s => hR.ev s _ _ rfl)

theorem expand (hR : Calls R) (E : Env σ) (k p : Bytes) (n : Nat)
    (hp : ∃ l c m, p = encInfo l c (u32 m) ∧ l ≤ 65535) : Pres R (Verif.expand E k p n) := by
  obtain ⟨l, c, m, rfl, hl⟩ := hp
  unfold Verif.expand
  exact (hR.needCrypto).bind hR.toFrame fun _ => Pres.call _ _ (fun s => hR.exp s _ _ _ _ _ _ _ hl)

theorem encrypt (hR : Calls R) (E : Env σ) (k a b c : Bytes) : Pres R (Verif.encrypt E k a b c) := by
  unfold Verif.encrypt
  exact (hR.needCrypto).bind hR.toFrame fun _ => Pres.call _ _ (fun s => hR.ev s _ _ rfl)

theorem decrypt (hR : Calls R) (E : Env σ) (k a b c : Bytes) : Pres R (Verif.decrypt E k a b c) := by
  unfold Verif.decrypt
  exact (hR.needCrypto).bind hR.toFrame fun _ => Pres.call _ _ (fun s => hR.ev s _ _ rfl)

theorem hash (hR : Calls R) (E : Env σ) (k : Bytes) : Pres R (Verif.hash E k) := by
  unfold Verif.hash
  exact (hR.needCrypto).bind hR.toFrame fun _ => Pres.call _ _ (fun s => hR.ev s _ _ rfl)

theorem withKey (hR : Calls R) (E : Env σ) (t : KeyType) (raw : Bytes) (e : Err)
    (op : Bytes → M σ α) (hop : ∀ k, Pres R (op k)) (hne : ∀ k, NoErr (op k)) :
    Pres R (Verif.withKey E t raw e op) := by
  intro s hd
  unfold Verif.withKey Verif.importKey at hd ⊢
  by_cases hk : s.ctx.hasKeys = true
  · have h0 : (Verif.needKeys : M σ Unit) s = (.ok (), s) := by
      simp [Verif.needKeys, Bind.bind, M.bind, M.getCtx, M.guardUB, hk]
    rcases hi : E.importKey s.env t raw with ⟨k, e2⟩
    cases k with
    | none =>
      have := hR.imp0 s e2 t raw
      simpa [Bind.bind, M.bind, h0, M.call, hi, M.ofOption] using this
    | some kid =>
      simp only [Bind.bind, M.bind, h0, M.call, hi, M.ofOption] at hd ⊢
      have h1 := hop kid ⟨s.ctx, e2, s.log ++ [.importKey t raw (some kid)]⟩
      have h2 := hne kid ⟨s.ctx, e2, s.log ++ [.importKey t raw (some kid)]⟩
      rcases ho : op kid ⟨s.ctx, e2, s.log ++ [.importKey t raw (some kid)]⟩ with ⟨r, s3⟩
      rw [ho] at h1
      simp only [ho] at hd ⊢
      cases r with
      | err e => exact absurd ho (h2 _ _)
      | ub u => simp at hd
      | ok a =>
        have h3 := hR.key s s3 e2 (E.destroyKey s3.env kid) t raw kid (h1 (by simp))
        simp only [Verif.destroyKey, Verif.needKeys, Bind.bind, M.bind, M.getCtx, M.guardUB] at hd ⊢
        by_cases hk3 : s3.ctx.hasKeys = true
        · simpa [hk3, M.call, Pure.pure, M.ret] using h3
        · simp [hk3] at hd
  · have h0 : (Verif.needKeys : M σ Unit) s = (.ub .nullCall, s) := by
      simp [Verif.needKeys, Bind.bind, M.bind, M.getCtx, M.guardUB, hk]
    simp [Bind.bind, M.bind, h0] at hd

end Calls

theorem macLabel_le (c : Ctx) : macLabel c ≤ 65535 := by unfold macLabel; split <;> omega

/-- the label of a key derivation is small -/
macro "label!" : tactic => `(tactic| first | assumption | exact macLabel_le _ | decide)

/-- apply the structural rules, with the lemmas on the primitives -/
macro "fine!" hR:ident : tactic => `(tactic|
  repeat' first
  | with_reducible refine Pres.bindFits (Calls.toFrame (Fine.toCalls $hR)) (fun _ _ => ?_)
  | with_reducible refine Pres.bind (Calls.toFrame (Fine.toCalls $hR)) ?_ (fun _ => ?_)
  | with_reducible exact Pres.pure (Calls.toFrame (Fine.toCalls $hR)) _
  | with_reducible exact Pres.fail (Calls.toFrame (Fine.toCalls $hR)) _
  | with_reducible exact Pres.undef (Calls.toFrame (Fine.toCalls $hR)) _
  | with_reducible exact Pres.require (Calls.toFrame (Fine.toCalls $hR)) _ _
  | with_reducible exact Pres.guardUB (Calls.toFrame (Fine.toCalls $hR)) _ _
  | with_reducible exact Pres.ofOption (Calls.toFrame (Fine.toCalls $hR)) _ _
  | with_reducible exact Pres.ofRes (Calls.toFrame (Fine.toCalls $hR)) _
  | with_reducible exact Pres.getCtx (Calls.toFrame (Fine.toCalls $hR))
  | with_reducible refine Pres.mapErr _ ?_
  | with_reducible refine Pres.whenM (Calls.toFrame (Fine.toCalls $hR)) _ ?_
  | with_reducible refine Pres.ite ?_ ?_
  | with_reducible exact Calls.memAlloc (Fine.toCalls $hR) _ _ _
  | with_reducible exact Calls.makeKeyPair (Fine.toCalls $hR) _ _
  | with_reducible exact Calls.keyAgreement (Fine.toCalls $hR) _ _ _
  | with_reducible exact Calls.sign (Fine.toCalls $hR) _ _ _
  | with_reducible exact Calls.verify (Fine.toCalls $hR) _ _ _ _
  | with_reducible exact Calls.extract (Fine.toCalls $hR) _ _ _
  | with_reducible exact Calls.expand (Fine.toCalls $hR) _ _ _ _ ⟨_, _, _, by assumption, by label!⟩
  | with_reducible exact Calls.encrypt (Fine.toCalls $hR) _ _ _ _ _
  | with_reducible exact Calls.decrypt (Fine.toCalls $hR) _ _ _ _ _
  | with_reducible exact Calls.hash (Fine.toCalls $hR) _ _
  | with_reducible refine Calls.withKey (Fine.toCalls $hR) _ _ _ _ _ (fun _ => ?_) (fun _ => ?_)
  | with_reducible exact noErr_makeKeyPair _ _
  | with_reducible exact noErr_keyAgreement _ _ _
  | with_reducible exact noErr_sign _ _ _
  | with_reducible exact noErr_verify _ _ _ _
  | with_reducible exact noErr_extract _ _ _
  | with_reducible exact noErr_encrypt _ _ _ _ _
  | with_reducible exact noErr_decrypt _ _ _ _ _
  | with_reducible exact noErr_expand _ _ _ _
  | with_reducible refine noErr_bind (noErr_guardUB _ _) (fun _ => ?_)
  | (with_reducible refine Pres.modCtx _ (fun s => ?_))
    first
    | exact Fine.soft $hR s _ rfl rfl rfl (fun h => h)
    | exact Fine.soft $hR s _ rfl rfl rfl (fun h => PrkState.noConfusion h)
    | exact Fine.th23 $hR s _ _ (Or.inl rfl)
    | exact Fine.th23 $hR s _ _ (Or.inr rfl)
  | with_reducible refine Pres.call _ _ (fun s => Calls.ev (Fine.toCalls $hR) s _ _ ?_)
  | with_reducible assumption
  | exact (rfl : (_ : Ctx) = _)
  | exact (rfl : (_ : Bool) = _)
  | split)

/-- `inner` with the lemmas on the primitives -/
macro "inner!" hR:ident : tactic => `(tactic|
  repeat' first
  | with_reducible refine Pres.bind (Calls.toFrame (Fine.toCalls (Inner.toFine $hR))) ?_ (fun _ => ?_)
  | with_reducible exact Pres.pure (Calls.toFrame (Fine.toCalls (Inner.toFine $hR))) _
  | with_reducible exact Pres.fail (Calls.toFrame (Fine.toCalls (Inner.toFine $hR))) _
  | with_reducible exact Pres.undef (Calls.toFrame (Fine.toCalls (Inner.toFine $hR))) _
  | with_reducible exact Pres.require (Calls.toFrame (Fine.toCalls (Inner.toFine $hR))) _ _
  | with_reducible exact Pres.guardUB (Calls.toFrame (Fine.toCalls (Inner.toFine $hR))) _ _
  | with_reducible exact Pres.ofOption (Calls.toFrame (Fine.toCalls (Inner.toFine $hR))) _ _
  | with_reducible exact Pres.ofRes (Calls.toFrame (Fine.toCalls (Inner.toFine $hR))) _
  | with_reducible exact Pres.getCtx (Calls.toFrame (Fine.toCalls (Inner.toFine $hR)))
  | with_reducible refine Pres.mapErr _ ?_
  | with_reducible refine Pres.whenM (Calls.toFrame (Fine.toCalls (Inner.toFine $hR))) _ ?_
  | with_reducible refine Pres.ite ?_ ?_
  | with_reducible exact Calls.memAlloc (Fine.toCalls (Inner.toFine $hR)) _ _ _
  | with_reducible exact Calls.makeKeyPair (Fine.toCalls (Inner.toFine $hR)) _ _
  | with_reducible exact Calls.keyAgreement (Fine.toCalls (Inner.toFine $hR)) _ _ _
  | with_reducible exact Calls.sign (Fine.toCalls (Inner.toFine $hR)) _ _ _
  | with_reducible exact Calls.verify (Fine.toCalls (Inner.toFine $hR)) _ _ _ _
  | with_reducible exact Calls.extract (Fine.toCalls (Inner.toFine $hR)) _ _ _
  | with_reducible exact Calls.encrypt (Fine.toCalls (Inner.toFine $hR)) _ _ _ _ _
  | with_reducible exact Calls.decrypt (Fine.toCalls (Inner.toFine $hR)) _ _ _ _ _
  | with_reducible exact Calls.hash (Fine.toCalls (Inner.toFine $hR)) _ _
  | with_reducible refine Calls.withKey (Fine.toCalls (Inner.toFine $hR)) _ _ _ _ _ (fun _ => ?_) (fun _ => ?_)
  | with_reducible exact noErr_makeKeyPair _ _
  | with_reducible exact noErr_keyAgreement _ _ _
  | with_reducible exact noErr_sign _ _ _
  | with_reducible exact noErr_verify _ _ _ _
  | with_reducible exact noErr_extract _ _ _
  | with_reducible exact noErr_encrypt _ _ _ _ _
  | with_reducible exact noErr_decrypt _ _ _ _ _
  | with_reducible exact noErr_expand _ _ _ _
  | with_reducible refine noErr_bind (noErr_guardUB _ _) (fun _ => ?_)
  | with_reducible refine Pres.modCtx _ (fun s => Inner.upd $hR s _ ?_)
  | with_reducible refine Pres.call _ _ (fun s => Calls.ev (Fine.toCalls (Inner.toFine $hR)) s _ _ ?_)
  | with_reducible assumption
  | exact (rfl : (_ : Ctx) = _)
  | exact (rfl : (_ : Bool) = _)
  | split)

namespace Fine

variable {R : St σ → St σ → Prop} (hR : Fine R) (E : Env σ) (cfg : Config)

include hR

theorem compMac (b : Bytes) (n : Nat) : Pres R (Verif.compMac E cfg b n) := by
  unfold Verif.compMac
  fine! hR

theorem signCose (k : Bytes) (m : MacCtx) (mac : Bytes) (n : Nat) : Pres R (Verif.signCose E cfg k m mac n) := by
  unfold Verif.signCose
  fine! hR

theorem verifyCose (m : MacCtx) (a b c : Bytes) : Pres R (Verif.verifyCose E cfg m a b c) := by
  unfold Verif.verifyCose
  fine! hR

theorem compSignOrMac (k : Bytes) (m : MacCtx) (mac : Bytes) (n : Nat) : Pres R (Verif.compSignOrMac E cfg k m mac n) := by
  have h_signCose := fun x0 x1 x2 x3 => signCose hR E cfg x0 x1 x2 x3
  unfold Verif.compSignOrMac
  fine! hR
  all_goals first
    | exact h_signCose _ _ _ _

theorem verifySignOrMac (m : MacCtx) (a : Option Bytes) (b c : Bytes) : Pres R (Verif.verifySignOrMac E cfg m a b c) := by
  have h_verifyCose := fun x0 x1 x2 x3 => verifyCose hR E cfg x0 x1 x2 x3
  unfold Verif.verifySignOrMac
  fine! hR
  all_goals first
    | exact h_verifyCose _ _ _ _

theorem hashTh (b : Bytes) : Pres R (Verif.hashTh E cfg b) := by
  unfold Verif.hashTh
  fine! hR

theorem compDhSecret : Pres R (Verif.compDhSecret E cfg) := by
  unfold Verif.compDhSecret
  fine! hR

theorem compTh2 : Pres R (Verif.compTh2 E cfg) := by
  have h_hashTh := fun x0 => hashTh hR E cfg x0
  unfold Verif.compTh2
  fine! hR
  all_goals first
    | exact h_hashTh _

theorem extractPrk (a b : Bytes) : Pres R (Verif.extractPrk E cfg a b) := by
  unfold Verif.extractPrk
  fine! hR

theorem compPrk2e : Pres R (Verif.compPrk2e E cfg) := by
  have h_extractPrk := fun x0 x1 => extractPrk hR E cfg x0 x1
  unfold Verif.compPrk2e
  fine! hR
  all_goals first
    | exact h_extractPrk _ _

theorem kdfExact (a : Bytes) (l : Nat) (b : Bytes) (n : Nat) (hl : l ≤ 65535) : Pres R (Verif.kdfExact E cfg a l b n) := by
  unfold Verif.kdfExact
  fine! hR

theorem compSalt3e2m : Pres R (Verif.compSalt3e2m E cfg) := by
  have h_kdfExact := fun x0 x1 x2 x3 hl => kdfExact hR E cfg x0 x1 x2 x3 hl
  unfold Verif.compSalt3e2m
  fine! hR
  all_goals first
    | exact h_kdfExact _ _ _ _ (by label!)

theorem agreeEphemeral (a : Bytes) : Pres R (Verif.agreeEphemeral E a) := by
  intro s hd
  unfold Verif.agreeEphemeral Verif.importKey at hd ⊢
  by_cases hk : s.ctx.hasKeys = true
  · have h0 : (Verif.needKeys : M σ Unit) s = (.ok (), s) := by
      simp [Verif.needKeys, Bind.bind, M.bind, M.getCtx, M.guardUB, hk]
    rcases hi : E.importKey s.env .keyAgreement s.ctx.dhPriv with ⟨k, e2⟩
    simp only [Bind.bind, M.bind, M.getCtx, h0, M.call, hi, M.modCtx] at hd ⊢
    cases k with
    | none =>
      refine hR.trans (hR.imp0 s e2 .keyAgreement s.ctx.dhPriv) ?_
      simp only [M.ofOption]
      exact hR.wipe _
    | some kid =>
      simp only [M.ofOption] at hd ⊢
      have h1 := hR.keyAgreement E kid a ⟨{ s.ctx with dhPriv := [] }, e2,
        s.log ++ [.importKey .keyAgreement s.ctx.dhPriv (some kid)]⟩
      have h2 := noErr_keyAgreement E kid a ⟨{ s.ctx with dhPriv := [] }, e2,
        s.log ++ [.importKey .keyAgreement s.ctx.dhPriv (some kid)]⟩
      rcases ho : Verif.keyAgreement E kid a ⟨{ s.ctx with dhPriv := [] }, e2,
        s.log ++ [.importKey .keyAgreement s.ctx.dhPriv (some kid)]⟩ with ⟨r, s3⟩
      rw [ho] at h1
      simp only [ho] at hd ⊢
      cases r with
      | err e => exact absurd ho (h2 _ _)
      | ub u => simp at hd
      | ok x =>
        have h3 := hR.key s s3 e2 (E.destroyKey s3.env kid) .keyAgreement s.ctx.dhPriv kid
          (hR.trans (hR.wipe ⟨s.ctx, e2, s.log ++ [.importKey .keyAgreement s.ctx.dhPriv (some kid)]⟩) (h1 (by simp)))
        simp only [Verif.destroyKey, Verif.needKeys, Bind.bind, M.bind, M.getCtx, M.guardUB] at hd ⊢
        by_cases hk3 : s3.ctx.hasKeys = true
        · simp only [hk3, M.call, ↓reduceIte] at hd ⊢
          cases x with
          | none => exact h3
          | some y =>
            simp only [M.require] at hd ⊢
            split <;> first | exact h3 | (rename_i h; split at h <;> simp_all [Pure.pure, M.ret])
        · simp [hk3] at hd
  · have h0 : (Verif.needKeys : M σ Unit) s = (.ub .nullCall, s) := by
      simp [Verif.needKeys, Bind.bind, M.bind, M.getCtx, M.guardUB, hk]
    simp [Bind.bind, M.bind, M.getCtx, h0] at hd

theorem agreeStatic (a : Bytes) : Pres R (Verif.agreeStatic E a) := by
  unfold Verif.agreeStatic
  fine! hR

theorem compGrx (a b : Bytes) : Pres R (Verif.compGrx E a b) := by
  have h_agreeEphemeral := fun x0 => agreeEphemeral hR E x0
  have h_agreeStatic := fun x0 => agreeStatic hR E x0
  unfold Verif.compGrx
  fine! hR
  all_goals first
    | exact h_agreeEphemeral _
    | exact h_agreeStatic _

theorem compPrk3e2m (a b : Bytes) : Pres R (Verif.compPrk3e2m E cfg a b) := by
  have h_extractPrk := fun x0 x1 => extractPrk hR E cfg x0 x1
  have h_compSalt3e2m := compSalt3e2m hR E cfg
  have h_compGrx := fun x0 x1 => compGrx hR E x0 x1
  unfold Verif.compPrk3e2m
  fine! hR
  all_goals first
    | exact h_extractPrk _ _
    | exact h_compSalt3e2m
    | exact h_compGrx _ _

theorem compKeystream (a : Bytes) (n : Nat) : Pres R (Verif.compKeystream E cfg a n) := by
  have h_kdfExact := fun x0 x1 x2 x3 hl => kdfExact hR E cfg x0 x1 x2 x3 hl
  unfold Verif.compKeystream
  fine! hR
  all_goals first
    | exact h_kdfExact _ _ _ _ (by label!)

theorem compTh3 (a b : Bytes) : Pres R (Verif.compTh3 E cfg a b) := by
  unfold Verif.compTh3
  fine! hR

theorem prepareMsg2 (a : Bytes) (n : Nat) : Pres R (Verif.prepareMsg2 E cfg a n) := by
  unfold Verif.prepareMsg2
  fine! hR

theorem buildMacCtx (e : Option Err) (c : Cred) : Pres R (Verif.buildMacCtx E cfg e c) := by
  unfold Verif.buildMacCtx
  fine! hR

theorem storePeerCid (e : Err) (c : Cid) : Pres R (Verif.storePeerCid cfg e c : M σ Unit) := by
  unfold Verif.storePeerCid
  fine! hR

theorem handOver (n : Nat) : Pres R (Verif.handOver cfg n : M σ Unit) := by
  unfold Verif.handOver
  fine! hR

theorem storeEad (l : List EadTok) (n : Nat) : Pres R (Verif.storeEad cfg l n : M σ Unit) := by
  have h_handOver := handOver hR cfg
  unfold Verif.storeEad
  fine! hR
  all_goals first
    | exact h_handOver _

theorem parsePtxt2 (a : Bytes) : Pres R (Verif.parsePtxt2 cfg a : M σ (Cred × Bytes)) := by
  have h_storePeerCid := fun x0 x1 => storePeerCid hR cfg x0 x1
  have h_storeEad := fun x0 x1 => storeEad hR cfg x0 x1
  unfold Verif.parsePtxt2
  fine! hR
  all_goals first
    | exact h_storePeerCid _ _
    | exact h_storeEad _ _

theorem parseMsg2 (a : Bytes) : Pres R (Verif.parseMsg2 E cfg a) := by
  unfold Verif.parseMsg2
  fine! hR

theorem compSalt4e3m : Pres R (Verif.compSalt4e3m E cfg) := by
  have h_kdfExact := fun x0 x1 x2 x3 hl => kdfExact hR E cfg x0 x1 x2 x3 hl
  unfold Verif.compSalt4e3m
  fine! hR
  all_goals first
    | exact h_kdfExact _ _ _ _ (by label!)

theorem compGiy (a b : Bytes) : Pres R (Verif.compGiy E a b) := by
  have h_agreeEphemeral := fun x0 => agreeEphemeral hR E x0
  have h_agreeStatic := fun x0 => agreeStatic hR E x0
  unfold Verif.compGiy
  fine! hR
  all_goals first
    | exact h_agreeEphemeral _
    | exact h_agreeStatic _

theorem compPrk4e3m (a b : Bytes) : Pres R (Verif.compPrk4e3m E cfg a b) := by
  have h_extractPrk := fun x0 x1 => extractPrk hR E cfg x0 x1
  have h_compSalt4e3m := compSalt4e3m hR E cfg
  have h_compGiy := fun x0 x1 => compGiy hR E x0 x1
  unfold Verif.compPrk4e3m
  fine! hR
  all_goals first
    | exact h_extractPrk _ _
    | exact h_compSalt4e3m
    | exact h_compGiy _ _

theorem expandInfo (n : Nat) (a : Bytes) (l : Nat) (b : Bytes) (k o : Nat) (hl : l ≤ 65535) :
    Pres R (Verif.expandInfo E n a l b k o) := by
  unfold Verif.expandInfo
  fine! hR

theorem keyIvAad (a b : Nat) (ha : a ≤ 65535) (hb : b ≤ 65535) : Pres R (Verif.keyIvAad E cfg a b) := by
  have h_expandInfo := fun x0 x1 x2 x3 x4 x5 hl => expandInfo hR E x0 x1 x2 x3 x4 x5 hl
  unfold Verif.keyIvAad
  fine! hR
  all_goals first
    | exact h_expandInfo _ _ _ _ _ _ (by label!)

theorem keyIvAad3 : Pres R (Verif.keyIvAad3 E cfg) := by
  have h_keyIvAad := fun x0 x1 h1 h2 => keyIvAad hR E cfg x0 x1 h1 h2
  unfold Verif.keyIvAad3
  fine! hR
  all_goals first
    | exact h_keyIvAad _ _ (by label!) (by label!)

theorem aeadEncrypt (a b c d : Bytes) (n : Nat) : Pres R (Verif.aeadEncrypt E a b c d n) := by
  unfold Verif.aeadEncrypt
  fine! hR

theorem aeadDecrypt (a b c d : Bytes) (n : Nat) : Pres R (Verif.aeadDecrypt E a b c d n) := by
  unfold Verif.aeadDecrypt
  fine! hR

theorem genMsg3 (a : Bytes) (n : Nat) : Pres R (Verif.genMsg3 a n : M σ Bytes) := by
  unfold Verif.genMsg3
  fine! hR

theorem parsePtxt3 (a : Bytes) : Pres R (Verif.parsePtxt3 cfg a : M σ (Cred × Bytes)) := by
  have h_storeEad := fun x0 x1 => storeEad hR cfg x0 x1
  unfold Verif.parsePtxt3
  fine! hR
  all_goals first
    | exact h_storeEad _ _

theorem keyIvAad4 : Pres R (Verif.keyIvAad4 E cfg) := by
  have h_keyIvAad := fun x0 x1 h1 h2 => keyIvAad hR E cfg x0 x1 h1 h2
  unfold Verif.keyIvAad4
  fine! hR
  all_goals first
    | exact h_keyIvAad _ _ (by label!) (by label!)

theorem genMsg4 (a : Bytes) (n : Nat) : Pres R (Verif.genMsg4 a n : M σ Bytes) := by
  unfold Verif.genMsg4
  fine! hR

theorem parsePtxt4 (a : Bytes) : Pres R (Verif.parsePtxt4 cfg a : M σ Unit) := by
  have h_handOver := handOver hR cfg
  unfold Verif.parsePtxt4
  fine! hR
  all_goals first
    | exact h_handOver _

theorem compPrkExporter : Pres R (Verif.compPrkExporter E cfg) := by
  have h_expandInfo := fun x0 x1 x2 x3 x4 x5 hl => expandInfo hR E x0 x1 x2 x3 x4 x5 hl
  unfold Verif.compPrkExporter
  fine! hR
  all_goals first
    | exact h_expandInfo _ _ _ _ _ _ (by label!)

end Fine

namespace Inner

variable {R : St σ → St σ → Prop} (hR : Inner R) (E : Env σ) (cfg : Config)

include hR

theorem genDhKeys : Pres R (Verif.genDhKeys E cfg) := by
  unfold Verif.genDhKeys
  inner! hR

theorem compTh4 (a b : Bytes) : Pres R (Verif.compTh4 E cfg a b) := by
  have h_hashTh := fun x0 => hR.hashTh E cfg x0
  unfold Verif.compTh4
  inner! hR
  all_goals first
    | exact h_hashTh _

theorem compPrkOut : Pres R (Verif.compPrkOut E cfg) := by
  have h_expandInfo := fun x0 x1 x2 x3 x4 x5 hl => hR.expandInfo E x0 x1 x2 x3 x4 x5 hl
  unfold Verif.compPrkOut
  inner! hR
  all_goals first
    | exact h_expandInfo _ _ _ _ _ _ (by label!)

theorem compNewPrkOut (a : Bytes) : Pres R (Verif.compNewPrkOut E cfg a) := by
  have h_expandInfo := fun x0 x1 x2 x3 x4 x5 hl => hR.expandInfo E x0 x1 x2 x3 x4 x5 hl
  unfold Verif.compNewPrkOut
  inner! hR
  all_goals first
    | exact h_expandInfo _ _ _ _ _ _ (by label!)

theorem ensurePrkOut : Pres R (Verif.ensurePrkOut E cfg) := by
  have h_compPrkOut := compPrkOut hR E cfg
  unfold Verif.ensurePrkOut
  inner! hR
  all_goals first
    | exact h_compPrkOut

theorem exportSecret (l n : Nat) : Pres R (Verif.exportSecret E cfg l n) := by
  have h_expandInfo := fun x0 x1 x2 x3 x4 x5 hl => hR.expandInfo E x0 x1 x2 x3 x4 x5 hl
  have h_compPrkExporter := hR.compPrkExporter E cfg
  have h_ensurePrkOut := ensurePrkOut hR E cfg
  unfold Verif.exportSecret
  refine Pres.bindRequire hR.toFrame fun hl => ?_
  simp only [Bool.and_eq_true, decide_eq_true_eq] at hl
  have hl := hl.1
  inner! hR
  all_goals first
    | exact h_expandInfo _ _ _ _ _ _ (by label!)
    | exact h_compPrkExporter
    | exact h_ensurePrkOut

end Inner

namespace FApp

variable {R : St σ → St σ → Prop} (hR : FApp R) (E : Env σ) (cfg : Config)

include hR

theorem credFetch : Pres R (Verif.credFetch E) := by
  unfold Verif.credFetch
  exact (hR.needCred).bind hR.toFrame fun _ => Pres.call _ _ (fun s => hR.app s _ _ rfl)

theorem eadCompose : Pres R (Verif.eadCompose E cfg) := by
  have h := hR.toFine
  unfold Verif.eadCompose
  refine (Pres.getCtx hR.toFrame).bind hR.toFrame fun _ => ?_
  refine Pres.whenM hR.toFrame _ ?_
  refine (Pres.call _ _ (fun s => hR.app s _ _ rfl)).bind hR.toFrame fun _ => ?_
  fine! h

theorem eadProcess : Pres R (Verif.eadProcess E cfg) := by
  have h := hR.toFine
  unfold Verif.eadProcess
  refine (Pres.getCtx hR.toFrame).bind hR.toFrame fun _ => ?_
  refine Pres.whenM hR.toFrame _ ?_
  refine (Pres.call _ _ (fun s => hR.app s _ _ rfl)).bind hR.toFrame fun _ => ?_
  fine! h

theorem processEad1 (l : List EadTok) (n : Nat) : Pres R (Verif.processEad1 E cfg l n) := by
  have h := hR.toFine
  unfold Verif.processEad1 Verif.clearEad
  refine (Pres.getCtx hR.toFrame).bind hR.toFrame fun _ => ?_
  refine Pres.whenM hR.toFrame _ ?_
  refine (Pres.require hR.toFrame _ _).bind hR.toFrame fun _ => ?_
  refine (Pres.guardUB hR.toFrame _ _).bind hR.toFrame fun _ => ?_
  refine (Pres.modCtx _ (fun s => hR.soft s _ rfl rfl rfl (fun h => h))).bind hR.toFrame fun _ => ?_
  refine (Pres.guardUB hR.toFrame _ _).bind hR.toFrame fun _ => ?_
  refine (Pres.call _ _ (fun s => hR.app s _ _ rfl)).bind hR.toFrame fun _ => ?_
  fine! h

end FApp

end Verif
