import Verif.SpecSafety
import Verif.Config
import Verif.Success2
import Verif.CborSound

/-!
# Runs without undefined behaviour

`Keep I L m Q`: from a context with `I`, `m` has no undefined behaviour apart from `L`; if it succeeds then `I` still
holds and the result has `Q`. One lemma per inner function.
-/

namespace Verif

open M Spec

variable {σ α β : Type}

/-- from a context with `I`, `m` has no undefined behaviour apart from `L`, keeps `I`, and its result has `Q` -/
def Keep (I : Ctx → Prop) (L : UB → Prop) (m : M σ α) (Q : α → Prop) : Prop :=
  ∀ s, I s.ctx → match m s with
    | (.ok a, s') => I s'.ctx ∧ Q a
    | (.err _, _) => True
    | (.ub u, _) => L u

namespace Keep

variable {I : Ctx → Prop} {L : UB → Prop}

theorem ok {m : M σ α} {Q : α → Prop} (h : Keep I L m Q) {s s' : St σ} {a : α} (hi : I s.ctx) (hm : m s = (.ok a, s')) :
    I s'.ctx ∧ Q a := by
  have := h s hi
  rwa [hm] at this

theorem ub {m : M σ α} {Q : α → Prop} (h : Keep I L m Q) {s s' : St σ} {u : UB} (hi : I s.ctx) (hm : m s = (.ub u, s')) :
    L u := by
  have := h s hi
  rwa [hm] at this

theorem bind {m : M σ α} {f : α → M σ β} {Q : α → Prop} {R : β → Prop} (hm : Keep I L m Q)
    (hf : ∀ a, Q a → Keep I L (f a) R) : Keep I L (m >>= f) R := by
  intro s hi
  have h1 := hm s hi
  show match M.bind m f s with | (.ok a, s') => I s'.ctx ∧ R a | (.err _, _) => True | (.ub u, _) => L u
  unfold M.bind
  rcases h : m s with ⟨r, s1⟩
  rw [h] at h1
  cases r with
  | ok a => exact hf a h1.2 s1 h1.1
  | err e => trivial
  | ub u => exact h1

theorem mono {m : M σ α} {Q R : α → Prop} (h : Keep I L m Q) (hq : ∀ a, Q a → R a) : Keep I L m R := by
  intro s hi
  have h1 := h s hi
  rcases hm : m s with ⟨r, s1⟩
  rw [hm] at h1
  cases r with
  | ok a => exact ⟨h1.1, hq a h1.2⟩
  | err e => trivial
  | ub u => exact h1

theorem any {m : M σ α} {Q : α → Prop} (h : Keep I L m Q) : Keep I L m (fun _ => True) := h.mono fun _ _ => trivial

theorem pure (a : α) : Keep I L (Pure.pure a : M σ α) (fun x => x = a) := fun _ hi => ⟨hi, rfl⟩
theorem fail (e : Err) : Keep I L (M.fail e : M σ α) (fun _ => True) := fun _ _ => trivial
theorem getCtx : Keep I L (M.getCtx : M σ Ctx) I := fun _ hi => ⟨hi, hi⟩

theorem require (b : Bool) (e : Err) : Keep I L (M.require b e : M σ Unit) (fun _ => b = true) := by
  intro s hi
  cases b
  · trivial
  · exact ⟨hi, rfl⟩

theorem guardUB {b : Bool} (u : UB) (h : b = true) : Keep I L (M.guardUB b u : M σ Unit) (fun _ => True) := by
  subst h
  exact fun s hi => ⟨hi, trivial⟩

theorem guardLax {b : Bool} {u : UB} (h : L u) : Keep I L (M.guardUB b u : M σ Unit) (fun _ => True) := by
  intro s hi
  cases b
  · exact h
  · exact ⟨hi, trivial⟩

theorem ofOption (e : Err) (o : Option α) : Keep I L (M.ofOption e o : M σ α) (fun a => o = some a) := by
  intro s hi
  cases o with
  | none => trivial
  | some a => exact ⟨hi, rfl⟩

theorem ofRes {r : Res α} (h : ∀ u, r ≠ .ub u) : Keep I L (M.ofRes r : M σ α) (fun a => r = .ok a) := by
  intro s hi
  cases r with
  | ok a => exact ⟨hi, rfl⟩
  | err e => trivial
  | ub u => exact absurd rfl (h u)

theorem modCtx {f : Ctx → Ctx} (h : ∀ c, I c → I (f c)) : Keep I L (M.modCtx f : M σ Unit) (fun _ => True) :=
  fun s hi => ⟨h s.ctx hi, trivial⟩

theorem call (f : σ → β × σ) (ev : β → Ev) : Keep I L (M.call f ev) (fun b => ∃ e, (f e).1 = b) :=
  fun s hi => ⟨hi, s.env, rfl⟩

theorem mapErr {m : M σ α} {Q : α → Prop} (e : Err) (h : Keep I L m Q) : Keep I L (M.mapErr e m) Q := by
  intro s hi
  have h1 := h s hi
  unfold M.mapErr
  rcases hm : m s with ⟨r, s1⟩
  rw [hm] at h1
  cases r <;> exact h1

theorem whenM {m : M σ Unit} {Q : Unit → Prop} (b : Bool) (h : b = true → Keep I L m Q) :
    Keep I L (M.whenM b m) (fun _ => True) := by
  cases b
  · exact fun s hi => ⟨hi, trivial⟩
  · exact (h rfl).any

theorem ite {p : Prop} [Decidable p] {m n : M σ α} {Q : α → Prop} (h1 : p → Keep I L m Q) (h2 : ¬ p → Keep I L n Q) :
    Keep I L (if p then m else n) Q := by
  split
  · exact h1 ‹_›
  · exact h2 ‹_›

end Keep

/-! ## Contexts that are ready for message processing -/

/-- callbacks bound, the suite, the method and the message in use, stored lengths within bounds -/
structure Able (cfg : Config) (su : Suite) (me : Nat) (ms : Msg) (c : Ctx) : Prop where
  keys : c.hasKeys = true
  crypto : c.hasCrypto = true
  cred : c.hasCred = true
  suite : c.suite = su
  method : c.chosenMethod = me
  message : c.message = ms
  th : c.th.length ≤ cfg.maxMac
  ead : c.ead.length ≤ 3
  cid : OwnCid cfg c

/-- sizes within the configured maxima, and those below 64 KiB -/
structure Limits (cfg : Config) (su : Suite) : Prop where
  hash : su.hash ≤ cfg.maxMac
  ecc : su.eccKey ≤ cfg.maxEccKey
  small : SmallMaxima cfg

section inner

variable {E : Env σ} {cfg : Config} {su : Suite} {me : Nat} {ms : Msg}

/-- `Keep` for message processing -/
abbrev Runs (cfg : Config) (su : Suite) (me : Nat) (ms : Msg) (m : M σ α) (Q : α → Prop) : Prop :=
  Keep (Able cfg su me ms) (StackFault cfg) m Q

theorem Runs.needKeys : Runs cfg su me ms (Verif.needKeys : M σ Unit) (fun _ => True) :=
  Keep.getCtx.bind fun _ h => Keep.guardUB _ h.keys

theorem Runs.needCrypto : Runs cfg su me ms (Verif.needCrypto : M σ Unit) (fun _ => True) :=
  Keep.getCtx.bind fun _ h => Keep.guardUB _ h.crypto

theorem Runs.needCred : Runs cfg su me ms (Verif.needCred : M σ Unit) (fun _ => True) :=
  Keep.getCtx.bind fun _ h => Keep.guardUB _ h.cred

theorem Runs.memAlloc (n : Nat) : Runs cfg su me ms (Verif.memAlloc E cfg n) (fun _ => True) := by
  unfold Verif.memAlloc
  split
  · rename_i hb
    refine (Keep.guardLax ⟨hb, Or.inl rfl⟩).bind fun _ _ => Keep.guardLax ⟨hb, Or.inr rfl⟩
  · exact (Keep.call _ _).bind fun _ _ => (Keep.require _ _).any

theorem Runs.importKey (t : KeyType) (b : Bytes) : Runs cfg su me ms (Verif.importKey E t b) (fun _ => True) :=
  Runs.needKeys.bind fun _ _ => (Keep.call _ _).any

theorem Runs.destroyKey (b : Bytes) : Runs cfg su me ms (Verif.destroyKey E b) (fun _ => True) :=
  Runs.needKeys.bind fun _ _ => (Keep.call _ _).any

theorem Runs.withKey {t : KeyType} {b : Bytes} {e : Err} {op : Bytes → M σ α} {Q : α → Prop}
    (h : ∀ k, Runs cfg su me ms (op k) Q) : Runs cfg su me ms (Verif.withKey E t b e op) Q := by
  unfold Verif.withKey
  refine (Runs.importKey _ _).bind fun _ _ => (Keep.ofOption _ _).bind fun kid _ => (h kid).bind fun a ha => ?_
  exact (Runs.destroyKey _).bind fun _ _ => (Keep.pure a).mono fun x hx => hx ▸ ha

theorem Runs.makeKeyPair (b : Bytes) : Runs cfg su me ms (Verif.makeKeyPair E b) (fun _ => True) :=
  Runs.needCrypto.bind fun _ _ => (Keep.call _ _).any

theorem Runs.keyAgreement (a b : Bytes) : Runs cfg su me ms (Verif.keyAgreement E a b) (fun _ => True) :=
  Runs.needCrypto.bind fun _ _ => (Keep.call _ _).any

theorem Runs.sign (a b : Bytes) : Runs cfg su me ms (Verif.sign E a b) (fun r => ∃ e, (E.sign e a b).1 = r) :=
  Runs.needCrypto.bind fun _ _ => Keep.call _ _

theorem Runs.verify (a b c : Bytes) : Runs cfg su me ms (Verif.verify E a b c) (fun _ => True) :=
  Runs.needCrypto.bind fun _ _ => (Keep.call _ _).any

theorem Runs.extract (a b : Bytes) : Runs cfg su me ms (Verif.extract E a b) (fun _ => True) :=
  Runs.needCrypto.bind fun _ _ => (Keep.call _ _).any

theorem Runs.expand (a b : Bytes) (n : Nat) :
    Runs cfg su me ms (Verif.expand E a b n) (fun r => ∀ x, r = some x → x.length = n) := by
  refine Runs.needCrypto.bind fun _ _ => (Keep.call _ _).mono ?_
  rintro r ⟨e, rfl⟩ x hx
  simp only [Option.map_eq_some_iff] at hx
  obtain ⟨y, _, rfl⟩ := hx
  exact fitLen_length n y

theorem Runs.encrypt (a b c d : Bytes) :
    Runs cfg su me ms (Verif.encrypt E a b c d) (fun r => ∃ e, (E.encrypt e a b c d).1 = r) :=
  Runs.needCrypto.bind fun _ _ => Keep.call _ _

theorem Runs.decrypt (a b c d : Bytes) : Runs cfg su me ms (Verif.decrypt E a b c d) (fun _ => True) :=
  Runs.needCrypto.bind fun _ _ => (Keep.call _ _).any

theorem Runs.hash (a : Bytes) : Runs cfg su me ms (Verif.hash E a) (fun r => ∃ e, (E.hash e a).1 = r) :=
  Runs.needCrypto.bind fun _ _ => Keep.call _ _

theorem Runs.credFetch : Runs cfg su me ms (Verif.credFetch E) (fun r => ∃ e, (E.credFetch e).1 = r) :=
  Runs.needCred.bind fun _ _ => Keep.call _ _

theorem Runs.credVerify (c : Cred) : Runs cfg su me ms (Verif.credVerify E c) (fun r => ∃ e, (E.credVerify e c).1 = r) :=
  Runs.needCred.bind fun _ _ => Keep.call _ _

/-! ### Encodings fit their buffers -/

theorem headLen_small {n : Nat} (h : n < 65536) : headLen n = bstrOh n := by
  unfold headLen bstrOh
  repeat' split
  all_goals omega

theorem encBstr_small {b : Bytes} (h : b.length < 65536) : (encBstr b).length = b.length + bstrOh b.length := by
  rw [encBstr_length, headLen_small h, Nat.add_comm]

theorem Able.hashOk {c : Ctx} (hl : Limits cfg su) (h : Able cfg su me ms c) : decide (c.suite.hash ≤ cfg.maxMac) = true := by
  rw [h.suite]; exact decide_eq_true hl.hash

theorem Able.eccOk {c : Ctx} (hl : Limits cfg su) (h : Able cfg su me ms c) :
    decide (c.suite.eccKey ≤ cfg.maxEccKey) = true := by
  rw [h.suite]; exact decide_eq_true hl.ecc

variable (hl : Limits cfg su)

include hl in
theorem Runs.hashTh (b : Bytes) : Runs cfg su me ms (Verif.hashTh E cfg b) (fun h => h.length ≤ cfg.maxMac) := by
  unfold Verif.hashTh
  refine Keep.getCtx.bind fun c hc => ?_
  refine (Keep.guardUB _ (hc.hashOk hl)).bind fun _ _ => ?_
  refine (Runs.hash _).bind fun _ _ => (Keep.ofOption _ _).bind fun h _ => (Keep.require _ _).bind fun _ hq => ?_
  refine (Keep.pure h).mono ?_
  rintro _ rfl
  have := hc.hashOk hl
  simp only [beq_iff_eq, decide_eq_true_eq] at hq this
  omega

include hl in
theorem Runs.genDhKeys : Runs cfg su me ms (Verif.genDhKeys E cfg) (fun _ => True) := by
  unfold Verif.genDhKeys
  refine Keep.getCtx.bind fun c hc => ?_
  refine (Runs.withKey fun k => (Keep.guardUB _ (hc.eccOk hl)).bind fun _ _ => Runs.makeKeyPair _).bind fun _ _ => ?_
  refine (Keep.ofOption _ _).bind fun _ _ => (Keep.modCtx ?_).bind fun _ _ => (Keep.require _ _).any
  exact fun c h => ⟨h.keys, h.crypto, h.cred, h.suite, h.method, h.message, h.th, h.ead, h.cid⟩

include hl in
theorem Runs.compDhSecret : Runs cfg su me ms (Verif.compDhSecret E cfg) (fun _ => True) := by
  unfold Verif.compDhSecret
  refine Keep.getCtx.bind fun c hc => ?_
  refine (Runs.withKey fun k => (Keep.guardUB _ (hc.eccOk hl)).bind fun _ _ => Runs.keyAgreement _ _).bind fun _ _ => ?_
  refine (Keep.ofOption _ _).bind fun _ _ => (Keep.modCtx ?_).bind fun _ _ => (Keep.require _ _).any
  exact fun c h => ⟨h.keys, h.crypto, h.cred, h.suite, h.method, h.message, h.th, h.ead, h.cid⟩

include hl in
theorem Runs.compTh2 : Runs cfg su me ms (Verif.compTh2 E cfg) (fun _ => True) := by
  unfold Verif.compTh2
  refine Keep.getCtx.bind fun c hc => ?_
  refine (Keep.require _ _).bind fun _ _ => (Runs.memAlloc _).bind fun _ _ => ?_
  refine (Keep.ofOption _ _).bind fun _ _ => (Keep.require _ _).bind fun _ _ => ?_
  refine (Keep.ofOption _ _).bind fun _ _ => (Keep.require _ _).bind fun _ _ => ?_
  refine (Runs.hashTh hl _).bind fun t ht => Keep.modCtx ?_
  exact fun c h => ⟨h.keys, h.crypto, h.cred, h.suite, h.method, h.message, ht, h.ead, h.cid⟩

include hl in
theorem Runs.extractPrk (a b : Bytes) : Runs cfg su me ms (Verif.extractPrk E cfg a b) (fun _ => True) := by
  unfold Verif.extractPrk
  refine Keep.getCtx.bind fun c hc => ?_
  refine (Runs.withKey fun k => (Keep.guardUB _ (hc.hashOk hl)).bind fun _ _ => Runs.extract _ _).bind fun _ _ => ?_
  exact (Keep.ofOption _ _).bind fun _ _ => (Keep.require _ _).bind fun _ _ => (Keep.pure _).any

include hl in
theorem Runs.compPrk2e : Runs cfg su me ms (Verif.compPrk2e E cfg) (fun _ => True) := by
  unfold Verif.compPrk2e
  refine Keep.getCtx.bind fun c hc => (Keep.require _ _).bind fun _ _ => ?_
  refine (Runs.extractPrk hl _ _).bind fun t ht => Keep.modCtx ?_
  exact fun c h => ⟨h.keys, h.crypto, h.cred, h.suite, h.method, h.message, h.th, h.ead, h.cid⟩

theorem Runs.kdfExact (a : Bytes) (l : Nat) (b : Bytes) (n : Nat) :
    Runs cfg su me ms (Verif.kdfExact E cfg a l b n) (fun r => r.length = n) := by
  unfold Verif.kdfExact
  refine (Runs.memAlloc _).bind fun _ _ => (Keep.ofOption _ _).bind fun _ _ => (Keep.require _ _).bind fun _ _ => ?_
  exact (Runs.withKey fun k => Runs.expand _ _ _).bind fun _ hr => (Keep.ofOption _ _).mono fun x hx => hr x hx

theorem Runs.compSalt3e2m : Runs cfg su me ms (Verif.compSalt3e2m E cfg) (fun _ => True) := by
  unfold Verif.compSalt3e2m
  exact Keep.getCtx.bind fun c hc => (Keep.require _ _).bind fun _ _ => (Keep.require _ _).bind fun _ _ =>
    (Runs.kdfExact _ _ _ _).any

theorem Runs.compSalt4e3m : Runs cfg su me ms (Verif.compSalt4e3m E cfg) (fun _ => True) := by
  unfold Verif.compSalt4e3m
  exact Keep.getCtx.bind fun c hc => (Keep.require _ _).bind fun _ _ => (Keep.require _ _).bind fun _ _ =>
    (Runs.kdfExact _ _ _ _).any

theorem Runs.agreeEphemeral (b : Bytes) : Runs cfg su me ms (Verif.agreeEphemeral E b) (fun _ => True) := by
  unfold Verif.agreeEphemeral
  refine Keep.getCtx.bind fun c hc => (Runs.importKey _ _).bind fun _ _ => (Keep.modCtx ?_).bind fun _ _ => ?_
  · exact fun c h => ⟨h.keys, h.crypto, h.cred, h.suite, h.method, h.message, h.th, h.ead, h.cid⟩
  refine (Keep.ofOption _ _).bind fun _ _ => (Runs.keyAgreement _ _).bind fun _ _ => (Runs.destroyKey _).bind fun _ _ => ?_
  exact (Keep.ofOption _ _).bind fun _ _ => (Keep.require _ _).bind fun _ _ => (Keep.pure _).any

theorem Runs.agreeStatic (b : Bytes) : Runs cfg su me ms (Verif.agreeStatic E b) (fun _ => True) := by
  unfold Verif.agreeStatic
  refine Keep.getCtx.bind fun c hc => (Runs.keyAgreement _ _).bind fun _ _ => ?_
  exact (Keep.ofOption _ _).bind fun _ _ => (Keep.require _ _).bind fun _ _ => (Keep.pure _).any

theorem Runs.compGrx (a b : Bytes) : Runs cfg su me ms (Verif.compGrx E a b) (fun _ => True) := by
  unfold Verif.compGrx
  refine Keep.getCtx.bind fun c hc => (Keep.require _ _).bind fun _ _ => ?_
  split
  · exact Runs.agreeEphemeral _
  · exact Runs.agreeStatic _

theorem Runs.compGiy (a b : Bytes) : Runs cfg su me ms (Verif.compGiy E a b) (fun _ => True) := by
  unfold Verif.compGiy
  refine Keep.getCtx.bind fun c hc => (Keep.require _ _).bind fun _ _ => ?_
  split
  · exact Runs.agreeStatic _
  · exact Runs.agreeEphemeral _

include hl in
theorem Runs.compPrk3e2m (a b : Bytes) : Runs cfg su me ms (Verif.compPrk3e2m E cfg a b) (fun _ => True) := by
  unfold Verif.compPrk3e2m
  refine Keep.getCtx.bind fun c hc => (Keep.require _ _).bind fun _ _ => ?_
  refine Keep.ite (fun _ => Keep.modCtx ?_) fun _ => Keep.ite (fun _ => ?_) fun _ => Keep.fail _
  · exact fun c h => ⟨h.keys, h.crypto, h.cred, h.suite, h.method, h.message, h.th, h.ead, h.cid⟩
  refine (Runs.memAlloc _).bind fun _ _ => (Keep.mapErr _ Runs.compSalt3e2m).bind fun _ _ => ?_
  refine (Runs.memAlloc _).bind fun _ _ => (Keep.mapErr _ (Runs.compGrx _ _)).bind fun _ _ => ?_
  refine (Runs.extractPrk hl _ _).bind fun t ht => Keep.modCtx ?_
  exact fun c h => ⟨h.keys, h.crypto, h.cred, h.suite, h.method, h.message, h.th, h.ead, h.cid⟩

include hl in
theorem Runs.compPrk4e3m (a b : Bytes) : Runs cfg su me ms (Verif.compPrk4e3m E cfg a b) (fun _ => True) := by
  unfold Verif.compPrk4e3m
  refine Keep.getCtx.bind fun c hc => (Keep.require _ _).bind fun _ _ => ?_
  refine Keep.ite (fun _ => Keep.modCtx ?_) fun _ => Keep.ite (fun _ => ?_) fun _ => Keep.fail _
  · exact fun c h => ⟨h.keys, h.crypto, h.cred, h.suite, h.method, h.message, h.th, h.ead, h.cid⟩
  refine (Runs.memAlloc _).bind fun _ _ => (Keep.mapErr _ Runs.compSalt4e3m).bind fun _ _ => ?_
  refine (Runs.memAlloc _).bind fun _ _ => (Keep.mapErr _ (Runs.compGiy _ _)).bind fun _ _ => ?_
  refine (Runs.extractPrk hl _ _).bind fun t ht => Keep.modCtx ?_
  exact fun c h => ⟨h.keys, h.crypto, h.cred, h.suite, h.method, h.message, h.th, h.ead, h.cid⟩

theorem Runs.compKeystream (a : Bytes) (n : Nat) : Runs cfg su me ms (Verif.compKeystream E cfg a n) (fun r => r.length = n) := by
  unfold Verif.compKeystream
  exact Keep.getCtx.bind fun c hc => (Keep.require _ _).bind fun _ _ => (Keep.require _ _).bind fun _ _ =>
    Runs.kdfExact _ _ _ _

/-- the transcript hash in front of plaintext and credential fits -/
theorem th_fits {th ptxt cred a : Bytes} {n : Nat} (ht : th.length < 65536) (hn : n = th.length + bstrOh th.length + ptxt.length + cred.length)
    (h : fits n (encBstr th) = some a) : decide (a.length + ptxt.length + cred.length ≤ n) = true := by
  obtain ⟨rfl, _⟩ := fits_some h
  have := encBstr_small ht
  simp only [decide_eq_true_eq]
  omega

include hl in
theorem Runs.compTh3 (hE : Tame E cfg su) (a b : Bytes) : Runs cfg su me ms (Verif.compTh3 E cfg a b) (fun _ => True) := by
  unfold Verif.compTh3
  refine Keep.getCtx.bind fun c hc => (Keep.require _ _).bind fun _ _ => (Keep.require _ _).bind fun _ _ => ?_
  have ht : c.th.length < 65536 := Nat.lt_of_le_of_lt hc.th hl.small.1
  refine (Runs.memAlloc _).bind fun _ _ => (Keep.ofOption _ _).bind fun x hx => ?_
  refine (Keep.guardUB _ (th_fits ht rfl hx)).bind fun _ _ => (Keep.guardUB _ (hc.hashOk hl)).bind fun _ _ => ?_
  refine (Runs.hash _).bind fun r hr => (Keep.ofOption _ _).bind fun h hh => ?_
  obtain ⟨e, he⟩ := hr
  refine (Keep.guardUB _ ?_).bind fun _ _ => Keep.modCtx ?_
  · rw [hc.suite]
    exact decide_eq_true (hE.hash _ _ _ (he.trans hh))
  · intro c h
    refine ⟨h.keys, h.crypto, h.cred, h.suite, h.method, h.message, ?_, h.ead, h.cid⟩
    show (overlay _ _ _).length ≤ _
    unfold overlay
    rw [fitLen_length, h.suite]
    exact hl.hash

include hl in
theorem Runs.compTh4 (a b : Bytes) : Runs cfg su me ms (Verif.compTh4 E cfg a b) (fun _ => True) := by
  unfold Verif.compTh4
  refine Keep.getCtx.bind fun c hc => (Keep.require _ _).bind fun _ _ => (Keep.require _ _).bind fun _ _ => ?_
  have ht : c.th.length < 65536 := Nat.lt_of_le_of_lt hc.th hl.small.1
  refine (Runs.memAlloc _).bind fun _ _ => (Keep.ofOption _ _).bind fun x hx => ?_
  refine (Keep.guardUB _ (th_fits ht rfl hx)).bind fun _ _ => (Runs.hashTh hl _).bind fun r hr => Keep.modCtx ?_
  exact fun c h => ⟨h.keys, h.crypto, h.cred, h.suite, h.method, h.message, hr, h.ead, h.cid⟩

end inner

end Verif
