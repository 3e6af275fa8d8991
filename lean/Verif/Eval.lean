import Verif.Safe
import Verif.MacCtx
import Verif.SpecHonest

/-!
# Runs that succeed

`Gets m c a c'`: from the context `c`, whatever the state of the application, `m` succeeds with the result `a` and the
context `c'`. `Wp m s Q`: from the state `s`, `m` succeeds with a result and a state that satisfy `Q`.
-/

namespace Verif

open M

variable {σ α β : Type}

/-- `m` succeeds from `s`, with `Q` -/
def Wp (m : M σ α) (s : St σ) (Q : α → St σ → Prop) : Prop := ∃ a s', m s = (.ok a, s') ∧ Q a s'

/-- the context is `c` and the application is in order -/
def At (I : σ → Prop) (s : St σ) (c : Ctx) : Prop := s.ctx = c ∧ I s.env

/-- `m` succeeds from the context `c` -/
def Gets (I : σ → Prop) (m : M σ α) (c : Ctx) (a : α) (c' : Ctx) : Prop :=
  ∀ s : St σ, At I s c → Wp m s fun b s' => b = a ∧ At I s' c'

variable {I : σ → Prop}

theorem Wp.bind {m : M σ α} {f : α → M σ β} {s : St σ} {Q : β → St σ → Prop}
    (h : Wp m s fun a s' => Wp (f a) s' Q) : Wp (m >>= f) s Q := by
  obtain ⟨a, s1, h1, b, s2, h2, h3⟩ := h
  exact ⟨b, s2, bind_ok.2 ⟨a, s1, h1, h2⟩, h3⟩

theorem Wp.mono {m : M σ α} {s : St σ} {Q Q' : α → St σ → Prop} (h : Wp m s Q) (hq : ∀ a s', Q a s' → Q' a s') :
    Wp m s Q' := by
  obtain ⟨a, s1, h1, h2⟩ := h
  exact ⟨a, s1, h1, hq _ _ h2⟩

/-- go on after a part with a known result -/
theorem Wp.step {m : M σ α} {f : α → M σ β} {s : St σ} {Q : β → St σ → Prop} {c c' : Ctx} {a : α} (h : Gets I m c a c')
    (hs : At I s c) (hf : ∀ s', At I s' c' → Wp (f a) s' Q) : Wp (m >>= f) s Q := by
  obtain ⟨b, s1, h1, rfl, h2⟩ := h s hs
  exact Wp.bind ⟨b, s1, h1, hf s1 h2⟩

/-- the same without a change of the context -/
theorem Wp.go {m : M σ α} {f : α → M σ β} {s : St σ} {Q : β → St σ → Prop} {c : Ctx} {a : α} (hs : At I s c)
    (h : Gets I m c a c) (hf : ∀ s', At I s' c → Wp (f a) s' Q) : Wp (m >>= f) s Q := Wp.step h hs hf

/-- the same with a name for the new context -/
theorem Wp.new {m : M σ α} {f : α → M σ β} {s : St σ} {Q : β → St σ → Prop} {c c' : Ctx} {a : α} (hs : At I s c)
    (h : Gets I m c a c') (hf : ∀ d s', d = c' → At I s' d → Wp (f a) s' Q) : Wp (m >>= f) s Q :=
  Wp.step h hs fun s' hs' => hf _ s' rfl hs'

theorem Wp.guard {b : Bool} {e : UB} {f : Unit → M σ β} {s : St σ} {Q : β → St σ → Prop} (h : b = true)
    (hf : Wp (f ()) s Q) : Wp (M.guardUB b e >>= f) s Q := Wp.bind ⟨(), s, guardUB_ok.2 ⟨h, rfl⟩, hf⟩

theorem Wp.mapErr {m : M σ α} {e : Err} {s : St σ} {Q : α → St σ → Prop} (h : Wp m s Q) : Wp (M.mapErr e m) s Q := by
  obtain ⟨a, s1, h1, h2⟩ := h
  exact ⟨a, s1, mapErr_ok.2 h1, h2⟩

theorem Wp.mapOut {m : M σ α} {f : α → Out} {s : St σ} {Q : α → St σ → Prop} (h : Wp m s Q) :
    Wp (M.mapOut f m) s fun o s' => ∃ a, o = f a ∧ Q a s' := by
  obtain ⟨a, s1, h1, h2⟩ := h
  exact ⟨f a, s1, mapOut_ok.2 ⟨a, h1, rfl⟩, a, rfl, h2⟩

theorem Gets.wp {m : M σ α} {c c' : Ctx} {a : α} (h : Gets I m c a c') {s : St σ} (hs : At I s c) :
    Wp m s fun b s' => b = a ∧ At I s' c' := h s hs

theorem Gets.bind {m : M σ α} {f : α → M σ β} {c c1 c2 : Ctx} {a : α} {b : β} (h : Gets I m c a c1)
    (hf : Gets I (f a) c1 b c2) : Gets I (m >>= f) c b c2 := fun _ hs => Wp.step h hs hf

theorem Gets.pure {a : α} {c : Ctx} : Gets I (pure a : M σ α) c a c := fun s hs => ⟨a, s, pure_ok.2 ⟨rfl, rfl⟩, rfl, hs⟩

theorem Gets.getCtx {c : Ctx} : Gets I (getCtx : M σ Ctx) c c c := fun s hs => ⟨c, s, getCtx_ok.2 ⟨hs.1, rfl⟩, rfl, hs⟩

theorem Gets.modCtx {f : Ctx → Ctx} {c : Ctx} : Gets I (modCtx f : M σ Unit) c () (f c) :=
  fun _ hs => ⟨(), _, rfl, rfl, congrArg f hs.1, hs.2⟩

theorem Gets.require {b : Bool} {e : Err} {c : Ctx} (h : b = true) : Gets I (require b e : M σ Unit) c () c :=
  fun s hs => ⟨(), s, require_ok.2 ⟨h, rfl⟩, rfl, hs⟩

theorem Gets.guardUB {b : Bool} {e : UB} {c : Ctx} (h : b = true) : Gets I (guardUB b e : M σ Unit) c () c :=
  fun s hs => ⟨(), s, guardUB_ok.2 ⟨h, rfl⟩, rfl, hs⟩

theorem Gets.ofOption {o : Option α} {e : Err} {a : α} {c : Ctx} (h : o = some a) :
    Gets I (ofOption e o : M σ α) c a c :=
  fun s hs => ⟨a, s, ofOption_ok.2 ⟨h, rfl⟩, rfl, hs⟩

theorem Gets.ofRes {r : Res α} {a : α} {c : Ctx} (h : r = .ok a) : Gets I (ofRes r : M σ α) c a c :=
  fun s hs => ⟨a, s, ofRes_ok.2 ⟨h, rfl⟩, rfl, hs⟩

theorem Gets.mapErr {m : M σ α} {e : Err} {c c' : Ctx} {a : α} (h : Gets I m c a c') : Gets I (M.mapErr e m) c a c' :=
  fun s hs => (h s hs).mapErr

theorem Gets.whenM_false {b : Bool} {m : M σ Unit} {c : Ctx} (h : b = false) : Gets I (whenM b m) c () c :=
  fun s hs => ⟨(), s, by rw [h]; rfl, rfl, hs⟩

theorem Gets.whenM_true {b : Bool} {m : M σ Unit} {c c' : Ctx} (h : b = true) (hm : Gets I m c () c') :
    Gets I (whenM b m) c () c' := fun s hs => by
  subst h
  exact hm s hs

theorem Gets.call {f : σ → β × σ} {ev : β → Ev} {b : β} {c : Ctx} (h : ∀ e, I e → (f e).1 = b ∧ I (f e).2) :
    Gets I (call f ev) c b c := fun _ hs => ⟨_, _, rfl, (h _ hs.2).1, hs.1, (h _ hs.2).2⟩

theorem Gets.cast {m : M σ α} {c c' c2 : Ctx} {a : α} (h : Gets I m c a c') (he : c' = c2) : Gets I m c a c2 := he ▸ h

/-! ## Calls to the application -/

section calls

open Spec

variable {E : Env σ} {cfg : Config} {P : Prims} {su : Suite} {k : Bounds} {c : Ctx}

theorem needCrypto_gets (h : c.hasCrypto = true) : Gets I (needCrypto : M σ Unit) c () c :=
  Gets.getCtx.bind (Gets.guardUB h)

theorem needKeys_gets (h : c.hasKeys = true) : Gets I (needKeys : M σ Unit) c () c :=
  Gets.getCtx.bind (Gets.guardUB h)

theorem needCred_gets (h : c.hasCred = true) : Gets I (needCred : M σ Unit) c () c :=
  Gets.getCtx.bind (Gets.guardUB h)

theorem memAlloc_gets (hE : Honest P su k I E) (hr : Roomy cfg su) {n : Nat} (hn : n ≤ 200000 + cfg.macCtxSize) :
    Gets I (memAlloc E cfg n) c () c := by
  unfold memAlloc
  rcases hr.memory with h | ⟨h1, h2⟩
  · simp only [h]
    exact (Gets.call fun e he => hE.alloc e n he).bind (Gets.require rfl)
  · cases hb : cfg.backend
    · simp only
      exact (Gets.guardUB (by simp; omega)).bind (Gets.guardUB (by simp [h2]))
    · simp only
      exact (Gets.call fun e he => hE.alloc e n he).bind (Gets.require rfl)

theorem importKey_wp (hE : Honest P su k I E) (t : KeyType) (raw : Bytes) (hf : KeyFits P su raw t) {s : St σ}
    (hs : At I s c) (h : c.hasKeys = true) :
    Wp (importKey E t raw) s fun r s' => s'.ctx = c ∧ ∃ kid, r = some kid ∧ KeyOf P su k I E s'.env kid raw t := by
  unfold importKey
  refine Wp.step (needKeys_gets h) hs fun s' hs => ?_
  obtain ⟨kid, h1, h2⟩ := hE.key s'.env t raw hs.2 hf
  exact ⟨_, _, rfl, hs.1, kid, h1, h2⟩

theorem destroyKey_wp {s : St σ} (hs : s.ctx = c) (h : c.hasKeys = true) {kid : Bytes} (hi : I (E.destroyKey s.env kid)) :
    Wp (destroyKey E kid) s fun _ s' => At I s' c := by
  subst hs
  exact ⟨(), _, bind_ok.2 ⟨(), s, needKeys_ok.2 ⟨h, rfl⟩, rfl⟩, rfl, hi⟩

/-- one use of an imported key -/
theorem withKey_wp (hE : Honest P su k I E) (t : KeyType) (raw : Bytes) (hf : KeyFits P su raw t) {e : Err}
    {op : Bytes → M σ α} {s : St σ} (hs : At I s c) (h : c.hasKeys = true) {Q : α → Prop}
    (hop : ∀ s1 kid, s1.ctx = c → KeyOf P su k I E s1.env kid raw t →
      Wp (op kid) s1 fun a s' => Q a ∧ s'.ctx = c ∧ I (E.destroyKey s'.env kid)) :
    Wp (withKey E t raw e op) s fun a s' => Q a ∧ At I s' c := by
  unfold withKey
  refine Wp.bind ((importKey_wp hE t raw hf hs h).mono ?_)
  rintro _ s1 ⟨hs1, kid, rfl, hk⟩
  refine Wp.bind ⟨kid, s1, rfl, ?_⟩
  refine Wp.bind ((hop s1 kid hs1 hk).mono ?_)
  rintro a s2 ⟨hq, hs2, hi⟩
  exact Wp.bind ((destroyKey_wp hs2 h hi).mono fun _ s' hs' => ⟨_, _, rfl, hq, hs'⟩)

theorem withKey_gets (hE : Honest P su k I E) (t : KeyType) (raw : Bytes) (hf : KeyFits P su raw t) {e : Err}
    {op : Bytes → M σ α} (h : c.hasKeys = true) {r : α}
    (hop : ∀ s kid, s.ctx = c → KeyOf P su k I E s.env kid raw t →
      Wp (op kid) s fun a s' => a = r ∧ s'.ctx = c ∧ I (E.destroyKey s'.env kid)) :
    Gets I (withKey E t raw e op) c r c := fun _ hs => withKey_wp hE t raw hf hs h hop

theorem keyCall_wp {f : σ → β × σ} {ev : β → Ev} {b : β} {s : St σ} {J : σ → Prop} (h : s.ctx.hasCrypto = true)
    (hf : (f s.env).1 = b ∧ J (f s.env).2) :
    Wp (do needCrypto; call f ev) s fun a s' => a = b ∧ s'.ctx = s.ctx ∧ J s'.env :=
  ⟨_, _, bind_ok.2 ⟨(), s, needCrypto_ok.2 ⟨h, rfl⟩, rfl⟩, hf.1, rfl, hf.2⟩

/-- an honest application on a library with room -/
structure Host (P : Prims) (su : Suite) (k : Bounds) (I : σ → Prop) (E : Env σ) (cfg : Config) : Prop where
  honest : Honest P su k I E
  sized : P.Sized su
  suite : SuiteOk su
  room : Roomy cfg su
  ead : k.items ≤ cfg.maxEad
  derive : 1000 ≤ k.expand

/-- the context of a session that can go on -/
structure Live (su : Suite) (c : Ctx) : Prop where
  keys : c.hasKeys = true
  crypto : c.hasCrypto = true
  cred : c.hasCred = true
  suite : c.suite = su

variable (H : Host P su k I E cfg) (hc : Live su c)

include hc

theorem Live.hashOk (H : Host P su k I E cfg) : decide (c.suite.hash ≤ cfg.maxMac) = true := by
  rw [hc.suite]; exact decide_eq_true H.room.hash

theorem Live.eccOk (H : Host P su k I E cfg) : decide (c.suite.eccKey ≤ cfg.maxEccKey) = true := by
  rw [hc.suite]; exact decide_eq_true H.room.ecc

include H

theorem hash_gets {b : Bytes} (hb : b ≠ []) : Gets I (hash E b) c (some (P.hash b)) c := by
  unfold hash
  exact (needCrypto_gets hc.crypto).bind (Gets.call fun e he => H.honest.hash e b he hb)

theorem hashTh_gets {b : Bytes} (hb : b ≠ []) : Gets I (hashTh E cfg b) c (P.hash b) c := by
  unfold hashTh
  refine Gets.getCtx.bind ((Gets.guardUB (hc.hashOk H)).bind ?_)
  refine (hash_gets H hc hb).bind ((Gets.ofOption rfl).bind ((Gets.require ?_).bind Gets.pure))
  simp [hc.suite, H.sized.hash]

theorem expand_gets {e : Err} {prk info : Bytes} {n : Nat} (hk : prk.length = su.hash) (hi : info ≠ []) (h0 : 0 < n)
    (hn : n ≤ k.expand) :
    Gets I (withKey E .expand prk e (fun kid => expand E kid info n)) c (some (P.expand prk info n)) c := by
  refine withKey_gets H.honest .expand _ hk hc.keys fun s kid hs hkey => ?_
  subst hs
  obtain ⟨h1, h2⟩ := hkey info n hi h0 hn
  exact keyCall_wp (J := fun e => I (E.destroyKey e kid)) hc.crypto
    ⟨by simp [h1, fitLen_self (H.sized.expand _ _ _)], h2⟩

theorem extractPrk_gets {ikm salt : Bytes} (hk : ikm.length = su.eccKey) (hl : salt.length = su.hash) :
    Gets I (extractPrk E cfg ikm salt) c (P.extract salt ikm) c := by
  unfold extractPrk
  refine Gets.getCtx.bind (Gets.bind (a := some (P.extract salt ikm))
    (withKey_gets H.honest .extract _ hk hc.keys fun s kid h hkey => ?_) ?_)
  · subst h
    exact Wp.guard (hc.hashOk H) (keyCall_wp (J := fun e => I (E.destroyKey e kid)) hc.crypto (hkey salt hl))
  · refine (Gets.ofOption rfl).bind ((Gets.require ?_).bind Gets.pure)
    simp [hc.suite, H.sized.extract]

omit H hc

theorem intMemReq_nat {n : Nat} (h : n < 65536) : intMemReq (n : Int) = bstrOh n := by
  unfold intMemReq bstrOh
  repeat' split
  all_goals omega

theorem i32_small {n : Nat} (h : n < 65536) : i32 n = (n : Int) := by
  unfold i32
  omega

theorem u32_small {n : Nat} (h : n < 65536) : u32 n = n := Nat.mod_eq_of_lt (by omega)

/-- the size computed for `info` is the size of its encoding -/
theorem encInfo_size {label n : Nat} {context : Bytes} (h1 : label < 65536) (h2 : context.length < 65536) (h3 : n < 65536) :
    (encInfo label context (u32 n)).length =
      intMemReq label + (context.length + bstrOh context.length) + intMemReq (i32 n) := by
  rw [i32_small h3, u32_small h3, intMemReq_nat h1, intMemReq_nat h3]
  simp [encInfo, encInt, head_length, encBstr_small h2, headLen_small h1, headLen_small h3, Nat.add_assoc]

theorem bstrOh_le3 {n : Nat} (h : n < 65536) : bstrOh n ≤ 3 := by
  unfold bstrOh
  repeat' split
  all_goals omega

theorem encBstr_ne (b : Bytes) : encBstr b ≠ [] := by
  intro h
  have h1 := congrArg List.length h
  simp only [encBstr_length, List.length_nil] at h1
  have := headLen_pos b.length
  omega

theorem append_ne {a b : Bytes} (h : a ≠ []) : a ++ b ≠ [] := by simp [h]

theorem encInfo_ne (label : Nat) (context : Bytes) (n : Nat) : encInfo label context n ≠ [] := by
  intro h
  have h1 := congrArg List.length h
  simp only [encInfo, List.length_append, List.length_nil, encBstr_length] at h1
  have := headLen_pos context.length
  omega

theorem fits_of {n : Nat} {b : Bytes} (h : b.length ≤ n) : fits n b = some b := if_pos h

include H hc

theorem kdfExact_gets {prk : Bytes} (hk : prk.length = su.hash) {label n : Nat} {context : Bytes} (h1 : label < 65536)
    (h2 : context.length < 65536) (h3 : n < 65536) (h0 : 0 < n) (hn : n ≤ k.expand) :
    Gets I (kdfExact E cfg prk label context n) c (P.expand prk (info label context n) n) c := by
  have hl := encInfo_size h1 h2 h3
  have h4 : intMemReq label ≤ 3 := by rw [intMemReq_nat h1]; exact bstrOh_le3 h1
  have h5 : intMemReq (i32 n) ≤ 3 := by rw [i32_small h3, intMemReq_nat h3]; exact bstrOh_le3 h3
  have h6 := bstrOh_le3 h2
  unfold kdfExact
  dsimp only
  have hm : intMemReq label + (context.length + bstrOh context.length) + intMemReq (i32 n) ≤ 200000 := by omega
  generalize intMemReq label + (context.length + bstrOh context.length) + intMemReq (i32 n) = m at hl hm ⊢
  refine (memAlloc_gets H.honest H.room (by omega)).bind ((Gets.ofOption (fits_of (Nat.le_of_eq hl))).bind ?_)
  refine (Gets.require (by simp [hl])).bind ((expand_gets H hc hk (encInfo_ne _ _ _) h0 hn).bind (Gets.ofOption ?_))
  rw [encInfo_spec _ _ (by omega)]

/-! ### Diffie-Hellman -/

theorem agreeKey_gets {e : Err} {raw pk y : Bytes} {b : Bool} (hb : b = true) (hx : P.priv raw) (hy : pk = P.pub y)
    (hp : P.priv y) :
    Gets I (withKey E .keyAgreement raw e fun kid => do
      M.guardUB b .oob
      keyAgreement E kid pk) c (some (P.dh raw pk)) c := by
  subst hy
  refine withKey_gets H.honest .keyAgreement _ hx hc.keys fun s kid h hkey => ?_
  subst h
  exact Wp.guard hb (keyCall_wp (J := fun e => I (E.destroyKey e kid)) hc.crypto (hkey y hp))

theorem compDhSecret_gets {y : Bytes} (hx : P.priv c.dhPriv) (hy : c.dhPeerPub = P.pub y) (hp : P.priv y) :
    Gets I (compDhSecret E cfg) c () { c with dhSecret := P.dh c.dhPriv c.dhPeerPub } := by
  unfold compDhSecret
  refine Gets.getCtx.bind ?_
  refine (agreeKey_gets H hc (hc.eccOk H) hx hy hp).bind ((Gets.ofOption rfl).bind (Gets.modCtx.bind (Gets.require ?_)))
  simp [hc.suite, hy, H.sized.dh _ _ hx hp]

theorem genDhKeys_wp {s : St σ} (hs : At I s c) : Wp (genDhKeys E cfg) s fun _ s' =>
    ∃ y, y.length = su.eccKey ∧ P.priv y ∧ At I s' { c with dhPriv := y, dhPub := P.pub y } := by
  unfold genDhKeys
  refine Wp.step Gets.getCtx hs fun s0 hs0 => ?_
  refine Wp.bind ((withKey_wp (Q := fun r => ∃ y, r = some (y, P.pub y) ∧ y.length = su.eccKey ∧ P.priv y) H.honest
    .makeKeyPair _ rfl hs0 hc.keys fun s1 kid h1 hkey => ?_).mono ?_)
  · refine Wp.guard (hc.eccOk H) ?_
    obtain ⟨x, h2, h3, h4, h5⟩ := hkey.2 s1.env (.inl rfl)
    obtain ⟨a, s2, h6, h7, h8, h9⟩ := keyCall_wp (f := fun e => E.makeKeyPair e kid) (ev := .makeKeyPair kid) (s := s1)
      (J := fun e => I (E.destroyKey e kid)) (by rw [h1]; exact hc.crypto) ⟨h2, h5⟩
    exact ⟨a, s2, h6, ⟨x, h7, h4, h3⟩, h8.trans h1, h9⟩
  · rintro _ s2 ⟨⟨y, rfl, hy, hp⟩, h2⟩
    refine Wp.step (Gets.ofOption rfl) h2 fun s3 h3 => ?_
    refine Wp.step Gets.modCtx h3 fun s4 h4 => ?_
    exact ⟨(), s4, require_ok.2 ⟨by simp [hc.suite, hy, H.sized.pub y hp], rfl⟩, y, hy, hp, h4⟩

/-! ### TH_2, PRK_2e -/

theorem compTh2_gets (ht : c.thState = .th1) (h1 : c.th.length = su.hash) (h2 : (gY c).length = su.eccKey) :
    Gets I (compTh2 E cfg) c ()
      { c with th := P.hash (encBstr (gY c) ++ encBstr c.th), thState := .th2 } := by
  have hs := H.suite
  have h3 : (encBstr (gY c)).length = su.eccKey + bstrOh su.eccKey := by
    rw [encBstr_small (by have := hs.ecc; omega), h2]
  have h4 : (encBstr c.th).length = su.hash + bstrOh su.hash := by
    rw [encBstr_small (by have := hs.hash; omega), h1]
  have h5 := bstrOh_le3 (n := su.eccKey) (by have := hs.ecc; omega)
  have h6 := bstrOh_le3 (n := su.hash) (by have := hs.hash; omega)
  unfold compTh2
  refine Gets.getCtx.bind ((Gets.require (by simp [ht])).bind ?_)
  simp only [hc.suite]
  refine (memAlloc_gets H.honest H.room (by have := hs.ecc; have := hs.hash; omega)).bind ?_
  refine (Gets.ofOption (fits_of (Nat.le_of_eq h3))).bind ((Gets.require (by simp [h3])).bind ?_)
  refine (Gets.ofOption (fits_of (Nat.le_of_eq h4))).bind ((Gets.require (by simp [h4])).bind ?_)
  exact (hashTh_gets H hc (append_ne (encBstr_ne _))).bind Gets.modCtx

theorem compPrk2e_gets (ht : c.thState = .th2) (hp : c.prkState = .invalid) (h1 : c.th.length = su.hash)
    (h2 : c.dhSecret.length = su.eccKey) :
    Gets I (compPrk2e E cfg) c () { c with prk := P.extract c.th c.dhSecret, prkState := .prk2e } := by
  unfold compPrk2e
  refine Gets.getCtx.bind ((Gets.require (by simp [ht, hp])).bind ?_)
  exact (extractPrk_gets H hc h2 h1).bind Gets.modCtx

end calls

end Verif
