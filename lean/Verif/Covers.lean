import Verif.SpecCovers
import Verif.Logic
import Verif.Api

/-!
# One program with two configurations

`Sim f g`: from states that differ in requests for memory only, if `f` succeeds, then `g` succeeds with the same value,
and the states still differ in requests for memory only.
-/

namespace Verif

open M Spec

variable {σ α β : Type}

/-- see above -/
def Sim (f g : M σ α) : Prop := ∀ s t a s', Twin s t → f s = (.ok a, s') → ∃ t', g t = (.ok a, t') ∧ Twin s' t'

/-- the same without a state -/
def RSim (r q : Res α) : Prop := ∀ a, r = .ok a → q = .ok a

namespace RSim

theorem rfl {r : Res α} : RSim r r := fun _ h => h

theorem bind {r q : Res α} {f g : α → Res β} (h1 : RSim r q) (h2 : ∀ a, RSim (f a) (g a)) : RSim (r >>= f) (q >>= g) := by
  intro b h
  cases r with
  | ok a => rw [h1 a _root_.rfl]; exact h2 a b h
  | err e => cases h
  | ub u => cases h

theorem mapErr {r q : Res α} (e : Err) (h : RSim r q) : RSim (Res.mapErr e r) (Res.mapErr e q) := by
  intro b hb
  cases r with
  | ok a => rw [h a _root_.rfl]; exact hb
  | err e => cases hb
  | ub u => cases hb

/-- a branch that is taken in both cases, or fails in the first one -/
theorem ite {p q : Prop} [Decidable p] [Decidable q] {a a' b b' : Res α} (hpq : p → q) (ha : RSim a a')
    (hb : ¬ p → ∀ x, b ≠ .ok x) : RSim (if p then a else b) (if q then a' else b') := by
  intro x hx
  by_cases hp : p
  · rw [if_pos hp] at hx
    rw [if_pos (hpq hp)]
    exact ha x hx
  · rw [if_neg hp] at hx
    exact absurd hx (hb hp x)

end RSim

theorem Spec.Covers.eads {E : Env σ} {cfg cfg' : Config} (hc : Covers E cfg cfg') : (cfg'.maxEad != 0) = (cfg.maxEad != 0) := by
  have h1 := hc.ead
  have h2 := hc.noEad
  rw [Bool.eq_iff_iff]
  simp only [bne_iff_ne, ne_eq]
  omega

theorem seen_append (a b : List Ev) : seen (a ++ b) = seen a ++ seen b := List.filter_append ..

namespace Sim

theorem bind {f f' : M σ α} {g g' : α → M σ β} (h1 : Sim f f') (h2 : ∀ a, Sim (g a) (g' a)) : Sim (f >>= g) (f' >>= g') := by
  intro s t b s' ht h
  obtain ⟨a, s1, h3, h4⟩ := bind_ok.1 h
  obtain ⟨t1, h5, h6⟩ := h1 s t a s1 ht h3
  obtain ⟨t2, h7, h8⟩ := h2 a s1 t1 b s' h6 h4
  exact ⟨t2, bind_ok.2 ⟨a, t1, h5, h7⟩, h8⟩

theorem pure (a : α) : Sim (Pure.pure a : M σ α) (Pure.pure a) := by
  intro s t b s' ht h
  obtain ⟨rfl, rfl⟩ := pure_ok.1 h
  exact ⟨t, rfl, ht⟩

theorem fail (e e' : Err) : Sim (M.fail e : M σ α) (M.fail e') := by
  intro s t b s' ht h
  cases h

theorem require {b b' : Bool} {e : Err} (hb : b = true → b' = true) : Sim (M.require b e : M σ Unit) (M.require b' e) := by
  intro s t u s' ht h
  obtain ⟨h1, rfl⟩ := require_ok.1 h
  exact ⟨t, require_ok.2 ⟨hb h1, rfl⟩, ht⟩

theorem guardUB {b b' : Bool} {e : UB} (hb : b = true → b' = true) : Sim (M.guardUB b e : M σ Unit) (M.guardUB b' e) := by
  intro s t u s' ht h
  obtain ⟨h1, rfl⟩ := guardUB_ok.1 h
  exact ⟨t, guardUB_ok.2 ⟨hb h1, rfl⟩, ht⟩

theorem ofOption (e : Err) (o : Option α) : Sim (M.ofOption e o : M σ α) (M.ofOption e o) := by
  intro s t b s' ht h
  obtain ⟨h1, rfl⟩ := ofOption_ok.1 h
  exact ⟨t, ofOption_ok.2 ⟨h1, rfl⟩, ht⟩

theorem ofRes {r q : Res α} (hr : RSim r q) : Sim (M.ofRes r : M σ α) (M.ofRes q) := by
  intro s t b s' ht h
  obtain ⟨h1, rfl⟩ := ofRes_ok.1 h
  exact ⟨t, ofRes_ok.2 ⟨hr b h1, rfl⟩, ht⟩

theorem getCtx : Sim (M.getCtx : M σ Ctx) M.getCtx := by
  intro s t b s' ht h
  obtain ⟨rfl, rfl⟩ := getCtx_ok.1 h
  exact ⟨t, getCtx_ok.2 ⟨ht.1.symm, rfl⟩, ht⟩

theorem modCtx (f : Ctx → Ctx) : Sim (M.modCtx f : M σ Unit) (M.modCtx f) := by
  intro s t b s' ht h
  cases h
  exact ⟨_, rfl, congrArg f ht.1, ht.2.1, ht.2.2⟩

theorem call (f : σ → β × σ) (ev : β → Ev) : Sim (M.call f ev) (M.call f ev) := by
  intro s t b s' ht h
  cases h
  obtain ⟨h1, h2, h3⟩ := ht
  refine ⟨{ t with env := (f s.env).2, log := t.log ++ [ev (f s.env).1] }, ?_, ?_⟩
  · unfold M.call
    rw [h2]
  · refine ⟨h1, rfl, ?_⟩
    simp only [seen_append, h3]

theorem mapErr {f g : M σ α} (e : Err) (h : Sim f g) : Sim (M.mapErr e f) (M.mapErr e g) := by
  intro s t b s' ht hr
  obtain ⟨t', h1, h2⟩ := h s t b s' ht (mapErr_ok.1 hr)
  exact ⟨t', mapErr_ok.2 h1, h2⟩

theorem whenM {f g : M σ Unit} {b b' : Bool} (hb : b = b') (h : Sim f g) : Sim (M.whenM b f) (M.whenM b' g) := by
  subst hb
  unfold M.whenM
  split
  · exact h
  · exact Sim.pure ()

theorem ite {p : Prop} [Decidable p] {f g f' g' : M σ α} (h1 : Sim f f') (h2 : Sim g g') :
    Sim (if p then f else g) (if p then f' else g') := by
  split
  · exact h1
  · exact h2

theorem mapOut {f g : M σ α} (k : α → Out) (h : Sim f g) : Sim (M.mapOut k f) (M.mapOut k g) :=
  h.bind fun _ => Sim.pure _

variable {E : Env σ} {cfg cfg' : Config}

theorem memAllocs {n n' : Nat} (hc : Covers E cfg cfg') (hn : ∀ e, Served E cfg e n → Served E cfg' e n') :
    Sim (Verif.memAlloc E cfg n) (Verif.memAlloc E cfg' n') := by
  intro s t u s' ht h
  have h1 : Served E cfg s.env n ∧ Twin s' s := by
    unfold Verif.memAlloc at h
    unfold Served
    cases hb : cfg.backend <;> simp only [hb, bind_ok, guardUB_ok, require_ok] at h ⊢
    · obtain ⟨_, _, ⟨h1, rfl⟩, h2, rfl⟩ := h
      exact ⟨by simpa using And.intro h1 h2, rfl, rfl, rfl⟩
    · obtain ⟨b, s1, h1, h2, rfl⟩ := h
      cases h1
      refine ⟨h2, rfl, hc.apart _ _, ?_⟩
      simp only [seen_append]
      simp [seen, isAlloc]
  have h2 := hn _ h1.1
  rw [ht.2.1] at h2
  have h3 : ∃ t', Verif.memAlloc E cfg' n' t = (.ok (), t') ∧ Twin t t' := by
    unfold Verif.memAlloc
    unfold Served at h2
    cases hb : cfg'.backend <;> simp only [hb] at h2 ⊢
    · refine ⟨t, ?_, rfl, rfl, rfl⟩
      simp only [bind_ok, guardUB_ok]
      exact ⟨(), t, ⟨by simpa using h2.1, rfl⟩, by simpa using h2.2, rfl⟩
    · refine ⟨{ t with env := (E.alloc t.env n').2, log := t.log ++ [.alloc n' (E.alloc t.env n').1] }, ?_, ?_⟩
      · simp only [bind_ok, require_ok]
        exact ⟨_, _, rfl, h2, rfl⟩
      · refine ⟨rfl, (hc.apart _ _).symm, ?_⟩
        simp only [seen_append]
        simp [seen, isAlloc]
  obtain ⟨t', h4, h5⟩ := h3
  refine ⟨t', h4, ?_⟩
  obtain ⟨_, a1, a2, a3⟩ := h1
  obtain ⟨b1, b2, b3⟩ := ht
  obtain ⟨c1, c2, c3⟩ := h5
  exact ⟨a1.trans (b1.trans c1), a2.trans (b2.trans c2), a3.trans (b3.trans c3)⟩

theorem memAlloc (hc : Covers E cfg cfg') (n : Nat) : Sim (Verif.memAlloc E cfg n) (Verif.memAlloc E cfg' n) :=
  memAllocs hc fun e => hc.memory e n

end Sim

theorem idCredLen_sim {E : Env σ} {cfg cfg' : Config} (hc : Covers E cfg cfg') (cr : Cred) :
    RSim (idCredLen cfg cr) (idCredLen cfg' cr) := by
  have := hc.certs
  cases cr <;> simp only [idCredLen]
  all_goals try exact RSim.rfl
  intro x hx
  split at hx
  · cases hx
  · rw [if_neg (by omega)]; exact hx

theorem kidCompact_sim {E : Env σ} {cfg cfg' : Config} (hc : Covers E cfg cfg') (b : Bool) (v : IntOrBytes) :
    RSim (kidCompact cfg b v) (kidCompact cfg' b v) := by
  have hk := hc.kid
  cases v with
  | int v => exact RSim.rfl
  | bstr v =>
    simp only [kidCompact, hc.dec]
    intro x hx
    split at hx
    · rename_i hb
      rw [if_pos hb]
      split at hx
      · rename_i h1
        rw [if_pos h1]
        split at hx
        · cases hx
        · split at hx
          · rename_i h2
            rw [if_pos h2]; exact hx
          · rename_i h2
            rw [if_neg h2]
            split at hx
            · rw [if_pos (by omega)]; exact hx
            · cases hx
      · rename_i h1
        rw [if_neg h1]
        split at hx
        · rw [if_pos (by omega)]; exact hx
        · cases hx
    · rename_i hb
      rw [if_neg hb]
      simp only [fits] at hx ⊢
      split at hx
      · rename_i e he
        split at he
        · rw [if_pos (by omega)]; cases he; exact hx
        · cases he
      · cases hx

theorem macComp_sim {E : Env σ} {cfg cfg' : Config} (hc : Covers E cfg cfg') (cr : Cred) :
    RSim (macComp cfg cr) (macComp cfg' cr) := by
  have hk := hc.kid
  unfold macComp
  split
  · exact RSim.bind (RSim.mapErr _ (kidCompact_sim hc _ _)) fun _ => RSim.rfl
  · exact RSim.rfl
  · exact RSim.ite (fun h => by omega) RSim.rfl (fun _ _ h => by cases h)
  · exact RSim.rfl

theorem macContextLen_sim {E : Env σ} {cfg cfg' : Config} (hc : Covers E cfg cfg') (c : Ctx) (cr : Cred) :
    RSim (macContextLen cfg c cr) (macContextLen cfg' c cr) :=
  RSim.bind RSim.rfl fun _ => RSim.bind (idCredLen_sim hc cr) fun _ => RSim.rfl

theorem macContext_sim {E : Env σ} {cfg cfg' : Config} (hc : Covers E cfg cfg') (c : Ctx) (cr : Cred) (n : Nat) :
    RSim (macContext cfg c cr n) (macContext cfg' c cr n) :=
  RSim.bind RSim.rfl fun _ => RSim.bind RSim.rfl fun _ => RSim.bind RSim.rfl fun _ => RSim.bind RSim.rfl fun _ =>
    RSim.bind (idCredLen_sim hc cr) fun _ => RSim.bind RSim.rfl fun _ => RSim.bind RSim.rfl fun _ =>
      RSim.bind (macComp_sim hc cr) fun _ => RSim.rfl

theorem recvChain_sim {E : Env σ} {cfg cfg' : Config} (hc : Covers E cfg cfg') (l : List Bytes) :
    RSim (recvChain cfg l) (recvChain cfg' l) := by
  have := hc.certs
  intro x hx
  unfold recvChain at hx ⊢
  split at hx
  · split at hx
    · cases hx
    · rw [if_pos (by omega), if_neg (by omega)]; exact hx
  · cases hx

theorem recvHash_sim {E : Env σ} {cfg cfg' : Config} (hc : Covers E cfg cfg') (a fp : Bytes) :
    RSim (recvHash cfg a fp) (recvHash cfg' a fp) := by
  have := hc.hashAlg
  intro x hx
  unfold recvHash at hx ⊢
  split at hx
  · split at hx
    · cases hx
    · rw [if_pos (by omega), if_neg (by omega)]; exact hx
  · cases hx

theorem credOfMap2_sim {E : Env σ} {cfg cfg' : Config} (hc : Covers E cfg cfg') (m : CredMap) :
    RSim (credOfMap2 cfg m) (credOfMap2 cfg' m) := by
  unfold credOfMap2
  refine RSim.bind ?_ fun _ => ?_
  · split
    · exact RSim.rfl
    · exact recvChain_sim hc _
    · exact RSim.rfl
  · split
    · exact RSim.rfl
    · exact recvHash_sim hc _ _
    · exact RSim.rfl

theorem credOfMap3_sim {E : Env σ} {cfg cfg' : Config} (hc : Covers E cfg cfg') (m : CredMap) :
    RSim (credOfMap3 cfg m) (credOfMap3 cfg' m) := by
  unfold credOfMap3
  split
  · exact RSim.rfl
  · exact recvChain_sim hc _
  · split
    · exact RSim.rfl
    · exact recvHash_sim hc _ _
    · exact RSim.rfl

theorem credOfIdCred_sim {E : Env σ} {cfg cfg' : Config} (hc : Covers E cfg cfg') {f : Config → CredMap → Res Cred}
    (hf : ∀ m, RSim (f cfg m) (f cfg' m)) (i : IdCred) : RSim (credOfIdCred cfg f i) (credOfIdCred cfg' f i) := by
  have := hc.kid
  cases i with
  | int v => exact RSim.rfl
  | bstr b => exact RSim.ite (fun h => by omega) RSim.rfl (fun _ _ h => by cases h)
  | map m => exact hf m

namespace Sim

theorem needKeys : Sim (Verif.needKeys : M σ Unit) Verif.needKeys := getCtx.bind fun _ => guardUB id

theorem needCrypto : Sim (Verif.needCrypto : M σ Unit) Verif.needCrypto := getCtx.bind fun _ => guardUB id

theorem needCred : Sim (Verif.needCred : M σ Unit) Verif.needCred := getCtx.bind fun _ => guardUB id

theorem importKey {E : Env σ} {t : KeyType} {b : Bytes} : Sim (Verif.importKey E t b) (Verif.importKey E t b) :=
  needKeys.bind fun _ => call _ _

theorem destroyKey {E : Env σ} {k : Bytes} : Sim (Verif.destroyKey E k) (Verif.destroyKey E k) :=
  needKeys.bind fun _ => call _ _

theorem makeKeyPair {E : Env σ} {a : Bytes} : Sim (Verif.makeKeyPair E a) (Verif.makeKeyPair E a) :=
  needCrypto.bind fun _ => call _ _

theorem keyAgreement {E : Env σ} {a : Bytes} {b : Bytes} : Sim (Verif.keyAgreement E a b) (Verif.keyAgreement E a b) :=
  needCrypto.bind fun _ => call _ _

theorem sign {E : Env σ} {a : Bytes} {b : Bytes} : Sim (Verif.sign E a b) (Verif.sign E a b) :=
  needCrypto.bind fun _ => call _ _

theorem verify {E : Env σ} {a : Bytes} {b : Bytes} {c : Bytes} : Sim (Verif.verify E a b c) (Verif.verify E a b c) :=
  needCrypto.bind fun _ => call _ _

theorem extract {E : Env σ} {a : Bytes} {b : Bytes} : Sim (Verif.extract E a b) (Verif.extract E a b) :=
  needCrypto.bind fun _ => call _ _

theorem expand {E : Env σ} {a : Bytes} {b : Bytes} {n : Nat} : Sim (Verif.expand E a b n) (Verif.expand E a b n) :=
  needCrypto.bind fun _ => call _ _

theorem hash {E : Env σ} {a : Bytes} : Sim (Verif.hash E a) (Verif.hash E a) :=
  needCrypto.bind fun _ => call _ _

theorem encrypt {E : Env σ} {a : Bytes} {b : Bytes} {c : Bytes} {d : Bytes} : Sim (Verif.encrypt E a b c d) (Verif.encrypt E a b c d) :=
  needCrypto.bind fun _ => call _ _

theorem decrypt {E : Env σ} {a : Bytes} {b : Bytes} {c : Bytes} {d : Bytes} : Sim (Verif.decrypt E a b c d) (Verif.decrypt E a b c d) :=
  needCrypto.bind fun _ => call _ _

theorem credFetch {E : Env σ} : Sim (Verif.credFetch E) (Verif.credFetch E) :=
  needCred.bind fun _ => call _ _

theorem credVerify {E : Env σ} {c : Cred} : Sim (Verif.credVerify E c) (Verif.credVerify E c) :=
  needCred.bind fun _ => call _ _

theorem withKey {E : Env σ} {t : KeyType} {raw : Bytes} {e : Err} {f g : Bytes → M σ α} (h : ∀ k, Sim (f k) (g k)) :
    Sim (Verif.withKey E t raw e f) (Verif.withKey E t raw e g) :=
  importKey.bind fun k => (ofOption e k).bind fun kid => (h kid).bind fun r => destroyKey.bind fun _ => pure r

end Sim

set_option hygiene false in
/-- follows the two programs step by step -/
macro "sim" : tactic => `(tactic|
  (repeat' first
  | with_reducible exact Sim.pure _
  | with_reducible exact Sim.fail _ _
  | with_reducible exact Sim.ofOption _ _
  | with_reducible exact Sim.getCtx
  | with_reducible exact Sim.modCtx _
  | with_reducible exact Sim.call _ _
  | with_reducible exact Sim.require id
  | with_reducible exact Sim.guardUB id
  | with_reducible exact Sim.ofRes RSim.rfl
  | with_reducible exact Sim.memAlloc hc _
  | with_reducible exact Sim.needKeys
  | with_reducible exact Sim.needCrypto
  | with_reducible exact Sim.needCred
  | with_reducible exact Sim.importKey
  | with_reducible exact Sim.destroyKey
  | with_reducible exact Sim.makeKeyPair
  | with_reducible exact Sim.keyAgreement
  | with_reducible exact Sim.sign
  | with_reducible exact Sim.verify
  | with_reducible exact Sim.extract
  | with_reducible exact Sim.expand
  | with_reducible exact Sim.hash
  | with_reducible exact Sim.encrypt
  | with_reducible exact Sim.decrypt
  | with_reducible exact Sim.credFetch
  | with_reducible exact Sim.credVerify
  | with_reducible exact Sim.kdfExact hc
  | with_reducible exact Sim.expandInfo
  | with_reducible exact Sim.hashTh hc
  | with_reducible exact Sim.genDhKeys hc
  | with_reducible exact Sim.compDhSecret hc
  | with_reducible exact Sim.extractPrk hc
  | with_reducible exact Sim.agreeEphemeral
  | with_reducible exact Sim.agreeStatic
  | with_reducible exact Sim.prepareMsg2 hc
  | with_reducible exact Sim.buildMacCtx hc
  | with_reducible exact Sim.handOver hc
  | with_reducible exact Sim.storeEad hc
  | with_reducible exact Sim.parseMsg2 hc
  | with_reducible exact Sim.compTh3 hc
  | with_reducible exact Sim.genMsg3
  | with_reducible exact Sim.genMsg4
  | with_reducible exact Sim.parsePtxt4 hc
  | with_reducible exact Sim.storePeerCid hc
  | with_reducible exact Sim.compTh2 hc
  | with_reducible exact Sim.compTh4 hc
  | with_reducible exact Sim.compPrk2e hc
  | with_reducible exact Sim.compGrx
  | with_reducible exact Sim.compGiy
  | with_reducible exact Sim.parsePtxt2 hc
  | with_reducible exact Sim.parsePtxt3 hc
  | with_reducible exact Sim.verifyCred
  | with_reducible exact Sim.aeadEncrypt
  | with_reducible exact Sim.aeadDecrypt
  | with_reducible exact Sim.signCose hc
  | with_reducible exact Sim.verifyCose hc
  | with_reducible exact Sim.eadCompose hc
  | with_reducible exact Sim.eadProcess hc
  | with_reducible exact Sim.processEad1 hc
  | with_reducible exact Sim.compSalt3e2m hc
  | with_reducible exact Sim.compSalt4e3m hc
  | with_reducible exact Sim.compKeystream hc
  | with_reducible exact Sim.compPrk3e2m hc
  | with_reducible exact Sim.compPrk4e3m hc
  | with_reducible exact Sim.keyIvAad hc
  | with_reducible exact Sim.keyIvAad3 hc
  | with_reducible exact Sim.keyIvAad4 hc
  | with_reducible exact Sim.compMac hc
  | with_reducible exact Sim.compSignOrMac hc
  | with_reducible exact Sim.verifySignOrMac hc
  | with_reducible exact Sim.compPrkOut hc
  | with_reducible exact Sim.compNewPrkOut hc
  | with_reducible exact Sim.compPrkExporter hc
  | with_reducible exact Sim.ensurePrkOut hc
  | with_reducible exact Sim.exportSecret hc
  | with_reducible exact Sim.keyUpdate hc
  | with_reducible exact Sim.exportOscore hc
  | with_reducible exact Sim.chooseSuite
  | with_reducible exact Sim.checkSuites hc
  | with_reducible exact Sim.enter
  | with_reducible exact Sim.message1Compose hc
  | with_reducible exact Sim.message1Process hc
  | with_reducible exact Sim.message2Compose hc
  | with_reducible exact Sim.message2Process hc
  | with_reducible exact Sim.message3Compose hc
  | with_reducible exact Sim.message3Process hc
  | with_reducible exact Sim.message4Compose hc
  | with_reducible exact Sim.message4Process hc
  | with_reducible apply Sim.mapErr
  | with_reducible apply Sim.withKey
  | with_reducible (apply Sim.whenM rfl)
  | with_reducible apply Sim.ite
  | with_reducible apply Sim.bind
  | with_reducible intro _))

set_option hygiene false in
/-- a check against a limit -/
macro "limit" : tactic => `(tactic|
  (have h1 := hc.suites; have h2 := hc.cid; have h3 := hc.eccKey; have h4 := hc.mac; have h5 := hc.ead
   first
   | (apply Sim.guardUB; intro h; simp at h ⊢; omega)
   | (apply Sim.require; intro h; simp at h ⊢; omega)))

namespace Sim

theorem kdfExact {E : Env σ} {cfg cfg' : Config} {prk : Bytes} {l : Nat} {c : Bytes} {n : Nat} (hc : Covers E cfg cfg') :
    Sim (Verif.kdfExact E cfg prk l c n : M σ _) (Verif.kdfExact E cfg' prk l c n) := by
  unfold Verif.kdfExact
  sim

theorem expandInfo {E : Env σ} {n : Nat} {prk : Bytes} {l : Nat} {c : Bytes} {m k : Nat} :
    Sim (Verif.expandInfo E n prk l c m k : M σ _) (Verif.expandInfo E n prk l c m k) := by
  unfold Verif.expandInfo
  sim

theorem hashTh {E : Env σ} {cfg cfg' : Config} {b : Bytes} (hc : Covers E cfg cfg') :
    Sim (Verif.hashTh E cfg b : M σ _) (Verif.hashTh E cfg' b) := by
  unfold Verif.hashTh
  sim
  all_goals limit

theorem genDhKeys {E : Env σ} {cfg cfg' : Config} (hc : Covers E cfg cfg') :
    Sim (Verif.genDhKeys E cfg : M σ _) (Verif.genDhKeys E cfg') := by
  unfold Verif.genDhKeys
  sim
  all_goals limit

theorem compDhSecret {E : Env σ} {cfg cfg' : Config} (hc : Covers E cfg cfg') :
    Sim (Verif.compDhSecret E cfg : M σ _) (Verif.compDhSecret E cfg') := by
  unfold Verif.compDhSecret
  sim
  all_goals limit

theorem extractPrk {E : Env σ} {cfg cfg' : Config} {a b : Bytes} (hc : Covers E cfg cfg') :
    Sim (Verif.extractPrk E cfg a b : M σ _) (Verif.extractPrk E cfg' a b) := by
  unfold Verif.extractPrk
  sim
  all_goals limit

theorem agreeEphemeral {E : Env σ} {b : Bytes} :
    Sim (Verif.agreeEphemeral E b : M σ _) (Verif.agreeEphemeral E b) := by
  unfold Verif.agreeEphemeral
  sim

theorem agreeStatic {E : Env σ} {b : Bytes} :
    Sim (Verif.agreeStatic E b : M σ _) (Verif.agreeStatic E b) := by
  unfold Verif.agreeStatic
  sim

theorem prepareMsg2 {E : Env σ} {cfg cfg' : Config} {b : Bytes} {n : Nat} (hc : Covers E cfg cfg') :
    Sim (Verif.prepareMsg2 E cfg b n : M σ _) (Verif.prepareMsg2 E cfg' b n) := by
  unfold Verif.prepareMsg2
  sim

theorem buildMacCtx {E : Env σ} {cfg cfg' : Config} {e : Option Err} {c : Cred} (hc : Covers E cfg cfg') :
    Sim (Verif.buildMacCtx E cfg e c : M σ _) (Verif.buildMacCtx E cfg' e c) := by
  unfold Verif.buildMacCtx
  refine getCtx.bind fun c => (ofRes ?_).bind fun n => (memAllocs hc fun e => hc.macMemory e n).bind fun _ => ofRes (macContext_sim hc _ _ _)
  cases e
  · exact macContextLen_sim hc _ _
  · exact RSim.mapErr _ (macContextLen_sim hc _ _)

theorem handOver {E : Env σ} {cfg cfg' : Config} {n : Nat} (hc : Covers E cfg cfg') :
    Sim (Verif.handOver cfg n : M σ _) (Verif.handOver cfg' n) := by
  unfold Verif.handOver
  simp only [hc.eads]
  sim

theorem storeEad {E : Env σ} {cfg cfg' : Config} {ts : List EadTok} {n : Nat} (hc : Covers E cfg cfg') :
    Sim (Verif.storeEad cfg ts n : M σ _) (Verif.storeEad cfg' ts n) := by
  unfold Verif.storeEad
  sim
  all_goals limit

theorem parseMsg2 {E : Env σ} {cfg cfg' : Config} {b : Bytes} (hc : Covers E cfg cfg') :
    Sim (Verif.parseMsg2 E cfg b : M σ _) (Verif.parseMsg2 E cfg' b) := by
  unfold Verif.parseMsg2
  simp only [hc.dec]
  sim
  all_goals limit

theorem compTh3 {E : Env σ} {cfg cfg' : Config} {a b : Bytes} (hc : Covers E cfg cfg') :
    Sim (Verif.compTh3 E cfg a b : M σ _) (Verif.compTh3 E cfg' a b) := by
  unfold Verif.compTh3
  sim
  all_goals limit

theorem genMsg3 {b : Bytes} {n : Nat} :
    Sim (Verif.genMsg3 b n : M σ _) (Verif.genMsg3 b n) := by
  unfold Verif.genMsg3
  sim

theorem genMsg4 {b : Bytes} {n : Nat} :
    Sim (Verif.genMsg4 b n : M σ _) (Verif.genMsg4 b n) := by
  unfold Verif.genMsg4
  sim

theorem parsePtxt4 {E : Env σ} {cfg cfg' : Config} {b : Bytes} (hc : Covers E cfg cfg') :
    Sim (Verif.parsePtxt4 cfg b : M σ _) (Verif.parsePtxt4 cfg' b) := by
  unfold Verif.parsePtxt4
  simp only [hc.dec]
  sim
  all_goals limit

theorem storePeerCid {E : Env σ} {cfg cfg' : Config} {e : Err} {c : Cid} (hc : Covers E cfg cfg') :
    Sim (Verif.storePeerCid cfg e c : M σ _) (Verif.storePeerCid cfg' e c) := by
  unfold Verif.storePeerCid
  cases c <;> sim <;> limit

theorem compTh2 {E : Env σ} {cfg cfg' : Config} (hc : Covers E cfg cfg') :
    Sim (Verif.compTh2 E cfg : M σ _) (Verif.compTh2 E cfg') := by
  unfold Verif.compTh2
  sim

theorem compTh4 {E : Env σ} {cfg cfg' : Config} {a b : Bytes} (hc : Covers E cfg cfg') :
    Sim (Verif.compTh4 E cfg a b : M σ _) (Verif.compTh4 E cfg' a b) := by
  unfold Verif.compTh4
  sim

theorem compPrk2e {E : Env σ} {cfg cfg' : Config} (hc : Covers E cfg cfg') :
    Sim (Verif.compPrk2e E cfg : M σ _) (Verif.compPrk2e E cfg') := by
  unfold Verif.compPrk2e
  sim

theorem compGrx {E : Env σ} {a b : Bytes} :
    Sim (Verif.compGrx E a b : M σ _) (Verif.compGrx E a b) := by
  unfold Verif.compGrx
  sim
  split <;> sim

theorem compGiy {E : Env σ} {a b : Bytes} :
    Sim (Verif.compGiy E a b : M σ _) (Verif.compGiy E a b) := by
  unfold Verif.compGiy
  sim
  split <;> sim

theorem parsePtxt2 {E : Env σ} {cfg cfg' : Config} {b : Bytes} (hc : Covers E cfg cfg') :
    Sim (Verif.parsePtxt2 cfg b : M σ _) (Verif.parsePtxt2 cfg' b) := by
  unfold Verif.parsePtxt2
  rw [hc.dec]
  sim
  exact ofRes (credOfIdCred_sim hc (credOfMap2_sim hc) _)

theorem parsePtxt3 {E : Env σ} {cfg cfg' : Config} {b : Bytes} (hc : Covers E cfg cfg') :
    Sim (Verif.parsePtxt3 cfg b : M σ _) (Verif.parsePtxt3 cfg' b) := by
  unfold Verif.parsePtxt3
  rw [hc.dec]
  sim
  exact ofRes (credOfIdCred_sim hc (credOfMap3_sim hc) _)

theorem verifyCred {E : Env σ} {c : Cred} :
    Sim (Verif.verifyCred E c : M σ _) (Verif.verifyCred E c) := by
  unfold Verif.verifyCred
  sim

theorem aeadEncrypt {E : Env σ} {a b c d : Bytes} {n : Nat} :
    Sim (Verif.aeadEncrypt E a b c d n : M σ _) (Verif.aeadEncrypt E a b c d n) := by
  unfold Verif.aeadEncrypt
  sim

theorem aeadDecrypt {E : Env σ} {a b c d : Bytes} {n : Nat} :
    Sim (Verif.aeadDecrypt E a b c d n : M σ _) (Verif.aeadDecrypt E a b c d n) := by
  unfold Verif.aeadDecrypt
  sim

theorem signCose {E : Env σ} {cfg cfg' : Config} {k : Bytes} {m : MacCtx} {b : Bytes} {n : Nat} (hc : Covers E cfg cfg') :
    Sim (Verif.signCose E cfg k m b n : M σ _) (Verif.signCose E cfg' k m b n) := by
  unfold Verif.signCose
  sim

theorem verifyCose {E : Env σ} {cfg cfg' : Config} {m : MacCtx} {a b c : Bytes} (hc : Covers E cfg cfg') :
    Sim (Verif.verifyCose E cfg m a b c : M σ _) (Verif.verifyCose E cfg' m a b c) := by
  unfold Verif.verifyCose
  sim

theorem eadCompose {E : Env σ} {cfg cfg' : Config} (hc : Covers E cfg cfg') :
    Sim (Verif.eadCompose E cfg : M σ _) (Verif.eadCompose E cfg') := by
  unfold Verif.eadCompose
  simp only [hc.eads]
  sim
  limit

theorem eadProcess {E : Env σ} {cfg cfg' : Config} (hc : Covers E cfg cfg') :
    Sim (Verif.eadProcess E cfg : M σ _) (Verif.eadProcess E cfg') := by
  unfold Verif.eadProcess
  simp only [hc.eads]
  sim

theorem processEad1 {E : Env σ} {cfg cfg' : Config} {ts : List EadTok} {n : Nat} (hc : Covers E cfg cfg') :
    Sim (Verif.processEad1 E cfg ts n : M σ _) (Verif.processEad1 E cfg' ts n) := by
  unfold Verif.processEad1 Verif.clearEad
  sim
  all_goals limit

theorem compSalt3e2m {E : Env σ} {cfg cfg' : Config} (hc : Covers E cfg cfg') :
    Sim (Verif.compSalt3e2m E cfg : M σ _) (Verif.compSalt3e2m E cfg') := by
  unfold Verif.compSalt3e2m
  sim

theorem compSalt4e3m {E : Env σ} {cfg cfg' : Config} (hc : Covers E cfg cfg') :
    Sim (Verif.compSalt4e3m E cfg : M σ _) (Verif.compSalt4e3m E cfg') := by
  unfold Verif.compSalt4e3m
  sim

theorem compKeystream {E : Env σ} {cfg cfg' : Config} {b : Bytes} {n : Nat} (hc : Covers E cfg cfg') :
    Sim (Verif.compKeystream E cfg b n : M σ _) (Verif.compKeystream E cfg' b n) := by
  unfold Verif.compKeystream
  sim

theorem compPrk3e2m {E : Env σ} {cfg cfg' : Config} {a b : Bytes} (hc : Covers E cfg cfg') :
    Sim (Verif.compPrk3e2m E cfg a b : M σ _) (Verif.compPrk3e2m E cfg' a b) := by
  unfold Verif.compPrk3e2m
  sim

theorem compPrk4e3m {E : Env σ} {cfg cfg' : Config} {a b : Bytes} (hc : Covers E cfg cfg') :
    Sim (Verif.compPrk4e3m E cfg a b : M σ _) (Verif.compPrk4e3m E cfg' a b) := by
  unfold Verif.compPrk4e3m
  sim

theorem keyIvAad {E : Env σ} {cfg cfg' : Config} {a b : Nat} (hc : Covers E cfg cfg') :
    Sim (Verif.keyIvAad E cfg a b : M σ _) (Verif.keyIvAad E cfg' a b) := by
  unfold Verif.keyIvAad
  sim

theorem keyIvAad3 {E : Env σ} {cfg cfg' : Config} (hc : Covers E cfg cfg') :
    Sim (Verif.keyIvAad3 E cfg : M σ _) (Verif.keyIvAad3 E cfg') := by
  unfold Verif.keyIvAad3
  sim

theorem keyIvAad4 {E : Env σ} {cfg cfg' : Config} (hc : Covers E cfg cfg') :
    Sim (Verif.keyIvAad4 E cfg : M σ _) (Verif.keyIvAad4 E cfg') := by
  unfold Verif.keyIvAad4
  sim

theorem compMac {E : Env σ} {cfg cfg' : Config} {b : Bytes} {n : Nat} (hc : Covers E cfg cfg') :
    Sim (Verif.compMac E cfg b n : M σ _) (Verif.compMac E cfg' b n) := by
  unfold Verif.compMac
  sim

theorem compSignOrMac {E : Env σ} {cfg cfg' : Config} {k : Bytes} {m : MacCtx} {b : Bytes} {n : Nat} (hc : Covers E cfg cfg') :
    Sim (Verif.compSignOrMac E cfg k m b n : M σ _) (Verif.compSignOrMac E cfg' k m b n) := by
  unfold Verif.compSignOrMac
  refine getCtx.bind fun c => (require id).bind fun _ => ?_
  split <;> sim

theorem verifySignOrMac {E : Env σ} {cfg cfg' : Config} {m : MacCtx} {k : Option Bytes} {a b : Bytes} (hc : Covers E cfg cfg') :
    Sim (Verif.verifySignOrMac E cfg m k a b : M σ _) (Verif.verifySignOrMac E cfg' m k a b) := by
  unfold Verif.verifySignOrMac
  refine getCtx.bind fun c => (ofOption _ _).bind fun pk => (require id).bind fun _ => ?_
  split <;> sim

theorem compPrkOut {E : Env σ} {cfg cfg' : Config} (hc : Covers E cfg cfg') :
    Sim (Verif.compPrkOut E cfg : M σ _) (Verif.compPrkOut E cfg') := by
  unfold Verif.compPrkOut
  sim

theorem compNewPrkOut {E : Env σ} {cfg cfg' : Config} {b : Bytes} (hc : Covers E cfg cfg') :
    Sim (Verif.compNewPrkOut E cfg b : M σ _) (Verif.compNewPrkOut E cfg' b) := by
  unfold Verif.compNewPrkOut
  sim

theorem compPrkExporter {E : Env σ} {cfg cfg' : Config} (hc : Covers E cfg cfg') :
    Sim (Verif.compPrkExporter E cfg : M σ _) (Verif.compPrkExporter E cfg') := by
  unfold Verif.compPrkExporter
  sim

theorem ensurePrkOut {E : Env σ} {cfg cfg' : Config} (hc : Covers E cfg cfg') :
    Sim (Verif.ensurePrkOut E cfg : M σ _) (Verif.ensurePrkOut E cfg') := by
  unfold Verif.ensurePrkOut
  sim

theorem exportSecret {E : Env σ} {cfg cfg' : Config} {l n : Nat} (hc : Covers E cfg cfg') :
    Sim (Verif.exportSecret E cfg l n : M σ _) (Verif.exportSecret E cfg' l n) := by
  unfold Verif.exportSecret
  sim

theorem keyUpdate {E : Env σ} {cfg cfg' : Config} {b : Bytes} (hc : Covers E cfg cfg') :
    Sim (Verif.keyUpdate E cfg b : M σ _) (Verif.keyUpdate E cfg' b) := by
  unfold Verif.keyUpdate
  sim

theorem exportOscore {E : Env σ} {cfg cfg' : Config} {a b c d : Nat} (hc : Covers E cfg cfg') :
    Sim (Verif.exportOscore E cfg a b c d : M σ _) (Verif.exportOscore E cfg' a b c d) := by
  unfold Verif.exportOscore
  sim

theorem chooseSuite  :
    Sim (Verif.chooseSuite : M σ _) (Verif.chooseSuite) := by
  unfold Verif.chooseSuite
  sim

theorem checkSuites {E : Env σ} {cfg cfg' : Config} {su : Suites} (hc : Covers E cfg cfg') :
    Sim (Verif.checkSuites cfg su : M σ _) (Verif.checkSuites cfg' su) := by
  unfold Verif.checkSuites
  refine getCtx.bind fun c => ?_
  cases su <;> sim <;> limit

theorem enter {ok : Ctx → Bool} {m : Msg} {r : Role} :
    Sim (Verif.enter ok m r : M σ _) (Verif.enter ok m r) := by
  unfold Verif.enter
  sim

theorem message1Compose {E : Env σ} {cfg cfg' : Config} {n : Nat} (hc : Covers E cfg cfg') :
    Sim (Verif.message1Compose E cfg n : M σ _) (Verif.message1Compose E cfg' n) := by
  unfold Verif.message1Compose
  sim

theorem message1Process {E : Env σ} {cfg cfg' : Config} {b : Bytes} (hc : Covers E cfg cfg') :
    Sim (Verif.message1Process E cfg b : M σ _) (Verif.message1Process E cfg' b) := by
  unfold Verif.message1Process
  simp only [hc.dec]
  sim
  all_goals limit

theorem message2Compose {E : Env σ} {cfg cfg' : Config} {n : Nat} (hc : Covers E cfg cfg') :
    Sim (Verif.message2Compose E cfg n : M σ _) (Verif.message2Compose E cfg' n) := by
  unfold Verif.message2Compose
  sim

theorem message2Process {E : Env σ} {cfg cfg' : Config} {b : Bytes} (hc : Covers E cfg cfg') :
    Sim (Verif.message2Process E cfg b : M σ _) (Verif.message2Process E cfg' b) := by
  unfold Verif.message2Process
  sim

theorem message3Compose {E : Env σ} {cfg cfg' : Config} {n : Nat} (hc : Covers E cfg cfg') :
    Sim (Verif.message3Compose E cfg n : M σ _) (Verif.message3Compose E cfg' n) := by
  unfold Verif.message3Compose
  sim

theorem message3Process {E : Env σ} {cfg cfg' : Config} {b : Bytes} (hc : Covers E cfg cfg') :
    Sim (Verif.message3Process E cfg b : M σ _) (Verif.message3Process E cfg' b) := by
  unfold Verif.message3Process
  simp only [hc.dec]
  sim

theorem message4Compose {E : Env σ} {cfg cfg' : Config} {n : Nat} (hc : Covers E cfg cfg') :
    Sim (Verif.message4Compose E cfg n : M σ _) (Verif.message4Compose E cfg' n) := by
  unfold Verif.message4Compose
  sim

theorem message4Process {E : Env σ} {cfg cfg' : Config} {b : Bytes} (hc : Covers E cfg cfg') :
    Sim (Verif.message4Process E cfg b : M σ _) (Verif.message4Process E cfg' b) := by
  unfold Verif.message4Process
  simp only [hc.dec]
  sim

end Sim

end Verif
