import Verif.SpecStatic
import Verif.Heads

/-!
# The key agreements of an API call
-/

namespace Verif

open M Spec

variable {σ α β : Type}

/-- neither a key agreement nor the import of a key for one -/
def Ev.noDh : Ev → Bool
  | .keyAgreement _ _ _ => false
  | .importKey .keyAgreement _ (some _) => false
  | _ => true

/-- only such calls were made -/
def NoDh (s s' : St σ) : Prop := ∃ es, s'.log = s.log ++ es ∧ ∀ v ∈ es, v.noDh = true

theorem noDh_frame : Frame (NoDh (σ := σ)) where
  refl _ := ⟨[], by simp, by simp⟩
  trans := by
    rintro a b c ⟨l, h1, h2⟩ ⟨m, h3, h4⟩
    refine ⟨l ++ m, by rw [h3, h1, List.append_assoc], fun v hv => ?_⟩
    rcases List.mem_append.1 hv with h | h
    · exact h2 v h
    · exact h4 v h

/-- a program that makes no key agreement -/
class Plain (m : M σ α) : Prop where
  pres : Pres NoDh m

namespace Plain

instance bind (m : M σ α) (f : α → M σ β) [h : Plain m] [g : ∀ a, Plain (f a)] : Plain (m >>= f) :=
  ⟨h.pres.bind noDh_frame fun a => (g a).pres⟩
instance (a : α) : Plain (pure a : M σ α) := ⟨Pres.pure noDh_frame a⟩
instance (e : Err) : Plain (M.fail e : M σ α) := ⟨Pres.fail noDh_frame e⟩
instance (u : UB) : Plain (M.undef u : M σ α) := ⟨Pres.undef noDh_frame u⟩
instance (b : Bool) (e : Err) : Plain (M.require b e : M σ Unit) := ⟨Pres.require noDh_frame b e⟩
instance (b : Bool) (u : UB) : Plain (M.guardUB b u : M σ Unit) := ⟨Pres.guardUB noDh_frame b u⟩
instance (e : Err) (o : Option α) : Plain (M.ofOption e o : M σ α) := ⟨Pres.ofOption noDh_frame e o⟩
instance (r : Res α) : Plain (M.ofRes r : M σ α) := ⟨Pres.ofRes noDh_frame r⟩
instance : Plain (getCtx : M σ Ctx) := ⟨Pres.getCtx noDh_frame⟩
instance (f : Ctx → Ctx) : Plain (modCtx f : M σ Unit) := ⟨Pres.modCtx f fun _ => ⟨[], by simp, by simp⟩⟩
instance mapErr (e : Err) (m : M σ α) [h : Plain m] : Plain (M.mapErr e m) := ⟨h.pres.mapErr e⟩
instance whenM (b : Bool) (m : M σ Unit) [h : Plain m] : Plain (M.whenM b m) := ⟨h.pres.whenM noDh_frame b⟩
instance ite (p : Prop) [Decidable p] (m n : M σ α) [h : Plain m] [g : Plain n] : Plain (if p then m else n) :=
  ⟨h.pres.ite g.pres⟩
instance (f : α → Out) (m : M σ α) [h : Plain m] : Plain (M.mapOut f m) := ⟨h.pres.mapOut noDh_frame f⟩

theorem call (f : σ → β × σ) (ev : β → Ev) (h : ∀ b, (ev b).noDh = true) : Plain (M.call f ev) :=
  ⟨Pres.call f ev fun s => ⟨_, rfl, by simpa using h _⟩⟩

variable (E : Env σ) (cfg : Config)

instance : Plain (needKeys : M σ Unit) := by unfold needKeys; infer_instance
instance : Plain (needCrypto : M σ Unit) := by unfold needCrypto; infer_instance
instance : Plain (needCred : M σ Unit) := by unfold needCred; infer_instance
instance (n : Nat) : Plain (memAlloc E cfg n) := by
  have := call (fun e => E.alloc e n) (.alloc n) fun _ => rfl
  unfold memAlloc
  split <;> infer_instance

/-- the primitives -/
macro "prim" d:ident : tactic => `(tactic| (
  unfold $d
  first
  | exact ⟨Pres.bind noDh_frame (Plain.pres (m := needCrypto)) fun _ => (call _ _ fun _ => rfl).pres⟩
  | exact ⟨Pres.bind noDh_frame (Plain.pres (m := needKeys)) fun _ => (call _ _ fun _ => rfl).pres⟩
  | exact ⟨Pres.bind noDh_frame (Plain.pres (m := needCred)) fun _ => (call _ _ fun _ => rfl).pres⟩))

instance (k : Bytes) : Plain (makeKeyPair E k) := by prim makeKeyPair
instance (k i : Bytes) : Plain (sign E k i) := by prim sign
instance (k i g : Bytes) : Plain (verify E k i g) := by prim verify
instance (k a : Bytes) : Plain (extract E k a) := by prim extract
instance (k a : Bytes) (n : Nat) : Plain (expand E k a n) := by prim expand
instance (k a b c : Bytes) : Plain (encrypt E k a b c) := by prim encrypt
instance (k a b c : Bytes) : Plain (decrypt E k a b c) := by prim decrypt
instance (a : Bytes) : Plain (hash E a) := by prim hash
instance : Plain (credFetch E) := by prim credFetch
instance (c : Cred) : Plain (credVerify E c) := by prim credVerify
instance (k : Bytes) : Plain (destroyKey E k) := by
  unfold destroyKey
  have := call (fun e => ((), E.destroyKey e k)) (fun _ => .destroyKey k) fun _ => rfl
  infer_instance

/-- the kinds of keys other than those for key agreement -/
class Other (t : KeyType) : Prop where
  ne : t ≠ .keyAgreement

instance : Other .makeKeyPair := ⟨by decide⟩
instance : Other .extract := ⟨by decide⟩
instance : Other .expand := ⟨by decide⟩
instance : Other .encrypt := ⟨by decide⟩
instance : Other .decrypt := ⟨by decide⟩
instance : Other .verify := ⟨by decide⟩

instance (t : KeyType) (raw : Bytes) [h : Other t] : Plain (importKey E t raw) := by
  unfold importKey
  have := call (fun e => E.importKey e t raw) (.importKey t raw) fun b => by
    have := h.ne
    cases t <;> first | rfl | exact absurd rfl this
  infer_instance

instance (t : KeyType) (raw : Bytes) (e : Err) (op : Bytes → M σ α) [Other t] [∀ k, Plain (op k)] :
    Plain (withKey E t raw e op) := by
  unfold withKey; infer_instance

/-- a program that uses only plain programs -/
macro "plain!" : tactic => `(tactic|
  repeat' first
  | infer_instance
  | with_reducible refine @Plain.bind _ _ _ _ _ ?_ (fun _ => ?_)
  | with_reducible refine @Plain.mapErr _ _ _ _ ?_
  | with_reducible refine @Plain.whenM _ _ _ ?_
  | with_reducible refine @Plain.ite _ _ _ _ _ _ ?_ ?_
  | split
  | dsimp only)

/-- the body of a function -/
macro "plain" d:ident : tactic => `(tactic| (unfold $d; plain!))

instance (b : Bytes) (n : Nat) : Plain (compMac E cfg b n) := by plain compMac
instance (k : Bytes) (m : MacCtx) (a : Bytes) (n : Nat) : Plain (signCose E cfg k m a n) := by plain signCose
instance (m : MacCtx) (a b c : Bytes) : Plain (verifyCose E cfg m a b c) := by plain verifyCose
instance (k : Bytes) (m : MacCtx) (a : Bytes) (n : Nat) : Plain (compSignOrMac E cfg k m a n) := by plain compSignOrMac
instance (m : MacCtx) (a : Option Bytes) (b c : Bytes) : Plain (verifySignOrMac E cfg m a b c) := by plain verifySignOrMac
instance : Plain (eadCompose E cfg) := by
  have := fun m => call (fun e => E.eadCompose e m) (.eadCompose m) fun _ => rfl
  plain eadCompose
instance : Plain (eadProcess E cfg) := by
  have := fun m l => call (fun e => E.eadProcess e m l) (.eadProcess m l) fun _ => rfl
  plain eadProcess
instance : Plain (clearEad : M σ Unit) := by plain clearEad
instance (ok : Ctx → Bool) (m : Msg) (r : Role) : Plain (enter ok m r : M σ Unit) := by plain enter
instance : Plain (chooseSuite : M σ Unit) := by plain chooseSuite
instance (a : Bytes) : Plain (hashTh E cfg a) := by plain hashTh
instance (su : Suites) : Plain (checkSuites cfg su : M σ Unit) := by plain checkSuites
instance (e : Err) (ci : Cid) : Plain (storePeerCid cfg e ci : M σ Unit) := by plain storePeerCid
instance (l : List EadTok) (n : Nat) : Plain (processEad1 E cfg l n) := by
  have := fun m l => call (fun e => E.eadProcess e m l) (.eadProcess m l) fun _ => rfl
  plain processEad1
instance (n : Nat) : Plain (message1Compose E cfg n) := by plain message1Compose
instance (m : Bytes) : Plain (message1Process E cfg m) := by plain message1Process
instance : Plain (genDhKeys E cfg) := by plain genDhKeys
instance : Plain (compTh2 E cfg) := by plain compTh2
instance (a b : Bytes) : Plain (extractPrk E cfg a b) := by plain extractPrk
instance : Plain (compPrk2e E cfg) := by plain compPrk2e
instance (p : Bytes) (l : Nat) (c : Bytes) (n : Nat) : Plain (kdfExact E cfg p l c n) := by plain kdfExact
instance : Plain (compSalt3e2m E cfg) := by plain compSalt3e2m
instance (p : Bytes) (n : Nat) : Plain (compKeystream E cfg p n) := by plain compKeystream
instance (a b : Bytes) : Plain (compTh3 E cfg a b) := by plain compTh3
instance (a : Bytes) (n : Nat) : Plain (prepareMsg2 E cfg a n) := by plain prepareMsg2
instance (e : Option Err) (c : Cred) : Plain (buildMacCtx E cfg e c) := by plain buildMacCtx
instance (n : Nat) : Plain (handOver cfg n : M σ Unit) := by plain handOver
instance (l : List EadTok) (n : Nat) : Plain (storeEad cfg l n : M σ Unit) := by plain storeEad
instance (a : Bytes) : Plain (parsePtxt2 cfg a : M σ (Cred × Bytes)) := by plain parsePtxt2
instance (c : Cred) : Plain (verifyCred E c) := by plain verifyCred
instance (m : Bytes) : Plain (parseMsg2 E cfg m) := by plain parseMsg2
instance : Plain (compSalt4e3m E cfg) := by plain compSalt4e3m
instance (n : Nat) (p : Bytes) (l : Nat) (c : Bytes) (k o : Nat) : Plain (expandInfo E n p l c k o) := by plain expandInfo
instance (a b : Nat) : Plain (keyIvAad E cfg a b) := by plain keyIvAad
instance : Plain (keyIvAad3 E cfg) := by plain keyIvAad3
instance (a b : Bytes) : Plain (compTh4 E cfg a b) := by plain compTh4
instance (k a b c : Bytes) (n : Nat) : Plain (aeadEncrypt E k a b c n) := by plain aeadEncrypt
instance (k a b c : Bytes) (n : Nat) : Plain (aeadDecrypt E k a b c n) := by plain aeadDecrypt
instance (a : Bytes) (n : Nat) : Plain (genMsg3 a n : M σ Bytes) := by plain genMsg3
instance (a : Bytes) : Plain (parsePtxt3 cfg a : M σ (Cred × Bytes)) := by plain parsePtxt3
instance : Plain (keyIvAad4 E cfg) := by plain keyIvAad4
instance (a : Bytes) (n : Nat) : Plain (genMsg4 a n : M σ Bytes) := by plain genMsg4
instance (n : Nat) : Plain (message4Compose E cfg n) := by plain message4Compose
instance (a : Bytes) : Plain (parsePtxt4 cfg a : M σ Unit) := by plain parsePtxt4
instance (a : Bytes) : Plain (message4Process E cfg a) := by plain message4Process
instance : Plain (compPrkOut E cfg) := by plain compPrkOut
instance (a : Bytes) : Plain (compNewPrkOut E cfg a) := by plain compNewPrkOut
instance : Plain (compPrkExporter E cfg) := by plain compPrkExporter
instance : Plain (ensurePrkOut E cfg) := by plain ensurePrkOut
instance (a b : Nat) : Plain (exportSecret E cfg a b) := by plain exportSecret
instance (a : Bytes) : Plain (keyUpdate E cfg a) := by plain keyUpdate
instance (a b c d : Nat) : Plain (exportOscore E cfg a b c d) := by plain exportOscore
instance : Plain (contextInit : M σ Unit) := by plain contextInit
instance : Plain (contextDeinit : M σ Unit) := by plain contextDeinit
instance (a : List Nat) : Plain (setMethods a : M σ Unit) := by plain setMethods
instance (a : List Suite) : Plain (setSuites cfg a : M σ Unit) := by plain setSuites
instance (a : Cid) : Plain (setCid cfg a : M σ Unit) := by plain setCid
instance : Plain (setUserCtx : M σ Unit) := by plain setUserCtx
instance (a b : Bool) : Plain (bindEad a b : M σ Unit) := by plain bindEad
instance (a : Bool) : Plain (bindKeys a : M σ Unit) := by plain bindKeys
instance (a : Bool) : Plain (bindCrypto a : M σ Unit) := by plain bindCrypto
instance (a : Bool) : Plain (bindCred a : M σ Unit) := by plain bindCred
instance : Plain (errorGetCode : M σ ErrCode) := by plain errorGetCode
instance (a b : Nat) : Plain (errorGetSuites a b : M σ (List Int × List Int)) := by plain errorGetSuites

/-- the calls that make key agreements -/
def agreeing : Op → Bool
  | .compose2 _ | .process2 _ | .compose3 _ | .process3 _ => true
  | _ => false

theorem step {o : Op} (h : agreeing o = false) : Plain (step E cfg o) := by
  cases o <;> simp only [agreeing, Bool.true_eq_false] at h <;> unfold Verif.step <;> infer_instance

end Plain

/-! ## Lists of calls -/

/-- In the calls `L` every key agreement is with a key imported directly before and destroyed directly after, which is
then one that `eph` allows, or one that `own` allows; the latter happens at most `n` times. -/
inductive Agreements (eph own : Bytes → Bytes → Prop) : Nat → List Ev → Prop
  | nil {n : Nat} : Agreements eph own n []
  | other {n : Nat} {v : Ev} {L : List Ev} : v.noDh = true → Agreements eph own n L → Agreements eph own n (v :: L)
  | ephemeral {n : Nat} {priv kid peer : Bytes} {o : Option Bytes} {L : List Ev} : eph priv peer →
      Agreements eph own n L →
      Agreements eph own n (.importKey .keyAgreement priv (some kid) :: .keyAgreement kid peer o :: .destroyKey kid :: L)
  | own {n : Nat} {kid peer : Bytes} {o : Option Bytes} {L : List Ev} : own kid peer → Agreements eph own n L →
      Agreements eph own (n + 1) (.keyAgreement kid peer o :: L)

namespace Agreements

variable {eph own eph' own' : Bytes → Bytes → Prop} {n k : Nat} {L L' : List Ev}

theorem weaken (h : Agreements eph own k L) : Agreements eph own (n + k) L := by
  induction h with
  | nil => exact .nil
  | other h1 _ ih => exact .other h1 ih
  | ephemeral h1 _ ih => exact .ephemeral h1 ih
  | own h1 _ ih => exact .own h1 ih

theorem app (h : Agreements eph own n L) (h' : Agreements eph own k L') : Agreements eph own (n + k) (L ++ L') := by
  induction h with
  | nil => exact h'.weaken
  | other h1 _ ih => exact .other h1 ih
  | ephemeral h1 _ ih => exact .ephemeral h1 ih
  | own h1 _ ih => rw [Nat.add_right_comm]; exact .own h1 ih

theorem mono (h : Agreements eph own n L) (he : ∀ a b, eph a b → eph' a b) (ho : ∀ a b, own a b → own' a b) :
    Agreements eph' own' n L := by
  induction h with
  | nil => exact .nil
  | other h1 _ ih => exact .other h1 ih
  | ephemeral h1 _ ih => exact .ephemeral (he _ _ h1) ih
  | own h1 _ ih => exact .own (ho _ _ h1) ih

theorem none (h : Agreements eph own n L) (ho : ∀ a b, ¬ own a b) : Agreements eph own' 0 L := by
  induction h with
  | nil => exact .nil
  | other h1 _ ih => exact .other h1 ih
  | ephemeral h1 _ ih => exact .ephemeral h1 ih
  | own h1 _ ih => exact absurd h1 (ho _ _)

theorem calm (h : ∀ v ∈ L, v.noDh = true) : Agreements eph own n L := by
  induction L with
  | nil => exact .nil
  | cons v L ih => exact .other (h v (List.mem_cons_self ..)) (ih fun w hw => h w (List.mem_cons_of_mem _ hw))

end Agreements

/-- the calls between two states -/
def Agr (eph own : Bytes → Bytes → Prop) (n : Nat) (s s' : St σ) : Prop :=
  ∃ es, s'.log = s.log ++ es ∧ Agreements eph own n es

namespace Agr

variable {eph own eph' own' : Bytes → Bytes → Prop} {n k : Nat} {s s1 s' : St σ} {E : Env σ} {cfg : Config}

theorem grow (h : Agr eph own n s s') : Grow s s' := by
  obtain ⟨es, h, _⟩ := h
  exact grow_iff.2 ⟨es, h⟩

theorem during (h : Agr eph own n s s') : Agreements eph own n (during s s') := by
  obtain ⟨es, h, h'⟩ := h
  unfold Spec.during
  rw [h, List.drop_left]; exact h'

theorem mono (h : Agr eph own n s s') (he : ∀ a b, eph a b → eph' a b) (ho : ∀ a b, own a b → own' a b) :
    Agr eph' own' n s s' := by
  obtain ⟨es, h, h'⟩ := h
  exact ⟨es, h, h'.mono he ho⟩

theorem none (h : Agr eph own n s s') (ho : ∀ a b, ¬ own a b) : Agr eph own' 0 s s' := by
  obtain ⟨es, h, h'⟩ := h
  exact ⟨es, h, h'.none ho⟩

theorem trans (h : Agr eph own n s s1) (h' : Agr eph own k s1 s') : Agr eph own (n + k) s s' := by
  obtain ⟨a, h1, h2⟩ := h
  obtain ⟨b, h3, h4⟩ := h'
  exact ⟨a ++ b, by rw [h3, h1, List.append_assoc], h2.app h4⟩

theorem calm (h : NoDh s s') : Agr eph own n s s' := by
  obtain ⟨es, h, h'⟩ := h
  exact ⟨es, h, .calm h'⟩

theorem same (h : s'.log = s.log) : Agr eph own n s s' := ⟨[], by simp [h], .nil⟩

/-- a plain program -/
theorem plain {m : M σ α} [h : Plain m] {r : Res α} (hm : m s = (r, s')) (hd : r.Defined) : Agr eph own n s s' := by
  have := h.pres s (by rw [hm]; exact hd)
  rw [hm] at this
  exact calm this

/-- a program that begins with a plain one -/
theorem next {m : M σ α} [h : Plain m] {f : α → M σ β} {r : Res β} (hm : (m >>= f) s = (r, s')) (hd : r.Defined)
    (hf : ∀ a s1, m s = (.ok a, s1) → f a s1 = (r, s') → Agr eph own n s1 s') : Agr eph own n s s' := by
  rcases bind_cases hm hd with ⟨a, s1, h1, h2⟩ | ⟨e, h1⟩
  · have := (plain (n := 0) h1 (by simp)).trans (hf a s1 h1 h2)
    rwa [Nat.zero_add] at this
  · exact plain h1 (by simp)

/-- a program that begins with key agreements -/
theorem seq {m : M σ α} {f : α → M σ β} {r : Res β} (hm : (m >>= f) s = (r, s')) (hd : r.Defined)
    (h : ∀ x s1, m s = (x, s1) → x.Defined → Agr eph own n s s1)
    (hf : ∀ a s1, m s = (.ok a, s1) → f a s1 = (r, s') → Agr eph own k s1 s') : Agr eph own (n + k) s s' := by
  rcases bind_cases hm hd with ⟨a, s1, h1, h2⟩ | ⟨e, h1⟩
  · exact (h _ _ h1 (by simp)).trans (hf a s1 h1 h2)
  · exact (h _ _ h1 (by simp)).trans (k := k) (same rfl)

end Agr

section dh

variable {s s' : St σ} {E : Env σ} {cfg : Config}

theorem importKey_log {t : KeyType} {raw : Bytes} {r : Res (Option Bytes)} (h : importKey E t raw s = (r, s'))
    (hd : r.Defined) : ∃ k, r = .ok k ∧ s'.ctx = s.ctx ∧ s'.log = s.log ++ [.importKey t raw k] := by
  unfold importKey at h
  rcases bind_cases h hd with ⟨_, s1, h1, h2⟩ | ⟨e, h1⟩
  · obtain ⟨_, rfl⟩ := needKeys_ok.1 h1
    simp only [M.call, Prod.mk.injEq] at h2
    obtain ⟨rfl, rfl⟩ := h2
    exact ⟨_, rfl, rfl, rfl⟩
  · unfold needKeys at h1
    simp only [Bind.bind, M.bind, M.getCtx, M.guardUB] at h1
    split at h1 <;> simp_all

theorem keyAgreement_log {kid peer : Bytes} {r : Res (Option Bytes)} (h : keyAgreement E kid peer s = (r, s'))
    (hd : r.Defined) : ∃ o, r = .ok o ∧ s'.ctx = s.ctx ∧ s'.log = s.log ++ [.keyAgreement kid peer o] := by
  unfold keyAgreement at h
  rcases bind_cases h hd with ⟨_, s1, h1, h2⟩ | ⟨e, h1⟩
  · obtain ⟨_, rfl⟩ := needCrypto_ok.1 h1
    simp only [M.call, Prod.mk.injEq] at h2
    obtain ⟨rfl, rfl⟩ := h2
    exact ⟨_, rfl, rfl, rfl⟩
  · unfold needCrypto at h1
    simp only [Bind.bind, M.bind, M.getCtx, M.guardUB] at h1
    split at h1 <;> simp_all

theorem destroyKey_log {kid : Bytes} {r : Res Unit} (h : destroyKey E kid s = (r, s'))
    (hd : r.Defined) : r = .ok () ∧ s'.ctx = s.ctx ∧ s'.log = s.log ++ [.destroyKey kid] := by
  unfold destroyKey at h
  rcases bind_cases h hd with ⟨_, s1, h1, h2⟩ | ⟨e, h1⟩
  · obtain ⟨_, rfl⟩ := needKeys_ok.1 h1
    simp only [M.call, Prod.mk.injEq] at h2
    obtain ⟨rfl, rfl⟩ := h2
    exact ⟨rfl, rfl, rfl⟩
  · unfold needKeys at h1
    simp only [Bind.bind, M.bind, M.getCtx, M.guardUB] at h1
    split at h1 <;> simp_all

/-- import, agreement, destruction -/
theorem Agr.one {eph own : Bytes → Bytes → Prop} {n : Nat} {priv kid peer : Bytes} {o : Option Bytes} (he : eph priv peer)
    (h : s'.log = s.log ++ [.importKey .keyAgreement priv (some kid), .keyAgreement kid peer o, .destroyKey kid]) :
    Agr eph own n s s' := ⟨_, h, .ephemeral he .nil⟩

theorem compDhSecret_agr {r : Res Unit} (h : compDhSecret E cfg s = (r, s')) (hd : r.Defined) {own : Bytes → Bytes → Prop} :
    Agr (fun a b => a = s.ctx.dhPriv ∧ b = s.ctx.dhPeerPub) own 0 s s' := by
  unfold compDhSecret at h
  refine Agr.next h hd fun c s1 h1 h2 => ?_
  clear h
  obtain ⟨rfl, rfl⟩ := getCtx_ok.1 h1
  refine Agr.seq (n := 0) (k := 0) h2 hd ?_ fun a s1 _ h => Agr.plain h hd
  clear h1 h2 hd r
  intro r s' h hd
  unfold withKey at h
  rcases bind_cases h hd with ⟨k, s1, h1, h⟩ | ⟨e, h1⟩
  rotate_left
  · obtain ⟨_, h2, _⟩ := importKey_log h1 (by simp); cases h2
  obtain ⟨_, h2, c1, l1⟩ := importKey_log h1 (by simp)
  cases h2
  cases k with
  | none =>
    simp only [M.ofOption, Bind.bind, M.bind, Prod.mk.injEq] at h
    obtain ⟨_, rfl⟩ := h
    exact ⟨_, l1, .other rfl .nil⟩
  | some kid =>
    simp only [M.ofOption] at h
    rcases bind_cases h hd with ⟨_, _, h1, h⟩ | ⟨e, h1⟩
    rotate_left
    · cases h1
    cases h1
    have key : ∀ {x : Res (Option Bytes)} {s2 : St σ},
        (guardUB (decide (s.ctx.suite.eccKey ≤ cfg.maxEccKey)) .oob >>= fun _ => keyAgreement E kid s.ctx.dhPeerPub) s1
          = (x, s2) → x.Defined → ∃ o, x = .ok o ∧ s2.log = s1.log ++ [.keyAgreement kid s.ctx.dhPeerPub o] := by
      intro x s2 hx hd
      rcases bind_cases hx hd with ⟨_, _, h1, hx⟩ | ⟨e, h1⟩
      · obtain ⟨_, rfl⟩ := guardUB_ok.1 h1
        obtain ⟨o, h2, _, h3⟩ := keyAgreement_log hx hd
        exact ⟨o, h2, h3⟩
      · simp only [M.guardUB] at h1; split at h1 <;> simp_all
    rcases bind_cases h hd with ⟨o, s2, h2, h⟩ | ⟨e, h2⟩
    rotate_left
    · obtain ⟨_, h3, _⟩ := key h2 (by simp); cases h3
    obtain ⟨_, h3, l2⟩ := key h2 (by simp)
    cases h3
    rcases bind_cases h hd with ⟨_, s3, h3, h⟩ | ⟨e, h3⟩
    rotate_left
    · have := (destroyKey_log h3 (by simp)).1; cases this
    obtain ⟨_, _, l3⟩ := destroyKey_log h3 (by simp)
    cases h
    exact Agr.one ⟨rfl, rfl⟩ (kid := kid) (o := o) (by rw [l3, l2, l1]; simp)

theorem agreeEphemeral_agr {pk : Bytes} {r : Res Bytes} (h : agreeEphemeral E pk s = (r, s')) (hd : r.Defined)
    {own : Bytes → Bytes → Prop} : Agr (fun a b => a = s.ctx.dhPriv ∧ b = pk) own 0 s s' := by
  unfold agreeEphemeral at h
  refine Agr.next h hd fun c s1 h1 h => ?_
  obtain ⟨rfl, rfl⟩ := getCtx_ok.1 h1
  rcases bind_cases h hd with ⟨k, s1, h1, h⟩ | ⟨e, h1⟩
  rotate_left
  · obtain ⟨_, h2, _⟩ := importKey_log h1 (by simp); cases h2
  obtain ⟨_, h2, c1, l1⟩ := importKey_log h1 (by simp)
  cases h2
  rcases bind_cases h hd with ⟨_, s2, h2, h⟩ | ⟨e, h2⟩
  rotate_left
  · cases h2
  cases h2
  cases k with
  | none =>
    simp only [M.ofOption, Bind.bind, M.bind, Prod.mk.injEq] at h
    obtain ⟨_, rfl⟩ := h
    exact ⟨_, l1, .other rfl .nil⟩
  | some kid =>
    rcases bind_cases h hd with ⟨_, _, h1, h⟩ | ⟨e, h1⟩
    rotate_left
    · cases h1
    cases h1
    rcases bind_cases h hd with ⟨o, s2, h2, h⟩ | ⟨e, h2⟩
    rotate_left
    · obtain ⟨_, h3, _⟩ := keyAgreement_log h2 (by simp); cases h3
    obtain ⟨_, h3, _, l2⟩ := keyAgreement_log h2 (by simp)
    cases h3
    rcases bind_cases h hd with ⟨_, s3, h3, h⟩ | ⟨e, h3⟩
    rotate_left
    · have := (destroyKey_log h3 (by simp)).1; cases this
    obtain ⟨_, _, l3⟩ := destroyKey_log h3 (by simp)
    have hx : Agr (fun a b => a = s.ctx.dhPriv ∧ b = pk) own 0 s s3 :=
      Agr.one ⟨rfl, rfl⟩ (kid := kid) (o := o) (by rw [l3, l2]; show s1.log ++ _ ++ _ = _; rw [l1]; simp)
    exact hx.trans (k := 0) (Agr.plain h hd)

theorem agreeStatic_agr {kid : Bytes} {r : Res Bytes} (h : agreeStatic E kid s = (r, s')) (hd : r.Defined)
    {eph : Bytes → Bytes → Prop} : Agr eph (fun a b => a = kid ∧ b = s.ctx.dhPeerPub) 1 s s' := by
  unfold agreeStatic at h
  refine Agr.next h hd fun c s1 h1 h => ?_
  obtain ⟨rfl, rfl⟩ := getCtx_ok.1 h1
  refine Agr.seq (n := 1) (k := 0) h hd (fun x s1 h1 hd => ?_) fun a s1 _ h => Agr.plain h hd
  obtain ⟨o, _, _, l⟩ := keyAgreement_log h1 hd
  exact ⟨_, l, .own ⟨rfl, rfl⟩ .nil⟩

theorem mapErr_agr {m : M σ α} {e : Err} {r : Res α} (h : M.mapErr e m s = (r, s')) (hd : r.Defined)
    {eph own : Bytes → Bytes → Prop} {n : Nat} (hm : ∀ x, m s = (x, s') → x.Defined → Agr eph own n s s') :
    Agr eph own n s s' := by
  obtain ⟨x, h1, h2, _⟩ := mapErr_defined h hd
  exact hm x h1 h2

/-- the ephemeral key, by the Initiator -/
def EphPrk (ro : Role) (c : Ctx) (pk : Bytes) (a b : Bytes) : Prop := c.role = ro ∧ a = c.dhPriv ∧ b = pk

/-- the static key -/
def OwnPrk (ro : Role) (c : Ctx) (kid : Bytes) (a b : Bytes) : Prop := c.role = ro ∧ a = kid ∧ b = c.dhPeerPub

theorem compGrx_agr {kid pk : Bytes} {r : Res Bytes} (h : compGrx E kid pk s = (r, s')) (hd : r.Defined) :
    Agr (EphPrk .initiator s.ctx pk) (OwnPrk .responder s.ctx kid) 1 s s' := by
  unfold compGrx at h
  refine Agr.next h hd fun c s1 h1 h => ?_
  obtain ⟨rfl, rfl⟩ := getCtx_ok.1 h1
  refine Agr.next h hd fun c s1 h1 h => ?_
  obtain ⟨_, rfl⟩ := require_ok.1 h1
  cases hr : s.ctx.role <;> simp only [hr] at h
  · have := (agreeEphemeral_agr h hd (own := OwnPrk .responder s.ctx kid)).mono
      (eph' := EphPrk .initiator s.ctx pk) (fun a b h => ⟨hr, h⟩) fun _ _ h => h
    exact this.trans (k := 1) (.same rfl)
  · exact (agreeStatic_agr h hd).mono (fun _ _ h => h) (fun a b h => ⟨hr, h⟩)

theorem compGiy_agr {kid pk : Bytes} {r : Res Bytes} (h : compGiy E kid pk s = (r, s')) (hd : r.Defined) :
    Agr (EphPrk .responder s.ctx pk) (OwnPrk .initiator s.ctx kid) 1 s s' := by
  unfold compGiy at h
  refine Agr.next h hd fun c s1 h1 h => ?_
  obtain ⟨rfl, rfl⟩ := getCtx_ok.1 h1
  refine Agr.next h hd fun c s1 h1 h => ?_
  obtain ⟨_, rfl⟩ := require_ok.1 h1
  cases hr : s.ctx.role <;> simp only [hr] at h
  · exact (agreeStatic_agr h hd).mono (fun _ _ h => h) (fun a b h => ⟨hr, h⟩)
  · have := (agreeEphemeral_agr h hd (own := OwnPrk .initiator s.ctx kid)).mono
      (eph' := EphPrk .responder s.ctx pk) (fun a b h => ⟨hr, h⟩) fun _ _ h => h
    exact this.trans (k := 1) (.same rfl)

theorem compPrk3e2m_agr {kid pk : Bytes} {r : Res Unit} (h : compPrk3e2m E cfg kid pk s = (r, s')) (hd : r.Defined) :
    Agr (fun a b => responderSigns s.ctx.chosenMethod = false ∧ EphPrk .initiator s.ctx pk a b)
      (fun a b => responderSigns s.ctx.chosenMethod = false ∧ OwnPrk .responder s.ctx kid a b) 1 s s' := by
  unfold compPrk3e2m at h
  refine Agr.next h hd fun c s1 h1 h => ?_
  obtain ⟨rfl, rfl⟩ := getCtx_ok.1 h1
  refine Agr.next h hd fun c s1 h1 h => ?_
  obtain ⟨_, rfl⟩ := require_ok.1 h1
  split at h
  · exact Agr.plain h hd
  split at h
  rotate_left
  · exact Agr.plain h hd
  rename_i hm
  have hsg : responderSigns s.ctx.chosenMethod = false := by rcases hm with hm | hm <;> rw [hm] <;> rfl
  refine Agr.next h hd fun _ s1 h1 h => ?_
  obtain ⟨c1, -⟩ := memAlloc_ok h1
  refine Agr.next h hd fun salt s2 h2 h => ?_
  obtain ⟨-, -, c2, -⟩ := compSalt3e2m_ok (mapErr_ok.1 h2)
  refine Agr.next h hd fun _ s3 h3 h => ?_
  obtain ⟨c3, -⟩ := memAlloc_ok h3
  refine Agr.seq (n := 1) (k := 0) h hd (fun x s4 h4 hd => ?_) fun a s1 _ h => Agr.plain h hd
  refine mapErr_agr h4 hd fun x h4 hd => ?_
  have := compGrx_agr h4 hd
  rw [c3, c2, c1] at this
  exact this.mono (fun a b h => ⟨hsg, h⟩) fun a b h => ⟨hsg, h⟩

theorem compPrk4e3m_agr {kid pk : Bytes} {r : Res Unit} (h : compPrk4e3m E cfg kid pk s = (r, s')) (hd : r.Defined) :
    Agr (fun a b => initiatorSigns s.ctx.chosenMethod = false ∧ EphPrk .responder s.ctx pk a b)
      (fun a b => initiatorSigns s.ctx.chosenMethod = false ∧ OwnPrk .initiator s.ctx kid a b) 1 s s' := by
  unfold compPrk4e3m at h
  refine Agr.next h hd fun c s1 h1 h => ?_
  obtain ⟨rfl, rfl⟩ := getCtx_ok.1 h1
  refine Agr.next h hd fun c s1 h1 h => ?_
  obtain ⟨_, rfl⟩ := require_ok.1 h1
  split at h
  · exact Agr.plain h hd
  split at h
  rotate_left
  · exact Agr.plain h hd
  rename_i hm
  have hsg : initiatorSigns s.ctx.chosenMethod = false := by rcases hm with hm | hm <;> rw [hm] <;> rfl
  refine Agr.next h hd fun _ s1 h1 h => ?_
  obtain ⟨c1, -⟩ := memAlloc_ok h1
  refine Agr.next h hd fun salt s2 h2 h => ?_
  obtain ⟨-, -, c2, -⟩ := compSalt4e3m_ok (mapErr_ok.1 h2)
  refine Agr.next h hd fun _ s3 h3 h => ?_
  obtain ⟨c3, -⟩ := memAlloc_ok h3
  refine Agr.seq (n := 1) (k := 0) h hd (fun x s4 h4 hd => ?_) fun a s1 _ h => Agr.plain h hd
  refine mapErr_agr h4 hd fun x h4 hd => ?_
  have := compGiy_agr h4 hd
  rw [c3, c2, c1] at this
  exact this.mono (fun a b h => ⟨hsg, h⟩) fun a b h => ⟨hsg, h⟩

/-! ## The four calls -/

theorem enter_agr {ok : Ctx → Bool} {m : Msg} {ro : Role} {b : Bool} {e : Err} {f : Unit → M σ β} {r : Res β}
    (h : (require b e >>= fun _ => enter ok m ro >>= f) s = (r, s')) (hd : r.Defined) {eph own : Bytes → Bytes → Prop}
    {n : Nat} (hf : ∀ s1, ok s.ctx = true → s1.ctx = { s.ctx with
        status := .aborted, errorCode := .unspecified, message := m, role := ro } → Grow s s1 → f () s1 = (r, s') →
      Agr eph own n s1 s') : Agr eph own n s s' := by
  refine Agr.next h hd fun _ s1 h1 h => ?_
  obtain ⟨_, rfl⟩ := require_ok.1 h1
  refine Agr.next h hd fun _ s1 h1 h => ?_
  obtain ⟨e1, c1, l1⟩ := enter_st h1
  exact hf s1 e1 c1 (grow_of_log l1) h

theorem grow_mem {v : Ev} {s1 s2 : St σ} (h1 : Grow s s1) (h2 : Saw [v] s1 s2) (h3 : Grow s2 s') :
    v ∈ during s s' := (Saw.right h1 (h2.left h3)).mem

theorem message2Compose_agr {size : Nat} {r : Res Bytes} (h : message2Compose E cfg size s = (r, s')) (hd : r.Defined) :
    Agr (fun a b => okReceivedM1 s.ctx = true ∧ b = s.ctx.dhPeerPub ∧ ∃ pub, KeyPairCall (during s s') a pub)
      (fun a b => okReceivedM1 s.ctx = true ∧ b = s.ctx.dhPeerPub ∧ responderSigns s.ctx.chosenMethod = false ∧
        ∃ cr, CredSupplied (during s s') cr a) 1 s s' := by
  unfold message2Compose at h
  refine enter_agr h hd fun s1 e1 c1 g1 h => ?_
  refine Agr.next h hd fun _ s2 h2 h => ?_
  obtain ⟨y, gy, kid, c2, -, -, w2⟩ := genDhKeys_ok (mapErr_ok.1 h2)
  have key : Agr (fun a b => a = y ∧ b = s.ctx.dhPeerPub)
      (fun a b => okReceivedM1 s.ctx = true ∧ b = s.ctx.dhPeerPub ∧ responderSigns s.ctx.chosenMethod = false ∧
        ∃ cr, CredSupplied (during s s') cr a) (0 + 1) s2 s' := by
    refine Agr.seq h hd (fun x s3 h3 hd => mapErr_agr h3 hd fun x h3 hd => ?_) fun _ s3 h3 h => ?_
    · refine (compDhSecret_agr h3 hd).mono (fun a b h => ?_) fun _ _ h => h
      rw [c2, c1] at h; exact h
    obtain ⟨_, _, c3, _, w3⟩ := compDhSecret_ok (mapErr_ok.1 h3)
    refine Agr.next h hd fun _ s4 h4 h => ?_
    obtain ⟨_, _, c4, _, _, _, _, w4⟩ := compTh2_ok (mapErr_ok.1 h4)
    refine Agr.next h hd fun _ s5 h5 h => ?_
    obtain ⟨_, _, _, _, c5, _, w5⟩ := compPrk2e_ok (mapErr_ok.1 h5)
    refine Agr.next h hd fun _ _ hc h => ?_
    obtain ⟨rfl, rfl⟩ := getCtx_ok.1 hc
    refine Agr.next h hd fun _ s6 h6 h => ?_
    obtain ⟨c6, g6⟩ := memAlloc_ok h6
    refine Agr.next h hd fun f' s7 h7 h => ?_
    refine Agr.next h hd fun f s8 h8 h => ?_
    obtain ⟨c8, l8⟩ := fetch_ok h7 h8
    have key : Agr (fun a b => a = y ∧ b = s.ctx.dhPeerPub)
        (fun a b => a = f.2 ∧ b = s.ctx.dhPeerPub ∧ responderSigns s.ctx.chosenMethod = false) (1 + 0) s8 s' := by
      refine Agr.next h hd fun _ s9 h9 h => ?_
      obtain ⟨ts, c9, -⟩ := eadCompose_ok h9
      refine Agr.seq h hd (fun x s10 h10 hd => mapErr_agr h10 hd fun x h10 hd => ?_) fun _ s10 _ h => Agr.plain (h := by plain!) h hd
      have h11 := compPrk3e2m_agr h10 hd
      rw [c9, c8, c6, c5, c4, c3, c2, c1] at h11
      refine h11.mono (fun a b h => ?_) fun a b h => ?_
      · cases h.2.1
      · exact ⟨h.2.2.1, h.2.2.2, h.1⟩
    refine key.mono (fun _ _ h => h) fun a b h => ⟨e1, h.2.1, h.2.2, f.1, ?_⟩
    rw [h.1]
    exact grow_mem (s := s) (g1.trans (w2.grow.trans (w3.grow.trans (w4.grow.trans (w5.grow.trans g6))))) (saw_ext l8) key.grow
  refine key.mono (fun a b h => ⟨e1, h.2, gy, ?_⟩) fun _ _ h => h
  rw [h.1]
  exact ⟨kid, List.IsInfix.trans ⟨[.importKey .makeKeyPair [] (some kid)], [], rfl⟩ (Saw.right g1 (w2.left key.grow)).made⟩

theorem message2Process_agr {msg : Bytes} {r : Res Unit} (h : message2Process E cfg msg s = (r, s')) (hd : r.Defined) :
    Agr (fun a b => okWaitM2 s.ctx = true ∧ a = s.ctx.dhPriv ∧ (GyOf s.ctx.suite msg b ∨
        responderSigns s.ctx.chosenMethod = false ∧ PeerKey (during s s') b)) (fun _ _ => False) 0 s s' := by
  unfold message2Process at h
  refine enter_agr h hd fun s1 e1 c1 g1 h => ?_
  refine Agr.next h hd fun ctxt s2 h2 h => ?_
  obtain ⟨b, hb, hbl, -, g2, c2⟩ := parseMsg2_ok h2
  have hsu : s1.ctx.suite = s.ctx.suite := by rw [c1]; rfl
  rw [hsu] at hbl
  have hgy : GyOf s.ctx.suite msg (b.take s.ctx.suite.eccKey) :=
    ⟨b.drop s.ctx.suite.eccKey, by rw [List.take_append_drop]; exact getMsgBstr_sound hb, by
      rw [List.length_take]; omega⟩
  refine Agr.seq (n := 0) (k := 0) h hd (fun x s3 h3 hd => mapErr_agr h3 hd fun x h3 hd => ?_) fun _ s3 h3 h => ?_
  · refine (compDhSecret_agr h3 hd).mono (fun a b' h => ?_) fun _ _ h => h
    rw [c2, c1] at h
    exact ⟨e1, h.1, .inl (by rw [h.2]; exact hgy)⟩
  obtain ⟨_, _, c3, _, w3⟩ := compDhSecret_ok (mapErr_ok.1 h3)
  refine Agr.next h hd fun _ s4 h4 h => ?_
  obtain ⟨_, _, c4, _, _, _, _, w4⟩ := compTh2_ok (mapErr_ok.1 h4)
  refine Agr.next h hd fun _ s5 h5 h => ?_
  obtain ⟨_, _, _, _, c5, _, w5⟩ := compPrk2e_ok (mapErr_ok.1 h5)
  refine Agr.next h hd fun _ s6 h6 h => ?_
  obtain ⟨c6, g6⟩ := memAlloc_ok h6
  refine Agr.next h hd fun _ _ hc h => ?_
  obtain ⟨rfl, rfl⟩ := getCtx_ok.1 hc
  refine Agr.next h hd fun ks s7 h7 h => ?_
  obtain ⟨_, _, c7, _, _, w7⟩ := compKeystream_ok (mapErr_ok.1 h7)
  refine Agr.next h hd fun p s8 h8 h => ?_
  obtain ⟨_, _, _, _, _, c8, _, l8⟩ := parsePtxt2_st (mapErr_ok.1 h8)
  refine Agr.next h hd fun _ s9 h9 h => ?_
  obtain ⟨c9, -⟩ := eadProcess_ok h9
  have g9 := eadProcess_grow h9
  refine Agr.next h hd fun v s10 h10 h => ?_
  obtain ⟨c10, l10⟩ := verifyCred_ok h10
  have key : Agr (fun a b => a = s.ctx.dhPriv ∧ responderSigns s.ctx.chosenMethod = false ∧ b = v.2.getD [])
      (fun _ _ => False) (0 + 0) s10 s' := by
    refine Agr.seq h hd (fun x s11 h11 hd => mapErr_agr h11 hd fun x h11 hd => ?_) fun _ s11 _ h => Agr.plain (h := by plain!) h hd
    have h12 := compPrk3e2m_agr h11 hd
    rw [c10, c9, c8, c7, c6, c5, c4, c3, c2, c1] at h12
    refine Agr.none (h12.mono (fun a b h => ⟨h.2.2.1, h.1, h.2.2.2⟩) fun _ _ h => h) fun a b h => ?_
    cases h.2.1
  refine key.mono (fun a b h => ⟨e1, h.1, .inr ⟨h.2.1, p.1, v.1, v.2, ?_, h.2.2⟩⟩) fun _ _ h => h
  exact grow_mem (s := s) (g1.trans (g2.trans (w3.grow.trans (w4.grow.trans (w5.grow.trans (g6.trans (w7.grow.trans
    ((grow_of_log l8).trans g9)))))))) (saw_ext l10) key.grow

theorem message3Compose_agr {size : Nat} {r : Res Bytes} (h : message3Compose E cfg size s = (r, s')) (hd : r.Defined) :
    Agr (fun _ _ => False)
      (fun a b => okVerifiedM2 s.ctx = true ∧ b = s.ctx.dhPeerPub ∧ initiatorSigns s.ctx.chosenMethod = false ∧
        ∃ cr, CredSupplied (during s s') cr a) 1 s s' := by
  unfold message3Compose at h
  refine enter_agr h hd fun s1 e1 c1 g1 h => ?_
  refine Agr.next h hd fun _ s2 h2 h => ?_
  obtain ⟨ts, c2, -⟩ := eadCompose_ok h2
  have g2 := eadCompose_grow h2
  refine Agr.next h hd fun f' s3 h3 h => ?_
  refine Agr.next h hd fun f s4 h4 h => ?_
  obtain ⟨c4, l4⟩ := fetch_ok h3 h4
  have key : Agr (fun _ _ => False)
      (fun a b => a = f.2 ∧ b = s.ctx.dhPeerPub ∧ initiatorSigns s.ctx.chosenMethod = false) (1 + 0) s4 s' := by
    refine Agr.next h hd fun kia s5 h5 h => ?_
    obtain ⟨c5, -, -⟩ := keyIvAad3_ok h5
    refine Agr.seq h hd (fun x s6 h6 hd => mapErr_agr h6 hd fun x h6 hd => ?_) fun _ s6 _ h => Agr.plain (h := by plain!) h hd
    have h7 := compPrk4e3m_agr h6 hd
    rw [c5, c4, c2, c1] at h7
    refine h7.mono (fun a b h => ?_) fun a b h => ⟨h.2.2.1, h.2.2.2, h.1⟩
    cases h.2.1
  refine key.mono (fun _ _ h => h) fun a b h => ⟨e1, h.2.1, h.2.2, f.1, ?_⟩
  rw [h.1]
  exact grow_mem (s := s) (g1.trans g2) (saw_ext l4) key.grow

theorem message3Process_agr {msg : Bytes} {r : Res Unit} (h : message3Process E cfg msg s = (r, s')) (hd : r.Defined) :
    Agr (fun a b => okWaitM3 s.ctx = true ∧ a = s.ctx.dhPriv ∧ initiatorSigns s.ctx.chosenMethod = false ∧
        PeerKey (during s s') b) (fun _ _ => False) 0 s s' := by
  unfold message3Process at h
  refine enter_agr h hd fun s1 e1 c1 g1 h => ?_
  refine Agr.next h hd fun ctxt s2 h2 h => ?_
  obtain ⟨-, rfl⟩ := ofOption_ok.1 h2
  refine Agr.next h hd fun kia s3 h3 h => ?_
  obtain ⟨c3, g3, -⟩ := keyIvAad3_ok h3
  refine Agr.next h hd fun _ _ hc h => ?_
  obtain ⟨rfl, rfl⟩ := getCtx_ok.1 hc
  refine Agr.next h hd fun _ s4 h4 h => ?_
  obtain ⟨c4, g4⟩ := memAlloc_ok h4
  refine Agr.next h hd fun ptxt s5 h5 h => ?_
  have h5' := mapErr_ok.1 h5
  simp only [bind_ok, require_ok] at h5'
  obtain ⟨_, _, ⟨-, rfl⟩, h5'⟩ := h5'
  obtain ⟨c5, -, _, w5⟩ := aeadDecrypt_ok h5'
  refine Agr.next h hd fun p s6 h6 h => ?_
  obtain ⟨_, _, _, _, c6, l6⟩ := parsePtxt3_st (mapErr_ok.1 h6)
  refine Agr.next h hd fun _ s7 h7 h => ?_
  obtain ⟨c7, -⟩ := eadProcess_ok h7
  have g7 := eadProcess_grow h7
  refine Agr.next h hd fun v s8 h8 h => ?_
  obtain ⟨c8, l8⟩ := verifyCred_ok h8
  have key : Agr (fun a b => a = s.ctx.dhPriv ∧ initiatorSigns s.ctx.chosenMethod = false ∧ b = v.2.getD [])
      (fun _ _ => False) (0 + 0) s8 s' := by
    refine Agr.seq h hd (fun x s9 h9 hd => mapErr_agr h9 hd fun x h9 hd => ?_) fun _ s9 _ h => Agr.plain (h := by plain!) h hd
    have h10 := compPrk4e3m_agr h9 hd
    rw [c8, c7, c6, c5, c4, c3, c1] at h10
    refine Agr.none (h10.mono (fun a b h => ⟨h.2.2.1, h.1, h.2.2.2⟩) fun _ _ h => h) fun a b h => ?_
    cases h.2.1
  refine key.mono (fun a b h => ⟨e1, h.1, h.2.1, p.1, v.1, v.2, ?_, h.2.2⟩) fun _ _ h => h
  exact grow_mem (s := s) (g1.trans (g3.trans (g4.trans (w5.grow.trans ((grow_of_log l6).trans g7))))) (saw_ext l8) key.grow

end dh

end Verif
