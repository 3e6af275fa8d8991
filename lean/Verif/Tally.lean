import Verif.Logs
import Verif.SpecWork

/-!
# How much work a program makes

`Tally m c`: whatever the state, `m` makes calls to the application that add up to `c` at most, however it ends.
-/

namespace Verif

open M Spec

variable {σ α β : Type}

namespace Spec.Work

theorem le_refl (a : Work) : a ≤ a := ⟨Nat.le_refl _, Nat.le_refl _, Nat.le_refl _, Nat.le_refl _, Nat.le_refl _⟩

theorem le_trans {a b c : Work} (h1 : a ≤ b) (h2 : b ≤ c) : a ≤ c :=
  ⟨Nat.le_trans h1.1 h2.1, Nat.le_trans h1.2.1 h2.2.1, Nat.le_trans h1.2.2.1 h2.2.2.1,
    Nat.le_trans h1.2.2.2.1 h2.2.2.2.1, Nat.le_trans h1.2.2.2.2 h2.2.2.2.2⟩

theorem add_le {a b c d : Work} (h1 : a ≤ b) (h2 : c ≤ d) : a + c ≤ b + d :=
  ⟨Nat.add_le_add h1.1 h2.1, Nat.add_le_add h1.2.1 h2.2.1, Nat.add_le_add h1.2.2.1 h2.2.2.1,
    Nat.add_le_add h1.2.2.2.1 h2.2.2.2.1, Nat.add_le_add h1.2.2.2.2 h2.2.2.2.2⟩

theorem zero_le (a : Work) : 0 ≤ a := ⟨Nat.zero_le _, Nat.zero_le _, Nat.zero_le _, Nat.zero_le _, Nat.zero_le _⟩

theorem ext' {a b : Work} (h1 : a.publicKey = b.publicKey) (h2 : a.symmetric = b.symmetric) (h3 : a.keys = b.keys)
    (h4 : a.application = b.application) (h5 : a.memory = b.memory) : a = b := by
  cases a; cases b; simp only at *; subst h1 h2 h3 h4 h5; rfl

theorem add_assoc (a b c : Work) : a + b + c = a + (b + c) :=
  ext' (Nat.add_assoc _ _ _) (Nat.add_assoc _ _ _) (Nat.add_assoc _ _ _) (Nat.add_assoc _ _ _) (Nat.add_assoc _ _ _)

theorem zero_add (a : Work) : 0 + a = a :=
  ext' (Nat.zero_add _) (Nat.zero_add _) (Nat.zero_add _) (Nat.zero_add _) (Nat.zero_add _)

theorem add_zero (a : Work) : a + 0 = a := rfl

/-- the larger one of each number -/
def sup (a b : Work) : Work := ⟨max a.publicKey b.publicKey, max a.symmetric b.symmetric, max a.keys b.keys,
  max a.application b.application, max a.memory b.memory⟩

theorem le_sup_left (a b : Work) : a ≤ sup a b :=
  ⟨Nat.le_max_left _ _, Nat.le_max_left _ _, Nat.le_max_left _ _, Nat.le_max_left _ _, Nat.le_max_left _ _⟩

theorem le_sup_right (a b : Work) : b ≤ sup a b :=
  ⟨Nat.le_max_right _ _, Nat.le_max_right _ _, Nat.le_max_right _ _, Nat.le_max_right _ _, Nat.le_max_right _ _⟩

theorem le_add_right (a b : Work) : a ≤ a + b :=
  ⟨Nat.le_add_right _ _, Nat.le_add_right _ _, Nat.le_add_right _ _, Nat.le_add_right _ _, Nat.le_add_right _ _⟩

end Spec.Work

theorem work_append (a b : List Ev) : work (a ++ b) = work a + work b := by
  induction a with
  | nil => exact (Work.zero_add _).symm
  | cons v a ih => simp only [List.cons_append, work, ih, Work.add_assoc]

/-- see above -/
def Tally (m : M σ α) (c : Work) : Prop := ∀ s, ∃ es, (m s).2.log = s.log ++ es ∧ work es ≤ c

namespace Tally

theorem mono {m : M σ α} {c d : Work} (h : Tally m c) (hl : c ≤ d) : Tally m d := by
  intro s
  obtain ⟨es, h1, h2⟩ := h s
  exact ⟨es, h1, Work.le_trans h2 hl⟩

theorem bind {m : M σ α} {f : α → M σ β} {c d : Work} (h1 : Tally m c) (h2 : ∀ a, Tally (f a) d) :
    Tally (m >>= f) (c + d) := by
  intro s
  obtain ⟨es, l1, w1⟩ := h1 s
  rcases hm : m s with ⟨r, s1⟩
  rw [hm] at l1
  have hb : (m >>= f) s = match m s with
    | (.ok a, s1) => f a s1
    | (.err e, s1) => (.err e, s1)
    | (.ub u, s1) => (.ub u, s1) := rfl
  rw [hb, hm]
  cases r with
  | ok a =>
    obtain ⟨es2, l2, w2⟩ := h2 a s1
    refine ⟨es ++ es2, by rw [l2, l1, List.append_assoc], ?_⟩
    rw [work_append]
    exact Work.add_le w1 w2
  | err e => exact ⟨es, l1, Work.le_trans w1 (Work.le_add_right _ _)⟩
  | ub u => exact ⟨es, l1, Work.le_trans w1 (Work.le_add_right _ _)⟩

/-- a first step that costs nothing -/
theorem skip {m : M σ α} {f : α → M σ β} {c : Work} (h1 : Tally m 0) (h2 : ∀ a, Tally (f a) c) : Tally (m >>= f) c :=
  (h1.bind h2).mono (by rw [Work.zero_add]; exact Work.le_refl _)

/-- a step that leaves the log alone -/
theorem quiet {m : M σ α} (h : ∀ s, (m s).2.log = s.log) : Tally m 0 :=
  fun s => ⟨[], by rw [h s, List.append_nil], Work.le_refl _⟩

theorem pure (a : α) : Tally (Pure.pure a : M σ α) 0 := quiet fun _ => rfl
theorem fail (e : Err) : Tally (M.fail e : M σ α) 0 := quiet fun _ => rfl
theorem require (b : Bool) (e : Err) : Tally (M.require b e : M σ Unit) 0 :=
  quiet fun _ => by unfold M.require; split <;> rfl
theorem guardUB (b : Bool) (u : UB) : Tally (M.guardUB b u : M σ Unit) 0 :=
  quiet fun _ => by unfold M.guardUB; split <;> rfl
theorem ofOption (e : Err) (o : Option α) : Tally (M.ofOption e o : M σ α) 0 :=
  quiet fun _ => by unfold M.ofOption; split <;> rfl
theorem ofRes (r : Res α) : Tally (M.ofRes r : M σ α) 0 := quiet fun _ => rfl
theorem getCtx : Tally (M.getCtx : M σ Ctx) 0 := quiet fun _ => rfl
theorem modCtx (f : Ctx → Ctx) : Tally (M.modCtx f : M σ Unit) 0 := quiet fun _ => rfl

theorem call {f : σ → β × σ} {ev : β → Ev} {c : Work} (h : ∀ b, workOf (ev b) = c) : Tally (M.call f ev) c :=
  fun _ => ⟨_, rfl, by unfold work work; rw [h]; exact Work.le_refl _⟩

theorem mapErr {m : M σ α} {c : Work} (e : Err) (h : Tally m c) : Tally (M.mapErr e m) c := by
  intro s
  have h1 := h s
  unfold M.mapErr
  rcases hm : m s with ⟨r, s'⟩
  rw [hm] at h1
  cases r <;> exact h1

theorem whenM {m : M σ Unit} {c : Work} (b : Bool) (h : Tally m c) : Tally (M.whenM b m) c := by
  unfold M.whenM
  split
  · exact h
  · exact (Tally.pure ()).mono (Work.zero_le _)

theorem ite {p : Prop} [Decidable p] {m n : M σ α} {c d : Work} (h1 : Tally m c) (h2 : Tally n d) :
    Tally (if p then m else n) (Work.sup c d) := by
  split
  · exact h1.mono (Work.le_sup_left _ _)
  · exact h2.mono (Work.le_sup_right _ _)

theorem needKeys : Tally (Verif.needKeys : M σ Unit) 0 := getCtx.bind fun _ => guardUB _ _
theorem needCrypto : Tally (Verif.needCrypto : M σ Unit) 0 := getCtx.bind fun _ => guardUB _ _
theorem needCred : Tally (Verif.needCred : M σ Unit) 0 := getCtx.bind fun _ => guardUB _ _

theorem memAlloc (E : Env σ) (cfg : Config) (n : Nat) : Tally (Verif.memAlloc E cfg n) ⟨0, 0, 0, 0, 1⟩ := by
  unfold Verif.memAlloc
  split
  · exact ((guardUB _ _).bind fun _ => guardUB _ _).mono (Work.zero_le _)
  · exact (Tally.call (c := ⟨0, 0, 0, 0, 1⟩) fun _ => rfl).bind fun _ => Tally.require _ _

theorem one {m : M σ Unit} {f : σ → β × σ} {ev : β → Ev} {c : Work} (hm : Tally m 0) (h : ∀ b, workOf (ev b) = c) :
    Tally (m >>= fun _ => M.call f ev) c := (hm.bind fun _ => Tally.call h).mono (by rw [Work.zero_add]; exact Work.le_refl _)

theorem importKey (E : Env σ) (t : KeyType) (b : Bytes) : Tally (Verif.importKey E t b) ⟨0, 0, 1, 0, 0⟩ :=
  one needKeys fun _ => rfl
theorem destroyKey (E : Env σ) (k : Bytes) : Tally (Verif.destroyKey E k) ⟨0, 0, 1, 0, 0⟩ :=
  one needKeys fun _ => rfl
theorem makeKeyPair (E : Env σ) (a : Bytes) : Tally (Verif.makeKeyPair E a) ⟨1, 0, 0, 0, 0⟩ :=
  one needCrypto fun _ => rfl
theorem keyAgreement (E : Env σ) (a b : Bytes) : Tally (Verif.keyAgreement E a b) ⟨1, 0, 0, 0, 0⟩ :=
  one needCrypto fun _ => rfl
theorem sign (E : Env σ) (a b : Bytes) : Tally (Verif.sign E a b) ⟨1, 0, 0, 0, 0⟩ :=
  one needCrypto fun _ => rfl
theorem verify (E : Env σ) (a b c : Bytes) : Tally (Verif.verify E a b c) ⟨1, 0, 0, 0, 0⟩ :=
  one needCrypto fun _ => rfl
theorem extract (E : Env σ) (a b : Bytes) : Tally (Verif.extract E a b) ⟨0, 1, 0, 0, 0⟩ :=
  one needCrypto fun _ => rfl
theorem expand (E : Env σ) (a b : Bytes) (n : Nat) : Tally (Verif.expand E a b n) ⟨0, 1, 0, 0, 0⟩ :=
  one needCrypto fun _ => rfl
theorem hash (E : Env σ) (a : Bytes) : Tally (Verif.hash E a) ⟨0, 1, 0, 0, 0⟩ :=
  one needCrypto fun _ => rfl
theorem encrypt (E : Env σ) (a b c d : Bytes) : Tally (Verif.encrypt E a b c d) ⟨0, 1, 0, 0, 0⟩ :=
  one needCrypto fun _ => rfl
theorem decrypt (E : Env σ) (a b c d : Bytes) : Tally (Verif.decrypt E a b c d) ⟨0, 1, 0, 0, 0⟩ :=
  one needCrypto fun _ => rfl
theorem credFetch (E : Env σ) : Tally (Verif.credFetch E) ⟨0, 0, 0, 1, 0⟩ :=
  one needCred fun _ => rfl
theorem credVerify (E : Env σ) (c : Cred) : Tally (Verif.credVerify E c) ⟨0, 0, 0, 1, 0⟩ :=
  one needCred fun _ => rfl

theorem withKey (E : Env σ) (t : KeyType) (raw : Bytes) (e : Err) {op : Bytes → M σ α} {c : Work}
    (h : ∀ k, Tally (op k) c) : Tally (Verif.withKey E t raw e op) (⟨0, 0, 2, 0, 0⟩ + c) := by
  unfold Verif.withKey
  refine ((importKey E t raw).bind fun k => (ofOption e k).bind fun kid => (h kid).bind fun r =>
    (destroyKey E kid).bind fun _ => pure r).mono ?_
  have e1 : ∀ a : Work, (⟨0, 0, 1, 0, 0⟩ + (0 + (a + (⟨0, 0, 1, 0, 0⟩ + 0))) : Work) = ⟨0, 0, 2, 0, 0⟩ + a := by
    rintro ⟨a, b, c, d, e⟩
    show (⟨0 + (0 + (a + (0 + 0))), 0 + (0 + (b + (0 + 0))), 1 + (0 + (c + (1 + 0))), 0 + (0 + (d + (0 + 0))),
      0 + (0 + (e + (0 + 0)))⟩ : Work) = ⟨0 + a, 0 + b, 2 + c, 0 + d, 0 + e⟩
    simp only [Nat.zero_add, Nat.add_zero, Work.mk.injEq, true_and, and_true]
    omega
  rw [e1]
  exact Work.le_refl _

end Tally

set_option hygiene false in
/-- one step of adding up the costs -/
macro "tally1" : tactic => `(tactic|
  (first
  | with_reducible exact Tally.pure _
  | with_reducible exact Tally.fail _
  | with_reducible exact Tally.require _ _
  | with_reducible exact Tally.guardUB _ _
  | with_reducible exact Tally.ofOption _ _
  | with_reducible exact Tally.ofRes _
  | with_reducible exact Tally.getCtx
  | with_reducible exact Tally.modCtx _
  | with_reducible exact Tally.needKeys
  | with_reducible exact Tally.needCrypto
  | with_reducible exact Tally.needCred
  | with_reducible exact Tally.memAlloc _ _ _
  | with_reducible exact Tally.importKey _ _ _
  | with_reducible exact Tally.destroyKey _ _
  | with_reducible exact Tally.makeKeyPair _ _
  | with_reducible exact Tally.keyAgreement _ _ _
  | with_reducible exact Tally.sign _ _ _
  | with_reducible exact Tally.verify _ _ _ _
  | with_reducible exact Tally.extract _ _ _
  | with_reducible exact Tally.expand _ _ _ _
  | with_reducible exact Tally.hash _ _
  | with_reducible exact Tally.encrypt _ _ _ _ _
  | with_reducible exact Tally.decrypt _ _ _ _ _
  | with_reducible exact Tally.credFetch _
  | with_reducible exact Tally.credVerify _ _
  | with_reducible exact Tally.kdfExact _ _ _ _ _ _
  | with_reducible exact Tally.expandInfo _ _ _ _ _ _ _
  | with_reducible exact Tally.hashTh _ _ _
  | with_reducible exact Tally.genDhKeys _ _
  | with_reducible exact Tally.compDhSecret _ _
  | with_reducible exact Tally.extractPrk _ _ _ _
  | with_reducible exact Tally.agreeEphemeral _ _
  | with_reducible exact Tally.agreeStatic _ _
  | with_reducible exact Tally.prepareMsg2 _ _ _ _
  | with_reducible exact Tally.buildMacCtx _ _ _ _
  | with_reducible exact Tally.handOver _ _
  | with_reducible exact Tally.storeEad _ _ _
  | with_reducible exact Tally.parseMsg2 _ _ _
  | with_reducible exact Tally.compTh3 _ _ _ _
  | with_reducible exact Tally.genMsg3 _ _
  | with_reducible exact Tally.genMsg4 _ _
  | with_reducible exact Tally.parsePtxt4 _ _
  | with_reducible exact Tally.storePeerCid _ _ _
  | with_reducible exact Tally.compTh2 _ _
  | with_reducible exact Tally.compTh4 _ _ _ _
  | with_reducible exact Tally.compPrk2e _ _
  | with_reducible exact Tally.compGrx _ _ _
  | with_reducible exact Tally.compGiy _ _ _
  | with_reducible exact Tally.parsePtxt2 _ _
  | with_reducible exact Tally.parsePtxt3 _ _
  | with_reducible exact Tally.verifyCred _ _
  | with_reducible exact Tally.aeadEncrypt _ _ _ _ _ _
  | with_reducible exact Tally.aeadDecrypt _ _ _ _ _ _
  | with_reducible exact Tally.signCose _ _ _ _ _ _
  | with_reducible exact Tally.verifyCose _ _ _ _ _ _
  | with_reducible exact Tally.eadCompose _ _
  | with_reducible exact Tally.eadProcess _ _
  | with_reducible exact Tally.processEad1 _ _ _ _
  | with_reducible exact Tally.compSalt3e2m _ _
  | with_reducible exact Tally.compSalt4e3m _ _
  | with_reducible exact Tally.compKeystream _ _ _ _
  | with_reducible exact Tally.compPrk3e2m _ _ _ _
  | with_reducible exact Tally.compPrk4e3m _ _ _ _
  | with_reducible exact Tally.keyIvAad _ _ _ _
  | with_reducible exact Tally.keyIvAad3 _ _
  | with_reducible exact Tally.keyIvAad4 _ _
  | with_reducible exact Tally.compMac _ _ _ _
  | with_reducible exact Tally.compSignOrMac _ _ _ _ _ _
  | with_reducible exact Tally.verifySignOrMac _ _ _ _ _ _
  | with_reducible exact Tally.compPrkOut _ _
  | with_reducible exact Tally.compNewPrkOut _ _ _
  | with_reducible exact Tally.compPrkExporter _ _
  | with_reducible exact Tally.ensurePrkOut _ _
  | with_reducible exact Tally.exportSecret _ _ _ _
  | with_reducible exact Tally.keyUpdate _ _ _
  | with_reducible exact Tally.exportOscore _ _ _ _ _ _
  | with_reducible exact Tally.chooseSuite
  | with_reducible exact Tally.checkSuites _ _
  | with_reducible exact Tally.enter _ _ _
  | with_reducible exact Tally.call (c := ⟨0, 0, 0, 1, 0⟩) (fun _ => rfl)
  | with_reducible apply Tally.mapErr
  | with_reducible apply Tally.withKey
  | with_reducible apply Tally.whenM
  | with_reducible apply Tally.ite
  | with_reducible apply Tally.bind
  | with_reducible intro _))

/-- adds up the costs -/
macro "tally" : tactic => `(tactic| repeat' tally1)

/-- adds up the costs and compares with the claim -/
macro "tallied" : tactic => `(tactic| (apply Tally.mono; (focus tally); decide))

namespace Tally

theorem kdfExact (E : Env σ) (cfg : Config) (prk : Bytes) (l : Nat) (c : Bytes) (n : Nat) :
    Tally (Verif.kdfExact E cfg prk l c n : M σ _) ⟨0, 1, 2, 0, 1⟩ := by
  unfold Verif.kdfExact
  tallied

theorem expandInfo (E : Env σ) (n : Nat) (prk : Bytes) (l : Nat) (c : Bytes) (m k : Nat) :
    Tally (Verif.expandInfo E n prk l c m k : M σ _) ⟨0, 1, 2, 0, 0⟩ := by
  unfold Verif.expandInfo
  tallied

theorem hashTh (E : Env σ) (cfg : Config) (b : Bytes) :
    Tally (Verif.hashTh E cfg b : M σ _) ⟨0, 1, 0, 0, 0⟩ := by
  unfold Verif.hashTh
  tallied

theorem genDhKeys (E : Env σ) (cfg : Config) :
    Tally (Verif.genDhKeys E cfg : M σ _) ⟨1, 0, 2, 0, 0⟩ := by
  unfold Verif.genDhKeys
  tallied

theorem compDhSecret (E : Env σ) (cfg : Config) :
    Tally (Verif.compDhSecret E cfg : M σ _) ⟨1, 0, 2, 0, 0⟩ := by
  unfold Verif.compDhSecret
  tallied

theorem extractPrk (E : Env σ) (cfg : Config) (a b : Bytes) :
    Tally (Verif.extractPrk E cfg a b : M σ _) ⟨0, 1, 2, 0, 0⟩ := by
  unfold Verif.extractPrk
  tallied

theorem agreeEphemeral (E : Env σ) (b : Bytes) :
    Tally (Verif.agreeEphemeral E b : M σ _) ⟨1, 0, 2, 0, 0⟩ := by
  unfold Verif.agreeEphemeral
  tallied

theorem agreeStatic (E : Env σ) (b : Bytes) :
    Tally (Verif.agreeStatic E b : M σ _) ⟨1, 0, 0, 0, 0⟩ := by
  unfold Verif.agreeStatic
  tallied

theorem prepareMsg2 (E : Env σ) (cfg : Config) (b : Bytes) (n : Nat) :
    Tally (Verif.prepareMsg2 E cfg b n : M σ _) ⟨0, 0, 0, 0, 1⟩ := by
  unfold Verif.prepareMsg2
  tallied

theorem buildMacCtx (E : Env σ) (cfg : Config) (e : Option Err) (c : Cred) :
    Tally (Verif.buildMacCtx E cfg e c : M σ _) ⟨0, 0, 0, 0, 1⟩ := by
  unfold Verif.buildMacCtx
  tallied

theorem handOver (cfg : Config) (n : Nat) :
    Tally (Verif.handOver cfg n : M σ _) 0 := by
  unfold Verif.handOver
  tallied

theorem storeEad (cfg : Config) (ts : List EadTok) (n : Nat) :
    Tally (Verif.storeEad cfg ts n : M σ _) 0 := by
  unfold Verif.storeEad
  tallied

theorem parseMsg2 (E : Env σ) (cfg : Config) (b : Bytes) :
    Tally (Verif.parseMsg2 E cfg b : M σ _) ⟨0, 0, 0, 0, 1⟩ := by
  unfold Verif.parseMsg2
  tallied

theorem compTh3 (E : Env σ) (cfg : Config) (a b : Bytes) :
    Tally (Verif.compTh3 E cfg a b : M σ _) ⟨0, 1, 0, 0, 1⟩ := by
  unfold Verif.compTh3
  tallied

theorem genMsg3 (b : Bytes) (n : Nat) :
    Tally (Verif.genMsg3 b n : M σ _) 0 := by
  unfold Verif.genMsg3
  tallied

theorem genMsg4 (b : Bytes) (n : Nat) :
    Tally (Verif.genMsg4 b n : M σ _) 0 := by
  unfold Verif.genMsg4
  tallied

theorem parsePtxt4 (cfg : Config) (b : Bytes) :
    Tally (Verif.parsePtxt4 cfg b : M σ _) 0 := by
  unfold Verif.parsePtxt4
  tallied

theorem storePeerCid (cfg : Config) (e : Err) (c : Cid) :
    Tally (Verif.storePeerCid cfg e c : M σ _) 0 := by
  unfold Verif.storePeerCid
  cases c <;> tallied

theorem compTh2 (E : Env σ) (cfg : Config) :
    Tally (Verif.compTh2 E cfg : M σ _) ⟨0, 1, 0, 0, 1⟩ := by
  unfold Verif.compTh2
  tallied

theorem compTh4 (E : Env σ) (cfg : Config) (a b : Bytes) :
    Tally (Verif.compTh4 E cfg a b : M σ _) ⟨0, 1, 0, 0, 1⟩ := by
  unfold Verif.compTh4
  tallied

theorem compPrk2e (E : Env σ) (cfg : Config) :
    Tally (Verif.compPrk2e E cfg : M σ _) ⟨0, 1, 2, 0, 0⟩ := by
  unfold Verif.compPrk2e
  tallied

theorem compGrx (E : Env σ) (a b : Bytes) :
    Tally (Verif.compGrx E a b : M σ _) ⟨1, 0, 2, 0, 0⟩ := by
  unfold Verif.compGrx
  refine skip getCtx fun c => skip (require _ _) fun _ => ?_
  cases c.role <;> tallied

theorem compGiy (E : Env σ) (a b : Bytes) :
    Tally (Verif.compGiy E a b : M σ _) ⟨1, 0, 2, 0, 0⟩ := by
  unfold Verif.compGiy
  refine skip getCtx fun c => skip (require _ _) fun _ => ?_
  cases c.role <;> tallied

theorem parsePtxt2 (cfg : Config) (b : Bytes) :
    Tally (Verif.parsePtxt2 cfg b : M σ _) 0 := by
  unfold Verif.parsePtxt2
  tallied

theorem parsePtxt3 (cfg : Config) (b : Bytes) :
    Tally (Verif.parsePtxt3 cfg b : M σ _) 0 := by
  unfold Verif.parsePtxt3
  tallied

theorem verifyCred (E : Env σ) (c : Cred) :
    Tally (Verif.verifyCred E c : M σ _) ⟨0, 0, 0, 1, 0⟩ := by
  unfold Verif.verifyCred
  tallied

theorem aeadEncrypt (E : Env σ) (a b c d : Bytes) (n : Nat) :
    Tally (Verif.aeadEncrypt E a b c d n : M σ _) ⟨0, 1, 2, 0, 0⟩ := by
  unfold Verif.aeadEncrypt
  tallied

theorem aeadDecrypt (E : Env σ) (a b c d : Bytes) (n : Nat) :
    Tally (Verif.aeadDecrypt E a b c d n : M σ _) ⟨0, 1, 2, 0, 0⟩ := by
  unfold Verif.aeadDecrypt
  tallied

theorem signCose (E : Env σ) (cfg : Config) (k : Bytes) (m : MacCtx) (b : Bytes) (n : Nat) :
    Tally (Verif.signCose E cfg k m b n : M σ _) ⟨1, 0, 0, 0, 1⟩ := by
  unfold Verif.signCose
  tallied

theorem verifyCose (E : Env σ) (cfg : Config) (m : MacCtx) (a b c : Bytes) :
    Tally (Verif.verifyCose E cfg m a b c : M σ _) ⟨1, 0, 2, 0, 1⟩ := by
  unfold Verif.verifyCose
  tallied

theorem eadCompose (E : Env σ) (cfg : Config) :
    Tally (Verif.eadCompose E cfg : M σ _) ⟨0, 0, 0, 1, 0⟩ := by
  unfold Verif.eadCompose
  tallied

theorem eadProcess (E : Env σ) (cfg : Config) :
    Tally (Verif.eadProcess E cfg : M σ _) ⟨0, 0, 0, 1, 0⟩ := by
  unfold Verif.eadProcess
  tallied

theorem processEad1 (E : Env σ) (cfg : Config) (ts : List EadTok) (n : Nat) :
    Tally (Verif.processEad1 E cfg ts n : M σ _) ⟨0, 0, 0, 1, 0⟩ := by
  unfold Verif.processEad1 Verif.clearEad
  tallied

theorem compSalt3e2m (E : Env σ) (cfg : Config) :
    Tally (Verif.compSalt3e2m E cfg : M σ _) ⟨0, 1, 2, 0, 1⟩ := by
  unfold Verif.compSalt3e2m
  tallied

theorem compSalt4e3m (E : Env σ) (cfg : Config) :
    Tally (Verif.compSalt4e3m E cfg : M σ _) ⟨0, 1, 2, 0, 1⟩ := by
  unfold Verif.compSalt4e3m
  tallied

theorem compKeystream (E : Env σ) (cfg : Config) (b : Bytes) (n : Nat) :
    Tally (Verif.compKeystream E cfg b n : M σ _) ⟨0, 1, 2, 0, 1⟩ := by
  unfold Verif.compKeystream
  tallied

theorem compPrk3e2m (E : Env σ) (cfg : Config) (a b : Bytes) :
    Tally (Verif.compPrk3e2m E cfg a b : M σ _) ⟨1, 2, 6, 0, 3⟩ := by
  unfold Verif.compPrk3e2m
  tallied

theorem compPrk4e3m (E : Env σ) (cfg : Config) (a b : Bytes) :
    Tally (Verif.compPrk4e3m E cfg a b : M σ _) ⟨1, 2, 6, 0, 3⟩ := by
  unfold Verif.compPrk4e3m
  tallied

theorem keyIvAad (E : Env σ) (cfg : Config) (a b : Nat) :
    Tally (Verif.keyIvAad E cfg a b : M σ _) ⟨0, 2, 4, 0, 1⟩ := by
  unfold Verif.keyIvAad
  tallied

theorem keyIvAad3 (E : Env σ) (cfg : Config) :
    Tally (Verif.keyIvAad3 E cfg : M σ _) ⟨0, 2, 4, 0, 4⟩ := by
  unfold Verif.keyIvAad3
  tallied

theorem keyIvAad4 (E : Env σ) (cfg : Config) :
    Tally (Verif.keyIvAad4 E cfg : M σ _) ⟨0, 2, 4, 0, 4⟩ := by
  unfold Verif.keyIvAad4
  tallied

theorem compMac (E : Env σ) (cfg : Config) (b : Bytes) (n : Nat) :
    Tally (Verif.compMac E cfg b n : M σ _) ⟨0, 1, 2, 0, 1⟩ := by
  unfold Verif.compMac
  tallied

theorem compSignOrMac (E : Env σ) (cfg : Config) (k : Bytes) (m : MacCtx) (b : Bytes) (n : Nat) :
    Tally (Verif.compSignOrMac E cfg k m b n : M σ _) ⟨1, 0, 0, 0, 1⟩ := by
  unfold Verif.compSignOrMac
  refine skip getCtx fun c => skip (require _ _) fun _ => ?_
  rcases usesSign c with _ | _ | _ <;> tallied

theorem verifySignOrMac (E : Env σ) (cfg : Config) (m : MacCtx) (k : Option Bytes) (a b : Bytes) :
    Tally (Verif.verifySignOrMac E cfg m k a b : M σ _) ⟨1, 0, 2, 0, 1⟩ := by
  unfold Verif.verifySignOrMac
  refine skip getCtx fun c => skip (ofOption _ _) fun pk => skip (require _ _) fun _ => ?_
  rcases usesSign c with _ | _ | _ <;> tallied

theorem compPrkOut (E : Env σ) (cfg : Config) :
    Tally (Verif.compPrkOut E cfg : M σ _) ⟨0, 1, 2, 0, 1⟩ := by
  unfold Verif.compPrkOut
  tallied

theorem compNewPrkOut (E : Env σ) (cfg : Config) (b : Bytes) :
    Tally (Verif.compNewPrkOut E cfg b : M σ _) ⟨0, 1, 2, 0, 1⟩ := by
  unfold Verif.compNewPrkOut
  tallied

theorem compPrkExporter (E : Env σ) (cfg : Config) :
    Tally (Verif.compPrkExporter E cfg : M σ _) ⟨0, 1, 2, 0, 1⟩ := by
  unfold Verif.compPrkExporter
  tallied

theorem ensurePrkOut (E : Env σ) (cfg : Config) :
    Tally (Verif.ensurePrkOut E cfg : M σ _) ⟨0, 1, 2, 0, 1⟩ := by
  unfold Verif.ensurePrkOut
  tallied

theorem exportSecret (E : Env σ) (cfg : Config) (l n : Nat) :
    Tally (Verif.exportSecret E cfg l n : M σ _) ⟨0, 3, 6, 0, 4⟩ := by
  unfold Verif.exportSecret
  tallied

theorem keyUpdate (E : Env σ) (cfg : Config) (b : Bytes) :
    Tally (Verif.keyUpdate E cfg b : M σ _) ⟨0, 2, 4, 0, 2⟩ := by
  unfold Verif.keyUpdate
  tallied

theorem exportOscore (E : Env σ) (cfg : Config) (a b c d : Nat) :
    Tally (Verif.exportOscore E cfg a b c d : M σ _) ⟨0, 6, 12, 0, 8⟩ := by
  unfold Verif.exportOscore
  tallied

theorem chooseSuite :
    Tally (Verif.chooseSuite : M σ _) 0 := by
  unfold Verif.chooseSuite
  tallied

theorem checkSuites (cfg : Config) (su : Suites) :
    Tally (Verif.checkSuites cfg su : M σ _) 0 := by
  unfold Verif.checkSuites
  refine skip getCtx fun c => ?_
  cases su <;> tallied

theorem enter (ok : Ctx → Bool) (m : Msg) (r : Role) :
    Tally (Verif.enter ok m r : M σ _) 0 := by
  unfold Verif.enter
  tallied

theorem message1Compose (E : Env σ) (cfg : Config) (n : Nat) :
    Tally (Verif.message1Compose E cfg n : M σ _) ⟨1, 1, 2, 1, 1⟩ := by
  unfold Verif.message1Compose
  tallied

theorem message1Process (E : Env σ) (cfg : Config) (b : Bytes) :
    Tally (Verif.message1Process E cfg b : M σ _) ⟨0, 1, 0, 1, 0⟩ := by
  unfold Verif.message1Process
  tallied

theorem message4Compose (E : Env σ) (cfg : Config) (n : Nat) :
    Tally (Verif.message4Compose E cfg n : M σ _) ⟨0, 3, 6, 1, 6⟩ := by
  unfold Verif.message4Compose
  tallied

theorem message4Process (E : Env σ) (cfg : Config) (b : Bytes) :
    Tally (Verif.message4Process E cfg b : M σ _) ⟨0, 3, 6, 1, 5⟩ := by
  unfold Verif.message4Process
  tallied

end Tally

end Verif
