import Verif.Logs
import Verif.SpecTrace

/-!
# Which operations an API call performs, in which order

`Emits msg m ks`: started while message `msg` is being worked on, `m` makes calls of the kinds `ks` at most, in this
order, however it ends (undefined behaviour apart).
-/

namespace Verif

open M Spec

variable {σ α β : Type}

theorem within_append {a b : List Kind} {x y : List Ev} (h1 : Within a x) (h2 : Within b y) :
    Within (a ++ b) (x ++ y) := by
  induction h1 with
  | nil => exact h2
  | skip h _ ih => exact .skip h ih
  | hit h _ ih => exact .hit h ih
  | miss _ ih => exact .miss ih

theorem within_sublist {a b : List Kind} {x : List Ev} (h : Within a x) (hs : a.Sublist b) : Within b x := by
  induction hs generalizing x with
  | slnil => exact h
  | cons k _ ih => exact .miss (ih h)
  | cons_cons k hs ih =>
    generalize ha : k :: _ = a' at h
    induction h with
    | nil => simp at ha
    | skip h1 _ ih2 => exact .skip h1 (ih2 ha)
    | hit h1 h2 _ =>
      obtain ⟨rfl, rfl⟩ := List.cons.inj ha
      exact .hit h1 (ih h2)
    | miss h2 _ =>
      obtain ⟨rfl, rfl⟩ := List.cons.inj ha
      exact .miss (ih h2)

theorem within_nil (ks : List Kind) : Within ks [] := by
  induction ks with
  | nil => exact .nil
  | cons k ks ih => exact .miss ih

/-- see above -/
def Emits (msg : Msg) (m : M σ α) (ks : List Kind) : Prop :=
  ∀ s, s.ctx.message = msg → (m s).1.Defined →
    (m s).2.ctx.message = msg ∧ ∃ es, (m s).2.log = s.log ++ es ∧ Within ks es

namespace Emits

variable {msg : Msg}

theorem mono {m : M σ α} {L L' : List Kind} (h : Emits msg m L) (hL : L.Sublist L') : Emits msg m L' := by
  intro s hs hd
  obtain ⟨h1, es, h2, h3⟩ := h s hs hd
  exact ⟨h1, es, h2, within_sublist h3 hL⟩

theorem bind {m : M σ α} {f : α → M σ β} {L1 L2 : List Kind} (h1 : Emits msg m L1) (h2 : ∀ a, Emits msg (f a) L2) :
    Emits msg (m >>= f) (L1 ++ L2) := by
  intro s hs hd
  rcases h : (m >>= f) s with ⟨r, s'⟩
  rw [h] at hd
  have h1 := h1 s hs
  rcases bind_cases h hd with ⟨a, s1, hm, hf⟩ | ⟨e, hm⟩
  · rw [hm] at h1
    obtain ⟨m1, es, l1, w1⟩ := h1 (by simp)
    have h2 := h2 a s1 m1
    rw [hf] at h2
    obtain ⟨m2, es2, l2, w2⟩ := h2 hd
    refine ⟨m2, es ++ es2, ?_, within_append w1 w2⟩
    rw [l2, l1, List.append_assoc]
  · rw [hm] at h1
    obtain ⟨m1, es, l1, w1⟩ := h1 (by simp)
    refine ⟨m1, es, l1, ?_⟩
    have := within_append w1 (within_nil L2)
    rwa [List.append_nil] at this

/-- a step that changes nothing but the context, and not the message number -/
theorem quiet {m : M σ α} (h : ∀ s, (m s).2.log = s.log ∧ (m s).2.ctx.message = s.ctx.message) : Emits msg m [] := by
  intro s hs _
  obtain ⟨h1, h2⟩ := h s
  exact ⟨h2.trans hs, [], by rw [h1, List.append_nil], .nil⟩

theorem pure (a : α) : Emits msg (Pure.pure a : M σ α) [] := quiet fun _ => ⟨rfl, rfl⟩
theorem fail (e : Err) : Emits msg (M.fail e : M σ α) [] := quiet fun _ => ⟨rfl, rfl⟩
theorem require (b : Bool) (e : Err) : Emits msg (M.require b e : M σ Unit) [] :=
  quiet fun _ => by unfold M.require; split <;> exact ⟨rfl, rfl⟩
theorem guardUB (b : Bool) (u : UB) : Emits msg (M.guardUB b u : M σ Unit) [] :=
  quiet fun _ => by unfold M.guardUB; split <;> exact ⟨rfl, rfl⟩
theorem ofOption (e : Err) (o : Option α) : Emits msg (M.ofOption e o : M σ α) [] :=
  quiet fun _ => by unfold M.ofOption; split <;> exact ⟨rfl, rfl⟩
theorem ofRes (r : Res α) : Emits msg (M.ofRes r : M σ α) [] := quiet fun _ => ⟨rfl, rfl⟩
theorem getCtx : Emits msg (M.getCtx : M σ Ctx) [] := quiet fun _ => ⟨rfl, rfl⟩

theorem modCtx {f : Ctx → Ctx} (h : ∀ c, (f c).message = c.message) : Emits msg (M.modCtx f : M σ Unit) [] :=
  quiet fun s => ⟨rfl, h s.ctx⟩

theorem bindCtx {f : Ctx → M σ β} {L : List Kind} (h : ∀ c, c.message = msg → Emits msg (f c) L) :
    Emits msg (M.getCtx >>= f) L := fun s hs hd => h s.ctx hs s hs hd

theorem call0 {f : σ → β × σ} {ev : β → Ev} (h : ∀ b, kindless (ev b) = true) : Emits msg (M.call f ev) [] :=
  fun _ hs _ => ⟨hs, _, rfl, .skip (h _) .nil⟩

theorem call1 {f : σ → β × σ} {ev : β → Ev} {k : Kind} (h : ∀ b, IsKind k (ev b)) : Emits msg (M.call f ev) [k] :=
  fun _ hs _ => ⟨hs, _, rfl, .hit (h _) .nil⟩

theorem mapErr {m : M σ α} {L : List Kind} (e : Err) (h : Emits msg m L) : Emits msg (M.mapErr e m) L := by
  intro s hs
  have h1 := h s hs
  unfold M.mapErr
  rcases hm : m s with ⟨r, s'⟩
  rw [hm] at h1
  cases r <;> simpa using h1

theorem whenM {m : M σ Unit} {L : List Kind} (b : Bool) (h : Emits msg m L) : Emits msg (M.whenM b m) L := by
  unfold M.whenM
  split
  · exact h
  · exact (Emits.pure ()).mono (List.nil_sublist _)

theorem ite {p : Prop} [Decidable p] {m n : M σ α} {L1 L2 : List Kind} (h1 : Emits msg m L1) (h2 : Emits msg n L2) :
    Emits msg (if p then m else n) (L1 ++ L2) := by
  split
  · exact h1.mono (List.sublist_append_left _ _)
  · exact h2.mono (List.sublist_append_right _ _)

end Emits

/-- a first step that performs nothing -/
theorem Emits.bind0 {msg : Msg} {m : M σ α} {f : α → M σ β} {L : List Kind} (h1 : Emits msg m [])
    (h2 : ∀ a, Emits msg (f a) L) : Emits msg (m >>= f) L := h1.bind h2

/-- a first step that performs the first of `L` -/
theorem Emits.bindL {msg : Msg} {m : M σ α} {f : α → M σ β} {L L1 L2 : List Kind} (h1 : Emits msg m L1)
    (h2 : ∀ a, Emits msg (f a) L2) (hL : L1 ++ L2 = L := by rfl) : Emits msg (m >>= f) L := hL ▸ h1.bind h2

/-- a last step, not followed by anything -/
theorem Emits.ite0 {msg : Msg} {p : Prop} [Decidable p] {m n : M σ α} {L : List Kind} (h1 : Emits msg m L)
    (h2 : Emits msg n L) : Emits msg (if p then m else n) L := by split <;> assumption

/-- a program that performs nothing -/
macro "quiet0" : tactic => `(tactic|
  (repeat' first
  | with_reducible exact Emits.pure _
  | with_reducible exact Emits.fail _
  | with_reducible exact Emits.require _ _
  | with_reducible exact Emits.guardUB _ _
  | with_reducible exact Emits.ofOption _ _
  | with_reducible exact Emits.ofRes _
  | with_reducible exact Emits.getCtx
  | ((with_reducible refine Emits.modCtx ?_); exact fun _ => rfl)
  | with_reducible refine Emits.mapErr _ ?_
  | with_reducible refine Emits.whenM _ ?_
  | with_reducible refine Emits.ite0 ?_ ?_
  | with_reducible refine Emits.bind0 ?_ (fun _ => ?_)))

namespace Emits

variable {msg : Msg}

theorem needKeys : Emits msg (Verif.needKeys : M σ Unit) [] := by unfold Verif.needKeys; quiet0
theorem needCrypto : Emits msg (Verif.needCrypto : M σ Unit) [] := by unfold Verif.needCrypto; quiet0
theorem needCred : Emits msg (Verif.needCred : M σ Unit) [] := by unfold Verif.needCred; quiet0

theorem memAlloc (E : Env σ) (cfg : Config) (n : Nat) : Emits msg (Verif.memAlloc E cfg n) [] := by
  unfold Verif.memAlloc
  split
  · quiet0
  · exact (Emits.call0 fun _ => rfl).bind fun _ => Emits.require _ _

theorem importKey (E : Env σ) (t : KeyType) (b : Bytes) : Emits msg (Verif.importKey E t b) [] :=
  needKeys.bind fun _ => Emits.call0 fun _ => rfl

theorem destroyKey (E : Env σ) (k : Bytes) : Emits msg (Verif.destroyKey E k) [] :=
  needKeys.bind fun _ => Emits.call0 fun _ => rfl

theorem makeKeyPair (E : Env σ) (a : Bytes) : Emits msg (Verif.makeKeyPair E a) [] :=
  needCrypto.bind fun _ => Emits.call0 fun _ => rfl

theorem keyAgreement (E : Env σ) (a b : Bytes) : Emits msg (Verif.keyAgreement E a b) [] :=
  needCrypto.bind fun _ => Emits.call0 fun _ => rfl

theorem extract (E : Env σ) (a b : Bytes) : Emits msg (Verif.extract E a b) [] :=
  needCrypto.bind fun _ => Emits.call0 fun _ => rfl

theorem hash (E : Env σ) (a : Bytes) : Emits msg (Verif.hash E a) [] :=
  needCrypto.bind fun _ => Emits.call0 fun _ => rfl

theorem sign (E : Env σ) (a b : Bytes) : Emits msg (Verif.sign E a b) [.sign] :=
  needCrypto.bind fun _ => Emits.call1 fun _ => .sign

theorem verify (E : Env σ) (a b c : Bytes) : Emits msg (Verif.verify E a b c) [.verify] :=
  needCrypto.bind fun _ => Emits.call1 fun _ => .verify

theorem encrypt (E : Env σ) (a b c d : Bytes) : Emits msg (Verif.encrypt E a b c d) [.encrypt] :=
  needCrypto.bind fun _ => Emits.call1 fun _ => .encrypt

theorem decrypt (E : Env σ) (a b c d : Bytes) : Emits msg (Verif.decrypt E a b c d) [.decrypt] :=
  needCrypto.bind fun _ => Emits.call1 fun _ => .decrypt

theorem expand (E : Env σ) (k c : Bytes) {l : Nat} (hl : l ≤ 65535) (m n : Nat) :
    Emits msg (Verif.expand E k (encInfo l c (u32 m)) n) [.derive l] := by
  have hi : encInfo l c (u32 m) = info l c (u32 m) := by simp [encInfo, info, encInt]
  rw [hi]
  exact needCrypto.bind fun _ => Emits.call1 fun _ => .derive hl (Nat.mod_lt _ (by decide))

theorem credFetch (E : Env σ) : Emits msg (Verif.credFetch E) [.credFetch] :=
  needCred.bind fun _ => Emits.call1 fun _ => .credFetch

theorem credVerify (E : Env σ) (c : Cred) : Emits msg (Verif.credVerify E c) [.credVerify] :=
  needCred.bind fun _ => Emits.call1 fun _ => .credVerify

theorem withKey (E : Env σ) (t : KeyType) (raw : Bytes) (e : Err) {op : Bytes → M σ α} {L : List Kind}
    (h : ∀ k, Emits msg (op k) L) : Emits msg (Verif.withKey E t raw e op) L := by
  unfold Verif.withKey
  have h1 := Emits.bind (importKey E t raw) fun k => Emits.bind (Emits.ofOption (σ := σ) e k) fun kid =>
    Emits.bind (h kid) fun r => Emits.bind (destroyKey E kid) fun _ => Emits.pure (msg := msg) r
  simpa using h1

theorem fits {n : Nat} {x : Bytes} {e : Err} {f : Bytes → M σ β} {L : List Kind} (h : Emits msg (f x) L) :
    Emits msg (M.ofOption e (Verif.fits n x) >>= f) L := by
  unfold Verif.fits
  split
  · exact h
  · exact ((Emits.fail e).mono (List.nil_sublist _))

end Emits

/-- a program that performs nothing -/
macro "quiet1" : tactic => `(tactic|
  (repeat' first
  | with_reducible exact Emits.pure _
  | with_reducible exact Emits.fail _
  | with_reducible exact Emits.require _ _
  | with_reducible exact Emits.guardUB _ _
  | with_reducible exact Emits.ofOption _ _
  | with_reducible exact Emits.ofRes _
  | with_reducible exact Emits.getCtx
  | ((with_reducible refine Emits.modCtx ?_); exact fun _ => rfl)
  | with_reducible exact Emits.needKeys
  | with_reducible exact Emits.needCrypto
  | with_reducible exact Emits.needCred
  | with_reducible exact Emits.memAlloc _ _ _
  | with_reducible exact Emits.importKey _ _ _
  | with_reducible exact Emits.destroyKey _ _
  | with_reducible exact Emits.makeKeyPair _ _
  | with_reducible exact Emits.keyAgreement _ _ _
  | with_reducible exact Emits.extract _ _ _
  | with_reducible exact Emits.hash _ _
  | with_reducible refine Emits.mapErr _ ?_
  | with_reducible refine Emits.withKey _ _ _ _ (fun _ => ?_)
  | with_reducible refine Emits.whenM _ ?_
  | with_reducible refine Emits.ite0 ?_ ?_
  | with_reducible refine Emits.bind0 ?_ (fun _ => ?_)))

/-- leading steps that perform nothing -/
macro "steps1" : tactic => `(tactic|
  repeat (with_reducible refine Emits.bind0 ?_ (fun _ => ?_); focus (quiet1; done)))

namespace Emits

variable {msg : Msg} (E : Env σ) (cfg : Config)

/-- key derivation: the info string and the use of the key -/
theorem derive {n l : Nat} {prk c : Bytes} (hl : l ≤ 65535) (m k : Nat) :
    Emits msg (M.ofOption .cbor (Verif.fits n (encInfo l c (u32 m))) >>= fun info =>
      Verif.withKey E .expand prk .crypto (fun kid => Verif.expand E kid info k) >>= fun r =>
      (M.ofOption .crypto r : M σ Bytes)) [.derive l] := by
  refine Emits.fits ?_
  exact Emits.bindL (Emits.withKey E .expand prk .crypto fun kid => Emits.expand E kid c hl m k) fun r => Emits.ofOption _ _

theorem kdfExact {l : Nat} (hl : l ≤ 65535) (prk c : Bytes) (n : Nat) : Emits msg (Verif.kdfExact E cfg prk l c n) [.derive l] := by
  unfold Verif.kdfExact
  have h : Emits msg (Verif.memAlloc E cfg (intMemReq l + (c.length + bstrOh c.length) + intMemReq (i32 n))) [] :=
    memAlloc _ _ _
  refine Emits.bind h fun _ => Emits.fits ?_
  have h1 := Emits.bind (Emits.require (σ := σ) (msg := msg) ((encInfo l c (u32 n)).length ==
    intMemReq l + (c.length + bstrOh c.length) + intMemReq (i32 n)) .cbor) fun _ =>
    Emits.bind (Emits.withKey E .expand prk .crypto fun k => Emits.expand E k c hl n n) fun r => Emits.ofOption (σ := σ) .crypto r
  simpa using h1

theorem expandInfo {l : Nat} (hl : l ≤ 65535) (n : Nat) (prk c : Bytes) (m k : Nat) :
    Emits msg (Verif.expandInfo E n prk l c m k) [.derive l] := derive E hl m k

theorem enter {ok : Ctx → Bool} {r : Role} {s : St σ} {f : Unit → M σ β} {L : List Kind} (h : Emits msg (f ()) L)
    (hd : ((Verif.enter ok msg r >>= f) s).1.Defined) :
    ∃ es, ((Verif.enter ok msg r >>= f) s).2.log = s.log ++ es ∧ Within L es := by
  rcases he : (Verif.enter ok msg r >>= f) s with ⟨r1, s1⟩
  rw [he] at hd
  rcases bind_cases he hd with ⟨_, s2, h1, h2⟩ | ⟨e, h1⟩
  · obtain ⟨_, rfl⟩ := enter_ok h1
    have h3 := h _ rfl (h2 ▸ hd)
    rw [h2] at h3
    exact h3.2
  · unfold Verif.enter at h1
    rcases bind_cases h1 (by simp) with ⟨_, s2, h3, h2⟩ | ⟨e, h3⟩
    · obtain ⟨rfl, rfl⟩ := getCtx_ok.1 h3
      rcases bind_cases h2 (by simp) with ⟨_, s2, h3, h2⟩ | ⟨e, h3⟩
      · simp [M.modCtx] at h2
      · unfold M.require at h3
        split at h3
        · simp at h3
        · simp only [Prod.mk.injEq] at h3
          exact ⟨[], by rw [← h3.2]; simp, within_nil _⟩
    · simp [M.getCtx] at h3

theorem hashTh (b : Bytes) : Emits msg (Verif.hashTh E cfg b : M σ _) [] := by
  unfold Verif.hashTh
  quiet1

theorem genDhKeys : Emits msg (Verif.genDhKeys E cfg : M σ _) [] := by
  unfold Verif.genDhKeys
  quiet1

theorem compDhSecret : Emits msg (Verif.compDhSecret E cfg : M σ _) [] := by
  unfold Verif.compDhSecret
  quiet1

theorem extractPrk (a b : Bytes) : Emits msg (Verif.extractPrk E cfg a b : M σ _) [] := by
  unfold Verif.extractPrk
  quiet1

theorem agreeEphemeral (b : Bytes) : Emits msg (Verif.agreeEphemeral E b : M σ _) [] := by
  unfold Verif.agreeEphemeral
  quiet1

theorem agreeStatic (b : Bytes) : Emits msg (Verif.agreeStatic E b : M σ _) [] := by
  unfold Verif.agreeStatic
  quiet1

theorem prepareMsg2 (b : Bytes) (n : Nat) : Emits msg (Verif.prepareMsg2 E cfg b n : M σ _) [] := by
  unfold Verif.prepareMsg2
  quiet1

theorem buildMacCtx (e : Option Err) (c : Cred) : Emits msg (Verif.buildMacCtx E cfg e c : M σ _) [] := by
  unfold Verif.buildMacCtx
  quiet1

theorem handOver (n : Nat) : Emits msg (Verif.handOver cfg n : M σ _) [] := by
  unfold Verif.handOver
  quiet1

theorem storeEad (ts : List EadTok) (n : Nat) : Emits msg (Verif.storeEad cfg ts n : M σ _) [] := by
  unfold Verif.storeEad
  quiet1
  exact handOver _ _

theorem parseMsg2 (b : Bytes) : Emits msg (Verif.parseMsg2 E cfg b : M σ _) [] := by
  unfold Verif.parseMsg2
  quiet1

theorem compTh3 (a b : Bytes) : Emits msg (Verif.compTh3 E cfg a b : M σ _) [] := by
  unfold Verif.compTh3
  quiet1

theorem genMsg3 (b : Bytes) (n : Nat) : Emits msg (Verif.genMsg3 b n : M σ _) [] := by
  unfold Verif.genMsg3
  quiet1

theorem genMsg4 (b : Bytes) (n : Nat) : Emits msg (Verif.genMsg4 b n : M σ _) [] := by
  unfold Verif.genMsg4
  quiet1

theorem parsePtxt4 (b : Bytes) : Emits msg (Verif.parsePtxt4 cfg b : M σ _) [] := by
  unfold Verif.parsePtxt4
  quiet1
  exact handOver _ _

theorem storePeerCid (e : Err) (c : Cid) : Emits msg (Verif.storePeerCid cfg e c : M σ Unit) [] := by
  unfold Verif.storePeerCid
  cases c <;> quiet1

theorem compTh2 : Emits msg (Verif.compTh2 E cfg : M σ _) [] := by
  unfold Verif.compTh2
  quiet1
  exact hashTh _ _ _

theorem compTh4 (a b : Bytes) : Emits msg (Verif.compTh4 E cfg a b : M σ _) [] := by
  unfold Verif.compTh4
  quiet1
  exact hashTh _ _ _

theorem compPrk2e : Emits msg (Verif.compPrk2e E cfg : M σ _) [] := by
  unfold Verif.compPrk2e
  quiet1
  exact extractPrk _ _ _ _

theorem compGrx (a b : Bytes) : Emits msg (Verif.compGrx E a b) [] := by
  unfold Verif.compGrx
  refine Emits.bindCtx fun c _ => ?_
  refine Emits.bind (Emits.require _ _) fun _ => ?_
  cases c.role
  · exact agreeEphemeral _ _
  · exact agreeStatic _ _

theorem compGiy (a b : Bytes) : Emits msg (Verif.compGiy E a b) [] := by
  unfold Verif.compGiy
  refine Emits.bindCtx fun c _ => ?_
  refine Emits.bind (Emits.require _ _) fun _ => ?_
  cases c.role
  · exact agreeStatic _ _
  · exact agreeEphemeral _ _

theorem parsePtxt2 (b : Bytes) : Emits msg (Verif.parsePtxt2 cfg b : M σ _) [] := by
  unfold Verif.parsePtxt2
  quiet1
  · exact storePeerCid _ _ _
  · exact storeEad _ _ _

theorem parsePtxt3 (b : Bytes) : Emits msg (Verif.parsePtxt3 cfg b : M σ _) [] := by
  unfold Verif.parsePtxt3
  quiet1
  exact storeEad _ _ _

end Emits

/-- a program that performs nothing -/
macro "quiet2" : tactic => `(tactic|
  (repeat' first
  | with_reducible exact Emits.pure _
  | with_reducible exact Emits.fail _
  | with_reducible exact Emits.require _ _
  | with_reducible exact Emits.guardUB _ _
  | with_reducible exact Emits.ofOption _ _
  | with_reducible exact Emits.ofRes _
  | with_reducible exact Emits.getCtx
  | ((with_reducible refine Emits.modCtx ?_); exact fun _ => rfl)
  | with_reducible exact Emits.needKeys
  | with_reducible exact Emits.needCrypto
  | with_reducible exact Emits.needCred
  | with_reducible exact Emits.memAlloc _ _ _
  | with_reducible exact Emits.importKey _ _ _
  | with_reducible exact Emits.destroyKey _ _
  | with_reducible exact Emits.makeKeyPair _ _
  | with_reducible exact Emits.keyAgreement _ _ _
  | with_reducible exact Emits.extract _ _ _
  | with_reducible exact Emits.hash _ _
  | with_reducible exact Emits.hashTh _ _ _
  | with_reducible exact Emits.genDhKeys _ _
  | with_reducible exact Emits.compDhSecret _ _
  | with_reducible exact Emits.extractPrk _ _ _ _
  | with_reducible exact Emits.agreeEphemeral _ _
  | with_reducible exact Emits.agreeStatic _ _
  | with_reducible exact Emits.prepareMsg2 _ _ _ _
  | with_reducible exact Emits.buildMacCtx _ _ _ _
  | with_reducible exact Emits.storeEad _ _ _
  | with_reducible exact Emits.parseMsg2 _ _ _
  | with_reducible exact Emits.compTh3 _ _ _ _
  | with_reducible exact Emits.genMsg3 _ _
  | with_reducible exact Emits.genMsg4 _ _
  | with_reducible exact Emits.parsePtxt4 _ _
  | with_reducible exact Emits.storePeerCid _ _ _
  | with_reducible exact Emits.compTh2 _ _
  | with_reducible exact Emits.compTh4 _ _ _ _
  | with_reducible exact Emits.compPrk2e _ _
  | with_reducible exact Emits.compGrx _ _ _
  | with_reducible exact Emits.compGiy _ _ _
  | with_reducible exact Emits.parsePtxt2 _ _
  | with_reducible exact Emits.parsePtxt3 _ _
  | with_reducible refine Emits.mapErr _ ?_
  | with_reducible refine Emits.withKey _ _ _ _ (fun _ => ?_)
  | with_reducible refine Emits.whenM _ ?_
  | with_reducible refine Emits.ite0 ?_ ?_
  | with_reducible refine Emits.bind0 ?_ (fun _ => ?_)))

/-- leading steps that perform nothing -/
macro "steps2" : tactic => `(tactic|
  repeat (with_reducible refine Emits.bind0 ?_ (fun _ => ?_); focus (quiet2; done)))

namespace Emits

variable {msg : Msg} (E : Env σ) (cfg : Config)

theorem verifyCred (c : Cred) : Emits msg (Verif.verifyCred E c : M σ _) [.credVerify] := by
  unfold Verif.verifyCred
  refine bindL (credVerify _ _) fun _ => ?_
  quiet1

theorem aeadEncrypt (a b c d : Bytes) (n : Nat) : Emits msg (Verif.aeadEncrypt E a b c d n : M σ _) [.encrypt] := by
  unfold Verif.aeadEncrypt
  refine bindL (withKey _ _ _ _ fun _ => encrypt _ _ _ _ _) fun _ => ?_
  quiet1

theorem aeadDecrypt (a b c d : Bytes) (n : Nat) : Emits msg (Verif.aeadDecrypt E a b c d n : M σ _) [.decrypt] := by
  unfold Verif.aeadDecrypt
  refine bindL (withKey _ _ _ _ fun _ => decrypt _ _ _ _ _) fun _ => ?_
  quiet1

theorem signCose (k : Bytes) (m : MacCtx) (b : Bytes) (n : Nat) : Emits msg (Verif.signCose E cfg k m b n : M σ _) [.sign] := by
  unfold Verif.signCose
  steps1
  refine bindL (sign _ _ _) fun _ => ?_
  quiet1

theorem verifyCose (m : MacCtx) (a b c : Bytes) : Emits msg (Verif.verifyCose E cfg m a b c : M σ _) [.verify] := by
  unfold Verif.verifyCose
  steps1
  refine bindL (withKey _ _ _ _ fun _ => verify _ _ _ _) fun _ => ?_
  quiet1

theorem eadCompose : Emits msg (Verif.eadCompose E cfg) [.eadCompose msg] := by
  unfold Verif.eadCompose
  refine Emits.bindCtx fun c hc => ?_
  refine Emits.whenM _ ?_
  rw [hc]
  refine bindL (Emits.call1 fun _ => .eadCompose) fun _ => ?_
  quiet1

theorem eadProcess : Emits msg (Verif.eadProcess E cfg) [.eadProcess msg] := by
  unfold Verif.eadProcess
  refine Emits.bindCtx fun c hc => ?_
  refine Emits.whenM _ ?_
  rw [hc]
  refine bindL (Emits.call1 fun _ => .eadProcess) fun _ => ?_
  quiet1

theorem processEad1 (ts : List EadTok) (n : Nat) : Emits msg (Verif.processEad1 E cfg ts n) [.eadProcess .msg1] := by
  unfold Verif.processEad1 Verif.clearEad
  steps1
  refine Emits.whenM _ ?_
  steps1
  refine bindL (Emits.call1 fun _ => .eadProcess) fun _ => ?_
  quiet1

theorem compSalt3e2m : Emits msg (Verif.compSalt3e2m E cfg : M σ _) [.derive 1] := by
  unfold Verif.compSalt3e2m
  steps1
  exact kdfExact _ _ (by decide) _ _ _

theorem compSalt4e3m : Emits msg (Verif.compSalt4e3m E cfg : M σ _) [.derive 5] := by
  unfold Verif.compSalt4e3m
  steps1
  exact kdfExact _ _ (by decide) _ _ _

theorem compKeystream (b : Bytes) (n : Nat) : Emits msg (Verif.compKeystream E cfg b n : M σ _) [.derive 0] := by
  unfold Verif.compKeystream
  steps1
  exact kdfExact _ _ (by decide) _ _ _

theorem compPrk3e2m (a b : Bytes) : Emits msg (Verif.compPrk3e2m E cfg a b : M σ _) [.derive 1] := by
  unfold Verif.compPrk3e2m
  steps1
  refine ite0 (Emits.mono ?_ (List.nil_sublist _)) (ite0 ?_ (Emits.mono ?_ (List.nil_sublist _)))
  · quiet1
  · steps1
    refine bindL (mapErr _ (compSalt3e2m _ _)) fun _ => ?_
    quiet2
  · quiet1

theorem compPrk4e3m (a b : Bytes) : Emits msg (Verif.compPrk4e3m E cfg a b : M σ _) [.derive 5] := by
  unfold Verif.compPrk4e3m
  steps1
  refine ite0 (Emits.mono ?_ (List.nil_sublist _)) (ite0 ?_ (Emits.mono ?_ (List.nil_sublist _)))
  · quiet1
  · steps1
    refine bindL (mapErr _ (compSalt4e3m _ _)) fun _ => ?_
    quiet2
  · quiet1

theorem keyIvAad {a b : Nat} (ha : a ≤ 65535) (hb : b ≤ 65535) :
    Emits msg (Verif.keyIvAad E cfg a b) [.derive a, .derive b] := by
  unfold Verif.keyIvAad
  steps1
  refine bindL (expandInfo _ ha _ _ _ _ _) fun _ => ?_
  refine bindL (expandInfo _ hb _ _ _ _ _) fun _ => ?_
  quiet1

theorem keyIvAad3 : Emits msg (Verif.keyIvAad3 E cfg : M σ _) [.derive 3, .derive 4] := by
  unfold Verif.keyIvAad3
  steps1
  refine mapErr _ ?_
  steps1
  exact keyIvAad _ _ (by decide) (by decide)

theorem keyIvAad4 : Emits msg (Verif.keyIvAad4 E cfg : M σ _) [.derive 8, .derive 9] := by
  unfold Verif.keyIvAad4
  steps1
  refine mapErr _ ?_
  steps1
  exact keyIvAad _ _ (by decide) (by decide)

/-- the label of the MAC of a message -/
def macKind (msg : Msg) : Kind := .derive (if msg = .msg3 then 6 else 2)

theorem compMac (b : Bytes) (n : Nat) : Emits msg (Verif.compMac E cfg b n) [macKind msg] := by
  unfold Verif.compMac
  refine Emits.bindCtx fun c hc => ?_
  have hl : macLabel c = if msg = .msg3 then 6 else 2 := by simp [macLabel, hc]
  have hl' : (if msg = .msg3 then 6 else 2) ≤ 65535 := by split <;> decide
  rw [hl]
  iterate 4 refine Emits.bind (L1 := []) (Emits.require _ _) fun _ => ?_
  refine Emits.bind (L1 := []) (Emits.memAlloc _ _ _) fun _ => Emits.fits ?_
  refine Emits.bind (L1 := []) (Emits.require _ _) fun _ => ?_
  exact Emits.bind (L2 := []) (Emits.withKey _ _ _ _ fun _ => Emits.expand _ _ _ hl' _ _) fun _ => Emits.ofOption _ _

theorem compSignOrMac (k : Bytes) (m : MacCtx) (b : Bytes) (n : Nat) :
    Emits msg (Verif.compSignOrMac E cfg k m b n) [.sign] := by
  unfold Verif.compSignOrMac
  refine Emits.bindCtx fun c _ => ?_
  steps1
  rcases usesSign c with _ | _ | _
  · exact (fail _).mono (List.nil_sublist _)
  · refine Emits.mono (L := []) ?_ (List.nil_sublist _)
    quiet1
  · exact signCose _ _ _ _ _ _

theorem verifySignOrMac (m : MacCtx) (k : Option Bytes) (a b : Bytes) :
    Emits msg (Verif.verifySignOrMac E cfg m k a b) [.verify] := by
  unfold Verif.verifySignOrMac
  refine Emits.bindCtx fun c _ => ?_
  steps1
  rcases usesSign c with _ | _ | _
  · exact (fail _).mono (List.nil_sublist _)
  · exact (require _ _).mono (List.nil_sublist _)
  · exact verifyCose _ _ _ _ _ _

theorem compPrkOut : Emits msg (Verif.compPrkOut E cfg : M σ _) [.derive 7] := by
  unfold Verif.compPrkOut
  steps1
  refine bindL (expandInfo _ (by decide) _ _ _ _ _) fun _ => ?_
  quiet1

theorem compNewPrkOut (b : Bytes) : Emits msg (Verif.compNewPrkOut E cfg b : M σ _) [.derive 11] := by
  unfold Verif.compNewPrkOut
  steps1
  refine bindL (expandInfo _ (by decide) _ _ _ _ _) fun _ => ?_
  quiet1

theorem compPrkExporter : Emits msg (Verif.compPrkExporter E cfg : M σ _) [.derive 10] := by
  unfold Verif.compPrkExporter
  steps1
  exact expandInfo _ (by decide) _ _ _ _ _

theorem ensurePrkOut : Emits msg (Verif.ensurePrkOut E cfg : M σ _) [.derive 7] := by
  unfold Verif.ensurePrkOut
  steps1
  exact whenM _ (mapErr _ (compPrkOut _ _))

theorem bindRequire {b : Bool} {e : Err} {f : Unit → M σ β} {L : List Kind} (h : b = true → Emits msg (f ()) L) :
    Emits msg (M.require b e >>= f) L := by
  cases b
  · exact (Emits.fail e).mono (List.nil_sublist _)
  · exact h rfl

theorem exportSecret (l n : Nat) : Emits msg (Verif.exportSecret E cfg l n) [.derive 7, .derive 10, .derive l] := by
  unfold Verif.exportSecret
  refine bindRequire fun h => ?_
  simp only [Bool.and_eq_true, decide_eq_true_eq] at h
  steps1
  refine bindL (ensurePrkOut _ _) fun _ => ?_
  steps1
  refine bindL (mapErr _ (compPrkExporter _ _)) fun _ => ?_
  steps1
  exact expandInfo _ h.1 _ _ _ _ _

theorem keyUpdate (b : Bytes) : Emits msg (Verif.keyUpdate E cfg b) [.derive 7, .derive 11] := by
  unfold Verif.keyUpdate
  steps1
  refine bindL (ensurePrkOut _ _) fun _ => ?_
  refine bindL (mapErr _ (compNewPrkOut _ _ _)) fun _ => ?_
  quiet1

theorem exportOscore (a b c d : Nat) : Emits msg (Verif.exportOscore E cfg a b c d)
    [.derive 7, .derive 10, .derive 0, .derive 7, .derive 10, .derive 1] := by
  unfold Verif.exportOscore
  steps1
  refine bindL (mapErr _ (exportSecret _ _ _ _)) fun _ => ?_
  refine bindL (mapErr _ (exportSecret _ _ _ _)) fun _ => ?_
  quiet1

/-- the argument check that every message function begins with -/
theorem lead {b : Bool} {e : Err} {f : Unit → M σ β} {L : List Kind} (s : St σ)
    (h : (f () s).1.Defined → ∃ es, (f () s).2.log = s.log ++ es ∧ Within L es)
    (hd : ((M.require b e >>= f) s).1.Defined) :
    ∃ es, ((M.require b e >>= f) s).2.log = s.log ++ es ∧ Within L es := by
  cases b
  · exact ⟨[], by simp [M.require, Bind.bind, M.bind], within_nil _⟩
  · exact h hd

theorem chooseSuite : Emits msg (Verif.chooseSuite : M σ Unit) [] := by
  unfold Verif.chooseSuite
  quiet1

theorem checkSuites (su : Suites) : Emits msg (Verif.checkSuites cfg su : M σ Unit) [] := by
  unfold Verif.checkSuites
  refine Emits.bindCtx fun c _ => ?_
  cases su <;> quiet1

theorem message1Compose (n : Nat) (s : St σ) (hd : (Verif.message1Compose E cfg n s).1.Defined) :
    ∃ es, (Verif.message1Compose E cfg n s).2.log = s.log ++ es ∧ Within [.eadCompose .msg1] es := by
  revert hd
  unfold Verif.message1Compose
  refine lead s fun hd => Emits.enter (msg := .msg1) ?_ hd
  refine bind0 chooseSuite fun _ => ?_
  steps2
  refine bindL (eadCompose _ _) fun _ => ?_
  quiet2

theorem message1Process (b : Bytes) (s : St σ) (hd : (Verif.message1Process E cfg b s).1.Defined) :
    ∃ es, (Verif.message1Process E cfg b s).2.log = s.log ++ es ∧ Within [.eadProcess .msg1] es := by
  revert hd
  unfold Verif.message1Process
  refine lead s fun hd => Emits.enter (msg := .msg1) ?_ hd
  refine bind0 chooseSuite fun _ => ?_
  steps2
  refine bind0 (checkSuites _ _) fun _ => ?_
  steps2
  refine bindL (processEad1 _ _ _ _) fun _ => ?_
  quiet2

theorem message2Compose (n : Nat) (s : St σ) (hd : (Verif.message2Compose E cfg n s).1.Defined) :
    ∃ es, (Verif.message2Compose E cfg n s).2.log = s.log ++ es ∧ Within [.credFetch, .eadCompose .msg2, .derive 1, .derive 2, .sign, .derive 0] es := by
  revert hd
  unfold Verif.message2Compose
  refine lead s fun hd => Emits.enter (msg := .msg2) ?_ hd
  steps2
  refine bindL (credFetch _) fun _ => ?_
  steps2
  refine bindL (eadCompose _ _) fun _ => ?_
  refine bindL (mapErr _ (compPrk3e2m _ _ _ _)) fun _ => ?_
  steps2
  refine bindL (compMac _ _ _ _) fun _ => ?_
  steps2
  refine bindL (compSignOrMac _ _ _ _ _ _) fun _ => ?_
  steps2
  refine bindL (mapErr _ (compKeystream _ _ _ _)) fun _ => ?_
  quiet2

theorem message2Process (b : Bytes) (s : St σ) (hd : (Verif.message2Process E cfg b s).1.Defined) :
    ∃ es, (Verif.message2Process E cfg b s).2.log = s.log ++ es ∧ Within [.derive 0, .eadProcess .msg2, .credVerify, .derive 1, .derive 2, .verify] es := by
  revert hd
  unfold Verif.message2Process
  refine lead s fun hd => Emits.enter (msg := .msg2) ?_ hd
  steps2
  refine bindL (mapErr _ (compKeystream _ _ _ _)) fun _ => ?_
  steps2
  refine bindL (eadProcess _ _) fun _ => ?_
  refine bindL (verifyCred _ _) fun _ => ?_
  refine bindL (mapErr _ (compPrk3e2m _ _ _ _)) fun _ => ?_
  steps2
  refine bindL (compMac _ _ _ _) fun _ => ?_
  refine bindL (mapErr _ (verifySignOrMac _ _ _ _ _ _)) fun _ => ?_
  quiet2

theorem message3Compose (n : Nat) (s : St σ) (hd : (Verif.message3Compose E cfg n s).1.Defined) :
    ∃ es, (Verif.message3Compose E cfg n s).2.log = s.log ++ es ∧ Within [.eadCompose .msg3, .credFetch, .derive 3, .derive 4, .derive 5, .derive 6, .sign, .encrypt] es := by
  revert hd
  unfold Verif.message3Compose
  refine lead s fun hd => Emits.enter (msg := .msg3) ?_ hd
  steps2
  refine bindL (eadCompose _ _) fun _ => ?_
  refine bindL (credFetch _) fun _ => ?_
  steps2
  refine bindL (keyIvAad3 _ _) fun _ => ?_
  refine bindL (mapErr _ (compPrk4e3m _ _ _ _)) fun _ => ?_
  steps2
  refine bindL (mapErr _ (compMac _ _ _ _)) fun _ => ?_
  steps2
  refine bindL (compSignOrMac _ _ _ _ _ _) fun _ => ?_
  steps2
  refine bindL (mapErr _ (aeadEncrypt _ _ _ _ _ _)) fun _ => ?_
  quiet2

theorem message3Process (b : Bytes) (s : St σ) (hd : (Verif.message3Process E cfg b s).1.Defined) :
    ∃ es, (Verif.message3Process E cfg b s).2.log = s.log ++ es ∧ Within [.derive 3, .derive 4, .decrypt, .eadProcess .msg3, .credVerify, .derive 5, .derive 6, .verify] es := by
  revert hd
  unfold Verif.message3Process
  refine lead s fun hd => Emits.enter (msg := .msg3) ?_ hd
  steps2
  refine bindL (keyIvAad3 _ _) fun _ => ?_
  steps2
  refine bindL (mapErr _ (bind0 (require _ _) fun _ => aeadDecrypt _ _ _ _ _ _)) fun _ => ?_
  steps2
  refine bindL (eadProcess _ _) fun _ => ?_
  refine bindL (verifyCred _ _) fun _ => ?_
  refine bindL (mapErr _ (compPrk4e3m _ _ _ _)) fun _ => ?_
  steps2
  refine bindL (mapErr _ (compMac _ _ _ _)) fun _ => ?_
  refine bindL (mapErr _ (verifySignOrMac _ _ _ _ _ _)) fun _ => ?_
  quiet2

theorem message4Compose (n : Nat) (s : St σ) (hd : (Verif.message4Compose E cfg n s).1.Defined) :
    ∃ es, (Verif.message4Compose E cfg n s).2.log = s.log ++ es ∧ Within [.eadCompose .msg4, .derive 8, .derive 9, .encrypt] es := by
  revert hd
  unfold Verif.message4Compose
  refine lead s fun hd => Emits.enter (msg := .msg4) ?_ hd
  steps2
  refine bindL (eadCompose _ _) fun _ => ?_
  steps2
  refine bindL (keyIvAad4 _ _) fun _ => ?_
  steps2
  refine bindL (mapErr _ (aeadEncrypt _ _ _ _ _ _)) fun _ => ?_
  quiet2

theorem message4Process (b : Bytes) (s : St σ) (hd : (Verif.message4Process E cfg b s).1.Defined) :
    ∃ es, (Verif.message4Process E cfg b s).2.log = s.log ++ es ∧ Within [.derive 8, .derive 9, .decrypt, .eadProcess .msg4] es := by
  revert hd
  unfold Verif.message4Process
  refine lead s fun hd => Emits.enter (msg := .msg4) ?_ hd
  steps2
  refine bindL (keyIvAad4 _ _) fun _ => ?_
  steps2
  refine bindL (mapErr _ (aeadDecrypt _ _ _ _ _ _)) fun _ => ?_
  steps2
  refine bindL (eadProcess _ _) fun _ => ?_
  quiet2

end Emits

end Verif
