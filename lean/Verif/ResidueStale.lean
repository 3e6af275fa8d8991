import Verif.ResidueFacts

/-!
# Buffers that nobody reads any more

After a failed message call the session is aborted. From then on no call reads the buffers a failed callback may
have written to.
-/

namespace Verif

open M Spec

variable {σ α β : Type}

/-- `m` neither reads nor writes what `f` changes -/
def Indep (f : Ctx → Ctx) (m : M σ α) : Prop :=
  ∀ s : St σ, m { s with ctx := f s.ctx } = ((m s).1, { (m s).2 with ctx := f (m s).2.ctx })

theorem Indep.bind {f : Ctx → Ctx} {m : M σ α} {k : α → M σ β} (h : Indep f m) (hk : ∀ a, Indep f (k a)) :
    Indep f (m >>= k) := by
  intro s
  simp only [Bind.bind, M.bind, h s]
  rcases hm : m s with ⟨r, s1⟩
  cases r with
  | ok a => exact hk a s1
  | err e => rfl
  | ub u => rfl

theorem Indep.get {f : Ctx → Ctx} {k : Ctx → M σ β} (h : ∀ c, k (f c) = k c) (hk : ∀ c, Indep f (k c)) :
    Indep f (getCtx >>= k) := by
  intro s
  simp only [Bind.bind, M.bind, getCtx, h]
  exact hk s.ctx s

theorem Indep.pure {f : Ctx → Ctx} (a : α) : Indep (σ := σ) f (Pure.pure a) := fun _ => rfl
theorem Indep.fail {f : Ctx → Ctx} (e : Err) : Indep (σ := σ) (α := α) f (M.fail e) := fun _ => rfl
theorem Indep.require {f : Ctx → Ctx} (b : Bool) (e : Err) : Indep (σ := σ) f (M.require b e) := fun _ => rfl
theorem Indep.guardUB {f : Ctx → Ctx} (b : Bool) (u : UB) : Indep (σ := σ) f (M.guardUB b u) := fun _ => rfl
theorem Indep.ofOption {f : Ctx → Ctx} (e : Err) (o : Option α) : Indep (σ := σ) f (M.ofOption e o) := fun _ => rfl
theorem Indep.ofRes {f : Ctx → Ctx} (r : Res α) : Indep (σ := σ) f (M.ofRes r) := fun _ => rfl
theorem Indep.call {f : Ctx → Ctx} (g : σ → β × σ) (ev : β → Ev) : Indep f (M.call g ev) := fun _ => rfl
theorem Indep.modCtx {f g : Ctx → Ctx} (h : ∀ c, g (f c) = f (g c)) : Indep (σ := σ) f (M.modCtx g) := by
  intro s
  simp only [M.modCtx, h]

theorem Indep.mapErr {f : Ctx → Ctx} {m : M σ α} {e : Err} (h : Indep f m) : Indep f (M.mapErr e m) := by
  intro s
  simp only [M.mapErr, h s]
  rcases hm : m s with ⟨r, s1⟩
  cases r <;> rfl

theorem Indep.whenM {f : Ctx → Ctx} {m : M σ Unit} {b : Bool} (h : Indep f m) : Indep f (M.whenM b m) := by
  cases b
  · exact fun _ => rfl
  · exact h

theorem Indep.mapOut {f : Ctx → Ctx} {m : M σ α} {g : α → Out} (h : Indep f m) : Indep f (M.mapOut g m) := by
  unfold M.mapOut
  exact h.bind fun _ => Indep.pure _

/-- `Indep f m`, statement by statement -/
macro "indep!" : tactic => `(tactic|
  repeat' first
  | with_reducible exact Indep.pure _
  | with_reducible exact Indep.fail _
  | with_reducible exact Indep.require _ _
  | with_reducible exact Indep.guardUB _ _
  | with_reducible exact Indep.ofOption _ _
  | with_reducible exact Indep.ofRes _
  | with_reducible exact Indep.call _ _
  | with_reducible exact Indep.modCtx (fun _ => rfl)
  | with_reducible assumption
  | with_reducible refine Indep.get (fun _ => rfl) (fun _ => ?_)
  | with_reducible refine Indep.bind ?_ (fun _ => ?_)
  | with_reducible refine Indep.mapErr ?_
  | with_reducible refine Indep.whenM ?_
  | with_reducible refine Indep.mapOut ?_)

/-- other contents for the buffers that do not matter to an exporter once PRK_out is there -/
def Ctx.over (a b d t : Bytes) (e : List EadTok) (c : Ctx) : Ctx :=
  { c with dhPub := a, dhPriv := b, dhSecret := d, ead := e, th := t }

/-- other contents for the buffers that do not matter to an exporter -/
def Ctx.overDh (a b d : Bytes) (e : List EadTok) (c : Ctx) : Ctx :=
  { c with dhPub := a, dhPriv := b, dhSecret := d, ead := e }

/-- other contents for all buffers that callbacks write to -/
def Ctx.overAll (a b d t p : Bytes) (e : List EadTok) (c : Ctx) : Ctx :=
  { c with dhPub := a, dhPriv := b, dhSecret := d, ead := e, th := t, prk := p }

section

variable (E : Env σ) (cfg : Config)

/-- the calls that neither touch the handshake nor its keys -/
theorem plain_indep {o : Op} (hk : callOf o = none) (hr : restarts o = false) (he : ∀ l n, o ≠ .exportSecret l n)
    (hu : isUpdate o = false) (ho : isOscore o = false) (a b d t p : Bytes) (e : List EadTok) :
    Indep (Ctx.overAll a b d t p e) (step E cfg o) := by
  cases o <;> simp only [callOf, restarts, isUpdate, isOscore, reduceCtorEq, Bool.true_eq_false] at hk hr hu ho
  case exportSecret l n => exact absurd rfl (he l n)
  all_goals unfold step
  case nullArg => indep!
  case setMethods ms => unfold setMethods; indep!
  case setSuites l => unfold setSuites; indep!
  case setCid c => unfold setCid; indep!
  case setUserCtx => unfold setUserCtx; indep!
  case bindEad x y => unfold bindEad; indep!
  case bindKeys x => unfold bindKeys; indep!
  case bindCrypto x => unfold bindCrypto; indep!
  case bindCred x => unfold bindCred; indep!
  case getCode => unfold errorGetCode; indep!
  case getSuites x y => unfold errorGetSuites; indep!

variable {a b d t : Bytes} {e : List EadTok}

theorem memAlloc_indep {f : Ctx → Ctx} (n : Nat) : Indep f (memAlloc E cfg n) := by
  unfold memAlloc
  cases cfg.backend <;> simp only <;> indep!

theorem expandInfo_over (n : Nat) (k : Bytes) (l : Nat) (c : Bytes) (x y : Nat) :
    Indep (Ctx.over a b d t e) (expandInfo E n k l c x y) := by
  unfold expandInfo withKey importKey destroyKey expand needKeys needCrypto
  indep!

theorem expandInfo_overDh (n : Nat) (k : Bytes) (l : Nat) (c : Bytes) (x y : Nat) :
    Indep (Ctx.overDh a b d e) (expandInfo E n k l c x y) := by
  unfold expandInfo withKey importKey destroyKey expand needKeys needCrypto
  indep!

theorem exportTail_over (l n hash : Nat) : Indep (Ctx.over a b d t e) (exportTail E cfg l n hash) := by
  have h1 := fun n => memAlloc_indep (f := Ctx.over a b d t e) E cfg n
  have h2 := fun n k l c x y => expandInfo_over (a := a) (b := b) (d := d) (t := t) (e := e) E n k l c x y
  unfold exportTail compPrkExporter
  indep!
  all_goals first | with_reducible exact h1 _ | with_reducible exact h2 _ _ _ _ _ _

theorem exportTail_overDh (l n hash : Nat) : Indep (Ctx.overDh a b d e) (exportTail E cfg l n hash) := by
  have h1 := fun n => memAlloc_indep (f := Ctx.overDh a b d e) E cfg n
  have h2 := fun n k l c x y => expandInfo_overDh (a := a) (b := b) (d := d) (e := e) E n k l c x y
  unfold exportTail compPrkExporter
  indep!
  all_goals first | with_reducible exact h1 _ | with_reducible exact h2 _ _ _ _ _ _

theorem ensurePrkOut_overDh : Indep (Ctx.overDh a b d e) (ensurePrkOut E cfg) := by
  have h1 := fun n => memAlloc_indep (f := Ctx.overDh a b d e) E cfg n
  have h2 := fun n k l c x y => expandInfo_overDh (a := a) (b := b) (d := d) (e := e) E n k l c x y
  unfold ensurePrkOut compPrkOut
  indep!
  all_goals first | with_reducible exact h1 _ | with_reducible exact h2 _ _ _ _ _ _

theorem exportSecret_tail (l n : Nat) : exportSecret E cfg l n = (do
    M.require (l ≤ 65535 && n != 0) .invalidArgument
    M.require (l == 0 || l == 1 || 32768 ≤ l) .badState
    let c ← getCtx
    M.require (c.status.toNat ≤ Status.persisted.toNat && PrkState.prk4e3m.toNat ≤ c.prkState.toNat) .badState
    ensurePrkOut E cfg
    exportTail E cfg l n c.suite.hash) := rfl

theorem exportSecret_overDh (l n : Nat) : Indep (Ctx.overDh a b d e) (exportSecret E cfg l n) := by
  have h1 := ensurePrkOut_overDh (a := a) (b := b) (d := d) (e := e) E cfg
  have h2 := fun h => exportTail_overDh (a := a) (b := b) (d := d) (e := e) E cfg l n h
  rw [exportSecret_tail]
  indep!
  all_goals exact h2 _

end

/-- `c'` differs from the aborted context `c` at most in buffers that failed callbacks may have written to: those
of the key agreement and of the EAD, TH unless it is TH_4, the key unless it is PRK_4e3m or PRK_out. -/
def Stale (c c' : Ctx) : Prop :=
  c.status = .aborted ∧ ∃ a b d t p e, c' = Ctx.overAll a b d t p e c ∧ (c.thState = .th4 → t = c.th) ∧
    (PrkState.prk4e3m.toNat ≤ c.prkState.toNat → p = c.prk)

theorem stale_leave {w : Residue σ} {s : St σ} (h : s.ctx.status = .aborted) {c : Ctx} (hc : Stale c s.ctx ∨ c = s.ctx) :
    Stale c (leave w s).ctx := by
  simp only [leave, h, if_true]
  have hc : Stale c s.ctx := by
    rcases hc with hc | rfl
    · exact hc
    · exact ⟨h, s.ctx.dhPub, s.ctx.dhPriv, s.ctx.dhSecret, s.ctx.th, s.ctx.prk, s.ctx.ead, rfl, fun _ => rfl, fun _ => rfl⟩
  obtain ⟨h1, a, b, d, t, p, e, h2, h3, h4⟩ := hc
  refine ⟨h1, w.dhPub s.env, w.dhPriv s.env, w.dhSecret s.env, if s.ctx.thState = .th4 then s.ctx.th else w.th s.env,
    if PrkState.prk4e3m.toNat ≤ s.ctx.prkState.toNat then s.ctx.prk else w.prk s.env, w.ead s.env, ?_, ?_, ?_⟩
  · simp only [h2, Ctx.overAll, h1]
  · intro h5
    rw [h2]
    simp only [Ctx.overAll, h5, if_true]
    exact h3 h5
  · intro h5
    rw [h2]
    simp only [Ctx.overAll, h5, if_true]
    exact h4 h5

end Verif
