import Verif.Codes
import Verif.Api

/-!
# Return codes: every function of the library
-/

namespace Verif

open M Spec

variable {σ α β : Type} {T T0 : Table} {S S0 : List Err}

/-! ## Callbacks -/

theorem Does.needKeys : Does T S fine (Verif.needKeys : M σ Unit) := Does.getCtx.bind fun _ => Does.guardUB
theorem Does.needCrypto : Does T S fine (Verif.needCrypto : M σ Unit) := Does.getCtx.bind fun _ => Does.guardUB
theorem Does.needCred : Does T S fine (Verif.needCred : M σ Unit) := Does.getCtx.bind fun _ => Does.guardUB

section
variable (E : Env σ)

theorem Does.importKey (t : KeyType) (b : Bytes) : Does [(.importKey, [])] [] Option.isSome (Verif.importKey E t b) :=
  Does.needKeys.bind fun _ => Does.call (fun _ => rfl) fun b h => by cases b <;> simp_all [Ev.failed]
theorem Does.destroyKey (b : Bytes) : Does [(.destroyKey, [])] [] fine (Verif.destroyKey E b) :=
  Does.needKeys.bind fun _ => Does.call (fun _ => rfl) fun b h => by simp [Ev.failed] at h
theorem Does.makeKeyPair (k : Bytes) : Does [(.makeKeyPair, [])] [] Option.isSome (Verif.makeKeyPair E k) :=
  Does.needCrypto.bind fun _ => Does.call (fun _ => rfl) fun b h => by cases b <;> simp_all [Ev.failed]
theorem Does.keyAgreement (k p : Bytes) : Does [(.keyAgreement, [])] [] Option.isSome (Verif.keyAgreement E k p) :=
  Does.needCrypto.bind fun _ => Does.call (fun _ => rfl) fun b h => by cases b <;> simp_all [Ev.failed]
theorem Does.sign (k b : Bytes) : Does [(.sign, [])] [] Option.isSome (Verif.sign E k b) :=
  Does.needCrypto.bind fun _ => Does.call (fun _ => rfl) fun b h => by cases b <;> simp_all [Ev.failed]
theorem Does.verify (k b c : Bytes) : Does [(.verify, [])] [] id (Verif.verify E k b c) :=
  Does.needCrypto.bind fun _ => Does.call (fun _ => rfl) fun b h => by cases b <;> simp_all [Ev.failed]
theorem Does.extract (k b : Bytes) : Does [(.extract, [])] [] Option.isSome (Verif.extract E k b) :=
  Does.needCrypto.bind fun _ => Does.call (fun _ => rfl) fun b h => by cases b <;> simp_all [Ev.failed]
theorem Does.expand (k b : Bytes) (n : Nat) : Does [(.expand, [])] [] Option.isSome (Verif.expand E k b n) :=
  Does.needCrypto.bind fun _ => Does.call (fun _ => rfl) fun b h => by cases b <;> simp_all [Ev.failed]
theorem Does.encrypt (k i a p : Bytes) : Does [(.encrypt, [])] [] Option.isSome (Verif.encrypt E k i a p) :=
  Does.needCrypto.bind fun _ => Does.call (fun _ => rfl) fun b h => by cases b <;> simp_all [Ev.failed]
theorem Does.decrypt (k i a p : Bytes) : Does [(.decrypt, [])] [] Option.isSome (Verif.decrypt E k i a p) :=
  Does.needCrypto.bind fun _ => Does.call (fun _ => rfl) fun b h => by cases b <;> simp_all [Ev.failed]
theorem Does.hash (b : Bytes) : Does [(.hash, [])] [] Option.isSome (Verif.hash E b) :=
  Does.needCrypto.bind fun _ => Does.call (fun _ => rfl) fun b h => by cases b <;> simp_all [Ev.failed]
theorem Does.credFetch : Does [(.credFetch, [])] [] Option.isSome (Verif.credFetch E) :=
  Does.needCred.bind fun _ => Does.call (fun _ => rfl) fun b h => by cases b <;> simp_all [Ev.failed]
theorem Does.credVerify (c : Cred) : Does [(.credVerify, [])] [] Option.isSome (Verif.credVerify E c) :=
  Does.needCred.bind fun _ => Does.call (fun _ => rfl) fun b h => by cases b <;> simp_all [Ev.failed]
theorem Does.eadCall (m : Msg) : Does [(.eadCompose, [])] [] Option.isSome (M.call (fun e => E.eadCompose e m) (.eadCompose m)) :=
  Does.call (fun _ => rfl) fun b h => by cases b <;> simp_all [Ev.failed]
theorem Does.eadCall' (m : Msg) (ts : List EadTok) :
    Does [(.eadProcess, [])] [] id (M.call (fun e => E.eadProcess e m ts) (.eadProcess m ts)) :=
  Does.call (fun _ => rfl) fun b h => by cases b <;> simp_all [Ev.failed]

theorem Does.memAlloc (cfg : Config) (n : Nat) :
    Does [(.alloc, [.notEnoughMemory])] [.notEnoughMemory] fine (Verif.memAlloc E cfg n) := by
  unfold Verif.memAlloc
  split
  · exact Does.guardUB.bind fun _ => Does.guardUB
  · exact Does.tailBool (Does.call (k := .alloc) (fun _ => rfl) fun b h => by cases b <;> simp_all [Ev.failed])
      (by decide +kernel) (by decide +kernel)

theorem NeverFails.destroyKey (b : Bytes) : NeverFails (Verif.destroyKey E b) := by
  intro s
  simp only [Verif.destroyKey, Verif.needKeys, Bind.bind, M.bind, M.getCtx, M.guardUB, M.call]
  cases s.ctx.hasKeys
  · exact ⟨by simp, [], by simp, Cleanup.nil⟩
  · exact ⟨by simp, [.destroyKey b], by simp, fun v hv => by cases List.mem_singleton.1 hv; rfl⟩
end

theorem NeverFails.modCtx (f : Ctx → Ctx) : NeverFails (M.modCtx f : M σ Unit) := by
  intro s
  exact ⟨by simp [M.modCtx], [], by simp [M.modCtx], Cleanup.nil⟩

theorem NeverFails.whenM {b : Bool} {m : M σ Unit} (h : NeverFails m) : NeverFails (M.whenM b m) := by
  intro s
  cases b with
  | true => exact h s
  | false => exact ⟨by simp [M.whenM], [], by simp [M.whenM], Cleanup.nil⟩

/-- the value is passed on -/
theorem Does.keep {m : M σ α} {g : M σ Unit} {G : α → Bool} (hm : Does T S G m) (hg : Does T S fine g) (hq : NeverFails g) :
    Does T S G (m >>= fun a => g >>= fun _ => (Pure.pure a : M σ α)) := by
  intro s hd
  have e : (m >>= fun a => g >>= fun _ => (Pure.pure a : M σ α)) s
      = M.bind m (fun a => M.bind g fun _ => M.ret a) s := rfl
  rw [e] at hd ⊢
  have hm' := hm s
  unfold M.bind at hd ⊢
  rcases h : m s with ⟨r, s1⟩
  rw [h] at hd hm'
  cases r with
  | err x => exact hm' (by simp)
  | ub u => simp at hd
  | ok a =>
    obtain ⟨l1, e1, e2, -, e3⟩ := hm' (by simp)
    have hg' := hg s1
    have hq' := hq s1
    dsimp only at hd ⊢
    rcases h2 : g s1 with ⟨r2, s2⟩
    rw [h2] at hd hg' hq'
    cases r2 with
    | err x => exact absurd rfl (hq'.1 x)
    | ub u => simp at hd
    | ok u =>
      obtain ⟨l2, e4, e5, -⟩ := hg' (by simp)
      obtain ⟨-, l3, c1, c2⟩ := hq'
      cases List.append_cancel_left (e4.symm.trans c1)
      refine ⟨l1 ++ l2, by simp only [M.ret] at e1 e4 ⊢; rw [e4, e1, List.append_assoc], fun ev hev => ?_, by simp [M.ret],
        e3.cleanup c2⟩
      rcases List.mem_append.1 hev with hev | hev
      · exact e2 ev hev
      · obtain ⟨L, q1, q2⟩ := e5 ev hev
        exact ⟨L, q1, fun hf => absurd (q2 hf) (by simp [Bad])⟩

theorem Does.withKey (E : Env σ) {t : KeyType} {b : Bytes} {e : Err} {op : Bytes → M σ α} {G : α → Bool}
    (h : ∀ k, Does T0 S0 G (op k)) (h1 : T0.le T = true) (h2 : subErr S0 S = true)
    (h3 : Table.le [(.importKey, [e]), (.destroyKey, [])] T = true) (h4 : e ∈ S) :
    Does T S G (Verif.withKey E t b e op) := by
  unfold Verif.withKey
  refine Does.bindOpt (Does.importKey E t b) ?_ ?_ fun kid => ((h kid).mono h1 h2).keep ?_ (NeverFails.destroyKey E kid)
  · refine List.all_eq_true.2 fun k hk => ?_
    have := List.all_eq_true.1 h3 k hk
    cases k <;> first | rfl | exact this
  · simp [subErr, h4]
  · refine (Does.destroyKey E kid).mono ?_ rfl
    refine List.all_eq_true.2 fun k hk => ?_
    have := List.all_eq_true.1 h3 k hk
    cases k <;> first | rfl | exact this

/-! ## Tactics -/

/-- the codes of a computation without effects -/
def Codes (S : List Err) (r : Res α) : Prop := ∀ e, r = .err e → e ∈ S

theorem Does.ofCodes {r : Res α} (h : Codes S r) : Does T S fine (M.ofRes r : M σ α) := Does.ofRes h

/-- callbacks of a key used once -/
abbrev keyed (k : Callback) : Table := [(.importKey, [.crypto]), (.destroyKey, []), (k, [])]

theorem Does.keyed {E : Env σ} {t : KeyType} {b : Bytes} {k : Callback} {op : Bytes → M σ (Option α)}
    (h : ∀ x, Does [(k, [])] [] Option.isSome (op x)) : Does (keyed k) [.crypto] Option.isSome (Verif.withKey E t b .crypto op) :=
  Does.withKey E h (by cases k <;> decide +kernel) (by decide +kernel) (by cases k <;> decide +kernel) (by decide)

theorem Does.keyedB {E : Env σ} {t : KeyType} {b : Bytes} {k : Callback} {op : Bytes → M σ Bool}
    (h : ∀ x, Does [(k, [])] [] id (op x)) : Does (Verif.keyed k) [.crypto] id (Verif.withKey E t b .crypto op) :=
  Does.withKey E h (by cases k <;> decide +kernel) (by decide +kernel) (by cases k <;> decide +kernel) (by decide)


/-- a callback whose result is a value -/
syntax "does_leaf" : tactic
macro_rules | `(tactic| does_leaf) => `(tactic| with_reducible first
  | exact Does.importKey _ _ _ | exact Does.makeKeyPair _ _ | exact Does.keyAgreement _ _ _ | exact Does.sign _ _ _
  | exact Does.verify _ _ _ _ | exact Does.extract _ _ _ | exact Does.expand _ _ _ _ | exact Does.encrypt _ _ _ _ _
  | exact Does.decrypt _ _ _ _ _ | exact Does.hash _ _ | exact Does.credFetch _ | exact Does.credVerify _ _
  | exact Does.eadCall _ _ | exact Does.eadCall' _ _ _
  | exact Does.bind Does.guardUB fun _ => Does.makeKeyPair _ _
  | exact Does.bind Does.guardUB fun _ => Does.keyAgreement _ _ _
  | exact Does.bind Does.guardUB fun _ => Does.extract _ _ _)
macro_rules | `(tactic| does_leaf) => `(tactic| (with_reducible apply Does.keyed); intro _; does_leaf)
macro_rules | `(tactic| does_leaf) => `(tactic| (with_reducible apply Does.keyedB); intro _; does_leaf)

/-- a function of the library -/
syntax "does_fn" : tactic
macro_rules | `(tactic| does_fn) => `(tactic| with_reducible exact Does.memAlloc _ _ _)
macro_rules | `(tactic| does_fn) => `(tactic| with_reducible exact Does.destroyKey _ _)

/-- the codes of a computation without effects -/
syntax "does_codes" : tactic
macro_rules | `(tactic| does_codes) => `(tactic| fail)

macro "does!" : tactic => `(tactic| repeat' with_reducible first
  | intro _
  | exact Does.pure _
  | exact Does.getCtx
  | exact Does.modCtx
  | exact Does.guardUB
  | exact Does.require (by decide +kernel)
  | exact Does.fail (by decide +kernel)
  | exact Does.ofOption (by decide +kernel)
  | (apply Does.ofCodes; does_codes; done)
  | (apply Does.bindOpt; (· does_leaf); (· decide +kernel); (· decide +kernel))
  | (apply Does.tailOpt; (· does_leaf); (· decide +kernel); (· decide +kernel))
  | (apply Does.tailBool; (· does_leaf); (· decide +kernel); (· decide +kernel))
  | refine Does.bind ?_ ?_
  | (apply Does.mono; (· does_fn); (· decide +kernel); (· decide +kernel))
  | (apply Does.mapErr; (· does_fn); (· decide +kernel); (· decide +kernel))
  | refine Does.whenM ?_
  | refine Does.ite ?_ ?_)


/-! ## Common functions -/


theorem Codes.ok {a : α} : Codes S (.ok a) := fun _ h => by cases h
theorem Codes.pure {a : α} : Codes S (pure a : Res α) := fun _ h => by cases h
theorem Codes.ub {u : UB} : Codes S (.ub u : Res α) := fun _ h => by cases h
theorem Codes.err {e : Err} (h : e ∈ S) : Codes S (.err e : Res α) := fun _ q => by cases q; exact h
theorem Codes.require {b : Bool} {e : Err} (h : e ∈ S) : Codes S (Res.require b e) := by
  cases b
  · exact Codes.err h
  · exact Codes.ok
theorem Codes.guardUB {b : Bool} {u : UB} : Codes S (Res.guardUB b u) := by
  cases b
  · exact Codes.ub
  · exact Codes.ok
theorem Codes.ofOption {o : Option α} {e : Err} (h : e ∈ S) : Codes S (Res.ofOption e o) := by
  cases o
  · exact Codes.err h
  · exact Codes.ok
theorem Codes.mapErr {r : Res α} {e : Err} (h : e ∈ S) : Codes S (Res.mapErr e r) := by
  cases r
  · exact Codes.ok
  · exact Codes.err h
  · exact Codes.ub
theorem Codes.bind {r : Res α} {f : α → Res β} (h : Codes S r) (hf : ∀ a, r = .ok a → Codes S (f a)) : Codes S (r >>= f) := by
  cases r with
  | ok a => exact hf a rfl
  | err e => exact Codes.err (h e rfl)
  | ub u => exact Codes.ub

theorem Does.bindRes {r : Res α} {f : α → M σ β} {G : β → Bool} (h : Codes S r) (hf : ∀ a, r = .ok a → Does T S G (f a)) :
    Does T S G (M.ofRes r >>= f) := by
  cases r with
  | ok a => exact hf a rfl
  | err e => exact fun s _ => ⟨[], by simp [Bind.bind, M.bind, M.ofRes], by simp, by
      intro x hx
      have : e = x := by simpa [Bind.bind, M.bind, M.ofRes] using hx
      exact this ▸ h e rfl, Stops.nil⟩
  | ub u => exact fun s hd => by simp [Bind.bind, M.bind, M.ofRes] at hd

macro "codes!" : tactic => `(tactic| repeat' first
  | with_reducible exact Codes.ok
  | with_reducible exact Codes.pure
  | with_reducible exact Codes.ub
  | with_reducible exact Codes.err (by decide)
  | with_reducible exact Codes.require (by decide)
  | with_reducible exact Codes.guardUB
  | with_reducible exact Codes.ofOption (by decide)
  | with_reducible exact Codes.mapErr (by decide)
  | with_reducible assumption
  | with_reducible refine Codes.bind ?_ fun _ _ => ?_
  | split)

end Verif
