import Verif.Demand4

/-!
# Memory for every call of a session
-/

namespace Verif

open M Spec

variable {σ : Type} {E : Env σ} {cfg : Config} {Z : Prop} {L : Nat}

/-- `demand`, with the length a short message_2, message_3 or message_4 really leads to -/
def need (cfg : Config) (su : Suite) (L : Nat) : Op → Nat
  | .process2 msg => restLen cfg msg su.eccKey + (su.eccKey + su.hash + 2 * cfg.maxMac + 28 + prkSize cfg su +
      macSize cfg su (msg.length + L) msg.length + 2 * msg.length + contextSize cfg (msg.length + L) msg.length)
  | .process3 msg => aeadSize cfg su + prkSize cfg su +
      macSize cfg su (restLen cfg msg su.aeadTag + L) (restLen cfg msg su.aeadTag) + cfg.maxMac + 5 +
      2 * restLen cfg msg su.aeadTag + contextSize cfg (restLen cfg msg su.aeadTag + L) (restLen cfg msg su.aeadTag)
  | .process4 msg => aeadSize cfg su + restLen cfg msg su.aeadTag
  | o => demand cfg su L o

theorem subSize_zero {a b : Nat} (h : subSize a b = 0) : a = b ∨ a < b := by
  unfold subSize at h
  split at h <;> omega

theorem subSize_le {a b : Nat} (h : ¬ a < b) : subSize a b ≤ a := by
  unfold subSize
  rw [if_pos (by omega)]
  omega

/-- without a wrapped length, the bound is the specified one -/
theorem need_le {c : Ctx} {o : Op} (h : ¬ Wraps c o) : need cfg (suiteFor c o) L o ≤ demand cfg (suiteFor c o) L o := by
  have key : ∀ (msg : Bytes) (n : Nat), (∀ x item rest, BstrItem x item → msg = item ++ rest → ¬ x.length < n) →
      restLen cfg msg n ≤ msg.length := by
    intro msg n hn
    unfold restLen
    cases hx : getMsgBstr cfg.dec msg with
    | none => exact Nat.zero_le _
    | some x =>
      obtain ⟨b, r, hb, rfl⟩ := getMsgBstr_sound hx
      have h1 := subSize_le (hn x b r hb rfl)
      have h2 := BstrItem.le hb
      simp only [Option.elim_some, List.length_append]
      omega
  cases o
  case process2 msg =>
    have := key msg c.suite.eccKey fun x item rest hb e hl => h (e ▸ Wraps.message2 hb hl)
    simp only [need, demand, suiteFor]
    omega
  case process3 msg =>
    have := key msg c.suite.aeadTag fun x item rest hb e hl => h (e ▸ Wraps.message3 hb hl)
    simp only [need, demand, suiteFor, macSize, contextSize]
    omega
  case process4 msg =>
    have := key msg c.suite.aeadTag fun x item rest hb e hl => h (e ▸ Wraps.message4 hb hl)
    simp only [need, demand, suiteFor]
    omega
  all_goals exact Nat.le_refl _

theorem Costs.mapOut_at {α : Type} {s : St σ} {B : Nat} {m : M σ α} (g : α → Out)
    (h : CostsAt cfg Z s B m (fun _ => True) (fun _ => True)) :
    CostsAt cfg Z s B (M.mapOut g m) (fun _ => True) (fun _ => True) := by
  unfold M.mapOut
  exact Costs.leAt (Costs.bindAt (B2 := 0) h fun a s1 _ t1 _ _ => (Costs.pure (g a)).any s1 trivial t1)
    (Nat.le_of_eq (Nat.add_zero _))

theorem Costs.done {α : Type} {I J : Ctx → Prop} {B : Nat} {m : M σ α} {φ : α → Prop} (h : Costs cfg Z I B m J φ) :
    Costs cfg Z I B m (fun _ => True) φ :=
  h.mono (fun _ h => h) (Nat.le_refl _) (fun _ _ => trivial) (fun _ h => h)

theorem mapOut_snd {α : Type} (g : α → Out) (m : M σ α) (s : St σ) : (M.mapOut g m s).2 = (m s).2 := by
  show (M.bind m _ s).2 = _
  unfold M.bind
  rcases m s with ⟨r, s1⟩
  cases r <;> rfl

/-- what a call asks for -/
theorem Costs.step {o : Op} {s : St σ} (hE : Modest E L) (hm : cfg.maxEad ≤ 3) (hr : restarts o = false)
    (hi : Enters cfg s.ctx.suite s.ctx.dhPub.length s.ctx) (ht : s.ctx.th.length ≤ cfg.maxMac)
    (hz : ¬ Suite.Positive (suiteFor s.ctx o) → Z) (he : Empty cfg o s (Verif.step E cfg o s).2 → Z) (hw : Wraps s.ctx o → Z) :
    CostsAt cfg Z s (need cfg (suiteFor s.ctx o) L o) (Verif.step E cfg o) (fun _ => True) (fun _ => True) := by
  have key : ∀ (n : Nat) (msg : Bytes), (∀ x item rest, BstrItem x item → msg = item ++ rest → x.length = n → Z) →
      (∀ x item rest, BstrItem x item → msg = item ++ rest → x.length < n → Z) →
      ∀ x, getMsgBstr cfg.dec msg = some x → subSize x.length n = 0 → Z := by
    intro n msg h1 h2 x hx h0
    obtain ⟨b, r, hb, e⟩ := getMsgBstr_sound hx
    rcases subSize_zero h0 with h | h
    · exact h1 x b r hb e h
    · exact h2 x b r hb e h
  cases o
  case nullArg => exact (Costs.fail _).any s hi ht |>.imp fun es h => ⟨h.1, h.2.1, h.2.2.1, h.2.2.2.1, trivial⟩
  case init => simp [restarts] at hr
  case deinit => simp [restarts] at hr
  case setMethods ms =>
    refine Costs.mapOut (φ := fun _ => True) (J := fun _ => True) (I := fun _ => True) _ ?_ s trivial ht
    unfold Verif.setMethods
    exact Costs.getCtx.seq fun _ _ => (Costs.require _ _).seq fun _ _ => (Costs.require _ _).seq fun _ _ =>
      (Costs.oob _).seq fun _ _ => Costs.mod fun _ _ => trivial
  case setSuites l =>
    refine Costs.mapOut (φ := fun _ => True) (J := fun _ => True) (I := fun _ => True) _ ?_ s trivial ht
    unfold Verif.setSuites
    exact Costs.getCtx.seq fun _ _ => (Costs.require _ _).seq fun _ _ => (Costs.require _ _).seq fun _ _ =>
      (Costs.require _ _).seq fun _ _ => (Costs.oob _).seq fun _ _ => Costs.mod fun _ _ => trivial
  case setCid i =>
    refine Costs.mapOut (φ := fun _ => True) (J := fun _ => True) (I := fun _ => True) _ ?_ s trivial ht
    unfold Verif.setCid
    exact Costs.getCtx.seq fun _ _ => (Costs.require _ _).seq fun _ _ => (Costs.require _ _).seq fun _ _ =>
      (Costs.oob _).seq fun _ _ => Costs.mod fun _ _ => trivial
  case setUserCtx =>
    refine Costs.mapOut (φ := fun _ => True) (J := fun _ => True) (I := fun _ => True) _ ?_ s trivial ht
    unfold Verif.setUserCtx
    exact Costs.getCtx.seq fun _ _ => (Costs.require _ _).any
  case bindEad a b =>
    refine Costs.mapOut (φ := fun _ => True) (J := fun _ => True) (I := fun _ => True) _ ?_ s trivial ht
    unfold Verif.bindEad
    exact Costs.getCtx.seq fun _ _ => (Costs.require _ _).seq fun _ _ => (Costs.require _ _).seq fun _ _ => Costs.mod fun _ _ => trivial
  case bindKeys b =>
    refine Costs.mapOut (φ := fun _ => True) (J := fun _ => True) (I := fun _ => True) _ ?_ s trivial ht
    unfold Verif.bindKeys
    exact Costs.getCtx.seq fun _ _ => (Costs.require _ _).seq fun _ _ => (Costs.require _ _).seq fun _ _ => Costs.mod fun _ _ => trivial
  case bindCrypto b =>
    refine Costs.mapOut (φ := fun _ => True) (J := fun _ => True) (I := fun _ => True) _ ?_ s trivial ht
    unfold Verif.bindCrypto
    exact Costs.getCtx.seq fun _ _ => (Costs.require _ _).seq fun _ _ => (Costs.require _ _).seq fun _ _ => Costs.mod fun _ _ => trivial
  case bindCred b =>
    refine Costs.mapOut (φ := fun _ => True) (J := fun _ => True) (I := fun _ => True) _ ?_ s trivial ht
    unfold Verif.bindCred
    exact Costs.getCtx.seq fun _ _ => (Costs.require _ _).seq fun _ _ => (Costs.require _ _).seq fun _ _ => Costs.mod fun _ _ => trivial
  case compose1 n => exact (Costs.message1Compose hz n).mapOut _ s rfl ht
  case process1 b => exact (Costs.message1Process b).mapOut _ s trivial ht
  case compose2 n => exact (Costs.message2Compose hE hm hz n).mapOut _ s hi ht
  case process2 b =>
    exact (Costs.message2Process hE hz (key _ b (fun x i r hb e h => he (e ▸ .message2 hb h))
      fun x i r hb e h => hw (e ▸ .message2 hb h))).mapOut _ s hi ht
  case compose3 n => exact (Costs.message3Compose hE hm hz n).mapOut _ s hi ht
  case process3 b =>
    exact (Costs.message3Process hE hz (key _ b (fun x i r hb e h => he (e ▸ .message3 hb h))
      fun x i r hb e h => hw (e ▸ .message3 hb h))).mapOut _ s hi ht
  case compose4 n =>
    refine Costs.mapOut_at _ (Costs.message4Compose hE hm hz hi ht fun h => he ?_)
    rw [Verif.step, mapOut_snd]
    exact h
  case process4 b =>
    exact (Costs.message4Process hz (key _ b (fun x i r hb e h => he (e ▸ .message4 hb h))
      fun x i r hb e h => hw (e ▸ .message4 hb h))).mapOut _ s hi ht
  case exportSecret l n => exact (Costs.exportSecret hz l n).done.mapOut _ s rfl ht
  case keyUpdate b => exact (Costs.keyUpdate b).done.mapOut _ s rfl ht
  case exportOscore a b c d => exact (Costs.exportOscore hz a b c d).done.mapOut _ s rfl ht
  case getCode =>
    refine Costs.mapOut (φ := fun _ => True) (J := fun _ => True) (I := fun _ => True) _ ?_ s trivial ht
    unfold Verif.errorGetCode
    exact Costs.getCtx.seq fun _ _ => (Costs.require _ _).seq fun _ _ => (Costs.pure _).any
  case getSuites a b =>
    refine Costs.mapOut (φ := fun _ => True) (J := fun _ => True) (I := fun _ => True) _ ?_ s trivial ht
    unfold Verif.errorGetSuites
    exact Costs.getCtx.seq fun _ _ => (Costs.require _ _).seq fun _ _ => (Costs.require _ _).seq fun _ _ =>
      (Costs.require _ _).seq fun _ _ => (Costs.require _ _).seq fun _ _ => (Costs.require _ _).seq fun _ _ =>
      (Costs.oob _).seq fun _ _ => (Costs.pure _).any

/-- every call of a session starts like this -/
theorem session_enters {e : σ} {log : List Ev} {h : History} {s : St σ} (hs : Session E cfg e log h s) :
    Enters cfg s.ctx.suite s.ctx.dhPub.length s.ctx := by
  refine ⟨rfl, ?_, Nat.le_refl _, session_ead hs⟩
  have := session_ownCid hs
  unfold OwnCid at this
  cases hc : s.ctx.cid with
  | int v => exact Nat.zero_le _
  | bstr b =>
    rw [hc] at this
    exact Nat.le_succ_of_le this.2

/-- the transcript hash fits its array, also after a failure -/
theorem session_th {e : σ} {log : List Ev} {h : History} {s : St σ} (hE : Modest E L) (hm : cfg.maxEad ≤ 3)
    (hs : Session E cfg e log h s) : s.ctx.th.length ≤ cfg.maxMac := by
  refine session_ind (P := fun _ s => s.ctx.th.length ≤ cfg.maxMac) (Nat.zero_le _) ?_ hs
  intro h s o r s' hs ht hst _ hr
  obtain ⟨_, _, _, _, h1, _⟩ := Costs.step (Z := True) (o := o) hE hm hr (session_enters hs) ht
    (fun _ => trivial) (fun _ => trivial) (fun _ => trivial)
  rw [hst] at h1
  exact h1

end Verif
