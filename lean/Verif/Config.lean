import Verif.After

/-!
# The configuration of a context

Only configuration calls change it; what they preserve holds in every session.
-/

namespace Verif

open M Spec

variable {σ : Type} {E : Env σ} {cfg : Config}

/-- what configuration calls set -/
def Ctx.conf (c : Ctx) : Ctx :=
  { Ctx.zero with
    isInit := c.isInit, method := c.method, csuiteArr := c.csuiteArr, csuiteLen := c.csuiteLen, cid := c.cid
    hasKeys := c.hasKeys, hasCrypto := c.hasCrypto, hasCred := c.hasCred
    hasEadCompose := c.hasEadCompose, hasEadProcess := c.hasEadProcess }

theorem conf_ctl1 {c c' : Ctx} (h : c'.ctl1.conf = c.ctl1.conf) : c'.conf = c.conf := h

theorem conf_keep {c c' : Ctx} (h : c'.keep = c.keep) : c'.conf = c.conf := (congrArg Ctx.conf h :)

/-- a call other than initialisation keeps the configuration, or is a configuration call -/
theorem conf_step {o : Op} {s s' : St σ} {r : Res Out} (h : step E cfg o s = (r, s')) (hd : r.Defined)
    (hr : restarts o = false) : s'.ctx.conf = s.ctx.conf ∨ (documented cfg o ∧ Stored s.ctx s'.ctx o) := by
  cases hk : callOf o with
  | some k =>
    refine Or.inl ?_
    rcases step_message hk h hd with ⟨_, _, rfl⟩ | ⟨_, _, _, rfl⟩ | ⟨_, _, _, _, _, _, hc⟩ | ⟨_, _, _, _, hc⟩
    · rfl
    · rfl
    · exact conf_ctl1 (by rw [hc]; rfl)
    · exact conf_ctl1 (by rw [hc]; rfl)
  | none =>
    by_cases hs : isSetter o = true
    · rcases C30_setters (E := E) (cfg := cfg) hs s with ⟨_, hd', c', h1, h2⟩ | ⟨_, e, _, h1⟩
      · rw [h] at h1
        simp only [Prod.mk.injEq] at h1
        rw [h1.2]; exact Or.inr ⟨hd', h2⟩
      · rw [h] at h1
        simp only [Prod.mk.injEq] at h1
        rw [h1.2]; exact Or.inl rfl
    · refine Or.inl ?_
      cases o <;> simp only [callOf, reduceCtorEq] at hk <;> simp only [restarts, Bool.true_eq_false] at hr <;>
        simp only [isSetter, not_true_eq_false] at hs
      case nullArg =>
        simp only [step, M.fail, Prod.mk.injEq] at h
        rw [h.2]
      case exportSecret l n =>
        obtain ⟨r0, h0, hr0⟩ := step_export h
        have hd0 : r0.Defined := by
          rcases hr0 with ⟨a, rfl, _⟩ | ⟨e, rfl, _⟩ | ⟨u, rfl, rfl⟩ <;> simp_all
        have h1 := exportSecret_mod E cfg l n s
        rw [h0] at h1
        exact conf_keep (h1 hd0).2.1
      case keyUpdate b =>
        obtain ⟨r0, h0, ⟨a, rfl, rfl⟩ | ⟨e, rfl, rfl⟩ | ⟨u, rfl, rfl⟩⟩ := step_update h
        · obtain ⟨_, _, _, hq, p, q, kid, _, _, _, _, hc⟩ := keyUpdate_ok h0
          rw [hc]; rfl
        · exact conf_keep (keyUpdate_err E cfg h0).2.1
        · simp at hd
      case exportOscore a b c d =>
        obtain ⟨r0, h0, hr0⟩ := step_oscore h
        have hd0 : r0.Defined := by
          rcases hr0 with ⟨a, rfl, _⟩ | ⟨e, rfl, _⟩ | ⟨u, rfl, rfl⟩ <;> simp_all
        have h1 := exportOscore_mod E cfg a b c d s
        rw [h0] at h1
        exact conf_keep (h1 hd0).2.1
      case getCode => rw [getCode_state h]
      case getSuites a b => rw [getSuites_state h hd]

/-- What holds of a new context and is preserved by configuration calls holds in every session. -/
theorem session_conf {P : Ctx → Prop} (h0 : P Ctx.fresh.conf)
    (hP : ∀ {c c' : Ctx} {o : Op}, documented cfg o → Stored c c' o → P c.conf → P c'.conf)
    {e : σ} {log : List Ev} {h : History} {s : St σ} (hs : Session E cfg e log h s) : P s.ctx.conf := by
  obtain ⟨hr, hn⟩ := hs
  generalize hs0 : (⟨Ctx.fresh, e, log⟩ : St σ) = s0 at hr
  have h0 : P s0.ctx.conf := by rw [← hs0]; exact h0
  clear hs0
  induction hr with
  | nil s => exact h0
  | @cons s s1 s2 o r h hs hd hr ih =>
    refine ih (fun p hp => hn p (List.mem_cons_of_mem _ hp)) ?_
    rcases conf_step hs hd (hn (o, r) (List.mem_cons_self ..)) with h1 | ⟨h1, h2⟩
    · rw [h1]; exact h0
    · exact hP h1 h2 h0

/-- the number of suites is that of the stored ones -/
theorem session_suites {e : σ} {log : List Ev} {h : History} {s : St σ} (hs : Session E cfg e log h s) :
    (suites s.ctx).length = s.ctx.csuiteLen := by
  refine session_conf (E := E) (cfg := cfg) (P := fun c => (suites c).length = c.csuiteLen) rfl ?_ hs
  intro c c' o _ ho hc
  cases o <;> simp only [Stored] at ho
  case setSuites =>
    have h1 : (suites c').length = c'.csuiteLen := by rw [ho.1, ho.2.1]
    exact h1
  all_goals subst ho; exact hc

theorem session_ownCid {e : σ} {log : List Ev} {h : History} {s : St σ} (hs : Session E cfg e log h s) :
    OwnCid cfg s.ctx := by
  refine session_conf (E := E) (cfg := cfg) (P := fun c => OwnCid cfg c) ⟨by decide, by decide⟩ ?_ hs
  intro c c' o hd ho hc
  exact (show OwnCid cfg c' from OwnCid.stored (show OwnCid cfg c from hc) hd ho)

end Verif
