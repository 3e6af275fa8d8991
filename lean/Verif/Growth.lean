import Verif.Record

/-!
# The list of callback calls only grows
-/

namespace Verif

open M Spec

variable {σ : Type} {E : Env σ} {cfg : Config}

theorem growth_keyUpdate (b : Bytes) : Pres (Grow (σ := σ)) (keyUpdate E cfg b) := by
  unfold keyUpdate
  repeat' first
  | with_reducible refine Pres.bind grow_frame ?_ (fun _ => ?_)
  | with_reducible exact Pres.getCtx grow_frame
  | with_reducible exact Pres.require grow_frame _ _
  | with_reducible exact Pres.guardUB grow_frame _ _
  | with_reducible refine Pres.mapErr _ ?_
  | exact grow_inner.ensurePrkOut _ _
  | exact grow_inner.compNewPrkOut _ _ _
  | exact Pres.modCtx _ fun s => grow_of_log rfl

theorem growth_exportOscore (a b c d : Nat) : Pres (Grow (σ := σ)) (exportOscore E cfg a b c d) := by
  unfold exportOscore
  repeat' first
  | with_reducible refine Pres.bind grow_frame ?_ (fun _ => ?_)
  | with_reducible exact Pres.getCtx grow_frame
  | with_reducible exact Pres.pure grow_frame _
  | with_reducible exact Pres.require grow_frame _ _
  | with_reducible exact Pres.guardUB grow_frame _ _
  | with_reducible exact Pres.ofRes grow_frame _
  | with_reducible refine Pres.mapErr _ ?_
  | exact grow_inner.exportSecret _ _ _ _
  | exact Pres.modCtx _ fun s => grow_of_log rfl

/-- No call removes anything from the list of callback calls. -/
theorem step_grow {o : Op} {s s' : St σ} {r : Res Out} (h : step E cfg o s = (r, s')) (hd : r.Defined) :
    Grow s s' := by
  cases hk : callOf o with
  | some k =>
    rcases step_message hk h hd with ⟨_, _, rfl⟩ | ⟨_, _, _, rfl⟩ | ⟨_, _, _, g, _⟩ | ⟨_, _, _, g, _⟩
    · exact Saw.refl _
    · exact Saw.refl _
    · exact g
    · exact g
  | none =>
    have key : ∀ {m : M σ Out}, Pres Grow m → m s = (r, s') → Grow s s' := by
      intro m hp hm
      have := hp s (by rw [hm]; exact hd)
      rwa [hm] at this
    refine key ?_ h
    cases o <;> simp only [callOf, reduceCtorEq] at hk <;> unfold step <;>
      try refine Pres.mapOut grow_frame _ ?_
    case exportSecret a b => exact grow_inner.exportSecret _ _ _ _
    case keyUpdate b => exact growth_keyUpdate b
    case exportOscore a b c d => exact growth_exportOscore a b c d
    case nullArg => exact Pres.fail grow_frame _
    all_goals
      first
        | unfold Verif.setMethods
        | unfold Verif.setSuites
        | unfold Verif.setCid
        | unfold Verif.setUserCtx
        | unfold Verif.bindEad
        | unfold Verif.bindKeys
        | unfold Verif.bindCrypto
        | unfold Verif.bindCred
        | unfold contextInit
        | unfold contextDeinit
        | unfold errorGetCode
        | unfold errorGetSuites
      repeat' first
        | with_reducible refine Pres.bind grow_frame ?_ (fun _ => ?_)
        | with_reducible exact Pres.getCtx grow_frame
        | with_reducible exact Pres.pure grow_frame _
        | with_reducible exact Pres.fail grow_frame _
        | with_reducible exact Pres.require grow_frame _ _
        | with_reducible exact Pres.ofRes grow_frame _
        | with_reducible exact Pres.guardUB grow_frame _ _
        | with_reducible refine Pres.whenM grow_frame _ ?_
        | exact Pres.modCtx _ fun s => grow_of_log rfl
        | split

theorem run_grow {s s' : St σ} {h : History} (hr : Run E cfg s h s') : Grow s s' := by
  induction hr with
  | nil s => exact Saw.refl s
  | cons hs hd _ ih => exact (step_grow hs hd).left ih

end Verif
