import Verif.Props.Separation
import Verif.Bridge
import Verif.Message3

/-!
# Steps that took place before a given call to the application

Stepping through an API function, that may have failed in the end, from the knowledge that it signed or computed a MAC.
-/

namespace Verif

open M Spec

variable {σ α β : Type}

/-- a call has at most one kind -/
theorem Spec.IsKind.unique {k k' : Kind} {v : Ev} (h : IsKind k v) (h' : IsKind k' v) : k = k' := by
  cases h with
  | derive h1 h2 =>
    generalize hv : Ev.expand _ _ _ _ = w at h'
    cases h' with
    | derive h3 h4 =>
      simp only [Ev.expand.injEq] at hv
      rw [info_label (by omega) (by omega) hv.2.1]
    | _ => cases hv
  | _ => cases h'; rfl

theorem Spec.IsKind.not_kindless {k : Kind} {v : Ev} (h : IsKind k v) : kindless v = false := by cases h <;> rfl

/-- a call of some kind has one of the kinds listed -/
theorem within_mem {ks : List Kind} {es : List Ev} (h : Within ks es) {k : Kind} {v : Ev} (hk : IsKind k v)
    (hv : v ∈ es) : k ∈ ks := by
  induction h with
  | nil => cases hv
  | skip h1 _ ih =>
    rcases List.mem_cons.1 hv with rfl | hv
    · rw [hk.not_kindless] at h1; cases h1
    · exact ih hv
  | hit h1 _ ih =>
    rcases List.mem_cons.1 hv with rfl | hv
    · rw [hk.unique h1]; exact List.mem_cons_self ..
    · exact List.mem_cons_of_mem _ (ih hv)
  | miss _ ih => exact List.mem_cons_of_mem _ (ih hv)

/-- calls of a kind that is listed only once -/
theorem within_once {ks : List Kind} {es : List Ev} (h : Within ks es) {k : Kind} {v w : Ev} (hn : ks.count k ≤ 1)
    (hk : IsKind k v) (hk' : IsKind k w) (hv : v ∈ es) (hw : w ∈ es) : v = w := by
  induction h with
  | nil => cases hv
  | skip h1 _ ih =>
    have hv : v ∈ _ := (List.mem_cons.1 hv).resolve_left (by rintro rfl; rw [hk.not_kindless] at h1; cases h1)
    have hw : w ∈ _ := (List.mem_cons.1 hw).resolve_left (by rintro rfl; rw [hk'.not_kindless] at h1; cases h1)
    exact ih hn hv hw
  | @hit k1 ks u es h1 h2 ih =>
    have hle : ks.count k ≤ (k1 :: ks).count k := List.count_le_count_cons
    have out : ∀ {a : Ev}, IsKind k u → IsKind k a → a ∈ es → False := by
      intro a hu ha hm
      have := hu.unique h1
      subst this
      have := List.count_pos_iff.2 (within_mem h2 ha hm)
      rw [List.count_cons_self] at hn
      omega
    rcases List.mem_cons.1 hv with e | hv' <;> rcases List.mem_cons.1 hw with e' | hw'
    · rw [e, e']
    · exact (out (e ▸ hk) hk' hw').elim
    · exact (out (e' ▸ hk') hk hv').elim
    · exact ih (by omega) hv' hw'
  | @miss k1 ks es _ ih =>
    have hle : ks.count k ≤ (k1 :: ks).count k := List.count_le_count_cons
    exact ih (by omega) hv hw

/-- message `msg` is being worked on, and `v` was not called since `s0` -/
def Not (v : Ev) (msg : Msg) (s0 s : St σ) : Prop := s.ctx.message = msg ∧ ∃ es, s.log = s0.log ++ es ∧ v ∉ es

theorem Not.not_mem {v : Ev} {msg : Msg} {s0 s : St σ} (h : Not v msg s0 s) : v ∉ during s0 s := by
  obtain ⟨_, es, h1, h2⟩ := h
  unfold during
  rw [h1, List.drop_left]
  exact h2

/-- a program that makes no call of kind `k` -/
def Sans (k : Kind) (msg : Msg) (m : M σ α) : Prop := ∃ ks, Emits msg m ks ∧ k ∉ ks

theorem Emits.sans {k : Kind} {msg : Msg} {m : M σ α} {ks : List Kind} (h : Emits msg m ks)
    (hk : k ∉ ks := by decide) : Sans k msg m := ⟨ks, h, hk⟩

theorem Sans.after {k : Kind} {v : Ev} {msg : Msg} {m : M σ α} (hm : Sans k msg m) (hv : IsKind k v) {s0 s s' : St σ}
    {r : Res α} (hn : Not v msg s0 s) (h : m s = (r, s')) (hd : r.Defined) : Not v msg s0 s' := by
  obtain ⟨ks, he, hk⟩ := hm
  obtain ⟨h1, es, h2, h3⟩ := hn
  have h4 := he s h1
  rw [h] at h4
  obtain ⟨h5, es', h6, h7⟩ := h4 hd
  refine ⟨h5, es ++ es', by rw [h6, h2, List.append_assoc], fun hm => ?_⟩
  rcases List.mem_append.1 hm with hm | hm
  · exact h3 hm
  · exact hk (within_mem h7 hv hm)

/-- If `v` was called in the end, it was not in this step, and this step succeeded. -/
theorem Sans.step {k : Kind} {v : Ev} {msg : Msg} {m : M σ α} (hm : Sans k msg m) (hv : IsKind k v) {f : α → M σ β}
    {s0 s s' : St σ} {r : Res β} (hn : Not v msg s0 s) (h : (m >>= f) s = (r, s')) (hd : r.Defined)
    (hx : ¬ Not v msg s0 s') : ∃ a s1, m s = (.ok a, s1) ∧ f a s1 = (r, s') ∧ Not v msg s0 s1 := by
  rcases bind_cases h hd with ⟨a, s1, h1, h2⟩ | ⟨e, h1⟩
  · exact ⟨a, s1, h1, h2, hm.after hv hn h1 (by simp)⟩
  · exact absurd (hm.after hv hn h1 (by simp)) hx

/-- the start of every function -/
theorem Not.enter {ok : Ctx → Bool} {msg : Msg} {ro : Role} {b : Bool} {e : Err} {f : Unit → M σ β} {s s' : St σ}
    {r : Res β} (h : (M.require b e >>= fun _ => Verif.enter ok msg ro >>= f) s = (r, s')) (hd : r.Defined)
    {v : Ev} (hx : v ∈ during s s') :
    ∃ s1, Verif.enter ok msg ro s = (.ok (), s1) ∧ f () s1 = (r, s') ∧ Not v msg s s1 ∧ ¬ Not v msg s s' := by
  have hq : ¬ Not v msg s s' := fun hn => hn.not_mem hx
  have same : s.log = s'.log → False := by
    intro hl
    unfold during at hx
    rw [← hl, List.drop_length] at hx
    cases hx
  rcases bind_cases h hd with ⟨_, s1, h1, h2⟩ | ⟨_, h1⟩
  · obtain ⟨_, rfl⟩ := require_ok.1 h1
    rcases bind_cases h2 hd with ⟨_, s2, h3, h4⟩ | ⟨_, h3⟩
    · obtain ⟨_, c1, l1⟩ := enter_st h3
      exact ⟨s2, h3, h4, ⟨by rw [c1], [], by rw [l1]; simp, by simp⟩, hq⟩
    · exfalso
      unfold Verif.enter at h3
      rcases bind_cases h3 (by simp) with ⟨_, s2, h4, h5⟩ | ⟨_, h4⟩
      · obtain ⟨rfl, rfl⟩ := getCtx_ok.1 h4
        rcases bind_cases h5 (by simp) with ⟨_, s2, h6, h7⟩ | ⟨_, h6⟩
        · simp [M.modCtx] at h7
        · unfold M.require at h6
          split at h6
          · simp at h6
          · simp only [Prod.mk.injEq] at h6
            exact same (by rw [h6.2])
      · simp [M.getCtx] at h4
  · exfalso
    unfold M.require at h1
    split at h1
    · simp at h1
    · simp only [Prod.mk.injEq] at h1
      exact same (by rw [h1.2])

theorem within_kindless {es : List Ev} (h : Within [] es) {v : Ev} (hv : kindless v = false) : v ∉ es := by
  generalize hk : ([] : List Kind) = ks at h
  induction h with
  | nil => simp
  | skip h1 _ ih =>
    intro hm
    rcases List.mem_cons.1 hm with rfl | hm
    · rw [hv] at h1; cases h1
    · exact ih hk hm
  | hit => cases hk
  | miss => cases hk

/-- a step without calls that have a kind -/
theorem quiet_step {m : M σ α} {f : α → M σ β} {v : Ev} (hv : kindless v = false) {s0 s s' : St σ} {r : Res β}
    (hm : Emits s.ctx.message m []) (hn : Not v s.ctx.message s0 s) (h : (m >>= f) s = (r, s')) (hd : r.Defined)
    (hx : v ∈ during s0 s') :
    ∃ a s1, m s = (.ok a, s1) ∧ f a s1 = (r, s') ∧ Not v s.ctx.message s0 s1 := by
  have key : ∀ {x : Res α} {s1 : St σ}, m s = (x, s1) → x.Defined → Not v s.ctx.message s0 s1 := by
    intro x s1 h1 h2
    have h3 := hm s rfl
    rw [h1] at h3
    obtain ⟨h4, es, h5, h6⟩ := h3 h2
    obtain ⟨_, es', h7, h8⟩ := hn
    exact ⟨h4, es' ++ es, by rw [h5, h7, List.append_assoc], fun hm =>
      (List.mem_append.1 hm).elim h8 (within_kindless h6 hv)⟩
  rcases bind_cases h hd with ⟨a, s1, h1, h2⟩ | ⟨e, h1⟩
  · exact ⟨a, s1, h1, h2, key h1 (by simp)⟩
  · exact absurd hx (key h1 (by simp)).not_mem

/-- MAC_2 or MAC_3 was computed, by a call to Expand that succeeded: then the step succeeded. -/
theorem compMac_event {E : Env σ} {cfg : Config} {buf : Bytes} {n : Nat} {s s' : St σ} {r : Res Bytes}
    (h : compMac E cfg buf n s = (r, s')) (hd : r.Defined) {kid i : Bytes} {k : Nat} {o : Bytes}
    (hv : Ev.expand kid i k (some o) ∈ during s s') : ∃ mac, r = .ok mac := by
  generalize hw : Ev.expand kid i k (some o) = v at hv
  have hk : kindless v = false := by rw [← hw]; rfl
  have hn : Not v s.ctx.message s s := ⟨rfl, [], by simp, by simp⟩
  unfold compMac at h
  obtain ⟨c, s1, h1, h, hn⟩ := quiet_step hk Emits.getCtx hn h hd hv
  obtain ⟨rfl, rfl⟩ := getCtx_ok.1 h1
  obtain ⟨_, s1, h1, h, hn⟩ := quiet_step hk (Emits.require _ _) hn h hd hv
  obtain ⟨_, rfl⟩ := require_ok.1 h1
  obtain ⟨_, s1, h1, h, hn⟩ := quiet_step hk (Emits.require _ _) hn h hd hv
  obtain ⟨_, rfl⟩ := require_ok.1 h1
  obtain ⟨_, s1, h1, h, hn⟩ := quiet_step hk (Emits.require _ _) hn h hd hv
  obtain ⟨_, rfl⟩ := require_ok.1 h1
  obtain ⟨_, s1, h1, h, hn⟩ := quiet_step hk (Emits.require _ _) hn h hd hv
  obtain ⟨_, rfl⟩ := require_ok.1 h1
  obtain ⟨_, s1, h1, h, hn⟩ := quiet_step hk (Emits.memAlloc _ _ _) hn h hd hv
  rw [← hn.1] at hn
  obtain ⟨info, s2, h2, h, hn⟩ := quiet_step hk (Emits.ofOption _ _) hn h hd hv
  obtain ⟨_, rfl⟩ := ofOption_ok.1 h2
  obtain ⟨_, s2, h2, h, hn⟩ := quiet_step hk (Emits.require _ _) hn h hd hv
  obtain ⟨_, rfl⟩ := require_ok.1 h2
  -- the key
  have key : ∀ {x : Res (Option Bytes)} {s2 : St σ},
      withKey E .expand s.ctx.prk .crypto (fun kid => expand E kid info n) s1 = (x, s2) → x.Defined →
      v ∈ during s s2 → ∃ o, x = .ok (some o) := by
    intro x s2 h hd hv
    unfold withKey at h
    obtain ⟨kk, s3, h1, h, hn⟩ := quiet_step hk (Emits.importKey _ _ _) hn h hd hv
    rw [← hn.1] at hn
    obtain ⟨kk', s4, h1, h, hn⟩ := quiet_step hk (Emits.ofOption _ _) hn h hd hv
    obtain ⟨_, rfl⟩ := ofOption_ok.1 h1
    rcases bind_cases h hd with ⟨a, s5, h1, h⟩ | ⟨e, h1⟩
    · have h1' := h1
      simp only [expand, bind_ok, needCrypto_ok, call_ok] at h1'
      obtain ⟨_, _, ⟨_, rfl⟩, _, rfl⟩ := h1'
      cases a with
      | none =>
        obtain ⟨hm, es, h5, h6⟩ := hn
        have hn : Not v s3.ctx.message s { s3 with env := (E.expand s3.env kk' info n).2, log := s3.log ++ [.expand kk' info n none] } :=
          ⟨rfl, es ++ [.expand kk' info n none], by simp [h5], by
            rw [List.mem_append, not_or]
            exact ⟨h6, by rw [← hw]; simp⟩⟩
        obtain ⟨_, s6, h7, h, hn⟩ := quiet_step hk (Emits.destroyKey _ _) hn h hd hv
        have h8 : s6 = s2 := congrArg Prod.snd h
        subst h8
        exact absurd hv hn.not_mem
      | some o =>
        rcases bind_cases h hd with ⟨_, s6, _, h⟩ | ⟨e, h1⟩
        · exact ⟨o, (congrArg Prod.fst h).symm⟩
        · exfalso
          simp only [destroyKey, needKeys, Bind.bind, M.bind, M.getCtx, M.guardUB, M.call] at h1
          split at h1 <;> rename_i h2 <;> split at h2 <;> simp_all
    · exfalso
      simp only [expand, needCrypto, Bind.bind, M.bind, M.getCtx, M.guardUB, M.call] at h1
      split at h1 <;> rename_i h2 <;> split at h2 <;> simp_all
  rcases bind_cases h hd with ⟨x, s2, h1, h2⟩ | ⟨e, h1⟩
  · unfold M.ofOption at h2
    cases x with
    | some o => exact ⟨o, (congrArg Prod.fst h2).symm⟩
    | none =>
      simp only [M.fail, Prod.mk.injEq] at h2
      obtain ⟨rfl, rfl⟩ := h2
      obtain ⟨_, h3⟩ := key h1 (by simp) hv
      cases h3
  · obtain ⟨_, h3⟩ := key h1 (by simp) hv
    cases h3

end Verif
