import Verif.Safe2
import Verif.Message3

/-!
# Runs without undefined behaviour: the message functions
-/

namespace Verif

open M Spec

variable {σ α β : Type}

/-- undefined behaviour of a sequence -/
theorem ub_bind {m : M σ α} {f : α → M σ β} {s s' : St σ} {u : UB} (h : (m >>= f) s = (.ub u, s')) :
    m s = (.ub u, s') ∨ ∃ a s1, m s = (.ok a, s1) ∧ f a s1 = (.ub u, s') := by
  replace h : M.bind m f s = (.ub u, s') := h
  unfold M.bind at h
  rcases hm : m s with ⟨r, s1⟩
  rw [hm] at h
  cases r with
  | ok a => exact Or.inr ⟨a, s1, rfl, h⟩
  | err e => cases h
  | ub v => simp only [Prod.mk.injEq, Res.ub.injEq] at h; left; rw [h.1, h.2]

theorem ub_mapErr {m : M σ α} {e : Err} {s s' : St σ} {u : UB} (h : M.mapErr e m s = (.ub u, s')) : m s = (.ub u, s') := by
  unfold M.mapErr at h
  rcases hm : m s with ⟨r, s1⟩
  rw [hm] at h
  cases r with
  | ok a => cases h
  | err e => cases h
  | ub v => simp only [Prod.mk.injEq, Res.ub.injEq] at h; rw [h.1, h.2]

theorem ub_mapOut {m : M σ α} {g : α → Out} {s s' : St σ} {u : UB} (h : M.mapOut g m s = (.ub u, s')) : m s = (.ub u, s') := by
  obtain ⟨r, h1, ⟨a, rfl, h2⟩ | ⟨_, _, h2⟩ | ⟨v, rfl, h2⟩⟩ := mapOut_cases h
  · cases h2
  · cases h2
  · cases h2; exact h1

theorem ub_ofRes {r : Res α} {s s' : St σ} {u : UB} (h : M.ofRes r s = (.ub u, s')) : r = .ub u := by
  cases r with
  | ok a => cases h
  | err e => cases h
  | ub v => simp only [M.ofRes, Prod.mk.injEq, Res.ub.injEq] at h; rw [h.1]

theorem ub_guard {b : Bool} {v u : UB} {s s' : St σ} (h : M.guardUB b v s = (.ub u, s')) : b = false := by
  cases b
  · rfl
  · cases h

theorem Keep.cases {I : Ctx → Prop} {L : UB → Prop} {m : M σ α} {f : α → M σ β} {Q : α → Prop} (hm : Keep I L m Q)
    {s s' : St σ} {u : UB} (hi : I s.ctx) (h : (m >>= f) s = (.ub u, s')) :
    L u ∨ ∃ a s1, m s = (.ok a, s1) ∧ (I s1.ctx ∧ Q a) ∧ f a s1 = (.ub u, s') := by
  rcases ub_bind h with h1 | ⟨a, s1, h1, h2⟩
  · exact Or.inl (hm.ub hi h1)
  · exact Or.inr ⟨a, s1, h1, hm.ok hi h1, h2⟩

/-- a context that a message function may find -/
structure Found (cfg : Config) (c : Ctx) : Prop where
  keys : c.hasKeys = true
  crypto : c.hasCrypto = true
  cred : c.hasCred = true
  th : c.th.length ≤ cfg.maxMac
  ead : c.ead = []
  cid : OwnCid cfg c

section

variable {E : Env σ} {cfg : Config} {s s' : St σ} {u : UB}

/-- the start of a message function -/
theorem enter_cases {ok : Ctx → Bool} {m : Msg} {r : Role} {f : Unit → M σ α}
    (hf : ok s.ctx = true → Found cfg s.ctx) (h : (enter ok m r >>= f) s = (.ub u, s')) :
    ∃ s1, enter ok m r s = (.ok (), s1) ∧ ok s.ctx = true ∧ Able cfg s.ctx.suite s.ctx.chosenMethod m s1.ctx ∧
      s1.log = s.log ∧ s1.ctx.suite = s.ctx.suite ∧ f () s1 = (.ub u, s') := by
  by_cases hs : ok s.ctx = true
  · have he : enter ok m r s = (.ok (), { s with ctx := { s.ctx with
        status := .aborted, errorCode := .unspecified, message := m, role := r } }) := by
      simp only [enter, Bind.bind, M.bind, M.getCtx, M.require, hs, M.modCtx, if_true]
    have hF := hf hs
    rcases ub_bind h with h1 | ⟨a, s1, h1, h2⟩
    · rw [he] at h1; cases h1
    · rw [he] at h1
      cases h1
      exact ⟨_, he, hs, ⟨hF.keys, hF.crypto, hF.cred, rfl, rfl, rfl, hF.th, by rw [show Ctx.ead _ = s.ctx.ead from rfl, hF.ead]; exact Nat.zero_le _,
        hF.cid⟩, rfl, rfl, h2⟩
  · have he : enter ok m r s = (.err .badState, s) := by
      simp only [enter, Bind.bind, M.bind, M.getCtx, M.require, Bool.not_eq_true _ ▸ hs]
      rfl
    rcases ub_bind h with h1 | ⟨a, s1, h1, h2⟩
    · rw [he] at h1; cases h1
    · rw [he] at h1; cases h1

theorem require_cases {b : Bool} {e : Err} {f : Unit → M σ α} (h : (M.require b e >>= f) s = (.ub u, s')) :
    b = true ∧ f () s = (.ub u, s') := by
  cases b
  · cases h
  · exact ⟨rfl, h⟩

end

section

variable {E : Env σ} {cfg : Config} {s s' : St σ} {u : UB}

theorem message2Compose_ub {n : Nat} (hf : okReceivedM1 s.ctx = true → Found cfg s.ctx) (hl : Limits cfg s.ctx.suite)
    (hE : Tame E cfg s.ctx.suite) (hm : cfg.maxEad ≤ 3) (h : message2Compose E cfg n s = (.ub u, s')) : StackFault cfg u := by
  unfold message2Compose at h
  obtain ⟨_, h⟩ := require_cases h
  obtain ⟨s1, _, _, hi, _, _, h⟩ := enter_cases hf h
  refine Keep.ub (Q := fun _ => True) ?_ hi h
  refine (Keep.mapErr _ (Runs.genDhKeys hl)).bind fun _ _ => (Keep.mapErr _ (Runs.compDhSecret hl)).bind fun _ _ => ?_
  refine (Keep.mapErr _ (Runs.compTh2 hl)).bind fun _ _ => (Keep.mapErr _ (Runs.compPrk2e hl)).bind fun _ _ => ?_
  refine Keep.getCtx.bind fun c0 _ => (Runs.memAlloc _).bind fun _ _ => Runs.credFetch.bind fun f hf => ?_
  refine (Keep.ofOption _ _).bind fun f' hf' => ?_
  obtain ⟨e, he⟩ := hf
  have hcf := hE.fetch _ _ (he.trans hf')
  refine (Runs.eadCompose hm).bind fun _ _ => (Keep.mapErr _ (Runs.compPrk3e2m hl _ _)).bind fun _ _ => ?_
  refine (Runs.buildMacCtx _ hcf).bind fun m _ => Keep.getCtx.bind fun c hc => ?_
  refine (Keep.ofGives (macLength_gives c)).bind fun l hml => (Runs.memAlloc _).bind fun _ _ => ?_
  refine (Runs.compMac _ _).bind fun mac hmac => ?_
  refine (Keep.ofGives (signOrMacLength_gives c)).bind fun sl hsl => (Runs.memAlloc _).bind fun _ _ => ?_
  refine (Runs.compSignOrMac hE hc _ _ hml hmac hsl).bind fun sig _ => ?_
  refine (Keep.ofGives (Gives.mapErr _ (ptxt2Len_gives c m sig.length))).bind fun pl hpl => (Runs.memAlloc _).bind fun _ _ => ?_
  refine (Keep.ofGives (Gives.mapErr _ (preparePtxt2_gives hl hc.cid m sig hpl))).bind fun p _ => (Runs.memAlloc _).bind fun _ _ => ?_
  refine (Keep.mapErr _ (Runs.compKeystream _ _)).bind fun ks _ => (Keep.mapErr _ (Runs.compTh3 hl hE _ _)).bind fun _ _ => ?_
  refine (Keep.mapErr _ (Runs.prepareMsg2 _ _)).bind fun _ _ => (Keep.modCtx ?_).bind fun _ _ => (Keep.pure _).any
  exact fun c h => ⟨h.keys, h.crypto, h.cred, h.suite, h.method, h.message, h.th, Nat.zero_le _, h.cid⟩

theorem message4Compose_ub {n : Nat} (hf : okCompleted s.ctx = true → Found cfg s.ctx)
    (hE : Tame E cfg s.ctx.suite) (hm : cfg.maxEad ≤ 3) (h : message4Compose E cfg n s = (.ub u, s')) : StackFault cfg u := by
  unfold message4Compose at h
  obtain ⟨_, h⟩ := require_cases h
  obtain ⟨s1, _, _, hi, _, _, h⟩ := enter_cases hf h
  refine Keep.ub (Q := fun _ => True) ?_ hi h
  refine (Runs.eadCompose hm).bind fun _ _ => Keep.getCtx.bind fun c hc => (Runs.memAlloc _).bind fun _ _ => ?_
  refine (Keep.ofGives (Gives.mapErr _ (encEadOpt_gives c _))).bind fun p hp => Runs.keyIvAad4.bind fun k _ => ?_
  refine (Runs.memAlloc _).bind fun _ _ => ?_
  refine (Keep.mapErr _ (Runs.aeadEncrypt hE _ _ _ _ ?_)).bind fun ct _ => (Keep.mapErr _ (Runs.genMsg4 _ _)).bind fun _ _ => ?_
  · rw [hc.suite]; omega
  refine (Keep.modCtx ?_).bind fun _ _ => (Keep.pure _).any
  exact fun c h => ⟨h.keys, h.crypto, h.cred, h.suite, h.method, h.message, h.th, Nat.zero_le _, h.cid⟩

theorem bind_eq {m : M σ α} {f : α → M σ β} {s s1 : St σ} {a : α} (h : m s = (.ok a, s1)) : (m >>= f) s = f a s1 := by
  show M.bind m f s = _
  unfold M.bind
  rw [h]

/-- message_3 compose: only if with one more byte there were a message_3 of just that length -/
theorem message3Compose_ub {n : Nat} (hf : okVerifiedM2 s.ctx = true → Found cfg s.ctx) (hl : Limits cfg s.ctx.suite)
    (hE : Tame E cfg s.ctx.suite) (hm : cfg.maxEad ≤ 3) (h : message3Compose E cfg n s = (.ub u, s')) :
    StackFault cfg u ∨ ∃ msg s2, message3Compose E cfg (n + 1) s = (.ok msg, s2) ∧ msg.length = n + 1 := by
  unfold message3Compose at h ⊢
  obtain ⟨_, h⟩ := require_cases h
  obtain ⟨s1, e1, _, hi, _, _, h⟩ := enter_cases hf h
  obtain hL | ⟨_, s2, e2, ⟨hi, _⟩, h⟩ := (Runs.eadCompose hm).cases hi h
  · exact Or.inl hL
  obtain hL | ⟨f, s3, e3, ⟨hi, hq⟩, h⟩ := Runs.credFetch.cases hi h
  · exact Or.inl hL
  obtain hL | ⟨f', s4, e4, ⟨hi, hq'⟩, h⟩ := (Keep.ofOption _ _).cases hi h
  · exact Or.inl hL
  obtain ⟨e, he⟩ := hq
  have hcf := hE.fetch _ _ (he.trans hq')
  obtain hL | ⟨kia, s5, e5, ⟨hi, _⟩, h⟩ := Runs.keyIvAad3.cases hi h
  · exact Or.inl hL
  obtain hL | ⟨_, s6, e6, ⟨hi, _⟩, h⟩ := (Keep.mapErr _ (Runs.compPrk4e3m hl _ _)).cases hi h
  · exact Or.inl hL
  obtain hL | ⟨m, s7, e7, ⟨hi, _⟩, h⟩ := (Runs.buildMacCtx _ hcf).cases hi h
  · exact Or.inl hL
  obtain hL | ⟨c, s8, e8, ⟨hi, hc⟩, h⟩ := Keep.getCtx.cases hi h
  · exact Or.inl hL
  obtain hL | ⟨ml, s9, e9, ⟨hi, hml⟩, h⟩ := (Keep.ofGives (Gives.mapErr _ (macLength_gives c))).cases hi h
  · exact Or.inl hL
  obtain hL | ⟨_, s10, e10, ⟨hi, _⟩, h⟩ := (Runs.memAlloc _).cases hi h
  · exact Or.inl hL
  obtain hL | ⟨mac, s11, e11, ⟨hi, hmac⟩, h⟩ := (Keep.mapErr _ (Runs.compMac _ _)).cases hi h
  · exact Or.inl hL
  obtain hL | ⟨sl, s12, e12, ⟨hi, hsl⟩, h⟩ := (Keep.ofGives (signOrMacLength_gives c)).cases hi h
  · exact Or.inl hL
  obtain hL | ⟨_, s13, e13, ⟨hi, _⟩, h⟩ := (Runs.memAlloc _).cases hi h
  · exact Or.inl hL
  obtain hL | ⟨sig, s14, e14, ⟨hi, _⟩, h⟩ := (Runs.compSignOrMac hE hc _ _ hml hmac hsl).cases hi h
  · exact Or.inl hL
  obtain hL | ⟨pl, s15, e15, ⟨hi, hpl⟩, h⟩ := (Keep.ofGives (show Gives (ptxt3Len c m sig.length) _ from ptxt2Len_gives c m sig.length)).cases hi h
  · exact Or.inl hL
  obtain hL | ⟨_, s16, e16, ⟨hi, _⟩, h⟩ := (Runs.memAlloc _).cases hi h
  · exact Or.inl hL
  have hp3 : Gives (preparePtxt3 m sig pl) (fun _ => True) :=
    preparePtxt3_gives m sig (by rw [hpl, Nat.add_assoc _ (idCredPtxtLen m), Nat.add_assoc _ (idCredPtxtLen m + _)]; exact Nat.le_add_left _ _)
  obtain hL | ⟨p, s17, e17, ⟨hi, _⟩, h⟩ := (Keep.ofGives (Gives.mapErr _ hp3)).cases hi h
  · exact Or.inl hL
  obtain hL | ⟨_, s18, e18, ⟨hi, _⟩, h⟩ := (Runs.memAlloc _).cases hi h
  · exact Or.inl hL
  obtain hL | ⟨ct, s19, e19, ⟨hi, _⟩, h⟩ := (Keep.mapErr _ (Runs.aeadEncrypt hE _ _ _ _ (by rw [hc.suite]; exact Nat.le_refl _))).cases hi h
  · exact Or.inl hL
  obtain hL | ⟨_, s20, e20, ⟨hi, _⟩, h⟩ := (Keep.mapErr _ (Runs.compTh4 hl _ _)).cases hi h
  · exact Or.inl hL
  rw [bind_eq (show M.require (n + 1 != 0) .invalidArgument s = (.ok (), s) from rfl)]
  rw [bind_eq e1, bind_eq e2, bind_eq e3, bind_eq e4, bind_eq e5, bind_eq e6, bind_eq e7, bind_eq e8, bind_eq e9, bind_eq e10,
    bind_eq e11, bind_eq e12, bind_eq e13, bind_eq e14, bind_eq e15, bind_eq e16, bind_eq e17, bind_eq e18, bind_eq e19, bind_eq e20]
  have key : ct.length ≠ 0 ∧ (encBstr ct).length = n + 1 := by
    rcases ub_bind h with h1 | ⟨_, _, _, h2⟩
    · replace h1 := ub_mapErr h1
      unfold genMsg3 at h1
      obtain ⟨h3, h1⟩ := require_cases h1
      rcases ub_bind h1 with h4 | ⟨x, s21, h4, h5⟩
      · exfalso
        generalize fits (n + 1) (encBstr ct) = o at h4
        cases o <;> cases h4
      · obtain ⟨h8, rfl⟩ := ofOption_ok.1 h4
        obtain ⟨rfl, h6⟩ := fits_some h8
        rcases ub_bind h5 with h7 | ⟨_, _, _, h7⟩
        · have := ub_guard h7
          simp only [decide_eq_false_iff_not, Bool.and_eq_true, bne_iff_ne, ne_eq] at this h3
          exact ⟨h3.1, by omega⟩
        · cases h7
    · cases h2
  have hg : genMsg3 ct (n + 1) s20 = (.ok (encBstr ct), s20) := by
    have h1 : fits (n + 1 + 1) (encBstr ct) = some (encBstr ct) := by
      unfold fits
      rw [if_pos (by omega)]
    have h2 : (ct.length != 0 && n + 1 != 0) = true := by simpa using key.1
    simp only [genMsg3, Bind.bind, M.bind, M.require, h1, h2, M.ofOption, M.guardUB, key.2, Nat.le_refl, decide_true]
    rfl
  have hg' : M.mapErr .cbor (genMsg3 ct (n + 1)) s20 = (.ok (encBstr ct), s20) := by
    unfold M.mapErr
    rw [hg]
  rw [bind_eq hg']
  exact Or.inr ⟨_, _, rfl, key.2⟩

theorem handOver_ub {n : Nat} (h : handOver cfg n s = (.ub u, s')) : n ≠ 0 ∧ s'.log = s.log := by
  refine ⟨?_, ?_⟩
  · rintro rfl
    cases h
  · unfold handOver at h
    rw [show (M.getCtx >>= fun c => M.guardUB (n == 0 || !(c.hasEadProcess && cfg.maxEad != 0)) UB.oob) s =
      M.guardUB (n == 0 || !(s.ctx.hasEadProcess && cfg.maxEad != 0)) UB.oob s from rfl] at h
    unfold M.guardUB at h
    split at h <;> cases h
    rfl

theorem storeEad_ub {ts : List EadTok} {n : Nat} (hl : ts.length ≤ cfg.maxEad + 1) (h : storeEad cfg ts n s = (.ub u, s')) :
    n ≠ 0 ∧ s'.log = s.log := by
  unfold storeEad at h
  rw [show (decide (ts.length ≤ cfg.maxEad + 1)) = true from decide_eq_true hl] at h
  unfold M.whenM at h
  split at h
  · rcases ub_bind h with h1 | ⟨_, s1, h1, h⟩
    · cases h1
    · obtain ⟨_, rfl⟩ := guardUB_ok.1 h1
      rcases ub_bind h with h2 | ⟨_, s2, h2, h⟩
      · cases h2
      · obtain rfl := modCtx_ok.1 h2
        exact ⟨(handOver_ub h).1, (handOver_ub h).2⟩
  · cases h

theorem parsePtxt4_ub {p : Bytes} (hm : 2 ≤ cfg.maxEad) (h : parsePtxt4 cfg p s = (.ub u, s')) :
    s'.log = s.log ∧ staleEad cfg.dec 3 p ≠ 0 := by
  have h3 : (getPtxt4 cfg.dec p).length ≤ 3 := getEad_length p
  unfold parsePtxt4 at h
  rw [show (decide ((getPtxt4 cfg.dec p).length ≤ cfg.maxEad + 1)) = true from decide_eq_true (by omega)] at h
  rcases ub_bind h with h1 | ⟨_, s1, h1, h⟩
  · cases h1
  · obtain ⟨_, rfl⟩ := guardUB_ok.1 h1
    rcases ub_bind h with h2 | ⟨_, s2, h2, h⟩
    · cases h2
    · obtain rfl := modCtx_ok.1 h2
      exact ⟨(handOver_ub h).2, (handOver_ub h).1⟩

theorem parsePtxt2_ub {p : Bytes} (hm : 2 ≤ cfg.maxEad) (h : parsePtxt2 cfg p s = (.ub u, s')) :
    s'.log = s.log ∧ ∃ c q, getPtxt2 cfg.dec p = some (c, q) ∧ (LongKid cfg q.idCred ∨ stalePtxt2 cfg.dec p ≠ 0) := by
  unfold parsePtxt2 at h
  obtain ⟨_, h⟩ := require_cases h
  rcases ub_bind h with h0 | ⟨⟨c, q⟩, s1, h0, h⟩
  · exfalso
    generalize getPtxt2 cfg.dec p = o at h0
    cases o <;> cases h0
  obtain ⟨h1, rfl⟩ := ofOption_ok.1 h0
  have h3 := (getPtxt2_sound h1).1
  rcases ub_bind h with h2 | ⟨_, s2, h2, h⟩
  · exfalso
    unfold storePeerCid at h2
    cases c
    · obtain ⟨_, h2⟩ := require_cases h2
      cases h2
    · obtain ⟨hb, h2⟩ := require_cases h2
      simp only [hb] at h2
      cases h2
  have l2 : s2.log = s.log := by
    unfold storePeerCid at h2
    cases c
    · obtain ⟨_, _, h4, h5⟩ := bind_ok.1 h2
      obtain ⟨_, rfl⟩ := require_ok.1 h4
      cases h5
      rfl
    · obtain ⟨_, _, h4, h5⟩ := bind_ok.1 h2
      obtain ⟨hb, rfl⟩ := require_ok.1 h4
      simp only [hb] at h5
      cases h5
      rfl
  rcases ub_bind h with h4 | ⟨cr, s3, h4, h⟩
  · refine ⟨?_, c, q, h1, Or.inl (credOfIdCred_ub credOfMap2_gives (ub_ofRes h4))⟩
    rw [← l2]
    generalize credOfIdCred cfg credOfMap2 q.idCred = o at h4
    cases o <;> cases h4
    rfl
  · obtain ⟨_, rfl⟩ := ofRes_ok.1 h4
    rcases ub_bind h with h5 | ⟨_, s3, h5, h⟩
    · obtain ⟨h6, h7⟩ := storeEad_ub (Nat.le_trans h3 (by omega)) h5
      exact ⟨h7.trans l2, c, q, h1, Or.inr h6⟩
    · cases h

theorem parsePtxt3_ub {p : Bytes} (hm : 2 ≤ cfg.maxEad) (h : parsePtxt3 cfg p s = (.ub u, s')) :
    s'.log = s.log ∧ ∃ q, getPtxt3 cfg.dec p = some q ∧ (LongKid cfg q.idCred ∨ stalePtxt3 cfg.dec p ≠ 0) := by
  unfold parsePtxt3 at h
  obtain ⟨_, h⟩ := require_cases h
  rcases ub_bind h with h0 | ⟨q, s1, h0, h⟩
  · exfalso
    generalize getPtxt3 cfg.dec p = o at h0
    cases o <;> cases h0
  obtain ⟨h1, rfl⟩ := ofOption_ok.1 h0
  have h3 := (getPtxt3_sound h1).1
  rcases ub_bind h with h4 | ⟨cr, s3, h4, h⟩
  · refine ⟨?_, q, h1, Or.inl (credOfIdCred_ub credOfMap3_gives (ub_ofRes h4))⟩
    generalize credOfIdCred cfg credOfMap3 q.idCred = o at h4
    cases o <;> cases h4
    rfl
  · obtain ⟨_, rfl⟩ := ofRes_ok.1 h4
    rcases ub_bind h with h5 | ⟨_, s3, h5, h⟩
    · obtain ⟨h6, h7⟩ := storeEad_ub (by omega) h5
      exact ⟨h7, q, h1, Or.inr h6⟩
    · cases h

/-- the event in the middle, in a state with the same log -/
theorem saw_mid {a e b : Ev} {t : St σ} (h : Saw [a, e, b] s t) (hl : s'.log = t.log) : Saw [e] s s' := by
  obtain ⟨x, y, hw⟩ := h
  refine ⟨x ++ [a], [b] ++ y, ?_⟩
  rw [hl, hw]
  simp

theorem Keep.weaken {I : Ctx → Prop} {L L' : UB → Prop} {m : M σ α} {Q : α → Prop} (h : Keep I L m Q) (hL : ∀ u, L u → L' u) :
    Keep I L' m Q := by
  intro s hi
  have h1 := h s hi
  rcases hm : m s with ⟨r, s1⟩
  rw [hm] at h1
  cases r with
  | ok a => exact h1
  | err e => trivial
  | ub u => exact hL u h1

theorem Keep.ofResAny {I : Ctx → Prop} (r : Res α) : Keep I (fun _ => True) (M.ofRes r : M σ α) (fun a => r = .ok a) := by
  intro s hi
  cases r with
  | ok a => exact ⟨hi, rfl⟩
  | err e => trivial
  | ub u => trivial

theorem Keep.guardAny {I : Ctx → Prop} (b : Bool) (u : UB) : Keep I (fun _ => True) (M.guardUB b u : M σ Unit) (fun _ => True) := by
  intro s hi
  unfold M.guardUB
  cases b
  · trivial
  · exact ⟨hi, trivial⟩

theorem handOver_keep {I : Ctx → Prop} {n : Nat} : Keep I (fun _ => True) (handOver cfg n : M σ Unit) (fun _ => True) := by
  unfold handOver
  exact Keep.getCtx.bind fun _ _ => Keep.guardAny _ _

theorem storeEad_keep {su : Suite} {me : Nat} {ms : Msg} {ts : List EadTok} {n : Nat} (h : ts.length ≤ 3) :
    Keep (Able cfg su me ms) (fun _ => True) (storeEad cfg ts n : M σ Unit) (fun _ => True) := by
  unfold storeEad
  refine Keep.whenM _ fun _ => (Keep.guardAny _ _).bind fun _ _ => (Keep.modCtx ?_).bind fun _ _ => handOver_keep
  exact fun c hc => ⟨hc.keys, hc.crypto, hc.cred, hc.suite, hc.method, hc.message, hc.th, h, hc.cid⟩

theorem parsePtxt4_keep {p : Bytes} {su : Suite} {me : Nat} {ms : Msg} :
    Keep (Able cfg su me ms) (fun _ => True) (parsePtxt4 cfg p : M σ Unit) (fun _ => True) := by
  have h3 : (getPtxt4 cfg.dec p).length ≤ 3 := getEad_length p
  unfold parsePtxt4
  refine (Keep.guardAny _ _).bind fun _ _ => (Keep.modCtx ?_).bind fun _ _ => handOver_keep
  exact fun c h => ⟨h.keys, h.crypto, h.cred, h.suite, h.method, h.message, h.th, h3, h.cid⟩

theorem parsePtxt2_keep {p : Bytes} {su : Suite} {me : Nat} {ms : Msg} :
    Keep (Able cfg su me ms) (fun _ => True) (parsePtxt2 cfg p : M σ (Cred × Bytes)) (fun _ => True) := by
  unfold parsePtxt2
  refine (Keep.require _ _).bind fun _ _ => (Keep.ofOption _ _).bind fun q hq => ?_
  refine ((Runs.storePeerCid _ _).weaken fun _ _ => trivial).bind fun _ _ => (Keep.ofResAny _).bind fun _ _ => ?_
  exact (storeEad_keep (getPtxt2_sound (c := q.1) (p := q.2) hq).1).bind fun _ _ => (Keep.pure _).any

theorem parsePtxt3_keep {p : Bytes} {su : Suite} {me : Nat} {ms : Msg} :
    Keep (Able cfg su me ms) (fun _ => True) (parsePtxt3 cfg p : M σ (Cred × Bytes)) (fun _ => True) := by
  unfold parsePtxt3
  refine (Keep.require _ _).bind fun _ _ => (Keep.ofOption _ _).bind fun q hq => ?_
  refine (Keep.ofResAny _).bind fun _ _ => ?_
  exact (storeEad_keep (getPtxt3_sound hq).1).bind fun _ _ => (Keep.pure _).any

/-- message_2 process: a message shorter than G_Y, or a plaintext with too long a key identifier, or cut off -/
theorem message2Process_ub {b : Bytes} (hf : okWaitM2 s.ctx = true → Found cfg s.ctx) (hl : Limits cfg s.ctx.suite)
    (hE : Tame E cfg s.ctx.suite) (hm : 2 ≤ cfg.maxEad) (h : message2Process E cfg b s = (.ub u, s')) :
    StackFault cfg u ∨ ∃ x, getMsgBstr cfg.dec b = some x ∧ (x.length < s.ctx.suite.eccKey ∨
      ∃ kid info n ks c q, Saw [.expand kid info n (some ks)] s s' ∧
        getPtxt2 cfg.dec (xorBytes (x.drop s.ctx.suite.eccKey) ks) = some (c, q) ∧
        (LongKid cfg q.idCred ∨ stalePtxt2 cfg.dec (xorBytes (x.drop s.ctx.suite.eccKey) ks) ≠ 0)) := by
  unfold message2Process at h
  obtain ⟨_, h⟩ := require_cases h
  obtain ⟨s1, e1, _, hi, l1, u1, h⟩ := enter_cases hf h
  have g1 : Grow s s1 := grow_of_log l1
  -- parse_msg_2
  have key : (StackFault cfg u ∨ ∃ x, getMsgBstr cfg.dec b = some x ∧ x.length < s.ctx.suite.eccKey) ∨
      ∃ x s2, getMsgBstr cfg.dec b = some x ∧ parseMsg2 E cfg b s1 = (.ok (x.drop s.ctx.suite.eccKey), s2) ∧ Grow s1 s2 ∧
        Able cfg s.ctx.suite s.ctx.chosenMethod .msg2 s2.ctx := by
    by_cases hx : ∃ x s2, parseMsg2 E cfg b s1 = (.ok x, s2)
    · obtain ⟨y, s2, hx⟩ := hx
      refine Or.inr ?_
      have hx' := hx
      unfold parseMsg2 at hx'
      obtain ⟨c, _, h1, hx'⟩ := bind_ok.1 hx'
      obtain ⟨rfl, rfl⟩ := getCtx_ok.1 h1
      obtain ⟨x, _, h2, hx'⟩ := bind_ok.1 hx'
      obtain ⟨h2', rfl⟩ := ofOption_ok.1 h2
      obtain ⟨_, s3, h3, hx'⟩ := bind_ok.1 hx'
      obtain ⟨c3, g3⟩ := memAlloc_ok h3
      obtain ⟨_, _, h4, hx'⟩ := bind_ok.1 hx'
      obtain ⟨_, rfl⟩ := guardUB_ok.1 h4
      obtain ⟨_, _, h5, hx'⟩ := bind_ok.1 hx'
      obtain ⟨_, rfl⟩ := guardUB_ok.1 h5
      obtain ⟨_, s4, h6, hx'⟩ := bind_ok.1 hx'
      obtain ⟨⟨c4, l4⟩, _⟩ := modCtx_st.1 h6
      obtain ⟨h7, rfl⟩ := pure_ok.1 hx'
      refine ⟨x, s4, h2', ?_, g3.left (grow_of_log l4), ?_⟩
      · rw [hx, ← u1, h7]
      · rw [c4, c3]
        exact ⟨hi.keys, hi.crypto, hi.cred, hi.suite, hi.method, hi.message, hi.th, hi.ead, hi.cid⟩
    · left
      rcases ub_bind h with h1 | ⟨y, s2, h1, _⟩
      · unfold parseMsg2 at h1
        obtain hL | ⟨c, s2, e2, ⟨hi2, hc⟩, h1⟩ := (Keep.getCtx (I := Able cfg _ _ _) (L := StackFault cfg)).cases hi h1
        · exact Or.inl hL
        obtain hL | ⟨x, s3, e3, ⟨hi3, hx3⟩, h1⟩ := (Keep.ofOption _ _).cases hi2 h1
        · exact Or.inl hL
        obtain hL | ⟨_, s4, e4, ⟨hi4, _⟩, h1⟩ := (Runs.memAlloc _).cases hi3 h1
        · exact Or.inl hL
        obtain hL | ⟨_, s5, e5, ⟨hi5, _⟩, h1⟩ := (Keep.guardUB _ (hc.eccOk hl)).cases hi4 h1
        · exact Or.inl hL
        rcases ub_bind h1 with h2 | ⟨_, _, _, h2⟩
        · have := ub_guard h2
          rw [hc.suite] at this
          exact Or.inr ⟨x, hx3, by simpa using this⟩
        · cases h2
      · exact absurd ⟨y, s2, h1⟩ hx
  rcases key with (hL | ⟨x, hx, hs⟩) | ⟨x, s2, hx, e2, g2, hi⟩
  · exact Or.inl hL
  · exact Or.inr ⟨x, hx, Or.inl hs⟩
  rw [bind_eq e2] at h
  obtain hL | ⟨_, s3, e3, ⟨hi, _⟩, h⟩ := (Keep.mapErr _ (Runs.compDhSecret hl)).cases hi h
  · exact Or.inl hL
  obtain hL | ⟨_, s4, e4, ⟨hi, _⟩, h⟩ := (Keep.mapErr _ (Runs.compTh2 hl)).cases hi h
  · exact Or.inl hL
  obtain hL | ⟨_, s5, e5, ⟨hi, _⟩, h⟩ := (Keep.mapErr _ (Runs.compPrk2e hl)).cases hi h
  · exact Or.inl hL
  obtain hL | ⟨_, s6, e6, ⟨hi, _⟩, h⟩ := (Runs.memAlloc _).cases hi h
  · exact Or.inl hL
  obtain hL | ⟨c, s7, e7, ⟨hi, _⟩, h⟩ := Keep.getCtx.cases hi h
  · exact Or.inl hL
  obtain ⟨rfl, rfl⟩ := getCtx_ok.1 e7
  obtain hL | ⟨ks, s8, e8, ⟨hi, _⟩, h⟩ := (Keep.mapErr _ (Runs.compKeystream _ _)).cases hi h
  · exact Or.inl hL
  obtain ⟨_, _, _, w3⟩ := compDhSecret_ok (mapErr_ok.1 e3)
  obtain ⟨_, _, _, _, _, _, _, w4⟩ := compTh2_ok (mapErr_ok.1 e4)
  obtain ⟨_, _, _, _, _, _, w5⟩ := compPrk2e_ok (mapErr_ok.1 e5)
  obtain ⟨_, g6⟩ := memAlloc_ok e6
  obtain ⟨_, _, _, _, kid, w8⟩ := compKeystream_ok (mapErr_ok.1 e8)
  rcases ub_bind h with h1 | ⟨p, s9, h1, h⟩
  · obtain ⟨l9, c, q, hp, hk⟩ := parsePtxt2_ub hm (ub_mapErr h1)
    have G := ((((g1.left g2).left w3.2.grow).left w4.grow).left w5.grow).left g6
    exact Or.inr ⟨x, hx, Or.inr ⟨kid, _, _, ks, c, q, saw_mid (Saw.right G w8) l9, hp, hk⟩⟩
  obtain ⟨hi, _⟩ := (Keep.mapErr _ parsePtxt2_keep).ok hi h1
  refine Or.inl (Keep.ub (Q := fun _ => True) ?_ hi h)
  refine Runs.eadProcess.bind fun _ _ => (Runs.verifyCred hE _).bind fun v hv => ?_
  refine (Keep.mapErr _ (Runs.compPrk3e2m hl _ _)).bind fun _ _ => (Runs.buildMacCtx _ hv).bind fun m _ => ?_
  refine Keep.getCtx.bind fun c _ => (Keep.ofGives (macLength_gives c)).bind fun ml _ => (Runs.memAlloc _).bind fun _ _ => ?_
  refine (Runs.compMac _ _).bind fun mac _ => (Keep.mapErr _ (Runs.verifySignOrMac _ _ _ _)).bind fun _ _ => ?_
  refine (Keep.mapErr _ (Runs.compTh3 hl hE _ _)).bind fun _ _ => Keep.modCtx ?_
  exact fun c h => ⟨h.keys, h.crypto, h.cred, h.suite, h.method, h.message, h.th, Nat.zero_le _, h.cid⟩

/-- message_3 process: a plaintext with too long a key identifier, or cut off -/
theorem message3Process_ub {b : Bytes} (hf : okWaitM3 s.ctx = true → Found cfg s.ctx) (hl : Limits cfg s.ctx.suite)
    (hE : Tame E cfg s.ctx.suite) (hm : 2 ≤ cfg.maxEad) (h : message3Process E cfg b s = (.ub u, s')) :
    StackFault cfg u ∨ ∃ x kid iv aad p q, getMsgBstr cfg.dec b = some x ∧ Saw [.decrypt kid iv aad x (some p)] s s' ∧
        getPtxt3 cfg.dec p = some q ∧ (LongKid cfg q.idCred ∨ stalePtxt3 cfg.dec p ≠ 0) := by
  unfold message3Process at h
  obtain ⟨_, h⟩ := require_cases h
  obtain ⟨s1, e1, _, hi, l1, _, h⟩ := enter_cases hf h
  have g1 : Grow s s1 := grow_of_log l1
  obtain hL | ⟨x, s2, e2, ⟨hi, hx⟩, h⟩ := (Keep.ofOption _ _).cases hi h
  · exact Or.inl hL
  obtain ⟨_, rfl⟩ := ofOption_ok.1 e2
  obtain hL | ⟨kia, s3, e3, ⟨hi, _⟩, h⟩ := Runs.keyIvAad3.cases hi h
  · exact Or.inl hL
  obtain hL | ⟨c, s4, e4, ⟨hi, _⟩, h⟩ := Keep.getCtx.cases hi h
  · exact Or.inl hL
  obtain ⟨rfl, rfl⟩ := getCtx_ok.1 e4
  obtain hL | ⟨_, s5, e5, ⟨hi, _⟩, h⟩ := (Runs.memAlloc _).cases hi h
  · exact Or.inl hL
  obtain hL | ⟨p, s6, e6, ⟨hi, _⟩, h⟩ := (Keep.mapErr .crypto ((Keep.require _ .invalidArgument).bind fun _ _ => Runs.aeadDecrypt _ _ _ _ _)).cases hi h
  · exact Or.inl hL
  obtain ⟨_, _, e7, e8⟩ := bind_ok.1 (mapErr_ok.1 e6)
  obtain ⟨_, rfl⟩ := require_ok.1 e7
  obtain ⟨_, _, kid, w⟩ := aeadDecrypt_ok e8
  rcases ub_bind h with h1 | ⟨q, s7, h1, h⟩
  · obtain ⟨l9, q, hp, hk⟩ := parsePtxt3_ub hm (ub_mapErr h1)
    have G := (g1.left (keyIvAad3_ok e3).2.1).left (memAlloc_ok e5).2
    exact Or.inr ⟨x, kid, _, _, p, q, hx, saw_mid (Saw.right G w) l9, hp, hk⟩
  obtain ⟨hi, _⟩ := (Keep.mapErr _ parsePtxt3_keep).ok hi h1
  refine Or.inl (Keep.ub (Q := fun _ => True) ?_ hi h)
  refine Runs.eadProcess.bind fun _ _ => (Runs.verifyCred hE _).bind fun v hv => ?_
  refine (Keep.mapErr _ (Runs.compPrk4e3m hl _ _)).bind fun _ _ => (Runs.buildMacCtx _ hv).bind fun m _ => ?_
  refine Keep.getCtx.bind fun c _ => (Keep.ofGives (Gives.mapErr _ (macLength_gives c))).bind fun ml _ => (Runs.memAlloc _).bind fun _ _ => ?_
  refine (Keep.mapErr _ (Runs.compMac _ _)).bind fun mac _ => (Keep.mapErr _ (Runs.verifySignOrMac _ _ _ _)).bind fun _ _ => ?_
  refine (Keep.mapErr _ (Runs.compTh4 hl _ _)).bind fun _ _ => Keep.modCtx ?_
  exact fun c h => ⟨h.keys, h.crypto, h.cred, h.suite, h.method, h.message, h.th, Nat.zero_le _, h.cid⟩

/-- message_4 process: a plaintext that is cut off -/
theorem message4Process_ub {b : Bytes} (hf : okCompleted s.ctx = true → Found cfg s.ctx)
    (hm : 2 ≤ cfg.maxEad) (h : message4Process E cfg b s = (.ub u, s')) :
    StackFault cfg u ∨ ∃ x kid iv aad p, getMsgBstr cfg.dec b = some x ∧ Saw [.decrypt kid iv aad x (some p)] s s' ∧
        staleEad cfg.dec 3 p ≠ 0 := by
  unfold message4Process at h
  obtain ⟨_, h⟩ := require_cases h
  obtain ⟨s1, e1, _, hi, l1, _, h⟩ := enter_cases hf h
  have g1 : Grow s s1 := grow_of_log l1
  obtain hL | ⟨x, s2, e2, ⟨hi, hx⟩, h⟩ := (Keep.ofOption _ _).cases hi h
  · exact Or.inl hL
  obtain ⟨_, rfl⟩ := ofOption_ok.1 e2
  obtain hL | ⟨kia, s3, e3, ⟨hi, _⟩, h⟩ := Runs.keyIvAad4.cases hi h
  · exact Or.inl hL
  obtain hL | ⟨c, s4, e4, ⟨hi, _⟩, h⟩ := Keep.getCtx.cases hi h
  · exact Or.inl hL
  obtain ⟨rfl, rfl⟩ := getCtx_ok.1 e4
  obtain hL | ⟨_, s5, e5, ⟨hi, _⟩, h⟩ := (Runs.memAlloc _).cases hi h
  · exact Or.inl hL
  obtain hL | ⟨p, s6, e6, ⟨hi, _⟩, h⟩ := (Keep.mapErr .crypto (Runs.aeadDecrypt _ _ _ _ _)).cases hi h
  · exact Or.inl hL
  obtain ⟨_, _, kid, w⟩ := aeadDecrypt_ok (mapErr_ok.1 e6)
  have h3 : (getPtxt4 cfg.dec p).length ≤ 3 := getEad_length p
  have G := (g1.left (keyIvAad4_ok e3).2.1).left (memAlloc_ok e5).2
  rcases ub_bind h with h1 | ⟨q, s7, h1, h⟩
  · obtain ⟨l9, hp⟩ := parsePtxt4_ub hm (ub_mapErr h1)
    exact Or.inr ⟨x, kid, _, _, p, hx, saw_mid (Saw.right G w) l9, hp⟩
  obtain ⟨hi, _⟩ := (Keep.mapErr _ parsePtxt4_keep).ok hi h1
  refine Or.inl (Keep.ub (Q := fun _ => True) ?_ hi h)
  refine Runs.eadProcess.bind fun _ _ => Keep.modCtx ?_
  exact fun c h => ⟨h.keys, h.crypto, h.cred, h.suite, h.method, h.message, h.th, Nat.zero_le _, h.cid⟩

end

section

variable {E : Env σ} {cfg : Config} {s s' : St σ} {u : UB}

theorem Found.chosen {c : Ctx} {m : Msg} {r : Role} {k : ErrCode} {st : Status} {me : Nat} (h : Found cfg c) :
    Able cfg (Verif.chosen c 0).suite me m { Verif.chosen c me with status := st, errorCode := k, message := m, role := r } :=
  ⟨h.keys, h.crypto, h.cred, rfl, rfl, rfl, h.th,
    (by rw [h.ead]; exact Nat.zero_le _ : c.ead.length ≤ 3), h.cid⟩

theorem message1Compose_ub {n : Nat} (hf : okStart s.ctx = true → Found cfg s.ctx) (hl : Limits cfg (chosen s.ctx 0).suite)
    (hm : cfg.maxEad ≤ 3) (h : message1Compose E cfg n s = (.ub u, s')) : StackFault cfg u := by
  unfold message1Compose at h
  obtain ⟨_, h⟩ := require_cases h
  obtain ⟨s1, e1, hok, _, _, _, h⟩ := enter_cases hf h
  obtain ⟨_, rfl⟩ := enter_ok e1
  by_cases hcs : (s.ctx.csuiteLen != 0) = true
  · have hcho : ∀ t : St σ, t.ctx.csuiteLen = s.ctx.csuiteLen → chooseSuite t = (.ok (), { t with ctx := { t.ctx with chosenIdx := t.ctx.csuiteLen - 1 } }) := by
      intro t ht
      simp only [chooseSuite, Bind.bind, M.bind, M.getCtx, M.require, ht, hcs, M.modCtx, if_true]
    rw [bind_eq (hcho _ (by exact rfl))] at h
    rw [bind_eq (show M.modCtx _ _ = (.ok (), _) from rfl)] at h
    refine Keep.ub (I := Able cfg (chosen s.ctx 0).suite (s.ctx.method.headD 0) .msg1) (Q := fun _ => True) ?_ (hf hok).chosen h
    refine Keep.getCtx.bind fun c hc => (Runs.importKey _ _).bind fun k _ => (Keep.ofOption _ _).bind fun kid _ => ?_
    refine (Runs.memAlloc _).bind fun _ _ => (Runs.makeKeyPair _).bind fun _ _ => (Runs.destroyKey _).bind fun _ _ => ?_
    refine (Keep.ofOption _ _).bind fun kp _ => (Keep.modCtx ?_).bind fun _ _ => ?_
    · exact fun c h => ⟨h.keys, h.crypto, h.cred, h.suite, h.method, h.message, h.th, h.ead, h.cid⟩
    refine (Keep.require _ _).bind fun _ _ => (Keep.require _ _).bind fun _ _ => (Runs.eadCompose hm).bind fun _ _ => ?_
    refine Keep.getCtx.bind fun c' hc' => (Keep.guardUB _ (decide_eq_true hc'.ead)).bind fun _ _ => (Keep.ofOption _ _).bind fun msg _ => ?_
    refine (Runs.hashTh hl _).bind fun t ht => (Keep.modCtx ?_).bind fun _ _ => (Keep.pure _).any
    exact fun c h => ⟨h.keys, h.crypto, h.cred, h.suite, h.method, h.message, ht, Nat.zero_le _, h.cid⟩
  · exfalso
    have hcho : ∀ t : St σ, t.ctx.csuiteLen = s.ctx.csuiteLen → chooseSuite t = (.err .badState, t) := by
      intro t ht
      simp only [chooseSuite, Bind.bind, M.bind, M.getCtx, M.require, ht, Bool.not_eq_true _ ▸ hcs]
      rfl
    rcases ub_bind h with h1 | ⟨_, _, h1, _⟩
    · rw [hcho _ (by exact rfl)] at h1; cases h1
    · rw [hcho _ (by exact rfl)] at h1; cases h1

theorem chooseSuite_eq {t : St σ} : chooseSuite t =
    if t.ctx.csuiteLen = 0 then (.err .badState, t) else (.ok (), { t with ctx := { t.ctx with chosenIdx := t.ctx.csuiteLen - 1 } }) := by
  unfold chooseSuite
  simp only [Bind.bind, M.bind, M.getCtx, M.require]
  by_cases h : t.ctx.csuiteLen = 0 <;> simp [h, M.modCtx, M.fail]

theorem checkSuites_able {su : Suites} {a : Suite} {me : Nat} {ms : Msg} {x : Unit} (hi : Able cfg a me ms s.ctx)
    (h : checkSuites cfg su s = (.ok x, s')) : Able cfg a me ms s'.ctx := by
  obtain ⟨p, rfl, _⟩ := checkSuites_ok h
  exact ⟨hi.keys, hi.crypto, hi.cred, hi.suite, hi.method, hi.message, hi.th, hi.ead, hi.cid⟩

theorem checkSuites_no_ub {su : Suites} (h0 : s.ctx.peerCsuite.length < cfg.maxSuites)
    (h : checkSuites cfg su s = (.ub u, s')) : False := by
  unfold checkSuites at h
  rw [bind_eq (show M.getCtx _ = (.ok _, _) from rfl)] at h
  cases su with
  | one v =>
    dsimp only at h
    refine Keep.ub (I := fun _ => True) (L := fun _ => False) (Q := fun _ => True) ?_ trivial h
    refine (Keep.guardUB _ (decide_eq_true h0)).bind fun _ _ => (Keep.modCtx fun _ _ => trivial).bind fun _ _ => ?_
    exact Keep.whenM (Q := fun _ => True) _ fun _ => (Keep.modCtx fun _ _ => trivial).bind fun _ _ => Keep.fail _
  | list l =>
    dsimp only at h
    refine Keep.ub (I := fun _ => True) (L := fun _ => False) (Q := fun _ => True) ?_ trivial h
    refine (Keep.whenM (Q := fun _ => True) _ fun _ => (Keep.modCtx fun _ _ => trivial).bind fun _ _ => Keep.fail _).bind fun _ _ => ?_
    refine (Keep.require _ _).bind fun _ _ => (Keep.modCtx fun _ _ => trivial).bind fun _ _ => ?_
    exact Keep.whenM (Q := fun _ => True) _ fun _ => (Keep.modCtx fun _ _ => trivial).bind fun _ _ => Keep.fail _

theorem getMsg1_ead_length {d : DecCfg} {b : Bytes} : (getMsg1 d b).2.ead.length ≤ 3 := by
  unfold getMsg1
  repeat' split
  all_goals first | exact Nat.zero_le _ | exact getEad_length _

theorem Runs.processEad1 {su : Suite} {me : Nat} {ms : Msg} {ts : List EadTok} (ht : ts.length ≤ 3) :
    Runs cfg su me ms (Verif.processEad1 E cfg ts 0) (fun _ => True) := by
  unfold Verif.processEad1
  refine Keep.getCtx.bind fun c hc => Keep.whenM (Q := fun _ => True) _ fun _ => (Keep.require _ _).bind fun _ hb =>
    (Keep.guardUB _ (by simp only [decide_eq_true_eq] at hb ⊢; omega)).bind fun _ _ => (Keep.modCtx ?_).bind fun _ _ => ?_
  · exact fun c h => ⟨h.keys, h.crypto, h.cred, h.suite, h.method, h.message, h.th, ht, h.cid⟩
  refine (Keep.guardUB _ rfl).bind fun _ _ => (Keep.call _ _).bind fun _ _ => (Keep.modCtx ?_).bind fun _ _ => (Keep.require _ _).any
  exact fun c h => ⟨h.keys, h.crypto, h.cred, h.suite, h.method, h.message, h.th, Nat.zero_le _, h.cid⟩

/-- message_1 process: a message that is cut off -/
theorem message1Process_ub {b : Bytes} (hf : okStart s.ctx = true → Found cfg s.ctx) (hl : Limits cfg (chosen s.ctx 0).suite)
    (hp : okStart s.ctx = true → s.ctx.peerCsuite = []) (hn : s.ctx.csuiteLen ≤ cfg.maxSuites)
    (h : message1Process E cfg b s = (.ub u, s')) : StackFault cfg u ∨ staleMsg1 cfg.dec b ≠ (0, 0, 0) := by
  by_cases hst : staleMsg1 cfg.dec b = (0, 0, 0)
  case neg => exact Or.inr hst
  left
  unfold message1Process at h
  rw [hst] at h
  dsimp only at h
  obtain ⟨_, h⟩ := require_cases h
  obtain ⟨s1, e1, hok, _, _, _, h⟩ := enter_cases hf h
  obtain ⟨_, rfl⟩ := enter_ok e1
  have he : (getMsg1 cfg.dec b).2.ead.length ≤ 3 := getMsg1_ead_length
  generalize (getMsg1 cfg.dec b).2 = m at h he
  by_cases hcs : s.ctx.csuiteLen = 0
  · exfalso
    rcases ub_bind h with h1 | ⟨_, _, h1, _⟩
    · rw [chooseSuite_eq, if_pos (by exact hcs)] at h1; cases h1
    · rw [chooseSuite_eq, if_pos (by exact hcs)] at h1; cases h1
  rw [bind_eq (chooseSuite_eq.trans (if_neg (by exact hcs)))] at h
  rw [bind_eq (show M.getCtx _ = (.ok _, _) from rfl)] at h
  rcases ub_bind h with h1 | ⟨me, _, h1, h⟩
  · exfalso
    generalize List.find? _ _ = o at h1
    cases o <;> cases h1
  obtain ⟨_, rfl⟩ := ofOption_ok.1 h1
  rw [bind_eq (show M.modCtx _ _ = (.ok (), _) from rfl)] at h
  have hi := (hf hok).chosen (m := .msg1) (r := .responder) (k := .unspecified) (st := .aborted) (me := me)
  rcases ub_bind h with h2 | ⟨_, s2, h2, h⟩
  · exact (checkSuites_no_ub (by rw [show Ctx.peerCsuite _ = s.ctx.peerCsuite from rfl, hp hok]; exact Nat.pos_of_ne_zero (by omega)) h2).elim
  have hi := checkSuites_able hi h2
  refine Keep.ub (Q := fun _ => True) ?_ hi h
  refine (Keep.require _ _).bind fun _ _ => (Keep.guardUB _ (Bool.and_eq_true_iff.2 ⟨decide_eq_true hl.ecc, rfl⟩)).bind fun _ _ => (Keep.modCtx ?_).bind fun _ _ => ?_
  · exact fun c h => ⟨h.keys, h.crypto, h.cred, h.suite, h.method, h.message, h.th, h.ead, h.cid⟩
  refine (Keep.require _ _).bind fun _ _ => (Keep.guardUB _ rfl).bind fun _ _ => (Runs.storePeerCid _ _).bind fun _ _ => (Runs.processEad1 he).bind fun _ _ => (Runs.hashTh hl _).bind fun t ht => Keep.modCtx ?_
  exact fun c h => ⟨h.keys, h.crypto, h.cred, h.suite, h.method, h.message, ht, h.ead, h.cid⟩

end

end Verif
