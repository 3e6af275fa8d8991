import Verif.Props.Mirror

/-!
# C05, C06: negotiation of cipher suite and method

Vocabulary: `preferred` (`Verif/Spec.lean`), `StartsMessage1` (`Verif/SpecKeys.lean`), `SuitesItem` (`Verif/SpecCbor.lean`).
`suiteValues` lists the integers of SUITES_I; the last one is the selected suite.
-/

namespace Verif

open M Spec

variable {σ : Type} {E : Env σ} {cfg : Config}

/-! ## C05 -/

/-- **C05** (accepted suite). If `edhoc_message_1_process` succeeds, the message begins with METHOD, SUITES_I and G_X, the
suite it selects is the last configured one, and this is the suite of the session. -/
theorem C05_selected_suite {s s' : St σ} {msg : Bytes} {x : Out} (hok : step E cfg (.process1 msg) s = (.ok x, s'))
    (hecc : 0 < s'.ctx.suite.eccKey) :
    ∃ me su gx, StartsMessage1 me su gx msg ∧ (suiteValues su).getLast? = some (preferred s.ctx) ∧
      s'.ctx.suite.value = preferred s.ctx := by
  obtain ⟨m, hm, rfl, c⟩ := step_process1 rfl hok
  cases hm
  obtain ⟨_, _, _, m, me, p, th, rfl, _, _, hp, hg, _, _, _, hc⟩ := message1Process_ok c
  have es : s'.ctx.suite = (chosen s.ctx 0).suite := by rw [hc]; rfl
  have ev : s'.ctx.suite.value = preferred s.ctx := by rw [es]; rfl
  rw [← es] at hg
  refine ⟨_, _, _, getMsg1_start (d := cfg.dec) (b := msg) (fun h => ?_), ?_, ev⟩
  · rw [h] at hg; simp at hg; omega
  · have ep : (chosen s.ctx 0).suite.value = preferred s.ctx := rfl
    rw [ep] at hp
    cases hs : (getMsg1 cfg.dec msg).2.suites with
    | one v => rw [hs] at hp; simp only [PeerSuites] at hp; simp [suiteValues, hp.1]
    | list l => rw [hs] at hp; exact hp.1

/-- Non-vacuity: an honest message_1 is accepted. -/
example : (step (Toy.env Toy.bob) Toy.cfg (.process1 (Toy.msg 3 1)) (Toy.after Toy.bob (Toy.conf 3 (.bstr [0x18, 9])))).1 =
      .ok .unit ∧
    0 < (step (Toy.env Toy.bob) Toy.cfg (.process1 (Toy.msg 3 1))
      (Toy.after Toy.bob (Toy.conf 3 (.bstr [0x18, 9])))).2.ctx.suite.eccKey := by decide +kernel

theorem bind_cases {α β : Type} {m : M σ α} {f : α → M σ β} {s s' : St σ} {r : Res β} (h : (m >>= f) s = (r, s'))
    (hd : r.Defined) : (∃ a s1, m s = (.ok a, s1) ∧ f a s1 = (r, s')) ∨ ∃ e, m s = (.err e, s') := by
  have e1 : (m >>= f) s = M.bind m f s := rfl
  rw [e1] at h
  unfold M.bind at h
  rcases hm : m s with ⟨r0, s1⟩
  rw [hm] at h
  cases r0 with
  | ok a => exact Or.inl ⟨a, s1, rfl, h⟩
  | err e =>
    simp only [Prod.mk.injEq] at h
    exact Or.inr ⟨e, by rw [h.2]⟩
  | ub u =>
    simp only [Prod.mk.injEq] at h
    rw [← h.1] at hd
    simp at hd

/-- the code is not changed -/
def KeepCode (s s' : St σ) : Prop := s'.ctx.errorCode = s.ctx.errorCode

theorem keepCode_frame : Frame (KeepCode (σ := σ)) := ⟨fun _ => rfl, fun h1 h2 => Eq.trans h2 h1⟩

theorem keepCode_of {α : Type} {m : M σ α} (h : Pres RKeepM m) : Pres KeepCode m :=
  h.mono fun _ _ h => (congrArg Ctx.errorCode h.2 :)

theorem keepCode_of1 {α : Type} {m : M σ α} (h : Pres RKeep1 m) : Pres KeepCode m :=
  h.mono fun _ _ h => (congrArg Ctx.errorCode h.2 :)

/-- after `checkSuites` sets code 2, the suites that were received are known -/
theorem checkSuites_peer {su : Suites} {s s' : St σ} {r : Res Unit} (h : checkSuites cfg su s = (r, s')) (hd : r.Defined)
    (h0 : s.ctx.peerCsuite = []) :
    (s'.ctx.errorCode = s.ctx.errorCode) ∨ ((∃ e, r = .err e) ∧ s'.ctx.peerCsuite = suiteValues su) := by
  unfold checkSuites at h
  cases su with
  | one v =>
    simp only [Bind.bind, M.bind, M.getCtx, M.guardUB, M.modCtx] at h
    split at h
    · rename_i h1
      split at h1
      · simp only [Prod.mk.injEq, true_and] at h1
        subst h1
        simp only [M.whenM] at h
        split at h
        · simp only [M.bind, M.modCtx, M.fail, Prod.mk.injEq] at h
          rw [← h.1, ← h.2]
          exact Or.inr ⟨⟨_, rfl⟩, by simp [h0, suiteValues]⟩
        · simp only [Prod.mk.injEq] at h
          rw [← h.2]; exact Or.inl rfl
      · simp at h1
    · rename_i h1
      split at h1 <;> simp at h1
    · rename_i h1
      simp only [Prod.mk.injEq] at h
      rw [← h.1] at hd; simp at hd
  | list l =>
    cases l with
    | nil =>
      simp only [Bind.bind, M.bind, M.getCtx, List.isEmpty_nil, M.whenM, ↓reduceIte, M.modCtx, M.fail, Prod.mk.injEq] at h
      rw [← h.1, ← h.2]
      exact Or.inr ⟨⟨_, rfl⟩, h0⟩
    | cons a l =>
      by_cases hl : (a :: l).length ≤ cfg.maxSuites
      · simp only [Bind.bind, M.bind, M.getCtx, List.isEmpty_cons, M.whenM, Bool.false_eq_true, ↓reduceIte, M.require, hl,
          decide_true, M.modCtx] at h
        split at h
        · simp only [M.bind, M.modCtx, M.fail, Prod.mk.injEq] at h
          rw [← h.1, ← h.2]
          exact Or.inr ⟨⟨_, rfl⟩, rfl⟩
        · simp only [Prod.mk.injEq] at h
          rw [← h.2]; exact Or.inl rfl
      · simp only [Bind.bind, M.bind, M.getCtx, List.isEmpty_cons, M.whenM, Bool.false_eq_true, ↓reduceIte, M.require, hl,
          decide_false, Prod.mk.injEq] at h
        rw [← h.2]; exact Or.inl rfl

theorem storePeerCid_code {e : Err} {ci : Cid} : Pres (σ := σ) KeepCode (storePeerCid cfg e ci) :=
  keepCode_of (rkeepM_inner.storePeerCid _ _ _)

/-- what is stored when `edhoc_message_1_process` ends with code 2 -/
theorem process1_code2 {s s' : St σ} {msg : Bytes} {r : Res Unit} (h : message1Process E cfg msg s = (r, s'))
    (hd : r.Defined) (h0 : s.ctx.peerCsuite = []) (hc : s'.ctx.errorCode = .wrongSuite) :
    s'.ctx.errorCode = s.ctx.errorCode ∨ s'.ctx.peerCsuite = suiteValues (getMsg1 cfg.dec msg).2.suites := by
  unfold message1Process at h
  obtain ⟨_, _, h1, h⟩ | ⟨e, h1⟩ := bind_cases h hd
  rotate_left
  · exact Or.inl ((Pres.require keepCode_frame _ _).err h1)
  obtain ⟨_, rfl⟩ := require_ok.1 h1
  obtain ⟨_, s1, h1, h⟩ | ⟨e, h1⟩ := bind_cases h hd
  rotate_left
  · unfold enter at h1
    simp only [Bind.bind, M.bind, M.getCtx, M.require] at h1
    split at h1
    · simp [M.modCtx] at h1
    · rename_i h2
      split at h2
      · simp at h2
      · simp only [Prod.mk.injEq] at h1 h2
        left; rw [← h1.2, ← h2.2]
    · simp at h1
  obtain ⟨_, hs1⟩ : okStart s.ctx = true ∧ _ := by
    unfold enter at h1
    simp only [bind_ok, getCtx_ok, require_ok, modCtx_ok] at h1
    obtain ⟨_, _, ⟨rfl, rfl⟩, _, _, ⟨a, rfl⟩, b⟩ := h1
    exact ⟨a, b.symm⟩
  have e1 : s1.ctx.errorCode = .unspecified := by rw [hs1]
  have p1 : s1.ctx.peerCsuite = [] := by rw [hs1]; exact h0
  obtain ⟨_, s2, h2, h⟩ | ⟨e, h2⟩ := bind_cases h hd
  rotate_left
  · have := (keepCode_of1 chooseSuite_keep1).err h2
    rw [this, e1] at hc; cases hc
  obtain ⟨_, c2, _⟩ := chooseSuite_st h2
  obtain ⟨c, _, h3, h⟩ | ⟨e, h3⟩ := bind_cases h hd
  rotate_left
  · simp [M.getCtx] at h3
  obtain ⟨rfl, rfl⟩ := getCtx_ok.1 h3
  have e2 : s2.ctx.errorCode = .unspecified := by rw [c2]; exact e1
  have p2 : s2.ctx.peerCsuite = [] := by rw [c2]; exact p1
  obtain ⟨me, _, h4, h⟩ | ⟨e, h4⟩ := bind_cases h hd
  rotate_left
  · have := (Pres.ofOption keepCode_frame _ _).err h4
    rw [this, e2] at hc; cases hc
  obtain ⟨_, rfl⟩ := ofOption_ok.1 h4
  obtain ⟨_, s3, h5, h⟩ | ⟨e, h5⟩ := bind_cases h hd
  rotate_left
  · simp [M.modCtx] at h5
  have c3 := modCtx_ok.1 h5
  have e3 : s3.ctx.errorCode = .unspecified := by rw [← c3]; exact e2
  have p3 : s3.ctx.peerCsuite = [] := by rw [← c3]; exact p2
  obtain ⟨_, s4, h6, h⟩ | ⟨e, h6⟩ := bind_cases h hd
  rotate_left
  · rcases checkSuites_peer h6 (by simp) p3 with h7 | ⟨_, h7⟩
    · rw [h7, e3] at hc; cases hc
    · exact Or.inr h7
  have e4 : s4.ctx.errorCode = .unspecified := by
    rcases checkSuites_peer h6 (by simp) p3 with h7 | ⟨⟨_, h7⟩, _⟩
    · rw [h7]; exact e3
    · cases h7
  -- from here on the code is kept, until it becomes 0
  exfalso
  have key : Ends (σ := σ) KeepCode (fun _ s' => s'.ctx.errorCode = .success) (do
      require ((getMsg1 cfg.dec msg).2.gx.length + (staleMsg1 cfg.dec msg).1 == s2.ctx.suite.eccKey) .msg1Process
      guardUB (s2.ctx.suite.eccKey ≤ cfg.maxEccKey && (staleMsg1 cfg.dec msg).1 == 0) .oob
      modCtx fun c => { c with dhPeerPub := (getMsg1 cfg.dec msg).2.gx }
      require ((staleMsg1 cfg.dec msg).2.1 ≤ cfg.maxCid + 1) .msg1Process
      guardUB ((staleMsg1 cfg.dec msg).2.1 == 0) .oob
      storePeerCid cfg .msg1Process (getMsg1 cfg.dec msg).2.ci
      processEad1 E cfg (getMsg1 cfg.dec msg).2.ead (staleMsg1 cfg.dec msg).2.2
      let h ← hashTh E cfg msg
      modCtx fun c => { c with th := h, thState := .th1, status := .receivedM1, errorCode := .success }) := by
    repeat' first
    | with_reducible refine Ends.modCtx (fun s => ?_)
    | with_reducible refine Ends.bind keepCode_frame ⟨fun _ h => h⟩ ?_ (fun _ => ?_)
    | with_reducible exact Pres.require keepCode_frame _ _
    | with_reducible exact Pres.guardUB keepCode_frame _ _
    | with_reducible exact keepCode_of (rkeepM_inner.hashTh _ _ _)
    | with_reducible exact keepCode_of (rkeepM_inner.processEad1 _ _ _ _)
    | with_reducible exact keepCode_of (rkeepM_inner.storePeerCid _ _ _)
    | with_reducible refine Pres.modCtx _ (fun s => ?_)
    | rfl
  have key := key s4
  cases r with
  | ok a => have := key.2 _ _ h; rw [this] at hc; cases hc
  | err e => have : s'.ctx.errorCode = s4.ctx.errorCode := key.1 _ _ h; rw [this, e4] at hc; cases hc
  | ub u => simp at hd

/-- the context is only configured until a message call is accepted for processing -/
theorem session_start {e : σ} {log : List Ev} : ∀ {h : History} {s : St σ}, Session E cfg e log h s →
    s.ctx.status = .start → Configured s.ctx := by
  intro h
  induction h using snoc_ind with
  | h0 => intro s hs _; cases hs.1; exact configured_fresh
  | hs h p ih =>
    intro s' hs hst
    obtain ⟨s, r1, r2⟩ := run_append hs.1
    have hs1 : Session E cfg e log h s := ⟨r1, fun q hq => hs.2 q (by simp [hq])⟩
    obtain ⟨o, r⟩ := p
    obtain ⟨s2, h2, hd, r3⟩ := run_cons r2
    cases r3
    have hn := hs.2 (o, r) (by simp)
    cases hk : callOf o with
    | some k =>
      rcases step_message hk h2 hd with ⟨_, _, rfl⟩ | ⟨_, _, _, rfl⟩ | ⟨_, _, _, _, _, _, hc⟩ | ⟨_, ho, ⟨a, rfl⟩, _, hc⟩
      · exact ih hs1 hst
      · exact ih hs1 hst
      · rw [(ctl1_proj hc).2.1] at hst; cases hst
      · rw [(ctl1_proj hc).2.1] at hst; cases k <;> cases hst
    | none =>
      have hst1 : s.ctx.status = .start := by
        have hot := step_other hk hn h2 hd
        rcases hot.2.2 with ⟨h1, _⟩ | ⟨_, _, _, _, _, h1, _⟩ | ⟨_, _, _, _, _, _, _, _, h1, _⟩ | ⟨_, _, h1, _⟩
        · rw [← h1]; exact hst
        · rw [← h1]; exact hst
        · rw [← h1]; exact hst
        · rw [h1] at hst; cases hst
      have hc := ih hs1 hst1
      cases hx : reconf (o, r) with
      | false =>
        rcases still_step h2 hd hn hx (added_none hk) hc.early with rfl | h1
        · exact hc
        · rw [h1] at hst; cases hst
      | true =>
        simp only [reconf, Bool.and_eq_true] at hx
        rcases C30_setters (E := E) (cfg := cfg) hx.1 s with ⟨_, hd', c', h1, h2'⟩ | ⟨_, e, _, h1⟩
        · rw [h2] at h1
          simp only [Prod.mk.injEq] at h1
          rw [h1.2]; exact hc.stored h2'
        · rw [h2] at h1
          simp only [Prod.mk.injEq] at h1
          rw [h1.2]; exact hc

/-- in an aborted session, nothing but a message call changes what is stored of the peer's suites -/
theorem other_peer {o : Op} {s s' : St σ} {r : Res Out} (hk : callOf o = none) (hn : restarts o = false)
    (h : step E cfg o s = (r, s')) (hd : r.Defined) (ha : s.ctx.status = .aborted) : s'.ctx.peerCsuite = s.ctx.peerCsuite := by
  by_cases hs : isSetter o = true
  · rcases C30_setters (E := E) (cfg := cfg) hs s with ⟨_, _, c', h1, h2⟩ | ⟨_, e, _, h1⟩
    · rw [h] at h1
      simp only [Prod.mk.injEq] at h1
      rw [h1.2]
      cases o <;> simp only [Stored] at h2 <;> first | exact absurd h2 id | (rw [h2]) | (rw [h2.2.2])
    · rw [h] at h1
      simp only [Prod.mk.injEq] at h1
      rw [h1.2]
  · cases o <;> simp only [callOf, reduceCtorEq] at hk <;> simp only [restarts, Bool.true_eq_false] at hn <;>
      simp only [isSetter, not_true_eq_false] at hs
    case nullArg =>
      simp only [step, M.fail, Prod.mk.injEq] at h
      rw [← h.2]
    case exportSecret l n =>
      obtain ⟨r0, h0, hr0⟩ := step_export h
      have := exportSecret_pres E cfg l n s
      rw [h0] at this
      have := this (by rcases hr0 with ⟨a, rfl, _⟩ | ⟨e, rfl, _⟩ | ⟨u, rfl, rfl⟩ <;> simp_all)
      rcases this.2 with h1 | ⟨_, _, p, _, _, h2, _⟩
      · rw [h1]
      · rw [h2]
    case keyUpdate b =>
      rw [keyUpdate_refused (aborted_okUpdate ha)] at h
      simp only [Prod.mk.injEq] at h
      rw [h.2]
    case exportOscore a b c d =>
      rw [update_refused (aborted_okUpdate ha) (Or.inr rfl)] at h
      simp only [Prod.mk.injEq] at h
      rw [h.2]
    case getCode => rw [getCode_state h]
    case getSuites a b => rw [getSuites_state h hd]

/-- in a session with code 2, the stored suites are those of a message_1 that was processed -/
theorem session_code2 {e : σ} {log : List Ev} : ∀ {h : History} {s : St σ}, Session E cfg e log h s →
    reportedCode s = .wrongSuite → s.ctx.status = .aborted ∧ ∃ msg er, (.process1 msg, .err er) ∈ h ∧
      s.ctx.peerCsuite = suiteValues (getMsg1 cfg.dec msg).2.suites := by
  intro h
  induction h using snoc_ind with
  | h0 => intro s hs hc; cases hs.1; cases hc
  | hs h p ih =>
    intro s' hs hc
    obtain ⟨s, r1, r2⟩ := run_append hs.1
    have hs1 : Session E cfg e log h s := ⟨r1, fun q hq => hs.2 q (by simp [hq])⟩
    obtain ⟨o, r⟩ := p
    obtain ⟨s2, h2, hd, r3⟩ := run_cons r2
    cases r3
    have hn := hs.2 (o, r) (by simp)
    have old : reportedCode s = .wrongSuite → s'.ctx.status = .aborted → s'.ctx.peerCsuite = s.ctx.peerCsuite →
        s'.ctx.status = .aborted ∧ ∃ msg er, (.process1 msg, .err er) ∈ h ++ [(o, r)] ∧
          s'.ctx.peerCsuite = suiteValues (getMsg1 cfg.dec msg).2.suites := by
      intro h1 h3 h4
      obtain ⟨_, msg, er, h5, h6⟩ := ih hs1 h1
      exact ⟨h3, msg, er, by simp [h5], by rw [h4, h6]⟩
    cases hk : callOf o with
    | some k =>
      rcases step_message hk h2 hd with ⟨_, _, rfl⟩ | ⟨_, _, _, rfl⟩ | ⟨_, hok, ⟨er, rfl⟩, _, code, hm, hcc⟩ | ⟨_, ho, ⟨a, rfl⟩, _, hcc⟩
      · exact old hc (ih hs1 hc).1 rfl
      · exact old hc (ih hs1 hc).1 rfl
      · have hcode : reportedCode s' = code := (ctl1_proj hcc).1
        rw [hc] at hcode
        subst hcode
        simp only [CodeMeans] at hm
        obtain ⟨_, b, rfl, _⟩ := hm
        simp only [callOf, Option.some.injEq] at hk
        subst hk
        refine ⟨(ctl1_proj hcc).2.1, b, er, by simp, ?_⟩
        have hst : s.ctx.status = .start := by
          simp only [okOf, okStart, Bool.and_eq_true, beq_iff_eq] at hok
          exact hok.1.1
        have hcf := session_start hs1 hst
        obtain ⟨r0, h0, ⟨a, rfl, hx⟩ | ⟨er, rfl, hx⟩ | ⟨u, rfl, hx⟩⟩ := mapOut_cases h2
        · cases hx
        · rcases process1_code2 h0 (by simp) (by rw [hcf]; rfl) hc with h3 | h3
          · rw [hcf] at h3
            rw [show s'.ctx.errorCode = .wrongSuite from hc] at h3
            cases h3
          · exact h3
        · cases hx
      · have hcode : reportedCode s' = .success := (ctl1_proj hcc).1
        rw [hc] at hcode; cases hcode
    | none =>
      have hot := step_other hk hn h2 hd
      have hc0 : reportedCode s = .wrongSuite := by
        have := hot.1
        unfold reportedCode at *
        rw [← this, hc]
      have ha := (ih hs1 hc0).1
      refine old hc0 ?_ (other_peer hk hn h2 hd ha)
      exact aborted_run r2 (by simpa using hn) ha

theorem session_init {e : σ} {log : List Ev} : ∀ {h : History} {s : St σ}, Session E cfg e log h s →
    s.ctx.isInit = true := by
  intro h
  induction h using snoc_ind with
  | h0 => intro s hs; cases hs.1; rfl
  | hs h p ih =>
    intro s' hs
    obtain ⟨s, r1, r2⟩ := run_append hs.1
    have hi := ih ⟨r1, fun q hq => hs.2 q (by simp [hq])⟩
    obtain ⟨o, r⟩ := p
    obtain ⟨s2, h2, hd, r3⟩ := run_cons r2
    cases r3
    cases hk : callOf o with
    | some k =>
      rcases step_message hk h2 hd with ⟨_, _, rfl⟩ | ⟨_, _, _, rfl⟩ | ⟨_, _, _, _, _, _, hc⟩ | ⟨_, _, _, _, hc⟩
      · exact hi
      · exact hi
      · rw [(ctl1_proj hc).2.2.1]; exact hi
      · rw [(ctl1_proj hc).2.2.1]; exact hi
    | none => rw [(step_other hk (hs.2 (o, r) (by simp)) h2 hd).2.1]; exact hi

/-- **C05** (reporting). When `edhoc_error_get_code` would return 2 in a session, there was a message_1 that failed, and
`edhoc_error_get_cipher_suites` with large enough buffers returns the configured suites and the suites the decoder found
in that message. -/
theorem C05_reported_suites {e : σ} {log : List Ev} {h : History} {s : St σ} (hs : Session E cfg e log h s)
    (hc : reportedCode s = .wrongSuite) :
    ∃ msg er, (.process1 msg, .err er) ∈ h ∧
      ∀ a b, s.ctx.csuiteLen ≤ a → (suiteValues (getMsg1 cfg.dec msg).2.suites).length ≤ b → a ≠ 0 → b ≠ 0 →
        step E cfg (.getSuites a b) s =
          (.ok (.suites ((suites s.ctx).map Suite.value) (suiteValues (getMsg1 cfg.dec msg).2.suites)), s) := by
  obtain ⟨_, msg, er, h1, h2⟩ := session_code2 hs hc
  have hi := session_init hs
  refine ⟨msg, er, h1, fun a b h3 h4 h5 h6 => ?_⟩
  unfold reportedCode at hc
  have ha : (a != 0) = true := by simpa using h5
  have hb : (b != 0) = true := by simpa using h6
  simp [step, M.mapOut, errorGetSuites, Bind.bind, M.bind, M.getCtx, M.require, M.guardUB, ha, hb, hi, hc, h2, h3, h4, Pure.pure,
    M.ret, suites]

/-- What the decoder finds in a message that begins with METHOD and SUITES_I in deterministic encoding (at most three
suites, as in the CDDL of the library): those suites. -/
theorem C05_decoded_suites {d : DecCfg} {me : Int} {su : Suites} {b r : Bytes} (hb : encSuites su = some b)
    (hme : Int32Range me) (hsu : ∀ v ∈ suiteValues su, Int32Range v) :
    suiteValues (getMsg1 d (encInt me ++ b ++ r)).2.suites = suiteValues su := by
  have h1 := getSuites_encSuites (d := d) hb hsu true r
  unfold getMsg1
  rw [List.append_assoc, getInt_encInt _ hme]
  simp only [h1]
  split
  · rfl
  · split <;> rfl

/-- **C05**. Suites are reported after error code 2 only. -/
theorem C05_reported_only_then {s s' : St σ} {a b : Nat} {x : Out} (hok : step E cfg (.getSuites a b) s = (.ok x, s')) :
    reportedCode s = .wrongSuite := by
  apply Classical.byContradiction
  intro hc
  unfold reportedCode at hc
  simp only [step, M.mapOut, errorGetSuites, Bind.bind, M.bind, M.getCtx, M.require] at hok
  by_cases h1 : (a != 0) && (b != 0) <;> by_cases h2 : s.ctx.isInit <;> simp [h1, h2, hc] at hok

/-- Non-vacuity: Bob supports suite 7 only and is offered 9, or 7 and 9. -/
example : ∃ msg, Session (Toy.env Toy.bob) Toy.cfg () [] (Toy.hst Toy.bob (Toy.conf 3 (.int 1) ++ [.process1 msg]))
      (Toy.after Toy.bob (Toy.conf 3 (.int 1) ++ [.process1 msg])) ∧
    reportedCode (Toy.after Toy.bob (Toy.conf 3 (.int 1) ++ [.process1 msg])) = .wrongSuite ∧
    (step (Toy.env Toy.bob) Toy.cfg (.getSuites 3 3) (Toy.after Toy.bob (Toy.conf 3 (.int 1) ++ [.process1 msg]))).1 =
      .ok (.suites [2] [2, 9]) :=
  ⟨[3, 0x82, 2, 9], Toy.session _ _ (by decide +kernel), by decide +kernel, by decide +kernel⟩

/-- The decoder need not find the suites: a message that is no message_1 at all is reported in the same way, with no
suites, although method 0 is all that the Responder could have found wrong. -/
theorem C05_garbage_reported_as_wrong_suite :
    reportedCode (Toy.after Toy.bob (Toy.conf 0 (.int 1) ++ [.process1 [0xFF]])) = .wrongSuite ∧
    (step (Toy.env Toy.bob) Toy.cfg (.getSuites 3 3) (Toy.after Toy.bob (Toy.conf 0 (.int 1) ++ [.process1 [0xFF]]))).1 =
      .ok (.suites [2] []) := by decide +kernel

/-! ## C06 -/

/-- **C06** (Initiator). A successful `edhoc_message_1_compose` proposes the first configured method, and this is the
method of the session. -/
theorem C06_proposed_method {s s' : St σ} {n : Nat} {msg : Bytes} {m : Nat} {ms : List Nat}
    (hok : step E cfg (.compose1 n) s = (.ok (.bytes msg), s')) (hm : s.ctx.method = m :: ms) :
    (∃ r, msg = encInt m ++ r) ∧ s'.ctx.chosenMethod = m := by
  obtain ⟨_, _, h1, h2, c⟩ := step_compose1 rfl hok
  cases h1; cases h2
  obtain ⟨_, _, _, _, priv, pub, kid, ts, th, _, _, _, _, _, he, _, _, _, hc⟩ := message1Compose_ok c
  obtain ⟨su, ci, ea, _, _, _, hb⟩ := encMsg1_ok he
  rw [hm] at hc hb
  refine ⟨⟨su ++ encBstr pub ++ ci ++ ea, ?_⟩, by rw [hc]; rfl⟩
  rw [hb]
  simp

/-- **C06** (Responder). If `edhoc_message_1_process` succeeds, the message begins with METHOD, SUITES_I and G_X, the
method is one of those configured, and it is the method of the session. -/
theorem C06_accepted_method {s s' : St σ} {msg : Bytes} {x : Out} (hok : step E cfg (.process1 msg) s = (.ok x, s'))
    (hecc : 0 < s'.ctx.suite.eccKey) :
    ∃ (me : Nat) (su : Suites) (gx : Bytes), StartsMessage1 me su gx msg ∧ me ∈ s.ctx.method ∧ s'.ctx.chosenMethod = me := by
  obtain ⟨m, hm, rfl, c⟩ := step_process1 rfl hok
  cases hm
  obtain ⟨_, _, _, m, me, p, th, rfl, h1, h2, hp, hg, _, _, _, hc⟩ := message1Process_ok c
  have es : s'.ctx.suite = (chosen s.ctx 0).suite := by rw [hc]; rfl
  rw [← es] at hg
  refine ⟨me, (getMsg1 cfg.dec msg).2.suites, (getMsg1 cfg.dec msg).2.gx, ?_, h1, by rw [hc]; rfl⟩
  rw [h2]
  refine getMsg1_start (d := cfg.dec) (b := msg) (fun h => ?_)
  rw [h] at hg; simp at hg; omega

/-- Non-vacuity: Alice prefers method 3 over 0, Bob prefers 1 over 3. -/
example : ∃ m1, (step (Toy.env Toy.alice) Toy.cfg (.compose1 100)
      (Toy.after Toy.alice (Toy.conf 3 (.int 5) ++ [.setMethods [3, 0]]))).1 = .ok (.bytes m1) ∧
    (step (Toy.env Toy.bob) Toy.cfg (.process1 m1) (Toy.after Toy.bob (Toy.conf 3 (.int 1) ++ [.setMethods [1, 3]]))).1 =
      .ok .unit ∧
    (step (Toy.env Toy.bob) Toy.cfg (.process1 m1)
      (Toy.after Toy.bob (Toy.conf 3 (.int 1) ++ [.setMethods [1, 3]]))).2.ctx.chosenMethod = 3 :=
  ⟨Toy.msg 3 1, by decide +kernel, by decide +kernel, by decide +kernel⟩

/-- **C06** (both). Peers that completed the handshake with each other ran the same method. (By the
two theorems above, it is the first one in the Initiator's list, and it is in the Responder's list.) -/
theorem C06_same_method {τ : Type} {EI : Env σ} {ER : Env τ} {cI cR : Config} {eI : σ} {eR : τ} {logI logR : List Ev}
    {hI hR : History} {sI : St σ} {sR : St τ} {P : Prims} {kI kR : Bytes → Bytes}
    (fI : Proper EI cI eI logI hI sI) (fR : Proper ER cR eR logR hR sR)
    (hi : AsInitiator hI) (hr : AsResponder hR) (hsu : sR.ctx.suite = sI.ctx.suite)
    (p : Peers P kI kR sI.ctx.chosenMethod (sessionCalls logI sI) (sessionCalls logR sR) hI hR) :
    sR.ctx.chosenMethod = sI.ctx.chosenMethod := by
  obtain ⟨_, _, _, _, _, _, _, _, _, _, _, _, _, _, both⟩ := both_views fI fR hi hr hsu p
  exact both.method.symm

end Verif
