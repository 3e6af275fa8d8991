import Verif.ResidueStep
import Verif.Props.Keys
import Verif.ToyCheck

/-!
# C74: failed callbacks that wrote to their output
-/

namespace Verif

open M Spec

variable {σ : Type} {E : Env σ} {cfg : Config} {w : Residue σ}

theorem leave_log (s : St σ) : (leave w s).log = s.log ∧ (leave w s).env = s.env := by
  unfold leave
  split <;> exact ⟨rfl, rfl⟩

/-- what a call does, with residues: as without, except for what is left in the context of an aborted session, or a
derivation of PRK_out failed -/
theorem stepW_cases {o : Op} {t t' : St σ} {r : Res Out} (h : stepW E cfg w o t = (r, t')) (hd : r.Defined) :
    (∃ t1, step E cfg o t = (r, t1) ∧ Alike t1 t') ∨ BadKey w t t' := by
  cases hk : callOf o with
  | none =>
    rcases stepW_same E cfg w hk t with hs | ⟨e, s1, hs, hb⟩
    · exact Or.inl ⟨t', hs.symm.trans h, rfl, rfl, Or.inr rfl⟩
    · rw [h] at hs
      simp only [Prod.mk.injEq] at hs
      rw [hs.2]
      exact Or.inr hb
  | some k =>
    rw [stepW_message E cfg w hk, leaving] at h
    rcases hm : step E cfg o t with ⟨r1, t1⟩
    rw [hm] at h
    cases r1 with
    | ok v =>
      simp only [Prod.mk.injEq] at h
      obtain ⟨rfl, rfl⟩ := h
      exact Or.inl ⟨_, rfl, rfl, rfl, Or.inr rfl⟩
    | ub u =>
      simp only [Prod.mk.injEq] at h
      rw [← h.1] at hd
      exact absurd rfl (hd u)
    | err e =>
      simp only [Prod.mk.injEq] at h
      obtain ⟨rfl, rfl⟩ := h
      refine Or.inl ⟨_, rfl, (leave_log t1).2.symm, (leave_log t1).1.symm, ?_⟩
      by_cases ha : t1.ctx.status = .aborted
      · exact Or.inl (stale_leave ha (Or.inr rfl))
      · right
        simp only [leave, ha, if_false]

theorem stepW_grow {o : Op} {t t' : St σ} {r : Res Out} (h : stepW E cfg w o t = (r, t')) (hd : r.Defined) : Grow t t' := by
  rcases stepW_cases h hd with ⟨t1, hs, _, hl, _⟩ | ⟨⟨L, hL, _⟩, _⟩
  · obtain ⟨a, b, g⟩ := step_grow hs hd
    exact ⟨a, b, by rw [← hl]; exact g⟩
  · exact ⟨L, [], by simp [hL]⟩

theorem runW_grow {s s' : St σ} {h : History} (hr : RunW E cfg w s h s') : Grow s s' := by
  induction hr with
  | nil s => exact Saw.refl s
  | cons hs hd _ ih => exact (stepW_grow hs hd).left ih

theorem alike_trans {s t u : St σ} (h1 : Alike s t) (h2 : Alike t u) : Alike s u := by
  obtain ⟨a1, b1, c1⟩ := h1
  obtain ⟨a2, b2, c2⟩ := h2
  refine ⟨a1.trans a2, b1.trans b2, ?_⟩
  rcases c1 with c1 | c1
  · rcases c2 with c2 | c2
    · left
      obtain ⟨p1, a, b, d, t, p, e, q1, q3, q4⟩ := c1
      obtain ⟨r1, a', b', d', t', p', e', s1, s3, s4⟩ := c2
      refine ⟨p1, a', b', d', t', p', e', ?_, ?_, ?_⟩
      · rw [s1, q1]; rfl
      · intro h
        rw [s3 (by rw [q1]; exact h), q1]
        exact q3 h
      · intro h
        rw [s4 (by rw [q1]; exact h), q1]
        exact q4 h
    · rw [← c2]; exact Or.inl c1
  · rw [c1]; exact c2

theorem transfer {t t' : St σ} {h : History} (hr : RunW E cfg w t h t') :
    ∀ s, Alike s t → ¬ FailedInPlace (during t t') ∨ (∀ e b, w.key e b = b) → ∃ s', Run E cfg s h s' ∧ Alike s' t' := by
  induction hr with
  | nil t => exact fun s ha _ => ⟨s, .nil s, ha⟩
  | @cons t t1 t2 o r h hs hd hr ih =>
    intro s ha hn
    obtain ⟨a, b, g1⟩ := stepW_grow hs hd
    obtain ⟨a2, b2, g2⟩ := runW_grow hr
    rcases stepW_cases hs hd with ⟨u, hu, hut⟩ | ⟨⟨L, hL, hf⟩, hw⟩
    · obtain ⟨s1, h1, al1⟩ := stale_step E cfg ha hu hd
      obtain ⟨s2, h2, al2⟩ := ih s1 (alike_trans al1 hut) (by
        rcases hn with hn | hn
        · left
          rintro ⟨kid, c, x, n, l, hl, hm⟩
          refine hn ⟨kid, c, x, n, l, hl, ?_⟩
          have e1 : during t1 t2 = a2 ++ b2 := by simp [during, g2]
          have e2 : during t t2 = (a ++ b) ++ (a2 ++ b2) := by simp [during, g2, g1]
          rw [e2, ← e1]
          exact List.mem_append_right _ hm
        · exact Or.inr hn)
      exact ⟨s2, .cons h1 hd h2, al2⟩
    · rcases hn with hn | hn
      · refine absurd ?_ hn
        obtain ⟨kid, c, x, n, l, hl, hm⟩ := hf
        refine ⟨kid, c, x, n, l, hl, ?_⟩
        have e2 : during t t2 = L ++ (a2 ++ b2) := by simp [during, g2, hL]
        rw [e2]
        exact List.mem_append_left _ hm
      · exact absurd hn hw

/-- **C74**, as far as it holds. Failed callbacks may leave anything in the buffers they were given, and may do so in any
call: as long as no derivation of PRK_out fails (or a failed one leaves the key as it was), every call of every
history returns what it would return had the buffers not been touched, and makes the same calls to the
application. So what the other properties say about results and calls holds for such applications too. -/
theorem C74_transfer_partial {s s' : St σ} {h : History} (hr : RunW E cfg w s h s')
    (hn : ¬ FailedInPlace (during s s') ∨ ∀ e b, w.key e b = b) :
    ∃ t, Run E cfg s h t ∧ t.env = s'.env ∧ t.log = s'.log := by
  obtain ⟨t, h1, h2, h3, _⟩ := transfer hr s ⟨rfl, rfl, Or.inr rfl⟩ hn
  exact ⟨t, h1, h2, h3⟩

/-- **C74**, for the exporter: under the same condition, a secret exported after a completed handshake is derived from
the handshake's PRK_4e3m and TH_4, whatever failed before. -/
theorem C74_export_partial {e : σ} {log : List Ev} {h : History} {s' : St σ} {label n : Nat} {out : Bytes}
    (hs : SessionW E cfg w e log (h ++ [(.exportSecret label n, .ok (.bytes out))]) s')
    (hn : ¬ FailedInPlace (sessionCalls log s') ∨ ∀ e b, w.key e b = b)
    (hset : Settled (h ++ [(.exportSecret label n, .ok (.bytes out))])) (hc : complete h)
    (hr : Regular (sessionCalls log s') s'.ctx.suite) (hsn : SuiteNumbers s'.ctx)
    (hm : ShortMessages (h ++ [(.exportSecret label n, .ok (.bytes out))])) (hl : n < 2 ^ 32) :
    out.length = n ∧
    ∃ v prkOut, HandshakeValues (sessionCalls log s') s'.ctx.suite s'.ctx.chosenMethod h v ∧
      EpochKey (sessionCalls log s') v.prk4e3m v.th4 s'.ctx.suite.hash (updates h) prkOut ∧
      ExportedFrom (sessionCalls log s') prkOut s'.ctx.suite.hash label n out := by
  obtain ⟨t, h1, _, h3, h4⟩ := transfer hs.1 _ ⟨rfl, rfl, Or.inr rfl⟩ hn
  have ec : sessionCalls log t = sessionCalls log s' := by simp [sessionCalls, h3]
  have es : t.ctx.suite = s'.ctx.suite ∧ t.ctx.chosenMethod = s'.ctx.chosenMethod ∧ suites t.ctx = suites s'.ctx := by
    rcases h4 with ⟨_, a, b, d, u, p, f, q, _⟩ | q
    · rw [q]; exact ⟨rfl, rfl, rfl⟩
    · rw [q]; exact ⟨rfl, rfl, rfl⟩
  have := C13_export (E := E) (cfg := cfg) (s' := t) ⟨h1, hs.2⟩ hset hc (by rw [ec, es.1]; exact hr)
    (by unfold SuiteNumbers at hsn ⊢; rw [es.2.2]; exact hsn) hm hl
  rw [ec, es.1, es.2.1] at this
  exact this

theorem bind_same {α β : Type} {m m' : M σ α} {k k' : α → M σ β} {s : St σ} (h : m' s = m s)
    (hk : ∀ a s1, m s = (.ok a, s1) → k' a s1 = k a s1) : (m' >>= k') s = (m >>= k) s := by
  simp only [Bind.bind, M.bind, h]
  rcases hm : m s with ⟨r, s1⟩
  cases r with
  | ok a => exact hk a s1 hm
  | err e => rfl
  | ub u => rfl

theorem exportSecretW_out {s : St σ} (h : s.ctx.prkState = .out) (l n : Nat) :
    exportSecretW E cfg w l n s = exportSecret E cfg l n s := by
  rw [exportSecret_tail]
  unfold exportSecretW
  refine bind_same rfl fun _ s1 h1 => ?_
  refine bind_same rfl fun _ s2 h2 => ?_
  refine bind_same rfl fun c s3 h3 => ?_
  refine bind_same rfl fun _ s4 h4 => ?_
  simp only [M.require, getCtx, Prod.mk.injEq] at h1 h2 h3 h4
  obtain ⟨_, rfl⟩ := h1
  obtain ⟨_, rfl⟩ := h2
  obtain ⟨_, rfl⟩ := h3
  obtain ⟨_, rfl⟩ := h4
  refine bind_same ?_ fun _ _ _ => rfl
  simp [ensurePrkOut, ensurePrkOutW, Bind.bind, M.bind, getCtx, M.whenM, h]

theorem exportSecret_out {s s1 : St σ} (h : s.ctx.prkState = .out) {l n : Nat} {x : Bytes} {e : Err}
    (h1 : M.mapErr e (exportSecret E cfg l n) s = (.ok x, s1)) : s1.ctx.prkState = .out := by
  rw [mapErr_ok] at h1
  have := exportSecret_pres E cfg l n s (by rw [h1]; intro u; simp)
  rw [h1] at this
  rcases this.2 with q | ⟨q, _⟩
  · rw [q]; exact h
  · rw [h] at q; cases q

/-- **C74**, as far as it holds: once PRK_out has been derived, no export is affected by what failed callbacks leave. -/
theorem C74_settled_partial {s : St σ} (h : s.ctx.prkState = .out) {o : Op}
    (ho : (∃ l n, o = .exportSecret l n) ∨ isOscore o = true) : stepW E cfg w o s = step E cfg o s := by
  rcases ho with ⟨l, n, rfl⟩ | ho
  · simp only [stepW, step, M.mapOut, Bind.bind, M.bind, exportSecretW_out h]
  · cases o <;> simp only [isOscore, Bool.false_eq_true] at ho
    rename_i a b c d
    have : exportOscoreW E cfg w a b c d s = exportOscore E cfg a b c d s := by
      unfold exportOscoreW exportOscore
      refine bind_same rfl fun _ s1 h1 => ?_
      refine bind_same rfl fun x s2 h2 => ?_
      refine bind_same rfl fun _ s3 h3 => ?_
      refine bind_same rfl fun _ s4 h4 => ?_
      refine bind_same rfl fun _ s5 h5 => ?_
      simp only [M.require, getCtx, modCtx, Prod.mk.injEq] at h1 h2 h3 h4 h5
      obtain ⟨_, rfl⟩ := h1
      obtain ⟨_, rfl⟩ := h2
      obtain ⟨_, rfl⟩ := h3
      obtain ⟨_, rfl⟩ := h4
      obtain ⟨_, rfl⟩ := h5
      have hq : ({ s with ctx := { s.ctx with status := .aborted, oscoreAllowed := false } } : St σ).ctx.prkState = .out := h
      refine bind_same (by simp only [M.mapErr, exportSecretW_out hq]) fun _ s6 h6 => ?_
      have hq2 := exportSecret_out hq h6
      exact bind_same (by simp only [M.mapErr, exportSecretW_out hq2]) fun _ _ _ => rfl
    simp only [stepW, step, M.mapOut, Bind.bind, M.bind, this]

/-! ## Violations -/

namespace Toy

/-- The toy application, except that the first expansion with the given label fails. The private state: has it still to
fail? -/
def flaky (p : Party) (label : Nat) : Env Bool where
  alloc e n := (!p.noMem n, e)
  importKey e _ raw := (some raw, e)
  destroyKey e _ := e
  makeKeyPair e _ := (some (p.eph, dhPub p.eph), e)
  keyAgreement e k peer := (some (dh k peer), e)
  sign e k m := (some (tag (dhPub k) m), e)
  verify e k m s := (decide (s = tag k m), e)
  extract e k salt := (some (extract k salt), e)
  expand e k info n := if e && info.head? == some (UInt8.ofNat label) then (none, false) else (some (expand k info n), e)
  encrypt e k iv aad m := (some (aead k iv aad m), e)
  decrypt e k iv aad c := (unaead k iv aad c, e)
  hash e m := (some (hash m), e)
  eadCompose e m := (some (p.ead m), e)
  eadProcess e _ _ := (true, e)
  credFetch e := (some (p.cred, p.sk), e)
  credVerify e c := ((p.db c).map fun q => (q.1, some q.2), e)

/-- a failed expansion fills its output with `!` -/
def marks : Residue Bool where
  key _ b := List.replicate b.length 0x21
  dhPub _ := []
  dhPriv _ := []
  dhSecret _ := []
  th _ := []
  prk _ := []
  ead _ := []

/-- the history of a list of calls -/
def histW {σ : Type} (E : Env σ) (cfg : Config) (w : Residue σ) : List Op → St σ → History × St σ
  | [], s => ([], s)
  | o :: os, s =>
    let r := stepW E cfg w o s
    let t := histW E cfg w os r.2
    ((o, r.1) :: t.1, t.2)

theorem histW_run {σ : Type} {E : Env σ} {cfg : Config} {w : Residue σ} (ops : List Op) (s : St σ)
    (h : ((histW E cfg w ops s).1.all fun p => !isUb p.2) = true) :
    RunW E cfg w s (histW E cfg w ops s).1 (histW E cfg w ops s).2 := by
  induction ops generalizing s with
  | nil => exact .nil s
  | cons o os ih =>
    simp only [histW, List.all_cons, Bool.and_eq_true] at h ⊢
    refine .cons (s1 := (stepW E cfg w o s).2) rfl ?_ (ih _ h.2)
    intro u hu
    rw [hu] at h
    simp [isUb] at h

theorem histW_session {σ : Type} {E : Env σ} {cfg : Config} {w : Residue σ} (ops : List Op) (e : σ) (log : List Ev)
    (h : ((histW E cfg w ops ⟨Ctx.fresh, e, log⟩).1.all fun p => !isUb p.2 && !restarts p.1) = true) :
    SessionW E cfg w e log (histW E cfg w ops ⟨Ctx.fresh, e, log⟩).1 (histW E cfg w ops ⟨Ctx.fresh, e, log⟩).2 := by
  simp only [List.all_eq_true, Bool.and_eq_true, Bool.not_eq_true'] at h
  refine ⟨histW_run _ _ ?_, fun p hp => (h p hp).2⟩
  simp only [List.all_eq_true, Bool.not_eq_true']
  exact fun p hp => (h p hp).1

end Toy

open Toy

/-- **C74 is violated**: a completed session whose first export fails because the expansion to PRK_out fails. The
same export, called again, succeeds and delivers another secret than the session has without the failure, which is the
one the peer exports: the second attempt takes what the failed callback left for PRK_4e3m. -/
theorem C74_violated : ∃ (hI hR : History) (a b : Bytes) (s : St Bool) (sI sR : St Unit),
    SessionW (flaky alice 7) Toy.cfg marks true [] (hI ++ [(.exportSecret 40000 8, .err .prk), (.exportSecret 40000 8, .ok (.bytes a))]) s ∧
      complete hI ∧ Session (Toy.env alice) Toy.cfg () [] (hI ++ [(.exportSecret 40000 8, .ok (.bytes b))]) sI ∧
      Session (Toy.env bob) Toy.cfg () [] (hR ++ [(.exportSecret 40000 8, .ok (.bytes b))]) sR ∧ a ≠ b := by
  refine ⟨hst alice (callsI 3), hst bob (callsR 3), [226, 15, 60, 105, 150, 180, 225, 14], [231, 20, 65, 110, 140, 185, 230, 19],
    (histW (flaky alice 7) Toy.cfg marks (callsI 3 ++ [.exportSecret 40000 8, .exportSecret 40000 8]) ⟨Ctx.fresh, true, []⟩).2,
    after alice (callsI 3 ++ [.exportSecret 40000 8]), after bob (callsR 3 ++ [.exportSecret 40000 8]), ?_, ?_, ?_, ?_, by decide⟩
  · have h := histW_session (E := flaky alice 7) (cfg := Toy.cfg) (w := marks)
      (callsI 3 ++ [.exportSecret 40000 8, .exportSecret 40000 8]) true [] (by decide +kernel)
    have e : (histW (flaky alice 7) Toy.cfg marks (callsI 3 ++ [.exportSecret 40000 8, .exportSecret 40000 8]) ⟨Ctx.fresh, true, []⟩).1 =
        hst alice (callsI 3) ++ [(.exportSecret 40000 8, .err .prk),
          (.exportSecret 40000 8, .ok (.bytes [226, 15, 60, 105, 150, 180, 225, 14]))] := by decide +kernel
    rw [← e]
    exact h
  · unfold complete; decide +kernel
  · have h := Toy.session alice (callsI 3 ++ [.exportSecret 40000 8]) (by decide +kernel)
    have e : hst alice (callsI 3 ++ [.exportSecret 40000 8]) = hst alice (callsI 3) ++
        [(.exportSecret 40000 8, .ok (.bytes [231, 20, 65, 110, 140, 185, 230, 19]))] := by decide +kernel
    rw [← e]
    exact h
  · have h := Toy.session bob (callsR 3 ++ [.exportSecret 40000 8]) (by decide +kernel)
    have e : hst bob (callsR 3 ++ [.exportSecret 40000 8]) = hst bob (callsR 3) ++
        [(.exportSecret 40000 8, .ok (.bytes [231, 20, 65, 110, 140, 185, 230, 19]))] := by decide +kernel
    rw [← e]
    exact h

/-- **C74 is violated** by key updates too: after a failed update, two sessions with different keys export the same
secret, which depends on nothing but what the failed callback left. -/
theorem C74_update_violated : ∃ (h h' : History) (a b b' : Bytes) (s s' : St Bool) (t t' : St Unit),
    SessionW (flaky alice 11) Toy.cfg marks true [] (h ++ [(.keyUpdate [1], .err .prk), (.exportSecret 40000 8, .ok (.bytes a))]) s ∧
    SessionW (flaky alice 11) Toy.cfg marks true [] (h' ++ [(.keyUpdate [1], .err .prk), (.exportSecret 40000 8, .ok (.bytes a))]) s' ∧
      Session (Toy.env alice) Toy.cfg () [] (h ++ [(.exportSecret 40000 8, .ok (.bytes b))]) t ∧
      Session (Toy.env alice) Toy.cfg () [] (h' ++ [(.exportSecret 40000 8, .ok (.bytes b'))]) t' ∧ b ≠ b' := by
  refine ⟨hst alice (callsI 3), hst alice (callsI 0), [134, 179, 224, 13, 58, 103, 148, 178], [231, 20, 65, 110, 140, 185, 230, 19],
    [245, 34, 79, 124, 169, 214, 3, 48],
    (histW (flaky alice 11) Toy.cfg marks (callsI 3 ++ [.keyUpdate [1], .exportSecret 40000 8]) ⟨Ctx.fresh, true, []⟩).2,
    (histW (flaky alice 11) Toy.cfg marks (callsI 0 ++ [.keyUpdate [1], .exportSecret 40000 8]) ⟨Ctx.fresh, true, []⟩).2,
    after alice (callsI 3 ++ [.exportSecret 40000 8]), after alice (callsI 0 ++ [.exportSecret 40000 8]), ?_, ?_, ?_, ?_, by decide⟩
  · have h := histW_session (E := flaky alice 11) (cfg := Toy.cfg) (w := marks)
      (callsI 3 ++ [.keyUpdate [1], .exportSecret 40000 8]) true [] (by decide +kernel)
    have e : (histW (flaky alice 11) Toy.cfg marks (callsI 3 ++ [.keyUpdate [1], .exportSecret 40000 8]) ⟨Ctx.fresh, true, []⟩).1 =
        hst alice (callsI 3) ++ [(.keyUpdate [1], .err .prk),
          (.exportSecret 40000 8, .ok (.bytes [134, 179, 224, 13, 58, 103, 148, 178]))] := by decide +kernel
    rw [← e]
    exact h
  · have h := histW_session (E := flaky alice 11) (cfg := Toy.cfg) (w := marks)
      (callsI 0 ++ [.keyUpdate [1], .exportSecret 40000 8]) true [] (by decide +kernel)
    have e : (histW (flaky alice 11) Toy.cfg marks (callsI 0 ++ [.keyUpdate [1], .exportSecret 40000 8]) ⟨Ctx.fresh, true, []⟩).1 =
        hst alice (callsI 0) ++ [(.keyUpdate [1], .err .prk),
          (.exportSecret 40000 8, .ok (.bytes [134, 179, 224, 13, 58, 103, 148, 178]))] := by decide +kernel
    rw [← e]
    exact h
  · have h := Toy.session alice (callsI 3 ++ [.exportSecret 40000 8]) (by decide +kernel)
    have e : hst alice (callsI 3 ++ [.exportSecret 40000 8]) = hst alice (callsI 3) ++
        [(.exportSecret 40000 8, .ok (.bytes [231, 20, 65, 110, 140, 185, 230, 19]))] := by decide +kernel
    rw [← e]
    exact h
  · have h := Toy.session alice (callsI 0 ++ [.exportSecret 40000 8]) (by decide +kernel)
    have e : hst alice (callsI 0 ++ [.exportSecret 40000 8]) = hst alice (callsI 0) ++
        [(.exportSecret 40000 8, .ok (.bytes [245, 34, 79, 124, 169, 214, 3, 48]))] := by decide +kernel
    rw [← e]
    exact h

/-- Does a derivation of PRK_out fail? The first byte of `info` is the label. -/
def failedB (L : List Ev) : Bool :=
  L.any fun
    | .expand _ (b :: _) _ none => b == 7 || b == 11
    | _ => false

theorem failed_of {L : List Ev} (h : failedB L = false) : ¬ FailedInPlace L := by
  rintro ⟨kid, c, x, n, l, hl, hm⟩
  have : failedB L = true := by
    unfold failedB
    rw [List.any_eq_true]
    refine ⟨_, hm, ?_⟩
    rcases hl with rfl | rfl <;> rfl
  rw [h] at this
  cases this

/-- a handshake whose first attempt to derive K_3 (label 3) fails, and one in which the exporter's last expansion fails -/
def failing3 : List Op := callsI 3 ++ [.exportSecret 40000 8]
def failingX : List Op := callsI 3 ++ [.exportSecret 40000 8, .exportSecret 40000 8]

/-- Non-vacuity of `C74_transfer_partial`: message 3 fails in a callback, which leaves the toy residue. -/
example := C74_transfer_partial (histW_run (E := flaky alice 3) (cfg := Toy.cfg) (w := marks) failing3 ⟨Ctx.fresh, true, []⟩
  (by decide +kernel)) (Or.inl (failed_of (by decide +kernel)))

/-- ... and of `C74_export_partial`, with `h` a completed handshake and an export that failed: PRK_exporter (label 10) could
not be derived. -/
example : SessionW (flaky alice 10) Toy.cfg marks true [] (histW (flaky alice 10) Toy.cfg marks failingX ⟨Ctx.fresh, true, []⟩).1
      (histW (flaky alice 10) Toy.cfg marks failingX ⟨Ctx.fresh, true, []⟩).2 ∧
    ¬ FailedInPlace (sessionCalls [] (histW (flaky alice 10) Toy.cfg marks failingX ⟨Ctx.fresh, true, []⟩).2) ∧
    (histW (flaky alice 10) Toy.cfg marks failingX ⟨Ctx.fresh, true, []⟩).1 = hst alice (callsI 3) ++
      [(.exportSecret 40000 8, .err .prk), (.exportSecret 40000 8, .ok (.bytes [231, 20, 65, 110, 140, 185, 230, 19]))] :=
  ⟨histW_session failingX true [] (by decide +kernel), failed_of (by decide +kernel), by decide +kernel⟩

/-- ... and of `C74_settled_partial`. -/
example := C74_settled_partial (E := Toy.env alice) (cfg := Toy.cfg) (w := ⟨fun _ b => b, fun _ => [], fun _ => [], fun _ => [], fun _ => [],
  fun _ => [], fun _ => []⟩) (s := after alice (callsI 3 ++ [.exportSecret 40000 8])) (by decide +kernel)
  (o := .exportOscore 16 8 4 4) (Or.inr rfl)

end Verif
