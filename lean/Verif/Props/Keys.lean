import Verif.Growth
import Verif.ToyCheck

/-!
# C09, C10, C13, C16: transcript hashes, key schedule, exporters and key update

Vocabulary: `Verif/SpecKeys.lean` (transcript, key schedule, exporters), `Verif/SpecCalls.lean` (callback calls).
-/

namespace Verif

open M Spec

variable {σ : Type} {E : Env σ} {cfg : Config}

theorem asInitiator_split {h : History} (hi : AsInitiator h) :
    ∃ ks, messages h = .compose1 :: .process2 :: .compose3 :: ks := by
  obtain ⟨ks, h⟩ := hi
  exact ⟨ks, h.symm⟩

theorem asResponder_split {h : History} (hi : AsResponder h) :
    ∃ ks, messages h = .process1 :: .compose2 :: .process3 :: ks := by
  obtain ⟨ks, h⟩ := hi
  exact ⟨ks, h.symm⟩

/-- a completed handshake was completed in one of the roles -/
theorem complete_role {e : σ} {log : List Ev} {h : History} {s : St σ} (hs : Session E cfg e log h s)
    (hc : complete h) : AsInitiator h ∨ AsResponder h := by
  obtain ⟨q, hq, l, hp⟩ := C01_handshake_order hs
  unfold complete at hc
  unfold AsInitiator AsResponder
  simp only [roleSequences, List.mem_cons, List.not_mem_nil, or_false] at hq
  have key : ∀ (a b c d : Call) (m l : List Call), m ++ l = [a, b, c, d] → c ∈ m → a ≠ c → b ≠ c →
      [a, b, c] <+: m := by
    intro a b c d m l h1 h2 h3 h4
    match m, h1, h2 with
    | [], _, h2 => simp at h2
    | [x], h1, h2 =>
      simp only [List.cons_append, List.cons.injEq] at h1
      simp only [List.mem_singleton] at h2
      exact absurd (h1.1.symm.trans h2.symm) h3
    | [x, y], h1, h2 =>
      simp only [List.cons_append, List.cons.injEq] at h1
      simp only [List.mem_cons, List.not_mem_nil, or_false] at h2
      rcases h2 with h2 | h2
      · exact absurd (h1.1.symm.trans h2.symm) h3
      · exact absurd (h1.2.1.symm.trans h2.symm) h4
    | x :: y :: z :: m, h1, _ =>
      simp only [List.cons_append, List.cons.injEq] at h1
      obtain ⟨rfl, rfl, rfl, _⟩ := h1
      exact ⟨m, rfl⟩
  have mem : ∀ {c}, c ∈ messages h → c ∈ q := fun hc => by rw [← hp]; exact List.mem_append_left _ hc
  rcases hq with rfl | rfl | rfl | rfl <;> rcases hc with hc | hc
  all_goals first
    | exact Or.inl (key _ _ _ _ _ _ hp hc (by simp) (by simp))
    | exact Or.inr (key _ _ _ _ _ _ hp hc (by simp) (by simp))
    | exact absurd (mem hc) (by simp)

/-! ## C09 and C10 for whole sessions -/

/-- Everything about an Initiator's session with a completed handshake. -/
theorem initiator_session {e : σ} {log : List Ev} {h : History} {s' : St σ} (hs : Session E cfg e log h s')
    (hset : Settled h) (hi : AsInitiator h) (hr : Regular (sessionCalls log s') s'.ctx.suite)
    (hn : SuiteNumbers s'.ctx) (hm : ShortMessages h) :
    ∃ n1 n3 m1 m2 m3 x kid pkR v,
      (.compose1 n1, .ok (.bytes m1)) ∈ h ∧ (.process2 m2, .ok .unit) ∈ h ∧ (.compose3 n3, .ok (.bytes m3)) ∈ h ∧
      InitiatorView (sessionCalls log s') s'.ctx.suite s'.ctx.chosenMethod m1 m2 m3 x kid pkR v ∧
      HoldsKeys (sessionCalls log s') v.prk4e3m v.th4 s'.ctx.suite.hash (updates h) s'.ctx ∧
      InitiatorMore cfg (sessionCalls log s') s'.ctx m1 pkR v := by
  obtain ⟨ks, hks⟩ := asInitiator_split hi
  obtain ⟨n1, n3, m1, m2, m3, s1, s2, s3, s4, h4, c⟩ := initiator_chain hs hset hks
  have hst : s4.ctx.status = .completed := by
    obtain ⟨_, _, p3⟩ := message3Compose_ok c.call3
    rw [p3.ctx]
  obtain ⟨h0, p, sp, hm0, hk⟩ := c.split
  have d := completed_of hs c.rest sp hm0 (by simp) hk hst
  have e1 : s'.ctx.suite = s4.ctx.suite := (keep_proj d.keep).2.2.1
  have e2 : s'.ctx.chosenMethod = s4.ctx.chosenMethod := (keep_proj d.keep).2.2.2.2.2.2
  have e3 : suites s'.ctx = suites s4.ctx := by
    have a : s'.ctx.csuiteLen = s4.ctx.csuiteLen := (congrArg Ctx.csuiteLen d.keep :)
    have b : s'.ctx.csuiteArr = s4.ctx.csuiteArr := (congrArg Ctx.csuiteArr d.keep :)
    unfold suites
    rw [a, b]
  have g14 : Grow s1 s4 := by
    obtain ⟨_, _, _, _, _, _, _, _, _, _, _, _, g1, _⟩ := message1Compose_ok c.call1
    obtain ⟨_, _, _, _, _, _, _, p2⟩ := message2Process_ok c.call2
    obtain ⟨_, _, p3⟩ := message3Compose_ok c.call3
    exact (g1.left p2.grow).left p3.grow
  have hL : sessionCalls log s' = during s1 s' := sessionCalls_eq c.log
  rw [hL, e1] at hr ⊢
  rw [e2]
  unfold SuiteNumbers at hn
  rw [e3] at hn
  obtain ⟨x, kid, pkR, v, V, t1, t2, t3, t4, t5, _, M⟩ := initiator_view c (infix_of (Saw.refl s1) g14 d.grow) hr hn hm
  refine ⟨n1, n3, m1, m2, m3, x, kid, pkR, v, c.in1, c.in2, c.in3, V, ?_, InitiatorMore.keep d.keep M⟩
  have := holds_run (L := during s1 s') (p := v.prk4e3m) (t := v.th4) (es := []) d.rest d.noRestart d.noReconf d.late
    (infix_of g14 d.grow (Saw.refl s')) hr.small.2.2.1 t5 rfl ⟨t1, t2, Or.inl ⟨t4, t3, rfl⟩⟩
  rw [List.nil_append, ← d.upd] at this
  exact this.2.1

/-- **C09, C10**, Initiator. In a session in which an Initiator completed the handshake (and whatever came after it),
all the transcript hashes and pseudorandom keys were computed as RFC 9528 says, for message_1, message_2 and message_3
as sent and received; the context holds TH_4, and PRK_4e3m or PRK_out. -/
theorem C10_initiator_keys {e : σ} {log : List Ev} {h : History} {s' : St σ} (hs : Session E cfg e log h s')
    (hset : Settled h) (hi : AsInitiator h) (hr : Regular (sessionCalls log s') s'.ctx.suite)
    (hn : SuiteNumbers s'.ctx) (hm : ShortMessages h) :
    ∃ n1 n3 m1 m2 m3 x kid pkR v,
      (.compose1 n1, .ok (.bytes m1)) ∈ h ∧ (.process2 m2, .ok .unit) ∈ h ∧ (.compose3 n3, .ok (.bytes m3)) ∈ h ∧
      InitiatorView (sessionCalls log s') s'.ctx.suite s'.ctx.chosenMethod m1 m2 m3 x kid pkR v ∧
      HoldsKeys (sessionCalls log s') v.prk4e3m v.th4 s'.ctx.suite.hash (updates h) s'.ctx := by
  obtain ⟨n1, n3, m1, m2, m3, x, kid, pk, v, a, b, c, d, k, _⟩ := initiator_session hs hset hi hr hn hm
  exact ⟨n1, n3, m1, m2, m3, x, kid, pk, v, a, b, c, d, k⟩

/-- Everything about a Responder's session with a completed handshake. -/
theorem responder_session {e : σ} {log : List Ev} {h : History} {s' : St σ} (hs : Session E cfg e log h s')
    (hset : Settled h) (hi : AsResponder h) (hr : Regular (sessionCalls log s') s'.ctx.suite)
    (hm : ShortMessages h) :
    ∃ n2 m1 m2 m3 y kid pkI v,
      (.process1 m1, .ok .unit) ∈ h ∧ (.compose2 n2, .ok (.bytes m2)) ∈ h ∧ (.process3 m3, .ok .unit) ∈ h ∧
      ResponderView (sessionCalls log s') s'.ctx.suite s'.ctx.chosenMethod m1 m2 m3 y kid pkI v ∧
      HoldsKeys (sessionCalls log s') v.prk4e3m v.th4 s'.ctx.suite.hash (updates h) s'.ctx ∧
      ResponderMore cfg (sessionCalls log s') s'.ctx m1 pkI v := by
  obtain ⟨ks, hks⟩ := asResponder_split hi
  obtain ⟨n2, m1, m2, m3, s1, s2, s3, s4, h4, c⟩ := responder_chain hs hset hks
  have hst : s4.ctx.status = .completed := by
    obtain ⟨_, _, _, _, p3⟩ := message3Process_ok c.call3
    rw [p3.ctx]
  obtain ⟨h0, p, sp, hm0, hk⟩ := c.split
  have d := completed_of hs c.rest sp hm0 (by simp) hk hst
  have e1 : s'.ctx.suite = s4.ctx.suite := (keep_proj d.keep).2.2.1
  have e2 : s'.ctx.chosenMethod = s4.ctx.chosenMethod := (keep_proj d.keep).2.2.2.2.2.2
  have g14 : Grow s1 s4 := by
    obtain ⟨_, _, _, _, _, _, th1, _, _, _, _, _, _, w, _⟩ := message1Process_ok c.call1
    obtain ⟨_, _, _, _, p2⟩ := message2Compose_ok c.call2
    obtain ⟨_, _, _, _, p3⟩ := message3Process_ok c.call3
    have g1 : Grow s1 s2 := by
      rcases w with ⟨_, _, _, h⟩ | ⟨_, h⟩
      · exact ⟨_, [], by rw [h]; simp; rfl⟩
      · exact ⟨_, [], by rw [h]; simp; rfl⟩
    exact (g1.left p2.grow).left p3.grow
  have hL : sessionCalls log s' = during s1 s' := sessionCalls_eq c.log
  rw [hL, e1] at hr ⊢
  rw [e2]
  obtain ⟨x, kid, pkR, v, V, t1, t2, t3, t4, t5, _, M⟩ := responder_view c (infix_of (Saw.refl s1) g14 d.grow) hr hm
  refine ⟨n2, m1, m2, m3, x, kid, pkR, v, c.in1, c.in2, c.in3, V, ?_, ResponderMore.keep d.keep M⟩
  have := holds_run (L := during s1 s') (p := v.prk4e3m) (t := v.th4) (es := []) d.rest d.noRestart d.noReconf d.late
    (infix_of g14 d.grow (Saw.refl s')) hr.small.2.2.1 t5 rfl ⟨t1, t2, Or.inl ⟨t4, t3, rfl⟩⟩
  rw [List.nil_append, ← d.upd] at this
  exact this.2.1

/-- **C09, C10**, Responder. -/
theorem C10_responder_keys {e : σ} {log : List Ev} {h : History} {s' : St σ} (hs : Session E cfg e log h s')
    (hset : Settled h) (hi : AsResponder h) (hr : Regular (sessionCalls log s') s'.ctx.suite)
    (hm : ShortMessages h) :
    ∃ n2 m1 m2 m3 y kid pkI v,
      (.process1 m1, .ok .unit) ∈ h ∧ (.compose2 n2, .ok (.bytes m2)) ∈ h ∧ (.process3 m3, .ok .unit) ∈ h ∧
      ResponderView (sessionCalls log s') s'.ctx.suite s'.ctx.chosenMethod m1 m2 m3 y kid pkI v ∧
      HoldsKeys (sessionCalls log s') v.prk4e3m v.th4 s'.ctx.suite.hash (updates h) s'.ctx := by
  obtain ⟨n2, m1, m2, m3, x, kid, pk, v, a, b, c, d, k, _⟩ := responder_session hs hset hi hr hm
  exact ⟨n2, m1, m2, m3, x, kid, pk, v, a, b, c, d, k⟩

/-- **C09, C10**, either role. -/
theorem C10_keys {e : σ} {log : List Ev} {h : History} {s' : St σ} (hs : Session E cfg e log h s')
    (hset : Settled h) (hc : complete h) (hr : Regular (sessionCalls log s') s'.ctx.suite)
    (hn : SuiteNumbers s'.ctx) (hm : ShortMessages h) :
    ∃ v, HandshakeValues (sessionCalls log s') s'.ctx.suite s'.ctx.chosenMethod h v ∧
      HoldsKeys (sessionCalls log s') v.prk4e3m v.th4 s'.ctx.suite.hash (updates h) s'.ctx := by
  rcases complete_role hs hc with hi | hi
  · obtain ⟨n1, n3, m1, m2, m3, x, kid, pk, v, a, b, c, d, k⟩ := C10_initiator_keys hs hset hi hr hn hm
    exact ⟨v, Or.inl ⟨n1, n3, m1, m2, m3, x, kid, pk, a, b, c, d⟩, k⟩
  · obtain ⟨n2, m1, m2, m3, x, kid, pk, v, a, b, c, d, k⟩ := C10_responder_keys hs hset hi hr hm
    exact ⟨v, Or.inr ⟨n2, m1, m2, m3, x, kid, pk, a, b, c, d⟩, k⟩

/-! ## C13 and C16: exporters and key update -/

/-- the last call of a session -/
theorem last_call {e : σ} {log : List Ev} {h : History} {o : Op} {r : Res Out} {s' : St σ}
    (hs : Session E cfg e log (h ++ [(o, r)]) s') :
    ∃ s, Session E cfg e log h s ∧ step E cfg o s = (r, s') ∧ during s s' <:+: sessionCalls log s' := by
  obtain ⟨s1, r1, r2⟩ := run_append hs.1
  obtain ⟨s2, h2, hd, r3⟩ := run_cons r2
  cases r3
  refine ⟨s1, ⟨r1, fun q hq => hs.2 q (by simp [hq])⟩, h2, ?_⟩
  rw [sessionCalls_eq (s := ⟨Ctx.fresh, e, log⟩) rfl]
  exact infix_of (run_grow r1) (step_grow h2 hd) (Saw.refl s')

theorem complete_append {h h' : History} (hc : complete h) : complete (h ++ h') := by
  unfold complete at *
  rw [messages_append]
  simp only [List.mem_append]
  rcases hc with h | h
  · exact Or.inl (Or.inl h)
  · exact Or.inr (Or.inl h)

/-- the exporter, with the transcript hash in the context -/
theorem export_values {e : σ} {log : List Ev} {h : History} {s' : St σ} {label n : Nat} {out : Bytes}
    (hs : Session E cfg e log (h ++ [(.exportSecret label n, .ok (.bytes out))]) s')
    (hset : Settled (h ++ [(.exportSecret label n, .ok (.bytes out))])) (hc : complete h)
    (hr : Regular (sessionCalls log s') s'.ctx.suite) (hn : SuiteNumbers s'.ctx)
    (hm : ShortMessages (h ++ [(.exportSecret label n, .ok (.bytes out))])) (hl : n < 2 ^ 32) :
    out.length = n ∧
    ∃ v prkOut, HandshakeValues (sessionCalls log s') s'.ctx.suite s'.ctx.chosenMethod h v ∧
      EpochKey (sessionCalls log s') v.prk4e3m v.th4 s'.ctx.suite.hash (updates h) prkOut ∧
      ExportedFrom (sessionCalls log s') prkOut s'.ctx.suite.hash label n out ∧ s'.ctx.th = v.th4 := by
  obtain ⟨v, hv, hk⟩ := C10_keys hs hset (complete_append hc) hr hn hm
  obtain ⟨s, _, hst, i⟩ := last_call hs
  obtain ⟨r0, h0, ⟨a, rfl, h1⟩ | ⟨_, _, h'⟩ | ⟨_, _, h'⟩⟩ := step_export hst
  · simp only [Res.ok.injEq, Out.bytes.injEq] at h1
    subst h1
    obtain ⟨_, _, _, l, g, _, p, x, _, _, c, ⟨k1, lx, w1⟩, ⟨k2, w2⟩⟩ := exportSecret_ok h0
    have hsu : s'.ctx.suite = s.ctx.suite := by rw [c]; rfl
    obtain ⟨k0, _, k3⟩ := hk
    rw [updates_append] at k3
    have hu : updates [(Op.exportSecret label n, Res.ok (Out.bytes out))] = [] := rfl
    rw [hu, List.append_nil] at k3
    rcases k3 with ⟨k3, _⟩ | ⟨_, k3⟩
    · rw [c] at k3; cases k3
    · refine ⟨l, v, p, ?_, ?_, ⟨x, ?_, ?_⟩, k0⟩
      · rcases hv with ⟨n1, n3, m1, m2, m3, x, kid, pk, a, b, c, d⟩ | ⟨n2, m1, m2, m3, x, kid, pk, a, b, c, d⟩
        · exact Or.inl ⟨n1, n3, m1, m2, m3, x, kid, pk, by simpa using a, by simpa using b, by simpa using c, d⟩
        · exact Or.inr ⟨n2, m1, m2, m3, x, kid, pk, by simpa using a, by simpa using b, by simpa using c, d⟩
      · have : s'.ctx.prk = p := by rw [c]
        rwa [this] at k3
      · rw [← hsu, encInfo_spec _ _ hr.small.2.2.1] at w1
        exact ExpandCall.mono i ⟨by rw [lx, hsu], k1, w1.made⟩
      · rw [encInfo_spec _ _ hl] at w2
        exact ExpandCall.mono i ⟨l, k2, w2.made⟩
  · cases h'
  · cases h'

/-- **C13**, first half. After a completed handshake, whatever calls came in between, the exporter returns
EDHOC_Exporter(label, h'', n), computed from the PRK_out of the current key epoch. -/
theorem C13_export {e : σ} {log : List Ev} {h : History} {s' : St σ} {label n : Nat} {out : Bytes}
    (hs : Session E cfg e log (h ++ [(.exportSecret label n, .ok (.bytes out))]) s')
    (hset : Settled (h ++ [(.exportSecret label n, .ok (.bytes out))])) (hc : complete h)
    (hr : Regular (sessionCalls log s') s'.ctx.suite) (hn : SuiteNumbers s'.ctx)
    (hm : ShortMessages (h ++ [(.exportSecret label n, .ok (.bytes out))])) (hl : n < 2 ^ 32) :
    out.length = n ∧
    ∃ v prkOut, HandshakeValues (sessionCalls log s') s'.ctx.suite s'.ctx.chosenMethod h v ∧
      EpochKey (sessionCalls log s') v.prk4e3m v.th4 s'.ctx.suite.hash (updates h) prkOut ∧
      ExportedFrom (sessionCalls log s') prkOut s'.ctx.suite.hash label n out := by
  obtain ⟨l, v, p, h1, h2, h3, _⟩ := export_values hs hset hc hr hn hm hl
  exact ⟨l, v, p, h1, h2, h3⟩

theorem handshakeValues_append {L : List Ev} {su : Suite} {m : Nat} {h : History} {o : Op} {r : Res Out} {v : Values}
    (hk : callOf o = none) (hv : HandshakeValues L su m (h ++ [(o, r)]) v) : HandshakeValues L su m h v := by
  have out : ∀ {p : Op × Res Out}, p ∈ h ++ [(o, r)] → callOf p.1 ≠ none → p ∈ h := by
    intro p hp hn
    simp only [List.mem_append, List.mem_singleton] at hp
    rcases hp with hp | rfl
    · exact hp
    · exact absurd hk hn
  rcases hv with ⟨n1, n3, m1, m2, m3, x, kid, pk, a, b, c, d⟩ | ⟨n2, m1, m2, m3, x, kid, pk, a, b, c, d⟩
  · exact Or.inl ⟨n1, n3, m1, m2, m3, x, kid, pk, out a (by simp [callOf]), out b (by simp [callOf]),
      out c (by simp [callOf]), d⟩
  · exact Or.inr ⟨n2, m1, m2, m3, x, kid, pk, out a (by simp [callOf]), out b (by simp [callOf]),
      out c (by simp [callOf]), d⟩

/-- the OSCORE export, with the transcript hash in the context -/
theorem oscore_values {e : σ} {log : List Ev} {h : History} {s' : St σ} {a b c d : Nat} {o : Oscore}
    (hs : Session E cfg e log (h ++ [(.exportOscore a b c d, .ok (.oscore o))]) s')
    (hset : Settled (h ++ [(.exportOscore a b c d, .ok (.oscore o))])) (hc : complete h)
    (hr : Regular (sessionCalls log s') s'.ctx.suite) (hn : SuiteNumbers s'.ctx)
    (hm : ShortMessages (h ++ [(.exportOscore a b c d, .ok (.oscore o))])) (ha : a < 2 ^ 32) (hb : b < 2 ^ 32) :
    o.secret.length = a ∧ o.salt.length = b ∧ o.sid.length ≤ c ∧ o.rid.length ≤ d ∧
    o.sid = oscoreIdOf s'.ctx.peerCid ∧ o.rid = oscoreIdOf s'.ctx.cid ∧
    ∃ v prkOut, HandshakeValues (sessionCalls log s') s'.ctx.suite s'.ctx.chosenMethod h v ∧
      EpochKey (sessionCalls log s') v.prk4e3m v.th4 s'.ctx.suite.hash (updates h) prkOut ∧
      ExportedFrom (sessionCalls log s') prkOut s'.ctx.suite.hash 0 a o.secret ∧
      ExportedFrom (sessionCalls log s') prkOut s'.ctx.suite.hash 1 b o.salt ∧ s'.ctx.th = v.th4 := by
  obtain ⟨v, hv, hk⟩ := C10_keys hs hset (complete_append hc) hr hn hm
  obtain ⟨s, _, hst, i⟩ := last_call hs
  obtain ⟨r0, h0, ⟨a', rfl, h1⟩ | ⟨_, _, h'⟩ | ⟨_, _, h'⟩⟩ := step_oscore hst
  · simp only [Res.ok.injEq, Out.oscore.injEq] at h1
    subst h1
    obtain ⟨_, _, g, l1, l2, i1, j1, i2, j2, _, p, x, y, _, _, c', ⟨k1, lx, w1⟩, ⟨k2, w2⟩, ⟨k3, ly, w3⟩, ⟨k4, w4⟩⟩ :=
      exportOscore_ok h0
    have hsu : s'.ctx.suite = s.ctx.suite := by rw [c']; rfl
    obtain ⟨q0, _, q3⟩ := hk
    rw [updates_append] at q3
    have hu : updates [(Op.exportOscore a b c d, Res.ok (Out.oscore o))] = [] := rfl
    rw [hu, List.append_nil] at q3
    rcases q3 with ⟨q3, _⟩ | ⟨_, q3⟩
    · rw [c'] at q3; cases q3
    · have hh : s'.ctx.suite.hash < 4294967296 := hr.small.2.2.1
      refine ⟨l1, l2, j1, j2, by rw [i1, c'], by rw [i2, c'], v, p, handshakeValues_append rfl hv, ?_,
        ⟨x, ?_, ?_⟩, ⟨y, ?_, ?_⟩, q0⟩
      · have : s'.ctx.prk = p := by rw [c']
        rwa [this] at q3
      · rw [← hsu, encInfo_spec _ _ hh] at w1
        exact ExpandCall.mono i ⟨by rw [lx, hsu], k1, w1.made⟩
      · rw [encInfo_spec _ _ ha] at w2
        exact ExpandCall.mono i ⟨l1, k2, w2.made⟩
      · rw [← hsu, encInfo_spec _ _ hh] at w3
        exact ExpandCall.mono i ⟨by rw [ly, hsu], k3, w3.made⟩
      · rw [encInfo_spec _ _ hb] at w4
        exact ExpandCall.mono i ⟨l2, k4, w4.made⟩
  · cases h'
  · cases h'

/-- **C14**, one peer. After a completed handshake, the OSCORE export returns EDHOC_Exporter(0, h'', secret length)
and EDHOC_Exporter(1, h'', salt length) of the current key epoch; the sender identifier is the one of the peer's
connection identifier, the recipient identifier the one of the own connection identifier. -/
theorem C14_oscore_export {e : σ} {log : List Ev} {h : History} {s' : St σ} {a b c d : Nat} {o : Oscore}
    (hs : Session E cfg e log (h ++ [(.exportOscore a b c d, .ok (.oscore o))]) s')
    (hset : Settled (h ++ [(.exportOscore a b c d, .ok (.oscore o))])) (hc : complete h)
    (hr : Regular (sessionCalls log s') s'.ctx.suite) (hn : SuiteNumbers s'.ctx)
    (hm : ShortMessages (h ++ [(.exportOscore a b c d, .ok (.oscore o))])) (ha : a < 2 ^ 32) (hb : b < 2 ^ 32) :
    o.secret.length = a ∧ o.salt.length = b ∧ o.sid.length ≤ c ∧ o.rid.length ≤ d ∧
    o.sid = oscoreIdOf s'.ctx.peerCid ∧ o.rid = oscoreIdOf s'.ctx.cid ∧
    ∃ v prkOut, HandshakeValues (sessionCalls log s') s'.ctx.suite s'.ctx.chosenMethod h v ∧
      EpochKey (sessionCalls log s') v.prk4e3m v.th4 s'.ctx.suite.hash (updates h) prkOut ∧
      ExportedFrom (sessionCalls log s') prkOut s'.ctx.suite.hash 0 a o.secret ∧
      ExportedFrom (sessionCalls log s') prkOut s'.ctx.suite.hash 1 b o.salt := by
  obtain ⟨l1, l2, l3, l4, l5, l6, v, p, h1, h2, h3, h4, _⟩ := oscore_values hs hset hc hr hn hm ha hb
  exact ⟨l1, l2, l3, l4, l5, l6, v, p, h1, h2, h3, h4⟩

/-- **C16**. A successful key update begins a new key epoch: PRK_out becomes Expand(PRK_out, (11, entropy, hash
length)), and one OSCORE export is allowed. (By `C13_export` and `C14_oscore_export` later exports are computed from
the new PRK_out, as `updates` then ends with the entropy.) -/
theorem C16_key_update {e : σ} {log : List Ev} {h : History} {s' : St σ} {b : Bytes} {u : Out}
    (hs : Session E cfg e log (h ++ [(.keyUpdate b, .ok u)]) s')
    (hset : Settled (h ++ [(.keyUpdate b, .ok u)])) (hc : complete h)
    (hr : Regular (sessionCalls log s') s'.ctx.suite) (hn : SuiteNumbers s'.ctx)
    (hm : ShortMessages (h ++ [(.keyUpdate b, .ok u)])) :
    okOscore s'.ctx = true ∧
    ∃ v prkOut, HandshakeValues (sessionCalls log s') s'.ctx.suite s'.ctx.chosenMethod h v ∧
      EpochKey (sessionCalls log s') v.prk4e3m v.th4 s'.ctx.suite.hash (updates h) prkOut ∧
      ExpandCall (sessionCalls log s') prkOut 11 b s'.ctx.suite.hash s'.ctx.prk ∧ s'.ctx.prkState = .out := by
  obtain ⟨v, hv, hk⟩ := C10_keys hs hset (complete_append hc) hr hn hm
  obtain ⟨s, _, hst, i⟩ := last_call hs
  obtain ⟨r0, h0, ⟨a', rfl, h1⟩ | ⟨_, _, h'⟩ | ⟨_, _, h'⟩⟩ := step_update hst
  · obtain ⟨_, ok, g, _, x, q, kid, ho, lx, lq, w, c⟩ := keyUpdate_ok h0
    obtain ⟨_, _, q3⟩ := hk
    refine ⟨?_, v, ?_⟩
    · rw [c]
      unfold okOscore okUpdate at *
      simp only [Bool.and_eq_true, decide_eq_true_eq] at ok ⊢
      exact ⟨trivial, ok.1, by simp [PrkState.toNat]⟩
    · rcases q3 with ⟨q3, _⟩ | ⟨q4, q3⟩
      · rw [c] at q3; cases q3
      · rw [updates_append] at q3
        have hu : updates [(Op.keyUpdate b, Res.ok u)] = [b] := rfl
        rw [hu] at q3
        generalize hl : updates h ++ [b] = l at q3
        cases q3 with
        | first _ => simp at hl
        | update e1 e2 =>
          obtain ⟨hl1, hl2⟩ := List.append_inj' hl rfl
          simp only [List.cons.injEq, and_true] at hl2
          subst hl1 hl2
          exact ⟨_, handshakeValues_append rfl hv, e1, e2, q4⟩
  · cases h'
  · cases h'

/-! ## Non-vacuity: the theorems apply to handshakes of the toy application -/

/-- all four methods, either role, with exports and a key update afterwards -/
example : ∀ m ∈ Toy.methods, ∃ v, HandshakeValues (sessionCalls [] (Toy.after Toy.alice (Toy.callsI m ++ Toy.exports)))
    (Toy.after Toy.alice (Toy.callsI m ++ Toy.exports)).ctx.suite
    (Toy.after Toy.alice (Toy.callsI m ++ Toy.exports)).ctx.chosenMethod
    (Toy.hst Toy.alice (Toy.callsI m ++ Toy.exports)) v := by
  intro m hm
  obtain ⟨h1, h2, h3, h4, h5⟩ := Toy.check (List.all_eq_true.1 Toy.checkI m hm)
  have hc : (Toy.methods.all fun m => Toy.completeB (Toy.hst Toy.alice (Toy.callsI m ++ Toy.exports))) = true := by
    decide +kernel
  obtain ⟨v, hv, _⟩ := C10_keys h1 h2 (Toy.complete_of (List.all_eq_true.1 hc m hm)) h3 h4 h5
  exact ⟨v, hv⟩

example : ∀ m ∈ Toy.methods, ∃ v, HandshakeValues (sessionCalls [] (Toy.after Toy.bob (Toy.callsR m ++ Toy.exports)))
    (Toy.after Toy.bob (Toy.callsR m ++ Toy.exports)).ctx.suite
    (Toy.after Toy.bob (Toy.callsR m ++ Toy.exports)).ctx.chosenMethod
    (Toy.hst Toy.bob (Toy.callsR m ++ Toy.exports)) v := by
  intro m hm
  obtain ⟨h1, h2, h3, h4, h5⟩ := Toy.check (List.all_eq_true.1 Toy.checkR m hm)
  have hc : (Toy.methods.all fun m => Toy.completeB (Toy.hst Toy.bob (Toy.callsR m ++ Toy.exports))) = true := by
    decide +kernel
  obtain ⟨v, hv, _⟩ := C10_keys h1 h2 (Toy.complete_of (List.all_eq_true.1 hc m hm)) h3 h4 h5
  exact ⟨v, hv⟩

/-- an exporter call after a key update -/
example : ∃ out, ∃ v : Values, ∃ prkOut L, ∃ su : Suite, su = Toy.suite ∧
    (step (Toy.env Toy.alice) Toy.cfg (.exportSecret 40000 20)
      (Toy.after Toy.alice (Toy.callsI 1 ++ [.keyUpdate [7, 7]]))).1 = .ok (.bytes out) ∧
    EpochKey L v.prk4e3m v.th4 su.hash [[7, 7]] prkOut ∧ ExportedFrom L prkOut su.hash 40000 20 out := by
  obtain ⟨out, ho⟩ : ∃ out, (step (Toy.env Toy.alice) Toy.cfg (.exportSecret 40000 20)
      (Toy.after Toy.alice (Toy.callsI 1 ++ [.keyUpdate [7, 7]]))).1 = .ok (.bytes out) :=
    ⟨Toy.bytesOf (step (Toy.env Toy.alice) Toy.cfg (.exportSecret 40000 20)
      (Toy.after Toy.alice (Toy.callsI 1 ++ [.keyUpdate [7, 7]]))).1, by decide +kernel⟩
  obtain ⟨h1, h2, h3, h4, h5⟩ := Toy.check_last (by decide +kernel) ho
  obtain ⟨_, v, q, _, k1, k2⟩ := C13_export h1 h2 (Toy.complete_of (by decide +kernel)) h3 h4 h5 (by decide)
  have hu : updates (Toy.hst Toy.alice (Toy.callsI 1 ++ [.keyUpdate [7, 7]])) = [[7, 7]] := by decide +kernel
  rw [hu] at k1
  exact ⟨out, v, q, _, _, by decide +kernel, ho, k1, k2⟩

/-- an OSCORE export -/
example : ∃ o, (step (Toy.env Toy.bob) Toy.cfg (.exportOscore 16 8 4 4)
      (Toy.after Toy.bob (Toy.callsR 2))).1 = .ok (.oscore o) ∧ o.sid = [5] ∧ o.rid = [0x18, 9] := by
  obtain ⟨o, ho⟩ : ∃ o, (step (Toy.env Toy.bob) Toy.cfg (.exportOscore 16 8 4 4)
      (Toy.after Toy.bob (Toy.callsR 2))).1 = .ok (.oscore o) :=
    ⟨Toy.oscoreOf (step (Toy.env Toy.bob) Toy.cfg (.exportOscore 16 8 4 4) (Toy.after Toy.bob (Toy.callsR 2))).1,
      by decide +kernel⟩
  obtain ⟨h1, h2, h3, h4, h5⟩ := Toy.check_last (by decide +kernel) ho
  obtain ⟨_, _, _, _, k1, k2, _⟩ :=
    C14_oscore_export h1 h2 (Toy.complete_of (by decide +kernel)) h3 h4 h5 (by decide) (by decide)
  exact ⟨o, ho, k1.trans (by decide +kernel), k2.trans (by decide +kernel)⟩

/-- a key update -/
example : ∃ u s', Session (Toy.env Toy.bob) Toy.cfg () [] (Toy.hst Toy.bob (Toy.callsR 2) ++ [(.keyUpdate [1], .ok u)]) s' ∧
    okOscore s'.ctx = true := by
  obtain ⟨h1, h2, h3, h4, h5⟩ := Toy.check_last (p := Toy.bob) (ops := Toy.callsR 2) (o := .keyUpdate [1]) (x := .unit)
    (by decide +kernel) (by decide +kernel)
  exact ⟨_, _, h1, (C16_key_update h1 h2 (Toy.complete_of (by decide +kernel)) h3 h4 h5).1⟩

end Verif
