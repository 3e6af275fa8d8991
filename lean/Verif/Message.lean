import Verif.MacCtx

/-!
# What a successful message call did

For each of the eight message functions: the complete context afterwards, the output, and the calls made.
-/

namespace Verif

open M

variable {σ : Type}

section msgs

variable {E : Env σ} {cfg : Config} {s s' : St σ}

theorem modCtx_st {f : Ctx → Ctx} {u : Unit} :
    (modCtx f : M σ Unit) s = (.ok u, s') ↔ (s'.ctx = f s.ctx ∧ s'.log = s.log) ∧ s'.env = s.env := by
  rw [modCtx_ok]
  constructor
  · rintro rfl; exact ⟨⟨rfl, rfl⟩, rfl⟩
  · rintro ⟨⟨h1, h2⟩, h3⟩
    cases s'; simp_all

theorem call_st {β : Type} {f : σ → β × σ} {ev : β → Ev} {b : β} :
    M.call f ev s = (.ok b, s') ↔
      ((f s.env).1 = b ∧ s'.ctx = s.ctx ∧ s'.log = s.log ++ [ev b]) ∧ s'.env = (f s.env).2 := by
  rw [call_ok]
  constructor
  · rintro ⟨rfl, rfl⟩; exact ⟨⟨rfl, rfl, rfl⟩, rfl⟩
  · rintro ⟨⟨rfl, h1, h2⟩, h3⟩
    cases s'; simp_all

theorem enter_ok {ok : Ctx → Bool} {m : Msg} {r : Role} {u : Unit}
    (h : enter ok m r s = (.ok u, s')) : ok s.ctx = true ∧
      s' = { s with ctx := { s.ctx with
        status := .aborted, errorCode := .unspecified, message := m, role := r } } := by
  simp only [enter, bind_ok, getCtx_ok, require_ok, modCtx_ok] at h
  obtain ⟨_, _, ⟨rfl, rfl⟩, _, _, ⟨h, rfl⟩, rfl⟩ := h
  exact ⟨h, rfl⟩

theorem chooseSuite_ok {u : Unit} (h : chooseSuite s = (.ok u, s')) : s.ctx.csuiteLen ≠ 0 ∧
      s' = { s with ctx := { s.ctx with chosenIdx := s.ctx.csuiteLen - 1 } } := by
  simp only [chooseSuite, bind_ok, getCtx_ok, require_ok, modCtx_ok] at h
  obtain ⟨_, _, ⟨rfl, rfl⟩, _, _, ⟨h, rfl⟩, rfl⟩ := h
  exact ⟨by simpa using h, rfl⟩

theorem enter_st {ok : Ctx → Bool} {m : Msg} {r : Role} {u : Unit}
    (h : enter ok m r s = (.ok u, s')) : ok s.ctx = true ∧
      s'.ctx = { s.ctx with
        status := .aborted, errorCode := .unspecified, message := m, role := r } ∧ s'.log = s.log := by
  obtain ⟨h', rfl⟩ := enter_ok h
  exact ⟨h', rfl, rfl⟩

theorem chooseSuite_st {u : Unit} (h : chooseSuite s = (.ok u, s')) : s.ctx.csuiteLen ≠ 0 ∧
      s'.ctx = { s.ctx with chosenIdx := s.ctx.csuiteLen - 1 } ∧ s'.log = s.log := by
  obtain ⟨h', rfl⟩ := chooseSuite_ok h
  exact ⟨h', rfl, rfl⟩

theorem importKey_st {t : KeyType} {raw : Bytes} {r : Option Bytes}
    (h : importKey E t raw s = (.ok r, s')) :
    s'.ctx = s.ctx ∧ s'.log = s.log ++ [.importKey t raw r] := by
  obtain ⟨_, _, rfl⟩ := keys_ok.1 h
  exact ⟨rfl, rfl⟩

theorem destroyKey_st {kid : Bytes} {u : Unit} (h : destroyKey E kid s = (.ok u, s')) :
    s'.ctx = s.ctx ∧ s'.log = s.log ++ [.destroyKey kid] := by
  obtain ⟨_, _, rfl⟩ := keys_ok.1 h
  exact ⟨rfl, rfl⟩

theorem makeKeyPair_st {kid : Bytes} {r : Option (Bytes × Bytes)}
    (h : makeKeyPair E kid s = (.ok r, s')) :
    s'.ctx = s.ctx ∧ s'.log = s.log ++ [.makeKeyPair kid r] := by
  obtain ⟨_, _, rfl⟩ := crypto_ok.1 h
  exact ⟨rfl, rfl⟩

theorem storePeerCid_st {e : Err} {ci : Cid} {u : Unit} (h : storePeerCid cfg e ci s = (.ok u, s')) :
    s'.ctx = { s.ctx with peerCid := ci } ∧ s'.log = s.log ∧ CidFits cfg ci := by
  obtain ⟨rfl, h'⟩ := storePeerCid_ok h
  exact ⟨rfl, rfl, h'⟩

/-! ## message_1 -/

/-- the context after `edhoc_message_1_compose` chose suite and method -/
def chosen (c : Ctx) (m : Nat) : Ctx := { c with chosenIdx := c.csuiteLen - 1, chosenMethod := m }

/-- the encoder of message_1 produces the RFC 9528 sequence -/
theorem encMsg1_ok {m : Msg1} {b : Bytes} (h : encMsg1 m = some b) :
    ∃ su ci ea, encSuites m.suites = some su ∧ encCid m.ci = some ci ∧ encEadOpt m.ead = some ea ∧
      b = encInt m.method ++ su ++ encBstr m.gx ++ ci ++ ea := by
  unfold encMsg1 at h
  split at h
  · rename_i su ci ea h1 h2 h3
    simp only [Option.some.injEq] at h
    exact ⟨su, ci, ea, h1, h2, h3, h.symm⟩
  · simp at h

theorem message1Compose_ok {size : Nat} {msg : Bytes} (h : message1Compose E cfg size s = (.ok msg, s')) :
    size ≠ 0 ∧ okStart s.ctx = true ∧ s.ctx.csuiteLen ≠ 0 ∧ s.ctx.csuiteLen ≤ 3 ∧
    ∃ priv pub kid ts th,
      priv.length = (chosen s.ctx 0).suite.eccKey ∧ pub.length = (chosen s.ctx 0).suite.eccKey ∧
      ((composesEad cfg s.ctx = true ∧ ts.length ≤ cfg.maxEad ∧ Saw [.eadCompose .msg1 (some ts)] s s') ∨
        (composesEad cfg s.ctx = false ∧ ts = s.ctx.ead)) ∧
      Grow s s' ∧ Saw [.makeKeyPair kid (some (priv, pub)), .destroyKey kid] s s' ∧
      encMsg1 ⟨(s.ctx.method.headD 0 : Nat), suitesI (chosen s.ctx 0), pub, s.ctx.cid, eadAlwaysValue ts⟩ =
        some msg ∧ msg.length ≤ size ∧
      th.length = (chosen s.ctx 0).suite.hash ∧ Saw [.hash msg (some th)] s s' ∧
      s'.ctx = { chosen s.ctx (s.ctx.method.headD 0) with
        dhPriv := priv, th := th, thState := .th1, status := .waitM2, errorCode := .success
        message := .msg1, role := .initiator, ead := [] } := by
  unfold message1Compose at h
  obtain ⟨_, _, h0', h⟩ := bind_ok.1 h
  obtain ⟨h0, rfl⟩ := require_ok.1 h0'
  obtain ⟨_, s1, h1, h⟩ := bind_ok.1 h
  obtain ⟨_, s2, h2, h⟩ := bind_ok.1 h
  obtain ⟨_, s3, h3, h⟩ := bind_ok.1 h
  obtain ⟨⟨c3, l3⟩, _⟩ := modCtx_st.1 h3
  obtain ⟨c, _, hc, h⟩ := bind_ok.1 h
  obtain ⟨rfl, rfl⟩ := getCtx_ok.1 hc
  obtain ⟨k, s4, h4, h⟩ := bind_ok.1 h
  obtain ⟨c4, l4⟩ := importKey_st h4
  obtain ⟨kid, _, hk, h⟩ := bind_ok.1 h
  obtain ⟨rfl, rfl⟩ := ofOption_ok.1 hk
  obtain ⟨_, s5, h5, h⟩ := bind_ok.1 h
  obtain ⟨kp, s6, h6, h⟩ := bind_ok.1 h
  obtain ⟨c6, l6⟩ := makeKeyPair_st h6
  obtain ⟨_, s7, h7, h⟩ := bind_ok.1 h
  obtain ⟨c7, l7⟩ := destroyKey_st h7
  obtain ⟨kp', _, hk, h⟩ := bind_ok.1 h
  obtain ⟨rfl, rfl⟩ := ofOption_ok.1 hk
  obtain ⟨_, s8, h8, h⟩ := bind_ok.1 h
  obtain ⟨⟨c8, l8⟩, _⟩ := modCtx_st.1 h8
  obtain ⟨_, _, hl', h⟩ := bind_ok.1 h
  obtain ⟨hl, rfl⟩ := require_ok.1 hl'
  obtain ⟨_, _, hn', h⟩ := bind_ok.1 h
  obtain ⟨hn, rfl⟩ := require_ok.1 hn'
  obtain ⟨_, s9, h9, h⟩ := bind_ok.1 h
  obtain ⟨c, _, hc, h⟩ := bind_ok.1 h
  obtain ⟨rfl, rfl⟩ := getCtx_ok.1 hc
  obtain ⟨_, _, hg, h⟩ := bind_ok.1 h
  obtain ⟨_, rfl⟩ := guardUB_ok.1 hg
  obtain ⟨m, _, he, h⟩ := bind_ok.1 h
  obtain ⟨hm, rfl⟩ := ofOption_ok.1 he
  obtain ⟨th, s10, h10, h⟩ := bind_ok.1 h
  obtain ⟨_, s11, h11, h⟩ := bind_ok.1 h
  obtain ⟨⟨c11, l11⟩, _⟩ := modCtx_st.1 h11
  obtain ⟨rfl, rfl⟩ := pure_ok.1 h
  obtain ⟨e1, c1, l1⟩ := enter_st h1
  obtain ⟨e2, c2, l2⟩ := chooseSuite_st h2
  obtain ⟨c5, g5⟩ := memAlloc_ok h5
  obtain ⟨ts, c9, he⟩ := eadCompose_ok h9
  have g9 := eadCompose_grow h9
  obtain ⟨c10, d10, _, g10⟩ := hashTh_ok h10
  obtain ⟨x, h9, h11⟩ := Option.bind_eq_some_iff.1 hm
  obtain ⟨rfl, hs⟩ := fits_some h11
  simp only [Bool.and_eq_true, beq_iff_eq] at hl
  have C3 : s3.ctx = { chosen s.ctx (s.ctx.method.headD 0) with
      status := .aborted, errorCode := .unspecified, message := .msg1, role := .initiator } := by
    rw [c3, c2, c1]; rfl
  have C8 : s8.ctx = { chosen s.ctx (s.ctx.method.headD 0) with
      dhPriv := kp'.1
      status := .aborted, errorCode := .unspecified, message := .msg1, role := .initiator } := by
    rw [c8, c7, c6, c5, c4, C3]
  rw [c1] at e2
  rw [C3] at h9 hl hn
  have h6 : s.ctx.csuiteLen ≤ 3 := of_decide_eq_true hn
  rw [C8] at c9 he
  rw [c9] at h9 d10 c10
  rw [c10] at c11
  have G4 : Grow s s4 := (saw_ext (L := [_]) (by rw [l4, l3, l2, l1])).grow
  have G5 := G4.left g5
  have g8 : Saw [Ev.makeKeyPair kid (some kp'), .destroyKey kid] s5 s8 :=
    saw_ext (by rw [l8, l7, l6]; simp)
  have G8 := G5.left g8.grow
  have G9 := G8.left g9
  have g10' : Saw _ s9 s11 := (saw_ext g10).left (grow_of_log l11)
  refine ⟨by simpa using h0, e1, e2, h6, kp'.1, kp'.2, kid, ts, th, hl.1, hl.2, ?_,
    G9.left g10'.grow, (G5.right g8).left (g9.left g10'.grow), h9, hs, d10, G9.right g10', c11⟩
  rcases he with ⟨a, b, d⟩ | ⟨a, b, _⟩
  · exact Or.inl ⟨a, b, (G8.right (saw_ext d)).left g10'.grow⟩
  · exact Or.inr ⟨a, b⟩

/-- The suite the peer selected is `own`; `p` is the list that is kept (`old`: what was kept before). -/
def PeerSuites (cfg : Config) (own : Int) (old : List Int) (p : List Int) : Suites → Prop
  | .one v => v = own ∧ p = (old ++ [v]).take 1
  | .list l => l.getLast? = some own ∧ p = l ∧ l.length ≤ cfg.maxSuites

theorem checkSuites_ok {su : Suites} {u : Unit} (h : checkSuites cfg su s = (.ok u, s')) :
    ∃ p, s' = { s with ctx := { s.ctx with peerCsuite := p } } ∧
      PeerSuites cfg s.ctx.suite.value s.ctx.peerCsuite p su := by
  unfold checkSuites at h
  cases su with
  | one v =>
    simp only [bind_ok, getCtx_ok, guardUB_ok, modCtx_ok, whenM_ok, fail_ok, and_false, exists_false,
      false_or] at h
    obtain ⟨_, _, ⟨rfl, rfl⟩, _, _, ⟨_, rfl⟩, _, _, rfl, h', rfl⟩ := h
    exact ⟨_, rfl, (by simpa using h' : s.ctx.suite.value = v).symm, rfl⟩
  | list l =>
    simp only [bind_ok, getCtx_ok, require_ok, modCtx_ok, whenM_ok, fail_ok, and_false, exists_false,
      false_or] at h
    obtain ⟨_, _, ⟨rfl, rfl⟩, _, _, ⟨_, rfl⟩, _, _, ⟨h1, rfl⟩, _, _, rfl, h2, rfl⟩ := h
    exact ⟨_, rfl, by simpa using h2, rfl, by simpa using h1⟩

theorem message1Process_ok {msg : Bytes} {u : Unit} (h : message1Process E cfg msg s = (.ok u, s')) :
    msg ≠ [] ∧ okStart s.ctx = true ∧ s.ctx.csuiteLen ≠ 0 ∧
    ∃ m me p th, (getMsg1 cfg.dec msg).2 = m ∧ me ∈ s.ctx.method ∧ (me : Int) = m.method ∧
      PeerSuites cfg (chosen s.ctx 0).suite.value s.ctx.peerCsuite p m.suites ∧
      m.gx.length = (chosen s.ctx 0).suite.eccKey ∧
      CidFits cfg m.ci ∧
      ((s.ctx.hasEadProcess = true ∧ m.ead ≠ [] ∧ m.ead.length ≤ cfg.maxEad ∧
          s'.log = s.log ++ [.eadProcess .msg1 m.ead true, .hash msg (some th)]) ∨
        ((s.ctx.hasEadProcess = false ∨ m.ead = []) ∧ s'.log = s.log ++ [.hash msg (some th)])) ∧
      th.length = (chosen s.ctx 0).suite.hash ∧
      s'.ctx = { chosen s.ctx me with
        peerCsuite := p, dhPeerPub := m.gx, peerCid := m.ci
        ead := if s.ctx.hasEadProcess = true ∧ m.ead ≠ [] then [] else s.ctx.ead
        th := th, thState := .th1, status := .receivedM1, errorCode := .success
        message := .msg1, role := .responder } := by
  unfold message1Process at h
  obtain ⟨_, _, h0', h⟩ := bind_ok.1 h
  obtain ⟨h0, rfl⟩ := require_ok.1 h0'
  obtain ⟨_, s1, h1, h⟩ := bind_ok.1 h
  obtain ⟨_, s2, h2, h⟩ := bind_ok.1 h
  obtain ⟨c, _, hc, h⟩ := bind_ok.1 h
  obtain ⟨rfl, rfl⟩ := getCtx_ok.1 hc
  obtain ⟨me, _, hm', h⟩ := bind_ok.1 h
  obtain ⟨hm, rfl⟩ := ofOption_ok.1 hm'
  obtain ⟨_, s3, h3, h⟩ := bind_ok.1 h
  obtain ⟨⟨c3, l3⟩, _⟩ := modCtx_st.1 h3
  obtain ⟨_, s4, h4, h⟩ := bind_ok.1 h
  obtain ⟨_, _, h5', h⟩ := bind_ok.1 h
  obtain ⟨h5, rfl⟩ := require_ok.1 h5'
  obtain ⟨_, _, hg, h⟩ := bind_ok.1 h
  obtain ⟨hz, rfl⟩ := guardUB_ok.1 hg
  simp only [Bool.and_eq_true, beq_iff_eq] at hz
  rw [hz.2, Nat.add_zero] at h5
  obtain ⟨_, s6, h6, h⟩ := bind_ok.1 h
  obtain ⟨⟨c6, l6⟩, _⟩ := modCtx_st.1 h6
  obtain ⟨_, _, hx, h⟩ := bind_ok.1 h
  obtain ⟨_, rfl⟩ := require_ok.1 hx
  obtain ⟨_, _, hx, h⟩ := bind_ok.1 h
  obtain ⟨_, rfl⟩ := guardUB_ok.1 hx
  obtain ⟨_, s7, h7, h⟩ := bind_ok.1 h
  obtain ⟨_, s8, h8, h⟩ := bind_ok.1 h
  obtain ⟨th, s9, h9, h⟩ := bind_ok.1 h
  obtain ⟨⟨c10, l10⟩, _⟩ := modCtx_st.1 h
  obtain ⟨e1, c1, l1⟩ := enter_st h1
  obtain ⟨e2, c2, l2⟩ := chooseSuite_st h2
  obtain ⟨p, rfl, hp⟩ := checkSuites_ok h4
  obtain ⟨c7, l7, hcid⟩ := storePeerCid_st h7
  obtain ⟨c9, d9, _, l9⟩ := hashTh_ok h9
  have hme := List.find?_some hm
  have hmem := List.mem_of_find?_eq_some hm
  simp only [decide_eq_true_eq] at hme
  rw [c1] at e2
  have C2 : s2.ctx = { chosen s.ctx s.ctx.chosenMethod with
      status := .aborted, errorCode := .unspecified, message := .msg1, role := .responder } := by
    rw [c2, c1]; rfl
  have C3 : s3.ctx = { chosen s.ctx me with
      status := .aborted, errorCode := .unspecified, message := .msg1, role := .responder } := by
    rw [c3, C2]; rfl
  rw [C3] at hp
  rw [C2] at hmem h5
  have C7 : s7.ctx = { chosen s.ctx me with
      peerCsuite := p, dhPeerPub := (getMsg1 cfg.dec msg).2.gx, peerCid := (getMsg1 cfg.dec msg).2.ci
      status := .aborted, errorCode := .unspecified, message := .msg1, role := .responder } := by
    rw [c7, c6, C3]
  have L7 : s7.log = s.log := by rw [l7, l6, l3, l2, l1]
  refine ⟨by intro h; subst h; simp at h0, e1, e2, _, me, p, th, rfl, hmem, hme, hp, eq_of_beq h5, hcid, ?_⟩
  have hproc : s7.ctx.hasEadProcess = s.ctx.hasEadProcess := by rw [C7]; rfl
  have C8 := processEad1_ok h8
  rw [hproc, L7, C7] at C8
  rcases C8 with ⟨a, b, d, c8, l8⟩ | ⟨a, c8, l8⟩
  · rw [c9, c8] at c10
    rw [c8] at d9
    refine ⟨Or.inl ⟨a, b, d, by rw [l10, l9, l8]; simp⟩, d9, ?_⟩
    rw [c10, if_pos ⟨a, b⟩]
  · rw [c9, c8] at c10
    rw [c8] at d9
    refine ⟨Or.inr ⟨a, by rw [l10, l9, l8]⟩, d9, ?_⟩
    have a' : ¬(s.ctx.hasEadProcess = true ∧ (getMsg1 cfg.dec msg).2.ead ≠ []) := by
      rintro ⟨x, y⟩
      rcases a with a | a
      · rw [x] at a; simp at a
      · exact y a
    rw [c10, if_neg a']
    rfl

end msgs

end Verif
