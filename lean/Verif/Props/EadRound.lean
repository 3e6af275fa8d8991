import Verif.Props.Ead

/-!
# C28: external authorization data arrives at the peer

Vocabulary: `Proper` and `Peers` (`Verif/SpecPrims.lean`), `SentAs` (`Verif/SpecRound.lean`).
-/

namespace Verif

open M Spec

variable {σ τ : Type} {E : Env σ} {cfg : Config}

namespace Spec

/-- EAD callbacks are registered, and the library is configured for one to three EAD tokens. -/
structure UsesEad (cfg : Config) (c : Ctx) : Prop where
  compose : c.hasEadCompose = true
  process : c.hasEadProcess = true
  max : 0 < cfg.maxEad ∧ cfg.maxEad ≤ 3

/-- The labels the application gave fit into an `int32_t`. -/
def EadLabels (L : List Ev) : Prop := ∀ m ts, Ev.eadCompose m (some ts) ∈ L → ∀ t ∈ ts, Int32Range t.label

/-- The application supplied credentials that have a standard encoding. -/
def StandardCreds (L : List Ev) : Prop := ∀ c kid, CredSupplied L c kid → ∃ i, SentAs c i

end Spec

/-! ## The callback is asked once per message -/

/-- the application is asked for the EAD tokens of message `m` -/
def asks (m : Msg) : Ev → Bool
  | .eadCompose m' _ => m' == m
  | _ => false

/-- the number of a message -/
def msgNo : Msg → Nat
  | .msg1 => 1
  | .msg2 => 2
  | .msg3 => 3
  | .msg4 => 4

theorem asks_le {ks : List Kind} {L : List Ev} {m : Msg} (h : Spec.Within ks L) : L.countP (asks m) ≤ ks.count (.eadCompose m) := by
  induction h with
  | nil => simp
  | @skip ks v L hv _ ih =>
    rw [List.countP_cons]
    cases v <;> first | (cases hv; done) | simpa [asks] using ih
  | miss _ ih => exact Nat.le_trans ih (List.count_le_count_cons)
  | @hit k ks v L hv _ ih =>
    rw [List.countP_cons, List.count_cons]
    cases hv <;> simp [asks] <;> first | omega | (split <;> simp_all)

theorem asks_step {o : Op} {s s' : St σ} {r : Res Out} {m : Msg} (h : step E cfg o s = (r, s')) (hd : r.Defined) :
    (during s s').countP (asks m) ≤ 1 ∧
      ((during s s').countP (asks m) ≠ 0 → level s.ctx.status + 1 = msgNo m ∧ msgNo m ≤ level s'.ctx.status) := by
  have hw := asks_le (m := m) (C33_performs h hd)
  have hk : ∀ k, callOf o = some k → round k = msgNo m → (during s s').countP (asks m) ≠ 0 →
      level s.ctx.status + 1 = msgNo m ∧ msgNo m ≤ level s'.ctx.status := by
    intro k hk hr h0
    rcases level_message hk h hd with rfl | h1
    · simp [during_self] at h0
    · rwa [hr] at h1
  cases o <;> cases m <;>
    first
    | (replace hw := Nat.le_trans hw (Nat.le_of_eq (show _ = 0 from rfl))
       exact ⟨by omega, fun h0 => by omega⟩)
    | exact ⟨Nat.le_trans hw (Nat.le_of_eq (show _ = 1 from rfl)), hk _ rfl rfl⟩

theorem session_asks {e : σ} {log : List Ev} (m : Msg) {h : History} {s : St σ} (hs : Session E cfg e log h s) :
    (sessionCalls log s).countP (asks m) ≤ 1 ∧
      ((sessionCalls log s).countP (asks m) ≠ 0 → msgNo m ≤ level s.ctx.status) := by
  refine session_ind (P := fun _ s => (sessionCalls log s).countP (asks m) ≤ 1 ∧
      ((sessionCalls log s).countP (asks m) ≠ 0 → msgNo m ≤ level s.ctx.status)) ?_ ?_ hs
  · simp [sessionCalls]
  · intro h s o r s' hs ih hst hd hn
    have hc : sessionCalls log s' = sessionCalls log s ++ during s s' := by
      obtain ⟨l1, l2, e1⟩ := run_grow hs.1
      obtain ⟨l3, l4, e2⟩ := step_grow hst hd
      unfold sessionCalls during
      have e1 : s.log = log ++ (l1 ++ l2) := by rw [e1]; simp
      have e2 : s'.log = s.log ++ (l3 ++ l4) := by rw [e2]; simp
      rw [e2, List.drop_left, e1, List.append_assoc, List.drop_left, List.drop_left]
    rw [hc, List.countP_append]
    have h1 := asks_step (m := m) hst hd
    have h2 := level_step hn hst hd
    omega

/-- In a session the application is asked at most once for the EAD tokens of a message. -/
theorem asked_once {e : σ} {log : List Ev} {m : Msg} {h : History} {s : St σ} (hs : Session E cfg e log h s)
    {a b : Option (List EadTok)} (ha : Ev.eadCompose m a ∈ sessionCalls log s) (hb : Ev.eadCompose m b ∈ sessionCalls log s) :
    a = b := by
  have h1 := (session_asks m hs).1
  revert h1 ha hb
  generalize sessionCalls log s = L
  intro ha hb h1
  induction L with
  | nil => simp at ha
  | cons v L ih =>
    have hz : ∀ x, Ev.eadCompose m x ∈ L → L.countP (asks m) ≠ 0 := fun x hx =>
      Nat.pos_iff_ne_zero.1 (List.countP_pos_iff.2 ⟨_, hx, by simp [asks]⟩)
    rw [List.countP_cons] at h1
    rcases List.mem_cons.1 ha with ha | ha
    · rcases List.mem_cons.1 hb with hb | hb
      · rw [← hb] at ha; injection ha
      · have := hz _ hb
        rw [← ha, if_pos (by simp [asks])] at h1
        omega
    · rcases List.mem_cons.1 hb with hb | hb
      · have := hz _ ha
        rw [← hb, if_pos (by simp [asks])] at h1
        omega
      · exact ih ha hb (by omega)

/-! ## Sizes -/

theorem ead_value_le {ts : List EadTok} {t : EadTok} (h : t ∈ ts) {v : Bytes} (hv : t.value = some v) :
    v.length ≤ (Spec.ead ts).length := by
  induction ts with
  | nil => simp at h
  | cons a l ih =>
    have e : Spec.ead (a :: l) = encEadTok a ++ Spec.ead l := rfl
    rw [e, List.length_append]
    rcases List.mem_cons.1 h with rfl | h
    · simp only [encEadTok, hv, List.length_append, encBstr_length]; omega
    · have := ih h; omega

theorem ead_wire {ts : List EadTok} (hl : ∀ t ∈ ts, Int32Range t.label) (hs : SizeOk (Spec.ead ts)) :
    ∀ t ∈ ts, t.Wire := fun t ht =>
  ⟨hl t ht, fun v hv => by have := ead_value_le ht hv; unfold SizeOk at *; omega⟩

theorem ptxtTail_wire {cr : Cred} {sig p : Bytes} {ts : List EadTok} (h : PtxtTail cfg cr sig ts p) (hp : SizeOk p)
    (hl : ∀ t ∈ ts, Int32Range t.label) : SizeOk sig ∧ ∀ t ∈ ts, t.Wire := by
  obtain ⟨k, _, rfl⟩ := h
  simp only [SizeOk, List.length_append, encBstr_length] at hp
  exact ⟨by unfold SizeOk; omega, ead_wire hl (by unfold SizeOk; omega)⟩

theorem always_id {ts : List EadTok} (h : ∀ t ∈ ts, t.value ≠ none) : eadAlwaysValue ts = ts := by
  unfold eadAlwaysValue
  conv => rhs; rw [← List.map_id ts]
  refine List.map_congr_left fun t ht => ?_
  have := h t ht
  obtain ⟨l, v⟩ := t
  cases v with
  | none => exact absurd rfl this
  | some v => rfl

theorem encMsg1_ead {m : Msg1} {b : Bytes} (h : encMsg1 m = some b) :
    (Spec.ead m.ead).length ≤ b.length ∧ m.gx.length ≤ b.length ∧ ∀ x, m.ci = .bstr x → x.length ≤ b.length := by
  unfold encMsg1 at h
  split at h
  · rename_i su ci ea h1 h2 h3
    simp only [Option.some.injEq] at h
    subst h
    obtain ⟨rfl, _⟩ := encEadOpt_eq h3
    simp only [List.length_append, encBstr_length]
    refine ⟨by omega, by omega, fun x hx => ?_⟩
    rw [hx] at h2
    simp only [encCid, Option.some.injEq] at h2
    subst h2
    simp only [encBstr_length]
    omega
  · simp at h

section

variable {EI : Env σ} {ER : Env τ} {cI cR : Config} {eI : σ} {eR : τ} {logI logR : List Ev} {hI hR : History}
  {sI : St σ} {sR : St τ} {P : Prims} {kI kR : Bytes → Bytes}

theorem SentEad.tokens {c : Ctx} {L : List Ev} {m : Msg} {ts : List EadTok} (h : SentEad cfg c L m ts) (hu : UsesEad cfg c) :
    ts.length ≤ 3 ∧ Ev.eadCompose m (some ts) ∈ L := by
  rcases h with ⟨_, h1, h2⟩ | ⟨h1, _⟩
  · have := hu.max; exact ⟨by omega, h2⟩
  · have := hu.max
    simp [composesEad, hu.compose] at h1
    omega

theorem GotEad.tokens {c : Ctx} {L : List Ev} {m : Msg} {ts : List EadTok} (h : GotEad cfg c L m ts) (hu : UsesEad cfg c)
    (h0 : ts ≠ []) : Ev.eadProcess m ts true ∈ L := by
  have := hu.max
  exact h (by simp [processesEad, hu.process]; omega) h0

/-- **C28**, messages 1 to 3. Two peers complete a handshake with each other, both use EAD. The tokens the Initiator's
callback gave for message 1 (if all of them have a value) and message 3, and those the Responder's callback gave for
message 2, were handed to the other side's callback, which accepted them. Tokens of message 1 without a value:
see `C28_violated`. -/
theorem C28_round_trip_partial (fI : Proper EI cI eI logI hI sI) (fR : Proper ER cR eR logR hR sR)
    (hi : AsInitiator hI) (hr : AsResponder hR) (hsu : sR.ctx.suite = sI.ctx.suite)
    (p : Peers P kI kR sI.ctx.chosenMethod (sessionCalls logI sI) (sessionCalls logR sR) hI hR)
    (uI : UsesEad cI sI.ctx) (uR : UsesEad cR sR.ctx)
    (lI : EadLabels (sessionCalls logI sI)) (lR : EadLabels (sessionCalls logR sR))
    (kI : StandardCreds (sessionCalls logI sI)) (kR : StandardCreds (sessionCalls logR sR)) {ts : List EadTok} (h0 : ts ≠ []) :
    (Ev.eadCompose .msg1 (some ts) ∈ sessionCalls logI sI → (∀ t ∈ ts, t.value ≠ none) →
      Ev.eadProcess .msg1 ts true ∈ sessionCalls logR sR) ∧
    (Ev.eadCompose .msg2 (some ts) ∈ sessionCalls logR sR → Ev.eadProcess .msg2 ts true ∈ sessionCalls logI sI) ∧
    (Ev.eadCompose .msg3 (some ts) ∈ sessionCalls logI sI → Ev.eadProcess .msg3 ts true ∈ sessionCalls logR sR) := by
  obtain ⟨n1, n2, n3, m1, m2, m3, x, kidI, pkR, y, kidR, pkI, v, w, b⟩ := both_views fI fR hi hr hsu p
  refine ⟨fun hx hv => ?_, fun hx => ?_, fun hx => ?_⟩
  · obtain ⟨su, ts', ht, hsr, he, hm, hg⟩ := b.moreI.msg1
    obtain ⟨_, ht⟩ := ht.tokens uI
    cases asked_once fI.session ht hx
    rw [always_id hv] at he
    have hl1 := (fI.short _ b.sent1).2 m1 rfl
    obtain ⟨e1, e2, e3⟩ := encMsg1_ead he
    have hd := getMsg1_encMsg1 (d := cR.dec) he ⟨by simp only [Int32Range]; omega, hsr, by unfold SizeOk; simp only at e2 ⊢; omega,
      fun z hz => by have := e3 z hz; unfold SizeOk; omega, ead_wire (lI _ _ ht) (by unfold SizeOk; simp only at e1 ⊢; omega)⟩
    have h2 := b.moreR.msg1.2 uR.process
    rw [hd] at h2
    exact h2 h0
  · obtain ⟨sig, ts', t, ht, hp, e⟩ := b.moreR.msg2
    obtain ⟨hl, ht⟩ := ht.tokens uR
    cases asked_once fR.session ht hx
    obtain ⟨q, id, hq, hg, _⟩ := b.moreI.msg2
    obtain ⟨i, hi⟩ := kR _ _ b.viewR.supplied
    have hlen : w.ptxt2.length < 2 ^ 32 := by
      have h2 := (fR.short _ b.sent2).2 m2 rfl
      obtain ⟨ks, h3, h4, _⟩ := b.viewR.message2
      rw [h4, encBstr_length, List.length_append, xorBytes_length h3.1] at h2
      omega
    rw [e, List.length_append] at hlen
    obtain ⟨w1, w2⟩ := ptxtTail_wire hp (by unfold SizeOk; omega) (lR _ _ ht)
    have hd := ptxtTail_dec hp hi w1 w2 hl cI.dec
    have hc := getPtxt2_enc (d := cI.dec) (ownCid_enc b.moreR.own) (fun z hz => by
      rw [hz] at hlen
      simp only [cidItem, encBstr_length] at hlen
      unfold SizeOk; omega) hd
    rw [b.ptxt2, e, hc] at hq
    simp only [Option.some.injEq, Prod.mk.injEq] at hq
    obtain ⟨_, rfl⟩ := hq
    exact hg.tokens uI h0
  · obtain ⟨sig, ts', ht, hp⟩ := b.moreI.msg3
    obtain ⟨hl, ht⟩ := ht.tokens uI
    cases asked_once fI.session ht hx
    obtain ⟨q, id, hq, hg, _⟩ := b.moreR.msg3
    obtain ⟨i, hi⟩ := kI _ _ b.viewI.supplied
    have hlen := b.moreR.size3
    rw [← b.ptxt3] at hlen
    obtain ⟨w1, w2⟩ := ptxtTail_wire hp hlen (lI _ _ ht)
    have hd := ptxtTail_dec hp hi w1 w2 hl cR.dec
    rw [← b.ptxt3, hd] at hq
    cases hq
    exact hg.tokens uR h0

theorem prefix_messages {a b : History} {l : List Call} (h : l <+: messages a) : l <+: messages (a ++ b) := by
  unfold messages at *
  rw [List.filterMap_append]
  exact h.trans (List.prefix_append ..)

/-- **C28**, message 4. After the handshake, the Initiator processes the message 4 that the Responder composed. The tokens
the Responder's callback gave were handed to the Initiator's callback, which accepted them. -/
theorem C28_message4 {n : Nat} {msg : Bytes} (fI : Proper EI cI eI logI (hI ++ [(.process4 msg, .ok .unit)]) sI)
    (fR : Proper ER cR eR logR (hR ++ [(.compose4 n, .ok (.bytes msg))]) sR)
    (hi : AsInitiator hI) (hr : AsResponder hR) (hsu : sR.ctx.suite = sI.ctx.suite)
    (p : Peers P kI kR sI.ctx.chosenMethod (sessionCalls logI sI) (sessionCalls logR sR)
      (hI ++ [(.process4 msg, .ok .unit)]) (hR ++ [(.compose4 n, .ok (.bytes msg))]))
    (uI : UsesEad cI sI.ctx) (uR : UsesEad cR sR.ctx) (lR : EadLabels (sessionCalls logR sR)) {ts : List EadTok} (h0 : ts ≠ [])
    (hx : Ev.eadCompose .msg4 (some ts) ∈ sessionCalls logR sR) :
    Ev.eadProcess .msg4 ts true ∈ sessionCalls logI sI := by
  obtain ⟨th4, prk, kI, kR, _⟩ := C11_same_keys fI fR (prefix_messages hi) (prefix_messages hr) hsu p
  obtain ⟨s0, q0, c0, i0⟩ := last_call fI.session
  obtain ⟨_, hm, _, c0⟩ := step_process4 rfl c0
  cases hm
  obtain ⟨k, iv, ctxt, ptxt, c⟩ := message4Process_ok c0
  obtain ⟨t0, r0, d0, j0⟩ := last_call fR.session
  obtain ⟨_, _, hm, hm', d0⟩ := step_compose4 rfl d0
  cases hm
  cases hm'
  obtain ⟨ts', k', iv', ptxt', ctxt', d⟩ := message4Compose_ok d0
  have keysOf : ∀ {L : List Ev} {u : Nat} {es : List Bytes} {x y : Ctx} , HoldsKeys L prk th4 u es y → y.prkState = x.prkState →
      y.th = x.th → y.prk = x.prk → okCompleted x = true → x.th = th4 ∧ x.prk = prk := by
    intro L u es x y hk e1 e2 e3 hc
    simp only [okCompleted, Bool.and_eq_true, beq_iff_eq] at hc
    obtain ⟨h1, _, h2⟩ := hk
    rcases h2 with ⟨_, h2, _⟩ | ⟨h2, _⟩
    · exact ⟨e2.symm.trans h1, e3.symm.trans h2⟩
    · rw [e1, hc.2] at h2; cases h2
  obtain ⟨e1, e2⟩ := keysOf kI (by rw [c.ctx]) (by rw [c.ctx]) (by rw [c.ctx]) c.state
  obtain ⟨f1, f2⟩ := keysOf kR (by rw [d.ctx]) (by rw [d.ctx]) (by rw [d.ctx]) d.state
  have su1 : sI.ctx.suite = s0.ctx.suite := by rw [c.ctx]; rfl
  have su2 : sR.ctx.suite = t0.ctx.suite := by rw [d.ctx]; rfl
  have sm := fI.regular.small
  have a1 := p.faithfulI.expand ((c.keys.1.call (su1 ▸ sm.1)).mono i0)
  have a2 := p.faithfulI.expand ((c.keys.2.call (su1 ▸ sm.2.1)).mono i0)
  have b1 := p.faithfulR.expand ((d.keys.1.call (su2 ▸ hsu ▸ sm.1)).mono j0)
  have b2 := p.faithfulR.expand ((d.keys.2.call (su2 ▸ hsu ▸ sm.2.1)).mono j0)
  rw [e1, e2, ← su1] at a1 a2
  rw [f1, f2, ← su2, hsu] at b1 b2
  have ek : k = k' := a1.trans b1.symm
  have ev : iv = iv' := a2.trans b2.symm
  have hl : msg.length < 2 ^ 32 := (fI.short (.process4 msg, .ok .unit) (by simp)).1 _ rfl
  have hct : ctxt = ctxt' := by
    have h1 := c.parsed
    rw [d.out, getMsgBstr_enc (by rw [d.out, encBstr_length] at hl; unfold SizeOk; omega)] at h1
    cases h1; rfl
  have hpt : ptxt = ptxt' := by
    have h1 := p.faithfulI.dec (c.decrypted.call.mono i0)
    have h2 := p.faithfulR.enc (d.encrypted.call.mono j0)
    rw [e1, hct, h2, f1, ek, ev, p.lawful.aead] at h1
    cases h1; rfl
  have h4 : SizeOk ptxt := by
    have h1 := getMsgBstr_length c.parsed
    have h3 := c.ptxtLen
    unfold subSize at h3
    unfold SizeOk
    split at h3 <;> omega
  have hts : Ev.eadCompose .msg4 (some ts') ∈ sessionCalls logR sR := by
    rcases d.composed with ⟨_, _, h⟩ | ⟨h, _⟩
    · exact j0.subset h.mem
    · have h1 : sR.ctx.hasEadCompose = t0.ctx.hasEadCompose := by rw [d.ctx]
      have := uR.max
      simp [composesEad, ← h1, uR.compose] at h
      omega
  cases asked_once fR.session hts hx
  rw [hpt, d.plain] at h4
  have h5 := c.ead
  rw [hpt, d.plain, getPtxt4_enc (ead_wire (lR _ _ hx) h4) d.eadLen] at h5
  have h6 : sI.ctx.hasEadProcess = s0.ctx.hasEadProcess := by rw [c.ctx]
  have := uI.max
  exact i0.subset (h5 (by simp [processesEad, ← h6, uI.process]; omega) h0).mem

end

/-! ## Examples -/

/-- all labels fit -/
def labelsB (L : List Ev) : Bool :=
  L.all fun
    | .eadCompose _ (some ts) => ts.all fun t => decide (Int32Range t.label)
    | _ => true

theorem labels_of {L : List Ev} (h : labelsB L = true) : EadLabels L := by
  intro m ts hm t ht
  have h1 := List.all_eq_true.1 h _ hm
  simp only [List.all_eq_true, decide_eq_true_eq] at h1
  exact h1 t ht

/-- only the toy credentials are supplied -/
def credsB (L : List Ev) : Bool :=
  L.all fun
    | .credFetch (some (c, _)) => c == Toy.credI || c == Toy.credR
    | _ => true

theorem creds_of {L : List Ev} (h : credsB L = true) : StandardCreds L := by
  intro c kid hc
  have h1 := List.all_eq_true.1 h _ hc
  simp only [Bool.or_eq_true, beq_iff_eq] at h1
  rcases h1 with rfl | rfl
  · exact ⟨_, .kidInt _ (by decide) (by decide)⟩
  · exact ⟨_, .cert (by unfold SizeOk; decide)⟩

/-- Non-vacuity of `C28_round_trip_partial`: honest handshakes with each method, with EAD_1 and EAD_3. -/
example : ∀ m ∈ Toy.methods,
    Ev.eadProcess .msg1 [⟨1, some [7]⟩] true ∈ sessionCalls [] (Toy.after Toy.bob (Toy.callsR m ++ Toy.exports)) ∧
    Ev.eadProcess .msg3 [⟨-3, none⟩] true ∈ sessionCalls [] (Toy.after Toy.bob (Toy.callsR m ++ Toy.exports)) := by
  intro m hm
  have fI := Toy.proper_of (List.all_eq_true.1 Toy.checkI m hm)
  have fR := Toy.proper_of (List.all_eq_true.1 Toy.checkR m hm)
  have p := Toy.peers_of (List.all_eq_true.1 Toy.peers m hm)
  have hc : ∀ m ∈ Toy.methods,
      AsInitiator (Toy.hst Toy.alice (Toy.callsI m ++ Toy.exports)) ∧
      AsResponder (Toy.hst Toy.bob (Toy.callsR m ++ Toy.exports)) ∧
      (Toy.after Toy.bob (Toy.callsR m ++ Toy.exports)).ctx.suite =
        (Toy.after Toy.alice (Toy.callsI m ++ Toy.exports)).ctx.suite ∧
      (Toy.after Toy.alice (Toy.callsI m ++ Toy.exports)).ctx.chosenMethod = m ∧
      (Toy.after Toy.alice (Toy.callsI m ++ Toy.exports)).ctx.hasEadCompose = true ∧
      (Toy.after Toy.alice (Toy.callsI m ++ Toy.exports)).ctx.hasEadProcess = true ∧
      (Toy.after Toy.bob (Toy.callsR m ++ Toy.exports)).ctx.hasEadCompose = true ∧
      (Toy.after Toy.bob (Toy.callsR m ++ Toy.exports)).ctx.hasEadProcess = true ∧
      labelsB (sessionCalls [] (Toy.after Toy.alice (Toy.callsI m ++ Toy.exports))) = true ∧
      labelsB (sessionCalls [] (Toy.after Toy.bob (Toy.callsR m ++ Toy.exports))) = true ∧
      credsB (sessionCalls [] (Toy.after Toy.alice (Toy.callsI m ++ Toy.exports))) = true ∧
      credsB (sessionCalls [] (Toy.after Toy.bob (Toy.callsR m ++ Toy.exports))) = true ∧
      Ev.eadCompose .msg1 (some [⟨1, some [7]⟩]) ∈ sessionCalls [] (Toy.after Toy.alice (Toy.callsI m ++ Toy.exports)) ∧
      Ev.eadCompose .msg3 (some [⟨-3, none⟩]) ∈ sessionCalls [] (Toy.after Toy.alice (Toy.callsI m ++ Toy.exports)) := by
    unfold AsInitiator AsResponder
    simp only [← List.isPrefixOf_iff_prefix]
    decide +kernel
  obtain ⟨h1, h2, h3, h4, a1, a2, a3, a4, b1, b2, c1, c2, d1, d2⟩ := hc m hm
  have key := fun ts h0 => C28_round_trip_partial (ts := ts) (P := Toy.prims) (kI := id) (kR := id) fI fR h1 h2 h3
    (by rw [h4]; exact p) ⟨a1, a2, by decide⟩ ⟨a3, a4, by decide⟩
    (labels_of b1) (labels_of b2) (creds_of c1) (creds_of c2) h0
  exact ⟨(key _ (by simp)).1 d1 (by simp), (key _ (by simp)).2.2 d2⟩

/-- Non-vacuity of `C28_message4`: method 2. -/
example : ∃ msg, (step (Toy.env Toy.bob) Toy.cfg (.compose4 100) (Toy.after Toy.bob ((Toy.callsR 2).take 10))).1 =
      .ok (.bytes msg) ∧
    Ev.eadProcess .msg4 [⟨100, some [1, 2]⟩] true ∈
      sessionCalls [] (Toy.after Toy.alice ((Toy.callsI 2).take 10 ++ [.process4 msg])) := by
  refine ⟨Toy.msg 2 4, by decide +kernel, ?_⟩
  have fI := Toy.proper_last (p := Toy.alice) (ops := (Toy.callsI 2).take 10) (o := .process4 (Toy.msg 2 4)) (x := .unit)
    (by decide +kernel) (by decide +kernel)
  have fR := Toy.proper_last (p := Toy.bob) (ops := (Toy.callsR 2).take 10) (o := .compose4 100) (x := .bytes (Toy.msg 2 4))
    (by decide +kernel) (by decide +kernel)
  refine C28_message4 fI fR (List.isPrefixOf_iff_prefix.1 (by decide +kernel))
    (List.isPrefixOf_iff_prefix.1 (by decide +kernel)) (by decide +kernel) (P := Toy.prims) (kI := id) (kR := id) ?_
    ⟨by decide +kernel, by decide +kernel, by decide⟩ ⟨by decide +kernel, by decide +kernel, by decide⟩
    (labels_of (by decide +kernel)) (by simp) (by decide +kernel)
  have e : (Toy.after Toy.alice ((Toy.callsI 2).take 10 ++ [.process4 (Toy.msg 2 4)])).ctx.chosenMethod = 2 := by
    decide +kernel
  rw [e]
  have p := Toy.peers_of (method := 2) (opsI := (Toy.callsI 2).take 10 ++ [.process4 (Toy.msg 2 4)])
    (opsR := (Toy.callsR 2).take 10 ++ [.compose4 100]) (by decide +kernel)
  exact ⟨p.lawful, p.faithfulI, p.faithfulR, Toy.delivered_of (by decide +kernel), p.credR, p.credI⟩

/-! ## What is missing -/

/-- **C28 is violated** for EAD items without a value in message 1: the Initiator's callback gives one item with label 1 and
no value; the Responder's callback, given the message the Initiator composed, gets an item with an empty value. -/
theorem C28_violated : ∃ (hI hR : History) (sI sI' sR sR' : St Unit) (msg : Bytes),
    Session (Toy.env plainEad) Toy.cfg () [] hI sI ∧
    step (Toy.env plainEad) Toy.cfg (.compose1 100) sI = (.ok (.bytes msg), sI') ∧
    Ev.eadCompose .msg1 (some [⟨1, none⟩]) ∈ during sI sI' ∧
    Session (Toy.env Toy.bob) Toy.cfg () [] hR sR ∧
    step (Toy.env Toy.bob) Toy.cfg (.process1 msg) sR = (.ok .unit, sR') ∧
    Ev.eadProcess .msg1 [⟨1, some []⟩] true ∈ during sR sR' ∧ deliveries (during sR sR') = 1 :=
  ⟨Toy.hst plainEad (Toy.conf 3 (.int 5)), Toy.hst Toy.bob (Toy.conf 3 (.bstr [0x18, 9])),
    Toy.after plainEad (Toy.conf 3 (.int 5)),
    (step (Toy.env plainEad) Toy.cfg (.compose1 100) (Toy.after plainEad (Toy.conf 3 (.int 5)))).2,
    Toy.after Toy.bob (Toy.conf 3 (.bstr [0x18, 9])),
    (step (Toy.env Toy.bob) Toy.cfg (.process1 [3, 2, 66, 0, 124, 5, 1, 64])
      (Toy.after Toy.bob (Toy.conf 3 (.bstr [0x18, 9])))).2,
    [3, 2, 66, 0, 124, 5, 1, 64], Toy.session _ _ (by decide +kernel), eq_of_fst (by decide +kernel), by decide +kernel,
    Toy.session _ _ (by decide +kernel), eq_of_fst (by decide +kernel), by decide +kernel, by decide +kernel⟩

end Verif
