import Verif.SpecOneKey
import Verif.SealKey
import Verif.Once
import Verif.Props.KeyShare
import Verif.Props.Role4

/-!
# C87: one encryption with each AEAD key
-/

namespace Verif

open M Spec

section
variable {N N' : Node}

theorem done2_same (gi : N.Good) (gj : N'.Good) (nc : NoCollision N.calls N'.calls) {d d' : Data3} {a : St N.σ}
    {b : St N'.σ} (h : Done2 N a d) (h' : Done2 N' b d') (e : d.th3 = d'.th3) : d.gx = d'.gx ∧ d.gy = d'.gy := by
  have t := h'.th3
  rw [← e] at t
  obtain ⟨eh, _⟩ := bstr_split (gi.th h.th2) (gj.th h'.th2) (nc h.th3 t)
  have t := h'.th2
  rw [← eh] at t
  obtain ⟨e1, e2⟩ := bstr_split h.gy h'.gy (nc h.th2 t)
  obtain ⟨e2, _⟩ := bstr_split (r := []) (r' := []) (gi.th h.th1) (gj.th h'.th1) (by simpa using e2)
  have t1 := h'.th1
  rw [← e2] at t1
  have e3 := nc h.th1 t1
  obtain ⟨l, m, _⟩ := h.message1
  obtain ⟨l', m', _⟩ := h'.message1
  rw [← e3] at m'
  exact ⟨(startsMessage1_unique m m').2.2, e1⟩

theorem done3_same (gi : N.Good) (gj : N'.Good) (nc : NoCollision N.calls N'.calls) {d d' : Data3} {p3 p3' th4 : Bytes}
    (h : Done3 N d p3 th4) (h' : Done3 N' d' p3' th4) : d.gx = d'.gx ∧ d.gy = d'.gy := by
  obtain ⟨a, ha⟩ := h.done
  obtain ⟨b, hb⟩ := h'.done
  exact done2_same gi gj nc ha hb (bstr_split (gi.th ha.th3) (gj.th hb.th3) (nc h.hash h'.hash)).1

/-- a session that encrypts: where, and with which key -/
structure SealedIn (N : Node) (h : History) (o : Op) (k : Bytes) : Prop where
  place : ∃ r a b v, Placed N.env N.cfg N.start N.log N.hist N.state h o r a b ∧ v ∈ during a b
  key : (∃ n d a prk, o = .compose3 n ∧ Done2 N a d ∧ (∃ x, KeyPairCall N.calls x d.gx) ∧
      ExpandCall N.calls prk 3 d.th3 N.suite.aeadKey k) ∨
    ∃ n d p3 th4 prk, o = .compose4 n ∧ Done3 N d p3 th4 ∧ ExpandCall N.calls prk 8 th4 N.suite.aeadKey k ∧
      ((Initiates N ∧ ∃ x, KeyPairCall N.calls x d.gx) ∨ (Responds N ∧ ∃ y, KeyPairCall N.calls y d.gy))

theorem sealedIn (g : N.Good) {h : History} {o : Op} {k iv : Bytes} (e : EncryptsWith N h o k iv) : SealedIn N h o k := by
  obtain ⟨L, kid, aad, pt, ct, ⟨r, t, a, b, hh, hs, hst, hd, hr, rfl⟩, hm⟩ := e
  have p : Placed N.env N.cfg N.start N.log N.hist N.state h o r a b := ⟨⟨t, hh, hr⟩, hs, hst, hd⟩
  have hv : Ev.encrypt kid iv aad pt ct ∈ during a b := hm.subset (by simp)
  refine ⟨⟨r, a, b, _, p, hv⟩, ?_⟩
  have hp := within_mem (C33_performs p.step p.defined) .encrypt hv
  have def0 : ∀ {α : Type} {f : α → Out} {r0 : Res α}, ((∃ a, r0 = .ok a ∧ r = .ok (f a)) ∨ (∃ e, r0 = .err e ∧ r = .err e) ∨
      ∃ u, r0 = .ub u ∧ r = .ub u) → r0.Defined := by
    rintro α f r0 (⟨a, rfl, _⟩ | ⟨e, rfl, _⟩ | ⟨u, rfl, rfl⟩)
    · simp
    · simp
    · exact absurd rfl (p.defined u)
  cases o
  case compose3 n =>
    left
    obtain ⟨r0, h0, hr⟩ := mapOut_cases p.step
    obtain ⟨h2, h3, _⟩ := message3Compose_key h0 (def0 hr) hm
    obtain ⟨m1, gx, gy, th1, th2, cr, pt, dn, _, _, kp⟩ := initiator_done2 g p h2 [] [] [] []
    have := (h3.call dn.env.small.1).mono (placed_sub p)
    rw [← dn.env.suite] at this
    exact ⟨n, _, a, _, rfl, dn, kp, this⟩
  case compose4 n =>
    right
    obtain ⟨r0, h0, hr⟩ := mapOut_cases p.step
    obtain ⟨h2, h3, _⟩ := message4Compose_key h0 (def0 hr) hm
    have hps := past_session p.before
    have hstat := okCompleted_status h2
    rw [hstat] at hps
    have hne : messages h ≠ [] := by
      rcases hps with e | e <;> rw [e] <;> simp
    have ev := placed_env g p hne
    have hx := (h3.call ev.small.1).mono (placed_sub p)
    rw [← ev.suite, ← (placed_late g p hne).1 hstat] at hx
    rcases hps with hps | hps
    · obtain ⟨_, _, _, _, _, _, _, _, _, _, ch⟩ := initiator_chain p.before (p.settled g.proper.settled) hps
      obtain ⟨d, p3, th4, dn, _, _, kp⟩ := initiator_done3 g (p.sub ch.in3)
      rw [dn.now] at hx
      exact ⟨n, d, p3, th4, _, rfl, dn, hx, .inl ⟨⟨_, _, p.sub ch.in1⟩, kp⟩⟩
    · obtain ⟨_, _, _, _, _, _, _, _, _, ch⟩ := responder_chain p.before (p.settled g.proper.settled) hps
      obtain ⟨d, p3, th4, dn, _, _, kp, _⟩ := responder_done3 g (p.sub ch.in3)
      rw [dn.now] at hx
      exact ⟨n, d, p3, th4, _, rfl, dn, hx, .inr ⟨⟨_, p.sub ch.in1⟩, kp⟩⟩
  all_goals simp [performs] at hp

end

/-! ## C87 -/

section
variable {ι : Type} {b : Nat} {W : ι → Node} {i j : ι} {h h' : History} {o o' : Op} {k iv iv' : Bytes}

/-- **C87**. In all sessions, two encryptions with the same AEAD key are the same encryption (so no nonce is used twice
with a key), or they encrypt message 4 on both ends of one handshake. Missing: the second case does occur
(`C87_violated`). -/
theorem C87_once_partial (w : Sessions b W) (x : EncryptsWith (W i) h o k iv) (y : EncryptsWith (W j) h' o' k iv')
    (hb : b ≤ (W i).suite.aeadKey) :
    (i = j ∧ h = h' ∧ o = o') ∨
      ((∃ n n', o = .compose4 n ∧ o' = .compose4 n') ∧
        ((Initiates (W i) ∧ Responds (W j)) ∨ (Responds (W i) ∧ Initiates (W j)))) := by
  have gi := w.good i
  have gj := w.good j
  have si : ShortInfos (W i).calls := gi.infos
  have sj : ShortInfos (W j).calls := gj.infos
  have hs : (W i).suite.aeadKey < 2 ^ 64 := by
    have := gi.proper.regular.small.1
    show (W i).state.ctx.suite.aeadKey < _
    omega
  have X := sealedIn gi x
  have Y := sealedIn gj y
  have same : ∀ {c c' : Call}, i = j → callOf o = some c → callOf o' = some c' → round c = round c' →
      i = j ∧ h = h' ∧ o = o' := by
    rintro c c' rfl hc hc' hr
    obtain ⟨_, _, _, _, p, hv⟩ := X.place
    obtain ⟨_, _, _, _, p', hv'⟩ := Y.place
    obtain ⟨e1, e2, _⟩ := placed_once gi.session p p' hc hc' hr hv hv'
    exact ⟨rfl, e1, e2⟩
  rcases X.key with ⟨n, d, a, q, rfl, dn, ⟨g, kp⟩, e⟩ | ⟨n, d, p3, th4, q, rfl, dn, e, ro⟩ <;>
    rcases Y.key with ⟨n', d', a', q', rfl, dn', ⟨g', kp'⟩, e'⟩ | ⟨n', d', p3', th4', q', rfl, dn', e', ro'⟩
  · obtain ⟨_, _, ht, _⟩ := expand_unique (w.noExpand i j) si sj e e' hb (by omega) (by omega) hs
    obtain ⟨eg, _⟩ := done2_same gi gj (w.noCollision i j) dn dn' ht
    rw [eg] at kp
    exact .inl (same (w.fresh kp kp') rfl rfl rfl)
  · obtain ⟨_, hl, _⟩ := expand_unique (w.noExpand i j) si sj e e' hb (by omega) (by omega) hs
    omega
  · obtain ⟨_, hl, _⟩ := expand_unique (w.noExpand i j) si sj e e' hb (by omega) (by omega) hs
    omega
  · obtain ⟨_, _, ht, _⟩ := expand_unique (w.noExpand i j) si sj e e' hb (by omega) (by omega) hs
    subst ht
    obtain ⟨ex, ey⟩ := done3_same gi gj (w.noCollision i j) dn dn'
    rcases ro with ⟨r, g, kp⟩ | ⟨r, g, kp⟩ <;> rcases ro' with ⟨r', g', kp'⟩ | ⟨r', g', kp'⟩
    · rw [ex] at kp
      exact .inl (same (w.fresh kp kp') rfl rfl rfl)
    · exact .inr ⟨⟨n, n', rfl, rfl⟩, .inl ⟨r, r'⟩⟩
    · exact .inr ⟨⟨n, n', rfl, rfl⟩, .inr ⟨r, r'⟩⟩
    · rw [ey] at kp
      exact .inl (same (w.fresh kp kp') rfl rfl rfl)

/-- **C87** for message 3: its key serves for this one encryption, among all sessions and all messages. -/
theorem C87_message3_once (w : Sessions b W) {n : Nat} (x : EncryptsWith (W i) h (.compose3 n) k iv)
    (y : EncryptsWith (W j) h' o' k iv') (hb : b ≤ (W i).suite.aeadKey) : i = j ∧ h = h' ∧ o' = .compose3 n := by
  rcases C87_once_partial w x y hb with ⟨h1, h2, h3⟩ | ⟨⟨_, _, h1, _⟩, _⟩
  · exact ⟨h1, h2, h3.symm⟩
  · cases h1

/-- **C87**, if message 4 is composed by Responders: two encryptions with the same AEAD key are the same encryption. -/
theorem C87_once_of_role (w : Sessions b W) (hr : ∀ i, FourFromResponder (W i)) (x : EncryptsWith (W i) h o k iv)
    (y : EncryptsWith (W j) h' o' k iv') (hb : b ≤ (W i).suite.aeadKey) : i = j ∧ h = h' ∧ o = o' := by
  have inh : ∀ {l : ι} {g : History} {o : Op} {u : Bytes}, EncryptsWith (W l) g o k u → ∃ r, (o, r) ∈ (W l).hist := by
    rintro l g o u ⟨_, _, _, _, _, ⟨r, t, _, _, hh, _⟩, _⟩
    exact ⟨r, by rw [hh]; simp⟩
  rcases C87_once_partial w x y hb with h1 | ⟨⟨n, n', rfl, rfl⟩, ⟨h1, _⟩ | ⟨_, h1⟩⟩
  · exact h1
  · obtain ⟨r, hm⟩ := inh x
    exact absurd hm (hr i h1 n r)
  · obtain ⟨r, hm⟩ := inh y
    exact absurd hm (hr j h1 n' r)

end

/-! ## Both ends compose message 4 -/

namespace Toy

/-- a handshake with method 3 after which both ends compose message 4 -/
def bothEnds : Bool → Node
  | true => node alice (beforeM3 ++ [Op.compose3 100] ++ [.compose4 100])
  | false => node bob (beforeM4 ++ [.compose4 100])

theorem bothEnds_check : ([true, false].all fun b =>
    networkB (keyOf b) (keyOf !b) (bothEnds b).calls (bothEnds !b).calls &&
      [true, false].all fun a => noExpandB (bothEnds b).calls (bothEnds a).calls &&
        noCollisionB (bothEnds b).calls (bothEnds a).calls && decide (4 ≤ (bothEnds b).suite.hash) &&
        decide (4 ≤ (bothEnds b).suite.aeadKey)) = true := by
  decide +kernel

theorem bothEnds_proper : (checkB alice (beforeM3 ++ [.compose3 100] ++ [.compose4 100]) &&
    checkB bob (beforeM4 ++ [.compose4 100])) = true := by decide +kernel

theorem bothEnds_hold : Sessions 4 bothEnds := by
  have hb : ∀ b, _ := fun b => Bool.and_eq_true _ _ ▸ List.all_eq_true.1 bothEnds_check b (by cases b <;> simp)
  have hc : ∀ b a, (noExpandB (bothEnds b).calls (bothEnds a).calls = true ∧
      noCollisionB (bothEnds b).calls (bothEnds a).calls = true) ∧ 4 ≤ (bothEnds b).suite.hash := by
    intro b a
    have := List.all_eq_true.1 (hb b).2 a (by cases a <;> simp)
    simp only [Bool.and_eq_true, decide_eq_true_eq] at this
    exact ⟨this.1.1, this.1.2⟩
  have it : ∀ {c}, c = credI ∨ c = credR → Item (idCred c) ∧ Item (cred c) := by
    rintro c (rfl | rfl)
    · exact cred_items.1
    · exact cred_items.2
  refine ⟨fun b => ?_, fun b => (hc b b).2, fun a b => noCollision_of (hc a b).1.2, fun a b => noExpand_of (hc a b).1.1 4, ?_⟩
  · have h := (hb b).1
    refine ⟨?_, fun hc => it ((networkB_rest h hc).1 _ _ rfl), fun hc => it ((networkB_rest h hc).2.1 _ _ _ rfl).1,
      fun hc => (networkB_rest h hc).2.2.2.2.1 _ _ _ _ rfl, fun hc => (networkB_rest h hc).2.2.2.2.2.1 _ _ _ rfl⟩
    have hp := bothEnds_proper
    rw [Bool.and_eq_true] at hp
    cases b
    · exact node_proper hp.2
    · exact node_proper hp.1
  · rintro i j x y g ⟨k, hk⟩ ⟨k', hk'⟩
    have h1 : Ev.makeKeyPair k (some (x, g)) ∈ _ := hk.subset (by simp)
    have h2 : Ev.makeKeyPair k' (some (y, g)) ∈ _ := hk'.subset (by simp)
    refine Classical.byContradiction fun e => ?_
    have : j = !i := by cases i <;> cases j <;> simp_all
    subst this
    exact (networkB_rest (hb i).1 h1).2.2.2.2.2.2.2 _ _ _ rfl _ _ h2

/-- a call of a toy session -/
theorem inCall {p : Party} {ops rest : List Op} {o : Op}
    (h : ((hst p (ops ++ o :: rest)).all fun p => !isUb p.2 && !restarts p.1) = true) :
    InCall (node p (ops ++ o :: rest)) (hst p ops) o (during (after p ops) (after p (ops ++ [o]))) := by
  have happ : ∀ (rest ops : List Op) (s : St Unit), hist (env p) cfg (ops ++ o :: rest) s =
      ((hist (env p) cfg ops s).1 ++ (o, (step (env p) cfg o (hist (env p) cfg ops s).2).1) ::
        (hist (env p) cfg rest (step (env p) cfg o (hist (env p) cfg ops s).2).2).1,
        (hist (env p) cfg rest (step (env p) cfg o (hist (env p) cfg ops s).2).2).2) := by
    intro rest ops
    induction ops with
    | nil => intro s; rfl
    | cons q qs ih => intro s; simp only [List.cons_append, hist, ih]
  have e1 : hst p (ops ++ o :: rest) = hst p ops ++ (o, (step (env p) cfg o (after p ops)).1) ::
      (hist (env p) cfg rest (step (env p) cfg o (after p ops)).2).1 := by
    unfold hst after; rw [happ]
  have e2 : after p (ops ++ [o]) = (step (env p) cfg o (after p ops)).2 := by
    unfold after; rw [happ]; rfl
  have e3 : after p (ops ++ o :: rest) = (hist (env p) cfg rest (after p (ops ++ [o]))).2 := by
    rw [e2]; unfold after; rw [happ]
  have h0 := h
  rw [e1, List.all_append, Bool.and_eq_true, List.all_cons, Bool.and_eq_true] at h0
  refine ⟨(step (env p) cfg o (after p ops)).1,
    (hist (env p) cfg rest (after p (ops ++ [o]))).1, after p ops, after p (ops ++ [o]), by rw [e2]; exact e1,
    session _ _ h0.1, by rw [e2]; rfl, ?_, ?_, rfl⟩
  · intro u hu
    have := h0.2.1
    simp [hu, isUb] at this
  · show Run (env p) cfg (after p (ops ++ [o])) _ (after p (ops ++ o :: rest))
    rw [e3]
    refine hist_run _ _ ?_
    rw [e2]
    have := h0.2.2
    simp only [List.all_eq_true, Bool.and_eq_true, Bool.not_eq_true'] at this ⊢
    exact fun q hq => (this q hq).1

@[inherit_doc inCall] theorem encrypts {p : Party} {ops rest : List Op} {o : Op} {k iv : Bytes}
    (h : ((hst p (ops ++ o :: rest)).all fun p => !isUb p.2 && !restarts p.1) = true)
    (hm : ∃ kid aad pt ct, [.importKey .encrypt k (some kid), .encrypt kid iv aad pt ct] <:+:
      during (after p ops) (after p (ops ++ [o]))) : EncryptsWith (node p (ops ++ o :: rest)) (hst p ops) o k iv := by
  obtain ⟨kid, aad, pt, ct, hm⟩ := hm
  exact ⟨_, kid, aad, pt, ct, inCall h, hm⟩

theorem bothEnds_I : EncryptsWith (bothEnds true) (hst alice (beforeM3 ++ [.compose3 100])) (.compose4 100)
    [228, 230, 232, 249] [203, 205, 222] :=
  encrypts (p := alice) (ops := beforeM3 ++ [Op.compose3 100]) (rest := []) (o := .compose4 100)
    (k := [228, 230, 232, 249]) (iv := [203, 205, 222]) (by decide +kernel)
    ⟨[228, 230, 232, 249], [131, 104, 69, 110, 99, 114, 121, 112, 116, 48, 64, 68, 138, 224, 138, 224], [],
      some [52, 162, 52], by decide +kernel⟩

theorem bothEnds_R : EncryptsWith (bothEnds false) (hst bob beforeM4) (.compose4 100) [228, 230, 232, 249]
    [203, 205, 222] :=
  encrypts (p := bob) (ops := beforeM4) (rest := []) (o := .compose4 100) (by decide +kernel)
    ⟨[228, 230, 232, 249], [131, 104, 69, 110, 99, 114, 121, 112, 116, 48, 64, 68, 138, 224, 138, 224],
      [24, 100, 66, 1, 2], some [24, 100, 66, 1, 2, 146, 17, 146], by decide +kernel⟩

/-- the Initiator of the toy handshake encrypts message 3 -/
theorem encrypts3 : EncryptsWith (network 3 true) (hst alice beforeM3) (.compose3 100) [239, 241, 243, 4] [214, 216, 233] := by
  have e : callsI 3 ++ exports = beforeM3 ++ .compose3 100 :: ([.process4 (msg 3 4)] ++ exports) := by decide +kernel
  have : network 3 true = node alice (beforeM3 ++ .compose3 100 :: ([.process4 (msg 3 4)] ++ exports)) := by
    rw [← e]; rfl
  rw [this]
  exact encrypts (by decide +kernel) ⟨[239, 241, 243, 4],
    [131, 104, 69, 110, 99, 114, 121, 112, 116, 48, 64, 68, 137, 140, 137, 140], [5, 66, 140, 253, 34],
    some [5, 66, 140, 253, 34, 216, 141, 216], by decide +kernel⟩

theorem four_check : ((network 3 true).hist.all fun q => match q.1 with | .compose4 _ => false | _ => true) = true ∧
    ((network 3 false).hist.all fun q => match q.1 with | .compose1 _ => false | _ => true) = true := by decide +kernel

theorem four_holds (b : Bool) : FourFromResponder (network 3 b) := by
  intro hi n r hm
  cases b
  · obtain ⟨n, m, hi⟩ := hi
    have := List.all_eq_true.1 four_check.2 _ hi
    simp at this
  · have := List.all_eq_true.1 four_check.1 _ hm
    simp at this

end Toy

/-- **C87** fails: after one handshake the Initiator and the Responder both encrypt a message 4, with the same key and
the same nonce, but not the same plaintext. -/
theorem C87_violated : ∃ k iv h h', Sessions 4 Toy.bothEnds ∧ 4 ≤ (Toy.bothEnds true).suite.aeadKey ∧
    EncryptsWith (Toy.bothEnds true) h (.compose4 100) k iv ∧ EncryptsWith (Toy.bothEnds false) h' (.compose4 100) k iv ∧
    ∃ kid aad pt pt' ct ct', Ev.encrypt kid iv aad pt ct ∈ (Toy.bothEnds true).calls ∧
      Ev.encrypt kid iv aad pt' ct' ∈ (Toy.bothEnds false).calls ∧ pt ≠ pt' :=
  ⟨[228, 230, 232, 249], [203, 205, 222], Toy.hst Toy.alice (beforeM3 ++ [.compose3 100]), Toy.hst Toy.bob beforeM4,
    Toy.bothEnds_hold, by decide +kernel,
    Toy.bothEnds_I, Toy.bothEnds_R,
    [228, 230, 232, 249], [131, 104, 69, 110, 99, 114, 121, 112, 116, 48, 64, 68, 138, 224, 138, 224], [],
    [24, 100, 66, 1, 2], some [52, 162, 52], some [24, 100, 66, 1, 2, 146, 17, 146], by decide +kernel, by decide +kernel,
    by decide⟩

/-- Non-vacuity of the partial theorem: the case that is missing. -/
example : Initiates (Toy.bothEnds true) ∧ Responds (Toy.bothEnds false) := by
  obtain ⟨k, iv, h, h', w, hb, x, y, _⟩ := C87_violated
  rcases C87_once_partial w x y hb with ⟨h, _⟩ | ⟨_, h | ⟨⟨m, h⟩, _⟩⟩
  · cases h
  · exact h
  · exact absurd h (by
      have : ((Toy.bothEnds true).hist.all fun q => match q.1 with | .process1 _ => false | _ => true) = true := by
        decide +kernel
      intro hm
      have := List.all_eq_true.1 this _ hm
      simp at this)

/-- Non-vacuity of the others: the toy handshake with method 3. -/
example := C87_message3_once (Toy.sessions_hold (by decide)) Toy.encrypts3 Toy.encrypts3 (by decide +kernel)
example := C87_once_of_role (Toy.sessions_hold (by decide)) Toy.four_holds Toy.encrypts3 Toy.encrypts3 (by decide +kernel)

end Verif
