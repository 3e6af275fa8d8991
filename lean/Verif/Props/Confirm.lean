import Verif.Seal
import Verif.SpecConfirm
import Verif.Props.Agreement

/-!
# C67: message 4 confirms that the Responder accepted message 3
-/

namespace Verif

open M Spec

section
variable {N : Node} {h1 : History} {a b : St N.σ} {r : Res Out}

/-- the transcript hash of a complete handshake stays -/
theorem placed_late {o : Op} (g : N.Good) (p : Placed N.env N.cfg N.start N.log N.hist N.state h1 o r a b)
    (hm : messages h1 ≠ []) : (a.ctx.status = .completed → N.state.ctx.th = a.ctx.th) ∧
      (b.ctx.status = .completed → N.state.ctx.th = b.ctx.th) := by
  obtain ⟨h2, he, hr⟩ := p.split
  have hs := g.session
  have hset := g.proper.settled
  obtain ⟨k, ks, hk⟩ := List.exists_cons_of_ne_nil hm
  obtain ⟨g1, o1, x, h3, _, _, e1, hk1, _⟩ := first_message p.before.1 hk
  rw [he, e1, List.append_assoc, List.cons_append] at hset
  have hc := settled_suffix hk1 hset
  have hn : ∀ q ∈ (o, r) :: h2, restarts q.1 = false := fun q hq => hs.2 q (by
    rw [he]; simp only [List.mem_append]; exact .inr hq)
  have hc : ∀ q ∈ (o, r) :: h2, reconf q = false := fun q hq => hc q (by simp only [List.mem_append]; exact .inr hq)
  constructor
  · intro hl
    exact (keep_proj (late_keep (.cons p.step p.defined hr) hn hc (.inl hl))).1
  · intro hl
    exact (keep_proj (late_keep hr (fun q hq => hn q (List.mem_cons_of_mem _ hq))
      (fun q hq => hc q (List.mem_cons_of_mem _ hq)) (.inl hl))).1

theorem okCompleted_status {c : Ctx} (h : okCompleted c = true) : c.status = .completed := by
  simp only [okCompleted, Bool.and_eq_true, beq_iff_eq] at h
  exact h.1.1

/-- what a session knows of the transcript after message 2, and the hash of message 3 -/
structure Done3 (N : Node) (d : Data3) (p3 th4 : Bytes) : Prop where
  done : ∃ a, Done2 N a d
  hash : HashCall N.calls (encBstr d.th3 ++ p3) th4
  now : N.state.ctx.th = th4

theorem initiator_done3 (g : N.Good) {n : Nat} {m3 : Bytes} (hm : (.compose3 n, .ok (.bytes m3)) ∈ N.hist) :
    ∃ d p3 th4, Done3 N d p3 th4 ∧ (∃ n, (.compose1 n, .ok (.bytes d.m1)) ∈ N.hist) ∧
      (d.gy.length = N.suite.eccKey ∧ ∃ m2 c, (.process2 m2, .ok .unit) ∈ N.hist ∧ StartsBstr (d.gy ++ c) m2) ∧
      ∃ x, KeyPairCall N.calls x d.gx := by
  obtain ⟨h1, a, b, p⟩ := session_at g.session hm
  obtain ⟨_, h0, _⟩ := mapOut_ok.1 p.step
  obtain ⟨kid, v, c3⟩ := message3Compose_ok h0
  obtain ⟨m1, gx, gy, th1, th2, cr, pt, dn, in1, in2, kp⟩ := initiator_done2 g p c3.state [] [] [] []
  have hne : messages h1 ≠ [] := by
    obtain ⟨_, _, _, _, _, _, _, e, _⟩ := stage_verified2 p.before (p.settled g.proper.settled) c3.state
    rw [e]; simp
  refine ⟨_, v.ptxt ++ cred v.cred, v.th4, ⟨⟨a, dn⟩, ?_, ?_⟩, in1, in2, kp⟩
  · have := c3.th4.call.mono (placed_sub p)
    rwa [List.append_assoc] at this
  · rw [(placed_late g p hne).2 (by rw [c3.ctx]), c3.ctx]

theorem responder_done3 (g : N.Good) {m3 : Bytes} (hm : (.process3 m3, .ok .unit) ∈ N.hist) :
    ∃ d p3 th4, Done3 N d p3 th4 ∧ (.process1 d.m1, .ok .unit) ∈ N.hist ∧
      (∃ n m2, (.compose2 n, .ok (.bytes m2)) ∈ N.hist) ∧ (∃ y, KeyPairCall N.calls y d.gy) ∧
      N.state.ctx.cid = d.cr := by
  obtain ⟨h1, a, b, p⟩ := session_at g.session hm
  obtain ⟨_, h0, _⟩ := mapOut_ok.1 p.step
  obtain ⟨pt, id, pk, v, c3⟩ := message3Process_ok h0
  obtain ⟨m1, gx, gy, th1, th2, pt, dn, in1, in2, kp⟩ := responder_done2 g p c3.state [] [] [] []
  have hne : messages h1 ≠ [] := by
    obtain ⟨_, _, _, _, _, _, _, e, _⟩ := stage_wait3 p.before (p.settled g.proper.settled) c3.state
    rw [e]; simp
  refine ⟨_, v.ptxt ++ cred v.cred, v.th4, ⟨⟨a, dn⟩, ?_, ?_⟩, in1, in2, ⟨_, kp⟩, dn.env.cid⟩
  · have := c3.th4.call.mono (placed_sub p)
    rwa [List.append_assoc] at this
  · rw [(placed_late g p hne).2 (by rw [c3.ctx]), c3.ctx]

/-- the data of the handshake -/
def data4 (d : Data3) (p3 th4 idc crd : Bytes) : Data4 :=
  ⟨d.method, d.suite, d.m1, d.gx, d.gy, d.th1, d.th2, d.th3, th4, d.cr, d.ptxt2Cred, p3, idc, crd⟩

theorem Done3.shares {d : Data3} {p3 th4 : Bytes} (h : Done3 N d p3 th4) (idc crd : Bytes) :
    Shares4 N (data4 d p3 th4 idc crd) := by
  obtain ⟨⟨a, h1⟩, h2, h3⟩ := h
  obtain ⟨x, r, hx, hr, _⟩ := h1.more
  exact ⟨h1.env.method.trans h1.method.symm, by rw [h1.env.suite]; exact h1.suite.symm, h1.message1, h1.th1, h1.th2, h1.th3,
    h2, ⟨x, r, hx, hr⟩, h3⟩

/-- who encrypts, and when -/
theorem seal_event (g : N.Good) {k iv aad pt ct : Bytes} (h : EncryptCall N.calls k iv aad pt ct) :
    (∃ d kid h1 n r a b, Placed N.env N.cfg N.start N.log N.hist N.state h1 (.compose3 n) r a b ∧ Done2 N a d ∧
        aad = encStructure d.th3 ∧ (∃ x, KeyPairCall N.calls x d.gx) ∧ Ev.encrypt kid iv aad pt (some ct) ∈ during a b) ∨
      ∃ h1 n r a b, Placed N.env N.cfg N.start N.log N.hist N.state h1 (.compose4 n) r a b ∧ okCompleted a.ctx = true ∧
        aad = encStructure N.state.ctx.th ∧ a.log ≠ b.log := by
  obtain ⟨kid, hm⟩ := h
  have hi : Ev.encrypt kid iv aad pt (some ct) ∈ N.calls := hm.subset (by simp)
  obtain ⟨h1, op, r, a, b, p, hv⟩ := session_locate g.session hi
  have hp := within_mem (C33_performs p.step p.defined) .encrypt hv
  have def0 : ∀ {α : Type} {f : α → Out} {r0 : Res α}, ((∃ a, r0 = .ok a ∧ r = .ok (f a)) ∨ (∃ e, r0 = .err e ∧ r = .err e) ∨
      ∃ u, r0 = .ub u ∧ r = .ub u) → r0.Defined := by
    rintro α f r0 (⟨a, rfl, _⟩ | ⟨e, rfl, _⟩ | ⟨u, rfl, rfl⟩)
    · simp
    · simp
    · exact absurd rfl (p.defined u)
  cases op
  case compose3 n =>
    obtain ⟨r0, h0, hr⟩ := mapOut_cases p.step
    obtain ⟨h2, h3⟩ := message3Compose_seal h0 (def0 hr) hv
    obtain ⟨m1, gx, gy, th1, th2, cr, pt, dn, _, _, kp⟩ := initiator_done2 g p h2 [] [] [] []
    exact Or.inl ⟨_, kid, h1, n, r, a, b, p, dn, by rw [h3], kp, hv⟩
  case compose4 n =>
    obtain ⟨r0, h0, hr⟩ := mapOut_cases p.step
    obtain ⟨h2, h3⟩ := message4Compose_seal h0 (def0 hr) hv
    have hst := okCompleted_status h2
    have hne : messages h1 ≠ [] := by
      have := past_session p.before
      rw [hst] at this
      rcases this with e | e <;> rw [e] <;> simp
    refine Or.inr ⟨h1, n, r, a, b, p, h2, ?_, ?_⟩
    · rw [h3, (placed_late g p hne).1 hst]
    · intro e
      unfold during at hv
      rw [← e, List.drop_length] at hv
      cases hv
  all_goals simp [performs] at hp

theorem encStructure_inj {a b : Bytes} (ha : SizeOk a) (hb : SizeOk b) (h : encStructure a = encStructure b) : a = b := by
  unfold encStructure at h
  exact (bstr_split (r := []) (r' := []) ha hb (by simpa using List.append_cancel_left h)).1

/-- A session that accepted message 4 did not encrypt message 4. -/
theorem not_both4 (g : N.Good) {n : Nat} {m4 : Bytes}
    (p : Placed N.env N.cfg N.start N.log N.hist N.state h1 (.compose4 n) r a b) (hc : okCompleted a.ctx = true)
    (hl : a.log ≠ b.log) (hm : (.process4 m4, .ok .unit) ∈ N.hist) : False := by
  obtain ⟨h2, he, hr⟩ := p.split
  have hp := past_session p.before
  rw [okCompleted_status hc] at hp
  have hm0 := hm
  rw [he] at hm
  have no1 : (Op.process4 m4, Res.ok Out.unit) ∉ h1 := by
    intro h
    have := message_mem h rfl
    rcases hp with e | e <;> rw [e] at this <;> simp at this
  rcases List.mem_append.1 hm with hm | hm
  · exact no1 hm
  rcases List.mem_cons.1 hm with hm | hm
  · simp at hm
  rcases step_message (k := .compose4) rfl p.step p.defined with ⟨_, _, rfl⟩ | ⟨_, _, _, rfl⟩ | ⟨_, _, _, _, _, _, hx⟩ |
    ⟨_, _, ⟨x, rfl⟩, _⟩
  · exact hl rfl
  · exact hl rfl
  · have hd : Dead N.env N.cfg b := over_dead (.inl (ctl1_proj hx).2.1)
    have := hd h2 _ hr (fun q hq => ?_) _ hm (by simp [callOf])
    · simp at this
    · have := g.session.2 q (by rw [he]; simp [hq])
      intro hq'
      rw [hq'] at this
      simp [restarts] at this
  · obtain ⟨q, hq, hpre⟩ := C01_handshake_order g.session
    have i1 := hpre.subset (message_mem p.mem rfl)
    have i2 := hpre.subset (message_mem hm0 rfl)
    simp only [roleSequences, List.mem_cons, List.not_mem_nil, or_false] at hq
    rcases hq with rfl | rfl | rfl | rfl <;> simp at i1 i2

end

section
variable {ι : Type} {W : ι → Node} {owns : ι → Bytes → Prop} {honest : Bytes → Prop} {i j : ι}

theorem Spec.Network.done2 (w : Network W owns honest) {d d' : Data3} {a : St (W i).σ} {b : St (W j).σ}
    (h : Done2 (W i) a d) (h' : Done2 (W j) b d') (e : d.th3 = d'.th3) :
    d.th2 = d'.th2 ∧ d.ptxt2Cred = d'.ptxt2Cred ∧ d.cr = d'.cr ∧
      d.gy = d'.gy ∧ d.th1 = d'.th1 ∧ d.m1 = d'.m1 ∧ d.method = d'.method ∧ d.suite = d'.suite ∧ d.gx = d'.gx := by
  have gi := w.good i
  have gj := w.good j
  have t := h'.th3
  rw [← e] at t
  obtain ⟨eh, ep⟩ := bstr_split (gi.th h.th2) (gj.th h'.th2) (w.noCollision i j h.th3 t)
  have ec : d.cr = d'.cr := by
    obtain ⟨x, r, hx, hr, _⟩ := h.more
    obtain ⟨x', r', hx', hr', _⟩ := h'.more
    rw [hr, hr'] at ep
    exact (cidItem_unamb hx hx' ep).1
  have t := h'.th2
  rw [← eh] at t
  obtain ⟨e1, e2⟩ := bstr_split h.gy h'.gy (w.noCollision i j h.th2 t)
  obtain ⟨e2, _⟩ := bstr_split (r := []) (r' := []) (gi.th h.th1) (gj.th h'.th1) (by simpa using e2)
  have t1 := h'.th1
  rw [← e2] at t1
  have e3 := w.noCollision i j h.th1 t1
  obtain ⟨l, m, n⟩ := h.message1
  obtain ⟨l', m', n'⟩ := h'.message1
  rw [← e3] at m'
  obtain ⟨e4, e0, e5⟩ := startsMessage1_unique m m'
  rw [← e0, n, Option.some.injEq] at n'
  exact ⟨eh, ep, ec, e1, e2, e3, by omega, n', e5⟩

/-- the input of TH_2 of one session is not the input of TH_3 of another -/
theorem Spec.Network.levels (w : Network W owns honest) {d d' : Data3} {a : St (W i).σ} {b : St (W j).σ}
    (h : Done2 (W i) a d) (h' : Done2 (W j) b d') : d.th3 ≠ d'.th2 := by
  intro e
  have t := h'.th2
  rw [← e] at t
  have e := w.noCollision i j h.th3 t
  obtain ⟨_, e⟩ := bstr_split ((w.good i).th h.th2) h'.gy e
  obtain ⟨x, r, hx, hr, h0⟩ := h.more
  rw [hr, ← List.append_nil (encBstr _)] at e
  exact h0 (item_split (CidItem.item hx) (BstrItem.item (encBstr_item ((w.good j).th h'.th1))) e).2

/-- **C67.** If an Initiator accepts message 4 and the Responder's key is honest, a session of the owner of that key, as
Responder, has accepted message 3: it has the same method, cipher suite, message 1, ephemeral keys, connection identifier,
plaintexts and transcript hashes, up to TH_4, has supplied the credential the Initiator accepted, and has called
`edhoc_message_4_compose`. -/
theorem C67_confirmation (w : Network W owns honest) (se : Sealed W honest) {n : Nat} {m1 m4 : Bytes}
    (h1 : (.compose1 n, .ok (.bytes m1)) ∈ (W i).hist) (hm : (.process4 m4, .ok .unit) ∈ (W i).hist) :
    ∃ d pk, Accepted4 (W i) m4 d pk ∧ (honest pk → ∃ j, j ≠ i ∧ owns j pk ∧ Answered4 (W j) d) := by
  have g := w.good i
  obtain ⟨hh, a, b, p⟩ := session_at g.session hm
  obtain ⟨_, h0, _⟩ := mapOut_ok.1 p.step
  obtain ⟨k, iv, ct, pt, c4⟩ := message4Process_ok h0
  have hst := okCompleted_status c4.state
  have hp := past_session p.before
  rw [hst] at hp
  have hp : messages hh = [.compose1, .process2, .compose3] := by
    rcases hp with e | e
    · exact e
    · obtain ⟨_, _, _, _, _, _, _, _, _, ch⟩ := responder_chain p.before (p.settled g.proper.settled) e
      exact (one_role g h1 (p.sub ch.in1)).elim
  obtain ⟨n1, n3, m1', m2, m3, s1, s2, s3, s4, h4, ch⟩ := initiator_chain p.before (p.settled g.proper.settled) hp
  have ev := placed_env g p (by rw [hp]; simp)
  have i2 := placed_sub p
  have now := (placed_late g p (by rw [hp]; simp)).1 hst
  obtain ⟨d, p3, th4, dn, in1, ⟨lg, m2', c, in2, sb⟩, kp⟩ := initiator_done3 g (p.sub ch.in3)
  obtain ⟨d2, pk, ac, ho⟩ := C66_initiator w in2
  have eg : d.gy = d2.gy := by
    obtain ⟨l', c', st'⟩ := ac.received
    obtain ⟨_, _, x1, x2⟩ := sb
    obtain ⟨_, _, y1, y2⟩ := st'
    have eb := (bstrItem_unamb x1 y1 (x2.symm.trans y2)).1
    exact (List.append_inj eb (lg.trans l'.symm)).1
  refine ⟨data4 d p3 th4 d2.idCred d2.cred, pk, ⟨dn.shares _ _, in1, ⟨_, in2⟩, ⟨_, _, p.sub ch.in3⟩, hm, kp, ac.peer⟩, ?_⟩
  intro hpk
  obtain ⟨id, cc, acc, _⟩ := ac.peer
  obtain ⟨j', hj', own', an⟩ := ho hpk
  obtain ⟨j, hen⟩ := se hpk acc ((c4.keys.1.call ev.small.1).mono i2) (c4.decrypted.call.mono i2)
  have gj := w.good j
  have sz : SizeOk a.ctx.th := by
    rw [← now, dn.now]; exact g.th dn.hash
  obtain ⟨⟨a2, dn2⟩, hash, now'⟩ := dn
  rcases seal_event gj hen with ⟨d', _, _, _, _, a', _, _, dn', e, _⟩ | ⟨hj, n', r', a', b', pj, hc, e, hlog⟩
  · have e := encStructure_inj sz (gj.th dn'.th3) e
    have t := dn'.th3
    rw [← e, ← now, now'] at t
    obtain ⟨e, _⟩ := bstr_split (g.th dn2.th3) (gj.th dn'.th2) (w.noCollision i j hash t)
    exact absurd e (w.levels dn2 dn')
  · have hpj := past_session pj.before
    rw [okCompleted_status hc] at hpj
    -- the hashes are the same
    have same : ∀ {d' p3' th4'}, Done3 (W j) d' p3' th4' → th4 = th4' ∧ p3 = p3' ∧ d.th3 = d'.th3 ∧
        d.th2 = d'.th2 ∧ d.ptxt2Cred = d'.ptxt2Cred ∧ d.cr = d'.cr ∧ d.gy = d'.gy ∧ d.th1 = d'.th1 ∧ d.m1 = d'.m1 ∧
        d.method = d'.method ∧ d.suite = d'.suite ∧ d.gx = d'.gx := by
      rintro d' p3' th4' ⟨⟨a3, dn3⟩, hash', now''⟩
      rw [now''] at e
      have e := encStructure_inj sz (gj.th hash') e
      rw [← now, now'] at e
      have t := hash'
      rw [← e] at t
      obtain ⟨e3, e4⟩ := bstr_split (g.th dn2.th3) (gj.th dn3.th3) (w.noCollision i j hash t)
      exact ⟨e, e4, e3, w.done2 dn2 dn3 e3⟩
    rcases hpj with hpj | hpj
    · obtain ⟨_, _, _, _, _, _, _, _, _, _, chj⟩ := initiator_chain pj.before (pj.settled gj.proper.settled) hpj
      obtain ⟨d', p3', th4', dn', _, _, x, kx⟩ := initiator_done3 gj (pj.sub chj.in3)
      obtain ⟨_, _, _, _, _, _, _, _, _, _, _, eqgx⟩ := same dn'
      obtain ⟨y, ky⟩ := kp
      rw [← eqgx] at kx
      have := w.fresh ky kx
      subst this
      exact (not_both4 g pj hc hlog hm).elim
    · obtain ⟨_, _, _, _, _, _, _, _, _, chj⟩ := responder_chain pj.before (pj.settled gj.proper.settled) hpj
      obtain ⟨d', p3', th4', dn', r1, r2, ⟨y, ky⟩, ci⟩ := responder_done3 gj (pj.sub chj.in3)
      obtain ⟨e1, e2, e3, e4, e5, e6, e7, e8, e9, e10, e11, e12⟩ := same dn'
      obtain ⟨y', ky'⟩ := an.ephemeral
      have ky0 := ky
      rw [← e7, eg] at ky0
      have := w.fresh ky' ky0
      subst this
      have ed : data4 d p3 th4 d2.idCred d2.cred = data4 d' p3' th4' d2.idCred d2.cred := by
        unfold data4; rw [e1, e2, e3, e4, e5, e6, e7, e8, e9, e10, e11, e12]
      refine ⟨j', hj', own', ?_⟩
      rw [ed]
      exact ⟨dn'.shares _ _, r1, r2, ⟨_, pj.sub chj.in3⟩, ⟨n', r', pj.mem⟩, ⟨y, ky⟩, an.own, ci⟩

end

/-! ## Non-vacuity -/

namespace Toy

/-- everything that was decrypted in the calls `L` was encrypted in the calls `L'` -/
def sealedB (L L' : List Ev) : Bool :=
  L.all fun v => match v with
    | .importKey .decrypt raw (some kid) => raw == kid
    | .decrypt k iv aad ct (some pt) =>
      decide ([.importKey .encrypt k (some k), .encrypt k iv aad pt (some ct), .destroyKey k] <:+: L')
    | _ => true

theorem sealed_check : (methods.all fun m => [true, false].all fun b =>
    sealedB (network m b).calls (network m !b).calls) = true := by decide +kernel

theorem sealed_holds {m : Nat} (hm : m ∈ methods) : Sealed (network m) (fun pk => pk = keyOf true ∨ pk = keyOf false) := by
  rintro i id c pk prk th n k iv aad pt ct _ _ _ ⟨kid, h⟩
  have hb : sealedB (network m i).calls (network m !i).calls = true :=
    List.all_eq_true.1 (List.all_eq_true.1 sealed_check m hm) i (by cases i <;> simp)
  have h1 := List.all_eq_true.1 hb (.importKey .decrypt k (some kid)) (h.subset (by simp))
  have h2 := List.all_eq_true.1 hb (.decrypt kid iv aad ct (some pt)) (h.subset (by simp))
  simp only [beq_iff_eq, decide_eq_true_eq] at h1 h2
  subst h1
  exact ⟨!i, k, h2⟩

theorem confirm_calls : (methods.all fun m =>
    ((network m true).hist.any fun q => match q with | (.compose1 _, .ok (.bytes _)) => true | _ => false) &&
    ((network m true).hist.any fun q => match q with | (.process4 _, .ok .unit) => true | _ => false)) = true := by
  decide +kernel

end Toy

/-- Non-vacuity: with every method, the Initiator of the toy handshake accepts message 4, and the Responder has accepted
message 3 with the same data. -/
example : ∀ m ∈ Toy.methods, ∃ m4 d, Accepted4 (Toy.network m true) m4 d (Toy.keyOf false) ∧
    Answered4 (Toy.network m false) d := by
  intro m hm
  have hc := List.all_eq_true.1 Toy.network_check m hm
  have hb : ∀ b, Toy.networkB (Toy.keyOf b) (Toy.keyOf !b) (Toy.network m b).calls (Toy.network m !b).calls = true := fun b =>
    List.all_eq_true.1 hc b (by cases b <;> simp)
  have h := List.all_eq_true.1 Toy.confirm_calls m hm
  simp only [Bool.and_eq_true, List.any_eq_true] at h
  obtain ⟨⟨p, hp, hp'⟩, q, hq, hq'⟩ := h
  split at hp'
  · split at hq'
    · obtain ⟨d, pk, a, hx⟩ := C67_confirmation (Toy.network_holds hm) (Toy.sealed_holds hm) hp hq
      obtain ⟨id, c, hca, _⟩ := a.peer
      have e := ((Toy.networkB_rest (hb true) hca).2.1 _ _ _ rfl).2
      simp only [Option.some.injEq, Bool.not_true] at e
      subst e
      obtain ⟨j, hj, _, an⟩ := hx (.inr rfl)
      cases j
      · exact ⟨_, d, a, an⟩
      · exact absurd rfl hj
    · cases hq'
  · cases hp'

end Verif
