import Verif.Once
import Verif.SpecMatching
import Verif.Props.Confirm
import Verif.Props.Mirror
import Verif.Props.Peer
import Verif.Props.Secrets

/-!
# C68: matching sessions export the same keys
-/

namespace Verif

open M Spec

theorem Spec.Faithful.sub {P : Prims} {sk : Bytes → Bytes} {L L' : List Ev} (i : L <:+: L') (f : Faithful P sk L') :
    Faithful P sk L :=
  ⟨fun h => f.hash (h.mono i), fun h => f.extract (h.mono i), fun h => f.expand (h.mono i), fun h => f.keyPair (h.mono i),
    fun h => f.agree (h.mono i), fun h h' => f.agreeStatic (h.mono i) (h'.mono i), fun h => f.enc (h.mono i),
    fun h => f.dec (h.mono i)⟩

/-- The views of two sessions with the same TH_3 have the same keys. -/
theorem views_keys {P : Prims} {kI kR : Bytes → Bytes} {LI LR : List Ev} {su : Suite} {meI meR : Nat}
    {m1 m2 m3 x kidI pkR m1' m2' m3' y kidR pkI : Bytes} {v w : Values}
    (dh : ∀ x y, P.priv x → P.priv y → P.dh x (P.pub y) = P.dh y (P.pub x))
    (fI : Faithful P kI LI) (fR : Faithful P kR LR) (nc : NoCollision LI LR) (rI : Regular LI su) (rR : Regular LR su)
    (iv : InitiatorView LI su meI m1 m2 m3 x kidI pkR v) (rv : ResponderView LR su meR m1' m2' m3' y kidR pkI w)
    (oI : ∀ g o, AgreeStaticCall LI kidI g o → pkI = P.pub (kI kidI) ∧ P.priv (kI kidI))
    (oR : ∀ g o, AgreeStaticCall LR kidR g o → pkR = P.pub (kR kidR) ∧ P.priv (kR kidR)) (e : v.th3 = w.th3) :
    v.prk4e3m = w.prk4e3m ∧ m1 = m1' ∧ v.ptxt2 ++ cred v.credR = w.ptxt2 ++ cred w.credR ∧ v.prk3e2m = w.prk3e2m := by
  have gyI : SizeOk v.gy := by
    obtain ⟨_, _, _, h, _⟩ := iv.message2
    have := rI.ecc.2
    unfold SizeOk; omega
  have gyR : SizeOk w.gy := by
    obtain ⟨_, _, _, h⟩ := rv.message2
    have := rR.ecc.2
    unfold SizeOk; omega
  have sI : ∀ {i o}, HashCall LI i o → SizeOk o := fun h => regular_size rI h
  have sR : ∀ {i o}, HashCall LR i o → SizeOk o := fun h => regular_size rR h
  have t := rv.transcript.th3
  rw [← e] at t
  have e3 := nc iv.transcript.th3 t
  rw [List.append_assoc, List.append_assoc] at e3
  obtain ⟨e2, ep⟩ := bstr_split (sI iv.transcript.th2) (sR rv.transcript.th2) e3
  have t := rv.transcript.th2
  rw [← e2] at t
  obtain ⟨ey, e1⟩ := bstr_split gyI gyR (nc iv.transcript.th2 t)
  obtain ⟨e1, _⟩ := bstr_split (r := []) (r' := []) (sI iv.transcript.th1) (sR rv.transcript.th1) (by simpa using e1)
  have t := rv.transcript.th1
  rw [← e1] at t
  have em := nc iv.transcript.th1 t
  obtain ⟨l, st⟩ := iv.message1
  obtain ⟨l', st'⟩ := rv.message1
  rw [← em] at st'
  obtain ⟨eme, _, eg⟩ := startsMessage1_unique st st'
  have eme : meI = meR := by exact_mod_cast eme
  subst eme
  have kx := fI.keyPair iv.ephemeral
  have ky := fR.keyPair rv.ephemeral
  have exy : v.gxy = w.gxy := by
    rw [fI.agree iv.agreed, fR.agree rv.agreed, ey, ← eg, kx.1, ky.1, dh _ _ kx.2 ky.2]
  have e2e : v.prk2e = w.prk2e := by
    rw [fI.extract iv.keys.prk2e, fR.extract rv.keys.prk2e, e2, exy]
  have e3e : v.prk3e2m = w.prk3e2m := by
    have k := iv.keys.prk3e2m
    rw [e2e, e2] at k
    refine nextKey_agree fI fR k rv.keys.prk3e2m fun _ a b ha hb => ?_
    obtain ⟨p1, p2⟩ := oR _ _ hb
    rw [fI.agree ha, fR.agreeStatic rv.supplied hb, p1, ← eg, kx.1, dh _ _ kx.2 p2]
  refine ⟨?_, em, ep, e3e⟩
  have k := iv.keys.prk4e3m
  rw [e3e, e] at k
  refine nextKey_agree fI fR k rv.keys.prk4e3m fun _ a b ha hb => ?_
  obtain ⟨p1, p2⟩ := oI _ _ ha
  rw [fI.agreeStatic iv.supplied ha, fR.agree hb, p1, ey, ky.1, dh _ _ p2 ky.2]

section
variable {N : Node}

theorem complete_late {c : Ctx} {h : History} (hp : Past (messages h) c.status) (hc : complete h) : Late c := by
  unfold complete at hc
  unfold Late
  cases hs : c.status <;> rw [hs] at hp <;> simp only [Past] at hp <;> first
    | simp; done
    | (rw [hp] at hc; simp at hc)

/-- the session up to a call after the handshake -/
theorem proper_prefix {σ : Type} {E : Env σ} {cfg : Config} {e : σ} {log : List Ev} {h t : History} {o : Op} {r : Res Out}
    {s' : St σ} (g : Proper E cfg e log (h ++ (o, r) :: t) s') (hc : complete h) :
    ∃ b, Proper E cfg e log (h ++ [(o, r)]) b ∧ sessionCalls log b <:+: sessionCalls log s' ∧ s'.ctx.keep = b.ctx.keep := by
  have hs := g.session
  obtain ⟨a, ra, r2⟩ := run_append hs.1
  obtain ⟨b, st, hd, rb⟩ := run_cons r2
  have hn := hs.2
  have rab : Run E cfg ⟨Ctx.fresh, e, log⟩ (h ++ [(o, r)]) b := run_join ra (.cons st hd (.nil b))
  have sub : ∀ {q}, q ∈ h ++ [(o, r)] → q ∈ h ++ (o, r) :: t := by
    intro q hq
    simp only [List.mem_append, List.mem_cons, List.not_mem_nil, or_false] at hq ⊢
    rcases hq with hq | hq
    · exact .inl hq
    · exact .inr (.inl hq)
  have sb : Session E cfg e log (h ++ [(o, r)]) b := ⟨rab, fun q hq => hn q (sub hq)⟩
  have la := complete_late (past_session sb) (complete_append hc)
  have set := g.settled
  have hm : messages h ≠ [] := by
    intro e; unfold complete at hc; rw [e] at hc; simp at hc
  obtain ⟨k, ks, hk⟩ := List.exists_cons_of_ne_nil hm
  obtain ⟨g1, o1, x, h3, _, _, e1, hk1, _⟩ := first_message ra hk
  have hset : Settled (g1 ++ (o1, .ok x) :: (h3 ++ (o, r) :: t)) := by
    rw [e1] at set; simpa using set
  have hrc := settled_suffix hk1 hset
  have keep := late_keep rb (fun q hq => hn q (by simp [hq])) (fun q hq => hrc q (by simp [hq])) la
  have gr := run_grow rab
  have inf : sessionCalls log b <:+: sessionCalls log s' :=
    infix_of (s := ⟨Ctx.fresh, e, log⟩) (Saw.refl _) gr (run_grow rb)
  refine ⟨b, ⟨sb, ?_, ?_, ?_, fun q hq => g.short q (sub hq)⟩, inf, keep⟩
  · unfold Settled at *
    have : h ++ (o, r) :: t = (h ++ [(o, r)]) ++ t := by simp
    rw [this] at set
    exact (List.pairwise_append.1 set).1
  · have e : b.ctx.suite = s'.ctx.suite := (keep_proj keep).2.2.1.symm
    rw [e]
    have rg := g.regular
    exact ⟨rg.small, rg.ecc, fun i o h => rg.hash i o (inf.subset h)⟩
  · have e : suites s'.ctx = suites b.ctx := (congrArg Prod.fst (used_keep keep) :)
    have := g.numbers
    unfold SuiteNumbers at *
    rwa [e] at this

@[inherit_doc proper_prefix]
theorem prefix_session (g : N.Good) {h t : History} {o : Op} {r : Res Out} (hx : N.hist = h ++ (o, r) :: t) (hc : complete h) :
    ∃ b, Proper N.env N.cfg N.start N.log (h ++ [(o, r)]) b ∧ sessionCalls N.log b <:+: N.calls ∧ N.state.ctx.keep = b.ctx.keep :=
  proper_prefix (hx ▸ g.proper) hc

end

section
variable {ι : Type} {W : ι → Node} {owns : ι → Bytes → Prop} {honest : Bytes → Prop} {i j : ι} {P : Prims}
  {sk : ι → Bytes → Bytes}

/-- An Initiator and a Responder with the same TH_4. -/
structure Match (W : ι → Node) (owns : ι → Bytes → Prop) (i j : ι) : Prop where
  initiator : ∃ n m, (.compose1 n, .ok (.bytes m)) ∈ (W i).hist
  responder : ∃ m, (.process1 m, .ok .unit) ∈ (W j).hist
  th : (W i).state.ctx.th = (W j).state.ctx.th
  suite : (W i).suite = (W j).suite
  keyR : ∀ {id c pk}, CredAccepted (W i).calls id c pk → owns j pk
  keyI : ∀ {id c pk}, CredAccepted (W j).calls id c pk → owns i pk

/-- what the views of the two sides have in common -/
theorem Match.keys (m : Match W owns i j) (w : Network W owns honest) (sh : Shared P sk W owns)
    {hI hR : History} {a : St (W i).σ} {b : St (W j).σ} {m1 m2 m3 x kidI pkR m1' m2' m3' y kidR pkI : Bytes} {v v' : Values}
    (pI : Proper (W i).env (W i).cfg (W i).start (W i).log hI a) (pR : Proper (W j).env (W j).cfg (W j).start (W j).log hR b)
    (iI : sessionCalls (W i).log a <:+: (W i).calls) (iR : sessionCalls (W j).log b <:+: (W j).calls)
    (kI : (W i).state.ctx.keep = a.ctx.keep) (kR : (W j).state.ctx.keep = b.ctx.keep)
    (iv : InitiatorView (sessionCalls (W i).log a) a.ctx.suite a.ctx.chosenMethod m1 m2 m3 x kidI pkR v)
    (rv : ResponderView (sessionCalls (W j).log b) b.ctx.suite b.ctx.chosenMethod m1' m2' m3' y kidR pkI v')
    (tI : a.ctx.th = v.th4) (tR : b.ctx.th = v'.th4) :
    v.th4 = v'.th4 ∧ v.prk4e3m = v'.prk4e3m ∧ m1 = m1' ∧ v.ptxt2 ++ cred v.credR = v'.ptxt2 ++ cred v'.credR ∧
      a.ctx.suite = b.ctx.suite := by
  have su : a.ctx.suite = b.ctx.suite := by
    rw [← (keep_proj kI).2.2.1, ← (keep_proj kR).2.2.1]; exact m.suite
  have e4 : v.th4 = v'.th4 := by
    rw [← tI, ← tR, ← (keep_proj kI).1, ← (keep_proj kR).1]; exact m.th
  have nc : NoCollision (sessionCalls (W i).log a) (sessionCalls (W j).log b) :=
    fun h h' => w.noCollision i j (h.mono iI) (h'.mono iR)
  have rI := pI.regular
  have rR := pR.regular
  rw [← su] at rv rR
  have e3 : v.th3 = v'.th3 := by
    have t := rv.transcript.th4
    rw [← e4] at t
    have := nc iv.transcript.th4 t
    rw [List.append_assoc, List.append_assoc] at this
    exact (bstr_split (regular_size rI iv.transcript.th3) (regular_size rR rv.transcript.th3) this).1
  obtain ⟨_, aI⟩ := iv.accepted
  obtain ⟨_, aR⟩ := rv.accepted
  obtain ⟨k1, k2, k3, _⟩ := views_keys sh.dh ((sh.faithful i).sub iI) ((sh.faithful j).sub iR) nc rI rR iv rv
    (fun g o h => sh.owner (m.keyI (aR.mono iR)) (iv.supplied.mono iI) (h.mono iI))
    (fun g o h => sh.owner (m.keyR (aI.mono iI)) (rv.supplied.mono iR) (h.mono iR)) e3
  exact ⟨e4, k1, k2, k3, su⟩

theorem Match.noResponder (m : Match W owns i j) (w : Network W owns honest) {m1 : Bytes} :
    (Op.process1 m1, Res.ok Out.unit) ∉ (W i).hist := by
  obtain ⟨_, _, h⟩ := m.initiator
  exact one_role (w.good i) h

theorem Match.noInitiator (m : Match W owns i j) (w : Network W owns honest) {n : Nat} {m1 : Bytes} :
    (Op.compose1 n, Res.ok (Out.bytes m1)) ∉ (W j).hist := by
  obtain ⟨_, h⟩ := m.responder
  exact fun h' => one_role (w.good j) h' h

/-- the identifiers of the two sides -/
theorem Match.cids (m : Match W owns i j) (w : Network W owns honest) (sh : Shared P sk W owns)
    {hI hR : History} {a : St (W i).σ} {b : St (W j).σ}
    (pI : Proper (W i).env (W i).cfg (W i).start (W i).log hI a) (pR : Proper (W j).env (W j).cfg (W j).start (W j).log hR b)
    (iI : sessionCalls (W i).log a <:+: (W i).calls) (iR : sessionCalls (W j).log b <:+: (W j).calls)
    (kI : (W i).state.ctx.keep = a.ctx.keep) (kR : (W j).state.ctx.keep = b.ctx.keep)
    (sI : hI ⊆ (W i).hist) (sR : hR ⊆ (W j).hist) (cI : complete hI) (cR : complete hR) :
    b.ctx.peerCid = a.ctx.cid ∧ a.ctx.peerCid = b.ctx.cid := by
  have roleI : AsInitiator hI := by
    rcases complete_role pI.session cI with h | h
    · exact h
    · obtain ⟨_, _, _, _, _, _, _, _, a1, _⟩ := responder_session pI.session pI.settled h pI.regular pI.short
      exact (m.noResponder w (sI a1)).elim
  have roleR : AsResponder hR := by
    rcases complete_role pR.session cR with h | h
    · obtain ⟨_, _, _, _, _, _, _, _, _, a1, _⟩ := initiator_session pR.session pR.settled h pR.regular pR.numbers pR.short
      exact (m.noInitiator w (sR a1)).elim
    · exact h
  obtain ⟨n1, n3, m1, m2, m3, x, kid, pk, v, a1, a2, a3, iv, ⟨t1, _⟩, mi⟩ :=
    initiator_session pI.session pI.settled roleI pI.regular pI.numbers pI.short
  obtain ⟨n2, m1', m2', m3', y, kid', pk', v', b1, b2, b3, rv, ⟨t2, _⟩, mr⟩ :=
    responder_session pR.session pR.settled roleR pR.regular pR.short
  obtain ⟨_, _, e1, e2, _⟩ := m.keys w sh pI pR iI iR kI kR iv rv t1 t2
  subst e1
  constructor
  · obtain ⟨su, ts, _, hv, he, hm, _⟩ := mi.msg1
    rw [← mr.msg1.1]
    have s1 : SizeOk m1 := by have := (pI.short _ a1).2 m1 rfl; unfold SizeOk; omega
    exact (getMsg1_ci he (by simp only [Int32Range]; omega) hv s1).1
  · obtain ⟨p, _, hp, _⟩ := mi.msg2
    obtain ⟨_, _, t, _, _, ht⟩ := mr.msg2
    obtain ⟨_, b2', r, ⟨c, q, hc, _, rfl⟩, hb⟩ := getPtxt2_sound hp
    rw [hb, ht] at e2
    have hs : ∀ z, b.ctx.cid = .bstr z → SizeOk z := by
      intro z hz
      obtain ⟨ks, d0, d2, _⟩ := rv.message2
      have s2 := (pR.short _ b2).2 m2' rfl
      have d1 : (xorBytes v'.ptxt2 ks).length = v'.ptxt2.length := xorBytes_length d0.1
      rw [d2] at s2
      unfold SizeOk at *
      rw [encBstr_length, List.length_append, d1, ht, hz] at s2
      simp only [cidItem, List.length_append, encBstr_length] at s2
      omega
    have hi := encCid_item (ownCid_enc mr.own) hs
    simp only [List.append_assoc] at e2
    exact (cidItem_unamb hc hi e2).1

theorem Match.exports (m : Match W owns i j) (w : Network W owns honest) (sh : Shared P sk W owns) :
    SameExports (W i) (W j) := by
  have sub : ∀ {k : ι} {h t : History} {o r}, (W k).hist = h ++ (o, r) :: t → h ⊆ (W k).hist ∧ h ++ [(o, r)] ⊆ (W k).hist := by
    intro k h t o r e
    rw [e]
    refine ⟨fun q hq => by simp [hq], fun q hq => ?_⟩
    simp only [List.mem_append, List.mem_cons, List.not_mem_nil, or_false] at hq ⊢
    rcases hq with hq | hq
    · exact .inl hq
    · exact .inr (.inl hq)
  constructor
  · intro h t h' t' label n out out' hx hx' hc hc' hu hn
    obtain ⟨a, pI, iI, kI⟩ := prefix_session (w.good i) hx hc
    obtain ⟨b, pR, iR, kR⟩ := prefix_session (w.good j) hx' hc'
    obtain ⟨_, v, p, v1, v2, v3, v4⟩ := export_values pI.session pI.settled hc pI.regular pI.numbers pI.short hn
    obtain ⟨_, v', p', u1, u2, u3, u4⟩ := export_values pR.session pR.settled hc' pR.regular pR.numbers pR.short hn
    rcases v1 with ⟨n1, n3, m1, m2, m3, x, kid, pk, a1, a2, a3, iv⟩ | ⟨_, _, _, _, _, _, _, a1, _⟩
    · rcases u1 with ⟨_, _, _, _, _, _, _, _, b1, _⟩ | ⟨n2, m1', m2', m3', y, kid', pk', b1, b2, b3, rv⟩
      · exact (m.noInitiator w ((sub hx').1 b1)).elim
      · obtain ⟨e1, e2, _, _, e3⟩ := m.keys w sh pI pR iI iR kI kR iv rv v4 u4
        rw [← e1, ← e2, ← e3, ← hu] at u2
        rw [← e3] at u3
        have := epochKey_agree ((sh.faithful i).sub iI) ((sh.faithful j).sub iR) v2 u2
        subst this
        exact exported_agree ((sh.faithful i).sub iI) ((sh.faithful j).sub iR) v3 u3
    · exact (m.noResponder w ((sub hx).1 a1)).elim
  · intro h t h' t' a b c d c' d' o o' hx hx' hu ha hb
    have com : ∀ {k : ι} {h t : History} {a b c d : Nat} {o : Oscore}, (W k).hist = h ++ (.exportOscore a b c d, .ok (.oscore o)) :: t →
        complete h := by
      intro k h t a b c d o hx
      have hs := (w.good k).session
      obtain ⟨s1, r1, r2⟩ := run_append (hx ▸ hs.1)
      obtain ⟨s2, st, hd, _⟩ := run_cons r2
      refine (C17_update_oscore (E := (W k).env) (cfg := (W k).cfg) (e := (W k).start) (log := (W k).log)
        ⟨run_join r1 (.cons st hd (.nil s2)), fun q hq => hs.2 q ((sub hx).2 hq)⟩ (.inr rfl)).1
    have hc := com hx
    have hc' := com hx'
    obtain ⟨s, pI, iI, kI⟩ := prefix_session (w.good i) hx hc
    obtain ⟨s', pR, iR, kR⟩ := prefix_session (w.good j) hx' hc'
    obtain ⟨_, _, _, _, i1, i2, v, p, v1, v2, v3, v5, v4⟩ :=
      oscore_values pI.session pI.settled hc pI.regular pI.numbers pI.short ha hb
    obtain ⟨_, _, _, _, j1, j2, v', p', u1, u2, u3, u5, u4⟩ :=
      oscore_values pR.session pR.settled hc' pR.regular pR.numbers pR.short ha hb
    obtain ⟨c1, c2⟩ := m.cids w sh pI pR iI iR kI kR (sub hx).2 (sub hx').2 (complete_append hc) (complete_append hc')
    rcases v1 with ⟨n1, n3, m1, m2, m3, x, kid, pk, a1, a2, a3, iv⟩ | ⟨_, _, _, _, _, _, _, a1, _⟩
    · rcases u1 with ⟨_, _, _, _, _, _, _, _, b1, _⟩ | ⟨n2, m1', m2', m3', y, kid', pk', b1, b2, b3, rv⟩
      · exact (m.noInitiator w ((sub hx').1 b1)).elim
      · obtain ⟨e1, e2, _, _, e3⟩ := m.keys w sh pI pR iI iR kI kR iv rv v4 u4
        rw [← e1, ← e2, ← e3, ← hu] at u2
        rw [← e3] at u3 u5
        have := epochKey_agree ((sh.faithful i).sub iI) ((sh.faithful j).sub iR) v2 u2
        subst this
        exact ⟨exported_agree ((sh.faithful i).sub iI) ((sh.faithful j).sub iR) v3 u3,
          exported_agree ((sh.faithful i).sub iI) ((sh.faithful j).sub iR) v5 u5, by rw [i1, j2, c2], by rw [i2, j1, c1]⟩
    · exact (m.noResponder w ((sub hx).1 a1)).elim

/-! ## C68 -/

/-- **C68, Initiator.** If an Initiator accepts message 4 and the Responder's key is honest, there is a session of the
Responder as in C67; if that session trusts an honest key, too, both export the same keys. -/
theorem C68_initiator (w : Network W owns honest) (se : Sealed W honest) (sh : Shared P sk W owns) {n : Nat} {m1 m4 : Bytes}
    (h1 : (.compose1 n, .ok (.bytes m1)) ∈ (W i).hist) (hm : (.process4 m4, .ok .unit) ∈ (W i).hist) :
    ∃ d pk, Accepted4 (W i) m4 d pk ∧ (honest pk → ∃ j, j ≠ i ∧ owns j pk ∧ Answered4 (W j) d ∧
      (TrustsHonest (W j) honest → SameExports (W i) (W j))) := by
  obtain ⟨d, pk, ac, hx⟩ := C67_confirmation w se h1 hm
  refine ⟨d, pk, ac, fun hh => ?_⟩
  obtain ⟨j, hj, ho, an⟩ := hx hh
  refine ⟨j, hj, ho, an, fun ht => Match.exports ?_ w sh⟩
  obtain ⟨id0, c0, acc, _⟩ := ac.peer
  obtain ⟨m3, p3⟩ := an.accepted
  obtain ⟨d3, pk3, ac3, hx3⟩ := C66_responder w p3
  obtain ⟨id3, c3, acc3, _⟩ := ac3.peer
  obtain ⟨i', hi', ho', an3⟩ := hx3 (ht acc3)
  have em : d3.m1 = d.m1 := by
    have := call_once (w.good j) an.received ac3.received (k := .process1) rfl rfl
    simp at this
    exact this.symm
  have eg : d3.gx = d.gx := by
    obtain ⟨l, s, _⟩ := ac.message1
    obtain ⟨l', s', _⟩ := ac3.message1
    rw [em] at s'
    exact (startsMessage1_unique s' s).2.2
  have ei : i' = i := by
    obtain ⟨x, kx⟩ := ac.ephemeral
    obtain ⟨y, ky⟩ := an3.ephemeral
    rw [eg] at ky
    exact w.fresh ky kx
  subst ei
  refine ⟨⟨_, _, h1⟩, ⟨_, an.received⟩, ?_, sh.suites (ac.suite.trans an.suite.symm), ?_, ?_⟩
  · rw [ac.holds, an.holds]
  · intro id c pk' ha
    have := once (w.good i') (kk := .credVerify) rfl .credVerify .credVerify ha acc
    simp at this
    rw [this.2.2]
    exact ho
  · intro id c pk' ha
    have := once (w.good j) (kk := .credVerify) rfl .credVerify .credVerify ha acc3
    simp at this
    rw [this.2.2]
    exact ho'

/-- the transcript hash of a complete handshake -/
theorem completed_done3 {N : Node} (g : N.Good) {h1 : History} {n : Nat} {r : Res Out} {a b : St N.σ}
    (p : Placed N.env N.cfg N.start N.log N.hist N.state h1 (.compose4 n) r a b) (hc : okCompleted a.ctx = true) :
    ∃ d p3 th4, Done3 N d p3 th4 := by
  have hp := past_session p.before
  rw [okCompleted_status hc] at hp
  rcases hp with hp | hp
  · obtain ⟨_, _, _, _, _, _, _, _, _, _, ch⟩ := initiator_chain p.before (p.settled g.proper.settled) hp
    obtain ⟨d, p3, th4, dn, _⟩ := initiator_done3 g (p.sub ch.in3)
    exact ⟨d, p3, th4, dn⟩
  · obtain ⟨_, _, _, _, _, _, _, _, _, ch⟩ := responder_chain p.before (p.settled g.proper.settled) hp
    obtain ⟨d, p3, th4, dn, _⟩ := responder_done3 g (p.sub ch.in3)
    exact ⟨d, p3, th4, dn⟩

/-- the two sides of message 3 have the same TH_4 -/
theorem same_th4 (w : Network W owns honest) (se : Sealed3 W honest) (sh : Shared P sk W owns) {n : Nat} {m3 m3' pk : Bytes}
    {d : Data3} (ac : Accepted3 (W j) m3 d pk) (an : Answered3 (W i) d) (hh : honest pk)
    (hc : (.compose3 n, .ok (.bytes m3')) ∈ (W i).hist) : (W i).state.ctx.th = (W j).state.ctx.th := by
  have gi := w.good i
  have gj := w.good j
  obtain ⟨idR, cR, acc, _, ecR⟩ := ac.peer
  obtain ⟨cI, kidI, sup, _, ecI⟩ := an.own
  -- the Responder
  obtain ⟨h1, a, b, p⟩ := session_at gj.session ac.accepted
  obtain ⟨_, h0, _⟩ := mapOut_ok.1 p.step
  obtain ⟨pt, id, pk', v, c3⟩ := message3Process_ok h0
  obtain ⟨m1, gx, gy, th1, th2, pt2, dn, in1, in2, kp⟩ := responder_done2 gj p c3.state [] [] [] []
  have iR := placed_sub p
  have hneR : messages h1 ≠ [] := by
    obtain ⟨_, _, _, _, _, _, _, e, _⟩ := stage_wait3 p.before (p.settled gj.proper.settled) c3.state
    rw [e]; simp
  have thR : (W j).state.ctx.th = v.th4 := by rw [(placed_late gj p hneR).2 (by rw [c3.ctx]), c3.ctx]
  have hashR := (sh.faithful j).hash (c3.th4.call.mono iR)
  have credR : cred v.cred = d.cred := by
    have := once gj (kk := .credVerify) rfl .credVerify .credVerify (iR.subset c3.verified.mem) acc
    simp only [Ev.credVerify.injEq, Option.some.injEq, Prod.mk.injEq] at this
    rw [this.2.1, ecR]
  -- the Initiator
  obtain ⟨g1, a', b', q⟩ := session_at gi.session hc
  obtain ⟨_, h0', _⟩ := mapOut_ok.1 q.step
  obtain ⟨kid', v', c3'⟩ := message3Compose_ok h0'
  have iI := placed_sub q
  have hneI : messages g1 ≠ [] := by
    obtain ⟨_, _, _, _, _, _, _, e, _⟩ := stage_verified2 q.before (q.settled gi.proper.settled) c3'.state
    rw [e]; simp
  have thI : (W i).state.ctx.th = v'.th4 := by rw [(placed_late gi q hneI).2 (by rw [c3'.ctx]), c3'.ctx]
  have hashI := (sh.faithful i).hash (c3'.th4.call.mono iI)
  have credI : cred v'.cred = d.cred := by
    have := once gi (kk := .credFetch) rfl .credFetch .credFetch (iI.subset c3'.fetch.mem) sup
    simp only [Ev.credFetch.injEq, Option.some.injEq, Prod.mk.injEq] at this
    rw [this.1, ecI]
  -- the ciphertext
  have sz : SizeOk a.ctx.th := by rw [dn.th]; exact gj.th dn.th3
  obtain ⟨k, hen⟩ := se hh acc ((c3.keys.1.call dn.env.small.1).mono iR) (c3.decrypted.call.mono iR)
  have gk := w.good k
  rcases seal_event gk hen with ⟨d', kid, hk, nk, rk, ak, bk, pk4, dn', e, ⟨x, kx⟩, hv⟩ | ⟨hk, nk, rk, ak, bk, pk4, hcm, e, _⟩
  · have e := encStructure_inj sz (gk.th dn'.th3) e
    rw [dn.th] at e
    obtain ⟨_, _, _, _, _, _, _, _, eg⟩ := w.done2 dn dn' e
    simp only at eg
    have em := call_once gj in1 ac.received (k := .process1) rfl rfl
    simp only [Prod.mk.injEq, Op.process1.injEq, and_true] at em
    have eg' : gx = d.gx := by
      obtain ⟨l, s, _⟩ := dn.message1
      obtain ⟨l', s', _⟩ := ac.message1
      simp only at s
      rw [em] at s
      exact (startsMessage1_unique s s').2.2
    obtain ⟨y, ky⟩ := an.ephemeral
    rw [← eg', eg] at ky
    have := w.fresh ky kx
    subst this
    obtain ⟨kid2, hm2⟩ := c3'.encrypted.call
    have hv2 : Ev.encrypt kid2 v'.iv3 (encStructure a'.ctx.th) v'.ptxt (some v'.ctxt) ∈ during a' b' := hm2.subset (by simp)
    obtain ⟨rfl, _, _, rfl, rfl⟩ := placed_once gi.session q pk4 (k := .compose3) (k' := .compose3) rfl rfl rfl hv2 hv
    have ev := within_once (C33_performs q.step q.defined) (k := .encrypt) (by simp [performs]) .encrypt .encrypt hv2 hv
    simp only [Ev.encrypt.injEq] at ev
    rw [thI, thR, hashI, hashR, credI, credR, ev.2.2.2.1, dn'.th, dn.th, e]
  · obtain ⟨dk, p3, th4, ⟨⟨ad, dd⟩, hsh, now⟩⟩ := completed_done3 gk pk4 hcm
    rw [now] at e
    have e := encStructure_inj sz (gk.th hsh) e
    have t := dn.th3
    rw [← dn.th, e] at t
    obtain ⟨e, _⟩ := bstr_split (gk.th dd.th3) (gj.th dn.th2) (w.noCollision k j hsh t)
    exact absurd e (w.levels dd dn)

/-- **C68, Responder.** If a Responder accepts message 3 from the owner of an honest key, there is a session of the owner
as in C66; if that session completed the handshake and trusts an honest key, too, both export the same keys. -/
theorem C68_responder (w : Network W owns honest) (se : Sealed3 W honest) (sh : Shared P sk W owns) {m3 : Bytes}
    (hm : (.process3 m3, .ok .unit) ∈ (W j).hist) :
    ∃ d pk, Accepted3 (W j) m3 d pk ∧ (honest pk → ∃ i, i ≠ j ∧ owns i pk ∧ Answered3 (W i) d ∧
      ∀ {n m3'}, (.compose3 n, .ok (.bytes m3')) ∈ (W i).hist → TrustsHonest (W i) honest → SameExports (W i) (W j)) := by
  obtain ⟨d, pk, ac, hx⟩ := C66_responder w hm
  refine ⟨d, pk, ac, fun hh => ?_⟩
  obtain ⟨i, hi, ho, an⟩ := hx hh
  refine ⟨i, hi, ho, an, fun hc ht => Match.exports ?_ w sh⟩
  obtain ⟨id, c, acc, _⟩ := ac.peer
  obtain ⟨n1, in1⟩ := an.sent
  obtain ⟨lg, m2, c2, in2, sb⟩ := an.accepted
  obtain ⟨d2, pk2, ac2, hx2⟩ := C66_initiator w in2
  obtain ⟨id2, cr2, acc2, _⟩ := ac2.peer
  obtain ⟨j', _, ho2, an2⟩ := hx2 (ht acc2)
  have eg : d.gy = d2.gy := by
    obtain ⟨l', c', st'⟩ := ac2.received
    obtain ⟨_, _, x1, x2⟩ := sb
    obtain ⟨_, _, y1, y2⟩ := st'
    have eb := (bstrItem_unamb x1 y1 (x2.symm.trans y2)).1
    exact (List.append_inj eb (lg.trans l'.symm)).1
  have ej : j' = j := by
    obtain ⟨y, ky⟩ := an2.ephemeral
    obtain ⟨y', ky'⟩ := ac.ephemeral
    rw [eg] at ky'
    exact w.fresh ky ky'
  subst ej
  refine ⟨⟨_, _, in1⟩, ⟨_, ac.received⟩, same_th4 w se sh ac an hh hc, sh.suites (an.suite.trans ac.suite.symm), ?_, ?_⟩
  · intro id' c' pk' ha
    have := once (w.good i) (kk := .credVerify) rfl .credVerify .credVerify ha acc2
    simp at this
    rw [this.2.2]
    exact ho2
  · intro id' c' pk' ha
    have := once (w.good j') (kk := .credVerify) rfl .credVerify .credVerify ha acc
    simp at this
    rw [this.2.2]
    exact ho

end

namespace Toy

theorem shared_check : (methods.all fun m => [true, false].all fun b => ((network m b).calls.all evB) &&
    ((network m b).calls.all fun v => match v with
      | .credFetch (some (_, kid)) => keyOf b == dhPub kid
      | _ => true)) = true := by decide +kernel

theorem network_suite (m : Nat) (b : Bool) (hm : m ∈ methods) : (network m b).suite = suite := by
  revert m
  cases b <;> decide +kernel

theorem shared_holds {m : Nat} (hm : m ∈ methods) : Shared prims (fun _ => id) (network m) (fun b pk => pk = keyOf b) := by
  have hb : ∀ b, _ := fun b => Bool.and_eq_true _ _ ▸
    List.all_eq_true.1 (List.all_eq_true.1 shared_check m hm) b (by cases b <;> simp)
  refine ⟨lawful.dh, fun b => faithful_of (hb b).1, fun {i j} _ => ?_, ?_⟩
  · rw [network_suite m i hm, network_suite m j hm]
  · intro i pk c kid g o e hc _
    have := List.all_eq_true.1 (hb i).2 _ hc
    simp only [beq_iff_eq] at this
    exact ⟨e.trans this, trivial⟩

theorem sealed3_holds {m : Nat} (hm : m ∈ methods) : Sealed3 (network m) (fun pk => pk = keyOf true ∨ pk = keyOf false) := by
  rintro i id c pk prk th n k iv aad pt ct _ _ _ ⟨kid, h⟩
  have hb : sealedB (network m i).calls (network m !i).calls = true :=
    List.all_eq_true.1 (List.all_eq_true.1 sealed_check m hm) i (by cases i <;> simp)
  have h1 := List.all_eq_true.1 hb (.importKey .decrypt k (some kid)) (h.subset (by simp))
  have h2 := List.all_eq_true.1 hb (.decrypt kid iv aad ct (some pt)) (h.subset (by simp))
  simp only [beq_iff_eq, decide_eq_true_eq] at h1 h2
  subst h1
  exact ⟨!i, k, h2⟩

theorem trusts_honest {m : Nat} (hm : m ∈ methods) (b : Bool) :
    TrustsHonest (network m b) (fun pk => pk = keyOf true ∨ pk = keyOf false) := by
  intro id c pk ha
  have hb := List.all_eq_true.1 (List.all_eq_true.1 network_check m hm) b (by cases b <;> simp)
  have e := ((networkB_rest hb ha).2.1 _ _ _ rfl).2
  simp only [Option.some.injEq] at e
  cases b
  · exact .inl e
  · exact .inr e

theorem shared_calls : (methods.all fun m =>
    ((network m true).hist.any fun q => match q with | (.compose3 _, .ok (.bytes _)) => true | _ => false) &&
    ((network m false).hist.any fun q => match q with | (.process3 _, .ok .unit) => true | _ => false)) = true := by
  decide +kernel

end Toy

/-- Non-vacuity: with every method, the Initiator of the toy handshake accepts message 4 and exports what the Responder
exports. -/
example : ∀ m ∈ Toy.methods, ∃ m4 d, Accepted4 (Toy.network m true) m4 d (Toy.keyOf false) ∧
    Answered4 (Toy.network m false) d ∧ SameExports (Toy.network m true) (Toy.network m false) := by
  intro m hm
  have h := List.all_eq_true.1 Toy.confirm_calls m hm
  have hb := List.all_eq_true.1 (List.all_eq_true.1 Toy.network_check m hm) true (by simp)
  simp only [Bool.and_eq_true, List.any_eq_true] at h
  obtain ⟨⟨p, hp, hp'⟩, q, hq, hq'⟩ := h
  split at hp'
  · split at hq'
    · obtain ⟨d, pk, a, hx⟩ := C68_initiator (Toy.network_holds hm) (Toy.sealed_holds hm) (Toy.shared_holds hm) hp hq
      obtain ⟨id, c, hca, _⟩ := a.peer
      have e := ((Toy.networkB_rest hb hca).2.1 _ _ _ rfl).2
      simp only [Option.some.injEq, Bool.not_true] at e
      subst e
      obtain ⟨j, hj, _, an, hs⟩ := hx (.inr rfl)
      cases j
      · exact ⟨_, d, a, an, hs (Toy.trusts_honest hm false)⟩
      · exact absurd rfl hj
    · cases hq'
  · cases hp'

/-- Non-vacuity: likewise for the Responder that accepts message 3. -/
example : ∀ m ∈ Toy.methods, ∃ m3 d, Accepted3 (Toy.network m false) m3 d (Toy.keyOf true) ∧
    Answered3 (Toy.network m true) d ∧ SameExports (Toy.network m true) (Toy.network m false) := by
  intro m hm
  have h := List.all_eq_true.1 Toy.shared_calls m hm
  have hb := List.all_eq_true.1 (List.all_eq_true.1 Toy.network_check m hm) false (by simp)
  simp only [Bool.and_eq_true, List.any_eq_true] at h
  obtain ⟨⟨p, hp, hp'⟩, q, hq, hq'⟩ := h
  split at hp'
  · split at hq'
    · obtain ⟨d, pk, a, hx⟩ := C68_responder (Toy.network_holds hm) (Toy.sealed3_holds hm) (Toy.shared_holds hm) hq
      obtain ⟨id, c, hca, _⟩ := a.peer
      have e := ((Toy.networkB_rest hb hca).2.1 _ _ _ rfl).2
      simp only [Option.some.injEq, Bool.not_false] at e
      subst e
      obtain ⟨i, hi, _, an, hs⟩ := hx (.inl rfl)
      cases i
      · exact absurd rfl hi
      · exact ⟨_, d, a, an, hs hp (Toy.trusts_honest hm true)⟩
    · cases hq'
  · cases hp'

/-- Non-vacuity: both sessions of the toy handshakes export secrets and OSCORE contexts, before and after a key update. -/
example : (Toy.methods.all fun m => [true, false].all fun b => ((Toy.network m b).hist.countP fun q => match q with
    | (.exportSecret _ _, .ok (.bytes _)) => true
    | (.exportOscore _ _ _ _, .ok (.oscore _)) => true
    | _ => false) == 4) = true := by decide +kernel

end Verif
