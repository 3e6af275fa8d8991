import Verif.Sides
import Verif.Props.Agree

/-!
# C66: agreement against an active attacker
-/

namespace Verif

open M Spec

section
variable {N : Node}

/-! ## Who computed a MAC or a signature -/

theorem no_export {l n : Nat} {h1 : History} {r : Res Out} {a b : St N.σ} {v : Ev}
    (p : Placed N.env N.cfg N.start N.log N.hist N.state h1 (.exportSecret l n) r a b) (hv : v ∈ during a b) :
    l = 0 ∨ l = 1 ∨ 32768 ≤ l := by
  refine Classical.byContradiction fun h => ?_
  have hx : okExport l n a.ctx = false := by
    unfold okExport
    have : (l == 0 || l == 1 || decide (32768 ≤ l)) = false := by
      simp only [Bool.or_eq_false_iff, beq_eq_false_iff_ne, decide_eq_false_iff_not]
      omega
    rw [this]; simp
  obtain ⟨e, _, h0⟩ := exportSecret_rejected N.env N.cfg hx
  have hs : step N.env N.cfg (.exportSecret l n) a = (.err e, a) := by
    simp [step, M.mapOut, Bind.bind, M.bind, h0]
  have := p.step
  rw [hs] at this
  simp only [Prod.mk.injEq] at this
  rw [← this.2, during_self] at hv
  cases hv

theorem mac2_event (g : N.Good) {prk c o : Bytes} {n : Nat} (h : ExpandCall N.calls prk 2 c n o) (hn : n < 2 ^ 32) :
    ∃ d, Sane2 d ∧ d.context = c ∧ d.mac = o ∧ (Answered2 N d ∨ Shares2 N d ∧ ∃ x, KeyPairCall N.calls x d.gx) := by
  obtain ⟨_, k, hm⟩ := h
  have hi : Ev.expand k (info 2 c n) n (some o) ∈ N.calls := hm.subset (by simp)
  obtain ⟨h1, op, r, a, b, p, hv⟩ := session_locate g.session hi
  have hk : IsKind (.derive 2) (Ev.expand k (info 2 c n) n (some o)) := .derive (by decide) hn
  have hp := within_mem (C33_performs p.step p.defined) hk hv
  cases op
  case compose2 m =>
    obtain ⟨d, h1, h2, _, h3⟩ := side_compose2 g p hv (.mac hk)
    obtain ⟨e1, e2⟩ := h3 _ _ _ _ rfl hn
    exact ⟨d, h1, e1, e2, Or.inl h2⟩
  case process2 m =>
    obtain ⟨d, h1, h2, h2', h3⟩ := side_process2 g p hv (.mac hk)
    obtain ⟨e1, e2⟩ := h3 _ _ _ _ rfl hn
    exact ⟨d, h1, e1, e2, Or.inr ⟨h2, h2'⟩⟩
  case exportSecret l m =>
    have := no_export p hv
    simp [performs] at hp
    omega
  all_goals simp [performs] at hp

theorem mac3_event (g : N.Good) {prk c o : Bytes} {n : Nat} (h : ExpandCall N.calls prk 6 c n o) (hn : n < 2 ^ 32) :
    ∃ d, Sane3 d ∧ d.context = c ∧ d.mac = o ∧ (Answered3 N d ∨ Shares3 N d ∧ ∃ y, KeyPairCall N.calls y d.gy) := by
  obtain ⟨_, k, hm⟩ := h
  have hi : Ev.expand k (info 6 c n) n (some o) ∈ N.calls := hm.subset (by simp)
  obtain ⟨h1, op, r, a, b, p, hv⟩ := session_locate g.session hi
  have hk : IsKind (.derive 6) (Ev.expand k (info 6 c n) n (some o)) := .derive (by decide) hn
  have hp := within_mem (C33_performs p.step p.defined) hk hv
  cases op
  case compose3 m =>
    obtain ⟨d, h1, h2, _, h3⟩ := side_compose3 g p hv (.mac hk)
    obtain ⟨e1, e2⟩ := h3 _ _ _ _ rfl hn
    exact ⟨d, h1, e1, e2, Or.inl h2⟩
  case process3 m =>
    obtain ⟨d, h1, h2, h2', h3⟩ := side_process3 g p hv (.mac hk)
    obtain ⟨e1, e2⟩ := h3 _ _ _ _ rfl hn
    exact ⟨d, h1, e1, e2, Or.inr ⟨h2, h2'⟩⟩
  case exportSecret l m =>
    have := no_export p hv
    simp [performs] at hp
    omega
  all_goals simp [performs] at hp

theorem sign_event (g : N.Good) {kid i sg : Bytes} (h : SignCall N.calls kid i sg) :
    (∃ d, Sane2 d ∧ Answered2 N d ∧ i = sigBytes d.idCred d.th2 d.cred d.ead d.mac) ∨
      ∃ d, Sane3 d ∧ Answered3 N d ∧ i = sigBytes d.idCred d.th3 d.cred d.ead d.mac := by
  obtain ⟨h1, op, r, a, b, p, hv⟩ := session_locate g.session h
  have hp := within_mem (C33_performs p.step p.defined) .sign hv
  cases op
  case compose2 m =>
    obtain ⟨d, h1, h2, h3, _⟩ := side_compose2 g p hv .sign
    exact Or.inl ⟨d, h1, h2, h3 _ _ _ rfl⟩
  case compose3 m =>
    obtain ⟨d, h1, h2, h3, _⟩ := side_compose3 g p hv .sign
    exact Or.inr ⟨d, h1, h2, h3 _ _ _ rfl⟩
  all_goals simp [performs] at hp

/-! ## Roles -/

theorem two_mem {α β : Type} [DecidableEq β] {f : α → Option β} {l : List α} {p q : α} {k : β} (hp : p ∈ l) (hq : q ∈ l)
    (hpk : f p = some k) (hqk : f q = some k) (hne : p ≠ q) : 2 ≤ (l.filterMap f).count k := by
  induction l with
  | nil => cases hp
  | cons a l ih =>
    have one : ∀ {x}, x ∈ l → f x = some k → 1 ≤ (l.filterMap f).count k := fun hx hk =>
      List.count_pos_iff.2 (List.mem_filterMap.2 ⟨_, hx, hk⟩)
    rcases List.mem_cons.1 hp with rfl | hp'
    · rcases List.mem_cons.1 hq with rfl | hq
      · exact absurd rfl hne
      · have := one hq hqk
        rw [List.filterMap_cons_some hpk, List.count_cons_self]; omega
    · rcases List.mem_cons.1 hq with rfl | hq
      · have := one hp' hpk
        rw [List.filterMap_cons_some hqk, List.count_cons_self]; omega
      · have := ih hp' hq
        cases ha : f a with
        | none => rw [List.filterMap_cons_none ha]; exact this
        | some b =>
          rw [List.filterMap_cons_some ha, List.count_cons]
          omega

theorem count_prefix {α : Type} [DecidableEq α] {l l' : List α} (h : l <+: l') (a : α) : l.count a ≤ l'.count a := by
  obtain ⟨t, rfl⟩ := h
  rw [List.count_append]; omega

/-- each message call succeeds at most once -/
theorem call_once (g : N.Good) {o o' : Op} {x x' : Out} {k : Call} (h : (o, .ok x) ∈ N.hist) (h' : (o', .ok x') ∈ N.hist)
    (hk : callOf o = some k) (hk' : callOf o' = some k) : (o, x) = (o', x') := by
  refine Classical.byContradiction fun hne => ?_
  obtain ⟨q, hq, hp⟩ := C01_handshake_order g.session
  have h2 : 2 ≤ (messages N.hist).count k :=
    two_mem h h' (by simp [succeeded, hk]) (by simp [succeeded, hk']) (by simpa using hne)
  have h3 := count_prefix hp k
  have h4 : q.count k ≤ 1 := by
    simp only [roleSequences, List.mem_cons, List.not_mem_nil, or_false] at hq
    rcases hq with rfl | rfl | rfl | rfl <;> cases k <;> decide
  omega

theorem one_role (g : N.Good) {n : Nat} {m m1 : Bytes} (h : (.compose1 n, .ok (.bytes m)) ∈ N.hist)
    (h' : (.process1 m1, .ok .unit) ∈ N.hist) : False := by
  obtain ⟨q, hq, hp⟩ := C01_handshake_order g.session
  have i1 := hp.subset (message_mem h rfl)
  have i2 := hp.subset (message_mem h' rfl)
  simp only [roleSequences, List.mem_cons, List.not_mem_nil, or_false] at hq
  rcases hq with rfl | rfl | rfl | rfl <;> simp at i1 i2

end

/-! ## The data agree -/

section
variable {ι : Type} {W : ι → Node} {owns : ι → Bytes → Prop} {honest : Bytes → Prop} {i j : ι}

theorem Spec.Network.below2 (w : Network W owns honest) {d d' : Data2} (s : Sane2 d) (s' : Sane2 d') (h : Shares2 (W i) d)
    (h' : Shares2 (W j) d') (e : d.th2 = d'.th2) :
    d.gy = d'.gy ∧ d.th1 = d'.th1 ∧ d.m1 = d'.m1 ∧ d.method = d'.method ∧ d.suite = d'.suite ∧ d.gx = d'.gx := by
  have t := h'.th2
  rw [← e] at t
  obtain ⟨e1, e2⟩ := bstr_split s.gy s'.gy (w.noCollision i j h.th2 t)
  obtain ⟨e2, _⟩ := bstr_split (r := []) (r' := []) s.th1 s'.th1 (by simpa using e2)
  have t1 := h'.th1
  rw [← e2] at t1
  have e3 := w.noCollision i j h.th1 t1
  obtain ⟨l, m, n⟩ := h.message1
  obtain ⟨l', m', n'⟩ := h'.message1
  rw [← e3] at m'
  obtain ⟨e4, e0, e5⟩ := startsMessage1_unique m m'
  rw [← e0, n, Option.some.injEq] at n'
  exact ⟨e1, e2, e3, by omega, n', e5⟩

theorem Spec.Network.below3 (w : Network W owns honest) {d d' : Data3} (s : Sane3 d) (s' : Sane3 d') (h : Shares3 (W i) d)
    (h' : Shares3 (W j) d') (e : d.th3 = d'.th3) :
    d.th2 = d'.th2 ∧ d.ptxt2Cred = d'.ptxt2Cred ∧ d.cr = d'.cr ∧
      d.gy = d'.gy ∧ d.th1 = d'.th1 ∧ d.m1 = d'.m1 ∧ d.method = d'.method ∧ d.suite = d'.suite ∧ d.gx = d'.gx := by
  have t := h'.th3
  rw [← e] at t
  obtain ⟨eh, ep⟩ := bstr_split s.th2 s'.th2 (w.noCollision i j h.th3 t)
  have ec : d.cr = d'.cr := by
    obtain ⟨x, r, hx, hr⟩ := h.cid
    obtain ⟨x', r', hx', hr'⟩ := h'.cid
    rw [hr, hr'] at ep
    exact (cidItem_unamb hx hx' ep).1
  have t := h'.th2
  rw [← eh] at t
  obtain ⟨e1, e2⟩ := bstr_split s.gy s'.gy (w.noCollision i j h.th2 t)
  obtain ⟨e2, _⟩ := bstr_split (r := []) (r' := []) s.th1 s'.th1 (by simpa using e2)
  have t1 := h'.th1
  rw [← e2] at t1
  have e3 := w.noCollision i j h.th1 t1
  obtain ⟨l, m, n⟩ := h.message1
  obtain ⟨l', m', n'⟩ := h'.message1
  rw [← e3] at m'
  obtain ⟨e4, e0, e5⟩ := startsMessage1_unique m m'
  rw [← e0, n, Option.some.injEq] at n'
  exact ⟨eh, ep, ec, e1, e2, e3, by omega, n', e5⟩

theorem Spec.Network.same2 (w : Network W owns honest) {d d' : Data2} (s : Sane2 d) (s' : Sane2 d') (h : Shares2 (W i) d)
    (h' : Shares2 (W j) d') (e : d.context = d'.context) (em : d.mac = d'.mac) : d = d' := by
  obtain ⟨e1, e2, e3, e4, e5⟩ := s.context s' e
  obtain ⟨e6, e7, e8, e9, e10, e11⟩ := w.below2 s s' h h' e3
  cases d; cases d'
  simp only at *
  subst_vars
  rfl

theorem Spec.Network.same3 (w : Network W owns honest) {d d' : Data3} (s : Sane3 d) (s' : Sane3 d') (h : Shares3 (W i) d)
    (h' : Shares3 (W j) d') (e1 : d.idCred = d'.idCred) (e2 : d.th3 = d'.th3) (e3 : d.cred = d'.cred)
    (e4 : d.ead = d'.ead) (em : d.mac = d'.mac) : d = d' := by
  obtain ⟨e5, e6, e7, e8, e9, e10, e11, e12, e13⟩ := w.below3 s s' h h' e2
  cases d; cases d'
  simp only at *
  subst_vars
  rfl

/-! ## C66 -/

/-- **C66, Initiator.** If an Initiator accepts message 2 from the owner of an honest key, a session of the owner, as
Responder, has received the Initiator's message 1 and answered it with the same method, cipher suite, ephemeral keys, transcript,
connection identifier, credential, EAD_2 and MAC_2. -/
theorem C66_initiator (w : Network W owns honest) {m2 : Bytes} (hm : (.process2 m2, .ok .unit) ∈ (W i).hist) :
    ∃ d pk, Accepted2 (W i) m2 d pk ∧ (honest pk → ∃ j, j ≠ i ∧ owns j pk ∧ Answered2 (W j) d) := by
  obtain ⟨d, pk, s, ac, hsig, hmac⟩ := side_accept2 (w.good i) hm
  refine ⟨d, pk, ac, fun hh => ?_⟩
  have ne : ∀ {j}, Answered2 (W j) d → j ≠ i := by
    rintro j h rfl
    obtain ⟨n, hn⟩ := ac.sent
    exact one_role (w.good _) hn h.received
  cases hr : responderSigns (W i).method with
  | true =>
    obtain ⟨⟨sig, hv⟩, prk, hx⟩ := hsig hr
    obtain ⟨j, kid, sig', ho, hs⟩ := w.signatures hh hv
    have hl := (w.good j).signed hs
    rcases sign_event (w.good j) hs with ⟨d', s', an, hi⟩ | ⟨d', s', an, hi⟩
    · obtain ⟨e1, e2, e3, e4, e5⟩ := sigBytes_inj hl s.cred s'.cred hi
      obtain ⟨prk', n', hx'⟩ := an.mac
      have hn : n' = (W i).suite.hash := by rw [← hx'.1, ← e5]; exact hx.1
      subst hn
      rw [← e5] at hx'
      have ec := w.distinct hx hx'
      have := w.same2 s s' ac.toShares2 an.toShares2 ec e5
      subst this
      exact ⟨j, ne an, ho, an⟩
    · obtain ⟨_, e2, _⟩ := sigBytes_inj hl s.cred s'.cred hi
      have t := an.th3
      rw [← e2] at t
      exact absurd (w.noCollision i j ac.th2 t) (th2_ne_th3 s' s.gy s.th1)
  | false =>
    obtain ⟨n, hn, hu⟩ := hmac hr
    obtain ⟨j, prk, hj, ho, hx⟩ := w.macs hh (Or.inl ⟨rfl, hr, m2, hm⟩) hu
    obtain ⟨d', s', ec, em, hc⟩ := mac2_event (w.good j) hx hn
    have sh : Shares2 (W j) d' := by
      rcases hc with h | h
      · exact h.toShares2
      · exact h.1
    have := w.same2 s s' ac.toShares2 sh ec.symm em.symm
    subst this
    rcases hc with h | ⟨_, x, hx⟩
    · exact ⟨j, hj, ho, h⟩
    · obtain ⟨x', hx'⟩ := ac.ephemeral
      exact absurd (w.fresh hx hx') hj

/-- **C66, Responder.** If a Responder accepts message 3 from the owner of an honest key, a session of the owner, as
Initiator, has sent the message 1 the Responder received, accepted a message 2 with the Responder's ephemeral key, and
answered it with the same method, cipher suite, transcript, connection identifier, credential, EAD_3 and MAC_3. -/
theorem C66_responder (w : Network W owns honest) {m3 : Bytes} (hm : (.process3 m3, .ok .unit) ∈ (W i).hist) :
    ∃ d pk, Accepted3 (W i) m3 d pk ∧ (honest pk → ∃ j, j ≠ i ∧ owns j pk ∧ Answered3 (W j) d) := by
  obtain ⟨d, pk, s, ac, hsig, hmac⟩ := side_accept3 (w.good i) hm
  refine ⟨d, pk, ac, fun hh => ?_⟩
  have ne : ∀ {j}, Answered3 (W j) d → j ≠ i := by
    rintro j h rfl
    obtain ⟨n, hn⟩ := h.sent
    exact one_role (w.good _) hn ac.received
  cases hr : initiatorSigns (W i).method with
  | true =>
    obtain ⟨sig, hv⟩ := hsig hr
    obtain ⟨j, kid, sig', ho, hs⟩ := w.signatures hh hv
    have hl := (w.good j).signed hs
    rcases sign_event (w.good j) hs with ⟨d', s', an, hi⟩ | ⟨d', s', an, hi⟩
    · obtain ⟨_, e2, _⟩ := sigBytes_inj hl s.cred s'.cred hi
      have t := an.th2
      rw [← e2] at t
      exact absurd (w.noCollision i j ac.th3 t).symm (th2_ne_th3 s s'.gy s'.th1)
    · obtain ⟨e1, e2, e3, e4, e5⟩ := sigBytes_inj hl s.cred s'.cred hi
      have := w.same3 s s' ac.toShares3 an.toShares3 e1 e2 e3 e4 e5
      subst this
      exact ⟨j, ne an, ho, an⟩
  | false =>
    obtain ⟨n, hn, hu⟩ := hmac hr
    obtain ⟨j, prk, hj, ho, hx⟩ := w.macs hh (Or.inr ⟨rfl, hr, m3, hm⟩) hu
    obtain ⟨d', s', ec, em, hc⟩ := mac3_event (w.good j) hx hn
    have sh : Shares3 (W j) d' := by
      rcases hc with h | h
      · exact h.toShares3
      · exact h.1
    obtain ⟨e1, e2, e3, e4⟩ := s.context s' ec.symm
    have := w.same3 s s' ac.toShares3 sh e1 e2 e3 e4 em.symm
    subst this
    rcases hc with h | ⟨_, x, hx⟩
    · exact ⟨j, hj, ho, h⟩
    · obtain ⟨x', hx'⟩ := ac.ephemeral
      exact absurd (w.fresh hx hx') hj

/-- **C66, injectivity.** A session is the peer of at most one session: the message 2 of one Responder session is not
accepted in two sessions, and neither is the message 3 of one Initiator session. -/
theorem C66_injective (w : Network W owns honest) {i i' : ι} :
    (∀ {m2 m2' d d' pk pk'}, Accepted2 (W i) m2 d pk → Accepted2 (W i') m2' d' pk' → Answered2 (W j) d →
      Answered2 (W j) d' → i = i') ∧
    (∀ {m3 m3' d d' pk pk'}, Accepted3 (W i) m3 d pk → Accepted3 (W i') m3' d' pk' → Answered3 (W j) d →
      Answered3 (W j) d' → i = i') := by
  constructor
  · intro m2 m2' d d' pk pk' a a' b b'
    have e := call_once (w.good j) b.received b'.received rfl rfl
    simp only [Prod.mk.injEq, Op.process1.injEq, and_true] at e
    obtain ⟨l, m, _⟩ := a.message1
    obtain ⟨l', m', _⟩ := a'.message1
    rw [← e] at m'
    obtain ⟨_, _, eg⟩ := startsMessage1_unique m m'
    obtain ⟨x, hx⟩ := a.ephemeral
    obtain ⟨x', hx'⟩ := a'.ephemeral
    rw [← eg] at hx'
    exact w.fresh hx hx'
  · intro m3 m3' d d' pk pk' a a' b b'
    obtain ⟨l, m, c, hm, st⟩ := b.accepted
    obtain ⟨l', m', c', hm', st'⟩ := b'.accepted
    have e := call_once (w.good j) hm hm' rfl rfl
    simp only [Prod.mk.injEq, Op.process2.injEq, and_true] at e
    subst e
    obtain ⟨_, _, h1, h2⟩ := st
    obtain ⟨_, _, h1', h2'⟩ := st'
    have eb := (bstrItem_unamb h1 h1' (h2.symm.trans h2')).1
    have eg := (List.append_inj eb (l.trans l'.symm)).1
    obtain ⟨x, hx⟩ := a.ephemeral
    obtain ⟨x', hx'⟩ := a'.ephemeral
    rw [← eg] at hx'
    exact w.fresh hx hx'

end

/-! ## Non-vacuity -/

namespace Toy

/-- a session of `p` -/
def node (p : Party) (ops : List Op) : Node := ⟨env p, cfg, (), [], hst p ops, after p ops⟩

theorem node_proper {p : Party} {ops : List Op} (h : checkB p ops = true) :
    Proper (node p ops).env (node p ops).cfg (node p ops).start (node p ops).log (node p ops).hist (node p ops).state :=
  proper_of h

/-- the sessions of the toy handshake: of the Initiator (`true`) and of the Responder -/
def network (m : Nat) : Bool → Node
  | true => node alice (callsI m ++ exports)
  | false => node bob (callsR m ++ exports)

/-- the public keys of the parties -/
def keyOf : Bool → Bytes
  | true => dhPub alice.sk
  | false => dhPub bob.sk

/-- conditions on the calls `L` of the party with the public key `own`, the other one being `other`, whose calls are
`L'` -/
def networkB (own other : Bytes) (L L' : List Ev) : Bool :=
  (L.all fun v => match v with
    | .credFetch (some (c, _)) => c == credI || c == credR
    | .credVerify _ (some (c, some pk)) => (c == credI || c == credR) && pk == other
    | .credVerify _ (some (_, none)) => false
    | .importKey _ raw (some kid) => raw == [] || raw == kid
    | .keyAgreement _ pk _ => pk != own
    | .expand k i n (some o) => decide (i.length < 1000) && decide (n < 1000) && (!(i.head? == some 2 || i.head? == some 6) ||
        decide ([.importKey .expand k (some k), .expand k i n (some o), .destroyKey k] <:+: L')) &&
        (!(i.head? == some 2) || (L ++ L').all fun w => match w with
          | .expand _ i' _ (some o') => !(i'.head? == some 2 && o' == o) || i' == i
          | _ => true)
    | .expand _ i _ none => decide (i.length < 1000)
    | .sign _ i _ => decide (i.length < 1000)
    | .verify pk i _ true => pk == other && L'.any fun w => match w with
      | .sign _ i' (some _) => i' == i
      | _ => false
    | .makeKeyPair _ (some (_, g)) => L'.all fun w => match w with
      | .makeKeyPair _ (some (_, g')) => g' != g
      | _ => true
    | _ => true) && noCollisionB L L && noCollisionB L L'

theorem network_check : (methods.all fun m => [true, false].all fun b =>
    networkB (keyOf b) (keyOf !b) (network m b).calls (network m !b).calls) = true := by decide +kernel

theorem cred_items : (Item (idCred credI) ∧ Item (cred credI)) ∧ Item (idCred credR) ∧ Item (cred credR) := by
  have d : ∀ {m a : Nat}, a < 24 → Head m a [UInt8.ofNat (m * 32 + a)] := fun h => .short h
  have s : ∀ b : Bytes, b.length < 24 → Item (encBstr b) := fun b h =>
    BstrItem.item (encBstr_item (by unfold SizeOk; omega))
  have sc : ∀ {b : Bytes} {a : Nat}, a < 24 → b = [UInt8.ofNat (0 * 32 + a)] → Item b := by
    rintro _ a h rfl
    exact .scalar (.inl rfl) (d h)
  refine ⟨⟨?_, s _ (by decide)⟩, ?_, s _ (by decide)⟩
  · exact .map (n := 1) (bs := [encInt 4, encInt 5]) (d (m := 5) (by decide)) rfl
      (by
        intro b hb
        simp only [List.mem_cons, List.not_mem_nil, or_false] at hb
        rcases hb with rfl | rfl
        · exact sc (a := 4) (by decide) (by decide)
        · exact sc (a := 5) (by decide) (by decide))
  · exact .map (n := 1) (bs := [encInt 33, encBstr [1, 2, 3]]) (d (m := 5) (by decide)) rfl
      (by
        intro b hb
        simp only [List.mem_cons, List.not_mem_nil, or_false] at hb
        rcases hb with rfl | rfl
        · exact .scalar (m := 0) (a := 33) (.inl rfl) (.long 0 (by decide) (by decide))
        · exact s _ (by decide))

theorem info_head {l n : Nat} {c : Bytes} (h : l < 24) : (info l c n).head? = some (UInt8.ofNat l) := by
  unfold info
  have : encInt (l : Int) = [UInt8.ofNat l] := by
    have : l ∈ List.range 24 := List.mem_range.2 h
    revert l
    decide
  rw [this]; rfl

section
variable {own other : Bytes} {L L' : List Ev}

theorem networkB_event (h : networkB own other L L' = true) {k c o : Bytes} {l n : Nat}
    (hx : Ev.expand k (info l c n) n (some o) ∈ L) : c.length < 2 ^ 64 ∧ n < 2 ^ 32 ∧
      (l = 2 ∨ l = 6 → [.importKey .expand k (some k), .expand k (info l c n) n (some o), .destroyKey k] <:+: L') ∧
      (l = 2 → ∀ {k' i' n'}, Ev.expand k' i' n' (some o) ∈ L ++ L' → i'.head? = some 2 → i' = info l c n) := by
  unfold networkB at h
  simp only [Bool.and_eq_true] at h
  have h := List.all_eq_true.1 h.1.1 _ hx
  simp only [Bool.and_eq_true, Bool.or_eq_true, Bool.not_eq_true', decide_eq_true_eq, beq_eq_false_iff_ne,
    Bool.or_eq_false_iff] at h
  obtain ⟨⟨⟨h1, h2⟩, h3⟩, h4⟩ := h
  refine ⟨info_size (Nat.lt_trans h1 (by decide)), by omega, ?_, ?_⟩
  · intro hl
    rcases h3 with h3 | h3
    · rcases hl with rfl | rfl
      · exact absurd (info_head (by decide)) h3.1
      · exact absurd (info_head (by decide)) h3.2
    · exact h3
  · rintro rfl k' i' n' hm hi
    rcases h4 with h4 | h4
    · exact absurd (info_head (by decide)) h4
    · have := List.all_eq_true.1 h4 _ hm
      simpa [hi] using this

theorem networkB_rest (h : networkB own other L L' = true) {v : Ev} (hv : v ∈ L) :
    (∀ c k, v = .credFetch (some (c, k)) → c = credI ∨ c = credR) ∧
    (∀ id c pk, v = .credVerify id (some (c, pk)) → (c = credI ∨ c = credR) ∧ pk = some other) ∧
    (∀ f raw kid, v = .importKey f raw (some kid) → raw = [] ∨ raw = kid) ∧
    (∀ k pk o, v = .keyAgreement k pk o → pk ≠ own) ∧
    (∀ k i n o, v = .expand k i n o → i.length < 2 ^ 64) ∧
    (∀ k i o, v = .sign k i o → i.length < 2 ^ 64) ∧
    (∀ pk i g, v = .verify pk i g true → pk = other ∧ ∃ k o, Ev.sign k i (some o) ∈ L') ∧
    (∀ k x g, v = .makeKeyPair k (some (x, g)) → ∀ k' x', Ev.makeKeyPair k' (some (x', g)) ∉ L') := by
  unfold networkB at h
  simp only [Bool.and_eq_true] at h
  have h := List.all_eq_true.1 h.1.1 _ hv
  refine ⟨?_, ?_, ?_, ?_, ?_, ?_, ?_, ?_⟩
  · rintro c k rfl
    simpa using h
  · rintro id c pk rfl
    cases pk with
    | none => simp at h
    | some pk => simpa using h
  · rintro f raw kid rfl
    simpa using h
  · rintro k pk o rfl
    simpa using h
  · rintro k i n o rfl
    cases o with
    | none => simp only [decide_eq_true_eq] at h; omega
    | some o =>
      simp only [Bool.and_eq_true, decide_eq_true_eq] at h
      omega
  · rintro k i o rfl
    simp only [decide_eq_true_eq] at h
    omega
  · rintro pk i g rfl
    simp only [Bool.and_eq_true, beq_iff_eq, List.any_eq_true] at h
    obtain ⟨h1, w, hw, h2⟩ := h
    refine ⟨h1, ?_⟩
    split at h2
    · rename_i k i' o
      simp only [beq_iff_eq] at h2
      exact ⟨k, o, h2 ▸ hw⟩
    · cases h2
  · rintro k x g rfl k' x' hm
    have := List.all_eq_true.1 h _ hm
    simp at this

end

theorem network_good {m : Nat} (hm : m ∈ methods) {b : Bool} {own other : Bytes} {L' : List Ev}
    (h : networkB own other (network m b).calls L' = true) : (network m b).Good := by
  have it : ∀ {c}, c = credI ∨ c = credR → Item (idCred c) ∧ Item (cred c) := by
    rintro c (rfl | rfl)
    · exact cred_items.1
    · exact cred_items.2
  refine ⟨?_, fun hc => it ((networkB_rest h hc).1 _ _ rfl), fun hc => it ((networkB_rest h hc).2.1 _ _ _ rfl).1,
    fun hc => (networkB_rest h hc).2.2.2.2.1 _ _ _ _ rfl, fun hc => (networkB_rest h hc).2.2.2.2.2.1 _ _ _ rfl⟩
  cases b
  · exact node_proper (List.all_eq_true.1 checkR m hm)
  · exact node_proper (List.all_eq_true.1 checkI m hm)

theorem network_holds {m : Nat} (hm : m ∈ methods) :
    Network (network m) (fun b pk => pk = keyOf b) (fun pk => pk = keyOf true ∨ pk = keyOf false) := by
  have hc := List.all_eq_true.1 network_check m hm
  have hb : ∀ b, networkB (keyOf b) (keyOf !b) (network m b).calls (network m !b).calls = true := fun b =>
    List.all_eq_true.1 hc b (by cases b <;> simp)
  have ho : ∀ {pk} (b : Bool), pk = keyOf true ∨ pk = keyOf false → pk = keyOf b ∨ pk = keyOf !b := by
    rintro pk b h
    cases b
    · exact h.symm
    · exact h
  have k0 : ∀ b, keyOf b ≠ [] := by decide +kernel
  have nc : ∀ i j, noCollisionB (network m i).calls (network m j).calls = true := by
    intro i j
    have := hb i
    unfold networkB at this
    simp only [Bool.and_eq_true] at this
    by_cases e : j = i
    · subst e; exact this.1.2
    · have : j = !i := by cases i <;> cases j <;> simp_all
      subst this; simp_all
  refine ⟨fun b => network_good hm (hb b), fun i j => noCollision_of (nc i j), ?_, ?_, ?_, ?_⟩
  · rintro i j p c q c' mac ⟨l1, k, hk⟩ ⟨l2, k', hk'⟩
    generalize (network m i).suite.hash = n at *
    have h1 : Ev.expand k (info 2 c n) n (some mac) ∈ (network m i).calls := hk.subset (by simp)
    have h2 : Ev.expand k' (info 2 c' n) n (some mac) ∈ (network m j).calls := hk'.subset (by simp)
    obtain ⟨a1, a2, _, a3⟩ := networkB_event (hb i) h1
    obtain ⟨b1, _⟩ := networkB_event (hb j) h2
    have h3 : Ev.expand k' (info 2 c' n) n (some mac) ∈ (network m i).calls ++ (network m !i).calls := by
      by_cases e : j = i
      · subst e; exact List.mem_append_left _ h2
      · have : j = !i := by cases i <;> cases j <;> simp_all
        subst this; exact List.mem_append_right _ h2
    have := a3 rfl h3 (info_head (by decide))
    exact (C33_info_injective (by omega) (by omega) (by omega) (by omega) b1 a1 this).2.1.symm
  · rintro i j x y g ⟨k, hk⟩ ⟨k', hk'⟩
    have h1 : Ev.makeKeyPair k (some (x, g)) ∈ _ := hk.subset (by simp)
    have h2 : Ev.makeKeyPair k' (some (y, g)) ∈ _ := hk'.subset (by simp)
    refine Classical.byContradiction fun e => ?_
    have : j = !i := by cases i <;> cases j <;> simp_all
    subst this
    exact (networkB_rest (hb i) h1).2.2.2.2.2.2.2 _ _ _ rfl _ _ h2
  · rintro i pk input sig hh ⟨k, hk⟩
    have h1 : Ev.importKey .verify pk (some k) ∈ _ := hk.subset (by simp)
    have h2 : Ev.verify k input sig true ∈ _ := hk.subset (by simp)
    obtain ⟨e, k', o, hs⟩ := (networkB_rest (hb i) h2).2.2.2.2.2.2.1 _ _ _ rfl
    rcases (networkB_rest (hb i) h1).2.2.1 _ _ _ rfl with e' | e'
    · subst e'
      rcases hh with hh | hh <;> exact absurd hh.symm (k0 _)
    · exact ⟨!i, k', o, e'.trans e, hs⟩
  · rintro i pk label c n mac hh ht ⟨x, gx, g, salt, prk, _, ⟨ka, ha⟩, _, ⟨ln, k, hk⟩⟩
    have h1 : Ev.keyAgreement ka pk (some g) ∈ _ := ha.subset (by simp)
    have h2 : Ev.expand k (info label c n) n (some mac) ∈ _ := hk.subset (by simp)
    have hl : label = 2 ∨ label = 6 := by
      rcases ht with ⟨h, _⟩ | ⟨h, _⟩
      · exact .inl h
      · exact .inr h
    refine ⟨!i, k, by cases i <;> simp, ?_, ln, k, (networkB_event (hb i) h2).2.2.1 hl⟩
    rcases ho i hh with e | e
    · exact absurd e ((networkB_rest (hb i) h1).2.2.2.1 _ _ _ rfl)
    · exact e

theorem network_calls : (methods.all fun m =>
    ((network m true).hist.any fun q => match q with | (.process2 _, .ok .unit) => true | _ => false) &&
    ((network m false).hist.any fun q => match q with | (.process3 _, .ok .unit) => true | _ => false)) = true := by
  decide +kernel

end Toy

/-- Non-vacuity: with every method, the parties of the toy handshake agree on what message 2 and message 3 establish. -/
example : ∀ m ∈ Toy.methods, (∃ m2 d, Accepted2 (Toy.network m true) m2 d (Toy.keyOf false) ∧ Answered2 (Toy.network m false) d) ∧
    ∃ m3 d, Accepted3 (Toy.network m false) m3 d (Toy.keyOf true) ∧ Answered3 (Toy.network m true) d := by
  intro m hm
  have w := Toy.network_holds hm
  have hc := List.all_eq_true.1 Toy.network_check m hm
  have hb : ∀ b, Toy.networkB (Toy.keyOf b) (Toy.keyOf !b) (Toy.network m b).calls (Toy.network m !b).calls = true := fun b =>
    List.all_eq_true.1 hc b (by cases b <;> simp)
  have h := List.all_eq_true.1 Toy.network_calls m hm
  simp only [Bool.and_eq_true, List.any_eq_true] at h
  obtain ⟨⟨p, hp, hp'⟩, q, hq, hq'⟩ := h
  constructor
  · split at hp'
    · obtain ⟨d, pk, a, hx⟩ := C66_initiator w hp
      obtain ⟨id, c, hca, _⟩ := a.peer
      have e := ((Toy.networkB_rest (hb true) hca).2.1 _ _ _ rfl).2
      simp only [Option.some.injEq, Bool.not_true] at e
      subst e
      obtain ⟨j, hj, _, an⟩ := hx (.inr rfl)
      cases j
      · exact ⟨_, d, a, an⟩
      · exact absurd rfl hj
    · cases hp'
  · split at hq'
    · obtain ⟨d, pk, a, hx⟩ := C66_responder w hq
      obtain ⟨id, c, hca, _⟩ := a.peer
      have e := ((Toy.networkB_rest (hb false) hca).2.1 _ _ _ rfl).2
      simp only [Option.some.injEq, Bool.not_false] at e
      subst e
      obtain ⟨j, hj, _, an⟩ := hx (.inl rfl)
      cases j
      · exact absurd rfl hj
      · exact ⟨_, d, a, an⟩
    · cases hq'

end Verif
