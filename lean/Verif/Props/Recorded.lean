import Verif.SpecReplay
import Verif.Props.AeadKeys
import Verif.Props.SuiteAead
import Verif.Props.Matching

/-!
# C89: a recorded message is not accepted again
-/

namespace Verif

open M Spec

section
variable {N : Node}

/-- what is known of a session that accepted message 3 or 4: key, ciphertext and peer -/
structure Unsealed (N : Node) (o : Op) (label : Nat) (m k iv aad ct pt : Bytes) : Prop where
  starts : StartsBstr ct m
  uses : ∃ h, UsesAeadKey N h o k
  decrypts : DecryptCall N.calls k iv aad ct pt
  expands : ∃ prk th n, ExpandCall N.calls prk label th n k
  peer : ∃ id c pk, CredAccepted N.calls id c pk

theorem unsealed3 (g : N.Good) {m : Bytes} (hm : (.process3 m, .ok .unit) ∈ N.hist) :
    ∃ k iv aad ct pt, Unsealed N (.process3 m) 3 m k iv aad ct pt := by
  obtain ⟨h1, a, b, p⟩ := session_at g.session hm
  obtain ⟨_, h0, _⟩ := mapOut_ok.1 p.step
  obtain ⟨_, _, _, v, c3⟩ := message3Process_ok h0
  obtain ⟨m1, gx, gy, th1, th2, pt, dn, in1, _, kp⟩ := responder_done2 g p c3.state [] [] [] []
  obtain ⟨d, pk, _, ac, _⟩ := side_accept3 g hm
  obtain ⟨id, c, acc, _⟩ := ac.peer
  obtain ⟨kid, e⟩ := c3.decrypted
  obtain ⟨h2, e2, r2⟩ := p.split
  exact ⟨_, _, _, _, _, getMsgBstr_sound c3.parsed,
    ⟨h1, v.iv3, .inr ⟨_, kid, _, _, _, ⟨_, h2, a, b, e2, p.before, p.step, p.defined, r2, rfl⟩,
      List.IsInfix.trans ⟨[], [.destroyKey kid], rfl⟩ (saw_infix e)⟩⟩,
    c3.decrypted.call.mono (placed_sub p), ⟨_, _, _, (c3.keys.1.call dn.env.small.1).mono (placed_sub p)⟩, id, c, pk, acc⟩

theorem unsealed4 (g : N.Good) {m : Bytes} (hm : (.process4 m, .ok .unit) ∈ N.hist) :
    ∃ k iv ct pt, Unsealed N (.process4 m) 8 m k iv (encStructure N.state.ctx.th) ct pt := by
  obtain ⟨h1, a, b, p⟩ := session_at g.session hm
  obtain ⟨_, h0, _⟩ := mapOut_ok.1 p.step
  obtain ⟨k, iv, ct, pt, c4⟩ := message4Process_ok h0
  have hps := past_session p.before
  have hst := okCompleted_status c4.state
  rw [hst] at hps
  have hne : messages h1 ≠ [] := by
    rcases hps with e | e <;> rw [e] <;> simp
  have ev := placed_env g p hne
  have acc : ∃ id c pk, CredAccepted N.calls id c pk := by
    rcases hps with hps | hps
    · obtain ⟨_, _, _, _, _, _, _, _, _, _, ch⟩ := initiator_chain p.before (p.settled g.proper.settled) hps
      obtain ⟨_, pk, _, ac, _⟩ := side_accept2 g (p.sub ch.in2)
      obtain ⟨id, c, acc, _⟩ := ac.peer
      exact ⟨id, c, pk, acc⟩
    · obtain ⟨_, _, _, _, _, _, _, _, _, ch⟩ := responder_chain p.before (p.settled g.proper.settled) hps
      obtain ⟨_, pk, _, ac, _⟩ := side_accept3 g (p.sub ch.in3)
      obtain ⟨id, c, acc, _⟩ := ac.peer
      exact ⟨id, c, pk, acc⟩
  obtain ⟨kid, e⟩ := c4.decrypted
  obtain ⟨h2, e2, r2⟩ := p.split
  rw [(placed_late g p hne).1 hst]
  exact ⟨_, _, _, _, getMsgBstr_sound c4.parsed,
    ⟨h1, iv, .inr ⟨_, kid, _, _, _, ⟨_, h2, a, b, e2, p.before, p.step, p.defined, r2, rfl⟩,
      List.IsInfix.trans ⟨[], [.destroyKey kid], rfl⟩ (saw_infix e)⟩⟩,
    c4.decrypted.call.mono (placed_sub p), ⟨_, _, _, (c4.keys.1.call ev.small.1).mono (placed_sub p)⟩, acc⟩

theorem responds3 (g : N.Good) {m : Bytes} (hm : (.process3 m, .ok .unit) ∈ N.hist) : Responds N := by
  obtain ⟨d, _, _, _, in1, _⟩ := responder_done3 g hm
  exact ⟨_, in1⟩

/-- the transcript of a session that called `edhoc_message_4_compose` after message 3 -/
theorem done_before4 (g : N.Good) {h : History} {n : Nat} {r : Res Out} {a b : St N.σ}
    (p : Placed N.env N.cfg N.start N.log N.hist N.state h (.compose4 n) r a b) (hc : okCompleted a.ctx = true) :
    ∃ d p3, Done3 N d p3 N.state.ctx.th ∧ HasRole N d := by
  have hps := past_session p.before
  rw [okCompleted_status hc] at hps
  rcases hps with hps | hps
  · obtain ⟨_, _, _, _, _, _, _, _, _, _, ch⟩ := initiator_chain p.before (p.settled g.proper.settled) hps
    obtain ⟨d, p3, th4, dn, _, _, kp⟩ := initiator_done3 g (p.sub ch.in3)
    exact ⟨d, p3, dn.now ▸ dn, .inl ⟨⟨_, _, p.sub ch.in1⟩, kp⟩⟩
  · obtain ⟨_, _, _, _, _, _, _, _, _, ch⟩ := responder_chain p.before (p.settled g.proper.settled) hps
    obtain ⟨d, p3, th4, dn, _, _, kp, _⟩ := responder_done3 g (p.sub ch.in3)
    exact ⟨d, p3, dn.now ▸ dn, .inr ⟨⟨_, p.sub ch.in1⟩, kp⟩⟩

end

section
variable {ι : Type} {b : Nat} {W : ι → Node} {i j : ι} {honest : Bytes → Prop} {owns : ι → Bytes → Prop}

theorem levels3 (w : Sessions b W) {d d' : Data3} {a : St (W i).σ} {b : St (W j).σ}
    (h : Done2 (W i) a d) (h' : Done2 (W j) b d') : d.th3 ≠ d'.th2 := by
  intro e
  have t := h'.th2
  rw [← e] at t
  have e := w.noCollision i j h.th3 t
  obtain ⟨_, e⟩ := bstr_split ((w.good i).th h.th2) h'.gy e
  obtain ⟨x, r, hx, hr, h0⟩ := h.more
  rw [hr, ← List.append_nil (encBstr _)] at e
  exact h0 (item_split (CidItem.item hx) (BstrItem.item (encBstr_item ((w.good j).th h'.th1))) e).2

/-- sessions with the same ephemeral keys and the same role are the same -/
theorem same_role (w : Sessions b W) {d d' : Data3} (r : HasRole (W i) d) (r' : HasRole (W j) d')
    (e : d.gx = d'.gx ∧ d.gy = d'.gy) (hij : i ≠ j) :
    (Initiates (W i) ∧ Responds (W j)) ∨ (Responds (W i) ∧ Initiates (W j)) := by
  obtain ⟨ex, ey⟩ := e
  rcases r with ⟨r, g, kp⟩ | ⟨r, g, kp⟩ <;> rcases r' with ⟨r', g', kp'⟩ | ⟨r', g', kp'⟩
  · exact absurd (w.fresh kp (ex ▸ kp')) hij
  · exact .inl ⟨r, r'⟩
  · exact .inr ⟨r, r'⟩
  · exact absurd (w.fresh kp (ey ▸ kp')) hij

/-- **C89, message 2.** A message 2 that a session accepted is not accepted in another session, if the keys both accept are
honest (and both use public keys of the same length). -/
theorem C89_message2 (w : Network W owns honest) (hij : i ≠ j) (ti : TrustsHonest (W i) honest)
    (tj : TrustsHonest (W j) honest) (hs : (W i).suite.eccKey = (W j).suite.eccKey) {m : Bytes}
    (h : Accepts (W i) 2 m) : ¬ Accepts (W j) 2 m := by
  intro h'
  obtain ⟨d, pk, ac, hx⟩ := C66_initiator w h
  obtain ⟨d', pk', ac', hx'⟩ := C66_initiator w h'
  obtain ⟨_, _, acc, _⟩ := ac.peer
  obtain ⟨_, _, acc', _⟩ := ac'.peer
  obtain ⟨l, _, _, an⟩ := hx (ti acc)
  obtain ⟨l', _, _, an'⟩ := hx' (tj acc')
  obtain ⟨n1, c, sb⟩ := ac.received
  obtain ⟨n2, c', sb'⟩ := ac'.received
  have eg : d.gy = d'.gy := (List.append_inj (startsBstr_unique sb sb') (by omega)).1
  obtain ⟨_, kp⟩ := an.ephemeral
  obtain ⟨_, kp'⟩ := an'.ephemeral
  have := w.fresh kp (eg ▸ kp')
  subst this
  exact hij ((C66_injective w).1 ac ac' an an')

theorem recorded_key (w : Recorded b W honest) (ti : TrustsHonest (W i) honest) (tj : TrustsHonest (W j) honest)
    {o o' : Op} {l l' : Nat} {m k iv aad ct pt k' iv' aad' ct' pt' : Bytes} (hl : l = 3 ∨ l = 8) (hl' : l' = 3 ∨ l' = 8)
    (x : Unsealed (W i) o l m k iv aad ct pt) (y : Unsealed (W j) o' l' m k' iv' aad' ct' pt') : k = k' := by
  have en : ∀ {i o l k iv aad ct pt}, TrustsHonest (W i) honest → (l = 3 ∨ l = 8) → Unsealed (W i) o l m k iv aad ct pt →
      ∃ t, EncryptCall (W t).calls k iv aad pt ct := by
    rintro i o l k iv aad ct pt ti hl ⟨_, _, de, ⟨prk, th, n, ex⟩, id, c, pk, acc⟩
    rcases hl with rfl | rfl
    · exact w.sealed3 (ti acc) acc ex de
    · exact w.sealed4 (ti acc) acc ex de
  obtain ⟨_, e⟩ := en ti hl x
  obtain ⟨_, e'⟩ := en tj hl' y
  have := startsBstr_unique x.starts y.starts
  subst this
  exact w.apart e e'

/-- **C89, message 3.** A message 3 that a session accepted is not accepted in another session, neither as message 3 nor
as message 4. -/
theorem C89_message3 (w : Recorded b W honest) (hij : i ≠ j) (ti : TrustsHonest (W i) honest)
    (tj : TrustsHonest (W j) honest) (hb : b ≤ (W i).suite.aeadKey) {m : Bytes} (h : Accepts (W i) 3 m) :
    ¬ Accepts (W j) 3 m ∧ ¬ Accepts (W j) 4 m := by
  obtain ⟨k, iv, aad, ct, pt, x⟩ := unsealed3 (w.good i) h
  obtain ⟨_, u⟩ := x.uses
  constructor
  · intro h'
    obtain ⟨k', iv', aad', ct', pt', y⟩ := unsealed3 (w.good j) h'
    have := recorded_key w ti tj (.inl rfl) (.inl rfl) x y
    subst this
    obtain ⟨_, u'⟩ := y.uses
    have ri := responds3 (w.good i) h
    have rj := responds3 (w.good j) h'
    have one : ∀ {m : ι}, Initiates (W m) → Responds (W m) → False := by
      rintro m ⟨_, _, a⟩ ⟨_, b⟩
      exact one_role (w.good m) a b
    rcases (C88_one_handshake w.toSessions u u' hb).1 with e | ⟨e, _⟩ | ⟨_, e⟩
    · exact hij e
    · exact one e ri
    · exact one e rj
  · intro h'
    obtain ⟨k', iv', ct', pt', y⟩ := unsealed4 (w.good j) h'
    have := recorded_key w ti tj (.inl rfl) (.inr rfl) x y
    subst this
    obtain ⟨_, u'⟩ := y.uses
    rcases (C88_one_handshake w.toSessions u u' hb).2 with ⟨_, ⟨_, e⟩ | ⟨_, e⟩⟩ | ⟨⟨_, e⟩ | ⟨_, e⟩, _⟩ <;> cases e

/-- **C89, message 4.** A message 4 that a session accepted is not accepted in another session. -/
theorem C89_message4 (w : Recorded b W honest) (hij : i ≠ j) (ti : TrustsHonest (W i) honest)
    (tj : TrustsHonest (W j) honest) (hb : b ≤ (W i).suite.aeadKey) {m : Bytes} (h : Accepts (W i) 4 m) :
    ¬ Accepts (W j) 4 m ∧ ¬ Accepts (W j) 3 m := by
  obtain ⟨k, iv, ct, pt, x⟩ := unsealed4 (w.good i) h
  obtain ⟨_, u⟩ := x.uses
  refine ⟨fun h' => ?_, fun h' => ?_⟩
  · obtain ⟨k', iv', ct', pt', y⟩ := unsealed4 (w.good j) h'
    have := recorded_key w ti tj (.inr rfl) (.inr rfl) x y
    subst this
    obtain ⟨_, u'⟩ := y.uses
    have one : ∀ {m : ι}, Initiates (W m) → Responds (W m) → False := by
      rintro m ⟨_, _, a⟩ ⟨_, b⟩
      exact one_role (w.good m) a b
    have hs : (W i).suite.aeadKey < 2 ^ 64 := by
      have := (w.good i).proper.regular.small.1
      show (W i).state.ctx.suite.aeadKey < _
      omega
    rcases keyOf_uses (w.good i) u with ⟨⟨_, e⟩ | ⟨_, e⟩, _⟩ | ⟨_, d, p3, th4, q, dn, ro, ex⟩
    · cases e
    · cases e
    rcases keyOf_uses (w.good j) u' with ⟨⟨_, e⟩ | ⟨_, e⟩, _⟩ | ⟨_, d', p3', th4', q', dn', ro', ex'⟩
    · cases e
    · cases e
    obtain ⟨_, _, ht, _⟩ := expand_unique (w.noExpand i j) (w.good i).infos (w.good j).infos ex ex' hb (by omega)
      (by omega) hs
    subst ht
    -- who encrypted it
    obtain ⟨id, c, pk, acc⟩ := x.peer
    obtain ⟨prk, th, n, e8⟩ := x.expands
    obtain ⟨l, en⟩ := w.sealed4 (ti acc) acc e8 x.decrypts
    have sz : SizeOk th4 := (w.good i).th dn.hash
    rcases seal_event (w.good l) en with ⟨d2, _, _, _, _, a2, _, _, dn2, e, _⟩ | ⟨h2, n2, r2, a2, b2, p2, c2, e, hlog⟩
    · rw [dn.now] at e
      have e := encStructure_inj sz ((w.good l).th dn2.th3) e
      have t := dn2.th3
      rw [← e] at t
      obtain ⟨a1, dn1⟩ := dn.done
      obtain ⟨e, _⟩ := bstr_split ((w.good i).th dn1.th3) ((w.good l).th dn2.th2) (w.noCollision i l dn.hash t)
      exact levels3 w.toSessions dn1 dn2 e
    · obtain ⟨d2, q3, dn2, ro2⟩ := done_before4 (w.good l) p2 c2
      rw [dn.now] at e
      have e := encStructure_inj sz ((w.good l).th dn2.hash) e
      rw [← e] at dn2
      have li : l ≠ i := by
        rintro rfl
        exact not_both4 (w.good _) p2 c2 hlog h
      have lj : l ≠ j := by
        rintro rfl
        exact not_both4 (w.good _) p2 c2 hlog h'
      have a := same_role w.toSessions ro ro' (done3_same (w.good i) (w.good j) (w.noCollision i j) dn dn') hij
      have c := same_role w.toSessions ro2 ro (done3_same (w.good l) (w.good i) (w.noCollision l i) dn2 dn) li
      have f := same_role w.toSessions ro2 ro' (done3_same (w.good l) (w.good j) (w.noCollision l j) dn2 dn') lj
      rcases a with ⟨a1, a2⟩ | ⟨a1, a2⟩ <;> rcases c with ⟨c1, c2⟩ | ⟨c1, c2⟩ <;> rcases f with ⟨f1, f2⟩ | ⟨f1, f2⟩ <;>
        first
        | exact one a1 c2
        | exact one c2 a1
        | exact one f2 a2
        | exact one a2 f2
        | exact one c1 f1
        | exact one f1 c1
  · obtain ⟨k', iv', aad', ct', pt', y⟩ := unsealed3 (w.good j) h'
    have := recorded_key w ti tj (.inr rfl) (.inl rfl) x y
    subst this
    obtain ⟨_, u'⟩ := y.uses
    rcases (C88_one_handshake w.toSessions u u' hb).2 with ⟨⟨_, e⟩ | ⟨_, e⟩, _⟩ | ⟨_, ⟨_, e⟩ | ⟨_, e⟩⟩ <;> cases e

end

section
variable {A : Psa.Algs} {q : Psa.Params} {ι : Type} {b : Nat} {W : ι → Site} {honest : Bytes → Prop} {i j : ι}

/-- **C89 with the shipped cipher suites.** -/
theorem C89_suites (hl : AlgLaws A q) (hq : q ∈ shipped) (w : SuiteNetwork A q W honest) (ws : SuiteSessions A q b W)
    (ap : ∀ {i j k iv aad pt k' iv' aad' pt' ct}, EncryptCall ((W i).node A q).calls k iv aad pt ct →
      EncryptCall ((W j).node A q).calls k' iv' aad' pt' ct → k = k') (hb : b ≤ 16)
    (hij : i ≠ j) (ti : TrustsHonest ((W i).node A q) honest) (tj : TrustsHonest ((W j).node A q) honest) {n : Nat}
    (hn : n ∈ [2, 3, 4]) {m : Bytes} (h : Accepts ((W i).node A q) n m) : ¬ Accepts ((W j).node A q) n m := by
  have r : Recorded b (fun i => (W i).node A q) honest := ⟨suite_sessions hl hq ws, w.sealed3, w.sealed4, ap⟩
  have hb' := suite_long hq ws hb i
  simp only [List.mem_cons, List.not_mem_nil, or_false] at hn
  rcases hn with rfl | rfl | rfl
  · exact C89_message2 (suite_network hl hq w) hij ti tj (by rw [ws.suite, ws.suite]) h
  · exact (C89_message3 r hij ti tj hb' h).1
  · exact (C89_message4 r hij ti tj hb' h).1

/-- **C89 with the algorithms the suites name.** -/
theorem C89_standard (hq : q ∈ shipped) (w : SuiteNetwork Real.algs q W honest) (ws : SuiteSessions Real.algs q b W)
    (ap : ∀ {i j k iv aad pt k' iv' aad' pt' ct}, EncryptCall ((W i).node Real.algs q).calls k iv aad pt ct →
      EncryptCall ((W j).node Real.algs q).calls k' iv' aad' pt' ct → k = k') (hb : b ≤ 16)
    (hij : i ≠ j) (ti : TrustsHonest ((W i).node Real.algs q) honest) (tj : TrustsHonest ((W j).node Real.algs q) honest)
    {n : Nat} (hn : n ∈ [2, 3, 4]) {m : Bytes} (h : Accepts ((W i).node Real.algs q) n m) :
    ¬ Accepts ((W j).node Real.algs q) n m :=
  C89_suites (C58_laws hq) hq w ws ap hb hij ti tj hn h

end

/-! ## Non-vacuity -/

/-- the encryptions: key and ciphertext -/
def sealedOnes (L : List Ev) : List (Bytes × Bytes) := L.tails.filterMap fun l => match l with
  | .importKey .encrypt k (some _) :: .encrypt _ _ _ _ (some ct) :: _ => some (k, ct)
  | _ => none

theorem mem_sealedOnes {L : List Ev} {k iv aad pt ct : Bytes} (h : EncryptCall L k iv aad pt ct) :
    (k, ct) ∈ sealedOnes L := by
  obtain ⟨kid, s, t, rfl⟩ := h
  exact List.mem_filterMap.2 ⟨.importKey .encrypt k (some kid) :: .encrypt kid iv aad pt (some ct) :: .destroyKey kid :: t,
    (List.mem_tails _ _).2 ⟨s, by simp⟩, rfl⟩

def apartB (L L' : List Ev) : Bool := (sealedOnes L).all fun a => (sealedOnes L').all fun b => !(a.2 == b.2) || a.1 == b.1

theorem apart_of {L L' : List Ev} (h : apartB L L' = true) {k iv aad pt k' iv' aad' pt' ct : Bytes}
    (x : EncryptCall L k iv aad pt ct) (y : EncryptCall L' k' iv' aad' pt' ct) : k = k' := by
  have := List.all_eq_true.1 (List.all_eq_true.1 h _ (mem_sealedOnes x)) _ (mem_sealedOnes y)
  simpa using this

namespace Toy

theorem apart_check : (methods.all fun m => [true, false].all fun a => [true, false].all fun b =>
    apartB (network m a).calls (network m b).calls) = true := by decide +kernel

theorem recorded_holds {m : Nat} (hm : m ∈ methods) :
    Recorded 4 (network m) (fun pk => pk = keyOf true ∨ pk = keyOf false) :=
  ⟨sessions_hold hm, sealed3_holds hm, sealed_holds hm, fun {i j} _ _ _ _ _ _ _ _ _ x y => apart_of
    (List.all_eq_true.1 (List.all_eq_true.1 (List.all_eq_true.1 apart_check m hm) i (by cases i <;> simp)) j
      (by cases j <;> simp)) x y⟩

theorem accepts_check : (methods.all fun m =>
    ((network m true).hist.any fun p => match p with | (.process2 _, .ok .unit) => true | _ => false) &&
    ((network m false).hist.any fun p => match p with | (.process3 _, .ok .unit) => true | _ => false) &&
    ((network m true).hist.any fun p => match p with | (.process4 _, .ok .unit) => true | _ => false)) = true := by
  decide +kernel

theorem aead_long {m : Nat} (hm : m ∈ methods) (b : Bool) : 4 ≤ (network m b).suite.aeadKey := by
  revert m
  cases b <;> decide +kernel

end Toy

/-- With every method: what one of the two sessions of the toy handshake accepted, the other did not accept. -/
example : ∀ m ∈ Toy.methods, ∃ m2 m3 m4, (Accepts (Toy.network m true) 2 m2 ∧ ¬ Accepts (Toy.network m false) 2 m2) ∧
    (Accepts (Toy.network m false) 3 m3 ∧ ¬ Accepts (Toy.network m true) 3 m3) ∧
    (Accepts (Toy.network m true) 4 m4 ∧ ¬ Accepts (Toy.network m false) 4 m4) := by
  intro m hm
  have c := List.all_eq_true.1 Toy.accepts_check m hm
  simp only [Bool.and_eq_true, List.any_eq_true] at c
  obtain ⟨⟨⟨p, hp, hp'⟩, q, hq, hq'⟩, r, hr, hr'⟩ := c
  split at hp'
  · split at hq'
    · split at hr'
      · exact ⟨_, _, _, ⟨hp, C89_message2 (Toy.network_holds hm) (by simp) (Toy.trusts_honest hm _) (Toy.trusts_honest hm _)
            (by rw [Toy.network_suite m _ hm, Toy.network_suite m _ hm]) hp⟩,
          ⟨hq, (C89_message3 (Toy.recorded_holds hm) (by simp) (Toy.trusts_honest hm _) (Toy.trusts_honest hm _) (Toy.aead_long hm _) hq).1⟩,
          hr, (C89_message4 (Toy.recorded_holds hm) (by simp) (Toy.trusts_honest hm _) (Toy.trusts_honest hm _) (Toy.aead_long hm _) hr).1⟩
      · cases hr'
    · cases hq'
  · cases hp'

namespace Psa.Toy

theorem apart_check : (suitesX.all fun q => [true, false].all fun a => [true, false].all fun b =>
    apartB (callsOf q a) (callsOf q b)) = true := by decide +kernel

end Psa.Toy

/-- With the suites 0 and 4 and toy algorithms: the Responder did not accept the message 2 the Initiator accepted. -/
example : ∀ q ∈ Psa.Toy.suitesX, ∃ m2, Accepts ((Psa.Toy.site q true).node Psa.Toy.algs q) 2 m2 ∧
    ¬ Accepts ((Psa.Toy.site q false).node Psa.Toy.algs q) 2 m2 := by
  intro q hx
  have hq := Psa.Toy.suitesX_shipped hx
  have h : (Psa.Toy.suitesX.all fun q =>
      (Psa.Toy.site q true).hist.any fun p => match p with | (.process2 _, .ok .unit) => true | _ => false) = true := by
    decide +kernel
  obtain ⟨p, hp, hp'⟩ := List.any_eq_true.1 (List.all_eq_true.1 h q hx)
  split at hp'
  · exact ⟨_, hp, C89_suites (Psa.Toy.algs_laws hq) hq (Psa.Toy.site_network hx) (Psa.Toy.sessions_hold hx)
      (fun {i j} _ _ _ _ _ _ _ _ _ x y => apart_of (List.all_eq_true.1 (List.all_eq_true.1
        (List.all_eq_true.1 Psa.Toy.apart_check q hx) i (by cases i <;> simp)) j (by cases j <;> simp)) x y)
      (Nat.le_refl _) (by simp) (fun h => Psa.Toy.site_trusts hx true h) (fun h => Psa.Toy.site_trusts hx false h)
      (by simp) hp⟩
  · cases hp'

end Verif
