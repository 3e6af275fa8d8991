import Verif.SpecSuitePeer
import Verif.Props.Peer
import Verif.Props.Standard

/-!
# C61: the shipped suites with the algorithms of the standards, and any peer that follows RFC 9528
-/

namespace Verif

open Spec Psa Spec.Rfc

attribute [local irreducible] Real.edPub Real.ed25519Sign Real.ed25519Verify

variable {τ : Type} {A : Algs} {q : Params} {X : Psa.App τ} {k : Bounds} {me : Nat} {signs peerSigns : Bool} {J : τ → Prop}
  {cfg : Config} {id : Nat} {own : Key} {p : Identity} {i : Id} {g : Choice} {peer : Auth} {c : Cred}

/-- An application with a shipped suite is a party in the sense of C59. -/
theorem suite_local (hl : AlgLaws A q) (h : SuiteLocal A q k me signs peerSigns X J cfg id own p i g peer c) :
    Local (primsOf A q) (suiteSig A q) q.table k me signs peerSigns (Psa.Fine A q id own J) (suiteEnv A q X) cfg p i g peer
      c where
  method := h.method
  lawful := prims_lawful hl
  suite := suite_ok h.shipped
  sized := prims_sized hl h.shipped
  honest := suite_honest hl h.shipped h.hosts h.derive.2
  room := h.room
  items := h.items
  derive := h.derive.1
  choice := h.choice
  cid := h.cid
  owns := suite_owns hl h.shipped h.hosts h.kid h.key
  denotes := h.denotes
  credOk := h.credOk
  peerKey := by
    have hk := h.peerKey
    cases peerSigns
    · simp only [Bool.false_eq_true, if_false] at hk
      have h0 := (prims_sized hl h.shipped).pub _ hk.2
      have h1 := (suite_ok h.shipped).ecc.1
      refine ⟨?_, fun _ => hk⟩
      rw [hk.1]
      intro h2
      rw [h2, List.length_nil] at h0
      omega
    · simp only [if_true] at hk
      refine ⟨?_, nofun⟩
      rintro h0
      rw [h0] at hk
      unfold Spec.VerifyKey at hk
      split at hk
      · simp at hk
      · simp only [List.length_nil] at hk; omega
  known w hI := by
    obtain ⟨h1, h2, h3⟩ := h.known w hI.2
    refine ⟨h1, ?_⟩
    show InOrder A q id own (X.credVerify w peer.id.asked).2.1 ∧ _
    rw [h2]
    exact ⟨hI.1, h3⟩
  same := h.same
  verify hp w hI := by
    have hk := h.peerKey
    rw [if_pos hp] at hk
    exact suite_verifies hl h.shipped hk w hI
  peerOk := h.peerOk
  peerFits := h.peerFits

/-- **C61** (Initiator). An application uses a shipped suite with the algorithms of the standards and a key store that is in
order. Whatever the peer is: the library composes a message_1 of RFC 9528, accepts every message_2 that RFC 9528 admits as an
answer, from the Responder the application knows, composes a message_3 of RFC 9528, accepts every message_4 of RFC 9528, and
exports the OSCORE keys of RFC 9528. -/
theorem C61_initiator (h : SuiteLocal Real.algs q k me (initiatorSigns me) (responderSigns me) X J cfg id own p i g peer c)
    (hm : g.methods.head? = some me) {s : St (World τ)} (o : InOrder Real.algs q id own s.env.1) (j : J s.env.2)
    {n : Nat} (hn : 65000 ≤ n) :
    let P := primsOf Real.algs q
    let V := suiteSig Real.algs q
    let E := suiteEnv Real.algs q X
    ∃ m1 x e1 s1, Run E cfg s (done g.calls ++ [(.compose1 n, .ok (.bytes m1))]) s1 ∧
      P.priv x ∧ m1 = message1 me (g.suites.map Suite.value) (P.pub x) g.cid e1 ∧
      ∀ t cR e2 sig2 m2, t.method = me → t.x = x → t.message1 = m1 → t.responder = peer → t.initiator = authOf p i →
        IsMessage2 P V q.table t cR e2 sig2 m2 → CidOk cfg cR → Takes k e2 sig2 t.plaintext2 →
        t.plaintext2.length ≤ k.expand →
        ∃ p3 e3 sig3 m3 s3, let t' := { t with plaintext3 := p3 }
          Run E cfg s1 [(.process2 m2, .ok .unit), (.compose3 n, .ok (.bytes m3))] s3 ∧
          IsMessage3 P V q.table t' e3 sig3 m3 ∧ Exports E cfg P q.table t' g.cid cR n s3 ∧
          ∀ e4 m4, IsMessage4 P q.table t' e4 m4 → EadOk k e4 →
            ∃ s4, Run E cfg s3 [(.process4 m4, .ok .unit)] s4 ∧ Exports E cfg P q.table t' g.cid cR n s4 :=
  C59_initiator (suite_local (C58_laws h.shipped) h) hm ⟨o, j⟩ hn

/-- **C61** (Responder). The same for a Responder: it accepts every message_1 of RFC 9528 that selects its suite, and every
message_3 that RFC 9528 admits from the Initiator the application knows. -/
theorem C61_responder (h : SuiteLocal Real.algs q k me (responderSigns me) (initiatorSigns me) X J cfg id own p i g peer c)
    (hm : me ∈ g.methods) (hx : (idCred p.cred).length + k.ead + 2100 ≤ k.expand) {s : St (World τ)}
    (o : InOrder Real.algs q id own s.env.1) (j : J s.env.2) {n : Nat} (hn : 65000 ≤ n) {x : Bytes} {offered : List Int}
    {cI : Cid} {e1 : List EadTok} (hp : isPriv Real.algs q x) (h1 : Takes1 cfg k q.table offered cI e1) :
    let P := primsOf Real.algs q
    let V := suiteSig Real.algs q
    let E := suiteEnv Real.algs q X
    ∃ y p2 e2 sig2 m2 s2, Run E cfg s (done g.calls ++
        [(.process1 (message1 me offered (P.pub x) cI e1), .ok .unit), (.compose2 n, .ok (.bytes m2))]) s2 ∧
      ∀ t, t.method = me → t.x = x → t.message1 = message1 me offered (P.pub x) cI e1 → t.responder = authOf p i →
        t.y = y → t.plaintext2 = p2 → t.initiator = peer →
        IsMessage2 P V q.table t g.cid e2 sig2 m2 ∧
        ∀ e3 sig3 m3, IsMessage3 P V q.table t e3 sig3 m3 → Takes k e3 sig3 t.plaintext3 →
          ∃ s3, Run E cfg s2 [(.process3 m3, .ok .unit)] s3 ∧ Exports E cfg P q.table t g.cid cI n s3 ∧
            ∃ e4 m4 s4, Run E cfg s3 [(.compose4 n, .ok (.bytes m4))] s4 ∧ IsMessage4 P q.table t e4 m4 ∧
              Exports E cfg P q.table t g.cid cI n s4 :=
  C59_responder (suite_local (C58_laws h.shipped) h) hm hx ⟨o, j⟩ hn hp h1

namespace Standard

/-- a peer on paper: ID_CRED = { 4 : h'2a' }, sent as the integer -11 -/
noncomputable def paper (q : Params) (signs : Bool) (x : Bytes) : Auth :=
  ⟨.kid [0x2a], [0xa0], (standardKeys q signs x).1, (standardKeys q signs x).2⟩

/-- the credential of the local party -/
def local_ : Cred := .kid [0x41, 0x42] false (.bstr [1, 2])

theorem localParty {q : Params} (hq : q ∈ shipped) {me : Nat} (hm : me < 4) {a b : Bool} {x y : Bytes}
    (hx : StandardSecret q a x) (hy : StandardSecret q b y) :
    SuiteLocal Real.algs q Verif.Toy.bounds me a b (Psa.Toy.app local_ (.kid [0xa0] true (.bstr [0x2a])) (paper q b y).pk)
      (fun _ => True) Verif.Toy.cfg idMin (Standard.own q a x) (party q local_ a x) (.kid [1, 2]) (Psa.Toy.choice q me (.int 5))
      (paper q b y) (.kid [0xa0] true (.bstr [0x2a])) where
  shipped := hq
  method := hm
  hosts := ⟨fun _ _ _ => ⟨rfl, rfl, trivial⟩, fun _ _ _ => ⟨⟨[], rfl, by decide, by simp, by decide⟩, rfl, trivial⟩,
    fun _ _ _ _ => ⟨rfl, rfl, trivial⟩, fun _ _ => ⟨rfl, rfl, trivial⟩⟩
  room := (Psa.Toy.suiteParties hq hm).roomI
  items := by decide
  derive := (Psa.Toy.suiteParties hq hm).derive
  choice := (Psa.Toy.suiteParties hq hm).choiceI
  cid := ⟨by decide, by decide⟩
  kid := ⟨rfl, by decide⟩
  key := C58_own_key hx _ _
  denotes := .kid _ rfl (by unfold SizeOk; decide)
  credOk := ⟨⟨_, (Rfc.denotes_sent (.kid _ rfl (by unfold SizeOk; decide))).2.1⟩, show 3 ≤ 4 by decide, show 3 ≤ 4 by decide,
    nofun, show (idCred local_).length + (cred local_).length ≤ 40000 by decide +kernel⟩
  peerKey := by
    have := C58_own_key hy local_ []
    cases b
    · exact ⟨this.2.2, this.2.1⟩
    · exact verifyKey_own (C58_laws hq) this
  known _ _ := ⟨rfl, rfl, trivial⟩
  same := ⟨rfl, rfl⟩
  peerOk := ⟨⟨_, (Rfc.denotes_sent (.kidInt _ (by decide))).2.1⟩, ⟨by decide, by decide⟩, ⟨by decide, by decide⟩, nofun,
    by decide +kernel⟩
  peerFits := ⟨by decide, by unfold SizeOk; decide⟩

/-- there are such signatures -/
theorem authentic {q : Params} (hq : q ∈ shipped) {b : Bool} {y : Bytes} (hy : StandardSecret q b y) (th : Bytes)
    (e : List EadTok) {mac : Bytes} (h : 0 < mac.length ∧ mac.length ≤ 1000) :
    ∃ sig, Authentic (suiteSig Real.algs q) b (paper q b y) th e mac sig ∧ 0 < sig.length ∧ sig.length ≤ 1000 := by
  unfold Authentic
  cases b
  · exact ⟨mac, by simp, h⟩
  · simp only [if_true]
    generalize arrayHead 4 ++ _ ++ _ ++ _ ++ encBstr mac = m
    have hlen : 0 < q.sign ∧ q.sign ≤ 1000 := by
      simp only [shipped, List.mem_cons, List.not_mem_nil, or_false] at hq
      rcases hq with rfl | rfl | rfl | rfl <;> decide
    obtain ⟨-, ho⟩ := C58_own_key hy local_ []
    cases hc : q.curve with
    | none =>
      simp only [hc] at ho
      have h1 := (C58_laws hq).ed25519 hc (standardKeys q true y).1 m
      have h2 : q.sign = 64 := by
        simp only [shipped, List.mem_cons, List.not_mem_nil, or_false] at hq
        rcases hq with rfl | rfl | rfl | rfl <;> first | rfl | cases hc
      refine ⟨Real.algs.ed25519Sign (standardKeys q true y).1 m, ?_, by omega, by omega⟩
      simp only [suiteSig, SignatureOk, hc, Bool.and_eq_true, beq_iff_eq]
      exact ⟨ho.2.2 m, by omega⟩
    | some c =>
      simp only [hc] at ho
      obtain ⟨h1, h2⟩ := (C58_laws hq).ecdsa c hc (standardKeys q true y).1 (Real.algs.hash q.hash m) [] ho.1
        ((C58_laws hq).hash m)
      refine ⟨Real.algs.ecdsaSign q.hash (8 * c.len) (standardKeys q true y).1 (Real.algs.hash q.hash m) [], ?_, by omega, by omega⟩
      simp only [suiteSig, SignatureOk, hc, Bool.and_eq_true, beq_iff_eq]
      refine ⟨?_, h1⟩
      rw [show (paper q true y).pk = _ from ho.2]
      exact h2

theorem macLen {q : Params} (hq : q ∈ shipped) (s : Bool) (n : Nat) (h : n = if s then q.table.hash else q.table.mac) :
    0 < n ∧ n ≤ 1000 := by
  subst h
  simp only [shipped, List.mem_cons, List.not_mem_nil, or_false] at hq
  rcases hq with rfl | rfl | rfl | rfl <;> cases s <;> decide

theorem secretLen {q : Params} (hq : q ∈ shipped) : SecretLen q.table 16 ∧ SecretLen q.table 8 := by
  simp only [shipped, List.mem_cons, List.not_mem_nil, or_false] at hq
  rcases hq with rfl | rfl | rfl | rfl <;>
    exact ⟨⟨by decide, Or.inl (by decide)⟩, ⟨by decide, Or.inl (by decide)⟩⟩

end Standard

/-- The premises of C61 can be met, for each suite and method: a handshake with a Responder on paper, for all keys. -/
example {q : Params} (hq : q ∈ shipped) {m : Nat} (hm : m < 4) {x y z : Bytes} (hx : StandardSecret q (initiatorSigns m) x)
    (hy : StandardSecret q (responderSigns m) y) (hz : isPriv Real.algs q z) {r : Nat → Bytes}
    (hr : ∀ n, isPriv Real.algs q (fitLen q.ecc (r n))) : ∃ m1 m2 m3 m4 secret salt s',
    Run (suiteEnv Real.algs q (Psa.Toy.app Standard.local_ (.kid [0xa0] true (.bstr [0x2a]))
      (Standard.paper q (responderSigns m) y).pk)) Verif.Toy.cfg
      ⟨Ctx.fresh, (Standard.store q (initiatorSigns m) x r, ()), []⟩ (done (Psa.Toy.choice q m (.int 5)).calls ++
      [(.compose1 65000, .ok (.bytes m1)), (.process2 m2, .ok .unit), (.compose3 65000, .ok (.bytes m3)),
        (.process4 m4, .ok .unit), (.exportOscore 16 8 65000 65000, .ok (.oscore ⟨secret, salt, [0x18, 9], [5]⟩))]) s' := by
  have H := Standard.localParty hq hm hx hy
  obtain ⟨m1, x', e1, s1, r1, -, -, h1⟩ := C61_initiator H rfl
    (s := ⟨Ctx.fresh, (Standard.store q (initiatorSigns m) x r, ()), []⟩) (Standard.inOrder _ _ hr) trivial (Nat.le_refl 65000)
  let t0 : Spec.Rfc.Trace := ⟨m, x', z, m1, Standard.paper q (responderSigns m) y, authOf (Standard.party q Standard.local_ (initiatorSigns m) x) (.kid [1, 2]), [], []⟩
  have hsz := prims_sized (C58_laws hq) hq
  obtain ⟨sig, a1, a2⟩ := Standard.authentic hq hy (Spec.Rfc.th2 (primsOf Real.algs q) t0) []
    (mac := Spec.Rfc.mac2 (primsOf Real.algs q) q.table t0 (.bstr [0x18, 9]) [])
    (Standard.macLen hq (responderSigns m) _ (hsz.expand _ _ _))
  let t : Spec.Rfc.Trace := { t0 with plaintext2 := cidItem (.bstr [0x18, 9]) ++ [0x2a] ++ encBstr sig ++ ead [] }
  have hl : t.plaintext2.length ≤ 1100 := by
    show (_ ++ _ ++ encBstr sig ++ _ : Bytes).length ≤ _
    have h1 : (cidItem (.bstr [0x18, 9])).length = 3 := rfl
    have h3 : (ead []).length = 0 := rfl
    have h4 := headLen_le9 sig.length
    simp only [List.length_append, encBstr_length, h1, h3, List.length_cons, List.length_nil]
    omega
  obtain ⟨p3, e3, sig3, m3, s3, r3, -, -, h3⟩ := h1 t (.bstr [0x18, 9]) [] sig _ rfl rfl rfl rfl rfl ⟨hz, a1, rfl, rfl⟩
    ⟨by decide, by decide⟩ ⟨⟨by decide, by decide, by decide⟩, a2, by omega⟩ (Nat.le_trans hl (by decide))
  obtain ⟨s4, r4, h4⟩ := h3 [] _ rfl ⟨by decide, by decide, by decide⟩
  obtain ⟨s5, r5⟩ := h4 16 8 (Standard.secretLen hq).1 (Standard.secretLen hq).2
  rw [show oscoreIdOf (.bstr [0x18, 9]) = [0x18, 9] from rfl,
    show oscoreIdOf (Psa.Toy.choice q m (.int 5)).cid = [5] from by simp [Psa.Toy.choice, oscoreIdOf]; decide +kernel] at r5
  have := run_join r1 (run_join r3 (run_join r4 r5))
  exact ⟨_, _, _, _, _, _, _, by simpa using this⟩

/-- The same with an Initiator on paper. -/
example {q : Params} (hq : q ∈ shipped) {m : Nat} (hm : m < 4) {x y z : Bytes} (hx : StandardSecret q (responderSigns m) x)
    (hy : StandardSecret q (initiatorSigns m) y) (hz : isPriv Real.algs q z) {r : Nat → Bytes}
    (hr : ∀ n, isPriv Real.algs q (fitLen q.ecc (r n))) : ∃ m1 m2 m3 m4 secret salt s',
    Run (suiteEnv Real.algs q (Psa.Toy.app Standard.local_ (.kid [0xa0] true (.bstr [0x2a]))
      (Standard.paper q (initiatorSigns m) y).pk)) Verif.Toy.cfg
      ⟨Ctx.fresh, (Standard.store q (responderSigns m) x r, ()), []⟩ (done (Psa.Toy.choice q m (.int 5)).calls ++
      [(.process1 m1, .ok .unit), (.compose2 65000, .ok (.bytes m2)), (.process3 m3, .ok .unit),
        (.compose4 65000, .ok (.bytes m4)), (.exportOscore 16 8 65000 65000, .ok (.oscore ⟨secret, salt, [0x18, 9], [5]⟩))]) s' := by
  have H := Standard.localParty hq hm hx hy
  have hsel : Takes1 Verif.Toy.cfg Verif.Toy.bounds q.table [q.table.value] (.bstr [0x18, 9]) [] := by
    refine ⟨rfl, ?_, ⟨by decide, by decide⟩, ⟨by decide, by decide, by decide⟩⟩
    simp only [shipped, List.mem_cons, List.not_mem_nil, or_false] at hq
    rcases hq with rfl | rfl | rfl | rfl <;> exact ⟨by decide, by decide, by decide⟩
  obtain ⟨y', p2, e2, sig2, m2, s2, r2, h2⟩ := C61_responder H (by simp [Psa.Toy.choice])
    (show (idCred Standard.local_).length + Verif.Toy.bounds.ead + 2100 ≤ Verif.Toy.bounds.expand by decide +kernel)
    (s := ⟨Ctx.fresh, (Standard.store q (responderSigns m) x r, ()), []⟩) (Standard.inOrder _ _ hr) trivial (Nat.le_refl 65000)
    hz hsel
  let t0 : Spec.Rfc.Trace := ⟨m, z, y', message1 m [q.table.value] ((primsOf Real.algs q).pub z) (.bstr [0x18, 9]) [], authOf (Standard.party q Standard.local_ (responderSigns m) x) (.kid [1, 2]), Standard.paper q (initiatorSigns m) y, p2, []⟩
  have hsz := prims_sized (C58_laws hq) hq
  obtain ⟨sig, a1, a2⟩ := Standard.authentic hq hy (Spec.Rfc.th3 (primsOf Real.algs q) t0) []
    (mac := Spec.Rfc.mac3 (primsOf Real.algs q) q.table t0 [])
    (Standard.macLen hq (initiatorSigns m) _ (hsz.expand _ _ _))
  let t : Spec.Rfc.Trace := { t0 with plaintext3 := [0x2a] ++ encBstr sig ++ ead [] }
  have hl : t.plaintext3.length ≤ 1100 := by
    show (_ ++ encBstr sig ++ _ : Bytes).length ≤ _
    have h3 : (ead []).length = 0 := rfl
    have h4 := headLen_le9 sig.length
    simp only [List.length_append, encBstr_length, h3, List.length_cons, List.length_nil]
    omega
  obtain ⟨s3, r3, -, e4, m4, s4, r4, -, h4⟩ := (h2 t rfl rfl rfl rfl rfl rfl rfl).2 [] sig _ ⟨a1, rfl, rfl⟩
    ⟨⟨by decide, by decide, by decide⟩, a2, by omega⟩
  obtain ⟨s5, r5⟩ := h4 16 8 (Standard.secretLen hq).1 (Standard.secretLen hq).2
  rw [show oscoreIdOf (.bstr [0x18, 9]) = [0x18, 9] from rfl,
    show oscoreIdOf (Psa.Toy.choice q m (.int 5)).cid = [5] from by simp [Psa.Toy.choice, oscoreIdOf]; decide +kernel] at r5
  have := run_join r2 (run_join r3 (run_join r4 r5))
  exact ⟨_, _, _, _, _, _, _, by simpa using this⟩

end Verif
