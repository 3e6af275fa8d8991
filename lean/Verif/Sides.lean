import Verif.Locate
import Verif.SpecAgreement
import Verif.CborItem
import Verif.Props.Binding

/-!
# What the two sides of a message computed
-/

namespace Verif

open M Spec

variable {σ : Type} {E : Env σ} {cfg : Config}

/-! ## Strings -/

/-- Sig_structure of the parts -/
def sigBytes (idc th cr ea mac : Bytes) : Bytes :=
  arrayHead 4 ++ encTstr [0x53, 0x69, 0x67, 0x6e, 0x61, 0x74, 0x75, 0x72, 0x65, 0x31] ++
    encBstr idc ++ encBstr (encBstr th ++ cr ++ ea) ++ encBstr mac

theorem encBstr_le (b : Bytes) : b.length ≤ (encBstr b).length := by rw [encBstr_length]; omega

theorem bstr_split {a b r r' : Bytes} (ha : SizeOk a) (hb : SizeOk b) (h : encBstr a ++ r = encBstr b ++ r') :
    a = b ∧ r = r' := by
  obtain ⟨h1, _, h2⟩ := bstrItem_unamb (encBstr_item ha) (encBstr_item hb) h
  exact ⟨h1, h2⟩

theorem item_split {a b r r' : Bytes} (ha : Item a) (hb : Item b) (h : a ++ r = b ++ r') : a = b ∧ r = r' := by
  obtain ⟨rfl, h2⟩ := Item.prefixFree ha hb h
  exact ⟨rfl, h2⟩

theorem sigBytes_inj {i t c e m i' t' c' e' m' : Bytes} (hs : (sigBytes i t c e m).length < 2 ^ 64) (hc : Item c)
    (hc' : Item c') (h : sigBytes i t c e m = sigBytes i' t' c' e' m') :
    i = i' ∧ t = t' ∧ c = c' ∧ e = e' ∧ m = m' := by
  have hs' := hs
  rw [h] at hs'
  have size : ∀ {i t c e m : Bytes}, (sigBytes i t c e m).length < 2 ^ 64 →
      SizeOk i ∧ SizeOk (encBstr t ++ c ++ e) ∧ SizeOk m ∧ SizeOk t := by
    intro i t c e m h
    simp only [sigBytes, List.length_append] at h
    have h1 := encBstr_le i
    have h2 := encBstr_le (encBstr t ++ c ++ e)
    have h3 := encBstr_le m
    have h4 := encBstr_le t
    simp only [List.length_append] at h2
    unfold SizeOk
    simp only [List.length_append]
    omega
  obtain ⟨s1, s2, s3, s4⟩ := size hs
  obtain ⟨z1, z2, z3, z4⟩ := size hs'
  unfold sigBytes at h
  simp only [List.append_assoc] at h
  have h := List.append_cancel_left (List.append_cancel_left h)
  obtain ⟨e1, h⟩ := bstr_split s1 z1 h
  simp only [← List.append_assoc] at h
  obtain ⟨e2, h⟩ := bstr_split s2 z2 h
  obtain ⟨e3, _⟩ := bstr_split (r := []) (r' := []) s3 z3 (by simpa using h)
  simp only [List.append_assoc] at e2
  obtain ⟨e4, e2⟩ := bstr_split s4 z4 e2
  obtain ⟨e5, e6⟩ := item_split hc hc' e2
  exact ⟨e1, e4, e5, e6, e3⟩

/-- data of message 2 whose encodings can be read back -/
structure Sane2 (d : Data2) : Prop where
  cid : CidItem d.cr (cidItem d.cr)
  idCred : Item d.idCred
  cred : Item d.cred
  gy : SizeOk d.gy
  th1 : SizeOk d.th1
  th2 : SizeOk d.th2

theorem Sane2.context {d d' : Data2} (h : Sane2 d) (h' : Sane2 d') (e : d.context = d'.context) :
    d.cr = d'.cr ∧ d.idCred = d'.idCred ∧ d.th2 = d'.th2 ∧ d.cred = d'.cred ∧ d.ead = d'.ead := by
  unfold Data2.context at e
  simp only [List.append_assoc] at e
  obtain ⟨e1, _, e⟩ := cidItem_unamb h.cid h'.cid e
  obtain ⟨e2, e⟩ := item_split h.idCred h'.idCred e
  obtain ⟨e3, e⟩ := bstr_split h.th2 h'.th2 e
  obtain ⟨e4, e5⟩ := item_split h.cred h'.cred e
  exact ⟨e1, e2, e3, e4, e5⟩

/-- data of message 3 whose encodings can be read back -/
structure Sane3 (d : Data3) : Prop where
  idCred : Item d.idCred
  cred : Item d.cred
  gy : SizeOk d.gy
  th1 : SizeOk d.th1
  th2 : SizeOk d.th2
  th3 : SizeOk d.th3
  /-- PLAINTEXT_2 does not end after C_R -/
  more : ∃ x r, CidItem d.cr x ∧ d.ptxt2Cred = x ++ r ∧ r ≠ []

theorem Sane3.context {d d' : Data3} (h : Sane3 d) (h' : Sane3 d') (e : d.context = d'.context) :
    d.idCred = d'.idCred ∧ d.th3 = d'.th3 ∧ d.cred = d'.cred ∧ d.ead = d'.ead := by
  unfold Data3.context at e
  simp only [List.append_assoc] at e
  obtain ⟨e2, e⟩ := item_split h.idCred h'.idCred e
  obtain ⟨e3, e⟩ := bstr_split h.th3 h'.th3 e
  obtain ⟨e4, e5⟩ := item_split h.cred h'.cred e
  exact ⟨e2, e3, e4, e5⟩

/-- the input of TH_2 is not the input of TH_3 -/
theorem th2_ne_th3 {gy th1 : Bytes} {d : Data3} (h : Sane3 d) (hg : SizeOk gy) (h1 : SizeOk th1) :
    encBstr gy ++ encBstr th1 ≠ encBstr d.th2 ++ d.ptxt2Cred := by
  intro e
  obtain ⟨_, e⟩ := bstr_split hg h.th2 e
  obtain ⟨x, r, hx, hr, h0⟩ := h.more
  rw [hr, ← List.append_nil (encBstr th1)] at e
  exact h0 (item_split (BstrItem.item (encBstr_item h1)) (CidItem.item hx) e).2.symm

/-! ## Message 1 -/

theorem used_proj {c c' : Ctx} (h : c'.used = c.used) :
    suites c' = suites c ∧ c'.suite = c.suite ∧ c'.chosenMethod = c.chosenMethod ∧ c'.cid = c.cid := by
  unfold Ctx.used at h
  simp only [Prod.mk.injEq] at h
  exact h

theorem suitesI_last {c : Ctx} (h0 : c.csuiteLen ≠ 0) (he : 0 < (chosen c 0).suite.eccKey) :
    selectedSuite (suitesI (chosen c 0)) = some (chosen c 0).suite.value := by
  unfold suitesI
  split
  · rfl
  · have hl : c.csuiteLen - 1 < c.csuiteArr.length := by
      refine Classical.byContradiction fun h => ?_
      have : (chosen c 0).suite = Suite.zero := by
        show c.csuiteArr.getD (c.csuiteLen - 1) Suite.zero = Suite.zero
        rw [List.getD_eq_getElem?_getD, List.getElem?_eq_none (by omega)]; rfl
      rw [this] at he
      exact absurd he (by decide)
    show ((c.csuiteArr.take c.csuiteLen).map Suite.value).getLast? =
      some (c.csuiteArr.getD (c.csuiteLen - 1) Suite.zero).value
    rw [List.getLast?_map, List.getLast?_eq_getElem?, List.length_take, List.getElem?_take,
      show min c.csuiteLen c.csuiteArr.length = c.csuiteLen by omega, if_pos (by omega),
      List.getElem?_eq_getElem hl, List.getD_eq_getElem?_getD, List.getElem?_eq_getElem hl]
    rfl

theorem sent1 {n : Nat} {m1 : Bytes} {s1 a : St σ} {log : List Ev} (h : message1Compose E cfg n s1 = (.ok m1, a))
    (hl : s1.log = log) (hn : SuiteNumbers a.ctx) (he : 0 < a.ctx.suite.eccKey ∧ a.ctx.suite.eccKey < 2 ^ 32) (hm : a.ctx.chosenMethod ≤ 3) :
    ∃ gx l, KeyPairCall (sessionCalls log a) a.ctx.dhPriv gx ∧ (StartsMessage1 a.ctx.chosenMethod l gx m1 ∧
      selectedSuite l = some a.ctx.suite.value) ∧ HashCall (sessionCalls log a) m1 a.ctx.th := by
  obtain ⟨_, _, k0, _, priv, pub, kid, ts, th, l1, l2, _, g1, w1, en, _, l3, w2, x1⟩ := message1Compose_ok h
  rw [sessionCalls_eq hl]
  have su : a.ctx.suite = (chosen s1.ctx 0).suite := by rw [x1]; rfl
  have cm : a.ctx.chosenMethod = s1.ctx.method.headD 0 := by rw [x1]; rfl
  have hn1 : SuiteNumbers s1.ctx := by
    have : suites a.ctx = suites s1.ctx := by rw [x1]; rfl
    unfold SuiteNumbers at *
    rwa [this] at hn
  refine ⟨pub, suitesI (chosen s1.ctx 0), ?_, ⟨?_, ?_⟩, ?_⟩
  · rw [x1]; exact ⟨kid, w1.made⟩
  · obtain ⟨su', ci, ea, es, ec, ee, rfl⟩ := encMsg1_ok en
    refine ⟨encInt (a.ctx.chosenMethod : Nat), su', encBstr pub, ci ++ ea, encInt_item ?_,
      encSuites_item es (fun v hv => (suites_range hn1 k0 v hv).to65),
      encBstr_item ?_, by simp only [List.append_assoc, cm]⟩
    · unfold Int65Range; omega
    · unfold SizeOk; rw [l2, ← su]; omega
  · rw [su]; rw [su] at he
    exact suitesI_last k0 he.1
  · rw [x1]; exact w2.mem

theorem received1 {m1 : Bytes} {s1 a : St σ} {log : List Ev} (h : message1Process E cfg m1 s1 = (.ok (), a))
    (hl : s1.log = log) (he : 0 < a.ctx.suite.eccKey) :
    ∃ gx l, (StartsMessage1 a.ctx.chosenMethod l gx m1 ∧ selectedSuite l = some a.ctx.suite.value) ∧ HashCall (sessionCalls log a) m1 a.ctx.th := by
  obtain ⟨_, _, k0, m, me, pp, th1, hm1, hme, hme', l0, l1, _, w1, l3, x1⟩ := message1Process_ok h
  rw [sessionCalls_eq hl]
  have su : a.ctx.suite = (chosen s1.ctx 0).suite := by rw [x1]; rfl
  have cm : a.ctx.chosenMethod = me := by rw [x1]; rfl
  have hgx : m.gx ≠ [] := by
    intro h0
    rw [h0, ← su] at l1
    simp at l1; omega
  have h1 := getMsg1_start (d := cfg.dec) (b := m1) (by rw [hm1]; exact hgx)
  rw [hm1, ← hme', ← cm] at h1
  refine ⟨_, _, ⟨h1, ?_⟩, ?_⟩
  · rw [su]
    cases hs : m.suites with
    | one v => rw [hs] at l0; simp only [PeerSuites] at l0; simp [selectedSuite, l0.1]
    | list l => rw [hs] at l0; exact l0.1
  have w1' : Saw [.hash m1 (some th1)] s1 a := by
    rcases w1 with ⟨_, _, _, h⟩ | ⟨_, h⟩
    · exact ⟨[.eadProcess .msg1 m.ead true], [], by rw [h]; simp⟩
    · exact ⟨[], [], by rw [h]; simp⟩
  rw [x1]; exact w1'.mem

/-- the MAC of a call is the one in `v` -/
theorem own_mac {o : Op} {r : Res Out} {a b : St σ} (hs : step E cfg o a = (r, b)) (hd : r.Defined) {l : Nat}
    (hl : (performs o).count (.derive l) ≤ 1) (hl' : l ≤ 65535) {prk c mac : Bytes} {n : Nat}
    (h : Expanded prk l c n mac a b) (hn : n < 2 ^ 32) (hc : c.length < 2 ^ 64)
    {kid c' mac' : Bytes} {n' : Nat} (hv : Ev.expand kid (info l c' n') n' (some mac') ∈ during a b) (hn' : n' < 2 ^ 32)
    (hc' : c'.length < 2 ^ 64) : c = c' ∧ n = n' ∧ mac = mac' := by
  obtain ⟨_, k, hm⟩ := h.call hn
  have hm' : Ev.expand k (info l c n) n (some mac) ∈ during a b := hm.subset (by simp)
  have e := within_once (C33_performs hs hd) hl (.derive hl' hn) (.derive hl' hn') hm' hv
  simp only [Ev.expand.injEq, Option.some.injEq] at e
  obtain ⟨_, e1, rfl, e3⟩ := e
  exact ⟨(C33_info_injective (by omega) (by omega) (by omega) (by omega) hc hc' e1).2.1, rfl, e3⟩

/-! ## The two sides of message 2 -/

theorem Spec.VerifyCall.mono {L L' : List Ev} {k i d : Bytes} (j : L <:+: L') (h : VerifyCall L k i d) :
    VerifyCall L' k i d := by
  obtain ⟨x, h⟩ := h; exact ⟨x, Made.mono j h⟩

theorem info_size {l n : Nat} {c : Bytes} (h : (info l c n).length < 2 ^ 64) : c.length < 2 ^ 64 := by
  unfold info at h
  simp only [List.length_append] at h
  have := encBstr_le c
  omega

theorem cid_item {c : Cid} (hf : ∀ v, c = .int v → -24 ≤ v ∧ v ≤ 23) (hs : (cidItem c).length < 2 ^ 64) :
    CidItem c (cidItem c) := by
  cases c with
  | int v =>
    obtain ⟨h1, h2⟩ := hf v rfl
    exact ⟨h1, h2, encInt_item (by unfold Int65Range; omega)⟩
  | bstr b =>
    refine encBstr_item ?_
    have := encBstr_le b
    unfold SizeOk
    simp only [cidItem] at hs
    omega

section
variable {N : Node} {h1 : History} {a b : St N.σ} {v : Ev} {r : Res Out}

theorem Spec.Node.Good.session (g : N.Good) : Session N.env N.cfg N.start N.log N.hist N.state := g.proper.session

theorem expand_size (g : N.Good) {prk c o : Bytes} {l n : Nat} (h : ExpandCall N.calls prk l c n o) :
    c.length < 2 ^ 64 := by
  obtain ⟨_, k, hm⟩ := h
  have hi : Ev.expand k (info l c n) n (some o) ∈ N.calls := hm.subset (by simp)
  exact info_size (g.infos hi)

theorem Spec.Node.Good.th (g : N.Good) {i o : Bytes} (h : HashCall N.calls i o) : SizeOk o := regular_size g.proper.regular h

/-- the facts about a session that do not depend on the call -/
structure Env2 (N : Node) (a : St N.σ) : Prop where
  sub : sessionCalls N.log a <:+: N.calls
  suite : N.suite = a.ctx.suite
  method : N.method = a.ctx.chosenMethod
  cid : N.state.ctx.cid = a.ctx.cid
  numbers : SuiteNumbers a.ctx
  ecc : 0 < a.ctx.suite.eccKey ∧ a.ctx.suite.eccKey < 2 ^ 32
  small : SuiteSmall a.ctx.suite

theorem placed_env {o : Op} (g : N.Good) (p : Placed N.env N.cfg N.start N.log N.hist N.state h1 o r a b)
    (hm : messages h1 ≠ []) : Env2 N a := by
  obtain ⟨u1, u2, u3, u4⟩ := used_proj (p.used g.session g.proper.settled hm)
  have hr := g.proper.regular
  rw [u2] at hr
  refine ⟨(List.infix_append' [] _ _).trans p.calls, u2, u3, u4, ?_, hr.ecc, hr.small⟩
  have := g.proper.numbers
  unfold SuiteNumbers at *
  rwa [u1] at this

theorem placed_sub {o : Op} (p : Placed N.env N.cfg N.start N.log N.hist N.state h1 o r a b) : during a b <:+: N.calls :=
  (List.suffix_append _ _).isInfix.trans p.calls

/-- The Responder came to its MAC in message 2. -/
theorem side_compose2 {n : Nat} (g : N.Good) (p : Placed N.env N.cfg N.start N.log N.hist N.state h1 (.compose2 n) r a b)
    (hv : v ∈ during a b) (ha : Auth 2 v) :
    ∃ d, Sane2 d ∧ Answered2 N d ∧ (∀ k i o, v = .sign k i o → i = sigBytes d.idCred d.th2 d.cred d.ead d.mac) ∧
      (∀ k c n mac, v = .expand k (info 2 c n) n (some mac) → n < 2 ^ 32 → d.context = c ∧ d.mac = mac) := by
  obtain ⟨r0, h0, hr⟩ := mapOut_cases p.step
  have hd0 : r0.Defined := by
    rcases hr with ⟨a, rfl, _⟩ | ⟨e, rfl, _⟩ | ⟨u, rfl, rfl⟩
    · simp
    · simp
    · exact absurd rfl (p.defined u)
  obtain ⟨priv, pub, kid, cr, th2, ts, mac, hd, hsg⟩ := message2Compose_head h0 hd0 hv ha
  obtain ⟨m1, s1, in1, hms, hc, ho, hl, c1⟩ := stage_received1 p.before (p.settled g.proper.settled) hd.state
  have ev := placed_env g p (by rw [hms]; simp)
  have i2 := placed_sub p
  obtain ⟨gx, l, st, w1⟩ := received1 c1 hl ev.ecc.1
  have cid1 : a.ctx.cid = s1.ctx.cid := by
    obtain ⟨_, _, _, m, me, pp, th1, _, _, _, _, _, _, _, _, x1⟩ := message1Process_ok c1
    rw [x1]; rfl
  obtain ⟨prk, hx⟩ := hd.prk
  have hml : macLenOf (responderSigns a.ctx.chosenMethod) a.ctx.suite < 2 ^ 32 := macLen_lt ev.small
  have hxc := (hx.call hml).mono i2
  have hcx : (context2 a.ctx.cid cr th2 ts).length < 2 ^ 64 := by
    exact expand_size g hxc
  have hit := g.supplied (i2.subset hd.fetch.mem)
  have t1 : HashCall N.calls m1 a.ctx.th := w1.mono ev.sub
  have t2 : HashCall N.calls (encBstr pub ++ encBstr a.ctx.th) th2 := hd.hash.call.mono i2
  refine ⟨⟨a.ctx.chosenMethod, a.ctx.suite.value, m1, gx, pub, a.ctx.th, th2, a.ctx.cid, idCred cr, cred cr, ead ts, mac⟩, ?_, ?_, ?_, ?_⟩
  · refine ⟨cid_item ?_ ?_, hit.1, hit.2, ?_, g.th t1, g.th t2⟩
    · intro v hv
      simp only at hv
      have := ho
      unfold OwnCid at this
      rw [← cid1, hv] at this
      simpa [documented] using this
    · unfold context2 at hcx
      simp only [List.length_append] at hcx
      simp only; omega
    · have := hd.pubLen
      have := ev.ecc.2
      unfold SizeOk; simp only; omega
  · refine ⟨⟨ev.method, by rw [ev.suite], ⟨l, st⟩, t1, t2, ⟨prk, _, hxc⟩⟩, p.sub in1, ⟨n, r, p.mem⟩, ⟨priv, ?_⟩,
      ⟨cr, kid, CredSupplied.mono i2 hd.fetch.mem, rfl, rfl⟩, ev.cid⟩
    obtain ⟨k, hk⟩ := hd.keyPair
    exact KeyPairCall.mono i2 ⟨k, List.IsInfix.trans ⟨[.importKey .makeKeyPair [] (some k)], [], rfl⟩ hk.made⟩
  · intro k i o hvv
    exact (hsg k i o hvv).2.1
  · intro k c n' mac' hvv hn'
    subst hvv
    have hcc := info_size (g.infos (i2.subset hv))
    obtain ⟨e1, _, e2⟩ := own_mac p.step p.defined (by simp [performs]) (by decide) hx hml hcx hv hn' hcc
    exact ⟨e1, e2⟩

/-- The Initiator came to its MAC in message 2. -/
theorem side_process2 {m2 : Bytes} (g : N.Good)
    (p : Placed N.env N.cfg N.start N.log N.hist N.state h1 (.process2 m2) r a b)
    (hv : v ∈ during a b) (ha : Auth 2 v) :
    ∃ d, Sane2 d ∧ Shares2 N d ∧ (∃ x, KeyPairCall N.calls x d.gx) ∧
      (∀ k c n mac, v = .expand k (info 2 c n) n (some mac) → n < 2 ^ 32 → d.context = c ∧ d.mac = mac) := by
  obtain ⟨r0, h0, hr⟩ := mapOut_cases p.step
  have hd0 : r0.Defined := by
    rcases hr with ⟨a, rfl, _⟩ | ⟨e, rfl, _⟩ | ⟨u, rfl, rfl⟩
    · simp
    · simp
    · exact absurd rfl (p.defined u)
  obtain ⟨gy, cid, id, cr, pk, th2, ts, mac, hd⟩ := message2Process_head h0 hd0 hv ha
  obtain ⟨n, m1, s1, in1, hms, hc, ho, hl, c1⟩ := stage_wait2 p.before (p.settled g.proper.settled) hd.state
  have ev := placed_env g p (by rw [hms]; simp)
  have i2 := placed_sub p
  obtain ⟨gx, l, kp, st, w1⟩ := sent1 c1 hl ev.numbers ev.ecc hd.method
  obtain ⟨prk, hx⟩ := hd.prk
  have hml : macLenOf (responderSigns a.ctx.chosenMethod) a.ctx.suite < 2 ^ 32 := macLen_lt ev.small
  have hxc := (hx.call hml).mono i2
  have hcx : (context2 cid cr th2 ts).length < 2 ^ 64 := by
    exact expand_size g hxc
  have hit := g.returned (i2.subset hd.verified.mem)
  have t1 : HashCall N.calls m1 a.ctx.th := w1.mono ev.sub
  have t2 : HashCall N.calls (encBstr gy ++ encBstr a.ctx.th) th2 := hd.hash.call.mono i2
  refine ⟨⟨a.ctx.chosenMethod, a.ctx.suite.value, m1, gx, gy, a.ctx.th, th2, cid, idCred cr, cred cr, ead ts, mac⟩, ?_, ?_, ?_, ?_⟩
  · refine ⟨cid_item ?_ ?_, hit.1, hit.2, ?_, g.th t1, g.th t2⟩
    · intro v hv
      simp only at hv
      have := hd.fits
      rw [hv] at this
      exact this
    · unfold context2 at hcx
      simp only [List.length_append] at hcx
      simp only; omega
    · have := hd.gyLen
      have := ev.ecc.2
      unfold SizeOk; simp only; omega
  · exact ⟨ev.method, by rw [ev.suite], ⟨l, st⟩, t1, t2, ⟨prk, _, hxc⟩⟩
  · exact ⟨_, kp.mono ev.sub⟩
  · intro k c n' mac' hvv hn'
    subst hvv
    have hcc := info_size (g.infos (i2.subset hv))
    obtain ⟨e1, _, e2⟩ := own_mac p.step p.defined (by simp [performs]) (by decide) hx hml hcx hv hn' hcc
    exact ⟨e1, e2⟩

/-- The Initiator accepted message 2. -/
theorem side_accept2 {m2 : Bytes} (g : N.Good) (hm : (.process2 m2, .ok .unit) ∈ N.hist) :
    ∃ d pk, Sane2 d ∧ Accepted2 N m2 d pk ∧
      (responderSigns N.method = true → (∃ sig, VerifyCall N.calls pk (sigBytes d.idCred d.th2 d.cred d.ead d.mac) sig) ∧
        ∃ prk, ExpandCall N.calls prk 2 d.context N.suite.hash d.mac) ∧
      (responderSigns N.method = false → ∃ n, n < 2 ^ 32 ∧ MacUnder N.calls pk 2 d.context n d.mac) := by
  obtain ⟨h1, a, b, p⟩ := session_at g.session hm
  obtain ⟨_, h0, _⟩ := mapOut_ok.1 p.step
  obtain ⟨gy, c2, cid, pt, id, pk, v, hd⟩ := message2Process_ok h0
  obtain ⟨n, m1, s1, in1, hms, hc, ho, hl, c1⟩ := stage_wait2 p.before (p.settled g.proper.settled) hd.state
  have ev := placed_env g p (by rw [hms]; simp)
  have i2 := placed_sub p
  obtain ⟨gx, l, kp, st, w1⟩ := sent1 c1 hl ev.numbers ev.ecc hd.method
  have hx := hd.mac
  have hml : macLenOf (responderSigns a.ctx.chosenMethod) a.ctx.suite < 2 ^ 32 := macLen_lt ev.small
  have hxc := (hx.call hml).mono i2
  have hcx : (context2 cid v.cred v.th2 v.ead).length < 2 ^ 64 := by
    exact expand_size g hxc
  have hit := g.returned (i2.subset hd.verified.mem)
  have t1 : HashCall N.calls m1 a.ctx.th := w1.mono ev.sub
  have t2 : HashCall N.calls (encBstr gy ++ encBstr a.ctx.th) v.th2 := hd.th2.call.mono i2
  have hau := hd.auth.call
  refine ⟨⟨a.ctx.chosenMethod, a.ctx.suite.value, m1, gx, gy, a.ctx.th, v.th2, cid, idCred v.cred, cred v.cred, ead v.ead, v.mac⟩, pk,
    ?_, ?_, ?_, ?_⟩
  · refine ⟨cid_item ?_ ?_, hit.1, hit.2, ?_, g.th t1, g.th t2⟩
    · intro w hw
      simp only at hw
      have := hd.cidFits
      rw [hw] at this
      exact this
    · unfold context2 at hcx
      simp only [List.length_append] at hcx
      simp only; omega
    · have := hd.gyLen
      have := ev.ecc.2
      unfold SizeOk; simp only; omega
  · exact ⟨⟨ev.method, by rw [ev.suite], ⟨l, st⟩, t1, t2, ⟨_, _, hxc⟩⟩, ⟨n, p.sub in1⟩, hm, ⟨_, kp.mono ev.sub⟩,
      ⟨by rw [ev.suite]; exact hd.gyLen, c2, getMsgBstr_sound hd.parsed⟩, ⟨id, v.cred, CredAccepted.mono i2 hd.verified.mem, rfl, rfl⟩⟩
  · intro hs
    rw [ev.method] at hs
    rw [hs] at hau hxc
    refine ⟨⟨_, VerifyCall.mono i2 hau⟩, v.prk3e2m, ?_⟩
    rw [ev.suite]
    exact hxc
  · intro hs
    rw [ev.method] at hs
    have hk := (hd.prk3e2m.call (B := AgreeCall N.calls a.ctx.dhPriv pk) ev.small.2.2.1
      fun gg hg => hg.call.mono i2).mono i2 fun _ h => h
    rw [hs] at hk
    obtain ⟨salt, gg, _, ag, ex⟩ := hk
    exact ⟨_, hml, a.ctx.dhPriv, gx, gg, salt, _, kp.mono ev.sub, ag, ex, hxc⟩

/-! ## The two sides of message 3 -/

/-- what a session knows when message 2 is done -/
structure Done2 (N : Node) (a : St N.σ) (d : Data3) : Prop where
  env : Env2 N a
  method : d.method = a.ctx.chosenMethod
  suite : d.suite = a.ctx.suite.value
  message1 : ∃ l, StartsMessage1 d.method l d.gx d.m1 ∧ selectedSuite l = some d.suite
  th1 : HashCall N.calls d.m1 d.th1
  th2 : HashCall N.calls (encBstr d.gy ++ encBstr d.th1) d.th2
  th3 : HashCall N.calls (encBstr d.th2 ++ d.ptxt2Cred) d.th3
  th : a.ctx.th = d.th3
  gy : SizeOk d.gy
  more : ∃ x r, CidItem d.cr x ∧ d.ptxt2Cred = x ++ r ∧ r ≠ []

theorem Done2.sane {d : Data3} (g : N.Good) (h : Done2 N a d) (hi : Item d.idCred) (hc : Item d.cred) : Sane3 d :=
  ⟨hi, hc, h.gy, g.th h.th1, g.th h.th2, g.th h.th3, h.more⟩

theorem Done2.shares {d : Data3} (h : Done2 N a d) (hm : ∃ prk n, ExpandCall N.calls prk 6 d.context n d.mac) :
    Shares3 N d := by
  obtain ⟨x, r, hx, hr, _⟩ := h.more
  exact ⟨h.env.method.trans h.method.symm, by rw [h.env.suite, h.suite], h.message1, h.th1, h.th2, h.th3, ⟨x, r, hx, hr⟩, hm⟩

theorem item_ne_nil {b : Bytes} (h : Item b) : b ≠ [] := by
  obtain ⟨n, t, _, rfl⟩ := Item.first h
  simp

theorem initiator_done2 {o : Op} (g : N.Good) (p : Placed N.env N.cfg N.start N.log N.hist N.state h1 o r a b)
    (ho : okVerifiedM2 a.ctx = true) (idc crd ea mac : Bytes) :
    ∃ m1 gx gy th1 th2 cr pt, Done2 N a ⟨a.ctx.chosenMethod, a.ctx.suite.value, m1, gx, gy, th1, th2, a.ctx.th, cr, pt, idc, crd, ea, mac⟩ ∧
      (∃ n, (.compose1 n, .ok (.bytes m1)) ∈ N.hist) ∧
      (gy.length = N.suite.eccKey ∧ ∃ m2 c, (.process2 m2, .ok .unit) ∈ N.hist ∧ StartsBstr (gy ++ c) m2) ∧ (∃ x, KeyPairCall N.calls x gx) := by
  obtain ⟨n, m1, m2, s1, s2, in1, in2, hms, hc, ho, hl, c1, c2⟩ := stage_verified2 p.before (p.settled g.proper.settled) ho
  have ev := placed_env g p (by rw [hms]; simp)
  obtain ⟨gy, ct, cid, pt, id, pk, v, q2⟩ := message2Process_ok c2
  have g1 : Grow s1 s2 := by
    obtain ⟨_, _, _, _, _, _, _, _, _, _, _, _, g1, _⟩ := message1Compose_ok c1
    exact g1
  have ia : during s1 a <:+: N.calls := by
    have := ev.sub
    rwa [sessionCalls_eq hl] at this
  have i1 : sessionCalls N.log s2 <:+: N.calls := by
    rw [sessionCalls_eq hl]
    exact (infix_of (Saw.refl s1) g1 q2.grow).trans ia
  have i2 : during s2 a <:+: N.calls := (infix_of g1 q2.grow (Saw.refl a)).trans ia
  have su : a.ctx.suite = s2.ctx.suite := by rw [q2.ctx]; rfl
  have cm : a.ctx.chosenMethod = s2.ctx.chosenMethod := by rw [q2.ctx]
  have hn : SuiteNumbers s2.ctx := by
    have h0 : suites a.ctx = suites s2.ctx := by rw [q2.ctx]; rfl
    have := ev.numbers
    unfold SuiteNumbers at *
    rwa [h0] at this
  have ecc := ev.ecc
  rw [su] at ecc
  obtain ⟨gx, l, kp, st, w1⟩ := sent1 c1 hl hn ecc q2.method
  have t3 := q2.th3.call.mono i2
  have hs3 : v.h3.length = s2.ctx.suite.hash := by
    have hr := g.proper.regular
    have := hr.hash _ _ t3
    rwa [show N.state.ctx.suite = a.ctx.suite from ev.suite, su] at this
  have et : a.ctx.th = v.h3 := by rw [q2.ctx]; exact overlay_full hs3 q2.th2Len
  obtain ⟨_, pb, pr, ⟨x, t, hx, _, rfl⟩, hpt⟩ := getPtxt2_sound q2.decoded
  refine ⟨m1, gx, gy, s2.ctx.th, v.th2, cid, v.ptxt ++ cred v.cred, ⟨ev, rfl, rfl, ⟨l, ?_⟩, w1.mono i1,
    q2.th2.call.mono i2, ?_, rfl, ?_, x, t ++ pr ++ cred v.cred, hx, ?_, ?_⟩, ⟨n, p.sub in1⟩,
    ⟨by rw [ev.suite, su]; exact q2.gyLen, m2, ct, p.sub in2, getMsgBstr_sound q2.parsed⟩, ⟨_, kp.mono i1⟩⟩
  · simp only; rw [cm, su]; exact st
  · simp only; rw [et, ← List.append_assoc]; exact t3
  · have := q2.gyLen
    unfold SizeOk; simp only; omega
  · simp only [hpt, List.append_assoc]
  · have := item_ne_nil (g.returned (i2.subset q2.verified.mem)).2
    simp [this]

theorem responder_done2 {o : Op} (g : N.Good) (p : Placed N.env N.cfg N.start N.log N.hist N.state h1 o r a b)
    (ho : okWaitM3 a.ctx = true) (idc crd ea mac : Bytes) :
    ∃ m1 gx gy th1 th2 pt,
      Done2 N a ⟨a.ctx.chosenMethod, a.ctx.suite.value, m1, gx, gy, th1, th2, a.ctx.th, a.ctx.cid, pt, idc, crd, ea, mac⟩ ∧
      (.process1 m1, .ok .unit) ∈ N.hist ∧ (∃ n m2, (.compose2 n, .ok (.bytes m2)) ∈ N.hist) ∧
      KeyPairCall N.calls a.ctx.dhPriv gy := by
  obtain ⟨n, m1, m2, s1, s2, in1, in2, hms, hc, ho, hl, c1, c2⟩ := stage_wait3 p.before (p.settled g.proper.settled) ho
  have ev := placed_env g p (by rw [hms]; simp)
  obtain ⟨priv, pub, kid, v, q2⟩ := message2Compose_ok c2
  have g1 : Grow s1 s2 := step_grow (E := N.env) (cfg := N.cfg) (o := .process1 m1) (r := .ok .unit)
    (mapOut_ok.2 ⟨_, c1, rfl⟩) (by simp)
  have ia : during s1 a <:+: N.calls := by
    have := ev.sub
    rwa [sessionCalls_eq hl] at this
  have i1 : sessionCalls N.log s2 <:+: N.calls := by
    rw [sessionCalls_eq hl]
    exact (infix_of (Saw.refl s1) g1 q2.grow).trans ia
  have i2 : during s2 a <:+: N.calls := (infix_of g1 q2.grow (Saw.refl a)).trans ia
  have su : a.ctx.suite = s2.ctx.suite := by rw [q2.ctx]; rfl
  have cm : a.ctx.chosenMethod = s2.ctx.chosenMethod := by rw [q2.ctx]
  have ci : a.ctx.cid = s2.ctx.cid := by rw [q2.ctx]
  have cid1 : s2.ctx.cid = s1.ctx.cid := by
    obtain ⟨_, _, _, m, me, pp, th1, _, _, _, _, _, _, _, _, x1⟩ := message1Process_ok c1
    rw [x1]; rfl
  have ecc := ev.ecc
  have small := ev.small
  rw [su] at ecc small
  obtain ⟨gx, l, st, w1⟩ := received1 c1 hl ecc.1
  have t3 := q2.th3.call.mono i2
  have hs3 : v.h3.length = s2.ctx.suite.hash := by
    have hr := g.proper.regular
    have := hr.hash _ _ t3
    rwa [show N.state.ctx.suite = a.ctx.suite from ev.suite, su] at this
  have et : a.ctx.th = v.h3 := by rw [q2.ctx]; exact overlay_full hs3 q2.th2Len
  have hcx := expand_size g ((q2.mac.call (macLen_lt small)).mono i2)
  obtain ⟨t, _, hpt⟩ := q2.ptxt
  have hci : CidItem a.ctx.cid (cidItem a.ctx.cid) := by
    refine cid_item ?_ ?_
    · intro v hv
      have := ho
      unfold OwnCid at this
      rw [← cid1, ← ci, hv] at this
      simpa [documented] using this
    · rw [ci]
      unfold context2 at hcx
      simp only [List.length_append] at hcx
      omega
  refine ⟨m1, gx, pub, s2.ctx.th, v.th2, v.ptxt ++ cred v.cred, ⟨ev, rfl, rfl, ⟨l, ?_⟩, w1.mono i1,
    q2.th2.call.mono i2, ?_, rfl, ?_, cidItem a.ctx.cid, t ++ cred v.cred, hci, ?_, ?_⟩, p.sub in1,
    ⟨n, m2, p.sub in2⟩, ?_⟩
  · simp only; rw [cm, su]; exact st
  · simp only; rw [et, ← List.append_assoc]; exact t3
  · have := q2.pubLen
    unfold SizeOk; simp only; omega
  · simp only [hpt, ci, List.append_assoc]
  · have := item_ne_nil (g.supplied (i2.subset q2.fetch.mem)).2
    simp [this]
  · obtain ⟨k, hk⟩ := q2.keyPair
    rw [q2.ctx]
    exact KeyPairCall.mono i2 ⟨k, List.IsInfix.trans ⟨[.importKey .makeKeyPair [] (some k)], [], rfl⟩ hk.made⟩

/-- The Initiator came to its MAC in message 3. -/
theorem side_compose3 {n : Nat} (g : N.Good) (p : Placed N.env N.cfg N.start N.log N.hist N.state h1 (.compose3 n) r a b)
    (hv : v ∈ during a b) (ha : Auth 6 v) :
    ∃ d, Sane3 d ∧ Answered3 N d ∧ (∀ k i o, v = .sign k i o → i = sigBytes d.idCred d.th3 d.cred d.ead d.mac) ∧
      (∀ k c n mac, v = .expand k (info 6 c n) n (some mac) → n < 2 ^ 32 → d.context = c ∧ d.mac = mac) := by
  obtain ⟨r0, h0, hr⟩ := mapOut_cases p.step
  have hd0 : r0.Defined := by
    rcases hr with ⟨a, rfl, _⟩ | ⟨e, rfl, _⟩ | ⟨u, rfl, rfl⟩
    · simp
    · simp
    · exact absurd rfl (p.defined u)
  obtain ⟨kid, cr, ts, mac, hd, hsg⟩ := message3Compose_head h0 hd0 hv ha
  obtain ⟨m1, gx, gy, th1, th2, cid, pt, dn, in1, in2, kp⟩ :=
    initiator_done2 g p hd.state (idCred cr) (cred cr) (ead ts) mac
  have i2 := placed_sub p
  obtain ⟨prk, hx⟩ := hd.prk
  have hml : macLenOf (initiatorSigns a.ctx.chosenMethod) a.ctx.suite < 2 ^ 32 := macLen_lt dn.env.small
  have hxc := (hx.call hml).mono i2
  have hcx := expand_size g hxc
  have hit := g.supplied (i2.subset hd.fetch.mem)
  refine ⟨_, dn.sane g hit.1 hit.2, ⟨dn.shares ⟨prk, _, hxc⟩, in1, in2, ⟨n, r, p.mem⟩, kp,
    ⟨cr, kid, CredSupplied.mono i2 hd.fetch.mem, rfl, rfl⟩⟩, ?_, ?_⟩
  · intro k i o hvv
    exact (hsg k i o hvv).2.1
  · intro k c n' mac' hvv hn'
    subst hvv
    have hcc := info_size (g.infos (i2.subset hv))
    obtain ⟨e1, _, e2⟩ := own_mac p.step p.defined (by simp [performs]) (by decide) hx hml hcx hv hn' hcc
    exact ⟨e1, e2⟩

/-- The Responder came to its MAC in message 3. -/
theorem side_process3 {m3 : Bytes} (g : N.Good)
    (p : Placed N.env N.cfg N.start N.log N.hist N.state h1 (.process3 m3) r a b)
    (hv : v ∈ during a b) (ha : Auth 6 v) :
    ∃ d, Sane3 d ∧ Shares3 N d ∧ (∃ y, KeyPairCall N.calls y d.gy) ∧
      (∀ k c n mac, v = .expand k (info 6 c n) n (some mac) → n < 2 ^ 32 → d.context = c ∧ d.mac = mac) := by
  obtain ⟨r0, h0, hr⟩ := mapOut_cases p.step
  have hd0 : r0.Defined := by
    rcases hr with ⟨a, rfl, _⟩ | ⟨e, rfl, _⟩ | ⟨u, rfl, rfl⟩
    · simp
    · simp
    · exact absurd rfl (p.defined u)
  obtain ⟨id, cr, pk, ts, mac, hd⟩ := message3Process_head h0 hd0 hv ha
  obtain ⟨m1, gx, gy, th1, th2, pt, dn, in1, in2, kp⟩ :=
    responder_done2 g p hd.state (idCred cr) (cred cr) (ead ts) mac
  have i2 := placed_sub p
  obtain ⟨prk, hx⟩ := hd.prk
  have hml : macLenOf (initiatorSigns a.ctx.chosenMethod) a.ctx.suite < 2 ^ 32 := macLen_lt dn.env.small
  have hxc := (hx.call hml).mono i2
  have hcx := expand_size g hxc
  have hit := g.returned (i2.subset hd.verified.mem)
  refine ⟨_, dn.sane g hit.1 hit.2, dn.shares ⟨prk, _, hxc⟩, ⟨_, kp⟩, ?_⟩
  intro k c n' mac' hvv hn'
  subst hvv
  have hcc := info_size (g.infos (i2.subset hv))
  obtain ⟨e1, _, e2⟩ := own_mac p.step p.defined (by simp [performs]) (by decide) hx hml hcx hv hn' hcc
  exact ⟨e1, e2⟩

/-- The Responder accepted message 3. -/
theorem side_accept3 {m3 : Bytes} (g : N.Good) (hm : (.process3 m3, .ok .unit) ∈ N.hist) :
    ∃ d pk, Sane3 d ∧ Accepted3 N m3 d pk ∧
      (initiatorSigns N.method = true → ∃ sig, VerifyCall N.calls pk (sigBytes d.idCred d.th3 d.cred d.ead d.mac) sig) ∧
      (initiatorSigns N.method = false → ∃ n, n < 2 ^ 32 ∧ MacUnder N.calls pk 6 d.context n d.mac) := by
  obtain ⟨h1, a, b, p⟩ := session_at g.session hm
  obtain ⟨_, h0, _⟩ := mapOut_ok.1 p.step
  obtain ⟨pt, id, pk, v, hd⟩ := message3Process_ok h0
  obtain ⟨m1, gx, gy, th1, th2, pt, dn, in1, in2, kp⟩ :=
    responder_done2 g p hd.state (idCred v.cred) (cred v.cred) (ead v.ead) v.mac
  have ev := dn.env
  have i2 := placed_sub p
  have hx := hd.mac
  have hml : macLenOf (initiatorSigns a.ctx.chosenMethod) a.ctx.suite < 2 ^ 32 := macLen_lt dn.env.small
  have hxc := (hx.call hml).mono i2
  have hit := g.returned (i2.subset hd.verified.mem)
  have hau := hd.auth.call
  refine ⟨_, pk, dn.sane g hit.1 hit.2, ⟨dn.shares ⟨_, _, hxc⟩, in1, in2, hm, ⟨_, kp⟩,
      ⟨id, v.cred, CredAccepted.mono i2 hd.verified.mem, rfl, rfl⟩, ev.cid⟩, ?_, ?_⟩
  · intro hs
    rw [ev.method] at hs
    rw [hs] at hau
    exact ⟨_, VerifyCall.mono i2 hau⟩
  · intro hs
    rw [ev.method] at hs
    have hk := (hd.prk4e3m.call (B := AgreeCall N.calls a.ctx.dhPriv pk) ev.small.2.2.1
      fun gg hg => hg.call.mono i2).mono i2 fun _ h => h
    rw [hs] at hk
    obtain ⟨salt, gg, _, ag, ex⟩ := hk
    exact ⟨_, hml, a.ctx.dhPriv, gy, gg, salt, _, kp, ag, ex, hxc⟩

end

end Verif
