import Verif.Eval8
import Verif.Props.History
import Verif.Props.Setters
import Verif.ToyPeers

/-!
# C12: an honest handshake completes
-/

namespace Verif

open M Spec

variable {σ σI σR : Type} {P : Prims} {V : Bytes → Bytes → Bytes → Bool} {su : Suite} {k : Bounds} {me : Nat}
  {II : σI → Prop} {IR : σR → Prop} {EI : Env σI} {ER : Env σR} {cfgI cfgR : Config} {pI pR : Identity} {gI gR : Choice}

theorem run_snoc {E : Env σ} {cfg : Config} {s s1 s2 : St σ} {h : History} {o : Op} {r : Res Out} (h1 : Run E cfg s h s1)
    (h2 : step E cfg o s1 = (r, s2)) (hd : r.Defined) : Run E cfg s (h ++ [(o, r)]) s2 := by
  induction h1 with
  | nil s => exact .cons h2 hd (.nil _)
  | cons a b _ ih => exact .cons a b (ih h2)

theorem defined_ok {o : Out} : (Res.ok o).Defined := nofun

/-- the configuration calls bring any context into the initial state -/
theorem configured {E : Env σ} {cfg : Config} {g : Choice} (h : g.Ok cfg su) (s : St σ) :
    ∃ s', Run E cfg s (done g.calls) s' ∧ Ready su s'.ctx ∧ s'.ctx.method = g.methods ∧ s'.ctx.cid = g.cid ∧
      (s'.ctx.csuiteLen = g.suites.length ∧ suites s'.ctx = g.suites) ∧ s'.env = s.env := by
  have set : ∀ (o : Op) (s : St σ), isSetter o = true → documented cfg o → s.ctx.isInit = true →
      ∃ s', step E cfg o s = (.ok .unit, s') ∧ s'.env = s.env ∧ Stored s.ctx s'.ctx o := by
    intro o s ho hd hi
    rcases C30_setters (E := E) (cfg := cfg) ho s with ⟨_, _, c', h1, h2⟩ | ⟨h1, _⟩
    · exact ⟨_, h1, rfl, h2⟩
    · exact absurd ⟨hi, hd⟩ h1
  obtain ⟨s0, r0, v0, i0⟩ : ∃ s0, step E cfg .init s = (.ok .unit, s0) ∧ s0.env = s.env ∧ s0.ctx = Ctx.fresh :=
    ⟨_, rfl, rfl, rfl⟩
  obtain ⟨s1, r1, v1, i1⟩ := set (.setMethods g.methods) s0 rfl (h.domain _ (by simp [Choice.settings])) (by rw [i0]; rfl)
  change s1.ctx = _ at i1
  rw [i0] at i1
  obtain ⟨s2, r2, v2, j1, j2, i2⟩ := set (.setSuites g.suites) s1 rfl (h.domain _ (by simp [Choice.settings])) (by rw [i1]; rfl)
  rw [i1] at i2
  obtain ⟨s3, r3, v3, i3⟩ := set (.setCid g.cid) s2 rfl (h.domain _ (by simp [Choice.settings])) (by rw [i2]; rfl)
  change s3.ctx = _ at i3
  obtain ⟨s4, r4, v4, i4⟩ := set (.bindKeys true) s3 rfl rfl (by rw [i3, i2]; rfl)
  change s4.ctx = _ at i4
  obtain ⟨s5, r5, v5, i5⟩ := set (.bindCrypto true) s4 rfl rfl (by rw [i4, i3, i2]; rfl)
  change s5.ctx = _ at i5
  obtain ⟨s6, r6, v6, i6⟩ := set (.bindCred true) s5 rfl rfl (by rw [i5, i4, i3, i2]; rfl)
  change s6.ctx = _ at i6
  have hrun : Run E cfg s (done [.init, .setMethods g.methods, .setSuites g.suites, .setCid g.cid, .bindKeys true,
      .bindCrypto true, .bindCred true]) s6 :=
    .cons r0 nofun (.cons r1 nofun (.cons r2 nofun (.cons r3 nofun (.cons r4 nofun (.cons r5 nofun (.cons r6 nofun
      (.nil _)))))))
  have hv : s6.env = s.env := by rw [v6, v5, v4, v3, v2, v1, v0]
  have hlen : 1 ≤ g.suites.length := (h.domain (.setSuites g.suites) (by simp [Choice.settings])).1
  have harr : g.suites.length ≤ s2.ctx.csuiteArr.length := by
    have : (suites s2.ctx).length = g.suites.length := by rw [j1]
    rw [suites, List.length_take, j2] at this
    omega
  have hready : ∀ c : Ctx, (∃ a b, c = { s6.ctx with hasEadCompose := a, hasEadProcess := b }) →
      Ready su c ∧ c.method = g.methods ∧ c.cid = g.cid ∧ c.csuiteLen = g.suites.length ∧ suites c = g.suites := by
    rintro c ⟨a, b, rfl⟩
    have q0 : suites ({ s6.ctx with hasEadCompose := a, hasEadProcess := b } : Ctx) = g.suites := by
      rw [← j1, i6, i5, i4, i3]; rfl
    have q1 : s6.ctx.csuiteLen = g.suites.length := by rw [i6, i5, i4, i3]; exact j2
    have q2 : s6.ctx.csuiteArr = s2.ctx.csuiteArr := by rw [i6, i5, i4, i3]
    refine ⟨⟨?_, ?_, ?_, ?_, ?_, ?_⟩, ?_, ?_, q1, q0⟩
    · simp only [i6, i5, i4, i3]; rw [i2]; exact ⟨rfl, rfl, rfl⟩
    · simp only [i6, i5, i4]; exact ⟨trivial, trivial, trivial⟩
    · simp only [i6, i5, i4, i3]; rw [i2]; exact ⟨rfl, rfl⟩
    · simp only [q1, q2]; exact ⟨hlen, h.few, harr⟩
    · unfold SuiteNumbers
      rw [q0]; exact h.numbers
    · rw [q0]; exact h.selected
    · simp only [i6, i5, i4, i3]; rw [i2]
    · simp only [i6, i5, i4, i3]
  cases he : g.ead with
  | none =>
    obtain ⟨w1, w2, w3, w4⟩ := hready _ ⟨s6.ctx.hasEadCompose, s6.ctx.hasEadProcess, rfl⟩
    refine ⟨s6, ?_, w1, w2, w3, w4, hv⟩
    unfold Choice.calls Choice.settings
    rw [he]
    exact hrun
  | some p =>
    obtain ⟨a, b⟩ := p
    obtain ⟨s7, r7, v7, i7⟩ := set (.bindEad a b) s6 rfl (h.domain _ (by simp [Choice.settings, he]))
      (by rw [i6, i5, i4, i3, i2]; rfl)
    change s7.ctx = _ at i7
    obtain ⟨w1, w2, w3, w4⟩ := hready _ ⟨a, b, i7⟩
    refine ⟨s7, ?_, w1, w2, w3, w4, v7.trans hv⟩
    have := run_snoc hrun r7 defined_ok
    unfold Choice.calls Choice.settings
    rw [he]
    exact this

/-- the steps of a handshake -/
theorem handshake (h : Parties P V su k me II IR EI ER cfgI cfgR pI pR gI gR) {sI : St σI} {sR : St σR}
    (oI : II sI.env) (oR : IR sR.env) {n : Nat} (hn : 65000 ≤ n) :
    ∃ m1 m2 m3 prk4 th4 cI cR sI' sR',
      Run EI cfgI sI (done gI.calls ++
        [(.compose1 n, .ok (.bytes m1)), (.process2 m2, .ok .unit), (.compose3 n, .ok (.bytes m3))]) sI' ∧
      Run ER cfgR sR (done gR.calls ++
        [(.process1 m1, .ok .unit), (.compose2 n, .ok (.bytes m2)), (.process3 m3, .ok .unit)]) sR' ∧
      AfterM3 su me prk4 th4 gR.cid cI sI'.ctx ∧ AfterM3 su me prk4 th4 gI.cid cR sR'.ctx ∧
      sI'.ctx.status = .completed ∧ sR'.ctx.status = .completed ∧ cI.cid = gI.cid ∧ cR.cid = gR.cid ∧
      th4.length = su.hash ∧ prk4.length = su.hash ∧ II sI'.env ∧ IR sR'.env := by
  have HI : Host P su k II EI cfgI := ⟨h.honestI, h.sized, h.suite, h.roomI, h.items.1, h.derive⟩
  have HR : Host P su k IR ER cfgR := ⟨h.honestR, h.sized, h.suite, h.roomR, h.items.2, h.derive⟩
  obtain ⟨i0, hi0, hI, e1, e2, e3, e4⟩ := configured (E := EI) h.choiceI sI
  obtain ⟨r0, hr0, hR, f1, f2, f3, f4⟩ := configured (E := ER) h.choiceR sR
  obtain ⟨iI, hsI⟩ := h.credI.sent
  obtain ⟨iR, hsR⟩ := h.credR.sent
  have zII := credSizes hsI h.credI.room h.credI.hashAlg h.credI.size
  have zIR := credSizes hsI h.credI.room' h.credI.hashAlg h.credI.size
  have zRI := credSizes hsR h.credR.room h.credR.hashAlg h.credR.size
  have zRR := credSizes hsR h.credR.room' h.credR.hashAlg h.credR.size
  have cidI : CidOk cfgR i0.ctx.cid := by rw [e2]; exact h.cidI
  have cidR : CidOk cfgI r0.ctx.cid := by rw [f2]; exact h.cidR
  obtain ⟨m1, i1, q1, x, ts1, g1, a1, w1⟩ := message1Compose_wp HI hI (by rw [e1]; exact h.methodI) cidI
    (by omega : 60000 ≤ n) ⟨rfl, by rw [e4]; exact oI⟩
  obtain ⟨_, r1, q2, b1, w2⟩ := message1Process_wp HR hR (by rw [f1]; exact h.methodR) h.method
    (g1.recv hI (by rw [e3.1]; exact h.suites) cidI) ⟨rfl, by rw [f4]; exact oR⟩
  obtain ⟨m2, r2, q3, y, ts2, sig2, p2, g2, b2, b3, b4, w3⟩ := message2Compose_wp HR h.lawful h.method h.ownsR zRR
    h.credR.size cidR h.keystream g1.key b1 hn ⟨rfl, w2⟩
  obtain ⟨_, i2, q4, a2, a3, w4⟩ := message2Process_wp HI h.method h.ownsR.pk
    (fun t => ⟨(h.ownsR.agree t).1, (h.ownsR.agree t).2.1⟩) h.lawful (h.knowsR.as hsR)
    zRI h.credR.size cidR g1.key a1 rfl (g2.recv hsR h.credR.room) ⟨rfl, w1⟩
  obtain ⟨m3, i3, q5, ts3, sig3, p3, g3, a4, a5, w5⟩ := message3Compose_wp HI h.method h.ownsI zII h.credI.size cidR cidI
    (prk3e2m_length h.sized _ _ _ _) g2.key a2 a3 hn ⟨rfl, w4⟩
  obtain ⟨_, r3, q6, b5, b6, w6⟩ := message3Process_wp HR h.method h.ownsI.pk
    (fun t => ⟨(h.ownsI.agree t).1, (h.ownsI.agree t).2.1⟩) h.lawful (h.knowsI.as hsI)
    zIR h.credI.size cidR (prk3e2m_length h.sized _ _ _ _) b2 b3 b4 g2.key rfl rfl (g3.recv hsI h.credI.room') ⟨rfl, w3⟩
  refine ⟨m1, m2, m3, _, _, i0.ctx, r0.ctx, i3, r3, ?_, ?_, by rw [← f2]; exact a4, by rw [← e2]; exact b5, a5, b6, e2, f2,
    h.sized.hash _, nextPrk_length h.sized (prk3e2m_length h.sized _ _ _ _), w5, w6⟩
  · have k1 := run_snoc hi0 (o := (.compose1 n)) (mapOut_ok.2 ⟨m1, q1, rfl⟩) defined_ok
    have k2 := run_snoc k1 (o := (.process2 m2)) (mapOut_ok.2 ⟨(), q4, rfl⟩) defined_ok
    have k3 := run_snoc k2 (o := (.compose3 n)) (mapOut_ok.2 ⟨m3, q5, rfl⟩) defined_ok
    simpa using k3
  · have k1 := run_snoc hr0 (o := (.process1 m1)) (mapOut_ok.2 ⟨(), q2, rfl⟩) defined_ok
    have k2 := run_snoc k1 (o := (.compose2 n)) (mapOut_ok.2 ⟨m2, q3, rfl⟩) defined_ok
    have k3 := run_snoc k2 (o := (.process3 m3)) (mapOut_ok.2 ⟨(), q6, rfl⟩) defined_ok
    simpa using k3

theorem secretLen_oh {n : Nat} (h : SecretLen su n) : 0 < n ∧ n ≤ 1000 ∧ bstrOh n ≤ bstrOh su.hash := by
  obtain ⟨h1, h2⟩ := h
  refine ⟨h1, by omega, ?_⟩
  unfold bstrOh
  repeat' split
  all_goals omega

/-- **C12** (an honest handshake completes). Two honest parties with compatible settings configure their contexts
(whatever state these were in, with the applications in order) and exchange the messages of EDHOC through output buffers of at least 65000 bytes. Every
call succeeds, with or without message 4, and at the end both export the same OSCORE master secret and salt, and each
has the other's connection identifier as sender identifier. -/
theorem C12_completes (h : Parties P V su k me II IR EI ER cfgI cfgR pI pR gI gR) {sI : St σI} {sR : St σR}
    (jI : II sI.env) (jR : IR sR.env) {n a b : Nat} (hn : 65000 ≤ n) (ha : SecretLen su a) (hb : SecretLen su b) (four : Bool) :
    ∃ m1 m2 m3 m4 secret salt sI' sR',
      Run EI cfgI sI (done gI.calls ++
        [(.compose1 n, .ok (.bytes m1)), (.process2 m2, .ok .unit), (.compose3 n, .ok (.bytes m3))] ++
        (if four then [(.process4 m4, .ok .unit)] else []) ++
        [(.exportOscore a b n n, .ok (.oscore ⟨secret, salt, oscoreIdOf gR.cid, oscoreIdOf gI.cid⟩))]) sI' ∧
      Run ER cfgR sR (done gR.calls ++
        [(.process1 m1, .ok .unit), (.compose2 n, .ok (.bytes m2)), (.process3 m3, .ok .unit)] ++
        (if four then [(.compose4 n, .ok (.bytes m4))] else []) ++
        [(.exportOscore a b n n, .ok (.oscore ⟨secret, salt, oscoreIdOf gI.cid, oscoreIdOf gR.cid⟩))]) sR' := by
  have HI : Host P su k II EI cfgI := ⟨h.honestI, h.sized, h.suite, h.roomI, h.items.1, h.derive⟩
  have HR : Host P su k IR ER cfgR := ⟨h.honestR, h.sized, h.suite, h.roomR, h.items.2, h.derive⟩
  obtain ⟨m1, m2, m3, prk4, th4, cI, cR, i3, r3, kI, kR, a3, b3, sa, sb, eI, eR, tl, pl, w1, w2⟩ := handshake h jI jR hn
  have ha' := secretLen_oh ha
  have hb' := secretLen_oh hb
  obtain ⟨sec, hsec⟩ : ∃ sec, sec = exported P su (P.expand prk4 (info 7 th4 su.hash) su.hash) 0 a := ⟨_, rfl⟩
  obtain ⟨slt, hslt⟩ : ∃ slt, slt = exported P su (P.expand prk4 (info 7 th4 su.hash) su.hash) 1 b := ⟨_, rfl⟩
  have oI : ∀ s : St σI, II s.env → AfterM3 su me prk4 th4 gR.cid cI s.ctx → (s.ctx.status = .completed ∨ s.ctx.status = .persisted) →
      ∃ s', step EI cfgI (.exportOscore a b n n) s = (.ok (.oscore
        ⟨sec, slt, oscoreIdOf gR.cid, oscoreIdOf gI.cid⟩), s') := by
    intro s hj hs hst
    obtain ⟨o, s', h1, -, h2⟩ := exportOscore_wp (cfg' := cfgR) HI hs.live hs.keys.1 hs.keys.2 (by rw [hs.th]; exact tl)
      (by rw [hs.prk]; exact pl) hst hs.oscore (by rw [hs.cid, eI]; exact h.cidI) (by rw [hs.peerCid]; exact h.cidR) ha' hb'
      (by omega : 1003 ≤ n) ⟨rfl, hj⟩
    rw [hs.prk, hs.th, hs.peerCid, hs.cid, eI, ← hsec, ← hslt] at h2
    subst h2
    exact ⟨s', mapOut_ok.2 ⟨_, h1, rfl⟩⟩
  have oR : ∀ s : St σR, IR s.env → AfterM3 su me prk4 th4 gI.cid cR s.ctx → (s.ctx.status = .completed ∨ s.ctx.status = .persisted) →
      ∃ s', step ER cfgR (.exportOscore a b n n) s = (.ok (.oscore
        ⟨sec, slt, oscoreIdOf gI.cid, oscoreIdOf gR.cid⟩), s') := by
    intro s hj hs hst
    obtain ⟨o, s', h1, -, h2⟩ := exportOscore_wp (cfg' := cfgI) HR hs.live hs.keys.1 hs.keys.2 (by rw [hs.th]; exact tl)
      (by rw [hs.prk]; exact pl) hst hs.oscore (by rw [hs.cid, eR]; exact h.cidR) (by rw [hs.peerCid]; exact h.cidI) ha' hb'
      (by omega : 1003 ≤ n) ⟨rfl, hj⟩
    rw [hs.prk, hs.th, hs.peerCid, hs.cid, eR, ← hsec, ← hslt] at h2
    subst h2
    exact ⟨s', mapOut_ok.2 ⟨_, h1, rfl⟩⟩
  cases four with
  | false =>
    obtain ⟨i4, t1⟩ := oI i3 w1 a3 (Or.inl sa)
    obtain ⟨r4, t2⟩ := oR r3 w2 b3 (Or.inl sb)
    refine ⟨m1, m2, m3, [], sec, slt, i4, r4, ?_, ?_⟩
    · simpa using run_snoc kI t1 defined_ok
    · simpa using run_snoc kR t2 defined_ok
  | true =>
    obtain ⟨m4, r4, q7, ts4, g4, b4, w3⟩ := message4Compose_wp HR b3 tl pl sb hn ⟨rfl, w2⟩
    obtain ⟨_, i4, q8, a4, w4⟩ := message4Process_wp HI a3 tl pl sa g4 ⟨rfl, w1⟩
    obtain ⟨i5, t1⟩ := oI i4 w4 a4.toAfterM3 (Or.inr a4.done)
    obtain ⟨r5, t2⟩ := oR r4 w3 b4.toAfterM3 (Or.inr b4.done)
    refine ⟨m1, m2, m3, m4, sec, slt, i5, r5, ?_, ?_⟩
    · simpa using run_snoc (run_snoc kI (o := .process4 m4) (mapOut_ok.2 ⟨(), q8, rfl⟩) defined_ok) t1 defined_ok
    · simpa using run_snoc (run_snoc kR (o := .compose4 n) (mapOut_ok.2 ⟨m4, q7, rfl⟩) defined_ok) t2 defined_ok

/-! ## The toy parties -/

namespace Toy

/-- signatures of the toy application -/
def valid (pk m s : Bytes) : Bool := decide (s = tag pk m)

/-- the toy parties as identities -/
def idI : Identity := ⟨credI, [0, 9], [0, 9], dhPub [0, 9]⟩
def idR : Identity := ⟨credR, [0, 23], [0, 23], dhPub [0, 23]⟩

/-- the settings of the toy parties -/
def choice (m : Nat) (cid : Cid) : Choice := ⟨[m], [suite], cid, some (true, true)⟩

theorem hash_length (b : Bytes) : (Toy.hash b).length = 4 := beBytes_length _ _

theorem tag_length (k m : Bytes) : (tag k m).length = 3 := by
  unfold tag
  rw [List.length_take, hash_length]
  rfl

theorem sized : prims.Sized suite where
  hash := hash_length
  extract _ _ := hash_length _
  expand _ _ n := by
    show (List.map _ (List.range n)).length = n
    simp
  pub _ _ := beBytes_length _ _
  dh _ _ _ _ := beBytes_length _ _
  enc _ _ _ p := by
    show (p ++ tag _ _).length = _
    rw [List.length_append, tag_length]
    rfl

theorem suiteOk : SuiteOk suite := by
  constructor <;> decide

/-- what the toy parties are asked for -/
def bounds : Bounds := ⟨3, 2000, 5000⟩

theorem honest {p : Party} (hp : ∀ n, p.noMem n = false) (he : ∀ m, EadOk bounds (p.ead m)) (hx : p.eph.length = 2) :
    Honest prims suite bounds (fun _ => True) (env p) where
  alloc _ n _ := by simp [env, hp]
  key _ t raw _ _ := by
    refine ⟨raw, rfl, ?_⟩
    cases t
    · exact ⟨fun n => by simp [env, hp], fun _ _ => ⟨p.eph, rfl, trivial, hx, trivial⟩⟩
    · exact fun _ _ => ⟨rfl, trivial⟩
    · trivial
    · trivial
    · exact fun _ _ => ⟨rfl, trivial⟩
    · exact fun _ _ _ _ _ => ⟨rfl, trivial⟩
    · exact fun _ _ _ _ _ _ => ⟨rfl, trivial⟩
    · exact fun _ _ _ _ _ _ => ⟨lawful.aead _ _ _ _, trivial⟩
  hash _ _ _ _ := ⟨rfl, trivial⟩
  eadCompose _ m _ := ⟨⟨p.ead m, rfl, he m⟩, trivial⟩
  eadProcess _ _ _ _ := ⟨rfl, trivial⟩

theorem owns {p : Party} {i : Identity} {b : Bool} (h1 : p.cred = i.cred) (h2 : p.sk = i.kid) (h3 : i.kid = i.sk)
    (h4 : i.pk = dhPub i.sk) : Owns prims valid suite b (fun _ => True) (env p) i where
  fetch _ _ := by simp [env, h1, h2]
  pk := by
    rw [h4]
    intro h
    have := congrArg List.length h
    rw [dhPub, beBytes_length] at this
    cases this
  sign _ e m _ _ := ⟨⟨tag (dhPub i.kid) m, rfl, by rw [tag_length]; decide, by rw [tag_length]; decide, by
    rw [h4, h3]; exact decide_eq_true rfl⟩, trivial⟩
  agree _ := ⟨h4, trivial, fun _ _ _ _ => ⟨by rw [h3]; rfl, trivial⟩⟩

theorem parties {m : Nat} (hm : m < 4) :
    Parties prims valid suite bounds m (fun _ => True) (fun _ => True) (env alice) (env bob) cfg cfg idI idR (choice m (.int 5)) (choice m (.bstr [0x18, 9])) where
  method := hm
  lawful := lawful
  suite := suiteOk
  sized := sized
  honestI := honest (fun _ => rfl) (by intro m; cases m <;> exact ⟨by decide, by decide, by decide⟩) rfl
  honestR := honest (fun _ => rfl) (by intro m; cases m <;> exact ⟨by decide, by decide, by decide⟩) rfl
  ownsI := owns rfl rfl rfl rfl
  ownsR := owns rfl rfl rfl rfl
  knowsI := ⟨by intro i hi e _; cases hi with | kidInt => exact ⟨rfl, trivial⟩,
    fun _ _ _ => ⟨_, rfl, fun _ _ _ h => ⟨h, trivial⟩⟩⟩
  knowsR := ⟨by
    intro i hi e _
    cases hi with
    | cert => exact ⟨rfl, trivial⟩
    | chain h => exact absurd h (by decide),
    fun _ _ _ => ⟨_, rfl, fun _ _ _ h => ⟨h, trivial⟩⟩⟩
  credI := ⟨⟨_, .kidInt _ (by decide) (by decide)⟩, trivial, trivial, nofun, by decide +kernel⟩
  credR := ⟨⟨_, .cert (by unfold SizeOk; decide)⟩, show 1 ≤ 2 by decide, show 1 ≤ 2 by decide, nofun, by decide +kernel⟩
  items := by decide
  derive := by decide
  keystream := by decide +kernel
  roomI := ⟨by decide, by decide, Or.inl rfl⟩
  roomR := ⟨by decide, by decide, Or.inl rfl⟩
  choiceI := ⟨by
    intro o ho
    simp only [Choice.settings, choice, List.cons_append, List.nil_append, List.mem_cons, List.not_mem_nil, or_false] at ho
    rcases ho with rfl | rfl | rfl | rfl | rfl | rfl | rfl <;> simp [documented, cfg],
    show 1 ≤ 3 by decide, fun q hq => by cases List.mem_singleton.1 hq; decide, rfl⟩
  choiceR := ⟨by
    intro o ho
    simp only [Choice.settings, choice, List.cons_append, List.nil_append, List.mem_cons, List.not_mem_nil, or_false] at ho
    rcases ho with rfl | rfl | rfl | rfl | rfl | rfl | rfl <;> simp [documented, cfg],
    show 1 ≤ 3 by decide, fun q hq => by cases List.mem_singleton.1 hq; decide, rfl⟩
  methodI := rfl
  methodR := by simp [choice]
  suites := show 1 ≤ 3 by decide
  cidI := ⟨by decide, by decide⟩
  cidR := ⟨by decide, by decide⟩

end Toy

/-- The premises of C12 can be met, for each method: the toy parties complete a handshake. -/
example (m : Nat) (hm : m < 4) (four : Bool) : ∃ m1 m2 m3 m4 secret salt sI' sR',
    Run (Toy.env Toy.alice) Toy.cfg Toy.start (done (Toy.choice m (.int 5)).calls ++
      [(.compose1 65000, .ok (.bytes m1)), (.process2 m2, .ok .unit), (.compose3 65000, .ok (.bytes m3))] ++
      (if four then [(.process4 m4, .ok .unit)] else []) ++
      [(.exportOscore 16 8 65000 65000, .ok (.oscore ⟨secret, salt, [0x18, 9], [5]⟩))]) sI' ∧
    Run (Toy.env Toy.bob) Toy.cfg Toy.start (done (Toy.choice m (.bstr [0x18, 9])).calls ++
      [(.process1 m1, .ok .unit), (.compose2 65000, .ok (.bytes m2)), (.process3 m3, .ok .unit)] ++
      (if four then [(.compose4 65000, .ok (.bytes m4))] else []) ++
      [(.exportOscore 16 8 65000 65000, .ok (.oscore ⟨secret, salt, [5], [0x18, 9]⟩))]) sR' :=
  C12_completes (Toy.parties hm) trivial trivial (by decide) ⟨by decide, Or.inl (by decide)⟩ ⟨by decide, Or.inl (by decide)⟩ four

end Verif
