import Verif.Eval6

/-!
# Runs that succeed: messages 3 and 4
-/

namespace Verif

open M Spec

variable {σ : Type} {E : Env σ} {I : σ → Prop} {cfg cfg' : Config} {P : Prims} {V : Bytes → Bytes → Bytes → Bool} {su : Suite} {k : Bounds} {me : Nat}
  {c c0 : Ctx}

/-- MAC_3 under PRK_4e3m -/
def mac3 (P : Prims) (su : Suite) (me : Nat) (prk4 th3 : Bytes) (cr : Cred) (ts : List EadTok) : Bytes :=
  let n := macLenOf (initiatorSigns me) su
  P.expand prk4 (info 6 (context3 cr th3 ts) n) n

/-- message_3 of an honest Initiator -/
structure Flight3 (P : Prims) (V : Bytes → Bytes → Bytes → Bool) (su : Suite) (k : Bounds) (me : Nat) (cfg : Config) (p : Identity)
    (prk3 prk4 th3 : Bytes) (ts : List EadTok) (sig ptxt m3 : Bytes) : Prop where
  ead : EadOk k ts
  auth : SigOf V (initiatorSigns me) p.pk p.cred th3 ts (mac3 P su me prk4 th3 p.cred ts) sig
  parts : PtxtTail cfg p.cred sig ts ptxt
  size : 0 < ptxt.length ∧ ptxt.length ≤ 61100
  msg : m3 = encBstr (P.enc (keyIv P su 3 4 prk3 th3).1 (keyIv P su 3 4 prk3 th3).2.1 (keyIv P su 3 4 prk3 th3).2.2 ptxt)

/-- the state of a session after message_3 -/
structure AfterM3 (su : Suite) (me : Nat) (prk4 th4 : Bytes) (ci : Cid) (c0 c : Ctx) : Prop extends Going su me c0 c where
  keys : c.thState = .th4 ∧ c.prkState = .prk4e3m
  peerCid : c.peerCid = ci
  th : c.th = th4
  prk : c.prk = prk4
  oscore : c.oscoreAllowed = true

theorem context3_size {cr : Cred} {th : Bytes} {ts : List EadTok}
    (hc : (idCred cr).length + (cred cr).length ≤ 40000) (ht : th.length ≤ 1000) (he : EadOk k ts) :
    (context3 cr th ts).length < 65536 := by
  have h2 : (encBstr th).length ≤ 1003 := by
    rw [encBstr_small (by omega)]; have := bstrOh_le3 (n := th.length) (by omega); omega
  have h3 := he.size
  simp only [context3, List.length_append]
  omega

theorem genMsg3_gets {ct : Bytes} {n : Nat} (h : 0 < ct.length) (hn : ct.length ≤ 64000) (hs : 64100 ≤ n) :
    Gets I (genMsg3 ct n : M σ Bytes) c (encBstr ct) c := by
  have h1 := encBstr_small (b := ct) (by omega)
  have h2 := bstrOh_le3 (n := ct.length) (by omega)
  unfold genMsg3
  refine (Gets.require ?_).bind ((Gets.ofOption (fits_of (by omega))).bind ((Gets.guardUB ?_).bind Gets.pure))
  · simp only [Bool.and_eq_true, bne_iff_ne, ne_eq]; omega
  · simp only [decide_eq_true_eq]; omega

theorem encStructure_ne (th : Bytes) : encStructure th ≠ [] := by
  intro h
  have h1 := congrArg List.length h
  simp only [encStructure, List.length_append, List.length_nil, encBstr_length] at h1
  have := headLen_pos th.length
  omega

theorem seal_gets (H : Host P su k I E cfg) (hc : Live su c) {lk li n : Nat} {prk th p : Bytes} (hp : p.length < 65536)
    (h : p.length + su.aeadTag ≤ n) :
    Gets I (aeadEncrypt E (keyIv P su lk li prk th).1 (keyIv P su lk li prk th).2.1 (keyIv P su lk li prk th).2.2 p n) c
      (P.enc (keyIv P su lk li prk th).1 (keyIv P su lk li prk th).2.1 (keyIv P su lk li prk th).2.2 p) c :=
  aeadEncrypt_gets H hc (H.sized.expand _ _ _) (H.sized.expand _ _ _) (encStructure_ne _) hp h

theorem open_gets (H : Host P su k I E cfg) (hc : Live su c) {lk li n : Nat} {prk th p : Bytes} (hp : p.length < 65536)
    (h : p.length = n) :
    Gets I (aeadDecrypt E (keyIv P su lk li prk th).1 (keyIv P su lk li prk th).2.1 (keyIv P su lk li prk th).2.2
      (P.enc (keyIv P su lk li prk th).1 (keyIv P su lk li prk th).2.1 (keyIv P su lk li prk th).2.2 p) n) c p c :=
  aeadDecrypt_gets H hc (H.sized.expand _ _ _) (H.sized.expand _ _ _) (encStructure_ne _) hp h

theorem message3Compose_any (H : Host P su k I E cfg) {p : Identity} (hm4 : me < 4)
    (ho : Owns P V su (initiatorSigns me) I E p) (hz : CredSizes cfg p.cred)
    (hl : (idCred p.cred).length + (cred p.cred).length ≤ 40000) {ci : Cid} (hci : CidOk cfg ci)
    (hcid : CidOk cfg' c0.cid)
    {th3 prk3 : Bytes} (hth : th3.length = su.hash) (hvk : prk3.length = su.hash) {y : Bytes} (hy : P.priv y)
    (hA : Before3 su me th3 prk3 ci (P.pub y) c0 c)
    (hst : c.status = .verifiedM2) {n : Nat} (hn : 65000 ≤ n) {s : St σ} (hs : At I s c) :
    Wp (message3Compose E cfg n) s fun m3 s' =>
      ∃ ts sig ptxt,
        let prk4 := nextPrk P su 5 (initiatorSigns me) prk3 th3 (P.dh p.sk (P.pub y))
        Flight3 P V su k me cfg p prk3 prk4 th3 ts sig ptxt m3 ∧
        AfterM3 su me prk4 (P.hash (encBstr th3 ++ ptxt ++ cred p.cred)) ci c0 s'.ctx ∧ s'.ctx.status = .completed ∧
          I s'.env := by
  have z1 := H.suite.hash
  have z2 := H.suite.ecc
  have z3 := H.suite.sign
  have z4 := H.suite.mac
  have z5 := H.suite.tag
  obtain ⟨prk4, hprk4⟩ : ∃ prk4, prk4 = nextPrk P su 5 (initiatorSigns me) prk3 th3 (P.dh p.sk (P.pub y)) := ⟨_, rfl⟩
  unfold message3Compose
  refine Wp.go hs (Gets.require (by simp only [bne_iff_ne, ne_eq]; omega)) fun s1 hs1 => ?_
  refine Wp.new hs1 (enter_gets (by simp [okVerifiedM2, hst, hA.keys])) fun c2 s2 hc2 hs2 => ?_
  refine Wp.bind ((eadCompose_wp H hs2 (by rw [hc2]; exact hA.ead)).mono ?_)
  rintro _ s3 ⟨ts, hts, hs3⟩
  obtain ⟨c3, hc3⟩ : ∃ c3, c3 = s3.ctx := ⟨_, rfl⟩
  rw [hs3.1] at hc3
  rw [← hc3] at hs3
  have l3 : Live su c3 := by rw [hc3, hc2]; exact ⟨hA.live.keys, hA.live.crypto, hA.live.cred, hA.live.suite⟩
  have t3 : c3.th = th3 := by rw [hc3, hc2]; exact hA.th
  have tl3 : c3.th.length = su.hash := by rw [t3]; exact hth
  have k3 : c3.prk = prk3 := by rw [hc3, hc2]; exact hA.prk
  have st3 : c3.thState = .th3 ∧ c3.prkState = .prk3e2m := by rw [hc3, hc2]; exact hA.keys
  have m3 : c3.message = .msg3 ∧ c3.role = .initiator := by rw [hc3, hc2]; exact ⟨rfl, rfl⟩
  have me3 : c3.chosenMethod = me := by rw [hc3, hc2]; exact hA.method
  have cid3 : c3.cid = c0.cid := by rw [hc3, hc2]; exact hA.cid
  have pc3 : c3.peerCid = ci := by rw [hc3, hc2]; exact hA.peerCid
  have pp3 : c3.dhPeerPub = P.pub y := by rw [hc3, hc2]; exact hA.peerPub
  have e3 : c3.ead = ts := by rw [hc3]
  clear hc3 hc2
  refine Wp.go hs3 (credFetch_gets l3 ho.fetch) fun s4 hs4 => ?_
  refine Wp.go hs4 (Gets.ofOption rfl) fun s5 hs5 => ?_
  refine Wp.go hs5 (keyIvAad3_gets H l3 st3.1 tl3 (by rw [k3]; exact hvk)) fun s6 hs6 => ?_
  rw [k3, t3]
  refine Wp.new hs6 (prk4I_gets (sk := p.sk) H l3 (by rw [me3]; exact hm4) m3.2 st3.1 st3.2 tl3 (by rw [k3]; exact hvk) pp3 hy
    (by rw [me3]; exact fun h => (ho.agree h).2)).mapErr fun c7 s7 hc7 hs7 => ?_
  have l7 : Live su c7 := by rw [hc7]; exact ⟨l3.keys, l3.crypto, l3.cred, l3.suite⟩
  have me7 : c7.chosenMethod = me := by rw [hc7]; exact me3
  have t7 : c7.th = th3 := by rw [hc7]; exact t3
  have tl7 : c7.th.length = su.hash := by rw [hc7]; exact tl3
  have e7 : c7.ead = ts := by rw [hc7]; exact e3
  have k7 : c7.prk = prk4 := by rw [hc7, hprk4, me3, k3, t3, pp3]
  have kl7 : c7.prk.length = su.hash := by rw [k7, hprk4]; exact nextPrk_length H.sized hvk
  have st7 : c7.thState = .th3 ∧ c7.prkState = .prk4e3m := by rw [hc7]; exact ⟨st3.1, rfl⟩
  have m7 : c7.message = .msg3 := by rw [hc7]; exact m3.1
  have cid7 : c7.cid = c0.cid := by rw [hc7]; exact cid3
  have pc7 : c7.peerCid = ci := by rw [hc7]; exact pc3
  have mc7 : macCid c7 = ci := by
    have : c7.role = .initiator := by rw [hc7]; exact m3.2
    unfold macCid
    rw [this]; exact pc7
  clear hc7
  obtain ⟨m, hm1, hm2⟩ := buildMacCtx_gets (c := c7) H none (Or.inr ⟨m7, st7.1⟩) tl7 hz hl (by rw [e7]; exact hts)
    (by rw [mc7]; exact hci)
  have hu : usesSign c7 = some (initiatorSigns me) := by rw [← me7]; exact usesSign_msg3 m7 (by rw [me7]; exact hm4)
  have hml := macLenOf_le H.suite (initiatorSigns me)
  obtain ⟨q1, q2⟩ := macCtx_sizes hm2 hl (by omega) (by rw [e7]; exact hts)
  have hbuf : m.buf = context3 p.cred th3 ts := by rw [hm2.buf3 m7, t7, e7]
  have hbl : m.buf.length < 65536 := by rw [hbuf]; exact context3_size hl (by rw [← t7]; omega) hts
  have hlab : macLabel c7 = 6 := by unfold macLabel; rw [m7]; rfl
  refine Wp.go hs7 hm1 fun s8 hs8 => ?_
  refine Wp.go hs8 Gets.getCtx fun s9 hs9 => ?_
  refine Wp.go hs9 (Gets.ofRes (by rw [macLength_of hu]; rfl)) fun s10 hs10 => ?_
  rw [l7.suite]
  refine Wp.go hs10 (memAlloc_gets H.honest H.room (by omega)) fun s11 hs11 => ?_
  refine Wp.go hs11 (compMac_gets H l7 (n := macLenOf (initiatorSigns me) su) hml hbl kl7
    (Or.inr ⟨m7, st7.2⟩)).mapErr fun s12 hs12 => ?_
  rw [k7, hlab, hbuf]
  refine Wp.go hs12 (Gets.ofRes (signOrMacLength_of hu)) fun s13 hs13 => ?_
  rw [l7.suite]
  refine Wp.go hs13 (memAlloc_gets H.honest H.room (by split <;> omega)) fun s14 hs14 => ?_
  refine Wp.bind ((compSignOrMac_wp H l7 (m := m) hs14 ho hu hm2 q1 q2 (mac_length H _ _ _)).mono ?_)
  rintro sig s15 ⟨hsig, hs15⟩
  rw [t7, e7] at hsig
  have hsl := hsig.size
  obtain ⟨pl, hpl, hpl'⟩ := ptxt2Len_total (c := c7) (m := m) (cfg' := cfg') (sig := sig) ⟨hsl.1, by omega⟩
    (by rw [cid7]; exact hcid)
  have hid := idWire_size hm2 hz
  have hid2 := idCredPtxtLen_le m (by omega)
  have hcl := (encCid_total hcid).2
  have hel : m.ead.length ≤ 20000 := by rw [hm2.ead, e7]; exact hts.size.2
  have hoh := bstrOh_le3 (n := sig.length) (by omega)
  have hprep := preparePtxt3_total (c := c7) (m := m) (sig := sig) ⟨hsl.1, by omega⟩ hpl
  rw [cid7] at hpl'
  refine Wp.go hs15 (Gets.ofRes hpl) fun s16 hs16 => ?_
  refine Wp.go hs16 (memAlloc_gets H.honest H.room (by omega)) fun s17 hs17 => ?_
  refine Wp.go hs17 (Gets.ofRes (by rw [hprep]; rfl)) fun s18 hs18 => ?_
  obtain ⟨ptxt, hpt⟩ : ∃ ptxt, ptxt = idCredPtxt m ++ encBstr sig ++ m.ead := ⟨_, rfl⟩
  rw [← hpt]
  have hptl : 0 < ptxt.length ∧ ptxt.length ≤ 61100 := by
    have := encBstr_small (b := sig) (by omega)
    have h0 : 0 < (encBstr sig).length := by omega
    rw [hpt]
    simp only [List.length_append]
    omega
  refine Wp.go hs18 (memAlloc_gets H.honest H.room (by omega)) fun s19 hs19 => ?_
  refine Wp.go hs19 (seal_gets H l7 (by omega) (Nat.le_refl _)).mapErr fun s20 hs20 => ?_
  rw [hm2.cred]
  refine Wp.new hs20 (compTh4_gets H l7 st7.1 tl7 hptl.1 (by omega)).mapErr fun c21 s21 hc21 hs21 => ?_
  have hctl := H.sized.enc (keyIv P su 3 4 prk3 th3).1 (keyIv P su 3 4 prk3 th3).2.1
    (keyIv P su 3 4 prk3 th3).2.2 ptxt
  refine Wp.go hs21 (genMsg3_gets (by omega) (by omega) (by omega)).mapErr fun s22 hs22 => ?_
  refine Wp.new hs22 Gets.modCtx fun c23 s23 hc23 hs23 => ?_
  refine ⟨_, s23, rfl, ts, sig, ptxt, ?_⟩
  dsimp only
  rw [← hprk4]
  refine ⟨⟨hts, hsig, ?_, hptl, rfl⟩, ⟨⟨⟨?_, ?_, ?_, ?_⟩, ?_, ?_, ?_⟩, ?_, ?_, ?_, ?_, ?_⟩, ?_, hs23.2⟩
  · obtain ⟨q, hq1, hq2⟩ := hm2.idWire
    exact ⟨q, hq1, by rw [hpt, hq2, hm2.ead, e7]⟩
  all_goals rw [hs23.1, hc23]
  all_goals rw [hc21]
  · exact l7.keys
  · exact l7.crypto
  · exact l7.cred
  · exact l7.suite
  · exact me7
  · exact cid7
  · exact ⟨rfl, st7.2⟩
  · exact pc7
  · rw [t7]
  · exact k7

theorem message3Compose_wp (H : Host P su k I E cfg) {p : Identity} (hm4 : me < 4)
    (ho : Owns P V su (initiatorSigns me) I E p) (hz : CredSizes cfg p.cred)
    (hl : (idCred p.cred).length + (cred p.cred).length ≤ 40000) {ci : Cid} (hci : CidOk cfg ci)
    (hcid : CidOk cfg' c0.cid)
    {v : Keys2} (hvk : v.prk3e2m.length = su.hash) {ptxt2 y : Bytes} (hy : P.priv y) {cr2 : Cred}
    (hA : AfterM2 P su me v ptxt2 cr2 ci (P.pub y) c0 c)
    (hst : c.status = .verifiedM2) {n : Nat} (hn : 65000 ≤ n) {s : St σ} (hs : At I s c) :
    Wp (message3Compose E cfg n) s fun m3 s' =>
      ∃ ts sig ptxt,
        let th3 := P.hash (encBstr v.th2 ++ ptxt2 ++ cred cr2)
        let prk4 := nextPrk P su 5 (initiatorSigns me) v.prk3e2m th3 (P.dh p.sk (P.pub y))
        Flight3 P V su k me cfg p v.prk3e2m prk4 th3 ts sig ptxt m3 ∧
        AfterM3 su me prk4 (P.hash (encBstr th3 ++ ptxt ++ cred p.cred)) ci c0 s'.ctx ∧ s'.ctx.status = .completed ∧
          I s'.env :=
  message3Compose_any H hm4 ho hz hl hci hcid (H.sized.hash _) hvk hy hA hst hn hs

/-- message_3 as a Responder can take it -/
structure Recv3 (P : Prims) (V : Bytes → Bytes → Bytes → Bool) (su : Suite) (k : Bounds) (me : Nat) (cfg : Config) (p : Identity)
    (i : IdCred) (prk3 prk4 th3 : Bytes) (ts : List EadTok) (sig ptxt m3 : Bytes) : Prop where
  ead : EadOk k ts
  auth : SigOf V (initiatorSigns me) p.pk p.cred th3 ts (mac3 P su me prk4 th3 p.cred ts) sig
  parts : Tail cfg i sig ts ptxt
  size : 0 < ptxt.length ∧ ptxt.length ≤ 61100
  msg : m3 = encBstr (P.enc (keyIv P su 3 4 prk3 th3).1 (keyIv P su 3 4 prk3 th3).2.1 (keyIv P su 3 4 prk3 th3).2.2 ptxt)

theorem Flight3.recv {p : Identity} {i : IdCred} {prk3 prk4 th3 sig ptxt m3 : Bytes} {ts : List EadTok}
    (h : Flight3 P V su k me cfg' p prk3 prk4 th3 ts sig ptxt m3) (hi : SentAs p.cred i) (hr : CredRoom cfg p.cred) :
    Recv3 P V su k me cfg p i prk3 prk4 th3 ts sig ptxt m3 :=
  ⟨h.ead, h.auth, h.parts.tail hi hr, h.size, h.msg⟩

theorem parsePtxt3_gets (H : Host P su k I E cfg) {i : IdCred} {sig ptxt : Bytes}
    {ts : List EadTok} (ht : Tail cfg i sig ts ptxt) (h0 : 0 < ptxt.length)
    (hs : sig.length ≤ 1000) (he : EadOk k ts) (hce : c.ead = []) :
    Gets I (parsePtxt3 cfg ptxt : M σ (Cred × Bytes)) c (asReceived i, sig) { c with ead := ts } := by
  obtain ⟨h1, h2⟩ := ht.dec (by unfold SizeOk; omega) (wire_of_eadOk he) he.count.2 cfg.dec
  unfold parsePtxt3
  rw [h2]
  refine (Gets.require (by simp only [bne_iff_ne, ne_eq]; omega)).bind ((Gets.ofOption h1).bind ?_)
  refine (Gets.ofRes ht.recv.2).bind ?_
  exact (storeEad_gets H he.count.1 hce).bind Gets.pure

theorem subSize_add (a b : Nat) : subSize (a + b) b = a := by
  unfold subSize
  rw [if_pos (Nat.le_add_left _ _)]
  omega

theorem message3Process_wp (H : Host P su k I E cfg) {p : Identity} {i : IdCred} (hm4 : me < 4)
    (hpk : p.pk ≠ []) (hst : initiatorSigns me = false → p.pk = P.pub p.sk ∧ P.priv p.sk) (hP : P.Lawful)
    (hk : KnowsAs V (initiatorSigns me) I E p i) (hz : CredSizes cfg p.cred)
    (hl : (idCred p.cred).length + (cred p.cred).length ≤ 40000) (hcid : CidOk cfg' c0.cid)
    {v : Keys2} (hvk : v.prk3e2m.length = su.hash) {ptxt2 y gp : Bytes} {cr2 : Cred} {ci : Cid} (hA : AfterM2 P su me v ptxt2 cr2 ci gp c0 c)
    (hw : c.status = .waitM3) (hy : c.dhPriv = y) (hyp : P.priv y)
    {th3 prk4 sig ptxt m3 : Bytes} {ts : List EadTok}
    (hth3 : th3 = P.hash (encBstr v.th2 ++ ptxt2 ++ cred cr2))
    (hprk4 : prk4 = nextPrk P su 5 (initiatorSigns me) v.prk3e2m th3 (P.dh p.sk (P.pub y)))
    (hf : Recv3 P V su k me cfg p i v.prk3e2m prk4 th3 ts sig ptxt m3) {s : St σ} (hs : At I s c) :
    Wp (message3Process E cfg m3) s fun _ s' =>
      AfterM3 su me prk4 (P.hash (encBstr th3 ++ ptxt ++ cred p.cred)) ci c0 s'.ctx ∧ s'.ctx.status = .completed ∧
          I s'.env := by
  have z1 := H.suite.hash
  have z2 := H.suite.ecc
  have z5 := H.suite.tag
  have hpl := hf.size
  have hctl := H.sized.enc (keyIv P su 3 4 v.prk3e2m th3).1 (keyIv P su 3 4 v.prk3e2m th3).2.1
    (keyIv P su 3 4 v.prk3e2m th3).2.2 ptxt
  have hmsg := hf.msg
  unfold message3Process
  refine Wp.go hs (Gets.require ?_) fun s1 hs1 => ?_
  · have : 0 < m3.length := by rw [hmsg, encBstr_length]; omega
    simp only [bne_iff_ne, ne_eq]; omega
  refine Wp.new hs1 (enter_gets (by simp [okWaitM3, hw, hA.keys])) fun c2 s2 hc2 hs2 => ?_
  rw [hmsg]
  refine Wp.go hs2 (Gets.ofOption (getMsgBstr_enc (by unfold SizeOk; omega))) fun s3 hs3 => ?_
  have l2 : Live su c2 := by rw [hc2]; exact ⟨hA.live.keys, hA.live.crypto, hA.live.cred, hA.live.suite⟩
  have t2 : c2.th = th3 := by rw [hc2, hth3]; exact hA.th
  have tl2 : c2.th.length = su.hash := by rw [t2, hth3]; exact H.sized.hash _
  have k2 : c2.prk = v.prk3e2m := by rw [hc2]; exact hA.prk
  have st2 : c2.thState = .th3 ∧ c2.prkState = .prk3e2m := by rw [hc2]; exact hA.keys
  have m2 : c2.message = .msg3 ∧ c2.role = .responder := by rw [hc2]; exact ⟨rfl, rfl⟩
  have me2 : c2.chosenMethod = me := by rw [hc2]; exact hA.method
  have cid2 : c2.cid = c0.cid := by rw [hc2]; exact hA.cid
  have pc2 : c2.peerCid = ci := by rw [hc2]; exact hA.peerCid
  have y2 : c2.dhPriv = y := by rw [hc2]; exact hy
  have e2 : c2.ead = [] := by rw [hc2]; exact hA.ead
  clear hc2
  refine Wp.go hs3 (keyIvAad3_gets H l2 st2.1 tl2 (by rw [k2]; exact hvk)) fun s4 hs4 => ?_
  rw [k2, t2]
  refine Wp.go hs4 Gets.getCtx fun s5 hs5 => ?_
  rw [l2.suite, hctl, subSize_add]
  refine Wp.go hs5 (memAlloc_gets H.honest H.room (by omega)) fun s6 hs6 => ?_
  refine Wp.go hs6 (Gets.mapErr ((Gets.require ?_).bind (open_gets H l2 (by omega) rfl))) fun s7 hs7 => ?_
  · simp only [Bool.and_eq_true, bne_iff_ne, ne_eq]; omega
  refine Wp.new hs7 (parsePtxt3_gets H hf.parts hpl.1 hf.auth.size.2 hf.ead e2).mapErr fun c8 s8 hc8 hs8 => ?_
  have l8 : Live su c8 := by rw [hc8]; exact ⟨l2.keys, l2.crypto, l2.cred, l2.suite⟩
  refine Wp.go hs8 (eadProcess_gets H) fun s9 hs9 => ?_
  refine Wp.go hs9 (verifyCred_gets l8 hk.cred) fun s10 hs10 => ?_
  refine Wp.new hs10 (prk4R_gets (y := p.sk) H l8 (by rw [hc8, me2]; exact hm4) (by rw [hc8]; exact m2.2)
    (by rw [hc8]; exact st2.1) (by rw [hc8]; exact st2.2) (by rw [hc8]; exact tl2)
    (by rw [hc8]; exact (congrArg List.length k2).trans hvk) (by rw [hc8]; exact y2.symm ▸ hyp)
    (by rw [hc8, me2]; exact hst)).mapErr fun c11 s11 hc11 hs11 => ?_
  have l11 : Live su c11 := by rw [hc11]; exact ⟨l8.keys, l8.crypto, l8.cred, l8.suite⟩
  have me11 : c11.chosenMethod = me := by rw [hc11, hc8]; exact me2
  have t11 : c11.th = th3 := by rw [hc11, hc8]; exact t2
  have tl11 : c11.th.length = su.hash := by rw [hc11, hc8]; exact tl2
  have e11 : c11.ead = ts := by rw [hc11, hc8]
  have k11 : c11.prk = prk4 := by
    rw [hc11, hc8]
    simp only [me2, k2, t2, y2, Option.getD_some]
    rw [hprk4]
    unfold nextPrk
    split
    · rfl
    · rename_i h
      have h' : initiatorSigns me = false := by simpa using h
      rw [(hst h').1, hP.dh y p.sk hyp (hst h').2]
  have kl11 : c11.prk.length = su.hash := by rw [k11, hprk4]; exact nextPrk_length H.sized hvk
  have st11 : c11.thState = .th3 ∧ c11.prkState = .prk4e3m := by rw [hc11, hc8]; exact ⟨st2.1, rfl⟩
  have m11 : c11.message = .msg3 := by rw [hc11, hc8]; exact m2.1
  have cid11 : c11.cid = c0.cid := by rw [hc11, hc8]; exact cid2
  have pc11 : c11.peerCid = ci := by rw [hc11, hc8]; exact pc2
  have mc11 : macCid c11 = c0.cid := by
    have : c11.role = .responder := by rw [hc11, hc8]; exact m2.2
    unfold macCid
    rw [this]; exact cid11
  clear hc11 hc8
  obtain ⟨m, hm1, hm2⟩ := buildMacCtx_gets (c := c11) H (some .invalidMac3) (Or.inr ⟨m11, st11.1⟩) tl11 hz hl
    (by rw [e11]; exact hf.ead) (by rw [mc11]; exact hcid)
  have hu : usesSign c11 = some (initiatorSigns me) := by rw [← me11]; exact usesSign_msg3 m11 (by rw [me11]; exact hm4)
  have hml := macLenOf_le H.suite (initiatorSigns me)
  obtain ⟨q1, q2⟩ := macCtx_sizes hm2 hl (by omega) (by rw [e11]; exact hf.ead)
  have hbuf : m.buf = context3 p.cred th3 ts := by rw [hm2.buf3 m11, t11, e11]
  have hbl : m.buf.length < 65536 := by rw [hbuf]; exact context3_size hl (by rw [← t11]; omega) hf.ead
  have hlab : macLabel c11 = 6 := by unfold macLabel; rw [m11]; rfl
  refine Wp.go hs11 hm1 fun s12 hs12 => ?_
  refine Wp.go hs12 Gets.getCtx fun s13 hs13 => ?_
  refine Wp.go hs13 (Gets.ofRes (by rw [macLength_of hu]; rfl)) fun s14 hs14 => ?_
  rw [l11.suite]
  refine Wp.go hs14 (memAlloc_gets H.honest H.room (by omega)) fun s15 hs15 => ?_
  refine Wp.go hs15 (compMac_gets H l11 (n := macLenOf (initiatorSigns me) su) hml hbl kl11
    (Or.inr ⟨m11, st11.2⟩)).mapErr fun s16 hs16 => ?_
  rw [k11, hlab, hbuf]
  refine Wp.go hs16 (verifySignOrMac_gets H l11 hpk hk.verify hu hm2 q1 q2 (by rw [mac_length H]; exact hml)
    (by rw [t11, e11]; exact hf.auth)).mapErr fun s17 hs17 => ?_
  rw [hm2.cred]
  refine Wp.new hs17 (compTh4_gets H l11 st11.1 tl11 hpl.1 (by omega)).mapErr fun c18 s18 hc18 hs18 => ?_
  refine (Gets.modCtx.wp hs18).mono ?_
  rintro _ s19 ⟨_, hs19⟩
  refine ⟨?_, ?_, hs19.2⟩ <;> rw [hs19.1, hc18]
  refine ⟨⟨⟨l11.keys, l11.crypto, l11.cred, l11.suite⟩, me11, cid11, rfl⟩, ⟨rfl, st11.2⟩, pc11, ?_, k11, rfl⟩
  show P.hash _ = _
  rw [t11]

/-! ## Message 4 -/

/-- message_4 of an honest Responder -/
structure Flight4 (P : Prims) (su : Suite) (k : Bounds) (prk4 th4 : Bytes) (ts : List EadTok) (m4 : Bytes) : Prop where
  ead : EadOk k ts
  msg : m4 = encBstr (P.enc (keyIv P su 8 9 prk4 th4).1 (keyIv P su 8 9 prk4 th4).2.1 (keyIv P su 8 9 prk4 th4).2.2
    (Spec.ead ts))

/-- the state of a session after message_4 -/
structure AfterM4 (su : Suite) (me : Nat) (prk4 th4 : Bytes) (ci : Cid) (c0 c : Ctx) : Prop extends
    AfterM3 su me prk4 th4 ci c0 c where
  done : c.status = .persisted

theorem message4Compose_wp (H : Host P su k I E cfg) {ci : Cid} {prk4 th4 : Bytes} (hA : AfterM3 su me prk4 th4 ci c0 c)
    (hth : th4.length = su.hash) (hpr : prk4.length = su.hash) (hst : c.status = .completed) {n : Nat} (hn : 65000 ≤ n) {s : St σ} (hs : At I s c) :
    Wp (message4Compose E cfg n) s fun m4 s' =>
      ∃ ts, Flight4 P su k prk4 th4 ts m4 ∧ AfterM4 su me prk4 th4 ci c0 s'.ctx ∧ I s'.env := by
  have z5 := H.suite.tag
  unfold message4Compose
  refine Wp.go hs (Gets.require (by simp only [bne_iff_ne, ne_eq]; omega)) fun s1 hs1 => ?_
  refine Wp.new hs1 (enter_gets (by simp [okCompleted, hst, hA.keys])) fun c2 s2 hc2 hs2 => ?_
  refine Wp.bind ((eadCompose_wp H hs2 (by rw [hc2]; exact hA.ead)).mono ?_)
  rintro _ s3 ⟨ts, hts, hs3⟩
  obtain ⟨c3, hc3⟩ : ∃ c3, c3 = s3.ctx := ⟨_, rfl⟩
  rw [hs3.1] at hc3
  rw [← hc3] at hs3
  have l3 : Live su c3 := by rw [hc3, hc2]; exact ⟨hA.live.keys, hA.live.crypto, hA.live.cred, hA.live.suite⟩
  have t3 : c3.th = th4 := by rw [hc3, hc2]; exact hA.th
  have k3 : c3.prk = prk4 := by rw [hc3, hc2]; exact hA.prk
  have st3 : c3.thState = .th4 ∧ c3.prkState = .prk4e3m := by rw [hc3, hc2]; exact hA.keys
  have me3 : c3.chosenMethod = me := by rw [hc3, hc2]; exact hA.method
  have cid3 : c3.cid = c0.cid := by rw [hc3, hc2]; exact hA.cid
  have o3 : c3.oscoreAllowed = true := by rw [hc3, hc2]; exact hA.oscore
  have pc3 : c3.peerCid = ci := by rw [hc3, hc2]; exact hA.peerCid
  have e3 : c3.ead = ts := by rw [hc3]
  clear hc3 hc2
  have hsz := hts.size
  have hct := hts.count
  have hel := eadLen_size (fun t ht => by have := hts.label t ht; omega) (by omega : (Spec.ead ts).length < 65536)
  refine Wp.go hs3 Gets.getCtx fun s4 hs4 => ?_
  rw [e3]
  refine Wp.go hs4 (memAlloc_gets H.honest H.room (by omega)) fun s5 hs5 => ?_
  have hprep : preparePtxt4 c3 (eadLen ts) = .ok (Spec.ead ts) := by
    simp only [preparePtxt4, Res.bind_ok, Res.require_ok, Res.ofOption_ok, e3, decide_eq_true_eq]
    refine ⟨(), hct.2, ?_⟩
    rw [encEadOpt_total hct.2]
    exact fits_of hel.1
  refine Wp.go hs5 (Gets.ofRes (by rw [hprep]; rfl)) fun s6 hs6 => ?_
  refine Wp.go hs6 (keyIvAad4_gets H l3 st3.1 st3.2 (by rw [t3]; exact hth) (by rw [k3]; exact hpr)) fun s7 hs7 => ?_
  rw [k3, t3, l3.suite]
  refine Wp.go hs7 (memAlloc_gets H.honest H.room (by omega)) fun s8 hs8 => ?_
  refine Wp.go hs8 (seal_gets H l3 (by omega) (by omega)).mapErr fun s9 hs9 => ?_
  have hctl := H.sized.enc (keyIv P su 8 9 prk4 th4).1 (keyIv P su 8 9 prk4 th4).2.1
    (keyIv P su 8 9 prk4 th4).2.2 (Spec.ead ts)
  generalize hcte : P.enc (keyIv P su 8 9 prk4 th4).1 (keyIv P su 8 9 prk4 th4).2.1
    (keyIv P su 8 9 prk4 th4).2.2 (Spec.ead ts) = ct at hctl ⊢
  have hgen : Gets I (genMsg4 ct n : M σ Bytes) c3 (encBstr ct) c3 := by
    have h1 := encBstr_small (b := ct) (by omega)
    have h2 := bstrOh_le3 (n := ct.length) (by omega)
    unfold genMsg4
    refine (Gets.require ?_).bind (Gets.ofOption (fits_of (by omega)))
    simp only [Bool.and_eq_true, bne_iff_ne, ne_eq]; omega
  refine Wp.go hs9 hgen.mapErr fun s10 hs10 => ?_
  refine Wp.new hs10 Gets.modCtx fun c11 s11 hc11 hs11 => ?_
  refine ⟨_, s11, rfl, ts, ⟨hts, by rw [hcte]⟩, ?_, hs11.2⟩
  rw [hs11.1, hc11]
  exact ⟨⟨⟨⟨l3.keys, l3.crypto, l3.cred, l3.suite⟩, me3, cid3, rfl⟩, st3, pc3, t3, k3, o3⟩, rfl⟩

theorem message4Process_wp (H : Host P su k I E cfg) {ci : Cid} {prk4 th4 : Bytes}
    (hA : AfterM3 su me prk4 th4 ci c0 c)
    (hth : th4.length = su.hash) (hpr : prk4.length = su.hash) (hst : c.status = .completed) {ts : List EadTok} {m4 : Bytes}
    (hf : Flight4 P su k prk4 th4 ts m4) {s : St σ} (hs : At I s c) :
    Wp (message4Process E cfg m4) s fun _ s' => AfterM4 su me prk4 th4 ci c0 s'.ctx ∧ I s'.env := by
  have z5 := H.suite.tag
  have hsz := hf.ead.size
  have hct := hf.ead.count
  have hctl := H.sized.enc (keyIv P su 8 9 prk4 th4).1 (keyIv P su 8 9 prk4 th4).2.1
    (keyIv P su 8 9 prk4 th4).2.2 (Spec.ead ts)
  have hmsg := hf.msg
  have hk := H.ead
  unfold message4Process
  refine Wp.go hs (Gets.require ?_) fun s1 hs1 => ?_
  · have : 0 < m4.length := by rw [hmsg, encBstr_length]; omega
    simp only [bne_iff_ne, ne_eq]; omega
  refine Wp.new hs1 (enter_gets (by simp [okCompleted, hst, hA.keys])) fun c2 s2 hc2 hs2 => ?_
  rw [hmsg]
  refine Wp.go hs2 (Gets.ofOption (getMsgBstr_enc (by unfold SizeOk; omega))) fun s3 hs3 => ?_
  have l2 : Live su c2 := by rw [hc2]; exact ⟨hA.live.keys, hA.live.crypto, hA.live.cred, hA.live.suite⟩
  have t2 : c2.th = th4 := by rw [hc2]; exact hA.th
  have k2 : c2.prk = prk4 := by rw [hc2]; exact hA.prk
  have st2 : c2.thState = .th4 ∧ c2.prkState = .prk4e3m := by rw [hc2]; exact hA.keys
  have me2 : c2.chosenMethod = me := by rw [hc2]; exact hA.method
  have cid2 : c2.cid = c0.cid := by rw [hc2]; exact hA.cid
  have o2 : c2.oscoreAllowed = true := by rw [hc2]; exact hA.oscore
  have pc2 : c2.peerCid = ci := by rw [hc2]; exact hA.peerCid
  clear hc2
  refine Wp.go hs3 (keyIvAad4_gets H l2 st2.1 st2.2 (by rw [t2]; exact hth) (by rw [k2]; exact hpr)) fun s4 hs4 => ?_
  rw [k2, t2]
  refine Wp.go hs4 Gets.getCtx fun s5 hs5 => ?_
  rw [l2.suite, hctl, subSize_add]
  refine Wp.go hs5 (memAlloc_gets H.honest H.room (by omega)) fun s6 hs6 => ?_
  refine Wp.go hs6 (open_gets H l2 (by omega) rfl).mapErr fun s7 hs7 => ?_
  have hparse : Gets I (parsePtxt4 cfg (Spec.ead ts) : M σ Unit) c2 () { c2 with ead := ts } := by
    unfold parsePtxt4
    rw [getPtxt4_enc (wire_of_eadOk hf.ead) hct.2, staleEad_enc (wire_of_eadOk hf.ead)]
    exact (Gets.guardUB (by simp only [decide_eq_true_eq]; omega)).bind (Gets.modCtx.bind handOver_gets)
  refine Wp.new hs7 hparse.mapErr fun c8 s8 hc8 hs8 => ?_
  refine Wp.go hs8 (eadProcess_gets H) fun s9 hs9 => ?_
  refine (Gets.modCtx.wp hs9).mono ?_
  rintro _ s10 ⟨_, hs10⟩
  refine ⟨?_, hs10.2⟩
  rw [hs10.1, hc8]
  exact ⟨⟨⟨⟨l2.keys, l2.crypto, l2.cred, l2.suite⟩, me2, cid2, rfl⟩, st2, pc2, t2, k2, o2⟩, rfl⟩

end Verif
