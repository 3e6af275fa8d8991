import Verif.Events

/-!
# What a call had done when it computed a MAC or signed

The calls that compose or process message 2 and message 3 compute one MAC each, the composing ones may then sign. The
call may fail later on.
-/

namespace Verif

open M Spec

variable {σ α β : Type} {E : Env σ} {cfg : Config} {s s' : St σ}

/-- the rest of a function -/
theorem Emits.tail {msg : Msg} {m : M σ α} {ks : List Kind} (he : Emits msg m ks) {r : Res α} (h : m s = (r, s'))
    (hd : r.Defined) (hm : s.ctx.message = msg) : Grow s s' ∧ Within ks (during s s') := by
  have h1 := he s hm
  rw [h] at h1
  obtain ⟨_, es, h2, h3⟩ := h1 hd
  exact ⟨grow_iff.2 ⟨es, h2⟩, by unfold during; rw [h2, List.drop_left]; exact h3⟩

theorem during_split {s1 : St σ} (h1 : Grow s s1) (h2 : Grow s1 s') : during s s' = during s s1 ++ during s1 s' := by
  obtain ⟨a, h1⟩ := grow_iff.1 h1
  obtain ⟨b, h2⟩ := grow_iff.1 h2
  unfold during
  rw [h2, h1]
  simp

/-- a call to Expand that computes MAC_2 (`label = 2`) or MAC_3 (`label = 6`), or a signature -/
inductive Auth (label : Nat) : Ev → Prop
  | mac {kid i o : Bytes} {n : Nat} : IsKind (.derive label) (.expand kid i n (some o)) → Auth label (.expand kid i n (some o))
  | sign {kid i : Bytes} {o : Option Bytes} : Auth label (.sign kid i o)

/-- the kind of such a call -/
theorem Auth.kind {label : Nat} {v : Ev} (h : Auth label v) :
    ∃ k, IsKind k v ∧ (k = .derive label ∨ k = .sign) := by
  cases h with
  | mac h => exact ⟨_, h, .inl rfl⟩
  | sign => exact ⟨_, .sign, .inr rfl⟩

/-- a signature -/
theorem compSignOrMac_event {k : Bytes} {m : MacCtx} {mac : Bytes} {n : Nat} {r : Res Bytes}
    (h : compSignOrMac E cfg k m mac n s = (r, s')) (hd : r.Defined) {kid i : Bytes} {o : Option Bytes}
    (hv : Ev.sign kid i o ∈ during s s') :
    usesSign s.ctx = some true ∧ kid = k ∧ i = encSigStructure m.idCred m.aad mac := by
  generalize hw : Ev.sign kid i o = v at hv
  have hk : kindless v = false := by rw [← hw]; rfl
  have hn : Not v s.ctx.message s s := ⟨rfl, [], by simp, by simp⟩
  unfold compSignOrMac at h
  obtain ⟨c, s1, h1, h, hn⟩ := quiet_step hk Emits.getCtx hn h hd hv
  obtain ⟨rfl, rfl⟩ := getCtx_ok.1 h1
  obtain ⟨_, s1, h1, h, hn⟩ := quiet_step hk (Emits.require _ _) hn h hd hv
  obtain ⟨_, rfl⟩ := require_ok.1 h1
  have quiet : ∀ {p : M σ Bytes}, p s = (r, s') → Emits s.ctx.message p [] → False := fun hp he =>
    within_kindless (he.tail hp hd rfl).2 hk hv
  rcases hu : usesSign s.ctx with _ | _ | _ <;> simp only [hu] at h
  · exact (quiet h (Emits.fail _)).elim
  · refine (quiet h ?_).elim
    quiet1
  · refine ⟨rfl, ?_⟩
    unfold signCose at h
    obtain ⟨_, s1, h1, h, hn⟩ := quiet_step hk (Emits.memAlloc _ _ _) hn h hd hv
    rw [← hn.1] at hn
    obtain ⟨info, s2, h2, h, hn⟩ := quiet_step hk (Emits.ofOption _ _) hn h hd hv
    obtain ⟨h3, rfl⟩ := ofOption_ok.1 h2
    obtain ⟨rfl, _⟩ := fits_some h3
    rcases bind_cases h hd with ⟨a, s5, h1, h⟩ | ⟨e, h1⟩
    · simp only [sign, bind_ok, needCrypto_ok, call_ok] at h1
      obtain ⟨_, _, ⟨_, rfl⟩, _, rfl⟩ := h1
      have ht := (Emits.tail (msg := s1.ctx.message) (ks := []) (by quiet1) h hd rfl)
      obtain ⟨hm, es, h5, h6⟩ := hn
      obtain ⟨l, hl⟩ := grow_iff.1 ht.1
      have h7 := ht.2
      unfold during at h7 hv
      rw [hl, List.drop_left] at h7
      rw [hl, h5, List.append_assoc, List.append_assoc, List.drop_left] at hv
      rcases List.mem_append.1 hv with hv | hv
      · exact (h6 hv).elim
      · rcases List.mem_append.1 hv with hv | hv
        · rw [List.mem_singleton, ← hw] at hv
          simp only [Ev.sign.injEq] at hv
          exact ⟨hv.1, hv.2.1⟩
        · exact (within_kindless h7 hk hv).elim
    · exfalso
      simp only [sign, needCrypto, Bind.bind, M.bind, M.getCtx, M.guardUB, M.call] at h1
      split at h1 <;> rename_i h2 <;> split at h2 <;> simp_all

/-- the step that computes the MAC -/
theorem mac_step {label : Nat} {msg : Msg} {v : Ev} (hv : Auth label v)
    (hk : Emits.macKind msg = .derive label) {g : M σ Bytes} (hg : Emits msg g [Emits.macKind msg])
    (hok : ∀ {r a b}, g a = (r, b) → r.Defined → ∀ {kid i k o}, Ev.expand kid i k (some o) ∈ during a b → ∃ mac, r = .ok mac)
    {f : Bytes → M σ β} {s0 : St σ} {r : Res β} (hn : Not v msg s0 s) (h : (g >>= f) s = (r, s')) (hd : r.Defined)
    (hx : ¬ Not v msg s0 s') : ∃ mac s1, g s = (.ok mac, s1) ∧ f mac s1 = (r, s') ∧ s1.ctx.message = msg ∧
      ∀ {kid i o}, v = .sign kid i o → Not v msg s0 s1 := by
  rcases bind_cases h hd with ⟨a, s1, h1, h2⟩ | ⟨e, h1⟩
  · have h3 := hg s hn.1
    rw [h1] at h3
    refine ⟨a, s1, h1, h2, (h3 (by simp)).1, ?_⟩
    rintro kid i o rfl
    exact Sans.after (k := .sign) ⟨_, hg, by rw [hk]; simp⟩ .sign hn h1 (by simp)
  · exfalso
    cases hv with
    | sign =>
      refine hx (Sans.after (k := .sign) ⟨_, hg, ?_⟩ .sign hn h1 (by simp))
      rw [hk]; simp
    | @mac kid i o k hi =>
      obtain ⟨hm, es, h5, h6⟩ := hn
      have h3 := hg s hm
      rw [h1] at h3
      obtain ⟨h7, es', h8, h9⟩ := h3 (by simp)
      have hnot : Ev.expand kid i k (some o) ∉ es' := fun hmem => by
        obtain ⟨_, h10⟩ := hok h1 (by simp) (by unfold during; rw [h8, List.drop_left]; exact hmem)
        cases h10
      exact hx ⟨h7, es ++ es', by rw [h8, h5, List.append_assoc], fun hm =>
        (List.mem_append.1 hm).elim h6 hnot⟩

/-- the step that signs -/
theorem sign_step {k : Bytes} {m : MacCtx} {mac : Bytes} {n : Nat} {msg : Msg} {kid i : Bytes} {o : Option Bytes}
    {f : Bytes → M σ β} {s0 : St σ} {r : Res β} (hn : Not (.sign kid i o) msg s0 s)
    (h : (compSignOrMac E cfg k m mac n >>= f) s = (r, s')) (hd : r.Defined) (hx : ¬ Not (.sign kid i o) msg s0 s')
    (hf : ∀ a, Sans .sign msg (f a)) :
    usesSign s.ctx = some true ∧ kid = k ∧ i = encSigStructure m.idCred m.aad mac := by
  have key : ∀ {x : Res Bytes} {s1 : St σ}, compSignOrMac E cfg k m mac n s = (x, s1) → x.Defined →
      Ev.sign kid i o ∉ during s s1 → Not (.sign kid i o) msg s0 s1 := by
    intro x s1 h1 h2 h3
    obtain ⟨hm, es, h5, h6⟩ := hn
    have h4 := Emits.compSignOrMac E cfg k m mac n s hm
    rw [h1] at h4
    obtain ⟨h7, es', h8, h9⟩ := h4 h2
    refine ⟨h7, es ++ es', by rw [h8, h5, List.append_assoc], fun hm => (List.mem_append.1 hm).elim h6 fun hm => h3 ?_⟩
    unfold during
    rwa [h8, List.drop_left]
  rcases bind_cases h hd with ⟨a, s1, h1, h2⟩ | ⟨e, h1⟩
  · by_cases hv : Ev.sign kid i o ∈ during s s1
    · exact compSignOrMac_event h1 (by simp) hv
    · exact absurd ((hf a).after .sign (key h1 (by simp) hv) h2 hd) hx
  · by_cases hv : Ev.sign kid i o ∈ during s s'
    · exact compSignOrMac_event h1 (by simp) hv
    · exact absurd (key h1 (by simp) hv) hx

/-- a step before the MAC -/
theorem Auth.step {label : Nat} {v : Ev} (hv : Auth label v) {msg : Msg} {m : M σ α} {ks : List Kind}
    (he : Emits msg m ks) {f : α → M σ β} {s0 : St σ} {r : Res β} (hn : Not v msg s0 s)
    (h : (m >>= f) s = (r, s')) (hd : r.Defined) (hx : ¬ Not v msg s0 s')
    (hks : Kind.derive label ∉ ks ∧ Kind.sign ∉ ks := by decide) :
    ∃ a s1, m s = (.ok a, s1) ∧ f a s1 = (r, s') ∧ Not v msg s0 s1 := by
  obtain ⟨k, h1, rfl | rfl⟩ := hv.kind
  · exact Sans.step ⟨ks, he, hks.1⟩ h1 hn h hd hx
  · exact Sans.step ⟨ks, he, hks.2⟩ h1 hn h hd hx

theorem compMac_kind {msg : Msg} {c : Ctx} (hm : c.message = msg) (kid buf : Bytes) (m n : Nat) (o : Option Bytes) :
    IsKind (Emits.macKind msg) (.expand kid (encInfo (macLabel c) buf (u32 m)) n o) := by
  have hi : ∀ l : Nat, encInfo l buf (u32 m) = info l buf (u32 m) := fun l => by simp [encInfo, info, encInt]
  rw [hi]
  unfold Emits.macKind
  have : macLabel c = if msg = .msg3 then 6 else 2 := by simp [macLabel, hm]
  rw [this]
  exact .derive (by split <;> decide) (Nat.mod_lt _ (by decide))

/-- `edhoc_message_2_compose` had come to its MAC. -/
structure Head2 (s s' : St σ) (priv pub kid : Bytes) (cr : Cred) (th2 : Bytes) (ts : List EadTok) (mac : Bytes) :
    Prop where
  state : okReceivedM1 s.ctx = true
  method : s.ctx.chosenMethod ≤ 3
  pubLen : pub.length = s.ctx.suite.eccKey
  keyPair : ∃ k, Saw (evKeyPair k priv pub) s s'
  hash : Hashed (encBstr pub ++ encBstr s.ctx.th) th2 s s'
  fetch : Saw [.credFetch (some (cr, kid))] s s'
  prk : ∃ prk, Expanded prk 2 (Spec.context2 s.ctx.cid cr th2 ts)
    (macLenOf (Spec.responderSigns s.ctx.chosenMethod) s.ctx.suite) mac s s'

theorem message2Compose_head {size : Nat} {r : Res Bytes} (h : message2Compose E cfg size s = (r, s')) (hd : r.Defined)
    {v : Ev} (hv : v ∈ during s s') (ha : Auth 2 v) :
    ∃ priv pub kid cr th2 ts mac, Head2 s s' priv pub kid cr th2 ts mac ∧
      (∀ k i o, v = .sign k i o → k = kid ∧ i = Spec.sigStructure cr th2 ts mac ∧
        Spec.responderSigns s.ctx.chosenMethod = true) := by
  unfold message2Compose at h
  obtain ⟨s1, h1, h, hn, hx⟩ := Not.enter h hd hv
  obtain ⟨e1, c1, l1⟩ := enter_st h1
  have g1 : Grow s s1 := grow_of_log l1
  obtain ⟨_, s2, h2, h, hn⟩ := ha.step (Emits.mapErr _ (Emits.genDhKeys E cfg)) hn h hd hx
  obtain ⟨priv, pub, kk, c2, hp1, hp2, w2⟩ := genDhKeys_ok (mapErr_ok.1 h2)
  obtain ⟨_, s3, h3, h, hn⟩ := ha.step (Emits.mapErr _ (Emits.compDhSecret E cfg)) hn h hd hx
  obtain ⟨gxy, ka, c3, _, w3⟩ := compDhSecret_ok (mapErr_ok.1 h3)
  obtain ⟨_, s4, h4, h, hn⟩ := ha.step (Emits.mapErr _ (Emits.compTh2 E cfg)) hn h hd hx
  obtain ⟨_, th2, c4, lt2, x2, _, _, w4⟩ := compTh2_ok (mapErr_ok.1 h4)
  obtain ⟨_, s5, h5, h, hn⟩ := ha.step (Emits.mapErr _ (Emits.compPrk2e E cfg)) hn h hd hx
  obtain ⟨_, _, prk2e, ke, c5, lp2, w5⟩ := compPrk2e_ok (mapErr_ok.1 h5)
  obtain ⟨_, _, hc, h, hn⟩ := ha.step Emits.getCtx hn h hd hx
  obtain ⟨rfl, rfl⟩ := getCtx_ok.1 hc
  obtain ⟨_, s6, h6, h, hn⟩ := ha.step (Emits.memAlloc E cfg _) hn h hd hx
  obtain ⟨c6, g6⟩ := memAlloc_ok h6
  obtain ⟨f', s7, h7, h, hn⟩ := ha.step (Emits.credFetch E) hn h hd hx
  obtain ⟨f, s8, h8, h, hn⟩ := ha.step (Emits.ofOption _ _) hn h hd hx
  obtain ⟨c8, l8⟩ := fetch_ok h7 h8
  obtain ⟨_, s9, h9, h, hn⟩ := ha.step (Emits.eadCompose E cfg) hn h hd hx
  obtain ⟨ts, c9, w9⟩ := eadCompose_ok h9
  have g9 := eadCompose_grow h9
  obtain ⟨_, s10, h10, h, hn⟩ := ha.step (Emits.mapErr _ (Emits.compPrk3e2m E cfg _ _)) hn h hd hx
  obtain ⟨g10, prk3, w10, c10⟩ := prk3e2m_next (mapErr_ok.1 h10)
  obtain ⟨m, s11, h11, h, hn⟩ := ha.step (Emits.buildMacCtx E cfg _ _) hn h hd hx
  obtain ⟨c11, g11, n, _, hmac⟩ := buildMacCtx_ok h11
  have hm := macContext_ok hmac
  obtain ⟨_, _, hc, h, hn⟩ := ha.step Emits.getCtx hn h hd hx
  obtain ⟨rfl, rfl⟩ := getCtx_ok.1 hc
  obtain ⟨macLen, _, h12', h, hn⟩ := ha.step (Emits.ofRes _) hn h hd hx
  obtain ⟨h12, rfl⟩ := ofRes_ok.1 h12'
  obtain ⟨_, s12, h13, h, hn⟩ := ha.step (Emits.memAlloc E cfg _) hn h hd hx
  obtain ⟨c12, g12⟩ := memAlloc_ok h13
  obtain ⟨mac, s13, h14, h, hm13, hs13⟩ := mac_step ha rfl (Emits.compMac E cfg _ _) (fun a b => compMac_event a b) hn h hd hx
  obtain ⟨_, _, c13, lmac, km, w13⟩ := compMac_ok h14
  have ht := Emits.tail (ks := [.sign, .derive 0]) (by
    steps2
    refine Emits.bindL (Emits.compSignOrMac _ _ _ _ _ _) fun _ => ?_
    steps2
    refine Emits.bindL (Emits.mapErr _ (Emits.compKeystream _ _ _ _)) fun _ => ?_
    quiet2) h hd hm13
  -- contexts
  have C2 : s2.ctx = { s.ctx with
      dhPriv := priv, dhPub := pub
      status := .aborted, errorCode := .unspecified, message := .msg2, role := .responder } := by
    rw [c2, c1]
  have C3 : s3.ctx = { s.ctx with
      dhPriv := priv, dhPub := pub, dhSecret := gxy
      status := .aborted, errorCode := .unspecified, message := .msg2, role := .responder } := by
    rw [c3, C2]
  have C4 : s4.ctx = { s.ctx with
      dhPriv := priv, dhPub := pub, dhSecret := gxy, th := th2, thState := .th2
      status := .aborted, errorCode := .unspecified, message := .msg2, role := .responder } := by
    rw [c4, C3]
  have C5 : s5.ctx = { s.ctx with
      dhPriv := priv, dhPub := pub, dhSecret := gxy, th := th2, thState := .th2
      prk := prk2e, prkState := .prk2e
      status := .aborted, errorCode := .unspecified, message := .msg2, role := .responder } := by
    rw [c5, C4]
  have C9 : s9.ctx = { s.ctx with
      dhPriv := priv, dhPub := pub, dhSecret := gxy, th := th2, thState := .th2
      prk := prk2e, prkState := .prk2e, ead := ts
      status := .aborted, errorCode := .unspecified, message := .msg2, role := .responder } := by
    rw [c9, c8, c6, C5]
  have C10 : s10.ctx = { s.ctx with
      dhPriv := priv, dhPub := pub, dhSecret := gxy, th := th2, thState := .th2
      prk := prk3, prkState := .prk3e2m, ead := ts
      status := .aborted, errorCode := .unspecified, message := .msg2, role := .responder } := by
    rw [c10, C9]; simp
  have C11 : s11.ctx = s10.ctx := c11
  have C12 : s12.ctx = s10.ctx := c12.trans C11
  have C13 : s13.ctx = s10.ctx := c13.trans C12
  -- growth
  have G1 := g1
  have G2 := G1.trans w2.grow
  have G3 := G2.trans w3.grow
  have G4 := G3.trans w4.grow
  have G5 := G4.trans w5.grow
  have G6 := G5.trans g6
  have G8 := G6.trans (saw_ext l8).grow
  have G9 := G8.trans g9
  have G10 := G9.trans g10
  have G11 := G10.trans g11
  have G12 := G11.trans g12
  have G13 := G12.trans w13.grow
  have H13 := ht.1
  have H12 := w13.grow.trans H13
  have H11 := g12.trans H12
  have H10 := g11.trans H11
  have H9 := g10.trans H10
  have H8 := g9.trans H9
  have H6 := (saw_ext l8).grow.trans H8
  have H5 := g6.trans H6
  have H4 := w5.grow.trans H5
  have H3 := w4.grow.trans H4
  have H2 := w3.grow.trans H3
  rw [C11, C10] at h12
  obtain ⟨hml, hmeth⟩ := macLength2 rfl h12
  refine ⟨priv, pub, f.2, f.1, th2, ts, mac, ?_, ?_⟩
  · constructor
    case state => exact e1
    case method => exact hmeth
    case keyPair => exact ⟨kk, w2.mid G1 H2⟩
    case pubLen => rw [hp2, c1]; rfl
    case hash => rw [C3] at w4; exact w4.mid G3 H4
    case fetch => exact (saw_ext l8).mid G6 H8
    case prk =>
      rw [C12, C10] at w13
      rw [hm.buf2 (by rw [C10]), C10] at w13
      refine ⟨prk3, Expanded.mid G12 ⟨?_, km, ?_⟩ H13⟩
      · rw [lmac, hml]; rfl
      · rw [hml] at w13; exact w13
  · rintro k i o rfl
    have hn := hs13 rfl
    obtain ⟨sLen, _, h15', h, hn⟩ := ha.step (Emits.ofRes _) hn h hd hx
    obtain ⟨h15, rfl⟩ := ofRes_ok.1 h15'
    obtain ⟨_, s14, h16, h, hn⟩ := ha.step (Emits.memAlloc E cfg _) hn h hd hx
    obtain ⟨c14, g14⟩ := memAlloc_ok h16
    obtain ⟨u1, u2, u3⟩ := sign_step hn h hd hx fun _ => ⟨[.derive 0], by
      steps2
      refine Emits.bindL (Emits.mapErr _ (Emits.compKeystream _ _ _ _)) fun _ => ?_
      quiet2, by decide⟩
    rw [c14, C13, C10] at u1
    rw [hm.sig, C10] at u3
    exact ⟨u2, u3, (usesSign2 rfl u1).1⟩

/-- `edhoc_message_2_process` had come to its MAC. -/
structure Tail2 (s s' : St σ) (gy : Bytes) (cid : Cid) (id cr : Cred) (pk : Option Bytes) (th2 : Bytes)
    (ts : List EadTok) (mac : Bytes) : Prop where
  state : okWaitM2 s.ctx = true
  method : s.ctx.chosenMethod ≤ 3
  gyLen : gy.length = s.ctx.suite.eccKey
  hash : Hashed (encBstr gy ++ encBstr s.ctx.th) th2 s s'
  fits : CidFits cfg cid
  verified : Saw [.credVerify id (some (cr, pk))] s s'
  prk : ∃ prk, Expanded prk 2 (Spec.context2 cid cr th2 ts)
    (macLenOf (Spec.responderSigns s.ctx.chosenMethod) s.ctx.suite) mac s s'

theorem message2Process_head {msg : Bytes} {r : Res Unit} (h : message2Process E cfg msg s = (r, s')) (hd : r.Defined)
    {v : Ev} (hv : v ∈ during s s') (ha : Auth 2 v) :
    ∃ gy cid id cr pk th2 ts mac, Tail2 (cfg := cfg) s s' gy cid id cr pk th2 ts mac := by
  unfold message2Process at h
  obtain ⟨s1, h1, h, hn, hx⟩ := Not.enter h hd hv
  obtain ⟨e1, c1, l1⟩ := enter_st h1
  have g1 : Grow s s1 := grow_of_log l1
  obtain ⟨ctxt, s2, h2, h, hn⟩ := ha.step (Emits.parseMsg2 E cfg _) hn h hd hx
  obtain ⟨b, hb, hbl, hctxt, g2, c2⟩ := parseMsg2_ok h2
  obtain ⟨_, s3, h3, h, hn⟩ := ha.step (Emits.mapErr _ (Emits.compDhSecret E cfg)) hn h hd hx
  obtain ⟨gxy, ka, c3, _, w3⟩ := compDhSecret_ok (mapErr_ok.1 h3)
  obtain ⟨_, s4, h4, h, hn⟩ := ha.step (Emits.mapErr _ (Emits.compTh2 E cfg)) hn h hd hx
  obtain ⟨_, th2, c4, lt2, x2, _, _, w4⟩ := compTh2_ok (mapErr_ok.1 h4)
  obtain ⟨_, s5, h5, h, hn⟩ := ha.step (Emits.mapErr _ (Emits.compPrk2e E cfg)) hn h hd hx
  obtain ⟨_, _, prk2e, ke, c5, lp2, w5⟩ := compPrk2e_ok (mapErr_ok.1 h5)
  obtain ⟨_, s6, h6, h, hn⟩ := ha.step (Emits.memAlloc E cfg _) hn h hd hx
  obtain ⟨c6, g6⟩ := memAlloc_ok h6
  obtain ⟨_, _, hc, h, hn⟩ := ha.step Emits.getCtx hn h hd hx
  obtain ⟨rfl, rfl⟩ := getCtx_ok.1 hc
  obtain ⟨ks, s7, h7, h, hn⟩ := ha.step (Emits.mapErr _ (Emits.compKeystream E cfg _ _)) hn h hd hx
  obtain ⟨_, hct0, c7, lks, kks, w7⟩ := compKeystream_ok (mapErr_ok.1 h7)
  obtain ⟨p', s8, h8, h, hn⟩ := ha.step (Emits.mapErr _ (Emits.parsePtxt2 cfg _)) hn h hd hx
  obtain ⟨cid, p, hdec, hid, hsig, c8, hfits, l8⟩ := parsePtxt2_st (mapErr_ok.1 h8)
  have g8 : Grow s7 s8 := grow_of_log l8
  obtain ⟨_, s9, h9, h, hn⟩ := ha.step (Emits.eadProcess E cfg) hn h hd hx
  obtain ⟨c9, w9⟩ := eadProcess_ok h9
  have g9 := eadProcess_grow h9
  obtain ⟨vr, s10, h10, h, hn⟩ := ha.step (Emits.verifyCred E _) hn h hd hx
  obtain ⟨c10, l10⟩ := verifyCred_ok h10
  obtain ⟨_, s11, h11, h, hn⟩ := ha.step (Emits.mapErr _ (Emits.compPrk3e2m E cfg _ _)) hn h hd hx
  obtain ⟨g11, prk3, w11, c11⟩ := prk3e2m_next (mapErr_ok.1 h11)
  obtain ⟨m, s12, h12, h, hn⟩ := ha.step (Emits.buildMacCtx E cfg _ _) hn h hd hx
  obtain ⟨c12, g12, n, _, hmac⟩ := buildMacCtx_ok h12
  have hm := macContext_ok hmac
  obtain ⟨_, _, hc, h, hn⟩ := ha.step Emits.getCtx hn h hd hx
  obtain ⟨rfl, rfl⟩ := getCtx_ok.1 hc
  obtain ⟨macLen, _, h13', h, hn⟩ := ha.step (Emits.ofRes _) hn h hd hx
  obtain ⟨h13, rfl⟩ := ofRes_ok.1 h13'
  obtain ⟨_, s13, h14, h, hn⟩ := ha.step (Emits.memAlloc E cfg _) hn h hd hx
  obtain ⟨c13, g13⟩ := memAlloc_ok h14
  obtain ⟨mac, s14, h15, h, hm14, _⟩ := mac_step ha rfl (Emits.compMac E cfg _ _) (fun a b => compMac_event a b) hn h hd hx
  obtain ⟨_, _, c14, lmac, km, w14⟩ := compMac_ok h15
  have ht := Emits.tail (ks := [.verify]) (by
    refine Emits.bindL (Emits.mapErr _ (Emits.verifySignOrMac _ _ _ _ _ _)) fun _ => ?_
    quiet2) h hd hm14
  have hctx : s1.ctx.suite = s.ctx.suite := by rw [c1]; rfl
  rw [hctx] at hbl hctxt
  have C2 : s2.ctx = { s.ctx with
      dhPeerPub := b.take s.ctx.suite.eccKey
      status := .aborted, errorCode := .unspecified, message := .msg2, role := .initiator } := by
    rw [c2, c1]; rfl
  have C3 : s3.ctx = { s.ctx with
      dhPeerPub := b.take s.ctx.suite.eccKey, dhSecret := gxy
      status := .aborted, errorCode := .unspecified, message := .msg2, role := .initiator } := by
    rw [c3, C2]
  have C4 : s4.ctx = { s.ctx with
      dhPeerPub := b.take s.ctx.suite.eccKey, dhSecret := gxy, th := th2, thState := .th2
      status := .aborted, errorCode := .unspecified, message := .msg2, role := .initiator } := by
    rw [c4, C3]
  have C5 : s5.ctx = { s.ctx with
      dhPeerPub := b.take s.ctx.suite.eccKey, dhSecret := gxy, th := th2, thState := .th2
      prk := prk2e, prkState := .prk2e
      status := .aborted, errorCode := .unspecified, message := .msg2, role := .initiator } := by
    rw [c5, C4]
  have C8 : s8.ctx = { s.ctx with
      dhPeerPub := b.take s.ctx.suite.eccKey, dhSecret := gxy, th := th2, thState := .th2
      prk := prk2e, prkState := .prk2e, peerCid := cid
      ead := if p.ead.isEmpty then s.ctx.ead else p.ead
      status := .aborted, errorCode := .unspecified, message := .msg2, role := .initiator } := by
    rw [c8, c7, c6, C5]
  have C10 : s10.ctx = s8.ctx := c10.trans c9
  have C11 : s11.ctx = { s.ctx with
      dhPriv := if Spec.responderSigns s.ctx.chosenMethod then s.ctx.dhPriv else []
      dhPeerPub := b.take s.ctx.suite.eccKey, dhSecret := gxy, th := th2, thState := .th2
      prk := prk3, prkState := .prk3e2m, peerCid := cid
      ead := if p.ead.isEmpty then s.ctx.ead else p.ead
      status := .aborted, errorCode := .unspecified, message := .msg2, role := .initiator } := by
    rw [c11, C10, C8]
    cases Spec.responderSigns s.ctx.chosenMethod <;> simp
  have C12 : s12.ctx = s11.ctx := c12
  have C13 : s13.ctx = s11.ctx := c13.trans C12
  have G3 := (g1.trans g2).trans w3.grow
  have G9 := ((((((G3.trans w4.grow).trans w5.grow).trans g6).trans w7.grow).trans g8).trans g9)
  have G13 := (((G9.trans (saw_ext l10).grow).trans g11).trans g12).trans g13
  have H14 := ht.1
  have H13 := w14.grow.trans H14
  have H10 := g11.trans (g12.trans (g13.trans H13))
  have H9 := (saw_ext l10).grow.trans H10
  have H4 := w5.grow.trans (g6.trans (w7.grow.trans (g8.trans (g9.trans H9))))
  rw [C12, C11] at h13
  obtain ⟨hml, hmeth⟩ := macLength2 rfl h13
  refine ⟨b.take s.ctx.suite.eccKey, cid, p'.1, vr.1, vr.2, th2, if p.ead.isEmpty then s.ctx.ead else p.ead, mac, ?_⟩
  constructor
  case state => exact e1
  case method => exact hmeth
  case gyLen => rw [List.length_take]; omega
  case hash => rw [C3] at w4; exact w4.mid G3 H4
  case fits => exact hfits
  case verified => exact (saw_ext l10).mid G9 H10
  case prk =>
    rw [C13, C11] at w14
    rw [hm.buf2 (by rw [C11]), C11] at w14
    refine ⟨prk3, Expanded.mid G13 ⟨?_, km, ?_⟩ H14⟩
    · rw [lmac, hml]; rfl
    · rw [hml] at w14; exact w14

theorem mapErr_defined {e : Err} {m : M σ α} {r : Res α} (h : M.mapErr e m s = (r, s')) (hd : r.Defined) :
    ∃ r', m s = (r', s') ∧ r'.Defined ∧ ∀ a, r' = .ok a → r = .ok a := by
  unfold M.mapErr at h
  rcases hm : m s with ⟨r', s1⟩
  rw [hm] at h
  cases r' with
  | ok a =>
    simp only [Prod.mk.injEq] at h
    obtain ⟨rfl, rfl⟩ := h
    exact ⟨_, rfl, by simp, fun _ h => h⟩
  | err x =>
    simp only [Prod.mk.injEq] at h
    obtain ⟨rfl, rfl⟩ := h
    exact ⟨_, rfl, by simp, fun _ h => by cases h⟩
  | ub u =>
    simp only [Prod.mk.injEq] at h
    exact absurd h.1.symm (hd u)

theorem compMac_event' {buf : Bytes} {n : Nat} {e : Err} {a b : St σ} {r : Res Bytes}
    (h : M.mapErr e (compMac E cfg buf n) a = (r, b)) (hd : r.Defined) {kid i : Bytes} {k : Nat} {o : Bytes}
    (hv : Ev.expand kid i k (some o) ∈ during a b) : ∃ mac, r = .ok mac := by
  obtain ⟨r', h1, h2, h3⟩ := mapErr_defined h hd
  obtain ⟨mac, h4⟩ := compMac_event h1 h2 hv
  exact ⟨mac, h3 _ h4⟩

/-- `edhoc_message_3_compose` had come to its MAC. -/
structure Head3 (s s' : St σ) (kid : Bytes) (cr : Cred) (ts : List EadTok) (mac : Bytes) : Prop where
  state : okVerifiedM2 s.ctx = true
  method : s.ctx.chosenMethod ≤ 3
  fetch : Saw [.credFetch (some (cr, kid))] s s'
  prk : ∃ prk, Expanded prk 6 (Spec.context3 cr s.ctx.th ts)
    (macLenOf (Spec.initiatorSigns s.ctx.chosenMethod) s.ctx.suite) mac s s'

theorem message3Compose_head {size : Nat} {r : Res Bytes} (h : message3Compose E cfg size s = (r, s')) (hd : r.Defined)
    {v : Ev} (hv : v ∈ during s s') (ha : Auth 6 v) :
    ∃ kid cr ts mac, Head3 s s' kid cr ts mac ∧
      (∀ k i o, v = .sign k i o → k = kid ∧ i = Spec.sigStructure cr s.ctx.th ts mac ∧
        Spec.initiatorSigns s.ctx.chosenMethod = true) := by
  unfold message3Compose at h
  obtain ⟨s1, h1, h, hn, hx⟩ := Not.enter h hd hv
  obtain ⟨e1, c1, l1⟩ := enter_st h1
  have g1 : Grow s s1 := grow_of_log l1
  obtain ⟨_, s2, h2, h, hn⟩ := ha.step (Emits.eadCompose E cfg) hn h hd hx
  obtain ⟨ts, c2, w2⟩ := eadCompose_ok h2
  have g2 := eadCompose_grow h2
  obtain ⟨f', s3, h3, h, hn⟩ := ha.step (Emits.credFetch E) hn h hd hx
  obtain ⟨f, s4, h4, h, hn⟩ := ha.step (Emits.ofOption _ _) hn h hd hx
  obtain ⟨c4, l4⟩ := fetch_ok h3 h4
  obtain ⟨kia, s5, h5, h, hn⟩ := ha.step (Emits.keyIvAad3 E cfg) hn h hd hx
  obtain ⟨c5, g5, w5⟩ := keyIvAad3_ok h5
  obtain ⟨_, s6, h6, h, hn⟩ := ha.step (Emits.mapErr _ (Emits.compPrk4e3m E cfg _ _)) hn h hd hx
  obtain ⟨g6, prk4, w6, c6⟩ := prk4e3m_next (mapErr_ok.1 h6)
  obtain ⟨m, s7, h7, h, hn⟩ := ha.step (Emits.buildMacCtx E cfg _ _) hn h hd hx
  obtain ⟨c7, g7, n, _, hmac⟩ := buildMacCtx_ok h7
  have hm := macContext_ok hmac
  obtain ⟨_, _, hc, h, hn⟩ := ha.step Emits.getCtx hn h hd hx
  obtain ⟨rfl, rfl⟩ := getCtx_ok.1 hc
  obtain ⟨macLen, _, h8', h, hn⟩ := ha.step (Emits.ofRes _) hn h hd hx
  obtain ⟨h8, rfl⟩ := ofRes_ok.1 h8'
  obtain ⟨_, s9, h9, h, hn⟩ := ha.step (Emits.memAlloc E cfg _) hn h hd hx
  obtain ⟨c9, g9⟩ := memAlloc_ok h9
  obtain ⟨mac, s10, h10, h, hm10, hs10⟩ := mac_step ha rfl (Emits.mapErr _ (Emits.compMac E cfg _ _))
    (fun a b => compMac_event' a b) hn h hd hx
  obtain ⟨_, _, c10, lmac, km, w10⟩ := compMac_ok (mapErr_ok.1 h10)
  have ht := Emits.tail (ks := [.sign, .encrypt]) (by
    steps2
    refine Emits.bindL (Emits.compSignOrMac _ _ _ _ _ _) fun _ => ?_
    steps2
    refine Emits.bindL (Emits.mapErr _ (Emits.aeadEncrypt _ _ _ _ _ _)) fun _ => ?_
    quiet2) h hd hm10
  have C4 : s4.ctx = { s.ctx with
      ead := ts
      status := .aborted, errorCode := .unspecified, message := .msg3, role := .initiator } := by
    rw [c4, c2, c1]
  have C5 : s5.ctx = s4.ctx := c5
  have C6 : s6.ctx = { s.ctx with
      ead := ts, prk := prk4, prkState := .prk4e3m
      status := .aborted, errorCode := .unspecified, message := .msg3, role := .initiator } := by
    rw [c6, C5, C4]; simp
  have C7 : s7.ctx = s6.ctx := c7
  have C9 : s9.ctx = s6.ctx := c9.trans C7
  have C10 : s10.ctx = s6.ctx := c10.trans C9
  have G2 := g1.trans g2
  have G9 := ((((G2.trans (saw_ext l4).grow).trans g5).trans g6).trans g7).trans g9
  have H10 := ht.1
  have H4 := g5.trans (g6.trans (g7.trans (g9.trans (w10.grow.trans H10))))
  rw [C7, C6] at h8
  obtain ⟨hml, hmeth⟩ := macLength3 rfl (Res.mapErr_ok.1 h8)
  refine ⟨f.2, f.1, ts, mac, ?_, ?_⟩
  · constructor
    case state => exact e1
    case method => exact hmeth
    case fetch => exact (saw_ext l4).mid G2 H4
    case prk =>
      rw [C9, C6] at w10
      rw [hm.buf3 (by rw [C6]), C6] at w10
      refine ⟨prk4, Expanded.mid G9 ⟨?_, km, ?_⟩ H10⟩
      · rw [lmac, hml]; rfl
      · rw [hml] at w10; exact w10
  · rintro k i o rfl
    have hn := hs10 rfl
    obtain ⟨sLen, _, h15', h, hn⟩ := ha.step (Emits.ofRes _) hn h hd hx
    obtain ⟨h15, rfl⟩ := ofRes_ok.1 h15'
    obtain ⟨_, s14, h16, h, hn⟩ := ha.step (Emits.memAlloc E cfg _) hn h hd hx
    obtain ⟨c14, g14⟩ := memAlloc_ok h16
    obtain ⟨u1, u2, u3⟩ := sign_step hn h hd hx fun _ => ⟨[.encrypt], by
      steps2
      refine Emits.bindL (Emits.mapErr _ (Emits.aeadEncrypt _ _ _ _ _ _)) fun _ => ?_
      quiet2, by decide⟩
    rw [c14, C10, C6] at u1
    rw [hm.sig, C6] at u3
    exact ⟨u2, u3, (usesSign3 rfl u1).1⟩

/-- `edhoc_message_3_process` had come to its MAC. -/
structure Tail3 (s s' : St σ) (id cr : Cred) (pk : Option Bytes) (ts : List EadTok) (mac : Bytes) : Prop where
  state : okWaitM3 s.ctx = true
  method : s.ctx.chosenMethod ≤ 3
  verified : Saw [.credVerify id (some (cr, pk))] s s'
  prk : ∃ prk, Expanded prk 6 (Spec.context3 cr s.ctx.th ts)
    (macLenOf (Spec.initiatorSigns s.ctx.chosenMethod) s.ctx.suite) mac s s'

theorem message3Process_head {msg : Bytes} {r : Res Unit} (h : message3Process E cfg msg s = (r, s')) (hd : r.Defined)
    {v : Ev} (hv : v ∈ during s s') (ha : Auth 6 v) : ∃ id cr pk ts mac, Tail3 s s' id cr pk ts mac := by
  unfold message3Process at h
  obtain ⟨s1, h1, h, hn, hx⟩ := Not.enter h hd hv
  obtain ⟨e1, c1, l1⟩ := enter_st h1
  have g1 : Grow s s1 := grow_of_log l1
  obtain ⟨ctxt, _, h2', h, hn⟩ := ha.step (Emits.ofOption _ _) hn h hd hx
  obtain ⟨h2, rfl⟩ := ofOption_ok.1 h2'
  obtain ⟨kia, s3, h3, h, hn⟩ := ha.step (Emits.keyIvAad3 E cfg) hn h hd hx
  obtain ⟨c3, g3, w3⟩ := keyIvAad3_ok h3
  obtain ⟨_, _, hc, h, hn⟩ := ha.step Emits.getCtx hn h hd hx
  obtain ⟨rfl, rfl⟩ := getCtx_ok.1 hc
  obtain ⟨_, s4, h4, h, hn⟩ := ha.step (Emits.memAlloc E cfg _) hn h hd hx
  obtain ⟨c4, g4⟩ := memAlloc_ok h4
  obtain ⟨ptxt, s5, h5', h, hn⟩ := ha.step (Emits.mapErr _ (Emits.bind0 (Emits.require _ _)
    fun _ => Emits.aeadDecrypt E _ _ _ _ _)) hn h hd hx
  obtain ⟨_, _, h6', h5⟩ := bind_ok.1 (mapErr_ok.1 h5')
  obtain ⟨h6, rfl⟩ := require_ok.1 h6'
  obtain ⟨c5, lpt, kpt, w5⟩ := aeadDecrypt_ok h5
  obtain ⟨p', s8, h8, h, hn⟩ := ha.step (Emits.mapErr _ (Emits.parsePtxt3 cfg _)) hn h hd hx
  obtain ⟨p, hdec, hid, hsig, c8, l8⟩ := parsePtxt3_st (mapErr_ok.1 h8)
  have g8 : Grow s5 s8 := grow_of_log l8
  obtain ⟨_, s9, h9, h, hn⟩ := ha.step (Emits.eadProcess E cfg) hn h hd hx
  obtain ⟨c9, w9⟩ := eadProcess_ok h9
  have g9 := eadProcess_grow h9
  obtain ⟨vr, s10, h10, h, hn⟩ := ha.step (Emits.verifyCred E _) hn h hd hx
  obtain ⟨c10, l10⟩ := verifyCred_ok h10
  obtain ⟨_, s11, h11, h, hn⟩ := ha.step (Emits.mapErr _ (Emits.compPrk4e3m E cfg _ _)) hn h hd hx
  obtain ⟨g11, prk4, w11, c11⟩ := prk4e3m_next (mapErr_ok.1 h11)
  obtain ⟨m, s12, h12, h, hn⟩ := ha.step (Emits.buildMacCtx E cfg _ _) hn h hd hx
  obtain ⟨c12, g12, n, _, hmac⟩ := buildMacCtx_ok h12
  have hm := macContext_ok hmac
  obtain ⟨_, _, hc, h, hn⟩ := ha.step Emits.getCtx hn h hd hx
  obtain ⟨rfl, rfl⟩ := getCtx_ok.1 hc
  obtain ⟨macLen, _, h13', h, hn⟩ := ha.step (Emits.ofRes _) hn h hd hx
  obtain ⟨h13, rfl⟩ := ofRes_ok.1 h13'
  obtain ⟨_, s13, h14, h, hn⟩ := ha.step (Emits.memAlloc E cfg _) hn h hd hx
  obtain ⟨c13, g13⟩ := memAlloc_ok h14
  obtain ⟨mac, s14, h15, h, hm14, _⟩ := mac_step ha rfl (Emits.mapErr _ (Emits.compMac E cfg _ _))
    (fun a b => compMac_event' a b) hn h hd hx
  obtain ⟨_, _, c14, lmac, km, w14⟩ := compMac_ok (mapErr_ok.1 h15)
  have ht := Emits.tail (ks := [.verify]) (by
    refine Emits.bindL (Emits.mapErr _ (Emits.verifySignOrMac _ _ _ _ _ _)) fun _ => ?_
    quiet2) h hd hm14
  have C8 : s8.ctx = { s.ctx with
      ead := if p.ead.isEmpty then s.ctx.ead else p.ead
      status := .aborted, errorCode := .unspecified, message := .msg3, role := .responder } := by
    rw [c8, c5, c4, c3, c1]
  have C10 : s10.ctx = s8.ctx := c10.trans c9
  have C11 : s11.ctx = { s.ctx with
      dhPriv := if Spec.initiatorSigns s.ctx.chosenMethod then s.ctx.dhPriv else []
      prk := prk4, prkState := .prk4e3m
      ead := if p.ead.isEmpty then s.ctx.ead else p.ead
      status := .aborted, errorCode := .unspecified, message := .msg3, role := .responder } := by
    rw [c11, C10, C8]
    cases Spec.initiatorSigns s.ctx.chosenMethod <;> simp
  have C12 : s12.ctx = s11.ctx := c12
  have C13 : s13.ctx = s11.ctx := c13.trans C12
  have G9 := ((((g1.trans g3).trans g4).trans w5.grow).trans g8).trans g9
  have G13 := (((G9.trans (saw_ext l10).grow).trans g11).trans g12).trans g13
  have H14 := ht.1
  have H13 := w14.grow.trans H14
  have H10 := g11.trans (g12.trans (g13.trans H13))
  rw [C12, C11] at h13
  obtain ⟨hml, hmeth⟩ := macLength3 rfl (Res.mapErr_ok.1 h13)
  refine ⟨p'.1, vr.1, vr.2, if p.ead.isEmpty then s.ctx.ead else p.ead, mac, ?_⟩
  constructor
  case state => exact e1
  case method => exact hmeth
  case verified => exact (saw_ext l10).mid G9 H10
  case prk =>
    rw [C13, C11] at w14
    rw [hm.buf3 (by rw [C11]), C11] at w14
    refine ⟨prk4, Expanded.mid G13 ⟨?_, km, ?_⟩ H14⟩
    · rw [lmac, hml]; rfl
    · rw [hml] at w14; exact w14

end Verif
