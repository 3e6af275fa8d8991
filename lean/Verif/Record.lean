import Verif.After
import Verif.Bridge
import Verif.SpecKeys
import Verif.CborGrammar
import Verif.Props.Auth

/-!
# The transcript and the keys of a session
-/

namespace Verif

open M Spec

variable {σ : Type} {E : Env σ} {cfg : Config} {L L' : List Ev}

/-! ## More calls -/

theorem Spec.Made.mono {x : List Ev} (i : L <:+: L') (h : Made x L) : Made x L' := List.IsInfix.trans h i

theorem Spec.HashCall.mono {x y : Bytes} (i : L <:+: L') (h : HashCall L x y) : HashCall L' x y := i.subset h

theorem Spec.ExpandCall.mono {p c o : Bytes} {l n : Nat} (i : L <:+: L') (h : ExpandCall L p l c n o) :
    ExpandCall L' p l c n o := by
  obtain ⟨h1, k, h2⟩ := h; exact ⟨h1, k, Made.mono i h2⟩

theorem Spec.ExtractCall.mono {p c o : Bytes} (i : L <:+: L') (h : ExtractCall L p c o) : ExtractCall L' p c o := by
  obtain ⟨k, h⟩ := h; exact ⟨k, Made.mono i h⟩

theorem Spec.KeyPairCall.mono {p c : Bytes} (i : L <:+: L') (h : KeyPairCall L p c) : KeyPairCall L' p c := by
  obtain ⟨k, h⟩ := h; exact ⟨k, Made.mono i h⟩

theorem Spec.AgreeCall.mono {p c o : Bytes} (i : L <:+: L') (h : AgreeCall L p c o) : AgreeCall L' p c o := by
  obtain ⟨k, h⟩ := h; exact ⟨k, Made.mono i h⟩

theorem Spec.AgreeStaticCall.mono {p c o : Bytes} (i : L <:+: L') (h : AgreeStaticCall L p c o) :
    AgreeStaticCall L' p c o := i.subset h

theorem Spec.EncryptCall.mono {a b c d e : Bytes} (i : L <:+: L') (h : EncryptCall L a b c d e) :
    EncryptCall L' a b c d e := by
  obtain ⟨k, h⟩ := h; exact ⟨k, Made.mono i h⟩

theorem Spec.DecryptCall.mono {a b c d e : Bytes} (i : L <:+: L') (h : DecryptCall L a b c d e) :
    DecryptCall L' a b c d e := by
  obtain ⟨k, h⟩ := h; exact ⟨k, Made.mono i h⟩

theorem Spec.CredAccepted.mono {a b : Cred} {c : Bytes} (i : L <:+: L') (h : CredAccepted L a b c) :
    CredAccepted L' a b c := i.subset h

theorem Spec.CredSupplied.mono {a : Cred} {c : Bytes} (i : L <:+: L') (h : CredSupplied L a c) :
    CredSupplied L' a c := i.subset h

theorem Spec.NextKey.mono {l n : Nat} {x : Bool} {p t q : Bytes} {A B : Bytes → Prop} (i : L <:+: L') (hA : ∀ g, A g → B g)
    (h : NextKey L l x p t n A q) : NextKey L' l x p t n B q := by
  unfold NextKey at *
  cases x
  · obtain ⟨s, g, h1, h2, h3⟩ := h
    exact ⟨s, g, h1.mono i, hA _ h2, h3.mono i⟩
  · exact h

theorem Spec.EpochKey.mono {p t q : Bytes} {n : Nat} {es : List Bytes} (i : L <:+: L') (h : EpochKey L p t n es q) :
    EpochKey L' p t n es q := by
  induction h with
  | first h => exact .first (h.mono i)
  | update _ h ih => exact .update ih (h.mono i)

/-! ## Calls of a session -/

theorem infix_of {s a b s' : St σ} (g1 : Grow s a) (g2 : Grow a b) (g3 : Grow b s') :
    during a b <:+: during s s' := by
  obtain ⟨l1, l2, h1⟩ := g1
  obtain ⟨l3, l4, h2⟩ := g2
  obtain ⟨l5, l6, h3⟩ := g3
  unfold during
  have e1 : b.log = a.log ++ (l3 ++ l4) := by rw [h2]; simp
  have e2 : s'.log = s.log ++ (l1 ++ l2 ++ (l3 ++ l4) ++ (l5 ++ l6)) := by rw [h3, h2, h1]; simp
  rw [e1, e2, List.drop_left, List.drop_left]
  exact ⟨l1 ++ l2, l5 ++ l6, rfl⟩

theorem sessionCalls_eq {s s' : St σ} {log : List Ev} (h : s.log = log) : sessionCalls log s' = during s s' := by
  subst h; rfl

theorem overlay_full {n : Nat} {a b : Bytes} (h : a.length = n) (hb : b.length = n) : overlay n a b = a := by
  unfold overlay
  rw [List.drop_eq_nil_of_le (by omega), List.append_nil]
  unfold fitLen
  subst h
  simp

theorem suites_range {c : Ctx} (h : SuiteNumbers c) (hl : c.csuiteLen ≠ 0) :
    ∀ v ∈ suiteValues (suitesI (chosen c 0)), Int32Range v := by
  intro v hv
  unfold suitesI chosen at hv
  unfold SuiteNumbers suites at h
  unfold Int32Range
  simp only at hv
  split at hv
  · rename_i h1
    simp only [suiteValues, List.mem_singleton] at hv
    subst hv
    simp only [Ctx.suite, h1, Nat.sub_self]
    cases ha : c.csuiteArr with
    | nil => simp [Suite.zero]
    | cons a l =>
      have := h a (by rw [ha, h1]; simp)
      simp only [List.getD_cons_zero]
      omega
  · simp only [suiteValues, List.mem_map] at hv
    obtain ⟨a, ha, rfl⟩ := hv
    have := h a ha
    omega

/-- the messages of a history -/
theorem Spec.ShortMessages.out {h : History} (hs : ShortMessages h) {o : Op} {m : Bytes} (hm : (o, Res.ok (Out.bytes m)) ∈ h) :
    m.length < 2 ^ 32 := (hs _ hm).2 m rfl

theorem NextPrk.length {l n : Nat} {x : Bool} {p t q : Bytes} {A : Bytes → St σ → St σ → Prop} {s s' : St σ}
    (h : NextPrk l x p t n A q s s') (hp : p.length = n) : q.length = n := by
  obtain ⟨_, rfl⟩ | ⟨_, h, _⟩ := h
  · exact hp
  · exact h

/-- also when decoding fails later on, the first three items were there if G_X was -/
theorem getMsg1_start {d : DecCfg} {b : Bytes} (h : (getMsg1 d b).2.gx ≠ []) :
    StartsMessage1 (getMsg1 d b).2.method (getMsg1 d b).2.suites (getMsg1 d b).2.gx b := by
  unfold getMsg1 at h ⊢
  split at h
  · simp at h
  · rename_i me r1 h1
    obtain ⟨b1, i1, rfl⟩ := getInt_sound h1
    split at h
    · simp at h
    · rename_i su r2 l h2
      have hsu := getSuites_sound (d := d) (su := su) (r := r2) (by rw [h2])
      split at h
      · simp at h
      · rename_i gx r3 h3
        obtain ⟨b2, i2, rfl⟩ : ∃ b, SuitesItem su b ∧ r1 = b ++ r2 := by
          rcases hsu with hsu | ⟨-, -, -, -, -, -, -, -, ⟨_, _⟩, hn⟩
          · exact hsu
          · rw [getBstr_none_of_int hn] at h3; cases h3
        obtain ⟨b3, i3, rfl⟩ := getBstr_sound h3
        split at h
        · rename_i h4
          simp only [h1, h2, h3, h4]
          exact ⟨b1, b2, b3, r3, i1, i2, i3, by simp⟩
        · rename_i h4
          simp only [h1, h2, h3, h4]
          exact ⟨b1, b2, b3, r3, i1, i2, i3, by simp⟩

/-! ## Identifiers, credentials and EAD -/

/-- EAD tokens that were sent in message `m`: what the application composed, nothing without EAD callbacks -/
def SentEad (cfg : Config) (c : Ctx) (L : List Ev) (m : Msg) (ts : List EadTok) : Prop :=
  (composesEad cfg c = true ∧ ts.length ≤ cfg.maxEad ∧ Ev.eadCompose m (some ts) ∈ L) ∨
    (composesEad cfg c = false ∧ ts = [])

/-- EAD tokens that were received in message `m`: with EAD callbacks, they were shown to the application -/
def GotEad (cfg : Config) (c : Ctx) (L : List Ev) (m : Msg) (ts : List EadTok) : Prop :=
  processesEad cfg c = true → ts ≠ [] → Ev.eadProcess m ts true ∈ L

/-- What an Initiator put into messages 1 and 3 and found in message 2. -/
structure InitiatorMore (cfg : Config) (L : List Ev) (c : Ctx) (m1 pkR : Bytes) (v : Values) : Prop where
  own : OwnCid cfg c
  msg1 : ∃ su ts, SentEad cfg c L .msg1 ts ∧ (∀ v ∈ suiteValues su, Int32Range v) ∧
    encMsg1 ⟨(c.chosenMethod : Nat), su, v.gx, c.cid, eadAlwaysValue ts⟩ = some m1 ∧ c.chosenMethod ≤ 3 ∧
    v.gx.length = c.suite.eccKey
  msg2 : ∃ p id, getPtxt2 cfg.dec v.ptxt2 = some (c.peerCid, p) ∧ GotEad cfg c L .msg2 p.ead ∧
    credOfIdCred cfg credOfMap2 p.idCred = .ok id ∧ CredAccepted L id v.credR pkR
  msg3 : ∃ sig ts, SentEad cfg c L .msg3 ts ∧ PtxtTail cfg v.credI sig ts v.ptxt3
  gxy : c.dhSecret = v.gxy

/-- What a Responder put into message 2 and found in messages 1 and 3. -/
structure ResponderMore (cfg : Config) (L : List Ev) (c : Ctx) (m1 pkI : Bytes) (v : Values) : Prop where
  own : OwnCid cfg c
  msg1 : (getMsg1 cfg.dec m1).2.ci = c.peerCid ∧
    (c.hasEadProcess = true → (getMsg1 cfg.dec m1).2.ead ≠ [] → Ev.eadProcess .msg1 (getMsg1 cfg.dec m1).2.ead true ∈ L)
  msg2 : ∃ sig ts t, SentEad cfg c L .msg2 ts ∧ PtxtTail cfg v.credR sig ts t ∧ v.ptxt2 = cidItem c.cid ++ t
  msg3 : ∃ p id, getPtxt3 cfg.dec v.ptxt3 = some p ∧ GotEad cfg c L .msg3 p.ead ∧
    credOfIdCred cfg credOfMap3 p.idCred = .ok id ∧ CredAccepted L id v.credI pkI
  size3 : SizeOk v.ptxt3
  gxy : c.dhSecret = v.gxy

theorem SentEad.keep {c c' : Ctx} {m : Msg} {ts : List EadTok} (k : c'.keep = c.keep) (h : SentEad cfg c L m ts) :
    SentEad cfg c' L m ts := by
  have e : c'.hasEadCompose = c.hasEadCompose := (congrArg Ctx.hasEadCompose k :)
  unfold SentEad composesEad at *
  rwa [e]

theorem GotEad.keep {c c' : Ctx} {m : Msg} {ts : List EadTok} (k : c'.keep = c.keep) (h : GotEad cfg c L m ts) :
    GotEad cfg c' L m ts := by
  have e : c'.hasEadProcess = c.hasEadProcess := (congrArg Ctx.hasEadProcess k :)
  unfold GotEad processesEad at *
  rwa [e]

theorem InitiatorMore.keep {c c' : Ctx} {m1 pk : Bytes} {v : Values} (k : c'.keep = c.keep)
    (h : InitiatorMore cfg L c m1 pk v) : InitiatorMore cfg L c' m1 pk v := by
  obtain ⟨_, _, e1, e2, e3, _, e4⟩ := keep_proj k
  have e5 : c'.dhSecret = c.dhSecret := (congrArg Ctx.dhSecret k :)
  obtain ⟨h0, ⟨su, ts, h1, h2⟩, ⟨p, id, h3, h4, h5⟩, ⟨sig, ts', h6, h7⟩, h8⟩ := h
  rw [← e1, ← e2, ← e4] at h2
  rw [← e3] at h3
  exact ⟨by unfold OwnCid at *; rwa [e2], ⟨su, ts, h1.keep k, h2⟩, ⟨p, id, h3, h4.keep k, h5⟩,
    ⟨sig, ts', h6.keep k, h7⟩, e5.trans h8⟩

theorem ResponderMore.keep {c c' : Ctx} {m1 pk : Bytes} {v : Values} (k : c'.keep = c.keep)
    (h : ResponderMore cfg L c m1 pk v) : ResponderMore cfg L c' m1 pk v := by
  obtain ⟨_, _, e1, e2, e3, _, e4⟩ := keep_proj k
  have e : c'.hasEadProcess = c.hasEadProcess := (congrArg Ctx.hasEadProcess k :)
  have e5 : c'.dhSecret = c.dhSecret := (congrArg Ctx.dhSecret k :)
  obtain ⟨h0, h1, ⟨sig, ts, t, h2, h3, h4⟩, ⟨p, id, h5, h6, h7⟩, h8, h9⟩ := h
  rw [← e3, ← e] at h1
  rw [← e2] at h4
  exact ⟨by unfold OwnCid at *; rwa [e2], h1, ⟨sig, ts, t, h2.keep k, h3, h4⟩, ⟨p, id, h5, h6.keep k, h7⟩,
    h8, e5.trans h9⟩

theorem ComposedEad.sent {c c' : Ctx} {m : Msg} {ts : List EadTok} {s s' : St σ} (h : ComposedEad cfg c m ts s s')
    (i : during s s' <:+: L) (he : c.ead = []) (h1 : c'.hasEadCompose = c.hasEadCompose) : SentEad cfg c' L m ts := by
  have e : composesEad cfg c' = composesEad cfg c := by unfold composesEad; rw [h1]
  unfold SentEad
  rw [e]
  rcases h with ⟨a, b, w⟩ | ⟨a, b⟩
  · exact Or.inl ⟨a, b, i.subset w.mem⟩
  · exact Or.inr ⟨a, b.trans he⟩

theorem ProcessedEad.got {c c' : Ctx} {m : Msg} {ts ts' : List EadTok} {s s' : St σ} (h : ProcessedEad cfg c m ts s s')
    (i : during s s' <:+: L) (he : c.ead = []) (ht : ts = if ts'.isEmpty then c.ead else ts')
    (h1 : c'.hasEadProcess = c.hasEadProcess) : GotEad cfg c' L m ts' := by
  intro a b
  have e : processesEad cfg c' = processesEad cfg c := by unfold processesEad; rw [h1]
  have : ts = ts' := by
    rw [ht, he]
    cases ts' <;> simp
  rw [e] at a
  subst this
  exact i.subset (h a b).mem

/-- What an Initiator did in a completed handshake. -/
theorem initiator_view {e : σ} {log : List Ev} {h : History} {s' : St σ} {n1 n3 : Nat} {m1 m2 m3 : Bytes}
    {s1 s2 s3 s4 : St σ} {h4 : History} {ks : List Call}
    (c : InitiatorChain E cfg e log h s' n1 n3 m1 m2 m3 s1 s2 s3 s4 h4 ks) {L : List Ev} (hL : during s1 s4 <:+: L)
    (hr : Regular L s4.ctx.suite) (hn : SuiteNumbers s4.ctx) (hm : ShortMessages h) :
    ∃ x kid pkR v, InitiatorView L s4.ctx.suite s4.ctx.chosenMethod m1 m2 m3 x kid pkR v ∧
      s4.ctx.th = v.th4 ∧ s4.ctx.thState = .th4 ∧ s4.ctx.prk = v.prk4e3m ∧ s4.ctx.prkState = .prk4e3m ∧
      s4.ctx.prk.length = s4.ctx.suite.hash ∧ s4.ctx.status = .completed ∧ InitiatorMore cfg L s4.ctx m1 pkR v := by
  obtain ⟨_, _, k0, k3, priv, pub, kid1, ts, th1, l1, l2, ew, g1, w1, en, _, l3, w2, x1⟩ := message1Compose_ok c.call1
  obtain ⟨gy, c2, cr, p, id, pk, v2, p2⟩ := message2Process_ok c.call2
  obtain ⟨kid, v3, p3⟩ := message3Compose_ok c.call3
  have su2 : s2.ctx.suite = (chosen s1.ctx 0).suite := by rw [x1]; rfl
  have su3 : s3.ctx.suite = s2.ctx.suite := by rw [p2.ctx]; rfl
  have su4 : s4.ctx.suite = s3.ctx.suite := by rw [p3.ctx]; rfl
  have cm3 : s3.ctx.chosenMethod = s2.ctx.chosenMethod := by rw [p2.ctx]
  have cm4 : s4.ctx.chosenMethod = s3.ctx.chosenMethod := by rw [p3.ctx]
  have cm2 : s2.ctx.chosenMethod = s1.ctx.method.headD 0 := by rw [x1]; rfl
  have i1 : during s1 s2 <:+: L := (infix_of (Saw.refl s1) g1 (p2.grow.left p3.grow)).trans hL
  have i2 : during s2 s3 <:+: L := (infix_of g1 p2.grow p3.grow).trans hL
  have i3 : during s3 s4 <:+: L := (infix_of (g1.left p2.grow) p3.grow (Saw.refl s4)).trans hL
  have d2 : s2.ctx.dhPriv = priv := by rw [x1]
  have t2 : s2.ctx.th = th1 := by rw [x1]
  have hn1 : SuiteNumbers s1.ctx := by
    have : suites s4.ctx = suites s1.ctx := by rw [p3.ctx, suites, suites, p2.ctx, x1]; rfl
    unfold SuiteNumbers at hn ⊢
    rwa [this] at hn
  have hs3 : v2.h3.length = s2.ctx.suite.hash := by
    rw [← su3, ← su4]; exact hr.hash _ _ (p2.th3.call.mono i2)
  have t3 : s3.ctx.th = v2.h3 := by rw [p2.ctx]; exact overlay_full hs3 p2.th2Len
  have q3 : s3.ctx.prk = v2.prk3e2m := by rw [p2.ctx]
  have y3 : s3.ctx.dhPeerPub = gy := by rw [p2.ctx]
  have hm2 := getMsgBstr_length p2.parsed
  have hm2' : m2.length < 2 ^ 32 := (hm _ c.in2).1 m2 rfl
  rw [List.length_append] at hm2
  have small := hr.small
  have hh := small.2.2.1
  refine ⟨priv, kid, pk, ⟨pub, gy, v2.gxy, th1, v2.th2, v2.h3, v3.th4, v2.prk2e, v2.prk3e2m, v3.prk4e3m, v2.ptxt,
    v3.ptxt, v2.cred, v3.cred⟩, ?_, ?_, ?_, ?_, ?_, ?_, ?_, ?_⟩
  · constructor
    · exact KeyPairCall.mono i1 ⟨kid1, w1.made⟩
    · obtain ⟨su, ci, ea, es, ec, ee, rfl⟩ := encMsg1_ok en
      refine ⟨_, encInt _, su, encBstr pub, ci ++ ea, encInt_item ?_, encSuites_item es (fun v hv => (suites_range hn1 k0 v hv).to65),
        encBstr_item ?_, by simp only [List.append_assoc, cm4, cm3, cm2]⟩
      · have := p2.method
        unfold Int65Range; omega
      · unfold SizeOk
        rw [l2, ← su2, ← su3, ← su4]
        have := hr.ecc.2; omega
    · refine ⟨c2, v2.ks, getMsgBstr_sound p2.parsed, ?_, (p2.ks.call (by omega)).mono i2, p2.ptxt⟩
      rw [p2.gyLen, su4, su3]
    · have w := p3.keys
      rw [q3, t3] at w
      have w' := p3.encrypted
      rw [t3] at w'
      refine ⟨v3.k3, v3.iv3, v3.ctxt, ?_, ?_, w'.call.mono i3, p3.out⟩
      · rw [su4]; rw [su4] at small
        exact (w.1.call small.1).mono i3
      · rw [su4]; rw [su4] at small
        exact (w.2.call small.2.1).mono i3
    · have := p2.agreed.call.mono i2
      rwa [d2] at this
    · exact ⟨id, CredAccepted.mono i2 p2.verified.mem⟩
    · exact CredSupplied.mono i3 p3.fetch.mem
    · constructor
      · exact HashCall.mono i1 w2.mem
      · have := p2.th2.call.mono i2
        rwa [t2] at this
      · exact p2.th3.call.mono i2
      · have := p3.th4.call.mono i3
        rwa [t3] at this
    · constructor
      · exact p2.prk2e.call.mono i2
      · have w := p2.prk3e2m
        rw [d2, ← su3, ← su4, ← cm3, ← cm4] at w
        exact (w.call (B := AgreeCall L priv pk) hh fun g hg => hg.call.mono i2).mono i2 fun _ h => h
      · have w := p3.prk4e3m
        rw [q3, t3, y3, ← su4, ← cm4] at w
        exact (w.call (B := AgreeStaticCall L kid gy) hh fun g hg => hg.call.mono i3).mono i3 fun _ h => h
  · rw [p3.ctx]
  · rw [p3.ctx]
  · rw [p3.ctx]
  · rw [p3.ctx]
  · have h3 := p2.prk3e2m.length p2.prk2eLen
    rw [← q3, ← su3] at h3
    have h4 := p3.prk4e3m.length h3
    rw [su4, p3.ctx]; exact h4
  · rw [p3.ctx]
  · have ea1 : s1.ctx.ead = [] := by rw [c.conf]; rfl
    have ea2 : s2.ctx.ead = [] := by rw [x1]
    have ea3 : s3.ctx.ead = [] := by rw [p2.ctx]
    have q1 : s4.ctx.hasEadProcess = s2.ctx.hasEadProcess := by rw [p3.ctx, p2.ctx]
    have q2 : s4.ctx.hasEadCompose = s3.ctx.hasEadCompose := by rw [p3.ctx]
    have q3 : s4.ctx.hasEadCompose = s1.ctx.hasEadCompose := by rw [p3.ctx, p2.ctx, x1]; rfl
    have q4 : s4.ctx.cid = s1.ctx.cid := by rw [p3.ctx, p2.ctx, x1]; rfl
    have q5 : s4.ctx.peerCid = cr := by rw [p3.ctx, p2.ctx]
    have q6 : s1.ctx.method.headD 0 = s4.ctx.chosenMethod := by rw [cm4, cm3, cm2]
    constructor
    · have := c.cid
      unfold OwnCid at *; rwa [q4]
    · rw [q6] at en
      rw [q4]
      refine ⟨suitesI (chosen s1.ctx 0), ts, ComposedEad.sent (c := s1.ctx) (s := s1) (s' := s2) ew i1 ea1 q3,
        suites_range hn1 k0, en, ?_, ?_⟩
      · rw [cm4, cm3]; exact p2.method
      · rw [su4, su3, su2]; exact l2
    · rw [q5]
      exact ⟨p, id, p2.decoded, ProcessedEad.got p2.ead i2 ea2 p2.eadEq q1, p2.idCred, CredAccepted.mono i2 p2.verified.mem⟩
    · exact ⟨v3.sig, v3.ead, ComposedEad.sent p3.ead i3 ea3 q2, p3.ptxt⟩
    · rw [p3.ctx, p2.ctx]

/-- What a Responder did in a completed handshake. -/
theorem responder_view {e : σ} {log : List Ev} {h : History} {s' : St σ} {n2 : Nat} {m1 m2 m3 : Bytes}
    {s1 s2 s3 s4 : St σ} {h4 : History} {ks : List Call}
    (c : ResponderChain E cfg e log h s' n2 m1 m2 m3 s1 s2 s3 s4 h4 ks) {L : List Ev} (hL : during s1 s4 <:+: L)
    (hr : Regular L s4.ctx.suite) (hm : ShortMessages h) :
    ∃ y kid pkI v, ResponderView L s4.ctx.suite s4.ctx.chosenMethod m1 m2 m3 y kid pkI v ∧
      s4.ctx.th = v.th4 ∧ s4.ctx.thState = .th4 ∧ s4.ctx.prk = v.prk4e3m ∧ s4.ctx.prkState = .prk4e3m ∧
      s4.ctx.prk.length = s4.ctx.suite.hash ∧ s4.ctx.status = .completed ∧ ResponderMore cfg L s4.ctx m1 pkI v := by
  obtain ⟨_, _, k0, m, me, pp, th1, hm1, hme, hme', _, l1, _, w1, l3, x1⟩ := message1Process_ok c.call1
  obtain ⟨priv, pub, kid, v2, p2⟩ := message2Compose_ok c.call2
  obtain ⟨p, id, pk, v3, p3⟩ := message3Process_ok c.call3
  have g1 : Grow s1 s2 := by
    rcases w1 with ⟨_, _, _, h⟩ | ⟨_, h⟩
    · exact ⟨_, [], by rw [h]; simp; rfl⟩
    · exact ⟨_, [], by rw [h]; simp; rfl⟩
  have w1' : Saw [.hash m1 (some th1)] s1 s2 := by
    rcases w1 with ⟨_, _, _, h⟩ | ⟨_, h⟩
    · exact ⟨[.eadProcess .msg1 m.ead true], [], by rw [h]; simp⟩
    · exact ⟨[], [], by rw [h]; simp⟩
  have su2 : s2.ctx.suite = (chosen s1.ctx 0).suite := by rw [x1]; rfl
  have su3 : s3.ctx.suite = s2.ctx.suite := by rw [p2.ctx]; rfl
  have su4 : s4.ctx.suite = s3.ctx.suite := by rw [p3.ctx]; rfl
  have cm3 : s3.ctx.chosenMethod = s2.ctx.chosenMethod := by rw [p2.ctx]
  have cm4 : s4.ctx.chosenMethod = s3.ctx.chosenMethod := by rw [p3.ctx]
  have cm2 : s2.ctx.chosenMethod = me := by rw [x1]; rfl
  have i1 : during s1 s2 <:+: L := (infix_of (Saw.refl s1) g1 (p2.grow.left p3.grow)).trans hL
  have i2 : during s2 s3 <:+: L := (infix_of g1 p2.grow p3.grow).trans hL
  have i3 : during s3 s4 <:+: L := (infix_of (g1.left p2.grow) p3.grow (Saw.refl s4)).trans hL
  have d2 : s2.ctx.dhPeerPub = m.gx := by rw [x1]
  have t2 : s2.ctx.th = th1 := by rw [x1]
  have hs3 : v2.h3.length = s2.ctx.suite.hash := by
    rw [← su3, ← su4]; exact hr.hash _ _ (p2.th3.call.mono i2)
  have t3 : s3.ctx.th = v2.h3 := by rw [p2.ctx]; exact overlay_full hs3 p2.th2Len
  have q3 : s3.ctx.prk = v2.prk3e2m := by rw [p2.ctx]
  have y3 : s3.ctx.dhPriv = priv := by rw [p2.ctx]
  have hm2 := hm.out c.in2
  have hpt : v2.ptxt.length < 2 ^ 32 := by
    rw [p2.out, encBstr_length, List.length_append] at hm2
    have : (xorBytes v2.ptxt v2.ks).length = v2.ptxt.length := by
      have := p2.ks.1
      unfold xorBytes
      rw [List.length_zipWith]; omega
    omega
  have small := hr.small
  have hh := small.2.2.1
  have hgx : m.gx ≠ [] := by
    intro h0
    rw [h0, ← su2, ← su3, ← su4] at l1
    have := hr.ecc.1
    simp at l1; omega
  refine ⟨priv, kid, pk, ⟨m.gx, pub, v2.gxy, th1, v2.th2, v2.h3, v3.th4, v2.prk2e, v2.prk3e2m, v3.prk4e3m, v2.ptxt,
    v3.ptxt, v2.cred, v3.cred⟩, ?_, ?_, ?_, ?_, ?_, ?_, ?_, ?_⟩
  · constructor
    · obtain ⟨k, hk⟩ := p2.keyPair
      exact KeyPairCall.mono i2 ⟨k, List.IsInfix.trans ⟨[.importKey .makeKeyPair [] (some k)], [], rfl⟩ hk.made⟩
    · have := getMsg1_start (d := cfg.dec) (b := m1) (by rw [hm1]; exact hgx)
      rw [hm1, ← hme', ← cm2, ← cm3, ← cm4] at this
      exact ⟨_, this⟩
    · refine ⟨v2.ks, (p2.ks.call hpt).mono i2, p2.out, ?_⟩
      rw [p2.pubLen, su4, su3]
    · have w := p3.keys
      rw [q3, t3] at w
      have w' := p3.decrypted
      rw [t3] at w'
      refine ⟨v3.k3, v3.iv3, v3.ctxt, ?_, ?_, getMsgBstr_sound p3.parsed, w'.call.mono i3⟩
      · rw [su4]; rw [su4] at small
        exact (w.1.call small.1).mono i3
      · rw [su4]; rw [su4] at small
        exact (w.2.call small.2.1).mono i3
    · have := p2.agreed.call.mono i2
      rwa [d2] at this
    · exact ⟨id, CredAccepted.mono i3 p3.verified.mem⟩
    · exact CredSupplied.mono i2 p2.fetch.mem
    · constructor
      · exact HashCall.mono i1 w1'.mem
      · have := p2.th2.call.mono i2
        rwa [t2] at this
      · exact p2.th3.call.mono i2
      · have := p3.th4.call.mono i3
        rwa [t3] at this
    · constructor
      · exact p2.prk2e.call.mono i2
      · have w := p2.prk3e2m
        rw [d2, ← su3, ← su4, ← cm3, ← cm4] at w
        exact (w.call (B := AgreeStaticCall L kid m.gx) hh fun g hg => hg.call.mono i2).mono i2 fun _ h => h
      · have w := p3.prk4e3m
        rw [q3, t3, y3, ← su4, ← cm4] at w
        exact (w.call (B := AgreeCall L priv pk) hh fun g hg => hg.call.mono i3).mono i3 fun _ h => h
  · rw [p3.ctx]
  · rw [p3.ctx]
  · rw [p3.ctx]
  · rw [p3.ctx]
  · have h3 := p2.prk3e2m.length p2.prk2eLen
    rw [← q3, ← su3] at h3
    have h4 := p3.prk4e3m.length h3
    rw [su4, p3.ctx]; exact h4
  · rw [p3.ctx]
  · have ea1 : s1.ctx.ead = [] := by rw [c.conf]; rfl
    have ea2 : s2.ctx.ead = [] := by rw [x1]; simp only [ea1]; split <;> rfl
    have ea3 : s3.ctx.ead = [] := by rw [p2.ctx]
    have q1 : s4.ctx.hasEadProcess = s3.ctx.hasEadProcess := by rw [p3.ctx]
    have q2 : s4.ctx.hasEadCompose = s2.ctx.hasEadCompose := by rw [p3.ctx, p2.ctx]
    have q3 : s4.ctx.hasEadProcess = s1.ctx.hasEadProcess := by rw [p3.ctx, p2.ctx, x1]; rfl
    have q4 : s4.ctx.cid = s2.ctx.cid := by rw [p3.ctx, p2.ctx]
    have q5 : s4.ctx.peerCid = m.ci := by rw [p3.ctx, p2.ctx, x1]
    have q6 : s2.ctx.cid = s1.ctx.cid := by rw [x1]; rfl
    constructor
    · have := c.cid
      unfold OwnCid at *; rwa [q4, q6]
    · rw [hm1, q5, q3]
      refine ⟨rfl, fun a b => ?_⟩
      rcases w1 with ⟨_, _, _, h⟩ | ⟨h, _⟩
      · exact i1.subset (by unfold during; rw [h, List.drop_left]; simp)
      · rcases h with h | h
        · rw [h] at a; cases a
        · exact absurd h b
    · obtain ⟨t, h1, h2⟩ := p2.ptxt
      exact ⟨v2.sig, v2.ead, t, ComposedEad.sent p2.ead i2 ea2 q2, h1, by rw [q4]; exact h2⟩
    · exact ⟨p, id, p3.decoded, ProcessedEad.got p3.ead i3 ea3 p3.eadEq q1, p3.idCred, CredAccepted.mono i3 p3.verified.mem⟩
    · have h1 := getMsgBstr_length p3.parsed
      have h2 := (hm _ c.in3).1 _ rfl
      have h3 := p3.ptxtLen
      unfold subSize at h3
      unfold SizeOk
      simp only
      split at h3 <;> omega
    · rw [p3.ctx, p2.ctx]

/-! ## After the handshake -/

theorem holds_grow {s s1 s2 : St σ} {n : Nat} {p t : Bytes} {es : List Bytes} (i : during s s1 <:+: L)
    (hn : s.ctx.suite.hash < 2 ^ 32) (hl : s.ctx.prk.length = s.ctx.suite.hash) (hsu : s.ctx.suite.hash = n)
    (h : HoldsKeys L p t n es s.ctx) (hm : OutMod s s1) :
    HoldsKeys L p t n es s1.ctx ∧ s1.ctx.prk.length = s1.ctx.suite.hash ∧ s1.ctx.suite = s.ctx.suite := by
  obtain ⟨g, k, hm⟩ := hm
  obtain ⟨k1, k2, k3, _⟩ := keep_proj k
  obtain ⟨h1, h2, h3⟩ := h
  rcases hm with ⟨e1, e2⟩ | ⟨e1, e2, e3, e4, kid, w⟩
  · refine ⟨⟨k1.trans h1, k2.trans h2, ?_⟩, by rw [e1, k3, hl], k3⟩
    rw [e1, e2]; exact h3
  · refine ⟨⟨k1.trans h1, k2.trans h2, Or.inr ⟨e3, ?_⟩⟩, by rw [e4, k3, hl], k3⟩
    rcases h3 with ⟨h3, h4, rfl⟩ | ⟨h3, _⟩
    · refine .first ?_
      rw [encInfo_spec _ _ hn, hl, hsu, h1, h4] at w
      exact ExpandCall.mono i ⟨by rw [e4, hl, hsu], kid, w.made⟩
    · rw [e1] at h3; cases h3

/-- the keys held after the handshake -/
theorem holds_step {o : Op} {s s1 : St σ} {r : Res Out} {n : Nat} {p t : Bytes} {es : List Bytes}
    (h : step E cfg o s = (r, s1)) (hd : r.Defined) (hr : restarts o = false) (hx : reconf (o, r) = false)
    (hl : Late s.ctx) (i : during s s1 <:+: L) (hn : s.ctx.suite.hash < 2 ^ 32)
    (hp : s.ctx.prk.length = s.ctx.suite.hash) (hsu : s.ctx.suite.hash = n) (hk : HoldsKeys L p t n es s.ctx) :
    Late s1.ctx ∧ Grow s s1 ∧ HoldsKeys L p t n (es ++ updates [(o, r)]) s1.ctx ∧
      s1.ctx.prk.length = s1.ctx.suite.hash ∧ s1.ctx.suite = s.ctx.suite := by
  obtain ⟨l1, l2, l3⟩ := later_step h hd hr hx hl
  refine ⟨l1, ?_⟩
  by_cases hu : ∃ b a, (o, r) = (.keyUpdate b, .ok a)
  · obtain ⟨b, a, hu⟩ := hu
    cases hu
    obtain ⟨r0, h0, ⟨a', rfl, _⟩ | ⟨_, _, h'⟩ | ⟨_, _, h'⟩⟩ := step_update h
    · obtain ⟨_, _, g, _, x, q, kid, ho, lx, lq, w, hc⟩ := keyUpdate_ok h0
      obtain ⟨k1, k2, k3⟩ := hk
      have hs : s1.ctx.suite = s.ctx.suite := by rw [hc]; rfl
      refine ⟨g, ⟨by rw [hc]; exact k1, by rw [hc]; exact k2, Or.inr ⟨by rw [hc], ?_⟩⟩, ?_, hs⟩
      · have e : EpochKey L p t n es x := by
          rcases ho with ⟨o1, o2, k', w'⟩ | ⟨o1, rfl⟩
          · rcases k3 with ⟨_, k4, rfl⟩ | ⟨k3, _⟩
            · rw [encInfo_spec _ _ hn, hp, hsu, k1, k4] at w'
              exact .first (ExpandCall.mono i ⟨by rw [lx, hp, hsu], k', w'.made⟩)
            · rw [o1] at k3; cases k3
          · rcases k3 with ⟨k3, _⟩ | ⟨_, k3⟩
            · exact absurd k3 o1
            · exact k3
        have : updates [(Op.keyUpdate b, Res.ok a)] = [b] := rfl
        rw [this, hc]
        refine .update e ?_
        rw [encInfo_spec _ _ hn, lx, hp, hsu] at w
        exact ExpandCall.mono i ⟨by rw [lq, lx, hp, hsu], kid, w.made⟩
      · rw [hs, hc]; simp only; rw [lq, lx, hp]
    · cases h'
    · cases h'
  · have hu' : updates [(o, r)] = [] := by
      cases o <;> cases r <;> first | rfl | exact absurd ⟨_, _, rfl⟩ hu
    have hm : OutMod s s1 := by
      rcases l2 with l2 | ⟨b, u, rfl, rfl, _⟩
      · exact l2
      · exact absurd ⟨_, _, rfl⟩ hu
    rw [hu', List.append_nil]
    exact ⟨hm.1, holds_grow (s2 := s1) i hn hp hsu hk hm⟩

theorem updates_cons (p : Op × Res Out) (h : History) : updates (p :: h) = updates [p] ++ updates h := by
  unfold updates
  rw [List.filterMap_cons, List.filterMap_cons]
  split <;> simp

theorem updates_append (h h' : History) : updates (h ++ h') = updates h ++ updates h' := List.filterMap_append

theorem run_grow_late {s s' : St σ} {h : History} (hr : Run E cfg s h s') :
    (∀ p ∈ h, restarts p.1 = false) → (∀ p ∈ h, reconf p = false) → Late s.ctx → Grow s s' := by
  induction hr with
  | nil s => intros; exact Saw.refl s
  | @cons s s1 s2 o r h hs hd hr ih =>
    intro h1 h2 hl
    obtain ⟨l1, l2, _⟩ := later_step hs hd (h1 _ (List.mem_cons_self ..)) (h2 _ (List.mem_cons_self ..)) hl
    have g := ih (fun q hq => h1 q (List.mem_cons_of_mem _ hq)) (fun q hq => h2 q (List.mem_cons_of_mem _ hq)) l1
    rcases l2 with l2 | ⟨b, u, _, _, l2⟩
    · exact l2.1.left g
    · exact (keyUpdate_ok l2).2.2.1.left g

theorem holds_run {s s' : St σ} {h : History} {n : Nat} {p t : Bytes} (hr : Run E cfg s h s') :
    ∀ {es : List Bytes}, (∀ p ∈ h, restarts p.1 = false) → (∀ p ∈ h, reconf p = false) → Late s.ctx →
      during s s' <:+: L → s.ctx.suite.hash < 2 ^ 32 → s.ctx.prk.length = s.ctx.suite.hash →
      s.ctx.suite.hash = n → HoldsKeys L p t n es s.ctx →
      Late s'.ctx ∧ HoldsKeys L p t n (es ++ updates h) s'.ctx ∧ s'.ctx.prk.length = s'.ctx.suite.hash ∧
        s'.ctx.suite = s.ctx.suite := by
  induction hr with
  | nil s => intro es _ _ hl _ _ hp _ hk; exact ⟨hl, by simpa [updates] using hk, hp, rfl⟩
  | @cons s s1 s2 o r h hs hd hr ih =>
    intro es h1 h2 hl i hn hp hsu hk
    have h1' : ∀ q ∈ h, restarts q.1 = false := fun q hq => h1 q (List.mem_cons_of_mem _ hq)
    have h2' : ∀ q ∈ h, reconf q = false := fun q hq => h2 q (List.mem_cons_of_mem _ hq)
    have h1o := h1 _ (List.mem_cons_self ..)
    have h2o := h2 _ (List.mem_cons_self ..)
    obtain ⟨l1, l2, _⟩ := later_step hs hd h1o h2o hl
    have g1 : Grow s s1 := by
      rcases l2 with l2 | ⟨b, u, _, _, l2⟩
      · exact l2.1
      · exact (keyUpdate_ok l2).2.2.1
    have g2 := run_grow_late hr h1' h2' l1
    obtain ⟨_, _, a3, a4, a5⟩ := holds_step hs hd h1o h2o hl
      ((infix_of (Saw.refl s) g1 g2).trans i) hn hp hsu hk
    obtain ⟨b1, b2, b3, b4⟩ := ih h1' h2' l1 ((infix_of g1 g2 (Saw.refl s2)).trans i) (by rw [a5]; exact hn) a4
      (by rw [a5]; exact hsu) a3
    refine ⟨b1, ?_, b3, b4.trans a5⟩
    rw [updates_cons, ← List.append_assoc]; exact b2

theorem late_keep {s s' : St σ} {h : History} (hr : Run E cfg s h s') :
    (∀ p ∈ h, restarts p.1 = false) → (∀ p ∈ h, reconf p = false) → Late s.ctx → s'.ctx.keep = s.ctx.keep := by
  induction hr with
  | nil s => intros; rfl
  | @cons s s1 s2 o r h hs hd hr ih =>
    intro h1 h2 hl
    obtain ⟨l1, l2, _⟩ := later_step hs hd (h1 _ (List.mem_cons_self ..)) (h2 _ (List.mem_cons_self ..)) hl
    have g := ih (fun q hq => h1 q (List.mem_cons_of_mem _ hq)) (fun q hq => h2 q (List.mem_cons_of_mem _ hq)) l1
    rcases l2 with l2 | ⟨b, u, _, _, l2⟩
    · exact g.trans l2.2.1
    · obtain ⟨_, _, _, _, _, _, _, _, _, _, _, hc⟩ := keyUpdate_ok l2
      rw [g, hc]; rfl

theorem snoc_ind {α : Type} {P : List α → Prop} (h0 : P []) (hs : ∀ l a, P l → P (l ++ [a])) (l : List α) : P l := by
  have : ∀ l : List α, P l.reverse := by
    intro l
    induction l with
    | nil => exact h0
    | cons a l ih => rw [List.reverse_cons]; exact hs _ _ ih
  rw [← List.reverse_reverse l]; exact this _

/-- no key update succeeds before completion -/
theorem updates_incomplete {e : σ} {log : List Ev} : ∀ {h : History} {s' : St σ},
    Session E cfg e log h s' → ¬ complete h → updates h = [] := by
  intro h
  induction h using snoc_ind with
  | h0 => intros; rfl
  | hs h p ih =>
    intro s' hs hc
    obtain ⟨s1, r1, r2⟩ := run_append hs.1
    have hs1 : Session E cfg e log h s1 := ⟨r1, fun q hq => hs.2 q (by simp [hq])⟩
    have hc1 : ¬ complete h := by
      intro h1
      apply hc
      unfold complete at *
      rw [messages_append]
      simp only [List.mem_append]
      rcases h1 with h1 | h1
      · exact Or.inl (Or.inl h1)
      · exact Or.inr (Or.inl h1)
    rw [updates_append, ih hs1 hc1, List.nil_append]
    obtain ⟨o, r⟩ := p
    obtain ⟨s2, h2, _, _⟩ := run_cons r2
    cases o <;> cases r <;> try rfl
    rename_i en _ _
    have h3 := C03_export_before_completion hs1 hc1 (o := .keyUpdate en) (Or.inl rfl)
    unfold Refused at h3
    rw [h3] at h2
    simp at h2

/-- the state of the context after a handshake, whatever came after it -/
structure Completed (E : Env σ) (cfg : Config) (h : History) (h4 : History) (s4 s' : St σ) : Prop where
  rest : Run E cfg s4 h4 s'
  keep : s'.ctx.keep = s4.ctx.keep
  grow : Grow s4 s'
  late : Late s4.ctx
  upd : updates h = updates h4
  noRestart : ∀ p ∈ h4, restarts p.1 = false
  noReconf : ∀ p ∈ h4, reconf p = false

theorem completed_of {e : σ} {log : List Ev} {h : History} {s' s4 : St σ} {h4 h0 : History} {p : Op × Res Out}
    {ks l : List Call} {k : Call} (hs : Session E cfg e log h s') (hr : Rest E cfg s4 h4 ks s')
    (hsp : h = h0 ++ p :: h4) (hm : messages h0 = l) (hl : .compose3 ∉ l ∧ .process3 ∉ l) (hk : callOf p.1 = some k)
    (hst : s4.ctx.status = .completed) : Completed E cfg h h4 s4 s' := by
  have late : Late s4.ctx := Or.inl hst
  refine ⟨hr.run, late_keep hr.run hr.noRestart hr.noReconf late, run_grow_late hr.run hr.noRestart hr.noReconf late, late,
    ?_, hr.noRestart, hr.noReconf⟩
  subst hsp
  obtain ⟨s1, r1, r2⟩ := run_append hs.1
  have h0' : updates h0 = [] := updates_incomplete ⟨r1, fun q hq => hs.2 q (by simp [hq])⟩
    (by unfold complete; rw [hm]; exact fun h => h.elim hl.1 hl.2)
  rw [updates_append, updates_cons, h0', List.nil_append]
  obtain ⟨o, r⟩ := p
  cases o <;> cases r <;> simp only [callOf, reduceCtorEq] at hk <;> rfl

end Verif
