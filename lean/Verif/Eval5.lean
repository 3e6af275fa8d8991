import Verif.Eval4

/-!
# Runs that succeed: message 1
-/

namespace Verif

open M Spec

variable {σ : Type} {E : Env σ} {I : σ → Prop} {cfg cfg' : Config} {P : Prims} {V : Bytes → Bytes → Bytes → Bool} {su : Suite} {k : Bounds} {me : Nat}
  {c c0 : Ctx}

/-- what stays the same in the context of a session -/
structure Going (su : Suite) (me : Nat) (c0 c : Ctx) : Prop where
  live : Live su c
  method : c.chosenMethod = me
  cid : c.cid = c0.cid
  ead : c.ead = []

/-- `message_1` of an honest Initiator -/
structure Flight1 (P : Prims) (su : Suite) (k : Bounds) (me : Nat) (c0 : Ctx) (x : Bytes) (ts : List EadTok) (m1 : Bytes) : Prop where
  key : P.priv x
  ead : EadOk k ts
  enc : encMsg1 ⟨(me : Int), suitesI { c0 with chosenIdx := c0.csuiteLen - 1 }, P.pub x, c0.cid, eadAlwaysValue ts⟩ = some m1
  size : 0 < m1.length ∧ m1.length ≤ 60000

/-- the Initiator after message_1 -/
structure InitM1 (P : Prims) (su : Suite) (me : Nat) (x m1 : Bytes) (c0 c : Ctx) : Prop extends Going su me c0 c where
  state : c.status = .waitM2 ∧ c.thState = .th1 ∧ c.prkState = .invalid
  priv : c.dhPriv = x
  th : c.th = P.hash m1

/-- the Responder after a message_1 with the ephemeral key of `x` and the hash `th1` -/
structure Heard1 (P : Prims) (su : Suite) (me : Nat) (x th1 : Bytes) (ci : Cid) (c0 c : Ctx) : Prop extends
    Going su me c0 c where
  state : c.status = .receivedM1 ∧ c.thState = .th1 ∧ c.prkState = .invalid
  peerPub : c.dhPeerPub = P.pub x
  peerCid : c.peerCid = ci
  th : c.th = th1

/-- the Responder after message_1 -/
abbrev RespM1 (P : Prims) (su : Suite) (me : Nat) (x m1 : Bytes) (ci : Cid) (c0 c : Ctx) : Prop :=
  Heard1 P su me x (P.hash m1) ci c0 c

theorem Ready.suite (h : Ready su c) : ({ c with chosenIdx := c.csuiteLen - 1 } : Ctx).suite = su := by
  have h1 := h.selected
  have h2 := h.suites
  unfold Spec.suites at h1
  rw [List.getLast?_eq_getElem?, List.length_take, Nat.min_eq_left (by omega), List.getElem?_take,
    if_pos (by omega)] at h1
  show c.csuiteArr.getD (c.csuiteLen - 1) Suite.zero = su
  rw [List.getD_eq_getElem?_getD, h1]
  rfl

theorem Ready.live (h : Ready su c) {c' : Ctx} (h1 : c'.hasKeys = c.hasKeys) (h2 : c'.hasCrypto = c.hasCrypto)
    (h3 : c'.hasCred = c.hasCred) (h4 : c'.csuiteArr = c.csuiteArr) (h5 : c'.chosenIdx = c.csuiteLen - 1) : Live su c' :=
  ⟨h1.trans h.bound.1, h2.trans h.bound.2.1, h3.trans h.bound.2.2, by
    have := Ready.suite h
    unfold Ctx.suite at this ⊢
    rw [h4, h5]
    exact this⟩

theorem enter_gets {ok : Ctx → Bool} {m : Msg} {r : Role} (h : ok c = true) :
    Gets I (enter ok m r : M σ Unit) c () { c with status := .aborted, errorCode := .unspecified, message := m, role := r } := by
  unfold enter
  exact Gets.getCtx.bind ((Gets.require h).bind Gets.modCtx)

theorem chooseSuite_gets (h : 1 ≤ c.csuiteLen) :
    Gets I (chooseSuite : M σ Unit) c () { c with chosenIdx := c.csuiteLen - 1 } := by
  unfold chooseSuite
  exact Gets.getCtx.bind ((Gets.require (by simp only [bne_iff_ne, ne_eq]; omega)).bind Gets.modCtx)

/-! ## Encoding of message_1 -/

theorem eadAlwaysValue_size {ts : List EadTok} (h : EadOk k ts) :
    (eadAlwaysValue ts).length = ts.length ∧ (Spec.ead (eadAlwaysValue ts)).length ≤ (Spec.ead ts).length + 3 ∧
      ∀ t ∈ eadAlwaysValue ts, t.Wire := by
  have key : (Spec.ead (eadAlwaysValue ts)).length ≤ (Spec.ead ts).length + ts.length := by
    clear h
    induction ts with
    | nil => exact Nat.le_refl _
    | cons t ts ih =>
      have : eadAlwaysValue (t :: ts) = { t with value := some (t.value.getD []) } :: eadAlwaysValue ts := rfl
      rw [this, ead_cons, ead_cons, List.length_append, List.length_append, List.length_cons]
      have h1 : (encEadTok { t with value := some (t.value.getD []) }).length ≤ (encEadTok t).length + 1 := by
        obtain ⟨l, v⟩ := t
        cases v with
        | none => simp [encEadTok, encBstr, head_length, headLen]
        | some v => exact Nat.le_succ _
      omega
  refine ⟨by simp [eadAlwaysValue], by have := h.count; omega, ?_⟩
  intro t ht
  obtain ⟨t0, h0, rfl⟩ := List.mem_map.1 ht
  refine ⟨?_, ?_⟩
  · have := h.label t0 h0
    unfold Int32Range
    simp only
    omega
  · rintro v ⟨⟩
    have h1 : (encEadTok t0).length ≤ (Spec.ead ts).length := by
      clear key
      clear ht
      induction ts with
      | nil => cases h0
      | cons a ts ih =>
        rw [ead_cons, List.length_append]
        rcases List.mem_cons.1 h0 with rfl | h2
        · omega
        · have := ih ⟨by have := h.count; simp only [List.length_cons] at this; omega,
            fun t ht => h.label t (List.mem_cons_of_mem _ ht),
            by have := h.size; rw [ead_cons, List.length_append] at this; exact ⟨by omega, by omega⟩⟩ h2
          omega
    have h2 := h.size
    obtain ⟨l, v⟩ := t0
    cases v with
    | none => unfold SizeOk; simp
    | some v =>
      have h3 : (encBstr v).length ≤ (encEadTok ⟨l, some v⟩).length := by simp [encEadTok]
      rw [encBstr_length] at h3
      unfold SizeOk
      simp only [Option.getD_some]
      omega

theorem encInt_le9 (v : Int) : (encInt v).length ≤ 9 := by
  unfold encInt
  split <;> rw [head_length] <;> unfold headLen <;> repeat' split
  all_goals omega

theorem encSuites_total (h : Ready su c) {c' : Ctx} (h1 : c'.csuiteLen = c.csuiteLen) (h2 : c'.csuiteArr = c.csuiteArr) :
    ∃ b, encSuites (suitesI c') = some b ∧ b.length ≤ 40 := by
  have hs := h.suites
  unfold suitesI
  rw [h1, h2]
  split
  · exact ⟨_, rfl, by have := encInt_le9 c'.suite.value; omega⟩
  · have hl : ((c.csuiteArr.take c.csuiteLen).map Suite.value).length = c.csuiteLen := by
      simp only [List.length_map, List.length_take]; omega
    generalize (c.csuiteArr.take c.csuiteLen).map Suite.value = l at hl ⊢
    refine ⟨_, if_pos (by omega), ?_⟩
    have h9 := encInt_le9
    have h0 : (encListHead l.length).length ≤ 9 := by
      unfold encListHead
      rw [head_length]
      unfold headLen
      repeat' split
      all_goals omega
    rcases l with _ | ⟨a, _ | ⟨b, _ | ⟨d, l⟩⟩⟩
    · simp only [List.length_append, List.map_nil, List.flatten_nil, List.length_nil]
      simp only [List.length_nil] at h0
      omega
    · have := h9 a
      simp only [List.length_append, List.map_cons, List.map_nil, List.flatten_cons, List.flatten_nil, List.length_nil]
      omega
    · have := h9 a
      have := h9 b
      simp only [List.length_append, List.map_cons, List.map_nil, List.flatten_cons, List.flatten_nil, List.length_nil]
      omega
    · have := h9 a
      have := h9 b
      have := h9 d
      simp only [List.length_cons] at hl
      have : l = [] := List.length_eq_zero_iff.1 (by omega)
      subst this
      simp only [List.length_append, List.map_cons, List.map_nil, List.flatten_cons, List.flatten_nil, List.length_nil]
      omega

theorem encCid_total {cid : Cid} (h : CidOk cfg cid) : encCid cid = some (cidItem cid) ∧ (cidItem cid).length ≤ 1003 := by
  have h1 := (cidLen_size h).1
  have h2 := cidLen_le h
  refine ⟨?_, by omega⟩
  cases cid with
  | int v => exact if_pos h
  | bstr b => rfl

theorem encEadOpt_total {ts : List EadTok} (h : ts.length ≤ 3) : encEadOpt ts = some (Spec.ead ts) := by
  unfold encEadOpt
  cases ts with
  | nil => rfl
  | cons t ts =>
    simp only [List.isEmpty_cons, Bool.false_eq_true, if_false]
    exact if_pos ⟨by simp, h⟩

theorem encMsg1_total (h : Ready su c) (hP : P.Sized su) (hsu : SuiteOk su) {c' : Ctx} (h1 : c'.csuiteLen = c.csuiteLen)
    (h2 : c'.csuiteArr = c.csuiteArr) (hcid : CidOk cfg' c.cid) {ts : List EadTok} (he : EadOk k ts)
    {x : Bytes} (hx : P.priv x) :
    ∃ b, encMsg1 ⟨(me : Int), suitesI c', P.pub x, c.cid, eadAlwaysValue ts⟩ = some b ∧ 0 < b.length ∧
      b.length ≤ 60000 := by
  obtain ⟨s, hs1, hs2⟩ := encSuites_total h h1 h2
  obtain ⟨hc1, hc2⟩ := encCid_total hcid
  obtain ⟨e1, e2, _⟩ := eadAlwaysValue_size he
  have h9 := encInt_le9 (me : Int)
  have h8 : (encBstr (P.pub x)).length = su.eccKey + bstrOh su.eccKey := by
    rw [encBstr_small (by rw [hP.pub x hx]; have := hsu.ecc; omega), hP.pub x hx]
  have h7 := bstrOh_le3 (n := su.eccKey) (by have := hsu.ecc; omega)
  have h6 := hsu.ecc
  have h5 := he.size
  have h4 := he.count
  have h3 : encEadOpt (eadAlwaysValue ts) = some (Spec.ead (eadAlwaysValue ts)) := encEadOpt_total (by omega)
  refine ⟨encInt (me : Int) ++ s ++ encBstr (P.pub x) ++ cidItem c.cid ++ Spec.ead (eadAlwaysValue ts),
    by unfold encMsg1; simp only [hs1, hc1, h3], ?_⟩
  simp only [List.length_append]
  omega

/-! ## message_1 -/

/-- an allocation while a key is in use -/
theorem allocKept_wp {J : σ → Prop} (hr : Roomy cfg su) {n : Nat} {s : St σ} (hs : s.ctx = c)
    (hn : n ≤ 200000 + cfg.macCtxSize) (ha : ∀ n, (E.alloc s.env n).1 = true) (h1 : J s.env)
    (h2 : ∀ n, J (E.alloc s.env n).2) : Wp (memAlloc E cfg n) s fun _ s' => s'.ctx = c ∧ J s'.env := by
  unfold memAlloc
  have hheap : Wp (do let ok ← call (fun e => E.alloc e n) (Ev.alloc n); require ok .notEnoughMemory) s
      fun _ s' => s'.ctx = c ∧ J s'.env :=
    Wp.bind ⟨_, _, rfl, (), _, require_ok.2 ⟨ha n, rfl⟩, hs, h2 n⟩
  cases hb : cfg.backend with
  | heap => exact hheap
  | stack =>
    rcases hr.memory with h | ⟨h3, h4⟩
    · rw [hb] at h; cases h
    · exact Wp.guard (by simp; omega) ⟨(), s, guardUB_ok.2 ⟨by simp [h4], rfl⟩, hs, h1⟩

theorem message1Compose_wp (H : Host P su k I E cfg) (hr : Ready su c) (hm : c.method.head? = some me)
    (hcid : CidOk cfg' c.cid) {n : Nat} (hn : 60000 ≤ n) {s : St σ} (hs : At I s c) :
    Wp (message1Compose E cfg n) s fun m1 s' =>
      ∃ x ts, Flight1 P su k me c x ts m1 ∧ InitM1 P su me x m1 c s'.ctx ∧ I s'.env := by
  have hst := hr.status
  have hcl := hr.clean
  have hsu := hr.suites
  have hme : c.method.headD 0 = me := by
    cases h : c.method with
    | nil => rw [h] at hm; cases hm
    | cons a l => rw [h] at hm; exact Option.some.inj hm
  unfold message1Compose
  refine Wp.go hs (Gets.require (by simp only [bne_iff_ne, ne_eq]; omega)) fun s1 hs1 => ?_
  refine Wp.new hs1 (enter_gets (by simp [okStart, hst])) fun c2 s2 hc2 hs2 => ?_
  refine Wp.new hs2 (chooseSuite_gets (by rw [hc2]; exact hsu.1)) fun c3 s3 hc3 hs3 => ?_
  refine Wp.new hs3 Gets.modCtx fun c4 s4 hc4 hs4 => ?_
  refine Wp.go hs4 Gets.getCtx fun s5 hs5 => ?_
  have hlive : Live su c4 := by
    apply Ready.live hr <;> rw [hc4, hc3, hc2]
  refine Wp.bind ((importKey_wp H.honest .makeKeyPair _ rfl hs5 hlive.keys).mono ?_)
  rintro _ s6 ⟨hs6, kid, rfl, hk⟩
  refine Wp.bind ⟨kid, s6, rfl, ?_⟩
  refine Wp.bind ((allocKept_wp (J := fun e => ∃ x, (E.makeKeyPair e kid).1 = some (x, P.pub x) ∧ P.priv x ∧
    x.length = su.eccKey ∧ I (E.destroyKey (E.makeKeyPair e kid).2 kid)) H.room hs6
    (by rw [hlive.suite]; have := H.suite.ecc; omega) (fun n => hk.1 n) (hk.2 _ (.inl rfl))
    fun n => hk.2 _ (.inr ⟨n, rfl⟩)).mono ?_)
  rintro _ s8 ⟨hs8, x, g1, hx1, hx, g2⟩
  refine Wp.bind (keyCall_wp (f := fun e => E.makeKeyPair e kid) (ev := .makeKeyPair kid)
    (J := fun e => I (E.destroyKey e kid)) (by rw [hs8]; exact hlive.crypto) ⟨g1, g2⟩ |>.mono ?_)
  rintro _ s9 ⟨rfl, hs9, hi⟩
  refine Wp.bind ((destroyKey_wp (hs9.trans hs8) hlive.keys hi).mono fun _ s10 hs10 => ?_)
  refine Wp.go hs10 (Gets.ofOption rfl) fun s11 hs11 => ?_
  refine Wp.new hs11 Gets.modCtx fun c12 s12 hc12 hs12 => ?_
  refine Wp.go hs12 (Gets.require (by simp [hlive.suite, hx, H.sized.pub x hx1])) fun s13 hs13 => ?_
  refine Wp.go hs13 (Gets.require (by rw [hc4, hc3, hc2]; simpa using hsu.2.1)) fun s14 hs14 => ?_
  refine Wp.bind ((eadCompose_wp H hs14 (by rw [hc12, hc4, hc3, hc2]; exact hcl.1)).mono ?_)
  rintro _ s15 ⟨ts, hts, hs15⟩
  refine Wp.new hs15 Gets.getCtx fun c16 s16 hc16 hs16 => ?_
  rw [← hc16]
  refine Wp.go hs16 (Gets.guardUB (by rw [hc16]; simpa using hts.count.2)) fun s17 hs17 => ?_
  obtain ⟨b, hb1, hb2, hb3⟩ := encMsg1_total (me := me) hr H.sized H.suite (c' := c4) (by rw [hc4, hc3, hc2])
    (by rw [hc4, hc3, hc2]) hcid hts hx1
  have h1 : c4.chosenMethod = me := by rw [hc4, hc3, hc2]; exact hme
  have h2 : c4.cid = c.cid := by rw [hc4, hc3, hc2]
  have h3 : c16.ead = ts := by rw [hc16]
  have hlive16 : Live su c16 := by
    rw [hc16, hc12]; exact ⟨hlive.keys, hlive.crypto, hlive.cred, hlive.suite⟩
  refine Wp.go hs17 (Gets.ofOption (by rw [h1, h2, h3]; simp only; rw [hb1]; exact fits_of (by omega))) fun s18 hs18 => ?_
  refine Wp.go hs18 (hashTh_gets H hlive16 (fun h => by rw [h] at hb2; exact absurd hb2 (Nat.lt_irrefl 0))) fun s19 hs19 => ?_
  refine Wp.new hs19 Gets.modCtx fun c20 s20 hc20 hs20 => ?_
  refine ⟨b, s20, rfl, x, ts, ⟨hx1, hts, ?_, hb2, hb3⟩, ⟨⟨⟨?_, ?_, ?_, ?_⟩, ?_, ?_, ?_⟩, ?_, ?_, ?_⟩, hs20.2⟩
  · rw [← hb1, hc4, hc3, hc2]; rfl
  all_goals rw [hs20.1, hc20]
  · exact hlive16.keys
  · exact hlive16.crypto
  · exact hlive16.cred
  · exact hlive16.suite
  · rw [hc16, hc12]; exact h1
  · rw [hc16, hc12]; exact h2
  · exact ⟨rfl, rfl, by rw [hc16, hc12, hc4, hc3, hc2]; exact hst.2.2⟩
  · rw [hc16, hc12]

/-- SUITES_I as a list -/
def Offers (cfg : Config) (su : Suite) : Suites → Prop
  | .one v => v = su.value ∧ 1 ≤ cfg.maxSuites
  | .list l => 2 ≤ l.length ∧ l.length ≤ 3 ∧ l.length ≤ cfg.maxSuites ∧ l.getLast? = some su.value

theorem checkSuites_gets {l : Suites} (h : Offers cfg su l) (hl : Live su c) (hp : c.peerCsuite = []) :
    ∃ l', Gets I (checkSuites cfg l : M σ Unit) c () { c with peerCsuite := l' } := by
  cases l with
  | one v =>
    obtain ⟨rfl, h1⟩ := h
    refine ⟨[su.value], ?_⟩
    unfold checkSuites
    refine Gets.getCtx.bind ((Gets.guardUB (by rw [hp]; simp only [List.length_nil, decide_eq_true_eq]; omega)).bind ?_)
    refine Gets.modCtx.bind ((Gets.whenM_false (by simp [hl.suite])).cast ?_)
    rw [hp]
    rfl
  | list l =>
    obtain ⟨h1, _, h2, h3⟩ := h
    refine ⟨l, ?_⟩
    unfold checkSuites
    refine Gets.getCtx.bind ((Gets.whenM_false ?_).bind ((Gets.require (by simp only [decide_eq_true_eq]; omega)).bind ?_))
    · cases l with
      | nil => simp only [List.length_nil] at h1; omega
      | cons a l => rfl
    · exact Gets.modCtx.bind (Gets.whenM_false (by simp [hl.suite, h3]))

theorem offers_suitesI (hr : Ready su c0) (hn : c0.csuiteLen ≤ cfg.maxSuites) :
    Offers cfg su (suitesI { c0 with chosenIdx := c0.csuiteLen - 1 }) := by
  have h0 := Ready.suite hr
  have hs := hr.suites
  unfold suitesI
  rw [h0]
  dsimp only
  split
  · exact ⟨rfl, by omega⟩
  · have h1 : ((c0.csuiteArr.take c0.csuiteLen).map Suite.value).length = c0.csuiteLen := by
      simp only [List.length_map, List.length_take]; omega
    have h2 : ((c0.csuiteArr.take c0.csuiteLen).map Suite.value).getLast? = some su.value := by
      have := hr.selected
      unfold Spec.suites at this
      rw [List.getLast?_map, this]
      rfl
    have h3 : c0.csuiteLen ≠ 1 := by simpa using ‹_›
    exact ⟨by omega, by omega, by omega, h2⟩

theorem suitesI_wire (hr : Ready su c0) :
    ∀ v ∈ suiteValues (suitesI { c0 with chosenIdx := c0.csuiteLen - 1 }), Int32Range v := by
  intro v hv
  unfold suitesI at hv
  have hm : ∃ u ∈ Spec.suites c0, u.value = v := by
    split at hv
    · rw [Ready.suite hr] at hv
      rcases List.mem_cons.1 hv with rfl | h
      · exact ⟨su, List.mem_of_getLast? hr.selected, rfl⟩
      · cases h
    · exact List.mem_map.1 hv
  obtain ⟨u, hu, rfl⟩ := hm
  exact hr.numbers u hu

/-- message_1 as a Responder can take it -/
structure Recv1 (P : Prims) (su : Suite) (k : Bounds) (cfg : Config) (me : Nat) (l : Suites) (ci : Cid) (x : Bytes)
    (ts : List EadTok) (m1 : Bytes) : Prop where
  key : P.priv x
  suites : Offers cfg su l ∧ ∀ v ∈ suiteValues l, Int32Range v
  cid : CidOk cfg ci
  items : ts.length ≤ k.items ∧ ∀ t ∈ ts, t.Wire
  enc : encMsg1 ⟨(me : Int), l, P.pub x, ci, ts⟩ = some m1
  size : 0 < m1.length

theorem Flight1.recv (hr0 : Ready su c0) (hn : c0.csuiteLen ≤ cfg.maxSuites) (hcid : CidOk cfg c0.cid) {x m1 : Bytes}
    {ts : List EadTok} (hf : Flight1 P su k me c0 x ts m1) :
    Recv1 P su k cfg me (suitesI { c0 with chosenIdx := c0.csuiteLen - 1 }) c0.cid x (eadAlwaysValue ts) m1 := by
  obtain ⟨e1, e2, e3⟩ := eadAlwaysValue_size hf.ead
  exact ⟨hf.key, ⟨offers_suitesI hr0 hn, suitesI_wire hr0⟩, hcid, ⟨by rw [e1]; exact hf.ead.count.1, e3⟩, hf.enc, hf.size.1⟩

theorem message1Process_wp (H : Host P su k I E cfg) (hr : Ready su c) (hme : me ∈ c.method) (hm4 : me < 4)
    {l : Suites} {ci : Cid} {x m1 : Bytes} {ts : List EadTok}
    (hf : Recv1 P su k cfg me l ci x ts m1) {s : St σ} (hs : At I s c) :
    Wp (message1Process E cfg m1) s fun _ s' => RespM1 P su me x m1 ci c s'.ctx ∧ I s'.env := by
  have hst := hr.status
  have hcl := hr.clean
  have hsu := hr.suites
  have he := H.suite.ecc
  have hcid := hf.cid
  have hwire : Msg1.Wire ⟨(me : Int), l, P.pub x, ci, ts⟩ := by
    refine ⟨?_, hf.suites.2, ?_, ?_, hf.items.2⟩
    · unfold Int32Range; simp only; omega
    · unfold SizeOk; simp only [H.sized.pub x hf.key]; omega
    · intro b hb
      have hb' : ci = .bstr b := hb
      rw [hb'] at hcid
      have := hcid.2
      unfold SizeOk; omega
  have hdec : getMsg1 cfg.dec m1 = (true, ⟨(me : Int), l, P.pub x, ci,
      ts⟩) := by
    exact getMsg1_encMsg1 hf.enc hwire
  have hstale : staleMsg1 cfg.dec m1 = (0, 0, 0) := staleMsg1_encMsg1 hf.enc hwire
  have hfind : c.method.find? (fun (y : Nat) => decide ((y : Int) = (me : Int))) = some me := by
    cases hq : c.method.find? (fun (y : Nat) => decide ((y : Int) = (me : Int))) with
    | none => exact absurd (List.find?_eq_none.1 hq me hme) (by simp)
    | some z =>
      have := List.find?_some hq
      simp only [decide_eq_true_eq] at this
      congr 1
      omega
  unfold message1Process
  rw [hdec, hstale]
  dsimp only
  refine Wp.go hs (Gets.require (by simp only [bne_iff_ne, ne_eq]; have := hf.size; omega)) fun s1 hs1 => ?_
  refine Wp.new hs1 (enter_gets (by simp [okStart, hst])) fun c2 s2 hc2 hs2 => ?_
  refine Wp.new hs2 (chooseSuite_gets (by rw [hc2]; exact hsu.1)) fun c3 s3 hc3 hs3 => ?_
  refine Wp.go hs3 Gets.getCtx fun s4 hs4 => ?_
  refine Wp.go hs4 (Gets.ofOption (by rw [hc3, hc2]; exact hfind)) fun s5 hs5 => ?_
  refine Wp.new hs5 Gets.modCtx fun c6 s6 hc6 hs6 => ?_
  have hlive : Live su c6 := by apply Ready.live hr <;> rw [hc6, hc3, hc2]
  have hl3 : Live su c3 := by apply Ready.live hr <;> rw [hc3, hc2]
  obtain ⟨l', hl⟩ := checkSuites_gets (σ := σ) (I := I) hf.suites.1 hlive (by rw [hc6, hc3, hc2]; exact hcl.2)
  refine Wp.new hs6 hl fun c7 s7 hc7 hs7 => ?_
  refine Wp.go hs7 (Gets.require (by simp [H.sized.pub x hf.key, hl3.suite])) fun s8 hs8 => ?_
  refine Wp.go hs8 (Gets.guardUB (by rw [hl3.eccOk H]; rfl)) fun s9 hs9 => ?_
  refine Wp.new hs9 Gets.modCtx fun c10 s10 hc10 hs10 => ?_
  refine Wp.go hs10 (Gets.require (decide_eq_true (Nat.zero_le _))) fun s10a hs10a => ?_
  refine Wp.go hs10a (Gets.guardUB rfl) fun s10b hs10b => ?_
  refine Wp.new hs10b (storePeerCid_gets hcid) fun c11 s11 hc11 hs11 => ?_
  have he11 : c11.ead = [] := by rw [hc11, hc10, hc7, hc6, hc3, hc2]; exact hcl.1
  have hl11 : Live su c11 := by rw [hc11, hc10, hc7]; exact ⟨hlive.keys, hlive.crypto, hlive.cred, hlive.suite⟩
  refine Wp.go hs11 (processEad1_wp H hf.items.1 he11) fun s12 hs12 => ?_
  refine Wp.go hs12 (hashTh_gets H hl11 (fun h => by have := hf.size; rw [h] at this; exact absurd this (Nat.lt_irrefl 0))) fun s13 hs13 => ?_
  refine (Gets.modCtx.wp hs13).mono ?_
  rintro _ s14 ⟨_, hs14⟩
  refine ⟨?_, hs14.2⟩
  rw [hs14.1]
  refine ⟨⟨⟨hl11.keys, hl11.crypto, hl11.cred, hl11.suite⟩, ?_, ?_, he11⟩, ⟨rfl, rfl, ?_⟩, ?_, ?_, rfl⟩
  · rw [hc11, hc10, hc7, hc6]
  · rw [hc11, hc10, hc7, hc6, hc3, hc2]
  · rw [hc11, hc10, hc7, hc6, hc3, hc2]; exact hst.2.2
  · rw [hc11, hc10]
  · rw [hc11]

end Verif
