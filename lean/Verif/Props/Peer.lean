import Verif.SpecPeer
import Verif.Props.Complete

/-!
# C59: a handshake with any peer that follows RFC 9528
-/

namespace Verif

open M Spec

variable {σ : Type} {E : Env σ} {I : σ → Prop} {cfg : Config} {P : Prims} {V : Bytes → Bytes → Bytes → Bool} {su : Suite}
  {k : Bounds} {me : Nat} {p : Identity} {g : Choice} {i : Rfc.Id} {peer : Rfc.Auth} {c : Cred}

namespace Rfc

open Spec.Rfc

/-! ## ID_CRED_x -/

/-- ID_CRED_x as the decoder gives it -/
def idItem : Id → IdCred
  | .kid b => match oneByteInt b with | some v => .int v | none => .bstr b
  | .x5chain [c] => .map ⟨none, some (.one c), none⟩
  | .x5chain l => .map ⟨none, some (.list l), none⟩
  | .x5t a h => .map ⟨none, none, some (a, h)⟩

theorem oneByteInt_one {x : UInt8} : oneByteInt [x] =
    if x.toNat ≤ 23 then some (x.toNat : Int) else if 32 ≤ x.toNat ∧ x.toNat ≤ 55 then some (31 - (x.toNat : Int)) else none := rfl

theorem oneByteInt_some {b : Bytes} {v : Int} (h : oneByteInt b = some v) : b = encInt v ∧ -24 ≤ v ∧ v ≤ 23 := by
  match b with
  | [] => cases h
  | _ :: _ :: _ => cases h
  | [x] =>
    rw [oneByteInt_one] at h
    split at h
    · have h := Option.some.inj h
      subst h
      refine ⟨?_, by omega, by omega⟩
      rw [encInt_small (by omega) (by omega), if_pos (by omega)]
      simp
    · split at h
      · have h := Option.some.inj h
        subst h
        refine ⟨?_, by omega, by omega⟩
        rw [encInt_small (by omega) (by omega), if_neg (by omega)]
        have : (32 + (-1 - (31 - (x.toNat : Int))).toNat) = x.toNat := by omega
        rw [this]
        simp
      · cases h

theorem oneByteInt_enc {v : Int} (h1 : -24 ≤ v) (h2 : v ≤ 23) : oneByteInt (encInt v) = some v := by
  rw [encInt_small h1 h2, oneByteInt_one]
  by_cases h : 0 ≤ v
  · have : (UInt8.ofNat v.toNat).toNat = v.toNat := by
      rw [UInt8.toNat_ofNat']; omega
    rw [if_pos h, this, if_pos (by omega)]
    congr 1
    omega
  · have : (UInt8.ofNat (32 + (-1 - v).toNat)).toNat = 32 + (-1 - v).toNat := by
      rw [UInt8.toNat_ofNat']; omega
    rw [if_neg h, this, if_neg (by omega), if_pos (by omega)]
    congr 1
    omega

theorem idItem_field {i : Id} (h : ∀ l, i = .x5chain l → 1 ≤ l.length ∧ l.length ≤ 3) : encIdCred (idItem i) = some i.field := by
  match i, h with
  | .kid b, h =>
    cases hb : oneByteInt b with
    | none => simp only [idItem, Id.field, hb]; rfl
    | some v =>
      obtain ⟨h1, h2, h3⟩ := oneByteInt_some hb
      simp only [idItem, Id.field, hb]
      exact congrArg some h1.symm
  | .x5chain [], h => exact absurd (h _ rfl).1 (by simp)
  | .x5chain [a], h =>
    simp [idItem, Id.field, Id.map, encIdCred, encCredMap, encX5chain, CredMap.count, mapHead, encMapHead]
  | .x5chain (a :: b :: l), h =>
    have hl : 2 ≤ (a :: b :: l).length := by simp
    simp only [idItem, Id.field, encIdCred, encCredMap, encX5chain, hl, (h _ rfl).2, and_self, if_true]
    simp [CredMap.count, Id.map, mapHead, encMapHead, encListHead, arrayHead]
  | .x5t (.int a) fp, h =>
    simp [idItem, encIdCred, encCredMap, CredMap.count, Id.field, Id.map, mapHead, encMapHead, encCertHash, encListHead,
      arrayHead, encIntOrTstr]
  | .x5t (.bstr a) fp, h =>
    simp [idItem, encIdCred, encCredMap, CredMap.count, Id.field, Id.map, mapHead, encMapHead, encCertHash, encListHead,
      arrayHead, encIntOrTstr]

theorem fits_chain {i : Id} (h : i.Fits cfg) : ∀ l, i = .x5chain l → 1 ≤ l.length ∧ l.length ≤ 3 := by
  rintro l rfl
  exact ⟨h.1, h.2.1⟩

theorem idItem_recv {i : Id} (h : i.Fits cfg) : (idItem i).Wire ∧
    (credOfIdCred cfg credOfMap2 (idItem i) = .ok (asReceived (idItem i)) ∧
      credOfIdCred cfg credOfMap3 (idItem i) = .ok (asReceived (idItem i))) ∧ asReceived (idItem i) = i.asked := by
  match i, h with
  | .kid b, h =>
    cases hb : oneByteInt b with
    | none =>
      simp only [idItem, Id.asked, hb]
      exact ⟨h.2, ⟨if_pos h.1, if_pos h.1⟩, rfl⟩
    | some v =>
      obtain ⟨h1, h2, h3⟩ := oneByteInt_some hb
      simp only [idItem, Id.asked, hb]
      refine ⟨?_, ⟨rfl, rfl⟩, rfl⟩
      simp only [IdCred.Wire, Int32Range]
      omega
  | .x5chain [], h => exact absurd h.1 (by simp)
  | .x5chain [a], h =>
    obtain ⟨_, _, _, h4⟩ := h
    exact ⟨by constructor <;> simp [h4 a (List.mem_singleton.2 rfl)], ⟨rfl, rfl⟩, rfl⟩
  | .x5chain (a :: b :: l), h =>
    obtain ⟨_, h2, h3, h4⟩ := h
    have h3 := h3 (by simp)
    have hi : idItem (.x5chain (a :: b :: l)) = .map ⟨none, some (.list (a :: b :: l)), none⟩ := rfl
    rw [hi]
    generalize a :: b :: l = l at h3 h4
    refine ⟨by constructor <;> simp; exact h4, ⟨?_, ?_⟩, rfl⟩ <;>
      simp [credOfIdCred, credOfMap2, credOfMap3, recvChain_eq, recvHash_eq, h3, asReceived] <;> rfl
  | .x5t (.int a) fp, h =>
    obtain ⟨h1, h2⟩ := h
    exact ⟨by constructor <;> simp <;> assumption, ⟨rfl, rfl⟩, rfl⟩
  | .x5t (.bstr a) fp, h =>
    obtain ⟨h1, h2, h3⟩ := h
    refine ⟨by constructor <;> simp <;> assumption, ⟨?_, ?_⟩, rfl⟩ <;>
      simp [idItem, credOfIdCred, credOfMap2, credOfMap3, recvChain_eq, recvHash_eq, h1, asReceived] <;> rfl

/-- the library's ID_CRED_x is that of RFC 9528 -/
theorem denotes_sent {cr : Cred} {i : Id} (h : Denotes cr i) :
    idCred cr = i.map ∧ SentAs cr (idItem i) ∧ encIdCred (idItem i) = some i.field := by
  cases h with
  | @kid c b h1 h2 =>
    have hi : idItem (.kid b) = .bstr b := by simp [idItem, h1]
    exact ⟨rfl, hi ▸ .kidBstr c h2, idItem_field nofun⟩
  | @kidInt c b h1 =>
    obtain ⟨v, hv⟩ := Option.ne_none_iff_exists'.1 h1
    have hi : idItem (.kid b) = .int v := by simp [idItem, hv]
    obtain ⟨h4, h2, h3⟩ := oneByteInt_some hv
    refine ⟨rfl, ?_, idItem_field nofun⟩
    rw [hi, h4]
    exact .kidCborInt c h2 h3
  | @cert a h1 => exact ⟨rfl, .cert h1, idItem_field (by rintro l ⟨⟩; simp)⟩
  | @chain l h1 h2 h3 =>
    refine ⟨?_, ?_, idItem_field (by rintro l ⟨⟩; omega)⟩
    · match l, h1 with
      | a :: b :: l, _ => rfl
    · match l, h1, h2, h3 with
      | a :: b :: l, h1, h2, h3 => exact .chain h1 h2 h3
  | @hashInt c a h h1 h2 => exact ⟨rfl, .hashInt c h1 h2, idItem_field nofun⟩
  | @hashTstr c a h h1 h2 => exact ⟨rfl, .hashTstr c h1 h2, idItem_field nofun⟩

/-- the end of a plaintext the library sends -/
theorem tail_sent {cr : Cred} {i : Id} (h : Denotes cr i) {sig t : Bytes} {ts : List EadTok} (ht : PtxtTail cfg cr sig ts t) :
    t = i.field ++ encBstr sig ++ ead ts := by
  obtain ⟨q, hq, rfl⟩ := ht
  obtain ⟨_, h1, h2⟩ := denotes_sent h
  rw [(sentAs_enc h1 hq).1] at h2
  rw [Option.some.inj h2]

/-- the end of a plaintext that is received -/
theorem tail_recv {i : Id} (h : i.Fits cfg) (sig : Bytes) (ts : List EadTok) :
    Tail cfg (idItem i) sig ts (i.field ++ encBstr sig ++ ead ts) :=
  ⟨⟨_, idItem_field (fits_chain h), rfl⟩, (idItem_recv h).1, (idItem_recv h).2.1⟩

/-! ## Keys and messages -/

/-- the values of message_2 -/
def keysOf (P : Prims) (su : Suite) (t : Trace) : Keys2 := ⟨th2 P t, prk2e P t, prk3e2m P su t⟩

theorem keys2_eq (t : Trace) : keys2 P su t.method (P.pub t.y) (P.hash t.message1) (P.dh t.x (P.pub t.y))
    (P.dh t.responder.sk (P.pub t.x)) = keysOf P su t := rfl

theorem mac2_eq {t : Trace} {c : Cred} (h1 : idCred c = t.responder.id.map) (h2 : cred c = t.responder.cred) (cid : Cid)
    (ts : List EadTok) : Verif.mac2 P su t.method (keysOf P su t) cid c ts = Spec.Rfc.mac2 P su t cid ts := by
  unfold Verif.mac2 Spec.Rfc.mac2 context2
  rw [h1, h2]
  rfl

theorem mac3_eq {t : Trace} {c : Cred} (h1 : idCred c = t.initiator.id.map) (h2 : cred c = t.initiator.cred)
    (ts : List EadTok) : Verif.mac3 P su t.method (prk4e3m P su t) (th3 P t) c ts = Spec.Rfc.mac3 P su t ts := by
  unfold Verif.mac3 Spec.Rfc.mac3 context3
  rw [h1, h2]
  rfl

theorem authentic_iff {signs : Bool} {a : Auth} {c : Cred} (h1 : idCred c = a.id.map) (h2 : cred c = a.cred) {th mac sig : Bytes}
    {ts : List EadTok} : Authentic V signs a th ts mac sig ↔
      (signs = true → V a.pk (sigStructure c th ts mac) sig = true) ∧ (signs = false → sig = mac) := by
  unfold Authentic sigStructure
  rw [h1, h2]
  cases signs <;> simp

end Rfc

open Spec.Rfc Rfc

theorem run_one {s s' : St σ} {o : Op} {x : Out} (h : step E cfg o s = (.ok x, s')) : Run E cfg s [(o, .ok x)] s' :=
  .cons h defined_ok (.nil _)

theorem run_join {s s1 s2 : St σ} {h h' : History} (h1 : Run E cfg s h s1) (h2 : Run E cfg s1 h' s2) : Run E cfg s (h ++ h') s2 := by
  induction h1 with
  | nil s => exact h2
  | cons a b _ ih => exact .cons a b (ih h2)

theorem exports_of (H : Host P su k I E cfg) {t : Trace} {own pc : Cid} {c0 : Ctx} {s : St σ}
    (hs : AfterM3 su me (prk4e3m P su t) (th4 P t) pc c0 s.ctx) (h0 : c0.cid = own) (hj : I s.env)
    (hst : s.ctx.status = .completed ∨ s.ctx.status = .persisted) (tl : (th4 P t).length = su.hash)
    (pl : (prk4e3m P su t).length = su.hash) (c1 : CidOk cfg own) (c2 : CidOk cfg pc) {n : Nat} (hn : 65000 ≤ n) :
    Exports E cfg P su t own pc n s := by
  intro a b ha hb
  obtain ⟨o, s', h1, -, h2⟩ := exportOscore_wp (cfg' := cfg) H hs.live hs.keys.1 hs.keys.2 (by rw [hs.th]; exact tl)
    (by rw [hs.prk]; exact pl) hst hs.oscore (by rw [hs.cid, h0]; exact c1) (by rw [hs.peerCid]; exact c2)
    (secretLen_oh ha) (secretLen_oh hb) (by omega : 1003 ≤ n) ⟨rfl, hj⟩
  rw [hs.prk, hs.th, hs.peerCid, hs.cid, h0] at h2
  subst h2
  exact ⟨s', run_one (mapOut_ok.2 ⟨_, h1, rfl⟩)⟩

theorem prk3_length (h : P.Sized su) (t : Trace) : (prk3e2m P su t).length = su.hash := prk3e2m_length h _ _ _ _

theorem prk4_length (h : P.Sized su) (t : Trace) : (prk4e3m P su t).length = su.hash :=
  nextPrk_length h (prk3_length h t)

/-- SUITES_I -/
def suitesOf : List Int → Suites
  | [v] => .one v
  | l => .list l

theorem suitesOf_one (v : Int) : suitesOf [v] = .one v := rfl

theorem suitesOf_list {l : List Int} (h : 2 ≤ l.length) : suitesOf l = .list l := by
  match l, h with
  | _ :: _ :: _, _ => rfl

theorem values_suitesOf (l : List Int) : suiteValues (suitesOf l) = l := by
  unfold suitesOf
  split <;> rfl

theorem encSuites_of {l : List Int} (h : 1 ≤ l.length ∧ l.length ≤ 3) : encSuites (suitesOf l) = some (suitesItem l) := by
  match l, h with
  | [v], _ => rfl
  | [a, b], _ => rfl
  | [a, b, c], _ => rfl
  | a :: b :: c :: d :: l, h => simp at h

theorem encMsg1_of {l : List Int} {gx : Bytes} {ci : Cid} {ts : List EadTok} (h : 1 ≤ l.length ∧ l.length ≤ 3)
    (hc : CidOk cfg ci) (ht : ts.length ≤ 3) :
    encMsg1 ⟨(me : Int), suitesOf l, gx, ci, ts⟩ = some (message1 me l gx ci ts) := by
  unfold encMsg1
  simp only [encSuites_of h, (encCid_total hc).1, encEadOpt_total ht]
  rfl

theorem message1_pos (l : List Int) (gx : Bytes) (ci : Cid) (ts : List EadTok) : 0 < (message1 me l gx ci ts).length := by
  unfold message1
  simp only [List.length_append, encBstr_length]
  have := headLen_pos gx.length
  omega

theorem headLen_le9 (n : Nat) : headLen n ≤ 9 := by
  unfold headLen
  repeat' split
  all_goals omega

/-- a message_1 that can be taken -/
theorem recv1_of {l : List Int} {x : Bytes} {ci : Cid} {ts : List EadTok} (h : Takes1 cfg k su l ci ts) (hx : P.priv x) :
    Recv1 P su k cfg me (suitesOf l) ci x ts (message1 me l (P.pub x) ci ts) := by
  obtain ⟨n1, n2, n3⟩ := h.suites
  have h0 : 1 ≤ l.length := by
    cases l with
    | nil => exact absurd h.selected nofun
    | cons => simp
  refine ⟨hx, ⟨?_, by rw [values_suitesOf]; exact n3⟩, h.cid, ⟨h.ead.count.1, wire_of_eadOk h.ead⟩,
    encMsg1_of ⟨h0, n1⟩ h.cid h.ead.count.2, message1_pos _ _ _ _⟩
  by_cases hl : 2 ≤ l.length
  · rw [suitesOf_list hl]
    exact ⟨hl, n1, n2, h.selected⟩
  · obtain ⟨v, rfl⟩ := List.length_eq_one_iff.1 (by omega : l.length = 1)
    exact ⟨Option.some.inj h.selected, n2⟩

/-- SUITES_I of the library -/
theorem suitesI_of {c : Ctx} {l : List Suite} (h : suites c = l) (hn : c.csuiteLen = l.length) (h0 : 1 ≤ l.length)
    (hc : c.chosenIdx = c.csuiteLen - 1) : suitesI c = suitesOf (l.map Suite.value) := by
  unfold suitesI
  split
  · rename_i h1
    obtain ⟨a, rfl⟩ := List.length_eq_one_iff.1 (hn.symm.trans h1)
    have : c.suite = a := by
      unfold Ctx.suite
      rw [hc, h1]
      unfold suites at h
      rw [h1] at h
      cases hq : c.csuiteArr with
      | nil => rw [hq] at h; cases h
      | cons b q => rw [hq] at h; exact (List.cons.inj h).1
    rw [this]
    rfl
  · rename_i h1
    rw [suitesOf_list (by rw [List.length_map]; omega)]
    have : c.csuiteArr.take c.csuiteLen = l := h
    rw [this]

/-- **C59** (a handshake with any conforming Responder). Whatever the peer is: the library composes a message_1 of RFC 9528.
It accepts every message_2 that RFC 9528 admits as an answer to it, from the Responder the application knows, within the
library's limits. Its message_3 is one of RFC 9528, and it can export the keys of RFC 9528. It accepts every message_4 of
RFC 9528. The applications' signatures and primitives are those of `V` and `P`. -/
theorem C59_initiator (h : Local P V su k me (initiatorSigns me) (responderSigns me) I E cfg p i g peer c)
    (hm : g.methods.head? = some me) {s : St σ} (hj : I s.env) {n : Nat} (hn : 65000 ≤ n) :
    ∃ m1 x e1 s1, Run E cfg s (done g.calls ++ [(.compose1 n, .ok (.bytes m1))]) s1 ∧
      P.priv x ∧ m1 = message1 me (g.suites.map Suite.value) (P.pub x) g.cid e1 ∧
      ∀ t cR e2 sig2 m2, t.method = me → t.x = x → t.message1 = m1 → t.responder = peer → t.initiator = authOf p i →
        IsMessage2 P V su t cR e2 sig2 m2 → CidOk cfg cR → Takes k e2 sig2 t.plaintext2 → t.plaintext2.length ≤ k.expand →
        ∃ p3 e3 sig3 m3 s3, let t' := { t with plaintext3 := p3 }
          Run E cfg s1 [(.process2 m2, .ok .unit), (.compose3 n, .ok (.bytes m3))] s3 ∧
          IsMessage3 P V su t' e3 sig3 m3 ∧ Exports E cfg P su t' g.cid cR n s3 ∧
          ∀ e4 m4, IsMessage4 P su t' e4 m4 → EadOk k e4 →
            ∃ s4, Run E cfg s3 [(.process4 m4, .ok .unit)] s4 ∧ Exports E cfg P su t' g.cid cR n s4 := by
  have H : Host P su k I E cfg := ⟨h.honest, h.sized, h.suite, h.room, h.items, h.derive⟩
  obtain ⟨s0, r0, hI, e1, e2, e3, e4⟩ := configured (E := E) h.choice s
  obtain ⟨id1, id2, id3⟩ := denotes_sent h.denotes
  obtain ⟨jc, sent⟩ := h.peerOk.sent
  have zI := credSizes id2 h.credOk.room h.credOk.hashAlg h.credOk.size
  have zP := credSizes sent h.peerOk.room h.peerOk.hashAlg h.peerOk.size
  have cidI : CidOk cfg s0.ctx.cid := by rw [e2]; exact h.cid
  obtain ⟨m1, s1, q1, x, ts1, g1, a1, w1⟩ := message1Compose_wp H hI (by rw [e1]; exact hm) cidI
    (by omega : 60000 ≤ n) ⟨rfl, by rw [e4]; exact hj⟩
  refine ⟨m1, x, eadAlwaysValue ts1, s1, run_snoc r0 (o := .compose1 n) (mapOut_ok.2 ⟨m1, q1, rfl⟩) defined_ok, g1.key, ?_, ?_⟩
  · have hl := hI.suites
    have h3 := encMsg1_of (me := me) (cfg := cfg) (gx := P.pub x) (l := g.suites.map Suite.value)
      (ts := eadAlwaysValue ts1) ⟨by rw [List.length_map]; omega, by rw [List.length_map]; omega⟩ h.cid
      (by rw [(eadAlwaysValue_size g1.ead).1]; exact g1.ead.count.2)
    have h4 := g1.enc
    rw [suitesI_of (c := { s0.ctx with chosenIdx := s0.ctx.csuiteLen - 1 }) (l := g.suites) e3.2 e3.1 (by omega) rfl, e2,
      h3] at h4
    exact (Option.some.inj h4).symm
  intro t cR e2' sig2 m2 t1 t2 t3 t4 t5 f2 hcR w2 wx
  subst t1 t2 t3 t4
  let q : Identity := ⟨c, [], t.responder.sk, t.responder.pk⟩
  have hv : keysOf P su t = keys2 P su t.method (P.pub t.y) (P.hash t.message1) (P.dh t.x (P.pub t.y)) (P.dh q.sk (P.pub t.x)) := rfl
  obtain ⟨au1, au2⟩ := (authentic_iff h.same.1 h.same.2).1 f2.auth
  have rec2 : Recv2 P V su k t.method cfg q (idItem t.responder.id) cR (keysOf P su t) t.y e2' sig2 t.plaintext2 m2 := by
    refine ⟨f2.key, w2.ead, ⟨w2.sig, ?_, ?_⟩, ⟨_, tail_recv h.peerFits sig2 e2', ?_⟩, ⟨?_, ?_, wx⟩, f2.message⟩
    · rw [mac2_eq h.same.1 h.same.2]; exact au1
    · rw [mac2_eq h.same.1 h.same.2]; exact au2
    · rw [f2.plaintext]; simp
    · rw [f2.plaintext]
      simp only [List.length_append, encBstr_length]
      have := w2.sig
      omega
    · have := w2.ptxt; omega
  have kn : KnowsAs V (responderSigns t.method) I E q (idItem t.responder.id) := by
    refine ⟨fun e he => ?_, h.verify⟩
    rw [(idItem_recv h.peerFits).2.2]
    exact h.known e he
  obtain ⟨_, s2, q2, a2, a3, w3⟩ := message2Process_wp H h.method h.peerKey.1 h.peerKey.2 h.lawful kn zP h.peerOk.size hcR
    g1.key a1 hv rec2 ⟨rfl, w1⟩
  obtain ⟨m3, s3, q3, ts3, sig3, p3, g3, a4, a5, w4⟩ := message3Compose_wp H h.method h.owns zI h.credOk.size hcR cidI
    (prk3_length h.sized t) f2.key a2 a3 hn ⟨rfl, w3⟩
  have au : authOf p i = t.initiator := t5.symm
  let t' : Trace := { t with plaintext3 := p3 }
  have hsk : p.sk = t'.initiator.sk := by show p.sk = t.initiator.sk; rw [← au]; rfl
  have hcr : cred p.cred = t'.initiator.cred := by show _ = t.initiator.cred; rw [← au]; rfl
  have hid : idCred p.cred = t'.initiator.id.map := by show _ = t.initiator.id.map; rw [← au]; exact id1
  have hpk : p.pk = t'.initiator.pk := by show _ = t.initiator.pk; rw [← au]; rfl
  have hfl : i.field = t'.initiator.id.field := by show _ = t.initiator.id.field; rw [← au]; rfl
  have hth3 : P.hash (encBstr (keysOf P su t).th2 ++ t.plaintext2 ++ cred q.cred) = Spec.Rfc.th3 P t' := by
    show P.hash (_ ++ _ ++ cred c) = _
    rw [h.same.2]
    rfl
  simp only [hth3] at g3 a4
  have hprk : nextPrk P su 5 (initiatorSigns t.method) (keysOf P su t).prk3e2m (Spec.Rfc.th3 P t') (P.dh p.sk (P.pub t.y)) =
      prk4e3m P su t' := by rw [hsk]; rfl
  have hth4 : P.hash (encBstr (Spec.Rfc.th3 P t') ++ p3 ++ cred p.cred) = Spec.Rfc.th4 P t' := by rw [hcr]; rfl
  rw [hprk] at g3 a4
  rw [hth4] at a4
  refine ⟨p3, ts3, sig3, m3, s3, .cons (mapOut_ok.2 ⟨(), q2, rfl⟩) defined_ok (run_one (mapOut_ok.2 ⟨m3, q3, rfl⟩)),
    ⟨?_, ?_, g3.msg⟩, ?_, ?_⟩
  · have k1 := g3.auth.2
    have k2 := g3.auth.3
    rw [mac3_eq hid hcr] at k1 k2
    rw [hpk] at k1
    exact (authentic_iff hid hcr).2 ⟨k1, k2⟩
  · rw [← hfl]; exact tail_sent h.denotes g3.parts
  · exact exports_of H a4 e2 w4 (Or.inl a5) (h.sized.hash _) (prk4_length h.sized t') h.cid hcR hn
  · intro e4' m4 f4 he4
    obtain ⟨_, s4, q4, a6, w5⟩ := message4Process_wp H a4 (h.sized.hash _) (prk4_length h.sized t') a5 ⟨he4, f4⟩ ⟨rfl, w4⟩
    exact ⟨s4, run_one (mapOut_ok.2 ⟨(), q4, rfl⟩),
      exports_of H a6.toAfterM3 e2 w5 (Or.inr a6.done) (h.sized.hash _) (prk4_length h.sized t') h.cid hcR hn⟩

/-- **C59** (a handshake with any conforming Initiator). The library accepts every message_1 of RFC 9528 that selects its
cipher suite, within its limits, and answers with a message_2 of RFC 9528. It accepts every message_3 that RFC 9528 admits
as an answer, from the Initiator the application knows, can then export the keys of RFC 9528, and its message_4 is one of
RFC 9528. -/
theorem C59_responder (h : Local P V su k me (responderSigns me) (initiatorSigns me) I E cfg p i g peer c)
    (hm : me ∈ g.methods) (hx : (idCred p.cred).length + k.ead + 2100 ≤ k.expand) {s : St σ} (hj : I s.env) {n : Nat}
    (hn : 65000 ≤ n) {x : Bytes} {offered : List Int} {cI : Cid} {e1 : List EadTok} (hp : P.priv x)
    (h1 : Takes1 cfg k su offered cI e1) :
    ∃ y p2 e2 sig2 m2 s2, Run E cfg s (done g.calls ++
        [(.process1 (message1 me offered (P.pub x) cI e1), .ok .unit), (.compose2 n, .ok (.bytes m2))]) s2 ∧
      ∀ t, t.method = me → t.x = x → t.message1 = message1 me offered (P.pub x) cI e1 → t.responder = authOf p i →
        t.y = y → t.plaintext2 = p2 → t.initiator = peer →
        IsMessage2 P V su t g.cid e2 sig2 m2 ∧
        ∀ e3 sig3 m3, IsMessage3 P V su t e3 sig3 m3 → Takes k e3 sig3 t.plaintext3 →
          ∃ s3, Run E cfg s2 [(.process3 m3, .ok .unit)] s3 ∧ Exports E cfg P su t g.cid cI n s3 ∧
            ∃ e4 m4 s4, Run E cfg s3 [(.compose4 n, .ok (.bytes m4))] s4 ∧ IsMessage4 P su t e4 m4 ∧
              Exports E cfg P su t g.cid cI n s4 := by
  have H : Host P su k I E cfg := ⟨h.honest, h.sized, h.suite, h.room, h.items, h.derive⟩
  obtain ⟨s0, r0, hI, g1, g2, g3, g4⟩ := configured (E := E) h.choice s
  obtain ⟨id1, id2, id3⟩ := denotes_sent h.denotes
  obtain ⟨jc, sent⟩ := h.peerOk.sent
  have zI := credSizes id2 h.credOk.room h.credOk.hashAlg h.credOk.size
  have zP := credSizes sent h.peerOk.room h.peerOk.hashAlg h.peerOk.size
  have cid0 : CidOk cfg s0.ctx.cid := by rw [g2]; exact h.cid
  have rec1 : Recv1 P su k cfg me (suitesOf offered) cI x e1 _ := recv1_of h1 hp
  generalize hm1 : message1 me offered (P.pub x) cI e1 = m1 at rec1 ⊢
  obtain ⟨_, s1, q1, b1, w1⟩ := message1Process_wp H hI (by rw [g1]; exact hm) h.method rec1 ⟨rfl, by rw [g4]; exact hj⟩
  obtain ⟨m2, s2, q2, y, ts2, sig2, p2, f2, b2, b3, b4, w2⟩ := message2Compose_wp H h.lawful h.method h.owns zI
    h.credOk.size cid0 hx hp b1 hn ⟨rfl, w1⟩
  refine ⟨y, p2, ts2, sig2, m2, s2, ?_, ?_⟩
  · have k1 := run_snoc r0 (o := .process1 m1) (mapOut_ok.2 ⟨(), q1, rfl⟩) defined_ok
    have k2 := run_snoc k1 (o := .compose2 n) (mapOut_ok.2 ⟨m2, q2, rfl⟩) defined_ok
    simpa using k2
  intro t t1 t2 t3 t4 t5 t6 t7
  subst t1 t2 t3 t5 t6 t7
  have hsk : p.sk = t.responder.sk := by rw [t4]; rfl
  have hcr : cred p.cred = t.responder.cred := by rw [t4]; rfl
  have hid : idCred p.cred = t.responder.id.map := by rw [t4]; exact id1
  have hpk : p.pk = t.responder.pk := by rw [t4]; rfl
  have hfl : i.field = t.responder.id.field := by rw [t4]; rfl
  have hv : keys2 P su t.method (P.pub t.y) (P.hash t.message1) (P.dh t.x (P.pub t.y)) (P.dh p.sk (P.pub t.x)) =
      keysOf P su t := by rw [hsk]; rfl
  simp only [hv] at f2 b2
  refine ⟨⟨f2.key, ?_, ?_, f2.msg⟩, ?_⟩
  · have k1 := f2.auth.2
    have k2 := f2.auth.3
    rw [mac2_eq hid hcr, g2] at k1 k2
    rw [hpk] at k1
    exact (authentic_iff hid hcr).2 ⟨k1, k2⟩
  · obtain ⟨_, ht, hq⟩ := f2.parts
    rw [hq, tail_sent h.denotes ht, hfl, g2]
    simp
  intro e3 sig3 m3 f3 w3
  let q : Identity := ⟨c, [], t.initiator.sk, t.initiator.pk⟩
  have kn : KnowsAs V (initiatorSigns t.method) I E q (idItem t.initiator.id) := by
    refine ⟨fun e he => ?_, h.verify⟩
    rw [(idItem_recv h.peerFits).2.2]
    exact h.known e he
  obtain ⟨au1, au2⟩ := (authentic_iff h.same.1 h.same.2).1 f3.auth
  have hth3 : th3 P t = P.hash (encBstr (keysOf P su t).th2 ++ t.plaintext2 ++ cred p.cred) := by rw [hcr]; rfl
  have rec3 : Recv3 P V su k t.method cfg q (idItem t.initiator.id) (prk3e2m P su t) (prk4e3m P su t) (th3 P t) e3 sig3
      t.plaintext3 m3 := by
    refine ⟨w3.ead, ⟨w3.sig, ?_, ?_⟩, ?_, ⟨?_, w3.ptxt⟩, f3.message⟩
    · rw [mac3_eq h.same.1 h.same.2]; exact au1
    · rw [mac3_eq h.same.1 h.same.2]; exact au2
    · rw [f3.plaintext]; exact tail_recv h.peerFits sig3 e3
    · rw [f3.plaintext]
      simp only [List.length_append, encBstr_length]
      have := w3.sig
      omega
  obtain ⟨_, s3, q3, b5, b6, w4⟩ := message3Process_wp H h.method h.peerKey.1 h.peerKey.2 h.lawful kn zP h.peerOk.size cid0
    (prk3_length h.sized t) b2 b3 b4 f2.key hth3 rfl rec3 ⟨rfl, w2⟩
  have hth4 : P.hash (encBstr (th3 P t) ++ t.plaintext3 ++ cred q.cred) = th4 P t := by
    show P.hash (_ ++ _ ++ cred c) = _
    rw [h.same.2]
    rfl
  rw [hth4] at b5
  refine ⟨s3, run_one (mapOut_ok.2 ⟨(), q3, rfl⟩),
    exports_of H b5 g2 w4 (Or.inl b6) (h.sized.hash _) (prk4_length h.sized t) h.cid h1.cid hn, ?_⟩
  obtain ⟨m4, s4, q4, ts4, f4, b7, w5⟩ := message4Compose_wp H b5 (h.sized.hash _) (prk4_length h.sized t) b6 hn ⟨rfl, w4⟩
  exact ⟨ts4, m4, s4, run_one (mapOut_ok.2 ⟨m4, q4, rfl⟩), f4.msg,
    exports_of H b7.toAfterM3 g2 w5 (Or.inr b7.done) (h.sized.hash _) (prk4_length h.sized t) h.cid h1.cid hn⟩

/-! ## The toy party and a peer on paper -/

namespace Toy

/-- a party that authenticates with a key identifier of two bytes, and knows a peer with one of one byte -/
def carol : Party where
  cred := .kid [0x41, 0x42] false (.bstr [1, 2])
  sk := [0, 9]
  eph := [1, 77]
  db c := if c = .kid [] false (.int (-11)) then some (.kid [0xa0] true (.bstr [0x2a]), dhPub [0, 23]) else none
  ead m := if m = .msg1 then [⟨1, some [7]⟩] else if m = .msg3 then [⟨-3, none⟩] else []
  noMem _ := false

@[inherit_doc carol] def idC : Identity := ⟨.kid [0x41, 0x42] false (.bstr [1, 2]), [0, 9], [0, 9], dhPub [0, 9]⟩

/-- the peer: ID_CRED = { 4 : h'2a' }, sent as the integer -11 -/
def paper : Auth := ⟨.kid [0x2a], [0xa0], [0, 23], dhPub [0, 23]⟩

theorem localParty {m : Nat} (hm : m < 4) (a b : Bool) :
    Local prims valid suite bounds m a b (fun _ => True) (env carol) Toy.cfg idC (.kid [1, 2]) (choice m (.int 5)) paper
      (.kid [0xa0] true (.bstr [0x2a])) where
  method := hm
  lawful := lawful
  suite := suiteOk
  sized := sized
  honest := honest (fun _ => rfl) (by intro m; cases m <;> exact ⟨by decide, by decide, by decide⟩) rfl
  room := ⟨by decide, by decide, Or.inl rfl⟩
  items := by decide
  derive := by decide
  choice := (parties hm).choiceI
  cid := ⟨by decide, by decide⟩
  owns := owns rfl rfl rfl rfl
  denotes := .kid _ rfl (by unfold SizeOk; decide)
  credOk := ⟨⟨_, (denotes_sent (.kid _ rfl (by unfold SizeOk; decide))).2.1⟩, show 3 ≤ 4 by decide, show 3 ≤ 4 by decide, nofun, by decide +kernel⟩
  peerKey := ⟨by decide, fun _ => ⟨rfl, trivial⟩⟩
  known _ _ := ⟨rfl, trivial⟩
  same := ⟨rfl, rfl⟩
  verify _ _ _ := ⟨_, rfl, fun _ _ _ h => ⟨h, trivial⟩⟩
  peerOk := ⟨⟨_, (denotes_sent (.kidInt _ (by decide))).2.1⟩, ⟨by decide, by decide⟩, ⟨by decide, by decide⟩, nofun, by decide +kernel⟩
  peerFits := ⟨by decide, by unfold SizeOk; decide⟩

theorem authentic (signs : Bool) (th : Bytes) (e : List EadTok) {mac : Bytes} (h : 0 < mac.length ∧ mac.length ≤ 1000) :
    ∃ sig, Authentic valid signs paper th e mac sig ∧ 0 < sig.length ∧ sig.length ≤ 1000 := by
  unfold Authentic
  cases signs
  · exact ⟨mac, by simp, h⟩
  · exact ⟨_, by simp only [if_true]; exact decide_eq_true rfl, by rw [tag_length]; decide, by rw [tag_length]; decide⟩

theorem macLen (s : Bool) (n : Nat) (h : n = if s then suite.hash else suite.mac) : 0 < n ∧ n ≤ 1000 := by
  subst h; cases s <;> decide

end Toy

/-- The premises of C59 can be met, for each method: a handshake with a Responder on paper. -/
example (m : Nat) (hm : m < 4) : ∃ m1 m2 m3 m4 secret salt s',
    Run (Toy.env Toy.carol) Toy.cfg Toy.start (done (Toy.choice m (.int 5)).calls ++
      [(.compose1 65000, .ok (.bytes m1)), (.process2 m2, .ok .unit), (.compose3 65000, .ok (.bytes m3)),
        (.process4 m4, .ok .unit), (.exportOscore 16 8 65000 65000, .ok (.oscore ⟨secret, salt, [0x18, 9], [5]⟩))]) s' := by
  obtain ⟨m1, x, e1, s1, r1, -, -, h1⟩ := C59_initiator (Toy.localParty hm _ _) rfl (s := Toy.start) trivial
    (Nat.le_refl 65000)
  let t0 : Trace := ⟨m, x, [0, 200], m1, Toy.paper, authOf Toy.idC (.kid [1, 2]), [], []⟩
  obtain ⟨sig, a1, a2⟩ := Toy.authentic (responderSigns m) (Spec.Rfc.th2 Toy.prims t0) []
    (mac := Spec.Rfc.mac2 Toy.prims Toy.suite t0 (.bstr [0x18, 9]) [])
    (Toy.macLen (responderSigns m) _ (Toy.sized.expand _ _ _))
  let t : Trace := { t0 with plaintext2 := cidItem (.bstr [0x18, 9]) ++ Toy.paper.id.field ++ encBstr sig ++ ead [] }
  have hl : t.plaintext2.length ≤ 1100 := by
    show (_ ++ _ ++ encBstr sig ++ _ : Bytes).length ≤ _
    have h1 : (cidItem (.bstr [0x18, 9])).length = 3 := rfl
    have h2 : Toy.paper.id.field.length = 1 := rfl
    have h3 : (ead []).length = 0 := rfl
    have h4 := headLen_le9 sig.length
    simp only [List.length_append, encBstr_length, h1, h2, h3]
    omega
  obtain ⟨p3, e3, sig3, m3, s3, r3, -, -, h3⟩ := h1 t (.bstr [0x18, 9]) [] sig _ rfl rfl rfl rfl rfl ⟨trivial, a1, rfl, rfl⟩
    ⟨by decide, by decide⟩ ⟨⟨by decide, by decide, by decide⟩, a2, by omega⟩ (Nat.le_trans hl (by decide))
  obtain ⟨s4, r4, h4⟩ := h3 [] _ rfl ⟨by decide, by decide, by decide⟩
  obtain ⟨s5, r5⟩ := h4 16 8 ⟨by decide, Or.inl (by decide)⟩ ⟨by decide, Or.inl (by decide)⟩
  rw [show oscoreIdOf (.bstr [0x18, 9]) = [0x18, 9] from rfl,
    show oscoreIdOf (Toy.choice m (.int 5)).cid = [5] from by simp [Toy.choice, oscoreIdOf]; decide +kernel] at r5
  have := run_join r1 (run_join r3 (run_join r4 r5))
  exact ⟨_, _, _, _, _, _, _, by simpa using this⟩

/-- The same with an Initiator on paper, who offers two cipher suites. -/
example (m : Nat) (hm : m < 4) : ∃ m1 m2 m3 m4 secret salt s',
    Run (Toy.env Toy.carol) Toy.cfg Toy.start (done (Toy.choice m (.int 5)).calls ++
      [(.process1 m1, .ok .unit), (.compose2 65000, .ok (.bytes m2)), (.process3 m3, .ok .unit),
        (.compose4 65000, .ok (.bytes m4)), (.exportOscore 16 8 65000 65000, .ok (.oscore ⟨secret, salt, [0x18, 9], [5]⟩))]) s' := by
  obtain ⟨y, p2, e2, sig2, m2, s2, r2, h2⟩ := C59_responder (Toy.localParty hm _ _) (by simp [Toy.choice]) (by decide +kernel)
    (s := Toy.start) trivial (Nat.le_refl 65000) (x := [1, 77]) (offered := [24, 2]) (cI := .bstr [0x18, 9]) (e1 := [])
    trivial ⟨rfl, ⟨by decide, by decide, by decide⟩, ⟨by decide, by decide⟩, ⟨by decide, by decide, by decide⟩⟩
  let t0 : Trace := ⟨m, [1, 77], y, message1 m [24, 2] (Toy.dhPub [1, 77]) (.bstr [0x18, 9]) [], authOf Toy.idC (.kid [1, 2]), Toy.paper, p2, []⟩
  obtain ⟨sig, a1, a2⟩ := Toy.authentic (initiatorSigns m) (Spec.Rfc.th3 Toy.prims t0) []
    (mac := Spec.Rfc.mac3 Toy.prims Toy.suite t0 [])
    (Toy.macLen (initiatorSigns m) _ (Toy.sized.expand _ _ _))
  let t : Trace := { t0 with plaintext3 := Toy.paper.id.field ++ encBstr sig ++ ead [] }
  have hl : t.plaintext3.length ≤ 1100 := by
    show (_ ++ encBstr sig ++ _ : Bytes).length ≤ _
    have h2 : Toy.paper.id.field.length = 1 := rfl
    have h3 : (ead []).length = 0 := rfl
    have h4 := headLen_le9 sig.length
    simp only [List.length_append, encBstr_length, h2, h3]
    omega
  obtain ⟨s3, r3, -, e4, m4, s4, r4, -, h4⟩ := (h2 t rfl rfl rfl rfl rfl rfl rfl).2 [] sig _ ⟨a1, rfl, rfl⟩
    ⟨⟨by decide, by decide, by decide⟩, a2, by omega⟩
  obtain ⟨s5, r5⟩ := h4 16 8 ⟨by decide, Or.inl (by decide)⟩ ⟨by decide, Or.inl (by decide)⟩
  rw [show oscoreIdOf (.bstr [0x18, 9]) = [0x18, 9] from rfl,
    show oscoreIdOf (Toy.choice m (.int 5)).cid = [5] from by simp [Toy.choice, oscoreIdOf]; decide +kernel] at r5
  have := run_join r2 (run_join r3 (run_join r4 r5))
  exact ⟨_, _, _, _, _, _, _, by simpa using this⟩

end Verif
