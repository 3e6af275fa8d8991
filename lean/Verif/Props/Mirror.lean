import Verif.Props.Agree
import Verif.CborRound

/-!
# C14: the identifiers of the two peers
-/

namespace Verif

open M Spec

variable {σ τ : Type}

/-- What is known of the two sides of one handshake: both views, with the same values. -/
structure BothSides (cI cR : Config) (LI LR : List Ev) (xI xR : Ctx) (hI hR : History) (n1 n2 n3 : Nat) (m1 m2 m3 : Bytes)
    (x kidI pkR y kidR pkI : Bytes) (v w : Values) : Prop where
  sent1 : (.compose1 n1, .ok (.bytes m1)) ∈ hI
  got1 : (.process1 m1, .ok .unit) ∈ hR
  sent2 : (.compose2 n2, .ok (.bytes m2)) ∈ hR
  got2 : (.process2 m2, .ok .unit) ∈ hI
  sent3 : (.compose3 n3, .ok (.bytes m3)) ∈ hI
  got3 : (.process3 m3, .ok .unit) ∈ hR
  size1 : SizeOk m1
  size2 : SizeOk m2
  size3 : SizeOk m3
  viewI : InitiatorView LI xI.suite xI.chosenMethod m1 m2 m3 x kidI pkR v
  viewR : ResponderView LR xR.suite xR.chosenMethod m1 m2 m3 y kidR pkI w
  moreI : InitiatorMore cI LI xI m1 pkR v
  moreR : ResponderMore cR LR xR m1 pkI w
  method : xI.chosenMethod = xR.chosenMethod
  ptxt2 : v.ptxt2 = w.ptxt2
  ptxt3 : v.ptxt3 = w.ptxt3

section

variable {EI : Env σ} {ER : Env τ} {cI cR : Config} {eI : σ} {eR : τ} {logI logR : List Ev} {hI hR : History}
  {sI : St σ} {sR : St τ} {P : Prims} {kI kR : Bytes → Bytes}

theorem both_views (fI : Proper EI cI eI logI hI sI) (fR : Proper ER cR eR logR hR sR)
    (hi : AsInitiator hI) (hr : AsResponder hR) (hsu : sR.ctx.suite = sI.ctx.suite)
    (p : Peers P kI kR sI.ctx.chosenMethod (sessionCalls logI sI) (sessionCalls logR sR) hI hR) :
    ∃ n1 n2 n3 m1 m2 m3 x kidI pkR y kidR pkI v w,
      BothSides cI cR (sessionCalls logI sI) (sessionCalls logR sR) sI.ctx sR.ctx hI hR n1 n2 n3 m1 m2 m3 x kidI pkR y kidR pkI
        v w := by
  obtain ⟨n1, n3, m1, m2, m3, x, kid, pk, v, a1, a2, a3, iv, _, mi⟩ :=
    initiator_session fI.session fI.settled hi fI.regular fI.numbers fI.short
  obtain ⟨n2, m1', m2', m3', y, kid', pk', w, b1, b2, b3, rv, _, mr⟩ :=
    responder_session fR.session fR.settled hr fR.regular fR.short
  cases p.delivered.message1 a1 b1
  cases p.delivered.message2 b2 a2
  cases p.delivered.message3 a3 b3
  have s1 : SizeOk m1 := by have := (fI.short _ a1).2 m1 rfl; unfold SizeOk; omega
  have s2 : SizeOk m2 := by have := (fR.short _ b2).2 m2 rfl; unfold SizeOk; omega
  have s3 : SizeOk m3 := by have := (fI.short _ a3).2 m3 rfl; unfold SizeOk; omega
  have rv' := rv
  rw [hsu] at rv'
  obtain ⟨em, _, _, _, _, _, _, _, _, _, _, e2, e3⟩ := views_agree p iv rv' s2 s3
  exact ⟨n1, n2, n3, m1, m2, m3, x, kid, pk, y, kid', pk', v, w, a1, b1, b2, a2, a3, b3, s1, s2, s3, iv, rv, mi, mr, em,
    e2, e3⟩

/-- message_1 is decoded as far as C_I, whatever follows it -/
theorem getMsg1_ci {d : DecCfg} {m : Msg1} {b : Bytes} (h : encMsg1 m = some b) (hm : Int32Range m.method)
    (hs : ∀ v ∈ suiteValues m.suites, Int32Range v) (hb : SizeOk b) :
    (getMsg1 d b).2.ci = m.ci ∧ (getMsg1 d b).2.method = m.method ∧ (getMsg1 d b).2.suites = m.suites ∧
      (getMsg1 d b).2.gx = m.gx := by
  unfold encMsg1 at h
  split at h
  · rename_i su ci ea h1 h2 h3
    simp only [Option.some.injEq] at h
    subst h
    have hg : SizeOk m.gx := by
      unfold SizeOk at *; simp only [List.length_append, encBstr_length] at hb; omega
    have hc : ∀ x, m.ci = .bstr x → SizeOk x := by
      intro x hx
      rw [hx] at h2
      simp only [encCid, Option.some.injEq] at h2
      subst h2
      unfold SizeOk at *; simp only [List.length_append, encBstr_length] at hb; omega
    simp only [List.append_assoc]
    simp only [getMsg1, getInt_encInt _ hm, getSuites_encSuites h1 hs, getBstr_encBstr _ hg, getCid_encCid h2 hc, and_self]
  · simp at h

theorem ownCid_enc {cfg : Config} {c : Ctx} (h : OwnCid cfg c) : encCid c.cid = some (cidItem c.cid) := by
  unfold OwnCid documented at h
  unfold encCid cidItem
  cases hc : c.cid with
  | int v => rw [hc] at h; simp only at h ⊢; rw [if_pos h]
  | bstr b => rfl

/-- Each side holds the connection identifier the other configured. -/
theorem BothSides.cids {LI LR : List Ev} {xI xR : Ctx} {n1 n2 n3 : Nat} {m1 m2 m3 x kidI pkR y kidR pkI : Bytes} {v w : Values}
    (b : BothSides cI cR LI LR xI xR hI hR n1 n2 n3 m1 m2 m3 x kidI pkR y kidR pkI v w) :
    xR.peerCid = xI.cid ∧ xI.peerCid = xR.cid := by
  constructor
  · obtain ⟨su, ts, _, hv, he, hm, _⟩ := b.moreI.msg1
    rw [← b.moreR.msg1.1]
    exact (getMsg1_ci he (by simp only [Int32Range]; omega) hv b.size1).1
  · obtain ⟨p, _, hp, _⟩ := b.moreI.msg2
    obtain ⟨_, _, t, _, _, ht⟩ := b.moreR.msg2
    obtain ⟨_, b2, r, ⟨c, q, hc, _, rfl⟩, hb⟩ := getPtxt2_sound hp
    rw [b.ptxt2, ht] at hb
    have hs : ∀ z, xR.cid = .bstr z → SizeOk z := by
      intro z hz
      obtain ⟨ks, d0, d2, _⟩ := b.viewR.message2
      have s2 := b.size2
      have d1 : (xorBytes w.ptxt2 ks).length = w.ptxt2.length := xorBytes_length d0.1
      rw [d2] at s2
      unfold SizeOk at *
      rw [encBstr_length, List.length_append, d1, ht, hz] at s2
      simp only [cidItem, List.length_append, encBstr_length] at s2
      omega
    have hi := encCid_item (ownCid_enc b.moreR.own) hs
    rw [List.append_assoc] at hb
    exact (cidItem_unamb hi hc hb).1.symm

/-- calls that are not message calls carry no messages -/
theorem delivered_snoc {a b : Op × Res Out} (h : Delivered hI hR) (ha : callOf a.1 = none) (hb : callOf b.1 = none) :
    Delivered (hI ++ [a]) (hR ++ [b]) := by
  have k : ∀ {l : History} {q r : Op × Res Out} {c : Call}, callOf r.1 = none → callOf q.1 = some c → q ∈ l ++ [r] → q ∈ l := by
    intro l q r c hr hq hm
    rw [List.mem_append] at hm
    rcases hm with hm | hm
    · exact hm
    · simp only [List.mem_singleton] at hm
      subst hm
      rw [hr] at hq
      cases hq
  exact ⟨fun h1 h2 => h.message1 (k ha (c := .compose1) rfl h1) (k hb (c := .process1) rfl h2),
    fun h1 h2 => h.message2 (k hb (c := .compose2) rfl h1) (k ha (c := .process2) rfl h2),
    fun h1 h2 => h.message3 (k ha (c := .compose3) rfl h1) (k hb (c := .process3) rfl h2)⟩

theorem messages_snoc {h : History} {a : Op × Res Out} (ha : callOf a.1 = none) : messages (h ++ [a]) = messages h := by
  unfold messages
  rw [List.filterMap_append]
  simp [succeeded, ha]

/-- **C14**. Peers that completed the handshake with each other, and made the same key updates since, export the same
OSCORE master secret and master salt. The sender identifier of each is the recipient identifier of the other. -/
theorem C14_mirrored {a b c d c' d' : Nat} {oI oR : Oscore}
    (fI : Proper EI cI eI logI (hI ++ [(.exportOscore a b c d, .ok (.oscore oI))]) sI)
    (fR : Proper ER cR eR logR (hR ++ [(.exportOscore a b c' d', .ok (.oscore oR))]) sR)
    (hi : AsInitiator hI) (hr : AsResponder hR) (hsu : sR.ctx.suite = sI.ctx.suite)
    (p : Peers P kI kR sI.ctx.chosenMethod (sessionCalls logI sI) (sessionCalls logR sR) hI hR)
    (hu : updates hI = updates hR) (ha : a < 2 ^ 32) (hb : b < 2 ^ 32) :
    oI.secret = oR.secret ∧ oI.salt = oR.salt ∧ oI.sid = oR.rid ∧ oI.rid = oR.sid := by
  obtain ⟨h1, h2⟩ := C14_same_secrets fI fR hi hr hsu p hu ha hb
  obtain ⟨_, _, _, _, i1, i2, _⟩ := C14_oscore_export fI.session fI.settled (asInitiator_complete hi)
    fI.regular fI.numbers fI.short ha hb
  obtain ⟨_, _, _, _, j1, j2, _⟩ := C14_oscore_export fR.session fR.settled (asResponder_complete hr)
    fR.regular fR.numbers fR.short ha hb
  obtain ⟨_, _, _, _, _, _, _, _, _, _, _, _, _, _, both⟩ := both_views fI fR
    (by unfold AsInitiator at *; rwa [messages_snoc rfl]) (by unfold AsResponder at *; rwa [messages_snoc rfl]) hsu
    ⟨p.lawful, p.faithfulI, p.faithfulR, delivered_snoc p.delivered rfl rfl, p.credR, p.credI⟩
  obtain ⟨e1, e2⟩ := both.cids
  exact ⟨h1, h2, by rw [i1, j2, e2], by rw [i2, j1, e1]⟩

end

/-! ## Example -/

/-- method 1, after a key update -/
example : ∃ a b, (step (Toy.env Toy.alice) Toy.cfg (.exportOscore 16 8 4 4)
      (Toy.after Toy.alice (Toy.callsI 1 ++ [.keyUpdate [3]]))).1 = .ok (.oscore a) ∧
    (step (Toy.env Toy.bob) Toy.cfg (.exportOscore 16 8 4 4)
      (Toy.after Toy.bob (Toy.callsR 1 ++ [.keyUpdate [3]]))).1 = .ok (.oscore b) ∧
    a.secret = b.secret ∧ a.salt = b.salt ∧ a.sid = b.rid ∧ a.rid = b.sid := by
  obtain ⟨a, ha⟩ : ∃ a, (step (Toy.env Toy.alice) Toy.cfg (.exportOscore 16 8 4 4)
      (Toy.after Toy.alice (Toy.callsI 1 ++ [.keyUpdate [3]]))).1 = .ok (.oscore a) :=
    ⟨Toy.oscoreOf (step (Toy.env Toy.alice) Toy.cfg (.exportOscore 16 8 4 4)
      (Toy.after Toy.alice (Toy.callsI 1 ++ [.keyUpdate [3]]))).1, by decide +kernel⟩
  obtain ⟨b, hb⟩ : ∃ b, (step (Toy.env Toy.bob) Toy.cfg (.exportOscore 16 8 4 4)
      (Toy.after Toy.bob (Toy.callsR 1 ++ [.keyUpdate [3]]))).1 = .ok (.oscore b) :=
    ⟨Toy.oscoreOf (step (Toy.env Toy.bob) Toy.cfg (.exportOscore 16 8 4 4)
      (Toy.after Toy.bob (Toy.callsR 1 ++ [.keyUpdate [3]]))).1, by decide +kernel⟩
  refine ⟨a, b, ha, hb, ?_⟩
  have fI := Toy.proper_last (by decide +kernel) ha
  have fR := Toy.proper_last (by decide +kernel) hb
  refine C14_mirrored fI fR (List.isPrefixOf_iff_prefix.1 (by decide +kernel))
    (List.isPrefixOf_iff_prefix.1 (by decide +kernel)) (by decide +kernel)
    (P := Toy.prims) (kI := id) (kR := id) ?_ (by decide +kernel) (by decide) (by decide)
  have e : (Toy.after Toy.alice (Toy.callsI 1 ++ [.keyUpdate [3]] ++ [.exportOscore 16 8 4 4])).ctx.chosenMethod = 1 := by
    decide +kernel
  rw [e]
  have p := Toy.peers_of (method := 1) (opsI := Toy.callsI 1 ++ [.keyUpdate [3]] ++ [.exportOscore 16 8 4 4])
    (opsR := Toy.callsR 1 ++ [.keyUpdate [3]] ++ [.exportOscore 16 8 4 4]) (by decide +kernel)
  exact ⟨p.lawful, p.faithfulI, p.faithfulR, Toy.delivered_of (by decide +kernel), p.credR, p.credI⟩

end Verif
