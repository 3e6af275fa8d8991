import Verif.Props.Keys
import Verif.SpecPrims
import Verif.ToyPeers

/-!
# C11, C13, C16: both parties derive the same keys
-/

namespace Verif

open M Spec

variable {σ τ : Type}

theorem startsMessage1_unique {me me' : Int} {su su' : Suites} {gx gx' m : Bytes} (h : StartsMessage1 me su gx m)
    (h' : StartsMessage1 me' su' gx' m) : me = me' ∧ su = su' ∧ gx = gx' := by
  obtain ⟨a, b, c, r, h1, h2, h3, rfl⟩ := h
  obtain ⟨a', b', c', r', h1', h2', h3', e⟩ := h'
  simp only [List.append_assoc] at e
  obtain ⟨rfl, _, e⟩ := intItem_unamb h1 h1' e
  obtain ⟨rfl, _, e⟩ := suitesItem_unamb h2 h2' e
  obtain ⟨rfl, _, e⟩ := bstrItem_unamb h3 h3' e
  exact ⟨rfl, rfl, rfl⟩

theorem xorBytes_length {a b : Bytes} (h : b.length = a.length) : (xorBytes a b).length = a.length := by
  simp [xorBytes, h]

theorem xorBytes_invol {a b : Bytes} (h : b.length = a.length) : xorBytes (xorBytes a b) b = a := by
  unfold xorBytes
  induction a generalizing b with
  | nil => rfl
  | cons x a ih =>
    cases b with
    | nil => simp at h
    | cons y b =>
      simp only [List.zipWith_cons_cons, List.cons.injEq]
      refine ⟨?_, ih (by simpa using h)⟩
      rw [UInt8.xor_assoc, UInt8.xor_self, UInt8.xor_zero]

/-- the next key in the key schedule, on both sides -/
theorem nextKey_agree {P : Prims} {sI sR : Bytes → Bytes} {LI LR : List Ev} {label n : Nat} {signs : Bool}
    {prk th a b : Bytes} {gI gR : Bytes → Prop} (fI : Faithful P sI LI) (fR : Faithful P sR LR)
    (hI : NextKey LI label signs prk th n gI a) (hR : NextKey LR label signs prk th n gR b)
    (hg : signs = false → ∀ x y, gI x → gR y → x = y) : a = b := by
  unfold NextKey at hI hR
  cases signs with
  | true => simp only [if_true] at hI hR; rw [hI, hR]
  | false =>
    simp only [Bool.false_eq_true, if_false] at hI hR
    obtain ⟨s1, g1, e1, a1, x1⟩ := hI
    obtain ⟨s2, g2, e2, a2, x2⟩ := hR
    rw [fI.extract x1, fR.extract x2, fI.expand e1, fR.expand e2, hg rfl _ _ a1 a2]

/-- The views of an Initiator and a Responder of the same handshake have the same values. -/
theorem views_agree {P : Prims} {sI sR : Bytes → Bytes} {LI LR : List Ev} {hI hR : History} {su : Suite}
    {meI meR : Nat} {m1 m2 m3 x kidI pkR y kidR pkI : Bytes} {v w : Values} (p : Peers P sI sR meI LI LR hI hR)
    (iv : InitiatorView LI su meI m1 m2 m3 x kidI pkR v) (rv : ResponderView LR su meR m1 m2 m3 y kidR pkI w)
    (s2 : SizeOk m2) (s3 : SizeOk m3) :
    meI = meR ∧ v.gx = w.gx ∧ v.gy = w.gy ∧ v.gxy = w.gxy ∧ v.th1 = w.th1 ∧ v.th2 = w.th2 ∧ v.th3 = w.th3 ∧ v.th4 = w.th4 ∧
      v.prk2e = w.prk2e ∧ v.prk3e2m = w.prk3e2m ∧ v.prk4e3m = w.prk4e3m ∧ v.ptxt2 = w.ptxt2 ∧ v.ptxt3 = w.ptxt3 := by
  obtain ⟨law, fI, fR, _, kR, kI⟩ := p
  obtain ⟨l1, a1⟩ := iv.message1
  obtain ⟨l2, a2⟩ := rv.message1
  obtain ⟨e1, _, eg⟩ := startsMessage1_unique a1 a2
  have em : meI = meR := by exact_mod_cast e1
  subst em
  have et1 : v.th1 = w.th1 := by rw [fI.hash iv.transcript.th1, fR.hash rv.transcript.th1]
  -- message 2
  obtain ⟨c2, ksI, b1, b2, b3, b4⟩ := iv.message2
  obtain ⟨ksR, d1, d2, d3⟩ := rv.message2
  have sz : SizeOk (w.gy ++ xorBytes w.ptxt2 ksR) := by
    unfold SizeOk at *
    rw [d2, encBstr_length] at s2
    omega
  have hb := startsBstr_unique b1 ⟨_, [], encBstr_item sz, by rw [List.append_nil]; exact d2⟩
  obtain ⟨ey, ec⟩ := List.append_inj hb (by rw [b2, d3])
  have et2 : v.th2 = w.th2 := by rw [fI.hash iv.transcript.th2, fR.hash rv.transcript.th2, ey, et1]
  have exy : v.gxy = w.gxy := by
    rw [fI.agree iv.agreed, fR.agree rv.agreed, ey, ← eg, (fI.keyPair iv.ephemeral).1, (fR.keyPair rv.ephemeral).1,
      law.dh _ _ (fI.keyPair iv.ephemeral).2 (fR.keyPair rv.ephemeral).2]
  have e2e : v.prk2e = w.prk2e := by
    rw [fI.extract iv.keys.prk2e, fR.extract rv.keys.prk2e, et2, exy]
  have ep2 : v.ptxt2 = w.ptxt2 := by
    have hl : c2.length = w.ptxt2.length := by rw [ec, xorBytes_length d1.1]
    have : ksI = ksR := by rw [fI.expand b3, fR.expand d1, hl, et2, e2e]
    rw [b4, ec, this, xorBytes_invol d1.1]
  obtain ⟨idR, hR⟩ := iv.accepted
  obtain ⟨idI, hI⟩ := rv.accepted
  obtain ⟨cR, pR⟩ := kR rv.supplied hR
  obtain ⟨cI, pI⟩ := kI iv.supplied hI
  have et3 : v.th3 = w.th3 := by rw [fI.hash iv.transcript.th3, fR.hash rv.transcript.th3, et2, ep2, cR]
  have e3 : v.prk3e2m = w.prk3e2m := by
    have k := iv.keys.prk3e2m
    rw [e2e, et2] at k
    refine nextKey_agree fI fR k rv.keys.prk3e2m fun hs a b ha hb => ?_
    obtain ⟨p1, p2⟩ := pR (by rw [hs]; rfl)
    rw [fI.agree ha, fR.agreeStatic rv.supplied hb, p1, ← eg, (fI.keyPair iv.ephemeral).1,
      law.dh _ _ (fI.keyPair iv.ephemeral).2 p2]
  -- message 3
  obtain ⟨k1, i1, c3, f1, f2, f3, f4⟩ := iv.message3
  obtain ⟨k2, i2, c3', g1, g2, g3, g4⟩ := rv.message3
  have sz3 : SizeOk c3 := by
    unfold SizeOk at *
    rw [f4, encBstr_length] at s3
    omega
  have ec3 := startsBstr_unique g3 ⟨_, [], encBstr_item sz3, by rw [List.append_nil]; exact f4⟩
  have ep3 : v.ptxt3 = w.ptxt3 := by
    have h1 := fI.enc f3
    have h2 := fR.dec g4
    rw [ec3, h1] at h2
    have hk : k1 = k2 := by rw [fI.expand f1, fR.expand g1, et3, e3]
    have hi : i1 = i2 := by rw [fI.expand f2, fR.expand g2, et3, e3]
    rw [hk, hi, et3, law.aead] at h2
    exact Option.some.inj h2
  have et4 : v.th4 = w.th4 := by rw [fI.hash iv.transcript.th4, fR.hash rv.transcript.th4, et3, ep3, cI]
  have e4 : v.prk4e3m = w.prk4e3m := by
    have k := iv.keys.prk4e3m
    rw [e3, et3] at k
    refine nextKey_agree fI fR k rv.keys.prk4e3m fun hs a b ha hb => ?_
    obtain ⟨p1, p2⟩ := pI (by rw [hs]; rfl)
    rw [fI.agreeStatic iv.supplied ha, fR.agree hb, p1, ey, (fR.keyPair rv.ephemeral).1,
      law.dh _ _ p2 (fR.keyPair rv.ephemeral).2]
  exact ⟨rfl, eg, ey, exy, et1, et2, et3, et4, e2e, e3, e4, ep2, ep3⟩

theorem message_mem {h : History} {o : Op} {x : Out} {k : Call} (hm : (o, .ok x) ∈ h) (hk : callOf o = some k) :
    k ∈ messages h := by
  unfold messages
  rw [List.mem_filterMap]
  exact ⟨_, hm, by simp [succeeded, hk]⟩

theorem not_both {E : Env σ} {cfg : Config} {e : σ} {log : List Ev} {h : History} {s : St σ}
    (hs : Session E cfg e log h s) (hi : AsInitiator h) : .process1 ∉ messages h := by
  intro hm
  obtain ⟨q, hq, l, hp⟩ := C01_handshake_order hs
  obtain ⟨t, ht⟩ := hi
  have hm' : Call.process1 ∈ q := by rw [← hp]; exact List.mem_append_left _ hm
  have hc : q.head? = some .compose1 := by rw [← hp, ← ht]; rfl
  simp only [roleSequences, List.mem_cons, List.not_mem_nil, or_false] at hq
  rcases hq with rfl | rfl | rfl | rfl <;> simp_all

theorem not_both' {E : Env σ} {cfg : Config} {e : σ} {log : List Ev} {h : History} {s : St σ}
    (hs : Session E cfg e log h s) (hi : AsResponder h) : .compose1 ∉ messages h := by
  intro hm
  obtain ⟨q, hq, l, hp⟩ := C01_handshake_order hs
  obtain ⟨t, ht⟩ := hi
  have hm' : Call.compose1 ∈ q := by rw [← hp]; exact List.mem_append_left _ hm
  have hc : q.head? = some .process1 := by rw [← hp, ← ht]; rfl
  simp only [roleSequences, List.mem_cons, List.not_mem_nil, or_false] at hq
  rcases hq with rfl | rfl | rfl | rfl <;> simp_all

/-! ## C11 -/

section

variable {EI : Env σ} {ER : Env τ} {cI cR : Config} {eI : σ} {eR : τ} {logI logR : List Ev} {hI hR : History}
  {sI : St σ} {sR : St τ} {P : Prims} {kI kR : Bytes → Bytes}

/-- **C11**. An Initiator and a Responder with the same cipher suite, over the same primitives, that both completed the
handshake on the messages the other sent, hold the same TH_4 and PRK_4e3m (or the PRK_out derived from it), and use
the same method. -/
theorem C11_same_keys (fI : Proper EI cI eI logI hI sI) (fR : Proper ER cR eR logR hR sR)
    (hi : AsInitiator hI) (hr : AsResponder hR) (hsu : sR.ctx.suite = sI.ctx.suite)
    (p : Peers P kI kR sI.ctx.chosenMethod (sessionCalls logI sI) (sessionCalls logR sR) hI hR) :
    ∃ th4 prk4e3m, HoldsKeys (sessionCalls logI sI) prk4e3m th4 sI.ctx.suite.hash (updates hI) sI.ctx ∧
      HoldsKeys (sessionCalls logR sR) prk4e3m th4 sI.ctx.suite.hash (updates hR) sR.ctx ∧
      sR.ctx.chosenMethod = sI.ctx.chosenMethod := by
  obtain ⟨n1, n3, m1, m2, m3, x, kid, pk, v, a1, a2, a3, iv, k1⟩ :=
    C10_initiator_keys fI.session fI.settled hi fI.regular fI.numbers fI.short
  obtain ⟨n2, m1', m2', m3', y, kid', pk', w, b1, b2, b3, rv, k2⟩ :=
    C10_responder_keys fR.session fR.settled hr fR.regular fR.short
  cases p.delivered.message1 a1 b1
  cases p.delivered.message2 b2 a2
  cases p.delivered.message3 a3 b3
  rw [hsu] at rv k2
  have s2 : SizeOk m2 := by have := (fR.short _ b2).2 m2 rfl; unfold SizeOk; omega
  have s3 : SizeOk m3 := by have := (fI.short _ a3).2 m3 rfl; unfold SizeOk; omega
  obtain ⟨em, _, _, _, _, _, _, et, _, _, ek, _⟩ := views_agree p iv rv s2 s3
  rw [← et, ← ek] at k2
  exact ⟨v.th4, v.prk4e3m, k1, k2, em.symm⟩

/-- Epoch keys are determined by PRK_4e3m, TH_4 and the entropies. -/
theorem epochKey_agree {LI LR : List Ev} {p t : Bytes} {n : Nat} {es : List Bytes} {a b : Bytes}
    (fI : Faithful P kI LI) (fR : Faithful P kR LR) (h1 : EpochKey LI p t n es a) :
    EpochKey LR p t n es b → a = b := by
  induction h1 generalizing b with
  | first e1 =>
    intro h2
    generalize hl : ([] : List Bytes) = l at h2
    cases h2 with
    | first e2 => rw [fI.expand e1, fR.expand e2]
    | update _ _ => simp at hl
  | @update es p' b' q h1 e1 ih =>
    intro h2
    generalize hl : es ++ [b'] = l at h2
    cases h2 with
    | first _ => simp at hl
    | update h3 e2 =>
      obtain ⟨hl1, hl2⟩ := List.append_inj' hl rfl
      simp only [List.cons.injEq, and_true] at hl2
      subst hl1 hl2
      rw [fI.expand e1, fR.expand e2, ih h3]

/-- Exported secrets are determined by PRK_out. -/
theorem exported_agree {LI LR : List Ev} {q : Bytes} {hash label n : Nat} {a b : Bytes} (fI : Faithful P kI LI)
    (fR : Faithful P kR LR) (h1 : ExportedFrom LI q hash label n a) (h2 : ExportedFrom LR q hash label n b) : a = b := by
  obtain ⟨x, e1, e2⟩ := h1
  obtain ⟨y, e3, e4⟩ := h2
  rw [fI.expand e2, fR.expand e4, fI.expand e1, fR.expand e3]

/-- **C11**, **C16**: in the same state of key derivation and after the same key updates, both contexts hold the same
keys. -/
theorem C11_equal_keys (fI : Proper EI cI eI logI hI sI) (fR : Proper ER cR eR logR hR sR)
    (hi : AsInitiator hI) (hr : AsResponder hR) (hsu : sR.ctx.suite = sI.ctx.suite)
    (p : Peers P kI kR sI.ctx.chosenMethod (sessionCalls logI sI) (sessionCalls logR sR) hI hR)
    (hu : updates hI = updates hR) (hp : sI.ctx.prkState = sR.ctx.prkState) :
    sI.ctx.th = sR.ctx.th ∧ sI.ctx.prk = sR.ctx.prk := by
  obtain ⟨t, k, ⟨h1, _, h2⟩, ⟨g1, _, g2⟩, _⟩ := C11_same_keys fI fR hi hr hsu p
  refine ⟨h1.trans g1.symm, ?_⟩
  rcases h2 with ⟨h2, h3, _⟩ | ⟨h2, h3⟩ <;> rcases g2 with ⟨g2, g3, _⟩ | ⟨g2, g3⟩
  · rw [h3, g3]
  · rw [h2, g2] at hp; cases hp
  · rw [h2, g2] at hp; cases hp
  · rw [← hu] at g3
    exact epochKey_agree p.faithfulI p.faithfulR h3 g3

/-- the values and the PRK_out of both sides -/
theorem same_prkOut {LI LR : List Ev} {su : Suite} {meI meR : Nat} {v w : Values} {a b : Bytes}
    (fI : Session EI cI eI logI hI sI) (fR : Session ER cR eR logR hR sR) (gI : ShortMessages hI)
    (gR : ShortMessages hR) (hi : AsInitiator hI) (hr : AsResponder hR)
    (hv : HandshakeValues LI su meI hI v) (hw : HandshakeValues LR su meR hR w) (p : Peers P kI kR meI LI LR hI hR)
    (hu : updates hI = updates hR) (ha : EpochKey LI v.prk4e3m v.th4 su.hash (updates hI) a)
    (hb : EpochKey LR w.prk4e3m w.th4 su.hash (updates hR) b) : a = b := by
  have notR : ∀ {m : Bytes}, (Op.process1 m, Res.ok Out.unit) ∉ hI := by
    intro m hm
    have := message_mem hm rfl
    exact not_both fI hi this
  have notI : ∀ {n : Nat} {m : Bytes}, (Op.compose1 n, Res.ok (Out.bytes m)) ∉ hR := by
    intro n m hm
    have := message_mem hm rfl
    exact not_both' fR hr this
  rcases hv with ⟨n1, n3, m1, m2, m3, x, kid, pk, a1, a2, a3, iv⟩ | ⟨_, _, _, _, _, _, _, a1, _⟩
  · rcases hw with ⟨_, _, _, _, _, _, _, _, b1, _⟩ | ⟨n2, m1', m2', m3', y, kid', pk', b1, b2, b3, rv⟩
    · exact absurd b1 notI
    · cases p.delivered.message1 a1 b1
      cases p.delivered.message2 b2 a2
      cases p.delivered.message3 a3 b3
      have s2 : SizeOk m2 := by have := (gR _ b2).2 m2 rfl; unfold SizeOk; omega
      have s3 : SizeOk m3 := by have := (gI _ a3).2 m3 rfl; unfold SizeOk; omega
      obtain ⟨_, _, _, _, _, _, _, et, _, _, ek, _⟩ := views_agree p iv rv s2 s3
      rw [← et, ← ek, ← hu] at hb
      exact epochKey_agree p.faithfulI p.faithfulR ha hb
  · exact absurd a1 notR

theorem delivered_append {a b : Op × Res Out}
    (h : Delivered (hI ++ [a]) (hR ++ [b])) : Delivered hI hR :=
  ⟨fun h1 h2 => h.message1 (List.mem_append_left _ h1) (List.mem_append_left _ h2),
    fun h1 h2 => h.message2 (List.mem_append_left _ h1) (List.mem_append_left _ h2),
    fun h1 h2 => h.message3 (List.mem_append_left _ h1) (List.mem_append_left _ h2)⟩

theorem short_append {h : History} {a : Op × Res Out} (hs : ShortMessages (h ++ [a])) : ShortMessages h :=
  fun p hp => hs p (List.mem_append_left _ hp)

theorem asInitiator_complete {h : History} (hi : AsInitiator h) : complete h := by
  obtain ⟨t, ht⟩ := hi
  unfold complete
  rw [← ht]
  simp

theorem asResponder_complete {h : History} (hi : AsResponder h) : complete h := by
  obtain ⟨t, ht⟩ := hi
  unfold complete
  rw [← ht]
  simp

/-- **C13**, second half. Peers that completed the handshake with each other, and made the same key updates since,
export the same secret for the same label and length. -/
theorem C13_same_secret {label n : Nat} {outI outR : Bytes}
    (fI : Proper EI cI eI logI (hI ++ [(.exportSecret label n, .ok (.bytes outI))]) sI)
    (fR : Proper ER cR eR logR (hR ++ [(.exportSecret label n, .ok (.bytes outR))]) sR)
    (hi : AsInitiator hI) (hr : AsResponder hR) (hsu : sR.ctx.suite = sI.ctx.suite)
    (p : Peers P kI kR sI.ctx.chosenMethod (sessionCalls logI sI) (sessionCalls logR sR) hI hR)
    (hu : updates hI = updates hR) (hn : n < 2 ^ 32) : outI = outR := by
  obtain ⟨_, v, a, v1, v2, v3⟩ := C13_export fI.session fI.settled (asInitiator_complete hi) fI.regular fI.numbers
    fI.short hn
  obtain ⟨_, w, b, w1, w2, w3⟩ := C13_export fR.session fR.settled (asResponder_complete hr) fR.regular fR.numbers
    fR.short hn
  obtain ⟨_, s1, _⟩ := last_call fI.session
  obtain ⟨_, s2, _⟩ := last_call fR.session
  rw [hsu] at w1 w2 w3
  have := same_prkOut s1 s2 (short_append fI.short) (short_append fR.short) hi hr v1 w1 p hu v2 w2
  subst this
  exact exported_agree p.faithfulI p.faithfulR v3 w3

/-- **C14**, secrets. Peers that completed the handshake with each other, and made the same key updates since, export
the same OSCORE master secret and master salt. -/
theorem C14_same_secrets {a b c d c' d' : Nat} {oI oR : Oscore}
    (fI : Proper EI cI eI logI (hI ++ [(.exportOscore a b c d, .ok (.oscore oI))]) sI)
    (fR : Proper ER cR eR logR (hR ++ [(.exportOscore a b c' d', .ok (.oscore oR))]) sR)
    (hi : AsInitiator hI) (hr : AsResponder hR) (hsu : sR.ctx.suite = sI.ctx.suite)
    (p : Peers P kI kR sI.ctx.chosenMethod (sessionCalls logI sI) (sessionCalls logR sR) hI hR)
    (hu : updates hI = updates hR) (ha : a < 2 ^ 32) (hb : b < 2 ^ 32) :
    oI.secret = oR.secret ∧ oI.salt = oR.salt := by
  obtain ⟨_, _, _, _, _, _, v, q, v1, v2, v3, v4⟩ := C14_oscore_export fI.session fI.settled (asInitiator_complete hi)
    fI.regular fI.numbers fI.short ha hb
  obtain ⟨_, _, _, _, _, _, w, q', w1, w2, w3, w4⟩ := C14_oscore_export fR.session fR.settled (asResponder_complete hr)
    fR.regular fR.numbers fR.short ha hb
  obtain ⟨_, s1, _⟩ := last_call fI.session
  obtain ⟨_, s2, _⟩ := last_call fR.session
  rw [hsu] at w1 w2 w3 w4
  have := same_prkOut s1 s2 (short_append fI.short) (short_append fR.short) hi hr v1 w1 p hu v2 w2
  subst this
  exact ⟨exported_agree p.faithfulI p.faithfulR v3 w3, exported_agree p.faithfulI p.faithfulR v4 w4⟩

end

/-! ## Examples: the toy handshakes with every method -/

/-- Keys after the handshake, two exports and a key update. -/
example : ∀ m ∈ Toy.methods,
    (Toy.after Toy.alice (Toy.callsI m ++ Toy.exports)).ctx.th = (Toy.after Toy.bob (Toy.callsR m ++ Toy.exports)).ctx.th ∧
    (Toy.after Toy.alice (Toy.callsI m ++ Toy.exports)).ctx.prk = (Toy.after Toy.bob (Toy.callsR m ++ Toy.exports)).ctx.prk := by
  intro m hm
  have h : (Toy.methods.all fun m =>
      [Call.compose1, .process2, .compose3].isPrefixOf (messages (Toy.hst Toy.alice (Toy.callsI m ++ Toy.exports))) &&
      [Call.process1, .compose2, .process3].isPrefixOf (messages (Toy.hst Toy.bob (Toy.callsR m ++ Toy.exports))) &&
      decide ((Toy.after Toy.bob (Toy.callsR m ++ Toy.exports)).ctx.suite =
        (Toy.after Toy.alice (Toy.callsI m ++ Toy.exports)).ctx.suite ∧
      (Toy.after Toy.alice (Toy.callsI m ++ Toy.exports)).ctx.chosenMethod = m ∧
      updates (Toy.hst Toy.alice (Toy.callsI m ++ Toy.exports)) = updates (Toy.hst Toy.bob (Toy.callsR m ++ Toy.exports)) ∧
      (Toy.after Toy.alice (Toy.callsI m ++ Toy.exports)).ctx.prkState =
        (Toy.after Toy.bob (Toy.callsR m ++ Toy.exports)).ctx.prkState)) = true := by decide +kernel
  have h := List.all_eq_true.1 h m hm
  simp only [Bool.and_eq_true, decide_eq_true_eq, List.isPrefixOf_iff_prefix] at h
  obtain ⟨⟨h1, h2⟩, h3, h4, h5, h6⟩ := h
  refine C11_equal_keys (Toy.proper_of (List.all_eq_true.1 Toy.checkI m hm))
    (Toy.proper_of (List.all_eq_true.1 Toy.checkR m hm)) h1 h2 h3
    (P := Toy.prims) (kI := id) (kR := id) ?_ h5 h6
  rw [h4]
  exact Toy.peers_of (List.all_eq_true.1 Toy.peers m hm)

/-- An exporter call with method 2, and an OSCORE export with method 1 after a key update. -/
example : ∃ a b, (step (Toy.env Toy.alice) Toy.cfg (.exportSecret 40000 20) (Toy.after Toy.alice (Toy.callsI 2))).1 =
      .ok (.bytes a) ∧
    (step (Toy.env Toy.bob) Toy.cfg (.exportSecret 40000 20) (Toy.after Toy.bob (Toy.callsR 2))).1 = .ok (.bytes b) ∧
    a = b := by
  obtain ⟨a, ha⟩ : ∃ a, (step (Toy.env Toy.alice) Toy.cfg (.exportSecret 40000 20)
      (Toy.after Toy.alice (Toy.callsI 2))).1 = .ok (.bytes a) := ⟨Toy.bytesOf (step (Toy.env Toy.alice) Toy.cfg
      (.exportSecret 40000 20) (Toy.after Toy.alice (Toy.callsI 2))).1, by decide +kernel⟩
  obtain ⟨b, hb⟩ : ∃ b, (step (Toy.env Toy.bob) Toy.cfg (.exportSecret 40000 20)
      (Toy.after Toy.bob (Toy.callsR 2))).1 = .ok (.bytes b) := ⟨Toy.bytesOf (step (Toy.env Toy.bob) Toy.cfg
      (.exportSecret 40000 20) (Toy.after Toy.bob (Toy.callsR 2))).1, by decide +kernel⟩
  refine ⟨a, b, ha, hb, ?_⟩
  have fI := Toy.proper_last (by decide +kernel) ha
  have fR := Toy.proper_last (by decide +kernel) hb
  refine C13_same_secret fI fR (List.isPrefixOf_iff_prefix.1 (by decide +kernel))
    (List.isPrefixOf_iff_prefix.1 (by decide +kernel)) (by decide +kernel)
    (P := Toy.prims) (kI := id) (kR := id) ?_ (by decide +kernel) (by decide)
  have e : (Toy.after Toy.alice (Toy.callsI 2 ++ [.exportSecret 40000 20])).ctx.chosenMethod = 2 := by decide +kernel
  rw [e]
  have p := Toy.peers_of (method := 2) (opsI := Toy.callsI 2 ++ [.exportSecret 40000 20])
    (opsR := Toy.callsR 2 ++ [.exportSecret 40000 20]) (by decide +kernel)
  exact ⟨p.lawful, p.faithfulI, p.faithfulR, Toy.delivered_of (by decide +kernel), p.credR, p.credI⟩

example : ∃ a b, (step (Toy.env Toy.alice) Toy.cfg (.exportOscore 16 8 4 4)
      (Toy.after Toy.alice (Toy.callsI 1 ++ [.keyUpdate [3]]))).1 = .ok (.oscore a) ∧
    (step (Toy.env Toy.bob) Toy.cfg (.exportOscore 16 8 4 4)
      (Toy.after Toy.bob (Toy.callsR 1 ++ [.keyUpdate [3]]))).1 = .ok (.oscore b) ∧
    a.secret = b.secret ∧ a.salt = b.salt := by
  obtain ⟨a, ha⟩ : ∃ a, (step (Toy.env Toy.alice) Toy.cfg (.exportOscore 16 8 4 4)
      (Toy.after Toy.alice (Toy.callsI 1 ++ [.keyUpdate [3]]))).1 = .ok (.oscore a) :=
    ⟨Toy.oscoreOf (step (Toy.env Toy.alice) Toy.cfg (.exportOscore 16 8 4 4)
      (Toy.after Toy.alice (Toy.callsI 1 ++ [.keyUpdate [3]]))).1, by decide +kernel⟩
  obtain ⟨b, hb⟩ : ∃ b, (step (Toy.env Toy.bob) Toy.cfg (.exportOscore 16 8 4 4)
      (Toy.after Toy.bob (Toy.callsR 1 ++ [.keyUpdate [3]]))).1 = .ok (.oscore b) :=
    ⟨Toy.oscoreOf (step (Toy.env Toy.bob) Toy.cfg (.exportOscore 16 8 4 4)
      (Toy.after Toy.bob (Toy.callsR 1 ++ [.keyUpdate [3]]))).1, by decide +kernel⟩
  refine ⟨a, b, ha, hb, ?_⟩
  have fI := Toy.proper_last (by decide +kernel) ha
  have fR := Toy.proper_last (by decide +kernel) hb
  refine C14_same_secrets fI fR (List.isPrefixOf_iff_prefix.1 (by decide +kernel))
    (List.isPrefixOf_iff_prefix.1 (by decide +kernel)) (by decide +kernel)
    (P := Toy.prims) (kI := id) (kR := id) ?_ (by decide +kernel) (by decide) (by decide)
  have e : (Toy.after Toy.alice (Toy.callsI 1 ++ [.keyUpdate [3]] ++ [.exportOscore 16 8 4 4])).ctx.chosenMethod = 1 := by
    decide +kernel
  rw [e]
  have p := Toy.peers_of (method := 1) (opsI := Toy.callsI 1 ++ [.keyUpdate [3]] ++ [.exportOscore 16 8 4 4])
    (opsR := Toy.callsR 1 ++ [.keyUpdate [3]] ++ [.exportOscore 16 8 4 4]) (by decide +kernel)
  exact ⟨p.lawful, p.faithfulI, p.faithfulR, Toy.delivered_of (by decide +kernel), p.credR, p.credI⟩

end Verif
