import Verif.SpecBinding
import Verif.CborItem
import Verif.Props.Agree

/-!
# C36: the transcript hash binds messages, plaintexts and credentials

Nothing is assumed about the network or about the peers' keys: only that the two parties hold the same TH_4 and that
no collision of the hash function occurred.
-/

namespace Verif

open M Spec

variable {σ τ : Type}

section
variable {EA : Env σ} {EB : Env τ} {cA cB : Config} {eA : σ} {eB : τ} {logA logB : List Ev} {hA hB : History}
  {sA : St σ} {sB : St τ}

theorem took_part (f : Proper EA cA eA logA hA sA) (hr : AsInitiator hA ∨ AsResponder hA) :
    ∃ m1 v, TookPart (sessionCalls logA sA) sA.ctx.suite sA.ctx.chosenMethod hA m1 v ∧ sA.ctx.th = v.th4 := by
  rcases hr with hi | hr
  · obtain ⟨n1, n3, m1, m2, m3, x, kid, pk, v, a1, a2, a3, iv, hk, _⟩ :=
      initiator_session f.session f.settled hi f.regular f.numbers f.short
    exact ⟨m1, v, .inl ⟨n1, n3, m2, m3, x, kid, pk, a1, a2, a3, iv⟩, hk.1⟩
  · obtain ⟨n2, m1, m2, m3, y, kid, pk, v, a1, a2, a3, rv, hk, _⟩ :=
      responder_session f.session f.settled hr f.regular f.short
    exact ⟨m1, v, .inr ⟨n2, m2, m3, y, kid, pk, a1, a2, a3, rv⟩, hk.1⟩

theorem TookPart.transcript {L : List Ev} {su : Suite} {me : Nat} {h : History} {m1 : Bytes} {v : Values}
    (t : TookPart L su me h m1 v) : Transcript L m1 v := by
  rcases t with ⟨_, _, _, _, _, _, _, _, _, _, h⟩ | ⟨_, _, _, _, _, _, _, _, _, h⟩ <;> exact h.transcript

theorem TookPart.message1 {L : List Ev} {su : Suite} {me : Nat} {h : History} {m1 : Bytes} {v : Values}
    (t : TookPart L su me h m1 v) : ∃ l, StartsMessage1 me l v.gx m1 := by
  rcases t with ⟨_, _, _, _, _, _, _, _, _, _, h⟩ | ⟨_, _, _, _, _, _, _, _, _, h⟩ <;> exact h.message1

theorem TookPart.gyLen {L : List Ev} {su : Suite} {me : Nat} {h : History} {m1 : Bytes} {v : Values}
    (t : TookPart L su me h m1 v) : v.gy.length = su.eccKey := by
  rcases t with ⟨_, _, _, _, _, _, _, _, _, _, h⟩ | ⟨_, _, _, _, _, _, _, _, _, h⟩
  · obtain ⟨_, _, _, h, _⟩ := h.message2; exact h
  · obtain ⟨_, _, _, h⟩ := h.message2; exact h

theorem regular_size {L : List Ev} {su : Suite} (hr : Regular L su) {i o : Bytes} (h : HashCall L i o) : SizeOk o := by
  have h1 := hr.hash i o h
  have h2 := hr.small.2.2.1
  unfold SizeOk
  omega

/-- two handshakes with the same TH_4 -/
theorem took_binding {L L' : List Ev} {su su' : Suite} {me me' : Nat} {h h' : History} {m1 m1' : Bytes} {v w : Values}
    (p : TookPart L su me h m1 v) (q : TookPart L' su' me' h' m1' w) (rA : Regular L su) (rB : Regular L' su')
    (nc : NoCollision L L') (ht : v.th4 = w.th4) :
    m1 = m1' ∧ me = me' ∧ v.gx = w.gx ∧ v.gy = w.gy ∧ v.th2 = w.th2 ∧ v.th3 = w.th3 ∧
      v.ptxt2 ++ cred v.credR = w.ptxt2 ++ cred w.credR ∧ v.ptxt3 ++ cred v.credI = w.ptxt3 ++ cred w.credI ∧
      (Whole2 v → Whole2 w → v.ptxt2 = w.ptxt2 ∧ cred v.credR = cred w.credR) ∧
      (Whole3 v → Whole3 w → v.ptxt3 = w.ptxt3 ∧ cred v.credI = cred w.credI) := by
  have tp := (TookPart.transcript p)
  have tq := (TookPart.transcript q)
  have e4 := nc tp.th4 (by rw [ht]; exact tq.th4)
  rw [List.append_assoc, List.append_assoc] at e4
  obtain ⟨e3, _, e4⟩ := bstrItem_unamb (encBstr_item (regular_size rA tp.th3))
    (encBstr_item (regular_size rB tq.th3)) e4
  have e2 := nc tp.th3 (by rw [e3]; exact tq.th3)
  rw [List.append_assoc, List.append_assoc] at e2
  obtain ⟨e2', _, e2⟩ := bstrItem_unamb (encBstr_item (regular_size rA tp.th2))
    (encBstr_item (regular_size rB tq.th2)) e2
  have ey := nc tp.th2 (by rw [e2']; exact tq.th2)
  have sA : SizeOk v.gy := by have := (TookPart.gyLen p); have := rA.ecc.2; unfold SizeOk; omega
  have sB : SizeOk w.gy := by have := (TookPart.gyLen q); have := rB.ecc.2; unfold SizeOk; omega
  obtain ⟨ey, _, e1⟩ := bstrItem_unamb (encBstr_item sA) (encBstr_item sB) ey
  have e1 := (bstrItem_unamb (encBstr_item (regular_size rA tp.th1))
    (encBstr_item (regular_size rB tq.th1)) (r := []) (r' := []) (by rw [e1])).1
  have em := nc tp.th1 (by rw [e1]; exact tq.th1)
  subst em
  obtain ⟨l, a⟩ := (TookPart.message1 p)
  obtain ⟨l', b⟩ := (TookPart.message1 q)
  obtain ⟨eme, _, egx⟩ := startsMessage1_unique a b
  refine ⟨rfl, by exact_mod_cast eme, egx, ey, e2', e3, e2, e4, ?_, ?_⟩
  · rintro ⟨⟨_, _, x⟩, i⟩ ⟨⟨_, _, y⟩, j⟩
    exact seq_then_item (Plaintext2.seq x) (Plaintext2.seq y) i j e2
  · rintro ⟨⟨_, x⟩, i⟩ ⟨⟨_, y⟩, j⟩
    exact seq_then_item (Plaintext3.seq x) (Plaintext3.seq y) i j e4

/-- **C36**: two parties, in whatever roles, that completed a handshake and hold the same transcript hash agree on
message_1 (so on METHOD, SUITES_I and G_X), on G_Y, and on the strings PLAINTEXT_2, CRED_R and PLAINTEXT_3, CRED_I. If
these are well-formed, they agree on each plaintext and each credential. -/
theorem C36_binding (fA : Proper EA cA eA logA hA sA) (fB : Proper EB cB eB logB hB sB)
    (rA : AsInitiator hA ∨ AsResponder hA) (rB : AsInitiator hB ∨ AsResponder hB)
    (nc : NoCollision (sessionCalls logA sA) (sessionCalls logB sB)) (ht : sA.ctx.th = sB.ctx.th) :
    ∃ m1 v w, TookPart (sessionCalls logA sA) sA.ctx.suite sA.ctx.chosenMethod hA m1 v ∧
      TookPart (sessionCalls logB sB) sB.ctx.suite sB.ctx.chosenMethod hB m1 w ∧
      sA.ctx.chosenMethod = sB.ctx.chosenMethod ∧ v.gx = w.gx ∧ v.gy = w.gy ∧
      v.th2 = w.th2 ∧ v.th3 = w.th3 ∧
      v.ptxt2 ++ cred v.credR = w.ptxt2 ++ cred w.credR ∧ v.ptxt3 ++ cred v.credI = w.ptxt3 ++ cred w.credI ∧
      (Whole2 v → Whole2 w → v.ptxt2 = w.ptxt2 ∧ cred v.credR = cred w.credR) ∧
      (Whole3 v → Whole3 w → v.ptxt3 = w.ptxt3 ∧ cred v.credI = cred w.credI) := by
  obtain ⟨m1, v, p, hv⟩ := took_part fA rA
  obtain ⟨m1', w, q, hw⟩ := took_part fB rB
  obtain ⟨rfl, h⟩ := took_binding p q fA.regular fB.regular nc (by rw [← hv, ht, hw])
  exact ⟨m1, v, w, p, q, h⟩

end

/-! ## Example -/

/-- collision freedom on concrete logs -/
def Toy.noCollisionB (L L' : List Ev) : Bool :=
  L.all fun e => match e with
    | .hash x (some o) => L'.all fun e' => match e' with
      | .hash y (some o') => !(o == o') || x == y
      | _ => true
    | _ => true

theorem Toy.noCollision_of {L L' : List Ev} (h : Toy.noCollisionB L L' = true) : NoCollision L L' := by
  intro x y o h1 h2
  have a := List.all_eq_true.1 h _ h1
  simp only at a
  have b := List.all_eq_true.1 a _ h2
  simpa using b

/-- Non-vacuity: the toy handshakes with every method, followed by exports and a key update. -/
example : ∀ m ∈ Toy.methods, ∃ m1 v w,
    TookPart (sessionCalls [] (Toy.after Toy.alice (Toy.callsI m ++ Toy.exports)))
      (Toy.after Toy.alice (Toy.callsI m ++ Toy.exports)).ctx.suite
      (Toy.after Toy.alice (Toy.callsI m ++ Toy.exports)).ctx.chosenMethod
      (Toy.hst Toy.alice (Toy.callsI m ++ Toy.exports)) m1 v ∧
    TookPart (sessionCalls [] (Toy.after Toy.bob (Toy.callsR m ++ Toy.exports)))
      (Toy.after Toy.bob (Toy.callsR m ++ Toy.exports)).ctx.suite
      (Toy.after Toy.bob (Toy.callsR m ++ Toy.exports)).ctx.chosenMethod
      (Toy.hst Toy.bob (Toy.callsR m ++ Toy.exports)) m1 w ∧
    v.ptxt2 ++ cred v.credR = w.ptxt2 ++ cred w.credR := by
  intro m hm
  have h : (Toy.methods.all fun m =>
      [Call.compose1, .process2, .compose3].isPrefixOf (messages (Toy.hst Toy.alice (Toy.callsI m ++ Toy.exports))) &&
      [Call.process1, .compose2, .process3].isPrefixOf (messages (Toy.hst Toy.bob (Toy.callsR m ++ Toy.exports))) &&
      decide ((Toy.after Toy.alice (Toy.callsI m ++ Toy.exports)).ctx.th =
        (Toy.after Toy.bob (Toy.callsR m ++ Toy.exports)).ctx.th) &&
      Toy.noCollisionB (sessionCalls [] (Toy.after Toy.alice (Toy.callsI m ++ Toy.exports)))
        (sessionCalls [] (Toy.after Toy.bob (Toy.callsR m ++ Toy.exports)))) = true := by decide +kernel
  have h := List.all_eq_true.1 h m hm
  simp only [Bool.and_eq_true, decide_eq_true_eq, List.isPrefixOf_iff_prefix] at h
  obtain ⟨⟨⟨h1, h2⟩, h3⟩, h4⟩ := h
  obtain ⟨m1, v, w, p, q, _, _, _, _, _, e, _⟩ := C36_binding (Toy.proper_of (List.all_eq_true.1 Toy.checkI m hm))
    (Toy.proper_of (List.all_eq_true.1 Toy.checkR m hm)) (.inl h1) (.inr h2) (Toy.noCollision_of h4) h3
  exact ⟨m1, v, w, p, q, e⟩

/-- Well-formed values: PLAINTEXT_2 = (C_R = 1, ID_CRED_R = 2, h'AA', EAD label -3 without value), and a credential
that is the CBOR map {1: 2}. -/
example (v : Values) (h1 : v.ptxt2 = [0x01, 0x02, 0x41, 0xAA, 0x22]) (h2 : v.credR = .kid [0xA1, 0x01, 0x02] true (.int 2)) :
    Whole2 v := by
  have d : ∀ {m a : Nat}, a < 24 → Head m a [UInt8.ofNat (m * 32 + a)] := fun h => .short h
  refine ⟨⟨.int 1, ⟨.int 2, [0xAA], [⟨-3, none⟩]⟩, [0x01], [0x02, 0x41, 0xAA, 0x22],
    ⟨by decide, by decide, .inl ⟨by decide, d (m := 0) (a := 1) (by decide)⟩⟩,
    ⟨[0x02], [0x41, 0xAA], [0x22], .inl ⟨by decide, d (m := 0) (a := 2) (by decide)⟩,
      ⟨[0x41], d (m := 2) (a := 1) (by decide), rfl⟩, ⟨[[0x22]], .cons ⟨[0x22], [],
        .inr ⟨by decide, (show (-1 - (-3 : Int)).toNat = 2 by decide) ▸ d (m := 1) (a := 2) (by decide)⟩, rfl, rfl⟩ .nil, rfl⟩, rfl⟩, h1⟩, ?_⟩
  rw [h2]
  refine .map (n := 1) (hd := [0xA1]) (bs := [[0x01], [0x02]]) (d (m := 5) (a := 1) (by decide)) rfl ?_
  intro b hb
  simp only [List.mem_cons, List.not_mem_nil, or_false] at hb
  rcases hb with rfl | rfl
  · exact .scalar (.inl rfl) (d (m := 0) (a := 1) (by decide))
  · exact .scalar (.inl rfl) (d (m := 0) (a := 2) (by decide))

end Verif
