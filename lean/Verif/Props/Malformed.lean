import Verif.Props.Ead
import Verif.Props.Agree

/-!
# C23, C24: malformed and incomplete messages

Vocabulary: the message grammar (`Verif/SpecCbor.lean`).
-/

namespace Verif

open M Spec

variable {σ : Type} {E : Env σ} {cfg : Config}

/-! ## C23: malformed messages are rejected -/

/-- **C23**, message_1. If `edhoc_message_1_process` accepts a message, it begins with METHOD, SUITES_I and a G_X of the
suite's length. Missing: that C_I follows, see `C23_violated`. -/
theorem C23_message1_partial {s s' : St σ} {msg : Bytes} {x : Out}
    (hok : step E cfg (.process1 msg) s = (.ok x, s')) (hecc : s'.ctx.suite.eccKey ≠ 0) :
    ∃ me su gx, StartsMessage1 me su gx msg ∧ gx.length = s'.ctx.suite.eccKey ∧ (s'.ctx.chosenMethod : Int) = me := by
  obtain ⟨m, hm, rfl, c⟩ := step_process1 rfl hok
  cases hm
  obtain ⟨_, _, _, m1, me, _, _, e1, _, e2, _, e3, _, _, _, e4⟩ := message1Process_ok c
  subst e1
  have e5 : s'.ctx.suite.eccKey = (chosen s.ctx 0).suite.eccKey := by rw [e4]; rfl
  have e6 : s'.ctx.chosenMethod = me := by rw [e4]; rfl
  rw [← e5] at e3
  refine ⟨_, _, _, getMsg1_start ?_, e3, by rw [e6]; exact e2⟩
  intro h0
  rw [h0] at e3
  exact hecc e3.symm

/-- **C23**, message_2. If `edhoc_message_2_process` accepts a message, it begins with a byte string, which is a key of the
suite's length and a ciphertext that decrypts to bytes that begin with a PLAINTEXT_2. -/
theorem C23_message2 {e : σ} {log : List Ev} {h : History} {s s' : St σ} (hs : Session E cfg e log h s)
    {msg : Bytes} (hsu : SuiteSmall s.ctx.suite) (hlen : msg.length < 2 ^ 32) {x : Out}
    (hok : step E cfg (.process2 msg) s = (.ok x, s')) :
    ∃ gy ctxt prk2e th2 ks cr p, StartsBstr (gy ++ ctxt) msg ∧ gy.length = s.ctx.suite.eccKey ∧
      ExpandCall (during s s') prk2e 0 th2 ctxt.length ks ∧ StartsPlaintext2 cr p (xorBytes ctxt ks) := by
  obtain ⟨gy, ctxt, gxy, th2, prk2e, ks, ptxt, cr, p, _, _, _, _, _, h1, h2, _, _, _, h3, rfl, h4, _⟩ :=
    C07_responder_authenticated hs hsu hlen hok
  exact ⟨gy, ctxt, prk2e, th2, ks, cr, p, h1, h2, h3, h4⟩

/-- **C23**, message_3. If `edhoc_message_3_process` accepts a message, it begins with a byte string, a ciphertext that
decrypts to bytes that begin with a PLAINTEXT_3. -/
theorem C23_message3 {e : σ} {log : List Ev} {h : History} {s s' : St σ} (hs : Session E cfg e log h s)
    {msg : Bytes} (hsu : SuiteSmall s.ctx.suite) {x : Out} (hok : step E cfg (.process3 msg) s = (.ok x, s')) :
    ∃ ctxt k3 iv3 ptxt p, StartsBstr ctxt msg ∧ DecryptCall (during s s') k3 iv3 (encStructure s.ctx.th) ctxt ptxt ∧
      StartsPlaintext3 p ptxt := by
  obtain ⟨ctxt, k3, iv3, ptxt, p, _, _, _, _, _, h1, _, _, h2, h3, _⟩ := C08_initiator_authenticated hs hsu hok
  exact ⟨ctxt, k3, iv3, ptxt, p, h1, h2, h3⟩

/-- **C23**, message_4. If `edhoc_message_4_process` accepts a message, it begins with a byte string, a ciphertext that
decrypts. About the plaintext see `C24_plaintext4_violated`. -/
theorem C23_message4_partial {s s' : St σ} {msg : Bytes} {x : Out} (hok : step E cfg (.process4 msg) s = (.ok x, s')) :
    ∃ ctxt k4 iv4 ptxt, StartsBstr ctxt msg ∧ DecryptCall (during s s') k4 iv4 (encStructure s.ctx.th) ctxt ptxt := by
  obtain ⟨m, hm, rfl, c⟩ := step_process4 rfl hok
  cases hm
  obtain ⟨k, iv, ctxt, ptxt, c⟩ := message4Process_ok c
  exact ⟨ctxt, k, iv, ptxt, getMsgBstr_sound c.parsed, c.decrypted.call⟩

/-- Non-vacuity: honest messages are accepted, byte strings that do not decode are not. -/
example : (step (Toy.env Toy.bob) Toy.cfg (.process1 (Toy.msg 3 1)) (Toy.after Toy.bob ((Toy.callsR 3).take 7))).1 = .ok .unit ∧
    (step (Toy.env Toy.alice) Toy.cfg (.process2 (Toy.msg 3 2)) (Toy.after Toy.alice ((Toy.callsI 3).take 8))).1 = .ok .unit ∧
    (step (Toy.env Toy.bob) Toy.cfg (.process3 (Toy.msg 3 3)) (Toy.after Toy.bob ((Toy.callsR 3).take 9))).1 = .ok .unit ∧
    (step (Toy.env Toy.alice) Toy.cfg (.process4 (Toy.msg 3 4)) (Toy.after Toy.alice ((Toy.callsI 3).take 10))).1 = .ok .unit ∧
    (step (Toy.env Toy.alice) Toy.cfg (.process2 [0xff]) (Toy.after Toy.alice ((Toy.callsI 3).take 8))).1 = .err .bufferTooSmall ∧
    (step (Toy.env Toy.bob) Toy.cfg (.process3 [0x63, 1, 2, 3]) (Toy.after Toy.bob ((Toy.callsR 3).take 9))).1 =
      .err .msg3Process := by decide +kernel

theorem head_ne_nil {m a : Nat} : ¬ Head m a [] := by
  rintro ⟨⟩

theorem cidItem_ne_nil {c : Cid} : ¬ CidItem c [] := by
  cases c with
  | int v =>
    rintro ⟨_, _, h⟩
    rcases h with ⟨_, h⟩ | ⟨_, h⟩ <;> exact head_ne_nil h
  | bstr b =>
    rintro ⟨hd, h, e⟩
    have : hd = [] := by
      cases hd with
      | nil => rfl
      | cons a l => simp at e
    rw [this] at h
    exact head_ne_nil h

/-- **C23 is violated**: a message_1 that ends after G_X, without the mandatory C_I, is accepted. -/
theorem C23_violated : ∃ (h : History) (s s' : St Unit) (msg : Bytes),
    Session (Toy.env Toy.bob) Toy.cfg () [] h s ∧ step (Toy.env Toy.bob) Toy.cfg (.process1 msg) s = (.ok .unit, s') ∧
    s'.ctx.peerCid = .bstr [] ∧ ¬ ∃ m b rest, Message1 m b ∧ msg = b ++ rest := by
  refine ⟨Toy.hst Toy.bob (Toy.conf 3 (.bstr [0x18, 9])), Toy.after Toy.bob (Toy.conf 3 (.bstr [0x18, 9])),
    (step (Toy.env Toy.bob) Toy.cfg (.process1 [3, 2, 66, 0, 124]) (Toy.after Toy.bob (Toy.conf 3 (.bstr [0x18, 9])))).2,
    [3, 2, 66, 0, 124], Toy.session _ _ (by decide +kernel), eq_of_fst (by decide +kernel), by decide +kernel, ?_⟩
  rintro ⟨m, b, rest, ⟨me, su, gx, ci, ea, h1, h2, h3, h4, _, rfl⟩, e⟩
  have rng : ∀ v : Int, Int32Range v → Int65Range v := by unfold Int32Range Int65Range; intro v; omega
  have e : encInt 3 ++ (encInt 2 ++ (encBstr [0, 124] ++ [])) = me ++ (su ++ (gx ++ (ci ++ (ea ++ rest)))) := by
    rw [show encInt 3 ++ (encInt 2 ++ (encBstr [0, 124] ++ [])) = [3, 2, 66, 0, 124] by decide, e]
    simp
  obtain ⟨_, _, e⟩ := intItem_unamb (encInt_item (v := 3) (rng _ (by decide))) h1 e
  obtain ⟨_, _, e⟩ := suitesItem_unamb (a := .one 2) (x := encInt 2) (encInt_item (v := 2) (rng _ (by decide))) h2 e
  obtain ⟨_, _, e⟩ := bstrItem_unamb (encBstr_item (by unfold SizeOk; decide)) h3 e
  have : ci = [] := by
    cases ci with
    | nil => rfl
    | cons a l => simp at e
  rw [this] at h4
  exact cidItem_ne_nil h4

/-! ## C24: trailing bytes -/

theorem getHead_append {t : Bool} {n : Nat} {b j r : Bytes} {m a : Nat} (h : getHead t n b = some (m, a, r)) :
    getHead t n (b ++ j) = some (m, a, r ++ j) := by
  cases b with
  | nil => simp [getHead] at h
  | cons x b =>
    rw [List.cons_append]
    unfold getHead at h ⊢
    simp only at h ⊢
    split at h
    · rename_i h1
      rw [if_pos h1]
      simp only [Option.some.injEq, Prod.mk.injEq] at h ⊢
      obtain ⟨h2, h3, rfl⟩ := h
      exact ⟨h2, h3, rfl⟩
    · rename_i h1
      rw [if_neg h1]
      split at h
      · simp at h
      · rename_i h2
        rw [if_neg h2]
        split at h
        · simp at h
        · rename_i h3
          rw [if_neg h3]
          split at h
          · simp at h
          · rename_i h4
            have h5 : ¬ (b ++ j).length < 2 ^ (x.toNat % 32 - 24) := by rw [List.length_append]; omega
            rw [if_neg h5, List.take_append_of_le_length (by omega), List.drop_append_of_le_length (by omega)]
            split at h
            · simp at h
            · rename_i h6
              rw [if_neg h6]
              simp only [Option.some.injEq, Prod.mk.injEq] at h ⊢
              obtain ⟨h2, h3, rfl⟩ := h
              exact ⟨h2, h3, rfl⟩

theorem getStr_append {d : DecCfg} {m : Nat} {b j v r : Bytes} (h : getStr d m b = some (v, r)) :
    getStr d m (b ++ j) = some (v, r ++ j) := by
  unfold getStr at h ⊢
  split at h
  · rename_i m' a r' h1
    rw [getHead_append h1]
    simp only
    split at h
    · rename_i h2
      rw [if_pos ⟨h2.1, by rw [List.length_append]; omega⟩, List.take_append_of_le_length h2.2,
        List.drop_append_of_le_length h2.2]
      simp only [Option.some.injEq, Prod.mk.injEq] at h ⊢
      obtain ⟨rfl, rfl⟩ := h
      exact ⟨rfl, rfl⟩
    · simp at h
  · simp at h

theorem getMsgBstr_append {d : DecCfg} {b v : Bytes} (j : Bytes) (h : getMsgBstr d b = some v) :
    getMsgBstr d (b ++ j) = some v := by
  unfold getMsgBstr getBstr at *
  simp only [Option.map_eq_some_iff, Prod.exists] at h
  obtain ⟨a, r, h1, rfl⟩ := h
  rw [getStr_append h1]
  rfl

theorem length_ne {b : Bytes} (j : Bytes) (h : b ≠ []) : ((b ++ j).length != 0) = (b.length != 0) := by
  cases b with
  | nil => exact absurd rfl h
  | cons a l => simp

/-- **C24 is violated for every accepted message_2**: with any bytes appended, it is accepted with the same effects. -/
theorem C24_message2_violated {s s' : St σ} {msg : Bytes} {x : Out} (h : step E cfg (.process2 msg) s = (.ok x, s'))
    (junk : Bytes) : step E cfg (.process2 (msg ++ junk)) s = (.ok x, s') := by
  obtain ⟨m, hm, _, c⟩ := step_process2 rfl h
  cases hm
  obtain ⟨gy, ctxt, cr, p, id, pk, v, c⟩ := message2Process_ok c
  rw [← h]
  simp only [step, message2Process, parseMsg2, length_ne junk c.nonempty, getMsgBstr_append junk c.parsed, c.parsed]

/-- **C24 is violated for every accepted message_3**: with any bytes appended, it is accepted with the same effects. -/
theorem C24_message3_violated {s s' : St σ} {msg : Bytes} {x : Out} (h : step E cfg (.process3 msg) s = (.ok x, s'))
    (junk : Bytes) : step E cfg (.process3 (msg ++ junk)) s = (.ok x, s') := by
  obtain ⟨m, hm, _, c⟩ := step_process3 rfl h
  cases hm
  obtain ⟨p, id, pk, v, c⟩ := message3Process_ok c
  rw [← h]
  simp only [step, message3Process, length_ne junk c.nonempty, getMsgBstr_append junk c.parsed, c.parsed]

/-- **C24 is violated for every accepted message_4**: with any bytes appended, it is accepted with the same effects. -/
theorem C24_message4_violated {s s' : St σ} {msg : Bytes} {x : Out} (h : step E cfg (.process4 msg) s = (.ok x, s'))
    (junk : Bytes) : step E cfg (.process4 (msg ++ junk)) s = (.ok x, s') := by
  obtain ⟨m, hm, _, c⟩ := step_process4 rfl h
  cases hm
  obtain ⟨k, iv, ctxt, ptxt, c⟩ := message4Process_ok c
  rw [← h]
  simp only [step, message4Process, length_ne junk c.nonempty, getMsgBstr_append junk c.parsed, c.parsed]

/-- Such messages exist: an honest message 2 with a byte appended. -/
example : (step (Toy.env Toy.alice) Toy.cfg (.process2 (Toy.msg 1 2 ++ [0xff])) (Toy.after Toy.alice ((Toy.callsI 1).take 8))).1 =
    .ok .unit := by decide +kernel

/-- **C24 is violated for message_1**: a message with a trailing byte that is not the beginning of an EAD item is
accepted. -/
theorem C24_message1_violated : ∃ (h : History) (s s' : St Unit),
    Session (Toy.env Toy.bob) Toy.cfg () [] h s ∧
    step (Toy.env Toy.bob) Toy.cfg (.process1 [3, 2, 66, 0, 124, 5, 0xff]) s = (.ok .unit, s') :=
  ⟨Toy.hst Toy.bob (Toy.conf 3 (.bstr [0x18, 9])), Toy.after Toy.bob (Toy.conf 3 (.bstr [0x18, 9])),
    (step (Toy.env Toy.bob) Toy.cfg (.process1 [3, 2, 66, 0, 124, 5, 0xff])
      (Toy.after Toy.bob (Toy.conf 3 (.bstr [0x18, 9])))).2,
    Toy.session _ _ (by decide +kernel), eq_of_fst (by decide +kernel)⟩

/-- a message_4 whose plaintext is two bytes that are not CBOR -/
def garbage4 : Bytes := [69, 255, 255, 192, 109, 192]

theorem intItem_head {v : Int} {b : UInt8} {r : Bytes} (h : IntItem v (b :: r)) : b.toNat < 64 := by
  have key : ∀ {m a : Nat}, m ≤ 1 → Head m a (b :: r) → b.toNat < 64 := by
    intro m a hm h
    cases h with
    | short h => rw [UInt8.toNat_ofNat']; omega
    | long k h => rw [UInt8.toNat_ofNat']; omega
  rcases h with ⟨_, h⟩ | ⟨_, h⟩
  · exact key (by omega) h
  · exact key (by omega) h

theorem not_plaintext4 {ts : List EadTok} : ¬ Plaintext4 ts [0xff, 0xff] := by
  rintro ⟨bs, h, e⟩
  cases h with
  | nil => simp at e
  | cons h _ =>
    obtain ⟨x, y, h, rfl, _⟩ := h
    cases x with
    | nil => rcases h with ⟨_, h⟩ | ⟨_, h⟩ <;> exact head_ne_nil h
    | cons a l =>
      have := intItem_head h
      simp only [List.cons_append, List.flatten_cons, List.cons.injEq] at e
      rw [← e.1] at this
      revert this
      decide

/-- **C24 is violated for PLAINTEXT_4**: a plaintext that is not a sequence of EAD items is accepted. -/
theorem C24_plaintext4_violated : ∃ (h : History) (s s' : St Unit) (kid iv aad c ptxt : Bytes),
    Session (Toy.env Toy.alice) Toy.cfg () [] h s ∧
    step (Toy.env Toy.alice) Toy.cfg (.process4 garbage4) s = (.ok .unit, s') ∧
    Ev.decrypt kid iv aad c (some ptxt) ∈ during s s' ∧ ¬ ∃ ts, Plaintext4 ts ptxt := by
  have h : ((during (Toy.after Toy.alice ((Toy.callsI 3).take 10))
      (step (Toy.env Toy.alice) Toy.cfg (.process4 garbage4) (Toy.after Toy.alice ((Toy.callsI 3).take 10))).2).any fun
        | .decrypt _ _ _ _ (some p) => p == [0xff, 0xff]
        | _ => false) = true := by decide +kernel
  obtain ⟨v, h1, h2⟩ := List.any_eq_true.1 h
  split at h2
  · rename_i kid iv aad c p
    rw [beq_iff_eq] at h2
    subst h2
    exact ⟨_, Toy.after Toy.alice ((Toy.callsI 3).take 10), _, kid, iv, aad, c, _,
      Toy.session Toy.alice ((Toy.callsI 3).take 10) (by decide +kernel), eq_of_fst (by decide +kernel), h1,
      fun ⟨_, h⟩ => not_plaintext4 h⟩
  · cases h2

end Verif
