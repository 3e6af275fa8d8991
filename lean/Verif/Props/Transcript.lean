import Verif.Growth
import Verif.ToyCheck

/-!
# C09: the transcript hash after each message

`s.ctx.th` is the transcript hash a context holds for the next step. Whole sessions: `Props/Keys.lean`.
-/

namespace Verif

open M Spec

variable {σ : Type} {E : Env σ} {cfg : Config} {s s' : St σ}

/-- **C09**, message 1: both sides hold H(message_1). -/
theorem C09_compose1 {n : Nat} {m : Bytes} (h : step E cfg (.compose1 n) s = (.ok (.bytes m), s')) :
    HashCall (during s s') m s'.ctx.th := by
  obtain ⟨n, m, h1, h2, h⟩ := step_compose1 rfl h
  cases h1; cases h2
  obtain ⟨_, _, _, _, _, _, _, _, _, _, _, _, _, _, _, _, _, w, c⟩ := message1Compose_ok h
  rw [c]
  exact w.mem

@[inherit_doc C09_compose1]
theorem C09_process1 {m : Bytes} {u : Out} (h : step E cfg (.process1 m) s = (.ok u, s')) :
    HashCall (during s s') m s'.ctx.th := by
  obtain ⟨m, h1, h2, h'⟩ := step_process1 rfl h
  cases h1; cases h2
  obtain ⟨_, _, _, _, _, _, th, _, _, _, _, _, _, w, _, c⟩ := message1Process_ok h'
  rw [c]
  have : Saw [.hash m (some th)] s s' := by
    rcases w with ⟨_, _, _, w⟩ | ⟨_, w⟩
    · exact ⟨[_], [], by rw [w]; rfl⟩
    · exact ⟨[], [], by rw [w]; rfl⟩
  exact this.mem

/-- hashes have the length the suite says -/
def HashLen (L : List Ev) (n : Nat) : Prop := ∀ i o, Ev.hash i (some o) ∈ L → o.length = n

/-- **C09**, message 2. From H(message_1) the Responder computes TH_2 = H(G_Y, H(message_1)), G_Y being at the
beginning of the message, and then holds TH_3 = H(TH_2, PLAINTEXT_2, CRED_R), for the plaintext encrypted in the
message. -/
theorem C09_compose2 {n : Nat} {m : Bytes} (h : step E cfg (.compose2 n) s = (.ok (.bytes m), s'))
    (hl : HashLen (during s s') s.ctx.suite.hash) :
    ∃ gy th2 ptxt ks cr kid, HashCall (during s s') (encBstr gy ++ encBstr s.ctx.th) th2 ∧
      HashCall (during s s') (encBstr th2 ++ ptxt ++ cred cr) s'.ctx.th ∧
      m = encBstr (gy ++ xorBytes ptxt ks) ∧ gy.length = s.ctx.suite.eccKey ∧ ks.length = ptxt.length ∧
      CredSupplied (during s s') cr kid := by
  obtain ⟨n, m, h1, h2, h⟩ := step_compose2 rfl h
  cases h1; cases h2
  obtain ⟨priv, pub, kid, v, p⟩ := message2Compose_ok h
  have h3 := p.th3.call
  refine ⟨pub, v.th2, v.ptxt, v.ks, v.cred, kid, p.th2.call, ?_, p.out, p.pubLen, p.ks.1, p.fetch.mem⟩
  rw [p.ctx]
  simp only
  rw [overlay_full (hl _ _ h3) p.th2Len]
  exact h3

/-- **C09**, message 2, for the plaintext decrypted by the Initiator. -/
theorem C09_process2 {m : Bytes} {u : Out} (h : step E cfg (.process2 m) s = (.ok u, s'))
    (hl : HashLen (during s s') s.ctx.suite.hash) :
    ∃ gy c2 th2 ks cr id pk, HashCall (during s s') (encBstr gy ++ encBstr s.ctx.th) th2 ∧
      HashCall (during s s') (encBstr th2 ++ xorBytes c2 ks ++ cred cr) s'.ctx.th ∧
      StartsBstr (gy ++ c2) m ∧ gy.length = s.ctx.suite.eccKey ∧ ks.length = c2.length ∧
      CredAccepted (during s s') id cr pk := by
  obtain ⟨m, h1, h2, h'⟩ := step_process2 rfl h
  cases h1; cases h2
  obtain ⟨gy, c2, cid, q, id, pk, v, p⟩ := message2Process_ok h'
  have h3 := p.th3.call
  refine ⟨gy, c2, v.th2, v.ks, v.cred, id, pk, p.th2.call, ?_, getMsgBstr_sound p.parsed, p.gyLen, p.ks.1,
    p.verified.mem⟩
  rw [p.ctx]
  simp only
  rw [overlay_full (hl _ _ h3) p.th2Len, ← p.ptxt]
  exact h3

/-- **C09**, message 3: the Initiator holds TH_4 = H(TH_3, PLAINTEXT_3, CRED_I), for the plaintext it encrypted. -/
theorem C09_compose3 {n : Nat} {m : Bytes} (h : step E cfg (.compose3 n) s = (.ok (.bytes m), s')) :
    ∃ k iv ptxt ctxt cr kid, HashCall (during s s') (encBstr s.ctx.th ++ ptxt ++ cred cr) s'.ctx.th ∧
      EncryptCall (during s s') k iv (encStructure s.ctx.th) ptxt ctxt ∧ m = encBstr ctxt ∧
      CredSupplied (during s s') cr kid := by
  obtain ⟨n, m, h1, h2, h⟩ := step_compose3 rfl h
  cases h1; cases h2
  obtain ⟨kid, v, p⟩ := message3Compose_ok h
  refine ⟨v.k3, v.iv3, v.ptxt, v.ctxt, v.cred, kid, ?_, p.encrypted.call, p.out, p.fetch.mem⟩
  rw [p.ctx]
  exact p.th4.call

/-- **C09**, message 3, for the plaintext decrypted by the Responder. -/
theorem C09_process3 {m : Bytes} {u : Out} (h : step E cfg (.process3 m) s = (.ok u, s')) :
    ∃ k iv ptxt ctxt cr id pk, HashCall (during s s') (encBstr s.ctx.th ++ ptxt ++ cred cr) s'.ctx.th ∧
      DecryptCall (during s s') k iv (encStructure s.ctx.th) ctxt ptxt ∧ StartsBstr ctxt m ∧
      CredAccepted (during s s') id cr pk := by
  obtain ⟨m, h1, h2, h'⟩ := step_process3 rfl h
  cases h1; cases h2
  obtain ⟨q, id, pk, v, p⟩ := message3Process_ok h'
  refine ⟨v.k3, v.iv3, v.ptxt, v.ctxt, v.cred, id, pk, ?_, p.decrypted.call, getMsgBstr_sound p.parsed,
    p.verified.mem⟩
  rw [p.ctx]
  exact p.th4.call

/-- **C09**, message 4 and everything else: after the handshake, calls other than setters and a restart keep TH_4. -/
theorem C09_later {o : Op} {r : Res Out} (h : step E cfg o s = (r, s')) (hd : r.Defined) (hr : restarts o = false)
    (hx : isSetter o = false) (hl : Late s.ctx) : s'.ctx.th = s.ctx.th ∧ s'.ctx.thState = s.ctx.thState := by
  obtain ⟨_, l, _⟩ := later_step h hd hr (by unfold reconf; simp [hx]) hl
  rcases l with ⟨_, k, _⟩ | ⟨_, _, _, _, l⟩
  · exact ⟨(keep_proj k).1, (keep_proj k).2.1⟩
  · obtain ⟨_, _, _, _, _, _, _, _, _, _, _, c⟩ := keyUpdate_ok l
    rw [c]; exact ⟨rfl, rfl⟩

/-- Non-vacuity: in toy handshakes with all four methods, all eight message calls succeed (calls 7 to 10, after the
set-up), with hashes of the right length. -/
example : (Toy.methods.all fun m => [7, 8, 9, 10].all fun i =>
    Toy.stepB Toy.alice (Toy.callsI m) i && Toy.stepB Toy.bob (Toy.callsR m) i) = true := by decide +kernel

end Verif
