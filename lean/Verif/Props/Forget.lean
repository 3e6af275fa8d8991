import Verif.SpecForget
import Verif.Props.Matching

/-!
# C70: a key update and the keys before it

Vocabulary: `Verif/SpecForget.lean`.
-/

namespace Verif

open M Spec

variable {σ : Type} {E : Env σ} {cfg : Config} {e : σ} {log : List Ev} {P : Prims} {sk : Bytes → Bytes}

/-- **C70**, what holds: a successful key update overwrites the key in the context with the new PRK_out (see
`C16_key_update`), and no other field that holds a key or a secret changes. -/
theorem C70_update_partial {s s' : St σ} {b : Bytes} {o : Out} (h : step E cfg (.keyUpdate b) s = (.ok o, s')) :
    ∃ new, new.length = s.ctx.prk.length ∧
      s'.ctx = { s.ctx with prk := new, prkState := .out, oscoreAllowed := true } := by
  obtain ⟨r0, h0, ⟨a, rfl, _⟩ | ⟨_, _, h'⟩ | ⟨_, _, h'⟩⟩ := step_update h
  · obtain ⟨_, _, _, _, p, q, _, _, l1, l2, _, c⟩ := keyUpdate_ok h0
    exact ⟨q, l2.trans l1, c⟩
  · cases h'
  · cases h'

theorem EpochKey.nil {L : List Ev} {p t q : Bytes} {n : Nat} {es : List Bytes} (he : es = []) (h : EpochKey L p t n es q) :
    ExpandCall L p 7 t n q := by
  cases h with
  | first h => exact h
  | update _ _ => simp at he

/-- the keys of a session in which both parties sign, before the first key update -/
theorem gxy_gives {h : History} {s : St σ} (g : Proper E cfg e log h s) (hc : complete h) (hu : updates h = [])
    (hm : s.ctx.chosenMethod = 0) (hp : s.ctx.prkState = .out) (hf : Faithful P sk (sessionCalls log s)) (hP : P.Lawful) :
    ∃ m1 m2 m3 d2 d3 credR credI, Exchanged h m1 m2 m3 ∧ StartsBstr d2 m2 ∧ StartsBstr d3 m3 ∧
      CredUsed (sessionCalls log s) credR ∧ CredUsed (sessionCalls log s) credI ∧
      firstPrkOut P s.ctx.suite s.ctx.dhSecret m1 d2 d3 (cred credR) (cred credI) = some s.ctx.prk := by
  have calc3 : ∀ {v : Values} {m1 c2 c3 ks : Bytes}, Transcript (sessionCalls log s) m1 v →
      s.ctx.dhSecret = v.gxy → ExtractCall (sessionCalls log s) v.th2 v.gxy v.prk2e → v.prk3e2m = v.prk2e →
      v.prk4e3m = v.prk3e2m → v.gy.length = s.ctx.suite.eccKey →
      ExpandCall (sessionCalls log s) v.prk2e 0 v.th2 c2.length ks → v.ptxt2 = xorBytes c2 ks →
      P.dec (P.kdf v.prk3e2m 3 v.th3 s.ctx.suite.aeadKey) (P.kdf v.prk3e2m 4 v.th3 s.ctx.suite.aeadIv)
        (encStructure v.th3) c3 = some v.ptxt3 →
      ExpandCall (sessionCalls log s) v.prk4e3m 7 v.th4 s.ctx.suite.hash s.ctx.prk →
      firstPrkOut P s.ctx.suite s.ctx.dhSecret m1 (v.gy ++ c2) c3 (cred v.credR) (cred v.credI) = some s.ctx.prk := by
    intro v m1 c2 c3 ks t a1 a2 a3 a4 a5 a6 a7 a8 a9
    have t1 := hf.hash t.th1
    have t2 := hf.hash t.th2
    have t3 := hf.hash t.th3
    have t4 := hf.hash t.th4
    have k1 := hf.extract a2
    have k2 := hf.expand a6
    have k3 := hf.expand a9
    unfold firstPrkOut
    simp only [← a5, List.take_left, List.drop_left]
    rw [a4, a3] at k3
    rw [a3] at a8
    rw [a1, ← t1, ← t2, ← k1]
    unfold Prims.kdf at a8 ⊢
    rw [← k2, ← a7, ← t3, a8, Option.map_some, ← t4, ← k3]
  rcases complete_role g.session hc with hi | hi
  · obtain ⟨n1, n3, m1, m2, m3, x, kid, pk, v, b1, b2, b3, V, K, M⟩ :=
      initiator_session g.session g.settled hi g.regular g.numbers g.short
    obtain ⟨c2, ks, d1, d2, d3, d4⟩ := V.message2
    obtain ⟨k3, iv3, c3, e1, e2, e3, e4⟩ := V.message3
    have hk1 := V.keys.prk3e2m
    have hk2 := V.keys.prk4e3m
    rw [hm] at hk1 hk2
    simp only [NextKey, responderSigns, initiatorSigns] at hk1 hk2
    have s3 : SizeOk m3 := by have := (g.short _ b3).2 m3 rfl; unfold SizeOk; omega
    obtain ⟨id, ha⟩ := V.accepted
    obtain ⟨_, _, K⟩ := K
    rcases K with ⟨K, _⟩ | ⟨_, K⟩
    · rw [hp] at K; cases K
    refine ⟨m1, m2, m3, v.gy ++ c2, c3, v.credR, v.credI, .inl ⟨n1, n3, b1, b2, b3⟩, d1, ?_, .inr ⟨id, pk, ha⟩,
      .inl ⟨kid, V.supplied⟩, ?_⟩
    · rw [e4]
      exact ⟨_, [], encBstr_item (by rw [e4, ] at s3; unfold SizeOk at *; rw [encBstr_length] at s3; omega), by simp⟩
    · refine calc3 V.transcript M.gxy V.keys.prk2e (by simpa using hk1) (by simpa using hk2) d2 d3 d4 ?_ (EpochKey.nil hu K)
      rw [hf.enc e3, hf.expand e1, hf.expand e2]
      exact hP.aead _ _ _ _
  · obtain ⟨n2, m1, m2, m3, y, kid, pk, v, b1, b2, b3, V, K, M⟩ :=
      responder_session g.session g.settled hi g.regular g.short
    obtain ⟨ks, d1, d2, d3⟩ := V.message2
    obtain ⟨k3, iv3, c3, e1, e2, e3, e4⟩ := V.message3
    have hk1 := V.keys.prk3e2m
    have hk2 := V.keys.prk4e3m
    rw [hm] at hk1 hk2
    simp only [NextKey, responderSigns, initiatorSigns] at hk1 hk2
    have s2 : SizeOk m2 := by have := (g.short _ b2).2 m2 rfl; unfold SizeOk; omega
    obtain ⟨id, ha⟩ := V.accepted
    obtain ⟨_, _, K⟩ := K
    rcases K with ⟨K, _⟩ | ⟨_, K⟩
    · rw [hp] at K; cases K
    refine ⟨m1, m2, m3, v.gy ++ xorBytes v.ptxt2 ks, c3, v.credR, v.credI, .inr ⟨n2, b1, b2, b3⟩, ?_, e3,
      .inl ⟨kid, V.supplied⟩, .inr ⟨id, pk, ha⟩, ?_⟩
    · rw [d2]
      exact ⟨_, [], encBstr_item (by rw [d2] at s2; unfold SizeOk at *; rw [encBstr_length] at s2; omega), by simp⟩
    · refine calc3 (ks := ks) V.transcript M.gxy V.keys.prk2e (by simpa using hk1) (by simpa using hk2) d3
        (by rw [xor_length _ _ d1.1]; exact d1) (xor_self _ _ d1.1).symm ?_ (EpochKey.nil hu K)
      have := hf.dec e4
      rwa [hf.expand e1, hf.expand e2] at this

theorem exporterOf_eq {L : List Ev} (hf : Faithful P sk L) {su : Suite} {prkOut out : Bytes} {label n : Nat}
    (h : ExportedFrom L prkOut su.hash label n out) : exporterOf P su label n prkOut = out := by
  obtain ⟨x, h1, h2⟩ := h
  unfold exporterOf Prims.kdf
  rw [← hf.expand h1, ← hf.expand h2]

/-- what the exporter did, in terms of the key in the context -/
theorem exported_now {h : History} {s : St σ} {label n : Nat} {out : Bytes}
    (g : Proper E cfg e log (h ++ [(.exportSecret label n, .ok (.bytes out))]) s) (hn : n < 2 ^ 32) :
    s.ctx.prkState = .out ∧ ExportedFrom (sessionCalls log s) s.ctx.prk s.ctx.suite.hash label n out := by
  obtain ⟨s0, _, hst, i⟩ := last_call g.session
  obtain ⟨r0, h0, ⟨a, rfl, h1⟩ | ⟨_, _, h'⟩ | ⟨_, _, h'⟩⟩ := step_export hst
  · simp only [Res.ok.injEq, Out.bytes.injEq] at h1
    subst h1
    obtain ⟨_, _, _, l, _, _, p, x, _, _, c, ⟨k1, lx, w1⟩, ⟨k2, w2⟩⟩ := exportSecret_ok h0
    have hsu : s.ctx.suite = s0.ctx.suite := by rw [c]; rfl
    have hp : s.ctx.prk = p := by rw [c]
    rw [← hsu, encInfo_spec _ _ g.regular.small.2.2.1] at w1
    rw [encInfo_spec _ _ hn] at w2
    refine ⟨by rw [c], x, ?_, ExpandCall.mono i ⟨l, k2, w2.made⟩⟩
    rw [hp]
    exact ExpandCall.mono i ⟨by rw [lx, hsu], k1, w1.made⟩
  · cases h'
  · cases h'

/-- what the OSCORE export did, in terms of the key in the context -/
theorem exported_oscore_now {h : History} {s : St σ} {a b c d : Nat} {o : Oscore}
    (g : Proper E cfg e log (h ++ [(.exportOscore a b c d, .ok (.oscore o))]) s) (ha : a < 2 ^ 32) (hb : b < 2 ^ 32) :
    s.ctx.prkState = .out ∧ ExportedFrom (sessionCalls log s) s.ctx.prk s.ctx.suite.hash 0 a o.secret ∧
      ExportedFrom (sessionCalls log s) s.ctx.prk s.ctx.suite.hash 1 b o.salt := by
  obtain ⟨s0, _, hst, i⟩ := last_call g.session
  obtain ⟨r0, h0, ⟨_, rfl, h1⟩ | ⟨_, _, h'⟩ | ⟨_, _, h'⟩⟩ := step_oscore hst
  · simp only [Res.ok.injEq, Out.oscore.injEq] at h1
    subst h1
    obtain ⟨_, _, _, l1, l2, _, _, _, _, _, p, x, y, _, _, c', ⟨k1, lx, w1⟩, ⟨k2, w2⟩, ⟨k3, ly, w3⟩, ⟨k4, w4⟩⟩ :=
      exportOscore_ok h0
    have hsu : s.ctx.suite = s0.ctx.suite := by rw [c']; rfl
    have hp : s.ctx.prk = p := by rw [c']
    have hh : s.ctx.suite.hash < 4294967296 := g.regular.small.2.2.1
    rw [← hsu, encInfo_spec _ _ hh] at w1 w3
    rw [encInfo_spec _ _ ha] at w2
    rw [encInfo_spec _ _ hb] at w4
    rw [hp]
    exact ⟨by rw [c'], ⟨x, ExpandCall.mono i ⟨by rw [lx, hsu], k1, w1.made⟩, ExpandCall.mono i ⟨l1, k2, w2.made⟩⟩,
      ⟨y, ExpandCall.mono i ⟨by rw [ly, hsu], k3, w3.made⟩, ExpandCall.mono i ⟨l2, k4, w4.made⟩⟩⟩
  · cases h'
  · cases h'

/-- the same at any later time -/
theorem gxy_gives_later {h t : History} {o : Op} {x : Out} {s : St σ} (g : Proper E cfg e log (h ++ (o, .ok x) :: t) s)
    (ho : callOf o = none) (hk : ∀ b, o ≠ .keyUpdate b) (hc : complete h) (hu : updates h = []) (hm : s.ctx.chosenMethod = 0)
    (hf : Faithful P sk (sessionCalls log s)) (hP : P.Lawful)
    (hp : ∀ {b : St σ}, Proper E cfg e log (h ++ [(o, .ok x)]) b → b.ctx.prkState = .out) :
    ∃ (b : St σ) (m1 m2 m3 d2 d3 : Bytes) (credR credI : Cred), Proper E cfg e log (h ++ [(o, .ok x)]) b ∧
      sessionCalls log b <:+: sessionCalls log s ∧ b.ctx.suite = s.ctx.suite ∧
      Exchanged h m1 m2 m3 ∧ StartsBstr d2 m2 ∧ StartsBstr d3 m3 ∧
      CredUsed (sessionCalls log s) credR ∧ CredUsed (sessionCalls log s) credI ∧
      firstPrkOut P s.ctx.suite s.ctx.dhSecret m1 d2 d3 (cred credR) (cred credI) = some b.ctx.prk := by
  obtain ⟨b, gb, i, k⟩ := proper_prefix g hc
  obtain ⟨_, _, ks, _, _, _, km⟩ := keep_proj k
  have kg : s.ctx.dhSecret = b.ctx.dhSecret := (congrArg Ctx.dhSecret k :)
  have hu' : updates (h ++ [(o, .ok x)]) = [] := by
    rw [updates_append, hu]
    cases o <;> first | rfl | exact absurd rfl (hk _)
  obtain ⟨m1, m2, m3, d2, d3, cR, cI, hx, q2, q3, uR, uI, q⟩ :=
    gxy_gives gb (complete_append hc) hu' (by rw [← km]; exact hm) (hp gb) (hf.sub i) hP
  have used : ∀ {c}, CredUsed (sessionCalls log b) c → CredUsed (sessionCalls log s) c := by
    rintro c (⟨kid, h⟩ | ⟨id, pk, h⟩)
    · exact .inl ⟨kid, h.mono i⟩
    · exact .inr ⟨id, pk, h.mono i⟩
  have out : ∀ {p : Op × Res Out}, p ∈ h ++ [(o, .ok x)] → callOf p.1 ≠ none → p ∈ h := by
    intro p hp hn
    simp only [List.mem_append, List.mem_singleton] at hp
    rcases hp with hp | rfl
    · exact hp
    · exact absurd ho hn
  refine ⟨b, m1, m2, m3, d2, d3, cR, cI, gb, i, ks.symm, ?_, q2, q3, used uR, used uI, by rw [ks, kg]; exact q⟩
  rcases hx with ⟨n1, n3, h1, h2, h3⟩ | ⟨n2, h1, h2, h3⟩
  · exact .inl ⟨n1, n3, out h1 (by simp [callOf]), out h2 (by simp [callOf]), out h3 (by simp [callOf])⟩
  · exact .inr ⟨n2, out h1 (by simp [callOf]), out h2 (by simp [callOf]), out h3 (by simp [callOf])⟩

/-- **C70 is violated** in method 0. Take any session in which both parties sign, the handshake was completed, and a
secret was exported before the first key update. Whatever came after it (`t`), in particular key updates: the secret is
a function of the shared secret G_XY that is still in the context, of the messages 1 to 3 and of the credentials. -/
theorem C70_violated {h t : History} {label n : Nat} {out : Bytes} {s : St σ}
    (g : Proper E cfg e log (h ++ (.exportSecret label n, .ok (.bytes out)) :: t) s) (hc : complete h)
    (hu : updates h = []) (hm : s.ctx.chosenMethod = 0) (hn : n < 2 ^ 32) (hf : Faithful P sk (sessionCalls log s))
    (hP : P.Lawful) :
    ∃ m1 m2 m3 d2 d3 credR credI, Exchanged h m1 m2 m3 ∧ StartsBstr d2 m2 ∧ StartsBstr d3 m3 ∧
      CredUsed (sessionCalls log s) credR ∧ CredUsed (sessionCalls log s) credI ∧
      (firstPrkOut P s.ctx.suite s.ctx.dhSecret m1 d2 d3 (cred credR) (cred credI)).map (exporterOf P s.ctx.suite label n) =
        some out := by
  obtain ⟨b, m1, m2, m3, d2, d3, cR, cI, gb, i, ks, hx, q2, q3, uR, uI, q⟩ :=
    gxy_gives_later g rfl (by simp) hc hu hm hf hP fun g => (exported_now g hn).1
  refine ⟨m1, m2, m3, d2, d3, cR, cI, hx, q2, q3, uR, uI, ?_⟩
  rw [q, Option.map_some, ← ks, exporterOf_eq (hf.sub i) (exported_now gb hn).2]

/-- **C70 is violated** for the OSCORE export, in the same way: the first master secret and the first master salt can be computed
from the context at any later time. -/
theorem C70_oscore_violated {h t : History} {a b c d : Nat} {o : Oscore} {s : St σ}
    (g : Proper E cfg e log (h ++ (.exportOscore a b c d, .ok (.oscore o)) :: t) s) (hc : complete h)
    (hu : updates h = []) (hm : s.ctx.chosenMethod = 0) (ha : a < 2 ^ 32) (hb : b < 2 ^ 32)
    (hf : Faithful P sk (sessionCalls log s)) (hP : P.Lawful) :
    ∃ m1 m2 m3 d2 d3 credR credI, Exchanged h m1 m2 m3 ∧ StartsBstr d2 m2 ∧ StartsBstr d3 m3 ∧
      CredUsed (sessionCalls log s) credR ∧ CredUsed (sessionCalls log s) credI ∧
      (firstPrkOut P s.ctx.suite s.ctx.dhSecret m1 d2 d3 (cred credR) (cred credI)).map
        (fun k => (exporterOf P s.ctx.suite 0 a k, exporterOf P s.ctx.suite 1 b k)) = some (o.secret, o.salt) := by
  obtain ⟨b', m1, m2, m3, d2, d3, cR, cI, gb, i, ks, hx, q2, q3, uR, uI, q⟩ :=
    gxy_gives_later g rfl (by simp) hc hu hm hf hP fun g => (exported_oscore_now g ha hb).1
  obtain ⟨_, w1, w2⟩ := exported_oscore_now gb ha hb
  refine ⟨m1, m2, m3, d2, d3, cR, cI, hx, q2, q3, uR, uI, ?_⟩
  rw [q, Option.map_some, ← ks, exporterOf_eq (hf.sub i) w1, exporterOf_eq (hf.sub i) w2]

/-! ## A concrete case: both exports, then two key updates -/

namespace Toy

/-- what comes after the handshake -/
def afterwards : List Op := [.exportSecret 40000 20, .exportOscore 16 8 4 4, .keyUpdate [1, 2, 3], .keyUpdate [4]]

/-- a party with its handshake in method 0 -/
def signers : List (Party × List Op) := [(alice, callsI 0), (bob, callsR 0)]

/-- the result of the first call after the handshake, and of the second -/
def firstExport (p : Party × List Op) : Bytes := bytesOf (step (env p.1) Toy.cfg (.exportSecret 40000 20) (after p.1 p.2)).1
def secondExport (p : Party × List Op) : Oscore :=
  oscoreOf (step (env p.1) Toy.cfg (.exportOscore 16 8 4 4) (after p.1 (p.2 ++ afterwards.take 1))).1

theorem afterwards_check : (signers.all fun p => checkB p.1 (p.2 ++ afterwards) && completeB (hst p.1 p.2) &&
    decide (updates (hst p.1 p.2) = []) && decide ((after p.1 (p.2 ++ afterwards)).ctx.chosenMethod = 0) &&
    (sessionCalls [] (after p.1 (p.2 ++ afterwards))).all evB &&
    decide (hst p.1 (p.2 ++ afterwards) = hst p.1 p.2 ++ [(.exportSecret 40000 20, .ok (.bytes (firstExport p))),
      (.exportOscore 16 8 4 4, .ok (.oscore (secondExport p))), (.keyUpdate [1, 2, 3], .ok .unit), (.keyUpdate [4], .ok .unit)])) =
    true := by decide +kernel

end Toy

/-- Non-vacuity: after two key updates of either party, what was exported before them follows from the context. -/
example : ∀ p ∈ Toy.signers, ∃ m1 m2 m3 d2 d3 credR credI, Exchanged (Toy.hst p.1 p.2) m1 m2 m3 ∧ StartsBstr d2 m2 ∧
    StartsBstr d3 m3 ∧
    (firstPrkOut Toy.prims Toy.suite (Toy.after p.1 (p.2 ++ Toy.afterwards)).ctx.dhSecret m1 d2 d3 (cred credR) (cred credI)).map
      (exporterOf Toy.prims Toy.suite 40000 20) = some (Toy.firstExport p) := by
  intro p hp
  have h := List.all_eq_true.1 Toy.afterwards_check p hp
  simp only [Bool.and_eq_true, decide_eq_true_eq] at h
  obtain ⟨⟨⟨⟨⟨h1, h2⟩, h3⟩, h4⟩, h5⟩, h6⟩ := h
  have hsu : (Toy.after p.1 (p.2 ++ Toy.afterwards)).ctx.suite = Toy.suite := by
    simp only [Toy.checkB, Bool.and_eq_true, decide_eq_true_eq] at h1
    exact h1.1.1.1.2
  obtain ⟨a1, a2, a3, a4, a5⟩ := Toy.check h1
  rw [h6] at a1 a2 a5
  obtain ⟨m1, m2, m3, d2, d3, cR, cI, q1, q2, q3, _, _, q⟩ :=
    C70_violated (t := _ :: _ :: [_]) ⟨a1, a2, a3, a4, a5⟩ (Toy.complete_of h2) h3 h4 (by decide) (Toy.faithful_of h5) Toy.lawful
  rw [hsu] at q
  exact ⟨m1, m2, m3, d2, d3, cR, cI, q1, q2, q3, q⟩

/-- The exports are not empty, and the key in the context is not the one they came from. -/
example : (Toy.signers.all fun p => decide ((Toy.firstExport p).length = 20) && decide ((Toy.secondExport p).secret.length = 16) &&
    decide ((Toy.after p.1 (p.2 ++ Toy.afterwards)).ctx.prk ≠ (Toy.after p.1 (p.2 ++ Toy.afterwards.take 2)).ctx.prk)) = true := by
  decide +kernel

end Verif
