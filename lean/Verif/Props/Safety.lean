import Verif.Safe4
import Verif.Bridge
import Verif.Props.Wire

/-!
# C26, C22: memory safety

Vocabulary: `Sound`, `StackFault`, `KnownFault` (`Verif/SpecSafety.lean`).
-/

namespace Verif

open M Spec

variable {σ : Type} {E : Env σ} {cfg : Config} {e : σ} {log : List Ev} {h : History} {s s' : St σ} {u : UB}

/-- **C26, C22** up to the faults found: in every session, for every call with every argument, the library stays within
its buffers and the caller's, and calls no null callback, except in the situations of `KnownFault` and when the stack
backend is given a size it cannot hold. Missing: those faults, see `C26_*_violated` and `C22_violated`; sizes that wrap
around are counted only where they lead to an access, see `C26_wrap_violated`. -/
theorem C26_memory_safe_partial (hs : Session E cfg e log h s) (hE : Sound E cfg s.ctx) {o : Op} (hr : restarts o = false)
    (hu : step E cfg o s = (.ub u, s')) : StackFault cfg u ∨ KnownFault E cfg o s s' := by
  have hl : Limits cfg s.ctx.suite := limits_getD hE.suites hE.maxima _
  have hl0 : Limits cfg (chosen s.ctx 0).suite := limits_getD hE.suites hE.maxima _
  have h2 : 2 ≤ cfg.maxEad := by rcases hE.ead with h | h <;> omega
  have h3 : cfg.maxEad ≤ 3 := by rcases hE.ead with h | h <;> omega
  have hf : ∀ k, okOf k s.ctx = true → Found cfg s.ctx := fun k hk => session_found hs hE.bound hk
  have ha : Armed s.ctx := ⟨hE.bound.1, hE.bound.2.1⟩
  by_cases hset : isSetter o = true
  · rcases C30_setters (E := E) (cfg := cfg) hset s with ⟨_, _, c', h1, _⟩ | ⟨_, e, _, h1⟩ <;> rw [hu] at h1 <;> cases h1
  cases o <;> simp only [isSetter, not_true_eq_false] at hset <;> simp only [restarts, Bool.true_eq_false] at hr
  case nullArg => cases hu
  case compose1 n => exact Or.inl (message1Compose_ub (hf .compose1) hl0 h3 (ub_mapOut hu))
  case process1 b =>
    have h1 := message1Process_ub (hf .process1) hl0 (fun hok => ?_) (session_suiteLen hs) (ub_mapOut hu)
    · rcases h1 with h1 | h1
      · exact Or.inl h1
      · obtain ⟨he, ⟨me, su, x, y, t, i1, i2, rfl, ht⟩ | ⟨me, su, gx, x, y, z, t, i1, i2, i3, rfl, ht⟩ |
          ⟨m, b, t, h0, hm, rfl, ht⟩⟩ := staleMsg1_sound h1
        · exact Or.inr (.cutGx he i1 i2 ht)
        · exact Or.inr (.cutCid he i1 i2 i3 ht)
        · exact Or.inr (.cutEad1 he hm h0 ht)
    have h0 : s.ctx.status = .start := by
      unfold okStart at hok
      simp only [Bool.and_eq_true, beq_iff_eq] at hok
      exact hok.1.1
    exact (congrArg Ctx.peerCsuite (session_start hs h0) :)
  case compose2 n => exact Or.inl (message2Compose_ub (hf .compose2) hl hE.tame h3 (ub_mapOut hu))
  case process2 b =>
    rcases message2Process_ub (hf .process2) hl hE.tame h2 (ub_mapOut hu) with h | ⟨x, hx, hc⟩
    · exact Or.inl h
    obtain ⟨item, rest, hi, rfl⟩ := getMsgBstr_sound hx
    rcases hc with hc | ⟨kid, info, n, ks, c, q, hk, hp, hq⟩
    · exact Or.inr (.shortMessage2 hi hc)
    · rcases hq with hq | hq
      · obtain ⟨_, ptxt, r, hp, hx⟩ := getPtxt2_sound hp
        exact Or.inr (.longKid2 hi hk.mem hx hp hq)
      · obtain ⟨he, c, q, ptxt, t, h0, hp, hx, ht⟩ := stalePtxt2_sound hq
        exact Or.inr (.cutEad2 he hi hk.mem hx hp h0 ht)
  case compose3 n =>
    rcases message3Compose_ub (hf .compose3) hl hE.tame h3 (ub_mapOut hu) with h | ⟨msg, s2, hm, hn⟩
    · exact Or.inl h
    · exact Or.inr (.buffer3 (s2 := s2) (by simp only [step, M.mapOut]; rw [bind_eq hm]; rfl) hn)
  case process3 b =>
    rcases message3Process_ub (hf .process3) hl hE.tame h2 (ub_mapOut hu) with h | ⟨x, kid, iv, aad, p, q, hx, hk, hp, hq⟩
    · exact Or.inl h
    obtain ⟨item, rest, hi, rfl⟩ := getMsgBstr_sound hx
    rcases hq with hq | hq
    · obtain ⟨_, ptxt, r, hg, rfl⟩ := getPtxt3_sound hp
      exact Or.inr (.longKid3 hi hk.mem hg hq)
    · obtain ⟨he, q, ptxt, t, h0, hg, rfl, ht⟩ := stalePtxt3_sound hq
      exact Or.inr (.cutEad3 he hi hk.mem hg h0 ht)
  case compose4 n => exact Or.inl (message4Compose_ub (hf .compose4) hE.tame h3 (ub_mapOut hu))
  case process4 b =>
    rcases message4Process_ub (hf .process4) h2 (ub_mapOut hu) with h | ⟨x, kid, iv, aad, p, hx, hk, hp⟩
    · exact Or.inl h
    obtain ⟨item, rest, hi, rfl⟩ := getMsgBstr_sound hx
    obtain ⟨he, ts, ptxt, t, h0, hg, rfl, ht⟩ := staleEad_sound hp
    exact Or.inr (.cutEad4 he hi hk.mem hg h0 ht)
  case exportSecret l n => exact Or.inl ((Derives.exportSecret l n).ub ha (ub_mapOut hu))
  case keyUpdate b => exact Or.inl ((Derives.keyUpdate b).ub ha (ub_mapOut hu))
  case exportOscore a b c d => exact Or.inl ((Derives.exportOscore a b c d).ub ha (ub_mapOut hu))
  case getCode =>
    refine Or.inl (Keep.ub (I := fun _ => True) (L := StackFault cfg) (Q := fun _ => True) ?_ trivial (ub_mapOut hu))
    exact Keep.getCtx.bind fun _ _ => (Keep.require _ _).bind fun _ _ => (Keep.pure _).any
  case getSuites a b =>
    refine Or.inl (Keep.ub (I := fun _ => True) (L := StackFault cfg) (Q := fun _ => True) ?_ trivial (ub_mapOut hu))
    unfold errorGetSuites
    exact Keep.getCtx.bind fun _ _ => (Keep.require _ _).bind fun _ _ => (Keep.require _ _).bind fun _ _ =>
      (Keep.require _ _).bind fun _ _ => (Keep.require _ _).bind fun _ h1 => (Keep.require _ _).bind fun _ h2 =>
      (Keep.guardUB _ (by rw [h1, h2]; rfl)).bind fun _ _ => (Keep.pure _).any

/-! ## Non-vacuity, and the faults -/

theorem Toy.tame_of {p : Toy.Party} (h1 : CredFits Toy.cfg p.cred) (h2 : ∀ c q, p.db c = some q → CredFits Toy.cfg q.1) :
    Tame (Toy.env p) Toy.cfg Toy.suite where
  hash e b h hh := by
    cases hh
    exact Nat.le_of_eq (beBytes_length 4 _)
  sign e k b h hh := by
    cases hh
    exact Nat.le_trans (List.length_take_le _ _) (Nat.le_refl 3)
  encrypt e k iv aad p h hh := by
    cases hh
    simp only [Toy.aead, List.length_append]
    exact Nat.add_le_add_left (List.length_take_le _ _) _
  fetch e r hr := by cases hr; exact h1
  verify e c r hr := by
    simp only [Toy.env, Option.map_eq_some_iff] at hr
    obtain ⟨q, hq, rfl⟩ := hr
    exact h2 c q hq

theorem Toy.tame_alice : Tame (Toy.env Toy.alice) Toy.cfg Toy.suite := by
  refine Toy.tame_of trivial fun c q h => ?_
  simp only [Toy.alice] at h
  split at h <;> cases h
  exact (by decide : 1 ≤ 2)

theorem Toy.tame_bob : Tame (Toy.env Toy.bob) Toy.cfg Toy.suite := by
  refine Toy.tame_of (by exact (by decide : 1 ≤ 2)) fun c q h => ?_
  simp only [Toy.bob] at h
  split at h <;> cases h
  trivial

theorem Toy.sound {p : Toy.Party} {ops : List Op} (ht : Tame (Toy.env p) Toy.cfg Toy.suite)
    (hb : (Toy.after p ops).ctx.hasKeys = true ∧ (Toy.after p ops).ctx.hasCrypto = true ∧ (Toy.after p ops).ctx.hasCred = true)
    (hf : ∀ su ∈ (Toy.after p ops).ctx.csuiteArr, su.hash ≤ Toy.cfg.maxMac ∧ su.eccKey ≤ Toy.cfg.maxEccKey)
    (hsu : (Toy.after p ops).ctx.suite = Toy.suite) : Sound (Toy.env p) Toy.cfg (Toy.after p ops).ctx :=
  ⟨hb, hf, ⟨by decide, by decide⟩, hsu ▸ ht, Or.inr rfl⟩

/-- before message_2 is processed -/
def waitM2 : List Op := Toy.conf 3 (.int 5) ++ [.compose1 100]
/-- before message_3 is processed -/
def waitM3 : List Op := beforeM2 ++ [.compose2 100]
/-- before message_4 is processed -/
def waitM4 : List Op := beforeM3 ++ [.compose3 100]

theorem waitM2_session : Session (Toy.env Toy.alice) Toy.cfg () [] (Toy.hst Toy.alice waitM2) (Toy.after Toy.alice waitM2) :=
  Toy.session Toy.alice waitM2 (by decide +kernel)
theorem waitM3_session : Session (Toy.env Toy.bob) Toy.cfg () [] (Toy.hst Toy.bob waitM3) (Toy.after Toy.bob waitM3) :=
  Toy.session Toy.bob waitM3 (by decide +kernel)
theorem waitM4_session : Session (Toy.env Toy.alice) Toy.cfg () [] (Toy.hst Toy.alice waitM4) (Toy.after Toy.alice waitM4) :=
  Toy.session Toy.alice waitM4 (by decide +kernel)

theorem waitM2_sound : Sound (Toy.env Toy.alice) Toy.cfg (Toy.after Toy.alice waitM2).ctx :=
  Toy.sound Toy.tame_alice (by decide +kernel) (by decide +kernel) (by decide +kernel)
theorem waitM3_sound : Sound (Toy.env Toy.bob) Toy.cfg (Toy.after Toy.bob waitM3).ctx :=
  Toy.sound Toy.tame_bob (by decide +kernel) (by decide +kernel) (by decide +kernel)
theorem waitM4_sound : Sound (Toy.env Toy.alice) Toy.cfg (Toy.after Toy.alice waitM4).ctx :=
  Toy.sound Toy.tame_alice (by decide +kernel) (by decide +kernel) (by decide +kernel)

/-- Non-vacuity: the hypotheses hold in the middle of honest handshakes, where the next message is accepted. -/
example : Sound (Toy.env Toy.alice) Toy.cfg (Toy.after Toy.alice waitM2).ctx ∧
    (step (Toy.env Toy.alice) Toy.cfg (.process2 (Toy.msg 3 2)) (Toy.after Toy.alice waitM2)).1 = .ok .unit ∧
    Sound (Toy.env Toy.bob) Toy.cfg (Toy.after Toy.bob waitM3).ctx ∧
    (step (Toy.env Toy.bob) Toy.cfg (.process3 (Toy.msg 3 3)) (Toy.after Toy.bob waitM3)).1 = .ok .unit :=
  ⟨waitM2_sound, by decide +kernel, waitM3_sound, by decide +kernel⟩

/-- **C26 is violated** by `edhoc_message_2_process`: a message_2 whose byte string is shorter than G_Y, here of one byte,
is read past its end. -/
theorem C26_short_message2_violated : ∃ h s b, Session (Toy.env Toy.alice) Toy.cfg () [] h s ∧
    Sound (Toy.env Toy.alice) Toy.cfg s.ctx ∧ (step (Toy.env Toy.alice) Toy.cfg (.process2 b) s).1 = .ub .oob :=
  ⟨_, _, [0x41, 0], waitM2_session, waitM2_sound, by decide +kernel⟩

/-- a configuration with room for longer key identifiers -/
def longCfg : Config := { Toy.cfg with maxKid := 20 }
/-- a peer whose key identifier has six bytes -/
def longBob : Toy.Party := { Toy.bob with cred := .kid [0x41] false (.bstr [1, 2, 3, 4, 5, 6]) }
@[inherit_doc longBob]
def longAlice : Toy.Party := { Toy.alice with cred := .kid [0x41] false (.bstr [1, 2, 3, 4, 5, 6]) }
/-- message_2 and message_3 of these peers -/
def longM2 : Bytes := Toy.bytesOf (step (Toy.env longBob) longCfg (.compose2 100) (Toy.hist (Toy.env longBob) longCfg beforeM2 Toy.fresh).2).1
@[inherit_doc longM2]
def longM3 : Bytes := Toy.bytesOf (step (Toy.env longAlice) longCfg (.compose3 100) (Toy.hist (Toy.env longAlice) longCfg beforeM3 Toy.fresh).2).1

/-- **C26 is violated** by `edhoc_message_2_process`: a key identifier in PLAINTEXT_2 that is longer than the array for it
is copied anyway. Any peer can send such a message; it is copied before the peer is authenticated. -/
theorem C26_long_kid2_violated : ∃ h s b, Session (Toy.env Toy.alice) Toy.cfg () [] h s ∧
    Sound (Toy.env Toy.alice) Toy.cfg s.ctx ∧ (step (Toy.env Toy.alice) Toy.cfg (.process2 b) s).1 = .ub .oob :=
  ⟨_, _, longM2, waitM2_session, waitM2_sound, by decide +kernel⟩

/-- **C26 is violated** by `edhoc_message_3_process` in the same way. -/
theorem C26_long_kid3_violated : ∃ h s b, Session (Toy.env Toy.bob) Toy.cfg () [] h s ∧
    Sound (Toy.env Toy.bob) Toy.cfg s.ctx ∧ (step (Toy.env Toy.bob) Toy.cfg (.process3 b) s).1 = .ub .oob :=
  ⟨_, _, longM3, waitM3_session, waitM3_sound, by decide +kernel⟩

/-- **C26 is violated** by `edhoc_message_3_process` and `edhoc_message_4_process`: for a ciphertext shorter than the tag
the size of the plaintext wraps around, and a buffer of nearly 2^64 bytes is requested. -/
theorem C26_wrap_violated :
    (∃ h s b, Session (Toy.env Toy.bob) Toy.cfg () [] h s ∧ Sound (Toy.env Toy.bob) Toy.cfg s.ctx ∧
      ∃ ok, Ev.alloc (2 ^ 64 - 2) ok ∈ during s (step (Toy.env Toy.bob) Toy.cfg (.process3 b) s).2) ∧
    (∃ h s b, Session (Toy.env Toy.alice) Toy.cfg () [] h s ∧ Sound (Toy.env Toy.alice) Toy.cfg s.ctx ∧
      ∃ ok, Ev.alloc (2 ^ 64 - 2) ok ∈ during s (step (Toy.env Toy.alice) Toy.cfg (.process4 b) s).2) :=
  ⟨⟨_, _, [0x41, 0], waitM3_session, waitM3_sound, true, by decide +kernel⟩,
    ⟨_, _, [0x41, 0], waitM4_session, waitM4_sound, true, by decide +kernel⟩⟩

/-- before message_1 is processed -/
def waitM1 : List Op := Toy.conf 3 (.int 6)

theorem waitM1_session : Session (Toy.env Toy.bob) Toy.cfg () [] (Toy.hst Toy.bob waitM1) (Toy.after Toy.bob waitM1) :=
  Toy.session Toy.bob waitM1 (by decide +kernel)

theorem waitM1_sound : Sound (Toy.env Toy.bob) Toy.cfg (Toy.after Toy.bob waitM1).ctx :=
  Toy.sound Toy.tame_bob (by decide +kernel) (by decide +kernel) (by decide +kernel)

/-- **C26 is violated** by `edhoc_message_1_process`: the result of the decoder is not looked at, and the decoder has stored
the announced length of the string it found cut off. A message_1 that ends inside G_X, inside C_I, or inside the value of an
EAD item is read past its end. Anybody can send such a message. -/
theorem C26_truncated_message1_violated : ∃ h s, Session (Toy.env Toy.bob) Toy.cfg () [] h s ∧
    Sound (Toy.env Toy.bob) Toy.cfg s.ctx ∧
    (step (Toy.env Toy.bob) Toy.cfg (.process1 [3, 2, 0x42, 0]) s).1 = .ub .oob ∧
    (step (Toy.env Toy.bob) Toy.cfg (.process1 [3, 2, 0x42, 0, 124, 0x42, 9]) s).1 = .ub .oob ∧
    (step (Toy.env Toy.bob) Toy.cfg (.process1 [3, 2, 0x42, 0, 124, 5, 1, 0x42, 9]) s).1 = .ub .oob ∧
    (step (Toy.env Toy.bob) Toy.cfg (.process1 [3, 2, 0x42, 0, 124, 5, 1, 0x41, 9]) s).1 = .ok .unit :=
  ⟨_, _, waitM1_session, waitM1_sound, by decide +kernel, by decide +kernel, by decide +kernel, by decide +kernel⟩

/-- the same G_X with a head that is not the shortest: nothing is there at all (the pointer is null) -/
example : (step (Toy.env Toy.bob) Toy.cfg (.process1 [3, 2, 0x58, 2, 0, 124, 5]) (Toy.after Toy.bob waitM1)).1 = .ub .oob := by
  decide +kernel

/-- a Responder that sends an EAD item with a value of one byte -/
def valueBob : Toy.Party := { Toy.bob with ead := fun m => if m = .msg2 then [⟨1, some [7]⟩] else [] }
/-- its message_2 -/
def valueM2 : Bytes := Toy.bytesOf (step (Toy.env valueBob) Toy.cfg (.compose2 100) (Toy.after valueBob beforeM2)).1

/-- **C26 is violated** by `edhoc_message_2_process`: the application is handed an EAD value of the announced length, even
if it was found cut off. It is enough to flip two bits of an honest message_2 on its way. -/
theorem C26_truncated_ead2_violated : ∃ h s, Session (Toy.env Toy.alice) Toy.cfg () [] h s ∧
    Sound (Toy.env Toy.alice) Toy.cfg s.ctx ∧
    (step (Toy.env Toy.alice) Toy.cfg (.process2 valueM2) s).1 = .ok .unit ∧
    (step (Toy.env Toy.alice) Toy.cfg (.process2 (valueM2.set 17 (valueM2.getD 17 0 ^^^ 3))) s).1 = .ub .oob :=
  ⟨_, _, waitM2_session, waitM2_sound, by decide +kernel, by decide +kernel⟩

/-- **C26 is violated** by `edhoc_message_3_process` and `edhoc_message_4_process` in the same way; here the message must come
from the peer, since it is encrypted with authentication. -/
theorem C26_truncated_ead34_violated :
    (∃ h s b, Session (Toy.env Toy.bob) Toy.cfg () [] h s ∧ Sound (Toy.env Toy.bob) Toy.cfg s.ctx ∧
      (step (Toy.env Toy.bob) Toy.cfg (.process3 b) s).1 = .ub .oob) ∧
    (∃ h s b, Session (Toy.env Toy.alice) Toy.cfg () [] h s ∧ Sound (Toy.env Toy.alice) Toy.cfg s.ctx ∧
      (step (Toy.env Toy.alice) Toy.cfg (.process4 b) s).1 = .ub .oob) :=
  ⟨⟨_, _, [75, 5, 66, 140, 253, 34, 1, 66, 7, 44, 42, 44], waitM3_session, waitM3_sound, by decide +kernel⟩,
    ⟨_, _, [75, 24, 100, 66, 1, 2, 1, 66, 7, 243, 99, 243], waitM4_session, waitM4_sound, by decide +kernel⟩⟩

/-- a configuration with room for a single EAD token, as `CONFIG_LIBEDHOC_MAX_NR_OF_EAD_TOKENS` allows -/
def oneEad : Config := { Toy.cfg with maxEad := 1 }
/-- a Responder that sends three EAD items -/
def eadBob : Toy.Party := { Toy.bob with ead := fun m => if m = .msg2 then [⟨1, none⟩, ⟨2, none⟩, ⟨3, none⟩] else [] }
/-- an Initiator that sends none -/
def plainAlice : Toy.Party := { Toy.alice with ead := fun _ => [] }
/-- message_1 of that Initiator -/
def plainM1 : Bytes := Toy.bytesOf (step (Toy.env plainAlice) oneEad (.compose1 100)
  (Toy.hist (Toy.env plainAlice) oneEad (Toy.conf 3 (.int 5)) Toy.fresh).2).1
/-- message_2 of that Responder -/
def eadM2 : Bytes := Toy.bytesOf (step (Toy.env eadBob) Toy.cfg (.compose2 100)
  (Toy.after eadBob (Toy.conf 3 (.bstr [0x18, 9]) ++ [.process1 plainM1]))).1

/-- why `Sound` asks for room for two EAD tokens: with room for one, a message_2 with three EAD items makes the library
write past the end of the array (it has one element more than configured) -/
theorem C26_ead_violated : ∃ h s b, Session (Toy.env plainAlice) oneEad () [] h s ∧
    AllBound s.ctx ∧ SuitesFit oneEad s.ctx ∧ (step (Toy.env plainAlice) oneEad (.process2 b) s).1 = .ub .oob :=
  ⟨_, _, eadM2, Toy.hist_session waitM2 () [] (by decide +kernel), ⟨by decide +kernel, by decide +kernel, by decide +kernel⟩,
    show ∀ su ∈ _, _ from by decide +kernel, by decide +kernel⟩

end Verif
