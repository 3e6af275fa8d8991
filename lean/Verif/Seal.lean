import Verif.Heads

/-!
# What a call had done when it encrypted message 3 or message 4
-/

namespace Verif

open M Spec

variable {σ α β : Type} {E : Env σ} {cfg : Config} {s s' : St σ}

/-- what is encrypted, and with which associated data -/
theorem aeadEncrypt_event {key iv aad pt : Bytes} {n : Nat} {r : Res Bytes}
    (h : aeadEncrypt E key iv aad pt n s = (r, s')) (hd : r.Defined) {kid i d p : Bytes} {o : Option Bytes}
    (hv : Ev.encrypt kid i d p o ∈ during s s') : i = iv ∧ d = aad ∧ p = pt := by
  generalize hw : Ev.encrypt kid i d p o = v at hv
  have hk : kindless v = false := by rw [← hw]; rfl
  have hn : Not v s.ctx.message s s := ⟨rfl, [], by simp, by simp⟩
  unfold aeadEncrypt at h
  have key : ∀ {x : Res (Option Bytes)} {s2 : St σ},
      withKey E .encrypt key .crypto (fun kid => encrypt E kid iv aad pt) s = (x, s2) → x.Defined →
      v ∈ during s s2 → i = iv ∧ d = aad ∧ p = pt := by
    intro x s2 h hd hv
    unfold withKey at h
    obtain ⟨kk, s3, h1, h, hn⟩ := quiet_step hk (Emits.importKey _ _ _) hn h hd hv
    rw [← hn.1] at hn
    obtain ⟨kk', s4, h1, h, hn⟩ := quiet_step hk (Emits.ofOption _ _) hn h hd hv
    obtain ⟨_, rfl⟩ := ofOption_ok.1 h1
    rcases bind_cases h hd with ⟨a, s5, h1, h⟩ | ⟨e, h1⟩
    · simp only [encrypt, bind_ok, needCrypto_ok, call_ok] at h1
      obtain ⟨_, _, ⟨_, rfl⟩, _, rfl⟩ := h1
      have ht := (Emits.tail (msg := s3.ctx.message) (ks := []) (by quiet1) h hd rfl)
      obtain ⟨hm, es, h5, h6⟩ := hn
      obtain ⟨l, hl⟩ := grow_iff.1 ht.1
      have h7 := ht.2
      unfold during at h7 hv
      rw [hl, List.drop_left] at h7
      rw [hl, h5, List.append_assoc, List.append_assoc, List.drop_left] at hv
      rcases List.mem_append.1 hv with hv | hv
      · exact (h6 hv).elim
      · rcases List.mem_append.1 hv with hv | hv
        · rw [List.mem_singleton, ← hw] at hv
          simp only [Ev.encrypt.injEq] at hv
          exact ⟨hv.2.1, hv.2.2.1, hv.2.2.2.1⟩
        · exact (within_kindless h7 hk hv).elim
    · exfalso
      simp only [encrypt, needCrypto, Bind.bind, M.bind, M.getCtx, M.guardUB, M.call] at h1
      split at h1 <;> rename_i h2 <;> split at h2 <;> simp_all
  rcases bind_cases h hd with ⟨a, s1, h1, h2⟩ | ⟨e, h1⟩
  · by_cases hm : v ∈ during s s1
    · exact key h1 (by simp) hm
    · exfalso
      have ht := Emits.tail (msg := s1.ctx.message) (ks := []) (by quiet1) h2 hd rfl
      have g : Grow s s1 := by
        have := (Emits.tail (msg := s.ctx.message) (ks := [.encrypt])
          (Emits.withKey _ _ _ _ fun _ => Emits.encrypt _ _ _ _ _) h1 (by simp) rfl)
        exact this.1
      rw [during_split g ht.1] at hv
      rcases List.mem_append.1 hv with hv | hv
      · exact hm hv
      · exact within_kindless ht.2 hk hv
  · exact key h1 (by simp) hv

/-- the step that encrypts -/
theorem seal_step {key iv aad pt : Bytes} {n : Nat} {e : Err} {msg : Msg} {kid i d p : Bytes} {o : Option Bytes}
    {f : Bytes → M σ β} {s0 : St σ} {r : Res β} (hn : Not (.encrypt kid i d p o) msg s0 s)
    (h : (M.mapErr e (aeadEncrypt E key iv aad pt n) >>= f) s = (r, s')) (hd : r.Defined)
    (hx : ¬ Not (.encrypt kid i d p o) msg s0 s') (hf : ∀ a, Sans .encrypt msg (f a)) : i = iv ∧ d = aad ∧ p = pt := by
  have part : ∀ {x : Res Bytes} {s1 : St σ}, M.mapErr e (aeadEncrypt E key iv aad pt n) s = (x, s1) → x.Defined →
      Ev.encrypt kid i d p o ∉ during s s1 → Not (.encrypt kid i d p o) msg s0 s1 := by
    intro x s1 h1 h2 h3
    obtain ⟨hm, es, h5, h6⟩ := hn
    have h4 := Emits.mapErr e (Emits.aeadEncrypt E key iv aad pt n) s hm
    rw [h1] at h4
    obtain ⟨h7, es', h8, h9⟩ := h4 h2
    refine ⟨h7, es ++ es', by rw [h8, h5, List.append_assoc], fun hm => (List.mem_append.1 hm).elim h6 fun hm => h3 ?_⟩
    unfold during
    rwa [h8, List.drop_left]
  have whole : ∀ {x : Res Bytes} {s1 : St σ}, M.mapErr e (aeadEncrypt E key iv aad pt n) s = (x, s1) → x.Defined →
      Ev.encrypt kid i d p o ∈ during s s1 → i = iv ∧ d = aad ∧ p = pt := by
    intro x s1 h1 h2 h3
    obtain ⟨r', h4, h5, _⟩ := mapErr_defined h1 h2
    exact aeadEncrypt_event h4 h5 h3
  rcases bind_cases h hd with ⟨a, s1, h1, h2⟩ | ⟨e, h1⟩
  · by_cases hv : Ev.encrypt kid i d p o ∈ during s s1
    · exact whole h1 (by simp) hv
    · exact absurd ((hf a).after .encrypt (part h1 (by simp) hv) h2 hd) hx
  · by_cases hv : Ev.encrypt kid i d p o ∈ during s s'
    · exact whole h1 (by simp) hv
    · exact absurd (part h1 (by simp) hv) hx

/-- `edhoc_message_4_compose` encrypted with TH_4 in the associated data. -/
theorem message4Compose_seal {size : Nat} {r : Res Bytes} (h : message4Compose E cfg size s = (r, s')) (hd : r.Defined)
    {kid i d p : Bytes} {o : Option Bytes} (hv : Ev.encrypt kid i d p o ∈ during s s') :
    okCompleted s.ctx = true ∧ d = Spec.encStructure s.ctx.th := by
  unfold message4Compose at h
  obtain ⟨s1, h1, h, hn, hx⟩ := Not.enter h hd hv
  obtain ⟨e1, c1, l1⟩ := enter_st h1
  obtain ⟨_, s2, h2, h, hn⟩ := Sans.step (Emits.eadCompose E cfg).sans .encrypt hn h hd hx
  obtain ⟨ts, c2, w2⟩ := eadCompose_ok h2
  obtain ⟨_, _, hc, h, hn⟩ := Sans.step Emits.getCtx.sans .encrypt hn h hd hx
  obtain ⟨rfl, rfl⟩ := getCtx_ok.1 hc
  obtain ⟨_, s3, h3, h, hn⟩ := Sans.step (Emits.memAlloc E cfg _).sans .encrypt hn h hd hx
  obtain ⟨c3, _⟩ := memAlloc_ok h3
  obtain ⟨_, _, h4, h, hn⟩ := Sans.step (Emits.ofRes _).sans .encrypt hn h hd hx
  obtain ⟨_, rfl⟩ := ofRes_ok.1 h4
  obtain ⟨kia, s5, h5, h, hn⟩ := Sans.step (Emits.keyIvAad4 E cfg).sans .encrypt hn h hd hx
  obtain ⟨c5, _, w5⟩ := keyIvAad4_ok h5
  obtain ⟨_, s6, h6, h, hn⟩ := Sans.step (Emits.memAlloc E cfg _).sans .encrypt hn h hd hx
  obtain ⟨_, hd', _⟩ := seal_step hn h hd hx fun _ => ⟨[], by quiet2, by decide⟩
  obtain ⟨_, haad⟩ := w5.keys
  refine ⟨e1, ?_⟩
  rw [hd', haad, c3, c2, c1]

/-- `edhoc_message_3_compose` encrypted with TH_3 in the associated data. -/
theorem message3Compose_seal {size : Nat} {r : Res Bytes} (h : message3Compose E cfg size s = (r, s')) (hd : r.Defined)
    {kid i d p : Bytes} {o : Option Bytes} (hv : Ev.encrypt kid i d p o ∈ during s s') :
    okVerifiedM2 s.ctx = true ∧ d = Spec.encStructure s.ctx.th := by
  unfold message3Compose at h
  obtain ⟨s1, h1, h, hn, hx⟩ := Not.enter h hd hv
  obtain ⟨e1, c1, l1⟩ := enter_st h1
  obtain ⟨_, s2, h2, h, hn⟩ := Sans.step (Emits.eadCompose E cfg).sans .encrypt hn h hd hx
  obtain ⟨ts, c2, w2⟩ := eadCompose_ok h2
  obtain ⟨f', s3, h3, h, hn⟩ := Sans.step (Emits.credFetch E).sans .encrypt hn h hd hx
  obtain ⟨f, s4, h4, h, hn⟩ := Sans.step (Emits.ofOption _ _).sans .encrypt hn h hd hx
  obtain ⟨c4, l4⟩ := fetch_ok h3 h4
  obtain ⟨kia, s5, h5, h, hn⟩ := Sans.step (Emits.keyIvAad3 E cfg).sans .encrypt hn h hd hx
  obtain ⟨c5, _, w5⟩ := keyIvAad3_ok h5
  obtain ⟨_, s6, h6, h, hn⟩ := Sans.step (Emits.mapErr _ (Emits.compPrk4e3m E cfg _ _)).sans .encrypt hn h hd hx
  obtain ⟨m, s7, h7, h, hn⟩ := Sans.step (Emits.buildMacCtx E cfg _ _).sans .encrypt hn h hd hx
  obtain ⟨_, _, hc, h, hn⟩ := Sans.step Emits.getCtx.sans .encrypt hn h hd hx
  obtain ⟨macLen, _, _, h, hn⟩ := Sans.step (Emits.ofRes _).sans .encrypt hn h hd hx
  obtain ⟨_, s9, _, h, hn⟩ := Sans.step (Emits.memAlloc E cfg _).sans .encrypt hn h hd hx
  obtain ⟨mac, s10, _, h, hn⟩ := Sans.step (Emits.mapErr _ (Emits.compMac E cfg _ _)).sans .encrypt hn h hd hx
  obtain ⟨_, _, _, h, hn⟩ := Sans.step (Emits.ofRes _).sans .encrypt hn h hd hx
  obtain ⟨_, _, _, h, hn⟩ := Sans.step (Emits.memAlloc E cfg _).sans .encrypt hn h hd hx
  obtain ⟨_, _, _, h, hn⟩ := Sans.step (Emits.compSignOrMac E cfg _ _ _ _).sans .encrypt hn h hd hx
  obtain ⟨_, _, _, h, hn⟩ := Sans.step (Emits.ofRes _).sans .encrypt hn h hd hx
  obtain ⟨_, _, _, h, hn⟩ := Sans.step (Emits.memAlloc E cfg _).sans .encrypt hn h hd hx
  obtain ⟨_, _, _, h, hn⟩ := Sans.step (Emits.ofRes _).sans .encrypt hn h hd hx
  obtain ⟨_, _, _, h, hn⟩ := Sans.step (Emits.memAlloc E cfg _).sans .encrypt hn h hd hx
  obtain ⟨_, hd', _⟩ := seal_step hn h hd hx fun _ => ⟨[], by quiet2, by decide⟩
  obtain ⟨_, haad⟩ := w5.keys
  refine ⟨e1, ?_⟩
  rw [hd', haad, c4, c2, c1]

end Verif
