import Verif.SealKey

/-!
# Which key a call decrypts message 3 or message 4 with
-/

namespace Verif

open M Spec

variable {σ α β : Type} {E : Env σ} {cfg : Config} {s s' : St σ}

/-- the calls of a decryption: import, decrypt, and nothing of interest after it -/
def OpenLog (key iv aad ct : Bytes) (v : Ev) (s s' : St σ) : Prop :=
  ∃ kk o tl, s'.log = s.log ++ ([.importKey .decrypt key (some kk), .decrypt kk iv aad ct o] ++ tl) ∧ v ∉ tl

theorem OpenLog.more {key iv aad ct : Bytes} {v : Ev} {s1 : St σ} (h : OpenLog key iv aad ct v s s1) (g : Grow s1 s')
    (hv : v ∉ during s1 s') : OpenLog key iv aad ct v s s' := by
  obtain ⟨kk, o, tl, h1, h2⟩ := h
  obtain ⟨l, hl⟩ := grow_iff.1 g
  unfold during at hv
  rw [hl, List.drop_left] at hv
  exact ⟨kk, o, tl ++ l, by rw [hl, h1]; simp [List.append_assoc], fun hm => (List.mem_append.1 hm).elim h2 hv⟩

theorem aeadDecrypt_log {key iv aad ct : Bytes} {n : Nat} {r : Res Bytes}
    (h : aeadDecrypt E key iv aad ct n s = (r, s')) (hd : r.Defined) {kid i d p : Bytes} {o : Option Bytes}
    (hv : Ev.decrypt kid i d p o ∈ during s s') : OpenLog key iv aad ct (.decrypt kid i d p o) s s' := by
  generalize hw : Ev.decrypt kid i d p o = v at hv
  have hk : kindless v = false := by rw [← hw]; rfl
  have hn : Not v s.ctx.message s s := ⟨rfl, [], by simp, by simp⟩
  unfold aeadDecrypt at h
  have main : ∀ {x : Res (Option Bytes)} {s2 : St σ},
      withKey E .decrypt key .crypto (fun kid => decrypt E kid iv aad ct) s = (x, s2) → x.Defined →
      v ∈ during s s2 → OpenLog key iv aad ct v s s2 := by
    intro x s2 h hd hv
    unfold withKey at h
    obtain ⟨kk, s3, h0, h, hn⟩ := quiet_step hk (Emits.importKey _ _ _) hn h hd hv
    rw [← hn.1] at hn
    obtain ⟨kk', s4, h1, h, hn⟩ := quiet_step hk (Emits.ofOption _ _) hn h hd hv
    obtain ⟨rfl, rfl⟩ := ofOption_ok.1 h1
    simp only [importKey, bind_ok, needKeys_ok, call_ok] at h0
    obtain ⟨_, _, ⟨_, rfl⟩, e0, rfl⟩ := h0
    rcases bind_cases h hd with ⟨a, s5, h1, h⟩ | ⟨e, h1⟩
    · simp only [decrypt, bind_ok, needCrypto_ok, call_ok] at h1
      obtain ⟨_, _, ⟨_, rfl⟩, e1, rfl⟩ := h1
      have ht := (Emits.tail (msg := s.ctx.message) (ks := []) (by quiet1) h hd rfl)
      refine OpenLog.more ⟨kk', a, [], ?_, by simp⟩ ht.1 fun hv => within_kindless ht.2 hk hv
      simp [← e0, ← e1]
    · exfalso
      simp only [decrypt, needCrypto, Bind.bind, M.bind, M.getCtx, M.guardUB, M.call] at h1
      split at h1 <;> rename_i h2 <;> split at h2 <;> simp_all
  rcases bind_cases h hd with ⟨a, s1, h1, h2⟩ | ⟨e, h1⟩
  · have ht := Emits.tail (msg := s1.ctx.message) (ks := []) (by quiet1) h2 hd rfl
    have g : Grow s s1 := (Emits.tail (msg := s.ctx.message) (ks := [.decrypt])
          (Emits.withKey _ _ _ _ fun _ => Emits.decrypt _ _ _ _ _) h1 (by simp) rfl).1
    have no : v ∉ during s1 s' := fun hv => within_kindless ht.2 hk hv
    rw [during_split g ht.1] at hv
    rcases List.mem_append.1 hv with hv | hv
    · exact (main h1 (by simp) hv).more ht.1 no
    · exact absurd hv no
  · exact main h1 (by simp) hv

/-- the step that decrypts, and its key -/
theorem open_key {key iv aad ct : Bytes} {e : Err} {msg : Msg} {k kid kid' i d p : Bytes} {o : Option Bytes} {m : M σ Bytes}
    {ks : List Kind} (he : Emits msg m ks)
    (hlog : ∀ {x : Res Bytes} {s1 : St σ}, m s = (x, s1) → x.Defined → Ev.decrypt kid i d p o ∈ during s s1 →
      OpenLog key iv aad ct (.decrypt kid i d p o) s s1)
    {f : Bytes → M σ β} {s0 : St σ} {r : Res β} (hn : Not (.decrypt kid i d p o) msg s0 s)
    (h : (M.mapErr e m >>= f) s = (r, s')) (hd : r.Defined)
    (hx : ¬ Not (.decrypt kid i d p o) msg s0 s') (hf : ∀ a, Sans .decrypt msg (f a))
    (hm : Made [.importKey .decrypt k (some kid'), .decrypt kid i d p o] (during s0 s')) : k = key ∧ i = iv ∧ Grow s s' := by
  have part : ∀ {x : Res Bytes} {s1 : St σ}, M.mapErr e m s = (x, s1) → x.Defined →
      s1.ctx.message = msg ∧ Grow s s1 ∧
        (Ev.decrypt kid i d p o ∉ during s s1 → Not (.decrypt kid i d p o) msg s0 s1) ∧
        (Ev.decrypt kid i d p o ∈ during s s1 → OpenLog key iv aad ct (.decrypt kid i d p o) s s1) := by
    intro x s1 h1 h2
    obtain ⟨hm, es, h5, h6⟩ := hn
    have h4 := Emits.mapErr e he s hm
    rw [h1] at h4
    obtain ⟨h7, es', h8, h9⟩ := h4 h2
    refine ⟨h7, grow_iff.2 ⟨es', h8⟩, fun h3 => ⟨h7, es ++ es', by rw [h8, h5, List.append_assoc],
      fun hm => (List.mem_append.1 hm).elim h6 fun hm => h3 ?_⟩, fun h3 => ?_⟩
    · unfold during
      rwa [h8, List.drop_left]
    · obtain ⟨r', h4, h5, _⟩ := mapErr_defined h1 h2
      exact hlog h4 h5 h3
  have whole : OpenLog key iv aad ct (.decrypt kid i d p o) s s' := by
    rcases bind_cases h hd with ⟨a, s1, h1, h2⟩ | ⟨e, h1⟩
    · obtain ⟨q1, q2, q3, q4⟩ := part h1 (by simp)
      by_cases hv : Ev.decrypt kid i d p o ∈ during s s1
      · have hn1 : Not (.decrypt kid i d p o) msg s1 s1 := ⟨q1, [], by simp, by simp⟩
        have hn2 := (hf a).after .decrypt hn1 h2 hd
        exact (q4 hv).more hn2.grow hn2.not_mem
      · exact absurd ((hf a).after .decrypt (q3 hv) h2 hd) hx
    · obtain ⟨q1, q2, q3, q4⟩ := part h1 (by simp)
      by_cases hv : Ev.decrypt kid i d p o ∈ during s s'
      · exact q4 hv
      · exact absurd (q3 hv) hx
  obtain ⟨kk, o', tl, h1, h2⟩ := whole
  obtain ⟨_, es, h5, h6⟩ := hn
  have hl : during s0 s' = es ++ [.importKey .decrypt key (some kk)] ++ .decrypt kk iv aad ct o' :: tl := by
    unfold during
    rw [h1, h5, List.append_assoc, List.drop_left]
    simp
  obtain ⟨A, B, hm⟩ := hm
  rw [hl] at hm
  have hm : A ++ [.importKey .decrypt k (some kid')] ++ .decrypt kid i d p o :: B =
      es ++ [.importKey .decrypt key (some kk)] ++ .decrypt kk iv aad ct o' :: tl := by rw [← hm]; simp
  have hin : Ev.decrypt kid i d p o ∈ es ++ [.importKey .decrypt key (some kk)] ++ .decrypt kk iv aad ct o' :: tl := by
    rw [← hm]; simp
  simp only [List.mem_append, List.mem_cons, h6, h2, false_or, or_false, reduceCtorEq, List.not_mem_nil] at hin
  rw [← hin] at hm
  obtain ⟨h7, _⟩ := split_unique (by simp [h6]) h2 hm.symm
  obtain ⟨_, h8⟩ := List.append_inj' h7 rfl
  simp only [List.cons.injEq, Ev.importKey.injEq, and_true, true_and] at h8
  simp only [Ev.decrypt.injEq] at hin
  exact ⟨h8.1.symm, hin.2.1, grow_iff.2 ⟨_, h1⟩⟩

/-- `edhoc_message_4_process` decrypts with K_4 and IV_4. -/
theorem message4Process_key {msg : Bytes} {r : Res Unit} (h : message4Process E cfg msg s = (r, s')) (hd : r.Defined)
    {k kid kid' i d p : Bytes} {o : Option Bytes}
    (hv : Made [.importKey .decrypt k (some kid'), .decrypt kid i d p o] (during s s')) :
    okCompleted s.ctx = true ∧ AeadKeys 8 9 s.ctx.prk s.ctx.th s.ctx.suite k i s s' := by
  have hm := hv
  replace hv : Ev.decrypt kid i d p o ∈ during s s' := hv.subset (by simp)
  unfold message4Process at h
  obtain ⟨s1, h1, h, hn, hx⟩ := Not.enter h hd hv
  obtain ⟨e1, c1, l1⟩ := enter_st h1
  obtain ⟨_, s2, h2, h, hn⟩ := Sans.step (Emits.ofOption _ _).sans .decrypt hn h hd hx
  obtain ⟨_, rfl⟩ := ofOption_ok.1 h2
  have hn4 := hn
  obtain ⟨kia, s5, h5, h, hn⟩ := Sans.step (Emits.keyIvAad4 E cfg).sans .decrypt hn h hd hx
  obtain ⟨_, _, w5⟩ := keyIvAad4_ok h5
  obtain ⟨_, _, _, h, hn, g6⟩ := Sans.walk Emits.getCtx.sans .decrypt hn h hd hx
  obtain ⟨_, s6, _, h, hn, g⟩ := Sans.walk (Emits.memAlloc E cfg _).sans .decrypt hn h hd hx
  replace g6 := g6.trans g
  obtain ⟨rfl, rfl, g7⟩ := open_key (Emits.aeadDecrypt _ _ _ _ _ _) (fun h hd hv => aeadDecrypt_log h hd hv) hn h hd hx
    (fun _ => ⟨[.eadProcess .msg4], by
      steps2
      refine Emits.bindL (Emits.eadProcess _ _) fun _ => ?_
      quiet2, by decide⟩) hm
  obtain ⟨w, _⟩ := w5.keys
  rw [c1] at w
  exact ⟨e1, w.1.mid hn4.grow (g6.trans g7), w.2.mid hn4.grow (g6.trans g7)⟩

/-- `edhoc_message_3_process` decrypts with K_3 and IV_3. -/
theorem message3Process_key {msg : Bytes} {r : Res Unit} (h : message3Process E cfg msg s = (r, s')) (hd : r.Defined)
    {k kid kid' i d p : Bytes} {o : Option Bytes}
    (hv : Made [.importKey .decrypt k (some kid'), .decrypt kid i d p o] (during s s')) :
    okWaitM3 s.ctx = true ∧ AeadKeys 3 4 s.ctx.prk s.ctx.th s.ctx.suite k i s s' := by
  have hm := hv
  replace hv : Ev.decrypt kid i d p o ∈ during s s' := hv.subset (by simp)
  unfold message3Process at h
  obtain ⟨s1, h1, h, hn, hx⟩ := Not.enter h hd hv
  obtain ⟨e1, c1, l1⟩ := enter_st h1
  obtain ⟨_, s2, h2, h, hn⟩ := Sans.step (Emits.ofOption _ _).sans .decrypt hn h hd hx
  obtain ⟨_, rfl⟩ := ofOption_ok.1 h2
  have hn4 := hn
  obtain ⟨kia, s5, h5, h, hn⟩ := Sans.step (Emits.keyIvAad3 E cfg).sans .decrypt hn h hd hx
  obtain ⟨_, _, w5⟩ := keyIvAad3_ok h5
  obtain ⟨_, _, _, h, hn, g6⟩ := Sans.walk Emits.getCtx.sans .decrypt hn h hd hx
  obtain ⟨_, s6, _, h, hn, g⟩ := Sans.walk (Emits.memAlloc E cfg _).sans .decrypt hn h hd hx
  replace g6 := g6.trans g
  obtain ⟨rfl, rfl, g7⟩ := open_key (aad := kia.2.2) (ks := [.decrypt])
    (Emits.bind0 (Emits.require _ _) fun _ => Emits.aeadDecrypt _ _ _ _ _ _) (fun h hd hv => by
      rcases bind_cases h hd with ⟨a, s7, h7, h8⟩ | ⟨e, h7⟩
      · obtain ⟨_, rfl⟩ := require_ok.1 h7
        exact aeadDecrypt_log h8 hd hv
      · exfalso
        have : Not (.decrypt kid i d p o) _ _ _ := (Emits.require _ _).sans (k := .decrypt) |>.after .decrypt
          (⟨rfl, [], by simp, by simp⟩ : Not _ s6.ctx.message s6 s6) h7 (by simp)
        exact this.not_mem hv) hn h hd hx
    (fun _ => ⟨[.eadProcess .msg3, .credVerify, .derive 5, .derive 6, .verify], by
      steps2
      refine Emits.bindL (Emits.eadProcess _ _) fun _ => ?_
      refine Emits.bindL (Emits.verifyCred _ _) fun _ => ?_
      refine Emits.bindL (Emits.mapErr _ (Emits.compPrk4e3m _ _ _ _)) fun _ => ?_
      steps2
      refine Emits.bindL (Emits.mapErr _ (Emits.compMac _ _ _ _)) fun _ => ?_
      refine Emits.bindL (Emits.mapErr _ (Emits.verifySignOrMac _ _ _ _ _ _)) fun _ => ?_
      quiet2, by decide⟩) hm
  obtain ⟨w, _⟩ := w5.keys
  rw [c1] at w
  exact ⟨e1, w.1.mid hn4.grow (g6.trans g7), w.2.mid hn4.grow (g6.trans g7)⟩

end Verif
