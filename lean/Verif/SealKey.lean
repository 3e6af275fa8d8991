import Verif.Seal

/-!
# Which key a call encrypts message 3 or message 4 with
-/

namespace Verif

open M Spec

variable {σ α β : Type} {E : Env σ} {cfg : Config} {s s' : St σ}

theorem split_unique {α : Type} {v : α} {X Y A B : List α} (hx : v ∉ X) (hy : v ∉ Y) (h : X ++ v :: Y = A ++ v :: B) :
    X = A ∧ Y = B := by
  induction X generalizing A with
  | nil =>
    cases A with
    | nil => simpa using h
    | cons a A =>
      simp only [List.nil_append, List.cons_append, List.cons.injEq] at h
      exact absurd (h.2 ▸ by simp) hy
  | cons x X ih =>
    cases A with
    | nil =>
      simp only [List.nil_append, List.cons_append, List.cons.injEq] at h
      exact absurd (by simp [h.1]) hx
    | cons a A =>
      simp only [List.cons_append, List.cons.injEq] at h
      obtain ⟨h1, h2⟩ := ih (fun hm => hx (List.mem_cons_of_mem _ hm)) h.2
      exact ⟨by rw [h.1, h1], h2⟩

/-- the calls of an encryption: import, encrypt, and nothing of interest after it -/
def SealLog (key iv aad pt : Bytes) (v : Ev) (s s' : St σ) : Prop :=
  ∃ kk o tl, s'.log = s.log ++ ([.importKey .encrypt key (some kk), .encrypt kk iv aad pt o] ++ tl) ∧ v ∉ tl

theorem SealLog.more {key iv aad pt : Bytes} {v : Ev} {s1 : St σ} (h : SealLog key iv aad pt v s s1) (g : Grow s1 s')
    (hv : v ∉ during s1 s') : SealLog key iv aad pt v s s' := by
  obtain ⟨kk, o, tl, h1, h2⟩ := h
  obtain ⟨l, hl⟩ := grow_iff.1 g
  unfold during at hv
  rw [hl, List.drop_left] at hv
  exact ⟨kk, o, tl ++ l, by rw [hl, h1]; simp [List.append_assoc], fun hm => (List.mem_append.1 hm).elim h2 hv⟩

theorem aeadEncrypt_log {key iv aad pt : Bytes} {n : Nat} {r : Res Bytes}
    (h : aeadEncrypt E key iv aad pt n s = (r, s')) (hd : r.Defined) {kid i d p : Bytes} {o : Option Bytes}
    (hv : Ev.encrypt kid i d p o ∈ during s s') : SealLog key iv aad pt (.encrypt kid i d p o) s s' := by
  generalize hw : Ev.encrypt kid i d p o = v at hv
  have hk : kindless v = false := by rw [← hw]; rfl
  have hn : Not v s.ctx.message s s := ⟨rfl, [], by simp, by simp⟩
  unfold aeadEncrypt at h
  have main : ∀ {x : Res (Option Bytes)} {s2 : St σ},
      withKey E .encrypt key .crypto (fun kid => encrypt E kid iv aad pt) s = (x, s2) → x.Defined →
      v ∈ during s s2 → SealLog key iv aad pt v s s2 := by
    intro x s2 h hd hv
    unfold withKey at h
    obtain ⟨kk, s3, h0, h, hn⟩ := quiet_step hk (Emits.importKey _ _ _) hn h hd hv
    rw [← hn.1] at hn
    obtain ⟨kk', s4, h1, h, hn⟩ := quiet_step hk (Emits.ofOption _ _) hn h hd hv
    obtain ⟨rfl, rfl⟩ := ofOption_ok.1 h1
    simp only [importKey, bind_ok, needKeys_ok, call_ok] at h0
    obtain ⟨_, _, ⟨_, rfl⟩, e0, rfl⟩ := h0
    rcases bind_cases h hd with ⟨a, s5, h1, h⟩ | ⟨e, h1⟩
    · simp only [encrypt, bind_ok, needCrypto_ok, call_ok] at h1
      obtain ⟨_, _, ⟨_, rfl⟩, e1, rfl⟩ := h1
      have ht := (Emits.tail (msg := s.ctx.message) (ks := []) (by quiet1) h hd rfl)
      refine SealLog.more ⟨kk', a, [], ?_, by simp⟩ ht.1 fun hv => within_kindless ht.2 hk hv
      simp [← e0, ← e1]
    · exfalso
      simp only [encrypt, needCrypto, Bind.bind, M.bind, M.getCtx, M.guardUB, M.call] at h1
      split at h1 <;> rename_i h2 <;> split at h2 <;> simp_all
  rcases bind_cases h hd with ⟨a, s1, h1, h2⟩ | ⟨e, h1⟩
  · have ht := Emits.tail (msg := s1.ctx.message) (ks := []) (by quiet1) h2 hd rfl
    have g : Grow s s1 := (Emits.tail (msg := s.ctx.message) (ks := [.encrypt])
          (Emits.withKey _ _ _ _ fun _ => Emits.encrypt _ _ _ _ _) h1 (by simp) rfl).1
    have no : v ∉ during s1 s' := fun hv => within_kindless ht.2 hk hv
    rw [during_split g ht.1] at hv
    rcases List.mem_append.1 hv with hv | hv
    · exact (main h1 (by simp) hv).more ht.1 no
    · exact absurd hv no
  · exact main h1 (by simp) hv

/-- the step that encrypts, and its key -/
theorem seal_key {key iv aad pt : Bytes} {n : Nat} {e : Err} {msg : Msg} {k kid kid' i d p : Bytes} {o : Option Bytes}
    {f : Bytes → M σ β} {s0 : St σ} {r : Res β} (hn : Not (.encrypt kid i d p o) msg s0 s)
    (h : (M.mapErr e (aeadEncrypt E key iv aad pt n) >>= f) s = (r, s')) (hd : r.Defined)
    (hx : ¬ Not (.encrypt kid i d p o) msg s0 s') (hf : ∀ a, Sans .encrypt msg (f a))
    (hm : Made [.importKey .encrypt k (some kid'), .encrypt kid i d p o] (during s0 s')) : k = key ∧ i = iv ∧ Grow s s' := by
  have part : ∀ {x : Res Bytes} {s1 : St σ}, M.mapErr e (aeadEncrypt E key iv aad pt n) s = (x, s1) → x.Defined →
      s1.ctx.message = msg ∧ Grow s s1 ∧
        (Ev.encrypt kid i d p o ∉ during s s1 → Not (.encrypt kid i d p o) msg s0 s1) ∧
        (Ev.encrypt kid i d p o ∈ during s s1 → SealLog key iv aad pt (.encrypt kid i d p o) s s1) := by
    intro x s1 h1 h2
    obtain ⟨hm, es, h5, h6⟩ := hn
    have h4 := Emits.mapErr e (Emits.aeadEncrypt E key iv aad pt n) s hm
    rw [h1] at h4
    obtain ⟨h7, es', h8, h9⟩ := h4 h2
    refine ⟨h7, grow_iff.2 ⟨es', h8⟩, fun h3 => ⟨h7, es ++ es', by rw [h8, h5, List.append_assoc],
      fun hm => (List.mem_append.1 hm).elim h6 fun hm => h3 ?_⟩, fun h3 => ?_⟩
    · unfold during
      rwa [h8, List.drop_left]
    · obtain ⟨r', h4, h5, _⟩ := mapErr_defined h1 h2
      exact aeadEncrypt_log h4 h5 h3
  have whole : SealLog key iv aad pt (.encrypt kid i d p o) s s' := by
    rcases bind_cases h hd with ⟨a, s1, h1, h2⟩ | ⟨e, h1⟩
    · obtain ⟨q1, q2, q3, q4⟩ := part h1 (by simp)
      by_cases hv : Ev.encrypt kid i d p o ∈ during s s1
      · have hn1 : Not (.encrypt kid i d p o) msg s1 s1 := ⟨q1, [], by simp, by simp⟩
        have hn2 := (hf a).after .encrypt hn1 h2 hd
        obtain ⟨_, es, h8, _⟩ := id hn2
        exact (q4 hv).more (grow_iff.2 ⟨es, h8⟩) hn2.not_mem
      · exact absurd ((hf a).after .encrypt (q3 hv) h2 hd) hx
    · obtain ⟨q1, q2, q3, q4⟩ := part h1 (by simp)
      by_cases hv : Ev.encrypt kid i d p o ∈ during s s'
      · exact q4 hv
      · exact absurd (q3 hv) hx
  obtain ⟨kk, o', tl, h1, h2⟩ := whole
  obtain ⟨_, es, h5, h6⟩ := hn
  have hl : during s0 s' = es ++ [.importKey .encrypt key (some kk)] ++ .encrypt kk iv aad pt o' :: tl := by
    unfold during
    rw [h1, h5, List.append_assoc, List.drop_left]
    simp
  obtain ⟨A, B, hm⟩ := hm
  rw [hl] at hm
  have hm : A ++ [.importKey .encrypt k (some kid')] ++ .encrypt kid i d p o :: B =
      es ++ [.importKey .encrypt key (some kk)] ++ .encrypt kk iv aad pt o' :: tl := by rw [← hm]; simp
  have hin : Ev.encrypt kid i d p o ∈ es ++ [.importKey .encrypt key (some kk)] ++ .encrypt kk iv aad pt o' :: tl := by
    rw [← hm]; simp
  simp only [List.mem_append, List.mem_cons, h6, h2, false_or, or_false, reduceCtorEq, List.not_mem_nil] at hin
  rw [← hin] at hm
  obtain ⟨h7, _⟩ := split_unique (by simp [h6]) h2 hm.symm
  obtain ⟨_, h8⟩ := List.append_inj' h7 rfl
  simp only [List.cons.injEq, Ev.importKey.injEq, and_true, true_and] at h8
  simp only [Ev.encrypt.injEq] at hin
  exact ⟨h8.1.symm, hin.2.1, grow_iff.2 ⟨_, h1⟩⟩

theorem Sans.walk {k : Kind} {v : Ev} {msg : Msg} {m : M σ α} (hm : Sans k msg m) (hv : IsKind k v) {f : α → M σ β}
    {s0 s s' : St σ} {r : Res β} (hn : Not v msg s0 s) (h : (m >>= f) s = (r, s')) (hd : r.Defined)
    (hx : ¬ Not v msg s0 s') : ∃ a s1, m s = (.ok a, s1) ∧ f a s1 = (r, s') ∧ Not v msg s0 s1 ∧ Grow s s1 := by
  obtain ⟨a, s1, h1, h2, h3⟩ := hm.step hv hn h hd hx
  obtain ⟨_, es, h4, _⟩ := hm.after (s0 := s) hv ⟨hn.1, [], by simp, by simp⟩ h1 (by simp)
  exact ⟨a, s1, h1, h2, h3, grow_iff.2 ⟨es, h4⟩⟩

theorem Not.grow {v : Ev} {msg : Msg} {s0 s : St σ} (h : Not v msg s0 s) : Grow s0 s := by
  obtain ⟨_, es, h, _⟩ := h
  exact grow_iff.2 ⟨es, h⟩

/-- `edhoc_message_4_compose` encrypts with K_4 and IV_4. -/
theorem message4Compose_key {size : Nat} {r : Res Bytes} (h : message4Compose E cfg size s = (r, s')) (hd : r.Defined)
    {k kid kid' i d p : Bytes} {o : Option Bytes}
    (hv : Made [.importKey .encrypt k (some kid'), .encrypt kid i d p o] (during s s')) :
    okCompleted s.ctx = true ∧ AeadKeys 8 9 s.ctx.prk s.ctx.th s.ctx.suite k i s s' := by
  have hm := hv
  replace hv : Ev.encrypt kid i d p o ∈ during s s' := hv.subset (by simp)
  unfold message4Compose at h
  obtain ⟨s1, h1, h, hn, hx⟩ := Not.enter h hd hv
  obtain ⟨e1, c1, l1⟩ := enter_st h1
  obtain ⟨_, s2, h2, h, hn⟩ := Sans.step (Emits.eadCompose E cfg).sans .encrypt hn h hd hx
  obtain ⟨ts, c2, w2⟩ := eadCompose_ok h2
  obtain ⟨_, _, hc, h, hn⟩ := Sans.step Emits.getCtx.sans .encrypt hn h hd hx
  obtain ⟨rfl, rfl⟩ := getCtx_ok.1 hc
  obtain ⟨_, s3, h3, h, hn⟩ := Sans.step (Emits.memAlloc E cfg _).sans .encrypt hn h hd hx
  obtain ⟨c3, _⟩ := memAlloc_ok h3
  obtain ⟨_, _, h4, h, hn⟩ := Sans.step (Emits.ofRes _).sans .encrypt hn h hd hx
  obtain ⟨_, rfl⟩ := ofRes_ok.1 h4
  have hn4 := hn
  obtain ⟨kia, s5, h5, h, hn⟩ := Sans.step (Emits.keyIvAad4 E cfg).sans .encrypt hn h hd hx
  obtain ⟨_, _, w5⟩ := keyIvAad4_ok h5
  obtain ⟨_, s6, _, h, hn, g6⟩ := Sans.walk (Emits.memAlloc E cfg _).sans .encrypt hn h hd hx
  obtain ⟨rfl, rfl, g7⟩ := seal_key hn h hd hx (fun _ => ⟨[], by quiet2, by decide⟩) hm
  obtain ⟨w, _⟩ := w5.keys
  rw [c3, c2, c1] at w
  exact ⟨e1, w.1.mid hn4.grow (g6.trans g7), w.2.mid hn4.grow (g6.trans g7)⟩

/-- `edhoc_message_3_compose` encrypts with K_3 and IV_3. -/
theorem message3Compose_key {size : Nat} {r : Res Bytes} (h : message3Compose E cfg size s = (r, s')) (hd : r.Defined)
    {k kid kid' i d p : Bytes} {o : Option Bytes}
    (hv : Made [.importKey .encrypt k (some kid'), .encrypt kid i d p o] (during s s')) :
    okVerifiedM2 s.ctx = true ∧ AeadKeys 3 4 s.ctx.prk s.ctx.th s.ctx.suite k i s s' := by
  have hm := hv
  replace hv : Ev.encrypt kid i d p o ∈ during s s' := hv.subset (by simp)
  unfold message3Compose at h
  obtain ⟨s1, h1, h, hn, hx⟩ := Not.enter h hd hv
  obtain ⟨e1, c1, l1⟩ := enter_st h1
  obtain ⟨_, s2, h2, h, hn⟩ := Sans.step (Emits.eadCompose E cfg).sans .encrypt hn h hd hx
  obtain ⟨ts, c2, w2⟩ := eadCompose_ok h2
  obtain ⟨f', s3, h3, h, hn⟩ := Sans.step (Emits.credFetch E).sans .encrypt hn h hd hx
  obtain ⟨f, s4, h4, h, hn⟩ := Sans.step (Emits.ofOption _ _).sans .encrypt hn h hd hx
  obtain ⟨c4, l4⟩ := fetch_ok h3 h4
  have hn4 := hn
  obtain ⟨kia, s5, h5, h, hn⟩ := Sans.step (Emits.keyIvAad3 E cfg).sans .encrypt hn h hd hx
  obtain ⟨_, _, w5⟩ := keyIvAad3_ok h5
  obtain ⟨_, _, _, h, hn, g1⟩ := Sans.walk (Emits.mapErr _ (Emits.compPrk4e3m E cfg _ _)).sans .encrypt hn h hd hx
  obtain ⟨_, _, _, h, hn, g⟩ := Sans.walk (Emits.buildMacCtx E cfg _ _).sans .encrypt hn h hd hx
  replace g1 := g1.trans g
  obtain ⟨_, _, _, h, hn, g⟩ := Sans.walk Emits.getCtx.sans .encrypt hn h hd hx
  replace g1 := g1.trans g
  obtain ⟨_, _, _, h, hn, g⟩ := Sans.walk (Emits.ofRes _).sans .encrypt hn h hd hx
  replace g1 := g1.trans g
  obtain ⟨_, _, _, h, hn, g⟩ := Sans.walk (Emits.memAlloc E cfg _).sans .encrypt hn h hd hx
  replace g1 := g1.trans g
  obtain ⟨_, _, _, h, hn, g⟩ := Sans.walk (Emits.mapErr _ (Emits.compMac E cfg _ _)).sans .encrypt hn h hd hx
  replace g1 := g1.trans g
  obtain ⟨_, _, _, h, hn, g⟩ := Sans.walk (Emits.ofRes _).sans .encrypt hn h hd hx
  replace g1 := g1.trans g
  obtain ⟨_, _, _, h, hn, g⟩ := Sans.walk (Emits.memAlloc E cfg _).sans .encrypt hn h hd hx
  replace g1 := g1.trans g
  obtain ⟨_, _, _, h, hn, g⟩ := Sans.walk (Emits.compSignOrMac E cfg _ _ _ _).sans .encrypt hn h hd hx
  replace g1 := g1.trans g
  obtain ⟨_, _, _, h, hn, g⟩ := Sans.walk (Emits.ofRes _).sans .encrypt hn h hd hx
  replace g1 := g1.trans g
  obtain ⟨_, _, _, h, hn, g⟩ := Sans.walk (Emits.memAlloc E cfg _).sans .encrypt hn h hd hx
  replace g1 := g1.trans g
  obtain ⟨_, _, _, h, hn, g⟩ := Sans.walk (Emits.ofRes _).sans .encrypt hn h hd hx
  replace g1 := g1.trans g
  obtain ⟨_, _, _, h, hn, g⟩ := Sans.walk (Emits.memAlloc E cfg _).sans .encrypt hn h hd hx
  replace g1 := g1.trans g
  obtain ⟨rfl, rfl, g7⟩ := seal_key hn h hd hx (fun _ => ⟨[], by quiet2, by decide⟩) hm
  obtain ⟨w, _⟩ := w5.keys
  rw [c4, c2, c1] at w
  exact ⟨e1, w.1.mid hn4.grow (g1.trans g7), w.2.mid hn4.grow (g1.trans g7)⟩

end Verif
