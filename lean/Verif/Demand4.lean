import Verif.Demand3

/-!
# Memory for each message
-/

namespace Verif

open M Spec

variable {σ α β : Type} {E : Env σ} {cfg : Config} {su : Suite} {Z : Prop} {ms : Msg} {k : Bool} {d e L : Nat}

/-- the context at the beginning of a message function -/
structure Enters (cfg : Config) (su : Suite) (d : Nat) (c : Ctx) : Prop where
  suite : c.suite = su
  own : cidBytes c.cid ≤ cfg.maxCid + 1
  pub : c.dhPub.length ≤ d
  ead : c.status ≠ .aborted → c.ead = []

theorem Costs.enter {ok : Ctx → Bool} {m : Msg} {r : Role} (hok : ∀ c, ok c = true → c.status ≠ .aborted)
    (hk : k = true → m = .msg2 → r = .responder) :
    Costs cfg Z (Enters cfg su d) 0 (Verif.enter ok m r : M σ Unit) (Sized cfg su m k d 0) (fun _ => True) := by
  intro s hi ht
  unfold Verif.enter
  by_cases h : ok s.ctx = true
  · refine ⟨[], by simp [Bind.bind, M.bind, M.getCtx, M.require, h, M.modCtx], by simp [requested], by simp [requested], ?_, ?_⟩
    · simp only [Bind.bind, M.bind, M.getCtx, M.require, h, M.modCtx, if_true]; exact ht
    · simp only [Bind.bind, M.bind, M.getCtx, M.require, h, M.modCtx, if_true]
      refine ⟨⟨hi.suite, rfl, hi.own, fun h1 h2 => ?_, hi.pub, ?_⟩, trivial⟩
      · rw [hk h1 h2]; exact hi.own
      · show eadLen s.ctx.ead ≤ 0
        rw [hi.ead (hok _ h)]; exact Nat.le_refl _
  · rw [Bool.not_eq_true] at h
    exact ⟨[], by simp [Bind.bind, M.bind, M.getCtx, M.require, h], by simp [requested], by simp [requested],
      by simpa [Bind.bind, M.bind, M.getCtx, M.require, h] using ht, by simp [Bind.bind, M.bind, M.getCtx, M.require, h]⟩

theorem okStart_live (c : Ctx) (h : okStart c = true) : c.status ≠ .aborted := by
  intro hc; simp [okStart, hc] at h
theorem okReceivedM1_live (c : Ctx) (h : okReceivedM1 c = true) : c.status ≠ .aborted := by
  intro hc; simp [okReceivedM1, hc] at h
theorem okWaitM2_live (c : Ctx) (h : okWaitM2 c = true) : c.status ≠ .aborted := by
  intro hc; simp [okWaitM2, hc] at h
theorem okVerifiedM2_live (c : Ctx) (h : okVerifiedM2 c = true) : c.status ≠ .aborted := by
  intro hc; simp [okVerifiedM2, hc] at h
theorem okWaitM3_live (c : Ctx) (h : okWaitM3 c = true) : c.status ≠ .aborted := by
  intro hc; simp [okWaitM3, hc] at h
theorem okCompleted_live (c : Ctx) (h : okCompleted c = true) : c.status ≠ .aborted := by
  intro hc; simp [okCompleted, hc] at h

/-- a wider bound for the EAD -/
theorem Sized.ead_mono {c : Ctx} {e' : Nat} (h : Sized cfg su ms k d e c) (he : e ≤ e') : Sized cfg su ms k d e' c :=
  ⟨h.suite, h.message, h.own, h.mac, h.pub, Nat.le_trans h.ead he⟩

theorem Sized.wipe {c c' : Ctx} (h : Sized cfg su ms k d e c) (h1 : c'.suite = c.suite) (h2 : c'.message = c.message)
    (h3 : c'.cid = c.cid) (h4 : macCid c' = macCid c) (h5 : c'.dhPub = c.dhPub) (h6 : c'.ead = []) : Sized cfg su ms k d e c' :=
  ⟨h1.trans h.suite, h2.trans h.message, h3 ▸ h.own, h4 ▸ h.mac, h5 ▸ h.pub, by rw [h6]; exact Nat.zero_le _⟩

/-! ## message_2 -/

section

variable (hE : Modest E L) (hm : cfg.maxEad ≤ 3) (hz : ¬ Suite.Positive su → Z)

include hz in
theorem Costs.memMac {c : Ctx} (hc : c.suite = su) {I : Ctx → Prop} {f : Nat → M σ α} {J : Ctx → Prop} {φ : α → Prop} {B : Nat}
    (x : Option Err)
    (hf : ∀ n, n ≤ su.hash + su.mac → Costs cfg Z I B (f n) J φ) :
    Costs cfg Z I (su.hash + su.mac + B)
      (M.ofRes (match x with | some x => Res.mapErr x (macLength c) | none => macLength c) >>= fun n =>
        Verif.memAlloc E cfg n >>= fun _ => f n) J φ := by
  refine (Costs.ofYields (Q := fun n => n ≤ su.hash + su.mac ∧ (n = 0 → Z)) ?_).seq fun n hn => ?_
  · cases x with
    | none => exact macLength_yields hz hc
    | some x => exact (macLength_yields hz hc).mapErr x
  · exact Costs.le (Costs.bind (Costs.memAlloc hn.2) fun _ _ => hf n hn.1) (by omega)

include hE hm hz

theorem Costs.message2Compose (n : Nat) : Costs cfg Z (Enters cfg su d) (demand cfg su L (.compose2 n))
    (Verif.message2Compose E cfg n) (fun _ => True) (fun _ => True) := by
  unfold Verif.message2Compose
  refine (Costs.require _ _).seq fun _ _ => (Costs.enter (k := true) okReceivedM1_live fun _ _ => rfl).seq fun _ _ => ?_
  refine (Costs.genDhKeys.mapErr _).seq fun _ _ => (Costs.compDhSecret.mapErr _).seq fun _ _ => ?_
  refine Costs.le (B := (su.eccKey + su.hash + 10) + (su.hash + (prkSize cfg su +
    ((cfg.macCtxSize + contextSize cfg L L) + (su.hash + su.mac + ((contextSize cfg L L + 13) +
    ((su.eccSign + su.mac) + ((contextSize cfg L L + (su.hash + su.mac) + 26) + (plaintextSize cfg su L L +
    (plaintextSize cfg su L L + ((cfg.maxMac + 13) + ((cfg.maxMac + 5 + plaintextSize cfg su L L + contextSize cfg L L) +
    (su.eccKey + plaintextSize cfg su L L)))))))))))))  ?_ ?_
  · refine Costs.bind (Costs.compTh2.mapErr _) fun _ _ => ?_
    refine (Costs.compPrk2e.mapErr _).seq fun _ _ => Costs.getCtx.seq fun c hc => ?_
    refine Costs.pre (fun _ h => h.1) ?_
    rw [hc.1.2]
    refine Costs.bind (Costs.memAlloc fun h => hz fun p => p.1 h) fun _ _ => ?_
    refine Costs.credFetch.seq fun r hr => (Costs.ofOption _ _).seq fun f hf => ?_
    have hfl : credBytes f.1 ≤ L := by
      obtain ⟨x, hx⟩ := hr
      exact hE.fetch x f (hx.trans hf)
    refine (Costs.eadCompose hE hm (by omega)).seq fun _ _ => ?_
    refine Costs.bind ((Costs.compPrk3e2m hz _ _).mapErr _) fun _ _ => ?_
    refine Costs.bind (Costs.buildMacCtx (n := L) none hfl) fun m hmc => ?_
    refine Costs.getCtx.seq fun c hc => ?_
    refine Costs.memMac hz hc.1.suite none fun macLen hml => ?_
    refine Costs.bind (Costs.le (Costs.compMac _ _) (by have := hmc.buf; omega)) fun mac hmac => ?_
    refine (Costs.ofYields (signOrMacLength_yields hz hc.1.suite)).seq fun sLen hs => ?_
    refine Costs.bind (Costs.le (Costs.memAlloc hs.2) hs.1) fun _ _ => ?_
    refine Costs.bind (Costs.le (Costs.compSignOrMac _ _ _ _) (by have := hmc.buf; omega)) fun sig hsig => ?_
    refine (Costs.ofYields ((ptxt2Len_yields hc.1 hmc (Nat.le_trans hsig hs.1)).mapErr _)).seq fun pLen hp => ?_
    refine Costs.bind (Costs.le (Costs.memAlloc (by omega)) hp.1) fun _ _ => ?_
    refine (Costs.ofYields ((preparePtxt2_yields c m sig pLen).mapErr _)).seq fun ptxt hpt => ?_
    refine Costs.bind (Costs.le (Costs.memAlloc (by omega)) (Nat.le_trans hpt.1 hp.1)) fun _ _ => ?_
    refine Costs.bind ((Costs.compKeystream _ _).mapErr _) fun ks hks => ?_
    refine Costs.bind (Costs.le ((Costs.compTh3 _ _).mapErr _) ?_) fun _ _ => ?_
    · have := hmc.buf
      simp only [MacCtx.buf, List.length_append] at this
      omega
    refine Costs.le (Costs.bind ((Costs.prepareMsg2 _ _).mapErr _) fun msg _ =>
      (Costs.mod (J := fun _ => True) fun _ _ => trivial).seq fun _ _ => (Costs.pure msg).any) ?_
    have : (xorBytes ptxt ks).length ≤ ptxt.length := by
      unfold xorBytes; rw [List.length_zipWith]; exact Nat.min_le_left _ _
    omega
  · simp only [demand, macSize]
    omega

omit hE hm hz in
theorem Costs.parseMsg2 {msg : Bytes} (hw : ∀ x, getMsgBstr cfg.dec msg = some x → subSize x.length su.eccKey = 0 → Z) :
    Costs cfg Z (Sized cfg su ms k d e) ((getMsgBstr cfg.dec msg).elim 0 fun x => subSize x.length su.eccKey)
      (Verif.parseMsg2 E cfg msg) (Sized cfg su ms k d e) (fun r => r.length ≤ msg.length ∧ (r.length = 0 → Z)) := by
  unfold Verif.parseMsg2
  refine Costs.getCtx.seq fun c hc => (Costs.ofOption _ _).seq fun x hx => ?_
  rw [hx, hc.1.suite]
  refine Costs.le (Costs.bind (B2 := 0) (Costs.memAlloc (hw x hx)) fun _ _ => ?_) (Nat.le_of_eq (Nat.add_zero _))
  refine (Costs.oob _).seq fun _ _ => (Costs.oob _).seq fun _ hl => (Costs.mod ?_).seq fun _ _ => (Costs.pure _).res ?_
  · exact fun c h => ⟨h.suite, h.message, h.own, h.mac, h.pub, h.ead⟩
  · rintro _ rfl
    obtain ⟨b, r, hb, rfl⟩ := getMsgBstr_sound hx
    have h1 := BstrItem.le hb
    have h2 : su.eccKey ≤ x.length := of_decide_eq_true hl
    rw [List.length_drop, List.length_append]
    refine ⟨by omega, fun h0 => hw x hx ?_⟩
    rw [subSize, if_pos h2]
    exact h0

omit hE hm hz in
theorem Costs.parsePtxt2 {ptxt : Bytes} {n : Nat} (hn : ptxt.length ≤ n) :
    Costs cfg Z (Sized cfg su ms k d 0) 0 (Verif.parsePtxt2 cfg ptxt : M σ (Cred × Bytes))
      (Sized cfg su ms true d (n + 27)) (fun r => credBytes r.1 ≤ n) := by
  unfold Verif.parsePtxt2
  refine (Costs.require _ _).seq fun _ _ => (Costs.ofOption _ _).seq fun p hp => ?_
  obtain ⟨hl, b, r, ⟨x, y, _, h3, rfl⟩, rfl⟩ := getPtxt2_sound (c := p.1) (p := p.2) hp
  have h4 := Plaintext3.le h3
  simp only [List.length_append] at hn
  refine (Costs.storePeerCid _ _).seq fun _ _ => ?_
  refine (Costs.ofYields (credOfIdCred_yields credOfMap2_yields _)).seq fun cr hcr => ?_
  refine (Costs.storeEad (e' := n + 27) ?_ (Nat.zero_le _)).seq fun _ _ => (Costs.pure _).res ?_
  · have := eadLen_le p.2.ead; omega
  · rintro _ rfl
    show credBytes cr ≤ _
    omega

omit hE hm hz in
theorem Costs.parsePtxt3 {ptxt : Bytes} {n : Nat} (hn : ptxt.length ≤ n) :
    Costs cfg Z (Sized cfg su ms k d 0) 0 (Verif.parsePtxt3 cfg ptxt : M σ (Cred × Bytes))
      (Sized cfg su ms k d (n + 27)) (fun r => credBytes r.1 ≤ n) := by
  unfold Verif.parsePtxt3
  refine (Costs.require _ _).seq fun _ _ => (Costs.ofOption _ _).seq fun p hp => ?_
  obtain ⟨hl, b, r, h3, rfl⟩ := getPtxt3_sound hp
  have h4 := Plaintext3.le h3
  simp only [List.length_append] at hn
  refine (Costs.ofYields (credOfIdCred_yields credOfMap3_yields _)).seq fun cr hcr => ?_
  refine (Costs.storeEad (e' := n + 27) ?_ (Nat.zero_le _)).seq fun _ _ => (Costs.pure _).res ?_
  · have := eadLen_le p.ead; omega
  · rintro _ rfl
    show credBytes cr ≤ _
    omega

/-- the length of the received ciphertext without its tag or key of `n` bytes -/
def restLen (cfg : Config) (msg : Bytes) (n : Nat) : Nat := (getMsgBstr cfg.dec msg).elim 0 fun x => subSize x.length n

omit hm in
theorem Costs.message2Process {msg : Bytes}
    (hw : ∀ x, getMsgBstr cfg.dec msg = some x → subSize x.length su.eccKey = 0 → Z) :
    Costs cfg Z (Enters cfg su d) (restLen cfg msg su.eccKey + (su.eccKey + su.hash + 2 * cfg.maxMac + 28 + prkSize cfg su +
      macSize cfg su (msg.length + L) msg.length + 2 * msg.length + contextSize cfg (msg.length + L) msg.length))
      (Verif.message2Process E cfg msg) (fun _ => True) (fun _ => True) := by
  unfold Verif.message2Process
  refine (Costs.require _ _).seq fun _ _ =>
    (Costs.enter (k := false) okWaitM2_live fun h => by simp at h).seq fun _ _ => ?_
  refine Costs.le (B := restLen cfg msg su.eccKey + ((su.eccKey + su.hash + 10) + (msg.length + ((cfg.maxMac + 13) +
    (prkSize cfg su + ((cfg.macCtxSize + contextSize cfg (msg.length + L) msg.length) + (su.hash + su.mac +
    ((contextSize cfg (msg.length + L) msg.length + 13) +
    ((contextSize cfg (msg.length + L) msg.length + (su.hash + su.mac) + 26) +
    (cfg.maxMac + 5 + msg.length + contextSize cfg (msg.length + L) msg.length)))))))))) ?_ ?_
  · refine Costs.bind (Costs.parseMsg2 hw) fun ctxt hct => ?_
    refine (Costs.compDhSecret.mapErr _).seq fun _ _ => Costs.bind (Costs.compTh2.mapErr _) fun _ _ => ?_
    refine (Costs.compPrk2e.mapErr _).seq fun _ _ => Costs.pre (fun _ h => h.1) ?_
    refine Costs.bind (Costs.le (Costs.memAlloc hct.2) hct.1) fun _ _ => ?_
    refine Costs.getCtx.seq fun c hc => Costs.bind ((Costs.compKeystream _ _).mapErr _) fun ks hks => ?_
    have hx : (xorBytes ctxt ks).length ≤ msg.length := by
      refine Nat.le_trans ?_ hct.1
      unfold xorBytes; rw [List.length_zipWith]; exact Nat.min_le_left _ _
    refine ((Costs.parsePtxt2 hx).mapErr _).seq fun p hp => Costs.eadProcess.seq fun _ _ => ?_
    refine (Costs.verifyCred hE _).seq fun v hv => ?_
    refine Costs.bind ((Costs.compPrk3e2m hz _ _).mapErr _) fun _ _ => ?_
    refine Costs.bind (Costs.buildMacCtx (n := msg.length + L) _ (by omega)) fun m hmc => ?_
    refine Costs.getCtx.seq fun c hc => ?_
    refine Costs.memMac hz hc.1.suite none fun macLen hml => ?_
    refine Costs.bind (Costs.le (Costs.compMac _ _) (by have := hmc.buf; omega)) fun mac hmac => ?_
    refine Costs.bind (Costs.le ((Costs.verifySignOrMac _ _ _ _).mapErr _) (by have := hmc.buf; omega)) fun _ _ => ?_
    refine Costs.le (Costs.bind (B2 := 0) ((Costs.compTh3 _ _).mapErr _) fun _ _ =>
      Costs.mod (J := fun _ => True) fun _ _ => trivial) ?_
    have := hmc.buf
    simp only [MacCtx.buf, List.length_append] at this
    omega
  · simp only [macSize]
    omega

/-! ## message_3 -/

omit hE hm hz in
theorem Costs.genMsg3 {I : Ctx → Prop} (b : Bytes) (n : Nat) : Costs cfg Z I 0 (Verif.genMsg3 b n : M σ Bytes) I (fun _ => True) := by
  unfold Verif.genMsg3
  exact (Costs.require _ _).seq fun _ _ => (Costs.ofOption _ _).seq fun x _ => (Costs.oob _).seq fun _ _ => (Costs.pure x).any

omit hE hm hz in
theorem Costs.genMsg4 {I : Ctx → Prop} (b : Bytes) (n : Nat) : Costs cfg Z I 0 (Verif.genMsg4 b n : M σ Bytes) I (fun _ => True) := by
  unfold Verif.genMsg4
  exact (Costs.require _ _).seq fun _ _ => (Costs.ofOption _ _).any

theorem Costs.message3Compose (n : Nat) : Costs cfg Z (Enters cfg su d) (demand cfg su L (.compose3 n))
    (Verif.message3Compose E cfg n) (fun _ => True) (fun _ => True) := by
  unfold Verif.message3Compose
  refine (Costs.require _ _).seq fun _ _ =>
    (Costs.enter (k := true) okVerifiedM2_live fun _ h => by simp at h).seq fun _ _ => ?_
  refine (Costs.eadCompose hE hm (by omega)).seq fun _ _ => ?_
  refine Costs.credFetch.seq fun r hr => (Costs.ofOption _ _).seq fun f hf => ?_
  have hfl : credBytes f.1 ≤ L := by
    obtain ⟨x, hx⟩ := hr
    exact hE.fetch x f (hx.trans hf)
  refine Costs.le (B := aeadSize cfg su + (prkSize cfg su +
    ((cfg.macCtxSize + contextSize cfg L L) + (su.hash + su.mac + ((contextSize cfg L L + 13) +
    ((su.eccSign + su.mac) + ((contextSize cfg L L + (su.hash + su.mac) + 26) + (plaintextSize cfg su L L +
    ((plaintextSize cfg su L L + su.aeadTag) +
    (cfg.maxMac + 5 + plaintextSize cfg su L L + contextSize cfg L L))))))))))  ?_ ?_
  · refine Costs.bind (Costs.keyIvAad3 hz) fun kia _ => ?_
    refine Costs.bind ((Costs.compPrk4e3m hz _ _).mapErr _) fun _ _ => ?_
    refine Costs.bind (Costs.buildMacCtx (n := L) none hfl) fun m hmc => ?_
    refine Costs.getCtx.seq fun c hc => ?_
    refine Costs.memMac hz hc.1.suite (some _) fun macLen hml => ?_
    refine Costs.bind (Costs.le ((Costs.compMac _ _).mapErr _) (by have := hmc.buf; omega)) fun mac hmac => ?_
    refine (Costs.ofYields (signOrMacLength_yields hz hc.1.suite)).seq fun sLen hs => ?_
    refine Costs.bind (Costs.le (Costs.memAlloc hs.2) hs.1) fun _ _ => ?_
    refine Costs.bind (Costs.le (Costs.compSignOrMac _ _ _ _) (by have := hmc.buf; omega)) fun sig hsig => ?_
    refine (Costs.ofYields (ptxt2Len_yields hc.1 hmc (Nat.le_trans hsig hs.1))).seq fun pLen hp => ?_
    refine Costs.bind (Costs.le (Costs.memAlloc (by omega)) hp.1) fun _ _ => ?_
    refine (Costs.ofYields ((preparePtxt3_yields m sig pLen).mapErr _)).seq fun ptxt hpt => ?_
    rw [hc.1.suite]
    refine Costs.bind (Costs.le (Costs.memAlloc (by omega)) (by omega)) fun _ _ => ?_
    refine ((Costs.aeadEncrypt _ _ _ _ _).mapErr _).seq fun ct _ => ?_
    refine Costs.le (Costs.bind (B2 := 0) ((Costs.compTh4 _ _).mapErr _) fun _ _ => ?_) ?_
    · exact ((Costs.genMsg3 _ _).mapErr _).seq fun msg _ =>
        (Costs.mod (J := fun _ => True) fun _ _ => trivial).seq fun _ _ => (Costs.pure msg).any
    · have := hmc.buf
      simp only [MacCtx.buf, List.length_append] at this
      omega
  · simp only [demand, macSize]
    omega

omit hm in
theorem Costs.message3Process {msg : Bytes}
    (hw : ∀ x, getMsgBstr cfg.dec msg = some x → subSize x.length su.aeadTag = 0 → Z) :
    Costs cfg Z (Enters cfg su d) (aeadSize cfg su + prkSize cfg su +
      macSize cfg su (restLen cfg msg su.aeadTag + L) (restLen cfg msg su.aeadTag) + cfg.maxMac + 5 +
      2 * restLen cfg msg su.aeadTag + contextSize cfg (restLen cfg msg su.aeadTag + L) (restLen cfg msg su.aeadTag))
      (Verif.message3Process E cfg msg) (fun _ => True) (fun _ => True) := by
  unfold Verif.message3Process
  refine (Costs.require _ _).seq fun _ _ =>
    (Costs.enter (k := true) okWaitM3_live fun _ h => by simp at h).seq fun _ _ => (Costs.ofOption _ _).seq fun x hx => ?_
  have hr : restLen cfg msg su.aeadTag = subSize x.length su.aeadTag := by rw [restLen, hx]; rfl
  rw [hr]
  refine Costs.le (B := aeadSize cfg su + (subSize x.length su.aeadTag +
    (prkSize cfg su + ((cfg.macCtxSize + contextSize cfg (subSize x.length su.aeadTag + L) (subSize x.length su.aeadTag)) +
    (su.hash + su.mac +
    ((contextSize cfg (subSize x.length su.aeadTag + L) (subSize x.length su.aeadTag) + 13) +
    ((contextSize cfg (subSize x.length su.aeadTag + L) (subSize x.length su.aeadTag) + (su.hash + su.mac) + 26) +
    (cfg.maxMac + 5 + subSize x.length su.aeadTag +
      contextSize cfg (subSize x.length su.aeadTag + L) (subSize x.length su.aeadTag))))))))) ?_ ?_
  · refine Costs.bind (Costs.keyIvAad3 hz) fun kia _ => Costs.getCtx.seq fun c hc => ?_
    rw [hc.1.suite]
    refine Costs.bind (Costs.memAlloc (hw x hx)) fun _ _ => ?_
    refine Costs.seq (J := Sized cfg su .msg3 true d 0) (φ := fun r => r.length = subSize x.length su.aeadTag)
      (Costs.mapErr _ ?_) fun ptxt hpt => ?_
    · exact (Costs.require _ _).seq fun _ _ => Costs.aeadDecrypt _ _ _ _ _
    refine ((Costs.parsePtxt3 (Nat.le_of_eq hpt)).mapErr _).seq fun p hp => Costs.eadProcess.seq fun _ _ => ?_
    refine (Costs.verifyCred hE _).seq fun v hv => ?_
    refine Costs.bind ((Costs.compPrk4e3m hz _ _).mapErr _) fun _ _ => ?_
    refine Costs.bind (Costs.buildMacCtx (n := subSize x.length su.aeadTag + L) _ (by omega)) fun m hmc => ?_
    refine Costs.getCtx.seq fun c hc => ?_
    refine Costs.memMac hz hc.1.suite (some _) fun macLen hml => ?_
    refine Costs.bind (Costs.le ((Costs.compMac _ _).mapErr _) (by have := hmc.buf; omega)) fun mac hmac => ?_
    refine Costs.bind (Costs.le ((Costs.verifySignOrMac _ _ _ _).mapErr _) (by have := hmc.buf; omega)) fun _ _ => ?_
    refine Costs.le (Costs.bind (B2 := 0) ((Costs.compTh4 _ _).mapErr _) fun _ _ =>
      Costs.mod (J := fun _ => True) fun _ _ => trivial) ?_
    have := hmc.buf
    simp only [MacCtx.buf, List.length_append] at this
    omega
  · simp only [macSize]
    omega

/-! ## message_4 -/

omit hE hm in
theorem Costs.message4Process {msg : Bytes}
    (hw : ∀ x, getMsgBstr cfg.dec msg = some x → subSize x.length su.aeadTag = 0 → Z) :
    Costs cfg Z (Enters cfg su d) (aeadSize cfg su + restLen cfg msg su.aeadTag)
      (Verif.message4Process E cfg msg) (fun _ => True) (fun _ => True) := by
  unfold Verif.message4Process
  refine (Costs.require _ _).seq fun _ _ =>
    (Costs.enter (k := true) okCompleted_live fun _ h => by simp at h).seq fun _ _ => (Costs.ofOption _ _).seq fun x hx => ?_
  have hr : restLen cfg msg su.aeadTag = subSize x.length su.aeadTag := by rw [restLen, hx]; rfl
  rw [hr]
  refine Costs.bind (Costs.keyIvAad4 hz) fun kia _ => Costs.getCtx.seq fun c hc => ?_
  rw [hc.1.suite]
  refine Costs.le (Costs.bind (B2 := 0) (Costs.memAlloc (hw x hx)) fun _ _ => ?_) (Nat.le_of_eq (Nat.add_zero _))
  refine ((Costs.aeadDecrypt _ _ _ _ _).mapErr _).seq fun ptxt _ => ?_
  refine Costs.seq (J := fun _ => True) (φ := fun _ => True) (Costs.mapErr _ ?_) fun _ _ => Costs.eadProcess.seq fun _ _ =>
    Costs.mod fun _ _ => trivial
  unfold parsePtxt4
  exact (Costs.oob _).seq fun _ _ => (Costs.mod fun _ _ => trivial).seq fun _ _ => Costs.handOver _

omit hE hm hz in
theorem eadLen_zero {ts : List EadTok} (h : eadLen ts = 0) : ts = [] := by
  cases ts with
  | nil => rfl
  | cons t ts =>
    have := intMemReq_pos t.label
    simp only [eadLen, List.map_cons, List.sum_cons] at h
    omega

/-- message_4 once the application was asked for EAD -/
def message4Tail (E : Env σ) (cfg : Config) (n : Nat) : M σ Bytes := do
  let c ← M.getCtx
  Verif.memAlloc E cfg (eadLen c.ead)
  let ptxt ← M.ofRes (Res.mapErr .cbor (preparePtxt4 c (eadLen c.ead)))
  let kia ← Verif.keyIvAad4 E cfg
  Verif.memAlloc E cfg (eadLen c.ead + c.suite.aeadTag)
  let ct ← M.mapErr .crypto
    (Verif.aeadEncrypt E kia.1 kia.2.1 kia.2.2 ptxt (eadLen c.ead + c.suite.aeadTag))
  let msg ← M.mapErr .cbor (Verif.genMsg4 ct n)
  M.modCtx fun c => { c with ead := [], status := .persisted, errorCode := .success }
  pure msg

omit hE hm in
theorem Costs.message4Tail {n : Nat} {t : List EadTok} (ht : eadLen t = 0 → Z) :
    Costs cfg Z (fun c => Sized cfg su .msg4 k d (L + 27) c ∧ c.ead = t) (aeadSize cfg su + su.aeadTag + 2 * (L + 27))
      (Verif.message4Tail E cfg n) (fun _ => True) (fun _ => True) := by
  unfold Verif.message4Tail
  refine Costs.getCtx.seq fun c hc => ?_
  have h1 := hc.1.1.ead
  rw [hc.1.1.suite]
  rw [hc.1.2] at h1 ⊢
  refine Costs.pre (I := Sized cfg su .msg4 k d (L + 27)) (fun _ h => h.1) ?_
  refine Costs.le (B := (L + 27) + (aeadSize cfg su + (L + 27 + su.aeadTag))) ?_ (by omega)
  refine Costs.bind (Costs.le (Costs.memAlloc ht) h1) fun _ _ => ?_
  refine (Costs.ofYields (Q := fun _ => True) (Yields.mapErr _ ?_)).seq fun p _ => ?_
  · exact (Yields.require _ _).bind fun _ _ => (Yields.ofOption _ _).any
  refine Costs.bind (Costs.keyIvAad4 hz) fun kia _ => ?_
  refine Costs.le (Costs.bind (B2 := 0) (Costs.memAlloc ?_) fun _ _ => ?_) (Nat.add_le_add_right h1 _)
  · exact fun h => ht (by omega)
  · exact ((Costs.aeadEncrypt _ _ _ _ _).mapErr _).seq fun ct _ => ((Costs.genMsg4 _ _).mapErr _).seq fun msg _ =>
      (Costs.mod (J := fun _ => True) fun _ _ => trivial).seq fun _ _ => (Costs.pure msg).any

/-- message_4: an empty buffer only if there is no EAD -/
theorem Costs.message4Compose {n : Nat} {s : St σ} (hi : Enters cfg su d s.ctx) (ht : s.ctx.th.length ≤ cfg.maxMac)
    (hn : Empty cfg (.compose4 n) s (Verif.message4Compose E cfg n s).2 → Z) :
    CostsAt cfg Z s (demand cfg su L (.compose4 n)) (Verif.message4Compose E cfg n) (fun _ => True) (fun _ => True) := by
  unfold Verif.message4Compose
  refine Costs.leAt (Costs.bindAt (B1 := 0) (Costs.require _ _ s hi ht) fun _ s1 r1 t1 i1 _ => ?_) (Nat.le_of_eq (Nat.zero_add _))
  refine Costs.leAt (Costs.bindAt (B1 := 0) (Costs.enter (k := true) okCompleted_live (fun _ h => by simp at h) s1 i1 t1)
    fun _ s2 r2 t2 i2 _ => ?_) (Nat.le_of_eq (Nat.zero_add _))
  refine Costs.leAt (Costs.bindAt (B1 := 0) (Costs.eadCompose hE hm (by omega) s2 i2 t2)
    fun _ s3 r3 t3 i3 _ => ?_) (Nat.le_of_eq (Nat.zero_add _))
  refine Costs.message4Tail hz (t := s3.ctx.ead) ?_ s3 ⟨i3, rfl⟩ t3
  intro h0
  have h0 := eadLen_zero h0
  obtain ⟨_, rfl⟩ := require_ok.1 r1
  obtain ⟨_, c2, l2⟩ := enter_st r2
  obtain ⟨ts, c3, h3⟩ := eadCompose_ok r3
  refine hn (.noEad4 ?_)
  rcases h3 with ⟨_, _, l3⟩ | ⟨h3, _⟩
  · right; right
    have hr : Verif.message4Compose E cfg n s = Verif.message4Tail E cfg n s3 := by
      show M.bind _ _ _ = _
      rw [M.bind, r1]
      show M.bind _ _ _ = _
      rw [M.bind, r2]
      show M.bind _ _ _ = _
      rw [M.bind, r3]
      rfl
    obtain ⟨es, hl, _⟩ := Costs.message4Tail (Z := True) (E := E) (n := n) (fun _ => trivial) (t := s3.ctx.ead)
      (fun _ => trivial) s3 ⟨i3, rfl⟩ t3
    have hts : ts = [] := by rw [c3] at h0; exact h0
    rw [during, hr, hl, l3, l2, hts, (i2.message : s2.ctx.message = _)]
    simp
  · simp only [composesEad, c2, Bool.and_eq_false_iff, bne_eq_false_iff_eq] at h3
    rcases h3 with h3 | h3
    · exact Or.inl h3
    · exact Or.inr (Or.inl h3)

/-! ## Exporter -/

omit hE hm hz in
theorem Costs.compPrkOut : Costs cfg Z (fun c => c.suite = su) (cfg.maxMac + 10) (Verif.compPrkOut E cfg)
    (fun c => c.suite = su) (fun _ => True) := by
  unfold Verif.compPrkOut
  refine Costs.getCtx.seq fun c hc => (Costs.require _ _).seq fun _ _ => ?_
  have h1 := bstrOh_max c.th.length
  have h2 := intMemReq_max (i32 c.suite.hash)
  have h3 := hc.2
  refine Costs.le (Costs.bind (B2 := 0) (Costs.memAlloc (by omega)) fun _ _ => ?_) (by omega)
  exact (Costs.expandInfo _ _ _ _ _ _).seq fun p _ => Costs.mod (by exact fun c h => h)

omit hE hm hz in
theorem Costs.compNewPrkOut (b : Bytes) : Costs cfg Z (fun c => c.suite = su) (b.length + 10) (Verif.compNewPrkOut E cfg b)
    (fun c => c.suite = su) (fun _ => True) := by
  unfold Verif.compNewPrkOut
  refine Costs.getCtx.seq fun c hc => (Costs.require _ _).seq fun _ _ => ?_
  have h1 := bstrOh_max b.length
  have h2 := intMemReq_max (i32 c.suite.hash)
  refine Costs.le (Costs.bind (B2 := 0) (Costs.memAlloc (by omega)) fun _ _ => ?_) (by omega)
  exact (Costs.expandInfo _ _ _ _ _ _).seq fun p _ => Costs.mod (by exact fun c h => h)

omit hE hm hz in
theorem Costs.compPrkExporter : Costs cfg Z (fun c => c.suite = su) 6 (Verif.compPrkExporter E cfg)
    (fun c => c.suite = su) (fun _ => True) := by
  unfold Verif.compPrkExporter
  refine Costs.getCtx.seq fun c hc => (Costs.require _ _).seq fun _ _ => ?_
  have h2 := intMemReq_max (i32 c.suite.hash)
  exact Costs.le (Costs.bind (B2 := 0) (Costs.memAlloc (by omega)) fun _ _ => Costs.expandInfo _ _ _ _ _ _) (by omega)

omit hE hm hz in
theorem Costs.ensurePrkOut : Costs cfg Z (fun c => c.suite = su) (cfg.maxMac + 10) (Verif.ensurePrkOut E cfg)
    (fun c => c.suite = su) (fun _ => True) := by
  unfold Verif.ensurePrkOut
  exact Costs.getCtx.seq fun c hc => Costs.whenM _ fun _ => Costs.compPrkOut.mapErr _

omit hE hm in
theorem Costs.exportSecret (l n : Nat) : Costs cfg Z (fun c => c.suite = su) (cfg.maxMac + su.hash + 25)
    (Verif.exportSecret E cfg l n) (fun c => c.suite = su) (fun _ => True) := by
  unfold Verif.exportSecret
  refine (Costs.require _ _).seq fun _ _ => (Costs.require _ _).seq fun _ _ => Costs.getCtx.seq fun c hc => ?_
  refine (Costs.require _ _).seq fun _ _ => ?_
  rw [hc.1]
  have h1 := intMemReq_max (i32 l)
  have h2 := intMemReq_max (i32 su.hash)
  refine Costs.le (B := (cfg.maxMac + 10) + (su.hash + (6 + 9))) ?_ (by omega)
  refine Costs.bind Costs.ensurePrkOut fun _ _ => Costs.bind (Costs.memAlloc fun h => hz fun p => p.1 h) fun _ _ => ?_
  refine Costs.bind (Costs.compPrkExporter.mapErr _) fun p _ => ?_
  exact Costs.le (Costs.bind (B2 := 0) (Costs.memAlloc (by omega)) fun _ _ => Costs.expandInfo _ _ _ _ _ _) (by omega)

omit hE hm hz in
theorem Costs.keyUpdate (b : Bytes) : Costs cfg Z (fun c => c.suite = su) (cfg.maxMac + b.length + 20)
    (Verif.keyUpdate E cfg b) (fun c => c.suite = su) (fun _ => True) := by
  unfold Verif.keyUpdate
  refine (Costs.require _ _).seq fun _ _ => Costs.getCtx.seq fun c hc => (Costs.require _ _).seq fun _ _ => ?_
  refine (Costs.mod (J := fun c => c.suite = su) (by exact fun c h => h)).seq fun _ _ => ?_
  refine Costs.le (B := (cfg.maxMac + 10) + (b.length + 10)) ?_ (by omega)
  refine Costs.bind Costs.ensurePrkOut fun _ _ => ?_
  exact Costs.le (Costs.bind (B2 := 0) ((Costs.compNewPrkOut b).mapErr _) fun _ _ => Costs.mod (by exact fun c h => h)) (by omega)

omit hE hm in
theorem Costs.exportOscore (a b x y : Nat) : Costs cfg Z (fun c => c.suite = su) (2 * (cfg.maxMac + su.hash + 25))
    (Verif.exportOscore E cfg a b x y) (fun c => c.suite = su) (fun _ => True) := by
  unfold Verif.exportOscore
  refine (Costs.require _ _).seq fun _ _ => Costs.getCtx.seq fun c hc => (Costs.require _ _).seq fun _ _ => ?_
  refine (Costs.require _ _).seq fun _ _ => (Costs.mod (J := fun c => c.suite = su) (by exact fun c h => h)).seq fun _ _ => ?_
  refine Costs.le (B := (cfg.maxMac + su.hash + 25) + ((cfg.maxMac + su.hash + 25) + 0)) ?_ (by omega)
  refine Costs.bind ((Costs.exportSecret hz _ _).mapErr _) fun p _ => ?_
  refine Costs.bind ((Costs.exportSecret hz _ _).mapErr _) fun q _ => ?_
  have ho : ∀ n i, Yields (oscoreId n i) (fun _ => True) := fun n i => by
    cases i <;> exact (Yields.ofOption _ _).any
  refine (Costs.ofYields (ho _ _)).seq fun i _ => (Costs.ofYields (ho _ _)).seq fun j _ => ?_
  exact (Costs.mod (J := fun c => c.suite = su) (by exact fun c h => h)).seq fun _ _ => (Costs.pure _).any

/-! ## message_1 -/

omit hE hm in
theorem Costs.message1Compose (n : Nat) : Costs cfg Z (fun c => c.csuiteArr.getD (c.csuiteLen - 1) Suite.zero = su) su.eccKey
    (Verif.message1Compose E cfg n) (fun _ => True) (fun _ => True) := by
  unfold Verif.message1Compose
  refine (Costs.require _ _).seq fun _ _ => ?_
  refine Costs.seq (J := fun c => c.csuiteArr.getD (c.csuiteLen - 1) Suite.zero = su) (φ := fun _ => True) ?_ fun _ _ => ?_
  · unfold Verif.enter
    exact Costs.getCtx.seq fun c hc => (Costs.require _ _).seq fun _ _ => Costs.mod (by exact fun c h => h)
  refine Costs.seq (J := fun c => c.suite = su) (φ := fun _ => True) ?_ fun _ _ => ?_
  · unfold chooseSuite
    exact Costs.getCtx.seq fun c hc => (Costs.require _ _).seq fun _ _ => Costs.mod (by exact fun c h => h)
  refine (Costs.mod (J := fun c => c.suite = su) (by exact fun c h => h)).seq fun _ _ => Costs.getCtx.seq fun c hc => ?_
  rw [hc.1]
  refine (Costs.importKey _ _).seq fun q _ => (Costs.ofOption _ _).seq fun kid _ => ?_
  refine Costs.le (Costs.bind (B2 := 0) (Costs.memAlloc fun h => hz fun p => p.2.2.1 h) fun _ _ => ?_) (Nat.le_of_eq (Nat.add_zero _))
  refine (Costs.makeKeyPair _).seq fun kp _ => (Costs.destroyKey _).seq fun _ _ => (Costs.ofOption _ _).seq fun kp _ => ?_
  refine (Costs.mod (J := fun _ => True) fun c h => trivial).seq fun _ _ => (Costs.require _ _).seq fun _ _ => ?_
  refine (Costs.require _ _).seq fun _ _ => ?_
  refine Costs.seq (J := fun _ => True) (φ := fun _ => True) ?_ fun _ _ => ?_
  · unfold Verif.eadCompose
    exact Costs.getCtx.seq fun c hc => Costs.whenM (φ := fun _ => True) _ fun _ => (Costs.call _ _ fun _ => rfl).seq fun r _ =>
      (Costs.ofOption _ _).seq fun ts _ => (Costs.mod fun _ _ => trivial).seq fun _ _ => (Costs.require _ _).any
  refine Costs.getCtx.seq fun c' _ => (Costs.oob _).seq fun _ _ => (Costs.ofOption _ _).seq fun msg _ => ?_
  refine (Costs.hashTh _).seq fun h hh => (Costs.modCtx (J := fun _ => True) (fun _ _ => trivial) fun _ _ => hh).seq fun _ _ => ?_
  exact (Costs.pure _).any

omit hE hm hz in
theorem Costs.message1Process (msg : Bytes) : Costs cfg Z (fun _ => True) 0
    (Verif.message1Process E cfg msg) (fun _ => True) (fun _ => True) := by
  unfold Verif.message1Process
  refine (Costs.require _ _).seq fun _ _ => ?_
  refine Costs.seq (J := fun _ => True) (φ := fun _ => True) ?_ fun _ _ => ?_
  · unfold Verif.enter
    exact Costs.getCtx.seq fun c hc => (Costs.require _ _).seq fun _ _ => Costs.mod (by exact fun c h => h)
  refine Costs.seq (J := fun _ => True) (φ := fun _ => True) ?_ fun _ _ => ?_
  · unfold chooseSuite
    exact Costs.getCtx.seq fun c hc => (Costs.require _ _).seq fun _ _ => Costs.mod (by exact fun c h => h)
  refine Costs.getCtx.seq fun c hc => (Costs.ofOption _ _).seq fun me _ => ?_
  refine (Costs.mod (J := fun _ => True) fun c h => trivial).seq fun _ _ => ?_
  refine Costs.seq (J := fun _ => True) (φ := fun _ => True) ?_ fun _ _ => ?_
  · unfold checkSuites
    have hw : ∀ b : Bool, Costs cfg Z (fun _ => True) 0 (M.whenM b (do
        M.modCtx fun c => { c with errorCode := ErrCode.wrongSuite }
        M.fail .msg1Process) : M σ Unit) (fun _ => True) (fun _ => True) := fun b =>
      Costs.whenM (φ := fun _ => True) b fun _ => (Costs.mod (J := fun _ => True) fun c h => trivial).seq fun _ _ => Costs.fail _
    refine Costs.getCtx.seq fun c hc => ?_
    split
    · exact (Costs.oob _).seq fun _ _ => (Costs.mod (J := fun _ => True) fun c h => trivial).seq fun _ _ => hw _
    · exact (hw _).seq fun _ _ => (Costs.require _ _).seq fun _ _ =>
        (Costs.mod (J := fun _ => True) fun c h => trivial).seq fun _ _ => hw _
  refine (Costs.require _ _).seq fun _ _ => (Costs.oob _).seq fun _ _ => ?_
  refine (Costs.mod (J := fun _ => True) fun c h => trivial).seq fun _ _ => ?_
  refine (Costs.require _ _).seq fun _ _ => (Costs.oob _).seq fun _ _ => ?_
  refine Costs.seq (J := fun _ => True) (φ := fun _ => True) ?_ fun _ _ => ?_
  · unfold Verif.storePeerCid
    split
    · exact (Costs.require _ _).seq fun _ _ => Costs.mod fun c h => trivial
    · exact (Costs.require _ _).seq fun _ _ => (Costs.oob _).seq fun _ _ => Costs.mod fun c h => trivial
  refine Costs.seq (J := fun _ => True) (φ := fun _ => True) ?_ fun _ _ => ?_
  · unfold processEad1 clearEad
    exact Costs.getCtx.seq fun c hc => Costs.whenM (φ := fun _ => True) _ fun _ => (Costs.require _ _).seq fun _ _ =>
      (Costs.oob _).seq fun _ _ => (Costs.mod (J := fun _ => True) fun c h => trivial).seq fun _ _ => (Costs.oob _).seq fun _ _ =>
      (Costs.call _ _ fun _ => rfl).seq fun _ _ => (Costs.mod (J := fun _ => True) fun c h => trivial).seq fun _ _ =>
      (Costs.require _ _).any
  exact (Costs.hashTh _).seq fun h hh => Costs.modCtx (fun _ _ => trivial) fun _ _ => hh

end

end Verif
