import Verif.Demand

/-!
# What the inner functions ask the memory backend for
-/

namespace Verif

open M Spec

variable {σ α β : Type} {E : Env σ} {cfg : Config} {su : Suite} {Z : Prop} {ms : Msg} {k : Bool} {d e : Nat}

theorem bstrOh_pos (n : Nat) : 0 < bstrOh n := by
  unfold bstrOh
  repeat' split
  all_goals omega
theorem bstrOh_max (n : Nat) : bstrOh n ≤ 5 := by
  unfold bstrOh
  repeat' split
  all_goals omega
theorem intMemReq_pos (v : Int) : 0 < intMemReq v := by
  unfold intMemReq
  repeat' split
  all_goals omega
theorem intMemReq_max (v : Int) : intMemReq v ≤ 4 := by
  unfold intMemReq
  repeat' split
  all_goals omega
theorem arrayOh_max (n : Nat) : arrayOh n ≤ 4 := by
  unfold arrayOh
  repeat' split
  all_goals omega

/-- bytes of a connection identifier -/
def cidBytes : Cid → Nat
  | .int _ => 0
  | .bstr b => b.length

theorem cidLen_bound (c : Cid) : cidLen c ≤ cidBytes c + 5 := by
  cases c with
  | int v => simp [cidLen, cidBytes]
  | bstr b => have := bstrOh_max b.length; simp only [cidLen, cidBytes]; omega

/-- The suite and the message in use; sizes of the connection identifiers (the one in the MAC context only if `k`), of the
own ephemeral public key and of the EAD. -/
structure Sized (cfg : Config) (su : Suite) (ms : Msg) (k : Bool) (d e : Nat) (c : Ctx) : Prop where
  suite : c.suite = su
  message : c.message = ms
  own : cidBytes c.cid ≤ cfg.maxCid + 1
  mac : k = true → ms = .msg2 → cidBytes (macCid c) ≤ cfg.maxCid + 1
  pub : c.dhPub.length ≤ d
  ead : eadLen c.ead ≤ e

section suite

variable {I : Ctx → Prop}

theorem Costs.hashTh (b : Bytes) : Costs cfg Z I 0 (Verif.hashTh E cfg b) I (fun h => h.length ≤ cfg.maxMac) := by
  unfold Verif.hashTh
  refine Costs.getCtx.seq fun c hc => (Costs.oob _).seq fun _ hg => ?_
  refine (Costs.hash _).seq fun _ _ => (Costs.ofOption _ _).seq fun h _ => (Costs.require _ _).seq fun _ hq => ?_
  refine (Costs.pure h).res ?_
  rintro _ rfl
  simp only [beq_iff_eq, decide_eq_true_eq] at hq hg
  omega

theorem Costs.extractPrk (hI : ∀ c, I c → c.suite = su) (a b : Bytes) :
    Costs cfg Z I 0 (Verif.extractPrk E cfg a b) I (fun p => p.length = su.hash) := by
  unfold Verif.extractPrk
  refine Costs.getCtx.seq fun c hc => ?_
  refine (Costs.withKey fun k => (Costs.oob _).seq fun _ _ => Costs.extract _ _).seq fun _ _ => ?_
  refine (Costs.ofOption _ _).seq fun _ _ => (Costs.require _ _).seq fun _ hq => (Costs.pure _).res ?_
  rintro _ rfl
  rw [← hI c hc.1]
  simpa using hq

theorem Costs.kdfExact {a : Bytes} {l : Nat} {b : Bytes} {n : Nat} :
    Costs cfg Z I (b.length + 13) (Verif.kdfExact E cfg a l b n) I (fun r => r.length = n) := by
  unfold Verif.kdfExact
  have h1 := bstrOh_max b.length
  have h2 := intMemReq_max l
  have h3 := intMemReq_max (i32 n)
  have h4 := intMemReq_pos l
  refine Costs.le (Costs.bind (Costs.memAlloc (by omega)) fun _ _ => (Costs.ofOption _ _).seq fun _ _ =>
    (Costs.require _ _).seq fun _ _ => (Costs.withKey fun k => Costs.expand _ _ _).seq fun _ hr => 
    (Costs.ofOption _ _).res fun x hx => hr x hx) (by omega)

theorem Costs.expandInfo (n : Nat) (p : Bytes) (l : Nat) (b : Bytes) (i j : Nat) :
    Costs cfg Z I 0 (Verif.expandInfo E n p l b i j) I (fun _ => True) := by
  unfold Verif.expandInfo
  exact (Costs.ofOption _ _).seq fun _ _ => (Costs.withKey fun k => Costs.expand _ _ _).seq fun _ _ => (Costs.ofOption _ _).any

theorem Costs.keyAgreementWith (h : ∀ c : Ctx, I c → I { c with dhPriv := [] }) (b : Bytes) :
    Costs cfg Z I 0 (Verif.agreeEphemeral E b) I (fun _ => True) := by
  unfold Verif.agreeEphemeral
  refine Costs.getCtx.seq fun c hc => (Costs.importKey _ _).seq fun _ _ => (Costs.mod h).seq fun _ _ => ?_
  refine (Costs.ofOption _ _).seq fun _ _ => (Costs.keyAgreement _ _).seq fun _ _ => (Costs.destroyKey _).seq fun _ _ => ?_
  exact (Costs.ofOption _ _).seq fun _ _ => (Costs.require _ _).seq fun _ _ => (Costs.pure _).any

theorem Costs.agreeStatic (b : Bytes) : Costs cfg Z I 0 (Verif.agreeStatic E b) I (fun _ => True) := by
  unfold Verif.agreeStatic
  refine Costs.getCtx.seq fun c hc => (Costs.keyAgreement _ _).seq fun _ _ => ?_
  exact (Costs.ofOption _ _).seq fun _ _ => (Costs.require _ _).seq fun _ _ => (Costs.pure _).any

theorem Costs.aeadEncrypt (a b c p : Bytes) (n : Nat) : Costs cfg Z I 0 (Verif.aeadEncrypt E a b c p n) I (fun _ => True) := by
  unfold Verif.aeadEncrypt
  exact (Costs.withKey fun k => Costs.encrypt _ _ _ _).seq fun _ _ => (Costs.ofOption _ _).seq fun _ _ =>
    (Costs.callback _).seq fun _ _ => (Costs.pure _).any

theorem Costs.aeadDecrypt (a b c p : Bytes) (n : Nat) :
    Costs cfg Z I 0 (Verif.aeadDecrypt E a b c p n) I (fun r => r.length = n) := by
  unfold Verif.aeadDecrypt
  refine (Costs.withKey fun k => Costs.decrypt _ _ _ _).seq fun _ _ => (Costs.ofOption _ _).seq fun _ _ =>
    (Costs.require _ _).seq fun _ hq => (Costs.pure _).res ?_
  rintro _ rfl
  simpa using hq

theorem Costs.eadProcess : Costs cfg Z I 0 (Verif.eadProcess E cfg) I (fun _ => True) := by
  unfold Verif.eadProcess
  exact Costs.getCtx.seq fun c hc => Costs.whenM _ fun _ => (Costs.call _ _ fun _ => rfl).seq fun _ _ => (Costs.require _ _).any

end suite

/-! ## Key schedule and transcript hashes -/

theorem Costs.genDhKeys : Costs cfg Z (Sized cfg su ms k d e) 0 (Verif.genDhKeys E cfg) (Sized cfg su ms k su.eccKey e)
    (fun _ => True) := by
  unfold Verif.genDhKeys
  refine Costs.getCtx.seq fun c hc => ?_
  refine (Costs.withKey fun k => (Costs.oob _).seq fun _ _ => Costs.makeKeyPair _).seq fun _ _ => ?_
  refine (Costs.ofOption _ _).seq fun kp _ => ?_
  by_cases hk : kp.2.length = su.eccKey
  · refine (Costs.mod (J := Sized cfg su ms k su.eccKey e) ?_).seq fun _ _ => (Costs.require _ _).any
    exact fun c h => ⟨h.suite, h.message, h.own, h.mac, Nat.le_of_eq hk, h.ead⟩
  · refine (Costs.mod (J := fun _ => True) (fun _ _ => trivial)).seq fun _ _ => ?_
    have : (kp.1.length == c.suite.eccKey && kp.2.length == c.suite.eccKey) = false := by
      rw [hc.1.suite]; simp [hk]
    rw [this]
    exact fun s hi ht => ⟨[], by simp [M.require], by simp [requested], by simp [requested], ht, trivial⟩

theorem Costs.compDhSecret : Costs cfg Z (Sized cfg su ms k d e) 0 (Verif.compDhSecret E cfg) (Sized cfg su ms k d e)
    (fun _ => True) := by
  unfold Verif.compDhSecret
  refine Costs.getCtx.seq fun c hc => ?_
  refine (Costs.withKey fun k => (Costs.oob _).seq fun _ _ => Costs.keyAgreement _ _).seq fun _ _ => ?_
  refine (Costs.ofOption _ _).seq fun _ _ => (Costs.mod ?_).seq fun _ _ => (Costs.require _ _).any
  exact fun c h => ⟨h.suite, h.message, h.own, h.mac, h.pub, h.ead⟩

theorem Costs.compTh2 : Costs cfg Z (Sized cfg su ms k d e) (su.eccKey + su.hash + 10) (Verif.compTh2 E cfg)
    (Sized cfg su ms k d e) (fun _ => True) := by
  unfold Verif.compTh2
  refine Costs.getCtx.seq fun c hc => (Costs.require _ _).seq fun _ _ => ?_
  have h1 := bstrOh_max c.suite.eccKey
  have h2 := bstrOh_max c.suite.hash
  have h3 := bstrOh_pos c.suite.hash
  refine Costs.le (Costs.bind (Costs.memAlloc (by omega)) fun _ _ => (Costs.ofOption _ _).seq fun _ _ =>
    (Costs.require _ _).seq fun _ _ => (Costs.ofOption _ _).seq fun _ _ => (Costs.require _ _).seq fun _ _ =>
    (Costs.hashTh _).seq fun h hh => Costs.modCtx ?_ (fun _ _ => hh)) ?_
  · exact fun c h => ⟨h.suite, h.message, h.own, h.mac, h.pub, h.ead⟩
  · rw [← hc.1.suite]; omega

theorem Costs.compPrk2e : Costs cfg Z (Sized cfg su ms k d e) 0 (Verif.compPrk2e E cfg)
    (fun c => Sized cfg su ms k d e c ∧ c.prk.length = su.hash) (fun _ => True) := by
  unfold Verif.compPrk2e
  refine Costs.getCtx.seq fun c hc => (Costs.require _ _).seq fun _ _ => ?_
  refine (Costs.extractPrk (fun _ h => h.suite) _ _).seq fun p hp => Costs.mod ?_
  exact fun c h => ⟨⟨h.suite, h.message, h.own, h.mac, h.pub, h.ead⟩, hp⟩

theorem Costs.compSalt3e2m : Costs cfg Z (Sized cfg su ms k d e) (cfg.maxMac + 13) (Verif.compSalt3e2m E cfg)
    (Sized cfg su ms k d e) (fun _ => True) := by
  unfold Verif.compSalt3e2m
  exact Costs.getCtx.seq fun c hc => (Costs.require _ _).seq fun _ _ => (Costs.require _ _).seq fun _ _ =>
    Costs.kdfExact.any.le (by have := hc.2; omega)

theorem Costs.compSalt4e3m : Costs cfg Z (Sized cfg su ms k d e) (cfg.maxMac + 13) (Verif.compSalt4e3m E cfg)
    (Sized cfg su ms k d e) (fun _ => True) := by
  unfold Verif.compSalt4e3m
  exact Costs.getCtx.seq fun c hc => (Costs.require _ _).seq fun _ _ => (Costs.require _ _).seq fun _ _ =>
    Costs.kdfExact.any.le (by have := hc.2; omega)

theorem Costs.agreeEphemeral (b : Bytes) : Costs cfg Z (Sized cfg su ms k d e) 0 (Verif.agreeEphemeral E b)
    (Sized cfg su ms k d e) (fun _ => True) :=
  Costs.keyAgreementWith (fun _ h => ⟨h.suite, h.message, h.own, h.mac, h.pub, h.ead⟩) b

theorem Costs.compGrx (a b : Bytes) : Costs cfg Z (Sized cfg su ms k d e) 0 (Verif.compGrx E a b)
    (Sized cfg su ms k d e) (fun _ => True) := by
  unfold Verif.compGrx
  refine Costs.getCtx.seq fun c hc => (Costs.require _ _).seq fun _ _ => ?_
  split
  · exact Costs.agreeEphemeral _
  · exact Costs.agreeStatic _

theorem Costs.compGiy (a b : Bytes) : Costs cfg Z (Sized cfg su ms k d e) 0 (Verif.compGiy E a b)
    (Sized cfg su ms k d e) (fun _ => True) := by
  unfold Verif.compGiy
  refine Costs.getCtx.seq fun c hc => (Costs.require _ _).seq fun _ _ => ?_
  split
  · exact Costs.agreeStatic _
  · exact Costs.agreeEphemeral _

section positive

variable (hz : ¬ Suite.Positive su → Z)

include hz

theorem Costs.compPrk3e2m (a b : Bytes) : Costs cfg Z (Sized cfg su ms k d e) (prkSize cfg su)
    (Verif.compPrk3e2m E cfg a b) (Sized cfg su ms k d e) (fun _ => True) := by
  unfold Verif.compPrk3e2m
  refine Costs.getCtx.seq fun c hc => (Costs.require _ _).seq fun _ _ => ?_
  rw [hc.1.suite]
  refine Costs.ite (fun _ => Costs.le (Costs.mod ?_) (Nat.zero_le _)) fun _ => Costs.ite (fun _ => ?_)
    fun _ => Costs.le (Costs.fail _) (Nat.zero_le _)
  · exact fun c h => ⟨h.suite, h.message, h.own, h.mac, h.pub, h.ead⟩
  refine Costs.le (Costs.bind (Costs.memAlloc fun h => hz fun p => p.1 h) fun _ _ =>
    Costs.bind (Costs.mapErr _ Costs.compSalt3e2m) fun _ _ =>
    Costs.bind (Costs.memAlloc fun h => hz fun p => p.2.2.1 h) fun _ _ =>
    (Costs.mapErr _ (Costs.compGrx _ _)).seq fun _ _ =>
    (Costs.extractPrk (fun _ h => h.suite) _ _).seq fun p hp => Costs.mod ?_) ?_
  · exact fun c h => ⟨h.suite, h.message, h.own, h.mac, h.pub, h.ead⟩
  · unfold prkSize; omega

theorem Costs.compPrk4e3m (a b : Bytes) : Costs cfg Z (Sized cfg su ms k d e) (prkSize cfg su)
    (Verif.compPrk4e3m E cfg a b) (Sized cfg su ms k d e) (fun _ => True) := by
  unfold Verif.compPrk4e3m
  refine Costs.getCtx.seq fun c hc => (Costs.require _ _).seq fun _ _ => ?_
  rw [hc.1.suite]
  refine Costs.ite (fun _ => Costs.le (Costs.mod ?_) (Nat.zero_le _)) fun _ => Costs.ite (fun _ => ?_)
    fun _ => Costs.le (Costs.fail _) (Nat.zero_le _)
  · exact fun c h => ⟨h.suite, h.message, h.own, h.mac, h.pub, h.ead⟩
  refine Costs.le (Costs.bind (Costs.memAlloc fun h => hz fun p => p.1 h) fun _ _ =>
    Costs.bind (Costs.mapErr _ Costs.compSalt4e3m) fun _ _ =>
    Costs.bind (Costs.memAlloc fun h => hz fun p => p.2.2.1 h) fun _ _ =>
    (Costs.mapErr _ (Costs.compGiy _ _)).seq fun _ _ =>
    (Costs.extractPrk (fun _ h => h.suite) _ _).seq fun p hp => Costs.mod ?_) ?_
  · exact fun c h => ⟨h.suite, h.message, h.own, h.mac, h.pub, h.ead⟩
  · unfold prkSize; omega

theorem Costs.keyIvAad3 : Costs cfg Z (Sized cfg su ms k d e) (aeadSize cfg su) (Verif.keyIvAad3 E cfg)
    (Sized cfg su ms k d e) (fun _ => True) := by
  unfold Verif.keyIvAad3 Verif.keyIvAad
  refine Costs.getCtx.seq fun c hc => ?_
  rw [hc.1.suite]
  have h1 := bstrOh_max c.th.length
  have h2 : bstrOh 9 = 1 := rfl
  have h3 := hc.2
  refine Costs.le (Costs.bind (Costs.memAlloc fun h => hz fun p => p.2.2.2.2.1 h) fun _ _ =>
    Costs.bind (Costs.memAlloc fun h => hz fun p => p.2.2.2.2.2.1 h) fun _ _ =>
    Costs.bind (Costs.memAlloc (by unfold aadLen; omega)) fun _ _ => Costs.mapErr _ <|
    (Costs.require _ _).seq fun _ _ => (Costs.require _ _).seq fun _ _ => Costs.getCtx.seq fun c' hc' =>
    Costs.le (B1 := cfg.maxMac + 10) (Costs.bind (Costs.memAlloc (by omega)) fun _ _ => (Costs.expandInfo _ _ _ _ _ _).seq fun _ _ =>
      (Costs.expandInfo _ _ _ _ _ _).seq fun _ _ => (Costs.ofOption _ _).seq fun _ _ => (Costs.pure _).any) ?_) ?_
  · have h4 := bstrOh_max c'.th.length
    have h5 := intMemReq_max (i32 c'.suite.aeadKey)
    have h6 := hc'.2
    omega
  · unfold aeadSize aadLen; omega

theorem Costs.keyIvAad4 : Costs cfg Z (Sized cfg su ms k d e) (aeadSize cfg su) (Verif.keyIvAad4 E cfg)
    (Sized cfg su ms k d e) (fun _ => True) := by
  unfold Verif.keyIvAad4 Verif.keyIvAad
  refine Costs.getCtx.seq fun c hc => ?_
  rw [hc.1.suite]
  have h1 := bstrOh_max c.th.length
  have h2 : bstrOh 9 = 1 := rfl
  have h3 := hc.2
  refine Costs.le (Costs.bind (Costs.memAlloc fun h => hz fun p => p.2.2.2.2.1 h) fun _ _ =>
    Costs.bind (Costs.memAlloc fun h => hz fun p => p.2.2.2.2.2.1 h) fun _ _ =>
    Costs.bind (Costs.memAlloc (by unfold aadLen; omega)) fun _ _ => Costs.mapErr _ <|
    (Costs.require _ _).seq fun _ _ => (Costs.require _ _).seq fun _ _ => Costs.getCtx.seq fun c' hc' =>
    Costs.le (B1 := cfg.maxMac + 10) (Costs.bind (Costs.memAlloc (by omega)) fun _ _ => (Costs.expandInfo _ _ _ _ _ _).seq fun _ _ =>
      (Costs.expandInfo _ _ _ _ _ _).seq fun _ _ => (Costs.ofOption _ _).seq fun _ _ => (Costs.pure _).any) ?_) ?_
  · have h4 := bstrOh_max c'.th.length
    have h5 := intMemReq_max (i32 c'.suite.aeadKey)
    have h6 := hc'.2
    omega
  · unfold aeadSize aadLen; omega

end positive

theorem Costs.compKeystream (a : Bytes) (n : Nat) : Costs cfg Z (Sized cfg su ms k d e) (cfg.maxMac + 13)
    (Verif.compKeystream E cfg a n) (Sized cfg su ms k d e) (fun r => r.length = n) := by
  unfold Verif.compKeystream
  exact Costs.getCtx.seq fun c hc => (Costs.require _ _).seq fun _ _ => (Costs.require _ _).seq fun _ _ =>
    Costs.kdfExact.le (by have := hc.2; omega)

theorem Costs.compTh3 (a b : Bytes) : Costs cfg Z (Sized cfg su ms k d e) (cfg.maxMac + 5 + b.length + a.length)
    (Verif.compTh3 E cfg a b) (Sized cfg su ms k d e) (fun _ => True) := by
  unfold Verif.compTh3
  refine Costs.getCtx.seq fun c hc => (Costs.require _ _).seq fun _ _ => (Costs.require _ _).seq fun _ _ => ?_
  have h1 := bstrOh_max c.th.length
  have h2 := bstrOh_pos c.th.length
  have h3 := hc.2
  refine Costs.le (Costs.bind (B2 := 0) (Costs.memAlloc (by omega)) fun _ _ => (Costs.ofOption _ _).seq fun _ _ =>
    (Costs.oob _).seq fun _ _ => (Costs.oob _).seq fun _ hg => (Costs.hash _).seq fun _ _ => (Costs.ofOption _ _).seq fun _ _ =>
    (Costs.callback _).seq fun _ _ => Costs.pre (I := fun c => Sized cfg su ms k d e c ∧ c.suite = su) (fun c h => ⟨h, h.suite⟩) ?_) ?_
  · intro s hi ht
    refine ⟨[], by simp [M.modCtx], by simp [requested], by simp [requested], ?_, ?_, trivial⟩
    · show (overlay _ _ _).length ≤ _
      rw [overlay, fitLen_length, hi.2, ← hc.1.suite]
      simpa using hg
    · exact ⟨hi.1.suite, hi.1.message, hi.1.own, hi.1.mac, hi.1.pub, hi.1.ead⟩
  · omega

theorem Costs.compTh4 (a b : Bytes) : Costs cfg Z (Sized cfg su ms k d e) (cfg.maxMac + 5 + b.length + a.length)
    (Verif.compTh4 E cfg a b) (Sized cfg su ms k d e) (fun _ => True) := by
  unfold Verif.compTh4
  refine Costs.getCtx.seq fun c hc => (Costs.require _ _).seq fun _ _ => (Costs.require _ _).seq fun _ _ => ?_
  have h1 := bstrOh_max c.th.length
  have h2 := bstrOh_pos c.th.length
  have h3 := hc.2
  refine Costs.le (Costs.bind (Costs.memAlloc (by omega)) fun _ _ => (Costs.ofOption _ _).seq fun _ _ =>
    (Costs.oob _).seq fun _ _ => (Costs.hashTh _).seq fun h hh => Costs.modCtx ?_ (fun _ _ => hh)) ?_
  · exact fun c h => ⟨h.suite, h.message, h.own, h.mac, h.pub, h.ead⟩
  · omega

end Verif
