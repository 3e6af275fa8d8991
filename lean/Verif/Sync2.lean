import Verif.Sync
import Verif.Success
import Verif.Api

/-!
# Two applications: every function of the library
-/

namespace Verif.Link

open M Spec

variable {σ τ α : Type} {K : τ → List Ev → τ → Prop} {E : Env σ} {E' : Env τ} (h : Link E' K)
include h

theorem f_memAlloc (cfg : Config) (n : Nat) : Sync K (Verif.memAlloc E cfg n) (Verif.memAlloc E' cfg n) := by
  unfold Verif.memAlloc
  split
  · sync! h
  · refine Sync.bind h.toTrace ?_ fun _ => Sync.require h.toTrace _ _
    exact .call (fun a b h => by simpa using h) (fun _ _ => rfl) (fun _ => trivial) fun e => h.alloc e n
macro_rules | `(tactic| sync_fn $h) => `(tactic| with_reducible exact Link.f_memAlloc $h _ _)

theorem f_importKey (t : KeyType) (b : Bytes) : Sync K (Verif.importKey E t b) (Verif.importKey E' t b) :=
  (h.needKeys).bind h.toTrace fun _ => .call (fun a b h => by simpa using h) (fun _ _ => rfl) (fun _ => trivial) fun e => h.importKey e t b
macro_rules | `(tactic| sync_fn $h) => `(tactic| with_reducible exact Link.f_importKey $h _ _)

theorem f_destroyKey (b : Bytes) : Sync K (Verif.destroyKey E b) (Verif.destroyKey E' b) :=
  (h.needKeys).bind h.toTrace fun _ => .call (fun _ _ _ => rfl) (fun _ _ => rfl) (fun _ => trivial) fun e => h.destroyKey e b
macro_rules | `(tactic| sync_fn $h) => `(tactic| with_reducible exact Link.f_destroyKey $h _)

theorem f_makeKeyPair (k : Bytes) : Sync K (Verif.makeKeyPair E k) (Verif.makeKeyPair E' k) :=
  (h.needCrypto).bind h.toTrace fun _ => .call (fun a b h => by simpa using h) (fun _ _ => rfl) (fun _ => trivial) fun e => h.makeKeyPair e k
macro_rules | `(tactic| sync_fn $h) => `(tactic| with_reducible exact Link.f_makeKeyPair $h _)

theorem f_keyAgreement (k p : Bytes) : Sync K (Verif.keyAgreement E k p) (Verif.keyAgreement E' k p) :=
  (h.needCrypto).bind h.toTrace fun _ => .call (fun a b h => by simpa using h) (fun _ _ => rfl) (fun _ => trivial) fun e => h.keyAgreement e k p
macro_rules | `(tactic| sync_fn $h) => `(tactic| with_reducible exact Link.f_keyAgreement $h _ _)

theorem f_sign (k b : Bytes) : Sync K (Verif.sign E k b) (Verif.sign E' k b) :=
  (h.needCrypto).bind h.toTrace fun _ => .call (fun a b h => by simpa using h) (fun _ _ => rfl) (fun _ => trivial) fun e => h.sign e k b
macro_rules | `(tactic| sync_fn $h) => `(tactic| with_reducible exact Link.f_sign $h _ _)

theorem f_verify (k b c : Bytes) : Sync K (Verif.verify E k b c) (Verif.verify E' k b c) :=
  (h.needCrypto).bind h.toTrace fun _ => .call (fun a b h => by simpa using h) (fun _ _ => rfl) (fun _ => trivial) fun e => h.verify e k b c
macro_rules | `(tactic| sync_fn $h) => `(tactic| with_reducible exact Link.f_verify $h _ _ _)

theorem f_extract (k b : Bytes) : Sync K (Verif.extract E k b) (Verif.extract E' k b) :=
  (h.needCrypto).bind h.toTrace fun _ => .call (fun a b h => by simpa using h) (fun _ _ => rfl) (fun _ => trivial) fun e => h.extract e k b
macro_rules | `(tactic| sync_fn $h) => `(tactic| with_reducible exact Link.f_extract $h _ _)

theorem f_expand (k b : Bytes) (n : Nat) : Sync K (Verif.expand E k b n) (Verif.expand E' k b n) :=
  (h.needCrypto).bind h.toTrace fun _ => .call (fun a b h => by simpa using h) (fun _ _ => rfl) (fun e => by cases hr : (E.expand e k b n).1 <;> simp [hr, Ev.Fit, fitLen_length]) fun e => h.expand e k b n
macro_rules | `(tactic| sync_fn $h) => `(tactic| with_reducible exact Link.f_expand $h _ _ _)

theorem f_encrypt (k a b c : Bytes) : Sync K (Verif.encrypt E k a b c) (Verif.encrypt E' k a b c) :=
  (h.needCrypto).bind h.toTrace fun _ => .call (fun a b h => by simpa using h) (fun _ _ => rfl) (fun _ => trivial) fun e => h.encrypt e k a b c
macro_rules | `(tactic| sync_fn $h) => `(tactic| with_reducible exact Link.f_encrypt $h _ _ _ _)

theorem f_decrypt (k a b c : Bytes) : Sync K (Verif.decrypt E k a b c) (Verif.decrypt E' k a b c) :=
  (h.needCrypto).bind h.toTrace fun _ => .call (fun a b h => by simpa using h) (fun _ _ => rfl) (fun _ => trivial) fun e => h.decrypt e k a b c
macro_rules | `(tactic| sync_fn $h) => `(tactic| with_reducible exact Link.f_decrypt $h _ _ _ _)

theorem f_hash (b : Bytes) : Sync K (Verif.hash E b) (Verif.hash E' b) :=
  (h.needCrypto).bind h.toTrace fun _ => .call (fun a b h => by simpa using h) (fun _ _ => rfl) (fun _ => trivial) fun e => h.hash e b
macro_rules | `(tactic| sync_fn $h) => `(tactic| with_reducible exact Link.f_hash $h _)

theorem f_credFetch  : Sync K (Verif.credFetch E ) (Verif.credFetch E' ) :=
  (h.needCred).bind h.toTrace fun _ => .call (fun a b h => by simpa using h) (fun _ _ => rfl) (fun _ => trivial) fun e => h.credFetch e 
macro_rules | `(tactic| sync_fn $h) => `(tactic| with_reducible exact Link.f_credFetch $h )

theorem f_credVerify (c : Cred) : Sync K (Verif.credVerify E c) (Verif.credVerify E' c) :=
  (h.needCred).bind h.toTrace fun _ => .call (fun a b h => by simpa using h) (fun _ _ => rfl) (fun _ => trivial) fun e => h.credVerify e c
macro_rules | `(tactic| sync_fn $h) => `(tactic| with_reducible exact Link.f_credVerify $h _)

theorem f_withKey (t : KeyType) (b : Bytes) (e : Err) {f : Bytes → M σ α} {f' : Bytes → M τ α} (hf : ∀ k, Sync K (f k) (f' k)) :
    Sync K (Verif.withKey E t b e f) (Verif.withKey E' t b e f') := by
  unfold Verif.withKey
  sync! h
  exact hf _
macro_rules | `(tactic| sync_fn $h) => `(tactic| with_reducible refine Link.f_withKey $h _ _ _ (fun _ => ?_))

theorem callEadCompose (m : Msg) : Sync K (M.call (fun e => E.eadCompose e m) (.eadCompose m))
    (M.call (fun e => E'.eadCompose e m) (.eadCompose m)) :=
  .call (fun a b h => by simpa using h) (fun _ _ => rfl) (fun _ => trivial) fun e => h.eadCompose e m
theorem callEadProcess (m : Msg) (l : List EadTok) : Sync K (M.call (fun e => E.eadProcess e m l) (.eadProcess m l))
    (M.call (fun e => E'.eadProcess e m l) (.eadProcess m l)) :=
  .call (fun a b h => by simpa using h) (fun _ _ => rfl) (fun _ => trivial) fun e => h.eadProcess e m l
macro_rules | `(tactic| sync_fn $h) => `(tactic| with_reducible exact Link.callEadCompose $h _)
macro_rules | `(tactic| sync_fn $h) => `(tactic| with_reducible exact Link.callEadProcess $h _ _)

theorem f_compMac (x0 : Config) (x1 : Bytes) (x2 : Nat) : Sync K (Verif.compMac E x0 x1 x2 : M σ Bytes) (Verif.compMac E' x0 x1 x2 : M τ Bytes) := by
  unfold Verif.compMac
  sync! h
macro_rules | `(tactic| sync_fn $h) => `(tactic| with_reducible exact Link.f_compMac $h _ _ _)

theorem f_signCose (x0 : Config) (x1 : Bytes) (x2 : MacCtx) (x3 : Bytes) (x4 : Nat) : Sync K (Verif.signCose E x0 x1 x2 x3 x4 : M σ Bytes) (Verif.signCose E' x0 x1 x2 x3 x4 : M τ Bytes) := by
  unfold Verif.signCose
  sync! h
macro_rules | `(tactic| sync_fn $h) => `(tactic| with_reducible exact Link.f_signCose $h _ _ _ _ _)

theorem f_verifyCose (x0 : Config) (x1 : MacCtx) (x2 : Bytes) (x3 : Bytes) (x4 : Bytes) : Sync K (Verif.verifyCose E x0 x1 x2 x3 x4 : M σ Unit) (Verif.verifyCose E' x0 x1 x2 x3 x4 : M τ Unit) := by
  unfold Verif.verifyCose
  sync! h
macro_rules | `(tactic| sync_fn $h) => `(tactic| with_reducible exact Link.f_verifyCose $h _ _ _ _ _)

theorem f_compSignOrMac (x0 : Config) (x1 : Bytes) (x2 : MacCtx) (x3 : Bytes) (x4 : Nat) : Sync K (Verif.compSignOrMac E x0 x1 x2 x3 x4 : M σ Bytes) (Verif.compSignOrMac E' x0 x1 x2 x3 x4 : M τ Bytes) := by
  unfold Verif.compSignOrMac
  sync! h
  split <;> sync! h
macro_rules | `(tactic| sync_fn $h) => `(tactic| with_reducible exact Link.f_compSignOrMac $h _ _ _ _ _)

theorem f_verifySignOrMac (x0 : Config) (x1 : MacCtx) (x2 : Option Bytes) (x3 : Bytes) (x4 : Bytes) : Sync K (Verif.verifySignOrMac E x0 x1 x2 x3 x4 : M σ Unit) (Verif.verifySignOrMac E' x0 x1 x2 x3 x4 : M τ Unit) := by
  unfold Verif.verifySignOrMac
  sync! h
  split <;> sync! h
macro_rules | `(tactic| sync_fn $h) => `(tactic| with_reducible exact Link.f_verifySignOrMac $h _ _ _ _ _)

theorem f_eadCompose (x0 : Config) : Sync K (Verif.eadCompose E x0 : M σ Unit) (Verif.eadCompose E' x0 : M τ Unit) := by
  unfold Verif.eadCompose
  sync! h
macro_rules | `(tactic| sync_fn $h) => `(tactic| with_reducible exact Link.f_eadCompose $h _)

theorem f_eadProcess (x0 : Config) : Sync K (Verif.eadProcess E x0 : M σ Unit) (Verif.eadProcess E' x0 : M τ Unit) := by
  unfold Verif.eadProcess
  sync! h
macro_rules | `(tactic| sync_fn $h) => `(tactic| with_reducible exact Link.f_eadProcess $h _)

theorem f_clearEad : Sync K (Verif.clearEad : M σ Unit) (Verif.clearEad : M τ Unit) := by
  unfold Verif.clearEad
  sync! h
macro_rules | `(tactic| sync_fn $h) => `(tactic| with_reducible exact Link.f_clearEad $h)

theorem f_enter (x0 : Ctx → Bool) (x1 : Msg) (x2 : Role) : Sync K (Verif.enter x0 x1 x2 : M σ Unit) (Verif.enter x0 x1 x2 : M τ Unit) := by
  unfold Verif.enter
  sync! h
macro_rules | `(tactic| sync_fn $h) => `(tactic| with_reducible exact Link.f_enter $h _ _ _)

theorem f_chooseSuite : Sync K (Verif.chooseSuite : M σ Unit) (Verif.chooseSuite : M τ Unit) := by
  unfold Verif.chooseSuite
  sync! h
macro_rules | `(tactic| sync_fn $h) => `(tactic| with_reducible exact Link.f_chooseSuite $h)

theorem f_hashTh (x0 : Config) (x1 : Bytes) : Sync K (Verif.hashTh E x0 x1 : M σ Bytes) (Verif.hashTh E' x0 x1 : M τ Bytes) := by
  unfold Verif.hashTh
  sync! h
macro_rules | `(tactic| sync_fn $h) => `(tactic| with_reducible exact Link.f_hashTh $h _ _)

theorem f_message1Compose (x0 : Config) (x1 : Nat) : Sync K (Verif.message1Compose E x0 x1 : M σ Bytes) (Verif.message1Compose E' x0 x1 : M τ Bytes) := by
  unfold Verif.message1Compose
  sync! h
macro_rules | `(tactic| sync_fn $h) => `(tactic| with_reducible exact Link.f_message1Compose $h _ _)

theorem f_checkSuites (x0 : Config) (x1 : Suites) : Sync K (Verif.checkSuites x0 x1 : M σ Unit) (Verif.checkSuites x0 x1 : M τ Unit) := by
  unfold Verif.checkSuites
  cases x1 <;> sync! h
macro_rules | `(tactic| sync_fn $h) => `(tactic| with_reducible exact Link.f_checkSuites $h _ _)

theorem f_storePeerCid (x0 : Config) (x1 : Err) (x2 : Cid) : Sync K (Verif.storePeerCid x0 x1 x2 : M σ Unit) (Verif.storePeerCid x0 x1 x2 : M τ Unit) := by
  unfold Verif.storePeerCid
  cases x2 <;> sync! h
macro_rules | `(tactic| sync_fn $h) => `(tactic| with_reducible exact Link.f_storePeerCid $h _ _ _)

theorem f_processEad1 (x0 : Config) (x1 : List EadTok) (x2 : Nat) : Sync K (Verif.processEad1 E x0 x1 x2 : M σ Unit) (Verif.processEad1 E' x0 x1 x2 : M τ Unit) := by
  unfold Verif.processEad1
  sync! h
macro_rules | `(tactic| sync_fn $h) => `(tactic| with_reducible exact Link.f_processEad1 $h _ _ _)

theorem f_message1Process (x0 : Config) (x1 : Bytes) : Sync K (Verif.message1Process E x0 x1 : M σ Unit) (Verif.message1Process E' x0 x1 : M τ Unit) := by
  unfold Verif.message1Process
  sync! h
macro_rules | `(tactic| sync_fn $h) => `(tactic| with_reducible exact Link.f_message1Process $h _ _)

theorem f_genDhKeys (x0 : Config) : Sync K (Verif.genDhKeys E x0 : M σ Unit) (Verif.genDhKeys E' x0 : M τ Unit) := by
  unfold Verif.genDhKeys
  sync! h
macro_rules | `(tactic| sync_fn $h) => `(tactic| with_reducible exact Link.f_genDhKeys $h _)

theorem f_compDhSecret (x0 : Config) : Sync K (Verif.compDhSecret E x0 : M σ Unit) (Verif.compDhSecret E' x0 : M τ Unit) := by
  unfold Verif.compDhSecret
  sync! h
macro_rules | `(tactic| sync_fn $h) => `(tactic| with_reducible exact Link.f_compDhSecret $h _)

theorem f_compTh2 (x0 : Config) : Sync K (Verif.compTh2 E x0 : M σ Unit) (Verif.compTh2 E' x0 : M τ Unit) := by
  unfold Verif.compTh2
  sync! h
macro_rules | `(tactic| sync_fn $h) => `(tactic| with_reducible exact Link.f_compTh2 $h _)

theorem f_extractPrk (x0 : Config) (x1 : Bytes) (x2 : Bytes) : Sync K (Verif.extractPrk E x0 x1 x2 : M σ Bytes) (Verif.extractPrk E' x0 x1 x2 : M τ Bytes) := by
  unfold Verif.extractPrk
  sync! h
macro_rules | `(tactic| sync_fn $h) => `(tactic| with_reducible exact Link.f_extractPrk $h _ _ _)

theorem f_compPrk2e (x0 : Config) : Sync K (Verif.compPrk2e E x0 : M σ Unit) (Verif.compPrk2e E' x0 : M τ Unit) := by
  unfold Verif.compPrk2e
  sync! h
macro_rules | `(tactic| sync_fn $h) => `(tactic| with_reducible exact Link.f_compPrk2e $h _)

theorem f_kdfExact (x0 : Config) (x1 : Bytes) (x2 : Nat) (x3 : Bytes) (x4 : Nat) : Sync K (Verif.kdfExact E x0 x1 x2 x3 x4 : M σ Bytes) (Verif.kdfExact E' x0 x1 x2 x3 x4 : M τ Bytes) := by
  unfold Verif.kdfExact
  sync! h
macro_rules | `(tactic| sync_fn $h) => `(tactic| with_reducible exact Link.f_kdfExact $h _ _ _ _ _)

theorem f_compSalt3e2m (x0 : Config) : Sync K (Verif.compSalt3e2m E x0 : M σ Bytes) (Verif.compSalt3e2m E' x0 : M τ Bytes) := by
  unfold Verif.compSalt3e2m
  sync! h
macro_rules | `(tactic| sync_fn $h) => `(tactic| with_reducible exact Link.f_compSalt3e2m $h _)

theorem f_agreeEphemeral (x0 : Bytes) : Sync K (Verif.agreeEphemeral E x0 : M σ Bytes) (Verif.agreeEphemeral E' x0 : M τ Bytes) := by
  unfold Verif.agreeEphemeral
  sync! h
macro_rules | `(tactic| sync_fn $h) => `(tactic| with_reducible exact Link.f_agreeEphemeral $h _)

theorem f_agreeStatic (x0 : Bytes) : Sync K (Verif.agreeStatic E x0 : M σ Bytes) (Verif.agreeStatic E' x0 : M τ Bytes) := by
  unfold Verif.agreeStatic
  sync! h
macro_rules | `(tactic| sync_fn $h) => `(tactic| with_reducible exact Link.f_agreeStatic $h _)

theorem f_compGrx (x0 : Bytes) (x1 : Bytes) : Sync K (Verif.compGrx E x0 x1 : M σ Bytes) (Verif.compGrx E' x0 x1 : M τ Bytes) := by
  unfold Verif.compGrx
  sync! h
  split <;> sync! h
macro_rules | `(tactic| sync_fn $h) => `(tactic| with_reducible exact Link.f_compGrx $h _ _)

theorem f_compPrk3e2m (x0 : Config) (x1 : Bytes) (x2 : Bytes) : Sync K (Verif.compPrk3e2m E x0 x1 x2 : M σ Unit) (Verif.compPrk3e2m E' x0 x1 x2 : M τ Unit) := by
  unfold Verif.compPrk3e2m
  sync! h
macro_rules | `(tactic| sync_fn $h) => `(tactic| with_reducible exact Link.f_compPrk3e2m $h _ _ _)

theorem f_compKeystream (x0 : Config) (x1 : Bytes) (x2 : Nat) : Sync K (Verif.compKeystream E x0 x1 x2 : M σ Bytes) (Verif.compKeystream E' x0 x1 x2 : M τ Bytes) := by
  unfold Verif.compKeystream
  sync! h
macro_rules | `(tactic| sync_fn $h) => `(tactic| with_reducible exact Link.f_compKeystream $h _ _ _)

theorem f_compTh3 (x0 : Config) (x1 : Bytes) (x2 : Bytes) : Sync K (Verif.compTh3 E x0 x1 x2 : M σ Unit) (Verif.compTh3 E' x0 x1 x2 : M τ Unit) := by
  unfold Verif.compTh3
  sync! h
macro_rules | `(tactic| sync_fn $h) => `(tactic| with_reducible exact Link.f_compTh3 $h _ _ _)

theorem f_prepareMsg2 (x0 : Config) (x1 : Bytes) (x2 : Nat) : Sync K (Verif.prepareMsg2 E x0 x1 x2 : M σ Bytes) (Verif.prepareMsg2 E' x0 x1 x2 : M τ Bytes) := by
  unfold Verif.prepareMsg2
  sync! h
macro_rules | `(tactic| sync_fn $h) => `(tactic| with_reducible exact Link.f_prepareMsg2 $h _ _ _)

theorem f_buildMacCtx (x0 : Config) (x1 : Option Err) (x2 : Cred) : Sync K (Verif.buildMacCtx E x0 x1 x2 : M σ MacCtx) (Verif.buildMacCtx E' x0 x1 x2 : M τ MacCtx) := by
  unfold Verif.buildMacCtx
  sync! h
macro_rules | `(tactic| sync_fn $h) => `(tactic| with_reducible exact Link.f_buildMacCtx $h _ _ _)

theorem f_message2Compose (x0 : Config) (x1 : Nat) : Sync K (Verif.message2Compose E x0 x1 : M σ Bytes) (Verif.message2Compose E' x0 x1 : M τ Bytes) := by
  unfold Verif.message2Compose
  sync! h
macro_rules | `(tactic| sync_fn $h) => `(tactic| with_reducible exact Link.f_message2Compose $h _ _)

theorem f_handOver (x0 : Config) (x1 : Nat) : Sync K (Verif.handOver x0 x1 : M σ Unit) (Verif.handOver x0 x1 : M τ Unit) := by
  unfold Verif.handOver
  sync! h
macro_rules | `(tactic| sync_fn $h) => `(tactic| with_reducible exact Link.f_handOver $h _ _)

theorem f_storeEad (x0 : Config) (x1 : List EadTok) (x2 : Nat) : Sync K (Verif.storeEad x0 x1 x2 : M σ Unit) (Verif.storeEad x0 x1 x2 : M τ Unit) := by
  unfold Verif.storeEad
  sync! h
macro_rules | `(tactic| sync_fn $h) => `(tactic| with_reducible exact Link.f_storeEad $h _ _ _)

theorem f_parsePtxt2 (x0 : Config) (x1 : Bytes) : Sync K (Verif.parsePtxt2 x0 x1 : M σ (Cred × Bytes)) (Verif.parsePtxt2 x0 x1 : M τ (Cred × Bytes)) := by
  unfold Verif.parsePtxt2
  sync! h
macro_rules | `(tactic| sync_fn $h) => `(tactic| with_reducible exact Link.f_parsePtxt2 $h _ _)

theorem f_verifyCred (x0 : Cred) : Sync K (Verif.verifyCred E x0 : M σ (Cred × Option Bytes)) (Verif.verifyCred E' x0 : M τ (Cred × Option Bytes)) := by
  unfold Verif.verifyCred
  sync! h
macro_rules | `(tactic| sync_fn $h) => `(tactic| with_reducible exact Link.f_verifyCred $h _)

theorem f_parseMsg2 (x0 : Config) (x1 : Bytes) : Sync K (Verif.parseMsg2 E x0 x1 : M σ Bytes) (Verif.parseMsg2 E' x0 x1 : M τ Bytes) := by
  unfold Verif.parseMsg2
  sync! h
macro_rules | `(tactic| sync_fn $h) => `(tactic| with_reducible exact Link.f_parseMsg2 $h _ _)

theorem f_message2Process (x0 : Config) (x1 : Bytes) : Sync K (Verif.message2Process E x0 x1 : M σ Unit) (Verif.message2Process E' x0 x1 : M τ Unit) := by
  unfold Verif.message2Process
  sync! h
macro_rules | `(tactic| sync_fn $h) => `(tactic| with_reducible exact Link.f_message2Process $h _ _)

theorem f_compSalt4e3m (x0 : Config) : Sync K (Verif.compSalt4e3m E x0 : M σ Bytes) (Verif.compSalt4e3m E' x0 : M τ Bytes) := by
  unfold Verif.compSalt4e3m
  sync! h
macro_rules | `(tactic| sync_fn $h) => `(tactic| with_reducible exact Link.f_compSalt4e3m $h _)

theorem f_compGiy (x0 : Bytes) (x1 : Bytes) : Sync K (Verif.compGiy E x0 x1 : M σ Bytes) (Verif.compGiy E' x0 x1 : M τ Bytes) := by
  unfold Verif.compGiy
  sync! h
  split <;> sync! h
macro_rules | `(tactic| sync_fn $h) => `(tactic| with_reducible exact Link.f_compGiy $h _ _)

theorem f_compPrk4e3m (x0 : Config) (x1 : Bytes) (x2 : Bytes) : Sync K (Verif.compPrk4e3m E x0 x1 x2 : M σ Unit) (Verif.compPrk4e3m E' x0 x1 x2 : M τ Unit) := by
  unfold Verif.compPrk4e3m
  sync! h
macro_rules | `(tactic| sync_fn $h) => `(tactic| with_reducible exact Link.f_compPrk4e3m $h _ _ _)

theorem f_expandInfo (x0 : Nat) (x1 : Bytes) (x2 : Nat) (x3 : Bytes) (x4 : Nat) (x5 : Nat) : Sync K (Verif.expandInfo E x0 x1 x2 x3 x4 x5 : M σ Bytes) (Verif.expandInfo E' x0 x1 x2 x3 x4 x5 : M τ Bytes) := by
  unfold Verif.expandInfo
  sync! h
macro_rules | `(tactic| sync_fn $h) => `(tactic| with_reducible exact Link.f_expandInfo $h _ _ _ _ _ _)

theorem f_keyIvAad (x0 : Config) (x1 : Nat) (x2 : Nat) : Sync K (Verif.keyIvAad E x0 x1 x2 : M σ (Bytes × Bytes × Bytes)) (Verif.keyIvAad E' x0 x1 x2 : M τ (Bytes × Bytes × Bytes)) := by
  unfold Verif.keyIvAad
  sync! h
macro_rules | `(tactic| sync_fn $h) => `(tactic| with_reducible exact Link.f_keyIvAad $h _ _ _)

theorem f_keyIvAad3 (x0 : Config) : Sync K (Verif.keyIvAad3 E x0 : M σ (Bytes × Bytes × Bytes)) (Verif.keyIvAad3 E' x0 : M τ (Bytes × Bytes × Bytes)) := by
  unfold Verif.keyIvAad3
  sync! h
macro_rules | `(tactic| sync_fn $h) => `(tactic| with_reducible exact Link.f_keyIvAad3 $h _)

theorem f_compTh4 (x0 : Config) (x1 : Bytes) (x2 : Bytes) : Sync K (Verif.compTh4 E x0 x1 x2 : M σ Unit) (Verif.compTh4 E' x0 x1 x2 : M τ Unit) := by
  unfold Verif.compTh4
  sync! h
macro_rules | `(tactic| sync_fn $h) => `(tactic| with_reducible exact Link.f_compTh4 $h _ _ _)

theorem f_aeadEncrypt (x0 : Bytes) (x1 : Bytes) (x2 : Bytes) (x3 : Bytes) (x4 : Nat) : Sync K (Verif.aeadEncrypt E x0 x1 x2 x3 x4 : M σ Bytes) (Verif.aeadEncrypt E' x0 x1 x2 x3 x4 : M τ Bytes) := by
  unfold Verif.aeadEncrypt
  sync! h
macro_rules | `(tactic| sync_fn $h) => `(tactic| with_reducible exact Link.f_aeadEncrypt $h _ _ _ _ _)

theorem f_aeadDecrypt (x0 : Bytes) (x1 : Bytes) (x2 : Bytes) (x3 : Bytes) (x4 : Nat) : Sync K (Verif.aeadDecrypt E x0 x1 x2 x3 x4 : M σ Bytes) (Verif.aeadDecrypt E' x0 x1 x2 x3 x4 : M τ Bytes) := by
  unfold Verif.aeadDecrypt
  sync! h
macro_rules | `(tactic| sync_fn $h) => `(tactic| with_reducible exact Link.f_aeadDecrypt $h _ _ _ _ _)

theorem f_genMsg3 (x0 : Bytes) (x1 : Nat) : Sync K (Verif.genMsg3 x0 x1 : M σ Bytes) (Verif.genMsg3 x0 x1 : M τ Bytes) := by
  unfold Verif.genMsg3
  sync! h
macro_rules | `(tactic| sync_fn $h) => `(tactic| with_reducible exact Link.f_genMsg3 $h _ _)

theorem f_message3Compose (x0 : Config) (x1 : Nat) : Sync K (Verif.message3Compose E x0 x1 : M σ Bytes) (Verif.message3Compose E' x0 x1 : M τ Bytes) := by
  unfold Verif.message3Compose
  sync! h
macro_rules | `(tactic| sync_fn $h) => `(tactic| with_reducible exact Link.f_message3Compose $h _ _)

theorem f_parsePtxt3 (x0 : Config) (x1 : Bytes) : Sync K (Verif.parsePtxt3 x0 x1 : M σ (Cred × Bytes)) (Verif.parsePtxt3 x0 x1 : M τ (Cred × Bytes)) := by
  unfold Verif.parsePtxt3
  sync! h
macro_rules | `(tactic| sync_fn $h) => `(tactic| with_reducible exact Link.f_parsePtxt3 $h _ _)

theorem f_message3Process (x0 : Config) (x1 : Bytes) : Sync K (Verif.message3Process E x0 x1 : M σ Unit) (Verif.message3Process E' x0 x1 : M τ Unit) := by
  unfold Verif.message3Process
  sync! h
macro_rules | `(tactic| sync_fn $h) => `(tactic| with_reducible exact Link.f_message3Process $h _ _)

theorem f_keyIvAad4 (x0 : Config) : Sync K (Verif.keyIvAad4 E x0 : M σ (Bytes × Bytes × Bytes)) (Verif.keyIvAad4 E' x0 : M τ (Bytes × Bytes × Bytes)) := by
  unfold Verif.keyIvAad4
  sync! h
macro_rules | `(tactic| sync_fn $h) => `(tactic| with_reducible exact Link.f_keyIvAad4 $h _)

theorem f_genMsg4 (x0 : Bytes) (x1 : Nat) : Sync K (Verif.genMsg4 x0 x1 : M σ Bytes) (Verif.genMsg4 x0 x1 : M τ Bytes) := by
  unfold Verif.genMsg4
  sync! h
macro_rules | `(tactic| sync_fn $h) => `(tactic| with_reducible exact Link.f_genMsg4 $h _ _)

theorem f_message4Compose (x0 : Config) (x1 : Nat) : Sync K (Verif.message4Compose E x0 x1 : M σ Bytes) (Verif.message4Compose E' x0 x1 : M τ Bytes) := by
  unfold Verif.message4Compose
  sync! h
macro_rules | `(tactic| sync_fn $h) => `(tactic| with_reducible exact Link.f_message4Compose $h _ _)

theorem f_parsePtxt4 (x0 : Config) (x1 : Bytes) : Sync K (Verif.parsePtxt4 x0 x1 : M σ Unit) (Verif.parsePtxt4 x0 x1 : M τ Unit) := by
  unfold Verif.parsePtxt4
  sync! h
macro_rules | `(tactic| sync_fn $h) => `(tactic| with_reducible exact Link.f_parsePtxt4 $h _ _)

theorem f_message4Process (x0 : Config) (x1 : Bytes) : Sync K (Verif.message4Process E x0 x1 : M σ Unit) (Verif.message4Process E' x0 x1 : M τ Unit) := by
  unfold Verif.message4Process
  sync! h
macro_rules | `(tactic| sync_fn $h) => `(tactic| with_reducible exact Link.f_message4Process $h _ _)

theorem f_compPrkOut (x0 : Config) : Sync K (Verif.compPrkOut E x0 : M σ Unit) (Verif.compPrkOut E' x0 : M τ Unit) := by
  unfold Verif.compPrkOut
  sync! h
macro_rules | `(tactic| sync_fn $h) => `(tactic| with_reducible exact Link.f_compPrkOut $h _)

theorem f_compNewPrkOut (x0 : Config) (x1 : Bytes) : Sync K (Verif.compNewPrkOut E x0 x1 : M σ Unit) (Verif.compNewPrkOut E' x0 x1 : M τ Unit) := by
  unfold Verif.compNewPrkOut
  sync! h
macro_rules | `(tactic| sync_fn $h) => `(tactic| with_reducible exact Link.f_compNewPrkOut $h _ _)

theorem f_compPrkExporter (x0 : Config) : Sync K (Verif.compPrkExporter E x0 : M σ Bytes) (Verif.compPrkExporter E' x0 : M τ Bytes) := by
  unfold Verif.compPrkExporter
  sync! h
macro_rules | `(tactic| sync_fn $h) => `(tactic| with_reducible exact Link.f_compPrkExporter $h _)

theorem f_ensurePrkOut (x0 : Config) : Sync K (Verif.ensurePrkOut E x0 : M σ Unit) (Verif.ensurePrkOut E' x0 : M τ Unit) := by
  unfold Verif.ensurePrkOut
  sync! h
macro_rules | `(tactic| sync_fn $h) => `(tactic| with_reducible exact Link.f_ensurePrkOut $h _)

theorem f_exportSecret (x0 : Config) (x1 : Nat) (x2 : Nat) : Sync K (Verif.exportSecret E x0 x1 x2 : M σ Bytes) (Verif.exportSecret E' x0 x1 x2 : M τ Bytes) := by
  unfold Verif.exportSecret
  sync! h
macro_rules | `(tactic| sync_fn $h) => `(tactic| with_reducible exact Link.f_exportSecret $h _ _ _)

theorem f_keyUpdate (x0 : Config) (x1 : Bytes) : Sync K (Verif.keyUpdate E x0 x1 : M σ Unit) (Verif.keyUpdate E' x0 x1 : M τ Unit) := by
  unfold Verif.keyUpdate
  sync! h
macro_rules | `(tactic| sync_fn $h) => `(tactic| with_reducible exact Link.f_keyUpdate $h _ _)

theorem f_exportOscore (x0 : Config) (x1 : Nat) (x2 : Nat) (x3 : Nat) (x4 : Nat) : Sync K (Verif.exportOscore E x0 x1 x2 x3 x4 : M σ Oscore) (Verif.exportOscore E' x0 x1 x2 x3 x4 : M τ Oscore) := by
  unfold Verif.exportOscore
  sync! h
macro_rules | `(tactic| sync_fn $h) => `(tactic| with_reducible exact Link.f_exportOscore $h _ _ _ _ _)

theorem f_contextInit : Sync K (Verif.contextInit : M σ Unit) (Verif.contextInit : M τ Unit) := by
  unfold Verif.contextInit
  sync! h
macro_rules | `(tactic| sync_fn $h) => `(tactic| with_reducible exact Link.f_contextInit $h)

theorem f_contextDeinit : Sync K (Verif.contextDeinit : M σ Unit) (Verif.contextDeinit : M τ Unit) := by
  unfold Verif.contextDeinit
  sync! h
macro_rules | `(tactic| sync_fn $h) => `(tactic| with_reducible exact Link.f_contextDeinit $h)

theorem f_setMethods (x0 : List Nat) : Sync K (Verif.setMethods x0 : M σ Unit) (Verif.setMethods x0 : M τ Unit) := by
  unfold Verif.setMethods
  sync! h
macro_rules | `(tactic| sync_fn $h) => `(tactic| with_reducible exact Link.f_setMethods $h _)

theorem f_setSuites (x0 : Config) (x1 : List Suite) : Sync K (Verif.setSuites x0 x1 : M σ Unit) (Verif.setSuites x0 x1 : M τ Unit) := by
  unfold Verif.setSuites
  sync! h
macro_rules | `(tactic| sync_fn $h) => `(tactic| with_reducible exact Link.f_setSuites $h _ _)

theorem f_setCid (x0 : Config) (x1 : Cid) : Sync K (Verif.setCid x0 x1 : M σ Unit) (Verif.setCid x0 x1 : M τ Unit) := by
  unfold Verif.setCid
  sync! h
macro_rules | `(tactic| sync_fn $h) => `(tactic| with_reducible exact Link.f_setCid $h _ _)

theorem f_setUserCtx : Sync K (Verif.setUserCtx : M σ Unit) (Verif.setUserCtx : M τ Unit) := by
  unfold Verif.setUserCtx
  sync! h
macro_rules | `(tactic| sync_fn $h) => `(tactic| with_reducible exact Link.f_setUserCtx $h)

theorem f_bindEad (x0 : Bool) (x1 : Bool) : Sync K (Verif.bindEad x0 x1 : M σ Unit) (Verif.bindEad x0 x1 : M τ Unit) := by
  unfold Verif.bindEad
  sync! h
macro_rules | `(tactic| sync_fn $h) => `(tactic| with_reducible exact Link.f_bindEad $h _ _)

theorem f_bindKeys (x0 : Bool) : Sync K (Verif.bindKeys x0 : M σ Unit) (Verif.bindKeys x0 : M τ Unit) := by
  unfold Verif.bindKeys
  sync! h
macro_rules | `(tactic| sync_fn $h) => `(tactic| with_reducible exact Link.f_bindKeys $h _)

theorem f_bindCrypto (x0 : Bool) : Sync K (Verif.bindCrypto x0 : M σ Unit) (Verif.bindCrypto x0 : M τ Unit) := by
  unfold Verif.bindCrypto
  sync! h
macro_rules | `(tactic| sync_fn $h) => `(tactic| with_reducible exact Link.f_bindCrypto $h _)

theorem f_bindCred (x0 : Bool) : Sync K (Verif.bindCred x0 : M σ Unit) (Verif.bindCred x0 : M τ Unit) := by
  unfold Verif.bindCred
  sync! h
macro_rules | `(tactic| sync_fn $h) => `(tactic| with_reducible exact Link.f_bindCred $h _)

theorem f_errorGetCode : Sync K (Verif.errorGetCode : M σ ErrCode) (Verif.errorGetCode : M τ ErrCode) := by
  unfold Verif.errorGetCode
  sync! h
macro_rules | `(tactic| sync_fn $h) => `(tactic| with_reducible exact Link.f_errorGetCode $h)

theorem f_errorGetSuites (x0 : Nat) (x1 : Nat) : Sync K (Verif.errorGetSuites x0 x1 : M σ (List Int × List Int)) (Verif.errorGetSuites x0 x1 : M τ (List Int × List Int)) := by
  unfold Verif.errorGetSuites
  sync! h
macro_rules | `(tactic| sync_fn $h) => `(tactic| with_reducible exact Link.f_errorGetSuites $h _ _)

theorem f_step (cfg : Config) (o : Op) : Sync K (Verif.step E cfg o) (Verif.step E' cfg o) := by
  cases o
  case nullArg => exact Sync.fail h.toTrace _
  all_goals
    unfold Verif.step
    refine Sync.mapOut h.toTrace _ ?_
    sync! h

end Verif.Link
