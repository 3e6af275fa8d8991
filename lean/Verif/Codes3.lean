import Verif.Codes2

/-!
# Return codes: the functions of the library
-/

namespace Verif

open M Spec

variable {σ : Type} (E : Env σ) (cfg : Config)

/-! ## Computations without effects -/

theorem codes_idCredLen (cr : Cred) : Codes [.notSupported] (idCredLen cfg cr) := by
  unfold idCredLen; codes!
theorem codes_thLen (n : Nat) : Codes [.invalidArgument] (thLen n) := by
  unfold thLen; codes!
theorem codes_credLen (cr : Cred) : Codes [.notSupported] (credLen cr) := by
  unfold credLen; codes!
theorem Codes.mono {α : Type} {S S' : List Err} {r : Res α} (h : Codes S r) (hs : subErr S S' = true) : Codes S' r :=
  fun e he => subErr_mem hs (h e he)
theorem codes_macContextLen (c : Ctx) (cr : Cred) :
    Codes [.badState, .notSupported, .invalidArgument] (macContextLen cfg c cr) := by
  unfold macContextLen
  refine Codes.bind (Codes.require (by decide)) fun _ _ => ?_
  refine Codes.bind ((codes_idCredLen cfg cr).mono (by decide)) fun _ _ => ?_
  refine Codes.bind ((codes_thLen _).mono (by decide)) fun _ _ => ?_
  exact Codes.bind ((codes_credLen cr).mono (by decide)) fun _ _ => Codes.pure
theorem codes_macLength (c : Ctx) : Codes [.notPermitted] (macLength c) := by unfold macLength; codes!
theorem codes_signOrMacLength (c : Ctx) : Codes [.notPermitted] (signOrMacLength c) := by unfold signOrMacLength; codes!
theorem codes_ptxt3Len (c : Ctx) (m : MacCtx) (n : Nat) : Codes [.invalidArgument] (ptxt3Len c m n) := by
  unfold ptxt3Len ptxt2Len; codes!
theorem codes_oscoreId (n : Nat) (c : Cid) : Codes [.cbor, .bufferTooSmall] (oscoreId n c) := by
  cases c <;> exact Codes.ofOption (by decide)

/-- a credential whose label is known -/
def Cred.known : Cred → Bool
  | .other _ => false
  | _ => true

theorem known_of_len {c : Ctx} {cr : Cred} {n : Nat} (h : macContextLen cfg c cr = .ok n) : cr.known = true := by
  cases cr with
  | other l =>
    exfalso
    revert h
    unfold macContextLen
    cases hq : Res.require (c.message != .msg4) .badState <;> simp [Bind.bind, Res.bind, idCredLen]
  | _ => rfl

abbrev macCodes : List Err := [.badState, .cbor, .bufferTooSmall, .invalidArgument]

theorem codes_macIdCred {cr : Cred} (h : cr.known = true) (n : Nat) : Codes macCodes (macIdCred n cr) := by
  unfold macIdCred
  refine Codes.bind ?_ fun _ _ => ?_
  · unfold credMap
    cases cr with
    | other l => simp [Cred.known] at h
    | _ => dsimp only; codes!
  · codes!
theorem codes_macComp (cr : Cred) : Codes macCodes (macComp cfg cr) := by
  unfold macComp; codes!
theorem codes_macCred {cr : Cred} (h : cr.known = true) (n : Nat) : Codes macCodes (macCred n cr) := by
  unfold macCred
  cases cr with
  | other l => simp [Cred.known] at h
  | _ => dsimp only; codes!
theorem codes_idCredLen' {cr : Cred} (h : cr.known = true) : Codes macCodes (idCredLen cfg cr) := by
  unfold idCredLen
  cases cr with
  | other l => simp [Cred.known] at h
  | _ => dsimp only; codes!
theorem codes_credLen' {cr : Cred} (h : cr.known = true) : Codes macCodes (credLen cr) := by
  unfold credLen
  cases cr with
  | other l => simp [Cred.known] at h
  | _ => dsimp only; codes!

theorem Codes.bind' {α β : Type} {S : List Err} {r : Res α} {f : α → Res β} (h : Codes S r) (hf : ∀ a, Codes S (f a)) :
    Codes S (Res.bind r f) := Codes.bind (f := f) h fun a _ => hf a

theorem codes_macContext (c : Ctx) {cr : Cred} (h : cr.known = true) (n : Nat) : Codes macCodes (macContext cfg c cr n) := by
  unfold macContext
  refine Codes.bind (Codes.require (by decide)) fun _ _ => ?_
  refine Codes.bind (Codes.require (by decide)) fun _ _ => ?_
  refine Codes.bind (Codes.require (by decide)) fun _ _ => ?_
  refine Codes.bind ?_ fun _ _ => ?_
  · split
    · refine Codes.bind' Codes.guardUB fun _ => ?_
      codes!
    · exact Codes.ok
  refine Codes.bind (codes_idCredLen' cfg h) fun _ _ => ?_
  refine Codes.bind Codes.guardUB fun _ _ => ?_
  refine Codes.bind (codes_macIdCred h _) fun _ _ => ?_
  refine Codes.bind (codes_macComp cfg cr) fun _ _ => ?_
  refine Codes.bind ((codes_thLen _).mono (by decide)) fun _ _ => ?_
  refine Codes.bind Codes.guardUB fun _ _ => ?_
  refine Codes.bind (Codes.ofOption (by decide)) fun _ _ => ?_
  refine Codes.bind (codes_credLen' h) fun _ _ => ?_
  refine Codes.bind Codes.guardUB fun _ _ => ?_
  refine Codes.bind (codes_macCred h _) fun _ _ => ?_
  refine Codes.bind ?_ fun _ _ => ?_
  · split
    · exact Codes.ok
    · exact Codes.bind' Codes.guardUB fun _ => Codes.bind' Codes.guardUB fun _ => Codes.ofOption (by decide)
  exact Codes.bind (Codes.require (by decide)) fun _ _ => Codes.pure

/-! ## Functions -/

macro_rules | `(tactic| does_codes) => `(tactic| with_reducible exact Codes.mapErr (by decide +kernel))
macro_rules | `(tactic| does_codes) => `(tactic| with_reducible exact (codes_macLength _).mono (by decide +kernel))
macro_rules | `(tactic| does_codes) => `(tactic| with_reducible exact (codes_signOrMacLength _).mono (by decide +kernel))
macro_rules | `(tactic| does_codes) => `(tactic| with_reducible exact (codes_ptxt3Len _ _ _).mono (by decide +kernel))
macro_rules | `(tactic| does_codes) => `(tactic| with_reducible exact (codes_oscoreId _ _).mono (by decide +kernel))

theorem does_eadCompose  : Does [(.eadCompose, [.eadCompose])] [.eadCompose] fine (Verif.eadCompose E cfg : M σ _) := by
  unfold Verif.eadCompose
  does!
macro_rules | `(tactic| does_fn) => `(tactic| with_reducible exact does_eadCompose _ _)

theorem does_eadProcess  : Does [(.eadProcess, [.eadProcess])] [.eadProcess] fine (Verif.eadProcess E cfg : M σ _) := by
  unfold Verif.eadProcess
  does!
macro_rules | `(tactic| does_fn) => `(tactic| with_reducible exact does_eadProcess _ _)

theorem does_clearEad  : Does [] [] fine (Verif.clearEad : M σ _) := by
  unfold Verif.clearEad
  does!
macro_rules | `(tactic| does_fn) => `(tactic| with_reducible exact does_clearEad)

theorem does_enter (ok : Ctx → Bool) (m : Msg) (r : Role) : Does [] [.badState] fine (Verif.enter ok m r : M σ _) := by
  unfold Verif.enter
  does!
macro_rules | `(tactic| does_fn) => `(tactic| with_reducible exact does_enter _ _ _)

theorem does_chooseSuite  : Does [] [.badState] fine (Verif.chooseSuite : M σ _) := by
  unfold Verif.chooseSuite
  does!
macro_rules | `(tactic| does_fn) => `(tactic| with_reducible exact does_chooseSuite)

theorem does_hashTh (b : Bytes) : Does [(.hash, [.crypto])] [.crypto] fine (Verif.hashTh E cfg b : M σ _) := by
  unfold Verif.hashTh
  does!
macro_rules | `(tactic| does_fn) => `(tactic| with_reducible exact does_hashTh _ _ _)

theorem does_checkSuites (su : Suites) : Does [] [.msg1Process, .bufferTooSmall] fine (Verif.checkSuites cfg su : M σ _) := by
  unfold Verif.checkSuites
  cases su <;> does!
macro_rules | `(tactic| does_fn) => `(tactic| with_reducible exact does_checkSuites _ _)

theorem does_storePeerCid (e : Err) (ci : Cid) : Does [] [e] fine (Verif.storePeerCid cfg e ci : M σ _) := by
  unfold Verif.storePeerCid
  cases ci
  · exact Does.bind (Does.require (List.mem_singleton.2 rfl)) fun _ => Does.modCtx
  · exact Does.bind (Does.require (List.mem_singleton.2 rfl)) fun _ => Does.bind Does.guardUB fun _ => Does.modCtx
macro_rules | `(tactic| does_fn) => `(tactic| with_reducible exact does_storePeerCid _ _ _)

theorem does_processEad1 (ts : List EadTok) (n : Nat) : Does [(.eadProcess, [.eadProcess])] [.eadProcess, .bufferTooSmall] fine (Verif.processEad1 E cfg ts n : M σ _) := by
  unfold Verif.processEad1
  refine Does.getCtx.bind fun _ => Does.whenM ?_
  refine Does.bind (Does.require (by decide)) fun _ => Does.bind Does.guardUB fun _ => Does.modCtx.bind fun _ => Does.bind Does.guardUB fun _ => ?_
  exact Does.bindBool (by does_leaf) ((does_clearEad).mono (by decide +kernel) rfl) (NeverFails.modCtx _) (by decide +kernel) (by decide +kernel)
macro_rules | `(tactic| does_fn) => `(tactic| with_reducible exact does_processEad1 _ _ _ _)

theorem does_compMac (b : Bytes) (n : Nat) : Does [(.alloc, [.notEnoughMemory]), (.importKey, [.crypto]), (.destroyKey, [.crypto]), (.expand, [.crypto])] [.notEnoughMemory, .invalidArgument, .badState, .cbor, .notPermitted, .crypto] fine (Verif.compMac E cfg b n : M σ _) := by
  unfold Verif.compMac
  does!
macro_rules | `(tactic| does_fn) => `(tactic| with_reducible exact does_compMac _ _ _ _)

theorem does_signCose (k : Bytes) (m : MacCtx) (mac : Bytes) (n : Nat) : Does [(.alloc, [.notEnoughMemory]), (.sign, [.crypto])] [.notEnoughMemory, .cbor, .crypto] fine (Verif.signCose E cfg k m mac n : M σ _) := by
  unfold Verif.signCose
  does!
macro_rules | `(tactic| does_fn) => `(tactic| with_reducible exact does_signCose _ _ _ _ _ _)

theorem does_verifyCose (m : MacCtx) (p mac sig : Bytes) : Does (anyOf [.alloc, .importKey, .destroyKey, .verify]) Err.all fine (Verif.verifyCose E cfg m p mac sig : M σ _) := by
  unfold Verif.verifyCose
  does!
macro_rules | `(tactic| does_fn) => `(tactic| with_reducible exact does_verifyCose _ _ _ _ _ _)

theorem does_compSignOrMac (k : Bytes) (m : MacCtx) (mac : Bytes) (n : Nat) : Does [(.alloc, [.notEnoughMemory]), (.sign, [.crypto])] [.notEnoughMemory, .cbor, .crypto, .invalidArgument, .notPermitted, .badState] fine (Verif.compSignOrMac E cfg k m mac n : M σ _) := by
  unfold Verif.compSignOrMac
  refine Does.getCtx.bind fun _ => Does.bind (Does.require (by decide)) fun _ => ?_
  split
  · does!
  · does!
  · split
    · exact Does.fail (by decide)
    · exact Does.fail (by decide)
macro_rules | `(tactic| does_fn) => `(tactic| with_reducible exact does_compSignOrMac _ _ _ _ _ _)

theorem does_verifySignOrMac (m : MacCtx) (p : Option Bytes) (a b : Bytes) : Does (anyOf [.alloc, .importKey, .destroyKey, .verify]) Err.all fine (Verif.verifySignOrMac E cfg m p a b : M σ _) := by
  unfold Verif.verifySignOrMac
  refine Does.getCtx.bind fun _ => Does.bind (Does.ofOption (Err.mem_all _)) fun _ => Does.bind (Does.require (Err.mem_all _)) fun _ => ?_
  split
  · does!
  · exact Does.require (Err.mem_all _)
  · exact Does.fail (Err.mem_all _)
macro_rules | `(tactic| does_fn) => `(tactic| with_reducible exact does_verifySignOrMac _ _ _ _ _ _)

theorem does_genDhKeys  : Does (anyOf [.importKey, .destroyKey, .makeKeyPair]) Err.all fine (Verif.genDhKeys E cfg : M σ _) := by
  unfold Verif.genDhKeys
  does!
macro_rules | `(tactic| does_fn) => `(tactic| with_reducible exact does_genDhKeys _ _)

theorem does_compDhSecret  : Does (anyOf [.importKey, .destroyKey, .keyAgreement]) Err.all fine (Verif.compDhSecret E cfg : M σ _) := by
  unfold Verif.compDhSecret
  does!
macro_rules | `(tactic| does_fn) => `(tactic| with_reducible exact does_compDhSecret _ _)

theorem does_compTh2  : Does (anyOf [.alloc, .hash]) Err.all fine (Verif.compTh2 E cfg : M σ _) := by
  unfold Verif.compTh2
  does!
macro_rules | `(tactic| does_fn) => `(tactic| with_reducible exact does_compTh2 _ _)

theorem does_extractPrk (a b : Bytes) : Does (anyOf [.importKey, .destroyKey, .extract]) [.crypto] fine (Verif.extractPrk E cfg a b : M σ _) := by
  unfold Verif.extractPrk
  does!
macro_rules | `(tactic| does_fn) => `(tactic| with_reducible exact does_extractPrk _ _ _ _)

theorem does_compPrk2e  : Does (anyOf [.importKey, .destroyKey, .extract]) Err.all fine (Verif.compPrk2e E cfg : M σ _) := by
  unfold Verif.compPrk2e
  does!
macro_rules | `(tactic| does_fn) => `(tactic| with_reducible exact does_compPrk2e _ _)

theorem does_kdfExact (p : Bytes) (l : Nat) (x : Bytes) (n : Nat) : Does (anyOf [.alloc, .importKey, .destroyKey, .expand]) Err.all fine (Verif.kdfExact E cfg p l x n : M σ _) := by
  unfold Verif.kdfExact
  does!
macro_rules | `(tactic| does_fn) => `(tactic| with_reducible exact does_kdfExact _ _ _ _ _ _)

theorem does_compSalt3e2m  : Does (anyOf [.alloc, .importKey, .destroyKey, .expand]) Err.all fine (Verif.compSalt3e2m E cfg : M σ _) := by
  unfold Verif.compSalt3e2m
  does!
macro_rules | `(tactic| does_fn) => `(tactic| with_reducible exact does_compSalt3e2m _ _)

theorem does_agreeEphemeral (p : Bytes) : Does (anyOf [.importKey, .destroyKey, .keyAgreement]) Err.all fine (Verif.agreeEphemeral E p : M σ _) := by
  unfold Verif.agreeEphemeral
  refine Does.getCtx.bind fun _ => ?_
  refine Does.bindOptVia (by does_leaf) (by decide +kernel) (by decide +kernel) (fun _ => NeverFails.modCtx _) (fun _ => Does.modCtx) fun kid => ?_
  refine Does.bindOptVia (by does_leaf) (by decide +kernel) (by decide +kernel) (fun _ => NeverFails.destroyKey E kid)
    (fun _ => (Does.destroyKey E kid).mono (by decide +kernel) (by decide +kernel)) fun _ => ?_
  does!
macro_rules | `(tactic| does_fn) => `(tactic| with_reducible exact does_agreeEphemeral _ _)

theorem does_agreeStatic (p : Bytes) : Does (anyOf [.importKey, .destroyKey, .keyAgreement]) Err.all fine (Verif.agreeStatic E p : M σ _) := by
  unfold Verif.agreeStatic
  does!
macro_rules | `(tactic| does_fn) => `(tactic| with_reducible exact does_agreeStatic _ _)

theorem does_compGrx (a b : Bytes) : Does (anyOf [.importKey, .destroyKey, .keyAgreement]) Err.all fine (Verif.compGrx E a b : M σ _) := by
  unfold Verif.compGrx
  refine Does.getCtx.bind fun _ => Does.bind (Does.require (Err.mem_all _)) fun _ => ?_
  split <;> does!
macro_rules | `(tactic| does_fn) => `(tactic| with_reducible exact does_compGrx _ _ _)

theorem does_compPrk3e2m (a b : Bytes) : Does (anyOf [.alloc, .importKey, .destroyKey, .expand, .keyAgreement, .extract]) Err.all fine (Verif.compPrk3e2m E cfg a b : M σ _) := by
  unfold Verif.compPrk3e2m
  does!
macro_rules | `(tactic| does_fn) => `(tactic| with_reducible exact does_compPrk3e2m _ _ _ _)

theorem does_compKeystream (p : Bytes) (n : Nat) : Does (anyOf [.alloc, .importKey, .destroyKey, .expand]) Err.all fine (Verif.compKeystream E cfg p n : M σ _) := by
  unfold Verif.compKeystream
  does!
macro_rules | `(tactic| does_fn) => `(tactic| with_reducible exact does_compKeystream _ _ _ _)

theorem does_compTh3 (a b : Bytes) : Does (anyOf [.alloc, .hash]) Err.all fine (Verif.compTh3 E cfg a b : M σ _) := by
  unfold Verif.compTh3
  does!
macro_rules | `(tactic| does_fn) => `(tactic| with_reducible exact does_compTh3 _ _ _ _)

theorem does_prepareMsg2 (b : Bytes) (n : Nat) : Does (anyOf [.alloc]) Err.all fine (Verif.prepareMsg2 E cfg b n : M σ _) := by
  unfold Verif.prepareMsg2
  does!
macro_rules | `(tactic| does_fn) => `(tactic| with_reducible exact does_prepareMsg2 _ _ _ _)

theorem does_buildMacCtx (e : Option Err) (cr : Cred) :
    Does [(.alloc, [.notEnoughMemory])] (.notEnoughMemory :: (match e with
      | some e => [e]
      | none => [.badState, .notSupported, .invalidArgument]) ++ macCodes) fine (Verif.buildMacCtx E cfg e cr) := by
  unfold Verif.buildMacCtx
  refine Does.getCtx.bind fun c => Does.bindRes ?_ fun n hn => ?_
  · cases e with
    | some e => exact Codes.mapErr (by simp)
    | none => exact (codes_macContextLen cfg c cr).mono (by decide)
  · have hk : cr.known = true := by
      cases e with
      | none => exact known_of_len cfg hn
      | some e =>
        refine known_of_len cfg (c := c) (n := n) ?_
        revert hn
        cases macContextLen cfg c cr <;> simp [Res.mapErr]
    refine Does.bind ((Does.memAlloc E cfg _).mono (by decide +kernel) (by cases e <;> simp [subErr])) fun _ => ?_
    exact Does.ofRes ((codes_macContext cfg c hk n).mono (by cases e <;> simp [subErr]))
macro_rules | `(tactic| does_fn) => `(tactic| with_reducible exact does_buildMacCtx _ _ _ _)

theorem does_handOver (n : Nat) : Does [] [] fine (Verif.handOver cfg n : M σ _) := by
  unfold Verif.handOver
  does!
macro_rules | `(tactic| does_fn) => `(tactic| with_reducible exact does_handOver _ _)

theorem does_storeEad (ts : List EadTok) (n : Nat) : Does [] [] fine (Verif.storeEad cfg ts n : M σ _) := by
  unfold Verif.storeEad
  does!
macro_rules | `(tactic| does_fn) => `(tactic| with_reducible exact does_storeEad _ _ _)

theorem does_parsePtxt2 (b : Bytes) : Does [] Err.all fine (Verif.parsePtxt2 cfg b : M σ _) := by
  unfold Verif.parsePtxt2
  refine Does.bind (Does.require (Err.mem_all _)) fun _ => Does.bind (Does.ofOption (Err.mem_all _)) fun _ => ?_
  refine Does.bind ((does_storePeerCid cfg _ _).mono (by decide +kernel) (by decide +kernel)) fun _ => ?_
  exact Does.bind (Does.ofRes fun e _ => Err.mem_all e) fun _ => Does.bind ((does_storeEad cfg _ _).mono (by decide +kernel) (by decide +kernel)) fun _ => Does.pure _
macro_rules | `(tactic| does_fn) => `(tactic| with_reducible exact does_parsePtxt2 _ _)

theorem does_verifyCred (c : Cred) : Does [(.credVerify, [.credentials])] [.credentials] fine (Verif.verifyCred E c : M σ _) := by
  unfold Verif.verifyCred
  have h := Does.bindOptVia (T := [(.credVerify, [.credentials])]) (S := [.credentials]) (e := .credentials) (Does.credVerify E c)
    (g := fun r => M.whenM r.isNone (M.modCtx fun c => { c with errorCode := .unknownCred })) (by decide +kernel)
    (by decide +kernel) (fun _ => NeverFails.whenM (NeverFails.modCtx _)) (fun _ => Does.whenM Does.modCtx) (fun a => Does.pure a)
  refine cast (congrArg (Does _ _ _) ?_) h
  funext s
  simp only [Bind.bind, M.bind, M.ofOption, Pure.pure, M.ret]
  rcases Verif.credVerify E c s with ⟨r, s1⟩
  cases r with
  | ok o => cases o <;> rfl
  | err e => rfl
  | ub u => rfl
macro_rules | `(tactic| does_fn) => `(tactic| with_reducible exact does_verifyCred _ _)

theorem does_parseMsg2 (b : Bytes) : Does [(.alloc, [.notEnoughMemory])] [.notEnoughMemory, .bufferTooSmall] fine (Verif.parseMsg2 E cfg b : M σ _) := by
  unfold Verif.parseMsg2
  does!
macro_rules | `(tactic| does_fn) => `(tactic| with_reducible exact does_parseMsg2 _ _ _)

theorem does_compSalt4e3m  : Does (anyOf [.alloc, .importKey, .destroyKey, .expand]) Err.all fine (Verif.compSalt4e3m E cfg : M σ _) := by
  unfold Verif.compSalt4e3m
  does!
macro_rules | `(tactic| does_fn) => `(tactic| with_reducible exact does_compSalt4e3m _ _)

theorem does_compGiy (a b : Bytes) : Does (anyOf [.importKey, .destroyKey, .keyAgreement]) Err.all fine (Verif.compGiy E a b : M σ _) := by
  unfold Verif.compGiy
  refine Does.getCtx.bind fun _ => Does.bind (Does.require (Err.mem_all _)) fun _ => ?_
  split <;> does!
macro_rules | `(tactic| does_fn) => `(tactic| with_reducible exact does_compGiy _ _ _)

theorem does_compPrk4e3m (a b : Bytes) : Does (anyOf [.alloc, .importKey, .destroyKey, .expand, .keyAgreement, .extract]) Err.all fine (Verif.compPrk4e3m E cfg a b : M σ _) := by
  unfold Verif.compPrk4e3m
  does!
macro_rules | `(tactic| does_fn) => `(tactic| with_reducible exact does_compPrk4e3m _ _ _ _)

theorem does_expandInfo (n : Nat) (p : Bytes) (l : Nat) (x : Bytes) (a b : Nat) : Does [(.importKey, [.crypto]), (.destroyKey, [.crypto]), (.expand, [.crypto])] [.cbor, .crypto] fine (Verif.expandInfo E n p l x a b : M σ _) := by
  unfold Verif.expandInfo
  does!
macro_rules | `(tactic| does_fn) => `(tactic| with_reducible exact does_expandInfo _ _ _ _ _ _ _)

theorem does_keyIvAad (a b : Nat) : Does (anyOf [.alloc, .importKey, .destroyKey, .expand]) Err.all fine (Verif.keyIvAad E cfg a b : M σ _) := by
  unfold Verif.keyIvAad
  does!
macro_rules | `(tactic| does_fn) => `(tactic| with_reducible exact does_keyIvAad _ _ _ _)

theorem does_keyIvAad3  : Does [(.alloc, [.notEnoughMemory, .crypto]), (.importKey, [.crypto]), (.destroyKey, [.crypto]), (.expand, [.crypto])] [.notEnoughMemory, .crypto] fine (Verif.keyIvAad3 E cfg : M σ _) := by
  unfold Verif.keyIvAad3
  refine Does.getCtx.bind fun _ => ?_
  refine Does.bind (by does!) fun _ => Does.bind (by does!) fun _ => Does.bind (by does!) fun _ => ?_
  refine Does.mapErr (T0 := anyOf [.alloc, .importKey, .destroyKey, .expand]) (S0 := Err.all) ?_ (by decide +kernel) (by decide +kernel)
  does!
macro_rules | `(tactic| does_fn) => `(tactic| with_reducible exact does_keyIvAad3 _ _)

theorem does_keyIvAad4  : Does [(.alloc, [.notEnoughMemory, .crypto]), (.importKey, [.crypto]), (.destroyKey, [.crypto]), (.expand, [.crypto])] [.notEnoughMemory, .crypto] fine (Verif.keyIvAad4 E cfg : M σ _) := by
  unfold Verif.keyIvAad4
  refine Does.getCtx.bind fun _ => ?_
  refine Does.bind (by does!) fun _ => Does.bind (by does!) fun _ => Does.bind (by does!) fun _ => ?_
  refine Does.mapErr (T0 := anyOf [.alloc, .importKey, .destroyKey, .expand]) (S0 := Err.all) ?_ (by decide +kernel) (by decide +kernel)
  does!
macro_rules | `(tactic| does_fn) => `(tactic| with_reducible exact does_keyIvAad4 _ _)

theorem does_compTh4 (a b : Bytes) : Does (anyOf [.alloc, .hash]) Err.all fine (Verif.compTh4 E cfg a b : M σ _) := by
  unfold Verif.compTh4
  does!
macro_rules | `(tactic| does_fn) => `(tactic| with_reducible exact does_compTh4 _ _ _ _)

theorem does_aeadEncrypt (a b c d : Bytes) (n : Nat) : Does (anyOf [.importKey, .destroyKey, .encrypt]) Err.all fine (Verif.aeadEncrypt E a b c d n : M σ _) := by
  unfold Verif.aeadEncrypt
  does!
macro_rules | `(tactic| does_fn) => `(tactic| with_reducible exact does_aeadEncrypt _ _ _ _ _ _)

theorem does_aeadDecrypt (a b c d : Bytes) (n : Nat) : Does (anyOf [.importKey, .destroyKey, .decrypt]) Err.all fine (Verif.aeadDecrypt E a b c d n : M σ _) := by
  unfold Verif.aeadDecrypt
  does!
macro_rules | `(tactic| does_fn) => `(tactic| with_reducible exact does_aeadDecrypt _ _ _ _ _ _)

theorem does_genMsg3 (b : Bytes) (n : Nat) : Does [] Err.all fine (Verif.genMsg3 b n : M σ _) := by
  unfold Verif.genMsg3
  does!
macro_rules | `(tactic| does_fn) => `(tactic| with_reducible exact does_genMsg3 _ _)

theorem does_parsePtxt3 (b : Bytes) : Does [] Err.all fine (Verif.parsePtxt3 cfg b : M σ _) := by
  unfold Verif.parsePtxt3
  refine Does.bind (Does.require (Err.mem_all _)) fun _ => Does.bind (Does.ofOption (Err.mem_all _)) fun _ => ?_
  exact Does.bind (Does.ofRes fun e _ => Err.mem_all e) fun _ => Does.bind ((does_storeEad cfg _ _).mono (by decide +kernel) (by decide +kernel)) fun _ => Does.pure _
macro_rules | `(tactic| does_fn) => `(tactic| with_reducible exact does_parsePtxt3 _ _)

theorem does_genMsg4 (b : Bytes) (n : Nat) : Does [] Err.all fine (Verif.genMsg4 b n : M σ _) := by
  unfold Verif.genMsg4
  does!
macro_rules | `(tactic| does_fn) => `(tactic| with_reducible exact does_genMsg4 _ _)

theorem does_parsePtxt4 (b : Bytes) : Does [] Err.all fine (Verif.parsePtxt4 cfg b : M σ _) := by
  unfold Verif.parsePtxt4
  does!
macro_rules | `(tactic| does_fn) => `(tactic| with_reducible exact does_parsePtxt4 _ _)

theorem does_compPrkOut  : Does (anyOf [.alloc, .importKey, .destroyKey, .expand]) Err.all fine (Verif.compPrkOut E cfg : M σ _) := by
  unfold Verif.compPrkOut
  does!
macro_rules | `(tactic| does_fn) => `(tactic| with_reducible exact does_compPrkOut _ _)

theorem does_compNewPrkOut (b : Bytes) : Does (anyOf [.alloc, .importKey, .destroyKey, .expand]) Err.all fine (Verif.compNewPrkOut E cfg b : M σ _) := by
  unfold Verif.compNewPrkOut
  does!
macro_rules | `(tactic| does_fn) => `(tactic| with_reducible exact does_compNewPrkOut _ _ _)

theorem does_compPrkExporter  : Does (anyOf [.alloc, .importKey, .destroyKey, .expand]) Err.all fine (Verif.compPrkExporter E cfg : M σ _) := by
  unfold Verif.compPrkExporter
  does!
macro_rules | `(tactic| does_fn) => `(tactic| with_reducible exact does_compPrkExporter _ _)

theorem does_ensurePrkOut  : Does (Table.only .prk (anyOf [.alloc, .importKey, .destroyKey, .expand])) [.prk] fine (Verif.ensurePrkOut E cfg : M σ _) := by
  unfold Verif.ensurePrkOut
  does!
macro_rules | `(tactic| does_fn) => `(tactic| with_reducible exact does_ensurePrkOut _ _)

end Verif
