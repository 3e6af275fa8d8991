import Verif.Suite.ToyShake
import Verif.SpecCodes
import Verif.Props.Agree

/-!
# C46 – C49: the shipped cipher suites
-/

namespace Verif

open Spec Psa P

variable {τ : Type} {A : Algs} {q : Params} {X : Psa.App τ}

/-! ## C46: tables -/

/-- **C46**. The shipped suites are the registered ones: number, algorithms, and all lengths in the table. -/
theorem C46_registered : shipped.length = registry.length ∧ ∀ p ∈ shipped.zip registry, Matches p.1 p.2 := by
  refine ⟨rfl, fun p hp => ?_⟩
  simp only [shipped, registry, List.zip_cons_cons, List.zip_nil_left, List.mem_cons, List.not_mem_nil, or_false] at hp
  rcases hp with rfl | rfl | rfl | rfl <;> constructor <;> decide

/-- **C46**. What the callbacks of a suite give has the lengths of its table, and with these lengths a handshake is possible. -/
theorem C46_lengths (hl : AlgLaws A q) (hq : q ∈ shipped) : (primsOf A q).Sized q.table ∧ SuiteOk q.table :=
  ⟨prims_sized hl hq, suite_ok hq⟩

example : AlgLaws Psa.Toy.algs suite24 := Psa.Toy.algs_laws (by decide)

/-! ## C47: callbacks -/

/-- the key behind the identifier an import returned -/
theorem import_find {t : KeyType} {raw kid : Bytes} {w w1 : World τ} (ht : t ≠ .makeKeyPair)
    (h : (suiteEnv A q X).importKey w t raw = (some kid, w1)) :
    w1.1.find (kidNat kid) = some ⟨attrOf q t raw.length, raw⟩ ∧ keyOk A (attrOf q t raw.length) raw = true := by
  rcases import_some (X := X) h with ⟨i, k, -, hi, h3, h4, h5, h6⟩ | ⟨-, -, h3, -⟩
  · obtain ⟨at', d⟩ := k
    obtain rfl : at' = _ := h5
    obtain rfl : d = raw := h6 ht
    exact ⟨by rw [hi, h3.find, if_pos rfl], h4⟩
  · exact absurd h3 ht

/-- **C47**. Hashing. -/
theorem C47_hash {b h : Bytes} {w w1 : World τ} (h1 : (suiteEnv A q X).hash w b = (some h, w1)) : h = A.hash q.hash b :=
  (hash_ok (runP_some (m := hashInput A q b q.hashLen) (w' := w1) h1).1).1

/-- **C47**. HKDF-Extract. In between the application may do what it likes as long as the key stays. -/
theorem C47_extract (hl : AlgLaws A q) (hq : q ∈ shipped) {raw kid salt o : Bytes} {w w1 w2 w3 : World τ}
    (h1 : (suiteEnv A q X).importKey w .extract raw = (some kid, w1)) (hk : Kept w1.1 w2.1)
    (h2 : (suiteEnv A q X).extract w2 kid salt = (some o, w3)) : o = A.hkdfExtract q.hash salt raw := by
  obtain ⟨k, h, hf, ha, -, -, rfl⟩ := extract_ok (runP_some (m := extractKey A (kidNat kid) salt q.hashLen) (w' := w3) h2).1
  rw [hk _ _ (import_find (by simp) h1).1] at hf
  cases hf
  have : q.hash = h := by simpa [attrOf] using ha
  subst this
  rw [(shaped (A := A) hq).hash, List.take_of_length_le (Nat.le_of_eq (hl.extract _ _))]

/-- **C47**. HKDF-Expand. -/
theorem C47_expand {raw kid info o : Bytes} {n : Nat} {w w1 w2 w3 : World τ}
    (h1 : (suiteEnv A q X).importKey w .expand raw = (some kid, w1)) (hk : Kept w1.1 w2.1)
    (h2 : (suiteEnv A q X).expand w2 kid info n = (some o, w3)) : o = A.hkdfExpand q.hash raw info n := by
  obtain ⟨k, h, hf, ha, -, -, rfl⟩ := expand_ok (runP_some (m := expandKey A (kidNat kid) info n) (w' := w3) h2).1
  rw [hk _ _ (import_find (by simp) h1).1] at hf
  cases hf
  have : q.hash = h := by simpa [attrOf] using ha
  rw [this]

/-- **C47**. AEAD encryption. -/
theorem C47_encrypt {raw kid iv ad p c : Bytes} {w w1 w2 w3 : World τ}
    (h1 : (suiteEnv A q X).importKey w .encrypt raw = (some kid, w1)) (hk : Kept w1.1 w2.1)
    (h2 : (suiteEnv A q X).encrypt w2 kid iv ad p = (some c, w3)) : c = A.enc q.aead q.aeadTag raw iv ad p := by
  obtain ⟨k, b, t, hf, ha, -, -, rfl⟩ := encrypt_ok (runP_some (m := encryptText A (kidNat kid) iv ad p _) (w' := w3) h2).1
  rw [hk _ _ (import_find (by simp) h1).1] at hf
  cases hf
  simp only [attrOf, Alg.aead.injEq] at ha
  rw [ha.1, ha.2]

/-- **C47**. AEAD decryption: a plaintext is given only if the ciphertext is accepted. -/
theorem C47_decrypt {raw kid iv ad p c : Bytes} {w w1 w2 w3 : World τ}
    (h1 : (suiteEnv A q X).importKey w .decrypt raw = (some kid, w1)) (hk : Kept w1.1 w2.1)
    (h2 : (suiteEnv A q X).decrypt w2 kid iv ad c = (some p, w3)) : A.dec q.aead q.aeadTag raw iv ad c = some p := by
  obtain ⟨k, b, t, hf, ha, -, -, -, ho⟩ := decrypt_ok (runP_some (m := decryptText A (kidNat kid) iv ad c _) (w' := w3) h2).1
  rw [hk _ _ (import_find (by simp) h1).1] at hf
  cases hf
  simp only [attrOf, Alg.aead.injEq] at ha
  rw [ha.1, ha.2]; exact ho

/-- **C47**. A new key pair: a private key and its public key. -/
theorem C47_key_pair (hl : AlgLaws A q) (hq : q ∈ shipped) {kid x gx : Bytes} {w w1 : World τ} (hv : Valid A w.1)
    (h1 : (suiteEnv A q X).makeKeyPair w kid = (some (x, gx), w1)) : gx = (primsOf A q).pub x ∧ isPriv A q x :=
  keyPair_prim (X := X) hl hq hv h1

/-- **C47**. Diffie-Hellman: the secret of the private key and a point with the peer's x-coordinate. -/
theorem C47_key_agreement (hl : AlgLaws A q) (hq : q ∈ shipped) {raw kid pk o : Bytes} {w w1 w2 w3 : World τ}
    (h1 : (suiteEnv A q X).importKey w .keyAgreement raw = (some kid, w1)) (hk : Kept w1.1 w2.1)
    (h2 : (suiteEnv A q X).keyAgreement w2 kid pk = (some o, w3)) :
    o = (primsOf A q).dh raw pk ∧ ∀ c, q.curve = some c → ∃ Y, Point c pk Y := by
  obtain ⟨h3, h4⟩ := import_find (by simp) h1
  have hf := hk _ _ h3
  have h2' := (runP_some (m := keyAgree A q (kidNat kid) pk q.ecc) (w' := w3) h2).1
  cases hc : q.curve with
  | none =>
    obtain ⟨k, hk', -, -, -, rfl⟩ := keyAgree_ok_x hc h2'
    rw [hf] at hk'
    cases hk'
    refine ⟨by simp only [primsOf, hc], fun c h => by simp at h⟩
  | some c =>
    obtain ⟨k, hk', -, -, hkind, hp, hpt, rfl⟩ := keyAgree_ok_ec hc h2'
    rw [hf] at hk'
    cases hk'
    have hb : (attrOf q .keyAgreement raw.length).bits = 8 * c.len := by
      simp [attrOf, hc, ((shaped (A := A) hq).ecc c hc).1]
    have hkind : (attrOf q .keyAgreement raw.length).kind = .eccKeyPair := hkind
    simp only [keyOk, hkind, Bool.and_eq_true, beq_iff_eq] at h4
    rw [hb] at h4
    rw [hb] at hpt ⊢
    refine ⟨dh_decompress hl hc h4.2 hp hpt, fun c' h => ?_⟩
    cases h
    obtain ⟨X', Y, e, h5⟩ := ((hl.curve c hc).point _).1 hpt
    have : pk = X' := by
      rw [decompress, List.cons_append, List.cons_append, List.cons.injEq] at e
      exact (List.append_inj e.2 (hp.trans h5.lenX.symm)).1
    subst this
    exact ⟨Y, h5⟩

/-- **C47**. Signing. -/
theorem C47_sign (hq : q ∈ shipped) {raw kid m sig : Bytes} {w w1 w2 w3 : World τ}
    (h1 : (suiteEnv A q X).importKey w .signature raw = (some kid, w1)) (hk : Kept w1.1 w2.1)
    (h2 : (suiteEnv A q X).sign w2 kid m = (some sig, w3)) : SignedWith A q raw m sig := by
  have hf := hk _ _ (import_find (by simp) h1).1
  have h2' := (runP_some (m := signInput A q (kidNat kid) m q.sign) (w' := w3) h2).1
  unfold SignedWith
  cases hc : q.curve with
  | none =>
    obtain ⟨k, hk', -, -, rfl⟩ := sign_ok_x hc h2'
    rw [hf] at hk'
    cases hk'
    rfl
  | some c =>
    obtain ⟨k, h, r, hk', -, ha, -, -, rfl⟩ := sign_ok_ec hc h2'
    rw [hf] at hk'
    cases hk'
    have hb : (attrOf q .signature raw.length).bits = 8 * c.len := by
      simp [attrOf, hc, ((shaped (A := A) hq).ecc c hc).1]
    have : q.hash = h := by simpa [attrOf, hc] using ha
    subst this
    rw [hb]
    exact ⟨r, rfl⟩

/-- **C47**. A signature is accepted only if it is valid. -/
theorem C47_verify (hq : q ∈ shipped) {pk kid m sig : Bytes} {w w1 w2 w3 : World τ}
    (h1 : (suiteEnv A q X).importKey w .verify pk = (some kid, w1)) (hk : Kept w1.1 w2.1)
    (h2 : (suiteEnv A q X).verify w2 kid m sig = (true, w3)) : SignatureOk A q pk m sig = true := by
  have hf := hk _ _ (import_find (by simp) h1).1
  have h2' : verifyInput A q (kidNat kid) m sig w2.1 = (.ok (), w3.1) := by
    have h2 : ((runP (verifyInput A q (kidNat kid) m sig) w2).1.isSome, (runP (verifyInput A q (kidNat kid) m sig) w2).2) =
      (true, w3) := h2
    simp only [Prod.mk.injEq] at h2
    obtain ⟨u, hu⟩ := Option.isSome_iff_exists.1 h2.1
    exact (runP_some (m := verifyInput A q (kidNat kid) m sig) (w' := w3) (Prod.ext hu h2.2)).1
  unfold SignatureOk
  cases hc : q.curve with
  | none =>
    obtain ⟨k, hk', -, -, hv⟩ := verify_ok_x hc h2'
    rw [hf] at hk'
    cases hk'
    exact hv
  | some c =>
    obtain ⟨k, h, hk', -, ha, hv⟩ := verify_ok_ec hc h2'
    rw [hf] at hk'
    cases hk'
    have hb : (attrOf q .verify pk.length).bits = 8 * c.len := by
      simp [attrOf, hc, ((shaped (A := A) hq).ecc c hc).1]
    have : q.hash = h := by simpa [attrOf, hc] using ha
    subst this
    rw [hb] at hv
    exact hv (by simp [attrOf, hc])

/-- **C47**. Destroying a key leaves the store as it was before the import, if the library below does not fail; a failed
import adds nothing. -/
theorem C47_import_destroy {t : KeyType} {raw : Bytes} {r : Option Bytes} {w w1 : World τ}
    (h1 : (suiteEnv A q X).importKey w t raw = (r, w1)) :
    (r = none → w1.1.keys = w.1.keys) ∧
    ∀ kid (w2 : World τ), r = some kid → w2.1.keys = w1.1.keys → w2.1.fault w2.1.clock = false →
      ((suiteEnv A q X).destroyKey w2 kid).1.keys = w.1.keys := by
  constructor
  · rintro rfl
    obtain ⟨h2, -, h3⟩ := import_store (X := X) h1
    rw [Option.map_eq_none_iff] at h2
    rcases import_cases h3 with ⟨i, k, h5, -⟩ | ⟨-, h5, -⟩ | ⟨-, h5⟩
    · simp [runP, h5, Psa.Res.toOption] at h2
    · rw [h5]
    · rw [h5]; rfl
  · rintro kid w2 rfl h2 h3
    have hd : ((suiteEnv A q X).destroyKey w2 kid).1 = (keyDestroy (kidNat kid) w2.1).2 := rfl
    rw [hd, keyDestroy, Psa.destroyKey]
    rcases import_some (X := X) h1 with ⟨i, k, -, hi, h4, -⟩ | ⟨h4, h5, -⟩
    · have hr := freeId_range h4.free
      have h6 : w2.1.keys = (i, k) :: w.1.keys := by rw [h2, h4.store]
      have h7 : w2.1.find i = some k := by rw [Store.find, h6]; simp
      have h9 := freeId_none h4.free
      rw [hi]
      have h10 : (P.psa (fun s => if i = 0 then some ((), s.keys) else
          if (s.find i).isSome then some ((), s.keys.filter fun p => p.1 != i) else none) w2.1) =
          (.ok (), { w2.1.tick with keys := w.1.keys }) := by
        refine psa_ok.2 ⟨h3, w.1.keys, ?_, rfl⟩
        rw [if_neg (by simp only [idMin] at hr; omega), h7, h6]
        simp only [Option.isSome_some, if_true, Option.some.injEq, Prod.mk.injEq, true_and]
        rw [List.filter_cons_of_neg (by simp)]
        rw [List.filter_eq_self]
        intro p hp
        rw [Store.find, List.lookup_eq_none_iff] at h9
        have := h9 p hp
        simp only [bne_iff_ne, ne_eq]
        intro hpi
        simp [hpi] at this
      rw [h10]
    · rw [h4]
      have h10 : (P.psa (fun s => if (0 : Nat) = 0 then some ((), s.keys) else
          if (s.find 0).isSome then some ((), s.keys.filter fun p => p.1 != 0) else none) w2.1) =
          (.ok (), { w2.1.tick with keys := w2.1.keys }) := psa_ok.2 ⟨h3, w2.1.keys, by simp, rfl⟩
      rw [h10, ← h5]
      exact h2

/-- is this a callback of the suite that works with an existing key or none? -/
def Ev.isCrypto : Ev → Bool
  | .makeKeyPair .. | .keyAgreement .. | .sign .. | .verify .. | .extract .. | .expand .. | .encrypt .. | .decrypt ..
  | .hash .. => true
  | _ => false

/-- **C47**. Only import and destruction change the keys. And no failure below is swallowed: if any call to the library below
fails, the callback does. -/
theorem C47_failures {v : Ev} {w w' : World τ} (h : Ran1 (suiteEnv A q X) w v w') (hv : v.isCrypto = true) :
    w'.1.keys = w.1.keys ∧ w'.2 = w.2 ∧
      ((∃ i, w.1.clock ≤ i ∧ i < w'.1.clock ∧ w.1.fault i = true) → v.failed = true) := by
  have go : ∀ {β : Type} {m : P β} {r : Option β}, Reads m → runP m w = (r, w') →
      w'.1.keys = w.1.keys ∧ w'.2 = w.2 ∧ ((∃ i, w.1.clock ≤ i ∧ i < w'.1.clock ∧ w.1.fault i = true) → r.isNone = true) := by
    intro β m r hm hr
    obtain ⟨h1, h2⟩ := runP_store hr
    obtain ⟨n, h3, h4⟩ := hm w.1
    rw [h1, h3]
    refine ⟨rfl, h2, ?_⟩
    rintro ⟨i, hi1, hi2, hi3⟩
    cases r with
    | none => rfl
    | some a =>
      have := h4 ⟨a, by rw [(runP_some hr).1]⟩ (i - w.1.clock) (by simp only at hi2; omega)
      rw [show w.1.clock + (i - w.1.clock) = i by omega, hi3] at this
      cases this
  cases v with
  | makeKeyPair k r => exact go (reads_makePair _ _ _) h
  | keyAgreement k p r => exact go (reads_keyAgree _ _ _) h
  | sign k b r => exact go (reads_sign _ _ _) h
  | verify k b c r =>
    simp only [Ran1, suiteEnv, Prod.mk.injEq] at h
    obtain ⟨h1, h2, h3⟩ := go (r := (runP (verifyInput A q (kidNat k) b c) w).1) (reads_verify _ _ _) (Prod.ext rfl h.2)
    refine ⟨h1, h2, fun hi => ?_⟩
    have h4 := h3 hi
    rw [Option.isNone_iff_eq_none] at h4
    rw [h4] at h
    rw [← h.1]; rfl
  | extract k b r => exact go (reads_extract _ _ _) h
  | expand k b n r =>
    obtain ⟨o, h1, rfl⟩ := h
    obtain ⟨h1, h2, h3⟩ := go (reads_expand _ _ _) h1
    exact ⟨h1, h2, fun hi => by simpa [Ev.failed] using h3 hi⟩
  | encrypt k a b c r => exact go (reads_encrypt _ _ _ _ _) h
  | decrypt k a b c r => exact go (reads_decrypt _ _ _ _ _) h
  | hash b r => exact go (reads_hash _ _) h
  | _ => cases hv

/-- **C47**. Creating a key pair reads no memory it should not, with the sizes the library passes. -/
theorem C47_defined (hq : q ∈ shipped) (id n : Nat) (s : Store) : (makePair A q id n q.ecc s).1.Defined := by
  have key : ∀ {α : Type} {m : P α} {β : Type} {f : α → P β}, (∀ s, (m s).1.Defined) → (∀ a s, (f a s).1.Defined) →
      ∀ s, ((m >>= f) s).1.Defined := by
    intro α m β f hm hf s
    rw [bind_def, P.bind]
    have := hm s
    rcases hs : m s with ⟨r, s1⟩
    rw [hs] at this
    cases r with
    | ok a => exact hf a s1
    | err e => simp [Res.Defined]
    | ub u => simp [Res.Defined] at this
  have hpsa : ∀ {α : Type} (f : Store → Option α) s, (query f s).1.Defined := by
    intro α f s
    rcases hs : query f s with ⟨r, s1⟩
    cases r with
    | ub u => exact absurd hs psa_ub
    | _ => simp [Res.Defined]
  have hreq : ∀ b e s, (P.require b e s).1.Defined := by
    intro b e s; cases b <;> simp [P.require, Res.Defined]
  revert s
  unfold makePair
  refine key (hreq _ _) fun _ => ?_
  cases hc : q.curve with
  | none => exact key (hreq _ _) fun _ => key (hpsa _) fun a s => by simp [pure_def, Res.Defined]
  | some c =>
    refine key (hpsa _) fun a => key (hreq _ _) fun _ => key (hpsa _) fun b => key (fun s => ?_) fun _ s => ?_
    · have h1 := ((shaped (A := A) hq).ecc c hc).1
      have h2 : decide (q.ecc ≤ 2 * c.len) = true := by simp; omega
      simp [P.guardUB, h2, Res.Defined]
    · simp [pure_def, Res.Defined]

/-- With a larger buffer it does: `memcpy(pub_key, &tmp_pub_key[1], pub_key_size)` reads beyond the 65 bytes. -/
theorem C47_overread : ∃ s, (makePair Psa.Toy.algs suite2 idMin 32 100 s).1 = .ub .oob :=
  ⟨Psa.Toy.store suite2 .makeKeyPair (List.replicate 32 1), by decide +kernel⟩

/-- **C47**. The size of the buffer for the private key does not matter, if it is large enough. (The library passes the size
of its array in message 1, the length of the suite in message 2.) -/
theorem C47_private_size (hq : q ∈ shipped) {id n n' : Nat} (hn : q.ecc ≤ n) (hn' : q.ecc ≤ n') {s s' : Store}
    {x gx : Bytes} (h : makePair A q id n q.ecc s = (.ok (x, gx), s')) :
    makePair A q id n' q.ecc s = (.ok (x, gx), s') := by
  have hs := shaped (A := A) hq
  cases hc : q.curve with
  | none =>
    have he := hs.ecx hc
    simp only [makePair, hc, generateRandom, pbind_ok, prequire_ok, query_ok, ppure_ok] at h ⊢
    obtain ⟨u, s1, ⟨hr, rfl⟩, u', s2, ⟨-, rfl⟩, h3⟩ := h
    rw [he] at hn hn'
    refine ⟨u, _, ⟨?_, rfl⟩, u', _, ⟨?_, rfl⟩, h3⟩
    · simp only [Bool.and_eq_true, bne_iff_ne, ne_eq]; omega
    · simp only [Bool.and_eq_true, decide_eq_true_eq]; omega
  | some c =>
    have he := hs.ecc c hc
    simp only [makePair, hc, pbind_ok, prequire_ok] at h ⊢
    obtain ⟨u, s1, ⟨hr, rfl⟩, priv, s2, h1, u', s3, ⟨hl, rfl⟩, h3⟩ := h
    refine ⟨u, _, ⟨by simp only [Bool.and_eq_true, bne_iff_ne, ne_eq]; omega, rfl⟩, priv, s2, ?_, u', _, ⟨hl, rfl⟩, h3⟩
    obtain ⟨k, hk, hu, hd, -, hst⟩ := exportKey_ok h1
    obtain ⟨hf, -, -⟩ := query_ok.1 h1
    refine query_ok.2 ⟨hf, ?_, hst⟩
    subst hd
    have hl' : k.data.length ≤ n' := by rw [eq_of_beq hl]; omega
    simp [hk, hu, hl']

/-- **C47**. The callbacks write no more than the buffers hold, whatever the sizes of these are. (Extract, expand, hash and
the AEAD calls hand their buffer to PSA, which checks.) -/
theorem C47_outputs (hl : AlgLaws A q) (hq : q ∈ shipped) {id : Nat} {s s' : Store} :
    (∀ n m x gx, makePair A q id n m s = (.ok (x, gx), s') → x.length ≤ n ∧ gx.length ≤ m) ∧
    (∀ peer n o, keyAgree A q id peer n s = (.ok o, s') → o.length ≤ n) ∧
    (∀ b n sig, signInput A q id b n s = (.ok sig, s') → sig.length ≤ n) := by
  have hs := shaped (A := A) hq
  refine ⟨fun n m x gx h => ?_, fun peer n o h => ?_, fun b n sig h => ?_⟩
  · cases hc : q.curve with
    | none =>
      obtain ⟨seed, hlen, rfl, rfl⟩ := makePair_ok_x hc h
      simp only [makePair, hc, pbind_ok, prequire_ok] at h
      obtain ⟨_, _, -, _, _, ⟨hn, -⟩, -⟩ := h
      simp only [Bool.and_eq_true, decide_eq_true_eq] at hn
      have h1 := (hl.x25519 hc).1 basePoint (clamp seed)
      have h2 : (clamp seed).length = seed.length := by simp [clamp, updAt]
      omega
    | some c =>
      simp only [makePair, hc, pbind_ok, prequire_ok, ppure_ok] at h
      obtain ⟨_, _, -, priv, _, h1, _, _, -, pub, _, -, _, _, -, h2, -⟩ := h
      obtain ⟨-, -, -, -, hle, -⟩ := exportKey_ok h1
      cases h2
      exact ⟨hle, List.length_take_le _ _⟩
  · cases hc : q.curve with
    | none =>
      obtain ⟨_, -, -, -, -, rfl⟩ := keyAgree_ok_x hc h
      simp only [keyAgree, hc, pbind_ok, prequire_ok] at h
      obtain ⟨_, _, -, _, _, ⟨hn, -⟩, -⟩ := h
      simp only [Bool.and_eq_true, beq_iff_eq] at hn
      rw [(hl.x25519 hc).1]
      omega
    | some c =>
      simp only [keyAgree, hc, rawKeyAgreement, pbind_ok, query_ok] at h
      obtain ⟨_, _, -, _, _, -, _, _, -, _, _, -, -, hp, -⟩ := h
      simp only [Option.bind_eq_some_iff] at hp
      obtain ⟨k, -, ho⟩ := hp
      split at ho
      · next hc =>
        simp only [Bool.and_eq_true, decide_eq_true_eq] at hc
        simp only [Option.some.injEq] at ho
        rw [← ho]; exact hc.2
      · cases ho
  · have hn : n = q.sign := by
      simp only [signInput, pbind_ok, prequire_ok] at h
      obtain ⟨_, _, -, _, _, ⟨hn, -⟩, -⟩ := h
      exact eq_of_beq hn
    cases hc : q.curve with
    | none =>
      obtain ⟨_, -, -, -, rfl⟩ := sign_ok_x hc h
      rw [hl.ed25519 hc, hn, hs.sigx hc]
      exact Nat.le_refl _
    | some c =>
      obtain ⟨-, -, -, -, -, -, -, h1, -⟩ := sign_ok_ec hc h
      omega

/-- The hypotheses are met: a key imported for HKDF-Extract, over the toy algorithms. -/
example : ∃ (w : World Unit) (kid o : Bytes) (w1 w2 : World Unit),
    (suiteEnv Psa.Toy.algs suite2 (Psa.Toy.app (.other 0) (.other 0) [])).importKey w .extract [1, 2, 3] = (some kid, w1) ∧
    (suiteEnv Psa.Toy.algs suite2 (Psa.Toy.app (.other 0) (.other 0) [])).extract w1 kid [4] = (some o, w2) ∧
    o = Psa.Toy.stretch 32 [4, 1, 2, 3] := by
  refine ⟨(Psa.Toy.store suite2 .signature (List.replicate 32 1), ()), kidBytes (idMin + 1), Psa.Toy.stretch 32 [4, 1, 2, 3],
    _, _, Prod.ext (by decide +kernel) rfl, Prod.ext (by decide +kernel) rfl, rfl⟩

/-! ## C48: a key serves the use it was imported for -/

/-- what an operation asks of the key -/
def needs : KeyType → Attr → Prop
  | .makeKeyPair, a => .export ∈ a.usage
  | .keyAgreement, a => .derive ∈ a.usage ∧ a.alg = .ecdh
  | .signature, a => .signHash ∈ a.usage
  | .verify, a => .verifyHash ∈ a.usage
  | .extract, a => ∃ h, a.alg = .hkdfExtract h
  | .expand, a => ∃ h, a.alg = .hkdfExpand h
  | .encrypt, a => .encrypt ∈ a.usage
  | .decrypt, a => .decrypt ∈ a.usage

/-- the same for suites 0 and 4 -/
def needsX : KeyType → Key → Prop
  | .makeKeyPair, _ => True
  | .keyAgreement, k => .export ∈ k.attr.usage ∧ k.data.length = 32
  | .signature, k => .export ∈ k.attr.usage ∧ k.data.length = 64
  | .verify, k => .export ∈ k.attr.usage ∧ k.data.length = 32
  | u, k => needs u k.attr

theorem run_of_ne {α : Type} {m : P α} {w : World τ} (h : (runP m w).1 ≠ none) : ∃ a s, m w.1 = (.ok a, s) := by
  obtain ⟨a, ha⟩ := Option.ne_none_iff_exists'.1 h
  exact ⟨a, _, (runP_some (Prod.ext ha rfl)).1⟩

theorem usable_ec {c : Curve} (hc : q.curve = some c) {w : World τ} {kid : Bytes} {u : KeyType}
    (h : Usable (suiteEnv A q X) w kid u) : ∃ k, w.1.find (kidNat kid) = some k ∧ needs u k.attr := by
  cases u with
  | makeKeyPair =>
    obtain ⟨⟨x, y⟩, s, h⟩ := run_of_ne (m := makePair A q (kidNat kid) q.ecc q.ecc) h
    obtain ⟨k, hk, hu, -⟩ := makePair_ok_ec hc h
    exact ⟨k, hk, hu⟩
  | keyAgreement =>
    obtain ⟨pk, h⟩ := h
    obtain ⟨o, s, h⟩ := run_of_ne (m := keyAgree A q (kidNat kid) pk q.ecc) h
    obtain ⟨k, hk, hu, ha, -⟩ := keyAgree_ok_ec hc h
    exact ⟨k, hk, hu, ha⟩
  | signature =>
    obtain ⟨m, h⟩ := h
    obtain ⟨o, s, h⟩ := run_of_ne (m := signInput A q (kidNat kid) m q.sign) h
    obtain ⟨k, _, _, hk, hu, -⟩ := sign_ok_ec hc h
    exact ⟨k, hk, hu⟩
  | verify =>
    obtain ⟨m, sig, h⟩ := h
    have h : (runP (verifyInput A q (kidNat kid) m sig) w).1.isSome = true := h
    obtain ⟨o, s, h⟩ := run_of_ne (m := verifyInput A q (kidNat kid) m sig) (w := w) (by intro e; rw [e] at h; cases h)
    obtain ⟨k, _, hk, hu, -⟩ := verify_ok_ec hc h
    exact ⟨k, hk, hu⟩
  | extract =>
    obtain ⟨salt, h⟩ := h
    obtain ⟨o, s, h⟩ := run_of_ne (m := extractKey A (kidNat kid) salt q.hashLen) h
    obtain ⟨k, h, hk, ha, -⟩ := extract_ok h
    exact ⟨k, hk, h, ha⟩
  | expand =>
    obtain ⟨info, n, h⟩ := h
    obtain ⟨o, s, h⟩ := run_of_ne (m := expandKey A (kidNat kid) info n) h
    obtain ⟨k, h, hk, ha, -⟩ := expand_ok h
    exact ⟨k, hk, h, ha⟩
  | encrypt =>
    obtain ⟨iv, ad, p, h⟩ := h
    obtain ⟨o, s, h⟩ := run_of_ne (m := encryptText A (kidNat kid) iv ad p (p.length + q.aeadTag)) h
    obtain ⟨k, _, _, hk, -, hu, -⟩ := encrypt_ok h
    exact ⟨k, hk, hu⟩
  | decrypt =>
    obtain ⟨iv, ad, p, h⟩ := h
    obtain ⟨o, s, h⟩ := run_of_ne (m := decryptText A (kidNat kid) iv ad p (p.length - q.aeadTag)) h
    obtain ⟨k, _, _, hk, -, hu, -⟩ := decrypt_ok h
    exact ⟨k, hk, hu⟩

theorem usable_x (hc : q.curve = none) {w : World τ} {kid : Bytes} {u : KeyType} (hu : u ≠ .makeKeyPair)
    (h : Usable (suiteEnv A q X) w kid u) : ∃ k, w.1.find (kidNat kid) = some k ∧ needsX u k := by
  cases u with
  | makeKeyPair => exact absurd rfl hu
  | keyAgreement =>
    obtain ⟨pk, h⟩ := h
    obtain ⟨o, s, h⟩ := run_of_ne (m := keyAgree A q (kidNat kid) pk q.ecc) h
    obtain ⟨k, hk, hu, ha, -⟩ := keyAgree_ok_x hc h
    exact ⟨k, hk, hu, ha⟩
  | signature =>
    obtain ⟨m, h⟩ := h
    obtain ⟨o, s, h⟩ := run_of_ne (m := signInput A q (kidNat kid) m q.sign) h
    obtain ⟨k, hk, hu, hl, -⟩ := sign_ok_x hc h
    exact ⟨k, hk, hu, hl⟩
  | verify =>
    obtain ⟨m, sig, h⟩ := h
    have h : (runP (verifyInput A q (kidNat kid) m sig) w).1.isSome = true := h
    obtain ⟨o, s, h⟩ := run_of_ne (m := verifyInput A q (kidNat kid) m sig) (w := w) (by intro e; rw [e] at h; cases h)
    obtain ⟨k, hk, hu, hl, -⟩ := verify_ok_x hc h
    exact ⟨k, hk, hu, hl⟩
  | extract =>
    obtain ⟨salt, h⟩ := h
    obtain ⟨o, s, h⟩ := run_of_ne (m := extractKey A (kidNat kid) salt q.hashLen) h
    obtain ⟨k, h, hk, ha, -⟩ := extract_ok h
    exact ⟨k, hk, h, ha⟩
  | expand =>
    obtain ⟨info, n, h⟩ := h
    obtain ⟨o, s, h⟩ := run_of_ne (m := expandKey A (kidNat kid) info n) h
    obtain ⟨k, h, hk, ha, -⟩ := expand_ok h
    exact ⟨k, hk, h, ha⟩
  | encrypt =>
    obtain ⟨iv, ad, p, h⟩ := h
    obtain ⟨o, s, h⟩ := run_of_ne (m := encryptText A (kidNat kid) iv ad p (p.length + q.aeadTag)) h
    obtain ⟨k, _, _, hk, -, hu, -⟩ := encrypt_ok h
    exact ⟨k, hk, hu⟩
  | decrypt =>
    obtain ⟨iv, ad, p, h⟩ := h
    obtain ⟨o, s, h⟩ := run_of_ne (m := decryptText A (kidNat kid) iv ad p (p.length - q.aeadTag)) h
    obtain ⟨k, _, _, hk, -, hu, -⟩ := decrypt_ok h
    exact ⟨k, hk, hu⟩

/-- the uses that suites 0 and 4 do not tell apart; a new key pair does not use the imported key at all -/
def sameInX : KeyType → KeyType → Bool
  | .keyAgreement, .verify | .verify, .keyAgreement => true
  | _, .makeKeyPair => true
  | _, _ => false

/-- **C48**. With a key that was imported for one use no operation for another use succeeds. Missing: suites 0 and 4 do not
tell private keys for key agreement from public keys for signatures (`C48_violated`). -/
theorem C48_separated_partial {t u : KeyType} {raw kid : Bytes} {w w1 : World τ} (h0 : w.1.find 0 = none)
    (h1 : (suiteEnv A q X).importKey w t raw = (some kid, w1)) (htu : t ≠ u)
    (hx : q.curve = none → sameInX t u = false) : ¬ Usable (suiteEnv A q X) w1 kid u := by
  intro hu
  rcases import_some (X := X) h1 with ⟨i, k, -, hi, h3, h4, h5, h6⟩ | ⟨h3, h4, h5, h6⟩
  · have hf : w1.1.find (kidNat kid) = some k := by rw [hi, h3.find, if_pos rfl]
    cases hc : q.curve with
    | some c =>
      obtain ⟨k', hk', hn⟩ := usable_ec hc hu
      rw [hf] at hk'
      cases hk'
      rw [h5] at hn
      cases t <;> cases u <;> simp [needs, attrOf, hc] at hn htu
    | none =>
      have hx := hx hc
      have hu' : u ≠ .makeKeyPair := by rintro rfl; simp [sameInX] at hx
      obtain ⟨k', hk', hn⟩ := usable_x hc hu' hu
      rw [hf] at hk'
      cases hk'
      have ht : t ≠ .makeKeyPair := by
        rintro rfl
        have h7 : kid = kidBytes 0 := by
          have := congrArg Prod.fst h1
          simpa [suiteEnv, runP, keyImport, hc, pure_def, Psa.Res.toOption] using this.symm
        have h8 := freeId_range h3.free
        rw [h7, kid_round (by omega)] at hi
        simp only [idMin] at h8
        omega
      simp only [keyOk, h5] at h4
      cases t <;> cases u <;> simp [needsX, needs, attrOf, hc, h5, sameInX] at hn htu hx hu' h4 ht
      all_goals omega
  · have hx := hx h6
    have hu' : u ≠ .makeKeyPair := by rintro rfl; simp [sameInX] at hx
    obtain ⟨k', hk', -⟩ := usable_x h6 hu' hu
    rw [h3, h4, h0] at hk'
    cases hk'

/-- **C48 is violated** by suite 0 (and 4): the public key of a peer, imported to verify its signature, serves as a private key
in a key agreement. -/
theorem C48_violated : ∃ (w : World Unit) (kid : Bytes) (w1 : World Unit),
    (suiteEnv Psa.Toy.algs suite0 (Psa.Toy.app (.other 0) (.other 0) [])).importKey w .verify (List.replicate 32 7) =
      (some kid, w1) ∧
    Usable (suiteEnv Psa.Toy.algs suite0 (Psa.Toy.app (.other 0) (.other 0) [])) w1 kid .keyAgreement := by
  refine ⟨(Psa.Toy.store suite0 .signature (List.replicate 64 1), ()), kidBytes (idMin + 1), _,
    Prod.ext (by decide +kernel) rfl, List.replicate 32 9, by decide +kernel⟩

/-- The hypotheses of the theorem are met in the same situation with suite 2. -/
example : ∃ (w : World Unit) (kid : Bytes) (w1 : World Unit), w.1.find 0 = none ∧
    (suiteEnv Psa.Toy.algs suite2 (Psa.Toy.app (.other 0) (.other 0) [])).importKey w .keyAgreement (List.replicate 32 7) =
      (some kid, w1) ∧
    Usable (suiteEnv Psa.Toy.algs suite2 (Psa.Toy.app (.other 0) (.other 0) [])) w1 kid .keyAgreement := by
  refine ⟨(Psa.Toy.store suite2 .signature (List.replicate 32 1), ()), kidBytes (idMin + 1), _, by decide +kernel,
    Prod.ext (by decide +kernel) rfl, (Psa.Toy.base p256).1, by decide +kernel⟩

/-! ## C49: sessions -/

/-- **C49**. A session over a shipped suite computes the primitives of the suite in every call, whatever fails below. -/
theorem C49_faithful {cfg : Config} (hl : AlgLaws A q) (hq : q ∈ shipped) (hX : Decent A X) {w : World τ} {log : List Ev}
    {h : History} {s : St (World τ)} {sk : Bytes → Bytes} (hv : Valid A w.1) (hA : Anchored q X w.1 sk)
    (hs : Session (suiteEnv A q X) cfg w log h s) : Faithful (primsOf A q) sk (sessionCalls log s) :=
  suite_faithful hl hq hX hv hA hs

/-- **C49**. The library never touches the keys the application had in the store. -/
theorem C49_keys_stay {cfg : Config} (hX : Decent A X) {w : World τ} {log : List Ev} {h : History} {s : St (World τ)}
    (hs : Session (suiteEnv A q X) cfg w log h s) {i : Nat} {k : Key} (hi : w.1.find i = some k) (h0 : i ≠ 0) :
    s.env.1.find i = some k :=
  (ran_kept hX (session_ran hs).2 (session_own hs) hi h0).1

section

variable {τ' : Type} {X' : Psa.App τ'} {cI cR : Config} {eI : World τ} {eR : World τ'} {logI logR : List Ev}
  {hI hR : History} {sI : St (World τ)} {sR : St (World τ')} {kI kR : Bytes → Bytes}

/-- **C49**. An Initiator and a Responder with the same shipped suite that both completed the handshake on the messages the
other sent hold the same TH_4 and PRK_4e3m (or the PRK_out derived from it). -/
theorem C49_same_keys (hl : AlgLaws A q) (hq : q ∈ shipped) (hX : Decent A X) (hX' : Decent A X')
    (vI : Valid A eI.1) (vR : Valid A eR.1) (aI : Anchored q X eI.1 kI) (aR : Anchored q X' eR.1 kR)
    (fI : Proper (suiteEnv A q X) cI eI logI hI sI) (fR : Proper (suiteEnv A q X') cR eR logR hR sR)
    (hi : AsInitiator hI) (hr : AsResponder hR) (hsu : sR.ctx.suite = sI.ctx.suite) (d : Delivered hI hR)
    (credR : Knows (primsOf A q) kR (!responderSigns sI.ctx.chosenMethod) (sessionCalls logR sR) (sessionCalls logI sI))
    (credI : Knows (primsOf A q) kI (!initiatorSigns sI.ctx.chosenMethod) (sessionCalls logI sI) (sessionCalls logR sR)) :
    ∃ th4 prk4e3m, HoldsKeys (sessionCalls logI sI) prk4e3m th4 sI.ctx.suite.hash (updates hI) sI.ctx ∧
      HoldsKeys (sessionCalls logR sR) prk4e3m th4 sI.ctx.suite.hash (updates hR) sR.ctx ∧
      sR.ctx.chosenMethod = sI.ctx.chosenMethod :=
  C11_same_keys fI fR hi hr hsu ⟨prims_lawful hl, suite_faithful hl hq hX vI aI fI.session,
    suite_faithful hl hq hX' vR aR fR.session, d, credR, credI⟩

end

/-- A complete handshake with each of the suites. -/
example : ∀ q ∈ shipped, ∃ th4 prk,
    HoldsKeys (sessionCalls [] (Psa.Toy.endI q)) prk th4 (Psa.Toy.endI q).ctx.suite.hash [] (Psa.Toy.endI q).ctx ∧
    HoldsKeys (sessionCalls [] (Psa.Toy.endR q)) prk th4 (Psa.Toy.endI q).ctx.suite.hash [] (Psa.Toy.endR q).ctx := by
  intro q hq
  have h : (shipped.all fun q => Psa.Toy.properB q (Psa.Toy.histI q) (Psa.Toy.endI q) &&
      Psa.Toy.properB q (Psa.Toy.histR q) (Psa.Toy.endR q) &&
      [Call.compose1, .process2, .compose3].isPrefixOf (messages (Psa.Toy.histI q)) &&
      [Call.process1, .compose2, .process3].isPrefixOf (messages (Psa.Toy.histR q)) &&
      decide ((Psa.Toy.endR q).ctx.suite = (Psa.Toy.endI q).ctx.suite) &&
      Toy.deliveredB (Psa.Toy.histI q) (Psa.Toy.histR q) &&
      Psa.Toy.knowsB (Psa.Toy.pubOf q (Psa.Toy.skR q)) (sessionCalls [] (Psa.Toy.endR q))
        (sessionCalls [] (Psa.Toy.endI q)) &&
      Psa.Toy.knowsB (Psa.Toy.pubOf q (Psa.Toy.skI q)) (sessionCalls [] (Psa.Toy.endI q))
        (sessionCalls [] (Psa.Toy.endR q)) &&
      decide (updates (Psa.Toy.histI q) = [] ∧ updates (Psa.Toy.histR q) = [])) = true := by decide +kernel
  have h := List.all_eq_true.1 h q hq
  simp only [Bool.and_eq_true, decide_eq_true_eq, List.isPrefixOf_iff_prefix] at h
  obtain ⟨⟨⟨⟨⟨⟨⟨⟨h1, h2⟩, h3⟩, h4⟩, h5⟩, h6⟩, h7⟩, h8⟩, h9, h10⟩ := h
  obtain ⟨th4, prk, a, b, _⟩ := C49_same_keys (Psa.Toy.algs_laws hq) hq (Psa.Toy.decent _ _ _) (Psa.Toy.decent _ _ _)
    (Psa.Toy.valid hq _) (Psa.Toy.valid hq _) (Psa.Toy.anchored hq _ _ _ _) (Psa.Toy.anchored hq _ _ _ _)
    (Psa.Toy.properI hq h1) (Psa.Toy.properR hq h2) h3 h4 h5 (Toy.delivered_of h6) (Psa.Toy.knows hq h7)
    (Psa.Toy.knows hq h8)
  rw [h9] at a
  rw [h10] at b
  exact ⟨th4, prk, a, b⟩

end Verif
