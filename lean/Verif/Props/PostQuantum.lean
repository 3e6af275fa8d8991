import Verif.Pqc.Toy

/-!
# C54 – C57: the experimental post-quantum suite
-/

namespace Verif.Pqc

open Psa (Store Algs Attr Key)
open M Spec.Pqc

variable {A : Algs} {B : PqAlgs} {s0 s1 : State} {t : KeyType} {raw : Bytes} {h : Nat} {as : List Act} {o : Out}

theorem works_one {s : State} : works s 1 ↔ s.psa.fault s.psa.clock = false :=
  ⟨fun hw => hw 0 (by decide), fun hw i hi => by obtain rfl : i = 0 := by omega
                                                 exact hw⟩

theorem works_two {s : State} : works s 2 ↔ s.psa.fault s.psa.clock = false ∧ s.psa.fault (s.psa.clock + 1) = false :=
  ⟨fun hw => ⟨hw 0 (by decide), hw 1 (by decide)⟩, fun hw i hi => by
    rcases (show i = 0 ∨ i = 1 by omega) with rfl | rfl
    · exact hw.1
    · exact hw.2⟩

/-- the key after a history that keeps it -/
theorem kept (ht : t ≠ .makeKeyPair) (hi : call A B (.importKey t raw) s0 = (.ok (.handle h), s1)) (hs : Stays h s1 as) :
    (run A B as s1).2.psa.find h = some ⟨attrOf t raw.length, raw⟩ ∧ isSlotHandle h = false := by
  obtain ⟨-, h1, h2, -⟩ := import_ok ht hi
  exact ⟨run_stays h1 as hs h1, notSlot h2⟩

/-- export of the key -/
theorem kept_export {s s' : State} {n : Nat} {b : Bytes} (hk : s.psa.find h = some ⟨attrOf t raw.length, raw⟩)
    (hh : isSlotHandle h = false) (h1 : t ≠ .encrypt) (h2 : t ≠ .decrypt) :
    exportRaw h n s = (.ok b, s') ↔ s.psa.fault s.psa.clock = false ∧ raw.length ≤ n ∧ b = raw ∧ s' = s.tick := by
  rw [export_ok hh]
  constructor
  · rintro ⟨hf, ⟨k, hk', hu, hl, rfl⟩, rfl⟩
    rw [hk] at hk'
    cases hk'
    exact ⟨hf, hl, rfl, rfl⟩
  · rintro ⟨hf, hl, rfl, rfl⟩
    refine ⟨hf, ⟨_, hk, ?_, hl, rfl⟩, rfl⟩
    cases t <;> first | exact List.mem_singleton.2 rfl | exact absurd rfl h1 | exact absurd rfl h2

/-! ## C54: the algorithms -/

/-- **C54**. Hashing is SHAKE256 with 64 bytes of output. -/
theorem C54_hash {s : State} {b : Bytes} {n : Nat} :
    (call A B (.hash b n) s).1 = .ok o ↔ 64 ≤ n ∧ o = .bytes (B.shake256 b 64) := by
  rw [fst_ok]
  simp only [call, hashInput, mbind_ok, mrequire_ok, mguard_ok, mpure_ok, decide_eq_true_eq]
  constructor
  · rintro ⟨s', a, s1, ⟨_, _, ⟨h1, rfl⟩, _, _, ⟨-, rfl⟩, rfl, rfl⟩, rfl, rfl⟩
    exact ⟨h1, rfl⟩
  · rintro ⟨h1, rfl⟩
    exact ⟨s, _, s, ⟨(), s, ⟨h1, rfl⟩, (), s, ⟨h1, rfl⟩, rfl, rfl⟩, rfl, rfl⟩

/-- **C54**. Signing: with the key that was imported, whatever happened in between, as long as it was not destroyed. -/
theorem C54_sign (hi : call A B (.importKey .signature raw) s0 = (.ok (.handle h), s1)) (hs : Stays h s1 as) {m : Bytes} {n : Nat} :
    (call A B (.sign h m n) (run A B as s1).2).1 = .ok o ↔ works (run A B as s1).2 2 ∧ raw.length = 2560 ∧ 2420 ≤ n ∧
      o = .bytes (B.dsaSign raw m ((run A B as s1).2.psa.rand ((run A B as s1).2.psa.clock + 1))) := by
  obtain ⟨hk, hh⟩ := kept (by decide) hi hs
  generalize (run A B as s1).2 = s at hk ⊢
  rw [fst_ok, works_two]
  simp only [call, signInput, mbind_ok, mrequire_ok, mguard_ok, mpure_ok, decide_eq_true_eq, beq_iff_eq, oqs_ok, Option.some.injEq]
  constructor
  · rintro ⟨s', a, _, ⟨_, _, ⟨h1, rfl⟩, _, _, he, _, _, ⟨h2, rfl⟩, _, _, ⟨-, rfl⟩, hf2, rfl, rfl⟩, rfl, rfl⟩
    obtain ⟨hf, -, rfl, rfl⟩ := (kept_export hk hh (t := .signature) (by decide) (by decide)).1 he
    exact ⟨⟨hf, hf2⟩, h2, h1, rfl⟩
  · rintro ⟨⟨hf, hf2⟩, h2, h1, rfl⟩
    exact ⟨_, _, _, ⟨(), s, ⟨h1, rfl⟩, raw, s.tick, (kept_export hk hh (t := .signature) (by decide) (by decide)).2 ⟨hf, Nat.le_of_eq h2, rfl, rfl⟩, (), s.tick, ⟨h2, rfl⟩, (), s.tick, ⟨h1, rfl⟩,
      hf2, rfl, rfl⟩, rfl, rfl⟩

/-- **C54**. A signature is accepted exactly if it verifies with the public key that was imported. -/
theorem C54_verify (hi : call A B (.importKey .verify raw) s0 = (.ok (.handle h), s1)) (hs : Stays h s1 as) {m sig : Bytes} :
    (call A B (.verify h m sig) (run A B as s1).2).1 = .ok o ↔ works (run A B as s1).2 2 ∧ raw.length = 1312 ∧
      B.dsaVerify raw m sig = true ∧ o = .done := by
  obtain ⟨hk, hh⟩ := kept (by decide) hi hs
  generalize (run A B as s1).2 = s at hk ⊢
  rw [fst_ok, works_two]
  simp only [call, verifyInput, mbind_ok, mrequire_ok, mpure_ok, beq_iff_eq, oqs_ok,
    kept_export hk hh (t := .verify) (by decide) (by decide)]
  constructor
  · rintro ⟨s', a, _, ⟨_, _, ⟨hf, -, rfl, rfl⟩, _, _, ⟨h2, rfl⟩, hf2, hv, rfl⟩, rfl, rfl⟩
    split at hv
    · rename_i hv'; exact ⟨⟨hf, hf2⟩, h2, hv', rfl⟩
    · cases hv
  · rintro ⟨⟨hf, hf2⟩, h2, hv, rfl⟩
    exact ⟨_, (), _, ⟨raw, s.tick, ⟨hf, Nat.le_of_eq h2, rfl, rfl⟩, (), s.tick, ⟨h2, rfl⟩, hf2, by rw [if_pos hv], rfl⟩, rfl, rfl⟩

/-- **C54**. EDHOC_Extract is KMAC256 of the imported key material, keyed with the salt. -/
theorem C54_extract (hi : call A B (.importKey .extract raw) s0 = (.ok (.handle h), s1)) (hs : Stays h s1 as) {salt : Bytes} {n : Nat} :
    (call A B (.extract h salt n) (run A B as s1).2).1 = .ok o ↔ works (run A B as s1).2 2 ∧ salt ≠ [] ∧ 64 ≤ n ∧ raw.length ≤ 256 ∧
      o = .bytes (kmac B salt raw 64) := by
  obtain ⟨hk, hh⟩ := kept (by decide) hi hs
  generalize (run A B as s1).2 = s at hk ⊢
  rw [fst_ok, works_two]
  simp only [call, extractKey, kdfKmac, mbind_ok, mrequire_ok, mguard_ok, mpure_ok, decide_eq_true_eq, bne_iff_ne, ne_eq, oqs_ok, Option.some.injEq]
  constructor
  · rintro ⟨s', a, _, ⟨_, _, ⟨h1, rfl⟩, _, _, ⟨h2, rfl⟩, _, _, he, _, _, ⟨-, rfl⟩, _, _, ⟨-, rfl⟩, hf2, rfl, rfl⟩,
      rfl, rfl⟩
    obtain ⟨hf, h3, rfl, rfl⟩ := (kept_export hk hh (t := .extract) (by decide) (by decide)).1 he
    exact ⟨⟨hf, hf2⟩, fun e => h1 (by rw [e]; rfl), h2, h3, rfl⟩
  · rintro ⟨⟨hf, hf2⟩, h1, h2, h3, rfl⟩
    exact ⟨_, _, _, ⟨(), s, ⟨fun e => h1 (List.length_eq_zero_iff.1 e), rfl⟩, (), s, ⟨h2, rfl⟩, raw, s.tick, (kept_export hk hh (t := .extract) (by decide) (by decide)).2 ⟨hf, h3, rfl, rfl⟩, (),
      s.tick, ⟨h2, rfl⟩, (), s.tick, ⟨by decide, rfl⟩, hf2, rfl, rfl⟩, rfl, rfl⟩

/-- **C54**. EDHOC_Expand is KMAC256 of the info, keyed with the imported key. -/
theorem C54_expand (hi : call A B (.importKey .expand raw) s0 = (.ok (.handle h), s1)) (hs : Stays h s1 as) {info : Bytes} {n : Nat} :
    (call A B (.expand h info n) (run A B as s1).2).1 = .ok o ↔ works (run A B as s1).2 2 ∧ info ≠ [] ∧ n ≠ 0 ∧ raw.length ≤ 64 ∧
      o = .bytes (kmac B raw info n) := by
  obtain ⟨hk, hh⟩ := kept (by decide) hi hs
  generalize (run A B as s1).2 = s at hk ⊢
  rw [fst_ok, works_two]
  simp only [call, expandKey, kdfKmac, mbind_ok, mrequire_ok, mpure_ok, Bool.and_eq_true, bne_iff_ne, ne_eq, oqs_ok, Option.some.injEq]
  constructor
  · rintro ⟨s', a, _, ⟨_, _, ⟨⟨h1, h2⟩, rfl⟩, _, _, he, _, _, ⟨-, rfl⟩, hf2, rfl, rfl⟩, rfl, rfl⟩
    obtain ⟨hf, h3, rfl, rfl⟩ := (kept_export hk hh (t := .expand) (by decide) (by decide)).1 he
    exact ⟨⟨hf, hf2⟩, fun e => h1 (by rw [e]; rfl), h2, h3, rfl⟩
  · rintro ⟨⟨hf, hf2⟩, h1, h2, h3, rfl⟩
    exact ⟨_, _, _, ⟨(), s, ⟨⟨fun e => h1 (List.length_eq_zero_iff.1 e), h2⟩, rfl⟩, raw, s.tick, (kept_export hk hh (t := .expand) (by decide) (by decide)).2 ⟨hf, h3, rfl, rfl⟩, (), s.tick,
      ⟨h2, rfl⟩, hf2, rfl, rfl⟩, rfl, rfl⟩

/-- **C54**. Decapsulation with an imported private key. -/
theorem C54_decapsulate (hi : call A B (.importKey .keyAgreement raw) s0 = (.ok (.handle h), s1)) (hs : Stays h s1 as) {ct : Bytes}
    {n : Nat} :
    (call A B (.decapsulate h ct n) (run A B as s1).2).1 = .ok o ↔ works (run A B as s1).2 2 ∧ ct.length = 768 ∧ 32 ≤ n ∧
      raw.length = 1632 ∧ o = .bytes (B.kemDecaps raw ct) := by
  obtain ⟨hk, hh⟩ := kept (by decide) hi hs
  generalize (run A B as s1).2 = s at hk ⊢
  rw [fst_ok, works_two]
  simp only [call, decapsulate, mbind_ok, mrequire_ok, mguard_ok, mpure_ok, decide_eq_true_eq, beq_iff_eq, oqs_ok, Option.some.injEq]
  constructor
  · rintro ⟨s', a, _, ⟨_, _, ⟨h1, rfl⟩, _, _, ⟨h2, rfl⟩, _, _, he, _, _, ⟨h3, rfl⟩, _, _, ⟨-, rfl⟩, hf2, rfl, rfl⟩,
      rfl, rfl⟩
    obtain ⟨hf, -, rfl, rfl⟩ := (kept_export hk hh (t := .keyAgreement) (by decide) (by decide)).1 he
    exact ⟨⟨hf, hf2⟩, h1, h2, h3, rfl⟩
  · rintro ⟨⟨hf, hf2⟩, h1, h2, h3, rfl⟩
    exact ⟨_, _, _, ⟨(), s, ⟨h1, rfl⟩, (), s, ⟨h2, rfl⟩, raw, s.tick, (kept_export hk hh (t := .keyAgreement) (by decide) (by decide)).2 ⟨hf, Nat.le_of_eq h3, rfl, rfl⟩, (), s.tick, ⟨h3, rfl⟩, (), s.tick,
      ⟨h2, rfl⟩, hf2, rfl, rfl⟩, rfl, rfl⟩

/-- **C54**. AES-CCM-16-128-128, encryption. -/
theorem C54_encrypt (hi : call A B (.importKey .encrypt raw) s0 = (.ok (.handle h), s1)) (hs : Stays h s1 as) {iv ad p : Bytes} {n : Nat} :
    (call A B (.encrypt h iv ad p n) (run A B as s1).2).1 = .ok o ↔ works (run A B as s1).2 1 ∧ 7 ≤ iv.length ∧ iv.length ≤ 13 ∧
      p.length < 256 ^ (15 - iv.length) ∧ p.length + 16 ≤ n ∧ o = .bytes (A.enc .ccm 16 raw iv ad p) := by
  obtain ⟨hk, hh⟩ := kept (by decide) hi hs
  generalize (run A B as s1).2 = s at hk ⊢
  rw [fst_ok, works_one]
  simp only [call, encryptText, mbind_ok, lift_ok, Psa.aeadEncrypt, Psa.query_ok, mpure_ok, ccm, Option.bind_eq_some_iff]
  have hp : s.psa.permitted h .encrypt (.aead .ccm aeadTagLen) = some ⟨attrOf .encrypt raw.length, raw⟩ := by
    simp [Store.permitted, hk, attrOf, ccm]
  simp only [hp, Option.some.injEq, exists_eq_left']
  constructor
  · rintro ⟨s', a, _, ⟨_, ⟨hf, h1, rfl⟩, rfl⟩, rfl, rfl⟩
    split at h1
    · rename_i h2
      simp only [Bool.and_eq_true, beq_iff_eq, decide_eq_true_eq, Psa.aeadFits] at h2
      cases h1
      exact ⟨hf, h2.1.2.1.1, h2.1.2.1.2, h2.1.2.2, h2.2, rfl⟩
    · cases h1
  · rintro ⟨hf, h1, h2, h3, h4, rfl⟩
    refine ⟨_, _, _, ⟨_, ⟨hf, if_pos ?_, rfl⟩, rfl⟩, rfl, rfl⟩
    simp only [Bool.and_eq_true, beq_iff_eq, decide_eq_true_eq, Psa.aeadFits]
    exact ⟨⟨rfl, ⟨h1, h2⟩, h3⟩, h4⟩

/-- **C54**. Decryption. -/
theorem C54_decrypt (hi : call A B (.importKey .decrypt raw) s0 = (.ok (.handle h), s1)) (hs : Stays h s1 as) {iv ad c : Bytes} {n : Nat} :
    (call A B (.decrypt h iv ad c n) (run A B as s1).2).1 = .ok o ↔ works (run A B as s1).2 1 ∧ 16 ≤ c.length ∧ 7 ≤ iv.length ∧
      iv.length ≤ 13 ∧ c.length - 16 < 256 ^ (15 - iv.length) ∧ c.length - 16 ≤ n ∧
      ∃ p, A.dec .ccm 16 raw iv ad c = some p ∧ o = .bytes p := by
  obtain ⟨hk, hh⟩ := kept (by decide) hi hs
  generalize (run A B as s1).2 = s at hk ⊢
  rw [fst_ok, works_one]
  simp only [call, decryptText, mbind_ok, lift_ok, Psa.aeadDecrypt, Psa.query_ok, mpure_ok, ccm, Option.bind_eq_some_iff]
  have hp : s.psa.permitted h .decrypt (.aead .ccm aeadTagLen) = some ⟨attrOf .decrypt raw.length, raw⟩ := by
    simp [Store.permitted, hk, attrOf, ccm]
  simp only [hp, Option.some.injEq, exists_eq_left']
  constructor
  · rintro ⟨s', a, _, ⟨_, ⟨hf, h1, rfl⟩, rfl⟩, rfl, rfl⟩
    split at h1
    · rename_i h2
      simp only [Bool.and_eq_true, beq_iff_eq, decide_eq_true_eq, Psa.aeadFits] at h2
      exact ⟨hf, h2.1.1.2, h2.1.2.1.1, h2.1.2.1.2, h2.1.2.2, h2.2, a, h1, rfl⟩
    · cases h1
  · rintro ⟨hf, h0, h1, h2, h3, h4, p, h5, rfl⟩
    refine ⟨_, _, _, ⟨_, ⟨hf, (if_pos ?_).trans h5, rfl⟩, rfl⟩, rfl, rfl⟩
    simp only [Bool.and_eq_true, beq_iff_eq, decide_eq_true_eq, Psa.aeadFits]
    exact ⟨⟨⟨rfl, h0⟩, ⟨h1, h2⟩, h3⟩, h4⟩

/-- **C54**. Encapsulation, for any encapsulation key of the right length. -/
theorem C54_encapsulate {s : State} {ek : Bytes} {n m : Nat} :
    (call A B (.encapsulate ek n m) s).1 = .ok o ↔ works s 1 ∧ ek.length = 800 ∧ 768 ≤ n ∧ 32 ≤ m ∧
      o = .pair (B.kemEncaps ek (s.psa.rand s.psa.clock)).1 (B.kemEncaps ek (s.psa.rand s.psa.clock)).2 := by
  rw [fst_ok, works_one]
  simp only [call, Pqc.encapsulate, mbind_ok, mrequire_ok, mguard_ok, mpure_ok, Bool.and_eq_true, decide_eq_true_eq, beq_iff_eq, oqs_ok,
    Option.some.injEq]
  constructor
  · rintro ⟨s', a, _, ⟨_, _, ⟨h1, rfl⟩, _, _, ⟨⟨h2, h3⟩, rfl⟩, _, _, ⟨-, rfl⟩, hf, rfl, rfl⟩, rfl, rfl⟩
    exact ⟨hf, h1, h2, h3, rfl⟩
  · rintro ⟨hf, h1, h2, h3, rfl⟩
    exact ⟨_, _, _, ⟨(), s, ⟨h1, rfl⟩, (), s, ⟨⟨h2, h3⟩, rfl⟩, (), s, ⟨⟨h2, h3⟩, rfl⟩, hf, rfl, rfl⟩, rfl, rfl⟩

theorem base_eq : reserved = [base, base + 1] := rfl

theorem reserved_mem : h ∈ reserved ↔ isSlotHandle h = true := by rw [reserved_iff, base_eq]; simp

theorem pick_state (hh : h ∈ reserved) {f : Nat → KeyState} : pick h (f base) (f (base + 1)) = f h := by
  rw [pick]
  split
  · rename_i e; rw [e]
  · rename_i e
    rcases reserved_iff.1 (reserved_mem.1 hh) with e' | e'
    · exact absurd e' e
    · rw [e']

/-- a new key pair came from a handle in use, and is kept there -/
theorem pair_ok (hl : Laws B) {s : State} {k0 k1 : KeyState} (hm : Match s k0 k1) {n m : Nat} {dk ek : Bytes}
    (hc : call A B (.makeKeyPair h n m) s = (.ok (.pair dk ek), s1)) :
    isSlotHandle h = true ∧ (∃ r, B.kemPair r = (ek, dk)) ∧ ∃ k0 k1, Match s1 k0 k1 ∧ pick h k0 k1 = .holds dk := by
  have hm1 := call_match (A := A) hl hm (.makeKeyPair h n m)
  rw [hc] at hm1
  rw [pair_eq hl hm] at hc
  split at hc
  · cases hc
  split at hc
  · cases hc
  split at hc
  · cases hc
  split at hc
  · cases hc
  rename_i hr _ _
  obtain ⟨h1, h2⟩ := Prod.mk.inj hc
  cases h1
  have hr : isSlotHandle h = true := by
    rw [reserved_iff]
    rcases Classical.not_not.1 hr with ⟨e, -⟩ | ⟨e, -⟩
    · exact .inl e
    · exact .inr e
  refine ⟨hr, ⟨_, rfl⟩, _, _, hm1, ?_⟩
  rcases reserved_iff.1 hr with rfl | rfl
  · simp only [pick, note, if_true]
  · simp only [pick, note, if_true, if_neg (show ¬ base + 1 = base by omega)]

/-- **C54**. The two sides agree on the secret: the Initiator, at any time after it made the key pair and until the handle is destroyed
or gets another pair, decapsulates what a Responder encapsulated to the public key, to the same secret. -/
theorem C54_agreement (hl : Laws B) {p : Store} {n m n' m' n'' : Nat} {dk ek ct ss : Bytes} {A' : Algs} {s s' : State}
    {before after : List Act}
    (hi : call A B (.makeKeyPair h n m) (run A B before (.start p)).2 = (.ok (.pair dk ek), s1))
    (hk : ∀ a ∈ after, a ≠ .call (.destroyKey h) ∧ ∀ n m, a ≠ .call (.makeKeyPair h n m))
    (he : call A' B (.encapsulate ek n' m') s = (.ok (.pair ct ss), s')) (hn : 32 ≤ n'') (hw : works (run A B after s1).2 1) :
    (call A B (.decapsulate h ct n'') (run A B after s1).2).1 = .ok (.bytes ss) := by
  obtain ⟨hr, ⟨r, hp⟩, k0, k1, hm, hd⟩ := pair_ok hl (run_start hl before p) hi
  obtain ⟨k0, k1, hm, hd⟩ := run_keeps (A := A) hl hr after hm hd hk
  obtain ⟨-, -, -, -, he⟩ := C54_encapsulate.1 (show (call A' B (.encapsulate ek n' m') s).1 = .ok (.pair ct ss) by rw [he])
  injection he with h1 h2
  have hct : ct.length = ctLen := by rw [h1]; exact hl.ct _ _
  rw [decaps_slot hm hr, if_neg (not_not_intro hct), if_neg (show ¬ n'' < ssLen from Nat.not_lt.2 hn), hd]
  simp only [works_one.1 hw, Bool.false_eq_true, if_false]
  have := hl.inverse r (s.psa.rand s.psa.clock)
  rw [hp] at this
  rw [h1, this, ← h2]

/-- **C54**. Importing: a key for AES-CCM has 16 bytes, any other is not empty. -/
theorem C54_import {s : State} (ht : t ≠ .makeKeyPair) :
    (∃ o, (call A B (.importKey t raw) s).1 = .ok o) ↔ works s 1 ∧ s.psa.freeId ≠ none ∧
      (if t = .encrypt ∨ t = .decrypt then raw.length = 16 else raw ≠ []) := by
  have hi : keyImport A t raw = M.lift (Psa.importKey A (attrOf t raw.length) raw) := by
    cases t <;> first | rfl | exact absurd rfl ht
  have hk : Psa.keyOk A (attrOf t raw.length) raw = true ↔
      (if t = .encrypt ∨ t = .decrypt then raw.length = 16 else raw ≠ []) := by
    rw [Ne, ← List.length_eq_zero_iff]
    cases t <;> simp [attrOf, Psa.keyOk, aeadKeyLen, List.length_pos_iff] <;> omega
  rw [← hk, works_one]
  simp only [fst_ok, call, mbind_ok, hi, lift_ok, mpure_ok, Psa.importKey, Psa.psa_ok, Psa.insert]
  constructor
  · rintro ⟨o, s', a, s1, ⟨q, ⟨hf, ks, h1, -⟩, -⟩, -, -⟩
    split at h1
    · rename_i h2
      refine ⟨hf, fun e => ?_, h2⟩
      rw [e] at h1
      cases h1
    · cases h1
  · rintro ⟨hf, h1, h2⟩
    cases hx : s.psa.freeId with
    | none => exact absurd hx h1
    | some x => exact ⟨_, _, x, _, ⟨_, ⟨hf, _, by rw [if_pos h2]; rfl, rfl⟩, rfl⟩, rfl, rfl⟩

/-- **C54**. The table of the suite. -/
theorem C54_table : table.value = -1 ∧ table.aeadKey = 16 ∧ table.aeadTag = 16 ∧ table.aeadIv = 13 ∧ table.hash = 64 ∧ table.mac = 16 ∧
    table.kemPublic = 800 ∧ table.kemPrivate = 1632 ∧ table.kemCiphertext = 768 ∧ table.kemSecret = 32 ∧ table.signature = 2420 := by
  decide

/-! ## C55: handles of key pairs -/

section Handles

variable {p : Store}

/-- **C55**. After every history the static memory is what the history says: zero for a handle not in use, and nothing but the last
private key for one in use. -/
theorem C55_memory (hl : Laws B) :
    (run A B as (.start p)).2.slots = reserved.map fun h => memory (keyState (run A B as (.start p)).1 h) :=
  (run_start hl as p).1

/-- **C55**. A new handle is one of the two that is not in use; there is an error, and nothing changes, only if both are in use. -/
theorem C55_new (hl : Laws B) :
    (∃ h ∈ reserved, keyState (run A B as (.start p)).1 h = .absent ∧
        (call A B (.importKey .makeKeyPair raw) (run A B as (.start p)).2).1 = .ok (.handle h)) ∨
      ((∀ h ∈ reserved, keyState (run A B as (.start p)).1 h ≠ .absent) ∧
        call A B (.importKey .makeKeyPair raw) (run A B as (.start p)).2 = (.err .crypto, (run A B as (.start p)).2)) := by
  rcases alloc_eq (A := A) (B := B) (run_start hl as p) raw with ⟨h1, h2, -⟩ | ⟨-, h1, h2, -⟩ | ⟨h1, h2, h3⟩
  · exact .inl ⟨base, List.mem_cons_self, h1, h2⟩
  · exact .inl ⟨base + 1, List.mem_cons_of_mem _ List.mem_cons_self, h1, h2⟩
  · refine .inr ⟨fun h hh => ?_, h3⟩
    rcases reserved_iff.1 (reserved_mem.1 hh) with rfl | rfl
    · exact h1
    · exact h2

/-- **C55**. A key pair is made exactly for a handle in use and with buffers that are large enough; it is a new one. -/
theorem C55_pair (hl : Laws B) {n m : Nat} :
    (call A B (.makeKeyPair h n m) (run A B as (.start p)).2).1 = .ok o ↔
      (h ∈ reserved ∧ keyState (run A B as (.start p)).1 h ≠ .absent) ∧ 1632 ≤ n ∧ 800 ≤ m ∧ works (run A B as (.start p)).2 1 ∧
      o = .pair (B.kemPair ((run A B as (.start p)).2.psa.rand (run A B as (.start p)).2.psa.clock)).2
        (B.kemPair ((run A B as (.start p)).2.psa.rand (run A B as (.start p)).2.psa.clock)).1 := by
  rw [pair_eq hl (run_start hl as p), works_one]
  have hin : ((h = base ∧ keyState (run A B as (.start p)).1 base ≠ .absent) ∨
      (h = base + 1 ∧ keyState (run A B as (.start p)).1 (base + 1) ≠ .absent)) ↔
      (h ∈ reserved ∧ keyState (run A B as (.start p)).1 h ≠ .absent) := by
    rw [reserved_mem, reserved_iff]
    constructor
    · rintro (⟨rfl, hk⟩ | ⟨rfl, hk⟩)
      · exact ⟨.inl rfl, hk⟩
      · exact ⟨.inr rfl, hk⟩
    · rintro ⟨rfl | rfl, hk⟩
      · exact .inl ⟨rfl, hk⟩
      · exact .inr ⟨rfl, hk⟩
  simp only [hin]
  split
  · exact ⟨fun e => (by cases e), fun e => by omega⟩
  split
  · rename_i c; exact ⟨fun e => (by cases e), fun e => absurd e.1 c⟩
  split
  · rename_i c; simp only [dkLen, ekLen] at c; exact ⟨fun e => (by cases e), fun e => by omega⟩
  split
  · rename_i c; exact ⟨fun e => (by cases e), fun e => by rw [e.2.2.2.1] at c; cases c⟩
  · rename_i c1 c2 c3
    simp only [dkLen, ekLen] at c2
    constructor
    · intro e
      cases e
      exact ⟨Classical.not_not.1 c1, by omega, by omega, Bool.eq_false_iff.2 c3, rfl⟩
    · rintro ⟨-, -, -, -, rfl⟩
      rfl

/-- **C55**. Decapsulation with a handle of a key pair uses the private key of the last pair made for that handle, and fails if there is
none: a destroyed handle never works. -/
theorem C55_decapsulate (hl : Laws B) (hh : h ∈ reserved) {ct : Bytes} {n : Nat} :
    (call A B (.decapsulate h ct n) (run A B as (.start p)).2).1 = .ok o ↔
      ∃ dk, keyState (run A B as (.start p)).1 h = .holds dk ∧ ct.length = 768 ∧ 32 ≤ n ∧ works (run A B as (.start p)).2 1 ∧
        o = .bytes (B.kemDecaps dk ct) := by
  rw [decaps_slot (run_start hl as p) (reserved_mem.1 hh), works_one, pick_state hh (f := keyState (run A B as (.start p)).1)]
  generalize keyState (run A B as (.start p)).1 h = k
  generalize (run A B as (.start p)).2 = s
  split
  · rename_i c; exact ⟨fun e => (by cases e), fun ⟨_, _, e, _⟩ => absurd e c⟩
  rename_i c0
  split
  · rename_i c; exact ⟨fun e => (by cases e), fun ⟨_, _, _, e, _⟩ => absurd c (Nat.not_lt.2 e)⟩
  rename_i c1
  split
  · rename_i dk
    split
    · rename_i c; exact ⟨fun e => (by cases e), fun ⟨_, _, _, _, e, _⟩ => by rw [e] at c; cases c⟩
    · rename_i c
      constructor
      · intro e
        cases e
        exact ⟨dk, rfl, Classical.not_not.1 c0, Nat.not_lt.1 c1, Bool.eq_false_iff.2 c, rfl⟩
      · rintro ⟨_, e, -, -, -, rfl⟩
        cases e
        rfl
  · rename_i hx
    exact ⟨fun e => (by cases e), fun ⟨dk, e, _⟩ => absurd e (hx dk)⟩

/-- **C55**. Every other key gets a handle that belongs to no key pair and to no key in use. -/
theorem C55_distinct {s : State} (ht : t ≠ .makeKeyPair) (hi : call A B (.importKey t raw) s = (.ok (.handle h), s1)) :
    h ∉ reserved ∧ s.psa.find h = none := by
  obtain ⟨h1, -, h2, -⟩ := import_ok ht hi
  refine ⟨fun hh => ?_, h1⟩
  rw [reserved_mem, notSlot h2] at hh
  cases hh

/-- **C55**. Destroying a handle of a key pair succeeds. (That its memory is zero afterwards is `C55_memory`.) -/
theorem C55_destroy (hh : h ∈ reserved) {s : State} : (call A B (.destroyKey h) s).1 = .ok .done := by
  simp only [call, keyDestroy, if_pos (reserved_mem.1 hh)]
  have : ∃ s', slotFree h s = (.ok (), s') := by rw [slotFree]; split <;> exact ⟨_, rfl⟩
  obtain ⟨s', e⟩ := this
  rw [bind_run e]
  rfl

/-! ## C56: safety -/

/-- **C56**. No call has undefined behaviour, after any history. -/
theorem C56_defined (hl : Laws B) (c : Call) (u : UB) : (call A B c (run A B as (.start p)).2).1 ≠ .ub u :=
  call_noUb hl c _ (run_start hl as p) u

end Handles

/-- **C56**. A call that succeeds lost no failure of PSA, liboqs or XKCP on the way. -/
theorem C56_no_failure_lost {s s' : State} {c : Call} (hc : call A B c s = (.ok o, s')) :
    ∀ i, s.psa.clock ≤ i → i < s'.psa.clock → s.psa.fault i = false := (call_sees c s o s' hc).2.2

/-- **C56**. Results fit into the buffers of the caller. -/
theorem C56_fits (hl : Laws B) {s s' : State} {c : Call} (hc : call A B c s = (.ok o, s')) : Spec.Pqc.fits c o := by
  cases c with
  | importKey t raw =>
    obtain ⟨_, _, -, h⟩ := mbind_ok.1 hc
    obtain ⟨rfl, -⟩ := mpure_ok.1 h
    trivial
  | destroyKey i =>
    obtain ⟨_, _, -, h⟩ := mbind_ok.1 hc
    obtain ⟨rfl, -⟩ := mpure_ok.1 h
    trivial
  | makeKeyPair i n m =>
    obtain ⟨_, _, hp, h3⟩ := mbind_ok.1 hc
    clear hc
    obtain ⟨rfl, -⟩ := mpure_ok.1 h3
    have hc := hp
    unfold makePair at hc
    obtain ⟨_, _, -, hc⟩ := mbind_ok.1 hc
    obtain ⟨_, _, -, hc⟩ := mbind_ok.1 hc
    obtain ⟨_, _, h0, hc⟩ := mbind_ok.1 hc
    obtain ⟨_, _, -, hc⟩ := mbind_ok.1 hc
    obtain ⟨k, _, hk, hc⟩ := mbind_ok.1 hc
    obtain ⟨-, hk, -⟩ := oqs_ok.1 hk
    cases hk
    cases hc
    obtain ⟨h0, -⟩ := mrequire_ok.1 h0
    simp only [Bool.and_eq_true, decide_eq_true_eq] at h0
    obtain ⟨h1, h2⟩ := h0
    exact ⟨by rw [hl.dk]; exact h1, by rw [hl.ek]; exact h2⟩
  | encapsulate ek n m =>
    obtain ⟨-, -, h1, h2, rfl⟩ := C54_encapsulate.1 (show (call A B _ s).1 = _ by rw [hc])
    exact ⟨by rw [hl.ct]; exact h1, by rw [hl.ss]; exact h2⟩
  | decapsulate i ct n =>
    simp only [call, decapsulate, mbind_ok, mrequire_ok, mguard_ok, mpure_ok, decide_eq_true_eq, beq_iff_eq, oqs_ok,
      Option.some.injEq] at hc
    obtain ⟨_, _, ⟨_, _, -, _, _, ⟨h1, -⟩, _, _, -, _, _, -, _, _, -, -, rfl, -⟩, rfl, -⟩ := hc
    show _ ≤ _
    rw [hl.ss']; exact h1
  | sign i g n =>
    simp only [call, signInput, mbind_ok, mrequire_ok, mguard_ok, mpure_ok, decide_eq_true_eq, beq_iff_eq, oqs_ok,
      Option.some.injEq] at hc
    obtain ⟨_, _, ⟨_, _, ⟨h1, -⟩, _, _, -, _, _, -, _, _, -, -, rfl, -⟩, rfl, -⟩ := hc
    show _ ≤ _
    rw [hl.sig]; exact h1
  | verify i g q =>
    obtain ⟨_, _, -, h⟩ := mbind_ok.1 hc
    obtain ⟨rfl, -⟩ := mpure_ok.1 h
    trivial
  | extract i g n =>
    simp only [call, extractKey, kdfKmac, mbind_ok, mrequire_ok, mguard_ok, mpure_ok, decide_eq_true_eq, oqs_ok,
      Option.some.injEq] at hc
    obtain ⟨_, _, ⟨_, _, -, _, _, ⟨h1, -⟩, _, _, -, _, _, -, _, _, -, -, rfl, -⟩, rfl, -⟩ := hc
    show _ ≤ _
    rw [hl.kmac]; exact h1
  | expand i g n =>
    simp only [call, expandKey, kdfKmac, mbind_ok, mrequire_ok, mpure_ok, oqs_ok, Option.some.injEq] at hc
    obtain ⟨_, _, ⟨_, _, -, _, _, -, _, _, -, -, rfl, -⟩, rfl, -⟩ := hc
    exact hl.kmac _ _ _ _
  | encrypt i iv ad q n =>
    simp only [call, encryptText, mbind_ok, lift_ok, Psa.aeadEncrypt, Psa.query_ok, mpure_ok, ccm, Option.bind_eq_some_iff] at hc
    obtain ⟨_, _, ⟨_, ⟨-, ⟨k, -, h⟩, -⟩, -⟩, rfl, -⟩ := hc
    split at h
    · rename_i h1
      simp only [Bool.and_eq_true, decide_eq_true_eq] at h1
      exact h1.2
    · cases h
  | decrypt i iv ad q n =>
    simp only [call, decryptText, mbind_ok, lift_ok, Psa.aeadDecrypt, Psa.query_ok, mpure_ok, ccm, Option.bind_eq_some_iff] at hc
    obtain ⟨_, _, ⟨_, ⟨-, ⟨k, -, h⟩, -⟩, -⟩, rfl, -⟩ := hc
    split at h
    · rename_i h1
      simp only [Bool.and_eq_true] at h1
      have h2 : q.length - aeadTagLen ≤ n := of_decide_eq_true h1.2
      simp only [aeadTagLen] at h2
      show q.length ≤ n + 16
      omega
    · cases h
  | hash g n =>
    obtain ⟨h1, rfl⟩ := C54_hash.1 (show (call A B _ s).1 = _ by rw [hc])
    show _ ≤ _
    rw [hl.shake]; exact h1

/-! ## C57: a key has one use -/

/-- what a call that uses a key and succeeds needs of a key in PSA -/
theorem use_needs {s s' : State} {c : Call} {u : KeyType} {k : Key} (hc : call A B c s = (.ok o, s')) (hu : use c = some (u, h))
    (hh : isSlotHandle h = false) (hk : s.psa.find h = some k) :
    match u with
    | .makeKeyPair => False
    | .keyAgreement => .export ∈ k.attr.usage ∧ k.data.length = 1632
    | .signature => .export ∈ k.attr.usage ∧ k.data.length = 2560
    | .verify => .export ∈ k.attr.usage ∧ k.data.length = 1312
    | .extract => .export ∈ k.attr.usage ∧ k.data.length ≤ 256
    | .expand => .export ∈ k.attr.usage ∧ k.data.length ≤ 64
    | .encrypt => .encrypt ∈ k.attr.usage
    | .decrypt => .decrypt ∈ k.attr.usage := by
  have hx : ∀ {n : Nat} {s2 s3 : State} {b : Bytes}, s2.psa.find h = some k → exportRaw h n s2 = (.ok b, s3) →
      .export ∈ k.attr.usage ∧ k.data.length ≤ n ∧ b = k.data := by
    intro n s2 s3 b hk2 he
    obtain ⟨-, ⟨k', hk', h1, h2, h3⟩, -⟩ := (export_ok hh).1 he
    rw [hk2] at hk'
    cases hk'
    exact ⟨h1, h2, h3⟩
  cases c with
  | importKey | destroyKey | encapsulate | hash => cases hu
  | makeKeyPair i n m =>
    cases hu
    obtain ⟨_, _, hc, -⟩ := mbind_ok.1 hc
    unfold makePair at hc
    obtain ⟨_, _, -, hc⟩ := mbind_ok.1 hc
    obtain ⟨_, _, h1, -⟩ := mbind_ok.1 hc
    rw [slotFromHandle, if_neg (by rw [hh]; exact Bool.false_ne_true)] at h1
    cases h1
  | decapsulate i ct n =>
    cases hu
    simp only [call, decapsulate, mbind_ok, mrequire_ok, beq_iff_eq] at hc
    obtain ⟨_, _, ⟨_, _, ⟨-, rfl⟩, _, _, ⟨-, rfl⟩, _, _, he, _, _, ⟨h1, -⟩, -⟩, -⟩ := hc
    obtain ⟨h2, -, rfl⟩ := hx hk he
    exact ⟨h2, h1⟩
  | sign i g n =>
    cases hu
    simp only [call, signInput, mbind_ok, mrequire_ok, beq_iff_eq] at hc
    obtain ⟨_, _, ⟨_, _, ⟨-, rfl⟩, _, _, he, _, _, ⟨h1, -⟩, -⟩, -⟩ := hc
    obtain ⟨h2, -, rfl⟩ := hx hk he
    exact ⟨h2, h1⟩
  | verify i g q =>
    cases hu
    simp only [call, verifyInput, mbind_ok, mrequire_ok, beq_iff_eq] at hc
    obtain ⟨_, _, ⟨_, _, he, _, _, ⟨h1, -⟩, -⟩, -⟩ := hc
    obtain ⟨h2, -, rfl⟩ := hx hk he
    exact ⟨h2, h1⟩
  | extract i g n =>
    cases hu
    simp only [call, extractKey, mbind_ok, mrequire_ok] at hc
    obtain ⟨_, _, ⟨_, _, ⟨-, rfl⟩, _, _, ⟨-, rfl⟩, _, _, he, -⟩, -⟩ := hc
    obtain ⟨h2, h1, -⟩ := hx hk he
    exact ⟨h2, h1⟩
  | expand i g n =>
    cases hu
    simp only [call, expandKey, mbind_ok, mrequire_ok] at hc
    obtain ⟨_, _, ⟨_, _, ⟨-, rfl⟩, _, _, he, -⟩, -⟩ := hc
    obtain ⟨h2, h1, -⟩ := hx hk he
    exact ⟨h2, h1⟩
  | encrypt i iv ad q n =>
    cases hu
    simp only [call, encryptText, mbind_ok, lift_ok, Psa.aeadEncrypt, Psa.query_ok, Option.bind_eq_some_iff, Store.permitted] at hc
    obtain ⟨_, _, ⟨_, ⟨-, ⟨k', ⟨k2, hk2, h1⟩, -⟩, -⟩, -⟩, -⟩ := hc
    rw [hk] at hk2
    cases hk2
    split at h1
    · rename_i h2
      simp only [Bool.and_eq_true, List.contains_iff_mem] at h2
      exact h2.1
    · cases h1
  | decrypt i iv ad q n =>
    cases hu
    simp only [call, decryptText, mbind_ok, lift_ok, Psa.aeadDecrypt, Psa.query_ok, Option.bind_eq_some_iff, Store.permitted] at hc
    obtain ⟨_, _, ⟨_, ⟨-, ⟨k', ⟨k2, hk2, h1⟩, -⟩, -⟩, -⟩, -⟩ := hc
    rw [hk] at hk2
    cases hk2
    split at h1
    · rename_i h2
      simp only [Bool.and_eq_true, List.contains_iff_mem] at h2
      exact h2.1
    · cases h1

/-- **C57**, partial. A key of the length of its use works, at any time, for that use only, except that one for Extract may work for
Expand and conversely. -/
theorem C57_separated_partial (ht : t ≠ .makeKeyPair) (hp : properLen t raw.length)
    (hi : call A B (.importKey t raw) s0 = (.ok (.handle h), s1)) (hs : Stays h s1 as) {c : Call} {u : KeyType} {s' : State}
    (hu : use c = some (u, h)) (hc : call A B c (run A B as s1).2 = (.ok o, s')) :
    u = t ∨ (t = .extract ∧ u = .expand) ∨ (t = .expand ∧ u = .extract) := by
  obtain ⟨hk, hh⟩ := kept ht hi hs
  have := use_needs hc hu hh hk
  cases t <;> cases u <;> simp_all [properLen, attrOf] <;> omega

/-- **C57**. The private key of a key pair works for decapsulation, and not for a signature, a verification or a key derivation. -/
theorem C57_key_pair (hl : Laws B) {p : Store} {c : Call} {u : KeyType} (hh : h ∈ reserved) (hu : use c = some (u, h))
    (hx : u = .signature ∨ u = .verify ∨ u = .extract ∨ u = .expand) (o : Out) : (call A B c (run A B as (.start p)).2).1 ≠ .ok o := by
  have hm := run_start (A := A) hl as p
  generalize (run A B as (.start p)).2 = s at hm
  have hr := reserved_mem.1 hh
  have hz : Sized (pick h (keyState (run A B as (.start p)).1 base) (keyState (run A B as (.start p)).1 (base + 1))) := by
    rw [pick]; split
    · exact hm.2.1
    · exact hm.2.2
  have hx' : ∀ {n : Nat} {s3 : State} {b : Bytes}, exportRaw h n s = (.ok b, s3) → 1632 ≤ n ∧ b.length = 1632 := by
    intro n s3 b he
    rw [export_slot hm hr] at he
    split at he
    · rename_i e
      rw [e] at hz
      split at he
      · cases he
      · rename_i c; cases he; exact ⟨Nat.not_lt.1 c, hz⟩
    · cases he
  intro hc
  obtain ⟨s', hc⟩ := fst_ok.1 hc
  cases c with
  | sign i g n =>
    cases hu
    simp only [call, signInput, mbind_ok, mrequire_ok, beq_iff_eq] at hc
    obtain ⟨_, _, ⟨_, _, ⟨-, rfl⟩, _, _, he, _, _, ⟨h1, -⟩, -⟩, -⟩ := hc
    rw [(hx' he).2] at h1
    cases h1
  | verify i g q =>
    cases hu
    simp only [call, verifyInput, mbind_ok, mrequire_ok, beq_iff_eq] at hc
    obtain ⟨_, _, ⟨_, _, he, -⟩, -⟩ := hc
    exact absurd (hx' he).1 (by decide)
  | extract i g n =>
    cases hu
    simp only [call, extractKey, mbind_ok, mrequire_ok] at hc
    obtain ⟨_, _, ⟨_, _, ⟨-, rfl⟩, _, _, ⟨-, rfl⟩, _, _, he, -⟩, -⟩ := hc
    exact absurd (hx' he).1 (by decide)
  | expand i g n =>
    cases hu
    simp only [call, expandKey, mbind_ok, mrequire_ok] at hc
    obtain ⟨_, _, ⟨_, _, ⟨-, rfl⟩, _, _, he, -⟩, -⟩ := hc
    exact absurd (hx' he).1 (by decide)
  | importKey | destroyKey | encapsulate | hash => cases hu
  | makeKeyPair | decapsulate | encrypt | decrypt => cases hu; simp at hx

/-- **C57** is violated: suites 0 to 3 bind a key to its use with the policy of PSA; here keys for Extract and Expand are
interchangeable, and keys for a signature, a verification or a decapsulation are told apart by their length only. -/
theorem C57_violated :
    (∃ (A : Algs) (B : PqAlgs) (s0 s1 s' : State) (h : Nat) (raw info : Bytes) (o : Out), Laws B ∧ properLen .extract raw.length ∧
      call A B (.importKey .extract raw) s0 = (.ok (.handle h), s1) ∧ call A B (.expand h info 16) s1 = (.ok o, s')) ∧
    (∃ (A : Algs) (B : PqAlgs) (s0 s1 s' : State) (h : Nat) (raw ct : Bytes) (o : Out), Laws B ∧
      call A B (.importKey .verify raw) s0 = (.ok (.handle h), s1) ∧ call A B (.decapsulate h ct 32) s1 = (.ok o, s')) := by
  constructor
  · refine ⟨Psa.Toy.algs, Toy.pq, Toy.start, Toy.imported .extract [1, 2], _, 0x40000000, [1, 2], [3],
      .bytes (kmac Toy.pq [1, 2] [3] 16), Toy.pq_laws, show 0 < 2 ∧ 2 ≤ 256 by decide, Toy.imported_ok ?_, ok_snd ?_⟩ <;> decide +kernel
  · obtain ⟨raw, hr⟩ : ∃ raw : Bytes, raw = List.replicate 1632 1 := ⟨_, rfl⟩
    refine ⟨Psa.Toy.algs, Toy.pq, Toy.start, Toy.imported .verify raw, (call Psa.Toy.algs Toy.pq (.decapsulate 0x40000000
      (List.replicate 768 2) 32) (Toy.imported .verify raw)).2, 0x40000000, raw,
      List.replicate 768 2, .bytes (List.replicate 32 3), Toy.pq_laws, Toy.imported_ok ?_, ok_snd ?_⟩ <;> subst hr <;>
      decide +kernel

/-! ## Examples -/

section Examples

open Verif.Pqc.Toy

example : ∃ o, (call Psa.Toy.algs pq (.sign 0x40000000 [7] 2420) (run Psa.Toy.algs pq later (imported .signature
    (List.replicate 2560 3))).2).1 = .ok o :=
  ⟨_, (C54_sign (imported_ok (by decide +kernel)) (later_stays _)).2 ⟨by decide +kernel, by decide +kernel,
    by decide, rfl⟩⟩

example : (call Psa.Toy.algs pq (.verify 0x40000000 [7] (0 :: Psa.Toy.stretch 2419 [3, 7])) (run Psa.Toy.algs pq later (imported .verify
    (List.replicate 1312 3))).2).1 = .ok .done :=
  (C54_verify (imported_ok (by decide +kernel)) (later_stays _)).2 ⟨by decide +kernel, by decide +kernel,
    by decide +kernel, rfl⟩

example : ∃ o, (call Psa.Toy.algs pq (.extract 0x40000000 [7] 64) (run Psa.Toy.algs pq later (imported .extract [1, 2, 3])).2).1 = .ok o :=
  ⟨_, (C54_extract (imported_ok (by decide +kernel)) (later_stays _)).2 ⟨by decide +kernel, by decide, by decide,
    by decide, rfl⟩⟩

example : ∃ o, (call Psa.Toy.algs pq (.expand 0x40000000 [7] 70) (run Psa.Toy.algs pq later (imported .expand [1, 2, 3])).2).1 = .ok o :=
  ⟨_, (C54_expand (imported_ok (by decide +kernel)) (later_stays _)).2 ⟨by decide +kernel, by decide, by decide,
    by decide, rfl⟩⟩

example : ∃ o, (call Psa.Toy.algs pq (.decapsulate 0x40000000 (List.replicate 768 5) 32) (run Psa.Toy.algs pq later
    (imported .keyAgreement (List.replicate 1632 3))).2).1 = .ok o :=
  ⟨_, (C54_decapsulate (imported_ok (by decide +kernel)) (later_stays _)).2 ⟨by decide +kernel, by decide +kernel,
    by decide, by decide +kernel, rfl⟩⟩

example : ∃ o, (call Psa.Toy.algs pq (.encrypt 0x40000000 (List.replicate 13 0) [1] [2, 3] 18) (run Psa.Toy.algs pq later
    (imported .encrypt (List.replicate 16 3))).2).1 = .ok o :=
  ⟨_, (C54_encrypt (imported_ok (by decide +kernel)) (later_stays _)).2 ⟨by decide +kernel, by decide, by decide,
    by decide, by decide, rfl⟩⟩

example : (call Psa.Toy.algs pq (.decrypt 0x40000000 (List.replicate 13 0) [1] ([2, 3] ++ Psa.Toy.stretch 16 (List.replicate 16 3 ++
    List.replicate 13 0 ++ [1])) 2) (run Psa.Toy.algs pq later (imported .decrypt (List.replicate 16 3))).2).1 = .ok (.bytes [2, 3]) :=
  (C54_decrypt (imported_ok (by decide +kernel)) (later_stays _)).2 ⟨by decide +kernel, by decide +kernel, by decide,
    by decide, by decide +kernel, by decide +kernel, [2, 3], by decide +kernel, rfl⟩

example : (call Psa.Toy.algs pq (.hash [1] 64) start).1 = .ok (.bytes (pq.shake256 [1] 64)) := C54_hash.2 ⟨by decide, rfl⟩

example : ∃ o, (call Psa.Toy.algs pq (.importKey .decrypt (List.replicate 16 3)) start).1 = .ok o :=
  (C54_import (by decide)).2 ⟨by decide +kernel, by decide +kernel, by decide⟩

/-- a key pair of the first handle -/
def pairOf : State := (call Psa.Toy.algs pq (.makeKeyPair 0x3FFFFFFE 1632 800) (run Psa.Toy.algs pq busy (.start psa)).2).2

/-- what happens until the secret is needed: everything but a new pair for the handle, or its destruction -/
def meanwhile : List Act := [.call (.destroyKey 0x3FFFFFFF), .call (.importKey .makeKeyPair []), .call (.makeKeyPair 0x3FFFFFFF 1632 800),
  .call (.importKey .makeKeyPair [])]

example : (call Psa.Toy.algs pq (.decapsulate 0x3FFFFFFE (List.replicate 768 5) 32) (run Psa.Toy.algs pq meanwhile pairOf).2).1 =
    .ok (.bytes (List.replicate 32 13)) := by
  refine C54_agreement pq_laws (n := 1632) (m := 800) (n' := 768) (m' := 32) (dk := List.replicate 1632 8) (ek := List.replicate 800 8)
    (before := busy) (p := psa) (A' := Psa.Toy.algs) (s := start) (s' := (call Psa.Toy.algs pq (.encapsulate (List.replicate 800 8) 768 32)
    start).2) (ok_snd ?_) ?_ (ok_snd ?_) (by decide) ?_
  · decide +kernel
  · intro a ha
    simp only [meanwhile, List.mem_cons, List.not_mem_nil, or_false] at ha
    rcases ha with rfl | rfl | rfl | rfl <;> simp
  · decide +kernel
  · decide +kernel

/-- both handles are in use, with different keys -/
example : known busy = [.holds (List.replicate 1632 7), .holds (List.replicate 1632 6)] := by decide +kernel

/-- a key pair, and a handle without one -/
example : known (busy.take 3) = [.holds (List.replicate 1632 5), .empty] := by decide +kernel

/-- a third handle is refused -/
example : call Psa.Toy.algs pq (.importKey .makeKeyPair []) (run Psa.Toy.algs pq busy start).2 =
    (.err .crypto, (run Psa.Toy.algs pq busy start).2) :=
  (C55_new pq_laws (A := Psa.Toy.algs) (as := busy) (p := psa) (raw := [])).resolve_left (by
    rintro ⟨h, hh, h1, -⟩
    simp only [reserved, List.mem_cons, List.not_mem_nil, or_false] at hh
    revert h1
    rcases hh with rfl | rfl <;> decide +kernel) |>.2

/-- after its destruction a handle does not work -/
example (o : Out) : (call Psa.Toy.algs pq (.decapsulate 0x3FFFFFFE (List.replicate 768 5) 32)
    (run Psa.Toy.algs pq (busy.take 5) (.start psa)).2).1 ≠ .ok o := by
  rw [Ne, C55_decapsulate pq_laws (by decide)]
  rintro ⟨dk, h, -⟩
  rw [show keyState (run Psa.Toy.algs pq (busy.take 5) (.start psa)).1 0x3FFFFFFE = .absent by decide +kernel] at h
  cases h

example : ∃ o, (call Psa.Toy.algs pq (.makeKeyPair 0x3FFFFFFE 1632 800) (run Psa.Toy.algs pq busy (.start psa)).2).1 = .ok o :=
  ⟨_, (C55_pair pq_laws).2 ⟨⟨by decide, by decide +kernel⟩, by decide, by decide, by decide +kernel, rfl⟩⟩

example : 0x40000000 ∉ reserved ∧ start.psa.find 0x40000000 = none :=
  C55_distinct (t := .expand) (raw := [1, 2, 3]) (by decide) (imported_ok (by decide +kernel))

/-- a success with two calls below, and one that fails because the second of them does -/
example : (call Psa.Toy.algs pq (.expand 0x40000000 [7] 70) (imported .expand [1, 2, 3])).2.psa.clock = 3 ∧
    (call Psa.Toy.algs pq (.expand 0x40000000 [7] 70)
      { imported .expand [1, 2, 3] with psa := { (imported .expand [1, 2, 3]).psa with clock := 99 } }).1 = .err .crypto := by
  decide +kernel

/-- a key for a signature, used for Extract -/
example (o : Out) : (call Psa.Toy.algs pq (.extract 0x40000000 [7] 64) (run Psa.Toy.algs pq later (imported .signature
    (List.replicate 2560 3))).2).1 ≠ .ok o := by
  intro hc
  obtain ⟨s', hc⟩ := fst_ok.1 hc
  have := C57_separated_partial (t := .signature) (by decide) (show (List.replicate 2560 3).length = 2560 by decide +kernel) (imported_ok (by decide +kernel)) (later_stays _)
    (u := .extract) rfl hc
  revert this
  decide

end Examples

end Verif.Pqc
