import Verif.Suite.Logic
import Verif.SpecSuite

/-!
# What the callbacks of a shipped suite do when they succeed
-/

namespace Verif.Psa

open P Spec

variable {α β : Type} {A : Algs} {q : Params} {s s' : Store}

/-! ## They only read -/

macro "reads" : tactic => `(tactic| repeat' (first
  | with_reducible exact Reads.query _ | with_reducible exact Reads.pure _
  | with_reducible exact Reads.require _ _ | with_reducible exact Reads.guard _ _
  | with_reducible apply Reads.bind | with_reducible intro _ | split))

theorem reads_makePair (id n m : Nat) : Reads (makePair A q id n m) := by
  unfold makePair exportKey exportPublicKey generateRandom; reads

theorem reads_keyAgree (id : Nat) (peer : Bytes) (n : Nat) : Reads (keyAgree A q id peer n) := by
  unfold keyAgree exportKey getAttr rawKeyAgreement; reads

theorem reads_hash (b : Bytes) (n : Nat) : Reads (hashInput A q b n) := by
  unfold hashInput hashCompute; reads

theorem reads_sign (id : Nat) (b : Bytes) (n : Nat) : Reads (signInput A q id b n) := by
  unfold signInput hashInput hashCompute exportKey getAttr signHash; reads

theorem reads_verify (id : Nat) (b sig : Bytes) : Reads (verifyInput A q id b sig) := by
  unfold verifyInput hashInput hashCompute exportKey getAttr verifyHash; reads

theorem reads_extract (id : Nat) (salt : Bytes) (n : Nat) : Reads (extractKey A id salt n) := by
  unfold extractKey getAttr derivSetup derivSalt derivSecret derivCapacity derivOutput; reads

theorem reads_expand (id : Nat) (info : Bytes) (n : Nat) : Reads (expandKey A id info n) := by
  unfold expandKey getAttr derivSetup derivInfo derivSecret derivCapacity derivOutput; reads

theorem reads_encrypt (id : Nat) (iv ad p : Bytes) (n : Nat) : Reads (encryptText A id iv ad p n) := by
  unfold encryptText getAttr aeadEncrypt; reads

theorem reads_decrypt (id : Nat) (iv ad c : Bytes) (n : Nat) : Reads (decryptText A id iv ad c n) := by
  unfold decryptText getAttr aeadDecrypt; reads

theorem Reads.find {m : P α} (h : Reads m) (s : Store) (i : Nat) : (m s).2.find i = s.find i := by
  obtain ⟨n, h, -⟩ := h s
  rw [h]; rfl

/-! ## Results -/

theorem hash_ok {b h : Bytes} {n : Nat} (hs : hashInput A q b n s = (.ok h, s')) :
    h = A.hash q.hash b ∧ b ≠ [] := by
  simp only [hashInput, hashCompute, pbind_ok, prequire_ok, query_ok] at hs
  obtain ⟨_, s1, ⟨hr, rfl⟩, -, h1, -⟩ := hs
  simp only [Bool.and_eq_true, bne_iff_ne, ne_eq] at hr
  split at h1
  · simp only [Option.some.injEq] at h1
    exact ⟨h1.symm, fun h => hr.1 (by simp [h])⟩
  · cases h1

theorem extract_ok {id n : Nat} {salt o : Bytes} (hs : extractKey A id salt n s = (.ok o, s')) :
    ∃ k h, s.find id = some k ∧ k.attr.alg = .hkdfExtract h ∧ k.attr.kind = .derive ∧ n ≤ h.len ∧
      o = (A.hkdfExtract h salt k.data).take n := by
  simp only [extractKey, getAttr, derivSetup, derivSalt, derivSecret, derivCapacity, derivOutput, pbind_ok, prequire_ok,
    query_ok] at hs
  obtain ⟨_, s1, ⟨hr, rfl⟩, attr, _, ⟨-, ha, rfl⟩, d1, _, ⟨-, hd1, rfl⟩, d2, _, ⟨-, hd2, rfl⟩, d3, _, ⟨-, hd3, rfl⟩, d4, _,
    ⟨-, hd4, rfl⟩, -, ho, -⟩ := hs
  simp only [Option.map_eq_some_iff] at ha
  obtain ⟨k, hk, rfl⟩ := ha
  split at hd1
  · next h hh =>
    simp only [Option.some.injEq] at hd1
    subst hd1
    simp only [hh, Option.some.injEq] at hd2
    subst hd2
    simp only [Store.tick_permitted, hh, Option.bind_eq_some_iff] at hd3
    obtain ⟨k', hp, hd3⟩ := hd3
    obtain ⟨hf, -, ha⟩ := permitted_ok hp
    rw [hk] at hf
    cases hf
    split at hd3
    · cases hd3
    next hkind =>
    simp only [Option.some.injEq] at hd3
    subst hd3
    split at hd4
    · next hn =>
      simp only [Option.some.injEq] at hd4
      subst hd4
      simp only [Nat.lt_irrefl, if_false, Option.some.injEq] at ho
      exact ⟨k, h, hk, hh, by simpa using hkind, hn, ho.symm⟩
    · cases hd4
  · next h hh =>
    simp only [Option.some.injEq] at hd1
    subst hd1
    simp [hh] at hd2
  · cases hd1

theorem expand_ok {id n : Nat} {info o : Bytes} (hs : expandKey A id info n s = (.ok o, s')) :
    ∃ k h, s.find id = some k ∧ k.attr.alg = .hkdfExpand h ∧ k.attr.kind = .derive ∧ n ≤ 255 * h.len ∧
      o = A.hkdfExpand h k.data info n := by
  simp only [expandKey, getAttr, derivSetup, derivInfo, derivSecret, derivCapacity, derivOutput, pbind_ok, prequire_ok,
    query_ok] at hs
  obtain ⟨_, s1, ⟨hr, rfl⟩, attr, _, ⟨-, ha, rfl⟩, d1, _, ⟨-, hd1, rfl⟩, d2, _, ⟨-, hd2, rfl⟩, d3, _, ⟨-, hd3, rfl⟩, d4, _,
    ⟨-, hd4, rfl⟩, -, ho, -⟩ := hs
  simp only [Option.map_eq_some_iff] at ha
  obtain ⟨k, hk, rfl⟩ := ha
  split at hd1
  · next h hh =>
    simp only [Option.some.injEq] at hd1
    subst hd1
    simp only [Store.tick_permitted, hh, Option.bind_eq_some_iff] at hd2
    obtain ⟨k', hp, hd2⟩ := hd2
    split at hd2 <;> cases hd2
  · next h hh =>
    simp only [Option.some.injEq] at hd1
    subst hd1
    simp only [Store.tick_permitted, hh, Option.bind_eq_some_iff] at hd2
    obtain ⟨k', hp, hd2⟩ := hd2
    obtain ⟨hf, -, ha⟩ := permitted_ok hp
    rw [hk] at hf
    cases hf
    split at hd2
    · cases hd2
    next hkind =>
    split at hd2
    · simp only [Option.some.injEq] at hd2
      subst hd2
      simp only [hh, Option.some.injEq] at hd3
      subst hd3
      split at hd4
      · next hn =>
        simp only [Option.some.injEq] at hd4
        subst hd4
        simp only [Nat.lt_irrefl, if_false, Option.some.injEq] at ho
        exact ⟨k, h, hk, hh, by simpa using hkind, hn, ho.symm⟩
      · cases hd4
    · cases hd2
  · cases hd1

theorem encrypt_ok {id n : Nat} {iv ad p c : Bytes} (hs : encryptText A id iv ad p n s = (.ok c, s')) :
    ∃ k b t, s.find id = some k ∧ k.attr.alg = .aead b t ∧ Usage.encrypt ∈ k.attr.usage ∧ k.attr.kind = aeadKind b ∧
      c = A.enc b t k.data iv ad p := by
  simp only [encryptText, getAttr, aeadEncrypt, pbind_ok, prequire_ok, query_ok] at hs
  obtain ⟨_, s1, ⟨hr, rfl⟩, attr, _, ⟨-, ha, rfl⟩, -, hp, -⟩ := hs
  simp only [Option.map_eq_some_iff] at ha
  obtain ⟨k, hk, rfl⟩ := ha
  simp only [Store.tick_permitted, Option.bind_eq_some_iff] at hp
  obtain ⟨k', hp, ho⟩ := hp
  obtain ⟨hf, hu, -⟩ := permitted_ok hp
  rw [hk] at hf
  cases hf
  split at ho
  · next b t hh =>
    split at ho
    · next hc =>
      simp only [Option.some.injEq] at ho
      simp only [Bool.and_eq_true, beq_iff_eq] at hc
      exact ⟨k, b, t, hk, hh, hu, hc.1.1, ho.symm⟩
    · cases ho
  · cases ho

theorem decrypt_ok {id n : Nat} {iv ad p c : Bytes} (hs : decryptText A id iv ad c n s = (.ok p, s')) :
    ∃ k b t, s.find id = some k ∧ k.attr.alg = .aead b t ∧ Usage.decrypt ∈ k.attr.usage ∧ k.attr.kind = aeadKind b ∧
      t ≤ c.length ∧ A.dec b t k.data iv ad c = some p := by
  simp only [decryptText, getAttr, aeadDecrypt, pbind_ok, prequire_ok, query_ok] at hs
  obtain ⟨_, s1, ⟨hr, rfl⟩, attr, _, ⟨-, ha, rfl⟩, -, hp, -⟩ := hs
  simp only [Option.map_eq_some_iff] at ha
  obtain ⟨k, hk, rfl⟩ := ha
  simp only [Store.tick_permitted, Option.bind_eq_some_iff] at hp
  obtain ⟨k', hp, ho⟩ := hp
  obtain ⟨hf, hu, -⟩ := permitted_ok hp
  rw [hk] at hf
  cases hf
  split at ho
  · next b t hh =>
    split at ho
    · next hc =>
      simp only [Bool.and_eq_true, beq_iff_eq, decide_eq_true_eq] at hc
      exact ⟨k, b, t, hk, hh, hu, hc.1.1.1, hc.1.1.2, ho⟩
    · cases ho
  · cases ho

theorem exportKey_ok {id n : Nat} {b : Bytes} (hs : exportKey id n s = (.ok b, s')) :
    ∃ k, s.find id = some k ∧ Usage.export ∈ k.attr.usage ∧ k.data = b ∧ b.length ≤ n ∧ s' = s.tick := by
  obtain ⟨-, h, h'⟩ := query_ok.1 hs
  simp only [Option.bind_eq_some_iff] at h
  obtain ⟨k, hk, h⟩ := h
  split at h
  · next hc =>
    simp only [Bool.and_eq_true, List.contains_iff_mem, decide_eq_true_eq] at hc
    simp only [Option.some.injEq] at h
    subst h
    exact ⟨k, hk, hc.1, rfl, hc.2, h'⟩
  · cases h

theorem exportPublicKey_ok {id n : Nat} {b : Bytes} (hs : exportPublicKey A id n s = (.ok b, s')) :
    ∃ k, s.find id = some k ∧ k.attr.kind = .eccKeyPair ∧ b = A.ecPub k.attr.bits k.data ∧ b.length ≤ n ∧ s' = s.tick := by
  obtain ⟨-, h, h'⟩ := query_ok.1 hs
  simp only [Option.bind_eq_some_iff] at h
  obtain ⟨k, hk, h⟩ := h
  split at h
  · next hc =>
    simp only [Bool.and_eq_true, beq_iff_eq, decide_eq_true_eq] at hc
    simp only [Option.some.injEq] at h
    subst h
    exact ⟨k, hk, hc.1, rfl, hc.2, h'⟩
  · cases h

/-- suites 0 and 4 -/
theorem makePair_ok_x {id n m : Nat} {x gx : Bytes} (hq : q.curve = none)
    (hs : makePair A q id n m s = (.ok (x, gx), s')) :
    ∃ seed, seed.length = 32 ∧ x = clamp seed ∧ gx = A.x25519 basePoint (clamp seed) := by
  simp only [makePair, hq, generateRandom, pbind_ok, prequire_ok, query_ok, ppure_ok] at hs
  obtain ⟨_, s1, ⟨hr, rfl⟩, _, _, ⟨hn, rfl⟩, seed, _, ⟨-, h1, rfl⟩, h2, -⟩ := hs
  simp only [Option.some.injEq] at h1
  cases h2
  refine ⟨seed, ?_, rfl, rfl⟩
  rw [← h1, Store.random, fitLen, List.length_append, List.length_take, List.length_replicate]
  omega

/-- suites 2 and 24 -/
theorem makePair_ok_ec {id n m : Nat} {x gx : Bytes} {c : Curve} (hq : q.curve = some c)
    (hs : makePair A q id n m s = (.ok (x, gx), s')) :
    ∃ k, s.find id = some k ∧ Usage.export ∈ k.attr.usage ∧ k.attr.kind = .eccKeyPair ∧ x = k.data ∧ x.length = c.len ∧
      m ≤ 2 * c.len ∧ gx = ((fitLen (2 * c.len + 1) (A.ecPub k.attr.bits k.data)).drop 1).take m := by
  simp only [makePair, hq, pbind_ok, prequire_ok, pguard_ok, ppure_ok] at hs
  obtain ⟨_, s1, ⟨hr, rfl⟩, priv, _, h1, _, _, ⟨hl, rfl⟩, pub, _, h2, _, _, ⟨hm, rfl⟩, h3, -⟩ := hs
  obtain ⟨k, hk, hu, hd, -, rfl⟩ := exportKey_ok h1
  obtain ⟨k', hk', hkind, hp, -, -⟩ := exportPublicKey_ok h2
  rw [Store.tick_find, hk] at hk'
  cases hk'
  cases h3
  subst hp
  exact ⟨k, hk, hu, hkind, hd.symm, by simpa using hl, by simpa using hm, rfl⟩

/-- suites 0 and 4 -/
theorem keyAgree_ok_x {id n : Nat} {peer o : Bytes} (hq : q.curve = none) (hs : keyAgree A q id peer n s = (.ok o, s')) :
    ∃ k, s.find id = some k ∧ Usage.export ∈ k.attr.usage ∧ k.data.length = 32 ∧ peer.length = 32 ∧
      o = A.x25519 peer (clamp k.data) := by
  simp only [keyAgree, hq, pbind_ok, prequire_ok, ppure_ok] at hs
  obtain ⟨_, s1, ⟨hr, rfl⟩, _, _, ⟨hn, rfl⟩, priv, _, h1, _, _, ⟨hl, rfl⟩, rfl, -⟩ := hs
  obtain ⟨k, hk, hu, rfl, -, rfl⟩ := exportKey_ok h1
  simp only [Bool.and_eq_true, beq_iff_eq] at hn hl
  exact ⟨k, hk, hu, hl, hn.1, rfl⟩

/-- suites 2 and 24 -/
theorem keyAgree_ok_ec {id n : Nat} {peer o : Bytes} {c : Curve} (hq : q.curve = some c)
    (hs : keyAgree A q id peer n s = (.ok o, s')) :
    ∃ k, s.find id = some k ∧ Usage.derive ∈ k.attr.usage ∧ k.attr.alg = .ecdh ∧ k.attr.kind = .eccKeyPair ∧
      peer.length = c.len ∧ A.ecPoint k.attr.bits (decompress c peer) = true ∧
      o = A.ecdh k.attr.bits k.data (decompress c peer) := by
  simp only [keyAgree, hq, getAttr, rawKeyAgreement, pbind_ok, prequire_ok, query_ok] at hs
  obtain ⟨_, s1, ⟨hr, rfl⟩, _, _, ⟨hn, rfl⟩, pk, _, ⟨-, hpk, rfl⟩, attr, _, ⟨-, ha, rfl⟩, -, hp, -⟩ := hs
  simp only [Option.some.injEq] at hpk
  subst hpk
  simp only [Option.map_eq_some_iff, Store.tick_find] at ha
  obtain ⟨k, hk, rfl⟩ := ha
  simp only [Store.tick_permitted, Option.bind_eq_some_iff] at hp
  obtain ⟨k', hp, ho⟩ := hp
  obtain ⟨hf, hu, -⟩ := permitted_ok hp
  rw [hk] at hf
  cases hf
  split at ho
  · next hc =>
    simp only [Bool.and_eq_true, beq_iff_eq, decide_eq_true_eq] at hc hn
    simp only [Option.some.injEq] at ho
    exact ⟨k, hk, hu, hc.1.1.1, hc.1.1.2, hn.1, hc.1.2, ho.symm⟩
  · cases ho

/-- suites 0 and 4 -/
theorem sign_ok_x {id n : Nat} {b sig : Bytes} (hq : q.curve = none) (hs : signInput A q id b n s = (.ok sig, s')) :
    ∃ k, s.find id = some k ∧ Usage.export ∈ k.attr.usage ∧ k.data.length = 64 ∧ sig = A.ed25519Sign k.data b := by
  simp only [signInput, hq, pbind_ok, prequire_ok, ppure_ok] at hs
  obtain ⟨_, s1, ⟨hr, rfl⟩, _, _, ⟨hn, rfl⟩, priv, _, h1, _, _, ⟨hl, rfl⟩, rfl, -⟩ := hs
  obtain ⟨k, hk, hu, rfl, -, rfl⟩ := exportKey_ok h1
  exact ⟨k, hk, hu, by simpa using hl, rfl⟩

/-- suites 2 and 24 -/
theorem sign_ok_ec {id n : Nat} {b sig : Bytes} {c : Curve} (hq : q.curve = some c)
    (hs : signInput A q id b n s = (.ok sig, s')) :
    ∃ k h r, s.find id = some k ∧ Usage.signHash ∈ k.attr.usage ∧ k.attr.alg = .ecdsa h ∧ k.attr.kind = .eccKeyPair ∧
      sig.length = q.sign ∧ sig = A.ecdsaSign h k.attr.bits k.data (A.hash q.hash b) r := by
  simp only [signInput, hq, getAttr, signHash, pbind_ok, prequire_ok, query_ok, ppure_ok] at hs
  obtain ⟨_, s1, ⟨hr, rfl⟩, _, _, ⟨hn, rfl⟩, attr, _, ⟨-, ha, rfl⟩, dg, s2, hh, _, _, ⟨hl, rfl⟩, sg, _, ⟨-, hp, rfl⟩, _, _,
    ⟨hl2, rfl⟩, rfl, -⟩ := hs
  have hs2 := (reads_hash (A := A) (q := q) b q.hash.len).find s.tick
  rw [hh] at hs2
  simp only [Option.map_eq_some_iff] at ha
  obtain ⟨k, hk, rfl⟩ := ha
  simp only [Option.bind_eq_some_iff] at hp
  obtain ⟨k', hp, ho⟩ := hp
  obtain ⟨hf, hu, -⟩ := permitted_ok hp
  rw [hs2, Store.tick_find, hk] at hf
  cases hf
  split at ho
  · next h hh' =>
    split at ho
    · next hc =>
      simp only [Bool.and_eq_true, beq_iff_eq, decide_eq_true_eq] at hc
      simp only [Option.some.injEq] at ho
      exact ⟨k, h, _, hk, hu, hh', hc.1.1, by simpa using hl2, by rw [← ho, (hash_ok hh).1]⟩
    · cases ho
  · cases ho

/-- suites 0 and 4 -/
theorem verify_ok_x {id : Nat} {b sig : Bytes} (hq : q.curve = none) (hs : verifyInput A q id b sig s = (.ok (), s')) :
    ∃ k, s.find id = some k ∧ Usage.export ∈ k.attr.usage ∧ k.data.length = 32 ∧ A.ed25519Verify k.data b sig = true := by
  simp only [verifyInput, hq, pbind_ok, prequire_ok] at hs
  obtain ⟨_, s1, ⟨hr, rfl⟩, _, _, ⟨hn, rfl⟩, priv, _, h1, _, _, ⟨hl, rfl⟩, hv, -⟩ := hs
  obtain ⟨k, hk, hu, rfl, -, rfl⟩ := exportKey_ok h1
  exact ⟨k, hk, hu, by simpa using hl, hv⟩

/-- suites 2 and 24 -/
theorem verify_ok_ec {id : Nat} {b sig : Bytes} {c : Curve} (hq : q.curve = some c)
    (hs : verifyInput A q id b sig s = (.ok (), s')) :
    ∃ k h, s.find id = some k ∧ Usage.verifyHash ∈ k.attr.usage ∧ k.attr.alg = .ecdsa h ∧
      (k.attr.kind = .eccPublicKey → A.ecdsaVerify h k.attr.bits k.data (A.hash q.hash b) sig = true) := by
  simp only [verifyInput, hq, getAttr, verifyHash, pbind_ok, prequire_ok, query_ok] at hs
  obtain ⟨_, s1, ⟨hr, rfl⟩, _, _, ⟨hn, rfl⟩, attr, _, ⟨-, ha, rfl⟩, dg, s2, hh, _, _, ⟨hl, rfl⟩, -, hp, -⟩ := hs
  have hs2 := (reads_hash (A := A) (q := q) b q.hash.len).find s.tick
  rw [hh] at hs2
  simp only [Option.map_eq_some_iff] at ha
  obtain ⟨k, hk, rfl⟩ := ha
  simp only [Option.bind_eq_some_iff] at hp
  obtain ⟨k', hp, ho⟩ := hp
  obtain ⟨hf, hu, -⟩ := permitted_ok hp
  rw [hs2, Store.tick_find, hk] at hf
  cases hf
  split at ho
  · next h hh' =>
    refine ⟨k, h, hk, hu, hh', fun hkind => ?_⟩
    have hne : (k.attr.kind == .eccKeyPair) = false := by rw [hkind]; rfl
    simp only [hne, Bool.false_eq_true, if_false] at ho
    split at ho
    · next hc =>
      simp only [Bool.and_eq_true] at hc
      have := hc.2
      rwa [(hash_ok hh).1] at this
    · cases ho
  · cases ho

end Verif.Psa
