import Verif.Suite.Sound

/-!
# When the callbacks of a shipped suite succeed

Without failures in the libraries below, every callback with a key of the right use and arguments of the right sizes succeeds.
-/

namespace Verif.Psa

open P Spec

variable {α β : Type} {A : Algs} {q : Params} {s : Store}

/-- no call fails any more -/
def Calm (s : Store) : Prop := ∀ n, s.clock ≤ n → s.fault n = false

theorem Calm.tick (h : Calm s) : Calm s.tick := fun n hn => h n (by simp at hn; omega)

theorem query_run {f : Store → Option α} {a : α} (h : Calm s) (hf : f s = some a) : query f s = (.ok a, s.tick) :=
  query_ok.2 ⟨h _ (Nat.le_refl _), hf, rfl⟩

theorem require_run {b : Bool} {e : Err} (h : b = true) : P.require b e s = (.ok (), s) := prequire_ok.2 ⟨h, rfl⟩

theorem guard_run {b : Bool} {u : UB} (h : b = true) : P.guardUB b u s = (.ok (), s) := pguard_ok.2 ⟨h, rfl⟩

/-- the identifier stands for this key, imported for this use -/
def Holds (q : Params) (s : Store) (id : Nat) (t : KeyType) (raw : Bytes) : Prop :=
  s.find id = some ⟨attrOf q t raw.length, raw⟩

theorem Holds.tick {id : Nat} {t : KeyType} {raw : Bytes} (h : Holds q s id t raw) : Holds q s.tick id t raw := h

theorem permitted_run {k : Key} {id : Nat} {u : Usage} {a : Alg} (h : s.find id = some k) (hu : k.attr.usage.contains u = true)
    (ha : k.attr.alg = a) : s.permitted id u a = some k := by
  simp only [Store.permitted, h, Option.bind_some, hu, ha, beq_self_eq_true, Bool.and_self, if_true]

theorem getAttr_run {k : Key} {id : Nat} (hc : Calm s) (h : s.find id = some k) : getAttr id s = (.ok k.attr, s.tick) :=
  query_run hc (by rw [h]; rfl)

theorem exportKey_run {k : Key} {id n : Nat} (hc : Calm s) (h : s.find id = some k)
    (hu : k.attr.usage.contains .export = true) (hl : k.data.length ≤ n) : exportKey id n s = (.ok k.data, s.tick) :=
  query_run hc (by simp only [h, Option.bind_some, hu, hl, decide_true, Bool.and_self, if_true])

theorem hash_run {b : Bytes} {n : Nat} (hc : Calm s) (hb : b ≠ []) (hn : q.hash.len ≤ n) :
    hashInput A q b n s = (.ok (A.hash q.hash b), s.tick) := by
  have hl : 0 < q.hash.len := by cases q.hash <;> simp [HashAlg.len]
  have hb' : b.length ≠ 0 := fun h => hb (List.length_eq_zero_iff.1 h)
  rw [hashInput, pbind_run (require_run (by simp only [Bool.and_eq_true, bne_iff_ne, ne_eq]; omega))]
  exact query_run hc (by simp only [hn, if_true])

theorem extract_run {id n : Nat} {raw salt : Bytes} (hc : Calm s) (hk : Holds q s id .extract raw) (hs : salt ≠ [])
    (hn : n ≠ 0) (hl : n ≤ q.hash.len) :
    extractKey A id salt n s =
      (.ok ((A.hkdfExtract q.hash salt raw).take n), s.tick.tick.tick.tick.tick.tick) := by
  have hs' : salt.length ≠ 0 := fun h => hs (List.length_eq_zero_iff.1 h)
  rw [extractKey, pbind_run (require_run (by simp only [Bool.and_eq_true, bne_iff_ne, ne_eq]; omega)),
    pbind_run (getAttr_run hc hk)]
  simp only [attrOf]
  refine (pbind_run (a := ⟨.hkdfExtract q.hash, none, none, none, q.hash.len⟩) (query_run hc.tick ?_)).trans ?_
  · rfl
  refine (pbind_run (a := ⟨.hkdfExtract q.hash, some salt, none, none, q.hash.len⟩) (query_run hc.tick.tick ?_)).trans ?_
  · rfl
  refine (pbind_run (a := ⟨.hkdfExtract q.hash, some salt, some raw, none, q.hash.len⟩)
    (query_run hc.tick.tick.tick ?_)).trans ?_
  · simp only [Store.tick_permitted]
    rw [permitted_run (a := .hkdfExtract q.hash) hk rfl rfl]
    rfl
  refine (pbind_run (a := ⟨.hkdfExtract q.hash, some salt, some raw, none, n⟩)
    (query_run hc.tick.tick.tick.tick ?_)).trans ?_
  · simp [hl]
  exact query_run hc.tick.tick.tick.tick.tick (by simp)

theorem expand_run {id n : Nat} {raw info : Bytes} (hc : Calm s) (hk : Holds q s id .expand raw) (hs : info ≠ [])
    (hr : raw.length = q.hash.len) (hn : n ≠ 0) (hl : n ≤ 255 * q.hash.len) :
    expandKey A id info n s = (.ok (A.hkdfExpand q.hash raw info n), s.tick.tick.tick.tick.tick.tick) := by
  have hs' : info.length ≠ 0 := fun h => hs (List.length_eq_zero_iff.1 h)
  rw [expandKey, pbind_run (require_run (by simp only [Bool.and_eq_true, bne_iff_ne, ne_eq]; omega)),
    pbind_run (getAttr_run hc hk)]
  simp only [attrOf]
  refine (pbind_run (a := ⟨.hkdfExpand q.hash, none, none, none, 255 * q.hash.len⟩) (query_run hc.tick ?_)).trans ?_
  · rfl
  refine (pbind_run (a := ⟨.hkdfExpand q.hash, none, some raw, none, 255 * q.hash.len⟩)
    (query_run hc.tick.tick ?_)).trans ?_
  · simp only [Store.tick_permitted]
    rw [permitted_run (a := .hkdfExpand q.hash) hk rfl rfl]
    simp [hr, attrOf]
  refine (pbind_run (a := ⟨.hkdfExpand q.hash, none, some raw, some info, 255 * q.hash.len⟩)
    (query_run hc.tick.tick.tick ?_)).trans ?_
  · rfl
  refine (pbind_run (a := ⟨.hkdfExpand q.hash, none, some raw, some info, n⟩)
    (query_run hc.tick.tick.tick.tick ?_)).trans ?_
  · simp [hl]
  exact query_run hc.tick.tick.tick.tick.tick (by simp)

theorem encrypt_run {id n : Nat} {raw iv ad p : Bytes} (hc : Calm s) (hk : Holds q s id .encrypt raw) (hi : iv ≠ [])
    (ha : ad ≠ []) (hf : aeadFits q.aead iv.length p.length = true) (hn : p.length + q.aeadTag ≤ n) (hn0 : n ≠ 0) :
    encryptText A id iv ad p n s = (.ok (A.enc q.aead q.aeadTag raw iv ad p), s.tick.tick) := by
  have h1 : iv.length ≠ 0 := fun h => hi (List.length_eq_zero_iff.1 h)
  have h2 : ad.length ≠ 0 := fun h => ha (List.length_eq_zero_iff.1 h)
  rw [encryptText, pbind_run (require_run (by simp only [Bool.and_eq_true, bne_iff_ne, ne_eq]; omega)),
    pbind_run (getAttr_run hc hk)]
  simp only [attrOf]
  refine query_run hc.tick ?_
  rw [Store.tick_permitted, permitted_run (a := .aead q.aead q.aeadTag) hk rfl rfl]
  simp [hf, hn, attrOf]

theorem decrypt_run {id n : Nat} {raw iv ad p c : Bytes} (hc : Calm s) (hk : Holds q s id .decrypt raw) (hi : iv ≠ [])
    (ha : ad ≠ []) (hlen : c.length = p.length + q.aeadTag) (hf : aeadFits q.aead iv.length p.length = true)
    (hn : p.length ≤ n) (ht : q.aeadTag ≠ 0) (hd : A.dec q.aead q.aeadTag raw iv ad c = some p) :
    decryptText A id iv ad c n s = (.ok p, s.tick.tick) := by
  have h1 : iv.length ≠ 0 := fun h => hi (List.length_eq_zero_iff.1 h)
  have h2 : ad.length ≠ 0 := fun h => ha (List.length_eq_zero_iff.1 h)
  rw [decryptText, pbind_run (require_run (by simp only [Bool.and_eq_true, bne_iff_ne, ne_eq]; omega)),
    pbind_run (getAttr_run hc hk)]
  simp only [attrOf]
  refine query_run hc.tick ?_
  rw [Store.tick_permitted, permitted_run (a := .aead q.aead q.aeadTag) hk rfl rfl]
  have : c.length - q.aeadTag = p.length := by omega
  simp [hf, hn, attrOf, this, hd, show q.aeadTag ≤ c.length by omega]

theorem makePair_run_x {id n m : Nat} (hq : q.curve = none) (hc : Calm s) (hn : 32 ≤ n) (hm : 32 ≤ m) :
    makePair A q id n m s =
      (.ok (clamp (s.random 32), A.x25519 basePoint (clamp (s.random 32))), s.tick) := by
  rw [makePair, pbind_run (require_run (by simp only [Bool.and_eq_true, bne_iff_ne, ne_eq]; omega))]
  simp only [hq]
  rw [pbind_run (require_run (by simp only [Bool.and_eq_true, decide_eq_true_eq]; omega))]
  refine (pbind_run (a := s.random 32) (query_run hc ?_)).trans ?_ <;> rfl

theorem makePair_run_ec {id n m : Nat} {c : Curve} {k : Key} (hq : q.curve = some c) (hc : Calm s) (hk : s.find id = some k)
    (hu : k.attr.usage.contains .export = true) (hkind : k.attr.kind = .eccKeyPair) (hl : k.data.length = c.len)
    (hp : (A.ecPub k.attr.bits k.data).length = 2 * c.len + 1) (hn : c.len ≤ n) (hn0 : n ≠ 0) (hm : m ≤ 2 * c.len)
    (hm0 : m ≠ 0) :
    makePair A q id n m s = (.ok (k.data, ((A.ecPub k.attr.bits k.data).drop 1).take m), s.tick.tick) := by
  rw [makePair, pbind_run (require_run (by simp only [Bool.and_eq_true, bne_iff_ne, ne_eq]; omega))]
  simp only [hq]
  rw [pbind_run (exportKey_run hc hk hu (by omega)), pbind_run (require_run (by simp [hl])),
    exportPublicKey, pbind_run (a := A.ecPub k.attr.bits k.data) (query_run hc.tick (by simp [hk, hkind, hp])),
    pbind_run (guard_run (by simpa using hm)), pure_def]
  have : fitLen (2 * c.len + 1) (A.ecPub k.attr.bits k.data) = A.ecPub k.attr.bits k.data := by
    rw [fitLen, hp, List.take_of_length_le (Nat.le_of_eq hp)]; simp
  rw [this]

theorem keyAgree_run_x {id n : Nat} {peer : Bytes} {k : Key} (hq : q.curve = none) (hc : Calm s) (hk : s.find id = some k)
    (hu : k.attr.usage.contains .export = true) (hl : k.data.length = 32) (hp : peer.length = 32) (hn : n = 32) :
    keyAgree A q id peer n s = (.ok (A.x25519 peer (clamp k.data)), s.tick) := by
  rw [keyAgree, pbind_run (require_run (by simp only [Bool.and_eq_true, bne_iff_ne, ne_eq]; omega))]
  simp only [hq]
  rw [pbind_run (require_run (by simp [hp, hn])), pbind_run (exportKey_run hc hk hu (by omega)),
    pbind_run (require_run (by simp [hl]))]
  rfl

theorem keyAgree_run_ec {id n : Nat} {peer : Bytes} {c : Curve} {k : Key} (hq : q.curve = some c) (hc : Calm s)
    (hk : s.find id = some k) (hu : k.attr.usage.contains .derive = true) (ha : k.attr.alg = .ecdh)
    (hkind : k.attr.kind = .eccKeyPair) (hp : peer.length = c.len) (hn : n = c.len) (hc0 : c.len ≠ 0)
    (hpt : A.ecPoint k.attr.bits (decompress c peer) = true)
    (hl : (A.ecdh k.attr.bits k.data (decompress c peer)).length ≤ n) :
    keyAgree A q id peer n s = (.ok (A.ecdh k.attr.bits k.data (decompress c peer)), s.tick.tick.tick) := by
  rw [keyAgree, pbind_run (require_run (by simp only [Bool.and_eq_true, bne_iff_ne, ne_eq]; omega))]
  simp only [hq]
  rw [pbind_run (require_run (by simp [hp, hn])), pbind_run (a := decompress c peer) (query_run hc rfl),
    pbind_run (getAttr_run hc.tick hk)]
  refine query_run hc.tick.tick ?_
  rw [Store.tick_permitted, Store.tick_permitted, permitted_run hk hu rfl]
  simp [ha, hkind, hpt, hl]

theorem sign_run_x {id n : Nat} {b : Bytes} {k : Key} (hq : q.curve = none) (hc : Calm s) (hk : s.find id = some k)
    (hu : k.attr.usage.contains .export = true) (hl : k.data.length = 64) (hb : b ≠ []) (hn : n = q.sign) (hn0 : n ≠ 0) :
    signInput A q id b n s = (.ok (A.ed25519Sign k.data b), s.tick) := by
  have h1 : b.length ≠ 0 := fun h => hb (List.length_eq_zero_iff.1 h)
  rw [signInput, pbind_run (require_run (by simp only [Bool.and_eq_true, bne_iff_ne, ne_eq]; omega)),
    pbind_run (require_run (by simp [hn]))]
  simp only [hq]
  rw [pbind_run (exportKey_run hc hk hu (by omega)), pbind_run (require_run (by simp [hl]))]
  rfl

theorem sign_run_ec {id n : Nat} {b : Bytes} {c : Curve} {k : Key} (hq : q.curve = some c) (hc : Calm s)
    (hk : s.find id = some k) (hu : k.attr.usage.contains .signHash = true) (ha : k.attr.alg = .ecdsa q.hash)
    (hkind : k.attr.kind = .eccKeyPair) (hbits : k.attr.bits / 4 ≤ n) (hb : b ≠ []) (hn : n = q.sign) (hn0 : n ≠ 0)
    (hh : (A.hash q.hash b).length = q.hash.len)
    (hl : ∀ r, (A.ecdsaSign q.hash k.attr.bits k.data (A.hash q.hash b) r).length = q.sign) :
    ∃ r, signInput A q id b n s =
      (.ok (A.ecdsaSign q.hash k.attr.bits k.data (A.hash q.hash b) r), s.tick.tick.tick) := by
  have h1 : b.length ≠ 0 := fun h => hb (List.length_eq_zero_iff.1 h)
  refine ⟨s.tick.tick.rand s.tick.tick.clock, ?_⟩
  rw [signInput, pbind_run (require_run (by simp only [Bool.and_eq_true, bne_iff_ne, ne_eq]; omega)),
    pbind_run (require_run (by simp [hn]))]
  simp only [hq]
  rw [pbind_run (getAttr_run hc hk), pbind_run (hash_run hc.tick hb (Nat.le_refl _)), pbind_run (require_run (by simp [hh])),
    signHash, pbind_run (a := A.ecdsaSign q.hash k.attr.bits k.data (A.hash q.hash b)
      (s.tick.tick.rand s.tick.tick.clock)) (query_run hc.tick.tick ?_), pbind_run (require_run (by simp [hl])), pure_def]
  rw [Store.tick_permitted, Store.tick_permitted, permitted_run hk hu rfl]
  simp [ha, hkind, hh, hbits]

theorem verify_run_x {id : Nat} {b sig : Bytes} {k : Key} (hq : q.curve = none) (hc : Calm s) (hk : s.find id = some k)
    (hu : k.attr.usage.contains .export = true) (hl : k.data.length = 32) (hb : b ≠ []) (hs : sig.length = q.sign)
    (hs0 : q.sign ≠ 0) (hv : A.ed25519Verify k.data b sig = true) :
    verifyInput A q id b sig s = (.ok (), s.tick) := by
  have h1 : b.length ≠ 0 := fun h => hb (List.length_eq_zero_iff.1 h)
  rw [verifyInput, pbind_run (require_run (by simp only [Bool.and_eq_true, bne_iff_ne, ne_eq]; omega)),
    pbind_run (require_run (by simp [hs]))]
  simp only [hq]
  rw [pbind_run (exportKey_run hc hk hu (by omega)), pbind_run (require_run (by simp [hl]))]
  exact require_run hv

theorem verify_run_ec {id : Nat} {b sig : Bytes} {c : Curve} {k : Key} (hq : q.curve = some c) (hc : Calm s)
    (hk : s.find id = some k) (hu : k.attr.usage.contains .verifyHash = true) (ha : k.attr.alg = .ecdsa q.hash)
    (hkind : k.attr.kind = .eccPublicKey) (hb : b ≠ []) (hs : sig.length = q.sign) (hs0 : q.sign ≠ 0)
    (hh : (A.hash q.hash b).length = q.hash.len)
    (hv : A.ecdsaVerify q.hash k.attr.bits k.data (A.hash q.hash b) sig = true) :
    verifyInput A q id b sig s = (.ok (), s.tick.tick.tick) := by
  have h1 : b.length ≠ 0 := fun h => hb (List.length_eq_zero_iff.1 h)
  rw [verifyInput, pbind_run (require_run (by simp only [Bool.and_eq_true, bne_iff_ne, ne_eq]; omega)),
    pbind_run (require_run (by simp [hs]))]
  simp only [hq]
  rw [pbind_run (getAttr_run hc hk), pbind_run (hash_run hc.tick hb (Nat.le_refl _)), pbind_run (require_run (by simp [hh]))]
  refine query_run hc.tick.tick ?_
  rw [Store.tick_permitted, Store.tick_permitted, permitted_run hk hu rfl]
  simp [ha, hkind, hh, hv]

/-! ## Import and destruction -/

theorem importKey_run {a : Attr} {raw : Bytes} {i : Nat} (hc : Calm s) (hk : keyOk A a raw = true) (hi : s.freeId = some i) :
    importKey A a raw s = (.ok i, { s.tick with keys := (i, ⟨a, raw⟩) :: s.keys }) :=
  psa_ok.2 ⟨hc _ (Nat.le_refl _), _, by simp only [hk, if_true, insert, hi, Option.map_some], rfl⟩

theorem generateKey_run {a : Attr} {i : Nat} (hc : Calm s) (hk : keyOk A a (s.random (a.bits / 8)) = true)
    (hi : s.freeId = some i) :
    generateKey A a s = (.ok i, { s.tick with keys := (i, ⟨a, s.random (a.bits / 8)⟩) :: s.keys }) :=
  psa_ok.2 ⟨hc _ (Nat.le_refl _), _, by simp only [hk, if_true, insert, hi, Option.map_some], rfl⟩

theorem filter_absent {l : List (Nat × Key)} {i : Nat} (h : l.lookup i = none) : (l.filter fun p => p.1 != i) = l := by
  rw [List.filter_eq_self]
  intro p hp
  rw [List.lookup_eq_none_iff] at h
  have := h p hp
  simp only [bne_iff_ne, ne_eq]
  intro hpi
  simp [hpi] at this

/-- destroying the key that was added last restores the keys -/
theorem destroy_added {i : Nat} {k : Key} {ks : List (Nat × Key)} (hc : Calm s) (hs : s.keys = (i, k) :: ks)
    (hi : ks.lookup i = none) (h0 : i ≠ 0) : keyDestroy i s = (.ok (), { s.tick with keys := ks }) := by
  rw [keyDestroy, destroyKey]
  refine psa_ok.2 ⟨hc _ (Nat.le_refl _), ks, ?_, rfl⟩
  have : s.find i = some k := by rw [Store.find, hs]; simp
  simp [this, h0, hs, filter_absent hi]

theorem destroy_zero (hc : Calm s) : keyDestroy 0 s = (.ok (), s.tick) := by
  rw [keyDestroy, destroyKey]
  exact psa_ok.2 ⟨hc _ (Nat.le_refl _), s.keys, by simp, rfl⟩

end Verif.Psa
