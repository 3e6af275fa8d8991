import Verif.Suite.Faithful

/-!
# Sessions over a shipped suite are faithful to its primitives
-/

namespace Verif.Psa

open P Spec

variable {τ α : Type} {A : Algs} {q : Params} {X : App τ}

/-- what the tables of the shipped suites have in common -/
structure Shaped (q : Params) : Prop where
  hash : q.hashLen = q.hash.len
  ecx : q.curve = none → q.ecc = 32
  ecc : ∀ c, q.curve = some c → q.ecc = c.len ∧ 0 < c.len
  sigx : q.curve = none → q.sign = 64
  sig : ∀ c, q.curve = some c → q.sign = 2 * c.len
  iv : q.aeadIv ≠ 0
  tag : q.aeadTag ≠ 0
  fits : ∀ n, n < 65536 → aeadFits q.aead q.aeadIv n = true
  key : keyOk A (attrOf q .encrypt 0) (List.replicate q.aeadKey 0) = true

theorem shaped {A : Algs} (h : q ∈ shipped) : Shaped (A := A) q := by
  simp only [shipped, List.mem_cons, List.not_mem_nil, or_false] at h
  rcases h with rfl | rfl | rfl | rfl <;> constructor <;>
    simp [suite0, suite2, suite4, suite24, p256, p384, HashAlg.len, aeadFits, keyOk, attrOf, aeadKind] <;>
    exact fun n hn => decide_eq_true hn

theorem fit_eq {n : Nat} {b : Bytes} (h : b.length = n) : fitLen n b = b := by
  rw [fitLen, List.take_of_length_le (Nat.le_of_eq h), h]; simp

theorem extract_prim (hl : AlgLaws A q) (hq : q ∈ shipped) {w1 w2 w3 : World τ} {raw kid salt o : Bytes}
    (h1 : Ran1 (suiteEnv A q X) w1 (.importKey .extract raw (some kid)) w2)
    (h2 : Ran1 (suiteEnv A q X) w2 (.extract kid salt (some o)) w3) : o = (primsOf A q).extract salt raw := by
  have hs := shaped (A := A) hq
  obtain ⟨h2, -⟩ := runP_some (m := extractKey A (kidNat kid) salt q.hashLen) (w' := w3) h2
  obtain ⟨k, h, hk, ha, -, -, rfl⟩ := extract_ok h2
  rcases import_some h1 with ⟨i, k', -, hi, h3, -, h5, h6⟩ | ⟨-, -, h3, -⟩
  · rw [hi, h3.find, if_pos rfl] at hk
    cases hk
    rw [h5] at ha
    have : q.hash = h := by simpa [attrOf] using ha
    subst this
    rw [h6 (by simp), hs.hash, List.take_of_length_le (Nat.le_of_eq (hl.extract _ _))]
    rfl
  · cases h3

theorem expand_prim (hl : AlgLaws A q) {w1 w2 w3 : World τ} {raw kid info o : Bytes} {n : Nat}
    (h1 : Ran1 (suiteEnv A q X) w1 (.importKey .expand raw (some kid)) w2)
    (h2 : Ran1 (suiteEnv A q X) w2 (.expand kid info n (some o)) w3) : o = (primsOf A q).expand raw info n := by
  obtain ⟨o', h2, h4⟩ := h2
  cases o' with
  | none => cases h4
  | some o' =>
    simp only [Option.map_some, Option.some.injEq] at h4
    subst h4
    obtain ⟨h2, -⟩ := runP_some (m := expandKey A (kidNat kid) info n) (w' := w3) h2
    obtain ⟨k, h, hk, ha, -, -, rfl⟩ := expand_ok h2
    rcases import_some h1 with ⟨i, k', -, hi, h3, -, h5, h6⟩ | ⟨-, -, h3, -⟩
    · rw [hi, h3.find, if_pos rfl] at hk
      cases hk
      rw [h5] at ha
      have : q.hash = h := by simpa [attrOf] using ha
      subst this
      rw [h6 (by simp), fit_eq (hl.expand _ _ _)]
      rfl
    · cases h3

theorem encrypt_prim {w1 w2 w3 : World τ} {raw kid iv ad p o : Bytes}
    (h1 : Ran1 (suiteEnv A q X) w1 (.importKey .encrypt raw (some kid)) w2)
    (h2 : Ran1 (suiteEnv A q X) w2 (.encrypt kid iv ad p (some o)) w3) : o = (primsOf A q).enc raw iv ad p := by
  obtain ⟨h2, -⟩ := runP_some (m := encryptText A (kidNat kid) iv ad p (p.length + q.aeadTag)) (w' := w3) h2
  obtain ⟨k, b, t, hk, ha, -, -, rfl⟩ := encrypt_ok h2
  rcases import_some h1 with ⟨i, k', -, hi, h3, -, h5, h6⟩ | ⟨-, -, h3, -⟩
  · rw [hi, h3.find, if_pos rfl] at hk
    cases hk
    rw [h5] at ha
    simp only [attrOf, Alg.aead.injEq] at ha
    rw [h6 (by simp), ← ha.1, ← ha.2]
    rfl
  · cases h3

theorem decrypt_prim {w1 w2 w3 : World τ} {raw kid iv ad c o : Bytes}
    (h1 : Ran1 (suiteEnv A q X) w1 (.importKey .decrypt raw (some kid)) w2)
    (h2 : Ran1 (suiteEnv A q X) w2 (.decrypt kid iv ad c (some o)) w3) : (primsOf A q).dec raw iv ad c = some o := by
  obtain ⟨h2, -⟩ := runP_some (m := decryptText A (kidNat kid) iv ad c (c.length - q.aeadTag)) (w' := w3) h2
  obtain ⟨k, b, t, hk, ha, -, -, -, ho⟩ := decrypt_ok h2
  rcases import_some h1 with ⟨i, k', -, hi, h3, -, h5, h6⟩ | ⟨-, -, h3, -⟩
  · rw [hi, h3.find, if_pos rfl] at hk
    cases hk
    rw [h5] at ha
    simp only [attrOf, Alg.aead.injEq] at ha
    rw [h6 (by simp), ← ha.1, ← ha.2] at ho
    exact ho
  · cases h3

theorem pub_length {c : Curve} (hc : CurveLaws A c) {x : Bytes} (hx : A.ecPriv (8 * c.len) x = true) :
    ∃ X Y, A.ecPub (8 * c.len) x = 4 :: X ++ Y ∧ Point c X Y ∧ (A.ecPub (8 * c.len) x).length = 2 * c.len + 1 := by
  obtain ⟨X, Y, h1, h2⟩ := (hc.point _).1 (hc.pub x hx)
  refine ⟨X, Y, h1, h2, ?_⟩
  rw [h1]
  simp [h2.lenX, h2.lenY]; omega

theorem keyPair_prim (hl : AlgLaws A q) (hq : q ∈ shipped) {w1 w2 : World τ} {kid x gx : Bytes} (hv : Valid A w1.1)
    (h1 : Ran1 (suiteEnv A q X) w1 (.makeKeyPair kid (some (x, gx))) w2) :
    gx = (primsOf A q).pub x ∧ (primsOf A q).priv x := by
  have hs := shaped (A := A) hq
  obtain ⟨h1, -⟩ := runP_some (m := makePair A q (kidNat kid) q.ecc q.ecc) (w' := w2) h1
  cases hc : q.curve with
  | none =>
    obtain ⟨seed, h2, rfl, rfl⟩ := makePair_ok_x hc h1
    simp only [primsOf, isPriv, hc, clamp_clamp, clamp_length]
    exact ⟨trivial, h2⟩
  | some c =>
    obtain ⟨k, hk, -, hkind, rfl, hlen, -, rfl⟩ := makePair_ok_ec hc h1
    have hk' := hv _ _ hk
    simp only [keyOk, hkind, Bool.and_eq_true, beq_iff_eq] at hk'
    have hb : k.attr.bits = 8 * c.len := by rw [hk'.1, hlen]
    rw [hb] at hk' ⊢
    obtain ⟨X, Y, -, -, h4⟩ := pub_length (hl.curve c hc) hk'.2
    simp only [primsOf, isPriv, hc]
    rw [fit_eq h4, (hs.ecc c hc).1]
    exact ⟨rfl, hlen, hk'.2⟩

/-- the secret computed with a point that was put together from its x-coordinate -/
theorem dh_decompress (hl : AlgLaws A q) {c : Curve} (hc : q.curve = some c) {x peer : Bytes}
    (hx : A.ecPriv (8 * c.len) x = true) (hp : peer.length = c.len)
    (hpt : A.ecPoint (8 * c.len) (decompress c peer) = true) :
    A.ecdh (8 * c.len) x (decompress c peer) = (primsOf A q).dh x peer := by
  have hcl := hl.curve c hc
  obtain ⟨X, Y, h1, h2⟩ := (hcl.point _).1 hpt
  have h3 : peer = X := by
    have h1 := h1
    rw [decompress, List.cons_append, List.cons_append, List.cons.injEq] at h1
    exact (List.append_inj h1.2 (hp.trans h2.lenX.symm)).1
  subst h3
  have hex : ∃ Y, Point c peer Y := ⟨Y, h2⟩
  simp only [primsOf, hc, hex, dif_pos]
  rw [h1]
  exact hcl.same _ _ _ _ hx h2 hex.choose_spec

theorem agree_prim (hl : AlgLaws A q) {w1 w2 : World τ} {kid pk o : Bytes} (hv : Valid A w1.1) {k : Key}
    (hk : w1.1.find (kidNat kid) = some k) (hb : ∀ c, q.curve = some c → k.attr.bits = 8 * c.len)
    (h1 : Ran1 (suiteEnv A q X) w1 (.keyAgreement kid pk (some o)) w2) : o = (primsOf A q).dh k.data pk := by
  obtain ⟨h1, -⟩ := runP_some (m := keyAgree A q (kidNat kid) pk q.ecc) (w' := w2) h1
  cases hc : q.curve with
  | none =>
    obtain ⟨k', hk', -, -, -, rfl⟩ := keyAgree_ok_x hc h1
    rw [hk] at hk'
    cases hk'
    simp only [primsOf, hc]
  | some c =>
    obtain ⟨k', hk', -, -, hkind, hp, hpt, rfl⟩ := keyAgree_ok_ec hc h1
    rw [hk] at hk'
    cases hk'
    have h2 := hv _ _ hk
    simp only [keyOk, hkind, Bool.and_eq_true, beq_iff_eq] at h2
    rw [hb c hc] at hpt h2 ⊢
    exact dh_decompress hl hc h2.2 hp hpt

/-- the three calls around a key -/
theorem three {E : Env (World τ)} {w w' : World τ} {a b c : Ev} (h : Ran E w [a, b, c] w') :
    ∃ w1 w2, Ran1 E w a w1 ∧ Ran1 E w1 b w2 := by
  cases h with
  | cons h1 h =>
    cases h with
    | cons h2 _ => exact ⟨_, _, h1, h2⟩

theorem ran_faithful (hl : AlgLaws A q) (hq : q ∈ shipped) (hX : Decent A X) {w w' : World τ} {L : List Ev}
    {sk : Bytes → Bytes} (hv : Valid A w.1) (hA : Anchored q X w.1 sk) (hr : Ran (suiteEnv A q X) w L w') (ho : OnlyOwn L) :
    Faithful (primsOf A q) sk L where
  hash := by
    intro i o h
    obtain ⟨l1, l2, w1, w2, -, -, h1, -⟩ := hr.mem h
    obtain ⟨h1, -⟩ := runP_some (m := hashInput A q i q.hashLen) (w' := w2) h1
    exact (hash_ok h1).1
  extract := by
    rintro salt ikm o ⟨kid, h⟩
    obtain ⟨l1, l2, w1, w2, -, -, h1⟩ := hr.made h
    obtain ⟨w3, w4, h2, h3⟩ := three h1
    exact extract_prim hl hq h2 h3
  expand := by
    rintro prk label context n o ⟨-, kid, h⟩
    obtain ⟨l1, l2, w1, w2, -, -, h1⟩ := hr.made h
    obtain ⟨w3, w4, h2, h3⟩ := three h1
    exact expand_prim hl h2 h3
  keyPair := by
    rintro x gx ⟨kid, h⟩
    obtain ⟨l1, l2, w1, w2, -, h0, h1⟩ := hr.made h
    cases h1 with
    | cons h2 _ => exact keyPair_prim hl hq (ran_valid hX h0 hv) h2
  agree := by
    rintro x pk o ⟨kid, h⟩
    obtain ⟨l1, l2, w1, w2, -, h0, h1⟩ := hr.made h
    obtain ⟨w3, w4, h2, h3⟩ := three h1
    have hv' := ran1_valid hX h2 (ran_valid hX h0 hv)
    rcases import_some h2 with ⟨i, k', -, hi, h4, -, h5, h6⟩ | ⟨-, -, h4, -⟩
    · have hk : w3.1.find (kidNat kid) = some k' := by rw [hi, h4.find, if_pos rfl]
      rw [← h6 (by simp)]
      refine agree_prim hl hv' hk (fun c hc => ?_) h3
      rw [h5]
      simp [attrOf, hc, ((shaped (A := A) hq).ecc c hc).1]
    · cases h4
  agreeStatic := by
    rintro c kid pk o hc h
    obtain ⟨l1, l2, w1, w2, -, -, h1, -⟩ := hr.mem hc
    obtain ⟨h0, k, hk, hd, hb⟩ := hA w1 c kid (congrArg Prod.fst h1)
    obtain ⟨l3, l4, w3, w4, e, h3, h4, -⟩ := hr.mem h
    obtain ⟨hk', -⟩ := ran_kept hX h3 (fun kid P hP => ho kid P (hP.trans (by rw [e]; exact List.prefix_append _ _))) hk h0
    rw [← hd]
    exact agree_prim hl (ran_valid hX h3 hv) hk' hb h4
  enc := by
    rintro k iv aad p c ⟨kid, h⟩
    obtain ⟨l1, l2, w1, w2, -, -, h1⟩ := hr.made h
    obtain ⟨w3, w4, h2, h3⟩ := three h1
    exact encrypt_prim h2 h3
  dec := by
    rintro k iv aad c p ⟨kid, h⟩
    obtain ⟨l1, l2, w1, w2, -, -, h1⟩ := hr.made h
    obtain ⟨w3, w4, h2, h3⟩ := three h1
    exact decrypt_prim h2 h3

/-- A session over a shipped suite computes its primitives, whatever fails on the way. -/
theorem suite_faithful {cfg : Config} (hl : AlgLaws A q) (hq : q ∈ shipped) (hX : Decent A X) {w : World τ} {log : List Ev}
    {h : History} {s : St (World τ)} {sk : Bytes → Bytes} (hv : Valid A w.1) (hA : Anchored q X w.1 sk)
    (hs : Session (suiteEnv A q X) cfg w log h s) : Faithful (primsOf A q) sk (sessionCalls log s) :=
  ran_faithful hl hq hX hv hA (session_ran hs).2 (session_own hs)

end Verif.Psa
