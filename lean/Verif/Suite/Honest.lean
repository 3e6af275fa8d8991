import Verif.Suite.Prims
import Verif.Suite.Works
import Verif.Suite.Decompress
import Verif.SpecSuiteParties

/-!
# Applications with a shipped suite are honest
-/

namespace Verif.Psa

open P Spec

variable {τ α : Type} {A : Algs} {q : Params} {X : App τ} {k : Bounds} {J : τ → Prop} {p p' : Identity} {id : Nat} {own : Key}

theorem shipped_curve (hq : q ∈ shipped) {c : Curve} (hc : q.curve = some c) : c = p256 ∨ c = p384 := by
  simp only [shipped, List.mem_cons, List.not_mem_nil, or_false] at hq
  rcases hq with rfl | rfl | rfl | rfl <;> cases hc <;> simp

/-- the same store after some calls that did not change the keys in the end -/
structure Later (s s' : Store) : Prop where
  keys : s'.keys = s.keys
  slots : s'.slots = s.slots
  fault : s'.fault = s.fault
  rand : s'.rand = s.rand
  clock : s.clock ≤ s'.clock

theorem Later.refl (s : Store) : Later s s := ⟨rfl, rfl, rfl, rfl, Nat.le_refl _⟩

theorem Later.tick {s s' : Store} (h : Later s s') : Later s s'.tick :=
  ⟨h.keys, h.slots, h.fault, h.rand, by have := h.clock; simp only [Store.tick]; omega⟩

theorem Later.find {s s' : Store} (h : Later s s') (i : Nat) : s'.find i = s.find i := by rw [Store.find, h.keys]; rfl

theorem Later.freeId {s s' : Store} (h : Later s s') : s'.freeId = s.freeId := by
  simp only [Store.freeId, h.slots, h.find]

theorem _root_.Verif.Spec.InOrder.later {s s' : Store} (h : InOrder A q id own s) (hl : Later s s') : InOrder A q id own s' :=
  ⟨fun n hn => by rw [hl.fault]; exact h.calm n (Nat.le_trans hl.clock hn), by rw [hl.freeId]; exact h.free,
    fun n hn => by rw [hl.rand]; exact h.draws n (Nat.le_trans hl.clock hn), by rw [hl.find]; exact h.own⟩

theorem _root_.Verif.Spec.InOrder.calm' {s : Store} (h : InOrder A q id own s) : Calm s := h.calm

/-- the states in which an application is in order -/
def Fine (A : Algs) (q : Params) (id : Nat) (own : Key) (J : τ → Prop) (w : World τ) : Prop :=
  InOrder A q id own w.1 ∧ J w.2

theorem runP_eq {m : P α} {w : World τ} {a : α} {s' : Store} (h : m w.1 = (.ok a, s')) : runP m w = (some a, s', w.2) := by
  simp only [runP, h, Res.toOption]

/-- after an import: one more key -/
structure With (s : Store) (i : Nat) (ky : Key) (s' : Store) : Prop where
  keys : s'.keys = (i, ky) :: s.keys
  slots : s'.slots = s.slots
  fault : s'.fault = s.fault
  rand : s'.rand = s.rand
  clock : s.clock ≤ s'.clock
  fresh : s.find i = none
  range : i ≠ 0 ∧ i < 2 ^ 32

variable {s s' : Store} {i : Nat} {ky : Key}

theorem With.tick (h : With s i ky s') : With s i ky s'.tick :=
  ⟨h.keys, h.slots, h.fault, h.rand, by have := h.clock; simp only [Store.tick]; omega, h.fresh, h.range⟩

theorem With.find (h : With s i ky s') : s'.find i = some ky := by rw [Store.find, h.keys]; simp

theorem With.calm (h : With s i ky s') (hc : Calm s) : Calm s' := fun n hn => by
  rw [h.fault]; exact hc n (Nat.le_trans h.clock hn)

theorem With.destroy (h : With s i ky s') (hc : Calm s) :
    ∃ s'', keyDestroy i s' = (.ok (), s'') ∧ Later s s'' := by
  refine ⟨_, destroy_added (h.calm hc) h.keys h.fresh h.range.1, rfl, h.slots, h.fault, h.rand, ?_⟩
  have := h.clock
  simp only [Store.tick]; omega

theorem import_with {t : KeyType} {raw : Bytes} (hs : InOrder A q id own s) (ht : t ≠ .makeKeyPair)
    (hk : keyOk A (attrOf q t raw.length) raw = true) :
    ∃ i s', keyImport A q t raw s = (.ok i, s') ∧ With s i ⟨attrOf q t raw.length, raw⟩ s' := by
  obtain ⟨i, hi⟩ := Option.ne_none_iff_exists'.1 hs.free
  have hr := freeId_range hi
  refine ⟨i, { s.tick with keys := (i, ⟨attrOf q t raw.length, raw⟩) :: s.keys }, ?_, rfl, rfl, rfl, rfl, ?_, freeId_none hi, ?_⟩
  · have := importKey_run hs.calm' hk hi
    cases t <;> first | exact absurd rfl ht | (cases hc : q.curve <;> simpa only [keyImport, hc] using this)
  · simp only [Store.tick]; omega
  · simp only [idMin] at hr; omega

theorem generate_with {c : Curve} (hc : q.curve = some c) (hq : q ∈ shipped) (hs : InOrder A q id own s) :
    ∃ i s', keyImport A q .makeKeyPair [] s = (.ok i, s') ∧
      With s i ⟨attrOf q .makeKeyPair 0, fitLen q.ecc (s.rand s.clock)⟩ s' := by
  obtain ⟨i, hi⟩ := Option.ne_none_iff_exists'.1 hs.free
  have hr := freeId_range hi
  have hx := hs.draws _ (Nat.le_refl _)
  have he := ((shaped (A := A) hq).ecc c hc).1
  simp only [isPriv, hc] at hx
  have hb : 8 * q.ecc / 8 = q.ecc := by omega
  have := generateKey_run (A := A) (a := attrOf q .makeKeyPair 0) hs.calm'
    (by simp only [attrOf, keyOk, Store.random, hb, Bool.and_eq_true, beq_iff_eq]
        rw [he] at hx ⊢
        exact ⟨by rw [hx.1], hx.2⟩) hi
  simp only [attrOf, Store.random, hb] at this
  refine ⟨i, { s.tick with keys := (i, ⟨attrOf q .makeKeyPair 0, fitLen q.ecc (s.rand s.clock)⟩) :: s.keys }, ?_, rfl, rfl,
    rfl, rfl, ?_, freeId_none hi, ?_⟩
  · simpa only [keyImport, hc, attrOf] using this
  · simp only [Store.tick]; omega
  · simp only [idMin] at hr; omega

/-- the callback with the key just imported, and its destruction -/
theorem use_destroy {α : Type} {w : World τ} {m : P α} {a : α} {s1 : Store} {w1 : World τ} (hI : Fine A q id own J w)
    (hw : w1.1 = s1) (h2 : J w1.2) (hwi : With w.1 i ky s1) (hm : ∃ s2, m s1 = (.ok a, s2) ∧ With w.1 i ky s2) :
    (runP m w1).1 = some a ∧ Fine A q id own J ((suiteEnv A q X).destroyKey (runP m w1).2 (kidBytes i)) := by
  obtain ⟨s2, h3, h4⟩ := hm
  subst hw
  rw [runP_eq h3]
  refine ⟨rfl, ?_⟩
  obtain ⟨s3, h5, h6⟩ := h4.destroy hI.1.calm'
  have : (suiteEnv A q X).destroyKey (s2, w1.2) (kidBytes i) = (s3, w1.2) := by
    have h5 : keyDestroy (kidNat (kidBytes i)) (s2, w1.2).1 = (.ok (), s3) := by rw [kid_round h4.range.2]; exact h5
    simp only [suiteEnv, runP_eq h5]
  rw [this]
  exact ⟨hI.1.later h6, h2⟩

theorem nonempty_of {b : Bytes} {n : Nat} (h : b.length = n) (hn : n ≠ 0) : b ≠ [] := by
  rintro rfl
  exact hn h.symm

theorem keyOk_key (hq : q ∈ shipped) {raw : Bytes} (h : raw.length = q.aeadKey) (n : Nat) :
    keyOk A (attrOf q .encrypt n) raw = true ∧ keyOk A (attrOf q .decrypt n) raw = true := by
  simp only [shipped, List.mem_cons, List.not_mem_nil, or_false] at hq
  rcases hq with rfl | rfl | rfl | rfl <;>
    simp [suite0, suite2, suite4, suite24, keyOk, attrOf, aeadKind] at h ⊢ <;> omega

theorem keyOk_priv (hq : q ∈ shipped) {raw : Bytes} (h : isPriv A q raw) :
    keyOk A (attrOf q .keyAgreement raw.length) raw = true := by
  cases hc : q.curve with
  | none =>
    simp only [isPriv, hc] at h
    simp [attrOf, hc, keyOk, h]
  | some c =>
    simp only [isPriv, hc] at h
    have := ((shaped (A := A) hq).ecc c hc).1
    simp [attrOf, hc, keyOk, h.1, this, h.2]

/-- key agreement with a key of the right kind -/
theorem agree_run (hl : AlgLaws A q) (hq : q ∈ shipped) {raw y : Bytes} (hr : isPriv A q raw) (hy : isPriv A q y)
    {s : Store} {i : Nat} (hc : Calm s) (hk : s.find i = some ⟨attrOf q .keyAgreement raw.length, raw⟩) :
    ∃ s', keyAgree A q i ((primsOf A q).pub y) q.ecc s = (.ok ((primsOf A q).dh raw ((primsOf A q).pub y)), s') ∧
      (s' = s.tick ∨ s' = s.tick.tick.tick) := by
  have hs := shaped (A := A) hq
  have hpl := (prims_sized hl hq).pub y hy
  cases hcu : q.curve with
  | none =>
    have hr' := hr
    simp only [isPriv, hcu] at hr'
    have h32 := hs.ecx hcu
    have := keyAgree_run_x (A := A) (id := i) (n := q.ecc) (peer := (primsOf A q).pub y) hcu hc hk (by simp [attrOf, hcu])
      hr' (hpl.trans h32) h32
    refine ⟨_, this.trans ?_, Or.inl rfl⟩
    simp only [primsOf, hcu]
  | some c =>
    have he := hs.ecc c hcu
    have hr' := hr
    simp only [isPriv, hcu] at hr'
    obtain ⟨Y, -, hY⟩ := pub_point hl hcu hy
    obtain ⟨Y', h1, h2⟩ := decompress_point (good (shipped_curve hq hcu)) hY
    have hbits : (attrOf q .keyAgreement raw.length).bits = 8 * c.len := by simp [attrOf, hcu, he.1]
    have hpt : A.ecPoint (8 * c.len) (decompress c ((primsOf A q).pub y)) = true :=
      ((hl.curve c hcu).point _).2 ⟨_, _, h1, h2⟩
    have hsz := (hl.curve c hcu).size raw _ hr'.2 hpt
    have := keyAgree_run_ec (A := A) (id := i) (n := q.ecc) (peer := (primsOf A q).pub y) hcu hc hk (by simp [attrOf, hcu])
      (by simp [attrOf, hcu]) (by simp [attrOf, hcu]) hY.lenX he.1 (by omega) (by rw [hbits]; exact hpt)
      (by simp only [hbits]; omega)
    refine ⟨_, this.trans ?_, Or.inr rfl⟩
    simp only [hbits]
    rw [dh_decompress hl hcu hr'.2 hY.lenX hpt]

/-- Applications with a shipped suite are honest. -/
theorem suite_honest (hl : AlgLaws A q) (hq : q ∈ shipped) (hX : Hosts X k J p) (he : k.expand ≤ 255 * q.hash.len) :
    Honest (primsOf A q) q.table k (Fine A q id own J) (suiteEnv A q X) where
  alloc w n hI := by
    obtain ⟨h1, h2, h3⟩ := hX.alloc w n hI.2
    refine ⟨h1, ?_⟩
    show InOrder A q id own (X.alloc w n).2.1 ∧ _
    rw [h2]
    exact ⟨hI.1, h3⟩
  hash w b hI hb := by
    have hs := shaped (A := A) hq
    have := hash_run (A := A) (q := q) (n := q.hashLen) hI.1.calm' hb (Nat.le_of_eq hs.hash.symm)
    have := runP_eq (w := w) this
    show (runP (hashInput A q b q.hashLen) w).1 = _ ∧ Fine A q id own J (runP (hashInput A q b q.hashLen) w).2
    rw [this]
    exact ⟨rfl, hI.1.later (Later.refl _).tick, hI.2⟩
  eadCompose w m hI := by
    obtain ⟨h1, h2, h3⟩ := hX.eadCompose w m hI.2
    refine ⟨h1, ?_⟩
    show InOrder A q id own (X.eadCompose w m).2.1 ∧ _
    rw [h2]
    exact ⟨hI.1, h3⟩
  eadProcess w m ts hI := by
    obtain ⟨h1, h2, h3⟩ := hX.eadProcess w m ts hI.2
    refine ⟨h1, ?_⟩
    show InOrder A q id own (X.eadProcess w m ts).2.1 ∧ _
    rw [h2]
    exact ⟨hI.1, h3⟩
  key w t raw hI hf := by
    have hs := shaped (A := A) hq
    have hok := suite_ok hq
    have imp : ∀ {i s1}, keyImport A q t raw w.1 = (.ok i, s1) →
        (suiteEnv A q X).importKey w t raw = (some (kidBytes i), s1, w.2) := by
      intro i s1 h
      simp only [suiteEnv, runP_eq h, Option.map_some]
    cases t with
    | makeKeyPair =>
      have hf : raw = [] := hf
      subst hf
      have al : ∀ s1 : Store, (∀ n, ((suiteEnv A q X).alloc (s1, w.2) n).1 = true) ∧
          ∀ w' : World τ, (w' = (s1, w.2) ∨ ∃ n, w' = ((suiteEnv A q X).alloc (s1, w.2) n).2) → w'.1 = s1 ∧ J w'.2 := by
        intro s1
        refine ⟨fun n => (hX.alloc (s1, w.2) n hI.2).1, ?_⟩
        rintro w' (rfl | ⟨n, rfl⟩)
        · exact ⟨rfl, hI.2⟩
        · exact ⟨(hX.alloc (s1, w.2) n hI.2).2.1, (hX.alloc (s1, w.2) n hI.2).2.2⟩
      cases hc : q.curve with
      | none =>
        have hi : keyImport A q .makeKeyPair [] w.1 = (.ok 0, w.1) := by simp only [keyImport, hc]; rfl
        rw [imp hi]
        refine ⟨_, rfl, (al _).1, fun w' hw' => ?_⟩
        obtain ⟨h1, h2⟩ := (al _).2 w' hw'
        have h32 := hs.ecx hc
        have hcalm : Calm w'.1 := by rw [h1]; exact hI.1.calm'
        have hrun := makePair_run_x (A := A) (id := kidNat (kidBytes 0)) (n := q.ecc) (m := q.ecc) hc hcalm
          (by omega) (by omega)
        refine ⟨clamp (w'.1.random 32), ?_, ?_, ?_, ?_⟩
        · show (runP (makePair A q (kidNat (kidBytes 0)) q.ecc q.ecc) w').1 = _
          rw [runP_eq hrun]
          simp only [primsOf, hc, clamp_clamp]
        · show isPriv A q _
          simp only [isPriv, hc, clamp_length, Store.random]
          exact fitLen_length _ _
        · rw [clamp_length, Store.random, fitLen_length]
          exact h32.symm
        · show Fine A q id own J ((suiteEnv A q X).destroyKey (runP (makePair A q (kidNat (kidBytes 0)) q.ecc q.ecc) w').2 _)
          rw [runP_eq hrun]
          have hd : keyDestroy (kidNat (kidBytes 0)) (w'.1.tick, w'.2).1 = (.ok (), w'.1.tick.tick) := by
            rw [kid_round (by decide)]
            exact destroy_zero hcalm.tick
          simp only [suiteEnv, runP_eq hd]
          refine ⟨?_, h2⟩
          rw [h1]
          exact hI.1.later (Later.refl _).tick.tick
      | some c =>
        have hecc := hs.ecc c hc
        obtain ⟨i, s1, h1, h2⟩ := generate_with hc hq hI.1
        rw [imp h1]
        refine ⟨_, rfl, (al _).1, fun w' hw' => ?_⟩
        obtain ⟨h3, h4⟩ := (al _).2 w' hw'
        have hx := hI.1.draws _ (Nat.le_refl _)
        have hx' := hx
        simp only [isPriv, hc] at hx'
        have hb : 8 * q.ecc = 8 * c.len := by rw [hecc.1]
        obtain ⟨_, _, -, -, hpl⟩ := pub_length (hl.curve c hc) hx'.2
        have hrun := makePair_run_ec (A := A) (id := kidNat (kidBytes i)) (n := q.ecc) (m := q.ecc) hc
          (h2.calm hI.1.calm') (by rw [kid_round h2.range.2]; exact h2.find) (by simp [attrOf]) (by simp [attrOf])
          hx'.1 (by simp only [attrOf, hb]; exact hpl) (by omega) (by omega) (by omega) (by omega)
        obtain ⟨u1, u2⟩ := use_destroy (X := X) (w1 := w') (m := makePair A q (kidNat (kidBytes i)) q.ecc q.ecc) hI h3 h4 h2
          ⟨_, hrun, h2.tick.tick⟩
        refine ⟨fitLen q.ecc (w.1.rand w.1.clock), u1.trans ?_, hx, fitLen_length _ _, u2⟩
        simp only [primsOf, hc, attrOf, hb, hecc.1]
    | keyAgreement =>
      have hf : isPriv A q raw := hf
      obtain ⟨i, s1, h1, h2⟩ := import_with hI.1 (by simp) (keyOk_priv hq hf)
      rw [imp h1]
      refine ⟨_, rfl, fun y hy => ?_⟩
      obtain ⟨s2, h3, h4⟩ := agree_run hl hq hf hy (h2.calm hI.1.calm')
        (i := kidNat (kidBytes i)) (by rw [kid_round h2.range.2]; exact h2.find)
      refine use_destroy (X := X) (w1 := (s1, w.2)) hI rfl hI.2 h2 ⟨s2, h3, ?_⟩
      rcases h4 with rfl | rfl
      · exact h2.tick
      · exact h2.tick.tick.tick
    | extract =>
      have hf : raw.length = q.ecc := hf
      have h0 : 0 < q.ecc := hok.ecc.1
      obtain ⟨i, s1, h1, h2⟩ := import_with (t := .extract) (raw := raw) hI.1 (by simp)
        (by simp [attrOf, keyOk]; omega)
      rw [imp h1]
      refine ⟨_, rfl, fun salt hsalt => ?_⟩
      have hh : 0 < q.hashLen := hok.hash.1
      have hsalt : salt.length = q.hashLen := hsalt
      have hrun := extract_run (A := A) (q := q) (id := kidNat (kidBytes i)) (n := q.hashLen) (raw := raw) (salt := salt)
        (h2.calm hI.1.calm') (by rw [kid_round h2.range.2]; exact h2.find) (nonempty_of hsalt (by omega)) (by omega)
        (Nat.le_of_eq hs.hash)
      rw [List.take_of_length_le (Nat.le_of_eq ((hl.extract _ _).trans hs.hash.symm))] at hrun
      exact use_destroy (X := X) (w1 := (s1, w.2)) hI rfl hI.2 h2 ⟨_, hrun, h2.tick.tick.tick.tick.tick.tick⟩
    | expand =>
      have hf : raw.length = q.hashLen := hf
      have hh : 0 < q.hashLen := hok.hash.1
      obtain ⟨i, s1, h1, h2⟩ := import_with (t := .expand) (raw := raw) hI.1 (by simp)
        (by simp [attrOf, keyOk]; omega)
      rw [imp h1]
      refine ⟨_, rfl, fun info n hinfo hn hk => ?_⟩
      have hrun := expand_run (A := A) (q := q) (id := kidNat (kidBytes i)) (n := n) (raw := raw) (info := info)
        (h2.calm hI.1.calm') (by rw [kid_round h2.range.2]; exact h2.find) hinfo (hf.trans hs.hash) (by omega) (by omega)
      exact use_destroy (X := X) (w1 := (s1, w.2)) hI rfl hI.2 h2 ⟨_, hrun, h2.tick.tick.tick.tick.tick.tick⟩
    | encrypt =>
      have hf : raw.length = q.aeadKey := hf
      obtain ⟨i, s1, h1, h2⟩ := import_with (t := .encrypt) (raw := raw) hI.1 (by simp) (keyOk_key hq hf _).1
      rw [imp h1]
      refine ⟨_, rfl, fun iv aad pt hiv haad hpt => ?_⟩
      have hiv : iv.length = q.aeadIv := hiv
      have ht := hs.tag
      have hrun := encrypt_run (A := A) (q := q) (id := kidNat (kidBytes i)) (n := pt.length + q.aeadTag) (raw := raw) (iv := iv)
        (ad := aad) (p := pt)
        (h2.calm hI.1.calm') (by rw [kid_round h2.range.2]; exact h2.find) (nonempty_of hiv hs.iv) haad
        (by rw [hiv]; exact hs.fits _ hpt) (Nat.le_refl _) (by omega)
      exact use_destroy (X := X) (w1 := (s1, w.2)) hI rfl hI.2 h2 ⟨_, hrun, h2.tick.tick⟩
    | decrypt =>
      have hf : raw.length = q.aeadKey := hf
      obtain ⟨i, s1, h1, h2⟩ := import_with (t := .decrypt) (raw := raw) hI.1 (by simp) (keyOk_key hq hf _).2
      rw [imp h1]
      refine ⟨_, rfl, fun iv aad pt hiv haad hpt => ?_⟩
      have hiv : iv.length = q.aeadIv := hiv
      have hlen := hl.enc raw iv aad pt
      have hrun := decrypt_run (A := A) (q := q) (id := kidNat (kidBytes i))
        (n := (A.enc q.aead q.aeadTag raw iv aad pt).length - q.aeadTag) (raw := raw) (iv := iv)
        (ad := aad) (p := pt) (c := A.enc q.aead q.aeadTag raw iv aad pt)
        (h2.calm hI.1.calm') (by rw [kid_round h2.range.2]; exact h2.find) (nonempty_of hiv hs.iv) haad hlen
        (by rw [hiv]; exact hs.fits _ hpt) (by omega) hs.tag (hl.dec _ _ _ _)
      exact use_destroy (X := X) (w1 := (s1, w.2)) hI rfl hI.2 h2 ⟨_, hrun, h2.tick.tick⟩
    | signature => exact hf.elim
    | verify => exact hf.elim

/-- valid signatures have the right length -/
def validSig (A : Algs) (q : Params) (pk m sig : Bytes) : Bool := SignatureOk A q pk m sig && sig.length == q.sign

/-- An application owns its identity. -/
theorem suite_owns (hl : AlgLaws A q) (hq : q ∈ shipped) (hX : Hosts X k J p) {signs : Bool}
    (hk : p.kid = kidBytes id ∧ id < 2 ^ 32) (ho : OwnKey A q own p signs) :
    Owns (primsOf A q) (validSig A q) q.table signs (Fine A q id own J) (suiteEnv A q X) p where
  fetch w hI := by
    obtain ⟨h1, h2, h3⟩ := hX.credFetch w hI.2
    refine ⟨h1, ?_⟩
    show InOrder A q id own (X.credFetch w).2.1 ∧ _
    rw [h2]
    exact ⟨hI.1, h3⟩
  pk := by
    cases signs with
    | true =>
      obtain ⟨-, ho⟩ := ho
      cases hc : q.curve with
      | none =>
        simp only [hc] at ho
        exact nonempty_of ho.2.1 (by decide)
      | some c =>
        simp only [hc] at ho
        obtain ⟨_, _, h, -⟩ := pub_length (hl.curve c hc) ho.1
        rw [ho.2, h]
        simp
    | false =>
      obtain ⟨-, h1, h2⟩ := ho
      have h3 := (prims_sized hl hq).pub _ h1
      have h4 := (suite_ok hq).ecc.1
      rw [h2]
      exact nonempty_of h3 (by omega)
  sign hsg w m hI hm := by
    subst hsg
    obtain ⟨ho, hp⟩ := ho
    have hs := shaped (A := A) hq
    have hfind : w.1.find (kidNat p.kid) = some own := by rw [hk.1, kid_round hk.2]; exact hI.1.own
    have h0 : 0 < q.sign := (suite_ok hq).sign.1
    cases hc : q.curve with
    | none =>
      simp only [hc] at hp
      rw [ho] at hfind
      have hrun := sign_run_x (A := A) (n := q.sign) hc hI.1.calm' hfind (by simp [attrOf, hc]) hp.1 hm rfl (by omega)
      have hlen : (A.ed25519Sign p.sk m).length = q.sign := (hl.ed25519 hc _ _).trans (hs.sigx hc).symm
      show (∃ s, (runP (signInput A q (kidNat p.kid) m q.sign) w).1 = some s ∧ _) ∧
        Fine A q id own J (runP (signInput A q (kidNat p.kid) m q.sign) w).2
      rw [runP_eq hrun]
      refine ⟨⟨_, rfl, Nat.lt_of_lt_of_eq h0 hlen.symm, Nat.le_of_eq hlen, ?_⟩, hI.1.later (Later.refl _).tick, hI.2⟩
      simp only [validSig, SignatureOk, hc, hp.2.2, hlen, beq_self_eq_true, Bool.and_self]
    | some c =>
      simp only [hc] at hp
      have he := hs.ecc c hc
      rw [ho] at hfind
      have hbits : (attrOf q .signature p.sk.length).bits = 8 * c.len := by simp [attrOf, hc, he.1]
      obtain ⟨r, hrun⟩ := sign_run_ec (A := A) (n := q.sign) hc hI.1.calm' hfind (by simp [attrOf, hc]) (by simp [attrOf, hc])
        (by simp [attrOf, hc]) (by have := hs.sig c hc; simp only [hbits]; omega) hm rfl (by omega) (hl.hash _)
        (fun r => by simp only [hbits]; exact (hl.ecdsa c hc _ _ r hp.1 (hl.hash _)).1)
      obtain ⟨e1, e2⟩ := hl.ecdsa c hc p.sk (A.hash q.hash m) r hp.1 (hl.hash _)
      simp only [hbits] at hrun
      show (∃ s, (runP (signInput A q (kidNat p.kid) m q.sign) w).1 = some s ∧ _) ∧
        Fine A q id own J (runP (signInput A q (kidNat p.kid) m q.sign) w).2
      rw [runP_eq hrun]
      refine ⟨⟨_, rfl, by omega, Nat.le_of_eq e1, ?_⟩, hI.1.later (Later.refl _).tick.tick.tick, hI.2⟩
      simp only [validSig, SignatureOk, hc, hp.2, e2, e1, beq_self_eq_true, Bool.and_self]
  agree hsg := by
    subst hsg
    obtain ⟨ho, h1, h2⟩ := ho
    refine ⟨h2, h1, fun w y hI hy => ?_⟩
    have hfind : w.1.find (kidNat p.kid) = some own := by rw [hk.1, kid_round hk.2]; exact hI.1.own
    rw [ho] at hfind
    obtain ⟨s', h3, h4⟩ := agree_run hl hq h1 hy hI.1.calm' hfind
    show (runP (keyAgree A q (kidNat p.kid) _ q.ecc) w).1 = _ ∧ Fine A q id own J (runP (keyAgree A q (kidNat p.kid) _ q.ecc) w).2
    rw [runP_eq h3]
    refine ⟨rfl, hI.1.later ?_, hI.2⟩
    rcases h4 with rfl | rfl
    · exact (Later.refl _).tick
    · exact (Later.refl _).tick.tick.tick

/-- With a key store in order, an importable public key verifies the signatures that are valid for it. -/
theorem suite_verifies (hl : AlgLaws A q) (hq : q ∈ shipped) {pk : Bytes} (hp : VerifyKey A q pk) (w : World τ)
    (hI : Fine A q id own J w) : ∃ kid, ((suiteEnv A q X).importKey w .verify pk).1 = some kid ∧
    ∀ m s, m ≠ [] → validSig A q pk m s = true →
      ((suiteEnv A q X).verify ((suiteEnv A q X).importKey w .verify pk).2 kid m s).1 = true ∧
      Fine A q id own J ((suiteEnv A q X).destroyKey
        ((suiteEnv A q X).verify ((suiteEnv A q X).importKey w .verify pk).2 kid m s).2 kid) := by
  have hs := shaped (A := A) hq
  have h0 : 0 < q.sign := (suite_ok hq).sign.1
  unfold VerifyKey at hp
  have hkey : keyOk A (attrOf q .verify pk.length) pk = true := by
    cases hc : q.curve with
    | none =>
      simp only [hc] at hp
      simp [attrOf, hc, keyOk, hp]
    | some c =>
      simp only [hc] at hp
      have he := (hs.ecc c hc).1
      simp only [attrOf, hc, keyOk, he, Bool.and_eq_true, beq_iff_eq]
      exact ⟨by rw [hp.1]; omega, hp.2⟩
  obtain ⟨i, s1, h1, h2⟩ := import_with hI.1 (by simp) hkey
  have imp : (suiteEnv A q X).importKey w .verify pk = (some (kidBytes i), s1, w.2) := by
    simp only [suiteEnv, runP_eq h1, Option.map_some]
  rw [imp]
  refine ⟨_, rfl, fun m sg hm hv => ?_⟩
  simp only [validSig, Bool.and_eq_true, beq_iff_eq] at hv
  have hfind : s1.find (kidNat (kidBytes i)) = some ⟨attrOf q .verify pk.length, pk⟩ := by
    rw [kid_round h2.range.2]; exact h2.find
  have hrun : ∃ s2, verifyInput A q (kidNat (kidBytes i)) m sg s1 = (.ok (), s2) ∧
      With w.1 i ⟨attrOf q .verify pk.length, pk⟩ s2 := by
    cases hc : q.curve with
    | none =>
      simp only [hc] at hp
      exact ⟨_, verify_run_x hc (h2.calm hI.1.calm') hfind (by simp [attrOf, hc]) hp hm hv.2 (by omega)
        (by simpa only [SignatureOk, hc] using hv.1), h2.tick⟩
    | some c =>
      have he := (hs.ecc c hc).1
      have hbits : (attrOf q .verify pk.length).bits = 8 * c.len := by simp [attrOf, hc, he]
      exact ⟨_, verify_run_ec hc (h2.calm hI.1.calm') hfind (by simp [attrOf, hc]) (by simp [attrOf, hc])
        (by simp [attrOf, hc]) hm hv.2 (by omega) (hl.hash _)
        (by simp only [hbits]; simpa only [SignatureOk, hc] using hv.1), h2.tick.tick.tick⟩
  obtain ⟨u1, u2⟩ := use_destroy (X := X) (w1 := (s1, w.2)) hI rfl hI.2 h2 hrun
  refine ⟨?_, u2⟩
  show (runP (verifyInput A q (kidNat (kidBytes i)) m sg) (s1, w.2)).1.isSome = true
  rw [u1]; rfl

/-- The public key of a party that signs can be imported. -/
theorem verifyKey_own (hl : AlgLaws A q) {own : Key} {p : Identity} (ho : OwnKey A q own p true) : VerifyKey A q p.pk := by
  obtain ⟨-, hp⟩ := ho
  unfold VerifyKey
  cases hc : q.curve with
  | none =>
    simp only [hc] at hp
    exact hp.2.1
  | some c =>
    simp only [hc] at hp
    obtain ⟨_, _, -, -, h⟩ := pub_length (hl.curve c hc) hp.1
    rw [hp.2]
    exact ⟨by rw [h]; omega, (hl.curve c hc).pub _ hp.1⟩

/-- An application recognises its peer. -/
theorem suite_recognises (hl : AlgLaws A q) (hq : q ∈ shipped) (hX : Serves X k J p p') {signs : Bool} {own' : Key}
    (ho : OwnKey A q own' p' signs) :
    Recognises (validSig A q) signs (Fine A q id own J) (suiteEnv A q X) p' where
  cred i hi w hI := by
    obtain ⟨h1, h2, h3⟩ := hX.credVerify w i hi hI.2
    refine ⟨h1, ?_⟩
    show InOrder A q id own (X.credVerify w (asReceived i)).2.1 ∧ _
    rw [h2]
    exact ⟨hI.1, h3⟩
  verify hsg w hI := by
    subst hsg
    exact suite_verifies hl hq (verifyKey_own hl ho) w hI

end Verif.Psa
