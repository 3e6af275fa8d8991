import Verif.Suite.Sound
import Verif.Replay

/-!
# Sessions over a shipped suite compute its primitives

For every pattern of failures in the libraries below.
-/

namespace Verif.Psa

open P Spec

variable {τ α : Type} {A : Algs} {q : Params} {X : App τ}

theorem runP_some {m : P α} {w w' : World τ} {a : α} (h : runP m w = (some a, w')) :
    m w.1 = (.ok a, w'.1) ∧ w'.2 = w.2 := by
  simp only [runP, Prod.mk.injEq] at h
  obtain ⟨h1, h2⟩ := h
  rcases hm : m w.1 with ⟨r, s⟩
  rw [hm] at h1 h2
  cases r with
  | ok b =>
    simp only [Res.toOption, Option.some.injEq] at h1
    subst h1
    rw [← h2]; exact ⟨rfl, rfl⟩
  | err e => simp [Res.toOption] at h1
  | ub u => simp [Res.toOption] at h1

theorem runP_store {m : P α} {w w' : World τ} {r : Option α} (h : runP m w = (r, w')) : w'.1 = (m w.1).2 ∧ w'.2 = w.2 := by
  simp only [runP, Prod.mk.injEq] at h
  rw [← h.2]; exact ⟨rfl, rfl⟩

theorem kid_round {i : Nat} (h : i < 2 ^ 32) : kidNat (kidBytes i) = i := by
  rw [kidNat, kidBytes, beNat_beBytes]
  omega

/-! ## Clamping -/

theorem byte_all {f : UInt8 → Bool} (h : ∀ n : Fin 256, f (UInt8.ofNat n.val) = true) (b : UInt8) : f b = true := by
  have := h ⟨b.toNat, b.toNat_lt⟩
  simpa using this

theorem clamp_length (k : Bytes) : (clamp k).length = k.length := by simp [clamp, updAt]

theorem clamp_clamp (k : Bytes) : clamp (clamp k) = clamp k := by
  have h1 : ∀ b : UInt8, (b &&& 0xf8) &&& 0xf8 = b &&& 0xf8 := fun b =>
    eq_of_beq (byte_all (f := fun b => (b &&& 0xf8) &&& 0xf8 == b &&& 0xf8) (by decide +kernel) b)
  have h2 : ∀ b : UInt8, (((b &&& 0x7f) ||| 0x40) &&& 0x7f) ||| 0x40 = (b &&& 0x7f) ||| 0x40 := fun b =>
    eq_of_beq (byte_all (f := fun b => (((b &&& 0x7f) ||| 0x40) &&& 0x7f) ||| 0x40 == (b &&& 0x7f) ||| 0x40)
      (by decide +kernel) b)
  apply List.ext_getElem?
  intro i
  simp only [clamp, updAt, List.getElem?_modify]
  cases hk : k[i]? with
  | none => simp
  | some b =>
    by_cases h31 : 31 = i
    · subst h31; simp [h2]
    · by_cases h0 : 0 = i
      · subst h0; simp [h1]
      · simp [h31, h0]

/-! ## Keys in the store -/

theorem Reads.valid {m : P α} (hm : Reads m) {s : Store} (h : Valid A s) : Valid A (m s).2 := by
  intro i k hk
  rw [hm.find] at hk
  exact h i k hk

theorem Reads.kept {m : P α} (hm : Reads m) (s : Store) : Kept s (m s).2 := by
  intro i k hk
  rw [hm.find]; exact hk

theorem Added.valid {s s' : Store} {i : Nat} {k : Key} (h : Added s s' i k) (hk : keyOk A k.attr k.data = true)
    (hv : Valid A s) : Valid A s' := by
  intro j k' hj
  rw [h.find] at hj
  split at hj
  · cases hj; exact hk
  · exact hv j k' hj

theorem Added.kept {s s' : Store} {i : Nat} {k : Key} (h : Added s s' i k) : Kept s s' := by
  intro j k' hj
  rw [h.find]
  split
  · next e => subst e; rw [freeId_none h.free] at hj; cases hj
  · exact hj

/-- a call that failed leaves the keys alone -/
theorem psa_err {f : Store → Option (α × List (Nat × Key))} {s s' : Store} {e : Err} (h : psa f s = (.err e, s')) :
    s' = s.tick := by
  simp only [psa] at h
  split at h
  · cases h; rfl
  · split at h
    · cases h
    · cases h; rfl

theorem psa_ub {f : Store → Option (α × List (Nat × Key))} {s s' : Store} {u : UB} : psa f s ≠ (.ub u, s') := by
  intro h
  simp only [psa] at h
  split at h
  · cases h
  · split at h <;> cases h

/-- an import either adds the key, or (suites 0 and 4, new key pair) does nothing, or fails -/
theorem import_cases {t : KeyType} {raw : Bytes} {s s' : Store} {r : Res Nat} (h : keyImport A q t raw s = (r, s')) :
    (∃ i k, r = .ok i ∧ Added s s' i k ∧ keyOk A k.attr k.data = true ∧ k.attr = attrOf q t raw.length ∧
      (t ≠ .makeKeyPair → k.data = raw)) ∨
    (r = .ok 0 ∧ s' = s ∧ t = .makeKeyPair ∧ q.curve = none) ∨ (∃ e, r = .err e) ∧ s' = s.tick := by
  have himp : ∀ {a : Attr} {b : Bytes}, importKey A a b s = (r, s') →
      (∃ i, r = .ok i ∧ keyOk A a b = true ∧ Added s s' i ⟨a, b⟩) ∨ (∃ e, r = .err e) ∧ s' = s.tick := by
    intro a b h
    cases r with
    | ok i => exact Or.inl ⟨i, rfl, importKey_ok h⟩
    | err e => exact Or.inr ⟨⟨e, rfl⟩, psa_err h⟩
    | ub u => exact absurd h psa_ub
  have hgen : ∀ {a : Attr}, generateKey A a s = (r, s') →
      (∃ i b, r = .ok i ∧ keyOk A a b = true ∧ Added s s' i ⟨a, b⟩) ∨ (∃ e, r = .err e) ∧ s' = s.tick := by
    intro a h
    cases r with
    | ok i => exact Or.inl ⟨i, _, rfl, generateKey_ok h⟩
    | err e => exact Or.inr ⟨⟨e, rfl⟩, psa_err h⟩
    | ub u => exact absurd h psa_ub
  have hother : t ≠ .makeKeyPair → importKey A (attrOf q t raw.length) raw s = (r, s') := by
    intro ht
    cases t <;> first | exact absurd rfl ht | (cases hq : q.curve <;> simpa only [keyImport, hq] using h)
  by_cases ht : t = .makeKeyPair
  · subst ht
    cases hq : q.curve with
    | none =>
      simp only [keyImport, hq, pure_def] at h
      cases h; exact Or.inr (Or.inl ⟨rfl, rfl, rfl, rfl⟩)
    | some c =>
      simp only [keyImport, hq] at h
      rcases hgen h with ⟨i, b, h1, h2, h3⟩ | h1
      · exact Or.inl ⟨i, _, h1, h3, h2, rfl, fun h => absurd rfl h⟩
      · exact Or.inr (Or.inr h1)
  · rcases himp (hother ht) with ⟨i, h1, h2, h3⟩ | h1
    · exact Or.inl ⟨i, _, h1, h3, h2, rfl, fun _ => rfl⟩
    · exact Or.inr (Or.inr h1)

/-- the store after an import -/
theorem import_store {t : KeyType} {b : Bytes} {r : Option Bytes} {w w' : World τ}
    (h : Ran1 (suiteEnv A q X) w (.importKey t b r) w') :
    (runP (keyImport A q t b) w).1.map kidBytes = r ∧ (runP (keyImport A q t b) w).2 = w' ∧
      keyImport A q t b w.1 = ((keyImport A q t b w.1).1, w'.1) := by
  simp only [Ran1, suiteEnv, Prod.mk.injEq] at h
  exact ⟨h.1, h.2, by rw [← h.2]; rfl⟩

theorem destroy_store {k : Bytes} {w w' : World τ} (h : Ran1 (suiteEnv A q X) w (.destroyKey k) w') :
    w'.1 = (keyDestroy (kidNat k) w.1).2 := by
  have h : (runP (keyDestroy (kidNat k)) w).2 = w' := h
  rw [← h]; rfl

theorem tick_valid {s : Store} (h : Valid A s) : Valid A s.tick := h

theorem destroy_find {id : Nat} (s : Store) (j : Nat) :
    (keyDestroy id s).2.find j = s.find j ∨ (j = id ∧ id ≠ 0 ∧ (keyDestroy id s).2.find j = none) := by
  rw [keyDestroy, destroyKey]
  rcases h : psa (fun s => if id = 0 then some ((), s.keys) else
    if (s.find id).isSome then some ((), s.keys.filter fun p => p.1 != id) else none) s with ⟨r, s'⟩
  cases r with
  | ub u => exact absurd h psa_ub
  | err e => rw [psa_err h]; exact Or.inl rfl
  | ok a =>
    obtain ⟨-, ks, h1, h2⟩ := psa_ok.1 h
    subst h2
    split at h1
    · cases h1; exact Or.inl rfl
    · next h0 =>
      split at h1
      · cases h1
        simp only [Store.find]
        by_cases hj : j = id
        · refine Or.inr ⟨hj, h0, ?_⟩
          rw [lookup_filter, if_pos hj]
        · left
          rw [lookup_filter, if_neg hj]
      · cases h1

/-- calls that only look at keys -/
theorem read_store {v : Ev} {w w' : World τ} (h : Ran1 (suiteEnv A q X) w v w') :
    (∃ t b r, v = .importKey t b r) ∨ (∃ k, v = .destroyKey k) ∨
      (Kept w.1 w'.1 ∧ (Valid A w.1 → Valid A w'.1)) ∨
      ∃ n r, v = .alloc n r ∨ (∃ m r, v = .eadCompose m r) ∨ (∃ m l r, v = .eadProcess m l r) ∨ (∃ r, v = .credFetch r) ∨
        ∃ c r, v = .credVerify c r := by
  have go : ∀ {β : Type} {m : P β} {r : Option β}, Reads m → runP m w = (r, w') → Kept w.1 w'.1 ∧ (Valid A w.1 → Valid A w'.1) := by
    intro β m r hm hr
    rw [(runP_store hr).1]
    exact ⟨hm.kept _, hm.valid⟩
  cases v with
  | importKey t b r => exact Or.inl ⟨t, b, r, rfl⟩
  | destroyKey k => exact Or.inr (Or.inl ⟨k, rfl⟩)
  | alloc n r => exact Or.inr (Or.inr (Or.inr ⟨n, r, Or.inl rfl⟩))
  | eadCompose m r => exact Or.inr (Or.inr (Or.inr ⟨0, true, Or.inr (Or.inl ⟨m, r, rfl⟩)⟩))
  | eadProcess m l r => exact Or.inr (Or.inr (Or.inr ⟨0, true, Or.inr (Or.inr (Or.inl ⟨m, l, r, rfl⟩))⟩))
  | credFetch r => exact Or.inr (Or.inr (Or.inr ⟨0, true, Or.inr (Or.inr (Or.inr (Or.inl ⟨r, rfl⟩)))⟩))
  | credVerify c r => exact Or.inr (Or.inr (Or.inr ⟨0, true, Or.inr (Or.inr (Or.inr (Or.inr ⟨c, r, rfl⟩)))⟩))
  | makeKeyPair k r => exact Or.inr (Or.inr (Or.inl (go (reads_makePair _ _ _) h)))
  | keyAgreement k p r => exact Or.inr (Or.inr (Or.inl (go (reads_keyAgree _ _ _) h)))
  | sign k b r => exact Or.inr (Or.inr (Or.inl (go (reads_sign _ _ _) h)))
  | verify k b c r =>
    simp only [Ran1, suiteEnv, Prod.mk.injEq] at h
    exact Or.inr (Or.inr (Or.inl (go (r := (runP (verifyInput A q (kidNat k) b c) w).1) (reads_verify _ _ _)
      (Prod.ext rfl h.2))))
  | extract k b r => exact Or.inr (Or.inr (Or.inl (go (reads_extract _ _ _) h)))
  | expand k b n r =>
    obtain ⟨o, h1, -⟩ := h
    exact Or.inr (Or.inr (Or.inl (go (reads_expand _ _ _) h1)))
  | encrypt k a b c r => exact Or.inr (Or.inr (Or.inl (go (reads_encrypt _ _ _ _ _) h)))
  | decrypt k a b c r => exact Or.inr (Or.inr (Or.inl (go (reads_decrypt _ _ _ _ _) h)))
  | hash b r => exact Or.inr (Or.inr (Or.inl (go (reads_hash _ _) h)))

/-- every call but a destruction keeps the keys -/
theorem ran1_kept (hX : Decent A X) {v : Ev} {w w' : World τ} (h : Ran1 (suiteEnv A q X) w v w')
    (hv : ∀ k, v ≠ .destroyKey k) : Kept w.1 w'.1 := by
  rcases read_store h with ⟨t, b, r, rfl⟩ | ⟨k, rfl⟩ | h1 | ⟨n, r, rfl | ⟨m, r, rfl⟩ | ⟨m, l, r, rfl⟩ | ⟨r, rfl⟩ | ⟨c, r, rfl⟩⟩
  · rcases import_cases (import_store h).2.2 with ⟨i, k, -, h3, -⟩ | ⟨-, h3, -⟩ | ⟨-, h3⟩
    · exact h3.kept
    · rw [h3]; exact fun _ _ h => h
    · rw [h3]; exact fun _ _ h => h
  · exact absurd rfl (hv k)
  · exact h1.1
  · have := (hX.alloc w n).1; rwa [show X.alloc w n = (r, w') from h] at this
  · have := (hX.eadCompose w m).1; rwa [show X.eadCompose w m = (r, w') from h] at this
  · have := (hX.eadProcess w m l).1; rwa [show X.eadProcess w m l = (r, w') from h] at this
  · have := (hX.credFetch w).1; rwa [show X.credFetch w = (r, w') from h] at this
  · have := (hX.credVerify w c).1; rwa [show X.credVerify w c = (r, w') from h] at this

theorem ran1_valid (hX : Decent A X) {v : Ev} {w w' : World τ} (h : Ran1 (suiteEnv A q X) w v w')
    (hw : Valid A w.1) : Valid A w'.1 := by
  rcases read_store h with ⟨t, b, r, rfl⟩ | ⟨k, rfl⟩ | h1 | ⟨n, r, rfl | ⟨m, r, rfl⟩ | ⟨m, l, r, rfl⟩ | ⟨r, rfl⟩ | ⟨c, r, rfl⟩⟩
  · rcases import_cases (import_store h).2.2 with ⟨i, k, -, h3, h4, -⟩ | ⟨-, h3, -⟩ | ⟨-, h3⟩
    · exact h3.valid h4 hw
    · rw [h3]; exact hw
    · rw [h3]; exact hw
  · have h2 := destroy_store h
    intro i k' hk
    rw [h2] at hk
    rcases destroy_find (id := kidNat k) w.1 i with h3 | ⟨-, -, h3⟩
    · rw [h3] at hk; exact hw i k' hk
    · rw [h3] at hk; cases hk
  · exact h1.2 hw
  · have := (hX.alloc w n).2 hw; rwa [show X.alloc w n = (r, w') from h] at this
  · have := (hX.eadCompose w m).2 hw; rwa [show X.eadCompose w m = (r, w') from h] at this
  · have := (hX.eadProcess w m l).2 hw; rwa [show X.eadProcess w m l = (r, w') from h] at this
  · have := (hX.credFetch w).2 hw; rwa [show X.credFetch w = (r, w') from h] at this
  · have := (hX.credVerify w c).2 hw; rwa [show X.credVerify w c = (r, w') from h] at this

theorem ran_valid (hX : Decent A X) {l : List Ev} {w w' : World τ} (h : Ran (suiteEnv A q X) w l w')
    (hw : Valid A w.1) : Valid A w'.1 := by
  induction h with
  | nil => exact hw
  | cons h1 _ ih => exact ih (ran1_valid hX h1 hw)

/-- a successful import -/
theorem import_some {t : KeyType} {raw kid : Bytes} {w w' : World τ}
    (h : Ran1 (suiteEnv A q X) w (.importKey t raw (some kid)) w') :
    (∃ i k, kid = kidBytes i ∧ kidNat kid = i ∧ Added w.1 w'.1 i k ∧ keyOk A k.attr k.data = true ∧
      k.attr = attrOf q t raw.length ∧ (t ≠ .makeKeyPair → k.data = raw)) ∨
    (kidNat kid = 0 ∧ w'.1 = w.1 ∧ t = .makeKeyPair ∧ q.curve = none) := by
  obtain ⟨h1, h2, h3⟩ := import_store h
  rw [Option.map_eq_some_iff] at h1
  obtain ⟨i, h1, rfl⟩ := h1
  have h4 : (keyImport A q t raw w.1).1 = .ok i := by
    have := (runP_some (m := keyImport A q t raw) (w' := w') (Prod.ext h1 h2)).1
    rw [this]
  rcases import_cases h3 with
    ⟨j, k, h5, h6, h7, h8, h9⟩ | ⟨h5, h6, h7, h8⟩ | ⟨⟨e, h5⟩, -⟩
  · rw [h4] at h5
    cases h5
    have := freeId_range h6.free
    refine Or.inl ⟨i, k, rfl, kid_round (by simp only [idMin] at this; omega), h6, h7, h8, h9⟩
  · rw [h4] at h5
    cases h5
    exact Or.inr ⟨kid_round (by omega), h6, h7, h8⟩
  · rw [h4] at h5; cases h5

/-- A key the application has in the store when the session begins stays there. -/
theorem ran_kept (hX : Decent A X) {l : List Ev} {w w' : World τ} (h : Ran (suiteEnv A q X) w l w') (ho : OnlyOwn l)
    {i : Nat} {k : Key} (hi : w.1.find i = some k) (h0 : i ≠ 0) :
    w'.1.find i = some k ∧ ∀ kid, kidNat kid = i → imports kid l = 0 := by
  induction l using snoc_ind generalizing w' with
  | h0 => cases h; exact ⟨hi, fun _ _ => rfl⟩
  | hs l v ih =>
    obtain ⟨w1, h1, h2⟩ := h.split
    have h2 : Ran1 (suiteEnv A q X) w1 v w' := by
      cases h2 with
      | cons a b => cases b; exact a
    obtain ⟨h3, h4⟩ := ih h1 (fun kid P hP => ho kid P (hP.trans (List.prefix_append _ _)))
    by_cases hv : ∃ kd, v = .destroyKey kd
    · obtain ⟨kd, rfl⟩ := hv
      have h5 : ∀ kid, kidNat kid = i → imports kid (l ++ [.destroyKey kd]) = 0 := by
        intro kid hk
        rw [imports_append, h4 kid hk]; simp [imports]
      refine ⟨?_, h5⟩
      have h6 := destroy_store h2
      rw [h6]
      rcases destroy_find (id := kidNat kd) w1.1 i with h7 | ⟨h7, -, -⟩
      · rw [h7]; exact h3
      · have h8 := ho kd _ (List.prefix_refl _)
        rw [h5 kd h7.symm, destroys_append] at h8
        simp [destroys] at h8
    · have hv' : ∀ kd, v ≠ .destroyKey kd := fun kd he => hv ⟨kd, he⟩
      have h5 := ran1_kept hX h2 hv' i k h3
      refine ⟨h5, fun kid hk => ?_⟩
      rw [imports_append, h4 kid hk, Nat.zero_add]
      by_cases hm : ∃ t b, v = .importKey t b (some kid)
      · obtain ⟨t, b, rfl⟩ := hm
        rcases import_some h2 with ⟨j, k', hj, hj', h6, -⟩ | ⟨h6, -⟩
        · rw [hk] at hj'
          subst hj'
          rw [freeId_none h6.free] at h3
          cases h3
        · exact absurd (hk.symm.trans h6) h0
      · rw [imports, List.countP_eq_zero]
        intro x hx
        rw [List.mem_singleton.1 hx]
        intro hb
        cases v with
        | importKey t b r =>
          cases r with
          | none => exact absurd hb Bool.false_ne_true
          | some k' =>
            have hb : (k' == kid) = true := hb
            rw [eq_of_beq hb] at hm
            exact hm ⟨t, b, rfl⟩
        | _ => exact absurd hb Bool.false_ne_true

end Verif.Psa
