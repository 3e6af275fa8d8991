import Verif.Props.AeadKeys
import Verif.Props.SuiteKeyShare

/-!
# C87 and C88 with the shipped cipher suites
-/

namespace Verif

open M Spec Psa

/-! ## Sessions that use AEAD keys: all that compose or process message 3 with success -/

section
variable {N : Node}

theorem saw_infix {σ : Type} {L : List Ev} {a b : St σ} (h : Saw L a b) : L <:+: during a b := by
  obtain ⟨l1, l2, e⟩ := h
  exact ⟨l1, l2, by simp [during, e]⟩

theorem compose3_encrypts (g : N.Good) {n : Nat} {m : Bytes} (hm : (.compose3 n, .ok (.bytes m)) ∈ N.hist) :
    ∃ h k iv, EncryptsWith N h (.compose3 n) k iv := by
  obtain ⟨h1, a, b, p⟩ := session_at g.session hm
  obtain ⟨_, h0, _⟩ := mapOut_ok.1 p.step
  obtain ⟨_, v, c3⟩ := message3Compose_ok h0
  obtain ⟨kid, e⟩ := c3.encrypted
  obtain ⟨h2, e2, r2⟩ := p.split
  exact ⟨h1, v.k3, v.iv3, _, kid, _, _, _, ⟨_, h2, a, b, e2, p.before, p.step, p.defined, r2, rfl⟩,
    List.IsInfix.trans ⟨[], [.destroyKey kid], rfl⟩ (saw_infix e)⟩

theorem process3_decrypts (g : N.Good) {m : Bytes} (hm : (.process3 m, .ok .unit) ∈ N.hist) :
    ∃ h k iv, DecryptsWith N h (.process3 m) k iv := by
  obtain ⟨h1, a, b, p⟩ := session_at g.session hm
  obtain ⟨_, h0, _⟩ := mapOut_ok.1 p.step
  obtain ⟨_, _, _, v, c3⟩ := message3Process_ok h0
  obtain ⟨kid, e⟩ := c3.decrypted
  obtain ⟨h2, e2, r2⟩ := p.split
  exact ⟨h1, v.k3, v.iv3, _, kid, _, _, _, ⟨_, h2, a, b, e2, p.before, p.step, p.defined, r2, rfl⟩,
    List.IsInfix.trans ⟨[], [.destroyKey kid], rfl⟩ (saw_infix e)⟩

theorem inCall_sub {h : History} {o : Op} {L : List Ev} (x : InCall N h o L) {v : Ev} (hv : v ∈ L) :
    v ∈ N.calls := by
  obtain ⟨r, t, a, b, hh, hs, hst, hd, hr, rfl⟩ := x
  have p : Placed N.env N.cfg N.start N.log N.hist N.state h o r a b := ⟨⟨t, hh, hr⟩, hs, hst, hd⟩
  exact (placed_sub p).subset hv

end

/-- the shipped suites have AEAD keys of 16 bytes at least -/
theorem shipped_aeadKey {q : Params} (hq : q ∈ shipped) : 16 ≤ q.table.aeadKey := by
  revert q
  decide

section

variable {A : Algs} {q : Params} {ι : Type} {b : Nat} {W : ι → Site} {i j l : ι} {h h' h'' : History} {o o' o'' : Op}
  {k iv iv' : Bytes}

theorem suite_long (hq : q ∈ shipped) (w : SuiteSessions A q b W) (hb : b ≤ 16) (i : ι) :
    b ≤ ((W i).node A q).suite.aeadKey := by
  rw [w.suite]
  exact Nat.le_trans hb (shipped_aeadKey hq)

/-- **C87 with the shipped suites.** Two encryptions with the same AEAD key are the same encryption, or they encrypt
message 4 on both ends of one handshake. Missing: the second case does occur (`C87_violated`). -/
theorem C87_suites_partial (hl : AlgLaws A q) (hq : q ∈ shipped) (w : SuiteSessions A q b W) (hb : b ≤ 16)
    (x : EncryptsWith ((W i).node A q) h o k iv) (y : EncryptsWith ((W j).node A q) h' o' k iv') :
    (i = j ∧ h = h' ∧ o = o') ∨
      ((∃ n n', o = .compose4 n ∧ o' = .compose4 n') ∧
        ((Initiates ((W i).node A q) ∧ Responds ((W j).node A q)) ∨
          (Responds ((W i).node A q) ∧ Initiates ((W j).node A q)))) :=
  C87_once_partial (suite_sessions hl hq w) x y (suite_long hq w hb i)

/-- **C87 with the shipped suites**, if only Responders compose message 4: one encryption with each key. -/
theorem C87_suites_of_role (hl : AlgLaws A q) (hq : q ∈ shipped) (w : SuiteSessions A q b W) (hb : b ≤ 16)
    (hr : ∀ i, FourFromResponder ((W i).node A q))
    (x : EncryptsWith ((W i).node A q) h o k iv) (y : EncryptsWith ((W j).node A q) h' o' k iv') :
    i = j ∧ h = h' ∧ o = o' :=
  C87_once_of_role (suite_sessions hl hq w) hr x y (suite_long hq w hb i)

/-- **C87 with the algorithms the suites name.** -/
theorem C87_standard (hq : q ∈ shipped) (w : SuiteSessions Real.algs q b W) (hb : b ≤ 16)
    (hr : ∀ i, FourFromResponder ((W i).node Real.algs q))
    (x : EncryptsWith ((W i).node Real.algs q) h o k iv) (y : EncryptsWith ((W j).node Real.algs q) h' o' k iv') :
    i = j ∧ h = h' ∧ o = o' :=
  C87_suites_of_role (C58_laws hq) hq w hb hr x y

/-- **C88 with the shipped suites.** Two sessions that use the same AEAD key are the two ends of one handshake (or the
same session), and use it for the same message. -/
theorem C88_suites (hl : AlgLaws A q) (hq : q ∈ shipped) (w : SuiteSessions A q b W) (hb : b ≤ 16)
    (x : UsesAeadKey ((W i).node A q) h o k) (y : UsesAeadKey ((W j).node A q) h' o' k) :
    (i = j ∨ (Initiates ((W i).node A q) ∧ Responds ((W j).node A q)) ∨
        (Responds ((W i).node A q) ∧ Initiates ((W j).node A q))) ∧
      ((((∃ n, o = .compose3 n) ∨ ∃ m, o = .process3 m) ∧ ((∃ n, o' = .compose3 n) ∨ ∃ m, o' = .process3 m)) ∨
        (((∃ n, o = .compose4 n) ∨ ∃ m, o = .process4 m) ∧ ((∃ n, o' = .compose4 n) ∨ ∃ m, o' = .process4 m))) :=
  C88_one_handshake (suite_sessions hl hq w) x y (suite_long hq w hb i)

/-- **C88 with the shipped suites**, at most two. -/
theorem C88_suites_two (hl : AlgLaws A q) (hq : q ∈ shipped) (w : SuiteSessions A q b W) (hb : b ≤ 16)
    (x : UsesAeadKey ((W i).node A q) h o k) (y : UsesAeadKey ((W j).node A q) h' o' k)
    (z : UsesAeadKey ((W l).node A q) h'' o'' k) : i = j ∨ i = l ∨ j = l :=
  C88_at_most_two (suite_sessions hl hq w) x y z (suite_long hq w hb i) (suite_long hq w hb j)

/-- **C88 with the shipped suites**, exports: no exported key of `b` bytes or more is an AEAD key of any session. -/
theorem C88_suites_exports (hl : AlgLaws A q) (hq : q ∈ shipped) (w : SuiteSessions A q b W) {label n : Nat} {out : Bytes}
    (x : ExportsKey ((W i).node A q) h label n out) (hb : b ≤ n) : ¬ UsesAeadKey ((W j).node A q) h' o' out :=
  (C88_not_exported (suite_sessions hl hq w) x hb).1

/-- **C88 with the algorithms the suites name.** -/
theorem C88_standard (hq : q ∈ shipped) (w : SuiteSessions Real.algs q b W) (hb : b ≤ 16)
    (x : UsesAeadKey ((W i).node Real.algs q) h o k) (y : UsesAeadKey ((W j).node Real.algs q) h' o' k) :
    i = j ∨ (Initiates ((W i).node Real.algs q) ∧ Responds ((W j).node Real.algs q)) ∨
      (Responds ((W i).node Real.algs q) ∧ Initiates ((W j).node Real.algs q)) :=
  (C88_suites (C58_laws hq) hq w hb x y).1

end

/-! ## Non-vacuity -/

namespace Psa.Toy

/-- the keys imported for encryption and for decryption -/
def aeadKeys (L : List Ev) : List Bytes := L.filterMap fun e => match e with
  | .importKey .encrypt k _ => some k
  | .importKey .decrypt k _ => some k
  | _ => none

/-- the key of message 3 -/
def key3 (q : Params) : Bytes := (aeadKeys (callsOf q true)).headD []

theorem aead_check : (suitesX.all fun q =>
    ((site q true).hist.any fun p => match p with | (.compose3 _, .ok (.bytes _)) => true | _ => false) &&
    ((site q false).hist.any fun p => match p with | (.process3 _, .ok .unit) => true | _ => false) &&
    ((site q true).hist.all fun p => match p.1 with | .compose4 _ => false | _ => true) &&
    ((site q false).hist.all fun p => match p.1 with | .compose1 _ => false | _ => true) &&
    (callsOf q true).all (fun e => match e with | .importKey .encrypt k _ => k == key3 q | _ => true) &&
    (callsOf q false).all (fun e => match e with | .importKey .decrypt k _ => k == key3 q | _ => true)) = true := by
  decide +kernel

theorem calls_eq (q : Params) (b : Bool) : ((site q b).node algs q).calls = callsOf q b := rfl

theorem uses_compose3 {q : Params} (hx : q ∈ suitesX) :
    ∃ h n iv, EncryptsWith ((site q true).node algs q) h (.compose3 n) (key3 q) iv := by
  have c := List.all_eq_true.1 aead_check q hx
  simp only [Bool.and_eq_true] at c
  obtain ⟨⟨⟨⟨⟨c1, _⟩, _⟩, _⟩, c5⟩, _⟩ := c
  have g := ((site_network hx).good true).node
  obtain ⟨p, hp, hp'⟩ := List.any_eq_true.1 c1
  split at hp'
  · obtain ⟨h, k, iv, e⟩ := compose3_encrypts g hp
    have hk : k = key3 q := by
      obtain ⟨L, kid, _, _, _, hi, hm⟩ := e
      have hv := inCall_sub hi (hm.subset (List.mem_cons_self (a := Ev.importKey .encrypt k (some kid))))
      rw [calls_eq] at hv
      exact eq_of_beq (List.all_eq_true.1 c5 _ hv)
    exact ⟨h, _, iv, hk ▸ e⟩
  · cases hp'

theorem uses_process3 {q : Params} (hx : q ∈ suitesX) :
    ∃ h m iv, DecryptsWith ((site q false).node algs q) h (.process3 m) (key3 q) iv := by
  have c := List.all_eq_true.1 aead_check q hx
  simp only [Bool.and_eq_true] at c
  obtain ⟨⟨⟨⟨⟨_, c2⟩, _⟩, _⟩, _⟩, c6⟩ := c
  have g := ((site_network hx).good false).node
  obtain ⟨p, hp, hp'⟩ := List.any_eq_true.1 c2
  split at hp'
  · obtain ⟨h, k, iv, e⟩ := process3_decrypts g hp
    have hk : k = key3 q := by
      obtain ⟨L, kid, _, _, _, hi, hm⟩ := e
      have hv := inCall_sub hi (hm.subset (List.mem_cons_self (a := Ev.importKey .decrypt k (some kid))))
      rw [calls_eq] at hv
      exact eq_of_beq (List.all_eq_true.1 c6 _ hv)
    exact ⟨h, _, iv, hk ▸ e⟩
  · cases hp'

theorem four_holds {q : Params} (hx : q ∈ suitesX) (b : Bool) : FourFromResponder ((site q b).node algs q) := by
  have c := List.all_eq_true.1 aead_check q hx
  simp only [Bool.and_eq_true] at c
  obtain ⟨⟨⟨⟨⟨_, _⟩, c3⟩, c4⟩, _⟩, _⟩ := c
  intro hi n r hm
  cases b
  · obtain ⟨n, m, hi⟩ := hi
    have := List.all_eq_true.1 c4 _ hi
    simp at this
  · have := List.all_eq_true.1 c3 _ hm
    simp at this

end Psa.Toy

/-- With the suites 0 and 4 and toy algorithms: the Initiator encrypts message 3, with a key no session uses again to
encrypt. -/
example : ∀ q ∈ Psa.Toy.suitesX, ∃ h n iv, EncryptsWith ((Psa.Toy.site q true).node Psa.Toy.algs q) h (.compose3 n)
    (Psa.Toy.key3 q) iv ∧ ∀ j h' o' iv', EncryptsWith ((Psa.Toy.site q j).node Psa.Toy.algs q) h' o' (Psa.Toy.key3 q) iv' →
      true = j ∧ h = h' ∧ Op.compose3 n = o' := by
  intro q hx
  have hq := Psa.Toy.suitesX_shipped hx
  obtain ⟨h, n, iv, x⟩ := Psa.Toy.uses_compose3 hx
  exact ⟨h, n, iv, x, fun j h' o' iv' y => C87_suites_of_role (Psa.Toy.algs_laws hq) hq (Psa.Toy.sessions_hold hx)
    (Nat.le_refl _) (Psa.Toy.four_holds hx) x y⟩

/-- The Responder decrypts message 3 with the same key. So they are the two ends of one handshake, and what they export
is not this key. -/
example : ∀ q ∈ Psa.Toy.suitesX, (Initiates ((Psa.Toy.site q true).node Psa.Toy.algs q) ∧
    Responds ((Psa.Toy.site q false).node Psa.Toy.algs q) ∨ Responds ((Psa.Toy.site q true).node Psa.Toy.algs q) ∧
    Initiates ((Psa.Toy.site q false).node Psa.Toy.algs q)) ∧ Psa.Toy.final q true ≠ Psa.Toy.key3 q := by
  intro q hx
  have hq := Psa.Toy.suitesX_shipped hx
  obtain ⟨h, n, iv, x⟩ := Psa.Toy.uses_compose3 hx
  obtain ⟨h', m, iv', y⟩ := Psa.Toy.uses_process3 hx
  refine ⟨((C88_suites (Psa.Toy.algs_laws hq) hq (Psa.Toy.sessions_hold hx) (Nat.le_refl _) ⟨_, .inl x⟩
    ⟨_, .inr y⟩).1.resolve_left (by simp)), fun e => ?_⟩
  exact C88_suites_exports (Psa.Toy.algs_laws hq) hq (Psa.Toy.sessions_hold hx) (Psa.Toy.exports_key hx true)
    (Nat.le_refl _) ⟨_, .inl (e ▸ x)⟩

end Verif
