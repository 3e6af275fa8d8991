import Verif.SpecSuiteKeyShare
import Verif.Props.SuiteNetwork
import Verif.Props.KeyShare
import Verif.Props.Downgrade

/-!
# C82: no unknown key share and no downgrade, with the shipped cipher suites
-/

namespace Verif

open Spec Psa

namespace Psa

theorem site_expand {A : Algs} {q : Params} {S : Site} (hl : AlgLaws A q) (g : S.Good A q) {p kid x o : Bytes} {n : Nat}
    (h : Made [.importKey .expand p (some kid), .expand kid x n (some o)] (S.node A q).calls) :
    o = A.hkdfExpand q.hash p x n := by
  obtain ⟨l1, l2, w1, w2, -, -, h1⟩ := (session_ran g.node.proper.session).2.made h
  cases h1 with
  | cons h2 h1 =>
    cases h1 with
    | cons h3 _ => exact expand_prim hl h2 h3

end Psa

section

variable {A : Algs} {q : Params} {ι : Type} {b : Nat} {W : ι → Site} {honest : Bytes → Prop} {i j k : ι}
  {h h' h'' : History} {label label' label'' n n' n'' : Nat} {out : Bytes}

theorem suite_sessions (hl : AlgLaws A q) (hq : q ∈ shipped) (w : SuiteSessions A q b W) :
    Sessions b (fun i => (W i).node A q) where
  good i := (w.good i).node
  long i := by rw [w.suite]; exact w.long
  noCollision i j := by
    intro x y o hx hy
    have e := (site_faithful hl hq (w.good i)).hash hx
    exact w.noCollision hx hy (e.symm.trans ((site_faithful hl hq (w.good j)).hash hy))
  noExpand i j := by
    intro p kid x n p' kid' x' n' o h1 h2 hb
    have e1 := Psa.site_expand hl (w.good i) h1
    have e2 := Psa.site_expand hl (w.good j) h2
    have l1 : o.length = n := by rw [e1]; exact hl.expand _ _ _
    have l2 : o.length = n' := by rw [e2]; exact hl.expand _ _ _
    have e : n' = n := by omega
    subst e
    exact w.noExpand ⟨_, _, h1⟩ ⟨_, _, h2⟩ (by omega) (e1.symm.trans e2)
  fresh := w.fresh

/-- **C82, keys.** If two sessions with a shipped suite export the same key (of `b` bytes or more), whatever messages the
attacker gave them and whoever their peers are, then they are the Initiator and the Responder of one handshake, with the
same data, and used the same label, length and key updates. -/
theorem C82_two_ends (hl : AlgLaws A q) (hq : q ∈ shipped) (w : SuiteSessions A q b W)
    (x : ExportsKey ((W i).node A q) h label n out) (y : ExportsKey ((W j).node A q) h' label' n' out)
    (hb : b ≤ n) (hij : i ≠ j) :
    label = label' ∧ n = n' ∧ updates h = updates h' ∧ ((W i).node A q).method = ((W j).node A q).method ∧
      ∃ m1 v u, SameData v u ∧
        ((InitiatedWith ((W i).node A q) h m1 v ∧ RespondedWith ((W j).node A q) h' m1 u) ∨
          (RespondedWith ((W i).node A q) h m1 v ∧ InitiatedWith ((W j).node A q) h' m1 u)) :=
  C78_two_ends (suite_sessions hl hq w) x y hb hij

/-- **C82, at most two.** No third session exports the key. -/
theorem C82_at_most_two (hl : AlgLaws A q) (hq : q ∈ shipped) (w : SuiteSessions A q b W)
    (x : ExportsKey ((W i).node A q) h label n out) (y : ExportsKey ((W j).node A q) h' label' n' out)
    (z : ExportsKey ((W k).node A q) h'' label'' n'' out) (hb : b ≤ n) : i = j ∨ i = k ∨ j = k :=
  C78_at_most_two (suite_sessions hl hq w) x y z hb

/-- **C82, the standard algorithms.** With the algorithms the suites name, nothing is assumed about their encodings and
their functional correctness. -/
theorem C82_standard (hq : q ∈ shipped) (w : SuiteSessions Real.algs q b W)
    (x : ExportsKey ((W i).node Real.algs q) h label n out) (y : ExportsKey ((W j).node Real.algs q) h' label' n' out)
    (hb : b ≤ n) (hij : i ≠ j) : ∃ m1 v u, SameData v u ∧
      ((InitiatedWith ((W i).node Real.algs q) h m1 v ∧ RespondedWith ((W j).node Real.algs q) h' m1 u) ∨
        (RespondedWith ((W i).node Real.algs q) h m1 v ∧ InitiatedWith ((W j).node Real.algs q) h' m1 u)) :=
  (C82_two_ends (C58_laws hq) hq w x y hb hij).2.2.2.2

/-- **C82, negotiation, Initiator.** If an Initiator accepts message 2 from the owner of an honest key, method and suite
are what both sides were configured to want. -/
theorem C82_initiator (hl : AlgLaws A q) (hq : q ∈ shipped) (w : SuiteNetwork A q W honest) {m2 : Bytes}
    (hm : (.process2 m2, .ok .unit) ∈ (W i).hist) :
    ∃ d pk, Accepted2 ((W i).node A q) m2 d pk ∧ (honest pk → ∃ j, j ≠ i ∧ (W j).Owns A q pk ∧
      Answered2 ((W j).node A q) d ∧ NoDowngrade (W i).hist (W j).hist d.method d.suite) :=
  C76_initiator (suite_network hl hq w) hm

/-- **C82, negotiation, Responder.** Likewise for a Responder that accepts message 3. -/
theorem C82_responder (hl : AlgLaws A q) (hq : q ∈ shipped) (w : SuiteNetwork A q W honest) {m3 : Bytes}
    (hm : (.process3 m3, .ok .unit) ∈ (W i).hist) :
    ∃ d pk, Accepted3 ((W i).node A q) m3 d pk ∧ (honest pk → ∃ j, j ≠ i ∧ (W j).Owns A q pk ∧
      Answered3 ((W j).node A q) d ∧ NoDowngrade (W j).hist (W i).hist d.method d.suite) :=
  C76_responder (suite_network hl hq w) hm

end

/-! ## Non-vacuity -/

namespace Psa.Toy

/-- what was derived: key, info and result -/
def derived (L : List Ev) : List (Bytes × Bytes × Bytes) := L.tails.filterMap fun l => match l with
  | .importKey .expand p (some _) :: .expand _ x _ (some o) :: _ => some (p, x, o)
  | _ => none

theorem mem_derived {L : List Ev} {p kid x o : Bytes} {n : Nat}
    (h : Made [.importKey .expand p (some kid), .expand kid x n (some o)] L) : (p, x, o) ∈ derived L := by
  obtain ⟨s, t, rfl⟩ := h
  exact List.mem_filterMap.2 ⟨.importKey .expand p (some kid) :: .expand kid x n (some o) :: t,
    (List.mem_tails _ _).2 ⟨s, by simp⟩, rfl⟩

def noExpandB (L L' : List Ev) : Bool :=
  (derived L).all fun a => (derived L').all fun b => !(a.2.2 == b.2.2 && decide (16 ≤ a.2.2.length)) || (a.1 == b.1 && a.2.1 == b.2.1)

theorem noExpand_check : (suitesX.all fun q => [true, false].all fun a => [true, false].all fun b =>
    noExpandB (callsOf q a) (callsOf q b) && decide (16 ≤ q.hashLen)) = true := by decide +kernel

theorem sessions_hold {q : Params} (hx : q ∈ suitesX) : SuiteSessions algs q 16 (site q) := by
  have w := site_network hx
  have hq := suitesX_shipped hx
  have hb : ∀ a b, _ := fun a b => Bool.and_eq_true _ _ ▸ List.all_eq_true.1 (List.all_eq_true.1
    (List.all_eq_true.1 noExpand_check q hx) a (by cases a <;> simp)) b (by cases b <;> simp)
  refine ⟨w.good, w.suite, of_decide_eq_true (hb true true).2, w.noCollision, ?_, w.fresh⟩
  rintro i j p x r y n ⟨k, o, h1⟩ ⟨k', o', h2⟩ hn e
  have e1 := site_expand (algs_laws hq) (w.good i) h1
  have e2 := site_expand (algs_laws hq) (w.good j) h2
  have l1 : o.length = n := by rw [e1]; exact (algs_laws hq).expand _ _ _
  have c := List.all_eq_true.1 (List.all_eq_true.1 (hb i j).1 _ (mem_derived h1)) _ (mem_derived h2)
  have e3 : o = o' := e1.trans (e.trans e2.symm)
  subst e3
  simp only [beq_self_eq_true, Bool.true_and, Bool.or_eq_true, Bool.not_eq_true', decide_eq_false_iff_not,
    Bool.and_eq_true, beq_iff_eq] at c
  exact c.resolve_left (by omega)

/-- the calls of the toy sessions before their last export, and what they export there -/
def earlier (q : Params) (b : Bool) : History := (site q b).hist.take ((site q b).hist.length - 1)
@[inherit_doc earlier] def final (q : Params) (b : Bool) : Bytes :=
  match (site q b).hist.getLast? with
  | some (_, .ok (.bytes o)) => o
  | _ => []

theorem final_check : (suitesX.all fun q => [true, false].all fun b =>
    decide (@Eq (List (Op × Res Out)) (site q b).hist
        (earlier q b ++ [(.exportSecret 32768 16, .ok (.bytes (final q b)))]) ∧
      (Call.compose3 ∈ messages (earlier q b) ∨ Call.process3 ∈ messages (earlier q b)) ∧
      final q b = final q true)) = true := by decide +kernel

theorem exports_key {q : Params} (hx : q ∈ suitesX) (b : Bool) :
    ExportsKey ((site q b).node algs q) (earlier q b) 32768 16 (final q true) := by
  have h := List.all_eq_true.1 (List.all_eq_true.1 final_check q hx) b (by cases b <;> simp)
  obtain ⟨h1, h2, h3⟩ := of_decide_eq_true h
  exact ⟨h2, by decide, [], .inl (by rw [← h3]; exact h1)⟩

end Psa.Toy

/-- With the suites 0 and 4 and toy algorithms, two sessions export the same key of 16 bytes. -/
example : ∀ q ∈ Psa.Toy.suitesX, ∃ m1 v u, SameData v u ∧
    ((InitiatedWith ((Psa.Toy.site q true).node Psa.Toy.algs q) (Psa.Toy.earlier q true) m1 v ∧
        RespondedWith ((Psa.Toy.site q false).node Psa.Toy.algs q) (Psa.Toy.earlier q false) m1 u) ∨
      (RespondedWith ((Psa.Toy.site q true).node Psa.Toy.algs q) (Psa.Toy.earlier q true) m1 v ∧
        InitiatedWith ((Psa.Toy.site q false).node Psa.Toy.algs q) (Psa.Toy.earlier q false) m1 u)) := by
  intro q hx
  have hq := Psa.Toy.suitesX_shipped hx
  exact (C82_two_ends (Psa.Toy.algs_laws hq) hq (Psa.Toy.sessions_hold hx) (Psa.Toy.exports_key hx true)
    (Psa.Toy.exports_key hx false) (by decide) (by decide)).2.2.2.2

/-- With the suites 0 and 4 and toy algorithms, the Initiator accepts message 2, with method and suite as configured. -/
example : ∀ q ∈ Psa.Toy.suitesX, ∃ m2 d pk, Accepted2 ((Psa.Toy.site q true).node Psa.Toy.algs q) m2 d pk ∧
    NoDowngrade (Psa.Toy.site q true).hist (Psa.Toy.site q false).hist d.method d.suite := by
  intro q hx
  have hq := Psa.Toy.suitesX_shipped hx
  have h : (Psa.Toy.suitesX.all fun q =>
      (Psa.Toy.site q true).hist.any fun p => match p with | (.process2 _, .ok .unit) => true | _ => false) = true := by
    decide +kernel
  obtain ⟨p, hp, hp'⟩ := List.any_eq_true.1 (List.all_eq_true.1 h q hx)
  split at hp'
  · obtain ⟨d, pk, a, hx'⟩ := C82_initiator (Psa.Toy.algs_laws hq) hq (Psa.Toy.site_network hx) hp
    obtain ⟨id, c, hca, -⟩ := a.peer
    obtain ⟨j, hj, -, -, hs⟩ := hx' (Psa.Toy.site_trusts hx true hca)
    cases j
    · exact ⟨_, d, pk, a, hs⟩
    · exact absurd rfl hj
  · cases hp'

end Verif
