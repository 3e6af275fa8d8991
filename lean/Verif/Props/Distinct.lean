import Verif.SpecDistinct
import Verif.Props.SuiteKeyShare

/-!
# C90: different exports have different values
-/

namespace Verif

open M Spec Psa

section
variable {N : Node}

theorem value_chain (g : N.Good) {h : History} {label n : Nat} {out : Bytes} (x : ExportsValue N h label n out) :
    n < 2 ^ 32 ∧ label < 2 ^ 64 ∧ ∃ m1 v prkOut, TookPart N.calls N.suite N.method h m1 v ∧
      EpochKey N.calls v.prk4e3m v.th4 N.suite.hash (updates h) prkOut ∧
      ExportedFrom N.calls prkOut N.suite.hash label n out := by
  rcases x with x | ⟨hc, hn, rfl, t, a, c, d, o, hx, ha, rfl⟩
  · exact ⟨x.2.1, exports_chain g x⟩
  · obtain ⟨s, p, i, k⟩ := prefix_session g hx hc
    obtain ⟨_, _, _, _, _, _, v, q, v1, v2, _, ⟨x, v3, v4⟩⟩ :=
      C14_oscore_export p.session p.settled hc p.regular p.numbers p.short ha hn
    have e1 : N.suite = s.ctx.suite := (keep_proj k).2.2.1
    have e2 : N.method = s.ctx.chosenMethod := (keep_proj k).2.2.2.2.2.2
    have tp : ∃ m1, TookPart N.calls N.suite N.method h m1 v := by
      rw [e1, e2]
      rcases v1 with ⟨n1, n3, m1, m2, m3, x, kid, pk, a1, a2, a3, iv⟩ | ⟨n2, m1, m2, m3, y, kid, pk, a1, a2, a3, rv⟩
      · exact ⟨m1, .inl ⟨n1, n3, m2, m3, x, kid, pk, a1, a2, a3, iv.mono i⟩⟩
      · exact ⟨m1, .inr ⟨n2, m2, m3, y, kid, pk, a1, a2, a3, rv.mono i⟩⟩
    obtain ⟨m1, tp⟩ := tp
    refine ⟨hn, by omega, m1, v, q, tp, ?_, x, ?_, v4.mono i⟩
    · rw [e1]; exact v2.mono i
    · rw [e1]; exact v3.mono i

end

section
variable {ι : Type} {b : Nat} {W : ι → Node} {i j : ι} {h h' : History} {label label' n n' : Nat} {out out' : Bytes}

/-- **C90.** Two values that were exported, in one session or in two, and are the same (of `b` bytes or more), were
exported with the same label and length, after the same key updates and the same handshake. -/
theorem C90_distinct (w : Sessions b W) (x : ExportsValue (W i) h label n out) (y : ExportsValue (W j) h' label' n' out)
    (hb : b ≤ n) : label = label' ∧ n = n' ∧ updates h = updates h' ∧ (W i).method = (W j).method ∧
      ∃ m1 v u, SameData v u ∧ (InitiatedWith (W i) h m1 v ∨ RespondedWith (W i) h m1 v) ∧
        (InitiatedWith (W j) h' m1 u ∨ RespondedWith (W j) h' m1 u) := by
  obtain ⟨hn, l1, m1, v, q, p, ek, x1, e1, e2⟩ := value_chain (w.good i) x
  obtain ⟨_, l2, m1', u, q', p', ek', x2, f1, f2⟩ := value_chain (w.good j) y
  have si : ShortInfos (W i).calls := (w.good i).infos
  have sj : ShortInfos (W j).calls := (w.good j).infos
  have hh : (W i).suite.hash < 2 ^ 64 := by
    have := (w.good i).proper.regular.small.2.2.1
    show (W i).state.ctx.suite.hash < _
    omega
  obtain ⟨r1, r2, _, r3⟩ := expand_unique (w.noExpand i j) si sj e2 f2 hb l1 l2 (by omega)
  subst r1
  obtain ⟨r4, _⟩ := expand_unique (w.noExpand i j) si sj e1 f1 (w.long i) (by omega) (by omega) hh
  subst r4
  obtain ⟨s1, s2, s3⟩ := epoch_unique (w.noExpand i j) si sj (w.long i) hh ek ek'
  obtain ⟨t1, t2, t3, t4, _, _, t5, t6, t7, t8⟩ := took_binding p p' (w.good i).proper.regular (w.good j).proper.regular
    (w.noCollision i j) s3
  subst t1
  exact ⟨r2, r3, s1, t2, m1, v, u, ⟨t3, t4, s3, s2, t5, t6, t7, t8⟩, p, p'⟩

/-- **C90, key update.** What a session exports after a key update is not what it exported before it, whatever the
labels. -/
theorem C90_update (w : Sessions b W) {t : History} {u : Bytes} {r : Out} (x : ExportsValue (W i) h label n out)
    (y : ExportsValue (W i) (h ++ t) label' n' out') (hu : (.keyUpdate u, .ok r) ∈ t) (hb : b ≤ n) : out ≠ out' := by
  rintro rfl
  have e := (C90_distinct w x y hb).2.2.1
  simp only [updates, List.filterMap_append] at e
  have e := List.self_eq_append_right.1 e
  have := List.filterMap_eq_nil_iff.1 e _ hu
  simp at this

/-- **C90, OSCORE.** Master secret and master salt are different. -/
theorem C90_oscore (w : Sessions b W) {t : History} {a c d e : Nat} {o : Oscore} (hc : complete h) (ha : a < 2 ^ 32)
    (hs : c < 2 ^ 32) (hx : (W i).hist = h ++ (.exportOscore a c d e, .ok (.oscore o)) :: t) (hb : b ≤ a) :
    o.secret ≠ o.salt := by
  intro eq
  have x : ExportsValue (W i) h 0 a o.secret := .inl ⟨hc, ha, t, .inr ⟨rfl, c, d, e, o, hx, hs, rfl⟩⟩
  have y : ExportsValue (W i) h 1 c o.secret := .inr ⟨hc, hs, rfl, t, a, d, e, o, hx, ha, eq.symm⟩
  exact absurd (C90_distinct w x y hb).1 (by decide)

end

section
variable {A : Algs} {q : Params} {ι : Type} {b : Nat} {W : ι → Site} {i j : ι} {h h' : History} {label label' n n' : Nat}
  {out out' : Bytes}

/-- **C90 with the shipped cipher suites.** -/
theorem C90_suites (hl : AlgLaws A q) (hq : q ∈ shipped) (w : SuiteSessions A q b W)
    (x : ExportsValue ((W i).node A q) h label n out) (y : ExportsValue ((W j).node A q) h' label' n' out) (hb : b ≤ n) :
    label = label' ∧ n = n' ∧ updates h = updates h' :=
  let ⟨h1, h2, h3, _⟩ := C90_distinct (suite_sessions hl hq w) x y hb
  ⟨h1, h2, h3⟩

/-- **C90 with the algorithms the suites name.** -/
theorem C90_standard (hq : q ∈ shipped) (w : SuiteSessions Real.algs q b W)
    (x : ExportsValue ((W i).node Real.algs q) h label n out) (y : ExportsValue ((W j).node Real.algs q) h' label' n' out)
    (hb : b ≤ n) : label = label' ∧ n = n' ∧ updates h = updates h' :=
  C90_suites (C58_laws hq) hq w x y hb

end

/-! ## Non-vacuity -/

namespace Toy

/-- the calls of the toy sessions before their `k`-th call from the end, and the result of that call -/
def beforeEnd (m : Nat) (b : Bool) (k : Nat) : History := (network m b).hist.take ((network m b).hist.length - k)
@[inherit_doc beforeEnd] def gave (m : Nat) (b : Bool) (k : Nat) : Bytes :=
  match (network m b).hist[(network m b).hist.length - k]? with
  | some (_, .ok (.bytes o)) => o
  | _ => []

theorem five_check : (methods.all fun m => [true, false].all fun b =>
    decide (@Eq (List (Op × Res Out)) (network m b).hist
        (beforeEnd m b 5 ++ (.exportSecret 40000 20, .ok (.bytes (gave m b 5))) :: (network m b).hist.drop
          ((network m b).hist.length - 4)) ∧
      @Eq (List (Op × Res Out)) (network m b).hist
        (beforeEnd m b 2 ++ [(.exportSecret 40000 20, .ok (.bytes (gave m b 2))),
          (.exportOscore 16 8 4 4, .ok (.oscore (last m b)))]) ∧
      @Eq (List (Op × Res Out)) (beforeEnd m b 2) (beforeEnd m b 5 ++ ((beforeEnd m b 2).drop (beforeEnd m b 5).length)) ∧
      (((beforeEnd m b 2).drop (beforeEnd m b 5).length).any fun p => match p with
        | (.keyUpdate _, .ok _) => true
        | _ => false) = true ∧
      (Call.compose3 ∈ messages (beforeEnd m b 5) ∨ Call.process3 ∈ messages (beforeEnd m b 5)) ∧
      (Call.compose3 ∈ messages (beforeEnd m b 2) ∨ Call.process3 ∈ messages (beforeEnd m b 2)))) = true := by
  decide +kernel

end Toy

/-- With every method, both toy sessions export with the same label and length before and after a key update: the values
differ. -/
example : ∀ m ∈ Toy.methods, ∀ b, Toy.gave m b 5 ≠ Toy.gave m b 2 := by
  intro m hm b
  have h := List.all_eq_true.1 (List.all_eq_true.1 Toy.five_check m hm) b (by cases b <;> simp)
  obtain ⟨h1, h2, h3, h4, h5, h6⟩ := of_decide_eq_true h
  obtain ⟨p, hp, hp'⟩ := List.any_eq_true.1 h4
  split at hp'
  · refine C90_update (Toy.sessions_hold hm) (b := 4) (label := 40000) (n := 20) (label' := 40000) (n' := 20)
      (.inl ⟨h5, by decide, _, .inl h1⟩) (.inl ⟨?_, by decide, [(.exportOscore 16 8 4 4, .ok (.oscore (Toy.last m b)))], .inl ?_⟩) hp
      (by decide)
    · rw [← h3]; exact h6
    · rw [← h3]; exact h2
  · cases hp'

/-- Their OSCORE master secret and salt differ. -/
example : ∀ m ∈ Toy.methods, ∀ b, (Toy.last m b).secret ≠ (Toy.last m b).salt := by
  intro m hm b
  have h := List.all_eq_true.1 (List.all_eq_true.1 Toy.last_check m hm) b (by cases b <;> simp)
  obtain ⟨h1, h2, _⟩ := of_decide_eq_true h
  exact C90_oscore (Toy.sessions_hold hm) (b := 4) h2 (by decide) (by decide) h1 (by decide)

/-- With the suites 0 and 4 and toy algorithms, both sessions export a key of 16 bytes. -/
example : ∀ q ∈ Psa.Toy.suitesX, updates (Psa.Toy.earlier q true) = updates (Psa.Toy.earlier q false) := by
  intro q hx
  have hq := Psa.Toy.suitesX_shipped hx
  exact (C90_suites (Psa.Toy.algs_laws hq) hq (Psa.Toy.sessions_hold hx) (.inl (Psa.Toy.exports_key hx true))
    (.inl (Psa.Toy.exports_key hx false)) (Nat.le_refl _)).2.2

end Verif
