import Verif.SpecKeyShare
import Verif.Props.Binding
import Verif.Props.Matching

/-!
# C78: sessions that export the same key are the two ends of one handshake
-/

namespace Verif

open M Spec

/-! ## The calls of a longer session -/

section
variable {L L' : List Ev}

theorem Spec.Transcript.mono {m1 : Bytes} {v : Values} (i : L <:+: L') (t : Transcript L m1 v) : Transcript L' m1 v :=
  ⟨t.th1.mono i, t.th2.mono i, t.th3.mono i, t.th4.mono i⟩

theorem Spec.KeySchedule.mono {me n : Nat} {v : Values} {A B A' B' : Bytes → Prop} (i : L <:+: L')
    (hA : ∀ g, A g → A' g) (hB : ∀ g, B g → B' g) (k : KeySchedule L me n v A B) : KeySchedule L' me n v A' B' :=
  ⟨k.prk2e.mono i, k.prk3e2m.mono i hA, k.prk4e3m.mono i hB⟩

theorem Spec.InitiatorView.mono {su : Suite} {me : Nat} {m1 m2 m3 x kid pk : Bytes} {v : Values} (i : L <:+: L')
    (h : InitiatorView L su me m1 m2 m3 x kid pk v) : InitiatorView L' su me m1 m2 m3 x kid pk v := by
  obtain ⟨c2, ks, a1, a2, a3, a4⟩ := h.message2
  obtain ⟨k3, iv3, c3, b1, b2, b3, b4⟩ := h.message3
  obtain ⟨id, hi⟩ := h.accepted
  exact ⟨h.ephemeral.mono i, h.message1, ⟨c2, ks, a1, a2, a3.mono i, a4⟩, ⟨k3, iv3, c3, b1.mono i, b2.mono i, b3.mono i, b4⟩,
    h.agreed.mono i, ⟨id, hi.mono i⟩, h.supplied.mono i, h.transcript.mono i,
    h.keys.mono i (fun _ h => h.mono i) (fun _ h => h.mono i)⟩

theorem Spec.ResponderView.mono {su : Suite} {me : Nat} {m1 m2 m3 y kid pk : Bytes} {v : Values} (i : L <:+: L')
    (h : ResponderView L su me m1 m2 m3 y kid pk v) : ResponderView L' su me m1 m2 m3 y kid pk v := by
  obtain ⟨ks, a1, a2, a3⟩ := h.message2
  obtain ⟨k3, iv3, c3, b1, b2, b3, b4⟩ := h.message3
  obtain ⟨id, hi⟩ := h.accepted
  exact ⟨h.ephemeral.mono i, h.message1, ⟨ks, a1.mono i, a2, a3⟩, ⟨k3, iv3, c3, b1.mono i, b2.mono i, b3, b4.mono i⟩,
    h.agreed.mono i, ⟨id, hi.mono i⟩, h.supplied.mono i, h.transcript.mono i,
    h.keys.mono i (fun _ h => h.mono i) (fun _ h => h.mono i)⟩

end

/-! ## Expand without collisions -/

/-- info strings in the calls are not absurdly long -/
def ShortInfos (L : List Ev) : Prop := ∀ {kid i n o}, Ev.expand kid i n o ∈ L → i.length < 2 ^ 64

theorem expand_unique {b : Nat} {L L' : List Ev} (nx : NoExpandCollision b L L') (hs : ShortInfos L) (hs' : ShortInfos L')
    {p p' c c' o : Bytes} {l l' n n' : Nat} (h : ExpandCall L p l c n o) (h' : ExpandCall L' p' l' c' n' o) (hb : b ≤ n)
    (hl : l < 2 ^ 64) (hl' : l' < 2 ^ 64) (hn : n < 2 ^ 64) : p = p' ∧ l = l' ∧ c = c' ∧ n = n' := by
  obtain ⟨e, k, m⟩ := h
  obtain ⟨e', k', m'⟩ := h'
  have pre : ∀ {a b c : Ev} {L : List Ev}, Made [a, b, c] L → Made [a, b] L :=
    fun {a b c L} h => List.IsInfix.trans ⟨[], [c], rfl⟩ h
  obtain ⟨hp, hi⟩ := nx (pre m) (pre m') (by omega)
  have i1 := info_size (hs (List.IsInfix.subset m (List.mem_cons_of_mem _ List.mem_cons_self)))
  have i2 := info_size (hs' (List.IsInfix.subset m' (List.mem_cons_of_mem _ List.mem_cons_self)))
  obtain ⟨h1, h2, h3⟩ := C33_info_injective hl hl' hn (by omega) i1 i2 hi
  exact ⟨hp, h1, h2, h3⟩

theorem epoch_unique {b : Nat} {L L' : List Ev} (nx : NoExpandCollision b L L') (hs : ShortInfos L) (hs' : ShortInfos L')
    {p p' t t' o : Bytes} {n n' : Nat} {es es' : List Bytes} (hb : b ≤ n) (hn : n < 2 ^ 64) (h : EpochKey L p t n es o)
    (h' : EpochKey L' p' t' n' es' o) : es = es' ∧ p = p' ∧ t = t' := by
  induction h generalizing es' with
  | first x =>
    cases h' with
    | first x' =>
      obtain ⟨h1, _, h2, _⟩ := expand_unique nx hs hs' x x' hb (by omega) (by omega) hn
      exact ⟨rfl, h1, h2⟩
    | update _ x' =>
      obtain ⟨_, h1, _⟩ := expand_unique nx hs hs' x x' hb (by omega) (by omega) hn
      cases h1
  | update e x ih =>
    cases h' with
    | first x' =>
      obtain ⟨_, h1, _⟩ := expand_unique nx hs hs' x x' hb (by omega) (by omega) hn
      cases h1
    | update e' x' =>
      obtain ⟨h1, _, h2, _⟩ := expand_unique nx hs hs' x x' hb (by omega) (by omega) hn
      subst h1 h2
      obtain ⟨h3, h4⟩ := ih e'
      exact ⟨by rw [h3], h4⟩

/-! ## Where an exported key comes from -/

section
variable {N : Node}

theorem exports_chain (g : N.Good) {h : History} {label n : Nat} {out : Bytes} (x : ExportsKey N h label n out) :
    label < 2 ^ 64 ∧ ∃ m1 v prkOut, TookPart N.calls N.suite N.method h m1 v ∧
      EpochKey N.calls v.prk4e3m v.th4 N.suite.hash (updates h) prkOut ∧
      ExportedFrom N.calls prkOut N.suite.hash label n out := by
  have hv : ∀ {s : St N.σ} {v : Values}, sessionCalls N.log s <:+: N.calls → N.state.ctx.keep = s.ctx.keep →
      HandshakeValues (sessionCalls N.log s) s.ctx.suite s.ctx.chosenMethod h v →
      ∃ m1, TookPart N.calls N.suite N.method h m1 v := by
    intro s v i k hv
    have e1 : N.suite = s.ctx.suite := (keep_proj k).2.2.1
    have e2 : N.method = s.ctx.chosenMethod := (keep_proj k).2.2.2.2.2.2
    rw [e1, e2]
    rcases hv with ⟨n1, n3, m1, m2, m3, x, kid, pk, a1, a2, a3, iv⟩ | ⟨n2, m1, m2, m3, y, kid, pk, a1, a2, a3, rv⟩
    · exact ⟨m1, .inl ⟨n1, n3, m2, m3, x, kid, pk, a1, a2, a3, iv.mono i⟩⟩
    · exact ⟨m1, .inr ⟨n2, m2, m3, y, kid, pk, a1, a2, a3, rv.mono i⟩⟩
  obtain ⟨hc, hn, t, hx | ⟨rfl, b, c, d, o, hx, hb, rfl⟩⟩ := x
  · obtain ⟨s, p, i, k⟩ := prefix_session g hx hc
    obtain ⟨_, v, q, v1, v2, x, v3, v4⟩ := C13_export p.session p.settled hc p.regular p.numbers p.short hn
    have es : N.suite = s.ctx.suite := (keep_proj k).2.2.1
    obtain ⟨m1, tp⟩ := hv i k v1
    obtain ⟨s0, _, hst, _⟩ := last_call p.session
    obtain ⟨r0, h0, ⟨a, rfl, h1⟩ | ⟨_, _, h'⟩ | ⟨_, _, h'⟩⟩ := step_export hst
    · obtain ⟨_, l, _⟩ := exportSecret_ok h0
      refine ⟨by omega, m1, v, q, tp, ?_, x, ?_, v4.mono i⟩
      · rw [es]; exact v2.mono i
      · rw [es]; exact v3.mono i
    · cases h'
    · cases h'
  · obtain ⟨s, p, i, k⟩ := prefix_session g hx hc
    obtain ⟨_, _, _, _, _, _, v, q, v1, v2, ⟨x, v3, v4⟩, _⟩ :=
      C14_oscore_export p.session p.settled hc p.regular p.numbers p.short hn hb
    have es : N.suite = s.ctx.suite := (keep_proj k).2.2.1
    obtain ⟨m1, tp⟩ := hv i k v1
    refine ⟨by omega, m1, v, q, tp, ?_, x, ?_, v4.mono i⟩
    · rw [es]; exact v2.mono i
    · rw [es]; exact v3.mono i

end

/-! ## C78 -/

section
variable {ι : Type} {b : Nat} {W : ι → Node} {i j : ι} {h h' : History} {label label' n n' : Nat} {out : Bytes}

theorem same_key (w : Sessions b W) (x : ExportsKey (W i) h label n out) (y : ExportsKey (W j) h' label' n' out)
    (hb : b ≤ n) :
    label = label' ∧ n = n' ∧ updates h = updates h' ∧ (W i).method = (W j).method ∧
      ∃ m1 v u, TookPart (W i).calls (W i).suite (W i).method h m1 v ∧
        TookPart (W j).calls (W j).suite (W j).method h' m1 u ∧ SameData v u := by
  have hn := x.2.1
  obtain ⟨l1, m1, v, q, p, ek, x1, e1, e2⟩ := exports_chain (w.good i) x
  obtain ⟨l2, m1', u, q', p', ek', x2, f1, f2⟩ := exports_chain (w.good j) y
  have si : ShortInfos (W i).calls := (w.good i).infos
  have sj : ShortInfos (W j).calls := (w.good j).infos
  have hh : (W i).suite.hash < 2 ^ 64 := by
    have := (w.good i).proper.regular.small.2.2.1
    show (W i).state.ctx.suite.hash < _
    omega
  obtain ⟨r1, r2, _, r3⟩ := expand_unique (w.noExpand i j) si sj e2 f2 hb l1 l2 (by omega)
  subst r1
  obtain ⟨r4, _⟩ := expand_unique (w.noExpand i j) si sj e1 f1 (w.long i) (by omega) (by omega) hh
  subst r4
  obtain ⟨s1, s2, s3⟩ := epoch_unique (w.noExpand i j) si sj (w.long i) hh ek ek'
  obtain ⟨t1, t2, t3, t4, _, _, t5, t6, t7, t8⟩ := took_binding p p' (w.good i).proper.regular (w.good j).proper.regular
    (w.noCollision i j) s3
  subst t1
  exact ⟨r2, r3, s1, t2, m1, v, u, p, p', t3, t4, s3, s2, t5, t6, t7, t8⟩

/-- **C78.** If two sessions export the same key (of `b` bytes or more), whatever messages the attacker gave them and
whoever their peers are, then they used the same label, length and key updates, and they are the Initiator and the
Responder of one handshake, with the same method, ephemeral keys, plaintexts and credentials. In particular each has
accepted the credential the other one supplied: there is no unknown key share. -/
theorem C78_two_ends (w : Sessions b W) (x : ExportsKey (W i) h label n out) (y : ExportsKey (W j) h' label' n' out)
    (hb : b ≤ n) (hij : i ≠ j) :
    label = label' ∧ n = n' ∧ updates h = updates h' ∧ (W i).method = (W j).method ∧
      ∃ m1 v u, SameData v u ∧
        ((InitiatedWith (W i) h m1 v ∧ RespondedWith (W j) h' m1 u) ∨
          (RespondedWith (W i) h m1 v ∧ InitiatedWith (W j) h' m1 u)) := by
  obtain ⟨h1, h2, h3, h4, m1, v, u, p, q, s⟩ := same_key w x y hb
  refine ⟨h1, h2, h3, h4, m1, v, u, s, ?_⟩
  rcases p with p | p <;> rcases q with q | q
  · obtain ⟨_, _, _, _, _, _, _, _, _, _, a⟩ := p
    obtain ⟨_, _, _, _, _, _, _, _, _, _, a'⟩ := q
    exact absurd (w.fresh a.ephemeral (s.gx ▸ a'.ephemeral)) hij
  · exact .inl ⟨p, q⟩
  · exact .inr ⟨p, q⟩
  · obtain ⟨_, _, _, _, _, _, _, _, _, a⟩ := p
    obtain ⟨_, _, _, _, _, _, _, _, _, a'⟩ := q
    exact absurd (w.fresh a.ephemeral (s.gy ▸ a'.ephemeral)) hij

/-- **C78**, at most two. No third session exports the key. -/
theorem C78_at_most_two (w : Sessions b W) {k : ι} {h'' : History} {label'' n'' : Nat}
    (x : ExportsKey (W i) h label n out) (y : ExportsKey (W j) h' label' n' out)
    (z : ExportsKey (W k) h'' label'' n'' out) (hb : b ≤ n) : i = j ∨ i = k ∨ j = k := by
  refine Classical.byContradiction fun hne => ?_
  simp only [not_or] at hne
  obtain ⟨n1, n2, n3⟩ := hne
  obtain ⟨_, e, _, _, _, _, _, _, a⟩ := C78_two_ends w x y hb n1
  obtain ⟨_, _, _, _, _, _, _, _, b'⟩ := C78_two_ends w x z hb n2
  obtain ⟨_, _, _, _, _, _, _, _, c⟩ := C78_two_ends w y z (by omega) n3
  have one : ∀ {l : ι} {g g' : History} {m m' : Bytes} {v v' : Values}, g ⊆ (W l).hist → g' ⊆ (W l).hist →
      InitiatedWith (W l) g m v → RespondedWith (W l) g' m' v' → False := by
    rintro l g g' m m' v v' s s' ⟨_, _, _, _, _, _, _, a, _⟩ ⟨_, _, _, _, _, _, b, _⟩
    exact one_role (w.good l) (s a) (s' b)
  have sub : ∀ {l : ι} {g : History} {label n : Nat}, ExportsKey (W l) g label n out → g ⊆ (W l).hist := by
    rintro l g label n ⟨_, _, t, hx | ⟨_, _, _, _, _, hx, _⟩⟩ q hq <;> rw [hx] <;> simp [hq]
  rcases a with ⟨a1, a2⟩ | ⟨a1, a2⟩ <;> rcases b' with ⟨b1, b2⟩ | ⟨b1, b2⟩ <;> rcases c with ⟨c1, c2⟩ | ⟨c1, c2⟩
  · exact one (sub y) (sub y) c1 a2
  · exact one (sub z) (sub z) c2 b2
  · exact one (sub x) (sub x) a1 b1
  · exact one (sub x) (sub x) a1 b1
  · exact one (sub x) (sub x) b1 a1
  · exact one (sub x) (sub x) b1 a1
  · exact one (sub z) (sub z) b2 c2
  · exact one (sub y) (sub y) a2 c1

end

/-! ## Example -/

namespace Toy

/-- the handles of keys for Expand are the keys, and Expand has no collisions -/
def noExpandB (L L' : List Ev) : Bool :=
  (L ++ L').all (fun v => match v with
    | .importKey .expand p (some kid) => p == kid
    | _ => true) &&
  L.all fun v => match v with
    | .expand kid i _ (some o) => L'.all fun v' => match v' with
      | .expand kid' i' _ (some o') => !(o == o') || (kid == kid' && i == i')
      | _ => true
    | _ => true

theorem noExpand_of {L L' : List Ev} (h : noExpandB L L' = true) (b : Nat) : NoExpandCollision b L L' := by
  intro p kid i n p' kid' i' n' o h1 h2 _
  unfold noExpandB at h
  rw [Bool.and_eq_true] at h
  have m1 := List.IsInfix.subset h1
  have m2 := List.IsInfix.subset h2
  have a := List.all_eq_true.1 h.1 _ (List.mem_append_left _ (m1 List.mem_cons_self))
  have a' := List.all_eq_true.1 h.1 _ (List.mem_append_right _ (m2 List.mem_cons_self))
  have c := List.all_eq_true.1 h.2 _ (m1 (List.mem_cons_of_mem _ List.mem_cons_self))
  have d := List.all_eq_true.1 c _ (m2 (List.mem_cons_of_mem _ List.mem_cons_self))
  simp only [beq_iff_eq] at a a'
  subst a a'
  simpa using d

theorem noExpand_check : (methods.all fun m => [true, false].all fun a => [true, false].all fun b =>
    noExpandB (network m a).calls (network m b).calls && decide (4 ≤ (network m a).suite.hash)) = true := by
  decide +kernel

theorem sessions_hold {m : Nat} (hm : m ∈ methods) : Sessions 4 (network m) := by
  have w := network_holds hm
  have hb : ∀ a b, _ := fun a b => Bool.and_eq_true _ _ ▸ List.all_eq_true.1 (List.all_eq_true.1
    (List.all_eq_true.1 noExpand_check m hm) a (by cases a <;> simp)) b (by cases b <;> simp)
  exact ⟨w.good, fun a => of_decide_eq_true (hb a a).2, w.noCollision, fun a b => noExpand_of (hb a b).1 4, w.fresh⟩

/-- the calls of the toy sessions before their last export, and what they export there: the OSCORE master secret after a
key update -/
def before (m : Nat) (b : Bool) : History := (network m b).hist.take ((network m b).hist.length - 1)
@[inherit_doc before] def last (m : Nat) (b : Bool) : Oscore :=
  match (network m b).hist.getLast? with
  | some (_, .ok (.oscore o)) => o
  | _ => ⟨[], [], [], []⟩

theorem last_check : (methods.all fun m => [true, false].all fun b =>
    decide (@Eq (List (Op × Res Out)) (network m b).hist
        (before m b ++ [(.exportOscore 16 8 4 4, .ok (.oscore (last m b)))]) ∧
      (Call.compose3 ∈ messages (before m b) ∨ Call.process3 ∈ messages (before m b)) ∧
      (last m b).secret = (last m true).secret)) = true := by decide +kernel

theorem exports_key {m : Nat} (hm : m ∈ methods) (b : Bool) :
    ExportsKey (network m b) (before m b) 0 16 (last m true).secret := by
  have h := List.all_eq_true.1 (List.all_eq_true.1 last_check m hm) b (by cases b <;> simp)
  obtain ⟨h1, h2, h3⟩ := of_decide_eq_true h
  exact ⟨h2, by decide, [], .inr ⟨rfl, 8, 4, 4, last m b, h1, by decide, h3⟩⟩

end Toy

/-- Non-vacuity: with every method, the two toy sessions export the same OSCORE master secret after a key update. -/
example : ∀ m ∈ Toy.methods, ∃ m1 v u, SameData v u ∧
    ((InitiatedWith (Toy.network m true) (Toy.before m true) m1 v ∧
        RespondedWith (Toy.network m false) (Toy.before m false) m1 u) ∨
      (RespondedWith (Toy.network m true) (Toy.before m true) m1 v ∧
        InitiatedWith (Toy.network m false) (Toy.before m false) m1 u)) := by
  intro m hm
  exact (C78_two_ends (Toy.sessions_hold hm) (Toy.exports_key hm true) (Toy.exports_key hm false) (by decide)
    (by decide)).2.2.2.2

end Verif
