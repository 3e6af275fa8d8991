import Verif.OpenKey
import Verif.Props.OneKey

/-!
# C88: an AEAD key belongs to one handshake, and is not exported
-/

namespace Verif

open M Spec

section
variable {N N' : Node}

/-- the session's role, and its ephemeral key -/
def HasRole (N : Node) (d : Data3) : Prop :=
  (Initiates N ∧ ∃ x, KeyPairCall N.calls x d.gx) ∨ (Responds N ∧ ∃ y, KeyPairCall N.calls y d.gy)

/-- where the key comes from -/
def KeyOf (N : Node) (o : Op) (k : Bytes) : Prop :=
  (((∃ n, o = .compose3 n) ∨ ∃ m, o = .process3 m) ∧
    ∃ d a prk, Done2 N a d ∧ HasRole N d ∧ ExpandCall N.calls prk 3 d.th3 N.suite.aeadKey k) ∨
  (((∃ n, o = .compose4 n) ∨ ∃ m, o = .process4 m) ∧
    ∃ d p3 th4 prk, Done3 N d p3 th4 ∧ HasRole N d ∧ ExpandCall N.calls prk 8 th4 N.suite.aeadKey k)

theorem keyOf_decrypt (g : N.Good) {h : History} {o : Op} {k iv : Bytes} (e : DecryptsWith N h o k iv) : KeyOf N o k := by
  obtain ⟨L, kid, aad, pt, ct, ⟨r, t, a, b, hh, hs, hst, hd, hr, rfl⟩, hm⟩ := e
  have p : Placed N.env N.cfg N.start N.log N.hist N.state h o r a b := ⟨⟨t, hh, hr⟩, hs, hst, hd⟩
  have hv : Ev.decrypt kid iv aad pt ct ∈ during a b := hm.subset (by simp)
  have hp := within_mem (C33_performs p.step p.defined) .decrypt hv
  have def0 : ∀ {α : Type} {f : α → Out} {r0 : Res α}, ((∃ a, r0 = .ok a ∧ r = .ok (f a)) ∨ (∃ e, r0 = .err e ∧ r = .err e) ∨
      ∃ u, r0 = .ub u ∧ r = .ub u) → r0.Defined := by
    rintro α f r0 (⟨a, rfl, _⟩ | ⟨e, rfl, _⟩ | ⟨u, rfl, rfl⟩)
    · simp
    · simp
    · exact absurd rfl (p.defined u)
  cases o
  case process3 m =>
    left
    obtain ⟨r0, h0, hr⟩ := mapOut_cases p.step
    obtain ⟨h2, h3, _⟩ := message3Process_key h0 (def0 hr) hm
    obtain ⟨m1, gx, gy, th1, th2, pt, dn, in1, _, kp⟩ := responder_done2 g p h2 [] [] [] []
    have := (h3.call dn.env.small.1).mono (placed_sub p)
    rw [← dn.env.suite] at this
    exact ⟨.inr ⟨m, rfl⟩, _, a, _, dn, .inr ⟨⟨_, in1⟩, _, kp⟩, this⟩
  case process4 m =>
    right
    obtain ⟨r0, h0, hr⟩ := mapOut_cases p.step
    obtain ⟨h2, h3, _⟩ := message4Process_key h0 (def0 hr) hm
    have hps := past_session p.before
    have hstat := okCompleted_status h2
    rw [hstat] at hps
    have hne : messages h ≠ [] := by
      rcases hps with e | e <;> rw [e] <;> simp
    have ev := placed_env g p hne
    have hx := (h3.call ev.small.1).mono (placed_sub p)
    rw [← ev.suite, ← (placed_late g p hne).1 hstat] at hx
    rcases hps with hps | hps
    · obtain ⟨_, _, _, _, _, _, _, _, _, _, ch⟩ := initiator_chain p.before (p.settled g.proper.settled) hps
      obtain ⟨d, p3, th4, dn, _, _, kp⟩ := initiator_done3 g (p.sub ch.in3)
      rw [dn.now] at hx
      exact ⟨.inr ⟨m, rfl⟩, d, p3, th4, _, dn, .inl ⟨⟨_, _, p.sub ch.in1⟩, kp⟩, hx⟩
    · obtain ⟨_, _, _, _, _, _, _, _, _, ch⟩ := responder_chain p.before (p.settled g.proper.settled) hps
      obtain ⟨d, p3, th4, dn, _, _, kp, _⟩ := responder_done3 g (p.sub ch.in3)
      rw [dn.now] at hx
      exact ⟨.inr ⟨m, rfl⟩, d, p3, th4, _, dn, .inr ⟨⟨_, p.sub ch.in1⟩, kp⟩, hx⟩
  all_goals simp [performs] at hp

theorem keyOf_uses (g : N.Good) {h : History} {o : Op} {k : Bytes} (e : UsesAeadKey N h o k) : KeyOf N o k := by
  obtain ⟨iv, e | e⟩ := e
  · have hi : (∃ n, o = .compose3 n) → Initiates N := by
      rintro ⟨n, rfl⟩
      obtain ⟨_, _, _, _, _, ⟨r, t, a, b, hh, hs, hst, hd, hr, rfl⟩, hm⟩ := e
      have p : Placed N.env N.cfg N.start N.log N.hist N.state h _ r a b := ⟨⟨t, hh, hr⟩, hs, hst, hd⟩
      obtain ⟨r0, h0, hr⟩ := mapOut_cases p.step
      have d0 : r0.Defined := by
        rcases hr with ⟨a, rfl, _⟩ | ⟨e, rfl, _⟩ | ⟨u, rfl, rfl⟩
        · simp
        · simp
        · exact absurd rfl (p.defined u)
      obtain ⟨h2, _⟩ := message3Compose_key h0 d0 hm
      obtain ⟨_, _, _, _, _, _, _, _, ⟨n, in1⟩, _⟩ := initiator_done2 g p h2 [] [] [] []
      exact ⟨n, _, in1⟩
    rcases (sealedIn g e).key with ⟨n, d, a, q, rfl, dn, kp, x⟩ | ⟨n, d, p3, th4, q, rfl, dn, x, ro⟩
    · exact .inl ⟨.inl ⟨n, rfl⟩, d, a, q, dn, .inl ⟨hi ⟨n, rfl⟩, kp⟩, x⟩
    · exact .inr ⟨.inl ⟨n, rfl⟩, d, p3, th4, q, dn, ro, x⟩
  · exact keyOf_decrypt g e

end

/-- the labels of the exporter -/
theorem exports_label {N : Node} (g : N.Good) {h : History} {label n : Nat} {out : Bytes} (x : ExportsKey N h label n out) :
    label = 0 ∨ label = 1 ∨ 32768 ≤ label := by
  obtain ⟨hc, hn, t, hx | ⟨rfl, _⟩⟩ := x
  · obtain ⟨s, p, i, k⟩ := prefix_session g hx hc
    obtain ⟨s0, _, hst, _⟩ := last_call p.session
    obtain ⟨r0, h0, ⟨a, rfl, h1⟩ | ⟨_, _, h'⟩ | ⟨_, _, h'⟩⟩ := step_export hst
    · obtain ⟨_, l, _⟩ := exportSecret_ok h0
      omega
    · cases h'
    · cases h'
  · exact .inl rfl

/-! ## C88 -/

section
variable {ι : Type} {b : Nat} {W : ι → Node} {i j l : ι} {h h' h'' : History} {o o' o'' : Op} {k : Bytes}

/-- **C88.** Two sessions that use the same AEAD key, to encrypt or to decrypt, are the two ends of one handshake (or the
same session), and they use it for the same message. Nothing is assumed about their peers and the messages they
received. -/
theorem C88_one_handshake (w : Sessions b W) (x : UsesAeadKey (W i) h o k) (y : UsesAeadKey (W j) h' o' k)
    (hb : b ≤ (W i).suite.aeadKey) :
    (i = j ∨ (Initiates (W i) ∧ Responds (W j)) ∨ (Responds (W i) ∧ Initiates (W j))) ∧
      ((((∃ n, o = .compose3 n) ∨ ∃ m, o = .process3 m) ∧ ((∃ n, o' = .compose3 n) ∨ ∃ m, o' = .process3 m)) ∨
        (((∃ n, o = .compose4 n) ∨ ∃ m, o = .process4 m) ∧ ((∃ n, o' = .compose4 n) ∨ ∃ m, o' = .process4 m))) := by
  have gi := w.good i
  have gj := w.good j
  have si : ShortInfos (W i).calls := gi.infos
  have sj : ShortInfos (W j).calls := gj.infos
  have hs : (W i).suite.aeadKey < 2 ^ 64 := by
    have := gi.proper.regular.small.1
    show (W i).state.ctx.suite.aeadKey < _
    omega
  have roles : ∀ {d d' : Data3}, HasRole (W i) d → HasRole (W j) d' → d.gx = d'.gx ∧ d.gy = d'.gy →
      i = j ∨ (Initiates (W i) ∧ Responds (W j)) ∨ (Responds (W i) ∧ Initiates (W j)) := by
    rintro d d' (⟨r, g, kp⟩ | ⟨r, g, kp⟩) (⟨r', g', kp'⟩ | ⟨r', g', kp'⟩) ⟨ex, ey⟩
    · exact .inl (w.fresh kp (ex ▸ kp'))
    · exact .inr (.inl ⟨r, r'⟩)
    · exact .inr (.inr ⟨r, r'⟩)
    · exact .inl (w.fresh kp (ey ▸ kp'))
  rcases keyOf_uses gi x with ⟨ho, d, a, q, dn, ro, e⟩ | ⟨ho, d, p3, th4, q, dn, ro, e⟩ <;>
    rcases keyOf_uses gj y with ⟨ho', d', a', q', dn', ro', e'⟩ | ⟨ho', d', p3', th4', q', dn', ro', e'⟩
  all_goals obtain ⟨_, hl, ht, _⟩ := expand_unique (w.noExpand i j) si sj e e' hb (by omega) (by omega) hs
  · exact ⟨roles ro ro' (done2_same gi gj (w.noCollision i j) dn dn' ht), .inl ⟨ho, ho'⟩⟩
  · omega
  · omega
  · subst ht
    exact ⟨roles ro ro' (done3_same gi gj (w.noCollision i j) dn dn'), .inr ⟨ho, ho'⟩⟩

/-- **C88**, at most two. No third session uses the key. -/
theorem C88_at_most_two (w : Sessions b W) (x : UsesAeadKey (W i) h o k) (y : UsesAeadKey (W j) h' o' k)
    (z : UsesAeadKey (W l) h'' o'' k) (hi : b ≤ (W i).suite.aeadKey) (hj : b ≤ (W j).suite.aeadKey) :
    i = j ∨ i = l ∨ j = l := by
  refine Classical.byContradiction fun hne => ?_
  simp only [not_or] at hne
  obtain ⟨n1, n2, n3⟩ := hne
  have one : ∀ {m : ι}, Initiates (W m) → Responds (W m) → False := by
    rintro m ⟨_, _, a⟩ ⟨_, b⟩
    exact one_role (w.good m) a b
  have a := (C88_one_handshake w x y hi).1.resolve_left n1
  have c := (C88_one_handshake w x z hi).1.resolve_left n2
  have d := (C88_one_handshake w y z hj).1.resolve_left n3
  rcases a with ⟨a1, a2⟩ | ⟨a1, a2⟩ <;> rcases c with ⟨c1, c2⟩ | ⟨c1, c2⟩ <;> rcases d with ⟨d1, d2⟩ | ⟨d1, d2⟩ <;>
    first
    | exact one d1 a2
    | exact one a2 d1
    | exact one a1 c1
    | exact one c1 a1
    | exact one d2 c2
    | exact one c2 d2

/-- **C88**, exports. What a session exports, of `b` bytes or more, is not an AEAD key of any session. Moreover every
Expand call of any session with that result is the exporter's: same label, no context, same length. -/
theorem C88_not_exported (w : Sessions b W) {label n : Nat} {out : Bytes} (x : ExportsKey (W i) h label n out) (hb : b ≤ n) :
    (∀ {j h' o'}, ¬ UsesAeadKey (W j) h' o' out) ∧
      ∀ {j p l c n'}, l < 2 ^ 64 → ExpandCall (W j).calls p l c n' out → l = label ∧ c = [] ∧ n' = n := by
  have hn := x.2.1
  obtain ⟨l1, m1, v, q, p, ek, x1, e1, e2⟩ := exports_chain (w.good i) x
  have only : ∀ {j p l c n'}, l < 2 ^ 64 → ExpandCall (W j).calls p l c n' out → l = label ∧ c = [] ∧ n' = n := by
    intro j p l c n' hl e
    obtain ⟨_, h1, h2, h3⟩ := expand_unique (w.noExpand i j) (w.good i).infos (w.good j).infos e2 e hb l1 hl (by omega)
    exact ⟨h1.symm, h2.symm, h3.symm⟩
  refine ⟨fun {j h' o'} y => ?_, only⟩
  have hlab := exports_label (w.good i) x
  rcases keyOf_uses (w.good j) y with ⟨_, d, a, q, dn, _, e⟩ | ⟨_, d, p3, th4, q, dn, _, e⟩
  · have := (only (by decide) e).1
    omega
  · have := (only (by decide) e).1
    omega

end

/-! ## Example -/

namespace Toy

/-- the Responder of the toy handshake decrypts message 3 -/
theorem decrypts3 : DecryptsWith (network 3 false) (hst bob (beforeM2 ++ [Op.compose2 100])) (.process3 (msg 3 3))
    [239, 241, 243, 4] [214, 216, 233] := by
  have e : callsR 3 ++ exports = (beforeM2 ++ [Op.compose2 100]) ++ .process3 (msg 3 3) :: ([Op.compose4 100] ++ exports) := by
    decide +kernel
  have : network 3 false = node bob ((beforeM2 ++ [Op.compose2 100]) ++ .process3 (msg 3 3) :: ([Op.compose4 100] ++ exports)) := by
    rw [← e]; rfl
  rw [this]
  exact ⟨_, [239, 241, 243, 4], [131, 104, 69, 110, 99, 114, 121, 112, 116, 48, 64, 68, 137, 140, 137, 140],
    [5, 66, 140, 253, 34, 216, 141, 216], some [5, 66, 140, 253, 34], inCall (by decide +kernel), by
      show _ <:+: _
      decide +kernel⟩

end Toy

/-- Non-vacuity: the two ends of the toy handshake with method 3 use the key of message 3. -/
example := C88_one_handshake (Toy.sessions_hold (by decide)) ⟨_, .inl Toy.encrypts3⟩ ⟨_, .inr Toy.decrypts3⟩ (by decide +kernel)
example := C88_at_most_two (Toy.sessions_hold (by decide)) ⟨_, .inl Toy.encrypts3⟩ ⟨_, .inr Toy.decrypts3⟩
  ⟨_, .inr Toy.decrypts3⟩ (by decide +kernel) (by decide +kernel)
example := C88_not_exported (Toy.sessions_hold (m := 3) (by decide)) (Toy.exports_key (by decide) true) (by decide)

end Verif
