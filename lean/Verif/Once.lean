import Verif.Sides
import Verif.Props.Separation

/-!
# Calls to the application that happen once in a session
-/

namespace Verif

open M Spec

variable {σ : Type} {E : Env σ} {cfg : Config}

theorem run_det {s a b : St σ} {h : History} (h1 : Run E cfg s h a) : Run E cfg s h b → a = b := by
  induction h1 with
  | nil s => intro h2; cases h2; rfl
  | @cons s s1 s2 o r h hs hd _ ih =>
    intro h2
    obtain ⟨t, h3, _, h4⟩ := run_cons h2
    rw [hs] at h3
    cases h3
    exact ih h4

section
variable {e : σ} {log : List Ev} {h h1 h1' : History} {s' a b a' b' : St σ} {o o' : Op} {r r' : Res Out} {k k' : Call}
  {v w : Ev}

/-- a message call that calls the application was allowed -/
theorem Placed.active (p : Placed E cfg e log h s' h1 o r a b) (hk : callOf o = some k) (hv : v ∈ during a b) :
    okOf k a.ctx = true := by
  rcases step_message hk p.step p.defined with ⟨_, _, rfl⟩ | ⟨_, _, _, rfl⟩ | ⟨_, hok, _⟩ | ⟨_, hok, _⟩
  · simp [during] at hv
  · simp [during] at hv
  · exact hok
  · exact hok

theorem during_ne (hv : v ∈ during a b) : b ≠ a := by
  rintro rfl
  simp [during] at hv

/-- of two calls about the same message only one does something -/
theorem placed_once (hs : Session E cfg e log h s') (p : Placed E cfg e log h s' h1 o r a b)
    (p' : Placed E cfg e log h s' h1' o' r' a' b') (hk : callOf o = some k) (hk' : callOf o' = some k')
    (hr : round k = round k') (hv : v ∈ during a b) (hw : w ∈ during a' b') : h1 = h1' ∧ o = o' ∧ r = r' ∧ a = a' ∧ b = b' := by
  have main : ∀ {h1 h1' : History} {a b a' b' : St σ} {o o' : Op} {r r' : Res Out} {k k' : Call} {v w : Ev}
      {t : History} {y : Op × Res Out}, Placed E cfg e log h s' h1 o r a b → Placed E cfg e log h s' h1' o' r' a' b' →
      callOf o = some k → callOf o' = some k' → v ∈ during a b → w ∈ during a' b' → h1' = h1 ++ y :: t →
      round k < round k' := by
    intro h1 h1' a b a' b' o o' r r' k k' v w t y p p' hk hk' hv hw e
    obtain ⟨h2, e1, _⟩ := p.split
    obtain ⟨h2', e2, _⟩ := p'.split
    rw [e1, e, List.append_assoc, List.cons_append] at e2
    obtain ⟨ey, _⟩ := List.cons.inj (List.append_cancel_left e2)
    obtain ⟨a1, ra, rb⟩ := run_append (e ▸ p'.before.1)
    have := run_det p.before.1 ra
    subst this
    rw [← ey] at rb
    obtain ⟨b1, st, _, rc⟩ := run_cons rb
    rw [p.step] at st
    cases st
    exact rounds_grow hk hk' p.step p.defined rc (fun q hq => p'.before.2 q (by rw [e]; simp [hq])) p'.step p'.defined
      (during_ne hv) (during_ne hw)
  obtain ⟨h2, e1, _⟩ := p.split
  obtain ⟨h2', e2, _⟩ := p'.split
  rw [e1] at e2
  rcases List.append_eq_append_iff.1 e2 with ⟨t, ht, hx⟩ | ⟨t, ht, hx⟩ <;> cases t with
  | nil =>
    simp only [List.append_nil, List.nil_append, List.cons.injEq, Prod.mk.injEq] at ht hx
    first
    | (obtain ⟨⟨rfl, rfl⟩, _⟩ := hx
       subst ht
       have := run_det p.before.1 p'.before.1
       subst this
       have := p.step.symm.trans p'.step
       cases this
       exact ⟨rfl, rfl, rfl, rfl, rfl⟩)
  | cons y t =>
    first
    | (have := main p p' hk hk' hv hw ht; omega)
    | (have := main p' p hk' hk hw hv ht; omega)

end

section
variable {N : Node}

/-- kinds of calls that are made at one place in either role -/
def onePlace : Kind → Bool
  | .credFetch | .credVerify => true
  | _ => false

theorem once_roles (g : N.Good) {h1 h1' : History} {a b a' b' : St N.σ} {o o' : Op} {r r' : Res Out} {k k' : Call} {v w : Ev}
    (p : Placed N.env N.cfg N.start N.log N.hist N.state h1 o r a b)
    (p' : Placed N.env N.cfg N.start N.log N.hist N.state h1' o' r' a' b') (hk : callOf o = some k)
    (hk' : callOf o' = some k') (hv : v ∈ during a b) (hw : w ∈ during a' b') :
    (k = .process2 → k' ≠ .process3) ∧ (k = .compose2 → k' ≠ .compose3) := by
  have ha := p.active hk hv
  have ha' := p'.active hk' hw
  have hp := past_session p.before
  have hp' := past_session p'.before
  obtain ⟨q, hq, hpre⟩ := C01_handshake_order g.session
  have sub : ∀ {h1 o r} {a b : St N.σ} {x}, Placed N.env N.cfg N.start N.log N.hist N.state h1 o r a b → x ∈ messages h1 →
      x ∈ q := by
    intro h1 o r a b x p hx
    obtain ⟨h2, e, _⟩ := p.split
    refine hpre.subset ?_
    rw [e, messages_append]
    exact List.mem_append_left _ hx
  constructor
  · rintro rfl rfl
    simp only [okOf, okWaitM2, okWaitM3, Bool.and_eq_true, beq_iff_eq] at ha ha'
    rw [ha.1.1] at hp
    rw [ha'.1.1] at hp'
    have i1 := sub p (x := .compose1) (by rw [hp]; simp)
    have i2 := sub p' (x := .process1) (by rw [hp']; simp)
    simp only [roleSequences, List.mem_cons, List.not_mem_nil, or_false] at hq
    rcases hq with rfl | rfl | rfl | rfl <;> simp at i1 i2
  · rintro rfl rfl
    simp only [okOf, okReceivedM1, okVerifiedM2, Bool.and_eq_true, beq_iff_eq] at ha ha'
    rw [ha.1.1] at hp
    rw [ha'.1.1] at hp'
    have i1 := sub p (x := .process1) (by rw [hp]; simp)
    have i2 := sub p' (x := .compose1) (by rw [hp']; simp)
    simp only [roleSequences, List.mem_cons, List.not_mem_nil, or_false] at hq
    rcases hq with rfl | rfl | rfl | rfl <;> simp at i1 i2

/-- a session fetches its credential once and has one credential verified -/
theorem once (g : N.Good) {kk : Kind} {v w : Ev} (hk : onePlace kk = true) (kv : IsKind kk v) (kw : IsKind kk w)
    (hv : v ∈ N.calls) (hw : w ∈ N.calls) : v = w := by
  obtain ⟨h1, o, r, a, b, p, hv⟩ := session_locate g.session hv
  obtain ⟨h1', o', r', a', b', p', hw⟩ := session_locate g.session hw
  have pv := within_mem (C33_performs p.step p.defined) kv hv
  have pw := within_mem (C33_performs p'.step p'.defined) kw hw
  have fin : ∀ {k k' : Call}, callOf o = some k → callOf o' = some k' → round k = round k' →
      (performs o).count kk ≤ 1 → v = w := by
    intro k k' hk hk' hr hc
    obtain ⟨rfl, rfl, rfl, rfl, rfl⟩ := placed_once g.session p p' hk hk' hr hv hw
    exact within_once (C33_performs p.step p.defined) hc kv kw hv hw
  cases kk <;> simp only [onePlace, Bool.false_eq_true] at hk <;>
    cases o <;> simp [performs] at pv <;> cases o' <;> simp [performs] at pw <;>
    first
    | exact fin rfl rfl rfl (by simp [performs])
    | exact ((once_roles g p p' rfl rfl hv hw).1 rfl rfl).elim
    | exact ((once_roles g p p' rfl rfl hv hw).2 rfl rfl).elim
    | exact ((once_roles g p' p rfl rfl hw hv).1 rfl rfl).elim
    | exact ((once_roles g p' p rfl rfl hw hv).2 rfl rfl).elim

end

end Verif
