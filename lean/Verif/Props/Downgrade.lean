import Verif.SpecDowngrade
import Verif.Props.Agreement
import Verif.Config
import Verif.Props.Wire
import Verif.Locate

/-!
# C76: an attacker cannot make honest parties use another method or cipher suite
-/

namespace Verif

open M Spec

variable {σ : Type} {E : Env σ} {cfg : Config}

/-! ## The configuration is that of the calls -/

theorem wantedMethods_snoc (h : History) (p : Op × Res Out) :
    wantedMethods (h ++ [p]) = (givenMethods p).getD (wantedMethods h) := by
  unfold wantedMethods
  rw [List.filterMap_append]
  cases hp : givenMethods p <;> simp [hp]

theorem wantedSuites_snoc (h : History) (p : Op × Res Out) :
    wantedSuites (h ++ [p]) = (givenSuites p).getD (wantedSuites h) := by
  unfold wantedSuites
  rw [List.filterMap_append]
  cases hp : givenSuites p <;> simp [hp]

/-- In every session the context holds what the application configured last. -/
theorem wanted_session {e : σ} {log : List Ev} {h : History} {s : St σ} (hs : Session E cfg e log h s) :
    s.ctx.method = wantedMethods h ∧ suites s.ctx = wantedSuites h := by
  refine session_ind (P := fun h s => s.ctx.method = wantedMethods h ∧ suites s.ctx = wantedSuites h) ?_ ?_ hs
  · exact ⟨rfl, rfl⟩
  · intro h s o r s' _ ih hst hd hr
    rw [wantedMethods_snoc, wantedSuites_snoc]
    by_cases ho : isSetter o = true
    · rcases C30_setters (E := E) (cfg := cfg) ho s with ⟨_, _, c', h1, h2⟩ | ⟨_, e, _, h1⟩
      · rw [hst] at h1
        obtain ⟨rfl, rfl⟩ := Prod.mk.inj h1
        cases o <;> simp only [isSetter, Bool.false_eq_true] at ho <;> simp only [Stored] at h2
        case setMethods ms => subst h2; exact ⟨rfl, ih.2⟩
        case setSuites l =>
          refine ⟨?_, h2.1⟩
          have : c'.method = s.ctx.method := by rw [h2.2.2]
          exact this.trans ih.1
        all_goals (subst h2; exact ih)
      · rw [hst] at h1
        obtain ⟨rfl, rfl⟩ := Prod.mk.inj h1
        have g1 : givenMethods (o, Res.err (α := Out) e) = none := by cases o <;> rfl
        have g2 : givenSuites (o, Res.err (α := Out) e) = none := by cases o <;> rfl
        rw [g1, g2]; exact ih
    · have g1 : givenMethods (o, r) = none := by cases o <;> first | rfl | exact absurd rfl ho
      have g2 : givenSuites (o, r) = none := by cases o <;> first | rfl | exact absurd rfl ho
      rw [g1, g2]
      rcases conf_step hst hd hr with hc | ⟨_, hc⟩
      · exact ⟨(congrArg Ctx.method hc : _).trans ih.1,
          (congrArg suites hc : suites s'.ctx.conf = suites s.ctx.conf).trans ih.2⟩
      · cases o <;> simp only [isSetter, not_true_eq_false] at ho <;> exact absurd hc (by simp [Stored])

/-! ## What a session uses -/

theorem chosen_last {c : Ctx} (h0 : c.csuiteLen ≠ 0) (hl : (suites c).length = c.csuiteLen) (m : Nat) :
    (suites c).getLast? = some (chosen c m).suite := by
  unfold suites at hl ⊢
  rw [List.length_take] at hl
  have hlt : c.csuiteLen - 1 < c.csuiteArr.length := by omega
  show _ = some (c.csuiteArr.getD (c.csuiteLen - 1) Suite.zero)
  rw [List.getLast?_eq_getElem?, List.length_take, List.getElem?_take,
    show min c.csuiteLen c.csuiteArr.length = c.csuiteLen by omega, if_pos (by omega), List.getD_eq_getElem?_getD,
    List.getElem?_eq_getElem hlt]
  rfl

/-- what a session with the first message call `k` uses -/
def Uses (k : Call) (c : Ctx) : Prop :=
  (suites c).getLast? = some c.suite ∧ (k = .compose1 → c.chosenMethod = c.method.headD 0) ∧
    (k = .process1 → c.chosenMethod ∈ c.method)

theorem reconf_false {h : History} {p : Op × Res Out} (hset : Settled (h ++ [p])) (hm : messages h ≠ []) :
    reconf p = false := by
  obtain ⟨k, hmem⟩ := List.exists_mem_of_ne_nil _ hm
  unfold messages at hmem
  rw [List.mem_filterMap] at hmem
  obtain ⟨q, hq, hk⟩ := hmem
  split at hk
  · rename_i hsu
    have := (List.pairwise_append.1 hset).2.2 q hq p (by simp) (by simp [hk]) hsu
    unfold reconf
    cases hr : succeeded p.2 with
    | false => simp
    | true => simp [this hr]
  · cases hk

theorem uses_session {e : σ} {log : List Ev} {h : History} {s : St σ} (hs : Session E cfg e log h s)
    (hset : Settled h) {k : Call} {ks : List Call} (hm : messages h = k :: ks) : Uses k s.ctx := by
  revert hset k ks
  refine session_ind (P := fun h s => Settled h → ∀ {k : Call} {ks : List Call}, messages h = k :: ks →
    Uses k s.ctx) ?_ ?_ hs
  · intro _ k ks hm; cases hm
  · intro h s o r s' hs ih hst hd hr hset k ks hm
    have hset' : Settled h := (List.pairwise_append.1 hset).1
    rw [messages_append] at hm
    have hp := past_session hs
    cases hh : messages h with
    | cons k' ks' =>
      rw [hh] at hm
      simp only [List.cons_append, List.cons.injEq] at hm
      obtain ⟨rfl, _⟩ := hm
      obtain ⟨i1, i2, i3⟩ := ih hset' hh
      have hc : reconf (o, r) = false := reconf_false hset (by rw [hh]; simp)
      have hu := used_step hst hd hr hc (by intro h0; rw [h0, hh] at hp; cases hp)
      have hme : s'.ctx.method = s.ctx.method := by
        by_cases ho : isSetter o = true
        · rcases C30_setters (E := E) (cfg := cfg) ho s with ⟨_, _, _, h2, _⟩ | ⟨_, _, _, h2⟩
          · rw [hst] at h2
            rw [(Prod.mk.inj h2).1] at hc
            simp [reconf, ho, succeeded] at hc
          · rw [hst] at h2
            rw [(Prod.mk.inj h2).2]
        · rcases conf_step hst hd hr with h1 | ⟨_, h1⟩
          · exact (congrArg Ctx.method h1 : _)
          · cases o <;> simp only [isSetter, not_true_eq_false] at ho <;> exact absurd h1 (by simp [Stored])
      simp only [Ctx.used, Prod.mk.injEq] at hu
      obtain ⟨u1, u2, u3, _⟩ := hu
      unfold Uses
      rw [u1, u2, u3, hme]
      exact ⟨i1, i2, i3⟩
    | nil =>
      rw [hh, List.nil_append] at hm
      have hk : callOf o = some k ∧ succeeded r = true := by
        simp only [messages, List.filterMap_cons, List.filterMap_nil] at hm
        cases hr' : succeeded r with
        | false => simp [hr'] at hm
        | true =>
          simp only [hr', ↓reduceIte] at hm
          cases hk : callOf o with
          | none => simp [hk] at hm
          | some k' => simp only [hk, List.cons.injEq] at hm; simp [hm.1]
      obtain ⟨hk, hr'⟩ := hk
      have hok : ∃ x, r = .ok x := by cases r <;> simp only [succeeded, Bool.false_eq_true] at hr'; exact ⟨_, rfl⟩
      obtain ⟨x, rfl⟩ := hok
      have hl := session_suites hs
      have hq := past_prefix (past_step hst hd hr (p := messages h) hp)
      rw [hh, List.nil_append, show added o (.ok x) = k :: ks from hm] at hq
      have h01 : k = .compose1 ∨ k = .process1 := by
        obtain ⟨q, hq, t, rfl⟩ := hq
        simp only [roleSequences, List.mem_cons, List.not_mem_nil, or_false, List.cons_append, List.cons.injEq] at hq
        rcases hq with hq | hq | hq | hq <;> simp [hq.1]
      rcases h01 with rfl | rfl
      · obtain ⟨n, m, _, _, hc⟩ := step_compose1 hk hst
        obtain ⟨_, _, k0, _, _, _, _, _, _, _, _, _, _, _, _, _, _, _, hx⟩ := message1Compose_ok hc
        refine ⟨?_, fun _ => by rw [hx]; rfl, fun h => by cases h⟩
        have := chosen_last k0 hl (s.ctx.method.headD 0)
        rw [hx]; exact this
      · obtain ⟨m, _, _, hc⟩ := step_process1 hk hst
        obtain ⟨_, _, k0, _, me, _, _, _, hme, _, _, _, _, _, _, hx⟩ := message1Process_ok hc
        refine ⟨?_, fun h => (by cases h), fun _ => by rw [hx]; exact hme⟩
        have := chosen_last k0 hl me
        rw [hx]; exact this

/-- the first message call of a session that made the call `k` -/
theorem first_call {e : σ} {log : List Ev} {h : History} {s : St σ} (hs : Session E cfg e log h s) {k : Call}
    (hk : k = .compose1 ∨ k = .process1) (hm : k ∈ messages h) : ∃ ks, messages h = k :: ks := by
  obtain ⟨q, hq, hp⟩ := C01_handshake_order hs
  obtain ⟨t, ht⟩ := hp
  cases hh : messages h with
  | nil => rw [hh] at hm; cases hm
  | cons k' ks =>
    rw [hh] at hm ht
    simp only [roleSequences, List.mem_cons, List.not_mem_nil, or_false] at hq
    have hsub : k ∈ q := by rw [← ht]; exact List.mem_append_left _ hm
    rcases hq with rfl | rfl | rfl | rfl <;> rcases hk with rfl | rfl <;> simp at hsub <;>
      simp only [List.cons_append, List.cons.injEq] at ht <;> exact ⟨ks, by rw [ht.1]⟩

/-- **C76** (one session). A session of an application that configures it before the first message uses the last of the
cipher suites it configured. As Initiator it uses the first of the methods it configured (method 0, if there is none),
and as Responder one of those it configured: whatever messages it receives, and whatever callbacks return. -/
theorem C76_own {e : σ} {log : List Ev} {h : History} {s : St σ} (hs : Session E cfg e log h s) (hset : Settled h) :
    (.compose1 ∈ messages h → (wantedSuites h).getLast? = some s.ctx.suite ∧
      s.ctx.chosenMethod = (wantedMethods h).headD 0) ∧
    (.process1 ∈ messages h → (wantedSuites h).getLast? = some s.ctx.suite ∧ s.ctx.chosenMethod ∈ wantedMethods h) := by
  obtain ⟨w1, w2⟩ := wanted_session hs
  rw [← w1, ← w2]
  constructor <;> intro hm
  · obtain ⟨ks, hm⟩ := first_call hs (.inl rfl) hm
    obtain ⟨u1, u2, _⟩ := uses_session hs hset hm
    exact ⟨u1, u2 rfl⟩
  · obtain ⟨ks, hm⟩ := first_call hs (.inr rfl) hm
    obtain ⟨u1, _, u2⟩ := uses_session hs hset hm
    exact ⟨u1, u2 rfl⟩

/-- **C76** (what the Initiator says). Message 1 begins with the first method and with all cipher suites the Initiator
configured, in this order: both sides have the list, and since they agree on message 1 (C66) it cannot be changed on the
way. -/
theorem C76_list {e : σ} {log : List Ev} {h : History} {s : St σ} (hs : Session E cfg e log h s) (hset : Settled h)
    {n : Nat} {m1 : Bytes} (hm : (.compose1 n, .ok (.bytes m1)) ∈ h) :
    ∃ r, m1 = encInt ((wantedMethods h).headD 0 : Nat) ++ suitesItem ((wantedSuites h).map Suite.value) ++ r := by
  revert hset hm
  refine session_ind (P := fun h s => Settled h → (.compose1 n, .ok (.bytes m1)) ∈ h →
    ∃ r, m1 = encInt ((wantedMethods h).headD 0 : Nat) ++ suitesItem ((wantedSuites h).map Suite.value) ++ r) ?_ ?_ hs
  · intro _ hm; cases hm
  · intro h s o r s' hs ih hst hd hr hset hm
    rw [wantedMethods_snoc, wantedSuites_snoc]
    rcases List.mem_append.1 hm with hm | hm
    · have hc : reconf (o, r) = false :=
        reconf_false hset (List.ne_nil_of_mem (message_mem hm (k := .compose1) rfl))
      have g1 : givenMethods (o, r) = none := by
        cases o <;> try rfl
        cases r <;> try rfl
        simp [reconf, isSetter, succeeded] at hc
      have g2 : givenSuites (o, r) = none := by
        cases o <;> try rfl
        cases r <;> try rfl
        simp [reconf, isSetter, succeeded] at hc
      rw [g1, g2]
      exact ih (List.pairwise_append.1 hset).1 hm
    · simp only [List.mem_singleton, Prod.mk.injEq] at hm
      obtain ⟨rfl, rfl⟩ := hm
      obtain ⟨_, _, h1, h2, hc⟩ := step_compose1 rfl hst
      cases h1; cases h2
      obtain ⟨_, _, hl, _, priv, pub, kid, ts, th, _, _, _, _, _, hm, _⟩ := message1Compose_ok hc
      obtain ⟨su, ci, ea, h1, _, _, h4⟩ := encMsg1_ok hm
      obtain ⟨w1, w2⟩ := wanted_session hs
      refine ⟨encBstr pub ++ ci ++ ea, ?_⟩
      have e1 : wantedMethods h = s.ctx.method := w1.symm
      have e2 : wantedSuites h = suites s.ctx := w2.symm
      show m1 = encInt ((wantedMethods h).headD 0 : Nat) ++ suitesItem ((wantedSuites h).map Suite.value) ++ _
      rw [e1, e2]
      refine h4.trans ?_
      rw [suitesItem_enc (session_suites hs) hl h1]
      simp only [List.append_assoc]

section

variable {ι : Type} {W : ι → Node} {owns : ι → Bytes → Prop} {honest : Bytes → Prop} {i j : ι}

theorem noDowngrade (gI : (W i).Good) (gR : (W j).Good) {me : Nat} {su : Int} (hi : .compose1 ∈ messages (W i).hist)
    (hj : .process1 ∈ messages (W j).hist) (m1 : (W i).method = me) (m2 : (W j).method = me)
    (s1 : (W i).suite.value = su) (s2 : (W j).suite.value = su) : NoDowngrade (W i).hist (W j).hist me su := by
  obtain ⟨a1, a2⟩ := (C76_own gI.proper.session gI.proper.settled).1 hi
  obtain ⟨b1, b2⟩ := (C76_own gR.proper.session gR.proper.settled).2 hj
  refine ⟨m1.symm.trans a2, m2 ▸ b2, ?_, ?_⟩
  · rw [List.getLast?_map, a1, ← s1]; rfl
  · rw [List.getLast?_map, b1, ← s2]; rfl

/-- **C76, Initiator.** On a network an attacker controls: if an Initiator accepts message 2 from the owner of an honest
key, then with a session of the owner it shares the method and the cipher suite, and they are what both applications
configured: the Initiator's first method, which the Responder allows, and the suite both prefer. -/
theorem C76_initiator (w : Network W owns honest) {m2 : Bytes} (hm : (.process2 m2, .ok .unit) ∈ (W i).hist) :
    ∃ d pk, Accepted2 (W i) m2 d pk ∧ (honest pk → ∃ j, j ≠ i ∧ owns j pk ∧ Answered2 (W j) d ∧
      NoDowngrade (W i).hist (W j).hist d.method d.suite) := by
  obtain ⟨d, pk, ac, h⟩ := C66_initiator w hm
  refine ⟨d, pk, ac, fun hh => ?_⟩
  obtain ⟨j, hj, ho, an⟩ := h hh
  obtain ⟨n, hn⟩ := ac.sent
  exact ⟨j, hj, ho, an, noDowngrade (w.good i) (w.good j) (message_mem hn rfl) (message_mem an.received rfl) ac.method
    an.method ac.suite an.suite⟩

/-- **C76, Responder.** The same for a Responder that accepts message 3 from the owner of an honest key. -/
theorem C76_responder (w : Network W owns honest) {m3 : Bytes} (hm : (.process3 m3, .ok .unit) ∈ (W i).hist) :
    ∃ d pk, Accepted3 (W i) m3 d pk ∧ (honest pk → ∃ j, j ≠ i ∧ owns j pk ∧ Answered3 (W j) d ∧
      NoDowngrade (W j).hist (W i).hist d.method d.suite) := by
  obtain ⟨d, pk, ac, h⟩ := C66_responder w hm
  refine ⟨d, pk, ac, fun hh => ?_⟩
  obtain ⟨j, hj, ho, an⟩ := h hh
  obtain ⟨n, hn⟩ := an.sent
  exact ⟨j, hj, ho, an, noDowngrade (w.good j) (w.good i) (message_mem hn rfl) (message_mem ac.received rfl) an.method
    ac.method an.suite ac.suite⟩

end

/-! ## Non-vacuity -/

namespace Toy

/-- a cipher suite Alice knows but does not prefer -/
def other : Suite := { suite with value := 6 }

/-- Alice configures twice, with several methods and suites. -/
def picky : List Op :=
  [.setMethods [0, 1], .setSuites [suite, other]] ++ conf 3 (.int 5) ++ [.setMethods [2, 3], .setSuites [other, suite], .compose1 100]

/-- Bob allows all methods. -/
def lenient : List Op :=
  conf 3 (.int 6) ++ [.setMethods [0, 1, 2, 3], .setSuites [other, suite], .setSuites [], .process1 (msg 2 1)]

/-- Non-vacuity of `C76_own` and `C76_list`. -/
example : Session (env alice) Toy.cfg () [] (hst alice picky) (after alice picky) ∧ Settled (hst alice picky) ∧
    messages (hst alice picky) = [.compose1] ∧ wantedMethods (hst alice picky) = [2, 3] ∧
    wantedSuites (hst alice picky) = [other, suite] :=
  ⟨Toy.session alice picky (by decide +kernel), settled_of (by decide +kernel), by decide +kernel, by decide +kernel, by decide +kernel⟩

@[inherit_doc picky]
example : Session (env bob) Toy.cfg () [] (hst bob lenient) (after bob lenient) ∧ Settled (hst bob lenient) ∧
    messages (hst bob lenient) = [.process1] ∧ wantedMethods (hst bob lenient) = [0, 1, 2, 3] ∧
    wantedSuites (hst bob lenient) = [other, suite] ∧ (after bob lenient).ctx.chosenMethod = 2 :=
  ⟨Toy.session bob lenient (by decide +kernel), settled_of (by decide +kernel), by decide +kernel, by decide +kernel, by decide +kernel,
    by decide +kernel⟩

end Toy

/-- Non-vacuity of `C76_initiator` and `C76_responder`: in the toy network messages 2 and 3 are accepted, from honest
parties. -/
example : ∀ m ∈ Toy.methods, (∃ m2, (.process2 m2, .ok .unit) ∈ (Toy.network m true).hist) ∧
    ∃ m3, (.process3 m3, .ok .unit) ∈ (Toy.network m false).hist := by
  intro m hm
  have h := List.all_eq_true.1 Toy.network_calls m hm
  simp only [Bool.and_eq_true, List.any_eq_true] at h
  obtain ⟨⟨p, hp, hp'⟩, q, hq, hq'⟩ := h
  constructor
  · split at hp'
    · exact ⟨_, hp⟩
    · cases hp'
  · split at hq'
    · exact ⟨_, hq⟩
    · cases hq'

@[inherit_doc C76_initiator]
example {m : Nat} (hm : m ∈ Toy.methods) {m2 : Bytes} := C76_initiator (Toy.network_holds hm) (i := true) (m2 := m2)

@[inherit_doc C76_responder]
example {m : Nat} (hm : m ∈ Toy.methods) {m3 : Bytes} := C76_responder (Toy.network_holds hm) (i := false) (m3 := m3)

end Verif
