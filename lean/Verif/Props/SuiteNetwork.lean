import Verif.SpecSuiteNetwork
import Verif.Props.Matching
import Verif.Props.Suites
import Verif.Props.Standard

/-!
# C71: agreement against an active attacker, with the shipped cipher suites
-/

namespace Verif

open Spec Psa

section

variable {A : Algs} {q : Params} {ι : Type} {W : ι → Site} {honest : Bytes → Prop} {i j : ι}

namespace Psa

/-- a key that was used in a key agreement is a private key -/
theorem agree_priv {τ : Type} {X : Psa.App τ} {w1 w2 : World τ} {kid pk o : Bytes} (hl : AlgLaws A q) (hv : Valid A w1.1) {k : Key}
    (hk : w1.1.find (kidNat kid) = some k) (hb : ∀ c, q.curve = some c → k.attr.bits = 8 * c.len)
    (h1 : Ran1 (suiteEnv A q X) w1 (.keyAgreement kid pk (some o)) w2) : isPriv A q k.data := by
  obtain ⟨h1, -⟩ := runP_some (m := keyAgree A q (kidNat kid) pk q.ecc) (w' := w2) h1
  cases hc : q.curve with
  | none =>
    obtain ⟨k', hk', -, hn, -, -⟩ := keyAgree_ok_x hc h1
    rw [hk] at hk'
    cases hk'
    simpa only [isPriv, hc] using hn
  | some c =>
    obtain ⟨k', hk', -, -, hkind, -⟩ := keyAgree_ok_ec hc h1
    rw [hk] at hk'
    cases hk'
    have h2 := hv _ _ hk
    simp only [keyOk, hkind, Bool.and_eq_true, beq_iff_eq] at h2
    rw [hb c hc] at h2
    simp only [isPriv, hc]
    exact ⟨(hl.curve c hc).priv _ h2.2, h2.2⟩

theorem static_priv {τ : Type} {X : Psa.App τ} {w w' : World τ} {L : List Ev} {sk : Bytes → Bytes} (hl : AlgLaws A q)
    (hX : Decent A X) (hv : Valid A w.1) (hA : Anchored q X w.1 sk) (hr : Ran (suiteEnv A q X) w L w') (ho : OnlyOwn L)
    {c : Cred} {kid pk o : Bytes} (hc : CredSupplied L c kid) (h : AgreeStaticCall L kid pk o) : isPriv A q (sk kid) := by
  obtain ⟨l1, l2, w1, w2, -, -, h1, -⟩ := hr.mem hc
  obtain ⟨h0, k, hk, hd, hb⟩ := hA w1 c kid (congrArg Prod.fst h1)
  obtain ⟨l3, l4, w3, w4, e, h3, h4, -⟩ := hr.mem h
  obtain ⟨hk', -⟩ := ran_kept hX h3 (fun kid P hP => ho kid P (hP.trans (by rw [e]; exact List.prefix_append _ _))) hk h0
  rw [← hd]
  exact agree_priv hl (ran_valid hX h3 hv) hk' hb h4

end Psa

theorem site_faithful {S : Site} (hl : AlgLaws A q) (hq : q ∈ shipped) (g : S.Good A q) :
    Faithful (primsOf A q) S.key (S.node A q).calls :=
  suite_faithful hl hq g.decent g.valid g.anchored g.node.proper.session

theorem suite_network (hl : AlgLaws A q) (hq : q ∈ shipped) (w : SuiteNetwork A q W honest) :
    Network (fun i => (W i).node A q) (fun i pk => (W i).Owns A q pk) honest where
  good i := (w.good i).node
  noCollision i j := by
    intro x y o hx hy
    have e := (site_faithful hl hq (w.good i)).hash hx
    exact w.noCollision hx hy (e.symm.trans ((site_faithful hl hq (w.good j)).hash hy))
  distinct := by
    intro i j p c r c' mac hx hy
    rw [w.suite i] at hx hy
    have e := (site_faithful hl hq (w.good i)).expand hx
    exact w.distinct hx hy (e.symm.trans ((site_faithful hl hq (w.good j)).expand hy))
  fresh := w.fresh
  signatures := w.signatures
  macs := w.macs

theorem suite_shared (hl : AlgLaws A q) (hq : q ∈ shipped) (w : SuiteNetwork A q W honest) :
    Shared (primsOf A q) (fun i => (W i).key) (fun i => (W i).node A q) (fun i pk => (W i).Owns A q pk) where
  dh := (prims_lawful hl).dh
  faithful i := site_faithful hl hq (w.good i)
  suites _ := by rw [w.suite, w.suite]
  owner {i} := by
    intro pk c kid g o ho hc ha
    have g := w.good i
    exact ⟨ho.agrees hc ha, static_priv hl g.decent g.valid g.anchored (session_ran g.node.proper.session).2
      (session_own g.node.proper.session) hc ha⟩

/-! ## C71 -/

/-- **C71, message 2.** If an Initiator accepts message 2 from the owner of an honest key, a session of the owner, as
Responder, has received its message 1 and answered it with the same data. -/
theorem C71_message2 (hl : AlgLaws A q) (hq : q ∈ shipped) (w : SuiteNetwork A q W honest) {m2 : Bytes}
    (hm : (.process2 m2, .ok .unit) ∈ (W i).hist) :
    ∃ d pk, Accepted2 ((W i).node A q) m2 d pk ∧
      (honest pk → ∃ j, j ≠ i ∧ (W j).Owns A q pk ∧ Answered2 ((W j).node A q) d) :=
  C66_initiator (suite_network hl hq w) hm

/-- **C71, message 3.** If a Responder accepts message 3 from the owner of an honest key, a session of the owner, as
Initiator, has sent it with the same data; if that session completed the handshake and trusts an honest key, too, both
export the same keys. -/
theorem C71_message3 (hl : AlgLaws A q) (hq : q ∈ shipped) (w : SuiteNetwork A q W honest) {m3 : Bytes}
    (hm : (.process3 m3, .ok .unit) ∈ (W j).hist) :
    ∃ d pk, Accepted3 ((W j).node A q) m3 d pk ∧ (honest pk → ∃ i, i ≠ j ∧ (W i).Owns A q pk ∧
      Answered3 ((W i).node A q) d ∧ ∀ {n m3'}, (.compose3 n, .ok (.bytes m3')) ∈ (W i).hist →
        TrustsHonest ((W i).node A q) honest → SameExports ((W i).node A q) ((W j).node A q)) :=
  C68_responder (suite_network hl hq w) w.sealed3 (suite_shared hl hq w) hm

/-- **C71, message 4.** If an Initiator accepts message 4 and the Responder's key is honest, a session of the owner, as
Responder, has accepted message 3 with the same data; if that session trusts an honest key, too, both export the same
keys. -/
theorem C71_message4 (hl : AlgLaws A q) (hq : q ∈ shipped) (w : SuiteNetwork A q W honest) {n : Nat} {m1 m4 : Bytes}
    (h1 : (.compose1 n, .ok (.bytes m1)) ∈ (W i).hist) (hm : (.process4 m4, .ok .unit) ∈ (W i).hist) :
    ∃ d pk, Accepted4 ((W i).node A q) m4 d pk ∧ (honest pk → ∃ j, j ≠ i ∧ (W j).Owns A q pk ∧
      Answered4 ((W j).node A q) d ∧ (TrustsHonest ((W j).node A q) honest → SameExports ((W i).node A q) ((W j).node A q))) :=
  C68_initiator (suite_network hl hq w) w.sealed4 (suite_shared hl hq w) h1 hm

/-- **C71, the standard algorithms.** With the algorithms the suites name, nothing is assumed about their encodings and
their functional correctness: the sessions are a network of sessions with the same primitives. -/
theorem C71_standard (hq : q ∈ shipped) (w : SuiteNetwork Real.algs q W honest) :
    Network (fun i => (W i).node Real.algs q) (fun i pk => (W i).Owns Real.algs q pk) honest ∧
      Shared (primsOf Real.algs q) (fun i => (W i).key) (fun i => (W i).node Real.algs q)
        (fun i pk => (W i).Owns Real.algs q pk) :=
  ⟨suite_network (C58_laws hq) hq w, suite_shared (C58_laws hq) hq w⟩

end

/-! ## Non-vacuity -/

namespace Psa.Toy

/-- the handshake with method 3, and an export; `true` is the Initiator -/
def opsOf (q : Params) (b : Bool) : List Op := (if b then opsI q else upto4 q) ++ [.exportSecret 32768 16]
def skOf (q : Params) (b : Bool) : Bytes := if b then skI q else skR q

def appOf (q : Params) (b : Bool) : App Unit := if b then appI q else appR q
def worldOf (q : Params) (b : Bool) : World Unit := if b then worldI q else worldR q

/-- both sessions -/
def site (q : Params) (b : Bool) : Site where
  app := appOf q b
  cfg := Verif.Toy.cfg
  start := worldOf q b
  log := []
  hist := (Verif.Toy.hist (suiteEnv algs q (appOf q b)) Verif.Toy.cfg (opsOf q b) ⟨Ctx.fresh, worldOf q b, []⟩).1
  state := (Verif.Toy.hist (suiteEnv algs q (appOf q b)) Verif.Toy.cfg (opsOf q b) ⟨Ctx.fresh, worldOf q b, []⟩).2
  key := fun _ => skOf q b

def callsOf (q : Params) (b : Bool) : List Ev := sessionCalls [] (site q b).state

/-- what stands next to each other in a list -/
def triples (L : List Ev) : List (List Ev) := L.tails.map (·.take 3)

theorem mem_triples {L : List Ev} {a b c : Ev} (h : [a, b, c] <:+: L) : [a, b, c] ∈ triples L := by
  obtain ⟨s, t, rfl⟩ := h
  refine List.mem_map.2 ⟨[a, b, c] ++ t, (List.mem_tails _ _).2 ⟨s, by simp⟩, rfl⟩

theorem of_triples {L : List Ev} {a b c : Ev} (h : [a, b, c] ∈ triples L) : [a, b, c] <:+: L := by
  obtain ⟨l, hl, e⟩ := List.mem_map.1 h
  have := List.take_prefix 3 l
  rw [e] at this
  exact this.isInfix.trans ((List.mem_tails _ _).1 hl).isInfix

/-- MACs and encryptions are found in the other session -/
def tripleB (T : List (List Ev)) : List Ev → Bool
  | [.importKey .expand p k, .expand k' i n o, d] =>
    !(i.head? == some 2 || i.head? == some 6) || T.contains [.importKey .expand p k, .expand k' i n o, d]
  | [.importKey .decrypt k (some kid), .decrypt _ iv aad ct (some pt), _] =>
    T.contains [.importKey .encrypt k (some kid), .encrypt kid iv aad pt (some ct), .destroyKey kid]
  | _ => true

/-- what can be checked about the calls `L` of a session and the calls `L'` of the other -/
def siteB (q : Params) (own other : Bytes) (L L' : List Ev) : Bool :=
  (triples L).all (tripleB (triples L')) &&
  (L.all fun v => match v with
    | .credFetch (some (c, _)) => c == credI || c == credR
    | .credVerify _ (some (c, some pk)) => (c == credI || c == credR) && pk == other
    | .credVerify _ (some (_, none)) => false
    | .keyAgreement _ pk _ => pk != own
    | .expand _ i n _ => decide (i.length < 1000) && !(i.head? == some 2 && n == q.hashLen)
    | .sign _ _ _ => false
    | .verify _ _ _ _ => false
    | .makeKeyPair _ (some (_, g)) => L'.all fun w => match w with
      | .makeKeyPair _ (some (_, g')) => g' != g
      | _ => true
    | _ => true) && (L.any fun v => match v with | .credFetch (some _) => true | _ => false) &&
  Verif.Toy.noCollisionB L L && Verif.Toy.noCollisionB L L'

/-- the suites with X25519 -/
def suitesX : List Params := [suite0, suite4]

theorem suitesX_shipped {q : Params} (h : q ∈ suitesX) : q ∈ shipped := by
  simp only [suitesX, shipped, List.mem_cons, List.not_mem_nil, or_false] at h ⊢
  rcases h with rfl | rfl <;> simp

theorem site_check : (suitesX.all fun q => [true, false].all fun b =>
    siteB q (pubOf q (skOf q b)) (pubOf q (skOf q !b)) (callsOf q b) (callsOf q !b) &&
      properB q (site q b).hist (site q b).state) = true := by decide +kernel

theorem cred_item {c : Cred} (h : c = credI ∨ c = credR) : Item (idCred c) ∧ Item (Spec.cred c) := by
  have d : ∀ {m a : Nat}, a < 24 → Head m a [UInt8.ofNat (m * 32 + a)] := fun h => .short h
  have s : ∀ b : Bytes, b.length < 24 → Item (encBstr b) := fun b h =>
    BstrItem.item (encBstr_item (by unfold SizeOk; omega))
  have sc : ∀ {b : Bytes} {a : Nat}, a < 24 → b = [UInt8.ofNat (0 * 32 + a)] → Item b := by
    rintro _ a h rfl
    exact .scalar (.inl rfl) (d h)
  rcases h with rfl | rfl
  · exact Verif.Toy.cred_items.1
  · refine ⟨?_, s _ (by decide)⟩
    exact .map (n := 1) (bs := [encInt 4, encBstr [1, 2]]) (d (m := 5) (by decide)) rfl
      (by
        intro b hb
        simp only [List.mem_cons, List.not_mem_nil, or_false] at hb
        rcases hb with rfl | rfl
        · exact sc (a := 4) (by decide) (by decide)
        · exact s _ (by decide))

section

variable {q : Params} {own other : Bytes} {L L' : List Ev} (h : siteB q own other L L' = true)
include h

theorem siteB_triple {t : List Ev} (ht : t ∈ triples L) : tripleB (triples L') t = true := by
  unfold siteB at h
  simp only [Bool.and_eq_true] at h
  exact List.all_eq_true.1 h.1.1.1.1 t ht

theorem siteB_rest {v : Ev} (hv : v ∈ L) :
    (∀ c k, v = .credFetch (some (c, k)) → c = credI ∨ c = credR) ∧
    (∀ id c pk, v = .credVerify id (some (c, pk)) → (c = credI ∨ c = credR) ∧ pk = some other) ∧
    (∀ k pk o, v = .keyAgreement k pk o → pk ≠ own) ∧
    (∀ k i n o, v = .expand k i n o → i.length < 2 ^ 64 ∧ ¬(i.head? = some 2 ∧ n = q.hashLen)) ∧
    (∀ k i o, v ≠ .sign k i o) ∧
    (∀ pk i g b, v ≠ .verify pk i g b) ∧
    (∀ k x g, v = .makeKeyPair k (some (x, g)) → ∀ k' x', Ev.makeKeyPair k' (some (x', g)) ∉ L') := by
  unfold siteB at h
  simp only [Bool.and_eq_true] at h
  have h := List.all_eq_true.1 h.1.1.1.2 _ hv
  refine ⟨?_, ?_, ?_, ?_, ?_, ?_, ?_⟩
  · rintro c k rfl
    simpa using h
  · rintro c k pk rfl
    cases pk with
    | none => simp at h
    | some pk => simpa using h
  · rintro k pk o rfl
    simpa using h
  · rintro k i n o rfl
    simp only [Bool.and_eq_true, decide_eq_true_eq, Bool.not_eq_true', Bool.and_eq_false_iff, beq_eq_false_iff_ne] at h
    exact ⟨by omega, by rintro ⟨a, b⟩; rcases h.2 with h | h <;> contradiction⟩
  · rintro k i o rfl
    simp at h
  · rintro pk i g b rfl
    simp at h
  · rintro k x g rfl k' x' hm
    have := List.all_eq_true.1 h _ hm
    simp at this

end

variable {q : Params}

theorem site_proper (hq : q ∈ shipped) {b : Bool} (h : properB q (site q b).hist (site q b).state = true) :
    Proper ((site q b).node algs q).env Verif.Toy.cfg (site q b).start [] (site q b).hist (site q b).state := by
  simp only [properB, Bool.and_eq_true, decide_eq_true_eq] at h
  obtain ⟨⟨⟨⟨⟨h1, h2⟩, h3⟩, h4⟩, h5⟩, h6⟩ := h
  refine ⟨Verif.Toy.hist_session _ _ _ h1, Verif.Toy.settled_of h2, ?_, Verif.Toy.numbers_of h5, Verif.Toy.short_of h6⟩
  rw [h3]
  exact Verif.Toy.regular_of (table_small hq).1 (table_small hq).2 h4

theorem site_suite {b : Bool} (h : properB q (site q b).hist (site q b).state = true) :
    ((site q b).node algs q).suite = q.table := by
  simp only [properB, Bool.and_eq_true, decide_eq_true_eq] at h
  exact h.1.1.1.2

theorem site_good (hq : q ∈ shipped) {b : Bool} {own other : Bytes} {L' : List Ev}
    (h : siteB q own other (callsOf q b) L' = true) (hp : properB q (site q b).hist (site q b).state = true) :
    (site q b).Good algs q where
  node := ⟨site_proper hq hp, fun hc => cred_item ((siteB_rest h hc).1 _ _ rfl),
    fun hc => cred_item ((siteB_rest h hc).2.1 _ _ _ rfl).1, fun hc => ((siteB_rest h hc).2.2.2.1 _ _ _ _ rfl).1,
    fun hc => absurd rfl ((siteB_rest h hc).2.2.2.2.1 _ _ _)⟩
  decent := by cases b <;> exact decent _ _ _
  valid := by cases b <;> exact valid hq _
  anchored := by cases b <;> exact anchored hq _ _ _ _

theorem site_owns (hq : q ∈ shipped) {b : Bool} {own other : Bytes} {L' : List Ev}
    (h : siteB q own other (callsOf q b) L' = true) : (site q b).Owns algs q (pubOf q (skOf q b)) where
  supplied := by
    have h := h
    unfold siteB at h
    simp only [Bool.and_eq_true, List.any_eq_true] at h
    obtain ⟨v, hv, e⟩ := h.1.1.2
    split at e
    · rename_i p
      exact ⟨p.1, p.2, hv⟩
    · cases e
  agrees _ _ := by rw [pubOf_eq hq]; rfl
  signs _ hs := absurd rfl ((siteB_rest h hs).2.2.2.2.1 _ _ _)

theorem site_network (hx : q ∈ suitesX) :
    SuiteNetwork algs q (site q) (fun pk => pk = pubOf q (skOf q true) ∨ pk = pubOf q (skOf q false)) := by
  have hq := suitesX_shipped hx
  have hc : ∀ b, _ := fun b => Bool.and_eq_true _ _ ▸
    List.all_eq_true.1 (List.all_eq_true.1 site_check q hx) b (by cases b <;> simp)
  have hb := fun b => (hc b).1
  have hn : ∀ i j : Bool, j ≠ i → j = !i := by decide
  have nc : ∀ i j, NoCollision (callsOf q i) (callsOf q j) := by
    intro i j
    have := hb i
    unfold siteB at this
    simp only [Bool.and_eq_true] at this
    intro x y o h1 h2
    by_cases e : j = i
    · subst e; exact Verif.Toy.noCollision_of this.1.2 h1 h2
    · rw [hn _ _ e] at h2; exact Verif.Toy.noCollision_of this.2 h1 h2
  have sealedAll : ∀ {i k iv aad pt ct}, DecryptCall (callsOf q i) k iv aad ct pt →
      EncryptCall (callsOf q !i) k iv aad pt ct := by
    rintro i k iv aad pt ct ⟨kid, hk⟩
    have := siteB_triple (hb i) (mem_triples hk)
    simp only [tripleB, List.contains_iff_mem] at this
    exact ⟨kid, of_triples this⟩
  refine ⟨fun b => site_good hq (hb b) (hc b).2, fun b => site_suite (hc b).2, ?_, ?_, ?_, ?_, ?_, ?_, ?_⟩
  · intro i j x y o p h1 h2 e
    have f := fun b => site_faithful (algs_laws hq) hq (site_good hq (hb b) (hc b).2)
    have e1 := (f i).hash h1
    have e2 := (f j).hash h2
    subst e1
    subst e2
    have e : (primsOf algs q).hash x = (primsOf algs q).hash y := e
    rw [← e] at h2
    exact nc i j h1 h2
  · rintro i j p c r c' o o' ⟨-, k, hk⟩
    have h1 : Ev.expand k (info 2 c q.hashLen) q.hashLen (some o) ∈ callsOf q i := hk.subset (by simp)
    exact absurd ⟨Verif.Toy.info_head (by decide), rfl⟩ ((siteB_rest (hb i) h1).2.2.2.1 _ _ _ _ rfl).2
  · rintro i j x y g ⟨k, hk⟩ ⟨k', hk'⟩
    have h1 : Ev.makeKeyPair k (some (x, g)) ∈ callsOf q i := hk.subset (by simp)
    have h2 : Ev.makeKeyPair k' (some (y, g)) ∈ callsOf q j := hk'.subset (by simp)
    refine Classical.byContradiction fun e => ?_
    rw [hn i j (Ne.symm e)] at h2
    exact (siteB_rest (hb i) h1).2.2.2.2.2.2 _ _ _ rfl _ _ h2
  · rintro i pk input sig - ⟨k, hk⟩
    have h2 : Ev.verify k input sig true ∈ callsOf q i := hk.subset (by simp)
    exact absurd rfl ((siteB_rest (hb i) h2).2.2.2.2.2.1 _ _ _ _)
  · rintro i pk label c n mac hh ht ⟨x, gx, g, salt, prk, -, ⟨ka, ha⟩, -, ⟨ln, k, hk⟩⟩
    have h1 : Ev.keyAgreement ka pk (some g) ∈ callsOf q i := ha.subset (by simp)
    have hl : label = 2 ∨ label = 6 := by
      rcases ht with ⟨h, _⟩ | ⟨h, _⟩
      · exact .inl h
      · exact .inr h
    have h2 := siteB_triple (hb i) (mem_triples hk)
    simp only [tripleB, List.contains_iff_mem, Bool.or_eq_true, Bool.not_eq_true', Bool.or_eq_false_iff, beq_eq_false_iff_ne] at h2
    have h3 : [.importKey .expand prk (some k), .expand k (info label c n) n (some mac), .destroyKey k] ∈
        triples (callsOf q !i) := by
      rcases h2 with h2 | h2
      · rcases hl with rfl | rfl
        · exact absurd (Verif.Toy.info_head (by decide)) h2.1
        · exact absurd (Verif.Toy.info_head (by decide)) h2.2
      · exact h2
    refine ⟨!i, prk, by cases i <;> simp, ?_, ln, k, of_triples h3⟩
    have e : pk = pubOf q (skOf q !i) := by
      have := (siteB_rest (hb i) h1).2.2.1 _ _ _ rfl
      cases i
      · exact hh.resolve_right this
      · exact hh.resolve_left this
    rw [e]
    exact site_owns hq (hb _)
  · rintro i _ _ _ _ _ _ _ _ _ _ _ - - - h
    exact ⟨!i, sealedAll h⟩
  · rintro i _ _ _ _ _ _ _ _ _ _ _ - - - h
    exact ⟨!i, sealedAll h⟩

theorem site_calls : (suitesX.all fun q =>
    ((site q true).hist.any fun p => match p with | (.compose1 _, .ok (.bytes _)) => true | _ => false) &&
    ((site q true).hist.any fun p => match p with | (.process4 _, .ok .unit) => true | _ => false) &&
    ((site q false).hist.any fun p => match p with | (.process3 _, .ok .unit) => true | _ => false)) = true := by
  decide +kernel

theorem site_trusts (hx : q ∈ suitesX) (b : Bool) : TrustsHonest ((site q b).node algs q)
    (fun pk => pk = pubOf q (skOf q true) ∨ pk = pubOf q (skOf q false)) := by
  intro id c pk ha
  have hc := List.all_eq_true.1 (List.all_eq_true.1 site_check q hx) b (by cases b <;> simp)
  rw [Bool.and_eq_true] at hc
  have e := ((siteB_rest hc.1 ha).2.1 _ _ _ rfl).2
  simp only [Option.some.injEq] at e
  cases b
  · exact .inl e
  · exact .inr e

end Psa.Toy

/-- With the suites 0 and 4 and toy algorithms, the Initiator accepts message 4 and exports what the Responder exports. -/
example : ∀ q ∈ Psa.Toy.suitesX, ∃ m4 d pk, Accepted4 ((Psa.Toy.site q true).node Psa.Toy.algs q) m4 d pk ∧
    Answered4 ((Psa.Toy.site q false).node Psa.Toy.algs q) d ∧
    SameExports ((Psa.Toy.site q true).node Psa.Toy.algs q) ((Psa.Toy.site q false).node Psa.Toy.algs q) := by
  intro q hx
  have hq := Psa.Toy.suitesX_shipped hx
  have h := List.all_eq_true.1 Psa.Toy.site_calls q hx
  simp only [Bool.and_eq_true, List.any_eq_true] at h
  obtain ⟨⟨⟨p, hp, hp'⟩, r, hr, hr'⟩, -⟩ := h
  split at hp'
  · split at hr'
    · obtain ⟨d, pk, a, hx'⟩ := C71_message4 (Psa.Toy.algs_laws hq) hq (Psa.Toy.site_network hx) hp hr
      obtain ⟨id, c, hca, -⟩ := a.peer
      obtain ⟨j, hj, -, an, hs⟩ := hx' (Psa.Toy.site_trusts hx true hca)
      cases j
      · exact ⟨_, d, pk, a, an, hs (Psa.Toy.site_trusts hx false)⟩
      · exact absurd rfl hj
    · cases hr'
  · cases hp'

end Verif
