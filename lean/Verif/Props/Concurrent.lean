import Verif.SpecConcurrent
import Verif.Props.Complete
import Verif.Props.Store

/-!
# C92: handshakes that run at the same time complete
-/

namespace Verif

open M Spec

section
variable {σ σI σR : Type} {P : Prims} {V : Bytes → Bytes → Bytes → Bool} {su : Suite} {k : Bounds} {me : Nat}
  {I : σ → Prop} {II : σI → Prop} {IR : σR → Prop} {E : Env σ} {EI : Env σI} {ER : Env σR} {cfg cfgI cfgR : Config}
  {pI pR : Identity} {gI gR : Choice}

/-- calls on one context; before each of them the application has gone into some state in order -/
inductive Amid (I : σ → Prop) (E : Env σ) (cfg : Config) : Ctx → History → Ctx → Prop
  | nil (c) : Amid I E cfg c [] c
  | cons {c o e l r s h c'} : I e → step E cfg o ⟨c, e, l⟩ = (r, s) → Amid I E cfg s.ctx h c' → Amid I E cfg c ((o, r) :: h) c'

theorem amid_of {ι : Type} [DecidableEq ι] {Es : ι → Env σ} (hk : Steady Es cfg I) {w w' : World ι σ}
    {h : List (ι × Op × Res Out)} (hp : Program Es cfg w h w') (hI : I w.env) (i : ι) :
    Amid I (Es i) cfg (w.ctx i) (callsOn i h) (w'.ctx i) := by
  induction hp with
  | nil w => exact .nil _
  | @cons w w2 j o r s h e d p ih =>
    have ih := ih (hk _ _ _ _ _ hI e d)
    by_cases n : i = j
    · subst n
      have q : callsOn i ((i, o, r) :: h) = (o, r) :: callsOn i h := by simp [callsOn]
      rw [q]
      refine .cons hI e ?_
      simpa [World.put] using ih
    · have q : callsOn i ((j, o, r) :: h) = callsOn i h := by
        simp only [callsOn, List.filterMap_cons]
        rw [if_neg (fun x => n x.symm)]
      rw [q]
      simpa [World.put, n] using ih

/-- the next call -/
theorem Amid.next {c c' : Ctx} {h : History} {o : Op} {os : List Op} (ha : Amid I E cfg c h c') (he : called h = o :: os) :
    ∃ s, s.ctx = c ∧ I s.env ∧ ∀ x t, step E cfg o s = (.ok x, t) →
      ∃ h', h = (o, .ok x) :: h' ∧ Amid I E cfg t.ctx h' c' ∧ called h' = os := by
  cases ha with
  | nil => cases he
  | @cons _ o' e l r s h _ h1 h2 h3 =>
    simp only [called, List.map_cons, List.cons.injEq] at he
    obtain ⟨rfl, he⟩ := he
    refine ⟨⟨c, e, l⟩, rfl, h1, fun x t q => ?_⟩
    rw [h2] at q
    cases q
    exact ⟨h, rfl, h3, he⟩

/-- calls that ask the application nothing -/
theorem Amid.settings {l : List Op} (hl : ∀ o ∈ l, isSetter o = true ∨ o = .init) {s s' : St σ} (hr : Run E cfg s (done l) s')
    {h : History} {os : List Op} {c' : Ctx} (ha : Amid I E cfg s.ctx h c') (he : called h = l ++ os) :
    ∃ h', h = done l ++ h' ∧ Amid I E cfg s'.ctx h' c' ∧ called h' = os := by
  induction l generalizing s h with
  | nil =>
    cases hr
    exact ⟨h, rfl, ha, he⟩
  | cons o l ih =>
    rcases hr with _ | @⟨_, s1, _, _, _, _, h1, _, h3⟩
    have quiet : ∀ (t : St σ) r t', step E cfg o t = (r, t') → t'.log = t.log := by
      intro t r t' ht
      rcases hl o (List.mem_cons_self ..) with ho | rfl
      · rcases C30_setters (E := E) (cfg := cfg) ho t with ⟨_, _, c', e, -⟩ | ⟨_, er, _, e⟩
        · rw [e] at ht; cases ht; rfl
        · rw [e] at ht; cases ht; rfl
      · cases ht; rfl
    obtain ⟨t, ht, -, hw⟩ := ha.next he
    rcases h4 : step E cfg o t with ⟨r, t'⟩
    obtain ⟨l1, l2, b1, b2, hf | ⟨-, b4, b5⟩⟩ := C38_determined ht.symm h1 h4
    · rw [quiet _ _ _ h1] at b1
      have : l1 = [] := by simpa using b1.symm
      obtain ⟨pre, e, e', u, u', b6, -⟩ := hf
      rw [this] at b6
      simp at b6
    · subst b4
      obtain ⟨h', rfl, a1, e1⟩ := hw _ _ h4
      rw [← b5] at a1
      obtain ⟨h2, rfl, a2, e2⟩ := ih (fun o ho => hl o (List.mem_cons_of_mem _ ho)) h3 a1 e1
      exact ⟨h2, rfl, a2, e2⟩

theorem choice_setters (g : Choice) : ∀ o ∈ g.calls, isSetter o = true ∨ o = .init := by
  intro o ho
  unfold Choice.calls Choice.settings at ho
  cases he : g.ead with
  | none => rw [he] at ho; simp at ho; rcases ho with rfl | rfl | rfl | rfl | rfl | rfl | rfl <;> first | exact .inr rfl | exact .inl rfl
  | some p =>
    rw [he] at ho; simp at ho
    rcases ho with rfl | rfl | rfl | rfl | rfl | rfl | rfl | rfl <;> first | exact .inr rfl | exact .inl rfl

theorem amid_handshake (h : Parties P V su k me II IR EI ER cfgI cfgR pI pR gI gR) {c0I c0R c1I c1R : Ctx} {hI hR : History}
    {n a b : Nat} {four : Bool} {m1 m2 m3 m4 : Bytes} (ne : ∃ e, II e) (ne' : ∃ e, IR e)
    (rI : Amid II EI cfgI c0I hI c1I) (rR : Amid IR ER cfgR c0R hR c1R)
    (oI : called hI = gI.calls ++ ([.compose1 n, .process2 m2, .compose3 n] ++ (if four then [.process4 m4] else []) ++
      [.exportOscore a b n n]))
    (oR : called hR = gR.calls ++ ([.process1 m1, .compose2 n, .process3 m3] ++ (if four then [.compose4 n] else []) ++
      [.exportOscore a b n n]))
    (d : Relay hI hR m1 m2 m3 m4) (hn : 65000 ≤ n) (ha : SecretLen su a) (hb : SecretLen su b) :
    ∃ secret salt,
      hI = done gI.calls ++ [(.compose1 n, .ok (.bytes m1)), (.process2 m2, .ok .unit), (.compose3 n, .ok (.bytes m3))] ++
        (if four then [(.process4 m4, .ok .unit)] else []) ++
        [(.exportOscore a b n n, .ok (.oscore ⟨secret, salt, oscoreIdOf gR.cid, oscoreIdOf gI.cid⟩))] ∧
      hR = done gR.calls ++ [(.process1 m1, .ok .unit), (.compose2 n, .ok (.bytes m2)), (.process3 m3, .ok .unit)] ++
        (if four then [(.compose4 n, .ok (.bytes m4))] else []) ++
        [(.exportOscore a b n n, .ok (.oscore ⟨secret, salt, oscoreIdOf gI.cid, oscoreIdOf gR.cid⟩))] := by
  have HI : Host P su k II EI cfgI := ⟨h.honestI, h.sized, h.suite, h.roomI, h.items.1, h.derive⟩
  have HR : Host P su k IR ER cfgR := ⟨h.honestR, h.sized, h.suite, h.roomR, h.items.2, h.derive⟩
  obtain ⟨eI, -⟩ := ne
  obtain ⟨eR, -⟩ := ne'
  obtain ⟨i0, hi0, ready, e1, e2, e3, -⟩ := configured (E := EI) h.choiceI ⟨c0I, eI, []⟩
  obtain ⟨r0, hr0, ready', f1, f2, f3, -⟩ := configured (E := ER) h.choiceR ⟨c0R, eR, []⟩
  obtain ⟨hI, rfl, rI, oI⟩ := Amid.settings (choice_setters gI) hi0 rI oI
  obtain ⟨hR, rfl, rR, oR⟩ := Amid.settings (choice_setters gR) hr0 rR oR
  obtain ⟨iI, hsI⟩ := h.credI.sent
  obtain ⟨iR, hsR⟩ := h.credR.sent
  have zII := credSizes hsI h.credI.room h.credI.hashAlg h.credI.size
  have zIR := credSizes hsI h.credI.room' h.credI.hashAlg h.credI.size
  have zRI := credSizes hsR h.credR.room h.credR.hashAlg h.credR.size
  have zRR := credSizes hsR h.credR.room' h.credR.hashAlg h.credR.size
  have cidI : CidOk cfgR i0.ctx.cid := by rw [e2]; exact h.cidI
  have cidR : CidOk cfgI r0.ctx.cid := by rw [f2]; exact h.cidR
  -- message 1
  obtain ⟨si, hs, he, hw⟩ := rI.next oI
  obtain ⟨m1', i1, q, x, ts1, g1, a1, -⟩ := message1Compose_wp HI ready (by rw [e1]; exact h.methodI) cidI
    (by omega : 60000 ≤ n) ⟨hs, he⟩
  obtain ⟨hI, rfl, rI, oI⟩ := hw _ _ (mapOut_ok.2 ⟨_, q, rfl⟩)
  obtain rfl := d.message1 n m1' (by simp)
  clear hs he hw q
  obtain ⟨sr, hs, he, hw⟩ := rR.next oR
  obtain ⟨_, r1, q, b1, -⟩ := message1Process_wp HR ready' (by rw [f1]; exact h.methodR) h.method
    (g1.recv ready (by rw [e3.1]; exact h.suites) cidI) ⟨hs, he⟩
  obtain ⟨hR, rfl, rR, oR⟩ := hw _ _ (mapOut_ok.2 ⟨(), q, rfl⟩)
  clear hs he hw q
  -- message 2
  obtain ⟨sr, hs, he, hw⟩ := rR.next oR
  obtain ⟨m2', r2, q, y, ts2, sig2, p2, g2, b2, b3, b4, -⟩ := message2Compose_wp HR h.lawful h.method h.ownsR zRR
    h.credR.size cidR h.keystream g1.key b1 hn ⟨hs, he⟩
  obtain ⟨hR, rfl, rR, oR⟩ := hw _ _ (mapOut_ok.2 ⟨_, q, rfl⟩)
  obtain rfl := d.message2 n m2' (by simp)
  clear hs he hw q
  obtain ⟨si, hs, he, hw⟩ := rI.next oI
  obtain ⟨_, i2, q, a2, a3, -⟩ := message2Process_wp HI h.method h.ownsR.pk
    (fun t => ⟨(h.ownsR.agree t).1, (h.ownsR.agree t).2.1⟩) h.lawful (h.knowsR.as hsR)
    zRI h.credR.size cidR g1.key a1 rfl (g2.recv hsR h.credR.room) ⟨hs, he⟩
  obtain ⟨hI, rfl, rI, oI⟩ := hw _ _ (mapOut_ok.2 ⟨(), q, rfl⟩)
  clear hs he hw q
  -- message 3
  obtain ⟨si, hs, he, hw⟩ := rI.next oI
  obtain ⟨m3', i3, q, ts3, sig3, p3, g3, a4, a5, -⟩ := message3Compose_wp HI h.method h.ownsI zII h.credI.size cidR cidI
    (prk3e2m_length h.sized _ _ _ _) g2.key a2 a3 hn ⟨hs, he⟩
  obtain ⟨hI, rfl, rI, oI⟩ := hw _ _ (mapOut_ok.2 ⟨_, q, rfl⟩)
  obtain rfl := d.message3 n m3' (by simp)
  clear hs he hw q
  obtain ⟨sr, hs, he, hw⟩ := rR.next oR
  obtain ⟨_, r3, q, b5, b6, -⟩ := message3Process_wp HR h.method h.ownsI.pk
    (fun t => ⟨(h.ownsI.agree t).1, (h.ownsI.agree t).2.1⟩) h.lawful (h.knowsI.as hsI)
    zIR h.credI.size cidR (prk3e2m_length h.sized _ _ _ _) b2 b3 b4 g2.key rfl rfl (g3.recv hsI h.credI.room') ⟨hs, he⟩
  obtain ⟨hR, rfl, rR, oR⟩ := hw _ _ (mapOut_ok.2 ⟨(), q, rfl⟩)
  clear hs he hw q
  rw [f2] at a4
  rw [e2] at b5
  have tl := h.sized.hash (encBstr (P.hash (encBstr (keys2 P su me (P.pub y) (P.hash m1') (P.dh x (P.pub y))
    (P.dh pR.sk (P.pub x))).th2 ++ p2 ++ cred pR.cred)) ++ p3 ++ cred pI.cred)
  generalize P.hash (encBstr (P.hash (encBstr (keys2 P su me (P.pub y) (P.hash m1') (P.dh x (P.pub y))
    (P.dh pR.sk (P.pub x))).th2 ++ p2 ++ cred pR.cred)) ++ p3 ++ cred pI.cred) = th4 at a4 b5 tl
  obtain ⟨prk4, a4, b5, pl⟩ : ∃ prk4, AfterM3 su me prk4 th4 gR.cid i0.ctx i3.ctx ∧ AfterM3 su me prk4 th4 gI.cid r0.ctx r3.ctx ∧
      prk4.length = su.hash := ⟨_, a4, b5, nextPrk_length h.sized (prk3e2m_length h.sized _ _ _ _)⟩
  have ha' := secretLen_oh ha
  have hb' := secretLen_oh hb
  obtain ⟨sec, hsec⟩ : ∃ sec, sec = exported P su (P.expand prk4 (info 7 th4 su.hash) su.hash) 0 a := ⟨_, rfl⟩
  obtain ⟨slt, hslt⟩ : ∃ slt, slt = exported P su (P.expand prk4 (info 7 th4 su.hash) su.hash) 1 b := ⟨_, rfl⟩
  have xI : ∀ s : St σI, II s.env → AfterM3 su me prk4 th4 gR.cid i0.ctx s.ctx →
      (s.ctx.status = .completed ∨ s.ctx.status = .persisted) → ∃ s', step EI cfgI (.exportOscore a b n n) s = (.ok (.oscore
        ⟨sec, slt, oscoreIdOf gR.cid, oscoreIdOf gI.cid⟩), s') := by
    intro s hj hs hst
    obtain ⟨o, s', h1, -, h2⟩ := exportOscore_wp (cfg' := cfgR) HI hs.live hs.keys.1 hs.keys.2 (by rw [hs.th]; exact tl)
      (by rw [hs.prk]; exact pl) hst hs.oscore (by rw [hs.cid, e2]; exact h.cidI) (by rw [hs.peerCid]; exact h.cidR) ha' hb'
      (by omega : 1003 ≤ n) ⟨rfl, hj⟩
    rw [hs.prk, hs.th, hs.peerCid, hs.cid, e2, ← hsec, ← hslt] at h2
    subst h2
    exact ⟨s', mapOut_ok.2 ⟨_, h1, rfl⟩⟩
  have xR : ∀ s : St σR, IR s.env → AfterM3 su me prk4 th4 gI.cid r0.ctx s.ctx →
      (s.ctx.status = .completed ∨ s.ctx.status = .persisted) → ∃ s', step ER cfgR (.exportOscore a b n n) s = (.ok (.oscore
        ⟨sec, slt, oscoreIdOf gI.cid, oscoreIdOf gR.cid⟩), s') := by
    intro s hj hs hst
    obtain ⟨o, s', h1, -, h2⟩ := exportOscore_wp (cfg' := cfgI) HR hs.live hs.keys.1 hs.keys.2 (by rw [hs.th]; exact tl)
      (by rw [hs.prk]; exact pl) hst hs.oscore (by rw [hs.cid, f2]; exact h.cidR) (by rw [hs.peerCid]; exact h.cidI) ha' hb'
      (by omega : 1003 ≤ n) ⟨rfl, hj⟩
    rw [hs.prk, hs.th, hs.peerCid, hs.cid, f2, ← hsec, ← hslt] at h2
    subst h2
    exact ⟨s', mapOut_ok.2 ⟨_, h1, rfl⟩⟩
  have over : ∀ {h : History}, called h = [] → h = [] := fun h => List.map_eq_nil_iff.1 h
  refine ⟨sec, slt, ?_⟩
  cases four with
  | false =>
    obtain ⟨si, hs, he, hw⟩ := rI.next oI
    obtain ⟨i4, t1⟩ := xI si he (by rw [hs]; exact a4) (by rw [hs]; exact Or.inl a5)
    obtain ⟨hI, rfl, -, oI⟩ := hw _ _ t1
    obtain ⟨sr, hs', he', hw'⟩ := rR.next oR
    obtain ⟨r4, t2⟩ := xR sr he' (by rw [hs']; exact b5) (by rw [hs']; exact Or.inl b6)
    obtain ⟨hR, rfl, -, oR⟩ := hw' _ _ t2
    rw [over oI, over oR]
    simp
  | true =>
    obtain ⟨sr, hs, he, hw⟩ := rR.next oR
    obtain ⟨m4', r4, q7, ts4, g4, b7, -⟩ := message4Compose_wp HR b5 tl pl b6 hn ⟨hs, he⟩
    obtain ⟨hR, rfl, rR, oR⟩ := hw _ _ (mapOut_ok.2 ⟨_, q7, rfl⟩)
    obtain rfl := d.message4 n m4' (by simp)
    clear hs he hw
    obtain ⟨si, hs, he, hw⟩ := rI.next oI
    obtain ⟨_, i4, q8, a7, -⟩ := message4Process_wp HI a4 tl pl a5 g4 ⟨hs, he⟩
    obtain ⟨hI, rfl, rI, oI⟩ := hw _ _ (mapOut_ok.2 ⟨(), q8, rfl⟩)
    clear hs he hw
    obtain ⟨si, hs, he, hw⟩ := rI.next oI
    obtain ⟨i5, t1⟩ := xI si he (by rw [hs]; exact a7.toAfterM3) (by rw [hs]; exact Or.inr a7.done)
    obtain ⟨hI, rfl, -, oI⟩ := hw _ _ t1
    obtain ⟨sr, hs', he', hw'⟩ := rR.next oR
    obtain ⟨r5, t2⟩ := xR sr he' (by rw [hs']; exact b7.toAfterM3) (by rw [hs']; exact Or.inr b7.done)
    obtain ⟨hR, rfl, -, oR⟩ := hw' _ _ t2
    rw [over oI, over oR]
    simp

/-- **C92** (handshakes that run at the same time complete). Two devices, each with any number of contexts whose applications
share one state. On one context of each device the calls of a handshake are made, and each message is delivered as it was
composed. Before, between and after these calls there are any calls on the other contexts, with any arguments, messages and
results; no call brings the application out of order. Then every call of the handshake succeeds, and both sides export the
same OSCORE master secret and salt, with mirrored identifiers. -/
theorem C92_completes {ι κ : Type} [DecidableEq ι] [DecidableEq κ] {EI : ι → Env σI} {ER : κ → Env σR} {i : ι} {j : κ}
    (h : Parties P V su k me II IR (EI i) (ER j) cfgI cfgR pI pR gI gR) (kI : Steady EI cfgI II) (kR : Steady ER cfgR IR)
    {wI wI' : World ι σI} {wR wR' : World κ σR} {hI : List (ι × Op × Res Out)} {hR : List (κ × Op × Res Out)}
    (rI : Program EI cfgI wI hI wI') (rR : Program ER cfgR wR hR wR') (jI : II wI.env) (jR : IR wR.env)
    {n a b : Nat} {four : Bool} {m1 m2 m3 m4 : Bytes}
    (oI : called (callsOn i hI) = gI.calls ++ ([.compose1 n, .process2 m2, .compose3 n] ++
      (if four then [.process4 m4] else []) ++ [.exportOscore a b n n]))
    (oR : called (callsOn j hR) = gR.calls ++ ([.process1 m1, .compose2 n, .process3 m3] ++
      (if four then [.compose4 n] else []) ++ [.exportOscore a b n n]))
    (d : Relay (callsOn i hI) (callsOn j hR) m1 m2 m3 m4) (hn : 65000 ≤ n) (ha : SecretLen su a) (hb : SecretLen su b) :
    ∃ secret salt,
      callsOn i hI = done gI.calls ++
        [(.compose1 n, .ok (.bytes m1)), (.process2 m2, .ok .unit), (.compose3 n, .ok (.bytes m3))] ++
        (if four then [(.process4 m4, .ok .unit)] else []) ++
        [(.exportOscore a b n n, .ok (.oscore ⟨secret, salt, oscoreIdOf gR.cid, oscoreIdOf gI.cid⟩))] ∧
      callsOn j hR = done gR.calls ++
        [(.process1 m1, .ok .unit), (.compose2 n, .ok (.bytes m2)), (.process3 m3, .ok .unit)] ++
        (if four then [(.compose4 n, .ok (.bytes m4))] else []) ++
        [(.exportOscore a b n n, .ok (.oscore ⟨secret, salt, oscoreIdOf gI.cid, oscoreIdOf gR.cid⟩))] :=
  amid_handshake h ⟨_, jI⟩ ⟨_, jR⟩ (amid_of kI rI jI i) (amid_of kR rR jR j) oI oR d hn ha hb

end

section
open Psa
variable {A : Algs} {q : Params} {k : Bounds} {me : Nat} {τ τI τR : Type} {JI : τI → Prop} {JR : τR → Prop}
  {cfg cfgI cfgR : Config} {idI idR : Nat} {ownI ownR : Key} {pI pR : Identity} {gI gR : Choice}

/-- contexts with shipped suites that share one key store keep it in order -/
theorem suites_steady {ι : Type} {qs : ι → Params} {Xs : ι → Psa.App τ} {J : τ → Prop} {id : Nat} {own : Key}
    (hX : ∀ i, Apart (Xs i)) (hJ : ∀ i, Retains (Xs i) J) (hm : ∀ i, NeverOut cfg (Xs i)) (hid : id < 2 ^ 32) :
    Steady (fun i => suiteEnv A (qs i) (Xs i)) cfg (Psa.Fine A q id own J) := by
  rintro i o s r s' ⟨h1, h2⟩ h hd
  obtain ⟨l, -, h3⟩ := step_ran h
  exact ⟨C91_in_order hid (C91_call_partial (hX i) h hd h1.calm (Or.inr (neverOut (hm i) h))) h1, ran_retains (hJ i) h3 h2⟩

/-- **C92**, shipped suites. Any number of contexts of a device, each with its own shipped suite and application, share one key
store that is in order at the start. Whatever is called on the other contexts meanwhile, a handshake of any of them with a
context of another such device completes. -/
theorem C92_suites {ι κ : Type} [DecidableEq ι] [DecidableEq κ] {qI : ι → Params} {qR : κ → Params} {XI : ι → Psa.App τI}
    {XR : κ → Psa.App τR} {i : ι} {j : κ} (hi : qI i = q) (hj : qR j = q)
    (h : SuiteParties A q k me (XI i) (XR j) JI JR cfgI cfgR idI idR ownI ownR pI pR gI gR)
    (aI : ∀ i, Apart (XI i)) (aR : ∀ j, Apart (XR j)) (kI : ∀ i, Retains (XI i) JI) (kR : ∀ j, Retains (XR j) JR)
    (nI : ∀ i, NeverOut cfgI (XI i)) (nR : ∀ j, NeverOut cfgR (XR j))
    {wI wI' : Spec.World ι (Psa.World τI)} {wR wR' : Spec.World κ (Psa.World τR)}
    {hI : List (ι × Op × Res Out)} {hR : List (κ × Op × Res Out)}
    (rI : Program (fun i => suiteEnv A (qI i) (XI i)) cfgI wI hI wI') (rR : Program (fun j => suiteEnv A (qR j) (XR j)) cfgR wR hR wR')
    (oI : InOrder A q idI ownI wI.env.1) (jI : JI wI.env.2) (oR : InOrder A q idR ownR wR.env.1) (jR : JR wR.env.2)
    {n a b : Nat} {four : Bool} {m1 m2 m3 m4 : Bytes}
    (cI : called (callsOn i hI) = gI.calls ++ ([.compose1 n, .process2 m2, .compose3 n] ++
      (if four then [.process4 m4] else []) ++ [.exportOscore a b n n]))
    (cR : called (callsOn j hR) = gR.calls ++ ([.process1 m1, .compose2 n, .process3 m3] ++
      (if four then [.compose4 n] else []) ++ [.exportOscore a b n n]))
    (d : Relay (callsOn i hI) (callsOn j hR) m1 m2 m3 m4) (hn : 65000 ≤ n) (ha : SecretLen q.table a) (hb : SecretLen q.table b) :
    ∃ secret salt,
      callsOn i hI = done gI.calls ++
        [(.compose1 n, .ok (.bytes m1)), (.process2 m2, .ok .unit), (.compose3 n, .ok (.bytes m3))] ++
        (if four then [(.process4 m4, .ok .unit)] else []) ++
        [(.exportOscore a b n n, .ok (.oscore ⟨secret, salt, oscoreIdOf gR.cid, oscoreIdOf gI.cid⟩))] ∧
      callsOn j hR = done gR.calls ++
        [(.process1 m1, .ok .unit), (.compose2 n, .ok (.bytes m2)), (.process3 m3, .ok .unit)] ++
        (if four then [(.compose4 n, .ok (.bytes m4))] else []) ++
        [(.exportOscore a b n n, .ok (.oscore ⟨secret, salt, oscoreIdOf gI.cid, oscoreIdOf gR.cid⟩))] := by
  have p : Parties (primsOf A q) (validSig A q) q.table k me (Psa.Fine A q idI ownI JI) (Psa.Fine A q idR ownR JR)
      ((fun i => suiteEnv A (qI i) (XI i)) i) ((fun j => suiteEnv A (qR j) (XR j)) j) cfgI cfgR pI pR gI gR := by
    simp only [hi, hj]
    exact suite_parties h
  exact C92_completes (i := i) (j := j) p (suites_steady (Xs := XI) aI kI nI h.kidI.2) (suites_steady (Xs := XR) aR kR nR h.kidR.2) rI rR ⟨oI, jI⟩ ⟨oR, jR⟩ cI cR d hn
    ha hb

end

/-! ## A concrete case -/

namespace Psa.Toy

/-- does the history contain only these messages? -/
def relayB (h : History) (m1 m2 m3 m4 : Bytes) : Bool :=
  h.all fun p => match p with
    | (.compose1 _, .ok (.bytes m)) => m == m1
    | (.compose2 _, .ok (.bytes m)) => m == m2
    | (.compose3 _, .ok (.bytes m)) => m == m3
    | (.compose4 _, .ok (.bytes m)) => m == m4
    | _ => true

theorem relay_of {hI hR : History} {m1 m2 m3 m4 : Bytes} (h : relayB hI m1 m2 m3 m4 = true) (h' : relayB hR m1 m2 m3 m4 = true) :
    Relay hI hR m1 m2 m3 m4 where
  message1 _ _ x := by simpa using List.all_eq_true.1 h _ x
  message2 _ _ x := by simpa using List.all_eq_true.1 h' _ x
  message3 _ _ x := by simpa using List.all_eq_true.1 h _ x
  message4 _ _ x := by simpa using List.all_eq_true.1 h' _ x

/-- the Initiators of a device: two contexts, one key store -/
def manyI (q : Params) (_ : Bool) : Env (World Unit) := suiteEnv algs q (app credI credR (publicOf q 0x43 false))
/-- the Responders -/
def manyR (q : Params) (_ : Bool) : Env (World Unit) := suiteEnv algs q (app credR credI (publicOf q 0x21 false))

/-- what a program does on a device -/
def onI (q : Params) (l : List (Bool × Op)) : List (Bool × Op × Res Out) × Spec.World Bool (World Unit) :=
  Verif.Toy.program (manyI q) Verif.Toy.cfg l ⟨fun _ => Ctx.fresh, (storeOf q 0x21 false, ()), fun _ => []⟩
def onR (q : Params) (l : List (Bool × Op)) : List (Bool × Op × Res Out) × Spec.World Bool (World Unit) :=
  Verif.Toy.program (manyR q) Verif.Toy.cfg l ⟨fun _ => Ctx.fresh, (storeOf q 0x43 false, ()), fun _ => []⟩

/-- the last message composed on a context -/
def lastOn (b : Bool) (h : List (Bool × Op × Res Out)) : Bytes :=
  ((callsOn b h).filterMap fun p => match p.2 with | .ok (.bytes m) => some m | _ => none).getLastD []

/-- the same call on both contexts -/
def both (f : Bool → Op) : List (Bool × Op) := [(true, f true), (false, f false)]
/-- in the other order -/
def htob (f : Bool → Op) : List (Bool × Op) := [(false, f false), (true, f true)]

def setups (q : Params) (cid : Cid) : List (Bool × Op) := (choice q 3 cid).calls.flatMap fun o => both fun _ => o

/-- two handshakes at the same time, step by step -/
def steps1I (q : Params) : List (Bool × Op) := setups q (.int 5) ++ both fun _ => .compose1 65000
def msg1 (q : Params) (b : Bool) : Bytes := lastOn b (onI q (steps1I q)).1
def steps2R (q : Params) : List (Bool × Op) :=
  setups q (.bstr [0x18, 9]) ++ (htob fun b => .process1 (msg1 q b)) ++ both fun _ => .compose2 65000
def msg2 (q : Params) (b : Bool) : Bytes := lastOn b (onR q (steps2R q)).1
def steps3I (q : Params) : List (Bool × Op) := steps1I q ++ (htob fun b => .process2 (msg2 q b)) ++ both fun _ => .compose3 65000
def msg3 (q : Params) (b : Bool) : Bytes := lastOn b (onI q (steps3I q)).1
def steps4R (q : Params) : List (Bool × Op) :=
  steps2R q ++ (both fun b => .process3 (msg3 q b)) ++ htob fun _ => .compose4 65000
def msg4 (q : Params) (b : Bool) : Bytes := lastOn b (onR q (steps4R q)).1
def steps5I (q : Params) : List (Bool × Op) :=
  steps3I q ++ (both fun b => .process4 (msg4 q b)) ++ both fun _ => .exportOscore 16 8 65000 65000
def steps5R (q : Params) : List (Bool × Op) := steps4R q ++ both fun _ => .exportOscore 16 8 65000 65000

/-- nothing is undefined, and the messages are relayed -/
theorem concurrent_check : (shipped.all fun q =>
    ((onI q (steps5I q)).1.all fun p => !Verif.Toy.isUb p.2.2) && ((onR q (steps5R q)).1.all fun p => !Verif.Toy.isUb p.2.2) &&
    [true, false].all fun b =>
      relayB (callsOn b (onI q (steps5I q)).1) (msg1 q b) (msg2 q b) (msg3 q b) (msg4 q b) &&
      relayB (callsOn b (onR q (steps5R q)).1) (msg1 q b) (msg2 q b) (msg3 q b) (msg4 q b)) = true := by decide +kernel

theorem concurrent_calls : (shipped.all fun q => [true, false].all fun b =>
    decide (called (callsOn b (onI q (steps5I q)).1) = (choice q 3 (.int 5)).calls ++ ([.compose1 65000, .process2 (msg2 q b),
      .compose3 65000] ++ [.process4 (msg4 q b)] ++ [.exportOscore 16 8 65000 65000])) &&
    decide (called (callsOn b (onR q (steps5R q)).1) = (choice q 3 (.bstr [0x18, 9])).calls ++ ([.process1 (msg1 q b),
      .compose2 65000, .process3 (msg3 q b)] ++ [.compose4 65000] ++ [.exportOscore 16 8 65000 65000]))) = true := by decide +kernel

end Psa.Toy

attribute [local irreducible] Psa.Toy.onI Psa.Toy.onR

/-- Non-vacuity of `C92_completes` and `C92_suites`, for each shipped suite: two handshakes at the same time. -/
example {q : Psa.Params} (hq : q ∈ shipped) (b : Bool) :
    ∃ secret salt,
      callsOn b (Psa.Toy.onI q (Psa.Toy.steps5I q)).1 = done (Psa.Toy.choice q 3 (.int 5)).calls ++
        [(.compose1 65000, .ok (.bytes (Psa.Toy.msg1 q b))), (.process2 (Psa.Toy.msg2 q b), .ok .unit),
          (.compose3 65000, .ok (.bytes (Psa.Toy.msg3 q b)))] ++ [(.process4 (Psa.Toy.msg4 q b), .ok .unit)] ++
        [(.exportOscore 16 8 65000 65000, .ok (.oscore ⟨secret, salt, oscoreIdOf (.bstr [0x18, 9]), oscoreIdOf (.int 5)⟩))] ∧
      callsOn b (Psa.Toy.onR q (Psa.Toy.steps5R q)).1 = done (Psa.Toy.choice q 3 (.bstr [0x18, 9])).calls ++
        [(.process1 (Psa.Toy.msg1 q b), .ok .unit), (.compose2 65000, .ok (.bytes (Psa.Toy.msg2 q b))),
          (.process3 (Psa.Toy.msg3 q b), .ok .unit)] ++ [(.compose4 65000, .ok (.bytes (Psa.Toy.msg4 q b)))] ++
        [(.exportOscore 16 8 65000 65000, .ok (.oscore ⟨secret, salt, oscoreIdOf (.int 5), oscoreIdOf (.bstr [0x18, 9])⟩))] := by
  have c := List.all_eq_true.1 Psa.Toy.concurrent_check q hq
  simp only [Bool.and_eq_true] at c
  obtain ⟨⟨uI, uR⟩, c⟩ := c
  have c := List.all_eq_true.1 c b (by cases b <;> simp)
  have e := List.all_eq_true.1 (List.all_eq_true.1 Psa.Toy.concurrent_calls q hq) b (by cases b <;> simp)
  simp only [Bool.and_eq_true, decide_eq_true_eq] at c e
  have rI : Program (Psa.Toy.manyI q) Verif.Toy.cfg ⟨fun _ => Ctx.fresh, (Psa.Toy.storeOf q 0x21 false, ()), fun _ => []⟩
      (Psa.Toy.onI q (Psa.Toy.steps5I q)).1 (Psa.Toy.onI q (Psa.Toy.steps5I q)).2 := by
    unfold Psa.Toy.onI at uI ⊢
    exact Verif.Toy.program_run _ _ uI
  have rR : Program (Psa.Toy.manyR q) Verif.Toy.cfg ⟨fun _ => Ctx.fresh, (Psa.Toy.storeOf q 0x43 false, ()), fun _ => []⟩
      (Psa.Toy.onR q (Psa.Toy.steps5R q)).1 (Psa.Toy.onR q (Psa.Toy.steps5R q)).2 := by
    unfold Psa.Toy.onR at uR ⊢
    exact Verif.Toy.program_run _ _ uR
  exact C92_suites (four := true) (qI := fun _ : Bool => q) (qR := fun _ : Bool => q) (i := b) (j := b) rfl rfl
    (Psa.Toy.suiteParties hq (by decide : 3 < 4)) (fun _ => Psa.Toy.apart _ _ _) (fun _ => Psa.Toy.apart _ _ _)
    (fun _ => Psa.Toy.retains _ _ _) (fun _ => Psa.Toy.retains _ _ _) (fun _ => Or.inr fun _ _ => rfl)
    (fun _ => Or.inr fun _ _ => rfl) rI rR (Psa.Toy.inOrder hq _ _) trivial (Psa.Toy.inOrder hq _ _) trivial e.1 e.2
    (Psa.Toy.relay_of c.1 c.2) (Nat.le_refl 65000) (Standard.secretLen hq).1 (Standard.secretLen hq).2

end Verif
