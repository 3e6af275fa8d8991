import Verif.Emits
import Verif.ToyRun

/-!
# C33: domain separation of key derivation
-/

namespace Verif

open M Spec

variable {σ α : Type} {E : Env σ} {cfg : Config}

/-! ## What each call performs -/

theorem within_of_ex {ks : List Kind} {s s' : St σ} (h : ∃ es, s'.log = s.log ++ es ∧ Within ks es) :
    Within ks (during s s') := by
  obtain ⟨es, h1, h2⟩ := h
  have h3 : during s s' = es := by simp [during, h1]
  rwa [h3]

theorem mapOut_within {m : M σ α} {f : α → Out} {ks : List Kind} {s s' : St σ} {r : Res Out}
    (hm : (m s).1.Defined → ∃ es, (m s).2.log = s.log ++ es ∧ Within ks es) (h : M.mapOut f m s = (r, s'))
    (hd : r.Defined) : Within ks (during s s') := by
  obtain ⟨r0, h0, hr⟩ := mapOut_cases h
  rw [h0] at hm
  refine within_of_ex (hm ?_)
  rcases hr with ⟨a, rfl, _⟩ | ⟨e, rfl, _⟩ | ⟨u, rfl, rfl⟩
  · simp
  · simp
  · simp at hd

theorem during_self (s : St σ) : during s s = [] := by simp [during]

theorem setter_within {o : Op} (hs : isSetter o = true) {ks : List Kind} {s s' : St σ} {r : Res Out}
    (h : step E cfg o s = (r, s')) : Within ks (during s s') := by
  have h0 : s'.log = s.log := by
    rcases C30_setters (E := E) (cfg := cfg) hs s with ⟨_, _, c', h1, h2⟩ | ⟨_, e, _, h1⟩ <;> rw [h] at h1 <;>
      simp only [Prod.mk.injEq] at h1 <;> rw [h1.2]
  have : during s s' = [] := by simp [during, h0]
  rw [this]; exact within_nil _

/-- **C33** (what is derived). Every API call, however it ends, performs at most the operations listed in `performs`, in
that order: in particular each derivation uses the label of RFC 9528 for its purpose. -/
theorem C33_performs {o : Op} {s s' : St σ} {r : Res Out} (h : step E cfg o s = (r, s')) (hd : r.Defined) :
    Within (performs o) (during s s') := by
  cases o
  case compose1 n => exact mapOut_within (Emits.message1Compose E cfg n s) h hd
  case process1 b => exact mapOut_within (Emits.message1Process E cfg b s) h hd
  case compose2 n => exact mapOut_within (Emits.message2Compose E cfg n s) h hd
  case process2 b => exact mapOut_within (Emits.message2Process E cfg b s) h hd
  case compose3 n => exact mapOut_within (Emits.message3Compose E cfg n s) h hd
  case process3 b => exact mapOut_within (Emits.message3Process E cfg b s) h hd
  case compose4 n => exact mapOut_within (Emits.message4Compose E cfg n s) h hd
  case process4 b => exact mapOut_within (Emits.message4Process E cfg b s) h hd
  case exportSecret l n => exact mapOut_within (fun hd => (Emits.exportSecret E cfg l n s rfl hd).2) h hd
  case keyUpdate b => exact mapOut_within (fun hd => (Emits.keyUpdate E cfg b s rfl hd).2) h hd
  case exportOscore a b c d => exact mapOut_within (fun hd => (Emits.exportOscore E cfg a b c d s rfl hd).2) h hd
  case nullArg =>
    simp only [step, M.fail, Prod.mk.injEq] at h
    rw [← h.2, during_self]; exact .nil
  case init =>
    refine mapOut_within (fun _ => ⟨[], ?_, .nil⟩) h hd
    simp [contextInit, M.modCtx]
  case deinit =>
    refine mapOut_within (fun hd => ?_) h hd
    refine ⟨[], ?_, .nil⟩
    unfold contextDeinit
    simp only [Bind.bind, M.bind, M.getCtx, M.require, M.modCtx, List.append_nil]
    split <;> rename_i h1 <;> split at h1 <;> simp_all <;> rw [← h1.2]
  case getCode =>
    refine mapOut_within (fun hd => (Emits.mono (L := []) ?_ (List.nil_sublist _) s rfl hd).2) h hd
    unfold errorGetCode
    quiet1
  case getSuites a b =>
    refine mapOut_within (fun hd => (Emits.mono (L := []) ?_ (List.nil_sublist _) s rfl hd).2) h hd
    unfold errorGetSuites
    quiet1
  all_goals exact setter_within rfl h

/-! ## The info string -/

/-- **C33** (info encoding). The info string determines label, context and length. -/
theorem C33_info_injective {l l' n n' : Nat} {c c' : Bytes} (hl : l < 2 ^ 64) (hl' : l' < 2 ^ 64) (hn : n < 2 ^ 64)
    (hn' : n' < 2 ^ 64) (hc : c.length < 2 ^ 64) (hc' : c'.length < 2 ^ 64) (h : info l c n = info l' c' n') :
    l = l' ∧ c = c' ∧ n = n' := by
  unfold info at h
  rw [List.append_assoc, List.append_assoc] at h
  have hi : ∀ {x : Nat}, x < 2 ^ 64 → IntItem (x : Int) (encInt x) := fun hx => encInt_item (by unfold Int65Range; omega)
  obtain ⟨h1, _, h⟩ := intItem_unamb (hi hl) (hi hl') h
  obtain ⟨h2, _, h⟩ := bstrItem_unamb (encBstr_item hc) (encBstr_item hc') h
  have h' : encInt (n : Int) ++ [] = encInt (n' : Int) ++ [] := by simpa using h
  obtain ⟨h3, _, _⟩ := intItem_unamb (hi hn) (hi hn') h'
  exact ⟨by omega, h2, by omega⟩

/-- different labels, different info strings, whatever the contexts -/
theorem info_label {l l' n n' : Nat} {c c' : Bytes} (hl : l < 2 ^ 64) (hl' : l' < 2 ^ 64)
    (h : info l c n = info l' c' n') : l = l' := by
  unfold info at h
  rw [List.append_assoc, List.append_assoc] at h
  have hi : ∀ {x : Nat}, x < 2 ^ 64 → IntItem (x : Int) (encInt x) := fun hx => encInt_item (by unfold Int65Range; omega)
  obtain ⟨h1, _, h⟩ := intItem_unamb (hi hl) (hi hl') h
  omega

/-- the labels in a list of kinds -/
def labels (ks : List Kind) : List Nat :=
  ks.filterMap fun
    | .derive l => some l
    | _ => none

theorem infos_label {ks : List Kind} {L : List Ev} (h : Within ks L) {i : Bytes} (hi : i ∈ infos L) :
    ∃ l c m, l ∈ labels ks ∧ l ≤ 65535 ∧ m < 2 ^ 32 ∧ i = info l c m := by
  induction h with
  | nil => simp [infos] at hi
  | skip hv _ ih =>
    refine ih ?_
    rename_i v L _
    cases v <;> simp_all [infos, kindless]
  | miss _ ih =>
    obtain ⟨l, c, m, h1, h2⟩ := ih hi
    rename_i k ks L _
    exact ⟨l, c, m, by simp only [labels, List.filterMap_cons]; split <;> simp_all [labels], h2⟩
  | hit hv _ ih =>
    rename_i k ks v L _
    have key : ∀ h : i ∈ infos L, ∃ l c m, l ∈ labels (k :: ks) ∧ l ≤ 65535 ∧ m < 2 ^ 32 ∧ i = info l c m := by
      intro h
      obtain ⟨l, c, m, h1, h2⟩ := ih h
      exact ⟨l, c, m, by simp only [labels, List.filterMap_cons]; split <;> simp_all [labels], h2⟩
    cases hv <;> simp only [infos, List.filterMap_cons] at hi
    case derive h1 h2 =>
      rcases List.mem_cons.1 hi with rfl | hi
      · exact ⟨_, _, _, by simp [labels], h1, h2, rfl⟩
      · exact key hi
    all_goals exact key hi

theorem within_nodup {ks : List Kind} {L : List Ev} (h : Within ks L) (hn : (labels ks).Nodup) : (infos L).Nodup := by
  induction h with
  | nil => simp [infos]
  | skip hv _ ih =>
    rename_i v L _
    have := ih hn
    cases v <;> simp_all [infos, kindless]
  | miss _ ih =>
    refine ih ?_
    simp only [labels, List.filterMap_cons] at hn
    split at hn
    · exact hn
    · exact (List.nodup_cons.1 hn).2
  | hit hv hw ih =>
    cases hv <;> simp only [infos, List.filterMap_cons] <;> simp only [labels, List.filterMap_cons] at hn
    case derive h1 h2 =>
      rw [List.nodup_cons] at hn ⊢
      refine ⟨fun hi => ?_, ih hn.2⟩
      obtain ⟨l, c, m, h3, h4, _, h5⟩ := infos_label hw hi
      exact hn.1 (info_label (by omega) (by omega) h5 ▸ h3)
    all_goals exact ih hn

/-! ## Rounds -/

/-- how far the session is; a failed one is at the end -/
def level : Status → Nat
  | .start => 0
  | .waitM2 | .receivedM1 => 1
  | .verifiedM2 | .waitM3 => 2
  | .completed => 3
  | .persisted => 4
  | _ => 5

theorem level_message {o : Op} {k : Call} (hk : callOf o = some k) {s s' : St σ} {r : Res Out}
    (h : step E cfg o s = (r, s')) (hd : r.Defined) :
    s' = s ∨ (level s.ctx.status + 1 = round k ∧ round k ≤ level s'.ctx.status) := by
  have hl : ∀ (hok : okOf k s.ctx = true), level s.ctx.status + 1 = round k := by
    intro hok
    cases k <;> simp only [okOf, okStart, okReceivedM1, okWaitM2, okVerifiedM2, okWaitM3, okCompleted, Bool.and_eq_true,
      beq_iff_eq] at hok <;> (obtain ⟨⟨h, _⟩, _⟩ := hok) <;> rw [h] <;> rfl
  rcases step_message hk h hd with ⟨_, _, h1⟩ | ⟨_, _, _, h1⟩ | ⟨_, hok, _, _, c, _, h1⟩ | ⟨_, hok, _, _, h1⟩
  · exact Or.inl h1
  · exact Or.inl h1
  · have h2 : s'.ctx.status = .aborted := (congrArg Ctx.status h1 :)
    refine Or.inr ⟨hl hok, ?_⟩
    rw [h2]; cases k <;> simp [round, level]
  · have h2 : s'.ctx.status = nextOf k := (congrArg Ctx.status h1 :)
    refine Or.inr ⟨hl hok, ?_⟩
    rw [h2]; cases k <;> simp [round, level, nextOf]

theorem level_step {o : Op} (hn : restarts o = false) {s s' : St σ} {r : Res Out}
    (h : step E cfg o s = (r, s')) (hd : r.Defined) : level s.ctx.status ≤ level s'.ctx.status := by
  cases hk : callOf o with
  | some k =>
    rcases level_message hk h hd with rfl | ⟨h1, h2⟩
    · exact Nat.le_refl _
    · omega
  | none =>
    obtain ⟨_, _, h3⟩ := step_other hk hn h hd
    rcases h3 with ⟨h3, _⟩ | ⟨_, _, _, _, _, h3, _⟩ | ⟨_, _, _, _, _, _, _, _, h3, _⟩ | ⟨_, _, h3, _⟩ <;> rw [h3]
    all_goals first | exact Nat.le_refl _ | (cases s.ctx.status <;> simp [level])

theorem level_run {s s' : St σ} {h : History} (hr : Run E cfg s h s') (hn : ∀ p ∈ h, restarts p.1 = false) :
    level s.ctx.status ≤ level s'.ctx.status := by
  induction hr with
  | nil => exact Nat.le_refl _
  | cons h1 hd _ ih =>
    exact Nat.le_trans (level_step (hn _ (List.mem_cons_self ..)) h1 hd) (ih fun p hp => hn p (List.mem_cons_of_mem _ hp))

/-- Two message calls of a session that both did something are about different messages, in order. -/
theorem rounds_grow {o1 o2 : Op} {k1 k2 : Call} (hk1 : callOf o1 = some k1) (hk2 : callOf o2 = some k2)
    {s1 s2 s3 s4 : St σ} {r1 r2 : Res Out} {h : History} (h1 : step E cfg o1 s1 = (r1, s2)) (d1 : r1.Defined)
    (hr : Run E cfg s2 h s3) (hn : ∀ p ∈ h, restarts p.1 = false) (h2 : step E cfg o2 s3 = (r2, s4)) (d2 : r2.Defined)
    (n1 : s2 ≠ s1) (n2 : s4 ≠ s3) : round k1 < round k2 := by
  have a := (level_message hk1 h1 d1).resolve_left n1
  have b := (level_message hk2 h2 d2).resolve_left n2
  have c := level_run hr hn
  omega

theorem performs_round {o : Op} {k : Call} (hk : callOf o = some k) {l : Nat} (hl : l ∈ labels (performs o)) :
    (round k = 2 ∧ l ≤ 2) ∨ (round k = 3 ∧ 3 ≤ l ∧ l ≤ 6) ∨ (round k = 4 ∧ 8 ≤ l) := by
  cases o <;> simp only [callOf, Option.some.injEq, reduceCtorEq] at hk <;> subst hk <;>
    simp [labels, performs] at hl <;> rcases hl with rfl | rfl | rfl | rfl <;> decide

theorem ne_of_infos {s s' : St σ} {i : Bytes} (hi : i ∈ infos (during s s')) : s' ≠ s := by
  rintro rfl
  simp [during_self, infos] at hi

/-- **C33** (derivations of the handshake). No info string is used twice in the message calls of a session: not within
one call, and not in two calls. (So no two keys, IVs, MACs, salts or keystreams are the same derivation, whatever key
they are derived from.) -/
theorem C33_separated {o1 : Op} {k1 : Call} (hk1 : callOf o1 = some k1) {s1 s2 : St σ} {r1 : Res Out}
    (h1 : step E cfg o1 s1 = (r1, s2)) (d1 : r1.Defined) :
    (infos (during s1 s2)).Nodup ∧
    ∀ o2 k2 h s3 s4 r2, callOf o2 = some k2 → Run E cfg s2 h s3 → (∀ p ∈ h, restarts p.1 = false) →
      step E cfg o2 s3 = (r2, s4) → r2.Defined → ∀ i ∈ infos (during s1 s2), i ∉ infos (during s3 s4) := by
  refine ⟨within_nodup (C33_performs h1 d1) ?_, ?_⟩
  · cases o1 <;> simp only [callOf, reduceCtorEq] at hk1 <;> simp only [performs] <;> decide
  · intro o2 k2 h s3 s4 r2 hk2 hr hn h2 d2 i hi hj
    have hlt := rounds_grow hk1 hk2 h1 d1 hr hn h2 d2 (ne_of_infos hi) (ne_of_infos hj)
    obtain ⟨l, c, m, hl, hl1, _, e1⟩ := infos_label (C33_performs h1 d1) hi
    obtain ⟨l', c', m', hl', hl1', _, e2⟩ := infos_label (C33_performs h2 d2) hj
    have := info_label (by omega) (by omega) (e1.symm.trans e2)
    subst this
    have a := performs_round hk1 hl
    have b := performs_round hk2 hl'
    omega

/-- a call that derives four different values, with the labels 3, 4, 5 and 6, and encrypts once -/
example : (infos (during (Toy.after Toy.alice (Toy.callsI 3 |>.take 9))
      (Toy.after Toy.alice (Toy.callsI 3 |>.take 10)))).map (·.head?) = [some 3, some 4, some 5, some 6] ∧
    encryptions (during (Toy.after Toy.alice (Toy.callsI 3 |>.take 9))
      (Toy.after Toy.alice (Toy.callsI 3 |>.take 10))) = 1 ∧
    (Toy.hst Toy.alice (Toy.callsI 3))[9]? = some (.compose3 100, .ok (.bytes (Toy.msg 3 3))) := by decide +kernel

/-- a later call of the same session, on message 4, with the labels 8 and 9 -/
example : (infos (during (Toy.after Toy.alice (Toy.callsI 3 |>.take 10))
      (Toy.after Toy.alice (Toy.callsI 3 |>.take 11)))).map (·.head?) = [some 8, some 9] := by decide +kernel

/-- the Responder encrypts message 4 -/
example : encryptions (during (Toy.after Toy.bob (Toy.callsR 3 |>.take 10))
      (Toy.after Toy.bob (Toy.callsR 3 |>.take 11))) = 1 := by decide +kernel

/-- **C33** (exporter). The derivations of one exporter call or key update are different, and PRK_out, PRK_exporter and
the updated key have labels of their own: no derivation of the handshake has them. -/
theorem C33_exporter {o : Op} {s s' : St σ} {r : Res Out} (h : step E cfg o s = (r, s')) (hd : r.Defined)
    (ho : (∃ l n, o = .exportSecret l n) ∨ ∃ b, o = .keyUpdate b) :
    (infos (during s s')).Nodup ∧ ∀ i ∈ infos (during s s'), ∃ l c m, i = info l c m ∧ m < 2 ^ 32 ∧
      (l = 7 ∨ l = 10 ∨ l = 11 ∨ ∃ n, o = .exportSecret l n ∧ (l = 0 ∨ l = 1 ∨ (32768 ≤ l ∧ l ≤ 65535))) := by
  have hw := C33_performs h hd
  rcases ho with ⟨l, n, rfl⟩ | ⟨b, rfl⟩
  · by_cases hl : (l = 0 ∨ l = 1 ∨ 32768 ≤ l) ∧ l ≤ 65535
    · refine ⟨within_nodup hw ?_, fun i hi => ?_⟩
      · have h7 : (7 : Nat) ≠ l := by omega
        have h10 : (10 : Nat) ≠ l := by omega
        simp [labels, performs, h7, h10]
      · obtain ⟨l', c, m, h1, h2, h3, h4⟩ := infos_label hw hi
        refine ⟨l', c, m, h4, h3, ?_⟩
        simp only [performs, labels, List.filterMap_cons, List.filterMap_nil, List.mem_cons, List.not_mem_nil, or_false] at h1
        rcases h1 with rfl | rfl | rfl
        · exact Or.inl rfl
        · exact Or.inr (Or.inl rfl)
        · exact Or.inr (Or.inr (Or.inr ⟨n, rfl, by omega⟩))
    · have he : s' = s := by
        obtain ⟨r0, h0, _⟩ := mapOut_cases (m := Verif.exportSecret E cfg l n) h
        unfold Verif.exportSecret at h0
        simp only [Bind.bind, M.bind, M.require] at h0
        split at h0
        · rename_i h1
          split at h1
          · simp only [Prod.mk.injEq] at h1
            rename_i hc
            simp only [Bool.and_eq_true, decide_eq_true_eq] at hc
            rw [if_neg] at h0
            · simp only [Prod.mk.injEq] at h0; rw [← h0.2, ← h1.2]
            · simp only [Bool.or_eq_true, beq_iff_eq, decide_eq_true_eq]
              omega
          · simp at h1
        · rename_i h1
          split at h1
          · simp at h1
          · simp only [Prod.mk.injEq] at h1 h0; rw [← h0.2, ← h1.2]
        · rename_i h1
          split at h1 <;> simp at h1
      subst he
      rw [during_self]
      simp [infos]
  · refine ⟨within_nodup hw (by simp only [performs]; decide), fun i hi => ?_⟩
    obtain ⟨l', c, m, h1, h2, h3, h4⟩ := infos_label hw hi
    refine ⟨l', c, m, h4, h3, ?_⟩
    simp only [performs, labels, List.filterMap_cons, List.filterMap_nil, List.mem_cons, List.not_mem_nil, or_false] at h1
    rcases h1 with rfl | rfl
    · exact Or.inl rfl
    · exact Or.inr (Or.inr (Or.inl rfl))

example : (infos (during (Toy.after Toy.alice (Toy.callsI 3)) (step (Toy.env Toy.alice) Toy.cfg (.exportSecret 40000 16)
      (Toy.after Toy.alice (Toy.callsI 3))).2)).map (·.head?) = [some 7, some 10, some 0x19] := by decide +kernel

/-! ## AEAD keys -/

theorem encryptions_le {ks : List Kind} {L : List Ev} (h : Within ks L) : encryptions L ≤ ks.count .encrypt := by
  induction h with
  | nil => simp [encryptions]
  | skip hv _ ih =>
    rename_i v L _
    cases v <;> simp_all [encryptions, kindless]
  | miss _ ih => exact Nat.le_trans ih (List.count_le_count_cons)
  | hit hv _ ih =>
    cases hv <;> simp only [encryptions, List.countP_cons, List.count_cons, beq_iff_eq, reduceCtorEq, if_false, if_true,
      Bool.false_eq_true] at ih ⊢ <;> simpa [encryptions] using ih

/-- **C40**. An AEAD key is used for one encryption: only composing message 3 and composing message 4 encrypt, at most
once, and in a session at most one call of each does. -/
theorem C40_one_encryption {o1 : Op} {s1 s2 : St σ} {r1 : Res Out} (h1 : step E cfg o1 s1 = (r1, s2)) (d1 : r1.Defined) :
    encryptions (during s1 s2) ≤ 1 ∧
    (encryptions (during s1 s2) ≠ 0 → (∃ n, o1 = .compose3 n) ∨ ∃ n, o1 = .compose4 n) ∧
    ∀ o2 h s3 s4 r2, encryptions (during s1 s2) ≠ 0 → Run E cfg s2 h s3 → (∀ p ∈ h, restarts p.1 = false) →
      step E cfg o2 s3 = (r2, s4) → r2.Defined → encryptions (during s3 s4) ≠ 0 →
      (∃ n, o1 = .compose3 n) ∧ ∃ n, o2 = .compose4 n := by
  have key : ∀ {o : Op} {s s' : St σ} {r : Res Out}, step E cfg o s = (r, s') → r.Defined →
      encryptions (during s s') ≤ 1 ∧ (encryptions (during s s') ≠ 0 → (∃ n, o = .compose3 n) ∨ ∃ n, o = .compose4 n) := by
    intro o s s' r h d
    have hw := encryptions_le (C33_performs h d)
    cases o
    case compose3 n => exact ⟨by simpa [performs, List.count_cons] using hw, fun _ => Or.inl ⟨n, rfl⟩⟩
    case compose4 n => exact ⟨by simpa [performs, List.count_cons] using hw, fun _ => Or.inr ⟨n, rfl⟩⟩
    all_goals
      have h0 : encryptions (during s s') = 0 := by simpa [performs, List.count_cons] using hw
      exact ⟨by omega, fun h => absurd h0 h⟩
  refine ⟨(key h1 d1).1, (key h1 d1).2, ?_⟩
  intro o2 h s3 s4 r2 e1 hr hn h2 d2 e2
  have n1 : s2 ≠ s1 := by rintro rfl; simp [during_self, encryptions] at e1
  have n2 : s4 ≠ s3 := by rintro rfl; simp [during_self, encryptions] at e2
  rcases (key h1 d1).2 e1 with ⟨n, rfl⟩ | ⟨n, rfl⟩ <;> rcases (key h2 d2).2 e2 with ⟨m, rfl⟩ | ⟨m, rfl⟩
  · have := rounds_grow rfl rfl h1 d1 hr hn h2 d2 n1 n2; simp [round] at this
  · exact ⟨⟨n, rfl⟩, m, rfl⟩
  · have := rounds_grow rfl rfl h1 d1 hr hn h2 d2 n1 n2; simp [round] at this
  · have := rounds_grow rfl rfl h1 d1 hr hn h2 d2 n1 n2; simp [round] at this

end Verif
