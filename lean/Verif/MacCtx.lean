import Verif.Success2
import Verif.SpecWire

/-!
# The MAC context is the one of RFC 9528
-/

namespace Verif

open M

variable {σ : Type}

theorem encEad_spec {ts : List EadTok} {b : Bytes} (h : encEad ts = some b) :
    b = Spec.ead ts ∧ 1 ≤ ts.length ∧ ts.length ≤ 3 := by
  unfold encEad at h
  split at h
  · simp only [Option.some.injEq] at h
    rename_i hl
    exact ⟨h.symm, hl⟩
  · simp at h

theorem encEadOpt_spec {ts : List EadTok} {b : Bytes} (h : encEadOpt ts = some b) :
    b = Spec.ead ts ∧ ts.length ≤ 3 := by
  unfold encEadOpt at h
  split at h
  · rename_i he
    simp only [List.isEmpty_iff] at he
    subst he
    simp only [Option.some.injEq] at h
    exact ⟨h.symm, by simp⟩
  · obtain ⟨h1, _, h2⟩ := encEad_spec h
    exact ⟨h1, h2⟩

theorem encEncStructure_spec (th : Bytes) : encEncStructure [] th = Spec.encStructure th := by
  simp [encEncStructure, Spec.encStructure, encListHead, Spec.arrayHead, ascii]

theorem macIdCred_spec {cap : Nat} {cr : Cred} {b : Bytes} (h : macIdCred cap cr = .ok b) :
    b = Spec.idCred cr := by
  unfold macIdCred at h
  simp only [Res.bind_ok] at h
  obtain ⟨m, h1, h2⟩ := h
  cases cr with
  | other l => simp [credMap] at h1
  | any i c r =>
    simp only [Res.ok.injEq] at h2
    exact h2.symm
  | kid c ic id =>
    simp only [credMap, Res.ok.injEq] at h1
    subst h1
    simp only [Res.ofOption_ok, encCredMap, Option.bind_some] at h2
    obtain ⟨rfl, _⟩ := fits_some h2
    cases id <;> simp [Spec.idCred, encMapHead, Spec.mapHead, CredMap.count, encIntOrBstr]
  | x5t c fp alg =>
    simp only [credMap, Res.ok.injEq] at h1
    subst h1
    simp only [Res.ofOption_ok, encCredMap, Option.bind_some] at h2
    obtain ⟨rfl, _⟩ := fits_some h2
    cases alg <;> simp [Spec.idCred, encMapHead, Spec.mapHead, CredMap.count, encCertHash, encIntOrTstr,
      encListHead, Spec.arrayHead]
  | x5chain certs =>
    simp only [credMap] at h1
    split at h1
    · simp at h1
    split at h1
    · rename_i hl
      simp only [Res.ok.injEq] at h1
      subst h1
      obtain ⟨c, rfl⟩ := List.length_eq_one_iff.1 hl
      simp only [Res.ofOption_ok, encCredMap, encX5chain, Option.bind_some] at h2
      obtain ⟨rfl, _⟩ := fits_some h2
      simp [Spec.idCred, encMapHead, Spec.mapHead, CredMap.count]
    split at h1
    · simp at h1
    · rename_i h3 h4 h5
      simp only [Res.ok.injEq] at h1
      subst h1
      simp only [Res.ofOption_ok, encCredMap, encX5chain] at h2
      rw [if_pos (by omega)] at h2
      simp only [Option.bind_some] at h2
      obtain ⟨rfl, _⟩ := fits_some h2
      match certs, h3, h4 with
      | a :: b :: r, _, _ =>
        simp [Spec.idCred, encMapHead, Spec.mapHead, CredMap.count, encListHead, Spec.arrayHead]

theorem macCred_spec {cap : Nat} {cr : Cred} {b : Bytes} (h : macCred cap cr = .ok b) :
    b = Spec.cred cr := by
  cases cr with
  | other l => simp [macCred] at h
  | any i c r => simp only [macCred, Res.ok.injEq] at h; exact h.symm
  | kid c ic id =>
    cases ic with
    | true => simp only [macCred, if_true, Res.ok.injEq] at h; exact h.symm
    | false =>
      simp only [macCred, Bool.false_eq_true, if_false, Res.ofOption_ok] at h
      exact (fits_some h).1
  | x5t c fp alg => simp only [macCred, Res.ofOption_ok] at h; exact (fits_some h).1
  | x5chain certs => simp only [macCred, Res.ofOption_ok] at h; exact (fits_some h).1

/-- `macContext` succeeded: its parts -/
structure MacParts (cfg : Config) (c : Ctx) (cr : Cred) (m : MacCtx) : Prop where
  message : c.message = .msg2 ∧ c.thState = .th2 ∨ c.message = .msg3 ∧ c.thState = .th3 ∨ c.message = .msg1
  connId : m.connId = if c.message = .msg2 then Spec.cidItem (macCid c) else []
  idCred : m.idCred = Spec.idCred cr
  th : m.th = encBstr c.th
  cred : m.cred = Spec.cred cr
  ead : m.ead = Spec.ead c.ead
  label : ∀ l, cr ≠ .other l
  comp : ∃ k, macComp cfg cr = .ok k ∧ m.isComp = k.isSome ∧
    m.encType = (k.map Comp.encType).getD .integer ∧ m.idInt = (k.map Comp.idInt).getD [0, 0, 0, 0] ∧
    m.idBstr = (k.map Comp.idBstr).getD []

theorem macContext_ok {cfg : Config} {c : Ctx} {cr : Cred} {n : Nat} {m : MacCtx}
    (h : macContext cfg c cr n = .ok m) : MacParts cfg c cr m := by
  simp only [macContext, Res.bind_ok, Res.require_ok, Res.guardUB_ok, Res.pure_ok, Res.ofOption_ok] at h
  obtain ⟨_, h0, _, h1, _, h2, cid, h3, l2, h4, _, _, id, h5, comp, h6, l3, h7, _, _, th, h8, l4, h9, _, _,
    cred, h10, ead, h11, _, _, rfl⟩ := h
  refine ⟨?_, ?_, macIdCred_spec h5, (fits_some h8).1, macCred_spec h10, ?_, ?_, comp, h6, rfl, rfl, rfl, rfl⟩
  · cases hm : c.message <;> simp [hm] at h0 h1 h2 ⊢ <;> assumption
  · simp only
    split at h3
    · rw [if_pos (by assumption)]
      simp only [Res.bind_ok', Res.guardUB_ok] at h3
      obtain ⟨_, _, h3⟩ := h3
      split at h3
      · rename_i v hv
        rw [Res.ofOption_ok] at h3
        rw [hv]
        exact (fits_some h3).1
      · rename_i v hv
        rw [Res.ofOption_ok] at h3
        rw [hv]
        exact (fits_some h3).1
    · rw [if_neg (by assumption)]
      simp only [Res.ok.injEq] at h3
      exact h3.symm
  · simp only
    split at h11
    · rename_i he
      simp only [List.isEmpty_iff] at he
      simp only [Res.ok.injEq] at h11
      rw [he, ← h11]
      rfl
    · simp only [Res.bind_ok', Res.guardUB_ok, Res.ofOption_ok, Option.bind_eq_some_iff] at h11
      obtain ⟨_, _, _, _, x, h12, h13⟩ := h11
      rw [(fits_some h13).1]
      exact (encEad_spec h12).1
  · rintro l rfl
    simp [credLen] at h9

theorem MacParts.buf2 {cfg : Config} {c : Ctx} {cr : Cred} {m : MacCtx} (h : MacParts cfg c cr m)
    (hm : c.message = .msg2) : m.buf = Spec.context2 (macCid c) cr c.th c.ead := by
  simp [MacCtx.buf, h.connId, hm, h.idCred, h.th, h.cred, h.ead, Spec.context2]

theorem MacParts.buf3 {cfg : Config} {c : Ctx} {cr : Cred} {m : MacCtx} (h : MacParts cfg c cr m)
    (hm : c.message = .msg3) : m.buf = Spec.context3 cr c.th c.ead := by
  simp [MacCtx.buf, h.connId, hm, h.idCred, h.th, h.cred, h.ead, Spec.context3]

theorem MacParts.sig {cfg : Config} {c : Ctx} {cr : Cred} {m : MacCtx} (h : MacParts cfg c cr m)
    (mac : Bytes) : encSigStructure m.idCred m.aad mac = Spec.sigStructure cr c.th c.ead mac := by
  simp [encSigStructure, MacCtx.aad, h.idCred, h.th, h.cred, h.ead, Spec.sigStructure, encListHead,
    Spec.arrayHead, ascii]

theorem encInfo_spec (label : Nat) (context : Bytes) {n : Nat} (h : n < 4294967296) :
    encInfo label context (u32 n) = Spec.info label context n := by
  simp [encInfo, Spec.info, u32, Nat.mod_eq_of_lt h, encInt]

end Verif
