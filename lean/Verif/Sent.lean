import Verif.SpecRound
import Verif.CborRound
import Verif.CborSound
import Verif.Message3

/-!
# The plaintexts that are sent

ID_CRED as the library writes it into a plaintext is the encoding RFC 9528 prescribes, if the credential is one of
those of `SentAs`.
-/

namespace Verif

open M Spec

variable {cfg : Config}

theorem encInt_small {v : Int} (h1 : -24 ≤ v) (h2 : v ≤ 23) :
    encInt v = [if 0 ≤ v then UInt8.ofNat v.toNat else UInt8.ofNat (32 + (-1 - v).toNat)] := by
  unfold encInt head
  split
  · rw [if_pos (by omega)]; simp
  · rw [if_pos (by omega)]

theorem leBytes_small {v : Int} (h1 : 0 ≤ v) (h2 : v ≤ 23) : (leBytes v).take 1 = encInt v := by
  rw [encInt_small (by omega) h2, if_pos h1]
  unfold leBytes
  simp only [List.take_succ_cons, List.take_zero]
  rw [Int.emod_eq_of_lt h1 (by omega)]

theorem fitLen_take {n : Nat} {b : Bytes} (h : 1 ≤ b.length) (hn : 1 ≤ n) : (fitLen n b).take 1 = b.take 1 := by
  unfold fitLen
  cases b with
  | nil => simp at h
  | cons x t =>
    cases n with
    | zero => omega
    | succ n => simp

/-- ID_CRED of a plaintext -/
theorem sentAs_enc {cr : Cred} {i : IdCred} (h : SentAs cr i) {k : Option Comp} (hk : macComp cfg cr = .ok k) :
    encIdCred i = some (idWire cr k) ∧ i.Wire := by
  have kid : ∀ {c b id}, macComp cfg (.kid c b id) = .ok k → ∃ q, kidCompact cfg b id = .ok q ∧ k = some q := by
    intro c b id h
    simp only [macComp, Res.bind_ok, Res.pure_ok, Res.mapErr_ok] at h
    obtain ⟨q, h1, h2⟩ := h
    exact ⟨q, h1, h2.symm⟩
  cases h with
  | @kidInt c v h1 h2 =>
    obtain ⟨q, hq, rfl⟩ := kid hk
    have hl : (encInt v).length = 1 := by rw [encInt_small h1 h2]; rfl
    simp only [kidCompact, Bool.false_eq_true, if_false, fits, hl, Nat.reduceLeDiff, if_true, Res.ok.injEq] at hq
    subst hq
    simp only [idWire, encIdCred, Option.some.injEq]
    rw [fitLen_take (by omega) (by omega)]
    exact ⟨(List.take_of_length_le (by omega)).symm, by simp only [IdCred.Wire, Int32Range]; omega⟩
  | @kidUint c v h1 h2 =>
    obtain ⟨q, hq, rfl⟩ := kid hk
    simp only [kidCompact, if_true, Res.ok.injEq] at hq
    subst hq
    simp only [idWire, encIdCred, Option.some.injEq]
    exact ⟨(leBytes_small h1 h2).symm, by simp only [IdCred.Wire, Int32Range]; omega⟩
  | @kidBstr c b h1 =>
    obtain ⟨q, hq, rfl⟩ := kid hk
    simp only [kidCompact, Bool.false_eq_true, if_false] at hq
    split at hq
    · rename_i e he
      obtain ⟨rfl, _⟩ := fits_some he
      simp only [Res.ok.injEq] at hq
      subst hq
      exact ⟨rfl, h1⟩
    · cases hq
  | @kidCborInt c v h1 h2 =>
    obtain ⟨q, hq, rfl⟩ := kid hk
    have hl : (encInt v).length = 1 := by rw [encInt_small h1 h2]; rfl
    have hr : Int32Range v := by simp only [Int32Range]; omega
    have hm : intMemReq v = 1 := by unfold intMemReq; rw [if_pos ⟨h1, h2⟩]
    simp only [kidCompact, hl, if_true, getInt_encInt _ hr, hm, Res.ok.injEq] at hq
    subst hq
    simp only [idWire, encIdCred, Option.some.injEq]
    exact ⟨by rw [List.take_append_of_le_length (by omega), List.take_of_length_le (by omega)], hr⟩
  | @kidCborBstr c b h1 =>
    obtain ⟨q, hq, rfl⟩ := kid hk
    simp only [kidCompact, if_true, getInt_encBstr] at hq
    split at hq
    · cases hq
    · split at hq
      · simp only [Res.ok.injEq] at hq
        subst hq
        exact ⟨rfl, h1⟩
      · cases hq
  | @cert c h1 =>
    simp only [macComp, Res.ok.injEq] at hk
    subst hk
    refine ⟨?_, by constructor <;> simp [h1]⟩
    simp [encIdCred, encCredMap, encX5chain, CredMap.count, idWire, Spec.idCred, mapHead, encMapHead]
  | @chain l h1 h2 h3 =>
    simp only [macComp, Res.ok.injEq] at hk
    subst hk
    refine ⟨?_, by constructor <;> simp; exact h3⟩
    match l, h1 with
    | a :: b :: t, _ =>
      simp only [encIdCred, encCredMap, encX5chain, h1, h2, and_self, if_true]
      simp [CredMap.count, idWire, Spec.idCred, mapHead, encMapHead, encListHead, arrayHead]
  | @hashInt c a fp h1 h2 =>
    simp only [macComp, Res.ok.injEq] at hk
    subst hk
    refine ⟨?_, by constructor <;> simp <;> assumption⟩
    simp [encIdCred, encCredMap, CredMap.count, idWire, Spec.idCred, mapHead, encMapHead, encCertHash, encListHead,
      arrayHead, encIntOrTstr]
  | @hashTstr c a fp h1 h2 =>
    simp only [macComp, Res.ok.injEq] at hk
    subst hk
    refine ⟨?_, by constructor <;> simp <;> assumption⟩
    simp [encIdCred, encCredMap, CredMap.count, idWire, Spec.idCred, mapHead, encMapHead, encCertHash, encListHead,
      arrayHead, encIntOrTstr]

theorem sentAs_item {cr : Cred} {i : IdCred} (h : SentAs cr i) {k : Option Comp} (hk : macComp cfg cr = .ok k) :
    IdCredItem i (idWire cr k) := by
  obtain ⟨h1, h2⟩ := sentAs_enc h hk
  have h3 := getIdCred_enc (d := cfg.dec) h1 h2 []
  rw [List.append_nil] at h3
  obtain ⟨b, h4, h5⟩ := getIdCred_sound h3
  rw [List.append_nil] at h5
  rwa [h5]

theorem ead_item {ts : List EadTok} (h : ∀ t ∈ ts, t.Wire) : SeqOf EadItem ts (Spec.ead ts) := by
  refine ⟨ts.map encEadTok, each_map fun t ht => ?_, rfl⟩
  obtain ⟨h1, h2⟩ := h t ht
  obtain ⟨l, v⟩ := t
  cases v with
  | none => exact ⟨encInt l, [], encInt_item h1.to65, rfl, rfl⟩
  | some v => exact ⟨encInt l, _, encInt_item h1.to65, rfl, encBstr_item (h2 v rfl)⟩

theorem ptxtTail_item {cr : Cred} {i : IdCred} {sig p : Bytes} {ts : List EadTok} (h : PtxtTail cfg cr sig ts p)
    (hi : SentAs cr i) (hs : SizeOk sig) (ht : ∀ t ∈ ts, t.Wire) : Plaintext3 ⟨i, sig, ts⟩ p := by
  obtain ⟨k, hk, rfl⟩ := h
  exact ⟨_, _, _, sentAs_item hi hk, encBstr_item hs, ead_item ht, rfl⟩

/-- decoding a plaintext that was sent -/
theorem ptxtTail_dec {cr : Cred} {i : IdCred} {sig p : Bytes} {ts : List EadTok} (h : PtxtTail cfg cr sig ts p)
    (hi : SentAs cr i) (hs : SizeOk sig) (ht : ∀ t ∈ ts, t.Wire) (hl : ts.length ≤ 3) (d : DecCfg) :
    getPtxt3 d p = some ⟨i, sig, ts⟩ := by
  obtain ⟨k, hk, rfl⟩ := h
  obtain ⟨h1, h2⟩ := sentAs_enc hi hk
  exact getPtxt3_enc (p := ⟨i, sig, ts⟩) h1 h2 hs ht hl

theorem ptxtTail_stale {cr : Cred} {i : IdCred} {sig p : Bytes} {ts : List EadTok} (h : PtxtTail cfg cr sig ts p)
    (hi : SentAs cr i) (hs : SizeOk sig) (ht : ∀ t ∈ ts, t.Wire) (d : DecCfg) : stalePtxt3 d p = 0 := by
  obtain ⟨k, hk, rfl⟩ := h
  obtain ⟨h1, h2⟩ := sentAs_enc hi hk
  exact stalePtxt3_enc (p := ⟨i, sig, ts⟩) h1 h2 hs ht

end Verif
