import Verif.SpecCodec
import Verif.CborRound
import Verif.CborGrammar

/-!
# The schema encoders write the preferred encodings
-/

namespace Verif

open Spec Spec.Cddl

theorem encSuites_fit (s : Suites) : (encSuites s = some (suites s) ∧ Cddl.SuitesFit s) ∨ (encSuites s = none ∧ ¬ Cddl.SuitesFit s) := by
  cases s with
  | one v => exact Or.inl ⟨rfl, trivial⟩
  | list l =>
    by_cases h : 2 ≤ l.length ∧ l.length ≤ 3
    · exact Or.inl ⟨by simp [encSuites, h, suites, arrayHead, encListHead], h⟩
    · exact Or.inr ⟨by simp only [encSuites, if_neg h], h⟩

theorem encCid_fit (c : Cid) : (encCid c = some (cidItem c) ∧ CidFit c) ∨ (encCid c = none ∧ ¬ CidFit c) := by
  cases c with
  | bstr b => exact Or.inl ⟨rfl, trivial⟩
  | int v =>
    by_cases h : -24 ≤ v ∧ v ≤ 23
    · exact Or.inl ⟨by simp only [encCid, if_pos h, cidItem], h⟩
    · exact Or.inr ⟨by simp only [encCid, if_neg h], h⟩

theorem encEadOpt_fit (ts : List EadTok) :
    (encEadOpt ts = some (ead ts) ∧ ts.length ≤ 3) ∨ (encEadOpt ts = none ∧ ¬ ts.length ≤ 3) := by
  unfold encEadOpt encEad
  cases ts with
  | nil => exact Or.inl ⟨rfl, by simp⟩
  | cons t ts =>
    by_cases h : (t :: ts).length ≤ 3
    · refine Or.inl ⟨?_, h⟩
      rw [if_neg (by simp), if_pos ⟨by simp, h⟩]
      rfl
    · refine Or.inr ⟨?_, h⟩
      rw [if_neg (by simp), if_neg (fun c => h c.2)]

theorem encEad_fit (ts : List EadTok) :
    (encEad ts = some (ead ts) ∧ 1 ≤ ts.length ∧ ts.length ≤ 3) ∨ (encEad ts = none ∧ ¬ (1 ≤ ts.length ∧ ts.length ≤ 3)) := by
  unfold encEad
  by_cases h : 1 ≤ ts.length ∧ ts.length ≤ 3
  · exact Or.inl ⟨by rw [if_pos h]; rfl, h⟩
  · exact Or.inr ⟨by rw [if_neg h], h⟩

theorem encMsg1_fit (m : Msg1) : (encMsg1 m = some (msg1 m) ∧ Msg1Fit m) ∨ (encMsg1 m = none ∧ ¬ Msg1Fit m) := by
  unfold encMsg1 Msg1Fit
  rcases encSuites_fit m.suites with ⟨h1, h1'⟩ | ⟨h1, h1'⟩
  · rcases encCid_fit m.ci with ⟨h2, h2'⟩ | ⟨h2, h2'⟩
    · rcases encEadOpt_fit m.ead with ⟨h3, h3'⟩ | ⟨h3, h3'⟩
      · exact Or.inl ⟨by rw [h1, h2, h3]; rfl, h1', h2', h3'⟩
      · exact Or.inr ⟨by rw [h1, h2, h3], fun c => h3' c.2.2⟩
    · exact Or.inr ⟨by rw [h1, h2], fun c => h2' c.2.1⟩
  · exact Or.inr ⟨by rw [h1], fun c => h1' c.1⟩

theorem encX5chain_fit (x : X5chain) : (encX5chain x = some (chain x) ∧ ChainFit x) ∨ (encX5chain x = none ∧ ¬ ChainFit x) := by
  cases x with
  | one v => exact Or.inl ⟨rfl, trivial⟩
  | list l =>
    by_cases h : 2 ≤ l.length ∧ l.length ≤ 3
    · exact Or.inl ⟨by simp [encX5chain, h, chain, arrayHead, encListHead], h⟩
    · exact Or.inr ⟨by simp only [encX5chain, if_neg h], h⟩

theorem encIntOrBstr_kid (v : IntOrBytes) : encIntOrBstr v = kid v := by cases v <;> rfl

theorem encIntOrTstr_alg (v : IntOrBytes) : encIntOrTstr v = alg v := by cases v <;> rfl

theorem encCredMap_fit (m : CredMap) :
    (encCredMap m = some (Cddl.credMap m) ∧ ∀ x, m.x5chain = some x → ChainFit x) ∨
      (encCredMap m = none ∧ ¬ ∀ x, m.x5chain = some x → ChainFit x) := by
  obtain ⟨k, x, t⟩ := m
  cases x with
  | none =>
    refine Or.inl ⟨?_, by simp⟩
    cases k <;> cases t <;> simp [encCredMap, Cddl.credMap, credEntries, CredMap.count, encIntOrBstr_kid, encCertHash, encIntOrTstr_alg,
      encMapHead, mapHead, encListHead, arrayHead]
  | some x =>
    rcases encX5chain_fit x with ⟨h, h'⟩ | ⟨h, h'⟩
    · refine Or.inl ⟨?_, by simpa using h'⟩
      cases k <;> cases t <;> simp [encCredMap, h, Cddl.credMap, credEntries, CredMap.count, encIntOrBstr_kid, encCertHash,
        encIntOrTstr_alg, encMapHead, mapHead, encListHead, arrayHead]
    · refine Or.inr ⟨?_, by simpa using h'⟩
      simp [encCredMap, h]

theorem encIdCred_fit (i : IdCred) :
    (encIdCred i = some (idCredItem i) ∧ IdCredFit i) ∨ (encIdCred i = none ∧ ¬ IdCredFit i) := by
  cases i with
  | int v => exact Or.inl ⟨rfl, trivial⟩
  | bstr v => exact Or.inl ⟨rfl, trivial⟩
  | map m => exact encCredMap_fit m

theorem encErrMsg_fit (c : Int) (i : Option ErrInfo) :
    (encErrMsg c i = some (errMsg c i) ∧ ∀ j, i = some j → ErrInfoFit j) ∨
      (encErrMsg c i = none ∧ ¬ ∀ j, i = some j → ErrInfoFit j) := by
  cases i with
  | none => exact Or.inl ⟨by simp [encErrMsg, errMsg], by simp⟩
  | some i =>
    cases i with
    | text t => exact Or.inl ⟨rfl, by simp [ErrInfoFit]⟩
    | true_ => exact Or.inl ⟨rfl, by simp [ErrInfoFit]⟩
    | suites s =>
      rcases encSuites_fit s with ⟨h, h'⟩ | ⟨h, h'⟩
      · exact Or.inl ⟨by simp [encErrMsg, encErrInfo, h, errMsg, errInfo], by simpa [ErrInfoFit] using h'⟩
      · exact Or.inr ⟨by simp [encErrMsg, encErrInfo, h], by simpa [ErrInfoFit] using h'⟩

/-- an encoder into `cap` bytes, from its two cases -/
theorem writes_of {x : Option Bytes} {fit : Prop} {b : Bytes} (h : (x = some b ∧ fit) ∨ (x = none ∧ ¬ fit)) (cap : Nat) :
    Output (x.bind (fits cap)) fit cap b := by
  rcases h with ⟨rfl, h⟩ | ⟨rfl, h⟩
  · by_cases hc : b.length ≤ cap <;> simp [Output, fits, h, hc]
  · simp [Output, h]

end Verif
