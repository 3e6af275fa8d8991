import Verif.SpecConfig
import Verif.ToyRun

/-!
# C30: setters

Vocabulary: `Verif/SpecConfig.lean`.
-/

namespace Verif

open M Spec

variable {σ : Type}

/-- **C30** (setters accept exactly the documented values). On an initialised context a setter succeeds exactly on
its documented domain; then the value is stored and nothing else changes. Otherwise it fails and changes nothing. No
callback is called in either case. -/
theorem C30_setters {E : Env σ} {cfg : Config} {o : Op} (ho : isSetter o = true) (s : St σ) :
    (s.ctx.isInit = true ∧ documented cfg o ∧
      ∃ c', step E cfg o s = (.ok .unit, { s with ctx := c' }) ∧ Stored s.ctx c' o) ∨
    (¬ (s.ctx.isInit = true ∧ documented cfg o) ∧
      ∃ e, (e = .badState ∨ e = .invalidArgument) ∧ step E cfg o s = (.err e, s)) := by
  cases o <;> simp only [isSetter, Bool.false_eq_true] at ho
  case setMethods ms =>
    by_cases h1 : 1 ≤ ms.length ∧ ms.length ≤ 4
    · have h1' : (ms.length != 0 && decide (ms.length ≤ 4)) = true := by
        rw [Bool.and_eq_true, bne_iff_ne, decide_eq_true_eq]; omega
      cases hi : s.ctx.isInit
      · right
        refine ⟨by simp, .badState, Or.inl rfl, ?_⟩
        simp only [step, M.mapOut, Verif.setMethods, Bind.bind, M.bind, M.getCtx, M.require, h1', hi,
          Bool.false_eq_true, ↓reduceIte]
      · left
        refine ⟨rfl, h1, { s.ctx with method := ms }, ?_, rfl⟩
        simp only [step, M.mapOut, Verif.setMethods, Bind.bind, M.bind, M.getCtx, M.require, h1', hi,
          ↓reduceIte, M.modCtx, Pure.pure, M.ret, M.guardUB, decide_eq_true h1.2, Bool.and_true, show (ms.length != 0) = true by rw [bne_iff_ne]; omega]
    · right
      refine ⟨fun h => h1 h.2, .invalidArgument, Or.inr rfl, ?_⟩
      have h1' : (ms.length != 0 && decide (ms.length ≤ 4)) = false := by
        rw [Bool.eq_false_iff, ne_eq, Bool.and_eq_true, bne_iff_ne, decide_eq_true_eq]; omega
      simp only [step, M.mapOut, Verif.setMethods, Bind.bind, M.bind, M.getCtx, M.require, h1',
        Bool.false_eq_true, ↓reduceIte]
  case setSuites l =>
    by_cases h1 : 1 ≤ l.length
    · have h1' : (l.length != 0) = true := by simp; intro h; rw [h] at h1; simp at h1
      cases hi : s.ctx.isInit
      · right
        refine ⟨by simp, .badState, Or.inl rfl, ?_⟩
        simp only [step, M.mapOut, Verif.setSuites, Bind.bind, M.bind, M.getCtx, M.require, h1', hi,
          Bool.false_eq_true, ↓reduceIte]
      · by_cases h2 : l.length ≤ cfg.maxSuites
        · left
          refine ⟨rfl, ⟨h1, h2⟩,
            { s.ctx with csuiteLen := l.length, csuiteArr := l ++ s.ctx.csuiteArr.drop l.length }, ?_, ?_⟩
          · simp only [step, M.mapOut, Verif.setSuites, Bind.bind, M.bind, M.getCtx, M.require, h1', hi, h2,
              ↓reduceIte, M.modCtx, Pure.pure, M.ret, M.guardUB, decide_true]
          · exact ⟨by simp [suites], rfl, rfl⟩
        · right
          refine ⟨fun h => h2 h.2.2, .badState, Or.inl rfl, ?_⟩
          simp only [step, M.mapOut, Verif.setSuites, Bind.bind, M.bind, M.getCtx, M.require, h1', hi, h2,
            Bool.false_eq_true, ↓reduceIte, decide_false]
    · right
      refine ⟨fun h => h1 h.2.1, .invalidArgument, Or.inr rfl, ?_⟩
      have h1' : (l.length != 0) = false := by simp; cases l <;> simp at h1 ⊢
      simp only [step, M.mapOut, Verif.setSuites, Bind.bind, M.bind, M.getCtx, M.require, h1',
        Bool.false_eq_true, ↓reduceIte]
  case setCid c =>
    cases hi : s.ctx.isInit
    · right
      refine ⟨by simp, .badState, Or.inl rfl, ?_⟩
      simp only [step, M.mapOut, Verif.setCid, Bind.bind, M.bind, M.getCtx, M.require, hi,
        Bool.false_eq_true, ↓reduceIte]
    · cases c with
      | int v =>
        by_cases h1 : -24 ≤ v ∧ v ≤ 23
        · left
          refine ⟨rfl, h1, { s.ctx with cid := .int v }, ?_, rfl⟩
          simp only [step, M.mapOut, Verif.setCid, Bind.bind, M.bind, M.getCtx, M.require, hi, h1.1, h1.2,
            decide_true, Bool.and_self, ↓reduceIte, M.modCtx, Pure.pure, M.ret, M.guardUB]
        · right
          refine ⟨fun h => h1 h.2, .badState, Or.inl rfl, ?_⟩
          have h1' : (decide (-24 ≤ v) && decide (v ≤ 23)) = false := by
            rw [Bool.eq_false_iff, ne_eq, Bool.and_eq_true, decide_eq_true_eq, decide_eq_true_eq]; exact h1
          simp only [step, M.mapOut, Verif.setCid, Bind.bind, M.bind, M.getCtx, M.require, hi, h1',
            Bool.false_eq_true, ↓reduceIte]
      | bstr b =>
        by_cases h1 : 1 ≤ b.length ∧ b.length ≤ cfg.maxCid
        · left
          refine ⟨rfl, h1, { s.ctx with cid := .bstr b }, ?_, rfl⟩
          have h1' : (b.length != 0 && decide (b.length ≤ cfg.maxCid)) = true := by
            rw [Bool.and_eq_true, bne_iff_ne, decide_eq_true_eq]; omega
          simp only [step, M.mapOut, Verif.setCid, Bind.bind, M.bind, M.getCtx, M.require, hi, h1',
            ↓reduceIte, M.modCtx, Pure.pure, M.ret, M.guardUB, decide_eq_true (show b.length ≤ cfg.maxCid + 1 by omega)]
        · right
          refine ⟨fun h => h1 h.2, .badState, Or.inl rfl, ?_⟩
          have h1' : (b.length != 0 && decide (b.length ≤ cfg.maxCid)) = false := by
            rw [Bool.eq_false_iff, ne_eq, Bool.and_eq_true, bne_iff_ne, decide_eq_true_eq]; omega
          simp only [step, M.mapOut, Verif.setCid, Bind.bind, M.bind, M.getCtx, M.require, hi, h1',
            Bool.false_eq_true, ↓reduceIte]
  case setUserCtx =>
    cases hi : s.ctx.isInit
    · right
      refine ⟨by simp, .badState, Or.inl rfl, ?_⟩
      simp only [step, M.mapOut, Verif.setUserCtx, Bind.bind, M.bind, M.getCtx, M.require, hi,
        Bool.false_eq_true, ↓reduceIte]
    · left
      refine ⟨rfl, trivial, s.ctx, ?_, rfl⟩
      simp only [step, M.mapOut, Verif.setUserCtx, Bind.bind, M.bind, M.getCtx, M.require, hi, ↓reduceIte,
        Pure.pure, M.ret]
  case bindEad a b =>
    cases hi : s.ctx.isInit
    · right
      refine ⟨by simp, .badState, Or.inl rfl, ?_⟩
      simp only [step, M.mapOut, Verif.bindEad, Bind.bind, M.bind, M.getCtx, M.require, hi,
        Bool.false_eq_true, ↓reduceIte]
    · cases hb : (a || b)
      · right
        refine ⟨fun h => ?_, .badState, Or.inl rfl, ?_⟩
        · have h2 := h.2
          simp only [documented] at h2
          revert hb h2; cases a <;> cases b <;> simp
        · simp only [step, M.mapOut, Verif.bindEad, Bind.bind, M.bind, M.getCtx, M.require, hi, hb,
            Bool.false_eq_true, ↓reduceIte]
      · left
        refine ⟨rfl, by simpa [documented] using hb, { s.ctx with hasEadCompose := a, hasEadProcess := b }, ?_, rfl⟩
        simp only [step, M.mapOut, Verif.bindEad, Bind.bind, M.bind, M.getCtx, M.require, hi, hb, ↓reduceIte,
          M.modCtx, Pure.pure, M.ret]
  case bindKeys b =>
    cases hi : s.ctx.isInit
    · right
      refine ⟨by simp, .badState, Or.inl rfl, ?_⟩
      simp only [step, M.mapOut, Verif.bindKeys, Bind.bind, M.bind, M.getCtx, M.require, hi,
        Bool.false_eq_true, ↓reduceIte]
    · cases b
      · right
        refine ⟨by simp [documented], .badState, Or.inl rfl, ?_⟩
        simp only [step, M.mapOut, Verif.bindKeys, Bind.bind, M.bind, M.getCtx, M.require, hi,
          Bool.false_eq_true, ↓reduceIte]
      · left
        refine ⟨rfl, rfl, { s.ctx with hasKeys := true }, ?_, rfl⟩
        simp only [step, M.mapOut, Verif.bindKeys, Bind.bind, M.bind, M.getCtx, M.require, hi, ↓reduceIte,
          M.modCtx, Pure.pure, M.ret]
  case bindCrypto b =>
    cases hi : s.ctx.isInit
    · right
      refine ⟨by simp, .badState, Or.inl rfl, ?_⟩
      simp only [step, M.mapOut, Verif.bindCrypto, Bind.bind, M.bind, M.getCtx, M.require, hi,
        Bool.false_eq_true, ↓reduceIte]
    · cases b
      · right
        refine ⟨by simp [documented], .badState, Or.inl rfl, ?_⟩
        simp only [step, M.mapOut, Verif.bindCrypto, Bind.bind, M.bind, M.getCtx, M.require, hi,
          Bool.false_eq_true, ↓reduceIte]
      · left
        refine ⟨rfl, rfl, { s.ctx with hasCrypto := true }, ?_, rfl⟩
        simp only [step, M.mapOut, Verif.bindCrypto, Bind.bind, M.bind, M.getCtx, M.require, hi, ↓reduceIte,
          M.modCtx, Pure.pure, M.ret]
  case bindCred b =>
    cases hi : s.ctx.isInit
    · right
      refine ⟨by simp, .badState, Or.inl rfl, ?_⟩
      simp only [step, M.mapOut, Verif.bindCred, Bind.bind, M.bind, M.getCtx, M.require, hi,
        Bool.false_eq_true, ↓reduceIte]
    · cases b
      · right
        refine ⟨by simp [documented], .badState, Or.inl rfl, ?_⟩
        simp only [step, M.mapOut, Verif.bindCred, Bind.bind, M.bind, M.getCtx, M.require, hi,
          Bool.false_eq_true, ↓reduceIte]
      · left
        refine ⟨rfl, rfl, { s.ctx with hasCred := true }, ?_, rfl⟩
        simp only [step, M.mapOut, Verif.bindCred, Bind.bind, M.bind, M.getCtx, M.require, hi, ↓reduceIte,
          M.modCtx, Pure.pure, M.ret]

/-- Non-vacuity: both outcomes occur. The suites are replaced even when fewer are set than before. -/
example : (step (Toy.env Toy.alice) Toy.cfg (.setCid (.int 23)) Toy.fresh).1 = .ok .unit ∧
    (step (Toy.env Toy.alice) Toy.cfg (.setCid (.int 24)) Toy.fresh).1 = .err .badState ∧
    suites (Toy.after Toy.alice [.setSuites [Suite.zero, Suite.zero], .setSuites [Toy.suite]]).ctx = [Toy.suite] := by
  decide +kernel

end Verif
