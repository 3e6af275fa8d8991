import Verif.Spec

/-!
# Specification: configuration calls
-/

namespace Verif.Spec

open Verif

variable {σ : Type}

/-- Calls that configure a context. -/
def isSetter : Op → Bool
  | .setMethods _ | .setSuites _ | .setCid _ | .setUserCtx | .bindEad _ _ | .bindKeys _ | .bindCrypto _
  | .bindCred _ => true
  | _ => false

/-- The documented domain of each setter. -/
def documented (cfg : Config) : Op → Prop
  | .setMethods ms => 1 ≤ ms.length ∧ ms.length ≤ 4
  | .setSuites l => 1 ≤ l.length ∧ l.length ≤ cfg.maxSuites
  | .setCid (.int v) => -24 ≤ v ∧ v ≤ 23
  | .setCid (.bstr b) => 1 ≤ b.length ∧ b.length ≤ cfg.maxCid
  | .setUserCtx => True
  | .bindEad compose process => compose = true ∨ process = true
  | .bindKeys complete | .bindCrypto complete | .bindCred complete => complete = true
  | _ => False

/-- The cipher suites of a context. -/
def suites (c : Ctx) : List Suite := c.csuiteArr.take c.csuiteLen

/-- `c'` is `c` after the setter stored its value; nothing else changed. -/
def Stored (c c' : Ctx) : Op → Prop
  | .setMethods ms => c' = { c with method := ms }
  | .setSuites l => suites c' = l ∧ c'.csuiteLen = l.length ∧
      c' = { c with csuiteArr := c'.csuiteArr, csuiteLen := l.length }
  | .setCid i => c' = { c with cid := i }
  | .setUserCtx => c' = c
  | .bindEad compose process => c' = { c with hasEadCompose := compose, hasEadProcess := process }
  | .bindKeys _ => c' = { c with hasKeys := true }
  | .bindCrypto _ => c' = { c with hasCrypto := true }
  | .bindCred _ => c' = { c with hasCred := true }
  | _ => False

/-- No configuration call succeeded after a message call succeeded. -/
def Settled (h : History) : Prop :=
  h.Pairwise fun p q => callOf p.1 ≠ none → succeeded p.2 = true →
    succeeded q.2 = true → isSetter q.1 = false

end Verif.Spec
