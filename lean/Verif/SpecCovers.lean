import Verif.Spec

/-!
# Specification: build configurations that allow more
-/

namespace Verif.Spec

open Verif

variable {σ : Type}

/-- With this configuration a request for `n` bytes is served while the application is in the state `e`: they fit onto the
stack, or the allocator has them. -/
def Served (E : Env σ) (cfg : Config) (e : σ) (n : Nat) : Prop :=
  match cfg.backend with
  | .stack => n ≤ cfg.stackMax ∧ (cfg.zeroVlaOk = true ∨ n ≠ 0)
  | .heap => (E.alloc e n).1 = true

/-- `cfg'` allows at least what `cfg` allows: no limit is smaller, whatever memory is served with `cfg` is served with
`cfg'`, and the CBOR decoder is the same. The backend for memory may be another one. A build without EAD (limit 0) never
calls the EAD callbacks, so that `cfg'` has EAD exactly if `cfg` has. -/
structure Covers (E : Env σ) (cfg cfg' : Config) : Prop where
  suites : cfg.maxSuites ≤ cfg'.maxSuites
  cid : cfg.maxCid ≤ cfg'.maxCid
  eccKey : cfg.maxEccKey ≤ cfg'.maxEccKey
  mac : cfg.maxMac ≤ cfg'.maxMac
  ead : cfg.maxEad ≤ cfg'.maxEad
  noEad : cfg.maxEad = 0 → cfg'.maxEad = 0
  kid : cfg.maxKid ≤ cfg'.maxKid
  hashAlg : cfg.maxHashAlg ≤ cfg'.maxHashAlg
  certs : cfg.maxCerts ≤ cfg'.maxCerts
  dec : cfg'.dec = cfg.dec
  memory : ∀ e n, Served E cfg e n → Served E cfg' e n
  /-- the buffer for the MAC context, whose header grows with the limits -/
  macMemory : ∀ e n, Served E cfg e (cfg.macCtxSize + n) → Served E cfg' e (cfg'.macCtxSize + n)
  /-- the allocator does not influence the other callbacks -/
  apart : ∀ e n, (E.alloc e n).2 = e

/-- is this a request for memory? -/
def isAlloc : Ev → Bool
  | .alloc _ _ => true
  | _ => false

/-- the calls to the application other than requests for memory -/
def seen (l : List Ev) : List Ev := l.filter fun v => !isAlloc v

/-- Two states with the same session, the same application, and the same calls to it except for memory. -/
def Twin (s t : St σ) : Prop := s.ctx = t.ctx ∧ s.env = t.env ∧ seen s.log = seen t.log

end Verif.Spec
