import Verif.Api

/-!
# The mock application of the repository's own unit tests

`/repo/tests/unit/coverage/coverage_common.c` binds a session to callbacks that return constant
bytes and fail from the n-th call on. The same application is defined here as an environment of the
model, so that the repository's tests can be replayed on the model (`Verif.Conform.Replay`). Nothing
is proved about the code here: a replayed test compares the model with the results that the authors
of the code recorded for it.
-/

namespace Verif.Conform

open Verif

/-- What a test binds to a context. The defaults are those of
`coverage_setup_mock_context`. `/repo/tests/unit/coverage/coverage_common.c:236-250,272-284,311-348`. -/
structure Party where
  method : Nat := 0
  cid : Cid := .int (-24)
  cred : Cred := .x5chain [[0x30, 0x00]]
  toks : List EadTok := []
  /-- `coverage_mock_ead_process_fail` is bound -/
  eadFail : Bool := false

/-- `mock_call_count` and `mock_fail_at`. `/repo/tests/unit/coverage/coverage_common.c:18-34`. -/
abbrev Count := Nat × Nat

/-- `coverage_mock_should_fail`. `/repo/tests/unit/coverage/coverage_common.c:29-33`. -/
def bad (s : Count) : Bool := s.2 != 0 && decide (s.2 ≤ s.1 + 1)

/-- `mock_call_count++` -/
def tick (s : Count) : Count := (s.1 + 1, s.2)

/-- fail or give the answer -/
def ans {α : Type} (s : Count) (a : α) : Option α × Count := (if bad s then none else some a, tick s)

/-- `memset` -/
def fill (n : Nat) (b : UInt8) : Bytes := List.replicate n b

/-- The callbacks. `/repo/tests/unit/coverage/coverage_common.c:38-293`. The eight bytes after the
copied plaintext are not written by `mock_encrypt`; zero is taken. -/
def env (p : Party) : Env Count where
  alloc s _ := (true, s)
  importKey s _ _ := ans s (fill 4 0)
  destroyKey s _ := s
  makeKeyPair s _ := ans s (fill 32 0xAA, fill 32 0xBB)
  keyAgreement s _ _ := ans s (fill 32 0xCC)
  sign s _ _ := ans s (fill 64 0xDD)
  verify s _ _ _ := (!bad s, tick s)
  extract s _ _ := ans s (fill 32 0xEE)
  expand s _ _ n := ans s (fill n 0xFF)
  encrypt s _ _ _ m := ans s (m ++ fill 8 0)
  decrypt s _ _ _ c := ans s (c.take (c.length - 8))
  hash s _ := ans s (fill 32 0x11)
  eadCompose s _ := ans s p.toks
  eadProcess s _ _ := if p.eadFail then (false, s) else (!bad s, tick s)
  credFetch s := ans s (p.cred, fill 4 0)
  credVerify s c := ans s (c, some (0x04 :: fill 64 0))

/-- Configuration of the test build. `/repo/CMakePresets.json:14-24`. -/
def cfg : Config where
  maxSuites := 3
  maxCid := 7
  maxEccKey := 48
  maxMac := 48
  maxEad := 3
  maxKid := 1
  maxHashAlg := 1
  maxCerts := 2
  backend := .stack
  stackMax := 100000
  zeroVlaOk := true
  macCtxSize := 200
  dec := ⟨true, false, fun _ => 0, true⟩

/-- Cipher suite 2, whose descriptor the tests use. -/
def suite : Suite := ⟨2, 16, 8, 13, 32, 8, 32, 64⟩

/-- `coverage_setup_mock_context`. `/repo/tests/unit/coverage/coverage_common.c:311-348`. -/
def setup (p : Party) : List Op :=
  [.init, .setMethods [p.method], .setSuites [suite], .setCid p.cid, .bindKeys true,
    .bindCrypto true, .bindCred true, .bindEad true true]

/-- a context with its callbacks -/
abbrev S := St Count

/-- `coverage_mock_reset(failAt)` and one call -/
def call (p : Party) (failAt : Nat) (o : Op) (s : S) : Res Out × S :=
  step (env p) cfg o { s with env := (0, failAt) }

/-- a context `{ 0 }` -/
def zero : S := ⟨Ctx.zero, (0, 0), []⟩

/-- run the calls one after the other, collecting the return codes -/
def runs (p : Party) : List Op → S → List (Res Out) × S
  | [], s => ([], s)
  | o :: os, s =>
    let x := call p 0 o s
    let y := runs p os x.2
    (x.1 :: y.1, y.2)

/-- a context after the set-up calls -/
def start (p : Party) : S := (runs p (setup p) zero).2

/-- the message in the caller's buffer -/
def bytesOf : Res Out → Bytes
  | .ok (.bytes b) => b
  | _ => []

/-- the return code of a call: `none` is `EDHOC_SUCCESS` -/
def code : Res Out → Option (Except UB Err)
  | .ok _ => none
  | .err e => some (.ok e)
  | .ub u => some (.error u)

/-- Both contexts and the last message. -/
structure Flow where
  i : S
  r : S
  last : Bytes
  /-- all calls so far were successful -/
  good : Bool

/-- both contexts after set-up -/
def begins (a b : Party) : Flow := ⟨start a, start b, [], true⟩

/-- a call on the initiator's context -/
def byI (a : Party) (o : Bytes → Op) (f : Flow) : Flow :=
  let x := call a 0 (o f.last) f.i
  ⟨x.2, f.r, bytesOf x.1, f.good && (code x.1).isNone⟩

/-- a call on the responder's context -/
def byR (b : Party) (o : Bytes → Op) (f : Flow) : Flow :=
  let x := call b 0 (o f.last) f.r
  ⟨f.i, x.2, bytesOf x.1, f.good && (code x.1).isNone⟩

/-- the handshake up to a call; the buffers have the sizes used in the tests.
`/repo/tests/unit/coverage/coverage_common.c:350-434`. -/
def c1 (a b : Party) : Flow := byI a (fun _ => .compose1 256) (begins a b)
@[inherit_doc c1] def p1 (a b : Party) : Flow := byR b .process1 (c1 a b)
@[inherit_doc c1] def c2 (a b : Party) : Flow := byR b (fun _ => .compose2 512) (p1 a b)
@[inherit_doc c1] def p2 (a b : Party) : Flow := byI a .process2 (c2 a b)
@[inherit_doc c1] def c3 (a b : Party) : Flow := byI a (fun _ => .compose3 512) (p2 a b)
@[inherit_doc c1] def p3 (a b : Party) : Flow := byR b .process3 (c3 a b)
@[inherit_doc c1] def c4 (a b : Party) : Flow := byR b (fun _ => .compose4 512) (p3 a b)
@[inherit_doc c1] def p4 (a b : Party) : Flow := byI a .process4 (c4 a b)

/-- A sweep: for every failing call from the first to the `n`-th, does the call fail with an error
code? -/
def sweep (p : Party) (o : Op) (s : S) (n : Nat) : List Bool :=
  (List.range n).map fun k => match (call p (k + 1) o s).1 with
    | .err _ => true
    | _ => false

/-- The table of a sweep: the first `m` failure points must make the call fail, the others are
never reached. `/repo/tests/unit/coverage/coverage_sweep.h`. -/
def table (m n : Nat) : List Bool := List.replicate m true ++ List.replicate (n - m) false

/-- the error of a call whose `k`-th callback call fails -/
def errAt (p : Party) (k : Nat) (o : Op) (s : S) : Option Err :=
  match (call p k o s).1 with
  | .err e => some e
  | _ => none

/-- the call succeeds -/
def succeeds (p : Party) (o : Op) (s : S) : Bool := (code (call p 0 o s).1).isNone

end Verif.Conform
