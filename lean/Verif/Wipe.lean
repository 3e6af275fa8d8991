/-
A small language for what the C functions leave in their working buffers, and its semantics.

It is the language of Mem.lean with four things added: setting a buffer to zero, the variable `ret` as far as
it matters whether it equals EDHOC_SUCCESS, branches on it, and the value of `return`. See
`WipeSkeleton.lean` for the functions of the library written in it.
-/
import Verif.MemSkeleton

namespace Verif.Wipe

open Verif.Mem (Buf Fn)

/-- What a function returns. -/
inductive Val where
  /-- `return EDHOC_SUCCESS;` -/
  | ok
  /-- `return EDHOC_ERROR_...;` -/
  | err
  /-- `return ret;` -/
  | var
  /-- Anything else, for example a length. -/
  | any
  deriving DecidableEq

/-- Statements. -/
inductive Stm where
  /-- Nothing. -/
  | skip
  /-- `EDHOC_MEM_ALLOC(t, b, n)`: memory that is all zero, or NULL. -/
  | alloc (b : Buf)
  /-- `EDHOC_MEM_FREE(b)`. -/
  | free (b : Buf)
  /-- `memset(b, 0, EDHOC_MEM_ALLOC_SIZEOF(b))`. -/
  | wipe (b : Buf)
  /-- A statement or condition that reads or writes the memory of `b`, or hands it to a function. -/
  | use (b : Buf)
  /-- `if (NULL == b) { s }`. -/
  | ifNull (b : Buf) (s : Stm)
  | seq (s t : Stm)
  /-- Either of the two: a branch on anything else. -/
  | alt (s t : Stm)
  /-- Any number of rounds. -/
  | loop (s : Stm)
  /-- A `switch`: the target of a `break` inside. -/
  | scope (s : Stm)
  /-- `break`. -/
  | brk
  /-- `ret` gets some value. -/
  | set
  /-- Call of a function of the library whose result does not go to `ret`. -/
  | call (f : Fn)
  /-- `ret = f(...)`. -/
  | callRet (f : Fn)
  /-- `if (EDHOC_SUCCESS != ret) { s }`. -/
  | onFail (s : Stm)
  /-- `if (EDHOC_SUCCESS != ret || ...) { s }`. -/
  | onFailOr (s : Stm)
  | ret (v : Val)

/-- Statements one after the other. -/
def seq : List Stm → Stm
  | [] => .skip
  | s :: l => .seq s (seq l)

/-- One of the statements. -/
def alt : List Stm → Stm
  | [] => .skip
  | [s] => s
  | s :: l => .alt s (alt l)

/-- Forget what was added to the language of Mem.lean. -/
def erase : Stm → Mem.Stm Buf Fn
  | .skip => .skip
  | .alloc b => .alloc b
  | .free b => .free b
  | .wipe b => .use b
  | .use b => .use b
  | .ifNull b s => .ifNull b (erase s)
  | .seq .set t => erase t
  | .seq s t => .seq (erase s) (erase t)
  | .alt s t => .alt (erase s) (erase t)
  | .loop s => .loop (erase s)
  | .scope s => .scope (erase s)
  | .brk => .brk
  | .set => .skip
  | .call f => .call f
  | .callRet f => .call f
  | .onFail s => .alt (erase s) .skip
  | .onFailOr s => .alt (erase s) .skip
  | .ret _ => .ret

/-- The state of a running function. -/
structure St where
  /-- Its buffers that are allocated. -/
  live : List Buf
  /-- Those that were accessed since they were allocated or set to zero. Every access counts as one that
  writes. -/
  dirty : List Buf
  /-- The buffers that were dirty when they were released, also by the functions called. -/
  left : List Buf
  /-- `ret` equals EDHOC_SUCCESS. -/
  ok : Bool
  deriving DecidableEq

/-- At the beginning of a function. -/
def St.begin : St := ⟨[], [], [], false⟩

/-- How a statement ends. -/
inductive Out where
  /-- Normally. -/
  | next (σ : St)
  /-- By `break`. -/
  | brk (σ : St)
  /-- By `return`, with or without success, having released these buffers dirty. -/
  | done (ok : Bool) (left : List Buf)

/-- The results a `return` can have. -/
def Val.gives : Val → Bool → Bool → Prop
  | .ok, _, r => r = true
  | .err, _, r => r = false
  | .var, last, r => r = last
  | .any, _, _ => True

/-- A buffer was obtained: it is zero. -/
def St.allocated (σ : St) (b : Buf) : St :=
  { σ with live := b :: σ.live, dirty := σ.dirty.filter (· ≠ b) }

/-- A buffer is released. -/
def St.freed (σ : St) (b : Buf) : St :=
  { σ with
    live := σ.live.filter (· ≠ b)
    dirty := σ.dirty.filter (· ≠ b)
    left := if b ∈ σ.dirty then b :: σ.left else σ.left }

/-- A buffer is set to zero. -/
def St.wiped (σ : St) (b : Buf) : St :=
  { σ with dirty := σ.dirty.filter (· ≠ b) }

/-- A buffer is accessed. -/
def St.used (σ : St) (b : Buf) : St :=
  { σ with dirty := if b ∈ σ.dirty then σ.dirty else b :: σ.dirty }

/-- `Run code s σ o`: statement `s`, begun in `σ`, can end as `o`, for some outcome of the allocations, of
the branches, of the callbacks and of the number of rounds of the loops. (Mem.lean deals with buffers used
while not allocated; C45 says that this never happens.) -/
inductive Run (code : Fn → Stm) : Stm → St → Out → Prop
  | skip : Run code .skip σ (.next σ)
  | allocated : Run code (.alloc b) σ (.next (σ.allocated b))
  | noMemory : Run code (.alloc b) σ (.next σ)
  | free : Run code (.free b) σ (.next (σ.freed b))
  | wipe : Run code (.wipe b) σ (.next (σ.wiped b))
  | use : Run code (.use b) σ (.next (σ.used b))
  | isNull : b ∉ σ.live → Run code s σ o → Run code (.ifNull b s) σ o
  | notNull : b ∈ σ.live → Run code (.ifNull b s) σ (.next σ)
  | seq : Run code s σ (.next τ) → Run code t τ o → Run code (.seq s t) σ o
  | seqEnd : Run code s σ o → (∀ τ, o ≠ .next τ) → Run code (.seq s t) σ o
  | left : Run code s σ o → Run code (.alt s t) σ o
  | right : Run code t σ o → Run code (.alt s t) σ o
  | stop : Run code (.loop s) σ (.next σ)
  | round : Run code s σ (.next τ) → Run code (.loop s) τ o → Run code (.loop s) σ o
  | loopBreak : Run code s σ (.brk τ) → Run code (.loop s) σ (.next τ)
  | loopDone : Run code s σ (.done r X) → Run code (.loop s) σ (.done r X)
  | scope : Run code s σ o → (∀ τ, o ≠ .brk τ) → Run code (.scope s) σ o
  | scopeBreak : Run code s σ (.brk τ) → Run code (.scope s) σ (.next τ)
  | brk : Run code .brk σ (.brk σ)
  | set (r : Bool) : Run code .set σ (.next { σ with ok := r })
  | call : Run code (code f) .begin (.done r X) →
      Run code (.call f) σ (.next { σ with left := X ++ σ.left })
  | callRet : Run code (code f) .begin (.done r X) →
      Run code (.callRet f) σ (.next { σ with left := X ++ σ.left, ok := r })
  | failed : σ.ok = false → Run code s σ o → Run code (.onFail s) σ o
  | passed : σ.ok = true → Run code (.onFail s) σ (.next σ)
  | failedOr : Run code s σ o → Run code (.onFailOr s) σ o
  | passedOr : σ.ok = true → Run code (.onFailOr s) σ (.next σ)
  | ret : v.gives σ.ok r → Run code (.ret v) σ (.done r σ.left)

end Verif.Wipe
