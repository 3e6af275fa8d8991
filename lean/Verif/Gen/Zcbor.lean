import Verif.Cbor

/-!
# The zcbor runtime

State and functions of zcbor 0.8.1 that the generated code in `/repo/backends/cbor/src` calls. zcbor is not in `/repo`
(`/repo/externals/zcbor` is an empty submodule); this file is written from its documented behaviour and is part of the trusted
base. Items are read and written by the functions in `Cbor`; here are the element counts, the backups, and what
functions leave behind when they fail.
-/

namespace Verif.Gen

/-- The parts of `zcbor_state_t` that change: the input that is left, the number of elements that may still be
read, and whether the innermost container is of indefinite length. -/
structure Frame where
  payload : Bytes
  elems : Nat
  indef : Bool
  deriving DecidableEq, Repr

/-- `zcbor_state_t` with its `constant_state`: the current values, the list of backups (the newest first) and the
number of backups there is room for. -/
structure State where
  cur : Frame
  baks : List Frame
  room : Nat
  deriving DecidableEq, Repr

/-- `ZCBOR_MAX_ELEM_COUNT` where `size_t` has 64 bits. -/
def maxElems : Nat := 2 ^ 64 - 1

/-- `ZCBOR_LARGE_ELEM_COUNT`: the element count of a container of indefinite length. -/
def largeElems : Nat := maxElems - 15

/-- A generated decoder: reads from the state, writes into a C structure, succeeds or fails. What it writes before it
fails stays. -/
def Dec (ρ : Type) := State → ρ → Bool × State × ρ

/-- `f && g` -/
def Dec.and {ρ : Type} (f g : Dec ρ) : Dec ρ := fun s r =>
  match f s r with
  | (true, s', r') => g s' r'
  | (false, s', r') => (false, s', r')

/-- `f || g` -/
def Dec.or {ρ : Type} (f g : Dec ρ) : Dec ρ := fun s r =>
  match f s r with
  | (true, s', r') => (true, s', r')
  | (false, s', r') => g s' r'

/-- `(field = value), true` -/
def assign {ρ : Type} (f : ρ → ρ) : Dec ρ := fun s r => (true, s, f r)

/-- `condition || (zcbor_error(...), false)` -/
def check {ρ : Type} (p : ρ → Bool) : Dec ρ := fun s r => (p r, s, r)

/-- A call with the address of a part of the structure. -/
def Dec.into {α ρ : Type} (f : Dec α) (get : ρ → α) (put : α → ρ → ρ) : Dec ρ := fun s r =>
  match f s (get r) with
  | (b, s', a) => (b, s', put a r)

/-- `(flag = f), 1` -/
def Dec.noting {ρ : Type} (f : Dec ρ) (put : Bool → ρ → ρ) : Dec ρ := fun s r =>
  match f s r with
  | (b, s', r') => (true, s', put b r')

/-- One element was read. -/
def State.eat (s : State) (rest : Bytes) : State :=
  { s with cur := { s.cur with payload := rest, elems := s.cur.elems - 1 } }

/-! ## Items -/

/-- `zcbor_int32_decode`. On failure the variable may have been written to, but not if the item is of another type. -/
def int32 (d : DecCfg) : Dec Int := fun s r =>
  if s.cur.elems = 0 then (false, s, r)
  else
    match getInt d s.cur.payload with
    | some (v, rest) => (true, s.eat rest, v)
    | none => (false, s, if startsInt s.cur.payload then d.junk s.cur.payload else r)

/-- `struct zcbor_string`: a length and a pointer (`none`: not set; `some b`: to the bytes `b`). -/
structure ZStr where
  len : Nat
  ptr : Option Bytes
  deriving DecidableEq, Repr

/-- `zcbor_bstr_decode` (`m = 2`), `zcbor_tstr_decode` (`m = 3`). The length may be written before it is compared with the
input, the pointer is not. -/
def str (d : DecCfg) (m : Nat) : Dec ZStr := fun s r =>
  if s.cur.elems = 0 then (false, s, r)
  else
    match getStr d m s.cur.payload with
    | some (b, rest) => (true, s.eat rest, ⟨b.length, some b⟩)
    | none =>
      (false, s,
        if d.early then
          match getHead false 8 s.cur.payload with
          | some (m', a, _) => if m' = m then { r with len := a } else r
          | none => r
        else r)

/-- `zcbor_uint32_expect` -/
def uint32Expect {ρ : Type} (d : DecCfg) (v : Nat) : Dec ρ := fun s r =>
  if s.cur.elems = 0 then (false, s, r)
  else
    match expectUint d v s.cur.payload with
    | some rest => (true, s.eat rest, r)
    | none => (false, s, r)

/-- `zcbor_bool_expect(state, true)` -/
def trueExpect {ρ : Type} : Dec ρ := fun s r =>
  if s.cur.elems = 0 then (false, s, r)
  else
    match expectTrue s.cur.payload with
    | some rest => (true, s.eat rest, r)
    | none => (false, s, r)

/-! ## Backups -/

/-- `zcbor_new_backup` -/
def State.newBackup (s : State) (n : Nat) : Option State :=
  if s.room ≤ s.baks.length then none
  else some { s with cur := { s.cur with elems := n }, baks := s.cur :: s.baks }

/-- `zcbor_process_backup`. The backup is restored and removed also when there are too many elements left. -/
def State.process (s : State) (restore consume keep : Bool) (most : Nat) : Bool × State :=
  match s.baks with
  | [] => (false, s)
  | top :: more =>
    let s' : State := { s with cur := if restore then top else s.cur, baks := if consume then more else top :: more }
    if most < s.cur.elems then (false, s')
    else (true, if keep then { s' with cur := { s'.cur with payload := s.cur.payload } } else s')

/-- a function of the runtime as part of a generated decoder -/
def lift {ρ : Type} (f : State → Bool × State) : Dec ρ := fun s r => ((f s).1, (f s).2, r)

/-- `zcbor_union_start_code` -/
def unionStart {ρ : Type} : Dec ρ :=
  lift fun s => match s.newBackup s.cur.elems with
    | some s' => (true, s')
    | none => (false, s)

/-- `zcbor_union_elem_code` -/
def unionElem {ρ : Type} : Dec ρ := lift fun s => s.process true false false s.cur.elems

/-- `(int_res = f, zcbor_union_end_code(state), int_res)` -/
def Dec.unionEnd {ρ : Type} (f : Dec ρ) : Dec ρ := fun s r =>
  match f s r with
  | (b, s', r') => (b, (s'.process false true false s'.cur.elems).2, r')

/-- `list_map_start_decode` in zcbor: `zcbor_list_start_decode` (`m = 4`). -/
def containerStart {ρ : Type} (d : DecCfg) (m : Nat) : Dec ρ :=
  lift fun s =>
    if s.cur.elems = 0 then (false, s)
    else
      match getContainer d m s.cur.payload with
      | none => (false, s)
      | some (n, rest) =>
        match (s.eat rest).newBackup (n.getD largeElems) with
        | none => (false, s)
        | some s' => (true, { s' with cur := { s'.cur with indef := n.isNone } })

/-- `zcbor_list_start_decode` -/
def listStart {ρ : Type} (d : DecCfg) : Dec ρ := containerStart d 4

/-- `zcbor_map_start_decode`: every entry counts for two elements. If that is too large a number, the input is given back
but the backup is not removed. -/
def mapStart {ρ : Type} (d : DecCfg) : Dec ρ := fun s r =>
  match containerStart d 5 s r with
  | (true, s', r') =>
    if s'.cur.indef then (true, s', r')
    else if maxElems / 2 ≤ s'.cur.elems then
      (false, { s' with cur := { s'.cur with payload := s.cur.payload, elems := s'.cur.elems + 1 } }, r')
    else (true, { s' with cur := { s'.cur with elems := s'.cur.elems * 2 } }, r')
  | x => x

/-- `zcbor_list_end_decode`, `zcbor_map_end_decode`. Without the end of an indefinite container the backup is not
removed. -/
def containerEnd {ρ : Type} : Dec ρ :=
  lift fun s =>
    if s.cur.indef then
      match s.cur.payload with
      | b :: rest =>
        if b = 0xFF then { s with cur := { s.cur with payload := rest } }.process true true true largeElems else (false, s)
      | [] => (false, s)
    else s.process true true true 0

/-- `f || (zcbor_list_map_end_force_decode(state), false)` -/
def Dec.orForce {ρ : Type} (f : Dec ρ) : Dec ρ := fun s r =>
  match f s r with
  | (true, s', r') => (true, s', r')
  | (false, s', r') => (false, (s'.process true true false maxElems).2, r')

/-! ## Repetition -/

/-- The loop of `zcbor_multi_decode`: element `i` and up to `fuel` in all. The first one that does not decode gives its
input and its elements back, but nothing else. -/
def multiGo {α : Type} (f : Dec α) (zero : α) : Nat → Nat → State → List α → Nat × State × List α
  | 0, i, s, a => (i, s, a)
  | fuel + 1, i, s, a =>
    match f s (a.getD i zero) with
    | (true, s', x) => multiGo f zero fuel (i + 1) s' (a.set i x)
    | (false, s', x) =>
      (i, { s' with cur := { s'.cur with payload := s.cur.payload, elems := s.cur.elems } }, a.set i x)

/-- `zcbor_multi_decode(least, most, &count, f, state, &array, ...)` -/
def multi {α : Type} (f : Dec α) (zero : α) (least most : Nat) : Dec (List α × Nat) := fun s r =>
  match multiGo f zero most 0 s r.1 with
  | (n, s', a) => (decide (least ≤ n), s', (a, n))

/-- `zcbor_present_decode(&flag, f, state, &result)` -/
def present {α : Type} (f : Dec α) (zero : α) : Dec (Bool × α) := fun s r =>
  match multiGo f zero 1 0 s [r.2] with
  | (n, s', a) => (true, s', (decide (n ≠ 0), a.getD 0 zero))

/-- `zcbor_entry_function` with `states` state structures and `elems` elements: one of the structures is in use, one holds the
constant state, the others are backups. `rest` is the input that was not read. -/
def entry {ρ : Type} (f : Dec ρ) (states elems : Nat) (r : ρ) (bs : Bytes) : Bool × Bytes × ρ :=
  match f ⟨⟨bs, elems, false⟩, [], states - 2⟩ r with
  | (b, s, r') => (b, s.cur.payload, r')

end Verif.Gen
