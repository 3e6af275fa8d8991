import Verif.CborSchemas

/-!
# Error message

Model of `/repo/library/edhoc_message_error.c`. These functions have no context.
-/

namespace Verif

/-- The caller's buffer in `struct edhoc_error_info`: which pointer of the union is meant, and what
it points to. `/repo/include/edhoc_context.h:224-236`. -/
inductive ErrBuf
  | null
  | text (b : Bytes)
  | suites (l : List Int)
  deriving DecidableEq, Repr

/-- `struct edhoc_error_info` as an input. -/
structure ErrArg where
  buf : ErrBuf
  total : Nat
  written : Nat
  deriving DecidableEq, Repr

/-- ERR_INFO of a message to be composed. `/repo/library/edhoc_message_error.c:72-148`. `none` as argument is a
NULL pointer. A buffer of the wrong kind for the code, or one that is shorter than announced, is
a mistake of the caller and counts as undefined. -/
def errInfoOf (code : Int) (info : Option ErrArg) : Res (Option ErrInfo) :=
  if code = 0 then .ok none
  else if code = 3 then .ok (some .true_)
  else
    match info with
    | none => .err .invalidArgument
    | some a =>
      if a.buf = .null ∨ a.total = 0 ∨ a.written = 0 ∨ a.total < a.written then .err .invalidArgument
      else if code = 1 then
        match a.buf with
        | .text b => if b.length < a.written then .ub .oob else .ok (some (.text (b.take a.written)))
        | _ => .ub .oob
      else
        match a.buf with
        | .suites l =>
          if l.length < a.written then .ub .oob
          else if a.written = 1 then .ok (some (.suites (.one (l.headD 0))))
          else if 3 < a.written then .err .bufferTooSmall
          else .ok (some (.suites (.list (l.take a.written))))
        | _ => .ub .oob

/-- `edhoc_message_error_compose`. `/repo/library/edhoc_message_error.c:52-163`. -/
def errorCompose (size : Nat) (code : Int) (info : Option ErrArg) : Res Bytes := do
  Res.require (size != 0) .invalidArgument
  Res.require (decide (0 ≤ code) && decide (code ≤ 3)) .badState
  let i ← errInfoOf code info
  Res.ofOption .cbor ((encErrMsg code i).bind (fits size))

/-- What `edhoc_message_error_process` writes for the caller: the text or the suites (their number is
`written_entries`), or nothing. -/
inductive ErrOut
  | nothing
  | text (b : Bytes)
  | suites (l : List Int)
  deriving DecidableEq, Repr

/-- Text of a received error message. `/repo/library/edhoc_message_error.c:192-219`. ERR_INFO is read as a text
string without looking at which member of the union was decoded. For anything but a text the
string length read is 0, except for a list of three suites: there (64-bit little-endian layout of
`struct suites_r`) the third suite is taken for the length and the first two for the address of the
text. -/
def errText (total : Nat) : Option ErrInfo → Res ErrOut
  | none => .ok .nothing
  | some (.text t) => if total < t.length then .err .bufferTooSmall else .ok (.text t)
  | some (.suites (.list l)) =>
    let len := ((l.getD 2 0) % 4294967296).toNat
    if total < len then .err .bufferTooSmall
    else if len = 0 then .ok (.text [])
    else .ub .oob
  | some _ => .ok (.text [])

/-- Suites of a received error message. `/repo/library/edhoc_message_error.c:221-264`. For a text or `true` the
union member that is read holds an empty list. -/
def errSuites (total : Nat) : Option ErrInfo → Res ErrOut
  | none => .ok .nothing
  | some (.suites (.one v)) => .ok (.suites [v])
  | some (.suites (.list l)) => if total < l.length then .err .bufferTooSmall else .ok (.suites l)
  | some _ => .ok (.suites [])

/-- `edhoc_message_error_process`. `/repo/library/edhoc_message_error.c:165-278`. `total`: number of entries of the
caller's buffer, 0 when there is none. The first component is the error code written for the
caller (also when the result is a failure). -/
def errorProcess (d : DecCfg) (msg : Bytes) (total : Nat) : Option Nat × Res ErrOut :=
  if msg.length = 0 then (none, .err .invalidArgument)
  else
    match getErrMsg d msg with
    | none => (none, .err .cbor)
    | some (code, i) =>
      if code = 0 then (some 0, .ok .nothing)
      else if code = 1 then (some 1, if total = 0 then .ok .nothing else errText total i)
      else if code = 2 then (some 2, if total = 0 then .ok .nothing else errSuites total i)
      else if code = 3 then (some 3, .ok .nothing)
      else (none, .err .notPermitted)

end Verif
