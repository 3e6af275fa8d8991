import Verif.Types

/-!
# The log backend

Model of the hosted backend in `/repo/backends/log/include/edhoc_backend_log.h`. On Zephyr the macros are those of the
operating system, which is not modelled.
-/

namespace Verif.Logging

/-- severity of a log statement: the macros `EDHOC_LOG_ERR`, `_WRN`, `_INF`, `_DBG` -/
inductive Sev | err | wrn | inf | dbg
  deriving DecidableEq, Repr

/-- `/repo/backends/log/include/edhoc_backend_log.h:48-57` -/
def Sev.level : Sev → Nat
  | .err => 1
  | .wrn => 2
  | .inf => 3
  | .dbg => 4

/-- types of the arguments of log statements -/
inductive CType | int | int32 | int8 | enum | size
  deriving DecidableEq, Repr

/-- A use of a macro: `EDHOC_LOG_x(format, arguments)`, or `EDHOC_LOG_HEXDUMP_x(data, length, text)`. -/
inductive Stmt
  | print (line : Nat) (sev : Sev) (format : String) (args : List (CType × String))
  | dump (line : Nat) (sev : Sev) (text data length : String)

def Stmt.sev : Stmt → Sev
  | .print _ s _ _ => s
  | .dump _ s _ _ _ => s

/-- compile-time gating, `/repo/backends/log/include/edhoc_backend_log.h:338-377`: is the statement compiled in? -/
def enabled (level : Nat) (s : Sev) : Bool := !decide (level < s.level)

/-! ## Formatted output -/

/-- decimal digits of a natural number -/
def decNat (n : Nat) : List Char := Nat.toDigits 10 n

/-- `%d` -/
def decInt (v : Int) : List Char := if v < 0 then '-' :: decNat v.natAbs else decNat v.natAbs

/-- `%0wd` -/
def padInt (w : Nat) (v : Int) : List Char :=
  let d := decNat v.natAbs
  if v < 0 then '-' :: (List.replicate (w - 1 - d.length) '0' ++ d) else List.replicate (w - d.length) '0' ++ d

/-- `fprintf` with the conversions that occur. A conversion that does not fit the type of its argument, or has none, is
undefined behaviour (`none`). -/
def printf : List Char → List (CType × Int) → Option (List Char)
  | [], _ => some []
  | '%' :: 'd' :: f, (t, v) :: a => if t = .size then none else (printf f a).map (decInt v ++ ·)
  | '%' :: 'z' :: 'u' :: f, (t, v) :: a => if t = .size then (printf f a).map (decNat v.toNat ++ ·) else none
  | c :: f, a => if c = '%' then none else (printf f a).map (c :: ·)

/-- `edhoc_log_get_timestamp` with a buffer of 32 bytes. `/repo/backends/log/include/edhoc_backend_log.h:183-198`. The remainder
in C has the sign of the dividend. -/
def timestamp (hour min sec usec : Int) : List Char :=
  (['['] ++ padInt 2 (hour.tmod 24) ++ [':'] ++ padInt 2 (min.tmod 60) ++ [':'] ++ padInt 2 (sec.tmod 60) ++ ['.'] ++
    padInt 3 ((usec.tdiv 1000).tmod 1000) ++ [','] ++ padInt 3 ((usec.tmod 1000).tmod 1000) ++ [']']).take 31

/-- colours, `/repo/backends/log/include/edhoc_backend_log.h:164-173` -/
def Sev.color : Sev → List Char
  | .err => "\x1b[31m".toList
  | .wrn => "\x1b[33m".toList
  | .inf => "\x1b[32m".toList
  | .dbg => "\x1b[36m".toList

/-- tags of the severities, `/repo/backends/log/include/edhoc_backend_log.h:200-254` -/
def Sev.tag : Sev → List Char
  | .err => "<err>".toList
  | .wrn => "<wrn>".toList
  | .inf => "<inf>".toList
  | .dbg => "<dbg>".toList

/-- Beginning of every entry: time, tag in colour, name of the library, and for debug messages the function.
`/repo/backends/log/include/edhoc_backend_log.h:200-254, 281-292`. -/
def header (s : Sev) (time func : List Char) : List Char :=
  time ++ [' '] ++ s.color ++ s.tag ++ "\x1b[0m".toList ++ " libedhoc: ".toList ++
    (if s = .dbg then func ++ [':', ' '] else [])

/-- `EDHOC_LOG_ERR` and the like after the header. `/repo/backends/log/include/edhoc_backend_log.h:200-254`. -/
def printBody (format : String) (vals : List (CType × Int)) : Option (List Char) :=
  (printf format.toList vals).map (· ++ ['\n'])

/-! ## Hex dump -/

/-- one digit of `%02x` -/
def hexDigit (n : Nat) : Char := if n < 10 then Char.ofNat (48 + n) else Char.ofNat (87 + n)

/-- `%02x ` -/
def hexCell (b : UInt8) : List Char := [hexDigit (b.toNat / 16), hexDigit (b.toNat % 16), ' ']

/-- a byte in the column with the text -/
def asciiCell (b : UInt8) : Char := if 32 ≤ b.toNat ∧ b.toNat ≤ 126 then Char.ofNat b.toNat else '.'

/-- Columns `j … 15` with hex digits of the row at offset `i`. `/repo/backends/log/include/edhoc_backend_log.h:299-310`. Reading
beyond the object is undefined behaviour. -/
def hexCols (data : List UInt8) (length i : Nat) : (k : Nat) → Option (List Char)
  | 0 => some []
  | k + 1 =>
    let j := 15 - k
    let rest := hexCols data length i k
    let gap := if j = 7 then [' '] else []
    if i + j < length then
      match data[i + j]? with
      | some b => rest.map (hexCell b ++ gap ++ ·)
      | none => none
    else rest.map ([' ', ' ', ' '] ++ gap ++ ·)

/-- Columns `j … 15` with text. `/repo/backends/log/include/edhoc_backend_log.h:312-318`. -/
def asciiCols (data : List UInt8) (length i : Nat) : (k : Nat) → Option (List Char)
  | 0 => some []
  | k + 1 =>
    let j := 15 - k
    if i + j < length then
      match data[i + j]? with
      | some b => (asciiCols data length i k).map (asciiCell b :: ·)
      | none => none
    else some []

/-- A row. `/repo/backends/log/include/edhoc_backend_log.h:295-321`. -/
def hexRow (data : List UInt8) (length i : Nat) : Option (List Char) :=
  (hexCols data length i 16).bind fun h => (asciiCols data length i 16).map fun a =>
    List.replicate 35 ' ' ++ h ++ ['|'] ++ a ++ ['|', '\n']

/-- The rows from offset `i`. `/repo/backends/log/include/edhoc_backend_log.h:295`. The offset is a natural number: no object is
so large that `i += 16` wraps. -/
def hexRows (data : List UInt8) (length i : Nat) : Option (List Char) :=
  if i < length then (hexRow data length i).bind fun r => (hexRows data length (i + 16)).map (r ++ ·) else some []
termination_by length - i

/-- `edhoc_log_hexdump_impl`; `data` is `none` for a null pointer. `/repo/backends/log/include/edhoc_backend_log.h:269-334`. For the
severity `inf` the name of the function is omitted. -/
def dumpAll (s : Sev) (time func : List Char) (data : Option (List UInt8)) (length : Nat) (text : String) : Option (List Char) :=
  match data with
  | none => some []
  | some d =>
    if length = 0 then some []
    else (hexRows d length 0).map fun r => header s time func ++ text.toList ++ ['\n', '\n'] ++ r

/-! ## Statements -/

/-- What a statement writes in a build with this log level. `vals`: values of the arguments of a formatted message; `data`,
`length`: arguments of a hex dump. `none`: undefined behaviour. -/
def emit (level : Nat) (time func : List Char) (st : Stmt) (vals : List Int) (data : Option (List UInt8)) (length : Nat) :
    Option (List Char) :=
  if enabled level st.sev then
    match st with
    | .print _ s f a => (printBody f ((a.map Prod.fst).zip vals)).map (header s time func ++ ·)
    | .dump _ s t _ _ => dumpAll s time func data length t
  else some []

end Verif.Logging
