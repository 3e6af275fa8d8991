/-!
# CBOR items

Model of the part of zcbor 0.8.1 that the generated code in `/repo/backends/cbor` uses.
zcbor itself is not in `/repo`; the points of its decoder that are not visible there
(is a non-minimal head rejected, is an indefinite-length container accepted) are parameters, and so is
what a failed decoder leaves behind in its output.
-/

namespace Verif

/-- Byte strings. -/
abbrev Bytes := List UInt8

/-- What the model leaves open about the zcbor decoder.
* `strict`: non-minimal heads are rejected.
* `indef`: indefinite-length lists and maps are accepted.
* `junk`: the value a failed `int32` decode leaves behind in its output variable
  (zcbor may write a raw value before it reports the failure).
* `early`: a failed byte string decode leaves the announced length behind in its output (zcbor
  writes the length before it compares it with the input). -/
structure DecCfg where
  strict : Bool
  indef : Bool
  junk : Bytes → Int
  early : Bool

/-- `k` big-endian bytes of `v` (modulo `256 ^ k`). -/
def beBytes : Nat → Nat → Bytes
  | 0, _ => []
  | k + 1, v => UInt8.ofNat (v / 256 ^ k) :: beBytes k v

/-- The number with the given big-endian bytes. -/
def beNat : Bytes → Nat
  | [] => 0
  | b :: r => b.toNat * 256 ^ r.length + beNat r

/-- Minimal CBOR head (RFC 8949 section 3): major type `m`, argument `a`.
zcbor encodes every integer, string and container head this way. -/
def head (m a : Nat) : Bytes :=
  if a ≤ 23 then [UInt8.ofNat (m * 32 + a)]
  else if a < 256 then UInt8.ofNat (m * 32 + 24) :: beBytes 1 a
  else if a < 65536 then UInt8.ofNat (m * 32 + 25) :: beBytes 2 a
  else if a < 4294967296 then UInt8.ofNat (m * 32 + 26) :: beBytes 4 a
  else UInt8.ofNat (m * 32 + 27) :: beBytes 8 a

/-- Smallest argument for which a head with `k` argument bytes is minimal. -/
def minArg (k : Nat) : Nat :=
  if k = 1 then 24 else if k = 2 then 256 else if k = 4 then 65536 else 4294967296

/-- Decode a head with at most `maxLen` argument bytes (4 for `int32_t`/`uint32_t`, 8 for `size_t`):
major type, argument, remaining input. -/
def getHead (strict : Bool) (maxLen : Nat) : Bytes → Option (Nat × Nat × Bytes)
  | [] => none
  | b :: r =>
    let m := b.toNat / 32
    let ai := b.toNat % 32
    if ai ≤ 23 then some (m, ai, r)
    else if 27 < ai then none
    else
      let k := 2 ^ (ai - 24)
      if maxLen < k then none
      else if r.length < k then none
      else
        let v := beNat (r.take k)
        if strict && decide (v < minArg k) then none
        else some (m, v, r.drop k)

/-- `zcbor_int32_encode`. -/
def encInt (v : Int) : Bytes :=
  if 0 ≤ v then head 0 v.toNat else head 1 (-1 - v).toNat

/-- `zcbor_bstr_encode`. -/
def encBstr (b : Bytes) : Bytes := head 2 b.length ++ b

/-- `zcbor_tstr_encode` (text is kept as bytes; zcbor does not check UTF-8). -/
def encTstr (b : Bytes) : Bytes := head 3 b.length ++ b

/-- Head of a definite-length list of `n` elements. -/
def encListHead (n : Nat) : Bytes := head 4 n

/-- Head of a definite-length map with `n` entries. -/
def encMapHead (n : Nat) : Bytes := head 5 n

/-- `zcbor_int32_decode`. -/
def getInt (d : DecCfg) (bs : Bytes) : Option (Int × Bytes) :=
  match getHead d.strict 4 bs with
  | some (m, a, r) =>
    if 2147483647 < a then none
    else if m = 0 then some ((a : Int), r)
    else if m = 1 then some (-1 - (a : Int), r)
    else none
  | none => none

/-- Does an integer begin here? If not, a failed `zcbor_int32_decode` leaves nothing behind. -/
def startsInt : Bytes → Bool
  | [] => false
  | b :: _ => decide (b.toNat / 32 ≤ 1)

/-- `zcbor_bstr_decode` (`m = 2`) and `zcbor_tstr_decode` (`m = 3`). -/
def getStr (d : DecCfg) (m : Nat) (bs : Bytes) : Option (Bytes × Bytes) :=
  match getHead d.strict 8 bs with
  | some (m', a, r) =>
    if m' = m ∧ a ≤ r.length then some (r.take a, r.drop a) else none
  | none => none

/-- `zcbor_bstr_decode`. -/
def getBstr (d : DecCfg) (bs : Bytes) : Option (Bytes × Bytes) := getStr d 2 bs

/-- The length a failed `zcbor_bstr_decode` leaves behind: that many bytes are not there (the string is
cut off, or its pointer was not set because the head is not minimal). 0: nothing was written. -/
def stale (d : DecCfg) (bs : Bytes) : Nat :=
  match getBstr d bs with
  | some _ => 0
  | none =>
    if d.early then
      match getHead false 8 bs with
      | some (m, a, _) => if m = 2 then a else 0
      | none => 0
    else 0

/-- `zcbor_tstr_decode`. -/
def getTstr (d : DecCfg) (bs : Bytes) : Option (Bytes × Bytes) := getStr d 3 bs

/-- `zcbor_uint32_expect`. -/
def expectUint (d : DecCfg) (v : Nat) (bs : Bytes) : Option Bytes :=
  match getHead d.strict 4 bs with
  | some (m, a, r) => if m = 0 ∧ a = v then some r else none
  | none => none

/-- `zcbor_bool_expect (true)`. -/
def expectTrue : Bytes → Option Bytes
  | b :: r => if b = 0xF5 then some r else none
  | [] => none

/-- `zcbor_list_start_decode` (`m = 4`) and `zcbor_map_start_decode` (`m = 5`).
`some n`: definite length `n`; `none`: indefinite length. -/
def getContainer (d : DecCfg) (m : Nat) : Bytes → Option (Option Nat × Bytes)
  | [] => none
  | b :: r =>
    if b.toNat = m * 32 + 31 then
      if d.indef then some (none, r) else none
    else
      match getHead d.strict 8 (b :: r) with
      | some (m', a, r') => if m' = m then some (some a, r') else none
      | none => none

/-- `zcbor_list_end_decode` / `zcbor_map_end_decode`: a definite container must have no element
left, an indefinite one must be followed by the break byte. -/
def endContainer : Option Nat → Bytes → Option Bytes
  | some 0, bs => some bs
  | some (_ + 1), _ => none
  | none, b :: r => if b = 0xFF then some r else none
  | none, [] => none

/-- Number of container elements left after one was read. -/
def useElem : Option Nat → Option (Option Nat)
  | some 0 => none
  | some (n + 1) => some (some n)
  | none => some none

/-- `zcbor_multi_decode (_, fuel, ...)` inside a container: as many elements as possible, at most `fuel`.
Stops without consuming at the first element that does not decode. -/
def getElems {α : Type} (p : Bytes → Option (α × Bytes)) :
    Nat → Option Nat → Bytes → List α × Option Nat × Bytes
  | 0, n, bs => ([], n, bs)
  | fuel + 1, n, bs =>
    match useElem n with
    | none => ([], n, bs)
    | some n' =>
      match p bs with
      | none => ([], n, bs)
      | some (a, bs') =>
        let r := getElems p fuel n' bs'
        (a :: r.1, r.2)

/-- `zcbor_multi_decode` outside of a container (the element budget of the entry function never
binds there: it is the largest number of items in the schema). -/
def getMany {α : Type} (p : Bytes → Option (α × Bytes)) : Nat → Bytes → List α × Bytes
  | 0, bs => ([], bs)
  | fuel + 1, bs =>
    match p bs with
    | none => ([], bs)
    | some (a, bs') =>
      let r := getMany p fuel bs'
      (a :: r.1, r.2)

/-- Writing an encoding into a buffer of `cap` bytes: zcbor fails without success code when the
encoding does not fit. -/
def fits (cap : Nat) (bs : Bytes) : Option Bytes :=
  if bs.length ≤ cap then some bs else none

end Verif
