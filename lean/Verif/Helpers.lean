import Verif.CborSchemas

/-!
# Helpers for connection identifiers and flows

Model of `/repo/helpers/src/edhoc_helpers.c`.
-/

namespace Verif

/-- `edhoc_connection_id_equal`. `/repo/helpers/src/edhoc_helpers.c:55-77`. -/
def cidEqual : Cid → Cid → Bool
  | .int a, .int b => a == b
  | .bstr a, .bstr b => a.length == b.length && a == b
  | _, _ => false

/-- `struct edhoc_prepended_fields`: the buffer contents, the position of the EDHOC message in it
(`none`: NULL) and its size. `buffer_size` is the length of `buf`; after
`edhoc_prepend_recalculate_size` it is smaller than the real buffer, which the model drops.
`/repo/helpers/include/edhoc_helpers.h`. -/
structure Prepended where
  buf : Bytes
  pos : Option Nat
  msgSize : Nat
  deriving DecidableEq, Repr

/-- overwrite the start of a buffer -/
def writeAt0 (buf new : Bytes) : Bytes := new ++ buf.drop new.length

/-- `edhoc_prepend_flow`. `/repo/helpers/src/edhoc_helpers.c:81-104`. -/
def prependFlow (p : Prepended) : Res Prepended :=
  if p.buf.length < 1 then .err .bufferTooSmall
  else .ok ⟨writeAt0 p.buf [0xF5], some 1, p.buf.length - 1⟩

/-- `(uint8_t)v` -/
def byteOf (v : Int) : UInt8 := UInt8.ofNat (v % 256).toNat

/-- `edhoc_prepend_connection_id`. `/repo/helpers/src/edhoc_helpers.c:106-174`. -/
def prependCid (maxCid : Nat) (p : Prepended) (c : Cid) : Res Prepended :=
  if p.buf.length = 0 then .err .bufferTooSmall
  else
    match c with
    | .int v => .ok ⟨writeAt0 p.buf [byteOf v], some 1, p.buf.length - 1⟩
    | .bstr b =>
      if b.length = 0 ∨ maxCid < b.length then .err .invalidArgument
      else
        match (encCid (.bstr b)).bind (fits p.buf.length) with
        | none => .err .cbor
        | some e => .ok ⟨writeAt0 p.buf e, some e.length, p.buf.length - e.length⟩

/-- `edhoc_prepend_recalculate_size`. `/repo/helpers/src/edhoc_helpers.c:176-227`. -/
def prependResize (p : Prepended) : Res Prepended :=
  match p.pos with
  | none => .err .invalidArgument
  | some pos =>
    if p.buf.length = 0 ∨ p.msgSize = 0 then .err .invalidArgument
    else if p.buf.length < pos then .err .invalidArgument
    else if p.buf.length < pos + p.msgSize then .err .bufferTooSmall
    else .ok { p with buf := p.buf.take (pos + p.msgSize) }

/-- Result of `edhoc_extract_flow_info`: forward, reverse, EDHOC message (`none`: NULL). -/
structure Flow where
  forward : Bool
  reverse : Bool
  msg : Option Bytes
  deriving DecidableEq, Repr

/-- `edhoc_extract_flow_info`. `/repo/helpers/src/edhoc_helpers.c:229-260`. `none`: no buffer and size 0. -/
def extractFlow : Option Bytes → Flow
  | none => ⟨false, true, none⟩
  | some b =>
    if 1 < b.length ∧ b.head? = some 0xF5 then ⟨true, false, some (b.drop 1)⟩
    else ⟨false, false, none⟩

/-- `(int8_t)b` -/
def int8Of (b : UInt8) : Int := if b.toNat < 128 then b.toNat else (b.toNat : Int) - 256

/-- `edhoc_extract_connection_id`: connection identifier and the rest of the buffer.
`/repo/helpers/src/edhoc_helpers.c:262-321`. An integer is taken to be the first byte of its encoding. -/
def extractCid (d : DecCfg) (maxCid : Nat) (buf : Bytes) : Res (Cid × Bytes) :=
  match buf with
  | [] => .err .invalidArgument
  | b0 :: _ =>
    match getCid d buf with
    | none => .err .cbor
    | some (.int _, r) => .ok (.int (int8Of b0), r)
    | some (.bstr b, r) => if maxCid < b.length then .err .bufferTooSmall else .ok (.bstr b, r)

end Verif
