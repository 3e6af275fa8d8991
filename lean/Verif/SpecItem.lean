import Verif.SpecCbor

/-!
# Specification: a single CBOR data item

RFC 8949, section 3. Strings of indefinite length may have chunks of any kind here, which makes the set larger.
-/

namespace Verif.Spec

open Verif

/-- `b` is one CBOR data item. -/
inductive Item : Bytes → Prop
  /-- an integer, or a simple value or float -/
  | scalar {m a : Nat} {hd : Bytes} : m = 0 ∨ m = 1 ∨ m = 7 → Head m a hd → Item hd
  /-- a byte string or a text string -/
  | string {m : Nat} {hd s : Bytes} : m = 2 ∨ m = 3 → Head m s.length hd → Item (hd ++ s)
  /-- an array -/
  | array {hd : Bytes} {bs : List Bytes} : Head 4 bs.length hd → (∀ b ∈ bs, Item b) → Item (hd ++ bs.flatten)
  /-- a map of `n` entries -/
  | map {n : Nat} {hd : Bytes} {bs : List Bytes} : Head 5 n hd → bs.length = 2 * n → (∀ b ∈ bs, Item b) →
      Item (hd ++ bs.flatten)
  /-- a tagged item -/
  | tag {a : Nat} {hd b : Bytes} : Head 6 a hd → Item b → Item (hd ++ b)
  /-- a string, array or map of indefinite length -/
  | indef {m : Nat} {bs : List Bytes} : 2 ≤ m → m ≤ 5 → (∀ b ∈ bs, Item b) →
      Item (UInt8.ofNat (m * 32 + 31) :: (bs.flatten ++ [0xFF]))

/-- `b` is a CBOR sequence (RFC 8742). -/
def ItemSeq (b : Bytes) : Prop := ∃ bs : List Bytes, (∀ x ∈ bs, Item x) ∧ b = bs.flatten

end Verif.Spec
