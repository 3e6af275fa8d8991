import Verif.Helpers
import Verif.ErrorMsg

/-!
# Specification: use of the helpers and of the error message
-/

namespace Verif.Spec

open Verif

/-- The application writes its message where the helper told it to, and notes its length. -/
def place (p : Prepended) (pos : Nat) (m : Bytes) : Prepended :=
  { p with buf := p.buf.take pos ++ m ++ p.buf.drop (pos + m.length), msgSize := m.length }

/-- What the peer should learn from an error message: for code 1 the text, for code 2 the suites, nothing otherwise. -/
def errMeaning (code : Nat) : Option ErrArg → ErrOut
  | some ⟨.text b, _, w⟩ => if code = 1 then .text (b.take w) else .nothing
  | some ⟨.suites l, _, w⟩ => if code = 2 then .suites (l.take w) else .nothing
  | _ => .nothing

/-- the number of entries the receiver needs room for -/
def entries : ErrOut → Nat
  | .nothing => 0
  | .text b => b.length
  | .suites l => l.length

/-- What a caller who composes an error message has to give: nothing for codes 0 and 3; for code 1 a text and for code 2 up
to three suites, at least one entry, and no more entries than there is room for. -/
inductive Complete : Int → Option ErrArg → Prop
  | success (info) : Complete 0 info
  | unspecified {b : Bytes} {t w : Nat} : 0 < w → w ≤ t → Complete 1 (some ⟨.text b, t, w⟩)
  | wrongSuite {l : List Int} {t w : Nat} : 0 < w → w ≤ t → w ≤ 3 → Complete 2 (some ⟨.suites l, t, w⟩)
  | unknownCred (info) : Complete 3 info

/-- The caller's buffer, if any, is of the kind its code calls for and as large as `total_entries` says. -/
def BufferOk (code : Int) (info : Option ErrArg) : Prop :=
  (∀ b t w, info = some ⟨.text b, t, w⟩ → code ≠ 2 ∧ t ≤ b.length) ∧
  (∀ l t w, info = some ⟨.suites l, t, w⟩ → code ≠ 1 ∧ t ≤ l.length)

end Verif.Spec
