import Verif.LogBackend

/-!
# Specification: what a log may contain
-/

namespace Verif.Spec

open Verif Logging

/-- a printable ASCII character -/
def Printable (c : Char) : Prop := 32 ≤ c.toNat ∧ c.toNat ≤ 126

/-- no control characters, so that neither lines nor terminal commands can be forged -/
def OneLine (l : List Char) : Prop := ∀ c ∈ l, Printable c

/-- printable characters and line ends -/
def Lines (l : List Char) : Prop := ∀ c ∈ l, Printable c ∨ c = '\n'

/-- `vals` are values of the arguments of the statement: one for each argument, and in the range of its type -/
def Fits : CType → Int → Prop
  | .size, v => 0 ≤ v ∧ v < 2 ^ 64
  | .int8, v => -128 ≤ v ∧ v < 128
  | _, v => -2 ^ 31 ≤ v ∧ v < 2 ^ 31

def ArgValues : Stmt → List Int → Prop
  | .print _ _ _ a, vals => a.length = vals.length ∧ ∀ p ∈ (a.map Prod.fst).zip vals, Fits p.1 p.2
  | .dump .., _ => True

/-- the pointer of a hex dump is null, or points to at least `length` bytes -/
def Readable (data : Option (List UInt8)) (length : Nat) : Prop := ∀ d, data = some d → length ≤ d.length

/-- Reading a hex dump: the bytes shown in the columns of a row (35 blanks, 16 cells of three characters with a blank after the
eighth, the text between bars). -/
def unhex (c : Char) : Nat := if c.toNat < 58 then c.toNat - 48 else c.toNat - 87

/-- read up to `k` cells -/
def readCells : Nat → List Char → List UInt8
  | 0, _ => []
  | k + 1, a :: b :: _ :: l =>
    if a = ' ' then [] else UInt8.ofNat (16 * unhex a + unhex b) :: readCells k (if k = 8 then l.drop 1 else l)
  | _ + 1, _ => []

/-- read the row a dump begins with -/
def readRow (l : List Char) : List UInt8 := readCells 16 (l.drop 35)

/-- read a dump of rows -/
def readDump : Nat → List Char → List UInt8
  | 0, _ => []
  | k + 1, l => if l = [] then [] else
      let r := readRow l
      r ++ readDump k (l.drop (87 + r.length))

/-- the arguments of a statement as they stand in the source -/
def _root_.Verif.Logging.Stmt.arguments : Stmt → List String
  | .print _ _ _ a => a.map Prod.snd
  | .dump _ _ _ p n => [p, n]

/-- Text of a C expression without effects: no assignment, no increment or decrement, and no call. `w` is the word before the
current character, in reverse. A parenthesis is allowed at the beginning (a cast) and after `sizeof` and two macros that
compute sizes. -/
def quietText : List Char → List Char → Bool
  | _, [] => true
  | _, '+' :: '+' :: _ => false
  | _, '-' :: '-' :: _ => false
  | w, c :: l =>
    c != '=' &&
    (c != '(' || w.isEmpty || w == "sizeof".toList.reverse || w == "ARRAY_SIZE".toList.reverse ||
      w == "EDHOC_MEM_ALLOC_SIZE".toList.reverse) &&
    quietText (if c.isAlphanum || c == '_' then (if w == ['?'] then [c] else c :: w) else ['?']) l

def NoEffect (s : String) : Bool := quietText [] s.toList

end Verif.Spec
