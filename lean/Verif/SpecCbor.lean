import Verif.CborSchemas

/-!
# Specification: what a received byte string says

The CBOR grammar (RFC 8949) and the message grammar (RFC 9528) as relations between values and byte strings. They say
nothing about how a decoder works. Heads need not be minimal and containers may have indefinite length; a decoder
that insists on the preferred serialisation accepts less.
-/

namespace Verif.Spec

open Verif

/-- A CBOR head with major type `m` and argument `a`: the argument is in the initial byte, or follows in 1, 2, 4 or 8
bytes. -/
inductive Head (m a : Nat) : Bytes → Prop
  | short : a < 24 → Head m a [UInt8.ofNat (m * 32 + a)]
  | long (k : Nat) : k < 4 → a < 256 ^ 2 ^ k → Head m a (UInt8.ofNat (m * 32 + 24 + k) :: beBytes (2 ^ k) a)

/-- an integer -/
def IntItem (v : Int) (b : Bytes) : Prop :=
  (0 ≤ v ∧ Head 0 v.toNat b) ∨ (v < 0 ∧ Head 1 (-1 - v).toNat b)

/-- a byte string -/
def BstrItem (s b : Bytes) : Prop := ∃ hd, Head 2 s.length hd ∧ b = hd ++ s

/-- a text string -/
def TstrItem (s b : Bytes) : Prop := ∃ hd, Head 3 s.length hd ∧ b = hd ++ s

/-- a container (array: `m = 4`) with the given encoded elements -/
def Container (m : Nat) (elems : List Bytes) (b : Bytes) : Prop :=
  (∃ hd, Head m elems.length hd ∧ b = hd ++ elems.flatten) ∨
    b = UInt8.ofNat (m * 32 + 31) :: (elems.flatten ++ [0xFF])

/-- a map with the given entries (key and value encodings) -/
def MapItem (entries : List (Bytes × Bytes)) (b : Bytes) : Prop :=
  (∃ hd, Head 5 entries.length hd ∧ b = hd ++ (entries.map fun p => p.1 ++ p.2).flatten) ∨
    b = 0xBF :: ((entries.map fun p => p.1 ++ p.2).flatten ++ [0xFF])

/-- every element of `l` is encoded by the corresponding element of `bs` -/
inductive Each {α : Type} (R : α → Bytes → Prop) : List α → List Bytes → Prop
  | nil : Each R [] []
  | cons {a : α} {b : Bytes} {l : List α} {bs : List Bytes} : R a b → Each R l bs → Each R (a :: l) (b :: bs)

/-- an array of items -/
def ArrayOf {α : Type} (R : α → Bytes → Prop) (l : List α) (b : Bytes) : Prop :=
  ∃ bs, Each R l bs ∧ Container 4 bs b

/-- a sequence of items -/
def SeqOf {α : Type} (R : α → Bytes → Prop) (l : List α) (b : Bytes) : Prop := ∃ bs, Each R l bs ∧ b = bs.flatten

/-- a connection identifier: -24..23 or a byte string -/
def CidItem : Cid → Bytes → Prop
  | .int v, b => -24 ≤ v ∧ v ≤ 23 ∧ IntItem v b
  | .bstr s, b => BstrItem s b

/-- SUITES_I: one suite, or an array of at least two -/
def SuitesItem : Suites → Bytes → Prop
  | .one v, b => IntItem v b
  | .list l, b => 2 ≤ l.length ∧ ArrayOf IntItem l b

/-- one EAD item: label and optional value -/
def EadItem (t : EadTok) (b : Bytes) : Prop :=
  ∃ x y, IntItem t.label x ∧ b = x ++ y ∧ match t.value with
    | some v => BstrItem v y
    | none => y = []

/-- message_1 = ( METHOD, SUITES_I, G_X, C_I, ? EAD_1 ) -/
def Message1 (m : Msg1) (b : Bytes) : Prop :=
  ∃ me su gx ci ea, IntItem m.method me ∧ SuitesItem m.suites su ∧ BstrItem m.gx gx ∧ CidItem m.ci ci ∧
    SeqOf EadItem m.ead ea ∧ b = me ++ su ++ gx ++ ci ++ ea

/-- integer or byte string; integer or text string -/
def KidItem : IntOrBytes → Bytes → Prop
  | .int v, b => IntItem v b
  | .bstr s, b => BstrItem s b

@[inherit_doc KidItem] def AlgItem : IntOrBytes → Bytes → Prop
  | .int v, b => IntItem v b
  | .bstr s, b => TstrItem s b

/-- x5chain: a certificate, or an array of at least two -/
def ChainItem : X5chain → Bytes → Prop
  | .one c, b => BstrItem c b
  | .list l, b => 2 ≤ l.length ∧ ArrayOf BstrItem l b

/-- x5t: `[hashAlg, hashValue]` -/
def HashItem (p : IntOrBytes × Bytes) (b : Bytes) : Prop :=
  ∃ x y, AlgItem p.1 x ∧ BstrItem p.2 y ∧ Container 4 [x, y] b

/-- an optional map entry -/
def Entry {α : Type} (key : Nat) (R : α → Bytes → Prop) : Option α → List (Bytes × Bytes) → Prop
  | none, l => l = []
  | some a, l => ∃ k b, Head 0 key k ∧ R a b ∧ l = [(k, b)]

/-- ID_CRED as a map with the optional entries 4 (kid), 33 (x5chain), 34 (x5t) -/
def CredMapItem (m : CredMap) (b : Bytes) : Prop :=
  ∃ x y z, Entry 4 KidItem m.kid x ∧ Entry 33 ChainItem m.x5chain y ∧ Entry 34 HashItem m.x5t z ∧
    MapItem (x ++ y ++ z) b

/-- ID_CRED_R / ID_CRED_I: a key identifier (integer or byte string) stands for the map with only that entry. -/
def IdCredItem : IdCred → Bytes → Prop
  | .int v, b => IntItem v b
  | .bstr s, b => BstrItem s b
  | .map m, b => CredMapItem m b

/-- PLAINTEXT_3 = ( ID_CRED_I / bstr / -24..23, Signature_or_MAC_3, ? EAD_3 ) -/
def Plaintext3 (p : Ptxt) (b : Bytes) : Prop :=
  ∃ i s e, IdCredItem p.idCred i ∧ BstrItem p.sig s ∧ SeqOf EadItem p.ead e ∧ b = i ++ s ++ e

/-- PLAINTEXT_2 = ( C_R, ID_CRED_R / bstr / -24..23, Signature_or_MAC_2, ? EAD_2 ) -/
def Plaintext2 (cr : Cid) (p : Ptxt) (b : Bytes) : Prop :=
  ∃ c t, CidItem cr c ∧ Plaintext3 p t ∧ b = c ++ t

/-- PLAINTEXT_4 = ( ? EAD_4 ) -/
def Plaintext4 (ts : List EadTok) (b : Bytes) : Prop := SeqOf EadItem ts b

/-- The credential an ID_CRED identifies, as it is shown to the application: a key identifier, a certificate chain or
a certificate hash. If a map has a chain and a hash, either may be shown. A map with neither identifies nothing
(label 0), even if it has a key identifier. -/
inductive Identifies : IdCred → Cred → Prop
  | kidInt (v : Int) : Identifies (.int v) (.kid [] false (.int v))
  | kidBstr (b : Bytes) : Identifies (.bstr b) (.kid [] false (.bstr b))
  | cert {m : CredMap} {c : Bytes} : m.x5chain = some (.one c) → Identifies (.map m) (.x5chain [c])
  | chain {m : CredMap} {l : List Bytes} : m.x5chain = some (.list l) → Identifies (.map m) (.x5chain l)
  | hash {m : CredMap} {a : IntOrBytes} {fp : Bytes} : m.x5t = some (a, fp) → Identifies (.map m) (.x5t [] fp a)
  | nothing {m : CredMap} : m.x5chain = none → m.x5t = none → Identifies (.map m) (.other 0)

/-- ERR_INFO -/
def ErrInfoItem : ErrInfo → Bytes → Prop
  | .text t, b => TstrItem t b
  | .suites s, b => SuitesItem s b
  | .true_, b => b = [0xF5]

end Verif.Spec
