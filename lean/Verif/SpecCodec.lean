import Verif.CborSchemas
import Verif.SpecWire

/-!
# Specification: the preferred encoding of each message

The bytes RFC 9528 asks for (deterministic encoding, RFC 8949 section 4.2.1), and which values the CDDL of the library admits
(`/repo/backends/cbor/cddl`: at most three suites, certificates and EAD items).
-/

namespace Verif.Spec.Cddl

open Verif Verif.Spec

/-- one suite, or an array of two or three -/
def SuitesFit : Suites → Prop
  | .one _ => True
  | .list l => 2 ≤ l.length ∧ l.length ≤ 3

/-- a single suite, or an array of suites -/
def suites : Suites → Bytes
  | .one v => encInt v
  | .list l => arrayHead l.length ++ (l.map encInt).flatten

/-- an integer in -24..23, or a byte string -/
def CidFit : Cid → Prop
  | .int v => -24 ≤ v ∧ v ≤ 23
  | .bstr _ => True

/-- what the CDDL of message_1 admits -/
def Msg1Fit (m : Msg1) : Prop := SuitesFit m.suites ∧ CidFit m.ci ∧ m.ead.length ≤ 3

/-- message_1 = ( METHOD, SUITES_I, G_X, C_I, ? EAD_1 ) -/
def msg1 (m : Msg1) : Bytes := encInt m.method ++ suites m.suites ++ encBstr m.gx ++ cidItem m.ci ++ ead m.ead

/-- an integer or a byte string -/
def kid : IntOrBytes → Bytes
  | .int v => encInt v
  | .bstr b => encBstr b

/-- an integer or a text string -/
def alg : IntOrBytes → Bytes
  | .int v => encInt v
  | .bstr b => encTstr b

/-- one certificate, or an array of two or three -/
def ChainFit : X5chain → Prop
  | .one _ => True
  | .list l => 2 ≤ l.length ∧ l.length ≤ 3

@[inherit_doc ChainFit] def chain : X5chain → Bytes
  | .one c => encBstr c
  | .list l => arrayHead l.length ++ (l.map encBstr).flatten

/-- the entries of an ID_CRED map in ascending order of their labels 4, 33, 34 -/
def credEntries (m : CredMap) : List Bytes :=
  (m.kid.toList.map fun v => encInt 4 ++ kid v) ++ (m.x5chain.toList.map fun x => encInt 33 ++ chain x) ++
    (m.x5t.toList.map fun p => encInt 34 ++ (arrayHead 2 ++ alg p.1 ++ encBstr p.2))

/-- ID_CRED as a map -/
def credMap (m : CredMap) : Bytes := mapHead (credEntries m).length ++ (credEntries m).flatten

/-- ID_CRED as the plaintexts carry it: a key identifier stands for itself -/
def idCredItem : IdCred → Bytes
  | .int v => encInt v
  | .bstr b => encBstr b
  | .map m => credMap m

/-- what the CDDL of ID_CRED admits -/
def IdCredFit : IdCred → Prop
  | .map m => ∀ x, m.x5chain = some x → ChainFit x
  | _ => True

/-- PLAINTEXT_3 = ( ID_CRED_I, Signature_or_MAC_3, ? EAD_3 ) -/
def ptxt3 (p : Ptxt) : Bytes := idCredItem p.idCred ++ encBstr p.sig ++ ead p.ead

/-- PLAINTEXT_2 = ( C_R, ID_CRED_R, Signature_or_MAC_2, ? EAD_2 ) -/
def ptxt2 (c : Cid) (p : Ptxt) : Bytes := cidItem c ++ ptxt3 p

/-- what the CDDL of the plaintexts admits -/
def PtxtFit (p : Ptxt) : Prop := IdCredFit p.idCred ∧ p.ead.length ≤ 3

/-- ERR_INFO -/
def errInfo : ErrInfo → Bytes
  | .text t => encTstr t
  | .suites s => suites s
  | .true_ => [0xF5]

/-- what the CDDL of ERR_INFO admits -/
def ErrInfoFit : ErrInfo → Prop
  | .suites s => SuitesFit s
  | _ => True

/-- error = ( ERR_CODE, ? ERR_INFO ) -/
def errMsg (c : Int) (i : Option ErrInfo) : Bytes := encInt c ++ (match i with | some i => errInfo i | none => [])

/-- The value of an encoder that writes `b` into `cap` bytes, if the value can be written at all. -/
def Output (x : Option Bytes) (fit : Prop) (cap : Nat) (b : Bytes) : Prop :=
  (x = some b ↔ fit ∧ b.length ≤ cap) ∧ (x = none ↔ ¬ (fit ∧ b.length ≤ cap))

end Verif.Spec.Cddl
