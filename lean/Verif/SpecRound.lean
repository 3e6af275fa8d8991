import Verif.SpecCalls
import Verif.CborLemmas

/-!
# Specification: how the application's credential is sent

ID_CRED_R and ID_CRED_I of RFC 9528: a key identifier is sent alone, as an integer (-24..23) or as a byte string;
certificates and certificate hashes are sent as a COSE header map.
-/

namespace Verif.Spec

open Verif

/-- The credential `c` supplied by the application is sent as `i`. If `cred_is_cbor` is set, the application gives a byte
string key identifier already in CBOR: an integer that takes one byte, or a byte string item. -/
inductive SentAs : Cred → IdCred → Prop
  | kidInt (c : Bytes) {v : Int} : -24 ≤ v → v ≤ 23 → SentAs (.kid c false (.int v)) (.int v)
  | kidUint (c : Bytes) {v : Int} : 0 ≤ v → v ≤ 23 → SentAs (.kid c true (.int v)) (.int v)
  | kidBstr (c : Bytes) {b : Bytes} : SizeOk b → SentAs (.kid c false (.bstr b)) (.bstr b)
  | kidCborInt (c : Bytes) {v : Int} : -24 ≤ v → v ≤ 23 → SentAs (.kid c true (.bstr (encInt v))) (.int v)
  | kidCborBstr (c : Bytes) {b : Bytes} : SizeOk b → SentAs (.kid c true (.bstr (encBstr b))) (.bstr b)
  | cert {c : Bytes} : SizeOk c → SentAs (.x5chain [c]) (.map ⟨none, some (.one c), none⟩)
  | chain {l : List Bytes} : 2 ≤ l.length → l.length ≤ 3 → (∀ c ∈ l, SizeOk c) →
      SentAs (.x5chain l) (.map ⟨none, some (.list l), none⟩)
  | hashInt (c : Bytes) {a : Int} {fp : Bytes} : Int32Range a → SizeOk fp →
      SentAs (.x5t c fp (.int a)) (.map ⟨none, none, some (.int a, fp)⟩)
  | hashTstr (c : Bytes) {a fp : Bytes} : SizeOk a → SizeOk fp →
      SentAs (.x5t c fp (.bstr a)) (.map ⟨none, none, some (.bstr a, fp)⟩)

end Verif.Spec
