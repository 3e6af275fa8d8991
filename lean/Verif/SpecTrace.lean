import Verif.SpecCalls

/-!
# Specification: which operations a call performs

The calls to the application that matter for domain separation, nonces and delivery: key derivation (with its label),
AEAD, signatures, credentials and EAD.
-/

namespace Verif.Spec

open Verif

/-- kinds of calls to the application -/
inductive Kind
  | derive (label : Nat)
  | encrypt
  | decrypt
  | sign
  | verify
  | eadCompose (m : Msg)
  | eadProcess (m : Msg)
  | credFetch
  | credVerify
  deriving DecidableEq, Repr

/-- the call `v` is of kind `k`. A derivation with label `l` has an info string that begins with the encoding of
`l`. -/
inductive IsKind : Kind → Ev → Prop
  | derive {l : Nat} {kid c : Bytes} {m n : Nat} {r : Option Bytes} : l ≤ 65535 → m < 2 ^ 32 →
      IsKind (.derive l) (.expand kid (info l c m) n r)
  | encrypt {kid iv aad p : Bytes} {r : Option Bytes} : IsKind .encrypt (.encrypt kid iv aad p r)
  | decrypt {kid iv aad p : Bytes} {r : Option Bytes} : IsKind .decrypt (.decrypt kid iv aad p r)
  | sign {kid i : Bytes} {r : Option Bytes} : IsKind .sign (.sign kid i r)
  | verify {kid i g : Bytes} {r : Bool} : IsKind .verify (.verify kid i g r)
  | eadCompose {m : Msg} {r : Option (List EadTok)} : IsKind (.eadCompose m) (.eadCompose m r)
  | eadProcess {m : Msg} {ts : List EadTok} {r : Bool} : IsKind (.eadProcess m) (.eadProcess m ts r)
  | credFetch {r : Option (Cred × Bytes)} : IsKind .credFetch (.credFetch r)
  | credVerify {c : Cred} {r : Option (Cred × Option Bytes)} : IsKind .credVerify (.credVerify c r)

/-- calls that have no kind: memory, import and destruction of keys, key pairs, Diffie-Hellman, Extract, hash -/
def kindless : Ev → Bool
  | .alloc _ _ | .importKey _ _ _ | .destroyKey _ | .makeKeyPair _ _ | .keyAgreement _ _ _ | .extract _ _ _
  | .hash _ _ => true
  | _ => false

/-- The calls in `L`, apart from those without a kind, are of the kinds `ks`, in this order; some of `ks` may be
missing. -/
inductive Within : (ks : List Kind) → (L : List Ev) → Prop
  | nil : Within [] []
  | skip {ks : List Kind} {v : Ev} {L : List Ev} : kindless v = true → Within ks L → Within ks (v :: L)
  | hit {k : Kind} {ks : List Kind} {v : Ev} {L : List Ev} : IsKind k v → Within ks L → Within (k :: ks) (v :: L)
  | miss {k : Kind} {ks : List Kind} {L : List Ev} : Within ks L → Within (k :: ks) L

/-- What each API call performs, at most, in this order. The labels are those of RFC 9528, section 4.1.2, and of the
exporter, section 4.2. -/
def performs : Op → List Kind
  | .compose1 _ => [.eadCompose .msg1]
  | .process1 _ => [.eadProcess .msg1]
  | .compose2 _ => [.credFetch, .eadCompose .msg2, .derive 1, .derive 2, .sign, .derive 0]
  | .process2 _ => [.derive 0, .eadProcess .msg2, .credVerify, .derive 1, .derive 2, .verify]
  | .compose3 _ => [.eadCompose .msg3, .credFetch, .derive 3, .derive 4, .derive 5, .derive 6, .sign, .encrypt]
  | .process3 _ => [.derive 3, .derive 4, .decrypt, .eadProcess .msg3, .credVerify, .derive 5, .derive 6, .verify]
  | .compose4 _ => [.eadCompose .msg4, .derive 8, .derive 9, .encrypt]
  | .process4 _ => [.derive 8, .derive 9, .decrypt, .eadProcess .msg4]
  | .exportSecret l _ => [.derive 7, .derive 10, .derive l]
  | .keyUpdate _ => [.derive 7, .derive 11]
  | .exportOscore _ _ _ _ => [.derive 7, .derive 10, .derive 0, .derive 7, .derive 10, .derive 1]
  | _ => []

/-- the number of the message -/
def round : Call → Nat
  | .compose1 | .process1 => 1
  | .compose2 | .process2 => 2
  | .compose3 | .process3 => 3
  | .compose4 | .process4 => 4

/-- the info strings of the key derivations in a list of calls -/
def infos (L : List Ev) : List Bytes :=
  L.filterMap fun
    | .expand _ i _ _ => some i
    | _ => none

/-- how many AEAD encryptions there are in a list of calls -/
def encryptions (L : List Ev) : Nat :=
  L.countP fun
    | .encrypt _ _ _ _ _ => true
    | _ => false

/-- how many calls to the EAD process callback there are in a list of calls -/
def deliveries (L : List Ev) : Nat :=
  L.countP fun
    | .eadProcess _ _ _ => true
    | _ => false

end Verif.Spec
