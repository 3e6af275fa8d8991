import Verif.SpecPrims

/-!
# Specification: what the context gives away about earlier keys

A key update is meant to protect the keys exported before it: somebody who gets hold of the context afterwards should not
be able to compute them. `firstPrkOut` is the computation of such an attacker: it needs the shared secret G_XY, what
was sent over the network, and the credentials of the two parties, which are not secret.
-/

namespace Verif.Spec

open Verif

/-- EDHOC_Expand(prk, (label, context, n), n), RFC 9528, section 4.1.2 -/
def Prims.kdf (P : Prims) (prk : Bytes) (label : Nat) (context : Bytes) (n : Nat) : Bytes :=
  P.expand prk (info label context n) n

/-- the messages 1 to 3 of a completed handshake, as they were composed and processed -/
def Exchanged (h : History) (m1 m2 m3 : Bytes) : Prop :=
  (∃ n1 n3, (.compose1 n1, .ok (.bytes m1)) ∈ h ∧ (.process2 m2, .ok .unit) ∈ h ∧ (.compose3 n3, .ok (.bytes m3)) ∈ h) ∨
  (∃ n2, (.process1 m1, .ok .unit) ∈ h ∧ (.compose2 n2, .ok (.bytes m2)) ∈ h ∧ (.process3 m3, .ok .unit) ∈ h)

/-- `c` is a credential the application supplied or accepted -/
def CredUsed (L : List Ev) (c : Cred) : Prop := (∃ kid, CredSupplied L c kid) ∨ ∃ id pk, CredAccepted L id c pk

/-- The first PRK_out of a handshake in which both parties sign. `m1` is message_1, `d2` and `d3` are the contents of
the byte strings message_2 and message_3, `credR` and `credI` are the credentials.

PRK_2e = Extract(TH_2, G_XY) opens message_2, and with it message_3: PRK_3e2m and PRK_4e3m are the same key. -/
def firstPrkOut (P : Prims) (su : Suite) (gxy m1 d2 d3 credR credI : Bytes) : Option Bytes :=
  let th2 := P.hash (encBstr (d2.take su.eccKey) ++ encBstr (P.hash m1))
  let prk := P.extract th2 gxy
  let c2 := d2.drop su.eccKey
  let plaintext2 := xorBytes c2 (P.kdf prk 0 th2 c2.length)
  let th3 := P.hash (encBstr th2 ++ plaintext2 ++ credR)
  (P.dec (P.kdf prk 3 th3 su.aeadKey) (P.kdf prk 4 th3 su.aeadIv) (encStructure th3) d3).map fun plaintext3 =>
    P.kdf prk 7 (P.hash (encBstr th3 ++ plaintext3 ++ credI)) su.hash

/-- EDHOC_Exporter(label, h'', n), RFC 9528, section 4.2.1 -/
def exporterOf (P : Prims) (su : Suite) (label n : Nat) (prkOut : Bytes) : Bytes :=
  P.kdf (P.kdf prkOut 10 [] su.hash) label [] n

end Verif.Spec
