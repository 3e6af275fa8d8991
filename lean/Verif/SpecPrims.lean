import Verif.SpecKeys

/-!
# Specification: applications over the same primitives, and peers

What it means that the callbacks of an application compute given functions, that two sessions exchanged their messages
without change, and that the peers know each other's credentials.
-/

namespace Verif.Spec

open Verif

/-- The primitives of a cipher suite, as functions. -/
structure Prims where
  hash : Bytes → Bytes
  /-- `extract salt ikm` -/
  extract : Bytes → Bytes → Bytes
  /-- `expand prk info length` -/
  expand : Bytes → Bytes → Nat → Bytes
  /-- is this a private key for Diffie-Hellman? -/
  priv : Bytes → Prop
  /-- public key of a private key -/
  pub : Bytes → Bytes
  /-- `dh sk pk` -/
  dh : Bytes → Bytes → Bytes
  /-- `enc key iv aad plaintext` -/
  enc : Bytes → Bytes → Bytes → Bytes → Bytes
  /-- `dec key iv aad ciphertext` -/
  dec : Bytes → Bytes → Bytes → Bytes → Option Bytes

/-- The laws an honest exchange needs. -/
structure Prims.Lawful (P : Prims) : Prop where
  dh : ∀ x y, P.priv x → P.priv y → P.dh x (P.pub y) = P.dh y (P.pub x)
  aead : ∀ k iv aad p, P.dec k iv aad (P.enc k iv aad p) = some p

/-- The callbacks of an application computed the given functions in all the calls `L`. `sk kid` is the private key
behind the key identifier `kid` the application supplies with its credential. -/
structure Faithful (P : Prims) (sk : Bytes → Bytes) (L : List Ev) : Prop where
  hash : ∀ {i o}, HashCall L i o → o = P.hash i
  extract : ∀ {salt ikm o}, ExtractCall L salt ikm o → o = P.extract salt ikm
  expand : ∀ {prk label context n o}, ExpandCall L prk label context n o → o = P.expand prk (info label context n) n
  keyPair : ∀ {x gx}, KeyPairCall L x gx → gx = P.pub x ∧ P.priv x
  agree : ∀ {x pk o}, AgreeCall L x pk o → o = P.dh x pk
  agreeStatic : ∀ {c kid pk o}, CredSupplied L c kid → AgreeStaticCall L kid pk o → o = P.dh (sk kid) pk
  enc : ∀ {k iv aad p c}, EncryptCall L k iv aad p c → c = P.enc k iv aad p
  dec : ∀ {k iv aad c p}, DecryptCall L k iv aad c p → P.dec k iv aad c = some p

/-- The messages 1 to 3 a party processed with success are the ones the other composed. -/
structure Delivered (hI hR : History) : Prop where
  message1 : ∀ {n m m'}, (.compose1 n, .ok (.bytes m)) ∈ hI → (.process1 m', .ok .unit) ∈ hR → m' = m
  message2 : ∀ {n m m'}, (.compose2 n, .ok (.bytes m)) ∈ hR → (.process2 m', .ok .unit) ∈ hI → m' = m
  message3 : ∀ {n m m'}, (.compose3 n, .ok (.bytes m)) ∈ hI → (.process3 m', .ok .unit) ∈ hR → m' = m

/-- The credential one side (`L`) supplied is the one the other side (`L'`) accepted; if it is used for static
Diffie-Hellman (`static`), the other side got its public key. -/
def Knows (P : Prims) (sk : Bytes → Bytes) (static : Bool) (L L' : List Ev) : Prop :=
  ∀ {c kid id c' pk}, CredSupplied L c kid → CredAccepted L' id c' pk →
    cred c' = cred c ∧ (static = true → pk = P.pub (sk kid) ∧ P.priv (sk kid))

/-- Two applications that can complete a handshake with each other: `LI` and `LR` are the callback calls of the
Initiator's and of the Responder's session. -/
structure Peers (P : Prims) (skI skR : Bytes → Bytes) (method : Nat) (LI LR : List Ev) (hI hR : History) : Prop where
  lawful : P.Lawful
  faithfulI : Faithful P skI LI
  faithfulR : Faithful P skR LR
  delivered : Delivered hI hR
  credR : Knows P skR (!responderSigns method) LR LI
  credI : Knows P skI (!initiatorSigns method) LI LR

/-- A session with calls `h`, in the state `s` afterwards: it was configured before the first message, its cipher
suite is regular, and messages are not absurdly long. -/
structure Proper {σ : Type} (E : Env σ) (cfg : Config) (e : σ) (log : List Ev) (h : History) (s : St σ) : Prop where
  session : Session E cfg e log h s
  settled : Settled h
  regular : Regular (sessionCalls log s) s.ctx.suite
  numbers : SuiteNumbers s.ctx
  short : ShortMessages h

end Verif.Spec
