import Verif.SpecConfirm

/-!
# Specification: exported keys in spite of an active attacker
-/

namespace Verif.Spec

open Verif

/-- The sessions `W` compute the same primitives `P`, in which Diffie-Hellman is commutative; cipher suites with the
same number are the same; and a session of the owner of `pk` that uses its authentication key for Diffie-Hellman has
the private key of `pk`. -/
structure Shared {ι : Type} (P : Prims) (sk : ι → Bytes → Bytes) (W : ι → Node) (owns : ι → Bytes → Prop) : Prop where
  dh : ∀ x y, P.priv x → P.priv y → P.dh x (P.pub y) = P.dh y (P.pub x)
  faithful : ∀ i, Faithful P (sk i) (W i).calls
  suites : ∀ {i j}, (W i).suite.value = (W j).suite.value → (W i).suite = (W j).suite
  owner : ∀ {i pk c kid g o}, owns i pk → CredSupplied (W i).calls c kid → AgreeStaticCall (W i).calls kid g o →
    pk = P.pub (sk i kid) ∧ P.priv (sk i kid)

/-- The keys of the credentials the session accepted are honest. -/
def TrustsHonest (N : Node) (honest : Bytes → Prop) : Prop := ∀ {id c pk}, CredAccepted N.calls id c pk → honest pk

/-- Whatever `N` and `N'` export, after the handshake and the same key updates, is the same, and their OSCORE
identifiers are exchanged. -/
structure SameExports (N N' : Node) : Prop where
  secret : ∀ {h t h' t' label n out out'}, N.hist = h ++ (.exportSecret label n, .ok (.bytes out)) :: t →
    N'.hist = h' ++ (.exportSecret label n, .ok (.bytes out')) :: t' → complete h → complete h' →
    updates h = updates h' → n < 2 ^ 32 → out = out'
  oscore : ∀ {h t h' t' a b c d c' d' o o'}, N.hist = h ++ (.exportOscore a b c d, .ok (.oscore o)) :: t →
    N'.hist = h' ++ (.exportOscore a b c' d', .ok (.oscore o')) :: t' → updates h = updates h' → a < 2 ^ 32 → b < 2 ^ 32 →
    o.secret = o'.secret ∧ o.salt = o'.salt ∧ o.sid = o'.rid ∧ o.rid = o'.sid

/-- What the attacker cannot do, as `Sealed`, with K_3 (derived with label 3). -/
def Sealed3 {ι : Type} (W : ι → Node) (honest : Bytes → Prop) : Prop :=
  ∀ {i id c pk prk th n k iv aad pt ct}, honest pk → CredAccepted (W i).calls id c pk →
    ExpandCall (W i).calls prk 3 th n k → DecryptCall (W i).calls k iv aad ct pt →
    ∃ j, EncryptCall (W j).calls k iv aad pt ct

end Verif.Spec
