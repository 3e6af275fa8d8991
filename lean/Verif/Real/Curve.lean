import Verif.Suite.Impl
import Verif.Real.Sha2

/-!
# Arithmetic on the curves y² = x³ + a₂x² + a₄x + a₆ modulo a prime

Not a model of code in the repository: the standards' algorithms, to instantiate `Psa.Algs`.
-/

namespace Verif.Real

/-- `x ^ e` modulo `p`, six bits of the exponent at a time; the first number bounds their count -/
def power (p x : Nat) : Nat → Nat → Nat
  | 0, _ => 1
  | n + 1, e => Nat.mod (Nat.mul (Nat.mod (Nat.pow (power p x n (Nat.div e 64)) 64) p) (Nat.pow x (Nat.mod e 64))) p

/-- the inverse modulo a prime -/
def inv (p x : Nat) : Nat := power p x 67 (p - 2)

/-- a curve y² = x³ + a₂x² + a₄x + a₆ modulo `p` -/
structure Weier where
  p : Nat
  a2 : Nat
  a4 : Nat
  a6 : Nat

/-- a point with its coordinates; `none` is the point at infinity -/
abbrev Pt := Option (Nat × Nat)

namespace Weier

variable (W : Weier)

/-- the point with these coordinates, evaluated -/
def point (x y : Nat) : Pt := force x fun x => force y fun y => some (x, y)

/-- the third point on the line with slope `l` through (x1, y1) and a point with x-coordinate `x2`, reflected -/
def third (x1 y1 x2 l : Nat) : Pt :=
  force ((l * l + (W.p - W.a2) + (W.p - x1) + (W.p - x2)) % W.p) fun x3 =>
  point x3 ((l * (x1 + (W.p - x3)) + (W.p - y1)) % W.p)

def add : Pt → Pt → Pt
  | none, Q => Q
  | P, none => P
  | some (x1, y1), some (x2, y2) =>
    if x1 = x2 then
      if (y1 + y2) % W.p = 0 then none
      else force ((3 * x1 * x1 + 2 * W.a2 * x1 + W.a4) * inv W.p (2 * y1 % W.p) % W.p) fun l => W.third x1 y1 x2 l
    else force ((y1 + (W.p - y2)) * inv W.p ((x1 + (W.p - x2)) % W.p) % W.p) fun l => W.third x1 y1 x2 l

/-- the multiple; the first argument bounds the bits of `k` -/
def mul : Nat → Pt → Nat → Pt
  | 0, _, _ => none
  | n + 1, P, k =>
    if k = 0 then none
    else
      match W.add P P with
      | D =>
        let R := mul n D (k / 2)
        if k % 2 = 1 then W.add P R else R

/-- is this a point of the curve, with coordinates below `p`? -/
def on (x y : Nat) : Bool :=
  decide (x < W.p) && decide (y < W.p) && (y * y) % W.p == (x * x * x + W.a2 * (x * x) + W.a4 * x + W.a6) % W.p

end Weier

end Verif.Real
