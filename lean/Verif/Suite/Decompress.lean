import Mathlib.Tactic.LinearCombination
import Mathlib.Tactic.Ring
import Verif.Suite.Prime
import Verif.SpecSuite
import Verif.CborLemmas

/-!
# Point decompression is right

For an x-coordinate of a point, `decompress` gives a point. This needs that the field primes are prime, and that no point has
y = 0 (the cubic x³ - 3x + b has no root), because for y = 0 the C code may write the prime itself.
-/

namespace Verif.Psa

/-- polynomials a + b·x + c·x² modulo x³ - 3x + b and modulo p -/
structure Tri where
  a : Nat
  b : Nat
  c : Nat
  deriving DecidableEq

namespace Tri

def mul (p b : Nat) (s t : Tri) : Tri :=
  let c3 := s.b * t.c + s.c * t.b
  let c4 := s.c * t.c
  ⟨(s.a * t.a + (p - b) * c3) % p, (s.a * t.b + s.b * t.a + 3 * c3 + (p - b) * c4) % p,
    (s.a * t.c + s.b * t.b + s.c * t.a + 3 * c4) % p⟩

def pow (p b : Nat) : Nat → Tri → Nat → Tri
  | 0, _, _ => ⟨1, 0, 0⟩
  | fuel + 1, t, e =>
    if e = 0 then ⟨1, 0, 0⟩
    else
      let r := pow p b fuel (mul p b t t) (e / 2)
      if e % 2 = 1 then mul p b t r else r

/-- the value at `x` -/
def ev (p : Nat) (x : ZMod p) (t : Tri) : ZMod p := t.a + t.b * x + t.c * x ^ 2

theorem ev_mul {p b : Nat} (hb : b ≤ p) {x : ZMod p} (hx : x ^ 3 - 3 * x + b = 0) (s t : Tri) :
    ev p x (mul p b s t) = ev p x s * ev p x t := by
  have hm : ∀ n : Nat, ((n % p : Nat) : ZMod p) = n := fun n => by simp
  have hs : ((p - b : Nat) : ZMod p) = -(b : ZMod p) := by rw [Nat.cast_sub hb]; simp
  simp only [ev, mul, hm]
  push_cast
  rw [hs]
  linear_combination
    (-(((s.b : ZMod p) * t.c + s.c * t.b) + s.c * t.c * x)) * hx

theorem ev_pow {p b : Nat} (hb : b ≤ p) {x : ZMod p} (hx : x ^ 3 - 3 * x + b = 0) :
    ∀ (fuel : Nat) (t : Tri) (e : Nat), e < 2 ^ fuel → ev p x (pow p b fuel t e) = ev p x t ^ e
  | 0, t, e, h => by
    have : e = 0 := by simpa using h
    subst this
    simp [pow, ev]
  | fuel + 1, t, e, h => by
    unfold pow
    split
    · next h0 => subst h0; simp [ev]
    · have h2 : e / 2 < 2 ^ fuel := by rw [Nat.pow_succ] at h; omega
      have ih := ev_pow hb hx fuel (mul p b t t) (e / 2) h2
      rw [ev_mul hb hx, ← pow_two, ← pow_mul] at ih
      simp only
      split
      · next ho => rw [ev_mul hb hx, ih, ← pow_succ', show 2 * (e / 2) + 1 = e from by omega]
      · next ho => rw [ih, show 2 * (e / 2) = e from by omega]

/-- the check: `v` is inverse to x ^ p - x -/
def check (p b : Nat) (v : Tri) : Bool :=
  let g := pow p b 400 ⟨0, 1, 0⟩ p
  decide (b ≤ p) && decide (p < 2 ^ 400) && mul p b v ⟨g.a, g.b + (p - 1), g.c⟩ == ⟨1, 0, 0⟩

theorem no_root {p b : Nat} (hp : p.Prime) {v : Tri} (h : check p b v = true) (x : ZMod p) :
    x ^ 3 - 3 * x + b ≠ 0 := by
  intro hx
  have : Fact p.Prime := ⟨hp⟩
  simp only [check, Bool.and_eq_true, decide_eq_true_eq, beq_iff_eq] at h
  obtain ⟨⟨hb, hlt⟩, hv⟩ := h
  have h1 := ev_pow hb hx 400 ⟨0, 1, 0⟩ p hlt
  have h2 : ev p x ⟨0, 1, 0⟩ = x := by simp [ev]
  rw [h2, ZMod.pow_card] at h1
  have h3 := ev_mul hb hx v ⟨(pow p b 400 ⟨0, 1, 0⟩ p).a, (pow p b 400 ⟨0, 1, 0⟩ p).b + (p - 1), (pow p b 400 ⟨0, 1, 0⟩ p).c⟩
  rw [hv] at h3
  have h4 : ev p x ⟨(pow p b 400 ⟨0, 1, 0⟩ p).a, (pow p b 400 ⟨0, 1, 0⟩ p).b + (p - 1), (pow p b 400 ⟨0, 1, 0⟩ p).c⟩ = 0 := by
    simp only [ev] at h1 ⊢
    push_cast [Nat.cast_sub hp.one_le]
    rw [show ((p : Nat) : ZMod p) = 0 from ZMod.natCast_self p]
    linear_combination h1
  rw [h4, mul_zero] at h3
  simp [ev] at h3

end Tri

theorem p256_no_root (x : ZMod p256.p) : x ^ 3 - 3 * x + (p256.b : ZMod p256.p) ≠ 0 :=
  Tri.no_root p256_prime (v := ⟨76626890310466861426869089647039036757962535851890885406097439786770458211455,
    74462945259064871768191128030512052509059297803194871526163573358218695456204,
    34768139465301476436978405170953382516735956999154666452188405812258086013549⟩) (by decide +kernel) x

theorem p384_no_root (x : ZMod p384.p) : x ^ 3 - 3 * x + (p384.b : ZMod p384.p) ≠ 0 :=
  Tri.no_root p384_prime (v := ⟨23037766613497683937702734290281044719364893268180251583910224888989381657771069200037813904257325918671976092329602,
    8235438212423615602427778915669574859600037698862346933589434399495169446996583974901273360826717582835190849638831,
    12157362177932134139146813183752135342286725243554133716818896354380897714709611791313184492360272402950851405460538⟩)
    (by decide +kernel) x

/-- what is needed of a curve -/
structure Good (c : Curve) : Prop where
  prime : c.p.Prime
  noRoot : ∀ x : ZMod c.p, x ^ 3 - 3 * x + (c.b : ZMod c.p) ≠ 0
  four : c.p % 4 = 3
  fits : c.p < 256 ^ c.len

theorem good {c : Curve} (h : c = p256 ∨ c = p384) : Good c := by
  rcases h with rfl | rfl
  · exact ⟨p256_prime, p256_no_root, by decide, by decide +kernel⟩
  · exact ⟨p384_prime, p384_no_root, by decide, by decide +kernel⟩

open Spec

theorem rhs_cast {c : Curve} (hp : 0 < c.p) (x : Nat) :
    ((c.rhs x : Nat) : ZMod c.p) = (x : ZMod c.p) ^ 3 - 3 * x + c.b := by
  have h0 : 0 ≤ ((((x * x : Nat) : Int) - 3) * x + c.b).emod c.p := Int.emod_nonneg _ (by omega)
  have h1 : (((c.rhs x : Nat) : Int) : ZMod c.p) = (((((x * x : Nat) : Int) - 3) * x + c.b : Int) : ZMod c.p) := by
    rw [Curve.rhs, Int.toNat_of_nonneg h0]
    exact (ZMod.intCast_eq_intCast_iff' _ _ _).2 (Int.emod_emod_of_dvd _ (dvd_refl _))
  rw [Int.cast_natCast] at h1
  rw [h1]
  push_cast
  ring

theorem root_cast {c : Curve} (hg : Good c) (x : Nat) :
    ((c.root x : Nat) : ZMod c.p) = ((x : ZMod c.p) ^ 3 - 3 * x + c.b) ^ ((c.p + 1) / 4) := by
  have hf : c.p < 2 ^ (8 * c.len) := by
    have := hg.fits
    rw [show (256 : Nat) = 2 ^ 8 from rfl, ← pow_mul] at this
    exact this
  have h2 := hg.prime.two_le
  rw [Curve.root, powMod_eq _ _ _ _ (by omega), ← rhs_cast hg.prime.pos, ← Nat.cast_pow]
  simp

theorem root_lt {c : Curve} (hg : Good c) (x : Nat) : c.root x < c.p := by
  have hf : c.p < 2 ^ (8 * c.len) := by
    have := hg.fits
    rw [show (256 : Nat) = 2 ^ 8 from rfl, ← pow_mul] at this
    exact this
  have h2 := hg.prime.two_le
  rw [Curve.root, powMod_eq _ _ _ _ (by omega)]
  exact Nat.mod_lt _ hg.prime.pos

theorem point_eqn {c : Curve} {x y : Nat} :
    ((y : Int) ^ 2 - ((x : Int) ^ 3 - 3 * (x : Int) + c.b)) % c.p = 0 ↔
      (y : ZMod c.p) ^ 2 = (x : ZMod c.p) ^ 3 - 3 * x + c.b := by
  rw [← Int.dvd_iff_emod_eq_zero, ← ZMod.intCast_zmod_eq_zero_iff_dvd]
  push_cast
  exact sub_eq_zero

/-- The decompressed point is a point, if there is one with this x-coordinate. -/
theorem decompress_point {c : Curve} (hg : Good c) {X Y : Bytes} (h : Point c X Y) :
    ∃ Y', decompress c X = 4 :: X ++ Y' ∧ Point c X Y' := by
  have : Fact c.p.Prime := ⟨hg.prime⟩
  have hY := point_eqn.1 h.eqn
  have hsq : ((c.root (beNat X) : Nat) : ZMod c.p) ^ 2 = (beNat X : ZMod c.p) ^ 3 - 3 * beNat X + c.b := by
    rw [root_cast hg, ← hY, ← pow_mul, ← pow_mul]
    have h4 := hg.four
    rw [show 2 * ((c.p + 1) / 4 * 2) = c.p + 1 from by omega, pow_succ, ZMod.pow_card, pow_two]
  have hne : c.root (beNat X) ≠ 0 := by
    intro h0
    rw [h0] at hsq
    exact hg.noRoot (beNat X) (by rw [← hsq]; simp)
  have hlt := root_lt hg (beNat X)
  have make : ∀ y : Nat, y < c.p → (y : ZMod c.p) ^ 2 = (beNat X : ZMod c.p) ^ 3 - 3 * beNat X + c.b →
      Point c X (beBytes c.len y) := by
    intro y hy he
    have hb : beNat (beBytes c.len y) = y := by
      rw [beNat_beBytes]
      exact Nat.mod_eq_of_lt (hy.trans hg.fits)
    refine ⟨h.lenX, beBytes_length _ _, h.ltX, by rw [hb]; exact hy, ?_⟩
    rw [hb]
    exact point_eqn.2 he
  unfold decompress
  refine ⟨_, rfl, ?_⟩
  split
  · refine make _ (by omega) ?_
    rw [Nat.cast_sub (by omega)]
    simpa using hsq
  · exact make _ hlt hsq

end Verif.Psa
