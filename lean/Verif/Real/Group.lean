import Mathlib.AlgebraicGeometry.EllipticCurve.Affine.Point
import Verif.Suite.Prime
import Verif.Real.Curve

/-!
# The arithmetic computes in the group of the curve

`Weier.add` and `Weier.mul` are the operations of Mathlib's group of points.
-/

namespace Verif.Real

/-- the curve over its field -/
def Weier.curve (W : Weier) : WeierstrassCurve (ZMod W.p) := ⟨0, W.a2, 0, W.a4, W.a6⟩

/-- an odd prime, coefficients below it, and no singular point -/
structure Weier.Good (W : Weier) : Prop where
  prime : W.p.Prime
  odd : 2 < W.p
  small : W.p < 2 ^ 400
  a2 : W.a2 < W.p
  disc : W.curve.Δ ≠ 0

theorem disc_ne {W : Weier} (h : (16 * ((W.a2 : Int) ^ 2 * (W.a4 : Int) ^ 2 - 4 * (W.a4 : Int) ^ 3 - 4 * (W.a2 : Int) ^ 3 * W.a6 +
    18 * W.a2 * W.a4 * W.a6 - 27 * (W.a6 : Int) ^ 2)) % W.p ≠ 0) : W.curve.Δ ≠ 0 := by
  rw [Ne, ← Int.dvd_iff_emod_eq_zero, ← ZMod.intCast_zmod_eq_zero_iff_dvd] at h
  push_cast at h
  intro h0
  apply h
  rw [← h0]
  simp only [WeierstrassCurve.Δ, WeierstrassCurve.b₂, WeierstrassCurve.b₄, WeierstrassCurve.b₆, WeierstrassCurve.b₈, Weier.curve]
  ring

theorem power_eq {p : Nat} (hp : 1 < p) (x : Nat) : ∀ {n e : Nat}, e < 64 ^ n → power p x n e = x ^ e % p
  | 0, e, h => by
    have : e = 0 := by simpa using h
    subst this
    simp [power, Nat.mod_eq_of_lt hp]
  | n + 1, e, h => by
    have ih := power_eq hp x (n := n) (e := e / 64) (by rw [Nat.pow_succ] at h; omega)
    show (power p x n (e / 64)) ^ 64 % p * x ^ (e % 64) % p = _
    rw [ih, ← Nat.pow_mod, Nat.mod_mul_mod, ← pow_mul, ← pow_add, Nat.div_add_mod']

theorem inv_cast {p : Nat} (hp : p.Prime) (h2 : 2 < p) (hs : p < 2 ^ 400) (x : Nat) :
    ((inv p x : Nat) : ZMod p) = (x : ZMod p)⁻¹ := by
  have : Fact p.Prime := ⟨hp⟩
  unfold inv
  rw [power_eq (by omega) x (by omega), ZMod.natCast_mod]
  push_cast
  by_cases h0 : (x : ZMod p) = 0
  · rw [h0, inv_zero, zero_pow (by omega)]
  · refine (inv_eq_of_mul_eq_one_right ?_).symm
    rw [← pow_succ', show p - 2 + 1 = p - 1 by omega]
    exact ZMod.pow_card_sub_one_eq_one h0

section

variable {W : Weier} [hp : Fact W.p.Prime]

/-- `P` is the point `Q`, in coordinates -/
def Rep (P : Pt) (Q : W.curve.toAffine.Point) : Prop :=
  match P with
  | none => Q = 0
  | some (x, y) => x < W.p ∧ y < W.p ∧ ∃ h, Q = .some (x : ZMod W.p) (y : ZMod W.p) h

theorem Rep.ext {P : Pt} {Q Q' : W.curve.toAffine.Point} (h : Rep P Q) (h' : Rep P Q') : Q = Q' := by
  cases P with
  | none => rw [show Q = 0 from h, show Q' = 0 from h']
  | some p =>
    obtain ⟨_, _, _, rfl⟩ := h
    obtain ⟨_, _, _, rfl⟩ := h'
    rfl

theorem Rep.inj {P P' : Pt} {Q : W.curve.toAffine.Point} (h : Rep P Q) (h' : Rep P' Q) : P = P' := by
  have key : ∀ {a b : Nat}, a < W.p → b < W.p → (a : ZMod W.p) = b → a = b := fun ha hb h => by
    have := (ZMod.natCast_eq_natCast_iff' _ _ _).1 h
    rwa [Nat.mod_eq_of_lt ha, Nat.mod_eq_of_lt hb] at this
  match P, P' with
  | none, none => rfl
  | none, some (x, y) =>
    obtain ⟨_, _, _, h2⟩ := h'
    rw [show Q = 0 from h] at h2
    exact absurd h2.symm (WeierstrassCurve.Affine.Point.some_ne_zero _)
  | some (x, y), none =>
    obtain ⟨_, _, _, h2⟩ := h
    rw [show Q = 0 from h'] at h2
    exact absurd h2.symm (WeierstrassCurve.Affine.Point.some_ne_zero _)
  | some (x, y), some (x', y') =>
    obtain ⟨h1, h2, _, h3⟩ := h
    obtain ⟨h1', h2', _, h3'⟩ := h'
    rw [h3] at h3'
    injection h3' with e1 e2
    rw [key h1 h1' e1, key h2 h2' e2]

theorem point_eq (x y : Nat) : Weier.point x y = some (x, y) := by
  unfold Weier.point
  rw [force_eq, force_eq]

theorem cast_sub {p x : Nat} (h : x < p) : ((p - x : Nat) : ZMod p) = -(x : ZMod p) := by
  rw [Nat.cast_sub h.le]
  simp

/-- the negative of a point -/
theorem Rep.neg {u v : Nat} {Q : W.curve.toAffine.Point} (h : Rep (some (u, v)) Q) : Rep (some (u, (W.p - v) % W.p)) (-Q) := by
  obtain ⟨h1, h2, hn, rfl⟩ := h
  refine ⟨h1, Nat.mod_lt _ hp.out.pos, ?_⟩
  rw [WeierstrassCurve.Affine.Point.neg_some]
  have hy : (((W.p - v) % W.p : Nat) : ZMod W.p) = W.curve.toAffine.negY (u : ZMod W.p) (v : ZMod W.p) := by
    rw [ZMod.natCast_mod, cast_sub h2]
    simp [WeierstrassCurve.Affine.negY, Weier.curve]
  rw [hy]
  exact ⟨_, rfl⟩

variable (hW : W.Good)
include hW

theorem Rep.third {x1 y1 x2 y2 l : Nat} {h1 : W.curve.toAffine.Nonsingular (x1 : ZMod W.p) (y1 : ZMod W.p)}
    {h2 : W.curve.toAffine.Nonsingular (x2 : ZMod W.p) (y2 : ZMod W.p)}
    (hxy : ¬((x1 : ZMod W.p) = x2 ∧ (y1 : ZMod W.p) = W.curve.toAffine.negY x2 y2))
    (hl : (l : ZMod W.p) = W.curve.toAffine.slope x1 x2 y1 y2) (b1 : x1 < W.p) (b2 : y1 < W.p) (b3 : x2 < W.p) :
    Rep (W.third x1 y1 x2 l) (.some _ _ h1 + .some _ _ h2 : W.curve.toAffine.Point) := by
  have hpos : 0 < W.p := hW.prime.pos
  unfold Weier.third
  rw [force_eq, point_eq, WeierstrassCurve.Affine.Point.add_some hxy]
  have hx : (((l * l + (W.p - W.a2) + (W.p - x1) + (W.p - x2)) % W.p : Nat) : ZMod W.p) =
      W.curve.toAffine.addX x1 x2 (W.curve.toAffine.slope x1 x2 y1 y2) := by
    rw [ZMod.natCast_mod, ← hl]
    push_cast [cast_sub hW.a2, cast_sub b1, cast_sub b3]
    simp only [WeierstrassCurve.Affine.addX, Weier.curve]
    ring
  have hx3 : (l * l + (W.p - W.a2) + (W.p - x1) + (W.p - x2)) % W.p < W.p := Nat.mod_lt _ hpos
  generalize (l * l + (W.p - W.a2) + (W.p - x1) + (W.p - x2)) % W.p = x3 at hx hx3 ⊢
  have hy : (((l * (x1 + (W.p - x3)) + (W.p - y1)) % W.p : Nat) : ZMod W.p) =
      W.curve.toAffine.addY x1 x2 y1 (W.curve.toAffine.slope x1 x2 y1 y2) := by
    rw [ZMod.natCast_mod, ← hl]
    push_cast [cast_sub hx3, cast_sub b2]
    rw [hx, ← hl]
    simp only [WeierstrassCurve.Affine.addY, WeierstrassCurve.Affine.negAddY, WeierstrassCurve.Affine.negY, Weier.curve]
    ring
  refine ⟨hx3, Nat.mod_lt _ hpos, ?_⟩
  rw [hx, hy]
  exact ⟨_, rfl⟩

/-- addition -/
theorem Rep.add {P P' : Pt} {Q Q' : W.curve.toAffine.Point} (h : Rep P Q) (h' : Rep P' Q') : Rep (W.add P P') (Q + Q') := by
  have key : ∀ {a b : Nat}, a < W.p → b < W.p → (a : ZMod W.p) = b → a = b := fun ha hb h => by
    have := (ZMod.natCast_eq_natCast_iff' _ _ _).1 h
    rwa [Nat.mod_eq_of_lt ha, Nat.mod_eq_of_lt hb] at this
  match P, P' with
  | none, _ =>
    rw [show Q = 0 from h, zero_add]
    unfold Weier.add
    exact h'
  | some (x, y), none =>
    rw [show Q' = 0 from h', add_zero]
    exact h
  | some (x1, y1), some (x2, y2) =>
    obtain ⟨b1, b2, n1, rfl⟩ := h
    obtain ⟨b3, b4, n2, rfl⟩ := h'
    rw [Weier.add]
    have hneg : (y1 : ZMod W.p) = W.curve.toAffine.negY x2 y2 ↔ (y1 + y2) % W.p = 0 := by
      rw [← Nat.dvd_iff_mod_eq_zero, ← ZMod.natCast_eq_zero_iff]
      push_cast
      simp only [WeierstrassCurve.Affine.negY, Weier.curve]
      constructor
      · intro h; rw [h]; ring
      · intro h; linear_combination h
    split
    · next hx =>
      subst hx
      split
      · next hy =>
        exact WeierstrassCurve.Affine.Point.add_of_Y_eq rfl (hneg.2 hy)
      · next hy =>
        have hy' := fun h => hy (hneg.1 h)
        rw [force_eq]
        refine Rep.third hW (fun h => hy' h.2) ?_ b1 b2 b3
        have hyy : (y1 : ZMod W.p) = y2 := WeierstrassCurve.Affine.Y_eq_of_Y_ne n1.1 n2.1 rfl hy'
        rw [WeierstrassCurve.Affine.slope_of_Y_ne rfl hy', ZMod.natCast_mod]
        push_cast
        rw [inv_cast hW.prime hW.odd hW.small, ZMod.natCast_mod]
        simp only [WeierstrassCurve.Affine.negY, Weier.curve]
        rw [div_eq_mul_inv]
        push_cast
        ring_nf
    · next hx =>
      have hx' : (x1 : ZMod W.p) ≠ x2 := fun h => hx (key b1 b3 h)
      rw [force_eq]
      refine Rep.third hW (fun h => hx' h.1) ?_ b1 b2 b3
      rw [WeierstrassCurve.Affine.slope_of_X_ne hx', ZMod.natCast_mod]
      push_cast
      rw [inv_cast hW.prime hW.odd hW.small, ZMod.natCast_mod]
      push_cast [cast_sub b3, cast_sub b4]
      rw [div_eq_mul_inv, ← sub_eq_add_neg, ← sub_eq_add_neg]

/-- multiples -/
theorem Rep.mul : ∀ {n : Nat} {P : Pt} {Q : W.curve.toAffine.Point} {k : Nat}, Rep P Q → k < 2 ^ n → Rep (W.mul n P k) (k • Q)
  | 0, P, Q, k, _, hk => by
    have : k = 0 := by simpa using hk
    subst this
    exact zero_smul ℕ Q
  | n + 1, P, Q, k, h, hk => by
    unfold Weier.mul
    split
    · next h0 => subst h0; exact zero_smul ℕ Q
    · have ih := Rep.mul (n := n) (k := k / 2) (Rep.add hW h h) (by rw [Nat.pow_succ] at hk; omega)
      rw [← two_smul ℕ Q, ← mul_smul] at ih
      simp only
      split
      · next ho =>
        have := Rep.add hW h ih
        rwa [← succ_nsmul', show k / 2 * 2 + 1 = k by omega] at this
      · next ho => rwa [show k / 2 * 2 = k by omega] at ih

/-- a point whose coordinates pass the check -/
theorem Rep.of_on {x y : Nat} (h : W.on x y = true) : ∃ Q : W.curve.toAffine.Point, Rep (some (x, y)) Q := by
  simp only [Weier.on, Bool.and_eq_true, decide_eq_true_eq, beq_iff_eq] at h
  have he : W.curve.toAffine.Equation (x : ZMod W.p) (y : ZMod W.p) := by
    rw [WeierstrassCurve.Affine.equation_iff]
    have := (ZMod.natCast_eq_natCast_iff' _ _ _).2 h.2
    push_cast at this
    simp only [Weier.curve]
    linear_combination this
  exact ⟨_, h.1.1, h.1.2, (WeierstrassCurve.Affine.equation_iff_nonsingular_of_Δ_ne_zero hW.disc).1 he, rfl⟩

omit hW in
theorem Rep.on {x y : Nat} {Q : W.curve.toAffine.Point} (h : Rep (some (x, y)) Q) : W.on x y = true := by
  obtain ⟨h1, h2, hn, _⟩ := h
  have := (WeierstrassCurve.Affine.equation_iff _ _).1 hn.1
  simp only [Weier.on, h1, h2, decide_true, Bool.and_self, Bool.true_and, beq_iff_eq]
  rw [← ZMod.natCast_eq_natCast_iff']
  push_cast
  simp only [Weier.curve] at this
  linear_combination this

end

end Verif.Real
