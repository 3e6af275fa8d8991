import Verif.Real.X25519Laws

/-!
# Signatures of Ed25519 verify
-/

namespace Verif.Real

open Psa (clamp)

theorem edEncode_length (P : Pt) : (edEncode P).length = 32 := by
  unfold edEncode
  split <;> simp [force_eq, toBytesLe_length]

theorem edPub_length (seed : Bytes) : (edPub seed).length = 32 := by
  rw [edPub, force_eq]
  exact edEncode_length _

theorem ed25519Sign_length (sk m : Bytes) : (ed25519Sign sk m).length = 64 := by
  simp [ed25519Sign, force_eq, toBytesLe_length, edEncode_length]

theorem inv_q (x : Nat) : ((inv q25519 x : Nat) : ZMod q25519) = (x : ZMod q25519)⁻¹ :=
  inv_cast p25519_prime (by decide +kernel) (by decide +kernel) x

theorem two_ne : (2 : ZMod q25519) ≠ 0 := by
  have : ((2 : Nat) : ZMod q25519) ≠ 0 := by
    rw [Ne, ZMod.natCast_eq_zero_iff]
    decide +kernel
  exact_mod_cast this

/-- the equation of the curve -/
theorem mont_eqn {u v : Nat} (h : mont.on u v = true) :
    (v : ZMod q25519) ^ 2 = (u : ZMod q25519) ^ 3 + 486662 * (u : ZMod q25519) ^ 2 + u := by
  simp only [Weier.on, Bool.and_eq_true, decide_eq_true_eq, beq_iff_eq] at h
  have h2 : v * v % q25519 = (u * u * u + 486662 * (u * u) + 1 * u + 0) % q25519 := h.2
  have := (ZMod.natCast_eq_natCast_iff' _ _ q25519).2 h2
  push_cast at this
  linear_combination this

/-- Euler's criterion -/
theorem not_square {p a : Nat} [Fact p.Prime] (h2 : p % 2 = 1) (hs : p < 2 ^ 256) (ha : power p a 43 ((p - 1) / 2) ≠ 1)
    {v : ZMod p} (hz : v ≠ 0) (hv : v ^ 2 = (a : ZMod p)) : False := by
  have hp : 1 < p := (Fact.out : p.Prime).one_lt
  have h1 : v ^ (p - 1) = 1 := ZMod.pow_card_sub_one_eq_one hz
  apply ha
  have e : power p a 43 ((p - 1) / 2) = a ^ ((p - 1) / 2) % p := power_eq hp a (by omega)
  have hlt : power p a 43 ((p - 1) / 2) < p := by
    rw [e]
    exact Nat.mod_lt _ (by omega)
  have : ((power p a 43 ((p - 1) / 2) : Nat) : ZMod p) = ((1 : Nat) : ZMod p) := by
    rw [e, ZMod.natCast_mod]
    push_cast
    rw [← hv, ← pow_mul, show 2 * ((p - 1) / 2) = p - 1 by omega, h1]
  have := (ZMod.natCast_eq_natCast_iff' _ _ _).1 this
  rwa [Nat.mod_eq_of_lt hlt, Nat.mod_eq_of_lt hp] at this

/-- no point has the first coordinate -1 -/
theorem u_ne {u v : Nat} (h : mont.on u v = true) : (u : ZMod q25519) + 1 ≠ 0 := by
  intro h0
  have he := mont_eqn h
  have hv : (v : ZMod q25519) ^ 2 = 486660 := by
    linear_combination he + ((u : ZMod q25519) ^ 2 + 486661 * u - 486660) * h0
  have hz : (v : ZMod q25519) ≠ 0 := by
    intro e
    rw [e] at hv
    have : ((486660 : Nat) : ZMod q25519) = 0 := by
      push_cast
      rw [← hv]
      simp
    rw [ZMod.natCast_eq_zero_iff] at this
    revert this
    decide +kernel
  exact not_square (p := q25519) (a := 486660) (by decide +kernel) (by decide +kernel) (by decide +kernel) hz
    (by rw [hv]; norm_num)

theorem edX_cast (u v : Nat) : ((edX u v : Nat) : ZMod q25519) = edRoot * u * (v : ZMod q25519)⁻¹ := by
  unfold edX
  rw [ZMod.natCast_mod]
  push_cast
  rw [inv_q]

theorem edX_lt (u v : Nat) : edX u v < q25519 := Nat.mod_lt _ q_pos

/-- the first coordinate vanishes only with v -/
theorem edX_zero {u v : Nat} (h : mont.on u v = true) (h0 : edX u v = 0) : (v : ZMod q25519) = 0 := by
  have hc := edX_cast u v
  rw [h0, Nat.cast_zero] at hc
  have hr : (edRoot : ZMod q25519) ≠ 0 := by
    rw [Ne, ZMod.natCast_eq_zero_iff]
    decide +kernel
  rcases mul_eq_zero.1 hc.symm with e | e
  · have hu := (mul_eq_zero.1 e).resolve_left hr
    have he := mont_eqn h
    rw [hu] at he
    have : (v : ZMod q25519) ^ 2 = 0 := by rw [he]; ring
    exact pow_eq_zero_iff (by decide) |>.1 this
  · exact inv_eq_zero.1 e

/-- the second coordinate on the Edwards curve -/
theorem edY_cast {p : Nat} [Fact p.Prime] (h2 : 2 < p) (hs : p < 2 ^ 400) (u : Nat) :
    (((u + (p - 1)) * inv p (u + 1) % p : Nat) : ZMod p) = ((u : ZMod p) - 1) * ((u : ZMod p) + 1)⁻¹ := by
  rw [ZMod.natCast_mod]
  push_cast [cast_sub (show 1 < p by omega)]
  rw [inv_cast Fact.out h2 hs]
  push_cast
  ring

theorem edY_ne {p : Nat} [Fact p.Prime] {u y : ZMod p} (h2 : (2 : ZMod p) ≠ 0) (hu : u + 1 ≠ 0)
    (hy : y = (u - 1) * (u + 1)⁻¹) : y ≠ 1 := by
  rintro rfl
  have := congrArg (· * (u + 1)) hy
  simp only [one_mul, mul_assoc, inv_mul_cancel₀ hu, mul_one] at this
  apply h2
  linear_combination this

/-- back to the Montgomery form -/
theorem edU_cast {p : Nat} [Fact p.Prime] (h2 : 2 < p) (hs : p < 2 ^ 400) (h20 : (2 : ZMod p) ≠ 0) {u y : Nat} (hy : y < p)
    (hu : (u : ZMod p) + 1 ≠ 0) (hyc : (y : ZMod p) = ((u : ZMod p) - 1) * ((u : ZMod p) + 1)⁻¹) :
    (((1 + y) * inv p (1 + (p - y)) % p : Nat) : ZMod p) = u := by
  rw [ZMod.natCast_mod]
  push_cast [cast_sub hy]
  rw [inv_cast Fact.out h2 hs]
  push_cast [cast_sub hy]
  rw [hyc]
  have e1 : (1 : ZMod p) + -(((u : ZMod p) - 1) * ((u : ZMod p) + 1)⁻¹) = 2 * ((u : ZMod p) + 1)⁻¹ := by
    field_simp
    ring
  rw [e1]
  field_simp
  ring

theorem q_two : 2 < q25519 := by decide +kernel

theorem q_small : q25519 < 2 ^ 400 := by decide +kernel

theorem q_odd : q25519 % 2 = 1 := by decide +kernel

/-- the sign picks the right one of the two points -/
theorem edPick {u v v' : Nat} (ho : mont.on u v = true) (ho' : mont.on u v' = true) (hv : v < q25519) (hv' : v' < q25519) :
    (if edX u v' % 2 = edX u v % 2 then some (some (u, v'))
      else if edX u v' = 0 then none else some (some (u, (q25519 - v') % q25519)) : Option Pt) = some (some (u, v)) := by
  have hx := edX_lt u v
  have hvv : (v' : ZMod q25519) = v ∨ (v' : ZMod q25519) = -v := by
    have e := mont_eqn ho
    rw [← mont_eqn ho'] at e
    exact sq_eq_sq_iff_eq_or_eq_neg.1 e.symm
  by_cases he : v' = v
  · rw [he, if_pos rfl]
  · have hneg : (v' : ZMod q25519) = -v := hvv.resolve_left fun e => he (cast_inj hv' hv e)
    have hv0 : (v : ZMod q25519) ≠ 0 := by
      intro e
      rw [e, neg_zero] at hneg
      exact he (cast_inj hv' hv (by rw [hneg, e]))
    have hx0 : edX u v ≠ 0 := fun e => hv0 (edX_zero ho e)
    have hx' : edX u v' = q25519 - edX u v := by
      refine cast_inj (edX_lt _ _) (Nat.sub_lt q_pos (Nat.pos_of_ne_zero hx0)) ?_
      rw [cast_sub hx, edX_cast, edX_cast, hneg, inv_neg]
      ring
    have hodd := q_odd
    have : (q25519 - v') % q25519 = v := by
      refine cast_inj (Nat.mod_lt _ q_pos) hv ?_
      rw [ZMod.natCast_mod, cast_sub hv', hneg, neg_neg]
    rw [this]
    clear this hv0 hneg hvv
    generalize q25519 = p at hx' hodd hx
    rw [if_neg (by omega), if_neg (by omega)]

/-- a point can be decoded from its form -/
theorem edDecode_edEncode {P : Pt} {Q : mont.curve.toAffine.Point} (h : Rep P Q) : edDecode (edEncode P) = some P := by
  rcases P with _ | ⟨u, v⟩
  · decide +kernel
  · have ho := h.on
    have hu : u < q25519 := h.1
    have hv : v < q25519 := h.2.1
    have hu1 := u_ne ho
    obtain ⟨v', hl, ho'⟩ := lift_on ho
    obtain ⟨Q', hQ'⟩ := Rep.of_on mont_good ho'
    have hpick := edPick ho ho' hv hQ'.2.1
    have hy : (u + (q25519 - 1)) * inv q25519 (u + 1) % q25519 < q25519 := Nat.mod_lt _ q_pos
    have hyc := edY_cast q_two q_small u
    unfold edEncode
    simp only [force_eq]
    generalize (u + (q25519 - 1)) * inv q25519 (u + 1) % q25519 = y at hy hyc ⊢
    have hy1 : ¬ y = 1 := fun e => edY_ne two_ne hu1 hyc (by rw [e]; exact Nat.cast_one)
    have hub : (1 + y) * inv q25519 (1 + (q25519 - y)) % q25519 = u :=
      cast_inj (Nat.mod_lt _ q_pos) hu (edU_cast q_two q_small two_ne hy hu1 hyc)
    have hn : y + edX u v % 2 * 2 ^ 255 < 256 ^ 32 ∧ (y + edX u v % 2 * 2 ^ 255) % 2 ^ 255 = y ∧
        (y + edX u v % 2 * 2 ^ 255) / 2 ^ 255 = edX u v % 2 := by
      have hq := q_lt
      generalize q25519 = p at hy hq
      generalize edX u v = x
      omega
    unfold edDecode
    rw [if_neg (by simp [toBytesLe_length]), ofBytesLe_toBytesLe hn.1, hn.2.1, hn.2.2, force_eq, force_eq,
      if_neg (Nat.not_le.2 hy), if_neg hy1, force_eq, hub, hl]
    exact hpick

/-- the negative of a point -/
theorem edNeg_rep {P : Pt} {Q : mont.curve.toAffine.Point} (h : Rep P Q) : Rep (edNeg P) (-Q) := by
  rcases P with _ | ⟨u, v⟩
  · rw [show Q = 0 from h, neg_zero]
    rfl
  · exact Rep.neg h

theorem edOrder_none : mont.mul 256 edBase edOrder = none := by decide +kernel

theorem edScalar_lt (seed : Bytes) : edScalar seed < 2 ^ 256 := by
  have h := ofBytesLe_lt (clamp ((sha512 seed).take 32))
  rw [Psa.clamp_length, List.length_take] at h
  have : 256 ^ min 32 (sha512 seed).length ≤ 256 ^ 32 := Nat.pow_le_pow_right (by decide) (by omega)
  unfold edScalar
  omega

/-- the equation of a signature -/
theorem edSum {W : Weier} [Fact W.p.Prime] (hW : W.Good) {P N : Pt} {B : W.curve.toAffine.Point} (hB : Rep P B) {L a r k n : Nat}
    (hL : L < 2 ^ n) (hL0 : 0 < L) (order : L • B = 0) (hN : Rep N (-(a • B))) (hr : r < L) (hk : k < L) :
    W.add (W.mul n P ((r + k * a) % L)) (W.mul n N k) = W.mul n P r := by
  have hsl : (r + k * a) % L < L := Nat.mod_lt _ hL0
  refine Rep.inj (Rep.add hW (Rep.mul hW hB (hsl.trans hL)) (Rep.mul hW hN (hk.trans hL))) ?_
  have : ((r + k * a) % L) • B + k • -(a • B) = r • B := by
    have e : ((r + k * a) % L) • B = (r + k * a) • B := by
      conv_rhs => rw [← Nat.mod_add_div (r + k * a) L, add_nsmul, mul_nsmul, order, nsmul_zero, add_zero]
    rw [e, add_nsmul, neg_nsmul, mul_nsmul', add_neg_cancel_right]
  rw [this]
  exact Rep.mul hW hB (hr.trans hL)

theorem order_zero {B : mont.curve.toAffine.Point} (hB : Rep edBase B) {k : Nat} (hk : k < 2 ^ 256)
    (h : mont.mul 256 edBase k = none) : k • B = 0 := by
  have := Rep.mul (n := 256) mont_good hB hk
  rw [h] at this
  exact this

theorem edOrder_lt : edOrder < 2 ^ 256 := by decide +kernel

theorem edOrder_pos : 0 < edOrder := by decide +kernel

/-- Signatures verify: the private key is the seed and the public key. -/
theorem ed25519_verifies {seed : Bytes} (hs : seed.length = 32) (m : Bytes) :
    ed25519Verify (edPub seed) m (ed25519Sign (seed ++ edPub seed) m) = true := by
  obtain ⟨B, hB⟩ := Rep.of_on mont_good
    (x := 9) (y := 14781619447589544791020593568409986887264606134616475288964881837755586237401) (by decide +kernel)
  have hB' : Rep edBase B := hB
  have hL := edOrder_lt
  have hL0 := edOrder_pos
  have horder := order_zero hB' hL edOrder_none
  have hpk : edPub seed = edEncode (mont.mul 256 edBase (edScalar seed)) := by
    unfold edPub
    rw [force_eq]
  have hlen := ed25519Sign_length (seed ++ edPub seed) m
  have hal := edScalar_lt seed
  unfold ed25519Verify
  simp only [force_eq]
  rw [hlen]
  unfold ed25519Sign
  simp only [force_eq, List.take_left' hs, List.drop_left' hs, List.take_left' (edEncode_length _),
    List.drop_left' (edEncode_length _)]
  generalize edScalar seed = a at hpk hal ⊢
  generalize edPub seed = pk at hpk ⊢
  clear hlen
  have hA := Rep.mul (n := 256) mont_good hB' hal
  rw [show edDecode pk = some (mont.mul 256 edBase a) by rw [hpk]; exact edDecode_edEncode hA]
  generalize edOrder = L at hL hL0 horder ⊢
  generalize hr : ofBytesLe (sha512 ((sha512 seed).drop 32 ++ m)) % L = r
  have hrl : r < L := by rw [← hr]; exact Nat.mod_lt _ hL0
  generalize hk : ofBytesLe (sha512 (edEncode (mont.mul 256 edBase r) ++ pk ++ m)) % L = k
  have hkl : k < L := by rw [← hk]; exact Nat.mod_lt _ hL0
  have hsl : (r + k * a) % L < L := Nat.mod_lt _ hL0
  rw [ofBytesLe_toBytesLe (by omega)]
  simp only [hsl, decide_true, Bool.true_and, beq_iff_eq]
  rw [edSum mont_good hB' hL hL0 horder (edNeg_rep hA) hrl hkl]

end Verif.Real
