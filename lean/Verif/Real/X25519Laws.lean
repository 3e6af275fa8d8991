import Mathlib.Tactic.FieldSimp
import Verif.Real.NistLaws
import Verif.Real.X25519
import Verif.Suite.Faithful

/-!
# The laws of X25519 and Ed25519

The Diffie-Hellman law, and that signatures verify.
-/

namespace Verif.Real

open Psa (clamp basePoint)

/-! ## Bytes -/

theorem toBytes_eq (k n : Nat) : toBytes k n = beBytes k n := by
  induction k with
  | zero => rfl
  | succ k ih =>
    rw [toBytes, beBytes, ih, Nat.shiftRight_eq_div_pow, pow_mul]
    norm_num

theorem toBytesLe_length (k n : Nat) : (toBytesLe k n).length = k := by
  simp [toBytesLe, toBytes_length]

theorem ofBytesLe_toBytesLe {k n : Nat} (h : n < 256 ^ k) : ofBytesLe (toBytesLe k n) = n := by
  rw [ofBytesLe, toBytesLe, List.reverse_reverse, toBytes_eq, ofBytes_eq, beNat_beBytes, Nat.mod_eq_of_lt h]

theorem ofBytesLe_lt (b : Bytes) : ofBytesLe b < 256 ^ b.length := by
  have := beNat_lt b.reverse
  rwa [List.length_reverse, ← ofBytes_eq] at this

theorem ofBytesLe_cons (x : UInt8) (r : Bytes) : ofBytesLe (x :: r) = 256 * ofBytesLe r + x.toNat := by
  unfold ofBytesLe ofBytes
  rw [List.reverse_cons, List.foldl_append]
  rfl

/-- a decoded scalar is even -/
theorem clamp_even {k : Bytes} (h : k.length = 32) : ofBytesLe (clamp k) % 2 = 0 := by
  cases k with
  | nil => cases h
  | cons x r =>
    have : clamp (x :: r) = (x &&& 0xf8) :: (r.modify 30 fun b => (b &&& 0x7f) ||| 0x40) := rfl
    rw [this, ofBytesLe_cons]
    have hx : (x &&& 0xf8).toNat % 2 = 0 := by
      rw [UInt8.toNat_and]
      have := Nat.and_mod_two_pow (a := x.toNat) (b := (0xf8 : UInt8).toNat) (n := 1)
      simpa using this
    omega

/-! ## Square roots -/

instance q_fact : Fact q25519.Prime := ⟨p25519_prime⟩

instance mont_fact : Fact mont.p.Prime := ⟨p25519_prime⟩

theorem mont_good : mont.Good :=
  ⟨p25519_prime, by decide +kernel, by decide +kernel, by decide +kernel, disc_ne (by decide +kernel)⟩

theorem q_pos : 0 < q25519 := by decide +kernel

theorem q_lt : q25519 < 2 ^ 255 := by decide +kernel

theorem cast_inj {a b : Nat} (ha : a < q25519) (hb : b < q25519) (h : (a : ZMod q25519) = b) : a = b := by
  have := (ZMod.natCast_eq_natCast_iff' _ _ _).1 h
  rwa [Nat.mod_eq_of_lt ha, Nat.mod_eq_of_lt hb] at this

theorem sqrtM1_sq : (sqrtM1 : ZMod q25519) ^ 2 = -1 := by
  have : ((sqrtM1 * sqrtM1 + 1 : Nat) : ZMod q25519) = 0 := by
    rw [ZMod.natCast_eq_zero_iff, Nat.dvd_iff_mod_eq_zero]
    decide +kernel
  push_cast at this
  linear_combination this

theorem root_lt {a c : Nat} (h : root a = some c) : c < q25519 := by
  have hlt : power q25519 a 43 ((q25519 + 3) / 8) < q25519 := by
    rw [power_eq (by decide +kernel) _ (by decide +kernel)]
    exact Nat.mod_lt _ q_pos
  unfold root at h
  simp only [force_eq] at h
  split at h
  · injection h with h; rw [← h]; exact hlt
  · split at h
    · injection h with h; rw [← h]; exact Nat.mod_lt _ q_pos
    · cases h

theorem root_sq {a c : Nat} (h : root a = some c) : c * c % q25519 = a := by
  unfold root at h
  simp only [force_eq] at h
  split at h
  · next e => injection h with h; rw [← h]; exact e
  · split at h
    · next e => injection h with h; rw [← h]; exact e
    · cases h

/-- squares have a root -/
theorem root_some {a y : Nat} (ha : a < q25519) (h : (a : ZMod q25519) = (y : ZMod q25519) ^ 2) : ∃ c, root a = some c := by
  unfold root
  simp only [force_eq]
  split
  · exact ⟨_, rfl⟩
  · next h1 =>
    split
    · exact ⟨_, rfl⟩
    · next h2 =>
      exfalso
      have hc : ((power q25519 a 43 ((q25519 + 3) / 8) : Nat) : ZMod q25519) = (y : ZMod q25519) ^ ((q25519 + 3) / 4) := by
        rw [power_eq (by decide +kernel) _ (by decide +kernel), ZMod.natCast_mod]
        push_cast
        rw [h, ← pow_mul]
        rfl
      generalize power q25519 a 43 ((q25519 + 3) / 8) = c at *
      have hs : (c : ZMod q25519) ^ 2 = (y : ZMod q25519) ^ 2 * (y : ZMod q25519) ^ ((q25519 - 1) / 2) := by
        rw [hc, ← pow_mul, ← pow_add]
        rfl
      have e : (y : ZMod q25519) = 0 ∨ (y : ZMod q25519) ^ ((q25519 - 1) / 2) = 1 ∨
          (y : ZMod q25519) ^ ((q25519 - 1) / 2) = -1 := by
        by_cases h0 : (y : ZMod q25519) = 0
        · exact Or.inl h0
        · refine Or.inr (mul_self_eq_one_iff.1 ?_)
          rw [← pow_add]
          exact ZMod.pow_card_sub_one_eq_one h0
      have fin : ∀ d : Nat, (d : ZMod q25519) ^ 2 = a → d * d % q25519 = a := by
        intro d hd
        refine cast_inj (Nat.mod_lt _ q_pos) ha ?_
        rw [ZMod.natCast_mod, ← hd]
        push_cast
        ring
      rcases e with e | e | e
      · refine h1 (fin c ?_)
        rw [hs, h, e]
        simp
      · refine h1 (fin c ?_)
        rw [hs, h, e, mul_one]
      · refine h2 (fin _ ?_)
        rw [ZMod.natCast_mod]
        push_cast
        rw [mul_pow, sqrtM1_sq, hs, h, e]
        ring

/-! ## X25519 -/

/-- a point with the same first coordinate is found -/
theorem lift_on {u v : Nat} (h : mont.on u v = true) : ∃ v', lift mont u = some (u, v') ∧ mont.on u v' = true := by
  have h' := h
  simp only [Weier.on, Bool.and_eq_true, decide_eq_true_eq, beq_iff_eq] at h'
  obtain ⟨⟨hu, hv⟩, he⟩ := h'
  unfold lift
  rw [force_eq]
  have ha : (u * u * u + mont.a2 * (u * u) + mont.a4 * u + mont.a6) % mont.p < q25519 := Nat.mod_lt _ q_pos
  rw [← he] at ha ⊢
  obtain ⟨c, hc⟩ := root_some (y := v) ha (by
    rw [show mont.p = q25519 from rfl, ZMod.natCast_mod]
    push_cast
    ring)
  refine ⟨c, by rw [hc]; rfl, ?_⟩
  simp only [Weier.on, Bool.and_eq_true, decide_eq_true_eq, beq_iff_eq]
  exact ⟨⟨hu, root_lt hc⟩, (root_sq hc).trans he⟩

/-- points with the same first coordinate -/
theorem same_u {u v v' : Nat} {Q Q' : mont.curve.toAffine.Point} (h : Rep (some (u, v)) Q) (h' : Rep (some (u, v')) Q') :
    Q' = Q ∨ Q' = -Q := by
  obtain ⟨_, _, hn, rfl⟩ := h
  obtain ⟨_, _, hn', rfl⟩ := h'
  rcases WeierstrassCurve.Affine.Y_eq_of_X_eq hn'.1 hn.1 rfl with e | e
  · left
    simp only [e]
  · right
    rw [WeierstrassCurve.Affine.Point.neg_some]
    simp only [e]

theorem uOf_neg {P P' : Pt} {Q : mont.curve.toAffine.Point} (h : Rep P Q) (h' : Rep P' (-Q)) : uOf P = uOf P' := by
  match P, P' with
  | none, none => rfl
  | none, some (x', y') =>
    rw [show Q = 0 from h, neg_zero] at h'
    obtain ⟨_, _, _, h2⟩ := h'
    exact absurd h2.symm (WeierstrassCurve.Affine.Point.some_ne_zero _)
  | some (x, y), none =>
    obtain ⟨_, _, _, rfl⟩ := h
    rw [WeierstrassCurve.Affine.Point.neg_some] at h'
    exact absurd h' (WeierstrassCurve.Affine.Point.some_ne_zero _)
  | some (x, y), some (x', y') =>
    obtain ⟨b1, _, _, rfl⟩ := h
    obtain ⟨b2, _, _, h2⟩ := h'
    rw [WeierstrassCurve.Affine.Point.neg_some] at h2
    injection h2 with e1 e2
    exact cast_inj b1 b2 e1

theorem uOf_lt {P : Pt} {Q : mont.curve.toAffine.Point} (h : Rep P Q) : uOf P < q25519 := by
  match P with
  | none => exact q_pos
  | some (x, y) => exact h.1

theorem zero_lift : lift mont 0 = some (0, 0) := by decide +kernel

theorem zero_on : mont.on 0 0 = true := by decide +kernel

theorem zero_double : mont.add (some (0, 0)) (some (0, 0)) = none := by decide +kernel

/-- The coordinate of an even multiple depends only on the coordinate of the point. -/
theorem montMul_rep {P : Pt} {Q : mont.curve.toAffine.Point} (h : Rep P Q) {k : Nat} (he : k % 2 = 0) (hk : k < 2 ^ 256) :
    ∃ R, Rep R (k • Q) ∧ montMul (uOf P) k = uOf R := by
  have h1 : ∃ v', lift mont (uOf P) = some (uOf P, v') ∧ mont.on (uOf P) v' = true := by
    rcases P with _ | ⟨u, v⟩
    · exact ⟨0, zero_lift, zero_on⟩
    · exact lift_on h.on
  obtain ⟨v', hl, ho⟩ := h1
  obtain ⟨Q', hQ'⟩ := Rep.of_on mont_good ho
  have hm := Rep.mul mont_good hQ' hk
  have hs : k • Q' = k • Q ∨ k • Q' = -(k • Q) := by
    rcases P with _ | ⟨u, v⟩
    · left
      have hz : Rep (some (0, 0)) Q' := by
        have : v' = 0 := by
          have := hl.symm.trans zero_lift
          simp only [uOf, Option.some.injEq, Prod.mk.injEq] at this
          exact this.2
        rw [this] at hQ'
        exact hQ'
      have h2 : Q' + Q' = 0 := by
        have := Rep.add mont_good hz hz
        rw [zero_double] at this
        exact this
      rw [show Q = 0 from h, nsmul_zero, show k = k / 2 * 2 by omega, mul_nsmul', two_nsmul, h2, nsmul_zero]
    · rcases same_u h hQ' with rfl | rfl
      · exact Or.inl rfl
      · exact Or.inr (neg_nsmul _ _)
  obtain ⟨R, hR⟩ : ∃ R, Rep R (k • Q) := by
    rcases P with _ | ⟨u, v⟩
    · exact ⟨none, by rw [show Q = 0 from h, nsmul_zero]; rfl⟩
    · exact ⟨_, Rep.mul mont_good h hk⟩
  refine ⟨R, hR, ?_⟩
  unfold montMul
  rw [hl]
  show uOf (mont.mul 256 (some (uOf P, v')) k) = uOf R
  rcases hs with hs | hs
  · rw [hs] at hm
    rw [Rep.inj hm hR]
  · rw [hs] at hm
    exact (uOf_neg hR hm).symm

theorem x25519_length (u k : Bytes) : (x25519 u k).length = 32 := by
  simp [x25519, force_eq, toBytesLe_length]

theorem x25519_rep {u k : Bytes} {P : Pt} {Q : mont.curve.toAffine.Point} (h : Rep P Q)
    (hu : ofBytesLe (u.take 32) % 2 ^ 255 % q25519 = uOf P) (hk : k.length = 32) :
    ∃ R, Rep R (ofBytesLe (clamp k) • Q) ∧ x25519 u (clamp k) = toBytesLe 32 (uOf R) := by
  have hl : (clamp k).length = 32 := by rw [Psa.clamp_length, hk]
  have hlt := ofBytesLe_lt (clamp k)
  rw [hl] at hlt
  obtain ⟨R, hR, hm⟩ := montMul_rep h (clamp_even hk) (k := ofBytesLe (clamp k)) (hlt.trans_eq (by norm_num))
  refine ⟨R, hR, ?_⟩
  unfold x25519
  simp only [force_eq]
  rw [hu, List.take_of_length_le (by omega), hm]

theorem x25519_dh {x y : Bytes} (hx : x.length = 32) (hy : y.length = 32) :
    x25519 (x25519 basePoint (clamp y)) (clamp x) = x25519 (x25519 basePoint (clamp x)) (clamp y) := by
  obtain ⟨B, hB⟩ := Rep.of_on mont_good
    (x := 9) (y := 14781619447589544791020593568409986887264606134616475288964881837755586237401) (by decide +kernel)
  have hb : ofBytesLe (basePoint.take 32) % 2 ^ 255 % q25519 =
      uOf (some (9, 14781619447589544791020593568409986887264606134616475288964881837755586237401)) := by decide +kernel
  have again : ∀ {R : Pt} {Q : mont.curve.toAffine.Point}, Rep R Q →
      ofBytesLe ((toBytesLe 32 (uOf R)).take 32) % 2 ^ 255 % q25519 = uOf R := fun h => by
    have h1 := uOf_lt h
    have h2 := q_lt
    rw [List.take_of_length_le (by rw [toBytesLe_length]), ofBytesLe_toBytesLe (by omega),
      Nat.mod_eq_of_lt (h1.trans h2), Nat.mod_eq_of_lt h1]
  obtain ⟨R1, h1, e1⟩ := x25519_rep hB hb hx
  obtain ⟨R2, h2, e2⟩ := x25519_rep hB hb hy
  rw [e1, e2]
  obtain ⟨R3, h3, e3⟩ := x25519_rep h1 (again h1) hy
  obtain ⟨R4, h4, e4⟩ := x25519_rep h2 (again h2) hx
  rw [e3, e4]
  rw [nsmul_left_comm] at h4
  rw [Rep.inj h3 h4]

end Verif.Real
