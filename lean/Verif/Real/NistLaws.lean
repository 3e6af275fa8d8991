import Verif.Real.Group
import Verif.Real.Primes
import Verif.Real.Nist
import Verif.CborLemmas
import Verif.Suite.Decompress

/-!
# The laws of P-256 and P-384

Keys are encoded as they should be, Diffie-Hellman works, and signatures verify.
-/

namespace Verif.Real

open Spec (Point)
open Psa (Curve p256 p384)

theorem ofBytes_eq (b : Bytes) : ofBytes b = beNat b := by
  suffices h : ∀ (b : Bytes) (n : Nat), b.foldl (fun n x => 256 * n + x.toNat) n = n * 256 ^ b.length + beNat b by
    have := h b 0
    simpa [ofBytes] using this
  intro b
  induction b with
  | nil => intro n; simp [beNat]
  | cons x r ih =>
    intro n
    simp only [List.foldl_cons, ih, beNat, List.length_cons, Nat.pow_succ]
    ring

/-- what is needed of the parameters: a prime order, and the first two multiples of the base point have different
x-coordinates also modulo the order -/
structure Nist.Good (N : Nist) : Prop where
  w : N.w.Good
  p3 : 3 ≤ N.c.p
  n : N.n.Prime
  n2 : 2 < N.n
  ns : N.n < 2 ^ 400
  nfits : N.n < 256 ^ N.c.len
  fits : N.c.p < 256 ^ N.c.len
  on : N.w.on N.gx N.gy = true
  order : N.w.mul N.bits N.g N.n = none
  first : N.gx % N.n ≠ 0
  second : ∃ x y, N.w.mul N.bits N.g 2 = some (x, y) ∧ x % N.n ≠ 0 ∧ x % N.n ≠ N.gx % N.n

namespace Nist

variable {N : Nist} (hN : N.Good)

theorem pow_bits (N : Nist) : 2 ^ N.bits = 256 ^ N.c.len := by
  unfold bits
  rw [pow_mul]
  norm_num

section

variable [hp : Fact N.w.p.Prime]

include hN

/-- the base point generates a group with `n` elements -/
theorem base : ∃ B : N.w.curve.toAffine.Point, Rep N.g B ∧ B ≠ 0 ∧ addOrderOf B = N.n := by
  obtain ⟨B, hB⟩ := Rep.of_on hN.w hN.on
  have hB0 : B ≠ 0 := by
    rintro rfl
    obtain ⟨_, _, _, h⟩ := hB
    exact absurd h.symm (WeierstrassCurve.Affine.Point.some_ne_zero _)
  have h0 : N.n • B = 0 := by
    have := Rep.mul hN.w hB (n := N.bits) (k := N.n) (by rw [pow_bits]; exact hN.nfits)
    rw [show (some (N.gx, N.gy) : Pt) = N.g from rfl, hN.order] at this
    exact this
  have : Fact N.n.Prime := ⟨hN.n⟩
  exact ⟨B, hB, hB0, addOrderOf_eq_prime h0 hB0⟩

theorem nonzero {B : N.w.curve.toAffine.Point} (ho : addOrderOf B = N.n) {k : Nat} (h0 : 0 < k) (hk : k < N.n) :
    k • B ≠ 0 := by
  intro h
  have := Nat.le_of_dvd h0 (addOrderOf_dvd_of_nsmul_eq_zero h)
  omega

/-- multiples of the base point -/
theorem mulBase {B : N.w.curve.toAffine.Point} (hB : Rep N.g B) (ho : addOrderOf B = N.n) {k : Nat} (h0 : 0 < k)
    (hk : k < N.n) : ∃ x y, N.w.mul N.bits N.g k = some (x, y) ∧ Rep (some (x, y)) (k • B) := by
  have h := Rep.mul hN.w hB (n := N.bits) (k := k) (by rw [pow_bits]; exact hk.trans hN.nfits)
  match hm : N.w.mul N.bits N.g k with
  | none => rw [hm] at h; exact absurd h (nonzero hN ho h0 hk)
  | some (x, y) => rw [hm] at h; exact ⟨x, y, rfl, h⟩

end

theorem isPriv_iff (x : Bytes) : N.isPriv x = true ↔ x.length = N.c.len ∧ 0 < ofBytes x ∧ ofBytes x < N.n := by
  simp [isPriv, and_assoc]

theorem decode_some {t : UInt8} {r : Bytes} (x y : Nat) :
    N.decode (t :: r) = some (x, y) ↔
      t = 4 ∧ r.length = 2 * N.c.len ∧ N.w.on x y = true ∧ ofBytes (r.take N.c.len) = x ∧ ofBytes (r.drop N.c.len) = y := by
  simp only [decode, force_eq]
  split
  · next h =>
    split
    · next ho =>
      simp only [Option.some.injEq, Prod.mk.injEq]
      constructor
      · rintro ⟨rfl, rfl⟩; exact ⟨h.1, h.2, ho, rfl, rfl⟩
      · rintro ⟨_, _, _, e1, e2⟩; exact ⟨e1, e2⟩
    · next ho =>
      simp only [reduceCtorEq, false_iff]
      rintro ⟨_, _, h', rfl, rfl⟩
      exact ho h'
  · next h =>
    simp only [reduceCtorEq, false_iff]
    rintro ⟨h1, h2, _⟩
    exact h ⟨h1, h2⟩

include hN

/-- the check of a point is the specification's -/
theorem on_iff (x y : Nat) : N.w.on x y = true ↔ x < N.c.p ∧ y < N.c.p ∧
    ((y : Int) ^ 2 - ((x : Int) ^ 3 - 3 * (x : Int) + N.c.b)) % N.c.p = 0 := by
  rw [Psa.point_eqn]
  simp only [Weier.on, Bool.and_eq_true, beq_iff_eq, decide_eq_true_eq, and_assoc]
  simp only [w]
  refine and_congr_right fun _ => and_congr_right fun _ => ?_
  rw [← ZMod.natCast_eq_natCast_iff']
  push_cast [Nat.cast_sub hN.p3]
  rw [ZMod.natCast_self]
  constructor <;> intro h <;> linear_combination h

/-- the uncompressed form of a point can be decoded -/
theorem decode_point {X Y : Bytes} (h : Point N.c X Y) :
    N.decode (4 :: X ++ Y) = some (beNat X, beNat Y) ∧ N.w.on (beNat X) (beNat Y) = true := by
  have ho := (on_iff hN _ _).2 ⟨h.ltX, h.ltY, h.eqn⟩
  refine ⟨?_, ho⟩
  rw [List.cons_append, decode_some]
  refine ⟨rfl, by rw [List.length_append, h.lenX, h.lenY]; omega, ho, ?_, ?_⟩
  · rw [List.take_left' h.lenX, ofBytes_eq]
  · rw [List.drop_left' h.lenX, ofBytes_eq]

theorem point_of_on {x y : Nat} (h : N.w.on x y = true) : Point N.c (beBytes N.c.len x) (beBytes N.c.len y) := by
  obtain ⟨h1, h2, h3⟩ := (on_iff hN _ _).1 h
  have b : ∀ {v}, v < N.c.p → beNat (beBytes N.c.len v) = v := fun hv => by
    rw [beNat_beBytes]
    exact Nat.mod_eq_of_lt (hv.trans hN.fits)
  exact ⟨beBytes_length _ _, beBytes_length _ _, by rw [b h1]; exact h1, by rw [b h2]; exact h2, by rw [b h1, b h2]; exact h3⟩

theorem decode_encode {x y : Nat} (h : N.w.on x y = true) : N.decode (N.encode (some (x, y))) = some (x, y) := by
  have hp := point_of_on hN h
  obtain ⟨h1, h2, _⟩ := (on_iff hN _ _).1 h
  have := (decode_point hN hp).1
  rw [beNat_beBytes, beNat_beBytes, Nat.mod_eq_of_lt (h1.trans hN.fits), Nat.mod_eq_of_lt (h2.trans hN.fits)] at this
  exact this

/-- a byte string decodes exactly if it is the uncompressed form of a point -/
theorem decode_iff (b : Bytes) : (N.decode b).isSome = true ↔ ∃ X Y, b = 4 :: X ++ Y ∧ Point N.c X Y := by
  constructor
  · intro h
    obtain ⟨⟨x, y⟩, h⟩ := Option.isSome_iff_exists.1 h
    cases b with
    | nil => cases h
    | cons t r =>
      obtain ⟨rfl, hl, ho, rfl, rfl⟩ := (decode_some _ _).1 h
      obtain ⟨h1, h2, h3⟩ := (on_iff hN _ _).1 ho
      rw [ofBytes_eq] at h1 h3
      rw [ofBytes_eq] at h2 h3
      refine ⟨r.take N.c.len, r.drop N.c.len, by simp, ?_, ?_, h1, h2, h3⟩
      · rw [List.length_take]; omega
      · rw [List.length_drop]; omega
  · rintro ⟨X, Y, rfl, h⟩
    rw [(decode_point hN h).1]
    rfl

section

variable [hp : Fact N.w.p.Prime]

/-- a public key decodes to its point -/
theorem pub_point {B : N.w.curve.toAffine.Point} (hB : Rep N.g B) (ho : addOrderOf B = N.n) {x : Bytes}
    (h : N.isPriv x = true) : ∃ P, N.decode (N.pub x) = some P ∧ Rep (some P) (ofBytes x • B) := by
  obtain ⟨_, h0, hn⟩ := isPriv_iff x |>.1 h
  obtain ⟨a, b, hm, hr⟩ := mulBase hN hB ho h0 hn
  refine ⟨(a, b), ?_, hr⟩
  unfold pub
  rw [force_eq, hm]
  exact decode_encode hN hr.on

omit hN in
/-- a point and its negative have the same x-coordinate -/
theorem xOf_neg {P P' : Pt} {Q : N.w.curve.toAffine.Point} (h : Rep P Q) (h' : Rep P' (-Q)) : N.xOf P = N.xOf P' := by
  match P, P' with
  | none, none => rfl
  | none, some (x', y') =>
    rw [show Q = 0 from h, neg_zero] at h'
    obtain ⟨_, _, _, h2⟩ := h'
    exact absurd h2.symm (WeierstrassCurve.Affine.Point.some_ne_zero _)
  | some (x, y), none =>
    obtain ⟨_, _, _, rfl⟩ := h
    rw [WeierstrassCurve.Affine.Point.neg_some] at h'
    exact absurd h' (WeierstrassCurve.Affine.Point.some_ne_zero _)
  | some (x, y), some (x', y') =>
    obtain ⟨b1, _, _, rfl⟩ := h
    obtain ⟨b2, _, _, h2⟩ := h'
    rw [WeierstrassCurve.Affine.Point.neg_some] at h2
    injection h2 with e1 e2
    have := (ZMod.natCast_eq_natCast_iff' _ _ _).1 e1
    rw [Nat.mod_eq_of_lt b1, Nat.mod_eq_of_lt b2] at this
    rw [this]
    rfl

theorem ecdh_dh {x y : Bytes} (hx : N.isPriv x = true) (hy : N.isPriv y = true) :
    N.ecdh x (N.pub y) = N.ecdh y (N.pub x) := by
  obtain ⟨B, hB, _, ho⟩ := base hN
  obtain ⟨P, h1, h2⟩ := pub_point hN hB ho hx
  obtain ⟨P', h1', h2'⟩ := pub_point hN hB ho hy
  have lt : ∀ {x}, N.isPriv x = true → ofBytes x < 2 ^ N.bits := fun h => by
    rw [pow_bits]
    exact ((isPriv_iff _).1 h).2.2.trans hN.nfits
  unfold ecdh
  rw [force_eq, force_eq, h1, h1']
  congr 1
  refine Rep.inj (Rep.mul hN.w h2' (lt hx)) ?_
  rw [nsmul_left_comm]
  exact Rep.mul hN.w h2 (lt hy)

theorem ecdh_same {x X Y Y' : Bytes} (hx : N.isPriv x = true) (h : Point N.c X Y) (h' : Point N.c X Y') :
    N.ecdh x (4 :: X ++ Y) = N.ecdh x (4 :: X ++ Y') := by
  obtain ⟨h1, h2⟩ := decode_point hN h
  obtain ⟨h1', h2'⟩ := decode_point hN h'
  have lt : ofBytes x < 2 ^ N.bits := by
    rw [pow_bits]
    exact ((isPriv_iff _).1 hx).2.2.trans hN.nfits
  obtain ⟨Q, hQ⟩ := Rep.of_on hN.w h2
  obtain ⟨Q', hQ'⟩ := Rep.of_on hN.w h2'
  unfold ecdh
  rw [force_eq, force_eq, h1, h1']
  have hs : Q' = Q ∨ Q' = -Q := by
    obtain ⟨_, _, hn, rfl⟩ := hQ
    obtain ⟨_, _, hn', rfl⟩ := hQ'
    rcases WeierstrassCurve.Affine.Y_eq_of_X_eq hn'.1 hn.1 rfl with e | e
    · left
      simp only [e]
    · right
      rw [WeierstrassCurve.Affine.Point.neg_some]
      simp only [e]
  have m := Rep.mul hN.w hQ lt
  have m' := Rep.mul hN.w hQ' lt
  rcases hs with rfl | rfl
  · rw [Rep.inj m m']
  · rw [neg_nsmul] at m'
    exact xOf_neg m m'

/-- what `signWith` gives: the parts are below the order, and the signature verifies -/
theorem verify_signWith {x digest : Bytes} {k r s : Nat} (hx : N.isPriv x = true) (hk0 : 0 < k) (hkn : k < N.n)
    (h : N.signWith (ofBytes x) (ofBytes digest) k = some (r, s)) :
    N.verify (N.pub x) digest (beBytes N.c.len r ++ beBytes N.c.len s) = true := by
  obtain ⟨B, hB, _, ho⟩ := base hN
  obtain ⟨P, h1, h2⟩ := pub_point hN hB ho hx
  obtain ⟨a, b, hm, hr⟩ := mulBase hN hB ho hk0 hkn
  have : Fact N.n.Prime := ⟨hN.n⟩
  have hn0 : 0 < N.n := hN.n.pos
  generalize ofBytes x = d at h2 h
  unfold signWith at h
  rw [hm] at h
  simp only [force_eq] at h
  split at h
  · cases h
  · next hz =>
    rw [not_or] at hz
    simp only [Option.some.injEq, Prod.mk.injEq] at h
    obtain ⟨rfl, rfl⟩ := h
    unfold verify
    have bb : ∀ {v}, v < N.n → ofBytes (beBytes N.c.len v) = v := fun hv => by
      rw [ofBytes_eq, beNat_beBytes]
      exact Nat.mod_eq_of_lt (hv.trans hN.nfits)
    have lr : a % N.n < N.n := Nat.mod_lt _ hn0
    have ls : inv N.n k * (ofBytes digest + a % N.n * d) % N.n < N.n := Nat.mod_lt _ hn0
    rw [h1]
    simp only [force_eq, List.take_left' (beBytes_length _ _), List.drop_left' (beBytes_length _ _), bb lr, bb ls]
    generalize hr' : a % N.n = r at *
    generalize hs' : inv N.n k * (ofBytes digest + r * d) % N.n = s at *
    generalize ofBytes digest = e at *
    rw [if_pos ⟨by simp [beBytes_length]; omega, by omega, lr, by omega, ls⟩]
    have lt : ∀ v, v % N.n < 2 ^ N.bits := fun v => by
      rw [pow_bits]
      exact (Nat.mod_lt _ hn0).trans hN.nfits
    have hadd := Rep.add hN.w (Rep.mul hN.w hB (lt (e * inv N.n s))) (Rep.mul hN.w h2 (lt (r * inv N.n s)))
    have hkz : (k : ZMod N.n) ≠ 0 := by
      rw [Ne, ZMod.natCast_eq_zero_iff]
      intro hd
      have := Nat.le_of_dvd hk0 hd
      omega
    have hsz : (s : ZMod N.n) ≠ 0 := by
      rw [Ne, ZMod.natCast_eq_zero_iff]
      intro hd
      have := Nat.le_of_dvd (by omega) hd
      omega
    have hsum : e * inv N.n s % N.n + r * inv N.n s % N.n * d ≡ k [MOD N.n] := by
      rw [← ZMod.natCast_eq_natCast_iff]
      push_cast [ZMod.natCast_mod]
      rw [inv_cast hN.n hN.n2 hN.ns]
      have hse : (s : ZMod N.n) = (k : ZMod N.n)⁻¹ * (e + r * d) := by
        rw [← hs', ZMod.natCast_mod]
        push_cast
        rw [inv_cast hN.n hN.n2 hN.ns]
      have he : (e + r * d : ZMod N.n) = k * s := by
        rw [hse, mul_inv_cancel_left₀ hkz]
      calc (e * (s : ZMod N.n)⁻¹ + r * (s : ZMod N.n)⁻¹ * d : ZMod N.n) = (e + r * d) * (s : ZMod N.n)⁻¹ := by ring
        _ = k := by rw [he, mul_assoc, mul_inv_cancel₀ hsz, mul_one]
    have hmul : (e * inv N.n s % N.n + r * inv N.n s % N.n * d) • B = k • B := by
      rw [nsmul_eq_nsmul_iff_modEq, ho]
      exact hsum
    rw [← mul_nsmul', ← add_nsmul, hmul] at hadd
    rw [Rep.inj hadd hr]
    simp [hr']

omit hp in
/-- `signWith` fails only if a part of the signature is zero -/
theorem signWith_none {d e k a b : Nat}
    (hm : N.w.mul N.bits N.g k = some (a, b)) (h0 : 0 < k) (hk : k < N.n) (h : N.signWith d e k = none) :
    a % N.n = 0 ∨ (e + (a % N.n : Nat) * d : ZMod N.n) = 0 := by
  have : Fact N.n.Prime := ⟨hN.n⟩
  unfold signWith at h
  rw [hm] at h
  simp only [force_eq] at h
  split at h
  · next hz =>
    refine hz.imp_right fun hs => ?_
    rw [← Nat.dvd_iff_mod_eq_zero, ← ZMod.natCast_eq_zero_iff] at hs
    push_cast at hs
    rw [inv_cast hN.n hN.n2 hN.ns] at hs
    rcases mul_eq_zero.1 hs with hs | hs
    · rw [inv_eq_zero, ZMod.natCast_eq_zero_iff] at hs
      have := Nat.le_of_dvd h0 hs
      omega
    · exact hs
  · cases h

/-- signatures have their length and verify -/
theorem ecdsa {x digest : Bytes} (hx : N.isPriv x = true) (rand : Bytes) :
    (N.sign x digest rand).length = 2 * N.c.len ∧ N.verify (N.pub x) digest (N.sign x digest rand) = true := by
  have hn2 := hN.n2
  obtain ⟨B, hB, _, ho⟩ := base hN
  unfold sign
  simp only [force_eq]
  have hd := (isPriv_iff x).1 hx
  have : Fact N.n.Prime := ⟨hN.n⟩
  generalize hk : ofBytes rand % (N.n - 1) + 1 = k
  have hkn : k < N.n := by
    have := Nat.mod_lt (ofBytes rand) (show 0 < N.n - 1 by omega)
    omega
  have fin : ∀ {r s k}, 0 < k → k < N.n → N.signWith (ofBytes x) (ofBytes digest) k = some (r, s) →
      (beBytes N.c.len r ++ beBytes N.c.len s).length = 2 * N.c.len ∧
        N.verify (N.pub x) digest (beBytes N.c.len r ++ beBytes N.c.len s) = true := fun h0 hkn h =>
    ⟨by simp [beBytes_length]; omega, verify_signWith hN hx h0 hkn h⟩
  match h1 : N.signWith (ofBytes x) (ofBytes digest) k with
  | some (r, s) => exact fin (by omega) hkn h1
  | none =>
    match h2 : N.signWith (ofBytes x) (ofBytes digest) 1 with
    | some (r, s) => exact fin (by omega) (by omega) h2
    | none =>
      match h3 : N.signWith (ofBytes x) (ofBytes digest) 2 with
      | some (r, s) => exact fin (by omega) (by omega) h3
      | none =>
        exfalso
        obtain ⟨x2, y2, hm2, hz2, hne⟩ := hN.second
        obtain ⟨x1, y1, hm1, hr1⟩ := mulBase hN hB ho (k := 1) (by omega) (by omega)
        rw [one_nsmul] at hr1
        have := Rep.inj hr1 hB
        simp only [g, Option.some.injEq, Prod.mk.injEq] at this
        obtain ⟨rfl, rfl⟩ := this
        have e1 := (signWith_none hN hm1 (by omega) (by omega) h2).resolve_left hN.first
        have e2 := (signWith_none hN hm2 (by omega) (by omega) h3).resolve_left hz2
        have e3 : (((x2 % N.n : Nat) : ZMod N.n) - ((N.gx % N.n : Nat) : ZMod N.n)) * (ofBytes x : ZMod N.n) = 0 := by
          linear_combination e2 - e1
        rcases mul_eq_zero.1 e3 with h | h
        · rw [sub_eq_zero, ZMod.natCast_eq_natCast_iff', Nat.mod_mod, Nat.mod_mod] at h
          exact hne h
        · rw [ZMod.natCast_eq_zero_iff] at h
          have := Nat.le_of_dvd hd.2.1 h
          omega

end

end Nist

theorem nist256_good : nist256.Good where
  w := ⟨Psa.p256_prime, by decide +kernel, by decide +kernel, by decide +kernel, disc_ne (by decide +kernel)⟩
  p3 := by decide +kernel
  n := n256_prime
  n2 := by decide +kernel
  ns := by decide +kernel
  nfits := by decide +kernel
  fits := by decide +kernel
  on := by decide +kernel
  order := by decide +kernel
  first := by decide +kernel
  second := ⟨0x7cf27b188d034f7e8a52380304b51ac3c08969e277f21b35a60b48fc47669978,
    0x07775510db8ed040293d9ac69f7430dbba7dade63ce982299e04b79d227873d1, by decide +kernel, by decide +kernel, by decide +kernel⟩

theorem nist384_good : nist384.Good where
  w := ⟨Psa.p384_prime, by decide +kernel, by decide +kernel, by decide +kernel, disc_ne (by decide +kernel)⟩
  p3 := by decide +kernel
  n := n384_prime
  n2 := by decide +kernel
  ns := by decide +kernel
  nfits := by decide +kernel
  fits := by decide +kernel
  on := by decide +kernel
  order := by decide +kernel
  first := by decide +kernel
  second := ⟨0x8d999057ba3d2d969260045c55b97f089025959a6f434d651d207d19fb96e9e4fe0e86ebe0e64f85b96a9c75295df61,
    0x8e80f1fa5b1b3cedb7bfe8dffd6dba74b275d875bc6cc43e904e505f256ab4255ffd43e94d39e22d61501e700a940e80,
    by decide +kernel, by decide +kernel, by decide +kernel⟩

end Verif.Real
