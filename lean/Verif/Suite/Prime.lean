import Mathlib.NumberTheory.LucasPrimality
import Mathlib.FieldTheory.Finite.Basic
import Mathlib.Tactic.NormNum.Prime
import Verif.Suite.Impl

/-!
# The field primes of P-256 and P-384 are prime

With Pocklington's criterion: the certificates below are checked by the kernel.
-/

namespace Verif.Psa

theorem powMod_eq (p : Nat) : ∀ (fuel a e : Nat), e < 2 ^ fuel → powMod p fuel a e = a ^ e % p
  | 0, a, e, h => by
    have : e = 0 := by simpa using h
    subst this
    simp [powMod]
  | fuel + 1, a, e, h => by
    unfold powMod
    split
    · next h0 => subst h0; simp
    · have h2 : e / 2 < 2 ^ fuel := by rw [Nat.pow_succ] at h; omega
      have ih := powMod_eq p fuel (a * a % p) (e / 2) h2
      have hs : (a * a % p) ^ (e / 2) % p = (a ^ (2 * (e / 2))) % p := by
        rw [← Nat.pow_mod, pow_mul, pow_two]
      simp only
      split
      · next ho =>
        rw [ih, hs, Nat.mul_mod_mod, ← pow_succ', show 2 * (e / 2) + 1 = e from by omega]
      · next ho =>
        rw [ih, hs, show 2 * (e / 2) = e from by omega]

/-- a certificate of Pocklington's criterion: a base and distinct primes, with product above the square root, that divide
`n - 1` -/
def pock (n a : Nat) (fs : List Nat) : Bool :=
  decide (1 < n) && decide (fs.Nodup) && (n - 1) % fs.prod == 0 && decide (n < fs.prod * fs.prod) &&
    decide (n < 2 ^ 400) && powMod n 400 a (n - 1) == 1 &&
    fs.all fun q => Nat.gcd (powMod n 400 a ((n - 1) / q) + (n - 1)) n == 1

theorem nodup_primes_dvd {fs : List Nat} {m : Nat} (hp : ∀ q ∈ fs, q.Prime) (hn : fs.Nodup) (hd : ∀ q ∈ fs, q ∣ m) :
    fs.prod ∣ m := by
  induction fs with
  | nil => simp
  | cons q fs ih =>
    rw [List.prod_cons]
    rw [List.nodup_cons] at hn
    refine Nat.Coprime.mul_dvd_of_dvd_of_dvd ?_ (hd q List.mem_cons_self)
      (ih (fun r hr => hp r (List.mem_cons_of_mem _ hr)) hn.2 fun r hr => hd r (List.mem_cons_of_mem _ hr))
    rw [Nat.coprime_list_prod_right_iff]
    intro r hr
    exact (Nat.coprime_primes (hp q List.mem_cons_self) (hp r (List.mem_cons_of_mem _ hr))).2
      fun h => hn.1 (h ▸ hr)

/-- Pocklington's criterion -/
theorem pocklington {n a : Nat} {fs : List Nat} (h : pock n a fs = true) (hp : ∀ q ∈ fs, q.Prime) : n.Prime := by
  simp only [pock, Bool.and_eq_true, decide_eq_true_eq, beq_iff_eq, List.all_eq_true] at h
  obtain ⟨⟨⟨⟨⟨⟨h1, hnd⟩, hdiv⟩, hbig⟩, hb⟩, hpow⟩, hgcd⟩ := h
  by_contra hc
  have hr : (n.minFac).Prime := Nat.minFac_prime (by omega)
  have hrn : n.minFac ∣ n := Nat.minFac_dvd n
  have hsq : n.minFac ^ 2 ≤ n := Nat.minFac_sq_le_self (by omega) hc
  have hfact : Fact n.minFac.Prime := ⟨hr⟩
  have hpm : ∀ e, e ≤ n - 1 → ((powMod n 400 a e : Nat) : ZMod n.minFac) = (a : ZMod n.minFac) ^ e := by
    intro e he
    rw [powMod_eq n 400 a e (by omega)]
    have := (ZMod.natCast_eq_natCast_iff' (a ^ e % n) (a ^ e) n.minFac).2 (Nat.mod_mod_of_dvd _ hrn)
    rw [this, Nat.cast_pow]
  have h1' : (a : ZMod n.minFac) ^ (n - 1) = 1 := by
    rw [← hpm _ (Nat.le_refl _), hpow, Nat.cast_one]
  have ha0 : (a : ZMod n.minFac) ≠ 0 := by
    intro h0
    rw [h0, zero_pow (by omega)] at h1'
    exact zero_ne_one h1'
  have hq : ∀ q ∈ fs, q ∣ n.minFac - 1 := by
    intro q hqf
    have hqn : q ∣ n - 1 := (List.dvd_prod hqf).trans (Nat.dvd_of_mod_eq_zero hdiv)
    refine Nat.dvd_trans ?_ (ZMod.orderOf_dvd_card_sub_one ha0)
    by_contra hno
    have hcop : Nat.Coprime (orderOf (a : ZMod n.minFac)) q :=
      (Nat.coprime_comm.1 ((Nat.Prime.coprime_iff_not_dvd (hp q hqf)).2 hno))
    have hdvd : orderOf (a : ZMod n.minFac) ∣ (n - 1) / q := by
      refine hcop.dvd_of_dvd_mul_right ?_
      rw [Nat.div_mul_cancel hqn]
      exact orderOf_dvd_of_pow_eq_one h1'
    have hone : (a : ZMod n.minFac) ^ ((n - 1) / q) = 1 := orderOf_dvd_iff_pow_eq_one.1 hdvd
    have hg := hgcd q hqf
    have : n.minFac ∣ 1 := by
      rw [← hg]
      refine Nat.dvd_gcd ?_ hrn
      rw [← ZMod.natCast_eq_zero_iff, Nat.cast_add, hpm _ (Nat.div_le_self _ _), hone]
      have : ((n - 1 + 1 : Nat) : ZMod n.minFac) = 0 := by
        rw [Nat.sub_add_cancel (by omega)]
        exact (ZMod.natCast_eq_zero_iff _ _).2 hrn
      rw [add_comm]
      exact_mod_cast this
    exact hr.one_lt.ne' (Nat.dvd_one.1 this)
  have hle : fs.prod ≤ n.minFac - 1 :=
    Nat.le_of_dvd (by have := hr.two_le; omega) (nodup_primes_dvd hp hnd hq)
  have hlt : fs.prod < n.minFac := by have := hr.two_le; omega
  have : fs.prod * fs.prod < n.minFac ^ 2 := by
    rw [pow_two]
    exact Nat.mul_lt_mul'' hlt hlt
  omega

theorem prime_1 : Nat.Prime 66417393611 :=
  pocklington (a := 2) (fs := [3677, 197]) (by decide +kernel)
    (by rw [List.forall_mem_cons, List.forall_mem_singleton]; exact ⟨by norm_num, by norm_num⟩)

theorem prime_2 : Nat.Prime 11290956913871 :=
  pocklington (a := 2) (fs := [66417393611]) (by decide +kernel)
    (by rw [List.forall_mem_singleton]; exact prime_1)

theorem prime_3 : Nat.Prime 204061199 :=
  pocklington (a := 2) (fs := [3769, 107]) (by decide +kernel)
    (by rw [List.forall_mem_cons, List.forall_mem_singleton]; exact ⟨by norm_num, by norm_num⟩)

theorem prime_4 : Nat.Prime 34282281433 :=
  pocklington (a := 2) (fs := [204061199]) (by decide +kernel)
    (by rw [List.forall_mem_singleton]; exact prime_3)

theorem prime_5 : Nat.Prime 774023187263532362759620327192479577272145303 :=
  pocklington (a := 2) (fs := [11290956913871, 34282281433]) (by decide +kernel)
    (by rw [List.forall_mem_cons, List.forall_mem_singleton]; exact ⟨prime_2, prime_4⟩)

theorem prime_6 : Nat.Prime 835945042244614951780389953367877943453916927241 :=
  pocklington (a := 2) (fs := [774023187263532362759620327192479577272145303]) (by decide +kernel)
    (by rw [List.forall_mem_singleton]; exact prime_5)

theorem p256_prime : p256.p.Prime :=
  pocklington (a := 2) (fs := [835945042244614951780389953367877943453916927241]) (by decide +kernel)
    (by rw [List.forall_mem_singleton]; exact prime_6)

theorem prime_7 : Nat.Prime 363557 :=
  pocklington (a := 2) (fs := [937]) (by decide +kernel)
    (by rw [List.forall_mem_singleton]; exact by norm_num)

theorem prime_8 : Nat.Prime 532247449 :=
  pocklington (a := 2) (fs := [363557]) (by decide +kernel)
    (by rw [List.forall_mem_singleton]; exact prime_7)

theorem prime_9 : Nat.Prime 44925942675193 :=
  pocklington (a := 2) (fs := [532247449]) (by decide +kernel)
    (by rw [List.forall_mem_singleton]; exact prime_8)

theorem prime_10 : Nat.Prime 35581458644053887931343 :=
  pocklington (a := 2) (fs := [44925942675193]) (by decide +kernel)
    (by rw [List.forall_mem_singleton]; exact prime_9)

theorem prime_11 : Nat.Prime 23964610537191310276190549303 :=
  pocklington (a := 2) (fs := [35581458644053887931343]) (by decide +kernel)
    (by rw [List.forall_mem_singleton]; exact prime_10)

theorem prime_12 : Nat.Prime 862725979338887169942859774909 :=
  pocklington (a := 2) (fs := [23964610537191310276190549303]) (by decide +kernel)
    (by rw [List.forall_mem_singleton]; exact prime_11)

theorem prime_13 : Nat.Prime 20705423504133292078628634597817 :=
  pocklington (a := 2) (fs := [862725979338887169942859774909]) (by decide +kernel)
    (by rw [List.forall_mem_singleton]; exact prime_12)

theorem prime_14 : Nat.Prime 413244619895455989650825325680172591660047 :=
  pocklington (a := 2) (fs := [20705423504133292078628634597817]) (by decide +kernel)
    (by rw [List.forall_mem_singleton]; exact prime_13)

theorem prime_15 : Nat.Prime 12397338596863679689524759770405177749801411 :=
  pocklington (a := 2) (fs := [413244619895455989650825325680172591660047]) (by decide +kernel)
    (by rw [List.forall_mem_singleton]; exact prime_14)

theorem prime_16 : Nat.Prime 246608641 :=
  pocklington (a := 2) (fs := [21407]) (by decide +kernel)
    (by rw [List.forall_mem_singleton]; exact by norm_num)

theorem prime_17 : Nat.Prime 529709925838459440593 :=
  pocklington (a := 2) (fs := [246608641, 181]) (by decide +kernel)
    (by rw [List.forall_mem_cons, List.forall_mem_singleton]; exact ⟨prime_16, by norm_num⟩)

theorem prime_18 : Nat.Prime 19173790298027098165721053155794528970226934547887232785722672956982046098136719667167519737147526097 :=
  pocklington (a := 2) (fs := [12397338596863679689524759770405177749801411, 529709925838459440593]) (by decide +kernel)
    (by rw [List.forall_mem_cons, List.forall_mem_singleton]; exact ⟨prime_15, prime_17⟩)

theorem p384_prime : p384.p.Prime :=
  pocklington (a := 2) (fs := [19173790298027098165721053155794528970226934547887232785722672956982046098136719667167519737147526097]) (by decide +kernel)
    (by rw [List.forall_mem_singleton]; exact prime_18)

end Verif.Psa
