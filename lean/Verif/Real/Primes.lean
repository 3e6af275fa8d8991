import Verif.Suite.Prime

/-!
# The group orders of P-256, P-384 and edwards25519, and the field prime 2^255 - 19, are prime

With Pocklington's criterion.
-/

namespace Verif.Real

open Psa (pocklington)

theorem prime_1 : Nat.Prime 155317 :=
  pocklington (a := 3) (fs := [43, 7, 3]) (by decide +kernel)
    (by rw [List.forall_mem_cons, List.forall_mem_cons, List.forall_mem_singleton]; exact ⟨by norm_num, by norm_num, by norm_num⟩)

theorem prime_2 : Nat.Prime 191039911 :=
  pocklington (a := 2) (fs := [155317]) (by decide +kernel)
    (by rw [List.forall_mem_singleton]; exact prime_1)

theorem prime_3 : Nat.Prime 208150935158385979 :=
  pocklington (a := 2) (fs := [191039911, 3023]) (by decide +kernel)
    (by rw [List.forall_mem_cons, List.forall_mem_singleton]; exact ⟨prime_2, by norm_num⟩)

theorem prime_4 : Nat.Prime 2624747550333869278416773953 :=
  pocklington (a := 2) (fs := [208150935158385979]) (by decide +kernel)
    (by rw [List.forall_mem_singleton]; exact prime_3)

theorem prime_5 : Nat.Prime 104471 :=
  pocklington (a := 2) (fs := [337]) (by decide +kernel)
    (by rw [List.forall_mem_singleton]; exact by norm_num)

theorem prime_6 : Nat.Prime 3969899 :=
  pocklington (a := 2) (fs := [104471]) (by decide +kernel)
    (by rw [List.forall_mem_singleton]; exact prime_5)

theorem prime_7 : Nat.Prime 1002328039319 :=
  pocklington (a := 2) (fs := [3969899]) (by decide +kernel)
    (by rw [List.forall_mem_singleton]; exact prime_6)

theorem n256_prime : Nat.Prime 115792089210356248762697446949407573529996955224135760342422259061068512044369 :=
  pocklington (a := 2) (fs := [2624747550333869278416773953, 1002328039319]) (by decide +kernel)
    (by rw [List.forall_mem_cons, List.forall_mem_singleton]; exact ⟨prime_4, prime_7⟩)

theorem prime_8 : Nat.Prime 272109983 :=
  pocklington (a := 2) (fs := [233, 73]) (by decide +kernel)
    (by rw [List.forall_mem_cons, List.forall_mem_singleton]; exact ⟨by norm_num, by norm_num⟩)

theorem prime_9 : Nat.Prime 228572385721 :=
  pocklington (a := 2) (fs := [272109983]) (by decide +kernel)
    (by rw [List.forall_mem_singleton]; exact prime_8)

theorem prime_10 : Nat.Prime 23314383343543 :=
  pocklington (a := 2) (fs := [228572385721]) (by decide +kernel)
    (by rw [List.forall_mem_singleton]; exact prime_9)

theorem prime_11 : Nat.Prime 426632512014427833817 :=
  pocklington (a := 2) (fs := [23314383343543]) (by decide +kernel)
    (by rw [List.forall_mem_singleton]; exact prime_10)

theorem prime_12 : Nat.Prime 1495199339761412565498084319 :=
  pocklington (a := 2) (fs := [426632512014427833817]) (by decide +kernel)
    (by rw [List.forall_mem_singleton]; exact prime_11)

theorem prime_13 : Nat.Prime 17942392077136950785977011829 :=
  pocklington (a := 2) (fs := [1495199339761412565498084319]) (by decide +kernel)
    (by rw [List.forall_mem_singleton]; exact prime_12)

theorem prime_14 : Nat.Prime 1059392654943455286185473617842338478315215895509773412096307 :=
  pocklington (a := 2) (fs := [17942392077136950785977011829, 251]) (by decide +kernel)
    (by rw [List.forall_mem_cons, List.forall_mem_singleton]; exact ⟨prime_13, by norm_num⟩)

theorem prime_15 : Nat.Prime 3055465788140352002733946906144561090641249606160407884365391979704929268480326390471 :=
  pocklington (a := 2) (fs := [1059392654943455286185473617842338478315215895509773412096307]) (by decide +kernel)
    (by rw [List.forall_mem_singleton]; exact prime_14)

theorem n384_prime : Nat.Prime 39402006196394479212279040100143613805079739270465446667946905279627659399113263569398956308152294913554433653942643 :=
  pocklington (a := 2) (fs := [3055465788140352002733946906144561090641249606160407884365391979704929268480326390471]) (by decide +kernel)
    (by rw [List.forall_mem_singleton]; exact prime_15)

theorem prime_16 : Nat.Prime 8574133 :=
  pocklington (a := 2) (fs := [991, 103]) (by decide +kernel)
    (by rw [List.forall_mem_cons, List.forall_mem_singleton]; exact ⟨by norm_num, by norm_num⟩)

theorem prime_17 : Nat.Prime 1919519569386763 :=
  pocklington (a := 2) (fs := [8574133, 127]) (by decide +kernel)
    (by rw [List.forall_mem_cons, List.forall_mem_singleton]; exact ⟨prime_16, by norm_num⟩)

theorem prime_18 : Nat.Prime 569003 :=
  pocklington (a := 2) (fs := [419, 97]) (by decide +kernel)
    (by rw [List.forall_mem_cons, List.forall_mem_singleton]; exact ⟨by norm_num, by norm_num⟩)

theorem prime_19 : Nat.Prime 2773320623 :=
  pocklington (a := 2) (fs := [569003]) (by decide +kernel)
    (by rw [List.forall_mem_singleton]; exact prime_18)

theorem prime_20 : Nat.Prime 72106336199 :=
  pocklington (a := 2) (fs := [2773320623]) (by decide +kernel)
    (by rw [List.forall_mem_singleton]; exact prime_19)

theorem prime_21 : Nat.Prime 75445702479781427272750846543864801 :=
  pocklington (a := 2) (fs := [1919519569386763, 72106336199]) (by decide +kernel)
    (by rw [List.forall_mem_cons, List.forall_mem_singleton]; exact ⟨prime_17, prime_20⟩)

theorem prime_22 : Nat.Prime 74058212732561358302231226437062788676166966415465897661863160754340907 :=
  pocklington (a := 2) (fs := [75445702479781427272750846543864801, 57467]) (by decide +kernel)
    (by rw [List.forall_mem_cons, List.forall_mem_singleton]; exact ⟨prime_21, by norm_num⟩)

theorem p25519_prime : Nat.Prime 57896044618658097711785492504343953926634992332820282019728792003956564819949 :=
  pocklington (a := 2) (fs := [74058212732561358302231226437062788676166966415465897661863160754340907]) (by decide +kernel)
    (by rw [List.forall_mem_singleton]; exact prime_22)

theorem prime_23 : Nat.Prime 1224481 :=
  pocklington (a := 2) (fs := [2551]) (by decide +kernel)
    (by rw [List.forall_mem_singleton]; exact by norm_num)

theorem prime_24 : Nat.Prime 531581 :=
  pocklington (a := 2) (fs := [3797]) (by decide +kernel)
    (by rw [List.forall_mem_singleton]; exact by norm_num)

theorem prime_25 : Nat.Prime 1257559732178653 :=
  pocklington (a := 2) (fs := [1224481, 531581]) (by decide +kernel)
    (by rw [List.forall_mem_cons, List.forall_mem_singleton]; exact ⟨prime_23, prime_24⟩)

theorem prime_26 : Nat.Prime 4434155615661930479 :=
  pocklington (a := 2) (fs := [1257559732178653]) (by decide +kernel)
    (by rw [List.forall_mem_singleton]; exact prime_25)

theorem prime_27 : Nat.Prime 172054593956031949258510691 :=
  pocklington (a := 2) (fs := [4434155615661930479]) (by decide +kernel)
    (by rw [List.forall_mem_singleton]; exact prime_26)

theorem prime_28 : Nat.Prime 19757330305831588566944191468367130476339 :=
  pocklington (a := 2) (fs := [172054593956031949258510691]) (by decide +kernel)
    (by rw [List.forall_mem_singleton]; exact prime_27)

theorem prime_29 : Nat.Prime 276602624281642239937218680557139826668747 :=
  pocklington (a := 2) (fs := [19757330305831588566944191468367130476339]) (by decide +kernel)
    (by rw [List.forall_mem_singleton]; exact prime_28)

theorem l25519_prime : Nat.Prime 7237005577332262213973186563042994240857116359379907606001950938285454250989 :=
  pocklington (a := 2) (fs := [276602624281642239937218680557139826668747]) (by decide +kernel)
    (by rw [List.forall_mem_singleton]; exact prime_29)

end Verif.Real
