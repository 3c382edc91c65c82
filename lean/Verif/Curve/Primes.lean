import Verif.Curve.Ecpp
import Mathlib.Tactic.NormNum.Prime

/-!
# Primality of the field and group orders

Generated by `tools/primes.py` from `tools/primes.json`; each theorem is checked by the kernel from a
Pocklington or Goldwasser–Kilian certificate.
-/

namespace Voprf.Curve

theorem prime_991 : Nat.Prime 991 := by norm_num

theorem prime_103 : Nat.Prime 103 := by norm_num

theorem prime_8574133 :
    Nat.Prime 8574133 :=
  pocklington _ [(991, 1, 2), (103, 1, 2)] (by decide +kernel)
    (by simp only [List.forall_mem_cons, List.not_mem_nil, false_implies, implies_true, and_true]
        exact ⟨prime_991, prime_103⟩)

theorem prime_127 : Nat.Prime 127 := by norm_num

theorem prime_1919519569386763 :
    Nat.Prime 1919519569386763 :=
  pocklington _ [(8574133, 1, 2), (127, 1, 2)] (by decide +kernel)
    (by simp only [List.forall_mem_cons, List.not_mem_nil, false_implies, implies_true, and_true]
        exact ⟨prime_8574133, prime_127⟩)

theorem prime_419 : Nat.Prime 419 := by norm_num

theorem prime_97 : Nat.Prime 97 := by norm_num

theorem prime_569003 :
    Nat.Prime 569003 :=
  pocklington _ [(419, 1, 2), (97, 1, 2)] (by decide +kernel)
    (by simp only [List.forall_mem_cons, List.not_mem_nil, false_implies, implies_true, and_true]
        exact ⟨prime_419, prime_97⟩)

theorem prime_2773320623 :
    Nat.Prime 2773320623 :=
  pocklington _ [(569003, 1, 2)] (by decide +kernel)
    (by simp only [List.forall_mem_cons, List.not_mem_nil, false_implies, implies_true, and_true]
        exact prime_569003)

theorem prime_72106336199 :
    Nat.Prime 72106336199 :=
  pocklington _ [(2773320623, 1, 2)] (by decide +kernel)
    (by simp only [List.forall_mem_cons, List.not_mem_nil, false_implies, implies_true, and_true]
        exact prime_2773320623)

theorem prime_75445702479781427272750846543864801 :
    Nat.Prime 75445702479781427272750846543864801 :=
  pocklington _ [(1919519569386763, 1, 2), (72106336199, 1, 2)] (by decide +kernel)
    (by simp only [List.forall_mem_cons, List.not_mem_nil, false_implies, implies_true, and_true]
        exact ⟨prime_1919519569386763, prime_72106336199⟩)

theorem prime_1723 : Nat.Prime 1723 := by norm_num

theorem prime_430751 :
    Nat.Prime 430751 :=
  pocklington _ [(1723, 1, 2)] (by decide +kernel)
    (by simp only [List.forall_mem_cons, List.not_mem_nil, false_implies, implies_true, and_true]
        exact prime_1723)

theorem prime_173 : Nat.Prime 173 := by norm_num

theorem prime_4153 :
    Nat.Prime 4153 :=
  pocklington _ [(173, 1, 2)] (by decide +kernel)
    (by simp only [List.forall_mem_cons, List.not_mem_nil, false_implies, implies_true, and_true]
        exact prime_173)

theorem prime_31757755568855353 :
    Nat.Prime 31757755568855353 :=
  pocklington _ [(430751, 1, 2), (4153, 1, 2)] (by decide +kernel)
    (by simp only [List.forall_mem_cons, List.not_mem_nil, false_implies, implies_true, and_true]
        exact ⟨prime_430751, prime_4153⟩)

theorem prime_74058212732561358302231226437062788676166966415465897661863160754340907 :
    Nat.Prime 74058212732561358302231226437062788676166966415465897661863160754340907 :=
  pocklington _ [(75445702479781427272750846543864801, 1, 2), (31757755568855353, 1, 2)] (by decide +kernel)
    (by simp only [List.forall_mem_cons, List.not_mem_nil, false_implies, implies_true, and_true]
        exact ⟨prime_75445702479781427272750846543864801, prime_31757755568855353⟩)

theorem prime_57896044618658097711785492504343953926634992332820282019728792003956564819949 :
    Nat.Prime 57896044618658097711785492504343953926634992332820282019728792003956564819949 :=
  pocklington _ [(74058212732561358302231226437062788676166966415465897661863160754340907, 1, 2)] (by decide +kernel)
    (by simp only [List.forall_mem_cons, List.not_mem_nil, false_implies, implies_true, and_true]
        exact prime_74058212732561358302231226437062788676166966415465897661863160754340907)

theorem prime_7 : Nat.Prime 7 := by norm_num

theorem prime_23 : Nat.Prime 23 := by norm_num

theorem prime_73 : Nat.Prime 73 := by norm_num

theorem prime_3797 :
    Nat.Prime 3797 :=
  pocklington _ [(73, 1, 2)] (by decide +kernel)
    (by simp only [List.forall_mem_cons, List.not_mem_nil, false_implies, implies_true, and_true]
        exact prime_73)

theorem prime_531581 :
    Nat.Prime 531581 :=
  pocklington _ [(3797, 1, 2)] (by decide +kernel)
    (by simp only [List.forall_mem_cons, List.not_mem_nil, false_implies, implies_true, and_true]
        exact prime_3797)

theorem prime_1257559732178653 :
    Nat.Prime 1257559732178653 :=
  pocklington _ [(7, 1, 2), (23, 1, 2), (531581, 1, 2)] (by decide +kernel)
    (by simp only [List.forall_mem_cons, List.not_mem_nil, false_implies, implies_true, and_true]
        exact ⟨prime_7, prime_23, prime_531581⟩)

theorem prime_4434155615661930479 :
    Nat.Prime 4434155615661930479 :=
  pocklington _ [(1257559732178653, 1, 2)] (by decide +kernel)
    (by simp only [List.forall_mem_cons, List.not_mem_nil, false_implies, implies_true, and_true]
        exact prime_1257559732178653)

theorem prime_172054593956031949258510691 :
    Nat.Prime 172054593956031949258510691 :=
  pocklington _ [(4434155615661930479, 1, 2)] (by decide +kernel)
    (by simp only [List.forall_mem_cons, List.not_mem_nil, false_implies, implies_true, and_true]
        exact prime_4434155615661930479)

theorem prime_19757330305831588566944191468367130476339 :
    Nat.Prime 19757330305831588566944191468367130476339 :=
  pocklington _ [(172054593956031949258510691, 1, 2)] (by decide +kernel)
    (by simp only [List.forall_mem_cons, List.not_mem_nil, false_implies, implies_true, and_true]
        exact prime_172054593956031949258510691)

theorem prime_276602624281642239937218680557139826668747 :
    Nat.Prime 276602624281642239937218680557139826668747 :=
  pocklington _ [(19757330305831588566944191468367130476339, 1, 2)] (by decide +kernel)
    (by simp only [List.forall_mem_cons, List.not_mem_nil, false_implies, implies_true, and_true]
        exact prime_19757330305831588566944191468367130476339)

theorem prime_7237005577332262213973186563042994240857116359379907606001950938285454250989 :
    Nat.Prime 7237005577332262213973186563042994240857116359379907606001950938285454250989 :=
  pocklington _ [(276602624281642239937218680557139826668747, 1, 2)] (by decide +kernel)
    (by simp only [List.forall_mem_cons, List.not_mem_nil, false_implies, implies_true, and_true]
        exact prime_276602624281642239937218680557139826668747)

theorem prime_11 : Nat.Prime 11 := by norm_num

theorem prime_107 : Nat.Prime 107 := by norm_num

theorem prime_204061199 :
    Nat.Prime 204061199 :=
  pocklington _ [(11, 1, 3), (23, 1, 2), (107, 1, 2)] (by decide +kernel)
    (by simp only [List.forall_mem_cons, List.not_mem_nil, false_implies, implies_true, and_true]
        exact ⟨prime_11, prime_23, prime_107⟩)

theorem prime_34282281433 :
    Nat.Prime 34282281433 :=
  pocklington _ [(204061199, 1, 2)] (by decide +kernel)
    (by simp only [List.forall_mem_cons, List.not_mem_nil, false_implies, implies_true, and_true]
        exact prime_204061199)

theorem prime_53 : Nat.Prime 53 := by norm_num

theorem prime_197 : Nat.Prime 197 := by norm_num

theorem prime_66417393611 :
    Nat.Prime 66417393611 :=
  pocklington _ [(53, 1, 2), (173, 1, 2), (197, 1, 2)] (by decide +kernel)
    (by simp only [List.forall_mem_cons, List.not_mem_nil, false_implies, implies_true, and_true]
        exact ⟨prime_53, prime_173, prime_197⟩)

theorem prime_11290956913871 :
    Nat.Prime 11290956913871 :=
  pocklington _ [(66417393611, 1, 2)] (by decide +kernel)
    (by simp only [List.forall_mem_cons, List.not_mem_nil, false_implies, implies_true, and_true]
        exact prime_66417393611)

theorem prime_774023187263532362759620327192479577272145303 :
    Nat.Prime 774023187263532362759620327192479577272145303 :=
  pocklington _ [(34282281433, 1, 2), (11290956913871, 1, 2)] (by decide +kernel)
    (by simp only [List.forall_mem_cons, List.not_mem_nil, false_implies, implies_true, and_true]
        exact ⟨prime_34282281433, prime_11290956913871⟩)

theorem prime_835945042244614951780389953367877943453916927241 :
    Nat.Prime 835945042244614951780389953367877943453916927241 :=
  pocklington _ [(774023187263532362759620327192479577272145303, 1, 2)] (by decide +kernel)
    (by simp only [List.forall_mem_cons, List.not_mem_nil, false_implies, implies_true, and_true]
        exact prime_774023187263532362759620327192479577272145303)

theorem prime_115792089210356248762697446949407573530086143415290314195533631308867097853951 :
    Nat.Prime 115792089210356248762697446949407573530086143415290314195533631308867097853951 :=
  pocklington _ [(835945042244614951780389953367877943453916927241, 1, 2)] (by decide +kernel)
    (by simp only [List.forall_mem_cons, List.not_mem_nil, false_implies, implies_true, and_true]
        exact prime_835945042244614951780389953367877943453916927241)

theorem prime_131 : Nat.Prime 131 := by norm_num

theorem prime_3407 :
    Nat.Prime 3407 :=
  pocklington _ [(131, 1, 2)] (by decide +kernel)
    (by simp only [List.forall_mem_cons, List.not_mem_nil, false_implies, implies_true, and_true]
        exact prime_131)

theorem prime_727 : Nat.Prime 727 := by norm_num

theorem prime_17449 :
    Nat.Prime 17449 :=
  pocklington _ [(727, 1, 2)] (by decide +kernel)
    (by simp only [List.forall_mem_cons, List.not_mem_nil, false_implies, implies_true, and_true]
        exact prime_727)

theorem prime_3 : Nat.Prime 3 := by norm_num

theorem prime_37 : Nat.Prime 37 := by norm_num

theorem prime_9547 :
    Nat.Prime 9547 :=
  pocklington _ [(3, 1, 2), (37, 1, 2)] (by decide +kernel)
    (by simp only [List.forall_mem_cons, List.not_mem_nil, false_implies, implies_true, and_true]
        exact ⟨prime_3, prime_37⟩)

theorem prime_38189 :
    Nat.Prime 38189 :=
  pocklington _ [(9547, 1, 2)] (by decide +kernel)
    (by simp only [List.forall_mem_cons, List.not_mem_nil, false_implies, implies_true, and_true]
        exact prime_9547)

theorem prime_17 : Nat.Prime 17 := by norm_num

theorem prime_229 : Nat.Prime 229 := by norm_num

theorem prime_9350987 :
    Nat.Prime 9350987 :=
  pocklington _ [(17, 1, 2), (229, 1, 2)] (by decide +kernel)
    (by simp only [List.forall_mem_cons, List.not_mem_nil, false_implies, implies_true, and_true]
        exact ⟨prime_17, prime_229⟩)

theorem prime_187019741 :
    Nat.Prime 187019741 :=
  pocklington _ [(9350987, 1, 2)] (by decide +kernel)
    (by simp only [List.forall_mem_cons, List.not_mem_nil, false_implies, implies_true, and_true]
        exact prime_9350987)

theorem prime_29 : Nat.Prime 29 := by norm_num

theorem prime_311245691 :
    Nat.Prime 311245691 :=
  pocklington _ [(7, 1, 2), (17, 1, 2), (29, 2, 2)] (by decide +kernel)
    (by simp only [List.forall_mem_cons, List.not_mem_nil, false_implies, implies_true, and_true]
        exact ⟨prime_7, prime_17, prime_29⟩)

theorem prime_622491383 :
    Nat.Prime 622491383 :=
  pocklington _ [(311245691, 1, 2)] (by decide +kernel)
    (by simp only [List.forall_mem_cons, List.not_mem_nil, false_implies, implies_true, and_true]
        exact prime_311245691)

theorem prime_337 : Nat.Prime 337 := by norm_num

theorem prime_104471 :
    Nat.Prime 104471 :=
  pocklington _ [(337, 1, 2)] (by decide +kernel)
    (by simp only [List.forall_mem_cons, List.not_mem_nil, false_implies, implies_true, and_true]
        exact prime_337)

theorem prime_3969899 :
    Nat.Prime 3969899 :=
  pocklington _ [(104471, 1, 2)] (by decide +kernel)
    (by simp only [List.forall_mem_cons, List.not_mem_nil, false_implies, implies_true, and_true]
        exact prime_104471)

theorem prime_1002328039319 :
    Nat.Prime 1002328039319 :=
  pocklington _ [(3969899, 1, 2)] (by decide +kernel)
    (by simp only [List.forall_mem_cons, List.not_mem_nil, false_implies, implies_true, and_true]
        exact prime_3969899)

theorem prime_115792089210356248762697446949407573529996955224135760342422259061068512044369 :
    Nat.Prime 115792089210356248762697446949407573529996955224135760342422259061068512044369 :=
  pocklington _ [(3407, 1, 2), (17449, 1, 2), (38189, 1, 2), (187019741, 1, 2), (622491383, 1, 2), (1002328039319, 1, 2)] (by decide +kernel)
    (by simp only [List.forall_mem_cons, List.not_mem_nil, false_implies, implies_true, and_true]
        exact ⟨prime_3407, prime_17449, prime_38189, prime_187019741, prime_622491383, prime_1002328039319⟩)

theorem prime_233 : Nat.Prime 233 := by norm_num

theorem prime_8389 :
    Nat.Prime 8389 :=
  pocklington _ [(233, 1, 2)] (by decide +kernel)
    (by simp only [List.forall_mem_cons, List.not_mem_nil, false_implies, implies_true, and_true]
        exact prime_233)

theorem prime_2 : Nat.Prime 2 := by norm_num

theorem prime_38557 :
    Nat.Prime 38557 :=
  pocklington _ [(2, 2, 2), (3, 4, 2)] (by decide +kernel)
    (by simp only [List.forall_mem_cons, List.not_mem_nil, false_implies, implies_true, and_true]
        exact ⟨prime_2, prime_3⟩)

theorem prime_271 : Nat.Prime 271 := by norm_num

theorem prime_3253 :
    Nat.Prime 3253 :=
  pocklington _ [(271, 1, 2)] (by decide +kernel)
    (by simp only [List.forall_mem_cons, List.not_mem_nil, false_implies, implies_true, and_true]
        exact prime_271)

theorem prime_312289 :
    Nat.Prime 312289 :=
  pocklington _ [(3253, 1, 2)] (by decide +kernel)
    (by simp only [List.forall_mem_cons, List.not_mem_nil, false_implies, implies_true, and_true]
        exact prime_3253)

theorem prime_59 : Nat.Prime 59 := by norm_num

theorem prime_599 : Nat.Prime 599 := by norm_num

theorem prime_513928823 :
    Nat.Prime 513928823 :=
  pocklington _ [(59, 1, 2), (599, 1, 2)] (by decide +kernel)
    (by simp only [List.forall_mem_cons, List.not_mem_nil, false_implies, implies_true, and_true]
        exact ⟨prime_59, prime_599⟩)

theorem prime_53448597593 :
    Nat.Prime 53448597593 :=
  pocklington _ [(513928823, 1, 2)] (by decide +kernel)
    (by simp only [List.forall_mem_cons, List.not_mem_nil, false_implies, implies_true, and_true]
        exact prime_513928823)

theorem prime_1357291859799823621 :
    Nat.Prime 1357291859799823621 :=
  pocklington _ [(53448597593, 1, 2)] (by decide +kernel)
    (by simp only [List.forall_mem_cons, List.not_mem_nil, false_implies, implies_true, and_true]
        exact prime_53448597593)

theorem prime_181 : Nat.Prime 181 := by norm_num

theorem prime_5 : Nat.Prime 5 := by norm_num

theorem prime_19 : Nat.Prime 19 := by norm_num

theorem prime_211 : Nat.Prime 211 := by norm_num

theorem prime_105957871 :
    Nat.Prime 105957871 :=
  pocklington _ [(5, 1, 2), (19, 1, 2), (211, 1, 2)] (by decide +kernel)
    (by simp only [List.forall_mem_cons, List.not_mem_nil, false_implies, implies_true, and_true]
        exact ⟨prime_5, prime_19, prime_211⟩)

theorem prime_529709925838459440593 :
    Nat.Prime 529709925838459440593 :=
  pocklington _ [(7, 1, 2), (181, 1, 2), (105957871, 1, 2)] (by decide +kernel)
    (by simp only [List.forall_mem_cons, List.not_mem_nil, false_implies, implies_true, and_true]
        exact ⟨prime_7, prime_181, prime_105957871⟩)

theorem prime_19173790298027098165721053155794528970226934547887232785722672956982046098136719667167519737147526097 :
    Nat.Prime 19173790298027098165721053155794528970226934547887232785722672956982046098136719667167519737147526097 :=
  pocklington _ [(8389, 1, 2), (38557, 1, 2), (312289, 1, 2), (1357291859799823621, 1, 2), (529709925838459440593, 1, 2)] (by decide +kernel)
    (by simp only [List.forall_mem_cons, List.not_mem_nil, false_implies, implies_true, and_true]
        exact ⟨prime_8389, prime_38557, prime_312289, prime_1357291859799823621, prime_529709925838459440593⟩)

theorem prime_39402006196394479212279040100143613805079739270465446667948293404245721771496870329047266088258938001861606973112319 :
    Nat.Prime 39402006196394479212279040100143613805079739270465446667948293404245721771496870329047266088258938001861606973112319 :=
  pocklington _ [(19173790298027098165721053155794528970226934547887232785722672956982046098136719667167519737147526097, 1, 2)] (by decide +kernel)
    (by simp only [List.forall_mem_cons, List.not_mem_nil, false_implies, implies_true, and_true]
        exact prime_19173790298027098165721053155794528970226934547887232785722672956982046098136719667167519737147526097)

theorem prime_251 : Nat.Prime 251 := by norm_num

theorem prime_248431 :
    Nat.Prime 248431 :=
  pocklington _ [(3, 1, 2), (5, 1, 2), (7, 2, 2)] (by decide +kernel)
    (by simp only [List.forall_mem_cons, List.not_mem_nil, false_implies, implies_true, and_true]
        exact ⟨prime_3, prime_5, prime_7⟩)

theorem prime_79 : Nat.Prime 79 := by norm_num

theorem prime_37447 :
    Nat.Prime 37447 :=
  pocklington _ [(79, 2, 2)] (by decide +kernel)
    (by simp only [List.forall_mem_cons, List.not_mem_nil, false_implies, implies_true, and_true]
        exact prime_79)

theorem prime_8463023 :
    Nat.Prime 8463023 :=
  pocklington _ [(37447, 1, 2)] (by decide +kernel)
    (by simp only [List.forall_mem_cons, List.not_mem_nil, false_implies, implies_true, and_true]
        exact prime_37447)

theorem prime_311 : Nat.Prime 311 := by norm_num

theorem prime_9863677 :
    Nat.Prime 9863677 :=
  pocklington _ [(2, 2, 2), (3, 2, 5), (311, 1, 2)] (by decide +kernel)
    (by simp only [List.forall_mem_cons, List.not_mem_nil, false_implies, implies_true, and_true]
        exact ⟨prime_2, prime_3, prime_311⟩)

theorem prime_37344768852931 :
    Nat.Prime 37344768852931 :=
  pocklington _ [(9863677, 1, 2)] (by decide +kernel)
    (by simp only [List.forall_mem_cons, List.not_mem_nil, false_implies, implies_true, and_true]
        exact prime_9863677)

theorem prime_55942463741690639 :
    Nat.Prime 55942463741690639 :=
  pocklington _ [(37344768852931, 1, 2)] (by decide +kernel)
    (by simp only [List.forall_mem_cons, List.not_mem_nil, false_implies, implies_true, and_true]
        exact prime_37344768852931)

theorem prime_1059392654943455286185473617842338478315215895509773412096307 :
    Nat.Prime 1059392654943455286185473617842338478315215895509773412096307 :=
  pocklington _ [(251, 1, 2), (248431, 1, 2), (8463023, 1, 2), (55942463741690639, 1, 2)] (by decide +kernel)
    (by simp only [List.forall_mem_cons, List.not_mem_nil, false_implies, implies_true, and_true]
        exact ⟨prime_251, prime_248431, prime_8463023, prime_55942463741690639⟩)

theorem prime_3055465788140352002733946906144561090641249606160407884365391979704929268480326390471 :
    Nat.Prime 3055465788140352002733946906144561090641249606160407884365391979704929268480326390471 :=
  pocklington _ [(1059392654943455286185473617842338478315215895509773412096307, 1, 2)] (by decide +kernel)
    (by simp only [List.forall_mem_cons, List.not_mem_nil, false_implies, implies_true, and_true]
        exact prime_1059392654943455286185473617842338478315215895509773412096307)

theorem prime_39402006196394479212279040100143613805079739270465446667946905279627659399113263569398956308152294913554433653942643 :
    Nat.Prime 39402006196394479212279040100143613805079739270465446667946905279627659399113263569398956308152294913554433653942643 :=
  pocklington _ [(3055465788140352002733946906144561090641249606160407884365391979704929268480326390471, 1, 2)] (by decide +kernel)
    (by simp only [List.forall_mem_cons, List.not_mem_nil, false_implies, implies_true, and_true]
        exact prime_3055465788140352002733946906144561090641249606160407884365391979704929268480326390471)

theorem prime_223 : Nat.Prime 223 := by norm_num

theorem prime_151 : Nat.Prime 151 := by norm_num

theorem prime_8620289 :
    Nat.Prime 8620289 :=
  pocklington _ [(223, 1, 2), (151, 1, 2)] (by decide +kernel)
    (by simp only [List.forall_mem_cons, List.not_mem_nil, false_implies, implies_true, and_true]
        exact ⟨prime_223, prime_151⟩)

theorem prime_2534364967 :
    Nat.Prime 2534364967 :=
  pocklington _ [(8620289, 1, 2)] (by decide +kernel)
    (by simp only [List.forall_mem_cons, List.not_mem_nil, false_implies, implies_true, and_true]
        exact prime_8620289)

theorem prime_145295143558111 :
    Nat.Prime 145295143558111 :=
  pocklington _ [(2534364967, 1, 3)] (by decide +kernel)
    (by simp only [List.forall_mem_cons, List.not_mem_nil, false_implies, implies_true, and_true]
        exact prime_2534364967)

theorem prime_397 : Nat.Prime 397 := by norm_num

theorem prime_2995763 :
    Nat.Prime 2995763 :=
  pocklington _ [(397, 1, 2), (11, 1, 2)] (by decide +kernel)
    (by simp only [List.forall_mem_cons, List.not_mem_nil, false_implies, implies_true, and_true]
        exact ⟨prime_397, prime_11⟩)

theorem prime_65427463921 :
    Nat.Prime 65427463921 :=
  pocklington _ [(2995763, 1, 3)] (by decide +kernel)
    (by simp only [List.forall_mem_cons, List.not_mem_nil, false_implies, implies_true, and_true]
        exact prime_2995763)

theorem prime_1663 : Nat.Prime 1663 := by norm_num

theorem prime_347 : Nat.Prime 347 := by norm_num

theorem prime_2400573761 :
    Nat.Prime 2400573761 :=
  pocklington _ [(1663, 1, 3), (347, 1, 3)] (by decide +kernel)
    (by simp only [List.forall_mem_cons, List.not_mem_nil, false_implies, implies_true, and_true]
        exact ⟨prime_1663, prime_347⟩)

theorem prime_1237 : Nat.Prime 1237 := by norm_num

theorem prime_49481 :
    Nat.Prime 49481 :=
  pocklington _ [(1237, 1, 2)] (by decide +kernel)
    (by simp only [List.forall_mem_cons, List.not_mem_nil, false_implies, implies_true, and_true]
        exact prime_1237)

theorem prime_308761441 :
    Nat.Prime 308761441 :=
  pocklington _ [(49481, 1, 3)] (by decide +kernel)
    (by simp only [List.forall_mem_cons, List.not_mem_nil, false_implies, implies_true, and_true]
        exact prime_49481)

theorem prime_1381 : Nat.Prime 1381 := by norm_num

theorem prime_34110701 :
    Nat.Prime 34110701 :=
  pocklington _ [(1381, 1, 3), (19, 1, 3)] (by decide +kernel)
    (by simp only [List.forall_mem_cons, List.not_mem_nil, false_implies, implies_true, and_true]
        exact ⟨prime_1381, prime_19⟩)

theorem prime_317 : Nat.Prime 317 := by norm_num

theorem prime_7623851 :
    Nat.Prime 7623851 :=
  pocklington _ [(317, 1, 3), (37, 1, 3)] (by decide +kernel)
    (by simp only [List.forall_mem_cons, List.not_mem_nil, false_implies, implies_true, and_true]
        exact ⟨prime_317, prime_37⟩)

theorem prime_13 : Nat.Prime 13 := by norm_num

theorem prime_5746001 :
    Nat.Prime 5746001 :=
  pocklington _ [(17, 1, 3), (13, 2, 3)] (by decide +kernel)
    (by simp only [List.forall_mem_cons, List.not_mem_nil, false_implies, implies_true, and_true]
        exact ⟨prime_17, prime_13⟩)

theorem prime_858001 :
    Nat.Prime 858001 :=
  pocklington _ [(13, 1, 2), (11, 1, 3), (5, 3, 3)] (by decide +kernel)
    (by simp only [List.forall_mem_cons, List.not_mem_nil, false_implies, implies_true, and_true]
        exact ⟨prime_13, prime_11, prime_5⟩)

theorem prime_1051 : Nat.Prime 1051 := by norm_num

theorem prime_409891 :
    Nat.Prime 409891 :=
  pocklington _ [(1051, 1, 3)] (by decide +kernel)
    (by simp only [List.forall_mem_cons, List.not_mem_nil, false_implies, implies_true, and_true]
        exact prime_1051)

theorem prime_257 : Nat.Prime 257 := by norm_num

theorem prime_61681 :
    Nat.Prime 61681 :=
  pocklington _ [(257, 1, 3)] (by decide +kernel)
    (by simp only [List.forall_mem_cons, List.not_mem_nil, false_implies, implies_true, and_true]
        exact prime_257)

theorem prime_6864797660130609714981900799081393217269435300143305409394463459185543183397656052122559640661454554977296311391480858037121987999716643812574028291115057151 :
    Nat.Prime 6864797660130609714981900799081393217269435300143305409394463459185543183397656052122559640661454554977296311391480858037121987999716643812574028291115057151 :=
  pocklington _ [(145295143558111, 1, 3), (65427463921, 1, 3), (2400573761, 1, 3), (308761441, 1, 3), (34110701, 1, 3), (7623851, 1, 3), (5746001, 1, 3), (858001, 1, 3), (409891, 1, 3), (61681, 1, 3)] (by decide +kernel)
    (by simp only [List.forall_mem_cons, List.not_mem_nil, false_implies, implies_true, and_true]
        exact ⟨prime_145295143558111, prime_65427463921, prime_2400573761, prime_308761441, prime_34110701, prime_7623851, prime_5746001, prime_858001, prime_409891, prime_61681⟩)

theorem prime_759229 :
    Nat.Prime 759229 :=
  pocklington _ [(419, 1, 2), (151, 1, 2)] (by decide +kernel)
    (by simp only [List.forall_mem_cons, List.not_mem_nil, false_implies, implies_true, and_true]
        exact ⟨prime_419, prime_151⟩)

theorem prime_1033 : Nat.Prime 1033 := by norm_num

theorem prime_10331 :
    Nat.Prime 10331 :=
  pocklington _ [(1033, 1, 2)] (by decide +kernel)
    (by simp only [List.forall_mem_cons, List.not_mem_nil, false_implies, implies_true, and_true]
        exact prime_1033)

theorem prime_123973 :
    Nat.Prime 123973 :=
  pocklington _ [(10331, 1, 2)] (by decide +kernel)
    (by simp only [List.forall_mem_cons, List.not_mem_nil, false_implies, implies_true, and_true]
        exact prime_10331)

theorem prime_1060588069333957 :
    Nat.Prime 1060588069333957 :=
  pocklington _ [(759229, 1, 2), (123973, 1, 2)] (by decide +kernel)
    (by simp only [List.forall_mem_cons, List.not_mem_nil, false_implies, implies_true, and_true]
        exact ⟨prime_759229, prime_123973⟩)

theorem prime_4773751485073399117884367 :
    Nat.Prime 4773751485073399117884367 :=
  pocklington _ [(1060588069333957, 1, 2)] (by decide +kernel)
    (by simp only [List.forall_mem_cons, List.not_mem_nil, false_implies, implies_true, and_true]
        exact prime_1060588069333957)

set_option maxHeartbeats 4000000 in
-- The kernel computation alone may exceed the default.
theorem prime_18947019644256368446067973007 :
    Nat.Prime 18947019644256368446067973007 :=
  ecpp _ 0
    16637088554073281880245268729
    (1474798997062713576925725538,
     13936634990964580052775733638)
    _ prime_4773751485073399117884367 (by decide +kernel)

theorem prime_5016185007503485546367482466146698527071 :
    Nat.Prime 5016185007503485546367482466146698527071 :=
  pocklington _ [(18947019644256368446067973007, 1, 2)] (by decide +kernel)
    (by simp only [List.forall_mem_cons, List.not_mem_nil, false_implies, implies_true, and_true]
        exact prime_18947019644256368446067973007)

theorem prime_1127827528743888283741704367946629547703737558813298171739 :
    Nat.Prime 1127827528743888283741704367946629547703737558813298171739 :=
  pocklington _ [(5016185007503485546367482466146698527071, 1, 2)] (by decide +kernel)
    (by simp only [List.forall_mem_cons, List.not_mem_nil, false_implies, implies_true, and_true]
        exact prime_5016185007503485546367482466146698527071)

theorem prime_103970754670018769219954328160078459989676474322309227466726277971713 :
    Nat.Prime 103970754670018769219954328160078459989676474322309227466726277971713 :=
  pocklington _ [(1127827528743888283741704367946629547703737558813298171739, 1, 2)] (by decide +kernel)
    (by simp only [List.forall_mem_cons, List.not_mem_nil, false_implies, implies_true, and_true]
        exact prime_1127827528743888283741704367946629547703737558813298171739)

set_option maxHeartbeats 4000000 in
-- The kernel computation alone may exceed the default.
theorem prime_510808317693802213177635614250465472899117194331543116861687380940875343 :
    Nat.Prime 510808317693802213177635614250465472899117194331543116861687380940875343 :=
  ecpp _ 140561324864110340982753228978981295425513203527358225513960016394260604
    126878380762477612679929138425072890235981616852752251497055378842457868
    (118582764940241944128332337620516138817490513963629908508103813731380472,
     18362157088648800458156115206200834364432448632703452799705533964933010)
    _ prime_103970754670018769219954328160078459989676474322309227466726277971713 (by decide +kernel)

set_option maxHeartbeats 4000000 in
-- The kernel computation alone may exceed the default.
theorem prime_24093806728981262791162716652965955425427408270275195748992371966772755794727 :
    Nat.Prime 24093806728981262791162716652965955425427408270275195748992371966772755794727 :=
  ecpp _ 22000238630804557953373107032133070512843406872639044917885650523364089520894
    9959400062631214796617464002595425950655317974699956531096358849793126634424
    (2034335139254652980962163402680649905990212103760198680699614914964158052052,
     4143427422010837057125606935727673184596042897807630073353445142415231749306)
    _ prime_510808317693802213177635614250465472899117194331543116861687380940875343 (by decide +kernel)

theorem prime_10023023599256205321123690127633837456977801840434481431580826738177466410606433 :
    Nat.Prime 10023023599256205321123690127633837456977801840434481431580826738177466410606433 :=
  pocklington _ [(24093806728981262791162716652965955425427408270275195748992371966772755794727, 1, 2)] (by decide +kernel)
    (by simp only [List.forall_mem_cons, List.not_mem_nil, false_implies, implies_true, and_true]
        exact prime_24093806728981262791162716652965955425427408270275195748992371966772755794727)

theorem prime_26396455358464290861024406425856767383597184798714873393172974232410680875129956702733507 :
    Nat.Prime 26396455358464290861024406425856767383597184798714873393172974232410680875129956702733507 :=
  pocklington _ [(10023023599256205321123690127633837456977801840434481431580826738177466410606433, 1, 2)] (by decide +kernel)
    (by simp only [List.forall_mem_cons, List.not_mem_nil, false_implies, implies_true, and_true]
        exact prime_10023023599256205321123690127633837456977801840434481431580826738177466410606433)

set_option maxHeartbeats 4000000 in
-- The kernel computation alone may exceed the default.
theorem prime_719872067355939322180934123892229143542768119917212289942415688934391953959091449323468121531371 :
    Nat.Prime 719872067355939322180934123892229143542768119917212289942415688934391953959091449323468121531371 :=
  ecpp _ 0
    521477417638812320837578935568691846358837786214004576845629568163942465637439311865533258196519
    (9476633220756104707433536392032130348161216965316696403978313542119142066673635282577742053650,
     309835194832069019650901839032308097435554543005793872374364013166183070540278096894473068831758)
    _ prime_26396455358464290861024406425856767383597184798714873393172974232410680875129956702733507 (by decide +kernel)

set_option maxHeartbeats 4000000 in
-- The kernel computation alone may exceed the default.
theorem prime_85078080280461688791953699432203101329602050252415760415303637991055214905752024042387402916476881727 :
    Nat.Prime 85078080280461688791953699432203101329602050252415760415303637991055214905752024042387402916476881727 :=
  ecpp _ 35848406004432893401462669977043844557329389216160394967320068901074803307058061896723520127777590270
    18446619400044123749435347596046522913858350911328056473193120441519932408379296208752185407123252177
    (79672605983898370230189295161155792279394663787053038893849053485499642360904368982680129883637007573,
     83468135287470835355031149921074455190083918132214667944178947292678235742127325967764644189613156791)
    _ prime_719872067355939322180934123892229143542768119917212289942415688934391953959091449323468121531371 (by decide +kernel)

set_option maxHeartbeats 4000000 in
-- The kernel computation alone may exceed the default.
theorem prime_3636410625392624440351547907325502812950802686368714273274221490761556277859337865760708490235892541081304511 :
    Nat.Prime 3636410625392624440351547907325502812950802686368714273274221490761556277859337865760708490235892541081304511 :=
  ecpp _ 594875526994080380822727677244743660235710586308652673895023855280072180497943010052256986318088168704341976
    3624677032875454539113781583204850177460947535878652410750382746104782534199902705180306982710925141442867941
    (1323874474191326365478765199645907659089260241246310015311380810930582697603653636920470974189893898537766682,
     1931330347305586557475907469783642500922287852357017256407984856162193692516627341617890567519464593913841345)
    _ prime_85078080280461688791953699432203101329602050252415760415303637991055214905752024042387402916476881727 (by decide +kernel)

theorem prime_3615194794881930010216942559103847593050265703173292383701371712350878926821661243755933835426896058418509759880171943 :
    Nat.Prime 3615194794881930010216942559103847593050265703173292383701371712350878926821661243755933835426896058418509759880171943 :=
  pocklington _ [(3636410625392624440351547907325502812950802686368714273274221490761556277859337865760708490235892541081304511, 1, 2)] (by decide +kernel)
    (by simp only [List.forall_mem_cons, List.not_mem_nil, false_implies, implies_true, and_true]
        exact prime_3636410625392624440351547907325502812950802686368714273274221490761556277859337865760708490235892541081304511)

theorem prime_6864797660130609714981900799081393217269435300143305409394463459185543183397655394245057746333217197532963996371363321113864768612440380340372808892707005449 :
    Nat.Prime 6864797660130609714981900799081393217269435300143305409394463459185543183397655394245057746333217197532963996371363321113864768612440380340372808892707005449 :=
  pocklington _ [(3615194794881930010216942559103847593050265703173292383701371712350878926821661243755933835426896058418509759880171943, 1, 2)] (by decide +kernel)
    (by simp only [List.forall_mem_cons, List.not_mem_nil, false_implies, implies_true, and_true]
        exact prime_3615194794881930010216942559103847593050265703173292383701371712350878926821661243755933835426896058418509759880171943)

theorem p25519_prime : Nat.Prime 57896044618658097711785492504343953926634992332820282019728792003956564819949 := prime_57896044618658097711785492504343953926634992332820282019728792003956564819949

theorem l25519_prime : Nat.Prime 7237005577332262213973186563042994240857116359379907606001950938285454250989 := prime_7237005577332262213973186563042994240857116359379907606001950938285454250989

theorem p256p_prime : Nat.Prime 115792089210356248762697446949407573530086143415290314195533631308867097853951 := prime_115792089210356248762697446949407573530086143415290314195533631308867097853951

theorem p256n_prime : Nat.Prime 115792089210356248762697446949407573529996955224135760342422259061068512044369 := prime_115792089210356248762697446949407573529996955224135760342422259061068512044369

theorem p384p_prime : Nat.Prime 39402006196394479212279040100143613805079739270465446667948293404245721771496870329047266088258938001861606973112319 := prime_39402006196394479212279040100143613805079739270465446667948293404245721771496870329047266088258938001861606973112319

theorem p384n_prime : Nat.Prime 39402006196394479212279040100143613805079739270465446667946905279627659399113263569398956308152294913554433653942643 := prime_39402006196394479212279040100143613805079739270465446667946905279627659399113263569398956308152294913554433653942643

theorem p521p_prime : Nat.Prime 6864797660130609714981900799081393217269435300143305409394463459185543183397656052122559640661454554977296311391480858037121987999716643812574028291115057151 := prime_6864797660130609714981900799081393217269435300143305409394463459185543183397656052122559640661454554977296311391480858037121987999716643812574028291115057151

theorem p521n_prime : Nat.Prime 6864797660130609714981900799081393217269435300143305409394463459185543183397655394245057746333217197532963996371363321113864768612440380340372808892707005449 := prime_6864797660130609714981900799081393217269435300143305409394463459185543183397655394245057746333217197532963996371363321113864768612440380340372808892707005449

end Voprf.Curve
