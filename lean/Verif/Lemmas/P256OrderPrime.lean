import Verif.Lemmas.P256Prime
/-
The order of the base point of P-256 is a prime number: a Pratt certificate checked by the kernel.
-/
namespace Verif.P256

theorem prime_3407 : Nat.Prime 3407 :=
  pratt 3407 5 [(2, 1), (13, 1), (131, 1)] (by decide +kernel)
    (List.forall_mem_cons.2 ⟨(by norm_num : Nat.Prime 2), (List.forall_mem_cons.2 ⟨(by norm_num : Nat.Prime 13), (List.forall_mem_cons.2 ⟨(by norm_num : Nat.Prime 131), (List.forall_mem_nil _)⟩)⟩)⟩)
    (by decide +kernel) (by decide +kernel) (by decide +kernel)

theorem prime_9547 : Nat.Prime 9547 :=
  pratt 9547 2 [(2, 1), (3, 1), (37, 1), (43, 1)] (by decide +kernel)
    (List.forall_mem_cons.2 ⟨(by norm_num : Nat.Prime 2), (List.forall_mem_cons.2 ⟨(by norm_num : Nat.Prime 3), (List.forall_mem_cons.2 ⟨(by norm_num : Nat.Prime 37), (List.forall_mem_cons.2 ⟨(by norm_num : Nat.Prime 43), (List.forall_mem_nil _)⟩)⟩)⟩)⟩)
    (by decide +kernel) (by decide +kernel) (by decide +kernel)

theorem prime_38189 : Nat.Prime 38189 :=
  pratt 38189 2 [(2, 2), (9547, 1)] (by decide +kernel)
    (List.forall_mem_cons.2 ⟨(by norm_num : Nat.Prime 2), (List.forall_mem_cons.2 ⟨prime_9547, (List.forall_mem_nil _)⟩)⟩)
    (by decide +kernel) (by decide +kernel) (by decide +kernel)

theorem prime_9350987 : Nat.Prime 9350987 :=
  pratt 9350987 2 [(2, 1), (17, 1), (229, 1), (1201, 1)] (by decide +kernel)
    (List.forall_mem_cons.2 ⟨(by norm_num : Nat.Prime 2), (List.forall_mem_cons.2 ⟨(by norm_num : Nat.Prime 17), (List.forall_mem_cons.2 ⟨(by norm_num : Nat.Prime 229), (List.forall_mem_cons.2 ⟨(by norm_num : Nat.Prime 1201), (List.forall_mem_nil _)⟩)⟩)⟩)⟩)
    (by decide +kernel) (by decide +kernel) (by decide +kernel)

theorem prime_187019741 : Nat.Prime 187019741 :=
  pratt 187019741 2 [(2, 2), (5, 1), (9350987, 1)] (by decide +kernel)
    (List.forall_mem_cons.2 ⟨(by norm_num : Nat.Prime 2), (List.forall_mem_cons.2 ⟨(by norm_num : Nat.Prime 5), (List.forall_mem_cons.2 ⟨prime_9350987, (List.forall_mem_nil _)⟩)⟩)⟩)
    (by decide +kernel) (by decide +kernel) (by decide +kernel)

theorem prime_311245691 : Nat.Prime 311245691 :=
  pratt 311245691 2 [(2, 1), (5, 1), (7, 1), (17, 1), (29, 2), (311, 1)] (by decide +kernel)
    (List.forall_mem_cons.2 ⟨(by norm_num : Nat.Prime 2), (List.forall_mem_cons.2 ⟨(by norm_num : Nat.Prime 5), (List.forall_mem_cons.2 ⟨(by norm_num : Nat.Prime 7), (List.forall_mem_cons.2 ⟨(by norm_num : Nat.Prime 17), (List.forall_mem_cons.2 ⟨(by norm_num : Nat.Prime 29), (List.forall_mem_cons.2 ⟨(by norm_num : Nat.Prime 311), (List.forall_mem_nil _)⟩)⟩)⟩)⟩)⟩)⟩)
    (by decide +kernel) (by decide +kernel) (by decide +kernel)

theorem prime_622491383 : Nat.Prime 622491383 :=
  pratt 622491383 5 [(2, 1), (311245691, 1)] (by decide +kernel)
    (List.forall_mem_cons.2 ⟨(by norm_num : Nat.Prime 2), (List.forall_mem_cons.2 ⟨prime_311245691, (List.forall_mem_nil _)⟩)⟩)
    (by decide +kernel) (by decide +kernel) (by decide +kernel)

theorem prime_126241 : Nat.Prime 126241 :=
  pratt 126241 7 [(2, 5), (3, 1), (5, 1), (263, 1)] (by decide +kernel)
    (List.forall_mem_cons.2 ⟨(by norm_num : Nat.Prime 2), (List.forall_mem_cons.2 ⟨(by norm_num : Nat.Prime 3), (List.forall_mem_cons.2 ⟨(by norm_num : Nat.Prime 5), (List.forall_mem_cons.2 ⟨(by norm_num : Nat.Prime 263), (List.forall_mem_nil _)⟩)⟩)⟩)⟩)
    (by decide +kernel) (by decide +kernel) (by decide +kernel)

theorem prime_104471 : Nat.Prime 104471 :=
  pratt 104471 11 [(2, 1), (5, 1), (31, 1), (337, 1)] (by decide +kernel)
    (List.forall_mem_cons.2 ⟨(by norm_num : Nat.Prime 2), (List.forall_mem_cons.2 ⟨(by norm_num : Nat.Prime 5), (List.forall_mem_cons.2 ⟨(by norm_num : Nat.Prime 31), (List.forall_mem_cons.2 ⟨(by norm_num : Nat.Prime 337), (List.forall_mem_nil _)⟩)⟩)⟩)⟩)
    (by decide +kernel) (by decide +kernel) (by decide +kernel)

theorem prime_3969899 : Nat.Prime 3969899 :=
  pratt 3969899 2 [(2, 1), (19, 1), (104471, 1)] (by decide +kernel)
    (List.forall_mem_cons.2 ⟨(by norm_num : Nat.Prime 2), (List.forall_mem_cons.2 ⟨(by norm_num : Nat.Prime 19), (List.forall_mem_cons.2 ⟨prime_104471, (List.forall_mem_nil _)⟩)⟩)⟩)
    (by decide +kernel) (by decide +kernel) (by decide +kernel)

theorem prime_1002328039319 : Nat.Prime 1002328039319 :=
  pratt 1002328039319 19 [(2, 1), (126241, 1), (3969899, 1)] (by decide +kernel)
    (List.forall_mem_cons.2 ⟨(by norm_num : Nat.Prime 2), (List.forall_mem_cons.2 ⟨prime_126241, (List.forall_mem_cons.2 ⟨prime_3969899, (List.forall_mem_nil _)⟩)⟩)⟩)
    (by decide +kernel) (by decide +kernel) (by decide +kernel)

theorem prime_16879 : Nat.Prime 16879 :=
  pratt 16879 3 [(2, 1), (3, 1), (29, 1), (97, 1)] (by decide +kernel)
    (List.forall_mem_cons.2 ⟨(by norm_num : Nat.Prime 2), (List.forall_mem_cons.2 ⟨(by norm_num : Nat.Prime 3), (List.forall_mem_cons.2 ⟨(by norm_num : Nat.Prime 29), (List.forall_mem_cons.2 ⟨(by norm_num : Nat.Prime 97), (List.forall_mem_nil _)⟩)⟩)⟩)⟩)
    (by decide +kernel) (by decide +kernel) (by decide +kernel)

theorem prime_3023 : Nat.Prime 3023 :=
  pratt 3023 5 [(2, 1), (1511, 1)] (by decide +kernel)
    (List.forall_mem_cons.2 ⟨(by norm_num : Nat.Prime 2), (List.forall_mem_cons.2 ⟨(by norm_num : Nat.Prime 1511), (List.forall_mem_nil _)⟩)⟩)
    (by decide +kernel) (by decide +kernel) (by decide +kernel)

theorem prime_155317 : Nat.Prime 155317 :=
  pratt 155317 5 [(2, 2), (3, 1), (7, 1), (43, 2)] (by decide +kernel)
    (List.forall_mem_cons.2 ⟨(by norm_num : Nat.Prime 2), (List.forall_mem_cons.2 ⟨(by norm_num : Nat.Prime 3), (List.forall_mem_cons.2 ⟨(by norm_num : Nat.Prime 7), (List.forall_mem_cons.2 ⟨(by norm_num : Nat.Prime 43), (List.forall_mem_nil _)⟩)⟩)⟩)⟩)
    (by decide +kernel) (by decide +kernel) (by decide +kernel)

theorem prime_191039911 : Nat.Prime 191039911 :=
  pratt 191039911 3 [(2, 1), (3, 1), (5, 1), (41, 1), (155317, 1)] (by decide +kernel)
    (List.forall_mem_cons.2 ⟨(by norm_num : Nat.Prime 2), (List.forall_mem_cons.2 ⟨(by norm_num : Nat.Prime 3), (List.forall_mem_cons.2 ⟨(by norm_num : Nat.Prime 5), (List.forall_mem_cons.2 ⟨(by norm_num : Nat.Prime 41), (List.forall_mem_cons.2 ⟨prime_155317, (List.forall_mem_nil _)⟩)⟩)⟩)⟩)⟩)
    (by decide +kernel) (by decide +kernel) (by decide +kernel)

theorem prime_208150935158385979 : Nat.Prime 208150935158385979 :=
  pratt 208150935158385979 2 [(2, 1), (3, 1), (11, 1), (43, 1), (127, 1), (3023, 1), (191039911, 1)] (by decide +kernel)
    (List.forall_mem_cons.2 ⟨(by norm_num : Nat.Prime 2), (List.forall_mem_cons.2 ⟨(by norm_num : Nat.Prime 3), (List.forall_mem_cons.2 ⟨(by norm_num : Nat.Prime 11), (List.forall_mem_cons.2 ⟨(by norm_num : Nat.Prime 43), (List.forall_mem_cons.2 ⟨(by norm_num : Nat.Prime 127), (List.forall_mem_cons.2 ⟨prime_3023, (List.forall_mem_cons.2 ⟨prime_191039911, (List.forall_mem_nil _)⟩)⟩)⟩)⟩)⟩)⟩)⟩)
    (by decide +kernel) (by decide +kernel) (by decide +kernel)

theorem prime_2624747550333869278416773953 : Nat.Prime 2624747550333869278416773953 :=
  pratt 2624747550333869278416773953 7 [(2, 6), (3, 2), (1297, 1), (16879, 1), (208150935158385979, 1)] (by decide +kernel)
    (List.forall_mem_cons.2 ⟨(by norm_num : Nat.Prime 2), (List.forall_mem_cons.2 ⟨(by norm_num : Nat.Prime 3), (List.forall_mem_cons.2 ⟨(by norm_num : Nat.Prime 1297), (List.forall_mem_cons.2 ⟨prime_16879, (List.forall_mem_cons.2 ⟨prime_208150935158385979, (List.forall_mem_nil _)⟩)⟩)⟩)⟩)⟩)
    (by decide +kernel) (by decide +kernel) (by decide +kernel)

theorem prime_115792089210356248762697446949407573529996955224135760342422259061068512044369 : Nat.Prime 115792089210356248762697446949407573529996955224135760342422259061068512044369 :=
  pratt 115792089210356248762697446949407573529996955224135760342422259061068512044369 7 [(2, 4), (3, 1), (71, 1), (131, 1), (373, 1), (3407, 1), (17449, 1), (38189, 1), (187019741, 1), (622491383, 1), (1002328039319, 1), (2624747550333869278416773953, 1)] (by decide +kernel)
    (List.forall_mem_cons.2 ⟨(by norm_num : Nat.Prime 2), (List.forall_mem_cons.2 ⟨(by norm_num : Nat.Prime 3), (List.forall_mem_cons.2 ⟨(by norm_num : Nat.Prime 71), (List.forall_mem_cons.2 ⟨(by norm_num : Nat.Prime 131), (List.forall_mem_cons.2 ⟨(by norm_num : Nat.Prime 373), (List.forall_mem_cons.2 ⟨prime_3407, (List.forall_mem_cons.2 ⟨prime_17449, (List.forall_mem_cons.2 ⟨prime_38189, (List.forall_mem_cons.2 ⟨prime_187019741, (List.forall_mem_cons.2 ⟨prime_622491383, (List.forall_mem_cons.2 ⟨prime_1002328039319, (List.forall_mem_cons.2 ⟨prime_2624747550333869278416773953, (List.forall_mem_nil _)⟩)⟩)⟩)⟩)⟩)⟩)⟩)⟩)⟩)⟩)⟩)⟩)
    (by decide +kernel) (by decide +kernel) (by decide +kernel)

/-- the order of the base point -/
theorem prime_n256 : Nat.Prime 0xffffffff00000000ffffffffffffffffbce6faada7179e84f3b9cac2fc632551 :=
  prime_115792089210356248762697446949407573529996955224135760342422259061068512044369

end Verif.P256
