import Verif.Lemmas.Least

/-
Generated: why there is no prime between the numbers that the permutations of 512 bytes permute and their modulus (aiootp/_constants/datasets.py:45-369).
Each row of a table has an offset and a factor; the numbers that have no row and no factor up to 4096 fail Fermat's test.
-/

-- one after the other, to save memory
set_option Elab.async false

namespace Aiootp.Primes

theorem gap_512_1 : ∀ m, 2 ^ 4096 + 0 ≤ m → m < 2 ^ 4096 + 0 + 450 → ¬ m.Prime :=
  not_prime_of_gapCheck (n := 12) (table := [
    (1, 114689), (27, 609757), (31, 20759), (81, 7336369), (93, 13049), (115, 129087473), (147, 10837), (157, 5147), (177, 6247), (181, 10658359),
    (207, 16453), (225, 105769), (241, 7159), (265, 22147), (273, 4757041), (291, 12037), (315, 1479451), (331, 5807), (345, 3560712989), (367, 80021),
    (403, 2498521)]) (by decide +kernel)

theorem gap_512_2 : ∀ m, 2 ^ 4096 + 450 ≤ m → m < 2 ^ 4096 + 450 + 450 → ¬ m.Prime :=
  not_prime_of_gapCheck (n := 12) (table := [
    (21, 1214985029), (43, 13441), (51, 261071), (61, 1120157), (133, 8761), (153, 1420583), (163, 4481), (165, 5306461), (177, 18223), (237, 8641),
    (295, 12169279), (337, 1567987), (357, 192859), (361, 6163), (373, 519420883), (375, 58039403), (397, 8563), (403, 48361451), (411, 32194637),
    (415, 12757), (435, 20951173)]) (by decide +kernel)

theorem gap_512_3 : ∀ m, 2 ^ 4096 + 900 ≤ m → m < 2 ^ 4096 + 900 + 430 → ¬ m.Prime :=
  not_prime_of_gapCheck (n := 12) (table := [
    (31, 2030959037), (45, 12721), (67, 925679), (93, 8537), (105, 11399), (145, 90617), (171, 393697), (195, 10957), (201, 142509361), (243, 44549),
    (247, 13350187), (285, 66601), (297, 15595061), (331, 22193), (333, 19183), (387, 917513), (405, 4892579), (415, 67644491), (417, 2337869)]) (by decide +kernel)

theorem gap_512_4 : ∀ m, 2 ^ 4096 + 1330 ≤ m → m < 2 ^ 4096 + 1330 + 431 → ¬ m.Prime :=
  not_prime_of_gapCheck (n := 12) (table := [
    (53, 145284331), (105, 8753), (141, 1636277), (147, 1687193), (171, 9811), (191, 4229), (203, 103511), (231, 697087), (237, 46337), (255, 437708213),
    (275, 5711), (293, 547007), (315, 780179), (317, 443413), (365, 1322173), (381, 11317), (395, 9084991), (407, 10303)]) (by decide +kernel)

theorem gap_512 : ∀ m, 2 ^ 4096 ≤ m → m < 2 ^ 4096 + 1761 → ¬ m.Prime := by
  intro m h1 h2
  generalize hb : 2 ^ 4096 = b at h1 h2
  have g1 := gap_512_1 m
  have g2 := gap_512_2 m
  have g3 := gap_512_3 m
  have g4 := gap_512_4 m
  rw [hb] at g1 g2 g3 g4
  rcases Nat.lt_or_ge m (b + 450) with h | h
  · exact g1 (by omega) (by omega)
  · rcases Nat.lt_or_ge m (b + 900) with h | h
    · exact g2 (by omega) (by omega)
    · rcases Nat.lt_or_ge m (b + 1330) with h | h
      · exact g3 (by omega) (by omega)
      · exact g4 (by omega) (by omega)

end Aiootp.Primes
