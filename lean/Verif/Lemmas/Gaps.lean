import Verif.Lemmas.Least

/-
Generated: why there is no prime between the numbers that the larger permutations permute and their moduli (aiootp/_constants/datasets.py:45-369).
Each row of a table has an offset and a factor; the numbers that have no row and no factor up to 4096 fail Fermat's test.
-/

namespace Aiootp.Primes

theorem gap_128 : ∀ m, 2 ^ 1024 ≤ m → m < 2 ^ 1024 + 643 → ¬ m.Prime :=
  not_prime_of_gapCheck (n := 12) (table := [
    (1, 45592577), (7, 1391233), (51, 18077), (55, 55117), (93, 68821889), (111, 332989), (115, 11969), (163, 69326693), (225, 480989), (247, 72613),
    (267, 25357), (273, 1872769), (301, 4889), (321, 4673), (331, 39070001), (333, 189817), (345, 11445223), (351, 60539), (363, 93187),
    (385, 112303), (405, 7321), (415, 1978981), (417, 80627693), (421, 14433533), (423, 14609999), (427, 39311291), (445, 621431), (483, 70765837),
    (487, 864733), (531, 35291), (561, 86743), (585, 381443), (597, 222437), (637, 4005008611)]) (by decide +kernel)

theorem gap_192 : ∀ m, 2 ^ 1536 ≤ m → m < 2 ^ 1536 + 75 → ¬ m.Prime :=
  not_prime_of_gapCheck (n := 12) (table := [
    (1, 2424833), (15, 62886953), (21, 15797)]) (by decide +kernel)

theorem gap_256 : ∀ m, 2 ^ 2048 ≤ m → m < 2 ^ 2048 + 981 → ¬ m.Prime :=
  not_prime_of_gapCheck (n := 12) (table := [
    (1, 319489), (25, 6277), (61, 7574734451), (81, 285553), (93, 11257), (117, 27585043), (123, 6781), (175, 5578402433), (183, 6451),
    (207, 7655071), (235, 80287), (243, 52153), (291, 3038927), (301, 91079), (313, 4481), (315, 9847003), (321, 900607), (337, 129893),
    (345, 10259), (351, 47717819), (375, 362237), (405, 77587), (427, 24979), (445, 1705399), (463, 6469), (501, 5443727), (531, 6377549),
    (553, 5354820997), (555, 60948457), (565, 15417511), (567, 1064333), (637, 16069), (673, 2849552773), (681, 82021), (691, 802759), (711, 10301),
    (721, 603847), (727, 9661), (777, 163127), (793, 30859), (795, 1521259673), (805, 97245319), (831, 486869), (835, 21089), (853, 10181),
    (907, 980687), (915, 3102431), (957, 567107), (967, 66069149)]) (by decide +kernel)

theorem gap_320 : ∀ m, 2 ^ 2560 ≤ m → m < 2 ^ 2560 + 903 → ¬ m.Prime :=
  not_prime_of_gapCheck (n := 12) (table := [
    (1, 61441), (31, 13264067), (45, 38037827), (63, 166994297), (73, 35911), (151, 8377), (165, 3150683), (177, 250813), (183, 4691),
    (195, 180106943), (211, 162757997), (235, 138469), (253, 164291431), (277, 214309), (321, 26513), (325, 1690218811), (337, 4787), (363, 4685413),
    (403, 6571), (445, 713903), (463, 137224847), (477, 42470677), (487, 123896363), (501, 53993), (525, 6653), (531, 2733187), (601, 88301),
    (625, 320401), (643, 31307), (667, 108971), (693, 3523579), (741, 2261569), (753, 4157), (783, 21379), (795, 11087), (811, 301581373),
    (843, 7793), (885, 12799), (895, 302009)]) (by decide +kernel)

theorem gap_384 : ∀ m, 2 ^ 3072 ≤ m → m < 2 ^ 3072 + 813 → ¬ m.Prime :=
  not_prime_of_gapCheck (n := 12) (table := [
    (1, 12289), (3, 36217), (21, 30097), (87, 63127), (105, 9839), (123, 7292788073), (145, 4549), (147, 17144623), (163, 6367), (201, 1431659147),
    (243, 902827), (253, 518113), (261, 57100579), (295, 201163), (303, 116177), (327, 4363), (361, 16741), (421, 1192589), (423, 811215233),
    (427, 182099), (451, 45557), (453, 9137), (471, 7091689427), (505, 9283), (511, 177431207), (525, 4633747), (541, 19334773), (547, 4903),
    (565, 16159037), (583, 38886389), (621, 8693), (627, 686773), (631, 3628927), (637, 26053), (655, 9601), (661, 67399), (681, 1015991),
    (687, 97161277), (735, 136111), (763, 43223)]) (by decide +kernel)

theorem gap_448 : ∀ m, 2 ^ 3584 ≤ m → m < 2 ^ 3584 + 21 → ¬ m.Prime :=
  not_prime_of_gapCheck (n := 12) (table := [
    (1, 2424833), (7, 156823), (13, 192979)]) (by decide +kernel)

end Aiootp.Primes
