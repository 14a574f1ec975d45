import Verif.Lemmas.SeasonTable2
import Verif.Lemmas.SeasonTable4

/-!
# The four seasons of every year
-/

namespace Verif.Solar

theorem seasons_get {n : ℕ} {s : ℤ} (h : (List.range n).all (fun i => checkSeasons (s + (i : ℤ))) = true) {y : ℤ} (h0 : s ≤ y)
    (h1 : y < s + n) : checkSeasons y = true := by
  rw [List.all_eq_true] at h
  have := h (y - s).toNat (by rw [List.mem_range]; omega)
  rwa [show s + (((y - s).toNat : ℕ) : ℤ) = y by omega] at this

theorem checkSeasons_all {y : ℤ} (h0 : 1 ≤ y) (h1 : y ≤ 3004) : checkSeasons y = true := by
  by_cases c : y < 51
  · exact seasons_get seasons_1_1 (by omega) (by omega)
  clear h0
  have h0 : 51 ≤ y := by omega
  clear c
  by_cases c : y < 101
  · exact seasons_get seasons_1_2 (by omega) (by omega)
  clear h0
  have h0 : 101 ≤ y := by omega
  clear c
  by_cases c : y < 151
  · exact seasons_get seasons_1_3 (by omega) (by omega)
  clear h0
  have h0 : 151 ≤ y := by omega
  clear c
  by_cases c : y < 201
  · exact seasons_get seasons_1_4 (by omega) (by omega)
  clear h0
  have h0 : 201 ≤ y := by omega
  clear c
  by_cases c : y < 251
  · exact seasons_get seasons_1_5 (by omega) (by omega)
  clear h0
  have h0 : 251 ≤ y := by omega
  clear c
  by_cases c : y < 301
  · exact seasons_get seasons_1_6 (by omega) (by omega)
  clear h0
  have h0 : 301 ≤ y := by omega
  clear c
  by_cases c : y < 351
  · exact seasons_get seasons_1_7 (by omega) (by omega)
  clear h0
  have h0 : 351 ≤ y := by omega
  clear c
  by_cases c : y < 401
  · exact seasons_get seasons_1_8 (by omega) (by omega)
  clear h0
  have h0 : 401 ≤ y := by omega
  clear c
  by_cases c : y < 451
  · exact seasons_get seasons_1_9 (by omega) (by omega)
  clear h0
  have h0 : 451 ≤ y := by omega
  clear c
  by_cases c : y < 501
  · exact seasons_get seasons_1_10 (by omega) (by omega)
  clear h0
  have h0 : 501 ≤ y := by omega
  clear c
  by_cases c : y < 551
  · exact seasons_get seasons_1_11 (by omega) (by omega)
  clear h0
  have h0 : 551 ≤ y := by omega
  clear c
  by_cases c : y < 601
  · exact seasons_get seasons_1_12 (by omega) (by omega)
  clear h0
  have h0 : 601 ≤ y := by omega
  clear c
  by_cases c : y < 651
  · exact seasons_get seasons_1_13 (by omega) (by omega)
  clear h0
  have h0 : 651 ≤ y := by omega
  clear c
  by_cases c : y < 701
  · exact seasons_get seasons_1_14 (by omega) (by omega)
  clear h0
  have h0 : 701 ≤ y := by omega
  clear c
  by_cases c : y < 751
  · exact seasons_get seasons_1_15 (by omega) (by omega)
  clear h0
  have h0 : 751 ≤ y := by omega
  clear c
  by_cases c : y < 801
  · exact seasons_get seasons_1_16 (by omega) (by omega)
  clear h0
  have h0 : 801 ≤ y := by omega
  clear c
  by_cases c : y < 851
  · exact seasons_get seasons_2_1 (by omega) (by omega)
  clear h0
  have h0 : 851 ≤ y := by omega
  clear c
  by_cases c : y < 901
  · exact seasons_get seasons_2_2 (by omega) (by omega)
  clear h0
  have h0 : 901 ≤ y := by omega
  clear c
  by_cases c : y < 951
  · exact seasons_get seasons_2_3 (by omega) (by omega)
  clear h0
  have h0 : 951 ≤ y := by omega
  clear c
  by_cases c : y < 1001
  · exact seasons_get seasons_2_4 (by omega) (by omega)
  clear h0
  have h0 : 1001 ≤ y := by omega
  clear c
  by_cases c : y < 1051
  · exact seasons_get seasons_2_5 (by omega) (by omega)
  clear h0
  have h0 : 1051 ≤ y := by omega
  clear c
  by_cases c : y < 1101
  · exact seasons_get seasons_2_6 (by omega) (by omega)
  clear h0
  have h0 : 1101 ≤ y := by omega
  clear c
  by_cases c : y < 1151
  · exact seasons_get seasons_2_7 (by omega) (by omega)
  clear h0
  have h0 : 1151 ≤ y := by omega
  clear c
  by_cases c : y < 1201
  · exact seasons_get seasons_2_8 (by omega) (by omega)
  clear h0
  have h0 : 1201 ≤ y := by omega
  clear c
  by_cases c : y < 1251
  · exact seasons_get seasons_2_9 (by omega) (by omega)
  clear h0
  have h0 : 1251 ≤ y := by omega
  clear c
  by_cases c : y < 1301
  · exact seasons_get seasons_2_10 (by omega) (by omega)
  clear h0
  have h0 : 1301 ≤ y := by omega
  clear c
  by_cases c : y < 1351
  · exact seasons_get seasons_2_11 (by omega) (by omega)
  clear h0
  have h0 : 1351 ≤ y := by omega
  clear c
  by_cases c : y < 1401
  · exact seasons_get seasons_2_12 (by omega) (by omega)
  clear h0
  have h0 : 1401 ≤ y := by omega
  clear c
  by_cases c : y < 1451
  · exact seasons_get seasons_2_13 (by omega) (by omega)
  clear h0
  have h0 : 1451 ≤ y := by omega
  clear c
  by_cases c : y < 1501
  · exact seasons_get seasons_2_14 (by omega) (by omega)
  clear h0
  have h0 : 1501 ≤ y := by omega
  clear c
  by_cases c : y < 1551
  · exact seasons_get seasons_2_15 (by omega) (by omega)
  clear h0
  have h0 : 1551 ≤ y := by omega
  clear c
  by_cases c : y < 1601
  · exact seasons_get seasons_2_16 (by omega) (by omega)
  clear h0
  have h0 : 1601 ≤ y := by omega
  clear c
  by_cases c : y < 1651
  · exact seasons_get seasons_3_1 (by omega) (by omega)
  clear h0
  have h0 : 1651 ≤ y := by omega
  clear c
  by_cases c : y < 1701
  · exact seasons_get seasons_3_2 (by omega) (by omega)
  clear h0
  have h0 : 1701 ≤ y := by omega
  clear c
  by_cases c : y < 1751
  · exact seasons_get seasons_3_3 (by omega) (by omega)
  clear h0
  have h0 : 1751 ≤ y := by omega
  clear c
  by_cases c : y < 1801
  · exact seasons_get seasons_3_4 (by omega) (by omega)
  clear h0
  have h0 : 1801 ≤ y := by omega
  clear c
  by_cases c : y < 1851
  · exact seasons_get seasons_3_5 (by omega) (by omega)
  clear h0
  have h0 : 1851 ≤ y := by omega
  clear c
  by_cases c : y < 1901
  · exact seasons_get seasons_3_6 (by omega) (by omega)
  clear h0
  have h0 : 1901 ≤ y := by omega
  clear c
  by_cases c : y < 1951
  · exact seasons_get seasons_3_7 (by omega) (by omega)
  clear h0
  have h0 : 1951 ≤ y := by omega
  clear c
  by_cases c : y < 2001
  · exact seasons_get seasons_3_8 (by omega) (by omega)
  clear h0
  have h0 : 2001 ≤ y := by omega
  clear c
  by_cases c : y < 2051
  · exact seasons_get seasons_3_9 (by omega) (by omega)
  clear h0
  have h0 : 2051 ≤ y := by omega
  clear c
  by_cases c : y < 2101
  · exact seasons_get seasons_3_10 (by omega) (by omega)
  clear h0
  have h0 : 2101 ≤ y := by omega
  clear c
  by_cases c : y < 2151
  · exact seasons_get seasons_3_11 (by omega) (by omega)
  clear h0
  have h0 : 2151 ≤ y := by omega
  clear c
  by_cases c : y < 2201
  · exact seasons_get seasons_3_12 (by omega) (by omega)
  clear h0
  have h0 : 2201 ≤ y := by omega
  clear c
  by_cases c : y < 2251
  · exact seasons_get seasons_3_13 (by omega) (by omega)
  clear h0
  have h0 : 2251 ≤ y := by omega
  clear c
  by_cases c : y < 2301
  · exact seasons_get seasons_3_14 (by omega) (by omega)
  clear h0
  have h0 : 2301 ≤ y := by omega
  clear c
  by_cases c : y < 2351
  · exact seasons_get seasons_3_15 (by omega) (by omega)
  clear h0
  have h0 : 2351 ≤ y := by omega
  clear c
  by_cases c : y < 2401
  · exact seasons_get seasons_3_16 (by omega) (by omega)
  clear h0
  have h0 : 2401 ≤ y := by omega
  clear c
  by_cases c : y < 2451
  · exact seasons_get seasons_4_1 (by omega) (by omega)
  clear h0
  have h0 : 2451 ≤ y := by omega
  clear c
  by_cases c : y < 2501
  · exact seasons_get seasons_4_2 (by omega) (by omega)
  clear h0
  have h0 : 2501 ≤ y := by omega
  clear c
  by_cases c : y < 2551
  · exact seasons_get seasons_4_3 (by omega) (by omega)
  clear h0
  have h0 : 2551 ≤ y := by omega
  clear c
  by_cases c : y < 2601
  · exact seasons_get seasons_4_4 (by omega) (by omega)
  clear h0
  have h0 : 2601 ≤ y := by omega
  clear c
  by_cases c : y < 2651
  · exact seasons_get seasons_4_5 (by omega) (by omega)
  clear h0
  have h0 : 2651 ≤ y := by omega
  clear c
  by_cases c : y < 2701
  · exact seasons_get seasons_4_6 (by omega) (by omega)
  clear h0
  have h0 : 2701 ≤ y := by omega
  clear c
  by_cases c : y < 2751
  · exact seasons_get seasons_4_7 (by omega) (by omega)
  clear h0
  have h0 : 2751 ≤ y := by omega
  clear c
  by_cases c : y < 2801
  · exact seasons_get seasons_4_8 (by omega) (by omega)
  clear h0
  have h0 : 2801 ≤ y := by omega
  clear c
  by_cases c : y < 2851
  · exact seasons_get seasons_4_9 (by omega) (by omega)
  clear h0
  have h0 : 2851 ≤ y := by omega
  clear c
  by_cases c : y < 2901
  · exact seasons_get seasons_4_10 (by omega) (by omega)
  clear h0
  have h0 : 2901 ≤ y := by omega
  clear c
  by_cases c : y < 2951
  · exact seasons_get seasons_4_11 (by omega) (by omega)
  clear h0
  have h0 : 2951 ≤ y := by omega
  clear c
  by_cases c : y < 3001
  · exact seasons_get seasons_4_12 (by omega) (by omega)
  clear h0
  have h0 : 3001 ≤ y := by omega
  clear c
  exact seasons_get seasons_4_13 (by omega) (by omega)

end Verif.Solar
