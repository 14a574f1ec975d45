import Verif.Lemmas.SeasonTable1

/-!
# The check of the four seasons of each year, part 2
-/

namespace Verif.Solar

set_option maxRecDepth 20000

theorem seasons_2_1 : (List.range 50).all (fun i => checkSeasons (801 + (i : ℤ))) = true := by decide +kernel

theorem seasons_2_2 : (List.range 50).all (fun i => checkSeasons (851 + (i : ℤ))) = true := by decide +kernel

theorem seasons_2_3 : (List.range 50).all (fun i => checkSeasons (901 + (i : ℤ))) = true := by decide +kernel

theorem seasons_2_4 : (List.range 50).all (fun i => checkSeasons (951 + (i : ℤ))) = true := by decide +kernel

theorem seasons_2_5 : (List.range 50).all (fun i => checkSeasons (1001 + (i : ℤ))) = true := by decide +kernel

theorem seasons_2_6 : (List.range 50).all (fun i => checkSeasons (1051 + (i : ℤ))) = true := by decide +kernel

theorem seasons_2_7 : (List.range 50).all (fun i => checkSeasons (1101 + (i : ℤ))) = true := by decide +kernel

theorem seasons_2_8 : (List.range 50).all (fun i => checkSeasons (1151 + (i : ℤ))) = true := by decide +kernel

theorem seasons_2_9 : (List.range 50).all (fun i => checkSeasons (1201 + (i : ℤ))) = true := by decide +kernel

theorem seasons_2_10 : (List.range 50).all (fun i => checkSeasons (1251 + (i : ℤ))) = true := by decide +kernel

theorem seasons_2_11 : (List.range 50).all (fun i => checkSeasons (1301 + (i : ℤ))) = true := by decide +kernel

theorem seasons_2_12 : (List.range 50).all (fun i => checkSeasons (1351 + (i : ℤ))) = true := by decide +kernel

theorem seasons_2_13 : (List.range 50).all (fun i => checkSeasons (1401 + (i : ℤ))) = true := by decide +kernel

theorem seasons_2_14 : (List.range 50).all (fun i => checkSeasons (1451 + (i : ℤ))) = true := by decide +kernel

theorem seasons_2_15 : (List.range 50).all (fun i => checkSeasons (1501 + (i : ℤ))) = true := by decide +kernel

theorem seasons_2_16 : (List.range 50).all (fun i => checkSeasons (1551 + (i : ℤ))) = true := by decide +kernel

end Verif.Solar
