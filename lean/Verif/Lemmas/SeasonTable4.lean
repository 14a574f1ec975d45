import Verif.Lemmas.SeasonTable3

/-!
# The check of the four seasons of each year, part 4
-/

namespace Verif.Solar

set_option maxRecDepth 20000

theorem seasons_4_1 : (List.range 50).all (fun i => checkSeasons (2401 + (i : ℤ))) = true := by decide +kernel

theorem seasons_4_2 : (List.range 50).all (fun i => checkSeasons (2451 + (i : ℤ))) = true := by decide +kernel

theorem seasons_4_3 : (List.range 50).all (fun i => checkSeasons (2501 + (i : ℤ))) = true := by decide +kernel

theorem seasons_4_4 : (List.range 50).all (fun i => checkSeasons (2551 + (i : ℤ))) = true := by decide +kernel

theorem seasons_4_5 : (List.range 50).all (fun i => checkSeasons (2601 + (i : ℤ))) = true := by decide +kernel

theorem seasons_4_6 : (List.range 50).all (fun i => checkSeasons (2651 + (i : ℤ))) = true := by decide +kernel

theorem seasons_4_7 : (List.range 50).all (fun i => checkSeasons (2701 + (i : ℤ))) = true := by decide +kernel

theorem seasons_4_8 : (List.range 50).all (fun i => checkSeasons (2751 + (i : ℤ))) = true := by decide +kernel

theorem seasons_4_9 : (List.range 50).all (fun i => checkSeasons (2801 + (i : ℤ))) = true := by decide +kernel

theorem seasons_4_10 : (List.range 50).all (fun i => checkSeasons (2851 + (i : ℤ))) = true := by decide +kernel

theorem seasons_4_11 : (List.range 50).all (fun i => checkSeasons (2901 + (i : ℤ))) = true := by decide +kernel

theorem seasons_4_12 : (List.range 50).all (fun i => checkSeasons (2951 + (i : ℤ))) = true := by decide +kernel

theorem seasons_4_13 : (List.range 4).all (fun i => checkSeasons (3001 + (i : ℤ))) = true := by decide +kernel

end Verif.Solar
