import Verif.Lemmas.SeasonCert

/-!
# The check of the four seasons of each year, part 1
-/

namespace Verif.Solar

set_option maxRecDepth 20000

theorem seasons_1_1 : (List.range 50).all (fun i => checkSeasons (1 + (i : ℤ))) = true := by decide +kernel

theorem seasons_1_2 : (List.range 50).all (fun i => checkSeasons (51 + (i : ℤ))) = true := by decide +kernel

theorem seasons_1_3 : (List.range 50).all (fun i => checkSeasons (101 + (i : ℤ))) = true := by decide +kernel

theorem seasons_1_4 : (List.range 50).all (fun i => checkSeasons (151 + (i : ℤ))) = true := by decide +kernel

theorem seasons_1_5 : (List.range 50).all (fun i => checkSeasons (201 + (i : ℤ))) = true := by decide +kernel

theorem seasons_1_6 : (List.range 50).all (fun i => checkSeasons (251 + (i : ℤ))) = true := by decide +kernel

theorem seasons_1_7 : (List.range 50).all (fun i => checkSeasons (301 + (i : ℤ))) = true := by decide +kernel

theorem seasons_1_8 : (List.range 50).all (fun i => checkSeasons (351 + (i : ℤ))) = true := by decide +kernel

theorem seasons_1_9 : (List.range 50).all (fun i => checkSeasons (401 + (i : ℤ))) = true := by decide +kernel

theorem seasons_1_10 : (List.range 50).all (fun i => checkSeasons (451 + (i : ℤ))) = true := by decide +kernel

theorem seasons_1_11 : (List.range 50).all (fun i => checkSeasons (501 + (i : ℤ))) = true := by decide +kernel

theorem seasons_1_12 : (List.range 50).all (fun i => checkSeasons (551 + (i : ℤ))) = true := by decide +kernel

theorem seasons_1_13 : (List.range 50).all (fun i => checkSeasons (601 + (i : ℤ))) = true := by decide +kernel

theorem seasons_1_14 : (List.range 50).all (fun i => checkSeasons (651 + (i : ℤ))) = true := by decide +kernel

theorem seasons_1_15 : (List.range 50).all (fun i => checkSeasons (701 + (i : ℤ))) = true := by decide +kernel

theorem seasons_1_16 : (List.range 50).all (fun i => checkSeasons (751 + (i : ℤ))) = true := by decide +kernel

end Verif.Solar
