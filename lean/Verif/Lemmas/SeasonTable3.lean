import Verif.Lemmas.SeasonCert

/-!
# The check of the four seasons of each year, part 3
-/

namespace Verif.Solar

set_option maxRecDepth 20000

theorem seasons_3_1 : (List.range 50).all (fun i => checkSeasons (1601 + (i : ℤ))) = true := by decide +kernel

theorem seasons_3_2 : (List.range 50).all (fun i => checkSeasons (1651 + (i : ℤ))) = true := by decide +kernel

theorem seasons_3_3 : (List.range 50).all (fun i => checkSeasons (1701 + (i : ℤ))) = true := by decide +kernel

theorem seasons_3_4 : (List.range 50).all (fun i => checkSeasons (1751 + (i : ℤ))) = true := by decide +kernel

theorem seasons_3_5 : (List.range 50).all (fun i => checkSeasons (1801 + (i : ℤ))) = true := by decide +kernel

theorem seasons_3_6 : (List.range 50).all (fun i => checkSeasons (1851 + (i : ℤ))) = true := by decide +kernel

theorem seasons_3_7 : (List.range 50).all (fun i => checkSeasons (1901 + (i : ℤ))) = true := by decide +kernel

theorem seasons_3_8 : (List.range 50).all (fun i => checkSeasons (1951 + (i : ℤ))) = true := by decide +kernel

theorem seasons_3_9 : (List.range 50).all (fun i => checkSeasons (2001 + (i : ℤ))) = true := by decide +kernel

theorem seasons_3_10 : (List.range 50).all (fun i => checkSeasons (2051 + (i : ℤ))) = true := by decide +kernel

theorem seasons_3_11 : (List.range 50).all (fun i => checkSeasons (2101 + (i : ℤ))) = true := by decide +kernel

theorem seasons_3_12 : (List.range 50).all (fun i => checkSeasons (2151 + (i : ℤ))) = true := by decide +kernel

theorem seasons_3_13 : (List.range 50).all (fun i => checkSeasons (2201 + (i : ℤ))) = true := by decide +kernel

theorem seasons_3_14 : (List.range 50).all (fun i => checkSeasons (2251 + (i : ℤ))) = true := by decide +kernel

theorem seasons_3_15 : (List.range 50).all (fun i => checkSeasons (2301 + (i : ℤ))) = true := by decide +kernel

theorem seasons_3_16 : (List.range 50).all (fun i => checkSeasons (2351 + (i : ℤ))) = true := by decide +kernel

end Verif.Solar
