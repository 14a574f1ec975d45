import Verif.Lemmas.EquinoxFast

/-!
# The check of each year, part 2
-/

namespace Verif.Solar

set_option maxRecDepth 20000

theorem years_8 : coeffWalk checkYear (-1843 + (2295 : ℕ)) ((coeffList.drop 2295).take 89) = true := by decide +kernel

theorem years_9 : coeffWalk checkYear (-1843 + (2384 : ℕ)) ((coeffList.drop 2384).take 89) = true := by decide +kernel

theorem years_10 : coeffWalk checkYear (-1843 + (2473 : ℕ)) ((coeffList.drop 2473).take 89) = true := by decide +kernel

theorem years_11 : coeffWalk checkYear (-1843 + (2562 : ℕ)) ((coeffList.drop 2562).take 89) = true := by decide +kernel

theorem years_12 : coeffWalk checkYear (-1843 + (2651 : ℕ)) ((coeffList.drop 2651).take 89) = true := by decide +kernel

theorem years_13 : coeffWalk checkYear (-1843 + (2740 : ℕ)) ((coeffList.drop 2740).take 89) = true := by decide +kernel

theorem years_14 : coeffWalk checkYear (-1843 + (2829 : ℕ)) ((coeffList.drop 2829).take 89) = true := by decide +kernel

theorem years_15 : coeffWalk checkYear (-1843 + (2918 : ℕ)) ((coeffList.drop 2918).take 89) = true := by decide +kernel

end Verif.Solar
