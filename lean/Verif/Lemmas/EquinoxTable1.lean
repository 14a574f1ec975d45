import Verif.Lemmas.EquinoxFast

/-!
# The check of each year, part 1
-/

namespace Verif.Solar

set_option maxRecDepth 20000

theorem years_0 : coeffWalk checkYear (-1843 + (1583 : ℕ)) ((coeffList.drop 1583).take 89) = true := by decide +kernel

theorem years_1 : coeffWalk checkYear (-1843 + (1672 : ℕ)) ((coeffList.drop 1672).take 89) = true := by decide +kernel

theorem years_2 : coeffWalk checkYear (-1843 + (1761 : ℕ)) ((coeffList.drop 1761).take 89) = true := by decide +kernel

theorem years_3 : coeffWalk checkYear (-1843 + (1850 : ℕ)) ((coeffList.drop 1850).take 89) = true := by decide +kernel

theorem years_4 : coeffWalk checkYear (-1843 + (1939 : ℕ)) ((coeffList.drop 1939).take 89) = true := by decide +kernel

theorem years_5 : coeffWalk checkYear (-1843 + (2028 : ℕ)) ((coeffList.drop 2028).take 89) = true := by decide +kernel

theorem years_6 : coeffWalk checkYear (-1843 + (2117 : ℕ)) ((coeffList.drop 2117).take 89) = true := by decide +kernel

theorem years_7 : coeffWalk checkYear (-1843 + (2206 : ℕ)) ((coeffList.drop 2206).take 89) = true := by decide +kernel

end Verif.Solar
