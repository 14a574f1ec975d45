import Mathlib.Data.Int.Notation

/-!
# Model of `badidatetime/_coefficients.py`
-/

namespace Verif

/-- `P1` (_coefficients.py:14-18). -/
def P1 : List (ℤ × ℤ) :=
  [(-1783, -1747), (-1651, -1615), (-1499, -1483), (-1383, -1347),
   (-1251, -1215), (-1099, -1083), (-983, -947), (-851, -815),
   (-699, -683), (-583, -547), (-451, -415), (-299, -283), (-179, -143),
   (-47, -11), (101, 117), (213, 249), (345, 381), (501, 513),
   (609, 645), (741, 777), (901, 909), (1005, 1041), (1137, 1162)]

/-- `P1100` (_coefficients.py:19-20). -/
def P1100 : List (ℤ × ℤ) :=
  [(-1699, -1683), (-1299, -1283), (-899, -883), (-499, -483),
   (-99, -79), (301, 313), (701, 709), (1101, 1105)]

/-- `P1110` (_coefficients.py:21-24). -/
def P1110 : List (ℤ × ℤ) :=
  [(-1799, -1783), (-1683, -1651), (-1399, -1383), (-1283, -1251),
   (-999, -983), (-883, -851), (-599, -583), (-483, -451),
   (-199, -179), (-79, -47), (201, 213), (313, 345), (601, 609),
   (709, 741), (1001, 1005), (1105, 1137)]

/-- `P2` (_coefficients.py:25-26). -/
def P2 : List (ℤ × ℤ) :=
  [(-1519, -1499), (-1119, -1099), (-719, -699), (-319, -299),
   (85, 101), (477, 501), (873, 901)]

/-- `P2111` (_coefficients.py:27-31). -/
def P2111 : List (ℤ × ℤ) :=
  [(-1747, -1715), (-1615, -1583), (-1483, -1451), (-1347, -1315),
   (-1215, -1183), (-1083, -1051), (-947, -915), (-815, -783),
   (-683, -651), (-547, -515), (-415, -383), (-283, -243),
   (-143, -111), (-11, 21), (117, 149), (249, 281), (381, 413),
   (513, 545), (645, 677), (777, 809), (909, 941), (1041, 1073)]

/-- `P2211` (_coefficients.py:32-37). -/
def P2211 : List (ℤ × ℤ) :=
  [(-1843, -1815), (-1715, -1699), (-1583, -1551), (-1451, -1415),
   (-1315, -1299), (-1183, -1151), (-1051, -1019), (-915, -899),
   (-783, -751), (-651, -619), (-515, -499), (-383, -351),
   (-243, -211), (-111, -99), (21, 53), (149, 185), (281, 301),
   (413, 445), (545, 577), (677, 701), (809, 841), (941, 973),
   (1073, 1101)]

/-- `P2221` (_coefficients.py:38-41). -/
def P2221 : List (ℤ × ℤ) :=
  [(-1815, -1799), (-1551, -1519), (-1415, -1399), (-1151, -1119),
   (-1019, -999), (-751, -719), (-619, -599), (-351, -319),
   (-211, -199), (53, 85), (185, 201), (445, 477), (577, 601),
   (841, 873), (973, 1001)]

/-- `func` inside `process_segment` (_coefficients.py:64). -/
def segOn (y : ℤ) (onoff : List ℤ) : Bool := 0 < y && y < 100 && onoff.contains (y % 4)

/-- `process_segment` (_coefficients.py:63-72). A zero `a` or `b` is falsy. -/
def processSegment (y a : ℤ) (onoff0 : List ℤ) (b : ℤ) (onoff1 : List ℤ) : ℤ :=
  if a ≠ 0 ∧ segOn y onoff0 then a
  else if b ≠ 0 ∧ segOn y onoff1 then b
  else 0

/-- `process_segments` (_coefficients.py:74-84): the last matching segment wins. -/
def processSegments (year : ℤ) (pn : List (ℤ × ℤ)) (a : ℤ) (onoff0 : List ℤ) (b : ℤ)
    (onoff1 : List ℤ) : ℤ :=
  pn.foldl (fun coeff se =>
    if se.1 ≤ year ∧ year < se.2 then
      let coeff0 := processSegment (se.2 - year) a onoff0 0 []
      let coeff1 := processSegment (se.2 - year) 0 [] b onoff1
      if coeff0 ≠ 0 then coeff0 else coeff1
    else coeff) 0

/-- Python `x or y` on integers. -/
def pyOr (x y : ℤ) : ℤ := if x ≠ 0 then x else y

/-- `_get_day_coeff` (_coefficients.py:43-93). -/
def getDayCoeff (year : ℤ) : ℤ :=
  pyOr (processSegments year P1 (-1) [0, 1, 2, 3] 0 [])
  (pyOr (processSegments year P1100 (-1) [0, 3] 0 [])
  (pyOr (processSegments year P1110 (-1) [0, 2, 3] 0 [])
  (pyOr (processSegments year P2 (-2) [0, 1, 2, 3] 0 [])
  (pyOr (processSegments year P2111 (-2) [0] (-1) [1, 2, 3])
  (pyOr (processSegments year P2211 (-2) [0, 3] (-1) [1, 2])
  (pyOr (processSegments year P2221 (-2) [0, 2, 3] (-1) [1]) 0))))))

end Verif
