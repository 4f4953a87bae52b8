import Verif.Basic
import Mathlib.Data.Fin.VecNotation
/-
Spin tables of QDP++, transcribed by tools/gen_spin.py from the headers cited.  An entry `(ph, k)` in place `a` of a table stands for the
assignment `d.elem(a) = ph * r.elem(k)`.
-/
namespace Verif.Spin

/-- the four forms of a right-hand side: `x`, `-x`, `timesI(x)`, `timesMinusI(x)` -/
inductive Ph | one | neg | i | ni
deriving DecidableEq, Repr

/-- one assignment: form and spin index of the operand -/
abbrev Ent := Ph × Fin 4
abbrev EntH := Ph × Fin 2

/-- `GammaConst<4,n> * PSpinVector`, include/qdp_primspinvec.h:1147-1368 -/
def vecL : Fin 16 → Fin 4 → Ent := ![
  ![(.one, 0), (.one, 1), (.one, 2), (.one, 3)],  -- 0: lines 1148-1158
  ![(.i, 3), (.i, 2), (.ni, 1), (.ni, 0)],  -- 1: lines 1162-1172
  ![(.neg, 3), (.one, 2), (.one, 1), (.neg, 0)],  -- 2: lines 1176-1186
  ![(.ni, 0), (.i, 1), (.ni, 2), (.i, 3)],  -- 3: lines 1190-1200
  ![(.i, 2), (.ni, 3), (.ni, 0), (.i, 1)],  -- 4: lines 1204-1214
  ![(.neg, 1), (.one, 0), (.neg, 3), (.one, 2)],  -- 5: lines 1218-1228
  ![(.ni, 1), (.ni, 0), (.ni, 3), (.ni, 2)],  -- 6: lines 1232-1242
  ![(.one, 2), (.one, 3), (.neg, 0), (.neg, 1)],  -- 7: lines 1246-1256
  ![(.one, 2), (.one, 3), (.one, 0), (.one, 1)],  -- 8: lines 1260-1270
  ![(.i, 1), (.i, 0), (.ni, 3), (.ni, 2)],  -- 9: lines 1274-1284
  ![(.neg, 1), (.one, 0), (.one, 3), (.neg, 2)],  -- 10: lines 1288-1298
  ![(.ni, 2), (.i, 3), (.ni, 0), (.i, 1)],  -- 11: lines 1302-1312
  ![(.i, 0), (.ni, 1), (.ni, 2), (.i, 3)],  -- 12: lines 1316-1326
  ![(.neg, 3), (.one, 2), (.neg, 1), (.one, 0)],  -- 13: lines 1330-1340
  ![(.ni, 3), (.ni, 2), (.ni, 1), (.ni, 0)],  -- 14: lines 1344-1354
  ![(.one, 0), (.one, 1), (.neg, 2), (.neg, 3)]]  -- 15: lines 1358-1368

/-- `GammaConst<4,n> * PSpinMatrix`, include/qdp_primspinmat.h:584-853 -/
def matL : Fin 16 → Fin 4 → Ent := ![
  ![(.one, 0), (.one, 1), (.one, 2), (.one, 3)],  -- 0: lines 585-598
  ![(.i, 3), (.i, 2), (.ni, 1), (.ni, 0)],  -- 1: lines 602-615
  ![(.neg, 3), (.one, 2), (.one, 1), (.neg, 0)],  -- 2: lines 619-632
  ![(.ni, 0), (.i, 1), (.ni, 2), (.i, 3)],  -- 3: lines 636-649
  ![(.i, 2), (.ni, 3), (.ni, 0), (.i, 1)],  -- 4: lines 653-666
  ![(.neg, 1), (.one, 0), (.neg, 3), (.one, 2)],  -- 5: lines 670-683
  ![(.ni, 1), (.ni, 0), (.ni, 3), (.ni, 2)],  -- 6: lines 687-700
  ![(.one, 2), (.one, 3), (.neg, 0), (.neg, 1)],  -- 7: lines 704-717
  ![(.one, 2), (.one, 3), (.one, 0), (.one, 1)],  -- 8: lines 721-734
  ![(.i, 1), (.i, 0), (.ni, 3), (.ni, 2)],  -- 9: lines 738-751
  ![(.neg, 1), (.one, 0), (.one, 3), (.neg, 2)],  -- 10: lines 755-768
  ![(.ni, 2), (.i, 3), (.ni, 0), (.i, 1)],  -- 11: lines 772-785
  ![(.i, 0), (.ni, 1), (.ni, 2), (.i, 3)],  -- 12: lines 789-802
  ![(.neg, 3), (.one, 2), (.neg, 1), (.one, 0)],  -- 13: lines 806-819
  ![(.ni, 3), (.ni, 2), (.ni, 1), (.ni, 0)],  -- 14: lines 823-836
  ![(.one, 0), (.one, 1), (.neg, 2), (.neg, 3)]]  -- 15: lines 840-853

/-- `PSpinMatrix * GammaConst<4,n>`; here place `a` stands for `d.elem(i,a)`, include/qdp_primspinmat.h:859-1128 -/
def matR : Fin 16 → Fin 4 → Ent := ![
  ![(.one, 0), (.one, 1), (.one, 2), (.one, 3)],  -- 0: lines 860-873
  ![(.ni, 3), (.ni, 2), (.i, 1), (.i, 0)],  -- 1: lines 877-890
  ![(.neg, 3), (.one, 2), (.one, 1), (.neg, 0)],  -- 2: lines 894-907
  ![(.ni, 0), (.i, 1), (.ni, 2), (.i, 3)],  -- 3: lines 911-924
  ![(.ni, 2), (.i, 3), (.i, 0), (.ni, 1)],  -- 4: lines 928-941
  ![(.one, 1), (.neg, 0), (.one, 3), (.neg, 2)],  -- 5: lines 945-958
  ![(.ni, 1), (.ni, 0), (.ni, 3), (.ni, 2)],  -- 6: lines 962-975
  ![(.neg, 2), (.neg, 3), (.one, 0), (.one, 1)],  -- 7: lines 979-992
  ![(.one, 2), (.one, 3), (.one, 0), (.one, 1)],  -- 8: lines 996-1009
  ![(.i, 1), (.i, 0), (.ni, 3), (.ni, 2)],  -- 9: lines 1013-1026
  ![(.one, 1), (.neg, 0), (.neg, 3), (.one, 2)],  -- 10: lines 1030-1043
  ![(.ni, 2), (.i, 3), (.ni, 0), (.i, 1)],  -- 11: lines 1047-1060
  ![(.i, 0), (.ni, 1), (.ni, 2), (.i, 3)],  -- 12: lines 1064-1077
  ![(.one, 3), (.neg, 2), (.one, 1), (.neg, 0)],  -- 13: lines 1081-1094
  ![(.ni, 3), (.ni, 2), (.ni, 1), (.ni, 0)],  -- 14: lines 1098-1111
  ![(.one, 0), (.one, 1), (.neg, 2), (.neg, 3)]]  -- 15: lines 1115-1128

/-- `GammaConstDP<4,n> * PSpinVector`, include/qdp_primspinvec.h:1710-1931 -/
def vecDPL : Fin 16 → Fin 4 → Ent := ![
  ![(.one, 0), (.one, 1), (.one, 2), (.one, 3)],  -- 0: lines 1711-1721
  ![(.ni, 3), (.ni, 2), (.i, 1), (.i, 0)],  -- 1: lines 1725-1735
  ![(.neg, 3), (.one, 2), (.one, 1), (.neg, 0)],  -- 2: lines 1739-1749
  ![(.i, 0), (.ni, 1), (.i, 2), (.ni, 3)],  -- 3: lines 1753-1763
  ![(.ni, 2), (.i, 3), (.i, 0), (.ni, 1)],  -- 4: lines 1767-1777
  ![(.neg, 1), (.one, 0), (.neg, 3), (.one, 2)],  -- 5: lines 1781-1791
  ![(.i, 1), (.i, 0), (.i, 3), (.i, 2)],  -- 6: lines 1795-1805
  ![(.one, 2), (.one, 3), (.neg, 0), (.neg, 1)],  -- 7: lines 1809-1819
  ![(.one, 0), (.one, 1), (.neg, 2), (.neg, 3)],  -- 8: lines 1823-1833
  ![(.i, 3), (.i, 2), (.i, 1), (.i, 0)],  -- 9: lines 1837-1847
  ![(.one, 3), (.neg, 2), (.one, 1), (.neg, 0)],  -- 10: lines 1851-1861
  ![(.i, 0), (.ni, 1), (.ni, 2), (.i, 3)],  -- 11: lines 1865-1875
  ![(.i, 2), (.ni, 3), (.i, 0), (.ni, 1)],  -- 12: lines 1879-1889
  ![(.neg, 1), (.one, 0), (.one, 3), (.neg, 2)],  -- 13: lines 1893-1903
  ![(.i, 1), (.i, 0), (.ni, 3), (.ni, 2)],  -- 14: lines 1907-1917
  ![(.neg, 2), (.neg, 3), (.neg, 0), (.neg, 1)]]  -- 15: lines 1921-1931

/-- `GammaConstDP<4,n> * PSpinMatrix`, include/qdp_primspinmat.h:1136-1405 -/
def matDPL : Fin 16 → Fin 4 → Ent := ![
  ![(.one, 0), (.one, 1), (.one, 2), (.one, 3)],  -- 0: lines 1137-1150
  ![(.ni, 3), (.ni, 2), (.i, 1), (.i, 0)],  -- 1: lines 1154-1167
  ![(.neg, 3), (.one, 2), (.one, 1), (.neg, 0)],  -- 2: lines 1171-1184
  ![(.i, 0), (.ni, 1), (.i, 2), (.ni, 3)],  -- 3: lines 1188-1201
  ![(.ni, 2), (.i, 3), (.i, 0), (.ni, 1)],  -- 4: lines 1205-1218
  ![(.neg, 1), (.one, 0), (.neg, 3), (.one, 2)],  -- 5: lines 1222-1235
  ![(.i, 1), (.i, 0), (.i, 3), (.i, 2)],  -- 6: lines 1239-1252
  ![(.one, 2), (.one, 3), (.neg, 0), (.neg, 1)],  -- 7: lines 1256-1269
  ![(.one, 0), (.one, 1), (.neg, 2), (.neg, 3)],  -- 8: lines 1273-1286
  ![(.i, 3), (.i, 2), (.i, 1), (.i, 0)],  -- 9: lines 1290-1303
  ![(.one, 3), (.neg, 2), (.one, 1), (.neg, 0)],  -- 10: lines 1307-1320
  ![(.i, 0), (.ni, 1), (.ni, 2), (.i, 3)],  -- 11: lines 1324-1337
  ![(.i, 2), (.ni, 3), (.i, 0), (.ni, 1)],  -- 12: lines 1341-1354
  ![(.neg, 1), (.one, 0), (.one, 3), (.neg, 2)],  -- 13: lines 1358-1371
  ![(.i, 1), (.i, 0), (.ni, 3), (.ni, 2)],  -- 14: lines 1375-1388
  ![(.neg, 2), (.neg, 3), (.neg, 0), (.neg, 1)]]  -- 15: lines 1392-1405

/-- `PSpinMatrix * GammaConstDP<4,n>`; here place `a` stands for `d.elem(i,a)`, include/qdp_primspinmat.h:1411-1680 -/
def matDPR : Fin 16 → Fin 4 → Ent := ![
  ![(.one, 0), (.one, 1), (.one, 2), (.one, 3)],  -- 0: lines 1412-1425
  ![(.i, 3), (.i, 2), (.ni, 1), (.ni, 0)],  -- 1: lines 1429-1442
  ![(.neg, 3), (.one, 2), (.one, 1), (.neg, 0)],  -- 2: lines 1446-1459
  ![(.i, 0), (.ni, 1), (.i, 2), (.ni, 3)],  -- 3: lines 1463-1476
  ![(.i, 2), (.ni, 3), (.ni, 0), (.i, 1)],  -- 4: lines 1480-1493
  ![(.one, 1), (.neg, 0), (.one, 3), (.neg, 2)],  -- 5: lines 1497-1510
  ![(.i, 1), (.i, 0), (.i, 3), (.i, 2)],  -- 6: lines 1514-1527
  ![(.neg, 2), (.neg, 3), (.one, 0), (.one, 1)],  -- 7: lines 1531-1544
  ![(.one, 0), (.one, 1), (.neg, 2), (.neg, 3)],  -- 8: lines 1548-1561
  ![(.i, 3), (.i, 2), (.i, 1), (.i, 0)],  -- 9: lines 1565-1578
  ![(.neg, 3), (.one, 2), (.neg, 1), (.one, 0)],  -- 10: lines 1582-1595
  ![(.i, 0), (.ni, 1), (.ni, 2), (.i, 3)],  -- 11: lines 1599-1612
  ![(.i, 2), (.ni, 3), (.i, 0), (.ni, 1)],  -- 12: lines 1616-1629
  ![(.one, 1), (.neg, 0), (.neg, 3), (.one, 2)],  -- 13: lines 1633-1646
  ![(.i, 1), (.i, 0), (.ni, 3), (.ni, 2)],  -- 14: lines 1650-1663
  ![(.neg, 2), (.neg, 3), (.neg, 0), (.neg, 1)]]  -- 15: lines 1667-1680

/-- `OpGammaTypeMultiply`, include/qdp_primgamma.h:175-199: the constants behind the function pointers -/
def dispL : List Nat := [0, 1, 2, 3, 4, 5, 6, 7, 8, 9, 10, 11, 12, 13, 14, 15]

/-- `OpMultiplyGammaType`, include/qdp_primgamma.h:203-227: the constants behind the function pointers -/
def dispR : List Nat := [0, 1, 2, 3, 4, 5, 6, 7, 8, 9, 10, 11, 12, 13, 14, 15]

/-- `OpGammaTypeDPMultiply`, include/qdp_primgamma.h:272-296: the constants behind the function pointers -/
def dispDPL : List Nat := [0, 1, 2, 3, 4, 5, 6, 7, 8, 9, 10, 11, 12, 13, 14, 15]

/-- `OpMultiplyGammaTypeDP`, include/qdp_primgamma.h:300-324: the constants behind the function pointers -/
def dispDPR : List Nat := [0, 1, 2, 3, 4, 5, 6, 7, 8, 9, 10, 11, 12, 13, 14, 15]

/-- `spinProjectDir`: an entry `(ph, k)` in place `a` stands for `d.elem(a) = s1.elem(a) + ph * s1.elem(k)`, include/qdp_primspinvec.h:1375-1587; directions 0 to 3, plus before minus -/
def projT : Fin 8 → Fin 2 → Ent := ![
  ![(.i, 3), (.i, 2)],  -- 0Plus: lines 1483-1506
  ![(.ni, 3), (.ni, 2)],  -- 0Minus: lines 1375-1398
  ![(.neg, 3), (.one, 2)],  -- 1Plus: lines 1510-1533
  ![(.one, 3), (.neg, 2)],  -- 1Minus: lines 1402-1425
  ![(.i, 2), (.ni, 3)],  -- 2Plus: lines 1537-1560
  ![(.ni, 2), (.i, 3)],  -- 2Minus: lines 1429-1452
  ![(.one, 2), (.one, 3)],  -- 3Plus: lines 1564-1587
  ![(.neg, 2), (.neg, 3)]]  -- 3Minus: lines 1456-1479

/-- `spinReconstructDir`, include/qdp_primspinvec.h:1594-1703; directions 0 to 3, plus before minus -/
def reconT : Fin 8 → Fin 4 → EntH := ![
  ![(.one, 0), (.one, 1), (.ni, 1), (.ni, 0)],  -- 0Plus: lines 1651-1661
  ![(.one, 0), (.one, 1), (.i, 1), (.i, 0)],  -- 0Minus: lines 1594-1604
  ![(.one, 0), (.one, 1), (.one, 1), (.neg, 0)],  -- 1Plus: lines 1665-1675
  ![(.one, 0), (.one, 1), (.neg, 1), (.one, 0)],  -- 1Minus: lines 1608-1618
  ![(.one, 0), (.one, 1), (.ni, 0), (.i, 1)],  -- 2Plus: lines 1679-1689
  ![(.one, 0), (.one, 1), (.i, 0), (.ni, 1)],  -- 2Minus: lines 1623-1633
  ![(.one, 0), (.one, 1), (.one, 0), (.one, 1)],  -- 3Plus: lines 1693-1703
  ![(.one, 0), (.one, 1), (.neg, 0), (.neg, 1)]]  -- 3Minus: lines 1637-1647

/-- a store of the inlined functions: `± tmp[k][col][c]`; `c` is true for the imaginary part -/
structure Src where
  minus : Bool
  k : Nat
  c : Bool
deriving DecidableEq

/-- `inlineSpinProjDir`, include/scalarsite_generic/generic_spin_proj_inlines.h:24-498: the two terms of the four stores (spin 0 real, spin 0 imaginary, spin 1 real, spin 1 imaginary) -/
def inProjT : Fin 8 → Fin 4 → Src × Src := ![
  ![(⟨false, 0, false⟩, ⟨true, 3, true⟩), (⟨false, 0, true⟩, ⟨false, 3, false⟩), (⟨false, 1, false⟩, ⟨true, 2, true⟩), (⟨false, 1, true⟩, ⟨false, 2, false⟩)],  -- 0Plus: lines 24-71
  ![(⟨false, 0, false⟩, ⟨false, 3, true⟩), (⟨false, 0, true⟩, ⟨true, 3, false⟩), (⟨false, 1, false⟩, ⟨false, 2, true⟩), (⟨false, 1, true⟩, ⟨true, 2, false⟩)],  -- 0Minus: lines 85-132
  ![(⟨false, 0, false⟩, ⟨true, 3, false⟩), (⟨false, 0, true⟩, ⟨true, 3, true⟩), (⟨false, 1, false⟩, ⟨false, 2, false⟩), (⟨false, 1, true⟩, ⟨false, 2, true⟩)],  -- 1Plus: lines 149-194
  ![(⟨false, 0, false⟩, ⟨false, 3, false⟩), (⟨false, 0, true⟩, ⟨false, 3, true⟩), (⟨false, 1, false⟩, ⟨true, 2, false⟩), (⟨false, 1, true⟩, ⟨true, 2, true⟩)],  -- 1Minus: lines 208-254
  ![(⟨false, 0, false⟩, ⟨true, 2, true⟩), (⟨false, 0, true⟩, ⟨false, 2, false⟩), (⟨false, 1, false⟩, ⟨false, 3, true⟩), (⟨false, 1, true⟩, ⟨true, 3, false⟩)],  -- 2Plus: lines 270-316
  ![(⟨false, 0, false⟩, ⟨false, 2, true⟩), (⟨false, 0, true⟩, ⟨true, 2, false⟩), (⟨false, 1, false⟩, ⟨true, 3, true⟩), (⟨false, 1, true⟩, ⟨false, 3, false⟩)],  -- 2Minus: lines 330-377
  ![(⟨false, 0, false⟩, ⟨false, 2, false⟩), (⟨false, 0, true⟩, ⟨false, 2, true⟩), (⟨false, 1, false⟩, ⟨false, 3, false⟩), (⟨false, 1, true⟩, ⟨false, 3, true⟩)],  -- 3Plus: lines 392-437
  ![(⟨false, 0, false⟩, ⟨true, 2, false⟩), (⟨false, 0, true⟩, ⟨true, 2, true⟩), (⟨false, 1, false⟩, ⟨true, 3, false⟩), (⟨false, 1, true⟩, ⟨true, 3, true⟩)]]  -- 3Minus: lines 451-498

/-- `inlineSpinReconDir`, include/scalarsite_generic/generic_spin_recon_inlines.h:23-546: the stores to spin 2 (real, imaginary) and spin 3 -/
def inReconT : Fin 8 → Fin 4 → Src := ![
  ![⟨false, 1, true⟩, ⟨true, 1, false⟩, ⟨false, 0, true⟩, ⟨true, 0, false⟩],  -- 0Plus: lines 23-73
  ![⟨true, 1, true⟩, ⟨false, 1, false⟩, ⟨true, 0, true⟩, ⟨false, 0, false⟩],  -- 0Minus: lines 88-139
  ![⟨false, 1, false⟩, ⟨false, 1, true⟩, ⟨true, 0, false⟩, ⟨true, 0, true⟩],  -- 1Plus: lines 154-206
  ![⟨true, 1, false⟩, ⟨true, 1, true⟩, ⟨false, 0, false⟩, ⟨false, 0, true⟩],  -- 1Minus: lines 221-276
  ![⟨false, 0, true⟩, ⟨true, 0, false⟩, ⟨true, 1, true⟩, ⟨false, 1, false⟩],  -- 2Plus: lines 292-344
  ![⟨true, 0, true⟩, ⟨false, 0, false⟩, ⟨false, 1, true⟩, ⟨true, 1, false⟩],  -- 2Minus: lines 359-411
  ![⟨false, 0, false⟩, ⟨false, 0, true⟩, ⟨false, 1, false⟩, ⟨false, 1, true⟩],  -- 3Plus: lines 427-480
  ![⟨true, 0, false⟩, ⟨true, 0, true⟩, ⟨true, 1, false⟩, ⟨true, 1, true⟩]]  -- 3Minus: lines 495-546

/-- `inlineAddSpinReconDir`, include/scalarsite_generic/generic_spin_recon_inlines.h:563-1086: the stores to spin 2 (real, imaginary) and spin 3 -/
def inAddReconT : Fin 8 → Fin 4 → Src := ![
  ![⟨false, 1, true⟩, ⟨true, 1, false⟩, ⟨false, 0, true⟩, ⟨true, 0, false⟩],  -- 0Plus: lines 563-613
  ![⟨true, 1, true⟩, ⟨false, 1, false⟩, ⟨true, 0, true⟩, ⟨false, 0, false⟩],  -- 0Minus: lines 628-679
  ![⟨false, 1, false⟩, ⟨false, 1, true⟩, ⟨true, 0, false⟩, ⟨true, 0, true⟩],  -- 1Plus: lines 694-746
  ![⟨true, 1, false⟩, ⟨true, 1, true⟩, ⟨false, 0, false⟩, ⟨false, 0, true⟩],  -- 1Minus: lines 761-816
  ![⟨false, 0, true⟩, ⟨true, 0, false⟩, ⟨true, 1, true⟩, ⟨false, 1, false⟩],  -- 2Plus: lines 832-884
  ![⟨true, 0, true⟩, ⟨false, 0, false⟩, ⟨false, 1, true⟩, ⟨true, 1, false⟩],  -- 2Minus: lines 899-951
  ![⟨false, 0, false⟩, ⟨false, 0, true⟩, ⟨false, 1, false⟩, ⟨false, 1, true⟩],  -- 3Plus: lines 967-1020
  ![⟨true, 0, false⟩, ⟨true, 0, true⟩, ⟨true, 1, false⟩, ⟨true, 1, true⟩]]  -- 3Minus: lines 1035-1086

end Verif.Spin
