import Verif.Shipped.Check
import Verif.Shipped.Data3

/-!
# Kernel checks of the shipped ideal-gas data, part 3

Generated by `tools/shipped.py`; do not edit.
-/

namespace PyroMat.Shipped.Data

open PyroMat.Shipped

/-- Bounds on `cp/Ru`, in hundredths, for the files of `gases17`. -/
def bounds17 : List (Nat × Nat) := [
  (357, 573), (412, 508), (243, 585), (248, 475), (560, 980), (792, 1221), (1049, 1390), (1308, 1658), (1565, 2090), (243, 265), (245, 282), (243, 281), (451, 554), (1966, 2244), (1866, 2244), (1561, 2242)]

theorem checked17 : checkAll gases17 bounds17 = true := by decide +kernel

/-- Bounds on `cp/Ru`, in hundredths, for the files of `gases18`. -/
def bounds18 : List (Nat × Nat) := [
  (2018, 2244), (621, 765), (610, 772), (810, 1020), (789, 1020), (622, 1016), (417, 521), (884, 1020), (396, 555), (406, 514), (646, 765), (618, 733), (606, 729), (808, 1020), (844, 1020), (615, 765)]

theorem checked18 : checkAll gases18 bounds18 = true := by decide +kernel

/-- Bounds on `cp/Ru`, in hundredths, for the files of `gases19`. -/
def bounds19 : List (Nat × Nat) := [
  (573, 728), (769, 1019), (589, 765), (365, 548), (374, 497), (578, 765), (546, 723), (538, 728), (735, 1019), (744, 1069), (631, 1020), (965, 1325), (1173, 1631), (1221, 1631), (550, 765), (407, 585)]

theorem checked19 : checkAll gases19 bounds19 = true := by decide +kernel

/-- Bounds on `cp/Ru`, in hundredths, for the files of `gases20`. -/
def bounds20 : List (Nat × Nat) := [
  (904, 1020), (379, 500), (388, 498), (367, 496), (362, 582), (558, 764), (586, 794), (365, 576), (245, 280), (243, 256), (243, 265), (243, 256), (243, 266), (344, 507), (450, 711), (674, 1065)]

theorem checked20 : checkAll gases20 bounds20 = true := by decide +kernel

/-- Bounds on `cp/Ru`, in hundredths, for the files of `gases21`. -/
def bounds21 : List (Nat × Nat) := [
  (787, 1318), (1549, 2544), (1354, 2540), (590, 1016), (371, 486), (371, 483), (622, 786), (548, 822), (557, 756), (734, 1019), (499, 713), (529, 763), (346, 476), (520, 766), (474, 782), (476, 733)]

theorem checked21 : checkAll gases21 bounds21 = true := by decide +kernel

/-- Bounds on `cp/Ru`, in hundredths, for the files of `gases22`. -/
def bounds22 : List (Nat × Nat) := [
  (591, 1040), (593, 1017), (417, 764), (694, 1017), (673, 1016), (345, 503), (684, 1017), (342, 478), (460, 761), (508, 779), (352, 516), (234, 704), (433, 612), (668, 714), (427, 617), (659, 714)]

theorem checked22 : checkAll gases22 bounds22 = true := by decide +kernel

/-- Bounds on `cp/Ru`, in hundredths, for the files of `gases23`. -/
def bounds23 : List (Nat × Nat) := [
  (400, 720), (408, 603), (631, 714), (416, 892), (243, 264), (243, 378), (895, 1323), (481, 763), (581, 1017), (746, 1623), (1055, 2236), (382, 495), (625, 765), (384, 679), (371, 486), (606, 765)]

theorem checked23 : checkAll gases23 bounds23 = true := by decide +kernel

/-- Bounds on `cp/Ru`, in hundredths, for the files of `gases24`. -/
def bounds24 : List (Nat × Nat) := [
  (580, 764), (350, 480), (545, 763), (392, 500), (644, 765), (352, 485), (341, 734), (361, 733), (243, 280), (406, 514), (708, 765), (707, 766), (688, 765), (667, 714), (629, 746), (875, 1020)]

theorem checked24 : checkAll gases24 bounds24 = true := by decide +kernel

end PyroMat.Shipped.Data
