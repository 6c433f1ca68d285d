import Verif.Shipped.Check
import Verif.Shipped.Data2

/-!
# Kernel checks of the shipped ideal-gas data, part 2

Generated by `tools/shipped.py`; do not edit.
-/

namespace PyroMat.Shipped.Data

open PyroMat.Shipped

/-- Bounds on `cp/Ru`, in hundredths, for the files of `gases9`. -/
def bounds9 : List (Nat × Nat) := [
  (995, 1325), (1048, 1328), (891, 1074), (1490, 1679), (1448, 1633), (1263, 1374), (1506, 1636), (1157, 1373), (1150, 1327), (1551, 1699), (1532, 1633), (1307, 1633), (1534, 1633), (1561, 1699), (1688, 1939), (1844, 1939)]

theorem checked9 : checkAll gases9 bounds9 = true := by decide +kernel

/-- Bounds on `cp/Ru`, in hundredths, for the files of `gases10`. -/
def bounds10 : List (Nat × Nat) := [
  (411, 689), (806, 1324), (930, 1325), (1138, 1631), (1221, 1936), (736, 1019), (760, 1323), (341, 483), (598, 1318), (436, 750), (426, 519), (441, 492), (503, 714), (406, 489), (408, 611), (410, 544)]

theorem checked10 : checkAll gases10 bounds10 = true := by decide +kernel

/-- Bounds on `cp/Ru`, in hundredths, for the files of `gases11`. -/
def bounds11 : List (Nat × Nat) := [
  (307, 381), (711, 750), (970, 1618), (688, 760), (342, 522), (396, 744), (2465, 3476), (2070, 3418), (3789, 5315), (748, 799), (635, 1320), (728, 766), (670, 765), (585, 1018), (629, 1018), (728, 1023)]

theorem checked11 : checkAll gases11 bounds11 = true := by decide +kernel

/-- Bounds on `cp/Ru`, in hundredths, for the files of `gases12`. -/
def bounds12 : List (Nat × Nat) := [
  (768, 1022), (619, 892), (751, 841), (761, 1023), (743, 1322), (782, 1121), (806, 1324), (873, 1325), (762, 1048), (795, 1069), (998, 1476), (1120, 1637), (1497, 1631), (989, 1329), (1017, 1328), (1197, 1635)]

theorem checked12 : checkAll gases12 bounds12 = true := by decide +kernel

/-- Bounds on `cp/Ru`, in hundredths, for the files of `gases13`. -/
def bounds13 : List (Nat × Nat) := [
  (1194, 1664), (1786, 1942), (1785, 1942), (1562, 2248), (388, 484), (341, 479), (552, 1318), (421, 708), (881, 1623), (405, 513), (392, 522), (382, 762), (568, 765), (521, 714), (414, 553), (398, 516)]

theorem checked13 : checkAll gases13 bounds13 = true := by decide +kernel

/-- Bounds on `cp/Ru`, in hundredths, for the files of `gases14`. -/
def bounds14 : List (Nat × Nat) := [
  (391, 587), (1542, 1701), (838, 1329), (762, 823), (489, 545), (246, 268), (1220, 1929), (1201, 1931), (407, 709), (352, 604), (345, 552), (348, 505), (445, 526), (444, 645), (730, 765), (383, 493)]

theorem checked14 : checkAll gases14 bounds14 = true := by decide +kernel

/-- Bounds on `cp/Ru`, in hundredths, for the files of `gases15`. -/
def bounds15 : List (Nat × Nat) := [
  (964, 1020), (890, 1021), (750, 875), (710, 892), (682, 714), (956, 1123), (904, 1021), (948, 1061), (947, 1020), (1225, 1484), (1249, 1327), (1265, 1326), (1226, 1326), (462, 520), (459, 512), (549, 714)]

theorem checked15 : checkAll gases15 bounds15 = true := by decide +kernel

/-- Bounds on `cp/Ru`, in hundredths, for the files of `gases16`. -/
def bounds16 : List (Nat × Nat) := [
  (435, 624), (450, 580), (433, 527), (504, 714), (243, 587), (621, 826), (421, 476), (517, 802), (348, 473), (3597, 4701), (513, 744), (969, 1019), (1687, 2853), (1795, 2246), (2417, 3160), (2594, 3474)]

theorem checked16 : checkAll gases16 bounds16 = true := by decide +kernel

end PyroMat.Shipped.Data
