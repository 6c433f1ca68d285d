import Verif.Shipped.Check
import Verif.Shipped.Data4

/-!
# Kernel checks of the shipped ideal-gas data, part 4

Generated by `tools/shipped.py`; do not edit.
-/

namespace PyroMat.Shipped.Data

open PyroMat.Shipped

/-- Bounds on `cp/Ru`, in hundredths, for the files of `gases25`. -/
def bounds25 : List (Nat × Nat) := [
  (1227, 1326), (1139, 1326), (426, 562), (418, 499), (426, 507), (433, 545), (450, 512), (432, 575), (243, 258), (243, 256), (243, 285), (2722, 8799), (978, 5254), (2362, 6391), (2305, 6089), (1279, 6371)]

theorem checked25 : checkAll gases25 bounds25 = true := by decide +kernel

/-- Bounds on `cp/Ru`, in hundredths, for the files of `gases26`. -/
def bounds26 : List (Nat × Nat) := [
  (3214, 10432), (1273, 6070), (344, 606), (342, 537), (422, 560), (771, 1067), (1113, 1629), (1601, 2242), (669, 1067), (947, 1626), (453, 784), (445, 1007), (500, 1313), (418, 1310), (515, 1614), (609, 1562)]

theorem checked26 : checkAll gases26 bounds26 = true := by decide +kernel

/-- Bounds on `cp/Ru`, in hundredths, for the files of `gases27`. -/
def bounds27 : List (Nat × Nat) := [
  (411, 1610), (542, 1866), (564, 2134), (905, 2831), (488, 1861), (493, 2162), (758, 2721), (608, 2415), (636, 1059), (616, 1058), (540, 1064), (471, 1008), (1294, 1626), (486, 765), (579, 1140), (1265, 1625)]

theorem checked27 : checkAll gases27 bounds27 = true := by decide +kernel

/-- Bounds on `cp/Ru`, in hundredths, for the files of `gases28`. -/
def bounds28 : List (Nat × Nat) := [
  (453, 790), (535, 930), (490, 943), (564, 1614), (456, 1916), (622, 2168), (449, 2516), (632, 2772), (616, 2716), (653, 3019), (797, 3273), (661, 1372), (599, 1154), (889, 3868), (1624, 4785), (675, 1667)]

theorem checked28 : checkAll gases28 bounds28 = true := by decide +kernel

/-- Bounds on `cp/Ru`, in hundredths, for the files of `gases29`. -/
def bounds29 : List (Nat × Nat) := [
  (497, 2221), (516, 2823), (564, 3426), (1265, 4542), (709, 3574), (846, 1677), (769, 1374), (2007, 3167), (625, 4282), (858, 4431), (1423, 5385), (573, 3128), (633, 3736), (1125, 3142), (1190, 3445), (781, 4638)]

theorem checked29 : checkAll gases29 bounds29 = true := by decide +kernel

/-- Bounds on `cp/Ru`, in hundredths, for the files of `gases30`. -/
def bounds30 : List (Nat × Nat) := [
  (801, 5248), (1285, 5388), (956, 2277), (607, 3131), (736, 3437), (613, 3432), (812, 3685), (1358, 5896), (1487, 6263), (1485, 6549), (871, 4039), (807, 4288), (1040, 4542), (1028, 5200), (1557, 6738), (1690, 7137)]

theorem checked30 : checkAll gases30 bounds30 = true := by decide +kernel

/-- Bounds on `cp/Ru`, in hundredths, for the files of `gases31`. -/
def bounds31 : List (Nat × Nat) := [
  (1685, 7371), (949, 4593), (2456, 7933), (378, 486), (378, 495), (544, 813), (851, 1325), (568, 1019), (749, 1019), (917, 1325), (980, 1326), (785, 1324), (616, 1017), (532, 831), (529, 712), (347, 492)]

theorem checked31 : checkAll gases31 bounds31 = true := by decide +kernel

/-- Bounds on `cp/Ru`, in hundredths, for the files of `gases32`. -/
def bounds32 : List (Nat × Nat) := [
  (352, 483), (455, 736), (457, 773), (455, 1018), (584, 1017), (586, 1017), (554, 1325), (497, 761), (457, 711), (341, 690), (342, 526), (393, 715), (597, 1314), (551, 1313), (501, 1312), (392, 1010)]

theorem checked32 : checkAll gases32 bounds32 = true := by decide +kernel

end PyroMat.Shipped.Data
