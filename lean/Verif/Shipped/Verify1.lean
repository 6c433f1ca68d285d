import Verif.Shipped.Check
import Verif.Shipped.Data1

/-!
# Kernel checks of the shipped ideal-gas data, part 1

Generated by `tools/shipped.py`; do not edit.
-/

namespace PyroMat.Shipped.Data

open PyroMat.Shipped

/-- Bounds on `cp/Ru`, in hundredths, for the files of `gases1`. -/
def bounds1 : List (Nat × Nat) := [
  (344, 507), (403, 763), (576, 1022), (374, 757), (6076, 7086), (1075, 1932), (1101, 1586), (901, 1577), (959, 1881), (1211, 2781), (1213, 2541), (1116, 2537), (1029, 2534), (1607, 3445), (3416, 4045), (382, 489)]

theorem checked1 : checkAll gases1 bounds1 = true := by decide +kernel

/-- Bounds on `cp/Ru`, in hundredths, for the files of `gases2`. -/
def bounds2 : List (Nat × Nat) := [
  (559, 716), (766, 1023), (730, 1019), (623, 1016), (945, 1023), (544, 716), (751, 1019), (510, 713), (661, 1018), (548, 764), (692, 1019), (581, 1016), (636, 1018), (496, 1015), (609, 1317), (1511, 1629)]

theorem checked2 : checkAll gases2 bounds2 = true := by decide +kernel

/-- Bounds on `cp/Ru`, in hundredths, for the files of `gases3`. -/
def bounds3 : List (Nat × Nat) := [
  (342, 501), (398, 759), (609, 1317), (425, 1007), (765, 1768), (413, 783), (495, 1011), (431, 829), (392, 492), (572, 716), (825, 1022), (1178, 1316), (541, 890), (435, 565), (682, 714), (243, 338)]

theorem checked3 : checkAll gases3 bounds3 = true := by decide +kernel

/-- Bounds on `cp/Ru`, in hundredths, for the files of `gases4`. -/
def bounds4 : List (Nat × Nat) := [
  (1347, 1634), (1240, 1323), (342, 502), (742, 1363), (448, 766), (763, 824), (768, 1321), (958, 1020), (879, 1021), (750, 866), (939, 1020), (731, 765), (703, 892), (762, 892), (942, 1323), (941, 1123)]

theorem checked4 : checkAll gases4 bounds4 = true := by decide +kernel

/-- Bounds on `cp/Ru`, in hundredths, for the files of `gases5`. -/
def bounds5 : List (Nat × Nat) := [
  (1046, 1329), (890, 1021), (1109, 1327), (930, 1058), (931, 1020), (1537, 1702), (1512, 1632), (1202, 1484), (1258, 1327), (1203, 1326), (1549, 1633), (1554, 1699), (1774, 1938), (409, 490), (384, 499), (775, 1022)]

theorem checked5 : checkAll gases5 bounds5 = true := by decide +kernel

/-- Bounds on `cp/Ru`, in hundredths, for the files of `gases6`. -/
def bounds6 : List (Nat × Nat) := [
  (1180, 1635), (1254, 1936), (341, 486), (619, 1318), (436, 543), (428, 736), (461, 518), (452, 507), (424, 765), (381, 494), (533, 713), (414, 493), (443, 569), (421, 616), (423, 546), (484, 762)]

theorem checked6 : checkAll gases6 bounds6 = true := by decide +kernel

/-- Bounds on `cp/Ru`, in hundredths, for the files of `gases7`. -/
def bounds7 : List (Nat × Nat) := [
  (917, 1627), (1246, 2186), (2087, 2566), (348, 483), (423, 489), (1063, 1328), (812, 1324), (552, 848), (831, 1324), (929, 1577), (1631, 2800), (1199, 1989), (1064, 1976), (405, 824), (473, 1014), (435, 898)]

theorem checked7 : checkAll gases7 bounds7 = true := by decide +kernel

/-- Bounds on `cp/Ru`, in hundredths, for the files of `gases8`. -/
def bounds8 : List (Nat × Nat) := [
  (567, 763), (494, 772), (862, 1316), (522, 843), (3086, 3469), (759, 807), (929, 1325), (728, 1320), (728, 766), (989, 1330), (1022, 1325), (680, 881), (761, 892), (897, 1050), (1050, 1328), (884, 1323)]

theorem checked8 : checkAll gases8 bounds8 = true := by decide +kernel

end PyroMat.Shipped.Data
