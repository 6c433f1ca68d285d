import Verif.Shipped.Check
import Verif.Shipped.Data6

/-!
# Kernel checks of the shipped ideal-gas data, part 6

Generated by `tools/shipped.py`; do not edit.
-/

namespace PyroMat.Shipped.Data

open PyroMat.Shipped

/-- Bounds on `cp/Ru`, in hundredths, for the files of `gases41`. -/
def bounds41 : List (Nat × Nat) := [
  (346, 535), (355, 534), (342, 519), (403, 787), (406, 1014), (401, 737), (419, 748), (448, 1014), (341, 474), (341, 485), (348, 479), (375, 482), (244, 289), (243, 256), (243, 280), (340, 478)]

theorem checked41 : checkAll gases41 bounds41 = true := by decide +kernel

/-- Bounds on `cp/Ru`, in hundredths, for the files of `gases42`. -/
def bounds42 : List (Nat × Nat) := [
  (669, 765), (922, 1020), (560, 764), (744, 1019), (616, 777), (566, 714), (481, 723), (662, 1018), (644, 765), (833, 1020), (509, 713), (775, 1322), (672, 1018), (524, 725), (525, 720), (598, 714)]

theorem checked42 : checkAll gases42 bounds42 = true := by decide +kernel

/-- Bounds on `cp/Ru`, in hundredths, for the files of `gases43`. -/
def bounds43 : List (Nat × Nat) := [
  (527, 720), (589, 714), (527, 714), (662, 1020), (522, 722), (622, 714), (1207, 1631), (627, 1150), (798, 1323), (691, 1019), (661, 1025), (740, 1019), (740, 1022), (700, 1019), (1263, 1631), (1036, 1630)]

theorem checked43 : checkAll gases43 bounds43 = true := by decide +kernel

/-- Bounds on `cp/Ru`, in hundredths, for the files of `gases44`. -/
def bounds44 : List (Nat × Nat) := [
  (1069, 1326), (945, 1327), (1048, 1349), (912, 1325), (865, 1324), (1000, 1629), (1057, 1688), (1194, 1631), (1055, 1684), (1177, 1935), (1142, 1935), (413, 502), (367, 494), (506, 713), (383, 635), (382, 492)]

theorem checked44 : checkAll gases44 bounds44 = true := by decide +kernel

/-- Bounds on `cp/Ru`, in hundredths, for the files of `gases45`. -/
def bounds45 : List (Nat × Nat) := [
  (342, 503), (487, 846), (574, 1022), (785, 1296), (375, 509), (359, 498), (521, 713), (392, 474), (408, 484), (371, 526), (404, 536), (371, 521), (391, 558), (412, 484), (383, 486), (398, 713)]

theorem checked45 : checkAll gases45 bounds45 = true := by decide +kernel

/-- Bounds on `cp/Ru`, in hundredths, for the files of `gases46`. -/
def bounds46 : List (Nat × Nat) := [
  (405, 558), (280, 347), (244, 317), (261, 491), (368, 528), (243, 256), (243, 256), (243, 256), (343, 533), (346, 533), (322, 516), (400, 755), (907, 1308), (746, 1355), (770, 1318), (863, 1308)]

theorem checked46 : checkAll gases46 bounds46 = true := by decide +kernel

/-- Bounds on `cp/Ru`, in hundredths, for the files of `gases47`. -/
def bounds47 : List (Nat × Nat) := [
  (731, 1318), (972, 1609), (527, 999), (638, 1317), (427, 1000), (648, 1332), (799, 1318), (956, 1609), (838, 1608), (817, 1307), (392, 796), (391, 1102), (514, 1617), (931, 1609), (394, 790), (391, 768)]

theorem checked47 : checkAll gases47 bounds47 = true := by decide +kernel

/-- Bounds on `cp/Ru`, in hundredths, for the files of `gases48`. -/
def bounds48 : List (Nat × Nat) := [
  (456, 1038), (895, 1308), (985, 1914), (401, 743), (416, 720), (425, 999), (785, 2536), (1621, 3431), (622, 1314), (601, 1314), (891, 1609), (555, 1313), (640, 1314), (395, 1063), (462, 1325), (416, 998)]

theorem checked48 : checkAll gases48 bounds48 = true := by decide +kernel

end PyroMat.Shipped.Data
