import Verif.Shipped.Check
import Verif.Shipped.Data5

/-!
# Kernel checks of the shipped ideal-gas data, part 5

Generated by `tools/shipped.py`; do not edit.
-/

namespace PyroMat.Shipped.Data

open PyroMat.Shipped

/-- Bounds on `cp/Ru`, in hundredths, for the files of `gases33`. -/
def bounds33 : List (Nat × Nat) := [
  (442, 1279), (414, 1004), (477, 1308), (438, 1307), (432, 1316), (392, 1583), (463, 1557), (430, 825), (716, 1319), (768, 1319), (655, 1318), (599, 1318), (371, 779), (448, 1011), (423, 754), (392, 730)]

theorem checked33 : checkAll gases33 bounds33 = true := by decide +kernel

/-- Bounds on `cp/Ru`, in hundredths, for the files of `gases34`. -/
def bounds34 : List (Nat × Nat) := [
  (438, 1012), (596, 762), (345, 572), (341, 469), (341, 571), (454, 768), (589, 762), (416, 767), (341, 534), (341, 471), (490, 768), (379, 817), (488, 801), (342, 567), (349, 487), (536, 805)]

theorem checked34 : checkAll gases34 bounds34 = true := by decide +kernel

/-- Bounds on `cp/Ru`, in hundredths, for the files of `gases35`. -/
def bounds35 : List (Nat × Nat) := [
  (455, 557), (557, 939), (242, 416), (242, 746), (246, 495), (418, 554), (696, 765), (395, 539), (602, 714), (430, 567), (711, 765), (381, 790), (408, 756), (250, 292), (243, 256), (244, 280)]

theorem checked35 : checkAll gases35 bounds35 = true := by decide +kernel

/-- Bounds on `cp/Ru`, in hundredths, for the files of `gases36`. -/
def bounds36 : List (Nat × Nat) := [
  (372, 546), (957, 1020), (676, 824), (948, 1020), (849, 1020), (670, 765), (925, 1020), (681, 821), (562, 714), (907, 1323), (844, 1020), (645, 725), (647, 737), (597, 740), (597, 719), (759, 1025)]

theorem checked36 : checkAll gases36 bounds36 = true := by decide +kernel

/-- Bounds on `cp/Ru`, in hundredths, for the files of `gases37`. -/
def bounds37 : List (Nat × Nat) := [
  (601, 735), (654, 714), (675, 882), (1462, 1632), (912, 1020), (1201, 1631), (841, 1020), (830, 1020), (853, 1051), (1477, 1691), (1180, 1326), (1061, 1326), (1122, 1326), (1127, 1371), (1929, 2244), (433, 507)]

theorem checked37 : checkAll gases37 bounds37 = true := by decide +kernel

/-- Bounds on `cp/Ru`, in hundredths, for the files of `gases38`. -/
def bounds38 : List (Nat × Nat) := [
  (413, 488), (342, 478), (452, 729), (376, 938), (752, 1019), (530, 714), (843, 1323), (448, 496), (428, 506), (390, 494), (416, 697), (409, 488), (523, 888), (624, 1024), (420, 502), (415, 634)]

theorem checked38 : checkAll gases38 bounds38 = true := by decide +kernel

/-- Bounds on `cp/Ru`, in hundredths, for the files of `gases39`. -/
def bounds39 : List (Nat × Nat) := [
  (370, 487), (440, 825), (606, 765), (427, 500), (425, 541), (440, 486), (540, 738), (419, 491), (425, 571), (437, 562), (243, 685), (360, 532), (367, 501), (509, 713), (660, 1018), (243, 256)]

theorem checked39 : checkAll gases39 bounds39 = true := by decide +kernel

/-- Bounds on `cp/Ru`, in hundredths, for the files of `gases40`. -/
def bounds40 : List (Nat × Nat) := [
  (239, 605), (278, 478), (937, 1020), (650, 714), (1293, 1935), (420, 494), (428, 505), (243, 256), (240, 415), (429, 521), (391, 552), (563, 812), (418, 553), (243, 256), (243, 256), (243, 256)]

theorem checked40 : checkAll gases40 bounds40 = true := by decide +kernel

end PyroMat.Shipped.Data
