import Verif.Shipped.Check
import Verif.Shipped.Data7

/-!
# Kernel checks of the shipped ideal-gas data, part 7

Generated by `tools/shipped.py`; do not edit.
-/

namespace PyroMat.Shipped.Data

open PyroMat.Shipped

/-- Bounds on `cp/Ru`, in hundredths, for the files of `gases49`. -/
def bounds49 : List (Nat × Nat) := [
  (435, 1006), (456, 1011), (1253, 2214), (407, 1299), (472, 1557), (503, 1310), (1614, 2818), (1975, 3422), (2337, 4027), (344, 498), (394, 754), (429, 704), (353, 764), (590, 1010), (342, 492), (497, 1011)]

theorem checked49 : checkAll gases49 bounds49 = true := by decide +kernel

/-- Bounds on `cp/Ru`, in hundredths, for the files of `gases50`. -/
def bounds50 : List (Nat × Nat) := [
  (408, 782), (413, 751), (414, 762), (496, 1005), (463, 765), (432, 782), (545, 756), (544, 866), (342, 521), (342, 493), (451, 754), (450, 757), (341, 479), (944, 1322), (526, 756), (524, 810)]

theorem checked50 : checkAll gases50 bounds50 = true := by decide +kernel

/-- Bounds on `cp/Ru`, in hundredths, for the files of `gases51`. -/
def bounds51 : List (Nat × Nat) := [
  (341, 476), (887, 1321), (437, 726), (593, 757), (584, 757), (344, 535), (349, 533), (342, 506), (396, 733), (341, 471), (508, 1009), (746, 1320), (413, 715), (421, 704), (886, 1618), (341, 482)]

theorem checked51 : checkAll gases51 bounds51 = true := by decide +kernel

/-- Bounds on `cp/Ru`, in hundredths, for the files of `gases52`. -/
def bounds52 : List (Nat × Nat) := [
  (985, 1322), (364, 516), (581, 757), (570, 757), (348, 516), (552, 757), (542, 756), (346, 533), (507, 756), (505, 761), (365, 522), (342, 538), (449, 1036), (390, 841), (471, 1012), (501, 1273)]

theorem checked52 : checkAll gases52 bounds52 = true := by decide +kernel

/-- Bounds on `cp/Ru`, in hundredths, for the files of `gases53`. -/
def bounds53 : List (Nat × Nat) := [
  (355, 518), (578, 757), (568, 757), (342, 565), (341, 487), (345, 495), (391, 763), (542, 756), (539, 824), (341, 530), (366, 481), (342, 494), (351, 505), (243, 256), (243, 256), (243, 260)]

theorem checked53 : checkAll gases53 bounds53 = true := by decide +kernel

/-- Bounds on `cp/Ru`, in hundredths, for the files of `gases54`. -/
def bounds54 : List (Nat × Nat) := [
  (243, 280), (393, 509), (699, 765), (675, 714), (603, 770), (720, 765), (1247, 1326), (408, 520), (430, 517), (435, 550), (455, 539), (243, 256), (243, 569), (250, 477), (1278, 1935), (421, 516)]

theorem checked54 : checkAll gases54 bounds54 = true := by decide +kernel

/-- Bounds on `cp/Ru`, in hundredths, for the files of `gases55`. -/
def bounds55 : List (Nat × Nat) := [
  (422, 518), (243, 280), (243, 256), (243, 256), (243, 412), (403, 736), (584, 764), (855, 1020), (1198, 1934), (385, 510), (522, 713), (380, 493), (380, 495), (243, 260), (243, 392), (233, 1063)]

theorem checked55 : checkAll gases55 bounds55 = true := by decide +kernel

/-- Bounds on `cp/Ru`, in hundredths, for the files of `gases56`. -/
def bounds56 : List (Nat × Nat) := [
  (384, 489), (378, 673), (406, 683), (1530, 2272), (2413, 3506), (3290, 4744), (4158, 5980), (699, 1055), (243, 275), (243, 258), (243, 314), (341, 629), (342, 467), (341, 470), (495, 766), (394, 814)]

theorem checked56 : checkAll gases56 bounds56 = true := by decide +kernel

end PyroMat.Shipped.Data
