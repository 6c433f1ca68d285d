import Verif.Shipped.Check
import Verif.Shipped.Data8

/-!
# Kernel checks of the shipped ideal-gas data, part 8

Generated by `tools/shipped.py`; do not edit.
-/

namespace PyroMat.Shipped.Data

open PyroMat.Shipped

/-- Bounds on `cp/Ru`, in hundredths, for the files of `gases57`. -/
def bounds57 : List (Nat × Nat) := [
  (782, 1305), (764, 1579), (938, 1827), (374, 763), (341, 470), (349, 483), (436, 773), (403, 868), (524, 1019), (439, 1019), (372, 474), (353, 547), (586, 770), (365, 579), (349, 481), (243, 256)]

theorem checked57 : checkAll gases57 bounds57 = true := by decide +kernel

/-- Bounds on `cp/Ru`, in hundredths, for the files of `gases58`. -/
def bounds58 : List (Nat × Nat) := [
  (243, 418), (385, 680), (651, 765), (1242, 1935), (411, 513), (412, 511), (289, 437), (361, 526), (466, 714), (244, 280), (243, 256), (262, 307), (372, 484), (404, 511), (243, 273), (243, 267)]

theorem checked58 : checkAll gases58 bounds58 = true := by decide +kernel

/-- Bounds on `cp/Ru`, in hundredths, for the files of `gases59`. -/
def bounds59 : List (Nat × Nat) := [
  (244, 279), (2224, 4069), (357, 508), (368, 494), (341, 539), (486, 713), (468, 749), (517, 763), (517, 768), (518, 751), (516, 713), (540, 714), (410, 1164), (596, 1017), (372, 473), (381, 551)]

theorem checked59 : checkAll gases59 bounds59 = true := by decide +kernel

/-- Bounds on `cp/Ru`, in hundredths, for the files of `gases60`. -/
def bounds60 : List (Nat × Nat) := [
  (354, 520), (518, 713), (350, 479), (388, 800), (359, 651), (381, 569), (360, 555), (346, 600), (247, 317), (242, 368), (376, 473), (790, 1020), (242, 454), (433, 559), (411, 651), (243, 346)]

theorem checked60 : checkAll gases60 bounds60 = true := by decide +kernel

/-- Bounds on `cp/Ru`, in hundredths, for the files of `gases61`. -/
def bounds61 : List (Nat × Nat) := [
  (243, 280), (248, 291), (381, 537), (1579, 2244), (379, 502), (416, 804), (243, 299), (245, 292), (404, 537), (647, 855), (241, 833), (244, 493), (269, 353), (243, 281), (249, 529), (283, 435)]

theorem checked61 : checkAll gases61 bounds61 = true := by decide +kernel

/-- Bounds on `cp/Ru`, in hundredths, for the files of `gases62`. -/
def bounds62 : List (Nat × Nat) := [
  (243, 279), (243, 256), (243, 256), (243, 286), (281, 485), (243, 256)]

theorem checked62 : checkAll gases62 bounds62 = true := by decide +kernel

end PyroMat.Shipped.Data
