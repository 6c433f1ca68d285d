import Verif.Shipped.Basic

/-!
# Shipped ideal-gas data, part 6

Generated by `tools/shipped.py` from `/repo/src/pyromat/data/ig/*.hpd` and `ig2/*.hpd`;
do not edit.
-/

namespace PyroMat.Shipped.Data

open PyroMat.Shipped (File)
open PyroMat.Shipped.Dec (p n)

/-- `ig.D2+` .. `ig.F2` (`data/ig2`). -/
def gases41 : List File := [
  ⟨"ig.D2+", .ig2,
    [p 300 0, p 1000 0, p 5000 0],
    [[p 3807514 6, n 3110626 9, p 10162982 12, n 98363271 16, p 32659853 19, p 17917096 2, n 228662825 8],
     [p 358918 5, p 89214651 11, n 24264484 14, p 57584409 18, n 6738056 21, p 17903752 2, n 205817885 8]],
    p 402766 5, some (p 100000 0), [("D", 2), ("e", -1)]⟩,
  ⟨"ig.D2-", .ig2,
    [p 300 0, p 1000 0, p 5000 0],
    [[p 321448 5, p 78358165 11, p 35892685 13, n 5239419 15, p 20871365 19, p 27293009 3, p 368155837 9],
     [p 37531042 7, p 98018991 11, n 3638796 13, p 70700482 18, n 50674272 22, p 27064708 3, n 281955172 8]],
    p 402875 5, some (p 100000 0), [("D", 2), ("e", 1)]⟩,
  ⟨"ig.D2", .ig2,
    [p 200 0, p 1000 0, p 6000 0],
    [[p 349546974 8, p 258348159 12, n 131762502 14, p 242912018 17, n 105982498 20, n 10463158 4, n 251905385 8],
     [p 273068929 8, p 148004781 11, n 479314848 15, p 789496274 19, n 488380823 23, n 795267504 6, p 164266243 8]],
    p 40282 4, some (p 100000 0), [("D", 2)]⟩,
  ⟨"ig.D2N", .ig2,
    [p 29815 2, p 1000 0, p 5000 0],
    [[p 4026978 6, n 14085128 10, p 77765815 13, n 64967575 16, p 1755417 18, p 21098028 3, p 175484295 8],
     [p 33515391 7, p 33763162 10, n 13213457 13, p 26800679 17, n 20810174 21, p 21077749 3, p 437387975 8]],
    p 1803494 5, some (p 100000 0), [("D", 2), ("N", 1)]⟩,
  ⟨"ig.D2N2", .ig2,
    [p 200 0, p 1000 0, p 6000 0],
    [[p 387335899 8, n 262328791 11, p 263075819 13, n 313008744 16, p 118109999 19, p 236948344 4, p 47494916 7],
     [p 451455308 8, p 518901318 11, n 193684288 14, p 320575967 18, n 195208624 22, p 230230396 4, n 952662254 9]],
    p 3204168 5, some (p 100000 0), [("D", 2), ("N", 2)]⟩,
  ⟨"ig.D2O", .ig2,
    [p 300 0, p 1000 0, p 5000 0],
    [[p 38541131 7, p 14712288 11, p 30069006 13, n 17747628 16, p 23018862 20, n 31151651 3, p 173341984 8],
     [p 27264595 7, p 39845173 10, n 14932626 13, p 26349772 17, n 17649557 21, n 30902638 3, p 731820134 8]],
    p 200276 4, some (p 100000 0), [("D", 2), ("O", 1)]⟩,
  ⟨"ig.D2S", .ig2,
    [p 300 0, p 1000 0, p 5000 0],
    [[p 38070824 7, p 37596311 11, p 57530799 13, n 5348574 15, p 14054083 19, n 40661219 4, p 387928749 8],
     [p 36662901 7, p 34992264 10, n 14207284 13, p 26685639 17, n 18684739 21, n 42147308 4, p 379969969 8]],
    p 360942 4, some (p 100000 0), [("D", 2), ("S", 1)]⟩,
  ⟨"ig.D3N", .ig2,
    [p 29815 2, p 1000 0, p 5000 0],
    [[p 29427839 7, p 51035291 10, p 27392821 13, n 46847662 16, p 16276674 19, n 81651563 4, p 615522038 8],
     [p 31961566 7, p 67311758 10, n 264234 11, p 47630868 17, n 32804828 21, n 83966527 4, p 416290718 8]],
    p 2004905 5, some (p 100000 0), [("D", 3), ("N", 1)]⟩,
  ⟨"ig.DF", .ig2,
    [p 300 0, p 1000 0, p 5000 0],
    [[p 34981386 7, p 22176793 11, n 1332024 12, p 25619493 16, n 11512241 19, n 34183232 3, p 165507861 8],
     [p 2726462 6, p 15091293 10, n 51704938 14, p 85485371 18, n 54196024 22, n 3393694 2, p 582981981 8]],
    p 2101251 5, some (p 100000 0), [("D", 1), ("F", 1)]⟩,
  ⟨"ig.DN", .ig2,
    [p 29815 2, p 1000 0, p 5000 0],
    [[p 37206488 7, n 15341848 10, p 31877426 13, n 15091401 16, p 97126114 21, p 44072756 3, p 164955672 8],
     [p 28297034 7, p 16584175 10, n 63287333 14, p 11477685 17, n 78318584 22, p 44255951 3, p 600662882 8]],
    p 1602084 5, some (p 100000 0), [("D", 1), ("N", 1)]⟩,
  ⟨"ig.DO", .ig2,
    [p 300 0, p 1000 0, p 5000 0],
    [[p 40346751 7, n 24561313 10, p 39610201 13, n 18534996 16, p 19295341 20, p 32770507 4, p 394186141 9],
     [p 27829107 7, p 15739567 10, n 57020787 14, p 98864409 18, n 65062014 22, p 35759813 4, p 667567133 8]],
    p 180135 4, some (p 100000 0), [("D", 1), ("O", 1)]⟩,
  ⟨"ig.DS", .ig2,
    [p 300 0, p 1000 0, p 5000 0],
    [[p 47285597 7, n 50939881 10, p 99134605 13, n 73290813 16, p 19461608 19, p 15399579 3, n 156847952 8],
     [p 33471988 7, p 12129646 10, n 47730138 14, p 88323669 18, n 60740591 22, p 15627147 3, p 487764198 8]],
    p 340801 4, some (p 100000 0), [("D", 1), ("S", 1)]⟩,
  ⟨"ig.F+", .ig2,
    [p 29815 2, p 1000 0, p 6000 0],
    [[p 308421084 8, n 900062139 12, n 164599174 15, p 110121336 17, n 55627092 20, p 211619101 3, p 214597653 8],
     [p 268834861 8, n 176182961 12, p 606940639 16, n 891530067 20, p 547552167 24, p 211744095 3, p 427480838 8]],
    p 1899785 5, some (p 100000 0), [("F", 1), ("e", -1)]⟩,
  ⟨"ig.F-", .ig2,
    [p 29815 2, p 1000 0, p 6000 0],
    [[p 25 1, p 0 0, p 0 0, p 0 0, p 0 0, n 314241522 4, p 326488285 8],
     [p 25 1, p 0 0, p 0 0, p 0 0, p 0 0, n 314241522 4, p 326488285 8]],
    p 1899895 5, some (p 100000 0), [("F", 1), ("e", 1)]⟩,
  ⟨"ig.F", .ig2,
    [p 200 0, p 1000 0, p 6000 0],
    [[p 241951429 8, p 294132793 11, n 892799246 14, p 992060935 17, n 379860044 20, p 875732351 5, p 474771042 8],
     [p 266749541 8, n 166693548 12, p 642448457 16, n 108588758 19, p 670845755 24, p 87889535 4, p 400729198 8]],
    p 189984 4, some (p 100000 0), [("F", 1)]⟩,
  ⟨"ig.F2", .ig2,
    [p 200 0, p 1000 0, p 6000 0],
    [[p 320832415 8, p 125919179 11, p 389747979 14, n 722184984 17, p 331837862 20, n 103425794 5, p 561903589 8],
     [p 386166219 8, p 788367679 12, n 18198294 14, n 91743656 19, p 265193472 23, n 123238655 5, p 204119855 8]],
    p 3799681 5, some (p 100000 0), [("F", 2)]⟩]

/-- `ig.F2K-` .. `ig.F2Pb` (`data/ig2`). -/
def gases42 : List File := [
  ⟨"ig.F2K-", .ig2,
    [p 300 0, p 1000 0, p 5000 0],
    [[p 52507573 7, p 86383718 10, n 13403673 12, p 94140832 16, n 24682602 19, n 85383971 3, n 477224713 9],
     [p 72581638 7, p 26703557 11, n 1138463 13, p 21407685 18, n 1482707 21, n 85780839 3, n 101032783 7]],
    p 7709565 5, some (p 100000 0), [("F", 2), ("K", 1), ("e", 1)]⟩,
  ⟨"ig.F2K2", .ig2,
    [p 300 0, p 1000 0, p 5000 0],
    [[p 78329504 7, p 89240831 10, n 14719852 12, p 10982469 15, n 3072172 18, n 10638752 2, n 824238281 8],
     [p 98148096 7, p 20453081 11, n 87071665 15, p 16337227 18, n 11287256 22, n 10675987 2, n 17641803 6]],
    p 11619341 5, some (p 100000 0), [("F", 2), ("K", 2)]⟩,
  ⟨"ig.F2Li-", .ig2,
    [p 300 0, p 1000 0, p 5000 0],
    [[p 34718136 7, p 10636713 9, n 11777646 12, p 56765487 16, n 8465984 19, n 86963111 3, p 514092795 8],
     [p 6344859 6, p 12571272 10, n 5352283 13, p 10113025 17, n 70581744 22, n 8766789 2, n 929840285 8]],
    p 4493835 5, some (p 100000 0), [("F", 2), ("Li", 1), ("e", 1)]⟩,
  ⟨"ig.F2Li2", .ig2,
    [p 300 0, p 1000 0, p 5000 0],
    [[p 24007508 7, p 27066237 9, n 3925618 11, p 25722599 15, n 62237225 19, n 11501091 2, p 108917788 7],
     [p 89566636 7, p 11719269 10, n 50990504 14, p 97917534 18, n 69215602 22, n 11637228 2, n 208863312 7]],
    p 5187881 5, some (p 100000 0), [("F", 2), ("Li", 2)]⟩,
  ⟨"ig.F2Mg+", .ig2,
    [p 300 0, p 1000 0, p 5000 0],
    [[p 35212884 7, p 15269556 9, n 25180089 12, p 19635499 15, n 59054919 19, p 69658388 3, p 739020945 8],
     [p 68910673 7, p 71781283 11, n 32941172 14, p 65881128 18, n 45873228 22, p 68993145 3, n 871301395 8]],
    p 6230126 5, some (p 100000 0), [("F", 2), ("Mg", 1), ("e", -1)]⟩,
  ⟨"ig.F2Mg", .ig2,
    [p 300 0, p 1000 0, p 5000 0],
    [[p 33479058 7, p 13115297 9, n 20541607 12, p 15395784 15, n 44909041 19, n 88838874 3, p 865190211 8],
     [p 63642073 7, p 72627827 11, n 32280046 14, p 63363666 18, n 45738437 22, n 89464429 3, n 591513079 8]],
    p 6230181 5, some (p 100000 0), [("F", 2), ("Mg", 1)]⟩,
  ⟨"ig.F2N", .ig2,
    [p 29815 2, p 1000 0, p 5000 0],
    [[p 21823381 7, p 13070008 9, n 15147887 12, p 8233646 15, n 16858864 19, p 30263247 4, p 14296736 6],
     [p 56710998 7, p 15249064 10, n 6643205 13, p 12988209 17, n 93489162 22, p 21728918 4, n 321733726 8]],
    p 5200355 5, some (p 100000 0), [("F", 2), ("N", 1)]⟩,
  ⟨"ig.F2N2", .ig2,
    [p 29815 2, p 1000 0, p 5000 0],
    [[p 28058926 7, p 19251967 9, n 23697744 12, p 14616861 15, n 36451603 19, p 59944419 4, p 114841507 7],
     [p 76671923 7, p 25946627 10, n 11346023 13, p 22035268 17, n 15788658 21, p 48139999 4, n 128292913 7]],
    p 6601029 5, some (p 100000 0), [("F", 2), ("N", 2)]⟩,
  ⟨"ig.F2Na-", .ig2,
    [p 300 0, p 1000 0, p 5000 0],
    [[p 45826889 7, p 10605211 9, n 15720501 12, p 10567297 15, n 2641592 18, n 82234497 3, p 148920761 8],
     [p 71223193 7, p 41884055 11, n 17972299 14, p 34041229 18, n 23751935 22, n 8275573 2, n 107866745 7]],
    p 6098712 5, some (p 100000 0), [("F", 2), ("Na", 1), ("e", 1)]⟩,
  ⟨"ig.F2Na2", .ig2,
    [p 300 0, p 1000 0, p 5000 0],
    [[p 48212191 7, p 19836396 9, n 30617614 12, p 2133704 14, n 55344314 19, n 10389005 2, p 236625459 8],
     [p 9433553 6, p 63611588 11, n 2762472 13, p 5291719 17, n 37310353 22, n 10480114 2, n 197529921 7]],
    p 8397634 5, some (p 100000 0), [("F", 2), ("Na", 2)]⟩,
  ⟨"ig.F2O", .ig2,
    [p 300 0, p 1000 0, p 5000 0],
    [[p 26109219 7, p 1223128 8, n 13441415 12, p 58909412 16, n 57487175 20, p 17347196 4, p 117878818 7],
     [p 60051871 7, p 11028402 10, n 47547937 14, p 90683145 18, n 63757098 22, p 91906065 5, n 522210581 8]],
    p 5399621 5, some (p 100000 0), [("F", 2), ("O", 1)]⟩,
  ⟨"ig.F2O2S", .ig2,
    [p 300 0, p 1000 0, p 5000 0],
    [[p 1732468 6, p 2850176 8, n 29453798 12, p 124013 13, n 11715533 19, n 92781393 3, p 1694841 5],
     [p 96078885 7, p 37111026 10, n 15899114 13, p 30232464 17, n 21228577 21, n 94754768 3, n 22848942 6]],
    p 10206161 5, some (p 100000 0), [("F", 2), ("O", 2), ("S", 1)]⟩,
  ⟨"ig.F2OS", .ig2,
    [p 300 0, p 1000 0, p 5000 0],
    [[p 24749066 7, p 20952426 9, n 24164277 12, p 12120377 15, n 19338731 19, n 66897602 3, p 141973404 7],
     [p 80874212 7, p 21095716 10, n 90866912 14, p 17344834 17, n 12214158 21, n 68238159 3, n 138555916 7]],
    p 8606221 5, some (p 100000 0), [("F", 2), ("O", 1), ("S", 1)]⟩,
  ⟨"ig.F2P+", .ig2,
    [p 300 0, p 1000 0, p 5000 0],
    [[p 24702136 7, p 14922676 9, n 21573139 12, p 15054386 15, n 41267109 19, p 555655406 4, p 13263674 6],
     [p 60726154 7, p 10588249 10, n 46758166 14, p 89612298 18, n 60454217 22, p 547769396 4, n 435167158 8]],
    p 6897002 5, some (p 100000 0), [("F", 2), ("P", 1), ("e", -1)]⟩,
  ⟨"ig.F2P", .ig2,
    [p 300 0, p 1000 0, p 5000 0],
    [[p 24428526 7, p 15186331 9, n 22196924 12, p 15648932 15, n 43298372 19, n 599609804 4, p 14037117 6],
     [p 60926588 7, p 10313324 10, n 4537102 13, p 87045583 18, n 59714052 22, n 607553254 4, n 378513007 8]],
    p 6897057 5, some (p 100000 0), [("F", 2), ("P", 1)]⟩,
  ⟨"ig.F2Pb", .ig2,
    [p 300 0, p 1000 0, p 5000 0],
    [[p 41295694 7, p 10561626 9, n 15808144 12, p 10725748 15, n 2709389 18, n 53916121 3, p 914042485 8],
     [p 66354593 7, p 41173109 11, n 18004609 14, p 34728984 18, n 24645269 22, n 54425059 3, n 294686195 8]],
    p 24519681 5, some (p 100000 0), [("F", 2), ("Pb", 1)]⟩]

/-- `ig.F2S+` .. `ig.F4N2` (`data/ig2`). -/
def gases43 : List File := [
  ⟨"ig.F2S+", .ig2,
    [p 300 0, p 1000 0, p 5000 0],
    [[p 2427149 6, p 15517546 9, n 23060259 12, p 16499612 15, n 46246418 19, p 83239557 3, p 141278866 7],
     [p 61209 4, p 99984817 11, n 43992932 14, p 84368137 18, n 57795378 22, p 82444585 3, n 386307542 8]],
    p 7006226 5, some (p 100000 0), [("F", 2), ("S", 1), ("e", -1)]⟩,
  ⟨"ig.F2S-", .ig2,
    [p 300 0, p 1000 0, p 5000 0],
    [[p 32900503 7, p 15538612 9, n 27236604 12, p 22182799 15, n 68862156 19, n 49391925 3, p 981747763 8],
     [p 65847123 7, p 4788609 10, n 2140544 13, p 42175703 18, n 3052391 21, n 50005705 3, n 573334787 8]],
    p 7006335 5, some (p 100000 0), [("F", 2), ("S", 1), ("e", 1)]⟩,
  ⟨"ig.F2S", .ig2,
    [p 300 0, p 1000 0, p 5000 0],
    [[p 24103056 7, p 15590121 9, n 23178018 12, p 16583497 15, n 46465761 19, n 36916373 3, p 135066803 7],
     [p 61194196 7, p 10051424 10, n 44653313 14, p 8762401 17, n 63236512 22, n 37714241 3, n 455717411 8]],
    p 7006281 5, some (p 100000 0), [("F", 2), ("S", 1)]⟩,
  ⟨"ig.F2S2", .ig2,
    [p 200 0, p 1000 0, p 6000 0],
    [[p 222664682 8, p 328125204 10, n 592797021 13, p 50233128 15, n 162599019 19, n 421538019 4, p 151239428 7],
     [p 911491404 8, p 925549788 12, n 366972859 15, p 631489899 19, n 394877764 23, n 434448561 4, n 173685774 7]],
    p 10212881 5, some (p 100000 0), [("F", 2), ("S", 2)]⟩,
  ⟨"ig.F2Si", .ig2,
    [p 300 0, p 1000 0, p 5000 0],
    [[p 2514824 6, p 14504157 9, n 20594779 12, p 14130176 15, n 38132326 19, n 71942433 3, p 130046348 7],
     [p 60562104 7, p 10721952 10, n 47129758 14, p 90174764 18, n 61370905 22, n 72727083 3, n 435994757 8]],
    p 6608231 5, some (p 100000 0), [("F", 2), ("Si", 1)]⟩,
  ⟨"ig.F2Sr", .ig2,
    [p 300 0, p 1000 0, p 5000 0],
    [[p 48135516 7, p 83821602 10, n 12999531 12, p 91354392 16, n 23989877 19, n 93850543 3, p 566408021 8],
     [p 67547891 7, p 27761964 11, n 12158878 14, p 2347878 17, n 16675192 22, n 94233632 3, n 364195389 8]],
    p 12561681 5, some (p 100000 0), [("F", 2), ("Sr", 1)]⟩,
  ⟨"ig.F3Li3", .ig2,
    [p 300 0, p 1000 0, p 5000 0],
    [[p 46413975 7, p 39878696 9, n 57248991 12, p 37193544 15, n 89230125 19, n 18519852 2, p 216235967 8],
     [p 14364422 6, p 18285498 10, n 79221159 14, p 15154529 17, n 10675673 21, n 18723736 2, n 45060913 6]],
    p 7781821 5, some (p 100000 0), [("F", 3), ("Li", 3)]⟩,
  ⟨"ig.F3N", .ig2,
    [p 29815 2, p 1000 0, p 5000 0],
    [[p 34741287 8, p 30750479 9, n 42586086 12, p 28843209 15, n 77034655 19, n 16987504 3, p 218734938 7],
     [p 78419964 7, p 26927592 10, n 10801306 13, p 21221256 17, n 15288124 21, n 18668432 3, n 149708922 7]],
    p 7100195 5, some (p 100000 0), [("F", 3), ("N", 1)]⟩,
  ⟨"ig.F3NO", .ig2,
    [p 29815 2, p 1000 0, p 5000 0],
    [[p 15785883 8, p 41884825 9, n 62731005 12, p 46190483 15, n 13412026 18, n 23930423 3, p 224234237 7],
     [p 98160298 7, p 35462215 10, n 15521269 13, p 30163503 17, n 21622909 21, n 2601812 2, n 245950113 7]],
    p 8700135 5, some (p 100000 0), [("F", 3), ("N", 1), ("O", 1)]⟩,
  ⟨"ig.F3P", .ig2,
    [p 300 0, p 1000 0, p 5000 0],
    [[p 23621878 7, p 22820045 9, n 27656642 12, p 14490962 15, n 2460236 18, n 116776903 3, p 13686432 6],
     [p 84347733 7, p 1739392 9, n 75119808 14, p 14344247 17, n 10093979 21, n 118180783 3, n 16463602 6]],
    p 8796897 5, some (p 100000 0), [("F", 3), ("P", 1)]⟩,
  ⟨"ig.F3S+", .ig2,
    [p 300 0, p 1000 0, p 5000 0],
    [[p 10018508 7, p 29755155 9, n 43356794 12, p 30554964 15, n 84633479 19, p 46044184 3, p 194445008 7],
     [p 81385016 7, p 21288914 10, n 94836822 14, p 18607436 17, n 13271729 21, p 4448673 2, n 154212422 7]],
    p 8906066 5, some (p 100000 0), [("F", 3), ("S", 1), ("e", -1)]⟩,
  ⟨"ig.F3S-", .ig2,
    [p 300 0, p 1000 0, p 5000 0],
    [[p 18788761 7, p 31226174 9, n 51551749 12, p 40226788 15, n 12102932 18, n 94947055 3, p 156459843 7],
     [p 88095826 7, p 13643678 10, n 60757321 14, p 11940532 17, n 86259332 22, n 96320265 3, n 174943707 7]],
    p 8906176 5, some (p 100000 0), [("F", 3), ("S", 1), ("e", 1)]⟩,
  ⟨"ig.F3S", .ig2,
    [p 300 0, p 1000 0, p 5000 0],
    [[p 18777728 7, p 31234035 9, n 51571379 12, p 40247322 15, n 12110594 18, n 62067939 3, p 163694361 7],
     [p 88076897 7, p 13671676 10, n 60808333 14, p 11883022 17, n 84470915 22, n 63440494 3, n 167648869 7]],
    p 8906121 5, some (p 100000 0), [("F", 3), ("S", 1)]⟩,
  ⟨"ig.F3Si", .ig2,
    [p 300 0, p 1000 0, p 5000 0],
    [[p 2348022 6, p 24665033 9, n 3510935 11, p 2423269 14, n 65909416 19, n 13206872 2, p 14590183 6],
     [p 83488191 7, p 18772369 10, n 83177125 14, p 16290718 17, n 11738533 21, n 13339987 2, n 14834389 6]],
    p 8508071 5, some (p 100000 0), [("F", 3), ("Si", 1)]⟩,
  ⟨"ig.F4Mg2", .ig2,
    [p 300 0, p 1000 0, p 5000 0],
    [[p 42299053 7, p 49290849 9, n 86449672 12, p 70459371 15, n 2188711 17, n 20949299 2, p 500323615 8],
     [p 14672016 6, p 15299318 10, n 68347117 14, p 13460469 17, n 97383398 22, n 21143766 2, n 44278244 6]],
    p 12460361 5, some (p 100000 0), [("F", 4), ("Mg", 2)]⟩,
  ⟨"ig.F4N2", .ig2,
    [p 29815 2, p 1000 0, p 5000 0],
    [[p 98781294 8, p 50029524 9, n 73676708 12, p 52523455 15, n 14712961 18, n 46101086 4, p 204857192 7],
     [p 12915066 6, p 35081362 10, n 1554689 12, p 30456218 17, n 21952354 21, n 72008189 4, n 377108998 7]],
    p 10400709 5, some (p 100000 0), [("F", 4), ("N", 2)]⟩]

/-- `ig.F4Pb` .. `ig.FMg` (`data/ig2`). -/
def gases44 : List File := [
  ⟨"ig.F4Pb", .ig2,
    [p 300 0, p 1000 0, p 5000 0],
    [[p 62745387 7, p 24576282 9, n 36567537 12, p 24663266 15, n 61876008 19, n 13900917 2, n 152958549 8],
     [p 12127774 6, p 98421046 11, n 43006159 14, p 82902421 18, n 58800202 22, n 14020345 2, n 29790944 6]],
    p 28319361 5, some (p 100000 0), [("F", 4), ("Pb", 1)]⟩,
  ⟨"ig.F4S+", .ig2,
    [p 300 0, p 1000 0, p 5000 0],
    [[p 19615813 7, p 42132094 9, n 69155565 12, p 53720666 15, n 16105895 18, p 4809474 2, p 163799008 7],
     [p 11351941 6, p 18875662 10, n 83904062 14, p 16414938 17, n 11735195 21, p 46224767 3, n 285715082 7]],
    p 10805906 5, some (p 100000 0), [("F", 4), ("S", 1), ("e", -1)]⟩,
  ⟨"ig.F4S-", .ig2,
    [p 300 0, p 1000 0, p 5000 0],
    [[p 40793762 7, p 37839503 9, n 66904657 12, p 54822434 15, n 17092844 18, n 10914642 2, p 564178775 8],
     [p 12003326 6, p 12007713 10, n 57398274 14, p 12299385 17, n 92952734 22, n 11060308 2, n 316592651 7]],
    p 10806016 5, some (p 100000 0), [("F", 4), ("S", 1), ("e", 1)]⟩,
  ⟨"ig.F4S", .ig2,
    [p 300 0, p 1000 0, p 5000 0],
    [[p 12819645 7, p 43569899 9, n 70125168 12, p 53677244 15, n 15914356 18, n 93586701 3, p 184198703 7],
     [p 11124383 6, p 21457994 10, n 95452444 14, p 18746111 17, n 13535953 21, n 95581669 3, n 288756477 7]],
    p 10805961 5, some (p 100000 0), [("F", 4), ("S", 1)]⟩,
  ⟨"ig.F4Si", .ig2,
    [p 300 0, p 1000 0, p 5000 0],
    [[p 21893068 7, p 33702007 9, n 46723179 12, p 31584638 15, n 84506114 19, n 19603289 2, p 13300471 6],
     [p 10478473 6, p 28586756 10, n 12646314 13, p 24746863 17, n 17824296 21, n 1979055 1, n 27507478 6]],
    p 10407911 5, some (p 100000 0), [("F", 4), ("Si", 1)]⟩,
  ⟨"ig.F5P", .ig2,
    [p 300 0, p 1000 0, p 5000 0],
    [[p 10523249 7, p 44454004 9, n 53901429 12, p 28416686 15, n 49143268 19, n 193632313 3, p 1908901 5],
     [p 12846184 6, p 35104485 10, n 15198604 13, p 29101904 17, n 20534708 21, n 196362263 3, n 39475542 6]],
    p 12596578 5, some (p 100000 0), [("F", 5), ("P", 1)]⟩,
  ⟨"ig.F5S+", .ig2,
    [p 300 0, p 1000 0, p 5000 0],
    [[n 17164861 7, p 68940046 9, n 11471051 11, p 89977865 15, n 27166326 18, p 19061149 3, p 294445133 7],
     [p 13684216 6, p 25177023 10, n 10854393 13, p 22533745 17, n 17223917 21, p 16004908 3, n 441997237 7]],
    p 12705747 5, some (p 100000 0), [("F", 5), ("S", 1), ("e", -1)]⟩,
  ⟨"ig.F5S-", .ig2,
    [p 300 0, p 1000 0, p 5000 0],
    [[p 18477649 7, p 58376369 9, n 10131314 11, p 81956977 15, n 25319505 18, n 15499326 2, p 138538844 7],
     [p 1432191 5, p 19313033 10, n 86219936 14, p 16972395 17, n 1227486 20, n 15734315 2, n 451592536 7]],
    p 12705856 5, some (p 100000 0), [("F", 5), ("S", 1), ("e", 1)]⟩,
  ⟨"ig.F5S", .ig2,
    [p 300 0, p 1000 0, p 5000 0],
    [[n 17147662 7, p 68716008 9, n 11407933 11, p 89336379 15, n 26940429 18, n 11096178 2, p 302724678 7],
     [p 13610563 6, p 2652313 9, n 11691463 13, p 24245132 17, n 18314718 21, n 11400293 2, n 430151012 7]],
    p 12705802 5, some (p 100000 0), [("F", 5), ("S", 1)]⟩,
  ⟨"ig.F6S-", .ig2,
    [p 300 0, p 1000 0, p 5000 0],
    [[n 32609272 7, p 82695369 9, n 13299812 11, p 10173768 14, n 30146383 18, n 1631086 1, p 354233442 7],
     [p 15428646 6, p 40845317 10, n 18164903 13, p 35667328 17, n 2575 17, n 16689884 2, n 543961218 7]],
    p 14605697 5, some (p 100000 0), [("F", 6), ("S", 1), ("e", 1)]⟩,
  ⟨"ig.F6S", .ig2,
    [p 300 0, p 1000 0, p 5000 0],
    [[n 38388088 7, p 83221721 9, n 13181689 11, p 99636154 15, n 29248767 18, n 14836477 2, p 371611426 7],
     [p 1516295 5, p 43842318 10, n 19486337 13, p 38247196 17, n 2760505 20, n 15226801 2, n 544157194 7]],
    p 14605642 5, some (p 100000 0), [("F", 6), ("S", 1)]⟩,
  ⟨"ig.FK", .ig2,
    [p 300 0, p 1000 0, p 5000 0],
    [[p 35156066 7, p 37868422 10, n 55864995 13, p 37751438 16, n 93924218 20, n 40476079 3, p 631338545 8],
     [p 440407 5, p 17833725 11, n 36093797 15, p 58839587 19, n 34694046 23, n 40655889 3, p 203109585 8]],
    p 580967 4, some (p 100000 0), [("F", 1), ("K", 1)]⟩,
  ⟨"ig.FLi", .ig2,
    [p 300 0, p 1000 0, p 5000 0],
    [[p 28528869 7, p 39532781 10, n 31724985 13, p 43244397 17, p 37055667 20, n 41987265 3, p 679102887 8],
     [p 40430248 7, p 57041054 11, n 21454144 14, p 40609013 18, n 2835792 21, n 42299318 3, p 697695467 9]],
    p 259394 4, some (p 100000 0), [("F", 1), ("Li", 1)]⟩,
  ⟨"ig.FLiO", .ig2,
    [p 300 0, p 1000 0, p 5000 0],
    [[p 2500179 6, p 12661717 9, n 14157589 12, p 64506374 16, n 74261431 20, n 12265534 3, p 121440182 7],
     [p 59926109 7, p 111392 8, n 47888493 14, p 91068332 18, n 63849123 22, n 13100989 3, n 533660329 8]],
    p 419388 4, some (p 100000 0), [("F", 1), ("Li", 1), ("O", 1)]⟩,
  ⟨"ig.FMg+", .ig2,
    [p 300 0, p 1000 0, p 5000 0],
    [[p 34387654 7, p 22252654 10, n 54621202 13, p 14084276 15, n 80726906 19, p 60515666 3, p 577835456 8],
     [p 43681057 7, p 41175966 10, n 29394797 13, p 72711843 17, n 59844802 21, p 59536 0, n 134577794 8]],
    p 4330285 5, some (p 100000 0), [("F", 1), ("Mg", 1), ("e", -1)]⟩,
  ⟨"ig.FMg", .ig2,
    [p 300 0, p 1000 0, p 5000 0],
    [[p 26570752 7, p 66826135 10, n 10331156 12, p 76871766 16, n 22245057 19, n 2949489 2, p 985508041 8],
     [p 41922119 7, p 40362644 11, n 15097631 14, p 28169221 18, n 18275892 22, n 2981371 2, p 243696211 8]],
    p 433034 4, some (p 100000 0), [("F", 1), ("Mg", 1)]⟩]

/-- `ig.FN` .. `ig.FSr+` (`data/ig2`). -/
def gases45 : List File := [
  ⟨"ig.FN", .ig2,
    [p 200 0, p 1000 0, p 6000 0],
    [[p 359927999 8, n 218190788 11, p 114106853 13, n 140068494 16, p 553332638 20, p 269702525 4, p 535573603 8],
     [p 406042292 8, p 35065485 11, n 695721815 16, p 145925454 19, n 156372401 23, p 266711982 4, p 208774805 8]],
    p 3300514 5, some (p 100000 0), [("F", 1), ("N", 1)]⟩,
  ⟨"ig.FNO", .ig2,
    [p 29815 2, p 1000 0, p 5000 0],
    [[p 3016789 6, p 9407459 9, n 11410368 12, p 775157 14, n 22232888 19, n 90487593 4, p 103043423 7],
     [p 49878162 7, p 2438225 9, n 11104045 13, p 24541367 17, n 18888813 21, n 95328315 4, p 459173349 9]],
    p 4900454 5, some (p 100000 0), [("F", 1), ("N", 1), ("O", 1)]⟩,
  ⟨"ig.FNO2", .ig2,
    [p 29815 2, p 1000 0, p 5000 0],
    [[p 14466808 7, p 20884058 9, n 23885528 12, p 13943894 15, n 33402501 19, n 14284297 3, p 1766067 5],
     [p 6710382 6, p 36240166 10, n 15666023 13, p 30266641 17, n 21608866 21, n 15611041 3, n 888169601 8]],
    p 6500394 5, some (p 100000 0), [("F", 1), ("N", 1), ("O", 2)]⟩,
  ⟨"ig.FNO3", .ig2,
    [p 29815 2, p 1000 0, p 5000 0],
    [[p 20363571 7, p 28784098 9, n 34840341 12, p 21760173 15, n 56496436 19, p 18506817 5, p 164435428 7],
     [p 9289479 6, p 46018137 10, n 22187067 13, p 45129758 17, n 33240654 21, n 16468516 4, n 200889242 7]],
    p 8100334 5, some (p 100000 0), [("F", 1), ("N", 1), ("O", 3)]⟩,
  ⟨"ig.FNa", .ig2,
    [p 200 0, p 1000 0, p 6000 0],
    [[p 274871833 8, p 803243289 11, n 151563523 13, p 133592246 16, n 445165244 20, n 360002074 4, p 868107812 8],
     [p 433376796 8, p 256807777 12, n 694232621 16, p 119679617 19, n 749308393 24, n 362797872 4, p 130046354 8]],
    p 4198817 5, some (p 100000 0), [("F", 1), ("Na", 1)]⟩,
  ⟨"ig.FO", .ig2,
    [p 300 0, p 1000 0, p 5000 0],
    [[p 29680024 7, p 26483393 10, n 37368005 14, n 19006225 16, p 10614283 19, p 12087844 3, p 839349747 8],
     [p 39192774 7, p 70442345 11, n 26648204 14, p 49617599 18, n 33688571 22, p 11798193 3, p 332875837 8]],
    p 349978 4, some (p 100000 0), [("F", 1), ("O", 1)]⟩,
  ⟨"ig.FO2", .ig2,
    [p 300 0, p 1000 0, p 5000 0],
    [[p 37805073 7, p 68174595 10, n 58133605 13, p 17562504 16, p 6775743 20, p 12769468 5, p 783568297 8],
     [p 57040935 7, p 13862889 10, n 58355374 14, p 10937214 17, n 75869181 22, n 39678678 5, n 206791733 8]],
    p 509972 4, some (p 100000 0), [("F", 1), ("O", 2)]⟩,
  ⟨"ig.FP+", .ig2,
    [p 300 0, p 1000 0, p 5000 0],
    [[p 39402122 7, n 53784582 11, p 39356106 13, n 46726194 16, p 17445838 19, p 107252597 3, p 451850328 8],
     [p 40816184 7, p 4950691 10, n 20319808 14, p 39234847 18, n 27830337 22, p 107145847 3, p 344441668 8]],
    p 4997162 5, some (p 100000 0), [("F", 1), ("P", 1), ("e", -1)]⟩,
  ⟨"ig.FP-", .ig2,
    [p 300 0, p 1000 0, p 5000 0],
    [[p 35951376 7, p 30312909 10, n 44062914 13, p 31583475 16, n 89206267 20, n 209040944 4, p 586990652 8],
     [p 43037691 7, p 2639263 10, n 98774303 15, p 18711821 18, n 12110252 22, n 210581444 4, p 241229152 8]],
    p 4997271 5, some (p 100000 0), [("F", 1), ("P", 1), ("e", 1)]⟩,
  ⟨"ig.FP", .ig2,
    [p 300 0, p 1000 0, p 5000 0],
    [[p 26760863 7, p 55722162 10, n 72837796 13, p 45819439 16, n 11188106 19, n 728916135 5, p 104341831 7],
     [p 42844403 7, p 46513192 12, p 12923155 14, n 35459686 18, p 29308642 22, n 767566495 5, p 240196381 8]],
    p 4997217 5, some (p 100000 0), [("F", 1), ("P", 1)]⟩,
  ⟨"ig.FPb", .ig2,
    [p 300 0, p 1000 0, p 5000 0],
    [[p 32454482 7, p 46936166 10, n 69780028 13, p 47459304 16, n 11983928 19, n 10777073 3, p 10443732 6],
     [p 46052196 7, n 32622217 11, p 28298253 14, n 57120594 18, p 37397813 22, n 11086917 3, p 374059423 8]],
    p 2261984 4, some (p 100000 0), [("F", 1), ("Pb", 1)]⟩,
  ⟨"ig.FS+", .ig2,
    [p 300 0, p 1000 0, p 5000 0],
    [[p 26666648 7, p 56975491 10, n 76057422 13, p 49119455 16, n 12414514 19, p 11831033 2, p 105150193 7],
     [p 42807248 7, p 10367433 11, p 55441665 15, n 11433295 18, p 55846906 23, p 11792192 2, p 245939467 8]],
    p 5106385 5, some (p 100000 0), [("F", 1), ("S", 1), ("e", -1)]⟩,
  ⟨"ig.FS-", .ig2,
    [p 300 0, p 1000 0, p 5000 0],
    [[p 27597936 7, p 6865822 9, n 11314519 12, p 8874637 15, n 2678427 18, n 23486306 3, p 899350681 8],
     [p 41270672 7, p 6256934 10, n 31246986 14, p 71722476 18, n 47061404 22, n 23734881 3, p 255369411 8]],
    p 5106495 5, some (p 100000 0), [("F", 1), ("S", 1), ("e", 1)]⟩,
  ⟨"ig.FS", .ig2,
    [p 300 0, p 1000 0, p 5000 0],
    [[p 34208175 7, p 45511198 10, n 79372564 13, p 65004711 16, n 20289665 19, p 39609503 5, p 654700583 8],
     [p 43690885 7, p 19204424 11, n 66630365 15, p 1244859 17, n 76537494 23, p 22018526 5, p 207596863 8]],
    p 510644 4, some (p 100000 0), [("F", 1), ("S", 1)]⟩,
  ⟨"ig.FSi", .ig2,
    [p 300 0, p 1000 0, p 5000 0],
    [[p 32453535 7, p 29702331 10, n 2485799 12, p 56304836 17, p 14416034 20, n 34944272 4, p 788443469 8],
     [p 41227835 7, p 46804891 11, n 18677675 14, p 35242093 18, n 23015046 22, n 37258619 4, p 338858669 8]],
    p 470839 4, some (p 100000 0), [("F", 1), ("Si", 1)]⟩,
  ⟨"ig.FSr+", .ig2,
    [p 300 0, p 1000 0, p 5000 0],
    [[p 31093791 7, p 50270035 10, n 72689338 13, p 47948501 16, n 11683847 19, p 22607202 3, p 907411038 8],
     [p 56135518 7, n 21810917 10, p 12215248 13, n 16332971 17, p 32584509 22, p 2188214 2, n 390142032 8]],
    p 10661785 5, some (p 100000 0), [("F", 1), ("Sr", 1), ("e", -1)]⟩]

/-- `ig.FSr` .. `ig.H2CaO2` (`data/ig2`). -/
def gases46 : List File := [
  ⟨"ig.FSr", .ig2,
    [p 300 0, p 1000 0, p 5000 0],
    [[p 32713947 7, p 46213354 10, n 6900775 12, p 47233582 16, n 12046807 19, n 3655563 2, p 910702069 8],
     [p 42457164 7, p 46633587 11, n 26925896 14, p 7356008 17, n 5721376 21, n 36740299 3, p 446607869 8]],
    p 1066184 4, some (p 100000 0), [("F", 1), ("Sr", 1)]⟩,
  ⟨"ig.Fe+", .ig2,
    [p 29815 2, p 1000 0, p 6000 0],
    [[p 276418106 8, p 286948238 11, n 761235651 14, p 818183334 17, n 311792199 20, p 141159039 3, p 553997981 8],
     [p 333602399 8, n 272549262 12, p 805440344 17, p 151229089 19, n 143376595 23, p 141036455 3, p 286476968 8]],
    p 5584645 5, some (p 100000 0), [("Fe", 1), ("e", -1)]⟩,
  ⟨"ig.Fe-", .ig2,
    [p 29815 2, p 1000 0, p 6000 0],
    [[p 15217451 7, p 979673193 11, n 21107867 12, p 184820903 16, n 589537134 20, p 465710215 4, p 108683385 7],
     [p 336310586 8, n 829375042 12, p 312426241 15, n 520068355 19, p 317875241 23, p 463564307 4, p 276802421 8]],
    p 5584755 5, some (p 100000 0), [("Fe", 1), ("e", 1)]⟩,
  ⟨"ig.Fe", .ig2,
    [p 200 0, p 1000 0, p 6000 0],
    [[p 170744428 8, p 106339224 10, n 276118171 13, p 280917854 16, n 101219824 19, p 491843725 4, p 980811099 8],
     [p 32619797 7, n 105582533 11, p 592906998 15, n 107189455 18, p 748064402 23, p 490969873 4, p 352443894 8]],
    p 55847 3, some (p 100000 0), [("Fe", 1)]⟩,
  ⟨"ig.FeO", .ig2,
    [p 300 0, p 1000 0, p 5000 0],
    [[p 28245256 7, p 43049207 10, n 41084781 13, p 13201189 16, p 71316217 21, p 29194035 3, p 11891176 6],
     [p 42049817 7, p 26838452 11, n 89426736 15, p 31855911 18, n 33922543 22, p 2882917 2, p 483043159 8]],
    p 718464 4, some (p 100000 0), [("Fe", 1), ("O", 1)]⟩,
  ⟨"ig.H+", .ig2,
    [p 29815 2, p 1000 0, p 6000 0],
    [[p 25 1, p 0 0, p 0 0, p 0 0, p 0 0, p 184021428 3, n 114064453 8],
     [p 25 1, p 0 0, p 0 0, p 0 0, p 0 0, p 184021428 3, n 114064453 8]],
    p 100739 5, some (p 100000 0), [("H", 1), ("e", -1)]⟩,
  ⟨"ig.H-", .ig2,
    [p 29815 2, p 1000 0, p 6000 0],
    [[p 25 1, p 0 0, p 0 0, p 0 0, p 0 0, p 15976167 3, n 113901598 8],
     [p 25 1, p 0 0, p 0 0, p 0 0, p 0 0, p 15976167 3, n 113901598 8]],
    p 100849 5, some (p 100000 0), [("H", 1), ("e", 1)]⟩,
  ⟨"ig.H", .ig2,
    [p 200 0, p 1000 0, p 6000 0],
    [[p 25 1, p 0 0, p 0 0, p 0 0, p 0 0, p 254736599 4, n 446682853 9],
     [p 250000286 8, n 565334214 17, p 363251723 20, n 91994972 23, p 795260746 28, p 254736589 4, n 446698494 9]],
    p 100794 5, some (p 100000 0), [("H", 1)]⟩,
  ⟨"ig.H2+", .ig2,
    [p 29815 2, p 1000 0, p 6000 0],
    [[p 377256072 8, n 195746589 11, p 454812047 14, n 282152141 17, p 533969209 21, p 178694104 3, n 396609086 8],
     [p 344204765 8, p 599083239 12, p 669133685 16, n 343574373 19, p 197626599 23, p 178649686 3, n 279498949 8]],
    p 201533 5, some (p 100000 0), [("H", 2), ("e", -1)]⟩,
  ⟨"ig.H2-", .ig2,
    [p 300 0, p 1000 0, p 5000 0],
    [[p 38380142 7, n 31794768 10, p 10043011 12, n 95518116 16, p 3128133 18, p 27234856 3, n 39986236 7],
     [p 32921076 7, p 14358626 10, n 54705593 14, p 10433883 17, n 73827998 22, p 27216181 3, n 19827777 7]],
    p 201643 5, some (p 100000 0), [("H", 2), ("e", 1)]⟩,
  ⟨"ig.H2", .ig2,
    [p 200 0, p 1000 0, p 6000 0],
    [[p 234433112 8, p 798052075 11, n 19478151 12, p 201572094 16, n 737611761 20, n 917935173 6, p 683010238 9],
     [p 293286579 8, p 826607967 12, n 146402335 15, p 154100359 19, n 688804432 24, n 813065597 6, n 102432887 8]],
    p 201588 5, some (p 100000 0), [("H", 2)]⟩,
  ⟨"ig.H2B", .ig2,
    [p 300 0, p 1000 0, p 5000 0],
    [[p 23958282 7, p 7477626 9, n 72019514 13, p 45826398 16, n 1251068 18, p 2316265 2, p 607647039 8],
     [p 33625285 7, p 39012854 10, n 15097551 13, p 26672805 17, n 17713053 21, p 22919028 3, p 125928259 8]],
    p 1282688 5, some (p 100000 0), [("B", 1), ("H", 2)]⟩,
  ⟨"ig.H2BaO2", .ig2,
    [p 300 0, p 1000 0, p 5000 0],
    [[p 37909356 7, p 32075449 9, n 59350806 12, p 50776385 15, n 16181131 18, n 77483558 3, p 894869323 8],
     [p 90824735 7, p 27368311 10, n 81753678 14, p 11534884 17, n 62833756 22, n 78186586 3, n 146886716 7]],
    p 17134168 5, some (p 100000 0), [("Ba", 1), ("H", 2), ("O", 2)]⟩,
  ⟨"ig.H2BeO2", .ig2,
    [p 300 0, p 1000 0, p 5000 0],
    [[p 24184393 8, p 39913568 9, n 64588281 12, p 51023476 15, n 15479205 18, n 82741045 3, p 17313626 6],
     [p 78550478 7, p 4647758 9, n 16502834 13, p 27670623 17, n 17826298 21, n 84106259 3, n 18429466 6]],
    p 4302686 5, some (p 100000 0), [("Be", 1), ("H", 2), ("O", 2)]⟩,
  ⟨"ig.H2Br2Si", .ig2,
    [p 300 0, p 1000 0, p 5000 0],
    [[p 20007427 7, p 30282631 9, n 44687336 12, p 34411431 15, n 1054872 17, n 24507507 3, p 185667366 7],
     [p 81692601 7, p 50285601 10, n 21097564 13, p 39872155 17, n 28035838 21, n 25842475 3, n 113711914 7]],
    p 18990938 5, some (p 100000 0), [("Br", 2), ("H", 2), ("Si", 1)]⟩,
  ⟨"ig.H2CaO2", .ig2,
    [p 300 0, p 1000 0, p 5000 0],
    [[p 23222166 7, p 37515682 9, n 67996513 12, p 57290263 15, n 18081475 18, n 75322863 3, p 124879611 7],
     [p 88582036 7, p 29941909 10, n 93219299 14, p 13788386 17, n 79111985 22, n 76279496 3, n 171393039 7]],
    p 7409268 5, some (p 100000 0), [("Ca", 1), ("H", 2), ("O", 2)]⟩]

/-- `ig.H2Cl2Si` .. `ig.H2O` (`data/ig2`). -/
def gases47 : List File := [
  ⟨"ig.H2Cl2Si", .ig2,
    [p 300 0, p 1000 0, p 5000 0],
    [[p 10264938 7, p 33013589 9, n 47961062 12, p 36225676 15, n 10920447 18, n 39963387 3, p 206288573 7],
     [p 79121404 7, p 53127891 10, n 22336729 13, p 42274812 17, n 29755684 21, n 41468503 3, n 128867627 7]],
    p 10100678 5, some (p 100000 0), [("Cl", 2), ("H", 2), ("Si", 1)]⟩,
  ⟨"ig.H2Cs2O2", .ig2,
    [p 300 0, p 1000 0, p 5000 0],
    [[p 75228191 7, p 79078372 10, p 35430299 13, n 10456328 15, p 48014032 19, n 85338412 3, n 190663311 8],
     [p 95809362 7, p 53260509 10, n 18780545 13, p 30925925 17, n 19429533 21, n 86025839 3, n 132145943 7]],
    p 29982554 5, some (p 100000 0), [("Cs", 2), ("H", 2), ("O", 2)]⟩,
  ⟨"ig.H2F2", .ig2,
    [p 300 0, p 1000 0, p 5000 0],
    [[p 26763312 7, p 12297991 9, n 12455965 12, p 63602523 16, n 11270823 19, n 70123715 3, p 103109298 7],
     [p 49160389 7, p 39857654 10, n 13558707 13, p 21930921 17, n 13716005 21, n 70594777 3, n 629605894 9]],
    p 4001269 5, some (p 100000 0), [("F", 2), ("H", 2)]⟩,
  ⟨"ig.H2F2Si", .ig2,
    [p 300 0, p 1000 0, p 5000 0],
    [[p 19375998 8, p 3007988 8, n 35874136 12, p 22668558 15, n 59185925 19, n 96230327 3, p 228607536 7],
     [p 70981857 7, p 6214649 9, n 26272352 13, p 49909085 17, n 35221641 21, n 97918745 3, n 116725694 7]],
    p 6809819 5, some (p 100000 0), [("F", 2), ("H", 2), ("Si", 1)]⟩,
  ⟨"ig.H2FN", .ig2,
    [p 29815 2, p 1000 0, p 5000 0],
    [[p 36463427 7, n 11229914 10, p 17156086 12, n 19033368 15, p 67384595 19, n 10175002 3, p 655727107 8],
     [p 30316886 7, p 64223937 10, n 24832754 13, p 44370331 17, n 299811 19, n 10302167 3, p 827719987 8]],
    p 3502102 5, some (p 100000 0), [("F", 1), ("H", 2), ("N", 1)]⟩,
  ⟨"ig.H2FeO2", .ig2,
    [p 200 0, p 1000 0, p 6000 0],
    [[n 167667734 8, p 616931464 10, n 120738995 12, p 109814026 15, n 372856831 19, n 411289708 4, p 29677171 6],
     [p 896262012 8, p 420137342 11, n 161017443 14, p 268347076 18, n 163497305 22, n 427994358 4, n 186912367 7]],
    p 8986168 5, some (p 100000 0), [("Fe", 1), ("H", 2), ("O", 2)]⟩,
  ⟨"ig.H2I2Si", .ig2,
    [p 300 0, p 1000 0, p 5000 0],
    [[p 26562813 7, p 28626176 9, n 430037 10, p 33708031 15, n 10475547 18, n 63252612 4, p 172709251 7],
     [p 83573099 7, p 48163586 10, n 20161445 13, p 38043699 17, n 26720584 21, n 75417667 4, n 102973549 7]],
    p 28391032 5, some (p 100000 0), [("H", 2), ("I", 2), ("Si", 1)]⟩,
  ⟨"ig.H2K2O2", .ig2,
    [p 300 0, p 1000 0, p 5000 0],
    [[p 69190596 7, p 10300703 9, n 25173296 14, n 77450014 16, p 40796041 19, n 81260548 3, n 297285644 8],
     [p 95097722 7, p 54167066 10, n 19223532 13, p 31866066 17, n 20152508 21, n 82048352 3, n 168125059 7]],
    p 11221128 5, some (p 100000 0), [("H", 2), ("K", 2), ("O", 2)]⟩,
  ⟨"ig.H2Li2O2", .ig2,
    [p 300 0, p 1000 0, p 5000 0],
    [[p 28646637 7, p 25237309 9, n 22632791 12, p 74632713 16, p 22925498 20, n 87338811 3, p 95431296 7],
     [p 89936129 7, p 60039633 10, n 21810181 13, p 36888726 17, n 23738014 21, n 8884415 2, n 213586495 7]],
    p 4789668 5, some (p 100000 0), [("H", 2), ("Li", 2), ("O", 2)]⟩,
  ⟨"ig.H2MgO2", .ig2,
    [p 300 0, p 1000 0, p 5000 0],
    [[p 1549475 6, p 3827048 8, n 66509328 12, p 54536294 15, n 16891338 18, n 70516754 3, p 144170361 7],
     [p 85178384 7, p 3379138 9, n 11022033 13, p 17111179 17, n 10302286 21, n 71626731 3, n 176294649 7]],
    p 5831968 5, some (p 100000 0), [("H", 2), ("Mg", 1), ("O", 2)]⟩,
  ⟨"ig.H2N", .ig2,
    [p 200 0, p 1000 0, p 6000 0],
    [[p 420556857 8, n 213561363 11, p 726851301 14, n 593069876 17, p 180690978 20, p 215352231 4, n 14666277 8],
     [p 284768992 8, p 314280035 11, n 898641458 15, p 130318284 18, n 748812926 23, p 218239049 4, p 647165433 8]],
    p 1602262 5, some (p 100000 0), [("H", 2), ("N", 1)]⟩,
  ⟨"ig.H2N2", .ig2,
    [p 200 0, p 1000 0, p 6000 0],
    [[p 491066016 8, n 107791866 10, p 386516441 13, n 386501628 16, p 1348521 17, p 242242727 4, p 910279703 10],
     [p 131115086 8, p 900187272 11, n 314911866 14, p 48144969 17, n 271897983 22, p 247864167 4, p 164091085 7]],
    p 3002936 5, some (p 100000 0), [("H", 2), ("N", 2)]⟩,
  ⟨"ig.H2N2O2", .ig2,
    [p 200 0, p 1000 0, p 6000 0],
    [[p 217310105 8, p 143162299 10, p 109031619 13, n 276714677 16, p 129868687 19, n 445906121 5, p 153831166 7],
     [p 738890998 8, p 765188026 11, n 275087039 14, p 444622886 18, n 266488122 22, n 621767034 5, n 132737 4]],
    p 6202816 5, some (p 100000 0), [("H", 2), ("N", 2), ("O", 2)]⟩,
  ⟨"ig.H2Na2O2", .ig2,
    [p 300 0, p 1000 0, p 5000 0],
    [[p 5971293 6, p 14049275 9, n 62445142 13, n 33935746 16, p 28933769 19, n 75412938 3, n 937386453 9],
     [p 94160743 7, p 55196522 10, n 19659611 13, p 32680344 17, n 20712485 21, n 76366369 3, n 188543497 7]],
    p 7999422 5, some (p 100000 0), [("H", 2), ("Na", 2), ("O", 2)]⟩,
  ⟨"ig.H2O+", .ig2,
    [p 29815 2, p 1000 0, p 6000 0],
    [[p 402465853 8, n 108850969 11, p 5135754 12, n 440026592 17, p 140726274 20, p 116869757 3, p 699971363 9],
     [p 33157046 7, p 210648728 11, n 376341449 15, p 3475259 17, n 170335651 23, p 116991617 3, p 403220441 8]],
    p 1801473 5, some (p 100000 0), [("H", 2), ("O", 1), ("e", -1)]⟩,
  ⟨"ig.H2O", .ig2,
    [p 200 0, p 1000 0, p 6000 0],
    [[p 419864056 8, n 20364341 10, p 652040211 14, n 548797062 17, p 177197817 20, n 302937267 4, n 849032208 9],
     [p 267703787 8, p 297318329 11, n 77376969 14, p 944336689 19, n 426900959 23, n 298858938 4, p 688255571 8]],
    p 1801528 5, some (p 100000 0), [("H", 2), ("O", 1)]⟩]

/-- `ig.H2O2` .. `ig.H3O+` (`data/ig2`). -/
def gases48 : List File := [
  ⟨"ig.H2O2", .ig2,
    [p 200 0, p 1000 0, p 6000 0],
    [[p 427611269 8, n 542822417 12, p 167335701 13, n 215770813 16, p 862454363 20, n 177542989 4, p 343505074 8],
     [p 457333537 8, p 40498407 10, n 129479479 14, p 19728171 17, n 113402846 22, n 180548121 4, p 704278488 9]],
    p 3401468 5, some (p 100000 0), [("H", 2), ("O", 2)]⟩,
  ⟨"ig.H2O2Sr", .ig2,
    [p 300 0, p 1000 0, p 5000 0],
    [[p 3365885 6, p 3370994 8, n 62028171 12, p 52843269 15, n 16796046 18, n 73709368 3, p 978559688 8],
     [p 90232674 7, p 28049102 10, n 84791007 14, p 12132493 17, n 67154183 22, n 74485035 3, n 15602668 6]],
    p 12163468 5, some (p 100000 0), [("H", 2), ("O", 2), ("Sr", 1)]⟩,
  ⟨"ig.H2O4S", .ig2,
    [p 300 0, p 1000 0, p 5000 0],
    [[p 1072568 6, p 43769226 9, n 55333243 12, p 35518253 15, n 90677358 19, n 90259758 3, p 18939582 6],
     [p 10889532 6, p 75004178 10, n 29210478 13, p 52595513 17, n 35789415 21, n 92471364 3, n 29404782 6]],
    p 9807948 5, some (p 100000 0), [("H", 2), ("O", 4), ("S", 1)]⟩,
  ⟨"ig.H2S", .ig2,
    [p 300 0, p 1000 0, p 5000 0],
    [[p 39323476 7, n 50260905 11, p 45928473 13, n 31807214 16, p 66497561 20, n 36505359 4, p 23157905 7],
     [p 27452199 7, p 40434607 10, n 1538451 12, p 27520249 17, n 18592095 21, n 34199444 4, p 80546745 7]],
    p 3408188 5, some (p 100000 0), [("H", 2), ("S", 1)]⟩,
  ⟨"ig.H2Si", .ig2,
    [p 29815 2, p 1000 0, p 5000 0],
    [[p 53107853 7, n 14469945 9, p 51427146 12, n 54733474 15, p 19288286 18, p 28213394 3, n 282241862 8],
     [p 58593855 7, p 16382565 10, n 84396252 14, p 1832333 16, n 14114365 21, p 27165699 3, n 10064631 6]],
    p 3010138 5, some (p 100000 0), [("H", 2), ("Si", 1)]⟩,
  ⟨"ig.H3B", .ig2,
    [p 300 0, p 1000 0, p 5000 0],
    [[p 39487033 7, n 52170543 11, p 76481164 13, n 46148694 16, p 56318616 20, p 11618809 3, n 455174579 10],
     [p 20621726 7, p 72655895 10, n 27510337 13, p 47803709 17, n 31334285 21, p 11923753 3, p 884945083 8]],
    p 1383482 5, some (p 100000 0), [("B", 1), ("H", 3)]⟩,
  ⟨"ig.H3B3O3", .ig2,
    [p 200 0, p 1000 0, p 6000 0],
    [[p 276989078 8, p 2534259 8, p 122486701 13, n 373057611 16, p 174556897 19, n 148431026 3, p 115218019 7],
     [p 121201212 7, p 122811209 10, n 460922487 14, p 765824542 18, n 467623793 22, n 151648629 3, n 398918007 7]],
    p 8345502 5, some (p 100000 0), [("B", 3), ("H", 3), ("O", 3)]⟩,
  ⟨"ig.H3B3O6", .ig2,
    [p 300 0, p 1000 0, p 5000 0],
    [[n 22705116 7, p 87024894 9, n 91587714 12, p 39445392 15, n 36666035 19, n 27569523 2, p 325296526 7],
     [p 20153579 6, p 13016286 9, n 50669619 13, p 90308253 17, n 6053241 20, n 28104092 2, n 796763324 7]],
    p 13145322 5, some (p 100000 0), [("B", 3), ("H", 3), ("O", 6)]⟩,
  ⟨"ig.H3BrSi", .ig2,
    [p 300 0, p 1000 0, p 5000 0],
    [[p 10060335 7, p 25307876 9, n 30396433 12, p 2108215 14, n 62055398 19, n 1060536 2, p 194675446 7],
     [p 61350363 7, p 71112914 10, n 29735075 13, p 56061857 17, n 39350847 21, n 118799 1, n 617826569 8]],
    p 11101332 5, some (p 100000 0), [("Br", 1), ("H", 3), ("Si", 1)]⟩,
  ⟨"ig.H3ClSi", .ig2,
    [p 300 0, p 1000 0, p 5000 0],
    [[p 58307985 8, p 26161728 9, n 30854073 12, p 20878395 15, n 60153678 19, n 18161979 3, p 202365379 7],
     [p 59919718 7, p 72718938 10, n 3044159 12, p 5743962 16, n 40340929 21, n 1951493 2, n 686764367 8]],
    p 6656202 5, some (p 100000 0), [("Cl", 1), ("H", 3), ("Si", 1)]⟩,
  ⟨"ig.H3F3", .ig2,
    [p 300 0, p 1000 0, p 5000 0],
    [[p 20717864 7, p 37279382 9, n 58150292 12, p 45906198 15, n 13987498 18, n 10757859 2, p 13981779 6],
     [p 85307373 7, p 67165939 10, n 254567 11, p 44780929 17, n 29894275 21, n 10871794 2, n 16211201 6]],
    p 6001903 5, some (p 100000 0), [("F", 3), ("H", 3)]⟩,
  ⟨"ig.H3FSi", .ig2,
    [p 300 0, p 1000 0, p 5000 0],
    [[p 37369726 8, p 23371036 9, n 21925973 12, p 11438668 15, n 26217598 19, n 46268676 3, p 204541298 7],
     [p 55736119 7, p 77410075 10, n 32502758 13, p 61454792 17, n 43223774 21, n 47688486 3, n 621002292 8]],
    p 5010772 5, some (p 100000 0), [("F", 1), ("H", 3), ("Si", 1)]⟩,
  ⟨"ig.H3ISi", .ig2,
    [p 300 0, p 1000 0, p 5000 0],
    [[p 1365932 6, p 24592575 9, n 29991795 12, p 21215143 15, n 63482971 19, n 15258355 4, p 186403979 7],
     [p 62686663 7, p 69652305 10, n 2910274 12, p 54841467 17, n 38480088 21, n 27373527 4, n 582845156 8]],
    p 15801379 5, some (p 100000 0), [("H", 3), ("I", 1), ("Si", 1)]⟩,
  ⟨"ig.H3N", .ig2,
    [p 200 0, p 1000 0, p 6000 0],
    [[p 430177808 8, n 47712733 10, p 219341619 13, n 229856489 16, p 828992268 20, n 674806394 5, n 690644393 9],
     [p 271709692 8, p 556856338 11, n 176886396 14, p 26741726 17, n 152731419 22, n 658451989 5, p 609289837 8]],
    p 1703056 5, some (p 100000 0), [("H", 3), ("N", 1)]⟩,
  ⟨"ig.H3NO", .ig2,
    [p 200 0, p 1000 0, p 6000 0],
    [[p 321016076 8, p 61967178 10, p 110594913 13, n 196668207 16, p 882516311 20, n 730912839 5, p 79329364 7],
     [p 388112362 8, p 815708719 11, n 282615742 14, p 43793133 17, n 252724921 22, n 758782727 5, p 379156901 8]],
    p 3302996 5, some (p 100000 0), [("H", 3), ("N", 1), ("O", 1)]⟩,
  ⟨"ig.H3O+", .ig2,
    [p 29815 2, p 1000 0, p 6000 0],
    [[p 37929527 7, n 910854 9, p 116363549 13, n 121364887 16, p 426159663 20, p 707512401 4, p 147156856 8],
     [p 249647716 8, p 57284492 10, n 183953281 14, p 273577439 18, n 154093985 22, p 709729113 4, p 745850779 8]],
    p 1902267 5, some (p 100000 0), [("H", 3), ("O", 1), ("e", -1)]⟩]

end PyroMat.Shipped.Data
