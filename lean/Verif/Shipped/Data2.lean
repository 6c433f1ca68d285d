import Verif.Shipped.Basic

/-!
# Shipped ideal-gas data, part 2

Generated by `tools/shipped.py` from `/repo/src/pyromat/data/ig/*.hpd` and `ig2/*.hpd`;
do not edit.
-/

namespace PyroMat.Shipped.Data

open PyroMat.Shipped (File)
open PyroMat.Shipped.Dec (p n)

/-- `ig.Cl3OP` .. `ig.Cl6W` (`data/ig`). -/
def gases9 : List File := [
  ⟨"ig.Cl3OP", .ig,
    [p 298 0, p 1000 0, p 6000 0],
    [[p 7507602 5, p 7736509 5, n 7130456 5, p 2386746 5, n 669089 6, n 5873039 4, p 3924337 4, n 5598192 4],
     [p 1074757 4, p 352779 6, n 73164 6, p 5165 6, n 345111 5, n 6017596 4, p 4403953 4, n 5598192 4]],
    p 153332 3, none, [("Cl", 3), ("O", 1), ("P", 1)]⟩,
  ⟨"ig.Cl3PS", .ig,
    [p 298 0, p 6000 0],
    [[p 1054837 4, p 220476 5, n 594785 6, p 50616 6, n 1480012 6, n 4172494 4, p 4559514 4, n 3807444 4]],
    p 169398 3, none, [("Cl", 3), ("P", 1), ("S", 1)]⟩,
  ⟨"ig.Cl3Zr", .ig,
    [p 298 0, p 1000 0, p 6000 0],
    [[p 7257483 5, p 2811414 5, n 168252 4, p 2925768 6, n 312046 6, n 5480454 4, p 4177536 4, n 5242552 4],
     [p 9251452 5, n 2996071 6, p 504724 6, n 30851 6, n 3545113 6, n 5607062 4, p 4395669 4, n 5242552 4]],
    p 197583 3, none, [("Cl", 3), ("Zr", 1)]⟩,
  ⟨"ig.Cl4Co2", .ig,
    [p 298 0, p 6000 0],
    [[p 1322433 4, p 3086228 6, n 89628 5, p 84752 6, n 529602 6, n 3919613 4, p 6064624 4, n 3506192 4]],
    p 259678 3, none, [("Cl", 4), ("Co", 2)]⟩,
  ⟨"ig.Cl4Mg2", .ig,
    [p 298 0, p 6000 0],
    [[p 1324073 4, p 532464 6, n 144308 6, p 12314 6, n 80442 5, n 9965702 4, p 5744632 4, n 9543704 4]],
    p 190422 3, none, [("Cl", 4), ("Mg", 2)]⟩,
  ⟨"ig.Cl4Mo", .ig,
    [p 1500 0, p 6000 0],
    [[p 1078815 4, n 647897 6, p 629006 6, n 68403 6, n 866481 6, n 4199732 4, p 4977747 4, n 3849284 4]],
    p 23777 2, none, [("Cl", 4), ("Mo", 1)]⟩,
  ⟨"ig.Cl4OW", .ig,
    [p 1000 0, p 6000 0],
    [[p 1261539 4, p 5718398 6, n 152693 5, p 129112 6, n 1997999 6, n 6180437 4, p 5166654 4, n 5734925 4]],
    p 34165 2, none, [("Cl", 4), ("O", 1), ("W", 1)]⟩,
  ⟨"ig.Cl4W", .ig,
    [p 298 0, p 6000 0],
    [[p 1081146 4, n 867419 6, p 660708 6, n 68572 6, n 814558 6, n 370907 3, p 5057536 4, n 3359752 4]],
    p 32565 2, none, [("Cl", 4), ("W", 1)]⟩,
  ⟨"ig.Cl4Zr", .ig,
    [p 298 0, p 6000 0],
    [[p 1073761 4, p 608048 6, n 164909 6, p 14079 6, n 838515 6, n 9048318 4, p 4927413 4, n 8699791 4]],
    p 233036 3, none, [("Cl", 4), ("Zr", 1)]⟩,
  ⟨"ig.Cl5Mo", .ig,
    [p 1200 0, p 6000 0],
    [[p 1313207 4, p 1027286 6, p 408166 6, n 65772 6, n 108205 5, n 4905154 4, p 5503173 4, n 447688 3]],
    p 27323 2, none, [("Cl", 5), ("Mo", 1)]⟩,
  ⟨"ig.Cl5Nb", .ig,
    [p 800 0, p 6000 0],
    [[p 131894 3, p 99098 5, n 272647 6, p 2352 5, n 1186221 6, n 746685 3, p 556728 3, n 70333 2]],
    p 270171 3, none, [("Cl", 5), ("Nb", 1)]⟩,
  ⟨"ig.Cl5P", .ig,
    [p 298 0, p 6000 0],
    [[p 1308939 4, p 1819585 6, n 492415 6, p 41986 6, n 1765235 6, n 4052062 4, p 5121634 4, n 3601842 4]],
    p 208239 3, none, [("Cl", 5), ("P", 1)]⟩,
  ⟨"ig.Cl5Ta", .ig,
    [p 800 0, p 6000 0],
    [[p 1320989 4, p 796684 6, n 216099 6, p 18454 6, n 1097063 6, n 8079346 4, p 5664006 4, n 7648352 4]],
    p 358213 3, none, [("Cl", 5), ("Ta", 1)]⟩,
  ⟨"ig.Cl5W", .ig,
    [p 1500 0, p 6000 0],
    [[p 1313977 4, p 962061 6, p 425793 6, n 67273 6, n 1019173 6, n 4551774 4, p 5587021 4, n 4125424 4]],
    p 36111 2, none, [("Cl", 5), ("W", 1)]⟩,
  ⟨"ig.Cl6Mo", .ig,
    [p 298 0, p 6000 0],
    [[p 1572469 4, p 622751 6, n 169059 6, p 14443 6, n 1193014 6, n 4902309 4, p 6030316 4, n 43932 2]],
    p 30868 2, none, [("Cl", 6), ("Mo", 1)]⟩,
  ⟨"ig.Cl6W", .ig,
    [p 1500 0, p 6000 0],
    [[p 1572607 4, p 610881 6, n 165858 6, p 14171 6, n 121019 5, n 5446857 4, p 6024667 4, n 493712 3]],
    p 39656 2, none, [("Cl", 6), ("W", 1)]⟩]

/-- `ig.ClCo` .. `ig.ClZr` (`data/ig`). -/
def gases10 : List File := [
  ⟨"ig.ClCo", .ig,
    [p 298 0, p 1600 0, p 6000 0],
    [[p 3637741 5, p 252309 5, n 1808874 6, p 502804 6, n 164252 6, p 1813881 4, p 2881002 4, p 1928824 4],
     [p 6807159 5, n 2238879 5, p 5713588 6, n 382975 6, n 1965681 5, p 1415539 4, p 3008313 4, p 1928824 4]],
    p 94386 3, none, [("Cl", 1), ("Co", 1)]⟩,
  ⟨"ig.ClF2OP", .ig,
    [p 298 0, p 1100 0, p 6000 0],
    [[p 3985289 5, p 1556557 4, n 1375992 4, p 4367301 5, n 566894 6, n 9902649 4, p 306042 3, n 970688 3],
     [p 1071284 4, p 535652 6, n 10835 5, p 7501 6, n 6551977 6, n 1020875 3, p 4039815 4, n 970688 3]],
    p 120423 3, none, [("Cl", 1), ("F", 2), ("O", 1), ("P", 1)]⟩,
  ⟨"ig.ClF3Si", .ig,
    [p 298 0, p 1100 0, p 6000 0],
    [[p 6419637 5, p 1065267 4, n 9841228 5, p 3224851 5, n 77504 5, n 1343633 3, p 3543271 4, n 131796 2],
     [p 1077359 4, p 196853 6, n 39935 6, p 2772 6, n 4078881 6, n 1362038 3, p 4205673 4, n 131796 2]],
    p 120534 3, none, [("Cl", 1), ("F", 3), ("Si", 1)]⟩,
  ⟨"ig.ClF5", .ig,
    [p 298 0, p 1000 0, p 6000 0],
    [[p 891556 4, p 117039 3, n 1183331 4, p 4236216 5, n 1556713 6, n 2745344 4, p 3798566 4, n 2384884 4],
     [p 1327721 4, p 149737 6, n 3108 5, p 2193 6, n 4258811 6, n 2912512 4, p 4503658 4, n 2384884 4]],
    p 130445 3, none, [("Cl", 1), ("F", 5)]⟩,
  ⟨"ig.ClF5S", .ig,
    [p 298 0, p 1400 0, p 6000 0],
    [[p 1015988 4, p 1223272 4, n 9834283 5, p 2746306 5, n 2296657 6, n 1081514 3, p 3975925 4, n 1038887 3],
     [p 1576979 4, p 140384 6, n 26291 6, p 1707 6, n 7275348 6, n 1107404 3, p 4772856 4, n 1038887 3]],
    p 16251 2, none, [("Cl", 1), ("F", 5), ("S", 1)]⟩,
  ⟨"ig.ClFLi2", .ig,
    [p 298 0, p 1000 0, p 6000 0],
    [[p 544219 4, p 735173 4, n 720062 4, p 25152 3, n 691802 6, n 77519 2, p 311045 3, n 753957 3],
     [p 834807 4, n 22253 5, p 50931 6, n 3867 6, n 3143 3, n 787549 3, p 355923 3, n 753957 3]],
    p 68333 3, none, [("Cl", 1), ("F", 1), ("Li", 2)]⟩,
  ⟨"ig.ClFO3", .ig,
    [p 298 0, p 1200 0, p 6000 0],
    [[p 3666519 5, p 1524842 4, n 1258631 4, p 3721241 5, n 625788 6, n 4019443 5, p 279628 3, n 2142204 5],
     [p 1070485 4, p 561539 6, n 110696 6, p 7508 6, n 7743538 6, n 7434382 5, p 3775227 4, n 2142204 5]],
    p 10245 2, none, [("Cl", 1), ("F", 1), ("O", 3)]⟩,
  ⟨"ig.ClH", .ig,
    [p 298 0, p 1200 0, p 6000 0],
    [[p 3212392 5, n 1345805 5, p 1986852 5, n 6853936 6, n 49672 6, n 1016206 4, p 2286866 4, n 9231201 5],
     [p 3191923 5, p 3203184 6, n 541539 6, p 35925 6, n 3438525 6, n 108015 3, p 2182768 4, n 9231201 5]],
    p 36461 3, none, [("Cl", 1), ("H", 1)]⟩,
  ⟨"ig.ClH3Si", .ig,
    [p 298 0, p 1100 0, p 6000 0],
    [[p 2474974 5, p 1231088 4, n 7674293 5, p 1863763 5, n 3593 4, n 1552544 4, p 2452284 4, n 141838 3],
     [p 9938925 5, p 475248 5, n 94691 5, p 64847 6, n 1438572 5, n 2053428 4, p 3248847 4, n 141838 3]],
    p 66562 3, none, [("Cl", 1), ("H", 3), ("Si", 1)]⟩,
  ⟨"ig.ClHO", .ig,
    [p 298 0, p 1400 0, p 6000 0],
    [[p 3054353 5, p 3368965 5, n 2094787 5, p 5421962 6, n 143287 6, n 8538665 5, p 2634945 4, n 744752 4],
     [p 5398406 5, p 1452049 6, n 247662 6, p 3513 5, n 8420845 6, n 1062853 4, p 2832681 4, n 744752 4]],
    p 5246 2, none, [("Cl", 1), ("H", 1), ("O", 1)]⟩,
  ⟨"ig.ClHg", .ig,
    [p 298 0, p 6000 0],
    [[p 3736504 5, p 85485 5, n 11692 6, p 1004 6, n 107381 6, p 6691178 5, p 3043622 4, p 7845 2]],
    p 23604 2, none, [("Cl", 1), ("Hg", 1)]⟩,
  ⟨"ig.ClI", .ig,
    [p 1000 0, p 6000 0],
    [[p 3727622 5, p 564079 6, n 3219 5, p 2749 6, n 170462 6, p 5795551 6, p 2915466 4, p 1750602 5]],
    p 162357 3, none, [("Cl", 1), ("I", 1)]⟩,
  ⟨"ig.ClLiO", .ig,
    [p 298 0, p 1100 0, p 6000 0],
    [[p 3095708 5, p 6285874 5, n 5598569 5, p 1785949 5, n 199655 6, n 2646129 5, p 2763432 4, n 1422602 5],
     [p 5786681 5, p 185447 6, n 373 4, p 2569 6, n 2526288 6, n 3854535 5, p 3158318 4, n 1422602 5]],
    p 58393 3, none, [("Cl", 1), ("Li", 1), ("O", 1)]⟩,
  ⟨"ig.ClP", .ig,
    [p 298 0, p 6000 0],
    [[p 3711898 5, p 651005 6, n 68226 6, p 5817 6, n 234638 6, p 1171177 4, p 2812769 4, p 1290003 4]],
    p 66427 3, none, [("Cl", 1), ("P", 1)]⟩,
  ⟨"ig.ClW", .ig,
    [p 298 0, p 1700 0, p 6000 0],
    [[p 3701183 5, p 316965 6, p 466738 6, p 22914 6, n 206035 6, p 5417987 4, p 3054098 4, p 5535432 4],
     [p 4699929 5, n 7768977 6, p 2775227 6, n 233379 6, n 4913899 6, p 5304935 4, p 3101281 4, p 5535432 4]],
    p 21929 2, none, [("Cl", 1), ("W", 1)]⟩,
  ⟨"ig.ClZr", .ig,
    [p 298 0, p 1600 0, p 6000 0],
    [[p 3743052 5, n 4217639 6, p 969709 5, n 321497 5, n 172282 6, p 1938041 4, p 299492 3, p 2054344 4],
     [p 4891933 5, n 2269414 6, p 358848 6, n 16945 6, n 9894157 6, p 1743577 4, p 2966594 4, p 2054344 4]],
    p 126677 3, none, [("Cl", 1), ("Zr", 1)]⟩]

/-- `ig.Co` .. `ig.F2OTi` (`data/ig`). -/
def gases11 : List File := [
  ⟨"ig.Co", .ig,
    [p 3184943 3, p 6000 0],
    [[p 4074325 5, n 8456702 6, p 1539888 6, n 6519 5, n 111494 4, p 3972461 4, p 2129171 4, p 426676 3]],
    p 58933195 6, none, [("Co", 1)]⟩,
  ⟨"ig.CoF2", .ig,
    [p 3000 0, p 6000 0],
    [[p 546104 4, p 4504913 6, n 999135 6, p 69401 6, n 420852 6, n 3743634 4, p 3404454 4, n 3564772 4]],
    p 96930001 6, none, [("Co", 1), ("F", 2)]⟩,
  ⟨"ig.Cs2H2O2", .ig,
    [p 298 0, p 1200 0, p 6000 0],
    [[p 5141216 5, p 1229929 4, n 8985391 5, p 2597344 5, p 17812 5, n 7073052 4, p 3910567 4, n 6878496 4],
     [p 112973 3, p 1010323 5, n 1896826 6, p 12426 5, n 1176035 5, n 747116 3, p 4627086 4, n 6878496 4]],
    p 2998256 4, none, [("Cs", 2), ("H", 2), ("O", 2)]⟩,
  ⟨"ig.CsHO", .ig,
    [p 2000 0, p 6000 0],
    [[p 4963521 5, p 6922637 6, n 1377616 6, p 9426 5, n 147846 6, n 2750034 4, p 3120406 4, n 2594084 4]],
    p 1499128 4, none, [("Cs", 1), ("H", 1), ("O", 1)]⟩,
  ⟨"ig.DH", .ig,
    [p 298 0, p 1000 0, p 6000 0],
    [[p 3124992 5, n 758919 5, p 9011375 6, n 1914415 6, n 47793 6, n 8896315 6, p 1832291 4, p 32 2],
     [p 2822296 5, p 4575371 6, n 551669 6, p 31038 6, n 1732276 6, n 1094434 5, p 1743448 4, p 32 2]],
    p 302204 5, none, [("D", 1), ("H", 1)]⟩,
  ⟨"ig.DHO", .ig,
    [p 298 0, p 1500 0, p 6000 0],
    [[p 2802025 5, p 1379716 5, p 3742058 6, n 2416101 6, p 123292 6, n 2539504 4, p 2298627 4, n 2453711 4],
     [p 4652943 5, p 6256126 6, n 1020035 6, p 62807 6, n 1086413 5, n 2783398 4, p 2337948 4, n 2453711 4]],
    p 190214 4, none, [("D", 1), ("H", 1), ("O", 1)]⟩,
  ⟨"ig.F10Mo2", .ig,
    [p 298 0, p 6000 0],
    [[p 2691421 4, p 1143973 5, n 3081262 6, p 261958 6, n 5510161 6, n 2797046 3, p 8225367 4, n 2697847 3]],
    p 3819 1, none, [("F", 10), ("Mo", 2)]⟩,
  ⟨"ig.F10S2", .ig,
    [p 298 0, p 1100 0, p 6000 0],
    [[p 1349336 4, p 3615131 4, n 3288377 4, p 104946 3, n 3523154 6, n 2129832 3, p 4462403 4, n 206439 2],
     [p 28623 2, n 3816102 6, p 710531 6, n 46355 6, n 1373093 5, n 2192295 3, p 6766574 4, n 206439 2]],
    p 254114 3, none, [("F", 10), ("S", 2)]⟩,
  ⟨"ig.F15Mo3", .ig,
    [p 298 0, p 6000 0],
    [[p 4120244 4, p 1716239 5, n 4622651 6, p 393002 6, n 8309717 6, n 4217012 3, p 1153123 3, n 4065597 3]],
    p 57286 2, none, [("F", 15), ("Mo", 3)]⟩,
  ⟨"ig.F2Fe", .ig,
    [p 3000 0, p 6000 0],
    [[p 6273657 5, p 2239336 6, n 646198 6, p 50511 6, p 102196 5, n 4071086 4, p 3404655 4, n 3895304 4]],
    p 93842 3, none, [("F", 2), ("Fe", 1)]⟩,
  ⟨"ig.F2H2Si", .ig,
    [p 298 0, p 1200 0, p 6000 0],
    [[p 2471861 5, p 1438183 4, n 1036448 4, p 2820208 5, n 4355 4, n 8051439 4, p 2510613 4, n 790776 3],
     [p 1026272 4, p 2898095 6, n 564317 6, p 37951 6, n 1294287 5, n 8523687 4, p 3436206 4, n 790776 3]],
    p 680982 4, none, [("F", 2), ("H", 2), ("Si", 1)]⟩,
  ⟨"ig.F2Hg", .ig,
    [p 2000 0, p 6000 0],
    [[p 6103996 5, p 1119054 6, n 302309 6, p 2575 5, n 674657 6, n 3141623 4, p 3414429 4, n 2936545 4]],
    p 23859 2, none, [("F", 2), ("Hg", 1)]⟩,
  ⟨"ig.F2Mo", .ig,
    [p 298 0, p 6000 0],
    [[p 6218303 5, p 110477 6, n 24782 6, p 1866 6, n 443755 6, n 1827918 4, p 3446545 4, n 162758 3]],
    p 13396 2, none, [("F", 2), ("Mo", 1)]⟩,
  ⟨"ig.F2N2_1", .ig,
    [p 298 0, p 1200 0, p 6000 0],
    [[p 2668145 5, p 1197804 4, n 9863864 5, p 2915311 5, n 39726 5, p 5481793 5, p 2582695 4, p 6861802 5],
     [p 8221058 5, p 502758 6, n 9879 5, p 6682 6, n 6141777 6, p 2762971 5, p 3351258 4, p 6861802 5]],
    p 660102 4, none, [("F", 2), ("N", 2)]⟩,
  ⟨"ig.F2OSi", .ig,
    [p 298 0, p 1100 0, p 6000 0],
    [[p 3240525 5, p 1128157 4, n 9795372 5, p 30697 3, n 397988 6, n 9817128 4, p 2786649 4, n 966504 3],
     [p 8226748 5, p 488829 6, n 9878 5, p 6834 6, n 5118915 6, n 1005076 3, p 349936 3, n 966504 3]],
    p 820817 4, none, [("F", 2), ("O", 1), ("Si", 1)]⟩,
  ⟨"ig.F2OTi", .ig,
    [p 298 0, p 6000 0],
    [[p 788776 4, p 3587639 6, n 964082 6, p 81846 6, n 1573758 6, n 9538181 4, p 370115 3, n 9248732 4]],
    p 101863 3, none, [("F", 2), ("O", 1), ("Ti", 1)]⟩]

/-- `ig.F2S2_1` .. `ig.F5I` (`data/ig`). -/
def gases12 : List File := [
  ⟨"ig.F2S2_1", .ig,
    [p 298 0, p 6000 0],
    [[p 8009975 5, p 2575052 6, n 694205 6, p 59051 6, n 1354278 6, n 3649657 4, p 3825569 4, n 3364354 4]],
    p 102127 3, none, [("F", 2), ("S", 2)]⟩,
  ⟨"ig.F2Ti", .ig,
    [p 298 0, p 1000 0, p 6000 0],
    [[p 5218368 5, p 2798686 5, n 2928206 5, p 1092785 5, n 474884 6, n 7064266 4, p 3090281 4, n 688268 3],
     [p 4829173 5, p 1100342 5, n 1832622 6, p 111994 6, p 3880837 6, n 6961256 4, p 3180786 4, n 688268 3]],
    p 85864 3, none, [("F", 2), ("Ti", 1)]⟩,
  ⟨"ig.F2Zr", .ig,
    [p 3000 0, p 6000 0],
    [[p 4432697 5, p 109666 4, n 1838313 6, p 113176 6, p 331213 5, n 5655136 4, p 3404274 4, n 5581456 4]],
    p 129221 3, none, [("F", 2), ("Zr", 1)]⟩,
  ⟨"ig.F3Fe", .ig,
    [p 298 0, p 6000 0],
    [[p 7915291 5, p 3357782 6, n 902552 6, p 76636 6, n 1343094 6, n 8491428 4, p 3913785 4, n 8209008 4]],
    p 11284 2, none, [("F", 3), ("Fe", 1)]⟩,
  ⟨"ig.F3HSi", .ig,
    [p 298 0, p 1100 0, p 6000 0],
    [[p 3458566 5, p 1488157 4, n 1238493 4, p 3820222 5, n 489151 6, n 121836 2, p 2771595 4, n 1200808 3],
     [p 1043126 4, p 2062031 6, n 410743 6, p 28121 6, n 8895226 6, n 125471 2, p 3707233 4, n 1200808 3]],
    p 860886 4, none, [("F", 3), ("H", 1), ("Si", 1)]⟩,
  ⟨"ig.F3Mo", .ig,
    [p 298 0, p 6000 0],
    [[p 7839268 5, p 5871533 6, n 745275 6, p 18224 6, n 1184867 6, n 6347044 4, p 3823594 4, n 6070984 4]],
    p 15296 2, none, [("F", 3), ("Mo", 1)]⟩,
  ⟨"ig.F3OP", .ig,
    [p 298 0, p 1100 0, p 6000 0],
    [[p 4013209 5, p 1524223 4, n 1330863 4, p 4185757 5, n 539184 6, n 127371 2, p 2910395 4, n 125425 2],
     [p 1070083 4, p 601463 6, n 121447 6, p 8394 6, n 6730131 6, n 1304722 3, p 3872346 4, n 125425 2]],
    p 1039684 4, none, [("F", 3), ("O", 1), ("P", 1)]⟩,
  ⟨"ig.F3PS", .ig,
    [p 298 0, p 1400 0, p 6000 0],
    [[p 648566 4, p 9150617 5, n 7229617 5, p 1993852 5, n 1045871 6, n 1035385 3, p 3464821 4, n 1009068 3],
     [p 1078125 4, p 140373 6, n 26427 6, p 1728 6, n 5145191 6, n 1055862 3, p 4063133 4, n 1009068 3]],
    p 120034 3, none, [("F", 3), ("P", 1), ("S", 1)]⟩,
  ⟨"ig.F3Ti", .ig,
    [p 298 0, p 6000 0],
    [[p 846896 4, p 1128003 6, n 3756 4, p 33208 6, n 1773861 6, n 1219916 3, p 383523 3, n 1188674 3]],
    p 104862 3, none, [("F", 3), ("Ti", 1)]⟩,
  ⟨"ig.F3Zr", .ig,
    [p 298 0, p 1000 0, p 6000 0],
    [[p 5710825 5, p 6908956 5, n 5804882 5, p 1763004 5, n 461031 6, n 112658 2, p 3540827 4, n 1105413 3],
     [p 9241536 5, n 2938349 6, p 492653 6, n 29994 6, n 466311 5, n 1145178 3, p 400623 3, n 1105413 3]],
    p 148219 3, none, [("F", 3), ("Zr", 1)]⟩,
  ⟨"ig.F4Mo", .ig,
    [p 298 0, p 1300 0, p 6000 0],
    [[p 8013824 5, p 6350308 5, n 5372925 5, p 1585916 5, n 847072 6, n 9767925 4, p 4044585 4, n 947676 3],
     [p 1267154 4, n 1577548 5, p 4422781 6, n 327195 6, n 1166089 5, n 1009704 3, p 4548134 4, n 947676 3]],
    p 17195 2, none, [("F", 4), ("Mo", 1)]⟩,
  ⟨"ig.F4MoO", .ig,
    [p 298 0, p 6000 0],
    [[p 1246677 4, p 7006652 6, n 1878939 6, p 159304 6, n 2758014 6, n 130191 2, p 4637002 4, n 12552 1]],
    p 18795 2, none, [("F", 4), ("Mo", 1), ("O", 1)]⟩,
  ⟨"ig.F4OW", .ig,
    [p 1000 0, p 6000 0],
    [[p 1325152 4, p 299131 6, n 62317 6, p 4413 6, n 5016868 6, n 1391084 3, p 4717167 4, n 1336621 3]],
    p 27583 2, none, [("F", 4), ("O", 1), ("W", 1)]⟩,
  ⟨"ig.F4Ti", .ig,
    [p 298 0, p 6000 0],
    [[p 1029046 4, p 4366632 6, n 1174667 6, p 99788 6, n 1750495 6, n 1588163 3, p 4281906 4, n 1551427 3]],
    p 123861 3, none, [("F", 4), ("Ti", 1)]⟩,
  ⟨"ig.F4Zr", .ig,
    [p 298 0, p 6000 0],
    [[p 1044167 4, p 3106352 6, n 8377 4, p 71272 6, n 1639702 6, n 1710361 3, p 4356381 4, n 16736 1]],
    p 167218 3, none, [("F", 4), ("Zr", 1)]⟩,
  ⟨"ig.F5I", .ig,
    [p 298 0, p 6000 0],
    [[p 1284802 4, p 3856984 6, n 1041089 6, p 88628 6, n 2433833 6, n 8869452 4, p 4751936 4, n 8403146 4]],
    p 22189649 5, none, [("F", 5), ("I", 1)]⟩]

/-- `ig.F5Mo` .. `ig.FW` (`data/ig`). -/
def gases13 : List File := [
  ⟨"ig.F5Mo", .ig,
    [p 298 0, p 6000 0],
    [[p 1326939 4, p 1224478 6, n 205483 6, p 14022 6, n 2767901 6, n 1290279 3, p 4921723 4, n 1241393 3]],
    p 19095 2, none, [("F", 5), ("Mo", 1)]⟩,
  ⟨"ig.F6Mo", .ig,
    [p 1000 0, p 6000 0],
    [[p 1506792 4, p 6156463 6, n 165776 5, p 140911 6, n 2950587 6, n 161274 2, p 5144521 4, n 1557661 3]],
    p 20995 2, none, [("F", 6), ("Mo", 1)]⟩,
  ⟨"ig.F6W", .ig,
    [p 1000 0, p 6000 0],
    [[p 1507897 4, p 6066256 6, n 1633941 6, p 138912 6, n 3068132 6, n 1777217 3, p 5043728 4, n 1721716 3]],
    p 29783 2, none, [("F", 6), ("W", 1)]⟩,
  ⟨"ig.F7I", .ig,
    [p 298 0, p 6000 0],
    [[p 175646 3, p 6156714 6, n 166089 5, p 14134 5, n 391322 5, n 1026816 3, p 5362758 4, n 9610648 4]],
    p 25989329 5, none, [("F", 7), ("I", 1)]⟩,
  ⟨"ig.FFe", .ig,
    [p 298 0, p 6000 0],
    [[p 3663159 5, p 993784 6, n 178892 6, p 15221 6, n 33521 5, p 3560981 5, p 2824669 4, p 4769802 5]],
    p 74843 3, none, [("F", 1), ("Fe", 1)]⟩,
  ⟨"ig.FH", .ig,
    [p 298 0, p 1000 0, p 6000 0],
    [[p 3011693 5, n 3246612 6, p 2868116 6, p 457914 6, n 24861 6, n 2814912 4, p 2109226 4, n 2725462 4],
     [p 2457033 5, p 6893391 6, n 1243874 6, p 82583 6, n 23406 5, n 2797653 4, p 2028525 4, n 2725462 4]],
    p 2000634 5, none, [("F", 1), ("H", 1)]⟩,
  ⟨"ig.FH3Si", .ig,
    [p 298 0, p 1200 0, p 6000 0],
    [[p 1347867 5, p 1466245 4, n 9512157 5, p 2362027 5, n 194815 6, n 3869581 4, p 2139133 4, n 3765604 4],
     [p 1005595 4, p 3995297 6, n 777847 6, p 52302 6, n 1628927 5, n 4443031 4, p 3092461 4, n 3765604 4]],
    p 501077 4, none, [("F", 1), ("H", 3), ("Si", 1)]⟩,
  ⟨"ig.FHO", .ig,
    [p 298 0, p 1300 0, p 6000 0],
    [[p 2478773 5, p 4503365 5, n 3003238 5, p 8137128 6, p 13346 6, n 1074229 4, p 2446766 4, n 98324 3],
     [p 4980592 5, p 415108 5, n 76686 5, p 49557 6, n 6154957 6, n 1258041 4, p 2706278 4, n 98324 3]],
    p 360057 4, none, [("F", 1), ("H", 1), ("O", 1)]⟩,
  ⟨"ig.FHO3S", .ig,
    [p 298 0, p 1100 0, p 6000 0],
    [[p 3947412 5, p 182335 3, n 1529219 4, p 4785701 5, n 559748 6, n 7736174 4, p 2938913 4, n 75312 2],
     [p 1216824 4, p 5915214 6, n 1141158 6, p 76383 6, n 1068782 5, n 8163737 4, p 4052991 4, n 75312 2]],
    p 10007 2, none, [("F", 1), ("H", 1), ("O", 3), ("S", 1)]⟩,
  ⟨"ig.FHg", .ig,
    [p 298 0, p 6000 0],
    [[p 3707576 5, p 1018307 6, n 78106 6, p 666 5, n 246978 6, n 8997819 6, p 2915394 4, p 2929006 6]],
    p 21959 2, none, [("F", 1), ("Hg", 1)]⟩,
  ⟨"ig.FI", .ig,
    [p 298 0, p 6000 0],
    [[p 366937 4, p 146616 5, n 171088 6, p 14722 6, n 327441 6, n 106867 3, p 278406 3, n 947592 4]],
    p 14590287 5, none, [("F", 1), ("I", 1)]⟩,
  ⟨"ig.FMo", .ig,
    [p 298 0, p 2400 0, p 6000 0],
    [[p 33312 3, p 8144575 6, n 5511709 6, p 1357754 6, n 235125 6, p 2718014 4, p 2831899 4, p 2828384 4],
     [n 984491 4, p 5543758 5, n 5327947 6, p 60214 6, p 2035746 4, p 5466773 4, p 3081893 4, p 2828384 4]],
    p 11496 2, none, [("F", 1), ("Mo", 1)]⟩,
  ⟨"ig.FOTi", .ig,
    [p 298 0, p 1100 0, p 6000 0],
    [[p 409363 4, p 5240878 5, n 4869297 5, p 1602179 5, n 373357 6, n 4486001 4, p 284499 3, n 4332114 4],
     [p 622052 4, p 84752 6, n 17001 6, p 1168 6, n 1956226 6, n 457512 3, p 3170338 4, n 4332114 4]],
    p 82865 3, none, [("F", 1), ("O", 1), ("Ti", 1)]⟩,
  ⟨"ig.FPS", .ig,
    [p 298 0, p 800 0, p 6000 0],
    [[p 2703881 5, p 8796776 5, n 9723407 5, p 3903839 5, n 10855 5, n 1838224 4, p 2875759 4, n 1722683 4],
     [p 5778899 5, p 257934 6, n 56845 6, p 4198 6, n 1907654 6, n 1951932 4, p 3387634 4, n 1722683 4]],
    p 82037 3, none, [("F", 1), ("P", 1), ("S", 1)]⟩,
  ⟨"ig.FTi", .ig,
    [p 298 0, p 800 0, p 6000 0],
    [[p 1812007 5, p 8080852 5, n 9117605 5, p 3589483 5, p 24746 6, n 7512079 5, p 2390185 4, n 66944 3],
     [p 4150972 5, p 1824564 6, n 338452 6, p 21854 6, p 123559 6, n 8025498 5, p 2845676 4, n 66944 3]],
    p 66865 3, none, [("F", 1), ("Ti", 1)]⟩,
  ⟨"ig.FW", .ig,
    [p 298 0, p 900 0, p 6000 0],
    [[p 1546975 5, p 8460885 5, n 9106267 5, p 3293005 5, p 48851 6, p 3787135 4, p 2486656 4, p 3861836 4],
     [p 4527841 5, n 4126721 6, p 892736 6, n 62267 6, n 15517 5, p 3706719 4, p 3023279 4, p 3861836 4]],
    p 20284 2, none, [("F", 1), ("W", 1)]⟩]

/-- `ig.FZr` .. `ig.HgO` (`data/ig`). -/
def gases14 : List File := [
  ⟨"ig.FZr", .ig,
    [p 298 0, p 1600 0, p 6000 0],
    [[p 3501188 5, p 1304677 6, p 6027429 6, n 2278402 6, n 217929 6, p 7156565 5, p 2842409 4, p 828432 4],
     [p 4891556 5, n 1680956 6, p 358865 6, n 16955 6, n 101721 4, p 5095066 5, p 2847045 4, p 828432 4]],
    p 110222 3, none, [("F", 1), ("Zr", 1)]⟩,
  ⟨"ig.Fe2I4", .ig,
    [p 298 0, p 6000 0],
    [[p 1270622 4, p 8758745 6, n 2064792 6, p 14268 5, p 20227 5, n 2920888 5, p 6959833 4, p 8368001 6]],
    p 619308 3, none, [("Fe", 2), ("I", 4)]⟩,
  ⟨"ig.FeH2O2", .ig,
    [p 298 0, p 1400 0, p 6000 0],
    [[p 8648621 5, p 8533812 6, p 9929428 6, n 5095066 6, n 162638 5, n 3622382 4, p 3756512 4, n 3305364 4],
     [p 1098442 4, p 9794 5, n 12094 5, p 11963 6, n 1315864 5, n 390627 3, p 3818327 4, n 3305364 4]],
    p 8986 2, none, [("Fe", 1), ("H", 2), ("O", 2)]⟩,
  ⟨"ig.FeI2", .ig,
    [p 2000 0, p 6000 0],
    [[p 5875717 5, p 7142088 6, n 1865684 6, p 141686 6, n 171509 5, p 6799042 5, p 4174021 4, p 87864 3]],
    p 309654 3, none, [("Fe", 1), ("I", 2)]⟩,
  ⟨"ig.FeS", .ig,
    [p 3800 0, p 6000 0],
    [[p 3781846 5, n 978851 6, p 856092 6, n 84874 6, n 33089 5, p 3584194 4, p 2964808 4, p 3707673 4]],
    p 8791 2, none, [("Fe", 1), ("S", 1)]⟩,
  ⟨"ig.Ga", .ig,
    [p 247657 2, p 6000 0],
    [[p 2025299 5, p 569727 6, n 209892 6, p 2581 5, p 30492 4, p 272501 3, p 2014458 4, p 2719604 4]],
    p 69723 3, none, [("Ga", 1)]⟩,
  ⟨"ig.H2MoO4", .ig,
    [p 298 0, p 1200 0, p 6000 0],
    [[p 8283651 5, p 1296584 4, n 9971727 5, p 2918097 5, n 826093 6, n 883439 3, p 4167235 4, n 8510256 4],
     [p 1469927 4, p 5596645 6, n 1059557 6, p 69833 6, n 1119848 5, n 9214842 4, p 4960299 4, n 8510256 4]],
    p 16197 2, none, [("H", 2), ("Mo", 1), ("O", 4)]⟩,
  ⟨"ig.H2O4W", .ig,
    [p 298 0, p 1200 0, p 6000 0],
    [[p 8828617 5, p 1115019 4, n 7636595 5, p 2017324 5, n 1136129 6, n 9402954 4, p 4224125 4, n 905836 3],
     [p 1518081 4, p 3257998 6, n 632361 6, p 42424 6, n 126689 4, n 9813865 4, p 4937831 4, n 905836 3]],
    p 24985 2, none, [("H", 2), ("O", 4), ("W", 1)]⟩,
  ⟨"ig.H2P", .ig,
    [p 298 0, p 1300 0, p 6000 0],
    [[p 256524 4, p 2634046 5, n 2484837 6, n 2373633 6, p 139285 6, p 1176135 4, p 23676 2, p 125938 3],
     [p 5333303 5, p 250402 5, n 475616 6, p 3136 5, n 8976605 6, p 9156433 5, p 2543244 4, p 125938 3]],
    p 3298964 5, none, [("H", 2), ("P", 1)]⟩,
  ⟨"ig.HHg", .ig,
    [p 298 0, p 1200 0, p 6000 0],
    [[p 1960543 5, p 3673569 5, n 2673107 5, p 7470114 6, p 147617 6, p 2317267 4, p 2344304 4, p 2384884 4],
     [p 3696539 5, p 2207609 6, n 46724 6, p 3146 6, n 1958155 6, p 2225014 4, p 2570566 4, p 2384884 4]],
    p 2016 1, none, [("H", 1), ("Hg", 1)]⟩,
  ⟨"ig.HPb", .ig,
    [p 298 0, p 1000 0, p 6000 0],
    [[p 2037918 5, p 2785557 5, n 1646274 5, p 3431516 6, p 192755 6, p 2296589 4, p 2389001 4, p 2361872 4],
     [p 294177 4, p 6084205 6, n 767459 6, p 30622 6, p 769496 6, p 2277096 4, p 254255 3, p 2361872 4]],
    p 2082 1, none, [("H", 1), ("Pb", 1)]⟩,
  ⟨"ig.HZr", .ig,
    [p 298 0, p 1200 0, p 6000 0],
    [[p 1949242 5, p 340678 4, n 2460481 5, p 6604235 6, p 182276 6, p 5097953 4, p 2316518 4, p 5163056 4],
     [p 369325 4, p 886201 6, n 50774 6, p 3431 6, n 2099503 6, p 5001386 4, p 2536211 4, p 5163056 4]],
    p 92232 3, none, [("H", 1), ("Zr", 1)]⟩,
  ⟨"ig.Hf", .ig,
    [p 4963793 3, p 6000 0],
    [[p 5343135 5, n 1443208 5, p 3215568 6, n 181469 6, n 2049164 5, p 5673881 4, p 2171521 4, p 6183952 4]],
    p 17849 2, none, [("Hf", 1)]⟩,
  ⟨"ig.HgI", .ig,
    [p 298 0, p 6000 0],
    [[p 3741341 5, p 2518597 6, n 234 6, p 19 6, n 21861 6, p 1221301 4, p 3251541 4, p 13347 2]],
    p 32749 2, none, [("Hg", 1), ("I", 1)]⟩,
  ⟨"ig.HgI2", .ig,
    [p 1500 0, p 6000 0],
    [[p 6233281 5, p 21751 6, n 5941 6, p 511 6, n 108958 6, n 3508004 5, p 4110186 4, n 1612903 5]],
    p 4544 1, none, [("Hg", 1), ("I", 2)]⟩,
  ⟨"ig.HgO", .ig,
    [p 298 0, p 6000 0],
    [[p 3641988 5, p 1285167 6, n 22638 5, p 1925 5, n 360147 6, p 2971904 5, p 2808029 4, p 4184 2]],
    p 21659 2, none, [("Hg", 1), ("O", 1)]⟩]

/-- `ig.I2K2` .. `ig.INO` (`data/ig`). -/
def gases15 : List File := [
  ⟨"ig.I2K2", .ig,
    [p 298 0, p 6000 0],
    [[p 8313985 5, p 3864 6, n 1055 6, p 91 6, n 78562 6, n 4472194 4, p 4959421 4, n 4221656 4]],
    p 3320055 4, none, [("I", 2), ("K", 2)]⟩,
  ⟨"ig.I2Li2", .ig,
    [p 298 0, p 6000 0],
    [[p 8277542 5, p 315711 6, n 8571 5, p 7323 6, n 61191 5, n 3886614 4, p 4272533 4, n 3619164 4]],
    p 267691 3, none, [("I", 2), ("Li", 2)]⟩,
  ⟨"ig.I2Mo", .ig,
    [p 298 0, p 1300 0, p 6000 0],
    [[p 7429989 5, p 862034 6, n 1367402 5, p 6243741 6, n 25025 5, p 2348115 4, p 428086 3, p 2577344 4],
     [p 6487961 5, n 3111165 6, p 125554 5, n 112109 6, p 5437568 6, p 2484037 4, p 4294541 4, p 2577344 4]],
    p 34977 2, none, [("I", 2), ("Mo", 1)]⟩,
  ⟨"ig.I2Ti", .ig,
    [p 298 0, p 1300 0, p 6000 0],
    [[p 6151359 5, p 2847866 6, n 3692363 6, p 1726286 6, n 134214 6, n 3855284 5, p 3966595 4, n 1966501 5],
     [p 4696038 5, p 1187306 5, n 2028442 6, p 126628 6, p 574936 5, n 2281234 5, p 3902496 4, n 1966501 5]],
    p 301676 3, none, [("I", 2), ("Ti", 1)]⟩,
  ⟨"ig.I2Zr", .ig,
    [p 2000 0, p 6000 0],
    [[p 581848 4, p 13663 6, n 3667 6, p 309 6, n 84754 6, n 842758 4, p 4147143 4, n 6664317 5]],
    p 345033 3, none, [("I", 2), ("Zr", 1)]⟩,
  ⟨"ig.I3Mo", .ig,
    [p 298 0, p 6000 0],
    [[p 8088676 5, p 3757773 6, n 174738 6, n 30346 6, n 38217 6, p 1584263 4, p 5000842 4, p 1828412 4]],
    p 47667 2, none, [("I", 3), ("Mo", 1)]⟩,
  ⟨"ig.I3Si", .ig,
    [p 298 0, p 6000 0],
    [[p 8277165 5, p 318517 6, n 86421 6, p 7381 6, n 509687 6, p 8912883 6, p 475499 3, p 3531405 5]],
    p 4087989 4, none, [("I", 3), ("Si", 1)]⟩,
  ⟨"ig.I3Ti", .ig,
    [p 298 0, p 6000 0],
    [[p 890867 4, n 2599271 6, p 631535 6, n 52626 6, n 664478 6, n 178882 3, p 486998 3, n 150206 3]],
    p 42858 2, none, [("I", 3), ("Ti", 1)]⟩,
  ⟨"ig.I3Zr", .ig,
    [p 298 0, p 6000 0],
    [[p 8309884 5, p 38729 6, n 1054 5, p 903 6, n 204267 6, n 2472146 4, p 4971764 4, n 2217524 4]],
    p 471937 3, none, [("I", 3), ("Zr", 1)]⟩,
  ⟨"ig.I4Mo", .ig,
    [p 298 0, p 6000 0],
    [[p 1109927 4, n 4357678 6, p 1634885 6, n 105526 6, n 470616 6, p 9018445 5, p 5855968 4, p 1246832 4]],
    p 60358 2, none, [("I", 4), ("Mo", 1)]⟩,
  ⟨"ig.I4Si", .ig,
    [p 700 0, p 6000 0],
    [[p 1075727 4, p 440291 6, n 11946 5, p 10203 6, n 64083 5, n 1446986 4, p 5428782 4, n 110458 3]],
    p 5357034 4, none, [("I", 4), ("Si", 1)]⟩,
  ⟨"ig.I4Ti", .ig,
    [p 1500 0, p 6000 0],
    [[p 1079832 4, p 89287 6, n 24249 6, p 2072 6, n 335384 6, n 3105984 4, p 5618317 4, n 2772741 4]],
    p 555485 3, none, [("I", 4), ("Ti", 1)]⟩,
  ⟨"ig.I4Zr", .ig,
    [p 298 0, p 6000 0],
    [[p 1079945 4, p 7986 5, n 21687 6, p 1852 6, n 306187 6, n 3955633 4, p 575505 3, n 3623344 4]],
    p 598842 3, none, [("I", 4), ("Zr", 1)]⟩,
  ⟨"ig.IK", .ig,
    [p 2500 0, p 6000 0],
    [[p 3740622 5, p 82844 5, n 2031 6, p 174 6, n 47344 6, n 1368683 4, p 3030375 4, n 12552 2]],
    p 1660028 4, none, [("I", 1), ("K", 1)]⟩,
  ⟨"ig.ILi", .ig,
    [p 2500 0, p 6000 0],
    [[p 3705802 5, p 1011596 6, n 8219 5, p 7009 6, n 252429 6, n 1029415 4, p 2753771 4, n 91002 3]],
    p 133845 3, none, [("I", 1), ("Li", 1)]⟩,
  ⟨"ig.INO", .ig,
    [p 298 0, p 600 0, p 6000 0],
    [[p 4853398 5, n 7517184 6, p 3458423 5, n 223098 4, n 170642 6, p 9716127 5, p 3416353 4, p 1121312 4],
     [p 5411251 5, p 2711024 6, n 624152 6, p 47665 6, n 1645384 6, p 9130952 5, p 3409977 4, p 1121312 4]],
    p 1569106 4, none, [("I", 1), ("N", 1), ("O", 1)]⟩]

/-- `ig.ISr` .. `ig.O9W3` (`data/ig`). -/
def gases16 : List File := [
  ⟨"ig.ISr", .ig,
    [p 298 0, p 1500 0, p 6000 0],
    [[p 373686 4, p 753848 6, n 106269 6, p 34216 6, n 40021 6, n 4180234 5, p 3169899 4, n 3049404 5],
     [p 502193 4, n 1018365 5, p 3051128 6, n 22189 5, n 6116715 6, n 560543 4, p 3235705 4, n 3049404 5]],
    p 21452 2, none, [("I", 1), ("Sr", 1)]⟩,
  ⟨"ig.ITi", .ig,
    [p 298 0, p 800 0, p 6000 0],
    [[p 2456849 5, p 616412 4, n 68413 3, p 2638066 5, p 79528 6, p 2648062 4, p 2834359 4, p 2740524 4],
     [p 4155775 5, p 2159476 6, n 331771 6, p 21357 6, p 494976 6, p 2618573 4, p 3178614 4, p 2740524 4]],
    p 174771 3, none, [("I", 1), ("Ti", 1)]⟩,
  ⟨"ig.IZr", .ig,
    [p 298 0, p 6000 0],
    [[p 3739668 5, p 927898 6, n 4306 6, p 37 5, n 66256 6, p 5797852 4, p 3204111 4, p 5911992 4]],
    p 218128 3, none, [("I", 1), ("Zr", 1)]⟩,
  ⟨"ig.LiNaO", .ig,
    [p 298 0, p 1100 0, p 6000 0],
    [[p 2949059 5, p 6782933 5, n 6142698 5, p 1983086 5, n 152378 6, n 1164165 4, p 2736177 4, n 1046 1],
     [p 5791869 5, p 157508 6, n 31829 6, p 2203 6, n 2463472 6, n 1288266 4, p 3160468 4, n 1046 1]],
    p 4593 2, none, [("Li", 1), ("Na", 1), ("O", 1)]⟩,
  ⟨"ig.Mn", .ig,
    [p 2334526 3, p 6000 0],
    [[p 1876779 4, n 9775372 5, p 201924 4, n 1274577 6, n 1774957 4, p 15487 4, p 2196751 4, p 2832572 4]],
    p 54938045 6, none, [("Mn", 1)]⟩,
  ⟨"ig.Mo", .ig,
    [p 4951969 3, p 6000 0],
    [[p 679285 4, n 4053698 5, p 1167139 5, n 819432 6, n 2214035 5, p 6008224 4, p 231671 3, p 65898 2]],
    p 9596 2, none, [("Mo", 1)]⟩,
  ⟨"ig.MoO", .ig,
    [p 298 0, p 6000 0],
    [[p 3649544 5, p 90892 5, n 173237 6, p 14089 6, n 69038 6, p 2998074 4, p 285268 3, p 3109595 4]],
    p 11196 2, none, [("Mo", 1), ("O", 1)]⟩,
  ⟨"ig.MoO2", .ig,
    [p 298 0, p 1300 0, p 6000 0],
    [[p 3508606 5, p 5057075 5, n 4166113 5, p 1206327 5, n 234078 6, n 2146518 5, p 3047948 4, n 8314027 6],
     [p 6289514 5, n 5131048 6, p 1765938 6, n 140104 6, n 3598915 6, n 3622252 5, p 3411604 4, n 8314027 6]],
    p 12796 2, none, [("Mo", 1), ("O", 2)]⟩,
  ⟨"ig.NP", .ig,
    [p 298 0, p 1200 0, p 6000 0],
    [[p 1966597 5, p 3458448 5, n 2614573 5, p 722012 5, p 165766 6, p 9815246 5, p 2266556 4, p 1047803 4],
     [p 3701497 5, p 412466 6, n 42535 6, p 2887 6, n 1953703 6, p 8887736 5, p 2491262 4, p 1047803 4]],
    p 449805 4, none, [("N", 1), ("P", 1)]⟩,
  ⟨"ig.O12W4", .ig,
    [p 298 0, p 6000 0],
    [[p 36834 2, p 121188 4, n 330388 5, p 283403 6, n 57581 4, n 293387 2, p 101475 2, n 280412 2]],
    p 92735 2, none, [("O", 12), ("W", 4)]⟩,
  ⟨"ig.O2W", .ig,
    [p 298 0, p 1100 0, p 6000 0],
    [[p 2981594 5, p 6673522 5, n 602086 4, p 19381 3, n 95578 6, p 6488296 5, p 3036475 4, p 765672 4],
     [p 5809735 5, p 252121 6, n 174854 6, p 3411 5, n 2617933 6, p 5214896 5, p 3453043 4, p 765672 4]],
    p 21584 2, none, [("O", 2), ("W", 1)]⟩,
  ⟨"ig.O3W", .ig,
    [p 3000 0, p 6000 0],
    [[p 8272479 5, p 235081 6, n 47714 6, p 3313 6, n 3492612 6, n 3274557 4, p 3715271 4, n 2928804 4]],
    p 23184 2, none, [("O", 3), ("W", 1)]⟩,
  ⟨"ig.O6P4", .ig,
    [p 298 0, p 600 0, p 6000 0],
    [[p 8896021 6, p 7279156 4, n 9468936 4, p 4559681 4, n 880138 6, n 2244804 3, p 1724862 4, n 2214311 3],
     [p 2284485 4, p 2989171 6, n 703385 6, p 54507 6, n 1063067 5, n 2315677 3, p 5685219 4, n 2214311 3]],
    p 2198914 4, none, [("O", 6), ("P", 4)]⟩,
  ⟨"ig.O6W2", .ig,
    [p 298 0, p 6000 0],
    [[p 1797492 4, p 2692744 6, n 727978 6, p 62033 6, n 2430286 6, n 1225845 3, p 6185709 4, n 1163989 3]],
    p 46368 2, none, [("O", 6), ("W", 2)]⟩,
  ⟨"ig.O8W3", .ig,
    [p 298 0, p 1100 0, p 6000 0],
    [[p 1923176 4, p 1614572 4, n 1509399 4, p 4989127 5, n 1967167 6, n 1779886 3, p 6737997 4, n 1710005 3],
     [p 2572972 4, p 252379 6, n 51249 6, p 356 5, n 6679631 6, n 1806802 3, p 7738308 4, n 1710005 3]],
    p 67952 2, none, [("O", 8), ("W", 3)]⟩,
  ⟨"ig.O9W3", .ig,
    [p 298 0, p 6000 0],
    [[p 271627 3, p 9308563 6, n 2502209 6, p 212463 6, n 4698548 6, n 2120514 3, p 8039347 4, n 2023382 3]],
    p 69551 2, none, [("O", 9), ("W", 3)]⟩]

end PyroMat.Shipped.Data
