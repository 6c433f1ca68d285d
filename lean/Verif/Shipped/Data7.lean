import Verif.Shipped.Basic

/-!
# Shipped ideal-gas data, part 7

Generated by `tools/shipped.py` from `/repo/src/pyromat/data/ig/*.hpd` and `ig2/*.hpd`;
do not edit.
-/

namespace PyroMat.Shipped.Data

open PyroMat.Shipped (File)
open PyroMat.Shipped.Dec (p n)

/-- `ig.H3P` .. `ig.HBF2` (`data/ig2`). -/
def gases49 : List File := [
  ⟨"ig.H3P", .ig2,
    [p 300 0, p 1000 0, p 5000 0],
    [[p 31581935 7, p 24941492 10, p 90255253 13, n 10227904 15, p 3283425 18, n 461237252 6, p 623722486 8],
     [p 33448794 7, p 65770941 10, n 26336755 13, p 4774466 16, n 3235439 20, n 816176752 6, p 395479626 8]],
    p 3399758 5, some (p 100000 0), [("H", 3), ("P", 1)]⟩,
  ⟨"ig.H3Si", .ig2,
    [p 29815 2, p 1000 0, p 5000 0],
    [[p 30506807 7, p 33103283 10, p 11093997 12, n 1448349 14, p 51880354 19, p 24051424 3, p 729482068 8],
     [p 41270376 7, p 61838866 10, n 26122096 13, p 49579695 17, n 3496052 20, p 23406801 3, p 151808423 9]],
    p 3110932 5, some (p 100000 0), [("H", 3), ("Si", 1)]⟩,
  ⟨"ig.H4F4", .ig2,
    [p 300 0, p 1000 0, p 5000 0],
    [[p 33821755 7, p 49912451 9, n 7789997 11, p 61503621 15, n 18739812 18, n 14503507 2, p 108054742 7],
     [p 12037385 6, p 89595862 10, n 33960569 13, p 59743653 17, n 39884693 21, n 14656193 2, n 296546038 7]],
    p 8002537 5, some (p 100000 0), [("F", 4), ("H", 4)]⟩,
  ⟨"ig.H4N+", .ig2,
    [p 29815 2, p 1000 0, p 6000 0],
    [[p 502209278 8, n 11709896 9, p 397600112 13, n 369419871 16, p 120264483 19, p 763029754 4, n 420522286 8],
     [p 131570311 8, p 964926653 11, n 329049595 14, p 512045396 18, n 29849906 21, p 767277044 4, p 120930981 7]],
    p 1803795 5, some (p 100000 0), [("H", 4), ("N", 1), ("e", -1)]⟩,
  ⟨"ig.H4N2", .ig2,
    [p 200 0, p 1000 0, p 6000 0],
    [[p 383472149 8, n 649129555 12, p 376848463 13, n 500709182 16, p 203362064 19, p 100893925 4, p 57527203 7],
     [p 493957357 8, p 875017187 11, n 299399058 14, p 467278418 18, n 273068599 22, p 928265548 5, n 269439772 8]],
    p 3204524 5, some (p 100000 0), [("H", 4), ("N", 2)]⟩,
  ⟨"ig.H4Si", .ig2,
    [p 300 0, p 1000 0, p 5000 0],
    [[p 15922639 7, p 12841093 9, n 19456278 13, n 43106372 16, p 1987488 18, p 31055942 4, p 118336025 7],
     [p 42092038 7, p 90822628 10, n 37905396 13, p 71369888 17, n 50046286 21, p 21344627 4, n 272768704 8]],
    p 3211726 5, some (p 100000 0), [("H", 4), ("Si", 1)]⟩,
  ⟨"ig.H5F5", .ig2,
    [p 300 0, p 1000 0, p 5000 0],
    [[p 4684175 6, p 62605308 9, n 97798989 12, p 77257322 15, n 23550461 18, n 18263159 2, p 748167497 8],
     [p 15544135 6, p 11202377 9, n 42463163 13, p 74703183 17, n 4987236 20, n 18454686 2, n 432813902 7]],
    p 10003172 5, some (p 100000 0), [("F", 5), ("H", 5)]⟩,
  ⟨"ig.H6F6", .ig2,
    [p 300 0, p 1000 0, p 5000 0],
    [[p 59963317 7, p 75225773 9, n 11751716 11, p 9282176 14, n 28290457 18, n 22167847 2, p 396435297 8],
     [p 19050924 6, p 13445093 9, n 50965293 13, p 89661581 17, n 59859072 21, n 2239811 1, n 57059147 6]],
    p 12003806 5, some (p 100000 0), [("F", 6), ("H", 6)]⟩,
  ⟨"ig.H7F7", .ig2,
    [p 300 0, p 1000 0, p 5000 0],
    [[p 73009791 7, p 87899766 9, n 13736908 11, p 10852618 14, n 33082715 18, n 25795177 2, p 362476078 9],
     [p 22557536 6, p 15688152 9, n 59469576 13, p 10462532 16, n 69850351 21, n 26064248 2, n 70952106 6]],
    p 1400444 4, some (p 100000 0), [("F", 7), ("H", 7)]⟩,
  ⟨"ig.HAl", .ig2,
    [p 300 0, p 1000 0, p 5000 0],
    [[p 36576857 7, n 19744698 10, p 68663398 13, n 62041404 16, p 18663103 19, p 30146458 3, p 208851103 8],
     [p 33366898 7, p 12877864 10, n 49869941 14, p 92294633 18, n 63451694 22, p 30091761 3, p 309548823 8]],
    p 2798948 5, some (p 100000 0), [("Al", 1), ("H", 1)]⟩,
  ⟨"ig.HAlO+", .ig2,
    [p 300 0, p 1000 0, p 5000 0],
    [[p 19603439 7, p 7919114 9, n 22857959 13, n 40103789 16, p 25707596 19, p 64510185 3, p 141061776 7],
     [p 41501987 7, p 28925212 10, n 10565414 13, p 17945167 17, n 11587014 21, p 63892888 3, p 264013812 8]],
    p 4398833 5, some (p 100000 0), [("Al", 1), ("H", 1), ("O", 1), ("e", -1)]⟩,
  ⟨"ig.HAlO-", .ig2,
    [p 300 0, p 1000 0, p 5000 0],
    [[p 29130204 7, p 59530715 10, n 30558054 13, n 12598709 16, p 12886094 19, n 28781827 3, p 106224669 7],
     [p 43010718 7, p 21668503 10, n 73988645 14, p 11821055 17, n 72208841 22, n 29134095 3, p 352700755 8]],
    p 4398943 5, some (p 100000 0), [("Al", 1), ("H", 1), ("O", 1), ("e", 1)]⟩,
  ⟨"ig.HAlO", .ig2,
    [p 200 0, p 1000 0, p 6000 0],
    [[p 329221159 8, n 268200399 11, p 286841292 13, n 379708866 16, p 15402035 18, p 29777105 4, p 69616097 7],
     [p 509075339 8, p 242514117 11, n 939932946 15, p 159391004 18, n 986747317 23, p 205009459 5, n 461450791 8]],
    p 4398888 5, some (p 100000 0), [("Al", 1), ("H", 1), ("O", 1)]⟩,
  ⟨"ig.HAlO2", .ig2,
    [p 300 0, p 1000 0, p 5000 0],
    [[p 24800456 7, p 16149264 9, n 16033524 12, p 64466166 16, n 40994769 20, n 56682759 3, p 12307071 6],
     [p 64264346 7, p 32230362 10, n 12139348 13, p 210745 15, n 13828 18, n 57626154 3, n 745759256 8]],
    p 5998828 5, some (p 100000 0), [("Al", 1), ("H", 1), ("O", 2)]⟩,
  ⟨"ig.HB", .ig2,
    [p 300 0, p 1000 0, p 5000 0],
    [[p 36862206 7, n 13055435 10, p 26742105 13, n 91073738 17, n 15591136 20, p 5217633 2, n 552454012 10],
     [p 28919079 7, p 15832946 10, n 58261729 14, p 10242068 17, n 67669569 22, p 52328714 3, p 379624329 8]],
    p 1181894 5, some (p 100000 0), [("B", 1), ("H", 1)]⟩,
  ⟨"ig.HBF2", .ig2,
    [p 300 0, p 1000 0, p 5000 0],
    [[p 24053602 7, p 92755844 10, p 13386461 13, n 86807895 16, p 41211015 19, n 89388409 3, p 128880441 7],
     [p 53184527 7, p 47444466 10, n 19337858 13, p 35508382 17, n 24293667 21, n 90375012 3, n 304314031 8]],
    p 4981575 5, some (p 100000 0), [("B", 1), ("F", 2), ("H", 1)]⟩]

/-- `ig.HBO+` .. `ig.HCaO` (`data/ig2`). -/
def gases50 : List File := [
  ⟨"ig.HBO+", .ig2,
    [p 300 0, p 1000 0, p 5000 0],
    [[p 22544283 7, p 80301872 10, n 59749072 13, p 2428195 15, n 43051124 20, p 14185069 2, p 108122076 7],
     [p 3947508 6, p 34315436 10, n 12787084 13, p 22180604 17, n 14757192 21, p 14135998 2, p 199889597 8]],
    p 2781779 5, some (p 100000 0), [("B", 1), ("H", 1), ("O", 1), ("e", -1)]⟩,
  ⟨"ig.HBO-", .ig2,
    [p 300 0, p 1000 0, p 5000 0],
    [[p 39707955 7, n 22100107 10, p 14535413 12, n 15638925 15, p 53978966 19, n 30589499 3, p 482496967 8],
     [p 40869265 7, p 29784756 10, n 12387107 13, p 24693335 17, n 18455048 21, n 30930026 3, p 278014247 8]],
    p 2781889 5, some (p 100000 0), [("B", 1), ("H", 1), ("O", 1), ("e", 1)]⟩,
  ⟨"ig.HBO", .ig2,
    [p 300 0, p 1000 0, p 5000 0],
    [[p 22143106 7, p 93718513 10, n 10711074 12, p 76769774 16, n 23586371 19, n 24849246 3, p 937201677 8],
     [p 37485181 7, p 36610859 10, n 14635409 13, p 26519903 17, n 17834275 21, n 25225798 3, p 174647757 8]],
    p 2781834 5, some (p 100000 0), [("B", 1), ("H", 1), ("O", 1)]⟩,
  ⟨"ig.HBO2", .ig2,
    [p 300 0, p 1000 0, p 5000 0],
    [[p 28707866 7, p 78862644 10, n 40736842 14, n 47059022 16, p 23548893 19, n 68624111 3, p 101805186 7],
     [p 47389519 7, p 47718771 10, n 18063494 13, p 31492889 17, n 20738312 21, n 69248838 3, p 986391767 11]],
    p 4381774 5, some (p 100000 0), [("B", 1), ("H", 1), ("O", 2)]⟩,
  ⟨"ig.HBS+", .ig2,
    [p 300 0, p 1000 0, p 5000 0],
    [[p 22511561 7, p 12077168 9, n 15322156 12, p 1049409 14, n 29325292 19, p 13475476 2, p 112707699 7],
     [p 47097542 7, p 28187036 10, n 11633088 13, p 21768839 17, n 15108686 21, p 13419139 2, n 837472146 9]],
    p 4388439 5, some (p 100000 0), [("B", 1), ("H", 1), ("S", 1), ("e", -1)]⟩,
  ⟨"ig.HBS", .ig2,
    [p 300 0, p 1000 0, p 5000 0],
    [[p 15595903 7, p 13966838 9, n 17988595 12, p 12315141 15, n 34090957 19, p 50890936 4, p 135018986 7],
     [p 44412265 7, p 29979825 10, n 1193823 12, p 21195832 17, n 13466097 21, p 44402975 4, n 646783174 9]],
    p 4388494 5, some (p 100000 0), [("B", 1), ("H", 1), ("S", 1)]⟩,
  ⟨"ig.HBaO+", .ig2,
    [p 300 0, p 1000 0, p 5000 0],
    [[p 2709049 6, p 16726525 9, n 30767927 12, p 26210448 15, n 83303839 19, p 31255079 3, p 104707909 7],
     [p 55126019 7, p 1401384 9, n 42350216 14, p 60578363 18, n 33519653 22, p 30871349 3, n 2107673 6]],
    p 15433379 5, some (p 100000 0), [("Ba", 1), ("H", 1), ("O", 1), ("e", -1)]⟩,
  ⟨"ig.HBaO", .ig2,
    [p 300 0, p 1000 0, p 5000 0],
    [[p 26681831 7, p 16883976 9, n 31031777 12, p 26421048 15, n 83953588 19, n 28554668 3, p 113434092 7],
     [p 55178468 7, p 14780903 10, n 57823307 14, p 14040222 17, n 12035765 21, n 28959074 3, n 149787288 8]],
    p 15433434 5, some (p 100000 0), [("Ba", 1), ("H", 1), ("O", 1)]⟩,
  ⟨"ig.HBe+", .ig2,
    [p 300 0, p 1000 0, p 5000 0],
    [[p 37095712 7, n 15852031 10, p 36228769 13, n 18933221 16, p 17173264 20, p 13802866 2, n 282896408 9],
     [p 29015992 7, p 16751761 10, n 66805503 14, p 12510951 17, n 81741466 22, p 13816812 2, p 355562916 8]],
    p 1001957 5, some (p 100000 0), [("Be", 1), ("H", 1), ("e", -1)]⟩,
  ⟨"ig.HBe", .ig2,
    [p 300 0, p 1000 0, p 5000 0],
    [[p 37312305 7, n 19143548 10, p 48910325 13, n 32925883 16, p 66638562 20, p 3756556 2, p 388608523 9],
     [p 30570218 7, p 14977223 10, n 56872963 14, p 10260817 17, n 69166979 22, p 37639513 3, p 340027478 8]],
    p 1002012 5, some (p 100000 0), [("Be", 1), ("H", 1)]⟩,
  ⟨"ig.HBeO+", .ig2,
    [p 300 0, p 1000 0, p 5000 0],
    [[p 19280982 7, p 1353424 8, n 18654026 12, p 13073921 15, n 35900576 19, p 90368305 3, p 10225727 6],
     [p 46223527 7, p 23902571 10, n 85549473 14, p 14441671 17, n 93560294 22, p 89829436 3, n 272614661 8]],
    p 2601897 5, some (p 100000 0), [("Be", 1), ("H", 1), ("O", 1), ("e", -1)]⟩,
  ⟨"ig.HBeO", .ig2,
    [p 300 0, p 1000 0, p 5000 0],
    [[p 19139148 7, p 13507159 9, n 18531687 12, p 12942471 15, n 35438961 19, n 14819683 3, p 109928305 7],
     [p 4611672 6, p 23972013 10, n 85489162 14, p 14309062 17, n 91112399 22, n 15361838 3, n 198829207 8]],
    p 2601952 5, some (p 100000 0), [("Be", 1), ("H", 1), ("O", 1)]⟩,
  ⟨"ig.HBr", .ig2,
    [p 300 0, p 1000 0, p 5000 0],
    [[p 3605669 6, n 59529431 11, p 65029568 14, p 93781219 17, n 71141852 20, n 54389455 4, p 349634113 8],
     [p 27935804 7, p 15655925 10, n 56171064 14, p 95783142 18, n 6181399 21, n 52338384 4, p 765553403 8]],
    p 8091194 5, some (p 100000 0), [("Br", 1), ("H", 1)]⟩,
  ⟨"ig.HBr3Si", .ig2,
    [p 300 0, p 1000 0, p 5000 0],
    [[p 4337011 6, p 2887299 8, n 4695412 11, p 37523038 15, n 11634919 18, n 38663834 3, p 103216712 7],
     [p 10274831 6, p 28666104 10, n 12112581 13, p 23004916 17, n 16233504 21, n 39846576 3, n 180340658 7]],
    p 26880544 5, some (p 100000 0), [("Br", 3), ("H", 1), ("Si", 1)]⟩,
  ⟨"ig.HCaO+", .ig2,
    [p 300 0, p 1000 0, p 5000 0],
    [[p 2156646 6, p 18518676 9, n 33268222 12, p 2787222 14, n 8760801 18, p 43168395 3, p 110927661 7],
     [p 54051087 7, p 15245003 10, n 47830808 14, p 71347216 18, n 41298349 22, p 42685933 3, n 366981129 8]],
    p 5708479 5, some (p 100000 0), [("Ca", 1), ("H", 1), ("O", 1), ("e", -1)]⟩,
  ⟨"ig.HCaO", .ig2,
    [p 300 0, p 1000 0, p 5000 0],
    [[p 21004852 7, p 18695159 9, n 33506644 12, p 28025638 15, n 87992689 19, n 24530915 3, p 120387635 7],
     [p 52754759 7, p 1802562 9, n 68435648 14, p 13060196 17, n 8913158 21, n 24984681 3, n 231108541 8]],
    p 5708534 5, some (p 100000 0), [("Ca", 1), ("H", 1), ("O", 1)]⟩]

/-- `ig.HCl` .. `ig.HI` (`data/ig2`). -/
def gases51 : List File := [
  ⟨"ig.HCl", .ig2,
    [p 300 0, p 1000 0, p 5000 0],
    [[p 35248171 7, p 29984862 12, n 86221891 14, p 20979721 16, n 98658191 20, n 12150509 3, p 240892359 8],
     [p 27665884 7, p 14381883 10, n 46993 11, p 73499408 18, n 43731106 22, n 11917468 3, p 647150629 8]],
    p 3646064 5, some (p 100000 0), [("Cl", 1), ("H", 1)]⟩,
  ⟨"ig.HCl3Si", .ig2,
    [p 300 0, p 1000 0, p 5000 0],
    [[p 26742042 7, p 34380385 9, n 54953856 12, p 43103332 15, n 13157012 18, n 61601723 3, p 143335095 7],
     [p 99335635 7, p 3248122 9, n 13787171 13, p 26266073 17, n 18574886 21, n 63070849 3, n 204720585 7]],
    p 13545154 5, some (p 100000 0), [("Cl", 3), ("H", 1), ("Si", 1)]⟩,
  ⟨"ig.HClO", .ig2,
    [p 300 0, p 1000 0, p 5000 0],
    [[p 29320537 7, p 69377744 10, n 67191845 13, p 31568866 16, n 4696588 19, n 10086799 3, p 995256576 8],
     [p 42250105 7, p 23182675 10, n 8384238 13, p 14176398 17, n 87469994 22, n 10368657 3, p 359007556 8]],
    p 5246004 5, some (p 100000 0), [("Cl", 1), ("H", 1), ("O", 1)]⟩,
  ⟨"ig.HCsO+", .ig2,
    [p 300 0, p 1000 0, p 5000 0],
    [[p 48487158 7, p 68908346 10, n 11839328 12, p 94335372 16, n 27222685 19, p 51678167 3, p 308484851 8],
     [p 57292563 7, p 11571324 10, n 31044431 14, p 37096291 18, n 15509463 22, p 51626483 3, n 576482218 9]],
    p 14991222 5, some (p 100000 0), [("Cs", 1), ("H", 1), ("O", 1), ("e", -1)]⟩,
  ⟨"ig.HCsO", .ig2,
    [p 300 0, p 1000 0, p 5000 0],
    [[p 45486003 7, p 79612333 10, n 13326497 12, p 10314234 15, n 28973777 19, n 3281089 2, p 286187969 8],
     [p 57005649 7, p 11820384 10, n 31939094 14, p 38642917 18, n 16635636 22, n 32919205 3, n 211870021 8]],
    p 14991277 5, some (p 100000 0), [("Cs", 1), ("H", 1), ("O", 1)]⟩,
  ⟨"ig.HD+", .ig2,
    [p 300 0, p 1000 0, p 5000 0],
    [[p 38827136 7, n 30779381 10, p 81914473 13, n 68119499 16, p 19859898 19, p 17894563 2, n 280335978 8],
     [p 32909764 7, p 11551529 10, n 34449463 14, p 76722682 18, n 80948133 22, p 17894279 2, n 478607212 9]],
    p 302149 5, some (p 100000 0), [("D", 1), ("H", 1), ("e", -1)]⟩,
  ⟨"ig.HD-", .ig2,
    [p 300 0, p 1000 0, p 5000 0],
    [[p 36428877 7, n 21291289 10, p 89284123 13, n 93481204 16, p 32564971 19, p 27269271 3, n 225562661 8],
     [p 34939949 7, p 12448667 10, n 47288714 14, p 91059637 18, n 64862926 22, p 27157734 3, n 223110461 8]],
    p 302259 5, some (p 100000 0), [("D", 1), ("H", 1), ("e", 1)]⟩,
  ⟨"ig.HD", .ig2,
    [p 300 0, p 1000 0, p 5000 0],
    [[p 34325477 7, p 65107028 11, n 19332666 13, p 24101736 16, n 86732397 20, n 10009272 4, n 238902247 8],
     [p 28464544 7, p 10631961 10, n 24433805 14, p 29050834 18, n 11621531 22, n 76182465 5, p 980143997 9]],
    p 302204 5, some (p 100000 0), [("D", 1), ("H", 1)]⟩,
  ⟨"ig.HDO", .ig2,
    [p 300 0, p 1000 0, p 5000 0],
    [[p 40754422 7, n 13820285 10, p 57025534 13, n 44163646 16, p 12263062 19, n 30707608 3, p 971068127 9],
     [p 26672688 7, p 35575209 10, n 12026003 13, p 19607209 17, n 1235262 20, n 30372869 3, p 798359926 8]],
    p 1902144 5, some (p 100000 0), [("D", 1), ("H", 1), ("O", 1)]⟩,
  ⟨"ig.HF", .ig2,
    [p 300 0, p 1000 0, p 5000 0],
    [[p 34379986 7, p 53571598 11, n 15229655 13, p 17564491 16, n 5786994 19, n 33818972 3, p 120618177 8],
     [p 2991911 6, p 71489475 11, n 68630973 15, n 1161713 17, p 19412375 22, n 33621364 3, p 382549527 8]],
    p 2000634 5, some (p 100000 0), [("F", 1), ("H", 1)]⟩,
  ⟨"ig.HF2N", .ig2,
    [p 29815 2, p 1000 0, p 5000 0],
    [[p 22067481 7, p 11877401 9, n 55012693 13, n 21911219 16, p 19746181 19, n 13522141 3, p 145510312 7],
     [p 52875615 7, p 4633233 9, n 18773749 13, p 34699303 17, n 2403675 20, n 14423633 3, n 164462815 8]],
    p 5301149 5, some (p 100000 0), [("F", 2), ("H", 1), ("N", 1)]⟩,
  ⟨"ig.HF3Si", .ig2,
    [p 300 0, p 1000 0, p 5000 0],
    [[p 90654816 8, p 33265267 9, n 43928825 12, p 29328367 15, n 78649188 19, n 14584196 2, p 199732657 7],
     [p 87548828 7, p 45527756 10, n 19477531 13, p 37300794 17, n 26473973 21, n 14765658 2, n 188269773 7]],
    p 8608865 5, some (p 100000 0), [("F", 3), ("H", 1), ("Si", 1)]⟩,
  ⟨"ig.HFN", .ig2,
    [p 29815 2, p 1000 0, p 5000 0],
    [[p 35079049 7, p 1468857 9, p 51389319 13, n 70764293 16, p 27315652 19, p 12326621 3, p 716280056 8],
     [p 37055156 7, p 30592838 10, n 11948189 13, p 21532041 17, n 14471285 21, p 12171317 3, p 563012846 8]],
    p 3401308 5, some (p 100000 0), [("F", 1), ("H", 1), ("N", 1)]⟩,
  ⟨"ig.HFO", .ig2,
    [p 300 0, p 1000 0, p 5000 0],
    [[p 32310929 7, p 37389857 10, p 63009762 14, n 36215002 16, p 17867133 19, n 12954779 3, p 775090362 8],
     [p 40464336 7, p 24486283 10, n 86283553 14, p 14209904 17, n 89356915 22, n 13209067 3, p 334993292 8]],
    p 3600574 5, some (p 100000 0), [("F", 1), ("H", 1), ("O", 1)]⟩,
  ⟨"ig.HFO3S", .ig2,
    [p 300 0, p 1000 0, p 5000 0],
    [[p 21192445 7, p 3154571 8, n 31317888 12, p 12461507 15, n 8251463 19, n 92361596 3, p 155596956 7],
     [p 1036419 5, p 53861164 10, n 21231572 13, p 38208343 17, n 2580709 20, n 94398334 3, n 260055034 7]],
    p 10007054 5, some (p 100000 0), [("F", 1), ("H", 1), ("O", 3), ("S", 1)]⟩,
  ⟨"ig.HI", .ig2,
    [p 300 0, p 1000 0, p 5000 0],
    [[p 36963722 7, n 14224755 10, p 30131188 13, n 12666403 16, n 35098765 21, p 21073581 4, p 408812111 8],
     [p 29104008 7, p 15688188 10, n 59227632 14, p 10537094 17, n 70375116 22, p 22508659 4, p 786447051 8]],
    p 12791241 5, some (p 100000 0), [("H", 1), ("I", 1)]⟩]

/-- `ig.HI3Si` .. `ig.HNO3` (`data/ig2`). -/
def gases52 : List File := [
  ⟨"ig.HI3Si", .ig2,
    [p 300 0, p 1000 0, p 5000 0],
    [[p 55211225 7, p 24841054 9, n 40833984 12, p 33068393 15, n 10373774 18, n 11407189 3, p 778466951 8],
     [p 10533604 6, p 25888 7, n 10921903 13, p 20720687 17, n 14609854 21, n 12397345 3, n 160950342 7]],
    p 40980685 5, some (p 100000 0), [("H", 1), ("I", 3), ("Si", 1)]⟩,
  ⟨"ig.HK", .ig2,
    [p 300 0, p 1000 0, p 5000 0],
    [[p 28157756 7, p 3987106 9, n 33410548 13, p 88602942 17, p 11402847 20, p 13805838 3, p 672517899 8],
     [p 39603386 7, p 72190323 11, n 26918715 14, p 526173 16, n 37872683 22, p 13501837 3, p 855345083 9]],
    p 4010624 5, some (p 100000 0), [("H", 1), ("K", 1)]⟩,
  ⟨"ig.HKO+", .ig2,
    [p 300 0, p 1000 0, p 5000 0],
    [[p 44325167 7, p 84631625 10, n 14247855 12, p 11106625 15, n 31563612 19, p 58292632 3, p 287334573 8],
     [p 5680614 6, p 12120951 10, n 33447117 14, p 41727932 18, n 18793913 22, p 58167602 3, n 255415137 8]],
    p 5610509 5, some (p 100000 0), [("H", 1), ("K", 1), ("O", 1), ("e", -1)]⟩,
  ⟨"ig.HKO", .ig2,
    [p 300 0, p 1000 0, p 5000 0],
    [[p 40733441 7, p 97217945 10, n 15988804 12, p 12148353 15, n 33709342 19, n 29506558 3, p 293540136 8],
     [p 56400949 7, p 12510226 10, n 34984547 14, p 44566993 18, n 20870279 22, n 29698732 3, n 404365464 8]],
    p 5610564 5, some (p 100000 0), [("H", 1), ("K", 1), ("O", 1)]⟩,
  ⟨"ig.HLi", .ig2,
    [p 300 0, p 1000 0, p 5000 0],
    [[p 34209486 7, n 68067366 11, p 56527381 13, n 62180348 16, p 21531755 19, p 15884945 3, p 106574194 8],
     [p 35884297 7, p 10727691 10, n 40194588 14, p 73828557 18, n 49269644 22, p 15717625 3, n 375038965 9]],
    p 794894 5, some (p 100000 0), [("H", 1), ("Li", 1)]⟩,
  ⟨"ig.HLiO+", .ig2,
    [p 300 0, p 1000 0, p 5000 0],
    [[p 36379739 7, p 10897154 9, n 1722967 11, p 12667927 15, n 34165259 19, p 92161193 3, p 363776092 8],
     [p 55329269 7, p 13777931 10, n 40659309 14, p 5559091 17, n 28604624 22, p 91888579 3, n 499359268 8]],
    p 2394779 5, some (p 100000 0), [("H", 1), ("Li", 1), ("O", 1), ("e", -1)]⟩,
  ⟨"ig.HLiO", .ig2,
    [p 300 0, p 1000 0, p 5000 0],
    [[p 334623 5, p 11787253 9, n 18252657 12, p 13085614 15, n 34328742 19, n 29564636 3, p 34612333 7],
     [p 55096957 7, p 13685464 10, n 39441469 14, p 52332195 18, n 25958676 22, n 29899231 3, n 6507016 6]],
    p 2394834 5, some (p 100000 0), [("H", 1), ("Li", 1), ("O", 1)]⟩,
  ⟨"ig.HMg", .ig2,
    [p 300 0, p 1000 0, p 5000 0],
    [[p 35102397 7, n 12368352 10, p 64246998 13, n 66054846 16, p 22003625 19, p 19293893 3, p 337365416 8],
     [p 34638591 7, p 12404055 10, n 5027821 13, p 98118834 18, n 66183068 22, p 1917631 2, p 299775186 8]],
    p 2531294 5, some (p 100000 0), [("H", 1), ("Mg", 1)]⟩,
  ⟨"ig.HMgO+", .ig2,
    [p 300 0, p 1000 0, p 5000 0],
    [[p 17831421 7, p 19228527 9, n 33503143 12, p 27491364 15, n 85151007 19, p 69150584 3, p 119305236 7],
     [p 52824479 7, p 16640437 10, n 54016651 14, p 83467824 18, n 50036168 22, p 68595816 3, n 415038863 8]],
    p 4131179 5, some (p 100000 0), [("H", 1), ("Mg", 1), ("O", 1), ("e", -1)]⟩,
  ⟨"ig.HMgO", .ig2,
    [p 300 0, p 1000 0, p 5000 0],
    [[p 17624357 7, p 19167005 9, n 33219318 12, p 27158978 15, n 83889275 19, n 20949182 3, p 127344525 7],
     [p 52671424 7, p 1678272 9, n 54309173 14, p 82563349 18, n 47133513 22, n 21509336 3, n 339516556 8]],
    p 4131234 5, some (p 100000 0), [("H", 1), ("Mg", 1), ("O", 1)]⟩,
  ⟨"ig.HN+", .ig2,
    [p 29815 2, p 1000 0, p 6000 0],
    [[p 461611136 8, n 313435677 11, p 29170513 13, p 257384848 18, n 731431347 21, p 199085043 3, n 29275846 7],
     [p 29591898 7, p 134991719 11, n 461487782 15, p 826977666 19, n 555758913 23, p 199524505 3, p 559978021 8]],
    p 1501413 5, some (p 100000 0), [("H", 1), ("N", 1), ("e", -1)]⟩,
  ⟨"ig.HN", .ig2,
    [p 200 0, p 1000 0, p 6000 0],
    [[p 349295037 8, p 311795722 12, n 148906628 14, p 248167403 17, n 103570916 20, p 41894294 3, p 184834974 8],
     [p 278372645 8, p 132985886 11, n 424785565 15, p 783494425 19, n 550451298 23, p 421345163 4, p 574084857 8]],
    p 1501468 5, some (p 100000 0), [("H", 1), ("N", 1)]⟩,
  ⟨"ig.HN3", .ig2,
    [p 200 0, p 1000 0, p 6000 0],
    [[p 288510881 8, p 944343451 11, n 387919336 14, n 189404011 17, p 160184132 20, p 341172038 4, p 971687818 8],
     [p 514700291 8, p 430561265 11, n 152704575 14, p 246295774 18, n 147144164 22, p 334283986 4, n 225529103 8]],
    p 4302816 5, some (p 100000 0), [("H", 1), ("N", 3)]⟩,
  ⟨"ig.HNO", .ig2,
    [p 200 0, p 1000 0, p 6000 0],
    [[p 453525882 8, n 56854691 10, p 185199976 13, n 171883674 16, p 55583309 19, p 110398805 4, p 174314734 8],
     [p 316554762 8, p 300005132 11, n 394350282 15, n 385787491 19, p 708091931 23, p 111944169 4, p 764764695 8]],
    p 3101408 5, some (p 100000 0), [("H", 1), ("N", 1), ("O", 1)]⟩,
  ⟨"ig.HNO2", .ig2,
    [p 200 0, p 1000 0, p 6000 0],
    [[p 321415925 8, p 81277792 10, p 165999516 14, n 952815563 17, p 487131816 20, n 10753236 3, p 982200021 8],
     [p 579182658 8, p 365162663 11, n 129293451 14, p 206892932 18, n 123154855 22, n 115655526 4, n 405538525 8]],
    p 4701348 5, some (p 100000 0), [("H", 1), ("N", 1), ("O", 2)]⟩,
  ⟨"ig.HNO3", .ig2,
    [p 200 0, p 1000 0, p 6000 0],
    [[p 174492946 8, p 188040888 10, n 815963597 14, n 578584532 17, p 443768083 20, n 173805296 4, p 169545524 7],
     [p 800379234 8, p 449837533 11, n 173648758 14, p 293685555 18, n 181478673 22, n 192563022 4, n 160985546 7]],
    p 6301288 5, some (p 100000 0), [("H", 1), ("N", 1), ("O", 3)]⟩]

/-- `ig.HNa` .. `ig.Hg` (`data/ig2`). -/
def gases53 : List File := [
  ⟨"ig.HNa", .ig2,
    [p 300 0, p 1000 0, p 5000 0],
    [[p 3120395 6, p 13996217 10, p 22141234 13, n 39950795 16, p 16726178 19, p 13940065 3, p 439456114 8],
     [p 38130579 7, p 856438 9, n 31226816 14, p 58502471 18, n 40513924 22, p 13683062 3, p 484168087 9]],
    p 2399771 5, some (p 100000 0), [("H", 1), ("Na", 1)]⟩,
  ⟨"ig.HNaO+", .ig2,
    [p 300 0, p 1000 0, p 5000 0],
    [[p 43505204 7, p 87465015 10, n 14642673 12, p 11351501 15, n 32110026 19, p 79946399 3, p 234484072 8],
     [p 56688547 7, p 1225393 9, n 34029563 14, p 42853268 18, n 1959376 21, p 79806514 3, n 342468268 8]],
    p 3999656 5, some (p 100000 0), [("H", 1), ("Na", 1), ("O", 1), ("e", -1)]⟩,
  ⟨"ig.HNaO", .ig2,
    [p 300 0, p 1000 0, p 5000 0],
    [[p 40050388 7, p 99922043 10, n 16434213 12, p 12476585 15, n 3463761 18, n 25300471 3, p 230643604 8],
     [p 56469377 7, p 12227385 10, n 33271036 14, p 40666298 18, n 17790688 22, n 25508222 3, n 503687466 8]],
    p 3999711 5, some (p 100000 0), [("H", 1), ("Na", 1), ("O", 1)]⟩,
  ⟨"ig.HO+", .ig2,
    [p 29815 2, p 1000 0, p 6000 0],
    [[p 350502572 8, p 241313749 12, n 142200949 14, p 264780232 17, n 117038711 20, p 154127124 3, p 19790764 7],
     [p 268358997 8, p 157006432 11, n 539972805 15, p 937643859 19, n 570068055 23, p 154395744 3, p 644375901 8]],
    p 1700679 5, some (p 100000 0), [("H", 1), ("O", 1), ("e", -1)]⟩,
  ⟨"ig.HO-", .ig2,
    [p 29815 2, p 1000 0, p 6000 0],
    [[p 343279956 8, p 61965631 11, n 189930992 14, p 237365946 17, n 855103755 21, n 182613086 4, p 106053657 8],
     [p 283405701 8, p 107058023 11, n 262459398 15, p 308376435 19, n 131383862 23, n 180186974 4, p 449464749 8]],
    p 1700789 5, some (p 100000 0), [("H", 1), ("O", 1), ("e", 1)]⟩,
  ⟨"ig.HO", .ig2,
    [p 200 0, p 1000 0, p 6000 0],
    [[p 399201543 8, n 240131752 11, p 461793841 14, n 388113333 17, p 13641147 19, p 361508056 5, n 103925458 9],
     [p 283864607 8, p 110725586 11, n 293914978 15, p 420524247 19, n 242169092 23, p 394395852 5, p 584452662 8]],
    p 1700734 5, some (p 100000 0), [("H", 1), ("O", 1)]⟩,
  ⟨"ig.HO2", .ig2,
    [p 200 0, p 1000 0, p 6000 0],
    [[p 430179801 8, n 474912051 11, p 211582891 13, n 242763894 16, p 929225124 20, p 29480804 5, p 371666245 8],
     [p 417228728 8, p 188117647 11, n 346277408 15, p 194657853 19, p 176254294 24, p 618102964 7, p 295767746 8]],
    p 3300674 5, some (p 100000 0), [("H", 1), ("O", 2)]⟩,
  ⟨"ig.HOSr+", .ig2,
    [p 300 0, p 1000 0, p 5000 0],
    [[p 26101807 7, p 17067677 9, n 31275556 12, p 26570854 15, n 84301395 19, p 37275229 3, p 102040867 7],
     [p 54951981 7, p 14214066 10, n 43245019 14, p 62342429 18, n 34797484 22, p 36874107 3, n 277068358 8]],
    p 10462679 5, some (p 100000 0), [("H", 1), ("O", 1), ("Sr", 1), ("e", -1)]⟩,
  ⟨"ig.HOSr", .ig2,
    [p 300 0, p 1000 0, p 5000 0],
    [[p 25276494 7, p 17364854 9, n 31735723 12, p 26909646 15, n 85270099 19, n 26012678 3, p 112603266 7],
     [p 5357084 6, p 17350735 10, n 68339647 14, p 14107068 17, n 10415039 21, n 26389173 3, n 138738754 8]],
    p 10462734 5, some (p 100000 0), [("H", 1), ("O", 1), ("Sr", 1)]⟩,
  ⟨"ig.HP", .ig2,
    [p 300 0, p 1000 0, p 5000 0],
    [[p 36803433 7, n 12756018 10, p 25932442 13, n 84354107 17, n 17208609 20, p 273339656 4, p 291864125 8],
     [p 30745442 7, p 11698947 10, n 30381654 14, p 44436314 18, n 27000975 22, p 274268316 4, p 576804855 8]],
    p 319817 4, some (p 100000 0), [("H", 1), ("P", 1)]⟩,
  ⟨"ig.HS", .ig2,
    [p 300 0, p 1000 0, p 5000 0],
    [[p 44420322 7, n 24359197 10, p 19064576 13, p 9916663 16, n 95740762 20, p 15523258 3, n 114449035 8],
     [p 30014537 7, p 13394957 10, n 46789663 14, p 78804015 18, n 50280453 22, p 1590532 2, p 628462715 8]],
    p 3307394 5, some (p 100000 0), [("H", 1), ("S", 1)]⟩,
  ⟨"ig.HSi+", .ig2,
    [p 300 0, p 1000 0, p 5000 0],
    [[p 37292588 7, n 17881611 10, p 42469257 13, n 2558013 15, p 4063374 19, p 13697071 2, p 158387314 8],
     [p 29828595 7, p 15455222 10, n 59038555 14, p 105174 15, n 68220234 22, p 13707954 2, p 504035014 8]],
    p 2909289 5, some (p 100000 0), [("H", 1), ("Si", 1), ("e", -1)]⟩,
  ⟨"ig.HSi", .ig2,
    [p 300 0, p 1000 0, p 5000 0],
    [[p 43362954 7, n 50512422 10, p 11423096 12, n 93890652 16, p 27718149 19, p 44150714 3, p 188214679 9],
     [p 30453194 7, p 15587526 10, n 62072677 14, p 1151827 16, n 76289773 22, p 44331126 3, p 604465545 8]],
    p 2909344 5, some (p 100000 0), [("H", 1), ("Si", 1)]⟩,
  ⟨"ig.He+", .ig2,
    [p 29815 2, p 1000 0, p 6000 0],
    [[p 25 1, p 0 0, p 0 0, p 0 0, p 0 0, p 285315086 3, p 162166684 8],
     [p 25 1, p 0 0, p 0 0, p 0 0, p 0 0, p 285315086 3, p 162166684 8]],
    p 400205 5, some (p 100000 0), [("He", 1), ("e", -1)]⟩,
  ⟨"ig.He", .ig2,
    [p 200 0, p 1000 0, p 6000 0],
    [[p 25 1, p 0 0, p 0 0, p 0 0, p 0 0, n 745375 3, p 928724724 9],
     [p 25 1, p 0 0, p 0 0, p 0 0, p 0 0, n 745375 3, p 928724724 9]],
    p 40026 4, some (p 100000 0), [("He", 1)]⟩,
  ⟨"ig.Hg", .ig2,
    [p 200 0, p 1000 0, p 6000 0],
    [[p 25 1, p 0 0, p 0 0, p 0 0, p 0 0, p 663690008 5, p 680020154 8],
     [p 250953611 8, n 198827279 13, p 138910849 16, n 39354292 19, p 390959219 24, p 663358064 5, p 674847966 8]],
    p 20059 2, some (p 100000 0), [("Hg", 1)]⟩]

/-- `ig.I` .. `ig.KO-` (`data/ig2`). -/
def gases54 : List File := [
  ⟨"ig.I", .ig2,
    [p 200 0, p 1000 0, p 6000 0],
    [[p 250041683 8, n 448046831 14, p 169962536 16, n 26770803 18, p 148927452 22, p 12094799 3, p 749816581 8],
     [p 261667712 8, n 26601032 11, p 18606015 14, n 381927472 19, p 252036053 23, p 12058279 3, p 687896653 8]],
    p 12690447 5, some (p 100000 0), [("I", 1)]⟩,
  ⟨"ig.I2", .ig2,
    [p 200 0, p 1000 0, p 6000 0],
    [[p 387234634 8, p 364265414 11, n 795349191 14, p 782149773 17, n 280608071 20, p 624706424 5, p 849410267 8],
     [p 456588102 8, n 342229361 12, p 484410977 15, n 142632157 18, p 114951099 22, p 616085432 5, p 541958286 8]],
    p 25380894 5, some (p 100000 0), [("I", 2)]⟩,
  ⟨"ig.I2Mg", .ig2,
    [p 300 0, p 1000 0, p 5000 0],
    [[p 61081426 7, p 61462118 10, n 11166527 12, p 93266525 16, n 29487166 19, n 21286323 3, p 197126687 8],
     [p 73711162 7, p 14941954 11, n 67067738 15, p 13257559 18, n 96200502 23, n 21511923 3, n 393845663 8]],
    p 27811394 5, some (p 100000 0), [("I", 2), ("Mg", 1)]⟩,
  ⟨"ig.I2Pb", .ig2,
    [p 300 0, p 1000 0, p 5000 0],
    [[p 67169225 7, p 11849879 10, n 19791555 13, p 14927378 16, n 42189646 20, n 24229505 4, p 469675599 8],
     [p 69761108 7, p 27474571 12, n 12204216 15, p 23862489 19, n 17133768 23, n 24707898 4, p 347173649 8]],
    p 46100894 5, some (p 100000 0), [("I", 2), ("Pb", 1)]⟩,
  ⟨"ig.I2Si", .ig2,
    [p 200 0, p 1000 0, p 6000 0],
    [[p 432155105 8, p 14427338 9, n 310517647 13, p 298319286 16, n 105785473 19, p 941218202 5, p 108178567 7],
     [p 674311855 8, p 361983156 12, n 195278644 15, p 435823201 19, n 289986792 23, p 906975364 5, p 129097213 10]],
    p 28189444 5, some (p 100000 0), [("I", 2), ("Si", 1)]⟩,
  ⟨"ig.I2Sr", .ig2,
    [p 300 0, p 1000 0, p 5000 0],
    [[p 70450407 7, p 18841699 10, n 31175149 13, p 23299391 16, n 65232133 20, n 35223013 3, p 257821783 9],
     [p 74603678 7, p 45403476 12, n 20093274 15, p 39155506 19, n 2803098 22, n 35300333 3, n 170876927 8]],
    p 34142894 5, some (p 100000 0), [("I", 2), ("Sr", 1)]⟩,
  ⟨"ig.I4Pb", .ig2,
    [p 300 0, p 1000 0, p 5000 0],
    [[p 12150266 6, p 35387081 10, n 58782434 13, p 44072159 16, n 1237405 18, n 30733565 3, n 139781323 7],
     [p 12927661 6, p 82998286 12, n 36781667 15, p 71764294 19, n 51430957 23, n 30877629 3, n 176557593 7]],
    p 71481788 5, some (p 100000 0), [("I", 4), ("Pb", 1)]⟩,
  ⟨"ig.IMg", .ig2,
    [p 200 0, p 1000 0, p 6000 0],
    [[p 339596606 8, p 611494866 11, n 131544146 13, p 127259311 16, n 453414297 20, p 176933628 5, p 969586508 8],
     [p 441245599 8, p 178910914 12, n 522986679 16, p 968713486 20, n 467113786 24, p 162581907 5, p 516451018 8]],
    p 15120947 5, some (p 100000 0), [("I", 1), ("Mg", 1)]⟩,
  ⟨"ig.INa", .ig2,
    [p 300 0, p 1000 0, p 5000 0],
    [[p 40406275 7, p 19687111 10, n 30545424 13, p 22556323 16, n 62286832 20, n 11988041 3, p 645980105 8],
     [p 4458457 6, p 14241278 11, n 16926275 15, p 38960087 19, n 27966311 23, n 12066843 3, p 447595875 8]],
    p 14989424 5, some (p 100000 0), [("I", 1), ("Na", 1)]⟩,
  ⟨"ig.IPb", .ig2,
    [p 300 0, p 1000 0, p 5000 0],
    [[p 43073395 7, p 85668232 11, n 13164554 13, p 97187239 17, n 26526744 20, p 11645744 3, p 894132936 8],
     [p 47186112 7, n 41882236 11, p 30970847 14, n 59203353 18, p 3877397 21, p 1153411 2, p 683919406 8]],
    p 33410447 5, some (p 100000 0), [("I", 1), ("Pb", 1)]⟩,
  ⟨"ig.ISi", .ig2,
    [p 300 0, p 1000 0, p 5000 0],
    [[p 28044712 7, p 12205306 9, n 25876997 12, p 23170966 15, n 75798472 19, p 36529488 3, p 118753077 7],
     [p 49749532 7, n 40801921 11, p 19199674 14, n 38886553 18, p 38552422 22, p 36261727 3, p 23016692 7]],
    p 15498997 5, some (p 100000 0), [("I", 1), ("Si", 1)]⟩,
  ⟨"ig.K+", .ig2,
    [p 29815 2, p 1000 0, p 6000 0],
    [[p 25 1, p 0 0, p 0 0, p 0 0, p 0 0, p 610751051 4, p 434740449 8],
     [p 25 1, p 0 0, p 0 0, p 0 0, p 0 0, p 610751051 4, p 434740449 8]],
    p 3909775 5, some (p 100000 0), [("K", 1), ("e", -1)]⟩,
  ⟨"ig.K", .ig2,
    [p 200 0, p 1000 0, p 6000 0],
    [[p 250000712 8, n 725113166 16, p 259068481 18, n 379460911 21, p 193210641 24, p 995880307 5, p 504054517 8],
     [p 226026721 8, p 562341179 12, n 448551838 15, p 136243498 18, n 102926268 22, p 100348812 4, p 631568201 8]],
    p 390983 4, some (p 100000 0), [("K", 1)]⟩,
  ⟨"ig.K2", .ig2,
    [p 200 0, p 1000 0, p 6000 0],
    [[p 450665127 8, n 435676221 12, p 326618741 14, n 417835102 17, p 119618367 20, p 135287953 4, p 437318917 8],
     [p 694866371 8, n 360468319 11, p 117553193 14, n 174220367 18, p 970302874 23, p 126044349 4, n 931939051 8]],
    p 781966 4, some (p 100000 0), [("K", 2)]⟩,
  ⟨"ig.K2O4S", .ig2,
    [p 300 0, p 1000 0, p 5000 0],
    [[p 3475852 6, p 48773237 9, n 6842008 11, p 46886316 15, n 12721082 18, n 13428085 2, p 123448286 7],
     [p 15374108 6, p 41056139 10, n 18148935 13, p 35497243 17, n 25558754 21, n 13695329 2, n 461438154 7]],
    p 1742602 4, some (p 100000 0), [("K", 2), ("O", 4), ("S", 1)]⟩,
  ⟨"ig.KO-", .ig2,
    [p 300 0, p 1000 0, p 5000 0],
    [[p 3708366 6, p 3237648 9, n 496905 11, p 35728846 16, n 96080268 20, n 17818607 3, p 531662588 8],
     [p 44201084 7, p 20124266 11, n 39330996 15, p 75598511 19, n 53442275 23, n 17956109 3, p 192000408 8]],
    p 5509825 5, some (p 100000 0), [("K", 1), ("O", 1), ("e", 1)]⟩]

/-- `ig.KO` .. `ig.Mg2` (`data/ig2`). -/
def gases55 : List File := [
  ⟨"ig.KO", .ig2,
    [p 300 0, p 1000 0, p 5000 0],
    [[p 37410778 7, p 31242017 10, n 48020039 13, p 34660605 16, n 93599791 20, p 73368714 4, p 656692389 8],
     [p 44244778 7, p 19936155 11, n 37128837 15, p 713083 17, n 50369687 23, p 72052331 4, p 330766849 8]],
    p 550977 4, some (p 100000 0), [("K", 1), ("O", 1)]⟩,
  ⟨"ig.Kr+", .ig2,
    [p 29815 2, p 1000 0, p 6000 0],
    [[p 248153546 8, p 149864676 12, n 41557659 14, p 440237547 18, n 119374746 21, p 162460592 3, p 695257998 8],
     [p 218968725 8, p 463775689 12, n 129507482 15, p 131158688 19, n 384977987 24, p 16258311 2, p 862427688 8]],
    p 8379945 5, some (p 100000 0), [("Kr", 1), ("e", -1)]⟩,
  ⟨"ig.Kr", .ig2,
    [p 200 0, p 1000 0, p 6000 0],
    [[p 25 1, p 0 0, p 0 0, p 0 0, p 0 0, n 745375 3, p 549095651 8],
     [p 25 1, p 0 0, p 0 0, p 0 0, p 0 0, n 745375 3, p 549095651 8]],
    p 838 1, some (p 100000 0), [("Kr", 1)]⟩,
  ⟨"ig.Li+", .ig2,
    [p 29815 2, p 1000 0, p 6000 0],
    [[p 25 1, p 0 0, p 0 0, p 0 0, p 0 0, p 81727194 3, p 175435754 8],
     [p 25 1, p 0 0, p 0 0, p 0 0, p 0 0, p 81727194 3, p 175435754 8]],
    p 694045 5, some (p 100000 0), [("Li", 1), ("e", -1)]⟩,
  ⟨"ig.Li", .ig2,
    [p 200 0, p 1000 0, p 6000 0],
    [[p 25 1, p 0 0, p 0 0, p 0 0, p 0 0, p 18413902 3, p 244762297 8],
     [p 250413107 8, p 345604704 13, n 644790018 16, p 275752966 19, n 178783935 23, p 184074474 4, p 240802074 8]],
    p 6941 3, some (p 100000 0), [("Li", 1)]⟩,
  ⟨"ig.Li2", .ig2,
    [p 200 0, p 1000 0, p 6000 0],
    [[p 32159049 7, p 709389748 11, n 15072337 12, p 148684882 16, n 543740256 20, p 247988772 4, p 380489004 8],
     [p 558393935 8, n 787699402 12, n 38487812 14, p 291133039 18, n 339438475 22, p 240394686 4, n 850679127 8]],
    p 13882 3, some (p 100000 0), [("Li", 2)]⟩,
  ⟨"ig.Li2O", .ig2,
    [p 300 0, p 1000 0, p 5000 0],
    [[p 39721708 7, p 92460921 10, n 93596149 13, p 3463916 15, n 7565888 20, n 21596988 3, p 255230409 8],
     [p 66198748 7, p 96879448 11, n 41490506 14, p 78637337 18, n 54969292 22, n 22255325 3, n 10821559 6]],
    p 298814 4, some (p 100000 0), [("Li", 2), ("O", 1)]⟩,
  ⟨"ig.Li2O2", .ig2,
    [p 300 0, p 1000 0, p 5000 0],
    [[p 55375232 7, p 17344223 9, n 27197971 12, p 19305629 15, n 51207957 19, n 31402044 3, n 276831291 8],
     [p 9527526 6, p 53021013 11, n 23005862 14, p 44030831 18, n 31018702 22, n 32182484 3, n 21859112 6]],
    p 458808 4, some (p 100000 0), [("Li", 2), ("O", 2)]⟩,
  ⟨"ig.Li2O4S", .ig2,
    [p 300 0, p 1000 0, p 5000 0],
    [[p 71145725 8, p 59451179 9, n 8636349 11, p 61171087 15, n 17098923 18, n 12750842 2, p 203803279 7],
     [p 14929595 6, p 46097474 10, n 20379556 13, p 39862579 17, n 2870303 20, n 13063528 2, n 491664911 7]],
    p 1099456 4, some (p 100000 0), [("Li", 2), ("O", 4), ("S", 1)]⟩,
  ⟨"ig.LiN", .ig2,
    [p 300 0, p 1000 0, p 5000 0],
    [[p 288943 5, p 52212534 10, n 65969021 13, p 37288997 16, n 72355143 20, p 39216323 3, p 728887145 8],
     [p 42258077 7, p 39667187 11, n 12493993 14, p 23174759 18, n 15851917 22, p 38916952 3, p 700851481 9]],
    p 2094774 5, some (p 100000 0), [("Li", 1), ("N", 1)]⟩,
  ⟨"ig.LiNO", .ig2,
    [p 300 0, p 1000 0, p 5000 0],
    [[p 36701164 7, p 72568177 10, n 58681146 13, p 11628312 16, p 42704122 20, p 20271703 3, p 668249511 8],
     [p 58123496 7, p 12870626 10, n 5466771 13, p 10314987 17, n 71930447 22, p 19692302 3, n 434470559 8]],
    p 3694714 5, some (p 100000 0), [("Li", 1), ("N", 1), ("O", 1)]⟩,
  ⟨"ig.LiO-", .ig2,
    [p 300 0, p 1000 0, p 5000 0],
    [[p 28515866 7, p 5016988 9, n 59547475 13, p 30399451 16, n 47872969 20, n 90778076 4, p 645947067 8],
     [p 41810217 7, p 41785 8, n 15024845 14, p 28397732 18, n 19789181 22, n 93849702 4, n 142392337 9]],
    p 2294095 5, some (p 100000 0), [("Li", 1), ("O", 1), ("e", 1)]⟩,
  ⟨"ig.LiO", .ig2,
    [p 300 0, p 1000 0, p 5000 0],
    [[p 28389007 7, p 51538626 10, n 63082382 13, p 34114385 16, n 61631343 20, p 90884314 4, p 791311789 8],
     [p 41876205 7, p 41186574 11, n 14520296 14, p 2725307 17, n 18864775 22, p 87795259 4, p 123142599 8]],
    p 229404 4, some (p 100000 0), [("Li", 1), ("O", 1)]⟩,
  ⟨"ig.Mg+", .ig2,
    [p 29815 2, p 1000 0, p 6000 0],
    [[p 25 1, p 0 0, p 0 0, p 0 0, p 0 0, p 106422335 3, p 432744355 8],
     [p 250416574 8, n 919340966 14, p 696171478 17, n 217494938 20, p 240903346 24, p 106420941 3, p 430504494 8]],
    p 2430445 5, some (p 100000 0), [("Mg", 1), ("e", -1)]⟩,
  ⟨"ig.Mg", .ig2,
    [p 200 0, p 1000 0, p 6000 0],
    [[p 25 1, p 0 0, p 0 0, p 0 0, p 0 0, p 169465876 4, p 363433014 8],
     [p 231664484 8, p 365866339 12, n 233227803 15, p 53711757 18, n 299513065 23, p 170119233 4, p 463449516 8]],
    p 24305 3, some (p 100000 0), [("Mg", 1)]⟩,
  ⟨"ig.Mg2", .ig2,
    [p 200 0, p 1000 0, p 6000 0],
    [[p 566548917 8, n 181207983 10, p 405706233 13, n 400720091 16, p 145040463 19, p 334280753 4, p 533095711 9],
     [p 155499308 8, p 313771932 11, n 315497401 14, p 111815199 17, n 108539001 21, p 341094885 4, p 194547704 7]],
    p 4861 2, some (p 100000 0), [("Mg", 2)]⟩]

/-- `ig.MgN` .. `ig.N2O` (`data/ig2`). -/
def gases56 : List File := [
  ⟨"ig.MgN", .ig2,
    [p 300 0, p 1000 0, p 5000 0],
    [[p 28894549 7, p 51757175 10, n 65849016 13, p 37218933 16, n 72305964 20, p 33681058 3, p 929758946 8],
     [p 42214417 7, p 3648924 10, n 1299573 13, p 2441894 17, n 16917759 22, p 33382931 3, p 273205196 8]],
    p 3831174 5, some (p 100000 0), [("Mg", 1), ("N", 1)]⟩,
  ⟨"ig.MgO", .ig2,
    [p 300 0, p 1000 0, p 5000 0],
    [[p 53353497 7, n 13339134 9, p 35667526 12, n 26057471 15, p 49841196 19, p 57315573 4, n 213277681 8],
     [p 79494428 7, n 12640755 10, n 2400973 13, p 16273277 17, n 17611909 21, p 34944384 4, n 21801173 6]],
    p 403044 4, some (p 100000 0), [("Mg", 1), ("O", 1)]⟩,
  ⟨"ig.MgS", .ig2,
    [p 300 0, p 1000 0, p 5000 0],
    [[p 78089215 7, n 32493595 9, p 92517257 12, n 90965203 15, p 29725631 18, p 1593229 2, n 110479053 7],
     [p 10358565 6, n 55307085 10, p 20951199 13, n 35224838 17, p 22282736 21, p 13329346 3, n 331905223 7]],
    p 56371 3, some (p 100000 0), [("Mg", 1), ("S", 1)]⟩,
  ⟨"ig.Mo2O6", .ig2,
    [p 29815 2, p 1000 0, p 5000 0],
    [[p 77546721 7, p 32625064 9, n 16659906 12, n 150396 13, p 12360358 18, n 14183338 2, n 645092731 8],
     [p 13923332 6, p 12908749 9, n 73929386 13, p 17454109 16, n 14410668 20, n 14292831 2, n 36448614 6]],
    p 2878764 4, some (p 100000 0), [("Mo", 2), ("O", 6)]⟩,
  ⟨"ig.Mo3O9", .ig2,
    [p 29815 2, p 1000 0, p 5000 0],
    [[p 13577424 6, p 4538931 8, n 21305954 12, n 22867766 15, p 17752327 18, n 23459688 2, n 28577139 6],
     [p 22262299 6, p 18584967 9, n 10589357 12, p 24926752 16, n 20542536 20, n 23620038 2, n 71088186 6]],
    p 4318146 4, some (p 100000 0), [("Mo", 3), ("O", 9)]⟩,
  ⟨"ig.Mo4O12", .ig2,
    [p 29815 2, p 1000 0, p 5000 0],
    [[p 18727478 6, p 61159499 9, n 29141913 12, n 3065805 14, p 2401182 17, n 32376594 2, n 50088384 6],
     [p 30431747 6, p 24732646 9, n 14118549 12, p 33271292 16, n 27439016 20, n 32590363 2, n 107280337 6]],
    p 5757528 4, some (p 100000 0), [("Mo", 4), ("O", 12)]⟩,
  ⟨"ig.Mo5O15", .ig2,
    [p 29815 2, p 1000 0, p 5000 0],
    [[p 23887054 6, p 76141 6, n 35174729 12, n 39864865 15, p 30631123 18, n 41052106 2, n 71604177 6],
     [p 38622543 6, p 30742742 9, n 17536047 12, p 4130623 15, n 34055771 20, n 41324156 2, n 143736757 6]],
    p 719691 3, some (p 100000 0), [("Mo", 5), ("O", 15)]⟩,
  ⟨"ig.MoO3", .ig2,
    [p 29815 2, p 1000 0, p 5000 0],
    [[p 36543121 7, p 14490992 9, n 7668139 12, n 6098464 15, p 51825809 19, n 45483094 3, p 850521889 8],
     [p 85599079 7, p 15136907 10, n 6137326 13, p 1075889 16, n 62277555 22, n 4676527 2, n 16702825 6]],
    p 1439382 4, some (p 100000 0), [("Mo", 1), ("O", 3)]⟩,
  ⟨"ig.N+", .ig2,
    [p 29815 2, p 1000 0, p 6000 0],
    [[p 280269445 8, n 144758911 11, p 27711838 13, n 240187352 17, p 780839931 21, p 225575244 3, p 357877835 8],
     [p 251112967 8, p 346441751 14, n 159426938 16, p 724865663 20, n 644501426 24, p 22562434 2, p 492767661 8]],
    p 1400619 5, some (p 100000 0), [("N", 1), ("e", -1)]⟩,
  ⟨"ig.N-", .ig2,
    [p 29815 2, p 1000 0, p 6000 0],
    [[p 262723403 8, n 593445018 12, p 112028916 14, n 962585603 18, p 311119557 21, p 561880871 4, p 440111176 8],
     [p 250897099 8, n 958412751 14, p 385210062 17, n 668935998 21, p 420991172 25, p 562083017 4, p 494953202 8]],
    p 1400729 5, some (p 100000 0), [("N", 1), ("e", 1)]⟩,
  ⟨"ig.N", .ig2,
    [p 200 0, p 1000 0, p 6000 0],
    [[p 25 1, p 0 0, p 0 0, p 0 0, p 0 0, p 561046378 4, p 419390932 8],
     [p 241594293 8, p 1748906 10, n 119023667 15, p 302262387 19, n 20360979 22, p 561337748 4, p 464960986 8]],
    p 1400674 5, some (p 100000 0), [("N", 1)]⟩,
  ⟨"ig.N2+", .ig2,
    [p 29815 2, p 1000 0, p 6000 0],
    [[p 377540711 8, n 206459157 11, p 475752301 14, n 315664228 17, p 670509973 21, p 180481115 3, p 269322186 8],
     [p 358661363 8, p 253071949 12, p 184778214 15, n 455257223 19, p 326818029 23, p 180390994 3, p 30958415 7]],
    p 2801293 5, some (p 100000 0), [("N", 2), ("e", -1)]⟩,
  ⟨"ig.N2-", .ig2,
    [p 29815 2, p 1000 0, p 5000 0],
    [[p 38826848 7, n 31924446 10, p 85227838 13, n 73403746 16, p 22056815 19, p 16796935 3, p 31118052 7],
     [p 31156753 7, p 14588688 10, n 60173148 14, p 11348423 17, n 79658518 22, p 16859058 3, p 6389856 6]],
    p 2801403 5, some (p 100000 0), [("N", 2), ("e", 1)]⟩,
  ⟨"ig.N2", .ig2,
    [p 200 0, p 1000 0, p 6000 0],
    [[p 353100528 8, n 123660987 12, n 502999437 15, p 243530612 17, n 140881235 20, n 104697628 5, p 296747468 8],
     [p 295257626 8, p 139690057 11, n 492631691 15, p 786010367 19, n 460755321 23, n 923948645 6, p 587189252 8]],
    p 2801348 5, some (p 100000 0), [("N", 2)]⟩,
  ⟨"ig.N2O+", .ig2,
    [p 29815 2, p 1000 0, p 6000 0],
    [[p 328688978 8, p 740234563 11, n 486688552 14, p 733141038 18, p 298161683 21, p 159054547 3, p 740146504 8],
     [p 55285973 7, p 19595697 10, n 753758228 15, p 127045911 18, n 780207625 23, p 158375902 3, n 4418967 6]],
    p 4401233 5, some (p 100000 0), [("N", 2), ("O", 1), ("e", -1)]⟩,
  ⟨"ig.N2O", .ig2,
    [p 200 0, p 1000 0, p 6000 0],
    [[p 22571686 7, p 113046338 10, n 13671035 12, p 968162098 17, n 293055583 20, p 874177146 5, p 107579154 7],
     [p 482318873 8, p 262685279 11, n 958426058 15, p 159991296 18, n 977416939 23, p 807335662 5, n 2202366 6]],
    p 4401288 5, some (p 100000 0), [("N", 2), ("O", 1)]⟩]

end PyroMat.Shipped.Data
