import Verif.Shipped.Basic

/-!
# Shipped ideal-gas data, part 3

Generated by `tools/shipped.py` from `/repo/src/pyromat/data/ig/*.hpd` and `ig2/*.hpd`;
do not edit.
-/

namespace PyroMat.Shipped.Data

open PyroMat.Shipped (File)
open PyroMat.Shipped.Dec (p n)

/-- `ig.OW` .. `ig.Al2F6` (`data/ig, ig2`). -/
def gases17 : List File := [
  ⟨"ig.OW", .ig,
    [p 298 0, p 1200 0, p 6000 0],
    [[p 2255984 5, p 3266323 5, n 2727533 5, p 8156542 6, p 34861 6, p 4172573 4, p 2670948 4, p 4250944 4],
     [p 4421651 5, n 6917533 6, p 2375437 6, n 191794 6, n 3475499 6, p 4040928 4, p 2928854 4, p 4250944 4]],
    p 19984 2, none, [("O", 1), ("W", 1)]⟩,
  ⟨"ig.PS", .ig,
    [p 298 0, p 6000 0],
    [[p 3695434 5, p 705364 6, n 158367 6, p 27113 6, n 177146 6, p 126961 3, p 2777402 4, p 1386029 4]],
    p 63039 3, none, [("P", 1), ("S", 1)]⟩,
  ⟨"ig.Rb", .ig,
    [p 970385 3, p 1800 0, p 6000 0],
    [[p 2063963 5, p 461826 6, n 494817 6, p 173669 6, p 4386 6, p 7474465 5, p 1949782 4, p 8090015 5],
     [p 7413588 5, n 3923458 5, p 9907546 6, n 679452 6, n 35141 3, p 4967789 6, p 2142995 4, p 8090015 5]],
    p 854678 4, none, [("Rb", 1)]⟩,
  ⟨"ig.Rb2", .ig,
    [p 298 0, p 1600 0, p 6000 0],
    [[p 3101172 5, p 3314 2, n 4321612 5, p 1322571 5, p 61 3, p 1031256 4, p 3008422 4, p 1132902 4],
     [p 2336057 5, n 1449995 6, p 283294 6, n 18772 6, p 1483354 5, p 1311956 4, p 3250767 4, p 1132902 4]],
    p 1709356 4, none, [("Rb", 2)]⟩,
  ⟨"ig.S3", .ig,
    [p 298 0, p 6000 0],
    [[p 5378072 5, p 4351569 6, n 3 6, n 5 6, n 650185 6, n 1840881 5, p 3296465 4, p 0 0]],
    p 96195 3, none, [("S", 3)]⟩,
  ⟨"ig.S4", .ig,
    [p 298 0, p 6000 0],
    [[p 7988051 5, p 3276394 6, n 1 4, p 1 5, n 1179851 6, n 2791929 5, p 3997013 4, p 0 0]],
    p 12826 2, none, [("S", 4)]⟩,
  ⟨"ig.S5", .ig,
    [p 298 0, p 6000 0],
    [[p 1069347 4, p 1058453 6, p 37 6, n 3 6, n 15778 4, n 3722137 5, p 4288558 4, p 0 0]],
    p 160325 3, none, [("S", 5)]⟩,
  ⟨"ig.S6", .ig,
    [p 298 0, p 6000 0],
    [[p 1321307 4, p 502373 6, n 86 6, p 7 6, n 1840952 6, n 4559179 5, p 5034691 4, p 0 0]],
    p 19239 2, none, [("S", 6)]⟩,
  ⟨"ig.S7", .ig,
    [p 298 0, p 6000 0],
    [[p 1549674 4, p 2564655 6, p 48 6, n 5 6, n 1976092 6, n 5294559 5, p 5833291 4, p 0 0]],
    p 224455 3, none, [("S", 7)]⟩,
  ⟨"ig.Al+", .ig2,
    [p 29815 2, p 1000 0, p 6000 0],
    [[p 25 1, p 0 0, p 0 0, p 0 0, p 0 0, p 109028141 3, p 379100586 8],
     [p 251215337 8, n 2610113 11, p 190360463 16, n 568881493 20, p 600529995 24, p 109023995 3, p 372538261 8]],
    p 2698099 5, some (p 100000 0), [("Al", 1), ("e", -1)]⟩,
  ⟨"ig.Al-", .ig2,
    [p 29815 2, p 1000 0, p 6000 0],
    [[p 264731898 8, n 720371592 12, p 102539612 14, n 351118197 19, n 238932974 21, p 330049252 4, p 530876665 8],
     [p 218963489 8, p 803446211 12, n 379389535 15, p 690059853 19, n 439884116 23, p 33096026 3, p 755557187 8]],
    p 2698209 5, some (p 100000 0), [("Al", 1), ("e", 1)]⟩,
  ⟨"ig.Al", .ig2,
    [p 200 0, p 1000 0, p 6000 0],
    [[p 311112433 8, n 35938231 10, p 814749313 14, n 808808966 17, p 293132463 20, p 38828339 3, p 284045724 8],
     [p 253385701 8, n 465859492 13, p 282798048 16, n 854362013 20, p 102207983 23, p 389045662 4, p 537984173 8]],
    p 2698154 5, some (p 100000 0), [("Al", 1)]⟩,
  ⟨"ig.Al2", .ig2,
    [p 300 0, p 1000 0, p 5000 0],
    [[p 18094481 7, p 15936502 9, n 27250258 12, p 1987112 14, n 53684046 19, p 57531134 3, p 140720808 7],
     [p 58158062 7, n 13250537 10, p 60751886 14, n 10692419 17, p 70611409 22, p 56789047 3, n 495471063 8]],
    p 5396308 5, some (p 100000 0), [("Al", 2)]⟩,
  ⟨"ig.Al2Br6", .ig2,
    [p 300 0, p 1000 0, p 5000 0],
    [[p 14185979 6, p 34452506 9, n 62522437 12, p 52173238 15, n 16482709 18, n 11802525 2, n 22929106 6],
     [p 21274331 6, p 83939635 11, n 37594778 14, p 7417011 17, n 53728551 22, n 11929325 2, n 5610682 5]],
    p 53338708 5, some (p 100000 0), [("Al", 2), ("Br", 6)]⟩,
  ⟨"ig.Al2Cl6", .ig2,
    [p 300 0, p 1000 0, p 5000 0],
    [[p 10509198 6, p 49077436 9, n 87208726 12, p 71723432 15, n 22424328 18, n 16051784 2, n 140840671 7],
     [p 20794003 6, p 13914247 10, n 62213671 14, p 12259377 17, n 88727585 22, n 16240472 2, n 624731881 7]],
    p 26667928 5, some (p 100000 0), [("Al", 2), ("Cl", 6)]⟩,
  ⟨"ig.Al2F6", .ig2,
    [p 300 0, p 1000 0, p 5000 0],
    [[p 31618118 7, p 6889889 8, n 1096586 10, p 83293342 15, n 24561049 18, n 31994248 2, p 12212564 6],
     [p 18829846 6, p 3620223 9, n 16085552 13, p 31566252 17, n 22780287 21, n 3231511 1, n 63240079 6]],
    p 1679535 4, some (p 100000 0), [("Al", 2), ("F", 6)]⟩]

/-- `ig.Al2I6` .. `ig.AlClF+` (`data/ig2`). -/
def gases18 : List File := [
  ⟨"ig.Al2I6", .ig2,
    [p 300 0, p 1000 0, p 5000 0],
    [[p 16225498 6, p 25938439 9, n 47642352 12, p 40083685 15, n 12737184 18, n 64519497 3, n 265404143 7],
     [p 21503191 6, p 57594193 11, n 25839028 14, p 51045977 18, n 37017738 22, n 65449131 3, n 511660663 7]],
    p 8153899 4, some (p 100000 0), [("Al", 2), ("I", 6)]⟩,
  ⟨"ig.Al2O+", .ig2,
    [p 300 0, p 1000 0, p 5000 0],
    [[p 41045736 7, p 11978351 9, n 18522589 12, p 13756691 15, n 39867423 19, p 76852703 3, p 510257248 8],
     [p 68797855 7, p 70749877 11, n 31419244 14, p 61640983 18, n 44478698 22, p 76270756 3, n 833181442 8]],
    p 6996193 5, some (p 100000 0), [("Al", 2), ("O", 1), ("e", -1)]⟩,
  ⟨"ig.Al2O", .ig2,
    [p 300 0, p 1000 0, p 5000 0],
    [[p 40732656 7, p 11307613 9, n 16565162 12, p 11784284 15, n 33005503 19, n 1905423 2, p 440834831 8],
     [p 67720627 7, p 82550092 11, n 36291001 14, p 695313 16, n 47345211 22, n 19643197 3, n 877233129 8]],
    p 6996248 5, some (p 100000 0), [("Al", 2), ("O", 1)]⟩,
  ⟨"ig.Al2O2+", .ig2,
    [p 300 0, p 1000 0, p 5000 0],
    [[p 33421904 7, p 28111249 9, n 49547178 12, p 40509752 15, n 1261031 17, p 66362506 3, p 929024167 8],
     [p 92751693 7, p 83587223 11, n 37361608 14, p 73605168 18, n 53262794 22, p 65264068 3, n 186772586 7]],
    p 8596133 5, some (p 100000 0), [("Al", 2), ("O", 2), ("e", -1)]⟩,
  ⟨"ig.Al2O2", .ig2,
    [p 300 0, p 1000 0, p 5000 0],
    [[p 27596411 7, p 29997599 9, n 52190497 12, p 42282686 15, n 1307536 17, n 49226032 3, p 11100772 6],
     [p 91590976 7, p 96853927 11, n 43258513 14, p 8517884 17, n 6161537 21, n 50428059 3, n 19156468 6]],
    p 8596188 5, some (p 100000 0), [("Al", 2), ("O", 2)]⟩,
  ⟨"ig.AlBO2", .ig2,
    [p 300 0, p 1000 0, p 5000 0],
    [[p 23087234 7, p 18890539 9, n 20633348 12, p 10251324 15, n 16941283 19, n 66482167 3, p 144770185 7],
     [p 71722995 7, p 29780741 10, n 12431107 13, p 23188779 17, n 16041208 21, n 67683682 3, n 998173976 8]],
    p 6979134 5, some (p 100000 0), [("Al", 1), ("B", 1), ("O", 2)]⟩,
  ⟨"ig.AlBr", .ig2,
    [p 300 0, p 1000 0, p 5000 0],
    [[p 34900611 7, p 45476797 10, n 81935578 13, p 68666152 16, n 21765058 19, p 72945306 5, p 788664757 8],
     [p 43822424 7, p 21200707 11, n 70764447 15, p 10659018 18, p 14830266 23, p 57616849 5, p 373910857 8]],
    p 10688554 5, some (p 100000 0), [("Al", 1), ("Br", 1)]⟩,
  ⟨"ig.AlBr3", .ig2,
    [p 300 0, p 1000 0, p 5000 0],
    [[p 62537206 7, p 16080217 9, n 28659758 12, p 23616076 15, n 73931314 19, n 51735211 3, p 268365807 8],
     [p 9615059 6, p 44468546 11, n 19902983 14, p 39251818 18, n 28427975 22, n 52349544 3, n 13119109 6]],
    p 26669354 5, some (p 100000 0), [("Al", 1), ("Br", 3)]⟩,
  ⟨"ig.AlCl+", .ig2,
    [p 300 0, p 1000 0, p 5000 0],
    [[p 28698352 7, p 66534586 10, n 11327707 12, p 90702974 16, n 2779464 18, p 10259741 2, p 100199526 7],
     [p 46284965 7, n 34750535 11, p 22997351 14, n 24279798 18, n 26440544 23, p 10220447 2, p 143039989 8]],
    p 6243369 5, some (p 100000 0), [("Al", 1), ("Cl", 1), ("e", -1)]⟩,
  ⟨"ig.AlCl", .ig2,
    [p 300 0, p 1000 0, p 5000 0],
    [[p 31222286 7, p 59280474 10, n 10415832 12, p 85551065 16, n 2672238 18, n 73075839 4, p 825335614 8],
     [p 43395271 7, p 24838874 11, n 82921852 15, p 12342319 18, n 23755818 24, n 75281081 4, p 253729424 8]],
    p 6243424 5, some (p 100000 0), [("Al", 1), ("Cl", 1)]⟩,
  ⟨"ig.AlCl2+", .ig2,
    [p 300 0, p 1000 0, p 5000 0],
    [[p 43561128 7, p 12640612 9, n 2155406 11, p 17222753 15, n 52744473 19, p 56169736 3, p 449304738 8],
     [p 70954577 7, p 4652547 10, n 20766479 14, p 40879906 18, n 29568914 22, p 55643775 3, n 851809862 8]],
    p 9788639 5, some (p 100000 0), [("Al", 1), ("Cl", 2), ("e", -1)]⟩,
  ⟨"ig.AlCl2-", .ig2,
    [p 300 0, p 1000 0, p 5000 0],
    [[p 42510946 7, p 11968562 9, n 21538229 12, p 1786923 14, n 56220753 19, n 59513061 3, p 739326185 8],
     [p 67125618 7, p 34656836 11, n 15884354 14, p 29950063 18, n 16544815 22, n 59954257 3, n 413632915 8]],
    p 9788749 5, some (p 100000 0), [("Al", 1), ("Cl", 2), ("e", 1)]⟩,
  ⟨"ig.AlCl2", .ig2,
    [p 300 0, p 1000 0, p 5000 0],
    [[p 39336741 7, p 12928918 9, n 22767992 12, p 18605515 15, n 57900279 19, n 35296619 3, p 940186676 8],
     [p 66414133 7, p 43391907 11, n 20342456 14, p 40900135 18, n 27209375 22, n 35794689 3, n 334843904 8]],
    p 9788694 5, some (p 100000 0), [("Al", 1), ("Cl", 2)]⟩,
  ⟨"ig.AlCl2F", .ig2,
    [p 300 0, p 1000 0, p 5000 0],
    [[p 42551664 7, p 22016789 9, n 36276986 12, p 28274842 15, n 85011095 19, n 97088887 3, p 802488765 8],
     [p 91476067 7, p 97669159 11, n 43488676 14, p 85464075 18, n 61739474 22, n 98060287 3, n 153791197 7]],
    p 11688534 5, some (p 100000 0), [("Al", 1), ("Cl", 2), ("F", 1)]⟩,
  ⟨"ig.AlCl3", .ig2,
    [p 300 0, p 1000 0, p 5000 0],
    [[p 49132665 7, p 21031864 9, n 36546931 12, p 29586812 15, n 91451005 19, n 72441056 3, p 494299604 8],
     [p 94041083 7, p 68641872 11, n 3066385 13, p 60391509 18, n 43693574 22, n 73285813 3, n 162963831 7]],
    p 13333964 5, some (p 100000 0), [("Al", 1), ("Cl", 3)]⟩,
  ⟨"ig.AlClF+", .ig2,
    [p 300 0, p 1000 0, p 5000 0],
    [[p 37341292 7, p 13889043 9, n 22222539 12, p 16937683 15, n 50061342 19, p 31647755 3, p 666914747 8],
     [p 68835905 7, p 70509366 11, n 31366088 14, p 6160731 17, n 44490537 22, p 3100599 2, n 848211353 8]],
    p 8143209 5, some (p 100000 0), [("Al", 1), ("Cl", 1), ("F", 1), ("e", -1)]⟩]

/-- `ig.AlClF` .. `ig.AlI` (`data/ig2`). -/
def gases19 : List File := [
  ⟨"ig.AlClF", .ig2,
    [p 300 0, p 1000 0, p 5000 0],
    [[p 32175968 7, p 14524549 9, n 23922488 12, p 18621609 15, n 55903667 19, n 60305508 3, p 122718185 7],
     [p 64262622 7, p 67861168 11, n 31186392 14, p 62142379 18, n 42519573 22, n 60938769 3, n 306227076 8]],
    p 8143264 5, some (p 100000 0), [("Al", 1), ("Cl", 1), ("F", 1)]⟩,
  ⟨"ig.AlClF2", .ig2,
    [p 300 0, p 1000 0, p 5000 0],
    [[p 34905245 7, p 23410622 9, n 36730802 12, p 27577485 15, n 80570874 19, n 12197857 2, p 103598344 7],
     [p 88674544 7, p 12933319 10, n 57468796 14, p 11278419 17, n 81398154 22, n 1230925 1, n 156007846 7]],
    p 10043105 5, some (p 100000 0), [("Al", 1), ("Cl", 1), ("F", 2)]⟩,
  ⟨"ig.AlClO", .ig2,
    [p 300 0, p 1000 0, p 5000 0],
    [[p 32444409 7, p 14117005 9, n 19322038 12, p 11962798 15, n 2706918 18, n 43312343 3, p 800537211 8],
     [p 678052 5, p 79662822 11, n 34233355 14, p 65022648 18, n 45519197 22, n 44080832 3, n 930014039 8]],
    p 7843364 5, some (p 100000 0), [("Al", 1), ("Cl", 1), ("O", 1)]⟩,
  ⟨"ig.AlF+", .ig2,
    [p 300 0, p 1000 0, p 5000 0],
    [[p 27253053 7, p 48120313 10, n 54411719 13, p 27439084 16, n 35875192 20, p 82250468 3, p 972336109 8],
     [p 33522186 7, p 13103867 10, n 14318383 14, n 4544233 17, p 73420749 22, p 822325 1, p 708370839 8]],
    p 4597939 5, some (p 100000 0), [("Al", 1), ("F", 1), ("e", -1)]⟩,
  ⟨"ig.AlF", .ig2,
    [p 300 0, p 1000 0, p 5000 0],
    [[p 26472925 7, p 60822686 10, n 85963429 13, p 58979837 16, n 15886765 19, n 3294926 2, p 931391243 8],
     [p 41261395 7, p 46268054 11, n 17477733 14, p 30015484 18, n 15328841 22, n 33275938 3, p 206640743 8]],
    p 4597994 5, some (p 100000 0), [("Al", 1), ("F", 1)]⟩,
  ⟨"ig.AlF2+", .ig2,
    [p 300 0, p 1000 0, p 5000 0],
    [[p 31239176 7, p 14523056 9, n 21315443 12, p 15156133 15, n 42374096 19, p 96545072 4, p 747417645 8],
     [p 65925394 7, p 10319489 10, n 4573944 13, p 89620599 18, n 64609825 22, p 88991943 4, n 945969765 8]],
    p 649778 4, some (p 100000 0), [("Al", 1), ("F", 2), ("e", -1)]⟩,
  ⟨"ig.AlF2-", .ig2,
    [p 300 0, p 1000 0, p 5000 0],
    [[p 2671535 6, p 15601944 9, n 24419322 12, p 18253169 15, n 53064775 19, n 1105086 1, p 123382337 7],
     [p 62666745 7, p 83711172 11, n 36840021 14, p 70150477 18, n 46876298 22, n 1112529 1, n 502117966 8]],
    p 6497889 5, some (p 100000 0), [("Al", 1), ("F", 2), ("e", 1)]⟩,
  ⟨"ig.AlF2", .ig2,
    [p 300 0, p 1000 0, p 5000 0],
    [[p 27408465 7, p 14466745 9, n 21520619 12, p 15411989 15, n 43229797 19, n 84834594 3, p 126766818 7],
     [p 615793 5, p 98132287 11, n 44535028 14, p 8820596 17, n 61262255 22, n 85566479 3, n 395119233 8]],
    p 6497835 5, some (p 100000 0), [("Al", 1), ("F", 2)]⟩,
  ⟨"ig.AlF2O-", .ig2,
    [p 300 0, p 1000 0, p 5000 0],
    [[p 29197597 7, p 24094013 9, n 36080944 12, p 26067848 15, n 73808379 19, n 15918152 2, p 118310822 7],
     [p 86142786 7, p 15784596 10, n 70029115 14, p 13729212 17, n 99013985 22, n 16040336 2, n 158792508 7]],
    p 8097829 5, some (p 100000 0), [("Al", 1), ("F", 2), ("O", 1), ("e", 1)]⟩,
  ⟨"ig.AlF2O", .ig2,
    [p 300 0, p 1000 0, p 5000 0],
    [[p 3087409 6, p 23833239 9, n 36062983 12, p 26268919 15, n 7485676 18, n 1350654 1, p 118936718 7],
     [p 88205622 7, p 12548694 10, n 54524465 14, p 1203686 16, n 96483599 22, n 13630668 2, n 160428722 7]],
    p 8097775 5, some (p 100000 0), [("Al", 1), ("F", 2), ("O", 1)]⟩,
  ⟨"ig.AlF3", .ig2,
    [p 200 0, p 1000 0, p 6000 0],
    [[p 310285412 8, p 223455765 10, n 31458869 12, p 211582073 16, n 553896073 20, n 147126797 3, p 101597069 7],
     [p 872897229 8, p 131428559 11, n 517599581 15, p 886782789 19, n 552837363 23, n 14839033 2, n 175036661 7]],
    p 8397675 5, some (p 100000 0), [("Al", 1), ("F", 3)]⟩,
  ⟨"ig.AlF4-", .ig2,
    [p 300 0, p 1000 0, p 5000 0],
    [[p 25878593 7, p 39930441 9, n 65736914 12, p 51163055 15, n 15358695 18, n 24159649 2, p 11301577 6],
     [p 11471451 6, p 17525786 10, n 78064227 14, p 15344474 17, n 11086374 21, n 24336036 2, n 31198075 6]],
    p 1029757 4, some (p 100000 0), [("Al", 1), ("F", 4), ("e", 1)]⟩,
  ⟨"ig.AlF4Li", .ig2,
    [p 300 0, p 1000 0, p 5000 0],
    [[p 25403421 7, p 51985881 9, n 86188031 12, p 67496816 15, n 20367509 18, n 22535767 2, p 12571932 6],
     [p 14037742 6, p 22482642 10, n 10010002 13, p 19670249 17, n 14208886 21, n 22762757 2, n 42360148 6]],
    p 10991615 5, some (p 100000 0), [("Al", 1), ("F", 4), ("Li", 1)]⟩,
  ⟨"ig.AlF4Na", .ig2,
    [p 300 0, p 1000 0, p 5000 0],
    [[p 43052145 7, p 44968034 9, n 74323787 12, p 58080861 15, n 17499556 18, n 22414988 2, p 637184599 8],
     [p 14271553 6, p 19800191 10, n 88151484 14, p 17322148 17, n 12512915 21, n 22612347 2, n 41275518 6]],
    p 12596492 5, some (p 100000 0), [("Al", 1), ("F", 4), ("Na", 1)]⟩,
  ⟨"ig.AlFO", .ig2,
    [p 300 0, p 1000 0, p 5000 0],
    [[p 20391461 7, p 18948762 9, n 2897877 11, p 21360941 15, n 61579873 19, n 71182333 3, p 123865982 7],
     [p 64521622 7, p 11926595 10, n 52893137 14, p 10367811 17, n 74765367 22, n 72116363 3, n 901812781 8]],
    p 6197934 5, some (p 100000 0), [("Al", 1), ("F", 1), ("O", 1)]⟩,
  ⟨"ig.AlI", .ig2,
    [p 200 0, p 1000 0, p 6000 0],
    [[p 337619386 8, p 620358 8, n 133437988 13, p 12897804 15, n 459262508 20, p 698468944 5, p 920980277 8],
     [p 430067835 8, p 394526798 12, n 194717877 15, p 431766594 19, n 250995942 23, p 687733839 5, p 51955499 7]],
    p 15388601 5, some (p 100000 0), [("Al", 1), ("I", 1)]⟩]

/-- `ig.AlI3` .. `ig.B2O2` (`data/ig2`). -/
def gases20 : List File := [
  ⟨"ig.AlI3", .ig2,
    [p 300 0, p 1000 0, p 5000 0],
    [[p 69761298 7, p 13212778 9, n 23829073 12, p 19796393 15, n 62336276 19, n 25741585 3, p 214766716 8],
     [p 97092496 7, p 33664692 11, n 15094854 14, p 29813158 18, n 21617994 22, n 26233996 3, n 106639943 7]],
    p 40769495 5, some (p 100000 0), [("Al", 1), ("I", 3)]⟩,
  ⟨"ig.AlN", .ig2,
    [p 300 0, p 1000 0, p 5000 0],
    [[p 2644865 6, p 65416876 10, n 98625339 13, p 71882323 16, n 20444845 19, p 61897382 3, p 108478644 7],
     [p 41450468 7, p 48560962 11, n 20126409 14, p 41259488 18, n 28854308 22, p 6158324 2, p 358234298 8]],
    p 4098828 5, some (p 100000 0), [("Al", 1), ("N", 1)]⟩,
  ⟨"ig.AlO+", .ig2,
    [p 300 0, p 1000 0, p 5000 0],
    [[p 29414434 7, p 52592168 10, n 73439073 13, p 53316783 16, n 15783336 19, p 11837469 2, p 973538252 8],
     [p 41908467 7, p 69358198 11, n 34459999 14, p 76172327 18, n 590324 20, p 11807439 2, p 352951982 8]],
    p 4298039 5, some (p 100000 0), [("Al", 1), ("O", 1), ("e", -1)]⟩,
  ⟨"ig.AlO-", .ig2,
    [p 300 0, p 1000 0, p 5000 0],
    [[p 27226754 7, p 49475518 10, n 57571754 13, p 314244 14, n 64152832 20, n 33391296 3, p 883631372 8],
     [p 40380555 7, p 5583711 10, n 21888665 14, p 38533024 18, n 2109555 21, n 33710089 3, p 224480652 8]],
    p 4298149 5, some (p 100000 0), [("Al", 1), ("O", 1), ("e", 1)]⟩,
  ⟨"ig.AlO", .ig2,
    [p 300 0, p 1000 0, p 5000 0],
    [[p 28116103 7, p 39584261 10, n 33695304 13, p 67330497 17, p 40089455 20, p 70655037 4, p 920895753 8],
     [p 33139064 7, p 10452421 10, p 27485533 14, n 17928606 17, p 19987813 21, p 70943336 4, p 720963423 8]],
    p 4298094 5, some (p 100000 0), [("Al", 1), ("O", 1)]⟩,
  ⟨"ig.AlO2-", .ig2,
    [p 300 0, p 1000 0, p 5000 0],
    [[p 30812038 7, p 13039654 9, n 17119922 12, p 109787 13, n 2794212 18, n 60206203 3, p 750156686 8],
     [p 63687482 7, p 1279203 9, n 56503991 14, p 11046379 17, n 79512442 22, n 60972009 3, n 879879504 8]],
    p 5898089 5, some (p 100000 0), [("Al", 1), ("O", 2), ("e", 1)]⟩,
  ⟨"ig.AlO2", .ig2,
    [p 300 0, p 1000 0, p 5000 0],
    [[p 32545148 7, p 14275844 9, n 21103248 12, p 15056259 15, n 42142614 19, n 11812582 3, p 830255493 8],
     [p 66064641 7, p 10802252 10, n 52229344 14, p 1132422 16, n 85290968 22, n 12532432 3, n 801717587 8]],
    p 5898034 5, some (p 100000 0), [("Al", 1), ("O", 2)]⟩,
  ⟨"ig.AlS", .ig2,
    [p 200 0, p 1000 0, p 6000 0],
    [[p 271455183 8, p 731180725 11, n 126528925 13, p 101796165 16, n 287613387 20, p 276434914 4, p 105669599 7],
     [p 198171118 8, p 397526437 11, n 149428858 14, p 22636587 17, n 121036384 22, p 282405754 4, p 159882273 7]],
    p 5904754 5, some (p 100000 0), [("Al", 1), ("S", 1)]⟩,
  ⟨"ig.Ar+", .ig2,
    [p 29815 2, p 1000 0, p 6000 0],
    [[p 259316097 8, n 132892944 11, p 526503944 14, n 597956691 17, p 218967862 20, p 182878368 3, p 544980575 8],
     [p 286999547 8, n 142547242 12, p 936688776 17, p 292580859 20, n 358247941 24, p 182702617 3, p 35322998 7]],
    p 3994745 5, some (p 100000 0), [("Ar", 1), ("e", -1)]⟩,
  ⟨"ig.Ar", .ig2,
    [p 200 0, p 1000 0, p 6000 0],
    [[p 25 1, p 0 0, p 0 0, p 0 0, p 0 0, n 745375 3, p 437967491 8],
     [p 25 1, p 0 0, p 0 0, p 0 0, p 0 0, n 745375 3, p 437967491 8]],
    p 39948 3, some (p 100000 0), [("Ar", 1)]⟩,
  ⟨"ig.B+", .ig2,
    [p 29815 2, p 1000 0, p 6000 0],
    [[p 25 1, p 0 0, p 0 0, p 0 0, p 0 0, p 16363196 2, p 241907708 8],
     [p 251207118 8, n 260008491 13, p 190411755 16, n 571840071 20, p 606893037 24, p 163627851 3, p 235392699 8]],
    p 1081045 5, some (p 100000 0), [("B", 1), ("e", -1)]⟩,
  ⟨"ig.B-", .ig2,
    [p 29815 2, p 1000 0, p 6000 0],
    [[p 250120271 8, n 573427208 14, p 109670435 16, n 950303533 20, p 308935774 23, p 626415806 4, p 461078138 8],
     [p 250007592 8, n 817294256 16, p 329965783 19, n 574649652 23, p 362366056 27, p 626417693 4, p 461598593 8]],
    p 1081155 5, some (p 100000 0), [("B", 1), ("e", 1)]⟩,
  ⟨"ig.B", .ig2,
    [p 200 0, p 1000 0, p 6000 0],
    [[p 251054099 8, n 623801328 13, p 142178099 15, n 141697796 18, p 515018749 22, p 666053894 4, p 416367209 8],
     [p 249860273 8, p 140267322 14, p 109458278 17, n 120006414 20, p 243121994 24, p 666075914 4, p 421887979 8]],
    p 10811 3, some (p 100000 0), [("B", 1)]⟩,
  ⟨"ig.B2", .ig2,
    [p 200 0, p 1000 0, p 6000 0],
    [[p 379099744 8, n 587536359 11, p 300514162 13, n 391439173 16, p 160419428 19, p 987229998 4, p 343463203 8],
     [p 523869155 8, n 523607507 12, p 169704978 15, n 206549042 19, p 941435925 24, p 979873828 4, n 600742217 8]],
    p 21622 3, some (p 100000 0), [("B", 2)]⟩,
  ⟨"ig.B2O", .ig2,
    [p 300 0, p 1000 0, p 5000 0],
    [[p 3529473 6, p 31993826 10, p 30329257 13, n 57491255 16, p 22847349 19, p 10363201 3, p 623963143 8],
     [p 47300538 7, p 23941486 10, n 10008324 13, p 1869751 16, n 12953672 21, p 98853354 4, n 635851289 9]],
    p 376214 4, some (p 100000 0), [("B", 2), ("O", 1)]⟩,
  ⟨"ig.B2O2", .ig2,
    [p 300 0, p 1000 0, p 5000 0],
    [[p 36807078 7, p 15361132 9, n 18606097 12, p 12171451 15, n 32411018 19, n 56486647 3, p 435612734 8],
     [p 69938574 7, p 35940393 10, n 14753611 13, p 27225124 17, n 18695996 21, n 57296178 3, n 121677771 7]],
    p 536208 4, some (p 100000 0), [("B", 2), ("O", 2)]⟩]

/-- `ig.B2O3` .. `ig.BF2` (`data/ig2`). -/
def gases21 : List File := [
  ⟨"ig.B2O3", .ig2,
    [p 300 0, p 1000 0, p 5000 0],
    [[p 36608837 7, p 20262076 9, n 21947338 12, p 12253004 15, n 27038402 19, n 10236524 2, p 810622068 8],
     [p 83994106 7, p 47436338 10, n 19552304 13, p 36187749 17, n 24907232 21, n 10357158 2, n 158100009 7]],
    p 696202 4, some (p 100000 0), [("B", 2), ("O", 3)]⟩,
  ⟨"ig.B3Cl3O3", .ig2,
    [p 300 0, p 1000 0, p 5000 0],
    [[p 40444983 7, p 54260597 9, n 55750761 12, p 22223128 15, n 14181295 19, n 19941632 2, p 905672255 8],
     [p 19282564 6, p 63172581 10, n 27242926 13, p 5204791 16, n 3667779 20, n 20320883 2, n 678851521 7]],
    p 1867893 4, some (p 100000 0), [("B", 3), ("Cl", 3), ("O", 3)]⟩,
  ⟨"ig.B3F3O3", .ig2,
    [p 300 0, p 1000 0, p 5000 0],
    [[p 30798861 7, p 45636592 9, n 33098826 12, p 25538839 16, p 44358761 19, n 28712213 2, p 114753917 7],
     [p 16858616 6, p 88685754 10, n 37881058 13, p 71870401 17, n 50376917 21, n 29093104 2, n 598587523 7]],
    p 13742641 5, some (p 100000 0), [("B", 3), ("F", 3), ("O", 3)]⟩,
  ⟨"ig.BBeO2", .ig2,
    [p 300 0, p 1000 0, p 5000 0],
    [[p 2006912 6, p 18044824 9, n 16917581 12, p 60865373 16, n 17276285 20, n 59234197 3, p 158055571 7],
     [p 69108376 7, p 32668684 10, n 1367812 12, p 25576211 17, n 17727741 21, n 60505715 3, n 916165805 8]],
    p 5182198 5, some (p 100000 0), [("B", 1), ("Be", 1), ("O", 2)]⟩,
  ⟨"ig.BCl+", .ig2,
    [p 300 0, p 1000 0, p 5000 0],
    [[p 28124197 7, p 46006392 10, n 48119962 13, p 19672216 16, n 13837802 20, p 14744849 2, p 915668245 8],
     [p 41060888 7, p 4727417 10, n 17928584 14, p 32416137 18, n 20545758 22, p 14713097 2, p 264272945 8]],
    p 4626315 5, some (p 100000 0), [("B", 1), ("Cl", 1), ("e", -1)]⟩,
  ⟨"ig.BCl", .ig2,
    [p 300 0, p 1000 0, p 5000 0],
    [[p 28364463 7, p 44368812 10, n 43887522 13, p 15161078 16, p 32646195 21, p 16001361 3, p 834533209 8],
     [p 41020571 7, p 48659193 11, n 18864326 14, p 35833342 18, n 25099069 22, p 15687958 3, p 195525119 8]],
    p 462637 4, some (p 100000 0), [("B", 1), ("Cl", 1)]⟩,
  ⟨"ig.BCl2+", .ig2,
    [p 300 0, p 1000 0, p 5000 0],
    [[p 42704931 7, p 10603791 9, n 14229838 12, p 85372831 16, n 18349671 19, p 79436016 3, p 407645069 8],
     [p 69266627 7, p 67777633 11, n 32101496 14, p 68344422 18, n 50073592 22, p 78857822 3, n 893462661 8]],
    p 8171585 5, some (p 100000 0), [("B", 1), ("Cl", 2), ("e", -1)]⟩,
  ⟨"ig.BCl2-", .ig2,
    [p 300 0, p 1000 0, p 5000 0],
    [[p 32358791 7, p 11690219 9, n 14778259 12, p 82181546 16, n 15657913 19, n 18981815 3, p 106900104 7],
     [p 63518218 7, p 77028848 11, n 44699863 14, p 13831178 17, n 13221995 21, n 19705432 3, n 477472073 8]],
    p 8171695 5, some (p 100000 0), [("B", 1), ("Cl", 2), ("e", 1)]⟩,
  ⟨"ig.BCl2", .ig2,
    [p 300 0, p 1000 0, p 5000 0],
    [[p 32974786 7, p 12082576 9, n 16123755 12, p 96265856 16, n 20599199 19, n 10956537 3, p 110425333 7],
     [p 64459838 7, p 57927948 11, n 26049705 14, p 63596358 18, n 53982215 22, n 11661304 3, n 446086977 8]],
    p 817164 4, some (p 100000 0), [("B", 1), ("Cl", 2)]⟩,
  ⟨"ig.BCl3", .ig2,
    [p 300 0, p 1000 0, p 5000 0],
    [[p 37395265 7, p 18105813 9, n 21340461 12, p 10828335 15, n 17325967 19, n 50214609 3, p 905312747 8],
     [p 8598538 6, p 15531923 10, n 67000602 14, p 12789112 17, n 90000059 22, n 51357071 3, n 151584297 7]],
    p 1171691 4, some (p 100000 0), [("B", 1), ("Cl", 3)]⟩,
  ⟨"ig.BClF", .ig2,
    [p 300 0, p 1000 0, p 5000 0],
    [[p 33120234 7, p 74198763 10, n 43485949 13, n 11374057 16, p 1376389 18, n 39017548 3, p 109483563 7],
     [p 57076757 7, p 14100203 10, n 60114137 14, p 11367044 17, n 79368063 22, n 39693327 3, n 153503838 8]],
    p 652621 4, some (p 100000 0), [("B", 1), ("Cl", 1), ("F", 1)]⟩,
  ⟨"ig.BClO", .ig2,
    [p 300 0, p 1000 0, p 5000 0],
    [[p 32705321 7, p 1022775 8, n 12070163 12, p 72025562 16, n 16914738 19, n 39378208 3, p 734930225 8],
     [p 57135566 7, p 18664689 10, n 77487898 14, p 14398572 17, n 99317745 22, n 39977353 3, n 488040355 8]],
    p 622631 4, some (p 100000 0), [("B", 1), ("Cl", 1), ("O", 1)]⟩,
  ⟨"ig.BF", .ig2,
    [p 300 0, p 1000 0, p 5000 0],
    [[p 34613609 7, n 95685468 11, p 60135744 13, n 64978057 16, p 22355349 19, n 1496982 2, p 446077963 8],
     [p 35771888 7, p 10192908 10, n 41251564 14, p 77196438 18, n 53498741 22, n 15127264 3, p 326612243 8]],
    p 298094 4, some (p 100000 0), [("B", 1), ("F", 1)]⟩,
  ⟨"ig.BF2+", .ig2,
    [p 300 0, p 1000 0, p 5000 0],
    [[p 33146474 7, p 86443654 10, n 67525396 13, p 13383665 16, p 4511491 19, p 37483649 3, p 590468978 8],
     [p 58127638 7, p 18193424 10, n 77103457 14, p 14489782 17, n 99809156 22, p 36794801 3, n 700431192 8]],
    p 4880726 5, some (p 100000 0), [("B", 1), ("F", 2), ("e", -1)]⟩,
  ⟨"ig.BF2-", .ig2,
    [p 300 0, p 1000 0, p 5000 0],
    [[p 31424581 7, p 64104579 10, n 12386461 13, n 412201 14, p 23472367 19, n 97672964 3, p 922523232 8],
     [p 53100348 7, p 20020439 10, n 9723551 13, p 21641443 17, n 16640881 21, n 98336928 3, n 232776078 8]],
    p 4880835 5, some (p 100000 0), [("B", 1), ("F", 2), ("e", 1)]⟩,
  ⟨"ig.BF2", .ig2,
    [p 300 0, p 1000 0, p 5000 0],
    [[p 30309303 7, p 72411021 10, n 28250919 13, n 28920413 16, p 20046102 19, n 72151102 3, p 104457035 7],
     [p 54447457 7, p 17533211 10, n 78444474 14, p 15719859 17, n 11311071 21, n 72860367 3, n 22733192 7]],
    p 4880781 5, some (p 100000 0), [("B", 1), ("F", 2)]⟩]

/-- `ig.BF2O` .. `ig.BaCl2` (`data/ig2`). -/
def gases22 : List File := [
  ⟨"ig.BF2O", .ig2,
    [p 300 0, p 1000 0, p 5000 0],
    [[p 17445977 7, p 18693277 9, n 15246164 12, p 2655947 15, p 13798606 19, n 10186758 2, p 17353139 6],
     [p 73077233 7, p 2990362 9, n 13059617 13, p 25308242 17, n 17687333 21, n 10334576 2, n 11192416 6]],
    p 6480721 5, some (p 100000 0), [("B", 1), ("F", 2), ("O", 1)]⟩,
  ⟨"ig.BF3", .ig2,
    [p 300 0, p 1000 0, p 5000 0],
    [[p 24468244 7, p 15276312 9, n 10784617 12, p 68907502 17, p 14893187 19, n 13790135 2, p 125678211 7],
     [p 70241985 7, p 32221559 10, n 13705154 13, p 25919671 17, n 1812231 20, n 13918072 2, n 111843009 7]],
    p 6780621 5, some (p 100000 0), [("B", 1), ("F", 3)]⟩,
  ⟨"ig.BFO", .ig2,
    [p 200 0, p 1000 0, p 6000 0],
    [[p 223703738 8, p 133495496 10, n 181530614 13, p 136093676 16, n 424382397 20, n 735283735 4, p 110069411 7],
     [p 539296603 8, p 2074445 9, n 793600586 15, p 133476571 18, n 821779331 23, n 743113852 4, n 476500535 8]],
    p 458088 4, some (p 100000 0), [("B", 1), ("F", 1), ("O", 1)]⟩,
  ⟨"ig.BKO2", .ig2,
    [p 300 0, p 1000 0, p 5000 0],
    [[p 43967801 7, p 12169202 9, n 11804218 12, p 51316551 16, n 6593272 19, n 82827012 3, p 75732431 7],
     [p 75502508 7, p 25661823 10, n 10671566 13, p 19851885 17, n 13704168 21, n 83653834 3, n 84927 4]],
    p 819081 4, some (p 100000 0), [("B", 1), ("K", 1), ("O", 2)]⟩,
  ⟨"ig.BLiO2", .ig2,
    [p 300 0, p 1000 0, p 5000 0],
    [[p 37435474 7, p 14475257 9, n 15209688 12, p 74136541 16, n 12242191 19, n 79437756 3, p 801202564 8],
     [p 74266096 7, p 27043757 10, n 11284741 13, p 21062398 17, n 14584909 21, n 80370285 3, n 106007918 7]],
    p 497508 4, some (p 100000 0), [("B", 1), ("Li", 1), ("O", 2)]⟩,
  ⟨"ig.BN", .ig2,
    [p 300 0, p 1000 0, p 5000 0],
    [[p 35375065 7, n 13556586 10, p 62214189 13, n 61683269 16, p 19872461 19, p 56329743 3, p 556317675 8],
     [p 35981832 7, p 87176805 11, n 29972644 14, p 56036944 18, n 40750421 22, p 56171241 3, p 460022525 8]],
    p 2481774 5, some (p 100000 0), [("B", 1), ("N", 1)]⟩,
  ⟨"ig.BNaO2", .ig2,
    [p 300 0, p 1000 0, p 5000 0],
    [[p 40654749 7, p 13454926 9, n 13866693 12, p 66395042 16, n 10728671 19, n 79700157 3, p 793481629 8],
     [p 7496525 6, p 26309862 10, n 10979136 13, p 20493998 17, n 14193146 21, n 80578591 3, n 944630181 8]],
    p 6579957 5, some (p 100000 0), [("B", 1), ("Na", 1), ("O", 2)]⟩,
  ⟨"ig.BO", .ig2,
    [p 300 0, p 1000 0, p 5000 0],
    [[p 3729725 6, n 20878324 10, p 57362849 13, n 43894828 16, p 10916632 19, n 10618859 4, p 362554104 8],
     [p 31564956 7, p 13816589 10, n 5504963 13, p 99116678 18, n 64164546 22, n 10303422 4, p 603748954 8]],
    p 268104 4, some (p 100000 0), [("B", 1), ("O", 1)]⟩,
  ⟨"ig.BO2-", .ig2,
    [p 300 0, p 1000 0, p 5000 0],
    [[p 24916337 7, p 97470644 10, n 87640864 13, p 35802544 16, n 40611221 20, n 84641218 3, p 92268957 7],
     [p 48805169 7, p 26743651 10, n 10932194 13, p 20080873 17, n 13717769 21, n 85284324 3, n 30092764 7]],
    p 4281035 5, some (p 100000 0), [("B", 1), ("O", 2), ("e", 1)]⟩,
  ⟨"ig.BO2", .ig2,
    [p 300 0, p 1000 0, p 5000 0],
    [[p 31212048 7, p 84680883 10, n 45972278 13, n 16420021 16, p 16658233 19, n 35483307 3, p 754789163 8],
     [p 58198434 7, p 18626574 10, n 81302797 14, p 15735821 17, n 10944238 21, n 36255117 3, n 656090797 8]],
    p 428098 4, some (p 100000 0), [("B", 1), ("O", 2)]⟩,
  ⟨"ig.BS", .ig2,
    [p 300 0, p 1000 0, p 5000 0],
    [[p 31742046 7, p 98544972 11, p 27711319 13, n 43751801 16, p 17616179 19, p 28230624 3, p 75338624 7],
     [p 37068542 7, p 98682895 11, n 47495266 14, p 10654601 17, n 80519643 22, p 28012816 3, p 44246209 7]],
    p 42877 3, some (p 100000 0), [("B", 1), ("S", 1)]⟩,
  ⟨"ig.Ba", .ig2,
    [p 300 0, p 1000 0, p 5000 0],
    [[p 25038777 7, n 37803914 12, p 12914966 14, n 18400409 17, p 92934829 21, p 20792544 3, p 621674222 8],
     [p 79730545 7, n 11161215 9, p 71172147 13, n 15336673 16, p 108767 18, p 18889966 3, n 234876848 7]],
    p 137327 3, some (p 100000 0), [("Ba", 1)]⟩,
  ⟨"ig.BaBr", .ig2,
    [p 300 0, p 1000 0, p 5000 0],
    [[p 41714553 7, p 15960813 10, n 28886542 13, p 24767147 16, n 798307 18, n 14594495 3, p 838620677 8],
     [p 43689774 7, p 39075887 11, n 29901749 14, p 10641301 17, n 98416049 22, n 14617685 3, p 752526087 8]],
    p 217231 3, some (p 100000 0), [("Ba", 1), ("Br", 1)]⟩,
  ⟨"ig.BaBr2", .ig2,
    [p 300 0, p 1000 0, p 5000 0],
    [[p 63405275 7, p 30561952 10, n 57285864 13, p 48875968 16, n 15688081 19, n 53062316 3, p 431943715 8],
     [p 69502338 7, p 58066023 12, n 26195428 15, p 51992828 19, n 3785277 22, n 53166842 3, p 149002755 8]],
    p 297135 3, some (p 100000 0), [("Ba", 1), ("Br", 2)]⟩,
  ⟨"ig.BaCl", .ig2,
    [p 300 0, p 1000 0, p 5000 0],
    [[p 39781148 7, p 21803218 10, n 34342565 13, p 25182212 16, n 69058027 20, n 18366937 3, p 792426104 8],
     [p 46675238 7, n 22187251 11, p 8127068 14, p 30216962 18, n 53183301 22, n 18542142 3, p 446444204 8]],
    p 1727797 4, some (p 100000 0), [("Ba", 1), ("Cl", 1)]⟩,
  ⟨"ig.BaCl2", .ig2,
    [p 300 0, p 1000 0, p 5000 0],
    [[p 60571238 7, p 38426149 10, n 62683205 13, p 46196665 16, n 12744768 19, n 61914536 3, p 376179166 8],
     [p 69138637 7, p 98213963 12, n 43268348 15, p 83969006 19, n 59892085 23, n 62076051 3, n 305863075 9]],
    p 2082324 4, some (p 100000 0), [("Ba", 1), ("Cl", 2)]⟩]

/-- `ig.BaF+` .. `ig.BeCl2` (`data/ig2`). -/
def gases23 : List File := [
  ⟨"ig.BaF+", .ig2,
    [p 300 0, p 1000 0, p 5000 0],
    [[p 31617464 7, p 48876079 10, n 71219882 13, p 47144971 16, n 11458983 19, p 16960464 3, p 954623291 8],
     [p 64945565 7, n 41130056 10, p 25882808 13, n 50458698 17, p 3071956 20, p 15960651 3, n 788498449 8]],
    p 15632485 5, some (p 100000 0), [("Ba", 1), ("F", 1), ("e", -1)]⟩,
  ⟨"ig.BaF", .ig2,
    [p 300 0, p 1000 0, p 5000 0],
    [[p 33537506 7, p 4381958 9, n 66405929 13, p 46143229 16, n 11971518 19, n 39892956 3, p 945758926 8],
     [p 43587125 7, p 30110738 11, n 22863315 14, p 89865554 18, n 87657595 22, n 40101376 3, p 460148546 8]],
    p 1563254 4, some (p 100000 0), [("Ba", 1), ("F", 1)]⟩,
  ⟨"ig.BaF2", .ig2,
    [p 300 0, p 1000 0, p 5000 0],
    [[p 50968239 7, p 7422625 9, n 11682833 12, p 83296218 16, n 22216856 19, n 98431595 3, p 543692086 8],
     [p 67977159 7, p 22932196 11, n 10053521 14, p 19428566 18, n 13807507 22, n 98763114 3, n 269528324 8]],
    p 17532381 5, some (p 100000 0), [("Ba", 1), ("F", 2)]⟩,
  ⟨"ig.BaS", .ig2,
    [p 300 0, p 1000 0, p 5000 0],
    [[p 34816171 7, p 45658135 10, n 8272641 12, p 69372594 16, n 22000243 19, p 33636488 4, p 904422506 8],
     [p 44402587 7, p 74269398 11, n 11795681 13, p 57618638 17, n 67546324 21, p 3115982 3, p 428598436 8]],
    p 169393 3, some (p 100000 0), [("Ba", 1), ("S", 1)]⟩,
  ⟨"ig.Be+", .ig2,
    [p 29815 2, p 1000 0, p 6000 0],
    [[p 25 1, p 0 0, p 0 0, p 0 0, p 0 0, p 145893693 3, p 283922927 8],
     [p 250168976 8, n 510373647 14, p 52748109 16, n 216155049 20, p 300713026 24, p 145893277 3, p 283066847 8]],
    p 901163 5, some (p 100000 0), [("Be", 1), ("e", -1)]⟩,
  ⟨"ig.Be", .ig2,
    [p 200 0, p 1000 0, p 6000 0],
    [[p 25 1, p 0 0, p 0 0, p 0 0, p 0 0, p 38222646 3, p 214617316 8],
     [p 229438566 8, p 411669841 12, n 264730832 15, p 625681388 19, n 389281007 23, p 382958055 4, p 326731942 8]],
    p 901218 5, some (p 100000 0), [("Be", 1)]⟩,
  ⟨"ig.Be2F2O", .ig2,
    [p 300 0, p 1000 0, p 5000 0],
    [[p 48600026 7, p 19438982 9, n 1881876 11, p 71009503 16, n 37225258 20, n 14703959 2, p 324173341 8],
     [p 10311343 6, p 29258151 10, n 12481987 13, p 23652169 17, n 1655916 20, n 14844623 2, n 24487683 6]],
    p 7202057 5, some (p 100000 0), [("Be", 2), ("F", 2), ("O", 1)]⟩,
  ⟨"ig.Be2O", .ig2,
    [p 300 0, p 1000 0, p 5000 0],
    [[p 27527897 7, p 89648699 10, n 55859247 13, n 34769188 17, p 11015472 19, n 87174709 4, p 845191895 8],
     [p 54549734 7, p 21970385 10, n 92919578 14, p 1749641 16, n 12189982 21, n 94958985 4, n 567042265 8]],
    p 3402376 5, some (p 100000 0), [("Be", 2), ("O", 1)]⟩,
  ⟨"ig.Be2O2", .ig2,
    [p 300 0, p 1000 0, p 5000 0],
    [[p 17102739 7, p 18244939 9, n 14377253 12, p 21268816 16, p 14691993 19, n 50512366 3, p 152145102 7],
     [p 71783652 7, p 30796926 10, n 13162273 13, p 24970614 17, n 17496339 21, n 51984876 3, n 129255948 7]],
    p 5002316 5, some (p 100000 0), [("Be", 2), ("O", 2)]⟩,
  ⟨"ig.Be3O3", .ig2,
    [p 300 0, p 1000 0, p 5000 0],
    [[p 20002692 7, p 20005172 9, p 57517847 14, n 17092805 15, p 84862785 19, n 12826867 2, p 15620953 6],
     [p 91907322 7, p 73623701 10, n 31292729 13, p 59162589 17, n 41360194 21, n 13061849 2, n 2331688 5]],
    p 7503475 5, some (p 100000 0), [("Be", 3), ("O", 3)]⟩,
  ⟨"ig.Be4O4", .ig2,
    [p 300 0, p 1000 0, p 5000 0],
    [[n 13818438 7, p 52384828 9, n 40893018 12, p 47379707 16, p 49954164 19, n 19278356 2, p 304130661 7],
     [p 1454703 5, p 8190373 9, n 35162789 13, p 66923457 17, n 47005963 21, n 19704845 2, n 514967659 7]],
    p 10004633 5, some (p 100000 0), [("Be", 4), ("O", 4)]⟩,
  ⟨"ig.BeBr", .ig2,
    [p 300 0, p 1000 0, p 5000 0],
    [[p 26591457 7, p 67027278 10, n 10403711 12, p 77655194 16, n 22530918 19, p 13433096 3, p 10735652 6],
     [p 41943887 7, p 39939023 11, n 14838873 14, p 26762272 18, n 15626127 22, p 13115464 3, p 332294845 8]],
    p 8891618 5, some (p 100000 0), [("Be", 1), ("Br", 1)]⟩,
  ⟨"ig.BeBr2", .ig2,
    [p 300 0, p 1000 0, p 5000 0],
    [[p 46422283 7, p 90084451 10, n 12698556 12, p 87558985 16, n 23923194 19, n 29265435 3, p 430011933 8],
     [p 68344872 7, p 75429287 11, n 33368206 14, p 65302349 18, n 47041096 22, n 29757117 3, n 647179187 8]],
    p 16882018 5, some (p 100000 0), [("Be", 1), ("Br", 2)]⟩,
  ⟨"ig.BeCl+", .ig2,
    [p 300 0, p 1000 0, p 5000 0],
    [[p 28965984 7, p 51267492 10, n 64427911 13, p 3563264 15, n 65925088 20, p 11671466 2, p 783727045 8],
     [p 538275 5, n 18471198 10, p 11123683 13, n 16952994 17, p 61007091 22, p 11599717 2, n 506224135 8]],
    p 4446433 5, some (p 100000 0), [("Be", 1), ("Cl", 1), ("e", -1)]⟩,
  ⟨"ig.BeCl", .ig2,
    [p 300 0, p 1000 0, p 5000 0],
    [[p 28321987 7, p 44566764 10, n 44482161 13, p 15852587 16, p 45206894 22, p 62906248 4, p 889156051 8],
     [p 41052878 7, p 47461701 11, n 17996528 14, p 32563903 18, n 2065284 21, p 5975306 3, p 246451741 8]],
    p 4446488 5, some (p 100000 0), [("Be", 1), ("Cl", 1)]⟩,
  ⟨"ig.BeCl2", .ig2,
    [p 300 0, p 1000 0, p 5000 0],
    [[p 44927125 7, p 80535545 10, n 88319239 13, p 40897049 16, n 53498092 20, n 44952881 3, p 269582141 8],
     [p 67043191 7, p 87166468 11, n 37255053 14, p 70567006 18, n 4933536 21, n 45494558 3, n 842201229 8]],
    p 7991758 5, some (p 100000 0), [("Be", 1), ("Cl", 2)]⟩]

/-- `ig.BeClF` .. `ig.Br3Si` (`data/ig2`). -/
def gases24 : List File := [
  ⟨"ig.BeClF", .ig2,
    [p 300 0, p 1000 0, p 5000 0],
    [[p 41024381 7, p 8501749 9, n 89093963 13, p 40076232 16, n 51627539 20, n 70468736 3, p 409916281 8],
     [p 64402791 7, p 11463693 10, n 4854536 13, p 91287865 18, n 63443549 22, n 71059771 3, n 772869969 8]],
    p 6346329 5, some (p 100000 0), [("Be", 1), ("Cl", 1), ("F", 1)]⟩,
  ⟨"ig.BeF", .ig2,
    [p 300 0, p 1000 0, p 5000 0],
    [[p 32761862 7, p 25233759 11, p 40939944 13, n 5312815 15, p 199549 17, n 21445924 3, p 586499651 8],
     [p 37095295 7, p 893836 9, n 36113068 14, p 67601092 18, n 46420833 22, n 21660052 3, p 316419241 8]],
    p 2801059 5, some (p 100000 0), [("Be", 1), ("F", 1)]⟩,
  ⟨"ig.BeF2", .ig2,
    [p 300 0, p 1000 0, p 5000 0],
    [[p 35234274 7, p 93890284 10, n 95636208 13, p 42920989 16, n 57751113 20, n 97130461 3, p 488397539 8],
     [p 60457631 7, p 15629374 10, n 66108197 14, p 12447551 17, n 86716063 22, n 97779127 3, n 791788261 8]],
    p 4700899 5, some (p 100000 0), [("Be", 1), ("F", 2)]⟩,
  ⟨"ig.BeI", .ig2,
    [p 300 0, p 1000 0, p 5000 0],
    [[p 27826122 7, p 68410348 10, n 11389896 12, p 89924128 16, n 27277686 19, p 19396183 3, p 110789367 7],
     [p 42600493 7, p 34320819 11, n 12759477 14, p 24189709 18, n 14570142 22, p 19110352 3, p 40476677 7]],
    p 13591665 5, some (p 100000 0), [("Be", 1), ("I", 1)]⟩,
  ⟨"ig.BeI2", .ig2,
    [p 300 0, p 1000 0, p 5000 0],
    [[p 49373786 7, p 87404737 10, n 13114724 12, p 94928494 16, n 26926336 19, n 94616005 4, p 482951137 8],
     [p 70011262 7, p 56878872 11, n 25253755 14, p 49541054 18, n 35747204 22, n 99038859 4, n 521025523 8]],
    p 26282112 5, some (p 100000 0), [("Be", 1), ("I", 2)]⟩,
  ⟨"ig.BeN", .ig2,
    [p 300 0, p 1000 0, p 5000 0],
    [[p 31684286 7, p 10282483 10, p 27376017 13, n 43481099 16, p 17534453 19, p 50310451 3, p 666252496 8],
     [p 37855937 7, p 82386575 11, n 32711602 14, p 61551888 18, n 42809041 22, p 5006618 2, p 310558526 8]],
    p 2301892 5, some (p 100000 0), [("Be", 1), ("N", 1)]⟩,
  ⟨"ig.BeO", .ig2,
    [p 200 0, p 1000 0, p 6000 0],
    [[p 378974248 8, n 324896226 11, p 112988533 13, n 118056315 16, p 420675761 20, p 153410696 4, p 273905306 8],
     [p 566778473 8, n 407847614 11, p 341112608 14, n 821052371 18, p 613773279 22, p 14589958 3, n 8085807 6]],
    p 2501158 5, some (p 100000 0), [("Be", 1), ("O", 1)]⟩,
  ⟨"ig.BeS", .ig2,
    [p 300 0, p 1000 0, p 5000 0],
    [[p 29022538 7, p 31897413 10, n 13651825 13, n 1509271 15, p 12275929 19, p 3071076 2, p 787585064 8],
     [p 52040734 7, n 38742022 10, p 42578891 13, n 12560599 16, p 11343403 20, p 30226084 3, n 357801196 8]],
    p 4107818 5, some (p 100000 0), [("Be", 1), ("S", 1)]⟩,
  ⟨"ig.Br", .ig2,
    [p 200 0, p 1000 0, p 6000 0],
    [[p 248571711 8, p 150647525 12, n 537267333 15, p 720921065 18, n 250205558 21, p 127092168 4, p 686030804 8],
     [p 208851053 8, p 712118611 12, n 270003073 15, p 414986299 19, n 231188294 23, p 128568767 4, p 907351144 8]],
    p 79904 3, some (p 100000 0), [("Br", 1)]⟩,
  ⟨"ig.Br2", .ig2,
    [p 200 0, p 1000 0, p 6000 0],
    [[p 334331004 8, p 635230769 11, n 136418815 13, p 1317263 14, n 468373476 20, p 253515408 5, p 907940353 8],
     [p 518728187 8, n 138651104 11, p 934745153 15, n 207065391 18, p 141808517 22, p 210705678 5, p 776223394 10]],
    p 159808 3, some (p 100000 0), [("Br", 2)]⟩,
  ⟨"ig.Br2Ca", .ig2,
    [p 300 0, p 1000 0, p 5000 0],
    [[p 66057157 7, p 36058892 10, n 5831465 12, p 42634801 16, n 11667278 19, n 48382963 3, n 631052281 9],
     [p 74151639 7, p 96549013 12, n 42463816 15, p 82286865 19, n 58617057 23, n 48536824 3, n 448080162 8]],
    p 199886 3, some (p 100000 0), [("Br", 2), ("Ca", 1)]⟩,
  ⟨"ig.Br2Hg", .ig2,
    [p 300 0, p 1000 0, p 5000 0],
    [[p 67188921 7, p 25782743 10, n 29180237 13, p 95818442 17, p 13872307 20, n 12371434 3, n 413670823 9],
     [p 7422699 6, p 78687663 12, n 29910307 15, p 48498228 19, n 27930933 23, n 1252202 2, n 386733971 8]],
    p 360398 3, some (p 100000 0), [("Br", 2), ("Hg", 1)]⟩,
  ⟨"ig.Br2Mg", .ig2,
    [p 300 0, p 1000 0, p 5000 0],
    [[p 57139102 7, p 77321617 10, n 13865793 12, p 114779 13, n 36057884 19, n 38379483 3, p 186860229 8],
     [p 732151 5, p 20643725 11, n 92489208 15, p 18255838 18, n 1323117 21, n 38671304 3, n 567846591 8]],
    p 184113 3, some (p 100000 0), [("Br", 2), ("Mg", 1)]⟩,
  ⟨"ig.Br2Pb", .ig2,
    [p 300 0, p 1000 0, p 5000 0],
    [[p 63902091 7, p 2528905 9, n 41903743 13, p 31367523 16, n 87976745 20, n 14541792 3, p 381752929 8],
     [p 69472906 7, p 60199001 12, n 26556685 15, p 51596012 19, n 3683705 22, n 14645441 3, p 118015799 8]],
    p 367008 3, some (p 100000 0), [("Br", 2), ("Pb", 1)]⟩,
  ⟨"ig.Br2Si", .ig2,
    [p 300 0, p 1000 0, p 5000 0],
    [[p 46719729 7, p 10292897 9, n 18714019 12, p 156379 13, n 49456521 19, n 80039163 4, p 772665519 8],
     [p 6722477 6, p 38057929 11, n 20138589 14, p 44351172 18, n 29239651 22, n 8359298 3, n 181955711 8]],
    p 1878935 4, some (p 100000 0), [("Br", 2), ("Si", 1)]⟩,
  ⟨"ig.Br3Si", .ig2,
    [p 300 0, p 1000 0, p 5000 0],
    [[p 57729602 7, p 18371787 9, n 33019332 12, p 27367864 15, n 86038787 19, n 26554554 3, p 518627029 8],
     [p 95854968 7, p 47923846 11, n 21460595 14, p 42338269 18, n 30670794 22, n 27244506 3, n 12701308 6]],
    p 2677975 4, some (p 100000 0), [("Br", 3), ("Si", 1)]⟩]

end PyroMat.Shipped.Data
