import Verif.Shipped.Basic

/-!
# Shipped ideal-gas data, part 4

Generated by `tools/shipped.py` from `/repo/src/pyromat/data/ig/*.hpd` and `ig2/*.hpd`;
do not edit.
-/

namespace PyroMat.Shipped.Data

open PyroMat.Shipped (File)
open PyroMat.Shipped.Dec (p n)

/-- `ig.Br4Pb` .. `ig.C12H10` (`data/ig2`). -/
def gases25 : List File := [
  ⟨"ig.Br4Pb", .ig2,
    [p 300 0, p 1000 0, p 5000 0],
    [[p 11379366 6, p 66625872 10, n 10940648 12, p 81094739 16, n 22495575 19, n 58495431 3, n 15140168 6],
     [p 12856973 6, p 1632394 10, n 7197039 14, p 13975749 18, n 99736187 23, n 58772095 3, n 2214575 5]],
    p 526816 3, some (p 100000 0), [("Br", 4), ("Pb", 1)]⟩,
  ⟨"ig.Br4Si", .ig2,
    [p 300 0, p 1000 0, p 5000 0],
    [[p 76108937 7, p 23239384 9, n 41545746 12, p 34305241 15, n 10755076 18, n 52968209 3, n 309903931 8],
     [p 12456087 6, p 62844384 11, n 28128951 14, p 55474414 18, n 40175959 22, n 53850521 3, n 25860909 6]],
    p 3477015 4, some (p 100000 0), [("Br", 4), ("Si", 1)]⟩,
  ⟨"ig.BrCa", .ig2,
    [p 300 0, p 1000 0, p 5000 0],
    [[p 38511877 7, p 30271481 10, n 55097807 13, p 46764571 16, n 1495996 18, n 71837239 4, p 777803289 8],
     [p 43217363 7, p 40903674 11, n 24541531 14, p 69026874 18, n 53684196 22, n 72462732 4, p 567668059 8]],
    p 119982 3, some (p 100000 0), [("Br", 1), ("Ca", 1)]⟩,
  ⟨"ig.BrMg", .ig2,
    [p 300 0, p 1000 0, p 5000 0],
    [[p 35107285 7, p 4452851 9, n 80124075 13, p 670669 14, n 21232718 19, n 54368257 4, p 843148999 8],
     [p 44099854 7, p 16021736 11, n 41501223 15, p 59370342 19, n 48231573 24, n 55961909 4, p 422960309 8]],
    p 104209 3, some (p 100000 0), [("Br", 1), ("Mg", 1)]⟩,
  ⟨"ig.BrNa", .ig2,
    [p 300 0, p 1000 0, p 5000 0],
    [[p 3901089 6, p 25025401 10, n 38851088 13, p 28318497 16, n 77220528 20, n 18556161 3, p 618879323 8],
     [p 44433135 7, p 15783657 11, n 27989619 15, p 53849038 19, n 38094054 23, n 18659489 3, p 360858213 8]],
    p 10289377 5, some (p 100000 0), [("Br", 1), ("Na", 1)]⟩,
  ⟨"ig.BrPb", .ig2,
    [p 300 0, p 1000 0, p 5000 0],
    [[p 4190684 6, p 13411178 10, n 20978994 13, p 15510908 16, n 42617912 20, p 72369469 4, p 857477819 8],
     [p 47268766 7, n 4391839 10, p 33215582 14, n 6530724 17, p 42726112 22, p 70988959 4, p 586735159 8]],
    p 287104 3, some (p 100000 0), [("Br", 1), ("Pb", 1)]⟩,
  ⟨"ig.BrSi", .ig2,
    [p 300 0, p 1000 0, p 5000 0],
    [[p 39719788 7, p 47745279 10, n 11130684 12, p 10681202 15, n 36726383 19, p 26986304 3, p 611195719 8],
     [p 46681692 7, n 10169413 11, p 70838992 15, n 14334856 18, p 14076739 22, p 26933459 3, p 322497259 8]],
    p 1079895 4, some (p 100000 0), [("Br", 1), ("Si", 1)]⟩,
  ⟨"ig.BrSr", .ig2,
    [p 300 0, p 1000 0, p 5000 0],
    [[p 40970071 7, p 1932106 9, n 35068892 13, p 29966194 16, n 96331696 20, n 12000644 3, p 793438499 8],
     [p 43436158 7, p 39895943 11, n 25976126 14, p 79320747 18, n 6608383 21, n 12025073 3, p 687371079 8]],
    p 167524 3, some (p 100000 0), [("Br", 1), ("Sr", 1)]⟩,
  ⟨"ig.C+", .ig2,
    [p 29815 2, p 1000 0, p 6000 0],
    [[p 261523966 8, n 553783873 12, p 106348636 14, n 923756345 18, p 300774568 21, p 216862053 3, p 382652944 8],
     [p 250853519 8, n 10859927 12, p 53706921 16, n 118270596 20, p 971267564 25, p 216879493 3, p 431739655 8]],
    p 1201045 5, some (p 100000 0), [("C", 1), ("e", -1)]⟩,
  ⟨"ig.C-", .ig2,
    [p 29815 2, p 1000 0, p 6000 0],
    [[p 25 1, p 0 0, p 0 0, p 0 0, p 0 0, p 699315654 4, p 396340403 8],
     [p 25 1, p 0 0, p 0 0, p 0 0, p 0 0, p 699315654 4, p 396340403 8]],
    p 1201155 5, some (p 100000 0), [("C", 1), ("e", 1)]⟩,
  ⟨"ig.C", .ig2,
    [p 200 0, p 1000 0, p 6000 0],
    [[p 255423955 8, n 321537724 12, p 733792245 15, n 732234889 18, p 266521446 21, p 854438832 4, p 453130848 8],
     [p 260558298 8, n 195934335 12, p 106737219 15, n 16423939 18, p 818705752 24, p 854129443 4, p 419238681 8]],
    p 12011 3, some (p 100000 0), [("C", 1)]⟩,
  ⟨"ig.C10H21", .ig2,
    [p 29815 2, p 1000 0, p 5000 0],
    [[p 30897007 7, p 84117949 9, p 15901838 12, n 72387934 15, p 32266925 18, n 11614941 3, p 252811929 7],
     [p 21322128 6, p 61573524 9, n 23849483 12, p 42209116 16, n 27889307 20, n 17967809 3, n 756437801 7]],
    p 14127674 5, some (p 100000 0), [("C", 10), ("H", 21)]⟩,
  ⟨"ig.C10H8", .ig2,
    [p 200 0, p 1000 0, p 6000 0],
    [[n 104919326 8, p 462970611 10, p 707592203 13, n 138408186 15, p 620475748 19, p 159846388 4, p 302121571 7],
     [p 186129899 7, p 304494141 10, n 111224799 13, p 181615406 17, n 109601224 21, p 891552944 5, n 800230479 7]],
    p 12817352 5, some (p 100000 0), [("C", 10), ("H", 8)]⟩,
  ⟨"ig.C12D10", .ig2,
    [p 300 0, p 1000 0, p 5000 0],
    [[n 15793486 7, p 95059574 9, n 14532071 12, n 62645597 15, p 35530079 18, p 13137422 3, p 31529841 6],
     [p 3090506 5, p 30349988 9, n 11095048 12, p 1775581 15, n 10332327 20, p 28834453 4, n 142438937 6]],
    p 16427302 5, some (p 100000 0), [("C", 12), ("D", 10)]⟩,
  ⟨"ig.C12D9", .ig2,
    [p 300 0, p 1000 0, p 5000 0],
    [[n 73299396 8, p 89836895 9, n 13731275 12, n 5942702 14, p 3370243 17, p 42943094 3, p 30041956 6],
     [p 30123199 6, p 28328255 9, n 1036654 11, p 16593338 16, n 96527116 21, p 33207789 3, n 135191307 6]],
    p 16225892 5, some (p 100000 0), [("C", 12), ("D", 9)]⟩,
  ⟨"ig.C12H10", .ig2,
    [p 200 0, p 1000 0, p 6000 0],
    [[p 194566186 9, p 535264368 10, p 854996701 13, n 163903606 15, p 729977217 19, p 190020431 4, p 272151271 7],
     [p 228964892 7, p 36845257 9, n 13501627 12, p 220802808 17, n 133358223 21, p 107394499 4, n 100510148 6]],
    p 1542114 4, some (p 100000 0), [("C", 12), ("H", 10)]⟩]

/-- `ig.C12H23` .. `ig.C2H3O` (`data/ig2`). -/
def gases26 : List File := [
  ⟨"ig.C12H23", .ig2,
    [p 27315 2, p 1000 0, p 5000 0],
    [[p 20869217 7, p 13314965 8, n 81157452 12, p 29409286 15, n 65195213 19, n 35912814 3, p 273552972 7],
     [p 24880201 6, p 78250048 9, n 31550973 12, p 578789 14, n 39827968 20, n 43110684 3, n 936552468 7]],
    p 16731462 5, some (p 100000 0), [("C", 12), ("H", 23)]⟩,
  ⟨"ig.C12H9", .ig2,
    [p 200 0, p 1000 0, p 6000 0],
    [[p 407649156 9, p 542797841 10, p 712514701 13, n 14440449 14, p 648500575 19, p 485349837 4, p 281982515 7],
     [p 225693421 7, p 345619386 10, n 127020788 13, p 208111827 17, n 12584948 20, p 405905091 4, n 95779239 6]],
    p 15320346 5, some (p 100000 0), [("C", 12), ("H", 9)]⟩,
  ⟨"ig.C2+", .ig2,
    [p 29815 2, p 1000 0, p 6000 0],
    [[p 374438466 8, n 275060804 11, p 941697986 14, n 954472049 17, p 348743458 20, p 240057573 3, p 370168864 8],
     [p 147436235 8, p 390858415 11, n 115362712 14, p 12852279 17, n 437160939 23, p 240801585 3, p 156570956 7]],
    p 2402145 5, some (p 100000 0), [("C", 2), ("e", -1)]⟩,
  ⟨"ig.C2-", .ig2,
    [p 29815 2, p 1000 0, p 6000 0],
    [[p 38203823 7, n 288162408 11, p 821923044 14, n 732254863 17, p 241405929 20, p 567523968 4, p 243181238 8],
     [p 194147766 8, p 334554328 11, n 121401317 14, p 186836326 18, n 103447699 22, p 572696669 4, p 12003253 6]],
    p 2402255 5, some (p 100000 0), [("C", 2), ("e", 1)]⟩,
  ⟨"ig.C2", .ig2,
    [p 200 0, p 1000 0, p 6000 0],
    [[n 196258641 8, p 57681531 9, n 158037735 12, p 172460636 15, n 657905286 19, p 989883317 4, p 233198418 7],
     [p 412487314 8, p 108346618 12, p 15725089 14, n 424042102 19, p 325055714 23, p 989228066 4, p 797421015 9]],
    p 24022 3, some (p 100000 0), [("C", 2)]⟩,
  ⟨"ig.C2Cl2", .ig2,
    [p 300 0, p 1000 0, p 5000 0],
    [[p 50229482 7, p 14082667 9, n 18095669 12, p 11610348 15, n 28817478 19, p 23227482 3, p 609995206 9],
     [p 81728547 7, p 23659892 10, n 96552505 14, p 17736148 17, n 12135203 21, p 2251019 2, n 149035905 7]],
    p 949274 4, some (p 100000 0), [("C", 2), ("Cl", 2)]⟩,
  ⟨"ig.C2Cl4", .ig2,
    [p 29815 2, p 1000 0, p 5000 0],
    [[p 41434792 7, p 37422372 9, n 54369793 12, p 39112863 15, n 11176384 18, n 39492629 4, p 834455934 8],
     [p 12935937 6, p 343092 8, n 15067194 13, p 29346993 17, n 21070896 21, n 58932337 4, n 346807029 7]],
    p 1658328 4, some (p 100000 0), [("C", 2), ("Cl", 4)]⟩,
  ⟨"ig.C2Cl6", .ig2,
    [p 29815 2, p 1000 0, p 5000 0],
    [[p 46383531 7, p 63365561 9, n 1008003 10, p 76636922 15, n 2264655 17, n 20156513 3, p 647479559 8],
     [p 19034286 6, p 33956821 10, n 15115289 13, p 29700315 17, n 21453827 21, n 23103803 3, n 628529284 7]],
    p 2367382 4, some (p 100000 0), [("C", 2), ("Cl", 6)]⟩,
  ⟨"ig.C2F2", .ig2,
    [p 300 0, p 1000 0, p 5000 0],
    [[p 35345837 7, p 14445845 9, n 12189692 12, p 36042985 16, p 19118951 20, p 92133562 5, p 541946511 8],
     [p 75164581 7, p 31686462 10, n 13311385 13, p 24960049 17, n 17342072 21, n 16107655 5, n 150680622 7]],
    p 6201881 5, some (p 100000 0), [("C", 2), ("F", 2)]⟩,
  ⟨"ig.C2F4", .ig2,
    [p 300 0, p 1000 0, p 5000 0],
    [[p 36166183 7, p 26488618 9, n 22433266 12, p 62286445 16, p 62149244 20, n 81277242 3, p 852376407 8],
     [p 11086468 6, p 52788429 10, n 223544 11, p 42166846 17, n 29433914 21, n 83292884 3, n 29866881 6]],
    p 10001561 5, some (p 100000 0), [("C", 2), ("F", 4)]⟩,
  ⟨"ig.C2H", .ig2,
    [p 200 0, p 1000 0, p 6000 0],
    [[p 288965733 8, p 134099611 10, n 284769501 13, p 294791045 16, n 109331511 19, p 668393932 4, p 622296438 8],
     [p 336118395 8, p 438989724 11, n 162772218 14, p 260556663 18, n 152939305 22, p 670492214 4, p 557127542 8]],
    p 2502994 5, some (p 100000 0), [("C", 2), ("H", 1)]⟩,
  ⟨"ig.C2H2", .ig2,
    [p 200 0, p 1000 0, p 6000 0],
    [[p 328154933 8, p 69764274 10, n 238528283 14, n 121077045 17, p 982038579 21, p 486217943 4, p 592039169 8],
     [p 427807139 8, p 475622883 11, n 163007513 14, p 254622981 18, n 148860326 22, p 483166722 4, p 6400226 7]],
    p 2603788 5, some (p 100000 0), [("C", 2), ("H", 2)]⟩,
  ⟨"ig.C2H2O", .ig2,
    [p 200 0, p 1000 0, p 6000 0],
    [[p 21358363 7, p 181188721 10, n 173947474 13, p 934397568 17, n 201457615 20, n 704291804 5, p 12215648 6],
     [p 575793307 8, p 634911413 11, n 225814835 14, p 362026733 18, n 215651204 22, n 797878384 5, n 61077215 7]],
    p 4203728 5, some (p 100000 0), [("C", 2), ("H", 2), ("O", 1)]⟩,
  ⟨"ig.C2H3", .ig2,
    [p 200 0, p 1000 0, p 6000 0],
    [[p 321246645 8, p 151479162 11, p 259209412 13, n 357657847 16, p 147150873 19, p 348598468 4, p 851054025 8],
     [p 435105055 8, p 749330091 11, n 264314586 14, p 421285906 18, n 249896119 22, p 341546181 4, p 571676529 9]],
    p 2704582 5, some (p 100000 0), [("C", 2), ("H", 3)]⟩,
  ⟨"ig.C2H3N", .ig2,
    [p 200 0, p 1000 0, p 6000 0],
    [[p 382484221 8, p 410100359 11, p 214545679 13, n 287234543 16, p 111804146 19, p 628838522 5, p 554024211 8],
     [p 508576974 8, p 97079704 10, n 348484946 14, p 56210676 17, n 33623467 21, p 545853074 5, n 326553903 8]],
    p 4105256 5, some (p 100000 0), [("C", 2), ("H", 3), ("N", 1)]⟩,
  ⟨"ig.C2H3O", .ig2,
    [p 300 0, p 1000 0, p 5000 0],
    [[p 31252785 7, p 97782202 10, p 45214483 13, n 90094616 16, p 31937179 19, n 41085078 4, p 112420212 7],
     [p 56122789 7, p 8449886 9, n 28541472 13, p 42383763 17, n 22684037 21, n 51878633 4, n 326178193 8]],
    p 4304522 5, some (p 100000 0), [("C", 2), ("H", 3), ("O", 1)]⟩]

/-- `ig.C2H4` .. `ig.C2N2Na2` (`data/ig2`). -/
def gases27 : List File := [
  ⟨"ig.C2H4", .ig2,
    [p 200 0, p 1000 0, p 6000 0],
    [[p 395920148 8, n 757052247 11, p 570990292 13, n 691588753 16, p 269884373 19, p 508977593 5, p 409733096 8],
     [p 399182761 8, p 10483391 9, n 371721385 14, p 594628514 18, n 353630526 22, p 426865819 5, n 269052151 9]],
    p 2805376 5, some (p 100000 0), [("C", 2), ("H", 4)]⟩,
  ⟨"ig.C2H4O", .ig2,
    [p 200 0, p 1000 0, p 6000 0],
    [[p 472947627 8, n 319343161 11, p 475353505 13, n 574590474 16, p 219312619 19, n 215728799 4, p 410295455 8],
     [p 540417899 8, p 117229675 10, n 42262683 13, p 683715733 18, n 409842676 22, n 225931508 4, n 348117593 8]],
    p 4405316 5, some (p 100000 0), [("C", 2), ("H", 4), ("O", 1)]⟩,
  ⟨"ig.C2H4O2", .ig2,
    [p 200 0, p 1000 0, p 6000 0],
    [[p 278936844 8, p 100001016 10, p 342557978 13, n 509017919 16, p 206217504 19, n 534752292 4, p 141059504 7],
     [p 767083678 8, p 135152695 10, n 525874688 14, p 893185062 18, n 553180891 22, n 557560971 4, n 15467659 6]],
    p 6005256 5, some (p 100000 0), [("C", 2), ("H", 4), ("O", 2)]⟩,
  ⟨"ig.C2H4O4", .ig2,
    [p 200 0, p 1000 0, p 6000 0],
    [[p 512766711 8, p 168445826 10, p 291126977 13, n 507453596 16, p 215546828 19, n 101180748 3, p 489874978 8],
     [p 116290939 7, p 148350345 10, n 539529341 14, p 878326929 18, n 528913475 22, n 103759144 3, n 325539738 7]],
    p 9205136 5, some (p 100000 0), [("C", 2), ("H", 4), ("O", 4)]⟩,
  ⟨"ig.C2H5", .ig2,
    [p 200 0, p 1000 0, p 6000 0],
    [[p 430646568 8, n 418658892 11, p 497142807 13, n 599126606 16, p 230509004 19, p 128416265 4, p 470720924 8],
     [p 428800535 8, p 124337374 10, n 441383829 14, p 706526943 18, n 420341856 22, p 1205642 2, p 845299623 9]],
    p 290617 4, some (p 100000 0), [("C", 2), ("H", 5)]⟩,
  ⟨"ig.C2H6", .ig2,
    [p 200 0, p 1000 0, p 6000 0],
    [[p 429142492 8, n 55015427 10, p 599438288 13, n 708466285 16, p 268685771 19, n 115222055 4, p 266682316 8],
     [p 404666674 8, p 153538766 10, n 547039321 14, p 877826228 18, n 523167305 22, n 124473512 4, n 968683607 9]],
    p 3006964 5, some (p 100000 0), [("C", 2), ("H", 6)]⟩,
  ⟨"ig.C2H6N2", .ig2,
    [p 200 0, p 1000 0, p 6000 0],
    [[p 629613632 8, n 225815427 11, p 621232803 13, n 746292997 16, p 280371947 19, p 15692885 3, n 249925915 8],
     [p 744954851 8, p 174406153 10, n 627382453 14, p 101351178 17, n 606937494 22, p 141979978 4, n 141567638 7]],
    p 5808312 5, some (p 100000 0), [("C", 2), ("H", 6), ("N", 2)]⟩,
  ⟨"ig.C2H6O", .ig2,
    [p 200 0, p 1000 0, p 6000 0],
    [[p 485868178 8, n 37400674 10, p 695550267 13, n 886541147 16, p 35168443 18, n 299961309 4, p 480192294 8],
     [p 65628977 7, p 152034264 10, n 538922247 14, p 862150224 18, n 512824683 22, n 315257984 4, n 947557644 8]],
    p 4606904 5, some (p 100000 0), [("C", 2), ("H", 6), ("O", 1)]⟩,
  ⟨"ig.C2HCl", .ig2,
    [p 29815 2, p 1000 0, p 5000 0],
    [[p 18047158 7, p 25837871 9, n 43149954 12, p 35883579 15, n 11447992 18, p 24230207 3, p 127377546 7],
     [p 63210457 7, p 38459737 10, n 14864606 13, p 26561379 17, n 17952466 21, p 23440478 3, n 828465086 8]],
    p 6048264 5, some (p 100000 0), [("C", 2), ("Cl", 1), ("H", 1)]⟩,
  ⟨"ig.C2HF", .ig2,
    [p 300 0, p 1000 0, p 5000 0],
    [[p 2690177 6, p 17680853 9, n 22749855 12, p 14920568 15, n 37381925 19, p 13683223 3, p 814697187 8],
     [p 60949501 7, p 39432428 10, n 14711438 13, p 25294641 17, n 16446663 21, p 12976907 3, n 831534293 8]],
    p 4402834 5, some (p 100000 0), [("C", 2), ("F", 1), ("H", 1)]⟩,
  ⟨"ig.C2HN", .ig2,
    [p 200 0, p 1000 0, p 6000 0],
    [[p 187184307 8, p 260611314 10, n 462723965 13, p 418609731 16, n 145352705 19, p 72034036 3, p 122173228 7],
     [p 656314169 8, p 348040967 11, n 12460308 13, p 200764486 18, n 120044547 22, p 711347086 4, n 986556141 8]],
    p 3903668 5, some (p 100000 0), [("C", 2), ("H", 1), ("N", 1)]⟩,
  ⟨"ig.C2HO", .ig2,
    [p 200 0, p 1000 0, p 6000 0],
    [[p 276593971 8, p 141741202 10, n 232600986 13, p 215728089 16, n 758509308 20, p 180856324 4, p 105408591 7],
     [p 42603811 7, p 4827405 9, n 166618844 14, p 261405204 18, n 153257963 22, p 17880476 3, p 39787432 7]],
    p 4102934 5, some (p 100000 0), [("C", 2), ("H", 1), ("O", 1)]⟩,
  ⟨"ig.C2K2N2", .ig2,
    [p 300 0, p 1000 0, p 5000 0],
    [[p 11133058 6, p 11516362 9, n 19476533 12, p 18169859 15, n 64647252 19, n 46980693 4, n 212679591 7],
     [p 12625754 6, p 34123996 10, n 14034888 13, p 26156396 17, n 18206865 21, n 49753614 4, n 281538911 7]],
    p 13023208 5, some (p 100000 0), [("C", 2), ("K", 2), ("N", 2)]⟩,
  ⟨"ig.C2N", .ig2,
    [p 200 0, p 1000 0, p 6000 0],
    [[p 398958871 8, p 521977832 11, n 581083706 15, n 33941652 16, p 176273084 20, p 809656357 4, p 388721926 8],
     [p 593259696 8, p 157914754 11, n 612333532 15, p 10386961 17, n 643161897 23, p 803326833 4, n 660207157 8]],
    p 3802874 5, some (p 100000 0), [("C", 2), ("N", 1)]⟩,
  ⟨"ig.C2N2", .ig2,
    [p 200 0, p 1000 0, p 6000 0],
    [[p 232925325 8, p 261537847 10, n 490003994 13, p 461917478 16, n 164323855 19, p 356684424 4, p 986336227 8],
     [p 670544769 8, p 364260339 11, n 13093425 13, p 216411061 18, n 13118741 21, p 348608005 4, n 104803695 7]],
    p 5203548 5, some (p 100000 0), [("C", 2), ("N", 2)]⟩,
  ⟨"ig.C2N2Na2", .ig2,
    [p 300 0, p 1000 0, p 5000 0],
    [[p 10368029 6, p 13348547 9, n 19910334 12, p 16156475 15, n 5126455 18, n 45937527 4, n 205494429 7],
     [p 12572786 6, p 33947318 10, n 13616934 13, p 24720959 17, n 16773254 21, n 50491021 4, n 310741979 7]],
    p 9801502 5, some (p 100000 0), [("C", 2), ("N", 2), ("Na", 2)]⟩]

/-- `ig.C2O` .. `ig.C4H2` (`data/ig2`). -/
def gases28 : List File := [
  ⟨"ig.C2O", .ig2,
    [p 200 0, p 1000 0, p 6000 0],
    [[p 286345422 8, p 119732969 10, n 181232501 13, p 153813634 16, n 528906524 20, p 337500945 4, p 889405881 8],
     [p 551576444 8, p 187745704 11, n 701159757 15, p 121505291 18, n 776778855 23, p 330970458 4, n 427636138 8]],
    p 400214 4, some (p 100000 0), [("C", 2), ("O", 1)]⟩,
  ⟨"ig.C2Si", .ig2,
    [p 300 0, p 1000 0, p 5000 0],
    [[p 38806333 7, p 67947767 10, n 50277962 13, p 10573232 16, p 25513142 20, p 72558249 3, p 455056719 8],
     [p 57011523 7, p 2122069 9, n 11457769 13, p 31038768 17, n 27763897 21, p 72023391 3, n 497373211 8]],
    p 521075 4, some (p 100000 0), [("C", 2), ("Si", 1)]⟩,
  ⟨"ig.C3", .ig2,
    [p 200 0, p 1000 0, p 6000 0],
    [[p 543283963 8, n 446754383 11, p 149321482 13, n 147953138 16, p 501421112 20, p 994957222 4, n 158720715 8],
     [p 480357768 8, p 214511233 11, n 107292074 14, p 260735259 18, n 20163196 21, p 993965416 4, p 389369308 9]],
    p 36033 3, some (p 100000 0), [("C", 3)]⟩,
  ⟨"ig.C3H3", .ig2,
    [p 200 0, p 1000 0, p 6000 0],
    [[p 182840766 8, p 237839036 10, n 219228176 13, p 100067444 16, n 138984644 20, p 401863058 4, p 138447957 7],
     [p 664175821 8, p 808587428 11, n 284787887 14, p 453525977 18, n 268879815 22, p 389793699 4, n 104004255 7]],
    p 3905682 5, some (p 100000 0), [("C", 3), ("H", 3)]⟩,
  ⟨"ig.C3H4", .ig2,
    [p 200 0, p 1000 0, p 6000 0],
    [[p 224666553 8, p 576238084 11, p 442080305 13, n 662906786 16, p 28182473 18, p 321284389 4, p 133451837 7],
     [p 62807873 7, p 112393819 10, n 401957526 14, p 646920648 18, n 386433248 22, p 303415086 4, n 111419945 7]],
    p 4006476 5, some (p 100000 0), [("C", 3), ("H", 4)]⟩,
  ⟨"ig.C3H5", .ig2,
    [p 200 0, p 1000 0, p 6000 0],
    [[p 378794693 8, p 948414335 11, p 242343368 13, n 36560401 15, p 148592356 19, p 186261218 4, p 782822499 8],
     [p 654761132 8, p 133152246 10, n 4783331 12, p 771949814 18, n 461930808 22, p 172714707 4, n 927486841 8]],
    p 410727 4, some (p 100000 0), [("C", 3), ("H", 5)]⟩,
  ⟨"ig.C3H6", .ig2,
    [p 200 0, p 1000 0, p 6000 0],
    [[p 283278555 8, n 521027462 11, p 929582837 13, n 122753146 15, p 499191154 19, p 519520057 5, p 1083067 5],
     [p 621663293 8, p 165393614 10, n 590075961 14, p 948095473 18, n 565661737 22, p 295937555 5, n 136040607 7]],
    p 4208064 5, some (p 100000 0), [("C", 3), ("H", 6)]⟩,
  ⟨"ig.C3H6O", .ig2,
    [p 200 0, p 1000 0, p 6000 0],
    [[p 356851051 8, p 502717292 11, p 642315607 13, n 890229548 16, p 362423766 19, n 129679205 4, p 988838229 8],
     [p 79455571 7, p 174061678 10, n 625436463 14, p 100975457 17, n 604488953 22, n 152867683 4, n 184184133 7]],
    p 5808004 5, some (p 100000 0), [("C", 3), ("H", 6), ("O", 1)]⟩,
  ⟨"ig.C3H7", .ig2,
    [p 200 0, p 1000 0, p 6000 0],
    [[p 540872872 8, n 855221825 11, p 842178491 13, n 100942683 15, p 386914479 19, p 942600956 5, p 362322504 8],
     [p 575125882 8, p 187605762 10, n 670191976 14, p 107751871 17, n 643090885 22, p 797977293 5, n 491359355 8]],
    p 4308858 5, some (p 100000 0), [("C", 3), ("H", 7)]⟩,
  ⟨"ig.C3H8", .ig2,
    [p 200 0, p 1000 0, p 6000 0],
    [[p 42110262 7, p 171599803 11, p 706183472 13, n 919594116 16, p 364421372 19, n 143812106 4, p 560930491 8],
     [p 666789363 8, p 206120214 10, n 736553027 14, p 118440761 17, n 70695321 21, n 162748521 4, n 131859503 7]],
    p 4409652 5, some (p 100000 0), [("C", 3), ("H", 8)]⟩,
  ⟨"ig.C3H8O", .ig2,
    [p 200 0, p 1000 0, p 6000 0],
    [[p 430803027 8, p 10249801 9, p 619857805 13, n 903311088 16, p 374065372 19, n 349248843 4, p 755826254 8],
     [p 964271113 8, p 200224413 10, n 711948364 14, p 114136355 17, n 679921667 22, n 374840095 4, n 256346074 7]],
    p 6009592 5, some (p 100000 0), [("C", 3), ("H", 8), ("O", 1)]⟩,
  ⟨"ig.C3O2", .ig2,
    [p 200 0, p 1000 0, p 6000 0],
    [[p 219668211 8, p 314553138 10, n 507458623 13, p 435794398 16, n 147351787 19, n 12946098 3, p 132985264 7],
     [p 84617592 7, p 481552825 11, n 180930759 14, p 30078708 17, n 183722162 22, n 143271654 4, n 170605688 7]],
    p 680318 4, some (p 100000 0), [("C", 3), ("O", 2)]⟩,
  ⟨"ig.C4", .ig2,
    [p 200 0, p 1000 0, p 6000 0],
    [[p 332273482 8, p 202596453 10, n 373466071 13, p 356878255 16, n 127727382 19, p 122723638 3, p 680994829 8],
     [p 563091494 8, p 483116397 11, n 150405642 14, p 202872357 18, n 100345687 22, p 122500879 3, n 298954731 8]],
    p 48044 3, some (p 100000 0), [("C", 4)]⟩,
  ⟨"ig.C4H10", .ig2,
    [p 200 0, p 1000 0, p 6000 0],
    [[p 614746806 8, p 155947389 12, p 967913517 13, n 12548391 14, p 497816555 19, n 175994402 4, n 109409879 8],
     [p 944535834 8, p 257858073 10, n 923619122 14, p 148632755 17, n 887897158 22, n 201382165 4, n 263470076 7]],
    p 581234 4, some (p 100000 0), [("C", 4), ("H", 10)]⟩,
  ⟨"ig.C4H12Si", .ig2,
    [p 29815 2, p 1000 0, p 5000 0],
    [[p 494618626 8, p 411429743 10, n 293233742 15, n 229003694 16, p 109566773 19, n 377310492 4, p 318631099 8],
     [p 115637018 7, p 328112064 10, n 126370891 13, p 226868511 17, n 154269477 21, n 401381366 4, n 336341195 7]],
    p 8822478 5, some (p 100000 0), [("C", 4), ("H", 12), ("Si", 1)]⟩,
  ⟨"ig.C4H2", .ig2,
    [p 200 0, p 1000 0, p 6000 0],
    [[n 407132393 9, p 520775143 10, n 92113834 12, p 808657403 16, n 27042208 18, p 525957367 4, p 203240223 7],
     [p 866704895 8, p 671505191 11, n 23535506 13, p 373635366 18, n 221054043 22, p 510016978 4, n 21800205 6]],
    p 5005988 5, some (p 100000 0), [("C", 4), ("H", 2)]⟩]

/-- `ig.C4H4` .. `ig.C6H10` (`data/ig2`). -/
def gases29 : List File := [
  ⟨"ig.C4H4", .ig2,
    [p 200 0, p 1000 0, p 6000 0],
    [[p 127895318 8, p 13420335 9, p 411992063 13, n 698956727 16, p 30725212 18, p 450864097 4, p 176787788 7],
     [p 804207751 8, p 125202174 10, n 452337047 14, p 733120443 18, n 440110864 22, p 425108494 4, n 211284483 7]],
    p 5207576 5, some (p 100000 0), [("C", 4), ("H", 4)]⟩,
  ⟨"ig.C4H6", .ig2,
    [p 200 0, p 1000 0, p 6000 0],
    [[p 291633433 8, n 32058481 10, p 100263571 12, n 134248167 15, p 5466701 17, p 174732236 4, p 124817183 7],
     [p 784858253 8, p 180812892 10, n 653186644 14, p 105842123 17, n 635253939 22, p 146153461 4, n 208980257 7]],
    p 5409164 5, some (p 100000 0), [("C", 4), ("H", 6)]⟩,
  ⟨"ig.C4H8", .ig2,
    [p 200 0, p 1000 0, p 6000 0],
    [[p 38114472 7, n 968049998 11, p 127917694 12, n 163057125 15, p 64831479 18, p 18710793 4, p 860998196 8],
     [p 776331054 8, p 23065335 9, n 825983758 14, p 133412389 17, n 799363302 22, n 117672008 5, n 219148211 7]],
    p 5610752 5, some (p 100000 0), [("C", 4), ("H", 8)]⟩,
  ⟨"ig.C4H8O4", .ig2,
    [p 200 0, p 1000 0, p 6000 0],
    [[p 775481743 8, p 138918897 10, p 832955609 13, n 120021855 15, p 490679645 19, n 115185669 3, n 122446814 8],
     [p 158245208 7, p 261835117 10, n 946098358 14, p 153337616 17, n 920476545 22, n 119039141 3, n 511097617 7]],
    p 12010512 5, some (p 100000 0), [("C", 4), ("H", 8), ("O", 4)]⟩,
  ⟨"ig.C4H9", .ig2,
    [p 200 0, p 1000 0, p 6000 0],
    [[p 687327133 8, n 185146306 10, p 130560116 12, n 150832755 15, p 565358282 19, p 410958938 5, p 230016604 9],
     [p 663074656 8, p 259353745 10, n 937163111 14, p 15184589 16, n 911190863 22, p 200861323 5, n 92058144 7]],
    p 5711546 5, some (p 100000 0), [("C", 4), ("H", 9)]⟩,
  ⟨"ig.C4N2", .ig2,
    [p 200 0, p 1000 0, p 6000 0],
    [[p 228116845 8, p 461273513 10, n 853293243 13, p 793407779 16, n 280356399 19, p 620401013 4, p 112898174 7],
     [p 1048548 5, p 569544889 11, n 212745547 14, p 352323196 18, n 214631729 22, p 60462063 3, n 272266502 7]],
    p 7605748 5, some (p 100000 0), [("C", 4), ("N", 2)]⟩,
  ⟨"ig.C5", .ig2,
    [p 200 0, p 1000 0, p 6000 0],
    [[p 335873023 8, p 324350875 10, n 59305847 12, p 560114864 16, n 203075176 19, p 124376242 3, p 604915848 8],
     [p 957456888 8, p 386016798 11, n 147558014 14, p 248048833 18, n 152660253 22, p 123053517 3, n 23713798 6]],
    p 60055 3, some (p 100000 0), [("C", 5)]⟩,
  ⟨"ig.C5FeO5", .ig2,
    [p 300 0, p 1000 0, p 5000 0],
    [[p 6606546 6, p 75042129 9, n 12201275 11, p 10055378 14, n 32260973 18, n 91951438 3, n 257600621 8],
     [p 21164021 6, p 10333103 9, n 43310936 13, p 82047497 17, n 57773874 21, n 94888934 3, n 72073652 6]],
    p 195899 3, some (p 100000 0), [("C", 5), ("Fe", 1), ("O", 5)]⟩,
  ⟨"ig.C5H10", .ig2,
    [p 200 0, p 1000 0, p 6000 0],
    [[p 370327955 8, n 115565354 10, p 164111439 12, n 209368134 15, p 831054507 19, n 110951786 4, p 119777761 7],
     [p 91329579 7, p 30113043 9, n 109169137 13, p 177298767 17, n 106575248 21, n 151597372 4, n 292618828 7]],
    p 701344 4, some (p 100000 0), [("C", 5), ("H", 10)]⟩,
  ⟨"ig.C5H11", .ig2,
    [p 200 0, p 1000 0, p 6000 0],
    [[p 644622533 8, n 954177763 11, p 137891362 12, n 169241631 15, p 653097127 19, p 150837506 5, p 543091742 8],
     [p 923121001 8, p 311688383 10, n 112478586 13, p 182090658 17, n 109205395 21, n 160069498 5, n 206141974 7]],
    p 7114234 5, some (p 100000 0), [("C", 5), ("H", 11)]⟩,
  ⟨"ig.C5H12", .ig2,
    [p 29815 2, p 1000 0, p 5000 0],
    [[p 72638994 8, p 48125476 9, p 15917458 13, n 26692458 15, p 12078282 18, n 2240798 2, p 18327214 6],
     [p 10110416 6, p 35349566 9, n 11039967 12, p 14777721 16, n 68467042 21, n 25806711 3, n 33756984 6]],
    p 7215028 5, some (p 100000 0), [("C", 5), ("H", 12)]⟩,
  ⟨"ig.C5H6", .ig2,
    [p 200 0, p 1000 0, p 6000 0],
    [[p 861044032 9, p 14804587 9, p 721072084 13, n 113378398 15, p 486890482 19, p 148017548 4, p 213536259 7],
     [p 997582745 8, p 189055233 10, n 6841103 12, p 110992117 17, n 666791427 22, p 110816727 4, n 322096892 7]],
    p 6610264 5, some (p 100000 0), [("C", 5), ("H", 6)]⟩,
  ⟨"ig.C5H8", .ig2,
    [p 200 0, p 1000 0, p 6000 0],
    [[p 268980514 8, p 209635533 11, p 113034459 12, n 154077581 15, p 627623564 19, p 245827067 5, p 15307504 6],
     [p 964282423 8, p 242562834 10, n 872089503 14, p 141190868 17, n 847267848 22, n 129255032 5, n 301225606 7]],
    p 6811852 5, some (p 100000 0), [("C", 5), ("H", 8)]⟩,
  ⟨"ig.C6D5", .ig2,
    [p 300 0, p 1000 0, p 5000 0],
    [[n 12549782 7, p 47328766 9, n 80759883 13, n 29901972 15, p 1714906 17, p 35314063 3, p 29780146 6],
     [p 14729492 6, p 15210535 9, n 55241635 13, p 87984575 17, n 50979217 21, p 30282629 3, n 55754964 6]],
    p 8213651 5, some (p 100000 0), [("C", 6), ("D", 5)]⟩,
  ⟨"ig.C6D6", .ig2,
    [p 300 0, p 1000 0, p 5000 0],
    [[n 20701218 7, p 52938197 9, n 96074828 13, n 32802372 15, p 19012528 18, p 54068984 4, p 30693873 6],
     [p 15619864 6, p 17123934 9, n 62012759 13, p 98493058 17, n 56891557 21, n 14433052 5, n 63888189 6]],
    p 8415061 5, some (p 100000 0), [("C", 6), ("D", 6)]⟩,
  ⟨"ig.C6H10", .ig2,
    [p 200 0, p 1000 0, p 6000 0],
    [[p 236627804 8, p 106814158 10, p 118222243 12, n 165679913 15, p 676133786 19, n 248250358 5, p 167692033 7],
     [p 117733889 7, p 309482743 10, n 112347262 13, p 182632045 17, n 109855683 21, n 720263233 5, n 426557933 7]],
    p 821454 4, some (p 100000 0), [("C", 6), ("H", 10)]⟩]

/-- `ig.C6H12` .. `ig.C8H17` (`data/ig2`). -/
def gases30 : List File := [
  ⟨"ig.C6H12", .ig2,
    [p 200 0, p 1000 0, p 6000 0],
    [[p 404348764 8, n 619527424 11, p 176621086 12, n 222967809 15, p 86366739 18, n 169202872 4, p 852566766 8],
     [p 132147562 7, p 35824241 9, n 132110595 13, p 217202254 17, n 13173054 20, n 228091954 4, n 553526464 7]],
    p 8416128 5, some (p 100000 0), [("C", 6), ("H", 12)]⟩,
  ⟨"ig.C6H13", .ig2,
    [p 200 0, p 1000 0, p 6000 0],
    [[p 876344954 8, p 21624385 10, p 131674084 12, n 173827452 15, p 692515009 19, n 542628115 6, n 591726978 8],
     [p 140301977 7, p 347114029 10, n 126836103 13, p 209365902 17, n 127627985 21, n 40690789 4, n 439643824 7]],
    p 8516922 5, some (p 100000 0), [("C", 6), ("H", 13)]⟩,
  ⟨"ig.C6H2", .ig2,
    [p 200 0, p 1000 0, p 6000 0],
    [[n 594405026 9, p 746613329 10, n 13584798 11, p 1221981 13, n 417696751 19, p 784192204 4, p 22117878 6],
     [p 12523806 6, p 878596282 11, n 313663173 14, p 504345908 18, n 3011097 20, p 760771037 4, n 388501245 7]],
    p 7408188 5, some (p 100000 0), [("C", 6), ("H", 2)]⟩,
  ⟨"ig.C6H5", .ig2,
    [p 200 0, p 1000 0, p 6000 0],
    [[p 709725032 9, p 193299484 10, p 594079007 13, n 985084147 16, p 425424755 19, p 391345677 4, p 230299294 7],
     [p 1077022 5, p 183848597 10, n 669985951 14, p 10922562 16, n 658414439 22, p 352040328 4, n 350146837 7]],
    p 771057 4, some (p 100000 0), [("C", 6), ("H", 5)]⟩,
  ⟨"ig.C6H5O", .ig2,
    [p 200 0, p 1000 0, p 6000 0],
    [[p 776296446 10, p 330574915 10, p 360356256 13, n 793165426 16, p 364328623 19, p 406539383 5, p 25759892 6],
     [p 131515134 7, p 190165507 10, n 694695592 14, p 113442172 17, n 684634203 22, n 472968266 6, n 467107225 7]],
    p 931051 4, some (p 100000 0), [("C", 6), ("H", 5), ("O", 1)]⟩,
  ⟨"ig.C6H6", .ig2,
    [p 200 0, p 1000 0, p 6000 0],
    [[p 503469664 9, p 185142363 10, p 737864409 13, n 118106127 15, p 507182527 19, p 855266293 5, p 216481796 7],
     [p 110771708 7, p 207067895 10, n 7516251 12, p 122209416 17, n 735312513 22, p 430988395 5, n 40011695 6]],
    p 7811364 5, some (p 100000 0), [("C", 6), ("H", 6)]⟩,
  ⟨"ig.C6H6O", .ig2,
    [p 200 0, p 1000 0, p 6000 0],
    [[n 291049229 9, p 408567842 10, p 242823545 13, n 714476757 16, p 346003044 19, n 134129231 4, p 268748886 7],
     [p 141553674 7, p 199349498 10, n 718217132 14, p 11622868 16, n 69714584 21, n 181287342 4, n 517991412 7]],
    p 9411304 5, some (p 100000 0), [("C", 6), ("H", 6), ("O", 1)]⟩,
  ⟨"ig.C7H14", .ig2,
    [p 200 0, p 1000 0, p 6000 0],
    [[p 870575623 8, p 279788048 11, p 15521226 11, n 209020114 15, p 840527224 19, n 112661385 4, n 445341873 8],
     [p 184972484 7, p 33257599 9, n 11815033 12, p 192513278 17, n 116441886 21, n 165142044 4, n 683095138 7]],
    p 9818816 5, some (p 100000 0), [("C", 7), ("H", 14)]⟩,
  ⟨"ig.C7H15", .ig2,
    [p 200 0, p 1000 0, p 6000 0],
    [[p 102804136 7, p 701553566 12, p 159551347 12, n 209593179 15, p 833445318 19, n 360307311 5, n 10302094 6],
     [p 164117107 7, p 403602901 10, n 147823188 13, p 24441456 16, n 149160374 21, n 77631092 4, n 549531828 7]],
    p 991961 4, some (p 100000 0), [("C", 7), ("H", 15)]⟩,
  ⟨"ig.C7H16", .ig2,
    [p 200 0, p 1000 0, p 6000 0],
    [[p 111532484 7, n 949415433 11, p 195571181 12, n 24975252 14, p 984873213 19, n 267711735 4, n 15909611 6],
     [p 185354704 7, p 391420468 10, n 138030268 13, p 222403874 17, n 13345258 20, n 319500783 4, n 70190284 6]],
    p 10020404 5, some (p 100000 0), [("C", 7), ("H", 16)]⟩,
  ⟨"ig.C7H7", .ig2,
    [p 200 0, p 1000 0, p 6000 0],
    [[p 481145711 9, p 385126943 10, p 328618341 13, n 769728603 16, p 354230267 19, p 23307021 3, p 235487 4],
     [p 140435627 7, p 234946209 10, n 853786999 14, p 138914523 17, n 836183659 22, p 185643697 4, n 516632394 7]],
    p 9113258 5, some (p 100000 0), [("C", 7), ("H", 7)]⟩,
  ⟨"ig.C7H8", .ig2,
    [p 200 0, p 1000 0, p 6000 0],
    [[p 1611914 6, p 211188902 10, p 853221453 13, n 132566876 15, p 559406109 19, p 409651976 5, p 202973614 7],
     [p 12939475 6, p 266921558 10, n 968420108 14, p 15739214 16, n 946670482 22, n 677035769 6, n 467255302 7]],
    p 9214052 5, some (p 100000 0), [("C", 7), ("H", 8)]⟩,
  ⟨"ig.C7H8O", .ig2,
    [p 200 0, p 1000 0, p 6000 0],
    [[p 798026029 9, p 467284934 10, p 273617362 13, n 775823278 16, p 36894835 18, n 183324087 4, p 242303179 7],
     [p 165179499 7, p 254721604 10, n 918781249 14, p 148772675 17, n 89261718 21, n 236116775 4, n 619386224 7]],
    p 10813992 5, some (p 100000 0), [("C", 7), ("H", 8), ("O", 1)]⟩,
  ⟨"ig.C8H10", .ig2,
    [p 200 0, p 1000 0, p 6000 0],
    [[p 351534963 8, p 178145681 10, p 118934012 12, n 175639764 15, p 732061099 19, p 102038595 5, p 141539629 7],
     [p 155760759 7, p 323064579 10, n 119002723 13, p 196792542 17, n 119911164 21, n 441157516 5, n 591043877 7]],
    p 1061674 4, some (p 100000 0), [("C", 8), ("H", 10)]⟩,
  ⟨"ig.C8H16", .ig2,
    [p 200 0, p 1000 0, p 6000 0],
    [[p 10148786 6, p 125107538 11, p 185252736 12, n 249094162 15, p 100250395 18, n 143267453 4, n 850774418 8],
     [p 220134086 7, p 367972174 10, n 129830482 13, p 210854637 17, n 127294158 21, n 206109835 4, n 85533717 6]],
    p 11221504 5, some (p 100000 0), [("C", 8), ("H", 16)]⟩,
  ⟨"ig.C8H17", .ig2,
    [p 200 0, p 1000 0, p 6000 0],
    [[p 118082518 7, n 850348136 12, p 1876977 10, n 245690702 15, p 975813027 19, n 666450442 5, n 147298487 7],
     [p 187968043 7, p 460048523 10, n 168790126 13, p 279422477 17, n 170663886 21, n 114592578 4, n 659622206 7]],
    p 11322298 5, some (p 100000 0), [("C", 8), ("H", 17)]⟩]

/-- `ig.C8H18` .. `ig.CF+` (`data/ig2`). -/
def gases31 : List File := [
  ⟨"ig.C8H18", .ig2,
    [p 200 0, p 1000 0, p 6000 0],
    [[p 125244908 7, n 101018365 10, p 221991595 12, n 28486242 14, p 112409624 18, n 298433034 4, n 197108554 7],
     [p 221755407 7, p 424426161 10, n 149161103 13, p 240376673 17, n 144359037 21, n 361030944 4, n 880854457 7]],
    p 11423092 5, some (p 100000 0), [("C", 8), ("H", 18)]⟩,
  ⟨"ig.C8H8", .ig2,
    [p 200 0, p 1000 0, p 6000 0],
    [[p 118175769 8, p 334876025 10, p 692366253 13, n 124490419 15, p 549384735 19, p 156039062 4, p 22662498 6],
     [p 158813334 7, p 268374055 10, n 990244561 14, p 163759141 17, n 998448972 22, p 100847804 4, n 609419319 7]],
    p 10415152 5, some (p 100000 0), [("C", 8), ("H", 8)]⟩,
  ⟨"ig.C9H19", .ig2,
    [p 29815 2, p 1000 0, p 5000 0],
    [[p 28756485 7, p 75792789 9, p 13462431 12, n 64088397 15, p 28694172 18, n 86834531 4, p 24262241 6],
     [p 19195267 6, p 55439249 9, n 21436601 12, p 37885144 16, n 25002987 20, n 14373711 3, n 66056286 6]],
    p 12724986 5, some (p 100000 0), [("C", 9), ("H", 19)]⟩,
  ⟨"ig.CAl", .ig2,
    [p 300 0, p 1000 0, p 5000 0],
    [[p 26422483 7, p 64465161 10, n 95892376 13, p 69040805 16, n 19430779 19, p 81929874 3, p 10267362 6],
     [p 41564478 7, p 4469249 10, n 1746704 13, p 34304336 18, n 24772706 22, p 81606605 3, p 290472521 8]],
    p 3899254 5, some (p 100000 0), [("Al", 1), ("C", 1)]⟩,
  ⟨"ig.CCl", .ig2,
    [p 300 0, p 1000 0, p 5000 0],
    [[p 31953557 7, p 28076318 10, n 16043845 13, n 57744065 17, p 61409732 20, p 59325077 3, p 803517321 8],
     [p 40984727 7, p 50077845 11, n 20012833 14, p 38680992 18, n 25441113 22, p 59076599 3, p 335017361 8]],
    p 474637 4, some (p 100000 0), [("C", 1), ("Cl", 1)]⟩,
  ⟨"ig.CCl2", .ig2,
    [p 300 0, p 1000 0, p 5000 0],
    [[p 28588505 7, p 13957938 9, n 20038898 12, p 13500726 15, n 31669715 19, p 27363926 3, p 122433131 7],
     [p 37184999 7, p 53449745 10, n 23431284 13, p 41806177 17, n 26765295 21, p 27554793 3, p 964597954 8]],
    p 829164 4, some (p 100000 0), [("C", 1), ("Cl", 2)]⟩,
  ⟨"ig.CCl2F2", .ig2,
    [p 29815 2, p 1000 0, p 5000 0],
    [[p 38134966 7, p 20036835 9, n 98986693 13, n 87995353 16, p 71218552 19, n 61253551 3, p 89909711 7],
     [p 10708248 6, p 23232186 10, n 90073223 14, p 15261702 17, n 94434958 22, n 63102602 3, n 266228765 7]],
    p 12091321 5, some (p 100000 0), [("C", 1), ("Cl", 2), ("F", 2)]⟩,
  ⟨"ig.CCl2O", .ig2,
    [p 200 0, p 1000 0, p 6000 0],
    [[p 17078791 7, p 289369464 10, n 493289116 13, p 416910139 16, n 137057391 19, n 278350932 4, p 176202114 7],
     [p 786018378 8, p 2132715 9, n 822077158 15, p 138951133 18, n 858406653 23, n 291056423 4, n 119011907 7]],
    p 989158 4, some (p 100000 0), [("C", 1), ("Cl", 2), ("O", 1)]⟩,
  ⟨"ig.CCl3", .ig2,
    [p 300 0, p 1000 0, p 5000 0],
    [[p 37153357 7, p 19443796 9, n 24627841 12, p 13786464 15, n 26638934 19, p 7782002 3, p 971604259 8],
     [p 87815473 7, p 1351613 9, n 58249453 14, p 11098697 17, n 77937264 22, p 66344151 4, n 153161324 7]],
    p 1183691 4, some (p 100000 0), [("C", 1), ("Cl", 3)]⟩,
  ⟨"ig.CCl3F", .ig2,
    [p 29815 2, p 1000 0, p 5000 0],
    [[p 48287687 7, p 1898174 8, n 10360662 12, n 78472127 16, p 68452752 19, n 36446184 3, p 46341373 7],
     [p 1124653 5, p 17837698 10, n 69260443 14, p 11740724 17, n 72640292 22, n 38108309 3, n 282759858 7]],
    p 1373675 4, some (p 100000 0), [("C", 1), ("Cl", 3), ("F", 1)]⟩,
  ⟨"ig.CCl4", .ig2,
    [p 29815 2, p 1000 0, p 5000 0],
    [[p 57966299 7, p 17977439 9, n 10956546 12, n 66681807 16, p 64554898 19, n 13940965 3, n 556959635 9],
     [p 11739096 6, p 12837553 10, n 49650259 14, p 8352502 17, n 51107224 22, n 1541909 2, n 307778187 7]],
    p 1538218 4, some (p 100000 0), [("C", 1), ("Cl", 4)]⟩,
  ⟨"ig.CClF3", .ig2,
    [p 29815 2, p 1000 0, p 5000 0],
    [[p 29011936 7, p 20563658 9, n 85508636 13, n 10395645 15, p 75721825 19, n 86829563 3, p 121150667 7],
     [p 10165096 6, p 28460042 10, n 10926024 13, p 18314374 17, n 11194059 21, n 8884875 2, n 257041113 7]],
    p 10445891 5, some (p 100000 0), [("C", 1), ("Cl", 1), ("F", 3)]⟩,
  ⟨"ig.CClFO", .ig2,
    [p 300 0, p 1000 0, p 5000 0],
    [[p 17066661 7, p 22722565 9, n 30115639 12, p 20483566 15, n 56572228 19, n 52619902 3, p 179876257 7],
     [p 70881081 7, p 31816479 10, n 13763316 13, p 26544005 17, n 18928969 21, n 53883781 3, n 868499355 8]],
    p 824615 4, some (p 100000 0), [("C", 1), ("Cl", 1), ("F", 1), ("O", 1)]⟩,
  ⟨"ig.CClN", .ig2,
    [p 300 0, p 1000 0, p 5000 0],
    [[p 33390854 7, p 10397468 9, n 1370465 11, p 95061962 16, n 2592526 18, p 15237539 3, p 683103255 8],
     [p 54920021 7, p 20987248 10, n 77415914 14, p 13823882 17, n 92334864 22, p 14749161 3, n 373046245 8]],
    p 6147044 5, some (p 100000 0), [("C", 1), ("Cl", 1), ("N", 1)]⟩,
  ⟨"ig.CClO", .ig2,
    [p 300 0, p 1000 0, p 5000 0],
    [[p 42863792 7, p 5086898 9, n 50729411 13, p 29647983 16, n 77093453 20, n 90125212 4, p 62511867 7],
     [p 54291236 7, p 16121535 10, n 6600628 13, p 12127114 17, n 82858601 22, n 93305007 4, p 382874056 9]],
    p 634631 4, some (p 100000 0), [("C", 1), ("Cl", 1), ("O", 1)]⟩,
  ⟨"ig.CF+", .ig2,
    [p 29815 2, p 1000 0, p 6000 0],
    [[p 358285095 8, n 18639093 10, p 853435341 14, n 932378062 17, p 333941713 20, p 137198248 3, p 407439 5],
     [p 367596084 8, p 852823073 12, n 306755661 15, p 497430057 19, n 283969038 23, p 137018878 3, p 284608813 8]],
    p 3100885 5, some (p 100000 0), [("C", 1), ("F", 1), ("e", -1)]⟩]

/-- `ig.CF` .. `ig.CH2O` (`data/ig2`). -/
def gases32 : List File := [
  ⟨"ig.CF", .ig2,
    [p 300 0, p 1000 0, p 5000 0],
    [[p 34655143 7, n 68779805 11, p 56784766 13, n 64582982 16, p 22988248 19, p 29655598 3, p 588135489 8],
     [p 36869679 7, p 91143491 11, n 36463855 14, p 67482854 18, n 45269596 22, p 29478125 3, p 417451009 8]],
    p 310094 4, some (p 100000 0), [("C", 1), ("F", 1)]⟩,
  ⟨"ig.CF2+", .ig2,
    [p 300 0, p 1000 0, p 5000 0],
    [[p 29783522 7, p 60336602 10, p 65858785 17, n 52129449 16, p 26663021 19, p 11212675 2, p 109515563 7],
     [p 5155423 6, p 2052831 9, n 91173911 14, p 18272761 17, n 1321364 20, p 11143122 2, n 778766841 9]],
    p 5000726 5, some (p 100000 0), [("C", 1), ("F", 2), ("e", -1)]⟩,
  ⟨"ig.CF2", .ig2,
    [p 300 0, p 1000 0, p 5000 0],
    [[p 27688821 7, p 72372962 10, n 16028152 13, n 45512379 16, p 26648011 19, n 23015786 3, p 111376958 7],
     [p 52267142 7, p 2083768 9, n 99037278 14, p 21264848 17, n 15831114 21, n 23755847 3, n 191090423 8]],
    p 5000781 5, some (p 100000 0), [("C", 1), ("F", 2)]⟩,
  ⟨"ig.CF2O", .ig2,
    [p 200 0, p 1000 0, p 6000 0],
    [[p 212979489 8, p 141019723 10, n 594381359 14, n 53054479 16, p 397367469 20, n 781745339 4, p 151109092 7],
     [p 68163173 7, p 316473282 11, n 121776269 14, p 205582261 18, n 126893125 22, n 795482716 4, n 952864574 8]],
    p 6600721 5, some (p 100000 0), [("C", 1), ("F", 2), ("O", 1)]⟩,
  ⟨"ig.CF3+", .ig2,
    [p 300 0, p 1000 0, p 5000 0],
    [[p 22605576 7, p 15422323 9, n 98956674 13, n 78345046 17, p 21211892 19, p 49365338 3, p 135784551 7],
     [p 70225406 7, p 32441271 10, n 13864875 13, p 26323637 17, n 18464402 21, p 48022318 3, n 112065339 7]],
    p 6900566 5, some (p 100000 0), [("C", 1), ("F", 3), ("e", -1)]⟩,
  ⟨"ig.CF3", .ig2,
    [p 300 0, p 1000 0, p 5000 0],
    [[p 20650168 7, p 16424158 9, n 10838146 12, n 85317997 17, p 2387807 18, n 57811976 3, p 15704693 6],
     [p 72012622 7, p 30663935 10, n 13144181 13, p 24996925 17, n 17550928 21, n 59238631 3, n 1094571 5]],
    p 6900621 5, some (p 100000 0), [("C", 1), ("F", 3)]⟩,
  ⟨"ig.CF4", .ig2,
    [p 200 0, p 1000 0, p 6000 0],
    [[p 105143992 8, p 278246468 10, n 24652526 12, p 674548304 17, p 918909316 21, n 113574067 3, p 181900899 7],
     [p 947215359 8, p 359525216 11, n 140378502 14, p 239188188 18, n 148558906 22, n 115816337 3, n 249709091 7]],
    p 8800461 5, some (p 100000 0), [("C", 1), ("F", 4)]⟩,
  ⟨"ig.CFN", .ig2,
    [p 300 0, p 1000 0, p 5000 0],
    [[p 32516941 7, p 83073144 10, n 83666358 13, p 44125644 16, n 90882423 20, p 30551198 4, p 644214774 8],
     [p 50898557 7, p 24170684 10, n 97682766 14, p 17813442 17, n 12118567 21, p 25780781 4, n 287278096 8]],
    p 4501614 5, some (p 100000 0), [("C", 1), ("F", 1), ("N", 1)]⟩,
  ⟨"ig.CFO", .ig2,
    [p 300 0, p 1000 0, p 5000 0],
    [[p 32019727 7, p 5583777 9, n 14905481 13, n 23126069 16, p 13614353 19, n 21817043 3, p 100607392 7],
     [p 48908214 7, p 22179703 10, n 92550725 14, p 1727012 16, n 11955343 21, n 22357984 3, p 992784061 9]],
    p 470088 4, some (p 100000 0), [("C", 1), ("F", 1), ("O", 1)]⟩,
  ⟨"ig.CH+", .ig2,
    [p 29815 2, p 1000 0, p 6000 0],
    [[p 353796552 8, n 759260194 13, n 609566708 15, p 200819522 17, n 100806821 20, p 195057229 3, p 523237838 9],
     [p 453726693 8, n 205165403 11, p 16958717 13, n 351097709 18, p 222129197 22, p 194661079 3, n 502782224 8]],
    p 1301839 5, some (p 100000 0), [("C", 1), ("H", 1), ("e", -1)]⟩,
  ⟨"ig.CH", .ig2,
    [p 200 0, p 1000 0, p 6000 0],
    [[p 348981665 8, p 323835541 12, n 168899065 14, p 316217327 17, n 140609067 20, p 707972934 4, p 208401108 8],
     [p 252090627 8, p 176537235 11, n 461475705 15, p 592885472 19, n 334731962 23, p 711314363 4, p 740532163 8]],
    p 1301894 5, some (p 100000 0), [("C", 1), ("H", 1)]⟩,
  ⟨"ig.CH2", .ig2,
    [p 200 0, p 1000 0, p 6000 0],
    [[p 374484879 8, p 117960823 11, p 194502264 14, n 252932506 17, p 112447631 20, p 455799523 4, p 162850125 8],
     [p 277723166 8, p 383663476 11, n 13485322 13, p 211641255 18, n 123445662 22, p 458590304 4, p 667286429 8]],
    p 1402688 5, some (p 100000 0), [("C", 1), ("H", 2)]⟩,
  ⟨"ig.CH2Cl2", .ig2,
    [p 29815 2, p 1000 0, p 5000 0],
    [[p 23626127 7, p 13885532 9, n 20872167 13, n 86656158 16, p 49494315 19, n 1276123 2, p 150849058 7],
     [p 64991283 7, p 5567234 9, n 18887449 13, p 28233393 17, n 15256869 21, n 14048813 3, n 701156159 8]],
    p 8493228 5, some (p 100000 0), [("C", 1), ("Cl", 2), ("H", 2)]⟩,
  ⟨"ig.CH2ClF", .ig2,
    [p 29815 2, p 1000 0, p 5000 0],
    [[p 20975533 7, p 12551896 9, p 27147036 14, n 91319841 16, p 44713573 19, n 32973617 3, p 161681723 7],
     [p 59572783 7, p 608797 8, n 20813759 13, p 31346215 17, n 17084878 21, n 34280781 3, n 487988626 8]],
    p 6847798 5, some (p 100000 0), [("C", 1), ("Cl", 1), ("F", 1), ("H", 2)]⟩,
  ⟨"ig.CH2F2", .ig2,
    [p 29815 2, p 1000 0, p 5000 0],
    [[p 19264078 7, p 10529097 9, p 34659915 13, n 96855999 16, p 38165322 19, n 55505395 3, p 154769392 7],
     [p 52983112 7, p 67568012 10, n 23401553 13, p 35722381 17, n 19789986 21, n 56799215 3, n 352851131 8]],
    p 5202369 5, some (p 100000 0), [("C", 1), ("F", 2), ("H", 2)]⟩,
  ⟨"ig.CH2O", .ig2,
    [p 200 0, p 1000 0, p 6000 0],
    [[p 479372315 8, n 990833369 11, p 373220008 13, n 379285261 16, p 131772652 19, n 143089567 4, p 6028129 7],
     [p 316952654 8, p 619320583 11, n 225056377 14, p 36597568 17, n 22014947 21, n 144784444 4, p 604209449 8]],
    p 3002628 5, some (p 100000 0), [("C", 1), ("H", 2), ("O", 1)]⟩]

end PyroMat.Shipped.Data
