import Verif.Shipped.Basic

/-!
# Shipped ideal-gas data, part 5

Generated by `tools/shipped.py` from `/repo/src/pyromat/data/ig/*.hpd` and `ig2/*.hpd`;
do not edit.
-/

namespace PyroMat.Shipped.Data

open PyroMat.Shipped (File)
open PyroMat.Shipped.Dec (p n)

/-- `ig.CH2O2` .. `ig.CHO` (`data/ig2`). -/
def gases33 : List File := [
  ⟨"ig.CH2O2", .ig2,
    [p 200 0, p 1000 0, p 6000 0],
    [[p 323262453 8, p 281129582 11, p 244034975 13, n 317501066 16, p 12063166 18, n 467785606 4, p 986205647 8],
     [p 569579404 8, p 772237361 11, n 318037808 14, p 557949466 18, n 352618226 22, n 481599723 4, n 60168008 7]],
    p 4602568 5, some (p 100000 0), [("C", 1), ("H", 2), ("O", 2)]⟩,
  ⟨"ig.CH3", .ig2,
    [p 200 0, p 1000 0, p 6000 0],
    [[p 36735904 7, p 201095175 11, p 573021856 14, n 687117425 17, p 254385734 20, p 164449988 4, p 160456433 8],
     [p 296866033 8, p 580717546 11, n 197778534 14, p 307278752 18, n 178853897 22, p 165388869 4, p 477944503 8]],
    p 1503482 5, some (p 100000 0), [("C", 1), ("H", 3)]⟩,
  ⟨"ig.CH3Cl", .ig2,
    [p 29815 2, p 1000 0, p 5000 0],
    [[p 20672445 7, p 92091523 10, p 30426054 13, n 80342062 16, p 32127443 19, n 10896883 3, p 135839517 7],
     [p 42952986 7, p 72846822 10, n 24161191 13, p 35205838 17, n 18406185 21, n 11793465 3, p 859296529 9]],
    p 5048752 5, some (p 100000 0), [("C", 1), ("Cl", 1), ("H", 3)]⟩,
  ⟨"ig.CH3F", .ig2,
    [p 29815 2, p 1000 0, p 5000 0],
    [[p 22651024 7, p 60733855 10, p 6982541 12, n 81380911 16, p 21036341 19, n 29577664 3, p 118439594 7],
     [p 36256523 7, p 79683699 10, n 26845319 13, p 39841108 17, n 21348639 21, n 3037248 2, p 306990342 8]],
    p 3403322 5, some (p 100000 0), [("C", 1), ("F", 1), ("H", 3)]⟩,
  ⟨"ig.CH3O", .ig2,
    [p 200 0, p 1000 0, p 6000 0],
    [[p 326524894 8, p 330300117 11, p 170493964 13, n 227104476 16, p 88075652 19, p 333281488 6, p 74256804 7],
     [p 426676538 8, p 78538011 10, n 283739943 14, p 459039659 18, n 274426084 22, n 340073227 6, p 385637447 9]],
    p 3103422 5, some (p 100000 0), [("C", 1), ("H", 3), ("O", 1)]⟩,
  ⟨"ig.CH4", .ig2,
    [p 200 0, p 1000 0, p 6000 0],
    [[p 514987613 8, n 136709788 10, p 491800599 13, n 484743026 16, p 166693956 19, n 102466476 4, n 464130376 8],
     [p 163552643 8, p 100842795 10, n 336916254 14, p 534958667 18, n 315518833 22, n 100056455 4, p 999313326 8]],
    p 1604276 5, some (p 100000 0), [("C", 1), ("H", 4)]⟩,
  ⟨"ig.CH4O", .ig2,
    [p 200 0, p 1000 0, p 6000 0],
    [[p 571539582 8, n 152309129 10, p 652441155 13, n 710806889 16, p 261352698 19, n 256427656 4, n 150409823 8],
     [p 360134486 8, p 102430954 10, n 359985517 14, p 572505986 18, n 33911764 21, n 25997191 3, p 470512253 8]],
    p 3204216 5, some (p 100000 0), [("C", 1), ("H", 4), ("O", 1)]⟩,
  ⟨"ig.CHCl", .ig2,
    [p 29815 2, p 1000 0, p 5000 0],
    [[p 29613611 7, p 61151916 10, n 4520318 12, p 13093389 16, p 71578086 21, p 35959983 3, p 974349584 8],
     [p 51566036 7, p 45888325 11, p 44749023 14, n 13606787 17, p 10242445 21, p 35310577 3, n 175116146 8]],
    p 4847164 5, some (p 100000 0), [("C", 1), ("Cl", 1), ("H", 1)]⟩,
  ⟨"ig.CHCl2F", .ig2,
    [p 29815 2, p 1000 0, p 5000 0],
    [[p 31107159 7, p 16295891 9, n 47331187 13, n 9479816 15, p 6132375 18, n 35862211 3, p 129638499 7],
     [p 85083923 7, p 40345713 10, n 14268226 13, p 22247303 17, n 12630173 21, n 3742791 2, n 154116621 7]],
    p 10292274 5, some (p 100000 0), [("C", 1), ("Cl", 2), ("F", 1), ("H", 1)]⟩,
  ⟨"ig.CHCl3", .ig2,
    [p 29815 2, p 1000 0, p 5000 0],
    [[p 36819801 7, p 16611021 9, n 66180801 13, n 8129156 15, p 59433135 19, n 14141844 3, p 998349958 8],
     [p 8993803 6, p 35652192 10, n 12537648 13, p 19479131 17, n 11032021 21, n 15609 0, n 176316998 7]],
    p 11937704 5, some (p 100000 0), [("C", 1), ("Cl", 3), ("H", 1)]⟩,
  ⟨"ig.CHClF2", .ig2,
    [p 29815 2, p 1000 0, p 5000 0],
    [[p 2468112 6, p 15883945 9, n 28209015 13, n 10478132 15, p 60704896 19, n 59570879 3, p 151934234 7],
     [p 79029827 7, p 462519 8, n 16489867 13, p 25910429 17, n 14836212 21, n 61234266 3, n 137342976 7]],
    p 8646845 5, some (p 100000 0), [("C", 1), ("Cl", 1), ("F", 2), ("H", 1)]⟩,
  ⟨"ig.CHF3", .ig2,
    [p 29815 2, p 1000 0, p 5000 0],
    [[p 17857094 7, p 15961129 9, n 15575015 13, n 11366911 15, p 6127529 18, n 84591125 3, p 164575908 7],
     [p 73870249 7, p 51266924 10, n 18371775 13, p 29004643 17, n 16692089 21, n 86367438 3, n 136102612 7]],
    p 7001415 5, some (p 100000 0), [("C", 1), ("F", 3), ("H", 1)]⟩,
  ⟨"ig.CHN", .ig2,
    [p 200 0, p 1000 0, p 6000 0],
    [[p 225901123 8, p 100510591 10, n 133514911 13, p 100920882 16, n 300882048 20, p 152158495 4, p 89163459 7],
     [p 380231733 8, p 314630009 11, n 106315698 14, p 166185395 18, n 979891789 23, p 149104829 4, p 157503584 8]],
    p 2702568 5, some (p 100000 0), [("C", 1), ("H", 1), ("N", 1)]⟩,
  ⟨"ig.CHNO", .ig2,
    [p 200 0, p 1000 0, p 6000 0],
    [[p 224322454 8, p 14498638 9, n 152609054 13, p 836364453 17, n 172191967 20, n 134257512 4, p 121565469 7],
     [p 529404664 8, p 40303965 10, n 141290348 14, p 224428234 18, n 13285938 21, n 141653759 4, n 30876313 7]],
    p 4302508 5, some (p 100000 0), [("C", 1), ("H", 1), ("N", 1), ("O", 1)]⟩,
  ⟨"ig.CHO+", .ig2,
    [p 300 0, p 1000 0, p 5000 0],
    [[p 24739736 7, p 8671559 9, n 100315 10, p 67170527 16, n 17872674 19, p 99146608 3, p 817571187 8],
     [p 3741188 6, p 33441517 10, n 12397121 13, p 21189388 17, n 1370415 20, p 98884078 3, p 207861357 8]],
    p 2901779 5, some (p 100000 0), [("C", 1), ("H", 1), ("O", 1), ("e", -1)]⟩,
  ⟨"ig.CHO", .ig2,
    [p 200 0, p 1000 0, p 6000 0],
    [[p 422118584 8, n 324392532 11, p 137799446 13, n 133144093 16, p 433768865 20, p 383956496 5, p 339437243 8],
     [p 364896209 8, p 308090819 11, n 112429876 14, p 186308085 18, n 113951828 22, p 371209048 5, p 506147406 8]],
    p 2901834 5, some (p 100000 0), [("C", 1), ("H", 1), ("O", 1)]⟩]

/-- `ig.CHO2` .. `ig.CS2` (`data/ig2`). -/
def gases34 : List File := [
  ⟨"ig.CHO2", .ig2,
    [p 200 0, p 1000 0, p 6000 0],
    [[p 292207915 8, p 76245382 10, p 329884683 14, n 107135249 16, p 511587309 20, n 268383588 4, p 112925989 7],
     [p 539206247 8, p 411221305 11, n 148194817 14, p 239875278 18, n 143902965 22, n 276708786 4, n 223528631 8]],
    p 4501774 5, some (p 100000 0), [("C", 1), ("H", 1), ("O", 2)]⟩,
  ⟨"ig.CKN", .ig2,
    [p 300 0, p 1000 0, p 5000 0],
    [[p 50810711 7, p 55265956 10, n 91157121 13, p 84488817 16, n 30051548 19, p 78662161 4, p 186346868 9],
     [p 5800712 6, p 17200786 10, n 70791074 14, p 13199247 17, n 91908323 22, p 77272628 4, n 315883419 8]],
    p 6511604 5, some (p 100000 0), [("C", 1), ("K", 1), ("N", 1)]⟩,
  ⟨"ig.CN+", .ig2,
    [p 29815 2, p 1000 0, p 6000 0],
    [[p 692808505 8, n 281492178 10, p 758511376 13, n 724174336 16, p 233891503 19, p 215195507 3, n 1017305 5],
     [p 729006713 8, n 246331139 11, p 903599308 15, n 135970586 18, p 733709859 23, p 213579081 3, n 191340386 7]],
    p 2601719 5, some (p 100000 0), [("C", 1), ("N", 1), ("e", -1)]⟩,
  ⟨"ig.CN-", .ig2,
    [p 29815 2, p 1000 0, p 6000 0],
    [[p 381962846 8, n 248247316 11, p 604567838 14, n 452733194 17, p 115679167 20, p 680256336 5, p 238904403 8],
     [p 309051928 8, p 133181759 11, n 484902266 15, p 796865228 19, n 482770916 23, p 688195665 5, p 563128343 8]],
    p 2601829 5, some (p 100000 0), [("C", 1), ("N", 1), ("e", 1)]⟩,
  ⟨"ig.CN", .ig2,
    [p 200 0, p 1000 0, p 6000 0],
    [[p 361293502 8, n 955513275 12, p 214429765 14, n 31516327 17, n 464303546 21, p 519007958 4, p 398049947 8],
     [p 374818333 8, p 391753271 13, p 299702996 15, n 692704532 19, p 446137691 23, p 517278419 4, p 277469044 8]],
    p 2601774 5, some (p 100000 0), [("C", 1), ("N", 1)]⟩,
  ⟨"ig.CN2", .ig2,
    [p 200 0, p 1000 0, p 6000 0],
    [[p 324134033 8, p 850091346 11, n 76160814 13, p 364986585 17, n 842551872 21, p 58947737 3, p 67095645 7],
     [p 573815514 8, p 177244606 11, n 685751131 15, p 11571198 17, n 707567907 23, p 58221489 3, n 630533665 8]],
    p 4002448 5, some (p 100000 0), [("C", 1), ("N", 2)]⟩,
  ⟨"ig.CNNa", .ig2,
    [p 300 0, p 1000 0, p 5000 0],
    [[p 49772558 7, p 53225937 10, n 75552441 13, p 61839794 16, n 20071427 19, p 9673149 3, n 388207281 9],
     [p 57989775 7, p 16827946 10, n 67437924 14, p 12234502 17, n 82966091 22, p 94933444 4, n 434426041 8]],
    p 4900751 5, some (p 100000 0), [("C", 1), ("N", 1), ("Na", 1)]⟩,
  ⟨"ig.CNO", .ig2,
    [p 200 0, p 1000 0, p 6000 0],
    [[p 275452392 8, p 923008037 11, n 928006629 14, p 562521381 17, n 161200144 20, p 201842954 4, p 985368773 8],
     [p 515255717 8, p 230945594 11, n 883699519 15, p 148525346 18, n 908857905 23, p 19496375 3, n 25640635 7]],
    p 4201714 5, some (p 100000 0), [("C", 1), ("N", 1), ("O", 1)]⟩,
  ⟨"ig.CO+", .ig2,
    [p 29815 2, p 1000 0, p 6000 0],
    [[p 377057107 8, n 20177082 10, p 461076194 14, n 299171866 17, p 60605776 20, p 149004267 3, p 338125724 8],
     [p 293059407 8, p 156031391 11, n 616238969 15, p 109956019 18, n 666111307 23, p 149144692 3, p 733837928 8]],
    p 2800985 5, some (p 100000 0), [("C", 1), ("O", 1), ("e", -1)]⟩,
  ⟨"ig.CO", .ig2,
    [p 200 0, p 1000 0, p 6000 0],
    [[p 357953347 8, n 61035368 11, p 101681433 14, p 907005884 18, n 904424499 21, n 14344086 3, p 350840928 8],
     [p 304848583 8, p 135172818 11, n 485794075 15, p 788536486 19, n 469807489 23, n 142661171 4, p 60170979 7]],
    p 280104 4, some (p 100000 0), [("C", 1), ("O", 1)]⟩,
  ⟨"ig.CO2+", .ig2,
    [p 29815 2, p 1000 0, p 6000 0],
    [[p 339305653 8, p 582300415 11, p 438012075 16, n 468236271 17, p 231552825 20, p 112356151 3, p 639038553 8],
     [p 561292513 8, p 189829994 11, n 734596383 15, p 123975665 18, n 757692288 23, p 111621136 3, n 565135698 8]],
    p 4400925 5, some (p 100000 0), [("C", 1), ("O", 2), ("e", -1)]⟩,
  ⟨"ig.CO2", .ig2,
    [p 200 0, p 1000 0, p 6000 0],
    [[p 235677352 8, p 898459677 11, n 712356269 14, p 245919022 17, n 143699548 21, n 483719697 4, p 990105222 8],
     [p 463659493 8, p 274131991 11, n 995828531 15, p 160373011 18, n 916103468 23, n 490249341 4, n 193534855 8]],
    p 440098 4, some (p 100000 0), [("C", 1), ("O", 2)]⟩,
  ⟨"ig.COS", .ig2,
    [p 300 0, p 1000 0, p 5000 0],
    [[p 24625321 7, p 11947992 9, n 1379437 11, p 80707736 16, n 18327653 19, n 17803987 3, p 108058688 7],
     [p 52392 4, p 24100584 10, n 96064522 14, p 17778347 17, n 12235704 21, n 18480455 3, n 307773889 8]],
    p 600764 4, some (p 100000 0), [("C", 1), ("O", 1), ("S", 1)]⟩,
  ⟨"ig.CP", .ig2,
    [p 200 0, p 1000 0, p 6000 0],
    [[p 3702914 6, n 29402633 10, p 125263783 13, n 145948287 16, p 56195532 19, p 615029332 4, p 534971467 8],
     [p 416986061 8, n 333893154 12, p 630510095 15, n 165248916 18, p 125248542 22, p 612121016 4, p 205762288 8]],
    p 4298476 5, some (p 100000 0), [("C", 1), ("P", 1)]⟩,
  ⟨"ig.CS", .ig2,
    [p 300 0, p 1000 0, p 5000 0],
    [[p 34039344 7, n 65773308 11, p 61712157 13, n 73689604 16, p 27346738 19, p 32689393 3, p 591106729 8],
     [p 36826012 7, p 90473203 11, n 36436374 14, p 63854294 18, n 36933982 22, p 3249749 2, p 389841679 8]],
    p 44077 3, some (p 100000 0), [("C", 1), ("S", 1)]⟩,
  ⟨"ig.CS2", .ig2,
    [p 300 0, p 1000 0, p 5000 0],
    [[p 28326013 7, p 13290791 9, n 18144694 12, p 12831681 15, n 36800609 19, p 12766782 3, p 922219411 8],
     [p 5925261 6, p 18252996 10, n 7558538 13, p 14605073 17, n 10438595 21, p 12048071 3, n 605893229 8]],
    p 76143 3, some (p 100000 0), [("C", 1), ("S", 2)]⟩]

/-- `ig.CSi` .. `ig.Cl` (`data/ig2`). -/
def gases35 : List File := [
  ⟨"ig.CSi", .ig2,
    [p 300 0, p 1000 0, p 5000 0],
    [[n 21924696 7, p 413427 7, n 78274113 12, p 6069412 14, n 16729207 18, p 85953143 3, p 28769243 6],
     [p 55799033 7, n 13409344 10, p 75483047 14, n 16543778 17, p 12663345 21, p 8504612 2, n 565019631 8]],
    p 400965 4, some (p 100000 0), [("C", 1), ("Si", 1)]⟩,
  ⟨"ig.CSi2", .ig2,
    [p 300 0, p 1000 0, p 5000 0],
    [[p 40438938 7, p 73456957 10, n 66412549 13, p 24885047 16, n 18196555 20, p 62935417 3, p 418441209 8],
     [p 62510988 7, p 13224176 10, n 72805214 14, p 23269424 17, n 23285148 21, p 62300999 3, n 728347851 8]],
    p 68182 3, some (p 100000 0), [("C", 1), ("Si", 2)]⟩,
  ⟨"ig.Ca+", .ig2,
    [p 29815 2, p 1000 0, p 6000 0],
    [[p 25 1, p 0 0, p 0 0, p 0 0, p 0 0, p 923242106 4, p 507767503 8],
     [p 264221438 8, n 160517359 12, n 270843966 16, p 513522496 19, n 596487048 23, p 922596379 4, p 425372628 8]],
    p 4007745 5, some (p 100000 0), [("Ca", 1), ("e", -1)]⟩,
  ⟨"ig.Ca", .ig2,
    [p 200 0, p 1000 0, p 6000 0],
    [[p 25 1, p 0 0, p 0 0, p 0 0, p 0 0, p 206389279 4, p 438454833 8],
     [p 192707623 8, p 134909167 11, n 107515862 14, p 325457865 18, n 264671538 22, p 20819621 3, p 742878398 8]],
    p 40078 3, some (p 100000 0), [("Ca", 1)]⟩,
  ⟨"ig.Ca2", .ig2,
    [p 200 0, p 1000 0, p 6000 0],
    [[p 49459011 7, p 430621337 11, n 323384227 13, p 451640811 16, n 193501071 19, p 396175492 4, p 254511315 8],
     [p 316700199 8, n 616814444 12, p 20354096 14, n 27712818 18, p 165003046 23, p 40438238 3, p 137113509 7]],
    p 80156 3, some (p 100000 0), [("Ca", 2)]⟩,
  ⟨"ig.CaCl", .ig2,
    [p 300 0, p 1000 0, p 5000 0],
    [[p 36730515 7, p 33144164 10, n 51682435 13, p 37111267 16, n 99687031 20, n 13784144 3, p 733679641 8],
     [p 43067116 7, p 40084963 11, n 23313661 14, p 63921797 18, n 48662383 22, n 13892656 3, p 437337421 8]],
    p 755307 4, some (p 100000 0), [("Ca", 1), ("Cl", 1)]⟩,
  ⟨"ig.CaCl2", .ig2,
    [p 300 0, p 1000 0, p 5000 0],
    [[p 61613363 7, p 53060429 10, n 84649463 13, p 61128897 16, n 16522362 19, n 58722935 3, n 144829735 8],
     [p 73650014 7, p 15327108 11, n 67275285 15, p 13014131 18, n 92567968 23, n 58954731 3, n 718852085 8]],
    p 1109834 4, some (p 100000 0), [("Ca", 1), ("Cl", 2)]⟩,
  ⟨"ig.CaF", .ig2,
    [p 300 0, p 1000 0, p 5000 0],
    [[p 3050899 6, p 51549439 10, n 73508296 13, p 47876458 16, n 11523155 19, n 33792345 3, p 898800887 8],
     [p 41988621 7, p 49244093 11, n 26102123 14, p 64791635 18, n 47303951 22, n 34021129 3, p 346314757 8]],
    p 590764 4, some (p 100000 0), [("Ca", 1), ("F", 1)]⟩,
  ⟨"ig.CaF2", .ig2,
    [p 300 0, p 1000 0, p 5000 0],
    [[p 42308152 7, p 10255805 9, n 15444345 12, p 10546791 15, n 26843916 19, n 95955261 3, p 636780653 8],
     [p 66543431 7, p 39052692 11, n 1708107 13, p 3295284 17, n 23387741 22, n 96445279 3, n 531072117 8]],
    p 7807481 5, some (p 100000 0), [("Ca", 1), ("F", 2)]⟩,
  ⟨"ig.CaI", .ig2,
    [p 300 0, p 1000 0, p 5000 0],
    [[p 40239101 7, p 22559978 10, n 40939833 13, p 34840051 16, n 11162996 19, n 18770511 4, p 799031065 8],
     [p 43198471 7, p 43466691 11, n 2744192 13, p 80080441 18, n 65451608 22, n 19064804 4, p 671480235 8]],
    p 16698247 5, some (p 100000 0), [("Ca", 1), ("I", 1)]⟩,
  ⟨"ig.CaI2", .ig2,
    [p 300 0, p 1000 0, p 5000 0],
    [[p 65641727 7, p 4268465 9, n 79247583 13, p 672056 14, n 21485461 19, n 33138282 3, p 102209228 8],
     [p 74238665 7, p 88555358 12, n 39846893 15, p 78918357 19, n 57352658 23, n 33287752 3, n 297844542 8]],
    p 29388694 5, some (p 100000 0), [("Ca", 1), ("I", 2)]⟩,
  ⟨"ig.CaO", .ig2,
    [p 300 0, p 1000 0, p 5000 0],
    [[p 26718602 7, p 64324025 10, n 9572703 12, p 67620424 16, n 18173049 19, p 42734531 4, p 965422679 8],
     [p 91745865 7, n 10643234 9, p 76968968 13, n 19070443 16, p 15509231 20, p 23248041 4, n 244275825 7]],
    p 560774 4, some (p 100000 0), [("Ca", 1), ("O", 1)]⟩,
  ⟨"ig.CaS", .ig2,
    [p 29815 2, p 1000 0, p 5000 0],
    [[p 322586008 8, p 530640418 11, n 876527639 14, p 642601054 17, n 161529035 20, p 137334866 4, p 83489208 7],
     [p 535707752 8, n 418392513 11, p 468291375 14, n 140725075 17, p 128892668 21, p 134741825 4, n 14317321 7]],
    p 72144 3, some (p 100000 0), [("Ca", 1), ("S", 1)]⟩,
  ⟨"ig.Cl+", .ig2,
    [p 29815 2, p 1000 0, p 6000 0],
    [[p 171435396 8, p 662489248 11, n 135523086 13, p 11499976 15, n 358760566 20, p 165123809 3, p 891739552 8],
     [p 312286072 8, n 636624037 12, p 24833792 14, n 372507849 19, p 198433686 23, p 164912234 3, p 249731349 8]],
    p 3545215 5, some (p 100000 0), [("Cl", 1), ("e", -1)]⟩,
  ⟨"ig.Cl-", .ig2,
    [p 29815 2, p 1000 0, p 6000 0],
    [[p 25 1, p 0 0, p 0 0, p 0 0, p 0 0, n 288834132 4, p 420062927 8],
     [p 25 1, p 0 0, p 0 0, p 0 0, p 0 0, n 288834132 4, p 420062927 8]],
    p 3545325 5, some (p 100000 0), [("Cl", 1), ("e", 1)]⟩,
  ⟨"ig.Cl", .ig2,
    [p 200 0, p 1000 0, p 6000 0],
    [[p 22606248 7, p 154154399 11, n 680283622 15, n 159972975 17, p 115416636 20, p 138552986 4, p 657020799 8],
     [p 294658358 8, n 385985408 12, p 136139388 15, n 217032923 19, p 128751025 23, p 136970327 4, p 311330136 8]],
    p 354527 4, some (p 100000 0), [("Cl", 1)]⟩]

/-- `ig.Cl2` .. `ig.Cl2S2` (`data/ig2`). -/
def gases36 : List File := [
  ⟨"ig.Cl2", .ig2,
    [p 200 0, p 1000 0, p 6000 0],
    [[p 273638114 8, p 7835257 9, n 145104963 13, p 125730834 16, n 413247145 20, n 105880114 5, p 944555879 8],
     [p 474727508 8, n 48858171 11, p 268444871 15, n 243476083 19, n 103683148 23, n 151101862 5, n 344551305 9]],
    p 709054 4, some (p 100000 0), [("Cl", 2)]⟩,
  ⟨"ig.Cl2Cs2", .ig2,
    [p 300 0, p 1000 0, p 5000 0],
    [[p 92952642 7, p 285056 8, n 45576019 13, p 32557731 16, n 86067362 20, n 82222862 3, n 751835332 8],
     [p 99424375 7, p 62659303 12, n 26331097 15, p 48912142 19, n 33554152 23, n 82345855 3, n 105980604 7]],
    p 33671626 5, some (p 100000 0), [("Cl", 2), ("Cs", 2)]⟩,
  ⟨"ig.Cl2Fe", .ig2,
    [p 300 0, p 1000 0, p 5000 0],
    [[p 54557505 7, p 79632927 10, n 12593964 12, p 89976734 16, n 23242363 19, n 18844297 3, p 302284219 8],
     [p 69492601 7, p 53371641 11, p 70221207 15, n 6147549 17, p 67933143 22, n 19045832 3, n 375951441 8]],
    p 1267524 4, some (p 100000 0), [("Cl", 2), ("Fe", 1)]⟩,
  ⟨"ig.Cl2K2", .ig2,
    [p 300 0, p 1000 0, p 5000 0],
    [[p 87067974 7, p 60154047 10, n 11303939 12, p 96620814 16, n 31055657 19, n 77067696 3, n 853754725 8],
     [p 99041069 7, p 11179707 11, n 50391197 15, p 99934614 19, n 72703009 23, n 7727233 2, n 14090282 6]],
    p 149102 3, some (p 100000 0), [("Cl", 2), ("K", 2)]⟩,
  ⟨"ig.Cl2Li2", .ig2,
    [p 300 0, p 1000 0, p 5000 0],
    [[p 52801351 7, p 183841 7, n 28769448 12, p 20313359 15, n 53433247 19, n 74160003 3, p 279279422 9],
     [p 95245614 7, p 52458834 11, n 22337949 14, p 41951114 18, n 29021306 22, n 74990263 3, n 200316716 7]],
    p 847874 4, some (p 100000 0), [("Cl", 2), ("Li", 2)]⟩,
  ⟨"ig.Cl2Mg", .ig2,
    [p 300 0, p 1000 0, p 5000 0],
    [[p 54095529 7, p 77206281 10, n 11620094 12, p 79417889 16, n 20252502 19, n 49070537 3, p 647158084 9],
     [p 72401913 7, p 28856239 11, n 12401187 14, p 23527101 18, n 16443205 22, n 49442326 3, n 818090146 8]],
    p 952104 4, some (p 100000 0), [("Cl", 2), ("Mg", 1)]⟩,
  ⟨"ig.Cl2Na2", .ig2,
    [p 300 0, p 1000 0, p 5000 0],
    [[p 79583953 7, p 8396236 9, n 13817116 12, p 10277666 15, n 28644994 19, n 70725939 3, n 817532471 8],
     [p 98262001 7, p 19184763 11, n 81608743 15, p 15298181 18, n 10558994 22, n 71077149 3, n 170361009 7]],
    p 11688494 5, some (p 100000 0), [("Cl", 2), ("Na", 2)]⟩,
  ⟨"ig.Cl2Ni", .ig2,
    [p 300 0, p 1000 0, p 5000 0],
    [[p 45606177 7, p 13613713 9, n 23660133 12, p 19616264 15, n 62417291 19, n 10683571 3, p 623619416 8],
     [p 7387453 6, p 84637595 11, n 43149542 14, p 93590846 18, n 71915139 22, n 11235857 3, n 718895104 8]],
    p 1295988 4, some (p 100000 0), [("Cl", 2), ("Ni", 1)]⟩,
  ⟨"ig.Cl2O", .ig2,
    [p 300 0, p 1000 0, p 5000 0],
    [[p 32545238 7, p 12799449 9, n 1788246 11, p 11264383 15, n 25964252 19, p 91657423 4, p 105712106 7],
     [p 64340062 7, p 62728809 11, n 26933252 14, p 51076394 18, n 35691545 22, p 8486053 3, n 493672407 8]],
    p 869048 4, some (p 100000 0), [("Cl", 2), ("O", 1)]⟩,
  ⟨"ig.Cl2O2S", .ig2,
    [p 300 0, p 1000 0, p 5000 0],
    [[p 43851677 7, p 23212157 9, n 26532112 12, p 13499923 15, n 22819281 19, n 44802974 3, p 65786788 7],
     [p 10550937 6, p 26734301 10, n 1142823 12, p 216862 15, n 15199151 21, n 46295056 3, n 24307857 6]],
    p 1349702 4, some (p 100000 0), [("Cl", 2), ("O", 2), ("S", 1)]⟩,
  ⟨"ig.Cl2OTi", .ig2,
    [p 300 0, p 1000 0, p 5000 0],
    [[p 5440814 6, p 17705049 9, n 29525241 12, p 23247328 15, n 70479777 19, n 67806854 3, p 345077325 8],
     [p 93368655 7, p 75969987 11, n 33827378 14, p 66483863 18, n 48033793 22, n 68572645 3, n 151441772 7]],
    p 1347848 4, some (p 100000 0), [("Cl", 2), ("O", 1), ("Ti", 1)]⟩,
  ⟨"ig.Cl2Pb+", .ig2,
    [p 300 0, p 1000 0, p 5000 0],
    [[p 55653876 7, p 57468417 10, n 92445041 13, p 67256888 16, n 18313858 19, p 96334985 3, p 5249054 6],
     [p 68418837 7, p 19792473 11, n 96562822 15, p 2010644 17, n 13246579 22, p 96094018 3, n 81604348 8]],
    p 27810485 5, some (p 100000 0), [("Cl", 2), ("Pb", 1), ("e", -1)]⟩,
  ⟨"ig.Cl2Pb", .ig2,
    [p 300 0, p 1000 0, p 5000 0],
    [[p 56399407 7, p 54622134 10, n 88056872 13, p 6419723 15, n 17518591 19, n 22792336 3, p 472790485 8],
     [p 68401678 7, p 20601308 11, n 10023434 14, p 19262772 18, n 87941419 23, n 23016362 3, n 963755109 9]],
    p 2781054 4, some (p 100000 0), [("Cl", 2), ("Pb", 1)]⟩,
  ⟨"ig.Cl2S+", .ig2,
    [p 300 0, p 1000 0, p 5000 0],
    [[p 35958727 7, p 14291665 9, n 25084998 12, p 20446893 15, n 63504669 19, p 10690283 2, p 107558337 7],
     [p 6580257 6, p 521764 9, n 25076979 14, p 50988124 18, n 32730292 22, p 10635486 2, n 329493832 8]],
    p 10297085 5, some (p 100000 0), [("Cl", 2), ("S", 1), ("e", -1)]⟩,
  ⟨"ig.Cl2S", .ig2,
    [p 300 0, p 1000 0, p 5000 0],
    [[p 35966371 7, p 14327193 9, n 25199197 12, p 20572882 15, n 63976908 19, n 36375837 4, p 100605557 7],
     [p 66271462 7, p 42747019 11, n 18816881 14, p 35761155 18, n 238494 20, n 42000219 4, n 423237025 8]],
    p 1029714 4, some (p 100000 0), [("Cl", 2), ("S", 1)]⟩,
  ⟨"ig.Cl2S2", .ig2,
    [p 200 0, p 1000 0, p 6000 0],
    [[p 347905708 8, p 325370028 10, n 66390462 12, p 621124845 16, n 217112325 19, n 402225567 5, p 122791824 7],
     [p 94684102 7, p 112186352 11, n 69278428 14, p 138654463 18, n 929397839 23, n 505019524 5, n 152950441 7]],
    p 1350374 4, some (p 100000 0), [("Cl", 2), ("S", 2)]⟩]

/-- `ig.Cl2Si` .. `ig.ClCs` (`data/ig2`). -/
def gases37 : List File := [
  ⟨"ig.Cl2Si", .ig2,
    [p 300 0, p 1000 0, p 5000 0],
    [[p 37109961 7, p 13966352 9, n 24711054 12, p 20259219 15, n 63193703 19, n 21825949 3, p 94615818 7],
     [p 66307889 7, p 43853279 11, n 19811351 14, p 37005873 18, n 20714394 22, n 22360719 3, n 42748702 7]],
    p 989909 4, some (p 100000 0), [("Cl", 2), ("Si", 1)]⟩,
  ⟨"ig.Cl2Sr", .ig2,
    [p 300 0, p 1000 0, p 5000 0],
    [[p 58907141 7, p 44942789 10, n 72989404 13, p 53588135 16, n 14730631 19, n 58816404 3, p 342525071 8],
     [p 68964362 7, p 11788718 11, n 5185408 14, p 10048831 18, n 71584348 23, n 59006904 3, n 135434839 8]],
    p 1585254 4, some (p 100000 0), [("Cl", 2), ("Sr", 1)]⟩,
  ⟨"ig.Cl2Ti", .ig2,
    [p 300 0, p 1000 0, p 5000 0],
    [[p 49723475 7, p 11277335 9, n 20581916 12, p 1718665 14, n 5404959 18, n 30366285 3, p 255909638 8],
     [p 77624852 7, n 93872425 11, p 80121518 14, n 1904803 16, p 14961545 21, n 30915805 3, n 107526011 7]],
    p 1187854 4, some (p 100000 0), [("Cl", 2), ("Ti", 1)]⟩,
  ⟨"ig.Cl3Cu3", .ig2,
    [p 300 0, p 1000 0, p 5000 0],
    [[p 114429 4, p 20690806 9, n 38264003 12, p 32341053 15, n 10309884 18, n 3515161 2, n 182687865 7],
     [p 15626127 6, p 43373833 11, n 19467006 14, p 38466938 18, n 278997 20, n 35881853 3, n 377523345 7]],
    p 2969961 4, some (p 100000 0), [("Cl", 3), ("Cu", 3)]⟩,
  ⟨"ig.Cl3Fe", .ig2,
    [p 300 0, p 1000 0, p 5000 0],
    [[p 75614873 7, p 97338249 10, n 15543305 12, p 11186368 15, n 30022998 19, n 33013624 3, n 398583203 8],
     [p 97771106 7, p 24421362 11, n 10313994 14, p 19207426 18, n 13179299 22, n 3343957 2, n 145491463 7]],
    p 1622051 4, some (p 100000 0), [("Cl", 3), ("Fe", 1)]⟩,
  ⟨"ig.Cl3Li3", .ig2,
    [p 300 0, p 1000 0, p 5000 0],
    [[p 45745959 7, p 39749239 9, n 56508213 12, p 36294145 15, n 857847 17, n 12353351 2, p 468059658 8],
     [p 1431944 5, p 18854007 10, n 8197833 13, p 15735494 17, n 11119472 21, n 12558851 2, n 427110226 7]],
    p 1271811 4, some (p 100000 0), [("Cl", 3), ("Li", 3)]⟩,
  ⟨"ig.Cl3P", .ig2,
    [p 300 0, p 1000 0, p 5000 0],
    [[p 52590537 7, p 17880566 9, n 27317585 12, p 1889824 14, n 48738496 19, n 368644304 4, p 32523297 7],
     [p 94566116 7, p 60278401 11, n 25846878 14, p 4890428 17, n 34083285 22, n 377045574 4, n 169296498 7]],
    p 13733186 5, some (p 100000 0), [("Cl", 3), ("P", 1)]⟩,
  ⟨"ig.Cl3Si", .ig2,
    [p 300 0, p 1000 0, p 5000 0],
    [[p 42627027 7, p 24050869 9, n 42184882 12, p 3437393 14, n 10674462 18, n 48981205 3, p 840523855 8],
     [p 93594631 7, p 73834838 11, n 32994049 14, p 64989973 18, n 47023241 22, n 49930068 3, n 15648011 6]],
    p 1344436 4, some (p 100000 0), [("Cl", 3), ("Si", 1)]⟩,
  ⟨"ig.Cl3Ti", .ig2,
    [p 300 0, p 1000 0, p 5000 0],
    [[p 28801557 7, p 33558933 9, n 5995746 11, p 48863664 15, n 15090992 18, n 66776023 3, p 139582088 7],
     [p 10008103 6, p 41936374 11, n 21504873 14, p 45337018 18, n 34546838 22, n 6806125 2, n 195106532 7]],
    p 1542381 4, some (p 100000 0), [("Cl", 3), ("Ti", 1)]⟩,
  ⟨"ig.Cl4Fe2", .ig2,
    [p 300 0, p 1000 0, p 5000 0],
    [[p 12738242 6, p 13235558 9, n 21641873 12, p 15993667 15, n 43507097 19, n 56106579 3, n 198247491 7],
     [p 153575 4, p 64207861 11, p 2081773 14, n 51580559 18, p 60673495 22, n 56510037 3, n 318965871 7]],
    p 2535048 4, some (p 100000 0), [("Cl", 4), ("Fe", 2)]⟩,
  ⟨"ig.Cl4Pb", .ig2,
    [p 300 0, p 1000 0, p 5000 0],
    [[p 96282979 7, p 13456438 9, n 21571731 12, p 15638215 15, n 42414922 19, n 69746487 3, n 121348482 7],
     [p 12669673 6, p 37512256 11, n 1646537 13, p 31848855 18, n 22650947 22, n 70329151 3, n 266238322 7]],
    p 3490108 4, some (p 100000 0), [("Cl", 4), ("Pb", 1)]⟩,
  ⟨"ig.Cl4Si", .ig2,
    [p 300 0, p 1000 0, p 5000 0],
    [[p 6104001 6, p 24933114 9, n 36703263 12, p 24448748 15, n 60370155 19, n 82359273 3, n 976400498 9],
     [p 12089655 6, p 10190735 10, n 44167865 14, p 84481573 18, n 5949158 21, n 8359025 2, n 299269336 7]],
    p 1698963 4, some (p 100000 0), [("Cl", 4), ("Si", 1)]⟩,
  ⟨"ig.Cl4Ti", .ig2,
    [p 300 0, p 1000 0, p 5000 0],
    [[p 69496757 7, p 26049659 9, n 46520302 12, p 38384834 15, n 12027915 18, n 94677831 3, n 292575094 8],
     [p 1238603 5, p 70931316 11, n 31746078 14, p 62603958 18, n 45337038 22, n 95669078 3, n 284715956 7]],
    p 1896908 4, some (p 100000 0), [("Cl", 4), ("Ti", 1)]⟩,
  ⟨"ig.Cl4V", .ig2,
    [p 300 0, p 1000 0, p 5000 0],
    [[p 71166462 7, p 25423217 9, n 45499017 12, p 37583886 15, n 11780344 18, n 66123893 3, n 233095475 8],
     [p 12718647 6, p 16600176 12, p 14161498 14, n 34761833 18, p 22889763 22, n 67187992 3, n 288480103 7]],
    p 1927523 4, some (p 100000 0), [("Cl", 4), ("V", 1)]⟩,
  ⟨"ig.Cl6Fe2", .ig2,
    [p 200 0, p 1000 0, p 6000 0],
    [[p 142211808 7, p 435485968 10, n 960390188 13, p 937463081 16, n 336051626 19, n 841996265 4, n 259244694 7],
     [p 215645031 7, p 462349015 12, n 184952078 15, p 320143043 19, n 201002737 23, n 852432375 4, n 586538185 7]],
    p 3244102 4, some (p 100000 0), [("Cl", 6), ("Fe", 2)]⟩,
  ⟨"ig.ClCs", .ig2,
    [p 300 0, p 1000 0, p 5000 0],
    [[p 4182303 6, p 13759553 10, n 20586933 13, p 14836474 16, n 39764546 20, n 30177927 3, p 663848788 8],
     [p 44798455 7, p 10949164 11, n 39989914 16, p 20641995 20, p 2218464 23, n 30235809 3, p 521731708 8]],
    p 16835813 5, some (p 100000 0), [("Cl", 1), ("Cs", 1)]⟩]

/-- `ig.ClCu` .. `ig.ClNi` (`data/ig2`). -/
def gases38 : List File := [
  ⟨"ig.ClCu", .ig2,
    [p 300 0, p 1000 0, p 5000 0],
    [[p 334916 5, p 51028302 10, n 91278002 13, p 76014155 16, n 23984489 19, p 97967562 4, p 826947304 8],
     [p 43902988 7, p 18349484 11, n 57110703 15, p 11293321 18, n 8197552 22, p 96097266 4, p 339216514 8]],
    p 989987 4, some (p 100000 0), [("Cl", 1), ("Cu", 1)]⟩,
  ⟨"ig.ClD", .ig2,
    [p 300 0, p 1000 0, p 5000 0],
    [[p 38269213 7, n 25013326 10, p 60466124 13, n 44837519 16, p 11367641 19, n 12301921 3, p 189177784 8],
     [p 29572034 7, p 1591816 9, n 63320272 14, p 11755658 17, n 81599911 22, n 12173515 3, p 589879674 8]],
    p 374668 4, some (p 100000 0), [("Cl", 1), ("D", 1)]⟩,
  ⟨"ig.ClDO", .ig2,
    [p 300 0, p 1000 0, p 5000 0],
    [[p 24790418 7, p 10845896 9, n 15228305 12, p 11437314 15, n 34204925 19, n 10518092 3, p 121267107 7],
     [p 44350761 7, p 25322387 10, n 10312331 13, p 19005454 17, n 12682384 21, n 10919402 3, p 272715969 8]],
    p 534662 4, some (p 100000 0), [("Cl", 1), ("D", 1), ("O", 1)]⟩,
  ⟨"ig.ClF", .ig2,
    [p 300 0, p 1000 0, p 5000 0],
    [[p 26445569 7, p 62481256 10, n 90354351 13, p 63400575 16, n 17435372 19, n 70469106 4, p 9630428 6],
     [p 28486233 7, p 31733279 10, n 20523387 13, p 52162733 17, n 37472262 21, n 69278824 4, p 93169966 7]],
    p 544511 4, some (p 100000 0), [("Cl", 1), ("F", 1)]⟩,
  ⟨"ig.ClF3", .ig2,
    [p 300 0, p 1000 0, p 5000 0],
    [[p 28949119 7, p 2471855 8, n 35139323 12, p 22559591 15, n 53261978 19, n 2079864 2, p 113816921 7],
     [p 89535967 7, p 11722163 10, n 50896188 14, p 97563489 18, n 68858731 22, n 22075968 3, n 180815549 7]],
    p 9244791 5, some (p 100000 0), [("Cl", 1), ("F", 3)]⟩,
  ⟨"ig.ClFMg", .ig2,
    [p 200 0, p 1000 0, p 6000 0],
    [[p 315704293 8, p 16453479 9, n 301126869 13, p 257974606 16, n 842487547 20, n 69891004 3, p 102255402 7],
     [p 657082252 8, p 448876208 12, n 177994819 15, p 306318205 19, n 191554544 23, n 705235977 4, n 583555414 8]],
    p 787561 4, some (p 100000 0), [("Cl", 1), ("F", 1), ("Mg", 1)]⟩,
  ⟨"ig.ClFO2S", .ig2,
    [p 300 0, p 1000 0, p 5000 0],
    [[p 29817528 7, p 26449167 9, n 29200182 12, p 13957611 15, n 20304487 19, n 68761497 3, p 127316812 7],
     [p 10118286 6, p 31488994 10, n 13471514 13, p 2558031 16, n 17938256 21, n 70509291 3, n 231278508 7]],
    p 1185159 4, some (p 100000 0), [("Cl", 1), ("F", 1), ("O", 2), ("S", 1)]⟩,
  ⟨"ig.ClFe", .ig2,
    [p 300 0, p 1000 0, p 5000 0],
    [[p 37885826 7, p 43678011 10, n 66922328 13, p 41707454 16, n 84686773 20, p 28920097 3, p 835336756 8],
     [p 46940669 7, p 11604078 11, n 20840175 15, n 17626556 19, p 52313814 23, p 28790344 3, p 419355506 8]],
    p 912997 4, some (p 100000 0), [("Cl", 1), ("Fe", 1)]⟩,
  ⟨"ig.ClK", .ig2,
    [p 300 0, p 1000 0, p 5000 0],
    [[p 39908569 7, p 21089169 10, n 3183653 12, p 22525308 16, n 59094179 20, n 27080184 3, p 551200445 8],
     [p 44636733 7, p 12229207 11, n 9171921 15, p 92648242 20, n 10407917 24, n 27173133 3, p 324808995 8]],
    p 74551 3, some (p 100000 0), [("Cl", 1), ("K", 1)]⟩,
  ⟨"ig.ClLi", .ig2,
    [p 300 0, p 1000 0, p 5000 0],
    [[p 29906906 7, p 50338642 10, n 65671979 13, p 3805016 15, n 76117455 20, n 24603182 3, p 732818448 8],
     [p 42712143 7, p 31400291 11, n 1012313 13, p 18451853 18, n 12398731 22, n 24884442 3, p 104172158 8]],
    p 423937 4, some (p 100000 0), [("Cl", 1), ("Li", 1)]⟩,
  ⟨"ig.ClMg+", .ig2,
    [p 300 0, p 1000 0, p 5000 0],
    [[p 3601223 6, p 34791859 10, n 51353143 13, p 34446337 16, n 83848206 20, p 77314688 3, p 613385933 8],
     [p 63512344 7, n 3796719 9, p 24712945 13, n 50823653 17, p 33672625 21, p 76480879 3, n 829036227 8]],
    p 5975715 5, some (p 100000 0), [("Cl", 1), ("Mg", 1), ("e", -1)]⟩,
  ⟨"ig.ClMg", .ig2,
    [p 300 0, p 1000 0, p 5000 0],
    [[p 33800534 7, p 42813389 10, n 64457333 13, p 44472291 16, n 11421727 19, n 6382656 3, p 778898816 8],
     [p 43775833 7, p 18834178 11, n 54488592 15, p 99481031 19, n 66949611 23, n 65830826 4, p 298938866 8]],
    p 597577 4, some (p 100000 0), [("Cl", 1), ("Mg", 1)]⟩,
  ⟨"ig.ClNO", .ig2,
    [p 29815 2, p 1000 0, p 5000 0],
    [[p 38429363 7, p 7307572 9, n 91400726 13, p 66611758 16, n 20502905 19, p 49364872 4, p 774079403 8],
     [p 58695676 7, p 93218476 11, n 25235542 14, p 80944493 18, n 90203727 22, p 4371781 3, n 264405757 8]],
    p 6545884 5, some (p 100000 0), [("Cl", 1), ("N", 1), ("O", 1)]⟩,
  ⟨"ig.ClNO2", .ig2,
    [p 29815 2, p 1000 0, p 5000 0],
    [[p 25598039 7, p 17969319 9, n 20265255 12, p 11699183 15, n 27863372 19, p 9879068 5, p 135899582 7],
     [p 71202601 7, p 31869557 10, n 13779897 13, p 26653163 17, n 19043796 21, n 10615347 4, n 94547656 7]],
    p 8145824 5, some (p 100000 0), [("Cl", 1), ("N", 1), ("O", 2)]⟩,
  ⟨"ig.ClNa", .ig2,
    [p 300 0, p 1000 0, p 5000 0],
    [[p 37032286 7, p 31997608 10, n 48924502 13, p 34639218 16, n 91357521 20, n 23028276 3, p 577347949 8],
     [p 44282931 7, p 15627241 11, n 28108383 15, p 47163571 19, n 28832557 23, n 231709 1, p 230097459 8]],
    p 5844247 5, some (p 100000 0), [("Cl", 1), ("Na", 1)]⟩,
  ⟨"ig.ClNi", .ig2,
    [p 300 0, p 1000 0, p 5000 0],
    [[p 34897757 7, p 3183793 9, n 19148912 13, n 35736317 17, p 46074768 20, p 20725935 3, p 954974436 8],
     [p 55836514 7, n 14329578 10, p 85207723 14, n 14886393 17, p 81551624 22, p 20056505 3, n 163732144 8]],
    p 941461 4, some (p 100000 0), [("Cl", 1), ("Ni", 1)]⟩]

/-- `ig.ClO` .. `ig.Cs+` (`data/ig2`). -/
def gases39 : List File := [
  ⟨"ig.ClO", .ig2,
    [p 300 0, p 1000 0, p 5000 0],
    [[p 28179364 7, p 44531333 10, n 44124893 13, p 15920942 16, n 14486242 21, p 11171397 3, p 100579823 7],
     [p 40912619 7, p 50003126 11, n 18778206 14, p 35097671 18, n 24205038 22, p 10853223 3, p 361889244 8]],
    p 514521 4, some (p 100000 0), [("Cl", 1), ("O", 1)]⟩,
  ⟨"ig.ClO2", .ig2,
    [p 200 0, p 1000 0, p 6000 0],
    [[p 329338614 8, p 619311337 11, p 105685372 14, n 816191254 17, p 4346946 18, p 113760776 4, p 103017024 7],
     [p 576647681 8, p 141132506 11, n 543714031 15, p 100734295 18, n 643543762 23, p 106324182 4, n 286560082 8]],
    p 674515 4, some (p 100000 0), [("Cl", 1), ("O", 2)]⟩,
  ⟨"ig.ClOTi", .ig2,
    [p 300 0, p 1000 0, p 5000 0],
    [[p 34093856 7, p 15170554 9, n 24428483 12, p 18734521 15, n 55680684 19, n 30887846 3, p 869442617 8],
     [p 68319924 7, p 76359387 11, n 33953089 14, p 66667069 18, n 48132946 22, n 31582311 3, n 775381613 8]],
    p 993321 4, some (p 100000 0), [("Cl", 1), ("O", 1), ("Ti", 1)]⟩,
  ⟨"ig.ClPb+", .ig2,
    [p 300 0, p 1000 0, p 5000 0],
    [[p 39604808 7, p 22511384 10, n 35559302 13, p 26130965 16, n 71901284 20, p 8842137 2, p 758774285 8],
     [p 44591697 7, p 97407307 12, n 48821134 16, n 25472246 19, p 62470877 23, p 88325847 3, p 521310065 8]],
    p 24265215 5, some (p 100000 0), [("Cl", 1), ("Pb", 1), ("e", -1)]⟩,
  ⟨"ig.ClPb", .ig2,
    [p 300 0, p 1000 0, p 5000 0],
    [[p 38972912 7, p 24867464 10, n 39157144 13, p 28494283 16, n 7726658 19, p 56862579 5, p 842847364 8],
     [p 47016535 7, n 42255171 11, p 32684779 14, n 65162147 18, p 42978602 22, p 37797991 5, p 443744174 8]],
    p 2426527 4, some (p 100000 0), [("Cl", 1), ("Pb", 1)]⟩,
  ⟨"ig.ClS", .ig2,
    [p 300 0, p 1000 0, p 5000 0],
    [[p 3705588 6, p 52718623 10, n 1137182 11, p 10497827 15, n 35318408 19, p 17561159 3, p 627945123 8],
     [p 4594726 6, n 59771786 12, p 45226495 15, n 93718435 19, p 80735727 23, p 17452426 3, p 237985153 8]],
    p 675187 4, some (p 100000 0), [("Cl", 1), ("S", 1)]⟩,
  ⟨"ig.ClS2", .ig2,
    [p 200 0, p 1000 0, p 6000 0],
    [[p 297426932 8, p 190782904 10, n 376265413 13, p 340374979 16, n 115684664 19, p 79892298 4, p 138424354 7],
     [p 662320418 8, p 418284634 12, n 17565912 14, p 309718384 19, n 175155922 23, p 7374959 3, n 298511892 8]],
    p 995847 4, some (p 100000 0), [("Cl", 1), ("S", 2)]⟩,
  ⟨"ig.ClSi", .ig2,
    [p 300 0, p 1000 0, p 5000 0],
    [[p 37396533 7, p 31164716 10, n 52474383 13, p 42012543 16, n 12887222 19, p 22638261 3, p 656734951 8],
     [p 43982894 7, p 16740787 11, n 53606247 15, p 95731549 19, n 44530892 23, p 22513145 3, p 344495821 8]],
    p 635382 4, some (p 100000 0), [("Cl", 1), ("Si", 1)]⟩,
  ⟨"ig.ClSr", .ig2,
    [p 300 0, p 1000 0, p 5000 0],
    [[p 39036185 7, p 24634428 10, n 38776965 13, p 28303375 16, n 7730412 19, n 1613974 2, p 751664683 8],
     [p 43344418 7, p 38952112 11, n 24461312 14, p 73284365 18, n 59733325 22, n 16208781 3, p 552525593 8]],
    p 1230727 4, some (p 100000 0), [("Cl", 1), ("Sr", 1)]⟩,
  ⟨"ig.ClTi", .ig2,
    [p 300 0, p 1000 0, p 5000 0],
    [[p 28543089 7, p 79593345 10, n 98211162 13, p 52419981 16, n 97986177 20, p 17441216 3, p 117302246 7],
     [p 5296976 6, n 16401692 11, p 15719761 14, n 38567089 18, p 30739663 22, p 16857674 3, n 494472671 9]],
    p 833327 4, some (p 100000 0), [("Cl", 1), ("Ti", 1)]⟩,
  ⟨"ig.Cr", .ig2,
    [p 200 0, p 1000 0, p 6000 0],
    [[p 250259371 8, n 27656017 12, p 103974095 15, n 161996406 18, p 889391985 22, p 470600237 4, p 67110721 7],
     [p 308497752 8, n 144703683 11, p 108492194 14, n 235643635 18, p 186355816 22, p 468928202 4, p 365913914 8]],
    p 519961 4, some (p 100000 0), [("Cr", 1)]⟩,
  ⟨"ig.CrN", .ig2,
    [p 300 0, p 1000 0, p 5000 0],
    [[p 29304636 7, p 30377042 10, n 12713964 13, n 11781249 16, p 85551349 20, p 59744203 3, p 101918812 7],
     [p 38649602 7, p 85160456 11, n 44070758 14, p 10667601 17, n 83731422 22, p 59477437 3, p 529506757 8]],
    p 6600284 5, some (p 100000 0), [("Cr", 1), ("N", 1)]⟩,
  ⟨"ig.CrO", .ig2,
    [p 300 0, p 1000 0, p 5000 0],
    [[p 28414996 7, p 40953358 10, n 35776463 13, p 81710439 17, p 24072009 20, p 21646067 3, p 115179922 7],
     [p 40139818 7, p 62700245 11, n 27956794 14, p 600031 16, n 44057916 22, p 21346693 3, p 55517151 7]],
    p 679955 4, some (p 100000 0), [("Cr", 1), ("O", 1)]⟩,
  ⟨"ig.CrO2", .ig2,
    [p 300 0, p 1000 0, p 5000 0],
    [[p 33012645 7, p 81625857 10, n 5890768 12, p 16170856 18, p 10816267 19, n 10353569 3, p 113991138 7],
     [p 58499998 7, p 12725101 10, n 54920548 14, p 10497491 17, n 73995486 22, n 11042183 3, n 174497632 8]],
    p 839949 4, some (p 100000 0), [("Cr", 1), ("O", 2)]⟩,
  ⟨"ig.CrO3", .ig2,
    [p 300 0, p 1000 0, p 5000 0],
    [[p 19072858 7, p 23049608 9, n 26501294 12, p 12862413 15, n 18381991 19, n 3660868 2, p 153451415 7],
     [p 81628946 7, p 20450839 10, n 88594131 14, p 16976282 17, n 11987765 21, n 38092557 3, n 158958945 7]],
    p 999943 4, some (p 100000 0), [("Cr", 1), ("O", 3)]⟩,
  ⟨"ig.Cs+", .ig2,
    [p 29815 2, p 1000 0, p 6000 0],
    [[p 25 1, p 0 0, p 0 0, p 0 0, p 0 0, p 543873989 4, p 618275756 8],
     [p 25 1, p 0 0, p 0 0, p 0 0, p 0 0, p 543873989 4, p 618275756 8]],
    p 13290488 5, some (p 100000 0), [("Cs", 1), ("e", -1)]⟩]

/-- `ig.Cs` .. `ig.D` (`data/ig2`). -/
def gases40 : List File := [
  ⟨"ig.Cs", .ig2,
    [p 200 0, p 1000 0, p 6000 0],
    [[p 250004554 8, n 466833356 15, p 168005061 17, n 248218029 20, p 12771219 22, p 845540436 5, p 687573539 8],
     [p 282023315 8, n 334840327 12, n 982915709 16, p 127564369 18, n 146119271 22, p 830639354 5, p 500894042 8]],
    p 13290543 5, some (p 100000 0), [("Cs", 1)]⟩,
  ⟨"ig.Cs2", .ig2,
    [p 200 0, p 1000 0, p 6000 0],
    [[p 474588225 8, n 263862819 11, p 114139305 13, n 1604305 14, p 656112294 20, p 115444856 4, p 760679272 8],
     [p 686645178 8, n 399014326 11, p 131948084 14, n 163413186 18, p 688125908 23, p 108054293 4, n 429749465 8]],
    p 26581086 5, some (p 100000 0), [("Cs", 2)]⟩,
  ⟨"ig.Cs2F2", .ig2,
    [p 300 0, p 1000 0, p 5000 0],
    [[p 84425561 7, p 64921001 10, n 10832757 12, p 81791054 16, n 23173978 19, n 10978165 2, n 724824485 8],
     [p 98793725 7, p 12674829 11, n 50905253 15, p 89711762 19, n 5809096 22, n 11005057 2, n 140548217 7]],
    p 30380767 5, some (p 100000 0), [("Cs", 2), ("F", 2)]⟩,
  ⟨"ig.Cs2O", .ig2,
    [p 300 0, p 1000 0, p 5000 0],
    [[p 57553639 7, p 49116073 10, n 77072518 13, p 54156957 16, n 14080898 19, n 12946829 3, p 430015461 8],
     [p 68979467 7, p 10165098 11, n 38062062 15, p 61466393 19, n 35758216 23, n 13169989 3, n 116591689 8]],
    p 28181026 5, some (p 100000 0), [("Cs", 2), ("O", 1)]⟩,
  ⟨"ig.Cs2O4S", .ig2,
    [p 300 0, p 1000 0, p 5000 0],
    [[p 42965385 7, p 448543 7, n 60987923 12, p 40516388 15, n 10673495 18, n 13782559 2, p 134096371 7],
     [p 15419045 6, p 4052765 9, n 17910341 13, p 35024653 17, n 25215736 21, n 14036775 2, n 414921849 7]],
    p 36187446 5, some (p 100000 0), [("Cs", 2), ("O", 4), ("S", 1)]⟩,
  ⟨"ig.CsF", .ig2,
    [p 300 0, p 1000 0, p 5000 0],
    [[p 37449879 7, p 30100516 10, n 45883816 13, p 32179694 16, n 83786017 20, n 44090696 3, p 719487315 8],
     [p 44373309 7, p 12715 8, n 2054765 14, p 29813357 19, n 14774245 23, n 44227995 3, p 387355585 8]],
    p 15190383 5, some (p 100000 0), [("Cs", 1), ("F", 1)]⟩,
  ⟨"ig.CsO", .ig2,
    [p 300 0, p 1000 0, p 5000 0],
    [[p 39857419 7, p 21279251 10, n 32170255 13, p 22764295 16, n 59721976 20, p 6289894 3, p 751602259 8],
     [p 44660282 7, p 11563232 11, n 59989187 16, p 13176699 20, p 57639745 24, p 61950309 4, p 521454869 8]],
    p 14890483 5, some (p 100000 0), [("Cs", 1), ("O", 1)]⟩,
  ⟨"ig.Cu+", .ig2,
    [p 29815 2, p 1000 0, p 6000 0],
    [[p 25 1, p 0 0, p 0 0, p 0 0, p 0 0, p 130263788 3, p 124941209 7],
     [p 249981754 8, p 357922146 15, n 221769848 18, p 486937918 22, n 23901961 25, p 130263854 3, p 124951186 7]],
    p 6354545 5, some (p 100000 0), [("Cu", 1), ("e", -1)]⟩,
  ⟨"ig.Cu", .ig2,
    [p 200 0, p 1000 0, p 6000 0],
    [[p 250006597 8, n 677306412 15, p 244116818 17, n 361314758 20, p 186303224 23, p 398583358 4, p 576884604 8],
     [p 313522595 8, n 113337547 11, p 572023041 15, n 766326177 19, p 283881466 23, p 39617724 3, p 225331944 8]],
    p 63546 3, some (p 100000 0), [("Cu", 1)]⟩,
  ⟨"ig.Cu2", .ig2,
    [p 300 0, p 1000 0, p 5000 0],
    [[p 39244358 7, p 27274949 10, n 49194956 13, p 41821965 16, n 13393533 19, p 57119187 3, p 608380829 8],
     [p 44239734 7, p 20248952 11, n 64489793 15, p 14065412 18, n 76020494 23, p 57038131 3, p 378535579 8]],
    p 127092 3, some (p 100000 0), [("Cu", 2)]⟩,
  ⟨"ig.CuF", .ig2,
    [p 300 0, p 1000 0, p 5000 0],
    [[p 27654505 7, p 68511805 10, n 11338819 12, p 89096578 16, n 26927692 19, n 25548565 4, p 987277411 8],
     [p 41227399 7, p 63163463 11, n 3347282 13, p 80837367 18, n 57834817 22, n 28005953 4, p 348564571 8]],
    p 825444 4, some (p 100000 0), [("Cu", 1), ("F", 1)]⟩,
  ⟨"ig.CuF2", .ig2,
    [p 300 0, p 1000 0, p 5000 0],
    [[p 31107696 7, p 14325807 9, n 22811743 12, p 17278893 15, n 50726977 19, n 33500453 3, p 109995698 7],
     [p 68184236 7, n 16497908 11, p 20291774 14, n 25453113 18, p 12065732 23, n 34322744 3, n 712862921 8]],
    p 10154281 5, some (p 100000 0), [("Cu", 1), ("F", 2)]⟩,
  ⟨"ig.CuO", .ig2,
    [p 300 0, p 1000 0, p 5000 0],
    [[p 3709352 6, p 31965059 10, n 52970109 13, p 42164238 16, n 12891855 19, p 3562747 2, p 633140079 8],
     [p 42723625 7, p 44713276 11, n 23956979 14, p 60405316 18, n 42456016 22, p 35535349 3, p 372701889 8]],
    p 795454 4, some (p 100000 0), [("Cu", 1), ("O", 1)]⟩,
  ⟨"ig.D+", .ig2,
    [p 29815 2, p 1000 0, p 6000 0],
    [[p 25 1, p 0 0, p 0 0, p 0 0, p 0 0, p 184511964 3, n 101838904 9],
     [p 25 1, p 0 0, p 0 0, p 0 0, p 0 0, p 184511964 3, n 101838904 9]],
    p 201355 5, some (p 100000 0), [("D", 1), ("e", -1)]⟩,
  ⟨"ig.D-", .ig2,
    [p 29815 2, p 1000 0, p 6000 0],
    [[p 25 1, p 0 0, p 0 0, p 0 0, p 0 0, p 164237667 4, n 101023912 9],
     [p 25 1, p 0 0, p 0 0, p 0 0, p 0 0, p 164237667 4, n 101023912 9]],
    p 201465 5, some (p 100000 0), [("D", 1), ("e", 1)]⟩,
  ⟨"ig.D", .ig2,
    [p 200 0, p 1000 0, p 6000 0],
    [[p 25 1, p 0 0, p 0 0, p 0 0, p 0 0, p 259212596 4, p 591715827 9],
     [p 25 1, p 0 0, p 0 0, p 0 0, p 0 0, p 259212596 4, p 591715827 9]],
    p 20141 4, some (p 100000 0), [("D", 1)]⟩]

end PyroMat.Shipped.Data
