import Verif.Shipped.Basic

/-!
# Shipped ideal-gas data, part 8

Generated by `tools/shipped.py` from `/repo/src/pyromat/data/ig/*.hpd` and `ig2/*.hpd`;
do not edit.
-/

namespace PyroMat.Shipped.Data

open PyroMat.Shipped (File)
open PyroMat.Shipped.Dec (p n)

/-- `ig.N2O3` .. `ig.Na+` (`data/ig2`). -/
def gases57 : List File := [
  ⟨"ig.N2O3", .ig2,
    [p 200 0, p 1000 0, p 6000 0],
    [[p 581083964 8, p 143330962 10, n 196208597 13, p 173060735 16, n 646553954 20, p 819184453 5, p 120461321 8],
     [p 908583845 8, p 33775633 10, n 13158389 13, p 230762329 18, n 147151267 22, p 727160146 5, n 155361904 7]],
    p 7601168 5, some (p 100000 0), [("N", 2), ("O", 3)]⟩,
  ⟨"ig.N2O4", .ig2,
    [p 200 0, p 1000 0, p 6000 0],
    [[p 302002308 8, p 295904321 10, n 301342458 13, p 142360407 16, n 244100049 20, n 640040162 6, p 118059606 7],
     [p 115752899 7, p 401616086 11, n 157178323 14, p 268274309 18, n 166922019 22, n 292191226 5, n 319488439 7]],
    p 9201108 5, some (p 100000 0), [("N", 2), ("O", 4)]⟩,
  ⟨"ig.N2O5", .ig2,
    [p 200 0, p 1000 0, p 6000 0],
    [[p 368767444 8, p 392120798 10, n 553770029 13, p 420097833 16, n 13126071 18, n 830291184 6, p 121967866 7],
     [p 131108082 7, p 487435791 11, n 187548389 14, p 316374121 18, n 195926845 22, n 3116347 3, n 346877692 7]],
    p 10801048 5, some (p 100000 0), [("N", 2), ("O", 5)]⟩,
  ⟨"ig.N3", .ig2,
    [p 200 0, p 1000 0, p 6000 0],
    [[p 286063038 8, p 424883549 11, p 514572136 14, n 101478406 16, p 441878398 20, p 513692093 4, p 911596131 8],
     [p 464110696 8, p 2769607 9, n 104917582 14, p 17534072 17, n 107482704 22, p 506984238 4, n 940135456 9]],
    p 4202022 5, some (p 100000 0), [("N", 3)]⟩,
  ⟨"ig.NO+", .ig2,
    [p 29815 2, p 1000 0, p 6000 0],
    [[p 369301231 8, n 134229158 11, p 267343395 14, n 102609308 17, n 695610492 22, p 118103055 3, p 309126698 8],
     [p 294587702 8, p 14032526 10, n 495503196 15, p 795948973 19, n 472076668 23, p 11824434 2, p 670644641 8]],
    p 3000559 5, some (p 100000 0), [("N", 1), ("O", 1), ("e", -1)]⟩,
  ⟨"ig.NO", .ig2,
    [p 200 0, p 1000 0, p 6000 0],
    [[p 421859896 8, n 463988124 11, p 110443049 13, n 934055507 17, p 280554874 20, p 984509964 5, p 228061001 8],
     [p 326071234 8, p 119101135 11, n 429122646 15, p 694481463 19, n 403295681 23, p 992143132 5, p 636900518 8]],
    p 3000614 5, some (p 100000 0), [("N", 1), ("O", 1)]⟩,
  ⟨"ig.NO2-", .ig2,
    [p 29815 2, p 1000 0, p 6000 0],
    [[p 309783648 8, p 370486312 11, p 592938975 14, n 109497307 16, p 462721721 20, n 251798339 4, p 948237143 8],
     [p 50532928 7, p 207555672 11, n 870003077 15, p 16107425 17, n 103448062 22, n 259043616 4, n 154065063 8]],
    p 4600609 5, some (p 100000 0), [("N", 1), ("O", 2), ("e", 1)]⟩,
  ⟨"ig.NO2", .ig2,
    [p 200 0, p 1000 0, p 6000 0],
    [[p 394403907 8, n 158547444 11, p 166578984 13, n 204754478 16, p 783503265 20, p 289659865 5, p 631196225 8],
     [p 488474429 8, p 217241639 11, n 82807902 14, p 157477293 18, n 105110549 22, p 231648462 5, n 117357075 9]],
    p 4600554 5, some (p 100000 0), [("N", 1), ("O", 2)]⟩,
  ⟨"ig.NO3-", .ig2,
    [p 29815 2, p 1000 0, p 6000 0],
    [[p 121258521 8, p 171545193 10, n 105270457 13, n 116074097 17, p 233114998 20, n 384077713 4, p 179933865 7],
     [p 688404739 8, p 316062982 11, n 123048782 14, p 209257989 18, n 129795471 22, n 400548152 4, n 117087097 7]],
    p 6200549 5, some (p 100000 0), [("N", 1), ("O", 3), ("e", 1)]⟩,
  ⟨"ig.NO3", .ig2,
    [p 200 0, p 1000 0, p 6000 0],
    [[p 21735931 7, p 104902697 10, p 11047265 12, n 281561854 16, p 136583958 19, p 739219877 5, p 146022098 7],
     [p 748347734 8, p 257772041 11, n 100945831 14, p 172314072 18, n 107154015 22, p 570919428 5, n 141618155 7]],
    p 6200494 5, some (p 100000 0), [("N", 1), ("O", 3)]⟩,
  ⟨"ig.NS", .ig2,
    [p 300 0, p 1000 0, p 5000 0],
    [[p 39422971 7, n 20035515 10, p 73534644 13, n 7516856 15, p 25591098 19, p 30563949 3, p 458030805 8],
     [p 38493976 7, p 72756788 11, n 29370203 14, p 55013628 18, n 38123551 22, p 30459962 3, p 443127355 8]],
    p 4607274 5, some (p 100000 0), [("N", 1), ("S", 1)]⟩,
  ⟨"ig.NSi", .ig2,
    [p 300 0, p 1000 0, p 5000 0],
    [[p 31051955 7, p 14852449 10, p 1856106 12, n 37734883 16, p 16835331 19, p 43785709 3, p 788856052 8],
     [p 39858621 7, n 87927056 13, p 54269539 14, n 17951017 17, p 16337069 21, p 43524809 3, p 317468002 8]],
    p 4209224 5, some (p 100000 0), [("N", 1), ("Si", 1)]⟩,
  ⟨"ig.NSi2", .ig2,
    [p 300 0, p 1000 0, p 5000 0],
    [[p 36686735 7, p 1130184 8, n 13637119 12, p 7168805 15, n 1237831 18, p 46318083 3, p 712270964 8],
     [p 66709912 7, p 91917882 11, n 3951713 13, p 74397145 18, n 50284691 22, p 45620154 3, n 779827766 8]],
    p 7017774 5, some (p 100000 0), [("N", 1), ("Si", 2)]⟩,
  ⟨"ig.NV", .ig2,
    [p 300 0, p 1000 0, p 5000 0],
    [[p 2723359 6, p 41642989 10, n 21912812 13, n 12351872 16, p 10791833 19, p 61927893 3, p 114173579 7],
     [p 4185228 6, p 6151472 10, n 35776335 14, p 10748862 17, n 97275505 22, p 6151154 2, p 377618661 8]],
    p 6494824 5, some (p 100000 0), [("N", 1), ("V", 1)]⟩,
  ⟨"ig.NZr", .ig2,
    [p 200 0, p 1000 0, p 6000 0],
    [[p 307188717 8, p 264300474 11, p 318499428 15, n 363350581 17, p 202679564 20, p 847684947 4, p 980588987 8],
     [p 414378922 8, p 404307213 12, n 144633107 15, p 247606374 19, n 154280202 23, p 8446142 2, p 415937906 8]],
    p 10523074 5, some (p 100000 0), [("N", 1), ("Zr", 1)]⟩,
  ⟨"ig.Na+", .ig2,
    [p 29815 2, p 1000 0, p 6000 0],
    [[p 25 1, p 0 0, p 0 0, p 0 0, p 0 0, p 72541325 3, p 355084504 8],
     [p 25 1, p 0 0, p 0 0, p 0 0, p 0 0, p 72541325 3, p 355084504 8]],
    p 2298922 5, some (p 100000 0), [("Na", 1), ("e", -1)]⟩]

/-- `ig.Na` .. `ig.O-` (`data/ig2`). -/
def gases58 : List File := [
  ⟨"ig.Na", .ig2,
    [p 200 0, p 1000 0, p 6000 0],
    [[p 250000005 8, n 498492323 18, p 176034086 20, n 254461602 23, p 127603872 26, p 121597752 4, p 424402773 8],
     [p 239858879 8, p 215466997 12, n 149077568 15, p 366821795 19, n 166036037 23, p 121943069 4, p 47918112 7]],
    p 2298977 5, some (p 100000 0), [("Na", 1)]⟩,
  ⟨"ig.Na2", .ig2,
    [p 200 0, p 1000 0, p 6000 0],
    [[p 411568261 8, p 25290404 10, n 562168645 14, p 646171665 17, n 27512831 19, p 157824616 4, p 368672433 8],
     [p 5962019 6, n 106049506 11, n 439279769 15, p 30517481 17, n 339488816 22, p 149990927 4, n 669613647 8]],
    p 4597954 5, some (p 100000 0), [("Na", 2)]⟩,
  ⟨"ig.Na2O", .ig2,
    [p 300 0, p 1000 0, p 5000 0],
    [[p 47787177 7, p 99487716 10, n 14814456 12, p 10003239 15, n 25137874 19, n 67360206 4, p 179947619 8],
     [p 71470582 7, p 39833099 11, n 17408911 14, p 33565162 18, n 23810801 22, n 72191261 4, n 963481061 8]],
    p 6197894 5, some (p 100000 0), [("Na", 2), ("O", 1)]⟩,
  ⟨"ig.Na2O4S", .ig2,
    [p 300 0, p 1000 0, p 5000 0],
    [[p 20727498 7, p 54582047 9, n 78543533 12, p 55104221 15, n 15266676 18, n 12676955 2, p 166688263 7],
     [p 15206128 6, p 42984264 10, n 19008409 13, p 3718753 16, n 26780457 21, n 12967357 2, n 476569217 7]],
    p 14204314 5, some (p 100000 0), [("Na", 2), ("O", 4), ("S", 1)]⟩,
  ⟨"ig.NaO-", .ig2,
    [p 300 0, p 1000 0, p 5000 0],
    [[p 34186855 7, p 42117382 10, n 63104646 13, p 43873515 16, n 11372639 19, n 15752234 3, p 566855639 8],
     [p 43868008 7, p 22344672 11, n 48212472 15, p 85720862 19, n 56094334 23, n 15946268 3, p 101363479 8]],
    p 3898972 5, some (p 100000 0), [("Na", 1), ("O", 1), ("e", 1)]⟩,
  ⟨"ig.NaO", .ig2,
    [p 300 0, p 1000 0, p 5000 0],
    [[p 34421007 7, p 41617241 10, n 63118368 13, p 44479199 16, n 11720486 19, p 89011477 4, p 695032533 8],
     [p 43924158 7, p 21320574 11, n 45220598 15, p 79751821 19, n 51735989 23, p 87118995 4, p 238808963 8]],
    p 3898917 5, some (p 100000 0), [("Na", 1), ("O", 1)]⟩,
  ⟨"ig.Nb", .ig2,
    [p 300 0, p 1000 0, p 5000 0],
    [[p 34755074 7, p 20538564 10, n 69670263 13, p 68020559 16, n 22517718 19, p 87087749 3, p 224243697 8],
     [p 42205905 7, n 18187439 10, p 82373943 14, n 11832899 17, p 53637053 22, p 86960713 3, n 118468643 8]],
    p 9290638 5, some (p 100000 0), [("Nb", 1)]⟩,
  ⟨"ig.NbO", .ig2,
    [p 300 0, p 1000 0, p 5000 0],
    [[p 29214485 7, p 31324082 10, n 14900369 13, n 9934526 16, p 7998402 19, p 22907886 3, p 112362937 7],
     [p 38811729 7, p 81978122 11, n 4253539 13, p 10264936 17, n 80419801 22, p 22637132 3, p 622364151 8]],
    p 10890578 5, some (p 100000 0), [("Nb", 1), ("O", 1)]⟩,
  ⟨"ig.NbO2", .ig2,
    [p 200 0, p 1000 0, p 6000 0],
    [[p 357672681 8, p 635895628 11, n 596442209 15, n 634228956 17, p 370832821 20, n 253873185 4, p 106257008 7],
     [p 605147948 8, p 975153707 12, n 382697108 15, p 65415042 18, n 407159079 23, n 261008645 4, n 240015663 8]],
    p 12490518 5, some (p 100000 0), [("Nb", 1), ("O", 2)]⟩,
  ⟨"ig.Ne+", .ig2,
    [p 29815 2, p 1000 0, p 6000 0],
    [[p 194106917 8, p 440016552 11, n 857047417 14, p 699691689 17, n 211573625 20, p 250294275 3, p 699178694 8],
     [p 290399557 8, n 363794635 12, p 131873359 15, n 21420921 18, p 128778499 23, p 250143726 3, p 256310332 8]],
    p 2017915 5, some (p 100000 0), [("Ne", 1), ("e", -1)]⟩,
  ⟨"ig.Ne", .ig2,
    [p 200 0, p 1000 0, p 6000 0],
    [[p 25 1, p 0 0, p 0 0, p 0 0, p 0 0, n 745375 3, p 335532272 8],
     [p 25 1, p 0 0, p 0 0, p 0 0, p 0 0, n 745375 3, p 335532272 8]],
    p 201797 4, some (p 100000 0), [("Ne", 1)]⟩,
  ⟨"ig.Ni", .ig2,
    [p 300 0, p 1000 0, p 5000 0],
    [[p 27766654 7, n 75220638 11, p 43256113 13, n 54731287 16, p 21107565 19, p 50909083 3, p 616823253 8],
     [p 3206149 6, n 20969923 11, n 22836448 15, p 15085211 18, n 10004445 22, p 50708126 3, p 353171623 8]],
    p 586934 4, some (p 100000 0), [("Ni", 1)]⟩,
  ⟨"ig.NiO", .ig2,
    [p 300 0, p 1000 0, p 5000 0],
    [[p 29919682 7, p 33309208 10, n 15352471 13, n 15640833 16, p 12128501 19, p 36742094 3, p 982140736 8],
     [p 41046114 7, p 4865916 10, n 18786784 14, p 35531855 18, n 24715166 22, p 36445645 3, p 407679656 8]],
    p 746928 4, some (p 100000 0), [("Ni", 1), ("O", 1)]⟩,
  ⟨"ig.NiS", .ig2,
    [p 300 0, p 1000 0, p 5000 0],
    [[p 31168107 7, p 40173528 10, n 15583911 13, n 15063536 16, p 93683881 20, p 41896857 3, p 114677351 7],
     [p 49160472 7, p 31377451 11, n 29701813 14, p 80179724 18, n 67257418 22, p 41321032 3, p 181898797 8]],
    p 907594 4, some (p 100000 0), [("Ni", 1), ("S", 1)]⟩,
  ⟨"ig.O+", .ig2,
    [p 29815 2, p 1000 0, p 6000 0],
    [[p 25 1, p 0 0, p 0 0, p 0 0, p 0 0, p 187935291 3, p 439337689 8],
     [p 248773317 8, p 217660016 13, n 108955806 16, p 125909212 20, p 13731672 23, p 187939965 3, p 446134091 8]],
    p 1599885 5, some (p 100000 0), [("O", 1), ("e", -1)]⟩,
  ⟨"ig.O-", .ig2,
    [p 29815 2, p 1000 0, p 6000 0],
    [[p 290805921 8, n 169804907 11, p 298069956 14, n 243835127 17, p 761229313 21, p 114138341 4, p 280339084 8],
     [p 254474868 8, n 466695419 13, p 18491231 15, n 318159131 20, p 198962894 24, p 114822713 4, p 452131005 8]],
    p 1599995 5, some (p 100000 0), [("O", 1), ("e", 1)]⟩]

/-- `ig.O` .. `ig.OPb` (`data/ig2`). -/
def gases59 : List File := [
  ⟨"ig.O", .ig2,
    [p 200 0, p 1000 0, p 6000 0],
    [[p 31682671 7, n 327931884 11, p 664306396 14, n 612806624 17, p 211265971 20, p 291222592 4, p 205193346 8],
     [p 254363697 8, n 273162486 13, n 41902952 16, p 495481845 20, n 479553694 24, p 29226012 3, p 492229457 8]],
    p 159994 4, some (p 100000 0), [("O", 1)]⟩,
  ⟨"ig.O10P4", .ig2,
    [p 300 0, p 1000 0, p 5000 0],
    [[n 44142883 7, p 13759081 8, n 19268598 11, p 13272068 14, n 36311378 18, n 352629523 3, p 40178226 6],
     [p 28939659 6, p 12452096 9, n 5485432 12, p 10704743 16, n 76956857 21, n 360148633 3, n 123859447 6]],
    p 28388905 5, some (p 100000 0), [("O", 10), ("P", 4)]⟩,
  ⟨"ig.O2+", .ig2,
    [p 29815 2, p 1000 0, p 6000 0],
    [[p 461017167 8, n 635951952 11, p 142425624 13, n 120997923 16, p 370956878 20, p 139742229 3, n 201326874 9],
     [p 331675922 8, p 111522244 11, n 383492556 15, p 572784687 19, n 277648381 23, p 139876823 3, p 544726476 8]],
    p 3199825 5, some (p 100000 0), [("O", 2), ("e", -1)]⟩,
  ⟨"ig.O2-", .ig2,
    [p 29815 2, p 1000 0, p 6000 0],
    [[p 366442522 8, n 928741138 12, p 645477082 14, n 77470338 16, p 293332662 20, n 687076983 5, p 435140674 8],
     [p 395666294 8, p 598141823 12, n 212133905 15, p 363267581 19, n 224989228 23, n 706287229 5, p 22787101 7]],
    p 3199935 5, some (p 100000 0), [("O", 2), ("e", 1)]⟩,
  ⟨"ig.O2", .ig2,
    [p 200 0, p 1000 0, p 6000 0],
    [[p 378245636 8, n 299673415 11, p 9847302 12, n 968129508 17, p 324372836 20, n 106394356 5, p 365767573 8],
     [p 366096083 8, p 656365523 12, n 141149485 15, p 205797658 19, n 129913248 23, n 121597725 5, p 341536184 8]],
    p 319988 4, some (p 100000 0), [("O", 2)]⟩,
  ⟨"ig.O2P", .ig2,
    [p 300 0, p 1000 0, p 5000 0],
    [[p 23345273 7, p 125021 7, n 14336195 12, p 76762166 16, n 15401694 19, n 389688654 4, p 14054435 6],
     [p 56913278 7, p 14806866 10, n 65425692 14, p 12793231 17, n 92099277 22, n 397947254 4, n 281972201 8]],
    p 6297256 5, some (p 100000 0), [("O", 2), ("P", 1)]⟩,
  ⟨"ig.O2S", .ig2,
    [p 300 0, p 1000 0, p 5000 0],
    [[p 32665338 7, p 53237902 10, p 68437552 14, n 52810047 16, p 25590454 19, n 36908148 3, p 966465108 8],
     [p 52451364 7, p 19704204 10, n 80375769 14, p 15149969 17, n 10558004 21, n 37558227 3, n 107404892 8]],
    p 640648 4, some (p 100000 0), [("O", 2), ("S", 1)]⟩,
  ⟨"ig.O2Si", .ig2,
    [p 300 0, p 1000 0, p 5000 0],
    [[p 32628058 7, p 85016584 10, n 57388144 13, p 12896573 18, p 97544976 20, n 38035971 3, p 666807529 8],
     [p 58620395 7, p 17719784 10, n 75194194 14, p 14180584 17, n 98856417 22, n 38767816 3, n 684718711 8]],
    p 600843 4, some (p 100000 0), [("O", 2), ("Si", 1)]⟩,
  ⟨"ig.O2Ta", .ig2,
    [p 300 0, p 1000 0, p 5000 0],
    [[p 31803826 7, p 94702805 10, n 87346868 13, p 24522689 16, p 33653421 20, n 25451762 3, p 13130353 6],
     [p 59701669 7, p 11792128 10, n 56517413 14, p 13113787 17, n 10564437 21, n 26169481 3, n 107399801 8]],
    p 2129467 4, some (p 100000 0), [("O", 2), ("Ta", 1)]⟩,
  ⟨"ig.O2Ti", .ig2,
    [p 300 0, p 1000 0, p 5000 0],
    [[p 30142717 7, p 10942101 9, n 12878588 12, p 71189529 16, n 1492751 18, n 38020501 3, p 113643975 7],
     [p 58455061 7, p 13938213 10, n 66403062 14, p 1385738 16, n 98842184 22, n 38700593 3, n 279599903 8]],
    p 798788 4, some (p 100000 0), [("O", 2), ("Ti", 1)]⟩,
  ⟨"ig.O2V", .ig2,
    [p 300 0, p 1000 0, p 5000 0],
    [[p 31937859 7, p 92979457 10, n 83422469 13, p 2104917 15, p 44582645 20, n 29275491 3, p 11287219 6],
     [p 59470147 7, p 11686779 10, n 50536379 14, p 96723611 18, n 68245883 22, n 29983802 3, n 273802511 8]],
    p 829403 4, some (p 100000 0), [("O", 2), ("V", 1)]⟩,
  ⟨"ig.O2Zr", .ig2,
    [p 300 0, p 1000 0, p 5000 0],
    [[p 32103779 7, p 11628976 9, n 1557536 11, p 10044243 15, n 2543889 18, n 35775612 3, p 117738677 7],
     [p 61418545 7, p 97703695 11, n 43337182 14, p 84954589 18, n 61266648 22, n 36446178 3, n 270978912 8]],
    p 1232228 4, some (p 100000 0), [("O", 2), ("Zr", 1)]⟩,
  ⟨"ig.O3", .ig2,
    [p 200 0, p 1000 0, p 6000 0],
    [[p 340738221 8, p 205379063 11, p 138486052 13, n 223311542 16, p 976073226 20, p 158644979 4, p 82824758 7],
     [p 123302914 7, n 119324783 10, p 798741278 14, n 177194552 17, p 126075824 21, p 126755831 4, n 408823374 7]],
    p 479982 4, some (p 100000 0), [("O", 3)]⟩,
  ⟨"ig.O3S", .ig2,
    [p 300 0, p 1000 0, p 5000 0],
    [[p 25780385 7, p 14556335 9, n 91764173 13, n 79203022 17, p 19709473 19, n 48931753 3, p 122651384 7],
     [p 70757376 7, p 31763387 10, n 1353576 12, p 25630912 17, n 17936044 21, n 50211376 3, n 111875176 7]],
    p 800642 4, some (p 100000 0), [("O", 3), ("S", 1)]⟩,
  ⟨"ig.OP", .ig2,
    [p 300 0, p 1000 0, p 5000 0],
    [[p 3961308 6, n 21235399 10, p 75201219 13, n 75950912 16, p 25637591 19, n 469896895 5, p 458369221 8],
     [p 38427922 7, p 72364456 11, n 28934199 14, p 53013554 18, n 35495373 22, n 479945495 5, p 455237741 8]],
    p 4697316 5, some (p 100000 0), [("O", 1), ("P", 1)]⟩,
  ⟨"ig.OPb", .ig2,
    [p 300 0, p 1000 0, p 5000 0],
    [[p 26539867 7, p 66644115 10, n 10312363 12, p 76663259 16, n 22173864 19, p 74437513 4, p 12156713 6],
     [p 41136242 7, p 53778857 11, n 23763394 14, p 42425688 18, n 12294044 22, p 7151926 3, p 515041319 8]],
    p 2231994 4, some (p 100000 0), [("O", 1), ("Pb", 1)]⟩]

/-- `ig.OS` .. `ig.S+` (`data/ig2`). -/
def gases60 : List File := [
  ⟨"ig.OS", .ig2,
    [p 300 0, p 1000 0, p 5000 0],
    [[p 31490233 7, p 11839347 10, p 25740686 13, n 44443419 16, p 18735159 19, n 40407571 5, p 831987915 8],
     [p 40142873 7, p 27022817 11, p 82896667 15, n 34323741 18, p 31121444 22, n 71051956 5, p 349973505 8]],
    p 480654 4, some (p 100000 0), [("O", 1), ("S", 1)]⟩,
  ⟨"ig.OS2", .ig2,
    [p 300 0, p 1000 0, p 5000 0],
    [[p 28414257 7, p 1218841 8, n 16000241 12, p 10309289 15, n 2644912 18, n 80603015 4, p 129180736 7],
     [p 59037524 7, p 12369975 10, n 5457079 13, p 10659842 17, n 76688243 22, n 8775209 3, n 226999836 8]],
    p 801314 4, some (p 100000 0), [("O", 1), ("S", 2)]⟩,
  ⟨"ig.OSi", .ig2,
    [p 300 0, p 1000 0, p 5000 0],
    [[p 32528276 7, p 41823126 11, p 37806202 13, n 51024483 16, p 19471317 19, n 1309034 2, p 666174329 8],
     [p 37478835 7, p 81991943 11, n 32525396 14, p 57324962 18, n 35108944 22, n 1331743 2, p 366100339 8]],
    p 440849 4, some (p 100000 0), [("O", 1), ("Si", 1)]⟩,
  ⟨"ig.OSr", .ig2,
    [p 300 0, p 1000 0, p 5000 0],
    [[p 27329997 7, p 67399418 10, n 10800485 12, p 81767937 16, n 23619871 19, n 26443574 4, p 1050129 5],
     [p 96403024 7, n 1128515 8, p 78842322 13, n 19035877 16, p 15146547 20, n 47499487 4, n 2579817 5]],
    p 1036194 4, some (p 100000 0), [("O", 1), ("Sr", 1)]⟩,
  ⟨"ig.OTa", .ig2,
    [p 300 0, p 1000 0, p 5000 0],
    [[p 29340108 7, p 30592038 10, n 19396364 13, p 1628883 16, p 30152535 20, p 22154472 3, p 11454646 6],
     [p 34996603 7, p 15112535 10, n 65384578 14, p 17784314 17, n 16919405 21, p 21994151 3, p 852695899 8]],
    p 1969473 4, some (p 100000 0), [("O", 1), ("Ta", 1)]⟩,
  ⟨"ig.OTi", .ig2,
    [p 300 0, p 1000 0, p 5000 0],
    [[p 31198881 7, p 31202487 10, n 13297073 13, n 13338362 16, p 96315828 20, p 54868719 4, p 944261203 8],
     [p 41360176 7, p 73926458 11, n 45444464 14, p 13043658 17, n 11522557 21, p 51983483 4, p 412237043 8]],
    p 638794 4, some (p 100000 0), [("O", 1), ("Ti", 1)]⟩,
  ⟨"ig.OV", .ig2,
    [p 300 0, p 1000 0, p 5000 0],
    [[p 29438441 7, p 29059234 10, n 99516575 14, n 14086592 16, p 92438508 20, p 14352746 3, p 10186431 6],
     [p 39114702 7, p 77547792 11, n 42263786 14, p 11608838 17, n 10070724 21, p 14065204 3, p 507185409 8]],
    p 669409 4, some (p 100000 0), [("O", 1), ("V", 1)]⟩,
  ⟨"ig.OZr", .ig2,
    [p 200 0, p 1000 0, p 6000 0],
    [[p 412291576 8, n 131886153 10, p 69292242 12, n 958719313 16, p 410306085 19, p 900749212 5, p 55694593 7],
     [p 729696029 8, n 290119328 11, p 115957574 14, n 180299021 18, p 101758876 22, p 768180377 5, n 142192551 7]],
    p 1072234 4, some (p 100000 0), [("O", 1), ("Zr", 1)]⟩,
  ⟨"ig.P+", .ig2,
    [p 300 0, p 1000 0, p 5000 0],
    [[p 43790417 7, n 64666723 10, p 89340962 13, n 54858021 16, p 12098857 19, p 159647807 3, n 329374021 8],
     [p 29021547 7, n 58878899 11, p 31298119 14, n 59727539 18, p 39304925 22, p 159944127 3, p 383370649 8]],
    p 3097321 5, some (p 100000 0), [("P", 1), ("e", -1)]⟩,
  ⟨"ig.P", .ig2,
    [p 200 0, p 1000 0, p 6000 0],
    [[p 250004278 8, n 438968637 15, p 158131741 17, n 233900457 20, p 12051094 22, p 373073754 4, p 538414729 8],
     [p 280721555 8, n 530841988 12, p 244543046 15, n 205708252 19, n 294546619 24, p 371892748 4, p 367764733 8]],
    p 3097376 5, some (p 100000 0), [("P", 1)]⟩,
  ⟨"ig.P2", .ig2,
    [p 300 0, p 1000 0, p 5000 0],
    [[p 28391107 7, p 48266193 10, n 54947488 13, p 25800507 16, n 32236453 20, p 162597073 4, p 884241019 8],
     [p 41611733 7, p 396208 9, n 15580339 14, p 29093474 18, n 20042458 22, p 159468693 4, p 224109249 8]],
    p 6194752 5, some (p 100000 0), [("P", 2)]⟩,
  ⟨"ig.P4", .ig2,
    [p 300 0, p 1000 0, p 5000 0],
    [[p 353533 5, p 24125292 9, n 36462759 12, p 24916906 15, n 63298563 19, p 523553359 5, p 775589567 8],
     [p 92262789 7, p 86894128 11, n 37758338 14, p 72379666 18, n 51066109 22, p 409054959 5, n 196417049 7]],
    p 12389505 5, some (p 100000 0), [("P", 4)]⟩,
  ⟨"ig.Pb", .ig2,
    [p 200 0, p 1000 0, p 6000 0],
    [[p 250229005 8, n 244053643 13, p 917082578 16, n 142817771 18, p 783762196 22, p 227314919 4, p 684009322 8],
     [p 416342379 8, n 349637723 11, p 22826317 13, n 476749242 18, p 3222238 20, p 221687499 4, n 213525305 8]],
    p 2072 1, some (p 100000 0), [("Pb", 1)]⟩,
  ⟨"ig.Pb2", .ig2,
    [p 300 0, p 1000 0, p 5000 0],
    [[p 40501222 7, p 20230001 10, n 29701346 13, p 21785957 16, n 59755327 20, p 3873164 2, p 10271992 6],
     [p 4459834 6, p 24006381 11, n 19259863 15, p 36456937 19, n 25380934 23, p 38654049 3, p 832496049 8]],
    p 4144 1, some (p 100000 0), [("Pb", 2)]⟩,
  ⟨"ig.PbS", .ig2,
    [p 300 0, p 1000 0, p 5000 0],
    [[p 34774532 7, p 39700295 10, n 61096689 13, p 43008682 16, n 11311549 19, p 14684751 3, p 947780941 8],
     [p 40911522 7, p 83885359 11, n 57157207 14, p 16160476 17, n 12511897 21, p 14601695 3, p 670074801 8]],
    p 239266 3, some (p 100000 0), [("Pb", 1), ("S", 1)]⟩,
  ⟨"ig.S+", .ig2,
    [p 29815 2, p 1000 0, p 6000 0],
    [[p 25 1, p 0 0, p 0 0, p 0 0, p 0 0, p 153478145 3, p 543627019 8],
     [p 246524359 8, p 114257212 12, n 119572699 15, p 438771359 19, n 380523639 23, p 153485422 3, p 560821371 8]],
    p 3206545 5, some (p 100000 0), [("S", 1), ("e", -1)]⟩]

/-- `ig.S-` .. `ig.V` (`data/ig2`). -/
def gases61 : List File := [
  ⟨"ig.S-", .ig2,
    [p 29815 2, p 1000 0, p 6000 0],
    [[p 25135307 7, p 193516857 11, n 538438357 14, p 540313356 17, n 189053684 20, p 764303006 5, p 513282002 8],
     [p 27294806 7, n 224894928 12, p 858648854 16, n 144256169 19, p 887491196 24, p 765980069 5, p 439902726 8]],
    p 3206655 5, some (p 100000 0), [("S", 1), ("e", 1)]⟩,
  ⟨"ig.S", .ig2,
    [p 200 0, p 1000 0, p 6000 0],
    [[p 231725616 8, p 478018342 11, n 142082674 13, p 156569538 16, n 596588299 20, p 325068976 4, p 606242434 8],
     [p 287936498 8, n 511050388 12, p 253806719 15, n 445455458 19, p 266717362 23, p 325013791 4, p 398140647 8]],
    p 32066 3, some (p 100000 0), [("S", 1)]⟩,
  ⟨"ig.S2", .ig2,
    [p 300 0, p 1000 0, p 5000 0],
    [[p 28585754 7, p 51758355 10, n 65493434 13, p 33998643 16, n 40156766 20, p 14412402 3, p 989127849 8],
     [p 39886069 7, p 55775051 11, n 50189278 15, n 15470319 18, p 26661771 22, p 14198015 3, p 449119159 8]],
    p 64132 3, some (p 100000 0), [("S", 2)]⟩,
  ⟨"ig.S8", .ig2,
    [p 200 0, p 1000 0, p 6000 0],
    [[p 419700496 8, p 915503597 10, n 191263611 12, p 180177196 15, n 630393695 19, p 812071691 5, p 758043917 8],
     [p 207249521 7, p 134686111 11, n 537225946 15, p 928122853 19, n 58195134 22, p 553344324 5, n 674805287 7]],
    p 256528 3, some (p 100000 0), [("S", 8)]⟩,
  ⟨"ig.SSi", .ig2,
    [p 300 0, p 1000 0, p 5000 0],
    [[p 28430693 7, p 51150281 10, n 63316073 13, p 34387326 16, n 62623385 20, p 11718931 3, p 944619192 8],
     [p 41735772 7, p 39282595 11, n 15005172 14, p 23242557 18, n 60568867 23, p 11417753 3, p 286888232 8]],
    p 601515 4, some (p 100000 0), [("S", 1), ("Si", 1)]⟩,
  ⟨"ig.SSr", .ig2,
    [p 300 0, p 1000 0, p 5000 0],
    [[p 34863318 7, p 43841311 10, n 75067553 13, p 58192818 16, n 16353204 19, p 11834854 3, p 835263069 8],
     [p 898347 5, n 10995691 9, p 86588417 13, n 22955482 16, p 19659683 20, p 10301419 3, n 200762668 7]],
    p 119686 3, some (p 100000 0), [("S", 1), ("Sr", 1)]⟩,
  ⟨"ig.Si+", .ig2,
    [p 29815 2, p 1000 0, p 6000 0],
    [[p 424419073 8, n 751160863 11, p 133368333 13, n 109406149 16, p 341357223 20, p 148408792 3, n 278917334 8],
     [p 264794579 8, n 160109008 12, p 654024155 16, n 116224655 19, p 755961272 24, p 148703413 3, p 473171848 8]],
    p 2808495 5, some (p 100000 0), [("Si", 1), ("e", -1)]⟩,
  ⟨"ig.Si", .ig2,
    [p 200 0, p 1000 0, p 6000 0],
    [[p 37647615 7, n 712070985 11, p 157318301 13, n 153824969 16, p 553194933 20, p 532050782 4, p 302168772 9],
     [p 258061157 8, n 206044654 12, p 193051677 15, n 456485107 19, p 336411716 23, p 533829933 4, p 560657423 8]],
    p 280855 4, some (p 100000 0), [("Si", 1)]⟩,
  ⟨"ig.Si2", .ig2,
    [p 300 0, p 1000 0, p 5000 0],
    [[p 38155393 7, n 19096542 11, p 59233416 13, n 57649603 16, p 14775004 19, p 69784655 3, p 574071859 8],
     [p 50474139 7, p 53990034 11, n 43078376 14, p 11355206 17, n 96262871 22, p 69133185 3, n 191029481 8]],
    p 56171 3, some (p 100000 0), [("Si", 2)]⟩,
  ⟨"ig.Si3", .ig2,
    [p 300 0, p 1000 0, p 5000 0],
    [[p 45979129 7, p 10715274 9, n 16100422 12, p 10969207 15, n 27832875 19, p 74766324 3, p 345533009 8],
     [p 7421336 6, n 11709948 11, p 89820775 15, p 71935964 19, n 25670837 22, p 74146699 3, n 10352111 6]],
    p 842565 4, some (p 100000 0), [("Si", 3)]⟩,
  ⟨"ig.Sr", .ig2,
    [p 200 0, p 1000 0, p 6000 0],
    [[p 25 1, p 0 0, p 0 0, p 0 0, p 0 0, p 189791788 4, p 555782092 8],
     [p 205239982 8, p 119516449 11, n 107453395 14, p 357530976 18, n 30561328 21, p 191041043 4, p 788029928 8]],
    p 8762 2, some (p 100000 0), [("Sr", 1)]⟩,
  ⟨"ig.Ta", .ig2,
    [p 300 0, p 1000 0, p 5000 0],
    [[p 28381631 7, n 27878563 10, p 68973334 13, n 45571751 16, p 94125268 20, p 93278793 3, p 666893679 8],
     [p 15109094 7, p 27029501 10, n 10705594 13, p 20238853 17, n 13970173 21, p 93517762 3, p 12982706 6]],
    p 1809479 4, some (p 100000 0), [("Ta", 1)]⟩,
  ⟨"ig.Ti+", .ig2,
    [p 29815 2, p 1000 0, p 6000 0],
    [[p 279511128 8, p 252231176 11, n 563121401 14, p 416371169 17, n 101443322 20, p 135995999 3, p 56195158 7],
     [p 367371639 8, n 148559525 11, p 782266735 15, n 143853227 18, p 895284394 23, p 135855735 3, p 15315018 7]],
    p 4787945 5, some (p 100000 0), [("Ti", 1), ("e", -1)]⟩,
  ⟨"ig.Ti-", .ig2,
    [p 29815 2, p 1000 0, p 6000 0],
    [[p 358958633 8, n 49144442 10, p 90648322 13, n 766228403 17, p 244724157 20, p 543869787 4, p 276915648 8],
     [p 258526086 8, n 908419479 13, p 364323275 16, n 631640098 20, p 397035041 24, p 545643467 4, p 745711066 8]],
    p 4788055 5, some (p 100000 0), [("Ti", 1), ("e", 1)]⟩,
  ⟨"ig.Ti", .ig2,
    [p 200 0, p 1000 0, p 6000 0],
    [[p 414448119 8, n 680469009 11, p 118867765 13, n 975223462 17, p 309064423 20, p 559438352 4, n 348187822 9],
     [p 303774314 8, n 111117144 11, p 75857109 14, n 127073773 18, p 690819279 23, p 561236728 4, p 473001888 8]],
    p 4788 2, some (p 100000 0), [("Ti", 1)]⟩,
  ⟨"ig.V", .ig2,
    [p 300 0, p 1000 0, p 5000 0],
    [[p 45173693 7, n 7929066 9, p 13380839 12, n 88282901 16, p 18945307 19, p 60901417 3, n 196971791 8],
     [p 29177852 7, p 4623689 10, n 4973203 13, p 16775233 17, n 15202552 21, p 61064273 3, p 510621469 8]],
    p 509415 4, some (p 100000 0), [("V", 1)]⟩]

/-- `ig.Xe+` .. `ig.e` (`data/ig2`). -/
def gases62 : List File := [
  ⟨"ig.Xe+", .ig2,
    [p 29815 2, p 1000 0, p 6000 0],
    [[p 250007477 8, n 625614186 15, p 186430963 17, n 235599457 20, p 107219368 23, p 140761095 3, p 755040438 8],
     [p 258350579 8, n 15348875 11, p 809594639 16, n 114289234 19, p 482081406 24, p 140730117 3, p 709057069 8]],
    p 13128945 5, some (p 100000 0), [("Xe", 1), ("e", -1)]⟩,
  ⟨"ig.Xe", .ig2,
    [p 200 0, p 1000 0, p 6000 0],
    [[p 25 1, n 89914133 21, p 25219686 23, n 292186662 27, p 118949218 30, n 745375 3, p 616441993 8],
     [p 250005322 8, n 105136544 15, p 675326897 19, n 170944909 22, p 147681049 26, n 745394186 6, p 616412898 8]],
    p 13129 2, some (p 100000 0), [("Xe", 1)]⟩,
  ⟨"ig.Zn-", .ig2,
    [p 29815 2, p 1000 0, p 6000 0],
    [[p 25 1, p 0 0, p 0 0, p 0 0, p 0 0, p 124688733 4, p 581202078 8],
     [p 25 1, p 0 0, p 0 0, p 0 0, p 0 0, p 124688733 4, p 581202078 8]],
    p 6539055 5, some (p 100000 0), [("Zn", 1), ("e", 1)]⟩,
  ⟨"ig.Zn", .ig2,
    [p 200 0, p 1000 0, p 6000 0],
    [[p 25 1, p 0 0, p 0 0, p 0 0, p 0 0, p 123948976 3, p 581200819 8],
     [p 248069577 8, p 33602102 12, n 160287169 16, p 143795031 20, p 29289869 23, p 123956404 3, p 591921683 8]],
    p 6539 2, some (p 100000 0), [("Zn", 1)]⟩,
  ⟨"ig.Zr", .ig2,
    [p 200 0, p 1000 0, p 6000 0],
    [[p 123655929 8, p 12828082 9, n 272138432 13, p 233237341 16, n 709443491 20, p 726245603 4, p 119581447 7],
     [p 254294206 8, p 622889707 12, n 107432636 15, p 238744516 19, n 217632296 23, p 727918166 4, p 757951451 8]],
    p 91224 3, some (p 100000 0), [("Zr", 1)]⟩,
  ⟨"ig.e", .ig2,
    [p 200 0, p 1000 0, p 6000 0],
    [[p 25 1, p 0 0, p 0 0, p 0 0, p 0 0, n 745375 3, n 117246902 7],
     [p 25 1, p 0 0, p 0 0, p 0 0, p 0 0, n 745375 3, n 117246902 7]],
    p 548579903 12, some (p 100000 0), [("e", 1)]⟩]

end PyroMat.Shipped.Data
