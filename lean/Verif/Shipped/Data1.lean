import Verif.Shipped.Basic

/-!
# Shipped ideal-gas data, part 1

Generated by `tools/shipped.py` from `/repo/src/pyromat/data/ig/*.hpd` and `ig2/*.hpd`;
do not edit.
-/

namespace PyroMat.Shipped.Data

open PyroMat.Shipped (File)
open PyroMat.Shipped.Dec (p n)

/-- `ig.AlH` .. `ig.BBr` (`data/ig`). -/
def gases1 : List File := [
  ⟨"ig.AlH", .ig,
    [p 298 0, p 1800 0, p 6000 0],
    [[p 2089213 5, p 2473384 5, n 1351194 5, p 2711158 6, p 199155 6, p 252863 3, p 2074716 4, p 2594084 4],
     [p 3701999 5, p 84944 5, n 31019 6, p 1884 6, n 3164632 6, p 2415616 4, p 2238934 4, p 2594084 4]],
    p 2798948 5, none, [("Al", 1), ("H", 1)]⟩,
  ⟨"ig.AlHO", .ig,
    [p 298 0, p 2000 0, p 6000 0],
    [[p 2170768 5, p 6548629 5, n 3892902 5, p 7984495 6, n 317829 6, p 2335362 5, p 221857 3, p 3347204 5],
     [p 6200144 5, p 15607 5, n 25823 6, p 1515 6, n 6836866 6, n 1623054 6, p 2672702 4, p 3347204 5]],
    p 439889 4, none, [("Al", 1), ("H", 1), ("O", 1)]⟩,
  ⟨"ig.AlHO2", .ig,
    [p 298 0, p 6000 0],
    [[p 6080733 5, p 1518466 5, n 3608529 6, p 28372 5, n 1407093 6, n 4837332 4, p 3154535 4, n 46024 2]],
    p 599883 4, none, [("Al", 1), ("H", 1), ("O", 2)]⟩,
  ⟨"ig.AlHO_1", .ig,
    [p 298 0, p 1000 0, p 3000 0, p 6000 0],
    [[p 2987191 6, p 107087 3, n 895576 4, p 290322 4, p 372525 6, n 183579 3, p 193936 3, n 179912 3],
     [p 429641 4, p 139239 4, n 3941531 6, p 408048 6, n 354296 5, n 202265 3, p 251882 3, n 179912 3],
     [p 603612 4, p 705341 6, n 96709 6, p 4812 6, n 167125 4, n 2258 1, p 25802 2, n 179912 3]],
    p 439889 4, none, [("Al", 1), ("H", 1), ("O", 1)]⟩,
  ⟨"ig.B10H14", .ig,
    [p 1500 0, p 6000 0],
    [[p 5363093 4, p 2415369 5, n 4689344 6, p 314674 6, n 1008905 4, n 3517962 4, p 6740759 4, p 472792 4]],
    p 122221 3, none, [("B", 10), ("H", 14)]⟩,
  ⟨"ig.B2BeO4", .ig,
    [p 298 0, p 1100 0, p 6000 0],
    [[p 41729 3, p 2304472 4, n 1837625 4, p 5406858 5, n 336899 6, n 1373733 3, p 3143661 4, n 1351432 3],
     [p 1538469 4, p 2281694 6, n 458341 6, p 31573 6, n 1378917 5, n 1432802 3, p 4621772 4, n 1351432 3]],
    p 94632 3, none, [("B", 2), ("Be", 1), ("O", 4)]⟩,
  ⟨"ig.B2Cl4", .ig,
    [p 298 0, p 6000 0],
    [[p 1191164 4, p 792981 5, n 2087322 6, p 174912 6, n 2427386 6, n 5332926 4, p 486482 3, n 4891096 4]],
    p 163434 3, none, [("B", 2), ("Cl", 4)]⟩,
  ⟨"ig.B2F4", .ig,
    [p 298 0, p 1100 0, p 6000 0],
    [[p 3406023 5, p 1992735 4, n 165109 3, p 4980885 5, n 288278 6, n 1450388 3, p 3055508 4, n 1431765 3],
     [p 1267886 4, p 1160312 6, n 23403 5, p 16162 6, n 1008875 5, n 1496362 3, p 432931 3, n 1431765 3]],
    p 97616 3, none, [("B", 2), ("F", 4)]⟩,
  ⟨"ig.B2F4O", .ig,
    [p 298 0, p 1100 0, p 6000 0],
    [[p 188398 4, p 2615452 4, n 2027755 4, p 5797058 5, p 134621 6, n 1913188 3, p 2915993 4, n 1898076 3],
     [p 1493014 4, p 2504266 6, n 504109 6, p 34775 6, n 1590937 5, n 1983099 3, p 460809 3, n 1898076 3]],
    p 113615 3, none, [("B", 2), ("F", 4), ("O", 1)]⟩,
  ⟨"ig.B2H4O4", .ig,
    [p 298 0, p 1200 0, p 6000 0],
    [[p 4128683 5, p 3011672 4, n 2208382 4, p 6308552 5, n 868732 6, n 1311278 3, p 3134494 4, n 1284488 3],
     [p 1991161 4, p 1521056 5, n 2900654 6, p 192165 6, n 3002459 5, n 1412016 3, p 4970006 4, n 1284488 3]],
    p 89651 3, none, [("B", 2), ("H", 4), ("O", 4)]⟩,
  ⟨"ig.B3F2HO3", .ig,
    [p 298 0, p 1100 0, p 6000 0],
    [[p 2136731 5, p 364454 3, n 2859233 4, p 8280764 5, n 29353 5, n 2008596 3, p 2565097 4, n 19874 1],
     [p 2014069 4, p 3574844 6, n 718983 6, p 49567 6, n 2229039 5, n 2104552 3, p 4913941 4, n 19874 1]],
    p 119436 3, none, [("B", 3), ("F", 2), ("H", 1), ("O", 3)]⟩,
  ⟨"ig.B3FH2O3", .ig,
    [p 298 0, p 1200 0, p 6000 0],
    [[p 1807212 5, p 3368103 4, n 2434921 4, p 6549341 5, n 30034 5, n 1617635 3, p 2448355 4, n 1598288 3],
     [p 1986241 4, p 4922392 6, n 961132 6, p 64761 6, n 2717466 5, n 1723515 3, p 4639136 4, n 1598288 3]],
    p 101445 3, none, [("B", 3), ("F", 1), ("H", 2), ("O", 3)]⟩,
  ⟨"ig.B3H3O3", .ig,
    [p 298 0, p 1200 0, p 6000 0],
    [[p 5371377 6, p 3424135 4, n 2421034 4, p 6466121 5, p 11839 6, n 1232318 3, p 2065624 4, n 1217544 3],
     [p 1930481 4, p 7814959 6, n 151537 5, p 101599 6, n 3066374 5, n 1347298 3, p 4271697 4, n 1217544 3]],
    p 83455 3, none, [("B", 3), ("H", 3), ("O", 3)]⟩,
  ⟨"ig.B3H3O6", .ig,
    [p 298 0, p 1200 0, p 6000 0],
    [[p 643859 4, p 4147612 4, n 3393575 4, p 1027779 4, n 2087817 6, n 2313765 3, p 3042157 4, n 2271916 3],
     [p 255493 3, p 1384076 5, n 2617357 6, p 172356 6, n 2808979 5, n 2416867 3, p 5580954 4, n 2271916 3]],
    p 131453 3, none, [("B", 3), ("H", 3), ("O", 6)]⟩,
  ⟨"ig.B5H9", .ig,
    [p 1500 0, p 6000 0],
    [[p 3020563 4, p 1613748 5, n 3133799 6, p 210327 6, n 6433193 5, n 1663023 4, p 4395501 4, p 7322 2]],
    p 63126 3, none, [("B", 5), ("H", 9)]⟩,
  ⟨"ig.BBr", .ig,
    [p 298 0, p 6000 0],
    [[p 3637666 5, p 1272678 6, n 236082 6, p 20072 6, n 36485 5, p 2221813 4, p 2665631 4, p 2343044 4]],
    p 90715 3, none, [("B", 1), ("Br", 1)]⟩]

/-- `ig.BBr2` .. `ig.BF4K` (`data/ig`). -/
def gases2 : List File := [
  ⟨"ig.BBr2", .ig,
    [p 298 0, p 6000 0],
    [[p 5571791 5, p 2087562 6, n 560915 6, p 47614 6, n 763969 6, p 4349896 5, p 3571144 4, p 6276 2]],
    p 170619 3, none, [("B", 1), ("Br", 2)]⟩,
  ⟨"ig.BBr2Cl", .ig,
    [p 298 0, p 6000 0],
    [[p 785977 4, p 3800264 6, n 101773 5, p 86212 6, n 1265251 6, n 2997949 4, p 4086605 4, n 2719604 4]],
    p 206072 3, none, [("B", 1), ("Br", 2), ("Cl", 1)]⟩,
  ⟨"ig.BBr2F", .ig,
    [p 298 0, p 1100 0, p 6000 0],
    [[p 4853063 5, p 7669732 5, n 6630468 5, p 2068858 5, n 33312 5, n 5330834 4, p 3467436 4, n 514632 3],
     [p 8256622 5, p 322219 6, n 65085 6, p 4499 6, n 3564928 6, n 5490705 4, p 3952788 4, n 514632 3]],
    p 189617 3, none, [("B", 1), ("Br", 2), ("F", 1)]⟩,
  ⟨"ig.BBr2H", .ig,
    [p 298 0, p 1200 0, p 6000 0],
    [[p 4170461 5, p 6952553 5, n 5085024 5, p 1430125 5, n 450889 6, n 121218 3, p 3215956 4, n 1046 1],
     [p 7902237 5, p 2164627 6, n 418385 6, p 27986 6, n 6959373 6, n 1445739 4, p 3652741 4, n 1046 1]],
    p 171627 3, none, [("B", 1), ("Br", 2), ("H", 1)]⟩,
  ⟨"ig.BBr3", .ig,
    [p 1000 0, p 6000 0],
    [[p 7937927 5, p 3158104 6, n 847461 6, p 71881 6, n 1156241 6, n 2318547 4, p 4128424 4, n 2041792 4]],
    p 250523 3, none, [("B", 1), ("Br", 3)]⟩,
  ⟨"ig.BBrCl", .ig,
    [p 298 0, p 6000 0],
    [[p 5498822 5, p 2689751 6, n 720962 6, p 61108 6, n 828942 6, n 2974594 5, p 3500447 4, n 1046 2]],
    p 126168 3, none, [("B", 1), ("Br", 1), ("Cl", 1)]⟩,
  ⟨"ig.BBrCl2", .ig,
    [p 298 0, p 3000 0, p 6000 0],
    [[p 7216814 5, p 1486876 5, n 6935984 6, p 1067189 6, n 1056817 6, n 3624708 4, p 3876225 4, n 3368124 4],
     [p 8312395 5, p 7346 6, n 1091 6, p 63 6, n 2996992 6, n 3698949 4, p 3984716 4, n 3368124 4]],
    p 161621 3, none, [("B", 1), ("Br", 1), ("Cl", 2)]⟩,
  ⟨"ig.BBrF", .ig,
    [p 298 0, p 1100 0, p 6000 0],
    [[p 2905792 5, p 6667162 5, n 5895674 5, p 1869742 5, n 5827 5, n 2519199 4, p 2931808 4, n 2405804 4],
     [p 5782832 5, p 208116 6, n 42057 6, p 2908 6, n 2585136 6, n 2649489 4, p 3351556 4, n 2405804 4]],
    p 109713 3, none, [("B", 1), ("Br", 1), ("F", 1)]⟩,
  ⟨"ig.BBrF2", .ig,
    [p 298 0, p 1100 0, p 6000 0],
    [[p 3618771 5, p 9888466 5, n 8210096 5, p 2481685 5, n 230106 6, n 835344 3, p 3028312 4, n 820064 3],
     [p 8210807 5, p 577103 6, n 116505 6, p 8053 6, n 5067744 6, n 8580715 4, p 366 0, n 820064 3]],
    p 128712 3, none, [("B", 1), ("Br", 1), ("F", 2)]⟩,
  ⟨"ig.BBrO", .ig,
    [p 298 0, p 1200 0, p 6000 0],
    [[p 4250818 5, p 2939452 5, n 1712168 5, p 3619851 6, n 269627 6, n 2657807 4, p 2907867 4, n 2510404 4],
     [p 6115962 5, p 640809 6, n 125374 6, p 8458 6, n 3716937 6, n 2782511 4, p 3105352 4, n 2510404 4]],
    p 106714 3, none, [("B", 1), ("Br", 1), ("O", 1)]⟩,
  ⟨"ig.BCl2F", .ig,
    [p 298 0, p 1000 0, p 6000 0],
    [[p 3959512 5, p 1004365 4, n 9122835 5, p 3015221 5, n 282186 6, n 6608084 4, p 3078453 4, n 644336 3],
     [p 8230137 5, p 486436 6, n 100975 6, p 7134 6, n 4052836 6, n 6801469 4, p 3703936 4, n 644336 3]],
    p 100715 3, none, [("B", 1), ("Cl", 2), ("F", 1)]⟩,
  ⟨"ig.BCl2H", .ig,
    [p 298 0, p 1200 0, p 6000 0],
    [[p 3288218 5, p 8874348 5, n 6697454 5, p 1912686 5, n 380534 6, n 2625849 4, p 2822648 4, n 2481112 4],
     [p 7888053 5, p 2239826 6, n 433019 6, p 28971 6, n 772425 5, n 2900474 4, p 3382228 4, n 2481112 4]],
    p 82725 3, none, [("B", 1), ("Cl", 2), ("H", 1)]⟩,
  ⟨"ig.BClF2", .ig,
    [p 298 0, p 2000 0, p 6000 0],
    [[p 4821098 5, p 5664676 5, n 3380597 5, p 6950712 6, n 7071 4, n 904313 3, p 3137335 4, n 8853344 4],
     [p 8284153 5, p 135463 6, n 22859 6, p 1364 6, n 6157425 6, n 9255468 4, p 3530493 4, n 8853344 4]],
    p 84261 3, none, [("B", 1), ("Cl", 1), ("F", 2)]⟩,
  ⟨"ig.BF2H", .ig,
    [p 298 0, p 1200 0, p 6000 0],
    [[p 1046724 5, p 1263836 4, n 9169403 5, p 250081 4, p 149287 6, n 7413546 4, p 2237051 4, n 7338736 4],
     [p 7802491 5, p 2696422 6, n 522226 6, p 34981 6, n 104505 4, n 781772 3, p 3048718 4, n 7338736 4]],
    p 49816 3, none, [("B", 1), ("F", 2), ("H", 1)]⟩,
  ⟨"ig.BF2HO", .ig,
    [p 298 0, p 1100 0, p 6000 0],
    [[p 6125711 6, p 1900523 4, n 1524152 4, p 4593697 5, p 134063 6, n 1092225 3, p 2270418 4, n 1083656 3],
     [p 957136 4, p 6445117 6, n 1242878 6, p 83173 6, n 1156851 5, n 1140621 3, p 3445143 4, n 1083656 3]],
    p 65815 3, none, [("B", 1), ("F", 2), ("H", 1), ("O", 1)]⟩,
  ⟨"ig.BF4K", .ig,
    [p 1500 0, p 6000 0],
    [[p 131537 3, p 83144 5, n 167755 6, p 11591 6, n 7939099 6, n 1612982 3, p 4428806 4, n 1552264 3]],
    p 125903 3, none, [("B", 1), ("F", 4), ("K", 1)]⟩]

/-- `ig.BH` .. `ig.Be2` (`data/ig`). -/
def gases3 : List File := [
  ⟨"ig.BH", .ig,
    [p 298 0, p 1000 0, p 6000 0],
    [[p 3091997 5, n 1254882 5, p 2609904 5, n 1131437 5, n 1311 6, p 4337929 4, p 2119422 4, p 4426672 4],
     [p 3359007 5, p 2726701 6, n 432931 6, p 30087 6, n 2825594 6, p 4266634 4, p 2047336 4, p 4426672 4]],
    p 11819 3, none, [("B", 1), ("H", 1)]⟩,
  ⟨"ig.BH2", .ig,
    [p 298 0, p 1300 0, p 6000 0],
    [[p 2796607 5, p 291906 4, n 6409428 6, n 659348 6, n 183321 6, p 1906389 4, p 2045913 4, p 200832 3],
     [p 5596728 5, p 3264763 6, n 61701 5, p 40532 6, n 9779724 6, p 1640161 4, p 222698 3, p 200832 3]],
    p 12827 3, none, [("B", 1), ("H", 2)]⟩,
  ⟨"ig.BH2O2", .ig,
    [p 298 0, p 1200 0, p 6000 0],
    [[p 20759 3, p 1388933 4, n 9695876 5, p 2627347 5, n 201172 6, n 48921 2, p 2302372 4, n 476976 3],
     [p 9794995 5, p 5292425 6, n 1018797 6, p 67951 6, n 1445354 5, n 5392046 4, p 3175501 4, n 476976 3]],
    p 44826 3, none, [("B", 1), ("H", 2), ("O", 2)]⟩,
  ⟨"ig.BH3", .ig,
    [p 298 0, p 1300 0, p 6000 0],
    [[p 2288661 5, p 3351995 5, p 1025691 5, n 8515151 6, p 238611 6, p 9910683 5, p 2065461 4, p 106692 3],
     [p 6871969 5, p 7326644 6, n 1379298 6, p 90359 6, n 1852081 5, p 4959044 5, p 2265423 4, p 106692 3]],
    p 13835 3, none, [("B", 1), ("H", 3)]⟩,
  ⟨"ig.BH3O3", .ig,
    [p 298 0, p 1200 0, p 6000 0],
    [[p 2291803 5, p 1820312 4, n 1257518 4, p 3468749 5, n 145463 6, n 1006649 3, p 2731524 4, n 9922774 4],
     [p 1236309 4, p 1127103 5, n 2150124 6, p 142479 6, n 2084674 5, n 1075104 3, p 3834117 4, n 9922774 4]],
    p 61833 3, none, [("B", 1), ("H", 3), ("O", 3)]⟩,
  ⟨"ig.BHO", .ig,
    [p 298 0, p 1200 0, p 6000 0],
    [[p 2620531 5, p 4098128 5, n 1872813 5, p 3175356 6, n 141106 6, n 2082712 4, p 2221206 4, n 1983224 4],
     [p 5419744 5, p 5060506 6, n 1220665 6, p 108302 6, n 7123009 6, n 230315 3, p 246856 3, n 1983224 4]],
    p 27818 3, none, [("B", 1), ("H", 1), ("O", 1)]⟩,
  ⟨"ig.BHO2", .ig,
    [p 298 0, p 1200 0, p 6000 0],
    [[p 1939933 5, p 9050912 5, n 5845383 5, p 1498299 5, p 56887 6, n 5697855 4, p 2390093 4, n 560656 3],
     [p 7120373 5, p 6077511 6, n 1149568 6, p 75718 6, n 105533 4, n 6052867 4, p 294521 3, n 560656 3]],
    p 43818 3, none, [("B", 1), ("H", 1), ("O", 2)]⟩,
  ⟨"ig.BHS", .ig,
    [p 298 0, p 1200 0, p 6000 0],
    [[p 2612498 5, p 555313 4, n 3830686 5, p 1045326 5, n 247438 6, p 3943667 5, p 2302355 4, p 50208 3],
     [p 551288 4, p 5081761 6, n 1465188 6, p 161076 6, n 5727645 6, p 2050223 5, p 2629849 4, p 50208 3]],
    p 43884 3, none, [("B", 1), ("H", 1), ("S", 1)]⟩,
  ⟨"ig.BI", .ig,
    [p 298 0, p 6000 0],
    [[p 3674569 5, p 1000663 6, n 153296 6, p 13054 6, n 318119 6, p 293367 3, p 2751143 4, p 3054324 4]],
    p 137715 3, none, [("B", 1), ("I", 1)]⟩,
  ⟨"ig.BI2", .ig,
    [p 298 0, p 6000 0],
    [[p 5623882 5, p 1654664 6, n 445374 6, p 37848 6, n 702582 6, p 22348 2, p 3731274 4, p 2426724 4]],
    p 26462 2, none, [("B", 1), ("I", 2)]⟩,
  ⟨"ig.BI3", .ig,
    [p 298 0, p 6000 0],
    [[p 8075706 5, p 2015451 6, n 542836 6, p 46149 6, n 967621 6, p 4372154 5, p 4403493 4, p 71128 3]],
    p 391524 3, none, [("B", 1), ("I", 3)]⟩,
  ⟨"ig.BaH2O2", .ig,
    [p 2000 0, p 6000 0],
    [[p 818773 4, p 143377 4, n 2870551 6, p 197578 6, n 740637 6, n 654059 3, p 405831 3, n 626562 3]],
    p 171342 3, none, [("Ba", 1), ("H", 2), ("O", 2)]⟩,
  ⟨"ig.BaHO", .ig,
    [p 298 0, p 6000 0],
    [[p 519474 4, p 2518601 6, p 667164 6, n 85729 6, n 581994 6, n 244006 3, p 31167 2, n 22644 2]],
    p 154334 3, none, [("Ba", 1), ("H", 1), ("O", 1)]⟩,
  ⟨"ig.BaI", .ig,
    [p 298 0, p 6000 0],
    [[p 37781 3, p 13522 5, p 68296 6, p 22904 6, n 59791 6, n 538922 4, p 324065 3, n 424174 4]],
    p 264231 3, none, [("Ba", 1), ("I", 1)]⟩,
  ⟨"ig.BaI2", .ig,
    [p 2800 0, p 6000 0],
    [[p 5819107 5, p 8639 6, n 2361 6, p 203 6, n 6506 5, n 3204906 4, p 4181908 4, n 3029224 4]],
    p 391136 3, none, [("Ba", 1), ("I", 2)]⟩,
  ⟨"ig.Be2", .ig,
    [p 298 0, p 6000 0],
    [[p 2025123 5, p 414567 6, n 106361 6, p 877 5, p 631136 6, p 6332191 4, p 2343308 4, p 6371604 4]],
    p 18024364 6, none, [("Be", 2)]⟩]

/-- `ig.Be2Cl4` .. `ig.Br3Mo` (`data/ig`). -/
def gases4 : List File := [
  ⟨"ig.Be2Cl4", .ig,
    [p 298 0, p 6000 0],
    [[p 1299124 4, p 2622733 6, n 704841 6, p 59839 6, n 1397198 6, n 7924663 4, p 5299789 4, n 748936 3]],
    p 159836 3, none, [("Be", 2), ("Cl", 4)]⟩,
  ⟨"ig.BeF3Li", .ig,
    [p 2000 0, p 6000 0],
    [[p 106843 3, p 693121 6, n 139962 6, p 9679 6, n 7803411 6, n 9405758 4, p 3641574 4, n 887008 3]],
    p 72948 3, none, [("Be", 1), ("F", 3), ("Li", 1)]⟩,
  ⟨"ig.BeH", .ig,
    [p 298 0, p 1200 0, p 6000 0],
    [[p 2508655 5, p 78873 4, p 3945232 6, n 3102483 6, p 135955 6, p 3137954 4, p 2054495 4, p 3211973 4],
     [p 3559404 5, p 1568029 6, n 187861 6, p 12629 6, n 3267009 6, p 3036634 4, p 2111142 4, p 3211973 4]],
    p 1002012 5, none, [("Be", 1), ("H", 1)]⟩,
  ⟨"ig.BeH2O2", .ig,
    [p 298 0, p 1400 0, p 6000 0],
    [[p 6290602 5, p 5475517 5, n 3244228 5, p 8382938 6, n 1174173 6, n 7014141 4, p 2885203 4, n 6765528 4],
     [p 9646086 5, p 7604086 6, n 1374904 6, p 87302 6, n 126012 4, n 7307942 4, p 3174685 4, n 6765528 4]],
    p 430269 4, none, [("Be", 1), ("H", 2), ("O", 2)]⟩,
  ⟨"ig.BeHO", .ig,
    [p 298 0, p 1400 0, p 6000 0],
    [[p 3308594 5, p 3721735 5, n 2393566 5, p 6291564 6, n 349553 6, n 1271359 4, p 2375725 4, n 114642 3],
     [p 5398197 5, p 426086 5, n 845038 6, p 62394 6, n 6246712 6, n 1434422 4, p 2582461 4, n 114642 3]],
    p 260195 4, none, [("Be", 1), ("H", 1), ("O", 1)]⟩,
  ⟨"ig.Br2Fe", .ig,
    [p 2000 0, p 6000 0],
    [[p 5784254 5, p 7661573 6, n 19358 4, p 143845 6, n 1735758 6, n 6066172 5, p 4045823 4, n 4142206 5]],
    p 215653 3, none, [("Br", 2), ("Fe", 1)]⟩,
  ⟨"ig.Br2H2Si", .ig,
    [p 298 0, p 1400 0, p 6000 0],
    [[p 5434765 5, p 765764 4, n 4482068 5, p 9887462 6, n 705314 6, n 2119706 4, p 3509204 4, n 190372 3],
     [p 1043879 4, p 1857551 6, n 345831 6, p 22433 6, n 1165658 5, n 2478305 4, p 4013339 4, n 190372 3]],
    p 189909 3, none, [("Br", 2), ("H", 2), ("Si", 1)]⟩,
  ⟨"ig.Br2K2", .ig,
    [p 298 0, p 6000 0],
    [[p 8313357 5, p 8914 6, n 2404 6, p 205 6, n 120503 6, n 5657647 4, p 4761559 4, n 5405728 4]],
    p 238005 3, none, [("Br", 2), ("K", 2)]⟩,
  ⟨"ig.Br2Li2", .ig,
    [p 298 0, p 6000 0],
    [[p 8270387 5, p 377194 6, n 102432 6, p 8754 6, n 696603 6, n 5278367 4, p 4105755 4, n 5008248 4]],
    p 17369 2, none, [("Br", 2), ("Li", 2)]⟩,
  ⟨"ig.Br2Mo", .ig,
    [p 298 0, p 1300 0, p 6000 0],
    [[p 7370911 5, p 2273038 6, n 1490964 5, p 6617456 6, n 353153 6, p 1442154 4, p 4080948 4, p 16736 2],
     [p 6484614 5, n 3087965 6, p 1250724 6, n 111798 6, p 5310626 6, p 1576029 4, p 410345 3, p 16736 2]],
    p 25577 2, none, [("Br", 2), ("Mo", 1)]⟩,
  ⟨"ig.Br2Na2", .ig,
    [p 298 0, p 6000 0],
    [[p 8309006 5, p 46455 6, n 12623 6, p 1078 6, n 26592 5, n 512017 3, p 4479892 4, n 4863482 4]],
    p 205788 3, none, [("Br", 2), ("Na", 2)]⟩,
  ⟨"ig.Br2Sr", .ig,
    [p 3000 0, p 6000 0],
    [[p 6231942 5, p 32967 6, n 8935 6, p 762 6, n 127959 6, n 4261153 4, p 3980997 4, n 4071036 4]],
    p 24743 2, none, [("Br", 2), ("Sr", 1)]⟩,
  ⟨"ig.Br2Ti", .ig,
    [p 298 0, p 1500 0, p 6000 0],
    [[p 615479 4, p 2513054 6, n 3173116 6, p 1503019 6, n 180586 6, n 1981183 4, p 3815302 4, n 1790752 4],
     [p 4850804 5, p 1095493 5, n 1836158 6, p 113035 6, p 4264709 6, n 1848403 4, p 3751998 4, n 1790752 4]],
    p 207675 3, none, [("Br", 2), ("Ti", 1)]⟩,
  ⟨"ig.Br2Zr", .ig,
    [p 2000 0, p 6000 0],
    [[p 469608 4, p 118734 4, n 2028643 6, p 126651 6, p 5759945 6, n 1775832 4, p 3834167 4, n 1744732 4]],
    p 251032 3, none, [("Br", 2), ("Zr", 1)]⟩,
  ⟨"ig.Br3HSi", .ig,
    [p 298 0, p 1200 0, p 6000 0],
    [[p 7637474 5, p 5117367 5, n 3512054 5, p 9270281 6, n 743355 6, n 3301707 4, p 4225087 4, n 3029224 4],
     [p 1055238 4, p 1359583 6, n 264638 6, p 17795 6, n 5962577 6, n 3489146 4, p 4553907 4, n 3029224 4]],
    p 268805 3, none, [("Br", 3), ("H", 1), ("Si", 1)]⟩,
  ⟨"ig.Br3Mo", .ig,
    [p 298 0, p 6000 0],
    [[p 8083948 5, p 3798182 6, n 185714 6, n 29409 6, n 146255 6, n 3313297 5, p 4708632 4, n 8368001 6]],
    p 33567 2, none, [("Br", 3), ("Mo", 1)]⟩]

/-- `ig.Br3OP` .. `ig.BrF3` (`data/ig`). -/
def gases5 : List File := [
  ⟨"ig.Br3OP", .ig,
    [p 298 0, p 6000 0],
    [[p 1023063 4, p 4716206 6, n 1245641 6, p 104607 6, n 1276853 6, n 441002 3, p 4749593 4, n 4060225 4]],
    p 286685 3, none, [("Br", 3), ("O", 1), ("P", 1)]⟩,
  ⟨"ig.Br3P", .ig,
    [p 298 0, p 6000 0],
    [[p 8268086 5, p 396137 6, n 107517 6, p 9187 6, n 607864 6, n 1727285 4, p 4447425 4, n 146022 3]],
    p 270686 3, none, [("Br", 3), ("P", 1)]⟩,
  ⟨"ig.Br3PS", .ig,
    [p 298 0, p 6000 0],
    [[p 1063715 4, p 1453477 6, n 392171 6, p 33377 6, n 1076105 6, n 3164363 4, p 4950258 4, n 2810523 4]],
    p 302751 3, none, [("Br", 3), ("P", 1), ("S", 1)]⟩,
  ⟨"ig.Br3Ti", .ig,
    [p 298 0, p 6000 0],
    [[p 8882339 5, n 2345614 6, p 557422 6, n 45976 6, n 781617 6, n 4038895 4, p 4628592 4, n 3748864 4]],
    p 287579 3, none, [("Br", 3), ("Ti", 1)]⟩,
  ⟨"ig.Br3Zr", .ig,
    [p 298 0, p 6000 0],
    [[p 8303315 5, p 95169 6, n 25838 6, p 2207 6, n 323219 6, n 4567966 4, p 4702188 4, n 430952 3]],
    p 330936 3, none, [("Br", 3), ("Zr", 1)]⟩,
  ⟨"ig.Br4Fe2", .ig,
    [p 298 0, p 6000 0],
    [[p 1271175 4, p 8351391 6, n 1868947 6, p 12145 5, p 156764 6, n 2908591 4, p 6684735 4, n 2531324 4]],
    p 431306 3, none, [("Br", 4), ("Fe", 2)]⟩,
  ⟨"ig.Br4Mg2", .ig,
    [p 298 0, p 6000 0],
    [[p 1329709 4, p 5148 5, n 13992 6, p 1196 6, n 354008 6, n 8085998 4, p 6202571 4, n 767764 3]],
    p 368226 3, none, [("Br", 4), ("Mg", 2)]⟩,
  ⟨"ig.Br4Mo", .ig,
    [p 298 0, p 6000 0],
    [[p 1108789 4, n 425994 5, p 1608289 6, n 103249 6, n 641148 6, n 2061666 4, p 5505433 4, n 171126 3]],
    p 41558 2, none, [("Br", 4), ("Mo", 1)]⟩,
  ⟨"ig.Br4Ti", .ig,
    [p 1000 0, p 6000 0],
    [[p 1076514 4, p 373155 6, n 101265 6, p 8648 6, n 632864 6, n 5844295 4, p 5251924 4, n 550196 3]],
    p 367483 3, none, [("Br", 4), ("Ti", 1)]⟩,
  ⟨"ig.Br4Zr", .ig,
    [p 298 0, p 6000 0],
    [[p 1078664 4, p 189622 6, n 51572 6, p 4412 6, n 470135 6, n 6784984 4, p 5423175 4, n 6447544 4]],
    p 41084 2, none, [("Br", 4), ("Zr", 1)]⟩,
  ⟨"ig.Br5Nb", .ig,
    [p 900 0, p 6000 0],
    [[p 132727 3, p 265533 6, n 73214 6, p 6324 6, n 627136 6, n 485278 3, p 606265 3, n 443588 3]],
    p 492426 3, none, [("Br", 5), ("Nb", 1)]⟩,
  ⟨"ig.Br5W", .ig,
    [p 1000 0, p 6000 0],
    [[p 132078 3, p 380912 6, p 583308 6, n 80716 6, n 434898 6, n 2400126 4, p 6187216 4, n 1991584 4]],
    p 58336 2, none, [("Br", 5), ("W", 1)]⟩,
  ⟨"ig.Br6W", .ig,
    [p 298 0, p 6000 0],
    [[p 1578297 4, p 123589 6, n 33587 6, p 2872 6, n 579681 6, n 2920968 4, p 6703981 4, n 2430904 4]],
    p 66326 2, none, [("Br", 6), ("W", 1)]⟩,
  ⟨"ig.BrCl", .ig,
    [p 298 0, p 6000 0],
    [[p 3717794 5, p 62014 5, n 54869 6, p 4685 6, n 214127 6, p 2814196 6, p 2835965 4, p 14644 3]],
    p 115357 3, none, [("Br", 1), ("Cl", 1)]⟩,
  ⟨"ig.BrF", .ig,
    [p 298 0, p 6000 0],
    [[p 3645226 5, p 1347621 6, n 21922 5, p 18644 6, n 357918 6, n 7058952 5, p 2706425 4, n 5846303 5]],
    p 98902 3, none, [("Br", 1), ("F", 1)]⟩,
  ⟨"ig.BrF3", .ig,
    [p 298 0, p 6000 0],
    [[p 8076961 5, p 2015036 6, n 544272 6, p 46354 6, n 1351616 6, n 2842865 4, p 3818779 4, n 2555884 4]],
    p 136899 3, none, [("Br", 1), ("F", 3)]⟩]

/-- `ig.BrF5` .. `ig.C2Be` (`data/ig`). -/
def gases6 : List File := [
  ⟨"ig.BrF5", .ig,
    [p 298 0, p 6000 0],
    [[p 1285936 4, p 3764801 6, n 101683 5, p 86595 6, n 2571877 6, n 4758421 4, p 4635998 4, n 4287177 4]],
    p 174896 3, none, [("Br", 1), ("F", 5)]⟩,
  ⟨"ig.BrF5S", .ig,
    [p 298 0, p 1000 0, p 6000 0],
    [[p 8103864 5, p 2003797 4, n 1991961 4, p 7044141 5, n 1591398 6, n 1009612 3, p 3712421 4, n 9728218 4],
     [p 1573837 4, p 342686 6, n 71416 6, p 5059 6, n 6642644 6, n 1039753 3, p 4926702 4, n 9728218 4]],
    p 206961 3, none, [("Br", 1), ("F", 5), ("S", 1)]⟩,
  ⟨"ig.BrH", .ig,
    [p 298 0, p 1100 0, p 6000 0],
    [[p 3171409 5, n 1369992 5, p 2335567 5, n 9008529 6, n 28758 6, n 4557464 5, p 2400428 4, n 3644306 5],
     [p 3288913 5, p 2822116 6, n 478035 6, p 32464 6, n 3174958 6, n 5246318 5, p 2308597 4, n 3644306 5]],
    p 80912 3, none, [("Br", 1), ("H", 1)]⟩,
  ⟨"ig.BrH3Si", .ig,
    [p 298 0, p 1200 0, p 6000 0],
    [[p 2949883 5, p 110948 3, n 6477418 5, p 1445237 5, n 386755 6, n 9272246 5, p 2656568 4, n 7824122 5],
     [p 1007265 4, p 3906079 6, n 760446 6, p 51131 6, n 1503893 5, n 142748 3, p 3382329 4, n 7824122 5]],
    p 111013 3, none, [("Br", 1), ("H", 3), ("Si", 1)]⟩,
  ⟨"ig.BrHg", .ig,
    [p 298 0, p 6000 0],
    [[p 3740588 5, p 113971 5, n 2123 6, p 181 6, n 4776 5, p 9281869 5, p 3161962 4, p 104182 3]],
    p 28049 2, none, [("Br", 1), ("Hg", 1)]⟩,
  ⟨"ig.BrI", .ig,
    [p 298 0, p 2300 0, p 6000 0],
    [[p 3640662 5, p 3406124 6, n 2681672 6, p 845252 6, n 5911 5, p 2969556 5, p 3017752 4, p 4087806 5],
     [n 681377 4, p 4636541 5, n 4978834 6, p 113884 6, p 1428317 4, p 2330902 4, p 3125971 4, p 4087806 5]],
    p 206808 3, none, [("Br", 1), ("I", 1)]⟩,
  ⟨"ig.BrK", .ig,
    [p 2500 0, p 6000 0],
    [[p 3739822 5, p 803207 6, n 3938 6, p 338 6, n 6385 5, n 1914795 4, p 2951912 4, n 1800794 4]],
    p 119002 3, none, [("Br", 1), ("K", 1)]⟩,
  ⟨"ig.BrLi", .ig,
    [p 2000 0, p 6000 0],
    [[p 3687263 5, p 1099125 6, n 124519 6, p 10609 6, n 295577 6, n 1660035 4, p 2669626 4, n 1539712 4]],
    p 86845 3, none, [("Br", 1), ("Li", 1)]⟩,
  ⟨"ig.BrMo", .ig,
    [p 298 0, p 3000 0, p 6000 0],
    [[p 3610482 5, p 3856381 6, n 3155703 6, p 934367 6, n 68416 6, p 4461692 4, p 3118143 4, p 4573112 4],
     [n 2587645 4, p 1303299 4, n 1817325 5, p 829867 6, p 4809926 4, p 1059284 3, p 3515882 4, p 4573112 4]],
    p 17586 2, none, [("Br", 1), ("Mo", 1)]⟩,
  ⟨"ig.BrN", .ig,
    [p 298 0, p 6000 0],
    [[p 3633143 5, p 1375294 6, n 246115 6, p 20919 6, n 369142 6, p 2886299 4, p 2769377 4, p 3007585 4]],
    p 93911 3, none, [("Br", 1), ("N", 1)]⟩,
  ⟨"ig.BrNO", .ig,
    [p 298 0, p 1200 0, p 6000 0],
    [[p 4002214 5, p 2524977 5, n 1332508 5, p 2411069 6, n 84503 6, p 6890713 5, p 3145276 4, p 8213192 5],
     [p 5699738 5, p 644436 6, n 126207 6, p 8519 6, n 3416262 6, p 5711746 5, p 3316812 4, p 8213192 5]],
    p 10991 2, none, [("Br", 1), ("N", 1), ("O", 1)]⟩,
  ⟨"ig.BrP", .ig,
    [p 298 0, p 6000 0],
    [[p 3725086 5, p 600513 6, n 38128 6, p 3259 6, n 183215 6, p 1508541 4, p 2930695 4, p 1626011 4]],
    p 110878 3, none, [("Br", 1), ("P", 1)]⟩,
  ⟨"ig.BrTi", .ig,
    [p 298 0, p 6000 0],
    [[p 4367552 5, p 490779 6, p 40769 6, n 7983 6, n 535657 6, p 1977149 4, p 3099256 4, p 2125472 4]],
    p 127771 3, none, [("Br", 1), ("Ti", 1)]⟩,
  ⟨"ig.BrW", .ig,
    [p 298 0, p 6000 0],
    [[p 3838029 5, n 1563343 6, p 1279485 6, n 115322 6, n 187501 6, p 574162 3, p 3183723 4, p 5861784 4]],
    p 26374 2, none, [("Br", 1), ("W", 1)]⟩,
  ⟨"ig.BrZr", .ig,
    [p 298 0, p 1600 0, p 6000 0],
    [[p 3817582 5, n 5728273 6, p 1085689 5, n 3512091 6, n 112338 6, p 2896546 4, p 3123808 4, p 3012484 4],
     [p 489164 4, n 2231127 6, p 35812 5, n 16881 6, n 9764076 6, p 2705634 4, p 3085144 4, p 3012484 4]],
    p 171128 3, none, [("Br", 1), ("Zr", 1)]⟩,
  ⟨"ig.C2Be", .ig,
    [p 298 0, p 1200 0, p 6000 0],
    [[p 2962536 5, p 4372364 5, n 2157952 5, p 3421756 6, p 41136 6, p 5543884 4, p 2426226 4, p 56484 2],
     [p 6005128 5, p 1233586 6, n 241476 6, p 16302 6, n 6145585 6, p 5327864 4, p 272511 3, p 56484 2]],
    p 330336 4, none, [("C", 2), ("Be", 1)]⟩]

/-- `ig.C2F3N` .. `ig.CHP` (`data/ig`). -/
def gases7 : List File := [
  ⟨"ig.C2F3N", .ig,
    [p 298 0, p 1100 0, p 6000 0],
    [[p 4325419 5, p 1768711 4, n 142333 3, p 425245 4, n 553861 6, n 5168286 4, p 3009714 4, n 4953856 4],
     [p 1288228 4, p 2308778 6, n 461357 6, p 31661 6, n 1115228 5, n 5623714 4, p 4134729 4, n 4953856 4]],
    p 950233 4, none, [("C", 2), ("F", 3), ("N", 1)]⟩,
  ⟨"ig.C2F6", .ig,
    [p 298 0, p 1400 0, p 6000 0],
    [[p 6974728 5, p 2253599 4, n 1741628 4, p 4714657 5, n 1455677 6, n 137818 2, p 3484444 4, n 1343901 3],
     [p 1769522 4, p 102337 5, n 193084 6, p 10897 6, n 1117956 5, n 1429213 3, p 496578 3, n 1343901 3]],
    p 1380118 4, none, [("C", 2), ("F", 6)]⟩,
  ⟨"ig.C4NiO4", .ig,
    [p 700 0, p 1500 0, p 6000 0],
    [[p 142184 3, p 7315138 5, n 2939775 5, p 3701526 6, n 1081029 6, n 6505869 4, p 5609824 4, n 6015755 4],
     [p 2026629 4, p 2826121 6, n 456035 6, p 29612 6, n 18395 3, n 7016484 4, p 6096716 4, n 6015755 4]],
    p 1707338 4, none, [("C", 4), ("Ni", 1), ("O", 4)]⟩,
  ⟨"ig.CB", .ig,
    [p 298 0, p 1100 0, p 6000 0],
    [[p 1919807 5, p 3592064 5, n 2753189 5, p 7805629 6, p 180789 6, p 8219468 4, p 2232507 4, p 828432 3],
     [p 3689732 5, p 624023 6, n 58068 6, p 4012 6, n 1929339 6, p 8125788 4, p 2463577 4, p 828432 3]],
    p 22822 3, none, [("C", 1), ("B", 1)]⟩,
  ⟨"ig.CBr", .ig,
    [p 298 0, p 6000 0],
    [[p 3827787 5, n 287543 6, p 158071 6, n 11188 6, n 18463 5, p 4984274 4, p 2788372 4, p 510448 3]],
    p 91915 3, none, [("C", 1), ("Br", 1)]⟩,
  ⟨"ig.CBr4", .ig,
    [p 298 0, p 6000 0],
    [[p 1051468 4, p 2487623 6, n 670708 6, p 57056 6, n 1342609 6, p 1425271 5, p 476976 3, p 50208 3]],
    p 331627 3, none, [("C", 1), ("Br", 4)]⟩,
  ⟨"ig.CBrF3", .ig,
    [p 298 0, p 1100 0, p 6000 0],
    [[p 3826276 5, p 1573699 4, n 1376724 4, p 4332072 5, n 425463 6, n 6676409 4, p 3005476 4, n 6489384 4],
     [p 1070698 4, p 569497 6, n 115408 6, p 8002 6, n 6690425 6, n 6993347 4, p 3998766 4, n 6489384 4]],
    p 14891 2, none, [("C", 1), ("Br", 1), ("F", 3)]⟩,
  ⟨"ig.CBrN", .ig,
    [p 298 0, p 1300 0, p 6000 0],
    [[p 4646248 5, p 1550076 5, n 2870656 6, n 631956 6, n 327555 6, p 17057 2, p 2982485 4, p 186188 3],
     [p 6031152 5, p 221104 5, n 200183 6, p 13172 6, n 4574618 6, p 1581088 4, p 3079006 4, p 186188 3]],
    p 105921 3, none, [("C", 1), ("Br", 1), ("N", 1)]⟩,
  ⟨"ig.CF3I", .ig,
    [p 298 0, p 1200 0, p 6000 0],
    [[p 4450353 5, p 1384527 4, n 1158533 4, p 3458407 5, n 488716 6, n 6092155 4, p 3222914 4, n 5891072 4],
     [p 1073108 4, p 420672 6, n 83105 6, p 5647 6, n 6529132 6, n 6389888 4, p 4109475 4, n 5891072 4]],
    p 1959104 4, none, [("C", 1), ("F", 3), ("I", 1)]⟩,
  ⟨"ig.CF4O", .ig,
    [p 298 0, p 1500 0, p 6000 0],
    [[p 518455 4, p 148975 3, n 108779 3, p 279138 4, n 715323 6, n 78842 2, p 34137 2, n 764835 3],
     [p 130291 3, n 927615 6, p 201844 6, n 1447 5, n 116142 4, n 83195 2, p 440821 3, n 764835 3]],
    p 1040037 4, none, [("C", 1), ("F", 4), ("O", 1)]⟩,
  ⟨"ig.CF8S", .ig,
    [p 298 0, p 1100 0, p 6000 0],
    [[p 8598162 5, p 3330815 4, n 299543 3, p 9629978 5, n 1961293 6, n 1761623 3, p 3861188 4, n 1717051 3],
     [p 2269586 4, p 942647 6, n 190579 6, p 13184 6, n 1383197 5, n 1824107 3, p 594743 3, n 1717051 3]],
    p 196063 3, none, [("C", 1), ("F", 8), ("S", 1)]⟩,
  ⟨"ig.CH3Cl3Si", .ig,
    [p 298 0, p 1500 0],
    [[p 8282354 5, p 1167951 4, n 6139225 5, p 1261635 5, n 904497 6, n 5612794 4, p 4140269 4, n 5288576 4]],
    p 149479 3, none, [("C", 1), ("H", 3), ("Cl", 3), ("Si", 1)]⟩,
  ⟨"ig.CH3F3Si", .ig,
    [p 298 0, p 1500 0],
    [[p 5892704 5, p 164535 3, n 9743908 5, p 2218616 5, n 807311 6, n 125951 2, p 3359857 4, n 1232711 3]],
    p 1001152 4, none, [("C", 1), ("H", 3), ("F", 3), ("Si", 1)]⟩,
  ⟨"ig.CHF", .ig,
    [p 298 0, p 2000 0, p 6000 0],
    [[p 2186387 5, p 4357594 5, n 2184111 5, p 4225464 6, p 137095 6, p 1177097 4, p 2385165 4, p 12552 2],
     [p 1252798 5, p 2419883 5, n 3532459 6, p 164806 6, p 2949502 5, p 1572439 4, p 2616289 4, p 12552 2]],
    p 32017 3, none, [("C", 1), ("H", 1), ("F", 1)]⟩,
  ⟨"ig.CHFO", .ig,
    [p 298 0, p 1000 0, p 6000 0],
    [[p 7472875 6, p 1258033 4, n 9235008 5, p 2669384 5, p 260592 6, n 3827431 4, p 2233892 4, n 3765604 4],
     [p 7296687 5, p 5631162 6, n 1135579 6, p 78592 6, n 9843112 6, n 422015 3, p 3017626 4, n 3765604 4]],
    p 480164 4, none, [("C", 1), ("H", 1), ("F", 1), ("O", 1)]⟩,
  ⟨"ig.CHP", .ig,
    [p 298 0, p 1300 0, p 6000 0],
    [[p 2957561 5, p 4448638 5, n 2786377 5, p 7273926 6, n 302283 6, p 1383159 4, p 2370449 4, p 1499002 4],
     [p 5270961 5, p 7174472 6, n 1713704 6, p 181819 6, n 5920318 6, p 1213586 4, p 2609096 4, p 1499002 4]],
    p 439924 4, none, [("C", 1), ("H", 1), ("P", 1)]⟩]

/-- `ig.CIN` .. `ig.Cl3HSi` (`data/ig`). -/
def gases8 : List File := [
  ⟨"ig.CIN", .ig,
    [p 298 0, p 1200 0, p 6000 0],
    [[p 4926325 5, p 7560865 6, p 3675051 6, n 2880508 6, n 297113 6, p 2098895 4, p 3128946 4, p 2259364 4],
     [p 6008266 5, p 1205993 6, n 234558 6, p 15758 6, n 4021343 6, p 1991258 4, p 3183991 4, p 2259364 4]],
    p 1529219 4, none, [("C", 1), ("I", 1), ("N", 1)]⟩,
  ⟨"ig.CN2_1", .ig,
    [p 298 0, p 1500 0, p 6000 0],
    [[p 284107 4, p 612019 4, n 423472 4, p 104246 4, n 8943 5, p 461653 3, p 243617 3, p 472792 3],
     [p 612587 4, p 793304 6, n 226095 6, p 23637 6, n 452815 5, p 443164 3, p 284243 3, p 472792 3]],
    p 400241 4, none, [("C", 1), ("N", 2)]⟩,
  ⟨"ig.CaH2O2", .ig,
    [p 298 0, p 6000 0],
    [[p 8110307 5, p 1501922 5, n 3059065 6, p 213893 6, n 1042102 6, n 6390893 4, p 3735601 4, n 6107636 4]],
    p 74093 3, none, [("Ca", 1), ("H", 2), ("O", 2)]⟩,
  ⟨"ig.CaHO", .ig,
    [p 298 0, p 6000 0],
    [[p 4988332 5, p 5942284 6, n 979236 6, p 85153 6, n 625851 6, n 2111121 4, p 2905365 4, n 1938774 4]],
    p 57085 3, none, [("Ca", 1), ("H", 1), ("O", 1)]⟩,
  ⟨"ig.Cl10W2", .ig,
    [p 298 0, p 6000 0],
    [[p 2813631 4, p 1133501 6, n 30724 5, p 26222 6, n 163874 5, n 9580314 4, p 1044485 3, n 8685984 4]],
    p 72221 2, none, [("Cl", 10), ("W", 2)]⟩,
  ⟨"ig.Cl2Co", .ig,
    [p 2000 0, p 6000 0],
    [[p 7083554 5, n 4080036 6, p 927451 6, n 64429 6, n 4082915 6, n 1233472 4, p 3746981 4, n 9372202 5]],
    p 129839 3, none, [("Cl", 2), ("Co", 1)]⟩,
  ⟨"ig.Cl2FOP", .ig,
    [p 298 0, p 1100 0, p 6000 0],
    [[p 6531684 5, p 9671274 5, n 8500633 5, p 2687944 5, n 711665 6, n 7911358 4, p 3701225 4, n 765672 3],
     [p 1074355 4, p 362855 6, n 7311 5, p 5042 6, n 4547339 6, n 8105077 4, p 4310482 4, n 765672 3]],
    p 136878 3, none, [("Cl", 2), ("F", 1), ("O", 1), ("P", 1)]⟩,
  ⟨"ig.Cl2H2Si", .ig,
    [p 298 0, p 1500 0, p 6000 0],
    [[p 5010424 5, p 8434944 5, n 5000424 5, p 110412 4, n 797169 6, n 3414382 4, p 3198513 4, n 3204944 4],
     [p 1047803 4, p 1617791 6, n 294719 6, p 18777 6, n 127012 4, n 3802854 4, p 3756132 4, n 3204944 4]],
    p 101007 3, none, [("Cl", 2), ("H", 2), ("Si", 1)]⟩,
  ⟨"ig.Cl2Hg", .ig,
    [p 1500 0, p 6000 0],
    [[p 6206336 5, p 251886 6, n 68302 6, p 5831 6, n 362161 6, n 1660232 4, p 3677795 4, n 146294 3]],
    p 2715 1, none, [("Cl", 2), ("Hg", 1)]⟩,
  ⟨"ig.Cl2MoO2", .ig,
    [p 298 0, p 6000 0],
    [[p 1017532 4, p 5266694 6, n 1406181 6, p 118893 6, n 1670982 6, n 6692015 4, p 4498302 4, n 6330392 4]],
    p 19886 2, none, [("Cl", 2), ("Mo", 1), ("O", 2)]⟩,
  ⟨"ig.Cl2O2W", .ig,
    [p 298 0, p 1100 0, p 6000 0],
    [[p 7572371 5, p 7657515 5, n 6944729 5, p 2245001 5, n 514979 6, n 6986736 4, p 4227221 4, n 671532 3],
     [p 1077635 4, p 181043 6, n 36593 6, p 253 5, n 3109579 6, n 7126356 4, p 4705954 4, n 671532 3]],
    p 28674 2, none, [("Cl", 2), ("O", 2), ("W", 1)]⟩,
  ⟨"ig.Cl2W", .ig,
    [p 298 0, p 1400 0, p 6000 0],
    [[p 6084122 5, p 3885435 6, n 4772772 6, p 2643267 6, n 319543 6, n 3189961 5, p 380275 3, n 12552 3],
     [p 3456913 5, p 25607 3, n 5711495 6, p 395373 6, p 6944268 6, n 8206456 6, p 3635285 4, n 12552 3]],
    p 25475 2, none, [("Cl", 2), ("W", 1)]⟩,
  ⟨"ig.Cl2Zr", .ig,
    [p 2000 0, p 6000 0],
    [[p 4850511 5, p 1095555 5, n 1836087 6, p 113018 6, p 3999001 6, n 1927845 4, p 3577295 4, n 186188 3]],
    p 16213 2, none, [("Cl", 2), ("Zr", 1)]⟩,
  ⟨"ig.Cl3Co", .ig,
    [p 298 0, p 6000 0],
    [[p 868544 4, n 2151523 6, p 748334 6, n 7399 5, n 862716 6, n 1922937 4, p 4351737 4, n 163594 3]],
    p 165292 3, none, [("Cl", 3), ("Co", 1)]⟩,
  ⟨"ig.Cl3FSi", .ig,
    [p 298 0, p 6000 0],
    [[p 1047356 4, p 2809549 6, n 753643 6, p 63909 6, n 1413268 6, n 8770668 4, p 4539431 4, n 840984 3]],
    p 153443 3, none, [("Cl", 3), ("F", 1), ("Si", 1)]⟩,
  ⟨"ig.Cl3HSi", .ig,
    [p 298 0, p 1000 0, p 6000 0],
    [[p 6428214 5, p 8531427 5, n 7209409 5, p 2343032 5, n 754664 6, n 5211214 4, p 3648201 4, n 4962224 4],
     [p 1043544 4, p 2102059 6, n 428952 6, p 29935 6, n 5968392 6, n 5428447 4, p 4173879 4, n 4962224 4]],
    p 135452 3, none, [("Cl", 3), ("H", 1), ("Si", 1)]⟩]

end PyroMat.Shipped.Data
