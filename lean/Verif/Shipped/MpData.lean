import Verif.Shipped.MpBasic

/-!
# Shipped multi-phase data

Generated by `tools/shipped_mp.py` from `/repo/src/pyromat/data/mp/*.hpd`; do not edit.
-/

namespace PyroMat.Shipped.Data

open PyroMat.Shipped (MpFile)
open PyroMat.Shipped.Dec (p n)

/-- `mp.C2H2F4`. -/
def C2H2F4 : MpFile where
  id := "mp.C2H2F4"
  mw := p 102032 3
  R := p 8148884663634938 14
  Tlim := (p 16985 2, p 455 0)
  plim := (p 0 0, p 70000000 0)
  dlim := (p 0 0, p 1800 0)
  Tt := p 16985 2
  Tc := p 37418 2
  pt := p 391 0
  pc := p 4059280 0
  dc := p 508 0
  ps := ⟨p 37418 2, p 4056290 0, 3, [⟨p 5 1, p 0 0, [(8, n 3583758 6), (4, n 2039554 6), (3, p 2311791 6), (2, n 7686556 6)]⟩]⟩
  dsl := ⟨p 37418 2, p 508 0, 1, [⟨p 3333333333333333 16, p 0 0, [(10, p 38049212598425197 17), (2, p 9563779527559054 16), (1, p 17404133858267716 16), (0, p 10200787401574805 16)]⟩]⟩
  dsv := ⟨p 37418 2, p 51686 2, 2, [⟨p 25 2, p 0 0, [(22, n 52361297 6), (9, n 14140125 6), (2, p 4478586 6)]⟩, ⟨p 3333333333333333 16, p 0 0, [(2, n 7875988 6), (1, n 2837294 6)]⟩]⟩
  ao := ⟨p 37418 2, p 508 0, some (n 1629789 6), none,
    some [⟨p 25 2, n 75 2, [(7, p 9047135 6), (3, n 1019535 6), (1, n 9723916 6), (0, n 392717 5)]⟩],
    []⟩
  ar := ⟨p 37418 2, p 508 0,
    [[⟨p 5 1, p 1 0, n 5 1, p 1 0, [(5, 1, n 4781652 8), (5, 0, p 2671641 7), (4, 5, p 4788584 10), (4, 0, n 1800808 6), (1, 5, p 8570145 10), (1, 2, p 2458698 8), (1, 0, p 498223 6), (0, 1, p 5586817 8)]⟩],
     [⟨p 1 0, p 1 0, p 0 0, p 0 0, [(5, 2, n 7485907 9), (3, 2, p 3324062 7), (1, 5, p 1423987 8)]⟩],
     [⟨p 1 0, p 1 0, p 0 0, p 0 0, [(10, 4, p 4603262 10), (10, 2, n 5000457 9), (6, 1, p 2057144 7), (5, 4, n 8692288 8), (5, 1, n 5184567 7), (1, 4, p 1017263 10)]⟩],
     [⟨p 1 0, p 1 0, p 0 0, p 0 0, [(22, 3, n 1452184 8), (18, 5, p 6995038 9), (10, 1, n 3497836 9)]⟩],
     [⟨p 1 0, p 1 0, p 0 0, p 0 0, [(50, 10, n 1285458 10)]⟩]],
    [],
    []⟩
  atoms := [("C", 2), ("H", 2), ("F", 4)]

/-- `mp.C3H2F4_1`. -/
def C3H2F41 : MpFile where
  id := "mp.C3H2F4_1"
  mw := p 1140416 4
  R := p 7290727331079185 14
  Tlim := (p 169 0, p 420 0)
  plim := (p 0 0, p 100000000 0)
  dlim := (p 0 0, p 1650 0)
  Tt := p 169 0
  Tc := p 382513 3
  pt := p 21858002181736745 14
  pc := p 3634900 0
  dc := p 489238464 6
  ps := ⟨p 382513 3, p 3634900 0, 3, [⟨p 5 1, p 0 0, [(3, p 19696 4), (2, n 75888 4)]⟩, ⟨p 22 1, p 0 0, [(1, n 20827 4)]⟩, ⟨p 46 1, p 0 0, [(1, n 41238 4)]⟩]⟩
  dsl := ⟨p 382513 3, p 489238464 6, 1, [⟨p 27 2, p 0 0, [(1, p 11913 4), (0, p 1 0)]⟩, ⟨p 7 1, p 0 0, [(1, p 22456 4)]⟩, ⟨p 125 2, p 0 0, [(1, n 17747 4)]⟩, ⟨p 19 1, p 0 0, [(1, p 13096 4)]⟩]⟩
  dsv := ⟨p 382513 3, p 489238464 6, 2, [⟨p 24 2, p 0 0, [(20, n 37499 3), (3, n 50422 4), (1, n 10308 4)]⟩, ⟨p 21 1, p 0 0, [(1, n 115 1)]⟩, ⟨p 95 1, p 0 0, [(1, n 77945 3)]⟩]⟩
  ao := ⟨p 382513 3, p 489238464 6, some (p 3 0), none,
    some [⟨p 1 0, p 0 0, [(1, p 87912297624 10), (0, n 12558347537 9)]⟩],
    [(p 5155380340014588 15, p 10717 3), (p 13411308896691094 16, p 93575 4)]⟩
  ar := ⟨p 382513 3, p 489238464 6,
    [[⟨p 1 0, p 1 0, p 0 0, p 0 0, [(1, 4, p 3982797 8)]⟩, ⟨p 223 3, p 1 0, p 0 0, p 0 0, [(1, 1, p 1812227 6)]⟩, ⟨p 755 3, p 1 0, p 0 0, p 0 0, [(1, 1, n 2537512 6)]⟩, ⟨p 124 2, p 1 0, p 0 0, p 0 0, [(1, 2, n 5333254 7)]⟩, ⟨p 44 2, p 1 0, p 0 0, p 0 0, [(1, 3, p 1677031 7)]⟩],
     [⟨p 3 1, p 1 0, p 0 0, p 0 0, [(4, 2, p 8072718 7), (3, 7, n 1843846 8)]⟩],
     [⟨p 1 1, p 1 0, p 15 1, p 0 0, [(7, 3, n 6694654 7), (5, 1, n 1323801 6), (0, 2, n 7740229 7)]⟩]],
    [[p 133 2, p 1 0, p 121 2, p 1 0, p 943 3, p 728 3, p 1407916 6], [p 175 2, p 1 0, p 137 2, p 161 2, p 642 3, p 87 2, n 4237082 7], [p 211 2, p 3 0, p 98 2, p 124 2, p 59 2, p 855 3, n 2270068 7], [p 1 0, p 3 0, p 171 0, p 934 2, p 12 1, p 79 2, n 805213 6], [p 15 1, p 2 0, p 474 1, p 578 2, p 133 2, p 13 1, p 994318 8], [p 1 0, p 1 0, p 154 1, p 308 2, p 64 2, p 71 2, n 8798793 9]],
    []⟩
  atoms := [("C", 3), ("H", 2), ("F", 4)]

/-- `mp.CH4`. -/
def CH4 : MpFile where
  id := "mp.CH4"
  mw := p 160428 4
  R := p 5182675479438278 13
  Tlim := (p 9069 2, p 625 0)
  plim := (p 0 0, p 1000000000 0)
  dlim := (p 0 0, p 700 0)
  Tt := p 906941 4
  Tc := p 190564 3
  pt := p 11696 0
  pc := p 4599200 0
  dc := p 16266 2
  ps := ⟨p 190564 3, p 4599200 0, 3, [⟨p 5 1, p 0 0, [(9, n 1443048 6), (4, n 4945199 7), (3, p 1409353 6), (2, n 6036219 6)]⟩]⟩
  dsl := ⟨p 190564 3, p 16266 2, 2, [⟨p 354 3, p 0 0, [(1, p 19906389 7)]⟩, ⟨p 5 1, p 0 0, [(5, p 36976723 9), (1, n 78756197 8)]⟩]⟩
  dsv := ⟨p 190564 3, p 16266 2, 2, [⟨p 354 3, p 0 0, [(1, n 1880284 6)]⟩, ⟨p 16666666666666666 17, p 0 0, [(47, n 37553961 6), (25, n 13191859 6), (15, n 5251169 6), (9, n 3000648 6), (5, n 28526531 7)]⟩]⟩
  ao := ⟨p 190564 3, p 16266 2, some (p 30016 4), none,
    some [⟨p 1 0, p 0 0, [(1, n 633270087 8), (0, p 991243972 8)]⟩],
    [(p 34004324 7, p 8449 6), (p 1026951575 8, p 46942 4), (p 2043932747 8, p 34865 4), (p 2993744884 8, p 16572 4), (p 7913351945 8, p 14115 4)]⟩
  ar := ⟨p 190564 3, p 16266 2,
    [[⟨p 5 1, p 1 0, n 5 1, p 0 0, [(10, 2, n 4000010791 13), (7, 10, p 2947056156 16), (7, 9, n 224034684 14), (7, 4, p 1754748522 12), (4, 2, p 512046722 9), (3, 8, n 3171921605 15), (3, 4, p 3100269701 11), (3, 2, n 1206513052 9), (3, 1, n 1765577859 9), (2, 2, p 8582330241 10), (2, 1, p 6709236199 10), (1, 3, n 1247842423 11), (0, 1, p 4367901028 11)]⟩],
     [⟨p 1 0, p 1 0, p 0 0, p 0 0, [(2, 6, n 2969906708 11), (2, 5, n 306305483 10), (2, 1, n 4289363877 10), (1, 1, p 1511883679 10), (0, 4, n 1408313996 11), (0, 2, p 6894002446 11), (0, 1, p 1830487909 10)]⟩],
     [⟨p 1 0, p 1 0, p 0 0, p 0 0, [(5, 3, p 9952548995 11), (5, 2, n 1105739959 10), (5, 1, n 1932040831 11), (4, 4, n 6150555662 11), (2, 4, p 8548437825 12)]⟩],
     [⟨p 1 0, p 1 0, p 0 0, p 0 0, [(12, 3, n 4291792423 11), (10, 8, n 238591945 11), (10, 5, p 344590476 10), (8, 5, n 181320729 10)]⟩],
     [⟨p 1 0, p 1 0, p 0 0, p 0 0, [(22, 4, n 1387292044 11), (18, 5, p 3389489599 11), (18, 4, n 3961624905 11), (14, 6, n 2927378753 12), (14, 3, p 6641693602 11), (12, 4, n 237154959 10), (10, 2, n 1159094939 11)]⟩]],
    [[p 2 0, p 2 0, p 200 0, p 20 0, p 107 2, p 1 0, p 9324799946 14], [p 0 0, p 0 0, p 250 0, p 40 0, p 111 2, p 1 0, n 6287171518 9], [p 1 0, p 0 0, p 250 0, p 40 0, p 111 2, p 1 0, p 1271069467 8], [p 2 0, p 0 0, p 250 0, p 40 0, p 111 2, p 1 0, n 6423953466 9]],
    []⟩
  atoms := [("C", 1), ("H", 4)]

/-- `mp.CO2`. -/
def CO2 : MpFile where
  id := "mp.CO2"
  mw := p 440098 4
  R := p 18892291856469654 14
  Tlim := (p 186 0, p 10644487 4)
  plim := (p 0 0, p 796748400 0)
  dlim := (p 0 0, p 1700 0)
  Tt := p 216592 3
  Tc := p 3041282 4
  pt := p 517950 0
  pc := p 7377300 0
  dc := p 4676 1
  ps := ⟨p 3041282 4, p 7377300 0, 3, [⟨p 5 1, p 1 0, [(6, n 32995634 7), (2, n 16463597 7), (1, p 19391218 7), (0, n 70602087 7)]⟩]⟩
  dsl := ⟨p 3041282 4, p 4676 1, 2, [⟨p 16666666666666666 17, p 5 1, [(8, p 39245142 8), (7, n 32731127 8), (0, n 62385555 8)]⟩, ⟨p 1 0, p 34 2, [(0, p 19245108 7)]⟩]⟩
  dsv := ⟨p 3041282 4, p 4676 1, 2, [⟨p 16666666666666666 17, p 5 1, [(25, n 29742252 6), (11, n 10111178 6), (3, n 46008549 7), (0, n 8227467 7)]⟩, ⟨p 1 0, p 34 2, [(0, n 17074879 7)]⟩]⟩
  ao := ⟨p 3041282 4, p 4676 1, some (p 25 1), none,
    some [⟨p 1 0, p 0 0, [(1, n 370454304 8), (0, p 837304456 8)]⟩],
    [(p 315163 5, p 199427042 8), (p 61119 4, p 62105248 8), (p 677708 5, p 41195293 8), (p 1132384 5, p 104028922 8), (p 2708792 5, p 8327678 8)]⟩
  ar := ⟨p 3041282 4, p 4676 1,
    [[⟨p 25 2, p 1 0, p 0 0, p 1 0, [(8, 1, p 54803315897767 14), (8, 0, n 76753199592477 14), (4, 0, n 55867188534934 13), (3, 2, p 12279411220335 14), (3, 1, p 31729005580416 14), (3, 0, p 2938547594274 12), (0, 0, p 38856823203161 14)]⟩],
     [⟨p 5 1, p 1 0, p 0 0, p 1 0, [(5, 3, n 23132705405503 14), (4, 5, n 12175860225246 14), (4, 4, p 48946615909422 14), (3, 4, n 55369137205382 14), (3, 1, p 15841735109724 13), (3, 0, p 2165896154322 12), (2, 5, p 62494790501678 15), (0, 5, n 24275739843501 15), (0, 4, p 58116916431436 15)]⟩],
     [⟨p 1 0, p 1 0, p 0 0, p 1 0, [(8, 3, p 35612789270346 15), (6, 6, n 74427727132052 16), (6, 3, n 45619362508778 15), (6, 0, n 16775879700426 15), (3, 3, n 11960736637987 14), (3, 0, n 37055685270086 14), (0, 7, n 17395704902432 16)]⟩],
     [⟨p 1 0, p 1 0, p 7 0, p 2 0, [(9, 1, n 37440133423463 15), (5, 1, p 24332166559236 15), (0, 0, n 21810121289527 15)]⟩],
     [⟨p 2 0, p 1 0, p 2 0, p 5 0, [(11, 2, p 12363125492901 15), (11, 0, n 13491969083286 14), (10, 0, p 14338715756878 14), (7, 1, n 2315122505348 14), (3, 3, p 2105832197294 15), (0, 5, n 33958519026368 17)]⟩],
     [⟨p 1 0, p 1 0, p 28 0, p 4 0, [(0, 0, p 55993651771592 16)]⟩],
     [⟨p 1 0, p 1 0, p 14 0, p 8 0, [(0, 0, n 30335118055646 17)]⟩]],
    [[p 1 0, p 2 0, p 325 0, p 25 0, p 116 2, p 1 0, n 2136548868832 10], [p 0 0, p 2 0, p 300 0, p 25 0, p 119 2, p 1 0, p 26641569149272 9], [p 1 0, p 2 0, p 300 0, p 25 0, p 119 2, p 1 0, n 24027212204557 9], [p 3 0, p 3 0, p 275 0, p 15 0, p 125 2, p 1 0, n 28341603423999 11], [p 3 0, p 3 0, p 275 0, p 20 0, p 122 2, p 1 0, p 21247284400179 11]],
    [[p 35 1, p 875 3, p 3 1, p 7 1, p 3 1, p 10 0, p 275 0, n 66642276540751 14], [p 35 1, p 925 3, p 3 1, p 7 1, p 3 1, p 10 0, p 275 0, p 72608632349897 14], [p 3 0, p 875 3, p 3 1, p 7 1, p 1 0, p 125 1, p 275 0, p 55068668612842 15]]⟩
  atoms := [("C", 1), ("O", 2)]

/-- `mp.H2O`. -/
def H2O : MpFile where
  id := "mp.H2O"
  mw := p 18015268 6
  R := p 46152296271410347 14
  Tlim := (p 27316 2, p 1273 0)
  plim := (p 0 0, p 1000000000 0)
  dlim := (p 0 0, p 1260 0)
  Tt := p 27316 2
  Tc := p 647096 3
  pt := p 611655 3
  pc := p 22064000 0
  dc := p 322 0
  ps := ⟨p 647096 3, p 22064000 0, 3, [⟨p 5 1, p 1 0, [(13, p 180122502 8), (6, n 159618719 7), (5, p 226807411 7), (4, n 117866497 7), (1, p 184408259 8), (0, n 785951783 8)]⟩]⟩
  dsl := ⟨p 647096 3, p 322 0, 1, [⟨p 3333333333333333 16, p 0 0, [(110, n 67469445 2), (43, n 455170352 7), (16, n 175493479 8), (5, n 510839303 9), (2, p 109965342 8), (1, p 199274064 8), (0, p 1 0)]⟩]⟩
  dsv := ⟨p 647096 3, p 322 0, 2, [⟨p 16666666666666666 17, p 3333333333333333 16, [(69, n 639201063 7), (35, n 447586581 7), (16, n 172991605 7), (6, n 538626492 8), (2, n 26830294 7), (0, n 20315024 7)]⟩]⟩
  ao := ⟨p 647096 3, p 322 0, some (p 300632 5), none,
    some [⟨p 1 0, p 0 0, [(1, p 66832105275932 13), (0, n 83204464837497 13)]⟩],
    [(p 128728967 8, p 12436 6), (p 353734222 8, p 97315 5), (p 774073708 8, p 12795 4), (p 924437796 8, p 96956 5), (p 275075105 7, p 24873 5)]⟩
  ar := ⟨p 647096 3, p 322 0,
    [[⟨p 125 3, p 1 0, n 5 1, p 1 0, [(12, 3, p 88089493102134 16), (12, 0, n 87803203303561 13), (11, 0, p 78957634722828 13), (10, 1, n 26145533859358 14), (8, 1, p 31802509345418 14), (7, 2, n 78199751687981 16), (0, 0, p 12533547935523 15)]⟩],
     [⟨p 1 0, p 1 0, p 1 0, p 1 0, [(12, 12, n 13251180074668 25), (12, 3, p 39343422603254 20), (11, 0, n 66212605039687 18), (10, 9, p 11537996422951 22), (8, 4, n 75941377088144 19), (5, 0, p 20433810950965 14), (4, 1, n 25709043003438 14), (3, 10, p 36582165144204 20), (3, 8, n 15608652257135 18), (3, 2, p 16074868486251 14), (3, 0, n 66856572307965 14), (2, 6, p 56250979351888 17), (1, 3, n 40092828925807 15), (0, 14, n 62639586912454 23), (0, 1, n 19232721156002 14)]⟩],
     [⟨p 1 0, p 1 0, p 1 0, p 1 0, [(9, 6, p 14180634400617 15), (9, 5, n 13636435110343 14), (9, 4, p 4780732991548 13), (9, 3, n 74315929710341 14), (9, 2, p 58083399985759 14), (9, 1, n 40247669763528 14), (8, 9, p 15870308324157 17), (8, 1, p 22132295167546 14), (7, 11, n 1638856834253 17), (7, 8, n 16554050063734 16), (6, 3, n 31358700712549 15), (6, 0, n 10793600908932 14), (5, 9, p 19955571979541 16), (5, 5, p 20527940895948 15), (3, 8, n 20393486513704 15), (2, 8, p 38615085574206 15), (2, 3, p 49969146990806 16), (1, 8, n 29052336009585 15), (0, 8, p 83326504880713 16), (0, 1, p 17611491008752 15)]⟩],
     [⟨p 1 0, p 1 0, p 16 0, p 3 0, [(7, 2, p 22446277332006 15), (7, 1, n 76788197844621 15), (6, 1, p 34994005463765 15), (0, 0, p 43613615723811 15)]⟩],
     [⟨p 1 0, p 1 0, p 10 0, p 14 0, [(0, 0, n 62689710414685 18)]⟩],
     [⟨p 1 0, p 1 0, p 0 0, p 0 0, [(0, 0, p 0 0)]⟩],
     [⟨p 2 0, p 3 0, p 44 0, p 3 0, [(3, 1, n 11841182425981 14), (3, 0, n 55711118565645 23), (1, 1, p 31777497330738 14), (0, 1, n 19905718354408 14)]⟩]],
    [[p 0 0, p 3 0, p 150 0, p 20 0, p 121 2, p 1 0, n 31306260323435 12], [p 1 0, p 3 0, p 150 0, p 20 0, p 121 2, p 1 0, p 31546140237781 12], [p 4 0, p 3 0, p 250 0, p 20 0, p 125 2, p 1 0, n 25213154341695 10]],
    [[p 35 1, p 85 2, p 3 1, p 32 2, p 2 1, p 28 0, p 700 0, n 14874640856724 14], [p 35 1, p 95 2, p 3 1, p 32 2, p 2 1, p 32 0, p 800 0, p 31806110878444 14]]⟩
  atoms := [("H", 2), ("O", 1)]

/-- `mp.N2`. -/
def N2 : MpFile where
  id := "mp.N2"
  mw := p 2801348 5
  R := p 29680220444419047 14
  Tlim := (p 63151 3, p 1000 0)
  plim := (p 0 0, p 2200000000 0)
  dlim := (p 0 0, p 1450 0)
  Tt := p 63151 3
  Tc := p 126192 3
  pt := p 12523 0
  pc := p 3395800 0
  dc := p 313299958972 9
  ps := ⟨p 126192 3, p 3395800 0, 3, [⟨p 5 1, p 1 0, [(8, n 177570564 8), (3, n 765910082 9), (1, p 12632722 7), (0, n 612445284 8)]⟩]⟩
  dsl := ⟨p 126192 3, p 313299958972 9, 2, [⟨p 3294 4, p 0 0, [(1, p 148654237 8)]⟩, ⟨p 16666666666666666 17, p 0 0, [(35, n 119879866 9), (16, p 894143085 10), (4, n 280476066 9)]⟩]⟩
  dsv := ⟨p 126192 3, p 313299958972 9, 3, [⟨p 34 2, p 0 0, [(1, n 170127164 8)]⟩, ⟨p 16666666666666666 17, p 0 0, [(28, n 268505381 8), (13, n 561424977 9), (7, p 129859383 8), (5, n 370402649 8)]⟩]⟩
  ao := ⟨p 126192 3, p 313299958972 9, some (p 25 1), none,
    some [⟨p 1 0, n 3 0, [(4, n 784163 8), (3, n 1276952708 8), (2, n 1934819 10), (1, n 1247742 11), (0, p 6678326 14)]⟩],
    [(p 2665788 5, p 1012941 6)]⟩
  ar := ⟨p 126192 3, p 313299958972 9,
    [[⟨p 125 3, p 1 0, p 0 0, p 0 0, [(7, 2, n 192902649201 11), (7, 1, n 492448489428 12), (6, 3, p 349943957581 12), (4, 2, p 661883336938 12), (3, 3, n 622469309629 13), (2, 1, p 924803575275 12)]⟩],
     [⟨p 25 2, p 1 0, p 0 0, p 0 0, [(14, 3, n 161962230825 13), (12, 6, p 168077305479 13), (11, 7, n 137318088513 13), (10, 8, p 304432279419 14), (8, 1, n 481395031883 12), (5, 3, p 421150636384 12), (4, 4, p 172100994165 12), (3, 8, p 635466899859 15), (3, 1, n 161720005987 11), (2, 6, p 735448924933 14), (2, 1, p 564857472498 12), (0, 7, n 107626664179 14)]⟩],
     [⟨p 1 0, p 1 0, p 0 0, p 0 0, [(6, 8, n 551990017984 16), (6, 3, p 389644315272 13), (6, 2, n 723174889316 13), (4, 1, n 435762336045 13), (3, 5, p 408822981509 14), (3, 4, n 21220136391 12)]⟩],
     [⟨p 1 0, p 1 0, p 0 0, p 0 0, [(16, 4, n 462016716479 13), (15, 5, p 368825891208 13), (12, 8, n 25585684622 13), (11, 5, n 300311716011 14)]⟩],
     [⟨p 1 0, p 1 0, p 0 0, p 0 0, [(16, 9, p 264832491957 15), (12, 3, p 896915264558 14), (7, 5, n 44151337035 13), (4, 6, p 133722924858 14)]⟩]],
    [[p 0 0, p 1 0, p 325 0, p 20 0, p 116 2, p 1 0, p 196688194015 10], [p 1 0, p 1 0, p 325 0, p 20 0, p 116 2, p 1 0, n 20911560073 9], [p 2 0, p 3 0, p 300 0, p 15 0, p 113 2, p 1 0, p 167788306989 13], [p 3 0, p 2 0, p 275 0, p 25 0, p 125 2, p 1 0, p 262767566274 8]],
    []⟩
  atoms := [("N", 2)]

/-- `mp.O2`. -/
def O2 : MpFile where
  id := "mp.O2"
  mw := p 319988 4
  R := p 25983670069356475 14
  Tlim := (p 54361 3, p 300 0)
  plim := (p 0 0, p 80000000 0)
  dlim := (p 0 0, p 1400 0)
  Tt := p 54361 3
  Tc := p 154581 3
  pt := p 14633 2
  pc := p 5043000 0
  dc := p 436143644 6
  ps := ⟨p 154581 3, p 5043000 0, 3, [⟨p 5 1, p 0 0, [(18, p 3361499 6), (14, n 3456781 6), (6, n 994086 6), (3, p 1175627 6), (2, n 6043938 6)]⟩]⟩
  dsl := ⟨p 154581 3, p 436143644 6, 1, [⟨p 3333333333333333 16, p 0 0, [(9, p 19035504 8), (2, p 85810805 8), (1, p 1507678 6), (0, p 1 0)]⟩]⟩
  dsv := ⟨p 154581 3, p 436143644 6, 2, [⟨p 3333333333333333 16, p 0 0, [(27, n 53780774 6), (12, n 1890964 5), (5, n 565999 5), (3, n 905713 6), (2, n 2116826 6), (1, n 1498431 6)]⟩]⟩
  ao := ⟨p 154581 3, p 436143644 6, some (p 252187677367116 14), some (p 22354967525810548 18),
    some [⟨p 1 0, n 3 0, [(6, p 22479363386779553 20), (5, n 4817849516956816 18), (4, n 3729599049501696 17), (3, n 14669379644424332 15), (2, p 3365384620663543 18), (1, n 53619166928221045 21), (0, n 4988413656723672 21)]⟩],
    [(p 14485486896837259 15, p 103146851572565 14)]⟩
  ar := ⟨p 154581 3, p 436143644 6,
    [[⟨p 5 1, p 1 0, n 5 1, p 0 0, [(11, 7, p 2953466883 16), (6, 3, n 4052698943 11), (6, 1, p 4183473197 10), (5, 8, n 8687645072 14), (5, 7, p 5113182277 13), (5, 2, p 3017891294 11), (4, 2, p 9771730573 11), (4, 1, n 1846157454 9), (3, 3, p 1357254086 11), (1, 6, p 5454628515 13), (1, 3, p 2273353212 11), (1, 1, p 3983768749 10), (0, 2, p 2370620711 11)]⟩],
     [],
     [⟨p 5 1, p 1 0, p 0 0, p 0 0, [(17, 6, n 3254111865 13), (14, 3, n 3623278059 11), (13, 8, p 2124570559 12), (12, 5, p 132769929 10), (12, 1, p 8735941958 11), (11, 10, n 8325206232 13), (11, 2, n 9067701064 11), (10, 1, n 2127082589 10), (8, 7, n 8313582932 12), (7, 2, p 127550919 9), (6, 3, n 3540084206 11)]⟩],
     [],
     [⟨p 1 0, p 1 0, p 0 0, p 0 0, [(23, 5, n 1011251078 11), (23, 4, n 2591350486 11), (22, 2, n 2626173276 14), (18, 5, p 1478355637 10), (18, 3, p 9984649663 12), (17, 5, n 1259630848 10), (11, 4, p 2199923153 12), (11, 3, p 2599581482 12)]⟩]],
    [],
    []⟩
  atoms := [("O", 2)]

/-- The multi-phase substances that come with the package. -/
def shippedMp : List MpFile :=
  [C2H2F4, C3H2F41, CH4, CO2, H2O, N2, O2]

end PyroMat.Shipped.Data
