import Verif.Model.VersionType
/-!
# The version table (version_cfg.go)

Generated by a script from /repo/version_cfg.go; every row cites the line of the entry it copies.
-/
namespace QR

/-- version_cfg.go:10 `versions`, one `mkV ver ec numeric alnum byte jp remainder groups` per entry;
a group is `(NumBlocks, NumDataCodewords, ECBlockwordsPerBlock)`. -/
def versions : List Version := [
  mkV 1 1 41 25 17 10 0 [(1, 19, 7)], -- version_cfg.go:13
  mkV 1 2 34 20 14 8 0 [(1, 16, 10)], -- version_cfg.go:31
  mkV 1 3 27 16 11 7 0 [(1, 13, 13)], -- version_cfg.go:49
  mkV 1 4 17 10 7 4 0 [(1, 9, 17)], -- version_cfg.go:67
  mkV 2 1 77 47 32 20 7 [(1, 34, 10)], -- version_cfg.go:85
  mkV 2 2 63 38 26 16 7 [(1, 28, 16)], -- version_cfg.go:103
  mkV 2 3 48 29 20 12 7 [(1, 22, 22)], -- version_cfg.go:121
  mkV 2 4 34 20 14 8 7 [(1, 16, 28)], -- version_cfg.go:139
  mkV 3 1 127 77 53 32 7 [(1, 55, 15)], -- version_cfg.go:157
  mkV 3 2 101 61 42 26 7 [(1, 44, 26)], -- version_cfg.go:175
  mkV 3 3 77 47 32 20 7 [(2, 17, 18)], -- version_cfg.go:193
  mkV 3 4 58 35 24 15 7 [(2, 13, 22)], -- version_cfg.go:211
  mkV 4 1 187 114 78 48 7 [(1, 80, 20)], -- version_cfg.go:229
  mkV 4 2 149 90 62 38 7 [(2, 32, 18)], -- version_cfg.go:247
  mkV 4 3 111 67 46 28 7 [(2, 24, 26)], -- version_cfg.go:265
  mkV 4 4 82 50 34 21 7 [(4, 9, 16)], -- version_cfg.go:283
  mkV 5 1 255 154 106 65 7 [(1, 108, 26)], -- version_cfg.go:301
  mkV 5 2 202 122 84 52 7 [(2, 43, 24)], -- version_cfg.go:319
  mkV 5 3 144 87 60 37 7 [(2, 15, 18), (2, 16, 18)], -- version_cfg.go:337
  mkV 5 4 106 64 44 27 7 [(2, 11, 22), (2, 12, 22)], -- version_cfg.go:360
  mkV 6 1 322 195 134 82 7 [(2, 68, 18)], -- version_cfg.go:383
  mkV 6 2 255 154 106 65 7 [(4, 27, 16)], -- version_cfg.go:401
  mkV 6 3 178 108 74 45 7 [(4, 19, 24)], -- version_cfg.go:419
  mkV 6 4 139 84 58 36 7 [(4, 15, 28)], -- version_cfg.go:437
  mkV 7 1 370 224 154 95 0 [(2, 78, 20)], -- version_cfg.go:455
  mkV 7 2 293 178 122 75 0 [(4, 31, 18)], -- version_cfg.go:473
  mkV 7 3 207 125 86 53 0 [(2, 14, 18), (4, 15, 18)], -- version_cfg.go:491
  mkV 7 4 154 93 64 39 0 [(4, 13, 26), (1, 14, 26)], -- version_cfg.go:514
  mkV 8 1 461 279 192 118 0 [(2, 97, 24)], -- version_cfg.go:537
  mkV 8 2 365 221 152 93 0 [(2, 38, 22), (2, 39, 22)], -- version_cfg.go:555
  mkV 8 3 259 157 108 66 0 [(4, 18, 22), (2, 19, 22)], -- version_cfg.go:578
  mkV 8 4 202 122 84 52 0 [(4, 14, 26), (2, 15, 26)], -- version_cfg.go:601
  mkV 9 1 552 335 230 141 0 [(2, 116, 30)], -- version_cfg.go:624
  mkV 9 2 432 262 180 111 0 [(3, 36, 22), (2, 37, 22)], -- version_cfg.go:642
  mkV 9 3 312 189 130 80 0 [(4, 16, 20), (4, 17, 20)], -- version_cfg.go:665
  mkV 9 4 235 143 98 60 0 [(4, 12, 24), (4, 13, 24)], -- version_cfg.go:688
  mkV 10 1 652 395 271 167 0 [(2, 68, 18), (2, 69, 18)], -- version_cfg.go:711
  mkV 10 2 513 311 213 131 0 [(4, 43, 26), (1, 44, 26)], -- version_cfg.go:734
  mkV 10 3 364 221 151 93 0 [(6, 19, 24), (2, 20, 24)], -- version_cfg.go:757
  mkV 10 4 288 174 119 74 0 [(6, 15, 28), (2, 16, 28)], -- version_cfg.go:780
  mkV 11 1 772 468 321 198 0 [(4, 81, 20)], -- version_cfg.go:803
  mkV 11 2 604 366 251 155 0 [(1, 50, 30), (4, 51, 30)], -- version_cfg.go:821
  mkV 11 3 427 259 177 109 0 [(4, 22, 28), (4, 23, 28)], -- version_cfg.go:844
  mkV 11 4 331 200 137 85 0 [(3, 12, 24), (8, 13, 24)], -- version_cfg.go:867
  mkV 12 1 883 535 367 226 0 [(2, 92, 24), (2, 93, 24)], -- version_cfg.go:890
  mkV 12 2 691 419 287 177 0 [(6, 36, 22), (2, 37, 22)], -- version_cfg.go:913
  mkV 12 3 489 296 203 125 0 [(4, 20, 26), (6, 21, 26)], -- version_cfg.go:936
  mkV 12 4 374 227 155 96 0 [(7, 14, 28), (4, 15, 28)], -- version_cfg.go:959
  mkV 13 1 1022 619 425 262 0 [(4, 107, 26)], -- version_cfg.go:982
  mkV 13 2 796 483 331 204 0 [(8, 37, 22), (1, 38, 22)], -- version_cfg.go:1000
  mkV 13 3 580 352 241 149 0 [(8, 20, 24), (4, 21, 24)], -- version_cfg.go:1023
  mkV 13 4 427 259 177 109 0 [(12, 11, 22), (4, 12, 22)], -- version_cfg.go:1046
  mkV 14 1 1101 667 458 282 3 [(3, 115, 30), (1, 116, 30)], -- version_cfg.go:1069
  mkV 14 2 871 528 362 223 3 [(4, 40, 24), (5, 41, 24)], -- version_cfg.go:1092
  mkV 14 3 621 376 258 159 3 [(11, 16, 20), (5, 17, 20)], -- version_cfg.go:1115
  mkV 14 4 468 283 194 120 3 [(11, 12, 24), (5, 13, 24)], -- version_cfg.go:1138
  mkV 15 1 1250 758 520 320 3 [(5, 87, 22), (1, 88, 22)], -- version_cfg.go:1161
  mkV 15 2 991 600 412 254 3 [(5, 41, 24), (5, 42, 24)], -- version_cfg.go:1184
  mkV 15 3 703 426 292 180 3 [(5, 24, 30), (7, 25, 30)], -- version_cfg.go:1207
  mkV 15 4 530 321 220 136 3 [(11, 12, 24), (7, 13, 24)], -- version_cfg.go:1230
  mkV 16 1 1408 854 586 361 3 [(5, 98, 24), (1, 99, 24)], -- version_cfg.go:1253
  mkV 16 2 1082 656 450 277 3 [(7, 45, 28), (3, 46, 28)], -- version_cfg.go:1276
  mkV 16 3 775 470 322 198 3 [(15, 19, 24), (2, 20, 24)], -- version_cfg.go:1299
  mkV 16 4 602 365 250 154 3 [(3, 15, 30), (13, 16, 30)], -- version_cfg.go:1322
  mkV 17 1 1548 938 644 397 3 [(1, 107, 28), (5, 108, 28)], -- version_cfg.go:1345
  mkV 17 2 1212 734 504 310 3 [(10, 46, 28), (1, 47, 28)], -- version_cfg.go:1368
  mkV 17 3 876 531 364 224 3 [(1, 22, 28), (15, 23, 28)], -- version_cfg.go:1391
  mkV 17 4 674 408 280 173 3 [(2, 14, 28), (17, 15, 28)], -- version_cfg.go:1414
  mkV 18 1 1725 1046 718 442 3 [(5, 120, 30), (1, 121, 30)], -- version_cfg.go:1437
  mkV 18 2 1346 816 560 345 3 [(9, 43, 26), (4, 44, 26)], -- version_cfg.go:1460
  mkV 18 3 948 574 394 243 3 [(17, 22, 28), (1, 23, 28)], -- version_cfg.go:1483
  mkV 18 4 746 452 310 191 3 [(2, 14, 28), (19, 15, 28)], -- version_cfg.go:1506
  mkV 19 1 1903 1153 792 488 3 [(3, 113, 28), (4, 114, 28)], -- version_cfg.go:1529
  mkV 19 2 1500 909 624 384 3 [(3, 44, 26), (11, 45, 26)], -- version_cfg.go:1552
  mkV 19 3 1063 644 442 272 3 [(17, 21, 26), (4, 22, 26)], -- version_cfg.go:1575
  mkV 19 4 813 493 338 208 3 [(9, 13, 26), (16, 14, 26)], -- version_cfg.go:1598
  mkV 20 1 2061 1249 858 528 3 [(3, 107, 28), (5, 108, 28)], -- version_cfg.go:1621
  mkV 20 2 1600 970 666 410 3 [(3, 41, 26), (13, 42, 26)], -- version_cfg.go:1644
  mkV 20 3 1159 702 482 297 3 [(15, 24, 30), (5, 25, 30)], -- version_cfg.go:1667
  mkV 20 4 919 557 382 235 3 [(15, 15, 28), (10, 16, 28)], -- version_cfg.go:1690
  mkV 21 1 2232 1352 929 572 4 [(4, 116, 28), (4, 117, 28)], -- version_cfg.go:1713
  mkV 21 2 1708 1035 711 438 4 [(17, 42, 26)], -- version_cfg.go:1736
  mkV 21 3 1224 742 509 314 4 [(17, 22, 28), (6, 23, 28)], -- version_cfg.go:1754
  mkV 21 4 969 587 403 248 4 [(19, 16, 30), (6, 17, 30)], -- version_cfg.go:1777
  mkV 22 1 2409 1460 1003 618 4 [(2, 111, 28), (7, 112, 28)], -- version_cfg.go:1800
  mkV 22 2 1872 1134 779 480 4 [(17, 46, 28)], -- version_cfg.go:1823
  mkV 22 3 1358 823 565 348 4 [(7, 24, 30), (16, 25, 30)], -- version_cfg.go:1841
  mkV 22 4 1056 640 439 270 4 [(34, 13, 24)], -- version_cfg.go:1864
  mkV 23 1 2620 1588 1091 672 4 [(4, 121, 30), (5, 122, 30)], -- version_cfg.go:1882
  mkV 23 2 2059 1248 857 528 4 [(4, 47, 28), (14, 48, 28)], -- version_cfg.go:1905
  mkV 23 3 1468 890 611 376 4 [(11, 24, 30), (14, 25, 30)], -- version_cfg.go:1928
  mkV 23 4 1108 672 461 284 4 [(16, 15, 30), (14, 16, 30)], -- version_cfg.go:1951
  mkV 24 1 2812 1704 1171 721 4 [(6, 117, 30), (4, 118, 30)], -- version_cfg.go:1974
  mkV 24 2 2188 1326 911 561 4 [(6, 45, 28), (14, 46, 28)], -- version_cfg.go:1997
  mkV 24 3 1588 963 661 407 4 [(11, 24, 30), (16, 25, 30)], -- version_cfg.go:2020
  mkV 24 4 1228 744 511 315 4 [(30, 16, 30), (2, 17, 30)], -- version_cfg.go:2043
  mkV 25 1 3057 1853 1273 784 4 [(8, 106, 26), (4, 107, 26)], -- version_cfg.go:2066
  mkV 25 2 2395 1451 997 614 4 [(8, 47, 28), (13, 48, 28)], -- version_cfg.go:2089
  mkV 25 3 1718 1041 715 440 4 [(7, 24, 30), (22, 25, 30)], -- version_cfg.go:2112
  mkV 25 4 1286 779 535 330 4 [(22, 15, 30), (13, 16, 30)], -- version_cfg.go:2135
  mkV 26 1 3283 1990 1367 842 4 [(10, 114, 28), (2, 115, 28)], -- version_cfg.go:2158
  mkV 26 2 2544 1542 1059 652 4 [(19, 46, 28), (4, 47, 28)], -- version_cfg.go:2181
  mkV 26 3 1804 1094 751 462 4 [(28, 22, 28), (6, 23, 28)], -- version_cfg.go:2204
  mkV 26 4 1425 864 593 365 4 [(33, 16, 30), (4, 17, 30)], -- version_cfg.go:2227
  mkV 27 1 3517 2132 1465 902 4 [(8, 122, 30), (4, 123, 30)], -- version_cfg.go:2250
  mkV 27 2 2701 1637 1125 692 4 [(22, 45, 28), (3, 46, 28)], -- version_cfg.go:2273
  mkV 27 3 1933 1172 805 496 4 [(8, 23, 30), (26, 24, 30)], -- version_cfg.go:2296
  mkV 27 4 1501 910 625 385 4 [(12, 15, 30), (28, 16, 30)], -- version_cfg.go:2319
  mkV 28 1 3669 2223 1528 940 3 [(3, 117, 30), (10, 118, 30)], -- version_cfg.go:2342
  mkV 28 2 2857 1732 1190 732 3 [(3, 45, 28), (23, 46, 28)], -- version_cfg.go:2365
  mkV 28 3 2085 1263 868 534 3 [(4, 24, 30), (31, 25, 30)], -- version_cfg.go:2388
  mkV 28 4 1581 958 658 405 3 [(11, 15, 30), (31, 16, 30)], -- version_cfg.go:2411
  mkV 29 1 3909 2369 1628 1002 3 [(7, 116, 30), (7, 117, 30)], -- version_cfg.go:2434
  mkV 29 2 3035 1839 1264 778 3 [(21, 45, 28), (7, 46, 28)], -- version_cfg.go:2457
  mkV 29 3 2181 1322 908 559 3 [(1, 23, 30), (37, 24, 30)], -- version_cfg.go:2480
  mkV 29 4 1677 1016 698 430 3 [(19, 15, 30), (26, 16, 30)], -- version_cfg.go:2503
  mkV 30 1 4158 2520 1732 1066 3 [(5, 115, 30), (10, 116, 30)], -- version_cfg.go:2526
  mkV 30 2 3289 1994 1370 843 3 [(19, 47, 28), (10, 48, 28)], -- version_cfg.go:2549
  mkV 30 3 2358 1429 982 604 3 [(15, 24, 30), (25, 25, 30)], -- version_cfg.go:2572
  mkV 30 4 1782 1080 742 457 3 [(23, 15, 30), (25, 16, 30)], -- version_cfg.go:2595
  mkV 31 1 4417 2677 1840 1132 3 [(13, 115, 30), (3, 116, 30)], -- version_cfg.go:2618
  mkV 31 2 3486 2113 1452 894 3 [(2, 46, 28), (29, 47, 28)], -- version_cfg.go:2641
  mkV 31 3 2473 1499 1030 634 3 [(42, 24, 30), (1, 25, 30)], -- version_cfg.go:2664
  mkV 31 4 1897 1150 790 486 3 [(23, 15, 30), (28, 16, 30)], -- version_cfg.go:2687
  mkV 32 1 4686 2840 1952 1201 3 [(17, 115, 30)], -- version_cfg.go:2710
  mkV 32 2 3693 2238 1538 947 3 [(10, 46, 28), (23, 47, 28)], -- version_cfg.go:2728
  mkV 32 3 2670 1618 1112 684 3 [(10, 24, 30), (35, 25, 30)], -- version_cfg.go:2751
  mkV 32 4 2022 1226 842 518 3 [(19, 15, 30), (35, 16, 30)], -- version_cfg.go:2774
  mkV 33 1 4965 3009 2068 1273 3 [(17, 115, 30), (1, 116, 30)], -- version_cfg.go:2797
  mkV 33 2 3909 2369 1628 1002 3 [(14, 46, 28), (21, 47, 28)], -- version_cfg.go:2820
  mkV 33 3 2805 1700 1168 719 3 [(29, 24, 30), (19, 25, 30)], -- version_cfg.go:2843
  mkV 33 4 2157 1307 898 553 3 [(11, 15, 30), (46, 16, 30)], -- version_cfg.go:2866
  mkV 34 1 5253 3183 2188 1347 3 [(13, 115, 30), (6, 116, 30)], -- version_cfg.go:2889
  mkV 34 2 4134 2506 1722 1060 3 [(14, 46, 28), (23, 47, 28)], -- version_cfg.go:2912
  mkV 34 3 2949 1787 1228 756 3 [(44, 24, 30), (7, 25, 30)], -- version_cfg.go:2935
  mkV 34 4 2301 1394 958 590 3 [(59, 16, 30), (1, 17, 30)], -- version_cfg.go:2958
  mkV 35 1 5529 3351 2303 1417 0 [(12, 121, 30), (7, 122, 30)], -- version_cfg.go:2981
  mkV 35 2 4343 2632 1809 1113 0 [(12, 47, 28), (26, 48, 28)], -- version_cfg.go:3004
  mkV 35 3 3081 1867 1283 790 0 [(39, 24, 30), (14, 25, 30)], -- version_cfg.go:3027
  mkV 35 4 2361 1431 983 605 0 [(22, 15, 30), (41, 16, 30)], -- version_cfg.go:3050
  mkV 36 1 5836 3537 2431 1496 0 [(6, 121, 30), (14, 122, 30)], -- version_cfg.go:3073
  mkV 36 2 4588 2780 1911 1176 0 [(6, 47, 28), (34, 48, 28)], -- version_cfg.go:3096
  mkV 36 3 3244 1966 1351 832 0 [(46, 24, 30), (10, 25, 30)], -- version_cfg.go:3119
  mkV 36 4 2524 1530 1051 647 0 [(2, 15, 30), (64, 16, 30)], -- version_cfg.go:3142
  mkV 37 1 6153 3729 2563 1577 0 [(17, 122, 30), (4, 123, 30)], -- version_cfg.go:3165
  mkV 37 2 4775 2894 1989 1224 0 [(29, 46, 28), (14, 47, 28)], -- version_cfg.go:3188
  mkV 37 3 3417 2071 1423 876 0 [(49, 24, 30), (10, 25, 30)], -- version_cfg.go:3211
  mkV 37 4 2625 1591 1093 673 0 [(24, 15, 30), (46, 16, 30)], -- version_cfg.go:3234
  mkV 38 1 6479 3927 2699 1661 0 [(4, 122, 30), (18, 123, 30)], -- version_cfg.go:3257
  mkV 38 2 5039 3054 2099 1292 0 [(13, 46, 28), (32, 47, 28)], -- version_cfg.go:3280
  mkV 38 3 3599 2181 1499 923 0 [(48, 24, 30), (14, 25, 30)], -- version_cfg.go:3303
  mkV 38 4 2735 1658 1139 701 0 [(42, 15, 30), (32, 16, 30)], -- version_cfg.go:3326
  mkV 39 1 6743 4087 2809 1729 0 [(20, 117, 30), (4, 118, 30)], -- version_cfg.go:3349
  mkV 39 2 5313 3220 2213 1362 0 [(40, 47, 28), (7, 48, 28)], -- version_cfg.go:3372
  mkV 39 3 3791 2298 1579 972 0 [(43, 24, 30), (22, 25, 30)], -- version_cfg.go:3395
  mkV 39 4 2927 1774 1219 750 0 [(10, 15, 30), (67, 16, 30)], -- version_cfg.go:3418
  mkV 40 1 7089 4296 2953 1817 0 [(19, 118, 30), (6, 119, 30)], -- version_cfg.go:3441
  mkV 40 2 5596 3391 2331 1435 0 [(18, 47, 28), (31, 48, 28)], -- version_cfg.go:3464
  mkV 40 3 3993 2420 1663 1024 0 [(34, 24, 30), (34, 25, 30)], -- version_cfg.go:3487
  mkV 40 4 3057 1852 1273 784 0 [(20, 15, 30), (61, 16, 30)] -- version_cfg.go:3510
]

end QR
