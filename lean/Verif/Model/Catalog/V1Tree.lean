import Verif.Model.Catalog.Tree
/-!
# Positions of all words of the two Electrum v1 lists (generated by tools/gen_words.py; a proof artefact, checked in Verif.Lemmas.Catalog)
-/
namespace Verif.Catalog
open Tree

def v1Tree0 : Tree := .o (.o (.o (.o (.o (.o (.o .e 0x616374 310 .e) 0x616464 863 (.o .e 0x616765 373 .e)) 0x61696d 1450 (.o (.o .e 0x616972 180 .e) 0x616e79 125 .e)) 0x617274 651 (.o (.o (.o .e 0x617368 595 .e) 0x61736b 74 .e) 0x617765 1560 (.o (.o .e 0x626167 934 .e) 0x626172 783 .e))) 0x626565 1144 (.o (.o (.o (.o .e 0x626567 530 .e) 0x626964 1363 (.o .e 0x626974 363 .e)) 0x626f78 672 (.o (.o .e 0x627573 914 .e) 0x627579 851 .e)) 0x636170 1511 (.o (.o (.o .e 0x637279 44 .e) 0x637570 771 .e) 0x646164 299 (.o (.o .e 0x646577 1577 .e) 0x646967 1333 .e)))) 0x64696d 1292 (.o (.o (.o (.o (.o .e 0x646f67 455 .e) 0x646f74 1334 (.o .e 0x647279 414 .e)) 0x647565 1417 (.o (.o .e 0x656174 236 .e) 0x656767 990 .e)) 0x656e64 50 (.o (.o (.o .e 0x657965 11 .e) 0x66616e 1470 .e) 0x666577 348 (.o (.o .e 0x666978 736 .e) 0x666c79 201 .e))) 0x666f65 1584 (.o (.o (.o (.o .e 0x666f67 1225 .e) 0x667572 1474 .e) 0x676173 1530 (.o (.o .e 0x676179 1227 .e) 0x676f64 102 .e)) 0x676f74 81 (.o (.o (.o .e 0x67756e 550 .e) 0x677579 228 .e) 0x686579 478 (.o (.o .e 0x686974 184 .e) 0x686f70 1264 .e))))) 0x687567 427 (.o (.o (.o (.o (.o (.o .e 0x68756d 1295 .e) 0x696365 382 (.o .e 0x696e6b 898 .e)) 0x6a6177 1595 (.o (.o .e 0x6a6f62 509 .e) 0x6a6f79 409 .e)) 0x6b6579 811 (.o (.o (.o .e 0x6b6964 288 .e) 0x6c6177 1478 .e) 0x6c6564 1298 (.o (.o .e 0x6c6567 386 .e) 0x6c6970 183 .e))) 0x6c6f74 326 (.o (.o (.o (.o .e 0x6d656e 368 .e) 0x6d6978 921 (.o .e 0x6d6f6d 342 .e)) 0x6d7564 1079 (.o (.o .e 0x6e6577 104 .e) 0x6e6f64 1080 .e)) 0x6f6464 1341 (.o (.o (.o .e 0x6f6465 1603 .e) 0x6f6666 65 .e) 0x6f7574 7 (.o (.o .e 0x6f776e 97 .e) 0x706179 480 .e)))) 0x70656e 688 (.o (.o (.o (.o (.o .e 0x706965 1606 .e) 0x706967 1271 (.o .e 0x706f70 776 .e)) 0x707574 141 (.o (.o .e 0x726177 1538 .e) 0x726564 164 .e)) 0x726970 500 (.o (.o (.o .e 0x727562 1104 .e) 0x72756e 87 .e) 0x736164 327 (.o (.o .e 0x736174 429 .e) 0x736561 320 .e))) 0x736879 1396 (.o (.o (.o (.o .e 0x736978 627 .e) 0x736b79 136 .e) 0x736f62 1316 (.o (.o .e 0x736f6e 424 .e) 0x746170 1318 .e)) 0x746561 1548 (.o (.o (.o .e 0x746965 680 .e) 0x746f65 889 .e) 0x746f6f 31 (.o (.o .e 0x747279 34 .e) 0x74776f 106 .e)))))
def v1Tree1 : Tree := .o (.o (.o (.o (.o (.o (.o .e 0x776172 306 .e) 0x776574 703 (.o .e 0x77696e 540 .e)) 0x776f6e 819 (.o (.o .e 0x776f77 1283 .e) 0x796574 82 .e)) 0x61626c65 381 (.o (.o (.o .e 0x61636865 570 .e) 0x61636964 1557 .e) 0x61636e65 2064 (.o (.o .e 0x61696e6f 2095 .e) 0x6169706f 2096 .e))) 0x616c6173 1451 (.o (.o (.o (.o .e 0x616c736f 436 .e) 0x616e6a6f 2131 (.o .e 0x6170746f 2145 .e)) 0x61726d79 1284 (.o (.o .e 0x61756c61 2181 .e) 0x61756e74 1508 .e)) 0x61776179 21 (.o (.o (.o .e 0x62616279 297 .e) 0x6261636b 16 .e) 0x62616c6c 484 (.o (.o .e 0x62616e67 935 .e) 0x62616e6b 1250 .e)))) 0x62617265 613 (.o (.o (.o (.o (.o .e 0x6265616d 1251 .e) 0x6265656e 45 (.o .e 0x62657374 124 .e)) 0x62697264 350 (.o (.o .e 0x62697465 614 .e) 0x626c6f77 431 .e)) 0x626c7565 196 (.o (.o (.o .e 0x626c7572 1034 .e) 0x626f6174 1035 .e) 0x626f6479 91 (.o (.o .e 0x626f6c64 1510 .e) 0x626f6d62 876 .e))) 0x626f6e64 1113 (.o (.o (.o (.o .e 0x626f6e65 444 .e) 0x626f6f6b 374 .e) 0x626f6f6d 1178 (.o (.o .e 0x626f726e 619 .e) 0x626f7468 253 .e)) 0x626f776c 1252 (.o (.o (.o .e 0x62756461 2272 .e) 0x62756d70 1287 .e) 0x6275726e 153 (.o (.o .e 0x62757279 866 .e) 0x62757379 1409 .e))))) 0x63616765 755 (.o (.o (.o (.o (.o (.o .e 0x63616c6d 548 .e) 0x63616d65 138 (.o .e 0x63617264 1148 .e)) 0x63617374 820 (.o (.o .e 0x63656c6c 1066 .e) 0x63657573 2302 .e)) 0x6368696e 1411 (.o (.o (.o .e 0x63696d6f 2317 .e) 0x63697479 587 .e) 0x636c6177 1216 (.o (.o .e 0x636c6179 692 .e) 0x636c7565 1460 .e))) 0x636f6174 986 (.o (.o (.o (.o .e 0x636f6c64 122 .e) 0x636f6f6c 328 .e) 0x636f7265 963 (.o (.o .e 0x636f7374 1068 .e) 0x63726170 1151 .e)) 0x6375626f 2355 (.o (.o (.o .e 0x63756a6f 2359 .e) 0x6375726c 785 .e) 0x63757465 938 (.o (.o .e 0x64616d6e 379 .e) 0x6461726b 129 .e)))) 0x64617274 1516 (.o (.o (.o (.o (.o .e 0x64617465 758 .e) 0x6461776e 685 (.o .e 0x6465616c 666 .e)) 0x6465616f 2379 (.o (.o .e 0x64656172 261 .e) 0x64656570 139 .e)) 0x64656e79 805 (.o (.o (.o .e 0x6465736b 1413 .e) 0x64697274 786 .e) 0x64697368 1519 (.o (.o .e 0x646f6172 2416 .e) 0x646f6572 2420 .e))) 0x646f6c6c 1222 (.o (.o (.o (.o .e 0x646f6d6f 2423 .e) 0x646f6f6d 1415 .e) 0x646f6f72 140 (.o (.o .e 0x646f7465 2428 .e) 0x646f7665 1258 .e)) 0x646f776e 12 (.o (.o (.o .e 0x646f7a65 2430 .e) 0x64726167 1154 .e) 0x64726177 695 (.o (.o .e 0x64726f70 303 .e) 0x64727567 806 .e)))))
def v1Tree2 : Tree := .o v1Tree0 0x757365 118 v1Tree1
def v1Tree3 : Tree := .o (.o (.o (.o (.o (.o (.o .e 0x6475636b 1578 .e) 0x64756465 1523 (.o .e 0x64756c6c 877 .e)) 0x64756d62 1097 (.o (.o .e 0x64757374 477 .e) 0x65616368 98 .e)) 0x65617379 333 (.o (.o (.o .e 0x6563686f 514 .e) 0x6564656e 2455 .e) 0x65646765 456 (.o (.o .e 0x65677561 2464 .e) 0x65697261 2466 .e))) 0x656c6d6f 2473 (.o (.o (.o (.o .e 0x656d6661 2479 .e) 0x656e686f 2490 (.o .e 0x65726d6f 2513 .e)) 0x65746f73 2535 (.o (.o .e 0x6576656e 26 .e) 0x65766572 47 .e)) 0x6576696c 442 (.o (.o (.o .e 0x66616374 312 .e) 0x66616465 263 .e) 0x6661646f 2560 (.o (.o .e 0x6661696c 489 .e) 0x66617465 445 .e)))) 0x66656172 111 (.o (.o (.o (.o (.o .e 0x66656564 605 .e) 0x66656574 220 (.o .e 0x6665746f 2589 .e)) 0x66696661 2598 (.o (.o .e 0x66696c6c 150 .e) 0x66696e64 68 .e)) 0x66697265 230 (.o (.o (.o .e 0x66697368 589 .e) 0x66697374 1040 .e) 0x66697665 536 (.o (.o .e 0x6669786f 2609 .e) 0x666c6167 1471 .e))) 0x666c6174 895 (.o (.o (.o (.o .e 0x666c6970 1335 .e) 0x666c6f77 308 .e) 0x666f636f 2616 (.o (.o .e 0x666f6965 2619 .e) 0x666f6c64 942 .e)) 0x666f6f74 523 (.o (.o (.o .e 0x666f726d 375 .e) 0x666f756c 1473 .e) 0x66726565 188 (.o (.o .e 0x66756261 2632 .e) 0x66756d6f 2638 .e))))) 0x6761646f 2646 (.o (.o (.o (.o (.o (.o .e 0x6761696e 808 .e) 0x67616a6f 2651 (.o .e 0x67616d65 262 .e)) 0x67616d6f 2653 (.o (.o .e 0x67617370 996 .e) 0x67617a65 464 .e)) 0x67656172 2662 (.o (.o (.o .e 0x67696269 2671 .e) 0x67696674 668 .e) 0x6769726c 56 (.o (.o .e 0x67697665 62 .e) 0x676c6164 997 .e))) 0x676c6f77 581 (.o (.o (.o (.o .e 0x676f616c 1186 .e) 0x676f676f 2684 (.o .e 0x676f6d6f 2687 .e)) 0x676f6e65 116 (.o (.o .e 0x676f6f64 71 .e) 0x676f7a6f 2694 .e)) 0x67726162 630 (.o (.o (.o .e 0x67726577 516 .e) 0x67726579 411 .e) 0x6772696e 549 (.o (.o .e 0x67726970 748 .e) 0x67726f77 203 .e)))) 0x67756465 2701 (.o (.o (.o (.o (.o .e 0x67756d65 2705 .e) 0x67757275 2706 (.o .e 0x68616972 121 .e)) 0x68616c66 307 (.o (.o .e 0x68616e64 35 .e) 0x68616e67 341 .e)) 0x6861726d 1382 (.o (.o (.o .e 0x68617465 92 .e) 0x6865616c 573 .e) 0x68656174 499 (.o (.o .e 0x6865656c 1124 .e) 0x68656c64 338 .e))) 0x68656c70 100 (.o (.o (.o (.o .e 0x68657265 38 .e) 0x6865726f 896 .e) 0x68696465 166 (.o (.o .e 0x68696768 189 .e) 0x68696c6c 552 .e)) 0x68696e6f 2741 (.o (.o (.o .e 0x686f6a65 2747 .e) 0x686f6c79 917 .e) 0x686f6d65 101 (.o (.o .e 0x686f6f6b 1531 .e) 0x686f7065 88 .e)))))
def v1Tree4 : Tree := .o (.o (.o (.o (.o (.o (.o .e 0x686f776c 1294 .e) 0x68756765 1338 (.o .e 0x68756e6f 2757 .e)) 0x68756e74 1425 (.o (.o .e 0x6875726c 1532 .e) 0x68757274 99 .e)) 0x68757475 2759 (.o (.o (.o .e 0x69616961 2760 .e) 0x69617261 2765 .e) 0x69626973 2768 (.o (.o .e 0x69636172 2769 .e) 0x69646561 531 .e))) 0x69656e65 2777 (.o (.o (.o (.o .e 0x69676c75 2779 .e) 0x696e6368 919 (.o .e 0x696e746f 18 .e)) 0x696f646f 2814 (.o (.o .e 0x696f696f 2816 .e) 0x696f7461 2819 .e)) 0x69726973 2822 (.o (.o (.o .e 0x69726f6e 1043 .e) 0x69736361 2827 .e) 0x6973736f 2833 (.o (.o .e 0x6973746f 2834 .e) 0x6a616465 2842 .e)))) 0x6a61746f 2852 (.o (.o (.o (.o (.o .e 0x6a617a7a 2855 .e) 0x6a696c6f 2867 (.o .e 0x6a697065 2869 .e)) 0x6a6f636b 1044 (.o (.o .e 0x6a6f696e 653 .e) 0x6a6f696f 2873 .e)) 0x6a6f6b65 721 (.o (.o (.o .e 0x6a6f7461 2876 .e) 0x6a756d70 403 .e) 0x6a757374 1 (.o (.o .e 0x6a757461 2889 .e) 0x6b656570 76 .e))) 0x6b657074 479 (.o (.o (.o (.o .e 0x6b69636b 654 .e) 0x6b696c6c 197 .e) 0x6b696e67 423 (.o (.o .e 0x6b697373 167 .e) 0x6b6e6565 415 .e)) 0x6b6e6f77 3 (.o (.o (.o .e 0x6c616365 1386 .e) 0x6c616479 675 .e) 0x6c616964 1190 (.o (.o .e 0x6c616e64 224 .e) 0x6c617a79 1339 .e))))) 0x6c656164 390 (.o (.o (.o (.o (.o (.o .e 0x6c656166 364 .e) 0x6c656170 1164 (.o .e 0x6c65646f 2906 .e)) 0x6c656674 59 (.o (.o .e 0x6c656c65 2909 .e) 0x6c657373 416 .e)) 0x6c69636b 1340 (.o (.o (.o .e 0x6c696674 532 .e) 0x6c696b65 0 .e) 0x6c696d62 1191 (.o (.o .e 0x6c696e65 229 .e) 0x6c69786f 2935 .e))) 0x6c6f646f 2938 (.o (.o (.o (.o .e 0x6c6f6e67 28 .e) 0x6c6f6f6b 10 .e) 0x6c6f6f70 2943 (.o (.o .e 0x6c6f7264 788 .e) 0x6c6f7373 829 .e)) 0x6c6f7564 462 (.o (.o (.o .e 0x6c6f7665 2 .e) 0x6c756172 2949 .e) 0x6c756973 2953 (.o (.o .e 0x6c756e67 830 .e) 0x6c757374 608 .e)))) 0x6c75746f 2957 (.o (.o (.o (.o (.o .e 0x6d616465 83 .e) 0x6d616b65 9 (.o .e 0x6d616d61 1428 .e)) 0x6d616e79 105 (.o (.o .e 0x6d61726b 676 .e) 0x6d61736b 655 .e)) 0x6d617373 1232 (.o (.o (.o .e 0x6d617468 1233 .e) 0x6d65616e 112 .e) 0x6d656574 367 (.o (.o .e 0x6d656c74 709 .e) 0x6d656e64 1167 .e))) 0x6d656e75 2987 (.o (.o (.o (.o .e 0x6d657265 1193 .e) 0x6d657373 526 .e) 0x6d696175 2994 (.o (.o .e 0x6d696c6b 1047 .e) 0x6d696e64 54 .e)) 0x6d696e65 171 (.o (.o (.o .e 0x6d697374 1598 .e) 0x6d6f616e 1599 .e) 0x6d6f636b 1300 (.o (.o .e 0x6d6f6572 3010 .e) 0x6d6f666f 3011 .e)))))
def v1Tree5 : Tree := .o v1Tree3 0x686f7572 302 v1Tree4
def v1Tree6 : Tree := .o v1Tree2 0x6472756d 1522 v1Tree5
def v1Tree7 : Tree := .o (.o (.o (.o (.o (.o (.o .e 0x6d6f6f6e 284 .e) 0x6d6f7265 20 (.o .e 0x6d756368 43 .e)) 0x6d75646f 3025 (.o (.o .e 0x6d756f6e 3030 .e) 0x6d757365 1482 .e)) 0x6e61646f 3035 (.o (.o (.o .e 0x6e61676f 3037 .e) 0x6e61696c 1049 .e) 0x6e616a61 3039 (.o (.o .e 0x6e616d65 133 .e) 0x6e656172 316 .e))) 0x6e65636b 518 (.o (.o (.o (.o .e 0x6e656564 40 .e) 0x6e657264 1305 (.o .e 0x6e65786f 3062 .e)) 0x6e657874 176 (.o (.o .e 0x6e696365 324 .e) 0x6e696e65 1169 .e)) 0x6e6f656c 3077 (.o (.o (.o .e 0x6e6f6a6f 3080 .e) 0x6e6f7365 487 .e) 0x6e6f7465 669 (.o (.o .e 0x6e756c6f 3091 .e) 0x6e756d62 844 .e)))) 0x6f627573 3107 (.o (.o (.o (.o (.o .e 0x6f637265 3115 .e) 0x6f67756d 3126 (.o .e 0x6f6b6179 260 .e)) 0x6f6c6d6f 3136 (.o (.o .e 0x6f6c6f72 3137 .e) 0x6f6e6365 72 .e)) 0x6f6e6c79 13 (.o (.o (.o .e 0x6f6e7573 3148 .e) 0x6f6e7a65 3149 .e) 0x6f70656e 123 (.o (.o .e 0x6f70696f 3153 .e) 0x6f726c61 3163 .e))) 0x6f75726f 3174 (.o (.o (.o (.o .e 0x6f766572 37 .e) 0x6f766e69 3181 .e) 0x7061636b 792 (.o (.o .e 0x70616765 763 .e) 0x70616972 775 .e)) 0x70616c65 813 (.o (.o (.o .e 0x70616c6d 971 .e) 0x7061726b 677 .e) 0x70617373 175 (.o (.o .e 0x70617374 151 .e) 0x70617468 300 .e))))) 0x70617861 3206 (.o (.o (.o (.o (.o (.o .e 0x7065616f 3208 .e) 0x7065656c 1430 (.o .e 0x70656572 1000 .e)) 0x70696c65 1308 (.o (.o .e 0x70696e6b 764 .e) 0x70697479 974 .e)) 0x706c616e 465 (.o (.o (.o .e 0x706c6179 114 .e) 0x706f636f 3240 .e) 0x706f656d 391 (.o (.o .e 0x706f6574 1052 .e) 0x706f6973 3244 .e))) 0x706f6f6c 794 (.o (.o (.o (.o .e 0x706f6f72 678 .e) 0x706f7572 724 (.o .e 0x70726179 412 .e)) 0x70756665 3268 (.o (.o .e 0x70756666 1608 .e) 0x70756972 3270 .e)) 0x70756c6c 210 (.o (.o (.o .e 0x70756e6b 3274 .e) 0x70757265 491 .e) 0x70757368 246 (.o (.o .e 0x70757865 3278 .e) 0x71756974 1435 .e)))) 0x72616775 3287 (.o (.o (.o (.o (.o .e 0x72616c6f 3289 .e) 0x72616e74 1436 (.o .e 0x72617065 1609 .e)) 0x72617265 1610 (.o (.o .e 0x7261726f 3294 .e) 0x7265616c 216 .e)) 0x72657374 221 (.o (.o (.o .e 0x72696368 1235 .e) 0x72696a6f 3325 .e) 0x72696e67 387 (.o (.o .e 0x72696e73 3327 .e) 0x72696f73 3328 .e))) 0x72697365 319 (.o (.o (.o (.o .e 0x72697861 3334 .e) 0x726f6164 360 .e) 0x726f616d 1311 (.o (.o .e 0x726f6172 976 .e) 0x726f636b 355 .e)) 0x726f6572 3338 (.o (.o (.o .e 0x726f676f 3339 .e) 0x726f6c6c 335 .e) 0x726f6c6f 3341 (.o (.o .e 0x726f6f74 1002 .e) 0x726f7065 1171 .e)))))
def v1Tree8 : Tree := .o (.o (.o (.o (.o (.o (.o .e 0x726f786f 3349 .e) 0x72756173 3351 (.o .e 0x72756465 1612 .e)) 0x7275666f 3355 (.t (.o .e 0x7275696e 848 .e) 0x72756c65 649 3358 .e)) 0x72757368 466 (.o (.o (.o .e 0x73616665 439 .e) 0x73616964 49 .e) 0x7361696c 1055 (.o (.o .e 0x73616973 3371 .e) 0x73616c74 1393 .e))) 0x73616e65 1439 (.o (.o (.o (.o .e 0x7361706f 3374 .e) 0x73617665 249 (.o .e 0x73636172 449 .e)) 0x7365656b 546 (.o (.o .e 0x7365656d 78 .e) 0x73656a61 3391 .e)) 0x73656c66 372 (.o (.o (.o .e 0x73656e74 566 .e) 0x73657573 3399 .e) 0x73686970 1105 (.o (.o .e 0x73686f65 555 .e) 0x73686f77 135 .e)))) 0x73687574 567 (.t (.o (.o (.o (.o .e 0x7369636b 392 .e) 0x73696768 556 (.o .e 0x7369676e 576 .e)) 0x73696e6b 949 (.o (.o .e 0x73697a65 1056 .e) 0x736b696e 193 .e)) 0x736b6970 1237 (.o (.o (.o .e 0x736c616d 1106 .e) 0x736c6170 1135 .e) 0x736e6170 927 (.o (.o .e 0x736e6f77 450 .e) 0x736f616b 1352 .e))) 0x736f6172 1107 3419 (.o (.o (.o (.o .e 0x736f6674 291 .e) 0x736f6a61 3426 .e) 0x736f6d65 51 (.o (.o .e 0x736f6e67 250 .e) 0x736f6f6e 158 .e)) 0x736f7274 1136 (.o (.o (.o .e 0x736f756c 103 .e) 0x7370696e 593 .e) 0x73706f74 908 (.o (.o .e 0x73746162 1277 .e) 0x73746179 131 .e))))) 0x73746570 239 (.o (.o (.o (.o (.o (.o .e 0x73746972 1238 .e) 0x73746f70 75 (.o .e 0x7374756e 1398 .e)) 0x73756368 146 (.o (.o .e 0x73756974 1500 .e) 0x73756a6f 3445 .e)) 0x73756f72 3449 (.o (.o (.o .e 0x73757265 219 .e) 0x73776179 766 .e) 0x7377696d 816 (.o (.o .e 0x7461636f 3456 .e) 0x74616b65 24 .e))) 0x74616c6b 95 (.o (.o (.o (.o .e 0x7461736b 1356 .e) 0x7465616d 1007 .e) 0x74656c6c 33 (.o (.o .e 0x74657374 644 .e) 0x74657665 3490 .e)) 0x7468656d 23 (.o (.o (.o .e 0x7468656e 17 .e) 0x74696465 1357 .e) 0x74696d65 6 (.o (.o .e 0x74696e79 451 .e) 0x74697665 3505 .e)))) 0x746f6172 3506 (.o (.o (.o (.o (.o .e 0x746f6675 3508 .e) 0x746f6f6c 1502 (.o .e 0x746f7373 1061 .e)) 0x746f746f 3518 (.o (.o .e 0x746f776e 468 .e) 0x74726565 178 .e)) 0x74726970 729 (.o (.o (.o .e 0x74727565 109 .e) 0x7475636b 1446 .e) 0x7475646f 3529 (.o (.o .e 0x7475666f 3530 .e) 0x74756e65 981 .e))) 0x7475726e 60 (.o (.o (.o (.o .e 0x74757475 3537 .e) 0x74797065 911 .e) 0x75676c79 799 (.o (.o .e 0x7569766f 3544 .e) 0x75706f6e 144 .e)) 0x75726e61 3564 (.o (.o (.o .e 0x7572726f 3566 .e) 0x75736569 3572 .e) 0x7661696e 1319 (.o (.o .e 0x76617374 1554 .e) 0x7665696c 1359 .e)))))
def v1Tree9 : Tree := .o v1Tree7 0x726f7365 336 v1Tree8
def v1Tree10 : Tree := .o (.o (.o (.o (.o (.o (.o .e 0x7665696f 3598 .e) 0x76656a61 3599 (.o .e 0x76657279 174 .e)) 0x76696577 912 (.o (.o .e 0x76696d65 3616 .e) 0x7669766f 3624 .e)) 0x766f6172 3626 (.o (.o (.o .e 0x766f6475 3628 .e) 0x766f6964 1320 .e) 0x766f746f 3636 (.o (.o .e 0x76757074 3641 .e) 0x77616974 80 .e))) 0x77616c6b 69 (.o (.o (.o (.o .e 0x77616c6c 185 .e) 0x77616e74 5 (.o .e 0x7761726d 266 .e)) 0x7761726e 1011 (.o (.o .e 0x77617368 493 .e) 0x77617665 401 .e)) 0x7765616b 504 (.o (.o (.o .e 0x7765656b 407 .e) 0x77656570 953 .e) 0x77696665 715 (.o (.o .e 0x77696c64 836 .e) 0x77697065 984 .e)))) 0x77697365 1063 (.o (.o (.o (.o (.o .e 0x77697368 70 .e) 0x776f6c66 1449 (.o .e 0x776f6f64 730 .e)) 0x776f726b 134 (.o (.o .e 0x77726170 494 .e) 0x78616c65 3644 .e)) 0x78657061 3652 (.o (.o (.o .e 0x78697869 3660 .e) 0x786f646f 3661 .e) 0x79617264 1244 (.o (.o .e 0x79656168 521 .e) 0x79656c6c 506 .e))) 0x7a656275 3669 (.o (.o (.o (.o .e 0x616265746f 2050 .e) 0x61626f7574 19 .e) 0x61626f7665 251 (.o (.o .e 0x6162757365 1087 .e) 0x6164657573 2070 .e)) 0x61646d6974 932 (.o (.o (.o .e 0x61646f7265 1111 .e) 0x616669786f 2084 .e) 0x6166746572 93 (.o (.o .e 0x616761696e 42 .e) 0x616769746f 2091 .e))))) 0x61676f6e79 1558 (.o (.o (.o (.o (.o (.o .e 0x6167726565 933 .e) 0x6168656164 864 (.o .e 0x616c697665 376 .e)) 0x616c6c6f77 541 (.o (.o .e 0x616c6f6e65 86 .e) 0x616c6f6e67 252 .e)) 0x616c746572 1452 (.o (.o (.o .e 0x616d617a65 617 .e) 0x616d6f6e67 800 .e) 0x616e65786f 2128 (.o (.o .e 0x616e67656c 295 .e) 0x616e676572 447 .e))) 0x616e677279 495 (.o (.o (.o (.o .e 0x616e6e6f79 1033 .e) 0x616e7a6f6c 2137 (.o .e 0x616f6e6465 2138 .e)) 0x6170617274 265 (.o (.o .e 0x617069746f 2140 .e) 0x6170706c65 1176 .e)) 0x617264756f 2150 (.o (.o (.o .e 0x6172666172 2152 .e) 0x6172726f77 1453 .e) 0x6173696465 1142 (.o (.o .e 0x617469766f 2172 .e) 0x6174726f7a 2176 .e)))) 0x61766f6964 959 (.o (.o (.o (.o (.o .e 0x6177616974 1014 .e) 0x6177616b65 1015 (.o .e 0x617a6f746f 2193 .e)) 0x62616e7a6f 2202 (.o (.o .e 0x62616f6261 2203 .e) 0x6265617264 1406 .e)) 0x626561746f 2212 (.o (.o (.o .e 0x626567616e 272 .e) 0x626567696e 214 .e) 0x626567756e 1212 (.o (.o .e 0x62656c6c79 1561 .e) 0x62656d6f6c 2218 .e))) 0x62656e6368 1509 (.o (.o (.o (.o .e 0x626572726f 2222 .e) 0x6269727468 784 .e) 0x626c61636b 142 (.o (.o .e 0x626c616465 801 .e) 0x626c616d65 508 .e)) 0x626c616e6b 1145 (.o (.o (.o .e 0x626c656564 418 .e) 0x626c656e64 1562 .e) 0x626c657373 704 (.o (.o .e 0x626c696e64 332 .e) 0x626c696e6b 1089 .e)))))
def v1Tree11 : Tree := .o (.o (.o (.o (.o (.o (.o .e 0x626c6f636b 865 .e) 0x626c6f6f64 172 (.o .e 0x626c6f6f6d 1064 .e)) 0x626c757368 1563 (.o (.o .e 0x626f617264 1146 .e) 0x626f6c736f 2254 .e)) 0x626f6e7a6f 2256 (.o (.o (.o .e 0x626f756e64 936 .e) 0x627261696e 571 .e) 0x6272616e64 1457 (.o (.o .e 0x6272617665 1036 .e) 0x6272656164 1114 .e))) 0x627265616b 137 (.o (.o (.o (.o .e 0x6272696e67 207 .e) 0x62726f6b65 664 (.o .e 0x62726f776e 475 .e)) 0x6272756e6f 2268 (.o (.o .e 0x6272757368 683 .e) 0x6275677265 2276 .e)) 0x6275696c64 476 (.o (.o (.o .e 0x6275696c74 1016 .e) 0x62756a616f 2277 .e) 0x6275727374 1115 (.o (.o .e 0x627573746f 2280 .e) 0x6361727279 377 .e)))) 0x6361727665 1254 (.o (.o (.o (.o (.o .e 0x6361746368 385 .e) 0x6361757365 154 (.o .e 0x6365617365 1288 .e)) 0x636573746f 2300 (.o (.o .e 0x636574726f 2301 .e) 0x6365766172 2303 .e)) 0x636861696e 756 (.o (.o (.o .e 0x6368616972 665 .e) 0x636861726d 1017 .e) 0x6368617365 705 (.o (.o .e 0x6368656170 1328 .e) 0x6368656174 1565 .e))) 0x636865636b 1067 (.o (.o (.o (.o .e 0x636865656b 496 .e) 0x6368656572 1215 .e) 0x6368657374 426 (.o (.o .e 0x6368696c64 283 .e) 0x6368696c6c 673 .e)) 0x6368697461 2306 (.o (.o (.o .e 0x63686f6b65 620 .e) 0x63696c696f 2316 .e) 0x63696f736f 2319 (.o (.o .e 0x636973746f 2322 .e) 0x636c61696d 822 .e))))) 0x636c617373 448 (.o (.o (.o (.o (.o (.o .e 0x636c65616e 420 .e) 0x636c656172 346 (.o .e 0x636c65726f 2327 .e)) 0x636c69636b 1513 (.o (.o .e 0x636c696d62 706 .e) 0x636c696e67 1038 .e)) 0x636c6f636b 852 (.o (.o (.o .e 0x636c6f7365 94 .e) 0x636c6f7564 347 .e) 0x636f69746f 2336 (.o (.o .e 0x636f6c6f72 254 .e) 0x636f72766f 2345 .e))) 0x636f756368 1290 (.o (.o (.o (.o .e 0x636f756e74 694 .e) 0x636f766572 323 .e) 0x636f76696c 2348 (.o (.o .e 0x637261636b 410 .e) 0x6372617368 717 .e)) 0x6372617665 1018 (.o (.o (.o .e 0x637261776c 734 .e) 0x6372617a79 561 .e) 0x637265616b 1569 (.o (.o .e 0x637265616d 640 .e) 0x637265656b 804 .e)))) 0x6372656570 1094 (.o (.o (.o (.o (.o .e 0x6372696d65 1119 .e) 0x637269766f 2352 (.o .e 0x63726f7373 440 .e)) 0x63726f7764 735 (.o (.o .e 0x637275656c 770 .e) 0x6372757368 645 .e)) 0x6375727365 512 (.o (.o (.o .e 0x6375727665 1095 .e) 0x637572766f 2363 .e) 0x6461646479 432 (.o (.o .e 0x6461646f73 2369 .e) 0x6461696c79 1463 .e))) 0x64616e6365 199 (.o (.o (.o (.o .e 0x6465617468 169 .e) 0x6465636179 1370 .e) 0x64656d6f6e 772 (.o (.o .e 0x6465707468 869 .e) 0x6465717565 2390 .e)) 0x646576696c 853 (.o (.o (.o .e 0x6469717565 2410 .e) 0x6469727479 825 .e) 0x646f62726f 2417 (.o (.o .e 0x646f646f69 2419 .e) 0x646f677565 2421 .e)))))
def v1Tree12 : Tree := .o v1Tree10 0x626c697373 1213 v1Tree11
def v1Tree13 : Tree := .o v1Tree9 0x7665696e 753 v1Tree12
def v1Tree14 : Tree := .o v1Tree6 0x6d6f6c64 1194 v1Tree13
def v1Tree15 : Tree := .o (.o (.o (.o (.o (.o (.o .e 0x6472616d61 1521 .e) 0x647261776e 1416 (.o .e 0x6472656164 1155 .e)) 0x647265616d 58 (.o (.o .e 0x6472656e6f 2432 .e) 0x6472657373 441 .e)) 0x6472696674 513 (.o (.o (.o .e 0x6472696e6b 402 .e) 0x6472697665 337 .e) 0x64726f7665 989 (.o (.o .e 0x6472756e6b 965 .e) 0x647275736f 2435 .e))) 0x647563746f 2437 (.o (.o (.o (.o .e 0x647565746f 2438 .e) 0x6475726f75 2443 (.o .e 0x6475737479 1579 .e)) 0x64757a6961 2445 (.o (.o .e 0x6477656c6c 1376 .e) 0x6561676572 1465 .e)) 0x6561726c79 854 (.o (.o (.o .e 0x6561727468 247 .e) 0x6562616e6f 2446 .e) 0x656272696f 2447 (.o (.o .e 0x6569766172 2467 .e) 0x6569786f73 2468 .e)))) 0x656d707479 293 (.o (.o (.o (.o (.o .e 0x656e656d79 759 .e) 0x656e6a6f79 543 (.o .e 0x656e746572 707 .e)) 0x65706f7869 2505 (.o (.o .e 0x6570757261 2506 .e) 0x6572617365 1466 .e)) 0x657262696f 2509 (.o (.o (.o .e 0x657265746f 2510 .e) 0x6572726f73 2515 .e) 0x6578697374 563 (.o (.o .e 0x657869746f 2552 .e) 0x6661696e74 1184 .e))) 0x6661697279 1158 (.o (.o (.o (.o .e 0x6661697468 696 .e) 0x66616c7365 855 .e) 0x6661756c74 647 (.o (.o .e 0x66617a6572 2575 .e) 0x6665617374 1525 .e)) 0x6665697865 2581 (.o (.o (.o .e 0x66656d7572 2585 .e) 0x666575646f 2590 .e) 0x6669627261 2594 (.o (.o .e 0x6669656c64 535 .e) 0x6669657370 2597 .e))))) 0x66696e616c 433 (.o (.o (.o (.o (.o (.o .e 0x6669727374 110 .e) 0x666c616d65 590 (.o .e 0x666c617265 1378 .e)) 0x666c617368 841 (.o (.o .e 0x666c657368 606 .e) 0x666c697274 1472 .e)) 0x666c6f6174 490 (.o (.o (.o .e 0x666c6f6f64 993 .e) 0x666c6f6f72 242 .e) 0x666f626f73 2615 (.o (.o .e 0x666f637573 967 .e) 0x666f6e7465 2622 .e))) 0x666f726365 329 (.o (.o (.o (.o .e 0x666f727468 1041 .e) 0x666f72756d 2623 (.o .e 0x666f73736f 2624 .e)) 0x6672616d65 994 (.o (.o .e 0x667265616b 995 .e) 0x6672657368 623 .e)) 0x667265766f 2628 (.o (.o (.o .e 0x66726f6e74 354 .e) 0x66726f7374 1420 .e) 0x66726f776e 738 (.o (.o .e 0x6672756974 968 .e) 0x66756a616f 2636 .e)))) 0x66756c6c79 1529 (.o (.o (.o (.o (.o .e 0x66756e6e79 607 .e) 0x66757a7565 2644 (.o .e 0x67616e736f 2654 .e)) 0x67686f7374 827 (.o (.o .e 0x6769616e74 1159 .e) 0x676976656e 461 .e)) 0x676c617265 1185 (.o (.o (.o .e 0x676c617373 287 .e) 0x676c656261 2678 .e) 0x676c696465 1422 (.o (.o .e 0x676c69666f 2679 .e) 0x676c6f7279 1261 .e))) 0x676c6f7465 2680 (.o (.o (.o (.o .e 0x676c6f7665 1588 .e) 0x676f656c61 2683 .e) 0x676f6e7a6f 2688 (.o (.o .e 0x676f6f7365 1228 .e) 0x676f72726f 2689 .e)) 0x676f747461 1099 (.o (.o (.o .e 0x6772616365 739 .e) 0x6772616465 809 .e) 0x6772616e64 1123 (.o (.o .e 0x6772616e74 1021 .e) 0x6772617370 879 .e)))))
def v1Tree16 : Tree := .o (.o (.o (.o (.o (.o (.o .e 0x677261786f 2695 .e) 0x6772656174 147 (.o .e 0x677265656e 285 .e)) 0x6772656574 1161 (.o (.o .e 0x6772696566 1022 .e) 0x677269746f 2697 .e)) 0x67726f7570 1187 (.o (.o (.o .e 0x67726f776e 842 .e) 0x6772757461 2699 .e) 0x6775617264 1229 (.o (.o .e 0x6775657373 248 .e) 0x677565746f 2702 .e))) 0x6775696465 719 (.o (.o (.o (.o .e 0x6775696c74 1293 .e) 0x6775697a6f 2703 (.o .e 0x6861707079 145 .e)) 0x6861727368 1263 (.o (.o .e 0x6861756e74 720 .e) 0x6865617264 268 .e)) 0x6865617274 15 (.o (.o (.o .e 0x6865617679 551 .e) 0x68656c6c6f 1125 .e) 0x686961746f 2733 (.o (.o .e 0x68696d656e 2740 .e) 0x686f6d7573 2749 .e)))) 0x686f6e6579 1188 (.o (.o (.o (.o (.o .e 0x686f6e6f72 1100 .e) 0x686f727365 1023 (.o .e 0x686f72746f 2752 .e)) 0x686f757365 255 (.o (.o .e 0x68756d616e 408 .e) 0x6875727261 2758 .e)) 0x6875727279 1591 (.o (.o (.o .e 0x69616e7361 2763 .e) 0x6961717565 2764 .e) 0x6964616465 2772 (.o (.o .e 0x6964696f74 1592 .e) 0x69646f736f 2775 .e))) 0x696d616765 598 (.o (.o (.o (.o .e 0x696e677561 2802 .e) 0x696e6e6572 1265 .e) 0x697472696f 2837 (.o (.o .e 0x6975616e65 2838 .e) 0x6a616d626f 2846 .e)) 0x6a6172726f 2850 (.o (.o (.o .e 0x6a61756c61 2853 .e) 0x6a6176656c 2854 .e) 0x6a65616e73 1163 (.o (.o .e 0x6a65677565 2856 .e) 0x6a656a756d 2858 .e))))) 0x6a656f7661 2860 (.o (.o (.o (.o (.o (.o .e 0x6a65737573 2863 .e) 0x6a65746f6d 2864 (.o .e 0x6a69686164 2866 .e)) 0x6a6f72726f 2875 (.o (.o .e 0x6a6f756c65 2877 .e) 0x6a75646765 1045 .e)) 0x6a75696365 1534 (.o (.o (.o .e 0x6a75697a6f 2882 .e) 0x6a756e746f 2886 .e) 0x6a7573746f 2888 (.o (.o .e 0x6b6e696665 525 .e) 0x6b6e6f636b 722 .e))) 0x6b6e6f776e 395 (.o (.o (.o (.o .e 0x6c6169636f 2893 .e) 0x6c6170736f 2896 .e) 0x6c61726765 553 (.o (.o .e 0x6c61756768 130 .e) 0x6c6175746f 2899 .e)) 0x6c617a6572 2902 (.o (.o (.o .e 0x6c6561726e 240 .e) 0x6c65617374 313 .e) 0x6c65617665 57 (.o (.o .e 0x6c65627265 2904 .e) 0x6c656e746f 2911 .e)))) 0x6c65717565 2915 (.o (.o (.o (.o (.o .e 0x6c65737465 2916 .e) 0x6c6576656c 1127 (.o .e 0x6c68616d61 2921 .e)) 0x6c69616d65 2923 (.o (.o .e 0x6c696d6974 1024 .e) 0x6c6f67726f 2939 .e)) 0x6c6f6f7365 740 (.o (.o (.o .e 0x6c6f736572 1266 .e) 0x6c6f747573 2947 .e) 0x6c75636b79 741 (.o (.o .e 0x6c756e6368 1299 .e) 0x6c75766173 2958 .e))) 0x6d61676963 920 (.o (.o (.o (.o .e 0x6d6167726f 2964 .e) 0x6d61726368 1166 .e) 0x6d61727279 872 (.o (.o .e 0x6d61746368 970 .e) 0x6d61796265 89 .e)) 0x6d65616e74 358 (.o (.o (.o .e 0x6d65636861 2980 .e) 0x6d656c726f 2985 .e) 0x6d65726379 1429 (.o (.o .e 0x6d6574616c 710 .e) 0x6d69646961 2996 .e)))))
def v1Tree17 : Tree := .o v1Tree15 0x6772617373 564 v1Tree16
def v1Tree18 : Tree := .o (.o (.o (.o (.o (.o (.o .e 0x6d6f676e6f 3012 .e) 0x6d6f697461 3013 (.o .e 0x6d6f6e6579 615 .e)) 0x6d6f6e7468 458 (.o (.o .e 0x6d6f72616c 1536 .e) 0x6d6f75726e 1234 .e)) 0x6d6f757365 3020 (.o (.o (.o .e 0x6d6f757468 238 .e) 0x6d6f766965 711 .e) 0x6d75676972 3026 (.o (.o .e 0x6d756e6972 3029 .e) 0x6d75736963 339 .e))) 0x6e61697065 3038 (.o (.o (.o (.o .e 0x6e616b6564 1050 .e) 0x6e65677573 3052 (.o .e 0x6e65727665 1196 .e)) 0x6e65737465 3057 (.o (.o .e 0x6e65766572 4 .e) 0x6e69676874 46 .e)) 0x6e696e686f 3067 (.o (.o (.o .e 0x6e6973746f 3072 .e) 0x6e6f697365 922 .e) 0x6e6f69766f 3079 (.o (.o .e 0x6e6f727468 1483 .e) 0x6f61736973 3097 .e)))) 0x6f6265736f 3099 (.o (.o (.o (.o (.o .e 0x6f6276696f 3108 .e) 0x6f6361736f 3109 (.o .e 0x6f6365616e 554 .e)) 0x6f65737465 3121 (.o (.o .e 0x6f66666572 533 .e) 0x6f6674656e 537 .e)) 0x6f67697661 3125 (.o (.o (.o .e 0x6f6c686f73 3134 .e) 0x6f72636172 3160 .e) 0x6f72646572 791 (.o (.o .e 0x6f7266616f 3161 .e) 0x6f72697861 3162 .e))) 0x6f74686572 39 (.o (.o (.o (.o .e 0x6f74697465 3173 .e) 0x6f75736172 3175 .e) 0x6f75766972 3177 (.o (.o .e 0x6f76756c6f 3183 .e) 0x6f78616c61 3184 .e)) 0x7061657465 3192 (.o (.o (.o .e 0x7061696e74 343 .e) 0x70616a656d 3195 .e) 0x70616e7473 793 (.o (.o .e 0x7061706572 352 .e) 0x7061727479 742 .e))))) 0x7061747561 3202 (.o (.o (.o (.o (.o (.o .e 0x7061756c6f 3203 .e) 0x7061757365 1081 (.o .e 0x70617a6573 3207 .e)) 0x7065616365 330 (.o (.o .e 0x7065616368 1270 .e) 0x706574616c 1489 .e)) 0x70686f6e65 481 (.o (.o (.o .e 0x7069656365 273 .e) 0x706c616365 73 .e) 0x706c61696e 1101 (.o (.o .e 0x706c616e74 723 .e) 0x706c617465 1490 .e))) 0x706f696e74 280 (.o (.o (.o (.o .e 0x706f74726f 3253 .e) 0x706f756e64 857 (.o .e 0x706f75736f 3254 .e)) 0x706f776572 305 (.o (.o .e 0x7072617a6f 3256 .e) 0x7072657373 697 .e)) 0x7072696365 1309 (.o (.o (.o .e 0x7072696465 689 .e) 0x70726f7564 765 .e) 0x70726f7665 725 (.o (.o .e 0x7075646f72 3266 .e) 0x70756c7365 1433 .e)))) 0x70756d6261 3273 (.o (.o (.o (.o (.o .e 0x70756e6368 1434 .e) 0x717565656e 583 (.o .e 0x717569636b 658 .e)) 0x7175696574 345 (.o (.o .e 0x7175697465 317 .e) 0x726164696f 846 .e)) 0x7261666961 3286 (.o (.o (.o .e 0x7261697365 659 .e) 0x7265616368 232 .e) 0x7265616479 334 (.o (.o .e 0x726562656c 1539 .e) 0x72656c6178 1082 .e))) 0x72656c7661 3308 (.o (.o (.o (.o .e 0x7265706c79 884 .e) 0x7268796d65 885 .e) 0x7269666c65 3323 (.o (.o .e 0x72696d656c 3326 .e) 0x7269766572 633 .e)) 0x726f6a616f 3340 (.t (.o (.o .e 0x726f73746f 3346 .e) 0x726f756768 1236 .e) 0x726f79616c 1540 3350 (.o (.o .e 0x7275656c61 3354 .e) 0x727569766f 3357 .e)))))
def v1Tree19 : Tree := .o (.o (.o (.o (.o (.o (.o .e 0x7361667261 3369 .e) 0x7361677569 3370 (.o .e 0x73616c7479 1438 .e)) 0x7361756465 3378 (.o (.o .e 0x7361757661 3379 .e) 0x7363616c65 1541 .e)) 0x7363617279 1542 (.o (.o (.o .e 0x7363656e65 795 .e) 0x7363656e74 946 .e) 0x73636f7265 1347 (.o (.o .e 0x7363726577 1273 .e) 0x7365617261 3385 .e))) 0x73656e7365 361 (.o (.o (.o (.o .e 0x7365727665 1029 .e) 0x736576656e 796 (.o .e 0x7368616465 886 .e)) 0x7368616c6c 294 (.o (.o .e 0x7368616d65 797 .e) 0x7368617065 592 .e)) 0x7368617270 948 (.o (.o (.o .e 0x7368656570 1442 .e) 0x7368656574 860 .e) 0x7368696674 977 (.o (.o .e 0x7368696e65 271 .e) 0x7368696e79 1314 .e)))) 0x7368697274 609 (.o (.o (.o (.o (.o .e 0x73686f636b 926 .e) 0x73686f6f6b 1315 (.o .e 0x73686f6f74 779 .e)) 0x73686f7265 1202 (.o (.o .e 0x73686f7574 575 .e) 0x73686f7665 904 .e)) 0x73686f776e 1395 (.o (.o (.o .e 0x7369647261 3406 .e) 0x73696c6c79 1134 .e) 0x73696c766f 3409 (.o (.o .e 0x73696e6365 290 .e) 0x736972696f 3413 .e))) 0x736976616e 3416 (.o (.o (.o (.o .e 0x736b696c6c 1351 .e) 0x736c656570 187 .e) 0x736c657074 1443 (.t (.o .e 0x736c696365 1494 .e) 0x736c696465 798 3417 .e)) 0x736d616c6c 217 (.o (.o (.o .e 0x736d617274 906 .e) 0x736d656c6c 237 .e) 0x736d696c65 41 (.o (.o .e 0x736d6f6b65 369 .e) 0x736e616b65 1057 .e))))) 0x736e65616b 1276 (.o (.o (.o (.o (.o (.o .e 0x736f67726f 3425 .e) 0x736f6e736f 3429 (.o .e 0x736f70726f 3430 .e)) 0x736f727279 257 (.o (.o .e 0x736f756e64 163 .e) 0x7370616365 502 .e)) 0x737065616b 209 (.o (.o (.o .e 0x7370656564 749 .e) 0x7370656c6c 1495 .e) 0x7370656e64 849 (.o (.o .e 0x7370696c6c 650 .e) 0x7370696e65 1172 .e))) 0x73706c6974 1030 (.o (.o (.o (.o .e 0x73706f7274 1445 .e) 0x7374616765 1397 .e) 0x737461696e 577 (.o (.o .e 0x7374616972 1205 .e) 0x7374616e64 96 .e)) 0x7374617265 162 (.o (.o (.o .e 0x7374617274 85 .e) 0x7374617465 781 .e) 0x737465616c 727 (.o (.o .e 0x737465656c 1138 .e) 0x737469636b 643 .e)))) 0x7374696c6c 22 (.o (.o (.o (.o (.o .e 0x7374696e67 1005 .e) 0x73746f636b 1496 (.o .e 0x73746f6c65 1173 .e)) 0x73746f6e65 467 (.o (.o .e 0x73746f6f64 472 .e) 0x73746f726d 529 .e)) 0x73746f7279 286 (.o (.o (.o .e 0x7374726179 1354 .e) 0x7374726970 1498 .e) 0x737475636b 539 (.o (.o .e 0x7374756479 929 .e) 0x7374756666 728 .e))) 0x7374796c65 1240 (.o (.o (.o (.o .e 0x7375697465 3444 .e) 0x737573746f 3452 .e) 0x7377656172 833 (.o (.o .e 0x7377656174 671 .e) 0x7377656574 194 .e)) 0x7377656c6c 1546 (.o (.o (.o .e 0x7377696e67 713 .e) 0x737769726c 834 .e) 0x73776f7264 888 (.o (.o .e 0x7461626c65 569 .e) 0x7461696e74 1355 .e)))))
def v1Tree20 : Tree := .o v1Tree18 0x727572616c 3362 v1Tree19
def v1Tree21 : Tree := .o v1Tree17 0x6d69676874 192 v1Tree20
def v1Tree22 : Tree := .o (.o (.o (.o (.o (.o (.o .e 0x7461737465 321 .e) 0x7465616368 702 (.o .e 0x7465617365 1209 .e)) 0x7465657468 861 (.o (.o .e 0x746569786f 3479 .e) 0x74656e7565 3482 .e)) 0x7468616e6b 365 (.o (.o (.o .e 0x7468657265 8 .e) 0x746869636b 691 .e) 0x7468696768 1620 (.o (.o .e 0x7468696e67 25 .e) 0x7468696e6b 14 .e))) 0x7468697264 1399 (.o (.o (.o (.o .e 0x74686f726e 1242 .e) 0x74686f7365 52 (.o .e 0x7468726565 241 .e)) 0x7468726577 874 (.o (.o .e 0x7468726f77 384 .e) 0x7468756d70 979 .e)) 0x7469617261 3492 (.o (.o (.o .e 0x7469626961 3493 .e) 0x7469657465 3494 .e) 0x7469676874 435 (.o (.o .e 0x7469726564 314 .e) 0x746f646179 226 .e)))) 0x746f74616c 1622 (.o (.o (.o (.o (.o .e 0x746f756368 156 .e) 0x746f756768 1243 (.o .e 0x746f75726f 3519 .e)) 0x746f776572 1281 (.o (.o .e 0x7472616365 1062 .e) 0x7472616465 1503 .e)) 0x747261696c 931 (.o (.o (.o .e 0x747261696e 910 .e) 0x7472656174 752 .e) 0x747269636b 1032 (.o (.o .e 0x747275636b 980 .e) 0x7472756c79 370 .e))) 0x7472757374 325 (.o (.o (.o (.o .e 0x7472757461 3525 .e) 0x7472757468 168 .e) 0x747572766f 3536 (.o (.o .e 0x7477696365 835 .e) 0x747769726c 1282 .e)) 0x7477697374 482 (.o (.o (.o .e 0x7569737465 3543 .e) 0x756c656d61 3546 .e) 0x756d65726f 3549 (.o (.o .e 0x756d69646f 3550 .e) 0x756e636c65 1211 .e))))) 0x756e646572 205 (.o (.o (.o (.o (.o (.o .e 0x7570736574 1141 .e) 0x7572616e6f 3558 (.o .e 0x7572646972 3560 .e)) 0x7572757065 3569 (.o (.o .e 0x757465726f 3575 .e) 0x7574746572 1447 .e)) 0x766163756f 3580 (.o (.o (.o .e 0x766164696f 3581 .e) 0x76616c7565 1085 .e) 0x766173746f 3590 (.o (.o .e 0x76617a696f 3593 .e) 0x766561646f 3594 .e))) 0x7665727365 1505 (.o (.o (.o (.o .e 0x7665727665 3603 .e) 0x76657a6573 3607 (.o .e 0x7669727573 3620 .e)) 0x7669736974 890 (.o (.o .e 0x766975766f 3623 .e) 0x76697a6972 3625 .e)) 0x766f676172 3629 (.o (.o (.o .e 0x766f696365 159 .e) 0x766f696c65 3630 .e) 0x766f73736f 3635 (.o (.o .e 0x766f7a6573 3639 .e) 0x76756c7661 3640 .e)))) 0x7761697374 1506 (.o (.o (.o (.o (.o .e 0x7761737465 362 .e) 0x7761746368 77 (.o .e 0x7761746572 128 .e)) 0x7765617279 1625 (.o (.o .e 0x7765617665 1556 .e) 0x7765697264 1012 .e)) 0x776865656c 818 (.o (.o (.o .e 0x7768697465 148 .e) 0x77686f6c65 274 .e) 0x7769746368 1507 (.o (.o .e 0x776f6d616e 404 .e) 0x776f6d656e 954 .e))) 0x776f726c64 30 (.o (.o (.o (.o .e 0x776f727279 301 .e) 0x776f727365 520 .e) 0x776f727374 636 (.o (.o .e 0x776f727468 430 .e) 0x776f756e64 637 .e)) 0x7772697374 731 (.o (.o (.o .e 0x7772697465 235 .e) 0x77726f6e67 179 .e) 0x77726f7465 985 (.o (.o .e 0x78616d7075 3645 .e) 0x78616e676f 3646 .e)))))
def v1Tree23 : Tree := .o (.o (.o (.o (.o (.o (.o .e 0x786178696d 3650 .e) 0x7865726f78 3653 (.o .e 0x7869697461 3656 .e)) 0x786f67756d 3662 (.o (.o .e 0x787563726f 3663 .e) 0x796561726e 1245 .e)) 0x796f756e67 222 (.o (.o (.o .e 0x796f757273 474 .e) 0x796f757468 1086 .e) 0x7a756d6269 3673 (.o (.o .e 0x61626a65746f 2052 .e) 0x616275747265 2058 .e))) 0x616363657074 560 (.o (.o (.o (.o .e 0x6163726f7373 225 .e) 0x616374696f6e 956 (.o .e 0x61646d697265 1088 .e)) 0x616476696365 1247 (.o (.o .e 0x61666c756972 2085 .e) 0x616672616964 318 .e)) 0x6166746f7361 2088 (.o (.o (.o .e 0x61696d6f7265 2094 .e) 0x6169726f736f 2097 .e) 0x616a75737465 2101 (.o (.o .e 0x616c617a616f 2102 .e) 0x616c67756e73 2108 .e)))) 0x616c6976696f 2110 (.o (.o (.o (.o (.o .e 0x616c6d6f7374 256 .e) 0x616c74757261 2116 (.o .e 0x616c76757261 2118 .e)) 0x616c77617973 29 (.o (.o .e 0x616e666f7261 2129 .e) 0x616e696d616c 681 .e)) 0x616e6f746172 2132 (.o (.o (.o .e 0x616e73776572 296 .e) 0x616e796f6e65 357 .e) 0x616e79776179 507 (.o (.o .e 0x617070656172 618 .e) 0x617072756d6f 2144 .e))) 0x617075726f73 2146 (.o (.o (.o (.o .e 0x6171756f736f 2147 .e) 0x61726175746f 2148 .e) 0x617265737461 2151 (.o (.o .e 0x61726775746f 2153 .e) 0x61726f756e64 53 .e)) 0x6172706f6172 2158 (.o (.o (.o .e 0x617272697665 1285 .e) 0x61736c656570 891 .e) 0x61737475746f 2170 (.o (.o .e 0x61747461636b 1013 .e) 0x6175726f7261 2183 .e))))) 0x617574756172 2184 (.o (.o (.o (.o (.o (.o .e 0x617574756d6e 1249 .e) 0x617661746172 2185 (.o .e 0x617665786172 2186 .e)) 0x6176756c736f 2189 (.o (.o .e 0x6177616b656e 1454 .e) 0x626172656c79 638 .e)) 0x626174746c65 469 (.o (.o (.o .e 0x626174757461 2207 .e) 0x62617661726f 2209 .e) 0x62617a756361 2210 (.o (.o .e 0x62656174656e 1455 .e) 0x626561757479 267 .e))) 0x626563616d65 604 (.o (.o (.o (.o .e 0x6265636f6d65 212 .e) 0x6265666f7265 66 .e) 0x626568696e64 126 (.o (.o .e 0x62656c696566 1456 .e) 0x62656c6f6e67 682 .e)) 0x62656f63696f 2220 (.o (.o (.o .e 0x626571756572 2221 .e) 0x626573696465 716 .e) 0x626574746572 113 (.o (.o .e 0x626574756d65 2224 .e) 0x626578696761 2225 .e)))) 0x6265796f6e64 485 (.o (.o (.o (.o (.o .e 0x6269626f6361 2228 .e) 0x6269656e696f 2231 (.o .e 0x626974746572 837 .e)) 0x626974756361 2242 (.o (.o .e 0x626c6f6e6465 802 .e) 0x626c6f6f6479 1364 .e)) 0x626c7573616f 2250 (.o (.o (.o .e 0x626f66657465 2252 .e) 0x626f6a75646f 2253 .e) 0x626f74686572 732 (.o (.o .e 0x626f74696e61 2257 .e) 0x626f74746c65 639 .e))) 0x626f74746f6d 733 (.o (.o (.o (.o .e 0x626f75676874 892 .e) 0x626f756e6365 1326 .e) 0x626f76696e6f 2262 (.o (.o .e 0x6272616e6368 961 .e) 0x627265617374 1090 .e)) 0x627265617468 198 (.o (.o (.o .e 0x627265657a65 534 .e) 0x627269646765 1327 .e) 0x627269676874 298 (.o (.o .e 0x627269746172 2266 .e) 0x62726f6b656e 173 .e)))))
def v1Tree24 : Tree := .o v1Tree22 0x786175616c 3648 v1Tree23
def v1Tree25 : Tree := .o (.o (.o (.o (.o (.o (.o .e 0x627275697365 1091 .e) 0x627562626c65 1408 (.o .e 0x62756569726f 2274 .e)) 0x627566666572 2275 (.o (.o .e 0x62756c6c6574 1065 .e) 0x62757264656e 1365 .e)) 0x627574746f6e 1147 (.o (.o (.o .e 0x62757a696f73 2282 .e) 0x636166757a6f 2286 .e) 0x63616e646c65 1116 (.o (.o .e 0x63616e75646f 2289 .e) 0x63616e766173 1214 .e))) 0x636172657373 867 (.o (.o (.o (.o .e 0x636173756c6f 2292 .e) 0x636175676874 419 (.o .e 0x636564756c61 2296 .e)) 0x63656e746572 893 (.o (.o .e 0x6365727a6972 2299 .e) 0x6368616e6365 311 .e)) 0x6368616e6765 117 (.o (.o (.o .e 0x636865657365 1459 .e) 0x63686f696365 578 .e) 0x63686f6f7365 510 (.o (.o .e 0x636875726368 769 .e) 0x636963757461 2311 .e)))) 0x636966726172 2314 (.o (.o (.o (.o (.o .e 0x636972636c65 652 .e) 0x636c6f736574 803 (.o .e 0x636c75746368 1217 .e)) 0x636f62726972 2331 (.o (.o .e 0x636f636f7461 2332 .e) 0x636f66666565 1117 .e)) 0x636f6d6d6974 1218 (.o (.o (.o .e 0x636f6d6d6f6e 1566 .e) 0x636f6f6b6965 1289 .e) 0x636f726e6572 393 (.o (.o .e 0x636f75706c65 1093 .e) 0x636f75727365 388 .e))) 0x636f7573696e 1118 (.o (.o (.o (.o .e 0x636f77617264 1568 .e) 0x637265617465 437 .e) 0x63726973746f 2351 (.o (.o .e 0x6372757a6573 2354 .e) 0x637563756961 2356 .e)) 0x63756569726f 2357 (.o (.o (.o .e 0x637569646172 2358 .e) 0x637570756c61 2362 .e) 0x6461626c696f 2367 (.o (.o .e 0x6461636f7461 2368 .e) 0x64616e676572 1570 .e))))) 0x64617365696e 2377 (.o (.o (.o (.o (.o (.o .e 0x64617469766f 2378 .e) 0x646561646c79 1571 (.o .e 0x646563696465 371 .e)) 0x646565706c79 1152 (.o (.o .e 0x646566656174 1371 .e) 0x646566696e65 1573 .e)) 0x64656a65746f 2385 (.o (.o (.o .e 0x64656d616e64 1181 .e) 0x646570656e64 1574 .e) 0x646573657274 1120 (.o (.o .e 0x646573697265 394 .e) 0x6465766f746f 2395 .e))) 0x64696675736f 2402 (.o (.o (.o (.o .e 0x64696e6e6572 988 .e) 0x646975726e6f 2413 (.o .e 0x646f63746f72 839 .e)) 0x646f63757261 2418 (.o (.o .e 0x646f6c6f736f 2422 .e) 0x646f70696e67 2425 .e)) 0x646f7273616c 2426 (.o (.o (.o .e 0x646f73736965 2427 .e) 0x646f75626c65 1373 .e) 0x646f7574726f 2429 (.t (.o .e 0x647261676f6e 1520 .e) 0x647269766572 1375 2433 .e)))) 0x64726f706573 2434 (.o (.o (.o (.o (.o .e 0x6475626e696f 2436 .e) 0x64756c696a61 2439 (.o .e 0x64756e64756d 2440 .e)) 0x647572696e67 1070 (.o (.o .e 0x656173696c79 878 .e) 0x65636c757361 2450 .e)) 0x65637a656d61 2454 (.o (.o (.o .e 0x6566666f7274 1156 .e) 0x656669676965 2460 .e) 0x656974686572 588 (.o (.o .e 0x656a65746172 2469 .e) 0x656c69786972 2472 .e))) 0x656d69746972 2480 (.o (.o (.o (.o .e 0x656d7075786f 2482 .e) 0x656e6475726f 2486 .e) 0x656e65726779 915 (.o (.o .e 0x656e67696e65 1581 .e) 0x656e6f756768 155 .e)) 0x656e74697265 1157 (.o (.o (.o .e 0x656e7875746f 2501 .e) 0x656f6c69636f 2503 .e) 0x65726172696f 2508 (.o (.o .e 0x657363617065 378 .e) 0x65736775696f 2521 .e)))))
def v1Tree26 : Tree := .o (.o (.o (.o (.o (.o (.o .e 0x657465726e6f 2532 .e) 0x65756e75636f 2540 (.o .e 0x657863657074 544 .e)) 0x657863757365 787 (.o (.o .e 0x657870656374 629 .e) 0x6578756d6172 2557 .e)) 0x666169786173 2562 (.o (.o (.o .e 0x66616a75746f 2563 .e) 0x66616d696c79 213 .e) 0x66616d6f736f 2565 (.o (.o .e 0x666170657370 2567 .e) 0x666171756972 2568 .e))) 0x66617374696f 2570 (.o (.o (.o (.o .e 0x666174686572 218 .e) 0x66617573746f 2572 (.o .e 0x66656272696c 2577 .e)) 0x66656c697065 2583 (.o (.o .e 0x66656c74726f 2584 .e) 0x66696173636f 2593 .e)) 0x666967757265 515 (.o (.o (.o .e 0x66696c74726f 2601 .e) 0x66696e676572 279 .e) 0x66696e697368 597 (.o (.o .e 0x66696e757261 2602 .e) 0x66696f726465 2603 .e)))) 0x666971756569 2604 (.o (.o (.o (.o (.o .e 0x666972756c61 2605 .e) 0x666976656c61 2608 (.o .e 0x666c6176696f 2610 .e)) 0x666c65786f72 2611 (.o (.o .e 0x666c69676874 992 .e) 0x666c6f776572 545 .e)) 0x666f66757261 2617 (.o (.o (.o .e 0x666f6c6c6f77 304 .e) 0x666f72657374 686 .e) 0x666f72676574 177 (.o (.o .e 0x666f72676f74 718 .e) 0x666f726d6572 1527 .e))) 0x666f75676874 1020 (.o (.o (.o (.o .e 0x667265656c79 1585 .e) 0x667265657a65 1419 .e) 0x667269656e64 32 (.o (.o .e 0x667269676874 1528 .e) 0x66726f75786f 2630 .e)) 0x66726f7a656e 1122 (.o (.o (.o .e 0x667563736961 2633 .e) 0x6675696e6861 2635 .e) 0x667574757265 422 (.o (.o .e 0x66757869636f 2643 .e) 0x67617264656e 1421 .e))))) 0x676174686572 826 (.o (.o (.o (.o (.o (.o .e 0x676174756e6f 2657 .e) 0x67617669616f 2659 (.o .e 0x676178657461 2660 .e)) 0x676569736572 2663 (.o (.o .e 0x67656e746c65 625 .e) 0x67656e746c79 747 .e)) 0x676967676c65 1475 (.o (.o (.o .e 0x6769676f6c6f 2672 .e) 0x67696c657465 2673 .e) 0x676c616e6365 580 (.o (.o .e 0x676f73746f75 2690 .e) 0x676f7474656e 1160 .e))) 0x67726f756e64 215 (.o (.o (.o (.o .e 0x6775696c7479 1589 .e) 0x677569746172 1381 .e) 0x67756c6f736f 2704 (.o (.o .e 0x68616e646c65 810 .e) 0x68617070656e 127 .e)) 0x686172646c79 1074 (.o (.o (.o .e 0x686174726564 1230 .e) 0x6865616c7468 1590 .e) 0x68656176656e 309 (.o (.o .e 0x686562726575 2719 .e) 0x686567697261 2722 .e)))) 0x68656c656e61 2723 (.o (.o (.o (.o (.o .e 0x68696464656e 486 .e) 0x686970706965 2742 (.o .e 0x686f6c6c6f77 998 .e)) 0x686f6e657374 969 (.o (.o .e 0x686f71756569 2751 .e) 0x68756e676572 918 .e)) 0x68756e677279 1384 (.o (.o (.o .e 0x69676e6f7265 470 .e) 0x696772656a61 2781 .e) 0x696d6572736f 2792 (.o (.o .e 0x696d6f76656c 2794 .e) 0x696e64656564 1385 .e))) 0x696e68616c65 1594 (.o (.o (.o (.o .e 0x696e68616d65 2803 .e) 0x696e6971756f 2804 .e) 0x696e6e696e67 2806 (.o (.o .e 0x696e73616e65 899 .e) 0x696e73696465 107 .e)) 0x696e73756c74 1297 (.o (.o (.o .e 0x696e76697465 1533 .e) 0x696f72756261 2818 .e) 0x69726d616f73 2824 (.o (.o .e 0x6973656e746f 2828 .e) 0x697473656c66 648 .e)))))
def v1Tree27 : Tree := .o v1Tree25 0x65746172696f 2531 v1Tree26
def v1Tree28 : Tree := .o v1Tree24 0x62726f786172 2267 v1Tree27
def v1Tree29 : Tree := .o v1Tree21 0x74616b656e 488 v1Tree28
def v1Tree30 : Tree := .o v1Tree14 0x646f756274 579 v1Tree29
def v1Tree31 : Tree := .o (.o (.o (.o (.o (.o (.o .e 0x6a61736d696d 2851 .e) 0x6a6572736569 2862 (.o .e 0x6a69626f6961 2865 .e)) 0x6a696e676c65 2868 (.o (.o .e 0x6a6f636f736f 2870 .e) 0x6a6f656c686f 2871 .e)) 0x6a6f6a6f6261 2874 (.o (.o (.o .e 0x6a75646f6361 2880 .e) 0x6a756a756261 2883 .e) 0x6a7572757275 2887 (.o (.o .e 0x6c6167756e61 2892 .e) 0x6c616a6f7461 2894 .e))) 0x6c617374726f 2898 (.o (.o (.o (.o .e 0x6c6176726172 2900 .e) 0x6c656d757265 2910 (.o .e 0x6c6570746f6e 2914 .e)) 0x6c6573736f6e 1046 (.o (.o .e 0x6c6574746572 708 .e) 0x6c6875666173 2922 .e)) 0x6c696e676572 812 (.o (.o (.o .e 0x6c6971756964 1165 .e) 0x6c697374656e 206 .e) 0x6c6973757261 2932 (.o (.o .e 0x6c6974746c65 48 .e) 0x6c6976726f73 2934 .e)))) 0x6c6f62756c6f 2936 (.o (.o (.o (.o (.o .e 0x6c6f6e656c79 438 .e) 0x6c6f6e747261 2942 (.o .e 0x6c6f7175617a 2944 .e)) 0x6c6f726f7461 2945 (.o (.o .e 0x6c6f75766f72 2948 .e) 0x6c6f76656c79 789 .e)) 0x6c7563726f73 2951 (.o (.o (.o .e 0x6c756e657461 2955 .e) 0x6d616475726f 2961 .e) 0x6d616d757465 2968 (.o (.o .e 0x6d616e616765 1535 .e) 0x6d6173746572 656 .e))) 0x6d6174746572 149 (.o (.o (.o (.o .e 0x6d617475746f 2974 .e) 0x6d6178697865 2977 .e) 0x6d6564757361 2981 (.o (.o .e 0x6d6567657261 2983 .e) 0x6d656c6f6479 1387 .e)) 0x6d656d6f7279 186 (.o (.o (.o .e 0x6d6964646c65 631 .e) 0x6d6967687479 1481 .e) 0x6d696d6f7361 2998 (.o (.o .e 0x6d696e757465 383 .e) 0x6d696e75746f 2999 .e))))) 0x6d6972726f72 457 (.o (.o (.o (.o (.o (.o .e 0x6d6973657279 1048 .e) 0x6d6975646f73 3004 (.o .e 0x6d6f6167656d 3007 .e)) 0x6d6f64756c6f 3009 (.o (.o .e 0x6d6f6d656e74 157 .e) 0x6d6f6e6b6579 1388 .e)) 0x6d6f73746c79 1301 (.o (.o (.o .e 0x6d6f74686572 181 .e) 0x6d6f74696f6e 999 .e) 0x6d6f7472697a 3019 (.o (.o .e 0x6d7561727261 3023 .e) 0x6d7569746f73 3027 .e))) 0x6d756d626c65 1600 (.o (.o (.o (.o .e 0x6d7572646572 1195 .e) 0x6d7572726f73 3032 (.o .e 0x6d7573636c65 900 .e)) 0x6d7574746572 1601 (.o (.o .e 0x6d7973656c66 61 .e) 0x6e61636f6573 3034 .e)) 0x6e616c67756d 3040 (.o (.o (.o .e 0x6e616d6f726f 3041 .e) 0x6e6174696f6e 1389 .e) 0x6e6174757265 574 (.o (.o .e 0x6e6176696f73 3047 .e) 0x6e6561726c79 1303 .e)))) 0x6e6565646c65 1304 (.o (.o (.o (.o (.o .e 0x6e656c6f7265 3053 .e) 0x6e6574756e6f 3058 (.o .e 0x6e686f717565 3064 .e)) 0x6e696f62696f 3068 (.o (.o .e 0x6e69766f736f 3074 .e) 0x6e6f626f6479 601 .e)) 0x6e6f6369766f 3076 (.o (.o (.o .e 0x6e6f726d616c 882 .e) 0x6e6f74696365 269 .e) 0x6e75616e6361 3087 (.o (.o .e 0x6e75626c6172 3088 .e) 0x6e756d626572 670 .e))) 0x6e7576656e73 3096 (.o (.o (.o (.o .e 0x6f626a656374 1390 .e) 0x6f627475736f 3106 .e) 0x6f63696f736f 3112 (.o (.o .e 0x6f666964696f 3123 .e) 0x6f6967616c65 3127 .e)) 0x6f697461766f 3128 (.o (.o (.o .e 0x6f6c61726961 3131 .e) 0x6f6c656f736f 3132 .e) 0x6f6c6661746f 3133 (.o (.o .e 0x6f6d69746972 3141 .e) 0x6f706f73746f 3154 .e)))))
def v1Tree32 : Tree := .o (.o (.o (.o (.o (.o (.o .e 0x6f7363756c6f 3168 .e) 0x6f737375646f 3170 (.o .e 0x6f746172696f 3172 .e)) 0x6f766172696f 3178 (.o (.o .e 0x6f78656e7465 3185 .e) 0x6f786975726f 3186 .e)) 0x6f786f737369 3187 (.o (.o (.o .e 0x70616978616f 3194 .e) 0x70616d706173 3197 .e) 0x70617075646f 3199 (.o (.o .e 0x706172656e74 434 .e) 0x70656761736f 3211 .e))) 0x70656c766973 3214 (.o (.o (.o (.o .e 0x70656e63696c 1488 .e) 0x70656f706c65 55 (.o .e 0x706571756e6f 3216 .e)) 0x706572736f6e 211 (.o (.o .e 0x70657a616461 3218 .e) 0x706965726365 944 .e)) 0x70696572726f 3221 (.o (.o (.o .e 0x7069676d6575 3222 .e) 0x70696a616d61 3223 .e) 0x70696c6c6f77 973 (.o (.o .e 0x70696f726172 3227 .e) 0x7069786f7465 3234 .e)))) 0x706c616e6574 1102 (.o (.o (.o (.o (.o .e 0x706c65617365 152 .e) 0x706c6f746172 3237 (.o .e 0x706f636b6574 902 .e)) 0x706f65747279 1198 (.o (.o .e 0x706f67726f6d 3243 .e) 0x706f69736f6e 975 .e)) 0x706f6e646572 1491 (.o (.o (.o .e 0x706f71756572 3250 .e) 0x706f72766972 3251 .e) 0x706f7375646f 3252 (.o (.o .e 0x706f766f6172 3255 .e) 0x707261697365 1272 .e))) 0x707261796572 924 (.o (.o (.o (.o .e 0x707265666572 1607 .e) 0x707265747479 349 .e) 0x7072657a6172 3257 (.o (.o .e 0x7072696e6365 1199 .e) 0x70756572696c 3267 .e)) 0x707572706c65 873 (.o (.o (.o .e 0x707574736368 3277 .e) 0x70757a7a6c65 1344 .e) 0x726162626974 1200 (.o (.o .e 0x72616a61646f 3288 .e) 0x72616e646f6d 1131 .e))))) 0x726170746f72 3292 (.o (.o (.o (.o (.o (.o .e 0x726174686572 591 .e) 0x7265616c6c79 64 (.o .e 0x726561736f6e 231 .e)) 0x726563616c6c 1103 (.o (.o .e 0x726566757365 859 .e) 0x726567726574 641 .e)) 0x72656d61696e 428 (.o (.o (.o .e 0x72656d696e64 397 .e) 0x72656d6f7665 1310 .e) 0x726570656174 847 (.o (.o .e 0x72657075786f 3312 .e) 0x726573756d6f 3314 .e))) 0x72657475726e 331 (.o (.o (.o (.o .e 0x72657665616c 726 .e) 0x72687974686d 1132 .e) 0x72696163686f 3319 (.o (.o .e 0x7269636f7461 3321 .e) 0x726970706c65 1026 .e)) 0x726f636f636f 3336 (.o (.o (.o .e 0x727563756c61 3352 .e) 0x7275676f736f 3356 .e) 0x72756e69636f 3360 (.o (.o .e 0x736162756a6f 3366 .e) 0x73616e697479 1027 .e)))) 0x736176696f72 1441 (.o (.o (.o (.o (.o .e 0x7363686f6f6c 191 .e) 0x736372617065 1613 (.o .e 0x73637265616d 160 .e)) 0x73637265656e 1003 (.o (.o .e 0x736372697074 3384 .e) 0x736561726368 417 .e)) 0x736561736f6e 1004 (.o (.o (.o .e 0x7365636f6e64 233 .e) 0x736563726574 276 .e) 0x736563757261 3387 (.o (.o .e 0x73656775726f 3390 .e) 0x73656c766173 3392 .e))) 0x73656d707265 3393 (.o (.o (.o (.o .e 0x736574746c65 1133 .e) 0x736861646f77 275 .e) 0x7368616c6f6d 3402 (.o (.o .e 0x736869656c64 1274 .e) 0x736869766572 1083 .e)) 0x73686f756c64 108 (.o (.o (.o .e 0x73686f776572 1203 .e) 0x7369616d6573 3403 .e) 0x7369676e6f73 3408 (.o (.o .e 0x73696c656e74 443 .e) 0x73696c766572 698 .e)))))
def v1Tree33 : Tree := .o v1Tree31 0x6f72616e6765 831 v1Tree32
def v1Tree34 : Tree := .o (.o (.o (.o (.o (.o (.o .e 0x73696d706c79 538 .e) 0x73696e676c65 501 (.o .e 0x736973746572 406 .e)) 0x73697375646f 3414 (.o (.o .e 0x736974756172 3415 .e) 0x736c69676874 1544 .e)) 0x736c6f67616e 3418 (.o (.o (.o .e 0x736c6f776c79 234 .e) 0x736d6f6f7468 660 .e) 0x736f6272696f 3420 (.o (.o .e 0x736f6369616c 1444 .e) 0x736f66746c79 780 .e))) 0x736f6c766572 3427 (.o (.o (.o (.o .e 0x736f6f746865 1204 .e) 0x736f72726f77 425 (.o .e 0x737069646572 928 .e)) 0x73706972616c 1614 (.o (.o .e 0x737069726974 471 .e) 0x73706f6b656e 1137 .e)) 0x737072656164 594 (.o (.o (.o .e 0x737072696e67 950 .e) 0x737175617265 1353 .e) 0x737465616479 1206 (.o (.o .e 0x73746f6c656e 1317 .e) 0x73747261696e 1616 .e)))) 0x73747265616d 690 (.o (.o (.o (.o (.o .e 0x737472656574 277 .e) 0x737472657373 909 (.o .e 0x737472696665 1497 .e)) 0x737472696b65 1006 (.o (.o .e 0x737472696e67 1031 .e) 0x7374726f6b65 1059 .e)) 0x7374726f6e67 204 (.o (.o (.o .e 0x737475706964 473 .e) 0x73756464656e 1084 .e) 0x737566666572 519 (.o (.o .e 0x73756c74616f 3446 .e) 0x73756d6d6572 558 .e))) 0x73756d756c61 3447 (.o (.o (.o (.o .e 0x73756e736574 1617 .e) 0x737572656c79 744 .e) 0x737572756261 3451 (.o (.o .e 0x746166657461 3458 .e) 0x74616c656e74 1547 .e)) 0x74616c76657a 3461 (.o (.o (.o .e 0x74616e676c65 1208 .e) 0x746170756d65 3465 .e) 0x74617275676f 3467 (.o (.o .e 0x746173636172 3468 .e) 0x746174756172 3469 .e))))) 0x746175676874 701 (.o (.o (.o (.o (.o (.o .e 0x7461766f6c61 3471 .e) 0x7465666c6f6e 3477 (.o .e 0x74656e646572 1501 .e)) 0x74657069646f 3484 (.o (.o .e 0x746572726f72 1174 .e) 0x74657875676f 3491 .e)) 0x746872656164 1550 (.o (.o (.o .e 0x7468726f6174 585 .e) 0x7468726f6e65 1621 .e) 0x7468726f776e 1280 (.o (.o .e 0x7469636b6c65 1400 .e) 0x74696a6f6c6f 3497 .e))) 0x74697369636f 3503 (.o (.o (.o (.o .e 0x746f626f6761 3507 .e) 0x746f6e677565 559 (.o .e 0x746f7175696f 3515 .e)) 0x746f73746172 3517 (.o (.o .e 0x746f77617264 400 .e) 0x746f78696e61 3520 .e)) 0x74726176656c 751 (.o (.o (.o .e 0x7472617a6572 3521 .e) 0x747563616e6f 3528 .e) 0x747569737465 3531 (.o (.o .e 0x74756c697061 3532 .e) 0x74756d626c65 1140 .e)))) 0x7477656e7479 982 (.o (.o (.o (.o (.o .e 0x756d6c617574 3551 .e) 0x756e61626c65 983 (.o .e 0x756e6573636f 3553 .e)) 0x756e6c657373 661 (.o (.o .e 0x756e6c696b65 1008 .e) 0x756e7365656e 1623 .e)) 0x757262616e6f 3559 (.o (.o (.o .e 0x757265747261 3561 .e) 0x7572696e6f6c 3563 .e) 0x757274696761 3568 (.o (.o .e 0x75736176656c 3570 .e) 0x7576756c6172 3578 .e))) 0x76616976656d 3583 (.o (.o (.o (.o .e 0x76616c6c6579 1448 .e) 0x76656469636f 3595 .e) 0x76656c75646f 3600 (.o (.o .e 0x76656c766574 1504 .e) 0x76696176656c 3608 .e)) 0x76696374696d 1009 (.o (.o (.o .e 0x766963746f72 3610 .e) 0x766964726f73 3612 .e) 0x76696e74656d 3617 (.o (.o .e 0x766973696f6e 714 .e) 0x766f6c756d65 1010 .e)))))
def v1Tree35 : Tree := .o (.o (.o (.o (.o (.o (.o .e 0x766f6d69746f 3632 .e) 0x77616e646572 662 (.o .e 0x7761726d7468 603 .e)) 0x776561706f6e 1624 (.o (.o .e 0x776569676874 635 .e) 0x77696e646f77 322 .e)) 0x77696e746572 768 (.o (.o (.o .e 0x77697468696e 278 .e) 0x776f6e646572 119 .e) 0x78616472657a 3643 (.o (.o .e 0x7861726f7065 3647 .e) 0x786963617261 3654 .e))) 0x78696e78696d 3658 (.o (.o (.o (.o .e 0x79656c6c6f77 611 .e) 0x7a616e7a6172 3667 (.o .e 0x7a6172706172 3668 .e)) 0x7a656669726f 3670 (.o (.o .e 0x7a656c6f736f 3671 .e) 0x7a656e697465 3672 .e)) 0x616261756c6172 2048 (.o (.o (.o .e 0x61626c7563616f 2053 .e) 0x61626e65676172 2054 .e) 0x61626f746f6172 2055 (.o (.o .e 0x6162737572646f 2057 .e) 0x616365746f6e61 2061 .e)))) 0x61636972726172 2063 (.o (.o (.o (.o (.o .e 0x61646a756e746f 2072 .e) 0x61646f7469766f 2075 (.o .e 0x616475746f7261 2079 .e)) 0x6164766f676172 2080 (.o (.o .e 0x616761696e7374 200 .e) 0x6167656e746573 2090 .e)) 0x616961746f6c61 2093 (.o (.o (.o .e 0x616a6569746172 2098 .e) 0x616c63756e6861 2104 .e) 0x616c6567726961 2105 (.o (.o .e 0x616c6875726573 2109 .e) 0x616c7069737465 2113 .e))) 0x616c7265616479 264 (.o (.o (.o (.o .e 0x616c757669616f 2117 .e) 0x616d7572616461 2125 .e) 0x616e6369656e74 957 (.o (.o .e 0x616e636f726172 2127 .e) 0x616e6f74686572 115 .e)) 0x616e73696f736f 2133 (.o (.o (.o .e 0x616e747572696f 2134 .e) 0x616e7576696172 2135 .e) 0x616e766572736f 2136 (.o (.o .e 0x616e796d6f7265 258 .e) 0x6172627573746f 2149 .e))))) 0x6172717569766f 2159 (.o (.o (.o (.o (.o (.o .e 0x617272756d6172 2160 .e) 0x617273656e696f 2161 (.o .e 0x61727561717565 2163 .e)) 0x6172766f726573 2164 (.o (.o .e 0x6173626573746f 2165 .e) 0x617368616d6564 1559 .e)) 0x617474656d7074 958 (.o (.o (.o .e 0x61747572646972 2177 .e) 0x6175646976656c 2178 .e) 0x61756665726972 2179 (.o (.o .e 0x6175677573746f 2180 .e) 0x61756d656e746f 2182 .e))) 0x61776b77617264 1143 (.o (.o (.o (.o .e 0x617a696d757465 2192 .e) 0x617a756c656a6f 2194 .e) 0x626169786f7465 2198 (.o (.o .e 0x62616a756c6172 2199 .e) 0x62616c616e6365 1177 .e)) 0x62617175657461 2204 (.o (.o (.o .e 0x626172756c686f 2205 .e) 0x62617578697461 2208 .e) 0x626564726f6f6d 1362 (.o (.o .e 0x62656475696e6f 2213 .e) 0x6265676f6e6961 2214 .e)))) 0x62656c69657665 90 (.o (.o (.o (.o (.o .e 0x62656c7a656275 2217 .e) 0x62656e65617468 340 (.o .e 0x62656e7a69646f 2219 .e)) 0x6265747765656e 202 (.o (.o .e 0x62657a6572726f 2226 .e) 0x626961746c6f6e 2227 .e)) 0x6269676f726e61 2233 (.o (.o (.o .e 0x62696d6f746f72 2235 .e) 0x62696f7869646f 2237 .e) 0x62697175696e69 2239 (.o (.o .e 0x62697374757269 2241 .e) 0x626976616c7665 2244 .e))) 0x62697a6172726f 2245 (.o (.o (.o (.o .e 0x626c616e6b6574 838 .e) 0x626c696e646172 2248 .e) 0x626c6f73736f6d 1325 (.o (.o .e 0x626f617a756461 2251 .e) 0x626f7572626f6e 2261 .e)) 0x62726176757261 2264 (.o (.o (.o .e 0x62726561746865 244 .e) 0x62726f74686572 259 .e) 0x62756469737461 2273 (.o (.o .e 0x62757469717565 2281 .e) 0x63616275717569 2284 .e)))))
def v1Tree36 : Tree := .o v1Tree34 0x766f6c766572 3631 v1Tree35
def v1Tree37 : Tree := .o v1Tree33 0x73696d706c65 356 v1Tree36
def v1Tree38 : Tree := .o (.o (.o (.o (.o (.o (.o .e 0x63616d75726361 2288 .e) 0x63617074757265 1253 (.o .e 0x6361726566756c 1366 .e)) 0x63617475616261 2293 (.o (.o .e 0x6365696c696e67 1458 .e) 0x6365727461696e 1410 .e)) 0x63686176656e61 2304 (.o (.o (.o .e 0x63686f7669646f 2307 .e) 0x636875766f736f 2308 .e) 0x6369617469636f 2309 (.o (.o .e 0x6369676172726f 2315 .e) 0x6369747269636f 2323 .e))) 0x63697669736d6f 2325 (.o (.o (.o (.o .e 0x636c6561726c79 1037 .e) 0x636c6f74686573 674 (.o .e 0x636c7573746572 2329 .e)) 0x636f617869616c 2330 (.o (.o .e 0x636f6c6c656374 1180 .e) 0x636f6c6c656765 823 .e)) 0x636f6c7573616f 2337 (.o (.o (.o .e 0x636f6d666f7274 460 .e) 0x636f6d70616e79 1567 .e) 0x636f6d70617265 1367 (.o (.o .e 0x636f6e6365726e 1368 .e) 0x636f6e66757365 542 .e)))) 0x636f6e6e656374 1039 (.o (.o (.o (.o (.o .e 0x636f6e73756d65 684 .e) 0x636f6e74656e74 868 (.o .e 0x636f6e74726f6c 454 .e)) 0x636f727265746f 2344 (.o (.o .e 0x636f746f766961 2347 .e) 0x636f756e747279 511 .e)) 0x636f7572616765 1291 (.o (.o (.o .e 0x63726561746f72 1515 .e) 0x63726574696e6f 2350 .e) 0x6372696d736f6e 1219 (.o (.o .e 0x63726f74616c6f 2353 .e) 0x6372756d626c65 1329 .e))) 0x6372797374616c 1220 (.o (.o (.o (.o .e 0x6375727461696e 1369 .e) 0x637573746f736f 2364 .e) 0x63757475636172 2365 (.o (.o .e 0x64616d69737461 2373 .e) 0x64617175696c6f 2375 .e)) 0x6461726c696e67 1069 (.o (.o (.o .e 0x6465637572736f 2381 .e) 0x646564757a6972 2382 .e) 0x646566656e7365 1572 (.o (.o .e 0x646566756e746f 2383 .e) 0x64656c69676874 1221 .e))))) 0x64656d6f766572 2387 (.o (.o (.o (.o (.o (.o .e 0x64657072657373 964 .e) 0x64657276697865 2391 (.o .e 0x64657363656e64 1331 .e)) 0x64657365727665 628 (.o (.o .e 0x64657370616972 1019 .e) 0x64657370697465 870 .e)) 0x64657374726f79 572 (.o (.o (.o .e 0x64657a6f69746f 2397 .e) 0x6469616d6f6e64 1414 .e) 0x64696c7576696f 2404 (.o (.o .e 0x64696f7869646f 2408 .e) 0x64697374616e74 871 .e))) 0x64697a6976656c 2415 (.o (.o (.o (.o .e 0x646f6e7a656c61 2424 .e) 0x647265616d6572 1374 (.o .e 0x64756f64656e6f 2441 .e)) 0x64757175657361 2442 (.o (.o .e 0x656275726e656f 2448 .e) 0x65636861727065 2449 .e)) 0x65647265646f6d 2457 (.o (.o (.o .e 0x65666574756172 2459 .e) 0x65666c7576696f 2461 .e) 0x6567726573736f 2463 (.o (.o .e 0x656d6272616365 421 .e) 0x656d6275746972 2477 .e)))) 0x656d657269746f 2478 (.o (.o (.o (.o (.o .e 0x656d6f74696f6e 344 .e) 0x656d6f7469766f 2481 (.o .e 0x656d756c73616f 2483 .e)) 0x656e646c657373 646 (.o (.o .e 0x656e65766f6172 2487 .e) 0x656e677569636f 2489 .e)) 0x656e6c75746172 2492 (.o (.o (.o .e 0x656e7275676172 2497 .e) 0x6570697465746f 2504 .e) 0x6572677569646f 2511 (.o (.o .e 0x6572757063616f 2516 .e) 0x657276696c6861 2517 .e))) 0x65736375746172 2519 (.o (.o (.o (.o .e 0x6573707572696f 2527 .e) 0x657373656e6365 1467 .e) 0x657465726e616c 991 (.o (.o .e 0x6574727573636f 2536 .e) 0x6575726f70696f 2541 .e)) 0x6576617369766f 2544 (.o (.o (.o .e 0x6576656e696e67 1377 .e) 0x65766f6c756972 2547 .e) 0x65786163746c79 939 (.o (.o .e 0x6578616d706c65 1582 .e) 0x65786f7469636f 2553 .e)))))
def v1Tree39 : Tree := .o (.o (.o (.o (.o (.o (.o .e 0x6578706c6f6465 940 .e) 0x6578706c6f7265 1583 (.o .e 0x65787072657373 1224 .e)) 0x6578707572676f 2554 (.o (.o .e 0x65787375646172 2555 .e) 0x666167756c6861 2561 .e)) 0x66616c746f736f 2564 (.o (.o (.o .e 0x66616e74617379 856 .e) 0x66616e7a696e65 2566 .e) 0x66617274757261 2569 (.o (.o .e 0x66656174686572 1259 .e) 0x666563756e646f 2578 .e))) 0x6665657269636f 2580 (.o (.o (.o (.o .e 0x66657276757261 2587 .e) 0x6665737469766f 2588 (.o .e 0x66657a696e6861 2592 .e)) 0x66696a69616e6f 2600 (.o (.o .e 0x66696e616c6c79 223 .e) 0x666c69636b6572 1379 .e)) 0x666c7574746572 1121 (.o (.o (.o .e 0x666f6d696e6861 2621 .e) 0x666f7265766572 132 .e) 0x666f7267697665 737 (.o (.o .e 0x666f7277617264 524 .e) 0x66726167696c65 1072 .e)))) 0x66726565646f6d 774 (.o (.o (.o (.o (.o .e 0x667269766f6c6f 2629 .e) 0x667275746f7365 2631 (.o .e 0x66757274686572 943 .e)) 0x6761627269656c 2645 (.o (.o .e 0x6761656c69636f 2647 .e) 0x67616775656a6f 2649 .e)) 0x676169766f7461 2650 (.o (.o (.o .e 0x67656e75696e6f 2666 .e) 0x6765737475616c 2669 .e) 0x67696e73656e67 2674 (.o (.o .e 0x676c616369616c 2677 .e) 0x676c617563696f 2676 .e))) 0x676f6974616361 2685 (.o (.o (.o (.o .e 0x676f6f64627965 389 .e) 0x676f75726d6574 2692 .e) 0x676f7665726e6f 2693 (.o (.o .e 0x6772616e646d61 1380 .e) 0x6775737461766f 2708 .e)) 0x6775747572616c 2709 (.o (.o (.o .e 0x68616269747565 2710 .e) 0x68616c6c776179 1073 .e) 0x6861726d6f6e79 1423 (.o (.o .e 0x68617374656172 2717 .e) 0x68617665726573 2718 .e))))) 0x68657369746172 2729 (.o (.o (.o (.o (.o (.o .e 0x6869627269646f 2734 .e) 0x68696c6172696f 2739 (.o .e 0x6869727375746f 2743 .e)) 0x686973746f7279 897 (.o (.o .e 0x686f6e726f736f 2750 .e) 0x686f72697a6f6e 1075 .e)) 0x686f7765766572 760 (.o (.o (.o .e 0x68756d696c6465 2756 .e) 0x68756e64726564 828 .e) 0x68757362616e64 1296 (.o (.o .e 0x69616d6269636f 2762 .e) 0x69617469737461 2766 .e))) 0x6962657269636f 2767 (.o (.o (.o (.o .e 0x69636562657267 2770 .e) 0x69676172617065 2778 .e) 0x69676e6f726172 2780 (.o (.o .e 0x69677561726961 2782 .e) 0x69696469636865 2783 .e)) 0x696c617469766f 2784 (.o (.o (.o .e 0x696c6861726761 2786 .e) 0x696d6167696e65 599 .e) 0x696d617475726f 2790 (.o (.o .e 0x696d7075746172 2795 .e) 0x696e6375746972 2798 .e)))) 0x696e64757a6972 2799 (.o (.o (.o (.o (.o .e 0x696e667573616f 2801 .e) 0x696e6a7573746f 2805 (.o .e 0x696e7374656164 380 .e)) 0x696f6775727465 2815 (.o (.o .e 0x697073696c6f6e 2820 .e) 0x69726f71756573 2825 .e)) 0x69736f746f706f 2830 (.o (.o (.o .e 0x6974657262696f 2835 .e) 0x6a6167756e636f 2843 .e) 0x6a61706f6e6573 2848 (.o (.o .e 0x6a617175657461 2849 .e) 0x6a65616c6f7573 1426 .e))) 0x6a6569746f736f 2857 (.o (.o (.o (.o .e 0x6a6f6775657465 2872 .e) 0x6a6f75726e6579 1077 .e) 0x6a6f7669616e6f 2878 (.o (.o .e 0x6a7567756c6172 2881 .e) 0x6a756c69616e6f 2884 .e)) 0x6a756d656e746f 2885 (.o (.o (.o .e 0x6b696e67646f6d 1596 .e) 0x6b69746368656e 1189 .e) 0x6c616275746172 2891 (.o (.o .e 0x6c617175656172 2897 .e) 0x6c656173696e67 2903 .e)))))
def v1Tree40 : Tree := .o v1Tree38 0x6578706c61696e 916 v1Tree39
def v1Tree41 : Tree := .o (.o (.o (.o (.o (.o (.o .e 0x6c697269736d6f 2931 .e) 0x6c6f6375746f72 2937 (.o .e 0x6c6f6a69737461 2940 .e)) 0x6c6f73616e676f 2946 (.o (.o .e 0x6c756775627265 2952 .e) 0x6c757a6569726f 2960 .e)) 0x6d616368696e65 1192 (.o (.o (.o .e 0x6d61657374726f 2962 .e) 0x6d6166696f736f 2963 .e) 0x6d61727a697061 2972 (.o (.o .e 0x6d6176696f736f 2976 .e) 0x6d617a75726361 2978 .e))) 0x6d65616e64726f 2979 (.o (.o (.o (.o .e 0x6d656173757265 1480 .e) 0x6d656e74696f6e 1597 (.o .e 0x6d657373616765 1025 .e)) 0x6d657374726961 2990 (.o (.o .e 0x6d696c6c696f6e 762 .e) 0x6d697274696c6f 3001 .e)) 0x6d697374616b65 565 (.o (.o (.o .e 0x6d69747a766168 3003 .e) 0x6d6f6c7573636f 3014 .e) 0x6d6f6e73746572 790 (.o (.o .e 0x6d6f7175656361 3016 .e) 0x6d6f726e696e67 281 .e)))) 0x6d6f766976656c 3021 (.o (.o (.o (.o (.o .e 0x6d756d756e6861 3028 .e) 0x6d757175697261 3031 (.o .e 0x6d797374657279 901 .e)) 0x6e616e7175696d 3042 (.o (.o .e 0x6e617175696c6f 3044 .e) 0x6e61747572616c 1302 .e)) 0x6e617574696c6f 3046 (.o (.o (.o .e 0x6e617a69737461 3048 .e) 0x6e656974686572 1269 .e) 0x6e656e75666172 3054 (.o (.o .e 0x6e6572766f7573 1168 .e) 0x6e657276757261 3056 .e))) 0x6e657574726f6e 3059 (.o (.o (.o (.o .e 0x6e697276616e61 3071 .e) 0x6e6f6272657a61 3075 .e) 0x6e6f6e75706c6f 3082 (.o (.o .e 0x6e6f7468696e67 63 .e) 0x6e6f7475726e6f 3085 .e)) 0x6e6f7576656175 3086 (.o (.o (.o .e 0x6e6f7768657265 923 .e) 0x6e756469737461 3090 .e) 0x6e757063696173 3094 (.o (.o .e 0x6f626365636172 3098 .e) 0x6f626a65746f73 3101 .e))))) 0x6f626c6f6e676f 3102 (.o (.o (.o (.o (.o (.o .e 0x6f626e6f78696f 3103 .e) 0x6f627365727665 1602 (.o .e 0x6f636f72726572 3114 .e)) 0x6f657273746564 3120 (.o (.o .e 0x6f666572746172 3122 .e) 0x6f6a6572697a61 3130 .e)) 0x6f6e64756c6172 3144 (.o (.o (.o .e 0x6f6e65726f736f 3145 .e) 0x6f70696e696f6e 1342 .e) 0x6f72626974616c 3159 (.o (.o .e 0x6f7276616c686f 3167 .e) 0x6f757473696465 351 .e))) 0x6f75747562726f 3176 (.o (.o (.o (.o .e 0x6f76697061726f 3180 .e) 0x70616374756172 3190 (.o .e 0x7061696e66756c 1197 .e)) 0x70617373696f6e 657 (.o (.o .e 0x706173746f736f 3201 .e) 0x70617469656e74 1487 .e)) 0x7061747465726e 1605 (.o (.o (.o .e 0x70656e75726961 3215 .e) 0x70657266656374 195 .e) 0x70657268617073 446 (.o (.o .e 0x706574756e6961 3217 .e) 0x70696374757265 353 .e)))) 0x70696c756c6173 3224 (.o (.o (.o (.o (.o .e 0x70696e74757261 3226 .e) 0x7069706f636172 3228 (.o .e 0x7069766f746172 3233 .e)) 0x706c6173746963 1001 (.o (.o .e 0x706f6574697361 3242 .e) 0x706f6d706f736f 3246 .e)) 0x706f6e7475646f 3248 (.o (.o (.o .e 0x706f7373657373 1537 .e) 0x70726570617265 814 .e) 0x70726573656e74 832 (.o (.o .e 0x70726574656e64 405 .e) 0x70726f626c656d 396 .e))) 0x70726f63657373 1343 (.o (.o (.o (.o .e 0x70726f6d697365 243 .e) 0x70726f74656374 616 .e) 0x70726f78696d6f 3259 (.o (.o .e 0x70756a616e7465 3271 .e) 0x707572706f7365 777 .e)) 0x70757374756c61 3276 (.o (.o (.o .e 0x717565747a616c 3280 .e) 0x717569636b6c79 463 .e) 0x71756965746c79 1345 (.o (.o .e 0x72616369737461 3284 .e) 0x7261646f6e696f 3285 .e)))))
def v1Tree42 : Tree := .o (.o (.o (.o (.o (.o (.o .e 0x72617375726172 3295 .e) 0x726176696f6c69 3297 (.o .e 0x7265616c697479 359 .e)) 0x7265616c697a65 190 (.o (.o .e 0x72656365697665 883 .e) 0x7265666c656374 945 .e)) 0x72656c65617365 743 (.o (.o (.o .e 0x7265706c616365 1170 .e) 0x72657370656374 778 .e) 0x726573706f6e64 1437 (.o (.o .e 0x72657472656174 1346 .e) 0x72657475726e6f 3315 .e))) 0x726576656e6765 1611 (.o (.o (.o (.o .e 0x72697175657a61 3329 .e) 0x72697175697861 3330 (.o .e 0x726973736f6c65 3331 .e)) 0x726f627573746f 3335 (.o (.o .e 0x726f727175616c 3345 .e) 0x726f74756e646f 3347 .e)) 0x72757074757261 3361 (.o (.o (.o .e 0x7275737469636f 3363 .e) 0x727574696c6172 3364 .e) 0x73616375646972 3367 (.o (.o .e 0x7361646e657373 679 .e) 0x73616d75726169 3372 .e)))) 0x73617175656172 3375 (.o (.o (.o (.o (.o .e 0x73617469736679 1440 .e) 0x73617475726e6f 3377 (.o .e 0x7361766569726f 3380 .e)) 0x73617a6f6e616c 3382 (.o (.o .e 0x73636174746572 1028 .e) 0x73636865727a6f 3383 .e)) 0x73637261746368 1394 (.o (.o (.o .e 0x736564757a6972 3388 .e) 0x73656c66697368 947 .e) 0x73656e7a616c61 3394 (.o (.o .e 0x736571756f6961 3396 .e) 0x736572696f7573 1313 .e))) 0x73657475706c6f 3398 (.o (.o (.o (.o .e 0x7365766572616c 1543 .e) 0x73686174746572 602 .e) 0x7368656c746572 1201 (.o (.o .e 0x7368696d6d6572 1275 .e) 0x73696372616e6f 3405 .e)) 0x73696c656e6365 289 (.o (.o (.o .e 0x736f6369657479 1058 .e) 0x736f6c64696572 907 .e) 0x736f6d65646179 887 (.o (.o .e 0x736f6d65686f77 492 .e) 0x736f6d656e7465 3428 .e))))) 0x736f6d656f6e65 120 (.o (.o (.o (.o (.o (.o .e 0x736f7175657465 3431 .e) 0x736f737365676f 3433 (.o .e 0x736f7475726e6f 3434 .e)) 0x736f7a696e686f 3437 (.o (.o .e 0x7370656369616c 503 .e) 0x73717565657a65 1615 .e)) 0x73746f6d616368 528 (.o (.o (.o .e 0x737472616e6765 782 .e) 0x73747265746368 712 .e) 0x73747564656e74 1239 (.o (.o .e 0x7374756d626c65 951 .e) 0x7375626a656374 1278 .e))) 0x73756963696465 750 (.o (.o (.o (.o .e 0x737570706f7274 1241 .e) 0x737570706f7365 399 .e) 0x73757075726172 3450 (.o (.o .e 0x73757266616365 700 .e) 0x73757276697665 745 .e)) 0x73757370656e64 1618 (.o (.o (.o .e 0x73757475726172 3453 .e) 0x737576656e6972 3454 .e) 0x7377616c6c6f77 815 (.o (.o .e 0x74616f69737461 3464 .e) 0x74617175696f6e 3466 .e)))) 0x74656163686572 746 (.o (.o (.o (.o (.o .e 0x746564696f736f 3476 .e) 0x74656c7572696f 3480 (.o .e 0x74657175696c61 3485 .e)) 0x7465747269636f 3488 (.o (.o .e 0x74686f75676874 36 .e) 0x7468726f756768 27 .e)) 0x7468756e646572 930 (.o (.o (.o .e 0x7469666f696465 3495 .e) 0x74696768746c79 1109 .e) 0x74696772657361 3496 (.o (.o .e 0x74696d70616e6f 3499 .e) 0x74697175657465 3501 .e))) 0x746974756c6f73 3504 (.o (.o (.o (.o .e 0x746f676f6c6573 3509 .e) 0x746f6c75656e6f 3511 .e) 0x746f6e69676874 452 (.o (.o .e 0x746f6e74757261 3513 .e) 0x746f726d656e74 1551 .e)) 0x746f7274757265 1060 (.o (.o (.o .e 0x7472656d626c65 817 .e) 0x747269636b6c65 1552 .e) 0x74726f75626c65 610 (.o (.o .e 0x74726f766f6172 3524 .e) 0x747562756c6172 3527 .e)))))
def v1Tree43 : Tree := .o v1Tree41 0x7261696e626f77 1392 v1Tree42
def v1Tree44 : Tree := .o v1Tree40 0x6c656974757261 2908 v1Tree43
def v1Tree45 : Tree := .o v1Tree37 0x636163756e6461 2285 v1Tree44
def v1Tree46 : Tree := .o (.o (.o (.o (.o (.o (.o .e 0x756e686569726f 3555 .e) 0x756e69766f636f 3556 (.o .e 0x756e6b6e6f776e 850 .e)) 0x756e74756f736f 3557 (.o (.o .e 0x757267656e7465 3562 .e) 0x75726f6c6f676f 3565 .e)) 0x75736265717565 3571 (.o (.o (.o .e 0x7573656c657373 1401 .e) 0x757375616c6c79 1553 .e) 0x75737572706172 3574 (.o (.o .e 0x75746f7069636f 3577 .e) 0x76616775656172 3582 .e))) 0x76616c76756c61 3584 (.o (.o (.o (.o .e 0x76616d7069726f 3585 .e) 0x76657264616465 3602 (.o .e 0x7665747573746f 3605 .e)) 0x766963756e6861 3611 (.o (.o .e 0x766f6e74616465 3633 .e) 0x766f7274696365 3634 .e)) 0x766f7965757365 3638 (.o (.o (.o .e 0x77617272696f72 1321 .e) 0x77656174686572 1110 .e) 0x77656c636f6d65 862 (.o (.o .e 0x7765737465726e 3642 .e) 0x77686574686572 913 .e)))) 0x77686973706572 282 (.o (.o (.o (.o (.o .e 0x77686973746c65 1360 .e) 0x776f7273686970 1403 (.o .e 0x7772696e6b6c65 1322 .e)) 0x7772697474656e 754 (.o (.o .e 0x786176616e7465 3649 .e) 0x78656e6f6e696f 3651 .e)) 0x786973746f736f 3659 (.o (.o (.o .e 0x7a6162756d6261 3664 .e) 0x6163636964656e74 1175 .e) 0x61637475616c6c79 663 (.o (.o .e 0x616375737469636f 2068 .e) 0x61646976696e686f 2071 .e))) 0x6164717569726972 2076 (.o (.o (.o (.o .e 0x6164736f7263616f 2078 .e) 0x6165726f73736f6c 2081 .e) 0x6166617a65726573 2082 (.o (.o .e 0x61666574756f736f 2083 .e) 0x6166726f75786172 2087 .e)) 0x6166756e696c6172 2089 (.o (.o (.o .e 0x616a6f656c686172 2099 .e) 0x616a7564616e7465 2100 .e) 0x616c62756d696e61 2103 (.o (.o .e 0x616c74686f756768 483 .e) 0x616d697a61646573 2122 .e))))) 0x616d6f766976656c 2124 (.o (.o (.o (.o (.o (.o .e 0x616e797468696e67 161 .e) 0x616e797768657265 1361 (.o .e 0x617070726f616368 1112 .e)) 0x61726c657175696d 2155 (.o (.o .e 0x6173706972696e61 2167 .e) 0x6173737573746172 2169 .e)) 0x6174617a616e6172 2171 (.o (.o (.o .e 0x61766f6c756d6172 2188 .e) 0x6261666f72616461 2197 .e) 0x62616d62757a616c 2201 (.o (.o .e 0x62617468726f6f6d 1286 .e) 0x6265697365626f6c 2216 .e))) 0x626573756e746172 2223 (.o (.o (.o (.o .e 0x6269667572636172 2232 .e) 0x62696e6f726d616c 2236 (.o .e 0x6269727468646179 960 .e)) 0x6269727574696365 2240 (.o (.o .e 0x626c617366656d6f 2246 .e) 0x626c6f717565696f 2249 .e)) 0x626f6d626f72646f 2255 (.o (.o (.o .e 0x626f78696d616e65 2263 .e) 0x6275626f6e69636f 2270 .e) 0x6275636f6c69636f 2271 (.o (.o .e 0x63616174696e6761 2283 .e) 0x63616a756569726f 2287 .e)))) 0x636569666569726f 2297 (.o (.o (.o (.o (.o .e 0x63656c756c6f7365 2298 .e) 0x636865726f717569 2305 (.o .e 0x6368696c6472656e 315 .e)) 0x6369647265697261 2312 (.o (.o .e 0x63696e7a656e746f 2318 .e) 0x63697072696f7461 2320 .e)) 0x6369756d656e746f 2324 (.o (.o (.o .e 0x636c69746f726973 2328 .e) 0x636f646f726e697a 2333 .e) 0x636f67756d656c6f 2335 (.o (.o .e 0x636f6c6c61707365 1255 .e) 0x636f6d706c61696e 1150 .e))) 0x636f6d706c657465 693 (.o (.o (.o (.o .e 0x636f6e6372657465 1412 .e) 0x636f6e7369646572 894 .e) 0x636f6e7374616e74 987 (.o (.o .e 0x636f6e74696e7565 453 .e) 0x636f71756574656c 2343 .e)) 0x6372656174696f6e 1257 (.o (.o (.o .e 0x6372656174757265 497 .e) 0x63756c747572616c 2360 .e) 0x637a617269736d6f 2366 (.o (.o .e 0x6461697175697269 2371 .e) 0x64616e746573636f 2374 .e)))))
def v1Tree47 : Tree := .o (.o (.o (.o (.o (.o (.o .e 0x6461756768746572 622 .e) 0x6465636973696f6e 1330 (.o .e 0x6465677573746172 2384 .e)) 0x64656c6963617465 1517 (.o (.o .e 0x64656c746f696465 2386 .e) 0x646570757461646f 2389 .e)) 0x6465736372696265 1372 (.o (.o (.o .e 0x6465747572706172 2393 .e) 0x64657874726f7365 2396 .e) 0x6469617472696265 2398 (.o (.o .e 0x646964617469636f 2400 .e) 0x6469657469737461 2401 .e))) 0x64696d696e75746f 2405 (.o (.o (.o (.o .e 0x64696e686569726f 2406 .e) 0x646973636f766572 1153 (.o .e 0x6469736775697365 1464 .e)) 0x64697374616e6365 596 (.o (.o .e 0x646976756c676172 2414 .e) 0x64757669646f736f 2444 .e)) 0x656c646f7261646f 2471 (.o (.o (.o .e 0x656e616d6f726172 2484 .e) 0x656e637572766172 2485 .e) 0x656e6675726e6172 2488 (.o (.o .e 0x656e7175616e746f 2495 .e) 0x656e756e63696172 2499 .e)))) 0x65717569766f636f 2507 (.o (.o (.o (.o (.o .e 0x65726f74697a6172 2514 .e) 0x65736c6f76656e6f 2522 (.o .e 0x65736d7572726172 2523 .e)) 0x657370697269746f 2526 (.o (.o .e 0x6573766f61636172 2530 .e) 0x657465726e697479 807 .e)) 0x65746e6f6c6f676f 2534 (.o (.o (.o .e 0x6575666f7269636f 2538 .e) 0x657567656e69636f 2539 .e) 0x6576657279646179 562 (.o (.o .e 0x65766572796f6e65 165 .e) 0x657669746176656c 2546 .e))) 0x6578617573746f72 2548 (.o (.o (.o (.o .e 0x657865726369746f 2550 .e) 0x666162756c6f736f 2558 .e) 0x66616d696c696172 941 (.o (.o .e 0x6661766f72697465 667 .e) 0x6661766f7269746f 2573 .e)) 0x6665616c64616465 2576 (.o (.o (.o .e 0x66656c6963697479 1418 .e) 0x66656e6f7469706f 2586 .e) 0x666963746963696f 2595 (.o (.o .e 0x6669677572696e6f 2599 .e) 0x6669737375726172 2606 .e))))) 0x6669746f74656361 2607 (.o (.o (.o (.o (.o (.o .e 0x666c6f74696c6861 2613 .e) 0x666f677569737461 2618 (.o .e 0x666f6c6963756c6f 2620 .e)) 0x666f6f7462616c6c 1226 (.o (.o .e 0x666f6f7473746570 1071 .e) 0x666f726568656164 1526 .e)) 0x666f7874726f7465 2626 (.o (.o (.o .e 0x667269676874656e 1336 .e) 0x667567697469766f 2634 .e) 0x6675737469676172 2641 (.o (.o .e 0x6761666965697261 2648 .e) 0x6761727275636861 2655 .e))) 0x67656e65726f736f 2665 (.o (.o (.o (.o .e 0x676572756e64696f 2668 .e) 0x676c6f72696f7573 1476 .e) 0x676c75746f6e6961 2681 (.o (.o .e 0x676e6f737469636f 2682 .e) 0x676f6c7069737461 2686 .e)) 0x676f746963756c61 2691 (.o (.o (.o .e 0x6772657669737461 2696 .e) 0x67726f746573636f 2698 .e) 0x67756178696e696d 2700 (.o (.o .e 0x6861697469616e6f 2711 .e) 0x6861727069737461 2716 .e)))) 0x68656c6d696e746f 2724 (.o (.o (.o (.o (.o .e 0x68656e7269717565 2726 .e) 0x68657861676f6e6f 2732 (.o .e 0x686f727269626c65 1383 .e)) 0x686f73706974616c 880 (.o (.o .e 0x69616c6f72697861 2761 .e) 0x6964656f6c6f676f 2773 .e)) 0x6964696f74696365 2774 (.o (.o (.o .e 0x69656d656e697461 2776 .e) 0x696c65747261646f 2785 .e) 0x696c6c7573696f6e 1162 (.o (.o .e 0x696c6f6769736d6f 2788 .e) 0x696d69746176656c 2793 .e))) 0x696d75746176656c 2796 (.o (.o (.o (.o .e 0x696e6e6f63656e74 687 .e) 0x696e746572657374 761 .e) 0x69726c616e646573 2823 (.o (.o .e 0x697272757063616f 2826 .e) 0x69736c616e646573 2829 .e)) 0x697371756569726f 2831 (.o (.o (.o .e 0x6a61696e69737461 2844 .e) 0x6a656e697061706f 2859 .e) 0x6a7562696c6f736f 2879 (.o (.o .e 0x6c616e6775616765 1126 .e) 0x6c61756768746572 517 .e)))))
def v1Tree48 : Tree := .o v1Tree46 0x6461726b6e657373 245 v1Tree47
def v1Tree49 : Tree := .o (.o (.o (.o (.o (.o (.o .e 0x6c6563696f6e6172 2905 .e) 0x6c656f6e6172646f 2912 (.o .e 0x6c656f706172646f 2913 .e)) 0x6c6574726569726f 2917 (.o (.o .e 0x6c6576697469636f 2919 .e) 0x6c69636f726f736f 2924 .e)) 0x6c6966656c657373 1479 (.o (.o (.o .e 0x6c696d7573696e65 2927 .e) 0x6c696e6f7469706f 2928 .e) 0x6c69717569646f73 2930 (.o (.o .e 0x6c6f6d6272696761 2941 .e) 0x6c756d696e6f736f 2954 .e))) 0x6c757374726f736f 2956 (.o (.o (.o (.o .e 0x6d616c766973746f 2967 .e) 0x6d61706f74656361 2970 (.o .e 0x6d6175736f6c6575 2975 .e)) 0x6d656972696e686f 2984 (.o (.o .e 0x6d6578696c68616f 2992 .e) 0x6d657a616e696e6f 2993 .e)) 0x6d69646e69676874 1078 (.o (.o (.o .e 0x6d696f736f746973 3000 .e) 0x6d69737475726172 3002 .e) 0x6d69787572756361 3005 (.o (.o .e 0x6d6f756e7461696e 582 .e) 0x6d6f76656d656e74 1128 .e)))) 0x6d6f7a6172656c61 3022 (.o (.o (.o (.o (.o .e 0x6e6562756c6f736f 3049 .e) 0x6e65696768626f72 1268 (.o .e 0x6e65766f6569726f 3060 .e)) 0x6e69696c69737461 3066 (.o (.o .e 0x6e69706f6e69636f 3069 .e) 0x6e697175656c6172 3070 .e)) 0x6e6f677565697261 3078 (.o (.o (.o .e 0x6f62737472756972 3105 .e) 0x6f636c757369766f 3113 .e) 0x6f63746f676f6e6f 3116 (.o (.o .e 0x6f64616c69736361 3117 .e) 0x6f64697373656961 3118 .e))) 0x6f6c697665697261 3135 (.o (.o (.o (.o .e 0x6f6d6f706c617461 3142 .e) 0x6f6e616e69736d6f 3143 .e) 0x6f7063696f6e616c 3151 (.o (.o .e 0x6f70706f73697465 1484 .e) 0x6f70726f6272696f 3155 .e)) 0x6f70757363756c6f 3157 (.o (.o (.o .e 0x6f7261746f72696f 3158 .e) 0x6f72717569646561 3165 .e) 0x6f736d6f7469636f 3169 (.o (.o .e 0x6f7a6f6e697a6172 3188 .e) 0x70616369656e7465 3189 .e))))) 0x7061726164697365 1485 (.o (.o (.o (.o (.o (.o .e 0x7061746865746963 1604 .e) 0x70617469656e6365 1486 (.o .e 0x7061766f726f736f 3205 .e)) 0x706561636566756c 1306 (.o (.o .e 0x70656978696e686f 3212 .e) 0x706879736963616c 1431 .e)) 0x70696d706f6c686f 3225 (.o (.o (.o .e 0x706972756c69746f 3230 .e) 0x70697a7a61726961 3235 .e) 0x706c656173757265 1129 (.o (.o .e 0x706f64726964616f 3241 .e) 0x706f70756c6f736f 3249 .e))) 0x706f736974696f6e 1432 (.o (.o (.o (.o .e 0x706f737369626c65 1053 .e) 0x706f737369626c79 1492 (.o .e 0x706f77657266756c 1130 .e)) 0x7072616374696365 1493 (.o (.o .e 0x70726563696f7573 858 .e) 0x70726573656e6365 925 .e)) 0x7072657373757265 845 (.o (.o (.o .e 0x7072696e63657373 1054 .e) 0x70726f6261626c79 626 .e) 0x70736f7269617365 3262 (.o (.o .e 0x707469616c696e61 3264 .e) 0x7175657374696f6e 270 .e)))) 0x726162756a696365 3283 (.o (.o (.o (.o (.o .e 0x72616d706569726f 3290 .e) 0x72616e7a696e7a61 3291 (.o .e 0x7261746f65697261 3296 .e)) 0x72617a6f6176656c 3298 (.o (.o .e 0x7265617669766172 3299 .e) 0x7265627573636172 3300 .e)) 0x72656d656d626572 84 (.o (.o (.o .e 0x72657a6f6e656172 3318 .e) 0x7269646963756c6f 3322 .e) 0x7269676f726f736f 3324 (.o (.o .e 0x726f6e726f6e6172 3343 .e) 0x726f71756569726f 3344 .e))) 0x726f7578696e6f6c 3348 (.o (.o (.o (.o .e 0x72756d6f726f736f 3359 .e) 0x7361617269616e6f 3365 .e) 0x736566617264696d 3389 (.o (.o .e 0x73656e74656e6365 1348 .e) 0x7365706172617465 1349 .e)) 0x7365766963696172 3400 (.o (.o (.o .e 0x73686f756c646572 398 .e) 0x73696c656e746c79 905 .e) 0x73696e7573697465 3411 (.o (.o .e 0x73696f6e69737461 3412 .e) 0x736c696768746c79 978 .e)))))
def v1Tree50 : Tree := .o (.o (.o (.o (.o (.o (.o .e 0x736f667477617265 3424 .e) 0x736f6d65626f6479 1108 (.o .e 0x736f76696e696365 3436 .e)) 0x7374726169676874 557 (.o (.o .e 0x737472616e676572 584 .e) 0x737472656e677468 547 .e)) 0x7374727567676c65 699 (.o (.o (.o .e 0x73747562626f726e 1545 .e) 0x73756176697a6172 3438 .e) 0x737563757273616c 3440 (.o (.o .e 0x73756464656e6c79 459 .e) 0x737566726167696f 3442 .e))) 0x73756e6c69676874 1207 (.o (.o (.o (.o .e 0x73756e74756f736f 3448 .e) 0x7375727072697365 413 (.o .e 0x737572726f756e64 568 .e)) 0x73796d7061746879 1619 (.o (.o .e 0x746162756c657461 3455 .e) 0x7461646a69717565 3457 .e)) 0x7461697469616e6f 3460 (.o (.o (.o .e 0x74616d706f75636f 3462 .e) 0x74656d706f726173 3481 .e) 0x7465727269626c65 1549 (.o (.o .e 0x74686f7573616e64 634 .e) 0x746872656174656e 1139 .e)))) 0x74696c696e746172 3498 (.o (.o (.o (.o (.o .e 0x7469726f7465696f 3502 .e) 0x746f676574686572 143 (.o .e 0x746f6963696e686f 3510 .e)) 0x746f6d6f72726f77 586 (.o (.o .e 0x746f706f6e696d6f 3514 .e) 0x7472656173757265 1210 .e)) 0x7475617265677565 3526 (.o (.o (.o .e 0x74756e6973696e6f 3534 .e) 0x7564656e69737461 3539 .e) 0x7566616e69737461 3540 (.o (.o .e 0x756c6365726f736f 3545 .e) 0x756e67756c61646f 3554 .e))) 0x756e697665727365 952 (.o (.o (.o (.o .e 0x757273756c696e61 3567 .e) 0x7573696e6569726f 3573 .e) 0x7574696c697a6172 3576 (.o (.o .e 0x7661706f726f736f 3587 .e) 0x76617175696e6861 3588 .e)) 0x7661727a69616e6f 3589 (.o (.o (.o .e 0x7665656d656e7465 3596 .e) 0x7669676f726f736f 3614 .e) 0x76696f6c656e6365 1555 (.o (.o .e 0x7765616b6e657373 1402 .e) 0x7768617465766572 505 .e))))) 0x7768656e65766572 875 (.o (.o (.o (.o (.o (.o .e 0x7869666f7061676f 3655 .e) 0x796f757273656c66 292 (.o .e 0x7a6167756569726f 3665 .e)) 0x7a616d6269616e6f 3666 (.o (.o .e 0x6162646f6d696e616c 2049 .e) 0x6162697373696e696f 2051 .e)) 0x6163617574656c6172 2059 (.o (.o (.o .e 0x61636f766172646172 2065 .e) 0x6163726f737469636f 2066 .e) 0x61646170746176656c 2069 (.o (.o .e 0x61646d6f6573746172 2073 .e) 0x61646e6f6d696e616c 2074 .e))) 0x61647269617469636f 2077 (.o (.o (.o (.o .e 0x616666656374696f6e 1323 .e) 0x61666f7274756e6172 2086 .e) 0x61667465726e6f6f6e 1405 (.o (.o .e 0x61676c7574696e6172 2092 .e) 0x616c6578616e647265 2106 .e)) 0x616c666f7272696172 2107 (.o (.o (.o .e 0x616c73616369616e6f 2115 .e) 0x616d617a6f6e69636f 2119 .e) 0x616d65746f6469636f 2121 (.o (.o .e 0x616d6e696f7469636f 2123 .e) 0x616e61746f6d69636f 2126 .e)))) 0x6170617a6967756172 2139 (.o (.o (.o (.o (.o .e 0x61706c69636176656c 2141 .e) 0x61706f6c6f67697a65 1324 (.o .e 0x617072696d6f726172 2143 .e)) 0x617274757269616e6f 2162 (.o (.o .e 0x6173636f726269636f 2166 .e) 0x6173717565726f736f 2168 .e)) 0x61746c657469736d6f 2173 (.o (.o (.o .e 0x617474656e74696f6e 612 .e) 0x6176697a696e686172 2187 .e) 0x626164756c61717565 2196 (.o (.o .e 0x626173746f6e657465 2206 .e) 0x62656175746966756c 170 .e))) 0x626963757370696465 2229 (.o (.o (.o (.o .e 0x62696a757465726961 2234 .e) 0x6269756e69766f636f 2243 .e) 0x626f74756c69736d6f 2260 (.o (.o .e 0x626f79667269656e64 1407 .e) 0x627265766964616465 2265 .e)) 0x62727578756c65696f 2269 (.o (.o (.o .e 0x627574746572666c79 937 .e) 0x6361726566756c6c79 1149 .e) 0x636172766f6569726f 2291 (.o (.o .e 0x6365626f6c696e6861 2295 .e) 0x6365727461696e6c79 1512 .e)))))
def v1Tree51 : Tree := .o v1Tree49 0x736f657267756572 3423 v1Tree50
def v1Tree52 : Tree := .o v1Tree48 0x6c6178617469766f 2901 v1Tree51
def v1Tree53 : Tree := .o (.o (.o (.o (.o (.o (.o .e 0x6368696c64686f6f64 1179 .e) 0x63686f636f6c617465 962 (.o .e 0x636967617265747465 821 .e)) 0x63697275726769636f 2321 (.o (.o .e 0x636c61766963756c61 2326 .e) 0x636f65786973746972 2334 .e)) 0x636f6d70616978616f 2338 (.o (.o (.o .e 0x636f6d70616e696f6e 1514 .e) 0x636f6e667573696f6e 1256 .e) 0x64656e756e63696172 2388 (.o (.o .e 0x646573706572617465 1575 .e) 0x64657465726d696e65 1518 .e))) 0x646966666572656e74 227 (.o (.o (.o (.o .e 0x64696772657373616f 2403 .e) 0x646972656374696f6e 824 (.o .e 0x646972696d6976656c 2411 .e)) 0x646973617070656172 522 (.o (.o .e 0x64697374757262696f 2412 .e) 0x64726176696469636f 2431 .e)) 0x656469746f7269616c 2456 (.o (.o (.o .e 0x6564756c636f726172 2458 .e) 0x656c6f7175656e7465 2474 .e) 0x656d6172616e686172 2476 (.o (.o .e 0x656d62617272617373 1580 .e) 0x656d7074696e657373 1098 .e)))) 0x656e69676d69737461 2491 (.o (.o (.o (.o (.o .e 0x657269736970656c61 2512 .e) 0x657362757261636172 2518 (.o .e 0x6573706572616e6361 2525 .e)) 0x657469717565746172 2533 (.o (.o .e 0x65757374617175696f 2542 .e) 0x657574616e61736961 2543 .e)) 0x6576657279626f6479 1524 (.o (.o (.o .e 0x657665727974696d65 1468 .e) 0x6578666f6c6961646f 2551 .e) 0x6578697374656e6365 1223 (.o (.o .e 0x6578747275736f7261 2556 .e) 0x666174757269737461 2571 .e))) 0x666178696e65697261 2574 (.o (.o (.o (.o .e 0x6665646f72656e746f 2579 .e) 0x66657665726569726f 2591 .e) 0x666f72676f7474656e 498 (.o (.o .e 0x667275737472617465 1586 .e) 0x66756e696c6569726f 2639 .e)) 0x667572756e63756c6f 2640 (.o (.o (.o .e 0x676175737369616e6f 2658 .e) 0x67617a65746569726f 2661 .e) 0x67656d696e69616e6f 2664 (.o (.o .e 0x676574756c69737461 2670 .e) 0x67757374617469766f 2707 .e))))) 0x68617070656e696e67 2715 (.o (.o (.o (.o (.o (.o .e 0x68617070696e657373 366 .e) 0x686561727462656174 1337 (.o .e 0x6865646f6e69737461 2721 .e)) 0x686572747a69616e6f 2728 (.o (.o .e 0x686966656e697a6172 2737 .e) 0x686f646f6d6574726f 2746 .e)) 0x686f6c6f6772616d61 2748 (.o (.o (.o .e 0x686f706566756c6c79 1424 .e) 0x686f74656e746f7465 2754 .e) 0x68756775656e6f7465 2755 (.o (.o .e 0x69636f7361676f6e6f 2771 .e) 0x69676e6f72616e6365 1477 .e))) 0x696c696d697461646f 2787 (.o (.o (.o (.o .e 0x696d62757a6569726f 2791 .e) 0x696d706f7274616e74 600 (.o .e 0x696e6e6f63656e6365 881 .e)) 0x696e76697369626c65 1076 (.o (.o .e 0x696e7a6f6e6569726f 2813 .e) 0x696f6e6f7366657261 2817 .e)) 0x69726173636976656c 2821 (.o (.o (.o .e 0x69737261656c697461 2832 .e) 0x6975676f736c61766f 2839 .e) 0x6a61637574696e6761 2841 (.o (.o .e 0x6a616e746172616461 2847 .e) 0x6a6571756974696261 2861 .e)))) 0x6a7576656e74756465 2890 (.o (.o (.o (.o (.o .e 0x6b6e6f776c65646765 843 .e) 0x6c6575636f6369746f 2918 (.o .e 0x6c69646f6361696e61 2925 .e)) 0x6c696768746e696e67 1427 (.o (.o .e 0x6c697475726769636f 2933 .e) 0x6d6169757363756c61 2965 .e)) 0x6d6173747572626172 2973 (.o (.o (.o .e 0x6d656d6f72697a6172 2986 .e) 0x6d6e656d6f6e69636f 3006 .e) 0x6d6f62696c697a6172 3008 (.o (.o .e 0x6d6f6e756d656e746f 3015 .e) 0x6d6f6f6e6c69676874 1267 .e))) 0x6d7563756c6d616e6f 3024 (.o (.o (.o (.o .e 0x6d757373656c696e61 3033 .e) 0x6e616674616c696e61 3036 .e) 0x6e6563746172696e61 3050 (.o (.o .e 0x6e6566726f6c6f676f 3051 .e) 0x6e65706f7469736d6f 3055 .e)) 0x6e6967657269616e6f 3065 (.o (.o (.o .e 0x6e696768746d617265 632 .e) 0x6e6f72756567756573 3083 .e) 0x6e756e7175696e6861 3093 (.o (.o .e 0x6e757472697469766f 3095 .e) 0x6f626974756172696f 3100 .e)))))
def v1Tree54 : Tree := .o (.o (.o (.o (.o (.o (.o .e 0x6f636369706974616c 3110 .e) 0x6f646f72696669636f 3119 (.o .e 0x6f6c7669646176656c 3138 .e)) 0x6f6d627564736d616e 3139 (.o (.o .e 0x6f7374726f676f646f 3171 .e) 0x6f757273656c766573 1051 .e)) 0x6f7665726e69676874 3179 (.o (.o (.o .e 0x7061676f646569726f 3193 .e) 0x70616c756469736d6f 3196 .e) 0x7061757a696e686f73 3204 (.o (.o .e 0x706564756e63756c6f 3210 .e) 0x706572666563746c79 972 .e))) 0x7069617569656e7365 3219 (.o (.o (.o (.o .e 0x706963746f7269636f 3220 .e) 0x706f6c766f726f7361 3245 (.o .e 0x706f6e64657261646f 3247 .e)) 0x707275737369616e6f 3260 (.o (.o .e 0x707567696c69737461 3269 .e) 0x707572756c656e746f 3275 .e)) 0x72656375736176656c 3301 (.o (.o (.o .e 0x726564757a6976656c 3302 .e) 0x72656675746176656c 3304 .e) 0x72656e756e63696172 3310 (.o (.o .e 0x72657175697369746f 3313 .e) 0x7265766f6c7669646f 3317 .e)))) 0x7269626f73736f6d6f 3320 (.o (.o (.o (.o (.o .e 0x726976616c697a6172 3333 .e) 0x73616e637475617279 1312 (.o .e 0x73616e74756172696f 3373 .e)) 0x736172747269616e6f 3376 (.o (.o .e 0x7365626f7272656961 3386 .e) 0x736570756c74757261 3395 .e)) 0x73657374657263696f 3397 (.o (.o (.o .e 0x73657a6f6e69736d6f 3401 .e) 0x736962696c616e7465 3404 .e) 0x736974756174696f6e 1350 (.o (.o .e 0x736f6372617469636f 3421 .e) 0x736f646f6d697a6172 3422 .e))) 0x736f6d657468696e67 67 (.o (.o (.o (.o .e 0x736f6d6574696d6573 208 .e) 0x736f6d657768657265 527 .e) 0x736f757361666f6e65 3435 (.o (.o .e 0x737562766572746572 3439 .e) 0x737566666f63617465 1499 .e)) 0x7375676573746f6573 3443 (.o (.o (.o .e 0x746567756d656e746f 3478 .e) 0x74656f736f6669636f 3483 .e) 0x746575746f6e69636f 3489 (.o (.o .e 0x746f6d6f677261666f 3512 .e) 0x7472657a656e746f73 3522 .e))))) 0x756372616e69616e6f 3538 (.o (.o (.o (.o (.o (.o .e 0x75676172697469636f 3542 .e) 0x756d62696c6963616c 3548 (.o .e 0x76616e74616a6f736f 3586 .e)) 0x7661746963696e696f 3591 (.o (.o .e 0x76656e757369616e6f 3601 .e) 0x76657374756172696f 3604 .e)) 0x76657861746f72696f 3606 (.o (.o (.o .e 0x76697175696e677565 3619 .e) 0x76697475706572696f 3622 .e) 0x766f63696665726172 3627 (.o (.o .e 0x766f766f7a696e6861 3637 .e) 0x776f6e64657266756c 955 .e))) 0x776f7274686c657373 1404 (.o (.o (.o (.o .e 0x796573746572646179 1246 .e) 0x6162727574616c686172 2056 .e) 0x616c6d6f786172696665 2111 (.o (.o .e 0x616c6f74726f7069636f 2112 .e) 0x616c7175696d69737461 2114 .e)) 0x61706f74656f7469636f 2142 (.o (.o (.o .e 0x61707072656369617465 1248 .e) 0x617269746d657469636f 2154 .e) 0x61726d6973746963696f 2156 (.o (.o .e 0x61726f6d6174697a6172 2157 .e) 0x61746f726d656e746172 2175 .e)))) 0x6178696f6d617469636f 2190 (.o (.o (.o (.o (.o .e 0x626c656e6f7272656961 2247 .e) 0x626f73746f6e69616e6f 2259 (.o .e 0x62756d6572616e677565 2278 .e)) 0x627572756e64696e6573 2279 (.o (.o .e 0x63617175697a6569726f 2290 .e) 0x636175746572697a6172 2294 .e)) 0x6369656e746973746173 2313 (.o (.o (.o .e 0x636f6d706c6574656c79 621 .e) 0x636f6d7574617469766f 2339 .e) 0x636f6e666964656e6365 1461 (.o (.o .e 0x636f6e6e656374696f6e 1462 .e) 0x636f6e7374616e746c79 1092 .e))) 0x636f6e76756c7369766f 2341 (.o (.o (.o (.o .e 0x636f737475726569726f 2346 .e) 0x636f7a696e686569726f 2349 .e) 0x63756e696c696e677561 2361 (.o (.o .e 0x64616c746f6e69736d6f 2372 .e) 0x64617277696e69737461 2376 .e)) 0x6465627574616e746573 2380 (.o (.o (.o .e 0x64657072657373696f6e 1182 .e) 0x64657376697274756172 2392 .e) 0x6469636f746f6d69636f 2399 (.o (.o .e 0x646966666572656e6365 1096 .e) 0x64696e6f73736175726f 2407 .e)))))
def v1Tree55 : Tree := .o v1Tree53 0x6f6276696f75736c79 1391 v1Tree54
def v1Tree56 : Tree := .o (.o (.o (.o (.o (.o (.o .e 0x6563756d656e69736d6f 2453 .e) 0x65676970746f6c6f676f 2462 (.o .e 0x656c6173746f6d65726f 2470 .e)) 0x656e6f726d6964616465 2493 (.o (.o .e 0x656e7269717565636572 2496 .e) 0x656e7a696d617469636f 2502 .e)) 0x657366757a69616e7465 2520 (.o (.o (.o .e 0x65736f74657269736d6f 2524 .e) 0x657370656369616c6c79 966 .e) 0x65737475727269636172 2529 (.o (.o .e 0x6575636c696469616e6f 2537 .e) 0x6576656e7475616c6c79 1183 .e))) 0x65766572797468696e67 79 (.o (.o (.o (.o .e 0x65766572797768657265 840 .e) 0x657870657269656e6365 773 (.o .e 0x65787072657373696f6e 1469 .e)) 0x66656c69636964616465 2582 (.o (.o .e 0x6669647563696172696f 2596 .e) 0x666c75786f6772616d61 2614 .e)) 0x667269656e6473686970 624 (.o (.o (.o .e 0x66756c7573747265636f 2637 .e) 0x66757475726f6c6f676f 2642 .e) 0x67617374726f6e6f6d6f 2656 (.o (.o .e 0x67656e65726174696f6e 1587 .e) 0x6769726c667269656e64 1260 .e)))) 0x6769726f73636f70696f 2675 (.o (.o (.o (.o (.o .e 0x676f7665726e6d656e74 1262 .e) 0x68616d62757267756572 2713 (.o .e 0x68616e73656e69617365 2714 .e)) 0x686563746f6d6574726f 2720 (.o (.o .e 0x6865757269737469636f 2731 .e) 0x686965726f676c69666f 2736 .e)) 0x68696769656e697a6172 2738 (.o (.o (.o .e 0x6869746c657269737461 2745 .e) 0x686f7374696c697a6172 2753 .e) 0x696c6c756d696e617465 1231 (.o (.o .e 0x696d706f737369626c65 1593 .e) 0x696e6f7869646176656c 2807 .e))) 0x6974696e65726172696f 2836 (.o (.o (.o (.o .e 0x6c6567756d696e6f736f 2907 .e) 0x6c657869636f6c6f676f 2920 .e) 0x6c7578757269616e7465 2959 (.o (.o .e 0x6d616e7574656e63616f 2969 .e) 0x6d617175696e69737461 2971 .e)) 0x6d657175657472656665 2988 (.o (.o (.o .e 0x6d657274696f6c617465 2989 .e) 0x6d69677261746f72696f 2997 .e) 0x6d6f7275626978616261 3017 (.o (.o .e 0x6d6f737472756172696f 3018 .e) 0x6e61706f6c6974616e6f 3043 .e))))) 0x6e617363696d656e746f 3045 (.o (.o (.o (.o (.o (.o .e 0x6e6577746f6e69616e6f 3061 .e) 0x6e68656e68656e68656d 3063 (.o .e 0x6e6f6d696e617469766f 3081 .e)) 0x6e6f7374616c6769636f 3084 (.o (.o .e 0x6f69746f63656e746f73 3129 .e) 0x6f6d656c657465697261 3140 .e)) 0x6f6e746f6c6f6769636f 3147 (.o (.o (.o .e 0x6f70657269737469636f 3152 .e) 0x6f726e69746f6c6f676f 3164 .e) 0x706164726f6e697a6172 3191 (.o (.o .e 0x706563756e696172696f 3209 .e) 0x70656a6f72617469766f 3213 .e))) 0x70657266656374696f6e 1307 (.o (.o (.o (.o .e 0x7069717565746569726f 3229 .e) 0x706973746f6c6569726f 3231 (.o .e 0x70697475697461726961 3232 .e)) 0x706c6973746f63656e6f 3236 (.o (.o .e 0x706e65756d6f6e69636f 3239 .e) 0x70736575646f706f6465 3261 .e)) 0x70746f6c656d6169636f 3265 (.o (.o (.o .e 0x70756c766572697a6172 3272 .e) 0x717569786f746573636f 3281 .e) 0x71756f74697a6176656c 3282 (.o (.o .e 0x72617175697469736d6f 3293 .e) 0x7265666c656374696f6e 903 .e)))) 0x72656775726769746172 3305 (.o (.o (.o (.o (.o .e 0x72656f7269656e746172 3311 .e) 0x72657574696c697a6172 3316 (.o .e 0x726f646f76696172696f 3337 .e)) 0x726f6d70696d656e746f 3342 (.o (.o .e 0x727564696d656e746f73 3353 .e) 0x736966696c697469636f 3407 .e)) 0x73696d756c74616e656f 3410 (.o (.o (.o .e 0x736f727665746569726f 3432 .e) 0x7375646f72697061726f 3441 .e) 0x7461676172656c696365 3459 (.o (.o .e 0x74616e7a616e69616e6f 3463 .e) 0x74656174726f6c6f676f 3474 .e))) 0x746563746f6e69736d6f 3475 (.o (.o (.o (.o .e 0x746572726f7269737461 3486 .e) 0x7468656d73656c766573 767 .e) 0x7468726f7567686f7574 1279 (.o (.o .e 0x74696e7475726569726f 3500 .e) 0x746f7276656c696e686f 3516 .e)) 0x74756d756c74756f736f 3533 (.o (.o (.o .e 0x747570696e697175696d 3535 .e) 0x756e6465726e65617468 1358 .e) 0x756e6465727374616e64 182 (.o (.o .e 0x75786f7269636964696f 3579 .e) 0x766175646576696c6c65 3592 .e)))))
def v1Tree57 : Tree := .o (.o (.o (.o (.o (.o (.o .e 0x7669627261746f72696f 3609 .e) 0x766965746e616d697461 3613 (.o .e 0x76696f6c6f6e63656c6f 3618 .e)) 0x76697375616c697a6172 3621 (.o (.o .e 0x6163636573736f72696f73 2060 .e) 0x616d62756c61746f72696f 2120 .e)) 0x616e69766572736172696f 2130 (.o (.o (.o .e 0x61746d6f7366657269636f 2174 .e) 0x617a65726261696a616e6f 2191 .e) 0x62616c7a61717569616e61 2200 (.o (.o .e 0x626f71756961626572746f 2258 .e) 0x63696265726e657469636f 2310 .e))) 0x6465737065726174656c79 1332 (.o (.o (.o (.o .e 0x64657374696e6174696f6e 1576 .e) 0x6469706c6f6d617469636f 2409 (.o .e 0x65636f7373697374656d61 2451 .e)) 0x656c75636964617469766f 2475 (.o (.o .e 0x666163756c74617469766f 2559 .e) 0x666c69627573746569726f 2612 .e)) 0x6672617564756c656e746f 2627 (.o (.o (.o .e 0x68656d6f72726f69646173 2725 .e) 0x696d6167696e6174696f6e 1042 .e) 0x6c616e7465726e696e6861 2895 (.o (.o .e 0x6c696c6970757469616e6f 2926 .e) 0x6d616a6f7269746172696f 2966 .e)))) 0x6d6574726f76696172696f 2991 (.o (.o (.o (.o (.o .e 0x6e75636c656f746964656f 3089 .e) 0x6e756d69736d617469636f 3092 (.o .e 0x6f6272696761746f72696f 3104 .e)) 0x6f6365616e6f677261666f 3111 (.o (.o .e 0x6f6674616c6d6f6c6f676f 3124 .e) 0x6f70616c657363656e7465 3150 .e)) 0x6f766f766976697061726f 3182 (.o (.o (.o .e 0x70616e74757272696c6861 3198 .e) 0x70617175697374616e6573 3200 .e) 0x70726976696c6567696f73 3258 (.o (.o .e 0x72656578706f736963616f 3303 .e) 0x72656d756e65726176656c 3309 .e))) 0x7361786f666f6e69737461 3381 (.o (.o (.o (.o .e 0x746175746f6c6f6769636f 3470 .e) 0x756e616e696d6964616465 3552 .e) 0x76696c6970656e64696172 3615 (.o (.o .e 0x78696c6f67726176757261 3657 .e) 0x6163686f636f6c617461646f 2062 .e)) 0x616374696e6f6d6963657465 2067 (.o (.o (.o .e 0x6263726570757363756c6172 2211 .e) 0x6265686176696f7269737461 2215 .e) 0x62696469726563696f6e616c 2230 (.o (.o .e 0x636f6e766572736174696f6e 757 .e) 0x636f6f7264656e6174697661 2342 .e))))) 0x6465757465726f6e6f6d696f 2394 (.o (.o (.o (.o (.o (.o .e 0x65696e737465696e69616e6f 2465 .e) 0x656e7475736961737469636f 2498 (.o .e 0x656e766f6c76696d656e746f 2500 .e)) 0x666f746f7373696e74657365 2625 (.o (.o .e 0x68657074617373696c61626f 2727 .e) 0x686964726f7374617469636f 2735 .e)) 0x696c75737472697373696d6f 2789 (.o (.o (.o .e 0x696e6578747269636176656c 2800 .e) 0x696e7574696c697a6176656c 2811 .e) 0x696e76756c6e65726176656c 2812 (.o (.o .e 0x6c69706f70726f7465696e61 2929 .e) 0x6c756272696669636176656c 2950 .e))) 0x6f6e6f6d61746f706569636f 3146 (.o (.o (.o (.o .e 0x6f70746f6d65747269737461 3156 .e) 0x6f72746f72726f6d6269636f 3166 .e) 0x707465726f73736175726f73 3263 (.o (.o .e 0x71756174726f63656e746f73 3279 .e) 0x72656c6174696f6e73686970 642 .e)) 0x72697475616c69737469636f 3332 (.o (.o (.o .e 0x746178696f6e6f6d69737461 3472 .e) 0x746573746f737465726f6e61 3487 .e) 0x7472697669616c6964616465 3523 (.o (.o .e 0x756c74726176696f6c657461 3547 .e) 0x6269706f6c6172697a6163616f 2238 .e)))) 0x636f6e74656e74616d656e746f 2340 (.o (.o (.o (.o (.o .e 0x64616775657272656f7469706f 2370 .e) 0x6576656e7475616c6964616465 2545 (.o .e 0x657863757273696f6e69737461 2549 .e)) 0x67656f7373696e636c696e616c 2667 (.o (.o .e 0x68657465726f7373657875616c 2730 .e) 0x696e617665726967756176656c 2797 .e)) 0x696e7175697369746f7269616c 2808 (.o (.o (.o .e 0x696e73757374656e746176656c 2809 .e) 0x6a616275746963616265697261 2840 .e) 0x6d65666973746f66656c69636f 2982 (.o (.o .e 0x6d6963726f73736567756e646f 2995 .e) 0x706c7576696f6d65747269636f 3238 .e))) 0x72656976696e6469636176656c 3306 (.o (.o (.o (.o .e 0x74636865636f736c6f7661636f 3473 .e) 0x656e707265656e64696d656e746f 2494 .e) 0x657373656e6369616c6d656e7465 2528 (.o (.o .e 0x68616c7465726f66696c69737461 2712 .e) 0x686973746f72696f677261666961 2744 .e)) 0x696e74756d657363696d656e746f 2810 (.o (.o (.o .e 0x6e6974726f676c69636572696e61 3073 .e) 0x7361646f6d61736f717569737461 3368 .e) 0x626163746572696f6c6f6769737461 2195 (.o (.o .e 0x67616c76616e6f706c61737469636f 2652 .e) 0x72656a7576656e657363696d656e746f 3307 .e)))))
def v1Tree58 : Tree := .o v1Tree56 0x7665676574617469766f 3597 v1Tree57
def v1Tree59 : Tree := .o v1Tree55 0x6563746f706c61736d61 2452 v1Tree58
def v1Tree60 : Tree := .o v1Tree52 0x636861726163746572 1564 v1Tree59
def v1Tree61 : Tree := .o v1Tree45 0x75666f6c6f676f 3541 v1Tree60
def v1Tree62 : Tree := .o v1Tree30 0x6a616c65636f 2845 v1Tree61
def v1Tree : Tree := v1Tree62

end Verif.Catalog
