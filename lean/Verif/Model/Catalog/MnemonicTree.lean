import Verif.Model.Catalog.Tree
/-!
# Positions of all words of the ten lists (generated by tools/gen_words.py; a proof artefact, checked in Verif.Lemmas.Catalog)
-/
namespace Verif.Catalog
open Tree

def mnemonicTree0 : Tree := .o (.o (.o (.o (.o (.o (.o .e 0x616374 19 .e) 0x616464 25 .e) 0x616765 38 (.o .e 0x61696d 42 .e)) 0x616972 43 (.o (.o (.o .e 0x616c6c 51 .e) 0x616e79 81 .e) 0x61726d 93 (.o .e 0x617274 102 .e))) 0x617361 2204 (.o (.o (.o (.o .e 0x61736b 106 .e) 0x617665 2243 .e) 0x626167 140 (.o .e 0x626172 147 .e)) 0x626964 176 (.o (.o .e 0x626f61 2296 .e) 0x626f78 212 (.o .e 0x626f79 213 .e)))) 0x627573 247 (.o (.o (.o (.o (.o .e 0x63616c 2361 .e) 0x63616e 263 .e) 0x636172 274 (.o .e 0x636174 286 .e)) 0x637279 425 (.o (.o (.o .e 0x637570 429 .e) 0x646164 439 .e) 0x646172 2552 (.o .e 0x646179 448 .e))) 0x646f67 516 (.o (.o (.o (.o .e 0x646f6e 2608 .e) 0x646f73 2613 .e) 0x647279 541 (.o .e 0x65636f 2630 .e)) 0x656767 566 (.o (.o .e 0x656a65 2639 .e) 0x656e64 588 (.o .e 0x657261 610 .e))))) 0x657965 649 (.o (.o (.o (.o (.o (.o .e 0x66616e 662 .e) 0x666174 667 .e) 0x666178 2740 (.o .e 0x666565 676 .e)) 0x66656f 2744 (.o (.o (.o .e 0x666577 684 .e) 0x66696e 2768 .e) 0x666974 702 (.o .e 0x666978 704 .e))) 0x666c79 719 (.o (.o (.o (.o .e 0x666f67 722 .e) 0x666f78 738 .e) 0x66756e 752 (.o .e 0x676170 762 .e)) 0x676173 768 (.o (.o .e 0x67656e 2837 .e) 0x676f6c 2852 (.o .e 0x67756e 831 .e)))) 0x67796d 832 (.o (.o (.o (.o (.o .e 0x686174 844 .e) 0x68617a 2899 .e) 0x68656e 857 (.o .e 0x686970 863 .e)) 0x687562 884 (.o (.o .e 0x696365 897 .e) 0x696c6c 903 (.o .e 0x697261 2978 .e))) 0x6a6172 954 (.o (.o (.o (.o .e 0x6a6f62 960 .e) 0x6a6f79 964 .e) 0x6b6579 976 (.o .e 0x6b6964 978 .e)) 0x6b6974 983 (.o (.o .e 0x6c6162 992 .e) 0x6c6177 1007 (.o .e 0x6c6567 1018 .e)))))
def mnemonicTree1 : Tree := .o (.o (.o (.o (.o (.o (.o .e 0x6d6164 1069 .e) 0x6d616e 1078 .e) 0x6d6172 3143 (.o .e 0x6d6573 3179 .e)) 0x6d696c 3190 (.o (.o (.o .e 0x6d6978 1136 .e) 0x6d6f6d 1142 .e) 0x6e6574 1189 (.o .e 0x6e6f77 1209 .e))) 0x6e7574 1213 (.o (.o (.o (.o .e 0x6f616b 1214 .e) 0x6f6361 3321 .e) 0x6f6666 1226 (.o .e 0x6f696c 1230 .e)) 0x6f6a6f 3344 (.o (.o .e 0x6f6c61 3345 .e) 0x6f6c64 1232 (.o .e 0x6f6e65 1237 .e)))) 0x6f726f 3377 (.o (.o (.o (.o (.o .e 0x6f736f 3383 .e) 0x6f776e 1264 .e) 0x70616e 3407 (.o .e 0x70656e 1299 .e)) 0x706574 1307 (.o (.o (.o .e 0x70657a 3475 .e) 0x706965 3479 .e) 0x706967 1316 (.o .e 0x707574 1398 .e))) 0x726177 1428 (.o (.o (.o (.o .e 0x726564 3616 .e) 0x726573 3646 .e) 0x726579 3658 (.o .e 0x726962 1479 .e)) 0x726f6e 3686 (.o (.o .e 0x727567 1512 .e) 0x72756e 1514 (.o .e 0x736164 1517 .e))))) 0x736179 1535 (.o (.o (.o (.o (.o (.o .e 0x736561 1551 .e) 0x736564 3746 .e) 0x736572 3760 (.o .e 0x736879 1596 .e)) 0x736978 1614 (.o (.o (.o .e 0x736b69 1618 .e) 0x736f6c 3789 .e) 0x737079 1690 (.o .e 0x73756e 1738 .e))) 0x737572 3825 (.o (.o (.o (.o .e 0x746167 1769 .e) 0x74656e 1783 .e) 0x74657a 3891 (.o .e 0x746970 1812 .e)) 0x746f65 1820 (.o (.o .e 0x746f70 1831 .e) 0x746f73 3936 (.o .e 0x746f79 1843 .e)))) 0x747279 1871 (.o (.o (.o (.o (.o .e 0x74776f 1885 .e) 0x756e6f 3988 .e) 0x757365 1917 (.o .e 0x757661 3999 .e)) 0x76616e 1929 (.o (.o .e 0x766572 4033 .e) 0x76696c 4052 (.o .e 0x766f7a 4076 .e))) 0x776179 1984 (.o (.o (.o (.o .e 0x776562 1990 .e) 0x776574 1996 .e) 0x77696e 2010 (.o .e 0x796f75 2041 .e)) 0x7a6f6f 2047 (.t (.t .e 0xe4b880 16385 18433 .e) 0xe4b881 17476 19524 (.t .e 0xe4b883 16658 18706 .e)))))
def mnemonicTree2 : Tree := .o mnemonicTree0 0x6c757a 3113 mnemonicTree1
def mnemonicTree3 : Tree := .t (.o (.t (.t (.t (.t (.t .e 0xe4b888 18115 20163 .e) 0xe4b889 16448 18496 .e) 0xe4b88a 16397 18445 (.t .e 0xe4b88b 16428 18476 .e)) 0xe4b88d 16388 18436 (.t (.o (.o .e 0xe4b88e 16515 .e) 0xe4b893 16855 .e) 0xe4b894 16760 18808 (.t .e 0xe4b896 16666 18714 .e))) 0xe4b898 18417 20465 (.o (.o (.o (.t .e 0xe4b899 17956 20004 .e) 0xe4b89a 16482 .e) 0xe4b89b 18334 (.o .e 0xe4b89c 16661 .e)) 0xe4b89d 17092 (.o (.o .e 0xe4b89f 20356 .e) 0xe4b8a2 18308 (.o .e 0xe4b8a4 16474 .e)))) 0xe4b8a5 16880 (.t (.o (.o (.o (.o .e 0xe4b8a6 18614 .e) 0xe4b8a7 18240 .e) 0xe4b8aa 16398 (.t .e 0xe4b8ad 16394 18442 .e)) 0xe4b8b0 17233 (.t (.o (.t .e 0xe4b8b2 18054 20102 .e) 0xe4b8b4 17326 .e) 0xe4b8b9 17832 19880 (.o .e 0xe4b8ba 16396 .e))) 0xe4b8bb 16420 18468 (.o (.t (.o (.o .e 0xe4b8bd 17799 .e) 0xe4b8be 16912 .e) 0xe4b983 17981 20029 (.t .e 0xe4b985 17148 19196 .e)) 0xe4b988 16531 (.t (.o .e 0xe4b989 16506 .e) 0xe4b98b 16449 18497 (.o .e 0xe4b98c 17951 .e))))) 0xe4b98e 17218 19266 (.t (.o (.t (.o (.o (.t .e 0xe4b98f 17854 19902 .e) 0xe4b990 17245 .e) 0xe4b994 18332 (.t .e 0xe4b998 17613 19661 .e)) 0xe4b999 17161 19209 (.o (.t (.t .e 0xe4b99d 16625 18673 .e) 0xe4b99f 16426 18474 .e) 0xe4b9a0 16799 (.o .e 0xe4b9a1 17325 .e))) 0xe4b9a6 16772 (.t (.t (.o (.o .e 0xe4b9b0 17261 .e) 0xe4b9b1 17215 .e) 0xe4b9b3 17944 19992 (.o .e 0xe4ba82 19263 .e)) 0xe4ba86 16389 18437 (.o (.t .e 0xe4ba88 17466 19514 .e) 0xe4ba89 16669 (.t .e 0xe4ba8b 16507 18555 .e)))) 0xe4ba8c 16464 18512 (.o (.t (.o (.o (.o .e 0xe4ba8e 16412 .e) 0xe4ba8f 18148 .e) 0xe4ba91 17118 (.t .e 0xe4ba92 17023 19071 .e)) 0xe4ba94 16573 18621 (.o (.t .e 0xe4ba95 17263 19311 .e) 0xe4ba9a 16925 (.t .e 0xe4ba9b 16496 18544 .e))) 0xe4ba9e 18973 (.o (.t (.t (.t .e 0xe4baa1 17533 19581 .e) 0xe4baa4 16676 18724 .e) 0xe4baa6 17471 19519 (.o .e 0xe4baa7 16432 .e)) 0xe4baa9 17679 (.t (.t .e 0xe4baab 17992 20040 .e) 0xe4baac 16859 18907 (.t .e 0xe4baad 18247 20295 .e)))))
def mnemonicTree4 : Tree := .o (.t (.t (.t (.o (.t (.o .e 0xe4bab2 16835 .e) 0xe4baba 16392 18440 .e) 0xe4babf 17623 (.t .e 0xe4bb80 16679 18727 .e)) 0xe4bb81 17947 19995 (.t (.t (.o .e 0xe4bb85 16954 .e) 0xe4bb87 18352 20400 .e) 0xe4bb8a 16741 18789 (.t .e 0xe4bb8b 17230 19278 .e))) 0xe4bb8d 17097 19145 (.t (.t (.o (.o .e 0xe4bb8e 16481 .e) 0xe4bb93 17862 .e) 0xe4bb94 18145 20193 (.t .e 0xe4bb96 16403 18451 .e)) 0xe4bb97 18260 20308 (.t (.t .e 0xe4bb98 17550 19598 .e) 0xe4bba3 16562 18610 (.t .e 0xe4bba4 17053 19101 .e)))) 0xe4bba5 16401 18449 (.t (.t (.t (.o (.o .e 0xe4bbaa 17659 .e) 0xe4bbac 16407 .e) 0xe4bbb0 18169 20217 (.t .e 0xe4bbb2 17850 19898 .e)) 0xe4bbb6 16592 18640 (.t (.o .e 0xe4bbb7 16879 .e) 0xe4bbbb 16639 18687 (.t .e 0xe4bbbd 17450 19498 .e))) 0xe4bbbf 17795 19843 (.t (.t (.t (.t .e 0xe4bc81 16905 18953 .e) 0xe4bc8a 17376 19424 .e) 0xe4bc8d 17788 19836 (.t .e 0xe4bc8f 17677 19725 .e)) 0xe4bc90 17925 19973 (.o (.t .e 0xe4bc91 17699 19747 .e) 0xe4bc97 16771 (.o .e 0xe4bc98 17072 .e))))) 0xe4bc99 17614 (.o (.t (.o (.o (.o (.o .e 0xe4bc9a 16418 .e) 0xe4bc9f 17350 .e) 0xe4bca0 16744 (.o .e 0xe4bca4 17284 .e)) 0xe4bca6 17893 (.t (.t (.o .e 0xe4bcaa 18194 .e) 0xe4bcaf 17228 19276 .e) 0xe4bcb0 18111 20159 (.t .e 0xe4bcb4 17953 20001 .e))) 0xe4bcb8 17427 19475 (.t (.t (.t (.t .e 0xe4bcbc 16989 19037 .e) 0xe4bd86 16535 18583 .e) 0xe4bd8d 16579 18627 (.t .e 0xe4bd8e 16768 18816 .e)) 0xe4bd8f 16866 18914 (.o (.o .e 0xe4bd93 16475 .e) 0xe4bd94 19050 (.t .e 0xe4bd95 16814 18862 .e)))) 0xe4bd99 16990 (.t (.t (.t (.t (.t .e 0xe4bd9b 18137 20185 .e) 0xe4bd9c 16410 18458 .e) 0xe4bda0 16526 18574 (.t .e 0xe4bdb3 18351 20399 .e)) 0xe4bdbf 16479 18527 (.t (.o .e 0xe4be86 18453 .e) 0xe4be8b 16706 18754 (.t .e 0xe4be9b 16933 18981 .e))) 0xe4be9d 17071 19119 (.t (.o (.o (.o .e 0xe4bea6 17989 .e) 0xe4bea7 17416 .e) 0xe4bea8 18084 (.t .e 0xe4beb5 17144 19192 .e)) 0xe4bebf 16807 18855 (.t (.t .e 0xe4bf83 17271 19319 .e) 0xe4bf84 17629 19677 (.t .e 0xe4bf97 18147 20195 .e)))))
def mnemonicTree5 : Tree := .t mnemonicTree3 0xe4baae 17294 19342 mnemonicTree4
def mnemonicTree6 : Tree := .o mnemonicTree2 0xe4b887 16710 mnemonicTree5
def mnemonicTree7 : Tree := .o (.t (.t (.o (.t (.o (.t .e 0xe4bfa1 16732 18780 .e) 0xe4bfa9 18367 .e) 0xe4bfae 16994 19042 (.o .e 0xe58086 20415 .e)) 0xe58089 19910 (.o (.t (.o .e 0xe5808b 18446 .e) 0xe5808d 17268 19316 .e) 0xe58091 18455 (.t .e 0xe58092 17076 19124 .e))) 0xe58099 16833 18881 (.t (.o (.t (.t .e 0xe5809f 17394 19442 .e) 0xe580a1 18127 20175 .e) 0xe580ab 19941 (.o .e 0xe580ba 18288 .e)) 0xe580bc 16823 18871 (.t (.o .e 0xe580be 17511 .e) 0xe58187 17241 19289 (.o .e 0xe58189 19398 .e)))) 0xe5818f 17492 19540 (.t (.o (.t (.t (.t .e 0xe5819a 16633 18681 .e) 0xe5819c 17123 19171 .e) 0xe581a5 17688 19736 (.o .e 0xe581b4 19464 .e)) 0xe581b5 20037 (.o (.t (.t .e 0xe581b6 17940 19988 .e) 0xe581b7 18203 20251 .e) 0xe581bd 20242 (.o .e 0xe581bf 18123 .e))) 0xe58285 18299 20347 (.o (.o (.o (.o .e 0xe58291 20255 .e) 0xe58299 18841 .e) 0xe582a8 17915 (.t .e 0xe582ac 17763 19811 .e)) 0xe582b3 18792 (.o (.o .e 0xe582b5 20336 .e) 0xe582b7 19332 (.o .e 0xe582be 19559 .e))))) 0xe58385 19002 (.t (.o (.o (.t (.o (.t .e 0xe5838f 17649 19697 .e) 0xe58391 20132 .e) 0xe5839a 18069 20117 (.o .e 0xe583b9 18927 .e)) 0xe58480 19707 (.o (.o (.o .e 0xe58484 19671 .e) 0xe5849f 20171 .e) 0xe584aa 19120 (.o .e 0xe584b2 19963 .e))) 0xe584bf 16776 (.o (.t (.t (.t .e 0xe58581 17859 19907 .e) 0xe58583 16739 18787 .e) 0xe58584 17880 19928 (.t .e 0xe58585 16968 19016 .e)) 0xe58587 20372 (.t (.t .e 0xe58588 16636 18684 .e) 0xe58589 16647 18695 (.t .e 0xe5858b 16813 18861 .e)))) 0xe5858d 17257 19305 (.t (.t (.t (.o (.o .e 0xe58592 18824 .e) 0xe5859a 16570 .e) 0xe585a5 16580 18628 (.o .e 0xe585a7 18569 .e)) 0xe585a8 16511 18559 (.t (.o .e 0xe585a9 18522 .e) 0xe585ab 16724 18772 (.t .e 0xe585ac 16553 18601 .e))) 0xe585ad 16681 18729 (.t (.o (.t (.o .e 0xe585b0 17236 .e) 0xe585b1 16682 18730 .e) 0xe585b3 16516 (.o .e 0xe585b4 16988 .e)) 0xe585b5 16969 19017 (.t (.t .e 0xe585b6 16495 18543 .e) 0xe585b7 16709 18757 (.t .e 0xe585b8 17493 19541 .e)))))
def mnemonicTree8 : Tree := .t (.o (.t (.t (.o (.o (.t .e 0xe585bc 17867 19915 .e) 0xe58685 16521 .e) 0xe5868a 20274 (.o .e 0xe5868c 18226 .e)) 0xe5868d 16689 18737 (.o (.o (.t .e 0xe58692 18029 20077 .e) 0xe58699 16831 .e) 0xe5869b 16556 (.o .e 0xe5869c 16622 .e))) 0xe586a0 18042 20090 (.o (.t (.o (.t .e 0xe586ac 17543 19591 .e) 0xe586af 18320 .e) 0xe586b0 17663 19711 (.o .e 0xe586b2 17050 .e)) 0xe586b3 16629 (.t (.o .e 0xe586b5 16740 .e) 0xe586b6 18224 20272 (.t .e 0xe586b7 17085 19133 .e)))) 0xe586bb 18063 (.o (.o (.o (.o (.o .e 0xe58780 17594 .e) 0xe58786 16821 .e) 0xe58789 18085 (.o .e 0xe5878d 20111 .e)) 0xe5878f 16939 (.t (.o (.t .e 0xe5879d 17582 19630 .e) 0xe587a0 16624 .e) 0xe587a1 17576 19624 (.o .e 0xe587a4 18015 .e))) 0xe587ad 18053 (.t (.o (.o (.o .e 0xe587af 17343 .e) 0xe587b1 19391 .e) 0xe587b6 18324 (.t .e 0xe587b8 18228 20276 .e)) 0xe587ba 16413 18461 (.t (.o .e 0xe587bb 16985 .e) 0xe587bd 17470 19518 (.t .e 0xe58880 17444 19492 .e))))) 0xe58886 16415 18463 (.t (.t (.t (.t (.t (.t .e 0xe58887 16695 18743 .e) 0xe5888a 17793 19841 .e) 0xe58891 17105 19153 (.o .e 0xe58892 16828 .e)) 0xe58897 16798 18846 (.o (.o (.o .e 0xe58898 17179 .e) 0xe58899 16638 .e) 0xe5889a 17208 (.o .e 0xe5889b 17025 .e))) 0xe5889d 17024 19072 (.t (.t (.o (.t .e 0xe588a4 16971 19019 .e) 0xe588a5 18662 .e) 0xe588a9 16532 18580 (.o .e 0xe588ab 16614 .e)) 0xe588ae 18339 20387 (.t (.t .e 0xe588b0 16409 18457 .e) 0xe588b6 16476 18524 (.t .e 0xe588b7 18132 20180 .e)))) 0xe588ba 17683 19731 (.o (.t (.o (.o (.t .e 0xe588bb 17133 19181 .e) 0xe58982 17090 .e) 0xe58987 18686 (.t .e 0xe5898a 17667 19715 .e)) 0xe5898d 16498 18546 (.o (.o .e 0xe58991 18356 .e) 0xe5899b 19256 (.o .e 0xe5899d 19629 .e))) 0xe589a5 17581 (.t (.t (.t (.o .e 0xe589a7 17336 .e) 0xe589a9 17767 19815 .e) 0xe589aa 18126 20174 (.t .e 0xe589af 17045 19093 .e)) 0xe589b2 17528 19576 (.o (.o .e 0xe589b5 19073 .e) 0xe58a83 18876 (.o .e 0xe58a87 19384 .e)))))
def mnemonicTree9 : Tree := .o mnemonicTree7 0xe585bb 16847 mnemonicTree8
def mnemonicTree10 : Tree := .o (.t (.o (.o (.t (.o (.o .e 0xe58a8d 20404 .e) 0xe58a91 19138 .e) 0xe58a9b 16457 18505 (.o .e 0xe58a9d 18093 .e)) 0xe58a9e 16795 (.o (.t (.t .e 0xe58a9f 17012 19060 .e) 0xe58aa0 16471 18519 .e) 0xe58aa1 16708 (.t .e 0xe58aa3 18325 20373 .e))) 0xe58aa8 16423 (.o (.o (.t (.t .e 0xe58aa9 17020 19068 .e) 0xe58aaa 17400 19448 .e) 0xe58ab1 17812 (.o .e 0xe58ab2 17943 .e)) 0xe58ab3 16806 (.o (.o .e 0xe58abf 16916 .e) 0xe58b81 19991 (.t .e 0xe58b83 18096 20144 .e)))) 0xe58b87 17648 19696 (.o (.o (.t (.o (.t .e 0xe58b92 17669 19717 .e) 0xe58b95 18471 .e) 0xe58b98 18158 20206 (.o .e 0xe58b99 18756 .e)) 0xe58b9d 19134 (.t (.o (.o .e 0xe58b9e 18854 .e) 0xe58ba2 18964 .e) 0xe58ba4 17784 19832 (.o .e 0xe58bb5 19860 .e))) 0xe58bb8 20141 (.t (.o (.t (.o .e 0xe58bbb 19664 .e) 0xe58bbe 18109 20157 .e) 0xe58c80 17616 (.t .e 0xe58c85 16864 18912 .e)) 0xe58c96 16461 18509 (.o (.t .e 0xe58c97 16652 18700 .e) 0xe58caf 19748 (.o .e 0xe58cba 16626 .e))))) 0xe58cbb 17174 (.t (.o (.t (.t (.t (.o .e 0xe58d80 18674 .e) 0xe58d81 16447 18495 .e) 0xe58d83 16788 18836 (.o .e 0xe58d87 17021 .e)) 0xe58d88 17537 19585 (.o (.o (.t .e 0xe58d8a 16794 18842 .e) 0xe58d8e 16726 .e) 0xe58d8f 17093 (.o .e 0xe58d94 19141 .e))) 0xe58d95 16693 (.t (.t (.t (.o .e 0xe58d96 17458 .e) 0xe58d97 16644 18692 .e) 0xe58d9a 17877 19925 (.o .e 0xe58da0 17002 .e)) 0xe58da1 17447 19495 (.o (.o .e 0xe58da2 18335 .e) 0xe58dab 17122 (.t .e 0xe58db0 17131 19179 .e)))) 0xe58db1 17322 19370 (.o (.t (.t (.o (.t .e 0xe58db3 16649 18697 .e) 0xe58db4 16854 .e) 0xe58db5 18020 20068 (.t .e 0xe58db7 17348 19396 .e)) 0xe58db8 18259 20307 (.t (.o .e 0xe58dbb 18902 .e) 0xe58dbf 18424 20472 (.o .e 0xe58e82 16858 .e))) 0xe58e85 18128 (.t (.o (.o (.o .e 0xe58e86 16811 .e) 0xe58e89 18189 .e) 0xe58e8b 16664 (.t .e 0xe58e98 17651 19699 .e)) 0xe58e9a 17316 19364 (.o (.t .e 0xe58e9f 16529 18577 .e) 0xe58eb2 20237 (.t .e 0xe58ebb 16484 18532 .e)))))
def mnemonicTree11 : Tree := .t (.t (.t (.t (.t (.o (.o .e 0xe58f82 16872 .e) 0xe58f83 18920 .e) 0xe58f88 16530 18578 (.t .e 0xe58f8a 16589 18637 .e)) 0xe58f8b 17100 19148 (.o (.t (.o .e 0xe58f8c 17058 .e) 0xe58f8d 16525 18573 .e) 0xe58f91 16421 (.t .e 0xe58f94 18155 20203 .e))) 0xe58f96 16640 18688 (.o (.o (.o (.t .e 0xe58f97 16677 18725 .e) 0xe58f98 16543 .e) 0xe58f99 18212 (.t .e 0xe58f9b 18047 20095 .e)) 0xe58fa0 18406 (.t (.o .e 0xe58fa2 20382 .e) 0xe58fa3 16660 18708 (.t .e 0xe58fa4 17031 19079 .e)))) 0xe58fa5 17232 19280 (.o (.t (.t (.t (.t .e 0xe58fa6 16937 18985 .e) 0xe58faa 16545 18593 .e) 0xe58fab 16759 18807 (.t .e 0xe58fac 17383 19431 .e)) 0xe58faf 16419 18467 (.t (.t .e 0xe58fb0 16919 18967 .e) 0xe58fb2 16804 18852 (.t .e 0xe58fb3 17003 19051 .e))) 0xe58fb6 16950 (.t (.o (.t (.o .e 0xe58fb7 16824 .e) 0xe58fb8 16973 19021 .e) 0xe58fb9 18197 (.t .e 0xe59083 17005 19053 .e)) 0xe59084 16517 18565 (.t (.t .e 0xe59088 16491 18539 .e) 0xe59089 17946 19994 (.t .e 0xe5908a 17923 19971 .e))))) 0xe5908c 16424 18472 (.t (.t (.t (.t (.o (.t .e 0xe5908d 16727 18775 .e) 0xe5908e 16437 .e) 0xe5908f 18099 20147 (.t .e 0xe59090 18162 20210 .e)) 0xe59091 16539 18587 (.t (.t (.o .e 0xe59097 17177 .e) 0xe5909b 17519 19567 .e) 0xe5909e 18427 20475 (.t .e 0xe590a6 17068 19116 .e))) 0xe590a7 17145 19193 (.o (.o (.t (.o .e 0xe590a8 17487 .e) 0xe590ab 16904 18952 .e) 0xe590ac 16876 (.o .e 0xe590af 17711 .e)) 0xe590b3 19597 (.t (.o .e 0xe590b4 17549 .e) 0xe590b8 17019 19067 (.t .e 0xe590b9 17562 19610 .e)))) 0xe590be 18272 20320 (.t (.o (.t (.t (.t .e 0xe59180 17330 19378 .e) 0xe59186 17971 20019 .e) 0xe59188 17714 19762 (.t .e 0xe5918a 16917 18965 .e)) 0xe59198 16577 (.o (.t .e 0xe591a2 16902 18950 .e) 0xe591a8 16789 (.t .e 0xe591b3 17150 19198 .e))) 0xe591b5 18276 20324 (.t (.t (.t (.t .e 0xe591bc 17310 19358 .e) 0xe591bd 16541 18589 .e) 0xe5928c 16391 18439 (.o .e 0xe592a8 18338 .e)) 0xe592ac 18129 20177 (.t (.t .e 0xe592b1 17780 19828 .e) 0xe59380 18400 20448 (.t .e 0xe59381 16585 18633 .e)))))
def mnemonicTree12 : Tree := .o mnemonicTree10 0xe58ebf 16869 mnemonicTree11
def mnemonicTree13 : Tree := .o mnemonicTree9 0xe58a89 19227 mnemonicTree12
def mnemonicTree14 : Tree := .t mnemonicTree6 0xe4bf9d 16650 18698 mnemonicTree13
def mnemonicTree15 : Tree := .t (.t (.t (.t (.t (.o (.o .e 0xe5938d 16800 .e) 0xe593a1 18625 .e) 0xe593a5 17340 19388 (.t .e 0xe593a9 18188 20236 .e)) 0xe593aa 17119 19167 (.t (.t (.t .e 0xe593ad 17845 19893 .e) 0xe593b2 17705 19753 .e) 0xe59490 17565 19613 (.t .e 0xe594ae 17689 19737 .e))) 0xe594af 17390 19438 (.o (.t (.t (.t .e 0xe594b1 17182 19230 .e) 0xe59586 16779 18827 .e) 0xe5958a 17180 19228 (.o .e 0xe5958f 18597 .e)) 0xe5959f 19759 (.t (.t .e 0xe595a5 18030 20078 .e) 0xe595a6 17611 19659 (.o .e 0xe59682 17926 .e)))) 0xe59684 17197 19245 (.o (.o (.t (.t (.t .e 0xe5968a 17781 19829 .e) 0xe5969c 17252 19300 .e) 0xe5969d 17805 19853 (.o .e 0xe596aa 20288 .e)) 0xe596ac 20380 (.o (.o (.o .e 0xe596ae 18741 .e) 0xe596b7 17633 .e) 0xe5978e 19225 (.o .e 0xe59886 20245 .e))) 0xe59897 20471 (.o (.t (.t (.t .e 0xe5989b 18177 20225 .e) 0xe598b4 17600 19648 .e) 0xe599a8 16663 18711 (.o .e 0xe599b4 19681 .e)) 0xe599b8 19535 (.t (.o .e 0xe59ab4 18928 .e) 0xe59b9b 16502 18550 (.t .e 0xe59b9e 16637 18685 .e))))) 0xe59ba0 16493 18541 (.t (.o (.t (.t (.o (.o .e 0xe59ba2 16808 .e) 0xe59bad 17563 .e) 0xe59bb0 17255 19303 (.o .e 0xe59bb4 16927 .e)) 0xe59bba 16949 18997 (.o (.o (.o .e 0xe59bbd 16399 .e) 0xe59bbe 16604 .e) 0xe59c86 16863 (.t .e 0xe59c88 17468 19516 .e))) 0xe59c8b 18447 (.o (.o (.o (.o .e 0xe59c8d 18975 .e) 0xe59c92 19611 .e) 0xe59c93 18911 (.o .e 0xe59c96 18652 .e)) 0xe59c98 18856 (.o (.t .e 0xe59c9f 16745 18793 .e) 0xe59ca3 17898 (.t .e 0xe59ca8 16387 18435 .e)))) 0xe59cb0 16411 18459 (.t (.t (.o (.t (.o .e 0xe59cba 16703 .e) 0xe59d87 16947 18995 .e) 0xe59d8f 17029 (.t .e 0xe59d90 17079 19127 .e)) 0xe59d91 18208 20256 (.o (.o .e 0xe59d97 17089 .e) 0xe59d9a 16991 (.o .e 0xe59d9d 18413 .e))) 0xe59da1 17655 19703 (.t (.t (.t (.t .e 0xe59da6 17571 19619 .e) 0xe59daf 18230 20278 .e) 0xe59e82 17286 19334 (.o .e 0xe59e84 18243 .e)) 0xe59e8b 16842 18890 (.t (.o .e 0xe59eab 18312 .e) 0xe59f83 17783 19831 (.t .e 0xe59f8b 18102 20150 .e)))))
def mnemonicTree16 : Tree := .o (.t (.o (.t (.o (.t (.t .e 0xe59f94 17826 19874 .e) 0xe59f9f 17402 19450 .e) 0xe59fb7 19291 (.t .e 0xe59fb9 17234 19282 .e)) 0xe59fba 16597 18645 (.t (.o (.t .e 0xe5a082 17401 19449 .e) 0xe5a085 19039 .e) 0xe5a086 17479 19527 (.t .e 0xe5a0a1 18358 20406 .e))) 0xe5a0b1 18768 (.t (.o (.t (.o .e 0xe5a0b4 18751 .e) 0xe5a0b5 18402 20450 .e) 0xe5a18a 19137 (.t .e 0xe5a191 17504 19552 .e)) 0xe5a194 17440 19488 (.t (.o .e 0xe5a197 20034 .e) 0xe5a198 18055 20103 (.t .e 0xe5a19e 17434 19482 .e)))) 0xe5a1ab 17913 19961 (.o (.t (.o (.t (.o .e 0xe5a1b5 19586 .e) 0xe5a283 17129 19177 .e) 0xe5a28a 20360 (.o .e 0xe5a299 17646 .e)) 0xe5a29e 16668 18716 (.o (.t (.t .e 0xe5a2a8 17789 19837 .e) 0xe5a381 17534 19582 .e) 0xe5a393 18712 (.o .e 0xe5a39e 19077 .e))) 0xe5a39f 20291 (.o (.t (.o (.t .e 0xe5a3a4 17412 19460 .e) 0xe5a3a9 20461 .e) 0xe5a3ab 16946 18994 (.o .e 0xe5a3ae 17727 .e)) 0xe5a3af 19775 (.o (.o .e 0xe5a3b0 16719 .e) 0xe5a3b3 17879 (.o .e 0xe5a3bd 20079 .e))))) 0xe5a484 16642 (.o (.o (.t (.t (.t (.o .e 0xe5a487 16793 .e) 0xe5a48d 16774 18822 .e) 0xe5a48f 17460 19508 (.t .e 0xe5a496 16499 18547 .e)) 0xe5a49a 16438 18486 (.o (.o (.t .e 0xe5a49c 17104 19152 .e) 0xe5a49f 16998 .e) 0xe5a4a0 19046 (.o .e 0xe5a4a2 19888 .e))) 0xe5a4a5 19662 (.t (.t (.t (.t .e 0xe5a4a7 16395 18443 .e) 0xe5a4a9 16500 18548 .e) 0xe5a4aa 16820 18868 (.t .e 0xe5a4ab 16997 19045 .e)) 0xe5a4ae 17125 19173 (.o (.t .e 0xe5a4b1 16889 18937 .e) 0xe5a4b4 16596 (.o .e 0xe5a4b9 17754 .e)))) 0xe5a4ba 17375 (.o (.t (.t (.t (.o .e 0xe5a4be 19802 .e) 0xe5a587 17441 19489 .e) 0xe5a589 18136 20184 (.o .e 0xe5a58b 17516 .e)) 0xe5a58f 17362 19410 (.o (.t .e 0xe5a594 17848 19896 .e) 0xe5a596 17796 (.t .e 0xe5a597 17290 19338 .e))) 0xe5a5a5 18049 (.t (.o (.o (.o .e 0xe5a5a7 20097 .e) 0xe5a5aa 19423 .e) 0xe5a5ae 19564 (.t .e 0xe5a5b3 16894 18942 .e)) 0xe5a5b4 17610 19658 (.t (.t .e 0xe5a5b6 17814 19862 .e) 0xe5a5b9 16615 18663 (.t .e 0xe5a5bd 16487 18535 .e)))))
def mnemonicTree17 : Tree := .t mnemonicTree15 0xe59f8e 16996 19044 mnemonicTree16
def mnemonicTree18 : Tree := .o (.t (.t (.t (.t (.o (.o .e 0xe5a687 17545 .e) 0xe5a688 17162 .e) 0xe5a699 18167 20215 (.t .e 0xe5a6a5 18301 20349 .e)) 0xe5a6a8 18425 20473 (.t (.t (.t .e 0xe5a6b9 17853 19901 .e) 0xe5a6bb 17912 19960 .e) 0xe5a786 18117 20165 (.t .e 0xe5a78b 16853 18901 .e))) 0xe5a790 17744 19792 (.t (.t (.t (.t .e 0xe5a791 17607 19655 .e) 0xe5a793 17792 19840 .e) 0xe5a794 16790 18838 (.t .e 0xe5a79a 18265 20313 .e)) 0xe5a79c 18322 20370 (.t (.t .e 0xe5a7bb 18284 20332 .e) 0xe5a7bf 18297 20345 (.t .e 0xe5a881 17313 19361 .e)))) 0xe5a898 17311 19359 (.t (.t (.o (.t (.t .e 0xe5a986 17929 19977 .e) 0xe5a99a 17597 19645 .e) 0xe5a9a6 19593 (.o .e 0xe5aabd 19210 .e)) 0xe5ab82 18384 20432 (.t (.t (.t .e 0xe5aba9 18043 20091 .e) 0xe5ad90 16430 18478 .e) 0xe5ad94 17136 19184 (.t .e 0xe5ad97 16930 18978 .e))) 0xe5ad98 16832 18880 (.o (.t (.t (.o .e 0xe5ad99 17320 .e) 0xe5ad9f 18163 20211 .e) 0xe5ada3 17341 19389 (.t .e 0xe5ada4 18161 20209 .e)) 0xe5ada6 16441 (.o (.t .e 0xe5ada9 17193 19241 .e) 0xe5adab 19368 (.o .e 0xe5adb8 18489 .e))))) 0xe5ae81 17221 (.o (.t (.t (.t (.t (.t .e 0xe5ae83 16490 18538 .e) 0xe5ae87 18119 20167 .e) 0xe5ae88 17170 19218 (.t .e 0xe5ae89 16702 18750 .e)) 0xe5ae8b 17567 19615 (.t (.t (.t .e 0xe5ae8c 16722 18770 .e) 0xe5ae97 17354 19402 .e) 0xe5ae98 16884 18932 (.t .e 0xe5ae9a 16439 18487 .e))) 0xe5ae9c 17288 19336 (.t (.o (.o (.o .e 0xe5ae9d 17536 .e) 0xe5ae9e 16470 .e) 0xe5aea1 17186 (.t .e 0xe5aea2 17083 19131 .e)) 0xe5aea3 17056 19104 (.o (.t .e 0xe5aea4 17139 19187 .e) 0xe5aeaa 17296 (.o .e 0xe5aeab 17743 .e)))) 0xe5aeae 19791 (.t (.o (.t (.t (.t .e 0xe5aeb3 16962 19010 .e) 0xe5aeb4 18286 20334 .e) 0xe5aeb6 16455 18503 (.t .e 0xe5aeb9 16775 18823 .e)) 0xe5aebd 17280 (.t (.o .e 0xe5aebe 17972 .e) 0xe5aebf 18380 20428 (.t .e 0xe5af84 17827 19875 .e))) 0xe5af86 16907 18955 (.o (.t (.t (.t .e 0xe5af8c 17006 19054 .e) 0xe5af92 17824 19872 .e) 0xe5af9f 17126 19174 (.o .e 0xe5afa6 18518 .e)) 0xe5afa7 19269 (.o (.t .e 0xe5afa8 17417 19465 .e) 0xe5afa9 19234 (.o .e 0xe5afab 18879 .e)))))
def mnemonicTree19 : Tree := .t (.o (.o (.o (.o (.t (.o .e 0xe5afb6 19584 .e) 0xe5afb8 17635 19683 .e) 0xe5afb9 16416 (.t .e 0xe5afba 18221 20269 .e)) 0xe5afbb 17895 (.t (.o (.o .e 0xe5afbc 16662 .e) 0xe5afbf 18031 .e) 0xe5b081 16936 18984 (.t .e 0xe5b084 17048 19096 .e))) 0xe5b086 16610 (.o (.t (.o (.o .e 0xe5b087 18658 .e) 0xe5b088 18903 .e) 0xe5b08a 17736 19784 (.o .e 0xe5b08b 19943 .e)) 0xe5b08d 18464 (.t (.o .e 0xe5b08e 18710 .e) 0xe5b08f 16467 18515 (.t .e 0xe5b091 16603 18651 .e)))) 0xe5b094 16890 (.t (.t (.t (.o (.t .e 0xe5b096 17710 19758 .e) 0xe5b098 17538 .e) 0xe5b09a 17512 19560 (.o .e 0xe5b09d 18423 .e)) 0xe5b0a4 17748 19796 (.o (.t .e 0xe5b0b1 16414 18462 .e) 0xe5b0b8 18227 (.t .e 0xe5b0ba 17477 19525 .e))) 0xe5b0bc 17278 19326 (.t (.t (.t (.o .e 0xe5b0bd 17046 .e) 0xe5b0be 17661 19709 .e) 0xe5b180 16870 18918 (.o .e 0xe5b182 16851 .e)) 0xe5b185 17306 19354 (.t (.o .e 0xe5b186 19876 .e) 0xe5b188 18165 20213 (.o .e 0xe5b18a 17828 .e))))) 0xe5b18b 17324 19372 (.o (.o (.o (.t (.t (.o .e 0xe5b18d 20275 .e) 0xe5b18f 18398 20446 .e) 0xe5b195 16572 18620 (.o .e 0xe5b19e 16862 .e)) 0xe5b1a4 18899 (.o (.t (.o .e 0xe5b1ac 18910 .e) 0xe5b1b1 16605 18653 .e) 0xe5b281 17332 (.o .e 0xe5b297 18176 .e))) 0xe5b29b 17691 (.t (.t (.o (.t .e 0xe5b2a9 17358 19406 .e) 0xe5b2ad 18051 .e) 0xe5b2b8 17602 19650 (.o .e 0xe5b3a1 18028 .e)) 0xe5b3b0 17674 19722 (.o (.o .e 0xe5b3b6 19739 .e) 0xe5b3bd 20076 (.t .e 0xe5b487 18125 20173 .e)))) 0xe5b497 20224 (.o (.t (.t (.t (.o .e 0xe5b6ba 20099 .e) 0xe5b79d 17356 19404 .e) 0xe5b79e 17064 19112 (.t .e 0xe5b7a1 17888 19936 .e)) 0xe5b7a5 16425 18473 (.t (.t .e 0xe5b7a6 16958 19006 .e) 0xe5b7a7 17878 19926 (.t .e 0xe5b7a8 17569 19617 .e))) 0xe5b7a9 17938 (.o (.t (.t (.t .e 0xe5b7ae 16977 19025 .e) 0xe5b7b2 16564 18612 .e) 0xe5b7b4 17013 19061 (.t .e 0xe5b7b7 18414 20462 .e)) 0xe5b881 17675 (.t (.t .e 0xe5b882 16812 18860 .e) 0xe5b883 16773 18821 (.o .e 0xe5b888 16926 .e)))))
def mnemonicTree20 : Tree := .o mnemonicTree18 0xe5afac 19328 mnemonicTree19
def mnemonicTree21 : Tree := .t mnemonicTree17 0xe5a682 16459 18507 mnemonicTree20
def mnemonicTree22 : Tree := .o (.t (.t (.t (.o (.t (.o .e 0xe5b890 18289 .e) 0xe5b89d 17047 19095 .e) 0xe5b8a6 16701 (.o .e 0xe5b8ab 18974 .e)) 0xe5b8ad 16903 18951 (.o (.o (.o .e 0xe5b8ae 16922 .e) 0xe5b8b3 20337 .e) 0xe5b8b6 18749 (.t .e 0xe5b8b8 16581 18629 .e))) 0xe5b8bd 18035 20083 (.o (.o (.t (.t .e 0xe5b985 17405 19453 .e) 0xe5b995 17809 19857 .e) 0xe5b9a3 19723 (.o .e 0xe5b9ab 18970 .e)) 0xe5b9b2 16632 (.t (.t .e 0xe5b9b3 16508 18556 .e) 0xe5b9b4 16422 18470 (.o .e 0xe5b9b6 16566 .e)))) 0xe5b9b8 17768 19816 (.o (.o (.t (.t (.o .e 0xe5b9b9 18680 .e) 0xe5b9bb 18347 20395 .e) 0xe5b9bc 17734 19782 (.o .e 0xe5b9be 18672 .e)) 0xe5b9bf 16749 (.t (.o (.o .e 0xe5ba84 17604 .e) 0xe5ba86 17297 .e) 0xe5ba8a 17435 19483 (.t .e 0xe5ba8f 17172 19220 .e))) 0xe5ba93 17374 (.t (.t (.t (.o .e 0xe5ba94 16488 .e) 0xe5ba95 16882 18930 .e) 0xe5ba97 17632 19680 (.o .e 0xe5ba99 18061 .e)) 0xe5ba9c 16818 18866 (.t (.o .e 0xe5ba9f 17590 .e) 0xe5baa6 16454 18502 (.t .e 0xe5baa7 17305 19353 .e))))) 0xe5baab 19422 (.o (.t (.o (.o (.t (.t .e 0xe5baad 17423 19471 .e) 0xe5bab7 17389 19437 .e) 0xe5bb9f 20109 (.o .e 0xe5bba0 18906 .e)) 0xe5bba2 19638 (.t (.o (.o .e 0xe5bba3 18797 .e) 0xe5bbb3 20176 .e) 0xe5bbb6 17321 19369 (.t .e 0xe5bbb7 17735 19783 .e))) 0xe5bbba 16551 18599 (.t (.o (.o (.o .e 0xe5bc80 16489 .e) 0xe5bc82 17256 .e) 0xe5bc83 17941 (.t .e 0xe5bc84 17739 19787 .e)) 0xe5bc8f 16586 18634 (.t (.t .e 0xe5bc93 18204 20252 .e) 0xe5bc95 16875 18923 (.t .e 0xe5bc9f 17526 19574 .e)))) 0xe5bca0 16731 (.o (.o (.o (.t (.t .e 0xe5bca6 17238 19286 .e) 0xe5bca7 17811 19859 .e) 0xe5bcaf 17731 (.t .e 0xe5bcb1 17359 19407 .e)) 0xe5bcb5 18779 (.o (.o .e 0xe5bcb7 18675 .e) 0xe5bcb9 17425 (.o .e 0xe5bcba 16627 .e))) 0xe5bd88 19473 (.t (.o (.o (.o .e 0xe5bd8e 19779 .e) 0xe5bd92 17382 .e) 0xe5bd93 16478 (.o .e 0xe5bd95 17391 .e)) 0xe5bda2 16509 18557 (.t (.t .e 0xe5bda9 17457 19505 .e) 0xe5bdaa 17621 19669 (.t .e 0xe5bdad 18422 20470 .e)))))
def mnemonicTree23 : Tree := .o (.t (.o (.o (.t (.o (.t .e 0xe5bdb9 18010 20058 .e) 0xe5bdbb 17419 .e) 0xe5bdbc 18011 20059 (.t .e 0xe5be80 16809 18857 .e)) 0xe5be81 17250 (.t (.t (.o .e 0xe5be84 17032 .e) 0xe5be85 17140 19188 .e) 0xe5be88 16557 18605 (.t .e 0xe5be8b 16758 18806 .e))) 0xe5be8c 18485 (.t (.t (.o (.t .e 0xe5be90 17553 19601 .e) 0xe5be91 19080 .e) 0xe5be92 17715 19763 (.t .e 0xe5be97 16445 18493 .e)) 0xe5be99 18386 20434 (.o (.o .e 0xe5be9e 18529 .e) 0xe5bea1 18237 (.t .e 0xe5beaa 17750 19798 .e)))) 0xe5beae 17061 19109 (.t (.t (.o (.t (.o .e 0xe5beb5 19298 .e) 0xe5beb7 16885 18933 .e) 0xe5beb9 19467 (.t .e 0xe5bebd 18310 20358 .e)) 0xe5bf83 16524 18572 (.o (.t .e 0xe5bf85 16634 18682 .e) 0xe5bf86 17765 (.t .e 0xe5bf8d 17933 19981 .e))) 0xe5bf97 16665 18713 (.t (.t (.t (.t .e 0xe5bf98 17719 19767 .e) 0xe5bf99 17462 19510 .e) 0xe5bfa0 17872 19920 (.o .e 0xe5bfa7 18254 .e)) 0xe5bfab 16836 18884 (.t (.t .e 0xe5bfb5 17095 19143 .e) 0xe5bfbd 17501 19549 (.o .e 0xe68080 17372 .e))))) 0xe68081 16935 (.t (.o (.t (.t (.t (.t .e 0xe6808e 16942 18990 .e) 0xe68092 17979 20027 .e) 0xe68095 17266 19314 (.t .e 0xe6809d 16673 18721 .e)) 0xe680a5 17181 19229 (.t (.t (.t .e 0xe680a7 16486 18534 .e) 0xe680a8 18429 20477 .e) 0xe680aa 17747 19795 (.o .e 0xe680bb 16583 .e))) 0xe68186 20254 (.t (.t (.o (.t .e 0xe68190 17899 19947 .e) 0xe68192 18206 .e) 0xe681a2 17615 19663 (.t .e 0xe681a8 17998 20046 .e)) 0xe681a9 17580 19628 (.t (.t .e 0xe681af 17164 19212 .e) 0xe681b0 17900 19948 (.o .e 0xe681b6 17437 .e)))) 0xe68284 18154 20202 (.o (.o (.t (.t (.t .e 0xe68289 18012 20060 .e) 0xe6829f 18342 20390 .e) 0xe682a3 18091 20139 (.t .e 0xe682a8 17554 19602 .e)) 0xe682ac 17990 (.o (.t .e 0xe682b2 17890 19938 .e) 0xe682b6 20385 (.t .e 0xe68385 16558 18606 .e))) 0xe6838a 17503 (.o (.o (.t (.t .e 0xe6839c 18168 20216 .e) 0xe683a0 18349 20397 .e) 0xe683a1 19485 (.o .e 0xe683a8 18350 .e)) 0xe683a9 18263 (.t (.o .e 0xe683af 17612 .e) 0xe683b3 16563 18611 (.t .e 0xe68488 17506 19554 .e)))))
def mnemonicTree24 : Tree := .t mnemonicTree22 0xe5bdb1 16766 18814 mnemonicTree23
def mnemonicTree25 : Tree := .t (.o (.o (.o (.o (.t (.o .e 0xe6849b 19005 .e) 0xe6849f 16805 18853 .e) 0xe684a4 17976 (.o .e 0xe684bf 17185 .e)) 0xe6858b 18983 (.t (.o (.t .e 0xe6858c 18319 20367 .e) 0xe68598 20398 .e) 0xe685a2 17265 19313 (.o .e 0xe685a3 19660 .e))) 0xe685ae 19468 (.o (.o (.o (.t .e 0xe685b0 18316 20364 .e) 0xe685b6 19345 .e) 0xe68682 20302 (.o .e 0xe68691 20101 .e)) 0xe686a4 20024 (.o (.o .e 0xe686b2 19344 .e) 0xe686b6 19813 (.t .e 0xe68782 17823 19871 .e)))) 0xe68789 18536 (.t (.o (.o (.o (.o .e 0xe687b2 20311 .e) 0xe687b7 19420 .e) 0xe687b8 20038 (.t .e 0xe68888 18382 20430 .e)) 0xe6888f 17922 (.t (.t (.t .e 0xe68890 16417 18465 .e) 0xe68891 16400 18448 .e) 0xe68896 16534 18582 (.o .e 0xe68898 16635 .e))) 0xe688aa 17585 19633 (.o (.t (.o (.o .e 0xe688b0 18683 .e) 0xe688b2 19970 .e) 0xe688b4 17838 19886 (.o .e 0xe688b6 19486 .e)) 0xe688b7 17438 (.t (.t .e 0xe688bf 17077 19125 .e) 0xe68980 16443 18491 (.t .e 0xe68987 18141 20189 .e))))) 0xe6898b 16616 18664 (.t (.o (.t (.o (.t (.t .e 0xe6898d 16729 18777 .e) 0xe6898e 17618 19666 .e) 0xe68991 18245 (.t .e 0xe68993 16696 18744 .e)) 0xe68998 17502 19550 (.o (.o (.t .e 0xe689a3 18110 20158 .e) 0xe689a7 17243 .e) 0xe689a9 17165 (.o .e 0xe689ab 17804 .e))) 0xe689ac 17281 (.t (.t (.o (.t .e 0xe689ad 18083 20131 .e) 0xe689b0 17918 .e) 0xe689b6 18144 20192 (.t .e 0xe689b9 16908 18956 .e)) 0xe689be 17067 19115 (.t (.t .e 0xe689bf 17051 19099 .e) 0xe68a80 16792 18840 (.t .e 0xe68a8a 16485 18533 .e)))) 0xe68a91 18218 20266 (.o (.o (.t (.t (.t .e 0xe68a93 17307 19355 .e) 0xe68a95 17028 19076 .e) 0xe68a97 17026 19074 (.t .e 0xe68a98 17428 19476 .e)) 0xe68a9a 17930 (.o (.o .e 0xe68a9b 18173 .e) 0xe68aa2 17876 (.o .e 0xe68aa4 16972 .e))) 0xe68aa5 16720 (.t (.t (.t (.t .e 0xe68aac 17903 19951 .e) 0xe68ab1 17821 19869 .e) 0xe68ab5 17625 19673 (.t .e 0xe68ab9 18336 20384 .e)) 0xe68abd 17472 19520 (.t (.o .e 0xe68b85 17237 .e) 0xe68b86 18304 20352 (.t .e 0xe68b89 16756 18804 .e)))))
def mnemonicTree26 : Tree := .t (.t (.o (.t (.t (.t (.t .e 0xe68b8c 18298 20346 .e) 0xe68b8d 17779 19827 .e) 0xe68b92 18068 20116 (.t .e 0xe68b94 17836 19884 .e)) 0xe68b96 17722 19770 (.o (.t (.t .e 0xe68b9b 17548 19596 .e) 0xe68b9c 18100 20148 .e) 0xe68b9f 18118 (.o .e 0xe68ba5 17771 .e))) 0xe68ba8 17871 (.o (.t (.t (.o .e 0xe68ba9 17461 .e) 0xe68bac 17134 19182 .e) 0xe68bbf 17171 19219 (.t .e 0xe68c81 16769 18817 .e)) 0xe68c82 17637 (.t (.t .e 0xe68c87 16623 18671 .e) 0xe68c89 16845 18893 (.t .e 0xe68c91 17831 19879 .e)))) 0xe68c96 17802 19850 (.t (.t (.o (.o (.o .e 0xe68ca1 18313 .e) 0xe68ca4 17939 .e) 0xe68ca5 17168 (.t .e 0xe68caf 17292 19340 .e)) 0xe68cba 18086 20134 (.t (.t .e 0xe68d85 18368 20416 .e) 0xe68d89 18267 20315 (.t .e 0xe68d90 18388 20436 .e))) 0xe68d95 17525 19573 (.o (.o (.o (.o .e 0xe68d9e 18363 .e) 0xe68d9f 17155 .e) 0xe68da2 17033 (.o .e 0xe68dae 16641 .e)) 0xe68e83 19852 (.t (.t .e 0xe68e88 17724 19772 .e) 0xe68e89 17329 19377 (.t .e 0xe68e8c 17205 19253 .e))))) 0xe68e92 16932 18980 (.o (.o (.t (.o (.o (.t .e 0xe68e98 17991 20039 .e) 0xe68e9b 19685 .e) 0xe68ea1 18738 (.t .e 0xe68ea2 17366 19414 .e)) 0xe68ea5 16607 18655 (.t (.t (.t .e 0xe68ea7 17063 19111 .e) 0xe68ea8 16896 18944 .e) 0xe68ea9 18104 20152 (.t .e 0xe68eaa 17333 19381 .e))) 0xe68eb7 18345 (.o (.t (.t (.t .e 0xe68f89 18302 20350 .e) 0xe68f8f 17751 19799 .e) 0xe68f90 16567 18615 (.t .e 0xe68f92 17601 19649 .e)) 0xe68f9a 19329 (.t (.o .e 0xe68f9b 19081 .e) 0xe68fa1 17235 19283 (.t .e 0xe68fad 17540 19588 .e)))) 0xe68fae 19216 (.o (.t (.o (.o (.t .e 0xe68fb4 17686 19734 .e) 0xe69085 18396 .e) 0xe6908d 19203 (.o .e 0xe69096 19603 .e)) 0xe6909c 18244 20292 (.t (.t .e 0xe6909e 17137 19185 .e) 0xe690ac 18106 20154 (.t .e 0xe690ad 18199 20247 .e))) 0xe690b6 19924 (.t (.o (.o (.o .e 0xe69184 18065 .e) 0xe69186 17455 .e) 0xe69187 17555 (.o .e 0xe6918a 18395 .e)) 0xe69198 18343 20391 (.t (.t .e 0xe691a9 17732 19780 .e) 0xe691b8 17932 19980 (.o .e 0xe69288 20411 .e)))))
def mnemonicTree27 : Tree := .o mnemonicTree25 0xe68b8b 20221 mnemonicTree26
def mnemonicTree28 : Tree := .t mnemonicTree24 0xe6848f 16550 18598 mnemonicTree27
def mnemonicTree29 : Tree := .t mnemonicTree21 0xe5b88c 17283 19331 mnemonicTree28
def mnemonicTree30 : Tree := .t mnemonicTree14 0xe59388 17406 19454 mnemonicTree29
def mnemonicTree31 : Tree := .o (.o (.o (.o (.t (.t (.o .e 0xe69291 18390 .e) 0xe69292 18283 20331 .e) 0xe6929e 18156 20204 (.t .e 0xe692a4 17914 19962 .e)) 0xe692a5 19919 (.o (.t (.o .e 0xe692ab 19978 .e) 0xe692ad 17385 19433 .e) 0xe692b2 20293 (.o .e 0xe69381 19819 .e))) 0xe69387 19509 (.o (.t (.o (.o .e 0xe6938a 19033 .e) 0xe6938b 20361 .e) 0xe6938d 17285 19333 (.o .e 0xe69394 19285 .e)) 0xe6939a 18689 (.t (.o .e 0xe693a0 19987 .e) 0xe693a6 17681 19729 (.o .e 0xe693ac 20166 .e)))) 0xe693b2 20393 (.t (.o (.o (.o (.o .e 0xe693b4 19213 .e) 0xe693ba 19503 .e) 0xe693be 19966 (.o .e 0xe6949d 20113 .e)) 0xe694a4 20443 (.t (.t (.o .e 0xe694aa 20444 .e) 0xe694af 16802 18850 .e) 0xe694b6 16684 18732 (.t .e 0xe694b9 16686 18734 .e))) 0xe694bb 17209 19257 (.o (.t (.t (.t .e 0xe694be 16628 18676 .e) 0xe694bf 16501 18549 .e) 0xe69585 16995 19043 (.t .e 0xe69588 16837 18885 .e)) 0xe6958c 17081 (.t (.t .e 0xe6958f 17985 20033 .e) 0xe69591 17579 19627 (.o .e 0xe69597 19614 .e))))) 0xe69598 20260 (.t (.t (.o (.t (.t (.t .e 0xe69599 16698 18746 .e) 0xe695a2 17418 19466 .e) 0xe695a3 17143 19191 (.t .e 0xe695ac 17846 19894 .e)) 0xe695b0 16522 (.o (.t (.t .e 0xe695b2 18409 20457 .e) 0xe695b4 16737 18785 .e) 0xe695b5 19129 (.o .e 0xe695b8 18570 .e))) 0xe69687 16582 18630 (.t (.t (.o (.t .e 0xe69691 18290 20338 .e) 0xe69697 16721 .e) 0xe69699 16575 18623 (.t .e 0xe6969c 17421 19469 .e)) 0xe696a4 17192 19240 (.o (.t .e 0xe696a5 18133 20181 .e) 0xe696ad 16783 (.t .e 0xe696af 16838 18886 .e)))) 0xe696b0 16519 18567 (.t (.t (.o (.t (.o .e 0xe696b7 18831 .e) 0xe696b9 16436 18484 .e) 0xe696bc 18460 (.t .e 0xe696bd 16938 18986 .e)) 0xe69781 17521 19569 (.t (.t .e 0xe69785 17660 19708 .e) 0xe6978b 17445 19493 (.t .e 0xe6978f 16826 18874 .e))) 0xe69797 17490 19538 (.o (.t (.t (.o .e 0xe697a0 16554 .e) 0xe697a2 17120 19168 .e) 0xe697a5 16503 18551 (.t .e 0xe697a6 18098 20146 .e)) 0xe697a7 17151 (.t (.t .e 0xe697a8 18292 20340 .e) 0xe697a9 16960 19008 (.t .e 0xe697ac 18241 20289 .e)))))
def mnemonicTree32 : Tree := .o (.o (.t (.o (.t (.t (.o .e 0xe697b6 16404 .e) 0xe697ba 18159 20207 .e) 0xe69882 18311 20359 (.t .e 0xe69886 18270 20318 .e)) 0xe69887 19069 (.t (.t (.t .e 0xe6988c 17596 19644 .e) 0xe6988e 16527 18575 .e) 0xe6988f 18328 20376 (.t .e 0xe69893 16848 18896 .e))) 0xe6989f 17259 19307 (.o (.t (.t (.t .e 0xe698a0 17301 19349 .e) 0xe698a5 17007 19055 .e) 0xe698a8 18193 20241 (.t .e 0xe698af 16386 18434 .e)) 0xe698be 16897 (.o (.o .e 0xe69982 18452 .e) 0xe69989 20283 (.o .e 0xe6998b 18235 .e)))) 0xe69992 18391 (.t (.t (.t (.t (.o .e 0xe69993 17865 .e) 0xe6999a 17213 19261 .e) 0xe699a8 18016 20064 (.t .e 0xe699ae 17159 19207 .e)) 0xe699af 17312 19360 (.o (.t (.t .e 0xe699b6 17315 19363 .e) 0xe699ba 17825 19873 .e) 0xe69a82 17957 (.t .e 0xe69a96 17962 20010 .e))) 0xe69a97 17431 19479 (.o (.t (.o (.o .e 0xe69aa2 20453 .e) 0xe69aab 20005 .e) 0xe69ab4 17527 19575 (.o .e 0xe69b89 19913 .e)) 0xe69bac 20439 (.t (.t .e 0xe69bb0 18420 20468 .e) 0xe69bb2 16992 19040 (.t .e 0xe69bb4 16692 18740 .e))))) 0xe69bb8 18820 (.o (.t (.t (.t (.t (.t .e 0xe69bb9 18185 20233 .e) 0xe69bbc 18140 20188 .e) 0xe69bbe 17038 19086 (.t .e 0xe69bbf 17508 19556 .e)) 0xe69c80 16560 18608 (.t (.t (.o .e 0xe69c83 18466 .e) 0xe69c88 16552 18600 .e) 0xe69c89 16390 18438 (.t .e 0xe69c8b 17708 19756 .e))) 0xe69c8d 16965 19013 (.t (.t (.t (.t .e 0xe69c97 17603 19651 .e) 0xe69c9b 16906 18954 .e) 0xe69c9d 16961 19009 (.t .e 0xe69c9f 16618 18666 .e)) 0xe69ca8 16921 18969 (.t (.t .e 0xe69caa 17034 19082 .e) 0xe69cab 17295 19343 (.t .e 0xe69cac 16483 18531 .e)))) 0xe69caf 16674 (.t (.o (.o (.t (.t .e 0xe69cb1 17507 19555 .e) 0xe69cb5 18116 20164 .e) 0xe69cba 16477 (.o .e 0xe69d80 17219 .e)) 0xe69d82 17016 (.o (.o .e 0xe69d83 16683 .e) 0xe69d86 17365 (.t .e 0xe69d8e 16918 18966 .e))) 0xe69d90 16931 18979 (.o (.t (.t (.t .e 0xe69d91 17117 19165 .e) 0xe69d9c 17881 19929 .e) 0xe69d9f 17334 19382 (.o .e 0xe69da1 16544 .e)) 0xe69da5 16405 (.t (.o .e 0xe69da8 17361 .e) 0xe69dad 18264 20312 (.t .e 0xe69daf 18090 20138 .e)))))
def mnemonicTree33 : Tree := .t mnemonicTree31 0xe697b1 18070 20118 mnemonicTree32
def mnemonicTree34 : Tree := .t (.t (.o (.o (.t (.t (.o .e 0xe69db1 18709 .e) 0xe69dbe 17253 19301 .e) 0xe69dbf 16979 19027 (.o .e 0xe69e81 16675 .e)) 0xe69e84 16817 (.t (.t (.t .e 0xe69e90 17088 19136 .e) 0xe69e97 16757 18805 .e) 0xe69e9c 16574 18622 (.t .e 0xe69e9d 17760 19808 .e))) 0xe69eaa 17403 (.t (.t (.t (.t .e 0xe69eaf 18225 20273 .e) 0xe69eb6 17293 19341 .e) 0xe69f84 18348 20396 (.t .e 0xe69f90 16975 19023 .e)) 0xe69f93 17262 19310 (.t (.t .e 0xe69f94 17907 19955 .e) 0xe69fa5 16840 18888 (.t .e 0xe69fac 17641 19689 .e)))) 0xe69faf 17886 19934 (.t (.o (.t (.t (.t .e 0xe69fb1 17656 19704 .e) 0xe69fb3 17960 20008 .e) 0xe69fb4 17713 19761 (.o .e 0xe6a087 16830 .e)) 0xe6a08f 17770 (.t (.t (.o .e 0xe6a091 16940 .e) 0xe6a0a1 17142 19190 .e) 0xe6a0aa 17687 19735 (.o .e 0xe6a0b7 16514 .e))) 0xe6a0b8 17141 19189 (.t (.t (.t (.t .e 0xe6a0b9 16619 18667 .e) 0xe6a0bc 16846 18894 .e) 0xe6a0bd 18088 20136 (.t .e 0xe6a182 17896 19944 .e)) 0xe6a183 18143 20191 (.t (.t .e 0xe6a186 18153 20201 .e) 0xe6a188 16944 18992 (.t .e 0xe6a18c 17857 19905 .e))))) 0xe6a191 18175 20223 (.o (.o (.t (.o (.o (.o .e 0xe6a1a3 18381 .e) 0xe6a1a5 17544 .e) 0xe6a1bf 19413 (.t .e 0xe6a281 17443 19491 .e)) 0xe6a285 17813 19861 (.t (.o (.o .e 0xe6a29d 18592 .e) 0xe6a2a6 17840 .e) 0xe6a2af 18022 20070 (.t .e 0xe6a2b0 17204 19252 .e))) 0xe6a380 17018 (.t (.t (.t (.o .e 0xe6a384 19989 .e) 0xe6a389 17282 19330 .e) 0xe6a38b 18025 20073 (.t .e 0xe6a392 18078 20126 .e)) 0xe6a39a 18217 20265 (.t (.t .e 0xe6a3ae 17759 19807 .e) 0xe6a3b1 18151 20199 (.t .e 0xe6a48d 17163 19211 .e)))) 0xe6a58a 19409 (.t (.t (.o (.o (.t .e 0xe6a59a 17514 19562 .e) 0xe6a5ad 18530 .e) 0xe6a5b5 18723 (.o .e 0xe6a5bc 17484 .e)) 0xe6a682 17264 19312 (.o (.o .e 0xe6a6ae 19620 .e) 0xe6a78b 18865 (.o .e 0xe6a78d 19451 .e))) 0xe6a7bd 17942 19990 (.o (.o (.o (.o .e 0xe6a882 19293 .e) 0xe6a893 19532 .e) 0xe6a899 18878 (.t .e 0xe6a8a1 17152 19200 .e)) 0xe6a8a3 18562 (.o (.o .e 0xe6a8aa 17397 .e) 0xe6a8b9 18988 (.o .e 0xe6a98b 19592 .e)))))
def mnemonicTree35 : Tree := .o (.t (.o (.o (.o (.o (.t .e 0xe6a9a1 17959 20007 .e) 0xe6a9ab 19445 .e) 0xe6aa94 20429 (.o .e 0xe6aaa2 19066 .e)) 0xe6ac84 19818 (.o (.t (.o .e 0xe6ac8a 18731 .e) 0xe6aca1 16584 18632 .e) 0xe6aca2 17203 (.t .e 0xe6aca3 18234 20282 .e))) 0xe6aca7 17414 (.t (.t (.t (.t .e 0xe6acb2 17790 19838 .e) 0xe6acba 18271 20319 .e) 0xe6acbe 17346 19394 (.t .e 0xe6ad87 18431 20479 .e)) 0xe6ad8c 17206 19254 (.o (.o .e 0xe6ad90 19462 .e) 0xe6ada1 19251 (.t .e 0xe6ada2 16943 18991 .e)))) 0xe6ada3 16523 18571 (.t (.o (.t (.t (.t .e 0xe6ada4 16542 18590 .e) 0xe6ada5 16747 18795 .e) 0xe6ada6 16948 18996 (.t .e 0xe6adaa 18305 20353 .e)) 0xe6adb2 19380 (.o (.o .e 0xe6adb7 18859 .e) 0xe6adb8 19430 (.t .e 0xe6adbb 16891 18939 .e))) 0xe6ae8a 17530 19578 (.o (.o (.t (.o .e 0xe6ae8b 17542 .e) 0xe6ae96 17352 19400 .e) 0xe6ae98 19590 (.t .e 0xe6aeb5 16753 18801 .e)) 0xe6aeba 19267 (.t (.o .e 0xe6aebc 19927 .e) 0xe6aebf 18393 20441 (.o .e 0xe6af80 19870 .e))))) 0xe6af81 17822 (.t (.t (.t (.t (.t (.t .e 0xe6af85 18192 20240 .e) 0xe6af8d 17111 19159 .e) 0xe6af8f 16711 18759 (.t .e 0xe6af92 17451 19499 .e)) 0xe6af94 16533 18581 (.t (.t (.o .e 0xe6af95 17680 .e) 0xe6af9b 16834 18882 .e) 0xe6afab 17158 19206 (.t .e 0xe6b08f 17742 19790 .e))) 0xe6b091 16444 18492 (.t (.o (.o (.o .e 0xe6b094 16537 .e) 0xe6b0a2 17289 .e) 0xe6b0a3 18585 (.t .e 0xe6b0a7 16915 18963 .e)) 0xe6b0a8 17672 19720 (.t (.o .e 0xe6b0ab 19337 .e) 0xe6b0ae 17866 19914 (.t .e 0xe6b0af 17448 19496 .e)))) 0xe6b0b4 16460 18508 (.t (.o (.t (.t (.t .e 0xe6b0b8 17353 19401 .e) 0xe6b181 18275 20323 .e) 0xe6b182 16594 18642 (.o .e 0xe6b187 17700 .e)) 0xe6b189 17010 (.t (.t .e 0xe6b197 17636 19684 .e) 0xe6b19f 16841 18889 (.t .e 0xe6b1a0 17520 19568 .e))) 0xe6b1a1 17808 19856 (.t (.o (.t (.o .e 0xe6b1a4 17697 .e) 0xe6b1aa 18318 20366 .e) 0xe6b1ba 18677 (.t .e 0xe6b1bd 17116 19164 .e)) 0xe6b288 18074 20122 (.o (.t .e 0xe6b289 17240 19288 .e) 0xe6b292 18594 (.t .e 0xe6b299 17207 19255 .e)))))
def mnemonicTree36 : Tree := .o mnemonicTree34 0xe6a99f 18525 mnemonicTree35
def mnemonicTree37 : Tree := .o mnemonicTree33 0xe69db0 18207 mnemonicTree36
def mnemonicTree38 : Tree := .t (.o (.t (.t (.t (.t (.o .e 0xe6b2a1 16546 .e) 0xe6b2ab 18403 20451 .e) 0xe6b2b3 16934 18982 (.t .e 0xe6b2b8 18160 20208 .e)) 0xe6b2b9 16672 18720 (.o (.t (.t .e 0xe6b2bb 16651 18699 .e) 0xe6b2bf 17363 19411 .e) 0xe6b381 18788 (.t .e 0xe6b389 18034 20082 .e))) 0xe6b395 16442 18490 (.t (.t (.t (.t .e 0xe6b39b 17482 19530 .e) 0xe6b3a1 17693 19741 .e) 0xe6b3a2 16952 19000 (.t .e 0xe6b3a5 17452 19500 .e)) 0xe6b3a8 16928 18976 (.t (.o .e 0xe6b3aa 17717 .e) 0xe6b3b0 17733 19781 (.t .e 0xe6b3b5 17720 19768 .e)))) 0xe6b3bc 18359 (.t (.t (.t (.o (.o .e 0xe6b3bd 17410 .e) 0xe6b481 17815 .e) 0xe6b48b 17101 19149 (.t .e 0xe6b497 17454 19502 .e)) 0xe6b49b 17974 20022 (.t (.t (.t .e 0xe6b49e 17723 19771 .e) 0xe6b4a5 17644 19692 .e) 0xe6b4aa 17638 19686 (.t .e 0xe6b4b2 17132 19180 .e))) 0xe6b4bb 16587 18635 (.o (.o (.t (.t .e 0xe6b4be 16850 18898 .e) 0xe6b581 16600 18648 .e) 0xe6b585 17955 (.o .e 0xe6b586 17769 .e)) 0xe6b587 18138 (.o (.o .e 0xe6b58b 17091 .e) 0xe6b58e 16670 (.o .e 0xe6b593 17370 .e))))) 0xe6b599 18008 20056 (.t (.o (.t (.t (.t (.t .e 0xe6b5a9 18309 20357 .e) 0xe6b5aa 17684 19732 .e) 0xe6b5ae 17551 19599 (.t .e 0xe6b5b7 16659 18707 .e)) 0xe6b5b8 18033 20081 (.t (.t (.o .e 0xe6b682 17986 .e) 0xe6b688 16816 18864 .e) 0xe6b689 17598 19646 (.o .e 0xe6b68c 18183 .e))) 0xe6b6a4 18355 (.t (.t (.o (.o .e 0xe6b6a6 17404 .e) 0xe6b6a8 18258 .e) 0xe6b6b2 16883 18931 (.o .e 0xe6b6bc 20133 .e)) 0xe6b780 17997 20045 (.t (.o .e 0xe6b79a 19765 .e) 0xe6b7a1 17709 19757 (.o .e 0xe6b7a8 19642 .e)))) 0xe6b7ae 18375 20423 (.o (.t (.o (.t (.t .e 0xe6b7b1 16784 18832 .e) 0xe6b7b7 17110 19158 .e) 0xe6b7ba 20003 (.t .e 0xe6b7bb 18077 20125 .e)) 0xe6b885 16687 18735 (.o (.o .e 0xe6b890 17201 .e) 0xe6b894 17844 (.o .e 0xe6b897 18180 .e))) 0xe6b89b 18987 (.t (.o (.t (.t .e 0xe6b8a0 18164 20212 .e) 0xe6b8a1 17830 19878 .e) 0xe6b8a9 16743 (.o .e 0xe6b8ac 19139 .e)) 0xe6b8af 17676 19724 (.t (.o .e 0xe6b8b8 17147 .e) 0xe6b996 17153 19201 (.t .e 0xe6b998 18369 20417 .e)))))
def mnemonicTree39 : Tree := .o (.o (.t (.o (.o (.o (.o .e 0xe6b9af 19745 .e) 0xe6b9be 17574 .e) 0xe6b9bf 17430 (.t .e 0xe6ba90 16970 19018 .e)) 0xe6ba96 18869 (.t (.o (.t .e 0xe6ba9c 18419 20467 .e) 0xe6ba9d 19810 .e) 0xe6baaa 18333 20381 (.o .e 0xe6baab 18791 .e))) 0xe6bab6 16941 18989 (.o (.t (.o (.o .e 0xe6bb85 19428 .e) 0xe6bb8c 20403 .e) 0xe6bb91 17367 19415 (.o .e 0xe6bb9a 17650 .e)) 0xe6bba1 16868 (.o (.o .e 0xe6bba4 17775 .e) 0xe6bba8 18366 (.o .e 0xe6bba9 18024 .e)))) 0xe6bbb2 20228 (.o (.t (.o (.o (.t .e 0xe6bbb4 17908 19956 .e) 0xe6bbbe 19698 .e) 0xe6bbbf 18916 (.o .e 0xe6bc81 19892 .e)) 0xe6bc82 18269 20317 (.t (.t .e 0xe6bc86 18073 20121 .e) 0xe6bc8f 18040 20088 (.t .e 0xe6bc94 17199 19247 .e))) 0xe6bca2 19058 (.o (.o (.o (.t .e 0xe6bcab 18139 20187 .e) 0xe6bcb2 20306 .e) 0xe6bcb8 19249 (.o .e 0xe6bcbf 19817 .e)) 0xe6bd91 20407 (.o (.o .e 0xe6bd94 19863 .e) 0xe6bd9b 19835 (.o .e 0xe6bd9c 17787 .e))))) 0xe6bda4 19452 (.o (.t (.o (.o (.o (.t .e 0xe6bdae 17498 19546 .e) 0xe6be86 20186 .e) 0xe6bea4 19458 (.t .e 0xe6bf80 17135 19183 .e)) 0xe6bf83 19418 (.o (.o (.o .e 0xe6bf95 19478 .e) 0xe6bf9f 18718 .e) 0xe6bfb1 20414 (.o .e 0xe6bfbe 19823 .e))) 0xe7818c 17891 19939 (.o (.t (.o (.o .e 0xe78198 20072 .e) 0xe781a3 19622 .e) 0xe781ab 16865 18913 (.o .e 0xe781ad 17380 .e)) 0xe781af 17331 (.o (.t .e 0xe781b0 17456 19504 .e) 0xe781b5 17377 (.o .e 0xe781bd 19864 .e)))) 0xe781be 17816 (.o (.t (.t (.t (.o .e 0xe78289 17357 .e) 0xe7828e 18023 20071 .e) 0xe78292 18089 20137 (.t .e 0xe782ad 17807 19855 .e)) 0xe782ae 17541 19589 (.o (.t .e 0xe782b8 17704 19752 .e) 0xe782b9 16480 (.o .e 0xe782ba 18444 .e))) 0xe782bc 17586 (.t (.t (.o (.o .e 0xe78382 17948 .e) 0xe78383 18190 .e) 0xe78388 17124 19172 (.o .e 0xe7838f 19999 .e)) 0xe78398 18379 20427 (.o (.o .e 0xe7839f 17248 .e) 0xe783a6 18287 (.o .e 0xe783a7 17127 .e)))))
def mnemonicTree40 : Tree := .o mnemonicTree38 0xe6b9a7 20231 mnemonicTree39
def mnemonicTree41 : Tree := .t (.t (.t (.t (.t (.o (.t .e 0xe783af 17643 19691 .e) 0xe783b4 20238 .e) 0xe783b7 18274 20322 (.o .e 0xe784a1 18602 .e)) 0xe784a6 17786 19834 (.o (.t (.t .e 0xe784b0 18232 20280 .e) 0xe784b6 16497 18545 .e) 0xe78589 19634 (.o .e 0xe78599 19296 .e))) 0xe785a4 17225 19273 (.t (.t (.o (.t .e 0xe785a7 16871 18919 .e) 0xe785a9 20335 .e) 0xe785ae 18196 20244 (.t .e 0xe7868a 18377 20425 .e)) 0xe78694 17842 19890 (.t (.t .e 0xe78699 17987 20035 .e) 0xe7869f 17408 19456 (.o .e 0xe786b1 18704 .e)))) 0xe78783 17216 19264 (.o (.t (.t (.o (.o .e 0xe78788 19379 .e) 0xe78792 19175 .e) 0xe78795 18282 20330 (.o .e 0xe7879f 18957 .e)) 0xe787a5 17958 20006 (.o (.o (.t .e 0xe78886 17642 19690 .e) 0xe78890 19405 .e) 0xe7889b 19996 (.t .e 0xe788ac 18001 20049 .e))) 0xe788ad 18717 (.t (.o (.t (.o .e 0xe788b1 16957 .e) 0xe788b6 17200 19248 .e) 0xe788b7 17499 (.t .e 0xe788b8 17483 19531 .e)) 0xe788b9 17837 19885 (.o (.o .e 0xe788ba 19547 .e) 0xe788be 18938 (.o .e 0xe78986 19694 .e))))) 0xe78987 16852 18900 (.t (.t (.t (.t (.t (.t .e 0xe78988 17592 19640 .e) 0xe7898c 17963 20011 .e) 0xe78999 17772 19820 (.t .e 0xe7899b 17299 19347 .e)) 0xe789a2 18046 20094 (.t (.t (.t .e 0xe789a7 17702 19750 .e) 0xe789a9 16468 18516 .e) 0xe789b2 17999 20047 (.o .e 0xe789b5 17875 .e))) 0xe789b9 16591 18639 (.o (.o (.o (.o .e 0xe789ba 18231 .e) 0xe789bd 19923 .e) 0xe78aa7 20279 (.t .e 0xe78aaf 16983 19031 .e)) 0xe78ab6 16856 (.t (.o .e 0xe78b80 18904 .e) 0xe78b82 17995 20043 (.t .e 0xe78b97 18101 20149 .e)))) 0xe78ba0 18170 20218 (.o (.o (.t (.o (.o .e 0xe78bac 17052 .e) 0xe78bb1 18213 .e) 0xe78c9b 17909 19957 (.o .e 0xe78caa 17489 .e)) 0xe78cae 17464 (.o (.o .e 0xe78d84 20261 .e) 0xe78d8e 19844 (.o .e 0xe78da8 19100 .e))) 0xe78db2 19236 (.t (.t (.t (.o .e 0xe78dbb 19512 .e) 0xe78e84 18418 20466 .e) 0xe78e87 16825 18873 (.t .e 0xe78e89 17337 19385 .e)) 0xe78e8b 16844 18892 (.o (.t .e 0xe78ea9 18004 20052 .e) 0xe78eaf 17057 (.o .e 0xe78eb0 16469 .e)))))
def mnemonicTree42 : Tree := .o (.o (.o (.t (.t (.t (.t .e 0xe78f8d 17855 19903 .e) 0xe78fa0 17757 19805 .e) 0xe78fad 17227 19275 (.o .e 0xe78fbe 18517 .e)) 0xe79083 16913 18961 (.t (.t (.t .e 0xe79086 16465 18513 .e) 0xe790b4 17749 19797 .e) 0xe7919e 17746 19794 (.t .e 0xe79283 17624 19672 .e))) 0xe792b0 19105 (.t (.t (.t (.t .e 0xe7939c 17954 20002 .e) 0xe793a6 17433 19481 .e) 0xe793b6 17928 19976 (.t .e 0xe793b7 17969 20017 .e)) 0xe79498 17692 19740 (.t (.t .e 0xe7949a 17138 19186 .e) 0xe7949c 18184 20232 (.t .e 0xe7949f 16408 18456 .e)))) 0xe794a2 18480 (.o (.t (.t (.t (.t .e 0xe794a8 16406 18454 .e) 0xe794b0 16980 19028 .e) 0xe794b1 16494 18542 (.t .e 0xe794b2 17146 19194 .e)) 0xe794b3 17856 19904 (.t (.o .e 0xe794b5 16456 .e) 0xe794b7 17561 19609 (.o .e 0xe794bb 17011 .e))) 0xe79585 18405 (.o (.t (.t (.t .e 0xe7958c 16755 18803 .e) 0xe79599 17036 19084 .e) 0xe7959c 18017 20065 (.o .e 0xe7959d 19727 .e)) 0xe795a2 19728 (.t (.t .e 0xe795a5 17082 19130 .e) 0xe795aa 18134 20182 (.o .e 0xe795ab 19059 .e))))) 0xe795b0 19304 (.t (.t (.t (.o (.t (.o .e 0xe795b6 18526 .e) 0xe79686 18038 20086 .e) 0xe7968a 20454 (.t .e 0xe7968f 18076 20124 .e)) 0xe79691 17741 19789 (.o (.t (.o .e 0xe79697 17927 .e) 0xe796ab 18399 20447 .e) 0xe796af 18374 (.t .e 0xe796be 18166 20214 .e))) 0xe79785 16887 18935 (.t (.t (.t (.t .e 0xe79787 18195 20243 .e) 0xe79795 18412 20460 .e) 0xe7979b 17513 19561 (.o .e 0xe7988b 20422 .e)) 0xe798a6 18236 20284 (.t (.o .e 0xe79982 19975 .e) 0xe799bb 17665 19713 (.o .e 0xe799bc 18469 .e)))) 0xe799bd 16697 18745 (.t (.t (.t (.t (.t .e 0xe799be 16654 18702 .e) 0xe79a84 16384 18432 .e) 0xe79a86 17988 20036 (.t .e 0xe79a87 17270 19318 .e)) 0xe79aae 17113 19161 (.o (.o .e 0xe79ab1 18404 .e) 0xe79aba 20452 (.t .e 0xe79b86 18059 20107 .e))) 0xe79b88 18330 20378 (.o (.o (.o (.t .e 0xe79b8a 17070 19118 .e) 0xe79b90 17099 .e) 0xe79b91 17524 (.o .e 0xe79b96 17396 .e)) 0xe79b97 18179 (.t (.o .e 0xe79b98 17386 .e) 0xe79b9b 17591 19639 (.o .e 0xe79b9c 20227 .e)))))
def mnemonicTree43 : Tree := .t mnemonicTree41 0xe78ebb 17568 19616 mnemonicTree42
def mnemonicTree44 : Tree := .o mnemonicTree40 0xe783ad 16656 mnemonicTree43
def mnemonicTree45 : Tree := .o mnemonicTree37 0xe6b29f 17762 mnemonicTree44
def mnemonicTree46 : Tree := .t (.t (.t (.o (.o (.o (.o .e 0xe79ba1 19094 .e) 0xe79ba3 19572 .e) 0xe79ba4 19434 (.o .e 0xe79ba7 20383 .e)) 0xe79baa 19705 (.t (.t (.t .e 0xe79bae 16712 18760 .e) 0xe79bb4 16568 18616 .e) 0xe79bb8 16510 18558 (.t .e 0xe79bbe 17211 19259 .e))) 0xe79c81 16797 18845 (.o (.t (.t (.t .e 0xe79c89 18075 20123 .e) 0xe79c8b 16528 18576 .e) 0xe79c9f 16707 18755 (.t .e 0xe79cbc 16843 18891 .e)) 0xe79cbe 18819 (.t (.o .e 0xe79d80 16451 .e) 0xe79d9b 17595 19643 (.t .e 0xe79da1 17694 19742 .e)))) 0xe79da3 17291 19339 (.o (.t (.t (.t (.t .e 0xe79ea7 18357 20405 .e) 0xe79f9b 17217 19265 .e) 0xe79fa5 16608 18656 (.t .e 0xe79fa9 17889 19937 .e)) 0xe79fad 17112 19160 (.o (.t (.t .e 0xe79fae 18430 20478 .e) 0xe79fb3 16750 18798 .e) 0xe79fbd 20085 (.o .e 0xe79fbf 16787 .e))) 0xe7a081 17839 (.t (.t (.t (.t .e 0xe7a082 17920 19968 .e) 0xe7a08d 18370 20418 .e) 0xe7a094 16754 18802 (.o .e 0xe7a096 17949 .e)) 0xe7a0b4 16924 18972 (.o (.o .e 0xe7a180 17074 .e) 0xe7a185 18037 (.t .e 0xe7a19d 18080 20128 .e))))) 0xe7a1ab 17195 19243 (.t (.o (.t (.o (.o (.t .e 0xe7a1ac 17465 19513 .e) 0xe7a1ae 16728 .e) 0xe7a28d 17869 (.t .e 0xe7a28e 17522 19570 .e)) 0xe7a297 18087 20135 (.o (.t (.t .e 0xe7a2a7 17884 19932 .e) 0xe7a2b0 17835 19883 .e) 0xe7a2b1 17583 (.t .e 0xe7a2b3 17413 19461 .e))) 0xe7a2ba 18776 (.t (.o (.t (.o .e 0xe7a2bc 19887 .e) 0xe7a381 17267 19315 .e) 0xe7a39a 19997 (.t .e 0xe7a3a8 17518 19566 .e)) 0xe7a3b7 17706 19754 (.o (.o .e 0xe7a48e 19122 .e) 0xe7a499 19917 (.o .e 0xe7a4a6 18835 .e)))) 0xe7a4ba 16717 18765 (.t (.t (.t (.t (.o .e 0xe7a4bc 17774 .e) 0xe7a4be 16505 18553 .e) 0xe7a596 17269 19317 (.t .e 0xe7a59d 18006 20054 .e)) 0xe7a59e 16900 18948 (.t (.t .e 0xe7a5a5 17885 19933 .e) 0xe7a5a8 17894 19942 (.o .e 0xe7a5b8 18416 .e))) 0xe7a681 17589 19637 (.o (.o (.t (.o .e 0xe7a68d 20464 .e) 0xe7a68f 17260 19308 .e) 0xe7a6a6 20285 (.o .e 0xe7a6ae 19822 .e)) 0xe7a6bb 16725 (.t (.t .e 0xe7a780 17627 19675 .e) 0xe7a781 17399 19447 (.t .e 0xe7a78b 17287 19335 .e)))))
def mnemonicTree47 : Tree := .t (.t (.t (.t (.t (.t (.t .e 0xe7a791 16730 18778 .e) 0xe7a792 18007 20055 .e) 0xe7a798 17685 19733 (.t .e 0xe7a79f 17950 19998 .e)) 0xe7a7a6 17496 19544 (.o (.t (.t .e 0xe7a7a7 17964 20012 .e) 0xe7a7a9 18019 20067 .e) 0xe7a7af 16716 (.o .e 0xe7a7b0 16819 .e))) 0xe7a7bb 17106 19154 (.o (.t (.o (.t .e 0xe7a880 17852 19900 .e) 0xe7a885 19426 .e) 0xe7a88b 16571 18619 (.t .e 0xe7a88d 17718 19766 .e)) 0xe7a88e 17378 (.o (.o .e 0xe7a8ae 18481 .e) 0xe7a8b1 18867 (.o .e 0xe7a8b3 17160 .e)))) 0xe7a8bb 17645 19693 (.t (.o (.o (.t (.t .e 0xe7a8bf 18041 20089 .e) 0xe7a986 18223 20271 .e) 0xe7a98d 18764 (.t .e 0xe7a997 18079 20127 .e)) 0xe7a9a9 19208 (.t (.o (.t .e 0xe7a9b6 16761 18809 .e) 0xe7a9b7 17758 .e) 0xe7a9ba 16738 18786 (.t .e 0xe7a9bf 17242 19290 .e))) 0xe7aa81 17078 19126 (.t (.o (.o (.t .e 0xe7aa97 17737 19785 .e) 0xe7aa9d 18354 .e) 0xe7aaa9 20402 (.o .e 0xe7aaae 19806 .e)) 0xe7ab8b 16561 18609 (.o (.t .e 0xe7ab99 17041 19089 .e) 0xe7ab9e 17977 (.t .e 0xe7ab9f 17407 19455 .e))))) 0xe7aba0 16959 19007 (.o (.t (.o (.o (.t (.t .e 0xe7aba5 17695 19743 .e) 0xe7abaf 17039 19087 .e) 0xe7abb6 20025 (.t .e 0xe7abb9 17761 19809 .e)) 0xe7ac94 17000 (.o (.t (.t .e 0xe7aca6 17398 19446 .e) 0xe7acac 16538 18586 .e) 0xe7acbc 18201 (.o .e 0xe7ad86 19048 .e))) 0xe7ad89 16452 18500 (.t (.t (.o (.t .e 0xe7ad8b 18067 20115 .e) 0xe7ad91 17436 .e) 0xe7ad92 17599 19647 (.t .e 0xe7ad94 17244 19292 .e)) 0xe7ad96 17030 19078 (.o (.o .e 0xe7ad9b 18027 .e) 0xe7adb9 18062 (.o .e 0xe7adbe 17916 .e)))) 0xe7ae80 17042 (.o (.o (.t (.t (.t .e 0xe7ae97 16767 18815 .e) 0xe7aea1 16590 18638 .e) 0xe7aead 18387 20435 (.t .e 0xe7aeb1 17558 19606 .e)) 0xe7af80 18782 (.o (.t .e 0xe7af87 17473 19521 .e) 0xe7af89 19484 (.o .e 0xe7afa9 20075 .e))) 0xe7b0a1 19090 (.o (.o (.o (.t .e 0xe7b0a7 17967 20015 .e) 0xe7b0bd 19964 .e) 0xe7b18c 20110 (.t .e 0xe7b18d 17984 20032 .e)) 0xe7b1a0 20249 (.o (.t .e 0xe7b1b3 16736 18784 .e) 0xe7b1bb 16723 (.t .e 0xe7b289 17080 19128 .e)))))
def mnemonicTree48 : Tree := .o mnemonicTree46 0xe7a78d 16433 mnemonicTree47
def mnemonicTree49 : Tree := .o (.o (.t (.t (.o (.t (.t .e 0xe7b297 17510 19558 .e) 0xe7b298 17980 20028 .e) 0xe7b2aa 18378 (.o .e 0xe7b2ae 17191 .e)) 0xe7b2be 16822 18870 (.o (.t (.t .e 0xe7b38a 17973 20021 .e) 0xe7b396 17395 19443 .e) 0xe7b39e 20426 (.o .e 0xe7b3a7 19239 .e))) 0xe7b3bb 16555 18603 (.o (.o (.o (.o .e 0xe7b3be 20041 .e) 0xe7b480 19117 .e) 0xe7b484 18849 (.o .e 0xe7b485 18921 .e)) 0xe7b48b 19825 (.o (.o .e 0xe7b48d 19472 .e) 0xe7b494 19441 (.o .e 0xe7b497 19665 .e)))) 0xe7b499 19221 (.o (.t (.t (.o (.o .e 0xe7b49a 18650 .e) 0xe7b49b 19612 .e) 0xe7b4a0 16791 18839 (.o .e 0xe7b4a1 19636 .e)) 0xe7b4a2 17495 19543 (.t (.t (.o .e 0xe7b4a7 16956 .e) 0xe7b4ab 17919 19967 .e) 0xe7b4af 17491 19539 (.o .e 0xe7b4b0 18922 .e))) 0xe7b4b3 20277 (.o (.o (.o (.o .e 0xe7b4b9 19395 .e) 0xe7b582 19162 .e) 0xe7b584 18659 (.o .e 0xe7b590 18595 .e)) 0xe7b595 19135 (.o (.o .e 0xe7b5a1 20264 .e) 0xe7b5a6 18693 (.o .e 0xe7b5a8 20161 .e))))) 0xe7b5b1 18654 (.o (.o (.o (.o (.o (.o .e 0xe7b5b2 19140 .e) 0xe7b693 18494 .e) 0xe7b69c 19595 (.o .e 0xe7b6a0 19362 .e)) 0xe7b6ad 18875 (.o (.o (.o .e 0xe7b6b1 19786 .e) 0xe7b6b2 19678 .e) 0xe7b6b8 20259 (.o .e 0xe7b78a 19004 .e))) 0xe7b792 20030 (.o (.o (.o (.o .e 0xe7b79a 18568 .e) 0xe7b7a3 19804 .e) 0xe7b7a8 19346 (.o .e 0xe7b7a9 19641 .e)) 0xe7b7af 20239 (.o (.o .e 0xe7b7b4 19024 .e) 0xe7b8a3 18917 (.o .e 0xe7b8ab 19839 .e)))) 0xe7b8ae 19297 (.o (.o (.o (.o (.o .e 0xe7b8b1 19682 .e) 0xe7b8bd 18631 .e) 0xe7b8be 19755 (.t .e 0xe7b981 17467 19515 .e)) 0xe7b994 18812 (.o (.o .e 0xe7b99e 19751 .e) 0xe7b9a9 19812 (.o .e 0xe7b9aa 20104 .e))) 0xe7b9b3 20365 (.o (.o (.o (.o .e 0xe7b9bc 19035 .e) 0xe7ba8c 19011 .e) 0xe7ba96 19557 (.o .e 0xe7ba9c 20389 .e)) 0xe7baa0 17993 (.o (.o .e 0xe7baa2 16873 .e) 0xe7baa4 17509 (.o .e 0xe7baa6 16801 .e)))))
def mnemonicTree50 : Tree := .o (.o (.o (.o (.o (.o (.o .e 0xe7baaa 17069 .e) 0xe7baac 18191 .e) 0xe7baaf 17393 (.o .e 0xe7bab1 17617 .e)) 0xe7bab2 17738 (.o (.o (.o .e 0xe7bab3 17424 .e) 0xe7bab5 17634 .e) 0xe7bab6 18211 (.o .e 0xe7bab7 17564 .e))) 0xe7bab8 17173 (.o (.o (.o (.o .e 0xe7bab9 17777 .e) 0xe7baba 17588 .e) 0xe7babf 16520 (.o .e 0xe7bb83 16976 .e)) 0xe7bb84 16611 (.o (.o .e 0xe7bb85 18229 .e) 0xe7bb86 16874 (.o .e 0xe7bb87 16764 .e)))) 0xe7bb88 17114 (.o (.o (.o (.o (.o .e 0xe7bb8d 17347 .e) 0xe7bb8f 16446 .e) 0xe7bb92 18113 (.o .e 0xe7bb93 16547 .e)) 0xe7bb95 17703 (.o (.o .e 0xe7bb98 18056 .e) 0xe7bb99 16645 (.o .e 0xe7bb9c 18216 .e))) 0xe7bb9d 17087 (.o (.o (.o (.o .e 0xe7bb9f 16606 .e) 0xe7bba7 16987 .e) 0xe7bba9 17707 (.o .e 0xe7bbaa 17982 .e)) 0xe7bbad 16963 (.o (.o .e 0xe7bbb3 17764 .e) 0xe7bbb4 16827 (.o .e 0xe7bbbc 17547 .e))))) 0xe7bbbf 17314 (.t (.t (.o (.o (.o (.o .e 0xe7bc86 18341 .e) 0xe7bc93 17593 .e) 0xe7bc96 17298 (.o .e 0xe7bc98 17756 .e)) 0xe7bc9d 17791 (.t (.o (.o .e 0xe7bca9 17249 .e) 0xe7bcb4 18317 .e) 0xe7bcb8 17874 19922 (.t .e 0xe7bcba 17175 19223 .e))) 0xe7bd90 18215 20263 (.t (.o (.o (.o .e 0xe7bd91 17630 .e) 0xe7bd97 17098 .e) 0xe7bd9a 17785 (.o .e 0xe7bda2 17778 .e)) 0xe7bda9 18361 20409 (.t (.t .e 0xe7bdaa 16899 18947 .e) 0xe7bdae 16849 18897 (.o .e 0xe7bdb0 19833 .e)))) 0xe7bdb2 18021 20069 (.o (.t (.o (.o (.o .e 0xe7bdb5 20155 .e) 0xe7bdb7 19826 .e) 0xe7be85 19146 (.t .e 0xe7be8a 18052 20100 .e)) 0xe7be8e 16688 18736 (.o (.t .e 0xe7bea4 16748 18796 .e) 0xe7bea9 18554 (.t .e 0xe7bebd 18257 20305 .e))) 0xe7bf92 18847 (.t (.t (.t (.t .e 0xe7bfbb 17275 19323 .e) 0xe7bfbc 18210 20258 .e) 0xe88080 18327 20375 (.t .e 0xe88081 16595 18643 .e)) 0xe88083 17027 19075 (.t (.t .e 0xe88085 16559 18607 .e) 0xe8808c 16435 18483 (.t .e 0xe88090 17335 19383 .e)))))
def mnemonicTree51 : Tree := .o mnemonicTree49 0xe7baa7 16602 mnemonicTree50
def mnemonicTree52 : Tree := .t mnemonicTree48 0xe7b292 17214 19262 mnemonicTree51
def mnemonicTree53 : Tree := .o (.t (.o (.o (.o (.t (.t .e 0xe88097 17459 19507 .e) 0xe880b3 17620 19668 .e) 0xe8818c 17008 (.o .e 0xe88194 16678 .e)) 0xe88196 19946 (.o (.o (.t .e 0xe8819a 17115 19163 .e) 0xe8819e 19587 .e) 0xe881af 18726 (.o .e 0xe881b2 18767 .e))) 0xe881b7 19056 (.t (.o (.o (.o .e 0xe881bd 18924 .e) 0xe88283 17873 .e) 0xe88285 19921 (.t .e 0xe88289 17276 19324 .e)) 0xe8828c 18187 20235 (.o (.t .e 0xe8829a 18266 20314 .e) 0xe882a0 18389 (.t .e 0xe882a1 17690 19738 .e)))) 0xe882a5 17196 19244 (.t (.o (.t (.t (.t .e 0xe882a9 17983 20031 .e) 0xe882af 17654 19702 .e) 0xe882b2 16857 18905 (.o .e 0xe88380 18171 .e)) 0xe88381 18044 (.t (.t (.o .e 0xe88386 17965 .e) 0xe8838c 17258 19306 .e) 0xe8838e 18364 20412 (.o .e 0xe8839c 17086 .e))) 0xe8839e 17309 19357 (.t (.t (.o (.t .e 0xe883a1 17344 19392 .e) 0xe883b6 17323 .e) 0xe883b8 17937 19985 (.t .e 0xe883ba 18307 20355 .e)) 0xe883bd 16427 18475 (.o (.t .e 0xe88482 17497 19545 .e) 0xe88485 20092 (.t .e 0xe88486 18251 20299 .e))))) 0xe88488 19674 (.t (.t (.o (.o (.o (.o .e 0xe88489 17626 .e) 0xe8848f 18181 .e) 0xe88491 17411 (.o .e 0xe8849a 17254 .e)) 0xe884ab 19242 (.o (.o (.o .e 0xe884b1 17194 .e) 0xe884b8 17251 .e) 0xe884b9 20219 (.o .e 0xe8858a 18353 .e))) 0xe88590 17609 19657 (.o (.t (.o (.t .e 0xe88594 18149 20197 .e) 0xe885a6 19459 .e) 0xe885b0 17755 19803 (.o .e 0xe885b3 19302 .e)) 0xe885b8 20437 (.o (.t .e 0xe885b9 18300 20348 .e) 0xe885be 17905 (.t .e 0xe885bf 17658 19706 .e)))) 0xe8869c 17752 19800 (.o (.o (.o (.t (.o .e 0xe886a0 19371 .e) 0xe886a8 18219 20267 .e) 0xe886bd 20013 (.t .e 0xe88782 17931 19979 .e)) 0xe88789 19299 (.o (.o .e 0xe88798 20401 .e) 0xe8879f 20229 (.t .e 0xe887a3 17622 19670 .e))) 0xe887a8 19374 (.o (.t (.t (.t .e 0xe887aa 16463 18511 .e) 0xe887b3 16713 18761 .e) 0xe887b4 16978 19026 (.o .e 0xe88887 18563 .e)) 0xe88888 19036 (.o (.o .e 0xe88889 18960 .e) 0xe8888a 19199 (.t .e 0xe8888d 17701 19749 .e)))))
def mnemonicTree54 : Tree := .t (.o (.o (.o (.t (.t (.t .e 0xe8889e 17631 19679 .e) 0xe8889f 17817 19865 .e) 0xe888aa 17371 19419 (.t .e 0xe888ac 16803 18851 .e)) 0xe888b0 17952 (.o (.t (.t .e 0xe888b9 17001 19049 .e) 0xe88987 18426 20474 .e) 0xe889a6 20000 (.t .e 0xe889af 17065 19113 .e))) 0xe889b0 17833 (.t (.o (.t (.o .e 0xe889b1 19881 .e) 0xe889b2 16646 18694 .e) 0xe889ba 16901 (.o .e 0xe88a82 16734 .e)) 0xe88aaf 18045 20093 (.t (.t .e 0xe88ab1 16700 18748 .e) 0xe88ab3 17653 19701 (.t .e 0xe88abd 17841 19889 .e)))) 0xe88b8d 18365 (.t (.t (.t (.t (.o .e 0xe88b8f 16888 .e) 0xe88b97 17355 19403 .e) 0xe88ba5 17130 19178 (.t .e 0xe88ba6 17103 19151 .e)) 0xe88baf 17819 19867 (.t (.t .e 0xe88bb1 16914 18962 .e) 0xe88c83 16986 19034 (.o .e 0xe88c8e 18200 .e))) 0xe88cb6 17189 19237 (.o (.o (.t (.t .e 0xe88d89 17049 19097 .e) 0xe88d92 17904 19952 .e) 0xe88da1 17657 (.o .e 0xe88da3 17572 .e)) 0xe88daf 17220 (.o (.t .e 0xe88db7 17432 19480 .e) 0xe88e8a 19652 (.o .e 0xe88e96 20248 .e))))) 0xe88eab 17682 19730 (.o (.o (.t (.o (.o (.o .e 0xe88eb1 18408 .e) 0xe88eb2 18394 .e) 0xe88eb7 17188 (.t .e 0xe88f8c 17392 19440 .e)) 0xe88f9c 17149 19197 (.o (.t (.o .e 0xe88faf 18774 .e) 0xe89084 18373 20421 .e) 0xe8908a 20456 (.o .e 0xe890a5 16909 .e))) 0xe890a7 18278 (.o (.t (.o (.o .e 0xe890a8 17628 .e) 0xe890ac 18758 .e) 0xe890bd 16920 18968 (.o .e 0xe89189 18998 .e)) 0xe89197 18499 (.t (.t .e 0xe891a1 18306 20354 .e) 0xe891a3 18294 20342 (.o .e 0xe891b1 18360 .e)))) 0xe8928b 18112 (.o (.o (.o (.t (.t .e 0xe89299 17652 19700 .e) 0xe892b8 17351 19399 .e) 0xe892bc 20413 (.t .e 0xe89384 18124 20172 .e)) 0xe8938b 19444 (.o (.o .e 0xe8939d 17721 .e) 0xe893ae 20442 (.t .e 0xe894a1 18401 20449 .e))) 0xe894a3 20160 (.o (.o (.t (.o .e 0xe894a5 20408 .e) 0xe894ac 18220 20268 .e) 0xe895ad 20326 (.t .e 0xe89684 17422 19470 .e)) 0xe896a9 19676 (.o (.t .e 0xe896af 18131 20179 .e) 0xe8978d 19769 (.t .e 0xe8978f 17606 19654 .e)))))
def mnemonicTree55 : Tree := .t mnemonicTree53 0xe88892 18250 20298 mnemonicTree54
def mnemonicTree56 : Tree := .o (.t (.o (.o (.o (.o (.o .e 0xe897a5 19268 .e) 0xe89887 18936 .e) 0xe898ad 19284 (.t .e 0xe8998e 17851 19899 .e)) 0xe89991 17420 (.o (.o (.o .e 0xe89995 18690 .e) 0xe8999a 17730 .e) 0xe8999b 19778 (.o .e 0xe8999f 18872 .e))) 0xe899a7 20196 (.t (.o (.o (.o .e 0xe899ab 17409 .e) 0xe899bd 17015 .e) 0xe899be 17934 (.o .e 0xe89a80 18048 .e)) 0xe89b8b 17239 19287 (.o (.o .e 0xe89ca1 17935 .e) 0xe89d95 20096 (.o .e 0xe89da6 19982 .e)))) 0xe89e8d 18058 20106 (.t (.t (.o (.o (.t .e 0xe89eba 17861 19909 .e) 0xe89fb2 19457 .e) 0xe8a09f 19983 (.t .e 0xe8a180 17202 19250 .e)) 0xe8a18c 16440 18488 (.o (.t (.o .e 0xe8a193 18722 .e) 0xe8a197 17605 19653 .e) 0xe8a19b 19170 (.o .e 0xe8a19d 19098 .e))) 0xe8a1a1 17318 19366 (.t (.t (.o (.t .e 0xe8a1a3 17279 19327 .e) 0xe8a1a5 17273 .e) 0xe8a1a8 16512 18560 (.t .e 0xe8a1b0 18178 20226 .e)) 0xe8a281 17084 19132 (.t (.t .e 0xe8a28b 17806 19854 .e) 0xe8a296 17782 19830 (.t .e 0xe8a2ab 16631 18679 .e))))) 0xe8a2ad 18066 (.o (.t (.o (.o (.t (.t .e 0xe8a381 17387 19435 .e) 0xe8a382 17308 19356 .e) 0xe8a385 16765 (.t .e 0xe8a395 18385 20433 .e)) 0xe8a39c 19321 (.o (.o (.o .e 0xe8a39d 18813 .e) 0xe8a3a1 18506 .e) 0xe8a5b2 20114 (.t .e 0xe8a5bf 16630 18678 .e))) 0xe8a681 16402 18450 (.o (.o (.o (.t .e 0xe8a686 18152 20200 .e) 0xe8a68b 18660 .e) 0xe8a68f 18703 (.o .e 0xe8a696 19001 .e)) 0xe8a6aa 18883 (.o (.o .e 0xe8a6ba 19057 .e) 0xe8a6bd 20362 (.o .e 0xe8a780 18810 .e)))) 0xe8a781 16612 (.o (.o (.o (.o (.o .e 0xe8a782 16762 .e) 0xe8a784 16655 .e) 0xe8a786 16953 (.o .e 0xe8a788 18314 .e)) 0xe8a789 17009 (.t (.t .e 0xe8a792 16617 18665 .e) 0xe8a7a3 16548 18596 (.o .e 0xe8a7a6 17300 .e))) 0xe8a7b8 19348 (.o (.o (.o (.t .e 0xe8a880 16945 18993 .e) 0xe8a882 19608 .e) 0xe8a888 18661 (.o .e 0xe8a88a 19930 .e)) 0xe8a88e 19260 (.o (.o .e 0xe8a893 19232 .e) 0xe8a898 18799 (.o .e 0xe8a89f 19868 .e)))))
def mnemonicTree57 : Tree := .o (.o (.o (.o (.o (.o (.o .e 0xe8a8ad 18636 .e) 0xe8a8b1 18794 .e) 0xe8a8b4 19142 (.o .e 0xe8a995 19322 .e)) 0xe8a99e 19580 (.o (.o (.o .e 0xe8a9a6 19014 .e) 0xe8a9a9 19352 .e) 0xe8a9b1 18783 (.o .e 0xe8a9b2 18925 .e))) 0xe8a9b3 20014 (.o (.o (.o (.o .e 0xe8aa8d 18728 .e) 0xe8aa9e 19215 .e) 0xe8aaa0 19931 (.o .e 0xe8aaa3 20374 .e)) 0xe8aaa4 19231 (.o (.o .e 0xe8aaaa 18479 .e) 0xe8aab0 19294 (.o .e 0xe8aab2 19390 .e)))) 0xe8aabc 20371 (.o (.o (.o (.o (.o .e 0xe8aabf 18915 .e) 0xe8ab87 18946 .e) 0xe8ab8b 19107 (.o .e 0xe8ab96 18668 .e)) 0xe8aba7 20220 (.o (.o .e 0xe8abae 20386 .e) 0xe8abb8 19858 (.o .e 0xe8abbe 20369 .e))) 0xe8ac80 19534 (.o (.o (.o (.o .e 0xe8ac82 19258 .e) 0xe8ac9b 18940 .e) 0xe8ac9d 19563 (.o .e 0xe8ad89 18733 .e)) 0xe8ad98 18908 (.t (.o .e 0xe8ad9c 20018 .e) 0xe8ada6 17546 19594 (.o .e 0xe8adaf 20080 .e))))) 0xe8adb0 18766 (.o (.o (.o (.o (.o (.o .e 0xe8adb7 19020 .e) 0xe8ae80 19274 .e) 0xe8ae8a 18591 (.o .e 0xe8ae93 19110 .e)) 0xe8aea1 16613 (.o (.o (.o .e 0xe8aea2 17560 .e) 0xe8aea4 16680 .e) 0xe8aea8 17212 (.o .e 0xe8aea9 17062 .e))) 0xe8aead 17184 (.o (.o (.o (.o .e 0xe8aeae 16718 .e) 0xe8aeaf 17882 .e) 0xe8aeb0 16751 (.o .e 0xe8aeb2 16892 .e)) 0xe8aeb8 16746 (.o (.o .e 0xe8aeba 16620 .e) 0xe8aebc 17820 (.o .e 0xe8aebe 16588 .e)))) 0xe8aebf 17439 (.o (.o (.o (.o (.o .e 0xe8af81 16685 .e) 0xe8af84 17274 .e) 0xe8af86 16860 (.o .e 0xe8af89 17094 .e)) 0xe8af8d 17532 (.o (.o .e 0xe8af91 18032 .e) 0xe8af95 16966 (.o .e 0xe8af97 17304 .e))) 0xe8af9a 17883 (.o (.o (.o (.o .e 0xe8af9d 16735 .e) 0xe8afa5 16877 .e) 0xe8afa6 17966 (.o .e 0xe8afac 18326 .e)) 0xe8afad 17167 (.o (.o .e 0xe8afaf 17183 .e) 0xe8afb4 16431 (.o .e 0xe8afb7 17059 .e)))))
def mnemonicTree58 : Tree := .o mnemonicTree56 0xe8a8aa 19487 mnemonicTree57
def mnemonicTree59 : Tree := .o mnemonicTree55 0xe8979d 18949 mnemonicTree58
def mnemonicTree60 : Tree := .t mnemonicTree52 0xe88095 17570 19618 mnemonicTree59
def mnemonicTree61 : Tree := .t mnemonicTree45 0xe79b9f 17317 19365 mnemonicTree60
def mnemonicTree62 : Tree := .o mnemonicTree30 0xe69290 20438 mnemonicTree61
def mnemonicTree63 : Tree := .o (.t (.o (.o (.o (.o (.o .e 0xe8afba 18321 .e) 0xe8afbb 17226 .e) 0xe8afbe 17342 (.o .e 0xe8b081 17246 .e)) 0xe8b083 16867 (.o (.o (.o .e 0xe8b088 16898 .e) 0xe8b08a 18323 .e) 0xe8b08b 17486 (.o .e 0xe8b090 18172 .e))) 0xe8b093 17210 (.o (.t (.o (.o .e 0xe8b0a2 17515 .e) 0xe8b0b1 17970 .e) 0xe8b0b7 17556 19604 (.t .e 0xe8b186 17500 19548 .e)) 0xe8b190 19281 (.t (.t .e 0xe8b1a1 16576 18624 .e) 0xe8b1aa 18094 20142 (.o .e 0xe8b1ac 19537 .e)))) 0xe8b28c 18009 20057 (.o (.o (.o (.o (.o .e 0xe8b29d 19882 .e) 0xe8b2a0 19032 .e) 0xe8b2a1 19052 (.o .e 0xe8b2a2 19712 .e)) 0xe8b2a7 19777 (.o (.o (.o .e 0xe8b2a8 19202 .e) 0xe8b2aa 20363 .e) 0xe8b2ab 19577 (.o .e 0xe8b2ac 19088 .e))) 0xe8b2af 19821 (.o (.o (.o (.o .e 0xe8b2b4 19271 .e) 0xe8b2b7 19309 .e) 0xe8b2b8 20087 (.o .e 0xe8b2bb 19003 .e)) 0xe8b2bc 19954 (.o (.o .e 0xe8b2bf 19656 .e) 0xe8b380 19687 (.o .e 0xe8b387 18646 .e))))) 0xe8b393 20020 (.o (.o (.o (.o (.o (.o .e 0xe8b39e 20050 .e) 0xe8b3a2 20351 .e) 0xe8b3a3 19506 (.o .e 0xe8b3a6 20183 .e)) 0xe8b3aa 18584 (.o (.o (.o .e 0xe8b3b4 20230 .e) 0xe8b3bc 19565 .e) 0xe8b3bd 19429 (.o .e 0xe8b48a 19605 .e))) 0xe8b49d 17834 (.o (.o (.o (.o .e 0xe8b49f 16984 .e) 0xe8b4a1 17664 .e) 0xe8b4a2 17004 (.o .e 0xe8b4a3 17040 .e)) 0xe8b4a4 18303 (.o (.o .e 0xe8b4a5 17566 .e) 0xe8b4a7 17154 (.o .e 0xe8b4a8 16536 .e)))) 0xe8b4aa 18315 (.o (.o (.o (.o (.o .e 0xe8b4ab 17729 .e) 0xe8b4ad 17517 .e) 0xe8b4ae 17773 (.o .e 0xe8b4af 17529 .e)) 0xe8b4b4 17906 (.o (.o .e 0xe8b4b5 17223 .e) 0xe8b4b7 18039 (.o .e 0xe8b4b8 17608 .e))) 0xe8b4b9 16955 (.o (.o (.o (.o .e 0xe8b4ba 17639 .e) 0xe8b584 16598 .e) 0xe8b58b 18135 (.o .e 0xe8b58f 18002 .e)) 0xe8b596 18182 (.o (.o .e 0xe8b59b 17381 .e) 0xe8b59e 17557 (.t .e 0xe8b5a4 17843 19891 .e)))))
def mnemonicTree64 : Tree := .o (.t (.o (.t (.o (.t (.t .e 0xe8b5b0 16715 18763 .e) 0xe8b5b4 18285 20333 .e) 0xe8b5b5 17338 (.o .e 0xe8b5b6 17373 .e)) 0xe8b5b7 16466 18514 (.o (.t (.t .e 0xe8b685 17060 19108 .e) 0xe8b68a 16763 18811 .e) 0xe8b68b 18014 (.o .e 0xe8b695 19421 .e))) 0xe8b699 19386 (.t (.t (.o (.t .e 0xe8b6a3 17902 19950 .e) 0xe8b6a8 20062 .e) 0xe8b6b3 16974 19022 (.o .e 0xe8b783 17829 .e)) 0xe8b791 17035 19083 (.t (.t .e 0xe8b79d 17121 19169 .e) 0xe8b79f 17014 19062 (.o .e 0xe8b7a1 19494 .e)))) 0xe8b7a8 17800 19848 (.o (.o (.o (.t (.t .e 0xe8b7af 16601 18649 .e) 0xe8b7b3 17339 19387 .e) 0xe8b7b5 17277 (.t .e 0xe8b88f 17968 20016 .e)) 0xe8b890 19325 (.t (.t (.o .e 0xe8ba8d 19877 .e) 0xe8baab 16704 18752 .e) 0xe8baba 18329 20377 (.o .e 0xe8bb8a 18753 .e))) 0xe8bb8b 19710 (.o (.o (.o (.o .e 0xe8bb8c 19726 .e) 0xe8bb8d 18604 .e) 0xe8bb9f 19695 (.o .e 0xe8bbb8 19114 .e)) 0xe8bc83 18657 (.o (.o .e 0xe8bc89 19123 .e) 0xe8bc94 20112 (.o .e 0xe8bc95 19012 .e))))) 0xe8bc9b 19959 (.o (.o (.o (.o (.o (.o .e 0xe8bc9d 20023 .e) 0xe8bca5 20151 .e) 0xe8bca9 20066 (.o .e 0xe8bcaa 18971 .e)) 0xe8bcaf 20168 (.o (.o (.o .e 0xe8bcb8 19041 .e) 0xe8bd84 20458 .e) 0xe8bd89 18739 (.o .e 0xe8bd9f 20281 .e))) 0xe8bda6 16705 (.o (.o (.o (.o .e 0xe8bda7 17662 .e) 0xe8bda8 17678 .e) 0xe8bdac 16691 (.o .e 0xe8bdae 16923 .e)) 0xe8bdaf 17647 (.o (.o .e 0xe8bdb0 18233 .e) 0xe8bdb4 17066 (.o .e 0xe8bdbb 16964 .e)))) 0xe8bdbd 17075 (.o (.o (.o (.o (.o .e 0xe8be83 16609 .e) 0xe8be85 18064 .e) 0xe8be86 17911 (.o .e 0xe8be88 18018 .e)) 0xe8be89 17975 (.o (.o .e 0xe8be8a 18103 .e) 0xe8be91 18120 (.o .e 0xe8be93 16993 .e))) 0xe8be96 18410 (.t (.o (.o (.t .e 0xe8be9b 17726 19774 .e) 0xe8be9e 18108 .e) 0xe8be9f 18262 (.o .e 0xe8bea6 18843 .e)) 0xe8bea8 18392 20440 (.o (.o .e 0xe8bea9 17619 .e) 0xe8bead 20156 (.o .e 0xe8beaf 19667 .e)))))
def mnemonicTree65 : Tree := .t mnemonicTree63 0xe8b5ab 17870 19918 mnemonicTree64
def mnemonicTree66 : Tree := .o (.t (.t (.t (.o (.o (.o .e 0xe8beb9 16599 .e) 0xe8bebd 18095 .e) 0xe8bebe 16714 (.o .e 0xe8bf81 18281 .e)) 0xe8bf85 17128 19176 (.t (.o (.o .e 0xe8bf87 16429 .e) 0xe8bf88 18249 .e) 0xe8bf8e 17481 19529 (.o .e 0xe8bf90 16621 .e))) 0xe8bf91 16786 18834 (.o (.o (.o (.t .e 0xe8bf94 18146 20194 .e) 0xe8bf98 16492 .e) 0xe8bf99 16393 (.o .e 0xe8bf9b 16450 .e)) 0xe8bf9c 16929 (.o (.o .e 0xe8bf9d 17753 .e) 0xe8bf9e 16782 (.o .e 0xe8bf9f 18036 .e)))) 0xe8bfab 17231 19279 (.o (.t (.o (.t (.t .e 0xe8bfb0 17043 19091 .e) 0xe8bfb7 17961 20009 .e) 0xe8bfb9 17446 (.t .e 0xe8bfbd 17478 19526 .e)) 0xe98080 17453 19501 (.t (.o (.t .e 0xe98081 16999 19047 .e) 0xe98082 16861 .e) 0xe98083 17670 19718 (.t .e 0xe98086 18003 20051 .e))) 0xe98089 16829 (.o (.o (.t (.t .e 0xe9808f 17442 19490 .e) 0xe98090 17108 19156 .e) 0xe98092 17921 (.t .e 0xe98094 17379 19427 .e)) 0xe98099 18441 (.t (.t .e 0xe9809a 16565 18613 .e) 0xe9809f 16699 18747 (.t .e 0xe980a0 16653 18701 .e))))) 0xe980a3 18830 (.t (.t (.t (.o (.o (.t .e 0xe980ae 18214 20262 .e) 0xe980b1 18837 .e) 0xe980b2 18498 (.o .e 0xe980bb 18421 .e)) 0xe980bc 18082 20130 (.o (.t (.t .e 0xe98182 18376 20424 .e) 0xe98187 17449 19497 .e) 0xe9818a 19195 (.o .e 0xe9818b 18669 .e))) 0xe9818d 17415 19463 (.o (.o (.t (.o .e 0xe9818e 18477 .e) 0xe98193 16540 18588 .e) 0xe98194 18762 (.o .e 0xe98195 19801 .e)) 0xe98197 17505 (.o (.o .e 0xe9819e 19969 .e) 0xe981a0 18977 (.o .e 0xe981a9 18909 .e)))) 0xe981ad 17552 19600 (.o (.o (.o (.t (.o .e 0xe981b2 20084 .e) 0xe981b5 17858 19906 .e) 0xe981b7 20329 (.o .e 0xe981b8 18877 .e)) 0xe981ba 19553 (.t (.o .e 0xe981bc 20143 .e) 0xe981bf 17485 19533 (.t .e 0xe98280 18246 20294 .e))) 0xe98281 20297 (.t (.o (.o (.o .e 0xe98284 18540 .e) 0xe9828a 18647 .e) 0xe9828f 20469 (.o .e 0xe98293 17945 .e)) 0xe982a3 16504 18552 (.o (.t .e 0xe982a6 17766 19814 .e) 0xe982ae 18280 (.t .e 0xe982b5 18372 20420 .e)))))
def mnemonicTree67 : Tree := .o (.t (.o (.o (.t (.o (.t .e 0xe9838e 18273 20321 .e) 0xe98391 17901 .e) 0xe983a8 16453 18501 (.t .e 0xe983ad 17673 19721 .e)) 0xe983b5 20328 (.o (.o (.t .e 0xe983bd 16473 18521 .e) 0xe98489 19373 .e) 0xe984a7 19993 (.o .e 0xe984ad 19949 .e))) 0xe984b0 19984 (.o (.t (.t (.t .e 0xe9858d 16893 18941 .e) 0xe98592 17169 19217 .e) 0xe9859a 18255 20303 (.t .e 0xe985af 18248 20296 .e)) 0xe985b1 18397 (.t (.t .e 0xe985b5 18057 20105 .e) 0xe985b6 18252 20300 (.t .e 0xe985b7 18202 20250 .e)))) 0xe985b8 16810 18858 (.t (.o (.o (.t (.t .e 0xe98687 18293 20341 .e) 0xe98692 17994 20042 .e) 0xe986ab 19222 (.o .e 0xe986ac 20445 .e)) 0xe98787 16690 (.o (.o .e 0xe9878a 17531 .e) 0xe9878b 19579 (.o .e 0xe9878c 16458 .e))) 0xe9878d 16518 18566 (.o (.t (.t (.t .e 0xe9878e 17488 19536 .e) 0xe9878f 16472 18520 .e) 0xe98791 16667 18715 (.o .e 0xe98798 20246 .e)) 0xe9879d 19226 (.o (.o .e 0xe98889 19824 .e) 0xe988a3 20190 (.o .e 0xe988b4 20339 .e))))) 0xe98980 20119 (.o (.o (.o (.o (.o (.o .e 0xe9899b 19897 .e) 0xe989a4 20459 .e) 0xe989b4 17818 (.o .e 0xe989ba 20392 .e)) 0xe98a80 19214 (.o (.o (.o .e 0xe98a85 19511 .e) 0xe98ab3 19912 .e) 0xe98ab7 19351 (.o .e 0xe98b81 19845 .e))) 0xe98b92 19776 (.o (.o (.o (.o .e 0xe98baa 19945 .e) 0xe98bbc 19085 .e) 0xe98c84 19439 (.o .e 0xe98c90 20253 .e)) 0xe98ca0 20286 (.o (.o .e 0xe98ca2 19092 .e) 0xe98ca6 20287 (.o .e 0xe98cab 20108 .e)))) 0xe98caf 19150 (.o (.o (.o (.o (.o .e 0xe98d8b 19626 .e) 0xe98d9b 20290 .e) 0xe98db5 19623 (.o .e 0xe98e96 20044 .e)) 0xe98eae 19416 (.o (.o .e 0xe98f88 19851 .e) 0xe98fa1 19773 (.o .e 0xe99098 19272 .e))) 0xe990b5 18926 (.o (.o (.o (.o .e 0xe99184 19744 .e) 0xe99191 19866 .e) 0xe991bd 19716 (.o .e 0xe99288 17178 .e)) 0xe99289 18198 (.o (.o .e 0xe99299 18142 .e) 0xe9929f 17224 (.o .e 0xe992a0 17776 .e)))))
def mnemonicTree68 : Tree := .o mnemonicTree66 0xe982bb 17936 mnemonicTree67
def mnemonicTree69 : Tree := .o mnemonicTree65 0xe8beb2 18670 mnemonicTree68
def mnemonicTree70 : Tree := .o (.o (.o (.o (.o (.o (.o .e 0xe992a9 18411 .e) 0xe992b1 17044 .e) 0xe992bb 17668 (.o .e 0xe992be 18071 .e)) 0xe99381 16878 (.o (.o (.o .e 0xe99383 18291 .e) 0xe99385 17849 .e) 0xe99392 18344 (.o .e 0xe9939c 17463 .e))) 0xe9939d 17797 (.o (.o (.o (.o .e 0xe993b6 17166 .e) 0xe993b8 17696 .e) 0xe993ba 17897 (.o .e 0xe993be 17803 .e)) 0xe99480 17303 (.o (.o .e 0xe99481 17996 .e) 0xe99485 17578 (.o .e 0xe9948b 17728 .e)))) 0xe99490 17864 (.o (.o (.o (.o (.o .e 0xe99499 17102 .e) 0xe994a1 18060 .e) 0xe994a5 18205 (.o .e 0xe994a6 18239 .e)) 0xe994ad 18238 (.o (.o (.o .e 0xe994ae 17575 .e) 0xe994bb 18242 .e) 0xe99587 17368 (.o .e 0xe9959c 17725 .e))) 0xe995b7 18641 (.o (.o (.o (.o .e 0xe995bf 16593 .e) 0xe99680 18696 .e) 0xe99683 19688 (.o .e 0xe99689 19621 .e)) 0xe9968b 18537 (.o (.o .e 0xe99692 20301 .e) 0xe99693 18561 (.o .e 0xe996a3 20455 .e))))) 0xe996a5 19746 (.t (.o (.o (.o (.o (.o .e 0xe996b1 20234 .e) 0xe9978a 19958 .e) 0xe9979c 18564 (.o .e 0xe997a2 20310 .e)) 0xe997a8 16648 (.o (.o (.o .e 0xe997aa 17640 .e) 0xe997ad 17573 .e) 0xe997ae 16549 (.o .e 0xe997b2 18253 .e))) 0xe997b4 16513 (.o (.o (.o (.o .e 0xe997b7 18337 .e) 0xe997b9 17917 .e) 0xe997bb 17539 (.o .e 0xe99880 17698 .e)) 0xe99881 18407 (.o (.o .e 0xe99885 18186 .e) 0xe99894 17910 (.o .e 0xe9989f 16643 .e)))) 0xe998b2 16911 18959 (.o (.t (.o (.o (.o .e 0xe998b3 17022 .e) 0xe998b4 17475 .e) 0xe998b5 17474 (.o .e 0xe998b6 16671 .e)) 0xe998bb 17157 19205 (.t (.t .e 0xe998bf 17055 19103 .e) 0xe99984 17187 19235 (.o .e 0xe99985 16778 .e))) 0xe99986 17327 (.o (.t (.t (.o .e 0xe99988 17096 .e) 0xe9998d 16981 19029 .e) 0xe99990 17054 19102 (.o .e 0xe99995 18121 .e)) 0xe9999d 20169 (.o (.t .e 0xe999a2 16839 18887 .e) 0xe999a3 19522 (.t .e 0xe999a4 16815 18863 .e)))))
def mnemonicTree71 : Tree := .t (.o (.o (.t (.o (.o (.t .e 0xe999aa 18261 20309 .e) 0xe999b0 19523 .e) 0xe999b3 19144 (.t .e 0xe999b5 18005 20053 .e)) 0xe999b6 17924 19972 (.o (.o (.t .e 0xe999b7 17712 19760 .e) 0xe999b8 19375 .e) 0xe999bd 19070 (.t .e 0xe99a86 17860 19908 .e))) 0xe99a8a 18691 (.t (.o (.o (.o .e 0xe99a8e 18719 .e) 0xe99a8f 16886 .e) 0xe99a90 17868 (.t .e 0xe99a94 17559 19607 .e)) 0xe99a99 17978 20026 (.t (.o .e 0xe99a9b 18826 .e) 0xe99a9c 17671 19719 (.o .e 0xe99aa8 18934 .e)))) 0xe99aaa 19436 (.t (.t (.o (.o (.o .e 0xe99ab1 19916 .e) 0xe99ab6 17740 .e) 0xe99ab8 19788 (.o .e 0xe99abe 16785 .e)) 0xe99b84 17480 19528 (.t (.t .e 0xe99b85 18279 20327 .e) 0xe99b86 16742 18790 (.o .e 0xe99b8f 18296 .e))) 0xe99b95 18122 20170 (.o (.o (.o (.o .e 0xe99b96 19063 .e) 0xe99b99 19106 .e) 0xe99b9b 20344 (.o .e 0xe99b9c 19064 .e)) 0xe99b9e 19367 (.o (.o .e 0xe99ba2 18773 .e) 0xe99ba3 18833 (.t .e 0xe99ba8 17176 19224 .e))))) 0xe99baa 17469 19517 (.t (.t (.o (.t (.t (.o .e 0xe99bb2 19166 .e) 0xe99bb6 17360 19408 .e) 0xe99bb7 17302 19350 (.o .e 0xe99bbb 18504 .e)) 0xe99bbe 18114 (.o (.t (.t .e 0xe99c80 16752 18800 .e) 0xe99c87 17745 19793 .e) 0xe99c89 18174 (.t .e 0xe99c8d 18362 20410 .e))) 0xe99c9e 18371 20419 (.t (.t (.t (.o .e 0xe99ca7 20162 .e) 0xe99cb2 17364 19412 .e) 0xe99cb8 18000 20048 (.o .e 0xe99d88 19425 .e)) 0xe99d92 16796 18844 (.o (.o .e 0xe99d99 17272 .e) 0xe99d9c 19320 (.t .e 0xe99d9e 16780 18828 .e)))) 0xe99da0 17109 19157 (.t (.o (.t (.t (.t .e 0xe99da2 16434 18482 .e) 0xe99da9 16578 18626 .e) 0xe99e8b 18150 20198 (.o .e 0xe99e8f 19986 .e)) 0xe99f8b 20476 (.o (.o .e 0xe99f93 20129 .e) 0xe99fa6 18428 (.o .e 0xe99fa9 18081 .e))) 0xe99fb3 16770 18818 (.o (.o (.o (.o .e 0xe99fbf 18848 .e) 0xe9a081 19935 .e) 0xe9a082 19121 (.o .e 0xe9a085 18958 .e)) 0xe9a086 19295 (.o (.o .e 0xe9a088 18825 .e) 0xe9a090 19204 (.o .e 0xe9a091 20304 .e)))))
def mnemonicTree72 : Tree := .o mnemonicTree70 0xe999a9 17388 mnemonicTree71
def mnemonicTree73 : Tree := .o (.o (.o (.o (.o (.o (.o .e 0xe9a097 20394 .e) 0xe9a098 18705 .e) 0xe9a0ad 18644 (.o .e 0xe9a0bb 19155 .e)) 0xe9a186 19895 (.o (.o (.o .e 0xe9a18c 18617 .e) 0xe9a18d 19393 .e) 0xe9a18f 19764 (.o .e 0xe9a198 19233 .e))) 0xe9a19e 18771 (.o (.o (.o (.o .e 0xe9a1a7 19376 .e) 0xe9a1af 18945 .e) 0xe9a1b5 17887 (.o .e 0xe9a1b6 17073 .e)) 0xe9a1b9 16910 (.o (.o .e 0xe9a1ba 17247 .e) 0xe9a1bb 16777 (.o .e 0xe9a1bd 18256 .e)))) 0xe9a1be 17328 (.o (.o (.o (.o (.o .e 0xe9a1bf 17535 .e) 0xe9a284 17156 .e) 0xe9a286 16657 (.o .e 0xe9a287 18346 .e)) 0xe9a291 17107 (.o (.o (.o .e 0xe9a297 17847 .e) 0xe9a298 16569 .e) 0xe9a29c 17716 (.o .e 0xe9a29d 17345 .e))) 0xe9a2a8 18742 (.o (.o (.o (.o .e 0xe9a384 20316 .e) 0xe9a38e 16694 .e) 0xe9a398 18268 (.o .e 0xe9a39b 19065 .e)) 0xe9a39e 17017 (.o (.t .e 0xe9a39f 16967 19015 .e) 0xe9a3af 19417 (.o .e 0xe9a3b2 20153 .e))))) 0xe9a3bc 19474 (.t (.o (.o (.o (.o (.o .e 0xe9a3bd 19842 .e) 0xe9a3be 20325 .e) 0xe9a485 20343 (.o .e 0xe9a48a 18895 .e)) 0xe9a493 20463 (.o (.o (.o .e 0xe9a498 19038 .e) 0xe9a4a8 19542 .e) 0xe9a4b5 19974 (.o .e 0xe9a4be 20140 .e))) 0xe9a5ad 17369 (.o (.o (.o (.o .e 0xe9a5ae 18105 .e) 0xe9a5b0 18277 .e) 0xe9a5b1 17794 (.o .e 0xe9a5b2 17426 .e)) 0xe9a5bc 18295 (.o (.o .e 0xe9a5bf 18415 .e) 0xe9a686 17494 (.o .e 0xe9a68f 18092 .e)))) 0xe9a696 16881 18929 (.o (.o (.o (.o (.t .e 0xe9a699 17229 19277 .e) 0xe9a6ac 18781 .e) 0xe9a6ae 20368 (.o .e 0xe9a781 20431 .e)) 0xe9a790 19625 (.o (.o .e 0xe9a795 20388 .e) 0xe9a79b 20178 (.o .e 0xe9a88e 20379 .e))) 0xe9a899 20205 (.o (.o (.o (.o .e 0xe9a8b0 19953 .e) 0xe9a985 20074 .e) 0xe9a997 18829 (.o .e 0xe9a99a 19551 .e)) 0xe9a99f 20270 (.o (.o .e 0xe9a9ac 16733 .e) 0xe9a9b1 18026 (.o .e 0xe9a9b3 18383 .e)))))
def mnemonicTree74 : Tree := .o (.o (.t (.o (.o (.o (.o .e 0xe9a9bb 17577 .e) 0xe9a9be 18340 .e) 0xe9aa82 18107 (.o .e 0xe9aa8c 16781 .e)) 0xe9aa91 18331 (.t (.o (.o .e 0xe9aa97 18157 .e) 0xe9aaa4 18222 .e) 0xe9aaa8 17523 19571 (.o .e 0xe9ab94 18523 .e))) 0xe9ab98 16462 18510 (.o (.t (.o (.o .e 0xe9aca5 18769 .e) 0xe9aca7 19965 .e) 0xe9acbc 17798 19846 (.t .e 0xe9ad8f 17863 19911 .e)) 0xe9ad9a 18999 (.o (.o .e 0xe9adaf 19270 .e) 0xe9aeae 19238 (.o .e 0xe9b1bc 16951 .e)))) 0xe9b281 17222 (.o (.o (.o (.o (.o .e 0xe9b29c 17190 .e) 0xe9b3a5 20120 .e) 0xe9b3b3 20063 (.o .e 0xe9b3b4 20098 .e)) 0xe9b4a8 20061 (.o (.o .e 0xe9b4bb 20145 .e) 0xe9b89f 18072 (.o .e 0xe9b8a1 17319 .e))) 0xe9b8a3 18050 (.o (.o (.o (.o .e 0xe9b8ad 18013 .e) 0xe9b8bf 18097 .e) 0xe9b9bc 19631 (.o .e 0xe9b9bd 19147 .e)) 0xe9ba97 19847 (.o (.o .e 0xe9baa5 19477 .e) 0xe9baa6 17429 (.t .e 0xe9babb 17587 19635 .e))))) 0xe9babc 18579 (.o (.t (.t (.t (.o (.o .e 0xe9bb83 18943 .e) 0xe9bb84 16895 .e) 0xe9bb8e 17666 19714 (.t .e 0xe9bb91 16982 19030 .e)) 0xe9bb98 17801 19849 (.o (.o (.o .e 0xe9bb9e 18528 .e) 0xe9bba8 18618 .e) 0xe9bbb4 20222 (.t .e 0xe9bc93 17384 19432 .e))) 0xe9bcbb 18209 20257 (.o (.o (.o (.o .e 0xe9bd8a 19397 .e) 0xe9bd90 17349 .e) 0xe9bd92 19632 (.o .e 0xe9bda1 19940 .e)) 0xe9bdbf 17584 (.o (.o .e 0xe9be84 17892 .e) 0xe9be8d 19246 (.o .e 0xe9be99 17198 .e)))) 0x61626c65 2 (.o (.o (.o (.o (.o .e 0x61636964 15 .e) 0x61637265 4111 .e) 0x6163746f 2073 (.o .e 0x61677561 2097 .e)) 0x61697265 2103 (.o (.o .e 0x616b6365 8196 .e) 0x616c6261 2111 (.o .e 0x616c626f 4144 .e))) 0x616c6365 4146 (.o (.o (.o (.o .e 0x616c656a 8198 .e) 0x616c6661 4149 .e) 0x616c6761 2120 (.o .e 0x616c6d61 2125 .e)) 0x616c736f 58 (.o (.o .e 0x616c746f 2131 .e) 0x616c766f 10353 (.o .e 0x616d6f72 2145 .e)))))
def mnemonicTree75 : Tree := .o mnemonicTree73 0xe9a9b6 18130 mnemonicTree74
def mnemonicTree76 : Tree := .o mnemonicTree72 0xe9a093 19583 mnemonicTree75
def mnemonicTree77 : Tree := .o mnemonicTree69 0xe992a2 17037 mnemonicTree76
def mnemonicTree78 : Tree := .o (.o (.o (.o (.o (.o (.o .e 0x616e656c 10377 .e) 0x616e6a6f 10381 .e) 0x616e6e6f 4204 (.o .e 0x616e7a69 4208 .e)) 0x6170696f 2171 (.o (.o (.o .e 0x61726172 2182 .e) 0x61726368 88 .e) 0x6172636f 2187 (.o .e 0x61726561 90 .e))) 0x61726961 4232 (.o (.o (.o (.o .e 0x61726d61 10417 .e) 0x61726d79 96 .e) 0x61727061 2197 (.o .e 0x6172736f 4239 .e)) 0x61727465 2202 (.o (.o .e 0x6173656f 2209 .e) 0x61736e6f 2214 (.o .e 0x61737365 4252 .e)))) 0x61737461 4255 (.o (.o (.o (.o (.o .e 0x61746172 2224 .e) 0x6174656f 2226 .e) 0x61746575 10443 (.o .e 0x61746f6c 8216 .e)) 0x61746f6d 114 (.o (.o (.o .e 0x6174756d 10452 .e) 0x61756765 2235 .e) 0x61756c61 2236 (.o .e 0x61756e74 122 .e))) 0x61757261 10455 (.o (.o (.o (.o .e 0x6175746f 124 .e) 0x6176616c 2240 .e) 0x61776179 131 (.o .e 0x61786973 135 .e)) 0x61796572 2249 (.o (.o .e 0x617a6172 2253 .e) 0x617a756c 2257 (.o .e 0x617a796c 8218 .e))))) 0x62616261 2258 (.o (.o (.o (.o (.o (.o .e 0x62616279 136 .e) 0x6261636f 4285 .e) 0x62616772 8225 (.o .e 0x62616c6c 143 .e)) 0x62617365 151 (.o (.o (.o .e 0x62617661 4308 .e) 0x6265616e 156 .e) 0x62656566 160 (.o .e 0x62656c74 167 .e))) 0x62657265 4318 (.o (.o (.o (.o .e 0x6265736f 2288 .e) 0x62657374 170 .e) 0x62657461 4320 (.o .e 0x62696369 4322 .e)) 0x6269636f 10523 (.o (.o .e 0x6269656e 2291 .e) 0x62696761 4325 (.o .e 0x62696b65 177 .e)))) 0x62696e64 178 (.o (.o (.o (.o (.o .e 0x62697264 180 .e) 0x626c7564 8273 .e) 0x626c7565 194 (.o .e 0x626c7572 195 .e)) 0x626f6174 198 (.o (.o .e 0x626f626f 2298 .e) 0x626f6272 8275 (.o .e 0x626f6361 2299 .e))) 0x626f6461 2301 (.o (.o (.o (.o .e 0x626f6479 199 .e) 0x626f696c 200 .e) 0x626f6c61 2304 (.o .e 0x626f6c6f 10555 .e)) 0x626f6d62 201 (.o (.o .e 0x626f6e65 202 .e) 0x626f6e6f 2310 (.o .e 0x626f6f6b 204 .e)))))
def mnemonicTree79 : Tree := .o (.o (.o (.o (.o (.o (.o .e 0x626f7461 8285 .e) 0x626f7465 2315 .e) 0x62726575 10569 (.o .e 0x62726b6f 8298 .e)) 0x62726f61 10573 (.o (.o (.o .e 0x62727a79 8305 .e) 0x62756361 4366 .e) 0x62756579 2336 (.o .e 0x6275696f 4369 .e))) 0x62756c62 239 (.o (.o (.o (.o .e 0x62756c65 10581 .e) 0x62756c6b 240 .e) 0x62757379 249 (.o .e 0x62757a7a 252 .e)) 0x6361626f 10589 (.o (.o .e 0x63616572 2355 .e) 0x63616765 257 (.o .e 0x63616a61 2359 .e)))) 0x63616a75 10602 (.o (.o (.o (.o (.o .e 0x63616b65 258 .e) 0x63616c6c 259 .e) 0x63616c6d 260 (.o .e 0x63616d61 2370 .e)) 0x63616d70 262 (.o (.o (.o .e 0x63616e65 4392 .e) 0x63616f73 2384 .e) 0x63617261 2390 (.o .e 0x63617264 276 .e))) 0x63617274 280 (.o (.o (.o (.o .e 0x63617361 2400 .e) 0x63617365 281 .e) 0x63617368 282 (.o .e 0x6361736f 4413 .e)) 0x63617665 294 (.o (.o .e 0x63617a6f 2409 .e) 0x63656472 8329 (.o .e 0x63656a6e 8332 .e))))) 0x63656c61 8333 (.o (.o (.o (.o (.o (.o .e 0x63656e61 4427 .e) 0x6365726f 2423 .e) 0x6365746f 4437 (.o .e 0x63686174 310 .e)) 0x63686566 314 (.o (.o (.o .e 0x63686f76 8364 .e) 0x63687274 8367 .e) 0x6369616f 4446 (.o .e 0x6369656e 2444 .e))) 0x63696d61 2448 (.o (.o (.o (.o .e 0x63696e65 2450 .e) 0x63697461 2456 .e) 0x63697479 331 (.o .e 0x636c616e 2459 .e)) 0x636c6170 334 (.o (.o .e 0x636c6177 336 .e) 0x636c6179 337 (.o .e 0x636c6970 346 .e)))) 0x636c6f67 348 (.o (.o (.o (.o (.o .e 0x636c7562 353 .e) 0x636f636f 2470 .e) 0x636f6465 360 (.o .e 0x636f646f 2472 .e)) 0x636f696c 362 (.o (.o .e 0x636f696e 363 .e) 0x636f6a6f 2477 (.o .e 0x636f6c61 2478 .e))) 0x636f6d61 4473 (.o (.o (.o (.o .e 0x636f6d65 368 .e) 0x636f6f6b 381 .e) 0x636f6f6c 382 (.o .e 0x636f7061 2497 .e)) 0x636f706f 10745 (.o (.o .e 0x636f7079 384 .e) 0x636f7265 386 (.o .e 0x636f726e 387 .e)))))
def mnemonicTree80 : Tree := .o mnemonicTree78 0x626f7373 209 mnemonicTree79
def mnemonicTree81 : Tree := .o (.o (.o (.o (.o (.o (.o .e 0x6372616d 401 .e) 0x63726572 10768 .e) 0x63726577 410 (.o .e 0x63726f70 415 .e)) 0x63727561 10776 (.o (.o (.o .e 0x6372757a 2522 .e) 0x63756265 427 .e) 0x6375626f 2526 (.o .e 0x63756a6f 10781 .e))) 0x63756b72 8396 (.o (.o (.o (.o .e 0x63756e61 2540 .e) 0x63757465 437 .e) 0x6376616c 8399 (.o .e 0x6376696b 8400 .e)) 0x6461646f 4532 (.o (.o .e 0x64616d61 2550 .e) 0x64616d70 441 (.o .e 0x64617368 445 .e)))) 0x6461776e 447 (.o (.o (.o (.o (.o .e 0x6465616c 449 .e) 0x6465646f 2559 .e) 0x64656572 458 (.o .e 0x64656679 461 .e)) 0x64656b6c 8413 (.o (.o (.o .e 0x64656e79 469 .e) 0x6465736b 479 .e) 0x6469616c 488 (.o .e 0x64696365 491 .e))) 0x64696574 493 (.o (.o (.o (.o .e 0x6469657a 2591 .e) 0x64697265 4583 .e) 0x64697274 501 (.o .e 0x64697368 505 .e)) 0x6469736b 8424 (.o (.o .e 0x6469746f 4593 .e) 0x64697661 2602 (.o .e 0x646e6573 8431 .e))))) 0x646f6365 2605 (.o (.o (.o (.o (.o (.o .e 0x646f6c6c 517 .e) 0x646f6d61 8449 .e) 0x646f6e6f 4607 (.o .e 0x646f6f72 523 .e)) 0x646f7274 8462 (.o (.o (.o .e 0x646f7365 524 .e) 0x646f7465 4609 .e) 0x646f7665 526 (.o .e 0x6472616b 8478 .e))) 0x64726177 531 (.o (.o (.o (.o .e 0x64726970 537 .e) 0x64726f70 539 .e) 0x6472756d 540 (.o .e 0x6475636b 542 .e)) 0x64756461 2618 (.o (.o .e 0x64756861 8492 .e) 0x64756d62 543 (.o .e 0x64756e61 4618 .e)))) 0x64756e65 544 (.o (.o (.o (.o (.o .e 0x6475726f 2626 .e) 0x64757374 546 .e) 0x64757479 548 (.o .e 0x6561726e 554 .e)) 0x65617374 557 (.o (.o .e 0x65617379 558 .e) 0x6563636f 4624 (.o .e 0x6563686f 559 .e))) 0x65646164 2632 (.o (.o (.o (.o .e 0x65646765 562 .e) 0x65646974 563 .e) 0x65676c69 4633 (.o .e 0x656c6d6f 4644 .e)) 0x656c7361 4645 (.o (.o .e 0x656c7365 577 .e) 0x65706f73 8511 (.o .e 0x65726261 4669 .e)))))
def mnemonicTree82 : Tree := .o (.o (.o (.o (.o (.o (.o .e 0x65727661 10972 .e) 0x65736361 4682 .e) 0x6573656a 8512 (.o .e 0x6573736f 4695 .e)) 0x65737465 2694 (.o (.o (.o .e 0x6574746f 4704 .e) 0x6576696c 623 .e) 0x65786974 639 (.o .e 0x66616365 652 .e))) 0x66616461 11037 (.o (.o (.o (.o .e 0x66616465 654 .e) 0x66616a61 2724 .e) 0x66616c6c 657 (.o .e 0x66616d61 2729 .e)) 0x66616d65 659 (.o (.o .e 0x66617265 4721 .e) 0x6661726d 665 (.o .e 0x66617365 2736 .e)))) 0x6661746f 4729 (.o (.o (.o (.o (.o .e 0x66656465 4733 .e) 0x66656564 677 .e) 0x6665656c 678 (.o .e 0x66656e6f 11063 .e)) 0x66657261 11064 (.o (.o .e 0x66696172 2752 .e) 0x6669656c 2758 (.o .e 0x66696661 4749 .e))) 0x66696a6f 2763 (.o (.o (.o (.o .e 0x66696c61 2764 .e) 0x66696c65 689 .e) 0x66696c6d 690 (.o .e 0x66696c6f 4751 .e)) 0x66696e64 693 (.o (.o .e 0x66696e65 694 .e) 0x66697265 697 (.o .e 0x6669726d 698 .e))))) 0x66697368 701 (.o (.o (.o (.o (.o (.o .e 0x66697461 11083 .e) 0x6669786f 11086 .e) 0x666c6167 705 (.o .e 0x666c6174 708 .e)) 0x666c6565 710 (.o (.o (.o .e 0x666c6970 712 .e) 0x666c6f72 2776 .e) 0x666f616d 720 (.o .e 0x666f6361 2782 .e))) 0x666f676f 11097 (.o (.o (.o (.o .e 0x666f696c 723 .e) 0x666f6c64 724 .e) 0x666f6e64 8547 (.o .e 0x666f6f64 726 .e)) 0x666f6f74 727 (.o (.o .e 0x666f726b 731 .e) 0x666f726f 4783 (.o .e 0x666f7361 2792 .e)))) 0x666f746f 2793 (.o (.o (.o (.o (.o .e 0x66726f67 745 .e) 0x6675656c 751 .e) 0x66756761 2808 (.o .e 0x66756e65 4808 .e)) 0x66757279 755 (.o (.o .e 0x6675736f 4814 .e) 0x6761646f 11133 (.o .e 0x6761696e 758 .e))) 0x67616a6f 2820 (.o (.o (.o (.o .e 0x67616c61 2821 .e) 0x67616d65 761 .e) 0x67617370 769 (.o .e 0x67617461 11150 .e)) 0x67617465 770 (.o (.o .e 0x6761746f 2833 .e) 0x67617a65 773 (.o .e 0x6765636f 4834 .e)))))
def mnemonicTree83 : Tree := .o mnemonicTree81 0x65726f65 4675 mnemonicTree82
def mnemonicTree84 : Tree := .o mnemonicTree80 0x636f7374 389 mnemonicTree83
def mnemonicTree85 : Tree := .o (.o (.o (.o (.o (.o (.o .e 0x67656e65 4839 .e) 0x67696674 782 .e) 0x6769726c 786 (.o .e 0x6769726f 2848 .e)) 0x67697665 787 (.o (.o (.o .e 0x676c6164 788 .e) 0x676c6f77 798 .e) 0x676c7565 799 (.o .e 0x676f6174 800 .e))) 0x676f6c64 802 (.o (.o (.o (.o .e 0x676f6c66 4864 .e) 0x676f6d61 2856 .e) 0x676f6f64 803 (.o .e 0x676f7461 2860 .e)) 0x676f776e 809 (.o (.o .e 0x67726162 810 .e) 0x67726166 8568 (.o .e 0x67726570 8571 .e)))) 0x67726964 819 (.o (.o (.o (.o (.o .e 0x6772696c 8572 .e) 0x67726973 2872 .e) 0x67726974 821 (.o .e 0x67726f67 8573 .e)) 0x67726f77 824 (.o (.o (.o .e 0x6775666f 4889 .e) 0x67756c61 11216 .e) 0x67756d61 8575 (.o .e 0x67757275 11218 .e))) 0x68616461 2895 (.o (.o (.o (.o .e 0x68616472 8577 .e) 0x68616972 834 .e) 0x68616c61 8578 (.o .e 0x68616c66 835 .e)) 0x68616e64 838 (.o (.o .e 0x68617264 841 .e) 0x68617665 845 (.o .e 0x6861776b 846 .e))))) 0x68656164 848 (.o (.o (.o (.o (.o (.o .e 0x68656c70 856 .e) 0x6865726f 858 .e) 0x68696768 860 (.o .e 0x68696a6f 2915 .e)) 0x68696c6c 861 (.o (.o (.o .e 0x68696e6f 11231 .e) 0x68696e74 862 .e) 0x68697265 864 (.o .e 0x686c656e 8601 .e))) 0x686c6f68 8603 (.o (.o (.o (.o .e 0x686d6174 8608 .e) 0x686d797a 8610 .e) 0x686e6973 8611 (.o .e 0x686f6368 8616 .e)) 0x686f6a61 2921 (.o (.o .e 0x686f6a65 11235 .e) 0x686f6c64 868 (.o .e 0x686f6c65 869 .e)))) 0x686f6d65 872 (.o (.o (.o (.o (.o .e 0x686f6f64 874 .e) 0x686f7065 875 .e) 0x686f7261 2926 (.o .e 0x686f726e 876 .e)) 0x686f7374 880 (.o (.o .e 0x686f7566 8642 .e) 0x686f7572 882 (.o .e 0x686f796f 2930 .e))) 0x68726f74 8657 (.o (.o (.o (.o .e 0x68756765 885 .e) 0x68756972 2937 .e) 0x68756d6f 2941 (.o .e 0x68756d72 8667 .e)) 0x68756e74 891 (.o (.o .e 0x68757274 894 .e) 0x69617465 11243 (.o .e 0x69636f6e 898 .e)))))
def mnemonicTree86 : Tree := .o (.o (.o (.o (.o (.o (.o .e 0x69646c65 901 .e) 0x69647261 4896 .e) 0x696c6861 11250 (.o .e 0x696e6368 914 .e)) 0x696e6f78 11295 (.o (.o (.o .e 0x696e746f 942 .e) 0x69726973 2979 .e) 0x69726f6e 946 (.o .e 0x69736361 11317 .e))) 0x69736c61 2981 (.o (.o (.o (.o .e 0x6974656d 950 .e) 0x6a61726f 8699 .e) 0x6a61746f 11329 (.o .e 0x6a617a7a 955 .e)) 0x6a656665 2991 (.o (.o .e 0x6a6f6961 11336 .e) 0x6a6f696e 961 (.o .e 0x6a6f6b65 962 .e)))) 0x6a6f7961 2997 (.o (.o (.o (.o (.o .e 0x6a756261 11340 .e) 0x6a75657a 3000 .e) 0x6a75676f 3002 (.o .e 0x6a75697a 11343 .e)) 0x6a756d70 967 (.o (.o .e 0x6a756e6b 970 .e) 0x6a75726f 11348 (.o .e 0x6a757374 971 .e))) 0x6b617072 8756 (.o (.o (.o (.o .e 0x6b617361 8762 .e) 0x6b65656e 973 .e) 0x6b656570 974 (.o .e 0x6b656d70 8774 .e)) 0x6b69636b 977 (.o (.o .e 0x6b696c6f 3014 .e) 0x6b696e64 980 (.o .e 0x6b696e6f 8776 .e))))) 0x6b697373 982 (.o (.o (.o (.o (.o (.o .e 0x6b697465 985 .e) 0x6b697769 987 .e) 0x6b6c616d 8779 (.o .e 0x6b6c6563 8783 .e)) 0x6b6c6964 8787 (.o (.o (.o .e 0x6b6d656e 8797 .e) 0x6b6e6565 988 .e) 0x6b6e6f74 8801 (.o .e 0x6b6e6f77 991 .e))) 0x6b6f6c6f 8815 (.o (.o (.o (.o .e 0x6b6f7a61 8855 .e) 0x6b726f6b 8874 .e) 0x6b727974 8887 (.o .e 0x6b756672 8889 .e)) 0x6b756e61 8897 (.o (.o .e 0x6b757274 8899 .e) 0x6c61646f 3019 (.o .e 0x6c616479 996 .e)))) 0x6c61676f 4981 (.o (.o (.o (.o (.o .e 0x6c61696b 8915 .e) 0x6c616a65 11357 .e) 0x6c616b65 997 (.o .e 0x6c616d70 998 .e)) 0x6c616e61 3028 (.o (.o .e 0x6c61736f 8921 .e) 0x6c617461 3036 (.o .e 0x6c617661 1006 .e))) 0x6c61776e 1008 (.o (.o (.o (.o .e 0x6c617a6f 3041 .e) 0x6c617a79 1011 .e) 0x6c656166 1013 (.o .e 0x6c65616c 3042 .e)) 0x6c656572 3046 (.o (.o .e 0x6c656674 1017 .e) 0x6c656d65 11386 (.o .e 0x6c656e64 1023 .e)))))
def mnemonicTree87 : Tree := .o mnemonicTree85 0x69646561 899 mnemonicTree86
def mnemonicTree88 : Tree := .o (.o (.o (.o (.o (.o (.o .e 0x6c656f61 11389 .e) 0x6c657661 5005 .e) 0x6c657665 3058 (.o .e 0x6c696172 1030 .e)) 0x6c69646f 5008 (.o (.o (.o .e 0x6c696665 1034 .e) 0x6c696674 1035 .e) 0x6c696761 3066 (.o .e 0x6c696b65 1037 .e))) 0x6c696d61 3068 (.o (.o (.o (.o .e 0x6c696d62 1038 .e) 0x6c696e6b 1040 .e) 0x6c696e6f 3076 (.o .e 0x6c696f6e 1041 .e)) 0x6c697261 5017 (.o (.o .e 0x6c69736f 3079 .e) 0x6c697374 1043 (.o .e 0x6c697465 5020 .e)))) 0x6c697665 1045 (.o (.o (.o (.o (.o .e 0x6c697861 11413 .e) 0x6c6f6164 1047 .e) 0x6c6f616e 1048 (.o .e 0x6c6f626f 3094 .e)) 0x6c6f636b 1051 (.o (.o (.o .e 0x6c6f636f 3096 .e) 0x6c6f6465 5024 .e) 0x6c6f6d6f 3101 (.o .e 0x6c6f6e61 11419 .e))) 0x6c6f6e67 1054 (.o (.o (.o (.o .e 0x6c6f6f70 1055 .e) 0x6c6f7264 8972 .e) 0x6c6f7465 3103 (.o .e 0x6c6f746f 5031 .e)) 0x6c6f7472 8974 (.o (.o .e 0x6c6f7564 1057 .e) 0x6c6f7568 8976 (.o .e 0x6c6f7665 1059 .e))))) 0x6c756172 11428 (.o (.o (.o (.o (.o (.o .e 0x6c756365 5033 .e) 0x6c756a6f 3107 .e) 0x6c756d70 8983 (.o .e 0x6c756e61 3108 .e)) 0x6c757061 3110 (.o (.o (.o .e 0x6c75706f 5038 .e) 0x6c75736b 8984 .e) 0x6c75746f 3112 (.o .e 0x6c757661 11434 .e))) 0x6c797261 8987 (.o (.o (.o (.o .e 0x6d61676f 3122 .e) 0x6d616964 1072 .e) 0x6d61696c 1073 (.o .e 0x6d61696e 1074 .e)) 0x6d616973 11444 (.o (.o .e 0x6d616b65 1076 .e) 0x6d616c6f 3127 (.o .e 0x6d616e61 5059 .e)))) 0x6d616e6f 3137 (.o (.o (.o (.o (.o .e 0x6d617061 3141 .e) 0x6d617361 3153 .e) 0x6d61736b 1091 (.o .e 0x6d617373 1092 .e)) 0x6d617468 1096 (.o (.o .e 0x6d617a65 1100 .e) 0x6d65616e 1102 (.o .e 0x6d656174 1104 .e))) 0x6d656761 5088 (.o (.o (.o (.o .e 0x6d656c74 1109 .e) 0x6d656e6f 5093 .e) 0x6d656e75 1113 (.o .e 0x6d657365 5099 .e)) 0x6d657368 1118 (.o (.o .e 0x6d657461 3181 .e) 0x6d657472 9027 (.o .e 0x6d696361 5106 .e)))))
def mnemonicTree89 : Tree := .o (.o (.o (.o (.o (.o (.o .e 0x6d696761 3189 .e) 0x6d696c6b 1124 .e) 0x6d696d6f 3194 (.o .e 0x6d696e61 3195 .e)) 0x6d696e64 1127 (.o (.o (.o .e 0x6d696e69 5117 .e) 0x6d697361 3201 .e) 0x6d697373 1134 (.o .e 0x6d69746f 3206 .e))) 0x6d6c6861 9046 (.o (.o (.o (.o .e 0x6d6c6f6b 9048 .e) 0x6d6f6461 3209 .e) 0x6d6f6572 11528 (.o .e 0x6d6f686f 3211 .e)) 0x6d6f6c65 5135 (.o (.o .e 0x6d6f6f6e 1148 .e) 0x6d6f7261 5146 (.o .e 0x6d6f7265 1150 .e)))) 0x6d6f7374 9068 (.o (.o (.o (.o (.o .e 0x6d6f746f 11547 .e) 0x6d6f7665 1158 .e) 0x6d6f7a6f 3235 (.o .e 0x6d756368 1160 .e)) 0x6d756461 11549 (.o (.o .e 0x6d756c61 3244 .e) 0x6d756c65 1162 (.o .e 0x6d75726f 3250 .e))) 0x6d757361 5168 (.o (.o (.o (.o .e 0x6d757374 1168 .e) 0x6d75746f 5172 .e) 0x6d797468 1172 (.o .e 0x6d7a6461 9094 .e)) 0x6e616a61 11563 (.o (.o .e 0x6e616d65 1174 .e) 0x6e617665 3269 (.o .e 0x6e656172 1180 .e))))) 0x6e656265 9138 (.o (.o (.o (.o (.o (.o .e 0x6e65636b 1181 .e) 0x6e656564 1182 .e) 0x6e657276 9157 (.o .e 0x6e657374 1188 .e)) 0x6e657461 11579 (.o (.o (.o .e 0x6e65746f 3278 .e) 0x6e657665 5195 .e) 0x6e657773 1193 (.o .e 0x6e657874 1194 .e))) 0x6e696365 1195 (.o (.o (.o (.o .e 0x6e69646f 3283 .e) 0x6e696b6c 9168 .e) 0x6e6f646f 5202 (.o .e 0x6e6f6d65 5203 .e)) 0x6e6f7261 9174 (.o (.o .e 0x6e6f7365 1203 .e) 0x6e6f7461 3296 (.o .e 0x6e6f7465 1205 .e)))) 0x6e6f766f 11599 (.o (.o (.o (.o (.o .e 0x6e756265 3301 .e) 0x6e756361 3302 .e) 0x6e756461 9182 (.o .e 0x6e75646f 3305 .e)) 0x6e75657a 3308 (.o (.o .e 0x6e756c6f 3309 .e) 0x6f617369 5220 (.o .e 0x6f62616c 9189 .e))) 0x6f626563 9193 (.o (.o (.o (.o .e 0x6f626579 1215 .e) 0x6f627261 3316 .e) 0x6f627576 9218 (.o .e 0x6f636173 9225 .e)) 0x6f63656c 9226 (.o (.o .e 0x6f63686f 3325 .e) 0x6f63696f 3326 (.o .e 0x6f637261 5232 .e)))))
def mnemonicTree90 : Tree := .o mnemonicTree88 0x6d69656c 3187 mnemonicTree89
def mnemonicTree91 : Tree := .o mnemonicTree87 0x6c656e73 1025 mnemonicTree90
def mnemonicTree92 : Tree := .o mnemonicTree84 0x67656c6f 11156 mnemonicTree91
def mnemonicTree93 : Tree := .o mnemonicTree77 0x616e6361 4192 mnemonicTree92
def mnemonicTree94 : Tree := .o (.o (.o (.o (.o (.o (.o .e 0x6f64696f 3334 .e) 0x6f646f72 1225 .e) 0x6f676769 5240 (.o .e 0x6f67726f 3341 .e)) 0x6f6b6170 9274 (.o (.o (.o .e 0x6f6b6179 1231 .e) 0x6f6b6e6f 9277 .e) 0x6f6c6c61 3349 (.o .e 0x6f6c6d6f 3350 .e))) 0x6f6c6f72 3351 (.o (.o (.o (.o .e 0x6f6d616b 9289 .e) 0x6f6d6974 1235 .e) 0x6f6d796c 9295 (.o .e 0x6f6e6365 1236 .e)) 0x6f6e6461 3354 (.o (.o .e 0x6f6e6c79 1240 .e) 0x6f6e7461 5258 (.o .e 0x6f6e7a61 3355 .e)))) 0x6f70656e 1241 (.o (.o (.o (.o (.o .e 0x6f72616c 3366 .e) 0x6f726172 11641 .e) 0x6f726361 3368 (.o .e 0x6f726c61 11651 .e)) 0x6f726d61 5271 (.o (.o (.o .e 0x6f727a6f 5280 .e) 0x6f737361 5286 .e) 0x6f73736f 11656 (.o .e 0x6f737465 5289 .e))) 0x6f746f70 9332 (.o (.o (.o (.o .e 0x6f747265 5291 .e) 0x6f74726f 3386 .e) 0x6f76616c 1261 (.o .e 0x6f766172 9339 .e)) 0x6f76656e 1262 (.o (.o .e 0x6f766572 1263 .e) 0x6f766573 9340 (.o .e 0x6f786964 9343 .e))))) 0x6f7a696f 5302 (.o (.o (.o (.o (.o (.o .e 0x70616365 5304 .e) 0x70616374 1269 .e) 0x70616761 5309 (.o .e 0x70616765 1271 .e)) 0x7061676f 3397 (.o (.o (.o .e 0x70616972 1272 .e) 0x70616b74 9349 .e) 0x70616c6d 1274 (.o .e 0x70616c6f 5314 .e))) 0x70617269 5325 (.o (.o (.o (.o .e 0x7061726b 1282 .e) 0x7061726f 3420 .e) 0x7061736f 3428 (.o .e 0x70617373 1285 .e)) 0x70617461 3430 (.o (.o .e 0x70617468 1287 .e) 0x70617665 1292 (.o .e 0x7061766f 3435 .e)))) 0x70656172 1296 (.o (.o (.o (.o (.o .e 0x70656c65 11714 .e) 0x70656c6f 3450 .e) 0x70656e61 3452 (.o .e 0x70656f72 3456 .e)) 0x70657065 5349 (.o (.o .e 0x70657261 3459 .e) 0x7065726f 9385 (.o .e 0x70657361 3469 .e))) 0x7065736f 5365 (.o (.o (.o (.o .e 0x70696861 9393 .e) 0x70696c61 5382 .e) 0x70696c6c 1318 (.o .e 0x70696e6b 1320 .e)) 0x70696e6f 3487 (.o (.o .e 0x70697061 3492 .e) 0x70697065 1322 (.o .e 0x7069736f 3496 .e)))))
def mnemonicTree95 : Tree := .o (.o (.o (.o (.o (.o (.o .e 0x706c6179 1330 .e) 0x706c617a 9414 .e) 0x706c6573 9418 (.o .e 0x706c6e6f 9423 .e)) 0x706c7567 1334 (.o (.o (.o .e 0x706c756b 9428 .e) 0x706c796e 9429 .e) 0x706e6575 11765 (.o .e 0x706f636f 3511 .e))) 0x706f6461 11766 (.o (.o (.o (.o .e 0x706f656d 1336 .e) 0x706f6574 1337 .e) 0x706f6c65 1340 (.o .e 0x706f6d6f 3523 .e)) 0x706f6e64 1342 (.o (.o .e 0x706f6e79 1343 .e) 0x706f6f6c 1344 (.o .e 0x706f7361 5425 .e)))) 0x706f7374 1349 (.o (.o (.o (.o (.o .e 0x706f7465 11781 .e) 0x706f7a6f 3534 .e) 0x70726f61 3546 (.o .e 0x70727574 9551 .e)) 0x70756368 9559 (.o (.o (.o .e 0x7075646c 9560 .e) 0x70756c6c 1386 .e) 0x70756c70 1387 (.o .e 0x70756c74 9564 .e))) 0x70756d61 3570 (.o (.o (.o (.o .e 0x70756e63 9566 .e) 0x70757061 3574 .e) 0x7075726f 5474 (.o .e 0x70757361 9568 .e)) 0x70757368 1397 (.o (.o .e 0x7079736b 9574 .e) 0x71756974 1406 (.o .e 0x7175697a 1407 .e))))) 0x7261626f 3588 (.o (.o (.o (.o (.o (.o .e 0x72616365 1411 .e) 0x7261636b 1412 .e) 0x72616674 9581 (.o .e 0x7261696c 1415 .e)) 0x7261696e 1416 (.o (.o (.o .e 0x7261696f 11842 .e) 0x72616d61 3592 .e) 0x72616d6f 5490 (.o .e 0x72616d70 1419 .e))) 0x72617265 1424 (.o (.o (.o (.o .e 0x72617461 5501 .e) 0x72617465 1425 .e) 0x7261746f 3601 (.o .e 0x7261796f 3602 .e)) 0x72617a61 3603 (.o (.o .e 0x7265616c 1431 .e) 0x72656465 11876 (.o .e 0x72656a61 3630 .e)))) 0x72656c79 1451 (.o (.o (.o (.o (.o .e 0x72656d6f 3638 .e) 0x72656e74 1458 .e) 0x72657361 5522 (.o .e 0x72657465 5526 .e)) 0x72696361 11922 (.o (.o .e 0x72696365 1481 .e) 0x72696368 1482 (.o .e 0x7269636f 3660 .e))) 0x72696465 1483 (.o (.o (.o (.o .e 0x72696661 3664 .e) 0x72696e67 1488 .e) 0x72696f74 1489 (.o .e 0x72697361 3671 .e)) 0x7269736b 1491 (.o (.o .e 0x7269736f 5575 .e) 0x7269746f 3673 (.o .e 0x72697661 5585 .e)))))
def mnemonicTree96 : Tree := .o mnemonicTree94 0x706c616e 3501 mnemonicTree95
def mnemonicTree97 : Tree := .o (.o (.o (.o (.o (.o (.o .e 0x726f6164 1495 .e) 0x726f6261 5590 .e) 0x726f6365 3676 (.o .e 0x726f636f 5594 .e)) 0x726f6572 3681 (.o (.o (.o .e 0x726f6a6f 3683 .e) 0x726f6f66 1501 .e) 0x726f6f6d 1503 (.o .e 0x726f7061 3689 .e))) 0x726f7361 3691 (.o (.o (.o (.o .e 0x726f7365 1504 .e) 0x726f7461 11942 .e) 0x726f7570 9629 (.o .e 0x726f786f 11948 .e)) 0x72756465 1511 (.o (.o .e 0x7275646f 3697 .e) 0x72756761 5611 (.o .e 0x72756c65 1513 .e)))) 0x72756c6f 3703 (.o (.o (.o (.o (.o .e 0x72756d6f 11953 .e) 0x72757065 5616 .e) 0x72757461 3707 (.o .e 0x72796261 9653 .e)) 0x73616665 1520 (.o (.o (.o .e 0x73616761 11962 .e) 0x7361696c 1521 .e) 0x73616b6f 9662 (.o .e 0x73616c61 3716 .e))) 0x73616c74 1525 (.o (.o (.o (.o .e 0x73616d65 1527 .e) 0x73616e64 1529 .e) 0x73616e6f 3732 (.o .e 0x7361706f 3734 .e)) 0x73617665 1534 (.o (.o .e 0x73626f72 9672 .e) 0x7363616e 1537 (.o .e 0x73656174 1554 .e))))) 0x7365636f 3743 (.o (.o (.o (.o (.o (.o .e 0x73656461 11989 .e) 0x73656564 1559 .e) 0x7365656b 1560 (.o .e 0x73656973 3748 .e)) 0x73656c6c 1563 (.o (.o (.o .e 0x73656d65 5711 .e) 0x73656e6f 9686 .e) 0x73657461 3766 (.o .e 0x7365786f 3769 .e))) 0x73686564 1578 (.o (.o (.o (.o .e 0x73686970 1584 .e) 0x73686f65 1587 .e) 0x73686f70 1589 (.o .e 0x7369636b 1598 .e)) 0x73696465 1599 (.o (.o .e 0x7369676e 1602 .e) 0x73696c6b 1604 (.o .e 0x73696e67 1610 .e)))) 0x73696e6f 5766 (.o (.o (.o (.o (.o .e 0x73697269 12025 .e) 0x73697a65 1615 .e) 0x736b696e 1620 (.o .e 0x736b6c6f 9718 .e)) 0x736b727a 9724 (.o (.o .e 0x736c6162 1623 .e) 0x736c616d 1624 (.o .e 0x736c6962 9737 .e))) 0x736c696d 1630 (.o (.o (.o (.o .e 0x736c6f6e 9740 .e) 0x736c6f74 1632 .e) 0x736c6f77 1633 (.o .e 0x736c7a61 9747 .e)) 0x736d6f67 9752 (.o (.o .e 0x736d726b 9754 .e) 0x736e6164 9758 (.o .e 0x736e6170 1642 .e)))))
def mnemonicTree98 : Tree := .o (.o (.o (.o (.o (.o (.o .e 0x736e6f77 1644 .e) 0x736f6170 1645 .e) 0x736f636b 1648 (.o .e 0x736f6461 1649 .e)) 0x736f6674 1650 (.o (.o (.o .e 0x736f6a61 12031 .e) 0x736f6c6f 5798 .e) 0x736f6e67 1657 (.o .e 0x736f6e6f 12040 .e))) 0x736f6f6e 1658 (.o (.o (.o (.o .e 0x736f7061 3801 .e) 0x736f7274 1660 .e) 0x736f756c 1661 (.o .e 0x736f7570 1663 .e)) 0x73706961 5832 (.o (.o .e 0x7370696e 1679 .e) 0x73706973 9779 (.o .e 0x73706f74 1686 .e)))) 0x7372617a 9790 (.o (.o (.o (.o (.o .e 0x73726e61 9792 .e) 0x73727374 9796 .e) 0x73727562 9797 (.o .e 0x73746179 1703 .e)) 0x7374656d 1706 (.o (.o .e 0x73746570 1707 .e) 0x7374796b 9817 (.o .e 0x73756368 1731 .e))) 0x7375636f 12057 (.o (.o (.o (.o .e 0x7375676f 5879 .e) 0x73756974 1736 .e) 0x73756f72 12065 (.o .e 0x73757265 1744 .e)) 0x73766168 9827 (.o (.o .e 0x73776170 1754 .e) 0x7377696d 1759 (.o .e 0x7461636f 3835 .e))))) 0x7461696c 1770 (.o (.o (.o (.o (.o (.o .e 0x74616a6f 3837 .e) 0x74616c65 5903 .e) 0x74616c6b 1772 (.o .e 0x74616c6f 12083 .e)) 0x74616e6b 1773 (.o (.o (.o .e 0x74617061 3847 .e) 0x74617065 1774 .e) 0x74617261 5907 (.o .e 0x7461736b 1776 .e))) 0x74617869 1779 (.o (.o (.o (.o .e 0x74617a61 3861 .e) 0x7465616d 1781 .e) 0x74656361 5918 (.o .e 0x74656961 12105 .e)) 0x74656c61 3870 (.o (.o .e 0x74656c6c 1782 .e) 0x74656d61 3872 (.o .e 0x74656e74 1786 .e)))) 0x7465726d 1787 (.o (.o (.o (.o (.o .e 0x74657365 12116 .e) 0x74657369 5932 .e) 0x74657374 1788 (.o .e 0x7465746f 12119 .e)) 0x74657874 1789 (.o (.o .e 0x74686174 1791 .e) 0x7468656e 1793 (.o .e 0x74686579 1796 .e))) 0x74686973 1798 (.o (.o (.o (.o .e 0x74696465 1806 .e) 0x74696c74 1808 .e) 0x74696d65 1810 (.o .e 0x74696d6f 3903 .e)) 0x74696e79 1811 (.o (.o .e 0x7469706f 3907 .e) 0x74697261 3908 (.o .e 0x7469726f 5944 .e)))))
def mnemonicTree99 : Tree := .o mnemonicTree97 0x736e6f62 9760 mnemonicTree98
def mnemonicTree100 : Tree := .o mnemonicTree96 0x72697a6f 3674 mnemonicTree99
def mnemonicTree101 : Tree := .o (.o (.o (.o (.o (.o (.o .e 0x746d656c 9887 .e) 0x746f646f 3918 .e) 0x746f6761 3919 (.o .e 0x746f6d6f 5954 .e)) 0x746f6e65 1826 (.o (.o (.o .e 0x746f6e6f 3922 .e) 0x746f6f6c 1829 .e) 0x746f7065 3925 (.o .e 0x746f7261 12140 .e))) 0x746f726f 3931 (.o (.o (.o (.o .e 0x746f7373 1837 .e) 0x746f776e 1842 .e) 0x74726170 1850 (.o .e 0x74726179 1853 .e)) 0x74726565 1855 (.o (.o .e 0x7472656e 3954 .e) 0x74726573 3956 (.o .e 0x7472696d 1861 .e)))) 0x7472696f 5988 (.o (.o (.o (.o (.o .e 0x74726970 1862 .e) 0x74727565 1866 .e) 0x74727573 9914 (.o .e 0x74756265 1872 .e)) 0x7475626f 3972 (.o (.o (.o .e 0x7475646f 12181 .e) 0x74756479 9916 .e) 0x74756e61 1875 (.o .e 0x74757069 12183 .e))) 0x7475726e 1878 (.o (.o (.o (.o .e 0x74757461 6005 .e) 0x7476727a 9926 .e) 0x7477696e 1883 (.o .e 0x74796772 9927 .e)) 0x74797065 1886 (.o (.o .e 0x7563686f 9935 .e) 0x75666661 6012 (.o .e 0x75676c79 1888 .e))))) 0x756e646f 1895 (.o (.o (.o (.o (.o (.o .e 0x756e6861 12191 .e) 0x756e6972 3986 .e) 0x756e6974 1901 (.o .e 0x756e7465 6027 .e)) 0x756f766f 6028 (.o (.o (.o .e 0x75706f6e 1911 .e) 0x7572616e 9959 .e) 0x75726265 3992 (.o .e 0x75726765 1915 .e))) 0x75726c6f 6032 (.o (.o (.o (.o .e 0x75726e61 3994 .e) 0x7572736f 12195 .e) 0x75736172 3995 (.o .e 0x75736564 1918 .e)) 0x757a656c 9979 (.o (.o .e 0x76616361 4000 .e) 0x7661676f 4004 (.o .e 0x76616c61 12205 .e)))) 0x76616c65 4007 (.o (.o (.o (.o (.o .e 0x76616e61 9986 .e) 0x76616e6f 6055 .e) 0x76617261 4013 (.o .e 0x7661736f 4016 .e)) 0x76617374 1933 (.o (.o .e 0x76656c61 4022 .e) 0x76656e61 4025 (.o .e 0x76657262 1940 .e))) 0x7665726f 6079 (.o (.o (.o (.o .e 0x76657279 1943 .e) 0x76696461 4046 .e) 0x76696577 1951 (.o .e 0x76696761 12249 .e)) 0x76696c61 10018 (.o (.o .e 0x76696c65 6097 .e) 0x76696e6f 4055 (.o .e 0x76697361 1957 .e)))))
def mnemonicTree102 : Tree := .o (.o (.o (.o (.o (.o (.o .e 0x7669766f 4069 .e) 0x76697a65 10022 .e) 0x766b7573 10026 (.o .e 0x766c616b 10028 .e)) 0x766c6976 10032 (.o (.o (.o .e 0x766e756b 10036 .e) 0x766f6172 12266 .e) 0x766f6365 6117 (.o .e 0x766f6461 10037 .e))) 0x766f6761 6118 (.o (.o (.o (.o .e 0x766f6964 1964 .e) 0x766f7465 1967 .e) 0x766f746f 4075 (.o .e 0x76726168 10054 .e)) 0x76726261 10056 (.o (.o .e 0x76746970 10064 .e) 0x77616765 1969 (.o .e 0x77616974 1971 .e)))) 0x77616c6b 1972 (.o (.o (.o (.o (.o .e 0x77616c6c 1973 .e) 0x77616e74 1975 .e) 0x7761726d 1977 (.o .e 0x77617368 1979 .e)) 0x77617370 1980 (.o (.o .e 0x77617665 1983 .e) 0x77656172 1987 (.o .e 0x77657374 1995 .e))) 0x77686174 1998 (.o (.o (.o (.o .e 0x7768656e 2001 .e) 0x77686970 2003 .e) 0x77696465 2005 (.o .e 0x77696665 2007 .e)) 0x77696c64 2008 (.o (.o .e 0x77696c6c 2009 .e) 0x77696e65 2012 (.o .e 0x77696e67 2013 .e))))) 0x77696e6b 2014 (.o (.o (.o (.o (.o (.o .e 0x77697265 2017 .e) 0x77697365 2019 .e) 0x77697368 2020 (.o .e 0x776f6c66 2022 .e)) 0x776f6f64 2025 (.o (.o (.o .e 0x776f6f6c 2026 .e) 0x776f7264 2027 .e) 0x776f726b 2028 (.o .e 0x77726170 2032 .e))) 0x79617264 2038 (.o (.o (.o (.o .e 0x79617465 4080 .e) 0x79656172 2039 .e) 0x79656d61 4082 (.o .e 0x7965736f 4084 .e)) 0x796f646f 4085 (.o (.o .e 0x796f6761 4086 .e) 0x7a656275 12283 (.o .e 0x7a656c6f 6131 .e)))) 0x7a65726f 2045 (.o (.o (.o (.o (.o .e 0x7a696d61 10185 .e) 0x7a6c6f6d 10195 .e) 0x7a6d6172 10199 (.o .e 0x7a6e616b 10207 .e)) 0x7a6f6e61 4092 (.o (.o .e 0x7a6f6e65 2046 .e) 0x7a726e6f 10225 (.o .e 0x7a756272 10232 .e))) 0x7a756c75 6142 (.o (.o (.o (.o .e 0x7a756d6f 4094 .e) 0x7a766f6e 10236 .e) 0x7a76796b 10239 (.o .e 0x616261636f 4096 .e)) 0x6162656a61 2050 (.o (.o .e 0x6162657465 4099 .e) 0x61626f6e6f 2053 (.o .e 0x61626f7574 3 .e)))))
def mnemonicTree103 : Tree := .o mnemonicTree101 0x76697461 6111 mnemonicTree102
def mnemonicTree104 : Tree := .o (.o (.o (.o (.o (.o (.o .e 0x6162726972 2056 .e) 0x6162757365 9 .e) 0x616275736f 2058 (.o .e 0x616361736f 10261 .e)) 0x6163686174 6172 (.o (.o (.o .e 0x616369646f 4109 .e) 0x6163696572 6175 .e) 0x6163696d61 10270 (.o .e 0x61636f736f 2071 .e))) 0x6163717561 4110 (.o (.o (.o (.o .e 0x6163746966 6180 .e) 0x6163746f72 21 .e) 0x616375746f 4114 (.o .e 0x6164617074 24 .e)) 0x6164656761 10282 (.o (.o .e 0x6164657573 10288 .e) 0x6164697065 4120 (.o .e 0x61646d6974 29 .e)))) 0x616475626f 10296 (.o (.o (.o (.o (.o .e 0x6164756c74 30 .e) 0x61666f736f 4128 .e) 0x616761696e 37 (.o .e 0x6167617665 4130 .e)) 0x6167656e74 39 (.o (.o (.o .e 0x6167696c65 6205 .e) 0x6167697265 4134 .e) 0x61676f7261 10315 (.o .e 0x6167726565 40 .e))) 0x616772696f 2096 (.o (.o (.o (.o .e 0x616775646f 2098 .e) 0x6167756a61 2100 .e) 0x6168656164 41 (.o .e 0x61686f676f 2101 .e)) 0x6169646572 6210 (.o (.o .e 0x6169736c65 45 .e) 0x616a656e6f 2106 (.o .e 0x616c61726d 46 .e))))) 0x616c61746f 4141 (.o (.o (.o (.o (.o (.o .e 0x616c62756d 47 .e) 0x616c646561 2114 .e) 0x616c657274 49 (.o .e 0x616c657461 2118 .e)) 0x616c677565 6221 (.o (.o (.o .e 0x616c67756d 10337 .e) 0x616c696172 10339 .e) 0x616c696269 4152 (.o .e 0x616c69656e 50 .e))) 0x616c6c6579 52 (.o (.o (.o (.o .e 0x616c6c6f77 53 .e) 0x616c6f6e65 55 .e) 0x616c706861 56 (.o .e 0x616c746172 2128 .e)) 0x616c746572 59 (.o (.o .e 0x616c756e6f 10351 .e) 0x616c7a6172 2134 (.o .e 0x616d626173 10358 .e)))) 0x616d627265 6234 (.o (.o (.o (.o (.o .e 0x616d656261 4175 .e) 0x616d656e6f 2142 .e) 0x616d69636f 4178 (.o .e 0x616d69646f 10362 .e)) 0x616d69676f 2143 (.o (.o .e 0x616d6f6e67 63 .e) 0x616d6f7265 4183 (.o .e 0x616d6f7572 6240 .e))) 0x616d70696f 4184 (.o (.o (.o (.o .e 0x616e63686f 2148 .e) 0x616e636c61 2150 .e) 0x616e646172 2151 (.o .e 0x616e65786f 10378 .e)) 0x616e676572 69 (.o (.t .e 0x616e676c65 70 6251 .e) 0x616e677279 71 (.o .e 0x616e696d61 4201 .e)))))
def mnemonicTree105 : Tree := .o (.o (.o (.o (.o (.o (.o .e 0x616e75616c 2162 .e) 0x616e7a6f6c 10388 .e) 0x616ecc836f 2167 (.o .e 0x6170617274 82 .e)) 0x617065676f 10392 (.o (.o (.o .e 0x617069746f 10397 .e) 0x61706f6465 4211 .e) 0x61706f646f 2173 (.o .e 0x61706f696f 10400 .e))) 0x61706f796f 2175 (.o (.o (.o (.o .e 0x6170706c65 85 .e) 0x617072696c 87 .e) 0x617075726f 2179 (.o .e 0x617261646f 2180 .e)) 0x6172616d65 10406 (.o (.o .e 0x6172617261 10408 .e) 0x6172636861 8207 (.o .e 0x6172646572 2188 .e)))) 0x617264756f 2190 (.o (.o (.o (.o (.o .e 0x6172656961 10411 .e) 0x6172656e61 91 .e) 0x6172677565 92 (.o .e 0x6172696573 2193 .e)) 0x61726d6564 94 (.o (.o .e 0x61726d6f72 95 .e) 0x61726f6d61 2196 (.o .e 0x6172726f77 101 .e))) 0x6172726f7a 2200 (.o (.o (.o (.o .e 0x617361646f 2205 .e) 0x6173696c6f 2212 .e) 0x6173696e6f 4247 (.o .e 0x61736f6c61 4248 .e)) 0x617370726f 4250 (.o (.o .e 0x6173736574 109 .e) 0x6173746d61 8212 (.o .e 0x6173747265 6301 .e))))) 0x617374726f 2218 (.o (.o (.o (.o (.o (.o .e 0x6174616a6f 2222 .e) 0x6174656172 10440 .e) 0x617469766f 10446 (.o .e 0x61746c6173 8214 .e)) 0x61746f6d65 6304 (.o (.o (.o .e 0x61746f6e6f 4262 .e) 0x617472697a 10450 .e) 0x6174726f7a 2231 (.o .e 0x617475616c 10451 .e))) 0x617564617a 2233 (.o (.o (.o (.o .e 0x617564696f 2234 .e) 0x6175646974 120 .e) 0x6175746f72 2239 (.o .e 0x617661726f 2242 .e)) 0x6176656e61 2245 (.o (.o .e 0x6176657265 4274 .e) 0x6176696465 6326 (.o .e 0x6176696f6e 6327 .e)))) 0x617669736f 2248 (.o (.o (.o (.o (.o .e 0x61766f6964 128 .e) 0x617672696c 6331 .e) 0x6177616b65 129 (.o .e 0x6177617265 130 .e)) 0x617766756c 133 (.o (.o .e 0x617869616c 6332 .e) 0x6178696c61 10468 (.o .e 0x6179756461 2250 .e))) 0x6179756e6f 2251 (.o (.o (.o (.o .e 0x617a65646f 10470 .e) 0x617a6f7465 2254 .e) 0x617a6f746f 4279 (.o .e 0x6261626172 10473 .e)) 0x6261626b61 8219 (.o (.o .e 0x6261626f72 2259 .e) 0x6261636865 2260 (.o .e 0x6261636961 10477 .e)))))
def mnemonicTree106 : Tree := .o mnemonicTree104 0x616e6b6c65 73 mnemonicTree105
def mnemonicTree107 : Tree := .o mnemonicTree103 0x61626f7665 4 mnemonicTree106
def mnemonicTree108 : Tree := .o mnemonicTree100 0x74697a61 3913 mnemonicTree107
def mnemonicTree109 : Tree := .o (.o (.o (.o (.o (.t (.o .e 0x6261636f6e 138 .e) 0x6261646765 139 6334 .e) 0x6261686e6f 8226 (.o .e 0x6261696c65 2262 .e)) 0x6261697461 4289 (.o (.o (.o .e 0x62616a6172 2263 .e) 0x62616c6465 2266 .e) 0x62616c646f 4291 (.o .e 0x62616c7361 10487 .e))) 0x62616c7a61 8233 (.o (.o (.o (.o .e 0x62616e616c 10488 .e) 0x62616e636f 2268 .e) 0x62616e6461 2269 (.o .e 0x62616e686f 10490 .e)) 0x62616e6972 10491 (.o (.o .e 0x6261726261 2271 .e) 0x6261726361 4299 (.o .e 0x626172636f 2272 .e)))) 0x6261726574 8237 (.o (.o (.o (.o (.o .e 0x626172696c 6350 .e) 0x6261726f6e 6351 .e) 0x626172726f 2274 (.o .e 0x6261727661 8240 .e)) 0x6261736963 152 (.o (.o (.o .e 0x626173736f 4304 .e) 0x6261746972 2280 .e) 0x6261746f68 8242 (.o .e 0x6261746f6d 10503 .e))) 0x6261756c65 4307 (.o (.o (.o (.o .e 0x62617a6172 2283 .e) 0x6265616368 155 .e) 0x6265626572 10506 (.o .e 0x626563636f 4310 .e)) 0x6265646e61 8247 (.o (.o .e 0x6265666661 4311 .e) 0x626567696e 162 (.o .e 0x6265696a6f 10507 .e))))) 0x62656c6761 10512 (.o (.o (.o (.o (.o (.o .e 0x62656c6c6f 2286 .e) 0x62656c6f77 166 .e) 0x62656c7661 4313 (.o .e 0x62656e6368 168 .e)) 0x62656e6461 4314 (.o (.o (.o .e 0x626572616e 8248 .e) 0x626572726f 10519 .e) 0x6265736172 2287 (.o .e 0x6265746f6e 8251 .e))) 0x626963686f 2290 (.o (.o (.o (.o .e 0x6269646c6f 8256 .e) 0x62696a6f75 6376 .e) 0x62696c616e 6377 (.o .e 0x62696d626f 4327 .e)) 0x62696e676f 2292 (.o (.o .e 0x6269727261 4333 .e) 0x6269727468 181 (.o .e 0x6269736f6e 6385 .e)))) 0x626973706f 10539 (.o (.o (.o (.o (.o .e 0x6269747661 8262 .e) 0x62697a6f6e 8263 .e) 0x626c61636b 183 (.o .e 0x626c616465 184 .e)) 0x626c616d65 185 (.o (.o .e 0x626c617374 187 .e) 0x626c65616b 188 (.o .e 0x626c65736b 8268 .e))) 0x626c657373 189 (.o (.o (.o (.o .e 0x626c696e64 190 .e) 0x626c6f636f 10544 .e) 0x626c6f6e64 6394 (.o .e 0x626c6f6f64 191 .e)) 0x626c757361 2295 (.o (.o .e 0x626c757368 196 .e) 0x626f617264 197 (.o .e 0x626f61746f 10546 .e)))))
def mnemonicTree110 : Tree := .o (.o (.o (.o (.o (.o (.o .e 0x626f696e61 2303 .e) 0x626f697265 6399 .e) 0x626f6c6861 10554 (.o .e 0x626f6c7361 2306 .e)) 0x626f6d6261 2307 (.o (.t (.o .e 0x626f6e6465 10557 .e) 0x626f6e7573 203 6406 .e) 0x626f6f7374 205 (.o .e 0x626f726461 10561 .e))) 0x626f726465 2312 (.o (.o (.o (.o .e 0x626f72646f 4344 .e) 0x626f726563 8283 .e) 0x626f726e65 6408 (.o .e 0x626f73636f 4345 .e)) 0x626f747465 6409 (.o (.o .e 0x626f756461 8288 .e) 0x626f756c65 8289 (.o .e 0x626f786572 8291 .e)))) 0x626f7a616c 2318 (.o (.o (.o (.o (.o .e 0x627261696e 215 .e) 0x6272616d61 4351 .e) 0x6272616e64 216 (.o .e 0x6272617361 10567 .e)) 0x6272617373 217 (.o (.t (.o .e 0x6272617472 8295 .e) 0x6272617665 218 6421 .e) 0x627261766f 2319 (.o .e 0x6272617a6f 2320 .e))) 0x6272656164 219 (.o (.o (.o (.o .e 0x6272657665 2322 .e) 0x627269636b 221 .e) 0x6272696566 223 (.o .e 0x6272696761 10570 .e)) 0x6272696e67 225 (.o (.o .e 0x6272697361 2325 .e) 0x627269736b 226 (.o .e 0x62726c6f68 8299 .e))))) 0x62726f6361 2326 (.o (.o (.o (.o (.o (.o .e 0x62726f646f 4361 .e) 0x62726f6d61 2327 .e) 0x62726f6e7a 8300 (.o .e 0x62726f6f6d 230 .e)) 0x62726f7465 2329 (.o (.o (.o .e 0x62726f746f 10576 .e) 0x62726f776e 232 .e) 0x6272756a61 2330 (.o .e 0x6272756d65 6435 .e))) 0x6272756e6f 4364 (.o (.o (.o (.o .e 0x6272757368 233 .e) 0x627275746f 2332 .e) 0x627275786f 10577 (.o .e 0x62727a6461 8304 .e)) 0x627563656f 2333 (.o (.o .e 0x6275636861 10578 .e) 0x6275636c65 2334 (.o .e 0x6275646479 235 .e)))) 0x6275646b61 8310 (.o (.o (.o (.o (.o .e 0x6275656e6f 2335 .e) 0x6275666172 10580 .e) 0x6275666574 8312 (.o .e 0x6275696c64 238 .e)) 0x62756c626f 4370 (.o (.o .e 0x62756c746f 2341 .e) 0x62756c7661 8316 (.o .e 0x62756e6461 8317 .e))) 0x62756e6b72 8318 (.o (.o (.o (.o .e 0x62756f6e6f 4371 .e) 0x627572696e 6443 .e) 0x6275726c61 2343 (.o .e 0x627572726f 2344 .e)) 0x6275727374 246 (.o (.o .e 0x6275727a61 8319 .e) 0x6275736361 10583 (.o .e 0x6275737461 4375 .e)))))
def mnemonicTree111 : Tree := .o mnemonicTree109 0x626f62656b 8274 mnemonicTree110
def mnemonicTree112 : Tree := .o (.o (.o (.o (.o (.o (.o .e 0x627574696b 8320 .e) 0x6275766f6c 8321 .e) 0x6275796572 251 (.o .e 0x636162696e 254 .e)) 0x6361626c65 255 (.o (.o (.o .e 0x6361627261 2351 .e) 0x636163616f 2352 .e) 0x6361636175 10591 (.o .e 0x6361647265 6453 .e))) 0x63616c646f 2364 (.o (.o (.o (.o .e 0x63616c6c65 2366 .e) 0x63616c6d61 2367 .e) 0x63616c6d6f 4382 (.o .e 0x63616c6f72 2368 .e)) 0x63616c766f 2369 (.t (.o .e 0x63616d706f 2374 .e) 0x63616e616c 264 6467 (.o .e 0x63616e6479 266 .e)))) 0x63616e6f61 10621 (.o (.o (.o (.o (.o .e 0x63616e6f65 268 .e) 0x63616e6f6e 6469 .e) 0x63616e746f 2380 (.o .e 0x63616f6261 2383 .e)) 0x636170617a 2385 (.o (.o (.o .e 0x6361707261 4401 .e) 0x636170757a 10631 .e) 0x636172646f 4405 (.o .e 0x6361726761 2394 .e))) 0x636172676f 277 (.o (.o (.o (.o .e 0x6361726e65 2396 .e) 0x636172726f 2398 .e) 0x6361727279 279 (.o .e 0x6361727461 2399 .e)) 0x6361736361 10643 (.o (.o .e 0x636173636f 2401 .e) 0x6361737061 2403 (.o .e 0x6361746368 288 .e))))) 0x6361747265 2406 (.o (.o (.o (.o (.o (.o .e 0x6361756c65 10649 .e) 0x6361757361 2408 .e) 0x6361757365 292 (.o .e 0x636175746f 4420 .e)) 0x6365646572 2411 (.o (.o (.o .e 0x636564726f 2412 .e) 0x63656a6368 8331 .e) 0x63656c6461 2413 (.o .e 0x63656c6572 8334 .e))) 0x63656e736f 10660 (.o (.o (.o (.o .e 0x6365726361 2420 .e) 0x636572646f 2421 .e) 0x636572746f 4432 (.o .e 0x636573706f 4436 .e)) 0x636574696d 10666 (.o (.o .e 0x6365746b61 8343 .e) 0x636574726f 2427 (.o .e 0x6368616972 302 .e)))) 0x6368616c6b 303 (.o (.o (.o (.o (.o .e 0x6368616f73 306 .e) 0x6368617061 2432 .e) 0x6368617365 309 (.o .e 0x6368617461 8347 .e)) 0x6368617665 10674 (.o (.o .e 0x6368656170 311 .e) 0x636865636b 312 (.o .e 0x6368656665 10675 .e))) 0x6368656c61 4438 (.o (.o (.o (.o .e 0x6368657374 316 .e) 0x636869636f 2434 .e) 0x6368696566 318 (.o .e 0x636869656e 6524 .e)) 0x6368696c64 319 (.o (.o .e 0x6368696e61 4443 .e) 0x6368696f74 6528 (.o .e 0x636869766f 2436 .e)))))
def mnemonicTree113 : Tree := .o (.o (.o (.o (.o (.o (.o .e 0x63686d656c 8355 .e) 0x63686f7365 6532 .e) 0x63686f7a61 2438 (.o .e 0x6368727570 8368 .e)) 0x6368756e6b 325 (.o (.o (.o .e 0x636875726e 326 .e) 0x6368757465 6535 .e) 0x6368757661 10686 (.o .e 0x6368766174 8372 .e))) 0x6368796261 8375 (.o (.o (.o (.o .e 0x636965676f 2442 .e) 0x6369656c6f 2443 .e) 0x6369667261 2446 (.o .e 0x6369676172 327 .e)) 0x6369676e6f 4449 (.o (.o .e 0x6369686c61 8381 .e) 0x63696e636f 2449 (.o .e 0x63696e7461 2451 .e)))) 0x63696e746f 10694 (.o (.o (.o (.o (.o .e 0x63696e7a61 10695 .e) 0x6369726361 4452 .e) 0x636972636f 2453 (.o .e 0x6369726572 6542 .e)) 0x6369736e65 2455 (.t (.o .e 0x6369746172 10699 .e) 0x636976696c 332 6547 (.o .e 0x636c61696d 333 .e))) 0x636c61726f 2460 (.o (.o (.o (.o .e 0x636c617365 2461 .e) 0x636c617665 2462 .e) 0x636c65616e 338 (.o .e 0x636c65726b 339 .e)) 0x636c65726f 10701 (.o (.o .e 0x636c69636b 341 .e) 0x636c696666 343 (.o .e 0x636c696d61 2464 .e))))) 0x636c696d62 344 (.o (.o (.o (.o (.o (.o .e 0x636c6f636b 347 .e) 0x636c6f6e61 8389 .e) 0x636c6f6e65 10703 (.o .e 0x636c6f726f 4461 .e)) 0x636c6f7365 349 (.o (.o (.o .e 0x636c6f7468 350 .e) 0x636c6f7564 351 .e) 0x636c6f776e 352 (.o .e 0x636c756265 10704 .e))) 0x636c756d70 354 (.o (.o (.o (.o .e 0x636f616368 357 .e) 0x636f61646f 10705 .e) 0x636f617374 358 (.o .e 0x636f627261 6561 .e)) 0x636f627265 2466 (.o (.o .e 0x636f63636f 4462 .e) 0x636f646572 6564 (.o .e 0x636f65736f 10713 .e)))) 0x636f667265 2473 (.o (.o (.o (.o (.o .e 0x636f676572 2474 .e) 0x636f696661 10716 .e) 0x636f6c6172 10718 (.o .e 0x636f6c6d6f 2484 .e)) 0x636f6c6f72 365 (.o (.o .e 0x636f6c7a61 4472 .e) 0x636f6d6572 2487 (.o .e 0x636f6d6963 370 .e))) 0x636f6d756d 10731 (.o (.o (.o (.o .e 0x636f6e6465 2491 .e) 0x636f6e6761 2493 .e) 0x636f706961 2498 (.o .e 0x636f706965 6589 .e)) 0x636f72616c 385 (.o (.o .e 0x636f72706f 4498 .e) 0x636f72766f 10755 (.o .e 0x636f736572 2505 .e)))))
def mnemonicTree114 : Tree := .o mnemonicTree112 0x63686c6164 8352 mnemonicTree113
def mnemonicTree115 : Tree := .o mnemonicTree111 0x627573746f 10584 mnemonicTree114
def mnemonicTree116 : Tree := .o (.o (.o (.o (.o (.o (.o .e 0x636f746f6e 6599 .e) 0x636f756368 391 .e) 0x636f756465 6600 (.o .e 0x636f75726f 10759 .e)) 0x636f757665 10760 (.o (.o (.o .e 0x636f766572 396 .e) 0x636f76696c 10761 .e) 0x6372616265 6606 (.o .e 0x637261636b 398 .e))) 0x6372616674 400 (.o (.o (.o (.o .e 0x6372616e65 402 .e) 0x6372617368 403 .e) 0x637261766f 10764 (.o .e 0x637261776c 405 .e)) 0x6372617a79 406 (.o (.o .e 0x637265616d 407 .e) 0x6372656172 2510 (.o .e 0x637265656b 409 .e)))) 0x6372656d61 2513 (.o (.o (.o (.o (.o .e 0x6372656d65 10767 .e) 0x6372657461 4512 .e) 0x6372696572 6616 (.o .e 0x6372696d65 412 .e)) 0x6372697365 10773 (.o (.o (.o .e 0x6372697369 4515 .e) 0x6372697370 413 .e) 0x63726f6365 4517 (.o .e 0x63726f6d6f 2518 .e))) 0x63726f7373 416 (.o (.t (.o (.o .e 0x63726f7764 418 .e) 0x637275646f 2521 .e) 0x637275656c 420 6623 (.o .e 0x6372757368 424 .e)) 0x6375656361 10779 (.o (.o .e 0x6375657661 2533 .e) 0x63756c7061 2536 (.o .e 0x63756c746f 2537 .e))))) 0x63756f7461 2542 (.o (.o (.o (.o (.o (.o .e 0x6375706f74 8397 .e) 0x6375726172 2545 .e) 0x637572736f 2547 (.o .e 0x637572746f 10792 .e)) 0x6375727661 2548 (.o (.o (.o .e 0x6375727665 434 .e) 0x637572766f 4529 .e) 0x6375746973 2549 (.t .e 0x6379636c65 438 6637 .e))) 0x6461696e6f 4533 (.o (.o (.o (.o .e 0x64616e6365 442 .e) 0x64616e7a61 2551 .e) 0x646172646f 2553 (.o .e 0x6461746172 10797 .e)) 0x646174656c 8405 (.o (.o .e 0x646174756d 8406 .e) 0x6463657261 8407 (.o .e 0x6465626572 2555 .e)))) 0x6465636972 2558 (.o (.o (.o (.o (.o .e 0x646564616c 10807 .e) 0x6465676e6f 4551 .e) 0x64656a6172 2562 (.o .e 0x64656c6179 463 .e)) 0x64656c7461 4555 (.o (.o .e 0x64656e736f 2567 .e) 0x6465707468 473 (.o .e 0x6465726279 8417 .e))) 0x646573656f 2573 (.o (.o (.o (.o .e 0x6465736b61 8418 .e) 0x6465756461 2580 .e) 0x6465757361 10849 (.o .e 0x6465766572 10850 .e)) 0x6469616e61 2585 (.o (.o .e 0x6469617279 490 .e) 0x6469657461 2590 (.o .e 0x6469676e65 6707 .e)))))
def mnemonicTree117 : Tree := .o (.o (.o (.o (.o (.o (.o .e 0x64696f6461 8422 .e) 0x646973636f 2599 .e) 0x64697a6572 10877 (.o .e 0x64697a7a79 513 .e)) 0x6469cc8161 2581 (.o (.o (.o .e 0x646c616861 8428 .e) 0x646f626c65 2604 .e) 0x646f62726f 8432 (.o .e 0x646f676d61 4601 .e))) 0x646f676d65 6722 (.o (.o (.o (.o .e 0x646f687261 8439 .e) 0x646f696774 6723 .e) 0x646f6a656d 8440 (.o .e 0x646f6c6172 8446 .e)) 0x646f6c6365 4602 (.o (.o .e 0x646f6c6f72 2606 .e) 0x646f6d6f76 8452 (.o .e 0x646f6e6172 2609 .e)))) 0x646f6e6f72 522 (.o (.o (.o (.o (.o .e 0x646f706164 8454 .e) 0x646f706973 8455 .e) 0x646f72736f 2612 (.o .e 0x646f736168 8463 .e)) 0x646f736973 2614 (.o (.o .e 0x646f737564 8466 .e) 0x646f74617a 8468 (.o .e 0x646f74656b 8469 .e))) 0x646f79656e 6741 (.o (.o (.o (.o .e 0x6472616674 527 .e) 0x647261676f 4613 .e) 0x6472616d61 529 (.o .e 0x6472617a65 8481 .e)) 0x6472646f6c 8482 (.o (.o .e 0x647265616d 532 .e) 0x6472657373 533 (.o .e 0x6472696674 534 .e))))) 0x6472696c6c 535 (.o (.o (.o (.o (.o (.o .e 0x6472696e6b 536 .e) 0x6472697665 538 .e) 0x64726f6761 2616 (.o .e 0x64726f7a64 8485 .e)) 0x6472746974 8487 (.o (.o (.o .e 0x647562656e 8489 .e) 0x6475636861 2617 .e) 0x647564656b 8491 (.o .e 0x6475656c6f 2619 .e))) 0x647565746f 10894 (.o (.o (.o (.o .e 0x64756c6365 2621 .e) 0x64756f6d6f 4619 .e) 0x6475706c6f 10895 (.o .e 0x6475717565 2623 .e)) 0x6475726172 2624 (.o (.o .e 0x6475736974 8494 .e) 0x6475736e6f 8495 (.o .e 0x6475746368 547 .e)))) 0x6475cc816f 2622 (.o (.o (.o (.o (.o .e 0x6477617266 549 .e) 0x6561676572 551 .e) 0x6561676c65 552 (.o .e 0x6561726c79 553 .e)) 0x6561727468 555 (.o (.o .e 0x6562616e6f 4622 .e) 0x656272696f 2628 (.o .e 0x6563686172 2629 .e))) 0x65636f6172 10900 (.o (.o (.o (.o .e 0x6564657261 4627 .e) 0x6564696c65 4629 .e) 0x6569676874 567 (.o .e 0x656c626f77 569 .e)) 0x656c646572 570 (.o (.o .e 0x656c696361 4643 .e) 0x656c697465 576 (.o .e 0x656c75736f 4646 .e)))))
def mnemonicTree118 : Tree := .o mnemonicTree116 0x6469676e6f 2593 mnemonicTree117
def mnemonicTree119 : Tree := .o (.o (.o (.o (.o (.o (.o .e 0x656d69726f 4650 .e) 0x656d697365 8505 .e) 0x656d6f6365 8506 (.o .e 0x656d707479 585 .e)) 0x656d756c6f 4654 (.o (.o (.o .e 0x656e616374 587 .e) 0x656e616e6f 2657 .e) 0x656e656d79 591 (.o .e 0x656e65726f 2662 .e))) 0x656e66696d 10937 (.o (.o (.o (.o .e 0x656e67696e 6818 .e) 0x656e6a6575 6822 .e) 0x656e6a6f79 597 (.o .e 0x656e746572 603 .e)) 0x656e747279 605 (.o (.o .e 0x657175616c 608 .e) 0x6571756970 609 (.o .e 0x6572617365 611 .e)))) 0x6572656465 4671 (.o (.o (.o (.o (.o .e 0x657265746f 10969 .e) 0x6572697a6f 2678 .e) 0x65726f6465 612 (.o .e 0x6572726f72 614 .e)) 0x6572757074 615 (.o (.o (.o .e 0x6573616d65 4679 .e) 0x657369746f 4688 .e) 0x65736f736f 4691 (.o .e 0x6573736179 617 .e))) 0x6573746172 2693 (.t (.o (.o (.o .e 0x6574617061 2697 .e) 0x65746e6961 2700 .e) 0x657661736f 4707 (.o .e 0x65766f6b65 624 .e)) 0x6578616374 626 6901 (.o (.o .e 0x657861746f 11013 .e) 0x6578696c65 637 (.o .e 0x6578697374 638 .e))))) 0x6578747261 648 (.t (.o (.o (.o (.o (.o .e 0x6661626c65 6925 .e) 0x6661636b61 8525 .e) 0x6661656e61 2723 (.o .e 0x6661696e74 655 .e)) 0x6661697468 656 (.o (.o (.o .e 0x6661697861 11039 .e) 0x66616c6172 11040 .e) 0x66616c636f 4715 (.o .e 0x66616c6461 2725 .e))) 0x66616c6c6f 2726 (.o (.o (.o (.o .e 0x66616c7365 658 .e) 0x66616c736f 2727 .e) 0x66616c7461 11041 (.o .e 0x66616e6379 663 .e)) 0x66616e676f 4719 (.o (.o .e 0x6661726f6c 2734 .e) 0x6661727061 11050 (.o .e 0x6661727361 2735 .e)))) 0x666174616c 668 6939 (.o (.o (.o (.o (.o .e 0x6661746961 11052 .e) 0x6661746f72 11053 .e) 0x6661756c74 671 (.o .e 0x6661756e61 2738 .e)) 0x6661766f72 2739 (.o (.o .e 0x6665636861 2742 .e) 0x66656c697a 2743 (.o .e 0x66656c7061 4735 .e))) 0x66656d6d65 6949 (.o (.o (.o (.o .e 0x66656e6365 680 .e) 0x66656e6461 11062 .e) 0x66656e6b61 8535 (.o .e 0x6665726961 2745 .e)) 0x6665726f7a 2746 (.o (.o .e 0x666572726f 4741 .e) 0x666574616c 11069 (.o .e 0x6665746368 682 .e)))))
def mnemonicTree120 : Tree := .o (.o (.o (.o (.o (.o (.o .e 0x666575646f 4746 .e) 0x6665766572 683 .e) 0x6669616261 4747 (.o .e 0x666961706f 11071 .e)) 0x6669626572 685 (.o (.o (.o .e 0x6669627261 2753 .e) 0x6669636172 11073 .e) 0x6669636861 2755 (.o .e 0x666964656f 2756 .e))) 0x6669656c64 687 (.o (.o (.o (.o .e 0x6669657261 2759 .e) 0x66696a6172 2762 .e) 0x66696c686f 11077 (.o .e 0x66696c6d65 11078 .e)) 0x66696c6f75 6970 (.o (.o .e 0x66696c7472 8539 .e) 0x66696e616c 692 (.o .e 0x66696e6361 2769 .e)))) 0x66696e6972 6973 (.o (.o (.o (.o (.o .e 0x66696e7461 8541 .e) 0x66696f6c65 6974 .e) 0x66696f7265 4755 (.o .e 0x6669726d61 2772 .e)) 0x6669726d65 6975 (.o (.o .e 0x6669727374 699 .e) 0x6669756d65 4758 (.o .e 0x6669786572 6977 .e))) 0x666a6f7264 8543 (.o (.o (.o (.o .e 0x666c61636f 2773 .e) 0x666c616d65 706 .e) 0x666c617368 707 (.o .e 0x666c65626f 4761 .e)) 0x666c657572 6984 (.o (.o .e 0x666c697274 8545 .e) 0x666c6f6174 713 (.o .e 0x666c6f636b 714 .e))))) 0x666c6f6f72 715 (.o (.o (.o (.o (.o (.o .e 0x666c6f7261 11091 .e) 0x666c6f7265 6987 .e) 0x666c6f7461 2777 (.o .e 0x666c756964 717 .e)) 0x666c756972 2778 (.o (.o (.o .e 0x666c756a6f 2779 .e) 0x666c757368 718 .e) 0x666c75786f 11093 (.o .e 0x666f626961 2781 .e))) 0x666f63616c 11094 (.o (.o (.o (.o .e 0x666f637573 721 .e) 0x666f696365 11099 .e) 0x666f6c6965 6991 (.o .e 0x666f6c696f 2785 .e)) 0x666f6e646f 2787 (.o (.o .e 0x666f6e6961 4776 .e) 0x666f726365 728 (.o .e 0x666f726d61 2788 .e)))) 0x666f726e6f 11104 (.o (.o (.o (.o (.o .e 0x666f72726f 2789 .e) 0x666f727465 11105 .e) 0x666f72756d 733 (.o .e 0x666f73636f 11106 .e)) 0x666f737361 11107 (.o (.o .e 0x666f73736f 4787 .e) 0x666f746b61 8550 (.o .e 0x666f746f6e 8551 .e))) 0x666f756e64 737 (.o (.o (.o (.o .e 0x6672616d65 740 .e) 0x6672616e61 4789 .e) 0x6672617365 2797 (.o .e 0x6672656e6f 2800 .e)) 0x6672657361 2801 (.o (.o .e 0x6672657368 742 .e) 0x667269676f 4795 (.o .e 0x667269736f 11117 .e)))))
def mnemonicTree121 : Tree := .o mnemonicTree119 0x6665747461 4745 mnemonicTree120
def mnemonicTree122 : Tree := .o mnemonicTree118 0x656d61696c 8504 mnemonicTree121
def mnemonicTree123 : Tree := .o mnemonicTree115 0x636f737461 2507 mnemonicTree122
def mnemonicTree124 : Tree := .o mnemonicTree108 0x626163696c 8221 mnemonicTree123
def mnemonicTree125 : Tree := .o mnemonicTree93 0x6f637265 3327 mnemonicTree124
def mnemonicTree126 : Tree := .o mnemonicTree62 0xe8afb8 17810 mnemonicTree125
def mnemonicTree127 : Tree := .o (.o (.o (.t (.o (.o (.o .e 0x66726f6964 7020 .e) 0x66726f6e74 746 .e) 0x66726f7374 747 (.o .e 0x66726f776e 748 .e)) 0x6672756974 750 7024 (.o (.o (.o .e 0x6672757461 2804 .e) 0x667565676f 2805 .e) 0x6675676972 11122 (.o .e 0x6675697465 7026 .e))) 0x66756b6172 8555 (.o (.o (.o (.o .e 0x66756c766f 4804 .e) 0x66756d6172 2809 .e) 0x66756e6461 2811 (.o .e 0x66756e676f 11126 .e)) 0x66756e696c 11127 (.o (.o .e 0x66756e6e79 753 .e) 0x66756f636f 4810 (.o .e 0x667572626f 4811 .e)))) 0x6675726961 2813 (.o (.o (.o (.o (.o .e 0x667573696c 2814 .e) 0x6675747572 7031 .e) 0x6761666173 2818 (.o .e 0x6761666665 4817 .e)) 0x6761697461 2819 (.o (.o (.o .e 0x67616c686f 11138 .e) 0x67616c6c6f 2823 .e) 0x67616d6261 2824 (.o .e 0x67616d6d61 4822 .e))) 0x67616e6172 2825 (.o (.o (.o (.o .e 0x67616e6761 2827 .e) 0x67616e736f 2828 .e) 0x676172626f 4824 (.o .e 0x676172666f 11143 .e)) 0x6761727a61 2830 (.o (.o .e 0x676173746f 11149 .e) 0x676174746f 4830 (.o .e 0x6761756765 772 .e))))) 0x67617a6f6e 7041 (.o (.o (.o (.o (.o (.o .e 0x67656c736f 4836 .e) 0x67656d6572 11158 .e) 0x67656d6972 2836 (.o .e 0x67656e696f 2839 .e)) 0x67656e6f75 7048 (.o (.o (.o .e 0x67656e7265 776 .e) 0x67656e726f 11164 .e) 0x67656e7465 2840 (.o .e 0x676572676f 4843 .e))) 0x6765726d65 7053 (.o (.o (.o (.o .e 0x676573736f 11168 .e) 0x676573746f 2844 .e) 0x6768697361 4846 (.o .e 0x67686f7374 780 .e)) 0x6769616e74 781 (.o (.o .e 0x67696c6461 4848 .e) 0x67696f7665 4853 (.o .e 0x6769726172 2847 .e)))) 0x6769767265 7059 (.o (.o (.o (.o (.o .e 0x676c616365 7060 .e) 0x676c617265 790 .e) 0x676c617373 791 (.o .e 0x676c656a74 8564 .e)) 0x676c696465 792 (.o (.t .e 0x676c6f6265 794 7063 .e) 0x676c6f626f 2850 (.o .e 0x676c6f6f6d 795 .e))) 0x676c6f7279 796 (.o (.o (.o (.o .e 0x676c6f7665 797 .e) 0x676e6f6d6f 4862 .e) 0x676f626261 4863 (.o .e 0x676f656c61 11179 .e)) 0x676f6c656d 8565 (.o (.o .e 0x676f6c6665 11181 .e) 0x676f6c666f 2853 (.o .e 0x676f6c7065 2855 .e)))))
def mnemonicTree128 : Tree := .o (.o (.o (.o (.o (.o (.o .e 0x676f6e6e61 4868 .e) 0x676f6f7365 804 .e) 0x676f72646f 2857 (.o .e 0x676f726765 7069 .e)) 0x676f727261 2859 (.o (.o (.o .e 0x676f72726f 11185 .e) 0x676f74656f 2861 .e) 0x676f7a6172 2862 (.o .e 0x6772616365 811 .e))) 0x6772616461 2863 (.o (.o (.o (.o .e 0x677261646f 4871 .e) 0x677261696e 812 .e) 0x6772616e64 7080 (.o .e 0x6772616e6f 2865 .e)) 0x6772616e74 813 (.o (.o .e 0x6772617065 814 .e) 0x6772617361 2866 (.o .e 0x6772617373 815 .e)))) 0x6772617665 2868 (.o (.o (.o (.o (.o .e 0x6772617861 11197 .e) 0x6772656174 817 .e) 0x6772656361 4878 (.o .e 0x677265656e 818 .e)) 0x677265676f 11198 (.o (.o (.o .e 0x6772657665 11200 .e) 0x6772696566 820 .e) 0x6772696c6f 11201 (.o .e 0x6772697065 2871 .e))) 0x677269746f 2873 (.o (.o (.o (.o .e 0x67726f7570 823 .e) 0x6772756d6f 2877 .e) 0x6772756e74 825 (.o .e 0x677275706f 2878 .e)) 0x6772757461 11208 (.o (.o .e 0x677561696f 4886 .e) 0x677561706f 2880 (.o .e 0x6775617264 826 .e))))) 0x6775657373 827 (.o (.o (.o (.o (.t (.o .e 0x6775696172 11213 .e) 0x6775696465 828 7097 .e) 0x6775696c74 829 (.o .e 0x6775696f6e 2885 .e)) 0x677569736f 2886 (.o (.o (.o .e 0x6861626572 2890 .e) 0x6861626974 833 .e) 0x6861636572 2893 (.o .e 0x6861636861 2894 .e))) 0x68616c7465 7105 (.o (.o (.o (.o .e 0x68616e6261 8580 .e) 0x6861707079 839 .e) 0x6861726661 8582 (.o .e 0x6861727368 842 .e)) 0x6861737465 11221 (.o (.o .e 0x6861766572 11222 .e) 0x6865617274 850 (.o .e 0x6865617679 851 .e)))) 0x6865627261 2902 (.o (.o (.o (.o (.o .e 0x686563686f 2903 .e) 0x68656a6e6f 8587 .e) 0x68656c696f 2905 (.o .e 0x68656c6c6f 854 .e)) 0x68656c6d61 8590 (.o (.o .e 0x6865726265 7115 .e) 0x6865726563 8592 (.o .e 0x6865726972 2907 .e))) 0x6865726e61 8593 (.o (.o (.o (.o .e 0x6865736c6f 8594 .e) 0x68657a6b79 8595 .e) 0x686961746f 11227 (.o .e 0x6869626f75 7122 .e)) 0x6869656c6f 2911 (.o (.o .e 0x6869656e61 11230 .e) 0x68696d6e6f 2916 (.o .e 0x6869766572 7125 .e)))))
def mnemonicTree129 : Tree := .o mnemonicTree127 0x676f6d6d65 7067 mnemonicTree128
def mnemonicTree130 : Tree := .o (.o (.o (.o (.o (.o (.o .e 0x686c746174 8605 .e) 0x686d6f7461 8609 .e) 0x686e6f7574 8613 (.o .e 0x686f626279 866 .e)) 0x686f626f6a 8615 (.o (.o (.o .e 0x686f676172 2919 .e) 0x686f6b656a 8622 .e) 0x686f6c6b61 8624 (.o .e 0x686f6c7562 8625 .e))) 0x686f6d656d 11237 (.o (.o (.o (.o .e 0x686f6e6579 873 .e) 0x686f6e676f 2923 .e) 0x686f6e6f72 2924 (.o .e 0x686f6e7261 2925 .e)) 0x686f72616c 8629 (.o (.o .e 0x686f726461 8630 .e) 0x686f726465 7132 (.o .e 0x686f726b6f 8632 .e)))) 0x686f726e6f 2928 (.o (.o (.o (.o (.o .e 0x686f727365 878 .e) 0x686f74656c 881 .e) 0x686f756261 8641 (.o .e 0x686f766572 883 .e)) 0x686f766f72 8645 (.o (.o (.o .e 0x6872646c6f 8652 .e) 0x68726e656b 8654 .e) 0x6875646261 8665 (.o .e 0x687565636f 2931 .e))) 0x687565736f 2934 (.o (.o (.o (.o .e 0x687565766f 2935 .e) 0x6875696461 2936 .e) 0x68756b6f74 8666 (.o .e 0x68756d616e 886 .e)) 0x68756d6f72 888 (.o (.o .e 0x6875727279 893 .e) 0x687572746f 2944 (.o .e 0x68766f7a64 8670 .e))))) 0x68796d6e61 8674 (.o (.o (.o (.o (.o (.o .e 0x68796d6e65 7148 .e) 0x69636f6e61 4892 .e) 0x69636f6e6f 2945 (.o .e 0x696465616c 2946 .e)) 0x6964656961 11244 (.o (.o (.o .e 0x69646f6c6f 4895 .e) 0x69646f736f 11245 .e) 0x696775616c 2951 (.o .e 0x69686e6564 8677 .e))) 0x696b6f6e61 8678 (.o (.o (.o (.o .e 0x696c617265 4902 .e) 0x696c65736f 11249 .e) 0x696c757a65 8679 (.t .e 0x696d616765 906 7155 .e)) 0x696d706172 2957 (.o (.o .e 0x696d706f72 11264 .e) 0x696e646578 918 (.o .e 0x696e646961 4930 .e)))) 0x696e6e6572 931 (.o (.o (.o (.o (.o .e 0x696e707574 933 .e) 0x6972696465 4962 .e) 0x6973737565 949 (.o .e 0x69766f7279 951 .e)) 0x6a616d6265 7216 (.o (.o .e 0x6a616e7461 11324 .e) 0x6a61727261 2988 (.o .e 0x6a6172726f 11327 .e))) 0x6a6173616e 8700 (.o (.o (.o (.o .e 0x6a61736e6f 8701 .e) 0x6a61746b61 8702 .e) 0x6a61756c61 2989 (.o .e 0x6a61756e65 7220 .e)) 0x6a61766f72 8703 (.o (.o .e 0x6a617a796b 8704 .e) 0x6a65616e73 957 (.o .e 0x6a65646c65 8706 .e)))))
def mnemonicTree131 : Tree := .o (.o (.o (.o (.o (.o (.o .e 0x6a656b6f74 8709 .e) 0x6a656c656e 8710 .e) 0x6a656c6c79 958 (.o .e 0x6a656e6f6d 8713 .e)) 0x6a65746f6e 7223 (.o (.o (.o .e 0x6a65756469 7224 .e) 0x6a65766974 8716 .e) 0x6a6577656c 959 (.o .e 0x6a696e616b 8719 .e))) 0x6a696e6479 8720 (.o (.o (.o (.o .e 0x6a697a7661 8725 .e) 0x6a6f76656d 11339 .e) 0x6a6f76656e 2996 (.o .e 0x6a6f796175 7233 .e)) 0x6a75646575 11341 (.o (.o .e 0x6a75646765 965 .e) 0x6a75696365 966 (.o .e 0x6a756c686f 11345 .e)))) 0x6a756e636f 3005 (.o (.o (.o (.o (.o .e 0x6a756e696f 3007 .e) 0x6a75706f6e 7238 .e) 0x6a75726172 3010 (.o .e 0x6a75727461 8728 .e)) 0x6a75737461 11349 (.o (.o .e 0x6a7573746f 3011 .e) 0x6b6162656c 8730 (.o .e 0x6b61646574 8733 .e))) 0x6b6168616e 8735 (.o (.o (.o (.o .e 0x6b616a616b 8736 .e) 0x6b616b616f 8738 .e) 0x6b616d6e61 8746 (.o .e 0x6b616e6f65 8748 .e)) 0x6b61706b61 8753 (.o (.o .e 0x6b61706c65 8754 .e) 0x6b61756365 8765 (.o .e 0x6b61757a61 8766 .e))))) 0x6b6179616b 7243 (.o (.o (.o (.o (.o (.o .e 0x6b64657369 8772 .e) 0x6b6c61756e 8782 .e) 0x6b6c696d61 8788 (.o .e 0x6b6c6f7061 8792 .e)) 0x6b6c6f7562 8793 (.o (.o (.o .e 0x6b6d6f7472 8799 .e) 0x6b6e696665 989 .e) 0x6b6e696861 8800 (.o .e 0x6b6e6f636b 990 .e))) 0x6b6f616c61 3015 (.o (.o (.o (.o .e 0x6b6f626b61 8804 .e) 0x6b6f6b6f73 8810 .e) 0x6b6f6d696b 8818 (.o .e 0x6b6f6e6174 8823 .e)) 0x6b6f6e6563 8826 (.o (.o .e 0x6b6f706965 8834 .e) 0x6b6f74656c 8847 (.o .e 0x6b72616368 8858 .e)))) 0x6b72697a65 8869 (.o (.o (.o (.o (.o .e 0x6b7274656b 8879 .e) 0x6b756b6c61 8891 .e) 0x6b756c6b61 8894 (.o .e 0x6b7574696c 8901 .e)) 0x6b79746b61 8909 (.o (.t .e 0x6c6162656c 993 7246 .e) 0x6c6162696f 3016 (.o .e 0x6c61626f72 994 .e))) 0x6c61636361 4976 (.o (.o (.o (.o .e 0x6c6163696f 3017 .e) 0x6c61637261 3018 .e) 0x6c61637265 11352 (.o .e 0x6c61676f61 11356 .e)) 0x6c6169636f 3024 (.o (.o .e 0x6c61696e65 7252 .e) 0x6c616d6572 3025 (.o .e 0x6c616d7061 8918 .e)))))
def mnemonicTree132 : Tree := .o mnemonicTree130 0x6a656a756d 11332 mnemonicTree131
def mnemonicTree133 : Tree := .o mnemonicTree129 0x686c617661 8599 mnemonicTree132
def mnemonicTree134 : Tree := .o (.o (.o (.o (.o (.o (.o .e 0x6c616d706f 4982 .e) 0x6c616e7a61 3031 .e) 0x6c6170696e 7261 (.o .e 0x6c6170736f 11364 .e)) 0x6c61726761 4986 (.o (.o (.o .e 0x6c61726765 1001 .e) 0x6c6172676f 3033 .e) 0x6c61726d65 7263 (.o .e 0x6c61727661 3034 .e))) 0x6c61746572 1002 (.o (.o (.o (.o .e 0x6c6174696e 1003 .e) 0x6c61746972 3038 .e) 0x6c61756768 1004 (.o .e 0x6c61766172 3040 .e)) 0x6c61796572 1010 (.o (.o .e 0x6c617a6572 11376 .e) 0x6c6561726e 1014 (.o .e 0x6c65617665 1015 .e)))) 0x6c65626b61 8925 (.o (.o (.o (.o (.o .e 0x6c65627265 11378 .e) 0x6c65636865 3044 .e) 0x6c6564656e 8927 (.o .e 0x6c6567616c 1019 .e)) 0x6c65676965 8932 (.o (.o (.o .e 0x6c65686365 8934 .e) 0x6c6569676f 11382 .e) 0x6c656d626f 4996 (.o .e 0x6c656d6f6e 1022 .e))) 0x6c656e746f 3051 (.o (.o (.o (.o .e 0x6c656e7a61 4998 .e) 0x6c656f6e65 4999 .e) 0x6c65707265 5000 (.o .e 0x6c65736d61 11390 .e)) 0x6c65737465 11391 (.o (.o .e 0x6c6573746f 5003 .e) 0x6c6574616c 3056 (.o .e 0x6c65746563 8943 .e))))) 0x6c65746d6f 8944 (.o (.o (.o (.o (.o (.o .e 0x6c65747261 3057 .e) 0x6c65766172 11394 .e) 0x6c6576656c 1029 (.o .e 0x6c69627261 8949 .e)) 0x6c69627265 7278 (.o (.o (.o .e 0x6c6962726f 3061 .e) 0x6c69636f72 3062 .e) 0x6c69676172 11400 (.o .e 0x6c69676874 1036 .e))) 0x6c69677565 7285 (.o (.o (.o (.o .e 0x6c696c656b 8955 .e) 0x6c696c6c61 5010 .e) 0x6c696d6572 7286 (.o .e 0x6c696d6974 1039 .e)) 0x6c696e6365 3072 (.o (.o .e 0x6c696e6461 11405 .e) 0x6c696e646f 3073 (.o .e 0x6c696e6965 8957 .e)))) 0x6c696e6b61 8958 (.o (.o (.o (.o (.o .e 0x6c69736361 5019 .e) 0x6c69737461 3080 .e) 0x6c6974696f 3082 (.o .e 0x6c6974726f 3083 .e)) 0x6c6976726f 11412 (.o (.o .e 0x6c6c616761 3084 .e) 0x6c6c616d61 3085 (.o .e 0x6c6c617665 3087 .e))) 0x6c6f63616c 1050 (.o (.o (.o (.o .e 0x6c6f676963 1052 .e) 0x6c6f67726f 3099 .e) 0x6c6f6b6574 8968 (.o .e 0x6c6f6d626f 11418 .e)) 0x6c6f6e6765 11420 (.o (.o .e 0x6c6f6e6a61 3102 .e) 0x6c6f726465 11422 (.o .e 0x6c6f736f73 8973 .e)))))
def mnemonicTree135 : Tree := .o (.o (.o (.o (.o (.o (.o .e 0x6c6f756b61 8977 .e) 0x6c6f757264 7306 .e) 0x6c6f757361 11426 (.o .e 0x6c6f757665 7308 .e)) 0x6c6f766563 8979 (.o (.o (.t .e 0x6c6f79616c 1060 7309 .e) 0x6c75626965 7310 .e) 0x6c75636861 3104 (.o .e 0x6c75636972 3105 .e))) 0x6c75636b79 1061 (.o (.o (.o (.o .e 0x6c7563726f 11430 .e) 0x6c75657572 7313 .e) 0x6c75676172 3106 (.o .e 0x6c756e6172 1064 .e)) 0x6c756e6368 1065 (.o (.o .e 0x6c756e6469 7318 .e) 0x6c756e6573 3109 (.o .e 0x6c756e676f 5037 .e)))) 0x6c75726f6e 7319 (.o (.o (.o (.o (.o .e 0x6c7573736f 5041 .e) 0x6c7574746f 5042 .e) 0x6c76696365 8986 (.o .e 0x6d6163686f 3115 .e)) 0x6d6163696f 11438 (.o (.o .e 0x6d6164616d 8990 .e) 0x6d61646c6f 8991 (.o .e 0x6d61647265 3117 .e))) 0x6d61666961 3120 (.o (.o (.o (.o .e 0x6d61676961 3121 .e) 0x6d61676963 1070 .e) 0x6d6167726f 5051 (.o .e 0x6d61696f72 11443 .e)) 0x6d616a6f72 1075 (.o (.o .e 0x6d616b616b 8997 .e) 0x6d616c6261 9000 (.o .e 0x6d616c6861 11446 .e))))) 0x6d616c6c61 3126 (.o (.o (.o (.o (.o (.o .e 0x6d616c746f 5057 .e) 0x6d616d626f 3129 .e) 0x6d616d7574 3130 (.o .e 0x6d616e636f 3131 .e)) 0x6d616e646f 3132 (.o (.o (.o .e 0x6d616e6761 3134 .e) 0x6d616e676f 1081 .e) 0x6d616e6b6f 9006 (.o .e 0x6d616e7361 11459 .e))) 0x6d616e736f 3138 (.o (.o (.o (.o .e 0x6d616e7461 3139 .e) 0x6d61706c65 1084 .e) 0x6d61707061 5069 (.o .e 0x6d61726368 1086 .e)) 0x6d6172636f 3144 (.o (.o .e 0x6d61726469 7346 .e) 0x6d61726561 3145 (.o .e 0x6d61726d6f 5073 .e)))) 0x6d61727a6f 3152 (.o (.o (.o (.o (.o .e 0x6d61746172 3156 .e) 0x6d61746368 1094 .e) 0x6d6174697a 3158 (.o .e 0x6d61757665 7358 .e)) 0x6d61796f72 3161 (.o (.o .e 0x6d65636861 3163 .e) 0x6d6564616c 1106 (.o .e 0x6d65646961 1107 .e))) 0x6d6564696f 3165 (.o (.o (.o (.o .e 0x6d65696761 11488 .e) 0x6d656a6f72 3168 .e) 0x6d656c6973 5090 (.o .e 0x6d656e6572 7372 .e)) 0x6d656e6f72 3172 (.o (.o .e 0x6d656e6f73 11494 .e) 0x6d656e7465 3174 (.o .e 0x6d65726379 1114 .e)))))
def mnemonicTree136 : Tree := .o mnemonicTree134 0x6c6f756572 7305 mnemonicTree135
def mnemonicTree137 : Tree := .o (.o (.o (.o (.o (.o (.o .e 0x6d65726974 1116 .e) 0x6d65726c65 7378 .e) 0x6d65726c6f 5097 (.o .e 0x6d65727279 1117 .e)) 0x6d65736d6f 11501 (.o (.o (.o .e 0x6d6574616c 1120 .e) 0x6d65746572 3182 .e) 0x6d65746c61 9025 (.o .e 0x6d6574726f 3184 .e))) 0x6d65786572 11507 (.o (.o (.o (.o .e 0x6d6963726f 11509 .e) 0x6d6965646f 3186 .e) 0x6d69656c65 5111 (.o .e 0x6d696d6963 1126 .e)) 0x6d696e6365 7394 (.o (.o .e 0x6d696e6f72 1129 .e) 0x6d696f6c6f 11520 (.o .e 0x6d696f7065 3199 .e)))) 0x6d69726172 3200 (.o (.o (.o (.o (.o .e 0x6d6973696c 3203 .e) 0x6d69736b61 9042 .e) 0x6d69736d6f 3204 (.o .e 0x6d6973746f 5123 .e)) 0x6d69737472 9043 (.o (.o (.o .e 0x6d69746164 3205 .e) 0x6d69747261 5127 .e) 0x6d69786564 1137 (.o .e 0x6d69787465 7402 .e))) 0x6d6c736174 9049 (.o (.o (.o (.o .e 0x6d6e696368 9051 .e) 0x6d6f62696c 9053 .e) 0x6d6f64656c 1140 (.o .e 0x6d6f656461 11527 .e)) 0x6d6f67696f 5134 (.o (.o .e 0x6d6f697461 11530 .e) 0x6d6f6a6172 3212 (.o .e 0x6d6f6b726f 9058 .e))))) 0x6d6f6c6465 3213 (.o (.o (.o (.o (.o (.o .e 0x6d6f6c6572 3214 .e) 0x6d6f6c686f 11533 .e) 0x6d6f6d6961 3217 (.o .e 0x6d6f6e636f 5138 .e)) 0x6d6f6e6a61 3220 (.o (.o (.o .e 0x6d6f6e7468 1147 .e) 0x6d6f6e746f 3221 .e) 0x6d6f72616c 1149 (.o .e 0x6d6f726972 3226 .e))) 0x6d6f72726f 3227 (.o (.o (.o (.o .e 0x6d6f727361 3228 .e) 0x6d6f73617a 9066 .e) 0x6d6f736361 3230 (.o .e 0x6d6f74656c 11545 .e)) 0x6d6f746966 7418 (.o (.o .e 0x6d6f74696d 11546 .e) 0x6d6f746f72 1155 (.o .e 0x6d6f74746f 5152 .e)))) 0x6d6f757365 1157 (.o (.o (.o (.o (.o .e 0x6d6f766572 3233 .e) 0x6d6f766965 1159 .e) 0x6d6f7a656b 9075 (.o .e 0x6d6f7a6f6c 9076 .e)) 0x6d6f7a7a6f 5155 (.o (.o .e 0x6d726b6576 9079 .e) 0x6d727a6574 9081 (.o .e 0x6d75636361 5156 .e))) 0x6d7563686f 3236 (.o (.o (.o (.o .e 0x6d75646172 3237 .e) 0x6d75647263 9084 .e) 0x6d75656c61 3239 (.o .e 0x6d75666661 5158 .e)) 0x6d75677265 3242 (.o (.o .e 0x6d7569746f 11550 .e) 0x6d756a6572 3243 (.o .e 0x6d756c6174 9086 .e)))))
def mnemonicTree138 : Tree := .o (.o (.o (.o (.o (.o (.o .e 0x6d756d6965 9087 .e) 0x6d756e646f 3247 .e) 0x6d756e746f 5165 (.o .e 0x6d7572616c 3249 .e)) 0x6d7573656f 3252 (.o (.o (.o .e 0x6d75736574 9089 .e) 0x6d75736575 11559 .e) 0x6d7573676f 3253 (.o .e 0x6d75736963 1167 .e))) 0x6d75736c6f 3255 (.o (.o (.o (.o .e 0x6d75746572 7434 .e) 0x6e61646172 3258 .e) 0x6e61667461 5174 (.o .e 0x6e61697065 3259 .e)) 0x6e61697665 1173 (.o (.o .e 0x6e616f6b6f 9117 .e) 0x6e61707065 7441 (.o .e 0x6e6172697a 3261 .e)))) 0x6e6173616c 3263 (.o (.o (.o (.o (.o .e 0x6e61737479 1177 .e) 0x6e6174616c 3264 .e) 0x6e6176616c 3268 (.o .e 0x6e6176696f 11572 .e)) 0x6e6563696f 3271 (.o (.o .e 0x6e65636b79 9140 .e) 0x6e65647568 9143 (.o .e 0x6e65676172 3273 .e))) 0x6e6567726f 3275 (.o (.o (.o (.o .e 0x6e65686574 9145 .e) 0x6e65696765 7456 .e) 0x6e656a656e 9147 (.o .e 0x6e656d6f63 9152 .e)) 0x6e65727665 1187 (.o (.o .e 0x6e6572766f 5191 .e) 0x6e65766172 3280 (.o .e 0x6e65766572 1192 .e))))) 0x6e65766575 7461 (.o (.o (.o (.o (.o (.o .e 0x6e69636865 7462 .e) 0x6e6963686f 3282 .e) 0x6e6965746f 3285 (.o .e 0x6e69676874 1196 .e)) 0x6e696a616b 9165 (.o (.o (.o .e 0x6e696b616d 9166 .e) 0x6e696b6479 9167 .e) 0x6e696e6172 11583 (.o .e 0x6e696e6661 5198 .e))) 0x6e696e686f 11584 (.o (.t (.o (.o .e 0x6e6974726f 9170 .e) 0x6e6976656c 3289 .e) 0x6e6f626c65 1197 7466 (.o .e 0x6e6f636865 3291 .e)) 0x6e6f636966 7467 (.o (.o .e 0x6e6f697365 1198 .e) 0x6e6f697465 11588 (.o .e 0x6e6f697661 11589 .e)))) 0x6e6f72656b 9175 (.o (.o (.o (.o (.o .e 0x6e6f726961 3293 .e) 0x6e6f726d61 3294 .e) 0x6e6f727465 3295 (.o .e 0x6e6f727468 1202 .e)) 0x6e6f746172 11594 (.o (.o .e 0x6e6f757a65 9178 .e) 0x6e6f76656c 1208 (.o .e 0x6e6f76696f 3300 .e))) 0x6e75616765 7483 (.o (.o (.o (.o .e 0x6e7564657a 11601 .e) 0x6e75646c65 9183 .e) 0x6e75657261 3306 (.o .e 0x6e75657665 3307 .e)) 0x6e75676574 9184 (.o (.o .e 0x6e75697265 7485 .e) 0x6e756c6c61 5214 (.o .e 0x6e756f766f 5216 .e)))))
def mnemonicTree139 : Tree := .o mnemonicTree137 0x6d756c7461 3246 mnemonicTree138
def mnemonicTree140 : Tree := .o mnemonicTree136 0x6d65726765 1115 mnemonicTree139
def mnemonicTree141 : Tree := .o mnemonicTree133 0x6c616d7065 7257 mnemonicTree140
def mnemonicTree142 : Tree := .o (.o (.o (.o (.o (.o (.o .e 0x6e75727365 1212 .e) 0x6e75746974 9185 .e) 0x6e7576656d 11605 (.o .e 0x6e796d6661 9188 .e)) 0x6f61736973 3312 (.o (.o (.o .e 0x6f62617661 9191 .e) 0x6f62646976 9192 .e) 0x6f6265736f 3313 (.o .e 0x6f626c656b 9203 .e))) 0x6f626c696f 5224 (.o (.o (.o (.o .e 0x6f626e6f73 9207 .e) 0x6f626f6c6f 5225 .e) 0x6f626f7574 9210 (.o .e 0x6f62726e61 9212 .e)) 0x6f62727973 9214 (.o (.o .e 0x6f62736168 9215 .e) 0x6f62746572 11612 (.o .e 0x6f6276617a 9219 .e)))) 0x6f6276696f 3320 (.o (.o (.o (.o (.o .e 0x6f62766f64 9221 .e) 0x6f627a6f72 9224 .e) 0x6f6361736f 3322 (.o .e 0x6f63637572 1222 .e)) 0x6f6365616e 1223 (.o (.o (.o .e 0x6f64626f6a 9232 .e) 0x6f64627974 9233 .e) 0x6f64657572 7506 (.o .e 0x6f64696172 3333 .e))) 0x6f646a6574 9242 (.o (.o (.o (.o .e 0x6f646b617a 9244 .e) 0x6f646c6976 9246 .e) 0x6f64706164 9250 (.o .e 0x6f64706973 9251 .e)) 0x6f64706f72 9253 (.o (.o .e 0x6f6473756e 9259 .e) 0x6f64746f6b 9260 (.o .e 0x6f64747564 9261 .e))))) 0x6f65737465 3336 (.o (.o (.o (.o (.o (.o .e 0x6f66666572 1227 .e) 0x6f66696e61 9267 .e) 0x6f6674656e 1229 (.o .e 0x6f67697661 11624 .e)) 0x6f67697665 7511 (.o (.o (.o .e 0x6f686c6173 9269 .e) 0x6f69cc8172 3343 .e) 0x6f6b6f7679 9279 (.o .e 0x6f6b726573 9281 .e))) 0x6f6b727568 9283 (.o (.o (.o (.o .e 0x6f6c686172 11627 .e) 0x6f6c697661 5245 .e) 0x6f6c697665 1233 (.o .e 0x6f6c69766f 3348 .e)) 0x6f6c747265 5247 (.o (.o .e 0x6f6d627261 5250 .e) 0x6f6d62726f 11629 (.o .e 0x6f6d656761 5251 .e)))) 0x6f6e657265 5254 (.o (.o (.o (.o (.o .e 0x6f6e696365 5255 .e) 0x6f6e696f6e 1238 .e) 0x6f6e74656d 11635 (.o .e 0x6f7061636f 3356 .e)) 0x6f70616c65 7522 (.o (.o .e 0x6f70657261 1242 .e) 0x6f70696365 9300 (.o .e 0x6f706f7261 9303 .e))) 0x6f70746172 3361 (.o (.o (.o (.o .e 0x6f70746572 7528 .e) 0x6f7261666f 5263 .e) 0x6f72626974 1247 (.o .e 0x6f7264656d 11643 .e)) 0x6f7264656e 3369 (.o (.o .e 0x6f72646572 1249 .e) 0x6f72656a61 3370 (.o .e 0x6f7267616e 1251 .e)))))
def mnemonicTree143 : Tree := .o (.o (.o (.o (.o (.o (.o .e 0x6f726c6f6a 9311 .e) 0x6f72717565 7539 .e) 0x6f7274656c 9312 (.o .e 0x6f72746965 7540 .e)) 0x6f72756761 3379 (.o (.o (.o .e 0x6f73616461 9313 .e) 0x6f73617265 5281 .e) 0x6f73696b61 9315 (.o .e 0x6f7369766f 9316 .e))) 0x6f736f6261 9322 (.o (.o (.o (.o .e 0x6f7374656e 9325 .e) 0x6f73747261 3384 .e) 0x6f74686572 1256 (.o .e 0x6f7469736b 9331 .e)) 0x6f74697465 5290 (.o (.o .e 0x6f74726f6b 9335 .e) 0x6f74766f72 9337 (.o .e 0x6f75746572 1258 .e)))) 0x6f7574696c 7547 (.o (.o (.o (.o (.o .e 0x6f76616c65 5295 .e) 0x6f76656a61 3387 .e) 0x6f76657374 5296 (.o .e 0x6f76696e6f 5297 .e)) 0x6f766f6365 9342 (.t (.o (.o .e 0x6f776e6572 1265 .e) 0x6f78796465 7551 .e) 0x6f7a6f6e65 1268 7553 (.o .e 0x6f7a6f6e6f 3392 .e))) 0x706163746f 3393 (.o (.o (.o (.o .e 0x7061647265 3394 .e) 0x7061657365 5308 .e) 0x7061676172 11673 (.o .e 0x70616c636f 3401 .e)) 0x70616c6563 9351 (.o (.o .e 0x70616c6d61 3404 .e) 0x70616e616c 3408 (.t .e 0x70616e6461 1275 7560 .e))))) 0x70616e656c 1276 (.o (.o (.o (.o (.o (.o .e 0x70616e6963 1277 .e) 0x70616e6e61 9358 .e) 0x70616f6c6f 5318 (.o .e 0x706170656c 3413 .e)) 0x7061706572 1279 (.o (.o (.o .e 0x7061726172 3416 .e) 0x7061726564 3418 .e) 0x7061726972 3419 (.o .e 0x7061727461 9365 .e))) 0x7061727465 3424 (.o (.o (.o (.o .e 0x7061727479 1284 .e) 0x7061736172 3425 .e) 0x706173656f 3426 (.o .e 0x7061736d6f 11697 .e)) 0x7061737461 3429 (.o (.o .e 0x7061746368 1286 .e) 0x706174696f 3431 (.o .e 0x7061757361 3433 .e)))) 0x7061757365 1291 (.o (.o (.o (.o (.o .e 0x7061757461 3434 .e) 0x7061796572 7588 .e) 0x7065616365 1294 (.o .e 0x706563686f 3440 .e)) 0x7065636b61 9376 (.o (.o .e 0x706564616c 3441 .e) 0x7065646972 3442 (.o .e 0x7065647261 11710 .e))) 0x7065676172 3443 (.o (.o (.o (.o .e 0x7065696e65 3444 .e) 0x7065697865 11713 .e) 0x70656b6c6f 9379 (.o .e 0x70656c6172 3445 .e)) 0x70656c6561 3447 (.o (.o .e 0x70656c6c65 7594 .e) 0x70656e6361 11716 (.o .e 0x70656e7465 11721 .e)))))
def mnemonicTree144 : Tree := .o mnemonicTree142 0x6f72676965 9309 mnemonicTree143
def mnemonicTree145 : Tree := .o (.o (.o (.o (.o (.o (.o .e 0x7065726c61 3465 .e) 0x7065726e61 11727 .e) 0x7065726e6f 5358 (.o .e 0x706572726f 3467 .e)) 0x7065727465 7610 (.o (.o (.o .e 0x7065736361 3470 .e) 0x7065736572 7611 .e) 0x7065746974 7613 (.o .e 0x70657a7a6f 5370 .e))) 0x70686f6e65 1308 (.o (.t (.o (.o .e 0x70686f746f 1309 .e) 0x7069616461 11736 .e) 0x7069616e6f 1312 7622 (.o .e 0x7069636172 3477 .e)) 0x7069656365 1315 (.o (.o .e 0x7069656761 5376 .e) 0x7069657a61 3482 (.o .e 0x706967726f 5381 .e)))) 0x70696b6c65 9395 (.o (.o (.o (.o (.o .e 0x70696c6172 3484 .e) 0x70696c6f74 1319 .e) 0x70696e6861 11746 (.o .e 0x70696e6e61 5388 .e)) 0x70696e7a61 3489 (.o (.o (.o .e 0x70696f6a6f 3491 .e) 0x7069726573 11753 .e) 0x7069736172 3494 (.o .e 0x7069737461 3497 .e))) 0x7069746368 1324 (.o (.t (.o (.o .e 0x706978656c 7635 .e) 0x70697a6361 3499 .e) 0x70697a7a61 1325 7636 (.o .e 0x706c616361 3500 .e)) 0x706c616365 1326 (.o (.o .e 0x706c617461 3502 .e) 0x706c617465 1329 (.o .e 0x706c617961 3503 .e))))) 0x706c617a61 3504 (.o (.o (.o (.o (.o (.o .e 0x706c656368 9415 .e) 0x706c656e6f 3506 .e) 0x706c6e6974 9422 (.o .e 0x706c6f6d62 7647 .e)) 0x706c6f6d6f 3507 (.o (.o (.o .e 0x706c6f7574 9427 .e) 0x706c75636b 1333 .e) 0x706c756965 7649 (.o .e 0x706c756d61 3508 .e))) 0x706f627265 3510 (.o (.o (.o (.o .e 0x706f627974 9431 .e) 0x706f636974 9433 .e) 0x706f646174 9435 (.o .e 0x706f646572 3512 .e)) 0x706f64696f 3513 (.o (.o .e 0x706f656d61 3514 .e) 0x706f657461 3516 (.o .e 0x706f687962 9454 .e)))) 0x706f696e74 1338 (.o (.o (.o (.o (.o .e 0x706f6b6f6a 9460 .e) 0x706f6b796e 9463 .e) 0x706f6c6172 1339 (.o .e 0x706f6c656e 3517 .e)) 0x706f6c6c6f 3519 (.o (.o .e 0x706f6c736f 5413 .e) 0x706f6c766f 3520 (.o .e 0x706f6d6172 11773 .e))) 0x706f6d6261 11774 (.o (.o (.o (.o .e 0x706f6d6f63 9472 .e) 0x706f6d7061 3524 .e) 0x706f6e6572 3525 (.o .e 0x706f6e6579 7666 .e)) 0x706f6e7465 5418 (.o (.o .e 0x706f70656c 9479 .e) 0x706f707564 9484 (.o .e 0x706f726365 9486 .e)))))
def mnemonicTree146 : Tree := .o (.o (.o (.o (.o (.o (.o .e 0x706f727265 5423 .e) 0x706f727461 11778 .e) 0x706f727976 9489 (.o .e 0x706f736564 9491 .e)) 0x706f737465 3531 (.o (.o (.o .e 0x706f737970 9499 .e) 0x706f746168 9500 .e) 0x706f74726f 3533 (.o .e 0x706f756365 7674 .e))) 0x706f75736f 11783 (.o (.o (.o (.o .e 0x706f75746f 9508 .e) 0x706f766f7a 9513 .e) 0x706f76796b 9516 (.o .e 0x706f776572 1354 .e)) 0x706f7a6f72 9521 (.o (.o .e 0x707261646f 3535 .e) 0x7072616961 11785 (.o .e 0x7072617365 9529 .e)))) 0x707261746f 11787 (.o (.o (.o (.o (.o .e 0x7072617865 11788 .e) 0x7072656365 11789 .e) 0x707265736f 3540 (.o .e 0x7072696365 1363 .e)) 0x7072696465 1364 (.o (.o .e 0x7072696d61 5445 .e) 0x7072696d6f 3542 (.o .e 0x7072696e74 1366 .e))) 0x7072697a65 1370 (.o (.o (.o (.o .e 0x70726b6e6f 9532 .e) 0x70726f6965 7699 .e) 0x70726f6c65 3553 (.o .e 0x70726f6f66 1378 .e)) 0x70726f7361 11810 (.o (.o .e 0x70726f7564 1382 .e) 0x70726f7661 5459 (.o .e 0x707276656b 9552 .e))))) 0x707564696d 11814 (.o (.o (.o (.o (.o (.o .e 0x7075646f72 3561 .e) 0x7075676e6f 5467 .e) 0x70756c6172 11815 (.o .e 0x70756c6365 5468 .e)) 0x70756c6761 3565 (.o (.o (.o .e 0x70756c6972 3566 .e) 0x70756c7065 7714 .e) 0x70756c706f 3568 (.o .e 0x70756c7365 1388 .e))) 0x70756c736f 3569 (.o (.o (.o (.o .e 0x70756d7061 9565 .e) 0x70756e6368 1390 .e) 0x70756e6972 11819 (.o .e 0x70756e746f 3571 .e)) 0x707570656e 9567 (.o (.o .e 0x707570696c 1391 .e) 0x7075707079 1392 (.o .e 0x7075727365 1396 .e)))) 0x707974656c 9575 (.o (.o (.o (.o (.o .e 0x7175617365 11826 .e) 0x7175617369 5477 .e) 0x7175656461 11828 (.o .e 0x7175656a61 3578 .e)) 0x717565736f 3581 (.o (.o .e 0x717569636b 1405 .e) 0x7175696e61 11833 (.o .e 0x71756f7461 5479 .e))) 0x71756f7465 1408 (.o (.o (.o (.o .e 0x7261626961 3587 .e) 0x726163656b 9576 .e) 0x7261646172 1413 (.o .e 0x726164696f 1414 .e)) 0x7261646f6e 9580 (.o (.o .e 0x7261676279 9582 .e) 0x7261676e6f 5487 (.o .e 0x7261696172 11840 .e)))))
def mnemonicTree147 : Tree := .o mnemonicTree145 0x706f726f64 9487 mnemonicTree146
def mnemonicTree148 : Tree := .o mnemonicTree144 0x70656e7a65 9383 mnemonicTree147
def mnemonicTree149 : Tree := .o (.o (.o (.o (.o (.o (.o .e 0x7261697661 11843 .e) 0x72616c6c79 1418 .e) 0x72616d616c 11846 (.o .e 0x72616d7061 3593 .e)) 0x72616e6368 1420 (.o (.o (.o .e 0x72616e6465 9587 .e) 0x72616e6765 1422 .e) 0x72616e676f 3595 (.o .e 0x726170617a 3596 .e))) 0x726170656c 11850 (.o (.o (.o (.o .e 0x7261706964 1423 .e) 0x726170746f 3598 .e) 0x726173676f 3599 (.o .e 0x7261737061 3600 .e)) 0x7261737472 9591 (.o (.o .e 0x726176656e 1427 .e) 0x726176696e 7741 (.o .e 0x72617a6f72 1429 .e)))) 0x7265616479 1430 (.o (.o (.o (.o (.o .e 0x7265616c65 5503 .e) 0x726562656c 1433 .e) 0x726563746f 3614 (.o .e 0x7265676972 3624 .e)) 0x7265676c61 3625 (.o (.o (.o .e 0x7265677261 11888 .e) 0x7265696e6f 3628 .e) 0x72656c6178 1448 (.o .e 0x72656c6f6a 3635 .e))) 0x72656d6172 3636 (.o (.o (.o (.o .e 0x72656e6577 1457 .e) 0x72656e6e61 5518 .e) 0x72656e7461 3641 (.o .e 0x726573746f 3650 .e)) 0x7265746572 11914 (.o (.o .e 0x7265766d61 9608 .e) 0x72657a6172 3659 (.o .e 0x726963636f 5536 .e))))) 0x7269646765 1484 (.o (.t (.o (.o (.o (.o .e 0x726965676f 3661 .e) 0x7269657572 7807 .e) 0x7269666c65 1485 (.o .e 0x7269676874 1486 .e)) 0x7269676964 1487 (.o (.o (.o .e 0x7269676f72 3666 .e) 0x72696d6172 11925 .e) 0x726973636f 11928 (.o .e 0x7269746d6f 3672 .e))) 0x726976616c 1493 7815 (.o (.o (.o (.o .e 0x7269766572 1494 .e) 0x7269cc816f 3669 .e) 0x726f617374 1496 (.o .e 0x726f626c65 3675 .e)) 0x726f626f74 1497 (.o (.o .e 0x726f646172 3678 .e) 0x726f64656f 3679 (.o .e 0x726f6b6c65 9616 .e)))) 0x726f6e6365 7820 (.o (.o (.o (.o (.o .e 0x726f6e636f 3687 .e) 0x726f6e6461 3688 .e) 0x726f736361 3692 (.o .e 0x726f736f6c 9622 .e)) 0x726f73706f 5604 (.o (.o .e 0x726f73746f 11941 .e) 0x726f746172 3694 (.o .e 0x726f746f72 7825 .e))) 0x726f75636f 11946 (.o (.o (.o (.o .e 0x726f756765 7827 .e) 0x726f756768 1506 .e) 0x726f756e64 1507 (.o .e 0x726f757061 11947 .e)) 0x726f757261 9630 (.o (.o .e 0x726f757465 1508 .e) 0x726f79616c 1509 (.o .e 0x726f7a756d 9647 .e)))))
def mnemonicTree150 : Tree := .o (.o (.o (.o (.o (.o (.o .e 0x7275626973 7833 .e) 0x7275626f72 3696 .e) 0x727562726f 11949 (.o .e 0x7275636865 7834 .e)) 0x7275656461 3698 (.o (.o (.o .e 0x7275676972 3699 .e) 0x727569646f 3700 .e) 0x7275696e61 3701 (.o .e 0x727569766f 11952 .e))) 0x72756d626f 3704 (.o (.o (.o (.o .e 0x72756d6f72 3705 .e) 0x72756f6c6f 5615 .e) 0x727572616c 1516 (.o .e 0x7275736572 7839 .e)) 0x727573736f 11955 (.o (.o .e 0x7279646c6f 9656 .e) 0x7361626572 3710 (.o .e 0x736162696f 3711 .e)))) 0x7361626c65 3712 (.o (.o (.o (.o (.o .e 0x7361626f72 11956 .e) 0x7361627265 7844 .e) 0x7361636172 3713 (.o .e 0x736164696f 11960 .e)) 0x736167617a 3714 (.o (.o .e 0x7361686174 9661 .e) 0x73616c6164 1522 (.o .e 0x73616c646f 3717 .e))) 0x73616c6972 3719 (.o (.o (.o (.t .e 0x73616c6f6e 1524 7851 .e) 0x73616c7361 3722 .e) 0x73616c746f 3723 (.o .e 0x73616c7564 3724 .e)) 0x73616c766f 5631 (.o (.o .e 0x73616d6261 3726 .e) 0x73616d6563 9663 (.o .e 0x73616e6172 11975 .e))))) 0x73616e746f 3733 (.o (.o (.o (.o (.o (.o .e 0x7361717565 3735 .e) 0x7361726461 11980 .e) 0x736172746f 5637 (.o .e 0x7361756365 1532 .e)) 0x7361756e61 3740 (.o (.o (.o .e 0x736176696f 5644 .e) 0x73617a6261 9670 .e) 0x7363616c61 5661 (.o .e 0x7363616c65 1536 .e))) 0x7363617265 1538 (.o (.o (.o (.o .e 0x7363656e65 1540 .e) 0x73636f7265 7873 .e) 0x73636f7574 1546 (.o .e 0x7363726170 1547 .e)) 0x7363727562 1550 (.o (.o .e 0x736375726f 5694 .e) 0x7365636172 11987 (.o .e 0x7365637461 3745 .e)))) 0x7365646c6f 9678 (.o (.o (.o (.o (.o .e 0x7365697661 11997 .e) 0x73656b7461 9682 .e) 0x73656c6c61 5707 (.o .e 0x73656c6c6f 3749 .e)) 0x73656c7661 3750 (.o (.o .e 0x73656e6461 3753 .e) 0x73656e7365 1566 (.o .e 0x73656e736f 5714 .e))) 0x7365706961 3758 (.o (.o (.o (.o .e 0x7365726965 3761 .e) 0x736572696f 5721 .e) 0x7365727261 12009 (.o .e 0x736572766f 12010 .e)) 0x7365737576 9693 (.o (.o .e 0x7365746261 9695 .e) 0x7365746f72 12012 (.o .e 0x7365747570 1572 .e)))))
def mnemonicTree151 : Tree := .o mnemonicTree149 0x727562616e 7832 mnemonicTree150
def mnemonicTree152 : Tree := .o (.o (.o (.o (.o (.o (.o .e 0x7365766572 9700 .e) 0x736578746f 3770 .e) 0x7366657261 5733 (.o .e 0x7366696461 5734 .e)) 0x73666f676f 5739 (.o (.o (.o .e 0x736675736f 5746 .e) 0x7368616674 1575 .e) 0x7368617265 1577 (.o .e 0x7368656c6c 1579 .e))) 0x7368696674 1582 (.o (.o (.o (.o .e 0x7368696e65 1583 .e) 0x73686f636b 1586 .e) 0x73686f6461 9702 (.o .e 0x73686f6f74 1588 .e)) 0x73686f7274 1590 (.o (.o .e 0x73686f7665 1592 .e) 0x7368727567 1594 (.o .e 0x7369647261 3771 .e)))) 0x7369656765 1600 (.o (.o (.o (.o (.o .e 0x7369657465 3773 .e) 0x7369666f6e 9704 .e) 0x7369676874 1601 (.o .e 0x7369676c61 5756 .e)) 0x7369676c65 7909 (.o (.o (.o .e 0x7369676c6f 3774 .e) 0x7369676e6f 3775 .e) 0x73696c6c61 3779 (.o .e 0x73696c6c79 1605 .e))) 0x73696d696f 3781 (.o (.o (.o (.o .e 0x73696e616c 12019 .e) 0x73696e6365 1609 .e) 0x736972656e 1611 (.o .e 0x7369726b61 9706 .e)) 0x7369726f70 7917 (.o (.o .e 0x7369727570 9708 .e) 0x7369736d61 5770 (.o .e 0x736974696f 3784 .e))))) 0x736b617465 1616 (.o (.o (.o (.o (.o (.o .e 0x736b617574 9713 .e) 0x736b696361 9715 .e) 0x736b696572 7920 (.o .e 0x736b696c6c 1619 .e)) 0x736b697274 1621 (.o (.o (.o .e 0x736b6c757a 9719 .e) 0x736b6f6261 9720 .e) 0x736b6f726f 9722 (.o .e 0x736b756c6c 1622 .e))) 0x736c617374 9731 (.o (.o (.o (.o .e 0x736c656570 1625 .e) 0x736c657661 9735 .e) 0x736c696365 1627 (.o .e 0x736c696465 1628 .e)) 0x736c696e61 9738 (.o (.o .e 0x736c6f766f 9742 .e) 0x736c756368 9743 (.o .e 0x736c756861 9744 .e)))) 0x736c757368 1634 (.o (.o (.o (.o (.o .e 0x736d616c6c 1635 .e) 0x736d617274 1636 .e) 0x736d696c65 1637 (.o .e 0x736d6f6b65 1638 .e)) 0x736d726164 9753 (.o (.o .e 0x736d79736c 9757 .e) 0x736e61636b 1640 (.o .e 0x736e616861 9759 .e))) 0x736e616b65 1641 (.o (.o (.o (.o .e 0x736e696666 1643 .e) 0x736e6f646f 5786 .e) 0x736f627261 12028 (.o .e 0x736f627265 3786 .e)) 0x736f636861 9762 (.o (.o .e 0x736f63696f 3787 .e) 0x736f636c65 7922 (.o .e 0x736f64696f 3788 .e)))))
def mnemonicTree153 : Tree := .o (.o (.o (.o (.o (.o (.o .e 0x736f67726f 12030 .e) 0x736f6b6f6c 9764 .e) 0x736f6c6172 1651 (.o .e 0x736f6c6461 12032 .e)) 0x736f6c6964 1653 (.o (.o (.o .e 0x736f6c7665 1655 .e) 0x736f6d6d61 5802 .e) 0x736f6e6461 5803 (.o .e 0x736f6e6465 7932 .e))) 0x736f706b61 9765 (.o (.o (.o (.o .e 0x736f707261 5808 .e) 0x736f72646f 3804 .e) 0x736f727279 1659 (.o .e 0x736f72736f 5812 .e)) 0x736f736965 7938 (.o (.o .e 0x736f737461 5816 .e) 0x736f747661 9766 (.o .e 0x736f756e64 1662 .e)))) 0x736f757468 1665 (.o (.o (.o (.o (.o .e 0x7370616365 1666 .e) 0x7370616461 5818 .e) 0x7370617265 1667 (.o .e 0x737061776e 1669 .e)) 0x737065616b 1670 (.o (.o .e 0x7370656564 1672 .e) 0x7370656c6c 1673 (.o .e 0x7370656e64 1674 .e))) 0x7370696365 1676 (.o (.o (.o (.o .e 0x7370696b65 1678 .e) 0x73706c6176 9780 .e) 0x73706c6974 1681 (.o .e 0x73706f696c 1682 .e)) 0x73706f6c75 9783 (.o (.o .e 0x73706f6f6e 1684 .e) 0x73706f7274 1685 (.o .e 0x73706f736f 5839 .e))))) 0x7370726179 1687 (.o (.o (.o (.o (.o (.o .e 0x7372646365 9791 .e) 0x73726e6563 9793 .e) 0x737270656e 9795 (.o .e 0x7374616666 1696 .e)) 0x7374616765 1697 (.o (.o (.o .e 0x7374616d70 1699 .e) 0x7374616e64 1700 .e) 0x7374617274 1701 (.o .e 0x7374617465 1702 .e))) 0x737465616b 1704 (.o (.o (.o (.o .e 0x737465656c 1705 .e) 0x7374656c6f 5857 .e) 0x737469636b 1709 (.o .e 0x7374696c6c 1710 .e)) 0x7374696d61 5861 (.o (.o .e 0x7374696e67 1711 .e) 0x73746f636b 1712 (.o .e 0x73746f6e65 1714 .e)))) 0x73746f6f6c 1715 (.o (.o (.o (.o (.o .e 0x73746f7061 9806 .e) 0x73746f7279 1716 .e) 0x73746f7665 1717 (.o .e 0x7374726573 9810 .e)) 0x7374726f6d 9812 (.o (.o .e 0x7374756666 1724 .e) 0x737475666f 5873 (.o .e 0x7374766f6c 9816 .e))) 0x7374796c65 1726 (.o (.o (.o (.o .e 0x7375617665 3809 .e) 0x7375626972 3810 .e) 0x7375637265 7967 (.o .e 0x7375646f72 3812 .e)) 0x7375656c6f 3814 (.o (.o .e 0x7375676172 1734 .e) 0x73756b6e6f 9822 (.o .e 0x73756d6172 3820 .e)))))
def mnemonicTree154 : Tree := .o mnemonicTree152 0x736f676e6f 5793 mnemonicTree153
def mnemonicTree155 : Tree := .o mnemonicTree151 0x736576656e 1573 mnemonicTree154
def mnemonicTree156 : Tree := .o mnemonicTree148 0x7261697365 1417 mnemonicTree155
def mnemonicTree157 : Tree := .o mnemonicTree141 0x6e75717565 7489 mnemonicTree156
def mnemonicTree158 : Tree := .o (.o (.o (.o (.o (.o (.o .e 0x73756e6e79 1739 .e) 0x7375706572 1741 .e) 0x737572636f 3826 (.o .e 0x7375726765 1746 .e)) 0x737573746f 3829 (.o (.o (.o .e 0x737574696c 3830 .e) 0x7376657472 9829 .e) 0x7376726162 9837 (.o .e 0x7377616d70 1753 .e))) 0x737761726d 1755 (.o (.o (.o (.o .e 0x7377656172 1756 .e) 0x7377656574 1757 .e) 0x7377696674 1758 (.o .e 0x7377696e67 1760 .e)) 0x73776f7264 1762 (.o (.o .e 0x73796b6f74 9839 .e) 0x73796e656b 9840 (.o .e 0x7379706174 9842 .e)))) 0x7379727570 1765 (.o (.o (.o (.o (.o .e 0x737973656c 9845 .e) 0x7461626163 7987 .e) 0x7461626c61 3833 (.o .e 0x7461626c65 1767 .e)) 0x746163686f 12080 (.o (.o (.o .e 0x746163746f 3836 .e) 0x74616a6761 9852 .e) 0x74616a6974 9853 (.o .e 0x74616c6172 3838 .e))) 0x74616c636f 3839 (.o (.o (.o (.o .e 0x74616c6c61 3841 .e) 0x74616d7061 12087 .e) 0x74616e6563 9859 (.o .e 0x74616e676f 3845 .e)) 0x74616e746f 12089 (.o (.o .e 0x7461706172 12090 .e) 0x7461706961 3849 (.o .e 0x7461706973 7997 .e))))) 0x7461726465 3852 (.o (.o (.o (.o (.o (.o .e 0x7461726561 3853 .e) 0x7461726966 8000 .e) 0x7461726a61 12094 (.o .e 0x7461726f74 3856 .e)) 0x746172726f 3857 (.o (.o (.o .e 0x7461727461 3858 .e) 0x7461737365 8002 .e) 0x7461737465 1777 (.o .e 0x746173746f 5913 .e))) 0x7461757065 8005 (.o (.o (.o (.o .e 0x746175726f 3860 .e) 0x7461786572 8007 .e) 0x74617a7a61 5917 (.o .e 0x7465616368 1780 .e)) 0x7465636572 12101 (.o (.o .e 0x746563686f 3864 .e) 0x7465636c61 3865 (.o .e 0x7465686479 9865 .e)))) 0x74656a6572 3868 (.o (.o (.o (.o (.o .e 0x74656d6f72 3873 .e) 0x74656d706f 5922 .e) 0x74656e617a 3875 (.o .e 0x74656e6572 3877 .e)) 0x74656e6972 8013 (.o (.o .e 0x74656e6973 3878 .e) 0x74656e6f72 9871 (.o .e 0x74656e736f 3879 .e))) 0x7465706e61 9873 (.o (.o (.o (.o .e 0x746572636f 3882 .e) 0x7465726d65 5929 .e) 0x7465726e65 8016 (.o .e 0x7465726e6f 12114 .e)) 0x7465736973 3886 (.o (.o .e 0x746574726f 5935 .e) 0x7465787465 8019 (.o .e 0x746578746f 3890 .e)))))
def mnemonicTree159 : Tree := .o (.o (.o (.o (.o (.o (.o .e 0x7468656d65 1792 .e) 0x7468657265 1795 .e) 0x7468696e67 1797 (.o .e 0x7468726565 1800 .e)) 0x7468726f77 1802 (.o (.o (.o .e 0x7468756d62 1803 .e) 0x7469617261 12122 .e) 0x7469626961 8024 (.o .e 0x746962696f 3892 .e))) 0x746963686f 9878 (.o (.o (.o (.o .e 0x746965736f 3897 .e) 0x7469676572 1807 .e) 0x7469677265 3898 (.o .e 0x74696c6465 3900 .e)) 0x74696e7461 3904 (.o (.o .e 0x74696e746f 5940 .e) 0x7469726564 1813 (.o .e 0x7469737375 8029 .e)))) 0x7469746c65 1815 (.o (.o (.o (.o (.o .e 0x7469747265 8031 .e) 0x74697a696f 5948 .e) 0x7469cc816f 3905 (.o .e 0x746c757061 9886 .e)) 0x746f617374 1816 (.o (.o (.o .e 0x746f636172 3916 .e) 0x746f636861 12132 .e) 0x746f646179 1818 (.o .e 0x746f6b656e 1823 .e))) 0x746f6c646f 3920 (.o (.o (.o (.o .e 0x746f6c746f 5952 .e) 0x746f6d6172 3921 .e) 0x746f6e656c 12137 (.o .e 0x746f6e666f 5955 .e)) 0x746f6e746f 3923 (.o (.o .e 0x746f6f7468 1830 .e) 0x746f706172 3924 (.o .e 0x746f706963 1832 .e))))) 0x746f706f6c 9890 (.o (.o (.o (.o (.o (.o .e 0x746f707061 5959 .e) 0x746f717565 3926 .e) 0x746f726261 5960 (.o .e 0x746f726368 1834 .e)) 0x746f727265 3933 (.o (.o (.o .e 0x746f727365 8044 .e) 0x746f72736f 3934 .e) 0x746f72746f 12145 (.o .e 0x746f727a6f 9891 .e))) 0x746f73636f 3937 (.o (.o (.o (.o .e 0x746f736572 3938 .e) 0x746f74616c 1838 .e) 0x746f74656d 8046 (.o .e 0x746f756361 12147 .e)) 0x746f756861 9892 (.o (.o .e 0x746f776572 1841 .e) 0x747261636b 1844 (.o .e 0x7472616465 1845 .e)))) 0x7472616572 3942 (.o (.o (.o (.t (.o .e 0x747261676f 3944 .e) 0x747261696e 1848 8055 .e) 0x7472616a65 3945 (.o .e 0x7472616d61 12155 .e)) 0x7472616d6f 3946 (.o (.o .e 0x7472616d70 9896 .e) 0x747261706f 12157 (.o .e 0x7472617361 9897 .e))) 0x7472617368 1851 (.o (.o (.o (.o .e 0x747261746f 3948 .e) 0x7472617665 5979 .e) 0x7472656174 1854 (.o .e 0x7472656e64 1856 .e)) 0x7472657374 9900 (.o (.o .e 0x747265766f 12164 .e) 0x747269616c 1857 (.o .e 0x7472696265 1858 .e)))))
def mnemonicTree160 : Tree := .o mnemonicTree158 0x7468616e6b 1790 mnemonicTree159
def mnemonicTree161 : Tree := .o (.o (.o (.o (.o (.o (.o .e 0x7472696275 3957 .e) 0x747269636b 1859 .e) 0x747269676f 3958 (.o .e 0x7472697061 3959 .e)) 0x74726f6e63 8071 (.o (.o (.o .e 0x74726f6e6f 5993 .e) 0x74726f7061 3965 .e) 0x74726f7465 3966 (.o .e 0x74726f7661 12176 .e))) 0x74726f7a6f 3967 (.o (.o (.o (.o .e 0x7472706365 9908 .e) 0x747275636b 1865 .e) 0x747275636f 3968 (.o .e 0x7472756661 3970 .e)) 0x7472756c79 1867 (.o (.o .e 0x7472757374 1869 .e) 0x7472757468 1870 (.o .e 0x7472766174 9915 .e)))) 0x7475696c65 8074 (.o (.o (.o (.o (.o .e 0x74756d6261 3974 .e) 0x74756d6f72 3975 .e) 0x747572626f 12184 (.o .e 0x7475726d61 12185 .e)) 0x7475726e6f 3980 (.o (.o (.o .e 0x7475746f72 3981 .e) 0x7475796175 8081 .e) 0x7477696365 1882 (.o .e 0x7477697374 1884 .e))) 0x74796b6576 9928 (.o (.o (.o (.o .e 0x747972616e 8085 .e) 0x75626f7a65 9930 .e) 0x7562726174 9931 (.o .e 0x7562727573 9933 .e)) 0x7564697265 6010 (.o (.o .e 0x7569766172 12189 .e) 0x756c696365 9947 (.o .e 0x756c697461 9948 .e))))) 0x756d616e6f 6017 (.o (.o (.o (.o (.o (.o .e 0x756d696c65 6018 .e) 0x756e636c65 1892 .e) 0x756e646572 1894 (.o .e 0x756e696f6e 8091 .e)) 0x756e746172 3989 (.o (.o (.o .e 0x756e74696c 1905 .e) 0x756ecc8361 3990 .e) 0x7570706572 1912 (.o .e 0x7570736574 1913 .e))) 0x7570757061 6029 (.o (.o (.o (.o .e 0x757262616e 1914 .e) 0x7572756275 12197 .e) 0x757361646f 12198 (.t .e 0x7573616765 1916 8098 .e)) 0x757361746f 6034 (.o (.o .e 0x7573696e61 12199 .e) 0x7573696e65 8099 (.o .e 0x757375616c 1921 .e)))) 0x757375656c 8100 (.o (.o (.o (.o (.o .e 0x7573757265 8101 .e) 0x7574696c65 8102 .e) 0x75746b6174 9970 (.o .e 0x757a6e6174 9982 .e)) 0x7661676172 4003 (.t (.o .e 0x7661676f6e 9983 .e) 0x7661677565 1925 8107 (.o .e 0x7661696e61 4005 .e))) 0x76616c676f 6046 (.o (.o (.o (.o .e 0x76616c6964 1926 .e) 0x76616c6c65 4009 .e) 0x76616c6f72 4010 (.t .e 0x76616c7665 1928 8114 .e)) 0x7661706f72 1931 (.o (.o .e 0x766172616e 9989 .e) 0x7661736361 6062 (.o .e 0x7661737465 8121 .e)))))
def mnemonicTree162 : Tree := .o (.o (.o (.o (.o (.o (.o .e 0x76617a6172 12217 .e) 0x76617a696f 12218 .e) 0x7663686f64 9993 (.o .e 0x76646f7661 9994 .e)) 0x766561646f 12219 (.o (.o (.o .e 0x7665646172 12220 .e) 0x766564726f 9995 .e) 0x76656a6365 9997 (.o .e 0x76656a657a 4021 .e))) 0x76656c6f7a 4024 (.o (.o (.o (.o .e 0x76656e6461 4027 .e) 0x76656e6972 4030 .e) 0x76656e7461 4031 (.o .e 0x76656e746f 6074 .e)) 0x76656e7565 1939 (.o (.o .e 0x76656e7573 4032 .e) 0x766572626f 4035 (.o .e 0x7665726465 4036 .e)))) 0x7665726a61 4038 (.o (.o (.o (.o (.o .e 0x766572736f 4039 .e) 0x7665727475 8138 .e) 0x7665727a65 10005 (.o .e 0x7665737061 12238 .e)) 0x7665737461 10010 (.o (.o .e 0x7665786572 8143 .e) 0x7669616a65 4042 (.o .e 0x7669636872 10014 .e))) 0x766963696f 4044 (.o (.o (.o (.o .e 0x766964656f 1950 .e) 0x7669646c65 10017 .e) 0x7669656a6f 4049 (.o .e 0x7669656c61 12248 .e)) 0x7669676f72 4051 (.o (.o .e 0x76696c6c61 4053 .e) 0x76696e636f 12254 (.o .e 0x76696e696c 12256 .e))))) 0x76696f6c61 6101 (.o (.t (.o (.t (.o (.o .e 0x766972616c 4058 .e) 0x766972676f 4059 .e) 0x7669727573 1956 8158 (.o .e 0x7669736574 10020 .e)) 0x7669736974 1958 (.o (.o (.o .e 0x7669736f72 4061 .e) 0x766973706f 6108 .e) 0x7669737461 4063 (.o .e 0x766973746f 12261 .e))) 0x766974616c 1960 8164 (.o (.o (.o (.o .e 0x766975646f 4065 .e) 0x766976617a 4066 .e) 0x7669766964 1961 (.o .e 0x7669766972 4068 .e)) 0x7669cc8161 4041 (.o (.o .e 0x766a657a64 10024 .e) 0x766b6c6164 10025 (.o .e 0x766c65766f 10030 .e)))) 0x766f63616c 1962 (.o (.o (.o (.o (.o .e 0x766f67616c 12267 .e) 0x766f696365 1963 .e) 0x766f696c65 8172 (.o .e 0x766f6a6e61 10042 .e)) 0x766f6c6261 10045 (.o (.o .e 0x766f6c6974 10046 .e) 0x766f6c6e6f 10047 (.o .e 0x766f6c7065 6121 .e))) 0x766f72617a 4073 (.o (.o (.o (.o .e 0x766f746172 4074 .e) 0x766f746572 8181 .e) 0x7672617461 10055 (.o .e 0x7672686174 10058 .e)) 0x7673747570 10063 (.o (.o .e 0x7675656c6f 4077 .e) 0x76756c746f 12273 (.o .e 0x7679646174 10068 .e)))))
def mnemonicTree163 : Tree := .o mnemonicTree161 0x7661756c74 1934 mnemonicTree162
def mnemonicTree164 : Tree := .o mnemonicTree160 0x747269626f 12166 mnemonicTree163
def mnemonicTree165 : Tree := .o (.o (.o (.o (.o (.o (.o .e 0x76796a6574 10077 .e) 0x767a616475 10109 .e) 0x767a646f72 10112 (.o .e 0x767a6b617a 10117 .e)) 0x767a6e696b 10119 (.t (.o (.o .e 0x767a746168 10122 .e) 0x767a74656b 10123 .e) 0x7761676f6e 1970 8185 (.o .e 0x7761737465 1981 .e))) 0x7761746572 1982 (.o (.o (.o (.o .e 0x7765697264 1993 .e) 0x7768616c65 1997 .e) 0x7768656174 1999 (.o .e 0x776865656c 2000 .e)) 0x7768657265 2002 (.o (.o .e 0x7769647468 2006 .e) 0x776f6d616e 2023 (.o .e 0x776f726c64 2029 .e)))) 0x776f727279 2030 (.o (.o (.o (.o (.o .e 0x776f727468 2031 .e) 0x777265636b 2033 .e) 0x7772697374 2035 (.o .e 0x7772697465 2036 .e)) 0x77726f6e67 2037 (.o (.o (.o .e 0x7865717565 12277 .e) 0x7961636572 4079 .e) 0x7961636874 8187 (.o .e 0x7965677561 4081 .e))) 0x7965726e6f 4083 (.o (.o (.o (.o .e 0x796f677572 4087 .e) 0x796f756e67 2042 .e) 0x796f757468 2043 (.o .e 0x7a616a6574 10136 .e)) 0x7a616e6a61 4089 (.o (.o .e 0x7a616e6e61 6125 .e) 0x7a61727a61 4091 (.o .e 0x7a6469766f 10169 .e))))) 0x7a64726f6a 10171 (.o (.o (.o (.o (.o (.o .e 0x7a64766968 10172 .e) 0x7a65627261 2044 .e) 0x7a656d616e 10175 (.o .e 0x7a65737465 8190 .e)) 0x7a696e636f 6135 (.o (.o (.o .e 0x7a6974746f 6137 .e) 0x7a6c61746f 10192 .e) 0x7a6c6f6261 10194 (.o .e 0x7a6c6f7374 10196 .e))) 0x7a6d696a65 10201 (.o (.o (.o (.o .e 0x7a6e6f7675 10210 .e) 0x7a6f6c6c61 6138 .e) 0x7a6f72726f 4093 (.o .e 0x7a70727675 10220 .e)) 0x7a72616461 10221 (.o (.o .e 0x7a75707061 6143 .e) 0x7a7572646f 4095 (.o .e 0x7a76726174 10237 .e)))) 0x61626169786f 10241 (.o (.o (.o (.o (.o .e 0x6162616c6172 10242 .e) 0x616261746572 10243 .e) 0x6162656c6861 10245 (.o .e 0x61626572746f 10246 .e)) 0x616269736d6f 10247 (.o (.o .e 0x61626973736f 4100 .e) 0x61626f6c6972 6148 (.o .e 0x61626f72746f 2054 .e))) 0x61626f796572 6151 (.o (.o (.o (.o .e 0x616272617a6f 2055 .e) 0x616272757074 6156 .e) 0x616273656e74 5 (.o .e 0x6162736f6c75 6158 .e)) 0x6162736f7262 6 (.o (.o .e 0x616273757264 8 .e) 0x616275656c6f 2057 (.o .e 0x616275736966 6160 .e)))))
def mnemonicTree166 : Tree := .o (.o (.o (.o (.o (.o (.o .e 0x616361626172 2059 .e) 0x6163616a6f75 6163 .e) 0x61636365736f 2061 (.o .e 0x616363657373 10 .e)) 0x616363757365 13 (.o (.o (.o .e 0x616365697465 2063 .e) 0x6163656c6761 2064 .e) 0x6163656e6172 10264 (.o .e 0x6163656e746f 2065 .e))) 0x616365726265 6171 (.o (.o (.o (.o .e 0x61636572766f 10265 .e) 0x61636964657a 10269 .e) 0x61636c697665 10274 (.o .e 0x61636e65cc81 2069 .e)) 0x61636f676572 2070 (.o (.o .e 0x6163726f7373 18 .e) 0x616374657572 6179 (.o .e 0x616374696f6e 20 .e)))) 0x61637469766f 2072 (.o (.o (.o (.o (.o .e 0x61637472697a 2074 .e) 0x61637475616c 23 .e) 0x616374756172 2075 (.o .e 0x61637475656c 6181 .e)) 0x616375646972 2076 (.o (.o .e 0x616375736172 2078 .e) 0x61646167696f 4115 (.o .e 0x616464696374 26 .e))) 0x6164646f6d65 4117 (.o (.o (.o (.o .e 0x616465707465 6182 .e) 0x61646570746f 10284 .e) 0x61646963746f 2079 (.o .e 0x61646a757374 28 .e)) 0x61646f726172 10294 (.o (.o .e 0x61646f726572 6190 .e) 0x61646f726e6f 2082 (.o .e 0x616472657361 8194 .e))))) 0x6164726f6974 6193 (.o (.o (.o (.o (.o (.o .e 0x616475616e61 2083 .e) 0x6164756c7465 6194 .e) 0x6164756c746f 2084 (.o .e 0x616476696365 32 .e)) 0x616665726972 10301 (.o (.o (.o .e 0x616666616972 34 .e) 0x6166666f7264 35 .e) 0x6166696e6172 2088 (.o .e 0x61666c69746f 10305 .e))) 0x616672616964 36 (.o (.o (.o (.o .e 0x616761636572 6203 .e) 0x6167656e7465 4131 .e) 0x6167696f7461 10313 (.o .e 0x616769746172 2091 .e)) 0x616769746572 6206 (.o (.o .e 0x61676f73746f 2093 .e) 0x61676f746172 2094 (.o .e 0x616772657365 8195 .e)))) 0x616772756d65 6209 (.o (.o (.o (.o (.o .e 0x6167756c6861 10320 .e) 0x6167757a7a6f 4139 .e) 0x61686f72726f 2102 (.o .e 0x61696c696572 6212 .e)) 0x6169736c6172 2104 (.o (.o .e 0x616a75646172 10322 .e) 0x616a75737465 2107 (.o .e 0x616c61726d61 2110 .e))) 0x616c61726d65 10325 (.o (.o (.o (.o .e 0x616c62696e6f 10329 .e) 0x616c62756d65 4145 .e) 0x616c64656961 10331 (.o .e 0x616c65677265 2115 .e)) 0x616c656a6172 2116 (.o (.o .e 0x616c65727461 2117 .e) 0x616c65727465 6219 (.o .e 0x616c66616365 10335 .e)))))
def mnemonicTree167 : Tree := .o mnemonicTree165 0x616275747265 10256 mnemonicTree166
def mnemonicTree168 : Tree := .o (.o (.o (.o (.o (.o (.o .e 0x616c6961646f 2122 .e) 0x616c6976696f 2124 .e) 0x616c6d656a61 2126 (.o .e 0x616c6d656e6f 4159 .e)) 0x616c6d6f7374 54 (.o (.o (.o .e 0x616c6f636172 10345 .e) 0x616c70616361 4161 .e) 0x616c70616761 6229 (.o .e 0x616c74657a61 2129 .e))) 0x616c7469766f 2130 (.o (.o (.o (.o .e 0x616c74757261 2132 .e) 0x616c75676172 10350 .e) 0x616c756d6e6f 2133 (.o .e 0x616c756e6e6f 4167 .e)) 0x616c77617973 60 (.o (.o .e 0x616c7a617265 4169 .e) 0x616d61626c65 2135 (.o .e 0x616d61646f72 10355 .e)))) 0x616d616e7465 2136 (.o (.o (.o (.o (.o .e 0x616d6172676f 2138 .e) 0x616d61736172 2139 .e) 0x616d62696775 6233 (.o .e 0x616d6269746f 4173 .e)) 0x616d65697861 10360 (.o (.o (.o .e 0x616d69646f6e 6237 .e) 0x616d6972616c 6238 .e) 0x616d6f756e74 64 (.o .e 0x616d7061726f 2146 .e))) 0x616d706c696f 2147 (.o (.o (.o (.o .e 0x616d706f6c61 10371 .e) 0x616d75736564 65 .e) 0x616e616e6173 8201 (.o .e 0x616e61747261 4191 .e)) 0x616e63686f72 67 (.o (.o .e 0x616e6369656e 6249 .e) 0x616e636f7261 4194 (.o .e 0x616e64617265 4195 .e))))) 0x616e64726561 4196 (.o (.o (.t (.o (.o (.o .e 0x616e656c6c6f 4197 .e) 0x616e656d6961 2153 .e) 0x616e67656c6f 4198 (.o .e 0x616e696c6c6f 2155 .e)) 0x616e696d616c 72 6254 (.o (.o (.o .e 0x616e696d6172 10380 .e) 0x616e69cc8173 2157 .e) 0x616e6b657461 8204 (.o .e 0x616e6e75616c 75 .e))) 0x616e6e75656c 6257 (.o (.o (.o (.o .e 0x616e6f64696e 6258 .e) 0x616e6f746172 2158 .e) 0x616e73776572 77 (.o .e 0x616e74656e61 2159 .e)) 0x616e74696b61 8205 (.o (.o .e 0x616e746f6a6f 2161 .e) 0x616e756c6172 2163 (.o .e 0x617061676172 2168 .e)))) 0x617065736172 10395 (.o (.o (.o (.o (.o .e 0x61706f727465 2174 .e) 0x61706f737461 10402 .e) 0x617070656172 84 (.o .e 0x617072696c65 4217 .e)) 0x6172616e6861 10407 (.o (.o .e 0x6172617a7a6f 4224 .e) 0x617263616461 10409 (.o .e 0x617263746963 89 .e))) 0x617264657572 6277 (.o (.o (.o (.o .e 0x61726469746f 4227 .e) 0x6172656a6172 10412 .e) 0x617265737461 10414 (.o .e 0x617267656e74 6279 .e)) 0x617267696e65 4230 (.o (.o .e 0x6172676f6c61 10416 .e) 0x61726775746f 4231 (.o .e 0x61726d757265 6284 .e)))))
def mnemonicTree169 : Tree := .o (.o (.o (.o (.o (.o (.o .e 0x61726f756e64 97 .e) 0x617272657374 99 .e) 0x617272697665 100 (.o .e 0x6172726f6261 10422 .e)) 0x617272756761 2201 (.o (.o (.o .e 0x61727469676f 10426 .e) 0x617274697374 104 .e) 0x6173616c746f 2206 (.o .e 0x617365707369 4244 .e))) 0x617365736f72 2210 (.o (.o (.t (.o .e 0x617366616c74 8209 .e) 0x617370656374 107 6292 .e) 0x617373617574 6295 (.o .e 0x617373697374 110 .e)) 0x617373756d65 111 (.o (.o .e 0x617374686d61 112 .e) 0x617374696365 4257 (.o .e 0x61737472616c 10435 .e)))) 0x617374756365 6302 (.o (.o (.o (.o (.o .e 0x61737475746f 2219 .e) 0x6173756d6972 2220 .e) 0x6173756e746f 2221 (.o .e 0x6174616c686f 10438 .e)) 0x617461717565 2223 (.o (.o .e 0x6174656e746f 2225 .e) 0x61746572726f 10442 (.o .e 0x61746c657461 2228 .e))) 0x617472616572 2230 (.o (.o (.o (.o .e 0x61747269756d 6305 .e) 0x6174726f6365 6306 .e) 0x61747461636b 115 (.o .e 0x617474656e64 116 .e)) 0x617474657361 4263 (.o (.o .e 0x617475cc816e 2232 .e) 0x617564616365 6313 (.o .e 0x617567757374 121 .e))))) 0x6175726f7261 10456 (.o (.o (.o (.o (.o (.o .e 0x6175726f7265 6316 .e) 0x617574686f72 123 .e) 0x617574756172 10459 (.o .e 0x617574756d6e 125 .e)) 0x6176616c6572 6319 (.o (.o (.o .e 0x6176616e6365 2241 .e) 0x6176616e7465 10461 .e) 0x617661726961 10462 (.o .e 0x6176656e6972 6322 .e))) 0x617665727365 6323 (.o (.o (.o (.o .e 0x61766573736f 10464 .e) 0x617669736172 10466 .e) 0x617669736572 6328 (.o .e 0x61766f696e65 6329 .e)) 0x61766f756572 6330 (.o (.o .e 0x6176756c736f 10467 .e) 0x61767669736f 4276 (.o .e 0x6178696f6d65 6333 .e)))) 0x617a61726172 10469 (.o (.o (.o (.o (.o .e 0x617a65697465 10471 .e) 0x617a696f6e65 4278 .e) 0x617a75667265 2256 (.o .e 0x617a7a696d6f 4280 .e)) 0x61cc8167696c 2090 (.o (.o .e 0x61cc81726561 2191 .e) 0x626162656c65 4282 (.o .e 0x6261626f7361 10474 .e))) 0x626163686f72 8220 (.o (.o (.o (.o .e 0x626163696e6f 4284 .e) 0x626167616765 6336 .e) 0x626167657461 8224 (.o .e 0x626169616e6f 10479 .e)) 0x6261696c6172 10480 (.o (.o .e 0x62616972726f 10482 .e) 0x62616c616461 8228 (.o .e 0x62616c636f6e 6340 .e)))))
def mnemonicTree170 : Tree := .o mnemonicTree168 0x61726e657365 4234 mnemonicTree169
def mnemonicTree171 : Tree := .o mnemonicTree167 0x616c6865696f 10338 mnemonicTree170
def mnemonicTree172 : Tree := .o mnemonicTree164 0x7679647261 10069 mnemonicTree171
def mnemonicTree173 : Tree := .o (.o (.o (.o (.o (.o (.o .e 0x62616c656e61 4292 .e) 0x62616c697a61 10486 .e) 0x62616c6b6f6e 8230 (.o .e 0x62616c76616e 8232 .e)) 0x62616d62696e 6343 (.o (.o (.o .e 0x62616d626f6f 144 .e) 0x62616d627573 8234 .e) 0x62616e616e61 145 (.o .e 0x62616e6e6572 146 .e))) 0x62616ecc836f 2270 (.o (.o (.o (.o .e 0x62617261746f 10493 .e) 0x626172626172 8236 .e) 0x626172656c79 148 (.o .e 0x6261726d616e 8238 .e)) 0x6261726e697a 2273 (.o (.o .e 0x6261726f6b6f 8239 .e) 0x626172717565 6352 (.o .e 0x62617272656c 150 .e)))) 0x6261736b6574 153 (.o (.o (.o (.o (.o .e 0x62617373696e 6354 .e) 0x626173757261 2277 .e) 0x626174617461 10500 (.o .e 0x626174656175 6357 .e)) 0x626174696461 10502 (.o (.o (.o .e 0x626174746c65 154 .e) 0x626174757461 2281 .e) 0x626175cc816c 2282 (.o .e 0x6261766c6e61 8243 .e))) 0x6261766f7361 4309 (.o (.o (.o (.o .e 0x62617a756b61 8246 .e) 0x626561757479 157 .e) 0x62656265cc81 2284 (.o .e 0x626562696461 2285 .e)) 0x6265636f6d65 159 (.o (.o .e 0x6265666f7265 161 .e) 0x626568617665 163 (.o .e 0x626568696e64 164 .e))))) 0x62656c657a61 10511 (.o (.o (.o (.o (.o (.o .e 0x62656c67696f 4312 .e) 0x62656c6f7465 6363 .e) 0x62656e7a6572 10516 (.o .e 0x626572676572 6366 .e)) 0x626573616365 6369 (.o (.o (.o .e 0x626573656461 8249 .e) 0x626573746961 2289 .e) 0x626573746965 8250 (.o .e 0x626574726179 171 .e))) 0x626574746572 172 (.o (.o (.o (.o .e 0x626575727265 6372 .e) 0x626578696761 10521 .e) 0x6265796f6e64 174 (.o .e 0x62657a6d6f63 8253 .e)) 0x62657a74616b 8254 (.o (.o .e 0x626962697461 4321 .e) 0x62696375646f 10524 (.o .e 0x626963796b6c 8255 .e)))) 0x6269646f6e65 4323 (.o (.o (.o (.o (.o .e 0x626964756c65 6375 .e) 0x6269656e616c 10525 .e) 0x62696669646f 4324 (.o .e 0x62696674656b 8257 .e)) 0x62696b696e79 8258 (.o (.o .e 0x62696f6c6f67 8261 .e) 0x62696f6d626f 10533 (.o .e 0x626970656465 4330 .e))) 0x6269746f6c61 10541 (.o (.o (.o (.o .e 0x626974746572 182 .e) 0x626974756d65 6387 .e) 0x626c61677565 6390 (.o .e 0x626c616e636f 2293 .e)) 0x626c616e646f 4340 (.o (.o .e 0x626c61747461 4341 .e) 0x626c65636861 8266 (.o .e 0x626c696b6174 8269 .e)))))
def mnemonicTree174 : Tree := .o (.o (.o (.o (.o (.o (.o .e 0x626c6f717565 2294 .e) 0x626c6f757365 193 .e) 0x626f62617264 6397 (.o .e 0x626f62696e61 2297 .e)) 0x626f62696e65 6398 (.o (.o (.o .e 0x626f6361646f 10548 .e) 0x626f63656a6f 10549 .e) 0x626f63696e61 2300 (.o .e 0x626f64656761 2302 .e))) 0x626f69736572 6400 (.o (.o (.o (.o .e 0x626f6a6b6f74 8279 .e) 0x626f6c616461 10552 .e) 0x626f6c65726f 2305 (.o .e 0x626f6c657374 8282 .e)) 0x626f6c696465 6401 (.o (.o .e 0x626f6e626f6e 6402 .e) 0x626f6e646164 2308 (.o .e 0x626f6e646972 6403 .e)))) 0x626f6e65636f 10558 (.o (.o (.o (.o (.o .e 0x626f6e697461 10559 .e) 0x626f6e69746f 2309 .e) 0x626f72646572 206 (.o .e 0x626f7265616c 10562 .e)) 0x626f72696e67 207 (.o (.o (.o .e 0x626f72726172 2313 .e) 0x626f72726f77 208 .e) 0x626f73717565 2314 (.o .e 0x626f74746f6d 210 .e))) 0x626f7562656c 8286 (.o (.o (.o (.o .e 0x626f75636c65 6410 .e) 0x626f75657578 6411 .e) 0x626f75676965 6412 (.o .e 0x626f756c6f6e 6413 .e)) 0x626f756e6365 211 (.o (.o .e 0x626f75726174 8290 .e) 0x626f75727365 6415 (.o .e 0x626f76696e6f 10564 .e))))) 0x626f78657572 6418 (.o (.o (.o (.o (.o (.o .e 0x6272616e6361 4352 .e) 0x6272616e636f 10566 .e) 0x6272616e6b61 8294 (.o .e 0x627265626973 6422 .e)) 0x627265636861 2321 (.o (.o (.o .e 0x627265657a65 220 .e) 0x627265707461 8296 .e) 0x6272657a7a61 4356 (.o .e 0x627269646765 222 .e))) 0x627269676874 224 (.o (.o (.o (.o .e 0x6272696c686f 10571 .e) 0x6272696c6c6f 2323 .e) 0x6272696e636f 2324 (.o .e 0x627269717565 6429 .e)) 0x62726f646572 6431 (.o (.o .e 0x62726f6b656e 228 .e) 0x62726f6e6365 2328 (.o .e 0x62726f6e7a65 229 .e)))) 0x6272756c6c6f 4363 (.o (.o (.o (.o (.o .e 0x62727573636f 2331 .e) 0x62727574616c 6437 .e) 0x627562626c65 234 (.o .e 0x627563687461 8308 .e)) 0x627564676574 236 (.o (.o .e 0x627564696e6f 4367 .e) 0x6275646f7661 8311 (.o .e 0x627566666c65 6439 .e))) 0x627569747265 2340 (.o (.o (.o (.o .e 0x62756c646f6b 8315 .e) 0x62756c6c6574 241 .e) 0x62756e646c65 242 (.o .e 0x62756e6b6572 243 .e)) 0x62757261636f 10582 (.o (.o .e 0x62757264656e 244 .e) 0x627572656175 6442 (.o .e 0x627572676572 245 .e)))))
def mnemonicTree175 : Tree := .o mnemonicTree173 0x626c697a6e61 8270 mnemonicTree174
def mnemonicTree176 : Tree := .o (.o (.o (.o (.o (.o (.o .e 0x627574616361 2346 .e) 0x6275746f6972 6446 .e) 0x627574746572 250 (.o .e 0x62757a696e61 10585 .e)) 0x62757a6f6c61 8322 (.o (.o (.o .e 0x6275cc81686f 2339 .e) 0x6279646c6574 8323 .e) 0x62796c696e61 8324 (.o .e 0x627a756b6f74 8326 .e))) 0x636162616e61 10586 (.o (.o (.o (.o .e 0x636162656c6f 10587 .e) 0x636162657a61 2349 .e) 0x636162696465 10588 (.o .e 0x636162696e61 2350 .e)) 0x636162696e65 6450 (.o (.o .e 0x636163747573 256 .e) 0x636164656175 6452 (.o .e 0x636164656e61 2354 .e)))) 0x63616475636f 4377 (.o (.o (.o (.o (.o .e 0x63616665cc81 2356 .e) 0x63616a61646f 10601 .e) 0x63616c63696f 2363 (.o .e 0x63616c6d6572 6460 .e)) 0x63616c6f7461 10608 (.o (.o (.o .e 0x63616d616461 10609 .e) 0x63616d62696f 2371 .e) 0x63616d657261 261 (.o .e 0x63616d696e6f 2373 .e))) 0x63616d696f6e 6465 (.o (.o (.o (.o .e 0x63616d697361 10611 .e) 0x63616d6f6c61 4388 .e) 0x63616e617061 4390 (.o .e 0x63616e63656c 265 .e)) 0x63616e64696c 2376 (.o (.o .e 0x63616e656c61 2377 .e) 0x63616e657461 10617 (.o .e 0x63616e696361 2379 .e))))) 0x63616e696e6f 4393 (.o (.o (.o (.o (.o (.o .e 0x63616e6e6f6e 267 .e) 0x63616e746172 10623 .e) 0x63616e75646f 10624 (.o .e 0x63616e766173 269 .e)) 0x63616e796f6e 270 (.o (.o (.o .e 0x63616ecc8361 2381 .e) 0x636170616365 4396 .e) 0x636170617274 8327 (.o .e 0x636170656c61 10626 .e))) 0x6361706f7465 2387 (.o (.o (.o (.o .e 0x636170746172 2388 .e) 0x636170746572 6476 .e) 0x636172626f6e 275 (.o .e 0x636172656361 10635 .e)) 0x636172657461 2393 (.o (.o .e 0x636172706574 278 .e) 0x63617274617a 10640 (.o .e 0x636172746f6e 6485 .e)))) 0x63617361636f 10642 (.o (.o (.o (.o (.o .e 0x63617365726f 2402 .e) 0x636173696572 6487 .e) 0x636173696e6f 283 (.o .e 0x636173717565 6488 .e)) 0x636173746c65 284 (.o (.o .e 0x636173746f72 2404 .e) 0x63617375616c 285 (.o .e 0x636173756c6f 10646 .e))) 0x636174656e61 4418 (.o (.o (.o (.o .e 0x636174746c65 290 .e) 0x63617564616c 2407 .e) 0x636175676874 291 (.o .e 0x636175736572 6490 .e)) 0x636176616c6f 10652 (.o (.o .e 0x636176696172 6494 .e) 0x6365626f6c61 10654 (.o .e 0x636564756c65 8330 .e)))))
def mnemonicTree177 : Tree := .o (.o (.o (.o (.o (.o (.o .e 0x63656c657279 296 .e) 0x63656c6b656d 8335 .e) 0x63656c6f736f 2415 (.o .e 0x63656d656e74 297 .e)) 0x63656e696e61 8337 (.o (.o (.o .e 0x63656e697a61 2418 .e) 0x63656e6f6e65 4428 .e) 0x63656e737573 298 (.o .e 0x63656e74726f 2419 .e))) 0x63656e7a6f72 8341 (.o (.o (.o (.o .e 0x636572636172 10662 .e) 0x636572636c65 6502 .e) 0x63657265616c 300 (.o .e 0x636572657a61 2422 .e)) 0x636572697365 6504 (.o (.o .e 0x6365726e6572 6505 .e) 0x636572726172 2424 (.o .e 0x636572756d65 4433 .e)))) 0x6365736f6961 4435 (.o (.o (.o (.o (.o .e 0x636573736572 6507 .e) 0x636576616461 10667 .e) 0x63686163616c 2428 (.o .e 0x636861697365 6509 .e)) 0x6368616e6365 6512 (.o (.o .e 0x6368616e6765 305 .e) 0x636861726765 308 (.o .e 0x636861726c61 2433 .e))) 0x636861726d65 10672 (.o (.o (.o (.o .e 0x636861746f6e 6516 .e) 0x636865657365 313 .e) 0x63686569726f 10677 (.o .e 0x6368656d6965 8349 .e)) 0x636865717565 10678 (.o (.o .e 0x636865727279 315 .e) 0x63686576616c 6523 (.o .e 0x63686961726f 4439 .e))))) 0x636869636361 4440 (.o (.o (.o (.o (.o (.o .e 0x636869667265 10680 .e) 0x636869737465 2435 .e) 0x63686c656261 8353 (.o .e 0x63686d757261 8356 .e)) 0x63686f626f74 8357 (.o (.o (.o .e 0x63686f646261 8359 .e) 0x63686f696365 321 .e) 0x63686f6f7365 322 (.o .e 0x63686f706974 8362 .e))) 0x63686f717565 2437 (.o (.o (.o (.o .e 0x63686f766572 10683 .e) 0x6368726c6974 8366 .e) 0x6368726f6d65 6534 (.o .e 0x6368756d626f 10684 .e)) 0x636875706172 2440 (.o (.o .e 0x636875746172 10685 .e) 0x6368766f7374 8374 (.o .e 0x636879746974 8377 .e)))) 0x636962756c65 8378 (.o (.o (.o (.o (.o .e 0x636964616465 10689 .e) 0x6369656e7465 10691 .e) 0x63696572746f 2445 (.o .e 0x636967616e61 10692 .e)) 0x636967617265 6536 (.o (.o .e 0x63696e6b6f74 8382 .e) 0x636972636c65 329 (.o .e 0x6369726b7573 8383 .e))) 0x636972717565 6543 (.o (.o (.o (.o .e 0x636974616365 8385 .e) 0x636974726f6e 6546 .e) 0x636974727573 8386 (.o .e 0x636975646164 2457 .e)) 0x63697566666f 4456 (.o (.o .e 0x636976696c65 4458 .e) 0x63697a6f7374 8388 (.o .e 0x636c616d6f72 2458 .e)))))
def mnemonicTree178 : Tree := .o mnemonicTree176 0x636566616c6f 4424 mnemonicTree177
def mnemonicTree179 : Tree := .o mnemonicTree175 0x627573636172 2345 mnemonicTree178
def mnemonicTree180 : Tree := .o (.o (.o (.o (.t (.o (.o .e 0x636c65766572 340 .e) 0x636c69636172 10702 .e) 0x636c69656e74 342 6553 (.o .e 0x636c696d6174 6555 .e)) 0x636c696e6963 345 (.o (.o (.o .e 0x636c6f636865 6557 .e) 0x636c75746368 356 .e) 0x636f61676972 10706 (.o .e 0x636f62616961 10707 .e))) 0x636f62616c74 6560 (.o (.o (.o (.o .e 0x636f62726172 10709 .e) 0x636f63616461 10710 .e) 0x636f63696e61 2469 (.o .e 0x636f64696365 4464 .e)) 0x636f656c686f 10711 (.o (.o .e 0x636f66666565 361 .e) 0x636f66667265 6566 (.o .e 0x636f676e6572 6567 .e)))) 0x636f68657465 2475 (.o (.o (.o (.o (.o .e 0x636f69626972 10715 .e) 0x636f696f7465 10717 .e) 0x636f6c636861 2479 (.o .e 0x636f6c676172 2481 .e)) 0x636f6c686572 10720 (.o (.o (.o .e 0x636f6c696e61 2482 .e) 0x636f6c6c6172 2483 .e) 0x636f6c6f6e6f 10723 (.o .e 0x636f6c6f7265 4469 .e))) 0x636f6c756d6e 366 (.o (.o (.o (.o .e 0x636f6c756e61 10724 .e) 0x636f6d626174 6576 .e) 0x636f6d657461 4474 (.o .e 0x636f6d696461 2488 .e)) 0x636f6d6d6f6e 371 (.o (.o .e 0x636f6d6f646f 4476 .e) 0x636f6d707261 2490 (.o .e 0x636f6d756e65 4478 .e))))) 0x636f6e636861 10732 (.o (.o (.o (.o (.o (.o .e 0x636f6e646f72 10733 .e) 0x636f6e656a6f 2492 .e) 0x636f6e746172 2496 (.o .e 0x636f7061696e 6588 .e)) 0x636f70706572 383 (.o (.o (.o .e 0x636f70706961 4491 .e) 0x636f7261696c 6590 .e) 0x636f7263686f 2501 (.o .e 0x636f726f6e61 2503 .e))) 0x636f72707573 6594 (.o (.o (.o (.o .e 0x636f72726572 2504 .e) 0x636f72736961 4500 .e) 0x636f72756a61 10754 (.o .e 0x636f736d6f73 2506 .e)) 0x636f74746f6e 390 (.o (.o .e 0x636f75706c65 393 .e) 0x636f75727365 394 (.o .e 0x636f7573696e 395 .e)))) 0x636f75766174 8391 (.o (.o (.o (.t (.o .e 0x636f7661746f 4505 .e) 0x636f796f7465 397 6605 .e) 0x637261646c65 399 (.o .e 0x637261746572 404 .e)) 0x637261796f6e 6609 (.o (.o .e 0x63726561746f 4508 .e) 0x637265636572 2511 (.o .e 0x637265636865 10765 .e))) 0x637265646974 408 (.o (.o (.o (.o .e 0x637265646f72 10766 .e) 0x63726573706f 10769 .e) 0x637269616461 10770 (.o .e 0x6372696d656e 2515 .e)) 0x637269707461 2516 (.o (.o .e 0x637269736973 2517 .e) 0x637269746963 414 (.o .e 0x637269cc8161 2514 .e)))))
def mnemonicTree181 : Tree := .o (.o (.o (.o (.o (.o (.o .e 0x63726f737461 10775 .e) 0x63726f756368 417 .e) 0x637275697365 421 (.o .e 0x6372756e6368 423 .e)) 0x637275736361 4521 (.o (.o (.o .e 0x63746974656c 8392 .e) 0x63746e6f7374 8393 .e) 0x63756164726f 2523 (.o .e 0x63756172746f 2524 .e))) 0x63756174726f 2525 (.o (.o (.o (.o .e 0x637562616e6f 10778 .e) 0x637562726972 2527 .e) 0x637563697265 4522 (.o .e 0x637563756c6f 4523 .e)) 0x6375656c6c6f 2529 (.o (.o .e 0x6375656e746f 2530 .e) 0x637565726461 2531 (.o .e 0x637565737461 2532 .e)))) 0x637567696e6f 4524 (.o (.o (.o (.o (.o .e 0x637569646172 2534 .e) 0x637569767265 6629 .e) 0x63756b657461 8395 (.o .e 0x63756c706172 10784 .e)) 0x63756d627265 2538 (.o (.o .e 0x63756e657461 2541 .e) 0x637570696465 6633 (.o .e 0x63757069646f 10788 .e))) 0x6375706f6c61 4526 (.o (.o (.o (.o .e 0x63757272616c 10790 .e) 0x637572736172 10791 .e) 0x637573706972 10793 (.o .e 0x637573746f6d 436 .e)) 0x637574656c6f 10795 (.o (.o .e 0x6376726b6f74 8401 .e) 0x64616c656b6f 8403 (.o .e 0x64616d616765 440 .e))))) 0x64616d696572 6641 (.o (.o (.o (.o (.o (.t .e 0x64616e676572 443 6642 .e) 0x646172656261 8404 .e) 0x646172696e67 444 (.o .e 0x64617461746f 4539 .e)) 0x646562617461 8408 (.o (.o (.o .e 0x646562617465 450 .e) 0x646562726973 451 .e) 0x646563616465 452 (.o .e 0x646563696465 454 .e))) 0x64656369736f 4544 (.o (.o (.o (.o .e 0x6465636f7465 10805 .e) 0x646566657361 10810 .e) 0x646566696e65 460 (.o .e 0x646567656c6f 10812 .e)) 0x646567726175 10813 (.o (.o .e 0x646567726565 462 .e) 0x646569786172 10816 (.o .e 0x64656b726574 8414 .e)))) 0x64656c69746f 2565 (.o (.o (.o (.o (.o .e 0x64656d616e64 465 .e) 0x64656d697365 466 .e) 0x64656d6f7261 2566 (.o .e 0x64656e69616c 467 .e)) 0x64656e74616c 2568 (.o (.o .e 0x64656e74726f 4558 .e) 0x646570617274 470 (.o .e 0x646570656e64 471 .e))) 0x6465706f6973 10827 (.o (.o (.o (.o .e 0x646570757479 474 .e) 0x646572697661 10830 .e) 0x646572697665 475 (.o .e 0x6465726f6761 4562 .e)) 0x646573657274 477 (.o (.o .e 0x64657369676e 478 .e) 0x6465736f7661 10841 (.o .e 0x64657461696c 482 .e)))))
def mnemonicTree182 : Tree := .o mnemonicTree180 0x63726f697265 6619 mnemonicTree181
def mnemonicTree183 : Tree := .o (.o (.o (.o (.o (.o (.o .e 0x646576696365 485 .e) 0x64657669646f 10851 .e) 0x6465766f6972 6699 (.o .e 0x6465766f7465 486 .e)) 0x6465766f746f 4568 (.o (.o (.o .e 0x64657a656e61 10853 .e) 0x646961626c65 6700 .e) 0x646961626c6f 2582 (.o .e 0x64696172696f 2586 .e))) 0x646962756a6f 2587 (.o (.o (.o (.o .e 0x646963746172 2588 .e) 0x646963746572 6703 .e) 0x646964617461 10856 (.o .e 0x64696564726f 4571 .e)) 0x6469656e7465 2589 (.o (.o .e 0x64696573656c 492 .e) 0x64696665736f 4572 (.o .e 0x646966666572 494 .e)))) 0x64696675736f 10857 (.o (.o (.o (.o (.o .e 0x64696c656d61 2594 .e) 0x64696c756572 6708 .e) 0x64696c756972 2595 (.o .e 0x64696e65726f 2596 .e)) 0x64696e6e6572 498 (.o (.o (.o .e 0x6469706c6f6d 8423 .e) 0x6469706f6c6f 4581 .e) 0x646972656374 500 (.o .e 0x64697265746f 10865 .e))) 0x64697275706f 4585 (.o (.o (.o (.o .e 0x646975726e6f 10873 .e) 0x646976616e6f 4594 .e) 0x646976657274 510 (.o .e 0x646976696465 511 .e)) 0x646976696e6f 2603 (.o (.o .e 0x6469766f6368 8427 .e) 0x646c6f75686f 8429 (.o .e 0x646f63656e74 8434 .e))))) 0x646f63696c65 6720 (.o (.o (.o (.o (.o (.o .e 0x646f63746f72 514 .e) 0x646f646e6573 8436 .e) 0x646f686c6564 8437 (.o .e 0x646f686f6461 8438 .e)) 0x646f6b6c6164 8442 (.o (.o (.o .e 0x646f6b6f6c61 8443 .e) 0x646f6b746f72 8444 .e) 0x646f6c657661 8447 (.o .e 0x646f6c696e61 8448 .e))) 0x646f6d61696e 519 (.o (.o (.o (.o .e 0x646f6d61746f 4603 .e) 0x646f6e617465 520 .e) 0x646f6e6a6f6e 6728 (.o .e 0x646f6e6b6579 521 .e)) 0x646f6e6e6572 6729 (.o (.o .e 0x646f7261646f 2610 .e) 0x646f726d6972 2611 (.o .e 0x646f726f7374 8461 .e)))) 0x646f7273616c 10885 (.o (.o (.o (.o (.o .e 0x646f72757265 6732 .e) 0x646f73616765 6733 .e) 0x646f73657572 6734 (.o .e 0x646f736c6f76 8464 .e)) 0x646f73797461 8467 (.o (.t .e 0x646f75626c65 525 6738 .e) 0x646f75666174 8471 (.o .e 0x646f75746572 6740 .e))) 0x646f75746f72 10888 (.o (.o (.o (.o .e 0x646f7675746f 4611 .e) 0x646f7a616475 8474 .e) 0x646f7a6e6174 8475 (.t .e 0x647261676f6e 528 6742 .e)) 0x647261706572 6743 (.o (.o .e 0x647261766563 8480 .e) 0x647269626c65 10890 (.o .e 0x64727569646f 4614 .e)))))
def mnemonicTree184 : Tree := .o (.o (.o (.o (.o (.o (.o .e 0x64756262696f 4615 .e) 0x647563616c65 4617 .e) 0x6475656c6172 10892 (.o .e 0x6475656e6465 10893 .e)) 0x647572636972 6750 (.o (.o (.o .e 0x647572657a61 2625 .e) 0x647572696e67 545 .e) 0x6475746f7374 8496 (.o .e 0x64766f726563 8498 .e))) 0x656173696c79 556 (.o (.o (.o (.o .e 0x65646974616c 10903 .e) 0x656469746f72 2635 .e) 0x656475636172 2636 (.o .e 0x65666563746f 2637 .e)) 0x65666569746f 10905 (.o (.t .e 0x6566666f7274 565 6775 .e) 0x65666963617a 2638 (.o .e 0x656974686572 568 .e)))) 0x656a65746172 10907 (.o (.o (.o (.o (.o .e 0x656b6f6c6f67 8500 .e) 0x656c65676572 10909 .e) 0x656c65676972 2642 (.o .e 0x656c656e636f 10911 .e)) 0x656c6574746f 4640 (.o (.o .e 0x656c65766172 2644 .e) 0x656c6669636f 4642 (.o .e 0x656c69707361 8503 .e))) 0x656c69707365 2645 (.o (.o (.o (.o .e 0x656c69786972 2647 .e) 0x656c6f67696f 2648 .e) 0x656c75646972 2649 (.o .e 0x656d6261726b 578 .e)) 0x656d626f6479 579 (.o (.o .e 0x656d6275646f 2650 .e) 0x656d656e6461 10919 (.o .e 0x656d65726765 581 .e))))) 0x656d6573736f 4649 (.o (.o (.o (.o (.o (.o .e 0x656d69746972 2651 .e) 0x656d70617465 2653 .e) 0x656d706c656f 2655 (.o .e 0x656d706c6f79 583 .e)) 0x656e61626c65 586 (.o (.o (.o .e 0x656e6475726f 4656 .e) 0x656e65726779 592 .e) 0x656e6661646f 2663 (.o .e 0x656e66617369 4658 .e))) 0x656e67616765 594 (.o (.o (.o (.o .e 0x656e67696e65 595 .e) 0x656e67756961 10943 .e) 0x656e69676d61 2666 (.o .e 0x656e6a6f6172 10944 .e)) 0x656e6c616365 2667 (.o (.o .e 0x656e6c697374 598 .e) 0x656e6e656d69 6824 (.o .e 0x656e6f726d65 2668 .e)))) 0x656e6f756768 599 (.o (.o (.o (.o (.o .e 0x656e7265646f 2669 .e) 0x656e72696368 600 .e) 0x656e726f6c6c 601 (.o .e 0x656e7361696f 10950 .e)) 0x656e7361796f 2670 (.o (.o .e 0x656e73696e6f 10952 .e) 0x656e73757265 602 (.o .e 0x656e7465726f 2672 .e))) 0x656e74696572 6831 (.o (.o (.o (.o .e 0x656e74697265 604 .e) 0x656e74726172 2673 .e) 0x656e76617365 2674 (.o .e 0x656e78616d65 10963 .e)) 0x656e7875746f 10966 (.o (.o .e 0x656e7a696d61 4661 .e) 0x656e7a796d65 6838 (.o .e 0x65706f636861 8509 .e)))))
def mnemonicTree185 : Tree := .o mnemonicTree183 0x64727a6f7374 8488 mnemonicTree184
def mnemonicTree186 : Tree := .o mnemonicTree182 0x646574656374 483 mnemonicTree185
def mnemonicTree187 : Tree := .o mnemonicTree179 0x636c61737365 6551 mnemonicTree186
def mnemonicTree188 : Tree := .o mnemonicTree172 0x62616c656961 10485 mnemonicTree187
def mnemonicTree189 : Tree := .o mnemonicTree157 0x73756d6972 12064 mnemonicTree188
def mnemonicTree190 : Tree := .o (.o (.o (.o (.o (.o (.o .e 0x657070757265 4666 .e) 0x65717569706f 2677 .e) 0x65726172696f 4668 (.o .e 0x6572626f736f 4670 .e)) 0x657272617461 10971 (.o (.o (.o .e 0x657272657572 6859 .e) 0x657363616c61 2679 .e) 0x657363616d61 10976 (.o .e 0x657363617065 616 .e))) 0x657363656e61 2680 (.o (.o (.o (.o .e 0x6573636f6c61 10977 .e) 0x65736375646f 2683 .e) 0x657363757461 10979 (.o .e 0x6573656e6365 8513 .e)) 0x657366657261 2685 (.o (.o .e 0x65736b796d6f 8515 .e) 0x657370616461 2687 (.o .e 0x657370656a6f 2688 .e)))) 0x657370696761 10988 (.o (.o (.o (.o (.o .e 0x6573706f6972 6865 .e) 0x6573706f7361 2690 .e) 0x657370726974 6866 (.o .e 0x657370756d61 2691 .e)) 0x657373696575 6870 (.o (.o (.o .e 0x657374616361 10993 .e) 0x657374617465 619 .e) 0x65737465736f 4696 (.o .e 0x657374696c6f 2695 .e))) 0x657374696d65 6872 (.o (.o (.o (.o .e 0x65737475646f 10998 .e) 0x657374756661 2696 .e) 0x6574616e6f6c 11000 (.o .e 0x657465726e6f 2698 .e)) 0x657468696373 621 (.o (.o .e 0x6574686e6965 6884 .e) 0x65746e69636f 4702 (.o .e 0x6575726f7061 4706 .e))))) 0x657661646972 2701 (.o (.o (.o (.o (.o (.o .e 0x6576656e746f 2703 .e) 0x657669746172 2704 .e) 0x65766f6c7665 625 (.o .e 0x657676697661 4711 .e)) 0x65786163746f 2705 (.o (.o (.o .e 0x6578616c6172 11011 .e) 0x6578616d656e 2706 .e) 0x65786365736f 2707 (.o .e 0x657863657373 628 .e))) 0x657863697465 630 (.o (.o (.t (.o .e 0x657863757361 2708 .e) 0x657863757365 632 6907 .e) 0x6578656e746f 2709 (.o .e 0x657869626972 11020 .e)) 0x657869676972 2710 (.o (.o .e 0x6578696c6572 6914 .e) 0x6578696c696f 2711 (.o .e 0x65786f746963 640 .e)))) 0x657870616e64 641 (.o (.o (.o (.o (.o .e 0x657870656374 642 .e) 0x657870697265 643 .e) 0x6578706f7274 8523 (.o .e 0x6578706f7365 645 .e)) 0x657871756973 6921 (.o (.o .e 0x657874656e64 647 .e) 0x666162726963 651 (.o .e 0x666163657461 11035 .e))) 0x66616369616c 11036 (.o (.o (.o (.o .e 0x666163696c65 6928 .e) 0x666163746f72 2722 .e) 0x666164696761 11038 (.o .e 0x66616a666b61 8526 .e)) 0x66616c746172 2728 (.o (.o .e 0x66616d657578 6932 .e) 0x66616d696c79 660 (.o .e 0x66616d6f736f 2731 .e)))))
def mnemonicTree191 : Tree := .o (.o (.o (.o (.o (.o (.o .e 0x66616e616c65 4717 .e) 0x666172656c6f 11047 .e) 0x666172696e65 6936 (.o .e 0x6661726f6661 11049 .e)) 0x666173636961 4725 (.o (.o (.o .e 0x666174686572 669 .e) 0x666174696761 2737 .e) 0x666175636f6e 6941 (.o .e 0x666175746966 6942 .e))) 0x666176657572 6943 (.o (.o (.o (.o .e 0x6661766f7269 6944 .e) 0x666178696e61 11055 .e) 0x66617a6f6c65 8532 (.o .e 0x666562627265 4731 .e)) 0x6665636f6c61 4732 (.o (.o .e 0x66656761746f 4734 .e) 0x66656c696e6f 11060 (.o .e 0x66656c74726f 4736 .e)))) 0x66656d616c65 679 (.o (.o (.o (.o (.o .e 0x6665726d6572 6953 .e) 0x666572766572 11067 .e) 0x666572766f72 2748 (.o .e 0x66657564616c 11070 .e)) 0x666575747265 6958 (.o (.o (.o .e 0x666961626c65 2750 .e) 0x6669616c6b61 8536 .e) 0x6669616e7a61 2751 (.o .e 0x66696173636f 6960 .e))) 0x666963746966 6962 (.o (.o (.o (.o .e 0x666965627265 2757 .e) 0x666965737461 2760 .e) 0x666967757261 2761 (.t .e 0x666967757265 688 6964 .e)) 0x66696c657465 2765 (.o (.o .e 0x66696c69616c 2766 .e) 0x66696c6d6572 6969 (.o .e 0x66696c746572 691 .e))))) 0x66696c74726f 2767 (.o (.o (.o (.o (.o (.o .e 0x66696e676572 695 .e) 0x66696e676972 2770 .e) 0x66696e697265 4754 (.o .e 0x66696e697368 696 .e)) 0x66696e69746f 2771 (.o (.o (.o .e 0x66697363616c 700 .e) 0x66697369636f 4757 .e) 0x666976656c61 11084 (.o .e 0x666978616365 8542 .e))) 0x666c616d6d65 6979 (.o (.o (.o (.o .e 0x666c616e656c 8544 .e) 0x666c61757461 2774 .e) 0x666c61766f72 709 (.o .e 0x666c65636861 2775 .e)) 0x666c656d6d61 4762 (.o (.o .e 0x666c69676874 711 .e) 0x666c6f636f6e 6986 (.o .e 0x666c6f776572 716 .e)))) 0x666c75696465 6989 (.o (.o (.o (.o (.o .e 0x666c756f726f 4765 .e) 0x666f6269636f 4766 .e) 0x666f636f736f 4768 (.o .e 0x666f67617461 2783 .e)) 0x666f676c696f 4770 (.o (.o .e 0x666f6c617461 4771 .e) 0x666f6c6c6f77 725 (.o .e 0x666f72636572 6995 .e))) 0x666f72657374 729 (.o (.o (.o (.o .e 0x666f72676574 730 .e) 0x666f726a6172 11102 .e) 0x666f727a6172 2791 (.o .e 0x666f73666f72 8548 .e)) 0x666f7373696c 735 (.o (.o .e 0x666f73746572 736 .e) 0x666f7462616c 8549 (.o .e 0x666f75647265 7000 .e)))))
def mnemonicTree192 : Tree := .o mnemonicTree190 0x66616d6f7573 661 mnemonicTree191
def mnemonicTree193 : Tree := .o (.o (.o (.o (.o (.o (.o .e 0x667261697365 7006 .e) 0x6672616b6365 8552 .e) 0x6672616c6461 11109 (.o .e 0x6672616e676f 11110 .e)) 0x6672616e6a61 2796 (.o (.o (.o .e 0x66726173636f 11111 .e) 0x667261756465 2798 .e) 0x667265697261 11113 (.o .e 0x6672656c6f6e 7012 .e))) 0x6672656e7465 11114 (.o (.o (.o (.o .e 0x66726573636f 4794 .e) 0x667265736b61 8553 .e) 0x667265746172 11115 (.o .e 0x667269656e64 743 .e)) 0x667269657a61 11116 (.o (.o .e 0x6672696e6765 744 .e) 0x667269cc816f 2802 (.o .e 0x66726f6e6465 4797 .e)))) 0x66726f6e6861 11119 (.o (.o (.o (.o (.o .e 0x66726f6e7461 8554 .e) 0x66726f7a656e 749 .e) 0x667275747461 4799 (.o .e 0x667563736961 4801 .e)) 0x6675656e7465 2806 (.o (.o (.o .e 0x667565727a61 2807 .e) 0x66756c616e6f 11123 .e) 0x66756d6f736f 4807 (.o .e 0x66756e646172 11125 .e))) 0x66756e6b6365 8556 (.o (.o (.o (.o .e 0x667572657572 7027 .e) 0x6675726f7265 4813 .e) 0x667572746966 7029 (.o .e 0x667573696f6e 7030 .e)) 0x667574696c65 4815 (.o (.o .e 0x667574757265 756 .e) 0x66757475726f 2816 (.o .e 0x66797a696b61 8557 .e))))) 0x676163656c61 2817 (.o (.o (.o (.o (.o (.o .e 0x676164676574 757 .e) 0x6761676e6572 7032 .e) 0x67616961746f 11134 (.o .e 0x6761696f6c61 11135 .e)) 0x67616c617879 759 (.o (.o (.o .e 0x67616c656761 11137 .e) 0x67616c656a65 8558 .e) 0x67616e63686f 2826 (.o .e 0x67616e686172 11141 .e))) 0x676172616765 763 (.o (.o (.o (.o .e 0x676172616a65 2829 .e) 0x676172616e74 8559 .e) 0x67617264656e 765 (.o .e 0x6761726c6963 766 .e)) 0x6761726e6972 7038 (.o (.o .e 0x676173746172 2832 .e) 0x676174686572 771 (.o .e 0x67617564696f 4831 .e)))) 0x676176657461 11152 (.o (.o (.o (.o (.o .e 0x67617a65626f 4832 .e) 0x67617a656c61 11153 .e) 0x67656c61646f 11154 (.o .e 0x67656c656961 11155 .e)) 0x67656d616461 11157 (.o (.o .e 0x67656d656c6f 2835 .e) 0x67656d69646f 11159 (.o .e 0x67656e69616c 11162 .e))) 0x67656e697573 775 (.o (.o (.o (.o .e 0x67656e6f6d61 11163 .e) 0x67656e74696c 7049 .e) 0x67656e746c65 777 (.o .e 0x67656f6c6f67 8561 .e)) 0x6765726d656e 2843 (.o (.o .e 0x676573746f72 11169 .e) 0x676579736572 7055 (.o .e 0x6769616c6c6f 4847 .e)))))
def mnemonicTree194 : Tree := .o (.o (.o (.o (.o (.o (.o .e 0x6769636c6572 7057 .e) 0x676967676c65 783 .e) 0x67696e676572 784 (.o .e 0x67696f726e6f 4852 .e)) 0x676972616661 11173 (.o (.o (.o .e 0x676972616665 7058 .e) 0x67697261746f 4854 .e) 0x676972696e6f 11174 (.o .e 0x6769726f6e65 4855 .e))) 0x67697573746f 4859 (.o (.o (.o (.o .e 0x676c61697665 7061 .e) 0x676c616e6365 789 .e) 0x676c6f62616c 11177 (.o .e 0x676c6f697265 7064 .e)) 0x676c6f726961 2851 (.o (.o .e 0x676f69616261 11180 .e) 0x676f6c6f736f 2854 (.o .e 0x676f6d69746f 4865 .e)))) 0x676f6e66696f 4867 (.o (.o (.o (.o (.o .e 0x676f72696c61 2858 .e) 0x676f7370656c 806 .e) 0x676f73736970 807 (.o .e 0x676f74696b61 8567 .e)) 0x676f756c6f74 7073 (.o (.o .e 0x676f75747465 7076 .e) 0x676f7665726e 808 (.o .e 0x677261696e65 7079 .e))) 0x6772616c6861 11192 (.o (.o (.o (.o .e 0x6772616d6d6f 4873 .e) 0x6772616d706f 11193 .e) 0x6772616e6465 4874 (.o .e 0x677261746973 2867 .e)) 0x677261766972 7083 (.o (.o .e 0x6772617a6961 4877 .e) 0x677265676765 4879 (.o .e 0x6772656e6174 7084 .e))))) 0x677269657461 2869 (.o (.o (.o (.o (.o (.o .e 0x67726967696f 4881 .e) 0x6772696c6c6f 2870 .e) 0x6772696e7a61 4882 (.o .e 0x67726f736f72 2874 .e)) 0x67726f73736f 11204 (.o (.o (.o .e 0x67726f747461 4883 .e) 0x67726f747465 7090 .e) 0x67726f757065 7091 (.o .e 0x67727565736f 2876 .e))) 0x677275676572 7092 (.o (.o (.o (.o .e 0x67727570706f 4884 .e) 0x677275cc8161 2875 .e) 0x677561636865 11209 (.o .e 0x6775616e7465 2879 .e)) 0x6775616e746f 4887 (.o (.o .e 0x677565727261 2882 .e) 0x677569746172 830 (.o .e 0x677569cc8161 2883 .e)))) 0x67756c6f736f 11217 (.o (.o (.o (.o (.o .e 0x677573616e6f 2888 .e) 0x677573746172 2889 .e) 0x6861626c6172 2892 (.o .e 0x686164696365 8576 .e)) 0x68616c6c6172 2896 (.o (.o .e 0x68616d616361 2897 .e) 0x68616d656175 7106 (.o .e 0x68616d6d6572 836 .e))) 0x68616e676172 7107 (.o (.o (.o (.o .e 0x686172626f72 840 .e) 0x686172696e61 2898 .e) 0x686172706f6e 7111 (.o .e 0x686173617264 7112 .e)) 0x68617672616e 8584 (.o (.o .e 0x68617a617264 847 .e) 0x6865616c7468 849 (.o .e 0x686569676874 853 .e)))))
def mnemonicTree195 : Tree := .o mnemonicTree193 0x676962696572 7056 mnemonicTree194
def mnemonicTree196 : Tree := .o mnemonicTree192 0x666f75726d69 7004 mnemonicTree195
def mnemonicTree197 : Tree := .t (.o (.o (.o (.o (.o (.o .e 0x68656b746172 8589 .e) 0x68656c61646f 2904 .e) 0x68656c6d6574 855 (.o .e 0x68656d627261 2906 .e)) 0x686572646172 11224 (.o (.o (.o .e 0x686572766972 2910 .e) 0x68696464656e 859 .e) 0x68696572726f 2912 (.o .e 0x686c65646174 8600 .e))) 0x686f6369636f 2918 (.o (.o (.o (.o .e 0x686f636b6579 867 .e) 0x686f64696e79 8617 .e) 0x686f646c6174 8618 (.o .e 0x686f6c6c6f77 871 .e)) 0x686f6d617264 7126 (.o (.o .e 0x686f6d627265 2922 .e) 0x686f6d6f6c65 8626 (.o .e 0x686f726d6f6e 8634 .e)))) 0x686f72726f72 877 (.o (.o (.o (.o (.o .e 0x686f7374696c 2929 .e) 0x686f75706174 8643 .e) 0x686f75736b61 8644 (.o .e 0x686f75737365 7138 .e)) 0x687261646261 8646 (.o (.o (.o .e 0x6872617a6461 8649 .e) 0x687264696e61 8651 .e) 0x6872646f7374 8653 (.o .e 0x68726f626b61 8655 .e))) 0x68726f756461 8658 (.o (.o (.o (.o .e 0x68726f7a656e 8659 .e) 0x687273746b61 8660 .e) 0x6872797a6174 8662 (.o .e 0x6875626c6f74 7139 .e)) 0x6875656c6761 2932 (.o (.o .e 0x687565727461 2933 .e) 0x68756d61696e 7141 (.o .e 0x68756d616e6f 2938 .e))))) 0x68756d626c65 887 7142 (.o (.o (.o (.o (.o (.o .e 0x68756d696465 7143 .e) 0x68756d6f7572 7144 .e) 0x68756e646972 2942 (.o .e 0x68756e677279 890 .e)) 0x687572646c65 892 (.o (.o (.o .e 0x6875726c6572 7145 .e) 0x687573697461 8668 .e) 0x687962726964 896 (.o .e 0x6964696f6d61 2947 .e))) 0x69647269636f 4897 (.o (.o (.o (.o .e 0x6964796c6b61 8676 .e) 0x6964796c6c65 7150 .e) 0x696769656e65 4899 (.o .e 0x69676c75cc81 2950 .e)) 0x69676e61726f 4900 (.o (.o .e 0x69676e6f7265 902 .e) 0x696772656a61 11247 (.o .e 0x696775616e61 11248 .e)))) 0x696775616e65 7152 (.o (.o (.o (.o (.o .e 0x696c6567616c 2952 .e) 0x696c6c65736f 4903 .e) 0x696d6167656d 11254 (.o .e 0x696d6167656e 2954 .e)) 0x696d61cc816e 2955 (.o (.o .e 0x696d6275746f 4909 .e) 0x696d656e736f 11256 (.o .e 0x696d69746172 2956 .e))) 0x696d69746572 7157 (.o (.t (.o (.o .e 0x696d6d616e65 4910 .e) 0x696d6d756e65 909 .e) 0x696d70616374 910 7161 (.o .e 0x696d7065746f 4914 .e)) 0x696d706f7365 911 (.o (.o .e 0x696d70756e65 11266 .e) 0x696e6170746f 11269 (.o .e 0x696e63686172 11272 .e)))))
def mnemonicTree198 : Tree := .o (.o (.o (.o (.o (.o (.o .e 0x696e6375626f 4928 .e) 0x696e64696365 7173 .e) 0x696e646f6c65 4931 (.o .e 0x696e646f6f72 920 .e)) 0x696e65727465 2963 (.o (.o (.o .e 0x696e66616e74 922 .e) 0x696e6669656c 2964 .e) 0x696e66696e69 7178 (.o .e 0x696e666f726d 924 .e))) 0x696e68616c65 925 (.o (.o (.o (.o .e 0x696e6963696f 2967 .e) 0x696e6a656374 928 .e) 0x696e6a757265 7186 (.o .e 0x696e6a757279 929 .e)) 0x696e6b61736f 8683 (.o (.o .e 0x696e6d617465 930 .e) 0x696e6d756e65 2969 (.o .e 0x696e6e61746f 2970 .e)))) 0x696e73616e65 935 (.o (.t (.o (.o (.o .e 0x696e73616e6f 4945 .e) 0x696e73656374 936 .e) 0x696e7365746f 11298 (.o .e 0x696e73696465 937 .e)) 0x696e74616374 940 7197 (.o (.o .e 0x696e7465726f 4951 .e) 0x696e74696d65 7199 (.o .e 0x696e74756972 2975 .e))) 0x696e76656365 4956 (.o (.o (.o (.o .e 0x696e76657374 943 .e) 0x696e76697465 944 .e) 0x696e7669746f 4957 (.o .e 0x697070696361 4961 .e)) 0x69726f6e6965 8690 (.o (.o .e 0x69727265616c 11315 .e) 0x6973656e746f 11318 (.o .e 0x69736c616e64 947 .e))))) 0x69736c6f7465 2982 (.o (.o (.o (.o (.o (.o .e 0x69736f6c6572 7211 .e) 0x6974616c6961 4972 .e) 0x69766f697265 7212 (.o .e 0x6a61626c6b6f 8691 .e)) 0x6a6163687461 8692 (.o (.t (.o .e 0x6a61636b6574 952 .e) 0x6a6167756172 953 7214 .e) 0x6a61686f6461 8693 (.o .e 0x6a616b6f7374 8695 .e))) 0x6a616e746172 8697 (.o (.o (.o (.o .e 0x6a6172616265 2986 .e) 0x6a617264696d 11326 .e) 0x6a617264696e 7218 (.o .e 0x6a61736d696d 11328 .e)) 0x6a6175676572 7219 (.o (.o .e 0x6a6176616c69 11330 .e) 0x6a617a696461 11331 (.o .e 0x6a65686c616e 8708 .e)))) 0x6a656c69746f 8711 (.o (.o (.o (.o (.o .e 0x6a6570696365 8714 .e) 0x6a657a646563 8717 .e) 0x6a657a65726f 8718 (.o .e 0x6a696e657465 2993 .e)) 0x6a696e6f6368 8721 (.o (.o .e 0x6a69736b7261 8722 .e) 0x6a6f67757274 8727 (.o .e 0x6a6f726e616c 11337 .e))) 0x6a6f726f6261 2995 (.o (.o (.o (.o .e 0x6a6f72726172 11338 .e) 0x6a6f75657572 7229 .e) 0x6a6f7669616c 7232 (.o .e 0x6a6f79657578 7234 .e)) 0x6a75646f6361 11342 (.o (.o .e 0x6a7565726761 2998 .e) 0x6a7565766573 2999 (.o .e 0x6a756963696f 3004 .e)))))
def mnemonicTree199 : Tree := .o mnemonicTree197 0x696e636f6d65 916 mnemonicTree198
def mnemonicTree200 : Tree := .o (.o (.o (.o (.o (.t (.o .e 0x6a756e676c65 968 .e) 0x6a756e696f72 969 7237 .e) 0x6a756e746172 3008 (.o .e 0x6a757261646f 11346 .e)) 0x6a7574657578 7241 (.o (.o (.o .e 0x6a757a676172 3013 .e) 0x6b6163686e61 8732 .e) 0x6b616a757461 8737 (.o .e 0x6b616b747573 8739 .e))) 0x6b616c696272 8742 (.o (.o (.o (.o .e 0x6b616d657261 8744 .e) 0x6b616e746f72 8749 .e) 0x6b6170656c61 8751 (.o .e 0x6b61706f7461 8755 .e)) 0x6b6172746f6e 8761 (.o (.o .e 0x6b617a657461 8769 .e) 0x6b69646e6579 979 (.o .e 0x6b696d6f6e6f 7244 .e)))) 0x6b697474656e 986 (.o (.o (.o (.o (.o .e 0x6b6c6163656b 8777 .e) 0x6b6c61706f74 8780 .e) 0x6b6c656e6261 8784 (.o .e 0x6b6c65706174 8785 .e)) 0x6b6c69736e61 8789 (.o (.o (.o .e 0x6b6c6f6b616e 8791 .e) 0x6b6c75736174 8795 .e) 0x6b6d69746174 8798 (.o .e 0x6b6f62796c61 8806 .e))) 0x6b6f636f7572 8807 (.o (.o (.o (.o .e 0x6b6f686f7574 8808 .e) 0x6b6f6c617073 8812 .e) 0x6b6f6c656461 8813 (.o .e 0x6b6f6c697a65 8814 .e)) 0x6b6f6d657461 8817 (.o (.o .e 0x6b6f6d6f7261 8820 .e) 0x6b6f6d706173 8821 (.o .e 0x6b6f6e696e61 8829 .e))))) 0x6b6f7262656c 8837 (.o (.o (.o (.o (.o (.o .e 0x6b6f72707573 8841 .e) 0x6b6f72756e61 8842 .e) 0x6b6f7279746f 8843 (.o .e 0x6b6f727a6574 8844 .e)) 0x6b6f73746b61 8846 (.o (.o (.o .e 0x6b6f746f756c 8849 .e) 0x6b6f756b6174 8850 .e) 0x6b6f7573656b 8852 (.o .e 0x6b6f757a6c6f 8853 .e))) 0x6b6f76626f6a 8854 (.o (.o (.o (.o .e 0x6b7265646974 8863 .e) 0x6b7265736261 8865 .e) 0x6b72696b6574 8867 (.o .e 0x6b726974696b 8868 .e)) 0x6b726d69766f 8872 (.o (.o .e 0x6b726f63616e 8873 .e) 0x6b726f706974 8876 (.o .e 0x6b726f757061 8877 .e)))) 0x6b726f766b61 8878 (.o (.o (.o (.o (.o .e 0x6b7279707461 8885 .e) 0x6b756c696368 8893 .e) 0x6b75727a6f72 8900 (.o .e 0x6b7974617261 8907 .e)) 0x6b7974696365 8908 (.o (.o .e 0x6c616262726f 4974 .e) 0x6c616269616c 7247 (.o .e 0x6c6163756e61 4979 .e))) 0x6c6164646572 995 (.o (.o (.o (.o .e 0x6c6167756e61 3023 .e) 0x6c6167756e65 7251 .e) 0x6c616d626572 11358 (.o .e 0x6c616d656c61 8917 .e)) 0x6c616e636861 3029 (.o (.o .e 0x6c616e636865 11362 .e) 0x6c6170746f70 1000 (.o .e 0x6c6173696365 8920 .e)))))
def mnemonicTree201 : Tree := .o (.o (.o (.o (.o (.o (.o .e 0x6c617374726f 11369 .e) 0x6c617469646f 11371 .e) 0x6c6174696e6f 4990 (.o .e 0x6c617572656c 3039 .e)) 0x6c617661626f 7265 (.o (.o (.o .e 0x6c6176696e61 8924 .e) 0x6c61766f6972 7266 .e) 0x6c61766f726f 4993 (.o .e 0x6c6561646572 1012 .e))) 0x6c65636b6479 8926 (.o (.o (.o (.o .e 0x6c6563746f72 3045 .e) 0x6c656761646f 11379 .e) 0x6c6567616c65 4994 (.o .e 0x6c6567656e64 1020 .e)) 0x6c656a616e6f 3049 (.o (.o .e 0x6c656e677468 1024 .e) 0x6c656e677561 3050 (.o .e 0x6c656ecc8361 3052 .e)))) 0x6c656fcc816e 3053 (.o (.o (.o (.o (.o .e 0x6c657369766f 5001 .e) 0x6c6573736f6e 1027 .e) 0x6c657469766f 11392 (.o .e 0x6c6574746572 1028 .e)) 0x6c6574747265 7272 (.o (.o .e 0x6c6576657a61 11395 .e) 0x6c6576696572 7273 (.o .e 0x6c6961737365 7276 .e))) 0x6c696265726f 5007 (.o (.o (.o (.o .e 0x6c696269646f 11398 .e) 0x6c6964696172 3064 .e) 0x6c69656e7a6f 3065 (.o .e 0x6c696765726f 3067 .e)) 0x6c696d697465 7287 (.o (.o .e 0x6c696d70696f 3071 .e) 0x6c696e656172 11406 (.o .e 0x6c696e676f74 7291 .e))))) 0x6c696e677561 5015 (.o (.o (.o (.o (.o (.o .e 0x6c6971756964 1042 .e) 0x6c6972696361 5018 .e) 0x6c6973746572 7295 (.o .e 0x6c6973757261 11410 .e)) 0x6c6974657261 3081 (.o (.o (.o .e 0x6c6974696765 7297 .e) 0x6c6974696e61 8961 .e) 0x6c6974746c65 1044 (.o .e 0x6c6976726561 5022 .e))) 0x6c697a617264 1046 (.o (.o (.o (.o .e 0x6c6c616e746f 3086 .e) 0x6c6c65676172 3088 .e) 0x6c6c656e6172 3089 (.o .e 0x6c6c65766172 3090 .e)) 0x6c6c6f726172 3091 (.o (.o .e 0x6c6c6f766572 3092 .e) 0x6c6c75766961 3093 (.o .e 0x6c6f63757261 3097 .e)))) 0x6c6f67696361 5025 (.o (.o (.o (.o (.o .e 0x6c6f67696b61 8965 .e) 0x6c6f69736972 7302 .e) 0x6c6f6e647261 5027 (.o .e 0x6c6f6e656c79 1053 .e)) 0x6c6f6e747261 11421 (.o (.o .e 0x6c6f70617461 8970 .e) 0x6c6f70756368 8971 (.o .e 0x6c6f7461646f 11423 .e))) 0x6c6f7564616c 8975 (.o (.o (.o (.o .e 0x6c6f756e6765 1058 .e) 0x6c6f75747265 7307 .e) 0x6c6f75766172 11427 (.o .e 0x6c7563696465 7311 .e)) 0x6c756d616361 5035 (.o (.o .e 0x6c756d626572 1063 .e) 0x6c756e657461 11431 (.o .e 0x6c7573747265 11432 .e)))))
def mnemonicTree202 : Tree := .o mnemonicTree200 0x6c6173747261 4988 mnemonicTree201
def mnemonicTree203 : Tree := .o mnemonicTree199 0x6a756e676c61 3006 mnemonicTree202
def mnemonicTree204 : Tree := .o mnemonicTree196 0x68656a6b616c 8586 mnemonicTree203
def mnemonicTree205 : Tree := .o (.o (.o (.o (.o (.o (.o .e 0x6c7574746572 7320 .e) 0x6c7578757279 1066 .e) 0x6c7972696373 1067 (.o .e 0x6c7972696b61 8988 .e)) 0x6c7973696e61 8989 (.o (.o (.o .e 0x6d616361636f 11435 .e) 0x6d616365726f 5045 .e) 0x6d6163657461 3114 (.o .e 0x6d6163657465 11436 .e))) 0x6d6164616d61 5047 (.o (.o (.o (.o .e 0x6d6164657261 3116 .e) 0x6d616475726f 3118 .e) 0x6d616769636f 5048 (.o .e 0x6d61676c6961 5049 .e)) 0x6d61676e6574 1071 (.o (.o .e 0x6d6169677265 7326 .e) 0x6d6169726965 7329 (.o .e 0x6d6169736f6e 7330 .e)))) 0x6d6169cc817a 3123 (.o (.o (.o (.o (.o .e 0x6d616c646164 3124 .e) 0x6d616c657461 3125 .e) 0x6d616c696365 7335 (.o .e 0x6d616c696e61 9001 .e)) 0x6d616c6f7465 11447 (.o (.o (.o .e 0x6d616c75636f 11448 .e) 0x6d616d61cc81 3128 .e) 0x6d616d696c6f 11449 (.o .e 0x6d616d6d616c 1077 .e))) 0x6d616d757465 11451 (.o (.o (.o (.o .e 0x6d616e616461 11452 .e) 0x6d616e616765 1079 .e) 0x6d616e636861 11453 (.o .e 0x6d616e636961 5060 .e)) 0x6d616e646c65 9005 (.o (.o .e 0x6d616e6a6172 3136 .e) 0x6d616e746572 11460 (.o .e 0x6d616e75616c 1083 .e))))) 0x6d616e75656c 7342 (.o (.o (.o (.o (.o (.o .e 0x6d6172626c65 1085 .e) 0x6d6172627265 7344 .e) 0x6d617266696c 3146 (.o .e 0x6d617266696d 11466 .e)) 0x6d617267656d 11467 (.o (.o (.o .e 0x6d617267656e 3147 .e) 0x6d617267696e 1087 .e) 0x6d617269646f 3148 (.o .e 0x6d6172696e65 1088 .e))) 0x6d61726b6574 1089 (.o (.o (.o (.o .e 0x6d61726f746f 11470 .e) 0x6d6172726f6e 7349 .e) 0x6d6172746573 3151 (.o .e 0x6d6172756a6f 11474 .e)) 0x6d6173616b72 9008 (.o (.o .e 0x6d617369766f 3155 .e) 0x6d61736b6f74 9009 (.o .e 0x6d6173736966 7352 .e)))) 0x6d6173746572 1093 (.o (.o (.o (.o (.o .e 0x6d6174696365 9011 .e) 0x6d6174726978 1097 .e) 0x6d617472697a 3159 (.o .e 0x6d6174746572 1098 .e)) 0x6d617475726f 5081 (.o (.o .e 0x6d617a69766f 9015 .e) 0x6d617a6c6974 9016 (.o .e 0x6d646c6f6261 9018 .e))) 0x6d6561646f77 1101 (.o (.o (.o (.o .e 0x6d6564696461 11485 .e) 0x6d6564757361 11486 .e) 0x6d656c617361 9022 (.o .e 0x6d656c656e61 3169 .e)) 0x6d656c686f72 11490 (.o (.o .e 0x6d656c6f6479 1108 .e) 0x6d656c6f756e 9023 (.o .e 0x6d656d626572 1110 .e)))))
def mnemonicTree206 : Tree := .o (.o (.o (.o (.o (.o (.o .e 0x6d656d62726f 11491 .e) 0x6d656d6f7279 1111 .e) 0x6d656e686972 7373 (.o .e 0x6d656e696e6f 11493 .e)) 0x6d656e74616c 11496 (.o (.o (.o .e 0x6d656e746f72 7375 .e) 0x6d656e75cc81 3175 .e) 0x6d6573616461 11499 (.o .e 0x6d6573747265 11503 .e))) 0x6d6573757265 7380 (.o (.o (.o (.o .e 0x6d6574616465 11504 .e) 0x6d6574686f64 1121 .e) 0x6d65746f6461 9026 (.o .e 0x6d65746f646f 5103 .e)) 0x6d6575626c65 7385 (.o (.o .e 0x6d657a636c61 3185 .e) 0x6d657a657261 9028 (.o .e 0x6d6964646c65 1122 .e)))) 0x6d6965747465 7388 (.o (.o (.o (.o (.o .e 0x6d69676e6f6e 7389 .e) 0x6d6967726172 11511 .e) 0x6d6967726572 7390 (.o .e 0x6d6968756c65 9031 .e)) 0x6d696b696e61 9032 (.o (.o (.o .e 0x6d696c616e6f 5113 .e) 0x6d696c686172 11514 .e) 0x6d696c696575 7391 (.o .e 0x6d696c697465 5114 .e))) 0x6d696c6f7374 9036 (.o (.o (.o (.o .e 0x6d696d61646f 11515 .e) 0x6d696d696b61 9037 .e) 0x6d696d6f7361 5115 (.o .e 0x6d696e65726f 3196 .e)) 0x6d696e6f7265 5118 (.o (.t .e 0x6d696e757465 1130 7398 .e) 0x6d696e75746f 3198 (.o .e 0x6d6972696e6f 5119 .e))))) 0x6d6972726f72 1132 (.o (.o (.o (.o (.o (.o .e 0x6d6973657279 1133 .e) 0x6d6c75766974 9050 .e) 0x6d6e6f68656d 9052 (.t .e 0x6d6f62696c65 1139 7403 .e)) 0x6d6f64656c6f 3210 (.o (.o (.o .e 0x6d6f64696679 1141 .e) 0x6d6f64756c6f 5132 .e) 0x6d6f67616e6f 5133 (.o .e 0x6d6f68796c61 9057 .e))) 0x6d6f696e686f 11529 (.o (.o (.o (.o .e 0x6d6f6c657a61 11532 .e) 0x6d6f6c696e6f 3215 .e) 0x6d6f6d656e74 1143 (.o .e 0x6d6f6e656461 3219 .e)) 0x6d6f6e696c65 5141 (.o (.o .e 0x6d6f6e6b6579 1145 .e) 0x6d6f6e6f6b6c 9062 (.o .e 0x6d6f6e7a756e 9065 .e)))) 0x6d6f6ecc836f 3222 (.o (.o (.o (.o (.o .e 0x6d6f72616461 3223 .e) 0x6d6f72646572 3224 .e) 0x6d6f72656e61 11541 (.o .e 0x6d6f72656e6f 3225 .e)) 0x6d6f7274616c 3229 (.o (.o .e 0x6d6f736b7974 9067 .e) 0x6d6f7374726f 5149 (.o .e 0x6d6f74657572 7417 .e))) 0x6d6f74686572 1153 (.o (.o (.o (.o .e 0x6d6f74696f6e 1154 .e) 0x6d6f7469766f 3232 .e) 0x6d6f7472697a 11548 (.o .e 0x6d6f74796b61 9071 .e)) 0x6d6f75636861 9072 (.o (.o .e 0x6d6f75636865 7419 .e) 0x6d6f75666c65 7420 (.o .e 0x6d6f756c696e 7421 .e)))))
def mnemonicTree207 : Tree := .o mnemonicTree205 0x6d656d627265 7369 mnemonicTree206
def mnemonicTree208 : Tree := .o (.o (.o (.o (.o (.o (.o .e 0x6d72616d6f72 9077 .e) 0x6d75636f7361 5157 .e) 0x6d7565626c65 3238 (.o .e 0x6d7565727465 3240 .e)) 0x6d756666696e 1161 (.o (.o (.o .e 0x6d75666c6f6e 9085 .e) 0x6d756c617461 11551 .e) 0x6d756c657461 3245 (.o .e 0x6d756c686572 11552 .e))) 0x6d756c746172 11553 (.o (.o (.o (.o .e 0x6d756d6d6961 5164 .e) 0x6d756e696365 9088 .e) 0x6d756e69646f 11555 (.o .e 0x6d7572616c65 5167 .e)) 0x6d757263686f 11557 (.o (.t .e 0x6d7573636c65 1164 7430 .e) 0x6d757365756d 1165 (.o .e 0x6d7573696361 5170 .e)))) 0x6d7574616365 9090 (.o (.o (.o (.o (.o .e 0x6d757475616c 1169 .e) 0x6d757475656c 7435 .e) 0x6d757a65756d 9091 (.o .e 0x6d7973656c66 1170 .e)) 0x6e6164616365 9097 (.o (.o (.o .e 0x6e6164686f7a 9099 .e) 0x6e6164706973 9101 .e) 0x6e6167657572 7440 (.o .e 0x6e61686c6173 9102 .e))) 0x6e61686e6174 9103 (.o (.o (.o (.o .e 0x6e616c65766f 9113 .e) 0x6e616d6f726f 11564 .e) 0x6e616f70616b 9118 (.o .e 0x6e61706b696e 1175 .e)) 0x6e6172696365 5177 (.o (.o .e 0x6e6172696e61 11565 .e) 0x6e6172726172 3262 (.o .e 0x6e6172726572 7443 .e))))) 0x6e6172726f77 1176 (.o (.o (.o (.o (.o (.o .e 0x6e6172756279 9127 .e) 0x6e6173636572 11567 .e) 0x6e6173746174 9132 (.t .e 0x6e6174696f6e 1178 7445 .e)) 0x6e6174697661 11568 (.o (.t (.o .e 0x6e617469766f 3265 .e) 0x6e6174757265 1179 7446 .e) 0x6e6176697265 7449 (.o .e 0x6e6176726368 9135 .e))) 0x6e617a766174 9137 (.o (.o (.o (.o .e 0x6e6563686174 9139 .e) 0x6e6563746172 7451 .e) 0x6e6564626174 9142 (.o .e 0x6e6567616365 9144 .e)) 0x6e65686f6461 9146 (.o (.o .e 0x6e656b6c6964 9149 .e) 0x6e656f6e6b61 9154 (.o .e 0x6e656fcc816e 3276 .e)))) 0x6e6570686577 1186 (.o (.o (.o (.o (.o .e 0x6e65726f7374 9156 .e) 0x6e657276696f 3277 .e) 0x6e6574766f72 9160 (.o .e 0x6e657572616c 11580 .e)) 0x6e6575726f6e 9161 (.o (.o .e 0x6e657574726f 3279 .e) 0x6e6576657261 3281 (.o .e 0x6e6576696e61 9162 .e))) 0x6e69636b656c 7463 (.o (.o (.o (.o .e 0x6e69636f7461 9164 .e) 0x6e6965626c61 3284 .e) 0x6e696ecc836f 3287 (.o .e 0x6e697469646f 5199 .e)) 0x6e6976656175 7465 (.o (.o .e 0x6e6f62696c65 5200 .e) 0x6e6f6369766f 5201 (.o .e 0x6e6f636c6568 9171 .e)))))
def mnemonicTree209 : Tree := .o (.o (.o (.o (.o (.o (.o .e 0x6e6f6d656172 11590 .e) 0x6e6f6d696e61 5204 .e) 0x6e6f6d6d6572 7473 (.o .e 0x6e6f6f646c65 1200 .e)) 0x6e6f726d616c 1201 (.o (.o (.o .e 0x6e6f74617265 5209 .e) 0x6e6f74696365 1207 .e) 0x6e6f7661746f 3298 (.o .e 0x6e6f76656c61 3299 .e))) 0x6e6f76656c6f 11597 (.o (.o (.o (.o .e 0x6e6f76696365 7482 .e) 0x6e6f76696e79 9179 .e) 0x6e6f766f7461 9180 (.o .e 0x6e6f7a647261 9181 .e)) 0x6e75636c656f 5213 (.o (.o .e 0x6e756d626572 1211 .e) 0x6e756d65726f 5215 (.o .e 0x6e7574726961 3311 .e)))) 0x6e7574726965 9187 (.o (.o (.o (.o (.o .e 0x6e7574726972 11604 .e) 0x6e75766f6c61 5218 .e) 0x6f626973706f 3314 (.o .e 0x6f626a656374 1216 .e)) 0x6f626a656b74 9200 (.o (.o .e 0x6f626a65746f 3315 .e) 0x6f626c617374 9202 (.o .e 0x6f626c696261 9204 .e))) 0x6f626c696765 1217 (.o (.o (.o (.o .e 0x6f626c6f6861 9205 .e) 0x6f626c756461 9206 .e) 0x6f626f6a656b 9209 (.o .e 0x6f627265726f 3317 .e)) 0x6f6272756261 9213 (.o (.o .e 0x6f6273637572 7494 .e) 0x6f627461696e 1220 (.o .e 0x6f636368696f 5228 .e))))) 0x6f63656e6974 9227 (.o (.o (.o (.o (.o (.o .e 0x6f63686f7461 9229 .e) 0x6f63696f736f 11615 .e) 0x6f637461766f 3328 (.o .e 0x6f63756c746f 3330 .e)) 0x6f6375706172 3331 (.o (.o (.o .e 0x6f6463686f64 9234 .e) 0x6f64657a7661 9239 .e) 0x6f6469736561 3335 (.o .e 0x6f646c756b61 9247 .e))) 0x6f646d6c6b61 9248 (.o (.o (.o (.o .e 0x6f6473747570 9258 .e) 0x6f6476616861 9262 .e) 0x6f6476657461 9263 (.o .e 0x6f647a6e616b 9266 .e)) 0x6f66656e7361 3337 (.o (.o .e 0x6f6665727461 3338 .e) 0x6f6666696365 1228 (.o .e 0x6f6666726972 7510 .e)))) 0x6f666963696f 3339 (.o (.o (.o (.o (.o .e 0x6f6673616a64 9268 .e) 0x6f676e756e6f 5241 .e) 0x6f6872616461 9271 (.o .e 0x6f6973656175 7512 .e)) 0x6f69cc81646f 3342 (.o (.o .e 0x6f6b6c696b61 9276 .e) 0x6f6b72617361 9280 (.o .e 0x6f6b7273656b 9282 .e))) 0x6f6b75726b61 9285 (.o (.o (.o (.o .e 0x6f6b75736974 9286 .e) 0x6f6c61726961 11625 .e) 0x6f6c65616461 3346 (.o .e 0x6f6c656f736f 11626 .e)) 0x6f6c6661746f 3347 (.o (.o .e 0x6f6c6961746f 5244 .e) 0x6f6c7669646f 3352 (.o .e 0x6f6d657a6974 9291 .e)))))
def mnemonicTree210 : Tree := .o mnemonicTree208 0x6e6f6d616465 7471 mnemonicTree209
def mnemonicTree211 : Tree := .o mnemonicTree207 0x6d6f75746f6e 7423 mnemonicTree210
def mnemonicTree212 : Tree := .o (.o (.o (.o (.o (.o (.o .e 0x6f6d69746972 11632 .e) 0x6f6d6c757661 9294 .e) 0x6f6e646f736f 5253 (.o .e 0x6f6e65686479 9296 .e)) 0x6f6e6c696e65 1239 (.o (.o (.o .e 0x6f7061717565 7523 .e) 0x6f706173656b 9298 .e) 0x6f70696e6172 3359 (.o .e 0x6f706f6e6572 3360 .e))) 0x6f706f73746f 11640 (.t (.o (.o (.o .e 0x6f70706f7365 1244 .e) 0x6f70726f7469 9306 .e) 0x6f7074696f6e 1245 (.o .e 0x6f7261646f72 3365 .e)) 0x6f72616e6765 1246 7531 (.o (.o .e 0x6f7262697465 7532 .e) 0x6f7264696e65 5264 (.o .e 0x6f7266616e6f 5267 .e)))) 0x6f7267616e65 7535 (.o (.o (.o (.o (.o .e 0x6f7269656e74 1252 .e) 0x6f726967656d 11649 .e) 0x6f726967656e 3375 (.o .e 0x6f72696c6c61 3376 .e)) 0x6f726c696365 9310 (.o (.o (.o .e 0x6f727068616e 1254 .e) 0x6f7274696361 5278 .e) 0x6f727a617461 5279 (.o .e 0x6f736375726f 3381 .e))) 0x6f73657a6e6f 3382 (.o (.o (.o (.o .e 0x6f736c617661 9317 .e) 0x6f736c6e6974 9319 .e) 0x6f736d6f7365 7542 (.o .e 0x6f736d6f7369 5283 .e)) 0x6f736e6f7661 9321 (.o (.o .e 0x6f736f6c6974 9323 .e) 0x6f7370697465 5285 (.o .e 0x6f7373616461 11655 .e))))) 0x6f7374756461 9327 (.o (.o (.o (.o (.o (.o .e 0x6f7374796368 9328 .e) 0x6f7461726965 7544 .e) 0x6f7472686174 9333 (.o .e 0x6f7472756279 9336 .e)) 0x6f7474696d6f 5293 (.o (.o (.o .e 0x6f7572736f6e 7546 .e) 0x6f75746f6e6f 11660 .e) 0x6f7574707574 1259 (.o .e 0x6f757669646f 11662 .e))) 0x6f76656c6861 11663 (.o (.o (.o (.o .e 0x6f76756c6172 11664 .e) 0x6f7869646172 11665 .e) 0x6f787967656e 1266 (.o .e 0x6f79656e7465 3391 .e)) 0x6f7973746572 1267 (.o (.o .e 0x6f7a646f6261 9344 .e) 0x70616361746f 11667 (.o .e 0x7061636f7465 11669 .e)))) 0x706164646c65 1270 (.o (.o (.o (.o (.o .e 0x7061656c6c61 3395 .e) 0x706167696e61 5310 .e) 0x7061676f6465 11674 (.o .e 0x7061696e656c 11675 .e)) 0x706169726172 11676 (.t (.o .e 0x706169cc8173 3398 .e) 0x70616c616365 1273 7555 (.o .e 0x70616c657461 3402 .e))) 0x70616c69746f 11681 (.o (.o (.o (.o .e 0x70616c69766f 9352 .e) 0x70616c6f6d61 3405 .e) 0x70616c706172 3406 (.o .e 0x70616c706572 7558 .e)) 0x70616c756261 9353 (.o (.o .e 0x70616c756465 5315 .e) 0x70616e656c61 11685 (.o .e 0x70616e696b61 9357 .e)))))
def mnemonicTree213 : Tree := .o (.o (.o (.o (.o (.o (.o .e 0x70617061cc81 3412 .e) 0x706170696572 7567 .e) 0x70617069726f 11691 (.o .e 0x706172616465 1280 .e)) 0x70617264616c 11694 (.o (.o (.o .e 0x706172656465 11695 .e) 0x706172656e74 1281 .e) 0x706172657265 5323 (.o .e 0x7061726c6572 7574 .e))) 0x7061726f6c61 5327 (.o (.o (.o (.o .e 0x7061726f6c65 7575 .e) 0x706172717565 3422 .e) 0x706172726f74 1283 (.o .e 0x706172756b61 9366 .e)) 0x706172757265 7579 (.o (.o .e 0x706172796261 9367 .e) 0x706173656b61 9368 (.o .e 0x70617374656c 11699 .e)))) 0x706174656e74 9371 (.o (.o (.o (.o (.o .e 0x706174726961 3432 .e) 0x706174726f6c 1289 .e) 0x706174726f6e 7585 (.o .e 0x706175736172 11705 .e)) 0x7061766f6e65 5336 (.o (.o .e 0x7061766f756b 9373 .e) 0x70617961736f 3436 (.o .e 0x7065616e7574 1295 .e))) 0x70656361646f 3438 (.o (.o (.o (.o .e 0x706563657261 3439 .e) 0x706567616461 11711 .e) 0x70656767696f 5340 (.o .e 0x706569676e65 7590 .e)) 0x70656a73656b 9378 (.o (.o .e 0x70656c616765 7592 .e) 0x70656c6f736f 5341 (.o .e 0x70656c756361 3451 .e))))) 0x70656e617265 5342 (.o (.o (.o (.o (.o (.o .e 0x70656e63696c 1301 .e) 0x70656e736172 3453 .e) 0x70656e736966 7600 (.o .e 0x70656f706c65 1302 .e)) 0x70656fcc816e 3455 (.o (.o (.o .e 0x706570696e6f 3457 .e) 0x706570697461 5350 .e) 0x706570706572 1303 (.o .e 0x706572636861 3460 .e))) 0x706572646572 3461 (.o (.o (.o (.o .e 0x706572657a61 3462 .e) 0x70657266696c 3463 .e) 0x70657269636f 3464 (.o .e 0x70657269746f 11725 .e)) 0x7065726d6974 1305 (.o (.o .e 0x70657273696c 7609 .e) 0x706572736f6e 1306 (.o .e 0x706572756361 11731 .e)))) 0x706573736f61 11734 (.o (.o (.o (.o (.o .e 0x706574616c6f 5367 .e) 0x706574696365 9388 .e) 0x706575706c65 7615 (.o .e 0x70657865736f 9391 .e)) 0x70686f626965 7617 (.o (.o .e 0x70686f717565 7618 .e) 0x70686f746f6e 7619 (.t .e 0x706872617365 1310 7620 .e))) 0x7069616e7461 5372 (.o (.o (.o (.o .e 0x70696361646f 11737 .e) 0x7069636e6963 1313 .e) 0x706965647261 3480 (.o .e 0x706965726e61 3481 .e)) 0x706965727265 7625 (.o (.o .e 0x706965747261 5377 .e) 0x706967656f6e 1317 (.o .e 0x70696a616d61 3483 .e)))))
def mnemonicTree214 : Tree := .o mnemonicTree212 0x706170617965 7566 mnemonicTree213
def mnemonicTree215 : Tree := .o (.o (.o (.o (.o (.o (.o .e 0x70696c696e61 9397 .e) 0x70696c6f7461 5385 .e) 0x70696c6f7465 7627 (.o .e 0x70696c6f746f 3485 .e)) 0x70696e63656c 11744 (.o (.o (.o .e 0x70696e657461 5387 .e) 0x70696e6f6c6f 5389 .e) 0x70696e6f7465 11747 (.o .e 0x70696e746172 11748 .e))) 0x70696e746f72 3488 (.o (.o (.o (.o .e 0x70696ecc8361 3490 .e) 0x70696f6d626f 5391 .e) 0x706970657461 9401 (.o .e 0x7069706f6361 11750 .e)) 0x706971756572 7630 (.o (.o .e 0x706972617461 3493 .e) 0x706972697465 5394 (.o .e 0x706973636172 11755 .e)))) 0x706973746f6c 1323 (.o (.o (.o (.o (.o .e 0x706973746f6e 7633 .e) 0x7069746f6e65 5396 .e) 0x706976657465 11758 (.o .e 0x706c616b6174 9408 .e)) 0x706c616d656e 9409 (.o (.o (.o .e 0x706c616e6572 7640 .e) 0x706c616e6574 1327 .e) 0x706c616e7461 11759 (.o .e 0x706c61717565 7641 .e))) 0x706c61736d61 5400 (.o (.o (.o (.o .e 0x706c61746974 9412 .e) 0x706c65617365 1331 .e) 0x706c65626575 11762 (.o .e 0x706c65646765 1332 .e)) 0x706c6569746f 3505 (.o (.o .e 0x706c656e7461 9417 .e) 0x706c6576656c 9420 (.o .e 0x706c65787573 7645 .e))))) 0x706c69616765 7646 (.o (.o (.o (.o (.o (.o .e 0x706c69766174 9421 .e) 0x706c6f636861 9424 .e) 0x706c6f6d6261 9426 (.o .e 0x706c756e6765 1335 .e)) 0x706c7572616c 3509 (.o (.o (.o .e 0x706f63686f64 9432 .e) 0x706f646e696b 9442 .e) 0x706f646f6261 9443 (.o .e 0x706f6472617a 9445 .e))) 0x706f64766f64 9447 (.o (.o (.o (.o .e 0x706f647a696d 9448 .e) 0x706f65697261 11767 .e) 0x706f65736961 5406 (.o .e 0x706f657a6965 9449 .e)) 0x706f696e7461 9455 (.o (.o .e 0x706f696e7465 7654 .e) 0x706f69767265 7657 (.o .e 0x706f6b6c6573 9459 .e)))) 0x706f6b726f6b 9461 (.o (.o (.o (.o (.o .e 0x706f6b757461 9462 .e) 0x706f6c696365 1341 .e) 0x706f6c6c656e 7660 (.o .e 0x706f6c6f6861 9467 .e)) 0x706f6d616461 3521 (.o (.o .e 0x706f6d616c75 9469 .e) 0x706f6d656c6f 3522 (.o .e 0x706f6d696365 5416 .e))) 0x706f6d6c6b61 9471 (.o (.o (.o (.o .e 0x706f6d737461 9473 .e) 0x706f70736174 9483 .e) 0x706f726f736f 5421 (.o .e 0x706f7274616c 3527 .e)) 0x706f73616461 3528 (.o (.o .e 0x706f73656572 3529 .e) 0x706f73696c61 9492 (.o .e 0x706f736b6f6b 9493 .e)))))
def mnemonicTree216 : Tree := .o (.o (.o (.o (.o (.o (.o .e 0x706f7461746f 1350 .e) 0x706f74656175 7672 .e) 0x706f74657265 5430 (.o .e 0x706f74696f6e 7673 .e)) 0x706f746b616e 9501 (.o (.o (.o .e 0x706f74757061 9505 .e) 0x706f756b617a 9507 .e) 0x706f756d6f6e 7676 (.o .e 0x706f75706172 11782 .e))) 0x706f76616861 9510 (.o (.o (.o (.o .e 0x706f766c616b 9512 .e) 0x706f766f6172 11784 .e) 0x706f76726368 9514 (.o .e 0x706f77646572 1353 .e)) 0x706f7a766174 9522 (.o (.o .e 0x707261697365 1356 .e) 0x7072616c6573 9526 (.o .e 0x7072616e7a6f 5431 .e)))) 0x707261737369 5432 (.o (.o (.o (.o (.o .e 0x707261766461 9530 .e) 0x707265636f7a 3536 .e) 0x707265666572 1358 (.o .e 0x7072656d696f 3538 .e)) 0x7072656e7361 3539 (.o (.o .e 0x707265747479 1361 .e) 0x70726576696f 3541 (.o .e 0x7072657a6172 11798 .e))) 0x7072696e6365 7691 (.o (.o (.t (.o .e 0x707269736d61 11801 .e) 0x707269736f6e 1368 7692 .e) 0x707269766172 3545 (.o .e 0x707269766572 7693 .e)) 0x70726f626172 3547 (.o (.o .e 0x70726f64656a 9535 .e) 0x70726f657a61 3550 (.o .e 0x70726f666974 1374 .e))))) 0x70726f687261 9537 (.o (.o (.o (.o (.o (.o .e 0x70726f6e746f 3555 .e) 0x70726f706164 9542 .e) 0x70726f70696f 3556 (.o .e 0x70726f707265 7703 .e)) 0x70726f726f6b 9543 (.o (.o (.o .e 0x70726f736261 9544 .e) 0x70726f746f6e 9545 .e) 0x70726f76617a 9547 (.o .e 0x70727374656e 9549 .e))) 0x707275656261 3558 (.o (.o (.o (.o .e 0x707275676e61 5461 .e) 0x7073616e6563 9554 .e) 0x707369636865 5463 (.o .e 0x70736f766f64 9555 .e)) 0x707374727568 9556 (.o (.t .e 0x7075626c6963 1384 7711 .e) 0x707564696361 5465 (.o .e 0x707565626c6f 3562 .e)))) 0x707565727461 3563 (.o (.o (.o (.o (.o .e 0x70756573746f 3564 .e) 0x707569736572 7713 .e) 0x70756b726c65 9563 (.o .e 0x70756c69746f 5469 .e)) 0x70756c736172 7715 (.o (.o .e 0x70756e68616c 11818 .e) 0x70756ecc836f 3573 (.o .e 0x707570696c61 3575 .e))) 0x707570696c6f 11820 (.t (.o (.o (.o .e 0x707572657a61 11821 .e) 0x70757265cc81 3576 .e) 0x707572697479 1394 (.o .e 0x707574796b61 9572 .e)) 0x70757a7a6c65 1399 7720 (.o (.o .e 0x717561647261 11823 .e) 0x71756164726f 5475 (.o .e 0x71756172746f 11825 .e)))))
def mnemonicTree217 : Tree := .o mnemonicTree215 0x706f7374616c 11780 mnemonicTree216
def mnemonicTree218 : Tree := .o mnemonicTree214 0x70696b6e696b 9396 mnemonicTree217
def mnemonicTree219 : Tree := .o mnemonicTree211 0x6f6d6973736f 11631 mnemonicTree218
def mnemonicTree220 : Tree := .o mnemonicTree204 0x6c757374726f 3111 mnemonicTree219
def mnemonicTree221 : Tree := .o (.o (.o (.o (.o (.o (.o .e 0x717565646172 3577 .e) 0x717565696a6f 11829 .e) 0x7175656d6172 3579 (.o .e 0x7175656e7465 11830 .e)) 0x717565726572 3580 (.o (.o (.o .e 0x71756965746f 3582 .e) 0x7175696e6365 3584 .e) 0x717569746172 3585 (.o .e 0x726162626974 1409 .e))) 0x726163686172 11837 (.o (.o (.o (.o .e 0x726163686f74 9577 .e) 0x726163696e65 7728 .e) 0x72616469616c 11839 (.o .e 0x7261696e6861 11841 .e)) 0x72616973696e 7733 (.o (.o .e 0x726169cc817a 3591 .e) 0x72616a616461 11844 (.o .e 0x72616b657461 9583 .e)))) 0x72616c61646f 11845 (.o (.o (.o (.o (.o .e 0x72616d656e6f 9585 .e) 0x72616e63686f 3594 .e) 0x72616e646f6d 1421 (.o .e 0x72616e676572 11847 .e)) 0x72617061746f 5493 (.o (.o (.o .e 0x726170696465 7737 .e) 0x726170696e61 5494 .e) 0x7261706f7361 11852 (.o .e 0x726172616368 9588 .e))) 0x726172697461 9589 (.o (.o (.o (.o .e 0x726173616765 7738 .e) 0x726173676172 11857 .e) 0x726174686572 1426 (.o .e 0x7265616b6365 9596 .e)) 0x726561736f6e 1432 (.o (.o .e 0x726561766572 11865 .e) 0x7265626f7465 3608 (.o .e 0x72656361646f 11869 .e))))) 0x726563616572 3609 (.o (.o (.o (.o (.o (.o .e 0x726563616c6c 1435 .e) 0x726563657074 9597 .e) 0x726563657461 3610 (.o .e 0x72656369626f 11872 .e)) 0x726563697065 1437 (.o (.o (.o .e 0x7265636f7264 1438 .e) 0x72656372656f 3613 .e) 0x726563756172 11875 (.o .e 0x726564756365 1440 .e))) 0x7265666c6578 9600 (.o (.o (.o (.o .e 0x7265666f726d 1442 .e) 0x726566756765 7760 .e) 0x726566757365 1443 (.o .e 0x726567616c6f 3623 .e)) 0x726567696d65 11887 (.o (.o .e 0x726567696f6e 1444 .e) 0x7265676f6c61 5513 (.o .e 0x726567726574 1445 .e)))) 0x726569746f72 11890 (.t (.o (.o (.o (.o .e 0x726569cc8172 3629 .e) 0x72656a656374 1447 .e) 0x72656a6e6f6b 9601 (.o .e 0x72656b6f7264 9603 .e)) 0x72656b727574 9604 (.o (.o .e 0x72656b746f72 9605 .e) 0x72656c61746f 3631 (.o .e 0x72656c65766f 3632 .e))) 0x72656c696566 1450 7770 (.o (.o (.o (.o .e 0x72656d61696e 1452 .e) 0x72656d617265 5516 .e) 0x72656d696e64 1454 (.o .e 0x72656d697365 7773 .e)) 0x72656d6f746f 5517 (.o (.o .e 0x72656d6f7665 1455 .e) 0x72656d756572 7776 (.o .e 0x72656e617264 7777 .e)))))
def mnemonicTree222 : Tree := .o (.o (.o (.o (.o (.o (.o .e 0x72656e646572 1456 .e) 0x72656e646972 3640 .e) 0x72656e766f69 7782 (.o .e 0x72656f70656e 1459 .e)) 0x726570616972 1460 (.o (.o (.o .e 0x72657061726f 11897 .e) 0x726570656174 1461 .e) 0x7265706f7274 1463 (.o .e 0x7265706f736f 3644 .e))) 0x72657074696c 3645 (.o (.o (.o (.o .e 0x72657175696e 7787 .e) 0x726573637565 1465 .e) 0x726573696e61 3648 (.o .e 0x726573697374 1467 .e)) 0x726573746572 7792 (.o (.o .e 0x726573756c74 1470 .e) 0x726574696e61 5527 (.o .e 0x726574697265 1471 .e)))) 0x72657469726f 3652 (.o (.o (.o (.o (.o .e 0x72657475726e 1473 .e) 0x7265756e6972 3655 .e) 0x72657665616c 1475 (.o .e 0x726576696577 1476 .e)) 0x726576697a65 9607 (.o (.o (.o .e 0x726577617264 1477 .e) 0x72687974686d 1478 .e) 0x72696163686f 11921 (.o .e 0x726962626f6e 1480 .e))) 0x726964656175 7806 (.o (.o (.o (.o .e 0x7269656e6461 3662 .e) 0x72696573676f 3663 .e) 0x726967617265 5547 (.o .e 0x726967696465 7808 .e)) 0x72696e636572 7810 (.o (.o .e 0x72696e677565 11926 .e) 0x726970706c65 1490 (.o .e 0x726973616461 11927 .e))))) 0x726973617461 5571 (.o (.o (.o (.o (.o (.o .e 0x726973717565 7813 .e) 0x72697475616c 1492 .e) 0x72697475656c 7814 (.o .e 0x72697a696b6f 9612 .e)) 0x72697a6f6d61 5589 (.o (.o (.o .e 0x726f62616c6f 11930 .e) 0x726f62757374 1498 .e) 0x726f63636961 5593 (.o .e 0x726f63696172 3677 .e))) 0x726f636b6574 1499 (.o (.o (.o (.o .e 0x726f64616461 11932 .e) 0x726f6465696f 11933 .e) 0x726f64657265 5596 (.o .e 0x726f65646f72 11935 .e)) 0x726f6769746f 5598 (.o (.o .e 0x726f6a697a6f 3682 .e) 0x726f6b6f6b6f 9617 (.o .e 0x726f6c657461 11936 .e)))) 0x726f6c6c696f 5599 (.o (.o (.o (.o (.o .e 0x726f6d616e6f 11937 .e) 0x726f6d65726f 3684 .e) 0x726f6d706572 3685 (.o .e 0x726f6d707265 7819 .e)) 0x726f6e636172 11938 (.o (.o .e 0x726f6e64696e 7821 .e) 0x726f6e7a696f 5602 (.o .e 0x726f6f6b6965 1502 .e))) 0x726f7065726f 3690 (.o (.o (.o (.o .e 0x726f72656a73 9621 .e) 0x726f7361646f 11939 .e) 0x726f73656175 7822 (.o .e 0x726f73696572 7823 .e)) 0x726f7374726f 3693 (.o (.o .e 0x726f74617465 1505 .e) 0x726f74696e61 11944 (.o .e 0x726f74756c61 5607 .e)))))
def mnemonicTree223 : Tree := .o mnemonicTree221 0x72656e636f72 3639 mnemonicTree222
def mnemonicTree224 : Tree := .o (.o (.o (.o (.o (.o (.o .e 0x726f7563686f 9628 .e) 0x726f76696e61 9631 .e) 0x726f7a626f72 9633 (.o .e 0x726f7a646174 9635 .e)) 0x726f7a6b617a 9640 (.o (.o (.o .e 0x726f7a6d6172 9642 .e) 0x726f7a706164 9643 .e) 0x726f7a736168 9645 (.o .e 0x726f7a746f6b 9646 .e))) 0x726f7a766f64 9648 (.o (.o (.o (.o .e 0x727562626572 1510 .e) 0x72756269cc81 3695 .e) 0x7275656c6c65 7835 (.o .e 0x72756769646f 11950 .e)) 0x7275676f736f 11951 (.o (.o .e 0x7275696e6572 7837 .e) 0x72756c657461 3702 (.o .e 0x72756d696e65 5613 .e)))) 0x72756e776179 1515 (.o (.o (.o (.o (.o .e 0x727574696e61 3708 .e) 0x727974686d65 7841 .e) 0x727974696e61 9658 (.o .e 0x72797a6f7374 9659 .e)) 0x73616261746f 5619 (.o (.o (.o .e 0x7361626c6572 7842 .e) 0x736163696172 11957 .e) 0x7361636f6c61 11958 (.o .e 0x736164646c65 1518 .e))) 0x736166617269 7846 (.o (.o (.o (.o .e 0x736166697261 11961 .e) 0x7361676f6d61 5622 .e) 0x73616962726f 11964 (.o .e 0x736169736972 7848 .e)) 0x73616c616461 11965 (.o (.o .e 0x73616c616465 7849 .e) 0x73616c65726f 3718 (.o .e 0x73616c697661 11968 .e))))) 0x73616c697665 7850 (.o (.o (.o (.o (.o (.o .e 0x73616c6d6f6e 1523 .e) 0x73616c6f6e65 5628 .e) 0x73616c746172 11971 (.o .e 0x73616c756572 7852 .e)) 0x73616c757465 1526 (.o (.o (.o .e 0x73616c75746f 5630 .e) 0x73616c766172 3725 .e) 0x73616d626172 11973 (.o .e 0x73616d656469 7853 .e))) 0x73616d6f7461 9665 (.o (.o (.o (.o .e 0x73616d706c65 1528 .e) 0x73616e656172 3729 .e) 0x73616e677265 3730 (.o .e 0x73616e677565 11977 .e)) 0x73617061746f 11979 (.o (.o .e 0x736170657265 5632 .e) 0x73617069646f 5633 (.o .e 0x736173747265 3738 .e)))) 0x736174697261 5640 (.o (.o (.o (.o (.o .e 0x7361756d6f6e 7860 .e) 0x736175746572 7861 .e) 0x736176616e61 5643 (.o .e 0x736176616e74 7863 .e)) 0x7362616c7a6f 5647 (.o (.o .e 0x736261727261 5649 .e) 0x73636172736f 5665 (.o .e 0x7363656c746f 5668 .e))) 0x736368656461 5671 (.o (.o (.o (.o .e 0x736368656d65 1541 .e) 0x7363686f6f6c 1542 .e) 0x73636970706f 5676 (.o .e 0x73636f727461 5685 .e)) 0x73637265656e 1548 (.o (.o .e 0x736372696261 5688 .e) 0x736372697074 1549 (.o .e 0x7363756f6c61 5693 .e)))))
def mnemonicTree225 : Tree := .o (.o (.o (.o (.o (.o (.o .e 0x736561736f6e 1553 .e) 0x736563657365 9675 .e) 0x7365636f6e64 1555 (.o .e 0x736563726574 1556 .e)) 0x736564616e6f 5700 (.o (.o (.o .e 0x7365646f736f 11992 .e) 0x736567756972 3747 .e) 0x7365686e6174 9679 (.o .e 0x73656b657261 9681 .e))) 0x73656c656374 1562 (.o (.o (.o (.o .e 0x73656c65746f 11998 .e) 0x73656d616e61 3751 .e) 0x73656d656e6f 9685 (.o .e 0x73656d707265 5713 .e)) 0x73656e686f72 12003 (.o (.o .e 0x73656e696f72 1565 .e) 0x73656e736f72 3754 (.o .e 0x736572617461 5718 .e)))) 0x736572656961 12007 (.o (.o (.o (.o (.o .e 0x73657265696e 7895 .e) 0x736572656e6f 5720 .e) 0x736572696573 1568 (.o .e 0x736572766972 3763 .e)) 0x736572766973 9687 (.o (.o .e 0x7365736b6f6b 9690 .e) 0x7365736c6174 9691 (.o .e 0x736573747261 9692 .e))) 0x736574696e61 9696 (.o (.o (.o (.o .e 0x7365746b6174 9697 .e) 0x7365746f6c61 5726 .e) 0x736574746c65 1571 (.o .e 0x73657665726f 3768 .e)) 0x73657a6e616d 9701 (.o (.o .e 0x7366696e6765 5736 .e) 0x736861646f77 1574 (.o .e 0x736869656c64 1581 .e))))) 0x736869766572 1585 (.o (.t (.o (.o (.o (.o .e 0x736872696d70 1593 .e) 0x736962696c6f 5753 .e) 0x736965727261 5755 (.o .e 0x736965737461 3772 .e)) 0x736967696c6f 12013 (.o (.o (.o .e 0x7369676e616c 7910 .e) 0x73696c626172 3777 .e) 0x73696c656e74 1603 (.o .e 0x73696c766572 1606 .e))) 0x73696d706c65 1608 7913 (.o (.o (.o (.o .e 0x736970686f6e 7916 .e) 0x736972656e61 3782 .e) 0x736972656e65 12024 (.o .e 0x736973746572 1612 .e)) 0x736974756172 3785 (.o (.o .e 0x736974756572 7919 .e) 0x736b65746368 1617 (.o .e 0x736b6f6b616e 9721 .e)))) 0x736b766f7374 9726 (.o (.o (.o (.o (.o .e 0x736b76726e61 9727 .e) 0x736c65706563 9734 .e) 0x736c69676874 1629 (.o .e 0x736c69747461 5773 .e)) 0x736c6f67616e 1631 (.o (.o .e 0x736c756e6365 9745 .e) 0x736c75706b61 9746 (.o .e 0x736d696c7a6f 5780 .e))) 0x736d6f6f7468 1639 (.o (.o (.o (.o .e 0x736d72746b61 9755 .e) 0x736d7574656b 9756 .e) 0x736f626f7461 9761 (.o .e 0x736f6272696f 5788 .e)) 0x736f63636572 1646 (.o (.t .e 0x736f6369616c 1647 7921 .e) 0x736f64616c65 5791 (.o .e 0x736f6469756d 7923 .e)))))
def mnemonicTree226 : Tree := .o mnemonicTree224 0x736561726368 1552 mnemonicTree225
def mnemonicTree227 : Tree := .o mnemonicTree223 0x726f74756c65 7826 mnemonicTree226
def mnemonicTree228 : Tree := .t (.o (.o (.o (.o (.o (.o .e 0x736f6c646174 7925 .e) 0x736f6c65696c 7926 .e) 0x736f6c69646f 5796 (.o .e 0x736f6c746172 3794 .e)) 0x736f6d627261 3796 (.o (.o (.o .e 0x736f6d627265 7929 .e) 0x736f6e617461 12036 .e) 0x736f6e646172 12037 (.o .e 0x736f6e64656f 3797 .e))) 0x736f6e69646f 3798 (.o (.o (.o (.o .e 0x736f6e6f7265 7935 .e) 0x736f6e6f726f 3799 .e) 0x736f70697265 5806 (.o .e 0x736f706c6172 3802 .e)) 0x736f72726972 12043 (.o (.o .e 0x736f7274656f 3806 .e) 0x736f72746972 7937 (.o .e 0x736f75626f6a 9767 .e)))) 0x736f75636974 9768 (.o (.o (.t (.o (.o .e 0x736f75646365 9769 .e) 0x736f756c6164 9771 .e) 0x736f75726365 1664 7945 (.o .e 0x736f75736564 9774 .e)) 0x736f75746f6b 9775 (.o (.o (.o .e 0x736f7661646f 12048 .e) 0x7370616c6c61 5819 .e) 0x737065636965 5824 (.o .e 0x737068657265 1675 .e))) 0x737069646572 1677 (.o (.o (.o (.o .e 0x73706972616c 7952 .e) 0x737069726974 1680 .e) 0x73706f64656b 9781 (.o .e 0x737072636861 9787 .e)) 0x737072656164 1688 (.o (.o .e 0x737072696e67 1689 .e) 0x737175617265 1691 (.o .e 0x7372616e6461 9789 .e))))) 0x737461626c65 1694 7953 (.o (.o (.o (.o (.o (.o .e 0x73746163636f 5849 .e) 0x737461666661 5850 .e) 0x737461697273 1698 (.o .e 0x737461766261 9801 .e)) 0x737465686e6f 9802 (.o (.o (.o .e 0x737465707061 5858 .e) 0x73746572656f 1708 .e) 0x737465727a6f 5859 (.o .e 0x7374657a6b61 9803 .e))) 0x737469727065 5862 (.o (.o (.o (.o .e 0x73746f6c656b 9805 .e) 0x73746f726e6f 9807 .e) 0x737472616368 9809 (.o .e 0x737472656574 1719 .e)) 0x737472696374 7958 (.o (.o .e 0x737472696b65 1720 .e) 0x7374726f6e67 1721 (.o .e 0x737472756e61 9813 .e)))) 0x737475646e61 9814 (.o (.o (.o (.o (.o .e 0x737562696461 12051 .e) 0x7375626d6974 1728 .e) 0x73756274696c 7964 (.o .e 0x737562776179 1729 .e)) 0x737563617461 12055 (.o (.o .e 0x73756365736f 3811 .e) 0x737563686172 9820 (.o .e 0x73756464656e 1732 .e))) 0x7375646f7265 5877 (.o (.o (.o (.o .e 0x7375646f7374 9821 .e) 0x737565677261 3813 .e) 0x737565727465 3816 (.o .e 0x737566666572 1733 .e)) 0x73756669786f 12059 (.o (.o .e 0x737566726972 3817 .e) 0x73756a65746f 3818 (.o .e 0x73756d6d6572 1737 .e)))))
def mnemonicTree229 : Tree := .o (.o (.o (.o (.o (.o (.o .e 0x73756e6f7574 9824 .e) 0x73756e736574 1740 .e) 0x7375706c6972 3822 (.o .e 0x737570706c79 1742 .e)) 0x737572676972 3828 (.o (.o (.o .e 0x737572746972 12074 .e) 0x737572766579 1749 .e) 0x737572766965 7979 (.o .e 0x737574757261 5887 .e))) 0x737661746261 9830 (.o (.o (.o (.o .e 0x7376617a656b 9831 .e) 0x7376657a6961 5893 .e) 0x737669736c65 9832 (.o .e 0x737669737461 5895 .e)) 0x73766974656b 9833 (.o (.o .e 0x73766f6c7461 5897 .e) 0x73766f726b61 9836 (.o .e 0x737769746368 1761 .e)))) 0x73796d626f6c 1763 (.o (.o (.o (.o (.o .e 0x73797374656d 1766 .e) 0x7379746f7374 9846 .e) 0x74616261636f 3831 (.o .e 0x746162656c61 12077 .e)) 0x746162756c65 9848 (.o (.o .e 0x74616275cc81 3834 .e) 0x7461636b6c65 1768 (.o .e 0x7461686f756e 9849 .e))) 0x74616a66756e 9851 (.o (.o (.o (.t .e 0x74616c656e74 1771 7991 .e) 0x74616c686572 12082 .e) 0x74616c76657a 12084 (.o .e 0x74616d626f72 3844 .e)) 0x74616d686c65 9856 (.o (.o .e 0x74616d706f6e 9857 .e) 0x74616e6b6572 9860 (.o .e 0x74616e717565 3846 .e))))) 0x746170657461 9861 (.o (.o (.o (.o (.o (.o .e 0x746170657465 3848 .e) 0x746172646572 7999 .e) 0x74617264696f 12092 (.o .e 0x746172656661 12093 .e)) 0x746172676574 1775 (.o (.o (.o .e 0x746172696661 3854 .e) 0x746174616d69 8003 .e) 0x746174746f6f 1778 (.o .e 0x74656174726f 3863 .e))) 0x74656369646f 12102 (.o (.o (.o (.o .e 0x7465696d6172 12106 .e) 0x74656a61646f 3867 .e) 0x74656a69646f 3869 (.o .e 0x74656d706c6f 3874 .e)) 0x74656d75746f 5923 (.o (.o .e 0x74656e616e74 1784 .e) 0x74656e646572 3876 (.o .e 0x74656e647265 8011 .e)))) 0x74656e65726f 5925 (.o (.o (.o (.o (.o .e 0x74656e657572 8012 .e) 0x74656e6e6973 1785 .e) 0x74656e736f72 12111 (.o .e 0x74656e746172 12112 .e)) 0x746570727665 9874 (.o (.o .e 0x7465726d616c 12113 .e) 0x746572726f72 3885 (.o .e 0x7465736f726f 3887 .e))) 0x746574657261 3889 (.o (.o (.o (.o .e 0x74657874696c 9877 .e) 0x74657875676f 12121 .e) 0x7468656f7279 1794 (.o .e 0x74686f726178 8023 .e)) 0x746872697665 1801 (.o (.o .e 0x7469636b6574 1805 .e) 0x7469656d706f 3894 (.o .e 0x7469656e6461 3895 .e)))))
def mnemonicTree230 : Tree := .o mnemonicTree228 0x73756e646174 9823 mnemonicTree229
def mnemonicTree231 : Tree := .o (.o (.o (.o (.o (.o (.o .e 0x746966617265 5937 .e) 0x746967656c61 12123 .e) 0x74696a657261 3899 (.o .e 0x74696a6f6c6f 12124 .e)) 0x74696d626572 1809 (.o (.o (.o .e 0x74696d627265 3901 .e) 0x74696d62726f 5939 .e) 0x74696d696465 8026 (.o .e 0x74697069636f 5941 .e))) 0x7469726f6972 8028 (.o (.o (.o (.o .e 0x746973737565 1814 .e) 0x746974616e65 8030 .e) 0x7469746f6c6f 5946 (.o .e 0x746c61706b61 9883 .e)) 0x746c756b6f74 9885 (.o (.o .e 0x746f616c6861 12131 .e) 0x746f616c6c61 3914 (.o .e 0x746f63696e6f 3917 .e)))) 0x746f696c6574 1822 (.o (.o (.o (.o (.o .e 0x746f6c696365 12134 .e) 0x746f6d616461 12135 .e) 0x746f6d617465 8035 (.o .e 0x746f6d61746f 1824 .e)) 0x746f6e677565 1827 (.o (.o (.o .e 0x746f70657465 12139 .e) 0x746f70706c65 1833 .e) 0x746f72636865 8039 (.o .e 0x746f72647265 8040 .e))) 0x746f7265726f 3928 (.o (.o (.o (.o .e 0x746f726e656f 3930 .e) 0x746f72717565 12143 .e) 0x746f72747565 8045 (.o .e 0x746f73746172 12146 .e)) 0x746f74616e6f 5967 (.o (.o .e 0x746f756c6563 9893 .e) 0x746f77617264 1840 (.o .e 0x746f78696e61 12149 .e))))) 0x746f78696e65 8050 (.o (.o (.o (.o (.o (.o .e 0x747261666963 8052 .e) 0x747261676963 1847 .e) 0x747261686972 8054 (.o .e 0x7472616e6365 3947 .e)) 0x747261727265 5976 (.o (.o (.o .e 0x747261756d61 3949 .e) 0x747261766172 12160 .e) 0x74726176656c 1852 (.o .e 0x7472617a6172 3950 .e))) 0x747265666974 9899 (.o (.o (.o (.o .e 0x747265677561 3952 .e) 0x747265696e6f 12161 .e) 0x7472656d6572 12162 (.o .e 0x747265706172 3955 .e)) 0x74726575696c 8061 (.o (.o .e 0x7472657a6f72 9901 .e) 0x747269616765 8062 (.o .e 0x7472696c6c6f 5986 .e)))) 0x747269706c6f 12171 (.o (.o (.o (.o (.o .e 0x747269737465 3960 .e) 0x74726f636172 12174 .e) 0x74726f636875 9904 (.o .e 0x74726f66656f 3962 .e)) 0x74726f6d6261 5992 (.o (.o .e 0x74726f6d7061 3963 .e) 0x74726f6e636f 3964 (.o .e 0x74726f706879 1863 .e))) 0x74726f70706f 5994 (.o (.o (.o (.o .e 0x74726f736b61 9906 .e) 0x74726f756261 9907 .e) 0x747275626563 9911 (.o .e 0x747275656e6f 3969 .e)) 0x7472756e666f 12177 (.o (.o .e 0x747275717565 12178 .e) 0x747563616e6f 12180 (.o .e 0x74756572746f 3973 .e)))))
def mnemonicTree232 : Tree := .o (.o (.o (.t (.o (.o (.o .e 0x74756c697061 12182 .e) 0x74756c697065 8075 .e) 0x74756d626c65 1874 (.o .e 0x74756e647261 9919 .e)) 0x74756e6e656c 1876 8077 (.o (.o (.o .e 0x7475726b6579 1877 .e) 0x7475726e616a 9921 .e) 0x747572746c65 1879 (.o .e 0x747574656c61 6006 .e))) 0x747574657572 8079 (.o (.o (.o (.o .e 0x747661726f68 9923 .e) 0x74766f726261 9924 .e) 0x7477656c7665 1880 (.o .e 0x7477656e7479 1881 .e)) 0x74796d70616e 8082 (.o (.o .e 0x747970686f6e 8083 .e) 0x756269636172 3982 (.o .e 0x756469766974 9937 .e)))) 0x756775616c65 6014 (.o (.o (.o (.o (.o .e 0x756a6d6f7574 9941 .e) 0x756c69737365 6015 .e) 0x756c6f766974 9949 (.o .e 0x756c74696d65 8087 .e)) 0x756d6269676f 12190 (.o (.o .e 0x756d6272616c 3984 .e) 0x756e61626c65 1890 (.o .e 0x756e61766974 9951 .e))) 0x756e66616972 1896 (.o (.o (.o (.o .e 0x756e666f6c64 1897 .e) 0x756e67657265 6021 .e) 0x756e69646164 3985 (.t .e 0x756e69717565 1900 8092 .e)) 0x756e6c6f636b 1904 (.o (.o .e 0x756e7665696c 1907 .e) 0x757064617465 1908 (.o .e 0x7570686f6c64 1910 .e))))) 0x7572617a6974 9960 (.o (.o (.o (.o (.o (.o .e 0x75726261696e 8096 .e) 0x757262616e6f 3991 .e) 0x757274696761 12196 (.o .e 0x7573616e7a61 6033 .e)) 0x75736369746f 6035 (.o (.o (.o .e 0x75736566756c 1919 .e) 0x75736e6f7574 9965 .e) 0x7573746c6174 9967 (.o .e 0x75746f706961 6040 .e))) 0x75746f706965 8103 (.o (.o (.o (.o .e 0x7576616c6974 9975 .e) 0x757a6c696e61 9981 .e) 0x75cc8174696c 3997 (.o .e 0x766163616e74 1923 .e)) 0x76616363696e 8105 (.o (.o .e 0x766163696e61 12201 .e) 0x766163756e61 4002 (.o .e 0x76616375756d 1924 .e)))) 0x766164696172 12202 (.o (.o (.o (.o (.o .e 0x76616c636861 9984 .e) 0x76616c69636f 6047 .e) 0x76616c697365 8112 (.o .e 0x76616c6c6579 1927 .e)) 0x76616c6c6f6e 8113 (.o (.o .e 0x76616c6f756e 9985 .e) 0x76616e64616c 9987 (.o .e 0x76616e697368 1930 .e))) 0x766170657572 8117 (.o (.o (.o (.o .e 0x7661706f7265 6058 .e) 0x766172616e6f 6059 .e) 0x766172657461 12212 (.o .e 0x766172696172 4014 .e)) 0x766172696572 8118 (.o (.o .e 0x766172726572 12213 .e) 0x766173657578 8119 (.o .e 0x76617373616c 8120 .e)))))
def mnemonicTree233 : Tree := .o mnemonicTree231 0x7475686f7374 9918 mnemonicTree232
def mnemonicTree234 : Tree := .o mnemonicTree230 0x746965727261 3896 mnemonicTree233
def mnemonicTree235 : Tree := .o mnemonicTree227 0x736f6c617061 3790 mnemonicTree234
def mnemonicTree236 : Tree := .o (.o (.o (.o (.o (.o (.o .e 0x766563696e6f 4017 .e) 0x766563746f72 4018 .e) 0x7665646f7661 6064 (.o .e 0x76656475746f 6065 .e)) 0x7665696e7465 4020 (.o (.o (.o .e 0x76656c63726f 6068 .e) 0x76656c65726f 4023 .e) 0x76656c696e61 6069 (.o .e 0x76656c6d6f63 10001 .e))) 0x76656c6f6365 6071 (.o (.o (.o (.o .e 0x76656c75646f 12225 .e) 0x76656c766574 1936 .e) 0x76656e61746f 6072 (.o .e 0x76656e636572 4026 .e)) 0x76656e646f72 1937 (.o (.o .e 0x76656e656e6f 4028 .e) 0x76656e676172 4029 (.o .e 0x76656e676572 8130 .e)))) 0x76656e6b6f76 10003 (.o (.o (.o (.o (.o .e 0x76656e747265 12229 .e) 0x766572616365 6075 .e) 0x766572616e6f 4034 (.o .e 0x76657262616c 12230 .e)) 0x766572656461 4037 (.o (.o (.o .e 0x766572696679 1941 .e) 0x7665726e6972 8135 .e) 0x7665726e697a 12235 (.o .e 0x766572726f75 8136 .e))) 0x766572736172 12236 (.o (.o (.o (.o .e 0x766572736572 8137 .e) 0x766572746572 4040 .e) 0x76657373656c 1944 (.o .e 0x766573746f6e 8139 .e)) 0x766578616e74 8142 (.o (.o .e 0x766961626c65 1946 .e) 0x766961647563 8144 (.o .e 0x76696167656d 12242 .e))))) 0x7669616a6172 12243 (.o (.o (.o (.o (.o (.o .e 0x7669616e6465 8145 .e) 0x766962726172 4043 .e) 0x766964696e61 10016 (.o .e 0x76696472696f 4048 .e)) 0x766967696172 12251 (.o (.o (.o .e 0x7669676f7265 6096 .e) 0x76696c61696e 8151 .e) 0x76696d696e69 6099 (.o .e 0x76696e696365 10019 .e))) 0x76696f6c696e 1954 (.o (.o (.o (.o .e 0x76696f6c6f6e 8154 .e) 0x766970657261 6102 .e) 0x766972616461 12258 (.o .e 0x766972747564 4060 .e)) 0x766973616765 8159 (.o (.o .e 0x766973657572 8160 .e) 0x766973696f6e 8161 (.o .e 0x76697375616c 1959 .e)))) 0x76697375656c 8163 (.o (.o (.o (.o (.o .e 0x766973757261 6110 .e) 0x76697472616c 12262 .e) 0x766976616365 8168 (.o .e 0x76697665726f 4067 .e)) 0x76697669646f 6115 (.o (.o .e 0x766c616a6b61 10027 .e) 0x766c61736563 10029 (.o .e 0x766f61646f72 12265 .e))) 0x766f67756572 8171 (.o (.o (.o (.o .e 0x766f6973696e 8173 .e) 0x766f6a736b6f 10043 .e) 0x766f6c616e74 10044 (.o .e 0x766f6c63616e 8176 .e)) 0x766f6c657265 6120 (.o (.t .e 0x766f6c756d65 1966 8178 .e) 0x766f6c766572 4072 (.o .e 0x766f72616365 8179 .e)))))
def mnemonicTree237 : Tree := .o (.o (.o (.o (.o (.o (.t .e 0x766f79616765 1968 8183 .e) 0x76707261766f 10051 .e) 0x767261626563 10052 (.o .e 0x767261636574 10053 .e)) 0x767273747661 10059 (.o (.o (.o .e 0x767274756c65 10060 .e) 0x767361646974 10061 .e) 0x76756c676172 4078 (.o .e 0x767962726174 10066 .e))) 0x767972766174 10095 (.o (.o (.o (.o .e 0x7679736f6b6f 10097 .e) 0x76797a6e6174 10108 .e) 0x767a64756368 10113 (.o .e 0x767a6f72656b 10120 .e)) 0x77616c6e7574 1974 (.o (.o .e 0x7765616c7468 1985 .e) 0x776561706f6e 1986 (.o .e 0x77656173656c 1988 .e)))) 0x77696e646f77 2011 (.o (.o (.o (.o (.o .e 0x77696e6e6572 2015 .e) 0x77696e746572 2016 .e) 0x776973646f6d 2018 (.o .e 0x776f6e646572 2024 .e)) 0x78616472657a 12275 (.o (.o (.o .e 0x7861726f7065 12276 .e) 0x786572696665 12279 .e) 0x78696e676172 12280 (.o .e 0x79656c6c6f77 2040 .e))) 0x7a6162726174 10125 (.o (.o (.o (.o .e 0x7a616669726f 4088 .e) 0x7a617061746f 4090 .e) 0x7a6170736174 10148 (.o .e 0x7a6172706172 12282 .e)) 0x7a6261766974 10162 (.o (.o .e 0x7a6272757375 10163 .e) 0x7a627974656b 10165 (.o .e 0x7a6461726d61 10167 .e))))) 0x7a646f626974 10170 (.o (.o (.o (.o (.o (.o .e 0x7a656669726f 6129 .e) 0x7a656d696e61 10176 .e) 0x7a6570746174 10177 (.o .e 0x7a657a616475 10178 .e)) 0x7a6861746974 10180 (.o (.o (.o .e 0x7a6872756261 10184 .e) 0x7a6c65686b61 10193 .e) 0x7a6d6174656b 10200 (.o .e 0x7a6d697a6574 10202 .e))) 0x7a6f6d626172 12285 (.o (.o (.o (.o .e 0x7a6f7469636f 6139 .e) 0x7a6f7562656b 10213 .e) 0x7a7072617661 10217 (.o .e 0x7a72616e6974 10222 .e)) 0x7a726f766e61 10226 (.o (.o .e 0x7a7469636861 10229 .e) 0x7a75666f6c6f 6141 (.o .e 0x7a76656e6b75 10234 .e)))) 0x61626163617465 10240 (.o (.o (.o (.o (.t .e 0x6162616e646f6e 0 6145 .e) 0x6162646f6d656e 2049 .e) 0x616264757a6972 10244 (.o .e 0x61626563656461 8193 .e)) 0x616265696c6c65 6147 (.o (.o .e 0x6162696572746f 2051 .e) 0x6162696c697479 1 (.o .e 0x61626f6761646f 2052 .e))) 0x61626f6c697265 4101 (.o (.o (.o (.o .e 0x61626f72646572 6149 .e) 0x61626f746f6172 10248 .e) 0x61626f75746972 6150 (.o .e 0x61627261736966 6152 .e)) 0x61627269676172 10251 (.o (.o .e 0x61627269746572 6154 .e) 0x6162726f676572 6155 (.o .e 0x6162727570746f 10252 .e)))))
def mnemonicTree238 : Tree := .o mnemonicTree236 0x766f72746578 8180 mnemonicTree237
def mnemonicTree239 : Tree := .o (.o (.o (.o (.o (.o (.o .e 0x616273696e746f 10253 .e) 0x61627375726465 6159 .e) 0x6162737572646f 10255 (.o .e 0x6162797373616c 6161 .e)) 0x6163616261646f 10257 (.o (.o (.o .e 0x6163616c6d6172 10258 .e) 0x6163616d706172 10259 .e) 0x6163616e686172 10260 (.o .e 0x6163617269656e 6164 .e))) 0x616363656e6e6f 4105 (.o (.o (.o (.o .e 0x6163636f756e74 12 .e) 0x61636375736572 6170 .e) 0x61636569746172 10262 (.o .e 0x61636570746172 2066 .e)) 0x61636573736172 10266 (.o (.o .e 0x616365746f6e61 10267 .e) 0x616365746f6e65 4107 (.o .e 0x61636861746172 10268 .e)))) 0x61636865746572 6173 (.o (.o (.o (.o (.o .e 0x61636869657665 14 .e) 0x616368696c6c65 4108 .e) 0x61636972726172 10272 (.o .e 0x61636c616d6172 10273 .e)) 0x61636c61726172 2068 (.o (.o (.o .e 0x61636f6d707465 6176 .e) 0x61636f706c6172 10277 .e) 0x61636f72646172 10278 (.o .e 0x61637175697265 17 .e))) 0x61637472657373 22 (.o (.o (.o (.o .e 0x6163756572646f 2077 .e) 0x61646170746172 10281 .e) 0x61646472657373 27 (.o .e 0x6164656e74726f 10283 .e)) 0x61646571756172 10285 (.o (.o .e 0x61646572697265 4119 .e) 0x6164657369766f 10287 (.o .e 0x616469616e7465 10289 .e))))) 0x6164697469766f 10290 (.o (.o (.o (.o (.o (.o .e 0x61646a75676572 6186 .e) 0x61646a756e746f 10292 .e) 0x61646d69726172 10293 (.o .e 0x61646d69726572 6188 .e)) 0x61646d69746972 2080 (.o (.o (.o .e 0x61646f70746172 2081 .e) 0x61646f70746572 6189 .e) 0x61646f75636972 6191 (.o .e 0x61647265737365 6192 .e))) 0x6164756c617265 4122 (.o (.o (.o (.o .e 0x616476616e6365 31 .e) 0x61647665726265 6195 .e) 0x6164766572736f 10297 (.o .e 0x6165726f626963 33 .e)) 0x6165cc8172656f 2085 (.o (.o .e 0x6165cc81726572 6196 .e) 0x61666173746172 10300 (.o .e 0x61666563746172 2086 .e)))) 0x6166657469766f 10302 (.o (.o (.o (.o (.o .e 0x61666661697265 6198 .e) 0x6166666574746f 4124 .e) 0x61666669636865 6200 (.o .e 0x6166666973736f 4125 .e)) 0x61666672657578 6201 (.o (.o .e 0x616669726d6172 2089 .e) 0x61676163686172 10308 (.o .e 0x61676172726172 10309 .e))) 0x6167656e636572 6204 (.o (.o (.o (.o .e 0x616765766f6c65 4132 .e) 0x6167697461646f 10314 .e) 0x61676974617265 4135 (.o .e 0x61677261646172 10316 .e)) 0x61677261666572 6207 (.o (.o .e 0x61677265676172 2095 .e) 0x61677265737465 10317 (.o .e 0x61677275706172 10318 .e)))))
def mnemonicTree240 : Tree := .o (.o (.o (.o (.o (.o (.o .e 0x616972706f7274 44 .e) 0x616973616e6365 6214 .e) 0x616a656472657a 2105 (.o .e 0x616a6f75746572 6215 .e)) 0x616a7573746172 10323 (.o (.o (.o .e 0x616a7573746572 6216 .e) 0x616b746f766b61 8197 .e) 0x616c616d627265 2109 (.o .e 0x616c616d656461 10324 .e))) 0x616c61726d6572 6217 (.o (.o (.o (.o .e 0x616c626174726f 4142 .e) 0x616c63616c6465 2113 .e) 0x616c6361747261 10330 (.o .e 0x616c636f686f6c 48 .e)) 0x616c656372696d 10332 (.o (.o .e 0x616c6567726961 10333 .e) 0x616c6572746172 10334 (.o .e 0x616c66696c6572 2119 .e)))) 0x616c6765627261 4150 (.o (.o (.o (.o (.o .e 0x616c69616e7465 4151 .e) 0x616c6963617465 10340 .e) 0x616c69656e6172 10341 (.o .e 0x616c69656e746f 2123 .e)) 0x616c696d656e74 6223 (.o (.o .e 0x616c696e686172 10342 .e) 0x616c6976696172 10343 (.o .e 0x616c6b6f686f6c 8199 .e))) 0x616c6c6567726f 4155 (.o (.o (.o (.o .e 0x616c6c69616765 6225 .e) 0x616c6c6965766f 4156 .e) 0x616c6c6f756572 6226 (.o .e 0x616c6c756d6572 6227 .e)) 0x616c6f67656e6f 4160 (.o (.o .e 0x616c7069737465 10346 .e) 0x616c7265616479 57 (.o .e 0x616c7465726172 10347 .e))))) 0x616c7465726e6f 4164 (.o (.o (.o (.o (.o (.o .e 0x616c7465737365 6230 .e) 0x616c74726f7665 4166 .e) 0x616c757369766f 10352 (.o .e 0x616c76656f6c6f 4168 .e)) 0x616d6163696172 10354 (.o (.o (.o .e 0x616d616e697461 4171 .e) 0x616d61706f6c61 2137 .e) 0x616d6172656c6f 10356 (.o .e 0x616d6172656e61 4172 .e))) 0x616d6173736172 10357 (.o (.o (.o (.t .e 0x616d6174657572 61 6232 .e) 0x616d617a696e67 62 .e) 0x616d627261746f 4174 (.o .e 0x616d6572696361 4176 .e)) 0x616d6973746164 2144 (.o (.o .e 0x616d697a616465 10364 .e) 0x616d6d6173736f 4179 (.o .e 0x616d6d656e6461 4180 .e)))) 0x616d6f72636572 6239 (.o (.o (.o (.o (.o .e 0x616d6f726f736f 10367 .e) 0x616d6f73747261 10368 .e) 0x616d7061726172 10369 (.o .e 0x616d706c657572 6243 .e)) 0x616d706c696172 10370 (.o (.o .e 0x616d756c65746f 4186 .e) 0x616d7573616e74 6244 (.o .e 0x616e616c797365 6245 .e))) 0x616e616c797374 66 (.o (.o (.o (.o .e 0x616e63656c6c61 4193 .e) 0x616e6369616e6f 2149 .e) 0x616e6369656e74 68 (.o .e 0x616e6461696d65 10376 .e)) 0x616e6465cc816e 2152 (.o (.o .e 0x616e64756c6b61 8202 .e) 0x616e67756c6172 10379 (.o .e 0x616e677573746f 4200 .e)))))
def mnemonicTree241 : Tree := .o mnemonicTree239 0x61696d61626c65 6213 mnemonicTree240
def mnemonicTree242 : Tree := .o mnemonicTree238 0x616273656e6365 6157 mnemonicTree241
def mnemonicTree243 : Tree := .o (.o (.o (.o (.o (.o (.o .e 0x616e6e6f6e6365 6256 .e) 0x616e6f6e696d6f 4206 .e) 0x616e6f6e796d65 6260 (.o .e 0x616e6f726d616c 6261 .e)) 0x616e6f7461646f 10383 (.o (.o (.o .e 0x616e6f74686572 76 .e) 0x616e73696f736f 10384 .e) 0x616e74656e6e61 78 (.o .e 0x616e74656e6e65 6262 .e))) 0x616e746967756f 2160 (.o (.o (.o (.o .e 0x616e7469717565 79 .e) 0x616e756e63696f 2164 .e) 0x616e7869657479 80 (.o .e 0x616e7869657578 6264 .e)) 0x616ecc83656a6f 2166 (.o (.o .e 0x61706169736572 6265 .e) 0x6170616c706172 10390 (.o .e 0x6170617261746f 2169 .e)))) 0x6170617469636f 4209 (.o (.o (.o (.o (.o .e 0x6170656c69646f 10393 .e) 0x61706574697465 10396 .e) 0x6170657469746f 2170 (.o .e 0x61706c616e6972 6267 .e)) 0x61706c6175736f 10398 (.o (.o (.o .e 0x61706c69636172 2172 .e) 0x61706f6c6f6779 83 .e) 0x61706f6e746172 10401 (.o .e 0x617070656c6572 6270 .e))) 0x617070726f646f 4215 (.o (.o (.o (.o .e 0x617070726f7665 86 .e) 0x617070756e746f 4216 .e) 0x61707075796572 6272 (.o .e 0x6170726f626172 2177 .e)) 0x6170726f766172 10404 (.o (.o .e 0x61707565737461 2178 .e) 0x61717565636572 10405 (.o .e 0x61717565647563 6274 .e))))) 0x61726162696361 4218 (.o (.o (.o (.o (.o (.o .e 0x6172616e63696f 4222 .e) 0x6172616ecc8361 2181 .e) 0x61726174757261 4223 (.o .e 0x61726269747265 6275 .e)) 0x6172626974726f 4225 (.o (.o (.o .e 0x61726275737465 6276 .e) 0x6172627573746f 2185 .e) 0x6172636869766f 2186 (.o .e 0x617264656e7465 10410 .e))) 0x617264696c6c61 2189 (.o (.o (.o (.o .e 0x6172646f697365 6278 .e) 0x6172656e696c65 4228 .e) 0x6172656e69746f 10413 (.o .e 0x617267656e746f 4229 .e)) 0x61726d6f697265 6283 (.o (.o .e 0x61726d6f6e6961 4233 .e) 0x61726e65cc8173 2195 (.o .e 0x6172706fcc816e 2198 .e)))) 0x6172717569766f 10418 (.o (.o (.o (.o (.o .e 0x6172726169616c 10419 .e) 0x617272616e6765 98 .e) 0x61727265676c6f 2199 (.o .e 0x617272696e6761 4236 .e)) 0x61727269766572 6287 (.o (.o .e 0x6172726f736572 6288 .e) 0x6172726f73746f 4237 (.o .e 0x617272756d6172 10423 .e))) 0x617273656e616c 10424 (.o (.o (.o (.o .e 0x617273656e6963 6289 .e) 0x61727469636c65 6291 .e) 0x61727469737461 2203 (.o .e 0x617274776f726b 105 .e)) 0x61727a696c6c6f 4241 (.o (.o .e 0x617363656e736f 2207 .e) 0x6173636f6c746f 4243 (.o .e 0x617366616c746f 4246 .e)))))
def mnemonicTree244 : Tree := .o (.o (.o (.o (.o (.o (.o .e 0x6173696c61646f 10429 .e) 0x61736973746972 2213 .e) 0x61736f6d62726f 2215 (.o .e 0x61737069726172 10430 .e)) 0x61737069726572 6294 (.o (.o (.o .e 0x61737361646f72 10431 .e) 0x61737361756c74 108 .e) 0x617373696e6172 10432 (.o .e 0x617373756e746f 10434 .e))) 0x6173737572646f 4254 (.o (.o (.o (.o .e 0x61737375726572 6299 .e) 0x61737469636f74 6300 .e) 0x617374696c6c61 2217 (.o .e 0x6174616361646f 10436 .e)) 0x61746164757261 10437 (.o (.o .e 0x6174617669636f 4259 .e) 0x61746569736d6f 4260 (.o .e 0x6174656c696572 6303 .e)))) 0x6174656e646572 10441 (.o (.o (.o (.o (.o .e 0x6174686c657465 113 .e) 0x6174696e676972 10444 .e) 0x61746f6d69636f 4261 (.o .e 0x61747261636172 10448 .e)) 0x61747461717565 6307 (.o (.o .e 0x61747469726572 6309 .e) 0x6174746f726e6f 4265 (.o .e 0x61747472616374 118 .e))) 0x6174747269746f 4266 (.o (.o (.o (.o .e 0x61747475616c65 4267 .e) 0x61756261696e65 6311 .e) 0x61756265726765 6312 (.o .e 0x61756374696f6e 119 .e)) 0x61756469626c65 6314 (.o (.o .e 0x61756469746f72 10453 .e) 0x61756775726572 6315 (.o .e 0x61756d656e746f 2237 .e))))) 0x617573656e7465 2238 (.o (.o (.o (.o (.o (.o .e 0x617573696c696f 4268 .e) 0x61757374726961 4269 .e) 0x61757469736d6f 10457 (.o .e 0x61757469737461 4270 .e)) 0x6175746f627573 8217 (.o (.o (.o .e 0x6175746f6d6e65 6317 .e) 0x6175746f726961 10458 .e) 0x617574756e6e6f 4272 (.o .e 0x6176616c696172 10460 .e))) 0x6176616e636572 6320 (.o (.o (.o (.o .e 0x61766172696365 6321 .e) 0x6176656e74616c 10463 .e) 0x61766572616765 126 (.o .e 0x61766575676c65 6324 .e)) 0x61766961646f72 10465 (.o (.o .e 0x6176696fcc816e 2247 .e) 0x61766f6361646f 127 (.o .e 0x617765736f6d65 132 .e)))) 0x61776b77617264 134 (.o (.o (.o (.o (.o .e 0x617a756c656a6f 10472 .e) 0x617a7a7572726f 4281 .e) 0x61cc816261636f 2048 (.o .e 0x61cc816369646f 2067 .e)) 0x61cc816c62756d 2112 (.o (.o .e 0x61cc816d626172 2140 .e) 0x61cc816e696d6f 2156 (.o .e 0x61cc8172626f6c 2184 .e))) 0x61cc817269646f 2192 (.o (.o (.o (.o .e 0x61cc817469636f 2227 .e) 0x61cc81746f6d6f 2229 .e) 0x62616363616e6f 4283 (.o .e 0x626163756c6b61 8222 .e)) 0x6261646174656c 8223 (.o (.o .e 0x62616465737361 4286 .e) 0x6261666f756572 6335 (.o .e 0x6261676167656d 10478 .e)))))
def mnemonicTree245 : Tree := .o mnemonicTree243 0x617369656e746f 2211 mnemonicTree244
def mnemonicTree246 : Tree := .o (.o (.o (.o (.o (.o (.o .e 0x62616869cc8161 2261 .e) 0x62616a756c6172 10484 .e) 0x62616c616e6365 141 (.o .e 0x62616c616e7a61 2264 .e)) 0x62616c636f6e65 4290 (.o (.o (.o .e 0x62616c636f6e79 142 .e) 0x62616c65696e65 6341 .e) 0x62616c65746b61 8229 (.o .e 0x62616c6c617461 4293 .e))) 0x62616c6f6e656b 8231 (.o (.o (.o (.o .e 0x62616c7a616e6f 4294 .e) 0x62616d62696e6f 4295 .e) 0x62616d6275cc81 2267 (.o .e 0x62616e64616765 6345 .e)) 0x62616e64697265 4296 (.o (.o .e 0x6261726261646f 10494 .e) 0x6261726261726f 4298 (.o .e 0x62617262696572 6349 .e)))) 0x6261726761696e 149 (.o (.o (.o (.o (.o .e 0x6261726c756d65 4301 .e) 0x6261726f63636f 4302 .e) 0x62617272616361 10496 (.o .e 0x62617272616765 6353 .e)) 0x626172756c686f 10497 (.o (.o (.o .e 0x6261736561646f 10498 .e) 0x62617374696f6e 6355 .e) 0x626174616c6c61 2278 (.o .e 0x62617465646f72 10501 .e))) 0x62617465726b61 8241 (.o (.o (.o (.o .e 0x6261746f737461 4305 .e) 0x6261747475746f 4306 .e) 0x62617475636172 10504 (.o .e 0x62617a616c6b61 8244 .e)) 0x62656361757365 158 (.o (.o .e 0x62656972616461 10508 .e) 0x62656c64616465 10510 (.o .e 0x62656c65747465 6361 .e))))) 0x62656c69657665 165 (.o (.o (.o (.o (.o (.o .e 0x62656e6469746f 10514 .e) 0x62656e65666974 169 .e) 0x62656e67616c61 10515 (.o .e 0x62656e69676e6f 4316 .e)) 0x62656e7a696e61 4317 (.o (.o (.o .e 0x62657263656175 6365 .e) 0x6265726c696e61 4319 .e) 0x6265726c696e65 6367 (.o .e 0x6265726d756461 6368 .e))) 0x6265736f676e65 6370 (.o (.o (.o (.o .e 0x6265736f75726f 10520 .e) 0x6265747765656e 173 .e) 0x62657a6572726f 10522 (.o .e 0x62657a696e6b61 8252 .e)) 0x62696265726f6e 6373 (.o (.t .e 0x62696379636c65 175 6374 .e) 0x6269666f63616c 10526 (.o .e 0x6269676f726e61 10528 .e)))) 0x62696c616e6365 8259 (.o (.o (.o (.o (.o .e 0x62696c68657465 10529 .e) 0x62696c6c617264 6379 .e) 0x62696d6f746f72 10531 (.o .e 0x62696e61697265 6380 .e)) 0x62696f67726166 8260 (.o (.o .e 0x62696f6c6f676f 4329 .e) 0x62696f6c6f6779 179 (.o .e 0x62696f70736965 6382 .e))) 0x62696f74797065 6383 (.o (.o (.o (.o .e 0x6269706f6c6172 10535 .e) 0x62697363756974 6384 .e) 0x6269736573746f 4335 (.o .e 0x6269736e65746f 10538 .e)) 0x6269736f6e7465 4337 (.o (.o .e 0x62697374757269 4338 .e) 0x62697a61727265 6388 (.o .e 0x62697a6172726f 10542 .e)))))
def mnemonicTree247 : Tree := .o (.o (.o (.o (.o (.o (.o .e 0x626c616e6b6574 186 .e) 0x626c6564756c65 8267 .e) 0x626c696e646572 6393 (.o .e 0x626c6f71756572 6395 .e)) 0x626c6f73736f6d 192 (.o (.o (.o .e 0x626c6f75646974 8272 .e) 0x626c6f75736f6e 6396 .e) 0x626f626167656d 10547 (.o .e 0x626f646c696e61 8276 .e))) 0x626f646e6f7574 8277 (.o (.o (.o (.o .e 0x626f6a6f766174 8280 .e) 0x626f6b6f727973 8281 .e) 0x626f6c6574696d 10553 (.o .e 0x626f6c6c69746f 4342 .e)) 0x626f6e68657572 6404 (.o (.o .e 0x626f7264757265 6407 .e) 0x626f7469cc816e 2316 (.o .e 0x626f7474696e6f 4347 .e)))) 0x626f7563686174 8287 (.o (.o (.o (.o (.o .e 0x626f757175696e 6414 .e) 0x626f7a7a6f6c6f 4348 .e) 0x6272616363696f 4349 (.o .e 0x627261636b6574 214 .e)) 0x6272616469706f 4350 (.o (.o .e 0x6272616e636865 6419 .e) 0x62726173696572 6420 (.o .e 0x62726176657a61 10568 .e))) 0x62726176757261 4353 (.o (.o (.o (.o .e 0x62726967616465 6426 .e) 0x627269676c6961 4357 .e) 0x6272696b657461 8297 (.o .e 0x6272696e636172 10572 .e)) 0x6272696f636865 6428 (.o (.o .e 0x62726f6e7a6572 6432 .e) 0x62726f736b6576 8301 (.o .e 0x62726f74686572 231 .e))))) 0x62726f75737365 6433 (.o (.o (.o (.o (.o (.o .e 0x62726f79657572 6434 .e) 0x62727573717565 6436 .e) 0x62727579616e74 6438 (.o .e 0x627562626f6e65 4365 .e)) 0x6275626c696e61 8306 (.o (.o (.o .e 0x62756469736d6f 10579 .e) 0x6275646974656c 8309 .e) 0x627566616e6461 2337 (.o .e 0x62756666616c6f 237 .e))) 0x627566666f6e65 4368 (.o (.o (.o (.o .e 0x6275666fcc816e 2338 .e) 0x62756973736f6e 6440 .e) 0x62756b76696365 8314 (.o .e 0x62757262756a61 2342 .e)) 0x6275726c6f6e65 4372 (.o (.o .e 0x627573736f6c61 4374 .e) 0x62757374696572 6444 (.o .e 0x627574696e6572 6445 .e)))) 0x62757661626c65 6447 (.o (.o (.o (.o (.o .e 0x62757665747465 6448 .e) 0x62757a6fcc816e 2347 .e) 0x6279746f766b61 8325 (.o .e 0x636162616c6c6f 2348 .e)) 0x636162616e6f6e 6449 (.o (.o .e 0x63616262616765 253 .e) 0x6361627269746f 10590 (.o .e 0x63616369717565 10594 .e))) 0x6361646561646f 10596 (.o (.o (.o (.o .e 0x6361646574746f 4376 .e) 0x636166657a616c 10597 .e) 0x63616961717565 10598 (.o .e 0x6361696c6c6f75 6455 .e)) 0x63616970697261 10599 (.o (.o .e 0x63616973736f6e 6456 .e) 0x636169786f7465 10600 (.o .e 0x636169cc816461 2357 .e)))))
def mnemonicTree248 : Tree := .o mnemonicTree246 0x626c6166617264 6389 mnemonicTree247
def mnemonicTree249 : Tree := .o mnemonicTree245 0x6261676e61746f 4288 mnemonicTree248
def mnemonicTree250 : Tree := .o mnemonicTree242 0x616e6e65786572 6255 mnemonicTree249
def mnemonicTree251 : Tree := .o mnemonicTree235 0x7663656c6b75 9992 mnemonicTree250
def mnemonicTree252 : Tree := .o mnemonicTree220 0x717561736172 7722 mnemonicTree251
def mnemonicTree253 : Tree := .o mnemonicTree189 0x65706f70656a 8510 mnemonicTree252
def mnemonicTree254 : Tree := .o mnemonicTree126 0x667269746f 2803 mnemonicTree253
def mnemonicTree255 : Tree := .o (.o (.o (.o (.o (.o (.o .e 0x63616c616d6172 2362 .e) 0x63616c636f6c6f 4379 .e) 0x63616c6570696e 6458 (.o .e 0x63616c65737365 4380 .e)) 0x63616c69627265 6459 (.o (.o (.o .e 0x63616c6962726f 4381 .e) 0x63616c69646164 2365 .e) 0x63616c6f726961 4383 (.o .e 0x63616d62757361 4384 .e))) 0x63616d656c6c6f 2372 (.o (.o (.o (.o .e 0x63616d69636961 4386 .e) 0x63616d6d696e6f 4387 .e) 0x63616d70616c65 4389 (.o .e 0x63616e64656c61 4391 .e)) 0x63616e65746f6e 6468 (.o (.o .e 0x63616e6775726f 2378 .e) 0x63616e67757275 10618 (.o .e 0x63616e686f746f 10619 .e)))) 0x63616e6f74746f 4394 (.o (.t (.o (.o (.o .e 0x63616e7361646f 10622 .e) 0x63616e74696e61 4395 .e) 0x63616e74696e65 6470 (.o .e 0x63616e756c6172 6471 .e)) 0x63617061626c65 271 6472 (.o (.o (.o .e 0x6361706163686f 10625 .e) 0x636170656c6c6f 4397 .e) 0x636170696e6172 10627 (.o .e 0x6361706974616c 272 .e))) 0x6361706f72616c 6473 (.o (.o (.o (.o .e 0x6361706f746172 10628 .e) 0x6361707065726f 4400 .e) 0x63617072696365 6474 (.o .e 0x63617073756c61 4402 .e)) 0x63617073756c65 6475 (.o (.o .e 0x6361707461696e 273 .e) 0x63617075636861 2389 (.o .e 0x63617075636865 6477 .e))))) 0x63617261636f6c 10632 (.o (.o (.o (.o (.o (.o .e 0x636172626f6e65 6479 .e) 0x636172626f6e6f 10633 .e) 0x6361726465616c 10634 (.o .e 0x63617265766e61 8328 .e)) 0x63617269626f75 6481 (.o (.o (.o .e 0x63617269736d61 4406 .e) 0x6361726e616765 6482 .e) 0x6361726f747465 6483 (.o .e 0x63617270657461 2397 .e))) 0x63617270657465 10638 (.o (.o (.o (.o .e 0x63617272656175 6484 .e) 0x63617363616465 6486 .e) 0x63617363617461 4411 (.o .e 0x63617365627265 10644 .e)) 0x63617365726d61 4412 (.o (.o .e 0x636173736f6e65 4414 .e) 0x63617373757265 6489 (.o .e 0x63617374656c6f 10645 .e)))) 0x63617375616c65 4416 (.o (.o (.o (.o (.o .e 0x636174616c6f67 287 .e) 0x63617461737461 4417 .e) 0x63617469766172 10648 (.o .e 0x6361746f726365 2405 .e)) 0x63617472616d65 4419 (.o (.t .e 0x63617574696f6e 293 6491 .e) 0x63617665726e61 10653 (.o .e 0x63617665726e65 6493 .e))) 0x636176696c6c6f 4421 (.o (.o (.o (.o .e 0x6365626f6c6c61 2410 .e) 0x636564696c6861 10655 .e) 0x63656472617461 4423 (.o .e 0x6365676f6e6861 10656 .e)) 0x6365696c696e67 295 (.o (.o .e 0x63656c65627265 4425 .e) 0x63656c6c756c65 6498 (.o .e 0x63656c6e696365 8336 .e)))))
def mnemonicTree256 : Tree := .o (.o (.o (.o (.o (.o (.o .e 0x63656d656e746f 2417 .e) 0x63656e6e6f7374 8338 .e) 0x63656e6f757261 10659 (.o .e 0x63656e6f766b61 8339 .e)) 0x63656e7465696f 10661 (.o (.o (.o .e 0x63656e7472616c 6501 .e) 0x63656e7472756d 8340 .e) 0x63656e74757279 299 (.o .e 0x63657263617265 4431 .e))) 0x6365727261646f 10663 (.o (.o (.o (.o .e 0x6365727461696e 301 .e) 0x63657274657a61 2425 .e) 0x63657276656175 6506 (.o .e 0x63657276656a61 10665 .e)) 0x636861636f7461 10668 (.o (.o .e 0x6368616772696e 6508 .e) 0x6368616c65636f 2429 (.o .e 0x6368616c657572 6510 .e)))) 0x6368616c757061 8344 (.o (.o (.o (.o (.o .e 0x6368616d61646f 10670 .e) 0x6368616d627265 6511 .e) 0x6368616e636c61 2431 (.o .e 0x63686170616461 10671 .e)) 0x63686170746572 307 (.o (.o (.o .e 0x63686172626f6e 6514 .e) 0x63686172697461 8346 .e) 0x63686174696365 10673 (.o .e 0x63686567616461 10676 .e))) 0x6368656d697365 6519 (.o (.o (.o (.o .e 0x63686963686f74 8350 .e) 0x636869636b656e 317 .e) 0x636869636f7465 10679 (.o .e 0x63686966667265 6525 .e)) 0x636869676e6f6e 6526 (.o (.o .e 0x6368696d657261 4442 .e) 0x6368696d6e6579 320 (.o .e 0x6368696e656c6f 10681 .e))))) 0x63686972757267 8351 (.o (.o (.o (.o (.o (.o .e 0x63686c75626974 8354 .e) 0x63686f63686f6c 8358 .e) 0x63686f69736972 6531 (.o .e 0x63686f6c657261 8360 .e)) 0x63686f6d6f7574 8361 (.o (.o (.o .e 0x63686f726f6261 8363 .e) 0x63687261706f74 8365 .e) 0x6368726f6e6963 323 (.o .e 0x636875636b6c65 324 .e))) 0x63687564696e61 8370 (.o (.o (.o (.o .e 0x6368756c657461 2439 .e) 0x636875746e6174 8371 .e) 0x636876696c6b61 8373 (.o .e 0x63687973746174 8376 .e)) 0x6369636c6f6e65 10688 (.o (.o .e 0x63696672617265 4448 .e) 0x6369676172726f 2447 (.o .e 0x6369676f676e65 6537 .e)))) 0x636968656c6e61 8380 (.o (.o (.o (.o (.o .e 0x63696d656e746f 10693 .e) 0x63696e74726572 6540 .e) 0x636972616e6461 10696 (.o .e 0x636972726f7369 4453 .e)) 0x63697275656c61 2454 (.o (.o .e 0x63697465726e65 6544 .e) 0x636974697a656e 330 (.o .e 0x6369746f79656e 6545 .e))) 0x6369747269636f 4454 (.o (.o (.o (.o .e 0x63697665747461 4457 .e) 0x63697a696e6563 8387 .e) 0x636c6169726f6e 6548 (.o .e 0x636c616d657572 6549 .e)) 0x636c6171756572 6550 (.o (.o .e 0x636c6172657a61 10700 .e) 0x636c6172696679 335 (.o .e 0x636c6176696572 6552 .e)))))
def mnemonicTree257 : Tree := .o mnemonicTree255 0x63656c756c6172 10658 mnemonicTree256
def mnemonicTree258 : Tree := .o (.o (.o (.o (.o (.o (.o .e 0x636c69676e6572 6554 .e) 0x636c696e696361 4460 .e) 0x636c6976616765 6556 (.o .e 0x636c6f6e616765 6558 .e)) 0x636c7573746572 355 (.o (.o (.o .e 0x636f6361737365 6562 .e) 0x636f6368696e6f 2468 .e) 0x636f636f6e7574 359 (.o .e 0x636f646172646f 4463 .e))) 0x636f656e74726f 10712 (.o (.o (.o (.o .e 0x636f676e6f6d65 4466 .e) 0x636f6966666572 6569 .e) 0x636f696e636572 6570 (.o .e 0x636f6a69cc816e 2476 .e)) 0x636f6b6f6c6976 8390 (.o (.o .e 0x636f6c6567696f 2480 .e) 0x636f6c65697261 10719 (.o .e 0x636f6c69627269 6572 .e)))) 0x636f6c69646972 10721 (.o (.o (.o (.o (.o .e 0x636f6c6c617265 4467 .e) 0x636f6c6c656374 364 .e) 0x636f6c6c696e65 6573 (.o .e 0x636f6c6d61746f 4468 .e)) 0x636f6c6d656961 10722 (.o (.o (.o .e 0x636f6c6f6e656c 6575 .e) 0x636f6c706f736f 4470 .e) 0x636f6c756d6e61 2485 (.o .e 0x636f6d616e646f 10725 .e))) 0x636f6d62617465 2486 (.o (.o (.o (.o .e 0x636f6d62696e65 367 .e) 0x636f6d666f7274 369 .e) 0x636f6d6f766572 10729 (.o .e 0x636f6d70616374 6579 .e)) 0x636f6d70616e79 372 (.o (.t .e 0x636f6e63657274 373 6580 .e) 0x636f6e6369736f 4479 (.o .e 0x636f6e64756374 374 .e))))) 0x636f6e66696572 6582 (.o (.o (.o (.o (.o (.o .e 0x636f6e6669726d 375 .e) 0x636f6e6675736f 10735 .e) 0x636f6e69756765 4483 (.o .e 0x636f6e6e656374 377 .e)) 0x636f6e6f636572 2494 (.o (.o (.o .e 0x636f6e73656a6f 2495 .e) 0x636f6e73756d6f 4486 .e) 0x636f6e74616374 6586 (.o .e 0x636f6e74726f6c 379 .e))) 0x636f6e76657865 6587 (.o (.o (.o (.o .e 0x636f6e76697465 10741 .e) 0x636f706569726f 10743 .e) 0x636f706572746f 4489 (.o .e 0x636f70696f6e65 4490 .e)) 0x636f726167656d 10747 (.o (.o .e 0x636f72617a7a61 4493 .e) 0x636f7262617461 2500 (.o .e 0x636f7262656175 6591 .e)))) 0x636f7264616765 6592 (.o (.o (.o (.o (.o .e 0x636f7264617461 4494 .e) 0x636f726469616c 10748 .e) 0x636f726e657461 10749 (.o .e 0x636f726e696365 4496 .e)) 0x636f726f6c6c61 4497 (.t (.o .e 0x636f726f6e6861 10750 .e) 0x636f7272656374 388 6595 (.o .e 0x636f727265646f 4499 .e))) 0x636f727265696f 10752 (.o (.o (.o (.o .e 0x636f7274656a6f 10753 .e) 0x636f7274657365 4501 .e) 0x636f736d69636f 4502 (.o .e 0x636f7373656e6f 10756 .e)) 0x636f7374656c61 10757 (.o (.o .e 0x636f7374756d65 6598 .e) 0x636f7474757261 4504 (.o .e 0x636f756e747279 392 .e)))))
def mnemonicTree259 : Tree := .o (.o (.o (.o (.o (.o (.o .e 0x636f7572616765 6602 .e) 0x636f7574656175 6603 .e) 0x636f7576726972 6604 (.o .e 0x636f7a696e6861 10762 .e)) 0x637261696e7465 6607 (.o (.o (.o .e 0x63726174657261 10763 .e) 0x63726174657265 4506 .e) 0x63726176617465 6608 (.o .e 0x63726564657265 4509 .e))) 0x6372656d6f736f 4510 (.o (.o (.o (.o .e 0x63726575736572 6613 .e) 0x637269626c6572 6615 .e) 0x6372696365746f 4513 (.o .e 0x637269636b6574 411 .e)) 0x6372696e616c65 4514 (.o (.o .e 0x6372696f756c6f 10772 .e) 0x6372697374616c 6617 (.o .e 0x6372697469636f 4516 .e)))) 0x63726f6e616361 4518 (.o (.o (.t (.o (.o .e 0x63726f71756572 6620 .e) 0x63726f74616c65 6621 .e) 0x6372756369616c 419 6622 (.o .e 0x6372756d626c65 422 .e)) 0x63727970746572 6624 (.o (.o .e 0x6372797374616c 426 .e) 0x63756269717565 6625 (.o .e 0x63756368617261 2528 .e))) 0x6375646e6f7374 8394 (.o (.o (.o (.o .e 0x6375696461646f 10780 .e) 0x63756973696e65 6628 .e) 0x63756c61747261 10782 (.o .e 0x63756c65627261 2535 .e)) 0x63756c6c61746f 4525 (.o (.o .e 0x63756c74757261 10785 .e) 0x63756c74757265 428 (.o .e 0x63756d706c6972 2539 .e))))) 0x63756d70726972 10786 (.o (.o (.o (.o (.o (.o .e 0x63756d756c6572 6632 .e) 0x63756e6861646f 10787 .e) 0x6375706fcc816e 2543 (.o .e 0x63757261746966 6634 .e)) 0x637572696f736f 2546 (.o (.o (.o .e 0x637572696f7573 431 .e) 0x63757272656e74 432 .e) 0x63757273657572 6635 (.o .e 0x637572736f7265 4528 .e))) 0x6375727461696e 433 (.o (.o (.o (.o .e 0x63757363696e6f 4530 .e) 0x63757368696f6e 435 .e) 0x63757374656172 10794 (.o .e 0x637573746f6465 4531 .e)) 0x6379616e757265 6636 (.o (.o .e 0x63796e69717565 6639 .e) 0x646169676e6572 6640 (.o .e 0x64616c6d617461 4534 .e)))) 0x64616d6173636f 10796 (.o (.o (.o (.o (.o .e 0x64616e69656c61 4536 .e) 0x64616e6e6f736f 4537 .e) 0x64616e73657572 6643 (.o .e 0x64616e7a617265 4538 .e)) 0x6461757068696e 6644 (.o (.o .e 0x646176616e7469 4540 .e) 0x6461767665726f 4541 (.o .e 0x6461cc8174696c 2554 .e))) 0x64656261746572 10798 (.o (.o (.o (.o .e 0x64656269746172 10799 .e) 0x6465626f636865 10800 .e) 0x6465627574746f 4542 (.o .e 0x6465636962656c 8410 .e)) 0x646563696d616c 10803 (.o (.o .e 0x6465636c696e65 455 .e) 0x6465636c696e6f 4545 (.o .e 0x6465636c697665 10804 .e)))))
def mnemonicTree260 : Tree := .o mnemonicTree258 0x636f7570757265 6601 mnemonicTree259
def mnemonicTree261 : Tree := .o mnemonicTree257 0x636c69656e7465 2463 mnemonicTree260
def mnemonicTree262 : Tree := .o (.o (.o (.o (.o (.o (.o .e 0x6465637265746f 4547 .e) 0x646564757a6972 10809 .e) 0x646566656e7361 2560 (.o .e 0x646566656e7365 459 .e)) 0x64656669636974 8411 (.o (.o (.o .e 0x646566696e6972 2561 .e) 0x6465666c616365 8412 .e) 0x6465666f726d65 4550 (.o .e 0x646566756d6172 10811 .e))) 0x6465697461646f 10815 (.o (.o (.o (.o .e 0x64656c61746f72 10817 .e) 0x64656c66696e6f 4553 .e) 0x64656c6761646f 2564 (.o .e 0x64656c6972696f 4554 .e)) 0x64656c69766572 464 (.o (.o .e 0x64656c6f6e6761 10820 .e) 0x64656d616e6461 10821 (.o .e 0x64656d656e7a61 4556 .e)))) 0x64656d69746972 10822 (.o (.o (.o (.o (.o .e 0x64656e74697374 468 .e) 0x646570696c6172 10826 .e) 0x6465706f727465 2569 (.o .e 0x6465706f736974 472 .e)) 0x64657072657365 8416 (.o (.o (.o .e 0x64657075726172 10829 .e) 0x6465726563686f 2570 .e) 0x646572726f7461 2571 (.o .e 0x6465736166696f 10832 .e))) 0x646573656e686f 10835 (.o (.o (.o (.o .e 0x6465736572746f 4564 .e) 0x64657366696c65 2574 .e) 0x6465736c697a65 10839 (.o .e 0x6465736e75646f 2575 .e)) 0x64657370616972 480 (.o (.o .e 0x64657370657361 10842 .e) 0x64657374696e6f 2576 (.o .e 0x64657374726f79 481 .e))))) 0x64657376696172 10844 (.o (.o (.o (.o (.o (.o .e 0x646574616c6c65 2578 .e) 0x646574656e6572 2579 .e) 0x6465746f6e6172 10847 (.o .e 0x6465747269746f 10848 .e)) 0x646576656c6f70 484 (.o (.o (.o .e 0x646576656e6972 6697 .e) 0x646576696e6572 6698 .e) 0x6465cc8162696c 2556 (.o .e 0x64696164656d61 2583 .e))) 0x6469616772616d 487 (.t (.o (.o (.o .e 0x6469616c65746f 10855 .e) 0x6469616d616e74 6702 .e) 0x6469616d6f6e64 489 (.o .e 0x6469666675736f 4573 .e)) 0x6469676974616c 495 6706 (.o (.o .e 0x64696769746172 10858 .e) 0x6469676e697479 496 (.o .e 0x64696c656d6d61 497 .e)))) 0x64696c7576696f 4576 (.o (.o (.o (.o (.o .e 0x64696f63657365 10864 .e) 0x64696f78796465 6711 .e) 0x646970696e746f 4579 (.o .e 0x6469706c6f6d61 4580 .e)) 0x6469726563746f 2597 (.o (.o .e 0x64697269676572 6713 .e) 0x64697269676972 2598 (.o .e 0x6469726f74746f 4584 .e))) 0x6469736167696f 4586 (.o (.o (.o (.o .e 0x64697365617365 504 .e) 0x64697366617265 4588 .e) 0x6469736672617a 2601 (.o .e 0x64697367656c6f 4589 .e)) 0x6469736d697373 506 (.o (.o .e 0x6469737061726f 10868 .e) 0x646973706c6179 508 (.o .e 0x646973706c656a 8425 .e)))))
def mnemonicTree263 : Tree := .o (.o (.o (.o (.o (.o (.o .e 0x64697661646c6f 8426 .e) 0x646976656c746f 4595 .e) 0x6469766572736f 10874 (.o .e 0x64697669736572 6719 .e)) 0x64697669736f72 10875 (.o (.o (.o .e 0x6469766f726365 512 .e) 0x646f626c6f6e65 4598 .e) 0x646f627974656b 8433 (.o .e 0x646f63656e7465 4599 .e))) 0x646f6374657572 6721 (.o (.o (.o (.o .e 0x646f6a6e696365 8441 .e) 0x646f6c7068696e 518 .e) 0x646f6d61646f72 10880 (.o .e 0x646f6d61696e65 6724 .e)) 0x646f6d696e676f 2607 (.o (.o .e 0x646f6d70746572 6726 .e) 0x646f6e646f6c6f 4606 (.o .e 0x646f6e75746974 8453 .e)))) 0x646f6e7a656c61 10883 (.o (.o (.o (.o (.o .e 0x646f706c6e6974 8456 .e) 0x646f706f737564 8457 .e) 0x646f72617a6974 8460 (.o .e 0x646f726d697265 4608 .e)) 0x646f72746f6972 6731 (.o (.o (.o .e 0x646f736167656d 10886 .e) 0x646f7373696572 6735 .e) 0x646f74746f7265 4610 (.o .e 0x646f7563657572 6739 .e))) 0x646f757261646f 10887 (.o (.o (.o (.o .e 0x646f75746e6174 8472 .e) 0x646f766f7a6365 8473 .e) 0x646f7a6f726365 8476 (.o .e 0x646f7a7a696e61 4612 .e)) 0x647261686f7461 8477 (.o (.o .e 0x64726173746963 530 .e) 0x64726573736572 6744 (.o .e 0x6472736e6f7374 8486 .e))))) 0x6475656ecc836f 2620 (.o (.o (.o (.o (.o (.o .e 0x6475686f766b61 8493 .e) 0x64757065726965 6747 .e) 0x6475706c657865 6748 (.o .e 0x6475706c696365 4620 .e)) 0x64757175657361 10896 (.o (.o (.o .e 0x64757261626c65 6749 .e) 0x647572616e7465 10897 .e) 0x64766f6a696365 8497 (.o .e 0x64796e616d6963 550 .e))) 0x64796e616d6974 8499 (.o (.o (.o (.o .e 0x6563636573736f 4623 .e) 0x65636c69737369 4625 .e) 0x65636c6f646972 10899 (.o .e 0x65636f6c6f6779 560 .e)) 0x65636f6e6f6d79 561 (.o (.o .e 0x65637561646f72 2631 .e) 0x656469636f6c61 4628 (.o .e 0x6564756361646f 10904 .e)))) 0x65647563617265 4631 (.o (.o (.o (.o (.o .e 0x65647563617465 564 .e) 0x65666661636572 6772 .e) 0x65666669676965 6774 (.o .e 0x65676f69736d6f 4634 .e)) 0x6567726567696f 4635 (.o (.o .e 0x656a656d706c6f 2640 .e) 0x656c6567616e74 572 (.o .e 0x656c6569746f72 10910 .e))) 0x656c656d656e74 573 (.o (.o (.o (.o .e 0x656c6576617265 4641 .e) 0x656c6f67696172 10914 .e) 0x656d616e61746f 4647 (.o .e 0x656d626172676f 10915 .e)) 0x656d626c656d61 4648 (.o (.o .e 0x656d6272616365 580 .e) 0x656d6272796f6e 6794 (.o .e 0x656d6572676972 10920 .e)))))
def mnemonicTree264 : Tree := .o mnemonicTree262 0x64697461646f72 10872 mnemonicTree263
def mnemonicTree265 : Tree := .o (.o (.o (.o (.o (.o (.o .e 0x656d6d656e6572 6797 .e) 0x656d6f74696f6e 582 .e) 0x656d6f7469766f 4651 (.o .e 0x656d7061746961 10922 .e)) 0x656d7061746965 8507 (.o (.o (.o .e 0x656d70656e686f 10923 .e) 0x656d706f776572 584 .e) 0x656d707265676f 10926 (.o .e 0x656d7072657361 2656 .e))) 0x656d7072697365 6803 (.o (.o (.o (.o .e 0x656e6361697865 10929 .e) 0x656e636172676f 2658 .e) 0x656e6368756665 2659 (.o .e 0x656e6369cc8161 2660 .e)) 0x656e636c617665 6807 (.o (.o .e 0x656e636f636865 6808 .e) 0x656e646c657373 589 (.o .e 0x656e646f727365 590 .e)))) 0x656e64726f6974 6811 (.o (.o (.o (.o (.o .e 0x656e6475697265 6812 .e) 0x656e656d69676f 2661 .e) 0x656e6572676961 4657 (.o .e 0x656e66616e6365 6814 .e)) 0x656e6665697465 10936 (.o (.o (.o .e 0x656e6665726d6f 2664 .e) 0x656e666f726365 593 .e) 0x656e666f756972 6816 (.o .e 0x656e6761676572 6817 .e))) 0x656e67656e686f 10939 (.o (.o (.o (.o .e 0x656e68616e6365 596 .e) 0x656e6c61746172 10945 .e) 0x656e6c65766572 6823 (.o .e 0x656e6f74656361 4659 .e)) 0x656e7275676172 10949 (.o (.o .e 0x656e7365616461 10951 .e) 0x656e74616e746f 10954 (.o .e 0x656e746561646f 10955 .e))))) 0x656e7472616461 10958 (.o (.o (.o (.o (.o (.o .e 0x656e7472617265 4660 .e) 0x656e74756c686f 10959 .e) 0x656e7661686972 6835 (.o .e 0x656e766961646f 10961 .e)) 0x656e7669cc816f 2675 (.o (.o (.o .e 0x656e766f796572 6837 .e) 0x656e786572746f 10964 .e) 0x656e786f667265 10965 (.o .e 0x65706174697465 4662 .e))) 0x6570696c6f676f 4663 (.o (.o (.o (.o .e 0x657069736f6465 607 .e) 0x6570697a6f6461 8508 .e) 0x65706f63616c65 4665 (.o .e 0x65717569706172 10968 .e)) 0x6572656d697461 4672 (.o (.o .e 0x6572677569646f 10970 .e) 0x65726967657265 4673 (.o .e 0x65726f73696f6e 613 .e)))) 0x65726f7369766f 4676 (.o (.o (.o (.o (.o .e 0x657272616e7465 4677 .e) 0x657276696c6861 10973 .e) 0x657361676f6e6f 4678 (.o .e 0x6573616e696d65 4680 .e)) 0x657362656c746f 10975 (.o (.o .e 0x6573636f6c6172 2681 .e) 0x65736372697461 10978 (.o .e 0x6573656d70696f 4683 .e))) 0x6573656e636961 2684 (.o (.o (.o (.o .e 0x657366696e6765 10980 .e) 0x6573666f6c6172 10981 .e) 0x65736772696d61 10984 (.o .e 0x6573696269746f 4685 .e)) 0x65736b6f727461 8514 (.o (.o .e 0x65736d616c7465 10985 .e) 0x65736f6661676f 4689 (.o .e 0x65737061646f6e 6862 .e)))))
def mnemonicTree266 : Tree := .o (.o (.o (.o (.o (.o (.o .e 0x657370616e746f 10986 .e) 0x657370656c686f 10987 .e) 0x65737069cc8161 2689 (.o .e 0x6573706f6e6a61 10989 .e)) 0x657370756d6172 10991 (.t (.o (.o .e 0x6573717569cc81 2692 .e) 0x65737361796572 6868 .e) 0x657373656e6365 618 6869 (.o .e 0x657373656e7a61 4694 .e))) 0x6573736f726572 6871 (.o (.o (.o (.o .e 0x65737465697261 10994 .e) 0x65737469636172 10995 .e) 0x6573746f6d6163 6873 (.o .e 0x6573746f6e6961 4698 .e)) 0x65737472616465 6874 (.o (.o .e 0x65737472656c61 10997 .e) 0x657374726f736f 4699 (.o .e 0x657465726e616c 620 .e)))) 0x6574696b657461 8516 (.o (.o (.o (.o (.o .e 0x6574696c69636f 4701 .e) 0x6574727573636f 4703 .e) 0x6575666f726961 11002 (.o .e 0x6575666f726965 8517 .e)) 0x6575726f706575 11003 (.o (.o .e 0x65766163756172 11004 .e) 0x6576616c756172 2702 (.o .e 0x6576617369766f 11006 .e))) 0x6576697461746f 4709 (.o (.o (.o (.o .e 0x65766f6c756365 8518 .e) 0x65766f6c756972 11009 .e) 0x65766f6c75746f 4710 (.o .e 0x6578616765726f 11010 .e)) 0x6578616d706c65 627 (.o (.o .e 0x65786175636572 6903 .e) 0x6578617573746f 11014 (.o .e 0x6578636573736f 11015 .e))))) 0x65786369746172 11016 (.o (.o (.o (.o (.o (.o .e 0x6578636c756465 631 .e) 0x65786563757465 633 .e) 0x6578656b756365 8519 (.o .e 0x6578656d706c65 6909 .e)) 0x6578656d706c6f 11019 (.o (.o (.o .e 0x65786572636572 6910 .e) 0x657868616c6572 6911 .e) 0x65786861757374 635 (.o .e 0x65786869626974 636 .e))) 0x65786973746572 6915 (.o (.o (.o (.o .e 0x65786973746972 2712 .e) 0x65786b75727a65 8520 .e) 0x657870656c6972 11024 (.o .e 0x6578706572746f 2714 .e)) 0x65787069726172 11025 (.o (.o .e 0x6578706c61696e 644 .e) 0x6578706c6f7a65 8522 (.o .e 0x6578706f6e6572 2716 .e)))) 0x6578706f736572 6919 (.o (.o (.o (.o (.o .e 0x6578706f73746f 11027 .e) 0x65787072657373 646 .e) 0x65787465726e6f 11030 (.o .e 0x657874696e746f 11031 .e)) 0x65787472616b74 8524 (.o (.o .e 0x6578747261746f 11032 .e) 0x65787472656d6f 2717 (.o .e 0x6578756c746572 6924 .e))) 0x65796562726f77 650 (.o (.o (.o (.o .e 0x65cc8162616e6f 2627 .e) 0x65cc81636f6c65 6760 .e) 0x65cc8163726f75 6767 (.o .e 0x65cc8163756d65 6768 .e)) 0x65cc816c697465 2646 (.o (.o .e 0x65cc816c6f6765 6789 .e) 0x65cc8170696572 6846 (.o .e 0x65cc8170696e65 6848 .e)))))
def mnemonicTree267 : Tree := .o mnemonicTree265 0x657370616e736f 4692 mnemonicTree266
def mnemonicTree268 : Tree := .o mnemonicTree264 0x656d6973736f72 10921 mnemonicTree267
def mnemonicTree269 : Tree := .o mnemonicTree261 0x6465636f6c6c6f 4546 mnemonicTree268
def mnemonicTree270 : Tree := .o (.o (.o (.o (.o (.o (.o .e 0x65cc8174696361 2699 .e) 0x65cc8174756465 6892 .e) 0x65cc817869746f 2713 (.o .e 0x66616365747465 6927 .e)) 0x66616368616461 2720 (.o (.o (.o .e 0x6661636869726f 4714 .e) 0x66616374757265 6929 .e) 0x666163756c7479 653 (.o .e 0x666169626c6972 6930 .e))) 0x66616b756c7461 8527 (.o (.o (.o (.o .e 0x66616c61697365 6931 .e) 0x66616d696c6961 2730 .e) 0x66616d696c6c65 6933 (.o .e 0x66616e6174696b 8528 .e)) 0x66616e66617261 4718 (.o (.o .e 0x66616e74617379 664 .e) 0x66617263657572 6934 (.o .e 0x6661726461646f 11046 .e)))) 0x66617266656c75 6935 (.o (.o (.o (.o (.o .e 0x666172696e6861 11048 .e) 0x6661726d61636f 4724 .e) 0x66617274757261 11051 (.o .e 0x66617368696f6e 666 .e)) 0x666173746f736f 4726 (.o (.t (.o .e 0x666173756c6c6f 4727 .e) 0x66617469677565 670 6940 .e) 0x6661766f726974 8531 (.o .e 0x66617a656e6461 11056 .e))) 0x6661cc8163696c 2721 (.o (.o (.o (.o .e 0x66656174757265 673 .e) 0x6665627265726f 2741 .e) 0x6665636861646f 11057 (.o .e 0x6665646572616c 675 .e)) 0x66656a65746f6e 8534 (.o (.o .e 0x66656d6d696e61 4737 .e) 0x66656e64657265 4738 (.o .e 0x66656e646f6972 6951 .e))))) 0x6665726961646f 11065 (.o (.o (.o (.o (.o (.o .e 0x66657274696c65 4742 .e) 0x66657276657572 6955 .e) 0x66657373757261 4743 (.o .e 0x6665737469766f 4744 .e)) 0x666575696c6c65 6957 (.o (.o (.o .e 0x6665cc816c696e 6948 .e) 0x6665cc816d7572 6950 .e) 0x666962726f7365 11072 (.o .e 0x666963656c6572 6961 .e))) 0x66696374696f6e 686 (.o (.o (.o (.o .e 0x66696475636961 4748 .e) 0x66696c65697261 11076 .e) 0x66696c6c65756c 6968 (.o .e 0x66696c6f7a6f66 8538 .e)) 0x66696c74726172 11079 (.o (.o .e 0x66696c74726572 6971 .e) 0x66696e616e6365 8540 (.o .e 0x66696e616e7a61 4752 .e)))) 0x6669726d657a61 11080 (.o (.o (.o (.o (.o .e 0x66697363616c65 4756 .e) 0x66697367616461 11081 .e) 0x66697373757261 11082 (.o .e 0x66697373757265 6976 .e)) 0x6669746e657373 703 (.o (.o .e 0x66697861646f72 11085 .e) 0x666c61636f6e65 4759 (.o .e 0x666c6169726572 6978 .e))) 0x666c616e656c61 11089 (.o (.o (.o (.o .e 0x666c6173717565 6980 .e) 0x666c6578696f6e 6985 .e) 0x666c65cc816175 6982 (.o .e 0x666c6f7269646f 4763 .e)) 0x666c6f74696c61 8546 (.o (.o .e 0x666c75656e7465 4764 .e) 0x666c7574756172 11092 (.o .e 0x666c757669616c 6990 .e)))))
def mnemonicTree271 : Tree := .o (.o (.o (.o (.o (.o (.o .e 0x666f63696e686f 11095 .e) 0x666f666f636172 11096 .e) 0x666f676fcc816e 2784 (.o .e 0x666f6775657465 11098 .e)) 0x666f6c6761646f 11100 (.o (.o (.o .e 0x666f6c676f7265 4773 .e) 0x666f6c6865746f 11101 .e) 0x666f6c6c65746f 2786 (.o .e 0x666f6e74616e61 4777 .e))) 0x666f726269746f 4778 (.o (.o (.o (.o .e 0x666f7265737461 4780 .e) 0x666f726d696361 4781 .e) 0x666f726d696761 11103 (.o .e 0x666f726e61696f 4782 .e)) 0x666f7274756e61 2790 (.o (.t .e 0x666f7274756e65 732 6998 .e) 0x666f7277617264 734 (.o .e 0x666f727a617265 4785 .e)))) 0x666f736661746f 4786 (.o (.t (.o (.o (.o .e 0x666f7373696c65 6999 .e) 0x666f756c757265 7003 .e) 0x6672616361736f 2794 (.o .e 0x66726167617461 11108 .e)) 0x66726167696c65 739 7005 (.o (.o (.o .e 0x66726170706572 7008 .e) 0x66726179657572 7009 .e) 0x667265696e6572 7011 (.o .e 0x66726569cc8172 2799 .e))) 0x6672656e617461 4793 (.o (.o (.o (.o .e 0x667265cc807265 7015 .e) 0x66726961626c65 7016 .e) 0x66726973736f6e 7018 (.o .e 0x66726974757261 11118 .e)) 0x667269766f6c65 7019 (.o (.o .e 0x66726f6d616765 7021 .e) 0x66726f6e74616c 7022 (.o .e 0x66726f74746572 7023 .e))))) 0x66727567616c65 4798 (.o (.o (.o (.o (.o (.o .e 0x66756769746966 7025 .e) 0x66756c6967656d 11124 .e) 0x66756c6d696e65 4803 (.o .e 0x66756d616e7465 4805 .e)) 0x66756d6574746f 4806 (.o (.o (.o .e 0x66757261646f72 11128 .e) 0x667572676f6e65 4812 .e) 0x66757269657578 7028 (.o .e 0x667572696f736f 11129 .e))) 0x6675726e616365 754 (.o (.o (.o (.o .e 0x66757465626f6c 11130 .e) 0x676169766f7461 11136 .e) 0x67616c6174656f 4818 (.o .e 0x67616c61786965 7033 .e)) 0x67616c65726965 7034 (.o (.o .e 0x67616c696e6861 11139 .e) 0x67616c6c657279 760 (.o .e 0x67616c6c696e61 4819 .e)))) 0x67616c6f636861 11140 (.o (.o (.o (.o (.o .e 0x67616c6f70706f 4820 .e) 0x67616d6265726f 4821 .e) 0x6761726167656d 11142 (.o .e 0x67617262616765 764 .e)) 0x6761726469656e 7037 (.o (.o .e 0x67617267616c6f 11144 .e) 0x676172696d706f 11145 (.o .e 0x6761726d656e74 767 .e))) 0x6761726f757061 11146 (.o (.o (.o (.o .e 0x67617272616661 11147 .e) 0x6761727a6f6e65 4826 .e) 0x6761736f6c696f 4828 (.o .e 0x676174696c686f 11151 .e)) 0x67617a656c6c65 7040 (.o (.o .e 0x67656d656c6c6f 4837 .e) 0x67656d6d61746f 4838 (.o .e 0x67656e6572616c 774 .e)))))
def mnemonicTree272 : Tree := .o mnemonicTree270 0x666c75cc816f72 2780 mnemonicTree271
def mnemonicTree273 : Tree := .o (.o (.o (.o (.o (.o (.o .e 0x67656e6e61696f 4841 .e) 0x67656e75696e65 778 .e) 0x67657261646f72 11166 (.o .e 0x676572616e696f 2841 .e)) 0x676572656e7465 2842 (.o (.o (.o .e 0x6765737475656c 7054 .e) 0x67657374757265 779 .e) 0x6765cc81616e74 7042 (.o .e 0x6765cc816e6965 7047 .e))) 0x676967616e7465 2845 (.o (.o (.o (.o .e 0x67696e61737461 11170 .e) 0x67696e63616e61 11171 .e) 0x67696e6570726f 4849 (.o .e 0x67696e6761646f 11172 .e)) 0x67696f63617265 4850 (.o (.o .e 0x67697261666665 785 .e) 0x67697474617461 4856 (.o .e 0x6769757261746f 4858 .e)))) 0x676c616369616c 11175 (.o (.o (.o (.o (.o .e 0x676c6163696172 2849 .e) 0x676c617a757261 8563 .e) 0x676c69636f7365 11176 (.o .e 0x676c696d707365 793 .e)) 0x676c6973736572 7062 (.o (.o (.o .e 0x676c6f62756c6f 4860 .e) 0x676c7574696e65 4861 .e) 0x676f6464657373 801 (.o .e 0x676f6c66657572 7066 .e))) 0x676f6c70656172 11182 (.o (.o (.o (.o .e 0x676f6d6d6f6e65 4866 .e) 0x676f6e666c6572 7068 .e) 0x676f7264757261 11183 (.o .e 0x676f72696c6c61 805 .e)) 0x676f72696c6c65 7070 (.o (.o .e 0x676f726a657461 11184 .e) 0x676f73746f736f 11186 (.o .e 0x676f7465697261 11187 .e))))) 0x676f7564726f6e 7071 (.o (.o (.o (.o (.o (.o .e 0x676f7566667265 7072 .e) 0x676f7665726e6f 4869 .e) 0x67726163656a6f 11189 (.o .e 0x67726163696c65 4870 .e)) 0x6772616475616c 11190 (.o (.o (.o .e 0x6772616475656c 7077 .e) 0x6772616669636f 4872 .e) 0x67726166697465 11191 (.o .e 0x6772616e616461 11194 .e))) 0x6772616e756c65 8570 (.o (.o (.o (.o .e 0x6772617070696e 7081 .e) 0x67726174756974 7082 .e) 0x6772617665746f 11196 (.o .e 0x67726176697479 816 .e)) 0x677261766f736f 4876 (.o (.o .e 0x6772656c686172 11199 .e) 0x677269666f6e65 4880 (.o .e 0x6772696c6c6572 7086 .e)))) 0x6772696d706572 7087 (.o (.o (.o (.o (.o .e 0x67726f63657279 822 .e) 0x67726f676e6572 7088 .e) 0x67726f6e646572 7089 (.o .e 0x6772756461646f 11206 .e)) 0x67727574696572 7093 (.o (.o .e 0x67756172616e69 11210 .e) 0x67756172646961 2881 (.o .e 0x67756964617265 4890 .e))) 0x6775696e63686f 11214 (.o (.o (.o (.o .e 0x6775696ecc836f 2884 .e) 0x6775697361646f 11215 .e) 0x67756974617265 7099 (.o .e 0x68616269746172 11219 .e)) 0x686163686f6972 7104 (.o (.o .e 0x68616c656e6b61 8579 .e) 0x68616d73746572 837 (.o .e 0x68616e6f706973 8581 .e)))))
def mnemonicTree274 : Tree := .o (.o (.o (.o (.o (.o (.o .e 0x68617270756e61 8583 .e) 0x68617276657374 843 .e) 0x6861cc8162696c 2891 (.o .e 0x686562696c6c61 2901 .e)) 0x6865626b6f7374 8585 (.o (.o (.o .e 0x68656374617265 11223 .e) 0x68656a746d616e 8588 .e) 0x68656d61746f6d 8591 (.o .e 0x68657265736961 11225 .e))) 0x6865726d616e6f 2908 (.o (.o (.o (.o .e 0x6865726d696e65 7117 .e) 0x68657369746172 11226 .e) 0x68657572657578 7120 (.o .e 0x6865cc81726f65 2909 .e)) 0x6865cc81726f6e 7118 (.o (.o .e 0x68696769656e65 2914 .e) 0x68697069736d6f 11232 (.o .e 0x6869706e6f7365 11233 .e)))) 0x686973746f7279 865 (.o (.o (.o (.o (.o .e 0x686c7562696e61 8606 .e) 0x686e6f6a69766f 8612 .e) 0x686f626c696e61 8614 (.o .e 0x686f646e6f7461 8619 .e)) 0x686f646f766174 8620 (.o (.o .e 0x686f6775657261 2920 .e) 0x686f6a6e6f7374 8621 (.o .e 0x686f6c69646179 870 .e))) 0x686f6c696e6b61 8623 (.o (.o (.o (.o .e 0x686f6d6d616765 7127 .e) 0x686f6e6573746f 11238 .e) 0x686f6e69746261 8627 (.o .e 0x686f6e6e657572 7129 .e)) 0x686f6e6f726572 7130 (.o (.o .e 0x686f6e7261646f 11239 .e) 0x686f6e74657578 7131 (.o .e 0x686f72697a6f6e 7133 .e))))) 0x686f726c6f6765 7134 (.o (.o (.o (.o (.o (.o .e 0x686f726d696761 2927 .e) 0x686f726d6f6e65 7135 .e) 0x686f726e696e61 8635 (.o .e 0x686f727374766f 8637 .e)) 0x686f73706f6461 8638 (.o (.o (.o .e 0x686f7374696e61 8639 .e) 0x686f756c657578 7137 .e) 0x6872616e696365 8647 (.o .e 0x687261766f7374 8648 .e))) 0x6872626f6c656b 8650 (.o (.o (.o (.o .e 0x68726f6d616461 8656 .e) 0x687275626f7374 8661 .e) 0x6875626e6f7574 8664 (.o .e 0x6875696c657578 7140 .e)) 0x68756d696c6465 2940 (.o (.o .e 0x68756e64726564 889 .e) 0x68757362616e64 895 (.o .e 0x687573746f7461 8669 .e)))) 0x6879626e6f7374 8671 (.o (.o (.o (.o (.o .e 0x68796472616e74 8672 .e) 0x68796769656e61 8673 .e) 0x6879706e6f7365 7149 (.o .e 0x6964696c6c696f 4894 .e)) 0x69676c65736961 2949 (.o (.o .e 0x69676e6f726572 7151 .e) 0x696c6c6567616c 904 (.o .e 0x696c6c6e657373 905 .e))) 0x696c756469646f 11251 (.t (.o (.o (.o .e 0x696d62616c6c6f 4906 .e) 0x696d6269626572 7156 .e) 0x696d626f63636f 4908 (.o .e 0x696d6974617465 907 .e)) 0x696d6d656e7365 908 7158 (.o (.o .e 0x696d6d6572736f 4911 .e) 0x696d6f7274616c 11260 (.o .e 0x696d706163636f 4913 .e)))))
def mnemonicTree275 : Tree := .o mnemonicTree273 0x68617269636f74 7109 mnemonicTree274
def mnemonicTree276 : Tree := .o mnemonicTree272 0x67656e67697661 11161 mnemonicTree275
def mnemonicTree277 : Tree := .o (.o (.o (.o (.o (.o (.o .e 0x696d7065646972 11262 .e) 0x696d706572696f 2958 .e) 0x696d706965676f 4915 (.o .e 0x696d706f6e6572 2959 .e)) 0x696d706f72746f 4916 (.o (.o (.o .e 0x696d706f736572 7164 .e) 0x696d70726f7665 912 .e) 0x696d70756c7365 913 (.o .e 0x696d70756c736f 2960 .e))) 0x696d7075746572 7166 (.o (.o (.o (.o .e 0x696d756e697461 8680 .e) 0x696e616c617265 4918 .e) 0x696e617469766f 11270 (.o .e 0x696e63616e746f 4921 .e)) 0x696e636170617a 2961 (.o (.o .e 0x696e63656e736f 11271 .e) 0x696e6368696e6f 4923 (.o .e 0x696e6369646972 11273 .e)))) 0x696e636c756465 915 (.o (.o (.o (.o (.o .e 0x696e636c756972 11274 .e) 0x696e636c75736f 4925 .e) 0x696e636f6c6f72 11275 (.o .e 0x696e6465786572 7172 .e)) 0x696e6475746f72 11278 (.o (.o (.o .e 0x696e656469746f 4932 .e) 0x696e6570746965 7176 .e) 0x696e6578616374 7177 (.o .e 0x696e6661747469 4933 .e))) 0x696e66656b6365 8681 (.o (.o (.o (.o .e 0x696e666c616365 8682 .e) 0x696e666c696374 923 .e) 0x696e666f726d65 2965 (.o .e 0x696e6765676e6f 4937 .e)) 0x696e67656e696f 2966 (.o (.o .e 0x696e6765726972 11287 .e) 0x696e676c657365 4938 (.o .e 0x696e676f72646f 4939 .e))))) 0x696e68616c6572 7183 (.o (.o (.o (.o (.o (.o .e 0x696e6865726974 926 .e) 0x696e6869626572 7184 .e) 0x696e696269646f 11288 (.o .e 0x696e696369616c 11289 .e)) 0x696e696d69676f 11290 (.o (.o (.o .e 0x696e697469616c 927 .e) 0x696e6a65746172 11291 .e) 0x696e6d656e736f 2968 (.o .e 0x696e6e6573636f 4941 .e))) 0x696e6f646f7265 4942 (.o (.o (.o (.o .e 0x696e6f646f726f 11293 .e) 0x696e6f6e646572 7189 .e) 0x696e6f76616365 8684 (.o .e 0x696e7175697279 934 .e)) 0x696e7365637465 7191 (.o (.o .e 0x696e736563746f 2971 .e) 0x696e736574746f 4946 (.o .e 0x696e7369656d65 4947 .e)))) 0x696e7369676e65 7192 (.o (.o (.o (.o (.o .e 0x696e7370697265 938 .e) 0x696e7374616c6c 939 .e) 0x696e73756c746f 11302 (.o .e 0x696e746163746f 11303 .e)) 0x696e74656e7365 7198 (.o (.o .e 0x696e74696d6172 11305 .e) 0x696e7472696761 11307 (.o .e 0x696e747569746f 4953 .e))) 0x696e7574696c65 7202 (.o (.o (.o (.o .e 0x696e7661736f72 11308 .e) 0x696e7665726e6f 11309 .e) 0x696e766963746f 11310 (.o .e 0x696e7669746572 7205 .e)) 0x696e766f636172 11311 (.o (.o .e 0x696e766f6c7665 945 .e) 0x696e7a65726365 8689 (.o .e 0x696f6775727465 11312 .e)))))
def mnemonicTree278 : Tree := .o (.o (.o (.o (.o (.o (.o .e 0x69726c616e6461 4963 .e) 0x69726f6e69636f 4964 .e) 0x69727269746572 7210 (.o .e 0x69736f6c61646f 11319 .e)) 0x69736f6c617465 948 (.o (.o (.o .e 0x69736f6c61746f 4967 .e) 0x69736f746f706f 4968 .e) 0x69737472696365 4971 (.o .e 0x69746572617265 4973 .e))) 0x69767265737365 7213 (.o (.o (.o (.o .e 0x69cc81646f6c6f 2948 .e) 0x6a61626fcc816e 2984 .e) 0x6a61696c6c6972 7215 (.o .e 0x6a616b6d696c65 8694 .e)) 0x6a616c6f766563 8696 (.o (.o .e 0x6a616d6fcc816e 2985 .e) 0x6a616e6569726f 11322 (.o .e 0x6a616e67616461 11323 .e)))) 0x6a616e76696572 7217 (.o (.o (.o (.o (.o .e 0x6a61726d61726b 8698 .e) 0x6a6176656c6f74 7221 .e) 0x6a65616c6f7573 956 (.o .e 0x6a6564696e6563 8705 .e)) 0x6a656d6e6f7374 8712 (.o (.o .e 0x6a6572696e6761 2992 .e) 0x6a657365746572 8715 (.o .e 0x6a657461626c65 7222 .e))) 0x6a6973746f7461 8723 (.o (.o (.o (.o .e 0x6a6f6761646f72 11335 .e) 0x6a6f696e647265 7226 .e) 0x6a6f6e63686572 7227 (.o .e 0x6a6f6e676c6572 7228 .e)) 0x6a6f726e616461 2994 (.o (.o .e 0x6a6f75726e616c 7231 .e) 0x6a6f75726e6579 963 (.o .e 0x6a7562696c6572 7235 .e))))) 0x6a756761646f72 3001 (.o (.o (.o (.o (.o (.o .e 0x6a756775657465 3003 .e) 0x6a757269737461 11347 .e) 0x6a757269737465 7239 (.o .e 0x6a757374696365 7240 .e)) 0x6a7576656e696c 3012 (.o (.o (.o .e 0x6b616261726574 8729 .e) 0x6b6162696e6574 8731 .e) 0x6b616469646c6f 8734 (.o .e 0x6b616c686f7479 8741 .e))) 0x6b616c6e6f7374 8743 (.o (.o (.o (.o .e 0x6b616e6962616c 8747 .e) 0x6b617075737461 8757 .e) 0x6b6172616d656c 8759 (.o .e 0x6b61726f746b61 8760 .e)) 0x6b6174616c6f67 8763 (.o (.o .e 0x6b617465647261 8764 .e) 0x6b6176616c6563 8767 (.o .e 0x6b617a616a6b61 8768 .e)))) 0x6b657463687570 975 (.o (.o (.o (.o (.o .e 0x6b696e67646f6d 981 .e) 0x6b696f73717565 7245 .e) 0x6b69746368656e 984 (.o .e 0x6b6c616469766f 8778 .e)) 0x6b6c6173696b61 8781 (.o (.o .e 0x6b6c6f626f756b 8790 .e) 0x6b6f616c696365 8802 (.o .e 0x6b6f6265726563 8803 .e))) 0x6b6f626c696861 8805 (.o (.o (.o (.o .e 0x6b6f6a656e6563 8809 .e) 0x6b6f6b74656a6c 8811 .e) 0x6b6f6d616e646f 8816 (.o .e 0x6b6f6d6e617461 8819 .e)) 0x6b6f6e63657074 8824 (.o (.o .e 0x6b6f6e64696365 8825 .e) 0x6b6f6e66657365 8827 (.o .e 0x6b6f6e67726573 8828 .e)))))
def mnemonicTree279 : Tree := .o mnemonicTree277 0x69706f74657369 4960 mnemonicTree278
def mnemonicTree280 : Tree := .o (.o (.o (.o (.o (.o (.o .e 0x6b6f6e74616b74 8831 .e) 0x6b6f70616e6563 8833 .e) 0x6b6f706e6f7574 8835 (.o .e 0x6b6f7361746563 8845 .e)) 0x6b6f746c657461 8848 (.o (.o (.o .e 0x6b6f7a6f726f68 8856 .e) 0x6b726162696365 8857 .e) 0x6b72616a696e61 8859 (.o .e 0x6b726176617461 8862 .e))) 0x6b72656a636172 8864 (.o (.o (.o (.o .e 0x6b726576657461 8866 .e) 0x6b726b61766563 8870 .e) 0x6b726d656c6563 8871 (.o .e 0x6b726f6e696b61 8875 .e)) 0x6b727570696365 8881 (.o (.o .e 0x6b7275746f7374 8882 .e) 0x6b7276696e6b61 8883 (.o .e 0x6b727963686c65 8884 .e)))) 0x6b72797374616c 8886 (.o (.o (.o (.o (.o .e 0x6b756a6e6f7374 8890 .e) 0x6b756c616a6461 8892 .e) 0x6b756c6f6d6574 8895 (.o .e 0x6b756c74757261 8896 .e)) 0x6b76616c697461 8902 (.o (.o (.o .e 0x6b766573746f72 8904 .e) 0x6b796e6f6c6f67 8905 .e) 0x6b79746f766563 8910 (.o .e 0x6b797661646c6f 8911 .e))) 0x6c61626f72616c 11351 (.o (.o (.o (.o .e 0x6c61636874616e 8913 .e) 0x6c616372696d61 4978 .e) 0x6c6163746f7365 7250 (.o .e 0x6c6164646f7665 4980 .e)) 0x6c61646e6f7374 8914 (.o (.o .e 0x6c616761727461 11355 .e) 0x6c61676172746f 3021 (.o .e 0x6c616973736572 7253 .e))))) 0x6c616974696572 7254 (.o (.o (.o (.o (.o (.o .e 0x6c616b6f6d6563 8916 .e) 0x6c616d62656175 7255 .e) 0x6c616d656c6c65 7256 (.o .e 0x6c616d696e6172 11360 .e)) 0x6c616d70656a6f 11361 (.o (.o (.o .e 0x6c616e63657572 7258 .e) 0x6c616e67616765 7259 .e) 0x6c616e6f766b61 8919 (.o .e 0x6c617069646172 11363 .e))) 0x6c6172616e6a61 11365 (.o (.o (.o (.o .e 0x6c6172646f736f 4985 .e) 0x6c617265697261 11366 .e) 0x6c617267657572 7262 (.o .e 0x6c617267757261 11367 .e)) 0x6c6172696e6765 4987 (.o (.o .e 0x6c6173616e6861 11368 .e) 0x6c617374757261 8922 (.o .e 0x6c6174656e7a61 4989 .e)))) 0x6c61746572616c 11370 (.o (.o (.o (.o (.o .e 0x6c6174696e6b61 8923 .e) 0x6c617474756761 4991 .e) 0x6c61756e647279 1005 (.o .e 0x6c617572696572 7264 .e)) 0x6c617661676e61 4992 (.o (.o .e 0x6c6176616e6461 11372 .e) 0x6c61766f757261 11373 (.o .e 0x6c617773756974 1009 .e))) 0x6c6178616e7465 11375 (.o (.t (.o (.o .e 0x6c61cc8170697a 3032 .e) 0x6c61cc81746578 3037 .e) 0x6c656374757265 1016 7267 (.o .e 0x6c65646e696365 8928 .e)) 0x6c65646f766b61 8929 (.o (.o .e 0x6c656476696e61 8930 .e) 0x6c6567656e6461 8931 (.o .e 0x6c65676765726f 4995 .e)))))
def mnemonicTree281 : Tree := .o (.o (.o (.o (.o (.o (.o .e 0x6c656772616365 8933 .e) 0x6c65686b6f7374 8935 .e) 0x6c65686e6f7574 8936 (.o .e 0x6c65696c6f6172 11383 .e)) 0x6c656973757265 1021 (.o (.o (.o .e 0x6c656974757261 11384 .e) 0x6c656b74766172 8937 .e) 0x6c656f70617264 1026 (.o .e 0x6c6570656e6b61 8940 .e))) 0x6c657069646c6f 8941 (.o (.o (.o (.o .e 0x6c65737361746f 5002 .e) 0x6c657373697665 7271 .e) 0x6c657461646c6f 8942 (.o .e 0x6c657668617274 8946 .e)) 0x6c657669746172 11396 (.o (.o .e 0x6c65766f626f6b 8948 .e) 0x6c657869717565 7274 (.o .e 0x6c6579656e6461 3059 .e)))) 0x6c65cc8167616c 7268 (.o (.o (.o (.o (.o .e 0x6c65cc81676572 7269 .e) 0x6c69626572616c 11397 .e) 0x6c696265727479 1031 (.o .e 0x6c696272617279 1032 .e)) 0x6c6963656e6365 7279 (.o (.o .e 0x6c6963656e7365 1033 .e) 0x6c69636f726e65 7280 (.o .e 0x6c696465726172 11399 .e))) 0x6c69646f6a6564 8951 (.o (.o (.o (.o .e 0x6c69657669746f 5009 .e) 0x6c6965cc806765 7281 .e) 0x6c69676569726f 11401 (.o .e 0x6c69676f746572 7284 .e)) 0x6c696a61766563 8954 (.o (.o .e 0x6c696d65746b61 8956 .e) 0x6c696d69746172 11402 (.o .e 0x6c696d6fcc816e 3070 .e))))) 0x6c696d70696465 7289 (.o (.o (.o (.o (.o (.o .e 0x6c696d7069646f 5013 .e) 0x6c696e65617265 5014 .e) 0x6c696e676f7465 3075 (.o .e 0x6c697175696465 7293 .e)) 0x6c69717569646f 5016 (.o (.o (.o .e 0x6c69746869756d 7296 .e) 0x6c69746967696f 5021 .e) 0x6c69746f72616c 11411 (.o .e 0x6c69746f766174 8962 .e))) 0x6c697672657572 7299 (.o (.o (.o (.o .e 0x6c697865697261 11414 .e) 0x6c69cc81646572 3063 .e) 0x6c69cc816e6561 3074 (.o .e 0x6c6f6269737461 8963 .e)) 0x6c6f6273746572 1049 (.o (.o .e 0x6c6f6361646f72 11415 .e) 0x6c6f63616e6461 5023 (.o .e 0x6c6f6375746f72 11416 .e)))) 0x6c6f6469766f64 8964 (.o (.o (.o (.o (.o .e 0x6c6f6769717565 7300 .e) 0x6c6f676f706564 8966 .e) 0x6c6f6a69737461 11417 (.o .e 0x6c6f6d62617265 5026 .e)) 0x6c6f6d62726963 7303 (.o (.o .e 0x6c6f6d6272697a 3100 .e) 0x6c6f6e6765766f 5028 (.o .e 0x6c6f7175616365 5029 .e))) 0x6c6f72656e7a6f 5030 (.o (.o (.o (.o .e 0x6c6f7465726961 11424 .e) 0x6c6f7465726965 7304 .e) 0x6c6f7474657279 1056 (.o .e 0x6c6f7563757261 11425 .e)) 0x6c6f75736b6174 8978 (.o (.o .e 0x6c756365726e61 8981 .e) 0x6c75636964657a 11429 (.o .e 0x6c756369666572 8982 .e)))))
def mnemonicTree282 : Tree := .o mnemonicTree280 0x6c656769737461 11381 mnemonicTree281
def mnemonicTree283 : Tree := .o mnemonicTree279 0x6b6f6e6b757273 8830 mnemonicTree282
def mnemonicTree284 : Tree := .o mnemonicTree276 0x696d706163746f 11261 mnemonicTree283
def mnemonicTree285 : Tree := .o mnemonicTree269 0x65cc81706f6361 2676 mnemonicTree284
def mnemonicTree286 : Tree := .o (.o (.t (.o (.o (.o (.o .e 0x6c756775627265 7314 .e) 0x6c756973616e74 7315 .e) 0x6c756e61697265 7317 (.o .e 0x6c7570706f6c6f 5039 .e)) 0x6c7573696e6761 5040 (.o (.o (.o .e 0x6c757461646f72 11433 .e) 0x6c757875657578 7321 .e) 0x6d61636162726f 5043 (.o .e 0x6d61636861646f 11437 .e))) 0x6d616368696e65 1068 7322 (.o (.o (.o (.o .e 0x6d616465697261 11439 .e) 0x6d61657374726f 3119 .e) 0x6d61676173696e 7323 (.o .e 0x6d6167656e7461 7324 .e)) 0x6d616769717565 7325 (.o (.o .e 0x6d616769737472 8992 .e) 0x6d61676e617461 11441 (.o .e 0x6d61676e657465 5050 .e)))) 0x6d616772657a61 11442 (.o (.o (.o (.o (.o .e 0x6d616861676f6e 8993 .e) 0x6d61696c6c6f6e 7327 .e) 0x6d616a6574656b 8994 (.o .e 0x6d616a6974656c 8995 .e)) 0x6d616a6f726572 7331 (.o (.o (.o .e 0x6d616b72656c61 8999 .e) 0x6d616c61786572 7332 .e) 0x6d616c68657572 7334 (.o .e 0x6d616c6f766174 9002 .e))) 0x6d616c73616e6f 5056 (.o (.o (.o (.o .e 0x6d616c76696365 9003 .e) 0x6d616d696e6b61 9004 .e) 0x6d616e64617465 1080 (.o .e 0x6d616e6461746f 11454 .e)) 0x6d616e656a6172 3133 (.o (.o .e 0x6d616e686f736f 11456 .e) 0x6d616e6e61726f 5064 (.o .e 0x6d616e6f767261 5065 .e))))) 0x6d616e73696f6e 1082 (.o (.o (.o (.o (.o (.o .e 0x6d616e74656175 7341 .e) 0x6d616e74696465 5067 .e) 0x6d61706561646f 11462 (.o .e 0x6d617263697265 5071 .e)) 0x6d617265736961 11465 (.o (.o (.o .e 0x6d617265747461 5072 .e) 0x6d6172696e686f 11468 .e) 0x6d61726d697461 11469 (.o .e 0x6d61726e6f7374 9007 .e))) 0x6d61727265636f 11472 (.o (.o (.o (.o .e 0x6d617274656c6f 11473 .e) 0x6d6173636f7465 11475 .e) 0x6d617373616961 5076 (.o .e 0x6d617374696e6f 5077 .e)) 0x6d61746167616c 11479 (.o (.o .e 0x6d617465726961 3157 .e) 0x6d617465726e6f 11480 (.o .e 0x6d6174696e616c 11481 .e)))) 0x6d617472696b61 9012 (.o (.o (.o (.o (.o .e 0x6d6174746f6e65 5080 .e) 0x6d617475746172 11482 .e) 0x6d617564697265 7356 (.o .e 0x6d6178696c6172 11483 .e)) 0x6d6178696d616c 7359 (.o (.o .e 0x6d6178696d756d 1099 .e) 0x6d617a616e6563 9014 (.o .e 0x6d617a6f726361 3162 .e))) 0x6d617a75726361 5082 (.o (.o (.o (.o .e 0x6d617a75726b61 9017 .e) 0x6d65616e64726f 5083 .e) 0x6d656173757265 1103 (.o .e 0x6d6564616c6861 11484 .e)) 0x6d6564616c6c61 3164 (.o (.o .e 0x6d656a696c6c61 3167 .e) 0x6d656c61737361 5089 (.o .e 0x6d656c6f646961 5091 .e)))))
def mnemonicTree287 : Tree := .o (.o (.o (.o (.o (.o (.o .e 0x6d656d6f726961 3171 .e) 0x6d656e61636572 7371 .e) 0x6d656e696e6765 5092 (.o .e 0x6d656e73616a65 3173 .e)) 0x6d656e736f6c61 5094 (.o (.o (.o .e 0x6d656e74696f6e 1112 .e) 0x6d65726361646f 3176 .e) 0x6d657265636572 11497 (.o .e 0x6d6572656e6461 5096 .e))) 0x6d6573636c6172 11500 (.o (.o (.o (.o .e 0x6d65736fcc816e 3180 .e) 0x6d657373616765 1119 .e) 0x6d657373657265 5100 (.o .e 0x6d6573746f6c6f 5101 .e)) 0x6d6574616c6c6f 5102 (.o (.o .e 0x6d6574656f726f 11505 .e) 0x6d657474657265 5104 (.o .e 0x6d65cc8174616c 7381 .e)))) 0x6d6961756c6572 7386 (.o (.o (.o (.o (.o .e 0x6d6963656c696f 5107 .e) 0x6d696368656c65 5108 .e) 0x6d6963726f6265 7387 (.o .e 0x6d6963726f626f 5109 .e)) 0x6d69646f6c6c6f 5110 (.o (.o (.o .e 0x6d69656d62726f 3188 .e) 0x6d6967616c6861 11510 .e) 0x6d696772616365 9029 (.o .e 0x6d69686e6f7574 9030 .e))) 0x6d696c61677265 11512 (.t (.o (.o (.o .e 0x6d696c6167726f 3191 .e) 0x6d696c656e6172 11513 .e) 0x6d696c656e6563 9034 (.o .e 0x6d696c69746172 3192 .e)) 0x6d696c6c696f6e 1125 7392 (.o (.o .e 0x6d696d69717565 7393 .e) 0x6d696e65726172 11516 (.o .e 0x6d696e686f6361 11517 .e))))) 0x6d696e69626172 9039 (.o (.o (.o (.o (.o (.o .e 0x6d696e696d616c 7396 .e) 0x6d696e696d756d 1128 .e) 0x6d696e6f6d6574 9040 (.o .e 0x6d696e6f726572 7397 .e)) 0x6d696e6f726961 11519 (.o (.o (.t .e 0x6d697261636c65 1131 7399 .e) 0x6d6972616e7465 11521 .e) 0x6d697274696c6f 11522 (.o .e 0x6d697363656c61 5121 .e))) 0x6d697365726961 3202 (.o (.o (.o (.o .e 0x6d697373696c65 7401 .e) 0x6d697373697661 5122 .e) 0x6d697374616b65 1135 (.o .e 0x6d6974657a7a61 5125 .e)) 0x6d69786f766174 9044 (.o (.o .e 0x6d697874757265 1138 .e) 0x6d6c61646f7374 9045 (.o .e 0x6d6f6368696c61 3207 .e)))) 0x6d6f636e6f7374 9054 (.o (.o (.o (.o (.o .e 0x6d6f64656c6b61 9055 .e) 0x6d6f64656c6c6f 5130 .e) 0x6d6f6465726e65 7404 (.o .e 0x6d6f6465726e6f 11525 .e)) 0x6d6f64756c6172 11526 (.o (.o .e 0x6d6f6c64757261 11531 .e) 0x6d6f6c6f73736f 5136 (.o .e 0x6d6f6c7573636f 11535 .e))) 0x6d6f6d656e746f 3216 (.o (.o (.o (.o .e 0x6d6f6e61726361 3218 .e) 0x6d6f6e6469616c 7406 .e) 0x6d6f6e64696e61 5139 (.o .e 0x6d6f6e69746f72 1144 .e)) 0x6d6f6e6e616965 7408 (.o (.o .e 0x6d6f6e736f6e65 5143 .e) 0x6d6f6e73746572 1146 (.o .e 0x6d6f6e73747265 7410 .e)))))
def mnemonicTree288 : Tree := .o mnemonicTree286 0x6d656c6fcc816e 3170 mnemonicTree287
def mnemonicTree289 : Tree := .o (.o (.o (.o (.o (.o (.o .e 0x6d6f6e7669736f 5145 .e) 0x6d6f7175656361 11537 .e) 0x6d6f7175657572 7413 (.o .e 0x6d6f72616e676f 11538 .e)) 0x6d6f7263656175 7414 (.o (.o (.o .e 0x6d6f726365676f 11539 .e) 0x6d6f7264657265 5147 .e) 0x6d6f72646f6d6f 11540 (.o .e 0x6d6f726e696e67 1151 .e))) 0x6d6f7273757265 7415 (.o (.o (.o (.o .e 0x6d6f7274696572 7416 .e) 0x6d6f736169636f 11542 .e) 0x6d6f7374726172 3231 (.o .e 0x6d6f746f726b61 9070 .e)) 0x6d6f7573736f6e 7422 (.o (.o .e 0x6d6f7576616e74 7424 .e) 0x6d6f76656e7a61 5153 (.o .e 0x6d6f7a61696b61 9074 .e)))) 0x6d6fcc8176696c 3234 (.o (.o (.o (.o (.o .e 0x6d7274766f6c61 9080 .e) 0x6d73746974656c 9083 .e) 0x6d756573747261 3241 (.o .e 0x6d75676e61696f 5160 .e)) 0x6d756c6174746f 5161 (.o (.o (.o .e 0x6d756e6469616c 11554 .e) 0x6d756f76657265 5166 .e) 0x6d7572616c6861 11556 (.o .e 0x6d75726d757265 7429 .e))) 0x6d7573636f6c6f 5169 (.o (.o (.o (.o .e 0x6d75736963616c 11560 .e) 0x6d797269616465 7436 .e) 0x6d797374657279 1171 (.o .e 0x6e61626162626f 5173 .e)) 0x6e616461646f72 11562 (.o (.o .e 0x6e61646f62726f 9100 .e) 0x6e616976697461 9106 (.o .e 0x6e616a6973746f 9108 .e))))) 0x6e616a6d6f7574 9109 (.o (.o (.o (.o (.o (.o .e 0x6e616b6f6e6563 9111 .e) 0x6e616b726d6974 9112 .e) 0x6e616d617a6174 9114 (.o .e 0x6e616f7374726f 9119 .e)) 0x6e617061646174 9120 (.o (.o (.o .e 0x6e617065766e6f 9121 .e) 0x6e61706c6e6974 9122 .e) 0x6e61706e6f7574 9123 (.o .e 0x6e6172616e6a61 3260 .e))) 0x6e61726369736f 5176 (.o (.o (.o (.o .e 0x6e61726f646974 9126 .e) 0x6e61727261646f 11566 .e) 0x6e61727261746f 5178 (.o .e 0x6e617361646974 9129 .e)) 0x6e617363657265 5179 (.o (.o .e 0x6e6173656b6174 9130 .e) 0x6e61736c65706f 9131 (.o .e 0x6e61746f6c696b 9133 .e)))) 0x6e61747572616c 3266 (.o (.o (.o (.o (.o .e 0x6e617574696361 5182 .e) 0x6e6176616c6861 11570 .e) 0x6e617665676172 11571 (.o .e 0x6e6176656e656b 9134 .e)) 0x6e617669646164 3270 (.o (.o .e 0x6e61cc81636172 3256 .e) 0x6e65626c696e61 11573 (.o .e 0x6e6563726f7369 5185 .e))) 0x6e65676c656374 1184 (.o (.o (.o (.o .e 0x6e65676f63696f 3274 .e) 0x6e65676f7a696f 5187 .e) 0x6e65677269746f 11577 (.o .e 0x6e656974686572 1185 .e)) 0x6e656a70727665 9148 (.o (.o .e 0x6e656d6d656e6f 5188 .e) 0x6e656f66697461 5189 (.o .e 0x6e65706f6b6f6a 9155 .e)))))
def mnemonicTree290 : Tree := .o (.o (.o (.o (.o (.o (.o .e 0x6e657276657578 7457 .e) 0x6e6572766f736f 11578 .e) 0x6e65736d79736c 9158 (.o .e 0x6e657373756e6f 5192 .e)) 0x6e657474756e6f 5193 (.o (.o (.o .e 0x6e6574776f726b 1190 .e) 0x6e6575726f6e65 7459 .e) 0x6e65757472616c 1191 (.o .e 0x6e657574726f6e 7460 .e))) 0x6e657661736361 11581 (.o (.o (.o (.o .e 0x6e696363686961 5197 .e) 0x6e696ecc83657a 3286 .e) 0x6e69746964657a 11585 (.o .e 0x6e697472617465 7464 .e)) 0x6e6976656c6172 11586 (.o (.o .e 0x6e6f626c657a61 3290 .e) 0x6e6f6272657a61 11587 (.o .e 0x6e6f6d696e616c 11591 .e)))) 0x6e6f6d696e6565 1199 (.o (.o (.o (.o (.o .e 0x6e6f726469636f 5205 .e) 0x6e6f726d616c65 5206 .e) 0x6e6f7274656172 11593 (.o .e 0x6e6f736974656c 9176 .e)) 0x6e6f736e6f7374 9177 (.o (.t .e 0x6e6f7461626c65 1204 7475 .e) 0x6e6f7468696e67 1206 (.o .e 0x6e6f7469636961 3297 .e))) 0x6e6f74697a6961 5210 (.o (.o (.o (.o .e 0x6e6f746f697265 7477 .e) 0x6e6f7475726e6f 11596 .e) 0x6e6f7572726972 7478 (.o .e 0x6e6f7576656175 7479 .e)) 0x6e6f76656c6c61 5212 (.o (.o .e 0x6e6f76696c686f 11598 .e) 0x6e75616e636572 7484 (.o .e 0x6e75626c61646f 11600 .e))))) 0x6e75636c656172 1210 (.o (.o (.o (.o (.o (.o .e 0x6e7564696c6c6f 3304 .e) 0x6e756d6572616c 11602 .e) 0x6e75706369616c 11603 (.o .e 0x6e75707469616c 7488 .e)) 0x6e75746e6f7374 9186 (.o (.o (.o .e 0x6e757472697265 5217 .e) 0x6e757a69616c65 5219 .e) 0x6f626172766974 9190 (.o .e 0x6f62626c69676f 5222 .e))) 0x6f6265686e6174 9194 (.o (.o (.o (.o .e 0x6f62657a697461 9196 .e) 0x6f6265cc816972 7491 .e) 0x6f626c69676572 7493 (.o .e 0x6f6272617a6563 9211 .e)) 0x6f627363757265 1218 (.o (.o .e 0x6f62736375726f 11610 .e) 0x6f627365727665 1219 (.o .e 0x6f62736c756861 9216 .e)))) 0x6f6274656e6572 3319 (.o (.o (.o (.o (.o .e 0x6f6274656e6972 7497 .e) 0x6f627475726172 11613 .e) 0x6f627475726572 7498 (.o .e 0x6f6276696e6974 9220 .e)) 0x6f6276696f7573 1221 (.o (.o .e 0x6f6276796b6c65 9222 .e) 0x6f636375706572 7500 (.o .e 0x6f6365cc81616e 7501 .e))) 0x6f6368656e7461 3324 (.o (.o (.o (.o .e 0x6f636872616e61 9230 .e) 0x6f636f72726572 11616 .e) 0x6f63746f626572 1224 (.o .e 0x6f63746f627265 7502 .e)) 0x6f637475627265 3329 (.o (.o .e 0x6f63756c61746f 5233 .e) 0x6f63757061646f 11618 (.o .e 0x6f637572726972 3332 .e)))))
def mnemonicTree291 : Tree := .o mnemonicTree289 0x6e65726574746f 5190 mnemonicTree290
def mnemonicTree292 : Tree := .o mnemonicTree288 0x6d6f6e7461746f 5144 mnemonicTree291
def mnemonicTree293 : Tree := .o (.o (.o (.o (.o (.o (.o .e 0x6f646562726174 9236 .e) 0x6f6465736c6174 9237 .e) 0x6f646861646365 9240 (.o .e 0x6f64686f646974 9241 .e)) 0x6f646965726e6f 5234 (.o (.o (.o .e 0x6f646a696e7564 9243 .e) 0x6f646f72616e74 7507 .e) 0x6f646f72617265 5235 (.o .e 0x6f64706c6f7574 9252 .e))) 0x6f6470796b6174 9255 (.o (.o (.o (.o .e 0x6f6472617a6b61 9256 .e) 0x6f64766f6c6174 9264 .e) 0x6f666665727461 5236 (.o .e 0x6f666672697265 5237 .e)) 0x6f666963696e61 11622 (.o (.o .e 0x6f667265636572 3340 .e) 0x6f67676574746f 5239 (.o .e 0x6f686e69736b6f 9270 .e)))) 0x6f68726f7a6974 9272 (.o (.o (.o (.o (.o .e 0x6f6872797a656b 9273 .e) 0x6f6b656e696365 9275 .e) 0x6f6b7570616e74 9284 (.o .e 0x6f6c666174746f 5243 .e)) 0x6f6c6976696572 7515 (.o (.o (.o .e 0x6f6c796d706963 1234 .e) 0x6f6d616767696f 5248 .e) 0x6f6d626c69676f 3353 (.o .e 0x6f6d6272616765 7516 .e))) 0x6f6d656c657461 9290 (.o (.o (.o (.o .e 0x6f6d656c657465 11630 .e) 0x6f6d6574747265 7517 .e) 0x6f6e64756c6572 7519 (.o .e 0x6f6e65726f736f 11634 .e)) 0x6f706572616365 9299 (.o (.o .e 0x6f70657261746f 5259 .e) 0x6f70696c6f7374 9301 (.t .e 0x6f70696e696f6e 1243 7525 .e))))) 0x6f706f7a696365 9304 (.o (.o (.o (.o (.o (.o .e 0x6f70706f73746f 5261 .e) 0x6f707261766475 9305 .e) 0x6f707469717565 7529 (.o .e 0x6f70756573746f 3363 .e)) 0x6f7261636f6c6f 5262 (.o (.o (.o .e 0x6f726167657578 7530 .e) 0x6f72626974616c 9307 .e) 0x6f726269746172 11642 (.o .e 0x6f726368617264 1248 .e))) 0x6f7264696e616c 11644 (.o (.o (.o (.o .e 0x6f726566696365 5266 .e) 0x6f7265696c6c65 7534 .e) 0x6f726761736d6f 11646 (.o .e 0x6f726769cc8161 3372 .e)) 0x6f72677565696c 7536 (.o (.o .e 0x6f7267756c686f 11647 .e) 0x6f7267756c6c6f 3373 (.o .e 0x6f7269656e7465 3374 .e)))) 0x6f726966696365 7537 (.o (.o (.o (.o (.o .e 0x6f726967696e65 5269 .e) 0x6f7269756e646f 11650 .e) 0x6f7272656e646f 5275 (.o .e 0x6f7276616c686f 11653 .e)) 0x6f7363696c6172 11654 (.o (.o .e 0x6f736c65706974 9318 .e) 0x6f736c6f766974 9320 (.o .e 0x6f7370616c6563 9324 .e))) 0x6f737472616861 9326 (.o (.o (.o (.o .e 0x6f737472696368 1255 .e) 0x6f73766f6a6974 9329 .e) 0x6f7465706c6974 9330 (.o .e 0x6f746f6ecc836f 3385 .e)) 0x6f74726c6f7374 9334 (.o (.o .e 0x6f74746f627265 5294 .e) 0x6f75726167616e 7545 (.o .e 0x6f757361646961 11659 .e)))))
def mnemonicTree294 : Tree := .o (.o (.o (.o (.o (.o (.o .e 0x6f757473696465 1260 .e) 0x6f75747562726f 11661 .e) 0x6f757672616765 7549 (.o .e 0x6f76616e6f7574 9338 .e)) 0x6f766174696f6e 7550 (.o (.o (.o .e 0x6f76697061726f 5298 .e) 0x6f766f6369746f 5299 .e) 0x6f76756e717565 5300 (.o .e 0x6f767669617265 5301 .e))) 0x6fcc8170657261 3358 (.o (.o (.o (.o .e 0x6fcc8176756c6f 3388 .e) 0x6fcc817869646f 3389 .e) 0x70616369656e74 9346 (.o .e 0x70616374756172 11670 .e)) 0x70616461726961 11671 (.o (.o .e 0x706164656c6c61 5306 .e) 0x7061646f756368 9347 (.o .e 0x706164726f6e65 5307 .e)))) 0x7061686f72656b 9348 (.o (.o (.o (.o (.o .e 0x70616c61627261 3400 .e) 0x70616c616e6461 9350 .e) 0x70616c61767261 11678 (.o .e 0x70616c68657461 11680 .e)) 0x70616c6c69646f 5313 (.o (.o .e 0x70616c6d616461 11682 .e) 0x70616d666c6574 9354 (.o .e 0x70616d6c73656b 9355 .e))) 0x70616e61636865 7559 (.o (.o (.o (.o .e 0x70616e63616461 11684 .e) 0x70616e646f726f 5316 .e) 0x70616e656e6b61 9356 (.o .e 0x70616e6e656175 7563 .e)) 0x70616e6f766174 9359 (.o (.o .e 0x70616e7374766f 9360 .e) 0x70616e74657261 3410 (.o .e 0x70616e74686572 1278 .e))))) 0x706170696c6c61 3414 (.o (.o (.o (.o (.o (.o .e 0x7061706f746572 7568 .e) 0x70617072696361 5320 .e) 0x70617072696b61 9362 (.o .e 0x70617079727573 7569 .e)) 0x70617175657465 3415 (.o (.o (.o .e 0x70617263656c61 3417 .e) 0x7061726369616c 11693 .e) 0x70617265737365 7572 (.o .e 0x706172676f6c6f 5324 .e))) 0x7061726b657461 9363 (.o (.o (.o (.o .e 0x7061726c61746f 5326 .e) 0x7061726f646965 9364 .e) 0x7061727261696e 7576 (.o .e 0x70617274696461 11696 .e)) 0x70617274697265 5328 (.o (.o .e 0x7061737361646f 11698 .e) 0x70617373696f6e 7581 (.o .e 0x7061737369766f 5331 .e)))) 0x70617461636361 5333 (.o (.o (.o (.o (.o .e 0x706174616d6172 11700 .e) 0x706174656e7465 11701 .e) 0x70617469656e74 1288 (.o .e 0x706174696e6172 11702 .e)) 0x706174726f6e61 9372 (.o (.o .e 0x706174726f6e6f 11703 .e) 0x7061747465726e 1290 (.o .e 0x70617474756d65 5335 .e))) 0x7061756c616461 11704 (.o (.o (.o (.o .e 0x7061796d656e74 1293 .e) 0x70617973616765 7589 .e) 0x70617a6e656874 9374 (.o .e 0x70656173616e74 1297 .e)) 0x7065636361746f 5337 (.o (.o .e 0x70656461676f67 9377 .e) 0x706564616c6172 11707 (.o .e 0x7065696e747265 7591 .e)))))
def mnemonicTree295 : Tree := .o mnemonicTree293 0x6f7574646f6f72 1257 mnemonicTree294
def mnemonicTree296 : Tree := .o (.o (.o (.o (.o (.o (.o .e 0x70656c6967726f 3448 .e) 0x70656c6c656a6f 3449 .e) 0x70656c6f746f6e 9380 (.o .e 0x70656c6f757365 7595 .e)) 0x70656c75636865 7596 (.o (.o (.o .e 0x70656e616c7461 9381 .e) 0x70656e616c7479 1300 .e) 0x70656e64696365 5343 (.o .e 0x70656e6472656b 9382 .e))) 0x70656e64756c65 7597 (.o (.o (.o (.o .e 0x70656e65697261 11718 .e) 0x70656e6e75746f 5345 .e) 0x70656e73617265 5347 (.o .e 0x70656e746f6c61 5348 .e)) 0x70657262656e65 5351 (.o (.o .e 0x70657264726978 7604 .e) 0x70657266656374 1304 (.o .e 0x706572696f646f 5356 .e)))) 0x7065726d69736f 3466 (.o (.o (.o (.o (.o .e 0x706572736f6e61 3468 .e) 0x7065727661736f 5362 .e) 0x7065736361646f 11732 (.o .e 0x70657369737461 5364 .e)) 0x70657461726461 9387 (.o (.o (.o .e 0x70657474696e65 5368 .e) 0x7065766e696e61 9390 .e) 0x70686172616f6e 7616 (.o .e 0x70696163657265 5371 .e))) 0x70696363696e6f 5374 (.o (.o (.o (.o .e 0x7069636f7a7a61 5375 .e) 0x70696374757265 1314 .e) 0x70696564616465 11738 (.o .e 0x70696575767265 7626 .e)) 0x706965cc806365 7624 (.o (.o .e 0x7069666665726f 5378 .e) 0x70696769616d61 5379 (.o .e 0x7069676f6c696f 5380 .e))))) 0x70696c6861646f 11741 (.o (.o (.o (.o (.o (.o .e 0x70696c6c6f6c61 5384 .e) 0x70696c6e6f7374 9398 .e) 0x70696c6f746172 11742 (.o .e 0x70696c756c6b61 9399 .e)) 0x70696d656e7461 11743 (.o (.o (.o .e 0x70696e63656175 7628 .e) 0x70696e6775696d 11745 .e) 0x70696e7a657461 9400 (.o .e 0x70696f67676961 5390 .e))) 0x70696f6e656572 1321 (.o (.o (.o (.o .e 0x70697065747465 7629 .e) 0x70697175657465 11751 .e) 0x706972616e6861 11752 (.o .e 0x7069726f677565 7631 .e)) 0x70697275657461 11754 (.o (.o .e 0x7069736174656c 9402 .e) 0x70697363696e61 3495 (.o .e 0x70697363696e65 7632 .e)))) 0x706973746f6c61 11756 (.o (.o (.o (.o (.o .e 0x706973746f6c65 9403 .e) 0x706974616e6761 11757 .e) 0x70697465766e61 9404 (.o .e 0x7069746fcc816e 3498 .e)) 0x7069766e696365 9405 (.o (.o .e 0x7069766f746572 7634 .e) 0x7069766f766172 9406 (.o .e 0x70697a7a69636f 5397 .e))) 0x706c6163617264 7637 (.o (.o (.o (.o .e 0x706c616365626f 5398 .e) 0x706c61666f6e64 7638 .e) 0x706c6169736972 7639 (.o .e 0x706c616e617265 5399 .e)) 0x706c616e657461 9410 (.o (.o .e 0x706c6173746963 1328 .e) 0x706c6174616e6f 5401 (.o .e 0x706c6174656175 7643 .e)))))
def mnemonicTree297 : Tree := .o (.o (.o (.o (.o (.o (.o .e 0x706c656d656e6f 9416 .e) 0x706c657469766f 9419 .e) 0x706c6575726572 7644 (.o .e 0x706c6f64696e61 9425 .e)) 0x706c6f6e676572 7648 (.o (.o (.o .e 0x706c756d616765 7650 .e) 0x706c757669616c 11764 .e) 0x706f6261766974 9430 (.o .e 0x706f64686c6564 9438 .e))) 0x706f6469736d6f 5405 (.o (.o (.o (.o .e 0x706f6469766974 9439 .e) 0x706f646b6c6164 9440 .e) 0x706f64706f7261 9444 (.o .e 0x706f6574697361 11768 .e)) 0x706f65cc807465 7653 (.o (.o .e 0x706f68616e6b61 9450 .e) 0x706f686f766f72 9452 (.o .e 0x706f68726f6d61 9453 .e)))) 0x706f6972696572 7655 (.o (.o (.o (.o (.o .e 0x706f6973736f6e 7656 .e) 0x706f6a6d6f7574 9457 .e) 0x706f6b617a6974 9458 (.o .e 0x706f6c61697265 7658 .e)) 0x706f6c65646e65 9464 (.o (.o .e 0x706f6c656e7461 5408 .e) 0x706f6c6962656b 9465 (.o .e 0x706f6c6c696365 5410 .e))) 0x706f6c76657265 5415 (.o (.o (.o (.o .e 0x706f6c796e6f6d 9468 .e) 0x706f6d6d616465 7662 .e) 0x706f6d70696572 7663 (.o .e 0x706f6e6f726b61 9476 .e)) 0x706f7061646174 9478 (.o (.o .e 0x706f706973656b 9480 .e) 0x706f706c616368 9481 (.o .e 0x706f70756c6172 1345 .e))))) 0x706f7261646365 9485 (.o (.o (.o (.o (.o (.o .e 0x706f726669646f 5420 .e) 0x706f72706f7261 5422 .e) 0x706f7274617461 5424 (.o .e 0x706f7274696f6e 1346 .e)) 0x706f7275636861 9488 (.o (.o (.o .e 0x706f7361646974 9490 .e) 0x706f7369626c65 3530 .e) 0x706f73706f6c75 9496 (.o .e 0x706f7373756972 11779 .e))) 0x706f7374617661 9497 (.o (.o (.o (.o .e 0x706f7374757265 7670 .e) 0x706f737564656b 9498 .e) 0x706f7461676572 7671 (.o .e 0x706f746c65736b 9502 .e)) 0x706f746f6d656b 9503 (.o (.o .e 0x706f7472617661 9504 .e) 0x706f7474657279 1351 (.o .e 0x706f74766f7261 9506 .e)))) 0x706f756c61696e 7675 (.o (.o (.o (.o (.o .e 0x706f7572707265 7677 .e) 0x706f757373696e 7678 .e) 0x706f75766f6972 7679 (.o .e 0x706f757a64726f 9509 .e)) 0x706f7665727479 1352 (.o (.o .e 0x706f7669646c61 9511 .e) 0x706f7673746174 9515 (.o .e 0x706f7a64726176 9518 .e))) 0x706f7a656d656b 9519 (.o (.o (.o (.o .e 0x707261686f7279 9524 .e) 0x70726169726965 7680 .e) 0x7072616e636861 11786 (.o .e 0x7072616f746563 9527 .e)) 0x70726174696361 5433 (.o (.o .e 0x70726564696361 5435 .e) 0x70726564696374 1357 (.o .e 0x7072656d657265 5439 .e)))))
def mnemonicTree298 : Tree := .o mnemonicTree296 0x706c6174696e61 11761 mnemonicTree297
def mnemonicTree299 : Tree := .o mnemonicTree295 0x70656c6963616e 1298 mnemonicTree298
def mnemonicTree300 : Tree := .o mnemonicTree292 0x6f6463697a6974 9235 mnemonicTree299
def mnemonicTree301 : Tree := .o (.o (.o (.o (.o (.o (.o .e 0x7072656e736172 11793 .e) 0x70726570617265 1359 .e) 0x70726573656e74 1360 (.o .e 0x70726576656e74 1362 .e)) 0x7072696d617279 1365 (.o (.o (.o .e 0x7072696d617461 11799 .e) 0x7072696e636970 9531 .e) 0x7072697661646f 11802 (.o .e 0x70726976617465 1369 .e))) 0x7072697661746f 5447 (.o (.o (.o (.o .e 0x70726f626c656d 1371 .e) 0x70726f6365736f 3548 .e) 0x70726f63657373 1372 (.o .e 0x70726f63757261 5449 .e)) 0x70726f64696765 7696 (.o (.o .e 0x70726f64756365 1373 .e) 0x70726f6475746f 11804 (.o .e 0x70726f66657365 9536 .e)))) 0x70726f66657461 11805 (.o (.o (.o (.o (.o .e 0x70726f666f6e64 7697 .e) 0x70726f66756d6f 5451 .e) 0x70726f6772616d 1375 (.o .e 0x70726f6a656374 1376 .e)) 0x70726f6a656b74 9538 (.o (.o (.o .e 0x70726f6a65746f 11807 .e) 0x70726f6d657361 3554 .e) 0x70726f6d696c65 9540 (.o .e 0x70726f6d6f7465 1377 .e))) 0x70726f6e6f6d65 5455 (.o (.o (.o (.o .e 0x70726f726f6761 5457 .e) 0x70726f73706572 1380 .e) 0x70726f74656374 1381 (.o .e 0x70726f7465736f 5458 .e)) 0x70726f7574656b 9546 (.o (.o .e 0x70726f76696465 1383 .e) 0x7072756e656175 7709 (.o .e 0x7072757269746f 5462 .e))))) 0x7074616374766f 9557 (.o (.o (.o (.o (.o (.o .e 0x70756265727461 9558 .e) 0x70756365726f6e 7712 .e) 0x7075636865726f 3560 (.o .e 0x70756464696e67 1385 .e)) 0x70756b61766563 9561 (.o (.o (.o .e 0x70756b6c696e61 9562 .e) 0x70756d706b696e 1389 .e) 0x70756e61697365 7716 (.o .e 0x70756e69746966 7717 .e))) 0x70756e74617265 5471 (.o (.o (.o (.o .e 0x70756ecc83616c 3572 .e) 0x707570617a7a6f 5472 .e) 0x707570696c6c61 5473 (.o .e 0x70757069747265 7718 .e)) 0x707572706f7365 1395 (.o (.o .e 0x707573696e6b61 9569 .e) 0x70757374696e61 9570 (.o .e 0x7075746f766174 9571 .e)))) 0x70757861646f72 11822 (.o (.o (.o (.o (.o .e 0x707972616d6964 1400 .e) 0x7175616c697479 1401 .e) 0x7175616e746961 11824 (.o .e 0x7175616e74756d 1402 .e)) 0x71756172746572 1403 (.o (.o .e 0x71756562726172 11827 .e) 0x71756572656c61 5478 (.o .e 0x7175657269646f 11831 .e))) 0x7175696d6f6e6f 11832 (.o (.o (.o (.o .e 0x71756974746572 7726 .e) 0x7261626973636f 11836 .e) 0x726163636f6f6e 1410 (.o .e 0x72616469616365 9578 .e)) 0x7261646963616c 3590 (.o (.o .e 0x72616469657578 7730 .e) 0x7261646e696365 9579 (.o .e 0x72616666696361 5484 .e)))))
def mnemonicTree302 : Tree := .o (.o (.o (.o (.o (.o (.o .e 0x726167696f6e65 5486 .e) 0x72616964657572 7732 .e) 0x72616d6172726f 5488 (.o .e 0x72616d696e676f 5489 .e)) 0x72616e68757261 11848 (.o (.o (.o .e 0x7261706964657a 11851 .e) 0x72617175657465 11853 .e) 0x726173616e7465 11855 (.o .e 0x726173656e7465 5498 .e))) 0x7261736f766e61 9590 (.o (.o (.o (.o .e 0x72617375726172 11860 .e) 0x72617661676572 7740 .e) 0x72617a616e6365 9593 (.o .e 0x72617a69646c6f 9594 .e)) 0x72617a6fcc816e 3604 (.o (.o .e 0x7265616c657a61 11863 .e) 0x726562656c6465 11867 (.o .e 0x7265626f6c6172 11868 .e)))) 0x72656275696c64 1434 (.o (.o (.o (.o (.o .e 0x72656365697665 1436 .e) 0x726563656e7465 11870 .e) 0x72656368617a6f 3611 (.o .e 0x7265636865696f 11871 .e)) 0x726563696e746f 5505 (.o (.o (.o .e 0x7265636c757461 5506 .e) 0x7265636f676572 3612 .e) 0x726563756c6572 7752 (.o .e 0x7265637572736f 3615 .e))) 0x72656379636c65 1439 (.o (.o (.o (.o .e 0x7265646469746f 5509 .e) 0x726564696d6972 11877 .e) 0x7265646f6e6461 11878 (.o .e 0x7265646f6e646f 3617 .e)) 0x72656475636972 3618 (.o (.o .e 0x7265656e76696f 11880 .e) 0x72656661697265 7756 (.o .e 0x726566696e6172 11881 .e))))) 0x7265666c656374 1441 (.o (.o (.o (.o (.o (.o .e 0x7265666c656a6f 3619 .e) 0x7265666f676172 11883 .e) 0x7265666f726d61 3620 (.o .e 0x7265667261696e 7759 .e)) 0x7265667567696f 3622 (.o (.o (.o .e 0x726567616c6961 11886 .e) 0x7265677265736f 3626 .e) 0x726567756c6172 1446 (.o .e 0x72656865cc816e 3627 .e))) 0x7265696e61646f 11889 (.o (.o (.o (.o .e 0x72656a65746572 7766 .e) 0x72656a6f756572 7767 .e) 0x72656b6c616d61 9602 (.o .e 0x72656c61746966 7768 .e)) 0x72656c65617365 1449 (.o (.o .e 0x72656c65766572 7769 .e) 0x72656c69657665 3633 (.o .e 0x72656c6c656e6f 3634 .e)))) 0x72656d61646f72 11893 (.o (.o (.o (.o (.o .e 0x72656d6564696f 3637 .e) 0x72656d656e646f 11894 .e) 0x72656d6f72736f 11895 (.o .e 0x72656d706c6972 7775 .e)) 0x72656e666f7274 7778 (.o (.o .e 0x72656e74726572 7781 .e) 0x7265706172746f 3642 (.o .e 0x726570656c6972 11898 .e))) 0x72657065746972 3643 (.o (.o (.o (.o .e 0x7265706c616365 1462 .e) 0x7265706c65746f 11899 .e) 0x7265706c696361 5519 (.o .e 0x7265706c696572 7783 .e)) 0x7265706f6c686f 11900 (.o (.o .e 0x72657072657361 11901 .e) 0x72657072697365 7785 (.o .e 0x72657074696c65 7786 .e)))))
def mnemonicTree303 : Tree := .o mnemonicTree301 0x726167617a7a6f 5485 mnemonicTree302
def mnemonicTree304 : Tree := .o (.o (.o (.o (.o (.o (.o .e 0x72657363617465 3647 .e) 0x726573656e6861 11904 .e) 0x72657369646972 11907 (.o .e 0x72657370656374 7791 .e)) 0x7265737065746f 3649 (.o (.o (.o .e 0x72657373616361 11910 .e) 0x726573756d656e 3651 .e) 0x726573756d6972 11912 (.o .e 0x726574616c686f 11913 .e))) 0x726574656e6972 7795 (.o (.o (.o (.o .e 0x72657469726172 11915 .e) 0x7265746f726e6f 3653 .e) 0x7265747261746f 3654 (.o .e 0x72657472656174 1472 .e)) 0x7265756e696f6e 1474 (.o (.o .e 0x726576656c6172 11918 .e) 0x72657665cc8173 3656 (.o .e 0x72657669736f72 11919 .e)))) 0x72657669737461 3657 (.o (.o (.o (.o (.o .e 0x72657669767265 7802 .e) 0x7265766f6c7461 11920 .e) 0x72657a65727661 9610 (.o .e 0x726962656c6c65 5533 .e)) 0x7269636f72646f 5539 (.o (.o (.o .e 0x72696475727265 5542 .e) 0x7269666f726d61 5545 .e) 0x7269667567696f 5546 (.o .e 0x7269676964657a 11923 .e))) 0x7269676f6c6572 7809 (.o (.o (.o (.o .e 0x72696d6564696f 5554 .e) 0x72696e6361726f 5557 .e) 0x72696e6e6f766f 5559 (.o .e 0x72697069656e6f 5567 .e)) 0x72697072657361 5569 (.o (.o .e 0x72697175657a61 3670 .e) 0x7269736368696f 5572 (.o .e 0x72697365727661 5573 .e))))) 0x72697369626c65 7812 (.o (.o (.o (.o (.o (.o .e 0x7269736f6e686f 11929 .e) 0x726973746f726f 5577 .e) 0x7269746172646f 5580 (.o .e 0x72697465676e6f 5581 .e)) 0x7269746d69636f 5582 (.o (.o (.o .e 0x726974726f766f 5583 .e) 0x7269766572736f 5586 .e) 0x7269766f6c746f 5588 (.o .e 0x726f627573746f 5592 .e))) 0x726f636865646f 11931 (.t (.o (.o (.o .e 0x726f6368657578 7817 .e) 0x726f64696c6c61 3680 .e) 0x726f646f766961 11934 (.o .e 0x726f686f766b61 9615 .e)) 0x726f6d616e6365 1500 7818 (.o (.o .e 0x726f6d70657265 5601 .e) 0x726f706f766f64 9619 (.o .e 0x726f7075636861 9620 .e)))) 0x726f7365697261 11940 (.o (.o (.o (.o (.o .e 0x726f74616e7465 5605 .e) 0x726f7461746966 7824 .e) 0x726f746569726f 11943 (.o .e 0x726f746f6e646f 5606 .e)) 0x726f746f706564 9625 (.o (.o .e 0x726f74756c6172 11945 .e) 0x726f74756e6461 9626 (.o .e 0x726f75696c6c65 7828 .e))) 0x726f756c656175 7829 (.o (.o (.o (.o .e 0x726f7574696e65 7830 .e) 0x726f766e696365 9632 .e) 0x726f7961756d65 7831 (.o .e 0x726f7a63686f64 9634 .e)) 0x726f7a696e6b61 9638 (.o (.o .e 0x726f7a6a657a64 9639 .e) 0x726f7a6c6f6861 9641 (.o .e 0x726f7a72756368 9644 .e)))))
def mnemonicTree305 : Tree := .o (.o (.o (.o (.o (.o (.o .e 0x72756272696361 5610 .e) 0x72756272696b61 9649 .e) 0x72756775657578 7836 (.o .e 0x72756b6f706973 9652 .e)) 0x72756c6c696e6f 5612 (.o (.o (.o .e 0x72757074757261 3706 .e) 0x72757373617265 5617 .e) 0x7275737469636f 5618 (.o .e 0x7279626f6c6f76 9654 .e))) 0x72797061646c6f 9657 (.o (.o (.o (.o .e 0x7361626f746572 7843 .e) 0x7361636f636865 7845 .e) 0x73616375646972 11959 (.o .e 0x73616469737461 9660 .e)) 0x7361646e657373 1519 (.o (.o .e 0x73616765737365 7847 .e) 0x73616772616461 11963 (.o .e 0x7361677261646f 3715 .e)))) 0x73616c6173736f 5623 (.o (.o (.o (.o (.o .e 0x73616c6569726f 11966 .e) 0x73616c6761646f 11967 .e) 0x73616c6d6f6e65 5627 (.o .e 0x73616c6fcc816e 3721 .e)) 0x73616c74617265 5629 (.o (.o .e 0x73616d75726169 11974 .e) 0x73616e666f6e61 11976 (.o .e 0x73616e69646164 3731 .e))) 0x73616e69746b61 9666 (.o (.o (.o (.o .e 0x73617264696e61 3736 .e) 0x73617264696e65 7857 .e) 0x7361726a657461 11982 (.o .e 0x736173616e6b61 9668 .e)) 0x736173736f736f 5638 (.o (.o .e 0x73617461cc816e 3739 .e) 0x736174656c6974 9669 (.o .e 0x73617469736679 1530 .e))))) 0x7361746f6c6c6f 5641 (.o (.o (.o (.o (.o (.o .e 0x7361746f736869 1531 .e) 0x73617475726172 11983 .e) 0x73617475726572 7858 (.o .e 0x73617475726e6f 5642 .e)) 0x73617564616465 11984 (.o (.o (.o .e 0x73617573616765 1533 .e) 0x73617576616765 7862 .e) 0x73617a6961746f 5645 (.o .e 0x73617a6f6e616c 11986 .e))) 0x73626176617265 5651 (.o (.o (.o (.o .e 0x7363616c70656c 7865 .e) 0x736361706f6c61 5664 .e) 0x73636174746572 1539 (.o .e 0x7363617661746f 5667 .e)) 0x7363656e69636f 5669 (.o (.o .e 0x73636570747265 7869 .e) 0x7363657474726f 5670 (.o .e 0x73636869656e61 5672 .e)))) 0x7363686f766174 9673 (.o (.o (.o (.t (.o .e 0x73636961727061 5673 .e) 0x736369656e6365 1543 7871 .e) 0x736369656e7a61 5674 (.o .e 0x7363696e646572 7872 .e)) 0x736369766f6c6f 5678 (.o (.o .e 0x7363727574696e 7874 .e) 0x73637573617265 5695 (.o .e 0x7365636f6e646f 5699 .e))) 0x7365636f756572 7879 (.o (.o (.o (.o .e 0x7365637265746f 3744 .e) 0x73656374696f6e 1557 .e) 0x736563756c6172 11988 (.o .e 0x73656461646c6f 9676 .e)) 0x736564656e746f 11990 (.o (.o .e 0x7365646961646f 11991 .e) 0x73656475746f72 11993 (.o .e 0x7365676d656e74 1561 .e)))))
def mnemonicTree306 : Tree := .o mnemonicTree304 0x727562697a7a6f 5609 mnemonicTree305
def mnemonicTree307 : Tree := .o mnemonicTree303 0x72657175697265 1464 mnemonicTree306
def mnemonicTree308 : Tree := .o (.o (.o (.o (.o (.o (.o .e 0x7365677569746f 5704 .e) 0x736567756e646f 11996 .e) 0x73656a6d6f7574 9680 (.o .e 0x73656b756e6461 9683 .e)) 0x73656b766f6a65 9684 (.o (.o (.o .e 0x73656d61696e65 7886 .e) 0x73656d616e616c 12000 .e) 0x73656d626c6572 7887 (.o .e 0x73656d656e6365 7888 .e))) 0x73656d656e7465 12001 (.o (.o (.o (.o .e 0x73656d696c6c61 3752 .e) 0x73656d696e6172 1564 .e) 0x73656e61646f72 12002 (.o .e 0x73656e7375616c 12004 .e)) 0x73656e7461646f 12005 (.o (.o .e 0x73656e74697265 5715 .e) 0x73656ecc83616c 3755 (.o .e 0x73656ecc836f72 3756 .e)))) 0x73657061726172 3757 (.o (.o (.o (.o (.o .e 0x7365706f6c746f 5716 .e) 0x7365726261746f 5719 .e) 0x73657267656e74 7896 (.o .e 0x736572696e6761 12008 .e)) 0x73657272757265 7898 (.o (.o (.t .e 0x73657276696365 1569 7900 .e) 0x73657276697265 5724 .e) 0x73657361646974 9688 (.o .e 0x736573656e7461 3764 .e))) 0x736573686f7261 9689 (.o (.o (.o (.o .e 0x73657373696f6e 1570 .e) 0x73657374696e61 5725 .e) 0x73657379706174 9694 (.o .e 0x736574656e7461 3767 .e)) 0x7365746e6f7574 9698 (.o (.o .e 0x73657472766174 9699 .e) 0x73657672616765 7903 (.o .e 0x7365cc8172756d 7899 .e))))) 0x7365cc81766972 7902 (.o (.o (.o (.o (.o (.o .e 0x73666163656c6f 5728 .e) 0x7366616d61746f 5730 .e) 0x7366696c61746f 5735 (.o .e 0x73666f6361746f 5737 .e)) 0x7366726174746f 5742 (.o (.o (.o .e 0x7366756d617265 5745 .e) 0x73676f7262696f 5750 .e) 0x7367756172646f 5752 (.o .e 0x7368616c6c6f77 1576 .e))) 0x73686572696666 1580 (.o (.o (.o (.o .e 0x7368726e6f7574 9703 .e) 0x73687566666c65 1595 .e) 0x7369626c696e67 1597 (.o .e 0x736963636f6d65 5754 .e)) 0x736966666c6572 7908 (.o (.o .e 0x7369676e6f7265 5757 .e) 0x73696c656e6365 7911 (.o .e 0x73696c6c616261 5759 .e)))) 0x73696c6e696365 9705 (.o (.o (.o (.o (.o .e 0x73696d626f6c6f 5760 .e) 0x73696d696c6172 1607 .e) 0x73696d756c6172 12018 (.o .e 0x73696e6365726f 12020 .e)) 0x73696e676f6c6f 5764 (.o (.o .e 0x73696e6f707365 12022 .e) 0x73696e74657369 5767 (.o .e 0x7369706172696f 5769 .e))) 0x7369726f74656b 9707 (.o (.o (.o (.o .e 0x73697374656d61 3783 .e) 0x736973746f6c65 5771 .e) 0x73697475616365 9709 (.o .e 0x7369747561646f 12026 .e)) 0x73697475617465 1613 (.o (.o .e 0x7369747561746f 5772 .e) 0x736b616e7a656e 9712 (.o .e 0x736b657074696b 9714 .e)))))
def mnemonicTree309 : Tree := .o (.o (.o (.o (.o (.o (.o .e 0x736b7269707461 9723 .e) 0x736b7570696e61 9725 .e) 0x736c6162696b61 9728 (.o .e 0x736c616e696e61 9730 .e)) 0x736c656e646572 1626 (.o (.o (.o .e 0x736c657a696e61 9736 .e) 0x736c6f7570656b 9741 .e) 0x736c6f76656e6f 5775 (.o .e 0x736d6172616764 9748 .e))) 0x736d6574616e61 9749 (.o (.o (.o (.o .e 0x736d6c6f757661 9751 .e) 0x736f6369616c65 5790 .e) 0x736f636f72726f 12029 (.o .e 0x736f646f766b61 9763 .e)) 0x736f6c6461646f 3791 (.o (.o .e 0x736f6c6461746f 5794 .e) 0x736f6c64696572 1652 (.o .e 0x736f6c65646164 3792 .e)))) 0x736f6c656e6e65 5795 (.o (.o (.o (.o (.o .e 0x736f6c75626c65 7928 .e) 0x736f6d6272696f 12035 .e) 0x736f6d656f6e65 1656 (.o .e 0x736f6d6d65696c 7930 .e)) 0x736f6e65676172 12038 (.o (.o .e 0x736f6e6574746f 5804 .e) 0x736f6e67657572 7933 (.o .e 0x736f6e72697361 3800 .e))) 0x736f706f727465 3803 (.o (.o (.o (.o .e 0x736f707065736f 5807 .e) 0x736f7072616e6f 12041 .e) 0x736f7175657465 12042 (.o .e 0x736f7263696572 7936 .e)) 0x736f7267657265 5809 (.o (.o .e 0x736f727269736f 5811 .e) 0x736f727465696f 12044 (.o .e 0x736f737069726f 5815 .e))))) 0x736f737365676f 12045 (.o (.t (.o (.o (.o (.o .e 0x736f7461717565 12046 .e) 0x736f7474696c65 5817 .e) 0x736f7474697365 7939 (.o .e 0x736f7564757265 7941 .e)) 0x736f7566666c65 7942 (.o (.o (.o .e 0x736f75686c6173 9770 .e) 0x736f756d72616b 9772 .e) 0x736f7570617065 7944 (.o .e 0x736f7a696e686f 12049 .e))) 0x7370617469616c 1668 7949 (.o (.o (.o (.o .e 0x737061746f6c61 5821 .e) 0x7370656369616c 1671 .e) 0x73706564697265 5825 (.o .e 0x7370696e6f736f 5835 .e)) 0x73706972616c65 5836 (.o (.o .e 0x73706f6e736f72 1683 .e) 0x73706f6e7a6f72 9784 (.o .e 0x73706f75737461 9786 .e)))) 0x737072616e6761 5840 (.o (.o (.o (.o (.o .e 0x737072757a7a6f 5843 .e) 0x73707573746974 9788 .e) 0x73717565657a65 1692 (.o .e 0x737175696c6c6f 5845 .e)) 0x73726f766e6174 9794 (.o (.o .e 0x73746162696c65 5848 .e) 0x7374616469756d 1695 (.o .e 0x7374616e696365 9798 .e))) 0x7374616e74696f 5853 (.o (.o (.o (.o .e 0x73746173657261 5855 .e) 0x73746174696b61 9800 .e) 0x73746174696f6e 7954 (.o .e 0x7374617475746f 5856 .e)) 0x737465726e756d 7955 (.o (.o .e 0x73746976616c65 5863 .e) 0x73746f646f6c61 9804 (.o .e 0x73746f6d616368 1713 .e)))))
def mnemonicTree310 : Tree := .o mnemonicTree308 0x736b6c61646261 9716 mnemonicTree309
def mnemonicTree311 : Tree := .t (.o (.o (.o (.o (.o (.o .e 0x73746f7269636f 5866 .e) 0x73746f75706174 9808 .e) 0x7374726170706f 5867 (.o .e 0x7374727574746f 5871 .e)) 0x73747564656e74 1723 (.o (.o (.o .e 0x7374756d626c65 1725 .e) 0x73747570657572 7960 .e) 0x7375626a656374 1727 (.o .e 0x7375626a656b74 9818 .e))) 0x7375626c696d65 7962 (.o (.o (.o (.o .e 0x737562736f6c6f 12053 .e) 0x73756363657373 1730 .e) 0x737563636f736f 5876 (.o .e 0x7375636573736f 12056 .e)) 0x73756465737465 12058 (.o (.o .e 0x7375656ecc836f 3815 .e) 0x73756666697865 7968 (.o .e 0x73756761646f72 12060 .e)))) 0x73756765726972 12061 (.o (.o (.o (.o (.o .e 0x73756767657374 1735 .e) 0x73756976657572 7970 .e) 0x73756a6569746f 12062 (.o .e 0x73756c66617465 7971 .e)) 0x73756c6661746f 12063 (.o (.o (.o .e 0x73756c74616e6f 5880 .e) 0x73756f6e617265 5881 .e) 0x73757065726172 3821 (.o .e 0x73757065726265 7972 .e))) 0x7375706572626f 5882 (.o (.o (.o (.o .e 0x7375706f6e6572 3823 .e) 0x7375706f73746f 12068 .e) 0x73757072656d65 1743 (.o .e 0x73757072656d6f 3824 .e)) 0x73757264696e61 12070 (.o (.t .e 0x73757266616365 1745 7974 .e) 0x7375727265616c 12073 (.o .e 0x73757273617574 7978 .e))))) 0x73757370656374 1750 7980 (.o (.o (.o (.o (.o (.o .e 0x7375737069726f 12075 .e) 0x7375737461696e 1751 .e) 0x73766167617265 5888 (.o .e 0x73766564657365 5889 .e)) 0x737665676c696f 5890 (.o (.o (.o .e 0x7376656c617265 5891 .e) 0x7376656e75746f 5892 .e) 0x73766f626f6461 9834 (.o .e 0x7377616c6c6f77 1752 .e))) 0x73796b61766b61 9838 (.o (.o (.o (.o .e 0x73796c6c616265 7981 .e) 0x73796d626f6c65 7982 .e) 0x73796d70746f6d 1764 (.o .e 0x73796e61707365 7984 .e)) 0x73796e6f766563 9841 (.o (.o .e 0x73796e74617865 7985 .e) 0x7379706b6f7374 9843 (.o .e 0x7461626163636f 5899 .e)))) 0x74616269717565 3832 (.o (.o (.o (.o (.o .e 0x7461626c657465 12078 .e) 0x7461626c696572 7988 .e) 0x74616275616461 12079 (.o .e 0x74616374696c65 7989 .e)) 0x7461696c6c6572 7990 (.o (.o .e 0x74616a656d6e6f 9850 .e) 0x74616a6e6f7374 9854 (.o .e 0x74616b74696b61 9855 .e))) 0x74616c656e746f 3840 (.o (.o (.o (.o .e 0x74616c6fcc816e 3842 .e) 0x74616d616e686f 12085 .e) 0x74616d626f7572 7994 (.o .e 0x74616d69736572 7995 .e)) 0x74616d706f6e65 5905 (.o (.o .e 0x74616e6e696e6f 5906 .e) 0x746170696f6361 12091 (.o .e 0x7461706fcc816e 3850 .e)))))
def mnemonicTree312 : Tree := .o (.o (.o (.o (.o (.o (.o .e 0x7461726761746f 5909 .e) 0x74617269666661 5910 .e) 0x7461726a657461 3855 (.o .e 0x74617270617265 5911 .e)) 0x74617272617861 12095 (.o (.o (.o .e 0x74617274696e65 8001 .e) 0x7461747469636f 5914 .e) 0x74617475616a65 3859 (.o .e 0x74617572656175 8006 .e))) 0x74617572696e6f 12097 (.o (.o (.o (.o .e 0x74617665726e61 5915 .e) 0x74617869737461 12099 .e) 0x74617a6174656c 9863 (.o .e 0x74617a6fcc816e 3862 .e)) 0x7465617472616c 12100 (.o (.o .e 0x7465636c61646f 12103 .e) 0x7465636e69636f 5919 (.o .e 0x746564696f736f 12104 .e)))) 0x74656c65666f6e 9867 (.o (.o (.o (.o (.o .e 0x74656c6861646f 12108 .e) 0x74656d6e6f7461 9868 .e) 0x74656d7065726f 12109 (.o .e 0x74656e646f6e65 5924 .e)) 0x74656e656e7465 12110 (.o (.o .e 0x74656e69737461 9870 .e) 0x74656e73696f6e 8014 (.o .e 0x74656f72656d61 5928 .e))) 0x7465706c6f7461 9872 (.o (.o (.o (.o .e 0x74657261706961 3881 .e) 0x74657261706965 9875 .e) 0x7465726e757261 3884 (.o .e 0x74657272656e6f 12115 .e)) 0x7465736f757261 12117 (.o (.o .e 0x7465737461646f 12118 .e) 0x7465737461746f 5934 (.o .e 0x7465737469676f 3888 .e))))) 0x746574746f6961 5936 (.o (.o (.o (.o (.o (.o .e 0x74657874757261 12120 .e) 0x746865cc806d65 8020 .e) 0x74686f75676874 1799 (.o .e 0x7468756e646572 1804 .e)) 0x746965cc806465 8025 (.o (.o (.o .e 0x746967656c6c61 5938 .e) 0x74696d62726172 12125 .e) 0x74696d6964657a 12126 (.o .e 0x74696e6769646f 12127 .e))) 0x7469726167656d 12129 (.o (.o (.o (.o .e 0x7469726fcc816e 3909 .e) 0x746974616e696f 5945 .e) 0x74697461cc816e 3910 (.o .e 0x74697475626572 8032 .e)) 0x746974756c6172 12130 (.o (.o .e 0x746974756c656b 9880 .e) 0x74697a7a6f6e65 5949 (.o .e 0x746b61646c6563 9881 .e)))) 0x746b616e696e61 9882 (.o (.o (.o (.o (.o .e 0x746c65736b6174 9884 .e) 0x746f616c657461 9888 .e) 0x746f626163636f 1817 (.o .e 0x746f62696c6c6f 3915 .e)) 0x746f6363617265 5950 (.o (.o .e 0x746f64646c6572 1819 .e) 0x746f6c65726172 12133 (.o .e 0x746f6d626f6c61 5953 .e))) 0x746f6d696c686f 12136 (.o (.o (.o (.o .e 0x746f6e69676874 1828 .e) 0x746f6e69717565 8036 .e) 0x746f6e6e656175 8037 (.o .e 0x746f6e74757261 12138 .e)) 0x746f70617a696f 5957 (.o (.o .e 0x746f70696e6b61 9889 .e) 0x746f726369646f 12141 (.o .e 0x746f726e616465 8041 .e)))))
def mnemonicTree313 : Tree := .o mnemonicTree311 0x7461726469766f 5908 mnemonicTree312
def mnemonicTree314 : Tree := .o mnemonicTree310 0x73746f6e61746f 5865 mnemonicTree313
def mnemonicTree315 : Tree := .o mnemonicTree307 0x7365677265646f 11995 mnemonicTree314
def mnemonicTree316 : Tree := .o mnemonicTree300 0x7072656d696172 11792 mnemonicTree315
def mnemonicTree317 : Tree := .o mnemonicTree285 0x6c756767616765 1062 mnemonicTree316
def mnemonicTree318 : Tree := .o (.o (.o (.o (.o (.o (.o .e 0x746f726e617265 5961 .e) 0x746f726e65696f 12142 .e) 0x746f727065646f 3932 (.o .e 0x746f7272616461 12144 .e)) 0x746f7272656e74 8043 (.o (.o (.o .e 0x746f72726f6e65 5962 .e) 0x746f72746f7261 5963 .e) 0x746f7274756761 3935 (.o .e 0x746f7363616e6f 5964 .e))) 0x746f7373697265 5965 (.o (.o (.o (.o .e 0x746f7563686572 8047 .e) 0x746f7572697374 1839 .e) 0x746f7573736572 8049 (.o .e 0x746fcc81726178 3927 .e)) 0x74726162616a6f 3940 (.o (.o .e 0x74726163686561 5969 .e) 0x74726163746f72 3941 (.o .e 0x74726164696365 9894 .e)))) 0x74726166666963 1846 (.o (.o (.o (.o (.o .e 0x74726166696c61 5970 .e) 0x7472616a65746f 12154 .e) 0x7472616b746f72 9895 (.o .e 0x7472616c63696f 5972 .e)) 0x7472616e636172 12156 (.o (.o (.o .e 0x74726170616e6f 5975 .e) 0x7472617661696c 8057 .e) 0x74726563636961 5980 (.o .e 0x747265696e7461 3953 .e))) 0x7472656d706572 8059 (.o (.o (.o (.o .e 0x7472686c696e61 9903 .e) 0x7472696167656d 12165 .e) 0x7472696275746f 5983 (.o .e 0x74726967676572 1860 .e)) 0x7472696e636561 5987 (.o (.o .e 0x747269706c6572 8067 .e) 0x747269756e666f 3961 (.o .e 0x7472697669616c 8069 .e))))) 0x74726f6a696365 9905 (.o (.o (.o (.o (.o (.o .e 0x74726f75626c65 1864 .e) 0x74726f76617265 5996 .e) 0x7472706974656c 9909 (.o .e 0x7472706b6f7374 9910 .e)) 0x7472756d706574 1868 (.o (.o (.o .e 0x747562756c6172 12179 .e) 0x7475666661746f 5999 .e) 0x7475686e6f7574 9917 (.o .e 0x74756974696f6e 1873 .e))) 0x74756d756c7465 8076 (.o (.o (.o (.o .e 0x74756d756c746f 6001 .e) 0x74756e69736961 6002 .e) 0x74757262617265 6003 (.o .e 0x74757262696e61 3978 .e)) 0x74757262696e65 8078 (.o (.o .e 0x74757269736d6f 3979 .e) 0x74757269737461 9920 (.o .e 0x747574656c6172 12187 .e)))) 0x7475746f796572 8080 (.o (.o (.o (.o (.o .e 0x7475cc816e656c 3976 .e) 0x747672646f7374 9925 .e) 0x7479706963616c 1887 (.o .e 0x74797069717565 8084 .e)) 0x7562696361746f 6007 (.o (.o .e 0x75626f686f7374 9929 .e) 0x756363656c6c6f 6008 (.o .e 0x7564697469766f 6011 .e))) 0x7566666963696f 6013 (.o (.o (.o (.o .e 0x75687261646974 9938 .e) 0x756a65646e6174 9939 .e) 0x756a6973746974 9940 (.o .e 0x756b6c6f6e6974 9944 .e)) 0x756b6f74766974 9945 (.o (.o .e 0x756b726f6a6974 9946 .e) 0x756e616e696d65 8089 (.o .e 0x756e6177617265 1891 .e)))))
def mnemonicTree319 : Tree := .o (.o (.o (.o (.o (.o (.o .e 0x756e6861707079 1898 .e) 0x756e6964616465 12192 .e) 0x756e6966696572 8090 (.o .e 0x756e69666f726d 1899 .e)) 0x756e69736f6e6f 6025 (.o (.o (.o .e 0x756e6976657273 8094 .e) 0x756e6b6e6f776e 1903 .e) 0x756e757375616c 1906 (.o .e 0x75706772616465 1909 .e))) 0x75706f75746174 9957 (.o (.o (.o (.o .e 0x75707261766974 9958 .e) 0x75726167616e6f 6030 .e) 0x7572616e69756d 8095 (.o .e 0x757267656e7465 3993 .e)) 0x757267656e7a61 6031 (.o (.o .e 0x7573656c657373 1920 .e) 0x75736d72746974 9963 (.o .e 0x75736f75646974 9966 .e)))) 0x7573756172696f 3996 (.o (.o (.o (.o (.o .e 0x7573757261696f 6037 .e) 0x7574696c697479 1922 .e) 0x75746c756d6974 9971 (.o .e 0x75746f6e6f7574 9972 .e)) 0x75766f6c6e6974 9976 (.o (.o (.o .e 0x757a656e696e61 9980 .e) 0x766163616e7465 6041 .e) 0x76616361726d65 8104 (.o .e 0x76616369cc816f 4001 .e))) 0x766169646f736f 12204 (.o (.o (.o (.o .e 0x7661696e637265 8109 .e) 0x76616a696c6c61 4006 .e) 0x76616c61626c65 8111 (.o .e 0x76616c616e6761 6045 .e)) 0x76616c656e7465 12206 (.o (.o .e 0x76616c6f726573 12208 .e) 0x76616c766f6c61 6051 (.o .e 0x76616d70617461 6052 .e))))) 0x76616d70697265 8115 (.o (.o (.o (.o (.o (.o .e 0x76616d7069726f 4012 .e) 0x76616e67617265 6053 .e) 0x76616e696c6b61 9988 (.o .e 0x76616e696c6c65 8116 .e)) 0x76616e76657261 6057 (.o (.o (.o .e 0x766172616e6461 12211 .e) 0x7661726361746f 6060 .e) 0x76617268616e79 9990 (.o .e 0x766172696f7573 1932 .e))) 0x7661726f766174 9991 (.o (.o (.o (.o .e 0x7661726fcc816e 4015 .e) 0x766173696c6861 12215 .e) 0x76656374657572 8122 (.o .e 0x76656465747461 6063 .e)) 0x76656465747465 8123 (.o (.o .e 0x76656765746172 12221 .e) 0x76656869636c65 1935 (.o .e 0x766569636f6c6f 6067 .e)))) 0x7665696e617264 8126 (.o (.o (.o (.o (.o .e 0x76656c6569726f 12223 .e) 0x76656c65747268 9999 .e) 0x76656c68696365 12224 (.o .e 0x76656c6974656c 10000 .e)) 0x76656c6c75746f 6070 (.o (.o .e 0x76656c72796261 10002 .e) 0x76656e65726172 12228 (.o .e 0x76656e74757265 1938 .e))) 0x766572616e6461 10004 (.o (.o (.o (.o .e 0x76657262616c65 6076 .e) 0x76657264616465 12231 .e) 0x76657264757265 8133 (.o .e 0x76657272756361 6080 .e)) 0x76657273696f6e 1942 (.o (.o .e 0x76657363696361 6082 .e) 0x766573656c6b61 10006 (.o .e 0x7665736b727a65 10007 .e)))))
def mnemonicTree320 : Tree := .o mnemonicTree318 0x756e636f766572 1893 mnemonicTree319
def mnemonicTree321 : Tree := .o (.o (.o (.o (.o (.o (.o .e 0x766573706f6475 10009 .e) 0x76657374616c65 6084 .e) 0x7665737469646f 12239 (.o .e 0x7665746572616e 1945 .e)) 0x76657472696e61 6086 (.o (.o (.o .e 0x7665747573746f 6087 .e) 0x76657665726b61 10012 .e) 0x7665cc8172696e 8134 (.o .e 0x7669616475746f 12241 .e))) 0x76696174757261 12244 (.o (.o (.o (.o .e 0x76696272616365 10013 .e) 0x76696272616e74 1947 .e) 0x766963656e6461 6090 (.o .e 0x766963696f7573 1948 .e)) 0x766963746f7279 1949 (.o (.o .e 0x766964616e6765 8147 .e) 0x76696465697261 12246 (.o .e 0x76696465cc816f 8148 .e)))) 0x766965726e6573 4050 (.o (.o (.o (.o (.o .e 0x766967656e7465 12250 .e) 0x766967696c6961 6094 .e) 0x7669676e65746f 6095 (.o .e 0x7669676f726172 12252 .e)) 0x76696775657572 8150 (.o (.o (.t .e 0x76696c6c616765 1952 8152 .e) 0x76696c6c616e6f 6098 .e) 0x76696e61677265 4054 (.o .e 0x76696e68657461 12255 .e))) 0x76696e74616765 1953 (.o (.o (.o (.o .e 0x76696f6c657461 12257 .e) 0x766972676f6c61 6103 .e) 0x7669727475616c 1955 (.o .e 0x76697274756465 12259 .e)) 0x766973636f736f 6106 (.o (.o .e 0x766973696f6e65 6107 .e) 0x76697369746172 12260 (.o .e 0x7669737375746f 6109 .e))))) 0x766974656c6c6f 6112 (.o (.o (.o (.o (.o (.o .e 0x76697465737365 8165 .e) 0x76697472696e65 8167 .e) 0x76697474696d61 6113 (.o .e 0x766976616e6461 6114 .e)) 0x7669766569726f 12263 (.o (.o (.o .e 0x76697a69617265 6116 .e) 0x76697a696e686f 12264 .e) 0x76697a69746b61 10023 (.o .e 0x7669cc8164656f 4047 .e))) 0x766c686b6f7374 10031 (.o (.o (.o (.o .e 0x766c6e6f766b61 10033 .e) 0x766c6f75706174 10034 .e) 0x766f647374766f 10040 (.o .e 0x766f6974757265 8174 .e)) 0x766f6c616e7465 12268 (.o (.o .e 0x766f6c63616e6f 1965 .e) 0x766f6c756d656e 4071 (.o .e 0x766f6e74616465 12272 .e)))) 0x766f756c6f6972 8182 (.o (.o (.o (.o (.o .e 0x766f79656c6c65 8184 .e) 0x766f7a69646c6f 10049 .e) 0x766f7a6f766e61 10050 (.o .e 0x76756c63616e6f 6123 .e)) 0x76796261766974 10065 (.o (.o .e 0x7679666f746974 10070 .e) 0x7679686e6f7574 10072 (.o .e 0x7679686f646974 10073 .e))) 0x76796875626974 10075 (.o (.o (.o (.o .e 0x76796a6d6f7574 10078 .e) 0x76796b6f6e6174 10080 .e) 0x76796c656b6174 10081 (.o .e 0x76796d617a6174 10082 .e)) 0x76796d657a6974 10083 (.o (.o .e 0x76796d697a6574 10084 .e) 0x76796e696b6174 10087 (.o .e 0x76796e75746974 10088 .e)))))
def mnemonicTree322 : Tree := .o (.o (.o (.o (.o (.o (.o .e 0x767972617a6974 10093 .e) 0x76797379706174 10100 .e) 0x76797461736974 10101 (.o .e 0x76797465736174 10102 .e)) 0x7679766f6c6174 10105 (.o (.o (.o .e 0x7679767268656c 10106 .e) 0x767a6275646974 10110 .e) 0x767a6573747570 10115 (.o .e 0x767a6c796b6174 10118 .e))) 0x767a706f757261 10121 (.o (.o (.o (.o .e 0x77617266617265 1976 .e) 0x77617272696f72 1978 .e) 0x77656174686572 1989 (.o .e 0x77656464696e67 1991 .e)) 0x7765656b656e64 1992 (.o (.o .e 0x77656c636f6d65 1994 .e) 0x77686973706572 2004 (.o .e 0x7769746e657373 2021 .e)))) 0x77726573746c65 2034 (.o (.o (.o (.o (.o .e 0x78657265746172 12278 .e) 0x7865cc816e6f6e 8186 .e) 0x78796c6f666f6e 10124 (.o .e 0x7a616461726d6f 10128 .e)) 0x7a616475736974 10129 (.o (.o .e 0x7a61686c746974 10131 .e) 0x7a61686f646974 10132 (.o .e 0x7a616872616461 10133 .e))) 0x7a616a61746563 10135 (.o (.o (.o (.o .e 0x7a616c65706974 10140 .e) 0x7a616d657a6974 10141 .e) 0x7a616d6f746174 10142 (.o .e 0x7a616e6761646f 12281 .e)) 0x7a616e696b6174 10145 (.o (.o .e 0x7a61706f6a6974 10147 .e) 0x7a61707061746f 6126 (.o .e 0x7a6172617a6974 10149 .e))))) 0x7a6174616a6974 10152 (.o (.o (.o (.o (.o (.o .e 0x7a617474657261 6127 .e) 0x7a6176616c6974 10156 .e) 0x7a6176656c6574 10157 (.o .e 0x7a6176696e6974 10158 .e)) 0x7a61766f6c6174 10159 (.o (.o (.o .e 0x7a61766f727261 6128 .e) 0x7a617672746174 10160 .e) 0x7a64616c656b61 10166 (.o .e 0x7a656c61646f72 12284 .e))) 0x7a656c616e7465 6130 (.o (.o (.o (.o .e 0x7a656e7a65726f 6132 .e) 0x7a657262696e6f 6133 .e) 0x7a657a646f6c61 10179 (.o .e 0x7a65cc80627265 8188 .e)) 0x7a69626574746f 6134 (.o (.o .e 0x7a696d6e696365 10186 .e) 0x7a6972636f6e65 6136 (.o .e 0x7a6a656d6e6974 10187 .e)))) 0x7a6b6c616d6174 10188 (.o (.o (.o (.o (.o .e 0x7a6b6f756d6174 10189 .e) 0x7a6b7261746b61 10190 .e) 0x7a6c6f7a76796b 10197 (.o .e 0x7a6d6f636e6974 10203 .e)) 0x7a6d6f64726174 10204 (.o (.o .e 0x7a6e616c6f7374 10208 .e) 0x7a6f7461766974 10212 (.o .e 0x7a6f7566616c65 10214 .e))) 0x7a706c6f646974 10215 (.o (.o (.o (.o .e 0x7a707275646b61 10219 .e) 0x7a726361646c6f 10223 .e) 0x7a747261746974 10230 (.o .e 0x7a756d6269646f 12287 .e)) 0x7a766573656c61 10235 (.o (.o .e 0x6162616973736572 6144 .e) 0x61626261676c696f 4097 (.o .e 0x616262696e61746f 4098 .e)))))
def mnemonicTree323 : Tree := .o mnemonicTree321 0x76797061646174 10089 mnemonicTree322
def mnemonicTree324 : Tree := .o mnemonicTree320 0x7665736e696365 10008 mnemonicTree323
def mnemonicTree325 : Tree := .o (.o (.o (.o (.o (.o (.o .e 0x6162646971756572 6146 .e) 0x616272616e676572 10249 .e) 0x616272617369766f 4102 (.o .e 0x6162726575766572 6153 .e)) 0x6162726576696172 10250 (.o (.o (.o .e 0x6162726f6761746f 4103 .e) 0x6162736f6c75746f 10254 .e) 0x6162737472616374 7 (.o .e 0x61636164656d6961 2060 .e))) 0x61636361626c6572 6165 (.o (.o (.o (.o .e 0x6163636164657265 4104 .e) 0x6163636570746572 6166 .e) 0x6163636964656e74 11 (.o .e 0x616363696fcc816e 2062 .e)) 0x6163636c616d6572 6167 (.o (.o .e 0x6163636f6c616465 6168 .e) 0x616363726f636865 6169 (.o .e 0x616363757361746f 4106 .e)))) 0x6163656c65726172 10263 (.o (.o (.o (.o (.o .e 0x61636964756c6572 6174 .e) 0x6163696f6e61646f 10271 .e) 0x61636f6c68696461 10275 (.o .e 0x61636f6d6f646172 10276 .e)) 0x61636f7573746963 16 (.o (.o (.o .e 0x616372696c69636f 4112 .e) 0x6163726f62617461 4113 .e) 0x6163726f6e796d65 6178 (.o .e 0x6163756d756c6172 10279 .e))) 0x6163757361646f72 10280 (.o (.o (.o (.o .e 0x616464656269746f 4116 .e) 0x616465677561746f 4118 .e) 0x61646572656e7465 10286 (.o .e 0x61646a6563746966 6185 .e)) 0x61646a657469766f 10291 (.o (.o .e 0x61646d6574747265 6187 .e) 0x61646f7474617265 4121 (.o .e 0x6164717569726972 10295 .e))))) 0x6164766f6761646f 10298 (.o (.o (.o (.o (.o (.o .e 0x6165726f6e617665 10299 .e) 0x6166666162696c65 4123 .e) 0x6166666563746572 6199 (.o .e 0x61666672616e746f 4126 .e)) 0x61666675626c6572 6202 (.o (.o (.o .e 0x6166696e61646f72 10303 .e) 0x61666976656c6172 10304 .e) 0x61666c75656e7465 10306 (.o .e 0x61666f7269736d61 4127 .e))) 0x6166726963616e6f 4129 (.o (.o (.o (.o .e 0x6166726f6e746172 10307 .e) 0x61676173616c686f 10310 .e) 0x6167656e63696172 10311 (.o .e 0x616767616e63696f 4133 .e)) 0x6167696c697a6172 10312 (.o (.o .e 0x61676f6e69736d6f 4136 .e) 0x61676f6e69cc8161 2092 (.o .e 0x61677269636f6c6f 4137 .e)))) 0x616772756d65746f 4138 (.o (.o (.o (.o (.o .e 0x6167756172646172 10319 .e) 0x61696775696c6c65 6211 .e) 0x616a6f656c686172 10321 (.o .e 0x616c616261726461 4140 .e)) 0x616c617374726172 10326 (.o (.o .e 0x616c6176616e6361 10327 .e) 0x616c62657261746f 4143 (.o .e 0x616c626572677565 10328 .e))) 0x616c6368696d6965 6218 (.o (.o (.o (.o .e 0x616c636f6c69636f 4147 .e) 0x616c6574746f6e65 4148 .e) 0x616c66696e657465 10336 (.o .e 0x616c696d656e746f 4153 .e)) 0x616c6c616761746f 4154 (.o (.o .e 0x616c6c6f646f6c61 4157 .e) 0x616c6c757369766f 4158 (.o .e 0x616c6d6f66616461 10344 .e)))))
def mnemonicTree326 : Tree := .o (.o (.o (.o (.o (.o (.o .e 0x616c706573747265 4162 .e) 0x616c74616c656e61 4163 .e) 0x616c74696363696f 4165 (.o .e 0x616c746974756465 10348 .e)) 0x616c7563696e6172 10349 (.o (.o (.o .e 0x616d616c67616d61 4170 .e) 0x616d6269656e7465 10359 .e) 0x616d656e697a6172 10361 (.o .e 0x616d657274756d65 6236 .e))) 0x616d657469737461 4177 (.o (.o (.o (.o .e 0x616d6973746f736f 10363 .e) 0x616d6d6972617265 4181 .e) 0x616d6d6f6e69746f 4182 (.o .e 0x616d6f6c61646f72 10365 .e)) 0x616d6f6e746f6172 10366 (.o (.o .e 0x616d6f7669626c65 6241 .e) 0x616d706869626965 6242 (.o .e 0x616d706c69617265 4185 .e)))) 0x616d707574616365 8200 (.o (.o (.o (.o (.o .e 0x616e61636172646f 4187 .e) 0x616e616772616665 4188 .e) 0x616e616772616d61 10372 (.o .e 0x616e616c69736172 10373 .e)) 0x616e616c69737461 4189 (.o (.o .e 0x616e6170686f7265 6246 .e) 0x616e617263686961 4190 (.o .e 0x616e617263686965 6247 .e))) 0x616e617271756961 10374 (.o (.o (.o (.o .e 0x616e61746f6d6961 10375 .e) 0x616e61746f6d6965 6248 .e) 0x616e656b646f7461 8203 (.o .e 0x616e676f69737365 6252 .e)) 0x616e676f6c617265 4199 (.o (.o .e 0x616e67756c657578 6253 .e) 0x616e6e6567617265 4202 (.o .e 0x616e6e696461746f 4203 .e))))) 0x616e6e6f756e6365 74 (.o (.o (.o (.o (.o (.o .e 0x616e6e756e63696f 4205 .e) 0x616e6f6d616c6961 10382 .e) 0x616e6f6d616c6965 6259 (.o .e 0x616e746572696f72 10385 .e)) 0x616e74696369706f 4207 (.o (.o (.o .e 0x616e7469646f7465 6263 .e) 0x616e756964616465 10386 .e) 0x616e756c6f766174 8206 (.o .e 0x616e756e63696172 10387 .e))) 0x616ecc8361646972 2165 (.o (.o (.o (.o .e 0x6170616761646f72 10389 .e) 0x6170616e6861646f 10391 .e) 0x6170657274616461 10394 (.o .e 0x6170657274757261 4210 .e)) 0x61706c6963616461 10399 (.o (.o .e 0x61706f6c6f676965 6268 .e) 0x617070617265696c 6269 (.o .e 0x6170706172697265 4212 .e)))) 0x617070657469746f 4213 (.o (.o (.o (.o (.o .e 0x6170706f6767696f 4214 .e) 0x6170706f72746572 6271 .e) 0x617072656e646572 2176 (.o .e 0x617072656e64697a 10403 .e)) 0x617175617269756d 6273 (.o (.o .e 0x6172616368696465 4219 .e) 0x617261676f737461 4220 (.o .e 0x6172616c64696361 4221 .e))) 0x617263686976696f 4226 (.o (.o (.o (.o .e 0x617267696c6f736f 10415 .e) 0x61726c657175696e 6280 .e) 0x61726d6174757265 6281 (.o .e 0x61726d656d656e74 6282 .e)) 0x61726f67616e6365 8208 (.o (.o .e 0x617270656e746572 6285 .e) 0x6172726163686572 6286 (.o .e 0x6172726562617465 10420 .e)))))
def mnemonicTree327 : Tree := .o mnemonicTree325 0x616c6f7572646972 6228 mnemonicTree326
def mnemonicTree328 : Tree := .o (.o (.o (.o (.o (.o (.o .e 0x6172726973636172 10421 .e) 0x617273656e69636f 4238 .e) 0x6172746566616374 103 (.o .e 0x6172746566696365 4240 .e)) 0x617274657269616c 10425 (.o (.o (.o .e 0x6172766f7265646f 10427 .e) 0x617363697574746f 4242 .e) 0x6173656775726172 2208 (.o .e 0x617365747469636f 4245 .e))) 0x617366616c746172 10428 (.o (.o (.o (.o .e 0x6173697374656e74 8210 .e) 0x61737068616c7465 6293 .e) 0x6173706972616365 8211 (.o .e 0x617370697261746f 4249 .e)) 0x617373616767696f 4251 (.o (.o .e 0x6173736572766972 6296 .e) 0x6173736965747465 6297 (.o .e 0x6173736f616c686f 10433 .e)))) 0x6173736f63696572 6298 (.o (.o (.o (.o (.o .e 0x6173736f6c75746f 4253 .e) 0x617374656e75746f 4256 .e) 0x617374726174746f 4258 (.o .e 0x617374726f6e6f6d 8213 .e)) 0x6174617265666172 10439 (.o (.o (.o .e 0x6174697261646f72 10445 .e) 0x61746c6574696b61 8215 .e) 0x61746f6c6569726f 10447 (.o .e 0x617472657669646f 10449 .e))) 0x617474656e746966 6308 (.o (.o (.o (.o .e 0x6174746974756465 117 .e) 0x6174746976617265 4264 .e) 0x6174747261706572 6310 (.o .e 0x61756d656e746172 10454 .e)) 0x6175746f6e6f6d6f 4271 (.o (.o .e 0x6175747275636865 6318 .e) 0x6176616e7a61746f 4273 (.o .e 0x6176656c6c616e61 2244 .e))))) 0x617665737472757a 2246 (.o (.o (.o (.o (.o (.o .e 0x6176696174657572 6325 .e) 0x617676656e697265 4275 .e) 0x617a75cc81636172 2255 (.o .e 0x61cc816775696c61 2099 .e)) 0x61cc816d6269746f 2141 (.o (.o (.o .e 0x61cc816e67756c6f 2154 .e) 0x61cc81737065726f 2216 .e) 0x626163616c686175 10475 (.o .e 0x626163686172656c 10476 .e))) 0x62616368656c6f72 137 (.o (.o (.o (.o .e 0x626164696c617461 4287 .e) 0x6261677565747465 6337 .e) 0x626169676e616465 6338 (.o .e 0x6261696f6e657461 10481 .e)) 0x6261697869737461 10483 (.o (.o .e 0x62616b7465726965 8227 .e) 0x62616c616e636572 6339 (.o .e 0x62616c636fcc816e 2265 .e)))) 0x62616c6973616765 6342 (.o (.o (.o (.o (.o .e 0x62616e6361697265 6344 .e) 0x62616e6465697261 10489 .e) 0x62616e6b6f6d6174 8235 (.o .e 0x62616e6c69657565 6346 .e)) 0x62616e7175657465 10492 (.o (.o .e 0x62616e7175696572 6348 .e) 0x626172616f6e6461 4297 (.o .e 0x62617269746f6e6f 4300 .e))) 0x6261726f6e657361 10495 (.o (.o (.o (.o .e 0x626173696c69636f 4303 .e) 0x62617374616e7465 10499 .e) 0x626173746fcc816e 2276 (.o .e 0x62617461696c6c65 6356 .e)) 0x6261747465726965 6358 (.o (.o .e 0x6261756472696572 6359 .e) 0x6261756e696c6861 10505 (.o .e 0x6261766172646572 6360 .e)))))
def mnemonicTree329 : Tree := .o (.o (.o (.o (.o (.o (.o .e 0x6265697365626f6c 10509 .e) 0x62656c6973636172 10513 .e) 0x62656e65766f6c65 4315 (.o .e 0x626572696d626175 10517 .e)) 0x6265726c696e6461 10518 (.o (.o (.o .e 0x6265cc816c696572 6362 .e) 0x6265cc817461696c 6371 .e) 0x6269667572636172 10527 (.o .e 0x62696c616e636961 4326 .e))) 0x62696c696e677565 6378 (.o (.o (.o (.o .e 0x62696d6573747265 10530 .e) 0x62696e6f636f6c6f 4328 .e) 0x62696f6c6f676961 10532 (.o .e 0x62696f6c6f676965 6381 .e)) 0x62696f7366657261 10534 (.o (.o .e 0x6269706f6c617265 4331 .e) 0x62697262616e7465 4332 (.o .e 0x62697272656e746f 10536 .e)))) 0x626973636f69746f 10537 (.o (.o (.o (.o (.o .e 0x626973636f74746f 4334 .e) 0x6269736e6f6e6e6f 4336 .e) 0x626973736578746f 10540 (.o .e 0x626973746f757269 6386 .e)) 0x62697a7a6172726f 4339 (.o (.o .e 0x626c61686f627974 8264 .e) 0x626c616e63686972 6391 (.o .e 0x626c61746f756368 8265 .e))) 0x626c657373616e74 6392 (.o (.o (.o (.o .e 0x626c696e6461646f 10543 .e) 0x626c6f6b6f766174 8271 .e) 0x626c6f7175656172 10545 (.o .e 0x626f636865636861 10550 .e)) 0x626f6861746f7374 8278 (.o (.o .e 0x626f69636f746172 10551 .e) 0x626f6d626569726f 10556 (.o .e 0x626f6e696669636f 4343 .e))))) 0x626f6e6966696572 6405 (.o (.o (.o (.o (.o (.o .e 0x626f6e7361cc8169 2311 .e) 0x626f7262756c6861 10560 .e) 0x626f726f76696365 8284 (.o .e 0x626f727261636861 10563 .e)) 0x626f74616e69636f 4346 (.o (.o (.o .e 0x626f7573736f6c65 6416 .e) 0x626f757469717565 6417 .e) 0x626f786561646f72 10565 (.o .e 0x626fcc8176656461 2317 .e))) 0x6272616461766b61 8292 (.o (.o (.o (.o .e 0x6272616d626f7261 8293 .e) 0x62726574656c6c61 4354 .e) 0x6272657576616765 6424 (.o .e 0x627265766574746f 4355 .e)) 0x627265cc80636865 6423 (.o (.o .e 0x627269636f6c6572 6425 .e) 0x6272696c6c616e74 6427 (.o .e 0x6272696e64617265 4359 .e)))) 0x62726f63636f6c69 227 (.o (.o (.o (.o (.o .e 0x62726f63636f6c6f 4360 .e) 0x62726f6368757261 10574 .e) 0x62726f6368757265 6430 (.o .e 0x62726f6e7a656172 10575 .e)) 0x62726f6e7a696e61 4362 (.o (.o .e 0x6272756e65746b61 8302 .e) 0x62727573696e6b61 8303 (.o .e 0x6275626e6f766174 8307 .e))) 0x62756a61726f7374 8313 (.o (.o (.o (.o .e 0x62756c6c6574696e 6441 .e) 0x6275727261736361 4373 .e) 0x627573696e657373 248 (.o .e 0x6361636574616461 10592 .e)) 0x6361636865747465 6451 (.o (.o .e 0x636163686f72726f 10593 .e) 0x636164617374726f 10595 (.o .e 0x6361696d61cc816e 2358 .e)))))
def mnemonicTree330 : Tree := .o mnemonicTree328 0x62617a696c696b61 8245 mnemonicTree329
def mnemonicTree331 : Tree := .o mnemonicTree327 0x617272656461746f 4235 mnemonicTree330
def mnemonicTree332 : Tree := .o mnemonicTree324 0x616264696b616365 8192 mnemonicTree331
def mnemonicTree333 : Tree := .o (.o (.o (.o (.o (.o (.o .e 0x63616c616d61726f 4378 .e) 0x63616c63756c6172 10604 .e) 0x63616c63756c6572 6457 (.o .e 0x63616c6465697261 10605 .e)) 0x63616c6962726172 10606 (.o (.o (.o .e 0x63616c6d616e7465 10607 .e) 0x63616c6f6d6e6965 6461 .e) 0x63616c7661697265 6462 (.o .e 0x63616d6172616465 6463 .e))) 0x63616d6269737461 10610 (.o (.o (.o (.o .e 0x63616d6572617461 4385 .e) 0x63616d65cc817261 6464 .e) 0x63616d6f6d696c61 10612 (.o .e 0x63616d7061676e65 6466 .e)) 0x63616d70616e6861 10613 (.o (.o .e 0x63616d75666c6172 10614 .e) 0x63616e617669616c 10615 (.o .e 0x63616e63656c6172 10616 .e)))) 0x63616e6976657465 10620 (.o (.o (.o (.o (.o .e 0x63617069746f6c6f 4398 .e) 0x6361706f6769726f 4399 .e) 0x636170726963686f 10629 (.o .e 0x6361707461646f72 10630 .e)) 0x6361726162696e65 6478 (.o (.o (.o .e 0x6361726170616365 4403 .e) 0x636172626fcc816e 2391 .e) 0x6361726361737361 4404 (.o .e 0x6361726573736572 6480 .e))) 0x636172696d626172 10636 (.o (.o (.o (.o .e 0x636172696ecc836f 2395 .e) 0x6361726e6569726f 10637 .e) 0x6361726f76616e61 4407 (.o .e 0x6361727265697261 10639 .e)) 0x636172726574746f 4408 (.o (.o .e 0x63617276616c686f 10641 .e) 0x636173616363696f 4410 (.o .e 0x63617374656c6c6f 4415 .e))))) 0x6361746172617461 10647 (.o (.o (.o (.o (.o (.o .e 0x63617465676f7279 289 .e) 0x6361757361646f72 10650 .e) 0x63617574656c6172 10651 (.o .e 0x636176616c696572 6492 .e)) 0x6361cc816e636572 2375 (.o (.o (.o .e 0x6361cc817263656c 2392 .e) 0x6365646962696c65 4422 .e) 0x6365696e74757265 6496 (.o .e 0x63656c6562726172 10657 .e))) 0x63656e6472696572 6499 (.o (.o (.o (.o .e 0x63656e7375726572 6500 .e) 0x636572616d696361 4430 .e) 0x636572746569726f 10664 (.o .e 0x63657276656c6c6f 4434 .e)) 0x636573746f706973 8342 (.o (.o .e 0x6365cc816c756c61 2416 .e) 0x6365cc8173706564 2426 (.o .e 0x6368616c65697261 10669 .e)))) 0x6368616d70696f6e 304 (.o (.o (.o (.o (.o .e 0x6368616d7075cc81 2430 .e) 0x6368617061646c6f 8345 .e) 0x6368617069747265 6513 (.o .e 0x6368617373657572 6515 .e)) 0x6368617573736f6e 6517 (.o (.o .e 0x6368617669726572 6518 .e) 0x6368656368746174 8348 (.o .e 0x6368656e696c6c65 6520 .e))) 0x6368657263686572 6522 (.o (.o (.o (.o .e 0x6368696564657265 4441 .e) 0x636869727572676f 4444 .e) 0x6368697461727261 4445 (.o .e 0x63686c6f72757265 6529 .e)) 0x63686f63616c686f 10682 (.o (.o .e 0x63686f636f6c6174 6530 .e) 0x63686f7565747465 6533 (.o .e 0x63687469766f7374 8369 .e)))))
def mnemonicTree334 : Tree := .o (.o (.o (.o (.o (.o (.o .e 0x6369636c69736d6f 4447 .e) 0x6369636c6fcc816e 2441 .e) 0x6369647265697261 10690 (.o .e 0x6369676172657461 8379 .e)) 0x63696c696e64726f 4450 (.o (.o (.o .e 0x63696d656e746572 6538 .e) 0x63696e65cc816d61 6539 .e) 0x63696e6e616d6f6e 328 (.o .e 0x63696f74746f6c6f 4451 .e))) 0x6369707265cc8173 2452 (.o (.o (.o (.o .e 0x636972637569746f 10697 .e) 0x63697263756c6572 6541 .e) 0x6369727572676961 10698 (.o .e 0x6369737465726e61 8384 .e)) 0x636c61737369636f 4459 (.o (.o .e 0x636c6f706f727465 6559 .e) 0x636f626572746f72 10708 (.o .e 0x636f636f74696572 6563 .e)))) 0x636f646966696572 6565 (.o (.o (.o (.o (.o .e 0x636f6572656e7465 4465 .e) 0x636f67756d656c6f 10714 .e) 0x636f6c65cc807265 6571 (.o .e 0x636f6c6d61746572 6574 .e)) 0x636f6d62696e6172 10726 (.o (.o (.o .e 0x636f6d656e746172 10727 .e) 0x636f6d6974697661 10728 .e) 0x636f6d6d616e6465 6578 (.o .e 0x636f6d6d616e646f 4475 .e))) 0x636f6d706c65786f 10730 (.o (.o (.o (.o .e 0x636f6d7075746572 4477 .e) 0x636f6e6475697265 6581 .e) 0x636f6e6475727265 4480 (.o .e 0x636f6e6563746172 10734 .e)) 0x636f6e6665726d61 4481 (.o (.o .e 0x636f6e67656c6172 10736 .e) 0x636f6e67656c6572 6583 (.o .e 0x636f6e6772657373 376 .e))))) 0x636f6e6865636572 10737 (.o (.o (.o (.o (.o (.o .e 0x636f6e6a75676172 10738 .e) 0x636f6e6e6573736f 4484 .e) 0x636f6e6e6f746572 6584 (.o .e 0x636f6e7369646572 378 .e)) 0x636f6e736f6e6e65 6585 (.o (.o (.o .e 0x636f6e73756d6972 10739 .e) 0x636f6e74696e756f 4487 .e) 0x636f6e747261746f 10740 (.o .e 0x636f6e7665676e6f 4488 .e))) 0x636f6e76696e6365 380 (.o (.o (.o (.o .e 0x636f6f7065726172 10742 .e) 0x636f706961646f72 10744 .e) 0x636f71756574656c 10746 (.o .e 0x636f72646fcc816e 2502 .e)) 0x636f72696361746f 4495 (.o (.o .e 0x636f726e69636865 6593 .e) 0x636f72706f72616c 10751 (.o .e 0x636f736d69717565 6597 .e)))) 0x636f7374616e7465 4503 (.o (.o (.o (.o (.o .e 0x636f746f6e657465 10758 .e) 0x636fcc816469676f 2471 .e) 0x636fcc816d6f646f 2489 (.o .e 0x6372617661747461 4507 .e)) 0x637261cc816e656f 2508 (.o (.o .e 0x637261cc81746572 2509 .e) 0x63726569cc81646f 2512 (.o .e 0x6372657363697461 4511 .e))) 0x6372657665747465 6614 (.o (.o (.o (.o .e 0x6372696d696e616c 10771 .e) 0x6372697469636172 10774 .e) 0x63726f7175657461 2520 (.o .e 0x63726f7374617461 4519 .e)) 0x6372756369616c65 4520 (.o (.o .e 0x6372757a6569726f 10777 .e) 0x637565696c6c6972 6626 (.o .e 0x63756c6d696e6172 10783 .e)))))
def mnemonicTree335 : Tree := .o mnemonicTree333 0x636963617472697a 10687 mnemonicTree334
def mnemonicTree336 : Tree := .o (.o (.o (.o (.o (.o (.o .e 0x63756c7469766572 6631 .e) 0x637570626f617264 430 .e) 0x637572617469766f 10789 (.o .e 0x63757261746f7265 4527 .e)) 0x6375cc8170756c61 2544 (.o (.o (.o .e 0x6376616b6e6f7574 8398 .e) 0x63796b6c69737461 8402 .e) 0x63796c696e647265 6638 (.o .e 0x64616d6572696e6f 4535 .e))) 0x6461756768746572 446 (.o (.o (.o (.o .e 0x646562756c686172 10801 .e) 0x646563616c717565 10802 .e) 0x646563656d626572 453 (.o .e 0x646563656e6e696f 4543 .e)) 0x646563686f766b61 8409 (.o (.o .e 0x6465636f72617465 456 .e) 0x6465637265617365 457 (.o .e 0x6465637265746172 10806 .e)))) 0x646564696361646f 10808 (.o (.o (.o (.o (.o .e 0x646564696361746f 4548 .e) 0x646566696e69746f 4549 .e) 0x6465677573746172 10814 (.o .e 0x64656c656761646f 10818 .e)) 0x64656c6567617265 4552 (.o (.o (.o .e 0x64656c6669cc816e 2563 .e) 0x64656c696e656172 10819 .e) 0x64656d616e646572 6671 (.o .e 0x64656d6575726572 6672 .e))) 0x64656d6f6b726174 8415 (.o (.o (.o (.o .e 0x64656d6f6c69646f 10823 .e) 0x64656e6f7461746f 4557 .e) 0x64656e74656c6c65 6676 (.o .e 0x64656e7469737461 10824 .e)) 0x646570656e61646f 10825 (.o (.o .e 0x6465706f7369746f 4559 .e) 0x6465707265737361 10828 (.o .e 0x6465726170617461 4560 .e))))) 0x6465726976617265 4561 (.o (.o (.o (.o (.o (.o .e 0x64657272616d6172 10831 .e) 0x6465736179756e6f 2572 .e) 0x646573626f746172 10833 (.o .e 0x64657363616e736f 10834 .e)) 0x64657363656e7465 6686 (.o (.o (.o .e 0x6465736372696265 476 .e) 0x646573666961646f 10836 .e) 0x6465736761737465 10837 (.o .e 0x646573696775616c 10838 .e))) 0x6465736d616d6172 10840 (.o (.o (.o (.o .e 0x64657373696e6572 6690 .e) 0x6465737461717565 10843 .e) 0x6465737472696572 6691 (.o .e 0x646573756d657265 4566 .e)) 0x6465737669cc816f 2577 (.o (.o .e 0x646574616c686172 10845 .e) 0x646574656b746976 8419 (.o .e 0x646574656e746f72 10846 .e)))) 0x646576616e636572 6696 (.o (.o (.o (.o (.o .e 0x6465766f7461646f 10852 .e) 0x6465cc8163616461 2557 .e) 0x6465cc8164616c65 6658 (.o .e 0x6465cc8165737365 6660 .e)) 0x6465cc816c696365 6669 (.o (.o .e 0x6465cc8170617274 6678 .e) 0x6465cc8173657274 6687 (.o .e 0x6469616772616d61 10854 .e))) 0x6469616c6f677565 6701 (.o (.o (.o (.o .e 0x6469616d616e7465 2584 .e) 0x6469616d6574726f 4569 .e) 0x646963656d627265 4570 (.o .e 0x6469676572697265 4574 .e)) 0x6469676974616c65 4575 (.o (.o .e 0x64696b6f6272617a 8420 .e) 0x64696b746f766174 8421 (.o .e 0x64696c617461646f 10859 .e)))))
def mnemonicTree337 : Tree := .o (.o (.o (.o (.o (.o (.o .e 0x64696d616e636865 6709 .e) 0x64696d696e756572 6710 .e) 0x64696d696e756972 10861 (.o .e 0x64696e616d69636f 4577 .e)) 0x64696e6173746961 10862 (.o (.o (.o .e 0x64696e686569726f 10863 .e) 0x64696e6e616e7a69 4578 .e) 0x64696e6f73617572 499 (.o .e 0x6469726164617265 4582 .e))) 0x6469726563746966 6712 (.o (.o (.o (.o .e 0x6469736167726565 502 .e) 0x646973636f766572 503 .e) 0x6469736372657461 10866 (.o .e 0x646973637265746f 4587 .e)) 0x6469736375746572 6714 (.o (.o .e 0x646973656ecc836f 2600 .e) 0x6469736661726365 10867 (.o .e 0x6469736f72646572 507 .e)))) 0x646973706f736572 6715 (.o (.t (.o (.o (.o .e 0x646973706f73746f 4590 .e) 0x6469737175657465 10869 .e) 0x6469737369706172 10870 (.o .e 0x6469737369706572 6716 .e)) 0x64697374616e6365 509 6717 (.o (.o .e 0x64697374616e7465 10871 .e) 0x64697374616e7a61 4591 (.o .e 0x646973756d616e6f 4592 .e))) 0x6469766572746972 6718 (.o (.o (.o (.o .e 0x6469766964657265 4596 .e) 0x6469766f7261746f 4597 .e) 0x646976756c676172 10876 (.o .e 0x646c75686f706973 8430 .e)) 0x646f627261646f72 10878 (.o (.o .e 0x646f636875746974 8435 .e) 0x646f63756d656e74 515 (.o .e 0x646f67616e616c65 4600 .e))))) 0x646f6b756d656e74 8445 (.o (.o (.o (.o (.o (.o .e 0x646f6c6f7269646f 10879 .e) 0x646f6d656e696361 4604 .e) 0x646f6d6963696c65 6725 (.o .e 0x646f6d696e61646f 10881 .e)) 0x646f6d696e616e74 8450 (.o (.o (.o .e 0x646f6d696e617265 4605 .e) 0x646f6d6c75766974 8451 .e) 0x646f6e6174657572 6727 (.o .e 0x646f6e617469766f 10882 .e))) 0x646f70616d696e65 6730 (.o (.o (.o (.o .e 0x646f70726f766f64 8458 .e) 0x646f707573746974 8459 .e) 0x646f726d656e7465 10884 (.o .e 0x646f73746174656b 8465 .e)) 0x646f746174696f6e 6736 (.o (.o .e 0x646f746b6e6f7574 8470 .e) 0x646f75616e696572 6737 (.o .e 0x647261676fcc816e 2615 .e)))) 0x6472616d6174696b 8479 (.o (.o (.o (.o (.o .e 0x6472656e6167656d 10889 .e) 0x64726962626c6572 6745 .e) 0x64726f626e6f7374 8483 (.o .e 0x64726f6761726961 10891 .e)) 0x64726f6765726965 8484 (.o (.o .e 0x64726f6974757265 6746 .e) 0x6475626974617265 4616 (.o .e 0x647563686f766e6f 8490 .e))) 0x647572617475726f 4621 (.o (.o (.o (.o .e 0x64757669646f736f 10898 .e) 0x64796e6173746965 6751 .e) 0x65636f6c6f676961 10901 (.o .e 0x65636f6e6f6d6961 4626 .e)) 0x6564696669636172 10902 (.o (.o .e 0x656469666963696f 2634 .e) 0x656469746f726961 4630 (.o .e 0x6566657469766172 10906 .e)))))
def mnemonicTree338 : Tree := .o mnemonicTree336 0x64696c75656e7465 10860 mnemonicTree337
def mnemonicTree339 : Tree := .o mnemonicTree335 0x63756c6d696e6572 6630 mnemonicTree338
def mnemonicTree340 : Tree := .o (.o (.o (.o (.o (.o (.o .e 0x6566667261796572 6776 .e) 0x6566667573696f6e 6777 .e) 0x6567656d6f6e6961 4632 (.o .e 0x656b6f6e6f6d6965 8501 .e)) 0x656c61626f726172 10908 (.o (.o (.o .e 0x656c617267697265 4637 .e) 0x656c656374726963 571 .e) 0x656c6566616e7465 2641 (.o .e 0x656c6567616e7465 4638 .e))) 0x656c656b74726f6e 8502 (.o (.o (.o (.o .e 0x656c656d656e746f 2643 .e) 0x656c656e6361746f 4639 .e) 0x656c657068616e74 574 (.o .e 0x656c657661646f72 10912 .e)) 0x656c657661746f72 575 (.o (.o .e 0x656c696d696e6172 10913 .e) 0x656d62616c6c6572 6792 (.o .e 0x656d62656c6c6972 6793 .e)))) 0x656d626f6c61646f 10916 (.o (.o (.o (.o (.o .e 0x656d6272756c686f 10917 .e) 0x656d62757469646f 10918 .e) 0x656d6f7a696f6e65 4652 (.o .e 0x656d70656ecc836f 2654 .e)) 0x656d706572657572 6800 (.o (.o (.o .e 0x656d70696e61646f 10924 .e) 0x656d70697269636f 4653 .e) 0x656d706c6f796572 6801 (.o .e 0x656d706f6c676172 10925 .e))) 0x656d706f72746572 6802 (.o (.o (.o (.o .e 0x656d707572726172 10927 .e) 0x656d756c61646f72 10928 .e) 0x656e636164726572 6805 (.o .e 0x656e63656e61646f 10930 .e)) 0x656e6368656e7465 10931 (.o (.o .e 0x656e636f6e74726f 10932 .e) 0x656e64656d69636f 4655 (.o .e 0x656e646575736172 10933 .e))))) 0x656e646967756572 6809 (.o (.o (.o (.o (.o (.o .e 0x656e646f73736172 10934 .e) 0x656e646f73736572 6810 .e) 0x656e666169786172 10935 (.o .e 0x656e6665726d6572 6815 .e)) 0x656e67616a61646f 10938 (.o (.o (.o .e 0x656e67616ecc836f 2665 .e) 0x656e676c6f626172 10940 .e) 0x656e676c6f626572 6819 (.o .e 0x656e676f6d61646f 10941 .e))) 0x656e677261786172 10942 (.o (.o (.o (.o .e 0x656e6a616d626572 6821 .e) 0x656e6e7579657578 6825 .e) 0x656e7175616e746f 10946 (.o .e 0x656e7261697a6172 10947 .e)) 0x656e726963686972 6826 (.o (.o .e 0x656e726f62616765 6827 .e) 0x656e726f6c61646f 10948 (.o .e 0x656e736569676e65 6828 .e)))) 0x656e736f7061646f 10953 (.o (.o (.o (.o (.o .e 0x656e746173736572 6829 .e) 0x656e74656e647265 6830 .e) 0x656e746964616465 10956 (.o .e 0x656e746f72746172 10957 .e)) 0x656e746f75726572 6832 (.o (.o .e 0x656e747261766572 6833 .e) 0x656e76656c6f7065 606 (.o .e 0x656e766572676172 10960 .e))) 0x656e766961626c65 6836 (.o (.o (.o (.o .e 0x656e766f6c766572 10962 .e) 0x6570696465726d65 10967 .e) 0x657069736f64696f 4664 (.o .e 0x65717561746f7265 4667 .e)) 0x65726d657469636f 4674 (.o (.o .e 0x6573617564697265 4681 .e) 0x657362616e6a6172 10974 (.o .e 0x657363616c696572 6861 .e)))))
def mnemonicTree341 : Tree := .o (.o (.o (.o (.o (.o (.o .e 0x657365726369746f 4684 .e) 0x6573667265676172 10982 .e) 0x6573667565727a6f 2686 (.o .e 0x657366756d61646f 10983 .e)) 0x65736967656e7465 4686 (.o (.o (.o .e 0x6573697374657265 4687 .e) 0x65736f727461746f 4690 .e) 0x65737065cc806365 6863 (.o .e 0x6573707265697461 10990 .e))) 0x657370726573736f 4693 (.o (.o (.o (.o .e 0x6573717565726461 10992 .e) 0x6573717569766572 6867 .e) 0x657374696d617265 4697 (.o .e 0x6573746f6661646f 10996 .e)) 0x6573756c74617265 4700 (.o (.o .e 0x657376617a696172 10999 .e) 0x6574697175657461 11001 (.o .e 0x6575636c6964656f 4705 .e)))) 0x657570686f726965 6893 (.o (.o (.o (.o (.o .e 0x657661706f726172 11005 .e) 0x6576656e7475616c 11007 .e) 0x65766964656e6365 622 (.o .e 0x65766964656e7465 11008 .e)) 0x65766964656e7a61 4708 (.o (.o .e 0x6578616d696e6172 11012 .e) 0x657863656c6c6572 6904 (.o .e 0x65786368616e6765 629 .e))) 0x6578636974616e74 6905 (.o (.o (.o (.o .e 0x6578636c616d6172 11017 .e) 0x6578636c75736966 6906 .e) 0x6578656375746172 11018 (.o .e 0x6578657263697365 634 .e)) 0x6578686f72746572 6912 (.o (.o .e 0x65786967656e6365 6913 .e) 0x65786967656e7465 11021 (.o .e 0x65786f6e65726172 11022 .e))))) 0x65786f7469717565 6916 (.o (.o (.o (.o (.o (.o .e 0x657870616e646972 11023 .e) 0x6578706564696365 8521 .e) 0x6578706c616e6172 11026 (.o .e 0x6578706c69636172 2715 .e)) 0x6578706c6f726572 6918 (.o (.o (.o .e 0x657870726573736f 11028 .e) 0x65787072696d6572 6920 .e) 0x657870756c736172 11029 (.o .e 0x657874656e736966 6922 .e))) 0x6578747261697265 6923 (.o (.o (.o (.o .e 0x65cc81636c6f7265 6758 .e) 0x65cc81636c757365 6759 .e) 0x65cc81636f726365 6762 (.o .e 0x65cc816761726572 6779 .e)) 0x65cc816c75646572 6791 (.o (.o .e 0x65cc816e69676d65 6820 .e) 0x65cc816f6c69656e 6839 (.o .e 0x65cc817061756c65 6843 .e)))) 0x65cc81706f717565 6851 (.o (.o (.o (.o (.o .e 0x65cc817175697065 6856 .e) 0x65cc817269676572 6857 .e) 0x65cc8174616c6572 6876 (.o .e 0x65cc817469726572 6885 .e)) 0x65cc81746f696c65 6887 (.o (.o .e 0x65cc8174726f6974 6891 .e) 0x65cc817669746572 6898 (.o .e 0x6661626272696361 4712 .e))) 0x6661627269636172 11033 (.o (.o (.o (.o .e 0x666162756c657578 6926 .e) 0x666162756c6f736f 11034 .e) 0x66616363656e6461 4713 (.o .e 0x66616d69676c6961 4716 .e)) 0x66616d696c696172 11042 (.o (.o .e 0x66616e64616e676f 11043 .e) 0x66616e6661727261 11044 (.o .e 0x66616e7461736d61 4720 .e)))))
def mnemonicTree342 : Tree := .o mnemonicTree340 0x6573637269626972 2682 mnemonicTree341
def mnemonicTree343 : Tree := .o (.o (.o (.o (.o (.o (.o .e 0x66616e746f636865 11045 .e) 0x666172616fcc816e 2732 .e) 0x66617266616c6c61 4722 (.o .e 0x666172696e6f736f 4723 .e)) 0x6661726d61636961 2733 (.o (.o (.o .e 0x6661726d61636965 8530 .e) 0x6661726f75636865 6937 .e) 0x66617363696e6572 6938 (.o .e 0x6661746963617265 4728 .e))) 0x6661766f6c6f736f 4730 (.o (.o (.o (.o .e 0x6661766f72697461 11054 .e) 0x6661766f72697465 672 .e) 0x6661cc8162756c61 2719 (.o .e 0x6665627275617279 674 .e)) 0x6665646572616365 8533 (.o (.o .e 0x6665696a6f616461 11058 .e) 0x66656972616e7465 11059 (.o .e 0x66656d696e696e6f 11061 .e)))) 0x66656e6f6d656e6f 4739 (.o (.o (.o (.o (.o .e 0x6665726d656e746f 4740 .e) 0x666572727567656d 11066 .e) 0x66657374656a6172 11068 (.t .e 0x666573746976616c 681 6956 .e)) 0x6665737469cc816e 2749 (.o (.o (.o .e 0x6665cc816f64616c 6952 .e) 0x6665cc81726f6365 6954 .e) 0x6665cc817274696c 2747 (.o .e 0x666963686569726f 11074 .e))) 0x66696465cc806c65 6963 (.o (.o (.o (.o .e 0x666967757261646f 11075 .e) 0x6669677572616e74 8537 .e) 0x666967757261746f 4750 (.o .e 0x66696c6174757265 6965 .e)) 0x66696c6574616765 6966 (.o (.o .e 0x66696e616e636572 6972 .e) 0x66696e6573747261 4753 (.o .e 0x666c61636964657a 11087 .e))))) 0x666c616d656e636f 4760 (.o (.o (.o (.o (.o (.o .e 0x666c616d696e676f 11088 .e) 0x666c617474657572 6981 .e) 0x666c656368616461 11090 (.o .e 0x666c65cc80636865 6983 .e)) 0x666c756374756572 6988 (.o (.o (.o .e 0x666f636163636961 4767 .e) 0x666f64657261746f 4769 .e) 0x666f6c636c6f7265 4772 (.o .e 0x666f6e64656e7465 4774 .e))) 0x666f6e6465726965 6992 (.o (.o (.o (.o .e 0x666f6e657469636f 4775 .e) 0x666f6e6769626c65 6993 .e) 0x666f6e7461696e65 6994 (.o .e 0x666f726765726f6e 6996 .e)) 0x666f726d756c6572 6997 (.o (.o .e 0x666f7274657a7a61 4784 .e) 0x666f75696c6c6572 7002 (.o .e 0x667261636173736f 4788 .e)))) 0x6672616e63686972 7007 (.o (.o (.o (.o (.o .e 0x6672617373696e6f 4790 .e) 0x66726174656c6c6f 4791 .e) 0x6672617465726e6f 11112 (.o .e 0x667261cc8167696c 2795 .e)) 0x6672657175656e74 741 (.o (.o .e 0x667265cc816d6972 7013 .e) 0x6672696374696f6e 7017 (.o .e 0x66726f6c6c696e6f 4796 .e))) 0x6672757374726172 11120 (.o (.o (.o (.o .e 0x6672757465697261 11121 .e) 0x667563696c617461 4800 .e) 0x66756767656e7465 4802 (.o .e 0x66756e7a696f6e65 4809 .e)) 0x667572676fcc816e 2812 (.o (.o .e 0x6675cc8174626f6c 2815 .e) 0x676162617269746f 11131 (.o .e 0x6761626269616e6f 4816 .e)))))
def mnemonicTree344 : Tree := .o (.o (.o (.o (.o (.o (.o .e 0x67616d6261646572 7035 .e) 0x676172616e746972 7036 .e) 0x676172616e7a6961 4823 (.o .e 0x6761726f66616e6f 4825 .e)) 0x6761727269677565 7039 (.o (.o (.o .e 0x676173646f74746f 4827 .e) 0x6761736f6475746f 11148 .e) 0x6761736f6c696e61 2831 (.o .e 0x676173747269636f 4829 .e))) 0x67617a7a656c6c61 4833 (.o (.o (.o (.o .e 0x67656c6174696e61 4835 .e) 0x67656e6461726d65 7045 .e) 0x67656e65726f736f 11160 (.o .e 0x67656e6574696b61 8560 .e)) 0x67656e69746f7265 4840 (.o (.o .e 0x67656e6f7469706f 4842 .e) 0x67656f6c6f676961 11165 (.o .e 0x6765726d696e6172 11167 .e)))) 0x6765cc816c756c65 7044 (.o (.o (.o (.o (.o .e 0x6765cc816e65726f 2838 .e) 0x676865706172646f 4844 .e) 0x676869616363696f 4845 (.o .e 0x67696c6f74696e61 8562 .e)) 0x67696d6e6173696f 2846 (.o (.o .e 0x67696f69656c6c6f 4851 .e) 0x67697564697a696f 4857 (.o .e 0x676c6f7269657578 7065 .e))) 0x676c6f72696f736f 11178 (.o (.o (.o (.o .e 0x676f6c6669737461 8566 .e) 0x676f7570696c6c65 7074 .e) 0x676f75726d616e64 7075 (.o .e 0x676f7665726e6172 11188 .e)) 0x6772616666697469 7078 (.o (.o .e 0x6772616d6f666f6e 8569 .e) 0x6772617474617265 4875 (.o .e 0x677261747569746f 11195 .e))))) 0x6772696666757265 7085 (.o (.o (.o (.o (.o (.o .e 0x67726973616c686f 11202 .e) 0x6772697461726961 11203 .e) 0x67726f746573636f 11205 (.o .e 0x67726f7465736b61 8574 .e)) 0x6772756e6869646f 11207 (.o (.o (.o .e 0x6775616461676e6f 4885 .e) 0x6775617264617265 4888 .e) 0x67756178696e696d 11211 (.o .e 0x6775657272656172 11212 .e))) 0x6775657272696572 7096 (.o (.o (.o (.o .e 0x6775696d61757665 7098 .e) 0x6775697461727261 2887 .e) 0x6775737461746966 7100 (.o .e 0x67796d6e61737465 7101 .e)) 0x6779726f73746174 7102 (.o (.o .e 0x6861626974756465 7103 .e) 0x68616e6e65746f6e 7108 (.o .e 0x6861726d6f6e6961 11220 .e)))) 0x6861726d6f6e6965 7110 (.o (.o (.o (.o (.o .e 0x68617a616ecc8361 2900 .e) 0x6865646765686f67 852 .e) 0x6865cc816c69756d 7113 (.o .e 0x68696265726e6172 11228 .e)) 0x68696265726e6572 7121 (.o (.o .e 0x6869647261746172 11229 .e) 0x68696c6172616e74 7123 (.o .e 0x6869706f74656361 11234 .e))) 0x686973746f697265 7124 (.o (.o (.o (.o .e 0x686973746f726961 2917 .e) 0x686973746f72696b 8596 .e) 0x6869cc816761646f 2913 (.o .e 0x686c61646f766b61 8597 .e)) 0x686c617369766b79 8598 (.o (.o .e 0x686c6f6461766563 8602 .e) 0x686c6f75706f7374 8604 (.o .e 0x686c7563686f7461 8607 .e)))))
def mnemonicTree345 : Tree := .o mnemonicTree343 0x676162696e657465 11132 mnemonicTree344
def mnemonicTree346 : Tree := .o mnemonicTree342 0x66616e74617a6965 8529 mnemonicTree345
def mnemonicTree347 : Tree := .o mnemonicTree339 0x6566666563746966 6773 mnemonicTree346
def mnemonicTree348 : Tree := .o mnemonicTree332 0x63616c616672696f 10603 mnemonicTree347
def mnemonicTree349 : Tree := .o (.o (.o (.o (.o (.o (.o .e 0x686f6e6f72616365 8628 .e) 0x686f72697a6f6e74 8631 .e) 0x686f726c69766563 8633 (.o .e 0x686f726d6f6e616c 11240 .e)) 0x686f726f736b6f70 8636 (.o (.o (.o .e 0x686f727269626c65 7136 .e) 0x686f737065646172 11241 .e) 0x686f73706974616c 879 (.o .e 0x686f746f766f7374 8640 .e))) 0x687562656e6f7374 8663 (.o (.o (.o (.o .e 0x68756d6f7261646f 11242 .e) 0x6875cc816d65646f 2939 .e) 0x687964726f6d656c 7146 (.o .e 0x687973746572696b 8675 .e)) 0x696265726e61746f 4891 (.o (.o .e 0x6964656e7469636f 4893 .e) 0x6964656e74696679 900 (.o .e 0x6964726f67656e6f 4898 .e)))) 0x69676e6f7261646f 11246 (.o (.o (.o (.o (.o .e 0x69676e6f7261746f 4901 .e) 0x696c6c6963697465 7153 .e) 0x696c6c6f6769636f 4904 (.o .e 0x696c6c7564657265 4905 .e)) 0x696c6c7573696f6e 7154 (.o (.o (.o .e 0x696c756d696e6172 11252 .e) 0x696c757374726172 11253 .e) 0x696d62657675746f 4907 (.o .e 0x696d65646961746f 11255 .e))) 0x696d65727369766f 11257 (.o (.o (.o (.o .e 0x696d696e656e7465 11258 .e) 0x696d697461646f72 11259 .e) 0x696d6d6f62696c65 7159 (.o .e 0x696d6d6f6c61746f 4912 .e)) 0x696d6d7561626c65 7160 (.o (.o .e 0x696d706c616e7465 11263 .e) 0x696d706c6f726572 7163 (.o .e 0x696d7072656e7361 11265 .e))))) 0x696d7072696d6572 7165 (.o (.o (.o (.o (.o (.o .e 0x696d70726f6e7461 4917 .e) 0x696d756e697a6172 11267 .e) 0x696e616c61646f72 11268 (.o .e 0x696e617263617265 4919 .e)) 0x696e61747469766f 4920 (.o (.o (.o .e 0x696e6361726e6572 7167 .e) 0x696e63656e646965 7168 .e) 0x696e63656e64696f 4922 (.o .e 0x696e636964656e74 7169 .e))) 0x696e63697369766f 4924 (.o (.o (.o (.o .e 0x696e636c696e6572 7170 .e) 0x696e636f6c6f7265 7171 .e) 0x696e636f6e74726f 4926 (.o .e 0x696e637265617365 917 .e)) 0x696e63726f63696f 4927 (.o (.o .e 0x696e646167696e65 4929 .e) 0x696e64656369736f 11276 (.o .e 0x696e646963617465 919 .e)))) 0x696e64697265746f 11277 (.o (.o (.o (.o (.o .e 0x696e647563746966 7174 .e) 0x696e647573747279 921 .e) 0x696e65666963617a 11279 (.o .e 0x696e6572656e7465 11280 .e)) 0x696e65cc81646974 7175 (.o (.o .e 0x696e66616e74696c 11281 .e) 0x696e666573746172 11282 (.o .e 0x696e66696c617265 4934 .e))) 0x696e66696e69746f 11283 (.o (.o (.o (.o .e 0x696e666c616d6172 11284 .e) 0x696e666c69676572 7179 .e) 0x696e666c6974746f 4935 (.o .e 0x696e666f726d616c 11285 .e)) 0x696e666f726d6572 7180 (.o (.o .e 0x696e667261746f72 11286 .e) 0x696e667573696f6e 7181 (.o .e 0x696e67616767696f 4936 .e)))))
def mnemonicTree350 : Tree := .o (.o (.o (.o (.o (.t (.o .e 0x696e6a6563746572 7185 .e) 0x696e6e6f63656e74 932 7187 .e) 0x696e6f63656e7465 11292 (.o .e 0x696e6f63756c6572 7188 .e)) 0x696e6f6e6461746f 4944 (.o (.o (.o .e 0x696e6f7661646f72 11294 .e) 0x696e71756965746f 11296 .e) 0x696e736372697265 7190 (.o .e 0x696e73637269746f 11297 .e))) 0x696e736973746972 11299 (.o (.o (.o (.o .e 0x696e736f6c697465 7193 .e) 0x696e736f6e6e6961 4948 .e) 0x696e7370656b6365 8685 (.o .e 0x696e737065746f72 11300 .e)) 0x696e737069726572 7194 (.o (.o .e 0x696e7374616c6172 11301 .e) 0x696e7374616e7465 2972 (.o .e 0x696e7374696e6374 7195 .e)))) 0x696e73756c696e61 4949 (.o (.o (.o (.o (.o .e 0x696e73756c746572 7196 .e) 0x696e74617361746f 4950 .e) 0x696e74656772616c 11304 (.o .e 0x696e746572657374 941 .e)) 0x696e7465726e6574 8686 (.o (.o (.o .e 0x696e746f6361646f 11306 .e) 0x696e746f6e61636f 4952 .e) 0x696e747269677565 7200 (.o .e 0x696e747569746966 7201 .e))) 0x696e75cc8174696c 2976 (.o (.o (.o (.o .e 0x696e76616c696461 8687 .e) 0x696e76616c69646f 4955 .e) 0x696e766173696f6e 7203 (.o .e 0x696e76656e746572 7204 .e)) 0x696e766573746f72 8688 (.o (.o .e 0x696e766965726e6f 2977 .e) 0x696e766f71756572 7206 (.o .e 0x69706572626f6c65 4958 .e))))) 0x69706e6f7469636f 4959 (.o (.o (.o (.o (.o (.o .e 0x6972616e69616e6f 11313 .e) 0x69726f6e69717565 7207 .e) 0x69726f6e697a6172 11314 (.o .e 0x69726f6e69cc8161 2980 .e)) 0x6972726164696572 7208 (.o (.o (.o .e 0x69727265cc81656c 7209 .e) 0x697272696761746f 4965 .e) 0x697272697461646f 11316 (.o .e 0x6972726f72617265 4966 .e))) 0x697371756569726f 11320 (.o (.o (.o (.o .e 0x697374657269636f 4969 .e) 0x697374697475746f 4970 .e) 0x6974616c69616e6f 11321 (.o .e 0x69cc816e64696365 2962 .e)) 0x69cc816e74696d6f 2974 (.o (.o .e 0x6a6162616c69cc81 2983 .e) 0x6a61726172616361 11325 (.o .e 0x6a61726469cc816e 2987 .e)))) 0x6a617a6d69cc816e 2990 (.o (.o (.o (.o (.o .e 0x6a65646e6174656c 8707 .e) 0x6a65756e65737365 7225 .e) 0x6a6974726e696365 8724 (.o .e 0x6a6d656e6f766174 8726 .e)) 0x6a6f616e696e6861 11333 (.o (.o .e 0x6a6f656c68616461 11334 .e) 0x6a6f756973736966 7230 (.o .e 0x6a7567656d656e74 7236 .e))) 0x6a756c6761646f72 11344 (.o (.o (.o (.o .e 0x6b616c616d697461 8740 .e) 0x6b616d6b6f6c6976 8745 .e) 0x6b616e6761726f6f 972 (.o .e 0x6b6170616c696e61 8750 .e)) 0x6b617069746f6c61 8752 (.o (.o .e 0x6b61707962617261 8758 .e) 0x6b617a69766f7374 8770 (.o .e 0x6b64656b6f6c6976 8771 .e)))))
def mnemonicTree351 : Tree := .o mnemonicTree349 0x696e67726f73736f 4940 mnemonicTree350
def mnemonicTree352 : Tree := .o (.o (.o (.o (.o (.o (.o .e 0x6b6572616d696b61 8775 .e) 0x6b6c65736e6f7574 8786 .e) 0x6b6c75626f766e61 8794 (.o .e 0x6b6c757a6b6f7374 8796 .e)) 0x6b6f6d756e697461 8822 (.o (.o (.o .e 0x6b6f6e7a65727661 8832 .e) 0x6b6f70726f766b61 8836 .e) 0x6b6f72656b746f72 8838 (.o .e 0x6b6f726d69646c6f 8839 .e))) 0x6b6f726f70746576 8840 (.o (.o (.o (.o .e 0x6b6f7570656c6e61 8851 .e) 0x6b72616c6f766174 8860 .e) 0x6b7261736f706973 8861 (.o .e 0x6b72756861646c6f 8880 .e)) 0x6b75646c616e6b61 8888 (.o (.o .e 0x6b75706f64697675 8898 .e) 0x6b766173696e6b61 8903 (.o .e 0x6b7973656c696e61 8906 .e)))) 0x6c61626172656461 11350 (.o (.o (.o (.o (.o .e 0x6c61626f75726572 7248 .e) 0x6c61627261646f72 8912 .e) 0x6c6163657261746f 4977 (.o .e 0x6c616374616e7465 11353 .e)) 0x6c616472696c686f 11354 (.o (.o (.o .e 0x6c6164726fcc816e 3020 .e) 0x6c616d656e746172 11359 .e) 0x6c616e6365747461 4983 (.o .e 0x6c616e676f737461 3030 .e))) 0x6c616e6775616765 999 (.o (.o (.o (.o .e 0x6c616e7465726e61 4984 .e) 0x6c616e7465726e65 7260 .e) 0x6c61767261646f72 11374 (.o .e 0x6c61cc816d696e61 3026 .e)) 0x6c65616c64616465 11377 (.o (.o .e 0x6c6567656e646172 11380 .e) 0x6c6567696fcc816e 3047 (.o .e 0x6c6567756d627265 3048 .e))))) 0x6c656d6272657465 11385 (.o (.o (.o (.o (.o (.o .e 0x6c656e6861646f72 11387 .e) 0x6c656e6f63686f64 8938 .e) 0x6c656e74657a7a61 4997 (.o .e 0x6c656e74696c6861 11388 .e)) 0x6c656e74696c6b61 8939 (.o (.o (.o .e 0x6c656f706172646f 3054 .e) 0x6c6573696fcc816e 3055 .e) 0x6c65746f6b727568 8945 (.o .e 0x6c6574726569726f 11393 .e))) 0x6c6576696761746f 5006 (.o (.o (.o (.o .e 0x6c65766974616365 8947 .e) 0x6c65cc8167756d65 7270 .e) 0x6c65cc817a617264 7275 (.o .e 0x6c69626572746164 3060 .e)) 0x6c6963686f746b61 8950 (.o (.o .e 0x6c6964736b6f7374 8952 .e) 0x6c6965cc80767265 7282 (.o .e 0x6c69676174757265 7283 .e)))) 0x6c69686f76696e61 8953 (.o (.o (.o (.o (.o .e 0x6c696d6174757261 5011 .e) 0x6c696d6974617265 5012 .e) 0x6c696d6f6569726f 11403 (.o .e 0x6c696d6f6e616465 7288 .e)) 0x6c696d7061646f72 11404 (.o (.o .e 0x6c696e686167656d 11407 .e) 0x6c696e6f6c65756d 8959 (.o .e 0x6c696e7465726e61 3077 .e))) 0x6c696f6e63656175 7292 (.o (.o (.o (.o .e 0x6c6971756964657a 11408 .e) 0x6c6973746167656d 11409 .e) 0x6c6973746f706164 8960 (.o .e 0x6c6974746f72616c 7298 .e)) 0x6c69cc816d697465 3069 (.o (.o .e 0x6c6f63696fcc816e 3095 .e) 0x6c6f696e7461696e 7301 (.o .e 0x6c6f6b616c697461 8967 .e)))))
def mnemonicTree353 : Tree := .o (.o (.o (.o (.o (.o (.o .e 0x6c6f747465726961 5032 .e) 0x6c6fcc8167696361 3098 .e) 0x6c737469766f7374 8980 (.o .e 0x6c7563696461746f 5034 .e)) 0x6c75637261746966 7312 (.o (.o (.o .e 0x6c756d696e6f736f 5036 .e) 0x6c75737472616365 8985 .e) 0x6d61636368696e61 5044 (.o .e 0x6d6163696e61746f 5046 .e))) 0x6d616472696e6861 11440 (.o (.o (.o (.o .e 0x6d61696e7469656e 7328 .e) 0x6d61696f6c696361 5052 .e) 0x6d616a6f72697461 8996 (.o .e 0x6d616b6f76696365 8998 .e)) 0x6d616c6166656465 5053 (.o (.o .e 0x6d616c616e64726f 11445 .e) 0x6d616c677261646f 5054 (.o .e 0x6d616c6c65747465 7336 .e)))) 0x6d616c756d6f7265 5058 (.o (.o (.o (.o (.o .e 0x6d616d6d6f757468 7337 .e) 0x6d616d6f6569726f 11450 .e) 0x6d616e6461746572 7338 (.o .e 0x6d616e646f726c61 5061 .e)) 0x6d616e657175696d 11455 (.o (.o .e 0x6d616e6769617265 5062 .e) 0x6d616e6961626c65 7339 (.o .e 0x6d616e6976656c61 11457 .e))) 0x6d616e6f62726172 11458 (.o (.o (.o (.o .e 0x6d616e7175616e74 7340 .e) 0x6d616e7361726461 5066 .e) 0x6d616e756272696f 5068 (.o .e 0x6d616e7573656172 11461 .e)) 0x6d616ecc83616e61 3140 (.o (.o .e 0x6d617175696e6172 11463 .e) 0x6d61726174686f6e 7343 (.o .e 0x6d617261746f6e61 5070 .e))))) 0x6d61726361646f72 11464 (.o (.o (.o (.o (.o (.o .e 0x6d61726368616e64 7345 .e) 0x6d61726974696d65 7347 .e) 0x6d61727175657572 7348 (.o .e 0x6d61727175697365 11471 .e)) 0x6d61727269616765 1090 (.o (.o (.o .e 0x6d6172726fcc816e 3150 .e) 0x6d6172737570696f 5074 .e) 0x6d617274656c6572 7350 (.o .e 0x6d61736368657261 5075 .e))) 0x6d6173636f747465 7351 (.o (.o (.o (.o .e 0x6d61736d6f727261 11476 .e) 0x6d61736f70757374 9010 .e) 0x6d6173736167656d 11477 (.o .e 0x6d61737469676172 11478 .e)) 0x6d6174657269616c 1095 (.o (.o .e 0x6d61747261717565 7355 .e) 0x6d61747572697461 9013 (.o .e 0x6d61757373616465 7357 .e)))) 0x6d61cc81726d6f6c 3149 (.o (.o (.o (.o (.o .e 0x6d61cc8178696d6f 3160 .e) 0x6d6563656e617465 5085 .e) 0x6d656368616e6963 1105 (.o .e 0x6d656368616e696b 9019 .e)) 0x6d65646573696d6f 5086 (.o (.o .e 0x6d65646974616365 9020 .e) 0x6d65646974617265 5087 (.o .e 0x6d65646f76696e61 9021 .e))) 0x6d656761666f6e65 11487 (.o (.o (.o (.o .e 0x6d65696c6c657572 7366 .e) 0x6d656c616e636961 11489 .e) 0x6d656d6f7269616c 11492 (.o .e 0x6d656e736167656d 11495 .e)) 0x6d656e736f6e6765 7374 (.o (.o .e 0x6d656e746f6c6b61 9024 .e) 0x6d65726372656469 7376 (.o .e 0x6d6572637572696f 5095 .e)))))
def mnemonicTree354 : Tree := .o mnemonicTree352 0x6c6f6d636f766174 8969 mnemonicTree353
def mnemonicTree355 : Tree := .o mnemonicTree351 0x6b65646c7562656e 8773 mnemonicTree354
def mnemonicTree356 : Tree := .o (.o (.o (.o (.o (.o (.o .e 0x6d657267756c686f 11498 .e) 0x6d65736368696e6f 5098 .e) 0x6d65737175697461 11502 (.o .e 0x6d65737361676572 7379 .e)) 0x6d6574726167656d 11506 (.o (.o (.o .e 0x6d65786963616e6f 11508 .e) 0x6d65cc8164756c61 3166 .e) 0x6d65cc8164757365 7365 (.o .e 0x6d65cc8172697465 7377 .e))) 0x6d65cc817269746f 3178 (.o (.o (.o (.o .e 0x6d65cc8174696572 7384 .e) 0x6d65cc81746f646f 3183 .e) 0x6d69646e69676874 1123 (.o .e 0x6d69676c696f7265 5112 .e)) 0x6d696b726f666f6e 9033 (.o (.o .e 0x6d696c696d657472 9035 .e) 0x6d696c6c6fcc816e 3193 (.o .e 0x6d696e636f766e61 9038 .e)))) 0x6d696e6572616c65 5116 (.o (.o (.o (.o (.o .e 0x6d696e697374726f 11518 .e) 0x6d696e756c6f7374 9041 .e) 0x6d69726f69746572 7400 (.o .e 0x6d697274696c6c6f 5120 .e)) 0x6d69737475726172 11523 (.o (.o (.o .e 0x6d69737572617265 5124 .e) 0x6d69746967617265 5126 .e) 0x6d697474656e7465 5128 (.o .e 0x6d69cc816e696d6f 3197 .e))) 0x6d6c686f76696e61 9047 (.o (.o (.o (.o .e 0x6d6f636964616465 11524 .e) 0x6d6f63696fcc816e 3208 .e) 0x6d6f646966696361 5131 (.o .e 0x6d6f646c69746261 9056 .e)) 0x6d6f656c6c657578 7405 (.o (.o .e 0x6d6f6c656b756c61 9059 .e) 0x6d6f6c696e657465 11534 (.o .e 0x6d6f6d656e746b61 9060 .e))))) 0x6d6f6e6172636861 9061 (.o (.o (.o (.o (.o (.o .e 0x6d6f6e6974657572 7407 .e) 0x6d6f6e6f746f6e65 7409 .e) 0x6d6f6e6f746f6e6f 5142 (.o .e 0x6d6f6e737472756d 9063 .e)) 0x6d6f6e7461676e65 7411 (.o (.o (.o .e 0x6d6f6e74616e6861 11536 .e) 0x6d6f6e746f766174 9064 .e) 0x6d6f6e756d656e74 7412 (.o .e 0x6d6f737175657465 11543 .e))) 0x6d6f73717569746f 1152 (.o (.o (.o (.o .e 0x6d6f737461726461 11544 .e) 0x6d6f746976616365 9069 .e) 0x6d6f74697661746f 5150 (.o .e 0x6d6f746f73656761 5151 .e)) 0x6d6f7564726f7374 9073 (.o (.o .e 0x6d6f756e7461696e 1156 .e) 0x6d726176656e6563 9078 (.o .e 0x6d727a75746f7374 9082 .e)))) 0x6d7567686574746f 5159 (.o (.o (.o (.o (.o .e 0x6d756c7469706c65 7425 .e) 0x6d756c7469706c6f 5163 .e) 0x6d756c7469706c79 1163 (.o .e 0x6d756e6974696f6e 7426 .e)) 0x6d756ecc83656361 3248 (.o (.o .e 0x6d757261696c6c65 7427 .e) 0x6d757265cc806e65 7428 (.o .e 0x6d757363756c6172 11558 .e))) 0x6d757365cc81756d 7431 (.o (.o (.o (.o .e 0x6d757368726f6f6d 1166 .e) 0x6d7573696369656e 7432 .e) 0x6d75746174696f6e 7433 (.o .e 0x6d757465766f6c65 5171 .e)) 0x6d757a696b616e74 9092 (.o (.o .e 0x6d75cc8173696361 3254 .e) 0x6d797274696c6c65 7437 (.o .e 0x6d79736c69766563 9093 .e)))))
def mnemonicTree357 : Tree := .o (.o (.o (.o (.o (.o (.o .e 0x6e61626f75726174 9095 .e) 0x6e61636879746174 9096 .e) 0x6e6163696f6e616c 11561 (.o .e 0x6e6163696fcc816e 3257 .e)) 0x6e6164627974656b 9098 (.o (.o (.o .e 0x6e61686f64696c65 9104 .e) 0x6e61687261646974 9105 .e) 0x6e616a65646e6f75 9107 (.o .e 0x6e616b6c6f6e6974 9110 .e))) 0x6e616d6c75766974 9115 (.o (.o (.o (.o .e 0x6e616e6f6d657472 9116 .e) 0x6e61706f736c6564 9124 .e) 0x6e6170726f73746f 9125 (.o .e 0x6e617271756f6973 7442 .e)) 0x6e61727963686c6f 9128 (.o (.o .e 0x6e61737472617265 5180 .e) 0x6e61746174696f6e 7444 (.o .e 0x6e61747572616c65 5181 .e)))) 0x6e61747572657a61 11569 (.o (.o (.o (.o (.o .e 0x6e61756672616765 7447 .e) 0x6e61757469717565 7448 .e) 0x6e617669676c696f 5183 (.o .e 0x6e61767a646f7279 9136 .e)) 0x6e61cc8175736561 3267 (.o (.o .e 0x6e6562756c6f7361 5184 .e) 0x6e6562756c6f736f 11574 (.o .e 0x6e6564616c656b6f 9141 .e))) 0x6e65676174697661 11575 (.o (.o (.o (.o .e 0x6e65676174697665 1183 .e) 0x6e6567617469766f 5186 .e) 0x6e65676f63696172 11576 (.o .e 0x6e656c69626f7374 9150 .e)) 0x6e656d696c6f7374 9151 (.o (.o .e 0x6e656f63686f7461 9153 .e) 0x6e65736f756c6164 9159 (.o .e 0x6e6574746f796572 7458 .e))))) 0x6e65757472616c65 5194 (.o (.o (.o (.o (.o (.o .e 0x6e65766f6569726f 11582 .e) 0x6e657a76796b6c65 9163 .e) 0x6e65cc8163746172 3272 (.o .e 0x6e696b746572616b 9169 .e)) 0x6e69cc817469646f 3288 (.o (.o (.o .e 0x6e6f637475726e65 7468 .e) 0x6e6f686176696365 9172 .e) 0x6e6f697263657572 7469 (.o .e 0x6e6f697365747465 7470 .e))) 0x6e6f6d6272657578 7472 (.o (.o (.o (.o .e 0x6e6f6d696e616365 9173 .e) 0x6e6f726465737465 11592 .e) 0x6e6f726d61746966 7474 (.o .e 0x6e6f737472616e6f 5208 .e)) 0x6e6f746963696172 11595 (.o (.o .e 0x6e6f746966696572 7476 .e) 0x6e6f747475726e6f 5211 (.o .e 0x6e6f766174657572 7480 .e)))) 0x6e6f76656d627265 7481 (.o (.o (.o (.o (.o .e 0x6e6fcc816d696e61 3292 .e) 0x6e75697369626c65 7486 .e) 0x6e756d65cc81726f 7487 (.o .e 0x6e75747269746966 7490 .e)) 0x6e75cc81636c656f 3303 (.o (.o .e 0x6e75cc816d65726f 3310 .e) 0x6f62626564697265 5221 (.o .e 0x6f6263656361646f 11606 .e))) 0x6f62656465636572 11607 (.o (.o (.o (.o .e 0x6f62656a6d6f7574 9195 .e) 0x6f62656c6973636f 5223 .e) 0x6f6268616a6f6261 9197 (.o .e 0x6f62696c6e696365 9198 .e)) 0x6f626a61736e6974 9199 (.o (.o .e 0x6f626a6563746966 7492 .e) 0x6f626a657469766f 11608 (.o .e 0x6f626b6c6f706974 9201 .e)))))
def mnemonicTree358 : Tree := .o mnemonicTree356 0x6d79746869717565 7439 mnemonicTree357
def mnemonicTree359 : Tree := .o (.o (.o (.o (.o (.o (.o .e 0x6f6272696761646f 11609 .e) 0x6f62736572766172 3318 .e) 0x6f62736572766572 7495 (.o .e 0x6f62736f6c65746f 5226 .e)) 0x6f62737461636c65 7496 (.o (.o (.o .e 0x6f62737461726174 9217 .e) 0x6f62737465747261 11611 .e) 0x6f6279766174656c 9223 (.o .e 0x6f63636173696f6e 7499 .e))) 0x6f6365cc81616e6f 3323 (.o (.o (.o (.o .e 0x6f63686c61646974 9228 .e) 0x6f636964656e7465 11614 .e) 0x6f6369746e6f7574 9231 (.o .e 0x6f6374726f796572 7503 .e)) 0x6f637475706c6572 7504 (.o (.o .e 0x6f63756c61697265 7505 .e) 0x6f63756c69737461 11617 (.o .e 0x6f6465767a646174 9238 .e)))) 0x6f646b6f75706974 9245 (.o (.o (.o (.o (.o .e 0x6f646f6c6e6f7374 9249 .e) 0x6f64707573746974 9254 .e) 0x6f64736f75646974 9257 (.o .e 0x6f64767261636574 9265 .e)) 0x6f666567616e7465 11619 (.o (.o (.o .e 0x6f66656e73697661 11620 .e) 0x6f666572656e6461 11621 .e) 0x6f6666656e736572 7508 (.o .e 0x6f66666963696572 7509 .e))) 0x6f6675736361646f 11623 (.o (.o (.o (.o .e 0x6f6973696c6c6f6e 7513 .e) 0x6f6b6f757a6c6974 9278 .e) 0x6f6c616e64657365 5242 (.o .e 0x6f6c656a6e696e61 9287 .e)) 0x6f6c666163746966 7514 (.o (.o .e 0x6f6c697665697261 11628 .e) 0x6f6c697a6f766174 9288 (.o .e 0x6f6d62656c69636f 5249 .e))))) 0x6f6d6c6164696e61 9292 (.o (.o (.o (.o (.o (.o .e 0x6f6d6c6f75766174 9293 .e) 0x6f6e637475657578 7518 .e) 0x6f6e64756c61646f 11633 (.o .e 0x6f6e697269717565 7521 .e)) 0x6f6e6e69766f726f 5256 (.o (.o (.o .e 0x6f70616b6f766174 9297 .e) 0x6f7063696f6e616c 11636 .e) 0x6f7063696fcc816e 3357 (.o .e 0x6f70657261646f72 11637 .e))) 0x6f7065cc81726572 7524 (.o (.o (.o (.o .e 0x6f70696e696f6e65 5260 .e) 0x6f7069736f766174 9302 .e) 0x6f706f6e656e7465 11638 (.o .e 0x6f706f7274756e6f 11639 .e)) 0x6f70706f7274756e 7526 (.o (.o .e 0x6f707072696d6572 7527 .e) 0x6f72636865737472 9308 (.o .e 0x6f7264696e617279 1250 .e)))) 0x6f72646f6e6e6572 7533 (.o (.o (.o (.o (.o .e 0x6f7266616e61746f 11645 .e) 0x6f7267616e69636f 5268 .e) 0x6f7269656e74616c 11648 (.o .e 0x6f726967696e616c 1253 .e)) 0x6f726d656767696f 5272 (.o (.o .e 0x6f726e617469766f 5273 .e) 0x6f726e656d656e74 7538 (.o .e 0x6f726f6c6f67696f 5274 .e))) 0x6f72717565737461 3378 (.o (.o (.o (.o .e 0x6f72726962696c65 5276 .e) 0x6f7274656e736961 5277 .e) 0x6f72746f646f786f 11652 (.o .e 0x6f73616469cc8161 3380 .e)) 0x6f7363686e6f7574 9314 (.o (.o .e 0x6f7363696c6c6572 7541 .e) 0x6f73637572617265 5282 (.o .e 0x6f73706564616c65 5284 .e)))))
def mnemonicTree360 : Tree := .o (.o (.o (.o (.o (.o (.o .e 0x6f73736964617265 5287 .e) 0x6f737461636f6c6f 5288 .e) 0x6f7374656e746172 11657 (.o .e 0x6f74696d69736d6f 11658 .e)) 0x6f747461676f6e6f 5292 (.o (.o (.o .e 0x6f75747261676572 7548 .e) 0x6f766c69766e6974 9341 .e) 0x6f786967656e6172 11666 (.o .e 0x6fcc817074696361 3362 .e))) 0x6fcc817262697461 3367 (.o (.o (.o (.o .e 0x6fcc817267616e6f 3371 .e) 0x706163686174656c 9345 .e) 0x70616369656e7465 11668 (.o .e 0x706163696669636f 5305 .e)) 0x70616472696e686f 11672 (.o (.o .e 0x706169736167656d 11677 .e) 0x7061697369626c65 7554 (.o .e 0x70616c6573617265 5312 .e)))) 0x70616c6573747261 11679 (.o (.o (.o (.o (.o .e 0x70616c6f75726465 7557 .e) 0x70616c7069746172 11683 .e) 0x70616e666c65746f 11686 (.o .e 0x70616e676f6c696e 7561 .e)) 0x70616e6971756572 7562 (.o (.o .e 0x70616e6e656c6c6f 5317 .e) 0x70616e6f72616d61 7564 (.o .e 0x70616e7175656361 11687 .e))) 0x70616e74616c6f6e 7565 (.o (.o (.o (.o .e 0x70616e74616e616c 11688 .e) 0x70616e746f666c65 9361 .e) 0x70616f6e617a7a6f 5319 (.o .e 0x706170616761696f 11689 .e)) 0x706170656c616461 11690 (.o (.o .e 0x70617261626f6c61 5321 .e) 0x70617261646f7865 7570 (.o .e 0x7061726166696e61 11692 .e))))) 0x70617263656c6c61 5322 (.o (.o (.o (.o (.o (.o .e 0x70617263656c6c65 7571 .e) 0x70617266756d6572 7573 .e) 0x70617273656d6572 7577 (.o .e 0x7061727461676572 7578 .e)) 0x70617276656e6972 7580 (.o (.o (.o .e 0x70617276656e7a61 5329 .e) 0x7061727a69616c65 5330 .e) 0x706173696fcc816e 3427 (.o .e 0x7061736976697461 9369 .e))) 0x70617374656c6b61 9370 (.o (.o (.o (.o .e 0x7061737469636361 5332 .e) 0x70617465726e656c 7583 .e) 0x70617469656e6365 7584 (.o .e 0x706176696c6c6f6e 7586 .e)) 0x7061766f69736572 7587 (.o (.o .e 0x70617a6f7572656b 9375 .e) 0x7061cc8167696e61 3396 (.o .e 0x7061cc816a61726f 3399 .e)))) 0x7061cc816c69646f 3403 (.o (.o (.o (.o (.o .e 0x7061cc816e69636f 3409 .e) 0x706561746fcc816e 3437 .e) 0x706563756c696172 11706 (.o .e 0x706564616c617265 5338 .e)) 0x7065646573747265 11708 (.o (.o .e 0x7065646961747261 11709 .e) 0x7065646f6e616c65 5339 (.o .e 0x706569746f72616c 11712 .e))) 0x70656c6963616e6f 11715 (.o (.o (.o (.o .e 0x70656e6475726172 11717 .e) 0x70656e686173636f 11719 .e) 0x70656e69736f6c61 5344 (.o .e 0x70656e6f6d627261 5346 .e)) 0x70656e7361646f72 11720 (.o (.o .e 0x7065726365626572 11722 .e) 0x706572636f72736f 5352 (.o .e 0x706572666569746f 11723 .e)))))
def mnemonicTree361 : Tree := .o mnemonicTree359 0x6f73736174757265 7543 mnemonicTree360
def mnemonicTree362 : Tree := .o mnemonicTree358 0x6f626f6861746974 9208 mnemonicTree361
def mnemonicTree363 : Tree := .o mnemonicTree355 0x6d6572656e677565 3177 mnemonicTree362
def mnemonicTree364 : Tree := .o (.o (.o (.o (.o (.o (.o .e 0x70657267756e7461 11724 .e) 0x70657269736b6f70 9384 .e) 0x7065726d6573736f 5357 (.o .e 0x7065726d69746972 11726 .e)) 0x7065726d75746572 7607 (.o (.o (.o .e 0x706572706c657865 7608 .e) 0x706572706c65786f 11728 .e) 0x7065727369616e61 11729 (.o .e 0x706572737561736f 5360 .e))) 0x70657274656e6365 11730 (.o (.o (.o (.o .e 0x706572747567696f 5361 .e) 0x70657361746f7265 5363 .e) 0x7065737175697361 11733 (.o .e 0x70657374726f7374 9386 .e)) 0x7065746973636172 11735 (.o (.o .e 0x706574726f6c656a 9389 .e) 0x70657a756ecc8361 3476 (.o .e 0x7065cc8170697465 7602 .e)))) 0x7065cc81706c756d 7603 (.o (.o (.o (.o (.o .e 0x7065cc8173696d6f 3471 .e) 0x7065cc8174616c65 7612 .e) 0x7065cc8174616c6f 3473 (.o .e 0x7065cc8174726972 7614 .e)) 0x706879736963616c 1311 (.o (.o (.o .e 0x7068797369717565 7621 .e) 0x7069616e69737461 9392 .e) 0x7069617474696e6f 5373 (.o .e 0x706963686fcc816e 3478 .e))) 0x706963747572616c 7623 (.o (.o (.o (.o .e 0x7069676d656e746f 11739 .e) 0x70696a6176696365 9394 .e) 0x70696c6173747261 11740 (.o .e 0x70696c696665726f 5383 .e)) 0x70696d69656e7461 3486 (.o (.o .e 0x70696d70616e7465 5386 .e) 0x70696f6e6569726f 11749 (.o .e 0x706972616d696465 5392 .e))))) 0x706972657469636f 5393 (.o (.o (.o (.o (.o (.o .e 0x7069726f6c697369 5395 .e) 0x706c6163656e7461 9407 .e) 0x706c617175657461 11760 (.o .e 0x706c617374696b61 9411 .e)) 0x706c617374726f6e 7642 (.o (.o (.o .e 0x706c617669646c6f 9413 .e) 0x706c656e6172696f 5402 .e) 0x706c756d6167656d 11763 (.o .e 0x706f636865747465 7651 .e))) 0x706f6368657a7a61 5403 (.o (.o (.o (.o .e 0x706f637469766563 9434 .e) 0x706f6463656e6974 9436 .e) 0x706f646570736174 9437 (.o .e 0x706f6465726f736f 5404 .e)) 0x706f646d616e6974 9441 (.o (.o .e 0x706f647374617461 9446 .e) 0x706f657369cc8161 3515 (.o .e 0x706f65cc81736965 7652 .e)))) 0x706f676769617265 5407 (.o (.o (.o (.o (.o .e 0x706f686e75746b61 9451 .e) 0x706f6a6973746b61 9456 .e) 0x706f6c6567616461 11769 (.o .e 0x706f6c6963696172 11770 .e)) 0x706f6c6963696572 7659 (.o (.o .e 0x706f6c69676f6e6f 5409 .e) 0x706f6c6b6e6f7574 9466 (.o .e 0x706f6c7065747461 5412 .e))) 0x706f6c74726f6e61 5414 (.o (.o (.o (.o .e 0x706f6c75656e7465 11771 .e) 0x706f6c76696c686f 11772 .e) 0x706f6c79676f6e65 7661 (.o .e 0x706f6d696e6f7574 9470 .e)) 0x706f6d6f646f726f 5417 (.o (.o .e 0x706f6d79736c6574 9474 .e) 0x706f6e637475656c 7664 (.o .e 0x706f6e6465726172 11775 .e)))))
def mnemonicTree365 : Tree := .o (.o (.o (.o (.o (.o (.o .e 0x706f6e7461726961 11776 .e) 0x706f6e75726f7374 9477 .e) 0x706f706f6c6f736f 5419 (.o .e 0x706f70726f736974 9482 .e)) 0x706f70756c6f736f 11777 (.o (.t (.o .e 0x706f727469717565 7667 .e) 0x706f736974696f6e 1347 7668 .e) 0x706f73697469766f 5426 (.o .e 0x706f736c616e6563 9494 .e))) 0x706f736f75646974 9495 (.o (.o (.o (.o .e 0x706f73736573736f 5427 .e) 0x706f737369626c65 1348 .e) 0x706f74617373696f 5429 (.o .e 0x706f74656e636961 3532 .e)) 0x706f767a64656368 9517 (.o (.o .e 0x706f7a6e6174656b 9520 .e) 0x707261636f766174 9523 (.o .e 0x7072616374696365 1355 .e)))) 0x7072616b74696b61 9525 (.o (.o (.o (.o (.o .e 0x707261706f72656b 9528 .e) 0x7072617469717565 7681 .e) 0x707265636c75736f 5434 (.o .e 0x7072656461646f72 11790 .e)) 0x707265666569746f 11791 (.o (.o (.o .e 0x707265666973736f 5436 .e) 0x707265676961746f 5437 .e) 0x70726567756e7461 3537 (.o .e 0x7072656c6965766f 5438 .e))) 0x7072657061726172 11794 (.o (.o (.o (.o .e 0x70726573656e7a61 5442 .e) 0x70726573696c6861 11795 .e) 0x707265746573746f 5443 (.o .e 0x707265746578746f 11796 .e)) 0x70726576616c736f 5444 (.o (.o .e 0x70726576656e6972 11797 .e) 0x707265cc816e6f6d 7686 (.o .e 0x7072696d69746966 7690 .e))))) 0x7072696e63657361 11800 (.o (.o (.o (.o (.o (.o .e 0x7072696e63697065 5446 .e) 0x7072696f72697479 1367 .e) 0x70726f626c656d61 5448 (.o .e 0x70726f6275646974 9533 .e)) 0x70726f63656e746f 9534 (.o (.o (.o .e 0x70726f636573736f 11803 .e) 0x70726f647563746f 3549 .e) 0x70726f6475727265 5450 (.o .e 0x70726f6665736f72 3551 .e))) 0x70726f676574746f 5452 (.o (.o (.o (.o .e 0x70726f6772616d61 3552 .e) 0x70726f696269646f 11806 .e) 0x70726f6a65746572 7700 (.o .e 0x70726f6c6f677565 7701 .e)) 0x70726f6c6f6d6974 9539 (.o (.o .e 0x70726f6c756e6761 5453 .e) 0x70726f6d656e6572 7702 (.o .e 0x70726f6d65737361 5454 .e)))) 0x70726f6d65746572 11808 (.o (.o (.o (.o (.o .e 0x70726f6e696b6174 9541 .e) 0x70726f7061676172 11809 .e) 0x70726f7065727479 1379 (.o .e 0x70726f706f737461 5456 .e)) 0x70726f7465746f72 11811 (.o (.o .e 0x70726f7565737365 7706 .e) 0x70726f7661646f72 11812 (.o .e 0x70726f7665726265 7707 .e))) 0x7072736b61766b61 9548 (.o (.o (.o (.o .e 0x70727564656e6365 7708 .e) 0x70727564656e7465 5460 .e) 0x707275646b6f7374 9550 (.o .e 0x7072766f686f7279 9553 .e)) 0x70737963686f7365 7710 (.o (.o .e 0x707562626c69636f 5464 .e) 0x7075626c69636172 11813 (.o .e 0x707567696c61746f 5466 .e)))))
def mnemonicTree366 : Tree := .o mnemonicTree364 0x706f6e6563686174 9475 mnemonicTree365
def mnemonicTree367 : Tree := .o (.o (.t (.o (.o (.o (.o .e 0x70756c6d6fcc816e 3567 .e) 0x70756c73616e7465 5470 .e) 0x70756c7365697261 11817 (.o .e 0x7075726368617365 1393 .e)) 0x7075726966696572 7719 (.o (.o (.o .e 0x707972616d696461 9573 .e) 0x707972616d696465 7721 .e) 0x7175616c636f7361 5476 (.o .e 0x71756572656c6c65 7723 .e))) 0x7175657374696f6e 1404 7724 (.o (.o (.o (.o .e 0x7175696f73717565 11834 .e) 0x71756f7469656e74 7727 .e) 0x726162616e616461 11835 (.o .e 0x726163636f6c746f 5480 .e)) 0x726163696f6e6172 11838 (.o (.o .e 0x726163696fcc816e 3589 .e) 0x7261636f6e746572 7729 (.o .e 0x7261646963616c65 5482 .e)))) 0x726164756e61746f 5483 (.o (.o (.o (.o (.o .e 0x7261676f6e64696e 7731 .e) 0x72616b6f76696e61 9584 .e) 0x72616c656e746972 7734 (.o .e 0x72616c6c6f6e6765 7735 .e)) 0x72616d6173736572 7736 (.o (.o (.o .e 0x72616d706f756368 9586 .e) 0x72616e646167696f 5491 .e) 0x7261706164757261 11849 (.o .e 0x726170707265736f 5495 .e))) 0x7261726964616465 11854 (.o (.o (.o (.o .e 0x7261736174757261 5496 .e) 0x72617363756e686f 11856 .e) 0x7261737061646f72 11858 (.o .e 0x7261737365676e61 5499 .e)) 0x7261737465697261 11859 (.o (.o .e 0x726174617a616e61 11861 .e) 0x7261746973736572 7739 (.o .e 0x7261746f65697261 11862 .e))))) 0x7261746f6c657374 9592 (.o (.o (.o (.o (.o (.o .e 0x7261796f6e6e6572 7742 .e) 0x7261cc8162616e6f 3586 .e) 0x7261cc817069646f 3597 (.o .e 0x726561676f766174 9595 .e)) 0x7265616c69646164 3606 (.o (.o (.o .e 0x7265616e696d6172 11864 .e) 0x7265626169786172 11866 .e) 0x726562616ecc836f 3607 (.o .e 0x7265636570697265 5504 .e))) 0x72656365766f6972 7747 (.o (.o (.o (.o .e 0x7265636f72646172 11873 .e) 0x7265637275746172 11874 .e) 0x7265637275746572 7751 (.o .e 0x726563757065726f 5508 .e)) 0x72656379636c6572 7753 (.o (.o .e 0x726564616b746f72 9598 .e) 0x726564696d657265 5510 (.o .e 0x7265646f75746572 7755 .e)))) 0x726564757a696461 11879 (.o (.o (.o (.o (.o .e 0x7265666572656e74 9599 .e) 0x7265666c65746972 11882 .e) 0x7265667261cc816e 3621 (.o .e 0x726566726573636f 11884 .e)) 0x7265667567696172 11885 (.o (.o .e 0x726567616c61746f 5511 .e) 0x726567697374726f 5512 (.o .e 0x726567726573736f 5514 .e))) 0x72656a6569746172 11891 (.o (.o (.o (.o .e 0x72656c617469766f 11892 .e) 0x72656d6172717565 7771 .e) 0x72656d656d626572 1453 (.o .e 0x72656d65cc806465 7772 .e)) 0x72656d6f6e746572 7774 (.o (.o .e 0x72656e69666c6572 7779 .e) 0x72656e6f6e636572 7780 (.o .e 0x72656e6f7661646f 11896 .e)))))
def mnemonicTree368 : Tree := .o (.o (.o (.o (.o (.o (.o .e 0x7265707564696172 11902 .e) 0x7265707574616365 9606 .e) 0x7265707574617265 5521 (.o .e 0x7265717565726572 11903 .e)) 0x726573656d626c65 1466 (.o (.o (.o .e 0x7265736672696172 11905 .e) 0x7265736761746172 11906 .e) 0x7265736f6c766572 11908 (.o .e 0x7265736f75726365 1468 .e))) 0x726573706569746f 11909 (.o (.o (.o (.o .e 0x726573706f6e7365 1469 .e) 0x726573706f6e736f 5524 .e) 0x72657374616e7465 11911 (.o .e 0x726573746175726f 5525 .e)) 0x7265746f6d616461 11916 (.o (.o .e 0x7265746f6d626572 7797 .e) 0x7265746f72696361 5528 (.o .e 0x7265747261636572 7798 .e)))) 0x7265747261746172 11917 (.o (.o (.o (.o (.o .e 0x726576616e636865 7801 .e) 0x7265766f6361746f 5530 .e) 0x7265766f6c766572 9609 (.o .e 0x7265cc8161676972 7744 .e)) 0x7265cc8167696f6e 7762 (.o (.o .e 0x7269626164697265 5532 .e) 0x72696272657a7a6f 5534 (.o .e 0x7269636172696361 5535 .e))) 0x7269636576657265 5537 (.o (.o (.o (.o .e 0x7269636865737365 7805 .e) 0x72696469636f6c6f 5541 .e) 0x7269666173617265 5543 (.o .e 0x7269666c6573736f 5544 .e)) 0x72696768656c6c6f 5549 (.o (.o .e 0x7269676f726f736f 11924 .e) 0x72696c657661746f 5551 (.o .e 0x72696d616e657265 5552 .e))))) 0x72696d62616c7a6f 5553 (.o (.o (.o (.o (.o (.o .e 0x72696e636fcc816e 3667 .e) 0x72696e666f727a6f 5558 .e) 0x72696e6f6d61746f 5560 (.o .e 0x72696e746f63636f 5562 .e)) 0x72696e756e636961 5563 (.o (.o (.o .e 0x726970617261746f 5565 .e) 0x726970657475746f 5566 .e) 0x7269706f73746572 7811 (.o .e 0x726970756c697265 5570 .e))) 0x7269736962696c65 5574 (.o (.o (.o (.o .e 0x7269736b6f766174 9611 .e) 0x726973706574746f 5576 .e) 0x726973766f6c746f 5579 (.o .e 0x7269756e696f6e65 5584 .e)) 0x7269cc816769646f 3665 (.o (.o .e 0x726f626f7469636f 5591 .e) 0x726f626f74696b61 9613 (.o .e 0x726f64616767696f 5595 .e)))) 0x726f6469746f7265 5597 (.o (.o (.o (.o (.o .e 0x726f646f6b6d656e 9614 .e) 0x726f6d616e65746f 9618 .e) 0x726f736f6c617265 5603 (.o .e 0x726f73746c696e61 9623 .e)) 0x726f746d69737472 9624 (.o (.o .e 0x726f7562656e6b61 9627 .e) 0x726f76657363696f 5608 (.o .e 0x726f7a657a6e6174 9636 .e))) 0x726f7a686f646365 9637 (.o (.o (.o (.o .e 0x7275636861646c6f 9650 .e) 0x7275697373656175 7838 .e) 0x72756b6176696365 9651 (.o .e 0x72756d6f726f736f 5614 .e)) 0x7275706573747265 11954 (.o (.o .e 0x7275737469717565 7840 .e) 0x727963686c6f7374 9655 (.o .e 0x7361626269617265 5620 .e)))))
def mnemonicTree369 : Tree := .o mnemonicTree367 0x7265706f72746572 7784 mnemonicTree368
def mnemonicTree370 : Tree := .o mnemonicTree366 0x70756c6d6f6e6172 11816 mnemonicTree369
def mnemonicTree371 : Tree := .o (.o (.o (.o (.o (.o (.o .e 0x73616c67656d6d61 5625 .e) 0x73616c6976617265 5626 .e) 0x73616c6d6fcc816e 3720 (.o .e 0x73616c7069636172 11969 .e)) 0x73616c7369636861 11970 (.o (.o (.o .e 0x73616c7661646f72 11972 .e) 0x73616d697a646174 9664 .e) 0x73616e6374696f6e 7854 (.o .e 0x73616e6469cc8161 3728 .e))) 0x73616e676c696572 7855 (.o (.o (.o (.o .e 0x73616e6964616465 11978 .e) 0x7361706f7269746f 5634 .e) 0x7361726163656e6f 5635 (.o .e 0x7361726361736d65 7856 .e)) 0x7361726361736d6f 5636 (.o (.o .e 0x73617264696e6b61 9667 .e) 0x73617267656e746f 11981 (.o .e 0x7361727465cc816e 3737 .e)))) 0x7361756772656e75 7859 (.o (.o (.o (.o (.o .e 0x7361766f6e6e6572 7864 .e) 0x7361786f666f6e65 11985 .e) 0x73617a656e696365 9671 (.o .e 0x7361cc816261646f 3709 .e)) 0x7362616e6361746f 5648 (.o (.o (.o .e 0x7362617474657265 5650 .e) 0x7362656e64617265 5652 .e) 0x736272696e617265 5656 (.o .e 0x7362756666617265 5658 .e))) 0x73636162726f736f 5659 (.o (.o (.o (.o .e 0x73636164656e7a61 5660 .e) 0x7363616e64616c65 7866 .e) 0x7363616e64616c6f 5663 (.o .e 0x73636865cc816d61 7870 .e)) 0x7363696e64657265 5675 (.o (.o .e 0x736369726f70706f 5677 .e) 0x73636973736f7273 1544 (.o .e 0x73636c6572617265 5679 .e))))) 0x73636f64656c6c61 5680 (.o (.o (.o (.o (.o (.o .e 0x73636f6c7069746f 5681 .e) 0x73636f7072697265 5684 .e) 0x73636f7270696f6e 1545 (.o .e 0x73636f73736f6e65 5686 .e)) 0x73636f7a7a657365 5687 (.o (.o (.o .e 0x7363756465726961 5691 .e) 0x7363756c70746572 7875 .e) 0x7363756c746f7265 5692 (.o .e 0x73656272616e6b61 9674 .e))) 0x7365637572697479 1558 (.o (.o (.o (.o .e 0x736564696d656e74 9677 .e) 0x73656767696f6c61 5701 .e) 0x7365676d656e746f 11994 (.o .e 0x736569676e657572 7883 .e)) 0x73656c636961746f 5705 (.o (.o .e 0x73656c766167656d 11999 .e) 0x73656d61666f726f 5709 (.o .e 0x73656d6272617265 5710 .e)))) 0x73656d696e61746f 5712 (.o (.o (.o (.t (.o .e 0x73656e7369626c65 7891 .e) 0x73656e74656e6365 1567 7892 .e) 0x736570617261646f 12006 (.o .e 0x73657175656e7a61 5717 .e)) 0x7365717569cc8161 3759 (.o (.o .e 0x7365726d6fcc816e 3762 .e) 0x73657270656e7465 5722 (.o .e 0x736573696fcc816e 3765 .e))) 0x736574656d62726f 12011 (.o (.o (.o (.o .e 0x7365787475706c65 7904 .e) 0x7365cc81616e6365 7876 .e) 0x7365cc8163686572 7878 (.o .e 0x7365cc816a6f7572 7884 .e)) 0x7365cc8173616d65 7901 (.o (.o .e 0x7366616c64617265 5729 .e) 0x736661727a6f736f 5731 (.o .e 0x73666f6c74697265 5740 .e)))))
def mnemonicTree372 : Tree := .o (.o (.o (.o (.o (.o (.o .e 0x736675676769746f 5744 .e) 0x73676162656c6c6f 5747 .e) 0x736761726261746f 5748 (.o .e 0x73686f756c646572 1591 .e)) 0x736965cc80636c65 7906 (.o (.o (.o .e 0x736965cc81676572 7907 .e) 0x73696c656e63696f 3778 .e) 0x73696c656e7a696f 5758 (.o .e 0x73696c6875657461 12014 .e))) 0x73696c696369756d 7912 (.o (.o (.o (.o .e 0x73696c69636f6e65 12015 .e) 0x73696d6574726961 12016 .e) 0x73696d7061746961 12017 (.o .e 0x73696d756c61746f 5762 .e)) 0x73696e666f6e6961 5763 (.o (.o .e 0x73696e67756c6172 12021 .e) 0x73696e6973747265 7915 (.o .e 0x73696e697374726f 5765 .e)))) 0x73696e746f6e6961 12023 (.o (.o (.o (.o (.o .e 0x7369736d69717565 7918 .e) 0x7369cc816c616261 3776 .e) 0x736b6166616e6472 9710 (.o .e 0x736b616c69736b6f 9711 .e)) 0x736b6c656e696365 9717 (.o (.o .e 0x736c616469646c6f 9729 .e) 0x736c61766e6f7374 9732 (.o .e 0x736c65646f766174 9733 .e))) 0x736c697a6e696365 9739 (.o (.o (.o (.o .e 0x736d61727269746f 5776 .e) 0x736d656e7469746f 5778 .e) 0x736d6572616c646f 5779 (.o .e 0x736d696c7374766f 9750 .e)) 0x736d6f6e74617265 5781 (.o (.o .e 0x736d6f747461746f 5782 .e) 0x736d75737361746f 5783 (.o .e 0x736e656c6c697265 5784 .e))))) 0x736e65727661746f 5785 (.o (.o (.o (.o (.o (.o .e 0x736f6262616c7a6f 5787 .e) 0x736f626572616e6f 12027 .e) 0x736f63636f72736f 5789 (.o .e 0x736f66666974746f 5792 .e)) 0x736f69676e657578 7924 (.o (.o (.o .e 0x736f6c6574726172 12033 .e) 0x736f6c6974756465 7927 .e) 0x736f6c6c617a7a6f 5797 (.o .e 0x736f6c746569726f 12034 .e))) 0x736f6c7562696c65 5799 (.o (.o (.o (.o .e 0x736f6c7574696f6e 1654 .e) 0x736f6c76656e7465 5800 .e) 0x736f6d617469636f 5801 (.o .e 0x736f6d6e6f6c6572 7931 .e)) 0x736f6e6861646f72 12039 (.o (.o .e 0x736f6e6e65747465 7934 .e) 0x736f72706173736f 5810 (.o .e 0x736f727072657361 3805 .e)))) 0x736f737465cc816e 3807 (.o (.o (.o (.o (.o .e 0x736f746572726172 12047 .e) 0x736f756369657578 7940 .e) 0x736f756c65766572 7943 (.o .e 0x736f757072617661 9773 .e)) 0x736f757469726572 7946 (.o (.o .e 0x736f7576656e6972 7947 .e) 0x736f757669736574 9776 (.o .e 0x736fcc816c69646f 3793 .e))) 0x736fcc8174616e6f 3808 (.o (.o (.o (.o .e 0x7370616369657578 7948 .e) 0x7370616c6f766e61 9777 .e) 0x7370617267657265 5820 (.o .e 0x737061736974656c 9778 .e)) 0x73706176656e746f 5822 (.o (.o .e 0x7370617a7a6f6c61 5823 .e) 0x737065676e657265 5826 (.o .e 0x73706572616e7a61 5828 .e)))))
def mnemonicTree373 : Tree := .o mnemonicTree371 0x73666f727a61746f 5741 mnemonicTree372
def mnemonicTree374 : Tree := .o (.o (.o (.o (.o (.o (.o .e 0x7370657a7a61746f 5831 .e) 0x73706865cc807265 7951 .e) 0x7370696c6c61746f 5834 (.o .e 0x73706f6a656e6563 9782 .e)) 0x73706f726e6f7374 9785 (.o (.o (.o .e 0x73706f727469766f 5838 .e) 0x7370726563617265 5841 .e) 0x7370726f6e61746f 5842 (.o .e 0x7370756e74696e6f 5844 .e))) 0x737175697272656c 1693 (.o (.o (.o (.o .e 0x737461676e617265 5851 .e) 0x7374616d7061746f 5852 .e) 0x737461726e75746f 5854 (.o .e 0x737461726f737461 9799 .e)) 0x7374696c6574746f 5860 (.o (.o .e 0x7374696d756c7573 7956 .e) 0x73746970756c6572 7957 (.o .e 0x7374697a7a6f736f 5864 .e)))) 0x7374726174656779 1718 (.o (.o (.o (.o (.o .e 0x737472656761746f 5868 .e) 0x737472686e6f7574 9811 .e) 0x7374726964756c6f 5869 (.o .e 0x7374727567676c65 1722 .e)) 0x7374756363617265 5872 (.o (.o (.o .e 0x7374756469657578 7959 .e) 0x73747570656e646f 5874 .e) 0x737475706e696365 9815 (.o .e 0x7374796c69737465 7961 .e))) 0x73756176697a6172 12050 (.o (.o (.o (.o .e 0x737562656e74726f 5875 .e) 0x7375626d6572736f 12052 .e) 0x7375627374726174 7963 (.o .e 0x7375627472616972 12054 .e)) 0x73756274726f7079 9819 (.o (.o .e 0x73756276656e6972 7965 .e) 0x7375636365cc8073 7966 (.o .e 0x73756c7461cc816e 3819 .e))))) 0x7375706572696f72 12066 (.o (.o (.o (.o (.o (.o .e 0x7375706c69636172 12067 .e) 0x737570706c696572 7973 .e) 0x737570706f72746f 5883 (.o .e 0x73757072696d6972 12069 .e)) 0x737572656ecc836f 3827 (.o (.o (.o .e 0x7375726669737461 12071 .e) 0x7375726963617465 7975 .e) 0x737572696b617461 9825 (.o .e 0x7375726d656e6572 7976 .e))) 0x7375726f76696e61 9826 (.o (.o (.t (.o .e 0x7375727072657361 12072 .e) 0x7375727072697365 1747 7977 .e) 0x737572726f756e64 1748 (.o .e 0x737573737572726f 5886 .e)) 0x73757374656e746f 12076 (.o (.o .e 0x7376616c7374766f 9828 .e) 0x7376696c7570706f 5894 (.o .e 0x7376697a7a657261 5896 .e)))) 0x73766f6469646c6f 9835 (.o (.o (.o (.o (.o .e 0x7376756f74617265 5898 .e) 0x7379726f766f7374 9844 .e) 0x7461626c65746b61 9847 (.o .e 0x746162756c61746f 5900 .e)) 0x7461636369617265 5901 (.o (.o .e 0x7461676172656c61 12081 .e) 0x74616c69736d616e 7992 (.o .e 0x74616c6f6e6e6572 7993 .e))) 0x74616d616ecc836f 3843 (.o (.o (.o (.o .e 0x74616d626f72696d 12086 .e) 0x74616e636f766174 9858 .e) 0x74616e67656e7465 12088 (.o .e 0x74616e6769626c65 7996 .e)) 0x74617175696c6c61 3851 (.o (.o .e 0x74617175696e6572 7998 .e) 0x7461746f75616765 8004 (.o .e 0x746174756167656d 12096 .e)))))
def mnemonicTree375 : Tree := .o (.o (.o (.o (.o (.o (.o .e 0x7461766f6c617461 5916 .e) 0x746178617469766f 12098 .e) 0x746563686e696b61 9864 (.o .e 0x74656b7574696e61 9866 .e)) 0x74656c65666f6e65 12107 (.o (.o (.o .e 0x74656c65666f6e6f 5920 .e) 0x74656d706f72656c 8009 .e) 0x74656e61696c6c65 8010 (.o .e 0x74656e64656e6365 9869 .e))) 0x74656e73696f6e65 5926 (.o (.o (.o (.o .e 0x74656f7269cc8161 3880 .e) 0x7465726d696e6572 8015 .e) 0x7465726d6f736b61 9876 (.o .e 0x74657272617a7a6f 5930 .e)) 0x7465727269626c65 8017 (.o (.o .e 0x7465727a6574746f 5931 .e) 0x7465cc816d6f696e 8008 (.o .e 0x7465cc8174696e65 8018 .e)))) 0x74696e746569726f 12128 (.o (.o (.o (.o (.o .e 0x746972616767696f 5943 .e) 0x746972656c697265 8027 .e) 0x7469736b6f706973 9879 (.o .e 0x7469cc816d69646f 3902 .e)) 0x7469cc817069636f 3906 (.o (.o .e 0x7469cc8174657265 3911 .e) 0x7469cc8174756c6f 3912 (.o .e 0x746f626f6767616e 8033 .e))) 0x746f676574686572 1821 (.o (.o (.o (.o .e 0x746f6d6f72726f77 1825 .e) 0x746f6e73696c6c61 5956 .e) 0x746f706f6e796d65 8038 (.o .e 0x746f726d656e7461 3929 .e)) 0x746f7270696c6c65 8042 (.o (.o .e 0x746f72746f697365 1836 .e) 0x746f757065697261 12148 (.o .e 0x746f75726e616765 8048 .e))))) 0x746fcc817869636f 3939 (.o (.o (.o (.o (.o (.o .e 0x74726162616c686f 12150 .e) 0x747261626f63636f 5968 .e) 0x74726163656a6172 12151 (.o .e 0x7472616374696f6e 8051 .e)) 0x7472616475746f72 12152 (.o (.o (.o .e 0x7472616665676172 12153 .e) 0x7472616765646961 5971 .e) 0x7472616769717565 8053 (.o .e 0x7472616d6f6e746f 5973 .e))) 0x7472616e63686572 8056 (.o (.o (.o (.o .e 0x7472616e73666572 1849 .e) 0x7472616e7369746f 5974 .e) 0x747261736569726f 12158 (.o .e 0x747261736c6f636f 5977 .e)) 0x7472617461646f72 12159 (.o (.o .e 0x747261747461746f 5978 .e) 0x7472617665727a61 9898 (.o .e 0x7472656d6f6c696f 5981 .e)))) 0x7472657069646172 12163 (.o (.o (.o (.o (.o .e 0x74726573706f6c6f 5982 .e) 0x747265cc80666c65 8058 .e) 0x747265cc81626f6c 3951 (.o .e 0x747265cc81736f72 8060 .e)) 0x7472686176696e61 9902 (.o (.o .e 0x74726962756e616c 8063 .e) 0x747269636865636f 5984 (.o .e 0x7472696369636c6f 12167 .e))) 0x747269636f746572 8064 (.o (.o (.o (.o .e 0x74726964656e7465 12168 .e) 0x7472696c6f676961 12169 .e) 0x7472696c6f676965 8065 (.o .e 0x7472696e64616465 12170 .e)) 0x7472696f6d706865 8066 (.o (.o .e 0x7472697475726172 12172 .e) 0x7472697475726572 8068 (.o .e 0x747269756e66616c 12173 .e)))))
def mnemonicTree376 : Tree := .o mnemonicTree374 0x746176656e696e61 9862 mnemonicTree375
def mnemonicTree377 : Tree := .o mnemonicTree373 0x73706573736f7265 5829 mnemonicTree376
def mnemonicTree378 : Tree := .o mnemonicTree370 0x7361626f7461746f 5621 mnemonicTree377
def mnemonicTree379 : Tree := .o mnemonicTree363 0x706572666f726572 7605 mnemonicTree378
def mnemonicTree380 : Tree := .o mnemonicTree348 0x686f6c6f666f7465 11236 mnemonicTree379
def mnemonicTree381 : Tree := .o mnemonicTree317 0x746f726e61646f 1835 mnemonicTree380
def mnemonicTree382 : Tree := .o (.o (.o (.o (.o (.o (.o .e 0x74726f6d62657461 12175 .e) 0x74726f6d626f6e65 8070 .e) 0x74726f706963616c 8072 (.o .e 0x74726f74746f6c61 5995 .e)) 0x74726f7570656175 8073 (.o (.o (.o .e 0x747275636361746f 5997 .e) 0x74727563686c6974 9912 .e) 0x747275686c696365 9913 (.o .e 0x7475626174757261 5998 .e))) 0x74756c6970616e6f 6000 (.o (.o (.o (.o .e 0x7475726368696e6f 6004 .e) 0x7475727175657361 12186 .e) 0x7475746f7269616c 12188 (.o .e 0x74757a656d736b6f 9922 .e)) 0x7475cc816e696361 3977 (.o (.o .e 0x7562726f7573656b 9932 .e) 0x7562756573717565 8086 (.o .e 0x756279746f766e61 9934 .e)))) 0x75636369736f7265 6009 (.o (.o (.o (.o (.o .e 0x75637469766f7374 9936 .e) 0x756b617a6174656c 9942 .e) 0x756b6c69646e6974 9943 (.o .e 0x756c74696d61746f 6016 .e)) 0x756c747261736f6e 8088 (.o (.o (.o .e 0x756d6272656c6c61 1889 .e) 0x756d6f7269736d6f 6019 .e) 0x756d797661646c6f 9950 (.o .e 0x756e69636f726e6f 6023 .e))) 0x756e69666f726d61 9952 (.o (.o (.o (.o .e 0x756e69666f726d65 12193 .e) 0x756e696b6e6f7574 9953 .e) 0x756e697461697265 8093 (.o .e 0x756e69746172696f 6026 .e)) 0x756e697665727365 1902 (.o (.o .e 0x756e69766572736f 3987 .e) 0x757061646e6f7574 9954 (.o .e 0x75706c61746e6974 9955 .e))))) 0x75706c796e6f7574 9956 (.o (.o (.o (.o (.o (.o .e 0x75726f6c6f676961 12194 .e) 0x7572746963616e74 8097 .e) 0x757365646e6f7574 9961 (.o .e 0x757369676e6f6c6f 6036 .e)) 0x7573696c6f766174 9962 (.o (.o (.o .e 0x75736e61646e6974 9964 .e) 0x757374726e6f7574 9968 .e) 0x7573756672756972 12200 (.o .e 0x757461686f766174 9969 .e))) 0x7574656e73696c65 6038 (.o (.o (.o (.o .e 0x7574696c697a7a6f 6039 .e) 0x75746f70656e6563 9973 .e) 0x75746f7069cc8161 3998 (.o .e 0x7574726f75736974 9974 .e)) 0x75766f7a6f766b61 9977 (.o (.o .e 0x757a647261766974 9978 .e) 0x75cc816c63657261 3983 (.o .e 0x76616761626f6e64 8106 .e)))) 0x76616761726f736f 12203 (.o (.o (.o (.o (.o .e 0x7661676c6961746f 6044 .e) 0x7661696c6c616e74 8108 .e) 0x7661697373656175 8110 (.o .e 0x76616c6964616465 12207 .e)) 0x76616c6c65747461 6048 (.o (.o .e 0x76616c6f726f736f 6049 .e) 0x76616c7574617265 6050 (.o .e 0x76616e69746f736f 6054 .e))) 0x76616e746167656d 12209 (.o (.o (.o (.o .e 0x766171756569726f 12210 .e) 0x76617269616e7465 6061 .e) 0x76617363756c6172 12214 (.o .e 0x766173736f757261 12216 .e)) 0x7661cc816c69646f 4008 (.o (.o .e 0x7665676574616365 9996 .e) 0x7665676574616c65 6066 (.o .e 0x76656963756c6172 12222 .e)))))
def mnemonicTree383 : Tree := .o (.o (.o (.o (.o (.o (.o .e 0x76656e6365646f72 12226 .e) 0x76656e646176616c 12227 .e) 0x76656e6472656469 8128 (.o .e 0x76656e696d657578 8131 .e)) 0x76656e746f757365 8132 (.o (.o (.o .e 0x7665726561646f72 12232 .e) 0x766572676f676e61 6077 .e) 0x766572676f6e6861 12233 (.o .e 0x7665726966696361 6078 .e))) 0x7665726d656c686f 12234 (.o (.o (.o (.o .e 0x76657274656e7465 12237 .e) 0x76657373696c6c6f 6083 .e) 0x7665746572616e6f 6085 (.o .e 0x7665746572696e61 10011 .e)) 0x7665746f7269616c 12240 (.o (.o .e 0x7665cc816c6f6365 8127 .e) 0x7669627261646f72 12245 (.o .e 0x76696272616e7465 6089 .e)))) 0x76696368696e676f 6091 (.o (.o (.o (.o (.o .e 0x766963746f697265 8146 .e) 0x766964656f687261 10015 .e) 0x766964696d617265 6093 (.o .e 0x7669647261726961 12247 .e)) 0x7669676e65747465 8149 (.o (.o (.o .e 0x76696c6172656a6f 12253 .e) 0x76696e6169677265 8153 .e) 0x76696ecc8365646f 4056 (.o .e 0x76696f6c69cc816e 4057 .e))) 0x76697065cc807265 8155 (.o (.o (.o (.o .e 0x766972656d656e74 8156 .e) 0x7669726f6c6f676f 6104 .e) 0x76697274756f7365 8157 (.o .e 0x7669737175657578 8162 .e)) 0x766974616c697461 10021 (.o (.o .e 0x766974616d696e61 4064 .e) 0x76697469636f6c65 8166 (.o .e 0x7669766970617265 8169 .e))))) 0x766e75636f766174 10035 (.o (.o (.o (.o (.o (.o .e 0x766f636174696f6e 8170 .e) 0x766f6469766f7374 10038 .e) 0x766f646f7a6e616b 10039 (.o .e 0x766f6a656e736b79 10041 .e)) 0x766f6c61696c6c65 8175 (.o (.o (.o .e 0x766f6c6174696c65 6119 .e) 0x766f6c6361cc816e 4070 .e) 0x766f6c6569626f6c 12269 (.o .e 0x766f6c746167656d 12270 .e))) 0x766f6c7469676572 8177 (.o (.o (.o (.o .e 0x766f6c756d6f736f 12271 .e) 0x766f726167696e65 6122 .e) 0x766f736b6f766b61 10048 (.o .e 0x767263686f6c656b 10057 .e)) 0x7673746f75706974 10062 (.o (.o .e 0x767576757a656c61 12274 .e) 0x767963686f766174 10067 (.o .e 0x7679686c65646174 10071 .e)))) 0x7679687261646974 10074 (.o (.o (.o (.o (.o .e 0x76796a61736e6974 10076 .e) 0x76796b6c6f706974 10079 .e) 0x76796d79736c6574 10085 (.o .e 0x76796e6563686174 10086 .e)) 0x7679706c61746974 10090 (.o (.o .e 0x7679707261766974 10091 .e) 0x7679707573746974 10092 (.o .e 0x7679726f766e6174 10094 .e))) 0x7679736c6f766974 10096 (.o (.o (.o (.o .e 0x7679737461766974 10098 .e) 0x767973756e6f7574 10099 .e) 0x7679747261746974 10103 (.o .e 0x767976696e6f7574 10104 .e)) 0x76797a646f626974 10107 (.o (.o .e 0x767a63686f706974 10111 .e) 0x767a647963686174 10114 (.o .e 0x767a686c6564656d 10116 .e)))))
def mnemonicTree384 : Tree := .o mnemonicTree382 0x76656c626c6f7564 9998 mnemonicTree383
def mnemonicTree385 : Tree := .o (.o (.o (.o (.o (.o (.o .e 0x7a6163686f766174 10127 .e) 0x7a61666f756b6174 10130 .e) 0x7a6168796e6f7574 10134 (.o .e 0x7a616a6973746974 10137 .e)) 0x7a616b6c65706174 10138 (.o (.o (.o .e 0x7a616b6f75706974 10139 .e) 0x7a616d706f676e61 6124 .e) 0x7a616d79736c6574 10143 (.o .e 0x7a616e6563686174 10144 .e))) 0x7a61706c61746974 10146 (.o (.o (.o (.o .e 0x7a61737461766974 10150 .e) 0x7a6173756e6f7574 10151 .e) 0x7a6174656d6e6974 10153 (.o .e 0x7a61746b6e6f7574 10154 .e)) 0x7a61756a6d6f7574 10155 (.o (.o .e 0x7a617a766f6e6974 10161 .e) 0x7a6275646f766174 10164 (.o .e 0x7a6461746e6f7374 10168 .e)))) 0x7a64796d61646c6f 10173 (.o (.o (.o (.o (.o .e 0x7a656c656e696e61 10174 .e) 0x7a65cc816e697468 8189 .e) 0x7a686c746e6f7574 10181 (.o .e 0x7a686c75626f6b61 10182 .e)) 0x7a686f746f766974 10183 (.o (.o (.o .e 0x7a6b756d61766b61 10191 .e) 0x7a6d61706f766174 10198 .e) 0x7a6d727a6c696e61 10205 (.o .e 0x7a6d75746f766174 10206 .e))) 0x7a6e616d656e6174 10209 (.o (.o (.o (.o .e 0x7a6f6272617a6974 10211 .e) 0x7a6f6f6c6f676961 12286 .e) 0x7a6f6f6c6f676965 8191 (.o .e 0x7a706f6d616c6974 10216 .e)) 0x7a70726f73746974 10218 (.o (.o .e 0x7a726e69746f7374 10224 .e) 0x7a727963686c6974 10227 (.o .e 0x7a727a61766f7374 10228 .e))))) 0x7a75626f76696e61 10231 (.o (.o (.o (.o (.o (.o .e 0x7a7563636865726f 6140 .e) 0x7a7665646e6f7574 10233 .e) 0x7a76756b6f766f64 10238 (.o .e 0x616465cc8171756174 6183 .e)) 0x61646865cc81736966 6184 (.o (.o (.o .e 0x6165cc81726f6e6566 6197 .e) 0x61666963696fcc816e 2087 .e) 0x616c61637261cc816e 2108 (.o .e 0x616c6765cc80627265 6220 .e))) 0x616c676f646fcc816e 2121 (.o (.o (.o (.o .e 0x616c6965cc816e6572 6222 .e) 0x616c6c65cc81676572 6224 .e) 0x616c6d69cc81626172 2127 (.o .e 0x616c7665cc816f6c65 6231 .e)) 0x61726d6f6e69cc8161 2194 (.o (.o .e 0x6176766f6c67657265 4277 .e) 0x617a61667261cc816e 2252 (.o .e 0x61cc8172626974726f 2183 .e)))) 0x626174657269cc8161 2279 (.o (.o (.o (.o (.o .e 0x6261cc817363756c61 2275 .e) 0x6272696c6c616e7465 4358 .e) 0x63616461cc81766572 2353 (.o .e 0x63616665cc81696e65 6454 .e)) 0x63616ecc836fcc816e 2382 (.o (.o .e 0x636170697461cc816e 2386 .e) 0x636172746f6c696e61 4409 (.o .e 0x63656c6c756c617265 4426 .e))) 0x63656e746573696d6f 4429 (.o (.o (.o (.o .e 0x6365cc8164696c6c65 6495 .e) 0x6365cc816c65627265 2414 .e) 0x6365cc816c65737465 6497 (.o .e 0x6368696d65cc807265 6527 .e)) 0x636974746164696e6f 4455 (.o (.o .e 0x636c69cc816e696361 2465 .e) 0x636f6363696fcc816e 2467 (.o .e 0x636f6c74697661746f 4471 .e)))))
def mnemonicTree386 : Tree := .o (.o (.o (.o (.o (.o (.o .e 0x636f6e67656c617265 4482 .e) 0x636f6e6f7363657265 4485 .e) 0x636f7072696361706f 4492 (.o .e 0x636f72617a6fcc816e 2499 .e)) 0x636f727465cc806765 6596 (.o (.o (.o .e 0x637265cc816d657578 6612 .e) 0x6372697465cc807265 6618 .e) 0x63726fcc816e696361 2519 (.o .e 0x64657363726974746f 4563 .e))) 0x64657369646572696f 4565 (.o (.o (.o (.o .e 0x64657465727369766f 4567 .e) 0x6465cc816269746572 6646 .e) 0x6465cc8163616c6572 6650 (.o .e 0x6465cc816369646572 6653 .e)) 0x6465cc81636f726572 6655 (.o (.o .e 0x6465cc816372697265 6656 .e) 0x6465cc8166696c6572 6662 (.o .e 0x6465cc816761676572 6664 .e)))) 0x6465cc816c6f676572 6670 (.o (.o (.o (.o (.o .e 0x6465cc816d6f6c6972 6673 .e) 0x6465cc816e6f756572 6675 .e) 0x6465cc816e75646572 6677 (.o .e 0x6465cc81706f736572 6682 .e)) 0x6465cc81726f626572 6684 (.o (.o .e 0x64696669cc8163696c 2592 .e) 0x64696765cc81726572 6705 (.o .e 0x65646963696fcc816e 2633 .e))) 0x656c61626f7261746f 4636 (.o (.o (.o (.o .e 0x656d6f63696fcc816e 2652 .e) 0x656e636865cc807265 6806 .e) 0x656e73656ecc836172 2671 (.o .e 0x65cc81626c6f756972 6752 .e)) 0x65cc81636172746572 6753 (.o (.o .e 0x65cc81636861727065 6754 .e) 0x65cc816368656c6c65 6755 (.o .e 0x65cc81636c69707365 6757 .e))))) 0x65cc81636f75746572 6763 (.o (.o (.o (.o (.o (.o .e 0x65cc81637261736572 6764 .e) 0x65cc81646966696572 6770 .e) 0x65cc81647571756572 6771 (.o .e 0x65cc816a6563746572 6780 .e)) 0x65cc816c6172676972 6782 (.o (.o (.o .e 0x65cc816c65cc807665 6786 .e) 0x65cc816d6f74696f6e 6798 .e) 0x65cc816e6572676965 6813 (.o .e 0x65cc81706172676e65 6841 .e))) 0x65cc81706174616e74 6842 (.o (.o (.o (.o .e 0x65cc817069736f6465 6849 .e) 0x65cc81707265757665 6852 .e) 0x65cc81717565727265 6855 (.o .e 0x65cc81726f73696f6e 6858 .e)) 0x65cc8174616e636865 6877 (.o (.o .e 0x65cc817465726e656c 6881 .e) 0x65cc817468616e6f6c 6882 (.o .e 0x65cc81746869717565 6883 .e)))) 0x65cc81746f66666572 6886 (.o (.o (.o (.o (.o .e 0x65cc817472616e6765 6890 .e) 0x65cc8176616c756572 6894 .e) 0x65cc81766173696f6e 6895 (.o .e 0x65cc81766f71756572 6900 .e)) 0x6661cc816272696361 2718 (.o (.o .e 0x6665cc816272696c65 6945 .e) 0x6665cc817672696572 6959 (.o .e 0x66696363696fcc816e 2754 .e))) 0x66696c6965cc807265 6967 (.o (.o (.o (.o .e 0x666f72636865747461 4779 .e) 0x666f756765cc807265 7001 .e) 0x667265636365747461 4792 (.o .e 0x667265cc8167617465 7010 .e)) 0x66756e63696fcc816e 2810 (.o (.o .e 0x67616c657269cc8161 2822 .e) 0x676176696c61cc816e 2834 (.o .e 0x677261cc816669636f 2864 .e)))))
def mnemonicTree387 : Tree := .o mnemonicTree385 0x636f6d65cc81646965 6577 mnemonicTree386
def mnemonicTree388 : Tree := .o mnemonicTree384 0x7a616279646c6574 10126 mnemonicTree387
def mnemonicTree389 : Tree := .o (.o (.o (.o (.o (.o (.o .e 0x677565cc8170617264 7095 .e) 0x6865cc817369746572 7119 .e) 0x687572616361cc816e 2943 (.o .e 0x6879676965cc806e65 7147 .e)) 0x696c7573696fcc816e 2953 (.o (.o (.o .e 0x696e6765cc81726572 7182 .e) 0x696e6f6c7472617265 4943 .e) 0x696e74657265cc8173 2973 (.o .e 0x696e756d6964697265 4954 .e))) 0x6a75cc817069746572 3009 (.o (.o (.o (.o .e 0x6c61626972696e746f 4975 .e) 0x6c616365cc81726572 7249 .e) 0x6c61cc816772696d61 3022 (.o .e 0x6c61cc816d70617261 3027 .e)) 0x6c61cc817374696d61 3035 (.o (.o .e 0x6c656363696fcc816e 3043 .e) 0x6c6574746572616c65 5004 (.o .e 0x6c696265cc81726572 7277 .e)))) 0x6c69736965cc807265 7294 (.o (.o (.o (.o (.o .e 0x6c69cc81717569646f 3078 .e) 0x6c756d6965cc807265 7316 .e) 0x6d616c696e7465736f 5055 (.o .e 0x6d616e69666573746f 5063 .e)) 0x6d616e69717569cc81 3135 (.o (.o (.o .e 0x6d617465726173736f 5078 .e) 0x6d61746965cc807265 7354 .e) 0x6d61747269636f6c61 5079 (.o .e 0x6d61cc817175696e61 3142 .e))) 0x6d61cc817363617261 3154 (.o (.o (.o (.o .e 0x6d656363616e69636f 5084 .e) 0x6d65cc816368616e74 7360 .e) 0x6d65cc81636f6e6e75 7361 (.o .e 0x6d65cc81646563696e 7363 .e)) 0x6d65cc816469746572 7364 (.o (.o .e 0x6d65cc816c616e6765 7367 .e) 0x6d65cc816c6f646965 7368 (.o .e 0x6d65cc816d6f697265 7370 .e))))) 0x6d65cc8174686f6465 7383 (.o (.o (.o (.o (.o (.o .e 0x6d6961676f6c617265 5105 .e) 0x6d696e65cc8172616c 7395 .e) 0x6d6e656d6f6e69636f 5129 (.o .e 0x6d6f6e61737465726f 5137 .e)) 0x6d6f6e65746172696f 5140 (.o (.o (.o .e 0x6d6f7273696361746f 5148 .e) 0x6d6f76696d656e746f 5154 .e) 0x6d756c696e656c6c6f 5162 (.o .e 0x6d75cc817363756c6f 3251 .e))) 0x6d79737465cc807265 7438 (.o (.o (.o (.o .e 0x6e616e6f6d6574726f 5175 .e) 0x6e6576726f7469636f 5196 .e) 0x6e65cc816661737465 7452 (.o .e 0x6e6f72766567657365 5207 .e)) 0x6f63636173696f6e65 5227 (.o (.o .e 0x6f63636964656e7465 5229 .e) 0x6f63636f7272657265 5230 (.o .e 0x6f6363756c74617265 5231 .e)))) 0x6f666675736361746f 5238 (.o (.o (.o (.o (.o .e 0x6f6c6f6772616d6d61 5246 .e) 0x6f6d697373696f6e65 5252 .e) 0x6f6e65cc8172657578 7520 (.o .e 0x6f6e6f7265766f6c65 5257 .e)) 0x6f726163696fcc816e 3364 (.o (.o .e 0x6f7265636368696e6f 5265 .e) 0x6f72697a7a6f6e7465 5270 (.o .e 0x6f7869cc8167656e6f 3390 .e))) 0x6f78796765cc806e65 7552 (.o (.o (.o (.o .e 0x70616363686574746f 5303 .e) 0x70616c617a7a696e61 5311 .e) 0x70616ecc8375656c6f 3411 (.o .e 0x7061746f6c6f676961 5334 .e)) 0x7061cc81727061646f 3421 (.o (.o .e 0x7061cc81727261666f 3423 .e) 0x70656c64616ecc836f 3446 (.o .e 0x70656ecc836fcc816e 3454 .e)))))
def mnemonicTree390 : Tree := .o (.o (.o (.o (.o (.o (.o .e 0x706572646f6e61746f 5353 .e) 0x706572666f72617265 5354 .e) 0x70657267616d656e61 5355 (.o .e 0x706572706c6573736f 5359 .e)) 0x70657374616ecc8361 3472 (.o (.o (.o .e 0x70657374696665726f 5366 .e) 0x706574756c616e7465 5369 .e) 0x7065cc816c6963616e 7593 (.o .e 0x7065cc816e69626c65 7599 .e))) 0x7065cc816e75726965 7601 (.o (.o (.o (.o .e 0x7065cc8172696f6465 7606 .e) 0x706f6c696369cc8161 3518 .e) 0x706f6c6d6f6e697465 5411 (.o .e 0x706f7263696fcc816e 3526 .e)) 0x706f7374756c61746f 5428 (.o (.o .e 0x7072656e6f74617265 5440 .e) 0x70726570617261746f 5441 (.o .e 0x707265cc8164697265 7683 .e)))) 0x707265cc8166697865 7684 (.o (.o (.o (.o (.o .e 0x707265cc816c756465 7685 .e) 0x707265cc81766f6972 7689 .e) 0x70726973696fcc816e 3544 (.o .e 0x70726f677265cc8073 7698 .e)) 0x70726fcc8178696d6f 3557 (.o (.o .e 0x7075cc81626c69636f 3559 .e) 0x717569cc816d696361 3583 (.o .e 0x726164646f7070696f 5481 .e))) 0x72616e746f6c617265 5492 (.o (.o (.o (.o .e 0x72617363686961746f 5497 .e) 0x7261737472656c6c6f 5500 .e) 0x72617676656475746f 5502 (.o .e 0x7265636f6e6469746f 5507 .e)) 0x72656c617a696f6e65 5515 (.o (.o .e 0x72657072696d657265 5520 .e) 0x7265736964656e7465 5523 (.o .e 0x726574746966696361 5529 .e))))) 0x7265cc816163746966 7743 (.o (.o (.o (.o (.o (.o .e 0x7265cc816369746572 7748 .e) 0x7265cc816469676572 7754 .e) 0x7265cc81666c657865 7757 (.o .e 0x7265cc81676c616765 7763 .e)) 0x7265cc817365727665 7788 (.o (.o (.o .e 0x7265cc81756e696f6e 7799 .e) 0x7265cc817573736972 7800 .e) 0x7265cc81766f6c7465 7803 (.o .e 0x7269617373756e746f 5531 .e))) 0x72696369636c61746f 5538 (.o (.o (.o (.o .e 0x72696372656475746f 5540 .e) 0x72696765747461746f 5548 .e) 0x72696c61737361746f 5550 (.o .e 0x72696d6f726368696f 5555 .e)) 0x72696e617363697461 5556 (.o (.o .e 0x72696e73617669746f 5561 .e) 0x72696e76656e697265 5564 (.o .e 0x72696ecc836fcc816e 3668 .e)))) 0x7269706f7274617265 5568 (.o (.o (.o (.o (.o .e 0x726973756c7461746f 5578 .e) 0x7269766965cc807265 7816 .e) 0x726976696e63697461 5587 (.o .e 0x726f6d616e7469636f 5600 .e)) 0x73616c646174757261 5624 (.o (.o .e 0x73616e63696fcc816e 3727 .e) 0x736174656c6c697465 5639 (.o .e 0x7361786f666fcc816e 3741 .e))) 0x7362616469676c696f 5646 (.o (.o (.o (.o .e 0x736269726369617265 5653 .e) 0x73626c6f636361746f 5654 .e) 0x73626f63636961746f 5655 (.o .e 0x7362727566666f6e65 5657 .e)) 0x7363616d6269617265 5662 (.o (.o .e 0x73636174656e617265 5666 .e) 0x73636f6d706172746f 5682 (.o .e 0x73636f6e666f72746f 5683 .e)))))
def mnemonicTree391 : Tree := .o mnemonicTree389 0x70657175656ecc836f 3458 mnemonicTree390
def mnemonicTree392 : Tree := .o (.o (.o (.o (.o (.o (.o .e 0x7363727574696e696f 5690 .e) 0x736465626974617265 5696 .e) 0x73646f67616e617265 5697 (.o .e 0x736563636174757261 5698 .e)) 0x73656363696fcc816e 3742 (.o (.o (.o .e 0x7365676e616c61746f 5702 .e) 0x73656772656761746f 5703 .e) 0x73656c65747469766f 5706 (.o .e 0x73656c76616767696f 5708 .e))) 0x7365727261676c696f 5723 (.o (.o (.o (.o .e 0x73657474696d616e61 5727 .e) 0x7365cc816361626c65 7877 .e) 0x7365cc816461746966 7881 (.o .e 0x7365cc816475697265 7882 .e)) 0x7365cc816d696e616c 7889 (.o (.o .e 0x7365cc817061726572 7893 .e) 0x7365cc817269657578 7897 (.o .e 0x73666174696361746f 5732 .e)))) 0x73666f646572617265 5738 (.o (.o (.o (.o (.o .e 0x73667275747461746f 5743 .e) 0x73676f6e6669617265 5749 .e) 0x73677261737361746f 5751 (.o .e 0x73696465cc8172616c 7905 .e)) 0x73696d70617469636f 5761 (.o (.o (.o .e 0x73696e6365cc807265 7914 .e) 0x73696e75736f696465 5768 .e) 0x7369cc816d626f6c6f 3780 (.o .e 0x736c6f676174757261 5774 .e))) 0x736d656d6f7261746f 5777 (.o (.o (.o (.o .e 0x736f6e6e696665726f 5805 .e) 0x736f7274656767696f 5813 .e) 0x736f72766f6c61746f 5814 (.o .e 0x7370656c6174757261 5827 .e)) 0x737065747472616c65 5830 (.o (.o .e 0x737065cc816369616c 7950 .e) 0x737069676f6c6f736f 5833 (.o .e 0x73706c656e6469646f 5837 .e))))) 0x737261646963617265 5846 (.o (.o (.o (.o (.o (.o .e 0x73726f746f6c61746f 5847 .e) 0x7374726f7a7a617265 5870 .e) 0x73756767657269746f 5878 (.o .e 0x73757267656c61746f 5884 .e)) 0x737572726f6761746f 5885 (.o (.o (.o .e 0x7379737465cc806d65 7986 .e) 0x746163697475726e6f 5902 .e) 0x74616c69736d616e6f 5904 (.o .e 0x746172746172756761 5912 .e))) 0x74656d65726172696f 5921 (.o (.o (.o (.o .e 0x74656e7461636f6c6f 5927 .e) 0x74657373657261746f 5933 .e) 0x7465cc81636e696361 3866 (.o .e 0x7465cc81726d696e6f 3883 .e)) 0x746865cc816f726965 8021 (.o (.o .e 0x74696275726fcc816e 3893 .e) 0x7469706f677261666f 5942 (.o .e 0x7469747562616e7465 5947 .e)))) 0x746f6c6c6572617265 5951 (.o (.o (.o (.o (.o .e 0x746f706f6c6f676961 5958 .e) 0x746f73746174757261 5966 .e) 0x747261cc816669636f 3943 (.o .e 0x747269666f676c696f 5985 .e)) 0x7472697374657a7a61 5989 (.o (.o .e 0x74726974757261746f 5990 .e) 0x747562657269cc8161 3971 (.o .e 0x756e63696e6574746f 6020 .e))) 0x756e67686572657365 6022 (.o (.o (.o (.o .e 0x756e6966696361746f 6024 .e) 0x76616363696e61746f 6042 .e) 0x76616761626f6e646f 6043 (.o .e 0x76616e74616767696f 6056 .e)) 0x7661cc816c76756c61 4011 (.o (.o .e 0x76656e64656d6d6961 6073 .e) 0x766572746963616c65 6081 (.o .e 0x7665cc817475737465 8141 .e)))))
def mnemonicTree393 : Tree := .o (.o (.o (.o (.o (.o (.o .e 0x766963696e616e7a61 6092 .e) 0x76696e6369746f7265 6100 .e) 0x766972756c656e746f 6105 (.o .e 0x7669cc816374696d61 4045 .e)) 0x7669cc817370657261 4062 (.o (.o (.o .e 0xe38182e3818de3828b 12293 .e) 0xe38182e38191e3828b 12295 .e) 0xe38182e38195e38184 12297 (.o .e 0xe38182e38195e381b2 12298 .e))) 0xe38182e3819fe3828b 12307 (.o (.o (.o (.o .e 0xe38182e381a4e38184 12308 .e) 0xe38182e381a6e381aa 12313 .e) 0xe38182e381b2e3828b 12315 (.o .e 0xe38182e381bee38184 12319 .e)) 0xe38182e381bee3828a 12322 (.o (.o .e 0xe38182e38286e38280 12326 .e) 0xe38182e38289e38197 12328 (.o .e 0xe38182e38293e38184 12336 .e)))) 0xe38182e38293e38193 12338 (.o (.o (.o (.o (.o .e 0xe38184e3818ae38293 12344 .e) 0xe38184e3818de3828b 12350 .e) 0xe38184e38191e38293 12354 (.o .e 0xe38184e38193e38186 12355 .e)) 0xe38184e38193e3818f 12356 (.o (.o .e 0xe38184e38193e381a4 12357 .e) 0xe38184e38195e38293 12359 (.o .e 0xe38184e38197e3818d 12360 .e))) 0xe38184e3819be38184 12366 (.o (.o (.o (.o .e 0xe38184e3819be3818d 12369 .e) 0xe38184e3819fe381bf 12376 .e) 0xe38184e381a3e381a1 12389 (.o .e 0xe38184e381a4e3818b 12384 .e)) 0xe38184e381a6e38293 12393 (.o (.o .e 0xe38184e381a8e38193 12395 .e) 0xe38184e381aae38184 12396 (.o .e 0xe38184e381aae3818b 12397 .e))))) 0xe38184e381aee381a1 12399 (.o (.o (.o (.o (.o (.o .e 0xe38184e381aee3828b 12400 .e) 0xe38184e381afe381a4 12401 .e) 0xe38184e381afe38293 12403 (.o .e 0xe38184e381b2e38293 12405 .e)) 0xe38184e381b5e3818f 12406 (.o (.o (.o .e 0xe38184e381b8e38293 12407 .e) 0xe38184e381bbe38186 12408 .e) 0xe38184e381bfe38293 12409 (.o .e 0xe38184e38282e3828a 12412 .e))) 0xe38184e38284e38199 12414 (.o (.o (.o (.o .e 0xe38184e38288e3818f 12416 .e) 0xe38184e38289e38184 12417 .e) 0xe38184e3828ce38184 12421 (.o .e 0xe38184e3828ce3828b 12423 .e)) 0xe38184e3828fe38184 12425 (.o (.o .e 0xe38184e3828fe38186 12426 .e) 0xe38186e38188e3818d 12434 (.o .e 0xe38186e38188e3828b 12435 .e)))) 0xe38186e3818de3828f 12440 (.o (.o (.o (.o (.o .e 0xe38186e38191e3828b 12447 .e) 0xe38186e38193e38293 12450 .e) 0xe38186e38199e38184 12454 (.o .e 0xe38186e3819be381a4 12458 .e)) 0xe38186e381a1e3818d 12461 (.o (.o .e 0xe38186e381a4e3828b 12466 .e) 0xe38186e381aae3828b 12471 (.o .e 0xe38186e381ade3828b 12472 .e))) 0xe38186e381aee38186 12473 (.o (.o (.o (.o .e 0xe38186e38281e3828b 12477 .e) 0xe38186e38282e38186 12478 .e) 0xe38186e38288e3818f 12480 (.o .e 0xe38186e3828ce3828b 12489 .e)) 0xe38186e3828de38193 12490 (.o (.o .e 0xe38186e3828fe3818d 12491 .e) 0xe38186e3828fe38195 12492 (.o .e 0xe38188e38184e3828f 12504 .e)))))
def mnemonicTree394 : Tree := .o mnemonicTree392 0x7669616e64616e7465 6088 mnemonicTree393
def mnemonicTree395 : Tree := .o mnemonicTree391 0x7363726f6c6c617265 5689 mnemonicTree394
def mnemonicTree396 : Tree := .o mnemonicTree388 0x6772757965cc807265 7094 mnemonicTree395
def mnemonicTree397 : Tree := .o (.o (.o (.o (.o (.o (.o .e 0xe38188e38199e381a6 12511 .e) 0xe38188e381bbe38293 12515 .e) 0xe38188e381bee3818d 12516 (.o .e 0xe38188e38282e381ae 12518 .e)) 0xe38188e38289e38184 12519 (.o (.o (.o .e 0xe38188e3828ae38182 12521 .e) 0xe3818ae38188e3828b 12543 .e) 0xe3818ae3818ae38184 12544 (.o .e 0xe3818ae3818ae38186 12545 .e))) 0xe3818ae3818ae38284 12547 (.o (.o (.o (.o .e 0xe3818ae3818de3828b 12554 .e) 0xe3818ae3818fe3828b 12558 .e) 0xe3818ae38193e38199 12560 (.o .e 0xe3818ae38193e3828b 12562 .e)) 0xe3818ae3819fe3818f 12574 (.o (.o .e 0xe3818ae381a3e381a8 12577 .e) 0xe3818ae381a4e3828a 12578 (.o .e 0xe3818ae38282e38186 12588 .e)))) 0xe3818ae38284e381a4 12591 (.o (.o (.o (.o (.o .e 0xe3818ae3828de38199 12595 .e) 0xe3818be38182e381a4 12603 .e) 0xe3818be38184e3828f 12621 (.o .e 0xe3818be38188e3828b 12622 .e)) 0xe3818be3818ae3828a 12623 (.o (.o (.o .e 0xe3818be3819fe38184 12632 .e) 0xe3818be3819fe381a1 12633 .e) 0xe3818be381aee38186 12640 (.o .e 0xe3818be381bbe38186 12643 .e))) 0xe3818be381bee38186 12645 (.o (.o (.o (.o .e 0xe3818be38286e38184 12648 .e) 0xe3818be38289e38184 12650 .e) 0xe3818be3828be38184 12651 (.o .e 0xe3818be3828de38186 12652 .e)) 0xe3818be3828fe3818f 12653 (.o (.o .e 0xe3818be3828fe38289 12654 .e) 0xe3818be38293e381a1 12661 (.o .e 0xe3818de38182e38184 12663 .e))))) 0xe3818de38182e381a4 12664 (.o (.o (.o (.o (.o (.o .e 0xe3818de38184e3828d 12665 .e) 0xe3818de38186e38184 12667 .e) 0xe3818de38186e38293 12668 (.o .e 0xe3818de38188e3828b 12669 .e)) 0xe3818de3818ae38186 12670 (.o (.o (.o .e 0xe3818de3818ae3818f 12671 .e) 0xe3818de3818ae381a1 12672 .e) 0xe3818de3818ae38293 12673 (.o .e 0xe3818de3818be38184 12674 .e))) 0xe3818de3818be3818f 12675 (.o (.o (.o (.o .e 0xe3818de3818de381a6 12677 .e) 0xe3818de38193e38186 12681 .e) 0xe3818de38193e3818f 12683 (.o .e 0xe3818de38195e38184 12684 .e)) 0xe3818de38195e3818f 12685 (.o (.o .e 0xe3818de38195e381be 12686 .e) 0xe3818de38199e38186 12693 (.o .e 0xe3818de3819be38184 12694 .e)))) 0xe3818de3819be3818d 12695 (.o (.o (.o (.o (.o .e 0xe3818de3819be381a4 12696 .e) 0xe3818de3819de38186 12697 .e) 0xe3818de381a4e381ad 12705 (.o .e 0xe3818de381a6e38184 12706 .e)) 0xe3818de381aae38184 12709 (.o (.o .e 0xe3818de381aae38193 12711 .e) 0xe3818de381ade38293 12713 (.o .e 0xe3818de381aee38186 12714 .e))) 0xe3818de381afe3818f 12716 (.o (.o (.o (.o .e 0xe3818de381b2e38293 12718 .e) 0xe3818de381b5e3818f 12719 .e) 0xe3818de381bbe38293 12722 (.o .e 0xe3818de381bee3828b 12723 .e)) 0xe3818de381bfe381a4 12724 (.o (.o .e 0xe3818de38281e3828b 12726 .e) 0xe3818de38282e381a1 12728 (.o .e 0xe3818de38282e381ae 12729 .e)))))
def mnemonicTree398 : Tree := .o (.o (.o (.o (.o (.o (.o .e 0xe3818de38284e3818f 12731 .e) 0xe3818de38288e38186 12733 .e) 0xe3818de38289e38184 12735 (.o .e 0xe3818de38289e3818f 12736 .e)) 0xe3818de3828ae38293 12737 (.o (.o (.o .e 0xe3818de3828ce38184 12738 .e) 0xe3818de3828ce381a4 12739 .e) 0xe3818de3828de3818f 12740 (.o .e 0xe3818fe38186e3818d 12750 .e))) 0xe3818fe3818be38293 12758 (.o (.o (.o (.o .e 0xe3818fe38195e38184 12762 .e) 0xe3818fe38195e3818d 12763 .e) 0xe3818fe38195e3828b 12765 (.o .e 0xe3818fe3819be38293 12771 .e)) 0xe3818fe381aae38293 12782 (.o (.o .e 0xe3818fe381aee38186 12784 .e) 0xe3818fe381b5e38186 12785 (.o .e 0xe3818fe38281e3828b 12788 .e)))) 0xe3818fe38289e38199 12790 (.o (.o (.o (.o (.o .e 0xe3818fe3828be381be 12792 .e) 0xe3818fe3828ce3828b 12793 .e) 0xe3818fe3828de38186 12794 (.o .e 0xe38191e38182e381aa 12800 .e)) 0xe38191e38184e38193 12803 (.o (.o (.o .e 0xe38191e38184e3828d 12809 .e) 0xe38191e38195e3818d 12822 .e) 0xe38191e38197e3818d 12824 (.o .e 0xe38191e381a4e38184 12832 .e))) 0xe38191e381a8e3828b 12844 (.o (.o (.o (.o .e 0xe38191e381aae38199 12846 .e) 0xe38191e381aae381bf 12847 .e) 0xe38191e381ace3818d 12848 (.o .e 0xe38191e381ade38293 12850 .e)) 0xe38191e381afe38184 12851 (.o (.o .e 0xe38191e381bee3828a 12855 .e) 0xe38191e38280e38197 12857 (.o .e 0xe38191e38280e3828a 12858 .e))))) 0xe38191e38282e381ae 12859 (.o (.o (.o (.o (.o (.o .e 0xe38191e38289e38184 12860 .e) 0xe38191e38293e38184 12863 .e) 0xe38191e38293e3818a 12865 (.o .e 0xe38191e38293e3818b 12866 .e)) 0xe38191e38293e381be 12880 (.o (.o (.o .e 0xe38191e38293e3828a 12884 .e) 0xe38193e38184e381ac 12886 .e) 0xe38193e38188e3828b 12911 (.o .e 0xe38193e3818ae3828a 12912 .e))) 0xe38193e38191e38184 12922 (.o (.o (.o (.o .e 0xe38193e38191e3828b 12923 .e) 0xe38193e38193e3828d 12925 .e) 0xe38193e38195e38281 12926 (.o .e 0xe38193e38197e381a4 12927 .e)) 0xe38193e38199e38186 12928 (.o (.o .e 0xe38193e3819be38184 12929 .e) 0xe38193e3819be3818d 12930 (.o .e 0xe38193e3819fe38184 12933 .e)))) 0xe38193e3819fe381a4 12935 (.o (.o (.o (.o (.o .e 0xe38193e381a3e3818b 12937 .e) 0xe38193e381a6e38184 12941 .e) 0xe38193e381a6e38293 12942 (.o .e 0xe38193e381a8e38197 12944 .e)) 0xe38193e381a8e3828a 12946 (.o (.o .e 0xe38193e381aee381bf 12950 .e) 0xe38193e381aee38288 12951 (.o .e 0xe38193e381b5e38186 12954 .e))) 0xe38193e381b5e38293 12955 (.o (.o (.o (.o .e 0xe38193e381bee3828b 12961 .e) 0xe38193e38282e381a1 12964 .e) 0xe38193e38282e381ae 12965 (.o .e 0xe38193e38282e38293 12966 .e)) 0xe38193e38284e3818f 12967 (.o (.o .e 0xe38193e38284e381be 12968 .e) 0xe38193e38286e38186 12969 (.o .e 0xe38193e38288e38184 12971 .e)))))
def mnemonicTree399 : Tree := .o mnemonicTree397 0xe3818de38283e3818f 12730 mnemonicTree398
def mnemonicTree400 : Tree := .o (.o (.o (.o (.o (.o (.o .e 0xe38193e3828ae3828b 12973 .e) 0xe38193e38293e3818d 12980 .e) 0xe38193e38293e38284 12989 (.o .e 0xe38195e38186e381aa 13003 .e)) 0xe38195e3818be381aa 13006 (.o (.o (.o .e 0xe38195e3818fe38197 13010 .e) 0xe38195e3818fe38289 13012 .e) 0xe38195e38193e3818f 13013 (.o .e 0xe38195e38193e381a4 13014 .e))) 0xe38195e3819fe38293 13017 (.o (.o (.o (.o .e 0xe38195e381a6e38184 13028 .e) 0xe38195e381a8e38186 13030 .e) 0xe38195e381a8e38197 13032 (.o .e 0xe38195e381a8e3828b 13033 .e)) 0xe38195e381aee38186 13034 (.o (.o .e 0xe38195e381bbe38186 13038 .e) 0xe38195e381bee38199 13040 (.o .e 0xe38195e38280e38191 13043 .e)))) 0xe38195e38281e3828b 13044 (.o (.o (.o (.o (.o .e 0xe38195e38286e38186 13046 .e) 0xe38195e38288e38186 13047 .e) 0xe38195e38288e3818f 13048 (.o .e 0xe38195e3828fe3828b 13052 .e)) 0xe38195e38293e3818b 13054 (.o (.o (.o .e 0xe38195e38293e3819d 13061 .e) 0xe38195e38293e381a1 13062 .e) 0xe38195e38293e381be 13063 (.o .e 0xe38195e38293e381bf 13064 .e))) 0xe38197e38182e38184 13066 (.o (.o (.o (.o .e 0xe38197e38184e3818f 13070 .e) 0xe38197e38184e38293 13071 .e) 0xe38197e38186e381a1 13072 (.o .e 0xe38197e38188e38184 13073 .e)) 0xe38197e3818ae38191 13074 (.o (.o .e 0xe38197e3818be38184 13075 .e) 0xe38197e3818be3818f 13076 (.o .e 0xe38197e38199e38186 13079 .e))))) 0xe38197e3819fe381a6 13083 (.o (.o (.o (.o (.o (.o .e 0xe38197e3819fe381bf 13084 .e) 0xe38197e381a6e38184 13090 .e) 0xe38197e381a6e3818d 13091 (.o .e 0xe38197e381a6e381a4 13092 .e)) 0xe38197e381aae38293 13097 (.o (.o (.o .e 0xe38197e381ade381be 13098 .e) 0xe38197e381ade38293 13099 .e) 0xe38197e381afe38184 13102 (.o .e 0xe38197e381afe381a4 13104 .e))) 0xe38197e381afe38293 13106 (.o (.o (.o (.o .e 0xe38197e381b5e3818f 13108 .e) 0xe38197e381b8e38184 13110 .e) 0xe38197e381bbe38186 13111 (.o .e 0xe38197e381bbe38293 13112 .e)) 0xe38197e381bee38186 13113 (.o (.o .e 0xe38197e381bee3828b 13114 .e) 0xe38197e381bfe38293 13115 (.o .e 0xe38197e38281e38184 13118 .e)))) 0xe38197e38281e3828b 13119 (.o (.o (.o (.o (.o .e 0xe38197e38282e38293 13120 .e) 0xe38197e38283e38193 13128 .e) 0xe38197e38285e381bf 13144 (.o .e 0xe38197e38293e3818b 13154 .e)) 0xe38199e38182e38197 13161 (.o (.o .e 0xe38199e38182e381aa 13162 .e) 0xe38199e38184e3818b 13165 (.o .e 0xe38199e3818de381be 13173 .e))) 0xe38199e3818fe38186 13174 (.o (.o (.o (.o .e 0xe38199e38191e3828b 13176 .e) 0xe38199e38193e38197 13178 .e) 0xe38199e38199e38280 13181 (.o .e 0xe38199e381a6e3818d 13186 .e)) 0xe38199e381a6e3828b 13187 (.o (.o .e 0xe38199e381ade3828b 13188 .e) 0xe38199e381aee38193 13189 (.o .e 0xe38199e381b5e3828c 13195 .e)))))
def mnemonicTree401 : Tree := .o (.o (.o (.o (.o (.o (.o .e 0xe38199e38281e38197 13201 .e) 0xe38199e38282e38186 13202 .e) 0xe38199e38284e3818d 13203 (.o .e 0xe38199e3828be38281 13205 .e)) 0xe38199e3828fe3828b 13208 (.o (.o (.o .e 0xe3819be3818ae38186 13216 .e) 0xe3819be3818de38280 13219 .e) 0xe3819be3818de38286 13220 (.o .e 0xe3819be38191e38293 13222 .e))) 0xe3819be38193e38186 13223 (.o (.o (.o (.o .e 0xe3819be3819fe38184 13225 .e) 0xe3819be3819fe38191 13226 .e) 0xe3819be381aae3818b 13241 (.o .e 0xe3819be381bee38184 13246 .e)) 0xe3819be381bee3828b 13247 (.o (.o .e 0xe3819be38281e3828b 13248 .e) 0xe3819be3828ae381b5 13250 (.o .e 0xe3819be38293e38184 13252 .e)))) 0xe3819be38293e3818b 13254 (.o (.o (.o (.o (.o .e 0xe3819be38293e3818f 13256 .e) 0xe3819be38293e38280 13273 .e) 0xe3819be38293e3828d 13282 (.o .e 0xe3819de38182e3818f 13283 .e)) 0xe3819de38184e381ad 13285 (.o (.o .e 0xe3819de38186e3818d 13287 .e) 0xe3819de38186e3828a 13294 (.o .e 0xe3819de38188e38293 13296 .e))) 0xe3819de38193e38186 13299 (.o (.o (.o (.o .e 0xe3819de38197e381aa 13302 .e) 0xe3819de3819be38184 13303 .e) 0xe3819de3819be38293 13304 (.o .e 0xe3819de381a3e381a8 13314 .e)) 0xe3819de381a4e38186 13307 (.o (.o .e 0xe3819de381aae3819f 13318 .e) 0xe3819de381bee381a4 13322 (.o .e 0xe3819de381bee3828b 13323 .e))))) 0xe3819de38280e3818f 13324 (.o (.o (.o (.o (.o (.o .e 0xe3819de38281e3828b 13326 .e) 0xe3819de3828de38186 13330 .e) 0xe3819fe38182e38184 13340 (.o .e 0xe3819fe38184e3818d 13346 .e)) 0xe3819fe38184e38193 13349 (.o (.o (.o .e 0xe3819fe38184e381bb 13366 .e) 0xe3819fe38184e38280 13369 .e) 0xe3819fe38184e38289 13373 (.o .e 0xe3819fe38184e3828b 13375 .e))) 0xe3819fe38186e38188 13377 (.o (.o (.o (.o .e 0xe3819fe38188e3828b 13378 .e) 0xe3819fe3818ae38199 13379 .e) 0xe3819fe3818ae3828b 13380 (.o .e 0xe3819fe3818be38184 13382 .e)) 0xe3819fe3818be381ad 13383 (.o (.o .e 0xe3819fe38193e3818f 13386 .e) 0xe3819fe38195e38184 13388 (.o .e 0xe3819fe3819fe3818f 13395 .e)))) 0xe3819fe3819fe381bf 13397 (.o (.o (.o (.o (.o .e 0xe3819fe381a6e3828b 13404 .e) 0xe3819fe381abe38293 13407 .e) 0xe3819fe381ace3818d 13408 (.o .e 0xe3819fe381afe381a4 13410 .e)) 0xe3819fe381bee3828b 13415 (.o (.o .e 0xe3819fe38281e38199 13418 .e) 0xe3819fe38281e3828b 13419 (.o .e 0xe3819fe38282e381a4 13420 .e))) 0xe3819fe38288e3828b 13422 (.o (.o (.o (.o .e 0xe3819fe38289e38199 13423 .e) 0xe3819fe3828ae3828b 13426 .e) 0xe3819fe3828be381a8 13427 (.o .e 0xe3819fe3828ce3828b 13428 .e)) 0xe3819fe38293e38184 13433 (.o (.o .e 0xe3819fe38293e3818b 13435 .e) 0xe3819fe38293e3818d 13436 (.o .e 0xe381a1e38182e38184 13458 .e)))))
def mnemonicTree402 : Tree := .o mnemonicTree400 0xe38199e381bee38184 13200 mnemonicTree401
def mnemonicTree403 : Tree := .o mnemonicTree399 0xe38193e38288e38186 12972 mnemonicTree402
def mnemonicTree404 : Tree := .o (.o (.o (.o (.o (.o (.o .e 0xe381a1e38184e3818d 13460 .e) 0xe381a1e38188e38293 13462 .e) 0xe381a1e3818be38184 13463 (.o .e 0xe381a1e3818be38289 13464 .e)) 0xe381a1e3818de38293 13466 (.o (.o (.o .e 0xe381a1e38191e38293 13468 .e) 0xe381a1e38193e3818f 13469 .e) 0xe381a1e38195e38184 13470 (.o .e 0xe381a1e38197e3818d 13471 .e))) 0xe381a1e3819be38184 13473 (.o (.o (.o (.o .e 0xe381a1e3819de38186 13474 .e) 0xe381a1e3819fe38184 13475 .e) 0xe381a1e3819fe38293 13476 (.o .e 0xe381a1e381a6e3818d 13479 .e)) 0xe381a1e381a6e38293 13480 (.o (.o .e 0xe381a1e381ace3818d 13481 .e) 0xe381a1e381ace3828a 13482 (.o .e 0xe381a1e381aee38186 13483 .e)))) 0xe381a1e381bbe38186 13486 (.o (.o (.o (.o (.o .e 0xe381a1e381bee3819f 13487 .e) 0xe381a1e381bfe381a4 13488 .e) 0xe381a1e38289e38197 13496 (.o .e 0xe381a1e38289e381bf 13497 .e)) 0xe381a1e3828fe3828f 13501 (.o (.o (.o .e 0xe381a4e38184e3818b 13504 .e) 0xe381a4e38186e3818b 13506 .e) 0xe381a4e38186e3828f 13509 (.o .e 0xe381a4e3818be38186 13510 .e))) 0xe381a4e3818fe381ad 13512 (.o (.o (.o (.o .e 0xe381a4e3818fe3828b 13513 .e) 0xe381a4e38191e381ad 13514 .e) 0xe381a4e38191e3828b 13515 (.o .e 0xe381a4e381a4e38280 13520 .e)) 0xe381a4e381aae381bf 13523 (.o (.o .e 0xe381a4e381aee3828b 13525 .e) 0xe381a4e381bee3828b 13528 (.o .e 0xe381a4e381bfe3818d 13529 .e))))) 0xe381a4e38282e3828a 13531 (.o (.o (.o (.o (.o (.o .e 0xe381a4e38282e3828b 13532 .e) 0xe381a4e38288e38184 13533 .e) 0xe381a4e3828fe3828a 13537 (.o .e 0xe381a6e38182e38197 13538 .e)) 0xe381a6e38182e381a6 13539 (.o (.o (.o .e 0xe381a6e38182e381bf 13540 .e) 0xe381a6e38184e3818b 13542 .e) 0xe381a6e38184e3818d 13543 (.o .e 0xe381a6e38184e38197 13547 .e))) 0xe381a6e38186e381a1 13555 (.o (.o (.o (.o .e 0xe381a6e38199e3828a 13562 .e) 0xe381a6e3819de38186 13563 .e) 0xe381a6e381a4e38284 13570 (.o .e 0xe381a6e381ace3818d 13572 .e)) 0xe381a6e381afe38184 13575 (.o (.o .e 0xe381a6e381bbe38293 13579 .e) 0xe381a6e381bee38188 13580 (.o .e 0xe381a6e38289e38199 13584 .e)))) 0xe381a6e3828fe38191 13586 (.o (.o (.o (.o (.o .e 0xe381a6e38293e3818d 13591 .e) 0xe381a6e38293e38197 13596 .e) 0xe381a8e38184e3828c 13609 (.o .e 0xe381a8e38186e38197 13613 .e)) 0xe381a8e3818ae38184 13615 (.o (.o .e 0xe381a8e3818ae3818b 13616 .e) 0xe381a8e3818ae3818f 13617 (.o .e 0xe381a8e3818ae38199 13618 .e))) 0xe381a8e3818ae3828b 13619 (.o (.o (.o (.o .e 0xe381a8e3818be38184 13620 .e) 0xe381a8e3818be38199 13621 .e) 0xe381a8e3818fe38184 13624 (.o .e 0xe381a8e3818fe381ab 13627 .e)) 0xe381a8e38191e38184 13629 (.o (.o .e 0xe381a8e38191e3828b 13630 .e) 0xe381a8e38193e38284 13631 (.o .e 0xe381a8e38195e3818b 13632 .e)))))
def mnemonicTree405 : Tree := .o (.o (.o (.o (.o (.o (.o .e 0xe381a8e3819fe38293 13635 .e) 0xe381a8e381aae38184 13643 .e) 0xe381a8e381aae3828a 13645 (.o .e 0xe381a8e381bbe38186 13649 .e)) 0xe381a8e381bee3828b 13650 (.o (.o (.o .e 0xe381a8e38281e3828b 13651 .e) 0xe381a8e38282e3828b 13653 .e) 0xe381aae38184e38199 13661 (.o .e 0xe381aae3818ae38199 13664 .e))) 0xe381aae3818fe38199 13666 (.o (.o (.o (.o .e 0xe381aae38195e38191 13669 .e) 0xe381aae381abe3828f 13676 .e) 0xe381aae381aee3818b 13677 (.o .e 0xe381aae381bee38188 13680 .e)) 0xe381aae381bee381bf 13681 (.o (.o .e 0xe381aae38281e3828b 13684 .e) 0xe381aae38284e38280 13685 (.o .e 0xe381aae38289e38186 13686 .e)))) 0xe381aae3828ce3828b 13689 (.o (.o (.o (.o (.o .e 0xe381abe38182e38186 13692 .e) 0xe381abe38186e38191 13694 .e) 0xe381abe3818ae38184 13695 (.o .e 0xe381abe3818be38184 13696 .e)) 0xe381abe38197e3818d 13703 (.o (.o .e 0xe381abe381a3e3818b 13707 .e) 0xe381abe381a3e3818d 13708 (.o .e 0xe381abe381aae38186 13716 .e))) 0xe381abe381bbe38293 13717 (.o (.o (.o (.o .e 0xe381abe381bee38281 13718 .e) 0xe381abe38282e381a4 13719 .e) 0xe381abe38284e3828a 13720 (.o .e 0xe381abe38293e38184 13724 .e)) 0xe381abe38293e3818b 13725 (.o (.o .e 0xe381abe38293e3818d 13726 .e) 0xe381abe38293e381a1 13732 (.o .e 0xe381abe38293e38280 13737 .e))))) 0xe381ace3818be38199 13741 (.o (.o (.o (.o (.o (.o .e 0xe381ace38199e38280 13745 .e) 0xe381ace38281e3828a 13747 .e) 0xe381ace38289e38199 13748 (.o .e 0xe381ade38184e3818d 13751 .e)) 0xe381ade38184e3828b 13752 (.o (.o (.o .e 0xe381ade38184e3828d 13753 .e) 0xe381ade3818fe38289 13756 .e) 0xe381ade38193e38280 13758 (.o .e 0xe381ade381a4e38184 13763 .e))) 0xe381ade381bee3818d 13771 (.o (.o (.o (.o .e 0xe381ade381bfe381bf 13773 .e) 0xe381ade38280e38184 13774 .e) 0xe381ade38282e381a8 13776 (.o .e 0xe381ade38289e38186 13777 .e)) 0xe381ade38293e38197 13785 (.o (.o .e 0xe381aee38193e38199 13798 .e) 0xe381aee38193e3828b 13799 (.o .e 0xe381aee3819be3828b 13800 .e)))) 0xe381aee381a3e3818f 13805 (.o (.o (.o (.o (.o .e 0xe381aee381afe38289 13807 .e) 0xe381aee38284e381be 13811 .e) 0xe381aee3828ce38293 13816 (.o .e 0xe381aee38293e3818d 13817 .e)) 0xe381afe38182e3818f 13819 (.o (.o .e 0xe381afe38184e381a1 13829 .e) 0xe381afe38188e3828b 13832 (.o .e 0xe381afe3818ae3828b 13833 .e))) 0xe381afe3818be38184 13834 (.o (.o (.o (.o .e 0xe381afe3818be3828b 13836 .e) 0xe381afe38191e38293 13838 .e) 0xe381afe38195e381bf 13840 (.o .e 0xe381afe38195e38293 13841 .e)) 0xe381afe38197e3828b 13844 (.o (.o .e 0xe381afe3819be3828b 13845 .e) 0xe381afe3819de38293 13847 (.o .e 0xe381afe3819fe38293 13848 .e)))))
def mnemonicTree406 : Tree := .o mnemonicTree404 0xe381a8e3819de38186 13634 mnemonicTree405
def mnemonicTree407 : Tree := .o (.o (.o (.o (.o (.o (.o .e 0xe381afe38281e381a4 13870 .e) 0xe381afe38284e38184 13871 .e) 0xe381afe38284e38197 13872 (.o .e 0xe381afe38289e38186 13873 .e)) 0xe381afe3828fe38184 13875 (.o (.o (.o .e 0xe381afe38293e38184 13876 .e) 0xe381afe38293e38193 13882 .e) 0xe381b2e38184e3818d 13898 (.o .e 0xe381b2e38186e38293 13899 .e))) 0xe381b2e38188e3828b 13900 (.o (.o (.o (.o .e 0xe381b2e3818be3818f 13901 .e) 0xe381b2e3818be3828a 13902 .e) 0xe381b2e3818be3828b 13903 (.o .e 0xe381b2e3818be38293 13904 .e)) 0xe381b2e3818fe38184 13905 (.o (.o .e 0xe381b2e38191e381a4 13906 .e) 0xe381b2e38193e3818f 13908 (.o .e 0xe381b2e38195e38184 13909 .e)))) 0xe381b2e38195e38293 13911 (.o (.o (.o (.o (.o .e 0xe381b2e38197e38287 13913 .e) 0xe381b2e3819de3818b 13914 .e) 0xe381b2e3819de38280 13915 (.o .e 0xe381b2e3819fe3828b 13918 .e)) 0xe381b2e381a3e38197 13921 (.o (.o (.o .e 0xe381b2e381a3e38199 13923 .e) 0xe381b2e381a6e38184 13928 .e) 0xe381b2e381aae38293 13931 (.o .e 0xe381b2e381ade3828b 13932 .e))) 0xe381b2e381afe38293 13933 (.o (.o (.o (.o .e 0xe381b2e381bbe38186 13936 .e) 0xe381b2e381bee38293 13938 .e) 0xe381b2e381bfe381a4 13939 (.o .e 0xe381b2e38281e38184 13940 .e)) 0xe381b2e38284e38191 13942 (.o (.o .e 0xe381b2e38284e38199 13943 .e) 0xe381b2e38288e38186 13944 (.o .e 0xe381b2e38289e3818f 13947 .e))))) 0xe381b2e3828ae381a4 13948 (.o (.o (.o (.o (.o (.o .e 0xe381b2e3828be381be 13950 .e) 0xe381b2e3828ce38184 13952 .e) 0xe381b2e3828de38184 13953 (.o .e 0xe381b2e3828de38186 13954 .e)) 0xe381b2e3828de3818d 13955 (.o (.o (.o .e 0xe381b5e38182e38293 13965 .e) 0xe381b5e38186e381b5 13971 .e) 0xe381b5e38188e3828b 13972 (.o .e 0xe381b5e3818ae38293 13973 .e))) 0xe381b5e3818be38184 13974 (.o (.o (.o (.o .e 0xe381b5e3818de38293 13975 .e) 0xe381b5e38193e38186 13978 .e) 0xe381b5e38195e38184 13979 (.o .e 0xe381b5e38199e381be 13982 .e)) 0xe381b5e3819be38184 13983 (.o (.o .e 0xe381b5e3819de3818f 13985 .e) 0xe381b5e3819fe38293 13987 (.o .e 0xe381b5e381a3e3818d 13992 .e)))) 0xe381b5e381a4e38186 13989 (.o (.o (.o (.o (.o .e 0xe381b5e381a4e3818b 13990 .e) 0xe381b5e381a8e3828b 13995 .e) 0xe381b5e381a8e38293 13996 (.o .e 0xe381b5e381aee38186 13997 .e)) 0xe381b5e381afe38184 13998 (.o (.o .e 0xe381b5e381b8e38293 14000 .e) 0xe381b5e381bee38293 14001 (.o .e 0xe381b5e381bfe38293 14002 .e))) 0xe381b5e38281e381a4 14003 (.o (.o (.o (.o .e 0xe381b5e38281e38293 14004 .e) 0xe381b5e38288e38186 14005 .e) 0xe381b5e3828ae38193 14006 (.o .e 0xe381b5e3828ae3828b 14007 .e)) 0xe381b5e3828be38184 14008 (.o (.o .e 0xe381b8e38184e3818d 14019 .e) 0xe381b8e38184e38195 14022 (.o .e 0xe381b8e38184e3819d 14025 .e)))))
def mnemonicTree408 : Tree := .o (.o (.o (.o (.o (.o (.o .e 0xe381b8e38193e38280 14031 .e) 0xe381b8e38289e38199 14034 .e) 0xe381bbe38182e38293 14041 (.o .e 0xe381bbe38184e3818f 14042 .e)) 0xe381bbe38188e3828b 14049 (.o (.o (.o .e 0xe381bbe3818ae38293 14050 .e) 0xe381bbe3818be38293 14051 .e) 0xe381bbe3818fe3828d 14054 (.o .e 0xe381bbe38191e381a4 14055 .e))) 0xe381bbe38191e38293 14056 (.o (.o (.o (.o .e 0xe381bbe38193e38186 14057 .e) 0xe381bbe38193e3828b 14058 .e) 0xe381bbe38197e38184 14059 (.o .e 0xe381bbe38197e381a4 14060 .e)) 0xe381bbe38197e38285 14061 (.o (.o .e 0xe381bbe3819be38184 14063 .e) 0xe381bbe3819de38184 14064 (.o .e 0xe381bbe3819de3818f 14065 .e)))) 0xe381bbe3819fe381a6 14066 (.o (.o (.o (.o (.o .e 0xe381bbe3819fe3828b 14067 .e) 0xe381bbe381a3e38195 14070 .e) 0xe381bbe38281e3828b 14073 (.o .e 0xe381bbe38293e38184 14074 .e)) 0xe381bbe38293e3818d 14075 (.o (.o .e 0xe381bbe38293e38191 14076 .e) 0xe381bee3818be38184 14080 (.o .e 0xe381bee38191e3828b 14083 .e))) 0xe381bee38193e381a8 14084 (.o (.o (.o (.o .e 0xe381bee38195e381a4 14085 .e) 0xe381bee38199e3818f 14087 .e) 0xe381bee381a4e3828a 14089 (.o .e 0xe381bee381a8e38281 14090 .e)) 0xe381bee381ace38191 14092 (.o (.o .e 0xe381bee381ade3818f 14093 .e) 0xe381bee381bbe38186 14094 (.o .e 0xe381bee38282e3828b 14095 .e))))) 0xe381bee38288e38186 14097 (.o (.o (.o (.o (.o (.o .e 0xe381bee3828fe38199 14099 .e) 0xe381bee3828fe3828a 14100 .e) 0xe381bee3828fe3828b 14101 (.o .e 0xe381bfe38184e38289 14106 .e)) 0xe381bfe38186e381a1 14107 (.o (.o (.o .e 0xe381bfe38188e3828b 14108 .e) 0xe381bfe3818be3819f 14110 .e) 0xe381bfe3818be38293 14111 (.o .e 0xe381bfe38191e38293 14112 .e))) 0xe381bfe38193e38293 14113 (.o (.o (.o (.o .e 0xe381bfe38199e38184 14115 .e) 0xe381bfe3819be3828b 14117 .e) 0xe381bfe381a3e3818b 14118 (.o .e 0xe381bfe381a6e38184 14121 .e)) 0xe381bfe381aae381a8 14123 (.o (.o .e 0xe381bfe381aee38186 14126 .e) 0xe381bfe381bbe38293 14128 (.o .e 0xe381bfe38282e381a8 14129 .e)))) 0xe381bfe38289e38184 14131 (.o (.o (.o (.o (.o .e 0xe381bfe3828fe3818f 14133 .e) 0xe381bfe38293e3818b 14134 .e) 0xe38280e38184e3818b 14136 (.o .e 0xe38280e38188e3818d 14137 .e)) 0xe38280e38188e38293 14138 (.o (.o .e 0xe38280e3818be38184 14139 .e) 0xe38280e3818be38186 14140 (.o .e 0xe38280e3818be38188 14141 .e))) 0xe38280e3818be38197 14142 (.o (.o (.o (.o .e 0xe38280e38191e3828b 14144 .e) 0xe38280e38197e3828d 14150 .e) 0xe38280e38199e38186 14151 (.o .e 0xe38280e38199e38193 14152 .e)) 0xe38280e38199e38281 14154 (.o (.o .e 0xe38280e3819be3828b 14155 .e) 0xe38280e3819be38293 14156 (.o .e 0xe38280e381aee38186 14159 .e)))))
def mnemonicTree409 : Tree := .o mnemonicTree407 0xe381b8e38184e3828f 14029 mnemonicTree408
def mnemonicTree410 : Tree := .o mnemonicTree406 0xe381afe381aae38199 13864 mnemonicTree409
def mnemonicTree411 : Tree := .o mnemonicTree403 0xe381a1e38182e38293 13459 mnemonicTree410
def mnemonicTree412 : Tree := .o mnemonicTree396 0xe38188e3818ae3828a 12505 mnemonicTree411
def mnemonicTree413 : Tree := .o (.o (.o (.o (.o (.o (.o .e 0xe38280e38288e38186 14161 .e) 0xe38280e3828de38293 14164 .e) 0xe38281e38184e38197 14171 (.o .e 0xe38281e38197e3819f 14178 .e)) 0xe38281e381bee38184 14181 (.o (.o (.o .e 0xe38281e38284e38199 14182 .e) 0xe38282e38188e3828b 14188 .e) 0xe38282e3818fe38197 14189 (.o .e 0xe38282e38289e38186 14194 .e))) 0xe38282e38293e3818f 14195 (.o (.o (.o (.o .e 0xe38284e3818ae38284 14197 .e) 0xe38284e38191e3828b 14198 .e) 0xe38284e38195e38184 14199 (.o .e 0xe38284e38199e38184 14201 .e)) 0xe38284e38199e381bf 14203 (.o (.o .e 0xe38284e3819be3828b 14204 .e) 0xe38284e3819de38186 14205 (.o .e 0xe38284e3819fe38184 14206 .e)))) 0xe38284e381a1e38293 14207 (.o (.o (.o (.o (.o .e 0xe38284e381a3e381a8 14208 .e) 0xe38284e38281e3828b 14211 .e) 0xe38284e38288e38184 14213 (.o .e 0xe38286e38186e3818d 14215 .e)) 0xe38286e38191e381a4 14219 (.o (.o (.o .e 0xe38286e3819be38293 14221 .e) 0xe38286e3819de38186 14222 .e) 0xe38286e3819fe3818b 14223 (.o .e 0xe38286e38289e38184 14228 .e))) 0xe38286e3828ce3828b 14229 (.o (.o (.o (.o .e 0xe38288e38186e38184 14230 .e) 0xe38288e38186e3818b 14231 .e) 0xe38288e38186e38199 14234 (.o .e 0xe38288e3818be38293 14237 .e)) 0xe38288e3818de38293 14238 (.o (.o .e 0xe38288e38191e38184 14241 .e) 0xe38288e38195e38293 14243 (.o .e 0xe38288e3819de38186 14245 .e))))) 0xe38288e3819de3818f 14246 (.o (.o (.o (.o (.o (.o .e 0xe38288e381a3e3818b 14247 .e) 0xe38288e381a6e38184 14248 .e) 0xe38288e381ade381a4 14250 (.o .e 0xe38288e38284e3818f 14251 .e)) 0xe38288e38286e38186 14252 (.o (.o (.o .e 0xe38289e38184e38186 14255 .e) 0xe38289e3819be38293 14261 .e) 0xe38289e3819fe38184 14263 (.o .e 0xe38289e381a3e3818b 14264 .e))) 0xe38289e3828ce381a4 14265 (.o (.o (.o (.o .e 0xe3828ae38188e3818d 14266 .e) 0xe3828ae3818be38184 14267 .e) 0xe3828ae3818fe381a4 14271 (.o .e 0xe3828ae38191e38293 14272 .e)) 0xe3828ae38193e38186 14273 (.o (.o .e 0xe3828ae3819be38184 14274 .e) 0xe3828ae3819de38186 14275 (.o .e 0xe3828ae3819de3818f 14276 .e)))) 0xe3828ae381a6e38293 14277 (.o (.o (.o (.o (.o .e 0xe3828ae381ade38293 14278 .e) 0xe3828ae38286e38186 14279 .e) 0xe3828ae38288e38186 14281 (.o .e 0xe3828ae3828ae3818f 14286 .e)) 0xe3828ae3828ce3818d 14287 (.o (.o .e 0xe3828ae3828de38293 14288 .e) 0xe3828ce3818de38197 14302 (.o .e 0xe3828de38186e3818b 14311 .e))) 0xe3828de38193e381a4 14316 (.o (.o (.o (.o .e 0xe3828de3819be38293 14319 .e) 0xe3828de381a6e38293 14320 .e) 0xe3828de38281e38293 14321 (.o .e 0xe3828de3828ce381a4 14322 .e)) 0xe3828de38293e3828a 14326 (.o (.o .e 0xe3828fe3818be38199 14327 .e) 0xe3828fe3818be38281 14328 (.o .e 0xe3828fe38197e381a4 14331 .e)))))
def mnemonicTree414 : Tree := .o (.o (.o (.o (.o (.o (.o .e 0xe3828fe3828ce3828b 14335 .e) 0x6163616465cc816d6965 6162 .e) 0x6163717565cc81726972 6177 (.o .e 0x61677265cc8161626c65 6208 .e)) 0x616d65cc816e61676572 6235 (.o (.o (.o .e 0x616e65cc81616e746972 6250 .e) 0x617065cc817269746966 6266 .e) 0x61727465cc817269656c 6290 (.o .e 0x62616e6e6965cc807265 6347 .e))) 0x636865cc817175696572 6521 (.o (.o (.o (.o .e 0x636f6865cc8173696f6e 6568 .e) 0x637265cc816174757265 6610 .e) 0x637265cc816469746572 6611 (.o .e 0x6375696c6c65cc807265 6627 .e)) 0x6465cc81626174747265 6645 (.o (.o .e 0x6465cc81626f72646572 6647 .e) 0x6465cc81627269646572 6648 (.o .e 0x6465cc81627574616e74 6649 .e)))) 0x6465cc8163656d627265 6651 (.o (.o (.o (.o (.o .e 0x6465cc81636869726572 6652 .e) 0x6465cc81636c61726572 6654 .e) 0x6465cc816375706c6572 6657 (.o .e 0x6465cc81647563746966 6659 .e)) 0x6465cc8166656e736966 6661 (.o (.o (.o .e 0x6465cc81667261796572 6663 .e) 0x6465cc81676976726572 6665 .e) 0x6465cc81676c75746972 6666 (.o .e 0x6465cc81677261666572 6667 .e))) 0x6465cc816a65756e6572 6668 (.o (.o (.o (.o .e 0x6465cc816e6963686572 6674 .e) 0x6465cc8170656e736572 6679 .e) 0x6465cc81706861736572 6680 (.o .e 0x6465cc81706c61636572 6681 .e)) 0x6465cc8172616e676572 6683 (.o (.o .e 0x6465cc81736173747265 6685 .e) 0x6465cc817369676e6572 6688 (.o .e 0x6465cc81746163686572 6692 .e))))) 0x6465cc81746573746572 6693 (.o (.o (.o (.o (.o (.o .e 0x6465cc81746f75726572 6694 .e) 0x6465cc81747265737365 6695 .e) 0x6469666665cc81726572 6704 (.o .e 0x6573706965cc80676c65 6864 .e)) 0x6578616765cc81726572 6902 (.o (.o (.o .e 0x657865cc816375746572 6908 .e) 0x65787065cc8164696572 6917 .e) 0x65cc81636c6169726572 6756 (.o .e 0x65cc81636f6e6f6d6965 6761 .e))) 0x65cc816372697661696e 6766 (.o (.o (.o (.o .e 0x65cc816375726575696c 6769 .e) 0x65cc8167616c69736572 6778 .e) 0x65cc816c61626f726572 6781 (.o .e 0x65cc816c656374726f6e 6783 .e)) 0x65cc816c696769626c65 6787 (.o (.o .e 0x65cc816c697469736d65 6788 .e) 0x65cc816c756369646572 6790 (.o .e 0x65cc816d657261756465 6795 .e)))) 0x65cc816d697373696f6e 6796 (.o (.o (.o (.o (.o .e 0x65cc816d6f75766f6972 6799 .e) 0x65cc816d756c73696f6e 6804 .e) 0x65cc8170616973736972 6840 (.o .e 0x65cc8170696365726965 6844 .e)) 0x65cc8170696c6f677565 6847 (.o (.o .e 0x65cc8170697461706865 6850 .e) 0x65cc8170726f75766572 6853 (.o .e 0x65cc8170756973616e74 6854 .e))) 0x65cc8172757074696f6e 6860 (.o (.o (.o (.o .e 0x65cc8174617469717565 6878 .e) 0x65cc817465696e647265 6879 .e) 0x65cc8174656e646f6972 6880 (.o .e 0x65cc81746f6e6e616e74 6888 .e)) 0x65cc81746f7572646972 6889 (.o (.o .e 0x65cc8176656e7461696c 6896 .e) 0x65cc81766964656e6365 6897 (.o .e 0x65cc81766f6c75746966 6899 .e)))))
def mnemonicTree415 : Tree := .o mnemonicTree413 0xe3828fe38289e38186 14334 mnemonicTree414
def mnemonicTree416 : Tree := .o (.o (.o (.o (.o (.o (.o .e 0x6765cc816c6174696e65 7043 .e) 0x6765cc816f6c6f676965 7050 .e) 0x6765cc8172616e69756d 7052 (.o .e 0x6865cc816d61746f6d65 7114 .e)) 0x6865cc81726973736f6e 7116 (.o (.o (.o .e 0x686f6d6f6765cc806e65 7128 .e) 0x696d7065cc817269616c 7162 .e) 0x6a757665cc816e696c65 7242 (.o .e 0x6c696e65cc8161697265 7290 .e))) 0x6d616c65cc8166696365 7333 (.o (.o (.o (.o .e 0x6d617465cc817269656c 7353 .e) 0x6d65cc816461696c6c65 7362 .e) 0x6e65cc8162756c657578 7450 (.o .e 0x6e65cc81676174696f6e 7453 .e)) 0x6e65cc81676c69676572 7454 (.o (.o .e 0x6e65cc81676f63696572 7455 .e) 0x70616c6d617265cc8073 7556 (.o .e 0x7061737465cc80717565 7582 .e)))) 0x706574726fcc816c656f 3474 (.o (.o (.o (.o (.o .e 0x706f6e6465cc81726572 7665 .e) 0x706f737365cc81646572 7669 .e) 0x707265cc816369657578 7682 (.o .e 0x707265cc8173656e6365 7687 .e)) 0x707265cc817465787465 7688 (.o (.o (.o .e 0x707269cc816e63697065 3543 .e) 0x70726f626c65cc806d65 7694 .e) 0x70726f6365cc81646572 7695 (.o .e 0x70726f737065cc807265 7704 .e))) 0x70726f7465cc81676572 7705 (.o (.o (.o (.o .e 0x71756965cc8174756465 7725 .e) 0x7265616363696fcc816e 3605 .e) 0x7265cc81616c69736572 7745 (.o .e 0x7265cc81616e696d6572 7746 .e)) 0x7265cc81636c616d6572 7749 (.o (.o .e 0x7265cc81636f6c746572 7750 .e) 0x7265cc81666f726d6572 7758 (.o .e 0x7265cc8167616c69656e 7761 .e))))) 0x7265cc8167756c696572 7764 (.o (.o (.o (.o (.o (.o .e 0x7265cc8173696e657578 7789 .e) 0x7265cc81736f75647265 7790 .e) 0x7265cc8173756c746174 7793 (.o .e 0x7265cc817461626c6972 7794 .e)) 0x7265cc81746963756c65 7796 (.o (.o (.o .e 0x7265cc8176756c736966 7804 .e) 0x736365cc816e6172696f 7868 .e) 0x7365cc816c6563746966 7885 (.o .e 0x7365cc816e6174657572 7890 .e))) 0x7365cc817175656e6365 7894 (.o (.o (.o (.o .e 0x736f6c7563696fcc816e 3795 .e) 0x7375676765cc81726572 7969 .e) 0x73796d65cc8174726965 7983 (.o .e 0x74656c65cc81666f6e6f 3871 .e)) 0x746865cc817261706965 8022 (.o (.o .e 0x746f6c65cc8172616e74 8034 .e) 0x76656869cc8163756c6f 4019 (.o .e 0x7665cc81686963756c65 8125 .e)))) 0x65cc81637265cc816d6572 6765 (.o (.o (.o (.o (.o .e 0x65cc816c65cc8167616e74 6784 .e) 0x65cc8174616765cc807265 6875 .e) 0x6665cc816465cc81726572 6947 (.o .e 0x6765cc816e65cc8172616c 7046 .e)) 0x6d65cc817465cc816f7265 7382 (.o (.o .e 0x7665cc816765cc8174616c 8124 .e) 0x7665cc816e65cc81726572 8129 (.o .e 0x7665cc817465cc8172616e 8140 .e))) 0x6265cc816e65cc8166696365 6364 (.o (.o (.o (.o .e 0x6365cc817265cc816272616c 6503 .e) 0x6465cc81736f6265cc816972 6689 .e) 0x65cc816c65cc817068616e74 6785 (.o .e 0x65cc816e756d65cc81726572 6834 .e)) 0x65cc8170696465cc816d6965 6845 (.o (.o .e 0x667265cc816e65cc81736965 7014 .e) 0x6765cc816f6d65cc80747265 7051 (.o .e 0x7065cc816e65cc8174726572 7598 .e)))))
def mnemonicTree417 : Tree := .o (.o (.o (.o (.o (.o (.o .e 0x736365cc816c65cc81726174 7867 .e) 0x7365cc81637265cc81746572 7880 .e) 0xe1848ee185a6e18480e185a8 16037 (.o .e 0xe38182e38184e38195e381a4 12289 .e)) 0xe38182e38184e3819fe38299 12290 (.o (.o (.o .e 0xe38182e38197e38182e381a8 12299 .e) 0xe38182e38199e38299e3818d 12302 .e) 0xe38182e3819de381b5e38299 12303 (.o .e 0xe38182e3819fe38188e3828b 12304 .e))) 0xe38182e381a4e3818be38186 12309 (.o (.o (.o (.o .e 0xe38182e381a4e381bee3828a 12311 .e) 0xe38182e381a4e38281e3828b 12312 .e) 0xe38182e381b5e3828ce3828b 12318 (.o .e 0xe38182e381b5e38299e38289 12316 .e)) 0xe38182e381b5e38299e3828b 12317 (.o (.o .e 0xe38182e381bee381a8e38299 12320 .e) 0xe38182e381bfe38282e381ae 12323 (.o .e 0xe38182e38281e3828ae3818b 12324 .e)))) 0xe38182e38284e381bee3828b 12325 (.o (.o (.o (.o (.o .e 0xe38182e38289e38286e3828b 12331 .e) 0xe38182e38289e3828fe38199 12332 .e) 0xe38182e3828fe3819be3828b 12334 (.o .e 0xe38182e3828fe381a6e3828b 12335 .e)) 0xe38182e38293e381a6e38184 12340 (.o (.o .e 0xe38182e38293e381aae38184 12341 .e) 0xe38182e38293e381bee3828a 12342 (.o .e 0xe38184e3818be38299e38184 12345 .e))) 0xe38184e3818be38299e3818f 12346 (.o (.o (.o (.o .e 0xe38184e3818de3818ae38184 12347 .e) 0xe38184e3818de381aae3828a 12348 .e) 0xe38184e3818de38282e381ae 12349 (.o .e 0xe38184e3818fe38197e38299 12351 .e)) 0xe38184e38199e38299e381bf 12364 (.o (.o .e 0xe38184e38199e38299e3828c 12365 .e) 0xe38184e3819be3818be38184 12368 (.o .e 0xe38184e3819be38299e38293 12370 .e))))) 0xe38184e3819fe3828ae38182 12377 (.o (.o (.o (.o (.o (.o .e 0xe38184e3819fe38299e38184 12373 .e) 0xe38184e3819fe38299e3818f 12374 .e) 0xe38184e381a1e3818ae38186 12378 (.o .e 0xe38184e381a1e38197e38299 12379 .e)) 0xe38184e381a1e381a8e38299 12380 (.o (.o (.o .e 0xe38184e381a1e381afe38299 12381 .e) 0xe38184e381a1e381b5e38299 12382 .e) 0xe38184e381a3e3819be38184 12386 (.o .e 0xe38184e381a3e3819de38186 12387 .e))) 0xe38184e381a3e3819fe38293 12388 (.o (.o (.o (.o .e 0xe38184e381a3e381a6e38184 12390 .e) 0xe38184e381a6e38195e38299 12392 .e) 0xe38184e381a8e38299e38186 12394 (.o .e 0xe38184e381ade38280e3828a 12398 .e)) 0xe38184e381afe38299e3828b 12402 (.o (.o .e 0xe38184e381b2e38299e3818d 12404 .e) 0xe38184e38282e38186e381a8 12410 (.o .e 0xe38184e38282e3819fe3828c 12411 .e)))) 0xe38184e38288e3818be38293 12415 (.o (.o (.o (.o (.o .e 0xe38184e38289e38199e381a8 12418 .e) 0xe38184e3828ae38287e38186 12420 .e) 0xe38184e3828ce38282e381ae 12422 (.o .e 0xe38184e3828fe3818be38293 12427 .e)) 0xe38184e3828fe381afe38299 12428 (.o (.o .e 0xe38184e3828fe38286e3828b 12429 .e) 0xe38184e38293e38195e381a4 12431 (.o .e 0xe38184e38293e38288e38186 12433 .e))) 0xe38186e3818ae38195e38299 12436 (.o (.o (.o (.o .e 0xe38186e3818be381b5e38299 12438 .e) 0xe38186e3818be38299e38184 12437 .e) 0xe38186e3818fe3828ce3828c 12442 (.o .e 0xe38186e38191e381a4e38191 12444 .e)) 0xe38186e38191e381a8e3828b 12445 (.o (.o .e 0xe38186e38191e38282e381a4 12446 .e) 0xe38186e38193e38299e3818f 12449 (.o .e 0xe38186e38195e3818de38299 12451 .e)))))
def mnemonicTree418 : Tree := .o mnemonicTree416 0x7265cc81697465cc81726572 7765 mnemonicTree417
def mnemonicTree419 : Tree := .o mnemonicTree415 0x6665cc81636f6e646572 6946 mnemonicTree418
def mnemonicTree420 : Tree := .o (.o (.o (.o (.o (.o (.o .e 0xe38186e38199e3818de38299 12455 .e) 0xe38186e38199e38281e3828b 12457 .e) 0xe38186e381a1e38285e38186 12462 (.o .e 0xe38186e381a3e3818be3828a 12463 .e)) 0xe38186e381a8e38299e38293 12467 (.o (.o (.o .e 0xe38186e381aae3818de38299 12468 .e) 0xe38186e381aae38197e38299 12469 .e) 0xe38186e381bee3828ce3828b 12476 (.o .e 0xe38186e38284e381bee38186 12479 .e))) 0xe38186e38289e381aae38184 12483 (.o (.o (.o (.o .e 0xe38186e3828ae3818de3828c 12485 .e) 0xe38186e3828be38195e38184 12486 .e) 0xe38186e3828ce38197e38184 12487 (.o .e 0xe38186e3828ce38286e3818d 12488 .e)) 0xe38186e38293e38193e38186 12493 (.o (.o .e 0xe38186e38293e381a1e38293 12494 .e) 0xe38186e38293e381a6e38293 12495 (.o .e 0xe38188e38184e38188e38293 12497 .e)))) 0xe38188e38184e3818be38299 12498 (.o (.o (.o (.o (.o .e 0xe38188e38184e38193e38299 12500 .e) 0xe38188e38184e3819be38184 12501 .e) 0xe38188e38184e38288e38186 12503 (.o .e 0xe38188e3818be38299e3818a 12506 .e)) 0xe38188e3818be38299e3818f 12507 (.o (.o (.o .e 0xe38188e3818de3819fe38184 12508 .e) 0xe38188e3818fe3819be3828b 12509 .e) 0xe38188e38197e38283e3818f 12510 (.o .e 0xe38188e381a4e38289e38293 12512 .e))) 0xe38188e381aee3818fe38299 12513 (.o (.o (.o (.o .e 0xe38188e38282e38197e38299 12517 .e) 0xe38188e38289e381b5e38299 12520 .e) 0xe38188e38293e38188e38293 12522 (.o .e 0xe38188e38293e3818be38184 12523 .e)) 0xe38188e38293e3818de38299 12524 (.o (.o .e 0xe38188e38293e3819de3818f 12528 .e) 0xe38188e38293e381a8e381a4 12530 (.o .e 0xe3818ae38184e38193e38199 12532 .e))))) 0xe3818ae38184e38197e38184 12533 (.o (.o (.o (.o (.o (.o .e 0xe3818ae38184e381a4e3818f 12534 .e) 0xe3818ae38186e38188e38293 12535 .e) 0xe3818ae38186e38195e381be 12536 (.o .e 0xe3818ae38186e38197e38299 12537 .e)) 0xe3818ae38186e3819be381a4 12538 (.o (.o (.o .e 0xe3818ae38186e3819fe38184 12539 .e) 0xe3818ae38186e381b5e3818f 12540 .e) 0xe3818ae38186e38288e38186 12542 (.o .e 0xe3818ae3818ae38288e3819d 12548 .e))) 0xe3818ae3818be38188e3828a 12549 (.o (.o (.o (.o .e 0xe3818ae3818be38199e38299 12550 .e) 0xe3818ae3818be3828fe3828a 12552 .e) 0xe3818ae3818be38299e38280 12551 (.o .e 0xe3818ae3818fe38195e381be 12555 .e)) 0xe3818ae3818fe3828ce3828b 12559 (.o (.o .e 0xe3818ae38193e381aae38186 12561 .e) 0xe3818ae38195e38188e3828b 12563 (.o .e 0xe3818ae38195e381aae38184 12564 .e)))) 0xe3818ae38195e38281e3828b 12565 (.o (.o (.o (.o (.o .e 0xe3818ae38197e38184e3828c 12566 .e) 0xe3818ae38197e38188e3828b 12567 .e) 0xe3818ae38197e38283e3828c 12570 (.o .e 0xe3818ae3819de38289e3818f 12571 .e)) 0xe3818ae3819de3828fe3828b 12572 (.o (.o .e 0xe3818ae381a1e381a4e3818f 12576 .e) 0xe3818ae381a8e38299e3828a 12582 (.o .e 0xe3818ae381bee38184e3828a 12585 .e))) 0xe3818ae38282e3819fe38184 12589 (.o (.o (.o (.o .e 0xe3818ae38282e381a1e38283 12590 .e) 0xe3818ae38293e38191e38184 12597 .e) 0xe3818ae38293e38197e38283 12598 (.o .e 0xe3818ae38293e3819be38293 12599 .e)) 0xe3818be38184e3818be38299 12604 (.o (.o .e 0xe3818be38184e38195e381a4 12608 .e) 0xe3818be38184e38197e38283 12609 (.o .e 0xe3818be38184e381a4e38186 12613 .e)))))
def mnemonicTree421 : Tree := .o (.o (.o (.o (.o (.o (.o .e 0xe3818be38184e381a8e38186 12615 .e) 0xe3818be38184e381b5e3818f 12616 .e) 0xe3818be38184e381bbe38186 12618 (.o .e 0xe3818be38184e38288e38186 12619 .e)) 0xe3818be3818be38188e3828b 12624 (.o (.o (.o .e 0xe3818be3818be38299e3818f 12625 .e) 0xe3818be3818be38299e38197 12626 .e) 0xe3818be3818be38299e381bf 12627 (.o .e 0xe3818be3818fe38193e38299 12628 .e))) 0xe3818be3818fe381a8e3818f 12629 (.o (.o (.o (.o .e 0xe3818be38195e38299e3828b 12630 .e) 0xe3818be381b5e38299e3818b 12642 .e) 0xe3818be381bbe38193e38299 12644 (.o .e 0xe3818be38293e38191e38184 12656 .e)) 0xe3818be38293e38193e38186 12657 (.o (.o .e 0xe3818be38293e38197e38283 12658 .e) 0xe3818be38293e3819de38186 12659 (.o .e 0xe3818be38293e3819fe38293 12660 .e)))) 0xe3818be38299e38184e3818d 12605 (.o (.o (.o (.o (.o .e 0xe3818be38299e381afe3818f 12641 .e) 0xe3818be38299e38293e3818b 12655 .e) 0xe3818de38193e38188e3828b 12682 (.o .e 0xe3818de3819de38299e3818f 12698 .e)) 0xe3818de3819de38299e38293 12699 (.o (.o .e 0xe3818de3819fe38188e3828b 12700 .e) 0xe3818de381a1e38287e38186 12701 (.o .e 0xe3818de381a4e38188e38293 12702 .e))) 0xe3818de381a4e381a4e3818d 12704 (.o (.o (.o (.o .e 0xe3818de381a8e38299e38186 12707 .e) 0xe3818de381a8e38299e3818f 12708 .e) 0xe3818de381aae3818be38299 12710 (.o .e 0xe3818de381aee38197e3819f 12715 .e)) 0xe3818de381b5e38299e38293 12720 (.o (.o .e 0xe3818de381bbe38299e38186 12721 .e) 0xe3818de3828fe38281e3828b 12742 (.o .e 0xe3818de38299e38184e38293 12666 .e))))) 0xe3818de38299e38197e3818d 12689 (.o (.o (.o (.o (.o (.o .e 0xe3818de38299e3828de38293 12741 .e) 0xe3818fe38184e38199e38299 12748 .e) 0xe3818fe38186e3818be38293 12749 (.o .e 0xe3818fe38186e38193e38186 12752 .e)) 0xe3818fe38186e3819de38186 12754 (.o (.o (.o .e 0xe3818fe38186e381b5e3818f 12756 .e) 0xe3818fe38186e381bbe38299 12757 .e) 0xe3818fe3818de38287e38186 12759 (.o .e 0xe3818fe38191e38299e38293 12760 .e))) 0xe3818fe38197e38283e381bf 12766 (.o (.o (.o (.o .e 0xe3818fe38197e38287e38186 12767 .e) 0xe3818fe38199e381aee3818d 12768 .e) 0xe3818fe3819be38191e38299 12770 (.o .e 0xe3818fe381a1e38193e381bf 12775 .e)) 0xe3818fe381a1e38195e3818d 12776 (.o (.o .e 0xe3818fe381a4e38197e3819f 12777 .e) 0xe3818fe381a8e38299e3818f 12781 (.o .e 0xe3818fe381ade3818fe381ad 12783 .e)))) 0xe3818fe3828fe38197e38184 12795 (.o (.o (.o (.o (.o .e 0xe3818fe38299e38182e38184 12747 .e) 0xe3818fe38299e38193e38186 12761 .e) 0xe3818fe38299e38293e381a6 12799 (.o .e 0xe38191e38184e3818be3818f 12801 .e)) 0xe38191e38184e38191e38293 12802 (.o (.o .e 0xe38191e38184e38195e381a4 12804 .e) 0xe38191e38184e3819fe38184 12806 (.o .e 0xe38191e38184e3828ce3818d 12808 .e))) 0xe38191e3818ae381a8e38199 12810 (.o (.o (.o (.o .e 0xe38191e38197e38287e38186 12826 .e) 0xe38191e3819fe381afe38299 12828 .e) 0xe38191e381a1e38289e38199 12830 (.o .e 0xe38191e381a3e38193e38293 12834 .e)) 0xe38191e381a3e3819be3818d 12836 (.o (.o .e 0xe38191e381a3e381a6e38184 12837 .e) 0xe38191e381a4e38182e381a4 12831 (.o .e 0xe38191e381a4e38188e3818d 12833 .e)))))
def mnemonicTree422 : Tree := .o mnemonicTree420 0xe3818be38184e381a6e38293 12614 mnemonicTree421
def mnemonicTree423 : Tree := .o (.o (.o (.o (.o (.o (.o .e 0xe38191e381a4e3828de38293 12841 .e) 0xe38191e381aae38191e38299 12845 .e) 0xe38191e381bfe3818be3828b 12856 (.o .e 0xe38191e3828de38191e3828d 12861 .e)) 0xe38191e3828fe38197e38184 12862 (.o (.o (.o .e 0xe38191e38293e38188e381a4 12864 .e) 0xe38191e38293e38193e38186 12869 .e) 0xe38191e38293e38195e3818f 12870 (.o .e 0xe38191e38293e38199e38186 12872 .e))) 0xe38191e38293e381a1e3818f 12874 (.o (.o (.o (.o .e 0xe38191e38293e381a6e38184 12875 .e) 0xe38191e38293e381a8e38186 12876 .e) 0xe38191e38293e381aae38184 12877 (.o .e 0xe38191e38293e381abe38293 12878 .e)) 0xe38191e38293e381bfe38293 12881 (.o (.o .e 0xe38191e38293e38281e38184 12882 .e) 0xe38191e38293e38289e38293 12883 (.o .e 0xe38191e38299e3818de3818b 12812 .e)))) 0xe38191e38299e3818de381af 12817 (.o (.o (.o (.o (.o .e 0xe38191e38299e38193e38186 12819 .e) 0xe38191e38299e38199e381a8 12827 .e) 0xe38191e38299e381ade381a4 12849 (.o .e 0xe38191e38299e381b2e38293 12852 .e)) 0xe38191e38299e38293e3818d 12867 (.o (.o (.o .e 0xe38193e38182e3818fe381be 12885 .e) 0xe38193e38186e38188e38293 12889 .e) 0xe38193e38186e3818ae38293 12890 (.o .e 0xe38193e38186e3818be38293 12891 .e))) 0xe38193e38186e38193e38186 12894 (.o (.o (.o (.o .e 0xe38193e38186e38195e38184 12895 .e) 0xe38193e38186e38197e38299 12896 .e) 0xe38193e38186e38199e38184 12897 (.o .e 0xe38193e38186e3819de3818f 12899 .e)) 0xe38193e38186e3819fe38184 12900 (.o (.o .e 0xe38193e38186e381a1e38283 12901 .e) 0xe38193e38186e381a4e38186 12902 (.o .e 0xe38193e38186e381a6e38184 12903 .e))))) 0xe38193e38186e381aae38184 12905 (.o (.o (.o (.o (.o (.o .e 0xe38193e38186e381afe38184 12906 .e) 0xe38193e38186e38282e3818f 12909 .e) 0xe38193e38186e3828ae381a4 12910 (.o .e 0xe38193e3818fe38193e38299 12916 .e)) 0xe38193e3818fe38195e38184 12917 (.o (.o (.o .e 0xe38193e3818fe381a8e38186 12918 .e) 0xe38193e3818fe381aae38184 12919 .e) 0xe38193e3818fe381afe3818f 12920 (.o .e 0xe38193e3818fe38299e381be 12921 .e))) 0xe38193e38193e381aee3818b 12924 (.o (.o (.o (.o .e 0xe38193e3819be38299e38293 12931 .e) 0xe38193e3819fe38188e3828b 12934 .e) 0xe38193e381a1e38287e38186 12936 (.o .e 0xe38193e381a4e38193e381a4 12938 .e)) 0xe38193e381a4e381b5e38299 12940 (.o (.o .e 0xe38193e381a8e381afe38299 12945 .e) 0xe38193e381ade38193e381ad 12948 (.o .e 0xe38193e381aee381bee381be 12949 .e)))) 0xe38193e381bee3818be38184 12958 (.o (.o (.o (.o (.o .e 0xe38193e381bee381a4e381aa 12960 .e) 0xe38193e38282e38197e38299 12963 .e) 0xe38193e38286e381b2e38299 12970 (.o .e 0xe38193e3828de381a3e38191 12975 .e)) 0xe38193e3828fe38282e381a6 12976 (.o (.o .e 0xe38193e3828fe3828ce3828b 12977 .e) 0xe38193e38293e38184e38293 12978 (.o .e 0xe38193e38293e3818be38184 12979 .e))) 0xe38193e38293e38199e38184 12982 (.o (.o (.o (.o .e 0xe38193e38293e381a8e38293 12984 .e) 0xe38193e38293e381aae38293 12985 .e) 0xe38193e38293e381bee38191 12988 (.o .e 0xe38193e38293e3828ce38184 12990 .e)) 0xe38193e38293e3828fe3818f 12991 (.o (.o .e 0xe38193e38299e38186e38184 12888 .e) 0xe38193e38299e3818be38184 12913 (.o .e 0xe38193e38299e3818be38293 12915 .e)))))
def mnemonicTree424 : Tree := .o (.o (.o (.o (.o (.o (.o .e 0xe38195e38184e3818be38184 12993 .e) 0xe38195e38184e3818de38293 12994 .e) 0xe38195e38184e38197e38287 12997 (.o .e 0xe38195e38184e3819be38184 12998 .e)) 0xe38195e38184e381a6e3818d 13001 (.o (.o (.o .e 0xe38195e3818be38184e38197 13004 .e) 0xe38195e3818be381bfe381a1 13007 .e) 0xe38195e3818be38299e38199 13005 (.o .e 0xe38195e3818be38299e3828b 13008 .e))) 0xe38195e3818fe381b2e38293 13011 (.o (.o (.o (.o .e 0xe38195e381a4e38188e38184 13018 .e) 0xe38195e381a8e38184e38282 13029 .e) 0xe38195e381a8e3818ae38284 13031 (.o .e 0xe38195e381afe38299e3818f 13035 .e)) 0xe38195e381b8e38299e381a4 13037 (.o (.o .e 0xe38195e381bbe381a8e38299 13039 .e) 0xe38195e381bfe38197e38184 13041 (.o .e 0xe38195e38289e3819fe38299 13049 .e)))) 0xe38195e3828fe38284e3818b 13051 (.o (.o (.o (.o (.o .e 0xe38195e38293e38184e38293 13053 .e) 0xe38195e38293e38193e38186 13056 .e) 0xe38195e38293e38195e38184 13057 (.o .e 0xe38195e38293e38199e38186 13059 .e)) 0xe38195e38293e3819be38184 13060 (.o (.o .e 0xe38195e38293e38289e38293 13065 .e) 0xe38195e38299e38184e38193 12996 (.o .e 0xe38195e38299e3819be3818d 13016 .e))) 0xe38195e38299e381a3e3818b 13020 (.o (.o (.o (.o .e 0xe38195e38299e381a3e38197 13023 .e) 0xe38197e38182e38191e38299 13067 .e) 0xe38197e38182e3828fe3819b 13069 (.o .e 0xe38197e38193e38299e381a8 13078 .e)) 0xe38197e3819fe38186e38191 13081 (.o (.o .e 0xe38197e3819fe3818de38299 13082 .e) 0xe38197e381a1e38287e38186 13085 (.o .e 0xe38197e381a1e3828ae38293 13086 .e))))) 0xe38197e381a3e3818be3828a 13087 (.o (.o (.o (.o (.o (.o .e 0xe38197e381a4e38197e38299 13088 .e) 0xe38197e381a4e38282e38293 13089 .e) 0xe38197e381aae38282e381ae 13096 (.o .e 0xe38197e381aee3818fe38299 13100 .e)) 0xe38197e381aee381b5e38299 13101 (.o (.o (.o .e 0xe38197e381afe38289e38184 13105 .e) 0xe38197e381b2e38287e38186 13107 .e) 0xe38197e38280e38191e3828b 13116 (.o .e 0xe38197e38283e38184e38293 13121 .e))) 0xe38197e38283e38186e38293 13122 (.o (.o (.o (.o .e 0xe38197e38283e3818ae38293 13123 .e) 0xe38197e38283e38191e38293 13127 .e) 0xe38197e38283e38197e38293 13130 (.o .e 0xe38197e38283e3819be38293 13131 .e)) 0xe38197e38283e3819de38186 13132 (.o (.o .e 0xe38197e38283e3819fe38184 13133 .e) 0xe38197e38283e3828ae38293 13137 (.o .e 0xe38197e38283e3828ce38184 13138 .e)))) 0xe38197e38287e38282e381a4 13151 (.o (.o (.o (.o (.o .e 0xe38197e38289e3819be3828b 13152 .e) 0xe38197e38293e38193e38186 13155 .e) 0xe38197e38293e381a1e3818f 13158 (.o .e 0xe38197e38293e3828ae38293 13159 .e)) 0xe38197e38299e3818be38293 13077 (.o (.o .e 0xe38197e38299e381a6e38293 13093 .e) 0xe38197e38299e38283e381be 13136 (.o .e 0xe38197e38299e38286e38186 13139 .e))) 0xe38199e38182e38191e38299 13160 (.o (.o (.o (.o .e 0xe38199e38184e38188e38184 13164 .e) 0xe38199e38184e381a8e38186 13166 .e) 0xe38199e38186e3819be38293 13171 (.o .e 0xe38199e3818fe381aae38184 13175 .e)) 0xe38199e38193e38299e38184 13177 (.o (.o .e 0xe38199e38199e38281e3828b 13182 .e) 0xe38199e381a3e3818be3828a 13183 (.o .e 0xe38199e381afe3819fe38299 13190 .e)))))
def mnemonicTree425 : Tree := .o mnemonicTree423 0xe38193e38299e381afe38293 12952 mnemonicTree424
def mnemonicTree426 : Tree := .o mnemonicTree422 0xe38191e381a4e381bee381a4 12838 mnemonicTree425
def mnemonicTree427 : Tree := .o mnemonicTree419 0xe38186e38197e381aae38186 12452 mnemonicTree426
def mnemonicTree428 : Tree := .o (.o (.o (.o (.o (.o (.o .e 0xe38199e381b8e38299e381a6 13196 .e) 0xe38199e381b8e38299e3828b 13197 .e) 0xe38199e381bbe38299e38293 13199 (.o .e 0xe38199e38289e38199e38289 13204 .e)) 0xe38199e3828de381a3e381a8 13207 (.o (.o (.o .e 0xe38199e38299e38182e38293 13163 .e) 0xe38199e38299e38195e38293 13179 .e) 0xe38199e38299e381a3e381a8 13185 (.o .e 0xe38199e38299e381bbe38186 13198 .e))) 0xe3819be38184e3818be381a4 13212 (.o (.o (.o (.o .e 0xe3819be38184e38197e38299 13214 .e) 0xe3819be38184e38288e38186 13215 .e) 0xe3819be3818de381abe38293 13218 (.o .e 0xe3819be38199e38197e38299 13224 .e)) 0xe3819be381a3e3818be3818f 13227 (.o (.o .e 0xe3819be381a3e38191e38293 13230 .e) 0xe3819be381a3e38193e381a4 13231 (.o .e 0xe3819be381a4e381b2e38299 13237 .e)))) 0xe3819be381a4e38281e38184 13239 (.o (.o (.o (.o (.o .e 0xe3819be381a4e3828ae381a4 13240 .e) 0xe3819be381aee381b2e38299 13242 .e) 0xe3819be381afe381afe38299 13243 (.o .e 0xe3819be381b2e38299e3828d 13244 .e)) 0xe3819be381bbe38299e381ad 13245 (.o (.o (.o .e 0xe3819be38282e3819fe3828c 13249 .e) 0xe3819be38293e38188e38184 13253 .e) 0xe3819be38293e3818de38287 13255 (.o .e 0xe3819be38293e38195e38184 13259 .e))) 0xe3819be38293e38197e38285 13260 (.o (.o (.o (.o .e 0xe3819be38293e38199e38184 13261 .e) 0xe3819be38293e3819be38184 13262 .e) 0xe3819be38293e3819de38299 13263 (.o .e 0xe3819be38293e3819fe3818f 13264 .e)) 0xe3819be38293e381a6e38184 13266 (.o (.o .e 0xe3819be38293e381a8e38186 13267 .e) 0xe3819be38293e381ace3818d 13268 (.o .e 0xe3819be38293e381ade38293 13269 .e))))) 0xe3819be38293e38282e38293 13275 (.o (.o (.o (.o (.o (.o .e 0xe3819be38293e38284e3818f 13276 .e) 0xe3819be38293e38286e38186 13277 .e) 0xe3819be38293e38288e38186 13278 (.o .e 0xe3819be38293e3828ce38184 13281 .e)) 0xe3819be38299e381a3e3818f 13229 (.o (.o (.o .e 0xe3819be38299e38293e38289 13279 .e) 0xe3819de38186e38193e38299 13288 .e) 0xe3819de38186e38197e38293 13289 (.o .e 0xe3819de38186e381aae38293 13291 .e))) 0xe3819de38186e381b2e38299 13292 (.o (.o (.o (.o .e 0xe3819de38186e38281e38293 13293 .e) 0xe3819de38188e38282e381ae 13295 .e) 0xe3819de3818be38299e38184 13297 (.o .e 0xe3819de38191e38299e3818d 13298 .e)) 0xe3819de38193e3819de38193 13300 (.o (.o .e 0xe3819de38195e38299e38184 13301 .e) 0xe3819de3819de3818fe38299 13305 (.o .e 0xe3819de381a3e3818be38293 13309 .e)))) 0xe3819de381a3e38191e381a4 13311 (.o (.o (.o (.o (.o .e 0xe3819de381a3e38193e38186 13312 .e) 0xe3819de381a3e3819be38293 13313 .e) 0xe3819de381a4e38188e38293 13308 (.o .e 0xe3819de381aae38188e3828b 13317 .e)) 0xe3819de381b5e381bbe38299 13319 (.o (.o .e 0xe3819de381bbe38299e3818f 13320 .e) 0xe3819de381bbe38299e3828d 13321 (.o .e 0xe3819de38280e3828ae38188 13325 .e))) 0xe3819de38282e3819de38282 13327 (.o (.o (.o (.o .e 0xe3819de38289e381bee38281 13329 .e) 0xe3819de38293e3818be38184 13331 .e) 0xe3819de38293e38191e38184 13332 (.o .e 0xe3819de38293e38197e381a4 13334 .e)) 0xe3819de38293e381bfe38293 13339 (.o (.o .e 0xe3819fe38184e38184e38293 13341 .e) 0xe3819fe38184e38186e38293 13342 (.o .e 0xe3819fe38184e38188e3818d 13343 .e)))))
def mnemonicTree429 : Tree := .o (.o (.o (.o (.o (.o (.o .e 0xe3819fe38184e38191e38293 13348 .e) 0xe3819fe38184e3819be381a4 13353 .e) 0xe3819fe38184e3819de38186 13354 (.o .e 0xe3819fe38184e381a6e38184 13357 .e)) 0xe3819fe38184e381aae38184 13359 (.o (.o (.o .e 0xe3819fe38184e381ade381a4 13360 .e) 0xe3819fe38184e381aee38186 13361 .e) 0xe3819fe38184e381afe38293 13362 (.o .e 0xe3819fe38184e381b5e38186 13364 .e))) 0xe3819fe38184e381b8e38293 13365 (.o (.o (.o (.o .e 0xe3819fe38184e38281e38293 13370 .e) 0xe3819fe38184e38284e3818d 13371 .e) 0xe3819fe38184e38288e38186 13372 (.o .e 0xe3819fe38184e3828fe38293 13376 .e)) 0xe3819fe3818ae3828ce3828b 13381 (.o (.o .e 0xe3819fe3818de381b2e38299 13384 .e) 0xe3819fe3818fe38195e38293 13385 (.o .e 0xe3819fe38193e38284e3818d 13387 .e)))) 0xe3819fe38199e38191e3828b 13391 (.o (.o (.o (.o (.o .e 0xe3819fe3819fe3818be38186 13394 .e) 0xe3819fe381a8e38188e3828b 13405 .e) 0xe3819fe381aee38197e381bf 13409 (.o .e 0xe3819fe381b5e38299e38293 13411 .e)) 0xe3819fe381b8e38299e3828b 13412 (.o (.o (.o .e 0xe3819fe381bbe38299e38186 13413 .e) 0xe3819fe381bee38193e38299 13414 .e) 0xe3819fe38281e38184e3818d 13417 (.o .e 0xe3819fe38284e38199e38184 13421 .e))) 0xe3819fe3828ae38287e38186 13425 (.o (.o (.o (.o .e 0xe3819fe3828ce38293e381a8 13429 .e) 0xe3819fe3828de381a3e381a8 13430 .e) 0xe3819fe38293e3818ae38293 13434 (.o .e 0xe3819fe38293e38191e38293 13437 .e)) 0xe3819fe38293e38193e38299 13438 (.o (.o .e 0xe3819fe38293e38195e38293 13439 .e) 0xe3819fe38293e3819de3818f 13442 (.o .e 0xe3819fe38293e3819fe38184 13443 .e))))) 0xe3819fe38293e381a6e38184 13445 (.o (.o (.o (.o (.o (.o .e 0xe3819fe38293e381a8e38186 13446 .e) 0xe3819fe38293e381abe38293 13448 .e) 0xe3819fe38293e381aee38186 13450 (.o .e 0xe3819fe38293e381bee381a4 13453 .e)) 0xe3819fe38293e38281e38184 13454 (.o (.o (.o .e 0xe3819fe38299e381a3e38193 13401 .e) 0xe3819fe38299e38280e3828b 13416 .e) 0xe3819fe38299e38293e381a1 13444 (.o .e 0xe3819fe38299e38293e381aa 13447 .e))) 0xe3819fe38299e38293e3828d 13456 (.o (.o (.o (.o .e 0xe3819fe38299e38293e3828f 13457 .e) 0xe381a1e38184e38195e38184 13461 .e) 0xe381a1e3818de38285e38186 13465 (.o .e 0xe381a1e381a1e3818ae38284 13477 .e)) 0xe381a1e381b2e38287e38186 13484 (.o (.o .e 0xe381a1e38285e38186e38184 13492 .e) 0xe381a1e38287e38186e38197 13494 (.o .e 0xe381a1e3828ae38287e38186 13499 .e)))) 0xe381a1e3828be381a8e38299 13500 (.o (.o (.o (.o (.o .e 0xe381a1e38293e3819fe38184 13502 .e) 0xe381a1e38293e38282e3818f 13503 .e) 0xe381a4e38184e3819fe381a1 13505 (.o .e 0xe381a4e38186e381afe38293 13508 .e)) 0xe381a4e3818be3828ce3828b 13511 (.o (.o .e 0xe381a4e38193e38299e38186 13516 .e) 0xe381a4e3819fe38188e3828b 13517 (.o .e 0xe381a4e381a4e38197e38299 13519 .e))) 0xe381a4e381a4e38299e3818f 13518 (.o (.o (.o (.o .e 0xe381a4e381a8e38281e3828b 13521 .e) 0xe381a4e381b5e38299e38199 13526 .e) 0xe381a4e38281e3819fe38184 13530 (.o .e 0xe381a4e3828be381bbe38299 13534 .e)) 0xe381a4e3828be381bfe3818f 13535 (.o (.o .e 0xe381a4e3828fe38282e381ae 13536 .e) 0xe381a6e38184e3818ae38293 13541 (.o .e 0xe381a6e38184e38191e38184 13544 .e)))))
def mnemonicTree430 : Tree := .o mnemonicTree428 0xe3819fe38184e3818ae38186 13344 mnemonicTree429
def mnemonicTree431 : Tree := .o (.o (.o (.o (.o (.o (.o .e 0xe381a6e38184e38195e381a4 13546 .e) 0xe381a6e38184e3819be38184 13548 .e) 0xe381a6e38184e3819fe38184 13549 (.o .e 0xe381a6e38184e381a8e38299 13550 .e)) 0xe381a6e38184e381ade38184 13551 (.o (.o (.o .e 0xe381a6e38184e381b8e38293 13553 .e) 0xe381a6e3818ae3818fe3828c 13556 .e) 0xe381a6e3818de381a8e38186 13557 (.o .e 0xe381a6e3818fe381b2e38299 13558 .e))) 0xe381a6e38195e38191e38299 13561 (.o (.o (.o (.o .e 0xe381a6e381a1e38287e38186 13565 .e) 0xe381a6e381aee381b2e38289 13574 .e) 0xe381a6e381b5e3819fe38299 13577 (.o .e 0xe381a6e3828ce381b2e38299 13585 .e)) 0xe381a6e3828fe3819fe38197 13587 (.o (.o .e 0xe381a6e38293e38184e38293 13589 .e) 0xe381a6e38293e3818be38184 13590 (.o .e 0xe381a6e38293e3818fe38299 13592 .e)))) 0xe381a6e38293e38191e38293 13593 (.o (.o (.o (.o (.o .e 0xe381a6e38293e38195e38184 13595 .e) 0xe381a6e38293e38199e38186 13597 .e) 0xe381a6e38293e381a6e3818d 13599 (.o .e 0xe381a6e38293e381a8e38186 13600 .e)) 0xe381a6e38293e381aae38184 13601 (.o (.o (.o .e 0xe381a6e38293e38281e381a4 13604 .e) 0xe381a6e38299e38293e381a1 13598 .e) 0xe381a6e38299e38293e3828f 13607 (.o .e 0xe381a8e3818de3818ae3828a 13622 .e))) 0xe381a8e3818fe381a6e38293 13626 (.o (.o (.o (.o .e 0xe381a8e381a1e38285e38186 13636 .e) 0xe381a8e381a3e3818fe38293 13638 .e) 0xe381a8e381aae38188e3828b 13644 (.o .e 0xe381a8e381aee38195e381be 13646 .e)) 0xe381a8e381afe38299e38199 13647 (.o (.o .e 0xe381a8e38289e38188e3828b 13655 .e) 0xe381a8e38293e3818be381a4 13656 (.o .e 0xe381a8e38299e38182e38184 13608 .e))))) 0xe381aae38184e3818be3818f 13658 (.o (.o (.o (.o (.o (.o .e 0xe381aae38184e38193e38186 13659 .e) 0xe381aae38184e38197e38287 13660 .e) 0xe381aae38184e3819be38293 13662 (.o .e 0xe381aae38184e3819de38186 13663 .e)) 0xe381aae3818be38299e38184 13665 (.o (.o (.o .e 0xe381aae38191e38299e3828b 13667 .e) 0xe381aae381a3e381a8e38186 13671 .e) 0xe381aae381aae3818ae38197 13673 (.o .e 0xe381aae381abe38282e381ae 13675 .e))) 0xe381aae381b5e3819fe38299 13678 (.o (.o (.o (.o .e 0xe381aae381bee38184e3818d 13679 .e) 0xe381aae381bfe3819fe38299 13682 .e) 0xe381aae38281e38289e3818b 13683 (.o .e 0xe381aae38289e381b2e38299 13687 .e)) 0xe381aae38289e381b5e38299 13688 (.o (.o .e 0xe381abe3818be38299e381a6 13697 .e) 0xe381abe3818de381b2e38299 13698 (.o .e 0xe381abe3818fe38197e381bf 13699 .e)))) 0xe381abe3818fe381bee38293 13700 (.o (.o (.o (.o (.o .e 0xe381abe38191e38299e3828b 13701 .e) 0xe381abe3819be38282e381ae 13704 .e) 0xe381abe381a3e38191e38184 13709 (.o .e 0xe381abe381a3e38193e38186 13710 .e)) 0xe381abe381a3e38195e38293 13711 (.o (.o .e 0xe381abe381a3e38199e38186 13713 .e) 0xe381abe381a3e3819be3818d 13714 (.o .e 0xe381abe381a3e381a6e38184 13715 .e))) 0xe381abe3828fe381a8e3828a 13723 (.o (.o (.o (.o .e 0xe381abe38293e38197e3818d 13728 .e) 0xe381abe38293e3819de38186 13730 .e) 0xe381abe38293e3819fe38184 13731 (.o .e 0xe381abe38293e381a6e38184 13733 .e)) 0xe381abe38293e381abe3818f 13734 (.o (.o .e 0xe381abe38293e381b5e3829a 13735 .e) 0xe381abe38293e381bee3828a 13736 (.o .e 0xe381abe38293e38281e38184 13738 .e)))))
def mnemonicTree432 : Tree := .o (.o (.o (.o (.o (.o (.o .e 0xe381ace3818fe38282e3828a 13744 .e) 0xe381ace3818fe38299e38186 13743 .e) 0xe381ade38182e38191e38299 13750 (.o .e 0xe381ade3818fe3819fe38184 13755 .e)) 0xe381ade3818fe38299e3819b 13754 (.o (.o (.o .e 0xe381ade38193e3819be38299 13757 .e) 0xe381ade38195e38191e38299 13759 .e) 0xe381ade3819fe38299e38293 13762 (.o .e 0xe381ade381a3e38197e38293 13764 .e))) 0xe381ade381b5e3819fe38299 13768 (.o (.o (.o (.o .e 0xe381ade381bbe38299e38186 13769 .e) 0xe381ade381bee3828fe38197 13772 .e) 0xe381ade38280e3819fe38184 13775 (.o .e 0xe381ade3828fe38195e38299 13778 .e)) 0xe381ade38293e38184e3828a 13779 (.o (.o .e 0xe381ade38293e3818ae38197 13780 .e) 0xe381ade38293e3818be38293 13781 (.o .e 0xe381ade38293e3818de38293 13782 .e)))) 0xe381ade38293e3818fe38299 13783 (.o (.o (.o (.o (.o .e 0xe381ade38293e38195e38299 13784 .e) 0xe381ade38293e381a8e38299 13787 .e) 0xe381ade38293e381b2e3829a 13788 (.o .e 0xe381ade38293e381bee381a4 13790 .e)) 0xe381ade38293e3828ce38184 13792 (.o (.o .e 0xe381aee38184e38199e38299 13793 .e) 0xe381aee3818be38299e38199 13795 (.o .e 0xe381aee3818de381aae381bf 13796 .e))) 0xe381aee3819de38299e3818f 13801 (.o (.o (.o (.o .e 0xe381aee3819de38299e38280 13802 .e) 0xe381aee3819fe381bee38186 13803 .e) 0xe381aee381afe38299e38199 13806 (.o .e 0xe381aee381b8e38299e3828b 13808 .e)) 0xe381aee381bbe38299e3828b 13809 (.o (.o .e 0xe381aee381bfe38282e381ae 13810 .e) 0xe381aee38289e38184e381ac 13812 (.o .e 0xe381aee38289e381ade38193 13813 .e))))) 0xe381aee3828ae38282e381ae 13814 (.o (.o (.o (.o (.o (.o .e 0xe381aee3828ae38286e3818d 13815 .e) 0xe381afe38184e38191e38293 13823 .e) 0xe381afe38184e38193e38299 13824 (.o .e 0xe381afe38184e38197e38293 13825 .e)) 0xe381afe38184e38199e38184 13826 (.o (.o (.o .e 0xe381afe38184e3819be38293 13827 .e) 0xe381afe38184e3819de38186 13828 .e) 0xe381afe38184e3828ce381a4 13831 (.o .e 0xe381afe3818fe38197e38285 13837 .e))) 0xe381afe38193e381b5e38299 13839 (.o (.o (.o (.o .e 0xe381afe38197e38193e38299 13842 .e) 0xe381afe381a1e381bfe381a4 13849 .e) 0xe381afe381a3e3818be3818f 13851 (.o .e 0xe381afe381a3e3818de3828a 13853 .e)) 0xe381afe381a3e3818fe381a4 13854 (.o (.o .e 0xe381afe381a3e38191e38293 13855 .e) 0xe381afe381a3e38193e38186 13856 (.o .e 0xe381afe381a3e38195e38293 13857 .e)))) 0xe381afe381a3e38197e38293 13858 (.o (.o (.o (.o (.o .e 0xe381afe381a3e3819fe381a4 13859 .e) 0xe381afe381a3e381a6e38293 13861 .e) 0xe381afe381a4e3818ae38293 13850 (.o .e 0xe381afe381a4e38299e3818d 13852 .e)) 0xe381afe381aae381b2e38299 13865 (.o (.o .e 0xe381afe381abe3818be38280 13866 .e) 0xe381afe38280e3818be38186 13869 (.o .e 0xe381afe38293e38188e38184 13877 .e))) 0xe381afe38293e3818ae38293 13878 (.o (.o (.o (.o .e 0xe381afe38293e3818be3818f 13879 .e) 0xe381afe38293e38197e38283 13883 .e) 0xe381afe38293e38199e38186 13884 (.o .e 0xe381afe38293e381a6e38184 13888 .e)) 0xe381afe38293e381a8e38197 13889 (.o (.o .e 0xe381afe38293e381aee38186 13890 .e) 0xe381afe38293e381afe3829a 13891 (.o .e 0xe381afe38293e38281e38184 13895 .e)))))
def mnemonicTree433 : Tree := .o mnemonicTree431 0xe381abe38293e38288e38186 13739 mnemonicTree432
def mnemonicTree434 : Tree := .o mnemonicTree430 0xe381a6e38184e38193e3818f 13545 mnemonicTree433
def mnemonicTree435 : Tree := .o (.o (.o (.o (.o (.o (.o .e 0xe381afe38293e3828de38293 13897 .e) 0xe381afe38299e38182e38184 13818 .e) 0xe381afe38299e38184e3818b 13821 (.o .e 0xe381afe38299e38184e3818f 13822 .e)) 0xe381afe38299e3818be3828a 13835 (.o (.o (.o .e 0xe381afe38299e38197e38287 13843 .e) 0xe381afe3829ae38293e381a1 13886 .e) 0xe381afe3829ae38293e381a4 13887 (.o .e 0xe381b2e38193e38186e3818d 13907 .e))) 0xe381b2e3819fe38280e3818d 13916 (.o (.o (.o (.o .e 0xe381b2e3819fe38299e3828a 13917 .e) 0xe381b2e381a3e38193e38197 13920 .e) 0xe381b2e381a4e3818de38299 13919 (.o .e 0xe381b2e381a4e38288e38186 13927 .e)) 0xe381b2e381b2e38287e38186 13935 (.o (.o .e 0xe381b2e381b2e38299e3818f 13934 .e) 0xe381b2e381bee3828fe3828a 13937 (.o .e 0xe381b2e3828ae38287e38186 13949 .e)))) 0xe381b2e3828de38286e3818d 13956 (.o (.o (.o (.o (.o .e 0xe381b2e38293e3818be3818f 13957 .e) 0xe381b2e38293e38191e381a4 13958 .e) 0xe381b2e38293e38193e38293 13959 (.o .e 0xe381b2e38293e38197e38285 13960 .e)) 0xe381b2e38293e3819de38186 13961 (.o (.o (.o .e 0xe381b2e3829ae38293e381a1 13962 .e) 0xe381b5e38184e38186e381a1 13966 .e) 0xe381b5e38186e38191e38184 13967 (.o .e 0xe381b5e38186e3819be38293 13968 .e))) 0xe381b5e38186e381a8e38186 13970 (.o (.o (.o (.o .e 0xe381b5e38197e3818de38299 13980 .e) 0xe381b5e38197e38299e381bf 13981 .e) 0xe381b5e3819be3818fe38299 13984 (.o .e 0xe381b5e381a1e38287e38186 13988 .e)) 0xe381b5e381a3e3818be381a4 13991 (.o (.o .e 0xe381b5e381a3e38193e3818f 13993 .e) 0xe381b5e381b2e38287e38186 13999 (.o .e 0xe381b5e38293e38184e3818d 14009 .e))))) 0xe381b5e38293e38197e381a4 14012 (.o (.o (.o (.o (.o (.o .e 0xe381b5e38293e3819de38186 14014 .e) 0xe381b8e38184e38182e38293 14016 .e) 0xe381b8e38184e3818ae38293 14017 (.o .e 0xe381b8e38184e38193e38186 14021 .e)) 0xe381b8e38184e38197e38283 14023 (.o (.o (.o .e 0xe381b8e38184e3819be381a4 14024 .e) 0xe381b8e38184e3819fe3818f 14026 .e) 0xe381b8e38184e381a6e38293 14027 (.o .e 0xe381b8e38184e381ade381a4 14028 .e))) 0xe381b8e3818de3818be38299 14030 (.o (.o (.o (.o .e 0xe381b8e38293e3818be38293 14035 .e) 0xe381b8e38293e38195e38184 14038 .e) 0xe381b8e38293e3819fe38184 14039 (.o .e 0xe381b8e38299e38293e3828a 14040 .e)) 0xe381bbe38186e38193e3818f 14044 (.o (.o .e 0xe381bbe38186e3819de38186 14045 .e) 0xe381bbe38186e381bbe38186 14046 (.o .e 0xe381bbe38186e38282e38293 14047 .e)))) 0xe381bbe38186e3828ae381a4 14048 (.o (.o (.o (.o (.o .e 0xe381bbe3818de38287e38186 14052 .e) 0xe381bbe38197e38287e38186 14062 .e) 0xe381bbe381a3e3819fe38293 14071 (.o .e 0xe381bbe38293e38197e381a4 14077 .e)) 0xe381bbe38293e38284e3818f 14078 (.o (.o .e 0xe381bbe38299e3818de38293 14053 .e) 0xe381bee38184e381abe381a1 14079 (.o .e 0xe381bee3818be3819be3828b 14081 .e))) 0xe381bee3818be38299e3828b 14082 (.o (.o (.o (.o .e 0xe381bee38197e38299e38281 14086 .e) 0xe381bee3819be38299e3828b 14088 .e) 0xe381bee381aae381b5e38299 14091 (.o .e 0xe381bee38286e38191e38299 14096 .e)) 0xe381bee3828de38284e3818b 14098 (.o (.o .e 0xe381bee38293e3818be38299 14102 .e) 0xe381bee38293e3818de381a4 14103 (.o .e 0xe381bee38293e381aae3818b 14105 .e)))))
def mnemonicTree436 : Tree := .o (.o (.o (.o (.o (.o (.o .e 0xe381bfe38199e38188e3828b 14116 .e) 0xe381bfe381a4e3818be3828b 14119 .e) 0xe381bfe381a4e38191e3828b 14120 (.o .e 0xe381bfe381a8e38281e3828b 14122 .e)) 0xe381bfe381ade38289e3828b 14125 (.o (.o (.o .e 0xe381bfe38284e38191e38299 14130 .e) 0xe381bfe3828ae38287e3818f 14132 .e) 0xe38280e38191e38299e38293 14145 (.o .e 0xe38280e38197e381afe38299 14148 .e))) 0xe38280e38199e381b5e38299 14153 (.o (.o (.o (.o .e 0xe38280e381a1e38285e38186 14157 .e) 0xe38280e381aae38197e38184 14158 .e) 0xe38280e38289e38195e3818d 14162 (.o .e 0xe38280e3828ae38287e38186 14163 .e)) 0xe38281e38184e38182e38293 14165 (.o (.o .e 0xe38281e38184e38186e38293 14166 .e) 0xe38281e38184e38188e38293 14167 (.o .e 0xe38281e38184e3818be3818f 14168 .e)))) 0xe38281e38184e38195e38184 14170 (.o (.o (.o (.o (.o .e 0xe38281e38184e3819de38186 14172 .e) 0xe38281e38184e3828ce38184 14174 .e) 0xe38281e38184e3828fe3818f 14175 (.o .e 0xe38281e38195e38299e38199 14177 .e)) 0xe38281e3819fe38299e381a4 14180 (.o (.o .e 0xe38281e38293e3818de38287 14183 .e) 0xe38281e38293e3819be3818d 14184 (.o .e 0xe38282e3818fe381a6e3818d 14190 .e))) 0xe38282e381a1e3828de38293 14192 (.o (.o (.o (.o .e 0xe38282e381a8e38299e3828b 14193 .e) 0xe38284e38195e38197e38184 14200 .e) 0xe38284e381b5e38299e3828b 14210 (.o .e 0xe38286e38186e381b8e38299 14217 .e)) 0xe38286e38186e38281e38184 14218 (.o (.o .e 0xe38286e38197e38285e381a4 14220 .e) 0xe38286e381a1e38283e3818f 14224 (.o .e 0xe38286e381a6e38299e3828b 14225 .e))))) 0xe38286e381abe38285e38186 14226 (.o (.o (.o (.o (.o (.o .e 0xe38286e381b2e38299e3828f 14227 .e) 0xe38288e38186e38197e38299 14233 .e) 0xe38288e3818be3819be38299 14236 (.o .e 0xe38288e3818fe3819be38184 14239 .e)) 0xe38288e38197e38285e38186 14244 (.o (.o (.o .e 0xe38288e3828de38197e38184 14254 .e) 0xe38289e3818fe38193e38299 14257 .e) 0xe38289e3818fe38195e381a4 14258 (.o .e 0xe38289e3818fe3819fe38299 14259 .e))) 0xe38289e3819de38299e3818f 14262 (.o (.o (.o (.o .e 0xe3828ae3818de38195e3818f 14268 .e) 0xe3828ae3818de3819be381a4 14269 .e) 0xe3828ae38287e38186e3828a 14282 (.o .e 0xe3828ae38287e3818be38293 14283 .e)) 0xe3828ae38287e38193e38186 14285 (.o (.o .e 0xe3828ae38293e38193e38299 14289 .e) 0xe3828be38184e38191e38184 14290 (.o .e 0xe3828be38184e38195e38184 14291 .e)))) 0xe3828be38184e38197e38299 14292 (.o (.o (.o (.o (.o .e 0xe3828be38184e3819be3818d 14293 .e) 0xe3828ce38184e3818be38293 14296 .e) 0xe3828ce38184e3818de38299 14297 (.o .e 0xe3828ce38184e3819be38184 14298 .e)) 0xe3828ce38184e381a8e38186 14300 (.o (.o .e 0xe3828ce38293e38182e38184 14304 .e) 0xe3828ce38293e38191e38184 14305 (.o .e 0xe3828ce38293e38193e38293 14306 .e))) 0xe3828ce38293e38195e38184 14307 (.o (.o (.o (.o .e 0xe3828ce38293e38289e3818f 14310 .e) 0xe3828de38186e38193e38299 14312 .e) 0xe3828de38186e3819de3818f 14314 (.o .e 0xe3828de3818fe3818be38299 14315 .e)) 0xe3828de38197e38285e381a4 14318 (.o (.o .e 0xe3828de38293e3818de38299 14323 .e) 0xe3828de38293e381afe3829a 14324 (.o .e 0xe3828fe3818be38284e381be 14329 .e)))))
def mnemonicTree437 : Tree := .o mnemonicTree435 0xe381bfe3818be38299e3818f 14109 mnemonicTree436
def mnemonicTree438 : Tree := .o (.o (.o (.o (.o (.o (.o .e 0xe18480e185a1e18480e185a7e186a8 14336 .e) 0xe18480e185a1e18481e185b3e186b7 14337 .e) 0xe18480e185a1e18482e185a1e186ab 14338 (.o .e 0xe18480e185a1e18482e185b3e186bc 14339 .e)) 0xe18480e185a1e18483e185b3e186a8 14340 (.o (.o (.o .e 0xe18480e185a1e18486e185aee186b7 14342 .e) 0xe18480e185a1e18487e185a1e186bc 14343 .e) 0xe18480e185a1e18489e185a1e186bc 14344 (.o .e 0xe18480e185a1e18489e185b3e186b7 14345 .e))) 0xe18480e185a1e1848be185b3e186af 14347 (.o (.o (.o (.o .e 0xe18480e185a1e1848be185b5e186b8 14349 .e) 0xe18480e185a1e1848ce185a1e186bc 14350 .e) 0xe18480e185a1e1848ce185a5e186bc 14351 (.o .e 0xe18480e185a1e1848ce185a9e186a8 14352 .e)) 0xe18480e185a1e1848ce185aee186a8 14353 (.o (.o .e 0xe18480e185a1e186a8e1848be185a9 14354 .e) 0xe18480e185a1e186a8e1848ce185a1 14355 (.o .e 0xe18480e185a1e186abe18487e185ae 14357 .e)))) 0xe18480e185a1e186afe18487e185b5 14363 (.o (.o (.o (.o (.o .e 0xe18480e185a1e186b7e18480e185b5 14367 .e) 0xe18480e185a1e186b7e18489e185a9 14368 .e) 0xe18480e185a1e186b7e1848ce185a1 14370 (.o .e 0xe18480e185a1e186bce18483e185a9 14375 .e)) 0xe18480e185a1e186bce18489e185a1 14379 (.o (.o (.o .e 0xe18480e185a1e186bce1848be185b4 14383 .e) 0xe18480e185a1e186bce1848ce185a6 14384 .e) 0xe18480e185a1e186bce1848ce185a9 14385 (.o .e 0xe18480e185a1e18780e1848be185b5 14386 .e))) 0xe18480e185a2e18487e185a1e186bc 14389 (.o (.o (.o (.o .e 0xe18480e185a2e18487e185a7e186af 14390 .e) 0xe18480e185a2e18489e185a5e186ab 14391 .e) 0xe18480e185a2e18489e185a5e186bc 14392 (.o .e 0xe18480e185a2e1848be185b5e186ab 14393 .e)) 0xe18480e185a5e18489e185b5e186af 14395 (.o (.o .e 0xe18480e185a5e1848be185a2e186a8 14396 .e) 0xe18480e185a5e1848be185aee186af 14397 (.o .e 0xe18480e185a5e1848ce185b5e186ba 14398 .e))))) 0xe18480e185a5e18491e185aee186b7 14399 (.o (.o (.o (.o (.o (.o .e 0xe18480e185a5e186abe1848ce185a9 14404 .e) 0xe18480e185a5e186b7e18489e185a1 14407 .e) 0xe18480e185a5e186b7e18490e185a9 14408 (.o .e 0xe18480e185a6e1848be185b5e186b7 14410 .e)) 0xe18480e185a7e1848be185aee186af 14411 (.o (.o (.o .e 0xe18480e185a7e186abe18492e185a2 14412 .e) 0xe18480e185a7e186afe18480e185aa 14413 .e) 0xe18480e185a7e186bce18480e185a8 14421 (.o .e 0xe18480e185a7e186bce18480e185a9 14422 .e))) 0xe18480e185a7e186bce18480e185b5 14423 (.o (.o (.o (.o .e 0xe18480e185a7e186bce18487e185b5 14426 .e) 0xe18480e185a7e186bce1848be185ae 14429 .e) 0xe18480e185a7e186bce1848ce185a6 14431 (.o .e 0xe18480e185a7e186bce1848ce185ae 14432 .e)) 0xe18480e185a7e186bce1848ee185b5 14434 (.o (.o .e 0xe18480e185a8e18480e185a9e186a8 14437 .e) 0xe18480e185a8e18483e185a1e186ab 14438 (.o .e 0xe18480e185a8e18485e185a1e186ab 14439 .e)))) 0xe18480e185a8e18489e185a1e186ab 14440 (.o (.o (.o (.o (.o .e 0xe18480e185a8e18489e185a9e186a8 14441 .e) 0xe18480e185a8e1848be185a3e186a8 14442 .e) 0xe18480e185a8e1848ce185a5e186af 14443 (.o .e 0xe18480e185a8e1848ee185b3e186bc 14444 .e)) 0xe18480e185a8e18492e185ace186a8 14445 (.o (.o .e 0xe18480e185a9e18480e185a2e186a8 14446 .e) 0xe18480e185a9e18480e185aee186bc 14448 (.o .e 0xe18480e185a9e18480e185b3e186b8 14449 .e))) 0xe18480e185a9e18486e185b5e186ab 14452 (.o (.o (.o (.o .e 0xe18480e185a9e1848ce185a1e186bc 14454 .e) 0xe18480e185a9e1848ce185a5e186ab 14455 .e) 0xe18480e185a9e1848ce185b5e186b8 14456 (.o .e 0xe18480e185a9e18490e185a9e186bc 14458 .e)) 0xe18480e185a9e18492e185a3e186bc 14459 (.o (.o .e 0xe18480e185a9e186afe18491e185b3 14463 .e) 0xe18480e185a9e186bce18480e185a2 14465 (.o .e 0xe18480e185a9e186bce18480e185b5 14469 .e)))))
def mnemonicTree439 : Tree := .o (.o (.o (.o (.o (.o (.o .e 0xe18480e185a9e186bce18489e185a1 14473 .e) 0xe18480e185a9e186bce1848de185a1 14479 .e) 0xe18480e185a9e186bce18491e185a9 14482 (.o .e 0xe18480e185aae18486e185a9e186a8 14485 .e)) 0xe18480e185aae1848be185b5e186af 14486 (.o (.o (.o .e 0xe18480e185aae1848ce185a1e186bc 14487 .e) 0xe18480e185aae1848ce185a5e186bc 14488 .e) 0xe18480e185aae18492e185a1e186a8 14489 (.o .e 0xe18480e185aae186abe18480e185a8 14491 .e))) 0xe18480e185aae186abe18485e185b5 14496 (.o (.o (.o (.o .e 0xe18480e185aae186bce18480e185a9 14502 .e) 0xe18480e185aae186bce1848ce185ae 14504 .e) 0xe18480e185ade18486e185aee186ab 14508 (.o .e 0xe18480e185ade18487e185a9e186a8 14509 .e)) 0xe18480e185ade18489e185b5e186af 14510 (.o (.o .e 0xe18480e185ade1848be185a3e186bc 14511 .e) 0xe18480e185ade1848be185b2e186a8 14512 (.o .e 0xe18480e185ade1848ce185a1e186bc 14513 .e)))) 0xe18480e185ade1848ce185b5e186a8 14514 (.o (.o (.o (.o (.o .e 0xe18480e185ade18490e185a9e186bc 14515 .e) 0xe18480e185ade18492e185aae186ab 14516 .e) 0xe18480e185ade18492e185aee186ab 14517 (.o .e 0xe18480e185aee18480e185a7e186bc 14518 .e)) 0xe18480e185aee18485e185b3e186b7 14519 (.o (.o .e 0xe18480e185aee18486e185a5e186bc 14520 .e) 0xe18480e185aee18487e185a7e186af 14521 (.o .e 0xe18480e185aee18487e185aee186ab 14522 .e))) 0xe18480e185aee18489e185a5e186a8 14523 (.o (.o (.o (.o .e 0xe18480e185aee18489e185a5e186bc 14524 .e) 0xe18480e185aee18489e185a9e186a8 14525 .e) 0xe18480e185aee1848be185a7e186a8 14526 (.o .e 0xe18480e185aee1848be185b5e186b8 14527 .e)) 0xe18480e185aee1848ee185a5e186bc 14528 (.o (.o .e 0xe18480e185aee186a8e18480e185a1 14530 .e) 0xe18480e185aee186a8e18480e185b5 14531 (.o .e 0xe18480e185aee186a8e18482e185a2 14532 .e))))) 0xe18480e185aee186a8e18489e185ae 14536 (.o (.o (.o (.o (.o (.o .e 0xe18480e185aee186a8e1848be185a5 14537 .e) 0xe18480e185aee186a8e1848ce185a6 14540 .e) 0xe18480e185aee186a8e18492e185ac 14541 (.o .e 0xe18480e185aee186abe18483e185a2 14542 .e)) 0xe18480e185aee186abe18489e185a1 14543 (.o (.o (.o .e 0xe18480e185afe186abe18485e185b5 14546 .e) 0xe18480e185afe186abe1848be185b1 14547 .e) 0xe18480e185afe186abe18490e185ae 14548 (.o .e 0xe18480e185b1e18480e185aee186a8 14549 .e))) 0xe18480e185b1e18489e185b5e186ab 14550 (.o (.o (.o (.o .e 0xe18480e185b2e1848ce185a5e186bc 14551 .e) 0xe18480e185b2e1848ee185b5e186a8 14552 .e) 0xe18480e185b3e18482e185a1e186af 14554 (.o .e 0xe18480e185b3e18482e185a3e186bc 14555 .e)) 0xe18480e185b3e18482e185b3e186af 14556 (.o (.o .e 0xe18480e185b3e18485e185aee186b8 14558 .e) 0xe18480e185b3e18485e185b3e186ba 14559 (.o .e 0xe18480e185b3e18485e185b5e186b7 14560 .e)))) 0xe18480e185b3e186a8e18492e185b5 14564 (.o (.o (.o (.o (.o .e 0xe18480e185b3e186abe18480e185a5 14565 .e) 0xe18480e185b3e186abe18480e185ad 14566 .e) 0xe18480e185b3e186abe18485e185a2 14567 (.o .e 0xe18480e185b3e186abe18485e185a9 14568 .e)) 0xe18480e185b3e186abe18486e185ae 14569 (.o (.o .e 0xe18480e185b3e186abe1848ee185a5 14573 .e) 0xe18480e185b3e186afe1848ae185b5 14574 (.o .e 0xe18480e185b3e186afe1848ce185a1 14575 .e))) 0xe18480e185b3e186b7e18480e185a9 14577 (.o (.o (.o (.o .e 0xe18480e185b3e186b7e1848ce185b5 14583 .e) 0xe18480e185b5e18480e185a1e186ab 14585 .e) 0xe18480e185b5e18480e185aae186ab 14586 (.o .e 0xe18480e185b5e18482e185a7e186b7 14587 .e)) 0xe18480e185b5e18482e185b3e186bc 14588 (.o (.o .e 0xe18480e185b5e18483e185aee186bc 14590 .e) 0xe18480e185b5e18485e185a9e186a8 14591 (.o .e 0xe18480e185b5e18485e185b3e186b7 14592 .e)))))
def mnemonicTree440 : Tree := .o mnemonicTree438 0xe18480e185a9e186bce18487e185ae 14472 mnemonicTree439
def mnemonicTree441 : Tree := .o mnemonicTree437 0xe3828fe3818be3828ce3828b 14330 mnemonicTree440
def mnemonicTree442 : Tree := .o mnemonicTree434 0xe381afe38293e38289e38293 13896 mnemonicTree441
def mnemonicTree443 : Tree := .o mnemonicTree427 0xe38199e381b5e38299e3828a 13194 mnemonicTree442
def mnemonicTree444 : Tree := .o mnemonicTree412 0xe38280e38284e381bf 14160 mnemonicTree443
def mnemonicTree445 : Tree := .o (.o (.o (.o (.o (.o (.o .e 0xe18480e185b5e18487e185a9e186ab 14594 .e) 0xe18480e185b5e18487e185aee186ab 14595 .e) 0xe18480e185b5e18488e185b3e186b7 14596 (.o .e 0xe18480e185b5e18489e185aee186af 14598 .e)) 0xe18480e185b5e1848be185a5e186a8 14599 (.o (.o (.o .e 0xe18480e185b5e1848be185a5e186b8 14600 .e) 0xe18480e185b5e1848be185a9e186ab 14601 .e) 0xe18480e185b5e1848be185aee186ab 14602 (.o .e 0xe18480e185b5e1848be185afe186ab 14603 .e))) 0xe18480e185b5e1848ce185a5e186a8 14604 (.o (.o (.o (.o .e 0xe18480e185b5e1848ce185aee186ab 14605 .e) 0xe18480e185b5e1848ee185b5e186b7 14606 .e) 0xe18480e185b5e18492e185a9e186ab 14607 (.o .e 0xe18480e185b5e18492e185ace186a8 14608 .e)) 0xe18480e185b5e186afe1848be185b5 14611 (.o (.o .e 0xe18480e185b5e186b7e1848ee185b5 14613 .e) 0xe18482e185a1e18486e185aee186af 14625 (.o .e 0xe18482e185a1e18492e185b3e186af 14627 .e)))) 0xe18482e185a1e186afe18480e185a2 14630 (.o (.o (.o (.o (.o .e 0xe18482e185a1e186afe1848ae185b5 14631 .e) 0xe18482e185a1e186afe1848de185a1 14632 .e) 0xe18482e185a1e186b7e18482e185a7 14633 (.o .e 0xe18482e185a1e186b7e18486e185a2 14635 .e)) 0xe18482e185a1e186b7e1848ce185a1 14637 (.o (.o (.o .e 0xe18482e185a1e186bce18487e185b5 14640 .e) 0xe18482e185a2e18482e185a7e186ab 14642 .e) 0xe18482e185a2e1848be185ade186bc 14643 (.o .e 0xe18482e185a2e1848be185b5e186af 14644 .e))) 0xe18482e185a2e186b7e18487e185b5 14645 (.o (.o (.o (.o .e 0xe18482e185a2e186b7e18489e185a2 14646 .e) 0xe18482e185a6e186bae1848de185a2 14653 .e) 0xe18482e185a9e18483e185a9e186bc 14654 (.o .e 0xe18482e185a9e18485e185a7e186a8 14656 .e)) 0xe18482e185a9e1848be185b5e186ab 14657 (.o (.o .e 0xe18482e185a9e186a8e1848ee185a1 14659 .e) 0xe18482e185a9e186a8e18492e185aa 14660 (.o .e 0xe18482e185a9e186abe18485e185b5 14661 .e))))) 0xe18482e185a9e186afe1848be185b5 14664 (.o (.o (.o (.o (.o (.o .e 0xe18482e185a9e186bce18480e185ae 14665 .e) 0xe18482e185a9e186bce18487e185ae 14668 .e) 0xe18482e185a9e18781e1848be185b5 14672 (.o .e 0xe18482e185b2e1848be185ade186a8 14676 .e)) 0xe18482e185b3e18481e185b5e186b7 14677 (.o (.o (.o .e 0xe18482e185b3e186a8e18483e185a2 14678 .e) 0xe18483e185a1e18487e185a1e186bc 14681 .e) 0xe18483e185a1e1848be185b3e186b7 14683 (.o .e 0xe18483e185a1e18492e185a2e186bc 14685 .e))) 0xe18483e185a1e186abe18480e185a8 14686 (.o (.o (.o (.o .e 0xe18483e185a1e186abe1848be185a5 14691 .e) 0xe18483e185a1e186abe1848be185b1 14692 .e) 0xe18483e185a1e186abe1848ee185a6 14694 (.o .e 0xe18483e185a1e186abe1848ee185ae 14695 .e)) 0xe18483e185a1e186afe18485e185a5 14699 (.o (.o .e 0xe18483e185a1e186afe18485e185b5 14701 .e) 0xe18483e185a1e186b7e18487e185a2 14704 (.o .e 0xe18483e185a1e186b7e1848be185ad 14705 .e)))) 0xe18483e185a2e18482e185a1e186bd 14714 (.o (.o (.o (.o (.o .e 0xe18483e185a2e18483e185a1e186b8 14716 .e) 0xe18483e185a2e18485e185a3e186a8 14718 .e) 0xe18483e185a2e18485e185a3e186bc 14719 (.o .e 0xe18483e185a2e18485e185b2e186a8 14720 .e)) 0xe18483e185a2e18486e185aee186ab 14721 (.o (.o .e 0xe18483e185a2e18489e185b5e186ab 14723 .e) 0xe18483e185a2e1848be185b3e186bc 14724 (.o .e 0xe18483e185a2e1848ce185a1e186bc 14725 .e))) 0xe18483e185a2e1848ce185a5e186ab 14726 (.o (.o (.o (.o .e 0xe18483e185a2e1848ce185a5e186b8 14727 .e) 0xe18483e185a2e1848ce185aee186bc 14728 .e) 0xe18483e185a2e1848ee185a2e186a8 14729 (.o .e 0xe18483e185a2e1848ee185aee186af 14730 .e)) 0xe18483e185a2e1848ee185aee186bc 14731 (.o (.o .e 0xe18483e185a2e18492e185a1e186a8 14733 .e) 0xe18483e185a2e18492e185a7e186bc 14736 (.o .e 0xe18483e185a9e18483e185a5e186a8 14740 .e)))))
def mnemonicTree446 : Tree := .o (.o (.o (.o (.o (.o (.o .e 0xe18483e185a9e18486e185a1e186bc 14742 .e) 0xe18483e185a9e18489e185b5e186b7 14744 .e) 0xe18483e185a9e1848be185aee186b7 14745 (.o .e 0xe18483e185a9e1848be185b5e186b8 14746 .e)) 0xe18483e185a9e1848ce185a5e186ab 14749 (.o (.o (.o .e 0xe18483e185a9e1848ce185aee186bc 14750 .e) 0xe18483e185a9e1848ee185a1e186a8 14751 .e) 0xe18483e185a9e186a8e18489e185a5 14754 (.o .e 0xe18486e185a1e18482e185b3e186af 14762 .e))) 0xe18486e185a1e18483e185a1e186bc 14763 (.o (.o (.o (.o .e 0xe18486e185a1e18485e185a7e186ab 14765 .e) 0xe18486e185a1e1848be185a3e186a8 14768 .e) 0xe18486e185a1e1848be185b3e186af 14770 (.o .e 0xe18486e185a1e1848be185b3e186b7 14771 .e)) 0xe18486e185a1e1848ce185aee186bc 14773 (.o (.o .e 0xe18486e185a1e1848ee185a1e186af 14776 .e) 0xe18486e185a1e18492e185b3e186ab 14777 (.o .e 0xe18486e185a1e186a8e18482e185a2 14779 .e)))) 0xe18486e185a1e186abe18483e185ae 14782 (.o (.o (.o (.o (.o .e 0xe18486e185a1e186abe18489e185a6 14783 .e) 0xe18486e185a1e186abe18492e185aa 14788 .e) 0xe18486e185a1e186ade1848be185b5 14789 (.o .e 0xe18486e185a1e186afe18480e185b5 14790 .e)) 0xe18486e185a1e186afe18490e185ae 14792 (.o (.o (.o .e 0xe18486e185a2e18482e185a7e186ab 14795 .e) 0xe18486e185a2e18483e185a1e186af 14796 .e) 0xe18486e185a2e18485e185a7e186a8 14797 (.o .e 0xe18486e185a2e18487e185a5e186ab 14798 .e))) 0xe18486e185a2e1848be185b5e186af 14800 (.o (.o (.o (.o .e 0xe18486e185a2e1848ce185a1e186bc 14801 .e) 0xe18486e185a2e186a8e1848ce185ae 14802 .e) 0xe18486e185a5e186a8e1848be185b5 14803 (.o .e 0xe18486e185a5e186abe1848ce185a5 14804 .e)) 0xe18486e185a5e186abe1848ce185b5 14805 (.o (.o .e 0xe18486e185a5e186afe18485e185b5 14806 .e) 0xe18486e185a6e1848be185b5e186af 14807 (.o .e 0xe18486e185a7e1848ee185b5e186af 14809 .e))))) 0xe18486e185a7e186afe1848ee185b5 14811 (.o (.o (.o (.o (.o (.o .e 0xe18486e185a7e186bce1848be185a8 14814 .e) 0xe18486e185a7e186bce1848be185b4 14815 .e) 0xe18486e185a9e18480e185b3e186b7 14819 (.o .e 0xe18486e185a9e18483e185a6e186af 14821 .e)) 0xe18486e185a9e18483e185b3e186ab 14822 (.o (.o (.o .e 0xe18486e185a9e18487e185a5e186b7 14823 .e) 0xe18486e185a9e18489e185b3e186b8 14824 .e) 0xe18486e185a9e1848be185a3e186bc 14825 (.o .e 0xe18486e185a9e1848be185b5e186b7 14826 .e))) 0xe18486e185a9e1848ce185b5e186b8 14828 (.o (.o (.o (.o .e 0xe18486e185a9e186a8e18489e185a1 14832 .e) 0xe18486e185a9e186a8e18491e185ad 14836 .e) 0xe18486e185a9e186afe18485e185a2 14837 (.o .e 0xe18486e185a9e186b7e18486e185a2 14838 .e)) 0xe18486e185a9e186b8e18489e185b5 14844 (.o (.o .e 0xe18486e185aee18483e185a5e186b7 14848 .e) 0xe18486e185aee18485e185b3e18781 14849 (.o .e 0xe18486e185aee18489e185b3e186ab 14850 .e)))) 0xe18486e185aee1848be185a5e186ba 14851 (.o (.o (.o (.o (.o .e 0xe18486e185aee1848be185a7e186a8 14852 .e) 0xe18486e185aee1848be185ade186bc 14853 .e) 0xe18486e185aee1848ee185a5e186a8 14856 (.o .e 0xe18486e185aee186abe18480e185ae 14857 .e)) 0xe18486e185aee186abe18489e185a5 14860 (.o (.o .e 0xe18486e185aee186abe1848ce185a6 14861 .e) 0xe18486e185aee186abe18492e185aa 14863 (.o .e 0xe18486e185aee186afe18480e185a1 14864 .e))) 0xe18486e185aee186afe1848ee185a6 14872 (.o (.o (.o (.o .e 0xe18486e185b5e18480e185aee186a8 14873 .e) 0xe18486e185b5e18489e185aee186af 14876 .e) 0xe18486e185b5e1848be185a7e186a8 14877 (.o .e 0xe18486e185b5e1848be185aee186b7 14879 .e)) 0xe18486e185b5e1848be185b5e186ab 14880 (.o (.o .e 0xe18486e185b5e18490e185b5e186bc 14881 .e) 0xe18486e185b5e18492e185a9e186ab 14882 (.o .e 0xe18486e185b5e186abe1848ce185ae 14885 .e)))))
def mnemonicTree447 : Tree := .o mnemonicTree445 0xe18483e185a9e18483e185aee186a8 14741 mnemonicTree446
def mnemonicTree448 : Tree := .o (.o (.o (.o (.o (.o (.o .e 0xe18487e185a1e18483e185a1e186a8 14894 .e) 0xe18487e185a1e18485e185a1e186b7 14896 .e) 0xe18487e185a1e18490e185a1e186bc 14898 (.o .e 0xe18487e185a1e186a8e18489e185a1 14900 .e)) 0xe18487e185a1e186a8e18489e185ae 14901 (.o (.o (.o .e 0xe18487e185a1e186abe18483e185a2 14902 .e) 0xe18487e185a1e186abe1848ce185b5 14910 .e) 0xe18487e185a1e186afe18485e185a6 14917 (.o .e 0xe18487e185a1e186afe18491e185ad 14925 .e))) 0xe18487e185a1e186bce1848ce185b5 14940 (.o (.o (.o (.o .e 0xe18487e185a1e186bce18492e185a2 14942 .e) 0xe18487e185a2e18480e185a7e186bc 14944 .e) 0xe18487e185a2e18481e185a9e186b8 14945 (.o .e 0xe18487e185a2e18483e185a1e186af 14946 .e)) 0xe18487e185a2e186a8e1848ce185a6 14952 (.o (.o .e 0xe18487e185a5e18485e185b3e186ba 14954 .e) 0xe18487e185a5e18489e185a5e186ba 14955 (.o .e 0xe18487e185a5e18490e185b3e186ab 14956 .e)))) 0xe18487e185a5e186abe18480e185a2 14957 (.o (.o (.o (.o (.o .e 0xe18487e185a5e186abe1848ce185b5 14959 .e) 0xe18487e185a5e186abe18492e185a9 14960 .e) 0xe18487e185a5e186afe18485e185a6 14962 (.o .e 0xe18487e185a5e186afe1848ae185a5 14963 .e)) 0xe18487e185a5e186b7e1848be185b1 14964 (.o (.o (.o .e 0xe18487e185a5e186b7e1848ce185ac 14966 .e) 0xe18487e185a6e186afe18490e185b3 14972 .e) 0xe18487e185a7e186abe18492e185aa 14978 (.o .e 0xe18487e185a7e186afe18483e185a9 14979 .e))) 0xe18487e185a9e18480e185aae186ab 14985 (.o (.o (.o (.o .e 0xe18487e185a9e18485e185a1e186b7 14988 .e) 0xe18487e185a9e18485e185b3e186b7 14989 .e) 0xe18487e185a9e18489e185a1e186bc 14990 (.o .e 0xe18487e185a9e1848be185a1e186ab 14991 .e)) 0xe18487e185a9e1848ce185a1e186bc 14993 (.o (.o .e 0xe18487e185a9e1848ce185a5e186ab 14994 .e) 0xe18487e185a9e1848ce185a9e186ab 14995 (.o .e 0xe18487e185a9e18490e185a9e186bc 14996 .e))))) 0xe18487e185a9e18492e185a5e186b7 14998 (.o (.o (.o (.o (.o (.o .e 0xe18487e185a9e186a8e18483e185a9 14999 .e) 0xe18487e185a9e186a8e18489e185a1 15000 .e) 0xe18487e185a9e186abe18485e185a2 15005 (.o .e 0xe18487e185a9e186abe18487e185ae 15006 .e)) 0xe18487e185a9e186abe18489e185a1 15007 (.o (.o (.o .e 0xe18487e185a9e186bce18489e185a1 15012 .e) 0xe18487e185a9e186bce1848ce185b5 15013 .e) 0xe18487e185a9e186bce18490e185ae 15014 (.o .e 0xe18487e185aee18480e185b3e186ab 15015 .e))) 0xe18487e185aee18483e185a1e186b7 15017 (.o (.o (.o (.o .e 0xe18487e185aee18486e185aee186ab 15019 .e) 0xe18487e185aee18487e185aee186ab 15020 .e) 0xe18487e185aee18489e185a1e186ab 15021 (.o .e 0xe18487e185aee18489e185a1e186bc 15022 .e)) 0xe18487e185aee1848be185a5e186bf 15023 (.o (.o .e 0xe18487e185aee1848be185b5e186ab 15024 .e) 0xe18487e185aee1848ce185a1e186bc 15026 (.o .e 0xe18487e185aee1848ce185a5e186bc 15027 .e)))) 0xe18487e185aee1848ce185a9e186a8 15028 (.o (.o (.o (.o (.o .e 0xe18487e185aee1848ee185b5e186ab 15030 .e) 0xe18487e185aee18490e185a1e186a8 15031 .e) 0xe18487e185aee18491e185aee186b7 15032 (.o .e 0xe18487e185aee186a8e18487e185ae 15034 .e)) 0xe18487e185aee186abe18482e185a9 15036 (.o (.o .e 0xe18487e185aee186abe18485e185b5 15038 .e) 0xe18487e185aee186abe1848be185a3 15041 (.o .e 0xe18487e185aee186afe18480e185aa 15046 .e))) 0xe18487e185aee186afe18480e185ad 15047 (.o (.o (.o (.o .e 0xe18487e185b5e18480e185b3e186a8 15056 .e) 0xe18487e185b5e18482e185a1e186ab 15057 .e) 0xe18487e185b5e18482e185b5e186af 15058 (.o .e 0xe18487e185b5e18486e185a1e186ab 15062 .e)) 0xe18487e185b5e18486e185a7e186bc 15063 (.o (.o .e 0xe18487e185b5e18486e185b5e186af 15064 .e) 0xe18487e185b5e18489e185a1e186bc 15067 (.o .e 0xe18487e185b5e1848be185ade186bc 15068 .e)))))
def mnemonicTree449 : Tree := .o (.o (.o (.o (.o (.o (.o .e 0xe18487e185b5e1848ce185aee186bc 15070 .e) 0xe18487e185b5e18491e185a1e186ab 15072 .e) 0xe18488e185a1e186afe18485e185a2 15079 (.o .e 0xe18488e185a1e186afe18485e185b5 15080 .e)) 0xe18489e185a1e18480e185a5e186ab 15081 (.o (.o (.o .e 0xe18489e185a1e18482e185a3e186bc 15084 .e) 0xe18489e185a1e18485e185a1e186b7 15085 .e) 0xe18489e185a1e18485e185a1e186bc 15086 (.o .e 0xe18489e185a1e18485e185b5e186b8 15087 .e))) 0xe18489e185a1e18486e185aee186af 15089 (.o (.o (.o (.o .e 0xe18489e185a1e18487e185a1e186bc 15090 .e) 0xe18489e185a1e18489e185a1e186bc 15091 .e) 0xe18489e185a1e18489e185a5e186af 15093 (.o .e 0xe18489e185a1e18489e185b3e186b7 15094 .e)) 0xe18489e185a1e18489e185b5e186af 15095 (.o (.o .e 0xe18489e185a1e1848be185a5e186b8 15096 .e) 0xe18489e185a1e1848be185ade186bc 15097 (.o .e 0xe18489e185a1e1848be185afe186af 15098 .e)))) 0xe18489e185a1e1848ce185a1e186bc 15099 (.o (.o (.o (.o (.o .e 0xe18489e185a1e1848ce185a5e186ab 15100 .e) 0xe18489e185a1e1848ce185b5e186ab 15101 .e) 0xe18489e185a1e1848ee185a9e186ab 15102 (.o .e 0xe18489e185a1e18490e185a1e186bc 15104 .e)) 0xe18489e185a1e18492e185b3e186af 15106 (.o (.o .e 0xe18489e185a1e186bce18483e185a2 15121 .e) 0xe18489e185a1e186bce18485e185b2 15122 (.o .e 0xe18489e185a1e186bce1848ce185a1 15128 .e))) 0xe18489e185a1e186bce1848ee185a5 15130 (.o (.o (.o (.o .e 0xe18489e185a1e186bce1848ee185ae 15131 .e) 0xe18489e185a1e186bce18490e185a2 15132 .e) 0xe18489e185a1e186bce18491e185ad 15133 (.o .e 0xe18489e185a2e18487e185a7e186a8 15136 .e)) 0xe18489e185a5e18485e185a1e186b8 15148 (.o (.o .e 0xe18489e185a5e18485e185b3e186ab 15149 .e) 0xe18489e185a5e18486e185a7e186bc 15150 (.o .e 0xe18489e185a5e18486e185b5e186ab 15151 .e))))) 0xe18489e185a5e1848be185a3e186bc 15153 (.o (.o (.o (.o (.o (.o .e 0xe18489e185a5e1848be185aee186af 15154 .e) 0xe18489e185a5e1848ce185a5e186a8 15155 .e) 0xe18489e185a5e1848ce185a5e186b7 15156 (.o .e 0xe18489e185a5e1848de185a9e186a8 15157 .e)) 0xe18489e185a5e1848fe185b3e186af 15158 (.o (.o (.o .e 0xe18489e185a5e186a8e18489e185a1 15159 .e) 0xe18489e185a5e186a8e1848be185b2 15160 .e) 0xe18489e185a5e186abe18480e185a5 15161 (.o .e 0xe18489e185a5e186abe18487e185a2 15163 .e))) 0xe18489e185a5e186abe18489e185ae 15165 (.o (.o (.o (.o .e 0xe18489e185a5e186afe18489e185a1 15176 .e) 0xe18489e185a5e186afe1848ee185b5 15178 .e) 0xe18489e185a5e186b8e1848ae185b5 15180 (.o .e 0xe18489e185a6e18480e185b3e186b7 15190 .e)) 0xe18489e185a6e18489e185a1e186bc 15192 (.o (.o .e 0xe18489e185a6e1848be185afe186af 15193 .e) 0xe18489e185a6e18490e185a1e186a8 15195 (.o .e 0xe18489e185a6e186abe18490e185a5 15196 .e)))) 0xe18489e185a6e186bae1848de185a2 15198 (.o (.o (.o (.o (.o .e 0xe18489e185a9e18480e185b3e186b7 15201 .e) 0xe18489e185a9e18482e185a7e186ab 15203 .e) 0xe18489e185a9e18483e185b3e186a8 15204 (.o .e 0xe18489e185a9e18486e185a1e186bc 15205 .e)) 0xe18489e185a9e18486e185aee186ab 15206 (.o (.o .e 0xe18489e185a9e18489e185a5e186af 15207 .e) 0xe18489e185a9e18489e185a9e186a8 15208 (.o .e 0xe18489e185a9e1848be185ade186bc 15210 .e))) 0xe18489e185a9e1848be185afe186ab 15211 (.o (.o (.o (.o .e 0xe18489e185a9e1848be185b3e186b7 15212 .e) 0xe18489e185a9e1848ce185b5e186af 15215 .e) 0xe18489e185a9e18491e185aee186bc 15216 (.o .e 0xe18489e185a9e18492e185a7e186bc 15217 .e)) 0xe18489e185a9e186a8e18483e185a9 15219 (.o (.o .e 0xe18489e185a9e186abe18482e185a7 15223 .e) 0xe18489e185a9e186abe18492e185a2 15231 (.o .e 0xe18489e185a9e186b7e1848ae185b5 15233 .e)))))
def mnemonicTree450 : Tree := .o mnemonicTree448 0xe18487e185b5e1848be185b2e186af 15069 mnemonicTree449
def mnemonicTree451 : Tree := .o mnemonicTree447 0xe18487e185a1e18482e185b3e186af 14893 mnemonicTree450
def mnemonicTree452 : Tree := .o (.o (.o (.o (.o (.o (.o .e 0xe18489e185ade18491e185b5e186bc 15238 .e) 0xe18489e185aee18480e185a5e186ab 15239 .e) 0xe18489e185aee18482e185a7e186ab 15240 (.o .e 0xe18489e185aee18483e185a1e186ab 15241 .e)) 0xe18489e185aee18486e185a7e186ab 15244 (.o (.o (.o .e 0xe18489e185aee18486e185a7e186bc 15245 .e) 0xe18489e185aee18487e185a1e186a8 15246 .e) 0xe18489e185aee18489e185a1e186bc 15247 (.o .e 0xe18489e185aee18489e185a5e186a8 15248 .e))) 0xe18489e185aee18489e185aee186af 15249 (.o (.o (.o (.o .e 0xe18489e185aee1848be185a5e186b8 15251 .e) 0xe18489e185aee1848be185a7e186b7 15252 .e) 0xe18489e185aee1848be185a7e186bc 15253 (.o .e 0xe18489e185aee1848be185b5e186b8 15254 .e)) 0xe18489e185aee1848ce185aee186ab 15255 (.o (.o .e 0xe18489e185aee1848ce185b5e186b8 15256 .e) 0xe18489e185aee1848ee185aee186af 15257 (.o .e 0xe18489e185aee1848fe185a5e186ba 15258 .e)))) 0xe18489e185aee18491e185b5e186af 15259 (.o (.o (.o (.o (.o .e 0xe18489e185aee18492e185a1e186a8 15260 .e) 0xe18489e185aee186a8e18482e185a7 15263 .e) 0xe18489e185aee186a8e18489e185a9 15264 (.o .e 0xe18489e185aee186a8e1848ce185a6 15265 .e)) 0xe18489e185aee186abe18489e185a5 15267 (.o (.o (.o .e 0xe18489e185aee186abe18489e185ae 15268 .e) 0xe18489e185aee186abe1848be185b1 15270 .e) 0xe18489e185aee186bae1848ce185a1 15274 (.o .e 0xe18489e185b3e18482e185b5e186b7 15275 .e))) 0xe18489e185b3e18486e185aee186af 15276 (.o (.o (.o (.o .e 0xe18489e185b3e18489e185b3e186bc 15278 .e) 0xe18489e185b3e186b8e18480e185b5 15288 .e) 0xe18489e185b3e186bce18485e185b5 15290 (.o .e 0xe18489e185b3e186bce18487e185ae 15291 .e)) 0xe18489e185b5e18480e185a1e186a8 15294 (.o (.o .e 0xe18489e185b5e18480e185a1e186ab 15295 .e) 0xe18489e185b5e18480e185a9e186af 15296 (.o .e 0xe18489e185b5e18483e185a2e186a8 15299 .e))))) 0xe18489e185b5e18486e185b5e186ab 15302 (.o (.o (.o (.o (.o (.o .e 0xe18489e185b5e18489e185a5e186ab 15304 .e) 0xe18489e185b5e18489e185a5e186af 15305 .e) 0xe18489e185b5e1848be185afe186af 15309 (.o .e 0xe18489e185b5e1848be185b5e186ab 15310 .e)) 0xe18489e185b5e1848be185b5e186af 15311 (.o (.o (.o .e 0xe18489e185b5e1848ce185a1e186a8 15312 .e) 0xe18489e185b5e1848ce185a1e186bc 15313 .e) 0xe18489e185b5e1848ce185a5e186af 15314 (.o .e 0xe18489e185b5e1848ce185a5e186b7 15315 .e))) 0xe18489e185b5e1848ce185aee186bc 15316 (.o (.o (.o (.o .e 0xe18489e185b5e1848ce185b3e186ab 15317 .e) 0xe18489e185b5e1848ce185b5e186b8 15318 .e) 0xe18489e185b5e1848ee185a5e186bc 15319 (.o .e 0xe18489e185b5e18492e185a1e186b8 15320 .e)) 0xe18489e185b5e18492e185a5e186b7 15321 (.o (.o .e 0xe18489e185b5e186a8e18480e185ae 15322 .e) 0xe18489e185b5e186a8e18480e185b5 15323 (.o .e 0xe18489e185b5e186a8e18489e185a1 15329 .e)))) 0xe18489e185b5e186a8e1848ee185a9 15331 (.o (.o (.o (.o (.o .e 0xe18489e185b5e186abe18480e185a9 15334 .e) 0xe18489e185b5e186abe18480e185b2 15335 .e) 0xe18489e185b5e186abe18487e185b5 15339 (.o .e 0xe18489e185b5e186abe18489e185a1 15340 .e)) 0xe18489e185b5e186abe18489e185a6 15341 (.o (.o .e 0xe18489e185b5e186abe1848ee185a6 15345 .e) 0xe18489e185b5e186abe18492e185aa 15346 (.o .e 0xe18489e185b5e186afe18482e185a2 15348 .e))) 0xe18489e185b5e186afe18485e185a8 15350 (.o (.o (.o (.o .e 0xe18489e185b5e186afe18489e185ae 15352 .e) 0xe18489e185b5e186afe18489e185b5 15354 .e) 0xe18489e185b5e186afe1848ee185a6 15359 (.o .e 0xe18489e185b5e186afe18490e185a2 15361 .e)) 0xe18489e185b5e186afe18491e185a2 15362 (.o (.o .e 0xe18489e185b5e186b7e18485e185b5 15365 .e) 0xe18489e185b5e186b7e18489e185a1 15367 (.o .e 0xe1848ae185b5e18485e185b3e186b7 15372 .e)))))
def mnemonicTree453 : Tree := .o (.o (.o (.o (.o (.o (.o .e 0xe1848be185a1e18483e185b3e186af 15377 .e) 0xe1848be185a1e1848ce185b5e186a8 15384 .e) 0xe1848be185a1e1848ee185b5e186b7 15385 (.o .e 0xe1848be185a1e18491e185b3e186b7 15388 .e)) 0xe1848be185a1e18492e185a9e186b8 15389 (.o (.o (.o .e 0xe1848be185a1e18492e185b3e186ab 15390 .e) 0xe1848be185a1e186a8e18480e185b5 15391 .e) 0xe1848be185a1e186a8e18489e185ae 15393 (.o .e 0xe1848be185a1e186abe18480e185a2 15394 .e))) 0xe1848be185a1e186abe18480e185aa 15396 (.o (.o (.o (.o .e 0xe1848be185a1e186abe18482e185a2 15397 .e) 0xe1848be185a1e186abe18487e185ae 15401 .e) 0xe1848be185a1e186abe1848ce185ae 15402 (.o .e 0xe1848be185a1e186b7e18489e185b5 15405 .e)) 0xe1848be185a2e1848be185b5e186ab 15410 (.o (.o .e 0xe1848be185a2e1848ce185a5e186bc 15411 .e) 0xe1848be185a2e186a8e18489e185ae 15412 (.o .e 0xe1848be185a3e18480e185a1e186ab 15414 .e)))) 0xe1848be185a3e18483e185a1e186ab 15415 (.o (.o (.o (.o (.o .e 0xe1848be185a3e1848be185a9e186bc 15416 .e) 0xe1848be185a3e186a8e18489e185ae 15420 .e) 0xe1848be185a3e186bce1848ce185ae 15428 (.o .e 0xe1848be185a3e186bce18491e185a1 15429 .e)) 0xe1848be185a5e18483e185aee186b7 15430 (.o (.o .e 0xe1848be185a5e18485e185b3e186ab 15432 .e) 0xe1848be185a5e186abe18482e185b5 15437 (.o .e 0xe1848be185a5e186abe1848be185a5 15440 .e))) 0xe1848be185a5e186b7e18486e185a1 15445 (.o (.o (.o (.o .e 0xe1848be185a5e186b8e18486e185ae 15446 .e) 0xe1848be185a5e186b8e1848ee185a6 15448 .e) 0xe1848be185a7e18480e185a5e186ab 15456 (.o .e 0xe1848be185a7e18480e185aae186ab 15458 .e)) 0xe1848be185a7e18480e185aee186ab 15459 (.o (.o .e 0xe1848be185a7e18480e185afe186ab 15460 .e) 0xe1848be185a7e18483e185a5e186b2 15462 (.o .e 0xe1848be185a7e18483e185b3e186ab 15464 .e))))) 0xe1848be185a7e18485e185a9e186ab 15465 (.o (.o (.o (.o (.o (.o .e 0xe1848be185a7e18485e185b3e186b7 15466 .e) 0xe1848be185a7e18489e185a5e186ba 15467 .e) 0xe1848be185a7e18489e185a5e186bc 15468 (.o .e 0xe1848be185a7e1848be185aae186bc 15469 .e)) 0xe1848be185a7e1848be185b5e186ab 15470 (.o (.o (.o .e 0xe1848be185a7e18492e185a2e186bc 15474 .e) 0xe1848be185a7e186a8e18489e185a1 15475 .e) 0xe1848be185a7e186a8e18489e185b5 15476 (.o .e 0xe1848be185a7e186abe18480e185ae 15479 .e))) 0xe1848be185a7e186abe18480e185b5 15481 (.o (.o (.o (.o .e 0xe1848be185a7e186abe18489e185a6 15484 .e) 0xe1848be185a7e186abe1848be185a2 15487 .e) 0xe1848be185a7e186abe1848ce185ae 15491 (.o .e 0xe1848be185a7e186abe18492e185b2 15495 .e)) 0xe1848be185a7e186afe18480e185b5 15496 (.o (.o .e 0xe1848be185a7e186afe18486e185a2 15497 .e) 0xe1848be185a7e186afe18489e185ac 15498 (.o .e 0xe1848be185a7e186afe1848ee185a1 15501 .e)))) 0xe1848be185a7e186b7e18485e185a7 15503 (.o (.o (.o (.o (.o .e 0xe1848be185a7e186b8e18489e185a5 15504 .e) 0xe1848be185a7e186bce18492e185a1 15512 .e) 0xe1848be185a7e186bce18492e185aa 15515 (.o .e 0xe1848be185a8e18480e185a1e186b7 15519 .e)) 0xe1848be185a8e18480e185b3e186b7 15520 (.o (.o .e 0xe1848be185a8e18487e185a1e186bc 15521 .e) 0xe1848be185a8e18489e185a1e186ab 15522 (.o .e 0xe1848be185a8e18489e185a1e186bc 15523 .e))) 0xe1848be185a8e18489e185a5e186ab 15524 (.o (.o (.o (.o .e 0xe1848be185a8e18489e185aee186af 15525 .e) 0xe1848be185a8e18489e185b3e186b8 15526 .e) 0xe1848be185a8e1848be185a3e186a8 15528 (.o .e 0xe1848be185a8e1848ce185a5e186ab 15529 .e)) 0xe1848be185a8e1848ce185a5e186af 15530 (.o (.o .e 0xe1848be185a8e1848ce185a5e186bc 15531 .e) 0xe1848be185a9e18482e185b3e186af 15534 (.o .e 0xe1848be185a9e18485e185a1e186a8 15535 .e)))))
def mnemonicTree454 : Tree := .o mnemonicTree452 0xe1848ae185b5e1848be185a1e186ba 15373 mnemonicTree453
def mnemonicTree455 : Tree := .o (.o (.o (.o (.o (.o (.o .e 0xe1848be185a9e18489e185b5e186b8 15541 .e) 0xe1848be185a9e1848be185a7e186b7 15542 .e) 0xe1848be185a9e1848be185afe186af 15543 (.o .e 0xe1848be185a9e1848ce185a5e186ab 15544 .e)) 0xe1848be185a9e1848ce185b5e186a8 15545 (.o (.o (.o .e 0xe1848be185a9e186afe18492e185a2 15559 .e) 0xe1848be185aae1848be185b5e186ab 15562 .e) 0xe1848be185aae186bce18487e185b5 15565 (.o .e 0xe1848be185aae186bce1848ce185a1 15566 .e))) 0xe1848be185abe186abe1848ce185b5 15568 (.o (.o (.o (.o .e 0xe1848be185ace18480e185aee186a8 15570 .e) 0xe1848be185ace1848ee185aee186af 15573 .e) 0xe1848be185ace1848ee185b5e186b7 15574 (.o .e 0xe1848be185ade18480e185b3e186b7 15579 .e)) 0xe1848be185ade1848be185b5e186af 15580 (.o (.o .e 0xe1848be185ade1848ce185b3e186b7 15581 .e) 0xe1848be185ade1848ee185a5e186bc 15582 (.o .e 0xe1848be185ade186bce18480e185b5 15583 .e)))) 0xe1848be185ade186bce18489e185a5 15584 (.o (.o (.o (.o (.o .e 0xe1848be185ade186bce1848be185a5 15585 .e) 0xe1848be185aee18489e185a1e186ab 15586 .e) 0xe1848be185aee18489e185a5e186ab 15587 (.o .e 0xe1848be185aee18489e185b3e186bc 15588 .e)) 0xe1848be185aee1848ce185a5e186bc 15590 (.o (.o (.o .e 0xe1848be185aee18491e185a7e186ab 15592 .e) 0xe1848be185afe18482e185a1e186a8 15603 .e) 0xe1848be185afe186abe18480e185a9 15604 (.o .e 0xe1848be185afe186abe18485e185a2 15605 .e))) 0xe1848be185afe186abe18489e185a5 15606 (.o (.o (.o (.o .e 0xe1848be185afe186afe18489e185a6 15613 .e) 0xe1848be185b1e18487e185a1e186ab 15616 .e) 0xe1848be185b1e18487e185a5e186b8 15617 (.o .e 0xe1848be185b1e18489e185a5e186bc 15618 .e)) 0xe1848be185b1e1848be185afe186ab 15619 (.o (.o .e 0xe1848be185b1e18492e185a5e186b7 15620 .e) 0xe1848be185b1e18492e185a7e186b8 15621 (.o .e 0xe1848be185b2e18485e185a5e186b8 15624 .e))))) 0xe1848be185b2e18486e185a7e186bc 15625 (.o (.o (.o (.o (.o (.o .e 0xe1848be185b2e18486e185aee186af 15626 .e) 0xe1848be185b2e18489e185a1e186ab 15627 .e) 0xe1848be185b2e1848ce185a5e186a8 15628 (.o .e 0xe1848be185b2e18492e185a1e186a8 15630 .e)) 0xe1848be185b2e18492e185a2e186bc 15631 (.o (.o (.o .e 0xe1848be185b2e18492e185a7e186bc 15632 .e) 0xe1848be185b2e186a8e1848ee185a6 15636 .e) 0xe1848be185b3e186b7e18485e185ad 15639 (.o .e 0xe1848be185b3e186b7e1848ce185ae 15644 .e))) 0xe1848be185b4e18480e185a7e186ab 15645 (.o (.o (.o (.o .e 0xe1848be185b4e18482e185a9e186ab 15646 .e) 0xe1848be185b4e18486e185aee186ab 15647 .e) 0xe1848be185b4e18487e185a9e186a8 15648 (.o .e 0xe1848be185b4e18489e185b5e186a8 15649 .e)) 0xe1848be185b4e18489e185b5e186b7 15650 (.o (.o .e 0xe1848be185b4e1848be185ade186a8 15652 .e) 0xe1848be185b4e1848be185afe186ab 15653 (.o .e 0xe1848be185b4e18492e185a1e186a8 15654 .e)))) 0xe1848be185b5e18480e185a5e186ba 15655 (.o (.o (.o (.o (.o .e 0xe1848be185b5e18480e185a9e186ba 15656 .e) 0xe1848be185b5e18482e185a7e186b7 15657 .e) 0xe1848be185b5e18482e185a9e186b7 15658 (.o .e 0xe1848be185b5e18483e185a1e186af 15659 .e)) 0xe1848be185b5e18483e185a9e186bc 15661 (.o (.o .e 0xe1848be185b5e18485e185b3e186b7 15665 .e) 0xe1848be185b5e18486e185b5e186ab 15666 (.o .e 0xe1848be185b5e18487e185a7e186af 15668 .e))) 0xe1848be185b5e18487e185aee186af 15669 (.o (.o (.o (.o .e 0xe1848be185b5e18488e185a1e186af 15670 .e) 0xe1848be185b5e18489e185a1e186bc 15671 .e) 0xe1848be185b5e18489e185a5e186bc 15672 (.o .e 0xe1848be185b5e18489e185b3e186af 15673 .e)) 0xe1848be185b5e1848be185ade186bc 15675 (.o (.o .e 0xe1848be185b5e1848be185aee186ba 15676 .e) 0xe1848be185b5e1848be185afe186af 15677 (.o .e 0xe1848be185b5e1848be185b5e186a8 15679 .e)))))
def mnemonicTree456 : Tree := .o (.o (.o (.o (.o (.o (.o .e 0xe1848be185b5e1848ce185aee186bc 15681 .e) 0xe1848be185b5e18490e185b3e186af 15683 .e) 0xe1848be185b5e18492e185a9e186ab 15684 (.o .e 0xe1848be185b5e186abe18480e185ae 15688 .e)) 0xe1848be185b5e186abe18480e185b5 15690 (.o (.o (.o .e 0xe1848be185b5e186abe18483e185a9 15691 .e) 0xe1848be185b5e186abe18485e185b2 15692 .e) 0xe1848be185b5e186abe18489e185ab 15695 (.o .e 0xe1848be185b5e186abe1848ce185a2 15698 .e))) 0xe1848be185b5e186abe1848ee185a6 15701 (.o (.o (.o (.o .e 0xe1848be185b5e186abe18492e185a1 15703 .e) 0xe1848be185b5e186afe18480e185b5 15706 .e) 0xe1848be185b5e186afe18483e185a2 15708 (.o .e 0xe1848be185b5e186afe18487e185ae 15712 .e)) 0xe1848be185b5e186afe1848ee185a6 15722 (.o (.o .e 0xe1848be185b5e186afe1848ee185b5 15723 .e) 0xe1848be185b5e186b7e18486e185ae 15727 (.o .e 0xe1848be185b5e186b8e18483e185a2 15728 .e)))) 0xe1848be185b5e186b8e18489e185a1 15731 (.o (.o (.o (.o (.o .e 0xe1848be185b5e186b8e18489e185b5 15733 .e) 0xe1848ce185a1e18480e185a7e186a8 15738 .e) 0xe1848ce185a1e18480e185b3e186a8 15739 (.o .e 0xe1848ce185a1e18483e185a9e186bc 15740 .e)) 0xe1848ce185a1e18485e185a1e186bc 15741 (.o (.o .e 0xe1848ce185a1e18489e185b5e186a8 15743 .e) 0xe1848ce185a1e18489e185b5e186ab 15744 (.o .e 0xe1848ce185a1e1848be185a7e186ab 15745 .e))) 0xe1848ce185a1e1848be185afe186ab 15746 (.o (.o (.o (.o .e 0xe1848ce185a1e1848be185b2e186af 15747 .e) 0xe1848ce185a1e1848ce185a5e186bc 15749 .e) 0xe1848ce185a1e18491e185a1e186ab 15751 (.o .e 0xe1848ce185a1e186a8e18480e185a1 15752 .e)) 0xe1848ce185a1e186abe18483e185b5 15759 (.o (.o .e 0xe1848ce185a1e186abe1848ee185b5 15761 .e) 0xe1848ce185a1e186b7e18489e185b5 15765 (.o .e 0xe1848ce185a1e186b8e1848ce185b5 15768 .e))))) 0xe1848ce185a1e186bce18485e185a2 15772 (.o (.o (.o (.o (.o (.o .e 0xe1848ce185a1e186bce18485e185a8 15773 .e) 0xe1848ce185a1e186bce18485e185b3 15774 .e) 0xe1848ce185a1e186bce18486e185a1 15775 (.o .e 0xe1848ce185a1e186bce18486e185a9 15777 .e)) 0xe1848ce185a1e186bce18486e185b5 15778 (.o (.o (.o .e 0xe1848ce185a1e186bce18487e185b5 15779 .e) 0xe1848ce185a1e186bce18489e185a1 15780 .e) 0xe1848ce185a1e186bce18489e185a9 15781 (.o .e 0xe1848ce185a1e186bce1848ee185a1 15786 .e))) 0xe1848ce185a2e18482e185b3e186bc 15788 (.o (.o (.o (.o .e 0xe1848ce185a2e18489e185a1e186ab 15790 .e) 0xe1848ce185a2e18489e185a2e186bc 15791 .e) 0xe1848ce185a2e1848ce185a5e186bc 15793 (.o .e 0xe1848ce185a2e18491e185a1e186ab 15795 .e)) 0xe1848ce185a2e18492e185a1e186a8 15796 (.o (.o .e 0xe1848ce185a5e18480e185a5e186ba 15798 .e) 0xe1848ce185a5e18480e185a9e186ba 15800 (.o .e 0xe1848ce185a5e18482e185a7e186a8 15801 .e)))) 0xe1848ce185a5e18485e185a5e186ab 15802 (.o (.o (.o (.o (.o .e 0xe1848ce185a5e18487e185a5e186ab 15804 .e) 0xe1848ce185a5e1848be185aee186af 15805 .e) 0xe1848ce185a5e1848ee185aee186a8 15807 (.o .e 0xe1848ce185a5e186abe18480e185a2 15813 .e)) 0xe1848ce185a5e186abe18480e185b5 15815 (.o (.o .e 0xe1848ce185a5e186abe18487e185ae 15821 .e) 0xe1848ce185a5e186abe18489e185a6 15822 (.o .e 0xe1848ce185a5e186abe18489e185b5 15823 .e))) 0xe1848ce185a5e186abe1848ce185a1 15825 (.o (.o (.o (.o .e 0xe1848ce185a5e186abe1848ce185ae 15827 .e) 0xe1848ce185a5e186abe1848ee185a6 15829 .e) 0xe1848ce185a5e186abe18492e185a7 15831 (.o .e 0xe1848ce185a5e186abe18492e185ae 15832 .e)) 0xe1848ce185a5e186afe18483e185a2 15833 (.o (.o .e 0xe1848ce185a5e186afe1848ee185a1 15837 .e) 0xe1848ce185a5e186b7e18489e185ae 15839 (.o .e 0xe1848ce185a5e186b7e1848ee185a1 15843 .e)))))
def mnemonicTree457 : Tree := .o mnemonicTree455 0xe1848be185b5e1848ce185a5e186ab 15680 mnemonicTree456
def mnemonicTree458 : Tree := .o mnemonicTree454 0xe1848be185a9e18487e185b3e186ab 15540 mnemonicTree457
def mnemonicTree459 : Tree := .o mnemonicTree451 0xe18489e185a9e186bce1848be185b5 15235 mnemonicTree458
def mnemonicTree460 : Tree := .o (.o (.o (.o (.o (.o (.o .e 0xe1848ce185a5e186bce18483e185a9 15849 .e) 0xe1848ce185a5e186bce18485e185b5 15851 .e) 0xe1848ce185a5e186bce18487e185a9 15856 (.o .e 0xe1848ce185a5e186bce18487e185ae 15857 .e)) 0xe1848ce185a5e186bce18487e185b5 15858 (.o (.o (.o .e 0xe1848ce185a5e186bce1848be185a9 15861 .e) 0xe1848ce185a5e186bce1848ce185b5 15864 .e) 0xe1848ce185a5e186bce1848ee185b5 15865 (.o .e 0xe1848ce185a6e18480e185a9e186bc 15867 .e))) 0xe1848ce185a6e18486e185a9e186a8 15870 (.o (.o (.o (.o .e 0xe1848ce185a6e18487e185a1e186af 15871 .e) 0xe1848ce185a6e18487e185a5e186b8 15872 .e) 0xe1848ce185a6e1848be185a1e186ab 15874 (.o .e 0xe1848ce185a6e1848be185b5e186af 15875 .e)) 0xe1848ce185a6e1848ce185a1e186a8 15876 (.o (.o .e 0xe1848ce185a6e1848ee185aee186af 15878 .e) 0xe1848ce185a6e18491e185aee186b7 15879 (.o .e 0xe1848ce185a6e18492e185a1e186ab 15880 .e)))) 0xe1848ce185a9e18480e185a1e186a8 15881 (.o (.o (.o (.o (.o .e 0xe1848ce185a9e18480e185a5e186ab 15882 .e) 0xe1848ce185a9e18480e185b3e186b7 15883 .e) 0xe1848ce185a9e18480e185b5e186bc 15884 (.o .e 0xe1848ce185a9e18486e185a7e186bc 15885 .e)) 0xe1848ce185a9e18489e185a1e186bc 15887 (.o (.o (.o .e 0xe1848ce185a9e18489e185a5e186ab 15888 .e) 0xe1848ce185a9e1848ce185a5e186af 15890 .e) 0xe1848ce185a9e1848ce185a5e186bc 15891 (.o .e 0xe1848ce185a9e1848ce185b5e186a8 15892 .e))) 0xe1848ce185a9e186abe1848ce185a2 15894 (.o (.o (.o (.o .e 0xe1848ce185a9e186bce18480e185ad 15897 .e) 0xe1848ce185a9e186bce18485e185a9 15898 .e) 0xe1848ce185a9e186bce18485e185b2 15899 (.o .e 0xe1848ce185aae18489e185a5e186a8 15904 .e)) 0xe1848ce185ace1848be185b5e186ab 15905 (.o (.o .e 0xe1848ce185aee18485e185b3e186b7 15907 .e) 0xe1848ce185aee18486e185a1e186af 15908 (.o .e 0xe1848ce185aee18486e185a5e186a8 15910 .e))))) 0xe1848ce185aee18486e185aee186ab 15911 (.o (.o (.o (.o (.o (.o .e 0xe1848ce185aee18486e185b5e186ab 15912 .e) 0xe1848ce185aee18487e185a1e186bc 15913 .e) 0xe1848ce185aee18487e185a7e186ab 15914 (.o .e 0xe1848ce185aee18489e185b5e186a8 15915 .e)) 0xe1848ce185aee1848be185b5e186ab 15916 (.o (.o (.o .e 0xe1848ce185aee1848be185b5e186af 15917 .e) 0xe1848ce185aee1848ce185a1e186bc 15918 .e) 0xe1848ce185aee18490e185a2e186a8 15920 (.o .e 0xe1848ce185aee186abe18487e185b5 15921 .e))) 0xe1848ce185aee186afe18480e185b5 15923 (.o (.o (.o (.o .e 0xe1848ce185aee186bce18487e185ae 15932 .e) 0xe1848ce185aee186bce18489e185a6 15933 .e) 0xe1848ce185aee186bce1848be185ad 15937 (.o .e 0xe1848ce185b3e186a8e18489e185b5 15940 .e)) 0xe1848ce185b3e186bce18480e185a1 15942 (.o (.o .e 0xe1848ce185b3e186bce18480e185a5 15943 .e) 0xe1848ce185b3e186bce18489e185a6 15946 (.o .e 0xe1848ce185b5e18480e185a1e186a8 15947 .e)))) 0xe1848ce185b5e18480e185a1e186b8 15948 (.o (.o (.o (.o (.o .e 0xe1848ce185b5e18480e185a7e186bc 15949 .e) 0xe1848ce185b5e18480e185b3e186b7 15951 .e) 0xe1848ce185b5e18480e185b3e186b8 15952 (.o .e 0xe1848ce185b5e18482e185b3e186bc 15953 .e)) 0xe1848ce185b5e18487e185a1e186bc 15956 (.o (.o .e 0xe1848ce185b5e18487e185aee186bc 15957 .e) 0xe1848ce185b5e18489e185b5e186a8 15958 (.o .e 0xe1848ce185b5e1848be185a7e186a8 15959 .e))) 0xe1848ce185b5e1848be185afe186ab 15961 (.o (.o (.o (.o .e 0xe1848ce185b5e1848ce185a5e186a8 15962 .e) 0xe1848ce185b5e1848ce185a5e186b7 15963 .e) 0xe1848ce185b5e1848ce185b5e186ab 15964 (.o .e 0xe1848ce185b5e1848ee185aee186af 15965 .e)) 0xe1848ce185b5e186abe18485e185a9 15972 (.o (.o .e 0xe1848ce185b5e186abe18485e185ad 15973 .e) 0xe1848ce185b5e186abe18485e185b5 15974 (.o .e 0xe1848ce185b5e186abe1848de185a1 15975 .e)))))
def mnemonicTree461 : Tree := .o (.o (.o (.o (.o (.o (.o .e 0xe1848de185a1e1848ce185b3e186bc 15987 .e) 0xe1848ee185a1e18482e185a1e186b7 15989 .e) 0xe1848ee185a1e18485e185a3e186bc 15991 (.o .e 0xe1848ee185a1e18485e185b5e186b7 15992 .e)) 0xe1848ee185a1e18487e185a7e186af 15993 (.o (.o (.o .e 0xe1848ee185a1e18489e185a5e186ab 15994 .e) 0xe1848ee185a1e1848ee185b3e186b7 15995 .e) 0xe1848ee185a1e186b7e18480e185a1 15999 (.o .e 0xe1848ee185a1e186b7e18489e185a2 16001 .e))) 0xe1848ee185a1e186b7e1848be185a7 16003 (.o (.o (.o (.o .e 0xe1848ee185a1e186b7e1848be185ac 16004 .e) 0xe1848ee185a1e186b7e1848ce185a9 16005 .e) 0xe1848ee185a1e186bce18480e185a1 16007 (.o .e 0xe1848ee185a1e186bce18480e185a9 16008 .e)) 0xe1848ee185a1e186bce18480e185ae 16009 (.o (.o .e 0xe1848ee185a1e186bce1848ce185a9 16013 .e) 0xe1848ee185a2e18482e185a5e186af 16014 (.o .e 0xe1848ee185a2e1848ce185a5e186b7 16015 .e)))) 0xe1848ee185a5e18487e185a5e186af 16021 (.o (.o (.o (.o (.o .e 0xe1848ee185a5e1848be185b3e186b7 16022 .e) 0xe1848ee185a5e186abe1848ce185a2 16026 .e) 0xe1848ee185a5e186afe18483e185a9 16028 (.o .e 0xe1848ee185a5e186bae1848de185a2 16032 .e)) 0xe1848ee185a5e186bce18489e185a9 16035 (.o (.o (.o .e 0xe1848ee185a6e18485e185a7e186a8 16038 .e) 0xe1848ee185a6e1848be185a9e186ab 16039 .e) 0xe1848ee185a6e1848be185b2e186a8 16040 (.o .e 0xe1848ee185a6e1848ce185aee186bc 16041 .e))) 0xe1848ee185a6e18492e185a5e186b7 16042 (.o (.o (.o (.o .e 0xe1848ee185a9e18487e185a1e186ab 16044 .e) 0xe1848ee185a9e18487e185a1e186b8 16045 .e) 0xe1848ee185a9e18489e185aee186ab 16047 (.o .e 0xe1848ee185a9e1848be185afe186ab 16049 .e)) 0xe1848ee185a9e1848ce185a5e186b7 16051 (.o (.o .e 0xe1848ee185a9e1848ee185a5e186bc 16052 .e) 0xe1848ee185a9e186bce18485e185b5 16056 (.o .e 0xe1848ee185ace18480e185b3e186ab 16059 .e))))) 0xe1848ee185ace18489e185a1e186bc 16060 (.o (.o (.o (.o (.o (.o .e 0xe1848ee185ace18489e185a5e186ab 16061 .e) 0xe1848ee185ace18489e185b5e186ab 16062 .e) 0xe1848ee185ace1848be185a1e186a8 16063 (.o .e 0xe1848ee185ace1848ce185a9e186bc 16064 .e)) 0xe1848ee185aee18489e185a5e186a8 16065 (.o (.o (.o .e 0xe1848ee185aee1848be185a5e186a8 16066 .e) 0xe1848ee185aee1848ce185b5e186ab 16067 .e) 0xe1848ee185aee1848ee185a5e186ab 16068 (.o .e 0xe1848ee185aee1848ee185b3e186a8 16069 .e))) 0xe1848ee185aee186a8e18480e185ae 16070 (.o (.o (.o (.o .e 0xe1848ee185aee186a8e18489e185a9 16071 .e) 0xe1848ee185aee186a8e1848ce185a6 16072 .e) 0xe1848ee185aee186a8e18492e185a1 16073 (.o .e 0xe1848ee185aee186bce18480e185a9 16083 .e)) 0xe1848ee185b1e1848be185a5e186b8 16087 (.o (.o .e 0xe1848ee185b1e1848ce185b5e186a8 16088 .e) 0xe1848ee185b1e18492e185a3e186bc 16089 (.o .e 0xe1848ee185b5e1848be185a3e186a8 16090 .e)))) 0xe1848ee185b5e186abe18480e185ae 16091 (.o (.o (.o (.o (.o .e 0xe1848ee185b5e186b7e18483e185a2 16096 .e) 0xe1848fe185a5e18490e185b3e186ab 16107 .e) 0xe1848fe185a5e186afe18485e185a5 16109 (.o .e 0xe1848fe185a9e186afe18485e185a1 16114 .e)) 0xe1848fe185abe18480e185a1e186b7 16117 (.o (.o .e 0xe1848fe185b3e18485e185b5e186b7 16119 .e) 0xe1848fe185b5e186afe18485e185a9 16129 (.o .e 0xe18490e185a1e1848be185b5e186b8 16130 .e))) 0xe18490e185a1e186a8e18480e185ae 16132 (.o (.o (.o (.o .e 0xe18490e185a1e186a8e1848ce185a1 16133 .e) 0xe18490e185a2e1848be185a3e186bc 16136 .e) 0xe18490e185a2e18491e185aee186bc 16137 (.o .e 0xe18490e185a2e186a8e18489e185b5 16138 .e)) 0xe18490e185a5e18482e185a5e186af 16140 (.o (.o .e 0xe18490e185a9e18485e185a9e186ab 16146 .e) 0xe18490e185a9e186bce18480e185a8 16149 (.o .e 0xe18490e185a9e186bce18480e185aa 16150 .e)))))
def mnemonicTree462 : Tree := .o mnemonicTree460 0xe1848ce185b5e186afe18489e185a5 15982 mnemonicTree461
def mnemonicTree463 : Tree := .o (.o (.o (.o (.o (.o (.o .e 0xe18490e185a9e186bce1848ce185a6 16156 .e) 0xe18490e185a9e186bce18492e185aa 16159 .e) 0xe18490e185ace18480e185b3e186ab 16160 (.o .e 0xe18490e185ace1848be185afe186ab 16161 .e)) 0xe18490e185b1e18480e185b5e186b7 16163 (.o (.o (.o .e 0xe18490e185b3e18485e185a5e186a8 16164 .e) 0xe18490e185b3e186a8e18489e185ae 16168 .e) 0xe18490e185b3e186a8e18492e185b5 16170 (.o .e 0xe18491e185a1e1848be185b5e186af 16174 .e))) 0xe18491e185a1e186abe18486e185a2 16178 (.o (.o (.o (.o .e 0xe18491e185a1e186abe18489e185a1 16179 .e) 0xe18491e185a2e18489e185a7e186ab 16183 .e) 0xe18491e185a2e186a8e18489e185b3 16184 (.o .e 0xe18491e185a2e186abe18490e185b5 16186 .e)) 0xe18491e185a7e186abe1848be185b4 16190 (.o (.o .e 0xe18491e185a7e186abe1848ce185b5 16191 .e) 0xe18491e185a7e186abe18492e185b5 16192 (.o .e 0xe18491e185a7e186bce18480e185a1 16193 .e)))) 0xe18491e185a7e186bce18489e185a9 16196 (.o (.o (.o (.o (.o .e 0xe18491e185a7e186bce18492e185aa 16199 .e) 0xe18491e185a9e1848ce185a1e186bc 16202 .e) 0xe18491e185a9e18492e185a1e186b7 16203 (.o .e 0xe18491e185ade18486e185a7e186ab 16204 .e)) 0xe18491e185ade1848ce185a5e186bc 16205 (.o (.o (.o .e 0xe18491e185ade1848ce185aee186ab 16206 .e) 0xe18491e185ade18492e185a7e186ab 16207 .e) 0xe18491e185b5e18480e185a9e186ab 16216 (.o .e 0xe18491e185b5e18486e185a1e186bc 16217 .e))) 0xe18491e185b5e186afe18489e185ae 16220 (.o (.o (.o (.o .e 0xe18491e185b5e186afe1848be185ad 16221 .e) 0xe18491e185b5e186afe1848ce185a1 16222 .e) 0xe18491e185b5e186bce18480e185a8 16224 (.o .e 0xe18492e185a1e18482e185b3e186af 16226 .e)) 0xe18492e185a1e18489e185aee186ab 16231 (.o (.o .e 0xe18492e185a1e1848ee185a5e186ab 16234 .e) 0xe18492e185a1e18491e185aee186b7 16235 (.o .e 0xe18492e185a1e18491e185b5e186af 16236 .e))))) 0xe18492e185a1e186a8e18480e185aa 16237 (.o (.o (.o (.o (.o (.o .e 0xe18492e185a1e186a8e18480e185ad 16238 .e) 0xe18492e185a1e186a8e18480e185b5 16240 .e) 0xe18492e185a1e186a8e18487e185b5 16245 (.o .e 0xe18492e185a1e186a8e1848be185b1 16251 .e)) 0xe18492e185a1e186a8e1848ce185a1 16252 (.o (.o (.o .e 0xe18492e185a1e186abe18480e185a8 16254 .e) 0xe18492e185a1e186abe18484e185a2 16260 .e) 0xe18492e185a1e186b7e18481e185a6 16272 (.o .e 0xe18492e185a1e186bce18480e185ae 16277 .e))) 0xe18492e185a1e186bce1848be185b4 16279 (.o (.o (.o (.o .e 0xe18492e185a2e18480e185a7e186af 16280 .e) 0xe18492e185a2e18480e185aee186ab 16281 .e) 0xe18492e185a2e18483e185a1e186b8 16282 (.o .e 0xe18492e185a2e18483e185a1e186bc 16283 .e)) 0xe18492e185a2e18486e185aee186af 16284 (.o (.o .e 0xe18492e185a2e18489e185a5e186a8 16285 .e) 0xe18492e185a2e18489e185a5e186af 16286 (.o .e 0xe18492e185a2e1848be185a1e186ab 16288 .e)))) 0xe18492e185a2e186bce18489e185a1 16296 (.o (.o (.o (.o (.o .e 0xe18492e185a2e186bce1848be185b1 16298 .e) 0xe18492e185a3e186bce18480e185b5 16299 .e) 0xe18492e185a3e186bce18489e185ae 16301 (.o .e 0xe18492e185a5e18485e185a1e186a8 16302 .e)) 0xe18492e185a5e1848be185ade186bc 16303 (.o (.o .e 0xe18492e185a6e186afe18480e185b5 16304 .e) 0xe18492e185a7e186abe18483e185a2 16307 (.o .e 0xe18492e185a7e186abe1848ce185a2 16311 .e))) 0xe18492e185a7e186abe1848ce185b5 16312 (.o (.o (.o (.o .e 0xe18492e185a7e186bce18487e185ae 16315 .e) 0xe18492e185a7e186bce18489e185a1 16316 .e) 0xe18492e185a7e186bce18489e185ae 16317 (.o .e 0xe18492e185a7e186bce1848ce185a6 16319 .e)) 0xe18492e185a7e186bce18490e185a2 16320 (.o (.o .e 0xe18492e185a8e18490e185a2e186a8 16322 .e) 0xe18492e185a9e18482e185a1e186b7 16324 (.o .e 0xe18492e185a9e18487e185a1e186a8 16326 .e)))))
def mnemonicTree464 : Tree := .o (.o (.o (.o (.o (.o (.o .e 0xe18492e185a9e18492e185b3e186b8 16328 .e) 0xe18492e185a9e186a8e18489e185b5 16329 .e) 0xe18492e185a9e186afe18485e185a9 16330 (.o .e 0xe18492e185a9e186bce18487e185a9 16332 .e)) 0xe18492e185a9e186bce18489e185ae 16333 (.o (.o (.o .e 0xe18492e185a9e186bce1848ee185a1 16334 .e) 0xe18492e185aae18486e185a7e186ab 16335 .e) 0xe18492e185aae18487e185aee186ab 16336 (.o .e 0xe18492e185aae18489e185a1e186af 16337 .e))) 0xe18492e185aae1848ce185a1e186bc 16339 (.o (.o (.o (.o .e 0xe18492e185aae18492e185a1e186a8 16340 .e) 0xe18492e185aae186a8e18487e185a9 16341 .e) 0xe18492e185aae186abe1848ce185a1 16349 (.o .e 0xe18492e185aae186afe18480e185b5 16350 .e)) 0xe18492e185ace18480e185a7e186ab 16355 (.o (.o .e 0xe18492e185ace18480e185aae186ab 16356 .e) 0xe18492e185ace18487e185a9e186a8 16357 (.o .e 0xe18492e185ace18489e185a2e186a8 16358 .e)))) 0xe18492e185ace1848be185afe186ab 16359 (.o (.o (.o (.o (.o .e 0xe18492e185ace1848ce185a1e186bc 16360 .e) 0xe18492e185ace1848ce185a5e186ab 16361 .e) 0xe18492e185ace186bae18489e185ae 16362 (.o .e 0xe18492e185aee18487e185a1e186ab 16365 .e)) 0xe18492e185b2e18489e185b5e186a8 16369 (.o (.o .e 0xe18492e185b2e1848be185b5e186af 16370 .e) 0xe18492e185b2e186bce18482e185a2 16371 (.o .e 0xe18492e185b3e18485e185b3e186b7 16372 .e))) 0xe18492e185b3e186abe18492e185b5 16376 (.o (.o (.o (.o .e 0xe18492e185b3e186bce18486e185b5 16377 .e) 0xe18492e185b4e18480e185a9e186a8 16379 .e) 0xe18492e185b4e18486e185a1e186bc 16380 (.o .e 0xe18492e185b4e18489e185a2e186bc 16381 .e)) 0xe38182e3818ae3819de38299e38289 12291 (.o (.o .e 0xe38182e3818be381a1e38283e38293 12292 .e) 0xe38182e38191e3818be38299e3819f 12294 (.o .e 0xe38182e38197e38299e3828fe38186 12300 .e))))) 0xe38182e38199e38299e3818be3828b 12301 (.o (.o (.o (.o (.o (.o .e 0xe38182e3819fe3819fe38281e3828b 12305 .e) 0xe38182e3819fe3828ae381bee38188 12306 .e) 0xe38182e381a3e38197e38285e3818f 12310 (.o .e 0xe38182e381a6e381afe381bee3828b 12314 .e)) 0xe38182e381bee38284e3818be38199 12321 (.o (.o (.o .e 0xe38182e38289e38199e38197e38299 12329 .e) 0xe38182e38289e3819fe38281e3828b 12330 .e) 0xe38182e38293e3818be38299e38184 12337 (.o .e 0xe38182e38293e3819be38299e38293 12339 .e))) 0xe38184e38184e3819fe38299e38199 12343 (.o (.o (.o (.o .e 0xe38184e3818fe381b5e38299e38293 12352 .e) 0xe38184e38191e381afe38299e381aa 12353 .e) 0xe38184e38195e381bee38197e38184 12358 (.o .e 0xe38184e38197e38299e38285e38186 12361 .e)) 0xe38184e38197e38299e38287e38186 12362 (.o (.o .e 0xe38184e38197e38299e3828fe3828b 12363 .e) 0xe38184e3819be38188e381b2e38299 12367 (.o .e 0xe38184e3819de38186e3828de38186 12371 .e)))) 0xe38184e3819fe38199e38299e38289 12375 (.o (.o (.o (.o (.o .e 0xe38184e381a1e3828ae38285e38186 12383 .e) 0xe38184e381a3e38197e38285e38293 12385 .e) 0xe38184e381a3e381bbe3829ae38186 12391 (.o .e 0xe38184e38284e3818be38299e3828b 12413 .e)) 0xe38184e3828ae3818fe38299e381a1 12419 (.o (.o .e 0xe38184e38293e38197e38287e38186 12432 .e) 0xe38186e3818be381b8e38299e3828b 12439 (.o .e 0xe38186e3818fe38289e38184e381aa 12441 .e))) 0xe38186e38193e38299e3818be38199 12448 (.o (.o (.o (.o .e 0xe38186e381a1e38182e3828fe3819b 12459 .e) 0xe38186e381a1e3818be38299e3828f 12460 .e) 0xe38186e381a3e3819fe38188e3828b 12465 (.o .e 0xe38186e381a4e3818fe38197e38184 12464 .e)) 0xe38186e381aae38199e38299e3818f 12470 (.o (.o .e 0xe38186e381b5e38299e38191e38299 12474 .e) 0xe38186e38289e3818fe38299e381a1 12482 (.o .e 0xe38186e3828ae38182e38191e38299 12484 .e)))))
def mnemonicTree465 : Tree := .o mnemonicTree463 0xe18492e185a9e18490e185a6e186af 16327 mnemonicTree464
def mnemonicTree466 : Tree := .o mnemonicTree462 0xe18490e185a9e186bce18485e185a9 16151 mnemonicTree465
def mnemonicTree467 : Tree := .o (.o (.o (.o (.o (.o (.o .e 0xe38188e38184e3818de38287e38186 12499 .e) 0xe38188e38184e381b5e38299e38293 12502 .e) 0xe38188e381bbe38186e381bee3818d 12514 (.o .e 0xe38188e38293e38191e38299e3818d 12525 .e)) 0xe38188e38293e38197e38285e38186 12526 (.o (.o (.o .e 0xe38188e38293e3819be38299e381a4 12527 .e) 0xe38188e38293e381a1e38287e38186 12529 .e) 0xe3818ae38184e3818be38191e3828b 12531 (.o .e 0xe3818ae38186e381b8e38299e38184 12541 .e))) 0xe3818ae3818de38299e381aae38186 12553 (.o (.o (.o (.o .e 0xe3818ae38197e38299e3818de38299 12568 .e) 0xe3818ae38197e38299e38195e38293 12569 .e) 0xe3818ae3819fe3818be38299e38184 12573 (.o .e 0xe3818ae3819fe38299e38284e3818b 12575 .e)) 0xe3818ae381a6e38299e3818be38191 12579 (.o (.o .e 0xe3818ae381a8e38197e38282e381ae 12580 .e) 0xe3818ae381a8e381aae38197e38184 12581 (.o .e 0xe3818ae381afe38299e38195e38293 12584 .e)))) 0xe3818ae38282e38184e381a6e38299 12587 (.o (.o (.o (.o (.o .e 0xe3818ae38284e38286e381b2e38299 12592 .e) 0xe3818ae38288e381bbe38299e38199 12593 .e) 0xe3818ae38289e38293e3819fe38299 12594 (.o .e 0xe3818ae38293e3818be38299e3818f 12596 .e)) 0xe3818ae38293e3819fe38299e38293 12600 (.o (.o (.o .e 0xe3818ae38293e381a1e38285e38186 12601 .e) 0xe3818be38184e3819be38299e38293 12611 .e) 0xe3818be381bee381bbe38299e38193 12646 (.o .e 0xe3818be38281e3828ce3818ae38293 12647 .e))) 0xe3818be38288e38186e381b2e38299 12649 (.o (.o (.o (.o .e 0xe3818be38299e38184e38191e38293 12606 .e) 0xe3818be38299e38184e38193e38186 12607 .e) 0xe3818be38299e38184e381b8e3818d 12617 (.o .e 0xe3818be38299e38184e38289e38184 12620 .e)) 0xe3818be38299e3819de38299e38186 12631 (.o (.o .e 0xe3818be38299e381a1e38287e38186 12634 .e) 0xe3818be38299e381a3e38193e38186 12636 (.o .e 0xe3818be38299e381a3e38195e38293 12637 .e))))) 0xe3818de3818be38293e38197e38283 12676 (.o (.o (.o (.o (.o (.o .e 0xe3818de3818fe381afe38299e3828a 12678 .e) 0xe3818de3818fe38289e38191e38299 12679 .e) 0xe3818de38191e38293e3819be38184 12680 (.o .e 0xe3818de38195e38289e3818de38299 12687 .e)) 0xe3818de381ace38193e38299e38197 12712 (.o (.o (.o .e 0xe3818de381b2e38299e38197e38184 12717 .e) 0xe3818de38293e38197e38299e38287 12745 .e) 0xe3818de38299e381a3e381a1e3828a 12703 (.o .e 0xe3818de38299e38293e38184e3828d 12743 .e))) 0xe3818fe38186e3818fe38299e38293 12751 (.o (.o (.o (.o .e 0xe3818fe38195e381afe38299e381aa 12764 .e) 0xe3818fe3819fe38299e38195e3828b 12773 .e) 0xe3818fe381a4e3828de3818fe38299 12779 (.o .e 0xe3818fe381a8e38186e381a6e38293 12780 .e)) 0xe3818fe381bfe38182e3828fe3819b 12786 (.o (.o .e 0xe3818fe381bfe3819fe381a6e3828b 12787 .e) 0xe3818fe38284e3818fe38197e38287 12789 (.o .e 0xe3818fe38289e381b8e38299e3828b 12791 .e)))) 0xe3818fe38299e38186e3819be38184 12753 (.o (.o (.o (.o (.o .e 0xe3818fe38299e38186e3819fe38289 12755 .e) 0xe3818fe38299e381a3e38199e3828a 12778 .e) 0xe3818fe38299e38293e3818be38293 12796 (.o .e 0xe3818fe38299e38293e3819fe38184 12798 .e)) 0xe38191e3818ae3828ae38282e381ae 12811 (.o (.o .e 0xe38191e38197e38193e38299e38280 12825 .e) 0xe38191e381a4e38197e38299e38287 12835 (.o .e 0xe38191e381a8e381afe38299e38199 12843 .e))) 0xe38191e381b5e38299e3818be38184 12853 (.o (.o (.o (.o .e 0xe38191e38293e38191e38299e38293 12868 .e) 0xe38191e38293e38197e38285e38186 12871 .e) 0xe38191e38299e3818de381a1e38293 12815 (.o .e 0xe38191e38299e3818de381a8e381a4 12816 .e)) 0xe38191e38299e3818de38284e3818f 12818 (.o (.o .e 0xe38191e38299e38195e38299e38184 12821 .e) 0xe38191e38299e38195e38299e38293 12823 (.o .e 0xe38191e38299e381a4e3828ce38184 12840 .e)))))
def mnemonicTree468 : Tree := .o (.o (.o (.o (.o (.o (.o .e 0xe38191e38299e381bbe38299e3818f 12854 .e) 0xe38191e38299e38293e3819de38186 12873 .e) 0xe38193e38184e381b2e38299e381a8 12887 (.o .e 0xe38193e38186e381a8e38299e38186 12904 .e)) 0xe38193e3819de3819fe38299e381a6 12932 (.o (.o (.o .e 0xe38193e381a4e381afe38299e38293 12939 .e) 0xe38193e381a8e3818be38299e38289 12943 .e) 0xe38193e381aae38193e38299e381aa 12947 (.o .e 0xe38193e381b2e381a4e38197e38299 12953 .e))) 0xe38193e381bbe38299e3828ce3828b 12956 (.o (.o (.o (.o .e 0xe38193e38280e3818de38299e38193 12962 .e) 0xe38193e38293e38197e38285e38186 12981 .e) 0xe38193e38293e3819fe38299e381a6 12983 (.o .e 0xe38193e38293e381b2e38299e381ab 12986 .e)) 0xe38193e38293e381bbe3829ae38293 12987 (.o (.o .e 0xe38193e38299e38186e38191e38184 12893 .e) 0xe38193e38299e38186e3819be38184 12898 (.o .e 0xe38193e38299e38186e381bbe38186 12907 .e)))) 0xe38193e38299e38186e381bee38293 12908 (.o (.o (.o (.o (.o .e 0xe38193e38299e3818be38299e381a4 12914 .e) 0xe38193e38299e381bee38199e3828a 12959 .e) 0xe38195e3818de38299e38287e38186 13009 (.o .e 0xe38195e38199e38299e3818be3828b 13015 .e)) 0xe38195e381a3e3818de38287e3818f 13022 (.o (.o .e 0xe38195e381a4e38197e38299e38293 13024 .e) 0xe38195e381a4e3819fe381afe38299 13026 (.o .e 0xe38195e381a4e381bee38184e38282 13027 .e))) 0xe38195e381b2e38299e38197e38184 13036 (.o (.o (.o (.o .e 0xe38195e381bfe3819fe38299e3828c 13042 .e) 0xe38195e38293e3818de38283e3818f 13055 .e) 0xe38195e38299e38184e38188e3818d 12992 (.o .e 0xe38195e38299e38184e3819fe3818f 12999 .e)) 0xe38195e38299e381a3e3819de38186 13025 (.o (.o .e 0xe38195e38299e381a4e3818ae38293 13019 .e) 0xe38195e38299e38293e38197e38287 13058 (.o .e 0xe38197e38182e38195e381a3e381a6 13068 .e))))) 0xe38197e381aae3818de38299e3828c 13095 (.o (.o (.o (.o (.o (.o .e 0xe38197e381afe38299e3818be3828a 13103 .e) 0xe38197e38283e3818fe381bbe38186 13126 .e) 0xe38197e38283e38195e38299e38184 13129 (.o .e 0xe38197e38283e381a1e38287e38186 13134 .e)) 0xe38197e38283e381a3e3818de38293 13135 (.o (.o (.o .e 0xe38197e38284e3818fe38197e38287 13125 .e) 0xe38197e38285e3818fe381afe3818f 13141 .e) 0xe38197e38285e381a3e3819be3818d 13143 (.o .e 0xe38197e38285e38289e381afe38299 13145 .e))) 0xe38197e38287e38186e3818be38184 13147 (.o (.o (.o (.o .e 0xe38197e38287e3818fe3819fe3818f 13148 .e) 0xe38197e38287e381a3e38191e38293 13149 .e) 0xe38197e38287e381a8e38299e38186 13150 (.o .e 0xe38197e38289e381b8e38299e3828b 13153 .e)) 0xe38197e38299e3819fe38299e38184 13080 (.o (.o .e 0xe38197e38299e381a8e38299e38186 13094 .e) 0xe38197e38299e381b5e38299e38293 13109 (.o .e 0xe38197e38299e38280e38197e38287 13117 .e)))) 0xe38197e38299e38285e38197e38293 13142 (.o (.o (.o (.o (.o .e 0xe38199e38186e3818be38299e3818f 13169 .e) 0xe38199e38186e38197e38299e381a4 13170 .e) 0xe38199e3818ae381a8e38299e3828a 13172 (.o .e 0xe38199e38199e38299e38197e38184 13180 .e)) 0xe38199e38293e3819be38299e38293 13209 (.o (.o .e 0xe38199e38293e381bbe3829ae38186 13210 .e) 0xe38199e38299e381a3e38197e3828a 13184 (.o .e 0xe38199e38299e381b2e38287e38186 13192 .e))) 0xe3819be38182e381b5e38299e38289 13211 (.o (.o (.o (.o .e 0xe3819be38184e38191e38299e38293 13213 .e) 0xe3819be3818be38184e3818be38293 13217 .e) 0xe3819be381a3e3818de38283e3818f 13228 (.o .e 0xe3819be381a3e381afe3829ae38293 13236 .e)) 0xe3819be381a4e3819de38299e3818f 13233 (.o (.o .e 0xe3819be381a4e3819fe38299e38293 13234 .e) 0xe3819be381a4e381a6e38299e38293 13235 (.o .e 0xe3819be381a4e381b5e38299e38293 13238 .e)))))
def mnemonicTree469 : Tree := .o mnemonicTree467 0xe38191e38299e381a8e38299e3818f 12842 mnemonicTree468
def mnemonicTree470 : Tree := .o (.o (.o (.o (.o (.o (.o .e 0xe3819be38293e381a1e38287e38186 13265 .e) 0xe3819be38293e381afe3829ae38184 13270 .e) 0xe3819be38299e38293e38182e3818f 13251 (.o .e 0xe3819be38299e38293e38193e38299 13258 .e)) 0xe3819be38299e38293e381b5e38299 13271 (.o (.o (.o .e 0xe3819de38186e3819fe38299e38293 13290 .e) 0xe3819de3819fe38299e381a6e3828b 13306 .e) 0xe3819de381a8e3818be38299e3828f 13315 (.o .e 0xe3819de381a8e381a4e38299e38289 13316 .e))) 0xe3819de38288e3818be3819be38299 13328 (.o (.o (.o (.o .e 0xe3819de38293e38195e38299e38184 13333 .e) 0xe3819de38293e3819de38299e3818f 13335 .e) 0xe3819de38293e381a1e38287e38186 13336 (.o .e 0xe3819de38299e38293e381b2e38299 13337 .e)) 0xe3819fe38184e3818fe38299e38186 13347 (.o (.o .e 0xe3819fe38184e38195e38299e38184 13350 .e) 0xe3819fe38184e381a1e38287e38186 13356 (.o .e 0xe3819fe38184e3828ae38287e3818f 13374 .e)))) 0xe3819fe38197e38195e38299e38293 13389 (.o (.o (.o (.o (.o .e 0xe3819fe3819de3818be38299e3828c 13393 .e) 0xe3819fe3819fe38299e38197e38184 13396 .e) 0xe3819fe381a1e381afe38299e381aa 13398 (.o .e 0xe3819fe381aae381afe38299e3819f 13406 .e)) 0xe3819fe3828fe38280e3828ce3828b 13431 (.o (.o (.o .e 0xe3819fe38293e381b2e3829ae38293 13451 .e) 0xe3819fe38299e38184e38199e3818d 13352 .e) 0xe3819fe38299e38184e3819fe38184 13355 (.o .e 0xe3819fe38299e381a3e3818be38184 13399 .e))) 0xe3819fe38299e381a3e3819fe38184 13403 (.o (.o (.o (.o .e 0xe3819fe38299e38293e38182e381a4 13432 .e) 0xe3819fe38299e38293e3819be38184 13441 .e) 0xe3819fe38299e38293e381ade381a4 13449 (.o .e 0xe3819fe38299e38293e3828ce381a4 13455 .e)) 0xe381a1e38191e38184e38199e38299 13467 (.o (.o .e 0xe381a1e38197e3828ae38287e38186 13472 .e) 0xe381a1e381a4e38197e38299e38287 13478 (.o .e 0xe381a1e381b8e38184e3819be38293 13485 .e))))) 0xe381a1e381bfe381a8e38299e3828d 13489 (.o (.o (.o (.o (.o (.o .e 0xe381a1e38281e38184e381a8e38299 13490 .e) 0xe381a1e38286e3828ae38287e3818f 13493 .e) 0xe381a1e3828ae3818be38299e381bf 13498 (.o .e 0xe381a4e381aae3818be38299e3828b 13522 .e)) 0xe381a4e381ade381a4e38299e381ad 13524 (.o (.o (.o .e 0xe381a4e381bee38289e381aae38184 13527 .e) 0xe381a6e38184e381b2e38287e38186 13552 .e) 0xe381a6e38184e381bbe38299e38186 13554 (.o .e 0xe381a6e381a1e3818be38299e38184 13564 .e))) 0xe381a6e381a4e3818be38299e3818f 13566 (.o (.o (.o (.o .e 0xe381a6e381a4e381a4e38299e3818d 13567 .e) 0xe381a6e381a4e381bbe38299e38186 13569 .e) 0xe381a6e381ace3818fe38299e38184 13573 (.o .e 0xe381a6e381b5e38299e3818fe3828d 13576 .e)) 0xe381a6e381bbe381a8e38299e3818d 13578 (.o (.o .e 0xe381a6e381bfe38197e38299e3818b 13582 .e) 0xe381a6e381bfe38284e38191e38299 13583 (.o .e 0xe381a6e38293e38193e38299e3818f 13594 .e)))) 0xe381a6e38293e381b5e3829ae38289 13602 (.o (.o (.o (.o (.o .e 0xe381a6e38299e381a3e381afe3829a 13568 .e) 0xe381a6e38299e381ace3818be38188 13571 .e) 0xe381a6e38299e38293e38182e381a4 13588 (.o .e 0xe381a8e38186e3818de38285e38186 13611 .e)) 0xe381a8e38186e38280e3818de38299 13614 (.o (.o .e 0xe381a8e3818de381a8e38299e3818d 13623 .e) 0xe381a8e3818fe38197e38285e38186 13625 (.o .e 0xe381a8e3818fe381b8e38299e381a4 13628 .e))) 0xe381a8e38197e38287e3818be38293 13633 (.o (.o (.o (.o .e 0xe381a8e381a3e3818de38285e38186 13637 .e) 0xe381a8e381a4e3819be38299e38293 13639 .e) 0xe381a8e381a4e381abe38285e38186 13640 (.o .e 0xe381a8e381a8e381aee38188e3828b 13642 .e)) 0xe381a8e381a8e38299e38191e3828b 13641 (.o (.o .e 0xe381a8e38282e3819fe38299e381a1 13652 .e) 0xe381a8e38299e38186e3818be38293 13610 (.o .e 0xe381a8e38299e38186e3818fe38299 13612 .e)))))
def mnemonicTree471 : Tree := .o (.o (.o (.o (.o (.o (.o .e 0xe381aae381a4e38284e38199e381bf 13672 .e) 0xe381aae381abe38193e38299e381a8 13674 .e) 0xe381aae3828fe381a8e381b2e38299 13690 (.o .e 0xe381aae3828fe381afe38299e3828a 13691 .e)) 0xe381abe38184e3818be38299e3819f 13693 (.o (.o (.o .e 0xe381abe381a3e38197e38287e3818f 13712 .e) 0xe381abe38285e38186e38184e38293 13721 .e) 0xe381abe3828ae38293e38197e38283 13722 (.o .e 0xe381abe38293e38191e38299e38293 13727 .e))) 0xe381abe38293e38199e38299e38186 13729 (.o (.o (.o (.o .e 0xe381ace38184e3818fe3818de38299 13740 .e) 0xe381ace381bee38188e381b2e38299 13746 .e) 0xe381ace38293e381a1e38283e3818f 13749 (.o .e 0xe381ade38199e38193e38299e38199 13760 .e)) 0xe381ade3819de381b8e38299e3828b 13761 (.o (.o .e 0xe381ade381a4e3819de38299e38186 13765 .e) 0xe381ade381b5e38299e3819de3818f 13767 (.o .e 0xe381ade38293e381a1e38283e3818f 13786 .e)))) 0xe381ade38293e381b5e38299e381a4 13789 (.o (.o (.o (.o (.o .e 0xe381ade38293e3828ae38287e38186 13791 .e) 0xe381aee3818ae381a4e38299e381be 13794 .e) 0xe381aee38193e3818de38299e3828a 13797 (.o .e 0xe381aee381a1e381bbe381a8e38299 13804 .e)) 0xe381afe381a3e381a1e38285e38186 13860 (.o (.o .e 0xe381afe381a3e381bbe3829ae38186 13863 .e) 0xe381afe381b5e38299e38289e38197 13867 (.o .e 0xe381afe381bfe3818be38299e3818d 13868 .e))) 0xe381afe3828de38186e38183e38293 13874 (.o (.o (.o (.o .e 0xe381afe38293e3818de38287e38186 13880 .e) 0xe381afe38293e3819fe38299e38293 13885 .e) 0xe381afe38293e381b5e38299e38293 13892 (.o .e 0xe381afe38293e381b8e3829ae38293 13893 .e)) 0xe381afe38299e38182e38195e38293 13820 (.o (.o .e 0xe381afe3829ae3819de38193e38293 13846 .e) 0xe381b2e381a4e3819be38299e38293 13924 (.o .e 0xe381b2e381a8e38193e38299e381bf 13929 .e))))) 0xe381b2e381aae381bee381a4e3828a 13930 (.o (.o (.o (.o (.o (.o .e 0xe381b2e38281e38197e38299e38197 13941 .e) 0xe381b2e38289e3818be38299e381aa 13946 .e) 0xe381b2e3828be38284e38199e381bf 13951 (.o .e 0xe381b2e38293e381afe3829ae38293 13963 .e)) 0xe381b2e38299e38287e38186e3818d 13945 (.o (.o (.o .e 0xe381b2e3829ae381a3e3819fe3828a 13925 .e) 0xe381b2e3829ae381a3e381a1e3828a 13926 .e) 0xe381b5e3818fe38195e38299e381a4 13976 (.o .e 0xe381b5e38299e3819fe381abe3818f 13986 .e))) 0xe381b5e38299e381a8e38299e38186 13994 (.o (.o (.o (.o .e 0xe381b5e38299e38293e3818fe38299 14011 .e) 0xe381b5e38299e38293e3819be3818d 14013 .e) 0xe381b8e38184e3818be38299e38184 14018 (.o .e 0xe381b8e38184e38191e38299e38293 14020 .e)) 0xe381b8e38299e381abe38184e3828d 14032 (.o (.o .e 0xe381bbe381a3e3818de38287e3818f 14069 .e) 0xe381bbe381a8e38293e381a8e38299 14072 (.o .e 0xe381bee38293e3819de38299e3818f 14104 .e)))) 0xe381bfe38197e38299e3818be38184 14114 (.o (.o (.o (.o (.o .e 0xe381bfe381aee3818be38299e38199 14127 .e) 0xe381bfe38293e3819de38299e3818f 14135 .e) 0xe38280e3818de38299e381a1e38283 14143 (.o .e 0xe38280e38195e381bbe38299e3828b 14146 .e)) 0xe38280e38197e38182e381a4e38184 14147 (.o (.o .e 0xe38280e38197e38299e38285e38293 14149 .e) 0xe38281e38184e3818de38287e3818f 14169 (.o .e 0xe38281e38184e381b5e38299e381a4 14173 .e))) 0xe38281e38293e381a8e38299e38186 14185 (.o (.o (.o (.o .e 0xe38282e38293e3819fe38299e38184 14196 .e) 0xe38284e38199e3819fe3828de38186 14202 .e) 0xe38284e381a3e381afe3829ae3828a 14209 (.o .e 0xe38284e38284e38193e38197e38184 14212 .e)) 0xe38284e3828fe38289e3818be38184 14214 (.o (.o .e 0xe38288e38186e3818de38285e38186 14232 .e) 0xe38288e38186e381a1e38188e38293 14235 (.o .e 0xe38288e3818fe381bbe38299e38186 14240 .e)))))
def mnemonicTree472 : Tree := .o mnemonicTree470 0xe381aae38193e38186e381a8e38299 13668 mnemonicTree471
def mnemonicTree473 : Tree := .o mnemonicTree469 0xe3819be38293e38191e38299e38293 13257 mnemonicTree472
def mnemonicTree474 : Tree := .o mnemonicTree466 0xe38186e38293e381a8e38299e38186 12496 mnemonicTree473
def mnemonicTree475 : Tree := .o mnemonicTree459 0xe1848ce185a5e186b8e18489e185b5 15845 mnemonicTree474
def mnemonicTree476 : Tree := .o (.o (.o (.o (.o (.o (.o .e 0xe38288e3828de38193e381b5e38299 14253 .e) 0xe38289e3818fe3818be38299e3818d 14256 .e) 0xe3828ae3818fe3818fe38299e38293 14270 (.o .e 0xe3828ae38287e3818fe381a1e38283 14284 .e)) 0xe3828be38199e381afe38299e38293 14294 (.o (.o (.o .e 0xe3828ce38184e381bbe38299e38186 14301 .e) 0xe3828ce3818de3819fe38299e38184 14303 .e) 0xe3828ce38293e38197e38285e38186 14308 (.o .e 0xe3828ce38293e3819de38299e3818f 14309 .e))) 0xe3828de38186e38197e38299e38293 14313 (.o (.o (.o (.o .e 0xe3828de38197e38299e38186e38289 14317 .e) 0xe3828de38293e381b5e38299e38293 14325 .e) 0xe3828fe38197e38299e381bee38197 14332 (.o .e 0xe3828fe38199e3828ce38282e381ae 14333 .e)) 0xe18480e185a1e1848be185b5e18483e185b3 14348 (.o (.o .e 0xe18480e185a1e186abe18480e185a7e186a8 14356 .e) 0xe18480e185a1e186abe18489e185a5e186b8 14358 (.o .e 0xe18480e185a1e186abe1848ce185a1e186bc 14359 .e)))) 0xe18480e185a1e186abe1848ce185a5e186b8 14360 (.o (.o (.o (.o (.o .e 0xe18480e185a1e186abe18491e185a1e186ab 14361 .e) 0xe18480e185a1e186afe18483e185b3e186bc 14362 .e) 0xe18480e185a1e186afe18489e185a2e186a8 14364 (.o .e 0xe18480e185a1e186afe1848ce185b3e186bc 14365 .e)) 0xe18480e185a1e186b7e18480e185a1e186a8 14366 (.o (.o (.o .e 0xe18480e185a1e186b7e1848ce185a5e186bc 14371 .e) 0xe18480e185a1e186bce18482e185a1e186b7 14373 .e) 0xe18480e185a1e186bce18483e185a1e186bc 14374 (.o .e 0xe18480e185a1e186bce18487e185a7e186ab 14377 .e))) 0xe18480e185a1e186bce18487e185aee186a8 14378 (.o (.o (.o (.o .e 0xe18480e185a2e18480e185aee18485e185b5 14387 .e) 0xe18480e185a2e18482e185a1e18485e185b5 14388 .e) 0xe18480e185a5e186a8e1848ce185a5e186bc 14400 (.o .e 0xe18480e185a5e186abe18480e185a1e186bc 14401 .e)) 0xe18480e185a5e186abe18486e185aee186af 14402 (.o (.o .e 0xe18480e185a5e186abe18489e185a5e186af 14403 .e) 0xe18480e185a5e186abe1848ee185aee186a8 14405 (.o .e 0xe18480e185a5e186afe1848be185b3e186b7 14406 .e))))) 0xe18480e185a7e186afe18480e185aee186a8 14414 (.o (.o (.o (.o (.o (.o .e 0xe18480e185a7e186afe18485e185a9e186ab 14415 .e) 0xe18480e185a7e186afe18489e185a5e186a8 14416 .e) 0xe18480e185a7e186afe18489e185b3e186bc 14417 (.o .e 0xe18480e185a7e186afe18489e185b5e186b7 14418 .e)) 0xe18480e185a7e186afe1848ce185a5e186bc 14419 (.o (.o (.o .e 0xe18480e185a7e186afe18492e185a9e186ab 14420 .e) 0xe18480e185a7e186bce18485e185a7e186a8 14424 .e) 0xe18480e185a7e186bce1848be185a7e186bc 14428 (.o .e 0xe18480e185a7e186bce1848ce185a2e186bc 14430 .e))) 0xe18480e185a7e186bce1848ee185a1e186af 14433 (.o (.o (.o (.o .e 0xe18480e185a7e186bce18492e185a3e186bc 14435 .e) 0xe18480e185a7e186bce18492e185a5e186b7 14436 .e) 0xe18480e185a9e18480e185aee18485e185a7 14447 (.o .e 0xe18480e185a9e186a8e18489e185b5e186a8 14460 .e)) 0xe18480e185a9e186afe18486e185a9e186a8 14461 (.o (.o .e 0xe18480e185a9e186bce18480e185a1e186ab 14464 .e) 0xe18480e185a9e186bce18480e185a7e186a8 14466 (.o .e 0xe18480e185a9e186bce18480e185aee186ab 14467 .e)))) 0xe18480e185a9e186bce18480e185b3e186b8 14468 (.o (.o (.o (.o (.o .e 0xe18480e185a9e186bce18483e185a9e186bc 14470 .e) 0xe18480e185a9e186bce18489e185b5e186a8 14474 .e) 0xe18480e185a9e186bce1848be185a5e186b8 14475 (.o .e 0xe18480e185a9e186bce1848be185a7e186ab 14476 .e)) 0xe18480e185a9e186bce1848be185afe186ab 14477 (.o (.o .e 0xe18480e185a9e186bce1848ce185a1e186bc 14478 .e) 0xe18480e185a9e186bce1848ee185a2e186a8 14480 (.o .e 0xe18480e185a9e186bce18490e185a9e186bc 14481 .e))) 0xe18480e185a9e186bce18492e185a1e186bc 14483 (.o (.o (.o (.o .e 0xe18480e185aae186abe18480e185a2e186a8 14490 .e) 0xe18480e185aae186abe18480e185aae186bc 14492 .e) 0xe18480e185aae186abe18482e185a7e186b7 14493 (.o .e 0xe18480e185aae186abe18485e185a1e186b7 14494 .e)) 0xe18480e185aae186abe18485e185a7e186ab 14495 (.o (.o .e 0xe18480e185aae186abe18489e185b3e186b8 14497 .e) 0xe18480e185aae186abe18489e185b5e186b7 14498 (.o .e 0xe18480e185aae186abe1848ce185a5e186b7 14499 .e)))))
def mnemonicTree477 : Tree := .o (.o (.o (.o (.o (.o (.o .e 0xe18480e185aae186bce18480e185a7e186bc 14501 .e) 0xe18480e185aae186bce1848ce185a1e186bc 14503 .e) 0xe18480e185ade18480e185aae18489e185a5 14507 (.o .e 0xe18480e185aee186a8e18485e185b5e186b8 14533 .e)) 0xe18480e185aee186a8e18486e185aee186af 14534 (.o (.o (.o .e 0xe18480e185aee186a8e18486e185b5e186ab 14535 .e) 0xe18480e185aee186a8e1848be185aae186bc 14538 .e) 0xe18480e185aee186a8e1848ce185a5e186a8 14539 (.o .e 0xe18480e185aee186abe1848be185b5e186ab 14544 .e))) 0xe18480e185b2e186abe18492e185a7e186bc 14553 (.o (.o (.o (.o .e 0xe18480e185b3e18485e185a5e18482e185a1 14557 .e) 0xe18480e185b3e186a8e18487e185a9e186a8 14563 .e) 0xe18480e185b3e186abe18487e185a9e186ab 14570 (.o .e 0xe18480e185b3e186abe1848be185afe186ab 14571 .e)) 0xe18480e185b3e186abe1848be185b2e186a8 14572 (.o (.o .e 0xe18480e185b3e186b7e18482e185a7e186ab 14578 .e) 0xe18480e185b3e186b7e1848be185a2e186a8 14580 (.o .e 0xe18480e185b3e186b7e1848be185a7e186ab 14581 .e)))) 0xe18480e185b5e186abe18480e185b3e186b8 14609 (.o (.o (.o (.o (.o .e 0xe18480e185b5e186abe1848ce185a1e186bc 14610 .e) 0xe18480e185b5e186b7e18487e185a1e186b8 14612 .e) 0xe18481e185a1e186b7e18488e185a1e186a8 14616 (.o .e 0xe18481e185a5e186b8e1848ce185b5e186af 14619 .e)) 0xe18481e185a9e186bee1848be185b5e18781 14621 (.o (.o (.o .e 0xe18482e185a1e18486e185a5e1848ce185b5 14624 .e) 0xe18482e185a1e186a8e1848be185a7e186b8 14628 .e) 0xe18482e185a1e186abe18487e185a1e186bc 14629 (.o .e 0xe18482e185a1e186b7e18489e185a1e186ab 14636 .e))) 0xe18482e185a1e186b7e18491e185a7e186ab 14638 (.o (.o (.o (.o .e 0xe18482e185a1e18780e18486e185a1e186af 14641 .e) 0xe18482e185a2e186bae18486e185aee186af 14647 .e) 0xe18482e185a2e186bce18483e185a9e186bc 14648 (.o .e 0xe18482e185a2e186bce18486e185a7e186ab 14649 .e)) 0xe18482e185a2e186bce18487e185a1e186bc 14650 (.o (.o .e 0xe18482e185a9e186a8e1848be185b3e186b7 14658 .e) 0xe18482e185a9e186abe18486e185aee186ab 14662 (.o .e 0xe18482e185a9e186abe1848ce185a2e186bc 14663 .e))))) 0xe18482e185a9e186bce18483e185a1e186b7 14666 (.o (.o (.o (.o (.o (.o .e 0xe18482e185a9e186bce18486e185b5e186ab 14667 .e) 0xe18482e185a9e186bce1848be185a5e186b8 14669 .e) 0xe18482e185a9e186bce1848ce185a1e186bc 14670 (.o .e 0xe18482e185a9e186bce1848ee185a9e186ab 14671 .e)) 0xe18482e185aee186abe18486e185aee186af 14674 (.o (.o (.o .e 0xe18482e185aee186abe1848ae185a5e186b8 14675 .e) 0xe18482e185b3e186bce18485e185a7e186a8 14680 .e) 0xe18483e185a1e186abe18480e185a9e186af 14687 (.o .e 0xe18483e185a1e186abe18483e185a9e186a8 14688 .e))) 0xe18483e185a1e186abe18486e185a1e186ba 14689 (.o (.o (.o (.o .e 0xe18483e185a1e186abe18489e185aee186ab 14690 .e) 0xe18483e185a1e186abe1848ce185a5e186b7 14693 .e) 0xe18483e185a1e186abe18491e185a7e186ab 14696 (.o .e 0xe18483e185a1e186abe18491e185aee186bc 14697 .e)) 0xe18483e185a1e186afe18480e185a3e186af 14698 (.o (.o .e 0xe18483e185a1e186afe18485e185a7e186a8 14700 .e) 0xe18483e185a1e186b7e18483e185a1e186bc 14703 (.o .e 0xe18483e185a1e186b7e1848be185b5e186b7 14706 .e)))) 0xe18483e185a1e186b8e18487e185a7e186ab 14707 (.o (.o (.o (.o (.o .e 0xe18483e185a1e186b8e1848ce185a1e186bc 14708 .e) 0xe18483e185a1e186bce18480e185b3e186ab 14709 .e) 0xe18483e185a1e186bce1848ce185a1e186bc 14712 (.o .e 0xe18483e185a2e18480e185b2e18486e185a9 14713 .e)) 0xe18483e185a2e18483e185a9e18489e185b5 14717 (.o (.o .e 0xe18483e185a6e1848be185b5e18490e185b3 14738 .e) 0xe18483e185a9e18483e185a2e1848ee185a6 14739 (.o .e 0xe18483e185a9e1848ce185a1e18480e185b5 14747 .e))) 0xe18483e185a9e1848ce185a5e18492e185b5 14748 (.o (.o (.o (.o .e 0xe18483e185a9e186a8e18480e185a1e186b7 14752 .e) 0xe18483e185a9e186a8e18485e185b5e186b8 14753 .e) 0xe18483e185a9e186a8e1848be185b5e186af 14755 (.o .e 0xe18483e185b1e186bae18489e185a1e186ab 14759 .e)) 0xe18486e185a1e18482e185aee18485e185a1 14761 (.o (.o .e 0xe18486e185a1e18486e185aee18485e185b5 14766 .e) 0xe18486e185a1e18489e185a1e1848ce185b5 14767 (.o .e 0xe18486e185a1e1848be185b5e1848fe185b3 14772 .e)))))
def mnemonicTree478 : Tree := .o mnemonicTree476 0xe18480e185aae186abe1848ee185a1e186af 14500 mnemonicTree477
def mnemonicTree479 : Tree := .o (.o (.o (.o (.o (.o (.o .e 0xe18486e185a1e186abe18482e185a1e186b7 14781 .e) 0xe18486e185a1e186abe1848be185a3e186a8 14784 .e) 0xe18486e185a1e186abe1848be185b5e186af 14785 (.o .e 0xe18486e185a1e186abe1848ce185a5e186b7 14786 .e)) 0xe18486e185a1e186abe1848ce185a9e186a8 14787 (.o (.o (.o .e 0xe18486e185a1e186afe1848ae185b3e186b7 14791 .e) 0xe18486e185a7e18482e185b3e18485e185b5 14808 .e) 0xe18486e185a7e186abe18483e185a1e186b7 14810 (.o .e 0xe18486e185a7e186bce18483e185a1e186ab 14812 .e))) 0xe18486e185a7e186bce18485e185a7e186bc 14813 (.o (.o (.o (.o .e 0xe18486e185a7e186bce1848ce185a5e186af 14816 .e) 0xe18486e185a7e186bce1848ee185b5e186bc 14817 .e) 0xe18486e185a7e186bce18492e185a1e186b7 14818 (.o .e 0xe18486e185a9e18482e185b5e18490e185a5 14820 .e)) 0xe18486e185a9e1848ce185a9e18485e185b5 14827 (.o (.o .e 0xe18486e185a9e186a8e18485e185a9e186a8 14831 .e) 0xe18486e185a9e186a8e18489e185aee186b7 14834 (.o .e 0xe18486e185a9e186a8e1848ce185a5e186a8 14835 .e)))) 0xe18486e185a9e186b7e18489e185a1e186af 14840 (.o (.o (.o (.o (.o .e 0xe18486e185a9e186b7e18489e185a9e186a8 14841 .e) 0xe18486e185a9e186b7e1848ce185b5e186ba 14842 .e) 0xe18486e185a9e186b7e18490e185a9e186bc 14843 (.o .e 0xe18486e185aee18483e185a5e1848be185b1 14847 .e)) 0xe18486e185aee1848ce185b5e18480e185a2 14855 (.o (.o (.o .e 0xe18486e185aee186abe18483e185b3e186a8 14858 .e) 0xe18486e185aee186abe18487e185a5e186b8 14859 .e) 0xe18486e185aee186abe18492e185a1e186a8 14862 (.o .e 0xe18486e185aee186afe18480e185a5e186ab 14865 .e))) 0xe18486e185aee186afe18480e185a7e186af 14866 (.o (.o (.o (.o .e 0xe18486e185aee186afe18485e185a9e186ab 14868 .e) 0xe18486e185aee186afe1848be185b3e186b7 14870 .e) 0xe18486e185aee186afe1848ce185b5e186af 14871 (.o .e 0xe18486e185b5e18483e185b5e1848be185a5 14874 .e)) 0xe18486e185b5e186abe18480e185a1e186ab 14883 (.o (.o .e 0xe18486e185b5e186abe1848ce185a9e186a8 14884 .e) 0xe18486e185b5e186aee1848be185b3e186b7 14886 (.o .e 0xe18487e185a1e18480e185a1e1848ce185b5 14890 .e))))) 0xe18487e185a1e18480e185aee18482e185b5 14891 (.o (.o (.o (.o (.o (.o .e 0xe18487e185a1e18482e185a1e18482e185a1 14892 .e) 0xe18487e185a1e186abe18486e185a1e186af 14904 .e) 0xe18487e185a1e186abe18487e185a1e186af 14905 (.o .e 0xe18487e185a1e186abe18489e185a5e186bc 14906 .e)) 0xe18487e185a1e186abe1848be185b3e186bc 14907 (.o (.o (.o .e 0xe18487e185a1e186abe1848ce185a1e186bc 14908 .e) 0xe18487e185a1e186abe1848ce185aee186a8 14909 .e) 0xe18487e185a1e186abe1848ee185a1e186ab 14911 (.o .e 0xe18487e185a1e186aee1848ee185b5e186b7 14912 .e))) 0xe18487e185a1e186afe18480e185a7e186ab 14915 (.o (.o (.o (.o .e 0xe18487e185a1e186afe18483e185a1e186af 14916 .e) 0xe18487e185a1e186afe18486e185a9e186a8 14918 .e) 0xe18487e185a1e186afe18489e185a2e186bc 14920 (.o .e 0xe18487e185a1e186afe1848be185b3e186b7 14921 .e)) 0xe18487e185a1e186afe1848ce185a5e186ab 14923 (.o (.o .e 0xe18487e185a1e186afe18490e185a9e186b8 14924 .e) 0xe18487e185a1e186b8e18486e185a1e186ba 14928 (.o .e 0xe18487e185a1e186b8e18489e185a1e186bc 14929 .e)))) 0xe18487e185a1e186b8e18489e185a9e18780 14930 (.o (.o (.o (.o (.o .e 0xe18487e185a1e186bce18480e185b3e186b7 14931 .e) 0xe18487e185a1e186bce18486e185a7e186ab 14932 .e) 0xe18487e185a1e186bce18486e185aee186ab 14933 (.o .e 0xe18487e185a1e186bce18487e185a5e186b8 14935 .e)) 0xe18487e185a1e186bce18489e185a9e186bc 14936 (.o (.o .e 0xe18487e185a1e186bce18489e185b5e186a8 14937 .e) 0xe18487e185a1e186bce1848be185a1e186ab 14938 (.o .e 0xe18487e185a1e186bce1848be185aee186af 14939 .e))) 0xe18487e185a1e186bce18492e185a1e186a8 14941 (.o (.o (.o (.o .e 0xe18487e185a1e186bce18492e185a3e186bc 14943 .e) 0xe18487e185a2e186a8e18489e185a2e186a8 14949 .e) 0xe18487e185a2e186a8e18489e185a5e186bc 14950 (.o .e 0xe18487e185a2e186a8e1848be185b5e186ab 14951 .e)) 0xe18487e185a5e186abe1848be185a7e186a8 14958 (.o (.o .e 0xe18487e185a5e186afe18480e185b3e186b7 14961 .e) 0xe18487e185a5e186b7e1848be185b5e186ab 14965 (.o .e 0xe18487e185a5e186b8e18485e185b2e186af 14967 .e)))))
def mnemonicTree480 : Tree := .o (.o (.o (.o (.o (.o (.o .e 0xe18487e185a5e186b8e1848ce185a5e186a8 14969 .e) 0xe18487e185a5e186b8e1848ee185b5e186a8 14970 .e) 0xe18487e185a7e186abe18480e185a7e186bc 14973 (.o .e 0xe18487e185a7e186abe18483e185a9e186bc 14974 .e)) 0xe18487e185a7e186abe18486e185a7e186bc 14975 (.o (.o (.o .e 0xe18487e185a7e186abe18489e185b5e186ab 14976 .e) 0xe18487e185a7e186afe18486e185a7e186bc 14980 .e) 0xe18487e185a7e186afe1848be185b5e186af 14981 (.o .e 0xe18487e185a7e186bce18489e185b5e186af 14982 .e))) 0xe18487e185a7e186bce1848be185afe186ab 14984 (.o (.o (.o (.o .e 0xe18487e185a9e18482e185a5e18489e185b3 14986 .e) 0xe18487e185a9e1848ce185a1e18480e185b5 14992 .e) 0xe18487e185a9e186a8e18489e185b3e186b8 15002 (.o .e 0xe18487e185a9e186a9e1848be185b3e186b7 15003 .e)) 0xe18487e185a9e186abe18489e185a5e186bc 15008 (.o (.o .e 0xe18487e185a9e186abe1848be185b5e186ab 15009 .e) 0xe18487e185a9e186abe1848ce185b5e186af 15010 (.o .e 0xe18487e185a9e186afe18491e185a6e186ab 15011 .e)))) 0xe18487e185aee186a8e18492e185a1e186ab 15035 (.o (.o (.o (.o (.o .e 0xe18487e185aee186abe18485e185a3e186bc 15037 .e) 0xe18487e185aee186abe18486e185a7e186bc 15039 .e) 0xe18487e185aee186abe18489e185a5e186a8 15040 (.o .e 0xe18487e185aee186abe18491e185b5e186af 15043 .e)) 0xe18487e185aee186afe18481e185a9e186be 15048 (.o (.o .e 0xe18487e185aee186afe18486e185a1e186ab 15049 .e) 0xe18487e185aee186afe18487e185a5e186b8 15050 (.o .e 0xe18487e185aee186afe18487e185b5e186be 15051 .e))) 0xe18487e185aee186afe1848be185a1e186ab 15052 (.o (.o (.o (.o .e 0xe18487e185aee186afe18492e185a2e186bc 15054 .e) 0xe18487e185b5e18483e185b5e1848be185a9 15060 .e) 0xe18487e185b5e18485e185a9e18489e185a9 15061 (.o .e 0xe18487e185b5e186afe18483e185b5e186bc 15073 .e)) 0xe18487e185b5e186bae18486e185aee186af 15074 (.o (.o .e 0xe18487e185b5e186bee18481e185a1e186af 15077 .e) 0xe18489e185a1e18482e185a1e1848be185b5 15083 (.o .e 0xe18489e185a1e18490e185aee18485e185b5 15105 .e))))) 0xe18489e185a1e186abe18480e185b5e186af 15107 (.o (.o (.o (.o (.o (.o .e 0xe18489e185a1e186abe1848be185a5e186b8 15109 .e) 0xe18489e185a1e186abe1848ee185a2e186a8 15110 .e) 0xe18489e185a1e186afe18485e185b5e186b7 15111 (.o .e 0xe18489e185a1e186afe1848be185b5e186ab 15112 .e)) 0xe18489e185a1e186afe1848de185a1e186a8 15113 (.o (.o (.o .e 0xe18489e185a1e186b7e18480e185aee186a8 15115 .e) 0xe18489e185a1e186b7e18489e185b5e186b8 15116 .e) 0xe18489e185a1e186b7e1848be185afe186af 15117 (.o .e 0xe18489e185a1e186b7e1848ee185a9e186ab 15118 .e))) 0xe18489e185a1e186bce18480e185aae186ab 15119 (.o (.o (.o (.o .e 0xe18489e185a1e186bce18480e185b3e186b7 15120 .e) 0xe18489e185a1e186bce18489e185a1e186bc 15124 .e) 0xe18489e185a1e186bce18489e185b5e186a8 15125 (.o .e 0xe18489e185a1e186bce1848be185a5e186b8 15126 .e)) 0xe18489e185a1e186bce1848be185b5e186ab 15127 (.o (.o .e 0xe18489e185a1e186bce1848ce185a5e186b7 15129 .e) 0xe18489e185a1e186bce18491e185aee186b7 15134 (.o .e 0xe18489e185a1e186bce18492e185aae186bc 15135 .e)))) 0xe18489e185a2e186a8e18481e185a1e186af 15137 (.o (.o (.o (.o (.o .e 0xe18489e185a2e186bce18480e185a1e186a8 15139 .e) 0xe18489e185a2e186bce18486e185a7e186bc 15140 .e) 0xe18489e185a2e186bce18486e185aee186af 15141 (.o .e 0xe18489e185a2e186bce18489e185a1e186ab 15143 .e)) 0xe18489e185a2e186bce18489e185a5e186ab 15144 (.o (.o .e 0xe18489e185a2e186bce18489e185b5e186ab 15145 .e) 0xe18489e185a2e186bce1848be185b5e186af 15146 (.o .e 0xe18489e185a2e186bce18492e185aae186af 15147 .e))) 0xe18489e185a5e18487e185b5e18489e185b3 15152 (.o (.o (.o (.o .e 0xe18489e185a5e186abe18486e185aee186af 15162 .e) 0xe18489e185a5e186abe18489e185a2e186bc 15164 .e) 0xe18489e185a5e186abe1848be185afe186ab 15166 (.o .e 0xe18489e185a5e186abe1848ce185a1e186bc 15167 .e)) 0xe18489e185a5e186abe1848ce185a5e186ab 15168 (.o (.o .e 0xe18489e185a5e186abe18490e185a2e186a8 15169 .e) 0xe18489e185a5e186afe18482e185a1e186af 15172 (.o .e 0xe18489e185a5e186afe18486e185a7e186bc 15174 .e)))))
def mnemonicTree481 : Tree := .o mnemonicTree479 0xe18487e185a5e186b8e1848be185afe186ab 14968 mnemonicTree480
def mnemonicTree482 : Tree := .o mnemonicTree478 0xe18486e185a1e186a8e18489e185a1e186bc 14780 mnemonicTree481
def mnemonicTree483 : Tree := .o (.o (.o (.o (.o (.o (.o .e 0xe18489e185a5e186afe18490e185a1e186bc 15179 .e) 0xe18489e185a5e186bce18480e185a9e186bc 15181 .e) 0xe18489e185a5e186bce18483e185a1e186bc 15182 (.o .e 0xe18489e185a5e186bce18486e185a7e186bc 15183 .e)) 0xe18489e185a5e186bce18487e185a7e186af 15184 (.o (.o (.o .e 0xe18489e185a5e186bce1848be185b5e186ab 15185 .e) 0xe18489e185a5e186bce1848ce185a1e186bc 15186 .e) 0xe18489e185a5e186bce1848ce185a5e186a8 15187 (.o .e 0xe18489e185a5e186bce1848ce185b5e186af 15188 .e))) 0xe18489e185a5e186bce18492e185a1e186b7 15189 (.o (.o (.o (.o .e 0xe18489e185a6e18486e185b5e18482e185a1 15191 .e) 0xe18489e185a9e18480e185b2e18486e185a9 15199 .e) 0xe18489e185a9e18482e185a1e18480e185b5 15202 (.o .e 0xe18489e185a9e1848be185a1e18480e185aa 15209 .e)) 0xe18489e185a9e186a8e18483e185a1e186b7 15218 (.o (.o .e 0xe18489e185a9e186a8e1848be185a9e186ba 15220 .e) 0xe18489e185a9e186abe18480e185b5e186af 15222 (.o .e 0xe18489e185a9e186abe18482e185b5e186b7 15224 .e)))) 0xe18489e185a9e186abe18483e185b3e186bc 15225 (.o (.o (.o (.o (.o .e 0xe18489e185a9e186abe18486e185a9e186a8 15226 .e) 0xe18489e185a9e186abe18488e185a7e186a8 15227 .e) 0xe18489e185a9e186abe18489e185b5e186af 15228 (.o .e 0xe18489e185a9e186abe1848ce185b5e186af 15229 .e)) 0xe18489e185a9e186abe18490e185a9e186b8 15230 (.o (.o (.o .e 0xe18489e185a9e186bce18491e185a7e186ab 15236 .e) 0xe18489e185ace18480e185a9e18480e185b5 15237 .e) 0xe18489e185aee18489e185b5e18485e185a9 15250 (.o .e 0xe18489e185aee18492e185aae18480e185b5 15262 .e))) 0xe18489e185aee186abe18480e185a1e186ab 15266 (.o (.o (.o (.o .e 0xe18489e185aee186afe18487e185a7e186bc 15272 .e) 0xe18489e185aee186afe1848ce185b5e186b8 15273 .e) 0xe18489e185b3e18489e185b3e18485e185a9 15277 (.o .e 0xe18489e185b3e1848be185b0e18490e185a5 15279 .e)) 0xe18489e185b3e1848be185b1e1848ee185b5 15280 (.o (.o .e 0xe18489e185b3e18491e185a9e1848ee185b3 15284 .e) 0xe18489e185b3e186afe1848de185a5e186a8 15285 (.o .e 0xe18489e185b3e186afe18491e185b3e186b7 15286 .e))))) 0xe18489e185b3e186b8e18480e185aae186ab 15287 (.o (.o (.o (.o (.o (.o .e 0xe18489e185b3e186bce18480e185a2e186a8 15289 .e) 0xe18489e185b3e186bce1848ce185b5e186ab 15293 .e) 0xe18489e185b5e18485e185b5e1848ce185b3 15300 (.o .e 0xe18489e185b5e18487e185aee18486e185a9 15303 .e)) 0xe18489e185b5e186a8e18483e185a1e186bc 15324 (.o (.o (.o .e 0xe18489e185b5e186a8e18485e185a3e186bc 15325 .e) 0xe18489e185b5e186a8e18486e185aee186af 15327 .e) 0xe18489e185b5e186a8e18488e185a1e186bc 15328 (.o .e 0xe18489e185b5e186a8e18490e185a1e186a8 15332 .e))) 0xe18489e185b5e186a8e18491e185aee186b7 15333 (.o (.o (.o (.o .e 0xe18489e185b5e186abe18482e185a7e186b7 15336 .e) 0xe18489e185b5e186abe18486e185aee186ab 15337 .e) 0xe18489e185b5e186abe18487e185a1e186af 15338 (.o .e 0xe18489e185b5e186abe1848be185ade186bc 15342 .e)) 0xe18489e185b5e186abe1848ee185a5e186bc 15344 (.o (.o .e 0xe18489e185b5e186afe18480e185a1e186b7 15347 .e) 0xe18489e185b5e186afe18485e185a7e186a8 15349 (.o .e 0xe18489e185b5e186afe18486e185a1e186bc 15351 .e)))) 0xe18489e185b5e186afe18489e185b3e186b8 15353 (.o (.o (.o (.o (.o .e 0xe18489e185b5e186afe1848ce185a1e186bc 15355 .e) 0xe18489e185b5e186afe1848ce185a5e186bc 15356 .e) 0xe18489e185b5e186afe1848ee185a5e186ab 15358 (.o .e 0xe18489e185b5e186afe1848fe185a5e186ba 15360 .e)) 0xe18489e185b5e186afe18492e185a5e186b7 15363 (.o (.o .e 0xe18489e185b5e186afe18492e185a7e186ab 15364 .e) 0xe18489e185b5e186b7e1848ce185a1e186bc 15368 (.o .e 0xe18489e185b5e186b7e1848ce185a5e186bc 15369 .e))) 0xe18489e185b5e186b7e18491e185a1e186ab 15370 (.o (.o (.o (.o .e 0xe1848be185a1e18480e185a1e1848ae185b5 15374 .e) 0xe1848be185a1e18489e185b5e1848be185a1 15380 .e) 0xe1848be185a1e1848ce185a5e1848ae185b5 15382 (.o .e 0xe1848be185a1e18491e185a1e18490e185b3 15386 .e)) 0xe1848be185a1e186a8e18486e185a9e186bc 15392 (.o (.o .e 0xe1848be185a1e186abe18480e185a7e186bc 15395 .e) 0xe1848be185a1e186abe18482e185a7e186bc 15398 (.o .e 0xe1848be185a1e186abe18483e185a9e186bc 15399 .e)))))
def mnemonicTree484 : Tree := .o (.o (.o (.o (.o (.o (.o .e 0xe1848be185a1e186b7e1848fe185a5e186ba 15406 .e) 0xe1848be185a1e186b8e18485e185a7e186a8 15407 .e) 0xe1848be185a1e18781e18482e185a1e186af 15408 (.o .e 0xe1848be185a1e18781e18486e185aee186ab 15409 .e)) 0xe1848be185a2e186afe18487e185a5e186b7 15413 (.o (.o (.o .e 0xe1848be185a3e186a8e18480e185a1e186ab 15417 .e) 0xe1848be185a3e186a8e18480e185aee186a8 15418 .e) 0xe1848be185a3e186a8e18489e185a9e186a8 15419 (.o .e 0xe1848be185a3e186a8e1848ce185a5e186b7 15421 .e))) 0xe1848be185a3e186a8e18491e185aee186b7 15422 (.o (.o (.o (.o .e 0xe1848be185a3e186bce18482e185a7e186b7 15424 .e) 0xe1848be185a3e186bce18485e185a7e186a8 15425 .e) 0xe1848be185a3e186bce18486e185a1e186af 15426 (.o .e 0xe1848be185a5e186abe18483e185a5e186a8 15438 .e)) 0xe1848be185a5e186abe18485e185a9e186ab 15439 (.o (.o .e 0xe1848be185a5e186afe18480e185aee186af 15441 .e) 0xe1848be185a5e186afe18485e185b3e186ab 15442 (.o .e 0xe1848be185a5e186afe1848be185b3e186b7 15443 .e)))) 0xe1848be185a5e186afe18491e185b5e186ba 15444 (.o (.o (.o (.o (.o .e 0xe1848be185a5e186b8e1848ce185a9e186bc 15447 .e) 0xe1848be185a5e186bce18486e185a1e186bc 15450 .e) 0xe1848be185a6e18482e185a5e1848ce185b5 15453 (.o .e 0xe1848be185a6e186abe1848ce185b5e186ab 15455 .e)) 0xe1848be185a7e186a8e18492e185a1e186af 15477 (.o (.o .e 0xe1848be185a7e186abe18480e185a7e186af 15478 .e) 0xe1848be185a7e186abe18480e185b3e186a8 15480 (.o .e 0xe1848be185a7e186abe18485e185a1e186a8 15482 .e))) 0xe1848be185a7e186abe18489e185a5e186af 15483 (.o (.o (.o (.o .e 0xe1848be185a7e186abe18489e185a9e186a8 15485 .e) 0xe1848be185a7e186abe18489e185b3e186b8 15486 .e) 0xe1848be185a7e186abe1848be185b5e186ab 15489 (.o .e 0xe1848be185a7e186abe1848ce185a1e186bc 15490 .e)) 0xe1848be185a7e186abe1848ee185aee186af 15492 (.o (.o .e 0xe1848be185a7e186abe18491e185b5e186af 15493 .e) 0xe1848be185a7e186abe18492e185a1e186b8 15494 (.o .e 0xe1848be185a7e186afe1848ce185a5e186bc 15500 .e))))) 0xe1848be185a7e186afe18492e185b3e186af 15502 (.o (.o (.o (.o (.o (.o .e 0xe1848be185a7e186bce18480e185aee186a8 15505 .e) 0xe1848be185a7e186bce18482e185a1e186b7 15506 .e) 0xe1848be185a7e186bce18489e185a1e186bc 15507 (.o .e 0xe1848be185a7e186bce1848be185a3e186bc 15508 .e)) 0xe1848be185a7e186bce1848be185a7e186a8 15509 (.o (.o (.o .e 0xe1848be185a7e186bce1848be185aee186bc 15510 .e) 0xe1848be185a7e186bce18492e185a3e186bc 15513 .e) 0xe1848be185a7e186bce18492e185a9e186ab 15514 (.o .e 0xe1848be185a7e18781e18487e185a1e186bc 15517 .e))) 0xe1848be185a7e18781e1848ce185b5e186b8 15518 (.o (.o (.o (.o .e 0xe1848be185a8e186bae18482e185a1e186af 15533 .e) 0xe1848be185a9e18485e185a9e1848ce185b5 15538 .e) 0xe1848be185a9e18491e185a6e18485e185a1 15547 (.o .e 0xe1848be185a9e18492e185b5e18485e185a7 15549 .e)) 0xe1848be185a9e186a8e18489e185a1e186bc 15550 (.o (.o .e 0xe1848be185a9e186abe18480e185a1e186bd 15552 .e) 0xe1848be185a9e186abe18486e185a9e186b7 15554 (.o .e 0xe1848be185a9e186abe18490e185a9e186bc 15556 .e)))) 0xe1848be185aae186abe18489e185a5e186bc 15563 (.o (.o (.o (.o (.o .e 0xe1848be185aae186abe1848ce185a5e186ab 15564 .e) 0xe1848be185ace186abe18487e185a1e186af 15576 .e) 0xe1848be185ace186abe18489e185a9e186ab 15577 (.o .e 0xe1848be185ace186abe1848de185a9e186a8 15578 .e)) 0xe1848be185aee186abe18483e185a9e186bc 15593 (.o (.o .e 0xe1848be185aee186abe18486e185a7e186bc 15594 .e) 0xe1848be185aee186abe18487e185a1e186ab 15595 (.o .e 0xe1848be185aee186abe1848ce185a5e186ab 15596 .e))) 0xe1848be185aee186abe18492e185a2e186bc 15597 (.o (.o (.o (.o .e 0xe1848be185aee186afe18489e185a1e186ab 15598 .e) 0xe1848be185aee186afe1848be185b3e186b7 15599 .e) 0xe1848be185aee186bae1848be185b3e186b7 15602 (.o .e 0xe1848be185afe186abe1848be185b5e186ab 15608 .e)) 0xe1848be185afe186abe1848ce185a1e186bc 15609 (.o (.o .e 0xe1848be185afe186afe18480e185b3e186b8 15611 .e) 0xe1848be185b0e1848be185b5e18490e185a5 15615 (.o .e 0xe1848be185b2e186a8e18480e185aee186ab 15633 .e)))))
def mnemonicTree485 : Tree := .o mnemonicTree483 0xe1848be185a1e186abe18487e185a1e186bc 15400 mnemonicTree484
def mnemonicTree486 : Tree := .o (.o (.o (.o (.o (.o (.o .e 0xe1848be185b2e186a8e18489e185b5e186b8 15635 .e) 0xe1848be185b3e186abe18492e185a2e186bc 15637 .e) 0xe1848be185b3e186b7e18485e185a7e186a8 15638 (.o .e 0xe1848be185b3e186b7e18487e185a1e186ab 15640 .e)) 0xe1848be185b3e186b7e18489e185a5e186bc 15641 (.o (.o (.o .e 0xe1848be185b3e186b7e18489e185b5e186a8 15642 .e) 0xe1848be185b3e186b7e1848be185a1e186a8 15643 .e) 0xe1848be185b4e1848be185ace18485e185a9 15651 (.o .e 0xe1848be185b5e18483e185a2e18485e185a9 15660 .e))) 0xe1848be185b5e1848be185a3e18480e185b5 15674 (.o (.o (.o (.o .e 0xe1848be185b5e186abe18480e185a1e186ab 15685 .e) 0xe1848be185b5e186abe18480e185a7e186a8 15686 .e) 0xe1848be185b5e186abe18480e185a9e186bc 15687 (.o .e 0xe1848be185b5e186abe18480e185b3e186ab 15689 .e)) 0xe1848be185b5e186abe18486e185aee186af 15693 (.o (.o .e 0xe1848be185b5e186abe18489e185a2e186bc 15694 .e) 0xe1848be185b5e186abe1848be185a7e186ab 15696 (.o .e 0xe1848be185b5e186abe1848be185afe186ab 15697 .e)))) 0xe1848be185b5e186abe1848ce185a9e186bc 15699 (.o (.o (.o (.o (.o .e 0xe1848be185b5e186abe1848ee185a5e186ab 15700 .e) 0xe1848be185b5e186abe18492e185a7e186bc 15704 .e) 0xe1848be185b5e186afe18480e185a9e186b8 15705 (.o .e 0xe1848be185b5e186afe18483e185a1e186ab 15707 .e)) 0xe1848be185b5e186afe18483e185b3e186bc 15709 (.o (.o (.o .e 0xe1848be185b5e186afe18487e185a1e186ab 15710 .e) 0xe1848be185b5e186afe18487e185a9e186ab 15711 .e) 0xe1848be185b5e186afe18489e185a1e186bc 15713 (.o .e 0xe1848be185b5e186afe18489e185a2e186bc 15714 .e))) 0xe1848be185b5e186afe18489e185a9e186ab 15715 (.o (.o (.o (.o .e 0xe1848be185b5e186afe1848be185afe186af 15717 .e) 0xe1848be185b5e186afe1848ce185a5e186bc 15718 .e) 0xe1848be185b5e186afe1848ce185a9e186bc 15719 (.o .e 0xe1848be185b5e186afe1848de185b5e186a8 15721 .e)) 0xe1848be185b5e186afe18492e185a2e186bc 15724 (.o (.o .e 0xe1848be185b5e186b7e18480e185b3e186b7 15726 .e) 0xe1848be185b5e186b8e18485e185a7e186a8 15729 (.o .e 0xe1848be185b5e186b8e18486e185a1e186ba 15730 .e))))) 0xe1848be185b5e186b8e18489e185aee186af 15732 (.o (.o (.o (.o (.o (.o .e 0xe1848be185b5e186b8e1848be185afe186ab 15734 .e) 0xe1848be185b5e186b8e1848ce185a1e186bc 15735 .e) 0xe1848be185b5e186b8e18492e185a1e186a8 15736 (.o .e 0xe1848ce185a1e186a8e18482e185a7e186ab 15753 .e)) 0xe1848ce185a1e186a8e18489e185a5e186bc 15754 (.o (.o (.o .e 0xe1848ce185a1e186a8e1848be185a5e186b8 15755 .e) 0xe1848ce185a1e186a8e1848be185ade186bc 15756 .e) 0xe1848ce185a1e186a8e18491e185aee186b7 15758 (.o .e 0xe1848ce185a1e186abe18484e185b3e186a8 15760 .e))) 0xe1848ce185a1e186afe18486e185a9e186ba 15762 (.o (.o (.o (.o .e 0xe1848ce185a1e186b7e18481e185a1e186ab 15763 .e) 0xe1848ce185a1e186b7e1848be185a9e186ba 15766 .e) 0xe1848ce185a1e186bce18480e185aae186ab 15769 (.o .e 0xe1848ce185a1e186bce18480e185aee186ab 15770 .e)) 0xe1848ce185a1e186bce18486e185a7e186ab 15776 (.o (.o .e 0xe1848ce185a1e186bce18489e185b5e186a8 15782 .e) 0xe1848ce185a1e186bce1848be185b5e186ab 15784 (.o .e 0xe1848ce185a1e186bce1848ce185a5e186b7 15785 .e)))) 0xe1848ce185a2e1848ee185a2e18480e185b5 15794 (.o (.o (.o (.o (.o .e 0xe1848ce185a5e18480e185a9e18485e185b5 15799 .e) 0xe1848ce185a5e186a8e18480e185b3e186a8 15808 .e) 0xe1848ce185a5e186a8e18489e185a5e186bc 15810 (.o .e 0xe1848ce185a5e186a8e1848be185ade186bc 15811 .e)) 0xe1848ce185a5e186a8e1848be185b3e186bc 15812 (.o (.o .e 0xe1848ce185a5e186abe18480e185a9e186bc 15814 .e) 0xe1848ce185a5e186abe18483e185a1e186af 15816 (.o .e 0xe1848ce185a5e186abe18486e185a1e186bc 15818 .e))) 0xe1848ce185a5e186abe18486e185aee186ab 15819 (.o (.o (.o (.o .e 0xe1848ce185a5e186abe18487e185a1e186ab 15820 .e) 0xe1848ce185a5e186abe1848be185ade186bc 15824 .e) 0xe1848ce185a5e186abe1848ce185a2e186bc 15826 (.o .e 0xe1848ce185a5e186abe1848ee185a5e186af 15828 .e)) 0xe1848ce185a5e186abe18490e185a9e186bc 15830 (.o (.o .e 0xe1848ce185a5e186afe18486e185a1e186bc 15834 .e) 0xe1848ce185a5e186afe18487e185a1e186ab 15835 (.o .e 0xe1848ce185a5e186afe1848be185a3e186a8 15836 .e)))))
def mnemonicTree487 : Tree := .o (.o (.o (.o (.o (.o (.o .e 0xe1848ce185a5e186b7e18489e185b5e186b7 15840 .e) 0xe1848ce185a5e186b7e1848be185afe186ab 15841 .e) 0xe1848ce185a5e186b7e1848ce185a5e186b7 15842 (.o .e 0xe1848ce185a5e186b8e18480e185b3e186ab 15844 .e)) 0xe1848ce185a5e186b8e1848ee185a9e186a8 15846 (.o (.o (.o .e 0xe1848ce185a5e186bce18486e185a1e186af 15852 .e) 0xe1848ce185a5e186bce18486e185a7e186ab 15853 .e) 0xe1848ce185a5e186bce18486e185aee186ab 15854 (.o .e 0xe1848ce185a5e186bce18489e185a1e186bc 15859 .e))) 0xe1848ce185a5e186bce18489e185a5e186bc 15860 (.o (.o (.o (.o .e 0xe1848ce185a5e186bce1848be185afe186ab 15862 .e) 0xe1848ce185a5e186bce1848ce185a1e186bc 15863 .e) 0xe1848ce185a6e18483e185a2e18485e185a9 15869 (.o .e 0xe1848ce185a6e1848ce185aee18483e185a9 15877 .e)) 0xe1848ce185a9e18486e185b5e18485e185ad 15886 (.o (.o .e 0xe1848ce185a9e186afe1848be185a5e186b8 15895 .e) 0xe1848ce185a9e186afe1848be185b3e186b7 15896 (.o .e 0xe1848ce185a9e186bce1848ce185a9e186bc 15902 .e)))) 0xe1848ce185a9e186bce18492e185a1e186b8 15903 (.o (.o (.o (.o (.o .e 0xe1848ce185aee18486e185a5e18482e185b5 15909 .e) 0xe1848ce185aee186bce18480e185a1e186ab 15925 .e) 0xe1848ce185aee186bce18480e185aee186a8 15927 (.o .e 0xe1848ce185aee186bce18482e185a7e186ab 15928 .e)) 0xe1848ce185aee186bce18483e185a1e186ab 15929 (.o (.o .e 0xe1848ce185aee186bce18483e185a9e186a8 15930 .e) 0xe1848ce185aee186bce18487e185a1e186ab 15931 (.o .e 0xe1848ce185aee186bce18489e185aee186ab 15935 .e))) 0xe1848ce185aee186bce1848be185a1e186bc 15936 (.o (.o (.o (.o .e 0xe1848ce185b3e186a8e18489e185a5e186a8 15939 .e) 0xe1848ce185b3e186bce18480e185afe186ab 15944 .e) 0xe1848ce185b3e186bce18489e185a1e186bc 15945 (.o .e 0xe1848ce185b5e1848be185aee18480e185a2 15960 .e)) 0xe1848ce185b5e186a8e18489e185a5e186ab 15966 (.o (.o .e 0xe1848ce185b5e186a8e1848be185a5e186b8 15967 .e) 0xe1848ce185b5e186a8e1848be185afe186ab 15968 (.o .e 0xe1848ce185b5e186a8e1848ce185a1e186bc 15969 .e))))) 0xe1848ce185b5e186abe18480e185b3e186b8 15970 (.o (.o (.o (.o (.o (.o .e 0xe1848ce185b5e186abe18483e185a9e186bc 15971 .e) 0xe1848ce185b5e186abe1848ee185a1e186af 15976 .e) 0xe1848ce185b5e186abe1848ee185aee186af 15977 (.o .e 0xe1848ce185b5e186abe18490e185a9e186bc 15978 .e)) 0xe1848ce185b5e186abe18492e185a2e186bc 15979 (.o (.o (.o .e 0xe1848ce185b5e186afe18486e185aee186ab 15980 .e) 0xe1848ce185b5e186afe18487e185a7e186bc 15981 .e) 0xe1848ce185b5e186b7e1848ce185a1e186a8 15983 (.o .e 0xe1848ce185b5e186b8e18483e185a1e186ab 15984 .e))) 0xe1848ce185b5e186b8e1848be185a1e186ab 15985 (.o (.o (.o (.o .e 0xe1848ce185b5e186b8e1848ce185aee186bc 15986 .e) 0xe1848de185b5e18481e185a5e18480e185b5 15988 .e) 0xe1848ee185a1e18485e185a1e18485e185b5 15990 (.o .e 0xe1848ee185a1e186a8e18480e185a1e186a8 15996 .e)) 0xe1848ee185a1e186abe18486e185aee186af 15997 (.o (.o .e 0xe1848ee185a1e186abe18489e185a5e186bc 15998 .e) 0xe1848ee185a1e186b7e18489e185a5e186a8 16002 (.o .e 0xe1848ee185a1e186bae1848ce185a1e186ab 16006 .e)))) 0xe1848ee185a1e186bce18486e185aee186ab 16010 (.o (.o (.o (.o (.o .e 0xe1848ee185a1e186bce18487e185a1e186a9 16011 .e) 0xe1848ee185a1e186bce1848ce185a1e186a8 16012 .e) 0xe1848ee185a2e186a8e18487e185a1e186bc 16017 (.o .e 0xe1848ee185a2e186a8e18489e185a1e186bc 16018 .e)) 0xe1848ee185a2e186a8e1848be185b5e186b7 16019 (.o (.o .e 0xe1848ee185a5e186abe18480e185aee186a8 16023 .e) 0xe1848ee185a5e186abe18483e185aee186bc 16024 (.o .e 0xe1848ee185a5e186abe1848ce185a1e186bc 16025 .e))) 0xe1848ee185a5e186afe18492e185a1e186a8 16030 (.o (.o (.o (.o .e 0xe1848ee185a5e186bae18482e185a1e186af 16031 .e) 0xe1848ee185a5e186bce18482e185a7e186ab 16033 .e) 0xe1848ee185a5e186bce1848ee185aee186ab 16036 (.o .e 0xe1848ee185a9e186bae18487e185aee186af 16054 .e)) 0xe1848ee185a9e186bce18480e185a1e186a8 16055 (.o (.o .e 0xe1848ee185a9e186bce1848ce185a1e186bc 16057 .e) 0xe1848ee185aae186afe1848be185a7e186bc 16058 (.o .e 0xe1848ee185aee186afe18480e185b3e186ab 16074 .e)))))
def mnemonicTree488 : Tree := .o mnemonicTree486 0xe1848ce185a5e186b7e18480e185a5e186b7 15838 mnemonicTree487
def mnemonicTree489 : Tree := .o mnemonicTree485 0xe1848be185b2e186a8e18489e185a1e186bc 15634 mnemonicTree488
def mnemonicTree490 : Tree := .o mnemonicTree482 0xe18489e185a5e186afe18486e185aee186ab 15175 mnemonicTree489
def mnemonicTree491 : Tree := .o (.o (.o (.o (.o (.o (.o .e 0xe1848ee185aee186afe18489e185a1e186ab 16076 .e) 0xe1848ee185aee186afe18489e185b5e186ab 16077 .e) 0xe1848ee185aee186afe1848be185a7e186ab 16078 (.o .e 0xe1848ee185aee186afe1848be185b5e186b8 16079 .e)) 0xe1848ee185aee186afe1848ce185a1e186bc 16080 (.o (.o (.o .e 0xe1848ee185aee186afe18491e185a1e186ab 16081 .e) 0xe1848ee185aee186bce18480e185a7e186a8 16082 .e) 0xe1848ee185aee186bce18483e185a9e186af 16084 (.o .e 0xe1848ee185b5e186abe1848ee185a5e186a8 16092 .e))) 0xe1848ee185b5e186afe18489e185b5e186b8 16093 (.o (.o (.o (.o .e 0xe1848ee185b5e186afe1848be185afe186af 16094 .e) 0xe1848ee185b5e186afe18491e185a1e186ab 16095 .e) 0xe1848ee185b5e186b7e18486e185aee186a8 16097 (.o .e 0xe1848ee185b5e186b7e18489e185b5e186af 16098 .e)) 0xe1848ee185b5e186bae18489e185a9e186af 16099 (.o (.o .e 0xe1848ee185b5e186bce1848ee185a1e186ab 16100 .e) 0xe1848fe185a1e18486e185a6e18485e185a1 16101 (.o .e 0xe1848fe185a9e18481e185b5e18485e185b5 16111 .e)))) 0xe1848fe185a9e18486e185b5e18483e185b5 16112 (.o (.o (.o (.o (.o .e 0xe1848fe185aee18483e185a6e18490e185a1 16118 .e) 0xe1848fe185b3e186abe18480e185b5e186af 16120 .e) 0xe1848fe185b3e186abe18484e185a1e186af 16121 (.o .e 0xe1848fe185b3e186abe1848be185b5e186af 16125 .e)) 0xe1848fe185b3e186abe1848ce185a5e186af 16126 (.o (.o (.o .e 0xe1848fe185b3e186afe18485e185a5e186b8 16128 .e) 0xe18490e185a1e1848ce185a1e18480e185b5 16131 .e) 0xe18490e185a1e186abe18489e185a2e186bc 16134 (.o .e 0xe18490e185a6e18482e185b5e18489e185b3 16142 .e))) 0xe18490e185a6e18489e185b3e18490e185b3 16143 (.o (.o (.o (.o .e 0xe18490e185a9e18486e185a1e18490e185a9 16147 .e) 0xe18490e185a9e186bce18489e185b5e186ab 16152 .e) 0xe18490e185a9e186bce1848be185a7e186a8 16153 (.o .e 0xe18490e185a9e186bce1848be185b5e186af 16154 .e)) 0xe18490e185a9e186bce1848ce185a1e186bc 16155 (.o (.o .e 0xe18490e185a9e186bce1848ce185b3e186bc 16157 .e) 0xe18490e185a9e186bce18492e185a1e186b8 16158 (.o .e 0xe18490e185b3e186a8e18480e185b3e186b8 16165 .e))))) 0xe18490e185b3e186a8e18487e185a7e186af 16166 (.o (.o (.o (.o (.o (.o .e 0xe18490e185b3e186a8e18489e185a5e186bc 16167 .e) 0xe18490e185b3e186a8e1848ce185b5e186bc 16169 .e) 0xe18490e185b5e18489e185a7e1848ee185b3 16172 (.o .e 0xe18491e185a1e186abe18480e185a7e186af 16176 .e)) 0xe18491e185a1e186abe18483e185a1e186ab 16177 (.o (.o (.o .e 0xe18491e185a1e186afe18489e185b5e186b8 16180 .e) 0xe18491e185a1e186afe1848be185afe186af 16181 .e) 0xe18491e185a1e186b8e18489e185a9e186bc 16182 (.o .e 0xe18491e185a7e186abe18480e185a7e186ab 16189 .e))) 0xe18491e185a7e186bce18480e185b2e186ab 16194 (.o (.o (.o (.o .e 0xe18491e185a7e186bce18489e185a2e186bc 16195 .e) 0xe18491e185a7e186bce1848be185a3e186bc 16197 .e) 0xe18491e185a7e186bce1848be185b5e186af 16198 (.o .e 0xe18491e185a9e18489e185b3e18490e185a5 16200 .e)) 0xe18491e185aee186b7e18486e185a9e186a8 16208 (.o (.o .e 0xe18491e185aee186b7e1848ce185b5e186af 16209 .e) 0xe18491e185aee186bce18480e185a7e186bc 16210 (.o .e 0xe18491e185aee186bce18489e185a9e186a8 16211 .e)))) 0xe18491e185aee186bce18489e185b3e186b8 16212 (.o (.o (.o (.o (.o .e 0xe18491e185b5e1848be185a1e18482e185a9 16218 .e) 0xe18491e185b5e186afe18485e185b3e186b7 16219 .e) 0xe18491e185b5e186afe18490e185a9e186bc 16223 (.o .e 0xe18492e185a1e186a8e18480e185b3e186b8 16239 .e)) 0xe18492e185a1e186a8e18482e185a7e186ab 16241 (.o (.o .e 0xe18492e185a1e186a8e18485e185a7e186a8 16242 .e) 0xe18492e185a1e186a8e18487e185a5e186ab 16243 (.o .e 0xe18492e185a1e186a8e18489e185a2e186bc 16246 .e))) 0xe18492e185a1e186a8e18489e185aee186af 16247 (.o (.o (.o (.o .e 0xe18492e185a1e186a8e18489e185b3e186b8 16248 .e) 0xe18492e185a1e186a8e1848be185afe186ab 16250 .e) 0xe18492e185a1e186a8e1848ce185a5e186b7 16253 (.o .e 0xe18492e185a1e186abe18480e185b3e186af 16255 .e)) 0xe18492e185a1e186abe18482e185a1e186bd 16257 (.o (.o .e 0xe18492e185a1e186abe18482e185aee186ab 16258 .e) 0xe18492e185a1e186abe18486e185aee186ab 16263 (.o .e 0xe18492e185a1e186abe18487e185a5e186ab 16264 .e)))))
def mnemonicTree492 : Tree := .o (.o (.o (.o (.o (.o (.o .e 0xe18492e185a1e186abe18489e185b5e186a8 16266 .e) 0xe18492e185a1e186abe1848de185a9e186a8 16268 .e) 0xe18492e185a1e186afe1848be185b5e186ab 16271 (.o .e 0xe18492e185a1e186b8e18480e185a7e186a8 16274 .e)) 0xe18492e185a1e186bce18480e185a9e186bc 16276 (.o (.o (.o .e 0xe18492e185a1e186bce18489e185a1e186bc 16278 .e) 0xe18492e185a2e186a8e18489e185b5e186b7 16289 .e) 0xe18492e185a2e186bae18487e185a7e18780 16292 (.o .e 0xe18492e185a2e186bae18489e185a1e186af 16293 .e))) 0xe18492e185a2e186bce18483e185a9e186bc 16294 (.o (.o (.o (.o .e 0xe18492e185a2e186bce18487e185a9e186a8 16295 .e) 0xe18492e185a2e186bce1848be185aee186ab 16297 .e) 0xe18492e185a3e186bce18489e185a1e186bc 16300 (.o .e 0xe18492e185a7e186abe18480e185aae186ab 16305 .e)) 0xe18492e185a7e186abe18480e185b3e186b7 16306 (.o (.o .e 0xe18492e185a7e186abe18489e185a1e186bc 16308 .e) 0xe18492e185a7e186abe18489e185b5e186af 16309 (.o .e 0xe18492e185a7e186abe1848ce185a1e186bc 16310 .e)))) 0xe18492e185a7e186afe1848be185a2e186a8 16313 (.o (.o (.o (.o (.o .e 0xe18492e185a7e186b8e18485e185a7e186a8 16314 .e) 0xe18492e185a7e186bce18489e185b5e186a8 16318 .e) 0xe18492e185a7e186bce18491e185a7e186ab 16321 (.o .e 0xe18492e185aae186a8e1848be185b5e186ab 16342 .e)) 0xe18492e185aae186a8e1848ce185a1e186bc 16343 (.o (.o (.o .e 0xe18492e185aae186a8e1848ce185a5e186bc 16344 .e) 0xe18492e185aae186abe18480e185a1e186b8 16345 .e) 0xe18492e185aae186abe18480e185a7e186bc 16346 (.o .e 0xe18492e185aae186abe1848be185a7e186bc 16347 .e))) 0xe18492e185aae186abe1848be185b2e186af 16348 (.o (.o (.o (.o .e 0xe18492e185aae186afe18483e185a9e186bc 16351 .e) 0xe18492e185aae186afe1848be185ade186bc 16353 .e) 0xe18492e185aae186afe1848de185a1e186a8 16354 (.o .e 0xe18492e185aee186abe18485e185a7e186ab 16367 .e)) 0xe18492e185afe186afe1848ae185b5e186ab 16368 (.o (.o .e 0xe18492e185b3e186a8e18487e185a2e186a8 16373 .e) 0xe18492e185b3e186a8e1848be185b5e186ab 16374 (.o .e 0xe18492e185b3e186abe1848ce185a5e186a8 16375 .e))))) 0xe18492e185b3e186bce18487e185aee186ab 16378 (.o (.o (.o (.o (.o (.o .e 0xe18492e185b4e186abe18489e185a2e186a8 16382 .e) 0xe18492e185b5e186b7e18481e185a5e186ba 16383 .e) 0xe38182e38184e38193e3818fe38197e38293 12288 (.o .e 0xe38182e38193e3818be38299e3828ce3828b 12296 .e)) 0xe38182e38289e38184e3818fe38299e381be 12327 (.o (.o (.o .e 0xe38182e3828ae3818be38299e381a8e38186 12333 .e) 0xe38184e3819de3818be38299e38197e38184 12372 .e) 0xe38186e38191e3819fe381bee3828fe3828b 12443 (.o .e 0xe38186e38197e3828de3818be38299e381bf 12453 .e))) 0xe38186e38199e3818fe38299e38289e38184 12456 (.o (.o (.o (.o .e 0xe38186e381b5e38299e38193e38299e38188 12475 .e) 0xe38186e38289e3818be38299e38188e38199 12481 .e) 0xe3818ae3818ae381a8e38299e3818ae3828a 12546 (.o .e 0xe3818ae3818fe38197e38299e38287e38186 12556 .e)) 0xe3818ae3818fe3828ae3818be38299e381aa 12557 (.o (.o .e 0xe3818ae381a8e38299e3828de3818be38199 12583 .e) 0xe3818ae38281e381a6e38299e381a8e38186 12586 (.o .e 0xe3818ae38293e381a8e38299e38191e38184 12602 .e)))) 0xe3818be38184e38199e38184e38288e3818f 12610 (.o (.o (.o (.o (.o .e 0xe3818be381aae38195e38299e3828fe38197 12639 .e) 0xe3818be38299e381a3e3818de38285e38186 12635 .e) 0xe3818be38299e381a3e38197e38287e38186 12638 (.o .e 0xe3818be38299e38293e381afe38299e3828b 12662 .e)) 0xe3818de38282e3819fe38299e38281e38197 12727 (.o (.o .e 0xe3818de38287e38186e3828ae38285e38186 12734 .e) 0xe3818de38293e3818be3818fe38197e38299 12744 (.o .e 0xe3818de38293e38288e38186e381b2e38299 12746 .e))) 0xe3818de38299e38285e38186e381abe3818f 12732 (.o (.o (.o (.o .e 0xe3818fe38199e3828ae38286e381b2e38299 12769 .e) 0xe3818fe3819fe381b2e38299e3828ce3828b 12774 .e) 0xe3818fe38299e3819fe38184e381a6e3818d 12772 (.o .e 0xe3818fe38299e38293e38197e38287e3818f 12797 .e)) 0xe38191e381a1e38283e381a3e381b5e3829a 12829 (.o (.o .e 0xe38191e38299e3818de38191e38299e38293 12813 .e) 0xe38191e38299e3818de3819fe38299e38293 12814 (.o .e 0xe38191e38299e38293e381b5e38299e381a4 12879 .e)))))
def mnemonicTree493 : Tree := .o mnemonicTree491 0xe18492e185a1e186abe18487e185a9e186a8 16265 mnemonicTree492
def mnemonicTree494 : Tree := .o (.o (.o (.o (.o (.o (.o .e 0xe38193e38299e38186e3818de38285e38186 12892 .e) 0xe38195e38299e38184e38191e38299e38293 12995 .e) 0xe38195e38299e38184e381a1e38285e38186 13000 (.o .e 0xe38195e38299e38184e3828ae38287e38186 13002 .e)) 0xe38195e38299e381a4e3818be38299e3818f 13021 (.o (.o (.o .e 0xe38195e38299e3828be3819de381afe38299 13050 .e) 0xe38197e38293e3819be38184e38197e38299 13157 .e) 0xe38197e38299e38285e38186e38197e38287 13140 (.o .e 0xe38197e38299e38293e38197e38299e38283 13156 .e))) 0xe38199e38184e38288e38186e381b2e38299 13168 (.o (.o (.o (.o .e 0xe38199e381afe38299e38289e38197e38184 13191 .e) 0xe38199e3828ce381a1e3818be38299e38186 13206 .e) 0xe38199e38299e38184e381b5e38299e38293 13167 (.o .e 0xe38199e38299e381b5e38299e381ace3828c 13193 .e)) 0xe3819be3818de38289e38293e38186e38293 13221 (.o (.o .e 0xe3819be381a3e38195e3819fe3818fe381be 13232 .e) 0xe3819be38299e38293e381bbe3829ae38186 13272 (.o .e 0xe3819be38299e38293e3828ae38283e3818f 13280 .e)))) 0xe3819de38184e381a8e38191e38299e3828b 13284 (.o (.o (.o (.o (.o .e 0xe3819de381a4e3818de38299e38287e38186 13310 .e) 0xe3819de38299e38293e381b5e38299e38293 13338 .e) 0xe3819fe38184e381bfe38293e3818fe38299 13368 (.o .e 0xe3819fe38199e38299e38195e3828fe3828b 13392 .e)) 0xe3819fe38299e38184e3818be38299e3818f 13345 (.o (.o (.o .e 0xe3819fe38299e38184e381b2e38287e38186 13363 .e) 0xe3819fe38299e38197e38299e38283e3828c 13390 .e) 0xe3819fe38299e381a3e3818de38283e3818f 13400 (.o .e 0xe3819fe38299e381a3e38197e38285e381a4 13402 .e))) 0xe3819fe38299e38293e381bbe38299e38186 13452 (.o (.o (.o (.o .e 0xe381a1e38287e38195e3818fe38191e38293 13495 .e) 0xe381a4e38186e38197e38299e38287e38186 13507 .e) 0xe381a6e38195e3818de38299e38287e38186 13560 (.o .e 0xe381a6e381bee3818de38199e38299e38197 13581 .e)) 0xe381a6e38293e38289e38293e3818be38184 13605 (.o (.o .e 0xe381a6e38299e38193e381bbe38299e38193 13559 .e) 0xe381a6e38299e38293e3828ae38287e3818f 13606 (.o .e 0xe381a8e38299e38288e38186e381b2e38299 13654 .e))))) 0xe381a8e38299e38293e381b5e38299e3828a 13657 (.o (.o (.o (.o (.o (.o .e 0xe381aae3819fe381a6e38299e38193e38193 13670 .e) 0xe381abe381a1e38197e38299e38287e38186 13705 .e) 0xe381abe381a1e38288e38186e381b2e38299 13706 (.o .e 0xe381ace3818fe38299e38184e381a8e3828b 13742 .e)) 0xe381ade381bbe3828ae381afe381bbe3828a 13770 (.o (.o (.o .e 0xe381afe381a3e381b2e3829ae38287e38186 13862 .e) 0xe381afe38293e381bbe38299e38186e3818d 13894 .e) 0xe381afe38299e38184e381afe38299e38184 13830 (.o .e 0xe381afe38299e38293e3818fe38299e381bf 13881 .e))) 0xe381b2e38195e38197e381b5e38299e3828a 13910 (.o (.o (.o (.o .e 0xe381b2e38299e38293e381bbe38299e38186 13964 .e) 0xe381b5e3818fe381b5e38299e3818fe3828d 13977 .e) 0xe381b5e38299e38293e3818be38299e3818f 14010 (.o .e 0xe381b5e38299e38293e381bbe3829ae38186 14015 .e)) 0xe381b5e3829ae38186e3819fe3828de38186 13969 (.o (.o .e 0xe381b8e38299e38293e3818de38287e38186 14036 .e) 0xe381b8e38299e38293e38193e38299e38197 14037 (.o .e 0xe381bbe38299e38186e3818de38299e38287 14043 .e)))) 0xe381bfe381aae381bfe3818be38195e38184 14124 (.o (.o (.o (.o (.o .e 0xe38281e3818fe38299e381bee3828ce3828b 14176 .e) 0xe38281e38199e38299e38289e38197e38184 14179 .e) 0xe38282e3818fe38288e38186e381b2e38299 14191 (.o .e 0xe38289e38197e38293e381afe38299e38293 14260 .e)) 0xe3828ae38285e38186e3818be38299e3818f 14280 (.o (.o .e 0xe3828be3828ae3818be38299e3828fe38289 14295 .e) 0xe3828ce38184e3819de38299e38186e38193 14299 (.o .e 0xe18480e185a1e18485e185b3e1848ee185b5e186b7 14341 .e))) 0xe18480e185a1e1848be185aee186abe18483e185a6 14346 (.o (.o (.o (.o .e 0xe18480e185a1e186b8e1848ce185a1e18480e185b5 14372 .e) 0xe18480e185a1e186bce1848be185a1e1848ce185b5 14381 .e) 0xe18480e185a6e18489e185b5e18491e185a1e186ab 14409 (.o .e 0xe18480e185a9e18486e185aee18489e185b5e186ab 14451 .e)) 0xe18480e185a9e1848be185a3e186bce1848be185b5 14453 (.o (.o .e 0xe18480e185a9e186afe1848de185a1e18480e185b5 14462 .e) 0xe18480e185ace18485e185a9e1848be185aee186b7 14505 (.o .e 0xe18480e185aee1848ee185a6e1848ce185a5e186a8 14529 .e)))))
def mnemonicTree495 : Tree := .o (.o (.o (.o (.o (.o (.o .e 0xe18480e185b5e18483e185a9e186a8e18480e185ad 14589 .e) 0xe18480e185b5e18489e185aee186a8e18489e185a1 14597 .e) 0xe18481e185a1e186a8e18483e185aee18480e185b5 14615 (.o .e 0xe18481e185a2e18489e185a9e18480e185b3e186b7 14618 .e)) 0xe18481e185a9e186a8e18483e185a2e18480e185b5 14620 (.o (.o (.o .e 0xe18482e185a1e18483e185b3e186afe1848be185b5 14622 .e) 0xe18482e185a1e18485e185a1e186abe18492e185b5 14623 .e) 0xe18482e185a6e186a8e18490e185a1e1848be185b5 14652 (.o .e 0xe18483e185a1e186b0e18480e185a9e18480e185b5 14702 .e))) 0xe18483e185a2e18483e185a1e186abe18492e185b5 14715 (.o (.o (.o (.o .e 0xe18483e185a2e18487e185aee18487e185aee186ab 14722 .e) 0xe18483e185a5e186bce1848be185a5e18485e185b5 14737 .e) 0xe18483e185a9e18489e185a5e18480e185aae186ab 14743 (.o .e 0xe18484e185a1e186afe1848be185a1e1848be185b5 14760 .e)) 0xe18486e185a1e18485e185a1e18490e185a9e186ab 14764 (.o (.o .e 0xe18486e185a1e1848ce185b5e18486e185a1e186a8 14774 .e) 0xe18486e185a1e186b7e18483e185a2e18485e185a9 14793 (.o .e 0xe18486e185a2e18489e185b3e1848fe185a5e186b7 14799 .e)))) 0xe18486e185a9e18490e185aee186bce1848be185b5 14829 (.o (.o (.o (.o (.o .e 0xe18486e185a9e186a8e18489e185a9e18485e185b5 14833 .e) 0xe18486e185a9e186b7e18486e185aee18480e185a6 14839 .e) 0xe18486e185aee18480e185aee186bce18492e185aa 14846 (.o .e 0xe18486e185aee1848ce185a9e18480e185a5e186ab 14854 .e)) 0xe18486e185aee186afe18480e185a9e18480e185b5 14867 (.o (.o .e 0xe18486e185b5e18489e185a1e1848be185b5e186af 14875 .e) 0xe18486e185b5e186afe18480e185a1e18485e185ae 14887 (.o .e 0xe18487e185a1e18483e185a1e186bae18480e185a1 14895 .e))) 0xe18487e185a1e186abe18483e185b3e18489e185b5 14903 (.o (.o (.o (.o .e 0xe18487e185a6e1848be185b5e1848ce185b5e186bc 14971 .e) 0xe18487e185a7e186abe18492e185a9e18489e185a1 14977 .e) 0xe18487e185a7e186bce1848be185a1e18485e185b5 14983 (.o .e 0xe18487e185a9e18485e185a1e18489e185a2e186a8 14987 .e)) 0xe18487e185aee18492e185ace1848ce185a1e186bc 15033 (.o (.o .e 0xe18487e185aee186abe1848be185b1e18480e185b5 15042 .e) 0xe18487e185aee186afe18480e185a9e18480e185b5 15045 (.o .e 0xe18487e185b3e18485e185a2e186abe18483e185b3 15055 .e))))) 0xe18487e185b5e18483e185aee186afe18480e185b5 15059 (.o (.o (.o (.o (.o (.o .e 0xe18487e185b5e18487e185a1e18485e185a1e186b7 15065 .e) 0xe18487e185b5e18490e185a1e18486e185b5e186ab 15071 .e) 0xe18489e185a1e18480e185a8e1848ce185a5e186af 15082 (.o .e 0xe18489e185a1e18486e185a9e18482e185b5e186b7 15088 .e)) 0xe18489e185a1e1848ee185aee186abe18480e185b5 15103 (.o (.o (.o .e 0xe18489e185a5e186afe18480e185a5e1848ce185b5 15171 .e) 0xe18489e185a9e1848ce185aee186bce18492e185b5 15213 .e) 0xe18489e185a9e1848ce185b5e18491e185aee186b7 15214 (.o .e 0xe18489e185a9e186bce1848be185a1e1848ce185b5 15234 .e))) 0xe18489e185b5e18480e185b3e186b7e1848ee185b5 15297 (.o (.o (.o (.o .e 0xe18489e185b5e18486e185a6e186abe18490e185b3 15301 .e) 0xe18489e185b5e18489e185b3e18490e185a6e186b7 15306 .e) 0xe1848be185a1e18483e185b3e18482e185b5e186b7 15376 (.o .e 0xe1848be185a1e18489e185b1e1848be185aee186b7 15378 .e)) 0xe1848be185a1e1848be185aee186afe18485e185a5 15381 (.o (.o .e 0xe1848be185a1e1848ce185aee186b7e18486e185a1 15383 .e) 0xe1848be185a3e186bce18487e185a2e1848ee185ae 15427 (.o .e 0xe1848be185a5e18485e185a7e1848be185aee186b7 15431 .e)))) 0xe1848be185a5e1848de185a5e186abe1848ce185b5 15436 (.o (.o (.o (.o (.o .e 0xe1848be185a5e186bce18490e185a5e18485e185b5 15451 .e) 0xe1848be185a5e186bde18480e185b3e1848ce185a6 15452 .e) 0xe1848be185a6e1848be185a5e1848fe185a5e186ab 15454 (.o .e 0xe1848be185a7e18480e185a9e18489e185a2e186bc 15457 .e)) 0xe1848be185a7e18483e185a2e18489e185a2e186bc 15461 (.o (.o .e 0xe1848be185a7e1848ce185a5e186abe18492e185b5 15471 .e) 0xe1848be185a7e18781e18480e185aee18485e185b5 15516 (.o .e 0xe1848be185a8e1848fe185a5e186abe18483e185a2 15532 .e))) 0xe1848be185a9e18485e185a6e186abe1848ce185b5 15537 (.o (.o (.o (.o .e 0xe1848be185a9e1848ce185b5e186bce1848be185a5 15546 .e) 0xe1848be185a9e186a8e18489e185aee18489e185ae 15551 .e) 0xe1848be185ace18485e185a9e1848be185aee186b7 15571 (.o .e 0xe1848be185aee1848be185a7e186abe18492e185b5 15589 .e)) 0xe1848be185aee1848ee185a6e18480e185aee186a8 15591 (.o (.o .e 0xe1848be185afe186abe18491e185b5e18489e185b3 15610 .e) 0xe1848be185b2e18482e185a1e186abe18492e185b5 15623 (.o .e 0xe1848be185b2e1848ee185b5e1848be185afe186ab 15629 .e)))))
def mnemonicTree496 : Tree := .o mnemonicTree494 0xe18480e185b3e18490e185a9e18485e185a9e186a8 14562 mnemonicTree495
def mnemonicTree497 : Tree := .o mnemonicTree493 0xe38193e3828ce3818fe38197e38287e38293 12974 mnemonicTree496
def mnemonicTree498 : Tree := .o (.o (.o (.o (.o (.o (.o .e 0xe1848be185b5e18485e185a7e186a8e18489e185a5 15663 .e) 0xe1848be185b5e18487e185a1e186afe18489e185a9 15667 .e) 0xe1848be185b5e1848be185b3e186a8e18480e185a9 15678 (.o .e 0xe1848ce185a1e18480e185a1e1848be185ade186bc 15737 .e)) 0xe1848ce185a1e18487e185aee18489e185b5e186b7 15742 (.o (.o (.o .e 0xe1848ce185a1e1848ce185a5e186abe18480e185a5 15748 .e) 0xe1848ce185a1e186b7e1848ce185a1e18485e185b5 15767 .e) 0xe1848ce185a2e18488e185a1e186afe18485e185b5 15789 (.o .e 0xe1848ce185a5e18485e185a5e18782e18480e185a6 15803 .e))) 0xe1848ce185a5e1848ce185a5e186afe18485e185a9 15806 (.o (.o (.o (.o .e 0xe1848ce185a5e186abe18485e185a1e18483e185a9 15817 .e) 0xe1848ce185a6e18480e185aae1848ce185a5e186b7 15868 .e) 0xe1848ce185a9e1848be185ade186bce18492e185b5 15889 (.o .e 0xe1848ce185a9e186bce18489e185a9e18485e185b5 15900 .e)) 0xe1848ce185aee1848ce185a5e186abe1848ce185a1 15919 (.o (.o .e 0xe1848ce185aee186afe18480e185a5e18485e185b5 15922 .e) 0xe1848ce185aee186afe18486e185aee18482e185b4 15924 (.o .e 0xe1848ce185b5e18480e185b3e186a8e18492e185b5 15950 .e)))) 0xe1848ce185b5e18485e185b5e18489e185a1e186ab 15955 (.o (.o (.o (.o (.o .e 0xe1848ee185a5e186afe1848ce185a5e18492e185b5 16029 .e) 0xe1848ee185a5e186bce18487e185a1e1848ce185b5 16034 .e) 0xe1848ee185a9e18489e185a1e186bce18492e185aa 16046 (.o .e 0xe1848ee185a9e1848be185a7e18485e185b3e186b7 16048 .e)) 0xe1848ee185a9e1848ce185a5e18482e185a7e186a8 16050 (.o (.o (.o .e 0xe1848fe185a1e1848be185aee186abe18490e185a5 16102 .e) 0xe1848fe185a2e18485e185b5e186a8e18490e185a5 16104 .e) 0xe1848fe185a2e186b7e18491e185a5e18489e185b3 16105 (.o .e 0xe1848fe185a5e186b7e18491e185b2e18490e185a5 16110 .e))) 0xe1848fe185a9e186abe18489e185a5e18490e185b3 16113 (.o (.o (.o (.o .e 0xe1848fe185b3e186abe18489e185a9e18485e185b5 16122 .e) 0xe18490e185a2e18480e185afe186abe18483e185a9 16135 .e) 0xe18490e185a5e18486e185b5e18482e185a5e186af 16141 (.o .e 0xe18490e185a6e1848be185b5e18487e185b3e186af 16144 .e)) 0xe18490e185a9e1848be185ade1848be185b5e186af 16148 (.o (.o .e 0xe18491e185a1e1848ee185aee186afe18489e185a9 16175 .e) 0xe18491e185a5e18489e185a6e186abe18490e185b3 16187 (.o .e 0xe18491e185a6e1848be185b5e186abe18490e185b3 16188 .e))))) 0xe18491e185a9e1848be185b5e186abe18490e185b3 16201 (.o (.o (.o (.o (.o (.o .e 0xe18491e185b3e18485e185a1e186bce18489e185b3 16213 .e) 0xe18491e185b3e18485e185b5e186abe18490e185a5 16214 .e) 0xe18492e185a1e18482e185b3e18482e185b5e186b7 16225 (.o .e 0xe18492e185a1e18487e185a1e186abe18480e185b5 16229 .e)) 0xe18492e185a1e1848be185a7e18490e185b3e186ab 16232 (.o (.o (.o .e 0xe18492e185a1e1848ce185b5e18486e185a1e186ab 16233 .e) 0xe18492e185a1e186a8e18487e185aee18486e185a9 16244 .e) 0xe18492e185a1e186abe18486e185a1e18483e185b5 16262 (.o .e 0xe18492e185a1e186afe18486e185a5e18482e185b5 16269 .e))) 0xe18492e185a1e186b7e18487e185aee18485e185a9 16273 (.o (.o (.o (.o .e 0xe18492e185a2e186b7e18487e185a5e18480e185a5 16291 .e) 0xe18492e185a9e18480e185b5e18489e185b5e186b7 16323 .e) 0xe18492e185a9e18485e185a1e186bce1848be185b5 16325 (.o .e 0xe18492e185aae1848be185ade1848be185b5e186af 16338 .e)) 0xe38184e3828de38188e38293e381b2e3829ae381a4 12424 (.o (.o .e 0xe38184e38293e38191e38299e38293e381bee38281 12430 .e) 0xe3818be38184e3819de38299e38186e381a8e38299 12612 (.o .e 0xe3818de38280e38199e38299e3818be38197e38184 12725 .e)))) 0xe38191e38299e38184e38197e38299e38285e381a4 12805 (.o (.o (.o (.o (.o .e 0xe38191e38299e381a4e38288e38186e381b2e38299 12839 .e) 0xe38193e38299e381bee38182e381b5e38299e38289 12957 .e) 0xe38195e38284e38188e38293e381a8e38299e38186 13045 (.o .e 0xe38197e38299e38283e3818be38299e38184e38282 13124 .e)) 0xe38197e38299e38285e38293e381afe38299e38293 13146 (.o (.o .e 0xe3819be38293e38281e38293e38197e38299e38287 13274 .e) 0xe3819fe38184e381bee381a4e381afe38299e381aa 13367 (.o .e 0xe3819fe38299e38184e381a8e38299e38193e3828d 13358 .e))) 0xe381a1e38283e38293e38193e381aae381b8e38299 13491 (.o (.o (.o (.o .e 0xe381a8e38299e381b5e38299e3818be38299e3828f 13648 .e) 0xe381abe38195e38293e3818be3819fe38293e3819d 13702 .e) 0xe381ade381a3e3819fe38184e3818de38299e38287 13766 (.o .e 0xe381b2e381a4e38197e38299e38285e381b2e38293 13922 .e)) 0xe381bbe3829ae381a1e381b5e38299e3818fe3828d 14068 (.o (.o .e 0xe38282e38186e38197e38182e38191e38299e3828b 14186 .e) 0xe38282e38186e381a8e38299e38186e38191e38293 14187 (.o .e 0xe38288e381a8e38299e3818be38299e3828fe3818f 14249 .e)))))
def mnemonicTree499 : Tree := .o (.o (.o (.o (.o (.o (.o .e 0xe18480e185a1e186bce18485e185a7e186a8e18492e185b5 14376 .e) 0xe18480e185a1e186bce18489e185aee18485e185a3e186bc 14380 .e) 0xe18480e185a1e186bce1848be185afe186abe18483e185a9 14382 (.o .e 0xe18480e185a7e186bce18489e185a1e186bce18483e185a9 14427 .e)) 0xe18480e185a9e186bce18486e185aee1848be185afe186ab 14471 (.o (.o (.o .e 0xe18480e185a9e186bce18492e185b2e1848be185b5e186af 14484 .e) 0xe18480e185ace186bce1848ce185a1e186bce18492e185b5 14506 .e) 0xe18480e185b3e1848ce185a6e18489e185a5e1848be185a3 14561 (.o .e 0xe18480e185b3e186b7e18486e185a6e18483e185a1e186af 14579 .e))) 0xe18480e185b3e186b7e1848be185ade1848be185b5e186af 14582 (.o (.o (.o (.o .e 0xe18481e185a2e18483e185a1e186afe1848be185b3e186b7 14617 .e) 0xe18482e185a1e1848ee185b5e186b7e18487e185a1e186ab 14626 .e) 0xe18482e185a1e186b7e18483e185a2e18486e185aee186ab 14634 (.o .e 0xe18482e185a2e186bce1848ce185a1e186bce18480e185a9 14651 .e)) 0xe18482e185a9e18485e185a1e186abe18489e185a2e186a8 14655 (.o (.o .e 0xe18482e185aee186abe18483e185a9e186bce1848ce185a1 14673 .e) 0xe18483e185a1e1848be185a3e186bce18489e185a5e186bc 14682 (.o .e 0xe18483e185a1e1848be185b5e1848be185a5e18490e185b3 14684 .e)))) 0xe18483e185a1e186bce1848be185a7e186abe18492e185b5 14711 (.o (.o (.o (.o (.o .e 0xe18483e185a2e18490e185a9e186bce18485e185a7e186bc 14732 .e) 0xe18483e185a2e18492e185a1e186b8e18489e185b5e186af 14735 .e) 0xe18483e185a9e186bce18492e185aae1848ee185a2e186a8 14757 (.o .e 0xe18483e185b1e186bae18486e185a9e18489e185b3e186b8 14758 .e)) 0xe18486e185a1e1848be185ade18482e185a6e1848ce185b3 14769 (.o (.o .e 0xe18486e185a1e186a8e18480e185a5e186afe18485e185b5 14778 .e) 0xe18486e185a9e186a8e18480e185a5e186afe1848be185b5 14830 (.o .e 0xe18486e185aee18480e185aae186abe18489e185b5e186b7 14845 .e))) 0xe18486e185aee186afe18485e185b5e18492e185a1e186a8 14869 (.o (.o (.o (.o .e 0xe18486e185b5e1848be185ade186bce18489e185b5e186af 14878 .e) 0xe18486e185b5e18780e18487e185a1e18483e185a1e186a8 14889 .e) 0xe18487e185a1e1848be185b5e18485e185a5e18489e185b3 14897 (.o .e 0xe18487e185a1e186afe18480e185a1e18485e185a1e186a8 14913 .e)) 0xe18487e185a1e186afe18487e185a1e18483e185a1e186a8 14919 (.o (.o .e 0xe18487e185a1e186afe1848ce185a1e18480e185aee186a8 14922 .e) 0xe18487e185a1e186b7e18492e185a1e18482e185b3e186af 14926 (.o .e 0xe18487e185a1e186b8e18480e185b3e18485e185b3e186ba 14927 .e))))) 0xe18487e185a1e186bce18487e185a1e18483e185a1e186a8 14934 (.o (.o (.o (.o (.o (.o .e 0xe18487e185a2e186a8e18483e185aee18489e185a1e186ab 14948 .e) 0xe18487e185a2e186a8e18492e185aae1848ce185a5e186b7 14953 .e) 0xe18487e185a9e18491e185a7e186abe1848ce185a5e186a8 14997 (.o .e 0xe18487e185a9e186a8e18489e185aee186bce1848be185a1 15001 .e)) 0xe18487e185aee18483e185a9e186bce18489e185a1e186ab 15018 (.o (.o (.o .e 0xe18487e185aee1848ce185a1e186a8e1848be185ade186bc 15025 .e) 0xe18487e185aee186afe1848be185b5e1848be185b5e186a8 15053 .e) 0xe18487e185b5e18487e185b5e186b7e18487e185a1e186b8 15066 (.o .e 0xe18487e185b5e186bae1848ce185aee186afe18480e185b5 15076 .e))) 0xe18489e185a1e18489e185a2e186bce18492e185aae186af 15092 (.o (.o (.o (.o .e 0xe18489e185a1e186b7e18480e185a8e18490e185a1e186bc 15114 .e) 0xe18489e185a1e186bce18487e185a1e186abe18480e185b5 15123 .e) 0xe18489e185a5e186abe18491e185aee186bce18480e185b5 15170 (.o .e 0xe18489e185a9e18480e185b3e186a8e1848ce185a5e186a8 15200 .e)) 0xe18489e185a9e186abe18480e185a1e18485e185a1e186a8 15221 (.o (.o .e 0xe18489e185a9e186afe1848ce185b5e186a8e18492e185b5 15232 .e) 0xe18489e185aee18483e185a9e186bae18486e185aee186af 15242 (.o .e 0xe18489e185aee18483e185a9e186bce1848ce185a5e186a8 15243 .e)))) 0xe18489e185aee18492e185a5e186b7e18489e185a2e186bc 15261 (.o (.o (.o (.o (.o .e 0xe18489e185aee186aee18480e185a1e18485e185a1e186a8 15271 .e) 0xe18489e185b3e1848fe185a6e1848be185b5e18490e185b3 15281 .e) 0xe18489e185b3e18490e185b2e18483e185b5e1848be185a9 15282 (.o .e 0xe18489e185b3e18490e185b3e18485e185a6e18489e185b3 15283 .e)) 0xe18489e185b3e186bce1848be185ade186bce1848ee185a1 15292 (.o (.o .e 0xe18489e185b5e18482e185a1e18485e185b5e1848be185a9 15298 .e) 0xe18489e185b5e1848be185a1e18487e185a5e1848ce185b5 15307 (.o .e 0xe18489e185b5e1848be185a5e18486e185a5e18482e185b5 15308 .e))) 0xe18489e185b5e186a8e18485e185ade18491e185aee186b7 15326 (.o (.o (.o (.o .e 0xe18489e185b5e186abe1848ce185a6e18491e185aee186b7 15343 .e) 0xe18489e185b5e186b7e18487e185aee18485e185b3e186b7 15366 .e) 0xe1848ae185a1e186bce18483e185aee186bce1848be185b5 15371 (.o .e 0xe1848be185a1e18491e185b3e18485e185b5e1848fe185a1 15387 .e)) 0xe1848be185a1e186afe1848fe185a9e1848be185a9e186af 15404 (.o (.o .e 0xe1848be185a3e186a8e18492e185a9e186abe18482e185a7 15423 .e) 0xe1848be185a5e1848ce185a6e186bae18487e185a1e186b7 15433 (.o .e 0xe1848be185a5e1848de185a2e186bbe18483e185b3e186ab 15434 .e)))))
def mnemonicTree500 : Tree := .o mnemonicTree498 0xe18480e185a1e186b7e18489e185aee18489e185a5e186bc 14369 mnemonicTree499
def mnemonicTree501 : Tree := .o (.o (.o (.o (.o (.o (.o .e 0xe1848be185a5e186bce18483e185a5e186bce1848be185b5 15449 .e) 0xe1848be185a7e18483e185a9e186bce18489e185a2e186bc 15463 .e) 0xe1848be185a7e1848ce185b5e186a8e1848be185afe186ab 15472 (.o .e 0xe1848be185a7e18492e185a1e186a8e18489e185a2e186bc 15473 .e)) 0xe1848be185a7e186abe1848be185a8e1848be185b5e186ab 15488 (.o (.o (.o .e 0xe1848be185a7e186afe18489e185b5e186b7e18492e185b5 15499 .e) 0xe1848be185a7e186bce1848be185afe186abe18492e185b5 15511 .e) 0xe1848be185a8e18489e185b5e186a8e1848ce185a1e186bc 15527 (.o .e 0xe1848be185a9e18485e185b3e186abe18487e185a1e186af 15539 .e))) 0xe1848be185a9e186abe18485e185a1e1848be185b5e186ab 15553 (.o (.o (.o (.o .e 0xe1848be185a9e186afe18480e185a1e1848be185b3e186af 15557 .e) 0xe1848be185a9e186bae1848ee185a1e18485e185b5e186b7 15560 .e) 0xe1848be185aae1848be185b5e18489e185a7e1848ee185b3 15561 (.o .e 0xe1848be185ace18480e185a1e186bae1848ce185b5e186b8 15569 .e)) 0xe1848be185ace18489e185a1e186b7e1848ee185a9e186ab 15572 (.o (.o .e 0xe1848be185aee186bae1848be185a5e18485e185b3e186ab 15601 .e) 0xe1848be185afe186abe18489e185aee186bce1848be185b5 15607 (.o .e 0xe1848be185afe186afe18483e185b3e1848fe185a5e186b8 15612 .e)))) 0xe1848be185afe186afe1848be185ade1848be185b5e186af 15614 (.o (.o (.o (.o (.o .e 0xe1848be185b1e186bae18489e185a1e18485e185a1e186b7 15622 .e) 0xe1848be185b5e18485e185a9e186abe1848ce185a5e186a8 15664 .e) 0xe1848be185b5e18490e185b3e186aee18482e185a1e186af 15682 (.o .e 0xe1848be185b5e186abe18490e185a5e18482e185a6e186ba 15702 .e)) 0xe1848be185b5e186afe1848be185ade1848be185b5e186af 15716 (.o (.o (.o .e 0xe1848be185b5e186afe1848ce185aee1848be185b5e186af 15720 .e) 0xe1848be185b5e186afe18492e185ace1848be185ade186bc 15725 .e) 0xe1848ce185a1e1848ce185a9e186abe18489e185b5e186b7 15750 (.o .e 0xe1848ce185a1e186b7e18489e185aee18492e185a1e186b7 15764 .e))) 0xe1848ce185a1e186bce18480e185b5e18480e185a1e186ab 15771 (.o (.o (.o (.o .e 0xe1848ce185a1e186bce1848be185a2e1848be185b5e186ab 15783 .e) 0xe1848ce185a2e1848ce185a1e186a8e18482e185a7e186ab 15792 .e) 0xe1848ce185a2e18492e185aae186afe1848be185ade186bc 15797 (.o .e 0xe1848ce185a5e186a8e18483e185a1e186bce18492e185b5 15809 .e)) 0xe1848ce185a5e186bae18480e185a1e18485e185a1e186a8 15847 (.o (.o .e 0xe1848ce185a5e186bce18480e185a5e1848ce185a1e186bc 15848 .e) 0xe1848ce185a5e186bce18485e185b2e1848ce185a1e186bc 15850 (.o .e 0xe1848ce185a5e186bce18487e185a1e186abe18483e185a2 15855 .e))))) 0xe1848ce185a5e186bce18492e185aae186a8e18492e185b5 15866 (.o (.o (.o (.o (.o (.o .e 0xe1848ce185a6e18489e185a1e186bae18482e185a1e186af 15873 .e) 0xe1848ce185aee18480e185aae186abe1848ce185a5e186a8 15906 .e) 0xe1848ce185aee186bce18492e185a1e186a8e18480e185ad 15938 (.o .e 0xe1848ce185b3e186afe18480e185a5e1848be185aee186b7 15941 .e)) 0xe1848ce185b5e18485e185b3e186b7e18480e185b5e186af 15954 (.o (.o (.o .e 0xe1848ee185a1e186b7e18480e185b5e18485e185b3e186b7 16000 .e) 0xe1848ee185a2e186a8e18480e185a1e18487e185a1e186bc 16016 .e) 0xe1848ee185a2e186b7e18491e185b5e1848be185a5e186ab 16020 (.o .e 0xe1848ee185a5e186abe1848ee185a5e186abe18492e185b5 16027 .e))) 0xe1848ee185a9e1848fe185a9e186afe18485e185b5e186ba 16053 (.o (.o (.o (.o .e 0xe1848ee185aee186bce18487e185aee186abe18492e185b5 16085 .e) 0xe1848ee185aee186bce1848ee185a5e186bce18483e185a9 16086 .e) 0xe1848fe185a1e186afe18480e185aee186a8e18489e185ae 16103 (.o .e 0xe1848fe185a2e186b7e18491e185a6e1848be185b5e186ab 16106 .e)) 0xe1848fe185a5e186abe18483e185b5e18489e185a7e186ab 16108 (.o (.o .e 0xe1848fe185a9e186bce18482e185a1e18486e185aee186af 16116 .e) 0xe1848fe185b3e186abe1848be185a1e18483e185b3e186af 16123 (.o .e 0xe1848fe185b3e186afe18485e185a2e18489e185b5e186a8 16127 .e)))) 0xe18490e185a2e186afe18485e185a5e186abe18490e185b3 16139 (.o (.o (.o (.o (.o .e 0xe18490e185ace1848ce185b5e186a8e18480e185b3e186b7 16162 .e) 0xe18490e185b3e186abe18490e185b3e186abe18492e185b5 16171 .e) 0xe18491e185a1e18485e185a1e186abe18489e185a2e186a8 16173 (.o .e 0xe18492e185a1e18483e185b3e1848be185b0e1848be185a5 16227 .e)) 0xe18492e185a1e18485e185aee186bae18487e185a1e186b7 16228 (.o (.o .e 0xe18492e185a1e18489e185aee186a8e1848ce185b5e186b8 16230 .e) 0xe18492e185a1e186abe18485e185a1e18489e185a1e186ab 16261 (.o .e 0xe18492e185a1e186abe1848be185a7e18485e185b3e186b7 16267 .e))) 0xe18492e185a1e186b8e18485e185b5e1848ce185a5e186a8 16275 (.o (.o (.o (.o .e 0xe18492e185a2e186abe18483e185b3e18487e185a2e186a8 16290 .e) 0xe18492e185aae186afe18487e185a1e186afe18492e185b5 16352 .e) 0xe18492e185ade1848be185b2e186afe1848ce185a5e186a8 16364 (.o .e 0xe3818de38299e38197e38299e3818be3818be38299e3818f 12688 .e)) 0xe3818de38299e38197e38299e3819fe38184e38191e38293 12690 (.o (.o .e 0xe3818de38299e38197e38299e381abe381a3e381a6e38184 12691 .e) 0xe3818de38299e38197e38299e38285e381a4e38197e38283 12692 (.o .e 0xe38191e38299e38184e381aee38186e38197e38299e38293 12807 .e)))))
def mnemonicTree502 : Tree := .o (.o (.o (.o (.o (.o (.o .e 0xe3819de38186e3818be38299e38293e3818de38287e38186 13286 .e) 0xe3819fe3828ae3818de381bbe38293e3818be38299e38293 13424 .e) 0xe3819fe38293e38197e38299e38287e38186e381b2e38299 13440 (.o .e 0xe381a6e38293e381bbe38299e38186e3819fe38299e38184 13603 .e)) 0xe381b2e38299e38197e38299e38285e381a4e3818be38293 13912 (.o (.o (.o .e 0xe381b8e38299e381abe38197e38287e38186e3818be38299 14033 .e) 0xe38286e38186e381b2e38299e38293e3818de38287e3818f 14216 .e) 0xe18480e185a2e186a8e18480e185aae186abe1848ce185a5e186a8 14394 (.o .e 0xe18480e185a7e186bce18487e185a9e186a8e18480e185aee186bc 14425 .e))) 0xe18480e185a9e1848ee185aee186bae18480e185a1e18485e185ae 14457 (.o (.o (.o (.o .e 0xe18480e185aee186bce18480e185b3e186a8e1848ce185a5e186a8 14545 .e) 0xe18480e185b3e186b7e18480e185a1e186bce18489e185a1e186ab 14576 .e) 0xe18480e185b3e186bce1848ce185a5e186bce1848ce185a5e186a8 14584 (.o .e 0xe18482e185a1e186b7e18492e185a1e186a8e18489e185a2e186bc 14639 .e)) 0xe18482e185b3e186bce18483e185a9e186bce1848ce185a5e186a8 14679 (.o (.o .e 0xe18483e185a1e186bce18487e185aee186abe18480e185a1e186ab 14710 .e) 0xe18483e185a9e186a8e1848ee185a1e186bce1848ce185a5e186a8 14756 (.o .e 0xe18486e185a1e1848ee185a1e186abe18480e185a1e1848ce185b5 14775 .e)))) 0xe18486e185a1e186bce1848be185afe186abe18480e185a7e186bc 14794 (.o (.o (.o (.o (.o .e 0xe18486e185b5e186afe18485e185b5e18486e185b5e18490e185a5 14888 .e) 0xe18487e185a1e186a8e18486e185aee186afe18480e185aae186ab 14899 .e) 0xe18487e185a1e186afe18480e185a5e186afe1848be185b3e186b7 14914 (.o .e 0xe18487e185a9e186abe18480e185a7e186a8e1848ce185a5e186a8 15004 .e)) 0xe18487e185aee18481e185b3e18485e185a5e1848be185aee186b7 15016 (.o (.o .e 0xe18487e185aee1848ce185b5e18485e185a5e186abe18492e185b5 15029 .e) 0xe18487e185aee186abe18492e185a9e186bce18489e185a2e186a8 15044 (.o .e 0xe18487e185b5e186bae18487e185a1e186bce1848be185aee186af 15075 .e))) 0xe18488e185a1e186afe18480e185a1e186abe18489e185a2e186a8 15078 (.o (.o (.o (.o .e 0xe18489e185a2e186a8e1848be185a7e186abe18491e185b5e186af 15138 .e) 0xe18489e185a2e186bce18487e185a1e186bce18489e185a9e186bc 15142 .e) 0xe18489e185a5e186afe18485e185a5e186bce18490e185a1e186bc 15173 (.o .e 0xe18489e185a5e186afe1848be185a1e186a8e18489e185a1e186ab 15177 .e)) 0xe18489e185a6e186abe18490e185b5e18486e185b5e18490e185a5 15197 (.o (.o .e 0xe18489e185aee186abe18489e185b5e186a8e18480e185a1e186ab 15269 .e) 0xe18489e185b5e186a8e18489e185a2e186bce18492e185aae186af 15330 (.o .e 0xe18489e185b5e186afe1848ce185b5e186afe1848ce185a5e186a8 15357 .e))))) 0xe1848be185a1e18482e185a1e1848be185aee186abe18489e185a5 15375 (.o (.o (.o (.o (.o (.o .e 0xe1848be185a1e18489e185b3e18491e185a1e186afe18490e185b3 15379 .e) 0xe1848be185a9e18491e185b5e18489e185b3e18490e185a6e186af 15548 .e) 0xe1848be185a9e186abe1848ce185a9e186bce1848be185b5e186af 15555 (.o .e 0xe1848be185a9e186afe18485e185b5e186b7e18491e185b5e186a8 15558 .e)) 0xe1848be185abe18482e185a3e18492e185a1e18486e185a7e186ab 15567 (.o (.o (.o .e 0xe1848be185ace18492e185a1e186afe18486e185a5e18482e185b5 15575 .e) 0xe1848be185aee186b7e1848ce185b5e186a8e1848be185b5e186b7 15600 .e) 0xe1848ce185a1e186a8e1848be185b3e186abe18484e185a1e186af 15757 (.o .e 0xe1848ce185a1e186bce18492e185a1e186a8e18480e185b3e186b7 15787 .e))) 0xe1848ce185a9e186abe18483e185a2e186bae18486e185a1e186af 15893 (.o (.o (.o (.o .e 0xe1848ce185a9e186bce1848be185a5e186b8e1848be185afe186ab 15901 .e) 0xe1848fe185b3e186abe1848be185a5e18486e185a5e18482e185b5 16124 .e) 0xe18492e185a1e186a8e1848be185ade186bce18491e185aee186b7 16249 (.o .e 0xe18492e185a1e186abe18483e185a9e186bce1848be185a1e186ab 16259 .e)) 0xe18492e185a1e186afe1848be185a1e18487e185a5e1848ce185b5 16270 (.o (.o .e 0xe18492e185a9e186b7e18491e185a6e1848be185b5e1848ce185b5 16331 .e) 0xe18492e185aee1848ee185aee186bae18480e185a1e18485e185ae 16366 (.o .e 0xe3819fe38299e38184e38197e38299e38287e38186e381b5e38299 13351 .e)))) 0xe18487e185a2e18483e185b3e18486e185b5e186abe18490e185a5e186ab 14947 (.o (.o (.o (.o (.o .e 0xe18489e185a1e186abe18487e185aee1848be185b5e186abe18480e185aa 15108 .e) 0xe18489e185a6e1848ce185a9e186bce18483e185a2e1848be185aae186bc 15194 .e) 0xe1848be185a1e186afe18485e185aee18486e185b5e18482e185b2e186b7 15403 (.o .e 0xe1848ce185aee186bce18489e185a9e18480e185b5e1848be185a5e186b8 15934 .e)) 0xe18490e185a6e186afe18485e185a6e18487e185b5e1848ce185a5e186ab 16145 (.o (.o .e 0xe18491e185a2e186a8e18489e185b5e18486e185b5e186afe18485e185b5 16185 .e) 0xe18491e185b3e186afe18485e185a1e18489e185b3e18490e185b5e186a8 16215 (.o .e 0xe18492e185a1e186abe18481e185a5e18487e185a5e186abe1848be185a6 16256 .e))) 0xe18492e185a2e18489e185aee1848be185ade186a8e1848ce185a1e186bc 16287 (.o (.o (.o (.o .e 0xe18492e185ace186bce18483e185a1e186abe18487e185a9e18483e185a9 16363 .e) 0xe18480e185a9e18483e185b3e186bce18492e185a1e186a8e18489e185a2e186bc 14450 .e) 0xe18480e185b5e186b7e18491e185a9e18480e185a9e186bce18492e185a1e186bc 14614 (.o .e 0xe18483e185a2e18492e185a1e186abe18486e185b5e186abe18480e185aee186a8 14734 .e)) 0xe1848be185a9e18485e185a2e186bae18483e185a9e186bce1848be185a1e186ab 15536 (.o (.o .e 0xe1848ce185aee186bce18480e185a8e18487e185a1e186bce18489e185a9e186bc 15926 .e) 0xe1848ee185a9e18483e185b3e186bce18492e185a1e186a8e18489e185a2e186bc 16043 (.o .e 0xe1848fe185a9e186b7e18491e185b3e186afe18485e185a6e186a8e18489e185b3 16115 .e)))))
def mnemonicTree503 : Tree := .o mnemonicTree501 0xe38191e38299e38193e3818fe38197e38299e38287e38186 12820 mnemonicTree502
def mnemonicTree504 : Tree := .o mnemonicTree500 0xe1848be185a5e1848de185a5e18483e185a1e18480e185a1 15435 mnemonicTree503
def mnemonicTree505 : Tree := .o mnemonicTree497 0xe1848be185b5e18485e185a5e18782e18480e185a6 15662 mnemonicTree504
def mnemonicTree506 : Tree := .o mnemonicTree490 0xe1848ee185aee186afe18487e185a1e186af 16075 mnemonicTree505
def mnemonicTree507 : Tree := .o mnemonicTree475 0xe38288e38193e38299e3828ce3828b 14242 mnemonicTree506
def mnemonicTree508 : Tree := .o mnemonicTree444 0xe18480e185b5e18487e185a5e186b8 14593 mnemonicTree507
def mnemonicTree509 : Tree := .o mnemonicTree381 0x74726976656c6c61 5991 mnemonicTree508
def mnemonicTree510 : Tree := .o mnemonicTree254 0x63616a6fcc816e 2360 mnemonicTree509
def mnemonicTree : Tree := mnemonicTree510

end Verif.Catalog
