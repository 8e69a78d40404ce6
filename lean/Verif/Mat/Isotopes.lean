import Verif.Mat.MixProps
/-!
# The isotope table shipped with F4Enix (`src/f4enix/resources/Isotopes.txt`)

Every row of the file: `idx`, `Z`, `E`, `Mean value`, `Atomic Mass`, as exact decimal numbers
(generated from the file; the columns not used by the modelled code are left out).
-/
namespace F4Enix.Mat
open F4Enix

/-- a row, from strings (src/f4enix/resources/Isotopes.txt:1-322) -/
def row (idx : String) (z : ℕ) (sym : String) (ab mass : ℚ) : Iso := ⟨idx.toList, z, sym.toList, ab, mass⟩

/-- src/f4enix/resources/Isotopes.txt, rows 1 to 40 -/
def shippedRows0 : List Iso := [
  row "1001" 1 "H" (9998549999999999 / 10000000000000000) (1007825032 / 1000000000),
  row "1002" 1 "H" (145 / 1000000) (2014101778 / 1000000000),
  row "2003" 2 "He" (2 / 1000000) (301602932 / 100000000),
  row "2004" 2 "He" (9999979999999999 / 10000000000000000) (4002603254 / 1000000000),
  row "3006" 3 "Li" (485 / 10000) (6015122887 / 1000000000),
  row "3007" 3 "Li" (9515 / 10000) (7016003437 / 1000000000),
  row "4009" 4 "Be" (10 / 10) (9012183065 / 1000000000),
  row "5010" 5 "B" (1965 / 10000) (1001293695 / 100000000),
  row "5011" 5 "B" (8035000000000001 / 10000000000000000) (1100930536 / 100000000),
  row "6012" 6 "C" (9894 / 10000) (12),
  row "6013" 6 "C" (10599999999999998 / 1000000000000000000) (1300335484 / 100000000),
  row "7014" 7 "N" (9962049999999999 / 10000000000000000) (14003074 / 1000000),
  row "7015" 7 "N" (3795 / 1000000) (150001089 / 10000000),
  row "8016" 8 "O" (99757 / 100000) (1599491462 / 100000000),
  row "8017" 8 "O" (3835 / 10000000) (1699913176 / 100000000),
  row "8018" 8 "O" (2045 / 1000000) (1799915961 / 100000000),
  row "9019" 9 "F" (10 / 10) (1899840316 / 100000000),
  row "10020" 10 "Ne" (9048 / 10000) (1999244018 / 100000000),
  row "10021" 10 "Ne" (27 / 10000) (2099384669 / 100000000),
  row "10022" 10 "Ne" (925 / 10000) (2199138511 / 100000000),
  row "11023" 11 "Na" (10 / 10) (2298976928 / 100000000),
  row "12024" 12 "Mg" (78965 / 100000) (239850417 / 10000000),
  row "12025" 12 "Mg" (10011 / 100000) (2498583698 / 100000000),
  row "12026" 12 "Mg" (11025 / 100000) (2598259297 / 100000000),
  row "13027" 13 "Al" (10 / 10) (2698153853 / 100000000),
  row "14028" 14 "Si" (9225450000000001 / 10000000000000000) (2797692653 / 100000000),
  row "14029" 14 "Si" (4672 / 100000) (2897649466 / 100000000),
  row "14030" 14 "Si" (30735000000000002 / 1000000000000000000) (2997377014 / 100000000),
  row "15031" 15 "P" (10 / 10) (30973762 / 1000000),
  row "16032" 16 "S" (9485 / 10000) (3197207117 / 100000000),
  row "16033" 16 "S" (763 / 100000) (3297145891 / 100000000),
  row "16034" 16 "S" (4365 / 100000) (33967867 / 1000000),
  row "16036" 16 "S" (15800000000000002 / 100000000000000000000) (3596708071 / 100000000),
  row "17035" 17 "Cl" (758 / 1000) (3496885268 / 100000000),
  row "17037" 17 "Cl" (242 / 1000) (369659026 / 10000000),
  row "18036" 18 "Ar" (1035 / 100000) (3596754511 / 100000000),
  row "18038" 18 "Ar" (215 / 10000) (3796273211 / 100000000),
  row "18040" 18 "Ar" (968 / 1000) (3996238312 / 100000000),
  row "19039" 19 "K" (932581 / 1000000) (3896370649 / 100000000),
  row "19040" 19 "K" (117 / 1000000) (3996399817 / 100000000)]

/-- src/f4enix/resources/Isotopes.txt, rows 41 to 80 -/
def shippedRows1 : List Iso := [
  row "19041" 19 "K" (67302 / 1000000) (4096182526 / 100000000),
  row "20040" 20 "Ca" (96941 / 100000) (3996259086 / 100000000),
  row "20042" 20 "Ca" (647 / 100000) (4195861783 / 100000000),
  row "20043" 20 "Ca" (135 / 100000) (4295876644 / 100000000),
  row "20044" 20 "Ca" (2086 / 100000) (4395548156 / 100000000),
  row "20046" 20 "Ca" (4 / 100000) (45953689 / 1000000),
  row "20048" 20 "Ca" (187 / 100000) (4795252276 / 100000000),
  row "21045" 21 "Sc" (10 / 10) (4495590828 / 100000000),
  row "22046" 22 "Ti" (825 / 10000) (4595262772 / 100000000),
  row "22047" 22 "Ti" (744 / 10000) (4695175879 / 100000000),
  row "22048" 22 "Ti" (7372 / 10000) (4794794198 / 100000000),
  row "22049" 22 "Ti" (541 / 10000) (4894786568 / 100000000),
  row "22050" 22 "Ti" (518 / 10000) (4994478689 / 100000000),
  row "23050" 23 "V" (25 / 10000) (4994715601 / 100000000),
  row "23051" 23 "V" (9975 / 10000) (5094395704 / 100000000),
  row "24050" 24 "Cr" (4345 / 100000) (4994604183 / 100000000),
  row "24052" 24 "Cr" (8378899999999999 / 10000000000000000) (5194050623 / 100000000),
  row "24053" 24 "Cr" (9501 / 100000) (5294064815 / 100000000),
  row "24054" 24 "Cr" (2365 / 100000) (5393887916 / 100000000),
  row "25055" 25 "Mn" (10 / 10) (5493804391 / 100000000),
  row "26054" 26 "Fe" (5845 / 100000) (5393960899 / 100000000),
  row "26056" 26 "Fe" (9175399999999999 / 10000000000000000) (5593493633 / 100000000),
  row "26057" 26 "Fe" (2119 / 100000) (5693539284 / 100000000),
  row "26058" 26 "Fe" (282 / 100000) (5793327443 / 100000000),
  row "27059" 27 "Co" (10 / 10) (5893319429 / 100000000),
  row "28058" 28 "Ni" (680769 / 1000000) (5793534241 / 100000000),
  row "28060" 28 "Ni" (262231 / 1000000) (5993078588 / 100000000),
  row "28061" 28 "Ni" (11399 / 1000000) (6093105557 / 100000000),
  row "28062" 28 "Ni" (36345 / 1000000) (6192834537 / 100000000),
  row "28064" 28 "Ni" (9256 / 1000000) (6392796682 / 100000000),
  row "29063" 29 "Cu" (6915 / 10000) (6292959772 / 100000000),
  row "29065" 29 "Cu" (3085 / 10000) (649277897 / 10000000),
  row "30064" 30 "Zn" (4917 / 10000) (6392914201 / 100000000),
  row "30066" 30 "Zn" (2773 / 10000) (6592603381 / 100000000),
  row "30067" 30 "Zn" (404 / 10000) (6692712775 / 100000000),
  row "30068" 30 "Zn" (1845 / 10000) (6792484455 / 100000000),
  row "30070" 30 "Zn" (61 / 10000) (699253192 / 10000000),
  row "31069" 31 "Ga" (6010800000000001 / 10000000000000000) (689255735 / 10000000),
  row "31071" 31 "Ga" (39892 / 100000) (7092470258 / 100000000),
  row "32070" 32 "Ge" (2052 / 10000) (6992424875 / 100000000)]

/-- src/f4enix/resources/Isotopes.txt, rows 81 to 120 -/
def shippedRows2 : List Iso := [
  row "32072" 32 "Ge" (2745 / 10000) (7192207583 / 100000000),
  row "32073" 32 "Ge" (776 / 10000) (7292345896 / 100000000),
  row "32074" 32 "Ge" (3652 / 10000) (7392117776 / 100000000),
  row "32076" 32 "Ge" (775 / 10000) (7592140273 / 100000000),
  row "33075" 33 "As" (10 / 10) (7492159457 / 100000000),
  row "34074" 34 "Se" (86 / 10000) (7392247593 / 100000000),
  row "34076" 34 "Se" (923 / 10000) (759192137 / 10000000),
  row "34077" 34 "Se" (76 / 1000) (7691991415 / 100000000),
  row "34078" 34 "Se" (2369 / 10000) (7791730928 / 100000000),
  row "34080" 34 "Se" (498 / 1000) (799165218 / 10000000),
  row "34082" 34 "Se" (882 / 10000) (819166995 / 10000000),
  row "35079" 35 "Br" (5065 / 10000) (789183376 / 10000000),
  row "35081" 35 "Br" (4935 / 10000) (809162897 / 10000000),
  row "36078" 36 "Kr" (355 / 100000) (7792036494 / 100000000),
  row "36080" 36 "Kr" (2286 / 100000) (7991637808 / 100000000),
  row "36082" 36 "Kr" (11592999999999999 / 100000000000000000) (8191348273 / 100000000),
  row "36083" 36 "Kr" (115 / 1000) (8291412716 / 100000000),
  row "36084" 36 "Kr" (56987 / 100000) (8391149773 / 100000000),
  row "36086" 36 "Kr" (17279 / 100000) (8591061063 / 100000000),
  row "37085" 37 "Rb" (7217 / 10000) (8491178974 / 100000000),
  row "37087" 37 "Rb" (2783 / 10000) (8690918053 / 100000000),
  row "38084" 38 "Sr" (56 / 10000) (839134191 / 10000000),
  row "38086" 38 "Sr" (986 / 10000) (859092606 / 10000000),
  row "38087" 38 "Sr" (7 / 100) (869088775 / 10000000),
  row "38088" 38 "Sr" (8258 / 10000) (879056125 / 10000000),
  row "39089" 39 "Y" (10 / 10) (889058403 / 10000000),
  row "40090" 40 "Zr" (5145 / 10000) (899046977 / 10000000),
  row "40091" 40 "Zr" (1122 / 10000) (909056396 / 10000000),
  row "40092" 40 "Zr" (1715 / 10000) (919050347 / 10000000),
  row "40094" 40 "Zr" (1738 / 10000) (939063108 / 10000000),
  row "40096" 40 "Zr" (27999999999999997 / 1000000000000000000) (959082714 / 10000000),
  row "41093" 41 "Nb" (10 / 10) (92906373 / 1000000),
  row "42092" 42 "Mo" (14649 / 100000) (9190680796 / 100000000),
  row "42094" 42 "Mo" (9187000000000001 / 100000000000000000) (939050849 / 10000000),
  row "42095" 42 "Mo" (15872999999999998 / 100000000000000000) (9490583877 / 100000000),
  row "42096" 42 "Mo" (16673 / 100000) (9590467612 / 100000000),
  row "42097" 42 "Mo" (9582 / 100000) (9690601812 / 100000000),
  row "42098" 42 "Mo" (24291999999999997 / 100000000000000000) (9790540482 / 100000000),
  row "42100" 42 "Mo" (9744 / 100000) (999074718 / 10000000),
  row "43097" 43 "Tc" (10 / 10) (969063667 / 10000000)]

/-- src/f4enix/resources/Isotopes.txt, rows 121 to 160 -/
def shippedRows3 : List Iso := [
  row "44096" 44 "Ru" (554 / 10000) (9590759025 / 100000000),
  row "44098" 44 "Ru" (187 / 10000) (979052868 / 10000000),
  row "44099" 44 "Ru" (1276 / 10000) (989059341 / 10000000),
  row "44100" 44 "Ru" (126 / 1000) (999042143 / 10000000),
  row "44101" 44 "Ru" (1706 / 10000) (1009055769 / 10000000),
  row "44102" 44 "Ru" (3155 / 10000) (1019043441 / 10000000),
  row "44104" 44 "Ru" (1862 / 10000) (1039054275 / 10000000),
  row "45103" 45 "Rh" (10 / 10) (102905498 / 1000000),
  row "46102" 46 "Pd" (102 / 10000) (1019056022 / 10000000),
  row "46104" 46 "Pd" (1114 / 10000) (1039040305 / 10000000),
  row "46105" 46 "Pd" (2233 / 10000) (1049050796 / 10000000),
  row "46106" 46 "Pd" (2733 / 10000) (1059034804 / 10000000),
  row "46108" 46 "Pd" (2646 / 10000) (1079038916 / 10000000),
  row "46110" 46 "Pd" (1172 / 10000) (1099051722 / 10000000),
  row "47107" 47 "Ag" (51839 / 100000) (1069050916 / 10000000),
  row "47109" 47 "Ag" (48161000000000004 / 100000000000000000) (1089047553 / 10000000),
  row "48106" 48 "Cd" (1245 / 100000) (1059064599 / 10000000),
  row "48108" 48 "Cd" (8879999999999999 / 1000000000000000000) (1079041834 / 10000000),
  row "48110" 48 "Cd" (1247 / 10000) (1099030066 / 10000000),
  row "48111" 48 "Cd" (12795 / 100000) (1109041829 / 10000000),
  row "48112" 48 "Cd" (24109 / 100000) (1119027629 / 10000000),
  row "48113" 48 "Cd" (12227 / 100000) (1129044081 / 10000000),
  row "48114" 48 "Cd" (28754 / 100000) (1139033651 / 10000000),
  row "48116" 48 "Cd" (7512 / 100000) (1159047632 / 10000000),
  row "49113" 49 "In" (4281 / 100000) (1129040618 / 10000000),
  row "49115" 49 "In" (95719 / 100000) (1149038788 / 10000000),
  row "50112" 50 "Sn" (97 / 10000) (1119048239 / 10000000),
  row "50114" 50 "Sn" (66 / 10000) (1139027827 / 10000000),
  row "50115" 50 "Sn" (34 / 10000) (1149033447 / 10000000),
  row "50116" 50 "Sn" (1454 / 10000) (1159017428 / 10000000),
  row "50117" 50 "Sn" (768 / 10000) (116902954 / 1000000),
  row "50118" 50 "Sn" (2422 / 10000) (1179016066 / 10000000),
  row "50119" 50 "Sn" (859 / 10000) (1189033112 / 10000000),
  row "50120" 50 "Sn" (3258 / 10000) (1199022016 / 10000000),
  row "50122" 50 "Sn" (463 / 10000) (1219034438 / 10000000),
  row "50124" 50 "Sn" (579 / 10000) (1239052766 / 10000000),
  row "51121" 51 "Sb" (5721 / 10000) (120903812 / 1000000),
  row "51123" 51 "Sb" (4279 / 10000) (1229042132 / 10000000),
  row "52120" 52 "Te" (9 / 10000) (1199040593 / 10000000),
  row "52122" 52 "Te" (255 / 10000) (1219030435 / 10000000)]

/-- src/f4enix/resources/Isotopes.txt, rows 161 to 200 -/
def shippedRows4 : List Iso := [
  row "52123" 52 "Te" (89 / 10000) (1229042698 / 10000000),
  row "52124" 52 "Te" (474 / 10000) (1239028171 / 10000000),
  row "52125" 52 "Te" (707 / 10000) (1249044299 / 10000000),
  row "52126" 52 "Te" (1884 / 10000) (1259033109 / 10000000),
  row "52128" 52 "Te" (3174 / 10000) (1279044613 / 10000000),
  row "52130" 52 "Te" (3408 / 10000) (1299062227 / 10000000),
  row "53127" 53 "I" (10 / 10) (1269044719 / 10000000),
  row "54124" 54 "Xe" (95 / 100000) (123905892 / 1000000),
  row "54126" 54 "Xe" (8900000000000001 / 10000000000000000000) (1259042983 / 10000000),
  row "54128" 54 "Xe" (191 / 10000) (127903531 / 1000000),
  row "54129" 54 "Xe" (26400999999999997 / 100000000000000000) (1289047809 / 10000000),
  row "54130" 54 "Xe" (4071 / 100000) (1299035093 / 10000000),
  row "54131" 54 "Xe" (21231999999999998 / 100000000000000000) (1309050841 / 10000000),
  row "54132" 54 "Xe" (26909 / 100000) (1319041551 / 10000000),
  row "54134" 54 "Xe" (10436 / 100000) (1339053947 / 10000000),
  row "54136" 54 "Xe" (8857000000000001 / 100000000000000000) (1359072145 / 10000000),
  row "55133" 55 "Cs" (10 / 10) (132905452 / 1000000),
  row "56130" 56 "Ba" (11 / 10000) (1299063207 / 10000000),
  row "56132" 56 "Ba" (1 / 1000) (1319050611 / 10000000),
  row "56134" 56 "Ba" (242 / 10000) (1339045082 / 10000000),
  row "56135" 56 "Ba" (659 / 10000) (1349056884 / 10000000),
  row "56136" 56 "Ba" (785 / 10000) (1359045757 / 10000000),
  row "56137" 56 "Ba" (1123 / 10000) (1369058271 / 10000000),
  row "56138" 56 "Ba" (7170000000000001 / 10000000000000000) (137905247 / 1000000),
  row "57138" 57 "La" (8881000000000001 / 10000000000000000000) (1379071149 / 10000000),
  row "57139" 57 "La" (9991119 / 10000000) (1389063563 / 10000000),
  row "58136" 58 "Ce" (186 / 100000) (1359071292 / 10000000),
  row "58138" 58 "Ce" (251 / 100000) (137905991 / 1000000),
  row "58140" 58 "Ce" (88449 / 100000) (1399054431 / 10000000),
  row "58142" 58 "Ce" (11114 / 100000) (1419092504 / 10000000),
  row "59141" 59 "Pr" (10 / 10) (1409076576 / 10000000),
  row "60142" 60 "Nd" (27153 / 100000) (141907729 / 1000000),
  row "60143" 60 "Nd" (12172999999999999 / 100000000000000000) (14290982 / 100000),
  row "60144" 60 "Nd" (23798000000000002 / 100000000000000000) (143910093 / 1000000),
  row "60145" 60 "Nd" (8292999999999999 / 100000000000000000) (1449125793 / 10000000),
  row "60146" 60 "Nd" (17189000000000002 / 100000000000000000) (1459131226 / 10000000),
  row "60148" 60 "Nd" (5756 / 100000) (1479168993 / 10000000),
  row "60150" 60 "Nd" (5637999999999999 / 100000000000000000) (1499209022 / 10000000),
  row "61145" 61 "Pm" (10 / 10) (1449127559 / 10000000),
  row "62144" 62 "Sm" (308 / 10000) (1439120065 / 10000000)]

/-- src/f4enix/resources/Isotopes.txt, rows 201 to 240 -/
def shippedRows5 : List Iso := [
  row "62147" 62 "Sm" (15 / 100) (1469149044 / 10000000),
  row "62148" 62 "Sm" (1125 / 10000) (1479148292 / 10000000),
  row "62149" 62 "Sm" (1382 / 10000) (1489171921 / 10000000),
  row "62150" 62 "Sm" (737 / 10000) (1499172829 / 10000000),
  row "62152" 62 "Sm" (2674 / 10000) (1519197397 / 10000000),
  row "62154" 62 "Sm" (2274 / 10000) (1539222169 / 10000000),
  row "63151" 63 "Eu" (4781 / 10000) (1509198578 / 10000000),
  row "63153" 63 "Eu" (5219 / 10000) (152921238 / 1000000),
  row "64152" 64 "Gd" (2 / 1000) (1519197995 / 10000000),
  row "64154" 64 "Gd" (218 / 10000) (1539208741 / 10000000),
  row "64155" 64 "Gd" (14800000000000002 / 100000000000000000) (1549226305 / 10000000),
  row "64156" 64 "Gd" (2047 / 10000) (1559221312 / 10000000),
  row "64157" 64 "Gd" (1565 / 10000) (1569239686 / 10000000),
  row "64158" 64 "Gd" (2484 / 10000) (1579241123 / 10000000),
  row "64160" 64 "Gd" (2186 / 10000) (1599270624 / 10000000),
  row "65159" 65 "Tb" (10 / 10) (1589253547 / 10000000),
  row "66156" 66 "Dy" (56 / 100000) (1559242847 / 10000000),
  row "66158" 66 "Dy" (95 / 100000) (1579244159 / 10000000),
  row "66160" 66 "Dy" (2329 / 100000) (1599252046 / 10000000),
  row "66161" 66 "Dy" (18889 / 100000) (1609269405 / 10000000),
  row "66162" 66 "Dy" (25475 / 100000) (1619268056 / 10000000),
  row "66163" 66 "Dy" (24896 / 100000) (1629287383 / 10000000),
  row "66164" 66 "Dy" (2826 / 10000) (1639291819 / 10000000),
  row "67165" 67 "Ho" (10 / 10) (1649303288 / 10000000),
  row "68162" 68 "Er" (139 / 100000) (1619287884 / 10000000),
  row "68164" 68 "Er" (1601 / 100000) (1639292088 / 10000000),
  row "68166" 68 "Er" (33503 / 100000) (1659302995 / 10000000),
  row "68167" 68 "Er" (22869 / 100000) (1669320546 / 10000000),
  row "68168" 68 "Er" (26978 / 100000) (1679323767 / 10000000),
  row "68170" 68 "Er" (1491 / 10000) (1699354702 / 10000000),
  row "69169" 69 "Tm" (10 / 10) (1689342179 / 10000000),
  row "70168" 70 "Yb" (126 / 100000) (1679338896 / 10000000),
  row "70170" 70 "Yb" (3023 / 100000) (1699347664 / 10000000),
  row "70171" 70 "Yb" (14215999999999998 / 100000000000000000) (1709363302 / 10000000),
  row "70172" 70 "Yb" (21754 / 100000) (1719363859 / 10000000),
  row "70173" 70 "Yb" (16097999999999998 / 100000000000000000) (1729382151 / 10000000),
  row "70174" 70 "Yb" (31895999999999997 / 100000000000000000) (1739388664 / 10000000),
  row "70176" 70 "Yb" (12887 / 100000) (1759425764 / 10000000),
  row "71175" 71 "Lu" (97401 / 100000) (1749407752 / 10000000),
  row "71176" 71 "Lu" (2599 / 100000) (1759426897 / 10000000)]

/-- src/f4enix/resources/Isotopes.txt, rows 241 to 280 -/
def shippedRows6 : List Iso := [
  row "72174" 72 "Hf" (16 / 10000) (1739400461 / 10000000),
  row "72176" 72 "Hf" (526 / 10000) (1759414076 / 10000000),
  row "72177" 72 "Hf" (18600000000000003 / 100000000000000000) (1769432277 / 10000000),
  row "72178" 72 "Hf" (2728 / 10000) (1779437058 / 10000000),
  row "72179" 72 "Hf" (1362 / 10000) (1789458232 / 10000000),
  row "72180" 72 "Hf" (3508 / 10000) (179946557 / 1000000),
  row "73180" 73 "Ta" (1176 / 10000000) (1799474648 / 10000000),
  row "73181" 73 "Ta" (9998824000000001 / 10000000000000000) (1809479958 / 10000000),
  row "74180" 74 "W" (12 / 10000) (1799467108 / 10000000),
  row "74182" 74 "W" (265 / 1000) (1819482039 / 10000000),
  row "74183" 74 "W" (1431 / 10000) (1829502228 / 10000000),
  row "74184" 74 "W" (3064 / 10000) (1839509309 / 10000000),
  row "74186" 74 "W" (2843 / 10000) (1859543628 / 10000000),
  row "75185" 75 "Re" (374 / 1000) (1849529545 / 10000000),
  row "75187" 75 "Re" (626 / 1000) (1869557501 / 10000000),
  row "76184" 76 "Os" (2 / 10000) (1839524885 / 10000000),
  row "76186" 76 "Os" (159 / 10000) (185953835 / 1000000),
  row "76187" 76 "Os" (196 / 10000) (1869557474 / 10000000),
  row "76188" 76 "Os" (1324 / 10000) (1879558352 / 10000000),
  row "76189" 76 "Os" (1615 / 10000) (1889581442 / 10000000),
  row "76190" 76 "Os" (2626 / 10000) (1899584437 / 10000000),
  row "76192" 76 "Os" (4078 / 10000) (191961477 / 1000000),
  row "77191" 77 "Ir" (3723 / 10000) (1909605893 / 10000000),
  row "77193" 77 "Ir" (6277 / 10000) (1929629216 / 10000000),
  row "78190" 78 "Pt" (11999999999999999 / 100000000000000000000) (1899599297 / 10000000),
  row "78192" 78 "Pt" (782 / 100000) (1919610387 / 10000000),
  row "78194" 78 "Pt" (32864 / 100000) (1939626809 / 10000000),
  row "78195" 78 "Pt" (33775 / 100000) (1949647917 / 10000000),
  row "78196" 78 "Pt" (25211 / 100000) (1959649521 / 10000000),
  row "78198" 78 "Pt" (7356 / 100000) (1979678949 / 10000000),
  row "79197" 79 "Au" (10 / 10) (1969665688 / 10000000),
  row "80196" 80 "Hg" (15 / 10000) (1959658326 / 10000000),
  row "80198" 80 "Hg" (1004 / 10000) (1979667686 / 10000000),
  row "80199" 80 "Hg" (1694 / 10000) (1989682806 / 10000000),
  row "80200" 80 "Hg" (2314 / 10000) (1999683266 / 10000000),
  row "80201" 80 "Hg" (1317 / 10000) (2009703028 / 10000000),
  row "80202" 80 "Hg" (2974 / 10000) (2019706434 / 10000000),
  row "80204" 80 "Hg" (682 / 10000) (203973494 / 1000000),
  row "81203" 81 "Tl" (29515 / 100000) (2029723446 / 10000000),
  row "81205" 81 "Tl" (70485 / 100000) (2049744278 / 10000000)]

/-- src/f4enix/resources/Isotopes.txt, rows 281 to 320 -/
def shippedRows7 : List Iso := [
  row "82204" 82 "Pb" (13999999999999999 / 1000000000000000000) (203973044 / 1000000),
  row "82206" 82 "Pb" (24100000000000002 / 100000000000000000) (2059744657 / 10000000),
  row "82207" 82 "Pb" (221 / 1000) (2069758973 / 10000000),
  row "82208" 82 "Pb" (524 / 1000) (2079766525 / 10000000),
  row "83209" 83 "Bi" (10 / 10) (2089803991 / 10000000),
  row "84209" 84 "Po" (10 / 10) (2089824308 / 10000000),
  row "85210" 85 "At" (10 / 10) (2099871479 / 10000000),
  row "86222" 86 "Rn" (10 / 10) (2220175782 / 10000000),
  row "87223" 87 "Fr" (10 / 10) (223019736 / 1000000),
  row "88226" 88 "Ra" (10 / 10) (2260254103 / 10000000),
  row "89227" 89 "Ac" (10 / 10) (2270277523 / 10000000),
  row "90230" 90 "Th" (2 / 10000) (2300331341 / 10000000),
  row "90232" 90 "Th" (9998 / 10000) (2320380558 / 10000000),
  row "91231" 91 "Pa" (10 / 10) (2310358842 / 10000000),
  row "92234" 92 "U" (54000000000000005 / 1000000000000000000000) (2340409523 / 10000000),
  row "92235" 92 "U" (7204 / 1000000) (2350439301 / 10000000),
  row "92238" 92 "U" (992742 / 1000000) (2380507884 / 10000000),
  row "93237" 93 "Np" (1) (2370481736 / 10000000),
  row "94244" 94 "Pu" (1) (2440642053 / 10000000),
  row "95243" 95 "Am" (1) (2430613813 / 10000000),
  row "96247" 96 "Cm" (1) (2470703541 / 10000000),
  row "97247" 97 "Bk" (1) (2470703073 / 10000000),
  row "98251" 98 "Cf" (1) (2510795886 / 10000000),
  row "99252" 99 "Es" (1) (25208298 / 100000),
  row "100257" 100 "Fm" (1) (2570951061 / 10000000),
  row "101258" 101 "Md" (1) (2580984315 / 10000000),
  row "102259" 102 "Nb" (1) (25910103 / 100000),
  row "103262" 103 "Lr" (1) (26210961 / 100000),
  row "104263" 104 "Rf" (1) (26712179 / 100000),
  row "105262" 105 "Db" (1) (26812567 / 100000),
  row "106266" 106 "Sg" (1) (27113393 / 100000),
  row "107264" 107 "Bh" (1) (27213826 / 100000),
  row "108269" 108 "Hs" (1) (27013429 / 100000),
  row "109268" 109 "Mt" (1) (27615159 / 100000),
  row "110272" 110 "Uun" (1) (28116451 / 100000),
  row "111272" 111 "Uuu" (1) (28016514 / 100000),
  row "112277" 112 "Uub" (1) (28517712 / 100000),
  row "114289" 114 "Uuq" (1) (28919042 / 100000),
  row "116289" 116 "Uuh" (1) (29320449 / 100000),
  row "118293" 118 "Uuo" (1) (29421392 / 100000)]

/-- src/f4enix/resources/Isotopes.txt -/
def shippedIsotopes : List Iso :=
  shippedRows0 ++ shippedRows1 ++ shippedRows2 ++ shippedRows3 ++ shippedRows4 ++ shippedRows5 ++ shippedRows6 ++ shippedRows7

/-- the shipped table is sane, whatever the libraries are -/
theorem shipped_nodup : (shippedIsotopes.map Iso.idx).Nodup := by decide +kernel

theorem shipped_form : ∀ r ∈ shippedIsotopes, (last3 r.idx).length = 3 ∧ '.' ∉ last3 r.idx ∧
    r.idx = natStr r.z ++ last3 r.idx := by decide +kernel

theorem shipped_pos : ∀ r ∈ shippedIsotopes, 0 < r.ab ∧ 0 < r.mass := by decide +kernel

/-- **C28 (shipped table).** A library manager using the shipped isotope table meets the hypotheses of
the translation theorems. -/
theorem shipped_tableOk (lm : LibMan) (h : lm.isos = shippedIsotopes)
    (hl : ∀ l ∈ lm.libs, '.' ∉ l) : TableOk lm where
  idxNodup := by rw [h]; exact shipped_nodup
  idxForm := by
    rw [h]; intro r hr
    exact ⟨last3 r.idx, shipped_form r hr⟩
  pos := by rw [h]; exact shipped_pos
  libsDot := hl

/-- abundance sum over the rows of the shipped table -/
def shippedAbundance (n : ℕ) : ℚ :=
  ((shippedIsotopes.filter (fun r => decide (r.z = n))).map Iso.ab).sum

theorem shipped_abundance_rows : ∀ r ∈ shippedIsotopes,
    |shippedAbundance r.z - 1| ≤ 15 / 100000 ∧
    (r.z ∉ [8, 12, 16, 18] → |shippedAbundance r.z - 1| ≤ 1 / 10 ^ 15) := by decide +kernel

/-- **C28 (shipped table).** The abundances of every element of the shipped table add up to one within
1.5·10⁻⁴, and within 10⁻¹⁵ except for oxygen, magnesium, sulphur and argon. -/
theorem shipped_abundance (lm : LibMan) (h : lm.isos = shippedIsotopes) (n : ℕ)
    (hn : lm.isotopesOf n ≠ []) :
    |lm.abundance n - 1| ≤ 15 / 100000 ∧
    (n ∉ [8, 12, 16, 18] → |lm.abundance n - 1| ≤ 1 / 10 ^ 15) := by
  obtain ⟨r, hr⟩ := List.exists_mem_of_ne_nil _ hn
  simp only [LibMan.isotopesOf, List.mem_filter, decide_eq_true_eq] at hr
  rw [h] at hr
  have := shipped_abundance_rows r hr.1
  rw [hr.2] at this
  have he : lm.abundance n = shippedAbundance n := by
    simp only [LibMan.abundance, LibMan.isotopesOf, h, shippedAbundance]
  rw [he]; exact this

/-- **C28 (shipped table).** With the shipped table, translating atom fractions changes the amount of an
element by at most 0.015 %. -/
theorem shipped_translate_atom (lm : LibMan) (hiso : lm.isos = shippedIsotopes)
    (hl : ∀ l ∈ lm.libs, '.' ∉ l) {s s' : SubMat} {nl : NewLib}
    (h : s.translate nl lm = .ok s') (hc : ∀ z ∈ s.zaids, Canon z)
    (hel : ∀ z ∈ s.zaids, ∃ n, lm.IsElement z n) (hpos : ∀ z ∈ s.zaids, 0 ≤ z.fraction) (e : Str) :
    |elementAmount e s'.zaids - elementAmount e (s.zaids.filter (kept nl lm))| ≤
      15 / 100000 * elementAmount e (s.zaids.filter (kept nl lm)) :=
  translate_atom_element lm (shipped_tableOk lm hiso hl) h hc (by norm_num)
    (fun z hz => by
      obtain ⟨n, hn⟩ := hel z hz
      exact ⟨n, hn, (shipped_abundance lm hiso n hn.2).1⟩) hpos e

/-- **C28 (limit).** For natural oxygen the shipped abundances do not add up to one. -/
theorem shipped_oxygen : shippedAbundance 8 = 1 - 15 / 10 ^ 7 := by decide +kernel

end F4Enix.Mat
