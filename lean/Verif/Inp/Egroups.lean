import Verif.Inp.AceProps
import Mathlib.Tactic.Linarith
/-!
# The group structures shipped with F4Enix (`src/f4enix/egroups.py`)

Every structure of the file, generated from it: the name, the number of decimals and the edges in units of the last decimal
(in eV; exact decimal numbers).
-/
namespace F4Enix.Ace
open F4Enix

/-- a structure: its name, and its edges in units of `10 ^ (-decimals)` (egroups.py:1-5630) -/
structure Groups where
  family : String
  count : ℕ
  decimals : ℕ
  edges : List ℕ

/-- egroups.py:70-70, edges from number 0 on -/
def casmo2_0 : List ℕ := [
  0, 625, 20000000000]

/-- egroups.py:70-70 -/
def casmo2 : Groups := ⟨"CASMO", 2, 3, casmo2_0⟩

/-- egroups.py:71-71, edges from number 0 on -/
def casmo4_0 : List ℕ := [
  0, 625, 5530000, 821000000, 20000000000]

/-- egroups.py:71-71 -/
def casmo4 : Groups := ⟨"CASMO", 4, 3, casmo4_0⟩

/-- egroups.py:72-74, edges from number 0 on -/
def casmo8_0 : List ℕ := [
  0, 58, 140, 280, 625, 4000, 5530000, 821000000, 20000000000]

/-- egroups.py:72-74 -/
def casmo8 : Groups := ⟨"CASMO", 8, 3, casmo8_0⟩

/-- egroups.py:75-95, edges from number 0 on -/
def casmo16_0 : List ℕ := [
  0, 30, 58, 140, 280, 350, 625, 850, 972, 1020, 1097, 1150, 1300, 4000, 5530000, 821000000, 20000000000]

/-- egroups.py:75-95 -/
def casmo16 : Groups := ⟨"CASMO", 16, 3, casmo16_0⟩

/-- egroups.py:96-125, edges from number 0 on -/
def casmo25_0 : List ℕ := [
  0, 30, 58, 140, 280, 350, 625, 972, 1020, 1097, 1150, 1855, 4000, 9877, 15968, 148730, 5530000, 9118000, 111000000, 500000000, 821000000,
  1353000000, 2231000000, 3679000000, 6065500000, 20000000000]

/-- egroups.py:96-125 -/
def casmo25 : Groups := ⟨"CASMO", 25, 3, casmo25_0⟩

/-- egroups.py:126-170, edges from number 0 on -/
def casmo40_0 : List ℕ := [
  0, 15, 30, 42, 58, 80, 100, 140, 180, 220, 280, 350, 625, 850, 950, 972, 1020, 1097, 1150, 1300, 1500, 1855, 2100, 2600, 3300, 4000,
  9877, 15968, 27700, 48052, 148730, 5530000, 9118000, 111000000, 500000000, 821000000, 1353000000, 2231000000, 3679000000, 6065500000,
  20000000000]

/-- egroups.py:126-170 -/
def casmo40 : Groups := ⟨"CASMO", 40, 3, casmo40_0⟩

/-- egroups.py:171-217, edges from number 0 on -/
def vitaminj42_0 : List ℕ := [
  1000, 10000, 20000, 30000, 45000, 60000, 70000, 75000, 100000, 150000, 200000, 300000, 400000, 450000, 510000, 512000, 600000, 700000,
  800000, 1000000, 1330000, 1340000, 1500000, 1660000, 2000000, 2500000, 3000000, 3500000, 4000000, 4500000, 5000000, 5500000, 6000000,
  6500000, 7000000, 7500000, 8000000, 10000000, 12000000, 14000000, 20000000, 30000000, 50000000]

/-- egroups.py:171-217 -/
def vitaminj42 : Groups := ⟨"VITAMIN-J", 42, 0, vitaminj42_0⟩

/-- egroups.py:218-266, edges from number 0 on -/
def scale44_0 : List ℕ := [
  1, 300, 750, 1000, 2530, 3000, 4000, 5000, 7000, 10000, 15000, 20000, 22500, 25000, 27500, 32500, 35000, 37500, 40000, 62500, 100000,
  177000, 300000, 475000, 600000, 810000, 1000000, 3000000, 10000000, 55000000, 300000000, 1700000000, 2500000000, 10000000000,
  40000000000, 90000000000, 140000000000, 185000000000, 235400000000, 247900000000, 300000000000, 480000000000, 643400000000, 818730000000,
  2000000000000]

/-- egroups.py:218-266 -/
def scale44 : Groups := ⟨"SCALE", 44, 5, scale44_0⟩

/-- egroups.py:267-322, edges from number 0 on -/
def mpact51_0 : List ℕ := [
  0, 10, 30, 40, 60, 80, 100, 150, 200, 275, 350, 500, 625, 750, 925, 975, 1010, 1080, 1130, 1175, 1250, 1450, 1860, 2470, 3730, 4700,
  5000, 5400, 6250, 7150, 8100, 11900, 14400, 30000, 48300, 76000, 143000, 305000, 950000, 2250000, 9500000, 20000000, 50000000, 73000000,
  200000000, 492000000, 820000000, 1356000000, 2354000000, 4304000000, 6434000000, 20000000000]

/-- egroups.py:267-322 -/
def mpact51 : Groups := ⟨"MPACT", 51, 3, mpact51_0⟩

/-- egroups.py:323-387, edges from number 0 on -/
def mpact60_0 : List ℕ := [
  0, 10, 30, 40, 60, 80, 100, 150, 200, 275, 350, 500, 625, 750, 925, 975, 1010, 1080, 1130, 1175, 1250, 1450, 1860, 2470, 3730, 4700,
  5000, 5400, 6250, 7150, 8100, 11900, 14400, 30000, 48300, 76000, 143000, 209500, 305000, 670000, 950000, 1550000, 2250000, 3900000,
  9500000, 13000000, 20000000, 30000000, 50000000, 73000000, 128300000, 200000000, 330000000, 492000000, 670000000, 820000000, 1356000000,
  2354000000, 4304000000, 6434000000, 20000000000]

/-- egroups.py:323-387 -/
def mpact60 : Groups := ⟨"MPACT", 60, 3, mpact60_0⟩

/-- egroups.py:388-461, edges from number 0 on -/
def mpact69_0 : List ℕ := [
  0, 10, 30, 40, 60, 80, 90, 100, 125, 150, 175, 200, 225, 250, 275, 300, 325, 350, 375, 400, 450, 500, 550, 600, 625, 650, 750, 850, 925,
  975, 1010, 1080, 1130, 1175, 1250, 1450, 1860, 2470, 3000, 3730, 4700, 5000, 5400, 6250, 7150, 8100, 10000, 11900, 14400, 30000, 48300,
  76000, 143000, 305000, 550000, 950000, 2250000, 3900000, 9500000, 20000000, 50000000, 73000000, 200000000, 492000000, 820000000,
  1356000000, 2354000000, 4304000000, 6434000000, 20000000000]

/-- egroups.py:388-461 -/
def mpact69 : Groups := ⟨"MPACT", 69, 3, mpact69_0⟩

/-- egroups.py:462-536, edges from number 0 on -/
def casmo70_0 : List ℕ := [
  0, 5, 10, 15, 20, 25, 30, 35, 42, 50, 58, 67, 80, 100, 140, 180, 220, 250, 280, 300, 320, 350, 400, 500, 625, 780, 850, 910, 950, 972,
  996, 1020, 1045, 1071, 1097, 1123, 1150, 1300, 1500, 1855, 2100, 2600, 3300, 4000, 9877, 15968, 27700, 48052, 75501, 148730, 367260,
  906900, 1425100, 2239500, 3519100, 5530000, 9118000, 15030000, 24780000, 40850000, 67340000, 111000000, 183000000, 302500000, 500000000,
  821000000, 1353000000, 2231000000, 3679000000, 6065500000, 20000000000]

/-- egroups.py:462-536 -/
def casmo70 : Groups := ⟨"CASMO", 70, 3, casmo70_0⟩

/-- egroups.py:537-713, edges from number 0 on -/
def xmas172_0 : List ℕ := [
  100001, 30000000, 50000000, 69000000, 100000000, 150000000, 200000000, 250000000, 300000000, 350000000, 420000000, 500000000, 580000000,
  670000000, 770000000, 800000000, 950000000, 1000010000, 1150000000, 1340000000, 1400000000, 1600000000, 1800000000, 1890000000,
  2200000000, 2480000000, 2800000000, 3000000000, 3145000000, 3200000000, 3500000000, 3910000000, 4000000000, 4330000000, 4850000000,
  5000000000, 5400000000, 6250000000, 7050000000, 7800000000, 7900000000, 8500000000, 8600000000, 9100000000, 9300000000, 9500000000,
  9720000000, 9860000000, 9960000000, 10200000000, 10350000000, 10450000000, 10710000000, 10970000000, 11100000000, 11253500000,
  11500000000, 11700000000, 12350000000, 13000000000, 13375000000, 13700000000, 14449800000, 14750000000, 15000000000, 15900000000,
  16700000000, 17550000000, 18400000000, 19300000000, 20200000000, 21000000000, 21300000000, 23600000000, 25500000000, 26000000000,
  27200000000, 27679200000, 33000000000, 33807500000, 40000000000, 41292500000, 50434800000, 53464300000, 61601200000, 75239800000,
  83152900000, 91898100000, 99055500000, 112245000000, 137096000000, 159283000000, 194548000000, 226033000000, 249805000000, 276077000000,
  305113000000, 337201000000, 372665000000, 401690000000, 455174000000, 482516000000, 515780000000, 555951000000, 679041000000,
  756736000000, 916609000000, 1367420000000, 1486250000000, 2039950000000, 3043250000000, 3717030000000, 4539990000000, 6772870000000,
  7485180000000, 9142420000000, 10103900000000, 12341000000000, 14338200000000, 15073300000000, 20346800000000, 22486700000000,
  33546300000000, 35266200000000, 50045100000000, 55308400000000, 74658600000000, 91188200000000, 111378000000000, 150344000000000,
  166156000000000, 247875000000000, 273944000000000, 292830000000000, 369786000000000, 408677000000000, 551656000000000, 673795000000000,
  822975000000000, 1110900000000000, 1227730000000000, 1831560000000000, 2472350000000000, 2732370000000000, 3019740000000000,
  4076220000000000, 4504920000000000, 4978710000000000, 5502320000000000, 6081010000000000, 8208500000000000, 9071800000000000,
  10025900000000000, 11080300000000000, 12245600000000000, 13533500000000000, 16529900000000000, 20189700000000000, 22313000000000000,
  24659700000000000, 30119400000000000, 36787900000000000, 44932900000000000, 54881200000000000, 60653100000000000, 67032000000000000,
  81873100000000000, 100000000000000000, 116183000000000000, 138403000000000000, 149182000000000000, 173325000000000000,
  196403000000000000]

/-- egroups.py:537-713 -/
def xmas172 : Groups := ⟨"XMAS", 172, 10, xmas172_0⟩

/-- egroups.py:714-893, edges from number 0 on -/
def vitaminj175_0 : List ℕ := [
  1, 10000, 41399, 53158, 68256, 87643, 112530, 144500, 185540, 238240, 305900, 392790, 504350, 647590, 831530, 1067700, 1371000, 1760400,
  2260300, 2902300, 3726600, 4785100, 6144200, 7889300, 10130000, 13007000, 16702000, 21445000, 27536000, 35358000, 45400000, 58295000,
  74852000, 96112000, 123410000, 158460000, 203470000, 224870000, 248520000, 261260000, 274650000, 303540000, 335460000, 370740000,
  430740000, 553080000, 710170000, 911880000, 1059500000, 1170900000, 1503400000, 1930400000, 2187500000, 2357900000, 2417600000,
  2478800000, 2605800000, 2700000000, 2850100000, 3182800000, 3430700000, 4086800000, 4630900000, 5247500000, 5656200000, 6738000000,
  7202400000, 7949900000, 8250300000, 8651700000, 9803600000, 11109000000, 11679000000, 12277000000, 12907000000, 13569000000, 14264000000,
  14996000000, 15764000000, 16573000000, 17422000000, 18316000000, 19255000000, 20242000000, 21280000000, 22371000000, 23518000000,
  24724000000, 27324000000, 28725000000, 29452000000, 29721000000, 29849000000, 30197000000, 33373000000, 36883000000, 38774000000,
  40762000000, 45049000000, 49787000000, 52340000000, 55023000000, 57844000000, 60810000000, 63928000000, 67206000000, 70651000000,
  74274000000, 78082000000, 82085000000, 86294000000, 90718000000, 96167000000, 100260000000, 110800000000, 116480000000, 122460000000,
  128740000000, 135340000000, 142270000000, 149570000000, 157240000000, 165300000000, 173770000000, 182680000000, 192050000000,
  201900000000, 212250000000, 223130000000, 230690000000, 234570000000, 236530000000, 238510000000, 246600000000, 259240000000,
  272530000000, 286500000000, 301190000000, 316640000000, 332870000000, 367880000000, 406570000000, 449330000000, 472370000000,
  496580000000, 522050000000, 548810000000, 576950000000, 606530000000, 637630000000, 659240000000, 670320000000, 704690000000,
  740820000000, 778800000000, 818730000000, 860710000000, 904840000000, 951230000000, 1000000000000, 1051300000000, 1105200000000,
  1161800000000, 1221400000000, 1252300000000, 1284000000000, 1349900000000, 1384000000000, 1419100000000, 1455000000000, 1491800000000,
  1568300000000, 1648700000000, 1690500000000, 1733200000000, 1964000000000]

/-- egroups.py:714-893 -/
def vitaminj175 : Groups := ⟨"VITAMIN-J", 175, 5, vitaminj175_0⟩

/-- egroups.py:894-1150, edges from number 0 on -/
def scale252_0 : List ℕ := [
  0, 10, 50, 75, 100, 120, 150, 200, 250, 300, 400, 500, 750, 1000, 2530, 3000, 4000, 5000, 6000, 7000, 8000, 9000, 10000, 12500, 15000,
  17500, 20000, 22500, 25000, 27500, 30000, 32500, 35000, 37500, 40000, 45000, 50000, 55000, 60000, 62500, 65000, 70000, 75000, 80000,
  85000, 90000, 92500, 95000, 97500, 100000, 101000, 102000, 103000, 104000, 105000, 106000, 107000, 108000, 109000, 110000, 111000,
  112000, 113000, 114000, 115000, 117500, 120000, 122500, 125000, 130000, 135000, 140000, 145000, 150000, 159000, 168000, 177000, 186000,
  194000, 200000, 212000, 221000, 230000, 238000, 247000, 257000, 267000, 277000, 287000, 297000, 300000, 310000, 320000, 350000, 373000,
  410000, 470000, 500000, 540000, 600000, 625000, 650000, 675000, 687500, 700000, 715000, 810000, 910000, 1000000, 1150000, 1190000,
  1290000, 1440000, 1600000, 1700000, 1850000, 1940000, 2000000, 2050000, 2120000, 2175000, 2250000, 2500000, 2750000, 3000000, 3125000,
  3175000, 3325000, 3375000, 3500000, 3550000, 3600000, 3700000, 3713000, 3727000, 3763000, 3800000, 3910000, 3960000, 4100000, 4240000,
  4400000, 4520000, 4830000, 5060000, 5340000, 5800000, 6100000, 6300000, 6500000, 6750000, 7200000, 7600000, 8000000, 8170000, 9000000,
  9700000, 10120000, 10500000, 10800000, 11300000, 11600000, 11750000, 11900000, 12200000, 14300000, 17000000, 18000000, 18770000,
  18850000, 19150000, 19300000, 20200000, 20740000, 20950000, 22000000, 24000000, 28500000, 30500000, 55000000, 67000000, 68300000,
  95000000, 115000000, 150000000, 155000000, 180000000, 220000000, 225000000, 250000000, 300000000, 374000000, 390000000, 570000000,
  803000000, 950000000, 1300000000, 1700000000, 2000000000, 3000000000]

/-- egroups.py:894-1150, edges from number 200 on -/
def scale252_1 : List ℕ := [
  4500000000, 5000000000, 5200000000, 6000000000, 7300000000, 7500000000, 8200000000, 8500000000, 10000000000, 12830000000, 14900000000,
  20000000000, 27000000000, 33000000000, 40000000000, 42000000000, 44000000000, 47000000000, 49200000000, 55000000000, 57300000000,
  60000000000, 67000000000, 67900000000, 75000000000, 82000000000, 86110000000, 87500000000, 90000000000, 92000000000, 101000000000,
  110000000000, 120000000000, 125000000000, 131700000000, 135600000000, 140000000000, 150000000000, 185000000000, 235400000000,
  247900000000, 300000000000, 430400000000, 480000000000, 643400000000, 818700000000, 1000000000000, 1284000000000, 1384000000000,
  1455000000000, 1568000000000, 1733000000000, 2000000000000]

/-- egroups.py:894-1150 -/
def scale252 : Groups := ⟨"SCALE", 252, 5, scale252_0 ++ scale252_1⟩

/-- egroups.py:1151-1470, edges from number 0 on -/
def tripoli315_0 : List ℕ := [
  1, 11, 300, 550, 1000, 1500, 2000, 3000, 3200, 3238, 4300, 5900, 7700, 9500, 10000, 11500, 13400, 16000, 18900, 22000, 24800, 28250,
  31450, 35200, 39100, 41400, 43300, 48500, 53160, 54000, 62500, 68260, 70500, 79000, 86000, 87640, 93000, 98600, 101000, 103500, 107000,
  108000, 109000, 111000, 112500, 117000, 123500, 130500, 137000, 144000, 144500, 151000, 159000, 167000, 175500, 184000, 185500, 193000,
  202000, 213000, 236000, 237200, 276800, 305900, 338100, 392800, 412900, 447000, 467000, 504300, 562300, 616000, 647600, 707900, 752400,
  794300, 831500, 891300, 919000, 1000000, 1068000, 1122000, 1259000, 1371000, 1523000, 1674000, 1760000, 1903000, 2045000, 2260000,
  2498000, 2792000, 2920000, 3051000, 3389000, 3727000, 3981000, 4552000, 4785000, 5012000, 5559000, 6144000, 6310000, 6790000, 7079000,
  7889000, 8528000, 9166000, 10130000, 11220000, 13010000, 13670000, 15850000, 16700000, 17780000, 20400000, 21450000, 24300000, 27540000,
  30430000, 35360000, 39810000, 45400000, 51450000, 58300000, 63100000, 67730000, 70790000, 74850000, 84820000, 96110000, 101000000,
  111700000, 123400000, 136400000, 150700000, 158500000, 179600000, 203500000, 211300000, 224900000, 237100000, 248500000, 261300000,
  266100000, 274700000, 281800000, 303500000, 316200000, 335500000, 354800000, 370700000, 398100000, 430700000, 464300000, 500400000,
  553100000, 626700000, 710200000, 746600000, 825100000, 911900000, 1008000000, 1114000000, 1171000000, 1273000000, 1383000000, 1503000000,
  1585000000, 1662000000, 1778000000, 1931000000, 1995000000, 2054000000, 2113000000, 2187000000, 2239000000, 2304000000, 2358000000,
  2418000000, 2441000000, 2479000000, 2512000000, 2585000000, 2606000000, 2661000000, 2700000000, 2738000000, 2818000000, 2850000000,
  2901000000, 2985000000, 3073000000, 3162000000, 3183000000, 3431000000, 3698000000, 4087000000, 4359000000, 4631000000]

/-- egroups.py:1151-1470, edges from number 200 on -/
def tripoli315_1 : List ℕ := [
  4939000000, 5248000000, 5517000000, 5656000000, 6173000000, 6738000000, 7200000000, 7499000000, 7950000000, 8230000000, 8250000000,
  8652000000, 9804000000, 11110000000, 11680000000, 12280000000, 12910000000, 13570000000, 14260000000, 15000000000, 15760000000,
  16570000000, 17420000000, 18320000000, 19250000000, 20240000000, 21280000000, 22370000000, 23520000000, 24720000000, 27320000000,
  28730000000, 29450000000, 29720000000, 29850000000, 30200000000, 33370000000, 36880000000, 38770000000, 40760000000, 45050000000,
  52340000000, 55020000000, 57840000000, 60810000000, 63930000000, 67210000000, 70650000000, 74270000000, 78080000000, 82090000000,
  86290000000, 90720000000, 96160000000, 100300000000, 110800000000, 116500000000, 122500000000, 128700000000, 135300000000, 142300000000,
  149600000000, 157200000000, 165300000000, 173800000000, 182700000000, 192100000000, 201900000000, 212200000000, 223100000000,
  230700000000, 234600000000, 236500000000, 238500000000, 246600000000, 259200000000, 272500000000, 286500000000, 301200000000,
  316600000000, 332900000000, 367900000000, 406600000000, 449300000000, 472400000000, 496600000000, 522000000000, 548800000000,
  576900000000, 606500000000, 637600000000, 659200000000, 670300000000, 704700000000, 740800000000, 778800000000, 818700000000,
  860700000000, 904800000000, 951200000000, 1000000000000, 1051000000000, 1105000000000, 1162000000000, 1221000000000, 1284000000000,
  1350000000000, 1384000000000, 1419000000000, 1455000000000, 1492000000000, 1568000000000, 1649000000000, 1691000000000, 1733000000000,
  1964000000000]

/-- egroups.py:1151-1470 -/
def tripoli315 : Groups := ⟨"TRIPOLI", 315, 5, tripoli315_0 ++ tripoli315_1⟩

/-- egroups.py:1471-1836, edges from number 0 on -/
def shem361_0 : List ℕ := [
  0, 249990, 455602, 714526, 1045050, 1483000, 2001040, 2493940, 2929890, 3439980, 4029990, 4730190, 5549820, 6519990, 7649690, 8979680,
  10429800, 11999500, 13799900, 16189500, 19000500, 20961000, 23119200, 25499700, 27998900, 30501200, 32500800, 35299400, 39000100,
  43157900, 47501700, 52001100, 55499000, 59499300, 62499900, 71999900, 80037100, 88002400, 91997800, 94402200, 96396000, 98195900,
  99650100, 100904000, 102101000, 103499000, 107799000, 109198000, 110395000, 111605000, 112997000, 114797000, 116999000, 121397000,
  125094000, 129304000, 133095000, 138098000, 141001000, 144397000, 151998000, 158803000, 166895000, 177997000, 190008000, 198992000,
  207010000, 215695000, 221709000, 227299000, 233006000, 246994000, 255000000, 259009000, 262005000, 264004000, 270012000, 271990000,
  274092000, 277512000, 288405000, 314211000, 354307000, 371209000, 388217000, 400000000, 421983000, 430981000, 441980000, 476785000,
  493323000, 510997000, 521008000, 532011000, 538003000, 541025000, 548817000, 553004000, 561979000, 572015000, 580021000, 596014000,
  605991000, 616011000, 628016000, 635978000, 643206000, 648178000, 651492000, 653907000, 655609000, 657184000, 658829000, 660611000,
  663126000, 671668000, 674225000, 675981000, 677605000, 679165000, 681070000, 683526000, 687021000, 691778000, 699429000, 713987000,
  738015000, 760035000, 773994000, 783965000, 797008000, 813027000, 830032000, 852407000, 867369000, 880038000, 897995000, 914031000,
  950002000, 1057930000, 1080380000, 1105290000, 1126940000, 1158940000, 1170940000, 1181530000, 1197950000, 1213020000, 1230860000,
  1247210000, 1260000000, 1332970000, 1354600000, 1404960000, 1425050000, 1447020000, 1459520000, 1473010000, 1486620000, 1577920000,
  1604980000, 1655010000, 1683050000, 1744570000, 1756480000, 1775900000, 1795910000, 1908480000, 1919970000, 1939270000, 1959740000,
  2007340000, 2027510000, 2041750000, 2051990000, 2060210000, 2068470000, 2076760000, 2097630000, 2106040000, 2114480000, 2122960000,
  2133600000, 2148590000, 2170180000, 2200110000, 2215570000, 2237880000, 2253560000, 2465780000, 2788520000, 3169300000, 3308550000,
  3453920000, 3569800000, 3605680000, 3641910000, 3685880000, 3730380000, 3779190000]

/-- egroups.py:1471-1836, edges from number 200 on -/
def shem361_1 : List ℕ := [
  3878740000, 3972950000, 4122700000, 4214410000, 4312460000, 4417210000, 4529040000, 4620530000, 4751730000, 4925910000, 5178470000,
  5298950000, 5406000000, 5705950000, 5992500000, 6230830000, 6363060000, 6459230000, 6504600000, 6550290000, 6583120000, 6616120000,
  6649290000, 6682610000, 6906820000, 7188690000, 7355950000, 7633220000, 7936790000, 8393930000, 8877410000, 9332560000, 9732870000,
  10059400000, 10109800000, 10160500000, 10211500000, 10303800000, 10564600000, 11028800000, 11285400000, 11548000000, 11652400000,
  11757700000, 12055400000, 12622900000, 13270100000, 13950400000, 14665700000, 15417600000, 16305600000, 16751900000, 17522900000,
  18329500000, 18495200000, 18625100000, 18755900000, 18887700000, 19020400000, 19307800000, 19599600000, 20095800000, 21210800000,
  22432500000, 23559000000, 24179600000, 25674800000, 26829700000, 27646800000, 28488800000, 28832700000, 29592200000, 31992800000,
  33532300000, 35357500000, 37170300000, 39076000000, 41909400000, 45399900000, 50174600000, 53920400000, 57714600000, 59294100000,
  60009900000, 61283400000, 64683700000, 67728700000, 74851700000, 83221800000, 90968100000, 98249400000, 106432000000, 113467000000,
  134358000000, 158620000000, 181183000000, 208410000000, 239729000000, 270024000000, 299618000000, 348107000000, 409735000000,
  500451000000, 611252000000, 746585000000, 911881000000, 1113770000000, 1360370000000, 1489970000000, 1620050000000, 1858470000000,
  2269940000000, 2499910000000, 2610010000000, 2739440000000, 2928100000000, 3345960000000, 3697860000000, 4086770000000, 4991590000000,
  5516560000000, 6737940000000, 8229740000000, 9466450000000, 11562400000000, 12277300000000, 14000000000000, 16499900000000,
  19500800000000, 23001400000000, 26782600000000, 32064600000000, 38388400000000, 41250100000000, 45602100000000, 49400200000000,
  57844300000000, 70651100000000, 86000600000000, 95111900000000, 105115000000000, 116205000000000, 128696000000000, 133694000000000,
  140577000000000, 163654000000000, 190139000000000, 223130000000000, 272531000000000, 332871000000000, 406569000000000, 496585000000000,
  606530000000000, 670319000000000, 740817000000000, 818730000000000, 904836000000000, 999999000000000, 1161830000000000, 1384030000000000,
  1491820000000000, 1964030000000000]

/-- egroups.py:1471-1836 -/
def shem361 : Groups := ⟨"SHEM", 361, 8, shem361_0 ++ shem361_1⟩

/-- egroups.py:1837-2550, edges from number 0 on -/
def ccfe709_0 : List ℕ := [
  10000, 10471, 10965, 11482, 12023, 12589, 13183, 13804, 14454, 15136, 15849, 16596, 17378, 18197, 19055, 19953, 20893, 21878, 22909,
  23988, 25119, 26303, 27542, 28840, 30200, 31623, 33113, 34674, 36308, 38019, 39811, 41687, 43652, 45709, 47863, 50119, 52481, 54954,
  57544, 60256, 63096, 66069, 69183, 72444, 75858, 79433, 83176, 87096, 91201, 95499, 100000, 104710, 109650, 114820, 120230, 125890,
  131830, 138040, 144540, 151360, 158490, 165960, 173780, 181970, 190550, 199530, 208930, 218780, 229090, 239880, 251190, 263030, 275420,
  288400, 302000, 316230, 331130, 346740, 363080, 380190, 398110, 416870, 436520, 457090, 478630, 501190, 524810, 549540, 575440, 602560,
  630960, 660690, 691830, 724440, 758580, 794330, 831760, 870960, 912010, 954990, 1000000, 1047100, 1096500, 1148200, 1202300, 1258900,
  1318300, 1380400, 1445400, 1513600, 1584900, 1659600, 1737800, 1819700, 1905500, 1995300, 2089300, 2187800, 2290900, 2398800, 2511900,
  2630300, 2754200, 2884000, 3020000, 3162300, 3311300, 3467400, 3630800, 3801900, 3981100, 4168700, 4365200, 4570900, 4786300, 5011900,
  5248100, 5495400, 5754400, 6025600, 6309600, 6606900, 6918300, 7244400, 7585800, 7943300, 8317600, 8709600, 9120100, 9549900, 10000000,
  10471000, 10965000, 11482000, 12023000, 12589000, 13183000, 13804000, 14454000, 15136000, 15849000, 16596000, 17378000, 18197000,
  19055000, 19953000, 20893000, 21878000, 22909000, 23988000, 25119000, 26303000, 27542000, 28840000, 30200000, 31623000, 33113000,
  34674000, 36308000, 38019000, 39811000, 41687000, 43652000, 45709000, 47863000, 50119000, 52481000, 54954000, 57544000, 60256000,
  63096000, 66069000, 69183000, 72444000, 75858000, 79433000, 83176000, 87096000, 91201000, 95499000]

/-- egroups.py:1837-2550, edges from number 200 on -/
def ccfe709_1 : List ℕ := [
  100000000, 104710000, 109650000, 114820000, 120230000, 125890000, 131830000, 138040000, 144540000, 151360000, 158490000, 165960000,
  173780000, 181970000, 190550000, 199530000, 208930000, 218780000, 229090000, 239880000, 251190000, 263030000, 275420000, 288400000,
  302000000, 316230000, 331130000, 346740000, 363080000, 380190000, 398110000, 416870000, 436520000, 457090000, 478630000, 501190000,
  524810000, 549540000, 575440000, 602560000, 630960000, 660690000, 691830000, 724440000, 758580000, 794330000, 831760000, 870960000,
  912010000, 954990000, 1000000000, 1047100000, 1096500000, 1148200000, 1202300000, 1258900000, 1318300000, 1380400000, 1445400000,
  1513600000, 1584900000, 1659600000, 1737800000, 1819700000, 1905500000, 1995300000, 2089300000, 2187800000, 2290900000, 2398800000,
  2511900000, 2630300000, 2754200000, 2884000000, 3020000000, 3162300000, 3311300000, 3467400000, 3630800000, 3801900000, 3981100000,
  4168700000, 4365200000, 4570900000, 4786300000, 5011900000, 5248100000, 5495400000, 5754400000, 6025600000, 6309600000, 6606900000,
  6918300000, 7244400000, 7585800000, 7943300000, 8317600000, 8709600000, 9120100000, 9549900000, 10000000000, 10471000000, 10965000000,
  11482000000, 12023000000, 12589000000, 13183000000, 13804000000, 14454000000, 15136000000, 15849000000, 16596000000, 17378000000,
  18197000000, 19055000000, 19953000000, 20893000000, 21878000000, 22909000000, 23988000000, 25119000000, 26303000000, 27542000000,
  28840000000, 30200000000, 31623000000, 33113000000, 34674000000, 36308000000, 38019000000, 39811000000, 41687000000, 43652000000,
  45709000000, 47863000000, 50119000000, 52481000000, 54954000000, 57544000000, 60256000000, 63096000000, 66069000000, 69183000000,
  72444000000, 75858000000, 79433000000, 83176000000, 87096000000, 91201000000, 95499000000, 100000000000, 104710000000, 109650000000,
  114820000000, 120230000000, 125890000000, 131830000000, 138040000000, 144540000000, 151360000000, 158490000000, 165960000000,
  173780000000, 181970000000, 190550000000, 199530000000, 208930000000, 218780000000, 229090000000, 239880000000, 251190000000,
  263030000000, 275420000000, 288400000000, 302000000000, 316230000000, 331130000000, 346740000000, 363080000000, 380190000000,
  398110000000, 416870000000, 436520000000, 457090000000, 478630000000, 501190000000, 524810000000, 549540000000, 575440000000,
  602560000000, 630960000000, 660690000000, 691830000000, 724440000000, 758580000000, 794330000000, 831760000000, 870960000000,
  912010000000, 954990000000]

/-- egroups.py:1837-2550, edges from number 400 on -/
def ccfe709_2 : List ℕ := [
  1000000000000, 1047100000000, 1096500000000, 1148200000000, 1202300000000, 1258900000000, 1318300000000, 1380400000000, 1445400000000,
  1513600000000, 1584900000000, 1659600000000, 1737800000000, 1819700000000, 1905500000000, 1995300000000, 2089300000000, 2187800000000,
  2290900000000, 2398800000000, 2511900000000, 2630300000000, 2754200000000, 2884000000000, 3020000000000, 3162300000000, 3311300000000,
  3467400000000, 3630800000000, 3801900000000, 3981100000000, 4168700000000, 4365200000000, 4570900000000, 4786300000000, 5011900000000,
  5248100000000, 5495400000000, 5754400000000, 6025600000000, 6309600000000, 6606900000000, 6918300000000, 7244400000000, 7585800000000,
  7943300000000, 8317600000000, 8709600000000, 9120100000000, 9549900000000, 10000000000000, 10471000000000, 10965000000000,
  11482000000000, 12023000000000, 12589000000000, 13183000000000, 13804000000000, 14454000000000, 15136000000000, 15849000000000,
  16596000000000, 17378000000000, 18197000000000, 19055000000000, 19953000000000, 20893000000000, 21878000000000, 22909000000000,
  23988000000000, 25119000000000, 26303000000000, 27542000000000, 28840000000000, 30200000000000, 31623000000000, 33113000000000,
  34674000000000, 36308000000000, 38019000000000, 39811000000000, 41687000000000, 43652000000000, 45709000000000, 47863000000000,
  50119000000000, 52481000000000, 54954000000000, 57544000000000, 60256000000000, 63096000000000, 66069000000000, 69183000000000,
  72444000000000, 75858000000000, 79433000000000, 83176000000000, 87096000000000, 91201000000000, 95499000000000, 100000000000000,
  104710000000000, 109650000000000, 114820000000000, 120230000000000, 125890000000000, 131830000000000, 138040000000000, 144540000000000,
  151360000000000, 158490000000000, 165960000000000, 173780000000000, 181970000000000, 190550000000000, 199530000000000, 208930000000000,
  218780000000000, 229090000000000, 239880000000000, 251190000000000, 263030000000000, 275420000000000, 288400000000000, 302000000000000,
  316230000000000, 331130000000000, 346740000000000, 363080000000000, 380190000000000, 398110000000000, 416870000000000, 436520000000000,
  457090000000000, 478630000000000, 501190000000000, 524810000000000, 549540000000000, 575440000000000, 602560000000000, 630960000000000,
  660690000000000, 691830000000000, 724440000000000, 758580000000000, 794330000000000, 831760000000000, 870960000000000, 912010000000000,
  954990000000000, 1000000000000000, 1047100000000000, 1096500000000000, 1148200000000000, 1202300000000000, 1258900000000000,
  1318300000000000, 1380400000000000, 1445400000000000, 1513600000000000, 1584900000000000, 1659600000000000, 1737800000000000,
  1819700000000000, 1905500000000000, 1995300000000000, 2089300000000000, 2187800000000000, 2290900000000000, 2398800000000000,
  2511900000000000, 2630300000000000, 2754200000000000, 2884000000000000, 3020000000000000, 3162300000000000, 3311300000000000,
  3467400000000000, 3630800000000000, 3801900000000000, 3981100000000000, 4168700000000000, 4365200000000000, 4570900000000000,
  4786300000000000, 5011900000000000, 5248100000000000, 5495400000000000, 5754400000000000, 6025600000000000, 6309600000000000,
  6606900000000000, 6918300000000000, 7244400000000000, 7585800000000000, 7943300000000000, 8317600000000000, 8709600000000000,
  9120100000000000, 9549900000000000]

/-- egroups.py:1837-2550, edges from number 600 on -/
def ccfe709_3 : List ℕ := [
  10000000000000000, 10200000000000000, 10400000000000000, 10600000000000000, 10800000000000000, 11000000000000000, 11200000000000000,
  11400000000000000, 11600000000000000, 11800000000000000, 12000000000000000, 12200000000000000, 12400000000000000, 12600000000000000,
  12800000000000000, 13000000000000000, 13200000000000000, 13400000000000000, 13600000000000000, 13800000000000000, 14000000000000000,
  14200000000000000, 14400000000000000, 14600000000000000, 14800000000000000, 15000000000000000, 15200000000000000, 15400000000000000,
  15600000000000000, 15800000000000000, 16000000000000000, 16200000000000000, 16400000000000000, 16600000000000000, 16800000000000000,
  17000000000000000, 17200000000000000, 17400000000000000, 17600000000000000, 17800000000000000, 18000000000000000, 18200000000000000,
  18400000000000000, 18600000000000000, 18800000000000000, 19000000000000000, 19200000000000000, 19400000000000000, 19600000000000000,
  19800000000000000, 20000000000000000, 21000000000000000, 22000000000000000, 23000000000000000, 24000000000000000, 25000000000000000,
  26000000000000000, 27000000000000000, 28000000000000000, 29000000000000000, 30000000000000000, 32000000000000000, 34000000000000000,
  36000000000000000, 38000000000000000, 40000000000000000, 42000000000000000, 44000000000000000, 46000000000000000, 48000000000000000,
  50000000000000000, 52000000000000000, 54000000000000000, 56000000000000000, 58000000000000000, 60000000000000000, 65000000000000000,
  70000000000000000, 75000000000000000, 80000000000000000, 90000000000000000, 100000000000000000, 110000000000000000, 120000000000000000,
  130000000000000000, 140000000000000000, 150000000000000000, 160000000000000000, 180000000000000000, 200000000000000000,
  240000000000000000, 280000000000000000, 320000000000000000, 360000000000000000, 400000000000000000, 440000000000000000,
  480000000000000000, 520000000000000000, 560000000000000000, 600000000000000000, 640000000000000000, 680000000000000000,
  720000000000000000, 760000000000000000, 800000000000000000, 840000000000000000, 880000000000000000, 920000000000000000,
  960000000000000000, 1000000000000000000]

/-- egroups.py:1837-2550 -/
def ccfe709 : Groups := ⟨"CCFE", 709, 9, ccfe709_0 ++ ccfe709_1 ++ ccfe709_2 ++ ccfe709_3⟩

/-- egroups.py:2551-3657, edges from number 0 on -/
def ukaea1102_0 : List ℕ := [
  10000, 10471, 10965, 11482, 12023, 12589, 13183, 13804, 14454, 15136, 15849, 16596, 17378, 18197, 19055, 19953, 20893, 21878, 22909,
  23988, 25119, 26303, 27542, 28840, 30200, 31623, 33113, 34674, 36308, 38019, 39811, 41687, 43652, 45709, 47863, 50119, 52481, 54954,
  57544, 60256, 63096, 66069, 69183, 72444, 75858, 79433, 83176, 87096, 91201, 95499, 100000, 104710, 109650, 114820, 120230, 125890,
  131830, 138040, 144540, 151360, 158490, 165960, 173780, 181970, 190550, 199530, 208930, 218780, 229090, 239880, 251190, 263030, 275420,
  288400, 302000, 316230, 331130, 346740, 363080, 380190, 398110, 416870, 436520, 457090, 478630, 501190, 524810, 549540, 575440, 602560,
  630960, 660690, 691830, 724440, 758580, 794330, 831760, 870960, 912010, 954990, 1000000, 1047100, 1096500, 1148200, 1202300, 1258900,
  1318300, 1380400, 1445400, 1513600, 1584900, 1659600, 1737800, 1819700, 1905500, 1995300, 2089300, 2187800, 2290900, 2398800, 2511900,
  2630300, 2754200, 2884000, 3020000, 3162300, 3311300, 3467400, 3630800, 3801900, 3981100, 4168700, 4365200, 4570900, 4786300, 5011900,
  5248100, 5495400, 5754400, 6025600, 6309600, 6606900, 6918300, 7244400, 7585800, 7943300, 8317600, 8709600, 9120100, 9549900, 10000000,
  10471000, 10965000, 11482000, 12023000, 12589000, 13183000, 13804000, 14454000, 15136000, 15849000, 16596000, 17378000, 18197000,
  19055000, 19953000, 20893000, 21878000, 22909000, 23988000, 25119000, 26303000, 27542000, 28840000, 30200000, 31623000, 33113000,
  34674000, 36308000, 38019000, 39811000, 41687000, 43652000, 45709000, 47863000, 50119000, 52481000, 54954000, 57544000, 60256000,
  63096000, 66069000, 69183000, 72444000, 75858000, 79433000, 83176000, 87096000, 91201000, 95499000]

/-- egroups.py:2551-3657, edges from number 200 on -/
def ukaea1102_1 : List ℕ := [
  100000000, 104710000, 109650000, 114820000, 120230000, 125890000, 131830000, 138040000, 144540000, 151360000, 158490000, 165960000,
  173780000, 181970000, 190550000, 199530000, 208930000, 218780000, 229090000, 239880000, 251190000, 263030000, 275420000, 288400000,
  302000000, 316230000, 331130000, 346740000, 363080000, 380190000, 398110000, 416870000, 436520000, 457090000, 478630000, 501190000,
  524810000, 550000000, 575000000, 600000000, 625000000, 650000000, 675000000, 700000000, 725000000, 750000000, 775000000, 800000000,
  825000000, 850000000, 875000000, 900000000, 925000000, 950000000, 975000000, 1000000000, 1025000000, 1050000000, 1075000000, 1100000000,
  1125000000, 1150000000, 1175000000, 1200000000, 1225000000, 1250000000, 1275000000, 1300000000, 1325000000, 1350000000, 1375000000,
  1400000000, 1425000000, 1450000000, 1475000000, 1500000000, 1525000000, 1550000000, 1575000000, 1600000000, 1625000000, 1650000000,
  1675000000, 1700000000, 1725000000, 1750000000, 1775000000, 1800000000, 1825000000, 1850000000, 1875000000, 1900000000, 1925000000,
  1950000000, 1975000000, 2000000000, 2025000000, 2050000000, 2075000000, 2100000000, 2125000000, 2150000000, 2175000000, 2200000000,
  2225000000, 2250000000, 2275000000, 2300000000, 2325000000, 2350000000, 2375000000, 2400000000, 2425000000, 2450000000, 2475000000,
  2500000000, 2525000000, 2550000000, 2575000000, 2600000000, 2625000000, 2650000000, 2675000000, 2700000000, 2725000000, 2750000000,
  2775000000, 2800000000, 2825000000, 2850000000, 2875000000, 2900000000, 2925000000, 2950000000, 2975000000, 3000000000, 3025000000,
  3050000000, 3075000000, 3100000000, 3125000000, 3150000000, 3175000000, 3200000000, 3225000000, 3250000000, 3275000000, 3300000000,
  3325000000, 3350000000, 3375000000, 3400000000, 3425000000, 3450000000, 3475000000, 3500000000, 3525000000, 3550000000, 3575000000,
  3600000000, 3625000000, 3650000000, 3675000000, 3700000000, 3725000000, 3750000000, 3775000000, 3800000000, 3825000000, 3850000000,
  3875000000, 3900000000, 3925000000, 3950000000, 3975000000, 4000000000, 4025000000, 4050000000, 4075000000, 4100000000, 4125000000,
  4150000000, 4175000000, 4200000000, 4225000000, 4250000000, 4275000000, 4300000000, 4325000000, 4350000000, 4375000000, 4400000000,
  4425000000, 4450000000, 4475000000, 4500000000, 4525000000, 4550000000, 4575000000, 4600000000]

/-- egroups.py:2551-3657, edges from number 400 on -/
def ukaea1102_2 : List ℕ := [
  4625000000, 4650000000, 4675000000, 4700000000, 4725000000, 4750000000, 4775000000, 4800000000, 4825000000, 4850000000, 4875000000,
  4900000000, 4925000000, 4950000000, 4975000000, 5000000000, 5025000000, 5050000000, 5075000000, 5100000000, 5125000000, 5150000000,
  5175000000, 5200000000, 5225000000, 5250000000, 5275000000, 5300000000, 5325000000, 5350000000, 5375000000, 5400000000, 5425000000,
  5450000000, 5475000000, 5500000000, 5525000000, 5550000000, 5575000000, 5600000000, 5625000000, 5650000000, 5675000000, 5700000000,
  5725000000, 5750000000, 5775000000, 5800000000, 5825000000, 5850000000, 5875000000, 5900000000, 5925000000, 5950000000, 5975000000,
  6000000000, 6025000000, 6050000000, 6075000000, 6100000000, 6125000000, 6150000000, 6175000000, 6200000000, 6225000000, 6250000000,
  6275000000, 6300000000, 6325000000, 6350000000, 6375000000, 6400000000, 6425000000, 6450000000, 6475000000, 6500000000, 6525000000,
  6550000000, 6575000000, 6600000000, 6625000000, 6650000000, 6675000000, 6700000000, 6725000000, 6750000000, 6775000000, 6800000000,
  6825000000, 6850000000, 6875000000, 6900000000, 6925000000, 6950000000, 6975000000, 7000000000, 7025000000, 7050000000, 7075000000,
  7100000000, 7125000000, 7150000000, 7175000000, 7200000000, 7225000000, 7250000000, 7275000000, 7300000000, 7325000000, 7350000000,
  7375000000, 7400000000, 7425000000, 7450000000, 7475000000, 7500000000, 7525000000, 7550000000, 7575000000, 7600000000, 7625000000,
  7650000000, 7675000000, 7700000000, 7725000000, 7750000000, 7775000000, 7800000000, 7825000000, 7850000000, 7875000000, 7900000000,
  7925000000, 7950000000, 7975000000, 8000000000, 8025000000, 8050000000, 8075000000, 8100000000, 8125000000, 8150000000, 8175000000,
  8200000000, 8225000000, 8250000000, 8275000000, 8300000000, 8325000000, 8350000000, 8375000000, 8400000000, 8425000000, 8450000000,
  8475000000, 8500000000, 8525000000, 8550000000, 8575000000, 8600000000, 8625000000, 8650000000, 8675000000, 8700000000, 8725000000,
  8750000000, 8775000000, 8800000000, 8825000000, 8850000000, 8875000000, 8900000000, 8925000000, 8950000000, 8975000000, 9000000000,
  9025000000, 9050000000, 9075000000, 9100000000, 9125000000, 9150000000, 9175000000, 9200000000, 9225000000, 9250000000, 9275000000,
  9300000000, 9325000000, 9350000000, 9375000000, 9400000000, 9425000000, 9450000000, 9475000000, 9500000000, 9525000000, 9550000000,
  9575000000, 9600000000]

/-- egroups.py:2551-3657, edges from number 600 on -/
def ukaea1102_3 : List ℕ := [
  9625000000, 9650000000, 9675000000, 9700000000, 9725000000, 9750000000, 9775000000, 9800000000, 9825000000, 9850000000, 9875000000,
  9900000000, 9925000000, 9950000000, 9975000000, 10000000000, 10471000000, 10965000000, 11482000000, 12023000000, 12589000000,
  13183000000, 13804000000, 14454000000, 15136000000, 15849000000, 16596000000, 17378000000, 18197000000, 19055000000, 19953000000,
  20893000000, 21878000000, 22909000000, 23988000000, 25119000000, 26303000000, 27542000000, 28840000000, 30200000000, 31623000000,
  33113000000, 34674000000, 36308000000, 38019000000, 39811000000, 41687000000, 43652000000, 45709000000, 47863000000, 50119000000,
  52481000000, 54954000000, 57544000000, 60256000000, 63096000000, 66069000000, 69183000000, 72444000000, 75858000000, 79433000000,
  83176000000, 87096000000, 91201000000, 95499000000, 100000000000, 104710000000, 109650000000, 114820000000, 120230000000, 125890000000,
  131830000000, 138040000000, 144540000000, 151360000000, 158490000000, 165960000000, 173780000000, 181970000000, 190550000000,
  199530000000, 208930000000, 218780000000, 229090000000, 239880000000, 251190000000, 263030000000, 275420000000, 288400000000,
  302000000000, 316230000000, 331130000000, 346740000000, 363080000000, 380190000000, 398110000000, 416870000000, 436520000000,
  457090000000, 478630000000, 501190000000, 524810000000, 549540000000, 575440000000, 602560000000, 630960000000, 660690000000,
  691830000000, 724440000000, 758580000000, 794330000000, 831760000000, 870960000000, 912010000000, 954990000000, 1000000000000,
  1047100000000, 1096500000000, 1148200000000, 1202300000000, 1258900000000, 1318300000000, 1380400000000, 1445400000000, 1513600000000,
  1584900000000, 1659600000000, 1737800000000, 1819700000000, 1905500000000, 1995300000000, 2089300000000, 2187800000000, 2290900000000,
  2398800000000, 2511900000000, 2630300000000, 2754200000000, 2884000000000, 3020000000000, 3162300000000, 3311300000000, 3467400000000,
  3630800000000, 3801900000000, 3981100000000, 4168700000000, 4365200000000, 4570900000000, 4786300000000, 5011900000000, 5248100000000,
  5495400000000, 5754400000000, 6025600000000, 6309600000000, 6606900000000, 6918300000000, 7244400000000, 7585800000000, 7943300000000,
  8317600000000, 8709600000000, 9120100000000, 9549900000000, 10000000000000, 10471000000000, 10965000000000, 11482000000000,
  12023000000000, 12589000000000, 13183000000000, 13804000000000, 14454000000000, 15136000000000, 15849000000000, 16596000000000,
  17378000000000, 18197000000000, 19055000000000, 19953000000000, 20893000000000, 21878000000000, 22909000000000, 23988000000000,
  25119000000000, 26303000000000, 27542000000000, 28840000000000, 30200000000000, 31623000000000, 33113000000000, 34674000000000,
  36308000000000, 38019000000000, 39811000000000, 41687000000000, 43652000000000, 45709000000000, 47863000000000]

/-- egroups.py:2551-3657, edges from number 800 on -/
def ukaea1102_4 : List ℕ := [
  50119000000000, 52481000000000, 54954000000000, 57544000000000, 60256000000000, 63096000000000, 66069000000000, 69183000000000,
  72444000000000, 75858000000000, 79433000000000, 83176000000000, 87096000000000, 91201000000000, 95499000000000, 100000000000000,
  104710000000000, 109650000000000, 114820000000000, 120230000000000, 125890000000000, 131830000000000, 138040000000000, 144540000000000,
  151360000000000, 158490000000000, 165960000000000, 173780000000000, 181970000000000, 190550000000000, 199530000000000, 208930000000000,
  218780000000000, 229090000000000, 239880000000000, 251190000000000, 263030000000000, 275420000000000, 288400000000000, 302000000000000,
  316230000000000, 331130000000000, 346740000000000, 363080000000000, 380190000000000, 398110000000000, 416870000000000, 436520000000000,
  457090000000000, 478630000000000, 501190000000000, 524810000000000, 549540000000000, 575440000000000, 602560000000000, 630960000000000,
  660690000000000, 691830000000000, 724440000000000, 758580000000000, 794330000000000, 831760000000000, 870960000000000, 912010000000000,
  954990000000000, 1000000000000000, 1047100000000000, 1096500000000000, 1148200000000000, 1202300000000000, 1258900000000000,
  1318300000000000, 1380400000000000, 1445400000000000, 1513600000000000, 1584900000000000, 1659600000000000, 1737800000000000,
  1819700000000000, 1905500000000000, 1995300000000000, 2089300000000000, 2187800000000000, 2290900000000000, 2398800000000000,
  2511900000000000, 2630300000000000, 2754200000000000, 2884000000000000, 3020000000000000, 3162300000000000, 3311300000000000,
  3467400000000000, 3630800000000000, 3801900000000000, 3981100000000000, 4168700000000000, 4365200000000000, 4570900000000000,
  4786300000000000, 5000000000000000, 5200000000000000, 5400000000000000, 5600000000000000, 5800000000000000, 6000000000000000,
  6200000000000000, 6400000000000000, 6600000000000000, 6800000000000000, 7000000000000000, 7200000000000000, 7400000000000000,
  7600000000000000, 7800000000000000, 8000000000000000, 8200000000000000, 8400000000000000, 8600000000000000, 8800000000000000,
  9000000000000000, 9200000000000000, 9400000000000000, 9600000000000000, 9800000000000000, 10000000000000000, 10200000000000000,
  10400000000000000, 10600000000000000, 10800000000000000, 11000000000000000, 11200000000000000, 11400000000000000, 11600000000000000,
  11800000000000000, 12000000000000000, 12200000000000000, 12400000000000000, 12600000000000000, 12800000000000000, 13000000000000000,
  13200000000000000, 13400000000000000, 13600000000000000, 13800000000000000, 14000000000000000, 14200000000000000, 14400000000000000,
  14600000000000000, 14800000000000000, 15000000000000000, 15200000000000000, 15400000000000000, 15600000000000000, 15800000000000000,
  16000000000000000, 16200000000000000, 16400000000000000, 16600000000000000, 16800000000000000, 17000000000000000, 17200000000000000,
  17400000000000000, 17600000000000000, 17800000000000000, 18000000000000000, 18200000000000000, 18400000000000000, 18600000000000000,
  18800000000000000, 19000000000000000, 19200000000000000, 19400000000000000, 19600000000000000, 19800000000000000, 20000000000000000,
  20200000000000000, 20400000000000000, 20600000000000000, 20800000000000000, 21000000000000000, 21200000000000000, 21400000000000000,
  21600000000000000, 21800000000000000, 22000000000000000, 22200000000000000, 22400000000000000, 22600000000000000, 22800000000000000,
  23000000000000000, 23200000000000000, 23400000000000000, 23600000000000000, 23800000000000000, 24000000000000000, 24200000000000000,
  24400000000000000, 24600000000000000, 24800000000000000]

/-- egroups.py:2551-3657, edges from number 1000 on -/
def ukaea1102_5 : List ℕ := [
  25000000000000000, 25200000000000000, 25400000000000000, 25600000000000000, 25800000000000000, 26000000000000000, 26200000000000000,
  26400000000000000, 26600000000000000, 26800000000000000, 27000000000000000, 27200000000000000, 27400000000000000, 27600000000000000,
  27800000000000000, 28000000000000000, 28200000000000000, 28400000000000000, 28600000000000000, 28800000000000000, 29000000000000000,
  29200000000000000, 29400000000000000, 29600000000000000, 29800000000000000, 30000000000000000, 30200000000000000, 31623000000000000,
  33113000000000000, 34674000000000000, 36308000000000000, 38019000000000000, 39811000000000000, 41687000000000000, 43652000000000000,
  45709000000000000, 47863000000000000, 50119000000000000, 52481000000000000, 54954000000000000, 57544000000000000, 60256000000000000,
  63096000000000000, 66069000000000000, 69183000000000000, 72444000000000000, 75858000000000000, 79433000000000000, 83176000000000000,
  87096000000000000, 91201000000000000, 95499000000000000, 100000000000000000, 104710000000000000, 109650000000000000, 114820000000000000,
  120230000000000000, 125890000000000000, 131830000000000000, 138040000000000000, 144540000000000000, 151360000000000000,
  158490000000000000, 165960000000000000, 173780000000000000, 181970000000000000, 190550000000000000, 199530000000000000,
  208930000000000000, 218780000000000000, 229090000000000000, 239880000000000000, 251190000000000000, 263030000000000000,
  275420000000000000, 288400000000000000, 302000000000000000, 316230000000000000, 331130000000000000, 346740000000000000,
  363080000000000000, 380190000000000000, 398110000000000000, 416870000000000000, 436520000000000000, 457090000000000000,
  478630000000000000, 501190000000000000, 524810000000000000, 549540000000000000, 575440000000000000, 602560000000000000,
  630960000000000000, 660690000000000000, 691830000000000000, 724440000000000000, 758580000000000000, 794330000000000000,
  831760000000000000, 870960000000000000, 912010000000000000, 954990000000000000, 1000000000000000000]

/-- egroups.py:2551-3657 -/
def ukaea1102 : Groups := ⟨"UKAEA", 1102, 9, ukaea1102_0 ++ ukaea1102_1 ++ ukaea1102_2 ++ ukaea1102_3 ++ ukaea1102_4 ++ ukaea1102_5⟩

/-- egroups.py:3658-5630, edges from number 0 on -/
def ecco1968_0 : List ℕ := [
  100001, 30000000, 50000000, 69000000, 100000000, 150000000, 200000000, 250000000, 300000000, 350000000, 420000000, 500000000, 580000000,
  670000000, 770000000, 800000000, 950000000, 1000000000, 1150000000, 1340000000, 1400000000, 1463700000, 1530300000, 1600000000,
  1697100000, 1800000000, 1890000000, 1988100000, 2091400000, 2200000000, 2335800000, 2480000000, 2635100000, 2800000000, 3000000000,
  3145000000, 3200000000, 3346600000, 3500000000, 3699300000, 3910000000, 4000000000, 4139900000, 4330000000, 4496800000, 4670100000,
  4850000000, 5000000000, 5196200000, 5315800000, 5400000000, 5669600000, 5952800000, 6250000000, 6531500000, 6825600000, 7050000000,
  7415500000, 7800000000, 7900000000, 8194500000, 8500000000, 8600000000, 8764250000, 9100000000, 9300000000, 9500000000, 9720000000,
  9860000000, 9960000000, 10200000000, 10350000000, 10450000000, 10710000000, 10800000000, 10970000000, 11100000000, 11230000000,
  11500000000, 11700000000, 12020600000, 12350000000, 12670800000, 13000000000, 13375000000, 13700000000, 14045600000, 14400000000,
  14750000000, 15000000000, 15443400000, 15900000000, 16295100000, 16700000000, 17119700000, 17550000000, 17970000000, 18400000000,
  18553900000, 18844600000, 19300000000, 19744900000, 20200000000, 20596100000, 21000000000, 21300000000, 21853100000, 22420500000,
  23002700000, 23600000000, 23823700000, 24217100000, 24850300000, 25500000000, 26000000000, 26593200000, 27200000000, 27679200000,
  28379900000, 29098300000, 29834900000, 30590200000, 31373300000, 32176300000, 33000000000, 33807500000, 34663300000, 35540800000,
  36440500000, 37363000000, 38308800000, 39278600000, 40000000000, 41292500000, 42337820000, 43409610000, 44508530000, 45635260000,
  46790530000, 47975030000, 49189530000, 50434770000, 50856810000, 51282390000, 51711530000, 52144260000, 52580610000, 53020610000,
  53464300000, 53911690000, 54362840000, 54817750000, 55276470000, 55739040000, 56205470000, 56675810000, 57150080000, 57628320000,
  58110560000, 58596840000, 59087190000, 59581640000, 60080220000, 60582980000, 61089950000, 61601160000, 62116650000, 62636450000,
  63160600000, 63689140000, 64222100000, 64759520000, 65301440000, 65847890000, 66398920000, 66954550000, 67514840000, 68079810000,
  68649520000, 69223990000, 69803260000, 70387390000, 70976400000, 71570340000, 72169250000, 72773170000, 73382150000, 73996220000,
  74615440000, 75239830000, 75869450000, 76504340000, 77144540000, 77790090000, 78441050000, 79097460000, 79759360000, 80426800000,
  81099820000, 81778480000]

/-- egroups.py:3658-5630, edges from number 200 on -/
def ecco1968_1 : List ℕ := [
  82462810000, 83152870000, 83848710000, 84550370000, 85257900000, 85971350000, 86690770000, 87416210000, 88147720000, 88885360000,
  89629160000, 90379190000, 91135500000, 91898140000, 92667150000, 93442610000, 94224550000, 95013030000, 95808120000, 96609850000,
  97418300000, 98233510000, 99055540000, 99884460000, 100720300000, 101563100000, 102413000000, 103270100000, 104134200000, 105005600000,
  105884300000, 106770400000, 107663900000, 108564800000, 109473300000, 110389400000, 111313200000, 112244600000, 113183900000,
  114131100000, 115086100000, 116049200000, 117020300000, 117999500000, 118987000000, 119982700000, 120986700000, 121999100000,
  123020100000, 124049500000, 125087600000, 126134300000, 127189800000, 128254200000, 129327400000, 130409700000, 131501000000,
  132601400000, 133711000000, 134829900000, 135958200000, 137095900000, 138243100000, 139400000000, 140566500000, 141742800000,
  142928900000, 144125000000, 145331000000, 146547200000, 147773500000, 149010100000, 150257000000, 151514400000, 152782300000,
  154060800000, 155350000000, 156650000000, 157960900000, 159282700000, 160615600000, 161959700000, 163315000000, 164681600000,
  166059700000, 167449300000, 168850600000, 170263500000, 171688300000, 173125000000, 174573800000, 176034600000, 177507700000,
  178993100000, 180491000000, 182001300000, 183524400000, 185060100000, 186608700000, 188170300000, 189744900000, 191332800000,
  192933900000, 194548400000, 196176400000, 197818000000, 199473400000, 201142600000, 202825800000, 204523100000, 206234500000,
  207960300000, 209700600000, 211455400000, 213224900000, 215009200000, 216808400000, 218622700000, 220452200000, 222296900000,
  224157200000, 226032900000, 227924400000, 229831700000, 231755000000, 233694400000, 235649900000, 237621900000, 239610400000,
  241615400000, 243637300000, 245676100000, 247732000000, 249805000000, 251895400000, 254003300000, 256128900000, 258272200000,
  260433500000, 262612800000, 264810400000, 267026400000, 269260900000, 271514100000, 273786200000, 276077300000, 278387500000,
  280717100000, 283066200000, 285434900000, 287823500000, 290232000000, 292660700000, 295109800000, 297579300000, 300069500000,
  302580500000, 305112600000, 307665800000, 310240400000, 312836500000, 315454400000, 318094200000, 320756000000, 323440100000,
  326146700000, 328876000000, 331628100000, 334403200000, 337201500000, 340023300000, 342868600000, 345737800000, 348631000000,
  351548400000, 354490200000, 357456600000, 360447900000, 363464200000, 366505700000, 369572700000, 372665300000, 375783800000,
  378928500000, 382099400000, 385296900000, 388521100000, 391772300000, 395050700000, 398356500000, 401690000000, 405051400000,
  408441000000, 411858900000, 415305400000, 418780700000, 422285100000, 425818900000, 429382200000, 432975300000]

/-- egroups.py:3658-5630, edges from number 400 on -/
def ecco1968_2 : List ℕ := [
  436598500000, 440252100000, 443936100000, 447651100000, 451397100000, 455174400000, 458983400000, 462824300000, 466697200000,
  470602600000, 474540700000, 478511700000, 482516000000, 486553800000, 490625300000, 494730900000, 498870900000, 503045600000,
  507255100000, 511499900000, 515780200000, 520096300000, 524448600000, 528837300000, 533262600000, 537725100000, 542224800000,
  546762300000, 551337600000, 555951300000, 560603600000, 565294800000, 570025300000, 574795400000, 579605300000, 584455600000,
  589346400000, 594278100000, 599251100000, 604265700000, 609322300000, 614421200000, 619562800000, 624747400000, 629975400000,
  635247100000, 640563000000, 645923300000, 651328500000, 656778900000, 662274900000, 667816900000, 673405300000, 679040500000,
  684722800000, 690452700000, 696230500000, 702056600000, 707931600000, 713855600000, 719829300000, 725852900000, 731927000000,
  738051800000, 744228000000, 750455800000, 756735700000, 763068200000, 769453700000, 775892600000, 782385400000, 788932500000,
  795534400000, 802191500000, 808904400000, 815673400000, 822499100000, 829381900000, 836322300000, 843320800000, 850377800000,
  857493900000, 864669500000, 871905200000, 879201500000, 886558800000, 893977600000, 901458600000, 909002100000, 916608800000,
  924279100000, 932013600000, 939812800000, 947677300000, 955607600000, 963604300000, 971667900000, 979799000000, 987998100000,
  996265800000, 1004603000000, 1013009000000, 1021486000000, 1030034000000, 1038654000000, 1047345000000, 1056110000000, 1064947000000,
  1073859000000, 1082845000000, 1091907000000, 1101044000000, 1110258000000, 1119548000000, 1128917000000, 1138364000000, 1147890000000,
  1157496000000, 1167182000000, 1176949000000, 1186798000000, 1196729000000, 1206744000000, 1216842000000, 1227024000000, 1237292000000,
  1247646000000, 1258087000000, 1268615000000, 1279231000000, 1289935000000, 1300730000000, 1311615000000, 1322590000000, 1333658000000,
  1344818000000, 1356072000000, 1367420000000, 1378862000000, 1390401000000, 1402036000000, 1413768000000, 1425599000000, 1437529000000,
  1449558000000, 1461688000000, 1473920000000, 1486254000000, 1498691000000, 1511232000000, 1523879000000, 1536631000000, 1549489000000,
  1562456000000, 1575531000000, 1588715000000, 1602010000000, 1615415000000, 1628933000000, 1642565000000, 1656310000000, 1670170000000,
  1684146000000, 1698239000000, 1712451000000, 1726781000000, 1741231000000, 1755802000000, 1770494000000, 1785310000000, 1800250000000,
  1815315000000, 1830505000000, 1845823000000, 1861269000000, 1876845000000, 1892551000000, 1908388000000, 1924358000000, 1940461000000,
  1956699000000, 1973073000000, 1989584000000, 2006233000000, 2023021000000, 2039950000000, 2057021000000, 2074234000000, 2091592000000,
  2109095000000, 2126744000000, 2144541000000, 2162487000000, 2180583000000, 2198830000000, 2217230000000, 2235784000000, 2254494000000,
  2273360000000, 2292384000000]

/-- egroups.py:3658-5630, edges from number 600 on -/
def ecco1968_3 : List ℕ := [
  2311567000000, 2330910000000, 2350416000000, 2370084000000, 2389917000000, 2409917000000, 2430083000000, 2450418000000, 2470924000000,
  2491601000000, 2512451000000, 2533476000000, 2554676000000, 2576054000000, 2597611000000, 2619348000000, 2641267000000, 2663370000000,
  2685657000000, 2708131000000, 2730793000000, 2753645000000, 2776688000000, 2799924000000, 2823354000000, 2846980000000, 2870804000000,
  2894827000000, 2919052000000, 2943479000000, 2968110000000, 2992948000000, 3017993000000, 3043248000000, 3068715000000, 3094394000000,
  3120288000000, 3146399000000, 3172729000000, 3199279000000, 3226051000000, 3253047000000, 3280269000000, 3307719000000, 3335398000000,
  3363309000000, 3391454000000, 3419834000000, 3448452000000, 3477309000000, 3506408000000, 3535750000000, 3565338000000, 3595173000000,
  3625258000000, 3655595000000, 3686185000000, 3717032000000, 3748137000000, 3779502000000, 3811129000000, 3843021000000, 3875180000000,
  3907608000000, 3940308000000, 3973281000000, 4006530000000, 4040057000000, 4073865000000, 4107955000000, 4142332000000, 4176995000000,
  4211949000000, 4247195000000, 4282736000000, 4318575000000, 4354713000000, 4391154000000, 4427900000000, 4464953000000, 4502317000000,
  4539993000000, 4577984000000, 4616294000000, 4654923000000, 4693877000000, 4733156000000, 4772763000000, 4812703000000, 4852976000000,
  4893587000000, 4934537000000, 4975830000000, 5017468000000, 5059455000000, 5101793000000, 5144486000000, 5187536000000, 5230946000000,
  5274719000000, 5318859000000, 5363368000000, 5408249000000, 5453506000000, 5499142000000, 5545160000000, 5591563000000, 5638354000000,
  5685536000000, 5733114000000, 5781089000000, 5829466000000, 5878248000000, 5927438000000, 5977040000000, 6027057000000, 6077492000000,
  6128350000000, 6179633000000, 6231345000000, 6283489000000, 6336071000000, 6389092000000, 6442557000000, 6496469000000, 6550832000000,
  6605651000000, 6660928000000, 6716668000000, 6772874000000, 6829550000000, 6886701000000, 6944330000000, 7002441000000, 7061038000000,
  7120126000000, 7179709000000, 7239790000000, 7300373000000, 7361464000000, 7423066000000, 7485183000000, 7547820000000, 7610981000000,
  7674671000000, 7738894000000, 7803654000000, 7868957000000, 7934805000000, 8001205000000, 8068160000000, 8135676000000, 8203756000000,
  8272407000000, 8341631000000, 8411435000000, 8481824000000, 8552801000000, 8624372000000, 8696542000000, 8769316000000, 8842699000000,
  8916696000000, 8991312000000, 9066553000000, 9142423000000, 9218928000000, 9296074000000, 9373865000000, 9452307000000, 9531405000000,
  9611165000000, 9691593000000, 9772694000000, 9854473000000, 9936937000000, 10020090000000, 10103940000000, 10188490000000,
  10273750000000, 10359720000000, 10446410000000, 10533830000000, 10621980000000, 10710870000000, 10800500000000, 10890880000000,
  10982010000000, 11073910000000, 11166580000000, 11260020000000, 11354250000000, 11449260000000, 11545070000000, 11641680000000,
  11739100000000, 11837340000000, 11936390000000, 12036280000000, 12137000000000]

/-- egroups.py:3658-5630, edges from number 800 on -/
def ecco1968_4 : List ℕ := [
  12238570000000, 12340980000000, 12444250000000, 12548390000000, 12653390000000, 12759280000000, 12866050000000, 12973720000000,
  13082280000000, 13191760000000, 13302150000000, 13413460000000, 13525710000000, 13638890000000, 13753030000000, 13868110000000,
  13984160000000, 14101180000000, 14219190000000, 14338170000000, 14458160000000, 14579150000000, 14701150000000, 14824170000000,
  14948220000000, 15073310000000, 15199440000000, 15326630000000, 15454890000000, 15584220000000, 15714630000000, 15846130000000,
  15978740000000, 16112450000000, 16247280000000, 16383240000000, 16520340000000, 16658580000000, 16797980000000, 16938550000000,
  17080300000000, 17223230000000, 17367350000000, 17512680000000, 17659230000000, 17807010000000, 17956020000000, 18106280000000,
  18257800000000, 18410580000000, 18564640000000, 18719990000000, 18876650000000, 19034610000000, 19193890000000, 19354510000000,
  19516470000000, 19679790000000, 19844470000000, 20010530000000, 20177980000000, 20346840000000, 20517100000000, 20688790000000,
  20861920000000, 21036500000000, 21212530000000, 21390040000000, 21569040000000, 21749530000000, 21931530000000, 22115060000000,
  22300120000000, 22486730000000, 22674900000000, 22864650000000, 23055990000000, 23248920000000, 23443470000000, 23639650000000,
  23837470000000, 24036950000000, 24238090000000, 24440920000000, 24645450000000, 24851680000000, 25059650000000, 25269350000000,
  25480810000000, 25694030000000, 25909040000000, 26125860000000, 26344480000000, 26564940000000, 26787230000000, 27011390000000,
  27237430000000, 27465360000000, 27695190000000, 27926950000000, 28160650000000, 28396300000000, 28633920000000, 28873540000000,
  29115150000000, 29358790000000, 29604470000000, 29852210000000, 30102020000000, 30353910000000, 30607920000000, 30864050000000,
  31122330000000, 31382760000000, 31645380000000, 31910190000000, 32177220000000, 32446490000000, 32718000000000, 32991790000000,
  33267870000000, 33546260000000, 33826980000000, 34110050000000, 34395490000000, 34683320000000, 34973550000000, 35266220000000,
  35561330000000, 35858910000000, 36158980000000, 36461570000000, 36766680000000, 37074350000000, 37384600000000, 37697440000000,
  38012900000000, 38330990000000, 38651750000000, 38975200000000, 39301350000000, 39630230000000, 39961860000000, 40296270000000,
  40633470000000, 40973500000000, 41316370000000, 41662110000000, 42010750000000, 42362300000000, 42716790000000, 43074250000000,
  43434710000000, 43798170000000, 44164680000000, 44534260000000, 44906930000000, 45282720000000, 45661650000000, 46043750000000,
  46429060000000, 46817580000000, 47209360000000, 47604410000000, 48002770000000, 48404470000000, 48809520000000, 49217970000000,
  49629830000000, 50045140000000, 50463930000000, 50886220000000, 51312040000000, 51741430000000, 52174410000000, 52611010000000,
  53051270000000, 53495210000000, 53942870000000, 54394270000000, 54849450000000, 55308440000000, 55771270000000, 56237970000000,
  56708580000000, 57183120000000, 57661640000000, 58144160000000, 58630720000000, 59121350000000, 59616090000000, 60114960000000,
  60618020000000, 61125280000000, 61636780000000, 62152570000000, 62672670000000, 63197120000000, 63725970000000, 64259240000000]

/-- egroups.py:3658-5630, edges from number 1000 on -/
def ecco1968_5 : List ℕ := [
  64796970000000, 65339200000000, 65885970000000, 66437310000000, 66993270000000, 67553880000000, 68119180000000, 68689210000000,
  69264010000000, 69843620000000, 70428090000000, 71017440000000, 71611720000000, 72210980000000, 72815250000000, 73424580000000,
  74039010000000, 74658580000000, 75283340000000, 75913320000000, 76548570000000, 77189140000000, 77835070000000, 78486410000000,
  79143190000000, 79805480000000, 80473300000000, 81146710000000, 81825760000000, 82510490000000, 83200950000000, 83897190000000,
  84599260000000, 85307190000000, 86021060000000, 86740900000000, 87466760000000, 88198690000000, 88936750000000, 89680990000000,
  90431450000000, 91188200000000, 91951270000000, 92720740000000, 93496640000000, 94279030000000, 95067970000000, 95863520000000,
  96665720000000, 97474630000000, 98290310000000, 99112820000000, 99942210000000, 100778500000000, 101621900000000, 102472300000000,
  103329800000000, 104194400000000, 105066400000000, 105945600000000, 106832100000000, 107726100000000, 108627600000000, 109536600000000,
  110453200000000, 111377500000000, 112309500000000, 113249400000000, 114197000000000, 115152700000000, 116116300000000, 117088000000000,
  118067800000000, 119055800000000, 120052100000000, 121056700000000, 122069700000000, 123091200000000, 124121200000000, 125159900000000,
  126207300000000, 127263400000000, 128328300000000, 129402200000000, 130485100000000, 131577000000000, 132678000000000, 133788300000000,
  134907900000000, 136036800000000, 137175200000000, 138323100000000, 139480600000000, 140647800000000, 141824700000000, 143011600000000,
  144208300000000, 145415100000000, 146631900000000, 147859000000000, 149096300000000, 150343900000000, 151602000000000, 152870600000000,
  154149900000000, 155439800000000, 156740600000000, 158052200000000, 159374800000000, 160708500000000, 162053300000000, 163409400000000,
  164776800000000, 166155700000000, 167546100000000, 168948200000000, 170362000000000, 171787600000000, 173225100000000, 174674700000000,
  176136400000000, 177610400000000, 179096600000000, 180595300000000, 182106600000000, 183630500000000, 185167100000000, 186716600000000,
  188279100000000, 189854700000000, 191443400000000, 193045400000000, 194660800000000, 196289800000000, 197932400000000, 199588700000000,
  201258900000000, 202943100000000, 204641300000000, 206353800000000, 208080600000000, 209821800000000, 211577700000000, 213348200000000,
  215133500000000, 216933800000000, 218749100000000, 220579600000000, 222425500000000, 224286800000000, 226163600000000, 228056200000000,
  229964600000000, 231889000000000, 233829500000000, 235786200000000, 237759300000000, 239748900000000, 241755200000000, 243778200000000,
  245818200000000, 247875200000000, 249949500000000, 252041100000000, 254150200000000, 256277000000000, 258421500000000, 260584100000000,
  262764700000000, 264963500000000, 267180800000000, 269416600000000, 270000000000000, 271671100000000, 273944500000000, 276236900000000,
  278548500000000, 280879400000000, 283229900000000, 285000000000000, 285600000000000, 287989900000000, 290399900000000, 292830000000000,
  295280400000000, 297751400000000, 300243000000000, 302755500000000, 305289000000000, 307843700000000, 310419800000000, 313017400000000,
  315636800000000, 318278100000000, 320941500000000, 323627200000000, 326335300000000, 329066200000000, 331819800000000, 334596500000000]

/-- egroups.py:3658-5630, edges from number 1200 on -/
def ecco1968_6 : List ℕ := [
  337396500000000, 340219900000000, 343066900000000, 345937700000000, 348832600000000, 351751700000000, 354695200000000, 357663300000000,
  360656300000000, 363674300000000, 366717600000000, 369786400000000, 372880800000000, 376001100000000, 379147600000000, 382320300000000,
  385519600000000, 388745700000000, 391998800000000, 395279100000000, 398586900000000, 401922300000000, 405285700000000, 408677100000000,
  412097000000000, 415545500000000, 419022900000000, 422529300000000, 426065100000000, 429630500000000, 433225700000000, 436851000000000,
  440506600000000, 444192800000000, 447909900000000, 451658100000000, 455437600000000, 459248800000000, 463091900000000, 466967100000000,
  470874700000000, 474815100000000, 478788400000000, 482795000000000, 486835100000000, 490909000000000, 495017000000000, 499159400000000,
  503336400000000, 507548400000000, 511795700000000, 516078500000000, 520397100000000, 524751800000000, 529143000000000, 533571000000000,
  538036000000000, 542538400000000, 547078400000000, 551656400000000, 556272800000000, 560927800000000, 565621700000000, 570354900000000,
  575127700000000, 579940500000000, 584793500000000, 589687100000000, 594621700000000, 599597600000000, 604615100000000, 609674700000000,
  614776500000000, 619921100000000, 625108600000000, 630339600000000, 635614400000000, 640933300000000, 646296800000000, 651705100000000,
  657158600000000, 662657900000000, 668203100000000, 673794700000000, 679433100000000, 685118700000000, 690851900000000, 696633000000000,
  702462600000000, 708340900000000, 714268400000000, 720245500000000, 726272600000000, 732350200000000, 738478600000000, 744658300000000,
  750889700000000, 757173300000000, 763509400000000, 769898600000000, 776341200000000, 782837800000000, 789388700000000, 795000000000000,
  795994400000000, 802655400000000, 809372100000000, 816145100000000, 822974700000000, 825000000000000, 829861500000000, 836805900000000,
  843808400000000, 850869500000000, 857989700000000, 865169500000000, 872409400000000, 879709800000000, 887071400000000, 894494500000000,
  901979800000000, 909527700000000, 917138800000000, 924813500000000, 932552500000000, 940356300000000, 948225300000000, 956160200000000,
  964161500000000, 972229700000000, 980365500000000, 988569400000000, 996841900000000, 1005184000000000, 1013595000000000,
  1022077000000000, 1030630000000000, 1039254000000000, 1047951000000000, 1056720000000000, 1065563000000000, 1074480000000000,
  1083471000000000, 1092538000000000, 1101681000000000, 1110900000000000, 1120196000000000, 1129570000000000, 1139022000000000,
  1148554000000000, 1158165000000000, 1167857000000000, 1177629000000000, 1187484000000000, 1197421000000000, 1207441000000000,
  1217545000000000, 1227734000000000, 1238008000000000, 1248368000000000, 1258814000000000, 1269348000000000, 1279970000000000,
  1290681000000000, 1301482000000000, 1312373000000000, 1323355000000000, 1334429000000000, 1345596000000000, 1356856000000000,
  1368210000000000, 1379660000000000, 1391205000000000, 1402847000000000, 1414586000000000, 1426423000000000, 1438360000000000,
  1450396000000000, 1462533000000000, 1474772000000000, 1487113000000000, 1499558000000000, 1512106000000000, 1524760000000000,
  1537519000000000, 1550385000000000, 1563359000000000, 1576442000000000, 1589634000000000, 1602936000000000, 1616349000000000,
  1629875000000000, 1643514000000000, 1657268000000000, 1671136000000000, 1685120000000000, 1699221000000000, 1713441000000000,
  1727779000000000, 1742237000000000]

/-- egroups.py:3658-5630, edges from number 1400 on -/
def ecco1968_7 : List ℕ := [
  1756817000000000, 1771518000000000, 1786342000000000, 1801291000000000, 1816364000000000, 1831564000000000, 1846891000000000,
  1862346000000000, 1877930000000000, 1893645000000000, 1909491000000000, 1925470000000000, 1941583000000000, 1957830000000000,
  1974214000000000, 1990734000000000, 2007393000000000, 2024191000000000, 2041130000000000, 2058210000000000, 2075434000000000,
  2092801000000000, 2110314000000000, 2127974000000000, 2145781000000000, 2163737000000000, 2181844000000000, 2200102000000000,
  2218512000000000, 2237077000000000, 2255797000000000, 2274674000000000, 2293709000000000, 2312903000000000, 2332258000000000,
  2351775000000000, 2371455000000000, 2391299000000000, 2411310000000000, 2431488000000000, 2451835000000000, 2472353000000000,
  2493042000000000, 2513904000000000, 2534941000000000, 2556153000000000, 2577544000000000, 2599113000000000, 2620863000000000,
  2642794000000000, 2664910000000000, 2687210000000000, 2709697000000000, 2732372000000000, 2755237000000000, 2778293000000000,
  2801543000000000, 2824986000000000, 2848626000000000, 2872464000000000, 2896501000000000, 2920740000000000, 2945181000000000,
  2969826000000000, 2972000000000000, 2985000000000000, 2994678000000000, 3019738000000000, 3045008000000000, 3070489000000000,
  3096183000000000, 3122093000000000, 3148219000000000, 3174564000000000, 3201129000000000, 3227916000000000, 3254928000000000,
  3282166000000000, 3309631000000000, 3337327000000000, 3365254000000000, 3393415000000000, 3421812000000000, 3450446000000000,
  3479320000000000, 3508435000000000, 3537795000000000, 3567399000000000, 3597252000000000, 3627354000000000, 3657708000000000,
  3688317000000000, 3719181000000000, 3750304000000000, 3781687000000000, 3813333000000000, 3845243000000000, 3877421000000000,
  3909868000000000, 3942586000000000, 3975578000000000, 4008846000000000, 4042393000000000, 4076220000000000, 4110331000000000,
  4144727000000000, 4179410000000000, 4214384000000000, 4249651000000000, 4285213000000000, 4321072000000000, 4357231000000000,
  4393693000000000, 4430460000000000, 4467535000000000, 4504920000000000, 4542618000000000, 4580631000000000, 4618963000000000,
  4657615000000000, 4696591000000000, 4735892000000000, 4775523000000000, 4815485000000000, 4855782000000000, 4896416000000000,
  4937390000000000, 4978707000000000, 5020369000000000, 5062381000000000, 5104743000000000, 5147461000000000, 5190535000000000,
  5233971000000000, 5277769000000000, 5321934000000000, 5366469000000000, 5411377000000000, 5456660000000000, 5502322000000000,
  5548366000000000, 5594796000000000, 5641614000000000, 5688824000000000, 5736429000000000, 5784432000000000, 5832837000000000,
  5881647000000000, 5930866000000000, 5980496000000000, 6030542000000000, 6081006000000000, 6131893000000000, 6183206000000000,
  6234948000000000, 6287123000000000, 6339734000000000, 6392786000000000, 6446282000000000, 6500225000000000, 6554620000000000,
  6609470000000000, 6664779000000000, 6720551000000000, 6776790000000000, 6833499000000000, 6890683000000000, 6948345000000000,
  7006490000000000, 7065121000000000, 7124243000000000, 7183860000000000, 7243976000000000, 7304594000000000, 7365720000000000,
  7427358000000000, 7489511000000000, 7552184000000000, 7615382000000000, 7679109000000000, 7743369000000000, 7808167000000000,
  7873507000000000, 7939393000000000, 8005831000000000, 8072825000000000, 8140380000000000, 8208500000000000, 8277190000000000,
  8346455000000000, 8416299000000000, 8486728000000000, 8557746000000000, 8629359000000000, 8701570000000000, 8774387000000000,
  8847812000000000, 8921852000000000, 8996511000000000, 9071795000000000]

/-- egroups.py:3658-5630, edges from number 1600 on -/
def ecco1968_8 : List ℕ := [
  9147709000000000, 9224259000000000, 9301449000000000, 9379285000000000, 9457772000000000, 9536916000000000, 9616723000000000,
  9697197000000000, 9778344000000000, 9860171000000000, 9942682000000000, 10025880000000000, 10109780000000000, 10194380000000000,
  10279690000000000, 10365710000000000, 10452450000000000, 10539920000000000, 10628120000000000, 10717060000000000, 10806740000000000,
  10897170000000000, 10988360000000000, 11080320000000000, 11173040000000000, 11266540000000000, 11360820000000000, 11455880000000000,
  11551750000000000, 11648420000000000, 11745890000000000, 11844180000000000, 11943300000000000, 12043240000000000, 12144020000000000,
  12245640000000000, 12348120000000000, 12451450000000000, 12555640000000000, 12660710000000000, 12766660000000000, 12873490000000000,
  12981220000000000, 13089850000000000, 13199380000000000, 13309840000000000, 13421220000000000, 13533530000000000, 13646780000000000,
  13760980000000000, 13876130000000000, 13992250000000000, 14109340000000000, 14227410000000000, 14346460000000000, 14466520000000000,
  14587580000000000, 14709650000000000, 14832740000000000, 14956860000000000, 15082020000000000, 15208230000000000, 15335500000000000,
  15463830000000000, 15593230000000000, 15723720000000000, 15855300000000000, 15987970000000000, 16121760000000000, 16256670000000000,
  16392710000000000, 16529890000000000, 16668210000000000, 16807700000000000, 16948340000000000, 17090170000000000, 17233180000000000,
  17377390000000000, 17522810000000000, 17669440000000000, 17817310000000000, 17966400000000000, 18116750000000000, 18268350000000000,
  18421220000000000, 18575380000000000, 18730820000000000, 18887560000000000, 19045610000000000, 19204990000000000, 19365700000000000,
  19527760000000000, 19691170000000000, 19855950000000000, 20022100000000000, 20189650000000000, 20358600000000000, 20528970000000000,
  20700760000000000, 20873980000000000, 21048660000000000, 21224800000000000, 21402410000000000, 21581510000000000, 21762110000000000,
  21944210000000000, 22127850000000000, 22313020000000000, 22499730000000000, 22688020000000000, 22877870000000000, 23069320000000000,
  23262370000000000, 23457030000000000, 23653320000000000, 23851260000000000, 24050850000000000, 24252110000000000, 24455050000000000,
  24659700000000000, 24866050000000000, 25074140000000000, 25283960000000000, 25495540000000000, 25708890000000000, 25924030000000000,
  26140960000000000, 26359710000000000, 26580300000000000, 26802720000000000, 27027010000000000, 27253180000000000, 27481240000000000,
  27711210000000000, 27943100000000000, 28176930000000000, 28412720000000000, 28650480000000000, 28890230000000000, 29131990000000000,
  29375770000000000, 29621590000000000, 29869470000000000, 30119420000000000, 30371470000000000, 30625620000000000, 30881900000000000,
  31140320000000000, 31400910000000000, 31663680000000000, 31928640000000000, 32195830000000000, 32465250000000000, 32736920000000000,
  33010870000000000, 33287110000000000, 33565660000000000, 33846540000000000, 34129780000000000, 34415380000000000, 34703370000000000,
  34993770000000000, 35286610000000000, 35581890000000000, 35879650000000000, 36179890000000000, 36482650000000000, 36787940000000000,
  37095790000000000, 37406210000000000, 37719240000000000, 38034880000000000, 38353160000000000, 38674100000000000, 38997730000000000,
  39324070000000000, 39653140000000000, 39984970000000000, 40319570000000000, 40656970000000000, 40997190000000000, 41340260000000000,
  41686200000000000, 42035040000000000, 42386790000000000, 42741490000000000, 43099160000000000, 43459820000000000, 43823500000000000,
  44190220000000000, 44560010000000000, 44932900000000000, 45308900000000000, 45688050000000000, 46070380000000000, 46455900000000000,
  46844650000000000, 47236660000000000, 47631940000000000, 48030530000000000]

/-- egroups.py:3658-5630, edges from number 1800 on -/
def ecco1968_9 : List ℕ := [
  48432460000000000, 48837750000000000, 49246430000000000, 49658530000000000, 50074080000000000, 50493110000000000, 50915640000000000,
  51341710000000000, 51771350000000000, 52204580000000000, 52641430000000000, 53081950000000000, 53526140000000000, 53974060000000000,
  54425720000000000, 54881160000000000, 55340420000000000, 55803510000000000, 56270490000000000, 56741370000000000, 57216190000000000,
  57694980000000000, 58177780000000000, 58664620000000000, 59155540000000000, 59650560000000000, 60149720000000000, 60653070000000000,
  61160620000000000, 61672420000000000, 62188510000000000, 62708910000000000, 63233670000000000, 63762820000000000, 64296390000000000,
  64834430000000000, 65376980000000000, 65924060000000000, 66475730000000000, 67032000000000000, 67592940000000000, 68158570000000000,
  68728930000000000, 69304060000000000, 69884010000000000, 70468810000000000, 71058500000000000, 71653130000000000, 72252740000000000,
  72857360000000000, 73467040000000000, 74081820000000000, 74701750000000000, 75326870000000000, 75957210000000000, 76592830000000000,
  77233770000000000, 77880080000000000, 78531790000000000, 79188960000000000, 79851620000000000, 80519830000000000, 81193630000000000,
  81873080000000000, 82558200000000000, 83249060000000000, 83945700000000000, 84648170000000000, 85356520000000000, 86070800000000000,
  86791050000000000, 87517330000000000, 88249690000000000, 88988180000000000, 89732840000000000, 90483740000000000, 91240920000000000,
  92004440000000000, 92774350000000000, 93550700000000000, 94333540000000000, 95122940000000000, 95918950000000000, 96721610000000000,
  97530990000000000, 98347150000000000, 99170130000000000, 100000000000000000, 100836800000000000, 101680600000000000, 102531500000000000,
  103389500000000000, 104254700000000000, 105127100000000000, 106006800000000000, 106893900000000000, 107788400000000000,
  108690400000000000, 109599900000000000, 110517100000000000, 111441900000000000, 112374500000000000, 113314800000000000,
  114263100000000000, 115219300000000000, 116183400000000000, 117155700000000000, 118136000000000000, 119124600000000000,
  120121500000000000, 121126700000000000, 122140300000000000, 123162400000000000, 124193000000000000, 125232300000000000,
  126280200000000000, 127337000000000000, 128402500000000000, 129477000000000000, 130560500000000000, 131653100000000000,
  132754800000000000, 133865700000000000, 134985900000000000, 136115500000000000, 137254500000000000, 138403100000000000,
  139561200000000000, 140729100000000000, 141906800000000000, 143094300000000000, 144291700000000000, 145499100000000000,
  146716700000000000, 147944400000000000, 149182500000000000, 150430900000000000, 151689700000000000, 152959000000000000,
  154239000000000000, 155529700000000000, 156831200000000000, 158143600000000000, 159467000000000000, 160801400000000000,
  162147000000000000, 163503900000000000, 164872100000000000, 166251800000000000, 167643000000000000, 169045900000000000,
  170460500000000000, 171886900000000000, 173325300000000000, 174775700000000000, 176238300000000000, 177713100000000000,
  179200200000000000, 180699800000000000, 182211900000000000, 183736700000000000, 185274200000000000, 186824600000000000,
  188388000000000000, 189964400000000000, 191554100000000000, 193157000000000000, 194773400000000000, 196403300000000000]

/-- egroups.py:3658-5630 -/
def ecco1968 : Groups := ⟨"ECCO", 1968, 10, ecco1968_0 ++ ecco1968_1 ++ ecco1968_2 ++ ecco1968_3 ++ ecco1968_4 ++ ecco1968_5 ++ ecco1968_6 ++ ecco1968_7 ++ ecco1968_8 ++ ecco1968_9⟩

/-- `GROUP_STRUCTURES` (egroups.py:8-5630) -/
def groupStructures : List Groups := [casmo2, casmo4, casmo8, casmo16, casmo25, casmo40, vitaminj42, scale44, mpact51, mpact60, mpact69, casmo70, xmas172, vitaminj175, scale252, tripoli315, shem361, ccfe709, ukaea1102, ecco1968]

end F4Enix.Ace
