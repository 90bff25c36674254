import Verif.Model.TableBase

/-!
# Line tables of oxygen

Contents of `pyrtlib/_lineshape/o2_lineshape.nc`: the variables of each group, in the order of the file.  `wb300` and `x`
are stored in single precision; the decimals are those of the resulting double.
-/

namespace Verif.Model

/-- Group `R98`. -/
def oxygenR98 : List (String × Col) := [
  ("be", ⟨[9, 15, 83, 84, 212, 212, 391, 391, 626, 626, 915, 915, 1260, 1260, 1660, 1665, 2119, 2115, 2624, 2625, 3194,
    3194, 3814, 3814, 4484, 4484, 5224, 5224, 6004, 6004, 6844, 6844, 7744, 7744, 48, 44, 49, 145, 141, 145], 3⟩),
  ("f", ⟨[1187503, 562648, 624863, 584466, 603061, 595910, 591642, 604348, 583239, 611506, 576125, 618002, 569682,
    624112, 563634, 629980, 557838, 635685, 552214, 641278, 546712, 646789, 541300, 652241, 535957, 657648, 530669,
    663021, 525424, 668368, 520214, 673696, 515034, 679009, 3684984, 4247632, 4872494, 7153931, 7738397, 8341458], 4⟩),
  ("s300", ⟨[2936000, 807900, 2480000, 2228000, 3351000, 3292000, 3721000, 3891000, 3640000, 4005000, 3227000, 3715000,
    2627000, 3156000, 1982000, 2477000, 1391000, 1808000, 912400, 1230000, 560300, 784200, 322800, 468900, 174800,
    263200, 88980, 138900, 42640, 68990, 19240, 32290, 8191, 14230, 649400, 7083000, 3025000, 1835000, 11580000,
    3993000], 21⟩),
  ("v", ⟨[79, -978, 844, -1273, 699, -776, 2309, -2825, 436, -584, 6056, -6619, 6451, -6759, 6547, -6675, 6135, -6139,
    2952, -2895, 2654, -2590, 3750, -3680, 5085, -5002, 6206, -6091, 6526, -6393, 6640, -6475, 6729, -6545, 0, 0,
    0, 0, 0, 0], 4⟩),
  ("w300", ⟨[1630, 1646, 1468, 1449, 1382, 1360, 1319, 1297, 1266, 1248, 1221, 1207, 1181, 1171, 1144, 1139, 1110, 1108,
    1079, 1078, 1050, 1050, 1020, 1020, 1000, 1000, 970, 970, 940, 940, 920, 920, 890, 890, 1920, 1920, 1920, 1810,
    1810, 1810], 3⟩),
  ("wb300", ⟨[5600000023841858], 16⟩),
  ("x", ⟨[800000011920929], 15⟩),
  ("y300", ⟨[-233, 2408, -3486, 5227, -5430, 5877, -3970, 3237, -1348, 311, 725, -1663, 2832, -3629, 3970, -4599, 4695,
    -5199, 5187, -5597, 5903, -6246, 6656, -6942, 7086, -7325, 7348, -7546, 7702, -7864, 8083, -8210, 8439, -8529,
    0, 0, 0, 0, 0, 0], 4⟩)]

/-- Group `R03`. -/
def oxygenR03 : List (String × Col) := [
  ("be", ⟨[9, 15, 83, 84, 212, 212, 391, 391, 626, 626, 915, 915, 1260, 1260, 1660, 1665, 2119, 2115, 2624, 2625, 3194,
    3194, 3814, 3814, 4484, 4484, 5224, 5224, 6004, 6004, 6844, 6844, 7744, 7744, 48, 44, 49, 145, 141, 145], 3⟩),
  ("f", ⟨[1187503, 562648, 624863, 584466, 603061, 595910, 591642, 604348, 583239, 611506, 576125, 618002, 569682,
    624112, 563634, 629980, 557838, 635685, 552214, 641278, 546712, 646789, 541300, 652241, 535957, 657648, 530669,
    663021, 525424, 668368, 520214, 673696, 515034, 679009, 3684984, 4247632, 4872494, 7153931, 7738397, 8341458], 4⟩),
  ("s300", ⟨[2936000, 807900, 2480000, 2228000, 3351000, 3292000, 3721000, 3891000, 3640000, 4005000, 3227000, 3715000,
    2627000, 3156000, 1982000, 2477000, 1391000, 1808000, 912400, 1230000, 560300, 784200, 322800, 468900, 174800,
    263200, 88980, 138900, 42640, 68990, 19240, 32290, 8191, 14230, 649400, 7083000, 3025000, 1835000, 11580000,
    3993000], 21⟩),
  ("v", ⟨[79, -978, 844, -1273, 699, -776, 2309, -2825, 436, -584, 6056, -6619, 6451, -6759, 6547, -6675, 6135, -6139,
    2952, -2895, 2654, -2590, 3750, -3680, 5085, -5002, 6206, -6091, 6526, -6393, 6640, -6475, 6729, -6545, 0, 0,
    0, 0, 0, 0], 4⟩),
  ("w300", ⟨[1670, 1646, 1468, 1449, 1382, 1360, 1319, 1297, 1266, 1248, 1221, 1207, 1181, 1171, 1144, 1139, 1110, 1108,
    1079, 1078, 1050, 1050, 1020, 1020, 1000, 1000, 970, 970, 940, 940, 920, 920, 890, 890, 1640, 1640, 1640, 1810,
    1810, 1810], 3⟩),
  ("wb300", ⟨[5600000023841858], 16⟩),
  ("x", ⟨[800000011920929], 15⟩),
  ("y300", ⟨[-360, 2408, -3486, 5227, -5430, 5877, -3970, 3237, -1348, 311, 725, -1663, 2832, -3629, 3970, -4599, 4695,
    -5199, 5187, -5597, 5903, -6246, 6656, -6942, 7086, -7325, 7348, -7546, 7702, -7864, 8083, -8210, 8439, -8529,
    0, 0, 0, 0, 0, 0], 4⟩)]

/-- Group `R16`. -/
def oxygenR16 : List (String × Col) := [
  ("be", ⟨[10, 14, 83, 83, 207, 207, 387, 387, 621, 621, 910, 910, 1255, 1255, 1654, 1654, 2109, 2109, 2618, 2618, 3182,
    3182, 3800, 3800, 4474, 4474, 5201, 5201, 5983, 5983, 6819, 6819, 7709, 7709, 8653, 8653, 9651, 9651, 19, 48,
    45, 44, 49, 84, 145, 136, 141, 145, 201], 3⟩),
  ("dnu0", ⟨[0, 5450, -17500, 28600, -43000, 49100, -22900, 16200, -866, -6090, -1150, -2560, 2210, -4470, 6050, -7460,
    6750, -7620, 7320, -7840, 8020, -8330, 6960, -7140, 5170, -5260, 3680, -3760, 2770, -2830, 2300, -2350, 2090,
    -2110, 1940, -1970, 1990, -1990, 0, 0, 0, 0, 0, 0, 0, 0, 0, 0, 0], 6⟩),
  ("dnu1", ⟨[0, 17000, -13000, 10700, -44400, 49300, -529000, 610000, -193000, 168000, 393000, -448000, 247000, -265000,
    102000, -106000, 104000, -105000, 163000, -163000, 83500, -81500, 9220, -7600, -17400, 18400, -15000, 15700,
    -5610, 6410, -939, 1730, -366, 990, -1560, 2240, -7080, 7430, 0, 0, 0, 0, 0, 0, 0, 0, 0, 0, 0], 7⟩),
  ("f", ⟨[1187503, 562648, 624863, 584466, 603061, 595910, 591642, 604348, 583239, 611506, 576125, 618002, 569682,
    624112, 563634, 629980, 557838, 635685, 552214, 641278, 546712, 646789, 541300, 652241, 535958, 657648, 530669,
    663021, 525424, 668368, 520214, 673696, 515034, 679009, 509877, 684310, 504742, 689603, 2339461, 3684982,
    4017398, 4247630, 4872493, 5668956, 7153929, 7311866, 7738395, 8341455, 8950710], 4⟩),
  ("g0", ⟨[0, -8350, -9470, -21800, -16000, -16200, 1970, 13200, 12800, 16600, 8830, 7130, 7350, 5820, -369, 439, -2130,
    -6340, -8680, -10500, -11400, -13400, -16300, -17400, -18600, -19500, -17900, -18600, -18400, -18900, -19700,
    -20000, -21200, -21400, -22700, -22800, -21500, -21600, 0, 0, 0, 0, 0, 0, 0, 0, 0, 0, 0], 5⟩),
  ("g1", ⟨[0, 843, 2340, 5960, 3260, 4100, 1740, 3900, 26200, 30500, 12600, 7990, -15600, -21600, -25300, -29600, -28700,
    -32400, -37400, -39400, -39300, -40000, -32900, -32800, -26100, -25800, -23700, -23200, -24400, -23900, -26200,
    -25400, -27800, -26800, -29500, -28300, -35400, -33600, 0, 0, 0, 0, 0, 0, 0, 0, 0, 0, 0], 5⟩),
  ("s300", ⟨[2906000, 795700, 2444000, 2194000, 3301000, 3243000, 3664000, 3834000, 3588000, 3947000, 3179000, 3661000,
    2590000, 3111000, 1954000, 2443000, 1373000, 1784000, 901300, 1217000, 554500, 776600, 320100, 465100, 173800,
    261900, 88800, 138700, 42720, 69230, 19390, 32550, 8301, 14450, 3356, 6049, 1280, 2394, 32870, 646300, 13340,
    7049000, 3011000, 17970, 1826000, 21930, 11530000, 3974000, 25120], 21⟩),
  ("w300", ⟨[1688, 1703, 1513, 1491, 1415, 1408, 1353, 1339, 1295, 1292, 1262, 1263, 1223, 1217, 1189, 1174, 1134, 1134,
    1089, 1088, 1037, 1038, 996, 996, 955, 955, 906, 906, 858, 858, 811, 811, 764, 764, 717, 717, 669, 669, 2780,
    1640, 1640, 1640, 1600, 1600, 1600, 1600, 1620, 1470, 1470], 3⟩),
  ("wb300", ⟨[5600000023841858], 16⟩),
  ("x", ⟨[800000011920929], 15⟩),
  ("y0", ⟨[-410, 2650, -3540, 5300, -5470, 5890, -3590, 2760, -942, -124, 647, -1550, 2240, -2990, 3650, -4260, 4660,
    -5150, 5460, -5870, 6080, -6420, 6400, -6680, 6550, -6790, 6690, -6890, 6890, -7060, 7150, -7290, 7430, -7540,
    7710, -7800, 8020, -8070, 0, 0, 0, 0, 0, 0, 0, 0, 0, 0, 0], 4⟩),
  ("y1", ⟨[0, -132, 582, -981, 1140, -1530, -494, 476, 1860, -2350, 6110, -6740, 6280, -6620, 5830, -5980, 5960, -6000,
    6170, -6150, 5150, -5090, 4060, -3990, 3480, -3400, 3350, -3270, 3420, -3320, 3460, -3360, 3440, -3340, 3380,
    -3270, 3200, -3090, 0, 0, 0, 0, 0, 0, 0, 0, 0, 0, 0], 4⟩)]

/-- Group `R17`. -/
def oxygenR17 : List (String × Col) := [
  ("be", ⟨[10, 14, 83, 83, 207, 207, 387, 387, 621, 621, 910, 910, 1255, 1255, 1654, 1654, 2109, 2109, 2618, 2618, 3182,
    3182, 3800, 3800, 4474, 4474, 5201, 5201, 5983, 5983, 6819, 6819, 7709, 7709, 8653, 8653, 9651, 9651, 19, 48,
    45, 44, 49, 84, 145, 136, 141, 145, 201], 3⟩),
  ("f", ⟨[1187503, 562648, 624863, 584466, 603061, 595910, 591642, 604348, 583239, 611506, 576125, 618002, 569682,
    624112, 563634, 629980, 557838, 635685, 552214, 641278, 546712, 646789, 541300, 652241, 535958, 657648, 530669,
    663021, 525424, 668368, 520214, 673696, 515034, 679009, 509877, 684310, 504742, 689603, 2339461, 3684982,
    4017398, 4247630, 4872493, 5668956, 7153929, 7311866, 7738395, 8341455, 8950710], 4⟩),
  ("s300", ⟨[2906000, 795700, 2444000, 2194000, 3301000, 3243000, 3664000, 3834000, 3588000, 3947000, 3179000, 3661000,
    2590000, 3111000, 1954000, 2443000, 1373000, 1784000, 901300, 1217000, 554500, 776600, 320100, 465100, 173800,
    261900, 88800, 138700, 42720, 69230, 19390, 32550, 8301, 14450, 3356, 6049, 1280, 2394, 32870, 646300, 13340,
    7049000, 3011000, 17970, 1826000, 21930, 11530000, 3974000, 25120], 21⟩),
  ("v", ⟨[79, -978, 844, -1273, 699, -776, 2309, -2825, 436, -584, 6056, -6619, 6451, -6759, 6547, -6675, 6135, -6139,
    2952, -2895, 2654, -2590, 3750, -3680, 5085, -5002, 6206, -6091, 6526, -6393, 6640, -6475, 6729, -6545, 6800,
    -6600, 6850, -6650, 0, 0, 0, 0, 0, 0, 0, 0, 0, 0, 0], 4⟩),
  ("w300", ⟨[1688, 1703, 1513, 1491, 1415, 1408, 1353, 1339, 1295, 1292, 1262, 1263, 1223, 1217, 1189, 1174, 1134, 1134,
    1089, 1088, 1037, 1038, 996, 996, 955, 955, 906, 906, 858, 858, 811, 811, 764, 764, 717, 717, 669, 669, 1650,
    1640, 1640, 1640, 1600, 1600, 1600, 1600, 1620, 1470, 1470], 3⟩),
  ("wb300", ⟨[5600000023841858], 16⟩),
  ("x", ⟨[800000011920929], 15⟩),
  ("y300", ⟨[-360, 2547, -3655, 5495, -5696, 6181, -4252, 3517, -1496, 430, 640, -1605, 2906, -3730, 4169, -4819, 4963,
    -5481, 5512, -5931, 6212, -6558, 6920, -7208, 7312, -7550, 7555, -7751, 7914, -8073, 8307, -8431, 8676, -8761,
    9046, -9092, 9416, -9423, 0, 0, 0, 0, 0, 0, 0, 0, 0, 0, 0], 4⟩)]

/-- Group `R18`. -/
def oxygenR18 : List (String × Col) := [
  ("be", ⟨[10, 14, 83, 83, 207, 207, 387, 387, 621, 621, 910, 910, 1255, 1255, 1654, 1654, 2109, 2109, 2618, 2618, 3182,
    3182, 3800, 3800, 4474, 4474, 5201, 5201, 5983, 5983, 6819, 6819, 7709, 7709, 8653, 8653, 9651, 9651, 19, 48,
    45, 44, 49, 84, 145, 136, 141, 145, 201], 3⟩),
  ("f", ⟨[1187503, 562648, 624863, 584466, 603061, 595910, 591642, 604348, 583239, 611506, 576125, 618002, 569682,
    624112, 563634, 629980, 557838, 635685, 552214, 641278, 546712, 646789, 541300, 652241, 535958, 657648, 530669,
    663021, 525424, 668368, 520214, 673696, 515034, 679009, 509877, 684310, 504742, 689603, 2339461, 3684982,
    4017398, 4247630, 4872493, 5668956, 7153929, 7311866, 7738395, 8341455, 8950710], 4⟩),
  ("s300", ⟨[2906000, 795700, 2444000, 2194000, 3301000, 3243000, 3664000, 3834000, 3588000, 3947000, 3179000, 3661000,
    2590000, 3111000, 1954000, 2443000, 1373000, 1784000, 901300, 1217000, 554500, 776600, 320100, 465100, 173800,
    261900, 88800, 138700, 42720, 69230, 19390, 32550, 8301, 14450, 3356, 6049, 1280, 2394, 32870, 646300, 13340,
    7049000, 3011000, 17970, 1826000, 21930, 11530000, 3974000, 25120], 21⟩),
  ("v", ⟨[79, -978, 844, -1273, 699, -776, 2309, -2825, 436, -584, 6056, -6619, 6451, -6759, 6547, -6675, 6135, -6139,
    2952, -2895, 2654, -2590, 3750, -3680, 5085, -5002, 6206, -6091, 6526, -6393, 6640, -6475, 6729, -6545, 6800,
    -6600, 6850, -6650, 0, 0, 0, 0, 0, 0, 0, 0, 0, 0, 0], 4⟩),
  ("w300", ⟨[1688, 1703, 1513, 1491, 1415, 1408, 1353, 1339, 1295, 1292, 1262, 1263, 1223, 1217, 1189, 1174, 1134, 1134,
    1089, 1088, 1037, 1038, 996, 996, 955, 955, 906, 906, 858, 858, 811, 811, 764, 764, 717, 717, 669, 669, 1650,
    1640, 1640, 1640, 1600, 1600, 1600, 1600, 1620, 1470, 1470], 3⟩),
  ("wb300", ⟨[5600000023841858], 16⟩),
  ("x", ⟨[800000011920929], 15⟩),
  ("y300", ⟨[-360, 2547, -3655, 5495, -5696, 6181, -4252, 3517, -1496, 430, 640, -1605, 2906, -3730, 4169, -4819, 4963,
    -5481, 5512, -5931, 6212, -6558, 6920, -7208, 7312, -7550, 7555, -7751, 7914, -8073, 8307, -8431, 8676, -8761,
    9046, -9092, 9416, -9423, 0, 0, 0, 0, 0, 0, 0, 0, 0, 0, 0], 4⟩)]

/-- Group `R19`. -/
def oxygenR19 : List (String × Col) := [
  ("be", ⟨[10, 14, 83, 83, 207, 207, 387, 387, 621, 621, 910, 910, 1255, 1255, 1654, 1654, 2109, 2109, 2618, 2618, 3182,
    3182, 3800, 3800, 4474, 4474, 5201, 5201, 5983, 5983, 6819, 6819, 7709, 7709, 8653, 8653, 9651, 9651, 19, 48,
    45, 44, 49, 84, 145, 136, 141, 145, 201], 3⟩),
  ("f", ⟨[1187503, 562648, 624863, 584466, 603061, 595910, 591642, 604348, 583239, 611506, 576125, 618002, 569682,
    624112, 563634, 629980, 557838, 635685, 552214, 641278, 546712, 646789, 541300, 652241, 535958, 657648, 530669,
    663021, 525424, 668368, 520214, 673696, 515034, 679009, 509877, 684310, 504742, 689603, 2339461, 3684982,
    4017398, 4247630, 4872493, 5668956, 7153929, 7311866, 7738395, 8341455, 8950710], 4⟩),
  ("s300", ⟨[2906000, 795700, 2444000, 2194000, 3301000, 3243000, 3664000, 3834000, 3588000, 3947000, 3179000, 3661000,
    2590000, 3111000, 1954000, 2443000, 1373000, 1784000, 901300, 1217000, 554500, 776600, 320100, 465100, 173800,
    261900, 88800, 138700, 42720, 69230, 19390, 32550, 8301, 14450, 3356, 6049, 1280, 2394, 32870, 646300, 13340,
    7049000, 3011000, 17970, 1826000, 21930, 11530000, 3974000, 25120], 21⟩),
  ("v", ⟨[79, -978, 844, -1273, 699, -776, 2309, -2825, 436, -584, 6056, -6619, 6451, -6759, 6547, -6675, 6135, -6139,
    2952, -2895, 2654, -2590, 3750, -3680, 5085, -5002, 6206, -6091, 6526, -6393, 6640, -6475, 6729, -6545, 6800,
    -6600, 6850, -6650, 0, 0, 0, 0, 0, 0, 0, 0, 0, 0, 0], 4⟩),
  ("w300", ⟨[1688, 1703, 1513, 1491, 1415, 1408, 1353, 1339, 1295, 1292, 1262, 1263, 1223, 1217, 1189, 1174, 1134, 1134,
    1089, 1088, 1037, 1038, 996, 996, 955, 955, 906, 906, 858, 858, 811, 811, 764, 764, 717, 717, 669, 669, 1650,
    1640, 1640, 1640, 1600, 1600, 1600, 1600, 1620, 1470, 1470], 3⟩),
  ("wb300", ⟨[5600000023841858], 16⟩),
  ("x", ⟨[800000011920929], 15⟩),
  ("y300", ⟨[-360, 2547, -3655, 5495, -5696, 6181, -4252, 3517, -1496, 430, 640, -1605, 2906, -3730, 4169, -4819, 4963,
    -5481, 5512, -5931, 6212, -6558, 6920, -7208, 7312, -7550, 7555, -7751, 7914, -8073, 8307, -8431, 8676, -8761,
    9046, -9092, 9416, -9423, 0, 0, 0, 0, 0, 0, 0, 0, 0, 0, 0], 4⟩)]

/-- Group `R19SD`. -/
def oxygenR19SD : List (String × Col) := [
  ("be", ⟨[10, 14, 83, 83, 207, 207, 387, 387, 621, 621, 910, 910, 1255, 1255, 1654, 1654, 2109, 2109, 2618, 2618, 3182,
    3182, 3800, 3800, 4474, 4474, 5201, 5201, 5983, 5983, 6819, 6819, 7709, 7709, 8653, 8653, 9651, 9651, 19, 48,
    45, 44, 49, 84, 145, 136, 141, 145, 201], 3⟩),
  ("f", ⟨[1187503, 562648, 624863, 584466, 603061, 595910, 591642, 604348, 583239, 611506, 576125, 618002, 569682,
    624112, 563634, 629980, 557838, 635685, 552214, 641278, 546712, 646789, 541300, 652241, 535958, 657648, 530669,
    663021, 525424, 668368, 520214, 673696, 515034, 679009, 509877, 684310, 504742, 689603, 2339461, 3684982,
    4017398, 4247630, 4872493, 5668956, 7153929, 7311866, 7738395, 8341455, 8950710], 4⟩),
  ("s300", ⟨[2906000, 795700, 2444000, 2194000, 3301000, 3243000, 3664000, 3834000, 3588000, 3947000, 3179000, 3661000,
    2590000, 3111000, 1954000, 2443000, 1373000, 1784000, 901300, 1217000, 554500, 776600, 320100, 465100, 173800,
    261900, 88800, 138700, 42720, 69230, 19390, 32550, 8301, 14450, 3356, 6049, 1280, 2394, 32870, 646300, 13340,
    7049000, 3011000, 17970, 1826000, 21930, 11530000, 3974000, 25120], 21⟩),
  ("v", ⟨[79, -978, 844, -1273, 699, -776, 2309, -2825, 436, -584, 6056, -6619, 6451, -6759, 6547, -6675, 6135, -6139,
    2952, -2895, 2654, -2590, 3750, -3680, 5085, -5002, 6206, -6091, 6526, -6393, 6640, -6475, 6729, -6545, 6800,
    -6600, 6850, -6650, 0, 0, 0, 0, 0, 0, 0, 0, 0, 0, 0], 4⟩),
  ("w300", ⟨[1688, 1703, 1513, 1491, 1415, 1408, 1353, 1339, 1295, 1292, 1262, 1263, 1223, 1217, 1189, 1174, 1134, 1134,
    1089, 1088, 1037, 1038, 996, 996, 955, 955, 906, 906, 858, 858, 811, 811, 764, 764, 717, 717, 669, 669, 1650,
    1640, 1640, 1640, 1600, 1600, 1600, 1600, 1620, 1470, 1470], 3⟩),
  ("wb300", ⟨[5600000023841858], 16⟩),
  ("x", ⟨[800000011920929], 15⟩),
  ("y300", ⟨[-360, 2547, -3655, 5495, -5696, 6181, -4252, 3517, -1496, 430, 640, -1605, 2906, -3730, 4169, -4819, 4963,
    -5481, 5512, -5931, 6212, -6558, 6920, -7208, 7312, -7550, 7555, -7751, 7914, -8073, 8307, -8431, 8676, -8761,
    9046, -9092, 9416, -9423, 0, 0, 0, 0, 0, 0, 0, 0, 0, 0, 0], 4⟩)]

/-- Group `R20`. -/
def oxygenR20 : List (String × Col) := [
  ("be", ⟨[10, 14, 83, 83, 207, 207, 387, 387, 621, 621, 910, 910, 1255, 1255, 1654, 1654, 2109, 2109, 2618, 2618, 3182,
    3182, 3800, 3800, 4474, 4474, 5201, 5201, 5983, 5983, 6819, 6819, 7709, 7709, 8653, 8653, 9651, 9651, 19, 48,
    45, 44, 49, 84, 145, 136, 141, 145, 201], 3⟩),
  ("dnu0", ⟨[-28, 596, -1950, 3200, -4750, 5410, -2320, 1550, 70, -860, -260, -130, -40, -200, 500, -700, 700, -800, 600,
    -700, 600, -600, 500, -490, 400, -410, 360, -370, 330, -340, 320, -320, 300, -300, 280, -290, 290, -290, 0, 0,
    0, 0, 0, 0, 0, 0, 0, 0, 0], 5⟩),
  ("dnu1", ⟨[-37, 860, -1300, 1900, -2600, 2700, 500, -1400, 1200, -1800, -1500, 1500, 300, -400, 1200, -1300, 1200, -1200,
    900, -900, 200, -200, 50, -50, 200, -200, 200, -200, 200, -200, 200, -200, 200, -200, 100, -100, 40, -40, 0, 0,
    0, 0, 0, 0, 0, 0, 0, 0, 0], 5⟩),
  ("f", ⟨[1187503, 562648, 624863, 584466, 603061, 595910, 591642, 604348, 583239, 611506, 576125, 618002, 569682,
    624112, 563634, 629980, 557838, 635685, 552214, 641278, 546712, 646789, 541300, 652241, 535958, 657648, 530669,
    663021, 525424, 668368, 520214, 673696, 515034, 679009, 509877, 684310, 504742, 689603, 2339461, 3684982,
    4017398, 4247630, 4872493, 5668956, 7153929, 7311866, 7738395, 8341455, 8950710], 4⟩),
  ("g0", ⟨[-695, -90000, -103000, -239000, -172000, -171000, 28000, 150000, 132000, 170000, 87000, 69000, 83000, 68000,
    7000, 16000, -21000, -66000, -95000, -116000, -118000, -140000, -173000, -186000, -217000, -227000, -234000,
    -242000, -266000, -272000, -301000, -304000, -334000, -333000, -362000, -358000, -348000, -344000, 0, 0, 0, 0,
    0, 0, 0, 0, 0, 0, 0], 6⟩),
  ("g1", ⟨[0, -42, 4, 25, 83, 167, 178, 223, 54, 3, 2, -44, -19, -54, -177, -208, -294, -334, -368, -386, -374, -384,
    -387, -389, -423, -422, -460, -460, -510, -500, -550, -530, -580, -560, -620, -590, -680, -650, 0, 0, 0, 0, 0,
    0, 0, 0, 0, 0, 0], 3⟩),
  ("s300", ⟨[2906000, 795700, 2444000, 2194000, 3301000, 3243000, 3664000, 3834000, 3588000, 3947000, 3179000, 3661000,
    2590000, 3111000, 1954000, 2443000, 1373000, 1784000, 901300, 1217000, 554500, 776600, 320100, 465100, 173800,
    261900, 88800, 138700, 42720, 69230, 19390, 32550, 8301, 14450, 3356, 6049, 1280, 2394, 32870, 646300, 13340,
    7049000, 3011000, 17970, 1826000, 21930, 11530000, 3974000, 25120], 21⟩),
  ("w300", ⟨[1685, 1703, 1513, 1495, 1433, 1408, 1353, 1353, 1303, 1319, 1262, 1265, 1238, 1217, 1207, 1207, 1137, 1137,
    1101, 1101, 1037, 1038, 996, 996, 955, 955, 906, 906, 858, 858, 811, 811, 764, 764, 717, 717, 669, 669, 1650,
    1640, 1640, 1640, 1600, 1600, 1600, 1600, 1620, 1470, 1470], 3⟩),
  ("wb300", ⟨[5600000023841858], 16⟩),
  ("x", ⟨[7540000081062317], 16⟩),
  ("y0", ⟨[-410, 2770, -3730, 5600, -5730, 6180, -3660, 2780, -890, -210, 599, -1520, 2160, -2930, 3740, -4360, 4910,
    -5420, 5710, -6130, 6360, -6700, 6900, -7180, 7400, -7630, 7880, -8070, 8340, -8490, 8760, -8870, 9150, -9220,
    9500, -9550, 9870, -9880, 0, 0, 0, 0, 0, 0, 0, 0, 0, 0, 0], 4⟩),
  ("y1", ⟨[0, 110, -9, 7, 49, -100, 260, -346, 364, -422, 315, -341, 483, -503, 598, -610, 630, -633, 613, -611, 570,
    -564, 580, -570, 610, -600, 640, -620, 650, -640, 660, -640, 660, -640, 660, -640, 650, -630, 0, 0, 0, 0, 0, 0,
    0, 0, 0, 0, 0], 3⟩)]

/-- Group `R20SD`. -/
def oxygenR20SD : List (String × Col) := [
  ("be", ⟨[10, 14, 83, 83, 207, 207, 387, 387, 621, 621, 910, 910, 1255, 1255, 1654, 1654, 2109, 2109, 2618, 2618, 3182,
    3182, 3800, 3800, 4474, 4474, 5201, 5201, 5983, 5983, 6819, 6819, 7709, 7709, 8653, 8653, 9651, 9651, 19, 48,
    45, 44, 49, 84, 145, 136, 141, 145, 201], 3⟩),
  ("dnu0", ⟨[-28, 596, -1950, 3200, -4750, 5410, -2320, 1550, 70, -860, -260, -130, -40, -200, 500, -700, 700, -800, 600,
    -700, 600, -600, 500, -490, 400, -410, 360, -370, 330, -340, 320, -320, 300, -300, 280, -290, 290, -290, 0, 0,
    0, 0, 0, 0, 0, 0, 0, 0, 0], 5⟩),
  ("dnu1", ⟨[-37, 860, -1300, 1900, -2600, 2700, 500, -1400, 1200, -1800, -1500, 1500, 300, -400, 1200, -1300, 1200, -1200,
    900, -900, 200, -200, 50, -50, 200, -200, 200, -200, 200, -200, 200, -200, 200, -200, 100, -100, 40, -40, 0, 0,
    0, 0, 0, 0, 0, 0, 0, 0, 0], 5⟩),
  ("f", ⟨[1187503, 562648, 624863, 584466, 603061, 595910, 591642, 604348, 583239, 611506, 576125, 618002, 569682,
    624112, 563634, 629980, 557838, 635685, 552214, 641278, 546712, 646789, 541300, 652241, 535958, 657648, 530669,
    663021, 525424, 668368, 520214, 673696, 515034, 679009, 509877, 684310, 504742, 689603, 2339461, 3684982,
    4017398, 4247630, 4872493, 5668956, 7153929, 7311866, 7738395, 8341455, 8950710], 4⟩),
  ("g0", ⟨[-695, -90000, -103000, -239000, -172000, -171000, 28000, 150000, 132000, 170000, 87000, 69000, 83000, 68000,
    7000, 16000, -21000, -66000, -95000, -116000, -118000, -140000, -173000, -186000, -217000, -227000, -234000,
    -242000, -266000, -272000, -301000, -304000, -334000, -333000, -362000, -358000, -348000, -344000, 0, 0, 0, 0,
    0, 0, 0, 0, 0, 0, 0], 6⟩),
  ("g1", ⟨[0, -42, 4, 25, 83, 167, 178, 223, 54, 3, 2, -44, -19, -54, -177, -208, -294, -334, -368, -386, -374, -384,
    -387, -389, -423, -422, -460, -460, -510, -500, -550, -530, -580, -560, -620, -590, -680, -650, 0, 0, 0, 0, 0,
    0, 0, 0, 0, 0, 0], 3⟩),
  ("s300", ⟨[2906000, 795700, 2444000, 2194000, 3301000, 3243000, 3664000, 3834000, 3588000, 3947000, 3179000, 3661000,
    2590000, 3111000, 1954000, 2443000, 1373000, 1784000, 901300, 1217000, 554500, 776600, 320100, 465100, 173800,
    261900, 88800, 138700, 42720, 69230, 19390, 32550, 8301, 14450, 3356, 6049, 1280, 2394, 32870, 646300, 13340,
    7049000, 3011000, 17970, 1826000, 21930, 11530000, 3974000, 25120], 21⟩),
  ("w300", ⟨[1685, 1703, 1513, 1495, 1433, 1408, 1353, 1353, 1303, 1319, 1262, 1265, 1238, 1217, 1207, 1207, 1137, 1137,
    1101, 1101, 1037, 1038, 996, 996, 955, 955, 906, 906, 858, 858, 811, 811, 764, 764, 717, 717, 669, 669, 1650,
    1640, 1640, 1640, 1600, 1600, 1600, 1600, 1620, 1470, 1470], 3⟩),
  ("wb300", ⟨[5600000023841858], 16⟩),
  ("x", ⟨[7540000081062317], 16⟩),
  ("y0", ⟨[-410, 2770, -3730, 5600, -5730, 6180, -3660, 2780, -890, -210, 599, -1520, 2160, -2930, 3740, -4360, 4910,
    -5420, 5710, -6130, 6360, -6700, 6900, -7180, 7400, -7630, 7880, -8070, 8340, -8490, 8760, -8870, 9150, -9220,
    9500, -9550, 9870, -9880, 0, 0, 0, 0, 0, 0, 0, 0, 0, 0, 0], 4⟩),
  ("y1", ⟨[0, 110, -9, 7, 49, -100, 260, -346, 364, -422, 315, -341, 483, -503, 598, -610, 630, -633, 613, -611, 570,
    -564, 580, -570, 610, -600, 640, -620, 650, -640, 660, -640, 660, -640, 660, -640, 650, -630, 0, 0, 0, 0, 0, 0,
    0, 0, 0, 0, 0], 3⟩)]

/-- Group `R22`. -/
def oxygenR22 : List (String × Col) := [
  ("be", ⟨[10, 14, 83, 83, 207, 207, 387, 387, 621, 621, 910, 910, 1255, 1255, 1654, 1654, 2109, 2109, 2618, 2618, 3182,
    3182, 3800, 3800, 4474, 4474, 5201, 5201, 5983, 5983, 6819, 6819, 7709, 7709, 8653, 8653, 9651, 9651, 19, 48,
    45, 44, 49, 84, 145, 136, 141, 145, 201], 3⟩),
  ("dnu0", ⟨[-28, 596, -1950, 3200, -4750, 5410, -2320, 1550, 70, -860, -260, -130, -40, -200, 500, -700, 700, -800, 600,
    -700, 600, -600, 500, -490, 400, -410, 360, -370, 330, -340, 320, -320, 300, -300, 280, -290, 290, -290, 0, 0,
    0, 0, 0, 0, 0, 0, 0, 0, 0], 5⟩),
  ("dnu1", ⟨[-37, 860, -1300, 1900, -2600, 2700, 500, -1400, 1200, -1800, -1500, 1500, 300, -400, 1200, -1300, 1200, -1200,
    900, -900, 200, -200, 50, -50, 200, -200, 200, -200, 200, -200, 200, -200, 200, -200, 100, -100, 40, -40, 0, 0,
    0, 0, 0, 0, 0, 0, 0, 0, 0], 5⟩),
  ("f", ⟨[1187503, 562648, 624863, 584466, 603061, 595910, 591642, 604348, 583239, 611506, 576125, 618002, 569682,
    624112, 563634, 629980, 557838, 635685, 552214, 641278, 546712, 646789, 541300, 652241, 535958, 657648, 530669,
    663021, 525424, 668368, 520214, 673696, 515034, 679009, 509877, 684310, 504742, 689603, 2339461, 3684982,
    4017398, 4247630, 4872493, 5668956, 7153929, 7311866, 7738395, 8341455, 8950710], 4⟩),
  ("g0", ⟨[-695, -90000, -103000, -239000, -172000, -171000, 28000, 150000, 132000, 170000, 87000, 69000, 83000, 68000,
    7000, 16000, -21000, -66000, -95000, -116000, -118000, -140000, -173000, -186000, -217000, -227000, -234000,
    -242000, -266000, -272000, -301000, -304000, -334000, -333000, -362000, -358000, -348000, -344000, 0, 0, 0, 0,
    0, 0, 0, 0, 0, 0, 0], 6⟩),
  ("g1", ⟨[0, -42, 4, 25, 83, 167, 178, 223, 54, 3, 2, -44, -19, -54, -177, -208, -294, -334, -368, -386, -374, -384,
    -387, -389, -423, -422, -460, -460, -510, -500, -550, -530, -580, -560, -620, -590, -680, -650, 0, 0, 0, 0, 0,
    0, 0, 0, 0, 0, 0], 3⟩),
  ("s300", ⟨[2906000, 795700, 2444000, 2194000, 3301000, 3243000, 3664000, 3834000, 3588000, 3947000, 3179000, 3661000,
    2590000, 3111000, 1954000, 2443000, 1373000, 1784000, 901300, 1217000, 554500, 776600, 320100, 465100, 173800,
    261900, 88800, 138700, 42720, 69230, 19390, 32550, 8301, 14450, 3356, 6049, 1280, 2394, 8299, 649200, 13540,
    7082000, 3026000, 18230, 1835000, 22260, 11580000, 3992000, 25500], 21⟩),
  ("w300", ⟨[1685, 1703, 1513, 1495, 1433, 1408, 1353, 1353, 1303, 1319, 1262, 1265, 1238, 1217, 1207, 1207, 1137, 1137,
    1101, 1101, 1037, 1038, 996, 996, 955, 955, 906, 906, 858, 858, 811, 811, 764, 764, 717, 717, 669, 669, 1650,
    1640, 1640, 1640, 1600, 1600, 1600, 1600, 1620, 1470, 1470], 3⟩),
  ("wb300", ⟨[5600000023841858], 16⟩),
  ("x", ⟨[7540000081062317], 16⟩),
  ("y0", ⟨[-410, 2770, -3730, 5600, -5730, 6180, -3660, 2780, -890, -210, 599, -1520, 2160, -2930, 3740, -4360, 4910,
    -5420, 5710, -6130, 6360, -6700, 6900, -7180, 7400, -7630, 7880, -8070, 8340, -8490, 8760, -8870, 9150, -9220,
    9500, -9550, 9870, -9880, 0, 0, 0, 0, 0, 0, 0, 0, 0, 0, 0], 4⟩),
  ("y1", ⟨[0, 110, -9, 7, 49, -100, 260, -346, 364, -422, 315, -341, 483, -503, 598, -610, 630, -633, 613, -611, 570,
    -564, 580, -570, 610, -600, 640, -620, 650, -640, 660, -640, 660, -640, 660, -640, 650, -630, 0, 0, 0, 0, 0, 0,
    0, 0, 0, 0, 0], 3⟩)]

/-- Group `R23`. -/
def oxygenR23 : List (String × Col) := [
  ("be", ⟨[95, 145, 829, 833, 2072, 2073, 3865, 3864, 6209, 6207, 9103, 9100, 12548, 12543, 16542, 16536, 21084, 21078,
    26175, 26168, 31814, 31806, 37998, 37989, 44729, 44719, 52003, 51992, 59821, 59809, 68180, 68168, 77080, 77067,
    86520, 86506, 96496, 96481, 187, 485, 448, 440, 490, 838, 1452, 1359, 1405, 1453, 2010], 4⟩),
  ("dnu0", ⟨[-28, 597, -1950, 3200, -4750, 5410, -2320, 1540, 70, -840, -250, -140, -40, -200, 500, -660, 720, -800, 640,
    -700, 560, -600, 470, -490, 400, -400, 360, -370, 330, -340, 320, -320, 300, -300, 280, -290, 290, -290, 0, 0,
    0, 0, 0, 0, 0, 0, 0, 0, 0], 5⟩),
  ("dnu1", ⟨[-39, 900, -1200, 1600, -2700, 2900, 600, -1500, 1000, -1400, -1300, 1300, 400, -500, 1000, -1000, 1000, -1100,
    800, -900, 300, -300, 90, -90, 170, -160, 240, -230, 240, -240, 240, -200, 170, -160, 130, -120, 50, -40, 0, 0,
    0, 0, 0, 0, 0, 0, 0, 0, 0], 5⟩),
  ("f", ⟨[1187503, 562648, 624863, 584466, 603061, 595910, 591642, 604348, 583239, 611506, 576125, 618002, 569682,
    624112, 563634, 629980, 557838, 635685, 552214, 641278, 546712, 646789, 541300, 652241, 535958, 657648, 530669,
    663021, 525424, 668368, 520214, 673696, 515034, 679009, 509877, 684310, 504742, 689603, 2339461, 3684982,
    4017398, 4247630, 4872493, 5668956, 7153929, 7311867, 7738395, 8341456, 8950711], 4⟩),
  ("g0", ⟨[0, -90, -103, -239, -172, -171, 28, 150, 132, 170, 87, 69, 83, 67, 7, 16, -21, -66, -95, -115, -118, -140,
    -173, -186, -217, -227, -234, -242, -266, -272, -301, -304, -334, -333, -361, -358, -348, -344, 0, 0, 0, 0, 0,
    0, 0, 0, 0, 0, 0], 3⟩),
  ("g1", ⟨[0, -450, 70, 330, 810, 1620, 1790, 2250, 540, 30, 4, -470, -340, -710, -1800, -2100, -2850, -3230, -3630,
    -3800, -3780, -3870, -3920, -3940, -4240, -4220, -4650, -4600, -5100, -5000, -5500, -5400, -5800, -5600, -6200,
    -5900, -6800, -6500, 0, 0, 0, 0, 0, 0, 0, 0, 0, 0, 0], 4⟩),
  ("s300", ⟨[2925000, 801100, 2460000, 2208000, 3323000, 3265000, 3690000, 3859000, 3610000, 3974000, 3200000, 3686000,
    2607000, 3131000, 1967000, 2459000, 1382000, 1796000, 907400, 1225000, 558100, 781800, 322200, 468400, 174900,
    263600, 89370, 139700, 43010, 69680, 19520, 32770, 8354, 14540, 3377, 6091, 1289, 2409, 8298, 650600, 13470,
    7097000, 3032000, 18150, 1839000, 22150, 11600000, 3999000, 25370], 21⟩),
  ("w300", ⟨[1708, 1703, 1513, 1495, 1433, 1408, 1353, 1353, 1303, 1319, 1262, 1265, 1238, 1217, 1207, 1207, 1137, 1137,
    1101, 1101, 1037, 1038, 996, 996, 955, 955, 906, 906, 858, 858, 811, 811, 764, 764, 717, 717, 669, 669, 1650,
    1640, 1640, 1640, 1600, 1600, 1600, 1600, 1620, 1470, 1470], 3⟩),
  ("wb300", ⟨[5600000023841858], 16⟩),
  ("x", ⟨[7540000081062317], 16⟩),
  ("y1", ⟨[0, 124, -2, 8, 45, -93, 264, -351, 359, -416, 326, -353, 484, -503, 579, -590, 616, -619, 611, -609, 574, -568,
    574, -566, 600, -590, 630, -620, 640, -630, 650, -640, 650, -640, 650, -640, 640, -620, 0, 0, 0, 0, 0, 0, 0, 0,
    0, 0, 0], 3⟩),
  ("y300", ⟨[-41, 277, -372, 559, -573, 618, -366, 278, -89, -21, 60, -152, 216, -293, 373, -436, 491, -542, 571, -613, 636,
    -670, 690, -718, 740, -763, 788, -807, 834, -849, 876, -887, 915, -922, 950, -955, 987, -988, 0, 0, 0, 0, 0, 0,
    0, 0, 0, 0, 0], 3⟩)]

/-- Group `R24`. -/
def oxygenR24 : List (String × Col) := [
  ("be", ⟨[95, 145, 829, 833, 2072, 2073, 3865, 3864, 6209, 6207, 9103, 9100, 12548, 12543, 16542, 16536, 21084, 21078,
    26175, 26168, 31814, 31806, 37998, 37989, 44729, 44719, 52003, 51992, 59821, 59809, 68180, 68168, 77080, 77067,
    86520, 86506, 96496, 96481, 187, 485, 448, 440, 490, 838, 1452, 1359, 1405, 1453, 2010], 4⟩),
  ("dnu0", ⟨[-28, 597, -1950, 3200, -4750, 5410, -2320, 1540, 70, -840, -250, -140, -40, -200, 500, -660, 720, -800, 640,
    -700, 560, -600, 470, -490, 400, -400, 360, -370, 330, -340, 320, -320, 300, -300, 280, -290, 290, -290, 0, 0,
    0, 0, 0, 0, 0, 0, 0, 0, 0], 5⟩),
  ("dnu1", ⟨[-39, 900, -1200, 1600, -2700, 2900, 600, -1500, 1000, -1400, -1300, 1300, 400, -500, 1000, -1000, 1000, -1100,
    800, -900, 300, -300, 90, -90, 170, -160, 240, -230, 240, -240, 240, -200, 170, -160, 130, -120, 50, -40, 0, 0,
    0, 0, 0, 0, 0, 0, 0, 0, 0], 5⟩),
  ("f", ⟨[1187503, 562648, 624863, 584466, 603061, 595910, 591642, 604348, 583239, 611506, 576125, 618002, 569682,
    624112, 563634, 629980, 557838, 635685, 552214, 641278, 546712, 646789, 541300, 652241, 535958, 657648, 530669,
    663021, 525424, 668368, 520214, 673696, 515034, 679009, 509877, 684310, 504742, 689603, 2339461, 3684982,
    4017398, 4247630, 4872493, 5668956, 7153929, 7311867, 7738395, 8341456, 8950711], 4⟩),
  ("g0", ⟨[0, -90, -103, -239, -172, -171, 28, 150, 132, 170, 87, 69, 83, 67, 7, 16, -21, -66, -95, -115, -118, -140,
    -173, -186, -217, -227, -234, -242, -266, -272, -301, -304, -334, -333, -361, -358, -348, -344, 0, 0, 0, 0, 0,
    0, 0, 0, 0, 0, 0], 3⟩),
  ("g1", ⟨[0, -450, 70, 330, 810, 1620, 1790, 2250, 540, 30, 4, -470, -340, -710, -1800, -2100, -2850, -3230, -3630,
    -3800, -3780, -3870, -3920, -3940, -4240, -4220, -4650, -4600, -5100, -5000, -5500, -5400, -5800, -5600, -6200,
    -5900, -6800, -6500, 0, 0, 0, 0, 0, 0, 0, 0, 0, 0, 0], 4⟩),
  ("s300", ⟨[2925000, 801100, 2460000, 2208000, 3323000, 3265000, 3690000, 3859000, 3610000, 3974000, 3200000, 3686000,
    2607000, 3131000, 1967000, 2459000, 1382000, 1796000, 907400, 1225000, 558100, 781800, 322200, 468400, 174900,
    263600, 89370, 139700, 43010, 69680, 19520, 32770, 8354, 14540, 3377, 6091, 1289, 2409, 8298, 650600, 13470,
    7097000, 3032000, 18150, 1839000, 22150, 11600000, 3999000, 25370], 21⟩),
  ("w300", ⟨[1711, 1703, 1513, 1495, 1433, 1408, 1353, 1353, 1303, 1319, 1262, 1265, 1238, 1217, 1207, 1207, 1137, 1137,
    1101, 1101, 1037, 1038, 996, 996, 955, 955, 906, 906, 858, 858, 811, 811, 764, 764, 717, 717, 669, 669, 1650,
    1640, 1640, 1640, 1600, 1600, 1600, 1600, 1620, 1470, 1470], 3⟩),
  ("wb300", ⟨[5600000023841858], 16⟩),
  ("x", ⟨[7540000081062317], 16⟩),
  ("y1", ⟨[0, 124, -2, 8, 45, -93, 264, -351, 359, -416, 326, -353, 484, -503, 579, -590, 616, -619, 611, -609, 574, -568,
    574, -566, 600, -590, 630, -620, 640, -630, 650, -640, 650, -640, 650, -640, 640, -620, 0, 0, 0, 0, 0, 0, 0, 0,
    0, 0, 0], 3⟩),
  ("y300", ⟨[-41, 277, -372, 559, -573, 618, -366, 278, -89, -21, 60, -152, 216, -293, 373, -436, 491, -542, 571, -613, 636,
    -670, 690, -718, 740, -763, 788, -807, 834, -849, 876, -887, 915, -922, 950, -955, 987, -988, 0, 0, 0, 0, 0, 0,
    0, 0, 0, 0, 0], 3⟩)]

/-- The groups of the file, in its order. -/
def oxygenGroups : List (String × List (String × Col)) := [
  ("R98", oxygenR98),
  ("R03", oxygenR03),
  ("R16", oxygenR16),
  ("R17", oxygenR17),
  ("R18", oxygenR18),
  ("R19", oxygenR19),
  ("R19SD", oxygenR19SD),
  ("R20", oxygenR20),
  ("R20SD", oxygenR20SD),
  ("R22", oxygenR22),
  ("R23", oxygenR23),
  ("R24", oxygenR24)]

end Verif.Model
