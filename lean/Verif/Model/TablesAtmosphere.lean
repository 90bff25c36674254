import Verif.Model.TableBase

/-!
# The atmospheres shipped with the package

`pyrtlib/climatology/*.dat`, 50 levels each; every stored number as the shortest decimal that denotes the float
`np.loadtxt` returns.
-/

namespace Verif.Model

/-- `tropical.dat`, by columns. -/
def atmTropical : List Col := [
  ⟨[0, 10, 20, 30, 40, 50, 60, 70, 80, 90, 100, 110, 120, 130, 140, 150, 160, 170, 180, 190, 200, 210, 220, 230,
    240, 250, 275, 300, 325, 350, 375, 400, 425, 450, 475, 500, 550, 600, 650, 700, 750, 800, 850, 900, 950, 1000,
    1050, 1100, 1150, 1200], 1⟩,
  ⟨[10130000000, 9040000000, 8050000000, 7150000000, 6330000000, 5590000000, 4920000000, 4320000000, 3780000000,
    3290000000, 2860000000, 2470000000, 2130000000, 1820000000, 1560000000, 1320000000, 1110000000, 937000000,
    789000000, 666000000, 565000000, 480000000, 409000000, 350000000, 300000000, 257000000, 176300000, 122000000,
    85200000, 60000000, 42600000, 30500000, 22000000, 15900000, 11600000, 8540000, 4560000, 2390000, 1210000,
    580000, 260000, 110000, 44000, 17200, 6880, 2890, 1300, 647, 360, 225], 7⟩,
  ⟨[24500000000000000000, 22310000000000000000, 20280000000000000000, 18270000000000000000, 16560000000000000000,
    14990000000000000000, 13530000000000000000, 12180000000000000000, 10950000000000000000, 9789000000000000000,
    8747000000000000000, 7780000000000000000, 6904000000000000000, 6079000000000000000, 5377000000000000000,
    4697000000000000000, 4084000000000000000, 3486000000000000000, 2877000000000000000, 2381000000000000000,
    1981000000000000000, 1651000000000000000, 1381000000000000000, 1169000000000000000, 992000000000000000,
    841300000000000000, 562900000000000000, 380700000000000000, 259800000000000000, 178900000000000000,
    124300000000000000, 87030000000000000, 61470000000000000, 43520000000000000, 31190000000000000,
    22910000000000000, 12550000000000000, 6844000000000000, 3716000000000000, 1920000000000000, 933800000000000,
    431400000000000, 180100000000000, 70430000000000, 27060000000000, 10980000000000, 4445000000000, 1941000000000,
    870600000000, 422500000000], 0⟩,
  ⟨[2997, 2937, 2877, 2837, 2770, 2703, 2636, 2570, 2503, 2436, 2370, 2301, 2236, 2170, 2103, 2037, 1970, 1948,
    1988, 2027, 2067, 2107, 2146, 2170, 2192, 2214, 2270, 2323, 2377, 2431, 2485, 2540, 2594, 2648, 2696, 2702,
    2634, 2531, 2360, 2189, 2018, 1848, 1771, 1770, 1843, 1907, 2120, 2416, 2997, 3800], 1⟩,
  ⟨[2593000, 1949000, 1534000, 860000, 444100, 334600, 210100, 128900, 76370, 40980, 19120, 7306, 2905, 990, 622,
    400, 300, 290, 275, 260, 260, 265, 280, 290, 320, 325, 360, 400, 430, 460, 490, 520, 550, 570, 590, 600, 600,
    600, 540, 450, 330, 210, 130, 85, 54, 40, 34, 28, 24, 20], 2⟩,
  ⟨[330, 330, 330, 330, 330, 330, 330, 330, 330, 330, 330, 330, 330, 330, 330, 330, 330, 330, 330, 330, 330, 330,
    330, 330, 330, 330, 330, 330, 330, 330, 330, 330, 330, 330, 330, 330, 330, 330, 330, 330, 330, 328, 320, 310,
    270, 195, 110, 60, 40, 35], 0⟩,
  ⟨[2869, 3150, 3342, 3504, 3561, 3767, 3989, 4223, 4471, 5000, 5595, 6613, 7815, 9289, 10500, 12560, 14440, 25000,
    50000, 95000, 140000, 180000, 240000, 340000, 430000, 540000, 780000, 930000, 985000, 970000, 880000, 750000,
    590000, 450000, 345000, 280000, 180000, 110000, 65000, 30000, 18000, 33000, 50000, 52000, 50000, 40000, 20000,
    5000, 500, 50], 5⟩,
  ⟨[3200000, 3200000, 3200000, 3200000, 3200000, 3200000, 3200000, 3200000, 3200000, 3195000, 3179000, 3140000,
    3095000, 3048000, 2999000, 2944000, 2877000, 2783000, 2671000, 2527000, 2365000, 2194000, 2051000, 1967000,
    1875000, 1756000, 1588000, 1416000, 1165000, 927500, 669300, 451300, 275100, 159100, 93780, 47520, 30000,
    20650, 15070, 11490, 8890, 7056, 5716, 4708, 3932, 3323, 2837, 2443, 2120, 1851], 7⟩,
  ⟨[15000, 14500, 13990, 13490, 13120, 13030, 12880, 12470, 11850, 10940, 9962, 8964, 7814, 6374, 5025, 3941, 3069,
    2489, 1966, 1549, 1331, 1232, 1232, 1307, 1400, 1521, 1722, 1995, 2266, 2487, 2738, 3098, 3510, 3987, 4482,
    5092, 5985, 6960, 9188, 19380, 56880, 154900, 384900, 659000, 1044000, 1705000, 2471000, 3358000, 4148000,
    5000000], 5⟩,
  ⟨[17000, 17000, 17000, 17000, 17000, 17000, 17000, 16990, 16970, 16930, 16850, 16750, 16620, 16450, 16260, 16050,
    15820, 15530, 15210, 14800, 14240, 13550, 12720, 11910, 11180, 10550, 9870, 9136, 8300, 7460, 6618, 5638, 4614,
    3631, 2773, 2100, 1651, 1500, 1500, 1500, 1500, 1500, 1500, 1400, 1300, 1200, 1100, 950, 600, 300], 4⟩,
  ⟨[209000, 209000, 209000, 209000, 209000, 209000, 209000, 209000, 209000, 209000, 209000, 209000, 209000, 209000,
    209000, 209000, 209000, 209000, 209000, 209000, 209000, 209000, 209000, 209000, 209000, 209000, 209000, 209000,
    209000, 209000, 209000, 209000, 209000, 209000, 209000, 209000, 209000, 209000, 209000, 209000, 209000, 209000,
    200000, 190000, 180000, 160000, 140000, 120000, 94000, 72500], 0⟩]

/-- `midlatitude_summer.dat`, by columns. -/
def atmMidSummer : List Col := [
  ⟨[0, 10, 20, 30, 40, 50, 60, 70, 80, 90, 100, 110, 120, 130, 140, 150, 160, 170, 180, 190, 200, 210, 220, 230,
    240, 250, 275, 300, 325, 350, 375, 400, 425, 450, 475, 500, 550, 600, 650, 700, 750, 800, 850, 900, 950, 1000,
    1050, 1100, 1150, 1200], 1⟩,
  ⟨[10130000000, 9020000000, 8020000000, 7100000000, 6280000000, 5540000000, 4870000000, 4260000000, 3720000000,
    3240000000, 2810000000, 2430000000, 2090000000, 1790000000, 1530000000, 1300000000, 1110000000, 950000000,
    812000000, 695000000, 595000000, 510000000, 437000000, 376000000, 322000000, 277000000, 190700000, 132000000,
    93000000, 65200000, 46400000, 33300000, 24100000, 17600000, 12900000, 9510000, 5150000, 2720000, 1390000,
    670000, 300000, 120000, 44800, 16400, 6250, 2580, 1170, 611, 356, 227], 7⟩,
  ⟨[24960000000000000000, 22570000000000000000, 20380000000000000000, 18430000000000000000, 16660000000000000000,
    15030000000000000000, 13510000000000000000, 12120000000000000000, 10860000000000000000, 9716000000000000000,
    8656000000000000000, 7698000000000000000, 6814000000000000000, 6012000000000000000, 5141000000000000000,
    4368000000000000000, 3730000000000000000, 3192000000000000000, 2715000000000000000, 2312000000000000000,
    1967000000000000000, 1677000000000000000, 1429000000000000000, 1223000000000000000, 1042000000000000000,
    891900000000000000, 605000000000000000, 409400000000000000, 282000000000000000, 192700000000000000,
    133800000000000000, 93730000000000000, 66240000000000000, 47260000000000000, 33980000000000000,
    25000000000000000, 13860000000000000, 7668000000000000, 4196000000000000, 2227000000000000, 1109000000000000,
    499600000000000, 196700000000000, 72040000000000, 25410000000000, 9816000000000, 3816000000000, 1688000000000,
    814500000000, 433000000000], 0⟩,
  ⟨[29420, 28970, 28520, 27920, 27320, 26720, 26120, 25470, 24820, 24170, 23530, 22880, 22230, 21580, 21570, 21570,
    21570, 21570, 21680, 21790, 21920, 22040, 22160, 22280, 22390, 22510, 22845, 23370, 23900, 24520, 25130, 25750,
    26370, 26990, 27520, 27570, 26930, 25710, 24010, 21810, 19610, 17410, 16510, 16500, 17830, 19050, 22220, 26240,
    31680, 38000], 2⟩,
  ⟨[1876000, 1378000, 968000, 598400, 381300, 222500, 151000, 102000, 64640, 41290, 24720, 9556, 2944, 800, 500,
    340, 330, 320, 315, 320, 330, 345, 360, 385, 400, 420, 445, 470, 485, 495, 500, 510, 530, 545, 550, 550, 535,
    500, 440, 370, 295, 210, 133, 85, 54, 40, 34, 28, 24, 20], 2⟩,
  ⟨[330, 330, 330, 330, 330, 330, 330, 330, 330, 330, 330, 330, 330, 330, 330, 330, 330, 330, 330, 330, 330, 330,
    330, 330, 330, 330, 330, 330, 330, 330, 330, 330, 330, 330, 330, 330, 330, 330, 330, 330, 330, 328, 320, 310,
    270, 195, 110, 60, 40, 35], 0⟩,
  ⟨[3017, 3337, 3694, 4222, 4821, 5512, 6408, 7764, 9126, 11110, 13040, 17930, 22300, 30000, 44000, 50000, 60000,
    70000, 100000, 150000, 200000, 240000, 290000, 340000, 400000, 480000, 600000, 700000, 810000, 890000, 870000,
    755000, 590000, 450000, 350000, 280000, 180000, 130000, 80000, 40000, 19000, 20000, 57000, 75000, 70000, 40000,
    20000, 5000, 500, 50], 5⟩,
  ⟨[3200000, 3200000, 3200000, 3200000, 3200000, 3200000, 3200000, 3200000, 3195000, 3163000, 3096000, 2989000,
    2936000, 2860000, 2800000, 2724000, 2611000, 2421000, 2174000, 1843000, 1607000, 1323000, 1146000, 1035000,
    962200, 895800, 800600, 669800, 495800, 369500, 251900, 173600, 115800, 76650, 53210, 32150, 20300, 13970,
    10200, 7772, 6257, 5166, 4352, 3727, 3237, 2844, 2524, 2260, 2039, 1851], 7⟩,
  ⟨[15000, 14500, 13990, 13490, 13120, 13030, 12880, 12470, 11850, 10940, 9962, 8964, 7814, 6374, 5025, 3941, 3069,
    2489, 1966, 1549, 1331, 1232, 1232, 1307, 1400, 1521, 1722, 1995, 2266, 2487, 2716, 2962, 3138, 3307, 3487,
    3645, 3923, 4673, 6404, 11770, 29350, 68150, 146500, 284900, 516600, 1008000, 1865000, 2863000, 3890000, 5000000], 5⟩,
  ⟨[17000, 17000, 17000, 17000, 16970, 16870, 16720, 16490, 16290, 16150, 15790, 15420, 15080, 14790, 14510, 14220,
    13900, 13560, 13230, 12810, 12240, 11540, 10660, 9730, 8800, 7888, 7046, 6315, 5592, 5008, 4453, 3916, 3389,
    2873, 2384, 1944, 1574, 1500, 1500, 1500, 1500, 1500, 1500, 1400, 1300, 1200, 1100, 950, 600, 300], 4⟩,
  ⟨[209000, 209000, 209000, 209000, 209000, 209000, 209000, 209000, 209000, 209000, 209000, 209000, 209000, 209000,
    209000, 209000, 209000, 209000, 209000, 209000, 209000, 209000, 209000, 209000, 209000, 209000, 209000, 209000,
    209000, 209000, 209000, 209000, 209000, 209000, 209000, 209000, 209000, 209000, 209000, 209000, 209000, 209000,
    200000, 190000, 180000, 160000, 140000, 120000, 94000, 72500], 0⟩]

/-- `midlatitude_winter.dat`, by columns. -/
def atmMidWinter : List Col := [
  ⟨[0, 10, 20, 30, 40, 50, 60, 70, 80, 90, 100, 110, 120, 130, 140, 150, 160, 170, 180, 190, 200, 210, 220, 230,
    240, 250, 275, 300, 325, 350, 375, 400, 425, 450, 475, 500, 550, 600, 650, 700, 750, 800, 850, 900, 950, 1000,
    1050, 1100, 1150, 1200], 1⟩,
  ⟨[10180000000, 8973000000, 7897000000, 6938000000, 6081000000, 5313000000, 4627000000, 4016000000, 3473000000,
    2993000000, 2568000000, 2199000000, 1882000000, 1611000000, 1378000000, 1178000000, 1007000000, 861000000,
    736000000, 628000000, 537000000, 458000000, 391000000, 334000000, 286000000, 244000000, 164600000, 111000000,
    75600000, 51800000, 36000000, 25300000, 18000000, 12900000, 9400000, 6830000, 3620000, 1880000, 950000, 470000,
    222000, 103000, 45600, 19800, 8770, 4074, 2000, 1057, 598, 360], 7⟩,
  ⟨[27110000000000000000, 24200000000000000000, 21580000000000000000, 19220000000000000000, 17240000000000000000,
    15420000000000000000, 13760000000000000000, 12250000000000000000, 10860000000000000000, 9612000000000000000,
    8472000000000000000, 7271000000000000000, 6237000000000000000, 5351000000000000000, 4588000000000000000,
    3931000000000000000, 3368000000000000000, 2886000000000000000, 2473000000000000000, 2115000000000000000,
    1809000000000000000, 1543000000000000000, 1317000000000000000, 1125000000000000000, 963300000000000000,
    821800000000000000, 553600000000000000, 370100000000000000, 248600000000000000, 164700000000000000,
    110800000000000000, 75400000000000000, 52020000000000000, 36170000000000000, 25700000000000000,
    18630000000000000, 10070000000000000, 5433000000000000, 2858000000000000, 1477000000000000, 730100000000000,
    355300000000000, 165400000000000, 71940000000000, 30520000000000, 13510000000000, 6114000000000, 2952000000000,
    1479000000000, 783600000000], 0⟩,
  ⟨[2722, 2687, 2652, 2617, 2557, 2497, 2437, 2377, 2317, 2257, 2197, 2192, 2187, 2182, 2177, 2172, 2167, 2162,
    2157, 2152, 2152, 2152, 2152, 2152, 2152, 2152, 2155, 2174, 2204, 2279, 2355, 2432, 2508, 2585, 2651, 2657,
    2606, 2508, 2409, 2307, 2204, 2101, 1998, 1995, 2083, 2186, 2371, 2595, 2930, 3330], 1⟩,
  ⟨[431600, 345400, 278800, 208800, 128000, 82410, 51030, 23210, 10770, 5566, 2960, 1000, 600, 500, 480, 470, 460,
    450, 450, 450, 450, 450, 453, 455, 460, 465, 470, 475, 480, 485, 490, 495, 500, 500, 500, 495, 485, 450, 400,
    330, 270, 200, 133, 85, 54, 40, 34, 28, 24, 20], 2⟩,
  ⟨[330, 330, 330, 330, 330, 330, 330, 330, 330, 330, 330, 330, 330, 330, 330, 330, 330, 330, 330, 330, 330, 330,
    330, 330, 330, 330, 330, 330, 330, 330, 330, 330, 330, 330, 330, 330, 330, 330, 330, 330, 330, 328, 320, 310,
    270, 195, 110, 60, 40, 35], 0⟩,
  ⟨[2778, 2800, 2849, 3200, 3567, 4720, 5837, 7891, 10390, 15670, 23700, 36240, 52320, 70360, 80000, 90000, 110000,
    140000, 180000, 230000, 290000, 350000, 390000, 430000, 470000, 510000, 560000, 610000, 680000, 710000, 720000,
    690000, 590000, 460000, 370000, 275000, 170000, 100000, 55000, 32000, 25000, 23000, 55000, 80000, 80000, 40000,
    20000, 5000, 500, 50], 5⟩,
  ⟨[3200000, 3200000, 3200000, 3200000, 3200000, 3200000, 3200000, 3200000, 3195000, 3163000, 3096000, 2989000,
    2936000, 2860000, 2800000, 2724000, 2611000, 2421000, 2174000, 1843000, 1621000, 1362000, 1230000, 1124000,
    1048000, 966100, 869300, 752400, 612600, 511600, 396800, 299500, 208000, 131100, 80710, 41640, 26290, 18090,
    13210, 10070, 7883, 6333, 5194, 4333, 3666, 3140, 2717, 2373, 2089, 1851], 7⟩,
  ⟨[15000, 14500, 13990, 13490, 13120, 13030, 12880, 12470, 11850, 10940, 9962, 8964, 7814, 6374, 5025, 3941, 3069,
    2489, 1966, 1549, 1331, 1232, 1232, 1307, 1400, 1498, 1598, 1710, 1850, 1997, 2147, 2331, 2622, 3057, 3803,
    6245, 14800, 29260, 55860, 107800, 189700, 296000, 452600, 686200, 1054000, 1709000, 2473000, 3359000, 4149000,
    5000000], 5⟩,
  ⟨[17000, 17000, 17000, 17000, 16970, 16870, 16720, 16490, 16290, 16150, 15790, 15420, 15080, 14790, 14510, 14220,
    13900, 13560, 13230, 12810, 12240, 11540, 10660, 9730, 8800, 7931, 7130, 6438, 5746, 5050, 4481, 3931, 3395,
    2876, 2386, 1944, 1574, 1500, 1500, 1500, 1500, 1500, 1500, 1400, 1300, 1200, 1100, 950, 600, 300], 4⟩,
  ⟨[209000, 209000, 209000, 209000, 209000, 209000, 209000, 209000, 209000, 209000, 209000, 209000, 209000, 209000,
    209000, 209000, 209000, 209000, 209000, 209000, 209000, 209000, 209000, 209000, 209000, 209000, 209000, 209000,
    209000, 209000, 209000, 209000, 209000, 209000, 209000, 209000, 209000, 209000, 209000, 209000, 209000, 209000,
    200000, 190000, 180000, 160000, 140000, 120000, 94000, 72500], 0⟩]

/-- `subarctic_summer.dat`, by columns. -/
def atmSubSummer : List Col := [
  ⟨[0, 10, 20, 30, 40, 50, 60, 70, 80, 90, 100, 110, 120, 130, 140, 150, 160, 170, 180, 190, 200, 210, 220, 230,
    240, 250, 275, 300, 325, 350, 375, 400, 425, 450, 475, 500, 550, 600, 650, 700, 750, 800, 850, 900, 950, 1000,
    1050, 1100, 1150, 1200], 1⟩,
  ⟨[10100000000, 8960000000, 7929000000, 7000000000, 6160000000, 5410000000, 4740000000, 4130000000, 3590000000,
    3108000000, 2677000000, 2300000000, 1977000000, 1700000000, 1460000000, 1260000000, 1080000000, 928000000,
    798000000, 686000000, 590000000, 507000000, 436000000, 375000000, 322800000, 278000000, 192300000, 134000000,
    94000000, 66100000, 47200000, 34000000, 24800000, 18200000, 13400000, 9870000, 5370000, 2880000, 1470000,
    710000, 320000, 125000, 45100, 16100, 6060, 2480, 1130, 600, 354, 226], 7⟩,
  ⟨[25490000000000000000, 23050000000000000000, 20800000000000000000, 18730000000000000000, 16820000000000000000,
    15080000000000000000, 13570000000000000000, 12160000000000000000, 10880000000000000000, 9701000000000000000,
    8616000000000000000, 7402000000000000000, 6363000000000000000, 5471000000000000000, 4699000000000000000,
    4055000000000000000, 3476000000000000000, 2987000000000000000, 2568000000000000000, 2208000000000000000,
    1899000000000000000, 1632000000000000000, 1403000000000000000, 1207000000000000000, 1033000000000000000,
    883400000000000000, 603400000000000000, 413100000000000000, 283900000000000000, 193800000000000000,
    134400000000000000, 94020000000000000, 66700000000000000, 48210000000000000, 35160000000000000,
    25810000000000000, 14210000000000000, 7946000000000000, 4445000000000000, 2376000000000000, 1198000000000000,
    531100000000000, 202200000000000, 72210000000000, 24840000000000, 9441000000000, 3624000000000, 1610000000000,
    795100000000, 431100000000], 0⟩,
  ⟨[2872, 2817, 2763, 2709, 2655, 2601, 2531, 2461, 2392, 2322, 2252, 2252, 2252, 2252, 2252, 2252, 2252, 2252,
    2252, 2252, 2252, 2252, 2252, 2252, 2266, 2281, 2310, 2351, 2400, 2472, 2546, 2621, 2695, 2736, 2762, 2772,
    2740, 2627, 2397, 2166, 1936, 1706, 1617, 1616, 1768, 1904, 2260, 2701, 3227, 3800], 1⟩,
  ⟨[1194000, 870100, 675000, 482000, 338000, 221800, 133000, 79710, 39960, 13000, 4240, 1330, 600, 445, 400, 400,
    400, 405, 430, 450, 460, 470, 480, 483, 485, 490, 495, 500, 500, 500, 500, 500, 500, 500, 500, 495, 485, 450,
    400, 330, 270, 200, 133, 85, 54, 40, 34, 28, 24, 20], 2⟩,
  ⟨[330, 330, 330, 330, 330, 330, 330, 330, 330, 330, 330, 330, 330, 330, 330, 330, 330, 330, 330, 330, 330, 330,
    330, 330, 330, 330, 330, 330, 330, 330, 330, 330, 330, 330, 330, 330, 330, 330, 330, 330, 330, 328, 320, 310,
    270, 195, 110, 60, 40, 35], 0⟩,
  ⟨[2412, 2940, 3379, 3887, 4478, 5328, 6564, 7738, 9114, 14200, 18900, 30500, 41000, 50000, 60000, 70000, 85000,
    100000, 130000, 170000, 210000, 270000, 330000, 370000, 420000, 450000, 530000, 570000, 690000, 770000, 780000,
    700000, 540000, 420000, 320000, 250000, 170000, 120000, 80000, 40000, 20000, 18000, 65000, 90000, 80000, 40000,
    20000, 5000, 500, 50], 5⟩,
  ⟨[3100000, 3100000, 3100000, 3100000, 3079000, 3024000, 2906000, 2822000, 2759000, 2703000, 2651000, 2600000,
    2549000, 2494000, 2433000, 2355000, 2282000, 2179000, 2035000, 1817000, 1567000, 1350000, 1218000, 1102000,
    989300, 877500, 732700, 594100, 415400, 303200, 194900, 127400, 90010, 62860, 45580, 27950, 17650, 12140, 8866,
    6756, 5538, 4649, 3979, 3459, 3047, 2713, 2439, 2210, 2017, 1851], 7⟩,
  ⟨[15000, 14500, 13990, 13490, 13120, 13030, 12880, 12470, 11850, 10940, 9962, 8964, 7814, 6374, 5025, 3941, 3069,
    2489, 1966, 1549, 1331, 1232, 1232, 1307, 1400, 1510, 1649, 1808, 1997, 2183, 2343, 2496, 2647, 2809, 2999,
    3220, 3650, 4589, 6375, 11760, 30330, 78940, 182300, 340200, 591600, 1043000, 1881000, 2869000, 3892000, 5000000], 5⟩,
  ⟨[17000, 17000, 17000, 17000, 16970, 16870, 16720, 16490, 16290, 16150, 15790, 15420, 15060, 14710, 14340, 13890,
    13420, 12900, 12300, 11570, 10720, 9903, 9170, 8574, 8013, 7477, 6956, 6442, 5888, 5240, 4506, 3708, 2992,
    2445, 2000, 1660, 1500, 1500, 1500, 1500, 1500, 1500, 1500, 1400, 1300, 1200, 1100, 950, 600, 300], 4⟩,
  ⟨[209000, 209000, 209000, 209000, 209000, 209000, 209000, 209000, 209000, 209000, 209000, 209000, 209000, 209000,
    209000, 209000, 209000, 209000, 209000, 209000, 209000, 209000, 209000, 209000, 209000, 209000, 209000, 209000,
    209000, 209000, 209000, 209000, 209000, 209000, 209000, 209000, 209000, 209000, 209000, 209000, 209000, 209000,
    200000, 190000, 180000, 160000, 140000, 120000, 94000, 72500], 0⟩]

/-- `subarctic_winter.dat`, by columns. -/
def atmSubWinter : List Col := [
  ⟨[0, 10, 20, 30, 40, 50, 60, 70, 80, 90, 100, 110, 120, 130, 140, 150, 160, 170, 180, 190, 200, 210, 220, 230,
    240, 250, 275, 300, 325, 350, 375, 400, 425, 450, 475, 500, 550, 600, 650, 700, 750, 800, 850, 900, 950, 1000,
    1050, 1100, 1150, 1200], 1⟩,
  ⟨[10130000000, 8878000000, 7775000000, 6798000000, 5932000000, 5158000000, 4467000000, 3853000000, 3308000000,
    2829000000, 2418000000, 2067000000, 1766000000, 1510000000, 1291000000, 1103000000, 943100000, 805800000,
    688200000, 587500000, 501400000, 427700000, 364700000, 310900000, 264900000, 225600000, 151300000, 102000000,
    69100000, 47010000, 32300000, 22430000, 15700000, 11130000, 7900000, 5719000, 2990000, 1550000, 790000, 400000,
    200000, 96600, 45000, 20220, 9070, 4230, 2070, 1080, 600, 359], 7⟩,
  ⟨[28550000000000000000, 24840000000000000000, 22020000000000000000, 19500000000000000000, 17360000000000000000,
    15520000000000000000, 13830000000000000000, 12290000000000000000, 10870000000000000000, 9440000000000000000,
    8069000000000000000, 6898000000000000000, 5893000000000000000, 5039000000000000000, 4308000000000000000,
    3681000000000000000, 3156000000000000000, 2704000000000000000, 2316000000000000000, 1982000000000000000,
    1697000000000000000, 1451000000000000000, 1241000000000000000, 1061000000000000000, 906500000000000000,
    774200000000000000, 513400000000000000, 342300000000000000, 229200000000000000, 153300000000000000,
    102500000000000000, 69270000000000000, 47260000000000000, 32660000000000000, 22610000000000000,
    15990000000000000, 8364000000000000, 4478000000000000, 2305000000000000, 1181000000000000, 617600000000000,
    312700000000000, 153100000000000, 72440000000000, 31160000000000, 14030000000000, 6412000000000, 3099000000000,
    1507000000000, 781400000000], 0⟩,
  ⟨[2572, 2591, 2559, 2527, 2477, 2409, 2341, 2273, 2206, 2172, 2172, 2172, 2172, 2172, 2172, 2172, 2166, 2160,
    2154, 2148, 2142, 2136, 2130, 2124, 2118, 2112, 2136, 2160, 2185, 2223, 2285, 2347, 2408, 2470, 2532, 2593,
    2591, 2509, 2484, 2454, 2347, 2239, 2131, 2023, 2110, 2185, 2340, 2526, 2885, 3330], 1⟩,
  ⟨[140500, 161500, 142700, 116600, 78980, 43090, 23690, 14700, 3384, 2976, 2000, 1000, 600, 445, 450, 455, 460,
    465, 470, 475, 480, 485, 490, 495, 500, 500, 500, 500, 500, 500, 500, 500, 500, 500, 500, 495, 485, 450, 400,
    330, 270, 200, 133, 85, 54, 40, 34, 28, 24, 20], 2⟩,
  ⟨[330, 330, 330, 330, 330, 330, 330, 330, 330, 330, 330, 330, 330, 330, 330, 330, 330, 330, 330, 330, 330, 330,
    330, 330, 330, 330, 330, 330, 330, 330, 330, 330, 330, 330, 330, 330, 330, 330, 330, 330, 330, 328, 320, 310,
    270, 195, 110, 60, 40, 35], 0⟩,
  ⟨[1802, 2072, 2336, 2767, 3253, 3801, 4446, 7252, 10400, 21000, 30000, 35000, 40000, 65000, 90000, 120000,
    150000, 190000, 245000, 310000, 370000, 400000, 420000, 450000, 460000, 470000, 490000, 540000, 590000, 620000,
    625000, 590000, 510000, 410000, 300000, 260000, 160000, 95000, 65000, 50000, 33000, 13000, 75000, 80000, 80000,
    40000, 20000, 5000, 500, 50], 5⟩,
  ⟨[3200000, 3200000, 3200000, 3200000, 3200000, 3200000, 3200000, 3200000, 3195000, 3163000, 3096000, 2989000,
    2936000, 2860000, 2800000, 2724000, 2611000, 2421000, 2174000, 1843000, 1621000, 1362000, 1230000, 1122000,
    1043000, 957000, 859800, 731400, 571000, 467000, 343900, 247100, 163100, 106600, 70640, 39720, 25080, 17260,
    12600, 9602, 7554, 6097, 5024, 4210, 3579, 3080, 2678, 2350, 2079, 1851], 7⟩,
  ⟨[15000, 14500, 13990, 13490, 13120, 13030, 12880, 12470, 11850, 10940, 9962, 8964, 7814, 6374, 5025, 3941, 3069,
    2489, 1966, 1549, 1331, 1232, 1232, 1307, 1400, 1521, 1722, 2037, 2486, 3168, 4429, 6472, 10410, 15070, 21630,
    31410, 48420, 71470, 106700, 151600, 216600, 306000, 456400, 687700, 1055000, 1710000, 2473000, 3359000,
    4149000, 5000000], 5⟩,
  ⟨[17000, 17000, 17000, 17000, 16970, 16870, 16720, 16490, 16290, 16150, 15790, 15420, 15060, 14710, 14340, 13890,
    13420, 12900, 12300, 11610, 10840, 10140, 9561, 9009, 8479, 7961, 7449, 6941, 6434, 5883, 5238, 4505, 3708,
    3004, 2453, 1980, 1590, 1500, 1500, 1500, 1500, 1500, 1500, 1400, 1300, 1200, 1100, 950, 600, 300], 4⟩,
  ⟨[209000, 209000, 209000, 209000, 209000, 209000, 209000, 209000, 209000, 209000, 209000, 209000, 209000, 209000,
    209000, 209000, 209000, 209000, 209000, 209000, 209000, 209000, 209000, 209000, 209000, 209000, 209000, 209000,
    209000, 209000, 209000, 209000, 209000, 209000, 209000, 209000, 209000, 209000, 209000, 209000, 209000, 209000,
    200000, 190000, 180000, 160000, 140000, 120000, 94000, 72500], 0⟩]

/-- `us_standard.dat`, by columns. -/
def atmStandard : List Col := [
  ⟨[0, 10, 20, 30, 40, 50, 60, 70, 80, 90, 100, 110, 120, 130, 140, 150, 160, 170, 180, 190, 200, 210, 220, 230,
    240, 250, 275, 300, 325, 350, 375, 400, 425, 450, 475, 500, 550, 600, 650, 700, 750, 800, 850, 900, 950, 1000,
    1050, 1100, 1150, 1200], 1⟩,
  ⟨[10130000000, 8988000000, 7950000000, 7012000000, 6166000000, 5405000000, 4722000000, 4111000000, 3565000000,
    3080000000, 2650000000, 2270000000, 1940000000, 1658000000, 1417000000, 1211000000, 1035000000, 885000000,
    756500000, 646700000, 552900000, 472900000, 404700000, 346700000, 297200000, 254900000, 174300000, 119700000,
    80100000, 57460000, 41500000, 28710000, 20600000, 14910000, 10900000, 7978000, 4250000, 2190000, 1090000,
    522000, 240000, 105000, 44600, 18400, 7600, 3200, 1450, 710, 401, 254], 7⟩,
  ⟨[25480000000000000000, 23130000000000000000, 20940000000000000000, 18910000000000000000, 17040000000000000000,
    15320000000000000000, 13730000000000000000, 12280000000000000000, 10940000000000000000, 9719000000000000000,
    8602000000000000000, 7589000000000000000, 6489000000000000000, 5546000000000000000, 4739000000000000000,
    4050000000000000000, 3462000000000000000, 2960000000000000000, 2530000000000000000, 2163000000000000000,
    1849000000000000000, 1575000000000000000, 1342000000000000000, 1144000000000000000, 976500000000000000,
    833700000000000000, 564000000000000000, 383000000000000000, 252400000000000000, 176100000000000000,
    123800000000000000, 83100000000000000, 58030000000000000, 40900000000000000, 29200000000000000,
    21360000000000000, 11810000000000000, 6426000000000000, 3386000000000000, 1723000000000000, 834700000000000,
    383200000000000, 171100000000000, 71360000000000, 29240000000000, 11890000000000, 5033000000000, 2144000000000,
    968800000000, 511400000000], 0⟩,
  ⟨[2882, 2817, 2752, 2687, 2622, 2557, 2492, 2427, 2362, 2297, 2233, 2168, 2167, 2167, 2167, 2167, 2167, 2167,
    2167, 2167, 2167, 2176, 2186, 2196, 2206, 2216, 2240, 2265, 2300, 2365, 2429, 2504, 2573, 2642, 2706, 2707,
    2608, 2470, 2333, 2196, 2084, 1986, 1889, 1869, 1884, 1951, 2088, 2400, 3000, 3600], 1⟩,
  ⟨[7745000, 6071000, 4631000, 3182000, 2158000, 1397000, 925400, 572000, 366700, 158300, 69960, 36130, 19060,
    10850, 5927, 5000, 3950, 3850, 3825, 3850, 3900, 3975, 4065, 4200, 4300, 4425, 4575, 4725, 4825, 4900, 4950,
    5025, 5150, 5225, 5250, 5225, 5100, 4750, 4200, 3500, 2825, 2050, 1330, 850, 540, 400, 340, 280, 240, 200], 3⟩,
  ⟨[330, 330, 330, 330, 330, 330, 330, 330, 330, 330, 330, 330, 330, 330, 330, 330, 330, 330, 330, 330, 330, 330,
    330, 330, 330, 330, 330, 330, 330, 330, 330, 330, 330, 330, 330, 330, 330, 330, 330, 330, 330, 328, 320, 310,
    270, 195, 110, 60, 40, 35], 0⟩,
  ⟨[2660, 2931, 3237, 3318, 3387, 3768, 4112, 5009, 5966, 9168, 13130, 21490, 30950, 38460, 50300, 65050, 87010,
    118700, 158700, 203000, 257900, 302800, 364700, 416800, 462700, 511800, 580300, 655300, 737300, 783700, 780000,
    730000, 620000, 525000, 410000, 310000, 180000, 110000, 70000, 30000, 25000, 30000, 50000, 70000, 70000, 40000,
    20000, 5000, 500, 50], 5⟩,
  ⟨[3200000, 3200000, 3200000, 3200000, 3200000, 3200000, 3200000, 3200000, 3200000, 3195000, 3179000, 3140000,
    3095000, 3048000, 2999000, 2944000, 2877000, 2783000, 2671000, 2527000, 2365000, 2194000, 2051000, 1967000,
    1875000, 1756000, 1588000, 1416000, 1165000, 927500, 669300, 451300, 275100, 159100, 93780, 47520, 30000,
    20650, 15070, 11490, 8890, 7056, 5716, 4708, 3932, 3323, 2837, 2443, 2120, 1851], 7⟩,
  ⟨[15000, 14500, 13990, 13490, 13120, 13030, 12880, 12470, 11850, 10940, 9962, 8964, 7814, 6374, 5025, 3941, 3069,
    2489, 1966, 1549, 1331, 1232, 1232, 1307, 1400, 1498, 1598, 1710, 1850, 2009, 2220, 2497, 2824, 3241, 3717,
    4597, 6639, 10730, 18620, 30590, 63750, 149700, 323900, 584300, 1013000, 1692000, 2467000, 3356000, 4148000,
    5000000], 5⟩,
  ⟨[17000, 17000, 17000, 17000, 17000, 17000, 17000, 16990, 16970, 16930, 16850, 16750, 16620, 16450, 16260, 16050,
    15820, 15530, 15210, 14800, 14240, 13550, 12720, 11910, 11180, 10550, 9870, 9136, 8300, 7460, 6618, 5638, 4614,
    3631, 2773, 2100, 1650, 1500, 1500, 1500, 1500, 1500, 1500, 1400, 1300, 1200, 1100, 950, 600, 300], 4⟩,
  ⟨[209000, 209000, 209000, 209000, 209000, 209000, 209000, 209000, 209000, 209000, 209000, 209000, 209000, 209000,
    209000, 209000, 209000, 209000, 209000, 209000, 209000, 209000, 209000, 209000, 209000, 209000, 209000, 209000,
    209000, 209000, 209000, 209000, 209000, 209000, 209000, 209000, 209000, 209000, 209000, 209000, 209000, 209000,
    200000, 190000, 180000, 160000, 140000, 120000, 94000, 72500], 0⟩]

/-- `gas_minor.dat`, by columns. -/
def gasMinor : List Col := [
  ⟨[300, 300, 300, 300, 300, 300, 300, 300, 300, 300, 300, 300, 300, 299, 295, 283, 268, 252, 240, 244, 255, 277,
    307, 360, 451, 685, 1280, 2450, 4530, 7140, 9340, 11200, 11900, 11700, 11000, 10300, 10100, 10100, 10300,
    11500, 16100, 26800, 70100, 213000, 712000, 2080000, 4500000, 7980000, 10000000, 10000000], 6⟩,
  ⟨[30000000, 27400000, 23600000, 19000000, 14600000, 11800000, 9710000, 8300000, 7210000, 6560000, 6080000,
    5790000, 5600000, 5590000, 5640000, 5750000, 5750000, 5370000, 4780000, 3970000, 3190000, 2670000, 2280000,
    2070000, 1900000, 1750000, 1540000, 1340000, 1210000, 1160000, 1210000, 1360000, 1650000, 2100000, 2770000,
    3560000, 4590000, 5150000, 5110000, 4320000, 2830000, 1330000, 556000, 224000, 89600, 35800, 14300, 5730, 2290,
    917], 11⟩,
  ⟨[230, 230, 230, 230, 230, 230, 230, 230, 230, 232, 238, 262, 315, 445, 748, 1710, 3190, 5190, 7710, 10600,
    13900, 17600, 21600, 25800, 30600, 37400, 48100, 61600, 72100, 72800, 62600, 40300, 21700, 11500, 6660, 4430,
    3390, 2850, 2530, 2310, 2150, 2020, 1920, 1830, 1760, 1700, 1640, 1590, 1550, 1510], 7⟩,
  ⟨[50000000000, 50000000000, 46300000000, 38000000000, 28800000000, 20400000000, 14600000000, 9880000000,
    6480000000, 3770000000, 2030000000, 1090000000, 630000000, 312000000, 111000000, 44700000, 21100000, 11000000,
    6700000, 3970000, 2410000, 1920000, 1720000, 1590000, 1440000, 1230000, 937000, 635000, 368000, 182000, 92600,
    29400, 8720, 2980, 1300, 713, 480, 366, 300, 257, 227, 204, 185, 171, 159, 148, 140, 132, 125, 119], 14⟩,
  ⟨[500, 596, 693, 791, 887, 975, 1110, 1260, 1390, 1530, 1740, 2020, 2410, 2760, 3330, 4520, 7370, 13100, 21100,
    31700, 42000, 49400, 54600, 57400, 58400, 56100, 48200, 37400, 25900, 16400, 9680, 5330, 2520, 1210, 770, 555,
    445, 384, 349, 327, 312, 301, 292, 284, 278, 273, 268, 264, 260, 257], 7⟩,
  ⟨[440, 440, 440, 440, 440, 440, 440, 441, 445, 456, 468, 480, 494, 519, 565, 675, 825, 1040, 1300, 1640, 2160,
    3400, 5090, 7590, 11600, 21800, 50000, 117000, 340000, 835000, 1700000, 2850000, 4060000, 5110000, 5790000,
    6750000, 9530000, 17600000, 37400000, 71900000, 112000000, 113000000, 61000000, 15100000, 2420000, 447000,
    177000, 119000, 135000, 220000], 10⟩,
  ⟨[100, 100, 123, 197, 318, 563, 918, 1530, 2410, 4040, 6570, 12000, 19600, 31200, 46200, 70900, 105000, 169000,
    257000, 402000, 577000, 777000, 990000, 1230000, 1500000, 1820000, 2300000, 2830000, 3200000, 3480000, 3720000,
    3950000, 4100000, 4210000, 4240000, 4250000, 4250000, 4250000, 4250000, 4250000, 4250000, 4250000, 4250000,
    4250000, 4250000, 4250000, 4250000, 4250000, 4250000, 4250000], 10⟩,
  ⟨[10000, 7490, 5610, 4220, 3190, 2390, 1790, 1320, 996, 748, 568, 459, 436, 651, 1010, 1630, 2370, 3130, 3850,
    4420, 4890, 5220, 5490, 5750, 6040, 6510, 7510, 9880, 12800, 15700, 16900, 17400, 17600, 17900, 18000, 18000,
    18000, 18000, 18000, 18000, 18000, 18000, 18000, 18000, 18000, 18000, 18000, 18000, 18000, 18000], 7⟩,
  ⟨[170, 170, 170, 170, 170, 170, 170, 170, 170, 170, 170, 170, 170, 170, 170, 170, 170, 170, 170, 170, 170, 170,
    170, 170, 170, 171, 176, 190, 226, 282, 369, 491, 613, 685, 708, 714, 715, 715, 715, 715, 715, 715, 715, 715,
    715, 715, 715, 715, 715, 715], 8⟩,
  ⟨[3, 3, 3, 3, 3, 3, 3, 3, 3, 3, 3, 3, 3, 3, 3, 3, 3, 3, 3, 3, 3, 3, 3, 3, 3, 3, 3, 3, 3, 3, 3, 3, 3, 3, 3, 3, 3,
    3, 3, 3, 3, 3, 3, 3, 3, 3, 3, 3, 3, 3], 6⟩,
  ⟨[100, 100, 100, 100, 100, 100, 100, 100, 101, 105, 121, 187, 318, 561, 999, 1780, 3160, 5650, 10400, 20400,
    46400, 81500, 107000, 152000, 224000, 397000, 848000, 1850000, 3570000, 5080000, 6070000, 5950000, 4330000,
    2510000, 1560000, 1040000, 769000, 630000, 552000, 504000, 472000, 449000, 430000, 416000, 403000, 393000,
    383000, 375000, 368000, 361000], 10⟩,
  ⟨[600000, 590000, 580000, 570000, 562000, 555000, 548000, 540000, 532000, 525000, 518000, 509000, 498000, 482000,
    460000, 426000, 388000, 348000, 309000, 274000, 241000, 214000, 188000, 164000, 137000, 108000, 67000, 29600,
    12100, 4310, 1600, 671, 435, 334, 280, 247, 228, 216, 208, 203, 198, 195, 192, 189, 187, 185, 183, 181, 180, 178], 9⟩,
  ⟨[2400000, 1070000, 404000, 227000, 140000, 100000, 74400, 60400, 50100, 42200, 36300, 34300, 33900, 35000,
    36200, 36200, 35800, 35000, 34200, 33900, 34300, 36800, 40300, 45000, 50600, 58200, 72100, 87300, 101000,
    111000, 113000, 103000, 79500, 48200, 16300, 5100, 2000, 1050, 686, 514, 416, 353, 309, 276, 250, 230, 213,
    198, 186, 175], 9⟩,
  ⟨[770, 1060, 1220, 1140, 980, 801, 642, 542, 470, 441, 434, 465, 501, 522, 560, 686, 877, 1200, 1630, 2260, 3070,
    4290, 5760, 7650, 9920, 13100, 18400, 24500, 29600, 32100, 30400, 24800, 16400, 9740, 4920, 2530, 1500, 1050,
    834, 711, 633, 578, 537, 505, 478, 456, 437, 421, 406, 393], 8⟩,
  ⟨[781000, 781000, 781000, 781000, 781000, 781000, 781000, 781000, 781000, 781000, 781000, 781000, 781000, 781000,
    781000, 781000, 781000, 781000, 781000, 781000, 781000, 781000, 781000, 781000, 781000, 781000, 781000, 781000,
    781000, 781000, 781000, 781000, 781000, 781000, 781000, 781000, 781000, 781000, 781000, 781000, 781000, 781000,
    781000, 780000, 779000, 777000, 774000, 770000, 765000, 760000], 0⟩,
  ⟨[1700, 1650, 1630, 1610, 1600, 1600, 1600, 1600, 1600, 1600, 1600, 1600, 1600, 1590, 1570, 1550, 1520, 1490,
    1450, 1410, 1370, 1340, 1300, 1250, 1190, 1130, 1050, 973, 904, 846, 802, 763, 730, 700, 670, 643, 621, 602,
    588, 575, 562, 550, 537, 525, 512, 500, 487, 475, 462, 450], 7⟩,
  ⟨[700000, 670000, 643000, 622000, 607000, 602000, 600000, 600000, 598000, 594000, 588000, 579000, 566000, 548000,
    528000, 503000, 477000, 449000, 421000, 395000, 369000, 343000, 317000, 286000, 248000, 191000, 110000, 47200,
    17900, 7350, 3030, 1320, 869, 668, 560, 494, 456, 432, 417, 405, 396, 389, 383, 378, 373, 369, 366, 362, 359,
    356], 9⟩,
  ⟨[2000000, 1950000, 1920000, 1890000, 1840000, 1770000, 1660000, 1490000, 1230000, 909000, 579000, 343000,
    195000, 108000, 65900, 42000, 29400, 23000, 22400, 26800, 36800, 56200, 103000, 197000, 370000, 620000,
    1030000, 1360000, 1360000, 1130000, 851000, 637000, 517000, 444000, 380000, 348000, 362000, 525000, 1260000,
    3770000, 11200000, 20000000, 16800000, 4310000, 498000, 67600, 8380, 956, 100, 10], 10⟩,
  ⟨[300000000, 172000000, 95700000, 67400000, 50700000, 39900000, 31900000, 28000000, 25500000, 24000000, 22700000,
    20800000, 17600000, 12300000, 7320000, 4520000, 2590000, 1550000, 863000, 530000, 310000, 189000, 104000,
    57500, 22300, 8510, 4090, 2520, 1860, 1520, 1320, 1180, 1080, 997, 934, 883, 843, 810, 783, 760, 740, 723, 707,
    694, 681, 670, 659, 649, 640, 632], 12⟩,
  ⟨[200000000, 200000000, 200000000, 200000000, 198000000, 195000000, 190000000, 185000000, 179000000, 172000000,
    158000000, 130000000, 98600000, 72200000, 49600000, 33500000, 21400000, 14900000, 10500000, 7960000, 6010000,
    4570000, 3400000, 2600000, 1890000, 1220000, 574000, 214000, 84900, 34200, 13400, 5390, 2250, 1040, 657, 474,
    379, 328, 298, 279, 266, 256, 249, 243, 237, 233, 229, 225, 222, 219], 11⟩,
  ⟨[1, 1, 1, 1, 1, 1, 1, 1, 1, 1, 1, 1, 1, 1, 1, 1, 1, 1, 1, 1, 1, 1, 1, 1, 1, 1, 1, 1, 1, 1, 1, 1, 1, 1, 1, 1, 1,
    1, 1, 1, 1, 1, 1, 1, 1, 1, 1, 1, 1, 1], 14⟩]

/-- `gas_trace.dat`, by columns. -/
def gasTrace : List Col := [
  ⟨[5000000000, 5000000000, 5000000000, 5000000000, 5000000000, 5000000000, 5000000000, 5000000000, 5000000000,
    5000000000, 5000000000, 5000000000, 5000000000, 5000000000, 5000000000, 7070000000, 10000000000, 14200000000,
    20100000000, 25000000000, 31200000000, 38900000000, 48400000000, 57100000000, 67400000000, 74700000000,
    93200000000, 111000000000, 117000000000, 110000000000, 93100000000, 73800000000, 58100000000, 45700000000,
    36000000000, 28300000000, 17500000000, 10800000000, 6720000000, 4160000000, 2570000000, 1, 1, 1, 1, 1, 1, 1, 1,
    1], 15⟩,
  ⟨[1420000000, 1420000000, 1420000000, 1420000000, 1420000000, 1420000000, 1420000000, 1420000000, 1420000000,
    1420000000, 1420000000, 1420000000, 1420000000, 1420000000, 1420000000, 1420000000, 1420000000, 1420000000,
    1420000000, 1260000000, 1120000000, 964000000, 830000000, 830000000, 830000000, 830000000, 830000000,
    830000000, 830000000, 830000000, 830000000, 830000000, 830000000, 830000000, 830000000, 830000000, 830000000,
    830000000, 830000000, 830000000, 830000000, 1, 1, 1, 1, 1, 1, 1, 1, 1], 15⟩,
  ⟨[100000000000, 54800000000, 30000000000, 24500000000, 20000000000, 16100000000, 13000000000, 11400000000,
    10000000000, 8370000000, 7000000000, 4580000000, 3000000000, 1730000000, 1000000000, 548000000, 300000000,
    173000000, 100000000, 54800000, 30000000, 17300000, 10000000, 5480000, 3000000, 1730000, 1000000, 100000,
    10000, 1000, 100, 10, 1, 1, 1, 1, 1, 1, 1, 1, 1, 1, 1, 1, 1, 1, 1, 1, 1, 1], 15⟩,
  ⟨[1400000000000000000000000000, 1400000000000000000000000000, 1399000000000000000000000000,
    1399000000000000000000000000, 1398000000000000000000000000, 1397000000000000000000000000,
    1396000000000000000000000000, 1396000000000000000000000000, 1395000000000000000000000000,
    1394000000000000000000000000, 1392000000000000000000000000, 1389000000000000000000000000,
    1386000000000000000000000000, 1368000000000000000000000000, 1349000000000000000000000000,
    1292000000000000000000000000, 1234000000000000000000000000, 1138000000000000000000000000,
    1041000000000000000000000000, 921600000000000000000000000, 802100000000000000000000000,
    679900000000000000000000000, 557600000000000000000000000, 448000000000000000000000000,
    338400000000000000000000000, 255000000000000000000000000, 96340000000000000000000000,
    24410000000000000000000000, 5553000000000000000000000, 1024000000000000000000000, 158100000000000000000000,
    19390000000000000000000, 3811000000000000000000, 771600000000000000000, 158500000000000000000,
    36580000000000000000, 4173000000000000000, 346500000000000000, 33530000000000000, 2383000000000000,
    208400000000000, 13460000000000, 1080000000000, 60990000000, 4246000000, 192300000, 11100000, 515800, 33930,
    3738], 31⟩,
  ⟨[240000000000000, 240000000000000, 239900000000000, 239900000000000, 239800000000000, 239800000000000,
    239700000000000, 239600000000000, 239500000000000, 239400000000000, 239300000000000, 239000000000000,
    238700000000000, 237000000000000, 235300000000000, 230000000000000, 224700000000000, 215700000000000,
    206600000000000, 195200000000000, 183800000000000, 171200000000000, 158500000000000, 145200000000000,
    131900000000000, 118300000000000, 85520000000000, 56830000000000, 34980000000000, 20130000000000,
    11110000000000, 6014000000000, 3446000000000, 1998000000000, 1181000000000, 768700000000, 387600000000,
    181800000000, 82650000000, 34320000000, 13800000000, 4984000000, 1704000000, 491700000, 127200000, 23510000,
    3640000, 425100, 49810, 8792], 18⟩,
  ⟨[5000000000, 5000000000, 5000000000, 5000000000, 5000000000, 5000000000, 5000000000, 5000000000, 5000000000,
    5000000000, 5000000000, 5000000000, 5000000000, 4580000000, 4200000000, 4050000000, 3900000000, 3750000000,
    3600000000, 3450000000, 3300000000, 3200000000, 3100000000, 3050000000, 3000000000, 2900000000, 2570000000,
    2200000000, 2100000000, 2050000000, 1920000000, 1800000000, 1670000000, 1550000000, 1420000000, 1300000000,
    1080000000, 897000000, 746000000, 620000000, 515000000, 100000000, 10000000, 1000000, 100000, 1000, 10, 1, 1, 1], 15⟩,
  ⟨[57800000000, 57800000000, 57800000000, 57800000000, 57800000000, 57800000000, 57800000000, 57800000000,
    57800000000, 57800000000, 57800000000, 58600000000, 60200000000, 60000000000, 58000000000, 56600000000,
    56400000000, 56800000000, 57400000000, 58200000000, 58900000000, 59400000000, 59800000000, 60200000000,
    60600000000, 60700000000, 59000000000, 56400000000, 59400000000, 59400000000, 59400000000, 59400000000,
    59400000000, 59400000000, 59400000000, 59400000000, 59400000000, 59400000000, 59400000000, 59400000000,
    59400000000, 1, 1, 1, 1, 1, 1, 1, 1, 1], 15⟩,
  ⟨[1600000000, 1500000000, 1400000000, 1350000000, 1300000000, 1250000000, 1200000000, 1150000000, 1100000000,
    1050000000, 1000000000, 850000000, 700000000, 550000000, 400000000, 300000000, 200000000, 150000000, 100000000,
    75000000, 50000000, 35000000, 20000000, 15000000, 10000000, 6500000, 1000000, 300000, 150000, 10000, 1000, 100,
    10, 1, 1, 1, 1, 1, 1, 1, 1, 1, 1, 1, 1, 1, 1, 1, 1, 1], 15⟩,
  ⟨[6000000, 5994000, 5987000, 5982000, 5977000, 5974000, 5970000, 5968000, 5966000, 5963000, 5960000, 5955000,
    5949000, 5921000, 5893000, 5808000, 5723000, 5582000, 5441000, 5265000, 5089000, 4897000, 4705000, 4502000,
    4298000, 4084000, 3548000, 3021000, 2514000, 2062000, 1686000, 1392000, 1184000, 1036000, 935600, 878400,
    816300, 774100, 744900, 720100, 691900, 652400, 587200, 486700, 339600, 180800, 69350, 20660, 5485, 1930], 11⟩,
  ⟨[1900000000000000000, 1900000000000000000, 1899000000000000000, 1899000000000000000, 1898000000000000000,
    1898000000000000000, 1897000000000000000, 1896000000000000000, 1895000000000000000, 1894000000000000000,
    1893000000000000000, 1890000000000000000, 1887000000000000000, 1871000000000000000, 1854000000000000000,
    1803000000000000000, 1751000000000000000, 1664000000000000000, 1576000000000000000, 1466000000000000000,
    1356000000000000000, 1236000000000000000, 1116000000000000000, 993100000000000000, 870200000000000000,
    751500000000000000, 478700000000000000, 267800000000000000, 136600000000000000, 63700000000000000,
    28200000000000000, 12220000000000000, 5930000000000000, 2949000000000000, 1507000000000000, 861700000000000,
    355000000000000, 130400000000000, 46100000000000, 14270000000000, 4322000000000, 1131000000000, 286100000000,
    57980000000, 10590000000, 1182000000, 93720000, 3545000, 122300, 6979], 23⟩,
  ⟨[120000000000, 120000000000, 120000000000, 120000000000, 119900000000, 119900000000, 119900000000, 119900000000,
    119800000000, 119800000000, 119800000000, 119700000000, 119600000000, 119100000000, 118500000000, 116700000000,
    114900000000, 112000000000, 109000000000, 105300000000, 101500000000, 97310000000, 93110000000, 88650000000,
    84190000000, 79490000000, 67700000000, 56200000000, 45470000000, 36230000000, 28840000000, 23150000000,
    19060000000, 16000000000, 13750000000, 12310000000, 10370000000, 8645000000, 7140000000, 5799000000,
    4610000000, 3530000000, 2524000000, 1588000000, 758500000, 213100000, 31070000, 2089000, 108400, 8968], 16⟩,
  ⟨[4000000000, 4000000000, 4000000000, 4000000000, 4000000000, 4000000000, 4000000000, 4000000000, 4000000000,
    4000000000, 4000000000, 4000000000, 4000000000, 3740000000, 3500000000, 3240000000, 3000000000, 2790000000,
    2600000000, 2450000000, 2300000000, 2090000000, 1900000000, 1740000000, 1600000000, 1500000000, 1320000000,
    1200000000, 1070000000, 949000000, 824000000, 700000000, 592000000, 514000000, 460000000, 420000000, 353000000,
    297000000, 250000000, 211000000, 177000000, 1000000, 10000, 100, 1, 1, 1, 1, 1, 1], 15⟩,
  ⟨[130000000000000000000000000000000, 130000000000000000000000000000000, 129900000000000000000000000000000,
    129900000000000000000000000000000, 129800000000000000000000000000000, 129700000000000000000000000000000,
    129600000000000000000000000000000, 129500000000000000000000000000000, 129400000000000000000000000000000,
    129300000000000000000000000000000, 129200000000000000000000000000000, 128900000000000000000000000000000,
    128500000000000000000000000000000, 126600000000000000000000000000000, 124700000000000000000000000000000,
    118700000000000000000000000000000, 112700000000000000000000000000000, 102600000000000000000000000000000,
    92560000000000000000000000000000, 80370000000000000000000000000000, 68170000000000000000000000000000,
    56110000000000000000000000000000, 44050000000000000000000000000000, 33950000000000000000000000000000,
    23850000000000000000000000000000, 17010000000000000000000000000000, 5027000000000000000000000000000,
    820200000000000000000000000000, 120400000000000000000000000000, 13040000000000000000000000000,
    1050000000000000000000000000, 48640000000000000000000000, 5081000000000000000000000, 537200000000000000000000,
    55480000000000000000000, 5688000000000000000000, 228100000000000000000, 5092000000000000000,
    169900000000000000, 3184000000000000, 96000000000000, 1638000000000, 46050000000, 698500000, 17430000, 222400,
    4283, 1000, 1000, 1000], 36⟩,
  ⟨[4737000000000000000000000000, 4162000000000000000000000000, 3587000000000000000000000000,
    2891000000000000000000000000, 2195000000000000000000000000, 1717000000000000000000000000,
    1238000000000000000000000000, 977500000000000000000000000, 717000000000000000000000000,
    623100000000000000000000000, 529200000000000000000000000, 531300000000000000000000000,
    533400000000000000000000000, 1451000000000000000000000000, 2368000000000000000000000000,
    10370000000000000000000000000, 18370000000000000000000000000, 55710000000000000000000000000,
    93040000000000000000000000000, 174800000000000000000000000000, 256600000000000000000000000000,
    368100000000000000000000000000, 479600000000000000000000000000, 591000000000000000000000000000,
    702400000000000000000000000000, 772400000000000000000000000000, 858700000000000000000000000000,
    742800000000000000000000000000, 458500000000000000000000000000, 200500000000000000000000000000,
    58670000000000000000000000000, 8818000000000000000000000000, 1319000000000000000000000000,
    161000000000000000000000000, 18890000000000000000000000, 1855000000000000000000000, 70320000000000000000000,
    2870000000000000000000, 217400000000000000000, 30250000000000000000, 3257000000000000000, 26340000000000000,
    33130000000000, 21340000000, 136600000, 412800, 3433, 1000, 1000, 1000], 33⟩,
  ⟨[13120000000000000000000000, 40650000000000000000000000, 68180000000000000000000000,
    5329000000000000000000000000, 10590000000000000000000000000, 117700000000000000000000000000,
    224800000000000000000000000000, 243500000000000000000000000000, 262200000000000000000000000000,
    252600000000000000000000000000, 243000000000000000000000000000, 271400000000000000000000000000,
    299800000000000000000000000000, 735400000000000000000000000000, 1171000000000000000000000000000,
    3638000000000000000000000000000, 6105000000000000000000000000000, 11570000000000000000000000000000,
    17030000000000000000000000000000, 24710000000000000000000000000000, 32390000000000000000000000000000,
    42040000000000000000000000000000, 51680000000000000000000000000000, 63180000000000000000000000000000,
    74680000000000000000000000000000, 85760000000000000000000000000000, 98880000000000000000000000000000,
    78450000000000000000000000000000, 41400000000000000000000000000000, 15560000000000000000000000000000,
    4229000000000000000000000000000, 748900000000000000000000000000, 142600000000000000000000000000,
    21950000000000000000000000000, 3706000000000000000000000000, 658600000000000000000000000,
    48580000000000000000000000, 791900000000000000000000, 19130000000000000000000, 262600000000000000000,
    3692000000000000000, 51250000000000000, 216900000000000, 60960000000, 63360000, 9855, 1000, 1000, 1000, 1000], 35⟩,
  ⟨[885100000000000000000000000, 2031000000000000000000000000, 3177000000000000000000000000,
    7444000000000000000000000000, 11710000000000000000000000000, 19620000000000000000000000000,
    27520000000000000000000000000, 32840000000000000000000000000, 38160000000000000000000000000,
    35760000000000000000000000000, 33360000000000000000000000000, 29280000000000000000000000000,
    25190000000000000000000000000, 28140000000000000000000000000, 31090000000000000000000000000,
    44060000000000000000000000000, 57030000000000000000000000000, 81270000000000000000000000000,
    105500000000000000000000000000, 134400000000000000000000000000, 163200000000000000000000000000,
    194600000000000000000000000000, 226000000000000000000000000000, 254100000000000000000000000000,
    282200000000000000000000000000, 301000000000000000000000000000, 301600000000000000000000000000,
    217500000000000000000000000000, 115100000000000000000000000000, 46260000000000000000000000000,
    14480000000000000000000000000, 3333000000000000000000000000, 885700000000000000000000000,
    224400000000000000000000000, 59920000000000000000000000, 16690000000000000000000000, 2490000000000000000000000,
    365900000000000000000000, 79130000000000000000000, 31680000000000000000000, 7075000000000000000000,
    267600000000000000000, 3296000000000000000, 1497000000000000, 2227000000000, 1918000000, 25070000, 328300,
    16050, 2026], 33⟩]

end Verif.Model
