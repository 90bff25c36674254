import Verif.Model.TableBase

/-!
# Line tables of ozone

Contents of `pyrtlib/_lineshape/o3_lineshape.nc`, one group per model, in the order of the file.  Only the columns 0-6 of
`mtx` (those read by `o3ll.py`) are reproduced.
-/

namespace Verif.Model

set_option maxRecDepth 10000 in
/-- Group `R22`. -/
def ozoneR22 : RawTable where
  rows := 463
  cols := [
    ⟨[31, 31, 31, 31, 31, 31, 31, 31, 31, 31, 31, 31, 31, 31, 31, 31, 31, 31, 31, 31, 31, 31, 31, 31, 31, 31, 31, 31,
    31, 31, 31, 31, 31, 31, 31, 31, 31, 31, 31, 31, 31, 31, 31, 31, 31, 31, 31, 31, 31, 31, 31, 31, 31, 31, 31, 31,
    31, 31, 31, 31, 31, 31, 31, 31, 31, 31, 31, 31, 31, 31, 31, 31, 31, 31, 31, 31, 31, 31, 31, 31, 31, 31, 31, 31,
    31, 31, 31, 31, 31, 31, 31, 31, 31, 31, 31, 31, 31, 31, 31, 31, 31, 31, 31, 31, 31, 31, 31, 31, 31, 31, 31, 31,
    31, 31, 31, 31, 31, 31, 31, 31, 31, 31, 31, 31, 31, 31, 31, 31, 31, 31, 31, 31, 31, 31, 31, 31, 31, 31, 31, 31,
    31, 31, 31, 31, 31, 31, 31, 31, 31, 31, 31, 31, 31, 31, 31, 31, 31, 31, 31, 31, 31, 31, 31, 31, 31, 31, 31, 31,
    31, 31, 31, 31, 31, 31, 31, 31, 31, 31, 31, 31, 31, 31, 31, 31, 31, 31, 31, 31, 31, 31, 31, 31, 31, 31, 31, 31,
    31, 31, 31, 31, 31, 31, 31, 31, 31, 31, 31, 31, 31, 31, 31, 31, 31, 31, 31, 31, 31, 31, 31, 31, 31, 31, 31, 31,
    31, 31, 31, 31, 31, 31, 31, 31, 31, 31, 31, 31, 31, 31, 31, 31, 31, 31, 31, 31, 31, 31, 31, 31, 31, 31, 31, 31,
    31, 31, 31, 31, 31, 31, 31, 31, 31, 31, 31, 31, 31, 31, 31, 31, 31, 31, 31, 31, 31, 31, 31, 31, 31, 31, 31, 31,
    31, 31, 31, 31, 31, 31, 31, 31, 31, 31, 31, 31, 31, 31, 31, 31, 31, 31, 31, 31, 31, 31, 31, 31, 31, 31, 31, 31,
    31, 31, 31, 31, 31, 31, 31, 31, 31, 31, 31, 31, 31, 31, 31, 31, 31, 31, 31, 31, 31, 31, 31, 31, 31, 31, 31, 31,
    31, 31, 31, 31, 31, 31, 31, 31, 31, 31, 31, 31, 31, 31, 31, 31, 31, 31, 31, 31, 31, 31, 31, 31, 31, 31, 31, 31,
    31, 31, 31, 31, 31, 31, 31, 31, 31, 31, 31, 31, 31, 31, 31, 31, 31, 31, 31, 31, 31, 31, 31, 31, 31, 31, 31, 31,
    31, 31, 31, 31, 31, 31, 31, 31, 31, 31, 31, 31, 31, 31, 31, 31, 31, 31, 31, 31, 31, 31, 31, 31, 31, 31, 31, 31,
    31, 31, 31, 31, 31, 31, 31, 31, 31, 31, 31, 31, 31, 31, 31, 31, 31, 31, 31, 31, 31, 31, 31, 31, 31, 31, 31, 31,
    31, 31, 31, 31, 31, 31, 31, 31, 31, 31, 31, 31, 31, 31, 31], 0⟩,
    ⟨[101736870, 110836040, 124087380, 125389440, 142175040, 144919360, 148744870, 154046440, 164951820, 165784450,
    175445701, 184377820, 184748694, 193351125, 195430363, 195721181, 208642415, 210803196, 214955677, 226054043,
    229574953, 231281511, 235709855, 237146116, 239093279, 242318688, 243453776, 244158390, 247761753, 248183390,
    249788552, 249961960, 258202050, 258716180, 262857850, 263692600, 264925894, 267266570, 273050900, 274478380,
    276923540, 279485840, 282837200, 286087690, 286156530, 286294750, 288959140, 293171270, 293548230, 300685150,
    301812999, 303164919, 310063518, 315875121, 316327250, 316681596, 317195059, 319996539, 326900963, 327844554,
    332704519, 332881703, 335271226, 343180602, 343237419, 343505637, 352324077, 352592880, 352815194, 355018144,
    357629819, 358199826, 358853347, 359649665, 361669307, 363469275, 364403666, 364449915, 366776946, 368949164,
    371022852, 375179181, 376238270, 378281229, 378694868, 387098395, 387287612, 392654029, 395062982, 396529434,
    397027615, 400076974, 401217730, 402395327, 403837340, 408293992, 413011868, 414254529, 420794918, 423669481,
    424845932, 425157749, 426069358, 427943742, 428792217, 429420061, 430333831, 437493562, 438480736, 441340381,
    442117575, 445458708, 446143770, 446649100, 448876279, 452238905, 453789362, 454668680, 457415619, 462365441,
    463189610, 463245961, 464108692, 466641249, 467967123, 468399325, 469104212, 469325078, 469482352, 469953884,
    470990875, 472300767, 472898853, 473073083, 474165218, 476020613, 479395673, 479632455, 480014178, 480182356,
    480717254, 481198946, 481620136, 487348535, 489537095, 491951176, 496254010, 497097872, 497972727, 498747426,
    500433486, 505257219, 505369137, 507736143, 507815378, 508031033, 508192897, 509272486, 514992622, 517430402,
    520134800, 522046109, 523308826, 523531653, 529683864, 531076224, 534273117, 535922659, 539372692, 540355981,
    542580408, 544857488, 549070417, 550989470, 551435738, 556710376, 557970086, 559477407, 559834394, 563437719,
    565703479, 566293566, 566734984, 570097138, 570999366, 572877215, 573602803, 574540446, 576514876, 582144118,
    582306369, 583475002, 589104307, 590337545, 591004340, 591248914, 592630753, 595080912, 599978756, 607848509,
    609730588, 610262561, 610365186, 611276642, 614729529, 614784190, 616282394, 617304320, 620686696, 620825694,
    623687732, 625371112, 632176937, 633352693, 634461604, 634520172, 638903096, 640092417, 640309803, 641534128,
    642349702, 644804927, 645670188, 647839918, 650732726, 651475846, 651556975, 653762450, 654713487, 654853038,
    655005257, 655120330, 655203576, 655290198, 655606308, 655872590, 655962099, 656005734, 656223761, 656252556,
    656383997, 656419753, 656461535, 656477700, 657515114, 658038638, 658814978, 661458302, 664486652, 665677713,
    665852066, 666630900, 666767731, 669857129, 671669215, 671804430, 672794525, 673914355, 676061525, 677143207,
    683639008, 684243095, 691356502, 691664263, 691985940, 692368592, 693473708, 694760945, 696090387, 698980629,
    700853031, 701364503, 701508233, 708143315, 709637738, 711495174, 716827325, 718296209, 718358629, 719792350,
    723005064, 723377268, 726643687, 727086648, 730010947, 734389536, 735003391, 736482135, 740367298, 742266034,
    743164410, 745872141, 746501271, 746874117, 748493332, 748710657, 751176124, 751301743, 751719932, 751903093,
    754456360, 757249769, 760342107, 765101585, 766301328, 767675651, 773952037, 776268051, 776626962, 777145477,
    779714558, 782438253, 783660591, 784691370, 785657074, 785688309, 792263885, 793058131, 793213061, 794663334,
    798761395, 799383308, 802366363, 802373798, 804661559, 807624102, 810646133, 810950657, 811463446, 813140329,
    813991050, 818415896, 819262819, 819745746, 824788870, 825715207, 825844664, 826560139, 827288866, 827590595,
    828006287, 830556649, 830941786, 831008841, 831078476, 831573892, 832117908, 832789599, 832921139, 833608956,
    835210195, 835257493, 835683951, 836225418, 836445259, 836892717, 837814336, 838396104, 838600740, 839655446,
    839696187, 839764540, 840760670, 840937121, 841587314, 841810833, 842007497, 842194790, 842388731, 842614418,
    842754343, 842883377, 842970701, 843039560, 843086058, 843117977, 843137559, 843148495, 843750952, 849051160,
    849942539, 850170579, 851357080, 852707426, 852798236, 857967878, 860546279, 861451296, 861483613, 862915332,
    865518799, 866126148, 869065395, 870375215, 875530113, 881452828, 883056208, 885351389, 886451744, 886727436,
    887285182, 888159056, 894361130, 896063816, 900869159, 901285163, 902359497, 904484881, 906278354, 908258962,
    908742767, 910011582, 911958902, 914665299, 918660756, 918845249, 919640022, 925230438, 926189297, 926398691,
    927539506, 931623758, 932387791, 933139791, 933219709, 935813643, 937179899, 943413888, 944903821, 948850439,
    950722064, 951465543, 951492075, 955907412, 956951292, 958489507, 958537677, 962392175, 968674401, 969109025,
    969454086, 970014098, 970154203, 970775544, 973008479, 973785313, 976473948, 976778957, 979610440, 980029595,
    982262218, 982882048, 983239757, 986019274, 987597340, 992669939, 992938361, 994300111, 995392744, 995715267,
    998610485, 1000143603, 1000613929], 6⟩,
    ⟨[2347, 3669, 5285, 3106, 7258, 2709, 1553, 1619, 2927, 9602, 2004, 8553, 2761, 2455, 12230, 2356, 6937, 2496,
    6658, 3316, 2456, 15020, 21630, 20890, 22070, 19680, 17780, 2889, 3915, 22340, 13070, 17850, 3226, 15330, 5348,
    22520, 2863, 12130, 17750, 8256, 4722, 3481, 3993, 12740, 22610, 6134, 21470, 10720, 2763, 5303, 30880, 14940,
    4902, 22520, 18880, 2989, 2332, 20210, 32110, 5894, 22480, 8658, 5801, 3735, 8595, 1681, 25670, 6245, 22170,
    10920, 20910, 22040, 47130, 25840, 6763, 18750, 3559, 44820, 30100, 4563, 22200, 28320, 15950, 34690, 6425,
    7675, 13750, 39330, 5483, 21490, 13570, 17000, 30370, 59060, 6314, 43680, 8550, 64910, 6473, 47310, 23550,
    12250, 11510, 3391, 30700, 5906, 31690, 49650, 9297, 74050, 24560, 20330, 20440, 7525, 50160, 4527, 4122, 5153,
    48480, 32230, 44250, 9719, 9896, 37590, 82500, 28490, 16780, 9455, 23050, 33550, 41970, 8604, 48420, 7852,
    5825, 52940, 10560, 4944, 4071, 24140, 55730, 33100, 88830, 56810, 10270, 14130, 56390, 31990, 9683, 41250,
    19020, 2706, 5852, 54680, 16010, 8127, 27300, 18740, 10380, 42210, 98150, 51980, 102200, 10730, 24520, 6841,
    31000, 23910, 48450, 10150, 5330, 36240, 11690, 51440, 31570, 7897, 17300, 6712, 44340, 3723, 9569, 113200,
    51410, 40920, 110500, 39840, 29340, 12530, 33520, 60350, 9003, 39870, 4437, 19500, 8583, 22890, 49110, 46500,
    13180, 10140, 58940, 35230, 121000, 68590, 5237, 27160, 7198, 15340, 52640, 118700, 68680, 13600, 59900, 11270,
    77590, 5912, 75880, 30580, 6119, 5459, 84780, 59030, 21200, 89640, 13720, 91470, 37920, 89820, 89670, 92130,
    84840, 84300, 91680, 125000, 87810, 74740, 80130, 78340, 68410, 60890, 52220, 42240, 30730, 17080, 24560,
    70660, 12370, 62420, 6221, 81870, 7072, 54110, 3478, 122500, 65800, 22380, 26070, 46080, 13500, 13240, 38550,
    13390, 8088, 9054, 1498, 86430, 71980, 65710, 31720, 19050, 125200, 12890, 21720, 21840, 14290, 25720, 9156,
    122000, 12930, 89250, 4074, 78880, 11850, 6230, 20530, 39750, 15010, 11130, 83940, 10250, 18070, 17970, 18800,
    121700, 4779, 90180, 16620, 24330, 16140, 10380, 68290, 88350, 15510, 24650, 117600, 11360, 5552, 90720, 12500,
    8502, 89100, 95030, 32770, 93840, 15730, 14510, 15910, 12440, 115000, 9090, 42390, 6392, 14110, 6290, 9542,
    102800, 53390, 15620, 67660, 86010, 110000, 13460, 6281, 65500, 7291, 100800, 39000, 78250, 11510, 3903, 25130,
    40650, 100100, 50490, 32110, 91080, 61520, 111200, 24940, 73420, 103300, 85800, 7168, 15130, 19030, 98030,
    114100, 109300, 13190, 122600, 118900, 105900, 125800, 127800, 129000, 128900, 14300, 127700, 125100, 121100,
    115600, 108500, 99740, 89220, 76780, 62210, 45180, 24900, 14380, 81030, 10580, 8241, 7225, 11690, 1630, 119800,
    7705, 100200, 14230, 104400, 1700, 64280, 15160, 8958, 9228, 2908, 128300, 10710, 94940, 12890, 74530, 106100,
    15750, 105000, 10230, 24710, 9446, 4248, 4512, 136500, 88890, 6068, 11120, 6838, 4485, 58850, 16100, 102900,
    11230, 36210, 66940, 5195, 8511, 144100, 83100, 5426, 8964, 4734, 16160, 108000, 98750, 7468, 12190, 76930,
    5936, 151200, 9827, 6523, 4965, 162000, 58700, 52100, 15880, 23190, 93090, 13940, 6170, 13080, 6637, 71020,
    6721, 157200, 5342, 19300, 3972, 86400, 5156, 169600, 15230, 26100, 8949, 5780, 12500], 16⟩,
    ⟨[49, 95, 156, 136, 235, 444, 444, 394, 26, 329, 928, 208, 1097, 853, 439, 346, 58, 304, 567, 781, 1490, 566,
    604, 475, 749, 362, 296, 264, 714, 912, 106, 266, 1393, 187, 1287, 1090, 230, 125, 708, 80, 650, 51, 1301, 707,
    1285, 62, 170, 98, 199, 591, 399, 151, 1213, 1496, 219, 2066, 173, 866, 250, 536, 303, 46, 1129, 1953, 1494,
    150, 403, 485, 1723, 57, 863, 2027, 518, 1781, 1050, 2290, 2570, 345, 1552, 1845, 1039, 519, 2569, 1339, 437,
    974, 70, 1144, 1741, 1966, 2864, 90, 651, 456, 395, 965, 902, 652, 1641, 803, 1228, 1717, 3175, 2609, 1034,
    356, 799, 658, 835, 583, 139, 111, 2224, 1544, 530, 2860, 2484, 321, 419, 962, 324, 3503, 771, 246, 802, 185,
    140, 123, 160, 213, 283, 1452, 368, 3925, 4287, 470, 3579, 2364, 290, 1432, 589, 205, 725, 723, 712, 3250, 874,
    1141, 1365, 1222, 2498, 264, 2247, 1041, 1957, 3845, 167, 2938, 657, 288, 967, 1224, 882, 1281, 2642, 2135,
    1336, 1651, 1423, 606, 3166, 117, 1201, 387, 2364, 2026, 2787, 4204, 1638, 3081, 559, 1055, 1425, 132, 1147,
    2103, 1546, 1125, 240, 502, 1922, 1868, 2949, 2212, 516, 1886, 1858, 150, 1054, 1822, 1631, 2115, 1243, 634,
    2820, 1771, 477, 3091, 172, 1343, 1420, 987, 1643, 1726, 1227, 3489, 782, 2377, 2695, 443, 1050, 199, 2136,
    890, 923, 747, 329, 620, 967, 816, 1135, 509, 681, 1446, 562, 415, 460, 1319, 374, 337, 305, 276, 251, 231,
    2012, 1520, 1634, 1737, 4760, 946, 2575, 1970, 412, 1553, 230, 2484, 2656, 2219, 864, 3410, 2485, 1546, 2458,
    4382, 385, 1125, 265, 1877, 2767, 2400, 1665, 809, 2269, 2949, 1462, 3064, 2346, 1780, 4022, 1321, 3459, 303,
    758, 3828, 3378, 434, 1383, 3745, 347, 2238, 3678, 3258, 2540, 1898, 3323, 1531, 2681, 2771, 3708, 711, 2127,
    223, 1307, 3352, 2021, 2134, 3190, 393, 4053, 668, 1758, 241, 3042, 445, 1236, 3583, 2828, 2034, 2148, 4094,
    2750, 3061, 2976, 629, 4414, 264, 2474, 1168, 2391, 2000, 2278, 1938, 4183, 2215, 2937, 561, 556, 1973, 3923,
    594, 3074, 2890, 499, 2608, 3189, 1748, 2341, 290, 3505, 2091, 1539, 1858, 4791, 1105, 3837, 1641, 1346, 1440,
    3130, 1170, 1256, 2412, 1088, 1011, 937, 868, 4184, 802, 741, 684, 630, 581, 536, 496, 459, 426, 398, 373,
    1846, 2257, 4549, 2816, 4458, 3286, 564, 321, 4929, 2550, 1046, 693, 386, 2671, 1758, 4279, 2700, 495, 356,
    3448, 2691, 991, 2529, 622, 1674, 841, 2588, 3392, 3612, 620, 3730, 395, 2837, 4554, 940, 4649, 3804, 2966,
    1595, 1007, 2479, 694, 2817, 3593, 3781, 437, 2986, 762, 893, 3847, 1519, 761, 1189, 3952, 2375, 3139, 3461,
    484, 4891, 850, 3894, 363, 3119, 3277, 1448, 3726, 1387, 4517, 919, 2275, 4129, 3296, 3332, 536, 3775, 4160,
    811, 1602, 3945, 385, 1380, 3819, 5080, 4308, 4699], 3⟩,
    ⟨[2524, 2468, 2414, 2438, 2370, 2343, 2373, 2394, 2642, 2329, 2249, 2373, 2201, 2266, 2293, 2420, 2553, 2444,
    2302, 2287, 2172, 2260, 2260, 2293, 2234, 2329, 2314, 2471, 2308, 2207, 2476, 2370, 2186, 2414, 2172, 2184,
    2497, 2468, 2234, 2524, 2329, 2589, 2201, 2263, 2160, 2556, 2405, 2494, 2524, 2349, 2263, 2441, 2216, 2139,
    2391, 2124, 2553, 2207, 2343, 2373, 2349, 2689, 2231, 2133, 2145, 2583, 2311, 2394, 2118, 2618, 2225, 2189,
    2216, 2118, 2249, 2166, 2077, 2287, 2139, 2145, 2184, 2278, 2145, 2160, 2420, 2266, 2598, 2184, 2157, 2189,
    2124, 2565, 2246, 2240, 2444, 2207, 2287, 2178, 2172, 2234, 2160, 2124, 2107, 2095, 2189, 2471, 2219, 2260,
    2308, 2195, 2512, 2515, 2166, 2186, 2293, 2068, 2104, 2497, 2329, 2195, 2370, 2092, 2329, 2414, 2142, 2468,
    2524, 2556, 2494, 2441, 2391, 2201, 2349, 2074, 2062, 2311, 2092, 2113, 2524, 2139, 2278, 2462, 2160, 2246,
    2349, 2107, 2219, 2172, 2216, 2157, 2145, 2553, 2124, 2195, 2104, 2074, 2438, 2124, 2373, 2411, 2113, 2172,
    2127, 2231, 2145, 2133, 2151, 2118, 2151, 2394, 2059, 2494, 2249, 2367, 2166, 2145, 2124, 2062, 2130, 2083,
    2420, 2098, 2127, 2613, 2086, 2189, 2130, 2266, 2373, 2323, 2157, 2107, 2089, 2089, 2444, 2189, 2118, 2583,
    2287, 2172, 2139, 2178, 2074, 2281, 2095, 2107, 2471, 2107, 2553, 2065, 2160, 2308, 2098, 2186, 2184, 2056,
    2243, 2157, 2104, 2497, 2207, 2524, 2166, 2234, 2329, 2260, 2314, 2293, 2219, 2246, 2195, 2329, 2278, 2053,
    2311, 2370, 2349, 2172, 2391, 2414, 2441, 2468, 2494, 2524, 2178, 2151, 2201, 2130, 2050, 2207, 2113, 2107,
    2524, 2044, 2497, 2077, 2136, 2178, 2349, 2092, 2157, 2216, 2124, 2062, 2553, 2172, 2471, 2071, 2136, 2145,
    2036, 2373, 2157, 2115, 2231, 2115, 2133, 2027, 2074, 2142, 2077, 2444, 2394, 2056, 2098, 2263, 2249, 2074,
    2420, 2145, 2092, 2098, 2136, 2018, 2083, 2113, 2124, 2068, 2083, 2420, 2047, 2435, 2266, 2107, 2012, 2157,
    2089, 2394, 2068, 2444, 2086, 2583, 2124, 2373, 2287, 2083, 2115, 2172, 2003, 2062, 2145, 2095, 2107, 2471,
    2056, 2553, 2166, 2308, 2027, 2059, 1997, 2186, 2059, 2189, 2104, 2329, 2216, 2118, 2068, 2497, 2059, 2136,
    2349, 2157, 2115, 2139, 2178, 2524, 2098, 2107, 2160, 2130, 2044, 2329, 2083, 2151, 2184, 2172, 2098, 2207,
    2195, 1988, 2219, 2234, 2246, 2260, 2068, 2278, 2293, 2311, 2329, 2349, 2370, 2391, 2414, 2441, 2468, 2494,
    2201, 2039, 2056, 2113, 2050, 2092, 2524, 2497, 2044, 1982, 2349, 2287, 2329, 2009, 2216, 2056, 2124, 2293,
    2471, 2083, 1973, 2373, 2018, 2308, 2231, 2249, 2133, 2056, 2074, 2260, 2077, 2444, 1968, 2056, 2394, 2044,
    2444, 1991, 2249, 2216, 2145, 2178, 2000, 2083, 2068, 2420, 1959, 2234, 2420, 2420, 2266, 2266, 2186, 2062,
    2157, 1953, 2089, 2394, 2050, 2444, 2394, 2385, 1985, 1979, 2287, 2056, 2157, 2062, 2207, 2172, 2056, 1944,
    2095, 2373, 2385, 2074, 2471, 2133, 2373, 2553, 2308, 2092, 2044, 2050, 2056], 3⟩,
    ⟨[76, 76, 77, 77, 77, 77, 77, 77, 76, 77, 78, 77, 79, 78, 77, 77, 76, 77, 78, 78, 79, 78, 78, 77, 78, 77, 77, 77,
    78, 78, 77, 77, 79, 77, 79, 79, 77, 76, 78, 76, 78, 76, 79, 78, 79, 76, 77, 76, 77, 77, 77, 77, 79, 79, 77, 80,
    76, 78, 77, 77, 77, 76, 78, 80, 79, 76, 77, 77, 80, 76, 78, 80, 78, 80, 78, 81, 81, 77, 79, 79, 79, 78, 81, 79,
    77, 78, 76, 79, 79, 80, 82, 76, 78, 78, 77, 78, 78, 78, 79, 78, 79, 80, 82, 81, 79, 77, 78, 78, 78, 78, 77, 76,
    81, 79, 77, 82, 80, 77, 77, 79, 77, 83, 78, 77, 78, 76, 76, 76, 76, 77, 77, 79, 77, 83, 84, 77, 83, 80, 77, 79,
    78, 77, 78, 78, 77, 82, 78, 79, 79, 79, 81, 76, 80, 79, 80, 83, 77, 82, 77, 77, 79, 79, 79, 78, 81, 80, 79, 80,
    79, 77, 82, 76, 78, 77, 81, 79, 82, 84, 80, 81, 77, 79, 79, 76, 79, 80, 80, 78, 77, 78, 79, 80, 81, 81, 77, 80,
    80, 76, 78, 79, 79, 81, 79, 78, 81, 80, 77, 82, 76, 79, 79, 78, 80, 79, 79, 83, 78, 81, 80, 77, 78, 77, 81, 78,
    78, 78, 77, 77, 78, 78, 79, 77, 78, 80, 77, 77, 77, 79, 77, 77, 77, 76, 76, 76, 81, 79, 79, 80, 76, 79, 80, 80,
    77, 80, 77, 81, 82, 81, 77, 83, 81, 79, 80, 84, 76, 79, 77, 80, 82, 81, 80, 77, 81, 82, 78, 82, 80, 80, 83, 79,
    81, 77, 77, 83, 83, 77, 78, 83, 77, 79, 83, 83, 82, 81, 81, 80, 82, 82, 83, 77, 81, 76, 78, 82, 81, 79, 81, 77,
    84, 77, 80, 76, 82, 77, 78, 83, 82, 79, 81, 84, 81, 81, 82, 77, 76, 76, 81, 78, 81, 81, 81, 79, 84, 80, 80, 78,
    78, 80, 84, 77, 82, 82, 77, 81, 82, 79, 81, 77, 83, 80, 79, 80, 76, 78, 83, 79, 79, 79, 83, 78, 79, 82, 78, 78,
    78, 78, 84, 78, 77, 77, 77, 77, 77, 77, 77, 77, 76, 76, 79, 81, 76, 80, 76, 83, 77, 77, 76, 82, 77, 78, 77, 82,
    79, 76, 80, 77, 77, 83, 82, 77, 82, 78, 78, 78, 80, 83, 83, 78, 81, 77, 82, 76, 77, 76, 77, 82, 78, 79, 79, 78,
    82, 81, 84, 77, 83, 78, 77, 77, 78, 78, 79, 84, 79, 83, 81, 77, 76, 77, 77, 76, 83, 83, 78, 83, 79, 84, 78, 79,
    76, 83, 81, 77, 76, 83, 77, 80, 77, 76, 78, 83, 76, 76, 76], 2⟩,
    ⟨[0, 0, 0, 0, 0, 0, 0, 0, 0, 0, 0, 0, 0, 0, 0, 0, 0, 0, 0, 0, 0, 0, 0, 0, 0, 0, 0, 0, 0, 0, 0, 0, 0, 0, 0, 0, 0,
    0, 0, 0, 0, 0, 0, 0, 0, 0, 0, 0, 0, 0, 0, 0, 0, 0, 0, 0, 0, 0, 0, 0, 0, 0, 0, 0, 0, 0, 0, 0, 0, 0, 0, 0, 0, 0,
    0, 0, 0, 0, 0, 0, 0, 0, 0, 0, 0, 0, 0, 0, 0, 0, 0, 0, 0, 0, 0, 0, 0, 0, 0, 0, 0, 0, 0, 0, 0, 0, 0, 0, 0, 0, 0,
    0, 0, 0, 0, 0, 0, 0, 0, 0, 0, 0, 0, 0, 0, 0, 0, 0, 0, 0, 0, 0, 0, 0, 0, 0, 0, 0, 0, 0, 0, 0, 0, 0, 0, 0, 0, 0,
    0, 0, 0, 0, 0, 0, 0, 0, 0, 0, 0, 0, 0, 0, 0, 0, 0, 0, 0, 0, 0, 0, 0, 0, 0, 0, 0, 0, 0, 0, 0, 0, 0, 0, 0, 0, 0,
    0, 0, 0, 0, 0, 0, 0, 0, 0, 0, 0, 0, 0, 0, 0, 0, 0, 0, 0, 0, 0, 0, 0, 0, 0, 0, 0, 0, 0, 0, 0, 0, 0, 0, 0, 0, 0,
    0, 0, 0, 0, 0, 0, 0, 0, 0, 0, 0, 0, 0, 0, 0, 0, 0, 0, 0, 0, 0, 0, 0, 0, 0, 0, 0, 0, 0, 0, 0, 0, 0, 0, 0, 0, 0,
    0, 0, 0, 0, 0, 0, 0, 0, 0, 0, 0, 0, 0, 0, 0, 0, 0, 0, 0, 0, 0, 0, 0, 0, 0, 0, 0, 0, 0, 0, 0, 0, 0, 0, 0, 0, 0,
    0, 0, 0, 0, 0, 0, 0, 0, 0, 0, 0, 0, 0, 0, 0, 0, 0, 0, 0, 0, 0, 0, 0, 0, 0, 0, 0, 0, 0, 0, 0, 0, 0, 0, 0, 0, 0,
    0, 0, 0, 0, 0, 0, 0, 0, 0, 0, 0, 0, 0, 0, 0, 0, 0, 0, 0, 0, 0, 0, 0, 0, 0, 0, 0, 0, 0, 0, 0, 0, 0, 0, 0, 0, 0,
    0, 0, 0, 0, 0, 0, 0, 0, 0, 0, 0, 0, 0, 0, 0, 0, 0, 0, 0, 0, 0, 0, 0, 0, 0, 0, 0, 0, 0, 0, 0, 0, 0, 0, 0, 0, 0,
    0, 0, 0, 0, 0, 0, 0, 0, 0, 0, 0, 0, 0, 0, 0, 0, 0, 0, 0, 0, 0, 0, 0, 0, 0, 0, 0, 0, 0, 0, 0, 0, 0, 0, 0, 0, 0,
    0, 0, 0, 0, 0, 0, 0, 0, 0, 0, 0, 0, 0, 0, 0, 0, 0, 0, 0], 0⟩]
  ctr := ⟨[], 0⟩
  reftline := ⟨[296], 0⟩
  extra := ⟨[], 0⟩

set_option maxRecDepth 10000 in
/-- Group `R18`. -/
def ozoneR18 : RawTable where
  rows := 321
  cols := [
    ⟨[31, 31, 31, 31, 31, 31, 31, 31, 31, 31, 31, 31, 31, 31, 31, 31, 31, 31, 31, 31, 31, 31, 31, 31, 31, 31, 31, 31,
    31, 31, 31, 31, 31, 31, 31, 31, 31, 31, 31, 31, 31, 31, 31, 31, 31, 31, 31, 31, 31, 31, 31, 31, 31, 31, 31, 31,
    31, 31, 31, 31, 31, 31, 31, 31, 31, 31, 31, 31, 31, 31, 31, 31, 31, 31, 31, 31, 31, 31, 31, 31, 31, 31, 31, 31,
    31, 31, 31, 31, 31, 31, 31, 31, 31, 31, 31, 31, 31, 31, 31, 31, 31, 31, 31, 31, 31, 31, 31, 31, 31, 31, 31, 31,
    31, 31, 31, 31, 31, 31, 31, 31, 31, 31, 31, 31, 31, 31, 31, 31, 31, 31, 31, 31, 31, 31, 31, 31, 31, 31, 31, 31,
    31, 31, 31, 31, 31, 31, 31, 31, 31, 31, 31, 31, 31, 31, 31, 31, 31, 31, 31, 31, 31, 31, 31, 31, 31, 31, 31, 31,
    31, 31, 31, 31, 31, 31, 31, 31, 31, 31, 31, 31, 31, 31, 31, 31, 31, 31, 31, 31, 31, 31, 31, 31, 31, 31, 31, 31,
    31, 31, 31, 31, 31, 31, 31, 31, 31, 31, 31, 31, 31, 31, 31, 31, 31, 31, 31, 31, 31, 31, 31, 31, 31, 31, 31, 31,
    31, 31, 31, 31, 31, 31, 31, 31, 31, 31, 31, 31, 31, 31, 31, 31, 31, 31, 31, 31, 31, 31, 31, 31, 31, 31, 31, 31,
    31, 31, 31, 31, 31, 31, 31, 31, 31, 31, 31, 31, 31, 31, 31, 31, 31, 31, 31, 31, 31, 31, 31, 31, 31, 31, 31, 31,
    31, 31, 31, 31, 31, 31, 31, 31, 31, 31, 31, 31, 31, 31, 31, 31, 31, 31, 31, 31, 31, 31, 31, 31, 31, 31, 31, 31,
    31, 31, 31, 31, 31, 31, 31, 31, 31, 31, 31, 31, 31], 0⟩,
    ⟨[101737569, 110836270, 124087096, 125388196, 142176573, 144919674, 148745026, 154045357, 164951806, 165785229,
    175444542, 184378358, 184750100, 193351146, 195431705, 195722504, 208643559, 210802065, 214954190, 226055505,
    229575068, 231280888, 235708822, 237144828, 239093479, 242319246, 243452461, 244156974, 247760479, 248183186,
    249790074, 249960956, 258202250, 258714895, 262858027, 263691450, 264926595, 267267974, 273050971, 274477983,
    276924289, 279484517, 282836197, 286088945, 286157897, 286295802, 288957959, 293170043, 293547781, 300685840,
    301813059, 303165123, 310063348, 315876323, 316326012, 316682765, 317195410, 319995472, 326899692, 327844038,
    332703674, 332880552, 335269897, 343181420, 343238381, 343505196, 352325090, 352591906, 352813752, 355017227,
    357628419, 358201023, 358854570, 359649020, 361669621, 363468376, 364403729, 364448697, 366778085, 368948582,
    371023146, 375178269, 376239535, 378281121, 378694835, 387098018, 387286887, 392653172, 395063503, 396529488,
    397027144, 400076033, 401218242, 402396427, 403838428, 408293344, 413012078, 414253218, 420794690, 423669700,
    424844886, 425156670, 426068039, 427944740, 428793153, 429419719, 430334086, 437493130, 438479447, 441339467,
    442118927, 445458615, 446145140, 446648791, 448876249, 452239921, 453789848, 454668240, 457414339, 462366910,
    463188341, 463245302, 464108704, 466641950, 467967033, 468398734, 469103247, 469325093, 469480985, 469954657,
    470991939, 472302032, 472898619, 473072499, 474166741, 476019459, 479395122, 479631958, 480012694, 480183576,
    480717206, 481199872, 481619582, 487348616, 489537101, 491950430, 496255450, 497097866, 497973260, 498746725,
    500434556, 505258217, 505369140, 507737501, 507815447, 508031297, 508193185, 509272438, 514992478, 517429791,
    520133919, 522046595, 523308721, 523530567, 529685306, 531076343, 534272131, 535923988, 539371601, 540354920,
    542579380, 544857803, 549069887, 550988559, 551435249, 556711597, 557970725, 559478681, 559835434, 563438939,
    565702372, 566292964, 566733658, 570097330, 570999705, 572876406, 573601904, 574540254, 576515886, 582142991,
    582307877, 583474069, 589104172, 590336319, 591004856, 591247688, 592629731, 595082033, 599977644, 607847196,
    609729893, 610263523, 610365453, 611276822, 614730431, 614784394, 616283356, 617305648, 620687307, 620825212,
    623688230, 625370065, 632178352, 633353538, 634462771, 634519731, 638902697, 640092873, 640308723, 641534875,
    642350310, 644805610, 645669013, 647839510, 650732507, 651475993, 651556937, 653763409, 654713751, 654851656,
    655004550, 655121469, 655202413, 655289353, 655607133, 655873948, 655960888, 656005857, 656224705, 656251686,
    656383595, 656419570, 656461541, 656476531, 657513813, 658038449, 658814912, 661459081, 665677161, 665851041,
    666630501, 666768406, 669856268, 671670013, 671804919, 672794234, 673915458, 676061972, 677144223, 683637727,
    684243308, 691357383, 691663172, 691986947, 692367684, 693473918, 694760028, 696091106, 698981105, 700851810,
    701364455, 701508356, 708142763, 709638727, 711494443, 716827750, 718296734, 718359690, 719792698, 723006473,
    723378216, 726642956, 727086648, 730009625, 734389593, 735004167, 736482144, 740367454, 742265141, 743164518,
    745871644, 746501208, 746872951, 748494828, 748710678, 751174972, 751300885, 751720595, 751903468, 754457700,
    757248768, 760342626, 765100332, 766302500, 767675549, 773953203, 776267601, 776627352, 777145993, 779715214,
    782437330, 783660483, 784691769, 785657101, 785687080, 792264527, 793058977, 793211871, 794662866, 798761029,
    799384598], 6⟩,
    ⟨[2272, 3547, 5102, 2998, 7033, 2620, 1502, 1565, 2831, 9282, 1940, 8274, 2672, 2375, 11820, 2280, 6715, 2416,
    6428, 3199, 2378, 14530, 20930, 20210, 21330, 19020, 17210, 2796, 3777, 21620, 12650, 17270, 3112, 14820, 5189,
    21790, 2770, 11730, 17150, 7983, 4554, 3373, 3861, 12340, 21850, 5939, 20750, 10380, 2672, 5132, 29980, 14440,
    4758, 21760, 18250, 2883, 2254, 19540, 31120, 5708, 21730, 8358, 5621, 3633, 8331, 1626, 24820, 6053, 21450,
    10550, 20240, 21300, 45540, 24990, 6544, 18130, 3460, 43230, 29120, 4410, 21470, 27390, 15420, 33430, 6227,
    7438, 13290, 38040, 5303, 20780, 13120, 16430, 29400, 57080, 6110, 42360, 8274, 62840, 6284, 45840, 22770,
    11880, 11130, 3286, 29690, 5708, 30550, 47850, 8994, 71770, 23750, 19660, 19750, 7294, 48420, 4383, 4008, 4986,
    46980, 31120, 42660, 9398, 9569, 36330, 79830, 27560, 16230, 9138, 22280, 32590, 40650, 8331, 46710, 7609,
    5621, 51320, 10200, 4785, 3948, 23350, 53900, 31990, 85890, 55070, 9944, 13660, 54470, 30850, 9369, 40080,
    18390, 2617, 5678, 53030, 15510, 7870, 26410, 18130, 10030, 40920, 94820, 50160, 98870, 10380, 23720, 6631,
    29980, 23120, 46980, 9830, 5159, 35170, 11330, 49860, 30550, 7639, 16720, 6485, 42960, 3604, 9255, 109500,
    49860, 39480, 106900, 38610, 28370, 12140, 32290, 58220, 8733, 38610, 4296, 18880, 8301, 22110, 47580, 44970,
    12770, 9830, 57080, 34030, 117000, 66310, 5072, 26230, 6976, 14820, 51020, 114700, 66310, 13170, 57950, 10920,
    74950, 5735, 73510, 29400, 5939, 5276, 81870, 57080, 20500, 86760, 13290, 88500, 36600, 86760, 86760, 89070,
    82140, 81570, 88500, 121100, 84750, 72340, 77560, 75820, 66010, 58820, 50460, 40920, 29690, 16520, 23720,
    68320, 11960, 60260, 79270, 6859, 52160, 3373, 118500, 63710, 21680, 25190, 44400, 13060, 12800, 37170, 12970,
    7840, 8763, 1450, 83580, 69460, 63710, 30550, 18390, 121100, 12480, 20990, 21100, 13840, 24880, 8880, 117900,
    12510, 86490, 3948, 76390, 11470, 6053, 19860, 38340, 14530, 10750, 81300, 9944, 17470, 17350, 18160, 117900,
    4641, 87330, 16060, 23580, 15600, 10030, 66010, 85320, 15020, 23840, 113900, 11010, 5390, 87630, 12080, 8214,
    86190, 91950, 31720, 90810, 15220, 14010, 15360, 12050, 111300, 8793, 40920, 6197], 16⟩,
    ⟨[49, 95, 156, 136, 235, 444, 444, 394, 26, 329, 928, 208, 1097, 853, 439, 346, 58, 304, 567, 781, 1490, 566,
    604, 475, 749, 362, 296, 264, 714, 912, 106, 266, 1393, 187, 1287, 1090, 230, 125, 708, 80, 650, 51, 1301, 707,
    1285, 62, 170, 98, 199, 591, 399, 151, 1213, 1496, 219, 2066, 173, 866, 250, 536, 303, 46, 1129, 1953, 1494,
    150, 403, 485, 1723, 57, 863, 2027, 518, 1781, 1050, 2290, 2570, 345, 1552, 1845, 1039, 519, 2569, 1339, 437,
    974, 70, 1144, 1741, 1966, 2864, 90, 651, 456, 395, 965, 902, 652, 1641, 803, 1228, 1717, 3175, 2609, 1034,
    356, 799, 658, 835, 583, 139, 111, 2224, 1544, 530, 2860, 2484, 321, 419, 962, 324, 3503, 771, 246, 802, 185,
    140, 123, 160, 213, 283, 1452, 368, 3925, 4287, 470, 3579, 2364, 290, 1432, 589, 205, 725, 723, 712, 3250, 874,
    1141, 1365, 1222, 2498, 264, 2247, 1041, 1957, 3845, 167, 2938, 657, 288, 967, 1224, 882, 1281, 2642, 2135,
    1336, 1651, 1423, 606, 3166, 117, 1201, 387, 2364, 2026, 2787, 4204, 1638, 3081, 559, 1055, 1425, 132, 1147,
    2103, 1546, 1125, 240, 502, 1922, 1868, 2949, 2212, 516, 1886, 1858, 150, 1054, 1822, 1631, 2115, 1243, 634,
    2820, 1771, 477, 3091, 172, 1343, 1420, 987, 1643, 1726, 1227, 3489, 782, 2377, 2695, 443, 1050, 199, 2136,
    890, 923, 747, 329, 620, 967, 816, 1135, 509, 681, 1446, 562, 415, 460, 1319, 374, 337, 305, 276, 251, 231,
    2012, 1520, 1634, 1737, 946, 2575, 1970, 412, 1553, 230, 2484, 2656, 2219, 864, 3410, 2485, 1546, 2458, 4382,
    385, 1125, 265, 1877, 2767, 2400, 1665, 809, 2269, 2949, 1462, 3064, 2346, 1780, 4022, 1321, 3459, 303, 758,
    3828, 3378, 434, 1383, 3745, 347, 2238, 3678, 3258, 2540, 1898, 3323, 1531, 2681, 2771, 3708, 711, 2127, 223,
    1307, 3352, 2021, 2134, 3190, 393, 4053, 668, 1758, 241, 3042, 445, 1236, 3583, 2828, 2034, 2148, 4094, 2750,
    3061], 3⟩,
    ⟨[2524, 2468, 2414, 2438, 2370, 2343, 2373, 2394, 2642, 2329, 2249, 2373, 2201, 2266, 2293, 2420, 2553, 2444,
    2302, 2287, 2172, 2260, 2260, 2293, 2234, 2329, 2314, 2471, 2308, 2207, 2476, 2370, 2186, 2414, 2172, 2184,
    2497, 2468, 2234, 2524, 2329, 2589, 2201, 2263, 2160, 2556, 2405, 2494, 2524, 2349, 2263, 2441, 2216, 2139,
    2391, 2124, 2553, 2207, 2343, 2373, 2349, 2689, 2231, 2133, 2145, 2583, 2311, 2394, 2118, 2618, 2225, 2189,
    2216, 2118, 2249, 2166, 2077, 2287, 2139, 2145, 2184, 2278, 2145, 2160, 2420, 2266, 2598, 2184, 2157, 2189,
    2124, 2565, 2246, 2240, 2444, 2207, 2287, 2178, 2172, 2234, 2160, 2124, 2107, 2095, 2189, 2471, 2219, 2260,
    2308, 2195, 2512, 2515, 2166, 2186, 2293, 2068, 2104, 2497, 2329, 2195, 2370, 2092, 2329, 2414, 2142, 2468,
    2524, 2556, 2494, 2441, 2391, 2201, 2349, 2074, 2062, 2311, 2092, 2113, 2524, 2139, 2278, 2462, 2160, 2246,
    2349, 2107, 2219, 2172, 2216, 2157, 2145, 2553, 2124, 2195, 2104, 2074, 2438, 2124, 2373, 2411, 2113, 2172,
    2127, 2231, 2145, 2133, 2151, 2118, 2151, 2394, 2059, 2494, 2249, 2367, 2166, 2145, 2124, 2062, 2130, 2083,
    2420, 2098, 2127, 2613, 2086, 2189, 2130, 2266, 2373, 2323, 2157, 2107, 2089, 2089, 2444, 2189, 2118, 2583,
    2287, 2172, 2139, 2178, 2074, 2281, 2095, 2107, 2471, 2107, 2553, 2065, 2160, 2308, 2098, 2186, 2184, 2056,
    2243, 2157, 2104, 2497, 2207, 2524, 2166, 2234, 2329, 2260, 2314, 2293, 2219, 2246, 2195, 2329, 2278, 2053,
    2311, 2370, 2349, 2172, 2391, 2414, 2441, 2468, 2494, 2524, 2178, 2151, 2201, 2130, 2207, 2113, 2107, 2524,
    2044, 2497, 2077, 2136, 2178, 2349, 2092, 2157, 2216, 2124, 2062, 2553, 2172, 2471, 2071, 2136, 2145, 2036,
    2373, 2157, 2115, 2231, 2115, 2133, 2027, 2074, 2142, 2077, 2444, 2394, 2056, 2098, 2263, 2249, 2074, 2420,
    2145, 2092, 2098, 2136, 2018, 2083, 2113, 2124, 2068, 2083, 2420, 2047, 2435, 2266, 2107, 2012, 2157, 2089,
    2394, 2068, 2444, 2086, 2583, 2124, 2373, 2287, 2083, 2115, 2172, 2003, 2062, 2145, 2095], 3⟩,
    ⟨[76, 76, 77, 77, 77, 77, 77, 77, 76, 77, 78, 77, 79, 78, 77, 77, 76, 77, 78, 78, 79, 78, 78, 77, 78, 77, 77, 77,
    78, 78, 77, 77, 79, 77, 79, 79, 77, 76, 78, 76, 78, 76, 79, 78, 79, 76, 77, 76, 77, 77, 77, 77, 79, 79, 77, 80,
    76, 78, 77, 77, 77, 76, 78, 80, 79, 76, 77, 77, 80, 76, 78, 80, 78, 80, 78, 81, 81, 77, 79, 79, 79, 78, 81, 79,
    77, 78, 76, 79, 79, 80, 82, 76, 78, 78, 77, 78, 78, 78, 79, 78, 79, 80, 82, 81, 79, 77, 78, 78, 78, 78, 77, 76,
    81, 79, 77, 82, 80, 77, 77, 79, 77, 83, 78, 77, 78, 76, 76, 76, 76, 77, 77, 79, 77, 83, 84, 77, 83, 80, 77, 79,
    78, 77, 78, 78, 77, 82, 78, 79, 79, 79, 81, 76, 80, 79, 80, 83, 77, 82, 77, 77, 79, 79, 79, 78, 81, 80, 79, 80,
    79, 77, 82, 76, 78, 77, 81, 79, 82, 84, 80, 81, 77, 79, 79, 76, 79, 80, 80, 78, 77, 78, 79, 80, 81, 81, 77, 80,
    80, 76, 78, 79, 79, 81, 79, 78, 81, 80, 77, 82, 76, 79, 79, 78, 80, 79, 79, 83, 78, 81, 80, 77, 78, 77, 81, 78,
    78, 78, 77, 77, 78, 78, 79, 77, 78, 80, 77, 77, 77, 79, 77, 77, 77, 76, 76, 76, 81, 79, 79, 80, 79, 80, 80, 77,
    80, 77, 81, 82, 81, 77, 83, 81, 79, 80, 84, 76, 79, 77, 80, 82, 81, 80, 77, 81, 82, 78, 82, 80, 80, 83, 79, 81,
    77, 77, 83, 83, 77, 78, 83, 77, 79, 83, 83, 82, 81, 81, 80, 82, 82, 83, 77, 81, 76, 78, 82, 81, 79, 81, 77, 84,
    77, 80, 76, 82, 77, 78, 83, 82, 79, 81, 84, 81, 81], 2⟩,
    ⟨[0, 0, 0, 0, 0, 0, 0, 0, 0, 0, 0, 0, 0, 0, 0, 0, 0, 0, 0, 0, 0, 0, 0, 0, 0, 0, 0, 0, 0, 0, 0, 0, 0, 0, 0, 0, 0,
    0, 0, 0, 0, 0, 0, 0, 0, 0, 0, 0, 0, 0, 0, 0, 0, 0, 0, 0, 0, 0, 0, 0, 0, 0, 0, 0, 0, 0, 0, 0, 0, 0, 0, 0, 0, 0,
    0, 0, 0, 0, 0, 0, 0, 0, 0, 0, 0, 0, 0, 0, 0, 0, 0, 0, 0, 0, 0, 0, 0, 0, 0, 0, 0, 0, 0, 0, 0, 0, 0, 0, 0, 0, 0,
    0, 0, 0, 0, 0, 0, 0, 0, 0, 0, 0, 0, 0, 0, 0, 0, 0, 0, 0, 0, 0, 0, 0, 0, 0, 0, 0, 0, 0, 0, 0, 0, 0, 0, 0, 0, 0,
    0, 0, 0, 0, 0, 0, 0, 0, 0, 0, 0, 0, 0, 0, 0, 0, 0, 0, 0, 0, 0, 0, 0, 0, 0, 0, 0, 0, 0, 0, 0, 0, 0, 0, 0, 0, 0,
    0, 0, 0, 0, 0, 0, 0, 0, 0, 0, 0, 0, 0, 0, 0, 0, 0, 0, 0, 0, 0, 0, 0, 0, 0, 0, 0, 0, 0, 0, 0, 0, 0, 0, 0, 0, 0,
    0, 0, 0, 0, 0, 0, 0, 0, 0, 0, 0, 0, 0, 0, 0, 0, 0, 0, 0, 0, 0, 0, 0, 0, 0, 0, 0, 0, 0, 0, 0, 0, 0, 0, 0, 0, 0,
    0, 0, 0, 0, 0, 0, 0, 0, 0, 0, 0, 0, 0, 0, 0, 0, 0, 0, 0, 0, 0, 0, 0, 0, 0, 0, 0, 0, 0, 0, 0, 0, 0, 0, 0, 0, 0,
    0, 0, 0, 0, 0, 0, 0, 0, 0, 0, 0, 0, 0, 0, 0, 0, 0, 0, 0, 0, 0, 0, 0, 0, 0], 0⟩]
  ctr := ⟨[], 0⟩
  reftline := ⟨[296], 0⟩
  extra := ⟨[], 0⟩

set_option maxRecDepth 10000 in
/-- Group `R23`. -/
def ozoneR23 : RawTable where
  rows := 464
  cols := [
    ⟨[31, 31, 31, 31, 31, 31, 31, 31, 31, 31, 31, 31, 31, 31, 31, 31, 31, 31, 31, 31, 31, 31, 31, 31, 31, 31, 31, 31,
    31, 31, 31, 31, 31, 31, 31, 31, 31, 31, 31, 31, 31, 31, 31, 31, 31, 31, 31, 31, 31, 31, 31, 31, 31, 31, 31, 31,
    31, 31, 31, 31, 31, 31, 31, 31, 31, 31, 31, 31, 31, 31, 31, 31, 31, 31, 31, 31, 31, 31, 31, 31, 31, 31, 31, 31,
    31, 31, 31, 31, 31, 31, 31, 31, 31, 31, 31, 31, 31, 31, 31, 31, 31, 31, 31, 31, 31, 31, 31, 31, 31, 31, 31, 31,
    31, 31, 31, 31, 31, 31, 31, 31, 31, 31, 31, 31, 31, 31, 31, 31, 31, 31, 31, 31, 31, 31, 31, 31, 31, 31, 31, 31,
    31, 31, 31, 31, 31, 31, 31, 31, 31, 31, 31, 31, 31, 31, 31, 31, 31, 31, 31, 31, 31, 31, 31, 31, 31, 31, 31, 31,
    31, 31, 31, 31, 31, 31, 31, 31, 31, 31, 31, 31, 31, 31, 31, 31, 31, 31, 31, 31, 31, 31, 31, 31, 31, 31, 31, 31,
    31, 31, 31, 31, 31, 31, 31, 31, 31, 31, 31, 31, 31, 31, 31, 31, 31, 31, 31, 31, 31, 31, 31, 31, 31, 31, 31, 31,
    31, 31, 31, 31, 31, 31, 31, 31, 31, 31, 31, 31, 31, 31, 31, 31, 31, 31, 31, 31, 31, 31, 31, 31, 31, 31, 31, 31,
    31, 31, 31, 31, 31, 31, 31, 31, 31, 31, 31, 31, 31, 31, 31, 31, 31, 31, 31, 31, 31, 31, 31, 31, 31, 31, 31, 31,
    31, 31, 31, 31, 31, 31, 31, 31, 31, 31, 31, 31, 31, 31, 31, 31, 31, 31, 31, 31, 31, 31, 31, 31, 31, 31, 31, 31,
    31, 31, 31, 31, 31, 31, 31, 31, 31, 31, 31, 31, 31, 31, 31, 31, 31, 31, 31, 31, 31, 31, 31, 31, 31, 31, 31, 31,
    31, 31, 31, 31, 31, 31, 31, 31, 31, 31, 31, 31, 31, 31, 31, 31, 31, 31, 31, 31, 31, 31, 31, 31, 31, 31, 31, 31,
    31, 31, 31, 31, 31, 31, 31, 31, 31, 31, 31, 31, 31, 31, 31, 31, 31, 31, 31, 31, 31, 31, 31, 31, 31, 31, 31, 31,
    31, 31, 31, 31, 31, 31, 31, 31, 31, 31, 31, 31, 31, 31, 31, 31, 31, 31, 31, 31, 31, 31, 31, 31, 31, 31, 31, 31,
    31, 31, 31, 31, 31, 31, 31, 31, 31, 31, 31, 31, 31, 31, 31, 31, 31, 31, 31, 31, 31, 31, 31, 31, 31, 31, 31, 31,
    31, 31, 31, 31, 31, 31, 31, 31, 31, 31, 31, 31, 31, 31, 31, 31], 0⟩,
    ⟨[96228340, 101736870, 110836040, 124087380, 125389440, 142175040, 144919360, 148744870, 154046440, 164951820,
    165784450, 175445701, 184377820, 184748694, 193351125, 195430363, 195721181, 208642415, 210803196, 214955677,
    226054043, 229574953, 231281511, 235709855, 237146116, 239093279, 242318688, 243453776, 244158390, 247761753,
    248183390, 249788552, 249961960, 258202050, 258716180, 262857850, 263692600, 264925894, 267266570, 273050900,
    274478380, 276923540, 279485840, 282837200, 286087690, 286156530, 286294750, 288959140, 293171270, 293548230,
    300685150, 301812999, 303164919, 310063518, 315875121, 316327250, 316681596, 317195059, 319996539, 326900963,
    327844554, 332704519, 332881703, 335271226, 343180602, 343237419, 343505637, 352324077, 352592880, 352815194,
    355018144, 357629819, 358199826, 358853347, 359649665, 361669307, 363469275, 364403666, 364449915, 366776946,
    368949164, 371022852, 375179181, 376238270, 378281229, 378694868, 387098395, 387287612, 392654029, 395062982,
    396529434, 397027615, 400076974, 401217730, 402395327, 403837340, 408293992, 413011868, 414254529, 420794918,
    423669481, 424845932, 425157749, 426069358, 427943742, 428792217, 429420061, 430333831, 437493562, 438480736,
    441340381, 442117575, 445458708, 446143770, 446649100, 448876279, 452238905, 453789362, 454668680, 457415619,
    462365441, 463189610, 463245961, 464108692, 466641249, 467967123, 468399325, 469104212, 469325078, 469482352,
    469953884, 470990875, 472300767, 472898853, 473073083, 474165218, 476020613, 479395673, 479632455, 480014178,
    480182356, 480717254, 481198946, 481620136, 487348535, 489537095, 491951176, 496254010, 497097872, 497972727,
    498747426, 500433486, 505257219, 505369137, 507736143, 507815378, 508031033, 508192897, 509272486, 514992622,
    517430402, 520134800, 522046109, 523308826, 523531653, 529683864, 531076224, 534273117, 535922659, 539372692,
    540355981, 542580408, 544857488, 549070417, 550989470, 551435738, 556710376, 557970086, 559477407, 559834394,
    563437719, 565703479, 566293566, 566734984, 570097138, 570999366, 572877215, 573602803, 574540446, 576514876,
    582144118, 582306369, 583475002, 589104307, 590337545, 591004340, 591248914, 592630753, 595080912, 599978756,
    607848509, 609730588, 610262561, 610365186, 611276642, 614729529, 614784190, 616282394, 617304320, 620686696,
    620825694, 623687732, 625371112, 632176937, 633352693, 634461604, 634520172, 638903096, 640092417, 640309803,
    641534128, 642349702, 644804927, 645670188, 647839918, 650732726, 651475846, 651556975, 653762450, 654713487,
    654853038, 655005257, 655120330, 655203576, 655290198, 655606308, 655872590, 655962099, 656005734, 656223761,
    656252556, 656383997, 656419753, 656461535, 656477700, 657515114, 658038638, 658814978, 661458302, 664486652,
    665677713, 665852066, 666630900, 666767731, 669857129, 671669215, 671804430, 672794525, 673914355, 676061525,
    677143207, 683639008, 684243095, 691356502, 691664263, 691985940, 692368592, 693473708, 694760945, 696090387,
    698980629, 700853031, 701364503, 701508233, 708143315, 709637738, 711495174, 716827325, 718296209, 718358629,
    719792350, 723005064, 723377268, 726643687, 727086648, 730010947, 734389536, 735003391, 736482135, 740367298,
    742266034, 743164410, 745872141, 746501271, 746874117, 748493332, 748710657, 751176124, 751301743, 751719932,
    751903093, 754456360, 757249769, 760342107, 765101585, 766301328, 767675651, 773952037, 776268051, 776626962,
    777145477, 779714558, 782438253, 783660591, 784691370, 785657074, 785688309, 792263885, 793058131, 793213061,
    794663334, 798761395, 799383308, 802366363, 802373798, 804661559, 807624102, 810646133, 810950657, 811463446,
    813140329, 813991050, 818415896, 819262819, 819745746, 824788870, 825715207, 825844664, 826560139, 827288866,
    827590595, 828006287, 830556649, 830941786, 831008841, 831078476, 831573892, 832117908, 832789599, 832921139,
    833608956, 835210195, 835257493, 835683951, 836225418, 836445259, 836892717, 837814336, 838396104, 838600740,
    839655446, 839696187, 839764540, 840760670, 840937121, 841587314, 841810833, 842007497, 842194790, 842388731,
    842614418, 842754343, 842883377, 842970701, 843039560, 843086058, 843117977, 843137559, 843148495, 843750952,
    849051160, 849942539, 850170579, 851357080, 852707426, 852798236, 857967878, 860546279, 861451296, 861483613,
    862915332, 865518799, 866126148, 869065395, 870375215, 875530113, 881452828, 883056208, 885351389, 886451744,
    886727436, 887285182, 888159056, 894361130, 896063816, 900869159, 901285163, 902359497, 904484881, 906278354,
    908258962, 908742767, 910011582, 911958902, 914665299, 918660756, 918845249, 919640022, 925230438, 926189297,
    926398691, 927539506, 931623758, 932387791, 933139791, 933219709, 935813643, 937179899, 943413888, 944903821,
    948850439, 950722064, 951465543, 951492075, 955907412, 956951292, 958489507, 958537677, 962392175, 968674401,
    969109025, 969454086, 970014098, 970154203, 970775544, 973008479, 973785313, 976473948, 976778957, 979610440,
    980029595, 982262218, 982882048, 983239757, 986019274, 987597340, 992669939, 992938361, 994300111, 995392744,
    995715267, 998610485, 1000143603, 1000613929], 6⟩,
    ⟨[1237, 2347, 3669, 5285, 3106, 7258, 2709, 1553, 1619, 2927, 9602, 2004, 8553, 2761, 2455, 12230, 2356, 6937,
    2496, 6658, 3316, 2456, 15020, 21630, 20890, 22070, 19680, 17780, 2889, 3915, 22340, 13070, 17850, 3226, 15330,
    5348, 22520, 2863, 12130, 17750, 8256, 4722, 3481, 3993, 12740, 22610, 6134, 21470, 10720, 2763, 5303, 30880,
    14940, 4902, 22520, 18880, 2989, 2332, 20210, 32110, 5894, 22480, 8658, 5801, 3735, 8595, 1681, 25670, 6245,
    22170, 10920, 20910, 22040, 47130, 25840, 6763, 18750, 3559, 44820, 30100, 4563, 22200, 28320, 15950, 34690,
    6425, 7675, 13750, 39330, 5483, 21490, 13570, 17000, 30370, 59060, 6314, 43680, 8550, 64910, 6473, 47310,
    23550, 12250, 11510, 3391, 30700, 5906, 31690, 49650, 9297, 74050, 24560, 20330, 20440, 7525, 50160, 4527,
    4122, 5153, 48480, 32230, 44250, 9719, 9896, 37590, 82500, 28490, 16780, 9455, 23050, 33550, 41970, 8604,
    48420, 7852, 5825, 52940, 10560, 4944, 4071, 24140, 55730, 33100, 88830, 56810, 10270, 14130, 56390, 31990,
    9683, 41250, 19020, 2706, 5852, 54680, 16010, 8127, 27300, 18740, 10380, 42210, 98150, 51980, 102200, 10730,
    24520, 6841, 31000, 23910, 48450, 10150, 5330, 36240, 11690, 51440, 31570, 7897, 17300, 6712, 44340, 3723,
    9569, 113200, 51410, 40920, 110500, 39840, 29340, 12530, 33520, 60350, 9003, 39870, 4437, 19500, 8583, 22890,
    49110, 46500, 13180, 10140, 58940, 35230, 121000, 68590, 5237, 27160, 7198, 15340, 52640, 118700, 68680, 13600,
    59900, 11270, 77590, 5912, 75880, 30580, 6119, 5459, 84780, 59030, 21200, 89640, 13720, 91470, 37920, 89820,
    89670, 92130, 84840, 84300, 91680, 125000, 87810, 74740, 80130, 78340, 68410, 60890, 52220, 42240, 30730,
    17080, 24560, 70660, 12370, 62420, 6221, 81870, 7072, 54110, 3478, 122500, 65800, 22380, 26070, 46080, 13500,
    13240, 38550, 13390, 8088, 9054, 1498, 86430, 71980, 65710, 31720, 19050, 125200, 12890, 21720, 21840, 14290,
    25720, 9156, 122000, 12930, 89250, 4074, 78880, 11850, 6230, 20530, 39750, 15010, 11130, 83940, 10250, 18070,
    17970, 18800, 121700, 4779, 90180, 16620, 24330, 16140, 10380, 68290, 88350, 15510, 24650, 117600, 11360, 5552,
    90720, 12500, 8502, 89100, 95030, 32770, 93840, 15730, 14510, 15910, 12440, 115000, 9090, 42390, 6392, 14110,
    6290, 9542, 102800, 53390, 15620, 67660, 86010, 110000, 13460, 6281, 65500, 7291, 100800, 39000, 78250, 11510,
    3903, 25130, 40650, 100100, 50490, 32110, 91080, 61520, 111200, 24940, 73420, 103300, 85800, 7168, 15130,
    19030, 98030, 114100, 109300, 13190, 122600, 118900, 105900, 125800, 127800, 129000, 128900, 14300, 127700,
    125100, 121100, 115600, 108500, 99740, 89220, 76780, 62210, 45180, 24900, 14380, 81030, 10580, 8241, 7225,
    11690, 1630, 119800, 7705, 100200, 14230, 104400, 1700, 64280, 15160, 8958, 9228, 2908, 128300, 10710, 94940,
    12890, 74530, 106100, 15750, 105000, 10230, 24710, 9446, 4248, 4512, 136500, 88890, 6068, 11120, 6838, 4485,
    58850, 16100, 102900, 11230, 36210, 66940, 5195, 8511, 144100, 83100, 5426, 8964, 4734, 16160, 108000, 98750,
    7468, 12190, 76930, 5936, 151200, 9827, 6523, 4965, 162000, 58700, 52100, 15880, 23190, 93090, 13940, 6170,
    13080, 6637, 71020, 6721, 157200, 5342, 19300, 3972, 86400, 5156, 169600, 15230, 26100, 8949, 5780, 12500], 16⟩,
    ⟨[20, 49, 95, 156, 136, 235, 444, 444, 394, 26, 329, 928, 208, 1097, 853, 439, 346, 58, 304, 567, 781, 1490, 566,
    604, 475, 749, 362, 296, 264, 714, 912, 106, 266, 1393, 187, 1287, 1090, 230, 125, 708, 80, 650, 51, 1301, 707,
    1285, 62, 170, 98, 199, 591, 399, 151, 1213, 1496, 219, 2066, 173, 866, 250, 536, 303, 46, 1129, 1953, 1494,
    150, 403, 485, 1723, 57, 863, 2027, 518, 1781, 1050, 2290, 2570, 345, 1552, 1845, 1039, 519, 2569, 1339, 437,
    974, 70, 1144, 1741, 1966, 2864, 90, 651, 456, 395, 965, 902, 652, 1641, 803, 1228, 1717, 3175, 2609, 1034,
    356, 799, 658, 835, 583, 139, 111, 2224, 1544, 530, 2860, 2484, 321, 419, 962, 324, 3503, 771, 246, 802, 185,
    140, 123, 160, 213, 283, 1452, 368, 3925, 4287, 470, 3579, 2364, 290, 1432, 589, 205, 725, 723, 712, 3250, 874,
    1141, 1365, 1222, 2498, 264, 2247, 1041, 1957, 3845, 167, 2938, 657, 288, 967, 1224, 882, 1281, 2642, 2135,
    1336, 1651, 1423, 606, 3166, 117, 1201, 387, 2364, 2026, 2787, 4204, 1638, 3081, 559, 1055, 1425, 132, 1147,
    2103, 1546, 1125, 240, 502, 1922, 1868, 2949, 2212, 516, 1886, 1858, 150, 1054, 1822, 1631, 2115, 1243, 634,
    2820, 1771, 477, 3091, 172, 1343, 1420, 987, 1643, 1726, 1227, 3489, 782, 2377, 2695, 443, 1050, 199, 2136,
    890, 923, 747, 329, 620, 967, 816, 1135, 509, 681, 1446, 562, 415, 460, 1319, 374, 337, 305, 276, 251, 231,
    2012, 1520, 1634, 1737, 4760, 946, 2575, 1970, 412, 1553, 230, 2484, 2656, 2219, 864, 3410, 2485, 1546, 2458,
    4382, 385, 1125, 265, 1877, 2767, 2400, 1665, 809, 2269, 2949, 1462, 3064, 2346, 1780, 4022, 1321, 3459, 303,
    758, 3828, 3378, 434, 1383, 3745, 347, 2238, 3678, 3258, 2540, 1898, 3323, 1531, 2681, 2771, 3708, 711, 2127,
    223, 1307, 3352, 2021, 2134, 3190, 393, 4053, 668, 1758, 241, 3042, 445, 1236, 3583, 2828, 2034, 2148, 4094,
    2750, 3061, 2976, 629, 4414, 264, 2474, 1168, 2391, 2000, 2278, 1938, 4183, 2215, 2937, 561, 556, 1973, 3923,
    594, 3074, 2890, 499, 2608, 3189, 1748, 2341, 290, 3505, 2091, 1539, 1858, 4791, 1105, 3837, 1641, 1346, 1440,
    3130, 1170, 1256, 2412, 1088, 1011, 937, 868, 4184, 802, 741, 684, 630, 581, 536, 496, 459, 426, 398, 373,
    1846, 2257, 4549, 2816, 4458, 3286, 564, 321, 4929, 2550, 1046, 693, 386, 2671, 1758, 4279, 2700, 495, 356,
    3448, 2691, 991, 2529, 622, 1674, 841, 2588, 3392, 3612, 620, 3730, 395, 2837, 4554, 940, 4649, 3804, 2966,
    1595, 1007, 2479, 694, 2817, 3593, 3781, 437, 2986, 762, 893, 3847, 1519, 761, 1189, 3952, 2375, 3139, 3461,
    484, 4891, 850, 3894, 363, 3119, 3277, 1448, 3726, 1387, 4517, 919, 2275, 4129, 3296, 3332, 536, 3775, 4160,
    811, 1602, 3945, 385, 1380, 3819, 5080, 4308, 4699], 3⟩,
    ⟨[2589, 2524, 2468, 2414, 2438, 2370, 2343, 2373, 2394, 2642, 2329, 2249, 2373, 2201, 2266, 2293, 2420, 2553,
    2444, 2302, 2287, 2172, 2260, 2260, 2293, 2234, 2329, 2314, 2471, 2308, 2207, 2476, 2370, 2186, 2414, 2172,
    2184, 2497, 2468, 2234, 2524, 2329, 2589, 2201, 2263, 2160, 2556, 2405, 2494, 2524, 2349, 2263, 2441, 2216,
    2139, 2391, 2124, 2553, 2207, 2343, 2373, 2349, 2689, 2231, 2133, 2145, 2583, 2311, 2394, 2118, 2618, 2225,
    2189, 2216, 2118, 2249, 2166, 2077, 2287, 2139, 2145, 2184, 2278, 2145, 2160, 2420, 2266, 2598, 2184, 2157,
    2189, 2124, 2565, 2246, 2240, 2444, 2207, 2287, 2178, 2172, 2234, 2160, 2124, 2107, 2095, 2189, 2471, 2219,
    2260, 2308, 2195, 2512, 2515, 2166, 2186, 2293, 2068, 2104, 2497, 2329, 2195, 2370, 2092, 2329, 2414, 2142,
    2468, 2524, 2556, 2494, 2441, 2391, 2201, 2349, 2074, 2062, 2311, 2092, 2113, 2524, 2139, 2278, 2462, 2160,
    2246, 2349, 2107, 2219, 2172, 2216, 2157, 2145, 2553, 2124, 2195, 2104, 2074, 2438, 2124, 2373, 2411, 2113,
    2172, 2127, 2231, 2145, 2133, 2151, 2118, 2151, 2394, 2059, 2494, 2249, 2367, 2166, 2145, 2124, 2062, 2130,
    2083, 2420, 2098, 2127, 2613, 2086, 2189, 2130, 2266, 2373, 2323, 2157, 2107, 2089, 2089, 2444, 2189, 2118,
    2583, 2287, 2172, 2139, 2178, 2074, 2281, 2095, 2107, 2471, 2107, 2553, 2065, 2160, 2308, 2098, 2186, 2184,
    2056, 2243, 2157, 2104, 2497, 2207, 2524, 2166, 2234, 2329, 2260, 2314, 2293, 2219, 2246, 2195, 2329, 2278,
    2053, 2311, 2370, 2349, 2172, 2391, 2414, 2441, 2468, 2494, 2524, 2178, 2151, 2201, 2130, 2050, 2207, 2113,
    2107, 2524, 2044, 2497, 2077, 2136, 2178, 2349, 2092, 2157, 2216, 2124, 2062, 2553, 2172, 2471, 2071, 2136,
    2145, 2036, 2373, 2157, 2115, 2231, 2115, 2133, 2027, 2074, 2142, 2077, 2444, 2394, 2056, 2098, 2263, 2249,
    2074, 2420, 2145, 2092, 2098, 2136, 2018, 2083, 2113, 2124, 2068, 2083, 2420, 2047, 2435, 2266, 2107, 2012,
    2157, 2089, 2394, 2068, 2444, 2086, 2583, 2124, 2373, 2287, 2083, 2115, 2172, 2003, 2062, 2145, 2095, 2107,
    2471, 2056, 2553, 2166, 2308, 2027, 2059, 1997, 2186, 2059, 2189, 2104, 2329, 2216, 2118, 2068, 2497, 2059,
    2136, 2349, 2157, 2115, 2139, 2178, 2524, 2098, 2107, 2160, 2130, 2044, 2329, 2083, 2151, 2184, 2172, 2098,
    2207, 2195, 1988, 2219, 2234, 2246, 2260, 2068, 2278, 2293, 2311, 2329, 2349, 2370, 2391, 2414, 2441, 2468,
    2494, 2201, 2039, 2056, 2113, 2050, 2092, 2524, 2497, 2044, 1982, 2349, 2287, 2329, 2009, 2216, 2056, 2124,
    2293, 2471, 2083, 1973, 2373, 2018, 2308, 2231, 2249, 2133, 2056, 2074, 2260, 2077, 2444, 1968, 2056, 2394,
    2044, 2444, 1991, 2249, 2216, 2145, 2178, 2000, 2083, 2068, 2420, 1959, 2234, 2420, 2420, 2266, 2266, 2186,
    2062, 2157, 1953, 2089, 2394, 2050, 2444, 2394, 2385, 1985, 1979, 2287, 2056, 2157, 2062, 2207, 2172, 2056,
    1944, 2095, 2373, 2385, 2074, 2471, 2133, 2373, 2553, 2308, 2092, 2044, 2050, 2056], 3⟩,
    ⟨[76, 76, 76, 77, 77, 77, 77, 77, 77, 76, 77, 78, 77, 79, 78, 77, 77, 76, 77, 78, 78, 79, 78, 78, 77, 78, 77, 77,
    77, 78, 78, 77, 77, 79, 77, 79, 79, 77, 76, 78, 76, 78, 76, 79, 78, 79, 76, 77, 76, 77, 77, 77, 77, 79, 79, 77,
    80, 76, 78, 77, 77, 77, 76, 78, 80, 79, 76, 77, 77, 80, 76, 78, 80, 78, 80, 78, 81, 81, 77, 79, 79, 79, 78, 81,
    79, 77, 78, 76, 79, 79, 80, 82, 76, 78, 78, 77, 78, 78, 78, 79, 78, 79, 80, 82, 81, 79, 77, 78, 78, 78, 78, 77,
    76, 81, 79, 77, 82, 80, 77, 77, 79, 77, 83, 78, 77, 78, 76, 76, 76, 76, 77, 77, 79, 77, 83, 84, 77, 83, 80, 77,
    79, 78, 77, 78, 78, 77, 82, 78, 79, 79, 79, 81, 76, 80, 79, 80, 83, 77, 82, 77, 77, 79, 79, 79, 78, 81, 80, 79,
    80, 79, 77, 82, 76, 78, 77, 81, 79, 82, 84, 80, 81, 77, 79, 79, 76, 79, 80, 80, 78, 77, 78, 79, 80, 81, 81, 77,
    80, 80, 76, 78, 79, 79, 81, 79, 78, 81, 80, 77, 82, 76, 79, 79, 78, 80, 79, 79, 83, 78, 81, 80, 77, 78, 77, 81,
    78, 78, 78, 77, 77, 78, 78, 79, 77, 78, 80, 77, 77, 77, 79, 77, 77, 77, 76, 76, 76, 81, 79, 79, 80, 76, 79, 80,
    80, 77, 80, 77, 81, 82, 81, 77, 83, 81, 79, 80, 84, 76, 79, 77, 80, 82, 81, 80, 77, 81, 82, 78, 82, 80, 80, 83,
    79, 81, 77, 77, 83, 83, 77, 78, 83, 77, 79, 83, 83, 82, 81, 81, 80, 82, 82, 83, 77, 81, 76, 78, 82, 81, 79, 81,
    77, 84, 77, 80, 76, 82, 77, 78, 83, 82, 79, 81, 84, 81, 81, 82, 77, 76, 76, 81, 78, 81, 81, 81, 79, 84, 80, 80,
    78, 78, 80, 84, 77, 82, 82, 77, 81, 82, 79, 81, 77, 83, 80, 79, 80, 76, 78, 83, 79, 79, 79, 83, 78, 79, 82, 78,
    78, 78, 78, 84, 78, 77, 77, 77, 77, 77, 77, 77, 77, 76, 76, 79, 81, 76, 80, 76, 83, 77, 77, 76, 82, 77, 78, 77,
    82, 79, 76, 80, 77, 77, 83, 82, 77, 82, 78, 78, 78, 80, 83, 83, 78, 81, 77, 82, 76, 77, 76, 77, 82, 78, 79, 79,
    78, 82, 81, 84, 77, 83, 78, 77, 77, 78, 78, 79, 84, 79, 83, 81, 77, 76, 77, 77, 76, 83, 83, 78, 83, 79, 84, 78,
    79, 76, 83, 81, 77, 76, 83, 77, 80, 77, 76, 78, 83, 76, 76, 76], 2⟩,
    ⟨[0, 0, 0, 0, 0, 0, 0, 0, 0, 0, 0, 0, 0, 0, 0, 0, 0, 0, 0, 0, 0, 0, 0, 0, 0, 0, 0, 0, 0, 0, 0, 0, 0, 0, 0, 0, 0,
    0, 0, 0, 0, 0, 0, 0, 0, 0, 0, 0, 0, 0, 0, 0, 0, 0, 0, 0, 0, 0, 0, 0, 0, 0, 0, 0, 0, 0, 0, 0, 0, 0, 0, 0, 0, 0,
    0, 0, 0, 0, 0, 0, 0, 0, 0, 0, 0, 0, 0, 0, 0, 0, 0, 0, 0, 0, 0, 0, 0, 0, 0, 0, 0, 0, 0, 0, 0, 0, 0, 0, 0, 0, 0,
    0, 0, 0, 0, 0, 0, 0, 0, 0, 0, 0, 0, 0, 0, 0, 0, 0, 0, 0, 0, 0, 0, 0, 0, 0, 0, 0, 0, 0, 0, 0, 0, 0, 0, 0, 0, 0,
    0, 0, 0, 0, 0, 0, 0, 0, 0, 0, 0, 0, 0, 0, 0, 0, 0, 0, 0, 0, 0, 0, 0, 0, 0, 0, 0, 0, 0, 0, 0, 0, 0, 0, 0, 0, 0,
    0, 0, 0, 0, 0, 0, 0, 0, 0, 0, 0, 0, 0, 0, 0, 0, 0, 0, 0, 0, 0, 0, 0, 0, 0, 0, 0, 0, 0, 0, 0, 0, 0, 0, 0, 0, 0,
    0, 0, 0, 0, 0, 0, 0, 0, 0, 0, 0, 0, 0, 0, 0, 0, 0, 0, 0, 0, 0, 0, 0, 0, 0, 0, 0, 0, 0, 0, 0, 0, 0, 0, 0, 0, 0,
    0, 0, 0, 0, 0, 0, 0, 0, 0, 0, 0, 0, 0, 0, 0, 0, 0, 0, 0, 0, 0, 0, 0, 0, 0, 0, 0, 0, 0, 0, 0, 0, 0, 0, 0, 0, 0,
    0, 0, 0, 0, 0, 0, 0, 0, 0, 0, 0, 0, 0, 0, 0, 0, 0, 0, 0, 0, 0, 0, 0, 0, 0, 0, 0, 0, 0, 0, 0, 0, 0, 0, 0, 0, 0,
    0, 0, 0, 0, 0, 0, 0, 0, 0, 0, 0, 0, 0, 0, 0, 0, 0, 0, 0, 0, 0, 0, 0, 0, 0, 0, 0, 0, 0, 0, 0, 0, 0, 0, 0, 0, 0,
    0, 0, 0, 0, 0, 0, 0, 0, 0, 0, 0, 0, 0, 0, 0, 0, 0, 0, 0, 0, 0, 0, 0, 0, 0, 0, 0, 0, 0, 0, 0, 0, 0, 0, 0, 0, 0,
    0, 0, 0, 0, 0, 0, 0, 0, 0, 0, 0, 0, 0, 0, 0, 0, 0, 0, 0, 0, 0, 0, 0, 0, 0, 0, 0, 0, 0, 0, 0, 0, 0, 0, 0, 0, 0,
    0, 0, 0, 0, 0, 0, 0, 0, 0, 0, 0, 0, 0, 0, 0, 0, 0, 0, 0, 0], 0⟩]
  ctr := ⟨[], 0⟩
  reftline := ⟨[296], 0⟩
  extra := ⟨[], 0⟩

/-- The groups of the file, in its order. -/
def ozoneGroups : List (String × RawTable) := [
  ("R18", ozoneR18),
  ("R22", ozoneR22),
  ("R23", ozoneR23)]

end Verif.Model
