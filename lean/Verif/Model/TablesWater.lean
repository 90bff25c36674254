import Verif.Model.TableBase

/-!
# Line tables of water vapour

Contents of `pyrtlib/_lineshape/h2o_lineshape.nc` (read with a small HDF5 reader), one group per model, in the order of
the file.  Column `c` of `mtx` is entry `c` of `cols`.  Every number is the shortest decimal of the stored float.
-/

namespace Verif.Model

/-- Group `R98`. -/
def waterR98 : RawTable where
  rows := 15
  cols := [
    ⟨[11, 11, 11, 11, 11, 11, 11, 11, 11, 11, 11, 11, 11, 11, 11], 0⟩,
    ⟨[222351, 1833101, 3212256, 3251529, 3801974, 4391508, 4430183, 4480011, 4708890, 4746891, 4884911, 5569360,
    6207008, 7520332, 9161712], 4⟩,
    ⟨[1310, 227300, 8036, 269400, 2438000, 217900, 46240, 2562000, 83690, 326300, 66590, 153100000, 1707000,
    101100000, 4227000], 17⟩,
    ⟨[2144, 668, 6179, 1541, 1048, 3595, 5048, 1405, 3597, 2379, 2852, 159, 2391, 396, 1441], 3⟩,
    ⟨[28100000000000000, 28100000000000000, 23000000000000000, 27800000000000000, 28700000000000000,
    21000000000000000, 18600000000000000, 26300000000000000, 21500000000000000, 23600000000000003,
    26000000000000000, 32100000000000000, 24400000000000000, 30599999999999996, 26700000000000000], 16⟩,
    ⟨[69, 64, 67, 68, 54, 63, 60, 66, 66, 65, 69, 69, 71, 68, 70], 2⟩,
    ⟨[13490000000000000, 14910000000000000, 10800000000000000, 13500000000000000, 15410000000000000,
    9000000000000000, 7880000000000000, 12750000000000000, 9830000000000000, 10950000000000000, 13129999999999999,
    13200000000000000, 11400000000000000, 12530000000000000, 12750000000000000], 15⟩,
    ⟨[61, 85, 54, 74, 89, 52, 50, 67, 65, 64, 72, 100, 68, 84, 78], 2⟩]
  ctr := ⟨[300000000000000, 596, 3000000000000, 14200, 7500000000000], 12⟩
  reftline := ⟨[300], 0⟩
  extra := ⟨[], 0⟩

/-- Group `R03`. -/
def waterR03 : RawTable where
  rows := 15
  cols := [
    ⟨[11, 11, 11, 11, 11, 11, 11, 11, 11, 11, 11, 11, 11, 11, 11], 0⟩,
    ⟨[222351, 1833101, 3212256, 3251529, 3801974, 4391508, 4430183, 4480011, 4708890, 4746891, 4884911, 5569360,
    6207008, 7520332, 9161712], 4⟩,
    ⟨[1314, 227900, 8058, 270100, 2444000, 218500, 46370, 2568000, 83920, 327200, 66760, 153500000, 1711000,
    101400000, 4238000], 17⟩,
    ⟨[2144, 668, 6179, 1541, 1048, 3595, 5048, 1405, 3597, 2379, 2852, 159, 2391, 396, 1441], 3⟩,
    ⟨[28100000000000000, 28700000000000000, 23000000000000000, 27800000000000000, 28700000000000000,
    21000000000000000, 18600000000000000, 26300000000000000, 21500000000000000, 23600000000000003,
    26000000000000000, 32100000000000000, 24400000000000000, 30599999999999996, 26700000000000000], 16⟩,
    ⟨[69, 64, 67, 68, 54, 63, 60, 66, 66, 65, 69, 69, 71, 68, 70], 2⟩,
    ⟨[0, -17, 0, 0, 0, 0, 0, 0, 0, 0, 0, 0, 0, 0, 0], 3⟩,
    ⟨[13490000000000000, 14910000000000000, 10800000000000000, 13500000000000000, 15410000000000000,
    9000000000000000, 7880000000000000, 12750000000000000, 9830000000000000, 10950000000000000, 13129999999999999,
    13200000000000000, 11400000000000000, 12530000000000000, 12750000000000000], 15⟩,
    ⟨[61, 85, 54, 74, 89, 52, 50, 67, 65, 64, 72, 100, 68, 84, 78], 2⟩]
  ctr := ⟨[300000000000000, 596, 3000000000000, 14200, 7500000000000], 12⟩
  reftline := ⟨[300], 0⟩
  extra := ⟨[], 0⟩

/-- Group `R16`. -/
def waterR16 : RawTable where
  rows := 15
  cols := [
    ⟨[11, 11, 11, 11, 11, 11, 11, 11, 11, 11, 11, 11, 11, 11, 11], 0⟩,
    ⟨[22235080, 183310087, 321225630, 325152888, 380197353, 439150807, 443018343, 448001085, 470888999, 474689092,
    488490108, 556935985, 620700807, 752033113, 916171582], 6⟩,
    ⟨[1317, 233400, 7861, 272500, 2473000, 215200, 44940, 2586000, 82530, 327400, 67210, 156100000, 1704000,
    102900000, 4266000], 17⟩,
    ⟨[2144, 668, 6179, 1541, 1048, 3595, 5048, 1405, 3597, 2379, 2852, 159, 2391, 396, 1441], 3⟩,
    ⟨[2665, 2936, 2426, 2847, 2831, 2024, 1568, 2587, 2153, 2340, 2610, 3115, 2468, 3114, 2698], 3⟩,
    ⟨[76, 77, 67, 64, 54, 63, 60, 66, 66, 65, 69, 69, 75, 68, 72], 2⟩,
    ⟨[-88, -240, -590, -45, -278, 182, 0, -464, 240, -190, 690, 600, 0, 520, -208], 4⟩,
    ⟨[1360, 1476, 1065, 1395, 1440, 906, 796, 1301, 970, 1124, 1358, 1424, 1194, 1358, 1391], 2⟩,
    ⟨[100, 85, 54, 74, 89, 52, 50, 67, 65, 64, 72, 100, 68, 84, 78], 2⟩]
  ctr := ⟨[300000000000000, 596, 3000000000000, 14200, 7500000000000], 12⟩
  reftline := ⟨[296], 0⟩
  extra := ⟨[], 0⟩

/-- Group `R17`. -/
def waterR17 : RawTable where
  rows := 15
  cols := [
    ⟨[11, 11, 11, 11, 11, 11, 11, 11, 11, 11, 11, 11, 11, 11, 11], 0⟩,
    ⟨[22235080, 183310087, 321225630, 325152888, 380197353, 439150807, 443018343, 448001085, 470888999, 474689092,
    488490108, 556935985, 620700807, 752033113, 916171582], 6⟩,
    ⟨[1317, 233400, 7861, 272500, 2473000, 215200, 44940, 2586000, 82530, 327400, 67210, 156100000, 1704000,
    102900000, 4266000], 17⟩,
    ⟨[2144, 668, 6179, 1541, 1048, 3595, 5048, 1405, 3597, 2379, 2852, 159, 2391, 396, 1441], 3⟩,
    ⟨[2665, 2936, 2426, 2847, 2831, 2024, 1568, 2587, 2153, 2340, 2610, 3115, 2468, 3114, 2698], 3⟩,
    ⟨[76, 77, 67, 64, 54, 63, 60, 66, 66, 65, 69, 69, 75, 68, 72], 2⟩,
    ⟨[-88, -240, -590, -45, -278, 182, 0, -464, 240, -190, 690, 600, 0, 520, -208], 4⟩,
    ⟨[1360, 1476, 1065, 1395, 1440, 906, 796, 1301, 970, 1124, 1358, 1424, 1194, 1358, 1391], 2⟩,
    ⟨[100, 85, 54, 74, 89, 52, 50, 67, 65, 64, 72, 100, 68, 84, 78], 2⟩]
  ctr := ⟨[300000000000000, 596, 3000000000000, 14200, 7500000000000], 12⟩
  reftline := ⟨[296], 0⟩
  extra := ⟨[], 0⟩

/-- Group `R18`. -/
def waterR18 : RawTable where
  rows := 16
  cols := [
    ⟨[11, 11, 11, 11, 11, 11, 11, 11, 11, 11, 11, 11, 11, 11, 11, 11], 0⟩,
    ⟨[22235080, 183310087, 321225630, 325152888, 380197353, 439150807, 443018343, 448001085, 470888999, 474689092,
    488490108, 556935985, 620700807, 658006072, 752033113, 916171582], 6⟩,
    ⟨[1335, 231900, 7657, 272100, 2477000, 213700, 44400, 2588000, 81960, 326800, 66280, 157000000, 1700000, 90330,
    103500000, 4275000], 17⟩,
    ⟨[2172, 677, 6262, 1561, 1062, 3643, 5116, 1424, 3645, 2411, 2890, 161, 2423, 7921, 402, 1461], 3⟩,
    ⟨[2699, 2945, 2426, 2847, 2868, 2055, 1819, 2612, 2169, 2366, 2616, 3115, 2468, 3154, 3114, 2695], 3⟩,
    ⟨[76, 77, 73, 64, 54, 69, 70, 70, 73, 71, 75, 75, 79, 73, 77, 79], 2⟩,
    ⟨[1329, 1478, 1065, 1395, 1440, 906, 796, 1301, 970, 1124, 1358, 1424, 1194, 1384, 1358, 1355], 2⟩,
    ⟨[120, 78, 54, 74, 89, 52, 50, 67, 65, 64, 72, 100, 75, 100, 84, 48], 2⟩,
    ⟨[-33, -72, -143, -13, -74, 51, 140, -116, 61, -27, -65, 187, 0, 176, 162, 0], 3⟩,
    ⟨[260, 77, 73, 64, 54, 69, 70, 70, 73, 71, 75, 75, 79, 73, 77, 79], 2⟩,
    ⟨[814, 173, 278, 1325, 240, 165, -229, -615, -465, -720, -360, -1693, 687, -1496, -878, 521], 3⟩,
    ⟨[120, 78, 54, 74, 89, 52, 50, 67, 65, 64, 72, 100, 92, 100, 84, 47], 2⟩]
  ctr := ⟨[300000000000000, 595, 3000000000000, 14200, 7500000000000], 12⟩
  reftline := ⟨[296], 0⟩
  extra := ⟨[], 0⟩

/-- Group `R19`. -/
def waterR19 : RawTable where
  rows := 16
  cols := [
    ⟨[11, 11, 11, 11, 11, 11, 11, 11, 11, 11, 11, 11, 11, 11, 11, 11], 0⟩,
    ⟨[22235080, 183310087, 321225630, 325152888, 380197353, 439150807, 443018343, 448001085, 470888999, 474689092,
    488490108, 556935985, 620700807, 658006072, 752033113, 916171582], 6⟩,
    ⟨[1335, 231900, 7657, 272100, 2477000, 213700, 44400, 2588000, 81960, 326800, 66280, 157000000, 1700000, 90330,
    103500000, 4275000], 17⟩,
    ⟨[2172, 677, 6262, 1561, 1062, 3643, 5116, 1424, 3645, 2411, 2890, 161, 2423, 7921, 402, 1461], 3⟩,
    ⟨[2699, 2952, 2426, 2847, 2868, 2055, 1819, 2612, 2169, 2366, 2616, 3115, 2468, 3154, 3114, 2695], 3⟩,
    ⟨[76, 57, 73, 64, 54, 69, 70, 70, 73, 71, 75, 75, 79, 73, 77, 79], 2⟩,
    ⟨[1329, 1479, 1065, 1395, 1440, 906, 796, 1301, 970, 1124, 1358, 1424, 1194, 1384, 1358, 1355], 2⟩,
    ⟨[120, 82, 54, 74, 89, 52, 50, 67, 65, 64, 72, 100, 75, 100, 84, 48], 2⟩,
    ⟨[-33, -73, -143, -13, -74, 51, 140, -116, 61, -27, -65, 187, 0, 176, 162, 0], 3⟩,
    ⟨[260, 200, 73, 64, 54, 69, 70, 70, 73, 71, 75, 75, 79, 73, 77, 79], 2⟩,
    ⟨[814, 112, 278, 1325, 240, 165, -229, -615, -465, -720, -360, -1693, 687, -1496, -878, 521], 3⟩,
    ⟨[120, 143, 54, 74, 89, 52, 50, 67, 65, 64, 72, 100, 92, 100, 84, 47], 2⟩,
    ⟨[0, 0, 0, 0, 0, 0, 0, 0, 0, 0, 0, 0, 0, 0, 0, 0], 0⟩,
    ⟨[0, 183, 0, 0, 0, 0, 0, 0, 0, 0, 0, 0, 0, 0, 0, 0], 1⟩]
  ctr := ⟨[3000000000000000, 5964, 30000000000000, 142000, 75000000000000], 13⟩
  reftline := ⟨[296], 0⟩
  extra := ⟨[], 0⟩

/-- Group `R19SD`. -/
def waterR19SD : RawTable where
  rows := 16
  cols := [
    ⟨[11, 11, 11, 11, 11, 11, 11, 11, 11, 11, 11, 11, 11, 11, 11, 11], 0⟩,
    ⟨[22235080, 183310087, 321225630, 325152888, 380197353, 439150807, 443018343, 448001085, 470888999, 474689092,
    488490108, 556935985, 620700807, 658006072, 752033113, 916171582], 6⟩,
    ⟨[1335, 231900, 7657, 272100, 2477000, 213700, 44400, 2588000, 81960, 326800, 66280, 157000000, 1700000, 90330,
    103500000, 4275000], 17⟩,
    ⟨[2172, 677, 6262, 1561, 1062, 3643, 5116, 1424, 3645, 2411, 2890, 161, 2423, 7921, 402, 1461], 3⟩,
    ⟨[2740, 3028, 2426, 2847, 2868, 2055, 1819, 2612, 2169, 2366, 2616, 3115, 2468, 3154, 3114, 2695], 3⟩,
    ⟨[76, 55, 73, 64, 54, 69, 70, 70, 73, 71, 75, 75, 79, 73, 77, 79], 2⟩,
    ⟨[1363, 1501, 1065, 1395, 1440, 906, 796, 1301, 970, 1124, 1358, 1424, 1194, 1384, 1358, 1355], 2⟩,
    ⟨[120, 79, 54, 74, 89, 52, 50, 67, 65, 64, 72, 100, 75, 100, 84, 48], 2⟩,
    ⟨[-33, -73, -143, -13, -74, 51, 140, -116, 61, -27, -65, 187, 0, 176, 162, 0], 3⟩,
    ⟨[260, 200, 73, 64, 54, 69, 70, 70, 73, 71, 75, 75, 79, 73, 77, 79], 2⟩,
    ⟨[814, 112, 278, 1325, 240, 165, -229, -615, -465, -720, -360, -1693, 687, -1496, -878, 521], 3⟩,
    ⟨[120, 143, 54, 74, 89, 52, 50, 67, 65, 64, 72, 100, 92, 100, 84, 47], 2⟩,
    ⟨[0, 0, 0, 0, 0, 0, 0, 0, 0, 0, 0, 0, 0, 0, 0, 0], 0⟩,
    ⟨[0, 183, 0, 0, 0, 0, 0, 0, 0, 0, 0, 0, 0, 0, 0, 0], 1⟩,
    ⟨[0, 406, 0, 0, 0, 0, 0, 0, 0, 0, 0, 0, 0, 0, 0, 0], 3⟩,
    ⟨[0, 1499, 0, 0, 0, 0, 0, 0, 0, 0, 0, 0, 0, 0, 0, 0], 3⟩]
  ctr := ⟨[3000000000000000, 5929, 30000000000000, 142000, 75000000000000], 13⟩
  reftline := ⟨[296], 0⟩
  extra := ⟨[], 0⟩

/-- Group `R20`. -/
def waterR20 : RawTable where
  rows := 16
  cols := [
    ⟨[11, 11, 11, 11, 11, 11, 11, 11, 11, 11, 11, 11, 11, 11, 11, 11], 0⟩,
    ⟨[22235080, 183310087, 321225630, 325152888, 380197353, 439150807, 443018343, 448001085, 470888999, 474689092,
    488490108, 556935985, 620700807, 658006072, 752033113, 916171582], 6⟩,
    ⟨[1335, 231900, 7657, 272100, 2477000, 213700, 44400, 2588000, 81960, 326800, 66280, 157000000, 1700000, 90330,
    103500000, 4275000], 17⟩,
    ⟨[2172, 677, 6262, 1561, 1062, 3643, 5116, 1424, 3645, 2411, 2890, 161, 2423, 7921, 402, 1461], 3⟩,
    ⟨[2699, 2959, 2426, 2847, 2868, 2055, 1819, 2612, 2169, 2366, 2616, 3115, 2468, 3154, 3114, 2695], 3⟩,
    ⟨[76, 63, 73, 64, 54, 69, 70, 70, 73, 71, 75, 75, 79, 73, 77, 79], 2⟩,
    ⟨[1329, 1481, 1065, 1395, 1440, 906, 796, 1301, 970, 1124, 1358, 1424, 1194, 1384, 1358, 1355], 2⟩,
    ⟨[120, 83, 54, 74, 89, 52, 50, 67, 65, 64, 72, 100, 75, 100, 84, 48], 2⟩,
    ⟨[-33, -72, -143, -13, -74, 51, 140, -116, 61, -27, -65, 187, 0, 176, 162, 0], 3⟩,
    ⟨[260, 180, 73, 64, 54, 69, 70, 70, 73, 71, 75, 75, 79, 73, 77, 79], 2⟩,
    ⟨[814, 108, 278, 1325, 240, 165, -229, -615, -465, -720, -360, -1693, 687, -1496, -878, 521], 3⟩,
    ⟨[120, 125, 54, 74, 89, 52, 50, 67, 65, 64, 72, 100, 92, 100, 84, 47], 2⟩,
    ⟨[0, 0, 0, 0, 0, 0, 0, 0, 0, 0, 0, 0, 0, 0, 0, 0], 0⟩,
    ⟨[0, 173, 0, 0, 0, 0, 0, 0, 0, 0, 0, 0, 0, 0, 0, 0], 1⟩]
  ctr := ⟨[3000000000000000, 5954, 30000000000000, 142000, 75000000000000], 13⟩
  reftline := ⟨[296], 0⟩
  extra := ⟨[], 0⟩

/-- Group `R20SD`. -/
def waterR20SD : RawTable where
  rows := 16
  cols := [
    ⟨[11, 11, 11, 11, 11, 11, 11, 11, 11, 11, 11, 11, 11, 11, 11, 11], 0⟩,
    ⟨[22235080, 183310087, 321225630, 325152888, 380197353, 439150807, 443018343, 448001085, 470888999, 474689092,
    488490108, 556935985, 620700807, 658006072, 752033113, 916171582], 6⟩,
    ⟨[1335, 231900, 7657, 272100, 2477000, 213700, 44400, 2588000, 81960, 326800, 66280, 157000000, 1700000, 90330,
    103500000, 4275000], 17⟩,
    ⟨[2172, 677, 6262, 1561, 1062, 3643, 5116, 1424, 3645, 2411, 2890, 161, 2423, 7921, 402, 1461], 3⟩,
    ⟨[2740, 3033, 2426, 2847, 2868, 2055, 1819, 2612, 2169, 2366, 2616, 3115, 2468, 3154, 3114, 2695], 3⟩,
    ⟨[76, 62, 73, 64, 54, 69, 70, 70, 73, 71, 75, 75, 79, 73, 77, 79], 2⟩,
    ⟨[1363, 1501, 1065, 1395, 1440, 906, 796, 1301, 970, 1124, 1358, 1424, 1194, 1384, 1358, 1355], 2⟩,
    ⟨[120, 82, 54, 74, 89, 52, 50, 67, 65, 64, 72, 100, 75, 100, 84, 48], 2⟩,
    ⟨[-33, -74, -143, -13, -74, 51, 140, -116, 61, -27, -65, 187, 0, 176, 162, 0], 3⟩,
    ⟨[260, 180, 73, 64, 54, 69, 70, 70, 73, 71, 75, 75, 79, 73, 77, 79], 2⟩,
    ⟨[814, 136, 278, 1325, 240, 165, -229, -615, -465, -720, -360, -1693, 687, -1496, -878, 521], 3⟩,
    ⟨[120, 98, 54, 74, 89, 52, 50, 67, 65, 64, 72, 100, 92, 100, 84, 47], 2⟩,
    ⟨[0, 0, 0, 0, 0, 0, 0, 0, 0, 0, 0, 0, 0, 0, 0, 0], 0⟩,
    ⟨[0, 126, 0, 0, 0, 0, 0, 0, 0, 0, 0, 0, 0, 0, 0, 0], 1⟩,
    ⟨[435, 413, 0, 0, 0, 0, 0, 0, 0, 0, 0, 0, 0, 0, 0, 0], 3⟩,
    ⟨[191, 148, 0, 0, 0, 0, 0, 0, 0, 0, 0, 0, 0, 0, 0, 0], 2⟩]
  ctr := ⟨[3000000000000000, 5919, 30000000000000, 142000, 75000000000000], 13⟩
  reftline := ⟨[296], 0⟩
  extra := ⟨[-15999999959603883, 159999995958060030], 21⟩

/-- Group `R21SD`. -/
def waterR21SD : RawTable where
  rows := 16
  cols := [
    ⟨[11, 11, 11, 11, 11, 11, 11, 11, 11, 11, 11, 11, 11, 11, 11, 11], 0⟩,
    ⟨[22235080, 183310087, 321225630, 325152888, 380197353, 439150807, 443018343, 448001085, 470888999, 474689092,
    488490108, 556935985, 620700807, 658006072, 752033113, 916171582], 6⟩,
    ⟨[1335, 231900, 7657, 272100, 2477000, 213700, 44400, 2588000, 81960, 326800, 66280, 157000000, 1700000, 90330,
    103500000, 4275000], 17⟩,
    ⟨[2172, 677, 6262, 1561, 1062, 3643, 5116, 1424, 3645, 2411, 2890, 161, 2423, 7921, 402, 1461], 3⟩,
    ⟨[2740, 3033, 2426, 2847, 2868, 2055, 1819, 2612, 2169, 2366, 2616, 3115, 2468, 3154, 3114, 2695], 3⟩,
    ⟨[76, 62, 73, 64, 54, 69, 70, 70, 73, 71, 75, 75, 79, 73, 77, 79], 2⟩,
    ⟨[1363, 1501, 1065, 1395, 1440, 906, 796, 1301, 970, 1124, 1358, 1424, 1194, 1384, 1358, 1355], 2⟩,
    ⟨[120, 82, 54, 74, 89, 52, 50, 67, 65, 64, 72, 100, 75, 100, 84, 48], 2⟩,
    ⟨[-33, -74, -143, -13, -74, 51, 140, -116, 61, -27, -65, 187, 0, 176, 162, 0], 3⟩,
    ⟨[26, 18, 0, 0, 0, 0, 0, 0, 0, 0, 0, 0, 0, 0, 0, 0], 1⟩,
    ⟨[814, 136, 278, 1325, 240, 165, -229, -615, -465, -720, -360, -1693, 687, -1496, -878, 521], 3⟩,
    ⟨[0, 98, 0, 0, 0, 0, 0, 0, 0, 0, 0, 0, 92, 0, 0, 47], 2⟩,
    ⟨[0, 0, 0, 0, 0, 0, 0, 0, 0, 0, 0, 0, 0, 0, 0, 0], 0⟩,
    ⟨[0, 126, 0, 0, 0, 0, 0, 0, 0, 0, 0, 0, 0, 0, 0, 0], 1⟩,
    ⟨[435, 407, 0, 0, 0, 0, 0, 0, 0, 0, 0, 0, 0, 0, 0, 0], 3⟩,
    ⟨[0, 412, 0, 0, 0, 0, 0, 0, 0, 0, 0, 0, 0, 0, 0, 0], 3⟩,
    ⟨[191, 146, 0, 0, 0, 0, 0, 0, 0, 0, 0, 0, 0, 0, 0, 0], 2⟩,
    ⟨[0, 571, 0, 0, 0, 0, 0, 0, 0, 0, 0, 0, 0, 0, 0, 0], 3⟩,
    ⟨[0, -16, 0, 0, 0, 0, 0, 0, 0, 0, 0, 0, 0, 0, 0, 0], 3⟩,
    ⟨[0, 16, 0, 0, 0, 0, 0, 0, 0, 0, 0, 0, 0, 0, 0, 0], 2⟩]
  ctr := ⟨[3000000000000000, 5919, 30000000000000, 141600, 75000000000000], 13⟩
  reftline := ⟨[296], 0⟩
  extra := ⟨[], 0⟩

/-- Group `R22SD`. -/
def waterR22SD : RawTable where
  rows := 20
  cols := [
    ⟨[11, 11, 11, 11, 11, 11, 11, 11, 11, 11, 11, 11, 11, 11, 11, 11, 11, 11, 11, 11], 0⟩,
    ⟨[22235080, 183310087, 321225630, 325152888, 380197353, 439150807, 443018343, 448001085, 470888999, 474689092,
    488490108, 556935985, 620700807, 658006072, 752033113, 859965608, 916171582, 970315045, 987926803, 1097364870], 6⟩,
    ⟨[1334, 231900, 7654, 272000, 2476000, 213600, 44400, 2587000, 81930, 326800, 66280, 157000000, 1700000, 90270,
    103500000, 57050, 4272000, 4806000, 75280000, 489000000], 17⟩,
    ⟨[2172, 677, 6262, 1561, 1062, 3643, 5116, 1424, 3645, 2411, 2890, 161, 2423, 7921, 402, 8163, 1461, 1944, 261,
    754], 3⟩,
    ⟨[2740, 3033, 2426, 2847, 2868, 2055, 1819, 2612, 2169, 2366, 2616, 3115, 2468, 3154, 3114, 3121, 2695, 2574,
    2976, 3095], 3⟩,
    ⟨[76, 62, 73, 64, 54, 69, 70, 70, 73, 71, 75, 75, 79, 73, 77, 76, 79, 70, 75, 75], 2⟩,
    ⟨[1363, 1501, 1065, 1395, 1440, 906, 796, 1301, 970, 1124, 1358, 1424, 1194, 1384, 1358, 1408, 1355, 2595, 1435,
    1527], 2⟩,
    ⟨[120, 82, 54, 74, 89, 52, 50, 67, 65, 64, 72, 100, 75, 100, 84, 76, 48, 70, 75, 75], 2⟩,
    ⟨[-33, -74, -143, -13, -74, 51, 140, -116, 61, -27, -65, 187, 1, 176, 162, 5, -1, -3, -2, 2], 3⟩,
    ⟨[26, 18, 0, 0, 0, 0, 0, 0, 0, 0, 0, 0, 0, 0, 0, 0, 0, 0, 0, 0], 1⟩,
    ⟨[814, 136, 278, 1325, 240, 165, -229, -615, -465, -720, -360, -1693, 687, -1496, -878, 0, 521, 0, 0, 0], 3⟩,
    ⟨[0, 98, 0, 0, 0, 0, 0, 0, 0, 0, 0, 0, 92, 0, 0, 0, 47, 0, 0, 0], 2⟩,
    ⟨[0, 0, 0, 0, 0, 0, 0, 0, 0, 0, 0, 0, 0, 0, 0, 0, 0, 0, 0, 0], 0⟩,
    ⟨[0, 126, 0, 0, 0, 0, 0, 0, 0, 0, 0, 0, 0, 0, 0, 0, 0, 0, 0, 0], 1⟩,
    ⟨[435, 407, 0, 0, 0, 0, 0, 0, 0, 0, 0, 0, 0, 0, 0, 0, 0, 0, 0, 0], 3⟩,
    ⟨[0, 412, 0, 0, 0, 0, 0, 0, 0, 0, 0, 0, 0, 0, 0, 0, 0, 0, 0, 0], 3⟩,
    ⟨[191, 146, 0, 0, 0, 0, 0, 0, 0, 0, 0, 0, 0, 0, 0, 0, 0, 0, 0, 0], 2⟩,
    ⟨[0, 571, 0, 0, 0, 0, 0, 0, 0, 0, 0, 0, 0, 0, 0, 0, 0, 0, 0, 0], 3⟩,
    ⟨[0, -16, 0, 0, 0, 0, 0, 0, 0, 0, 0, 0, 0, 0, 0, 0, 0, 0, 0, 0], 3⟩,
    ⟨[0, 16, 0, 0, 0, 0, 0, 0, 0, 0, 0, 0, 0, 0, 0, 0, 0, 0, 0, 0], 2⟩]
  ctr := ⟨[3000000000000000, 5919, 30000000000000, 141600, 75000000000000], 13⟩
  reftline := ⟨[296], 0⟩
  extra := ⟨[], 0⟩

/-- Group `R23SD`. -/
def waterR23SD : RawTable where
  rows := 20
  cols := [
    ⟨[11, 11, 11, 11, 11, 11, 11, 11, 11, 11, 11, 11, 11, 11, 11, 11, 11, 11, 11, 11], 0⟩,
    ⟨[22235080, 183310087, 321225630, 325152888, 380197353, 439150807, 443018343, 448001085, 470888999, 474689092,
    488490108, 556935985, 620700807, 658006072, 752033113, 859965608, 916171582, 970315045, 987926803, 1097364870], 6⟩,
    ⟨[1334, 231900, 7654, 272000, 2476000, 213600, 44400, 2587000, 81930, 326800, 66280, 157000000, 1700000, 90270,
    103500000, 57050, 4272000, 4806000, 75280000, 489000000], 17⟩,
    ⟨[2172, 677, 6262, 1561, 1062, 3643, 5116, 1424, 3645, 2411, 2890, 161, 2423, 7921, 402, 8163, 1461, 1944, 261,
    754], 3⟩,
    ⟨[2740, 3033, 2426, 2847, 2868, 2055, 1819, 2612, 2169, 2366, 2616, 3115, 2468, 3154, 3114, 3121, 2695, 2574,
    2976, 3095], 3⟩,
    ⟨[76, 62, 73, 64, 54, 69, 70, 70, 73, 71, 75, 75, 79, 73, 77, 76, 79, 70, 75, 75], 2⟩,
    ⟨[1363, 1501, 1065, 1395, 1440, 906, 796, 1301, 970, 1124, 1358, 1424, 1194, 1384, 1358, 1408, 1355, 2595, 1435,
    1527], 2⟩,
    ⟨[120, 82, 54, 74, 89, 52, 50, 67, 65, 64, 72, 100, 75, 100, 84, 76, 48, 70, 75, 75], 2⟩,
    ⟨[-33, -74, -143, -13, -74, 51, 140, -116, 61, -27, -65, 187, 1, 176, 162, 5, -1, -3, -2, 2], 3⟩,
    ⟨[26, 18, 0, 0, 0, 0, 0, 0, 0, 0, 0, 0, 0, 0, 0, 0, 0, 0, 0, 0], 1⟩,
    ⟨[814, 136, 278, 1325, 240, 165, -229, -615, -465, -720, -360, -1693, 687, -1496, -878, 0, 521, 0, 0, 0], 3⟩,
    ⟨[0, 98, 0, 0, 0, 0, 0, 0, 0, 0, 0, 0, 92, 0, 0, 0, 47, 0, 0, 0], 2⟩,
    ⟨[0, 0, 0, 0, 0, 0, 0, 0, 0, 0, 0, 0, 0, 0, 0, 0, 0, 0, 0, 0], 0⟩,
    ⟨[0, 126, 0, 0, 0, 0, 0, 0, 0, 0, 0, 0, 0, 0, 0, 0, 0, 0, 0, 0], 1⟩,
    ⟨[435, 407, 0, 0, 0, 0, 0, 0, 0, 0, 0, 0, 0, 0, 0, 0, 0, 0, 0, 0], 3⟩,
    ⟨[0, 412, 0, 0, 0, 0, 0, 0, 0, 0, 0, 0, 0, 0, 0, 0, 0, 0, 0, 0], 3⟩,
    ⟨[191, 146, 0, 0, 0, 0, 0, 0, 0, 0, 0, 0, 0, 0, 0, 0, 0, 0, 0, 0], 2⟩,
    ⟨[0, 571, 0, 0, 0, 0, 0, 0, 0, 0, 0, 0, 0, 0, 0, 0, 0, 0, 0, 0], 3⟩,
    ⟨[0, -16, 0, 0, 0, 0, 0, 0, 0, 0, 0, 0, 0, 0, 0, 0, 0, 0, 0, 0], 3⟩,
    ⟨[0, 16, 0, 0, 0, 0, 0, 0, 0, 0, 0, 0, 0, 0, 0, 0, 0, 0, 0, 0], 2⟩]
  ctr := ⟨[2960000000000000, 5547, 30000000000000, -10000000000000, 0], 13⟩
  reftline := ⟨[296], 0⟩
  extra := ⟨[], 0⟩

/-- Group `R24`. -/
def waterR24 : RawTable where
  rows := 20
  cols := [
    ⟨[11, 11, 11, 11, 11, 11, 11, 11, 11, 11, 11, 11, 11, 11, 11, 11, 11, 11, 11, 11], 0⟩,
    ⟨[22235080, 183310087, 321225630, 325152888, 380197353, 439150807, 443018343, 448001085, 470888999, 474689092,
    488490108, 556935985, 620700807, 658006072, 752033113, 859965608, 916171582, 970315045, 987926803, 1097364870], 6⟩,
    ⟨[1334, 231900, 7654, 272000, 2476000, 213600, 44400, 2587000, 81930, 326800, 66280, 157000000, 1700000, 90270,
    103500000, 57050, 4272000, 4806000, 75280000, 489000000], 17⟩,
    ⟨[2172, 677, 6262, 1561, 1062, 3643, 5116, 1424, 3645, 2411, 2890, 161, 2423, 7921, 402, 8163, 1461, 1944, 261,
    754], 3⟩,
    ⟨[2740, 3033, 2426, 2847, 2868, 2055, 1819, 2612, 2169, 2366, 2616, 3115, 2468, 3154, 3114, 3121, 2695, 2574,
    2976, 3095], 3⟩,
    ⟨[76, 62, 73, 64, 54, 69, 70, 70, 73, 71, 75, 75, 79, 73, 77, 76, 79, 70, 75, 75], 2⟩,
    ⟨[1363, 1501, 1065, 1395, 1440, 906, 796, 1301, 970, 1124, 1358, 1424, 1194, 1384, 1358, 1408, 1355, 2595, 1435,
    1527], 2⟩,
    ⟨[120, 82, 54, 74, 89, 52, 50, 67, 65, 64, 72, 100, 75, 100, 84, 76, 48, 70, 75, 75], 2⟩,
    ⟨[-33, -74, -143, -13, -74, 51, 140, -116, 61, -27, -65, 187, 1, 176, 162, 5, -1, -3, -2, 2], 3⟩,
    ⟨[26, 18, 0, 0, 0, 0, 0, 0, 0, 0, 0, 0, 0, 0, 0, 0, 0, 0, 0, 0], 1⟩,
    ⟨[814, 136, 278, 1325, 240, 165, -229, -615, -465, -720, -360, -1693, 687, -1496, -878, 0, 521, 0, 0, 0], 3⟩,
    ⟨[0, 98, 0, 0, 0, 0, 0, 0, 0, 0, 0, 0, 92, 0, 0, 0, 47, 0, 0, 0], 2⟩,
    ⟨[0, 0, 0, 0, 0, 0, 0, 0, 0, 0, 0, 0, 0, 0, 0, 0, 0, 0, 0, 0], 0⟩,
    ⟨[0, 126, 0, 0, 0, 0, 0, 0, 0, 0, 0, 0, 0, 0, 0, 0, 0, 0, 0, 0], 1⟩,
    ⟨[435, 407, 0, 0, 0, 0, 0, 0, 0, 0, 0, 0, 0, 0, 0, 0, 0, 0, 0, 0], 3⟩,
    ⟨[0, 412, 0, 0, 0, 0, 0, 0, 0, 0, 0, 0, 0, 0, 0, 0, 0, 0, 0, 0], 3⟩,
    ⟨[191, 146, 0, 0, 0, 0, 0, 0, 0, 0, 0, 0, 0, 0, 0, 0, 0, 0, 0, 0], 2⟩,
    ⟨[0, 571, 0, 0, 0, 0, 0, 0, 0, 0, 0, 0, 0, 0, 0, 0, 0, 0, 0, 0], 3⟩,
    ⟨[0, -16, 0, 0, 0, 0, 0, 0, 0, 0, 0, 0, 0, 0, 0, 0, 0, 0, 0, 0], 3⟩,
    ⟨[0, 16, 0, 0, 0, 0, 0, 0, 0, 0, 0, 0, 0, 0, 0, 0, 0, 0, 0, 0], 2⟩]
  ctr := ⟨[2960000000000000, 5547, 30000000000000, -10000000000000, 0], 13⟩
  reftline := ⟨[296], 0⟩
  extra := ⟨[], 0⟩

/-- Group `MWL24`. -/
def waterMWL24 : RawTable where
  rows := 83
  cols := [
    ⟨[11, 11, 11, 11, 11, 11, 11, 11, 11, 11, 11, 11, 11, 11, 11, 11, 11, 11, 11, 11, 11, 11, 11, 11, 11, 11, 11, 11,
    11, 11, 11, 11, 11, 11, 11, 11, 11, 11, 11, 11, 11, 11, 11, 11, 11, 11, 11, 11, 11, 11, 11, 11, 11, 11, 11, 11,
    11, 11, 11, 11, 11, 11, 11, 11, 11, 11, 11, 11, 11, 11, 11, 11, 11, 11, 11, 11, 11, 11, 11, 11, 11, 11, 11], 0⟩,
    ⟨[222350800000000, 1833100870000000, 3212256300000000, 3251528880000000, 3801973530000000, 4391508070000000,
    4430183430000000, 4480010850000000, 4708889990000000, 4746890920000000, 4884901080000000, 5569359850000000,
    6207008070000000, 6580060720000000, 7520331130000000, 8599656080000000, 9161715820000000, 9703150450000000,
    9879268030000000, 10008535834819955, 10686774599893295, 10777630601592148, 10973648701085617,
    11011302933602874, 11095978114195143, 11133430286595708, 11466213705428777, 11531268069229861,
    11533705981498317, 11551719910714621, 11583238590786450, 11629116130426648, 11683584822535754,
    11725258372537417, 11908289462750324, 11968381361994136, 12057890695971653, 12076386991252878,
    12146620869350827, 12150685455496393, 12158014781509576, 12199442801488137, 12228238466663954,
    12287887272654840, 12714729376015575, 12782659049281340, 12964110533033045, 13079632858591224,
    13220647436230515, 13329796174131613, 13352792653999875, 13359847370121533, 13446761700582604,
    13605793505155236, 13781639769319715, 14066758285877990, 14106180394520075, 14219577491343490,
    14284715497240356, 14350086142084630, 14407816875929232, 14735701985791038, 14940575354908910,
    15291308847164728, 15292458551241160, 15386908464926516, 15419670084529214, 15742321417659255,
    15920679942621775, 15962524674116960, 16022192367032696, 16439191384619921, 16466333394597410,
    16610077282774332, 16699048189497285, 16934703648617678, 17138829934930213, 17167696950711036,
    17169568255233871, 17197357517128180, 17393515619699535, 17403980774823399, 17424769583030950], 13⟩,
    ⟨[133400000000000000, 23190000000000000000, 765400000000000000, 27200000000000000000, 247600000000000000000,
    21360000000000000000, 4440000000000000000, 258700000000000000000, 8193000000000000000, 32680000000000000000,
    6628000000000000000, 15700000000000000000000, 170000000000000000000, 9027000000000000000,
    10350000000000000000000, 5705000000000000000, 427200000000000000000, 480600000000000000000,
    7528000000000000000000, 3770106320521408, 5607197449719195, 70576855406522575, 47409741008253010000000,
    29649255566166815, 729313551132475800, 14525228437660351000000, 32962995894150166000, 7342550937268371000000,
    500258517935030300, 6764099774751978, 708093985874336900000, 51682721957494710000000, 32236298453802936000,
    58019523637322510000, 11159165893972001000, 6069377021780030, 7025710853276980000, 16118149226901470000000,
    25251282657185403000, 41189210918880756, 1742039104000370000, 5261289468113915000, 68164219904569780,
    13929336536575625000000, 75169583229517040, 207690128451237160000, 201353326771409330000, 15219951190632298000,
    1653963374230286000000, 4223565523298077, 767392497006670500, 256030042183134640, 11060335042084777000,
    16490218316359250, 5615917819003361, 29067897613889036000, 41043871430811310000000, 8798852607724212000,
    19109235891370650, 2316420760850817000, 271755774792248550000, 1758607805640286600, 7903561361216428000,
    33515285948814055, 100516789948828280, 17397136721912587, 443576117587946640000, 66013195481141996000,
    21315489320264830000, 7618695964600315000, 20021967876446768000000, 42497266311505760000, 37468520024302970,
    52700098373980820000000, 125398910306317300000000, 3075383567549460000, 228415539449940020000,
    117201763179200590000000, 62583183562703090000, 5915317164426419, 10438282033147552000, 220014917039526100,
    20083010461435932], 31⟩,
    ⟨[217200000000000000, 67700000000000000, 626200000000000000, 156100000000000000, 106200000000000000,
    364300000000000000, 511600000000000000, 142400000000000000, 364500000000000000, 241100000000000000,
    289000000000000000, 16100000000000000, 242300000000000000, 792100000000000000, 40200000000000000,
    816300000000000000, 146100000000000000, 194400000000000000, 26100000000000000, 1553478249066870200,
    1232125955270610800, 1103507091377259300, 74379120886082250, 1018926344689759500, 698624208284666200,
    8906744229276567, 366123954940209640, 73932986058796380, 860518156156724800, 1305250647379664700,
    302027692579300530, 92461307808559570, 592716369555758300, 435628816925512500, 592893878828645800,
    1497084347592475800, 774594925651432750, 141808186075603950, 840452558640829200, 1316416149823168000,
    772729731618392600, 772762586233615900, 1160585346603409600, 55483137023503390, 1068152702551344500,
    436458476723985700, 414422737428862900, 528063587345523900, 254637366139611250, 1522399636022975900,
    974721291771097100, 974726887577201300, 434251574450638000, 1588628785257028200, 1388763187731022900,
    861423278273721800, 202891897582072020, 910978288054317500, 1318063127564203500, 631699388013651500,
    328850046809857300, 973434316085824500, 824341958737060500, 1197614824349396000, 1197615744112657200,
    1565434624640298700, 304988049087135700, 350382778729739900, 972486315013310700, 589293221032168700,
    119329361442078000, 817583928024369800, 1134476820280075800, 51419935679261390, 24772649211814146,
    744968402946315300, 169770018581765300, 51866031413610750, 228001689314975580, 1663132048041462600,
    885687824597845700, 1247695829590911200, 1613453215581524000], 17⟩,
    ⟨[27400000000000000, 30330000000000000, 24260000000000000, 28470000000000000, 28680000000000000,
    20550000000000000, 18190000000000000, 26120000000000000, 21690000000000000, 23660000000000000,
    26160000000000000, 31150000000000000, 24680000000000000, 31540000000000000, 31140000000000000,
    31210000000000000, 26950000000000000, 25740000000000000, 29760000000000000, 31628104319000000,
    12591283236000002, 25482358930000000, 31358291106800000, 19246675803600000, 20475824881400000,
    31328311860999998, 26651549516200004, 27700823119200000, 18856945608200000, 10492736030000000,
    22904143791200000, 29859328816799997, 17387962564000001, 21015451305800000, 18707049379200000,
    18047505971600000, 31328311860999998, 27730802365000002, 30249059012200004, 19516489015800003,
    14929664408399999, 15049581391600002, 22304558875200000, 31178415632000000, 19876239965400000,
    27131217449000000, 29079868426000000, 20685679602000000, 26231840075000000, 31328311860999998,
    12771158710800000, 12801137956600002, 22394496612600000, 30249059012200004, 10972403962800001,
    29829349571000003, 28929972197000002, 29409640129800003, 22874164545400000, 18737028625000000,
    26681528761999997, 27161196694800003, 30338996749600002, 11062341700200000, 11092320946000000,
    29679453342000004, 26981321220000000, 26381736304000000, 28360366526800003, 22394496612600000,
    28840034459600000, 29679453342000004, 24732877785000000, 29649474096200000, 31178415632000000,
    16638481419000002, 26831424991000000, 29679453342000004, 25542317421600000, 29409640129800003,
    28840034459600000, 22664309824800000, 29829349571000003], 16⟩,
    ⟨[76, 62, 73, 64, 54, 69, 70, 70, 73, 71, 75, 75, 79, 73, 77, 76, 79, 70, 75, 76, 42, 71, 75, 62, 64, 75, 69, 74,
    59, 50, 65, 75, 57, 62, 59, 58, 75, 75, 75, 59, 53, 53, 64, 75, 62, 67, 71, 63, 71, 75, 48, 48, 66, 75, 37, 75,
    74, 75, 69, 58, 71, 72, 75, 45, 45, 74, 71, 69, 74, 68, 73, 74, 69, 74, 76, 53, 71, 74, 69, 75, 73, 67, 75], 2⟩,
    ⟨[13630000000000000, 15010000000000000, 10650000000000000, 13950000000000000, 14400000000000000,
    9060000000000000, 7960000000000000, 13010000000000000, 9700000000000000, 11240000000000000, 13580000000000000,
    14240000000000000, 11940000000000000, 13840000000000000, 13580000000000000, 14080000000000000,
    13550000000000000, 25950000000000000, 14350000000000000, 14270121000800000, 7824583153800001,
    11122300191800000, 15469290832800000, 9653317147600001, 9953109605600002, 14989622900000000, 13640556839000000,
    15709124799200001, 9323545443800000, 4856637819600000, 12351449269600000, 14839726671000001, 8454147315600000,
    9113690723200000, 8843877511000000, 9983088851400002, 13490660610000000, 14899685162600000, 13610577593200000,
    10552694521600000, 7494811450000000, 7584749187400000, 11122300191800000, 14420017229800000, 11631947370400000,
    23054040020200002, 12171573794800000, 9923130359800000, 12321470023800000, 13490660610000000, 6805288796600000,
    6805288796600000, 10732569996400000, 13610577593200000, 7644707679000001, 14000307788600000, 12831117202400000,
    14210162509200000, 10552694521600000, 9923130359800000, 13070951168800000, 13700515330600002,
    13850411559600001, 6085786897400000, 6085786897400000, 13640556839000000, 26951341974200000, 10972403962800000,
    14390037984000000, 10492736030000000, 14959643654200000, 15229456866400001, 9983088851400002,
    15649166307600002, 14779768179400000, 9053732231600000, 13400722872600001, 15439311587000000,
    12621262481800000, 14210162509200000, 14360058738200000, 10552694521600000, 14000307788600000], 15⟩,
    ⟨[120, 82, 54, 74, 89, 52, 50, 67, 65, 64, 72, 100, 75, 100, 84, 76, 48, 70, 75, 0, 0, 0, 0, 0, 0, 0, 0, 0, 0, 0,
    0, 0, 0, 0, 0, 0, 0, 0, 0, 0, 0, 0, 0, 0, 0, 0, 0, 0, 0, 0, 0, 0, 0, 0, 0, 0, 0, 0, 0, 0, 0, 0, 0, 0, 0, 0, 0,
    0, 0, 0, 0, 0, 0, 0, 0, 0, 0, 0, 0, 0, 0, 0, 0], 2⟩,
    ⟨[-3300, -7400, -14300, -1300, -7400, 5100, 14000, -11600, 6100, -2700, -6500, 18700, 100, 17600, 16200, 500,
    -100, -300, -200, 483, 1210, -379, 236, 1622, 1314, 643, -65, -237, -430, 630, -136, 326, 359, 189, 439, 664,
    643, 364, 236, 141, 434, 449, -372, 246, -442, 400, -360, 972, -325, 643, 466, 469, 844, 236, 996, 326, 355,
    364, 496, 1042, -379, -49, 246, 485, 485, -46, 156, 679, 355, 1012, 55, -46, -65, 423, 598, 986, 439, -46, 436,
    364, 55, -666, 326], 5⟩,
    ⟨[26, 18, 0, 0, 0, 0, 0, 0, 0, 0, 0, 0, 0, 0, 0, 0, 0, 0, 0, 0, 0, 0, 0, 0, 0, 0, 0, 0, 0, 0, 0, 0, 0, 0, 0, 0,
    0, 0, 0, 0, 0, 0, 0, 0, 0, 0, 0, 0, 0, 0, 0, 0, 0, 0, 0, 0, 0, 0, 0, 0, 0, 0, 0, 0, 0, 0, 0, 0, 0, 0, 0, 0, 0,
    0, 0, 0, 0, 0, 0, 0, 0, 0, 0], 1⟩,
    ⟨[81400, 13600, 27800, 132500, 24000, 16500, -22900, -61500, -46500, -72000, -36000, -169300, 68700, -149600,
    -87800, 0, 52100, 0, 0, 483, 1210, -379, 236, 1622, 1314, 643, -65, -237, -430, 630, -136, 326, 359, 189, 439,
    664, 643, 364, 236, 141, 434, 449, -372, 246, -442, 400, -360, 972, -325, 643, 466, 469, 844, 236, 996, 326,
    355, 364, 496, 1042, -379, -49, 246, 485, 485, -46, 156, 679, 355, 1012, 55, -46, -65, 423, 598, 986, 439, -46,
    436, 364, 55, -666, 326], 5⟩,
    ⟨[0, 98, 0, 0, 0, 0, 0, 0, 0, 0, 0, 0, 92, 0, 0, 0, 47, 0, 0, 0, 0, 0, 0, 0, 0, 0, 0, 0, 0, 0, 0, 0, 0, 0, 0, 0,
    0, 0, 0, 0, 0, 0, 0, 0, 0, 0, 0, 0, 0, 0, 0, 0, 0, 0, 0, 0, 0, 0, 0, 0, 0, 0, 0, 0, 0, 0, 0, 0, 0, 0, 0, 0, 0,
    0, 0, 0, 0, 0, 0, 0, 0, 0, 0], 2⟩,
    ⟨[0, 0, 0, 0, 0, 0, 0, 0, 0, 0, 0, 0, 0, 0, 0, 0, 0, 0, 0, 0, 0, 0, 0, 0, 0, 0, 0, 0, 0, 0, 0, 0, 0, 0, 0, 0, 0,
    0, 0, 0, 0, 0, 0, 0, 0, 0, 0, 0, 0, 0, 0, 0, 0, 0, 0, 0, 0, 0, 0, 0, 0, 0, 0, 0, 0, 0, 0, 0, 0, 0, 0, 0, 0, 0,
    0, 0, 0, 0, 0, 0, 0, 0, 0], 0⟩,
    ⟨[0, 126, 0, 0, 0, 0, 0, 0, 0, 0, 0, 0, 0, 0, 0, 0, 0, 0, 0, 0, 0, 0, 0, 0, 0, 0, 0, 0, 0, 0, 0, 0, 0, 0, 0, 0,
    0, 0, 0, 0, 0, 0, 0, 0, 0, 0, 0, 0, 0, 0, 0, 0, 0, 0, 0, 0, 0, 0, 0, 0, 0, 0, 0, 0, 0, 0, 0, 0, 0, 0, 0, 0, 0,
    0, 0, 0, 0, 0, 0, 0, 0, 0, 0], 1⟩,
    ⟨[435, 407, 0, 0, 0, 0, 0, 0, 0, 0, 0, 0, 0, 0, 0, 0, 0, 0, 0, 0, 0, 0, 0, 0, 0, 0, 0, 0, 0, 0, 0, 0, 0, 0, 0, 0,
    0, 0, 0, 0, 0, 0, 0, 0, 0, 0, 0, 0, 0, 0, 0, 0, 0, 0, 0, 0, 0, 0, 0, 0, 0, 0, 0, 0, 0, 0, 0, 0, 0, 0, 0, 0, 0,
    0, 0, 0, 0, 0, 0, 0, 0, 0, 0], 3⟩,
    ⟨[0, 412, 0, 0, 0, 0, 0, 0, 0, 0, 0, 0, 0, 0, 0, 0, 0, 0, 0, 0, 0, 0, 0, 0, 0, 0, 0, 0, 0, 0, 0, 0, 0, 0, 0, 0,
    0, 0, 0, 0, 0, 0, 0, 0, 0, 0, 0, 0, 0, 0, 0, 0, 0, 0, 0, 0, 0, 0, 0, 0, 0, 0, 0, 0, 0, 0, 0, 0, 0, 0, 0, 0, 0,
    0, 0, 0, 0, 0, 0, 0, 0, 0, 0], 3⟩,
    ⟨[191, 146, 0, 0, 0, 0, 0, 0, 0, 0, 0, 0, 0, 0, 0, 0, 0, 0, 0, 0, 0, 0, 0, 0, 0, 0, 0, 0, 0, 0, 0, 0, 0, 0, 0, 0,
    0, 0, 0, 0, 0, 0, 0, 0, 0, 0, 0, 0, 0, 0, 0, 0, 0, 0, 0, 0, 0, 0, 0, 0, 0, 0, 0, 0, 0, 0, 0, 0, 0, 0, 0, 0, 0,
    0, 0, 0, 0, 0, 0, 0, 0, 0, 0], 2⟩,
    ⟨[0, 571, 0, 0, 0, 0, 0, 0, 0, 0, 0, 0, 0, 0, 0, 0, 0, 0, 0, 0, 0, 0, 0, 0, 0, 0, 0, 0, 0, 0, 0, 0, 0, 0, 0, 0,
    0, 0, 0, 0, 0, 0, 0, 0, 0, 0, 0, 0, 0, 0, 0, 0, 0, 0, 0, 0, 0, 0, 0, 0, 0, 0, 0, 0, 0, 0, 0, 0, 0, 0, 0, 0, 0,
    0, 0, 0, 0, 0, 0, 0, 0, 0, 0], 3⟩,
    ⟨[0, -16, 0, 0, 0, 0, 0, 0, 0, 0, 0, 0, 0, 0, 0, 0, 0, 0, 0, 0, 0, 0, 0, 0, 0, 0, 0, 0, 0, 0, 0, 0, 0, 0, 0, 0,
    0, 0, 0, 0, 0, 0, 0, 0, 0, 0, 0, 0, 0, 0, 0, 0, 0, 0, 0, 0, 0, 0, 0, 0, 0, 0, 0, 0, 0, 0, 0, 0, 0, 0, 0, 0, 0,
    0, 0, 0, 0, 0, 0, 0, 0, 0, 0], 3⟩,
    ⟨[0, 16, 0, 0, 0, 0, 0, 0, 0, 0, 0, 0, 0, 0, 0, 0, 0, 0, 0, 0, 0, 0, 0, 0, 0, 0, 0, 0, 0, 0, 0, 0, 0, 0, 0, 0, 0,
    0, 0, 0, 0, 0, 0, 0, 0, 0, 0, 0, 0, 0, 0, 0, 0, 0, 0, 0, 0, 0, 0, 0, 0, 0, 0, 0, 0, 0, 0, 0, 0, 0, 0, 0, 0, 0,
    0, 0, 0, 0, 0, 0, 0, 0, 0], 2⟩]
  ctr := ⟨[3000000000000000, 5919, 30000000000000, 141600, 75000000000000], 13⟩
  reftline := ⟨[296], 0⟩
  extra := ⟨[], 0⟩

/-- The groups of the file, in its order. -/
def waterGroups : List (String × RawTable) := [
  ("R98", waterR98),
  ("R03", waterR03),
  ("R16", waterR16),
  ("R17", waterR17),
  ("R18", waterR18),
  ("R19", waterR19),
  ("R19SD", waterR19SD),
  ("R20", waterR20),
  ("R20SD", waterR20SD),
  ("R21SD", waterR21SD),
  ("R22SD", waterR22SD),
  ("R23SD", waterR23SD),
  ("R24", waterR24),
  ("MWL24", waterMWL24)]

end Verif.Model
