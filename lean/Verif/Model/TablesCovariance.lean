import Mathlib.Data.Int.Notation

/-!
# Covariance matrices of spectroscopic parameters

Contents (`Cov_p`) of the three files in `pyrtlib/uncertainty/covariance_matrix`, written by `tools/gencov.py`.  The
entries between the 105 oxygen parameters are the same doubles in all three files, and all entries between an oxygen and
a water vapour parameter are zero (`gencov.py` stops otherwise).
-/

namespace Verif.Model

/-- Part 0 of `covOxygen`. -/
def covOxygen_0 : List (List ℤ) := [
  [1125899906842624, 0, 0, 0, 0, 0, 0, 0, 0, 0, 0, 0, 0, 0, 0, 0, 0, 0, 0, 0, 0, 0, 0, 0, 0, 0, 0, 0, 0, 0, 0, 0,
   0, 0, 0, 0, 0, 0, -4014596423680, 5068767100928, -8076174295040, 8467019464704, -9681607065600, 8387754983424,
   -8085639266304, 5423988473856, -4425516056576, 1095674232832, 49969299456, -3590253182976, 4636831383552,
   -8184510021632, 9023164252160, -12484139286528, 13106818318336, -16380342566912, 16778980753408,
   -19777040941056, 19980041060352, -22645473017856, 22665580511232, -25033470640128, 24878937800704,
   -26995138232320, 26696583479296, -28653429719040, 28213969420288, -30073786728448, 29502673518592,
   -31337069150208, 30631765475328, 0, 0, 0, 0, 0, 0, 0, 0, 0, 0, 0, 0, 0, 0, 0, 0, 0, 0, 0, 0, 0, 0, 0, 0, 0, 0,
   0, 0, 0, 0, 0, 0, 0, 0],
  [0, 2814749966336, -281474990080, 0, 0, 0, 0, 0, 0, 0, 0, 0, 0, 0, 0, 0, 0, 0, 0, 0, 0, 0, 0, 0, 0, 0, 0, 0, 0,
   0, 0, 0, 0, 0, 0, 0, 0, 0, 0, 0, 0, 0, 0, 0, 0, 0, 0, 0, 0, 0, 0, 0, 0, 0, 0, 0, 0, 0, 0, 0, 0, 0, 0, 0, 0, 0,
   0, 0, 0, 0, 0, -39374295040, 674969026560, -830459150336, 1332839186432, -1327410446336, 1500304900096,
   -884400979968, 749651361792, 11270390784, -226157821952, -186701971456, 70556704768, 266747691008,
   -372057800704, 1564749463552, -1668410114048, 1787335540736, -1847825137664, 1414404374528, -1439359303680,
   1112101879808, -1119466684416, 894949457920, -893653286912, 796714598400, -790643998720, 825526517760,
   -815042330624, 854696722432, -840553791488, 891490533376, -873666117632, 933445173248, -911773007872],
  [0, -281474990080, 2814749966336, 0, 0, 0, 0, 0, 0, 0, 0, 0, 0, 0, 0, 0, 0, 0, 0, 0, 0, 0, 0, 0, 0, 0, 0, 0, 0,
   0, 0, 0, 0, 0, 0, 0, 0, 0, -65635192832, -76568477696, -60451008512, -80614768640, -58663124992, -79863750656,
   -61359898624, -75626594304, -66407763968, -70428188672, -71685873664, -65551032320, -76366323712, -61178593280,
   -80461488128, -57145348096, -84243947520, -53370474496, -87778975744, -49957851136, -90988240896, -47009652736,
   -93747724288, -44533739520, -96043393024, -42501414912, -97927135232, -40788144128, -99494985728, -39322677248,
   -100824645632, -38017028096, -101991694336, 0, 0, 0, 0, 0, 0, 0, 0, 0, 0, 0, 0, 0, 0, 0, 0, 0, 0, 0, 0, 0, 0, 0,
   0, 0, 0, 0, 0, 0, 0, 0, 0, 0, 0],
  [0, 0, 0, 217422331904, 0, 0, 0, 0, 0, 0, 0, 0, 0, 0, 0, 0, 0, 0, 0, 0, 0, 0, 0, 0, 0, 0, 0, 0, 0, 0, 0, 0, 0, 0,
   0, 0, 0, 0, 0, 0, 0, 0, 0, 0, 0, 0, 0, 0, 0, 0, 0, 0, 0, 0, 0, 0, 0, 0, 0, 0, 0, 0, 0, 0, 0, 0, 0, 0, 0, 0, 0,
   0, 0, 0, 0, 0, 0, 0, 0, 0, 0, 0, 0, 0, 0, 0, 0, 0, 0, 0, 0, 0, 0, 0, 0, 0, 0, 0, 0, 0, 0, 0, 0, 0, 0],
  [0, 0, 0, 0, 217422331904, 0, 0, 0, 0, 0, 0, 0, 0, 0, 0, 0, 0, 0, 0, 0, 0, 0, 0, 0, 0, 0, 0, 0, 0, 0, 0, 0, 0, 0,
   0, 0, 0, 0, 385201152, -393709600, 606369664, -822803264, 963716544, -1263227904, 1323157888, -1498798208,
   1475064064, -1176847616, 1071997760, -91739168, -69522968, 1482719744, -1651066752, 2930695936, -3068134912,
   3874936320, -3961616384, 4397269504, -4438399488, 4734726144, -4737075712, 5036660224, -5004668928, 5331273216,
   -5271710208, 5617238016, -5530662400, 5882567680, -5770532352, 6128665088, -5990497792, 0, 0, 0, 0, 0, 0, 0, 0,
   0, 0, 0, 0, 0, 0, 0, 0, 0, 0, 0, 0, 0, 0, 0, 0, 0, 0, 0, 0, 0, 0, 0, 0, 0, 0],
  [0, 0, 0, 0, 0, 217422331904, 0, 0, 0, 0, 0, 0, 0, 0, 0, 0, 0, 0, 0, 0, 0, 0, 0, 0, 0, 0, 0, 0, 0, 0, 0, 0, 0, 0,
   0, 0, 0, 0, 2208600320, -3039047424, 4852132352, -5102169600, 5860261376, -5920144896, 5913064448, -4875582464,
   4386212352, -1510414848, 761252864, 3281268224, -4066555392, 7505310208, -8138978816, 9924332544, -10353960960,
   11030343680, -11274132480, 11707311104, -11817839616, 12416131072, -12422530048, 13218652160, -13134219264,
   14027285504, -13869906944, 14800428032, -14571675648, 15508191232, -15212251136, 16160887808, -15796011008, 0,
   0, 0, 0, 0, 0, 0, 0, 0, 0, 0, 0, 0, 0, 0, 0, 0, 0, 0, 0, 0, 0, 0, 0, 0, 0, 0, 0, 0, 0, 0, 0, 0, 0],
  [0, 0, 0, 0, 0, 0, 217422331904, 0, 0, 0, 0, 0, 0, 0, 0, 0, 0, 0, 0, 0, 0, 0, 0, 0, 0, 0, 0, 0, 0, 0, 0, 0, 0, 0,
   0, 0, 0, 0, 2823516160, -3584143104, 5768776704, -5260469760, 5879873024, -3327749376, 2737994496, 910595328,
   -1870682368, 3923804160, -4661807104, 4218468864, -4608714240, 2957186560, -3110102528, 1572692736, -1615891456,
   603096448, -607132416, 52110724, -47047468, -229097504, 233559840, -366285472, 367814208, -432811424, 431134368,
   -465335616, 460977024, -482151648, 475519680, -491794240, 483291456, 0, 0, 0, 0, 0, 0, 0, 0, 0, 0, 0, 0, 0, 0,
   0, 0, 0, 0, 0, 0, 0, 0, 0, 0, 0, 0, 0, 0, 0, 0, 0, 0, 0, 0]]

/-- Part 1 of `covOxygen`. -/
def covOxygen_1 : List (List ℤ) := [
  [0, 0, 0, 0, 0, 0, 0, 217422331904, 0, 0, 0, 0, 0, 0, 0, 0, 0, 0, 0, 0, 0, 0, 0, 0, 0, 0, 0, 0, 0, 0, 0, 0, 0, 0,
   0, 0, 0, 0, 4483776512, -5803087872, 9353528320, -8750100480, 9862075392, -3539751936, 2236994816, 3420704768,
   -5064774144, 5920406016, -6936253440, 4877561344, -5332807680, 2878987264, -3037083136, 1323666688, -1364147968,
   420045248, -422736736, -47218784, 52587432, -286696576, 291247488, -415229184, 416810112, -487123936, 485145600,
   -526413344, 521471552, -546860736, 539368064, -556612096, 547148160, 0, 0, 0, 0, 0, 0, 0, 0, 0, 0, 0, 0, 0, 0,
   0, 0, 0, 0, 0, 0, 0, 0, 0, 0, 0, 0, 0, 0, 0, 0, 0, 0, 0, 0],
  [0, 0, 0, 0, 0, 0, 0, 0, 217422331904, 0, 0, 0, 0, 0, 0, 0, 0, 0, 0, 0, 0, 0, 0, 0, 0, 0, 0, 0, 0, 0, 0, 0, 0, 0,
   0, 0, 0, 0, 3977532160, -5424642048, 8771795968, -8068378624, 9096509440, -2831732480, 1561059968, 3583646208,
   -5111641600, 5461878272, -6364674560, 4235357440, -4623164416, 2325746944, -2452696576, 863752384, -890729664,
   -10057361, 12473962, -492482048, 498686144, -761106816, 763313792, -919616320, 915907968, -1018976256,
   1009444352, -1084949504, 1070049792, -1131643648, 1111833728, -1167522816, 1143139584, 0, 0, 0, 0, 0, 0, 0, 0,
   0, 0, 0, 0, 0, 0, 0, 0, 0, 0, 0, 0, 0, 0, 0, 0, 0, 0, 0, 0, 0, 0, 0, 0, 0, 0],
  [0, 0, 0, 0, 0, 0, 0, 0, 0, 217422331904, 0, 0, 0, 0, 0, 0, 0, 0, 0, 0, 0, 0, 0, 0, 0, 0, 0, 0, 0, 0, 0, 0, 0, 0,
   0, 0, 0, 0, 4099092224, -5012234752, 8052514816, -7294476800, 8118502400, -4365793280, 3483139328, 1348741248,
   -2677752064, 4773515264, -5740029440, 5008427520, -5523324928, 3810611968, -4037198592, 2630029824, -2720443136,
   1886462592, -1917879808, 1531610752, -1538930688, 1409694208, -1404587648, 1406411520, -1392203648, 1455324416,
   -1434782848, 1527899264, -1500518656, 1607463936, -1573363456, 1688259200, -1646607360, 0, 0, 0, 0, 0, 0, 0, 0,
   0, 0, 0, 0, 0, 0, 0, 0, 0, 0, 0, 0, 0, 0, 0, 0, 0, 0, 0, 0, 0, 0, 0, 0, 0, 0],
  [0, 0, 0, 0, 0, 0, 0, 0, 0, 0, 217422331904, 0, 0, 0, 0, 0, 0, 0, 0, 0, 0, 0, 0, 0, 0, 0, 0, 0, 0, 0, 0, 0, 0, 0,
   0, 0, 0, 0, 4065399552, -5608894464, 9037902848, -8837400576, 10076401664, -5505079296, 4599773184, 752845568,
   -2246492160, 4909456384, -6072366592, 5855044096, -6540856320, 5099049472, -5448205824, 4163165440, -4334121472,
   3653606144, -3733519360, 3541200128, -3573343232, 3659375616, -3659299584, 3874810624, -3847776768, 4110765312,
   -4062656256, 4342884864, -4273888000, 4558654464, -4469910528, 4759962112, -4650632192, 0, 0, 0, 0, 0, 0, 0, 0,
   0, 0, 0, 0, 0, 0, 0, 0, 0, 0, 0, 0, 0, 0, 0, 0, 0, 0, 0, 0, 0, 0, 0, 0, 0, 0],
  [0, 0, 0, 0, 0, 0, 0, 0, 0, 0, 0, 217422331904, 0, 0, 0, 0, 0, 0, 0, 0, 0, 0, 0, 0, 0, 0, 0, 0, 0, 0, 0, 0, 0, 0,
   0, 0, 0, 0, 3461108480, -3993331968, 6357447168, -6299412480, 7089750016, -6665354240, 6454338048, -2931849216,
   2020381696, 3051999488, -4117079808, 6547401728, -7329839616, 6911465472, -7353244160, 6076961280, -6299897856,
   5329463808, -5430538240, 5040338432, -5077274624, 5107832832, -5102299648, 5358582272, -5317526528, 5666765312,
   -5597735936, 5981813248, -5884673536, 6277812224, -6153848832, 6553960448, -6401912832, 0, 0, 0, 0, 0, 0, 0, 0,
   0, 0, 0, 0, 0, 0, 0, 0, 0, 0, 0, 0, 0, 0, 0, 0, 0, 0, 0, 0, 0, 0, 0, 0, 0, 0],
  [0, 0, 0, 0, 0, 0, 0, 0, 0, 0, 0, 0, 217422331904, 0, 0, 0, 0, 0, 0, 0, 0, 0, 0, 0, 0, 0, 0, 0, 0, 0, 0, 0, 0, 0,
   0, 0, 0, 0, 4063757312, -5592666112, 8978419712, -8984491008, 10269390848, -8136288768, 7687545856, -2884490496,
   1572470656, 3770381312, -5149556736, 7681775616, -8687497216, 8409764352, -9003276288, 7869457920, -8192172032,
   7479783424, -7641862656, 7551222272, -7619780608, 7948605440, -7949571584, 8481789952, -8424474112, 9023414272,
   -8919524352, 9536145408, -9386411008, 10002387968, -9809394688, 10431348736, -10193734656, 0, 0, 0, 0, 0, 0, 0,
   0, 0, 0, 0, 0, 0, 0, 0, 0, 0, 0, 0, 0, 0, 0, 0, 0, 0, 0, 0, 0, 0, 0, 0, 0, 0, 0],
  [0, 0, 0, 0, 0, 0, 0, 0, 0, 0, 0, 0, 0, 217422331904, 0, 0, 0, 0, 0, 0, 0, 0, 0, 101536423936, 101536423936,
   101536423936, 101536423936, 101536423936, 101536423936, 101536423936, 101536423936, 101536423936, 101536423936,
   101536423936, 101536423936, 101536423936, 101536423936, 0, 2830989312, -3115644672, 4892093952, -5764490240,
   6642199040, -8007482880, 8224815616, -7219677696, 6754834944, -1838808448, 887925696, 4355514368, -5346095104,
   8114522112, -8875594752, 10656607232, -11196608512, 13900293120, -14251922432, 17895905280, -18082727936,
   21467635712, -21484597248, 24017422336, -23866783744, 25783156736, -25496420352, 27191265280, -26773215232,
   28436623360, -27895846912, 29601722368, -28934805504, 0, 0, 0, 0, 0, 0, 0, 0, 0, 0, 0, 0, 0, 0, 0, 0, 0, 0, 0,
   0, 0, 0, 0, 0, 0, 0, 0, 0, 0, 0, 0, 0, 0, 0]]

/-- Part 2 of `covOxygen`. -/
def covOxygen_2 : List (List ℤ) := [
  [0, 0, 0, 0, 0, 0, 0, 0, 0, 0, 0, 0, 0, 0, 217422331904, 0, 0, 0, 0, 0, 0, 0, 0, 101536423936, 101536423936,
   101536423936, 101536423936, 101536423936, 101536423936, 101536423936, 101536423936, 101536423936, 101536423936,
   101536423936, 101536423936, 101536423936, 101536423936, 0, 3713577984, -5166594560, 8259091456, -8656722944,
   9944968192, -9914316800, 9880942592, -7338257408, 6421032960, -856665728, -473174176, 5770313728, -7025646080,
   9881433088, -10820947968, 12760145920, -13418198016, 16464819200, -16889208832, 20916817920, -21141409792,
   24891938816, -24916447232, 27778381824, -27607871488, 29819422720, -29490546688, 31461433344, -30979985408,
   32910200832, -32286314496, 34259718144, -33489776640, 0, 0, 0, 0, 0, 0, 0, 0, 0, 0, 0, 0, 0, 0, 0, 0, 0, 0, 0,
   0, 0, 0, 0, 0, 0, 0, 0, 0, 0, 0, 0, 0, 0, 0],
  [0, 0, 0, 0, 0, 0, 0, 0, 0, 0, 0, 0, 0, 0, 0, 217422331904, 0, 0, 0, 0, 0, 0, 0, 16922736640, 16922736640,
   20307283968, 20307283968, 23691831296, 23691831296, 27076380672, 27076380672, 30460925952, 30460925952,
   33845473280, 33845473280, 37230022656, 37230022656, 0, 2306024960, -2409519104, 3750865408, -4660418048,
   5406258688, -6720922112, 6955770368, -6922638336, 6642731520, -3089036032, 2357607936, 3793474304, -4695276544,
   9493883904, -10239515648, 12023115776, -12514614272, 12735240192, -13005058048, 13332561920, -13452067840,
   14225012736, -14227567616, 15241815040, -15140636672, 16213570560, -16028727296, 17113009152, -16846133248,
   17928972288, -17584791552, 18682064896, -18258370560, 0, 0, 0, 0, 0, 0, 0, 0, 0, 0, 0, 0, 0, 0, 0, 0, 0, 0, 0,
   0, 0, 0, 0, 0, 0, 0, 0, 0, 0, 0, 0, 0, 0, 0],
  [0, 0, 0, 0, 0, 0, 0, 0, 0, 0, 0, 0, 0, 0, 0, 0, 217422331904, 0, 0, 0, 0, 0, 0, 16922736640, 16922736640,
   20307283968, 20307283968, 23691831296, 23691831296, 27076380672, 27076380672, 30460925952, 30460925952,
   33845473280, 33845473280, 37230022656, 37230022656, 0, 3189037056, -4408324096, 7035989504, -7384025600,
   8479522816, -8878426112, 8924276736, -7609291264, 6936139264, -2310638592, 1194922496, 5414019584, -6608955904,
   11625243648, -12573668352, 14525834240, -15151738880, 15731406848, -16083395584, 16816556032, -16978071552,
   18141386752, -18151565312, 19521269760, -19396728832, 20793487360, -20560254976, 21952395264, -21613187072,
   22997258240, -22558498816, 23959947264, -23419086848, 0, 0, 0, 0, 0, 0, 0, 0, 0, 0, 0, 0, 0, 0, 0, 0, 0, 0, 0,
   0, 0, 0, 0, 0, 0, 0, 0, 0, 0, 0, 0, 0, 0, 0],
  [0, 0, 0, 0, 0, 0, 0, 0, 0, 0, 0, 0, 0, 0, 0, 0, 0, 217422331904, 0, 0, 0, 0, 0, 33845473280, 33845473280,
   40614567936, 40614567936, 47383662592, 47383662592, 54152761344, 54152761344, 60921851904, 60921851904,
   67690946560, 67690946560, 74460045312, 74460045312, 0, 1536210816, -1571732480, 2420460800, -3305283840,
   3874909696, -5074701824, 5316857856, -6070966272, 5981285376, -4786498560, 4367246848, -141683312, -516914048,
   6414078976, -7097412096, 11795269632, -12338979840, 14918327296, -15256352768, 16921465856, -17084524544,
   18612373504, -18623879168, 20126281728, -19999328256, 21441759232, -21202733056, 22618353664, -22270171136,
   23679381504, -23228766208, 24661413888, -24105756672, 0, 0, 0, 0, 0, 0, 0, 0, 0, 0, 0, 0, 0, 0, 0, 0, 0, 0, 0,
   0, 0, 0, 0, 0, 0, 0, 0, 0, 0, 0, 0, 0, 0, 0],
  [0, 0, 0, 0, 0, 0, 0, 0, 0, 0, 0, 0, 0, 0, 0, 0, 0, 0, 217422331904, 0, 0, 0, 0, 33845473280, 33845473280,
   40614567936, 40614567936, 47383662592, 47383662592, 54152761344, 54152761344, 60921851904, 60921851904,
   67690946560, 67690946560, 74460045312, 74460045312, 0, 2225676032, -3104940800, 4940461568, -5496910336,
   6357838336, -7055748096, 7191088128, -7097167360, 6728039424, -4543358464, 3815371008, 1192024832, -2115395456,
   8544313344, -9424893952, 14434214912, -15112950784, 18056859648, -18477574144, 20508094464, -20712906752,
   22591520768, -22609989632, 24440879104, -24289824768, 26041569280, -25753546752, 27471134720, -27050072064,
   28759472128, -28213737472, 29951885312, -29278470144, 0, 0, 0, 0, 0, 0, 0, 0, 0, 0, 0, 0, 0, 0, 0, 0, 0, 0, 0,
   0, 0, 0, 0, 0, 0, 0, 0, 0, 0, 0, 0, 0, 0, 0],
  [0, 0, 0, 0, 0, 0, 0, 0, 0, 0, 0, 0, 0, 0, 0, 0, 0, 0, 0, 217422331904, 0, 0, 0, 50768211968, 50768211968,
   60921851904, 60921851904, 71075495936, 71075495936, 88403877888, 81229135872, 98557517824, 98557517824,
   108711165952, 108711165952, 118864814080, 118864814080, 0, 770128192, -797475712, 1211904512, -1910216704,
   2271035136, -3201743872, 3406450432, -4351737856, 4379108864, -4620519936, 4449695744, -2705479424, 2332225024,
   2105389952, -2596599296, 8441238528, -8923183104, 13996634112, -14344263680, 17848537088, -18032203776,
   20463765504, -20483297280, 22380767232, -22244980736, 23887456256, -23625607168, 25186334720, -24802326528,
   26350399488, -25852151808, 27431403520, -26816204800, 0, 0, 0, 0, 0, 0, 0, 0, 0, 0, 0, 0, 0, 0, 0, 0, 0, 0, 0,
   0, 0, 0, 0, 0, 0, 0, 0, 0, 0, 0, 0, 0, 0, 0],
  [0, 0, 0, 0, 0, 0, 0, 0, 0, 0, 0, 0, 0, 0, 0, 0, 0, 0, 0, 0, 217422331904, 0, 0, 50768211968, 50768211968,
   60921851904, 60921851904, 71075495936, 71075495936, 88403877888, 81229135872, 98557517824, 98557517824,
   108711165952, 108711165952, 118864814080, 118864814080, 0, 1306781824, -1852663040, 2937530624, -3556328704,
   4153310464, -4810380288, 4960357376, -5343890944, 5179382272, -4690830336, 4294500864, -1841373696, 1262267520,
   3790272000, -4444615680, 10805742592, -11406355456, 16893262848, -17315442688, 21202247680, -21423818752,
   24180602880, -24205998080, 26390558720, -26231967744, 28146036736, -27838513152, 29670838272, -29219233792,
   31042238464, -30455902208, 32317540352, -31593326592, 0, 0, 0, 0, 0, 0, 0, 0, 0, 0, 0, 0, 0, 0, 0, 0, 0, 0, 0,
   0, 0, 0, 0, 0, 0, 0, 0, 0, 0, 0, 0, 0, 0, 0]]

/-- Part 3 of `covOxygen`. -/
def covOxygen_3 : List (List ℤ) := [
  [0, 0, 0, 0, 0, 0, 0, 0, 0, 0, 0, 0, 0, 0, 0, 0, 0, 0, 0, 0, 0, 217422331904, 0, 67690946560, 67690946560,
   81229135872, 81229135872, 94767325184, 94767325184, 109149609984, 108305522688, 122856611840, 122856611840,
   136563613696, 136563613696, 150270623744, 150270623744, 0, 198011280, -226341408, 328141216, -821565696,
   1008384576, -1696609920, 1858100224, -2730211072, 2820323072, -3591013376, 3572806912, -3372086528, 3210576896,
   -890654208, 600274048, 4151665152, -4507035648, 10490339328, -10793423872, 15996479488, -16175683584,
   19668480000, -19693363200, 21952018432, -21822941184, 23508836352, -23254558720, 24770725888, -24395935744,
   25892585472, -25405468672, 26941552640, -26339508224, 0, 0, 0, 0, 0, 0, 0, 0, 0, 0, 0, 0, 0, 0, 0, 0, 0, 0, 0,
   0, 0, 0, 0, 0, 0, 0, 0, 0, 0, 0, 0, 0, 0, 0],
  [0, 0, 0, 0, 0, 0, 0, 0, 0, 0, 0, 0, 0, 0, 0, 0, 0, 0, 0, 0, 0, 0, 217422331904, 67690946560, 67690946560,
   81229135872, 81229135872, 94767325184, 94767325184, 109149609984, 108305522688, 122856611840, 122856611840,
   136563613696, 136563613696, 150270623744, 150270623744, 0, 648047040, -951265472, 1501124096, -2043830400,
   2414772736, -2952890112, 3085702144, -3588994048, 3545391872, -3827399424, 3647057408, -2913361152, 2597731840,
   294496768, -714081216, 6101575680, -6557739520, 13136189440, -13505905664, 19155642368, -19369297920,
   23201040384, -23230685184, 25754236928, -25603026944, 27532836864, -27235088384, 29000364032, -28561534976,
   30315169792, -29744771072, 31547193344, -30842142720, 0, 0, 0, 0, 0, 0, 0, 0, 0, 0, 0, 0, 0, 0, 0, 0, 0, 0, 0,
   0, 0, 0, 0, 0, 0, 0, 0, 0, 0, 0, 0, 0, 0, 0],
  [0, 0, 0, 0, 0, 0, 0, 0, 0, 0, 0, 0, 0, 101536423936, 101536423936, 16922736640, 16922736640, 33845473280,
   33845473280, 50768211968, 50768211968, 67690946560, 67690946560, 144090464256, 129740988416, 169227354112,
   169227354112, 208713744384, 208713744384, 249888325632, 248200151040, 289712308224, 289712308224, 329536339968,
   329536339968, 369360338944, 369360338944, 0, 4690055168, -5938038272, 9391281152, -10851931136, 12563809280,
   -14310240256, 14636048384, -13672101888, 12878858240, -7065507328, 5517879296, 3017569280, -4795906048,
   13566675968, -15160410112, 23919675392, -25191419904, 34068692992, -34927886336, 43208187904, -43662004224,
   50497048576, -50545889280, 55910158336, -55568506880, 59967320064, -59307405312, 63313977344, -62346293248,
   66253824000, -64998899712, 68970807296, -67421855744, 0, 0, 0, 0, 0, 0, 0, 0, 0, 0, 0, 0, 0, 0, 0, 0, 0, 0, 0,
   0, 0, 0, 0, 0, 0, 0, 0, 0, 0, 0, 0, 0, 0, 0],
  [0, 0, 0, 0, 0, 0, 0, 0, 0, 0, 0, 0, 0, 101536423936, 101536423936, 16922736640, 16922736640, 33845473280,
   33845473280, 50768211968, 50768211968, 67690946560, 67690946560, 129740988416, 144090464256, 169227354112,
   169227354112, 208713744384, 208713744384, 249888325632, 248200151040, 289712308224, 289712308224, 329536339968,
   329536339968, 369360338944, 369360338944, 0, 4713790464, -5971152384, 9444374528, -10909840384, 12630532096,
   -14370800640, 14695379968, -13715205120, 12915760128, -7081518080, 5526364160, 3032550400, -4818127360,
   13616807936, -15216783360, 24011943936, -25288785920, 34204217344, -35066957824, 43384434688, -43840176128,
   50702319616, -50751418368, 56133697536, -55790731264, 60203843584, -59541364736, 63562113024, -62590668800,
   66513027072, -65253220352, 69240676352, -67685683200, 0, 0, 0, 0, 0, 0, 0, 0, 0, 0, 0, 0, 0, 0, 0, 0, 0, 0, 0,
   0, 0, 0, 0, 0, 0, 0, 0, 0, 0, 0, 0, 0, 0, 0],
  [0, 0, 0, 0, 0, 0, 0, 0, 0, 0, 0, 0, 0, 101536423936, 101536423936, 20307283968, 20307283968, 40614567936,
   40614567936, 60921851904, 60921851904, 81229135872, 81229135872, 169227354112, 169227354112, 237729595392,
   223380127744, 277532901376, 277532901376, 334217904128, 331685625856, 388877090816, 388877090816, 443536277504,
   443536277504, 498195529728, 498195529728, 0, 4972038144, -6314144768, 9978438656, -11687052288, 13552217088,
   -15639446528, 16041710592, -15384176640, 14589563904, -8791854080, 7164196864, 1971922176, -3901259008,
   14062254080, -15846023168, 26649188352, -28114202624, 39378288640, -40390451200, 50995052544, -51539353600,
   60275777536, -60338630656, 67080159232, -66673197056, 72070995968, -71280173056, 76115337216, -74953916416,
   79642189824, -78135328768, 82898173952, -81037901824, 0, 0, 0, 0, 0, 0, 0, 0, 0, 0, 0, 0, 0, 0, 0, 0, 0, 0, 0,
   0, 0, 0, 0, 0, 0, 0, 0, 0, 0, 0, 0, 0, 0, 0],
  [0, 0, 0, 0, 0, 0, 0, 0, 0, 0, 0, 0, 0, 101536423936, 101536423936, 20307283968, 20307283968, 40614567936,
   40614567936, 60921851904, 60921851904, 81229135872, 81229135872, 169227354112, 169227354112, 223380127744,
   237729595392, 277532901376, 277532901376, 334217904128, 331685625856, 388877090816, 388877090816, 443536277504,
   443536277504, 498195529728, 498195529728, 0, 4988216320, -6335047168, 10011778048, -11724060672, 13594826752,
   -15678296064, 16079753216, -15412252672, 14613689344, -8803578880, 7171169280, 1978835200, -3912749824,
   14090995712, -15878756352, 26705651712, -28174010368, 39466291200, -40480878592, 51116150784, -51661844480,
   60426010624, -60489076736, 67250798592, -66842832896, 72253390848, -71460593664, 76306595840, -75142275072,
   79841681408, -78331060224, 83105734656, -81240809472, 0, 0, 0, 0, 0, 0, 0, 0, 0, 0, 0, 0, 0, 0, 0, 0, 0, 0, 0,
   0, 0, 0, 0, 0, 0, 0, 0, 0, 0, 0, 0, 0, 0, 0],
  [0, 0, 0, 0, 0, 0, 0, 0, 0, 0, 0, 0, 0, 101536423936, 101536423936, 23691831296, 23691831296, 47383662592,
   47383662592, 71075495936, 71075495936, 94767325184, 94767325184, 208713744384, 208713744384, 277532901376,
   277532901376, 360701493248, 346351992832, 418547466240, 415171117056, 488041840640, 488041840640, 557536313344,
   557536313344, 627030687744, 627030687744, 0, 5260302848, -6697126400, 10576227328, -12536429568, 14557371392,
   -16988875776, 17468375040, -17120305152, 16323849216, -10542348288, 8833222656, 912113664, -2994803968,
   14571588608, -16548335616, 29436844032, -31098015744, 44786778112, -45953839104, 58888155136, -59523665920,
   70141976576, -70218817536, 78327971840, -77855178752, 84255498240, -83332882432, 89003278336, -87646773248,
   93121855488, -91361296384, 96920838144, -94747140096, 0, 0, 0, 0, 0, 0, 0, 0, 0, 0, 0, 0, 0, 0, 0, 0, 0, 0, 0,
   0, 0, 0, 0, 0, 0, 0, 0, 0, 0, 0, 0, 0, 0, 0]]

/-- Part 4 of `covOxygen`. -/
def covOxygen_4 : List (List ℤ) := [
  [0, 0, 0, 0, 0, 0, 0, 0, 0, 0, 0, 0, 0, 101536423936, 101536423936, 23691831296, 23691831296, 47383662592,
   47383662592, 71075495936, 71075495936, 94767325184, 94767325184, 208713744384, 208713744384, 277532901376,
   277532901376, 346351992832, 360701493248, 418547466240, 415171117056, 488041840640, 488041840640, 557536313344,
   557536313344, 627030687744, 627030687744, 0, 5269224448, -6708119040, 10593707008, -12555988992, 14579863552,
   -17009400832, 17488447488, -17135192064, 16336640000, -10548890624, 8837271552, 914930048, -3000012288,
   14585477120, -16564318208, 29465163776, -31128121344, 44832530432, -46000922624, 58953895936, -59590209536,
   70228000768, -70304989184, 78430470144, -77957095424, 84369055744, -83445202944, 89123225600, -87764910080,
   93246832640, -91483930624, 97050705920, -94874107904, 0, 0, 0, 0, 0, 0, 0, 0, 0, 0, 0, 0, 0, 0, 0, 0, 0, 0, 0,
   0, 0, 0, 0, 0, 0, 0, 0, 0, 0, 0, 0, 0, 0, 0],
  [0, 0, 0, 0, 0, 0, 0, 0, 0, 0, 0, 0, 0, 101536423936, 101536423936, 27076380672, 27076380672, 54152761344,
   54152761344, 88403877888, 88403877888, 109149609984, 109149609984, 249888325632, 249888325632, 334217904128,
   334217904128, 418547466240, 418547466240, 504465948672, 502877061120, 589788610560, 589788610560, 675111239680,
   675111239680, 760433803264, 760433803264, 0, 5631568896, -7184722944, 11338126336, -13595195392, 15807760384,
   -18632923136, 19200636928, -19197888512, 18391812096, -12605822976, 10792450048, -281179104, -1990279936,
   15319238656, -17530052608, 32927606784, -34822844416, 51289960448, -52638208000, 68126474240, -68866514944,
   81497235456, -81589174272, 91158364160, -90610057216, 98106523648, -97033740288, 103643054080, -102064685056,
   108434874368, -106385948672, 112853221376, -110323179520, 0, 0, 0, 0, 0, 0, 0, 0, 0, 0, 0, 0, 0, 0, 0, 0, 0, 0,
   0, 0, 0, 0, 0, 0, 0, 0, 0, 0, 0, 0, 0, 0, 0, 0],
  [0, 0, 0, 0, 0, 0, 0, 0, 0, 0, 0, 0, 0, 101536423936, 101536423936, 27076380672, 27076380672, 54152761344,
   54152761344, 81229135872, 81229135872, 108305522688, 108305522688, 248200151040, 248200151040, 331685625856,
   331685625856, 415171117056, 415171117056, 502877061120, 513006108672, 587206688768, 587206688768, 671536250880,
   671536250880, 755865812992, 755865812992, 0, 5555181568, -7088011264, 11186442240, -13401291776, 15580544000,
   -18357401600, 18914406400, -18875580416, 18076250112, -12310080512, 10517832704, -159088848, -2079033600,
   15084580864, -17256660992, 32256532480, -34116317184, 50267033600, -51590991872, 66891186176, -67619053568,
   80138403840, -80229318656, 89711304704, -89171894272, 96582254592, -95526256640, 102042075136, -100488183808,
   106759766016, -104742551552, 111108243456, -108617416704, 0, 0, 0, 0, 0, 0, 0, 0, 0, 0, 0, 0, 0, 0, 0, 0, 0, 0,
   0, 0, 0, 0, 0, 0, 0, 0, 0, 0, 0, 0, 0, 0, 0, 0],
  [0, 0, 0, 0, 0, 0, 0, 0, 0, 0, 0, 0, 0, 101536423936, 101536423936, 30460925952, 30460925952, 60921851904,
   60921851904, 98557517824, 98557517824, 122856611840, 122856611840, 289712308224, 289712308224, 388877090816,
   388877090816, 488041840640, 488041840640, 589788610560, 587206688768, 690567053312, 690567053312, 791345496064,
   791345496064, 892124004352, 892124004352, 0, 5919523328, -7567766528, 11935794176, -14448718848, 16818300928,
   -19993954304, 20640413696, -20955783168, 20149041152, -14388825088, 12494370816, -1377612416, -1048044352,
   15806328832, -18212272128, 35734994944, -37829496832, 56786882560, -58293035008, 76182937600, -77016113152,
   91579441152, -91685625856, 102645374976, -102029828096, 110542249984, -109334937600, 116793925632,
   -115016499200, 122189348864, -119881547776, 127161942016, -124312109056, 0, 0, 0, 0, 0, 0, 0, 0, 0, 0, 0, 0, 0,
   0, 0, 0, 0, 0, 0, 0, 0, 0, 0, 0, 0, 0, 0, 0, 0, 0, 0, 0, 0, 0],
  [0, 0, 0, 0, 0, 0, 0, 0, 0, 0, 0, 0, 0, 101536423936, 101536423936, 30460925952, 30460925952, 60921851904,
   60921851904, 98557517824, 98557517824, 122856611840, 122856611840, 289712308224, 289712308224, 388877090816,
   388877090816, 488041840640, 488041840640, 589788610560, 587206688768, 690567053312, 690567053312, 791345496064,
   791345496064, 892124004352, 892124004352, 0, 5919523328, -7567766528, 11935794176, -14448718848, 16818300928,
   -19993954304, 20640413696, -20955783168, 20149041152, -14388825088, 12494370816, -1377612416, -1048044352,
   15806328832, -18212272128, 35734994944, -37829496832, 56786882560, -58293035008, 76182937600, -77016113152,
   91579441152, -91685625856, 102645374976, -102029828096, 110542249984, -109334937600, 116793925632,
   -115016499200, 122189348864, -119881547776, 127161942016, -124312109056, 0, 0, 0, 0, 0, 0, 0, 0, 0, 0, 0, 0, 0,
   0, 0, 0, 0, 0, 0, 0, 0, 0, 0, 0, 0, 0, 0, 0, 0, 0, 0, 0, 0, 0],
  [0, 0, 0, 0, 0, 0, 0, 0, 0, 0, 0, 0, 0, 101536423936, 101536423936, 33845473280, 33845473280, 67690946560,
   67690946560, 108711165952, 108711165952, 136563613696, 136563613696, 329536339968, 329536339968, 443536277504,
   443536277504, 557536313344, 557536313344, 675111239680, 671536250880, 791345496064, 791345496064, 907579817984,
   907579817984, 1023814205440, 1023814205440, 0, 6207477760, -7950811648, 12533463040, -15302245376, 17828835328,
   -21354987520, 22080198656, -22713671680, 21906278400, -16171827200, 14196296704, -2474045184, -105807184,
   16293417984, -18894485504, 38542393344, -40836153344, 62283804672, -63947857920, 84239384576, -85165727744,
   101661663232, -101782077440, 114132377600, -113449623552, 122978000896, -121636159488, 129944813568,
   -127968313344, 135943831552, -133377204224, 141470695424, -138300997632, 0, 0, 0, 0, 0, 0, 0, 0, 0, 0, 0, 0, 0,
   0, 0, 0, 0, 0, 0, 0, 0, 0, 0, 0, 0, 0, 0, 0, 0, 0, 0, 0, 0, 0],
  [0, 0, 0, 0, 0, 0, 0, 0, 0, 0, 0, 0, 0, 101536423936, 101536423936, 33845473280, 33845473280, 67690946560,
   67690946560, 108711165952, 108711165952, 136563613696, 136563613696, 329536339968, 329536339968, 443536277504,
   443536277504, 557536313344, 557536313344, 675111239680, 671536250880, 791345496064, 791345496064, 907579817984,
   907579817984, 1023814205440, 1023814205440, 0, 6207477760, -7950811648, 12533463040, -15302245376, 17828835328,
   -21354987520, 22080198656, -22713671680, 21906278400, -16171827200, 14196296704, -2474045184, -105807184,
   16293417984, -18894485504, 38542393344, -40836153344, 62283804672, -63947857920, 84239384576, -85165727744,
   101661663232, -101782077440, 114132377600, -113449623552, 122978000896, -121636159488, 129944813568,
   -127968313344, 135943831552, -133377204224, 141470695424, -138300997632, 0, 0, 0, 0, 0, 0, 0, 0, 0, 0, 0, 0, 0,
   0, 0, 0, 0, 0, 0, 0, 0, 0, 0, 0, 0, 0, 0, 0, 0, 0, 0, 0, 0, 0]]

/-- Part 5 of `covOxygen`. -/
def covOxygen_5 : List (List ℤ) := [
  [0, 0, 0, 0, 0, 0, 0, 0, 0, 0, 0, 0, 0, 101536423936, 101536423936, 37230022656, 37230022656, 74460045312,
   74460045312, 118864814080, 118864814080, 150270623744, 150270623744, 369360338944, 369360338944, 498195529728,
   498195529728, 627030687744, 627030687744, 760433803264, 755865812992, 892124004352, 892124004352, 1023814205440,
   1023814205440, 1155504275456, 1155504275456, 0, 6495432704, -8333855744, 13131131904, -16155776000, 18839379968,
   -22716018688, 23519979520, -24471572480, 23663511552, -17954830336, 15898219520, -3570477056, 836430912,
   16780508160, -19576696832, 41349787648, -43842826240, 67780739072, -69602705408, 92295831552, -93315350528,
   111743852544, -111878520832, 125619380224, -124869394432, 135413743616, -133937381376, 143095693312,
   -140920160256, 149698314240, -146872827904, 155779448832, -152289918976, 0, 0, 0, 0, 0, 0, 0, 0, 0, 0, 0, 0, 0,
   0, 0, 0, 0, 0, 0, 0, 0, 0, 0, 0, 0, 0, 0, 0, 0, 0, 0, 0, 0, 0],
  [0, 0, 0, 0, 0, 0, 0, 0, 0, 0, 0, 0, 0, 101536423936, 101536423936, 37230022656, 37230022656, 74460045312,
   74460045312, 118864814080, 118864814080, 150270623744, 150270623744, 369360338944, 369360338944, 498195529728,
   498195529728, 627030687744, 627030687744, 760433803264, 755865812992, 892124004352, 892124004352, 1023814205440,
   1023814205440, 1155504275456, 1155504275456, 0, 6495432704, -8333855744, 13131131904, -16155776000, 18839379968,
   -22716018688, 23519979520, -24471572480, 23663511552, -17954830336, 15898219520, -3570477056, 836430912,
   16780508160, -19576696832, 41349787648, -43842826240, 67780739072, -69602705408, 92295831552, -93315350528,
   111743852544, -111878520832, 125619380224, -124869394432, 135413743616, -133937381376, 143095693312,
   -140920160256, 149698314240, -146872827904, 155779448832, -152289918976, 0, 0, 0, 0, 0, 0, 0, 0, 0, 0, 0, 0, 0,
   0, 0, 0, 0, 0, 0, 0, 0, 0, 0, 0, 0, 0, 0, 0, 0, 0, 0, 0, 0, 0],
  [0, 0, 0, 0, 0, 0, 0, 0, 0, 0, 0, 0, 0, 0, 0, 0, 0, 0, 0, 0, 0, 0, 0, 0, 0, 0, 0, 0, 0, 0, 0, 0, 0, 0, 0, 0, 0,
   112589987840, 0, 0, 0, 0, 0, 0, 0, 0, 0, 0, 0, 0, 0, 0, 0, 0, 0, 0, 0, 0, 0, 0, 0, 0, 0, 0, 0, 0, 0, 0, 0, 0, 0,
   0, 0, 0, 0, 0, 0, 0, 0, 0, 0, 0, 0, 0, 0, 0, 0, 0, 0, 0, 0, 0, 0, 0, 0, 0, 0, 0, 0, 0, 0, 0, 0, 0, 0],
  [-4014596423680, 0, -65635192832, 0, 385201152, 2208600320, 2823516160, 4483776512, 3977532160, 4099092224,
   4065399552, 3461108480, 4063757312, 2830989312, 3713577984, 2306024960, 3189037056, 1536210816, 2225676032,
   770128192, 1306781824, 198011280, 648047040, 4690055168, 4713790464, 4972038144, 4988216320, 5260302848,
   5269224448, 5631568896, 5555181568, 5919523328, 5919523328, 6207477760, 6207477760, 6495432704, 6495432704, 0,
   18388625408, -19297052672, 35324731392, -33310840832, 41846599680, -32583135232, 34772738048, -19863920640,
   19184265216, -1845195008, 613376000, 17168630784, -17937455104, 35411345408, -35293159424, 52277161984,
   -51263217664, 67522043904, -65598263296, 80839614464, -78129700864, 92099756032, -88659345408, 101475434496,
   -97339826176, 109185949696, -104478171136, 115725123584, -110457774080, 121348628480, -115558268928,
   126368817152, -120044969984, 0, 0, 0, 0, 0, 0, 0, 0, 0, 0, 0, 0, 0, 0, 0, 0, 0, 0, 0, 0, 0, 0, 0, 0, 0, 0, 0, 0,
   0, 0, 0, 0, 0, 0],
  [5068767100928, 0, -76568477696, 0, -393709600, -3039047424, -3584143104, -5803087872, -5424642048, -5012234752,
   -5608894464, -3993331968, -5592666112, -3115644672, -5166594560, -2409519104, -4408324096, -1571732480,
   -3104940800, -797475712, -1852663040, -226341408, -951265472, -5938038272, -5971152384, -6314144768,
   -6335047168, -6697126400, -6708119040, -7184722944, -7088011264, -7567766528, -7567766528, -7950811648,
   -7950811648, -8333855744, -8333855744, 0, -19297052672, 28438859776, -40772956160, 46183387136, -49019957248,
   45215821824, -40006029312, 29067661312, -20226068480, 6260978176, 3273329408, -17761677312, 26705205248,
   -40800665600, 48620052480, -62115840000, 68801970176, -81404387328, 86940016640, -98265464832, 102806872064,
   -112523034624, 116140351488, -124391579648, 127129329664, -134149193728, 136163041280, -142422687744,
   143728574464, -149536964608, 150181183488, -155887943680, 155857240064, 0, 0, 0, 0, 0, 0, 0, 0, 0, 0, 0, 0, 0,
   0, 0, 0, 0, 0, 0, 0, 0, 0, 0, 0, 0, 0, 0, 0, 0, 0, 0, 0, 0, 0],
  [-8076174295040, 0, -60451008512, 0, 606369664, 4852132352, 5768776704, 9353528320, 8771795968, 8052514816,
   9037902848, 6357447168, 8978419712, 4892093952, 8259091456, 3750865408, 7035989504, 2420460800, 4940461568,
   1211904512, 2937530624, 328141216, 1501124096, 9391281152, 9444374528, 9978438656, 10011778048, 10576227328,
   10593707008, 11338126336, 11186442240, 11935794176, 11935794176, 12533463040, 12533463040, 13131131904,
   13131131904, 0, 35324731392, -40772956160, 69563899904, -69055184896, 82703024128, -67491401728, 68309557248,
   -41730093056, 36760154112, -5378208256, -692687616, 32888522752, -38015262720, 69577170944, -72911249408,
   103520468992, -105048473600, 134240845824, -133935849472, 161098760192, -159209914368, 183811604480,
   -180450672640, 202719395840, -197957320704, 218264338432, -212349059072, 231444742144, -224401637376,
   242778226688, -234681073664, 252895592448, -243723255808, 0, 0, 0, 0, 0, 0, 0, 0, 0, 0, 0, 0, 0, 0, 0, 0, 0, 0,
   0, 0, 0, 0, 0, 0, 0, 0, 0, 0, 0, 0, 0, 0, 0, 0],
  [8467019464704, 0, -80614768640, 0, -822803264, -5102169600, -5260469760, -8750100480, -8068378624, -7294476800,
   -8837400576, -6299412480, -8984491008, -5764490240, -8656722944, -4660418048, -7384025600, -3305283840,
   -5496910336, -1910216704, -3556328704, -821565696, -2043830400, -10851931136, -10909840384, -11687052288,
   -11724060672, -12536429568, -12555988992, -13595195392, -13401291776, -14448718848, -14448718848, -15302245376,
   -15302245376, -16155776000, -16155776000, 0, -33310840832, 46183387136, -69055184896, 75790090240, -82871525376,
   74375110656, -68077846528, 47668473856, -35309166592, 9660780544, 3883127040, -30603245568, 43186905088,
   -69355282432, 80074588160, -105249603584, 114078318592, -137717612544, 144620060672, -166070042624,
   171305222144, -190017404928, 193702002688, -209934532608, 212143161344, -226301755392, 227295641600,
   -240178364416, 239984345088, -252112125952, 250807894016, -262767230976, 260330520576, 0, 0, 0, 0, 0, 0, 0, 0,
   0, 0, 0, 0, 0, 0, 0, 0, 0, 0, 0, 0, 0, 0, 0, 0, 0, 0, 0, 0, 0, 0, 0, 0, 0, 0]]

/-- Part 6 of `covOxygen`. -/
def covOxygen_6 : List (List ℤ) := [
  [-9681607065600, 0, -58663124992, 0, 963716544, 5860261376, 5879873024, 9862075392, 9096509440, 8118502400,
   10076401664, 7089750016, 10269390848, 6642199040, 9944968192, 5406258688, 8479522816, 3874909696, 6357838336,
   2271035136, 4153310464, 1008384576, 2414772736, 12563809280, 12630532096, 13552217088, 13594826752, 14557371392,
   14579863552, 15807760384, 15580544000, 16818300928, 16818300928, 17828835328, 17828835328, 18839379968,
   18839379968, 0, 41846599680, -49019953152, 82703024128, -82871525376, 98509209600, -81283743744, 81631608832,
   -50785140736, 44201537536, -7336400896, -606052352, 38728224768, -45576757248, 83085082624, -87803756544,
   124177489920, -126734573568, 161345126400, -161698725888, 193796440064, -192242450432, 221201317888,
   -217873055744, 243991232512, -238974074880, 262718062592, -256310951936, 278595141632, -270828781568,
   292249600000, -283212906496, 304441360384, -294108823552, 0, 0, 0, 0, 0, 0, 0, 0, 0, 0, 0, 0, 0, 0, 0, 0, 0, 0,
   0, 0, 0, 0, 0, 0, 0, 0, 0, 0, 0, 0, 0, 0, 0, 0],
  [8387754983424, 0, -79863750656, 0, -1263227904, -5920144896, -3327749376, -3539751936, -2831732480, -4365793280,
   -5505079296, -6665354240, -8136288768, -8007482880, -9914316800, -6720922112, -8878426112, -5074701824,
   -7055748096, -3201743872, -4810380288, -1696609920, -2952890112, -14310240256, -14370800640, -15639446528,
   -15678296064, -16988875776, -17009400832, -18632923136, -18357401600, -19993954304, -19993954304, -21354987520,
   -21354987520, -22716018688, -22716018688, 0, -32583135232, 45215821824, -67491401728, 74375110656, -81283743744,
   73852264448, -67777028096, 48387678208, -36309180416, 10844300288, 2529691904, -29700044800, 42218479616,
   -68982267904, 79690891264, -105318596608, 114154921984, -138070786048, 144982409216, -166592004096,
   171832786944, -190632624128, 194318090240, -210597658624, 212802666496, -226992816128, 227979476992,
   -240893509632, 240688955392, -252852584448, 251534704640, -263534575616, 261081071616, 0, 0, 0, 0, 0, 0, 0, 0,
   0, 0, 0, 0, 0, 0, 0, 0, 0, 0, 0, 0, 0, 0, 0, 0, 0, 0, 0, 0, 0, 0, 0, 0, 0, 0],
  [-8085639266304, 0, -61359898624, 0, 1323157888, 5913064448, 2737994496, 2236994816, 1561059968, 3483139328,
   4599773184, 6454338048, 7687545856, 8224815616, 9880942592, 6955770368, 8924276736, 5316857856, 7191088128,
   3406450432, 4960357376, 1858100224, 3085702144, 14636048384, 14695379968, 16041710592, 16079753216, 17468375040,
   17488447488, 19200636928, 18914406400, 20640413696, 20640413696, 22080198656, 22080198656, 23519979520,
   23519979520, 0, 34772738048, -40006029312, 68309557248, -68077846528, 81631608832, -67777024000, 68876107776,
   -43460907008, 38773362688, -7297808384, 1333145984, 31939672064, -37102080000, 70021283840, -73447940096,
   105240141824, -106862125056, 136959975424, -136722604032, 164563173376, -162710421504, 187817361408,
   -184460541952, 207121596416, -202333093888, 222971068416, -217004441600, 236409176064, -229290639360,
   247971381248, -239776284672, 258299969536, -249006702592, 0, 0, 0, 0, 0, 0, 0, 0, 0, 0, 0, 0, 0, 0, 0, 0, 0, 0,
   0, 0, 0, 0, 0, 0, 0, 0, 0, 0, 0, 0, 0, 0, 0, 0],
  [5423988473856, 0, -75626594304, 0, -1498798208, -4875582464, 910595328, 3420704768, 3583646208, 1348741248,
   752845568, -2931849216, -2884490496, -7219677696, -7338257408, -6922638336, -7609291264, -6070966272,
   -7097167360, -4351737856, -5343890944, -2730211072, -3588994048, -13672101888, -13715205120, -15384176640,
   -15412252672, -17120305152, -17135192064, -19197888512, -18875580416, -20955783168, -20955783168, -22713671680,
   -22713671680, -24471572480, -24471572480, 0, -19863920640, 29067661312, -41730093056, 47668473856, -50785140736,
   48387678208, -43460902912, 33335644160, -24559316992, 9503341568, 254773504, -17436026880, 26778542080,
   -44127514624, 52365778944, -68877582336, 75915190272, -91036786688, 96809459712, -110187069440, 114851840000,
   -126230634496, 129861124096, -139499716608, 142145486848, -150375399424, 152210948096, -159595020288,
   160638664704, -167532675072, 167836237824, -174628700160, 174177370112, 0, 0, 0, 0, 0, 0, 0, 0, 0, 0, 0, 0, 0,
   0, 0, 0, 0, 0, 0, 0, 0, 0, 0, 0, 0, 0, 0, 0, 0, 0, 0, 0, 0, 0],
  [-4425516056576, 0, -66407763968, 0, 1475064064, 4386212352, -1870682368, -5064774144, -5111641600, -2677752064,
   -2246492160, 2020381696, 1572470656, 6754834944, 6421032960, 6642731520, 6936139264, 5981285376, 6728039424,
   4379108864, 5179382272, 2820323072, 3545391872, 12878858240, 12915760128, 14589563904, 14613689344, 16323849216,
   16336640000, 18391812096, 18076250112, 20149041152, 20149041152, 21906278400, 21906278400, 23663511552,
   23663511552, 0, 19184265216, -20226068480, 36760154112, -35309166592, 44201537536, -36309180416, 38773362688,
   -24559316992, 23892217856, -5258041856, 3733307136, 17011035136, -18248349696, 39274577920, -39634747392,
   59932450816, -59316031488, 78375067648, -76718628864, 94263861248, -91693039616, 107541291008, -104115781632,
   118503178240, -114263867392, 127480193024, -122571382784, 135089807360, -129526702080, 141643497472,
   -135468908544, 147504529408, -140706250752, 0, 0, 0, 0, 0, 0, 0, 0, 0, 0, 0, 0, 0, 0, 0, 0, 0, 0, 0, 0, 0, 0, 0,
   0, 0, 0, 0, 0, 0, 0, 0, 0, 0, 0],
  [1095674232832, 0, -70428188672, 0, -1176847616, -1510414848, 3923804160, 5920406016, 5461878272, 4773515264,
   4909456384, 3051999488, 3770381312, -1838808448, -856665728, -3089036032, -2310638592, -4786498560, -4543358464,
   -4620519936, -4690830336, -3591013376, -3827399424, -7065507328, -7081518080, -8791854080, -8803578880,
   -10542348288, -10548890624, -12605822976, -12310080512, -14388825088, -14388825088, -16171827200, -16171827200,
   -17954830336, -17954830336, 0, -1845194752, 6260977664, -5378207744, 9660781568, -7336401408, 10844300288,
   -7297808384, 9503341568, -5258042368, 5705806848, -1134514432, -133352472, 4786178048, -7054191104, 11589350400,
   -13897175040, 18222876672, -19952596992, 24005584896, -24960024576, 28755019776, -28964632576, 32512135168,
   -32167553024, 35478446080, -34748796928, 37865132032, -36928503808, 39855144960, -38810963968, 41560403968,
   -40501821440, 43070570496, 0, 0, 0, 0, 0, 0, 0, 0, 0, 0, 0, 0, 0, 0, 0, 0, 0, 0, 0, 0, 0, 0, 0, 0, 0, 0, 0, 0,
   0, 0, 0, 0, 0, 0],
  [49969299456, 0, -71685873664, 0, 1071997760, 761252864, -4661807104, -6936253440, -6364674560, -5740029440,
   -6072366592, -4117079808, -5149556736, 887925696, -473174176, 2357607936, 1194922496, 4367246848, 3815371008,
   4449695744, 4294500864, 3572806912, 3647057408, 5517879296, 5526364160, 7164196864, 7171169280, 8833222656,
   8837271552, 10792450048, 10517832704, 12494370816, 12494370816, 14196296704, 14196296704, 15898219520,
   15898219520, 0, 613376128, 3273329408, -692687616, 3883128576, -606051840, 2529691648, 1333145728, 254773760,
   3733306624, -1134516224, 4960832512, -781426112, 4395976192, 898286144, 2579300096, 2916475904, 512972832,
   4615296512, -1174315392, 5813163520, -2339599616, 6593516544, -3081809920, 7110836736, -3561734656, 7483346432,
   -3903639040, 7789741568, -4180672768, 8061024768, -4424625152, 8313423360, -4649190912, 0, 0, 0, 0, 0, 0, 0, 0,
   0, 0, 0, 0, 0, 0, 0, 0, 0, 0, 0, 0, 0, 0, 0, 0, 0, 0, 0, 0, 0, 0, 0, 0, 0, 0]]

/-- Part 7 of `covOxygen`. -/
def covOxygen_7 : List (List ℤ) := [
  [-3590253182976, 0, -65551032320, 0, -91739168, 3281268224, 4218468864, 4877561344, 4235357440, 5008427520,
   5855044096, 6547401728, 7681775616, 4355514368, 5770313728, 3793474304, 5414019584, -141683312, 1192024832,
   -2705479424, -1841373696, -3372086528, -2913361152, 3017569280, 3032550400, 1971922176, 1978835200, 912113664,
   914930048, -281179104, -159088848, -1377612416, -1377612416, -2474045184, -2474045184, -3570477056, -3570477056,
   0, 17168630784, -17761677312, 32888522752, -30603243520, 38728224768, -29700044800, 31939672064, -17436026880,
   17011035136, -133352472, -781425920, 17477165056, -17898067968, 33243271168, -32779345920, 46955225088,
   -45636296704, 59109007360, -56968597504, 69891194880, -67064320000, 79242067968, -75787444224, 87183843328,
   -83134136320, 93786611712, -89247186944, 99409526784, -94390697984, 104245690368, -98778611712, 108557418496,
   -102633013248, 0, 0, 0, 0, 0, 0, 0, 0, 0, 0, 0, 0, 0, 0, 0, 0, 0, 0, 0, 0, 0, 0, 0, 0, 0, 0, 0, 0, 0, 0, 0, 0,
   0, 0],
  [4636831383552, 0, -76366323712, 0, -69522968, -4066555392, -4608714240, -5332807680, -4623164416, -5523324928,
   -6540856320, -7329839616, -8687497216, -5346095104, -7025646080, -4695276544, -6608955904, -516914048,
   -2115395456, 2332225024, 1262267520, 3210576896, 2597731840, -4795906048, -4818127360, -3901259008, -3912749824,
   -2994803968, -3000012288, -1990279936, -2079033600, -1048044352, -1048044352, -105807184, -105807184, 836430912,
   836430912, 0, -17937455104, 26705205248, -38015262720, 43186900992, -45576753152, 42218479616, -37102080000,
   26778542080, -18248349696, 4786178048, 4395976192, -17898067968, 26479958016, -38573879296, 46044667904,
   -56811499520, 63192977408, -73034047488, 78353547264, -87358021632, 91782610944, -99697049600, 103300071424,
   -110123286528, 112946774016, -118767943680, 120949932032, -126122778624, 127676948480, -132449124352,
   133416337408, -138091839488, 138460250112, 0, 0, 0, 0, 0, 0, 0, 0, 0, 0, 0, 0, 0, 0, 0, 0, 0, 0, 0, 0, 0, 0, 0,
   0, 0, 0, 0, 0, 0, 0, 0, 0, 0, 0],
  [-8184510021632, 0, -61178593280, 0, 1482719744, 7505310208, 2957186560, 2878987264, 2325746944, 3810611968,
   5099049472, 6911465472, 8409764352, 8114522112, 9881433088, 9493883904, 11625243648, 6414078976, 8544313344,
   2105389952, 3790272000, -890654208, 294496768, 13566675968, 13616807936, 14062254080, 14090995712, 14571588608,
   14585477120, 15319238656, 15084580864, 15806328832, 15806328832, 16293417984, 16293417984, 16780508160,
   16780508160, 0, 35411345408, -40800665600, 69577170944, -69355282432, 83085082624, -68982267904, 70021283840,
   -44127510528, 39274577920, -7054191104, 898286272, 33243271168, -38573879296, 71967301632, -75504271360,
   107058946048, -108732375040, 138136109056, -137912614912, 165084020736, -163230744576, 187927363584,
   -184567644160, 207052374016, -202262134784, 222851334144, -216884264960, 236287655936, -229169479680,
   247857004544, -239662792704, 258189328384, -248897372160, 0, 0, 0, 0, 0, 0, 0, 0, 0, 0, 0, 0, 0, 0, 0, 0, 0, 0,
   0, 0, 0, 0, 0, 0, 0, 0, 0, 0, 0, 0, 0, 0, 0, 0],
  [9023164252160, 0, -80461488128, 0, -1651066752, -8138978816, -3110102528, -3037083136, -2452696576, -4037198592,
   -5448205824, -7353244160, -9003276288, -8875594752, -10820947968, -10239515648, -12573668352, -7097412096,
   -9424893952, -2596599296, -4444615680, 600274048, -714081216, -15160410112, -15216783360, -15846023168,
   -15878756352, -16548335616, -16564318208, -17530052608, -17256660992, -18212272128, -18212272128, -18894485504,
   -18894485504, -19576696832, -19576696832, 0, -35293159424, 48620052480, -72911249408, 80074588160, -87803756544,
   79690891264, -73447940096, 52365778944, -39634747392, 11589350400, 2579300352, -32779343872, 46044667904,
   -75504271360, 86799900672, -114313338880, 123559649280, -148731412480, 155887484928, -178574721024,
   183932420096, -203849826304, 207543926784, -224990642176, 227104669696, -242444042240, 243258114048,
   -257283162112, 256825802752, -270059831296, 268413960192, -281470861312, 278612574208, 0, 0, 0, 0, 0, 0, 0, 0,
   0, 0, 0, 0, 0, 0, 0, 0, 0, 0, 0, 0, 0, 0, 0, 0, 0, 0, 0, 0, 0, 0, 0, 0, 0, 0],
  [-12484139286528, 0, -57145348096, 0, 2930695936, 9924332544, 1572692736, 1323666688, 863752384, 2630029824,
   4163165440, 6076961280, 7869457920, 10656607232, 12760145920, 12023115776, 14525834240, 11795269632,
   14434214912, 8441238528, 10805742592, 4151665152, 6101575680, 23919675392, 24011943936, 26649188352,
   26705651712, 29436844032, 29465163776, 32927606784, 32256532480, 35734994944, 35734994944, 38542393344,
   38542393344, 41349787648, 41349787648, 0, 52277161984, -62115840000, 103520468992, -105249603584, 124177489920,
   -105318596608, 105240141824, -68877582336, 59932450816, -13897176064, 2916476672, 46955225088, -56811503616,
   107058946048, -114313338880, 162856042496, -167342096384, 212678017024, -214273556480, 255589269504,
   -254665572352, 291562356736, -288295321600, 321434714112, -315939651584, 346013270016, -338685329408,
   366891696128, -357771673600, 384874086400, -374079029248, 400944660480, -388440915968, 0, 0, 0, 0, 0, 0, 0, 0,
   0, 0, 0, 0, 0, 0, 0, 0, 0, 0, 0, 0, 0, 0, 0, 0, 0, 0, 0, 0, 0, 0, 0, 0, 0, 0],
  [13106818318336, 0, -84243947520, 0, -3068134912, -10353960960, -1615891456, -1364147968, -890729664,
   -2720443136, -4334121472, -6299897856, -8192172032, -11196608512, -13418198016, -12514614272, -15151738880,
   -12338979840, -15112950784, -8923183104, -11406355456, -4507035648, -6557739520, -25191419904, -25288785920,
   -28114202624, -28174010368, -31098015744, -31128121344, -34822844416, -34116317184, -37829496832, -37829496832,
   -40836153344, -40836153344, -43842826240, -43842826240, 0, -51263217664, 68801970176, -105048473600,
   114078318592, -126734573568, 114154921984, -106862125056, 75915190272, -59316031488, 18222876672, 512972768,
   -45636296704, 63192977408, -108732383232, 123559649280, -167342096384, 179264962560, -219704868864,
   228593876992, -264814559232, 271058419712, -302625456128, 306408161280, -334014676992, 335457124352,
   -359834910720, 359352074240, -381765091328, 379399864320, -400652468224, 396527861760, -417531920384,
   411612577792, 0, 0, 0, 0, 0, 0, 0, 0, 0, 0, 0, 0, 0, 0, 0, 0, 0, 0, 0, 0, 0, 0, 0, 0, 0, 0, 0, 0, 0, 0, 0, 0, 0,
   0],
  [-16380342566912, 0, -53370474496, 0, 3874936320, 11030343680, 603096448, 420045248, -10057361, 1886462592,
   3653606144, 5329463808, 7479783424, 13900293120, 16464819200, 12735240192, 15731406848, 14918327296,
   18056859648, 13996634112, 16893262848, 10490339328, 13136189440, 34068692992, 34204217344, 39378288640,
   39466291200, 44786778112, 44832530432, 51289960448, 50267033600, 56786882560, 56786882560, 62283804672,
   62283804672, 67780739072, 67780739072, 0, 67522043904, -81404387328, 134240845824, -137717612544, 161345126400,
   -138070786048, 136959975424, -91036786688, 78375059456, -19952596992, 4615297536, 59109007360, -73034047488,
   138136125440, -148731412480, 212678017024, -219704868864, 280022679552, -283274412032, 338105532416,
   -338034360320, 386497675264, -383317803008, 426397728768, -420257267712, 459080237056, -450504130560,
   486791184384, -475834384384, 510652874752, -497471127552, 531985301504, -516534042624, 0, 0, 0, 0, 0, 0, 0, 0,
   0, 0, 0, 0, 0, 0, 0, 0, 0, 0, 0, 0, 0, 0, 0, 0, 0, 0, 0, 0, 0, 0, 0, 0, 0, 0]]

/-- Part 8 of `covOxygen`. -/
def covOxygen_8 : List (List ℤ) := [
  [16778980753408, 0, -87778975744, 0, -3961616384, -11274132480, -607132416, -422736736, 12473962, -1917879808,
   -3733519360, -5430538240, -7641862656, -14251922432, -16889208832, -13005058048, -16083395584, -15256352768,
   -18477574144, -14344263680, -17315442688, -10793423872, -13505905664, -34927886336, -35066957824, -40390451200,
   -40480878592, -45953839104, -46000922624, -52638208000, -51590991872, -58293035008, -58293035008, -63947857920,
   -63947857920, -69602705408, -69602705408, 0, -65598263296, 86940008448, -133935849472, 144620060672,
   -161698725888, 144982409216, -136722604032, 96809467904, -76718628864, 24005584896, -1174315904, -56968597504,
   78353547264, -137912614912, 155887484928, -214273556480, 228593893376, -283274379264, 293728124928,
   -342793814016, 349843816448, -392383922176, 396249300992, -433268391936, 434100731904, -466753847296,
   465090838528, -495143550976, 491041554432, -519588904960, 513207664640, -541443162112, 532736835584, 0, 0, 0, 0,
   0, 0, 0, 0, 0, 0, 0, 0, 0, 0, 0, 0, 0, 0, 0, 0, 0, 0, 0, 0, 0, 0, 0, 0, 0, 0, 0, 0, 0, 0],
  [-19777040941056, 0, -49957851136, 0, 4397269504, 11707311104, 52110724, -47218784, -492482048, 1531610752,
   3541200128, 5040338432, 7551222272, 17895905280, 20916817920, 13332561920, 16816556032, 16921465856,
   20508094464, 17848537088, 21202247680, 15996479488, 19155642368, 43208187904, 43384434688, 50995052544,
   51116150784, 58888155136, 58953895936, 68126474240, 66891186176, 76182937600, 76182937600, 84239384576,
   84239384576, 92295831552, 92295831552, 0, 80839614464, -98265464832, 161098776576, -166070042624, 193796440064,
   -166592004096, 164563173376, -110187077632, 94263869440, -24960022528, 5813163520, 69891194880, -87358013440,
   165084020736, -178574721024, 255589269504, -264814559232, 338105565184, -342793814016, 409649676288,
   -410321780736, 469198045184, -466095734784, 518056542208, -511353290752, 557899448320, -548232888320,
   591599894528, -579037888512, 620599050240, -605331456000, 646526730240, -628499480576, 0, 0, 0, 0, 0, 0, 0, 0,
   0, 0, 0, 0, 0, 0, 0, 0, 0, 0, 0, 0, 0, 0, 0, 0, 0, 0, 0, 0, 0, 0, 0, 0, 0, 0],
  [19980041060352, 0, -90988240896, 0, -4438399488, -11817839616, -47047468, 52587432, 498686144, -1538930688,
   -3573343232, -5077274624, -7619780608, -18082727936, -21141409792, -13452067840, -16978071552, -17084524544,
   -20712906752, -18032203776, -21423818752, -16175683584, -19369297920, -43662004224, -43840176128, -51539353600,
   -51661844480, -59523665920, -59590209536, -68866514944, -67619053568, -77016113152, -77016113152, -85165727744,
   -85165727744, -93315350528, -93315350528, 0, -78129700864, 102806863872, -159209914368, 171305222144,
   -192242434048, 171832786944, -162710421504, 114851840000, -91693039616, 28755021824, -2339599104, -67064320000,
   91782610944, -163230744576, 183932403712, -254665572352, 271058403328, -338034360320, 349843816448,
   -410321813504, 418073968640, -470490742784, 474429652992, -519857799168, 520158642176, -560113647616,
   557420707840, -594162155520, 588543819776, -623460286464, 615108509696, -649655156736, 638515216384, 0, 0, 0, 0,
   0, 0, 0, 0, 0, 0, 0, 0, 0, 0, 0, 0, 0, 0, 0, 0, 0, 0, 0, 0, 0, 0, 0, 0, 0, 0, 0, 0, 0, 0],
  [-22645473017856, 0, -47009652736, 0, 4734726144, 12416131072, -229097504, -286696576, -761106816, 1409694208,
   3659375616, 5107832832, 7948605440, 21467635712, 24891938816, 14225012736, 18141386752, 18612373504,
   22591520768, 20463765504, 24180602880, 19668480000, 23201040384, 50497048576, 50702319616, 60275777536,
   60426010624, 70141976576, 70228000768, 81497235456, 80138403840, 91579441152, 91579441152, 101661663232,
   101661663232, 111743852544, 111743852544, 0, 92099756032, -112523034624, 183811604480, -190017404928,
   221201317888, -190632624128, 187817345024, -126230634496, 107541291008, -28964632576, 6593517568, 79242067968,
   -99697049600, 187927347200, -203849826304, 291562356736, -302625456128, 386497708032, -392383922176,
   469198045184, -470490742784, 538184351744, -535147741184, 594692079616, -587518509056, 640619315200,
   -630040231936, 679366819840, -665460670464, 712673722368, -695659266048, 742447775744, -722263146496, 0, 0, 0,
   0, 0, 0, 0, 0, 0, 0, 0, 0, 0, 0, 0, 0, 0, 0, 0, 0, 0, 0, 0, 0, 0, 0, 0, 0, 0, 0, 0, 0, 0, 0],
  [22665580511232, 0, -93747724288, 0, -4737075712, -12422530048, 233559840, 291247488, 763313792, -1404587648,
   -3659299584, -5102299648, -7949571584, -21484597248, -24916447232, -14227567616, -18151565312, -18623879168,
   -22609989632, -20483297280, -24205998080, -19693363200, -23230685184, -50545889280, -50751418368, -60338630656,
   -60489076736, -70218817536, -70304989184, -81589174272, -80229318656, -91685625856, -91685625856, -101782077440,
   -101782077440, -111878520832, -111878520832, 0, -88659345408, 116140351488, -180450672640, 193702002688,
   -217873055744, 194318090240, -184460541952, 129861124096, -104115789824, 32512131072, -3081810432, -75787444224,
   103300071424, -184567644160, 207543926784, -288295321600, 306408161280, -383317803008, 396249268224,
   -466095734784, 474429652992, -535147741184, 539148451840, -591709339648, 591569289216, -637679763456,
   634131054592, -676462854144, 669584130048, -709799968768, 699810185216, -739600891904, 726438117376, 0, 0, 0, 0,
   0, 0, 0, 0, 0, 0, 0, 0, 0, 0, 0, 0, 0, 0, 0, 0, 0, 0, 0, 0, 0, 0, 0, 0, 0, 0, 0, 0, 0, 0],
  [-25033470640128, 0, -44533739520, 0, 5036660224, 13218652160, -366285472, -415229184, -919616320, 1406411520,
   3874810624, 5358582272, 8481789952, 24017422336, 27778381824, 15241815040, 19521269760, 20126281728,
   24440879104, 22380767232, 26390558720, 21952018432, 25754236928, 55910158336, 56133697536, 67080159232,
   67250798592, 78327971840, 78430470144, 91158364160, 89711304704, 102645374976, 102645374976, 114132377600,
   114132377600, 125619380224, 125619380224, 0, 101475442688, -124391571456, 202719395840, -209934532608,
   243991216128, -210597658624, 207121596416, -139499716608, 118503170048, -32167555072, 7110835712, 87183843328,
   -110123286528, 207052357632, -224990642176, 321434746880, -334014676992, 426397728768, -433268391936,
   518056542208, -519857799168, 594692079616, -591709339648, 657502371840, -649943252992, 708479942656,
   -697151848448, 751402745856, -736393166848, 788255801344, -769807286272, 821187706880, -799232098304, 0, 0, 0,
   0, 0, 0, 0, 0, 0, 0, 0, 0, 0, 0, 0, 0, 0, 0, 0, 0, 0, 0, 0, 0, 0, 0, 0, 0, 0, 0, 0, 0, 0, 0],
  [24878937800704, 0, -96043393024, 0, -5004668928, -13134219264, 367814208, 416810112, 915907968, -1392203648,
   -3847776768, -5317526528, -8424474112, -23866783744, -27607871488, -15140636672, -19396728832, -19999328256,
   -24289824768, -22244980736, -26231967744, -21822941184, -25603026944, -55568506880, -55790731264, -66673197056,
   -66842832896, -77855178752, -77957095424, -90610057216, -89171894272, -102029828096, -102029828096,
   -113449623552, -113449623552, -124869394432, -124869394432, 0, -97339826176, 127129329664, -197957320704,
   212143161344, -238974074880, 212802666496, -202333093888, 142145486848, -114263867392, 35478446080, -3561731840,
   -83134136320, 112946774016, -202262134784, 227104669696, -315939651584, 335457124352, -420257267712,
   434100731904, -511353290752, 520158642176, -587518509056, 591569289216, -649943252992, 649445900288,
   -700607561728, 696364498944, -743266320384, 735364382720, -779892359168, 768572719104, -812621365248,
   797816193024, 0, 0, 0, 0, 0, 0, 0, 0, 0, 0, 0, 0, 0, 0, 0, 0, 0, 0, 0, 0, 0, 0, 0, 0, 0, 0, 0, 0, 0, 0, 0, 0, 0,
   0]]

/-- Part 9 of `covOxygen`. -/
def covOxygen_9 : List (List ℤ) := [
  [-26995138232320, 0, -42501414912, 0, 5331273216, 14027285504, -432811424, -487123936, -1018976256, 1455324416,
   4110765312, 5666765312, 9023414272, 25783156736, 29819422720, 16213570560, 20793487360, 21441759232,
   26041569280, 23887456256, 28146036736, 23508836352, 27532836864, 59967320064, 60203843584, 72070995968,
   72253390848, 84255498240, 84369055744, 98106523648, 96582254592, 110542249984, 110542249984, 122978000896,
   122978000896, 135413743616, 135413743616, 0, 109185941504, -134149193728, 218264338432, -226301755392,
   262718062592, -226992816128, 222971068416, -150375399424, 127480193024, -34748796928, 7483347968, 93786611712,
   -118767943680, 222851334144, -242444025856, 346013270016, -359834910720, 459080237056, -466753847296,
   557899382784, -560113647616, 640619315200, -637679763456, 708479942656, -700607561728, 763556200448,
   -751620063232, 809886744576, -793981026304, 849629151232, -830015930368, 885127774208, -861733781504, 0, 0, 0,
   0, 0, 0, 0, 0, 0, 0, 0, 0, 0, 0, 0, 0, 0, 0, 0, 0, 0, 0, 0, 0, 0, 0, 0, 0, 0, 0, 0, 0, 0, 0],
  [26696583479296, 0, -97927135232, 0, -5271710208, -13869906944, 431134368, 485145600, 1009444352, -1434782848,
   -4062656256, -5597735936, -8919524352, -25496420352, -29490546688, -16028727296, -20560254976, -21202733056,
   -25753546752, -23625607168, -27838513152, -23254558720, -27235088384, -59307405312, -59541364736, -71280173056,
   -71460593664, -83332882432, -83445202944, -97033740288, -95526256640, -109334937600, -109334937600,
   -121636159488, -121636159488, -133937381376, -133937381376, 0, -104478171136, 136163041280, -212349059072,
   227295641600, -256310951936, 227979476992, -217004441600, 152210948096, -122571374592, 37865132032, -3903640320,
   -89247186944, 120949932032, -216884264960, 243258114048, -338685329408, 359352074240, -450504130560,
   465090871296, -548232888320, 557420707840, -630040166400, 634131054592, -697151848448, 696364498944,
   -751620063232, 746813849600, -797438902272, 788706951168, -836742283264, 824343658496, -871848607744,
   855711088640, 0, 0, 0, 0, 0, 0, 0, 0, 0, 0, 0, 0, 0, 0, 0, 0, 0, 0, 0, 0, 0, 0, 0, 0, 0, 0, 0, 0, 0, 0, 0, 0, 0,
   0],
  [-28653429719040, 0, -40788144128, 0, 5617238016, 14800428032, -465335616, -526413344, -1084949504, 1527899264,
   4342884864, 5981813248, 9536145408, 27191265280, 31461433344, 17113009152, 21952395264, 22618353664,
   27471134720, 25186334720, 29670838272, 24770725888, 29000364032, 63313977344, 63562113024, 76115337216,
   76306595840, 89003278336, 89123225600, 103643054080, 102042075136, 116793925632, 116793925632, 129944813568,
   129944813568, 143095693312, 143095693312, 0, 115725131776, -142422687744, 231444725760, -240178364416,
   278595141632, -240893509632, 236409176064, -159595003904, 135089807360, -36928503808, 7789741056, 99409526784,
   -126122786816, 236287639552, -257283162112, 366891696128, -381765091328, 486791184384, -495143550976,
   591599894528, -594162155520, 679366819840, -676462854144, 751402745856, -743266320384, 809886744576,
   -797438967808, 859077541888, -842417897472, 901254807552, -880661692416, 938915463168, -914311282688, 0, 0, 0,
   0, 0, 0, 0, 0, 0, 0, 0, 0, 0, 0, 0, 0, 0, 0, 0, 0, 0, 0, 0, 0, 0, 0, 0, 0, 0, 0, 0, 0, 0, 0],
  [28213969420288, 0, -99494985728, 0, -5530662400, -14571675648, 460977024, 521471552, 1070049792, -1500518656,
   -4273888000, -5884673536, -9386411008, -26773215232, -30979985408, -16846133248, -21613187072, -22270171136,
   -27050072064, -24802326528, -29219233792, -24395935744, -28561534976, -62346293248, -62590668800, -74953916416,
   -75142275072, -87646773248, -87764910080, -102064685056, -100488183808, -115016499200, -115016499200,
   -127968313344, -127968313344, -140920160256, -140920160256, 0, -110457774080, 143728574464, -224401637376,
   239984345088, -270828781568, 240688955392, -229290639360, 160638681088, -129526702080, 39855144960, -4180673792,
   -94390697984, 127676948480, -229169479680, 256825802752, -357771673600, 379399864320, -475834384384,
   491041554432, -579037888512, 588543819776, -665460670464, 669584130048, -736393166848, 735364382720,
   -793981026304, 788706951168, -842417897472, 832996507648, -883948650496, 870654214144, -921032065024,
   903787905024, 0, 0, 0, 0, 0, 0, 0, 0, 0, 0, 0, 0, 0, 0, 0, 0, 0, 0, 0, 0, 0, 0, 0, 0, 0, 0, 0, 0, 0, 0, 0, 0, 0,
   0],
  [-30073786728448, 0, -39322677248, 0, 5882567680, 15508191232, -482151648, -546860736, -1131643648, 1607463936,
   4558654464, 6277812224, 10002387968, 28436623360, 32910200832, 17928972288, 22997258240, 23679381504,
   28759472128, 26350399488, 31042238464, 25892585472, 30315169792, 66253824000, 66513027072, 79642189824,
   79841681408, 93121855488, 93246832640, 108434874368, 106759766016, 122189348864, 122189348864, 135943831552,
   135943831552, 149698314240, 149698314240, 0, 121348628480, -149536964608, 242778226688, -252112125952,
   292249600000, -252852584448, 247971381248, -167532675072, 141643481088, -38810963968, 8061025280, 104245690368,
   -132449124352, 247857004544, -270059831296, 384874086400, -400652468224, 510652874752, -519588937728,
   620599050240, -623460286464, 712673722368, -709799968768, 788255801344, -779892359168, 849629151232,
   -836742283264, 901254873088, -883948716032, 945516773376, -924083355648, 985032556544, -959390875648, 0, 0, 0,
   0, 0, 0, 0, 0, 0, 0, 0, 0, 0, 0, 0, 0, 0, 0, 0, 0, 0, 0, 0, 0, 0, 0, 0, 0, 0, 0, 0, 0, 0, 0],
  [29502673518592, 0, -100824645632, 0, -5770532352, -15212251136, 475519680, 539368064, 1111833728, -1573363456,
   -4469910528, -6153848832, -9809394688, -27895846912, -32286314496, -17584791552, -22558498816, -23228766208,
   -28213737472, -25852151808, -30455902208, -25405468672, -29744771072, -64998899712, -65253220352, -78135328768,
   -78331060224, -91361296384, -91483930624, -106385948672, -104742551552, -119881547776, -119881547776,
   -133377204224, -133377204224, -146872827904, -146872827904, 0, -115558268928, 150181183488, -234681073664,
   250807894016, -283212906496, 251534704640, -239776284672, 167836237824, -135468908544, 41560403968, -4424623616,
   -98778611712, 133416337408, -239662776320, 268413960192, -374079029248, 396527861760, -497471127552,
   513207631872, -605331456000, 615108509696, -695659266048, 699810185216, -769807286272, 768572719104,
   -830015930368, 824343658496, -880661692416, 870654148608, -924083355648, 910026997760, -962849079296,
   944664084480, 0, 0, 0, 0, 0, 0, 0, 0, 0, 0, 0, 0, 0, 0, 0, 0, 0, 0, 0, 0, 0, 0, 0, 0, 0, 0, 0, 0, 0, 0, 0, 0, 0,
   0],
  [-31337069150208, 0, -38017028096, 0, 6128665088, 16160887808, -491794240, -556612096, -1167522816, 1688259200,
   4759962112, 6553960448, 10431348736, 29601722368, 34259718144, 18682064896, 23959947264, 24661413888,
   29951885312, 27431403520, 32317540352, 26941552640, 31547193344, 68970807296, 69240676352, 82898173952,
   83105734656, 96920838144, 97050705920, 112853221376, 111108243456, 127161942016, 127161942016, 141470695424,
   141470695424, 155779448832, 155779448832, 0, 126368817152, -155887943680, 252895592448, -262767230976,
   304441360384, -263534592000, 258299969536, -174628700160, 147504529408, -40501821440, 8313419776, 108557418496,
   -138091839488, 258189328384, -281470861312, 400944660480, -417531920384, 531985268736, -541443162112,
   646526730240, -649655156736, 742447775744, -739600891904, 821187706880, -812621365248, 885127774208,
   -871848607744, 938915397632, -921032065024, 985032556544, -962849079296, 1026204106752, -999636008960, 0, 0, 0,
   0, 0, 0, 0, 0, 0, 0, 0, 0, 0, 0, 0, 0, 0, 0, 0, 0, 0, 0, 0, 0, 0, 0, 0, 0, 0, 0, 0, 0, 0, 0]]

/-- Part 10 of `covOxygen`. -/
def covOxygen_10 : List (List ℤ) := [
  [30631765475328, 0, -101991694336, 0, -5990497792, -15796011008, 483291456, 547148160, 1143139584, -1646607360,
   -4650632192, -6401912832, -10193734656, -28934805504, -33489776640, -18258370560, -23419086848, -24105756672,
   -29278470144, -26816204800, -31593326592, -26339508224, -30842142720, -67421855744, -67685683200, -81037901824,
   -81240809472, -94747140096, -94874107904, -110323179520, -108617416704, -124312109056, -124312109056,
   -138300997632, -138300997632, -152289918976, -152289918976, 0, -120044969984, 155857240064, -243723255808,
   260330520576, -294108856320, 261081055232, -249006718976, 174177370112, -140706234368, 43070570496, -4649189888,
   -102633013248, 138460250112, -248897388544, 278612574208, -388440915968, 411612577792, -516534042624,
   532736835584, -628499480576, 638515216384, -722263146496, 726438117376, -799232098304, 797816193024,
   -861733781504, 855711088640, -914311282688, 903787905024, -959390810112, 944664150016, -999635943424,
   980623360000, 0, 0, 0, 0, 0, 0, 0, 0, 0, 0, 0, 0, 0, 0, 0, 0, 0, 0, 0, 0, 0, 0, 0, 0, 0, 0, 0, 0, 0, 0, 0, 0, 0,
   0],
  [0, -39374295040, 0, 0, 0, 0, 0, 0, 0, 0, 0, 0, 0, 0, 0, 0, 0, 0, 0, 0, 0, 0, 0, 0, 0, 0, 0, 0, 0, 0, 0, 0, 0, 0,
   0, 0, 0, 0, 0, 0, 0, 0, 0, 0, 0, 0, 0, 0, 0, 0, 0, 0, 0, 0, 0, 0, 0, 0, 0, 0, 0, 0, 0, 0, 0, 0, 0, 0, 0, 0, 0,
   9354461184, -150503063552, 115812622336, -176633364480, 121860849664, -124459638784, 143448457216,
   -147598737408, 129763041280, -133311373312, 109947396096, -113285455872, 303188246528, -314075807744,
   203706597376, -206472478720, 106540384256, -106648043520, 175503179776, -176449323008, 344745902080,
   -345321996288, 589774585856, -587157995520, 763839447040, -756627734528, 860930113536, -848974512128,
   896926482432, -881217110016, 923582726144, -904362328064, 950931619840, -928224641024],
  [0, 674969026560, 0, 0, 0, 0, 0, 0, 0, 0, 0, 0, 0, 0, 0, 0, 0, 0, 0, 0, 0, 0, 0, 0, 0, 0, 0, 0, 0, 0, 0, 0, 0, 0,
   0, 0, 0, 0, 0, 0, 0, 0, 0, 0, 0, 0, 0, 0, 0, 0, 0, 0, 0, 0, 0, 0, 0, 0, 0, 0, 0, 0, 0, 0, 0, 0, 0, 0, 0, 0, 0,
   -150503063552, 2440035565568, -1855760891904, 2831340011520, -1916216672256, 1935851782144, -2226623873024,
   2272651378688, -1981323673600, 2025731915776, -1727770918912, 1780079656960, -4695058808832, 4863291817984,
   -3113673031680, 3155357597696, -1611417780224, 1612594937856, -2681068584960, 2695623868416, -5293709197312,
   5302749495296, -9084324544512, 9044197638144, -11779097755648, 11668030488576, -13281281441792, 13096984772608,
   -13837580369920, 13595332050944, -14248326463488, 13951912902656, -14669190266880, 14319035088896],
  [0, -830459150336, 0, 0, 0, 0, 0, 0, 0, 0, 0, 0, 0, 0, 0, 0, 0, 0, 0, 0, 0, 0, 0, 0, 0, 0, 0, 0, 0, 0, 0, 0, 0,
   0, 0, 0, 0, 0, 0, 0, 0, 0, 0, 0, 0, 0, 0, 0, 0, 0, 0, 0, 0, 0, 0, 0, 0, 0, 0, 0, 0, 0, 0, 0, 0, 0, 0, 0, 0, 0,
   0, 115812622336, -1855760891904, 1724956934144, -2689510408192, 1701516017664, -1723833253888, 1682876792832,
   -1658174439424, 1426960154624, -1419014307840, 1397775400960, -1418042408960, 3493433442304, -3593729474560,
   2152236187648, -2159008415744, 951748198400, -934684327936, 1691860336640, -1691069710336, 3577586647040,
   -3577680494592, 6348287770624, -6316016795648, 8313769033728, -8232202928128, 9394785878016, -9261883064320,
   9779787333632, -9606438846464, 10060526780416, -9849356156928, 10351187853312, -10102476111872],
  [0, 1332839186432, 0, 0, 0, 0, 0, 0, 0, 0, 0, 0, 0, 0, 0, 0, 0, 0, 0, 0, 0, 0, 0, 0, 0, 0, 0, 0, 0, 0, 0, 0, 0,
   0, 0, 0, 0, 0, 0, 0, 0, 0, 0, 0, 0, 0, 0, 0, 0, 0, 0, 0, 0, 0, 0, 0, 0, 0, 0, 0, 0, 0, 0, 0, 0, 0, 0, 0, 0, 0,
   0, -176633364480, 2831340011520, -2689510408192, 4203773427712, -2618519191552, 2644023443456, -2536608890880,
   2482152931328, -2125290668032, 2102133260288, -2136729845760, 2164323385344, -5263741943808, 5409945944064,
   -3198940086272, 3203971940352, -1373270966272, 1343757090816, -2475854397440, 2472224227328, -5301604974592,
   5300393345024, -9462290055168, 9413285904384, -12413252403200, 12290801795072, -14032989847552, 13833951248384,
   -14606542045184, 14347197743104, -15023713812480, 14707981287424, -15456149700608, 15084452577280],
  [0, -1327410446336, 0, 0, 0, 0, 0, 0, 0, 0, 0, 0, 0, 0, 0, 0, 0, 0, 0, 0, 0, 0, 0, 0, 0, 0, 0, 0, 0, 0, 0, 0, 0,
   0, 0, 0, 0, 0, 0, 0, 0, 0, 0, 0, 0, 0, 0, 0, 0, 0, 0, 0, 0, 0, 0, 0, 0, 0, 0, 0, 0, 0, 0, 0, 0, 0, 0, 0, 0, 0,
   0, 121860849664, -1916216672256, 1701516017664, -2618519191552, 2748235644928, -3150866022400, 1863204470784,
   -1750683615232, 1697148305408, -1635811328000, 1376819478528, -1340816752640, 3603361693696, -3675880161280,
   2020093984768, -2001979572224, 586462724096, -550387580928, 1307598651392, -1296552951808, 3264303857664,
   -3259973500928, 6188072173568, -6153942597632, 8262144491520, -8179167002624, 9385320382464, -9251036594176,
   9766774505472, -9592345985024, 10036088668160, -9824257441792, 10316534513664, -10067701137408],
  [0, 1500304900096, 0, 0, 0, 0, 0, 0, 0, 0, 0, 0, 0, 0, 0, 0, 0, 0, 0, 0, 0, 0, 0, 0, 0, 0, 0, 0, 0, 0, 0, 0, 0,
   0, 0, 0, 0, 0, 0, 0, 0, 0, 0, 0, 0, 0, 0, 0, 0, 0, 0, 0, 0, 0, 0, 0, 0, 0, 0, 0, 0, 0, 0, 0, 0, 0, 0, 0, 0, 0,
   0, -124459638784, 1935851782144, -1723833253888, 2644023443456, -3150866022400, 3694990196736, -1951596019712,
   1811115540480, -1831302332416, 1754594672640, -1402262650880, 1347186327552, -3724324634624, 3789045104640,
   -2038645784576, 2011908407296, -496884154368, 453661458432, -1230575632384, 1215796346880, -3262067507200,
   3256025350144, -6307732520960, 6271914213376, -8467120652288, 8381344514048, -9631300583424, 9492902182912,
   -10021164285952, 9841681629184, -10294154756096, 10076418998272, -10579252084736, 10323686850560]]

/-- Part 11 of `covOxygen`. -/
def covOxygen_11 : List (List ℤ) := [
  [0, -884400979968, 0, 0, 0, 0, 0, 0, 0, 0, 0, 0, 0, 0, 0, 0, 0, 0, 0, 0, 0, 0, 0, 0, 0, 0, 0, 0, 0, 0, 0, 0, 0,
   0, 0, 0, 0, 0, 0, 0, 0, 0, 0, 0, 0, 0, 0, 0, 0, 0, 0, 0, 0, 0, 0, 0, 0, 0, 0, 0, 0, 0, 0, 0, 0, 0, 0, 0, 0, 0,
   0, 143448457216, -2226623873024, 1682876792832, -2536608890880, 1863204470784, -1951596019712, 4676585521152,
   -5250522546176, 2196183580672, -2158019870720, 837338267648, -767817547776, 5681555439616, -5872736010240,
   3919682469888, -3964111945728, 1741760626688, -1731099492352, 2876682797056, -2885386502144, 5979699675136,
   -5985942372352, 10449678499840, -10400636600320, 13603953442816, -13473461305344, 15348086603776,
   -15133238624256, 15979032608768, -15697695473664, 16444307800064, -16100771233792, 16926006837248,
   -16520653570048],
  [0, 749651361792, 0, 0, 0, 0, 0, 0, 0, 0, 0, 0, 0, 0, 0, 0, 0, 0, 0, 0, 0, 0, 0, 0, 0, 0, 0, 0, 0, 0, 0, 0, 0, 0,
   0, 0, 0, 0, 0, 0, 0, 0, 0, 0, 0, 0, 0, 0, 0, 0, 0, 0, 0, 0, 0, 0, 0, 0, 0, 0, 0, 0, 0, 0, 0, 0, 0, 0, 0, 0, 0,
   -147598737408, 2272651378688, -1658174439424, 2482152931328, -1750683615232, 1811115540480, -5250522546176,
   5966934835200, -2394869202944, 2375361757184, -766842109952, 693716844544, -6233053986816, 6454644310016,
   -4437257486336, 4498030854144, -2070431006720, 2066562023424, -3322458144768, 3336474984448, -6746722533376,
   6755760734208, -11650584281088, 11597204422656, -15108517396480, 14964540571648, -17027639017472,
   16790008627200, -17729012629504, 17417483845632, -18249706110976, 17868995428352, -18788435099648, 18338902179840],
  [0, 11270390784, 0, 0, 0, 0, 0, 0, 0, 0, 0, 0, 0, 0, 0, 0, 0, 0, 0, 0, 0, 0, 0, 0, 0, 0, 0, 0, 0, 0, 0, 0, 0, 0,
   0, 0, 0, 0, 0, 0, 0, 0, 0, 0, 0, 0, 0, 0, 0, 0, 0, 0, 0, 0, 0, 0, 0, 0, 0, 0, 0, 0, 0, 0, 0, 0, 0, 0, 0, 0, 0,
   129763041280, -1981323673600, 1426960154624, -2125290668032, 1697148305408, -1831302332416, 2196183580672,
   -2394869202944, 4591334719488, -5021870063616, 1529796100096, -1550095613952, 4620252872704, -4783011790848,
   4377892356096, -4458670456832, 2876112633856, -2899704545280, 3936839532544, -3962320977920, 7055081472000,
   -7067492417536, 11694344503296, -11642339328000, 14993145724928, -14851257663488, 16848869392384,
   -16614432964608, 17540929552384, -17233309859840, 18064036855808, -17687736483840, 18605764771840,
   -18160979804160],
  [0, -226157821952, 0, 0, 0, 0, 0, 0, 0, 0, 0, 0, 0, 0, 0, 0, 0, 0, 0, 0, 0, 0, 0, 0, 0, 0, 0, 0, 0, 0, 0, 0, 0,
   0, 0, 0, 0, 0, 0, 0, 0, 0, 0, 0, 0, 0, 0, 0, 0, 0, 0, 0, 0, 0, 0, 0, 0, 0, 0, 0, 0, 0, 0, 0, 0, 0, 0, 0, 0, 0,
   0, -133311373312, 2025731915776, -1419014307840, 2102133260288, -1635811328000, 1754594672640, -2158019870720,
   2375361757184, -5021870063616, 5528227938304, -1659556724736, 1699243753472, -4913113333760, 5096739438592,
   -4811431870464, 4909215252480, -3272147730432, 3305622994944, -4420719345664, 4452657397760, -7783395622912,
   7798854778880, -12771178577920, 12715569446912, -16318501748736, 16164947230720, -18321915248640,
   18067664928768, -19076376166400, 18742413099008, -19649722843136, 19240904032256, -20242898092032, 19759387115520],
  [0, -186701971456, 0, 0, 0, 0, 0, 0, 0, 0, 0, 0, 0, 0, 0, 0, 0, 0, 0, 0, 0, 0, 0, 0, 0, 0, 0, 0, 0, 0, 0, 0, 0,
   0, 0, 0, 0, 0, 0, 0, 0, 0, 0, 0, 0, 0, 0, 0, 0, 0, 0, 0, 0, 0, 0, 0, 0, 0, 0, 0, 0, 0, 0, 0, 0, 0, 0, 0, 0, 0,
   0, 109947396096, -1727770918912, 1397775400960, -2136729845760, 1376819478528, -1402262650880, 837338267648,
   -766842109952, 1529796100096, -1659556724736, 4003919298560, -4272937238528, 3780542464000, -3894562783232,
   1360342679552, -1349345607680, 1262948057088, -1261812449280, 2736191438848, -2752446988288, 4942076575744,
   -4950380773376, 8099792945152, -8063844089856, 10382432272384, -10284352667648, 11681495252992, -11519136890880,
   12171502157824, -11958209216512, 12538033995776, -12276997292032, 12914553520128, -12605950263296],
  [0, 70556704768, 0, 0, 0, 0, 0, 0, 0, 0, 0, 0, 0, 0, 0, 0, 0, 0, 0, 0, 0, 0, 0, 0, 0, 0, 0, 0, 0, 0, 0, 0, 0, 0,
   0, 0, 0, 0, 0, 0, 0, 0, 0, 0, 0, 0, 0, 0, 0, 0, 0, 0, 0, 0, 0, 0, 0, 0, 0, 0, 0, 0, 0, 0, 0, 0, 0, 0, 0, 0, 0,
   -113285455872, 1780079656960, -1418042408960, 2164323385344, -1340816752640, 1347186327552, -767817547776,
   693716844544, -1550095613952, 1699243753472, -4272937238528, 4573892182016, -4019990298624, 4150080045056,
   -1488760078336, 1484120784896, -1426551734272, 1430496083968, -3004349546496, 3024660725760, -5348086775808,
   5358432026624, -8683600740352, 8645992513536, -11095208099840, 10991098134528, -12473185861632, 12300380536832,
   -12998510903296, 12771201646592, -13393333321728, 13114910179328, -13798267158528, 13468888465408],
  [0, 266747691008, 0, 0, 0, 0, 0, 0, 0, 0, 0, 0, 0, 0, 0, 0, 0, 0, 0, 0, 0, 0, 0, 0, 0, 0, 0, 0, 0, 0, 0, 0, 0, 0,
   0, 0, 0, 0, 0, 0, 0, 0, 0, 0, 0, 0, 0, 0, 0, 0, 0, 0, 0, 0, 0, 0, 0, 0, 0, 0, 0, 0, 0, 0, 0, 0, 0, 0, 0, 0, 0,
   303188246528, -4695058808832, 3493433442304, -5263741943808, 3603361693696, -3724324634624, 5681555439616,
   -6233053986816, 4620252872704, -4913113333760, 3780542464000, -4019990298624, 15648235192320, -16332319883264,
   10132052246528, -10322158026752, 4170975805440, -4185130008576, 7690832052224, -7744217153536, 15721920724992,
   -15755015880704, 26240568262656, -26128657940480, 33552898981888, -33239513169920, 37671200096256,
   -37150531780608, 39238586335232, -38553463554048, 40428896256000, -39589364367360, 41654866149376,
   -40661298446336]]

/-- Part 12 of `covOxygen`. -/
def covOxygen_12 : List (List ℤ) := [
  [0, -372057800704, 0, 0, 0, 0, 0, 0, 0, 0, 0, 0, 0, 0, 0, 0, 0, 0, 0, 0, 0, 0, 0, 0, 0, 0, 0, 0, 0, 0, 0, 0, 0,
   0, 0, 0, 0, 0, 0, 0, 0, 0, 0, 0, 0, 0, 0, 0, 0, 0, 0, 0, 0, 0, 0, 0, 0, 0, 0, 0, 0, 0, 0, 0, 0, 0, 0, 0, 0, 0,
   0, -314075807744, 4863291817984, -3593729474560, 5409945944064, -3675880161280, 3789045104640, -5872736010240,
   6454644310016, -4783011790848, 5096739438592, -3894562783232, 4150080045056, -16332319883264, 17053723394048,
   -10655161647104, 10860891209728, -4446179819520, 4465603117056, -8113146036224, 8171418025984, -16498993135616,
   16534815637504, -27474851266560, 27358434164736, -35105137491968, 34777824493568, -39406396243968,
   38862197882880, -41047736451072, 40331412242432, -42295567056896, 41417615343616, -43580219457536, 42541009338368],
  [0, 1564749463552, 0, 0, 0, 0, 0, 0, 0, 0, 0, 0, 0, 0, 0, 0, 0, 0, 0, 0, 0, 0, 0, 0, 0, 0, 0, 0, 0, 0, 0, 0, 0,
   0, 0, 0, 0, 0, 0, 0, 0, 0, 0, 0, 0, 0, 0, 0, 0, 0, 0, 0, 0, 0, 0, 0, 0, 0, 0, 0, 0, 0, 0, 0, 0, 0, 0, 0, 0, 0,
   0, 203706597376, -3113673031680, 2152236187648, -3198940086272, 2020093984768, -2038645784576, 3919682469888,
   -4437257486336, 4377892356096, -4811431870464, 1360342679552, -1488760078336, 10132052246528, -10655161647104,
   11603543064576, -11916427657216, 6278051528704, -6351195996160, 5923147350016, -5961957244928, 11369559621632,
   -11390321426432, 19610239762432, -19523285549056, 25326459551744, -25087086428160, 28511146344448,
   -28114862211072, 29692929245184, -29172648902656, 30583474356224, -29946804174848, 31506498060288,
   -30753714864128],
  [0, -1668410114048, 0, 0, 0, 0, 0, 0, 0, 0, 0, 0, 0, 0, 0, 0, 0, 0, 0, 0, 0, 0, 0, 0, 0, 0, 0, 0, 0, 0, 0, 0, 0,
   0, 0, 0, 0, 0, 0, 0, 0, 0, 0, 0, 0, 0, 0, 0, 0, 0, 0, 0, 0, 0, 0, 0, 0, 0, 0, 0, 0, 0, 0, 0, 0, 0, 0, 0, 0, 0,
   0, -206472478720, 3155357597696, -2159008415744, 3203971940352, -2001979572224, 2011908407296, -3964111945728,
   4498030854144, -4458670456832, 4909215252480, -1349345607680, 1484120784896, -10322158026752, 10860891209728,
   -11916427657216, 12242099634176, -6510449000448, 6589495377920, -6140312682496, 6182294519808, -11703902273536,
   11726245330944, -20125025566720, 20036456546304, -25968261464064, 25723320401920, -29227114037248,
   28821273182208, -30440186445824, 29907153321984, -31355448590336, 30703009923072, -32303531163648, 31531951194112],
  [0, 1787335540736, 0, 0, 0, 0, 0, 0, 0, 0, 0, 0, 0, 0, 0, 0, 0, 0, 0, 0, 0, 0, 0, 0, 0, 0, 0, 0, 0, 0, 0, 0, 0,
   0, 0, 0, 0, 0, 0, 0, 0, 0, 0, 0, 0, 0, 0, 0, 0, 0, 0, 0, 0, 0, 0, 0, 0, 0, 0, 0, 0, 0, 0, 0, 0, 0, 0, 0, 0, 0,
   0, 106540384256, -1611417780224, 951748198400, -1373270966272, 586462724096, -496884154368, 1741760626688,
   -2070431006720, 2876112633856, -3272147730432, 1262948057088, -1426551734272, 4170975805440, -4446179819520,
   6278051528704, -6510449000448, 7810248081408, -7956999962624, 6827509022720, -6881203978240, 7283817316352,
   -7293228285952, 11198000005120, -11143664893952, 14483297665024, -14341790236672, 16404811087872,
   -16172897533952, 17101030948864, -16798116216832, 17610005544960, -17240615288832, 18137640599552,
   -17702022283264],
  [0, -1847825137664, 0, 0, 0, 0, 0, 0, 0, 0, 0, 0, 0, 0, 0, 0, 0, 0, 0, 0, 0, 0, 0, 0, 0, 0, 0, 0, 0, 0, 0, 0, 0,
   0, 0, 0, 0, 0, 0, 0, 0, 0, 0, 0, 0, 0, 0, 0, 0, 0, 0, 0, 0, 0, 0, 0, 0, 0, 0, 0, 0, 0, 0, 0, 0, 0, 0, 0, 0, 0,
   0, -106648043520, 1612594937856, -934684327936, 1343757090816, -550387580928, 453661458432, -1731099492352,
   2066562023424, -2899704545280, 3305622994944, -1261812449280, 1430496083968, -4185130008576, 4465603117056,
   -6351195996160, 6589495377920, -7956999962624, 8108852117504, -6994174410752, 7050812194816, -7465661366272,
   7476368375808, -11427018440704, 11372326813696, -14753466417152, 14609892245504, -16702517542912,
   16466846941184, -17412963434496, 17104908582912, -17933698859008, 17557858811904, -18472857763840, 18029467402240],
  [0, 1414404374528, 0, 0, 0, 0, 0, 0, 0, 0, 0, 0, 0, 0, 0, 0, 0, 0, 0, 0, 0, 0, 0, 0, 0, 0, 0, 0, 0, 0, 0, 0, 0,
   0, 0, 0, 0, 0, 0, 0, 0, 0, 0, 0, 0, 0, 0, 0, 0, 0, 0, 0, 0, 0, 0, 0, 0, 0, 0, 0, 0, 0, 0, 0, 0, 0, 0, 0, 0, 0,
   0, 175503179776, -2681068584960, 1691860336640, -2475854397440, 1307598651392, -1230575632384, 2876682797056,
   -3322458144768, 3936839532544, -4420719345664, 2736191438848, -3004349546496, 7690832052224, -8113146036224,
   5923147350016, -6140312682496, 6827509022720, -6994174410752, 11555591684096, -11684337942528, 15114232135680,
   -15159248551936, 20364258181120, -20284648194048, 24799126487040, -24571478540288, 27665419468800,
   -27285560229888, 28866221441024, -28364297469952, 29794169257984, -29177419923456, 30733043236864,
   -30001541939200],
  [0, -1439359303680, 0, 0, 0, 0, 0, 0, 0, 0, 0, 0, 0, 0, 0, 0, 0, 0, 0, 0, 0, 0, 0, 0, 0, 0, 0, 0, 0, 0, 0, 0, 0,
   0, 0, 0, 0, 0, 0, 0, 0, 0, 0, 0, 0, 0, 0, 0, 0, 0, 0, 0, 0, 0, 0, 0, 0, 0, 0, 0, 0, 0, 0, 0, 0, 0, 0, 0, 0, 0,
   0, -176449323008, 2695623868416, -1691069710336, 2472224227328, -1296552951808, 1215796346880, -2885386502144,
   3336474984448, -3962320977920, 4452657397760, -2752446988288, 3024660725760, -7744217153536, 8171418025984,
   -5961957244928, 6182294519808, -6881203978240, 7050812194816, -11684337942528, 11815801061376, -15321562873856,
   15368114405376, -20643900817408, 20563892371456, -25128469528576, 24898357428224, -28026278510592,
   27641916686336, -29243916419072, 28735810043904, -30186047275008, 29561521700864, -31138791817216, 30397905764352]]

/-- Part 13 of `covOxygen`. -/
def covOxygen_13 : List (List ℤ) := [
  [0, 1112101879808, 0, 0, 0, 0, 0, 0, 0, 0, 0, 0, 0, 0, 0, 0, 0, 0, 0, 0, 0, 0, 0, 0, 0, 0, 0, 0, 0, 0, 0, 0, 0,
   0, 0, 0, 0, 0, 0, 0, 0, 0, 0, 0, 0, 0, 0, 0, 0, 0, 0, 0, 0, 0, 0, 0, 0, 0, 0, 0, 0, 0, 0, 0, 0, 0, 0, 0, 0, 0,
   0, 344745902080, -5293709197312, 3577586647040, -5301604974592, 3264303857664, -3262067507200, 5979699675136,
   -6746722533376, 7055081472000, -7783395622912, 4942076575744, -5348086775808, 15721920724992, -16498993135616,
   11369559621632, -11703902273536, 7283817316352, -7465661366272, 15114232135680, -15321562873856, 27929482362880,
   -28043882004480, 41417049112576, -41278809047040, 50382256472064, -49940730478592, 55769839960064,
   -55021622263808, 58142125719552, -57146045628416, 60055575592960, -58825310732288, 61988466065408,
   -60523412455424],
  [0, -1119466684416, 0, 0, 0, 0, 0, 0, 0, 0, 0, 0, 0, 0, 0, 0, 0, 0, 0, 0, 0, 0, 0, 0, 0, 0, 0, 0, 0, 0, 0, 0, 0,
   0, 0, 0, 0, 0, 0, 0, 0, 0, 0, 0, 0, 0, 0, 0, 0, 0, 0, 0, 0, 0, 0, 0, 0, 0, 0, 0, 0, 0, 0, 0, 0, 0, 0, 0, 0, 0,
   0, -345321996288, 5302749495296, -3577680494592, 5300393345024, -3259973500928, 3256025350144, -5985942372352,
   6755760734208, -7067492417536, 7798854778880, -4950380773376, 5358432026624, -15755015880704, 16534815637504,
   -11390321426432, 11726245330944, -7293228285952, 7476368375808, -15159248551936, 15368114405376,
   -28043882004480, 28159443468288, -41600721879040, 41462397927424, -50608514007040, 50165431926784,
   -56018927091712, 55267714662400, -58403137257472, 57402888028160, -60326590545920, 59091040862208,
   -62269224386560, 60797753491456],
  [0, 894949457920, 0, 0, 0, 0, 0, 0, 0, 0, 0, 0, 0, 0, 0, 0, 0, 0, 0, 0, 0, 0, 0, 0, 0, 0, 0, 0, 0, 0, 0, 0, 0, 0,
   0, 0, 0, 0, 0, 0, 0, 0, 0, 0, 0, 0, 0, 0, 0, 0, 0, 0, 0, 0, 0, 0, 0, 0, 0, 0, 0, 0, 0, 0, 0, 0, 0, 0, 0, 0, 0,
   589774585856, -9084324544512, 6348287770624, -9462290055168, 6188072173568, -6307732520960, 10449678499840,
   -11650584281088, 11694344503296, -12771178577920, 8099792945152, -8683600740352, 26240568262656,
   -27474851266560, 19610239762432, -20125025566720, 11198000005120, -11427018440704, 20364258181120,
   -20643900817408, 41417049112576, -41600721879040, 67151318745088, -66935056236544, 83998034362368,
   -83268393238528, 93324018974720, -92078117748736, 97272905859072, -95612003418112, 100445183803392,
   -98392348819456, 103662953168896, -101216843464704],
  [0, -893653286912, 0, 0, 0, 0, 0, 0, 0, 0, 0, 0, 0, 0, 0, 0, 0, 0, 0, 0, 0, 0, 0, 0, 0, 0, 0, 0, 0, 0, 0, 0, 0,
   0, 0, 0, 0, 0, 0, 0, 0, 0, 0, 0, 0, 0, 0, 0, 0, 0, 0, 0, 0, 0, 0, 0, 0, 0, 0, 0, 0, 0, 0, 0, 0, 0, 0, 0, 0, 0,
   0, -587157995520, 9044197638144, -6316016795648, 9413285904384, -6153942597632, 6271914213376, -10400636600320,
   11597204422656, -11642339328000, 12715569446912, -8063844089856, 8645992513536, -26128657940480, 27358434164736,
   -19523285549056, 20036456546304, -11143664893952, 11372326813696, -20284648194048, 20563892371456,
   -41278809047040, 41462397927424, -66935056236544, 66719917801472, -83731452788736, 83004462465024,
   -93028798693376, 91787108548608, -96966822330368, 95311389261824, -100130275459072, 98084084252672,
   -103338716692480, 100900416782336],
  [0, 796714598400, 0, 0, 0, 0, 0, 0, 0, 0, 0, 0, 0, 0, 0, 0, 0, 0, 0, 0, 0, 0, 0, 0, 0, 0, 0, 0, 0, 0, 0, 0, 0, 0,
   0, 0, 0, 0, 0, 0, 0, 0, 0, 0, 0, 0, 0, 0, 0, 0, 0, 0, 0, 0, 0, 0, 0, 0, 0, 0, 0, 0, 0, 0, 0, 0, 0, 0, 0, 0, 0,
   763839447040, -11779097755648, 8313769033728, -12413252403200, 8262144491520, -8467120652288, 13603953442816,
   -15108517396480, 14993145724928, -16318501748736, 10382432272384, -11095208099840, 33552898981888,
   -35105137491968, 25326459551744, -25968261464064, 14483297665024, -14753466417152, 24799126487040,
   -25128469528576, 50382256472064, -50608514007040, 83998034362368, -83731452788736, 107107609214976,
   -106180064051200, 119770707918848, -118174246764544, 124951612882944, -122820562518016, 129008880582656,
   -126374488571904, 133119659212800, -129980256223232],
  [0, -790643998720, 0, 0, 0, 0, 0, 0, 0, 0, 0, 0, 0, 0, 0, 0, 0, 0, 0, 0, 0, 0, 0, 0, 0, 0, 0, 0, 0, 0, 0, 0, 0,
   0, 0, 0, 0, 0, 0, 0, 0, 0, 0, 0, 0, 0, 0, 0, 0, 0, 0, 0, 0, 0, 0, 0, 0, 0, 0, 0, 0, 0, 0, 0, 0, 0, 0, 0, 0, 0,
   0, -756627734528, 11668030488576, -8232202928128, 12290801795072, -8179167002624, 8381344514048,
   -13473461305344, 14964540571648, -14851257663488, 16164947230720, -10284352667648, 10991098134528,
   -33239513169920, 34777824493568, -25087086428160, 25723320401920, -14341790236672, 14609892245504,
   -24571478540288, 24898357428224, -49940730478592, 50165431926784, -83268393238528, 83004462465024,
   -106180064051200, 105260840386560, -118734739996672, 117152304594944, -123872460406784, 121760015974400,
   -127895678746624, 125284179247104, -131971594321920, 128859403976704],
  [0, 825526517760, 0, 0, 0, 0, 0, 0, 0, 0, 0, 0, 0, 0, 0, 0, 0, 0, 0, 0, 0, 0, 0, 0, 0, 0, 0, 0, 0, 0, 0, 0, 0, 0,
   0, 0, 0, 0, 0, 0, 0, 0, 0, 0, 0, 0, 0, 0, 0, 0, 0, 0, 0, 0, 0, 0, 0, 0, 0, 0, 0, 0, 0, 0, 0, 0, 0, 0, 0, 0, 0,
   860930113536, -13281281441792, 9394785878016, -14032989847552, 9385320382464, -9631300583424, 15348086603776,
   -17027639017472, 16848869392384, -18321915248640, 11681495252992, -12473185861632, 37671200096256,
   -39406396243968, 28511146344448, -29227114037248, 16404811087872, -16702517542912, 27665419468800,
   -28026278510592, 55769839960064, -56018927091712, 93324018974720, -93028798693376, 119770707918848,
   -118734739996672, 134540681019392, -132748245204992, 140542386110464, -138146356396032, 145113523159040,
   -142151119798272, 149721972736000, -146191744499712]]

/-- Part 14 of `covOxygen`. -/
def covOxygen_14 : List (List ℤ) := [
  [0, -815042330624, 0, 0, 0, 0, 0, 0, 0, 0, 0, 0, 0, 0, 0, 0, 0, 0, 0, 0, 0, 0, 0, 0, 0, 0, 0, 0, 0, 0, 0, 0, 0,
   0, 0, 0, 0, 0, 0, 0, 0, 0, 0, 0, 0, 0, 0, 0, 0, 0, 0, 0, 0, 0, 0, 0, 0, 0, 0, 0, 0, 0, 0, 0, 0, 0, 0, 0, 0, 0,
   0, -848974512128, 13096984772608, -9261883064320, 13833951248384, -9251036594176, 9492902182912,
   -15133238624256, 16790008627200, -16614432964608, 18067664928768, -11519136890880, 12300380536832,
   -37150531780608, 38862197882880, -28114862211072, 28821273182208, -16172897533952, 16466846941184,
   -27285560229888, 27641916686336, -55021622263808, 55267714662400, -92078117748736, 91787108548608,
   -118174246764544, 117152304594944, -132748245204992, 130979867918336, -138671332261888, 136307363807232,
   -143182448820224, 140259606134784, -147730064211968, 144246912843776],
  [0, 854696722432, 0, 0, 0, 0, 0, 0, 0, 0, 0, 0, 0, 0, 0, 0, 0, 0, 0, 0, 0, 0, 0, 0, 0, 0, 0, 0, 0, 0, 0, 0, 0, 0,
   0, 0, 0, 0, 0, 0, 0, 0, 0, 0, 0, 0, 0, 0, 0, 0, 0, 0, 0, 0, 0, 0, 0, 0, 0, 0, 0, 0, 0, 0, 0, 0, 0, 0, 0, 0, 0,
   896926482432, -13837580369920, 9779787333632, -14606542045184, 9766774505472, -10021164285952, 15979032608768,
   -17729012629504, 17540929552384, -19076376166400, 12171502157824, -12998510903296, 39238586335232,
   -41047736451072, 29692929245184, -30440186445824, 17101030948864, -17412963434496, 28866221441024,
   -29243916419072, 58142125719552, -58403137257472, 97272905859072, -96966822330368, 124951612882944,
   -123872460406784, 140542386110464, -138671332261888, 146919053590528, -144415473532928, 151719619067904,
   -148623417409536, 156536642994176, -152846594998272],
  [0, -840553791488, 0, 0, 0, 0, 0, 0, 0, 0, 0, 0, 0, 0, 0, 0, 0, 0, 0, 0, 0, 0, 0, 0, 0, 0, 0, 0, 0, 0, 0, 0, 0,
   0, 0, 0, 0, 0, 0, 0, 0, 0, 0, 0, 0, 0, 0, 0, 0, 0, 0, 0, 0, 0, 0, 0, 0, 0, 0, 0, 0, 0, 0, 0, 0, 0, 0, 0, 0, 0,
   0, -881217110016, 13595332050944, -9606438846464, 14347197743104, -9592345985024, 9841681629184,
   -15697695473664, 17417483845632, -17233309859840, 18742413099008, -11958209216512, 12771201646592,
   -38553463554048, 40331412242432, -29172648902656, 29907153321984, -16798116216832, 17104908582912,
   -28364297469952, 28735810043904, -57146045628416, 57402888028160, -95612003418112, 95311389261824,
   -122820562518016, 121760015974400, -138146356396032, 136307363807232, -144415473532928, 141954708930560,
   -149134954725376, 146091601297408, -153870340718592, 150243240837120],
  [0, 891490533376, 0, 0, 0, 0, 0, 0, 0, 0, 0, 0, 0, 0, 0, 0, 0, 0, 0, 0, 0, 0, 0, 0, 0, 0, 0, 0, 0, 0, 0, 0, 0, 0,
   0, 0, 0, 0, 0, 0, 0, 0, 0, 0, 0, 0, 0, 0, 0, 0, 0, 0, 0, 0, 0, 0, 0, 0, 0, 0, 0, 0, 0, 0, 0, 0, 0, 0, 0, 0, 0,
   923582726144, -14248326463488, 10060526780416, -15023713812480, 10036088668160, -10294154756096, 16444307800064,
   -18249706110976, 18064036855808, -19649722843136, 12538033995776, -13393333321728, 40428896256000,
   -42295567056896, 30583474356224, -31355448590336, 17610005544960, -17933698859008, 29794169257984,
   -30186047275008, 60055575592960, -60326590545920, 100445183803392, -100130275459072, 129008880582656,
   -127895678746624, 145113523159040, -143182448820224, 151719619067904, -149134954725376, 156689919639552,
   -153492920467456, 161668340383744, -157857831976960],
  [0, -873666117632, 0, 0, 0, 0, 0, 0, 0, 0, 0, 0, 0, 0, 0, 0, 0, 0, 0, 0, 0, 0, 0, 0, 0, 0, 0, 0, 0, 0, 0, 0, 0,
   0, 0, 0, 0, 0, 0, 0, 0, 0, 0, 0, 0, 0, 0, 0, 0, 0, 0, 0, 0, 0, 0, 0, 0, 0, 0, 0, 0, 0, 0, 0, 0, 0, 0, 0, 0, 0,
   0, -904362328064, 13951912902656, -9849356156928, 14707981287424, -9824257441792, 10076418998272,
   -16100771233792, 17868995428352, -17687736483840, 19240904032256, -12276997292032, 13114910179328,
   -39589364367360, 41417615343616, -29946804174848, 30703009923072, -17240615288832, 17557858811904,
   -29177419923456, 29561521700864, -58825310732288, 59091040862208, -98392348819456, 98084084252672,
   -126374488571904, 125284179247104, -142151119798272, 140259606134784, -148623417409536, 146091601297408,
   -153492920467456, 150361234997248, -158370124267520, 154637428588544],
  [0, 933445173248, 0, 0, 0, 0, 0, 0, 0, 0, 0, 0, 0, 0, 0, 0, 0, 0, 0, 0, 0, 0, 0, 0, 0, 0, 0, 0, 0, 0, 0, 0, 0, 0,
   0, 0, 0, 0, 0, 0, 0, 0, 0, 0, 0, 0, 0, 0, 0, 0, 0, 0, 0, 0, 0, 0, 0, 0, 0, 0, 0, 0, 0, 0, 0, 0, 0, 0, 0, 0, 0,
   950931619840, -14669190266880, 10351187853312, -15456149700608, 10316534513664, -10579252084736, 16926006837248,
   -18788435099648, 18605764771840, -20242898092032, 12914553520128, -13798267158528, 41654866149376,
   -43580219457536, 31506498060288, -32303531163648, 18137640599552, -18472857763840, 30733043236864,
   -31138791817216, 61988466065408, -62269224386560, 103662953168896, -103338716692480, 133119659212800,
   -131971594321920, 149721972736000, -147730064211968, 156536642994176, -153870340718592, 161668340383744,
   -158370124267520, 166807939842048, -162876585148416],
  [0, -911773007872, 0, 0, 0, 0, 0, 0, 0, 0, 0, 0, 0, 0, 0, 0, 0, 0, 0, 0, 0, 0, 0, 0, 0, 0, 0, 0, 0, 0, 0, 0, 0,
   0, 0, 0, 0, 0, 0, 0, 0, 0, 0, 0, 0, 0, 0, 0, 0, 0, 0, 0, 0, 0, 0, 0, 0, 0, 0, 0, 0, 0, 0, 0, 0, 0, 0, 0, 0, 0,
   0, -928224641024, 14319035088896, -10102476111872, 15084452577280, -10067701137408, 10323686850560,
   -16520653570048, 18338902179840, -18160979804160, 19759387115520, -12605950263296, 13468888465408,
   -40661298446336, 42541009338368, -30753714864128, 31531951194112, -17702022283264, 18029467402240,
   -30001541939200, 30397905764352, -60523412455424, 60797753491456, -101216843464704, 100900416782336,
   -129980256223232, 128859403976704, -146191744499712, 144246912843776, -152846594998272, 150243240837120,
   -157857831976960, 154637428588544, -162876585148416, 159037941350400]]

/-- Oxygen parameters, all three files: multiples of `2^(-50)`. -/
def covOxygen : List (List ℤ) :=
  covOxygen_0 ++ covOxygen_1 ++ covOxygen_2 ++ covOxygen_3 ++ covOxygen_4 ++ covOxygen_5 ++ covOxygen_6 ++ covOxygen_7 ++
  covOxygen_8 ++ covOxygen_9 ++ covOxygen_10 ++ covOxygen_11 ++ covOxygen_12 ++ covOxygen_13 ++ covOxygen_14

/-- Remaining parameters of `R17/Cov_parameters_Cimini_et_al_2018_V1.1.nc`:
multiples of `2^(-158)`. -/
def covWater111 : List (List ℤ) := [
  [1674672068218405891763863552, -57262216735957132002210086912, -961344814917468367465597598957568,
   -2143082802331094784, -11269057578854295542197962717408526336, -2871152739654377394942079139840],
  [-57262216735957140798303109120, 3847403060273602007576508104704, 0, -8435497084779561984, 0, 0],
  [-961344814917468367465597598957568, 0, 555827883077787776874047207577543410962137088, 0, 0,
   1846108160732699368815552503011156831502336],
  [-2143082802331094784, -8435497084779561984, 0, 6071802434022919, 0, 0],
  [-11269057578854295542197962717408526336, 0, 0, 0, 233840261972944512345187085414347032786792087552, 0],
  [-2871152739654377394942079139840, 0, 1846108160732699368815552503011156831502336, 0, 0,
   41080463319668684545623073820392869521784832]]

/-- Remaining parameters of `R17/Cov_parameters_Cimini_et_al_2019_V2.0.nc`:
multiples of `2^(-158)`. -/
def covWater112 : List (List ℤ) := [
  [1674672013526066669738262528, -57262173787003753984077856768, -172060278970894654454788675076096,
   -2151314111915090432, -11269057011403504450718646953733783552, -49788599644243954103826251776, 0],
  [-57262173787003753984077856768, 3980463143293784328016857399296, 0, -8442081871265076224, 0, 0,
   -132295418015002977613336310895207251968],
  [-172060278970894654454788675076096, 0, 99489902148538916351692192570534059512430592, 0, 0,
   450829367406476847138008195112299174821888, 0],
  [-2151314111915090432, -8442081871265076224, 0, 6071802434022919, 0, 0, 0],
  [-11269057011403504450718646953733783552, 0, 0, 0, 233840261972944512345187085414347032786792087552, 0, 0],
  [-49788599644243954103826251776, 0, 450829367406476847138008195112299174821888, 0, 0,
   707640346738383689773998514024066706309120, 0],
  [0, -132295418015002977613336310895207251968, 0, 0, 0, 0, 131535147359781257770553330068064570021693620224]]

/-- Part 0 of `covWater135`. -/
def covWater135_0 : List (List ℤ) := [
  [1392044635800433204010156032, -52013628697915914105972064256, -5137114900976082620843850389581201408, 0,
   -2664473261833504768, -13881745276579681927168, -205553247551266521088, -11412358060714617733120,
   -14831933667184310602432512, -764072618697225381347328, -249029780863621401291388937568256,
   -4470888911946164210686880141803520, -117809780508644959599710231855104, -262919439596201269855775226855424,
   -1378402485540489485316395869667328, -763978440509445569895579565162496, -271419224366287810556796776480768,
   -2879676877272292747791660379799552, -332895844001229779794934439608320, -293630727164397619665857243250688,
   -62382645207978240720853109047296, -6378799116733597178692185882624, -7238759485257146171392,
   -112413344042074898432, -599909864363638259712, 0, 0, 0, 0, 0],
  [-52013628697915914105972064256, 3951016590575070695957496594432, 0, -65902582033325245663020769751561404416,
   -9136323478726623232, -66451775869187709206528, -777010007992681627648, -45475551690659884695552,
   -76542427490593475452207104, -3638741549460393249734656, 0, 0, 0, 0, 0, 0, -3670064652631024555864490143383552,
   -53111913114130323550459689865052160, -4996268237080890221096724005388288, -4569099373733619023437680626106368,
   -1261519352444102912018679710351360, -123193714045958016382382939045888, -31185128066225251811328,
   -334679665891354673152, -1847260424113337401344, 0, 0, 0, 0, 0],
  [-5137114900976082620843850389581201408, 0, 58460065493236128086296771353586758196698021888, 0, 0, 0, 0, 0, 0, 0,
   0, 0, 0, 0, 0, 0, 0, 0, 0, 0, 0, 0, 0, 0, 0, 0, 0, 0, 0, 0],
  [0, -65902582033325245663020769751561404416, 0, 32883786839945314442638332517016142505423405056, 0, 0, 0, 0, 0,
   0, 0, 0, 0, 0, 0, 0, 0, 0, 0, 0, 0, 0, 0, 0, 0, 0, 0, 0, 0, 0],
  [-2664473261833504768, -9136323478726622208, 0, 0, 6511811888980171, 0, 0, 0, 0, 0, 0, 0, 0, 0, 0, 0, 0, 0, 0, 0,
   0, 0, 0, 0, 0, 0, 0, 0, 0, 0],
  [-13881745276579681927168, -66451775869187709206528, 0, 0, 0, 196490162666856841216, 0, 0, 0, 0, 0, 0, 0, 0, 0,
   0, 0, 0, 0, 0, 0, 0, 0, 0, 0, 0, 0, 0, 0, 0],
  [-205553247551266521088, -777010007992681627648, 0, 0, 0, 0, 270518143600941694976, 0, 0, 0, 0, 0, 0, 0, 0, 0, 0,
   0, 0, 0, 0, 0, 0, 0, 0, 0, 0, 0, 0, 0],
  [-11412358060714617733120, -45475551690659884695552, 0, 0, 0, 0, 0, 97887638224232293335040, 0, 0, 0, 0, 0, 0, 0,
   0, 0, 0, 0, 0, 0, 0, 0, 0, 0, 0, 0, 0, 0, 0],
  [-14831933667184310602432512, -76542427490593484042141696, 0, 0, 0, 0, 0, 0, 360245538585694149244092416, 0, 0,
   0, 0, 0, 0, 0, 0, 0, 0, 0, 0, 0, 0, 0, 0, 0, 0, 0, 0, 0],
  [-764072618697225515565056, -3638741549460393249734656, 0, 0, 0, 0, 0, 0, 0, 156559709144979654072860672, 0, 0,
   0, 0, 0, 0, 0, 0, 0, 0, 0, 0, 0, 0, 0, 0, 0, 0, 0, 0],
  [-249029780863621437320185956532224, 0, 0, 0, 0, 0, 0, 0, 0, 0, 122950662988769783655691487603714595590504448, 0,
   0, 0, 0, 0, 0, 0, 0, 0, 0, 0, 0, 0, 0, 0, 0, 0, 0, 0],
  [-4470888911946163634226127838380032, 0, 0, 0, 0, 0, 0, 0, 0, 0, 0, 79962710060334143550884880194975601742839808,
   0, 0, 0, 0, 0, 0, 0, 0, 0, 0, 0, 0, 0, 0, 0, 0, 0, 0],
  [-117809780508644977614108741337088, 0, 0, 0, 0, 0, 0, 0, 0, 0, 0, 0,
   161236808565657733843558546445538484140638208, 0, 0, 0, 0, 0, 548819099693740210046595005820232431875129344, 0,
   0, 0, 0, 0, 0, 0, 0, 0, 0, 0],
  [-262919439596201233826978207891456, 0, 0, 0, 0, 0, 0, 0, 0, 0, 0, 0, 0,
   225686752874287135309035474603485215682723840, 0, 0, 0, 0, 0, 0, 0, 0, 0, 0, 0, 0, 0, 0, 0, 0],
  [-1378402485540489485316395869667328, 0, 0, 0, 0, 0, 0, 0, 0, 0, 0, 0, 0, 0,
   64769795148870651918667814673391669766782976, 0, 0, 0, 0, 0, 0, 0, 0, 0, 0, 0, 0, 0, 0, 0],
  [-763978440509445569895579565162496, 0, 0, 0, 0, 0, 0, 0, 0, 0, 0, 0, 0, 0, 0,
   460585209947524486212886377400369752758550528, 0, 0, 0, 0, 0, 0, 0, 0, 0, 0, 0, 0, 0, 0],
  [-271419224366287774527999757516800, -3670064652631024555864490143383552, 0, 0, 0, 0, 0, 0, 0, 0, 0, 0, 0, 0, 0,
   0, 913438523331814501348387052399793096823406592, 0, 0, 0, 0, 0, 0, 0, 0, 0, 0, 0, 0, 0],
  [-2879676877272292171330908076376064, -53111913114130323550459689865052160, 0, 0, 0, 0, 0, 0, 0, 0, 0, 0, 0, 0,
   0, 0, 0, 328837868399453147595509825740734928795992064, 0, 0, 0, 0, 0, 0, 0, 0, 0, 0, 0, 0],
  [-332895844001229779794934439608320, -4996268237080890221096724005388288, 0, 0, 0, 0, 0, 0, 0, 0, 0, 0,
   548819099693740210046595005820232431875129344, 0, 0, 0, 0, 0, 2959540815595078249131425917402276765619978240, 0,
   0, 0, 0, 0, 0, 0, 0, 0, 0, 0],
  [-293630727164397619665857243250688, -4569099373733619023437680626106368, 0, 0, 0, 0, 0, 0, 0, 0, 0, 0, 0, 0, 0,
   0, 0, 0, 0, 1790339505730356333907296606727536365004652544, 0, 0, 0, 0, 0, 0, 0, 0, 0, 0],
  [-62382645207978249728052363788288, -1261519352444102912018679710351360, 0, 0, 0, 0, 0, 0, 0, 0, 0, 0, 0, 0, 0,
   0, 0, 0, 0, 0, 17903395057303562645826544067462409706536960, 0, 0, 0, 0, 0, 0, 0, 0, 0],
  [-6378799116733597178692185882624, -123193714045958016382382939045888, 0, 0, 0, 0, 0, 0, 0, 0, 0, 0, 0, 0, 0, 0,
   0, 0, 0, 0, 0, 23384026197294445633087618782946035415121920, 0, 0, 0, 0, 0, 0, 0, 0],
  [-7238759485257146171392, -31185128066225251811328, 0, 0, 0, 0, 0, 0, 0, 0, 0, 0, 0, 0, 0, 0, 0, 0, 0, 0, 0, 0,
   22417714198478093025280, 0, 0, 0, 0, 0, 0, 0],
  [-112413344042074898432, -334679665891354673152, 0, 0, 0, 0, 0, 0, 0, 0, 0, 0, 0, 0, 0, 0, 0, 0, 0, 0, 0, 0, 0,
   1560858026240587333632, 0, 0, 0, 0, 0, 0],
  [-599909864363638259712, -1847260424113337401344, 0, 0, 0, 0, 0, 0, 0, 0, 0, 0, 0, 0, 0, 0, 0, 0, 0, 0, 0, 0, 0,
   0, 42237397318863083798528, 0, 0, 0, 0, 0],
  [0, 0, 0, 0, 0, 0, 0, 0, 0, 0, 0, 0, 0, 0, 0, 0, 0, 0, 0, 0, 0, 0, 0, 0, 0,
   5563775968138642044094314364164437776896360448, 0, 0, 0, 0]]

/-- Part 1 of `covWater135`. -/
def covWater135_1 : List (List ℤ) := [
  [0, 0, 0, 0, 0, 0, 0, 0, 0, 0, 0, 0, 0, 0, 0, 0, 0, 0, 0, 0, 0, 0, 0, 0, 0, 0,
   2486836379770864740651932957080137173598994432, 0, 0, 0],
  [0, 0, 0, 0, 0, 0, 0, 0, 0, 0, 0, 0, 0, 0, 0, 0, 0, 0, 0, 0, 0, 0, 0, 0, 0, 0, 0,
   2456784252353248101299055863452033218888335360, 0, 0],
  [0, 0, 0, 0, 0, 0, 0, 0, 0, 0, 0, 0, 0, 0, 0, 0, 0, 0, 0, 0, 0, 0, 0, 0, 0, 0, 0, 0,
   2456784252353248101299055863452033218888335360, 0],
  [0, 0, 0, 0, 0, 0, 0, 0, 0, 0, 0, 0, 0, 0, 0, 0, 0, 0, 0, 0, 0, 0, 0, 0, 0, 0, 0, 0, 0,
   2338402619729445731924158963693583046285459456]]

/-- Remaining parameters of `R19/Cov_parameters_Gallucci_et_al_ACPD_2023_V1.0.nc`:
multiples of `2^(-158)`. -/
def covWater135 : List (List ℤ) :=
  covWater135_0 ++ covWater135_1

end Verif.Model
