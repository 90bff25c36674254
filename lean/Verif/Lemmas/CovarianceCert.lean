import Mathlib.Data.Int.Notation

/-!
# Sums of squares below the covariance matrices

For each parameter a scale and the coefficients in the linear forms (see `GramCheck`), written by `tools/gencov.py`.
-/

namespace Verif.Lemmas

/-- Part 0 of `certOxygen`. -/
def certOxygen_0 : List (ℤ × List ℤ) := [
  (1, [398154125]),
  (20, [0, 398154139]),
  (20, [0, -28277992, 397148679]),
  (72, [0, 0, 0, 398369333]),
  (72, [0, 0, 0, 0, 398369333]),
  (72, [0, 0, 0, 0, 0, 398369333]),
  (72, [0, 0, 0, 0, 0, 0, 398369333]),
  (72, [0, 0, 0, 0, 0, 0, 0, 398369333]),
  (72, [0, 0, 0, 0, 0, 0, 0, 0, 398369333]),
  (72, [0, 0, 0, 0, 0, 0, 0, 0, 0, 398369333]),
  (72, [0, 0, 0, 0, 0, 0, 0, 0, 0, 0, 398369333]),
  (72, [0, 0, 0, 0, 0, 0, 0, 0, 0, 0, 0, 398369333]),
  (72, [0, 0, 0, 0, 0, 0, 0, 0, 0, 0, 0, 0, 398369333]),
  (72, [0, 0, 0, 0, 0, 0, 0, 0, 0, 0, 0, 0, 0, 398369333]),
  (72, [0, 0, 0, 0, 0, 0, 0, 0, 0, 0, 0, 0, 0, 0, 398369333]),
  (72, [0, 0, 0, 0, 0, 0, 0, 0, 0, 0, 0, 0, 0, 0, 0, 398369333]),
  (72, [0, 0, 0, 0, 0, 0, 0, 0, 0, 0, 0, 0, 0, 0, 0, 0, 398369333]),
  (72, [0, 0, 0, 0, 0, 0, 0, 0, 0, 0, 0, 0, 0, 0, 0, 0, 0, 398369333]),
  (72, [0, 0, 0, 0, 0, 0, 0, 0, 0, 0, 0, 0, 0, 0, 0, 0, 0, 0, 398369333]),
  (72, [0, 0, 0, 0, 0, 0, 0, 0, 0, 0, 0, 0, 0, 0, 0, 0, 0, 0, 0, 398369333]),
  (72, [0, 0, 0, 0, 0, 0, 0, 0, 0, 0, 0, 0, 0, 0, 0, 0, 0, 0, 0, 0, 398369333]),
  (72, [0, 0, 0, 0, 0, 0, 0, 0, 0, 0, 0, 0, 0, 0, 0, 0, 0, 0, 0, 0, 0, 398369333]),
  (72, [0, 0, 0, 0, 0, 0, 0, 0, 0, 0, 0, 0, 0, 0, 0, 0, 0, 0, 0, 0, 0, 0, 398369333]),
  (88, [0, 0, 0, 0, 0, 0, 0, 0, 0, 0, 0, 0, 0, 161492045, 161492045, 26915340, 26915340, 53830679, 53830679, 80746022,
    80746022, 107661359, 107661359, 247960267]),
  (88, [0, 0, 0, 0, 0, 0, 0, 0, 0, 0, 0, 0, 0, 161492045, 161492045, 26915340, 26915340, 53830679, 53830679, 80746022,
    80746022, 107661359, 107661359, 19543165, 247188913]),
  (69, [0, 0, 0, 0, 0, 0, 0, 0, 0, 0, 0, 0, 0, 126624444, 126624444, 25324888, 25324888, 50649776, 50649776, 75974664,
    75974664, 101299551, 101299551, 84527617, 78108492, 274895249]),
  (69, [0, 0, 0, 0, 0, 0, 0, 0, 0, 0, 0, 0, 0, 126624444, 126624444, 25324888, 25324888, 50649776, 50649776, 75974664,
    75974664, 101299551, 101299551, 84527617, 78108492, 82056448, 262362606]),
  (56, [0, 0, 0, 0, 0, 0, 0, 0, 0, 0, 0, 0, 0, 102767665, 102767665, 23979121, 23979121, 47958242, 47958242, 71937365,
    71937365, 95916483, 95916483, 124767734, 115292728, 91762745, 67446417, 248628658]),
  (56, [0, 0, 0, 0, 0, 0, 0, 0, 0, 0, 0, 0, 0, 102767665, 102767665, 23979121, 23979121, 47958242, 47958242, 71937365,
    71937365, 95916483, 95916483, 124767734, 115292728, 91762745, 67446417, 44905857, 244539718]),
  (47, [0, 0, 0, 0, 0, 0, 0, 0, 0, 0, 0, 0, 0, 86251433, 86251433, 23000383, 23000383, 46000766, 46000766, 75095821,
    75095821, 92718553, 92718553, 150078686, 138681538, 98239279, 72206725, 39130966, 32599489, 221464905]),
  (47, [0, 0, 0, 0, 0, 0, 0, 0, 0, 0, 0, 0, 0, 86251433, 86251433, 23000383, 23000383, 46000766, 46000766, 69001144,
    69001144, 92001532, 92001532, 151854793, 140322765, 98136724, 72131347, 38042739, 31692902, 17481049, 229342097]),
  (40, [0, 0, 0, 0, 0, 0, 0, 0, 0, 0, 0, 0, 0, 73405475, 73405475, 22021642, 22021642, 44043283, 44043283, 71251883,
    71251883, 88818845, 88818845, 168218099, 155443423, 101789484, 74816157, 33654118, 28036800, 6975607, 6355670,
    208775469]),
  (40, [0, 0, 0, 0, 0, 0, 0, 0, 0, 0, 0, 0, 0, 73405475, 73405475, 22021642, 22021642, 44043283, 44043283, 71251883,
    71251883, 88818845, 88818845, 168218099, 155443423, 101789484, 74816157, 33654118, 28036800, 6975607, 6355670,
    -7151323, 208652954]),
  (35, [0, 0, 0, 0, 0, 0, 0, 0, 0, 0, 0, 0, 0, 64229791, 64229791, 21409929, 21409929, 42819859, 42819859, 68768380,
    68768380, 86387249, 86387249, 182621006, 168752556, 104974651, 77157283, 29754666, 24788219, 167373, -530651,
    -17268190, -17870175, 195965483]),
  (35, [0, 0, 0, 0, 0, 0, 0, 0, 0, 0, 0, 0, 0, 64229791, 64229791, 21409929, 21409929, 42819859, 42819859, 68768380,
    68768380, 86387249, 86387249, 182621006, 168752556, 104974651, 77157283, 29754666, 24788219, 167373, -530651,
    -17268190, -17870175, -35508136, 192721672]),
  (31, [0, 0, 0, 0, 0, 0, 0, 0, 0, 0, 0, 0, 0, 56889243, 56889243, 20859389, 20859389, 41718779, 41718779, 66598064,
    66598064, 84194240, 84194240, 193131000, 178464409, 107068317, 78696145, 26626250, 22181977, -5109628,
    -5865633, -25047027, -25920189, -47630987, -57208496, 166042040]),
  (31, [0, 0, 0, 0, 0, 0, 0, 0, 0, 0, 0, 0, 0, 56889243, 56889243, 20859389, 20859389, 41718779, 41718779, 66598064,
    66598064, 84194240, 84194240, 193131000, 178464409, 107068317, 78696145, 26626250, 22181977, -5109628,
    -5865633, -25047027, -25920189, -47630987, -57208496, -106816183, 127123019]),
  (100, [0, 0, 0, 0, 0, 0, 0, 0, 0, 0, 0, 0, 0, 0, 0, 0, 0, 0, 0, 0, 0, 0, 0, 0, 0, 0, 0, 0, 0, 0, 0, 0, 0, 0, 0, 0, 0,
    398154120]),
  (247, [-249050620, 0, -81641428, 0, 1719615, 9859631, 12604738, 20016471, 17756495, 18299164, 18148753, 15451077,
    18141422, 12638100, 16578151, 10294554, 14236496, 6857951, 9935861, 3438006, 5833734, 883962, 2893011,
    11116853, 10481337, 1662883, 1327327, -3969329, -3256331, -6706100, -6284698, -9715624, -10054320, -15028764,
    -18050707, -31811487, -68280520, 0, 281685583])]

/-- Part 1 of `certOxygen`. -/
def certOxygen_1 : List (ℤ × List ℤ) := [
  (199, [253340250, 0, -76732609, 0, -1416041, -10930428, -12890953, -20871748, -19510606, -18027316, -20173300,
    -14362667, -20114932, -11205922, -18582496, -8666227, -15855254, -5652991, -11167424, -2868251, -6663403,
    -814074, -3421381, -11280048, -10658024, -1767527, -1408542, 3933555, 3226898, 6695707, 6277028, 9718233,
    10057020, 15041751, 18066305, 31845022, 68352500, 0, -99213782, 261536119]),
  (127, [-257607311, 0, -38661985, 0, 1391835, 11137378, 13241404, 21469691, 20134407, 18483400, 20745217, 14592613,
    20608682, 11229104, 18957567, 8609577, 16150111, 5555823, 11340125, 2781754, 6742683, 753201, 3445616,
    11387881, 10763120, 1770447, 1412648, -3989097, -3272427, -6782367, -6356815, -9839990, -10183021, -15228114,
    -18290142, -32238159, -69196334, 0, 118101589, -71177324, 246019636]),
  (122, [259441335, 0, -49528060, 0, -1814272, -11250228, -11599278, -19293875, -17790686, -16084241, -19486371,
    -13890135, -19810704, -12710638, -19087979, -10276171, -16281695, -7288115, -12120627, -4212007, -7841666,
    -1811543, -4506624, -12511284, -11812677, -2255530, -1776577, 3995789, 3274194, 6973947, 6559300, 10200594,
    10556196, 15828805, 19011618, 33538569, 71987547, 0, -104414445, 82842053, -53305838, 239849230]),
  (107, [-260183656, 0, -31610098, 0, 1863716, 11333065, 11370991, 19072108, 17591592, 15700240, 19486590, 13710753,
    19859809, 12845241, 19232413, 10455076, 16398412, 7493625, 12295321, 4391918, 8032020, 1950099, 4669890,
    12687005, 11977702, 2324342, 1828317, -4005646, -3281938, -7014696, -6600773, -10270814, -10628864, -15943232,
    -19149053, -33784682, -72515807, 0, 116343309, -71601804, 59019119, -41815038, 234871740]),
  (123, [259119220, 0, -49468835, 0, -2808235, -13160853, -7397795, -7869090, -6295119, -9705432, -12238136, -14817500,
    -18087480, -17801136, -22040148, -14941031, -19737298, -11281380, -15685370, -7117677, -10693777, -3771670,
    -6564460, -16612864, -15616448, -3492041, -2692353, 4686698, 3846612, 8517452, 8039946, 12592091, 13031063,
    19607820, 23550506, 41591412, 89272256, 0, -95091672, 76319742, -48476815, 44592692, -31447913, 229594420]),
  (128, [-259939999, 0, -39552276, 0, 3061035, 13679467, 6334162, 5175133, 3611405, 8058003, 10641258, 14931666,
    17784608, 19027544, 22858880, 16091695, 20645699, 12300184, 16636087, 7880588, 11475445, 4298587, 7138559,
    17668156, 16596780, 3816963, 2933566, -4856046, -3986671, -8903501, -8411465, -13193392, -13653326, -20559519,
    -24693571, -43620435, -93627373, 0, 106200763, -62607584, 53721931, -37131466, 36119452, -24378861, 228639094]),
  (184, [250660189, 0, -70075990, 0, -4984339, -16214028, 3028237, 11375749, 11917620, 4485316, 2503631, -9750032,
    -9592538, -24009451, -24403795, -23021630, -25305133, -20189346, -23602036, -14471953, -17771415, -9079473,
    -11935405, -23372487, -21879900, -6171272, -4671802, 5022895, 4121779, 10041721, 9597626, 15241347, 15772675,
    23934047, 28746639, 50902663, 109258025, 0, -74117683, 66779156, -37665293, 40078849, -25291628, 30763854,
    -18780912, 231695746]),
  (217, [-241197296, 0, -72569723, 0, 5785185, 17202675, -7336795, -19863987, -20047800, -10502113, -8810717, 7923914,
    6167212, 26492386, 25183218, 26052718, 27203459, 23458533, 26387294, 17174815, 20313478, 11061275, 13904987,
    25877910, 24197789, 7179062, 5414357, -5129682, -4209909, -10588370, -10156218, -16198887, -16763595,
    -25500722, -30628337, -54276589, -116499857, 0, 84789285, -39930871, 42388223, -25538580, 30633800, -18932523,
    27665396, -20645898, 233465966]),
  (444, [122183679, 0, -157473095, 0, -9443866, -12120647, 31487407, 47509566, 43830012, 38306095, 39396984, 24491423,
    30256232, -14755912, -6874498, -24788631, -18542214, -38410282, -36459153, -37078351, -37642572, -28816856,
    -30713786, -26109453, -24379746, -12687587, -9462397, -1624401, -1419787, 2123740, 2762667, 5458766, 5649064,
    9680935, 11627551, 21326199, 45774784, 0, -781519, 38086370, 199574, 26749945, -3370618, 36324405, -14600306,
    71361015, -45218871, 291345159]),
  (476, [5973914, 0, -171837287, 0, 9222474, 6549113, -40105862, -59673087, -54755753, -49381886, -52241006, -35419533,
    -44302007, 7638889, -4070751, 20282670, 10280004, 37571738, 32823911, 38281052, 36945900, 30737115, 31375897,
    20824176, 19386546, 12575409, 9330320, 4361434, 3677588, 2141018, 1162670, 527684, 546080, -521019, -625784,
    -2005056, -4303673, 0, -6217551, 45153075, -5311258, 19669973, 4754097, -387680, 27251051, -35323411, 82430924,
    -85555476, 290582047]),
  (254, [-229038016, 0, -83847501, 0, -421148, 15063367, 19365788, 22391493, 19443318, 22992262, 26878838, 30057254,
    35264841, 19994924, 26489865, 17414759, 24854220, -650428, 5472246, -12420084, -8453222, -15480288, -13374410,
    10617322, 9946497, -3311637, -2387903, -9901784, -8232664, -14067349, -12756519, -19054593, -19718854,
    -28786571, -34574896, -60468358, -129789938, 0, 95199968, -44051929, 48725331, -23450184, 30206769, -2205873,
    11020541, 25819944, -14774354, 54632451, -15936754, 220389798]),
  (206, [239903898, 0, -79222032, 0, -258846, -15140510, -17159064, -19854993, -17212865, -20564323, -24352773,
    -27290299, -32345100, -19904465, -26157732, -17481351, -24606320, -1924563, -7875994, 8683289, 4699647,
    11953550, 9671818, -12114041, -11357051, 2012625, 1417043, 9096889, 7553928, 13300262, 12127709, 18231657,
    18867230, 27663170, 33225604, 58191362, 124902569, 0, -76842921, 70550527, -39956299, 38679081, -22983318,
    17911414, -3515872, -2613073, 25824147, -16327726, 46167910, 3901577, 218544993]),
  (125, [-256951690, 0, -38511140, 0, 3349775, 16956072, 6680906, 6504237, 5254351, 8608973, 11519824, 15614452,
    18999424, 18332410, 22324233, 21448678, 26263867, 14490752, 19303399, 4756518, 8563021, -2012175, 665330,
    17437314, 16336194, 1582951, 1257969, -7485207, -6196071, -12046677, -11276883, -17225805, -17826312,
    -26531687, -31866606, -56082681, -120376472, 0, 96960005, -56279491, 49196296, -32759525, 32436691, -17365379,
    20092316, -5451792, 10370165, 1776971, 7843808, 4930069, 611511, 219022950]),
  (114, [258352397, 0, -46192321, 0, -3401857, -16769548, -6408054, -6257605, -5053535, -8318242, -11225481, -15150621,
    -18550347, -18287272, -22295476, -21097494, -25906781, -14623505, -19419047, -5350032, -9157684, 1236804,
    -1471293, -17586596, -16479837, -1860155, -1465368, 7222775, 5975474, 11748898, 11012979, 16858635, 17446343,
    25996761, 31224118, 54972693, 117993983, 0, -85875899, 68973064, -43901458, 39863071, -28010042, 24371932,
    -15041135, 15299109, -2176276, 14746285, 10349966, 3195595, 5674591, -6095189, 219348905]),
  (83, [-260246848, 0, -23885583, 0, 4396382, 14887645, 2359221, 1985653, 1295728, 3945348, 6245229, 9116144, 11805096,
    15986141, 19141692, 18036062, 21790429, 17694266, 21652989, 12662833, 16209862, 6227977, 9153068, 18634972,
    17492449, 4071558, 3115882, -5018242, -4126803, -9129157, -8752624, -13629155, -14104280, -21295721, -25577807,
    -45220677, -97062149, 0, 100915822, -62733021, 50973168, -37613445, 34626054, -25810793, 26605401, -21565971,
    25080840, -18059955, 16687891, 8278466, -5625013, 15098471, -12503637, 222843023]),
  (79, [260059757, 0, -33515266, 0, -4380747, -14783600, -2307203, -1947759, -1271802, -3884305, -6188349, -8995125,
    -11696953, -15986750, -19158782, -17868626, -21633967, -17617851, -21578585, -12740706, -16286231, -6435239,
    -9363277, -18629821, -17488886, -4156564, -3179371, 4911533, 4037269, 9000600, 8634279, 13462580, 13931899,
    21048028, 25280308, 44703081, 95951177, 0, -92781357, 70901368, -47079400, 42130434, -31380292, 30181494,
    -22810847, 27623829, -18859453, 28589324, -3912272, -2547703, 9644226, -12465160, 14730046, -15805112, 221934245])]

/-- Part 2 of `certOxygen`. -/
def certOxygen_2 : List (ℤ × List ℤ) := [
  (63, [-259186460, 0, -16932399, 0, 4412165, 12559611, 686711, 478281, -11452, 2148005, 4160149, 6068351, 8516795,
    15827456, 18747532, 14500878, 17912438, 16986632, 20560296, 15937154, 19235376, 11944740, 14957415, 18850364,
    17722802, 5973262, 4536208, -2776122, -2246743, -6424819, -6307016, -10167149, -10521586, -16173754, -19425929,
    -34536340, -74129173, 0, 105429648, -67713754, 53131149, -41166765, 36663509, -31895325, 31770531, -32139695,
    35195119, -26294227, 19239617, 14798411, -13068139, 20268811, -18071518, 19362928, -16892761, 220925473]),
  (62, [261279927, 0, -27406847, 0, -4439261, -12633434, -680333, -473705, 13978, -2149115, -4183663, -6085288,
    -8563228, -15970251, -18925510, -14573054, -18022541, -17095784, -20705382, -16073726, -19403134, -12094767,
    -15134288, -19006878, -17870435, -6053964, -4597164, 2761822, 2233988, 6434619, 6318615, 10195159, 10550572,
    16224136, 19486441, 34647729, 74368261, 0, -99910681, 74538371, -50511668, 44957178, -34411448, 35444258,
    -28989631, 36917327, -30463741, 34556008, -9435143, -10332726, 16149836, -18289795, 19843985, -18224788,
    18258953, -14932787, 222243040]),
  (52, [-258293476, 0, -13082296, 0, 4132692, 11002898, 48975, -44378, -462850, 1439456, 3328131, 4737068, 7096876,
    16819133, 19658282, 12530360, 15804727, 15903325, 19274151, 16774615, 19926538, 15033993, 18003074, 18973567,
    17858964, 7439391, 5633628, -1065350, -809244, -4420898, -4447685, -7582757, -7847099, -12336597, -14817206,
    -26522531, -56928248, 0, 109297118, -71439839, 55014261, -43710147, 38254360, -36097248, 35453885, -38961521,
    41801288, -29361771, 19149645, 21263408, -19726128, 24505548, -22427233, 20279358, -18017684, 13943972,
    -12433384, 217133426]),
  (52, [260944712, 0, -23826787, 0, -4171347, -11106777, -44217, 49423, 468681, -1446335, -3358340, -4771782, -7161309,
    -16994715, -19869360, -12642675, -15956524, -16056572, -19466640, -16947231, -20134777, -15202415, -18203874,
    -19171181, -18045134, -7528704, -5701178, 1062427, 805853, 4450925, 4478862, 7641043, 7907416, 12434300,
    14934555, 26734419, 57383046, 0, -105063134, 77365790, -53015230, 47014170, -36504781, 39168947, -33247764,
    43060895, -37983831, 36348165, -11047215, -17591422, 22341029, -22926967, 23968799, -19398650, 19216363,
    -13381815, 13457407, -8602611, 219354807]),
  (46, [-261630282, 0, -10889846, 0, 3936401, 10322638, -190469, -238356, -632776, 1172005, 3042366, 4246598, 6608385,
    17847963, 20694892, 11826523, 15082555, 15474128, 18782349, 17013356, 20103494, 16352164, 19289097, 19415611,
    18277321, 8495450, 6425978, -47678, 50899, -3333799, -3423625, -6215859, -6432550, -10325885, -12402185,
    -22336426, -47943146, 0, 113023487, -74594509, 56864221, -45748503, 39656442, -38902619, 37926097, -43099520,
    45774665, -30709111, 18660890, 25661126, -24156607, 27358439, -25310862, 20874066, -18722202, 12790716,
    -11504328, 6898146, -6285222, 217531645]),
  (46, [261862590, 0, -21716780, 0, -3938354, -10327959, 194179, 242140, 634611, -1167759, -3042303, -4241997,
    -6609189, -17862064, -20715268, -11828647, -15091017, -15483694, -18797703, -17029594, -20124608, -16372851,
    -19313743, -19434483, -18295184, -8508666, -6435950, 41776, -55971, 3330272, 3420536, 6213173, 6429770,
    10322967, 12398681, 22331064, 47931638, 0, -108390869, 79220461, -54648891, 48294964, -37798729, 41302145,
    -35683498, 46374600, -42054012, 36620360, -11372683, -22230855, 26276718, -25754604, 26472128, -19931372,
    19628891, -12189292, 12311135, -6491534, 7043725, -3647169, 217907475]),
  (41, [-257782661, 0, -9194961, 0, 3732270, 9795297, -271425, -307694, -681455, 1042180, 2871316, 3970821, 6285184,
    17797412, 20584361, 11294503, 14465669, 14913995, 18111202, 16584616, 19555955, 16266904, 19084428, 19272207,
    18134934, 8801338, 6653057, 385282, 417209, -2838881, -2939334, -5561323, -5755196, -9343452, -11222207,
    -20277147, -43523087, 0, 111966136, -74306436, 56331869, -45590825, 39305583, -39146407, 37975053, -43706135,
    46115639, -30438549, 17756618, 26792180, -25417020, 27815000, -25871321, 20557541, -18533618, 11966468,
    -10826806, 5891318, -5399665, 2989096, -2714628, 213429397]),
  (42, [262439925, 0, -20313916, 0, -3799017, -9970115, 279206, 316398, 695261, -1056814, -2920826, -4036506, -6394973,
    -18117146, -20956986, -11493175, -14723952, -15181382, -18438274, -16886044, -19912544, -16565676, -19435119,
    -19621340, -18463546, -8963592, -6775694, -395657, -427640, 2886322, 2988861, 5656954, 5854161, 9505108,
    11416369, 20628607, 44277465, 0, -109678612, 79794324, -55285994, 48692352, -38291852, 42002046, -36586744,
    47435572, -43521090, 36342035, -11432559, -24126983, 27778678, -26831692, 27370642, -20054009, 19677899,
    -11627760, 11749532, -5626314, 6186051, -2777744, 3426373, -1974907, 217495215]),
  (38, [-257642754, 0, -8133245, 0, 3661518, 9633938, -297255, -334557, -699833, 999517, 2823273, 3891934, 6197280,
    17707868, 20479975, 11135478, 14280964, 14726197, 17885346, 16405901, 19330694, 16145865, 18909548, 19304479,
    18158446, 8911761, 6732504, 500690, 515937, -2727710, -2822682, -5421291, -5610282, -9136593, -10973754,
    -19845871, -42597393, 0, 111783478, -74439056, 56246680, -45661057, 39234062, -39273459, 37958924, -43895799,
    46093911, -30410744, 17327834, 27021589, -25781329, 27893484, -26027776, 20449118, -18492930, 11744259,
    -10668182, 5652754, -5212425, 2817199, -2583070, 2076349, -1886029, 213128799]),
  (39, [261498423, 0, -19232889, 0, -3715889, -9776530, 303895, 341966, 711531, -1011340, -2863659, -3945696, -6287137,
    -17971752, -20787106, -11298226, -14492380, -14945245, -18152994, -16653065, -19622631, -16391523, -19197293,
    -19593995, -18430836, -9047482, -6835032, -510733, -525799, 2765651, 2862265, 5498780, 5690472, 9267958,
    11131533, 20131685, 43210866, 0, -109462711, 79392197, -55176420, 48453806, -38223977, 41850122, -36604434,
    47273927, -43606583, 35823886, -11431566, -24506870, 27927558, -26933386, 27371954, -19944519, 19519213,
    -11406686, 11501917, -5394311, 5929505, -2614706, 3236669, -1916478, 2502701, -1926958, 216515659]),
  (36, [-259076425, 0, -7394577, 0, 3654870, 9629935, -302772, -342512, -705925, 994131, 2825709, 3892082, 6204717,
    17692065, 20470460, 11134622, 14283381, 14716688, 17874162, 16387551, 19305405, 16117135, 18869159, 19388856,
    18234457, 8953585, 6762043, 507510, 521685, -2739158, -2829472, -5444554, -5634356, -9175688, -11020710,
    -19930723, -42779519, 0, 112160903, -74870522, 56442105, -45910952, 39354491, -39475469, 38045761, -44102948,
    46139322, -30567037, 17146341, 27078314, -25954716, 27963749, -26153426, 20485320, -18565762, 11749321,
    -10703538, 5650497, -5236132, 2835485, -2623802, 2133517, -1963229, 2155012, -1992561, 214247626]),
  (37, [262189138, 0, -18538722, 0, -3698499, -9744461, 308267, 348722, 715570, -1003436, -2858061, -3935235, -6276939,
    -17903950, -20717127, -11265450, -14453304, -14892646, -18089091, -16585965, -19539666, -16314201, -19099846,
    -19622388, -18454136, -9063096, -6844743, -515645, -529675, 2769773, 2861350, 5507071, 5699052, 9281675,
    11148009, 20161300, 43274432, 0, -109727093, 79403980, -55309815, 48459131, -38314954, 41831953, -36682088,
    47207790, -43684600, 35627485, -11524797, -24638937, 27931871, -26994797, 27370587, -19963843, 19498158,
    -11404906, 11470578, -5394400, 5904701, -2638795, 3238326, -1979275, 2544700, -2027549, 2547752, -2114132,
    217004372])]

/-- Part 3 of `certOxygen`. -/
def certOxygen_3 : List (ℤ × List ℤ) := [
  (35, [-264365599, 0, -6930874, 0, 3721188, 9810153, -304999, -345933, -715854, 1016848, 2883708, 3971211, 6327299,
    17988405, 20818296, 11341488, 14547578, 14979075, 18192633, 16668704, 19636662, 16379101, 19176734, 19750068,
    18573195, 9107855, 6877981, 502236, 518576, -2807729, -2897919, -5568593, -5762720, -9380163, -11266300,
    -20372033, -43726752, 0, 114273741, -76422248, 57508543, -46851699, 40086513, -40268760, 38723749, -44973641,
    46913108, -31216842, 17306238, 27523460, -26479661, 28461922, -26667346, 20860531, -18937381, 11970364,
    -10929190, 5763542, -5361580, 2902043, -2704123, 2194877, -2037462, 2226322, -2075622, 2306556, -2157517,
    218541069]),
  (35, [259345191, 0, -17770990, 0, -3650317, -9622948, 300804, 341193, 703322, -995276, -2827571, -3892794, -6205215,
    -17646322, -20423639, -11123767, -14270028, -14694025, -17847413, -16353524, -19265758, -16070961, -18815912,
    -19375570, -18221053, -8936515, -6748583, -494355, -510133, 2752518, 2841160, 5460492, 5650850, 9198558,
    11048179, 19977945, 42880877, 0, -108532673, 78401725, -54706767, 47846869, -37897070, 41280691, -36268656,
    46549942, -43180020, 35054928, -11475047, -24389405, 27548368, -26688709, 27012923, -19739469, 19247403,
    -11284758, 11324757, -5348677, 5832126, -2629602, 3203821, -1983947, 2526130, -2039843, 2538330, -2133076,
    2596133, -2139455, 214559800]),
  (33, [-259729391, 0, -6317845, 0, 3655329, 9638862, -293322, -331981, -696347, 1006931, 2838991, 3908988, 6221584,
    17655398, 20433573, 11142571, 14290466, 14708843, 17864246, 16360952, 19275198, 16068789, 18815738, 19385740,
    18230609, 8931343, 6744753, 482764, 500326, -2767396, -2855537, -5480659, -5671720, -9229103, -11084866,
    -20042138, -43018662, 0, 112170330, -75130222, 56451928, -46052920, 39342858, -39574996, 37987205, -44194325,
    45990681, -30725236, 16872435, 26966282, -26024443, 27920802, -26199616, 20474041, -18612401, 11753849,
    -10751460, 5662963, -5284867, 2853306, -2673606, 2157388, -2016202, 2187336, -2051758, 2266500, -2131894,
    2263907, -2131046, 214644734]),
  (34, [261577103, 0, -17463070, 0, -3681192, -9706730, 296985, 336225, 702465, -1011849, -2857837, -3934008, -6264102,
    -17780587, -20579640, -11219862, -14391149, -14813111, -17991770, -16478695, -19414261, -16185763, -18952655,
    -19524283, -18360926, -8996325, -6793813, -487654, -505116, 2785489, 2874365, 5517627, 5709976, 9291820,
    11160194, 20178604, 43311573, 0, -109504987, 78991165, -55195389, 48208078, -38237612, 41578984, -36589428,
    46864953, -43561183, 35240527, -11656765, -24624997, 27732784, -26923530, 27211725, -19916616, 19394057,
    -11393288, 11412969, -5407548, 5877866, -2663385, 3227526, -2009180, 2542447, -2063594, 2553839, -2157386,
    2612531, -2164525, 2593678, -2129629, 216333252]),
  (347, [0, -68631111, -4886709, 0, 0, 0, 0, 0, 0, 0, 0, 0, 0, 0, 0, 0, 0, 0, 0, 0, 0, 0, 0, 0, 0, 0, 0, 0, 0, 0, 0, 0,
    0, 0, 0, 0, 0, 0, -1416323, -1971004, -658283, -1091195, -585826, -991614, -762922, -1275350, -1367471,
    -2108021, -2859950, -1129881, -939794, -495344, -535139, -308001, -381980, -233961, -295297, -197262, -242311,
    -173720, -210892, -156418, -192108, -143860, -179730, -134647, -170548, -127746, -163255, -122243, -157195,
    392209804]),
  (21, [0, 71200313, 5069643, 0, 0, 0, 0, 0, 0, 0, 0, 0, 0, 0, 0, 0, 0, 0, 0, 0, 0, 0, 0, 0, 0, 0, 0, 0, 0, 0, 0, 0, 0,
    0, 0, 0, 0, 0, 1469343, 2044788, 682926, 1132043, 607757, 1028735, 791482, 1323093, 1418662, 2186935, 2967012,
    1172178, 974976, 513888, 555172, 319531, 396280, 242719, 306351, 204646, 251382, 180223, 218787, 162274,
    199300, 149245, 186458, 139688, 176932, 132529, 169366, 126819, 163080, -267025786, 274006270]),
  (26, [0, -108460196, -7722641, 0, 0, 0, 0, 0, 0, 0, 0, 0, 0, 0, 0, 0, 0, 0, 0, 0, 0, 0, 0, 0, 0, 0, 0, 0, 0, 0, 0, 0,
    0, 0, 0, 0, 0, 0, -2238267, -3114848, -1040309, -1724454, -925802, -1567083, -1205672, -2015481, -2161063,
    -3331381, -4519681, -1785591, -1485191, -782811, -845700, -486745, -603657, -369737, -466668, -311739, -382933,
    -274536, -333280, -247193, -303595, -227346, -284034, -212788, -269523, -201882, -257997, -193184, -248421,
    247211522, -100375593, 284777493]),
  (16, [0, 107121463, 7627320, 0, 0, 0, 0, 0, 0, 0, 0, 0, 0, 0, 0, 0, 0, 0, 0, 0, 0, 0, 0, 0, 0, 0, 0, 0, 0, 0, 0, 0,
    0, 0, 0, 0, 0, 0, 2210639, 3076401, 1027468, 1703169, 914375, 1547740, 1190791, 1990604, 2134389, 3290262,
    4463894, 1763551, 1466859, 773148, 835261, 480738, 596206, 365173, 460908, 307892, 378206, 271147, 329166,
    244142, 299848, 224540, 280528, 210161, 266196, 199390, 254813, 190800, 245355, -231081398, 93850297,
    -117946245, 252591468]),
  (20, [0, -133356438, -9495316, 0, 0, 0, 0, 0, 0, 0, 0, 0, 0, 0, 0, 0, 0, 0, 0, 0, 0, 0, 0, 0, 0, 0, 0, 0, 0, 0, 0, 0,
    0, 0, 0, 0, 0, 0, -2752044, -3829839, -1279104, -2120289, -1138314, -1926795, -1482426, -2478120, -2657120,
    -4096076, -5557140, -2195460, -1826105, -962499, -1039824, -598474, -742222, -454607, -573788, -383297,
    -470832, -337553, -409782, -303935, -373283, -279532, -349232, -261631, -331390, -248223, -317219, -237528,
    -305444, 192030419, -71539755, 67419323, -40802083, 297645960]),
  (17, [0, 128117133, 9122264, 0, 0, 0, 0, 0, 0, 0, 0, 0, 0, 0, 0, 0, 0, 0, 0, 0, 0, 0, 0, 0, 0, 0, 0, 0, 0, 0, 0, 0,
    0, 0, 0, 0, 0, 0, 2643922, 3679372, 1228850, 2036987, 1093592, 1851096, 1424184, 2380760, 2552727, 3935149,
    5338811, 2109205, 1754361, 924684, 998972, 574961, 713062, 436747, 551245, 368238, 452334, 324292, 393682,
    291994, 358618, 268550, 335511, 251352, 318371, 238471, 304756, 228196, 293444, -164522005, 58224349,
    -54869791, 32008747, -164922028, 268445711])]

/-- Part 4 of `certOxygen`. -/
def certOxygen_4 : List (ℤ × List ℤ) := [
  (16, [0, -71080088, -5061082, 0, 0, 0, 0, 0, 0, 0, 0, 0, 0, 0, 0, 0, 0, 0, 0, 0, 0, 0, 0, 0, 0, 0, 0, 0, 0, 0, 0, 0,
    0, 0, 0, 0, 0, 0, -1466862, -2041336, -681773, -1130132, -606731, -1026998, -790145, -1320859, -1416267,
    -2183242, -2962002, -1170198, -973329, -513020, -554235, -318992, -395610, -242309, -305834, -204300, -250958,
    -179919, -218417, -162000, -198963, -148993, -186144, -139452, -176634, -132305, -169080, -126605, -162804,
    190483449, -68731243, 28875408, -13318237, 20330414, -11810067, 347686004]),
  (14, [0, 52718875, 3753717, 0, 0, 0, 0, 0, 0, 0, 0, 0, 0, 0, 0, 0, 0, 0, 0, 0, 0, 0, 0, 0, 0, 0, 0, 0, 0, 0, 0, 0, 0,
    0, 0, 0, 0, 0, 1087947, 1514023, 505659, 838199, 450002, 761707, 586037, 979658, 1050421, 1619273, 2196866,
    867916, 721902, 380498, 411066, 236591, 293417, 179717, 226832, 151526, 186131, 133443, 161996, 120152, 147567,
    110505, 138059, 103429, 131006, 98128, 125404, 93900, 120749, -173490477, 60924708, -19563406, 7022437,
    -8836983, 5321554, -217687555, 283056029]),
  (16, [0, 905811, 64496, 0, 0, 0, 0, 0, 0, 0, 0, 0, 0, 0, 0, 0, 0, 0, 0, 0, 0, 0, 0, 0, 0, 0, 0, 0, 0, 0, 0, 0, 0, 0,
    0, 0, 0, 0, 18693, 26014, 8688, 14402, 7732, 13088, 10069, 16832, 18048, 27822, 37746, 14912, 12404, 6538,
    7063, 4065, 5041, 3088, 3897, 2604, 3198, 2293, 2783, 2064, 2535, 1899, 2372, 1777, 2251, 1686, 2155, 1613,
    2075, 183848810, -64032553, 26631462, -11366053, 41277992, -27270402, 42522798, -26598198, 348985297]),
  (14, [0, -15904441, -1132436, 0, 0, 0, 0, 0, 0, 0, 0, 0, 0, 0, 0, 0, 0, 0, 0, 0, 0, 0, 0, 0, 0, 0, 0, 0, 0, 0, 0, 0,
    0, 0, 0, 0, 0, 0, -328216, -456757, -152549, -252871, -135758, -229795, -176798, -295547, -316895, -488509,
    -662759, -261836, -217786, -114790, -124012, -71376, -88519, -54218, -68431, -45713, -56153, -40258, -48872,
    -36248, -44519, -33338, -41650, -31203, -39522, -29604, -37832, -28328, -36428, -167936819, 57875243,
    -21319520, 8145130, -32886248, 22226635, -34113062, 22731673, -209794734, 270115966]),
  (17, [0, -15943240, -1135199, 0, 0, 0, 0, 0, 0, 0, 0, 0, 0, 0, 0, 0, 0, 0, 0, 0, 0, 0, 0, 0, 0, 0, 0, 0, 0, 0, 0, 0,
    0, 0, 0, 0, 0, 0, -329017, -457871, -152921, -253488, -136089, -230355, -177229, -296268, -317668, -489701,
    -664376, -262475, -218317, -115070, -124315, -71550, -88735, -54350, -68598, -45825, -56290, -40356, -48991,
    -36336, -44627, -33419, -41752, -31279, -39619, -29676, -37925, -28397, -36517, 162544317, -62516752, 47668992,
    -29064483, 15374826, -7436049, -45423683, 21309402, 22348895, -15770506, 354491042]),
  (16, [0, 5670705, 403769, 0, 0, 0, 0, 0, 0, 0, 0, 0, 0, 0, 0, 0, 0, 0, 0, 0, 0, 0, 0, 0, 0, 0, 0, 0, 0, 0, 0, 0, 0,
    0, 0, 0, 0, 0, 117025, 162856, 54391, 90161, 48404, 81933, 63037, 105377, 112988, 174177, 236306, 93357, 77651,
    40928, 44216, 25449, 31561, 19331, 24399, 16299, 20021, 14354, 17425, 12924, 15873, 11887, 14850, 11125, 14092,
    10555, 13489, 10100, 12988, -159359928, 61491931, -44949864, 27295387, -10066141, 4135065, 49608770, -23103773,
    -20460603, 15380025, -225162314, 280042226]),
  (8, [0, 10719374, 763247, 0, 0, 0, 0, 0, 0, 0, 0, 0, 0, 0, 0, 0, 0, 0, 0, 0, 0, 0, 0, 0, 0, 0, 0, 0, 0, 0, 0, 0, 0,
    0, 0, 0, 0, 0, 221213, 307848, 102816, 170432, 91499, 154878, 119159, 199195, 213583, 329248, 446691, 176474,
    146785, 77367, 83582, 48106, 59661, 36542, 46122, 30810, 37846, 27133, 32939, 24431, 30005, 22469, 28072,
    21030, 26638, 19952, 25498, 19093, 24552, 216488735, -79708796, 43261053, -23466268, 26711162, -15836778,
    70427354, -39935883, 20671332, -14415903, 32452482, -20216763, 275016276]),
  (8, [0, -14951307, -1064571, 0, 0, 0, 0, 0, 0, 0, 0, 0, 0, 0, 0, 0, 0, 0, 0, 0, 0, 0, 0, 0, 0, 0, 0, 0, 0, 0, 0, 0,
    0, 0, 0, 0, 0, 0, -308546, -429384, -143407, -237717, -127622, -216023, -166203, -277835, -297904, -459233,
    -623041, -246145, -204735, -107911, -116580, -67098, -83214, -50968, -64330, -42973, -52788, -37845, -45943,
    -34076, -41851, -31340, -39154, -29333, -37154, -27830, -35565, -26631, -34245, -224943628, 82896095,
    -43753493, 23540916, -26184126, 15499236, -73076871, 41581920, -21191341, 15012050, -32917159, 20836717,
    -133512757, 255921080]),
  (10, [0, 78600186, 5596532, 0, 0, 0, 0, 0, 0, 0, 0, 0, 0, 0, 0, 0, 0, 0, 0, 0, 0, 0, 0, 0, 0, 0, 0, 0, 0, 0, 0, 0, 0,
    0, 0, 0, 0, 0, 1622053, 2257304, 753903, 1249697, 670921, 1135652, 873741, 1460602, 1566104, 2414224, 3275374,
    1294003, 1076305, 567296, 612872, 352740, 437465, 267945, 338190, 225915, 277508, 198954, 241525, 179139,
    220013, 164756, 205837, 154205, 195321, 146302, 186969, 139999, 180029, 194133870, -70099164, 33536799,
    -17032647, 19321579, -12097257, 71433359, -41686941, 67148522, -37786853, -33820149, 10808734, 82607824,
    -52268330, 298328995])]

/-- Part 5 of `certOxygen`. -/
def certOxygen_5 : List (ℤ × List ℤ) := [
  (10, [0, -83807247, -5967288, 0, 0, 0, 0, 0, 0, 0, 0, 0, 0, 0, 0, 0, 0, 0, 0, 0, 0, 0, 0, 0, 0, 0, 0, 0, 0, 0, 0, 0,
    0, 0, 0, 0, 0, 0, -1729510, -2406845, -803847, -1332486, -715368, -1210886, -931624, -1557363, -1669855,
    -2574160, -3492360, -1379727, -1147608, -604878, -653473, -376108, -466446, -285696, -360595, -240881, -295892,
    -212134, -257526, -191006, -234588, -175671, -219473, -164421, -208261, -155995, -199355, -149274, -191955,
    -197502327, 71379501, -32785143, 16378116, -18242609, 11469497, -72627784, 42528427, -68874531, 38876181,
    35619974, -11390462, -84865203, 53770011, -144418528, 271421222]),
  (12, [0, 107737303, 7671169, 0, 0, 0, 0, 0, 0, 0, 0, 0, 0, 0, 0, 0, 0, 0, 0, 0, 0, 0, 0, 0, 0, 0, 0, 0, 0, 0, 0, 0,
    0, 0, 0, 0, 0, 0, 2223348, 3094087, 1033375, 1712960, 919632, 1556638, 1197637, 2002048, 2146660, 3309178,
    4489557, 1773690, 1475292, 777593, 840063, 483501, 599634, 367273, 463558, 309662, 380381, 272706, 331059,
    245546, 301572, 225831, 282141, 211369, 267727, 200537, 256278, 191897, 246765, 132175714, -47701490, 14213191,
    -5308527, -4586604, 2317314, 35576479, -23607970, 72899360, -41068802, 6016195, -7553577, -68297, -2688641,
    92170248, -57796912, 325351902]),
  (12, [0, -111383505, -7930788, 0, 0, 0, 0, 0, 0, 0, 0, 0, 0, 0, 0, 0, 0, 0, 0, 0, 0, 0, 0, 0, 0, 0, 0, 0, 0, 0, 0, 0,
    0, 0, 0, 0, 0, 0, -2298594, -3198802, -1068348, -1770933, -950755, -1609320, -1238169, -2069804, -2219310,
    -3421172, -4641499, -1833718, -1525221, -803910, -868494, -499865, -619927, -379702, -479246, -320142, -393254,
    -281935, -342263, -253856, -311778, -233474, -291690, -218523, -276788, -207324, -264951, -198391, -255117,
    -132935214, 48027707, -12973684, 4391557, 6005404, -3144105, -35510067, 23748672, -74082014, 41835869,
    -5922893, 7692703, 83457, 2781851, -93502406, 58706901, -188369542, 273520241]),
  (10, [0, 71048081, 5058803, 0, 0, 0, 0, 0, 0, 0, 0, 0, 0, 0, 0, 0, 0, 0, 0, 0, 0, 0, 0, 0, 0, 0, 0, 0, 0, 0, 0, 0, 0,
    0, 0, 0, 0, 0, 1466202, 2040416, 681466, 1129623, 606457, 1026536, 789789, 1320264, 1415629, 2182259, 2960668,
    1169671, 972891, 512789, 553985, 318848, 395432, 242200, 305696, 204208, 250845, 179838, 218319, 161927,
    198873, 148926, 186060, 139389, 176554, 132245, 169004, 126548, 162731, 167845088, -60578712, 14772796,
    -4340364, -6736486, 3186358, 42246765, -28447394, 73230397, -42740539, 45424900, -27395851, 39311949,
    -26384744, 9461142, -8611808, 115742322, -63297213, 305054599]),
  (10, [0, -72301612, -5148058, 0, 0, 0, 0, 0, 0, 0, 0, 0, 0, 0, 0, 0, 0, 0, 0, 0, 0, 0, 0, 0, 0, 0, 0, 0, 0, 0, 0, 0,
    0, 0, 0, 0, 0, 0, -1492071, -2076416, -693489, -1149553, -617157, -1044647, -803724, -1343558, -1440606,
    -2220762, -3012904, -1190308, -990056, -521836, -563760, -324474, -402409, -246474, -311090, -207811, -255270,
    -183011, -222171, -164784, -202382, -151553, -189342, -141848, -179669, -134579, -171986, -128780, -165602,
    -168903984, 60991705, -14118613, 3831295, 7475215, -3607600, -42376011, 28628279, -73919007, 43199619,
    -45837277, 27706853, -39897862, 26793239, -9364343, 8616341, -116604759, 63824139, -152883080, 268736760]),
  (6, [0, 33517729, 2386547, 0, 0, 0, 0, 0, 0, 0, 0, 0, 0, 0, 0, 0, 0, 0, 0, 0, 0, 0, 0, 0, 0, 0, 0, 0, 0, 0, 0, 0, 0,
    0, 0, 0, 0, 0, 691697, 962589, 321489, 532912, 286103, 484280, 372592, 622849, 667839, 1029505, 1396728,
    551806, 458972, 241914, 261349, 150420, 186550, 114261, 144216, 96338, 118339, 84840, 102994, 76391, 93821,
    70257, 87776, 65758, 83291, 62388, 79730, 59700, 76770, 188935352, -68113065, 20867676, -7969667, 2706147,
    -2679331, 52772921, -33706025, 70574390, -41238828, 43952771, -26656105, 67212171, -42906452, 19063424,
    -13579741, 23419592, -15028498, 103403339, -61543793, 253334020]),
  (6, [0, -33739698, -2402352, 0, 0, 0, 0, 0, 0, 0, 0, 0, 0, 0, 0, 0, 0, 0, 0, 0, 0, 0, 0, 0, 0, 0, 0, 0, 0, 0, 0, 0,
    0, 0, 0, 0, 0, 0, -696278, -968964, -323618, -536441, -287998, -487487, -375059, -626974, -672262, -1036323,
    -1405978, -555460, -462012, -243516, -263080, -151416, -187785, -115017, -145171, -96976, -119122, -85402,
    -103676, -76897, -94442, -70723, -88357, -66194, -83843, -62801, -80258, -60096, -77279, -189280443, 68250804,
    -20610188, 7772162, -2461782, 2541814, -52822797, 33769443, -70762962, 41371543, -44075995, 26753990,
    -67493638, 43094197, -19053169, 13592662, -23328691, 15008206, -103910011, 61858812, -92230555, 237554910]),
  (4, [0, 17981970, 1280362, 0, 0, 0, 0, 0, 0, 0, 0, 0, 0, 0, 0, 0, 0, 0, 0, 0, 0, 0, 0, 0, 0, 0, 0, 0, 0, 0, 0, 0, 0,
    0, 0, 0, 0, 0, 371090, 516421, 172476, 285903, 153492, 259812, 199892, 334153, 358290, 552321, 749333, 296039,
    246235, 129785, 140211, 80699, 100082, 61300, 77370, 51684, 63488, 45516, 55256, 40983, 50334, 37693, 47091,
    35279, 44685, 33471, 42774, 32029, 41187, 211898576, -76715934, 27776961, -12133149, 11364355, -7848256,
    61110065, -37773162, 73910496, -42631125, 43658001, -26325495, 72607832, -46031494, 33144052, -21670253,
    14269949, -9805135, 62787493, -38115867, 85297406, -58949999, 242096337])]

/-- Part 6 of `certOxygen`. -/
def certOxygen_6 : List (ℤ × List ℤ) := [
  (4, [0, -17955926, -1278507, 0, 0, 0, 0, 0, 0, 0, 0, 0, 0, 0, 0, 0, 0, 0, 0, 0, 0, 0, 0, 0, 0, 0, 0, 0, 0, 0, 0, 0,
    0, 0, 0, 0, 0, 0, -370552, -515673, -172226, -285489, -153270, -259436, -199603, -333669, -357771, -551521,
    -748247, -295610, -245878, -129597, -140008, -80582, -99937, -61211, -77258, -51609, -63396, -45450, -55176,
    -40924, -50261, -37638, -47023, -35228, -44620, -33422, -42712, -31982, -41127, -210967977, 76385843,
    -27512591, 11977787, -11196142, 7746208, -60818247, 37607339, -73608963, 42468528, -43488758, 26234312,
    -72368660, 45883871, -32972979, 21566905, -14119761, 9727068, -62646989, 38036102, -85237972, 58911066,
    -61052044, 233697137]),
  (3, [0, 12006123, 854866, 0, 0, 0, 0, 0, 0, 0, 0, 0, 0, 0, 0, 0, 0, 0, 0, 0, 0, 0, 0, 0, 0, 0, 0, 0, 0, 0, 0, 0, 0,
    0, 0, 0, 0, 0, 247767, 344802, 115158, 190890, 102483, 173470, 133463, 223106, 239221, 368771, 500311, 197658,
    164405, 86654, 93616, 53881, 66822, 40928, 51658, 34508, 42389, 30390, 36893, 27363, 33607, 25166, 31441,
    23555, 29835, 22348, 28559, 21385, 27499, 204862132, -74338762, 28296255, -12788212, 13789904, -9197120,
    59402343, -36317212, 69691948, -39983009, 40848747, -24487196, 67673016, -42845290, 34751745, -22405007,
    15644275, -10170918, 48012431, -29369233, 70019454, -48529145, 58644051, -45505781, 221059255]),
  (3, [0, -11914642, -848353, 0, 0, 0, 0, 0, 0, 0, 0, 0, 0, 0, 0, 0, 0, 0, 0, 0, 0, 0, 0, 0, 0, 0, 0, 0, 0, 0, 0, 0,
    0, 0, 0, 0, 0, 0, -245880, -342174, -114281, -189436, -101702, -172148, -132446, -221406, -237399, -365961,
    -496499, -196152, -163152, -85994, -92902, -53470, -66313, -40617, -51265, -34245, -42066, -30158, -36612,
    -27155, -33351, -24975, -31202, -23375, -29608, -22177, -28342, -21222, -27290, -202931817, 73642184,
    -27948146, 12609344, -13591944, 9071585, -58828760, 35974863, -69046951, 39619730, -40476926, 24270720,
    -67083574, 42474392, -34410616, 22189740, -15437566, 10050334, -47629399, 29138245, -69545469, 48201633,
    -58269312, 45215455, -42883010, 215024048]),
  (3, [0, 12440305, 885781, 0, 0, 0, 0, 0, 0, 0, 0, 0, 0, 0, 0, 0, 0, 0, 0, 0, 0, 0, 0, 0, 0, 0, 0, 0, 0, 0, 0, 0, 0,
    0, 0, 0, 0, 0, 256728, 357271, 119323, 197794, 106189, 179743, 138290, 231174, 247872, 382107, 518404, 204806,
    170350, 89788, 97001, 55829, 69239, 42409, 53526, 35756, 43922, 31489, 38227, 28353, 34822, 26076, 32578,
    24407, 30914, 23156, 29592, 22158, 28494, 230708685, -83803225, 32299328, -14723055, 16505771, -10913272,
    66915907, -40775919, 77782798, -44556464, 45703897, -27327399, 75147633, -47565209, 39746262, -25546907,
    19014973, -12092402, 51544005, -31543726, 73962611, -51305626, 63720131, -49469612, 49622544, -40821897,
    241620074]),
  (3, [0, -12282314, -874532, 0, 0, 0, 0, 0, 0, 0, 0, 0, 0, 0, 0, 0, 0, 0, 0, 0, 0, 0, 0, 0, 0, 0, 0, 0, 0, 0, 0, 0,
    0, 0, 0, 0, 0, 0, -253467, -352733, -117807, -195282, -104840, -177461, -136533, -228238, -244724, -377254,
    -511820, -202205, -168187, -88647, -95769, -55120, -68360, -41870, -52847, -35302, -43364, -31089, -37741,
    -27993, -34380, -25745, -32165, -24097, -30521, -22862, -29216, -21877, -28132, -227507482, 82643978,
    -31785818, 14472060, -16221922, 10730319, -65975197, 40209269, -76710904, 43947924, -45079001, 26959018,
    -74142811, 46931042, -39184639, 25189577, -18702147, 11903956, -50878844, 31139501, -73083184, 50696361,
    -62980682, 48895848, -49054337, 40354638, -36731256, 235628745]),
  (3, [0, 12879887, 917081, 0, 0, 0, 0, 0, 0, 0, 0, 0, 0, 0, 0, 0, 0, 0, 0, 0, 0, 0, 0, 0, 0, 0, 0, 0, 0, 0, 0, 0, 0,
    0, 0, 0, 0, 0, 265799, 369895, 123539, 204783, 109941, 186095, 143176, 239343, 256631, 395609, 536722, 212043,
    176370, 92960, 100429, 57802, 71686, 43907, 55418, 37020, 45474, 32602, 39578, 29355, 36053, 26998, 33730,
    25269, 32006, 23974, 30638, 22941, 29501, 240340596, -87322723, 33411891, -15171938, 17020734, -11268393,
    69592894, -42435059, 80939588, -46396062, 47682042, -28529551, 78340597, -49598465, 41430949, -26643930,
    19990845, -12710473, 54093241, -33103396, 77164382, -53534686, 66486132, -51624229, 52261101, -42997163,
    39778689, -34128321, 248155470]),
  (3, [0, -12666760, -901905, 0, 0, 0, 0, 0, 0, 0, 0, 0, 0, 0, 0, 0, 0, 0, 0, 0, 0, 0, 0, 0, 0, 0, 0, 0, 0, 0, 0, 0,
    0, 0, 0, 0, 0, 0, -261401, -363774, -121495, -201394, -108122, -183015, -140807, -235382, -252384, -389063,
    -527841, -208534, -173451, -91422, -98767, -56846, -70499, -43181, -54501, -36407, -44722, -32062, -38923,
    -28869, -35456, -26551, -33172, -24851, -31477, -23577, -30131, -22561, -29012, -236133314, 85797003,
    -32771882, 14866943, -16675884, 11044154, -68364045, 41691400, -79528970, 45592186, -46855231, 28039361,
    -77001762, 48752403, -40697862, 26175615, -19600002, 12470815, -53188240, 32552006, -75938116, 52684637,
    -65446487, 50817302, -51450717, 42330635, -39164383, 33601418, -30283009, 242090660]),
  (3, [0, 13434353, 956560, 0, 0, 0, 0, 0, 0, 0, 0, 0, 0, 0, 0, 0, 0, 0, 0, 0, 0, 0, 0, 0, 0, 0, 0, 0, 0, 0, 0, 0, 0,
    0, 0, 0, 0, 0, 277241, 385819, 128857, 213598, 114674, 194106, 149340, 249646, 267679, 412639, 559827, 221171,
    183962, 96962, 104752, 60290, 74772, 45797, 57804, 38613, 47432, 34005, 41282, 30618, 37605, 28160, 35182,
    26357, 33384, 25006, 31957, 23929, 30771, 247513787, -89921915, 34171746, -15454366, 17237395, -11440258,
    71594752, -43700458, 83430619, -47858256, 49205136, -29467866, 80922776, -51243756, 42638753, -27441110,
    20507985, -13075851, 56274984, -34441305, 80298824, -55709831, 69072230, -53633331, 54257054, -44640354,
    41339523, -35468258, 32029874, -28320527, 252971596])]

/-- Part 7 of `certOxygen`. -/
def certOxygen_7 : List (ℤ × List ℤ) := [
  (3, [0, -13165747, -937435, 0, 0, 0, 0, 0, 0, 0, 0, 0, 0, 0, 0, 0, 0, 0, 0, 0, 0, 0, 0, 0, 0, 0, 0, 0, 0, 0, 0, 0,
    0, 0, 0, 0, 0, 0, -271698, -378105, -126281, -209328, -112381, -190225, -146354, -244655, -262327, -404389,
    -548634, -216749, -180284, -95024, -102658, -59085, -73277, -44882, -56648, -37841, -46483, -33325, -40456,
    -30006, -36853, -27597, -34478, -25830, -32717, -24506, -31318, -23450, -30155, -242364795, 88053960,
    -33412544, 15098363, -16837244, 11178295, -70095683, 42790436, -81700249, 46869825, -48188220, 28862871,
    -79267710, 50197105, -41744968, 26868668, -20046269, 12789214, -55141643, 33749785, -78737529, 54627266,
    -67744174, 52602375, -53220143, 43787343, -40551782, 34792507, -31420657, 27781889, -25043788, 246577434]),
  (3, [0, 14066590, 1001577, 0, 0, 0, 0, 0, 0, 0, 0, 0, 0, 0, 0, 0, 0, 0, 0, 0, 0, 0, 0, 0, 0, 0, 0, 0, 0, 0, 0, 0, 0,
    0, 0, 0, 0, 0, 290289, 403976, 134921, 223651, 120071, 203241, 156368, 261395, 280276, 432059, 586174, 231580,
    192620, 101525, 109682, 63128, 78290, 47953, 60524, 40431, 49664, 35606, 43224, 32059, 39374, 29485, 36837,
    27597, 34955, 26183, 33461, 25055, 32219, 254884583, -92581601, 35040446, -15806132, 17537499, -11663660,
    73700885, -45020970, 86020991, -49368271, 50757445, -30417010, 83556967, -52918303, 43909039, -28272341,
    21043602, -13446021, 58345661, -35711617, 83348530, -57825523, 71633914, -55622448, 56201382, -46240241,
    42775119, -36700187, 33130410, -29293828, 26411126, -23898779, 258643819]),
  (3, [0, -13740000, -978323, 0, 0, 0, 0, 0, 0, 0, 0, 0, 0, 0, 0, 0, 0, 0, 0, 0, 0, 0, 0, 0, 0, 0, 0, 0, 0, 0, 0, 0,
    0, 0, 0, 0, 0, 0, -283549, -394596, -131789, -218458, -117283, -198522, -152737, -255326, -273769, -422027,
    -572564, -226203, -188148, -99168, -107135, -61662, -76473, -46839, -59119, -39492, -48511, -34779, -42221,
    -31315, -38460, -28801, -35982, -26956, -34144, -25575, -32684, -24473, -31471, -248799925, 90374602,
    -34162409, 15399214, -17084226, 11364993, -71932225, 43944459, -83969366, 48194253, -49549568, 29696528,
    -81583186, 51669458, -42854280, 27595482, -20512268, 13112910, -56981885, 34878618, -81445515, 56505787,
    -70010496, 54362057, -54932892, 45196705, -41811661, 35873644, -32385131, 28634924, -25817348, 23361509,
    -21333871, 251669326])]

/-- All oxygen parameters. -/
def certOxygen : List (ℤ × List ℤ) :=
  certOxygen_0 ++ certOxygen_1 ++ certOxygen_2 ++ certOxygen_3 ++ certOxygen_4 ++ certOxygen_5 ++ certOxygen_6 ++ certOxygen_7

/-- First-order mixing `y` of oxygen. -/
def certMixing : List (ℤ × List ℤ) := [
  (3, [10066330832]),
  (7, [0, 9492327893]),
  (6, [0, -8538223936, 5429424910]),
  (4, [0, 10419914800, -1636919006, 219412002]),
  (4, [0, -9825867309, 4962712280, 90981426, 282343680]),
  (3, [0, 9257777472, -1692802148, 33710297, -291539844, 12564677]),
  (4, [0, -9611212305, 4872576720, 627969397, 1145236841, -80086158, 577860169]),
  (4, [0, 10257090530, -1553964668, -576231544, -1329719928, 101302202, -684494263, 9872433]),
  (6, [0, -8789041806, 5451916932, 1609710968, 2980869928, -196174871, 1128015521, -81708859, 493317756]),
  (7, [0, 9903039657, -72773339, -1729723210, -3687658273, 247573682, -1387208086, 107830288, -638924624, 12317845]),
  (13, [0, -1768931035, 6212830829, 2895602515, 6229436277, 1275961, 283576207, -413083338, 2277264060, -408446786,
    1380424674]),
  (14, [0, 633257247, 6060100241, -2541538008, -6642556101, -25192703, -128697390, 468719847, -2560365600, 478935072,
    -1581620752, 16607616]),
  (8, [0, 10128635828, 225532131, 332380485, 1568151284, 544228662, -1300731417, -168113241, 910718531, -605148898,
    1720672592, -198791270, 657258057]),
  (6, [0, -7936652872, 5225934576, 77697812, -983940781, -429543294, 1078774969, 124379321, -663330599, 469671068,
    -1320035141, 159867835, -510301714, 7573123]),
  (4, [0, 10445463775, -1608989674, -688908741, -1009691967, 435875087, -889965209, 77368694, -230897711, -282744151,
    558245057, -246965501, 613293040, -13847917, 294721282]),
  (3, [0, -7807951393, 3840196216, 687196487, 882967945, -330867130, 699644472, -63817494, 202765267, 210269059,
    -407265594, 190070037, -464249642, 11134631, -225368837, 6222301]),
  (3, [0, 11565344287, -2405597793, -1016845292, -2228426755, 219582535, -511658619, 159988635, -615119103, 6231430,
    -256918995, -171268023, 213416869, -18480724, 374927080, -5327227, 175167402]),
  (2, [0, -7560685381, 3316656850, 783991993, 1563417916, -142263344, 349081273, -108734520, 429748709, -8251346,
    191413098, 112166199, -135636210, 13691003, -250049882, 3912548, -117728578, 5684811]),
  (2, [0, 9958659512, -2331001899, -872186991, -2387793935, -50797967, -182785214, 118031425, -569825282, 215647118,
    -646145112, 28062371, -238296347, -7466794, 58168983, -3265693, 175330401, -4754038, 89143356]),
  (2, [0, -9674925861, 4000668919, 966194110, 2441833690, 58673675, 183565791, -119752957, 582368201, -223012683,
    664223676, -31192053, 249096806, 7871522, -52739098, 3681958, -173932148, 6099350, -88741532, 7256702]),
  (2, [0, 11922835107, -2968771457, -982397064, -3121372989, -280199916, -79518533, 90001517, -650352789, 410244287,
    -987532768, 240380955, -598745905, 9915607, -302763875, 1484215, -9795772, -2299284, 111717703, -5378785,
    64558100]),
  (2, [0, -11523156642, 4601030517, 1066000238, 3147202368, 285616245, 77902475, -89802344, 656232331, -416584089,
    998122223, -243130774, 606973780, -9828207, 309114563, -2614212, 13476388, 4729974, -110000202, 4874933,
    -63542559, 9003163]),
  (1, [0, 6791782790, -1754156019, -531272442, -1834990394, -232468044, -20800144, 27003006, -357735489, 276258225,
    -599379568, 219113658, -420271671, 17820156, -307490415, 6027929, -151676487, 3944970, -28658654, 1828906,
    31499171, -1306158, 22297501]),
  (1, [0, -6538073957, 2552880198, 568622706, 1833261882, 233877332, 19811436, -26636339, 357785100, -276741061,
    600061909, -219274231, 421181457, -17078384, 308463514, -7186418, 152664668, -3102051, 29472845, -1994973,
    -30879325, 892119, -21561700, 4871031]),
  (1, [0, 7483180924, -1978454629, -569336733, -2035710809, -293444383, -19130358, 16481664, -392147539, 323620572,
    -667235835, 288001486, -492479775, 29139672, -402814457, 12377518, -265234887, 9895049, -134993543, 6946793,
    -35561094, 3085528, 14838287, -2796703, 16962767]),
  (1, [0, -7178205293, 2760600579, 602696491, 2019776869, 293181826, 18093335, -14704010, 389658129, -320636963,
    663526340, -286001795, 489777688, -28927997, 400732071, -11367085, 263905213, -8186462, 134681111, -6643663,
    35530079, -3059150, -14404862, 1375913, -16639668, 5065645]),
  (1, [0, 8051782743, -2162584857, -606762857, -2186918956, -329675102, -22853611, 11184775, -425483531, 353097922,
    -716964663, 332070741, -537137922, 36882980, -452953242, 15282038, -328044421, 13579503, -204092127, 9296321,
    -104913911, 8948023, -30091080, 280740, 15228185, -2467161, 21996567]),
  (1, [0, -7704613728, 2931085277, 636903098, 2159301847, 327394780, 21677821, -11171835, 420411132, -348967890,
    709094052, -327274602, 531795003, -36254084, 448479185, -15376225, 324850335, -12551934, 202141252, -10067764,
    104108443, -7671526, 29803951, -2008781, -14401004, 2790363, -20809806, 6024035]),
  (1, [0, 8534006651, -2318542570, -642603998, -2311381939, -352053576, -26921361, 11684433, -454414092, 376232112,
    -757403828, 357474256, -570189475, 41460591, -482414737, 18475121, -359759642, 13401610, -236825203, 11217378,
    -143302475, 13313296, -68036797, 6501734, -6082548, -1958896, 39222780, -3716540, 21249326]),
  (1, [0, -8145572164, 3073700389, 669569485, 2272470721, 347880283, 25597617, -10716309, 447201673, -369512126,
    746061758, -351749357, 561815847, -41901492, 475269160, -18698068, 354463062, -13698389, 233252100, -12360913,
    141261930, -12684807, 67300269, -7031077, 6363935, 1380392, -37637350, 3051090, -19577924, 5600003]),
  (1, [0, 8948704774, -2452586358, -675149338, -2419597973, -368545394, -29845746, 12174526, -478603416, 393329066,
    -793153512, 373928354, -597931240, 44241393, -504342316, 19182560, -378136286, 16519895, -251141409, 14084328,
    -158557787, 13075386, -84028634, 8459046, -20031551, -1209849, 45049930, -3478653, 38796744, -6043159, 14416731]),
  (1, [0, -8521701859, 3195276036, 699077202, 2370186682, 362559297, 28346379, -11212556, 469215891, -384824472,
    778379815, -367249882, 586748783, -43396079, 494917994, -18854571, 371097227, -16059128, 246523479, -11749414,
    155703851, -11279920, 82585416, -7380393, 19070558, 1741720, -44280388, 2121510, -39138603, 7411693, -10904407,
    6040277]),
  (1, [0, 9318912389, -2572243952, -704570214, -2518513385, -382412324, -31521784, 13501438, -498853698, 410368689,
    -825271192, 388143813, -622278156, 46833992, -523787407, 21676292, -392141547, 16916410, -259892699, 14015172,
    -164217643, 13173664, -87795654, 10348494, -23735971, -1579516, 46285565, -2159235, 43185868, -7985423,
    19852332, -7360276, 6867369]),
  (1, [0, -8852568088, 3302216273, 725409263, 2458354412, 374601076, 29902376, -11948228, 487452446, -399600731,
    807159104, -380438771, 608393640, -45216140, 512033068, -20092610, 383428289, -16944667, 254118955, -12194857,
    160643151, -12438599, 86237852, -8062020, 22951246, 1176725, -44444798, 2981289, -43066419, 6719919, -19796970,
    5162328, -5101684, 5677137])]

/-- Temperature dependence `v` of the mixing. -/
def certSlope : List (ℤ × List ℤ) := [
  (134, [129602752121]),
  (8, [-124487544814, 10912445212]),
  (10, [119741989572, 5525723757, 53673965609]),
  (6, [-109575778845, -4617445795, -55720234521, 818695411]),
  (8, [100796340125, 26034697125, 26059436319, 58870563769, 51050621748]),
  (7, [-90077671399, -34160829011, -20344870574, -69365569559, -59983936229, 968149882]),
  (6, [88989282800, 35763088146, -14087089583, -639859264, -10826963835, 62503447556, 58436805150]),
  (5, [-76303282488, -37407086634, 19609802894, 6601732662, 14937549529, -61219693216, -57411778189, 798644615]),
  (6, [80499436533, 46811101428, -24892272487, -1360075427, -8965661023, 20936757750, -46009636036, -24899875637,
    63089404409]),
  (5, [-68917224871, -43657351518, 26054578440, 6013172295, 9931283158, -15794557240, 45960370243, 24362125486,
    -58273914185, 456488684]),
  (6, [68206658434, 18105844646, 2224607880, -13278803286, -271683641, -19857000543, -41784173453, 18414437194,
    -29231894284, -18197236114, 74751860088]),
  (6, [-70277447840, -18720330779, 192837422, 18520854589, 779792249, 24437943340, 45431088716, -18605139198,
    33374894611, 19913122695, -79467935883, 244740366]),
  (3, [94042505355, 40227414673, -18683582221, -30854461861, 8323548721, 3281340528, 367096828, -1677277019,
    -26359304746, -6306857108, -19765427712, 5132759046, 32946910061]),
  (3, [-97419593833, -41752850168, 20768770644, 33619437037, -8539929917, -2413550975, -614975208, 2458058062,
    27847486373, 6518690750, 21432202384, -5220381287, -34104445203, 104686984]),
  (4, [84247235808, 48016538143, -32498306894, -42872168156, 1825402976, -4813282177, 484091093, -29852736900,
    98232001, 1365824408, -44750485979, -4375248424, -15977915039, -3761359632, 55293210148]),
  (4, [-85391125406, -48842145620, 34630528381, 44984723945, -1534934323, 6088761726, -834880224, 31390105835,
    -243230241, -1558481332, 46320554409, 4668582915, 17139583004, 3929336570, -56415372034, 151379677]),
  (5, [55077578433, 37645219252, -38088762207, -40472131721, -15879540774, -27519909815, -626931348, -43489246552,
    11909037572, -4856607, -7092911779, -16519506422, -60390412159, -10101452659, 6153094359, -7814534245,
    69079402141]),
  (5, [-55133234433, -37848642788, 39823453758, 41788796091, 16515942545, 29126290283, 215828468, 44736094037,
    -12346460992, -131888133, 7108549174, 16844920659, 61699833025, 10235599736, -5271228578, 8034324683,
    -69674290453, 180190440]),
  (4, [72583107087, 41812198412, -40146967697, -39859707259, -16211222747, -34337917295, 5634258900, -35842200167,
    8480399125, -2267922692, 11170260833, -8135695909, -18260687004, -8472994761, -49276276703, -10188672715,
    15378818485, -2306188012, 45458182868]),
  (4, [-72974404929, -42007828315, 41098980159, 40536238596, 16509830373, 35263533414, -5973915787, 36378774091,
    -8715775037, 2207495657, -11377726907, 8154830284, 18381633759, 8448841046, 50235637651, 10254391809,
    -14773387673, 2454042762, -45483326521, 131571148]),
  (2, [71288533804, 37076917514, -29547553703, -31300187823, -6177616214, -22378143145, 6867222854, -22064749096,
    6235777805, -962025738, 6139250419, -529838392, 2651999647, -512506661, -25998881967, -3026350498,
    -26751164193, -3913390598, 5309381149, -2061723442, 15992765402]),
  (2, [-71407661867, -37110409849, 29813269220, 31475559703, 6227754060, 22630438036, -6988095559, 22170006303,
    -6309576782, 933130046, -6194689437, 504794041, -2683874928, 446323197, 26219711619, 3010018801, 27096600543,
    3970996217, -5067613011, 2115250248, -15916490775, 76313248]),
  (2, [121956969603, 59308838218, -41631336015, -45280083897, -3632377595, -25754146353, 8909484460, -27396164686,
    9129169071, -1698138627, 5609499786, 318989603, 3615876067, 5431315732, -24158476325, 574327861, -39948901924,
    -7248856649, -24379687655, -6019519574, 3493305870, -4991987213, 10914275354]),
  (2, [-121415896054, -59019822568, 41596974963, 45162192433, 3639829409, 25791680142, -8951587234, 27319114511,
    -9133439372, 1663351524, -5620723609, -337645848, -3628033411, -5458398639, 24176311228, -599955800,
    40002363056, 7258998135, 24477267069, 6026644982, -3355700728, 5006377208, -10843020842, 133707737]),
  (1, [78975549692, 37406288784, -25144727377, -27473795497, -1017361215, -13993736977, 4936556998, -15683847386,
    5461460238, -1161829905, 2837153062, 168290599, 1052740959, 4855489098, -12411838547, 1590948884, -21814275627,
    -4750452899, -18874775753, -4668539021, -7819425276, -5115831945, 2727396814, -2452610163, 4726596017]),
  (1, [-78229910065, -37042572618, 24963483794, 27246827899, 1014223575, 13919067066, -4921695346, 15550201658,
    -5427313663, 1141114962, -2823591405, -171284545, -1053721580, -4836687017, 12342558729, -1593691262,
    21700960845, 4728060041, 18782312131, 4642937800, 7798647422, 5082052727, -2683079255, 2442327309, -4698131419,
    74244124]),
  (1, [89014031975, 41797519463, -27851360335, -30412501993, -705695768, -14914038467, 5227573161, -17110963576,
    5910498062, -1278385120, 3017658391, 168223674, 632402363, 5838090472, -13120995837, 2168723175, -22862111191,
    -5316788037, -20866525175, -5504337608, -11916568371, -6369209948, -1633832334, -4504786319, 6481951754,
    -1225766120, 4138371045]),
  (1, [-87777908079, -41206937480, 27508987387, 30016699683, 699384270, 14752779759, -5181017435, 16884117849,
    -5842954959, 1250174386, -2986946496, -171259345, -632557511, -5783349714, 12975548084, -2152540924,
    22617985198, 5255956529, 20647475004, 5445936585, 11796443427, 6288778950, 1624275486, 4450653182, -6411427493,
    1206978469, -4101986689, 63569739]),
  (1, [92735799725, 43472175029, -29153744140, -31819885510, -642691073, -15730354728, 5568740186, -17809429400,
    6209615331, -1238985753, 3210672426, 187369667, 565457021, 6269399652, -13840419329, 2373002748, -23928287152,
    -5641509338, -21788809949, -5906553614, -13012933911, -6852105171, -3112618229, -5212385601, 6451998426,
    -1945662823, 6382650457, -262861302, 1735717064]),
  (1, [-91111562686, -42702537624, 28680634117, 31285394768, 634525500, 15493472184, -5492609971, 17505346954,
    -6112803605, 1212113796, -3162142795, -188623797, -560797524, -6180772150, 13630460368, -2333372406,
    23573571266, 5548656278, 21469941236, 5815444008, 12826411238, 6752539940, 3076326990, 5142354731, -6340579256,
    1929339348, -6277248240, 274505990, -1705229258, 76341884]),
  (1, [95491865163, 44800836437, -30208615480, -32977458768, -668252636, -16489978254, 5876583456, -18396678176,
    6482089679, -1217247786, 3368562737, 203928470, 595640666, 6555337422, -14497461331, 2472654239, -24989838690,
    -5891335474, -22640555372, -6164156315, -13476604039, -7113155750, -3335944295, -5455329114, 6543645492,
    -2128378924, 6822454685, -392936968, 2429948883, -72414200, 640833940]),
  (1, [-93504613117, -43860874841, 29612779901, 32312130947, 656127332, 16181667804, -5774220629, 18020485142,
    -6359103187, 1185758840, -3306338522, -202253929, -589294664, -6435748186, 14223619763, -2421904669,
    24525717634, 5772002483, 22224601523, 6039322833, 13232369555, 6992205880, 3284048194, 5351562741, -6411995865,
    2079629388, -6693797116, 391241516, -2384764874, 46778650, -629474454, 45043382]),
  (1, [98319545668, 46204734513, -31246149579, -34132295233, -711147376, -17198870655, 6144692949, -19000804898,
    6736412409, -1215882213, 3506325428, 209730994, 636733740, 6807559561, -15101210187, 2558331186, -26001254319,
    -6099123225, -23494943052, -6386026191, -13901397364, -7350045096, -3374857483, -5615279322, 6746279577,
    -2181616193, 6959574960, -406986258, 2509540604, -76372750, 855755498, -34245858, 242595868]),
  (1, [-95971806047, -45092225021, 30527762341, 33332694317, 696515138, 16816216228, -6014146780, 18554014148,
    -6584352584, 1185753914, -3428139994, -218947004, -623765708, -6656741852, 14763371748, -2505606202,
    25424723715, 5960467384, 22977621375, 6230512326, 13598157526, 7201519342, 3309981266, 5472785451, -6593893558,
    2136081362, -6804161857, 399940857, -2454372837, 73774301, -838945343, 3730875, -228268124, 48527103])]

/-- Water vapour, first file. -/
def certWater111 : List (ℤ × List ℤ) := [
  (11816660443, [4630675115425619924484096]),
  (246533421, [-3602420475333530456424448, 2909590833956945783685120]),
  (21, [-5151680569906703630336, -6378394979396761944064, 4741038453710917126324224]),
  (6205843631593528, [-3393831087272319516672, -4645530743613468180480, -9937688567926644736, 4630671541339864648646656]),
  (1, [-2875663345034680210554880, -3560414197562850070757376, -7914769599294192222208, -5679437138093796229120,
    705030631357132140707840]),
  (75, [-54950038858480656384, -68034701922316075008, 61328614209101399851008, 23088707074266720,
    120778371106019885056, 4602831222728045107347456])]

/-- Water vapour, second file. -/
def certWater112 : List (ℤ × List ℤ) := [
  (11816660635, [4630675115050427687632896]),
  (242377801, [-3541694707800112336207872, 2983211460882600638283776]),
  (48, [-2107522941961708240896, -2502069648091515977728, 4584746171409160143372288]),
  (6205843631593528, [-3406866418220775505920, -4470317996363504680960, -4005695283011258880, 4630671704236998397001728]),
  (1, [-2875663247188794173030400, -3414012528957845959344128, -3185045114335704645632, -5411468692622230421504,
    1232149315342776785698816]),
  (575, [-7305470762914140160, -8673118710581300224, 271397580242100777123840, 221020990192850976,
    660469078859182768128, 4623938157795079824080896]),
  (1, [0, -1074864216677601752645632, -586594117061465341952, -1037643674195654475776, -2978216471394064745365504,
    457812766004009172992, 1427117706331713980858368])]

/-- Water vapour and the remaining parameters, third file. -/
def certWater135 : List (ℤ × List ℤ) := [
  (6480418725, [2315337557643885132382208]),
  (121639667, [-1770847355614450614796288, 1491605731885354760273920]),
  (1, [-1437831623594396818079744, -1707006264478923248107520, 616082657564198975832064]),
  (1, [0, -537432108338801010540544, -1489085862753490922635264, 713605826417629811703808]),
  (2996254681647940, [-2234492203412444413952, -2876048334725833031680, -13183711596712697004032, -29676550405722615054336,
    2315106959348719067070464]),
  (17248814144028, [-67018092925143962615808, -88911783294579626737664, -402760411097504367509504, -907404140244908040519680,
    -14100414527031771922432, 2088682415201313049542656]),
  (14700477765527, [-845754941214577000448, -1097236878725516754944, -5014008084733991321600, -11289115903427283517440,
    -175443640371193151488, -5946306808741339594752, 2315296549632292029464576]),
  (772797527048, [-2468481429701279612928, -3217195256469767323648, -14675032656285500702720, -33045424827770297384960,
    -513546132527677243392, -17405613186784172179456, -240073494552189403136, 2314986161635579289141248]),
  (12738853503, [-52883095599323828715520, -70734858961014581362688, -319408170565575041351680, -719783046335465904930816,
    -11184479702632972156928, -379076334971637775466496, -5228546148722971508736, -15307230038580355137536,
    2142146853270765757792256]),
  (19323671498, [-4132501635047702921216, -5479547780990175805440, -24826967187426610511872, -55933358855681587806208,
    -869166842374673793024, -29458707950317424607232, -406319975026283839488, -1189552993216106594304,
    -28006066657659958853632, 2314161077623386454097920]),
  (22, [-1533425633450051502080, -1820496308092190064640, -8622879422677620097024, -19364473357776420077568,
    -301072304805276680192, -10204152476051057934336, -140745353719702945792, -412049264497290444800,
    -9700952977817194201088, -815244923141279580160, 2335859692862550321397760]),
  (27, [-33786748175072410730496, -40111922595666845499392, -189992295187174702186496, -426667306591234308440064,
    -6633679471014183960576, -224833289940961996046336, -3101114080270127988736, -9078891360366211629056,
    -213746039044810756587520, -17962706712557307035648, -6170701753732584964096, 2242281083508404969799680]),
  (19, [-626503785439046008832, -743790767232349241344, -3523005277756727492608, -7911642793126463012864,
    -123007555460633411584, -4169057836251072167936, -57503601716870373376, -168348838289676304384,
    -3963468218080122372096, -333080404596361986048, -114422612898305032192, -2626662678694060359680,
    2310285442976919557505024]),
  (16, [-1177420063973437734912, -1397843385932373032960, -6620960951749363892224, -14868748090787487547392,
    -231174283676800188416, -7835120007818822811648, -108069409931391172608, -316386436212793933824,
    -7448745101545146679296, -625974751315054559232, -215040169476897439744, -4936419238101311815680,
    -94453491105027948544, 2301658434829882780286976]),
  (30, [-11574068647216703078400, -13740835409446616170496, -65084211583315731283968, -146160165234647289036800,
    -2272448984534031269888, -77019425440776184659968, -1062324999787281907712, -3110086573025933656064,
    -73221350458359088676864, -6153347445681280778240, -2113850238831052455936, -48525124449140245266432,
    -928480177524415135744, -1751517913483413028864, 2303436433379122208571392]),
  (11, [-2352136599923245973504, -2792477119776977059840, -13226719212442142900224, -29703355369498028802048,
    -461817757514880909312, -15652249438478498004992, -215890676751257042944, -632046403068754264064,
    -14880386799012954505216, -1250512173393036181504, -429586575392109821952, -9861503738367803654144,
    -188690103232072155136, -355951698171088011264, -3496583897496183898112, 2260280133952800695517184]),
  (8, [-607742130075635417088, -960950247824408051712, -4080911734218416455680, -9239377320341274624000,
    -143456069358002225152, -4862238105879739105280, -67063566810796531712, -196337430055852933120,
    -4622491480932551753728, -388461154673887674368, -133438679210667245568, -3063191703972009738240,
    -58611138237804937216, -110566128430316978176, -1086112936851674759168, -226619533582560559104,
    2315303181464225020116992]),
  (13, [-10477938935754829856768, -18070123983111144341504, -74521375057886083809280, -169113236515545195479040,
    -2624738007284652703744, -88962389692575079464960, -1227029357216713146368, -3592293403011785949184,
    -84575978755276064948224, -7107516466991189721088, -2441427552883294863360, -56044923931193639960576,
    -1072364089978113884160, -2022945625377785511936, -19871794784376853626880, -4146287842346951770112,
    -1257974777511950417920, 2245619055251647123947520]),
  (4, [-372698046350623178752, -605447600768916389888, -2547352802667575902208, -5771553249703016529920,
    -89601667095622844416, -3036927246143051005952, -41887477867740012544, -122631146684389703680,
    -2887184274092878462976, -242630716633220513792, -83344577072645570560, -1913241487177240018944,
    1805378896130763525193728, 5030506654064624640, 49415661319293231104, 10310671883085543424,
    3120325140038468096, 58824368315619164160, 1040568933232600273649664]),
  (6, [-493107380287449202688, -808985987655928905728, -3392320021265390764032, -7688040970889764798464,
    -119349315797931704320, -4045186922668620251136, -55794090181065039872, -163344615417018187776,
    -3845729994064646897664, -323184106135777116160, -111014735648614301696, -2548432128293251055616,
    -48761723782216146944, -91985843924638793728, -903595129106238406656, -188536845255802421248,
    -57200220535975411712, -1079111041088359890944, 5835639195352195072, 2431081534162336374325248]),
  (57, [-995239016652731973632, -1767951040922276855808, -7221254451333181734912, -16400120538448932110336,
    -254506818340773363712, -8626228626141520855040, -118978596002046476288, -348325940230607667200,
    -8200905136188562604032, -689179607805663510528, -236731287524029857792, -5434356217430630465536,
    -103981021847339106304, -196153484841775693824, -1926854458230040166400, -402041853834581508096,
    -121980437136784506880, -2301248910781088792576, 12436682552774395904, -97675934194566463488,
    2309439579167706350354432]),
  (50, [-89268385731968991232, -156212122009031540736, -641160685177132679168, -1455560876435608436736,
    -22589732276851163136, -765653176882334269440, -10560398021042063360, -30916989538524073984,
    -727901803476343980032, -61170711640520622080, -21012036851703316480, -482348126858156310528,
    -9229253495747911680, -17410390891685785600, -171025711504605020160, -35684840550879203328,
    -10826782774634321920, -204254627849369026560, 1103990559073910656, -8669547049174897664,
    -19462372536689012736, 2315336696017184704430080]),
  (1614856681470, [-3271801019261121462272, -4294989941521407016960, -19536134575251903217664, -44000828112699605909504,
    -683776170029620658176, -23175233080565199536128, -319653030585328533504, -935824473249739046912,
    -22032432466858214424576, -1851549597401677299712, -636044968484034707456, -14600921429516683837440,
    -279374164925771350016, -527021326116669489152, -5177034670729124118528, -1080198147553783971840,
    -327682575328871448576, -6181687925338877722624, 33493416344519135232, -262386919214337982464,
    -589012841838185349120, -52151852056557019136, 2314548135468419451453440]),
  (6119951040392, [-192554896442467352576, -245306008003112534016, -1129069944135002095616, -2540782810088053145600,
    -39489655383321075712, -1338419652948070760448, -18460681687312113664, -54045950546777268224,
    -1272419694942233559040, -106930973813613363200, -36733223510295527424, -843240552008489762816,
    -16134572477917677568, -30436829353555214336, -298986991648870367232, -62384205450241384448,
    -18924193186537381888, -357000684184558239744, 1934804873465468928, -15153233404430139392,
    -34016220497801453568, -3011836369912504832, -91197287555450929152, 2315334923294554275708928]),
  (1176470588235, [-197540354600516059136, -252244354826650517504, -1159929522240679706624, -2610403110273754857472,
    -40571259455031271424, -1375078664482588983296, -18966313153249312768, -55526251256032059392,
    -1307271043442406850560, -109859789440100925440, -37739317687086284800, -866336249253023318016,
    -16576485761419509760, -31270470233561374720, -307176010811585724416, -64092859900608765952,
    -19442537116323532800, -366779262037390524416, 1987759645505735168, -15568291192506525696,
    -34947960388172558336, -3094333530593124864, -93695154476891717632, -5412962063614570496,
    2315334777005048669929472]),
  (3, [0, 0, 0, 0, 0, 0, 0, 0, 0, 0, 0, 0, 0, 0, 0, 0, 0, 0, 0, 0, 0, 0, 0, 0, 0, 2142844909578110629838848]),
  (5, [0, 0, 0, 0, 0, 0, 0, 0, 0, 0, 0, 0, 0, 0, 0, 0, 0, 0, 0, 0, 0, 0, 0, 0, 0, 0, 2387691856296516882792448]),
  (5, [0, 0, 0, 0, 0, 0, 0, 0, 0, 0, 0, 0, 0, 0, 0, 0, 0, 0, 0, 0, 0, 0, 0, 0, 0, 0, 0, 2373220996561386596204544]),
  (5, [0, 0, 0, 0, 0, 0, 0, 0, 0, 0, 0, 0, 0, 0, 0, 0, 0, 0, 0, 0, 0, 0, 0, 0, 0, 0, 0, 0, 2373220996561386596204544]),
  (5, [0, 0, 0, 0, 0, 0, 0, 0, 0, 0, 0, 0, 0, 0, 0, 0, 0, 0, 0, 0, 0, 0, 0, 0, 0, 0, 0, 0, 0, 2315337557620865449852928])]

end Verif.Lemmas
