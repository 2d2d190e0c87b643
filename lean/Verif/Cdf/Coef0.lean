/-!
# The default coefficient tables `default_coef_cdf[0]`, src/cdf.c:700-1512

Copied from the source, see `Default.lean`.
-/
namespace Dav1d.CdfTab

/-- `default_coef_cdf[0].eob_bin_16`, src/cdf.c:733-740 -/
def coef0_eobBin16 : List (List Nat) := [
  [840, 1039, 1980, 4895], [370, 671, 1883, 4471], [3247, 4950, 9688, 14563], [1904, 3354, 7763, 14647]]

/-- `default_coef_cdf[0].eob_bin_32`, src/cdf.c:741-748 -/
def coef0_eobBin32 : List (List Nat) := [
  [400, 520, 977, 2102, 6542], [210, 405, 1315, 3326, 7537], [2636, 4273, 7588, 11794, 20401],
  [1786, 3179, 6902, 11357, 19054]]

/-- `default_coef_cdf[0].eob_bin_64`, src/cdf.c:749-756 -/
def coef0_eobBin64 : List (List Nat) := [
  [329, 498, 1101, 1784, 3265, 7758], [335, 730, 1459, 5494, 8755, 12997],
  [3505, 5304, 10086, 13814, 17684, 23370], [1563, 2700, 4876, 10911, 14706, 22480]]

/-- `default_coef_cdf[0].eob_bin_128`, src/cdf.c:757-764 -/
def coef0_eobBin128 : List (List Nat) := [
  [219, 482, 1140, 2091, 3680, 6028, 12586], [371, 699, 1254, 4830, 9479, 12562, 17497],
  [5245, 7456, 12880, 15852, 20033, 23932, 27608], [2054, 3472, 5869, 14232, 18242, 20590, 26752]]

/-- `default_coef_cdf[0].eob_bin_256`, src/cdf.c:765-776 -/
def coef0_eobBin256 : List (List Nat) := [
  [310, 584, 1887, 3589, 6168, 8611, 11352, 15652], [998, 1850, 2998, 5604, 17341, 19888, 22899, 25583],
  [2520, 3240, 5952, 8870, 12577, 17558, 19954, 24168], [2203, 4130, 7435, 10739, 20652, 23681, 25609, 27261]]

/-- `default_coef_cdf[0].eob_bin_512`, src/cdf.c:777-781 -/
def coef0_eobBin512 : List (List Nat) := [
  [641, 983, 3707, 5430, 10234, 14958, 18788, 23412, 26061],
  [5095, 6446, 9996, 13354, 16017, 17986, 20919, 26129, 29140]]

/-- `default_coef_cdf[0].eob_bin_1024`, src/cdf.c:782-786 -/
def coef0_eobBin1024 : List (List Nat) := [
  [393, 421, 751, 1623, 3160, 6352, 13345, 18047, 22571, 25830],
  [1865, 1988, 2930, 4242, 10533, 16538, 21354, 27255, 28546, 31784]]

/-- `default_coef_cdf[0].eob_base_tok`, src/cdf.c:849-890 -/
def coef0_eobBaseTok : List (List Nat) := [
  [17837, 29055], [29600, 31446], [30844, 31878], [24926, 28948], [21365, 30026], [30512, 32423],
  [31658, 32621], [29630, 31881], [5717, 26477], [30491, 31703], [31550, 32158], [29648, 31491],
  [12608, 27820], [30680, 32225], [30809, 32335], [31299, 32423], [1786, 12612], [30663, 31625],
  [32339, 32468], [31148, 31833], [18857, 23865], [31428, 32428], [31744, 32373], [31775, 32526],
  [1787, 2532], [30832, 31662], [31824, 32682], [32133, 32569], [13751, 22235], [32089, 32409],
  [27084, 27920], [29291, 32594], [1725, 3449], [31102, 31935], [32457, 32613], [32412, 32649],
  [10923, 21845], [10923, 21845], [10923, 21845], [10923, 21845]]

/-- `default_coef_cdf[0].base_tok`, src/cdf.c:891-1322 -/
def coef0_baseTok : List (List Nat) := [
  [4034, 8930, 12727], [18082, 29741, 31877], [12596, 26124, 30493], [9446, 21118, 27005],
  [6308, 15141, 21279], [2463, 6357, 9783], [20667, 30546, 31929], [13043, 26123, 30134],
  [8151, 18757, 24778], [5255, 12839, 18632], [2820, 7206, 11161], [8192, 16384, 24576],
  [8192, 16384, 24576], [8192, 16384, 24576], [8192, 16384, 24576], [8192, 16384, 24576],
  [8192, 16384, 24576], [8192, 16384, 24576], [8192, 16384, 24576], [8192, 16384, 24576],
  [8192, 16384, 24576], [15736, 27553, 30604], [11210, 23794, 28787], [5947, 13874, 19701],
  [4215, 9323, 13891], [2833, 6462, 10059], [19605, 30393, 31582], [13523, 26252, 30248],
  [8446, 18622, 24512], [3818, 10343, 15974], [1481, 4117, 6796], [22649, 31302, 32190],
  [14829, 27127, 30449], [8313, 17702, 23304], [3022, 8301, 12786], [1536, 4412, 7184],
  [22354, 29774, 31372], [14723, 25472, 29214], [6673, 13745, 18662], [2068, 5766, 9322],
  [8192, 16384, 24576], [6302, 16444, 21761], [23040, 31538, 32475], [15196, 28452, 31496],
  [10020, 22946, 28514], [6533, 16862, 23501], [3538, 9816, 15076], [24444, 31875, 32525],
  [15881, 28924, 31635], [9922, 22873, 28466], [6527, 16966, 23691], [4114, 11303, 17220],
  [8192, 16384, 24576], [8192, 16384, 24576], [8192, 16384, 24576], [8192, 16384, 24576],
  [8192, 16384, 24576], [8192, 16384, 24576], [8192, 16384, 24576], [8192, 16384, 24576],
  [8192, 16384, 24576], [8192, 16384, 24576], [20201, 30770, 32209], [14754, 28071, 31258],
  [8378, 20186, 26517], [5916, 15299, 21978], [4268, 11583, 17901], [24361, 32025, 32581],
  [18673, 30105, 31943], [10196, 22244, 27576], [5495, 14349, 20417], [2676, 7415, 11498],
  [24678, 31958, 32585], [18629, 29906, 31831], [9364, 20724, 26315], [4641, 12318, 18094],
  [2758, 7387, 11579], [25433, 31842, 32469], [18795, 29289, 31411], [7644, 17584, 23592],
  [3408, 9014, 15047], [8192, 16384, 24576], [4536, 10072, 14001], [25459, 31416, 32206],
  [16605, 28048, 30818], [11008, 22857, 27719], [6915, 16268, 22315], [2625, 6812, 10537],
  [24257, 31788, 32499], [16880, 29454, 31879], [11958, 25054, 29778], [7916, 18718, 25084],
  [3383, 8777, 13446], [22720, 31603, 32393], [14960, 28125, 31335], [9731, 22210, 27928],
  [6304, 15832, 22277], [2910, 7818, 12166], [20375, 30627, 32131], [13904, 27284, 30887],
  [9368, 21558, 27144], [5937, 14966, 21119], [2667, 7225, 11319], [23970, 31470, 32378],
  [17173, 29734, 32018], [12795, 25441, 29965], [8981, 19680, 25893], [4728, 11372, 16902],
  [24287, 31797, 32439], [16703, 29145, 31696], [10833, 23554, 28725], [6468, 16566, 23057],
  [2415, 6562, 10278], [26610, 32395, 32659], [18590, 30498, 32117], [12420, 25756, 29950],
  [7639, 18746, 24710], [3001, 8086, 12347], [25076, 32064, 32580], [17946, 30128, 32028],
  [12024, 24985, 29378], [7517, 18390, 24304], [3243, 8781, 13331], [6037, 16771, 21957],
  [24774, 31704, 32426], [16830, 28589, 31056], [10602, 22828, 27760], [6733, 16829, 23071],
  [3250, 8914, 13556], [25582, 32220, 32668], [18659, 30342, 32223], [12546, 26149, 30515],
  [8420, 20451, 26801], [4636, 12420, 18344], [27581, 32362, 32639], [18987, 30083, 31978],
  [11327, 24248, 29084], [7264, 17719, 24120], [3995, 10768, 16169], [25893, 31831, 32487],
  [16577, 28587, 31379], [10189, 22748, 28182], [6832, 17094, 23556], [3708, 10110, 15334],
  [25904, 32282, 32656], [19721, 30792, 32276], [12819, 26243, 30411], [8572, 20614, 26891],
  [5364, 14059, 20467], [26580, 32438, 32677], [20852, 31225, 32340], [12435, 25700, 29967],
  [8691, 20825, 26976], [4446, 12209, 17269], [27350, 32429, 32696], [21372, 30977, 32272],
  [12673, 25270, 29853], [9208, 20925, 26640], [5018, 13351, 18732], [27351, 32479, 32713],
  [21398, 31209, 32387], [12162, 25047, 29842], [7896, 18691, 25319], [4670, 12882, 18881],
  [5487, 10460, 13708], [21597, 28303, 30674], [11037, 21953, 26476], [8147, 17962, 22952],
  [5242, 13061, 18532], [1889, 5208, 8182], [26774, 32133, 32590], [17844, 29564, 31767],
  [11690, 24438, 29171], [7542, 18215, 24459], [2993, 8050, 12319], [28023, 32328, 32591],
  [18651, 30126, 31954], [12164, 25146, 29589], [7762, 18530, 24771], [3492, 9183, 13920],
  [27591, 32008, 32491], [17149, 28853, 31510], [11485, 24003, 28860], [7697, 18086, 24210],
  [3075, 7999, 12218], [28268, 32482, 32654], [19631, 31051, 32404], [13860, 27260, 31020],
  [9605, 21613, 27594], [4876, 12162, 17908], [27248, 32316, 32576], [18955, 30457, 32075],
  [11824, 23997, 28795], [7346, 18196, 24647], [3403, 9247, 14111], [29711, 32655, 32735],
  [21169, 31394, 32417], [13487, 27198, 30957], [8828, 21683, 27614], [4270, 11451, 17038],
  [28708, 32578, 32731], [20120, 31241, 32482], [13692, 27550, 31321], [9418, 22514, 28439],
  [4999, 13283, 19462], [5673, 14302, 19711], [26251, 30701, 31834], [12782, 23783, 27803],
  [9127, 20657, 25808], [6368, 16208, 21462], [2465, 7177, 10822], [29961, 32563, 32719],
  [18318, 29891, 31949], [11361, 24514, 29357], [7900, 19603, 25607], [4002, 10590, 15546],
  [29637, 32310, 32595], [18296, 29913, 31809], [10144, 21515, 26871], [5358, 14322, 20394],
  [3067, 8362, 13346], [28652, 32470, 32676], [17538, 30771, 32209], [13924, 26882, 30494],
  [10496, 22837, 27869], [7236, 16396, 21621], [30743, 32687, 32746], [23006, 31676, 32489],
  [14494, 27828, 31120], [10174, 22801, 28352], [6242, 15281, 21043], [25817, 32243, 32720],
  [18618, 31367, 32325], [13997, 28318, 31878], [12255, 26534, 31383], [9561, 21588, 28450],
  [28188, 32635, 32724], [22060, 32365, 32728], [18102, 30690, 32528], [14196, 28864, 31999],
  [12262, 25792, 30865], [24176, 32109, 32628], [18280, 29681, 31963], [10205, 23703, 29664],
  [7889, 20025, 27676], [6060, 16743, 23970], [5141, 7096, 8260], [27186, 29022, 29789],
  [6668, 12568, 15682], [2172, 6181, 8638], [1126, 3379, 4531], [443, 1361, 2254], [26083, 31153, 32436],
  [13486, 24603, 28483], [6508, 14840, 19910], [3386, 8800, 13286], [1530, 4322, 7054],
  [29639, 32080, 32548], [15897, 27552, 30290], [8588, 20047, 25383], [4889, 13339, 19269],
  [2240, 6871, 10498], [28165, 32197, 32517], [20735, 30427, 31568], [14325, 24671, 27692],
  [5119, 12554, 17805], [1810, 5441, 8261], [31212, 32724, 32748], [23352, 31766, 32545],
  [14669, 27570, 31059], [8492, 20894, 27272], [3644, 10194, 15204], [8192, 16384, 24576],
  [8192, 16384, 24576], [8192, 16384, 24576], [8192, 16384, 24576], [8192, 16384, 24576],
  [8192, 16384, 24576], [8192, 16384, 24576], [8192, 16384, 24576], [8192, 16384, 24576],
  [8192, 16384, 24576], [8192, 16384, 24576], [8192, 16384, 24576], [8192, 16384, 24576],
  [8192, 16384, 24576], [8192, 16384, 24576], [2461, 7013, 9371], [24749, 29600, 30986],
  [9466, 19037, 22417], [3584, 9280, 14400], [1505, 3929, 5433], [677, 1500, 2736], [23987, 30702, 32117],
  [13554, 24571, 29263], [6211, 14556, 21155], [3135, 10972, 15625], [2435, 7127, 11427],
  [31300, 32532, 32550], [14757, 30365, 31954], [4405, 11612, 18553], [580, 4132, 7322],
  [1695, 10169, 14124], [30008, 32282, 32591], [19244, 30108, 31748], [11180, 24158, 29555],
  [5650, 14972, 19209], [2114, 5109, 8456], [31856, 32716, 32748], [23012, 31664, 32572],
  [13694, 26656, 30636], [8142, 19508, 26093], [4253, 10955, 16724], [8192, 16384, 24576],
  [8192, 16384, 24576], [8192, 16384, 24576], [8192, 16384, 24576], [8192, 16384, 24576],
  [8192, 16384, 24576], [8192, 16384, 24576], [8192, 16384, 24576], [8192, 16384, 24576],
  [8192, 16384, 24576], [8192, 16384, 24576], [8192, 16384, 24576], [8192, 16384, 24576],
  [8192, 16384, 24576], [8192, 16384, 24576], [601, 983, 1311], [18725, 23406, 28087], [5461, 8192, 10923],
  [3781, 15124, 21425], [2587, 7761, 12072], [106, 458, 810], [22282, 29710, 31894], [8508, 20926, 25984],
  [3726, 12713, 18083], [1620, 7112, 10893], [729, 2236, 3495], [30163, 32474, 32684], [18304, 30464, 32000],
  [11443, 26526, 29647], [6007, 15292, 21299], [2234, 6703, 8937], [30954, 32177, 32571],
  [17363, 29562, 31076], [9686, 22464, 27410], [8192, 16384, 21390], [1755, 8046, 11264],
  [31168, 32734, 32748], [22486, 31441, 32471], [12833, 25627, 29738], [6980, 17379, 23122],
  [3111, 8887, 13479], [8192, 16384, 24576], [8192, 16384, 24576], [8192, 16384, 24576],
  [8192, 16384, 24576], [8192, 16384, 24576], [8192, 16384, 24576], [8192, 16384, 24576],
  [8192, 16384, 24576], [8192, 16384, 24576], [8192, 16384, 24576], [8192, 16384, 24576],
  [8192, 16384, 24576], [8192, 16384, 24576], [8192, 16384, 24576], [8192, 16384, 24576],
  [8192, 16384, 24576], [8192, 16384, 24576], [8192, 16384, 24576], [8192, 16384, 24576],
  [8192, 16384, 24576], [8192, 16384, 24576], [8192, 16384, 24576], [8192, 16384, 24576],
  [8192, 16384, 24576], [8192, 16384, 24576], [8192, 16384, 24576], [8192, 16384, 24576],
  [8192, 16384, 24576], [8192, 16384, 24576], [8192, 16384, 24576], [8192, 16384, 24576],
  [8192, 16384, 24576], [8192, 16384, 24576], [8192, 16384, 24576], [8192, 16384, 24576],
  [8192, 16384, 24576], [8192, 16384, 24576], [8192, 16384, 24576], [8192, 16384, 24576],
  [8192, 16384, 24576], [8192, 16384, 24576], [8192, 16384, 24576], [8192, 16384, 24576],
  [8192, 16384, 24576], [8192, 16384, 24576], [8192, 16384, 24576], [8192, 16384, 24576],
  [8192, 16384, 24576], [8192, 16384, 24576], [8192, 16384, 24576], [8192, 16384, 24576],
  [8192, 16384, 24576], [8192, 16384, 24576], [8192, 16384, 24576], [8192, 16384, 24576],
  [8192, 16384, 24576]]

/-- `default_coef_cdf[0].br_tok`, src/cdf.c:1326-1512 -/
def coef0_brTok : List (List Nat) := [
  [14298, 20718, 24174], [12536, 19601, 23789], [8712, 15051, 19503], [6170, 11327, 15434],
  [4742, 8926, 12538], [3803, 7317, 10546], [1696, 3317, 4871], [14392, 19951, 22756], [15978, 23218, 26818],
  [12187, 19474, 23889], [9176, 15640, 20259], [7068, 12655, 17028], [5656, 10442, 14472],
  [2580, 4992, 7244], [12136, 18049, 21426], [13784, 20721, 24481], [10836, 17621, 21900],
  [8372, 14444, 18847], [6523, 11779, 16000], [5337, 9898, 13760], [3034, 5860, 8462], [15967, 22905, 26286],
  [13534, 20654, 24579], [9504, 16092, 20535], [6975, 12568, 16903], [5364, 10091, 14020],
  [4357, 8370, 11857], [2506, 4934, 7218], [23032, 28815, 30936], [19540, 26704, 29719],
  [15158, 22969, 27097], [11408, 18865, 23650], [8885, 15448, 20250], [7108, 12853, 17416],
  [4231, 8041, 11480], [19823, 26490, 29156], [18890, 25929, 28932], [15660, 23491, 27433],
  [12147, 19776, 24488], [9728, 16774, 21649], [7919, 14277, 19066], [5440, 10170, 14185],
  [14406, 20862, 24414], [11824, 18907, 23109], [8257, 14393, 18803], [5860, 10747, 14778],
  [4475, 8486, 11984], [3606, 6954, 10043], [1736, 3410, 5048], [14430, 20046, 22882], [15593, 22899, 26709],
  [12102, 19368, 23811], [9059, 15584, 20262], [6999, 12603, 17048], [5684, 10497, 14553],
  [2822, 5438, 7862], [15785, 21585, 24359], [18347, 25229, 28266], [14974, 22487, 26389],
  [11423, 18681, 23271], [8863, 15350, 20008], [7153, 12852, 17278], [3707, 7036, 9982],
  [15460, 21696, 25469], [12170, 19249, 23191], [8723, 15027, 19332], [6428, 11704, 15874],
  [4922, 9292, 13052], [4139, 7695, 11010], [2291, 4508, 6598], [19856, 26920, 29828], [17923, 25289, 28792],
  [14278, 21968, 26297], [10910, 18136, 22950], [8423, 14815, 19627], [6771, 12283, 16774],
  [4074, 7750, 11081], [19852, 26074, 28672], [19371, 26110, 28989], [16265, 23873, 27663],
  [12758, 20378, 24952], [10095, 17098, 21961], [8250, 14628, 19451], [5205, 9745, 13622],
  [10563, 16233, 19763], [9794, 16022, 19804], [6750, 11945, 15759], [4963, 9186, 12752],
  [3845, 7435, 10627], [3051, 6085, 8834], [1311, 2596, 3830], [11246, 16404, 19689], [12315, 18911, 22731],
  [10557, 17095, 21289], [8136, 14006, 18249], [6348, 11474, 15565], [5196, 9655, 13400], [2349, 4526, 6587],
  [13337, 18730, 21569], [19306, 26071, 28882], [15952, 23540, 27254], [12409, 19934, 24430],
  [9760, 16706, 21389], [8004, 14220, 18818], [4138, 7794, 10961], [10870, 16684, 20949],
  [9664, 15230, 18680], [6886, 12109, 15408], [4825, 8900, 12305], [3630, 7162, 10314], [3036, 6429, 9387],
  [1671, 3296, 4940], [13819, 19159, 23026], [11984, 19108, 23120], [10690, 17210, 21663],
  [7984, 14154, 18333], [6868, 12294, 16124], [5274, 8994, 12868], [2988, 5771, 8424], [19736, 26647, 29141],
  [18933, 26070, 28984], [15779, 23048, 27200], [12638, 20061, 24532], [10692, 17545, 22220],
  [9217, 15251, 20054], [5078, 9284, 12594], [2331, 3662, 5244], [2891, 4771, 6145], [4598, 7623, 9729],
  [3520, 6845, 9199], [3417, 6119, 9324], [2601, 5412, 7385], [600, 1173, 1744], [7672, 13286, 17469],
  [4232, 7792, 10793], [2915, 5317, 7397], [2318, 4356, 6152], [2127, 4000, 5554], [1850, 3478, 5275],
  [977, 1933, 2843], [18280, 24387, 27989], [15852, 22671, 26185], [13845, 20951, 24789],
  [11055, 17966, 22129], [9138, 15422, 19801], [7454, 13145, 17456], [3370, 6393, 9013], [5842, 9229, 10838],
  [2313, 3491, 4276], [2998, 6104, 7496], [2420, 7447, 9868], [3034, 8495, 10923], [4076, 8937, 10975],
  [1086, 2370, 3299], [9714, 17254, 20444], [8543, 13698, 17123], [4918, 9007, 11910], [4129, 7532, 10553],
  [2364, 5533, 8058], [1834, 3546, 5563], [1473, 2908, 4133], [15405, 21193, 25619], [15691, 21952, 26561],
  [12962, 19194, 24165], [10272, 17855, 22129], [8588, 15270, 20718], [8682, 14669, 19500],
  [4870, 9636, 13205]]

/-- `default_coef_cdf[0].eob_hi_bit`, src/cdf.c:787-848 -/
def coef0_eobHiBit : List (List Nat) := [
  [16384], [16384], [16961], [17223], [7621], [16384], [16384], [16384], [16384], [16384], [16384], [16384],
  [16384], [19069], [22525], [13377], [16384], [16384], [16384], [16384], [16384], [16384], [16384], [16384],
  [20401], [17025], [12845], [12873], [14094], [16384], [16384], [16384], [16384], [16384], [16384], [20681],
  [20701], [15250], [15017], [14928], [16384], [16384], [16384], [16384], [16384], [16384], [23905], [17194],
  [16170], [17695], [13826], [15810], [12036], [16384], [16384], [16384], [16384], [23959], [20799], [19021],
  [16203], [17886], [14144], [12010], [16384], [16384], [16384], [16384], [27399], [16327], [18071], [19584],
  [20721], [18432], [19560], [10150], [8805], [16384], [16384], [24932], [20833], [12027], [16670], [19914],
  [15106], [17662], [13783], [28756], [16384], [16384], [23406], [21845], [18432], [16384], [17096], [12561],
  [17320], [22395], [21370], [16384], [16384], [16384], [16384], [16384], [16384], [16384], [16384], [16384],
  [16384], [16384]]

/-- `default_coef_cdf[0].skip`, src/cdf.c:701-732 -/
def coef0_skip : List (List Nat) := [
  [31849], [5892], [12112], [21935], [20289], [27473], [32487], [7654], [19473], [29984], [9961], [30242],
  [32117], [31548], [1549], [10130], [16656], [18591], [26308], [32537], [5403], [18096], [30003], [16384],
  [16384], [16384], [29957], [5391], [18039], [23566], [22431], [25822], [32197], [3778], [15336], [28981],
  [16384], [16384], [16384], [17920], [1818], [7282], [25273], [10923], [31554], [32624], [1366], [15628],
  [30462], [146], [5132], [31657], [6308], [117], [1638], [2161], [16384], [10923], [30247], [16384],
  [16384], [16384], [16384], [16384], [16384]]

/-- `default_coef_cdf[0].dc_sign`, src/cdf.c:1323-1325 -/
def coef0_dcSign : List (List Nat) := [
  [16000], [13056], [18816], [15232], [12928], [17280]]

end Dav1d.CdfTab
