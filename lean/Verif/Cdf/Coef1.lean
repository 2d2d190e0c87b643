/-!
# The default coefficient tables `default_coef_cdf[1]`, src/cdf.c:1513-2325

Copied from the source, see `Default.lean`.
-/
namespace Dav1d.CdfTab

/-- `default_coef_cdf[1].eob_bin_16`, src/cdf.c:1546-1553 -/
def coef1_eobBin16 : List (List Nat) := [
  [2125, 2551, 5165, 8946], [513, 765, 1859, 6339], [7637, 9498, 14259, 19108], [2497, 4096, 8866, 16993]]

/-- `default_coef_cdf[1].eob_bin_32`, src/cdf.c:1554-1561 -/
def coef1_eobBin32 : List (List Nat) := [
  [989, 1249, 2019, 4151, 10785], [313, 441, 1099, 2917, 8562], [8394, 10352, 13932, 18855, 26014],
  [2578, 4124, 8181, 13670, 24234]]

/-- `default_coef_cdf[1].eob_bin_64`, src/cdf.c:1562-1569 -/
def coef1_eobBin64 : List (List Nat) := [
  [1260, 1446, 2253, 3712, 6652, 13369], [401, 605, 1029, 2563, 5845, 12626],
  [8609, 10612, 14624, 18714, 22614, 29024], [1923, 3127, 5867, 9703, 14277, 27100]]

/-- `default_coef_cdf[1].eob_bin_128`, src/cdf.c:1570-1577 -/
def coef1_eobBin128 : List (List Nat) := [
  [685, 933, 1488, 2714, 4766, 8562, 19254], [217, 352, 618, 2303, 5261, 9969, 17472],
  [8045, 11200, 15497, 19595, 23948, 27408, 30938], [2310, 4160, 7471, 14997, 17931, 20768, 30240]]

/-- `default_coef_cdf[1].eob_bin_256`, src/cdf.c:1578-1589 -/
def coef1_eobBin256 : List (List Nat) := [
  [1448, 2109, 4151, 6263, 9329, 13260, 17944, 23300], [399, 1019, 1749, 3038, 10444, 15546, 22739, 27294],
  [6402, 8148, 12623, 15072, 18728, 22847, 26447, 29377],
  [1674, 3252, 5734, 10159, 22397, 23802, 24821, 30940]]

/-- `default_coef_cdf[1].eob_bin_512`, src/cdf.c:1590-1594 -/
def coef1_eobBin512 : List (List Nat) := [
  [1230, 2278, 5035, 7776, 11871, 15346, 19590, 24584, 28749],
  [7265, 9979, 15819, 19250, 21780, 23846, 26478, 28396, 31811]]

/-- `default_coef_cdf[1].eob_bin_1024`, src/cdf.c:1595-1599 -/
def coef1_eobBin1024 : List (List Nat) := [
  [696, 948, 3145, 5702, 9706, 13217, 17851, 21856, 25692, 28034],
  [2672, 3591, 9330, 17084, 22725, 24284, 26527, 28027, 28377, 30876]]

/-- `default_coef_cdf[1].eob_base_tok`, src/cdf.c:1662-1703 -/
def coef1_eobBaseTok : List (List Nat) := [
  [17560, 29888], [29671, 31549], [31007, 32056], [27286, 30006], [26594, 31212], [31208, 32582],
  [31835, 32637], [30595, 32206], [15239, 29932], [31315, 32095], [32130, 32434], [30864, 31996],
  [26279, 30968], [31142, 32495], [31713, 32540], [31929, 32594], [2644, 25198], [32038, 32451],
  [32639, 32695], [32166, 32518], [17187, 27668], [31714, 32550], [32283, 32678], [31930, 32563],
  [1044, 2257], [30755, 31923], [32208, 32693], [32244, 32615], [21317, 26207], [29133, 30868],
  [29311, 31231], [29657, 31087], [478, 1834], [31005, 31987], [32317, 32724], [30865, 32648],
  [10923, 21845], [10923, 21845], [10923, 21845], [10923, 21845]]

/-- `default_coef_cdf[1].base_tok`, src/cdf.c:1704-2135 -/
def coef1_baseTok : List (List Nat) := [
  [6041, 11854, 15927], [20326, 30905, 32251], [14164, 26831, 30725], [9760, 20647, 26585],
  [6416, 14953, 21219], [2966, 7151, 10891], [23567, 31374, 32254], [14978, 27416, 30946],
  [9434, 20225, 26254], [6658, 14558, 20535], [3916, 8677, 12989], [8192, 16384, 24576],
  [8192, 16384, 24576], [8192, 16384, 24576], [8192, 16384, 24576], [8192, 16384, 24576],
  [8192, 16384, 24576], [8192, 16384, 24576], [8192, 16384, 24576], [8192, 16384, 24576],
  [8192, 16384, 24576], [18088, 29545, 31587], [13062, 25843, 30073], [8940, 16827, 22251],
  [7654, 13220, 17973], [5733, 10316, 14456], [22879, 31388, 32114], [15215, 27993, 30955],
  [9397, 19445, 24978], [3442, 9813, 15344], [1368, 3936, 6532], [25494, 32033, 32406],
  [16772, 27963, 30718], [9419, 18165, 23260], [2677, 7501, 11797], [1516, 4344, 7170],
  [26556, 31454, 32101], [17128, 27035, 30108], [8324, 15344, 20249], [1903, 5696, 9469],
  [8192, 16384, 24576], [8455, 19003, 24368], [23563, 32021, 32604], [16237, 29446, 31935],
  [10724, 23999, 29358], [6725, 17528, 24416], [3927, 10927, 16825], [26313, 32288, 32634],
  [17430, 30095, 32095], [11116, 24606, 29679], [7195, 18384, 25269], [4726, 12852, 19315],
  [8192, 16384, 24576], [8192, 16384, 24576], [8192, 16384, 24576], [8192, 16384, 24576],
  [8192, 16384, 24576], [8192, 16384, 24576], [8192, 16384, 24576], [8192, 16384, 24576],
  [8192, 16384, 24576], [8192, 16384, 24576], [22822, 31648, 32483], [16724, 29633, 31929],
  [10261, 23033, 28725], [7029, 17840, 24528], [4867, 13886, 21502], [25298, 31892, 32491],
  [17809, 29330, 31512], [9668, 21329, 26579], [4774, 12956, 18976], [2322, 7030, 11540],
  [25472, 31920, 32543], [17957, 29387, 31632], [9196, 20593, 26400], [4680, 12705, 19202],
  [2917, 8456, 13436], [26471, 32059, 32574], [18458, 29783, 31909], [8400, 19464, 25956],
  [3812, 10973, 17206], [8192, 16384, 24576], [6779, 13743, 17678], [24806, 31797, 32457],
  [17616, 29047, 31372], [11063, 23175, 28003], [6521, 16110, 22324], [2764, 7504, 11654],
  [25266, 32367, 32637], [19054, 30553, 32175], [12139, 25212, 29807], [7311, 18162, 24704],
  [3397, 9164, 14074], [25988, 32208, 32522], [16253, 28912, 31526], [9151, 21387, 27372],
  [5688, 14915, 21496], [2717, 7627, 12004], [23144, 31855, 32443], [16070, 28491, 31325],
  [8702, 20467, 26517], [5243, 13956, 20367], [2621, 7335, 11567], [26636, 32340, 32630],
  [19990, 31050, 32341], [13243, 26105, 30315], [8588, 19521, 25918], [4717, 11585, 17304],
  [25844, 32292, 32582], [19090, 30635, 32097], [11963, 24546, 28939], [6218, 16087, 22354],
  [2340, 6608, 10426], [28046, 32576, 32694], [21178, 31313, 32296], [13486, 26184, 29870],
  [7149, 17871, 23723], [2833, 7958, 12259], [27710, 32528, 32686], [20674, 31076, 32268],
  [12413, 24955, 29243], [6676, 16927, 23097], [2966, 8333, 12919], [8639, 19339, 24429],
  [24404, 31837, 32525], [16997, 29425, 31784], [11253, 24234, 29149], [6751, 17394, 24028],
  [3490, 9830, 15191], [26283, 32471, 32714], [19599, 31168, 32442], [13146, 26954, 30893],
  [8214, 20588, 26890], [4699, 13081, 19300], [28212, 32458, 32669], [18594, 30316, 32100],
  [11219, 24408, 29234], [6865, 17656, 24149], [3678, 10362, 16006], [25825, 32136, 32616],
  [17313, 29853, 32021], [11197, 24471, 29472], [6947, 17781, 24405], [3768, 10660, 16261],
  [27352, 32500, 32706], [20850, 31468, 32469], [14021, 27707, 31133], [8964, 21748, 27838],
  [5437, 14665, 21187], [26304, 32492, 32698], [20409, 31380, 32385], [13682, 27222, 30632],
  [8974, 21236, 26685], [4234, 11665, 16934], [26273, 32357, 32711], [20672, 31242, 32441],
  [14172, 27254, 30902], [9870, 21898, 27275], [5164, 13506, 19270], [26725, 32459, 32728],
  [20991, 31442, 32527], [13071, 26434, 30811], [8184, 20090, 26742], [4803, 13255, 19895],
  [7555, 14942, 18501], [24410, 31178, 32287], [14394, 26738, 30253], [8413, 19554, 25195],
  [4766, 12924, 18785], [2029, 5806, 9207], [26776, 32364, 32663], [18732, 29967, 31931],
  [11005, 23786, 28852], [6466, 16909, 23510], [3044, 8638, 13419], [29208, 32582, 32704],
  [20068, 30857, 32208], [12003, 25085, 29595], [6947, 17750, 24189], [3245, 9103, 14007],
  [27359, 32465, 32669], [19421, 30614, 32174], [11915, 25010, 29579], [6950, 17676, 24074],
  [3007, 8473, 13096], [29002, 32676, 32735], [22102, 31849, 32576], [14408, 28009, 31405],
  [9027, 21679, 27931], [4694, 12678, 18748], [28216, 32528, 32682], [20849, 31264, 32318],
  [12756, 25815, 29751], [7565, 18801, 24923], [3509, 9533, 14477], [30133, 32687, 32739],
  [23063, 31910, 32515], [14588, 28051, 31132], [9085, 21649, 27457], [4261, 11654, 17264],
  [29518, 32691, 32748], [22451, 31959, 32613], [14864, 28722, 31700], [9695, 22964, 28716],
  [4932, 13358, 19502], [6465, 16958, 21688], [25199, 31514, 32360], [14774, 27149, 30607],
  [9257, 21438, 26972], [5723, 15183, 21882], [3150, 8879, 13731], [26989, 32262, 32682],
  [17396, 29937, 32085], [11387, 24901, 29784], [7289, 18821, 25548], [3734, 10577, 16086],
  [29728, 32501, 32695], [17431, 29701, 31903], [9921, 22826, 28300], [5896, 15434, 22068],
  [3430, 9646, 14757], [28614, 32511, 32705], [19364, 30638, 32263], [13129, 26254, 30402],
  [8754, 20484, 26440], [4378, 11607, 17110], [30292, 32671, 32744], [21780, 31603, 32501],
  [14314, 27829, 31291], [9611, 22327, 28263], [4890, 13087, 19065], [25862, 32567, 32733],
  [20794, 32050, 32567], [17243, 30625, 32254], [13283, 27628, 31474], [9669, 22532, 28918],
  [27435, 32697, 32748], [24922, 32390, 32714], [21449, 31504, 32536], [16392, 29729, 31832],
  [11692, 24884, 29076], [24193, 32290, 32735], [18909, 31104, 32563], [12236, 26841, 31403],
  [8171, 21840, 29082], [7224, 17280, 25275], [3078, 6839, 9890], [13837, 20450, 24479],
  [5914, 14222, 19328], [3866, 10267, 14762], [2612, 7208, 11042], [1067, 2991, 4776], [25817, 31646, 32529],
  [13708, 26338, 30385], [7328, 18585, 24870], [4691, 13080, 19276], [1825, 5253, 8352],
  [29386, 32315, 32624], [17160, 29001, 31360], [9602, 21862, 27396], [5915, 15772, 22148],
  [2786, 7779, 12047], [29246, 32450, 32663], [18696, 29929, 31818], [10510, 23369, 28560],
  [6229, 16499, 23125], [2608, 7448, 11705], [30753, 32710, 32748], [21638, 31487, 32503],
  [12937, 26854, 30870], [8182, 20596, 26970], [3637, 10269, 15497], [8192, 16384, 24576],
  [8192, 16384, 24576], [8192, 16384, 24576], [8192, 16384, 24576], [8192, 16384, 24576],
  [8192, 16384, 24576], [8192, 16384, 24576], [8192, 16384, 24576], [8192, 16384, 24576],
  [8192, 16384, 24576], [8192, 16384, 24576], [8192, 16384, 24576], [8192, 16384, 24576],
  [8192, 16384, 24576], [8192, 16384, 24576], [5244, 12150, 16906], [20486, 26858, 29701],
  [7756, 18317, 23735], [3452, 9256, 13146], [2020, 5206, 8229], [1801, 4993, 7903], [27051, 31858, 32531],
  [15988, 27531, 30619], [9188, 21484, 26719], [6273, 17186, 23800], [3108, 9355, 14764],
  [31076, 32520, 32680], [18119, 30037, 31850], [10244, 22969, 27472], [4692, 14077, 19273],
  [3694, 11677, 17556], [30060, 32581, 32720], [21011, 30775, 32120], [11931, 24820, 29289],
  [7119, 17662, 24356], [3833, 10706, 16304], [31954, 32731, 32748], [23913, 31724, 32489],
  [15520, 28060, 31286], [11517, 23008, 28571], [6193, 14508, 20629], [8192, 16384, 24576],
  [8192, 16384, 24576], [8192, 16384, 24576], [8192, 16384, 24576], [8192, 16384, 24576],
  [8192, 16384, 24576], [8192, 16384, 24576], [8192, 16384, 24576], [8192, 16384, 24576],
  [8192, 16384, 24576], [8192, 16384, 24576], [8192, 16384, 24576], [8192, 16384, 24576],
  [8192, 16384, 24576], [8192, 16384, 24576], [1035, 2807, 4156], [13162, 18138, 20939], [2696, 6633, 8755],
  [1373, 4161, 6853], [1099, 2746, 4716], [340, 1021, 1599], [22826, 30419, 32135], [10395, 21762, 26942],
  [4726, 12407, 17361], [2447, 7080, 10593], [1227, 3717, 6011], [28156, 31424, 31934],
  [16915, 27754, 30373], [9148, 20990, 26431], [5950, 15515, 21148], [2492, 7327, 11526],
  [30602, 32477, 32670], [20026, 29955, 31568], [11220, 23628, 28105], [6652, 17019, 22973],
  [3064, 8536, 13043], [31769, 32724, 32748], [22230, 30887, 32373], [12234, 25079, 29731],
  [7326, 18816, 25353], [3933, 10907, 16616], [8192, 16384, 24576], [8192, 16384, 24576],
  [8192, 16384, 24576], [8192, 16384, 24576], [8192, 16384, 24576], [8192, 16384, 24576],
  [8192, 16384, 24576], [8192, 16384, 24576], [8192, 16384, 24576], [8192, 16384, 24576],
  [8192, 16384, 24576], [8192, 16384, 24576], [8192, 16384, 24576], [8192, 16384, 24576],
  [8192, 16384, 24576], [8192, 16384, 24576], [8192, 16384, 24576], [8192, 16384, 24576],
  [8192, 16384, 24576], [8192, 16384, 24576], [8192, 16384, 24576], [8192, 16384, 24576],
  [8192, 16384, 24576], [8192, 16384, 24576], [8192, 16384, 24576], [8192, 16384, 24576],
  [8192, 16384, 24576], [8192, 16384, 24576], [8192, 16384, 24576], [8192, 16384, 24576],
  [8192, 16384, 24576], [8192, 16384, 24576], [8192, 16384, 24576], [8192, 16384, 24576],
  [8192, 16384, 24576], [8192, 16384, 24576], [8192, 16384, 24576], [8192, 16384, 24576],
  [8192, 16384, 24576], [8192, 16384, 24576], [8192, 16384, 24576], [8192, 16384, 24576],
  [8192, 16384, 24576], [8192, 16384, 24576], [8192, 16384, 24576], [8192, 16384, 24576],
  [8192, 16384, 24576], [8192, 16384, 24576], [8192, 16384, 24576], [8192, 16384, 24576],
  [8192, 16384, 24576], [8192, 16384, 24576], [8192, 16384, 24576], [8192, 16384, 24576],
  [8192, 16384, 24576], [8192, 16384, 24576]]

/-- `default_coef_cdf[1].br_tok`, src/cdf.c:2139-2325 -/
def coef1_brTok : List (List Nat) := [
  [14995, 21341, 24749], [13158, 20289, 24601], [8941, 15326, 19876], [6297, 11541, 15807],
  [4817, 9029, 12776], [3731, 7273, 10627], [1847, 3617, 5354], [14472, 19659, 22343], [16806, 24162, 27533],
  [12900, 20404, 24713], [9411, 16112, 20797], [7056, 12697, 17148], [5544, 10339, 14460],
  [2954, 5704, 8319], [12464, 18071, 21354], [15482, 22528, 26034], [12070, 19269, 23624],
  [8953, 15406, 20106], [7027, 12730, 17220], [5887, 10913, 15140], [3793, 7278, 10447],
  [15571, 22232, 25749], [14506, 21575, 25374], [10189, 17089, 21569], [7316, 13301, 17915],
  [5783, 10912, 15190], [4760, 9155, 13088], [2993, 5966, 8774], [23424, 28903, 30778],
  [20775, 27666, 30290], [16474, 24410, 28299], [12471, 20180, 24987], [9410, 16487, 21439],
  [7536, 13614, 18529], [5048, 9586, 13549], [21090, 27290, 29756], [20796, 27402, 30026],
  [17819, 25485, 28969], [13860, 21909, 26462], [11002, 18494, 23529], [8953, 15929, 20897],
  [6448, 11918, 16454], [15999, 22208, 25449], [13050, 19988, 24122], [8594, 14864, 19378],
  [6033, 11079, 15238], [4554, 8683, 12347], [3672, 7139, 10337], [1900, 3771, 5576], [15788, 21340, 23949],
  [16825, 24235, 27758], [12873, 20402, 24810], [9590, 16363, 21094], [7352, 13209, 17733],
  [5960, 10989, 15184], [3232, 6234, 9007], [15761, 20716, 23224], [19318, 25989, 28759],
  [15529, 23094, 26929], [11662, 18989, 23641], [8955, 15568, 20366], [7281, 13106, 17708],
  [4248, 8059, 11440], [14899, 21217, 24503], [13519, 20283, 24047], [9429, 15966, 20365],
  [6700, 12355, 16652], [5088, 9704, 13716], [4243, 8154, 11731], [2702, 5364, 7861], [22745, 28388, 30454],
  [20235, 27146, 29922], [15896, 23715, 27637], [11840, 19350, 24131], [9122, 15932, 20880],
  [7488, 13581, 18362], [5114, 9568, 13370], [20845, 26553, 28932], [20981, 27372, 29884],
  [17781, 25335, 28785], [13760, 21708, 26297], [10975, 18415, 23365], [9045, 15789, 20686],
  [6130, 11199, 15423], [13549, 19724, 23158], [11844, 18382, 22246], [7919, 13619, 17773],
  [5486, 10143, 13946], [4166, 7983, 11324], [3364, 6506, 9427], [1598, 3160, 4674], [15281, 20979, 23781],
  [14939, 22119, 25952], [11363, 18407, 22812], [8609, 14857, 19370], [6737, 12184, 16480],
  [5506, 10263, 14262], [2990, 5786, 8380], [20249, 25253, 27417], [21070, 27518, 30001],
  [16854, 24469, 28074], [12864, 20486, 25000], [9962, 16978, 21778], [8074, 14338, 19048],
  [4494, 8479, 11906], [13960, 19617, 22829], [11150, 17341, 21228], [7150, 12964, 17190],
  [5331, 10002, 13867], [4167, 7744, 11057], [3480, 6629, 9646], [1883, 3784, 5686], [18752, 25660, 28912],
  [16968, 24586, 28030], [13520, 21055, 25313], [10453, 17626, 22280], [8386, 14505, 19116],
  [6742, 12595, 17008], [4273, 8140, 11499], [22120, 27827, 30233], [20563, 27358, 29895],
  [17076, 24644, 28153], [13362, 20942, 25309], [10794, 17965, 22695], [9014, 15652, 20319],
  [5708, 10512, 14497], [5705, 10930, 15725], [7946, 12765, 16115], [6801, 12123, 16226],
  [5462, 10135, 14200], [4189, 8011, 11507], [3191, 6229, 9408], [1057, 2137, 3212], [10018, 17067, 21491],
  [7380, 12582, 16453], [6068, 10845, 14339], [5098, 9198, 12555], [4312, 8010, 11119], [3700, 6966, 9781],
  [1693, 3326, 4887], [18757, 24930, 27774], [17648, 24596, 27817], [14707, 22052, 26026],
  [11720, 18852, 23292], [9357, 15952, 20525], [7810, 13753, 18210], [3879, 7333, 10328],
  [8278, 13242, 15922], [10547, 15867, 18919], [9106, 15842, 20609], [6833, 13007, 17218],
  [4811, 9712, 13923], [3985, 7352, 11128], [1688, 3458, 5262], [12951, 21861, 26510], [9788, 16044, 20276],
  [6309, 11244, 14870], [5183, 9349, 12566], [4389, 8229, 11492], [3633, 6945, 10620], [3600, 6847, 9907],
  [21748, 28137, 30255], [19436, 26581, 29560], [16359, 24201, 27953], [13961, 21693, 25871],
  [11544, 18686, 23322], [9372, 16462, 20952], [6138, 11210, 15390]]

/-- `default_coef_cdf[1].eob_hi_bit`, src/cdf.c:1600-1661 -/
def coef1_eobHiBit : List (List Nat) := [
  [16384], [16384], [17471], [20223], [11357], [16384], [16384], [16384], [16384], [16384], [16384], [16384],
  [16384], [20335], [21667], [14818], [16384], [16384], [16384], [16384], [16384], [16384], [16384], [16384],
  [20430], [20662], [15367], [16970], [14657], [16384], [16384], [16384], [16384], [16384], [16384], [22117],
  [22028], [18650], [16042], [15885], [16384], [16384], [16384], [16384], [16384], [16384], [22409], [21012],
  [15650], [17395], [15469], [20205], [19511], [16384], [16384], [16384], [16384], [24220], [22480], [17737],
  [18916], [19268], [18412], [18844], [16384], [16384], [16384], [16384], [25991], [20314], [17731], [19678],
  [18649], [17307], [21798], [17549], [15630], [16384], [16384], [26585], [21469], [20432], [17735], [19280],
  [15235], [20297], [22471], [28997], [16384], [16384], [26605], [11304], [16726], [16560], [20866], [23524],
  [19878], [13469], [23084], [16384], [16384], [16384], [16384], [16384], [16384], [16384], [16384], [16384],
  [16384], [16384]]

/-- `default_coef_cdf[1].skip`, src/cdf.c:1514-1545 -/
def coef1_skip : List (List Nat) := [
  [30371], [7570], [13155], [20751], [20969], [27067], [32013], [5495], [17942], [28280], [16384], [16384],
  [16384], [31782], [1836], [10689], [17604], [21622], [27518], [32399], [4419], [16294], [28345], [16384],
  [16384], [16384], [31901], [10311], [18047], [24806], [23288], [27914], [32296], [4215], [15756], [28341],
  [16384], [16384], [16384], [26726], [1045], [11703], [20590], [18554], [25970], [31938], [5583], [21313],
  [29390], [641], [22265], [31452], [26584], [188], [8847], [24519], [22938], [30583], [32608], [16384],
  [16384], [16384], [16384], [16384], [16384]]

/-- `default_coef_cdf[1].dc_sign`, src/cdf.c:2136-2138 -/
def coef1_dcSign : List (List Nat) := [
  [16000], [13056], [18816], [15232], [12928], [17280]]

end Dav1d.CdfTab
