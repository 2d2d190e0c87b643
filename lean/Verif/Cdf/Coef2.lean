/-!
# The default coefficient tables `default_coef_cdf[2]`, src/cdf.c:2326-3138

Copied from the source, see `Default.lean`.
-/
namespace Dav1d.CdfTab

/-- `default_coef_cdf[2].eob_bin_16`, src/cdf.c:2359-2366 -/
def coef2_eobBin16 : List (List Nat) := [
  [4016, 4897, 8881, 14968], [716, 1105, 2646, 10056], [11139, 13270, 18241, 23566],
  [3192, 5032, 10297, 19755]]

/-- `default_coef_cdf[2].eob_bin_32`, src/cdf.c:2367-2374 -/
def coef2_eobBin32 : List (List Nat) := [
  [2515, 3003, 4452, 8162, 16041], [574, 821, 1836, 5089, 13128], [13468, 16303, 20361, 25105, 29281],
  [3542, 5502, 10415, 16760, 25644]]

/-- `default_coef_cdf[2].eob_bin_64`, src/cdf.c:2375-2382 -/
def coef2_eobBin64 : List (List Nat) := [
  [2374, 2772, 4583, 7276, 12288, 19706], [497, 810, 1315, 3000, 7004, 15641],
  [15050, 17126, 21410, 24886, 28156, 30726], [4034, 6290, 10235, 14982, 21214, 28491]]

/-- `default_coef_cdf[2].eob_bin_128`, src/cdf.c:2383-2390 -/
def coef2_eobBin128 : List (List Nat) := [
  [1366, 1738, 2527, 5016, 9355, 15797, 24643], [354, 558, 944, 2760, 7287, 14037, 21779],
  [13627, 16246, 20173, 24429, 27948, 30415, 31863], [6275, 9889, 14769, 23164, 27988, 30493, 32272]]

/-- `default_coef_cdf[2].eob_bin_256`, src/cdf.c:2391-2402 -/
def coef2_eobBin256 : List (List Nat) := [
  [3089, 3920, 6038, 9460, 14266, 19881, 25766, 29176], [1084, 2358, 3488, 5122, 11483, 18103, 26023, 29799],
  [11514, 13794, 17480, 20754, 24361, 27378, 29492, 31277],
  [6571, 9610, 15516, 21826, 29092, 30829, 31842, 32708]]

/-- `default_coef_cdf[2].eob_bin_512`, src/cdf.c:2403-2407 -/
def coef2_eobBin512 : List (List Nat) := [
  [2624, 3936, 6480, 9686, 13979, 17726, 23267, 28410, 31078],
  [12015, 14769, 19588, 22052, 24222, 25812, 27300, 29219, 32114]]

/-- `default_coef_cdf[2].eob_bin_1024`, src/cdf.c:2408-2412 -/
def coef2_eobBin1024 : List (List Nat) := [
  [2784, 3831, 7041, 10521, 14847, 18844, 23155, 26682, 29229, 31045],
  [9577, 12466, 17739, 20750, 22061, 23215, 24601, 25483, 25843, 32056]]

/-- `default_coef_cdf[2].eob_base_tok`, src/cdf.c:2475-2516 -/
def coef2_eobBaseTok : List (List Nat) := [
  [20092, 30774], [30695, 32020], [31131, 32103], [28666, 30870], [27258, 31095], [31804, 32623],
  [31763, 32528], [31438, 32506], [18049, 30489], [31706, 32286], [32163, 32473], [31550, 32184],
  [27116, 30842], [31971, 32598], [32088, 32576], [32067, 32664], [12854, 29093], [32272, 32558],
  [32667, 32729], [32306, 32585], [25476, 30366], [32169, 32687], [32479, 32689], [31673, 32634],
  [2809, 19301], [32205, 32622], [32338, 32730], [31786, 32616], [22737, 29105], [30810, 32362],
  [30014, 32627], [30528, 32574], [935, 3382], [30789, 31909], [32466, 32756], [30860, 32513],
  [10923, 21845], [10923, 21845], [10923, 21845], [10923, 21845]]

/-- `default_coef_cdf[2].base_tok`, src/cdf.c:2517-2948 -/
def coef2_baseTok : List (List Nat) := [
  [8896, 16227, 20630], [23629, 31782, 32527], [15173, 27755, 31321], [10158, 21233, 27382],
  [6420, 14857, 21558], [3269, 8155, 12646], [24835, 32009, 32496], [16509, 28421, 31579],
  [10957, 21514, 27418], [7881, 15930, 22096], [5388, 10960, 15918], [8192, 16384, 24576],
  [8192, 16384, 24576], [8192, 16384, 24576], [8192, 16384, 24576], [8192, 16384, 24576],
  [8192, 16384, 24576], [8192, 16384, 24576], [8192, 16384, 24576], [8192, 16384, 24576],
  [8192, 16384, 24576], [20745, 30773, 32093], [15200, 27221, 30861], [13032, 20873, 25667],
  [12285, 18663, 23494], [11563, 17481, 21489], [26260, 31982, 32320], [15397, 28083, 31100],
  [9742, 19217, 24824], [3261, 9629, 15362], [1480, 4322, 7499], [27599, 32256, 32460],
  [16857, 27659, 30774], [9551, 18290, 23748], [3052, 8933, 14103], [2021, 5910, 9787],
  [29005, 32015, 32392], [17677, 27694, 30863], [9204, 17356, 23219], [2403, 7516, 12814],
  [8192, 16384, 24576], [10808, 22056, 26896], [25739, 32313, 32676], [17288, 30203, 32221],
  [11359, 24878, 29896], [6949, 17767, 24893], [4287, 11796, 18071], [27880, 32521, 32705],
  [19038, 31004, 32414], [12564, 26345, 30768], [8269, 19947, 26779], [5674, 14657, 21674],
  [8192, 16384, 24576], [8192, 16384, 24576], [8192, 16384, 24576], [8192, 16384, 24576],
  [8192, 16384, 24576], [8192, 16384, 24576], [8192, 16384, 24576], [8192, 16384, 24576],
  [8192, 16384, 24576], [8192, 16384, 24576], [25742, 32319, 32671], [19557, 31164, 32454],
  [13381, 26381, 30755], [10101, 21466, 26722], [9209, 19650, 26825], [27107, 31917, 32432],
  [18056, 28893, 31203], [10200, 21434, 26764], [4660, 12913, 19502], [2368, 6930, 12504],
  [26960, 32158, 32613], [18628, 30005, 32031], [10233, 22442, 28232], [5471, 14630, 21516],
  [3235, 10767, 17109], [27696, 32440, 32692], [20032, 31167, 32438], [8700, 21341, 28442],
  [5662, 14831, 21795], [8192, 16384, 24576], [9704, 17294, 21132], [26762, 32278, 32633],
  [18382, 29620, 31819], [10891, 23475, 28723], [6358, 16583, 23309], [3248, 9118, 14141],
  [27204, 32573, 32699], [19818, 30824, 32329], [11772, 25120, 30041], [6995, 18033, 25039],
  [3752, 10442, 16098], [27222, 32256, 32559], [15356, 28399, 31475], [8821, 20635, 27057],
  [5511, 14404, 21239], [2935, 8222, 13051], [24875, 32120, 32529], [15233, 28265, 31445],
  [8605, 20570, 26932], [5431, 14413, 21196], [2994, 8341, 13223], [28201, 32604, 32700],
  [21041, 31446, 32456], [13221, 26213, 30475], [8255, 19385, 26037], [4930, 12585, 18830],
  [28768, 32448, 32627], [19705, 30561, 32021], [11572, 23589, 28220], [5532, 15034, 21446],
  [2460, 7150, 11456], [29874, 32619, 32699], [21621, 31071, 32201], [12511, 24747, 28992],
  [6281, 16395, 22748], [3246, 9278, 14497], [29715, 32625, 32712], [20958, 31011, 32283],
  [11233, 23671, 28806], [6012, 16128, 22868], [3427, 9851, 15414], [11016, 22111, 26794],
  [25946, 32357, 32677], [17890, 30452, 32252], [11678, 25142, 29816], [6720, 17534, 24584],
  [4230, 11665, 17820], [28400, 32623, 32747], [21164, 31668, 32575], [13572, 27388, 31182],
  [8234, 20750, 27358], [5065, 14055, 20897], [28981, 32547, 32705], [18681, 30543, 32239],
  [10919, 24075, 29286], [6431, 17199, 24077], [3819, 10464, 16618], [26870, 32467, 32693],
  [19041, 30831, 32347], [11794, 25211, 30016], [6888, 18019, 24970], [4370, 12363, 18992],
  [29578, 32670, 32744], [23159, 32007, 32613], [15315, 28669, 31676], [9298, 22607, 28782],
  [6144, 15913, 22968], [28110, 32499, 32669], [21574, 30937, 32015], [12759, 24818, 28727],
  [6545, 16761, 23042], [3649, 10597, 16833], [28163, 32552, 32728], [22101, 31469, 32464],
  [13160, 25472, 30143], [7303, 18684, 25468], [5241, 13975, 20955], [28400, 32631, 32744],
  [22104, 31793, 32603], [13557, 26571, 30846], [7749, 19861, 26675], [4873, 14030, 21234],
  [9800, 17635, 21073], [26153, 31885, 32527], [15038, 27852, 31006], [8718, 20564, 26486],
  [5128, 14076, 20514], [2636, 7566, 11925], [27551, 32504, 32701], [18310, 30054, 32100],
  [10211, 23420, 29082], [6222, 16876, 23916], [3462, 9954, 15498], [29991, 32633, 32721],
  [19883, 30751, 32201], [11141, 24184, 29285], [6420, 16940, 23774], [3392, 9753, 15118],
  [28465, 32616, 32712], [19850, 30702, 32244], [10983, 24024, 29223], [6294, 16770, 23582],
  [3244, 9283, 14509], [30023, 32717, 32748], [22940, 32032, 32626], [14282, 27928, 31473],
  [8562, 21327, 27914], [4846, 13393, 19919], [29981, 32590, 32695], [20465, 30963, 32166],
  [11479, 23579, 28195], [5916, 15648, 22073], [3031, 8605, 13398], [31146, 32691, 32739],
  [23106, 31724, 32444], [13783, 26738, 30439], [7852, 19468, 25807], [3860, 11124, 16853],
  [31014, 32724, 32748], [23629, 32109, 32628], [14747, 28115, 31403], [8545, 21242, 27478],
  [4574, 12781, 19067], [9185, 19694, 24688], [26081, 31985, 32621], [16015, 29000, 31787],
  [10542, 23690, 29206], [6732, 17945, 24677], [3916, 11039, 16722], [28224, 32566, 32744],
  [19100, 31138, 32485], [12528, 26620, 30879], [7741, 20277, 26885], [4566, 12845, 18990],
  [29933, 32593, 32718], [17670, 30333, 32155], [10385, 23600, 28909], [6243, 16236, 22407],
  [3976, 10389, 16017], [28377, 32561, 32738], [19366, 31175, 32482], [13327, 27175, 31094],
  [8258, 20769, 27143], [4703, 13198, 19527], [31086, 32706, 32748], [22853, 31902, 32583],
  [14759, 28186, 31419], [9284, 22382, 28348], [5585, 15192, 21868], [28291, 32652, 32746],
  [19849, 32107, 32571], [14834, 26818, 29214], [10306, 22594, 28672], [6615, 17384, 23384],
  [28947, 32604, 32745], [25625, 32289, 32646], [18758, 28672, 31403], [10017, 23430, 28523],
  [6862, 15269, 22131], [23933, 32509, 32739], [19927, 31495, 32631], [11903, 26023, 30621],
  [7026, 20094, 27252], [5998, 18106, 24437], [4456, 11274, 15533], [21219, 29079, 31616],
  [11173, 23774, 28567], [7282, 18293, 24263], [4890, 13286, 19115], [1890, 5508, 8659],
  [26651, 32136, 32647], [14630, 28254, 31455], [8716, 21287, 27395], [5615, 15331, 22008],
  [2675, 7700, 12150], [29954, 32526, 32690], [16126, 28982, 31633], [9030, 21361, 27352],
  [5411, 14793, 21271], [2943, 8422, 13163], [29539, 32601, 32730], [18125, 30385, 32201],
  [10422, 24090, 29468], [6468, 17487, 24438], [2970, 8653, 13531], [30912, 32715, 32748],
  [20666, 31373, 32497], [12509, 26640, 30917], [8058, 20629, 27290], [4231, 12006, 18052],
  [8192, 16384, 24576], [8192, 16384, 24576], [8192, 16384, 24576], [8192, 16384, 24576],
  [8192, 16384, 24576], [8192, 16384, 24576], [8192, 16384, 24576], [8192, 16384, 24576],
  [8192, 16384, 24576], [8192, 16384, 24576], [8192, 16384, 24576], [8192, 16384, 24576],
  [8192, 16384, 24576], [8192, 16384, 24576], [8192, 16384, 24576], [10202, 20633, 25484],
  [27336, 31445, 32352], [12420, 24384, 28552], [7648, 18115, 23856], [5662, 14341, 19902],
  [3611, 10328, 15390], [30945, 32616, 32736], [18682, 30505, 32253], [11513, 25336, 30203],
  [7449, 19452, 26148], [4482, 13051, 18886], [32022, 32690, 32747], [18578, 30501, 32146],
  [11249, 23368, 28631], [5645, 16958, 22158], [5009, 11444, 16637], [31357, 32710, 32748],
  [21552, 31494, 32504], [13891, 27677, 31340], [9051, 22098, 28172], [5190, 13377, 19486],
  [32364, 32740, 32748], [24839, 31907, 32551], [17160, 28779, 31696], [12452, 24137, 29602],
  [6165, 15389, 22477], [8192, 16384, 24576], [8192, 16384, 24576], [8192, 16384, 24576],
  [8192, 16384, 24576], [8192, 16384, 24576], [8192, 16384, 24576], [8192, 16384, 24576],
  [8192, 16384, 24576], [8192, 16384, 24576], [8192, 16384, 24576], [8192, 16384, 24576],
  [8192, 16384, 24576], [8192, 16384, 24576], [8192, 16384, 24576], [8192, 16384, 24576],
  [2575, 7281, 11077], [14002, 20866, 25402], [6343, 15056, 19658], [4474, 11858, 17041],
  [2865, 8299, 12534], [1344, 3949, 6391], [24720, 31239, 32459], [12585, 25356, 29968],
  [7181, 18246, 24444], [5025, 13667, 19885], [2521, 7304, 11605], [29908, 32252, 32584],
  [17421, 29156, 31575], [9889, 22188, 27782], [5878, 15647, 22123], [2814, 8665, 13323],
  [30183, 32568, 32713], [18528, 30195, 32049], [10982, 24606, 29657], [6957, 18165, 25231],
  [3508, 10118, 15468], [31761, 32736, 32748], [21041, 31328, 32546], [12568, 26732, 31166],
  [8052, 20720, 27733], [4336, 12192, 18396], [8192, 16384, 24576], [8192, 16384, 24576],
  [8192, 16384, 24576], [8192, 16384, 24576], [8192, 16384, 24576], [8192, 16384, 24576],
  [8192, 16384, 24576], [8192, 16384, 24576], [8192, 16384, 24576], [8192, 16384, 24576],
  [8192, 16384, 24576], [8192, 16384, 24576], [8192, 16384, 24576], [8192, 16384, 24576],
  [8192, 16384, 24576], [8192, 16384, 24576], [8192, 16384, 24576], [8192, 16384, 24576],
  [8192, 16384, 24576], [8192, 16384, 24576], [8192, 16384, 24576], [8192, 16384, 24576],
  [8192, 16384, 24576], [8192, 16384, 24576], [8192, 16384, 24576], [8192, 16384, 24576],
  [8192, 16384, 24576], [8192, 16384, 24576], [8192, 16384, 24576], [8192, 16384, 24576],
  [8192, 16384, 24576], [8192, 16384, 24576], [8192, 16384, 24576], [8192, 16384, 24576],
  [8192, 16384, 24576], [8192, 16384, 24576], [8192, 16384, 24576], [8192, 16384, 24576],
  [8192, 16384, 24576], [8192, 16384, 24576], [8192, 16384, 24576], [8192, 16384, 24576],
  [8192, 16384, 24576], [8192, 16384, 24576], [8192, 16384, 24576], [8192, 16384, 24576],
  [8192, 16384, 24576], [8192, 16384, 24576], [8192, 16384, 24576], [8192, 16384, 24576],
  [8192, 16384, 24576], [8192, 16384, 24576], [8192, 16384, 24576], [8192, 16384, 24576],
  [8192, 16384, 24576], [8192, 16384, 24576]]

/-- `default_coef_cdf[2].br_tok`, src/cdf.c:2952-3138 -/
def coef2_brTok : List (List Nat) := [
  [16138, 22223, 25509], [15347, 22430, 26332], [9614, 16736, 21332], [6600, 12275, 16907],
  [4811, 9424, 13547], [3748, 7809, 11420], [2254, 4587, 6890], [15196, 20284, 23177], [18317, 25469, 28451],
  [13918, 21651, 25842], [10052, 17150, 21995], [7499, 13630, 18587], [6158, 11417, 16003],
  [4014, 7785, 11252], [15048, 21067, 24384], [18202, 25346, 28553], [14302, 22019, 26356],
  [10839, 18139, 23166], [8715, 15744, 20806], [7536, 13576, 18544], [5413, 10335, 14498],
  [17394, 24501, 27895], [15889, 23420, 27185], [11561, 19133, 23870], [8285, 14812, 19844],
  [6496, 12043, 16550], [4771, 9574, 13677], [3603, 6830, 10144], [21656, 27704, 30200],
  [21324, 27915, 30511], [17327, 25336, 28997], [13417, 21381, 26033], [10132, 17425, 22338],
  [8580, 15016, 19633], [5694, 11477, 16411], [24116, 29780, 31450], [23853, 29695, 31591],
  [20085, 27614, 30428], [15326, 24335, 28575], [11814, 19472, 24810], [10221, 18611, 24767],
  [7689, 14558, 20321], [16214, 22380, 25770], [14213, 21304, 25295], [9213, 15823, 20455],
  [6395, 11758, 16139], [4779, 9187, 13066], [3821, 7501, 10953], [2293, 4567, 6795], [15859, 21283, 23820],
  [18404, 25602, 28726], [14325, 21980, 26206], [10669, 17937, 22720], [8297, 14642, 19447],
  [6746, 12389, 16893], [4324, 8251, 11770], [16532, 21631, 24475], [20667, 27150, 29668],
  [16728, 24510, 28175], [12861, 20645, 25332], [10076, 17361, 22417], [8395, 14940, 19963],
  [5731, 10683, 14912], [14433, 21155, 24938], [14658, 21716, 25545], [9923, 16824, 21557],
  [6982, 13052, 17721], [5419, 10503, 15050], [4852, 9162, 13014], [3271, 6395, 9630], [22210, 27833, 30109],
  [20750, 27368, 29821], [16894, 24828, 28573], [13247, 21276, 25757], [10038, 17265, 22563],
  [8587, 14947, 20327], [5645, 11371, 15252], [22027, 27526, 29714], [23098, 29146, 31221],
  [19886, 27341, 30272], [15609, 23747, 28046], [11993, 20065, 24939], [9637, 18267, 23671],
  [7625, 13801, 19144], [14438, 20798, 24089], [12621, 19203, 23097], [8177, 14125, 18402],
  [5674, 10501, 14456], [4236, 8239, 11733], [3447, 6750, 9806], [1986, 3950, 5864], [16208, 22099, 24930],
  [16537, 24025, 27585], [12780, 20381, 24867], [9767, 16612, 21416], [7686, 13738, 18398],
  [6333, 11614, 15964], [3941, 7571, 10836], [22819, 27422, 29202], [22224, 28514, 30721],
  [17660, 25433, 28913], [13574, 21482, 26002], [10629, 17977, 22938], [8612, 15298, 20265],
  [5607, 10491, 14596], [13569, 19800, 23206], [13128, 19924, 23869], [8329, 14841, 19403],
  [6130, 10976, 15057], [4682, 8839, 12518], [3656, 7409, 10588], [2577, 5099, 7412], [22427, 28684, 30585],
  [20913, 27750, 30139], [15840, 24109, 27834], [12308, 20029, 24569], [10216, 16785, 21458],
  [8309, 14203, 19113], [6043, 11168, 15307], [23166, 28901, 30998], [21899, 28405, 30751],
  [18413, 26091, 29443], [15233, 23114, 27352], [12683, 20472, 25288], [10702, 18259, 23409],
  [8125, 14464, 19226], [9040, 14786, 18360], [9979, 15718, 19415], [7913, 13918, 18311],
  [5859, 10889, 15184], [4593, 8677, 12510], [3820, 7396, 10791], [1730, 3471, 5192], [11803, 18365, 22709],
  [11419, 18058, 22225], [9418, 15774, 20243], [7539, 13325, 17657], [6233, 11317, 15384],
  [5137, 9656, 13545], [2977, 5774, 8349], [21207, 27246, 29640], [19547, 26578, 29497],
  [16169, 23871, 27690], [12820, 20458, 25018], [10224, 17332, 22214], [8526, 15048, 19884],
  [5037, 9410, 13118], [12339, 17329, 20140], [13505, 19895, 23225], [9847, 16944, 21564],
  [7280, 13256, 18348], [4712, 10009, 14454], [4361, 7914, 12477], [2870, 5628, 7995], [20061, 25504, 28526],
  [15235, 22878, 26145], [12985, 19958, 24155], [9782, 16641, 21403], [9456, 16360, 20760],
  [6855, 12940, 18557], [5661, 10564, 15002], [25656, 30602, 31894], [22570, 29107, 31092],
  [18917, 26423, 29541], [15940, 23649, 27754], [12803, 20581, 25219], [11082, 18695, 23376],
  [7939, 14373, 19005]]

/-- `default_coef_cdf[2].eob_hi_bit`, src/cdf.c:2413-2474 -/
def coef2_eobHiBit : List (List Nat) := [
  [16384], [16384], [18983], [20512], [14885], [16384], [16384], [16384], [16384], [16384], [16384], [16384],
  [16384], [20090], [19444], [17286], [16384], [16384], [16384], [16384], [16384], [16384], [16384], [16384],
  [19139], [21487], [18959], [20910], [19089], [16384], [16384], [16384], [16384], [16384], [16384], [20536],
  [20664], [20625], [19123], [14862], [16384], [16384], [16384], [16384], [16384], [16384], [19833], [21502],
  [17485], [20267], [18353], [23329], [21478], [16384], [16384], [16384], [16384], [22041], [23434], [20001],
  [20554], [20951], [20145], [15562], [16384], [16384], [16384], [16384], [23312], [21607], [16526], [18957],
  [18034], [18934], [24247], [16921], [17080], [16384], [16384], [26579], [24910], [18637], [19800], [20388],
  [9887], [15642], [30198], [24721], [16384], [16384], [26998], [16737], [17838], [18922], [19515], [18636],
  [17333], [15776], [22658], [16384], [16384], [16384], [16384], [16384], [16384], [16384], [16384], [16384],
  [16384], [16384]]

/-- `default_coef_cdf[2].skip`, src/cdf.c:2327-2358 -/
def coef2_skip : List (List Nat) := [
  [29614], [9068], [12924], [19538], [17737], [24619], [30642], [4119], [16026], [25657], [16384], [16384],
  [16384], [31957], [3230], [11153], [18123], [20143], [26536], [31986], [3050], [14603], [25155], [16384],
  [16384], [16384], [32363], [10692], [19090], [24357], [24442], [28312], [32169], [3648], [15690], [26815],
  [16384], [16384], [16384], [30669], [3832], [11663], [18889], [19782], [23313], [31330], [5124], [18719],
  [28468], [3082], [20982], [29443], [28573], [3183], [17802], [25977], [26677], [27832], [32387], [16384],
  [16384], [16384], [16384], [16384], [16384]]

/-- `default_coef_cdf[2].dc_sign`, src/cdf.c:2949-2951 -/
def coef2_dcSign : List (List Nat) := [
  [16000], [13056], [18816], [15232], [12928], [17280]]

end Dav1d.CdfTab
