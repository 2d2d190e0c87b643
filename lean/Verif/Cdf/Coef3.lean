/-!
# The default coefficient tables `default_coef_cdf[3]`, src/cdf.c:3139-3952

Copied from the source, see `Default.lean`.
-/
namespace Dav1d.CdfTab

/-- `default_coef_cdf[3].eob_bin_16`, src/cdf.c:3172-3179 -/
def coef3_eobBin16 : List (List Nat) := [
  [6708, 8958, 14746, 22133], [1222, 2074, 4783, 15410], [19575, 21766, 26044, 29709],
  [7297, 10767, 19273, 28194]]

/-- `default_coef_cdf[3].eob_bin_32`, src/cdf.c:3180-3187 -/
def coef3_eobBin32 : List (List Nat) := [
  [4617, 5709, 8446, 13584, 23135], [1156, 1702, 3675, 9274, 20539], [22086, 24282, 27010, 29770, 31743],
  [7699, 10897, 20891, 26926, 31628]]

/-- `default_coef_cdf[3].eob_bin_64`, src/cdf.c:3188-3195 -/
def coef3_eobBin64 : List (List Nat) := [
  [6307, 7541, 12060, 16358, 22553, 27865], [1289, 2320, 3971, 7926, 14153, 24291],
  [24212, 25708, 28268, 30035, 31307, 32049], [8726, 12378, 19409, 26450, 30038, 32462]]

/-- `default_coef_cdf[3].eob_bin_128`, src/cdf.c:3196-3203 -/
def coef3_eobBin128 : List (List Nat) := [
  [3472, 4885, 7489, 12481, 18517, 24536, 29635], [886, 1731, 3271, 8469, 15569, 22126, 28383],
  [24313, 26062, 28385, 30107, 31217, 31898, 32345], [9165, 13282, 21150, 30286, 31894, 32571, 32712]]

/-- `default_coef_cdf[3].eob_bin_256`, src/cdf.c:3204-3215 -/
def coef3_eobBin256 : List (List Nat) := [
  [5348, 7113, 11820, 15924, 22106, 26777, 30334, 31757],
  [2453, 4474, 6307, 8777, 16474, 22975, 29000, 31547],
  [23110, 24597, 27140, 28894, 30167, 30927, 31392, 32094],
  [9998, 17661, 25178, 28097, 31308, 32038, 32403, 32695]]

/-- `default_coef_cdf[3].eob_bin_512`, src/cdf.c:3216-3220 -/
def coef3_eobBin512 : List (List Nat) := [
  [5927, 7809, 10923, 14597, 19439, 24135, 28456, 31142, 32060],
  [21093, 23043, 25742, 27658, 29097, 29716, 30073, 30820, 31956]]

/-- `default_coef_cdf[3].eob_bin_1024`, src/cdf.c:3221-3225 -/
def coef3_eobBin1024 : List (List Nat) := [
  [6698, 8334, 11961, 15762, 20186, 23862, 27434, 29326, 31082, 32050],
  [20569, 22426, 25569, 26859, 28053, 28913, 29486, 29724, 29807, 32570]]

/-- `default_coef_cdf[3].eob_base_tok`, src/cdf.c:3288-3329 -/
def coef3_eobBaseTok : List (List Nat) := [
  [22497, 31198], [31715, 32495], [31606, 32337], [30388, 31990], [27877, 31584], [32170, 32728],
  [32155, 32688], [32219, 32702], [21457, 31043], [31951, 32483], [32153, 32562], [31473, 32215],
  [27558, 31151], [32020, 32640], [32097, 32575], [32242, 32719], [19980, 30591], [32219, 32597],
  [32581, 32706], [31803, 32287], [26473, 30507], [32431, 32723], [32196, 32611], [31588, 32528],
  [24647, 30463], [32412, 32695], [32468, 32720], [31269, 32523], [28482, 31505], [32152, 32701],
  [31732, 32598], [31767, 32712], [12358, 24977], [31331, 32385], [32634, 32756], [30411, 32548],
  [10923, 21845], [10923, 21845], [10923, 21845], [10923, 21845]]

/-- `default_coef_cdf[3].base_tok`, src/cdf.c:3330-3761 -/
def coef3_baseTok : List (List Nat) := [
  [7062, 16472, 22319], [24538, 32261, 32674], [13675, 28041, 31779], [8590, 20674, 27631],
  [5685, 14675, 22013], [3655, 9898, 15731], [26493, 32418, 32658], [16376, 29342, 32090],
  [10594, 22649, 28970], [8176, 17170, 24303], [5605, 12694, 19139], [8192, 16384, 24576],
  [8192, 16384, 24576], [8192, 16384, 24576], [8192, 16384, 24576], [8192, 16384, 24576],
  [8192, 16384, 24576], [8192, 16384, 24576], [8192, 16384, 24576], [8192, 16384, 24576],
  [8192, 16384, 24576], [23888, 31902, 32542], [18612, 29687, 31987], [16245, 24852, 29249],
  [15765, 22608, 27559], [19895, 24699, 27510], [28401, 32212, 32457], [15274, 27825, 30980],
  [9364, 18128, 24332], [2283, 8193, 15082], [1228, 3972, 7881], [29455, 32469, 32620],
  [17981, 28245, 31388], [10921, 20098, 26240], [3743, 11829, 18657], [2374, 9593, 15715],
  [31068, 32466, 32635], [20321, 29572, 31971], [10771, 20255, 27119], [2795, 10410, 17361],
  [8192, 16384, 24576], [9320, 22102, 27840], [27057, 32464, 32724], [16331, 30268, 32309],
  [10319, 23935, 29720], [6189, 16448, 24106], [3589, 10884, 18808], [29026, 32624, 32748],
  [19226, 31507, 32587], [12692, 26921, 31203], [7049, 19532, 27635], [7727, 15669, 23252],
  [8192, 16384, 24576], [8192, 16384, 24576], [8192, 16384, 24576], [8192, 16384, 24576],
  [8192, 16384, 24576], [8192, 16384, 24576], [8192, 16384, 24576], [8192, 16384, 24576],
  [8192, 16384, 24576], [8192, 16384, 24576], [28056, 32625, 32748], [22383, 32075, 32669],
  [15417, 27098, 31749], [18127, 26493, 27190], [5461, 16384, 21845], [27982, 32091, 32584],
  [19045, 29868, 31972], [10397, 22266, 27932], [5990, 13697, 21500], [1792, 6912, 15104],
  [28198, 32501, 32718], [21534, 31521, 32569], [11109, 25217, 30017], [5671, 15124, 26151],
  [4681, 14043, 18725], [28688, 32580, 32741], [22576, 32079, 32661], [10627, 22141, 28340],
  [9362, 14043, 28087], [8192, 16384, 24576], [7754, 16948, 22142], [25670, 32330, 32691],
  [15663, 29225, 31994], [9878, 23288, 29158], [6419, 17088, 24336], [3859, 11003, 17039],
  [27562, 32595, 32725], [17575, 30588, 32399], [10819, 24838, 30309], [7124, 18686, 25916],
  [4479, 12688, 19340], [28385, 32476, 32673], [15306, 29005, 31938], [8937, 21615, 28322],
  [5982, 15603, 22786], [3620, 10267, 16136], [27280, 32464, 32667], [15607, 29160, 32004],
  [9091, 22135, 28740], [6232, 16632, 24020], [4047, 11377, 17672], [29220, 32630, 32718],
  [19650, 31220, 32462], [13050, 26312, 30827], [9228, 20870, 27468], [6146, 15149, 21971],
  [30169, 32481, 32623], [17212, 29311, 31554], [9911, 21311, 26882], [4487, 13314, 20372],
  [2570, 7772, 12889], [30924, 32613, 32708], [19490, 30206, 32107], [11232, 23998, 29276],
  [6769, 17955, 25035], [4398, 12623, 19214], [30609, 32627, 32722], [19370, 30582, 32287],
  [10457, 23619, 29409], [6443, 17637, 24834], [4645, 13236, 20106], [8626, 20271, 26216],
  [26707, 32406, 32711], [16999, 30329, 32286], [11445, 25123, 30286], [6411, 18828, 25601],
  [6801, 12458, 20248], [29918, 32682, 32748], [20649, 31739, 32618], [12879, 27773, 31581],
  [7896, 21751, 28244], [5260, 14870, 23698], [29252, 32593, 32731], [17072, 30460, 32294],
  [10653, 24143, 29365], [6536, 17490, 23983], [4929, 13170, 20085], [28137, 32518, 32715],
  [18171, 30784, 32407], [11437, 25436, 30459], [7252, 18534, 26176], [4126, 13353, 20978],
  [31162, 32726, 32748], [23017, 32222, 32701], [15629, 29233, 32046], [9387, 22621, 29480],
  [6922, 17616, 25010], [28838, 32265, 32614], [19701, 30206, 31920], [11214, 22410, 27933],
  [5320, 14177, 23034], [5049, 12881, 17827], [27484, 32471, 32734], [21076, 31526, 32561],
  [12707, 26303, 31211], [8169, 21722, 28219], [6045, 19406, 27042], [27753, 32572, 32745],
  [20832, 31878, 32653], [13250, 27356, 31674], [7718, 21508, 29858], [7209, 18350, 25559],
  [7876, 16901, 21741], [24001, 31898, 32625], [14529, 27959, 31451], [8273, 20818, 27258],
  [5278, 14673, 21510], [2983, 8843, 14039], [28016, 32574, 32732], [17471, 30306, 32301],
  [10224, 24063, 29728], [6602, 17954, 25052], [4002, 11585, 17759], [30190, 32634, 32739],
  [17497, 30282, 32270], [10229, 23729, 29538], [6344, 17211, 24440], [3849, 11189, 17108],
  [28570, 32583, 32726], [17521, 30161, 32238], [10153, 23565, 29378], [6455, 17341, 24443],
  [3907, 11042, 17024], [30689, 32715, 32748], [21546, 31840, 32610], [13547, 27581, 31459],
  [8912, 21757, 28309], [5548, 15080, 22046], [30783, 32540, 32685], [17540, 29528, 31668],
  [10160, 21468, 26783], [4724, 13393, 20054], [2702, 8174, 13102], [31648, 32686, 32742],
  [20954, 31094, 32337], [12420, 25698, 30179], [7304, 19320, 26248], [4366, 12261, 18864],
  [31581, 32723, 32748], [21373, 31586, 32525], [12744, 26625, 30885], [7431, 20322, 26950],
  [4692, 13323, 20111], [7833, 18369, 24095], [26650, 32273, 32702], [16371, 29961, 32191],
  [11055, 24082, 29629], [6892, 18644, 25400], [5006, 13057, 19240], [29834, 32666, 32748],
  [19577, 31335, 32570], [12253, 26509, 31122], [7991, 20772, 27711], [5677, 15910, 23059],
  [30109, 32532, 32720], [16747, 30166, 32252], [10134, 23542, 29184], [5791, 16176, 23556],
  [4362, 10414, 17284], [29492, 32626, 32748], [19894, 31402, 32525], [12942, 27071, 30869],
  [8346, 21216, 27405], [6572, 17087, 23859], [32035, 32735, 32748], [22957, 31838, 32618],
  [14724, 28572, 31772], [10364, 23999, 29553], [7004, 18433, 25655], [27528, 32277, 32681],
  [16959, 31171, 32096], [10486, 23593, 27962], [8192, 16384, 23211], [8937, 17873, 20852],
  [27715, 32002, 32615], [15073, 29491, 31676], [11264, 24576, 28672], [2341, 18725, 23406],
  [7282, 18204, 25486], [28547, 32213, 32657], [20788, 29773, 32239], [6780, 21469, 30508],
  [5958, 14895, 23831], [16384, 21845, 27307], [5992, 14304, 19765], [22612, 31238, 32456],
  [13456, 27162, 31087], [8001, 20062, 26504], [5168, 14105, 20764], [2632, 7771, 12385],
  [27034, 32344, 32709], [15850, 29415, 31997], [9494, 22776, 28841], [6151, 16830, 23969],
  [3461, 10039, 15722], [30134, 32569, 32731], [15638, 29422, 31945], [9150, 21865, 28218],
  [5647, 15719, 22676], [3402, 9772, 15477], [28530, 32586, 32735], [17139, 30298, 32292],
  [10200, 24039, 29685], [6419, 17674, 24786], [3544, 10225, 15824], [31333, 32726, 32748],
  [20618, 31487, 32544], [12901, 27217, 31232], [8624, 21734, 28171], [5104, 14191, 20748],
  [8192, 16384, 24576], [8192, 16384, 24576], [8192, 16384, 24576], [8192, 16384, 24576],
  [8192, 16384, 24576], [8192, 16384, 24576], [8192, 16384, 24576], [8192, 16384, 24576],
  [8192, 16384, 24576], [8192, 16384, 24576], [8192, 16384, 24576], [8192, 16384, 24576],
  [8192, 16384, 24576], [8192, 16384, 24576], [8192, 16384, 24576], [11206, 21090, 26561],
  [28759, 32279, 32671], [14171, 27952, 31569], [9743, 22907, 29141], [6871, 17886, 24868],
  [4960, 13152, 19315], [31077, 32661, 32748], [19400, 31195, 32515], [12752, 26858, 31040],
  [8370, 22098, 28591], [5457, 15373, 22298], [31697, 32706, 32748], [17860, 30657, 32333],
  [12510, 24812, 29261], [6180, 19124, 24722], [5041, 13548, 17959], [31552, 32716, 32748],
  [21908, 31769, 32623], [14470, 28201, 31565], [9493, 22982, 28608], [6858, 17240, 24137],
  [32543, 32752, 32756], [24286, 32097, 32666], [15958, 29217, 32024], [10207, 24234, 29958],
  [6929, 18305, 25652], [8192, 16384, 24576], [8192, 16384, 24576], [8192, 16384, 24576],
  [8192, 16384, 24576], [8192, 16384, 24576], [8192, 16384, 24576], [8192, 16384, 24576],
  [8192, 16384, 24576], [8192, 16384, 24576], [8192, 16384, 24576], [8192, 16384, 24576],
  [8192, 16384, 24576], [8192, 16384, 24576], [8192, 16384, 24576], [8192, 16384, 24576],
  [4137, 10847, 15682], [17824, 27001, 30058], [10204, 22796, 28291], [6076, 15935, 22125],
  [3852, 10937, 16816], [2252, 6324, 10131], [25840, 32016, 32662], [15109, 28268, 31531],
  [9385, 22231, 28340], [6082, 16672, 23479], [3318, 9427, 14681], [30594, 32574, 32718],
  [16836, 29552, 31859], [9556, 22542, 28356], [6305, 16725, 23540], [3376, 9895, 15184],
  [29383, 32617, 32745], [18891, 30809, 32401], [11688, 25942, 30687], [7468, 19469, 26651],
  [3909, 11358, 17012], [31564, 32736, 32748], [20906, 31611, 32600], [13191, 27621, 31537],
  [8768, 22029, 28676], [5079, 14109, 20906], [8192, 16384, 24576], [8192, 16384, 24576],
  [8192, 16384, 24576], [8192, 16384, 24576], [8192, 16384, 24576], [8192, 16384, 24576],
  [8192, 16384, 24576], [8192, 16384, 24576], [8192, 16384, 24576], [8192, 16384, 24576],
  [8192, 16384, 24576], [8192, 16384, 24576], [8192, 16384, 24576], [8192, 16384, 24576],
  [8192, 16384, 24576], [8192, 16384, 24576], [8192, 16384, 24576], [8192, 16384, 24576],
  [8192, 16384, 24576], [8192, 16384, 24576], [8192, 16384, 24576], [8192, 16384, 24576],
  [8192, 16384, 24576], [8192, 16384, 24576], [8192, 16384, 24576], [8192, 16384, 24576],
  [8192, 16384, 24576], [8192, 16384, 24576], [8192, 16384, 24576], [8192, 16384, 24576],
  [8192, 16384, 24576], [8192, 16384, 24576], [8192, 16384, 24576], [8192, 16384, 24576],
  [8192, 16384, 24576], [8192, 16384, 24576], [8192, 16384, 24576], [8192, 16384, 24576],
  [8192, 16384, 24576], [8192, 16384, 24576], [8192, 16384, 24576], [8192, 16384, 24576],
  [8192, 16384, 24576], [8192, 16384, 24576], [8192, 16384, 24576], [8192, 16384, 24576],
  [8192, 16384, 24576], [8192, 16384, 24576], [8192, 16384, 24576], [8192, 16384, 24576],
  [8192, 16384, 24576], [8192, 16384, 24576], [8192, 16384, 24576], [8192, 16384, 24576],
  [8192, 16384, 24576], [8192, 16384, 24576]]

/-- `default_coef_cdf[3].br_tok`, src/cdf.c:3765-3952 -/
def coef3_brTok : List (List Nat) := [
  [18315, 24289, 27551], [16854, 24068, 27835], [10140, 17927, 23173], [6722, 12982, 18267],
  [4661, 9826, 14706], [3832, 8165, 12294], [2795, 6098, 9245], [17145, 23326, 26672], [20733, 27680, 30308],
  [16032, 24461, 28546], [11653, 20093, 25081], [9290, 16429, 22086], [7796, 14598, 19982],
  [6502, 12378, 17441], [21681, 27732, 30320], [22389, 29044, 31261], [19027, 26731, 30087],
  [14739, 23755, 28624], [11358, 20778, 25511], [10995, 18073, 24190], [9162, 14990, 20617],
  [21425, 27952, 30388], [18062, 25838, 29034], [11956, 19881, 24808], [7718, 15000, 20980],
  [5702, 11254, 16143], [4898, 9088, 16864], [3679, 6776, 11907], [23294, 30160, 31663],
  [24397, 29896, 31836], [19245, 27128, 30593], [13202, 19825, 26404], [11578, 19297, 23957],
  [8073, 13297, 21370], [5461, 10923, 19745], [27367, 30521, 31934], [24904, 30671, 31940],
  [23075, 28460, 31299], [14400, 23658, 30417], [13885, 23882, 28325], [14746, 22938, 27853],
  [5461, 16384, 27307], [18274, 24813, 27890], [15537, 23149, 27003], [9449, 16740, 21827],
  [6700, 12498, 17261], [4988, 9866, 14198], [4236, 8147, 11902], [2867, 5860, 8654], [17124, 23171, 26101],
  [20396, 27477, 30148], [16573, 24629, 28492], [12749, 20846, 25674], [10233, 17878, 22818],
  [8525, 15332, 20363], [6283, 11632, 16255], [20466, 26511, 29286], [23059, 29174, 31191],
  [19481, 27263, 30241], [15458, 23631, 28137], [12416, 20608, 25693], [10261, 18011, 23261],
  [8016, 14655, 19666], [17616, 24586, 28112], [15809, 23299, 27155], [10767, 18890, 23793],
  [7727, 14255, 18865], [6129, 11926, 16882], [4482, 9704, 14861], [3277, 7452, 11522],
  [22956, 28551, 30730], [22724, 28937, 30961], [18467, 26324, 29580], [13234, 20713, 25649],
  [11181, 17592, 22481], [8291, 18358, 24576], [7568, 11881, 14984], [24948, 29001, 31147],
  [25674, 30619, 32151], [20841, 26793, 29603], [14669, 24356, 28666], [11334, 23593, 28219],
  [8922, 14762, 22873], [8301, 13544, 20535], [17113, 23733, 27081], [14139, 21406, 25452],
  [8552, 15002, 19776], [5871, 11120, 15378], [4455, 8616, 12253], [3469, 6910, 10386], [2255, 4553, 6782],
  [18224, 24376, 27053], [19290, 26710, 29614], [14936, 22991, 27184], [11238, 18951, 23762],
  [8786, 15617, 20588], [7317, 13228, 18003], [5101, 9512, 13493], [22639, 28222, 30210],
  [23216, 29331, 31307], [19075, 26762, 29895], [15014, 23113, 27457], [11938, 19857, 24752],
  [9942, 17280, 22282], [7167, 13144, 17752], [15820, 22738, 26488], [13530, 20885, 25216],
  [8395, 15530, 20452], [6574, 12321, 16380], [5353, 10419, 14568], [4613, 8446, 12381], [3440, 7158, 9903],
  [24247, 29051, 31224], [22118, 28058, 30369], [16498, 24768, 28389], [12920, 21175, 26137],
  [10730, 18619, 25352], [10187, 16279, 22791], [9310, 14631, 22127], [24970, 30558, 32057],
  [24801, 29942, 31698], [22432, 28453, 30855], [19054, 25680, 29580], [14392, 23036, 28109],
  [12495, 20947, 26650], [12442, 20326, 26214], [12162, 18785, 22648], [12749, 19697, 23806],
  [8580, 15297, 20346], [6169, 11749, 16543], [4836, 9391, 13448], [3821, 7711, 11613], [2228, 4601, 7070],
  [16319, 24725, 28280], [15698, 23277, 27168], [12726, 20368, 25047], [9912, 17015, 21976],
  [7888, 14220, 19179], [6777, 12284, 17018], [4492, 8590, 12252], [23249, 28904, 30947],
  [21050, 27908, 30512], [17440, 25340, 28949], [14059, 22018, 26541], [11288, 18903, 23898],
  [9411, 16342, 21428], [6278, 11588, 15944], [13981, 20067, 23226], [16922, 23580, 26783],
  [11005, 19039, 24487], [7389, 14218, 19798], [5598, 11505, 17206], [6090, 11213, 15659],
  [3820, 7371, 10119], [21082, 26925, 29675], [21262, 28627, 31128], [18392, 26454, 30437],
  [14870, 22910, 27096], [12620, 19484, 24908], [9290, 16553, 22802], [6668, 14288, 20004],
  [27704, 31055, 31949], [24709, 29978, 31788], [21668, 29264, 31657], [18295, 26968, 30074],
  [16399, 24422, 29313], [14347, 23026, 28104], [12370, 19806, 24477]]

/-- `default_coef_cdf[3].eob_hi_bit`, src/cdf.c:3226-3287 -/
def coef3_eobHiBit : List (List Nat) := [
  [16384], [16384], [20177], [20789], [20262], [16384], [16384], [16384], [16384], [16384], [16384], [16384],
  [16384], [21416], [20855], [23410], [16384], [16384], [16384], [16384], [16384], [16384], [16384], [16384],
  [20238], [21057], [19159], [22337], [20159], [16384], [16384], [16384], [16384], [16384], [16384], [20125],
  [20559], [21707], [22296], [17333], [16384], [16384], [16384], [16384], [16384], [16384], [19941], [20527],
  [21470], [22487], [19558], [22354], [20331], [16384], [16384], [16384], [16384], [22752], [25006], [22075],
  [21576], [17740], [21690], [19211], [16384], [16384], [16384], [16384], [21442], [22358], [18503], [20291],
  [19945], [21294], [21178], [19400], [10556], [16384], [16384], [24648], [24949], [20708], [23905], [20501],
  [9558], [9423], [30365], [19253], [16384], [16384], [26064], [22098], [19613], [20525], [17595], [16618],
  [20497], [18989], [15513], [16384], [16384], [16384], [16384], [16384], [16384], [16384], [16384], [16384],
  [16384], [16384]]

/-- `default_coef_cdf[3].skip`, src/cdf.c:3140-3171 -/
def coef3_skip : List (List Nat) := [
  [26887], [6729], [10361], [17442], [15045], [22478], [29072], [2713], [11861], [20773], [16384], [16384],
  [16384], [31903], [2044], [7528], [14618], [16182], [24168], [31037], [2786], [11194], [20155], [16384],
  [16384], [16384], [32510], [8430], [17318], [24154], [23674], [28789], [32139], [3440], [13117], [22702],
  [16384], [16384], [16384], [31671], [2056], [11746], [16852], [18635], [24715], [31484], [4656], [16074],
  [24704], [1806], [14645], [25336], [31539], [8433], [20576], [27904], [27852], [30026], [32441], [16384],
  [16384], [16384], [16384], [16384], [16384]]

/-- `default_coef_cdf[3].dc_sign`, src/cdf.c:3762-3764 -/
def coef3_dcSign : List (List Nat) := [
  [16000], [13056], [18816], [15232], [12928], [17280]]

end Dav1d.CdfTab
