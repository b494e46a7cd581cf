/-
The files of /repo/data: the numbers in the order of the files, without the comments at the top.
-/

set_option maxRecDepth 20000

namespace Roots

/-- data/primitive-roots-1024.txt:5-516 -/
def roots1024 : List Nat := [
    49, 52, 56, 58, 64, 142, 147, 151, 156, 168, 174, 192, 218, 241, 295, 316, 325, 347, 350, 382, 400, 418,
    421, 426, 431, 441, 453, 468, 504, 522, 576, 605, 652, 654, 677, 683, 709, 723, 787, 835, 885, 922, 948,
    973, 975, 1003, 1010, 1018, 1041, 1050, 1058, 1105, 1112, 1146, 1159, 1190, 1200, 1254, 1263, 1278, 1293,
    1319, 1321, 1323, 1359, 1360, 1404, 1483, 1489, 1512, 1566, 1579, 1583, 1594, 1693, 1702, 1728, 1747,
    1805, 1815, 1843, 1858, 1922, 1954, 1956, 1958, 1962, 1973, 1975, 1987, 2031, 2033, 2049, 2051, 2057,
    2078, 2127, 2169, 2281, 2302, 2344, 2361, 2447, 2459, 2500, 2503, 2505, 2555, 2655, 2683, 2692, 2738,
    2766, 2767, 2839, 2844, 2882, 2908, 2919, 2920, 2925, 2948, 3009, 3029, 3030, 3054, 3123, 3127, 3150,
    3174, 3199, 3202, 3262, 3263, 3315, 3329, 3336, 3434, 3438, 3445, 3477, 3482, 3514, 3529, 3532, 3565,
    3570, 3600, 3602, 3643, 3656, 3710, 3728, 3757, 3762, 3772, 3789, 3818, 3834, 3860, 3879, 3956, 3957,
    3963, 3969, 3988, 3991, 3998, 4016, 4046, 4049, 4075, 4077, 4079, 4080, 4115, 4169, 4212, 4213, 4240,
    4298, 4322, 4324, 4433, 4449, 4467, 4493, 4536, 4624, 4698, 4737, 4749, 4754, 4774, 4780, 4782, 4789,
    4912, 4916, 4948, 5009, 5057, 5079, 5106, 5184, 5206, 5241, 5257, 5297, 5315, 5333, 5339, 5369, 5383,
    5415, 5429, 5435, 5445, 5446, 5456, 5468, 5486, 5529, 5537, 5574, 5594, 5681, 5735, 5766, 5782, 5862,
    5868, 5874, 5876, 5886, 5906, 5908, 5915, 5919, 5925, 5942, 5961, 5990, 6008, 6055, 6065, 6068, 6077,
    6093, 6099, 6118, 6119, 6122, 6136, 6137, 6142, 6147, 6152, 6153, 6167, 6170, 6171, 6190, 6196, 6212,
    6221, 6224, 6234, 6281, 6299, 6328, 6347, 6364, 6370, 6374, 6381, 6383, 6403, 6413, 6415, 6421, 6427,
    6507, 6523, 6554, 6608, 6695, 6715, 6752, 6760, 6803, 6821, 6833, 6843, 6844, 6854, 6860, 6874, 6906,
    6920, 6950, 6956, 6974, 6992, 7032, 7048, 7083, 7105, 7183, 7210, 7232, 7280, 7341, 7373, 7377, 7500,
    7507, 7509, 7515, 7535, 7540, 7552, 7591, 7665, 7753, 7796, 7822, 7840, 7856, 7965, 7967, 7991, 8049,
    8076, 8077, 8120, 8174, 8209, 8210, 8212, 8214, 8240, 8243, 8273, 8291, 8298, 8301, 8320, 8326, 8332,
    8333, 8410, 8429, 8455, 8471, 8500, 8517, 8527, 8532, 8561, 8579, 8633, 8646, 8687, 8689, 8719, 8724,
    8757, 8760, 8775, 8807, 8812, 8844, 8851, 8855, 8953, 8960, 8974, 9026, 9027, 9087, 9090, 9115, 9139,
    9162, 9166, 9235, 9259, 9260, 9280, 9341, 9364, 9369, 9370, 9381, 9407, 9445, 9450, 9522, 9523, 9551,
    9597, 9606, 9634, 9734, 9784, 9786, 9789, 9830, 9842, 9928, 9945, 9987, 10008, 10120, 10162, 10211, 10232,
    10238, 10240, 10256, 10258, 10302, 10314, 10316, 10327, 10331, 10333, 10335, 10367, 10431, 10446, 10474,
    10484, 10542, 10561, 10587, 10596, 10695, 10706, 10710, 10723, 10777, 10800, 10806, 10885, 10929, 10930,
    10966, 10968, 10970, 10996, 11011, 11026, 11035, 11089, 11099, 11130, 11143, 11177, 11184, 11231, 11239,
    11248, 11271, 11279, 11286, 11314, 11316, 11341, 11367, 11404, 11454, 11502, 11566, 11580, 11606, 11612,
    11635, 11637, 11684, 11713, 11767, 11785, 11821, 11836, 11848, 11858, 11863, 11868, 11871, 11889, 11907,
    11939, 11942, 11964, 11973, 11994, 12048, 12071, 12097, 12115, 12121, 12133, 12138, 12142, 12147, 12225,
    12231, 12233, 12237, 12240]

/-- data/primitive-roots-2048.txt:5-1028 -/
def roots2048 : List Nat := [
    7, 8, 20, 21, 24, 50, 60, 63, 68, 72, 125, 139, 146, 150, 170, 180, 189, 193, 204, 212, 216, 239, 293,
    338, 343, 346, 364, 365, 375, 377, 392, 406, 412, 416, 417, 425, 438, 448, 450, 457, 463, 464, 466, 502,
    506, 510, 512, 530, 540, 567, 578, 579, 612, 614, 622, 636, 648, 682, 716, 717, 751, 767, 769, 778, 791,
    814, 826, 844, 845, 865, 874, 879, 881, 904, 910, 923, 944, 980, 982, 994, 1014, 1015, 1029, 1030, 1038,
    1040, 1057, 1092, 1095, 1120, 1125, 1131, 1136, 1160, 1165, 1176, 1178, 1208, 1218, 1223, 1226, 1236,
    1241, 1248, 1251, 1255, 1265, 1275, 1279, 1280, 1282, 1314, 1325, 1327, 1344, 1350, 1371, 1373, 1389,
    1392, 1398, 1403, 1406, 1409, 1417, 1445, 1468, 1481, 1506, 1518, 1522, 1526, 1530, 1535, 1536, 1555,
    1573, 1590, 1620, 1658, 1681, 1687, 1694, 1701, 1705, 1706, 1721, 1734, 1737, 1744, 1756, 1763, 1783,
    1790, 1802, 1804, 1826, 1836, 1842, 1849, 1866, 1868, 1882, 1891, 1892, 1901, 1908, 1927, 1928, 1936,
    1942, 1944, 1945, 2021, 2035, 2046, 2054, 2065, 2068, 2110, 2148, 2151, 2164, 2171, 2185, 2209, 2212,
    2213, 2231, 2253, 2257, 2260, 2275, 2276, 2291, 2293, 2301, 2307, 2334, 2338, 2360, 2373, 2429, 2434,
    2442, 2450, 2455, 2461, 2478, 2483, 2485, 2528, 2532, 2535, 2575, 2593, 2595, 2600, 2602, 2622, 2626,
    2633, 2637, 2643, 2672, 2674, 2689, 2712, 2717, 2730, 2769, 2776, 2800, 2827, 2828, 2832, 2840, 2873,
    2894, 2900, 2926, 2929, 2940, 2941, 2945, 2946, 2947, 2957, 2982, 3007, 3017, 3019, 3020, 3028, 3042,
    3045, 3056, 3065, 3087, 3090, 3094, 3114, 3116, 3120, 3121, 3154, 3163, 3171, 3200, 3205, 3221, 3229,
    3232, 3238, 3268, 3276, 3278, 3285, 3317, 3332, 3338, 3343, 3344, 3359, 3360, 3368, 3375, 3393, 3407,
    3408, 3418, 3448, 3449, 3451, 3454, 3466, 3469, 3480, 3495, 3502, 3511, 3515, 3528, 3534, 3536, 3572,
    3578, 3589, 3607, 3624, 3654, 3669, 3670, 3678, 3708, 3723, 3744, 3753, 3758, 3765, 3769, 3793, 3795,
    3805, 3808, 3815, 3821, 3825, 3837, 3840, 3846, 3869, 3889, 3929, 3941, 3942, 3944, 3947, 3959, 3961,
    3975, 3981, 3982, 4032, 4050, 4094, 4099, 4103, 4113, 4119, 4138, 4145, 4153, 4167, 4176, 4194, 4209,
    4218, 4222, 4227, 4235, 4238, 4251, 4265, 4267, 4273, 4289, 4301, 4335, 4352, 4360, 4378, 4390, 4404,
    4411, 4423, 4443, 4475, 4483, 4489, 4499, 4504, 4505, 4510, 4518, 4523, 4538, 4554, 4564, 4565, 4566,
    4578, 4590, 4605, 4608, 4649, 4661, 4665, 4670, 4684, 4693, 4697, 4705, 4719, 4727, 4730, 4739, 4770,
    4781, 4820, 4834, 4840, 4855, 4860, 4883, 4906, 4913, 4924, 4939, 4963, 4974, 4987, 5002, 5039, 5043,
    5054, 5061, 5063, 5078, 5082, 5102, 5103, 5115, 5118, 5135, 5163, 5170, 5189, 5202, 5207, 5209, 5211,
    5216, 5219, 5232, 5246, 5268, 5275, 5287, 5289, 5349, 5368, 5370, 5386, 5406, 5410, 5411, 5412, 5416,
    5461, 5464, 5478, 5508, 5509, 5518, 5526, 5530, 5547, 5588, 5596, 5598, 5604, 5609, 5618, 5646, 5650,
    5653, 5662, 5672, 5673, 5676, 5690, 5703, 5724, 5734, 5776, 5781, 5784, 5789, 5797, 5808, 5826, 5832,
    5835, 5836, 5845, 5900, 5959, 5966, 5969, 5987, 5993, 6026, 6063, 6085, 6086, 6092, 6094, 6105, 6125,
    6127, 6138, 6151, 6162, 6164, 6184, 6195, 6197, 6203, 6204, 6226, 6263, 6296, 6302, 6320, 6323, 6330,
    6389, 6444, 6453, 6454, 6457, 6463, 6481, 6492, 6500, 6505, 6508, 6513, 6555, 6565, 6586, 6599, 6613,
    6616, 6617, 6627, 6636, 6639, 6643, 6671, 6680, 6685, 6691, 6693, 6701, 6742, 6759, 6763, 6771, 6780,
    6781, 6811, 6825, 6828, 6873, 6877, 6878, 6879, 6883, 6903, 6919, 6921, 6940, 7000, 7002, 7014, 7021,
    7043, 7057, 7070, 7073, 7078, 7080, 7082, 7087, 7100, 7119, 7126, 7154, 7171, 7174, 7186, 7187, 7207,
    7211, 7226, 7228, 7235, 7246, 7250, 7287, 7302, 7315, 7326, 7350, 7365, 7376, 7383, 7406, 7429, 7434,
    7449, 7455, 7469, 7508, 7519, 7550, 7559, 7562, 7570, 7584, 7592, 7596, 7605, 7619, 7624, 7628, 7640,
    7681, 7684, 7699, 7711, 7723, 7724, 7725, 7735, 7751, 7766, 7771, 7779, 7784, 7785, 7790, 7800, 7806,
    7814, 7846, 7866, 7878, 7885, 7899, 7911, 7929, 7937, 7954, 7988, 8000, 8016, 8022, 8024, 8038, 8051,
    8054, 8062, 8067, 8071, 8080, 8095, 8113, 8122, 8136, 8144, 8151, 8170, 8176, 8186, 8190, 8195, 8239,
    8257, 8307, 8308, 8314, 8328, 8330, 8342, 8345, 8347, 8348, 8360, 8400, 8420, 8443, 8449, 8452, 8464,
    8468, 8474, 8481, 8484, 8494, 8496, 8520, 8524, 8531, 8536, 8545, 8566, 8581, 8611, 8619, 8620, 8635,
    8665, 8682, 8700, 8711, 8717, 8753, 8755, 8761, 8774, 8778, 8787, 8794, 8809, 8820, 8823, 8835, 8838,
    8840, 8841, 8871, 8881, 8882, 8896, 8914, 8921, 8929, 8930, 8945, 8946, 8951, 8957, 8972, 9004, 9011,
    9013, 9021, 9051, 9057, 9060, 9068, 9084, 9089, 9118, 9126, 9135, 9168, 9169, 9173, 9175, 9195, 9199,
    9202, 9224, 9233, 9244, 9247, 9261, 9269, 9270, 9272, 9282, 9307, 9332, 9342, 9343, 9344, 9348, 9349,
    9360, 9363, 9389, 9395, 9416, 9449, 9457, 9461, 9462, 9489, 9513, 9520, 9559, 9572, 9577, 9600, 9615,
    9617, 9646, 9652, 9656, 9663, 9667, 9687, 9689, 9694, 9696, 9714, 9754, 9757, 9761, 9804, 9806, 9811,
    9828, 9834, 9839, 9847, 9855, 9860, 9916, 9929, 9951, 9955, 9982, 9988, 9996, 9998, 10013, 10014, 10029,
    10032, 10036, 10058, 10076, 10077, 10080, 10104, 10118, 10125, 10138, 10141, 10179, 10221, 10224, 10235,
    10243, 10254, 10268, 10344, 10345, 10347, 10353, 10361, 10362, 10381, 10388, 10397, 10398, 10407, 10421,
    10423, 10440, 10447, 10453, 10463, 10485, 10487, 10499, 10506, 10526, 10533, 10545, 10552, 10555, 10568,
    10583, 10584, 10588, 10595, 10602, 10608, 10631, 10669, 10699, 10716, 10734, 10753, 10754, 10759, 10763,
    10767, 10771, 10783, 10808, 10821, 10844, 10872, 10880, 10883, 10886, 10891, 10897, 10900, 10916, 10918,
    10939, 10945, 10962, 10964, 10975, 11007, 11009, 11010, 11014, 11024, 11034, 11038, 11041, 11048, 11053,
    11063, 11066, 11071, 11081, 11111, 11113, 11124, 11129, 11153, 11158, 11164, 11169, 11194, 11197, 11232,
    11249, 11251, 11259, 11260, 11274, 11275, 11295, 11307, 11309, 11345, 11366, 11379, 11385, 11408, 11410,
    11415, 11424, 11444, 11445, 11463, 11475, 11498, 11511, 11520, 11522, 11538, 11572, 11573, 11607, 11641,
    11653, 11667, 11675, 11677, 11710, 11711, 11722, 11749, 11759, 11777, 11779, 11783, 11787, 11823, 11825,
    11826, 11832, 11839, 11841, 11851, 11864, 11872, 11873, 11877, 11883, 11897, 11912, 11914, 11924, 11925,
    11943, 11946, 11951, 11996, 12050, 12073, 12077, 12085, 12096, 12100, 12109, 12119, 12139, 12143, 12150,
    12164, 12217, 12221, 12226, 12229, 12239, 12265, 12268, 12269, 12281, 12282]

/-- data/primitive-roots-4096.txt:5-2052 -/
def roots4096 : List Nat := [
    41, 43, 44, 47, 67, 76, 92, 110, 122, 123, 124, 127, 129, 132, 141, 148, 190, 194, 197, 201, 214, 227,
    228, 229, 230, 263, 269, 271, 275, 276, 286, 287, 301, 305, 308, 310, 313, 319, 328, 329, 330, 331, 332,
    344, 352, 356, 366, 369, 370, 372, 374, 376, 381, 387, 396, 397, 419, 423, 433, 443, 444, 469, 475, 479,
    485, 487, 494, 499, 514, 523, 524, 532, 535, 536, 547, 548, 551, 562, 570, 575, 582, 591, 596, 598, 601,
    603, 608, 628, 631, 642, 644, 646, 649, 667, 674, 681, 684, 687, 690, 691, 715, 718, 724, 736, 746, 758,
    766, 770, 775, 781, 782, 789, 793, 796, 802, 803, 806, 807, 813, 818, 820, 825, 828, 830, 839, 854, 858,
    860, 861, 863, 868, 877, 880, 889, 890, 892, 898, 899, 903, 915, 924, 925, 930, 935, 939, 940, 957, 962,
    967, 976, 984, 987, 990, 992, 993, 996, 1016, 1019, 1032, 1033, 1036, 1037, 1049, 1051, 1054, 1056, 1068,
    1073, 1098, 1107, 1108, 1110, 1114, 1116, 1117, 1121, 1122, 1128, 1132, 1142, 1143, 1154, 1161, 1166,
    1174, 1184, 1186, 1188, 1191, 1193, 1199, 1235, 1257, 1258, 1261, 1268, 1269, 1277, 1285, 1286, 1299,
    1303, 1306, 1310, 1329, 1330, 1331, 1332, 1340, 1349, 1357, 1358, 1370, 1379, 1387, 1391, 1396, 1402,
    1405, 1407, 1412, 1425, 1433, 1437, 1451, 1455, 1461, 1482, 1490, 1495, 1497, 1498, 1511, 1520, 1531,
    1542, 1552, 1569, 1570, 1572, 1576, 1589, 1596, 1597, 1603, 1605, 1608, 1610, 1615, 1622, 1633, 1637,
    1641, 1644, 1649, 1653, 1657, 1679, 1685, 1686, 1699, 1710, 1712, 1718, 1723, 1725, 1738, 1746, 1773,
    1774, 1788, 1794, 1795, 1803, 1809, 1810, 1816, 1819, 1824, 1829, 1832, 1837, 1840, 1841, 1859, 1865,
    1883, 1884, 1893, 1895, 1897, 1903, 1915, 1925, 1926, 1932, 1938, 1947, 1955, 1990, 2001, 2002, 2005,
    2009, 2011, 2012, 2014, 2015, 2018, 2022, 2026, 2042, 2043, 2045, 2050, 2052, 2061, 2062, 2063, 2070,
    2071, 2073, 2075, 2084, 2101, 2104, 2107, 2132, 2135, 2137, 2138, 2145, 2150, 2152, 2154, 2156, 2158,
    2168, 2170, 2172, 2183, 2191, 2200, 2201, 2206, 2208, 2222, 2225, 2230, 2233, 2236, 2238, 2239, 2245,
    2246, 2258, 2263, 2266, 2274, 2288, 2296, 2298, 2299, 2303, 2309, 2310, 2314, 2317, 2324, 2325, 2326,
    2343, 2346, 2350, 2367, 2378, 2379, 2388, 2402, 2405, 2406, 2407, 2408, 2409, 2418, 2421, 2428, 2431,
    2438, 2439, 2440, 2444, 2454, 2460, 2464, 2475, 2480, 2484, 2490, 2492, 2494, 2504, 2507, 2517, 2540,
    2549, 2552, 2562, 2563, 2574, 2580, 2581, 2582, 2583, 2588, 2589, 2590, 2604, 2618, 2624, 2627, 2631,
    2632, 2635, 2636, 2640, 2644, 2648, 2656, 2667, 2670, 2676, 2677, 2694, 2697, 2699, 2701, 2709, 2726,
    2745, 2752, 2761, 2770, 2772, 2775, 2779, 2783, 2785, 2788, 2789, 2790, 2801, 2803, 2805, 2816, 2817,
    2819, 2820, 2822, 2830, 2846, 2848, 2854, 2855, 2871, 2876, 2885, 2886, 2887, 2897, 2901, 2906, 2909,
    2915, 2924, 2928, 2932, 2933, 2935, 2952, 2956, 2960, 2961, 2965, 2970, 2972, 2976, 2979, 2986, 2988,
    2992, 3001, 3002, 3008, 3026, 3031, 3048, 3057, 3086, 3096, 3099, 3101, 3108, 3111, 3118, 3119, 3134,
    3145, 3147, 3153, 3162, 3167, 3168, 3170, 3173, 3176, 3179, 3196, 3204, 3211, 3215, 3218, 3219, 3233,
    3236, 3242, 3265, 3275, 3283, 3286, 3287, 3294, 3313, 3321, 3324, 3325, 3330, 3331, 3341, 3342, 3348,
    3350, 3351, 3352, 3353, 3361, 3363, 3366, 3373, 3377, 3379, 3384, 3394, 3395, 3396, 3406, 3409, 3413,
    3421, 3425, 3426, 3428, 3429, 3433, 3458, 3462, 3464, 3483, 3484, 3490, 3491, 3493, 3498, 3505, 3517,
    3522, 3530, 3544, 3552, 3558, 3562, 3564, 3571, 3573, 3579, 3586, 3597, 3598, 3628, 3629, 3631, 3634,
    3644, 3653, 3661, 3662, 3668, 3676, 3677, 3701, 3705, 3719, 3724, 3725, 3727, 3745, 3746, 3751, 3752,
    3771, 3774, 3783, 3788, 3797, 3799, 3800, 3803, 3804, 3807, 3823, 3829, 3831, 3832, 3836, 3838, 3841,
    3851, 3855, 3857, 3858, 3866, 3874, 3880, 3881, 3886, 3887, 3896, 3897, 3909, 3914, 3918, 3919, 3922,
    3925, 3930, 3934, 3938, 3940, 3952, 3964, 3971, 3973, 3979, 3986, 3987, 3990, 3992, 3993, 3996, 4001,
    4006, 4020, 4025, 4033, 4047, 4054, 4055, 4071, 4074, 4082, 4110, 4111, 4112, 4127, 4133, 4137, 4161,
    4162, 4172, 4173, 4184, 4186, 4188, 4192, 4198, 4199, 4206, 4207, 4211, 4215, 4221, 4236, 4244, 4256,
    4258, 4261, 4271, 4275, 4279, 4280, 4288, 4295, 4299, 4311, 4321, 4345, 4349, 4353, 4357, 4364, 4365,
    4369, 4373, 4376, 4381, 4383, 4384, 4393, 4396, 4408, 4417, 4427, 4435, 4436, 4442, 4446, 4454, 4470,
    4477, 4481, 4485, 4491, 4494, 4496, 4508, 4519, 4522, 4525, 4533, 4540, 4543, 4546, 4549, 4553, 4556,
    4560, 4567, 4574, 4580, 4593, 4600, 4603, 4626, 4633, 4637, 4642, 4646, 4656, 4658, 4667, 4669, 4706,
    4707, 4710, 4716, 4718, 4724, 4728, 4738, 4748, 4766, 4767, 4768, 4769, 4777, 4778, 4784, 4788, 4791,
    4807, 4808, 4809, 4813, 4815, 4819, 4824, 4830, 4837, 4838, 4845, 4849, 4859, 4864, 4866, 4871, 4889,
    4897, 4898, 4899, 4909, 4911, 4923, 4927, 4931, 4932, 4943, 4946, 4947, 4957, 4959, 4969, 4971, 4972,
    4975, 4979, 4996, 5005, 5024, 5026, 5030, 5035, 5036, 5037, 5045, 5048, 5055, 5058, 5062, 5065, 5066,
    5068, 5071, 5074, 5083, 5087, 5097, 5099, 5105, 5125, 5130, 5136, 5141, 5152, 5153, 5154, 5155, 5156,
    5168, 5169, 5174, 5175, 5177, 5188, 5192, 5210, 5213, 5214, 5222, 5228, 5234, 5238, 5239, 5249, 5251,
    5260, 5273, 5306, 5311, 5314, 5317, 5319, 5322, 5330, 5336, 5338, 5345, 5347, 5359, 5362, 5363, 5364,
    5375, 5380, 5382, 5385, 5390, 5392, 5395, 5401, 5409, 5420, 5425, 5427, 5430, 5438, 5448, 5457, 5467,
    5472, 5474, 5487, 5491, 5496, 5500, 5511, 5515, 5520, 5523, 5528, 5546, 5551, 5554, 5555, 5572, 5575,
    5577, 5581, 5590, 5595, 5599, 5614, 5615, 5621, 5623, 5642, 5645, 5649, 5652, 5665, 5669, 5671, 5679,
    5685, 5686, 5689, 5691, 5699, 5709, 5716, 5720, 5726, 5729, 5740, 5744, 5745, 5756, 5771, 5773, 5775,
    5778, 5779, 5785, 5792, 5796, 5798, 5810, 5814, 5815, 5819, 5821, 5822, 5827, 5833, 5834, 5837, 5839,
    5841, 5846, 5854, 5865, 5873, 5875, 5878, 5884, 5888, 5893, 5903, 5909, 5921, 5939, 5945, 5948, 5968,
    5970, 5977, 5978, 5986, 5996, 6003, 6005, 6006, 6011, 6015, 6020, 6027, 6029, 6033, 6036, 6037, 6041,
    6042, 6045, 6054, 6059, 6064, 6066, 6070, 6076, 6078, 6079, 6089, 6095, 6098, 6100, 6103, 6106, 6110,
    6116, 6126, 6128, 6129, 6133, 6135, 6139, 6150, 6154, 6156, 6160, 6161, 6163, 6173, 6179, 6183, 6186,
    6189, 6191, 6194, 6200, 6210, 6211, 6213, 6219, 6223, 6225, 6230, 6235, 6244, 6247, 6248, 6252, 6253,
    6256, 6260, 6262, 6269, 6274, 6278, 6283, 6284, 6286, 6293, 6303, 6311, 6312, 6319, 6321, 6341, 6344,
    6350, 6368, 6380, 6386, 6396, 6401, 6405, 6411, 6414, 6416, 6424, 6435, 6443, 6448, 6450, 6452, 6455,
    6456, 6462, 6467, 6468, 6470, 6474, 6475, 6479, 6491, 6493, 6497, 6504, 6510, 6511, 6514, 6516, 6518,
    6533, 6544, 6545, 6549, 6560, 6563, 6569, 6573, 6580, 6590, 6598, 6600, 6603, 6604, 6610, 6618, 6620,
    6624, 6637, 6640, 6644, 6647, 6666, 6668, 6674, 6675, 6690, 6694, 6699, 6708, 6712, 6714, 6717, 6734,
    6735, 6738, 6743, 6761, 6766, 6769, 6774, 6778, 6789, 6793, 6798, 6802, 6815, 6817, 6822, 6832, 6841,
    6851, 6859, 6862, 6864, 6869, 6880, 6888, 6894, 6897, 6899, 6904, 6907, 6909, 6914, 6925, 6926, 6927,
    6930, 6942, 6944, 6951, 6953, 6959, 6967, 6970, 6972, 6975, 6978, 6983, 7016, 7029, 7038, 7040, 7050,
    7051, 7055, 7061, 7067, 7075, 7076, 7079, 7097, 7101, 7112, 7114, 7115, 7120, 7121, 7133, 7134, 7135,
    7136, 7137, 7148, 7153, 7159, 7164, 7184, 7190, 7192, 7202, 7206, 7215, 7218, 7221, 7223, 7224, 7227,
    7231, 7234, 7241, 7244, 7252, 7253, 7254, 7259, 7263, 7265, 7284, 7293, 7310, 7314, 7317, 7318, 7320,
    7330, 7332, 7342, 7343, 7346, 7357, 7358, 7362, 7366, 7378, 7380, 7390, 7391, 7392, 7400, 7418, 7423,
    7425, 7430, 7440, 7444, 7451, 7452, 7459, 7465, 7470, 7474, 7476, 7480, 7481, 7482, 7498, 7501, 7505,
    7511, 7512, 7520, 7521, 7522, 7523, 7541, 7551, 7561, 7565, 7571, 7573, 7579, 7582, 7583, 7620, 7622,
    7631, 7633, 7643, 7647, 7652, 7656, 7663, 7686, 7689, 7696, 7709, 7715, 7722, 7729, 7733, 7736, 7740,
    7743, 7746, 7749, 7756, 7764, 7767, 7770, 7781, 7793, 7795, 7798, 7804, 7808, 7812, 7819, 7835, 7843,
    7847, 7853, 7854, 7862, 7872, 7881, 7893, 7896, 7905, 7906, 7908, 7913, 7916, 7920, 7924, 7925, 7932,
    7936, 7940, 7944, 7968, 7978, 7990, 7994, 8001, 8009, 8010, 8014, 8018, 8028, 8031, 8033, 8045, 8053,
    8068, 8074, 8078, 8082, 8083, 8090, 8091, 8097, 8101, 8103, 8105, 8116, 8117, 8127, 8128, 8152, 8156,
    8162, 8177, 8178, 8179, 8207, 8215, 8218, 8234, 8235, 8242, 8256, 8264, 8269, 8283, 8288, 8293, 8296,
    8297, 8299, 8302, 8303, 8310, 8316, 8318, 8325, 8337, 8349, 8351, 8355, 8359, 8364, 8367, 8370, 8371,
    8375, 8380, 8392, 8393, 8402, 8403, 8408, 8409, 8415, 8423, 8431, 8432, 8434, 8438, 8448, 8451, 8453,
    8457, 8458, 8460, 8466, 8482, 8485, 8486, 8489, 8490, 8492, 8501, 8506, 8515, 8518, 8537, 8538, 8543,
    8544, 8562, 8564, 8565, 8570, 8584, 8588, 8612, 8613, 8621, 8627, 8628, 8636, 8645, 8655, 8658, 8660,
    8661, 8691, 8692, 8703, 8710, 8716, 8718, 8725, 8727, 8731, 8737, 8745, 8759, 8767, 8772, 8784, 8791,
    8796, 8798, 8799, 8805, 8806, 8825, 8827, 8831, 8856, 8860, 8861, 8863, 8864, 8868, 8876, 8880, 8883,
    8893, 8894, 8895, 8905, 8910, 8912, 8916, 8923, 8926, 8928, 8936, 8937, 8938, 8939, 8941, 8947, 8948,
    8958, 8959, 8964, 8965, 8968, 8976, 8995, 9002, 9003, 9006, 9014, 9024, 9047, 9053, 9056, 9070, 9071,
    9074, 9078, 9085, 9093, 9110, 9113, 9116, 9119, 9121, 9122, 9127, 9136, 9142, 9144, 9155, 9170, 9171,
    9178, 9181, 9188, 9190, 9193, 9203, 9232, 9241, 9258, 9263, 9281, 9287, 9288, 9297, 9301, 9303, 9310,
    9313, 9317, 9319, 9324, 9328, 9329, 9333, 9337, 9354, 9356, 9357, 9361, 9365, 9374, 9380, 9383, 9388,
    9392, 9402, 9403, 9404, 9413, 9418, 9434, 9435, 9441, 9443, 9459, 9467, 9469, 9470, 9472, 9473, 9484,
    9486, 9488, 9499, 9500, 9501, 9504, 9506, 9510, 9514, 9517, 9519, 9528, 9537, 9544, 9563, 9580, 9588,
    9590, 9592, 9595, 9612, 9613, 9619, 9622, 9633, 9641, 9645, 9649, 9653, 9654, 9657, 9658, 9662, 9665,
    9671, 9685, 9699, 9700, 9701, 9706, 9707, 9708, 9709, 9715, 9726, 9727, 9737, 9740, 9749, 9772, 9782,
    9785, 9795, 9797, 9799, 9805, 9809, 9814, 9825, 9829, 9835, 9845, 9849, 9850, 9851, 9858, 9861, 9868,
    9871, 9880, 9881, 9882, 9883, 9884, 9887, 9901, 9910, 9911, 9922, 9939, 9943, 9946, 9963, 9964, 9965,
    9972, 9975, 9979, 9980, 9986, 9990, 9991, 9993, 10001, 10015, 10023, 10026, 10031, 10043, 10044, 10050,
    10051, 10053, 10056, 10059, 10064, 10067, 10081, 10083, 10088, 10089, 10098, 10106, 10117, 10119, 10121,
    10131, 10133, 10135, 10137, 10139, 10144, 10151, 10152, 10154, 10157, 10182, 10185, 10188, 10205, 10214,
    10216, 10218, 10219, 10226, 10227, 10228, 10237, 10239, 10244, 10246, 10247, 10263, 10267, 10271, 10274,
    10275, 10277, 10278, 10280, 10284, 10287, 10288, 10299, 10334, 10342, 10351, 10357, 10363, 10364, 10374,
    10386, 10392, 10394, 10396, 10405, 10406, 10424, 10430, 10448, 10449, 10452, 10457, 10460, 10465, 10470,
    10473, 10479, 10480, 10486, 10494, 10495, 10501, 10515, 10516, 10543, 10551, 10564, 10566, 10571, 10577,
    10579, 10590, 10603, 10604, 10610, 10632, 10636, 10640, 10645, 10648, 10652, 10656, 10667, 10674, 10679,
    10681, 10684, 10686, 10692, 10693, 10700, 10713, 10717, 10719, 10720, 10737, 10747, 10758, 10769, 10778,
    10791, 10792, 10794, 10799, 10807, 10828, 10834, 10838, 10852, 10856, 10864, 10877, 10882, 10884, 10887,
    10893, 10898, 10902, 10910, 10919, 10931, 10932, 10940, 10949, 10957, 10958, 10959, 10960, 10979, 10983,
    10986, 10990, 11003, 11004, 11012, 11020, 11021, 11028, 11031, 11032, 11054, 11090, 11096, 11098, 11101,
    11103, 11105, 11115, 11123, 11128, 11135, 11146, 11147, 11157, 11161, 11167, 11168, 11172, 11173, 11175,
    11179, 11181, 11182, 11191, 11216, 11221, 11233, 11235, 11238, 11240, 11252, 11253, 11256, 11257, 11270,
    11273, 11293, 11296, 11297, 11299, 11302, 11305, 11313, 11322, 11327, 11332, 11349, 11350, 11354, 11359,
    11364, 11365, 11374, 11386, 11390, 11391, 11397, 11399, 11400, 11409, 11412, 11421, 11426, 11428, 11429,
    11431, 11435, 11450, 11459, 11461, 11464, 11469, 11471, 11476, 11482, 11483, 11486, 11487, 11493, 11496,
    11500, 11507, 11508, 11514, 11519, 11523, 11531, 11543, 11553, 11565, 11571, 11574, 11598, 11599, 11602,
    11605, 11608, 11615, 11622, 11640, 11643, 11645, 11647, 11658, 11661, 11681, 11686, 11688, 11691, 11693,
    11698, 11707, 11714, 11719, 11727, 11738, 11741, 11742, 11753, 11754, 11757, 11765, 11766, 11775, 11790,
    11795, 11802, 11804, 11810, 11814, 11820, 11845, 11846, 11856, 11866, 11870, 11892, 11893, 11902, 11908,
    11913, 11915, 11917, 11919, 11920, 11923, 11933, 11937, 11945, 11957, 11958, 11959, 11960, 11961, 11970,
    11976, 11979, 11981, 11984, 11988, 12002, 12003, 12013, 12014, 12018, 12020, 12026, 12059, 12060, 12061,
    12062, 12075, 12088, 12092, 12095, 12099, 12141, 12148, 12157, 12160, 12162, 12165, 12166, 12167, 12179,
    12197, 12213, 12222, 12242, 12245, 12246, 12248]

end Roots
