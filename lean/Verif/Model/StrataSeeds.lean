import Mathlib.Data.Nat.Notation

/-!
# The seeds of the difficulty strata

Data of `balloon_learning_environment/eval/strata_seeds.py`, copied verbatim (each list in twenty pieces).
-/

namespace BLE

/-- `strata_seeds.py:23-187`, seeds 0 to 99. -/
def strataHardest0 : List ℕ :=
  [0, 3, 4, 6, 7, 10, 11, 12, 13, 14, 17, 19, 20, 21, 22, 25, 28, 30, 31, 32, 33, 35, 36, 38, 39, 40, 44, 49, 50,
   52, 60, 61, 62, 63, 65, 66, 68, 70, 71, 72, 74, 75, 78, 79, 80, 82, 83, 86, 92, 104, 108, 109, 111, 113, 125,
   126, 127, 133, 134, 136, 140, 142, 143, 144, 145, 147, 149, 153, 155, 164, 171, 172, 176, 181, 185, 191, 193,
   195, 198, 203, 207, 209, 212, 213, 215, 217, 219, 223, 225, 226, 228, 232, 241, 242, 244, 245, 248, 266, 268,
   272]

/-- `strata_seeds.py:23-187`, seeds 100 to 199. -/
def strataHardest1 : List ℕ :=
  [281, 282, 284, 286, 293, 295, 297, 302, 303, 312, 316, 319, 321, 323, 324, 334, 339, 340, 347, 354, 356, 364,
   370, 373, 375, 381, 394, 396, 399, 400, 401, 403, 404, 406, 410, 417, 419, 425, 426, 430, 435, 438, 442, 443,
   445, 448, 450, 452, 454, 458, 460, 461, 462, 463, 469, 478, 481, 483, 485, 486, 489, 503, 506, 511, 513, 518,
   520, 523, 524, 525, 532, 535, 536, 541, 542, 545, 552, 556, 563, 566, 571, 572, 581, 585, 587, 588, 589, 591,
   596, 599, 602, 608, 609, 626, 628, 631, 633, 635, 636, 638]

/-- `strata_seeds.py:23-187`, seeds 200 to 299. -/
def strataHardest2 : List ℕ :=
  [641, 648, 652, 654, 664, 668, 670, 672, 674, 675, 682, 685, 686, 689, 690, 691, 692, 700, 701, 703, 708, 711,
   718, 719, 720, 721, 729, 730, 731, 741, 743, 746, 749, 750, 756, 758, 759, 760, 762, 763, 769, 770, 773, 774,
   778, 786, 789, 794, 795, 802, 803, 806, 807, 808, 817, 818, 822, 831, 835, 836, 841, 847, 850, 851, 857, 859,
   868, 869, 871, 889, 896, 900, 903, 904, 912, 917, 920, 921, 923, 930, 931, 934, 938, 940, 942, 943, 945, 946,
   947, 957, 958, 959, 972, 974, 977, 981, 984, 988, 990, 991]

/-- `strata_seeds.py:23-187`, seeds 300 to 399. -/
def strataHardest3 : List ℕ :=
  [993, 994, 997, 998, 1000, 1003, 1005, 1007, 1009, 1011, 1012, 1016, 1036, 1037, 1044, 1051, 1058, 1062, 1069,
   1071, 1075, 1088, 1092, 1096, 1097, 1098, 1099, 1110, 1114, 1115, 1119, 1120, 1122, 1125, 1135, 1141, 1148, 1150,
   1153, 1154, 1155, 1157, 1159, 1162, 1163, 1166, 1168, 1173, 1175, 1177, 1182, 1184, 1185, 1188, 1190, 1200, 1204,
   1206, 1208, 1210, 1216, 1217, 1222, 1223, 1226, 1230, 1232, 1234, 1238, 1240, 1247, 1248, 1251, 1257, 1266, 1270,
   1271, 1276, 1277, 1280, 1286, 1295, 1296, 1298, 1300, 1308, 1309, 1311, 1314, 1315, 1323, 1324, 1325, 1326, 1327,
   1333, 1340, 1342, 1345, 1349]

/-- `strata_seeds.py:23-187`, seeds 400 to 499. -/
def strataHardest4 : List ℕ :=
  [1352, 1356, 1363, 1366, 1372, 1374, 1379, 1381, 1386, 1393, 1394, 1395, 1405, 1408, 1409, 1414, 1417, 1426, 1430,
   1433, 1434, 1438, 1440, 1444, 1447, 1449, 1450, 1454, 1456, 1458, 1466, 1474, 1475, 1478, 1482, 1483, 1486, 1487,
   1492, 1494, 1496, 1499, 1505, 1507, 1509, 1512, 1521, 1534, 1539, 1542, 1544, 1546, 1547, 1548, 1550, 1554, 1556,
   1559, 1560, 1561, 1564, 1575, 1579, 1581, 1583, 1585, 1586, 1588, 1590, 1591, 1593, 1594, 1595, 1600, 1606, 1628,
   1635, 1640, 1645, 1649, 1657, 1660, 1661, 1668, 1677, 1678, 1688, 1690, 1696, 1697, 1699, 1706, 1708, 1710, 1723,
   1726, 1727, 1732, 1736, 1737]

/-- `strata_seeds.py:23-187`, seeds 500 to 599. -/
def strataHardest5 : List ℕ :=
  [1739, 1740, 1743, 1745, 1746, 1755, 1759, 1764, 1773, 1780, 1798, 1799, 1800, 1804, 1807, 1829, 1831, 1836, 1838,
   1840, 1841, 1847, 1856, 1861, 1863, 1864, 1865, 1867, 1869, 1872, 1874, 1884, 1885, 1888, 1889, 1892, 1893, 1894,
   1895, 1901, 1902, 1909, 1914, 1916, 1917, 1918, 1920, 1924, 1925, 1936, 1950, 1951, 1954, 1955, 1956, 1961, 1962,
   1963, 1965, 1966, 1969, 1974, 1975, 1977, 1979, 1985, 1993, 1996, 1999, 2000, 2002, 2004, 2007, 2015, 2017, 2018,
   2019, 2020, 2024, 2026, 2030, 2031, 2034, 2036, 2037, 2039, 2044, 2049, 2050, 2053, 2054, 2059, 2062, 2063, 2066,
   2067, 2069, 2078, 2083, 2088]

/-- `strata_seeds.py:23-187`, seeds 600 to 699. -/
def strataHardest6 : List ℕ :=
  [2091, 2092, 2094, 2099, 2103, 2106, 2115, 2122, 2123, 2124, 2130, 2131, 2133, 2134, 2135, 2140, 2147, 2150, 2157,
   2160, 2162, 2168, 2192, 2195, 2197, 2209, 2214, 2215, 2219, 2225, 2226, 2231, 2235, 2237, 2238, 2240, 2242, 2245,
   2246, 2247, 2249, 2252, 2253, 2256, 2258, 2263, 2266, 2276, 2277, 2281, 2285, 2289, 2295, 2296, 2298, 2300, 2308,
   2309, 2312, 2315, 2319, 2325, 2327, 2328, 2329, 2334, 2338, 2341, 2342, 2346, 2347, 2348, 2352, 2353, 2357, 2359,
   2360, 2361, 2362, 2369, 2372, 2377, 2382, 2384, 2387, 2388, 2390, 2392, 2396, 2400, 2402, 2404, 2406, 2407, 2416,
   2419, 2420, 2424, 2427, 2428]

/-- `strata_seeds.py:23-187`, seeds 700 to 799. -/
def strataHardest7 : List ℕ :=
  [2433, 2436, 2439, 2450, 2453, 2456, 2461, 2462, 2464, 2465, 2471, 2473, 2481, 2485, 2488, 2490, 2499, 2501, 2502,
   2504, 2507, 2511, 2517, 2519, 2521, 2527, 2531, 2540, 2548, 2551, 2552, 2553, 2555, 2560, 2561, 2566, 2569, 2570,
   2572, 2573, 2577, 2585, 2591, 2598, 2601, 2604, 2608, 2609, 2611, 2614, 2617, 2618, 2619, 2620, 2625, 2626, 2628,
   2630, 2631, 2633, 2636, 2639, 2642, 2643, 2648, 2649, 2650, 2651, 2658, 2659, 2665, 2666, 2671, 2675, 2685, 2688,
   2694, 2698, 2701, 2702, 2705, 2708, 2712, 2723, 2733, 2734, 2737, 2740, 2741, 2742, 2745, 2748, 2756, 2757, 2758,
   2760, 2763, 2767, 2769, 2773]

/-- `strata_seeds.py:23-187`, seeds 800 to 899. -/
def strataHardest8 : List ℕ :=
  [2775, 2776, 2777, 2779, 2783, 2785, 2787, 2788, 2790, 2802, 2807, 2808, 2813, 2814, 2822, 2823, 2828, 2832, 2840,
   2847, 2849, 2851, 2853, 2861, 2865, 2866, 2868, 2869, 2873, 2879, 2882, 2887, 2888, 2899, 2901, 2903, 2907, 2909,
   2920, 2922, 2923, 2927, 2928, 2929, 2930, 2945, 2949, 2950, 2953, 2954, 2958, 2960, 2961, 2969, 2976, 2983, 2991,
   2995, 2997, 3001, 3003, 3007, 3009, 3010, 3014, 3015, 3029, 3030, 3036, 3037, 3038, 3051, 3056, 3057, 3058, 3059,
   3060, 3068, 3069, 3073, 3075, 3082, 3087, 3088, 3090, 3093, 3098, 3099, 3109, 3110, 3111, 3115, 3117, 3127, 3133,
   3134, 3135, 3146, 3151, 3166]

/-- `strata_seeds.py:23-187`, seeds 900 to 999. -/
def strataHardest9 : List ℕ :=
  [3167, 3172, 3173, 3174, 3177, 3182, 3195, 3198, 3207, 3208, 3209, 3212, 3215, 3217, 3221, 3222, 3225, 3229, 3231,
   3234, 3236, 3239, 3243, 3246, 3248, 3251, 3253, 3266, 3271, 3276, 3277, 3281, 3284, 3286, 3291, 3292, 3295, 3301,
   3302, 3306, 3307, 3311, 3317, 3320, 3321, 3326, 3332, 3333, 3346, 3347, 3348, 3365, 3368, 3372, 3373, 3383, 3384,
   3386, 3396, 3397, 3401, 3403, 3405, 3406, 3407, 3416, 3418, 3425, 3432, 3433, 3434, 3440, 3445, 3447, 3450, 3453,
   3455, 3464, 3466, 3471, 3476, 3483, 3488, 3496, 3497, 3499, 3500, 3503, 3514, 3518, 3520, 3524, 3527, 3531, 3544,
   3546, 3550, 3557, 3558, 3568]

/-- `strata_seeds.py:23-187`, seeds 1000 to 1099. -/
def strataHardest10 : List ℕ :=
  [3573, 3574, 3576, 3577, 3590, 3591, 3596, 3599, 3600, 3601, 3603, 3613, 3614, 3619, 3620, 3623, 3628, 3632, 3645,
   3649, 3651, 3657, 3660, 3662, 3668, 3669, 3671, 3679, 3681, 3684, 3687, 3700, 3701, 3702, 3706, 3707, 3711, 3716,
   3721, 3722, 3726, 3735, 3741, 3746, 3748, 3752, 3755, 3757, 3758, 3761, 3768, 3771, 3772, 3774, 3786, 3787, 3793,
   3796, 3797, 3798, 3800, 3801, 3807, 3808, 3812, 3815, 3816, 3817, 3818, 3820, 3822, 3825, 3830, 3833, 3834, 3843,
   3844, 3855, 3858, 3868, 3876, 3877, 3882, 3886, 3888, 3891, 3897, 3902, 3909, 3916, 3917, 3919, 3922, 3924, 3929,
   3933, 3940, 3944, 3946, 3948]

/-- `strata_seeds.py:23-187`, seeds 1100 to 1199. -/
def strataHardest11 : List ℕ :=
  [3951, 3955, 3956, 3958, 3960, 3962, 3969, 3974, 3983, 3987, 3988, 3993, 3996, 4000, 4002, 4003, 4005, 4011, 4015,
   4016, 4019, 4020, 4027, 4029, 4030, 4035, 4036, 4038, 4040, 4048, 4049, 4051, 4052, 4053, 4066, 4072, 4074, 4078,
   4081, 4083, 4087, 4090, 4101, 4102, 4110, 4114, 4117, 4122, 4124, 4127, 4140, 4150, 4152, 4155, 4156, 4158, 4160,
   4163, 4164, 4166, 4167, 4168, 4169, 4170, 4175, 4176, 4181, 4182, 4183, 4186, 4191, 4195, 4196, 4200, 4202, 4207,
   4210, 4211, 4212, 4213, 4214, 4217, 4221, 4222, 4232, 4234, 4237, 4241, 4242, 4247, 4255, 4257, 4265, 4266, 4271,
   4273, 4275, 4276, 4279, 4285]

/-- `strata_seeds.py:23-187`, seeds 1200 to 1299. -/
def strataHardest12 : List ℕ :=
  [4290, 4291, 4293, 4301, 4302, 4303, 4309, 4311, 4312, 4314, 4318, 4319, 4322, 4333, 4335, 4336, 4337, 4338, 4342,
   4345, 4348, 4356, 4360, 4361, 4363, 4364, 4369, 4370, 4374, 4376, 4377, 4378, 4381, 4388, 4390, 4395, 4399, 4400,
   4404, 4405, 4408, 4410, 4411, 4413, 4422, 4425, 4428, 4430, 4432, 4440, 4453, 4456, 4459, 4465, 4469, 4470, 4476,
   4482, 4487, 4494, 4495, 4500, 4502, 4507, 4516, 4519, 4524, 4526, 4528, 4531, 4541, 4543, 4545, 4546, 4548, 4552,
   4553, 4557, 4560, 4561, 4565, 4566, 4567, 4573, 4581, 4582, 4587, 4592, 4600, 4604, 4617, 4619, 4623, 4624, 4625,
   4627, 4628, 4631, 4632, 4636]

/-- `strata_seeds.py:23-187`, seeds 1300 to 1399. -/
def strataHardest13 : List ℕ :=
  [4644, 4645, 4648, 4653, 4660, 4664, 4665, 4668, 4670, 4674, 4678, 4681, 4683, 4687, 4688, 4690, 4691, 4700, 4706,
   4716, 4732, 4734, 4740, 4741, 4742, 4744, 4745, 4747, 4748, 4756, 4757, 4760, 4761, 4766, 4771, 4773, 4774, 4781,
   4782, 4783, 4787, 4789, 4790, 4791, 4794, 4800, 4806, 4810, 4814, 4815, 4819, 4821, 4825, 4828, 4830, 4831, 4833,
   4835, 4837, 4838, 4839, 4840, 4845, 4846, 4852, 4854, 4857, 4861, 4863, 4865, 4870, 4872, 4874, 4891, 4892, 4896,
   4899, 4900, 4902, 4904, 4905, 4920, 4924, 4925, 4926, 4929, 4930, 4936, 4944, 4945, 4954, 4957, 4960, 4963, 4972,
   4976, 4978, 4983, 4986, 4990]

/-- `strata_seeds.py:23-187`, seeds 1400 to 1499. -/
def strataHardest14 : List ℕ :=
  [5001, 5004, 5005, 5016, 5021, 5022, 5023, 5024, 5025, 5028, 5029, 5034, 5038, 5041, 5049, 5050, 5053, 5059, 5061,
   5063, 5065, 5068, 5074, 5077, 5084, 5092, 5095, 5097, 5099, 5104, 5105, 5106, 5109, 5114, 5118, 5120, 5122, 5123,
   5129, 5130, 5132, 5133, 5139, 5145, 5147, 5150, 5155, 5156, 5157, 5159, 5160, 5163, 5168, 5172, 5177, 5178, 5180,
   5184, 5188, 5193, 5194, 5198, 5202, 5215, 5217, 5222, 5224, 5229, 5234, 5246, 5247, 5254, 5255, 5256, 5259, 5264,
   5267, 5268, 5269, 5272, 5274, 5276, 5279, 5283, 5284, 5285, 5286, 5287, 5288, 5289, 5290, 5298, 5316, 5317, 5322,
   5325, 5326, 5327, 5328, 5337]

/-- `strata_seeds.py:23-187`, seeds 1500 to 1599. -/
def strataHardest15 : List ℕ :=
  [5338, 5342, 5345, 5346, 5350, 5351, 5352, 5361, 5364, 5367, 5371, 5376, 5379, 5383, 5386, 5394, 5395, 5396, 5398,
   5402, 5408, 5411, 5418, 5422, 5427, 5431, 5447, 5450, 5451, 5452, 5453, 5454, 5455, 5456, 5462, 5467, 5473, 5476,
   5479, 5480, 5489, 5493, 5496, 5507, 5510, 5512, 5516, 5518, 5522, 5523, 5532, 5543, 5556, 5557, 5562, 5564, 5565,
   5568, 5571, 5577, 5579, 5580, 5584, 5589, 5593, 5595, 5597, 5598, 5601, 5607, 5610, 5620, 5635, 5639, 5641, 5642,
   5644, 5646, 5647, 5649, 5651, 5654, 5660, 5666, 5677, 5680, 5682, 5684, 5685, 5686, 5692, 5694, 5695, 5696, 5699,
   5701, 5709, 5719, 5723, 5724]

/-- `strata_seeds.py:23-187`, seeds 1600 to 1699. -/
def strataHardest16 : List ℕ :=
  [5728, 5733, 5738, 5739, 5741, 5744, 5749, 5753, 5755, 5762, 5763, 5768, 5771, 5772, 5774, 5777, 5778, 5783, 5785,
   5788, 5789, 5791, 5792, 5801, 5803, 5804, 5809, 5811, 5822, 5828, 5829, 5835, 5836, 5840, 5841, 5842, 5849, 5850,
   5852, 5854, 5855, 5861, 5873, 5879, 5880, 5882, 5895, 5897, 5898, 5900, 5905, 5914, 5917, 5920, 5922, 5926, 5928,
   5929, 5930, 5931, 5936, 5938, 5944, 5947, 5949, 5951, 5953, 5954, 5961, 5963, 5974, 5975, 5982, 5983, 5984, 5986,
   5991, 5992, 5998, 5999, 6015, 6017, 6019, 6020, 6024, 6031, 6056, 6066, 6079, 6080, 6088, 6091, 6098, 6099, 6102,
   6104, 6112, 6113, 6122, 6126]

/-- `strata_seeds.py:23-187`, seeds 1700 to 1799. -/
def strataHardest17 : List ℕ :=
  [6128, 6130, 6132, 6137, 6138, 6141, 6144, 6147, 6159, 6160, 6161, 6167, 6169, 6171, 6174, 6175, 6177, 6181, 6188,
   6190, 6191, 6202, 6205, 6213, 6219, 6226, 6229, 6234, 6236, 6238, 6244, 6257, 6258, 6259, 6260, 6261, 6264, 6269,
   6274, 6279, 6280, 6282, 6285, 6295, 6301, 6306, 6307, 6320, 6325, 6327, 6331, 6338, 6339, 6349, 6357, 6359, 6362,
   6363, 6368, 6374, 6383, 6397, 6398, 6400, 6404, 6405, 6406, 6409, 6420, 6422, 6428, 6436, 6439, 6441, 6444, 6446,
   6447, 6448, 6453, 6472, 6475, 6481, 6482, 6486, 6520, 6524, 6527, 6529, 6538, 6542, 6549, 6553, 6563, 6566, 6573,
   6575, 6578, 6579, 6589, 6594]

/-- `strata_seeds.py:23-187`, seeds 1800 to 1899. -/
def strataHardest18 : List ℕ :=
  [6596, 6644, 6648, 6649, 6676, 6679, 6680, 6692, 6695, 6711, 6715, 6736, 6739, 6746, 6748, 6760, 6766, 6769, 6771,
   6785, 6787, 6789, 6799, 6809, 6824, 6837, 6856, 6858, 6861, 6863, 6864, 6866, 6871, 6879, 6883, 6888, 6889, 6891,
   6894, 6895, 6929, 6932, 6934, 6935, 6940, 6941, 6957, 6964, 6968, 6989, 6994, 7010, 7014, 7023, 7029, 7030, 7033,
   7054, 7055, 7056, 7062, 7063, 7065, 7068, 7076, 7087, 7091, 7095, 7097, 7098, 7108, 7112, 7126, 7127, 7130, 7136,
   7142, 7144, 7147, 7148, 7151, 7160, 7162, 7164, 7168, 7172, 7174, 7202, 7203, 7204, 7223, 7261, 7271, 7272, 7273,
   7275, 7278, 7287, 7289, 7293]

/-- `strata_seeds.py:23-187`, seeds 1900 to 1999. -/
def strataHardest19 : List ℕ :=
  [7306, 7320, 7321, 7339, 7342, 7343, 7346, 7367, 7369, 7397, 7436, 7445, 7457, 7458, 7464, 7468, 7472, 7475, 7483,
   7495, 7497, 7515, 7516, 7524, 7529, 7542, 7546, 7551, 7561, 7576, 7579, 7589, 7592, 7593, 7596, 7599, 7609, 7627,
   7628, 7701, 7722, 7732, 7785, 7800, 7838, 7850, 7870, 7876, 7882, 7886, 7889, 7899, 7923, 7927, 7947, 7951, 7977,
   8014, 8019, 8027, 8031, 8039, 8058, 8098, 8106, 8214, 8216, 8238, 8244, 8314, 8323, 8373, 8382, 8388, 8396, 8411,
   8413, 8421, 8426, 8429, 8439, 8478, 8481, 8547, 8598, 8625, 8654, 8659, 8662, 8663, 8668, 8702, 8728, 8762, 8784,
   8818, 8823, 8828, 8832, 8883]

/-- `strata_seeds.py:23-187` — `STRATA_SEEDS['hardest']`. -/
def strataHardest : List ℕ :=
  strataHardest0 ++ strataHardest1 ++ strataHardest2 ++ strataHardest3 ++ strataHardest4 ++ strataHardest5 ++
  strataHardest6 ++ strataHardest7 ++ strataHardest8 ++ strataHardest9 ++ strataHardest10 ++ strataHardest11 ++
  strataHardest12 ++ strataHardest13 ++ strataHardest14 ++ strataHardest15 ++ strataHardest16 ++ strataHardest17 ++
  strataHardest18 ++ strataHardest19

/-- `strata_seeds.py:188-358`, seeds 0 to 99. -/
def strataHard0 : List ℕ :=
  [1, 41, 42, 43, 45, 46, 47, 54, 55, 56, 58, 59, 69, 84, 88, 96, 97, 99, 107, 115, 120, 130, 131, 137, 141, 146,
   150, 156, 161, 170, 173, 183, 188, 190, 200, 210, 218, 221, 224, 236, 237, 258, 259, 260, 269, 270, 274, 275,
   279, 280, 299, 315, 317, 326, 327, 328, 333, 342, 345, 348, 355, 366, 368, 369, 376, 382, 397, 407, 411, 413,
   415, 423, 427, 429, 432, 433, 434, 436, 457, 459, 465, 467, 471, 482, 492, 510, 512, 517, 526, 528, 533, 534,
   537, 540, 547, 548, 550, 557, 558, 565]

/-- `strata_seeds.py:188-358`, seeds 100 to 199. -/
def strataHard1 : List ℕ :=
  [567, 570, 583, 601, 606, 611, 616, 618, 620, 640, 651, 660, 661, 663, 673, 679, 683, 684, 688, 695, 712, 717,
   724, 736, 737, 745, 752, 764, 765, 768, 782, 783, 797, 810, 823, 824, 825, 829, 834, 837, 842, 848, 855, 863,
   865, 870, 885, 892, 894, 897, 898, 905, 906, 911, 919, 925, 929, 939, 950, 956, 963, 971, 978, 983, 992, 1002,
   1014, 1015, 1020, 1023, 1031, 1038, 1040, 1041, 1043, 1048, 1049, 1064, 1065, 1079, 1081, 1084, 1085, 1090, 1105,
   1109, 1112, 1113, 1124, 1127, 1128, 1129, 1130, 1134, 1136, 1137, 1139, 1145, 1146, 1149]

/-- `strata_seeds.py:188-358`, seeds 200 to 299. -/
def strataHard2 : List ℕ :=
  [1156, 1164, 1169, 1186, 1191, 1193, 1196, 1203, 1209, 1212, 1219, 1221, 1225, 1229, 1236, 1239, 1264, 1275, 1282,
   1284, 1291, 1310, 1321, 1328, 1329, 1330, 1331, 1335, 1336, 1339, 1354, 1359, 1360, 1377, 1382, 1384, 1396, 1398,
   1400, 1425, 1428, 1431, 1443, 1448, 1462, 1464, 1477, 1488, 1491, 1495, 1497, 1508, 1517, 1518, 1520, 1526, 1530,
   1538, 1540, 1545, 1549, 1551, 1553, 1558, 1562, 1563, 1566, 1567, 1570, 1573, 1584, 1598, 1607, 1609, 1614, 1618,
   1621, 1622, 1625, 1630, 1638, 1651, 1654, 1662, 1663, 1670, 1671, 1676, 1682, 1684, 1686, 1694, 1695, 1702, 1704,
   1709, 1717, 1720, 1725, 1731]

/-- `strata_seeds.py:188-358`, seeds 300 to 399. -/
def strataHard3 : List ℕ :=
  [1733, 1744, 1752, 1753, 1760, 1762, 1767, 1769, 1779, 1783, 1784, 1793, 1811, 1812, 1813, 1815, 1816, 1821, 1822,
   1823, 1830, 1832, 1833, 1843, 1844, 1854, 1855, 1868, 1875, 1876, 1890, 1891, 1905, 1907, 1915, 1919, 1921, 1922,
   1949, 1953, 1957, 1970, 1972, 1978, 1980, 1984, 1994, 1995, 2008, 2009, 2014, 2016, 2023, 2057, 2071, 2073, 2081,
   2101, 2104, 2107, 2112, 2117, 2121, 2138, 2143, 2161, 2164, 2166, 2167, 2171, 2173, 2175, 2176, 2184, 2186, 2190,
   2191, 2199, 2202, 2204, 2205, 2211, 2212, 2213, 2216, 2220, 2222, 2228, 2232, 2233, 2234, 2243, 2248, 2260, 2261,
   2267, 2271, 2280, 2284, 2287]

/-- `strata_seeds.py:188-358`, seeds 400 to 499. -/
def strataHard4 : List ℕ :=
  [2290, 2292, 2293, 2294, 2307, 2332, 2333, 2343, 2344, 2356, 2364, 2367, 2370, 2371, 2385, 2394, 2395, 2408, 2411,
   2423, 2425, 2426, 2429, 2430, 2431, 2437, 2445, 2447, 2448, 2449, 2451, 2466, 2468, 2477, 2478, 2483, 2487, 2496,
   2505, 2516, 2522, 2524, 2525, 2530, 2533, 2545, 2547, 2550, 2554, 2557, 2562, 2578, 2589, 2592, 2596, 2599, 2602,
   2612, 2621, 2624, 2627, 2632, 2634, 2653, 2657, 2663, 2664, 2669, 2678, 2686, 2687, 2689, 2691, 2695, 2696, 2697,
   2699, 2703, 2704, 2706, 2715, 2720, 2725, 2727, 2728, 2743, 2749, 2750, 2751, 2754, 2755, 2759, 2761, 2762, 2771,
   2780, 2782, 2784, 2793, 2796]

/-- `strata_seeds.py:188-358`, seeds 500 to 599. -/
def strataHard5 : List ℕ :=
  [2799, 2801, 2806, 2809, 2811, 2812, 2820, 2826, 2829, 2833, 2835, 2843, 2845, 2846, 2848, 2857, 2863, 2883, 2889,
   2896, 2904, 2906, 2908, 2910, 2911, 2912, 2918, 2919, 2926, 2933, 2936, 2943, 2951, 2955, 2963, 2968, 2977, 2982,
   2989, 2993, 2996, 2999, 3000, 3008, 3013, 3034, 3039, 3040, 3047, 3054, 3063, 3065, 3067, 3070, 3078, 3079, 3084,
   3085, 3091, 3094, 3097, 3101, 3103, 3106, 3108, 3112, 3119, 3136, 3137, 3139, 3143, 3149, 3150, 3152, 3159, 3163,
   3170, 3183, 3187, 3189, 3190, 3196, 3202, 3216, 3232, 3240, 3254, 3260, 3269, 3272, 3280, 3290, 3300, 3303, 3305,
   3308, 3312, 3322, 3323, 3328]

/-- `strata_seeds.py:188-358`, seeds 600 to 699. -/
def strataHard6 : List ℕ :=
  [3330, 3331, 3334, 3349, 3350, 3351, 3354, 3356, 3358, 3363, 3371, 3376, 3378, 3379, 3380, 3382, 3385, 3390, 3393,
   3395, 3399, 3404, 3412, 3417, 3422, 3427, 3428, 3439, 3451, 3470, 3472, 3482, 3486, 3492, 3504, 3507, 3515, 3517,
   3525, 3530, 3536, 3539, 3541, 3545, 3552, 3554, 3556, 3560, 3565, 3566, 3570, 3575, 3581, 3595, 3604, 3608, 3612,
   3616, 3622, 3634, 3636, 3638, 3639, 3652, 3654, 3664, 3670, 3673, 3677, 3691, 3696, 3698, 3703, 3704, 3709, 3714,
   3715, 3717, 3720, 3723, 3730, 3732, 3738, 3742, 3751, 3754, 3759, 3775, 3779, 3785, 3790, 3792, 3799, 3810, 3824,
   3826, 3829, 3848, 3853, 3864]

/-- `strata_seeds.py:188-358`, seeds 700 to 799. -/
def strataHard7 : List ℕ :=
  [3869, 3872, 3875, 3879, 3903, 3914, 3915, 3918, 3928, 3931, 3939, 3967, 3971, 3978, 3989, 4001, 4006, 4013, 4017,
   4033, 4041, 4054, 4059, 4060, 4061, 4064, 4068, 4073, 4079, 4091, 4099, 4107, 4111, 4115, 4128, 4129, 4130, 4136,
   4137, 4139, 4154, 4157, 4159, 4162, 4165, 4185, 4188, 4194, 4201, 4215, 4219, 4220, 4227, 4238, 4243, 4245, 4248,
   4252, 4254, 4256, 4262, 4274, 4278, 4298, 4308, 4320, 4321, 4323, 4330, 4340, 4343, 4349, 4350, 4365, 4373, 4385,
   4386, 4392, 4393, 4398, 4409, 4412, 4416, 4417, 4418, 4419, 4426, 4427, 4431, 4434, 4436, 4437, 4442, 4444, 4447,
   4450, 4454, 4457, 4462, 4479]

/-- `strata_seeds.py:188-358`, seeds 800 to 899. -/
def strataHard8 : List ℕ :=
  [4490, 4493, 4499, 4503, 4513, 4518, 4520, 4523, 4529, 4530, 4533, 4536, 4539, 4551, 4558, 4564, 4568, 4572, 4578,
   4584, 4586, 4588, 4597, 4605, 4609, 4612, 4615, 4618, 4622, 4626, 4629, 4630, 4633, 4635, 4637, 4638, 4643, 4650,
   4655, 4656, 4657, 4658, 4659, 4663, 4672, 4676, 4679, 4680, 4686, 4692, 4694, 4695, 4696, 4703, 4715, 4719, 4720,
   4721, 4729, 4730, 4733, 4735, 4743, 4750, 4763, 4764, 4765, 4767, 4776, 4778, 4780, 4786, 4792, 4795, 4801, 4802,
   4805, 4808, 4812, 4813, 4824, 4829, 4834, 4842, 4847, 4856, 4859, 4860, 4866, 4867, 4871, 4875, 4878, 4880, 4885,
   4886, 4894, 4895, 4897, 4910]

/-- `strata_seeds.py:188-358`, seeds 900 to 999. -/
def strataHard9 : List ℕ :=
  [4913, 4922, 4931, 4932, 4933, 4934, 4937, 4941, 4947, 4952, 4956, 4965, 4966, 4975, 4977, 4980, 4985, 4988, 4992,
   4997, 4999, 5000, 5010, 5017, 5019, 5030, 5031, 5039, 5044, 5047, 5058, 5062, 5067, 5078, 5082, 5100, 5111, 5124,
   5126, 5135, 5140, 5162, 5182, 5185, 5186, 5190, 5192, 5196, 5207, 5211, 5216, 5219, 5232, 5245, 5248, 5249, 5252,
   5253, 5258, 5261, 5273, 5275, 5302, 5314, 5319, 5320, 5339, 5349, 5353, 5356, 5360, 5368, 5370, 5374, 5375, 5377,
   5378, 5380, 5385, 5387, 5391, 5393, 5409, 5413, 5420, 5421, 5426, 5430, 5432, 5436, 5438, 5445, 5465, 5470, 5477,
   5483, 5484, 5485, 5495, 5509]

/-- `strata_seeds.py:188-358`, seeds 1000 to 1099. -/
def strataHard10 : List ℕ :=
  [5513, 5517, 5527, 5528, 5539, 5551, 5572, 5581, 5587, 5588, 5592, 5594, 5600, 5602, 5604, 5608, 5611, 5614, 5618,
   5623, 5626, 5632, 5636, 5638, 5640, 5643, 5650, 5657, 5659, 5662, 5664, 5671, 5673, 5675, 5678, 5687, 5691, 5697,
   5703, 5705, 5707, 5712, 5725, 5730, 5734, 5770, 5776, 5780, 5793, 5795, 5799, 5800, 5806, 5807, 5808, 5812, 5815,
   5816, 5818, 5823, 5833, 5839, 5844, 5847, 5853, 5857, 5858, 5860, 5862, 5864, 5868, 5869, 5871, 5872, 5877, 5878,
   5881, 5889, 5899, 5904, 5907, 5915, 5925, 5927, 5932, 5933, 5942, 5956, 5962, 5964, 5967, 5973, 5979, 5995, 6004,
   6014, 6025, 6027, 6029, 6045]

/-- `strata_seeds.py:188-358`, seeds 1100 to 1199. -/
def strataHard11 : List ℕ :=
  [6050, 6051, 6060, 6062, 6063, 6067, 6068, 6070, 6077, 6081, 6082, 6083, 6086, 6100, 6110, 6117, 6118, 6123, 6124,
   6125, 6127, 6136, 6139, 6140, 6143, 6148, 6149, 6155, 6165, 6170, 6172, 6197, 6204, 6230, 6249, 6250, 6254, 6270,
   6273, 6278, 6281, 6288, 6290, 6299, 6302, 6308, 6310, 6313, 6314, 6321, 6326, 6330, 6335, 6336, 6342, 6344, 6353,
   6358, 6366, 6372, 6377, 6380, 6391, 6394, 6401, 6403, 6408, 6414, 6416, 6418, 6425, 6431, 6435, 6438, 6442, 6466,
   6468, 6470, 6477, 6480, 6488, 6492, 6494, 6497, 6506, 6509, 6512, 6513, 6525, 6539, 6551, 6552, 6554, 6560, 6568,
   6577, 6592, 6597, 6603, 6605]

/-- `strata_seeds.py:188-358`, seeds 1200 to 1299. -/
def strataHard12 : List ℕ :=
  [6606, 6612, 6618, 6620, 6622, 6623, 6624, 6627, 6637, 6638, 6639, 6642, 6652, 6655, 6660, 6667, 6671, 6689, 6702,
   6703, 6709, 6714, 6716, 6719, 6720, 6723, 6733, 6738, 6754, 6756, 6759, 6763, 6768, 6780, 6781, 6792, 6794, 6795,
   6821, 6822, 6823, 6825, 6828, 6835, 6840, 6841, 6845, 6846, 6850, 6854, 6862, 6867, 6870, 6874, 6878, 6881, 6882,
   6886, 6908, 6910, 6914, 6930, 6942, 6969, 6971, 6973, 6979, 6982, 6991, 6993, 6997, 7000, 7004, 7012, 7021, 7022,
   7041, 7045, 7046, 7050, 7060, 7069, 7074, 7090, 7105, 7109, 7111, 7115, 7121, 7125, 7128, 7150, 7155, 7161, 7170,
   7176, 7177, 7180, 7189, 7201]

/-- `strata_seeds.py:188-358`, seeds 1300 to 1399. -/
def strataHard13 : List ℕ :=
  [7211, 7213, 7218, 7220, 7227, 7229, 7230, 7246, 7259, 7281, 7284, 7286, 7295, 7297, 7302, 7314, 7316, 7318, 7323,
   7325, 7326, 7328, 7333, 7349, 7351, 7353, 7354, 7359, 7360, 7371, 7374, 7377, 7380, 7384, 7394, 7401, 7407, 7417,
   7425, 7426, 7437, 7440, 7449, 7459, 7460, 7461, 7462, 7476, 7477, 7485, 7486, 7488, 7490, 7494, 7505, 7507, 7511,
   7514, 7520, 7536, 7537, 7554, 7559, 7560, 7577, 7578, 7582, 7584, 7594, 7595, 7597, 7600, 7610, 7620, 7621, 7622,
   7630, 7635, 7637, 7638, 7657, 7658, 7661, 7665, 7670, 7688, 7692, 7698, 7704, 7707, 7712, 7720, 7724, 7728, 7730,
   7733, 7734, 7736, 7737, 7750]

/-- `strata_seeds.py:188-358`, seeds 1400 to 1499. -/
def strataHard14 : List ℕ :=
  [7752, 7769, 7770, 7780, 7788, 7789, 7792, 7802, 7804, 7812, 7815, 7821, 7823, 7826, 7833, 7835, 7837, 7845, 7848,
   7851, 7853, 7854, 7867, 7869, 7871, 7884, 7890, 7896, 7900, 7908, 7914, 7916, 7921, 7926, 7935, 7940, 7985, 7986,
   7994, 7996, 7997, 8002, 8006, 8025, 8037, 8046, 8048, 8065, 8066, 8067, 8075, 8094, 8101, 8107, 8109, 8121, 8129,
   8142, 8147, 8149, 8156, 8168, 8170, 8179, 8188, 8192, 8206, 8207, 8210, 8212, 8215, 8219, 8224, 8239, 8245, 8249,
   8251, 8255, 8257, 8264, 8265, 8270, 8271, 8274, 8278, 8279, 8286, 8287, 8290, 8295, 8301, 8302, 8304, 8311, 8319,
   8325, 8334, 8339, 8349, 8357]

/-- `strata_seeds.py:188-358`, seeds 1500 to 1599. -/
def strataHard15 : List ℕ :=
  [8359, 8363, 8369, 8372, 8375, 8391, 8403, 8405, 8409, 8410, 8414, 8431, 8434, 8438, 8442, 8448, 8454, 8459, 8460,
   8466, 8472, 8477, 8483, 8489, 8491, 8492, 8494, 8500, 8507, 8509, 8513, 8520, 8528, 8532, 8549, 8557, 8559, 8561,
   8564, 8566, 8567, 8569, 8576, 8584, 8588, 8589, 8592, 8614, 8616, 8618, 8629, 8635, 8638, 8640, 8641, 8643, 8646,
   8647, 8653, 8676, 8685, 8687, 8692, 8694, 8696, 8700, 8703, 8704, 8720, 8735, 8738, 8758, 8761, 8768, 8780, 8781,
   8788, 8796, 8799, 8800, 8802, 8804, 8811, 8817, 8827, 8831, 8837, 8840, 8843, 8845, 8849, 8851, 8855, 8860, 8867,
   8872, 8876, 8888, 8892, 8898]

/-- `strata_seeds.py:188-358`, seeds 1600 to 1699. -/
def strataHard16 : List ℕ :=
  [8927, 8948, 8969, 8975, 8981, 8983, 8991, 9002, 9004, 9011, 9013, 9022, 9027, 9042, 9059, 9064, 9075, 9085, 9090,
   9096, 9112, 9116, 9123, 9128, 9134, 9139, 9142, 9152, 9160, 9162, 9163, 9165, 9173, 9177, 9183, 9188, 9190, 9198,
   9200, 9211, 9215, 9216, 9217, 9234, 9249, 9253, 9256, 9264, 9266, 9273, 9277, 9279, 9285, 9287, 9299, 9309, 9317,
   9320, 9322, 9325, 9335, 9348, 9349, 9356, 9357, 9368, 9382, 9386, 9391, 9406, 9423, 9425, 9435, 9441, 9451, 9452,
   9455, 9465, 9469, 9475, 9476, 9478, 9484, 9486, 9487, 9494, 9496, 9502, 9514, 9516, 9530, 9531, 9534, 9542, 9549,
   9552, 9555, 9562, 9569, 9570]

/-- `strata_seeds.py:188-358`, seeds 1700 to 1799. -/
def strataHard17 : List ℕ :=
  [9574, 9576, 9596, 9599, 9635, 9640, 9641, 9645, 9649, 9656, 9668, 9673, 9683, 9684, 9711, 9727, 9736, 9740, 9742,
   9746, 9748, 9755, 9760, 9775, 9776, 9810, 9814, 9823, 9839, 9857, 9870, 9876, 9901, 9908, 9913, 9932, 9937, 9941,
   9949, 9951, 9962, 9964, 9971, 9973, 9978, 9982, 9984, 9986, 9994, 9996, 10002, 10014, 10021, 10043, 10046, 10049,
   10059, 10060, 10064, 10074, 10079, 10083, 10084, 10087, 10090, 10094, 10110, 10118, 10133, 10137, 10144, 10152,
   10159, 10170, 10175, 10181, 10184, 10212, 10220, 10225, 10259, 10265, 10271, 10272, 10276, 10279, 10306, 10320,
   10323, 10331, 10341, 10346, 10376, 10390, 10394, 10412, 10424, 10428, 10433, 10435]

/-- `strata_seeds.py:188-358`, seeds 1800 to 1899. -/
def strataHard18 : List ℕ :=
  [10437, 10440, 10455, 10459, 10463, 10467, 10481, 10500, 10514, 10545, 10550, 10556, 10568, 10574, 10579, 10583,
   10587, 10609, 10617, 10654, 10679, 10683, 10686, 10690, 10699, 10723, 10729, 10740, 10743, 10760, 10775, 10777,
   10780, 10788, 10790, 10792, 10810, 10823, 10830, 10833, 10838, 10887, 10889, 10911, 10912, 10967, 10986, 10996,
   11022, 11027, 11031, 11053, 11076, 11079, 11131, 11145, 11162, 11171, 11177, 11179, 11194, 11197, 11201, 11228,
   11234, 11268, 11278, 11279, 11290, 11305, 11331, 11345, 11349, 11364, 11367, 11370, 11401, 11402, 11412, 11415,
   11425, 11427, 11470, 11472, 11481, 11489, 11496, 11518, 11520, 11526, 11538, 11550, 11554, 11555, 11562, 11604,
   11618, 11623, 11696, 11711]

/-- `strata_seeds.py:188-358`, seeds 1900 to 1999. -/
def strataHard19 : List ℕ :=
  [11719, 11731, 11752, 11753, 11781, 11804, 11824, 11839, 11840, 11875, 11905, 11923, 11948, 11970, 11972, 11981,
   11988, 12010, 12035, 12077, 12091, 12113, 12124, 12126, 12127, 12132, 12155, 12161, 12172, 12196, 12232, 12243,
   12250, 12252, 12276, 12278, 12284, 12334, 12381, 12406, 12471, 12486, 12505, 12511, 12543, 12626, 12687, 12716,
   12755, 12778, 12800, 12811, 12832, 12895, 12898, 12917, 13063, 13092, 13151, 13251, 13259, 13306, 13407, 13434,
   13466, 13479, 13535, 13561, 13574, 13592, 13634, 13689, 13765, 13805, 13866, 13869, 13884, 13895, 13934, 13953,
   13975, 14091, 14114, 14173, 14195, 14221, 14250, 14282, 14315, 14346, 14367, 14383, 14464, 14595, 14599, 14643,
   14663, 14667, 14764, 14808]

/-- `strata_seeds.py:188-358` — `STRATA_SEEDS['hard']`. -/
def strataHard : List ℕ :=
  strataHard0 ++ strataHard1 ++ strataHard2 ++ strataHard3 ++ strataHard4 ++ strataHard5 ++ strataHard6 ++
  strataHard7 ++ strataHard8 ++ strataHard9 ++ strataHard10 ++ strataHard11 ++ strataHard12 ++ strataHard13 ++
  strataHard14 ++ strataHard15 ++ strataHard16 ++ strataHard17 ++ strataHard18 ++ strataHard19

/-- `strata_seeds.py:359-537`, seeds 0 to 99. -/
def strataMid0 : List ℕ :=
  [8, 15, 16, 18, 23, 24, 26, 27, 34, 48, 81, 85, 90, 95, 103, 105, 106, 110, 118, 160, 162, 163, 177, 178, 196,
   204, 205, 211, 214, 234, 235, 239, 253, 255, 256, 257, 262, 283, 290, 291, 294, 301, 306, 309, 310, 314, 337,
   359, 363, 365, 377, 387, 395, 437, 456, 472, 495, 500, 505, 531, 539, 561, 564, 568, 579, 580, 584, 590, 593,
   594, 604, 605, 619, 627, 630, 637, 639, 653, 656, 657, 666, 667, 676, 696, 710, 715, 744, 754, 766, 772, 775,
   781, 790, 791, 792, 793, 796, 798, 813, 821]

/-- `strata_seeds.py:359-537`, seeds 100 to 199. -/
def strataMid1 : List ℕ :=
  [830, 846, 858, 862, 866, 873, 874, 875, 876, 877, 878, 881, 882, 895, 899, 908, 913, 933, 966, 975, 1008, 1024,
   1030, 1045, 1053, 1054, 1055, 1056, 1057, 1063, 1067, 1072, 1086, 1094, 1100, 1102, 1104, 1107, 1117, 1138, 1142,
   1143, 1151, 1152, 1170, 1176, 1189, 1199, 1215, 1218, 1231, 1235, 1241, 1250, 1254, 1255, 1256, 1258, 1262, 1265,
   1273, 1274, 1278, 1279, 1288, 1290, 1302, 1320, 1348, 1353, 1355, 1361, 1362, 1365, 1370, 1383, 1403, 1413, 1416,
   1418, 1422, 1427, 1429, 1442, 1446, 1455, 1459, 1460, 1465, 1467, 1469, 1470, 1479, 1480, 1485, 1502, 1504, 1523,
   1543, 1555]

/-- `strata_seeds.py:359-537`, seeds 200 to 299. -/
def strataMid2 : List ℕ :=
  [1568, 1572, 1574, 1616, 1619, 1627, 1631, 1632, 1634, 1641, 1653, 1656, 1665, 1669, 1674, 1683, 1693, 1705, 1721,
   1722, 1770, 1776, 1777, 1789, 1790, 1791, 1803, 1819, 1826, 1850, 1873, 1878, 1880, 1882, 1900, 1910, 1911, 1926,
   1927, 1928, 1931, 1933, 1934, 1937, 1942, 1946, 1948, 1960, 1971, 1981, 1982, 1986, 1987, 1998, 2001, 2005, 2006,
   2022, 2025, 2028, 2038, 2041, 2065, 2070, 2072, 2074, 2080, 2084, 2086, 2090, 2110, 2113, 2114, 2125, 2139, 2141,
   2146, 2148, 2149, 2163, 2165, 2180, 2181, 2182, 2187, 2189, 2206, 2207, 2210, 2224, 2227, 2230, 2236, 2250, 2254,
   2264, 2269, 2273, 2291, 2301]

/-- `strata_seeds.py:359-537`, seeds 300 to 399. -/
def strataMid3 : List ℕ :=
  [2302, 2311, 2317, 2324, 2335, 2337, 2358, 2373, 2379, 2380, 2386, 2389, 2391, 2413, 2421, 2435, 2440, 2441, 2443,
   2455, 2476, 2480, 2486, 2489, 2491, 2492, 2494, 2495, 2497, 2498, 2515, 2520, 2526, 2529, 2534, 2536, 2538, 2558,
   2563, 2568, 2575, 2576, 2594, 2605, 2607, 2610, 2623, 2644, 2654, 2674, 2682, 2683, 2693, 2709, 2711, 2724, 2726,
   2729, 2736, 2747, 2752, 2765, 2766, 2774, 2778, 2781, 2789, 2792, 2795, 2800, 2804, 2815, 2821, 2836, 2841, 2856,
   2859, 2871, 2881, 2886, 2890, 2891, 2892, 2897, 2900, 2902, 2931, 2942, 2944, 2946, 2956, 2959, 2973, 2979, 2985,
   2986, 2987, 3005, 3011, 3017]

/-- `strata_seeds.py:359-537`, seeds 400 to 499. -/
def strataMid4 : List ℕ :=
  [3026, 3031, 3033, 3041, 3044, 3046, 3053, 3071, 3077, 3081, 3089, 3100, 3102, 3118, 3120, 3121, 3122, 3130, 3141,
   3144, 3147, 3158, 3169, 3180, 3201, 3210, 3220, 3237, 3241, 3258, 3259, 3262, 3265, 3285, 3293, 3304, 3315, 3329,
   3336, 3339, 3342, 3387, 3413, 3421, 3430, 3435, 3441, 3442, 3444, 3469, 3475, 3477, 3478, 3485, 3508, 3509, 3510,
   3512, 3513, 3537, 3540, 3543, 3562, 3571, 3572, 3579, 3627, 3641, 3647, 3650, 3653, 3665, 3667, 3680, 3682, 3693,
   3695, 3713, 3724, 3727, 3731, 3736, 3766, 3776, 3791, 3813, 3814, 3823, 3839, 3841, 3842, 3845, 3846, 3850, 3852,
   3854, 3870, 3874, 3885, 3895]

/-- `strata_seeds.py:359-537`, seeds 500 to 599. -/
def strataMid5 : List ℕ :=
  [3896, 3898, 3899, 3904, 3925, 3932, 3936, 3942, 3966, 3970, 3973, 3982, 3990, 3995, 3997, 3999, 4010, 4012, 4050,
   4055, 4070, 4085, 4088, 4089, 4096, 4098, 4103, 4104, 4112, 4125, 4131, 4132, 4134, 4138, 4141, 4143, 4144, 4147,
   4149, 4161, 4172, 4174, 4180, 4190, 4192, 4199, 4208, 4239, 4264, 4268, 4272, 4286, 4287, 4289, 4296, 4306, 4316,
   4317, 4324, 4326, 4331, 4332, 4344, 4362, 4367, 4372, 4382, 4384, 4387, 4403, 4441, 4446, 4466, 4475, 4478, 4480,
   4481, 4483, 4484, 4485, 4488, 4504, 4506, 4514, 4521, 4522, 4527, 4540, 4555, 4569, 4576, 4577, 4580, 4590, 4594,
   4599, 4606, 4608, 4621, 4639]

/-- `strata_seeds.py:359-537`, seeds 600 to 699. -/
def strataMid6 : List ℕ :=
  [4640, 4666, 4667, 4669, 4677, 4689, 4693, 4697, 4699, 4711, 4714, 4717, 4722, 4737, 4755, 4779, 4788, 4809, 4822,
   4823, 4826, 4832, 4843, 4848, 4850, 4853, 4864, 4869, 4873, 4888, 4890, 4908, 4919, 4923, 4927, 4928, 4940, 4946,
   4950, 4968, 4979, 4981, 4982, 4989, 4994, 4998, 5011, 5013, 5014, 5032, 5036, 5037, 5054, 5069, 5070, 5072, 5073,
   5088, 5096, 5101, 5108, 5112, 5115, 5121, 5127, 5128, 5134, 5138, 5141, 5143, 5152, 5158, 5164, 5169, 5173, 5175,
   5204, 5212, 5213, 5227, 5230, 5233, 5242, 5262, 5271, 5291, 5292, 5293, 5296, 5300, 5305, 5313, 5321, 5331, 5341,
   5354, 5355, 5357, 5381, 5388]

/-- `strata_seeds.py:359-537`, seeds 700 to 799. -/
def strataMid7 : List ℕ :=
  [5397, 5399, 5400, 5403, 5404, 5412, 5415, 5419, 5423, 5449, 5492, 5500, 5504, 5520, 5549, 5553, 5554, 5558, 5559,
   5561, 5567, 5573, 5578, 5586, 5590, 5591, 5596, 5615, 5629, 5631, 5653, 5655, 5667, 5710, 5711, 5713, 5735, 5737,
   5747, 5750, 5760, 5773, 5781, 5786, 5794, 5802, 5820, 5825, 5843, 5856, 5884, 5886, 5893, 5909, 5910, 5911, 5912,
   5916, 5919, 5937, 5941, 5946, 5948, 5970, 5971, 5976, 5978, 5980, 5981, 5987, 5993, 6010, 6013, 6016, 6034, 6043,
   6047, 6064, 6069, 6074, 6075, 6076, 6084, 6085, 6089, 6093, 6103, 6106, 6121, 6129, 6133, 6151, 6179, 6180, 6200,
   6207, 6209, 6212, 6217, 6220]

/-- `strata_seeds.py:359-537`, seeds 800 to 899. -/
def strataMid8 : List ℕ :=
  [6228, 6239, 6245, 6253, 6255, 6267, 6271, 6275, 6284, 6286, 6294, 6304, 6311, 6323, 6333, 6351, 6373, 6385, 6387,
   6389, 6407, 6415, 6430, 6450, 6461, 6463, 6483, 6487, 6490, 6493, 6495, 6498, 6501, 6503, 6508, 6522, 6528, 6531,
   6532, 6537, 6545, 6548, 6569, 6572, 6583, 6585, 6591, 6600, 6602, 6607, 6610, 6615, 6629, 6647, 6659, 6662, 6663,
   6672, 6673, 6687, 6696, 6704, 6706, 6707, 6725, 6726, 6729, 6741, 6779, 6784, 6791, 6801, 6803, 6804, 6805, 6807,
   6808, 6819, 6820, 6838, 6842, 6844, 6849, 6851, 6859, 6885, 6892, 6896, 6907, 6911, 6916, 6918, 6920, 6922, 6927,
   6943, 6952, 6954, 6966, 6972]

/-- `strata_seeds.py:359-537`, seeds 900 to 999. -/
def strataMid9 : List ℕ :=
  [6975, 6980, 6984, 6999, 7001, 7035, 7049, 7058, 7070, 7073, 7084, 7103, 7110, 7118, 7123, 7153, 7158, 7159, 7163,
   7186, 7197, 7205, 7239, 7242, 7257, 7267, 7269, 7280, 7296, 7315, 7317, 7332, 7345, 7348, 7370, 7386, 7395, 7402,
   7403, 7404, 7420, 7439, 7441, 7452, 7455, 7525, 7527, 7531, 7533, 7534, 7538, 7548, 7566, 7568, 7573, 7586, 7631,
   7634, 7639, 7643, 7662, 7663, 7668, 7671, 7677, 7683, 7696, 7699, 7702, 7705, 7714, 7725, 7735, 7739, 7740, 7742,
   7743, 7748, 7749, 7757, 7762, 7763, 7764, 7768, 7772, 7778, 7805, 7809, 7810, 7811, 7831, 7847, 7852, 7864, 7866,
   7888, 7893, 7895, 7904, 7905]

/-- `strata_seeds.py:359-537`, seeds 1000 to 1099. -/
def strataMid10 : List ℕ :=
  [7909, 7911, 7919, 7929, 7931, 7934, 7937, 7941, 7948, 7956, 7960, 7966, 7969, 7970, 7972, 7975, 7989, 8001, 8005,
   8010, 8011, 8016, 8017, 8042, 8044, 8049, 8072, 8090, 8092, 8104, 8105, 8108, 8112, 8115, 8116, 8124, 8139, 8148,
   8159, 8161, 8173, 8176, 8177, 8190, 8194, 8199, 8226, 8231, 8234, 8237, 8241, 8242, 8253, 8261, 8263, 8267, 8275,
   8297, 8305, 8310, 8327, 8338, 8342, 8346, 8348, 8354, 8370, 8374, 8383, 8385, 8389, 8398, 8406, 8416, 8419, 8427,
   8428, 8433, 8437, 8453, 8461, 8463, 8464, 8476, 8480, 8482, 8495, 8501, 8506, 8524, 8525, 8526, 8527, 8530, 8533,
   8537, 8552, 8560, 8568, 8570]

/-- `strata_seeds.py:359-537`, seeds 1100 to 1199. -/
def strataMid11 : List ℕ :=
  [8577, 8601, 8604, 8609, 8617, 8622, 8630, 8633, 8636, 8642, 8651, 8657, 8664, 8674, 8693, 8706, 8731, 8744, 8748,
   8773, 8787, 8797, 8806, 8809, 8814, 8819, 8824, 8826, 8829, 8838, 8859, 8862, 8870, 8874, 8875, 8879, 8880, 8897,
   8911, 8914, 8919, 8942, 8947, 8952, 8959, 8962, 8968, 8971, 8972, 8978, 8982, 8995, 9005, 9014, 9033, 9034, 9039,
   9048, 9049, 9055, 9056, 9063, 9065, 9070, 9076, 9097, 9104, 9106, 9109, 9114, 9118, 9119, 9132, 9140, 9145, 9153,
   9168, 9172, 9181, 9186, 9189, 9194, 9195, 9201, 9202, 9214, 9218, 9222, 9236, 9239, 9240, 9252, 9258, 9262, 9263,
   9270, 9271, 9274, 9275, 9295]

/-- `strata_seeds.py:359-537`, seeds 1200 to 1299. -/
def strataMid12 : List ℕ :=
  [9296, 9297, 9302, 9307, 9318, 9324, 9336, 9358, 9365, 9366, 9372, 9378, 9380, 9381, 9383, 9384, 9385, 9409, 9411,
   9414, 9417, 9426, 9449, 9462, 9463, 9473, 9482, 9493, 9495, 9497, 9509, 9512, 9523, 9548, 9553, 9560, 9584, 9585,
   9590, 9592, 9600, 9605, 9614, 9615, 9622, 9636, 9643, 9650, 9665, 9667, 9686, 9689, 9690, 9699, 9705, 9707, 9715,
   9720, 9721, 9723, 9729, 9752, 9756, 9764, 9768, 9789, 9797, 9798, 9799, 9805, 9809, 9822, 9826, 9827, 9828, 9844,
   9850, 9852, 9853, 9855, 9864, 9866, 9877, 9895, 9897, 9899, 9900, 9916, 9917, 9930, 9935, 9947, 9976, 9981,
   10006, 10008, 10009, 10012, 10024, 10025]

/-- `strata_seeds.py:359-537`, seeds 1300 to 1399. -/
def strataMid13 : List ℕ :=
  [10027, 10034, 10047, 10050, 10066, 10081, 10089, 10091, 10108, 10114, 10116, 10132, 10146, 10147, 10150, 10154,
   10160, 10163, 10177, 10180, 10193, 10198, 10206, 10218, 10235, 10247, 10255, 10261, 10263, 10269, 10274, 10278,
   10282, 10298, 10299, 10301, 10303, 10305, 10332, 10333, 10336, 10339, 10345, 10358, 10360, 10372, 10387, 10404,
   10409, 10415, 10425, 10429, 10430, 10443, 10449, 10456, 10475, 10476, 10485, 10488, 10493, 10498, 10504, 10509,
   10518, 10523, 10528, 10529, 10540, 10585, 10590, 10599, 10606, 10612, 10614, 10626, 10639, 10653, 10656, 10657,
   10660, 10666, 10677, 10680, 10681, 10688, 10692, 10696, 10705, 10710, 10712, 10716, 10720, 10722, 10725, 10733,
   10744, 10751, 10752, 10758]

/-- `strata_seeds.py:359-537`, seeds 1400 to 1499. -/
def strataMid14 : List ℕ :=
  [10767, 10776, 10782, 10783, 10789, 10800, 10805, 10806, 10812, 10814, 10816, 10820, 10831, 10835, 10842, 10847,
   10849, 10860, 10865, 10874, 10882, 10895, 10907, 10917, 10918, 10922, 10930, 10933, 10950, 10951, 10952, 10963,
   10974, 10975, 10976, 10991, 11002, 11010, 11011, 11018, 11019, 11020, 11023, 11024, 11025, 11026, 11034, 11035,
   11052, 11054, 11055, 11064, 11083, 11102, 11103, 11104, 11120, 11124, 11125, 11127, 11129, 11142, 11146, 11154,
   11155, 11161, 11165, 11185, 11199, 11203, 11205, 11206, 11217, 11242, 11248, 11249, 11253, 11255, 11258, 11274,
   11283, 11301, 11309, 11312, 11317, 11338, 11355, 11361, 11369, 11371, 11380, 11381, 11383, 11391, 11395, 11398,
   11406, 11409, 11417, 11420]

/-- `strata_seeds.py:359-537`, seeds 1500 to 1599. -/
def strataMid15 : List ℕ :=
  [11426, 11432, 11448, 11455, 11457, 11464, 11465, 11468, 11471, 11473, 11478, 11499, 11510, 11511, 11521, 11546,
   11548, 11552, 11561, 11567, 11570, 11575, 11586, 11594, 11595, 11596, 11598, 11599, 11601, 11607, 11610, 11616,
   11638, 11640, 11641, 11648, 11657, 11670, 11676, 11677, 11680, 11682, 11691, 11698, 11718, 11729, 11733, 11737,
   11738, 11739, 11746, 11749, 11769, 11770, 11771, 11775, 11777, 11786, 11788, 11796, 11800, 11802, 11811, 11818,
   11826, 11833, 11836, 11843, 11860, 11862, 11867, 11879, 11885, 11896, 11897, 11899, 11908, 11921, 11933, 11935,
   11936, 11937, 11939, 11947, 11950, 11976, 11979, 11989, 11991, 12003, 12020, 12027, 12040, 12047, 12055, 12056,
   12060, 12061, 12093, 12094]

/-- `strata_seeds.py:359-537`, seeds 1600 to 1699. -/
def strataMid16 : List ℕ :=
  [12102, 12112, 12116, 12128, 12131, 12147, 12151, 12152, 12153, 12160, 12168, 12174, 12179, 12183, 12188, 12192,
   12194, 12195, 12199, 12209, 12211, 12247, 12254, 12257, 12259, 12274, 12275, 12277, 12283, 12288, 12308, 12310,
   12322, 12336, 12338, 12347, 12354, 12358, 12360, 12362, 12365, 12369, 12380, 12385, 12394, 12399, 12400, 12411,
   12423, 12440, 12441, 12443, 12470, 12482, 12495, 12499, 12521, 12525, 12529, 12533, 12548, 12549, 12564, 12574,
   12575, 12596, 12602, 12604, 12612, 12623, 12631, 12646, 12647, 12669, 12678, 12679, 12691, 12693, 12695, 12696,
   12705, 12720, 12724, 12736, 12741, 12753, 12759, 12767, 12779, 12796, 12803, 12813, 12822, 12826, 12838, 12858,
   12859, 12866, 12876, 12878]

/-- `strata_seeds.py:359-537`, seeds 1700 to 1799. -/
def strataMid17 : List ℕ :=
  [12882, 12897, 12899, 12914, 12925, 12933, 12948, 12949, 12951, 12955, 12960, 12962, 12967, 12974, 12976, 12987,
   12990, 12995, 13004, 13014, 13025, 13028, 13046, 13071, 13084, 13085, 13111, 13112, 13115, 13118, 13135, 13157,
   13176, 13194, 13208, 13218, 13219, 13221, 13228, 13231, 13245, 13252, 13264, 13281, 13288, 13290, 13293, 13302,
   13310, 13312, 13350, 13365, 13367, 13372, 13377, 13381, 13391, 13392, 13394, 13399, 13405, 13411, 13423, 13437,
   13448, 13451, 13454, 13467, 13471, 13475, 13477, 13478, 13482, 13483, 13484, 13485, 13496, 13503, 13505, 13518,
   13520, 13521, 13523, 13525, 13526, 13530, 13550, 13565, 13571, 13579, 13581, 13582, 13587, 13595, 13610, 13623,
   13624, 13626, 13628, 13633]

/-- `strata_seeds.py:359-537`, seeds 1800 to 1899. -/
def strataMid18 : List ℕ :=
  [13635, 13646, 13653, 13654, 13664, 13666, 13669, 13678, 13685, 13692, 13706, 13707, 13721, 13741, 13753, 13756,
   13757, 13767, 13768, 13807, 13814, 13825, 13828, 13832, 13833, 13836, 13853, 13859, 13870, 13877, 13891, 13902,
   13908, 13920, 13942, 13943, 13950, 13954, 13961, 13970, 13980, 13985, 13986, 13988, 14001, 14018, 14020, 14030,
   14040, 14053, 14087, 14100, 14102, 14111, 14113, 14129, 14140, 14142, 14145, 14153, 14159, 14160, 14164, 14174,
   14200, 14217, 14227, 14230, 14239, 14244, 14256, 14263, 14283, 14285, 14290, 14298, 14311, 14317, 14323, 14330,
   14341, 14342, 14343, 14372, 14385, 14401, 14407, 14431, 14442, 14458, 14466, 14468, 14489, 14493, 14506, 14522,
   14539, 14541, 14553, 14567]

/-- `strata_seeds.py:359-537`, seeds 1900 to 1999. -/
def strataMid19 : List ℕ :=
  [14575, 14584, 14587, 14597, 14600, 14625, 14627, 14632, 14650, 14654, 14658, 14675, 14682, 14684, 14686, 14692,
   14700, 14705, 14715, 14726, 14766, 14767, 14775, 14793, 14801, 14803, 14805, 14810, 14813, 14816, 14856, 14860,
   14906, 14910, 14911, 14916, 14918, 14928, 14932, 14941, 14949, 14964, 14969, 15006, 15019, 15022, 15025, 15030,
   15041, 15055, 15068, 15108, 15120, 15123, 15125, 15133, 15138, 15163, 15167, 15168, 15187, 15199, 15213, 15221,
   15225, 15243, 15244, 15249, 15255, 15259, 15270, 15282, 15302, 15307, 15315, 15329, 15347, 15361, 15362, 15382,
   15401, 15422, 15432, 15435, 15441, 15449, 15464, 15482, 15493, 15502, 15509, 15515, 15541, 15590, 15643, 15655,
   15687, 15688, 15694, 15734]

/-- `strata_seeds.py:359-537` — `STRATA_SEEDS['mid']`. -/
def strataMid : List ℕ :=
  strataMid0 ++ strataMid1 ++ strataMid2 ++ strataMid3 ++ strataMid4 ++ strataMid5 ++ strataMid6 ++ strataMid7 ++
  strataMid8 ++ strataMid9 ++ strataMid10 ++ strataMid11 ++ strataMid12 ++ strataMid13 ++ strataMid14 ++ strataMid15
  ++ strataMid16 ++ strataMid17 ++ strataMid18 ++ strataMid19

/-- `strata_seeds.py:538-722`, seeds 0 to 99. -/
def strataEasy0 : List ℕ :=
  [5, 9, 29, 37, 57, 64, 73, 77, 93, 114, 119, 123, 124, 132, 158, 165, 175, 179, 192, 202, 222, 227, 230, 246, 263,
   273, 287, 289, 318, 322, 335, 344, 351, 357, 372, 378, 380, 393, 416, 428, 447, 451, 455, 468, 473, 480, 488,
   496, 501, 514, 516, 546, 562, 598, 607, 612, 613, 644, 646, 658, 680, 693, 702, 704, 713, 727, 732, 738, 739,
   747, 771, 804, 809, 811, 827, 828, 838, 860, 861, 883, 893, 922, 926, 936, 962, 986, 996, 999, 1004, 1006, 1010,
   1025, 1028, 1047, 1068, 1076, 1131, 1160, 1180, 1183]

/-- `strata_seeds.py:538-722`, seeds 100 to 199. -/
def strataEasy1 : List ℕ :=
  [1187, 1192, 1202, 1205, 1228, 1245, 1249, 1253, 1259, 1272, 1293, 1294, 1297, 1299, 1305, 1322, 1341, 1346, 1368,
   1375, 1378, 1390, 1401, 1406, 1411, 1419, 1421, 1436, 1445, 1457, 1461, 1463, 1481, 1498, 1500, 1503, 1514, 1535,
   1552, 1565, 1576, 1602, 1610, 1623, 1644, 1646, 1650, 1664, 1672, 1698, 1701, 1714, 1718, 1730, 1734, 1748, 1763,
   1765, 1771, 1778, 1801, 1802, 1808, 1809, 1817, 1818, 1825, 1827, 1839, 1879, 1886, 1896, 1899, 1906, 1923, 1935,
   1939, 1945, 1973, 1988, 1990, 2011, 2013, 2029, 2051, 2076, 2108, 2116, 2118, 2120, 2142, 2153, 2159, 2174, 2178,
   2194, 2196, 2203, 2223, 2244]

/-- `strata_seeds.py:538-722`, seeds 200 to 299. -/
def strataEasy2 : List ℕ :=
  [2259, 2265, 2282, 2286, 2288, 2306, 2320, 2321, 2339, 2368, 2374, 2375, 2376, 2393, 2397, 2405, 2415, 2442, 2446,
   2458, 2459, 2479, 2482, 2506, 2508, 2509, 2510, 2528, 2532, 2535, 2539, 2542, 2571, 2579, 2582, 2583, 2637, 2638,
   2640, 2645, 2647, 2655, 2670, 2672, 2676, 2680, 2681, 2684, 2707, 2713, 2714, 2722, 2731, 2744, 2768, 2805, 2810,
   2827, 2834, 2854, 2870, 2877, 2878, 2880, 2885, 2914, 2965, 2971, 2978, 2980, 2992, 3006, 3022, 3023, 3028, 3049,
   3055, 3066, 3083, 3095, 3176, 3186, 3191, 3199, 3214, 3238, 3249, 3256, 3275, 3278, 3294, 3298, 3313, 3318, 3325,
   3337, 3355, 3362, 3369, 3374]

/-- `strata_seeds.py:538-722`, seeds 300 to 399. -/
def strataEasy3 : List ℕ :=
  [3377, 3389, 3398, 3402, 3410, 3419, 3431, 3438, 3446, 3460, 3462, 3465, 3468, 3473, 3487, 3489, 3495, 3498, 3501,
   3502, 3511, 3516, 3522, 3532, 3567, 3582, 3584, 3586, 3597, 3598, 3605, 3607, 3617, 3624, 3626, 3630, 3635, 3661,
   3666, 3688, 3697, 3699, 3733, 3737, 3744, 3753, 3765, 3767, 3777, 3782, 3783, 3784, 3789, 3802, 3805, 3809, 3836,
   3838, 3847, 3849, 3861, 3880, 3893, 3906, 3934, 3938, 3945, 3947, 3952, 3954, 3963, 3965, 3972, 3980, 4004, 4007,
   4009, 4018, 4026, 4028, 4039, 4042, 4069, 4082, 4108, 4119, 4123, 4133, 4145, 4146, 4148, 4171, 4173, 4178, 4193,
   4197, 4205, 4224, 4226, 4231]

/-- `strata_seeds.py:538-722`, seeds 400 to 499. -/
def strataEasy4 : List ℕ :=
  [4233, 4236, 4240, 4246, 4261, 4304, 4334, 4339, 4347, 4353, 4354, 4366, 4368, 4379, 4406, 4414, 4420, 4435, 4443,
   4451, 4452, 4458, 4468, 4471, 4474, 4511, 4525, 4535, 4554, 4579, 4601, 4603, 4634, 4647, 4684, 4702, 4705, 4707,
   4723, 4731, 4736, 4753, 4758, 4759, 4770, 4772, 4775, 4777, 4784, 4811, 4816, 4818, 4849, 4851, 4858, 4862, 4868,
   4877, 4887, 4911, 4935, 4938, 4939, 4949, 4951, 4955, 4970, 4987, 5018, 5027, 5035, 5040, 5079, 5086, 5148, 5176,
   5179, 5187, 5191, 5203, 5209, 5218, 5226, 5236, 5244, 5250, 5251, 5266, 5281, 5301, 5307, 5309, 5310, 5312, 5315,
   5324, 5332, 5333, 5334, 5359]

/-- `strata_seeds.py:538-722`, seeds 500 to 599. -/
def strataEasy5 : List ℕ :=
  [5369, 5382, 5389, 5390, 5405, 5406, 5414, 5437, 5441, 5444, 5487, 5497, 5499, 5506, 5521, 5525, 5535, 5536, 5541,
   5542, 5546, 5569, 5574, 5605, 5613, 5621, 5637, 5648, 5652, 5661, 5665, 5683, 5717, 5721, 5731, 5732, 5757, 5761,
   5766, 5769, 5775, 5779, 5784, 5796, 5813, 5814, 5817, 5819, 5826, 5832, 5837, 5863, 5865, 5874, 5887, 5896, 5901,
   5902, 5906, 5921, 5934, 5955, 5988, 5989, 5996, 6007, 6008, 6033, 6040, 6042, 6046, 6052, 6054, 6055, 6073, 6094,
   6115, 6120, 6150, 6153, 6199, 6203, 6206, 6215, 6222, 6224, 6265, 6300, 6322, 6343, 6367, 6376, 6384, 6388, 6419,
   6424, 6427, 6432, 6437, 6445]

/-- `strata_seeds.py:538-722`, seeds 600 to 699. -/
def strataEasy6 : List ℕ :=
  [6458, 6462, 6467, 6474, 6478, 6479, 6496, 6502, 6515, 6544, 6547, 6564, 6609, 6614, 6616, 6634, 6641, 6650, 6658,
   6675, 6678, 6682, 6686, 6691, 6693, 6705, 6732, 6742, 6767, 6775, 6783, 6793, 6796, 6812, 6831, 6834, 6880, 6887,
   6890, 6893, 6901, 6902, 6926, 6928, 6937, 6938, 6939, 6947, 6950, 6953, 6956, 6974, 6998, 7005, 7015, 7039, 7047,
   7061, 7066, 7077, 7080, 7086, 7100, 7102, 7107, 7122, 7134, 7137, 7138, 7139, 7143, 7179, 7181, 7183, 7187, 7195,
   7196, 7200, 7207, 7214, 7217, 7228, 7231, 7233, 7238, 7243, 7248, 7251, 7253, 7254, 7264, 7270, 7285, 7291, 7298,
   7301, 7303, 7319, 7331, 7334]

/-- `strata_seeds.py:538-722`, seeds 700 to 799. -/
def strataEasy7 : List ℕ :=
  [7336, 7341, 7357, 7364, 7368, 7373, 7381, 7382, 7400, 7412, 7422, 7424, 7427, 7430, 7444, 7448, 7467, 7470, 7482,
   7502, 7510, 7513, 7532, 7535, 7544, 7545, 7550, 7570, 7572, 7603, 7607, 7619, 7624, 7625, 7636, 7650, 7651, 7678,
   7680, 7689, 7708, 7727, 7760, 7766, 7771, 7781, 7787, 7818, 7829, 7839, 7849, 7858, 7878, 7880, 7885, 7891, 7894,
   7918, 7952, 7963, 7974, 7976, 7979, 7980, 7992, 7998, 8036, 8050, 8079, 8088, 8089, 8100, 8117, 8118, 8125, 8126,
   8132, 8140, 8141, 8146, 8154, 8164, 8172, 8175, 8180, 8181, 8182, 8189, 8200, 8201, 8211, 8229, 8232, 8284, 8298,
   8313, 8321, 8360, 8379, 8401]

/-- `strata_seeds.py:538-722`, seeds 800 to 899. -/
def strataEasy8 : List ℕ :=
  [8418, 8423, 8441, 8443, 8452, 8468, 8475, 8498, 8550, 8551, 8555, 8571, 8572, 8574, 8575, 8578, 8586, 8591, 8593,
   8595, 8596, 8599, 8624, 8627, 8631, 8634, 8637, 8639, 8650, 8655, 8667, 8669, 8671, 8672, 8678, 8699, 8709, 8710,
   8716, 8722, 8736, 8764, 8765, 8785, 8789, 8791, 8801, 8803, 8805, 8813, 8833, 8839, 8841, 8873, 8877, 8900, 8902,
   8917, 8941, 8955, 8963, 8965, 8967, 8997, 8998, 9006, 9018, 9019, 9024, 9031, 9035, 9068, 9073, 9079, 9081, 9087,
   9120, 9124, 9125, 9126, 9144, 9157, 9169, 9171, 9175, 9185, 9192, 9207, 9221, 9226, 9229, 9237, 9250, 9255, 9257,
   9286, 9294, 9312, 9347, 9364]

/-- `strata_seeds.py:538-722`, seeds 900 to 999. -/
def strataEasy9 : List ℕ :=
  [9400, 9403, 9410, 9413, 9416, 9419, 9421, 9427, 9438, 9439, 9457, 9468, 9472, 9474, 9480, 9483, 9485, 9488, 9506,
   9517, 9537, 9539, 9547, 9561, 9564, 9568, 9573, 9575, 9593, 9613, 9620, 9631, 9651, 9664, 9666, 9672, 9682, 9691,
   9696, 9728, 9749, 9761, 9763, 9773, 9782, 9785, 9790, 9792, 9800, 9808, 9811, 9816, 9817, 9831, 9836, 9842, 9848,
   9862, 9867, 9936, 9940, 9955, 9960, 9969, 9974, 9988, 9992, 9993, 9997, 10031, 10054, 10058, 10078, 10085, 10086,
   10092, 10103, 10112, 10117, 10138, 10143, 10173, 10214, 10233, 10234, 10260, 10266, 10270, 10297, 10318, 10321,
   10335, 10337, 10351, 10392, 10393, 10405, 10410, 10421, 10445]

/-- `strata_seeds.py:538-722`, seeds 1000 to 1099. -/
def strataEasy10 : List ℕ :=
  [10461, 10471, 10472, 10497, 10503, 10505, 10542, 10555, 10561, 10566, 10581, 10625, 10629, 10641, 10642, 10644,
   10655, 10664, 10667, 10675, 10695, 10701, 10707, 10714, 10721, 10732, 10737, 10770, 10787, 10793, 10794, 10808,
   10813, 10828, 10832, 10848, 10850, 10853, 10856, 10857, 10875, 10878, 10890, 10906, 10931, 10934, 10936, 10946,
   10972, 10977, 10978, 10983, 10985, 11005, 11009, 11017, 11072, 11089, 11094, 11096, 11098, 11100, 11111, 11118,
   11119, 11132, 11137, 11149, 11152, 11153, 11159, 11166, 11168, 11169, 11172, 11174, 11184, 11188, 11192, 11202,
   11210, 11223, 11229, 11238, 11241, 11250, 11263, 11270, 11282, 11287, 11302, 11304, 11311, 11315, 11324, 11326,
   11358, 11374, 11375, 11376]

/-- `strata_seeds.py:538-722`, seeds 1100 to 1199. -/
def strataEasy11 : List ℕ :=
  [11377, 11384, 11394, 11421, 11433, 11453, 11474, 11476, 11480, 11488, 11502, 11506, 11515, 11519, 11522, 11524,
   11547, 11549, 11559, 11583, 11590, 11615, 11619, 11634, 11639, 11652, 11656, 11689, 11692, 11697, 11702, 11714,
   11720, 11724, 11745, 11757, 11767, 11779, 11789, 11793, 11795, 11799, 11808, 11813, 11814, 11829, 11835, 11850,
   11859, 11868, 11872, 11880, 11887, 11892, 11895, 11914, 11971, 11975, 11992, 11993, 11995, 12000, 12001, 12009,
   12026, 12038, 12062, 12074, 12079, 12080, 12082, 12085, 12087, 12111, 12115, 12136, 12141, 12143, 12149, 12150,
   12197, 12198, 12205, 12206, 12214, 12221, 12226, 12227, 12229, 12236, 12240, 12241, 12242, 12245, 12265, 12271,
   12281, 12286, 12292, 12306]

/-- `strata_seeds.py:538-722`, seeds 1200 to 1299. -/
def strataEasy12 : List ℕ :=
  [12312, 12321, 12332, 12396, 12401, 12418, 12424, 12446, 12451, 12453, 12463, 12487, 12489, 12509, 12519, 12526,
   12539, 12552, 12570, 12587, 12589, 12590, 12595, 12599, 12603, 12611, 12618, 12619, 12628, 12632, 12637, 12645,
   12650, 12670, 12673, 12677, 12711, 12712, 12721, 12733, 12743, 12754, 12756, 12769, 12770, 12774, 12784, 12816,
   12821, 12843, 12854, 12864, 12865, 12867, 12880, 12902, 12904, 12910, 12921, 12922, 12923, 12931, 12942, 12956,
   12969, 12980, 12983, 12996, 12999, 13020, 13035, 13041, 13051, 13055, 13061, 13065, 13072, 13087, 13099, 13119,
   13121, 13124, 13129, 13155, 13172, 13181, 13196, 13220, 13243, 13267, 13279, 13283, 13299, 13316, 13317, 13336,
   13346, 13370, 13390, 13398]

/-- `strata_seeds.py:538-722`, seeds 1300 to 1399. -/
def strataEasy13 : List ℕ :=
  [13409, 13417, 13419, 13420, 13422, 13428, 13442, 13444, 13456, 13457, 13476, 13491, 13495, 13502, 13509, 13522,
   13537, 13544, 13569, 13570, 13572, 13585, 13593, 13601, 13605, 13614, 13615, 13625, 13627, 13630, 13632, 13637,
   13647, 13655, 13677, 13694, 13698, 13705, 13736, 13747, 13749, 13751, 13758, 13787, 13788, 13790, 13797, 13806,
   13812, 13855, 13868, 13888, 13890, 13900, 13906, 13909, 13915, 13921, 13925, 13947, 13976, 13981, 13990, 13993,
   13996, 14008, 14033, 14042, 14060, 14076, 14078, 14082, 14085, 14096, 14108, 14121, 14130, 14135, 14150, 14158,
   14172, 14179, 14191, 14192, 14193, 14203, 14213, 14223, 14246, 14252, 14260, 14261, 14262, 14265, 14297, 14304,
   14307, 14312, 14313, 14322]

/-- `strata_seeds.py:538-722`, seeds 1400 to 1499. -/
def strataEasy14 : List ℕ :=
  [14324, 14332, 14347, 14354, 14356, 14361, 14363, 14364, 14380, 14381, 14384, 14389, 14395, 14416, 14425, 14428,
   14446, 14452, 14454, 14459, 14460, 14473, 14482, 14490, 14492, 14512, 14520, 14533, 14534, 14535, 14542, 14543,
   14544, 14546, 14559, 14564, 14593, 14611, 14613, 14622, 14626, 14641, 14648, 14656, 14669, 14691, 14703, 14727,
   14740, 14763, 14768, 14774, 14780, 14791, 14820, 14829, 14835, 14855, 14870, 14879, 14880, 14884, 14894, 14899,
   14912, 14921, 14924, 14936, 14937, 14940, 14943, 14950, 14951, 14953, 14954, 14962, 14965, 14979, 14981, 14997,
   15001, 15003, 15005, 15008, 15014, 15016, 15029, 15031, 15036, 15047, 15058, 15059, 15066, 15072, 15081, 15088,
   15111, 15112, 15122, 15126]

/-- `strata_seeds.py:538-722`, seeds 1500 to 1599. -/
def strataEasy15 : List ℕ :=
  [15130, 15132, 15137, 15144, 15150, 15151, 15158, 15180, 15208, 15209, 15240, 15251, 15327, 15328, 15355, 15358,
   15398, 15404, 15413, 15416, 15445, 15447, 15468, 15470, 15473, 15476, 15486, 15488, 15498, 15510, 15516, 15525,
   15535, 15540, 15547, 15559, 15568, 15578, 15585, 15592, 15605, 15627, 15634, 15639, 15647, 15654, 15665, 15666,
   15678, 15681, 15685, 15692, 15697, 15698, 15700, 15708, 15716, 15721, 15729, 15735, 15742, 15758, 15763, 15771,
   15773, 15801, 15815, 15828, 15846, 15857, 15862, 15873, 15890, 15912, 15919, 15935, 15938, 15957, 15961, 15976,
   15979, 15994, 15995, 16013, 16017, 16023, 16028, 16034, 16047, 16061, 16067, 16069, 16070, 16099, 16124, 16141,
   16143, 16146, 16147, 16153]

/-- `strata_seeds.py:538-722`, seeds 1600 to 1699. -/
def strataEasy16 : List ℕ :=
  [16167, 16194, 16195, 16206, 16220, 16221, 16223, 16235, 16239, 16251, 16263, 16275, 16303, 16320, 16324, 16330,
   16333, 16337, 16355, 16359, 16365, 16393, 16398, 16406, 16411, 16422, 16423, 16426, 16449, 16465, 16467, 16468,
   16469, 16474, 16512, 16515, 16518, 16519, 16527, 16529, 16545, 16556, 16561, 16578, 16583, 16624, 16632, 16639,
   16651, 16652, 16656, 16669, 16671, 16692, 16695, 16696, 16707, 16717, 16722, 16730, 16732, 16737, 16759, 16767,
   16770, 16780, 16789, 16791, 16792, 16808, 16844, 16846, 16855, 16878, 16887, 16900, 16906, 16910, 16920, 16925,
   16929, 16930, 16935, 16962, 16973, 16975, 16983, 16991, 17007, 17014, 17018, 17022, 17023, 17030, 17031, 17033,
   17044, 17047, 17049, 17050]

/-- `strata_seeds.py:538-722`, seeds 1700 to 1799. -/
def strataEasy17 : List ℕ :=
  [17054, 17072, 17074, 17076, 17080, 17081, 17104, 17108, 17112, 17113, 17124, 17128, 17135, 17139, 17147, 17157,
   17181, 17186, 17197, 17200, 17218, 17219, 17241, 17246, 17272, 17273, 17274, 17275, 17290, 17298, 17306, 17327,
   17330, 17335, 17348, 17349, 17351, 17356, 17364, 17367, 17368, 17377, 17386, 17389, 17393, 17422, 17472, 17473,
   17478, 17508, 17516, 17518, 17539, 17562, 17591, 17596, 17599, 17609, 17611, 17621, 17623, 17635, 17663, 17669,
   17670, 17720, 17731, 17747, 17786, 17796, 17826, 17827, 17842, 17881, 17896, 17903, 17907, 17918, 17922, 17948,
   17975, 17989, 18001, 18027, 18030, 18034, 18049, 18057, 18082, 18102, 18138, 18140, 18157, 18161, 18179, 18183,
   18184, 18197, 18203, 18210]

/-- `strata_seeds.py:538-722`, seeds 1800 to 1899. -/
def strataEasy18 : List ℕ :=
  [18246, 18253, 18267, 18268, 18276, 18292, 18321, 18325, 18333, 18346, 18352, 18366, 18370, 18371, 18373, 18374,
   18418, 18442, 18473, 18475, 18505, 18509, 18517, 18524, 18525, 18537, 18543, 18544, 18552, 18557, 18560, 18573,
   18578, 18581, 18598, 18614, 18616, 18620, 18636, 18641, 18648, 18656, 18660, 18676, 18683, 18692, 18713, 18715,
   18722, 18749, 18756, 18765, 18773, 18775, 18780, 18786, 18796, 18798, 18815, 18825, 18841, 18848, 18859, 18876,
   18881, 18898, 18909, 18932, 18933, 18945, 18968, 18972, 18990, 19001, 19016, 19028, 19092, 19118, 19130, 19137,
   19143, 19155, 19170, 19181, 19202, 19266, 19270, 19312, 19320, 19340, 19367, 19383, 19390, 19412, 19414, 19441,
   19458, 19466, 19499, 19554]

/-- `strata_seeds.py:538-722`, seeds 1900 to 1999. -/
def strataEasy19 : List ℕ :=
  [19570, 19572, 19596, 19605, 19617, 19647, 19669, 19673, 19684, 19703, 19715, 19723, 19754, 19766, 19775, 19788,
   19870, 19899, 19918, 19921, 19923, 19995, 20019, 20032, 20048, 20064, 20069, 20071, 20110, 20114, 20135, 20137,
   20138, 20149, 20156, 20157, 20180, 20200, 20213, 20227, 20233, 20243, 20244, 20252, 20323, 20334, 20378, 20406,
   20426, 20434, 20460, 20466, 20528, 20595, 20636, 20736, 20737, 20779, 20855, 20886, 20914, 20919, 20928, 20959,
   20964, 20971, 21071, 21074, 21117, 21142, 21238, 21371, 21587, 21659, 21799, 21866, 21908, 22003, 22078, 22080,
   22139, 22345, 22347, 22364, 22375, 22458, 22560, 22584, 22666, 22669, 22710, 22839, 22869, 22935, 23034, 23042,
   23133, 23157, 23207, 23485]

/-- `strata_seeds.py:538-722` — `STRATA_SEEDS['easy']`. -/
def strataEasy : List ℕ :=
  strataEasy0 ++ strataEasy1 ++ strataEasy2 ++ strataEasy3 ++ strataEasy4 ++ strataEasy5 ++ strataEasy6 ++
  strataEasy7 ++ strataEasy8 ++ strataEasy9 ++ strataEasy10 ++ strataEasy11 ++ strataEasy12 ++ strataEasy13 ++
  strataEasy14 ++ strataEasy15 ++ strataEasy16 ++ strataEasy17 ++ strataEasy18 ++ strataEasy19

/-- `strata_seeds.py:723-907`, seeds 0 to 99. -/
def strataEasiest0 : List ℕ :=
  [2, 51, 53, 67, 76, 91, 100, 112, 116, 121, 128, 129, 148, 151, 157, 159, 169, 174, 180, 184, 216, 220, 229, 231,
   238, 240, 251, 252, 254, 261, 264, 276, 277, 278, 285, 288, 296, 298, 308, 311, 320, 336, 343, 346, 350, 362,
   371, 384, 385, 391, 392, 405, 408, 409, 418, 421, 439, 441, 477, 499, 504, 538, 543, 560, 576, 577, 578, 592,
   603, 610, 614, 615, 621, 622, 623, 642, 649, 655, 659, 665, 677, 698, 706, 707, 714, 723, 734, 748, 751, 753,
   767, 777, 780, 785, 801, 816, 833, 840, 844, 872]

/-- `strata_seeds.py:723-907`, seeds 100 to 199. -/
def strataEasiest1 : List ℕ :=
  [879, 890, 901, 902, 915, 928, 932, 937, 941, 952, 954, 961, 968, 979, 985, 1001, 1019, 1022, 1026, 1032, 1050,
   1073, 1080, 1083, 1087, 1091, 1095, 1101, 1121, 1126, 1132, 1158, 1161, 1167, 1178, 1181, 1198, 1211, 1213, 1244,
   1252, 1269, 1287, 1289, 1306, 1332, 1343, 1344, 1351, 1358, 1369, 1371, 1373, 1376, 1385, 1387, 1389, 1392, 1397,
   1402, 1410, 1432, 1452, 1468, 1511, 1513, 1516, 1519, 1522, 1525, 1580, 1582, 1604, 1608, 1611, 1617, 1620, 1624,
   1636, 1647, 1648, 1652, 1655, 1666, 1680, 1685, 1700, 1703, 1711, 1713, 1715, 1716, 1724, 1741, 1742, 1747, 1750,
   1757, 1781, 1785]

/-- `strata_seeds.py:723-907`, seeds 200 to 299. -/
def strataEasiest2 : List ℕ :=
  [1796, 1805, 1806, 1810, 1828, 1835, 1859, 1866, 1877, 1898, 1908, 1912, 1913, 1930, 1932, 1938, 1940, 1944, 1947,
   1952, 1968, 1976, 1991, 1992, 2010, 2033, 2040, 2043, 2047, 2048, 2055, 2056, 2061, 2068, 2075, 2077, 2079, 2089,
   2093, 2096, 2097, 2100, 2105, 2109, 2132, 2144, 2145, 2156, 2158, 2185, 2200, 2201, 2208, 2255, 2262, 2272, 2283,
   2299, 2310, 2323, 2336, 2366, 2378, 2398, 2401, 2414, 2432, 2452, 2454, 2460, 2463, 2469, 2484, 2512, 2513, 2518,
   2523, 2537, 2541, 2543, 2556, 2559, 2581, 2588, 2593, 2613, 2646, 2656, 2662, 2667, 2679, 2716, 2719, 2730, 2746,
   2753, 2764, 2818, 2819, 2825]

/-- `strata_seeds.py:723-907`, seeds 300 to 399. -/
def strataEasiest3 : List ℕ :=
  [2830, 2831, 2842, 2855, 2858, 2864, 2872, 2895, 2898, 2917, 2921, 2924, 2952, 3018, 3032, 3035, 3050, 3064, 3072,
   3086, 3113, 3116, 3125, 3132, 3155, 3168, 3171, 3178, 3197, 3200, 3203, 3205, 3206, 3218, 3219, 3235, 3242, 3264,
   3283, 3287, 3288, 3296, 3310, 3319, 3343, 3360, 3361, 3364, 3366, 3391, 3392, 3424, 3448, 3454, 3463, 3479, 3484,
   3505, 3528, 3533, 3551, 3553, 3563, 3580, 3587, 3592, 3642, 3643, 3644, 3646, 3655, 3674, 3675, 3676, 3686, 3689,
   3692, 3710, 3712, 3718, 3739, 3740, 3743, 3747, 3769, 3770, 3788, 3795, 3819, 3856, 3860, 3862, 3867, 3878, 3889,
   3890, 3894, 3900, 3901, 3911]

/-- `strata_seeds.py:723-907`, seeds 400 to 499. -/
def strataEasiest4 : List ℕ :=
  [3913, 3941, 3953, 3968, 3977, 3979, 3984, 3994, 4008, 4022, 4024, 4025, 4031, 4037, 4046, 4047, 4063, 4065, 4075,
   4076, 4086, 4092, 4105, 4109, 4120, 4121, 4153, 4177, 4179, 4184, 4206, 4223, 4230, 4235, 4244, 4263, 4277, 4280,
   4288, 4295, 4300, 4313, 4325, 4328, 4358, 4375, 4389, 4394, 4396, 4401, 4402, 4424, 4439, 4448, 4461, 4472, 4498,
   4515, 4537, 4538, 4544, 4550, 4556, 4571, 4589, 4591, 4593, 4602, 4610, 4611, 4646, 4649, 4673, 4708, 4712, 4726,
   4727, 4738, 4739, 4749, 4768, 4797, 4804, 4827, 4841, 4901, 4907, 4918, 4948, 4953, 4959, 4969, 4971, 4996, 5003,
   5007, 5008, 5052, 5060, 5066]

/-- `strata_seeds.py:723-907`, seeds 500 to 599. -/
def strataEasiest5 : List ℕ :=
  [5076, 5087, 5093, 5110, 5113, 5117, 5125, 5142, 5165, 5166, 5181, 5183, 5199, 5200, 5201, 5210, 5220, 5223, 5231,
   5235, 5241, 5265, 5282, 5297, 5323, 5329, 5330, 5335, 5336, 5344, 5373, 5407, 5410, 5417, 5425, 5442, 5443, 5466,
   5469, 5471, 5481, 5494, 5498, 5502, 5508, 5514, 5515, 5529, 5534, 5538, 5547, 5560, 5563, 5575, 5612, 5616, 5622,
   5625, 5627, 5628, 5630, 5633, 5670, 5672, 5708, 5715, 5718, 5720, 5726, 5740, 5745, 5756, 5764, 5782, 5797, 5798,
   5805, 5834, 5845, 5859, 5876, 5918, 5924, 5958, 5966, 5968, 5969, 5985, 5990, 5997, 6002, 6003, 6012, 6023, 6030,
   6035, 6037, 6049, 6057, 6059]

/-- `strata_seeds.py:723-907`, seeds 600 to 699. -/
def strataEasiest6 : List ℕ :=
  [6071, 6097, 6105, 6114, 6135, 6145, 6157, 6158, 6164, 6173, 6183, 6189, 6193, 6196, 6198, 6216, 6225, 6233, 6240,
   6243, 6262, 6287, 6291, 6297, 6329, 6341, 6347, 6352, 6360, 6365, 6382, 6386, 6392, 6402, 6410, 6421, 6423, 6449,
   6455, 6456, 6457, 6460, 6469, 6489, 6504, 6517, 6521, 6530, 6543, 6557, 6561, 6565, 6567, 6574, 6576, 6586, 6588,
   6595, 6621, 6628, 6632, 6633, 6643, 6664, 6685, 6688, 6721, 6724, 6728, 6740, 6750, 6752, 6758, 6778, 6797, 6806,
   6815, 6817, 6853, 6877, 6884, 6899, 6923, 6936, 6944, 6951, 6955, 6958, 6959, 6962, 6970, 6996, 7002, 7007, 7013,
   7037, 7038, 7052, 7071, 7085]

/-- `strata_seeds.py:723-907`, seeds 700 to 799. -/
def strataEasiest7 : List ℕ :=
  [7094, 7099, 7101, 7120, 7131, 7146, 7156, 7166, 7167, 7169, 7175, 7182, 7194, 7198, 7210, 7237, 7241, 7250, 7262,
   7282, 7283, 7288, 7292, 7300, 7322, 7344, 7347, 7355, 7365, 7366, 7375, 7378, 7390, 7391, 7419, 7421, 7432, 7433,
   7465, 7471, 7473, 7478, 7498, 7504, 7506, 7523, 7558, 7581, 7583, 7590, 7611, 7618, 7623, 7626, 7641, 7646, 7669,
   7690, 7713, 7721, 7723, 7738, 7747, 7761, 7767, 7776, 7801, 7803, 7814, 7819, 7824, 7828, 7840, 7842, 7846, 7857,
   7865, 7879, 7902, 7907, 7915, 7930, 7936, 7939, 7950, 7967, 7968, 7978, 7988, 7990, 7991, 7999, 8007, 8020, 8022,
   8032, 8033, 8040, 8047, 8051]

/-- `strata_seeds.py:723-907`, seeds 800 to 899. -/
def strataEasiest8 : List ℕ :=
  [8061, 8078, 8119, 8120, 8135, 8150, 8158, 8163, 8165, 8166, 8185, 8186, 8220, 8248, 8266, 8268, 8269, 8276, 8281,
   8283, 8289, 8320, 8326, 8335, 8351, 8361, 8368, 8378, 8380, 8384, 8392, 8412, 8415, 8417, 8446, 8455, 8474, 8490,
   8493, 8499, 8503, 8508, 8519, 8535, 8538, 8539, 8546, 8556, 8562, 8581, 8585, 8587, 8607, 8612, 8613, 8619, 8623,
   8628, 8648, 8649, 8658, 8660, 8670, 8679, 8681, 8684, 8697, 8714, 8726, 8730, 8739, 8740, 8774, 8777, 8782, 8783,
   8790, 8798, 8853, 8854, 8861, 8865, 8866, 8871, 8887, 8890, 8893, 8908, 8920, 8929, 8945, 8970, 8973, 8979, 8980,
   8986, 8987, 8994, 9000, 9012]

/-- `strata_seeds.py:723-907`, seeds 900 to 999. -/
def strataEasiest9 : List ℕ :=
  [9029, 9046, 9047, 9061, 9067, 9071, 9089, 9102, 9130, 9178, 9210, 9224, 9246, 9259, 9288, 9290, 9305, 9310, 9328,
   9331, 9359, 9363, 9379, 9394, 9402, 9412, 9418, 9424, 9429, 9436, 9440, 9446, 9460, 9479, 9490, 9498, 9513, 9524,
   9538, 9546, 9558, 9563, 9572, 9580, 9586, 9588, 9610, 9629, 9638, 9675, 9677, 9678, 9685, 9693, 9695, 9719, 9738,
   9753, 9757, 9778, 9786, 9788, 9796, 9815, 9830, 9851, 9854, 9858, 9861, 9881, 9884, 9886, 9918, 9929, 9934, 9942,
   9943, 9953, 9963, 9980, 9991, 9999, 10000, 10001, 10011, 10022, 10029, 10035, 10057, 10067, 10072, 10075, 10115,
   10120, 10122, 10126, 10142, 10153, 10155, 10168]

/-- `strata_seeds.py:723-907`, seeds 1000 to 1099. -/
def strataEasiest10 : List ℕ :=
  [10174, 10178, 10185, 10194, 10195, 10226, 10236, 10241, 10258, 10289, 10293, 10310, 10316, 10327, 10342, 10343,
   10356, 10391, 10397, 10398, 10411, 10413, 10417, 10419, 10423, 10439, 10458, 10482, 10489, 10499, 10502, 10511,
   10516, 10520, 10536, 10539, 10548, 10557, 10564, 10567, 10573, 10595, 10596, 10616, 10630, 10632, 10646, 10662,
   10671, 10682, 10684, 10689, 10691, 10702, 10708, 10711, 10736, 10741, 10748, 10755, 10766, 10773, 10774, 10784,
   10786, 10795, 10799, 10801, 10802, 10844, 10869, 10877, 10885, 10886, 10888, 10898, 10903, 10924, 10939, 10945,
   10947, 10973, 10990, 11000, 11006, 11015, 11029, 11032, 11043, 11057, 11078, 11080, 11086, 11088, 11117, 11126,
   11140, 11144, 11160, 11164]

/-- `strata_seeds.py:723-907`, seeds 1100 to 1199. -/
def strataEasiest11 : List ℕ :=
  [11200, 11208, 11218, 11224, 11245, 11251, 11254, 11257, 11264, 11280, 11297, 11303, 11308, 11330, 11337, 11346,
   11353, 11365, 11388, 11389, 11440, 11450, 11460, 11469, 11485, 11487, 11491, 11508, 11517, 11523, 11534, 11544,
   11556, 11568, 11572, 11576, 11577, 11579, 11580, 11584, 11606, 11611, 11621, 11633, 11645, 11646, 11655, 11664,
   11685, 11686, 11693, 11701, 11707, 11712, 11721, 11732, 11734, 11742, 11748, 11763, 11809, 11817, 11825, 11834,
   11845, 11857, 11865, 11877, 11893, 11912, 11917, 11920, 11930, 11943, 11945, 11951, 11954, 11955, 11973, 11982,
   11985, 11986, 11996, 12008, 12018, 12022, 12051, 12052, 12063, 12081, 12107, 12133, 12158, 12200, 12213, 12216,
   12220, 12233, 12238, 12289]

/-- `strata_seeds.py:723-907`, seeds 1200 to 1299. -/
def strataEasiest12 : List ℕ :=
  [12298, 12299, 12302, 12305, 12309, 12324, 12348, 12373, 12375, 12378, 12389, 12393, 12397, 12404, 12405, 12419,
   12422, 12435, 12445, 12447, 12448, 12457, 12459, 12472, 12473, 12479, 12491, 12518, 12530, 12542, 12545, 12586,
   12594, 12605, 12608, 12616, 12617, 12629, 12649, 12662, 12664, 12667, 12674, 12680, 12701, 12703, 12709, 12729,
   12731, 12749, 12760, 12764, 12793, 12828, 12833, 12837, 12845, 12872, 12891, 12892, 12901, 12928, 12929, 12935,
   12946, 12959, 12971, 12973, 12978, 13012, 13013, 13016, 13018, 13022, 13024, 13031, 13033, 13036, 13043, 13064,
   13068, 13070, 13074, 13075, 13109, 13113, 13170, 13171, 13179, 13187, 13191, 13203, 13214, 13226, 13240, 13242,
   13254, 13260, 13272, 13274]

/-- `strata_seeds.py:723-907`, seeds 1300 to 1399. -/
def strataEasiest13 : List ℕ :=
  [13282, 13291, 13296, 13298, 13301, 13314, 13321, 13326, 13327, 13340, 13344, 13358, 13378, 13383, 13432, 13433,
   13435, 13447, 13450, 13473, 13497, 13498, 13499, 13500, 13506, 13531, 13541, 13558, 13575, 13589, 13590, 13640,
   13641, 13650, 13659, 13670, 13673, 13675, 13681, 13682, 13684, 13717, 13718, 13719, 13725, 13726, 13737, 13738,
   13746, 13752, 13761, 13785, 13795, 13799, 13800, 13808, 13817, 13826, 13834, 13838, 13847, 13863, 13879, 13882,
   13889, 13892, 13907, 13918, 13927, 13940, 13962, 13979, 14021, 14043, 14057, 14061, 14064, 14067, 14069, 14084,
   14086, 14090, 14092, 14098, 14105, 14117, 14151, 14163, 14184, 14189, 14194, 14197, 14231, 14233, 14237, 14251,
   14253, 14259, 14266, 14268]

/-- `strata_seeds.py:723-907`, seeds 1400 to 1499. -/
def strataEasiest14 : List ℕ :=
  [14274, 14280, 14306, 14310, 14316, 14318, 14327, 14337, 14345, 14355, 14370, 14376, 14397, 14417, 14421, 14436,
   14497, 14501, 14502, 14503, 14515, 14519, 14526, 14528, 14530, 14558, 14572, 14582, 14612, 14616, 14634, 14645,
   14652, 14653, 14662, 14681, 14689, 14701, 14713, 14718, 14735, 14744, 14757, 14786, 14809, 14812, 14843, 14858,
   14878, 14890, 14891, 14893, 14895, 14898, 14909, 14913, 14917, 14919, 14948, 14972, 14985, 15009, 15023, 15045,
   15073, 15079, 15080, 15085, 15100, 15109, 15113, 15127, 15128, 15134, 15135, 15153, 15154, 15166, 15175, 15191,
   15201, 15203, 15206, 15215, 15217, 15257, 15258, 15283, 15285, 15286, 15298, 15300, 15341, 15342, 15351, 15374,
   15387, 15392, 15397, 15407]

/-- `strata_seeds.py:723-907`, seeds 1500 to 1599. -/
def strataEasiest15 : List ℕ :=
  [15411, 15412, 15418, 15419, 15428, 15443, 15460, 15472, 15480, 15500, 15512, 15514, 15519, 15528, 15534, 15537,
   15538, 15566, 15571, 15596, 15612, 15618, 15640, 15641, 15648, 15668, 15669, 15713, 15717, 15750, 15777, 15781,
   15782, 15784, 15791, 15794, 15807, 15819, 15830, 15834, 15835, 15843, 15863, 15876, 15881, 15883, 15891, 15892,
   15895, 15904, 15905, 15909, 15910, 15916, 15929, 15968, 16002, 16004, 16008, 16030, 16031, 16046, 16054, 16071,
   16072, 16089, 16093, 16103, 16115, 16129, 16163, 16165, 16170, 16180, 16190, 16199, 16201, 16208, 16211, 16214,
   16225, 16229, 16246, 16254, 16283, 16296, 16304, 16319, 16376, 16384, 16433, 16437, 16442, 16445, 16459, 16461,
   16502, 16503, 16536, 16546]

/-- `strata_seeds.py:723-907`, seeds 1600 to 1699. -/
def strataEasiest16 : List ℕ :=
  [16555, 16559, 16569, 16577, 16617, 16626, 16647, 16657, 16661, 16668, 16677, 16688, 16699, 16714, 16719, 16723,
   16727, 16756, 16779, 16785, 16797, 16809, 16814, 16822, 16827, 16830, 16837, 16842, 16847, 16857, 16860, 16868,
   16877, 16881, 16883, 16889, 16919, 16924, 16932, 16934, 16939, 16947, 16956, 16968, 17005, 17009, 17024, 17037,
   17042, 17079, 17098, 17131, 17170, 17185, 17188, 17195, 17209, 17223, 17224, 17231, 17233, 17237, 17264, 17279,
   17302, 17315, 17317, 17342, 17360, 17362, 17380, 17416, 17429, 17431, 17435, 17447, 17463, 17466, 17477, 17486,
   17500, 17519, 17546, 17550, 17573, 17575, 17578, 17583, 17589, 17597, 17612, 17617, 17628, 17642, 17654, 17657,
   17664, 17684, 17700, 17707]

/-- `strata_seeds.py:723-907`, seeds 1700 to 1799. -/
def strataEasiest17 : List ℕ :=
  [17710, 17722, 17741, 17750, 17783, 17787, 17792, 17798, 17806, 17818, 17830, 17841, 17847, 17864, 17870, 17871,
   17890, 17894, 17898, 17904, 17908, 17914, 17921, 17940, 17946, 17977, 17985, 18008, 18010, 18031, 18033, 18038,
   18041, 18059, 18061, 18066, 18114, 18115, 18131, 18151, 18152, 18154, 18158, 18163, 18199, 18216, 18219, 18227,
   18241, 18270, 18293, 18318, 18322, 18328, 18339, 18342, 18372, 18376, 18382, 18383, 18416, 18423, 18426, 18436,
   18445, 18448, 18449, 18454, 18455, 18457, 18469, 18484, 18504, 18514, 18532, 18533, 18538, 18539, 18548, 18562,
   18603, 18612, 18639, 18649, 18650, 18651, 18658, 18667, 18674, 18680, 18695, 18701, 18710, 18741, 18761, 18764,
   18766, 18767, 18776, 18777]

/-- `strata_seeds.py:723-907`, seeds 1800 to 1899. -/
def strataEasiest18 : List ℕ :=
  [18785, 18795, 18819, 18843, 18860, 18864, 18868, 18884, 18919, 18954, 18959, 18966, 18977, 18981, 18991, 18998,
   19010, 19024, 19057, 19073, 19077, 19088, 19095, 19102, 19136, 19142, 19164, 19186, 19207, 19221, 19229, 19238,
   19239, 19248, 19298, 19301, 19302, 19305, 19308, 19309, 19327, 19330, 19331, 19334, 19345, 19356, 19369, 19382,
   19392, 19417, 19437, 19444, 19445, 19463, 19480, 19482, 19485, 19488, 19494, 19530, 19532, 19547, 19565, 19587,
   19597, 19603, 19611, 19624, 19625, 19627, 19652, 19668, 19698, 19706, 19732, 19745, 19748, 19769, 19772, 19779,
   19794, 19815, 19826, 19829, 19831, 19832, 19835, 19850, 19857, 19858, 19887, 19888, 19904, 19906, 19908, 19912,
   19916, 19925, 19936, 19937]

/-- `strata_seeds.py:723-907`, seeds 1900 to 1999. -/
def strataEasiest19 : List ℕ :=
  [19946, 19948, 19959, 19969, 19973, 19981, 20000, 20039, 20063, 20074, 20083, 20099, 20108, 20113, 20121, 20150,
   20179, 20181, 20184, 20188, 20194, 20198, 20211, 20223, 20246, 20273, 20324, 20330, 20332, 20347, 20353, 20367,
   20372, 20379, 20381, 20382, 20383, 20387, 20408, 20411, 20413, 20414, 20415, 20416, 20417, 20431, 20433, 20488,
   20496, 20516, 20579, 20580, 20618, 20620, 20621, 20624, 20629, 20632, 20633, 20693, 20701, 20731, 20751, 20753,
   20756, 20763, 20766, 20769, 20782, 20793, 20794, 20797, 20800, 20807, 20824, 20842, 20844, 20857, 20858, 20863,
   20875, 20881, 20889, 20896, 20921, 20957, 20977, 20981, 20986, 20993, 21022, 21027, 21035, 21043, 21087, 21088,
   21095, 21119, 21131, 21138]

/-- `strata_seeds.py:723-907` — `STRATA_SEEDS['easiest']`. -/
def strataEasiest : List ℕ :=
  strataEasiest0 ++ strataEasiest1 ++ strataEasiest2 ++ strataEasiest3 ++ strataEasiest4 ++ strataEasiest5 ++
  strataEasiest6 ++ strataEasiest7 ++ strataEasiest8 ++ strataEasiest9 ++ strataEasiest10 ++ strataEasiest11 ++
  strataEasiest12 ++ strataEasiest13 ++ strataEasiest14 ++ strataEasiest15 ++ strataEasiest16 ++ strataEasiest17 ++
  strataEasiest18 ++ strataEasiest19

end BLE
