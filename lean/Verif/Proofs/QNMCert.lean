/-
  Generated by tools/gen_qnm.py: slopes of the two cubic splines at the knots, rounded, in units of 1e-5.  Nothing is assumed
  about them; the proofs check how well they solve the spline equations.
-/
namespace Ripple.QNMCert

def mRD0 : List Int := [1063, 886, 883, 790, 892, 999, 858, 879, 877, 879, 886, 888, 887, 890, 893, 893, 891, 899, 897, 897, 901, 900, 900, 899, 902, 906, 904, 907, 912, 906, 910, 914, 908, 913, 915, 918, 918, 917, 921, 920, 919, 922, 926, 924, 928, 927, 927, 931, 929, 933, 936, 935, 934, 937, 941, 940, 940, 939, 942, 946, 944, 948, 951, 950, 950, 949, 952, 956, 954, 958, 958, 956, 964, 962, 962, 966, 964, 968, 968, 966, 974, 972, 972, 976, 974, 978, 981, 980, 979, 983, 986, 985, 984, 987, 991, 989, 993, 993, 991, 999, 997, 997, 1000, 1003, 1003, 1002, 1005, 1007, 1011, 1010, 1010, 1009, 1013, 1015, 1018, 1018, 1016, 1024, 1022, 1022, 1026, 1024, 1028, 1031, 1029, 1033, 1036, 1035, 1034, 1038, 1041, 1040, 1039, 1043, 1045, 1047, 1051, 1050, 1049, 1054, 1052, 1055, 1058, 1056, 1061, 1059, 1063, 1066, 1064, 1067, 1071, 1069, 1073, 1076, 1075, 1074, 1077, 1081, 1079, 1083, 1086, 1084, 1088, 1091, 1089, 1092, 1096, 1094, 1099, 1097, 1100, 1103, 1101, 1106, 1104, 1108, 1110, 1112, 1116, 1115, 1114, 1117, 1121, 1119, 1123, 1125, 1127, 1131, 1130, 1129, 1132, 1136, 1134, 1138, 1140, 1142, 1146, 1145, 1144, 1148]
def mRD1 : List Int := [1150, 1152, 1156, 1154, 1158, 1161, 1159, 1162, 1166, 1164, 1167, 1171, 1169, 1173, 1175, 1177, 1181, 1180, 1180, 1182, 1189, 1186, 1190, 1193, 1192, 1195, 1198, 1197, 1200, 1204, 1201, 1208, 1210, 1210, 1210, 1212, 1219, 1216, 1220, 1223, 1222, 1225, 1227, 1231, 1229, 1233, 1235, 1237, 1241, 1239, 1243, 1245, 1247, 1251, 1249, 1253, 1255, 1257, 1261, 1259, 1263, 1265, 1268, 1270, 1273, 1272, 1274, 1282, 1280, 1280, 1282, 1289, 1286, 1290, 1294, 1291, 1298, 1301, 1299, 1303, 1305, 1307, 1310, 1312, 1316, 1314, 1318, 1320, 1323, 1325, 1327, 1330, 1332, 1336, 1334, 1338, 1340, 1343, 1345, 1347, 1350, 1352, 1356, 1354, 1357, 1363, 1366, 1364, 1367, 1374, 1372, 1374, 1381, 1380, 1378, 1386, 1387, 1390, 1394, 1391, 1399, 1400, 1403, 1405, 1407, 1411, 1409, 1412, 1418, 1420, 1422, 1426, 1424, 1427, 1433, 1435, 1438, 1440, 1442, 1446, 1443, 1451, 1452, 1455, 1458, 1459, 1467, 1464, 1468, 1470, 1472, 1478, 1481, 1479, 1482, 1488, 1490, 1492, 1495, 1497, 1503, 1506, 1504, 1507, 1513, 1515, 1518, 1520, 1522, 1525, 1527, 1533, 1535, 1538, 1540, 1542, 1548, 1551, 1548, 1556, 1558, 1559, 1567, 1563, 1571, 1573, 1574, 1582, 1578, 1586, 1587, 1589, 1596, 1597, 1600, 1602, 1605, 1607, 1613, 1615]
def mRD2 : List Int := [1617, 1623, 1625, 1627, 1633, 1635, 1638, 1639, 1646, 1647, 1649, 1656, 1657, 1660, 1662, 1668, 1670, 1672, 1678, 1680, 1682, 1688, 1693, 1696, 1693, 1700, 1706, 1707, 1709, 1715, 1722, 1718, 1725, 1732, 1728, 1735, 1741, 1741, 1748, 1750, 1752, 1759, 1759, 1765, 1772, 1768, 1775, 1781, 1781, 1788, 1790, 1792, 1798, 1802, 1808, 1810, 1812, 1819, 1819, 1825, 1831, 1833, 1834, 1840, 1846, 1847, 1853, 1858, 1860, 1862, 1868, 1872, 1877, 1883, 1885, 1887, 1893, 1897, 1903, 1905, 1906, 1916, 1921, 1919, 1924, 1934, 1934, 1940, 1946, 1947, 1952, 1958, 1959, 1965, 1970, 1975, 1981, 1982, 1988, 1992, 1997, 2003, 2004, 2009, 2019, 2020, 2021, 2031, 2036, 2036, 2046, 2051, 2052, 2058, 2062, 2068, 2072, 2078, 2079, 2084, 2093, 2097, 2103, 2107, 2113, 2114, 2119, 2128, 2132, 2138, 2142, 2148, 2153, 2157, 2163, 2167, 2176, 2181, 2181, 2191, 2195, 2199, 2209, 2209, 2214, 2223, 2228, 2232, 2241, 2245, 2250, 2255, 2259, 2268, 2272, 2278, 2282, 2290, 2298, 2302, 2307, 2313, 2317, 2326, 2330, 2333, 2347, 2349, 2355, 2359, 2367, 2377, 2376, 2385, 2393, 2397, 2405, 2413, 2417, 2422, 2430, 2438, 2442, 2450, 2458, 2463, 2467, 2475, 2483, 2490, 2498, 2502, 2510, 2518, 2522, 2530, 2538, 2542, 2550, 2557]
def mRD3 : List Int := [2565, 2573, 2580, 2588, 2592, 2599, 2611, 2618, 2622, 2630, 2637, 2645, 2653, 2660, 2668, 2674, 2686, 2693, 2697, 2704, 2716, 2722, 2730, 2738, 2744, 2756, 2762, 2770, 2778, 2784, 2796, 2802, 2809, 2820, 2830, 2838, 2841, 2853, 2863, 2869, 2880, 2891, 2898, 2904, 2916, 2922, 2932, 2943, 2949, 2961, 2967, 2978, 2987, 2997, 3008, 3014, 3025, 3035, 3046, 3052, 3062, 3077, 3081, 3093, 3102, 3112, 3123, 3131, 3147, 3152, 3162, 3176, 3185, 3195, 3205, 3214, 3228, 3237, 3247, 3261, 3270, 3279, 3293, 3303, 3311, 3329, 3337, 3347, 3361, 3369, 3383, 3396, 3404, 3418, 3430, 3442, 3456, 3464, 3478, 3490, 3502, 3515, 3526, 3544, 3552, 3564, 3582, 3589, 3602, 3617, 3633, 3645, 3658, 3670, 3682, 3697, 3713, 3724, 3740, 3756, 3768, 3779, 3795, 3810, 3825, 3841, 3852, 3867, 3886, 3901, 3912, 3927, 3946, 3960, 3975, 3990, 4004, 4024, 4036, 4056, 4070, 4083, 4107, 4120, 4133, 4157, 4170, 4183, 4206, 4222, 4240, 4259, 4271, 4293, 4314, 4327, 4345, 4365, 4386, 4402, 4419, 4440, 4461, 4477, 4498, 4518, 4537, 4559, 4573, 4598, 4621, 4637, 4657, 4681, 4699, 4723, 4746, 4764, 4787, 4811, 4829, 4853, 4875, 4897, 4923, 4945, 4967, 4993, 5015, 5037, 5063, 5087, 5113, 5137, 5162, 5188, 5212, 5238, 5262, 5290]
def mRD4 : List Int := [5318, 5342, 5370, 5399, 5421, 5454, 5480, 5507, 5539, 5564, 5596, 5622, 5652, 5687, 5712, 5742, 5776, 5805, 5834, 5868, 5900, 5932, 5965, 5997, 6034, 6064, 6100, 6136, 6167, 6203, 6236, 6276, 6309, 6347, 6386, 6418, 6461, 6497, 6534, 6575, 6615, 6655, 6694, 6738, 6778, 6816, 6864, 6905, 6947, 6992, 7038, 7079, 7125, 7173, 7220, 7268, 7312, 7359, 7410, 7459, 7513, 7564, 7608, 7666, 7717, 7769, 7825, 7880, 7935, 7988, 8051, 8107, 8164, 8225, 8285, 8345, 8407, 8474, 8534, 8600, 8665, 8728, 8801, 8867, 8937, 9011, 9079, 9152, 9228, 9303, 9377, 9454, 9535, 9615, 9694, 9777, 9863, 9947, 10035, 10122, 10212, 10305, 10397, 10493, 10587, 10684, 10789, 10887, 10989, 11098, 11204, 11315, 11425, 11536, 11655, 11772, 11891, 12017, 12145, 12273, 12398, 12535, 12672, 12812, 12955, 13099, 13250, 13401, 13561, 13700, 13900, 14054, 14184, 14411, 14574, 14744, 14952, 15149, 15353, 15540, 15786, 15966, 16201, 16429, 16632, 16945, 17140, 17395, 17679, 17940, 18260, 18518, 18817, 19162, 19433, 19804, 20150, 20495, 20870, 21275, 21679, 22060, 22530, 22971, 23436, 23986, 24471, 24981, 25607, 26193, 26822, 27468, 28156, 28958, 29712, 30544, 31412, 32358, 33405, 34421, 35609, 36891, 38225, 39707, 41295, 43063, 45053, 47176, 49594, 52348, 55414, 58996, 63203, 68143, 74176, 81702, 91317, 104882, 123056, 160559]
def mRD5 : List Int := [215364, 382848, 830604]
/-- approximate slopes of the ringdown spline -/
def mRD : List Int := mRD0 ++ (mRD1 ++ (mRD2 ++ (mRD3 ++ (mRD4 ++ (mRD5)))))

def mdamp0 : List Int := [1, 59, 1, 234, 128, -145, 17, 16, 39, 40, 43, 42, 42, 44, 38, 43, 43, 39, 39, 43, 43, 39, 40, 40, 39, 43, 43, 39, 40, 40, 40, 40, 40, 40, 40, 40, 40, 40, 40, 40, 40, 41, 37, 37, 41, 40, 40, 41, 37, 37, 41, 40, 41, 37, 37, 42, 37, 37, 42, 36, 38, 38, 36, 42, 36, 38, 37, 38, 38, 37, 38, 37, 39, 33, 39, 37, 37, 39, 33, 38, 38, 33, 38, 38, 34, 35, 34, 38, 38, 34, 35, 35, 35, 35, 34, 38, 38, 34, 35, 35, 35, 36, 32, 32, 36, 35, 35, 35, 35, 36, 32, 32, 36, 36, 32, 32, 36, 36, 32, 33, 33, 31, 37, 31, 33, 32, 33, 32, 33, 33, 32, 33, 32, 34, 28, 33, 33, 28, 33, 33, 29, 29, 33, 33, 29, 30, 29, 33, 33, 29, 30, 30, 30, 30, 30, 30, 30, 30, 30, 31, 27, 27, 31, 30, 30, 31, 27, 27, 32, 27, 27, 32, 27, 27, 32, 26, 28, 27, 28, 27, 27, 28, 27, 29, 23, 28, 28, 23, 28, 28, 24, 24, 28, 28, 24, 25, 25, 24, 28, 28]
def mdamp1 : List Int := [24, 25, 25, 25, 26, 22, 22, 26, 25, 25, 25, 26, 22, 22, 26, 26, 22, 23, 23, 21, 27, 21, 23, 22, 23, 22, 22, 23, 22, 24, 18, 23, 23, 19, 19, 23, 23, 19, 20, 20, 20, 19, 23, 23, 19, 20, 21, 17, 17, 21, 20, 20, 20, 21, 17, 17, 22, 17, 17, 22, 16, 18, 17, 18, 18, 17, 18, 17, 19, 13, 18, 18, 13, 18, 18, 14, 15, 14, 18, 18, 14, 15, 15, 15, 15, 16, 12, 12, 16, 15, 16, 12, 12, 16, 16, 12, 13, 12, 13, 12, 12, 13, 12, 13, 12, 14, 8, 13, 13, 9, 10, 10, 9, 13, 13, 9, 10, 10, 10, 11, 7, 7, 11, 10, 11, 7, 7, 12, 6, 8, 7, 8, 8, 7, 8, 7, 9, 3, 8, 8, 4, 4, 8, 8, 4, 5, 5, 5, 5, 5, 6, 2, 2, 6, 5, 6, 2, 3, 3, 1, 7, 3, -2, 4, 2, 2, 3, -1, -1, 3, 3, -1, 0, 0, 0, 0, 0, 0, 0, 1, -3, -3, 2, -3, -3, 2, -4, -2, -2, -3, -1, -7, -2, -2, -6, -5, -5, -5, -5, -5]
def mdamp2 : List Int := [-5, -5, -5, -5, -5, -4, -8, -8, -3, -9, -7, -7, -8, -6, -12, -7, -7, -11, -11, -7, -7, -11, -10, -10, -9, -13, -13, -9, -9, -13, -13, -8, -14, -12, -11, -17, -12, -12, -16, -15, -16, -12, -12, -15, -18, -18, -14, -15, -14, -18, -18, -13, -19, -18, -16, -22, -17, -17, -21, -20, -20, -20, -20, -20, -20, -20, -19, -23, -23, -18, -24, -22, -21, -27, -22, -22, -26, -25, -25, -25, -25, -25, -25, -24, -28, -28, -24, -28, -31, -27, -27, -32, -27, -27, -31, -30, -30, -29, -33, -33, -29, -29, -33, -33, -31, -37, -32, -32, -36, -35, -35, -35, -35, -34, -38, -38, -34, -37, -41, -37, -37, -41, -41, -37, -36, -44, -43, -39, -39, -43, -42, -42, -43, -42, -46, -45, -45, -45, -45, -45, -44, -48, -47, -47, -48, -46, -52, -47, -47, -51, -49, -53, -53, -48, -54, -52, -52, -56, -56, -52, -51, -59, -58, -54, -54, -58, -58, -57, -61, -60, -60, -60, -60, -60, -59, -63, -63, -62, -66, -65, -65, -65, -65, -65, -64, -67, -72, -67, -67, -71, -70, -70, -69, -73, -72, -73, -73, -72, -76, -75]
def mdamp3 : List Int := [-74, -78, -77, -77, -78, -77, -81, -80, -80, -79, -83, -83, -81, -87, -82, -81, -89, -88, -83, -89, -87, -87, -91, -90, -89, -93, -93, -92, -96, -95, -95, -95, -94, -98, -97, -97, -101, -100, -99, -103, -103, -102, -106, -105, -105, -104, -107, -111, -107, -106, -114, -113, -109, -113, -116, -115, -115, -114, -118, -117, -117, -120, -123, -122, -123, -123, -122, -125, -128, -128, -127, -131, -130, -129, -132, -136, -135, -135, -135, -134, -137, -141, -139, -143, -143, -142, -146, -144, -148, -147, -147, -150, -153, -153, -152, -156, -154, -158, -161, -160, -159, -163, -163, -161, -169, -167, -167, -171, -169, -173, -176, -175, -174, -178, -181, -180, -179, -182, -186, -184, -187, -191, -189, -194, -192, -195, -198, -196, -201, -199, -203, -206, -204, -207, -211, -209, -213, -216, -214, -217, -221, -219, -223, -225, -227, -231, -230, -230, -232, -238, -240, -240, -240, -242, -249, -247, -246, -253, -256, -254, -258, -260, -262, -265, -267, -271, -269, -272, -278, -281, -279, -283, -285, -287, -290, -291, -299, -297, -299, -307, -304, -308, -310, -312, -318, -320, -323, -325, -327, -330, -332, -338, -340, -343, -344, -351, -353, -354, -362, -358]
def mdamp4 : List Int := [-365, -372, -368, -375, -382, -378, -385, -391, -391, -398, -400, -402, -407, -413, -414, -420, -426, -427, -430, -434, -444, -445, -447, -453, -458, -462, -468, -469, -474, -484, -484, -490, -495, -499, -509, -509, -514, -523, -527, -533, -537, -543, -547, -556, -560, -564, -572, -581, -585, -589, -598, -606, -610, -613, -626, -633, -637, -645, -653, -660, -669, -671, -684, -690, -696, -709, -711, -723, -734, -736, -748, -758, -764, -775, -785, -795, -805, -816, -822, -832, -846, -855, -864, -878, -888, -896, -914, -922, -931, -949, -960, -973, -985, -998, -1009, -1025, -1041, -1052, -1068, -1082, -1097, -1113, -1127, -1145, -1163, -1177, -1195, -1213, -1229, -1251, -1268, -1284, -1308, -1328, -1344, -1368, -1391, -1409, -1433, -1454, -1480, -1506, -1527, -1552, -1580, -1607, -1635, -1663, -1689, -1720, -1750, -1779, -1812, -1847, -1883, -1914, -1949, -1988, -2024, -2064, -2108, -2147, -2189, -2235, -2279, -2327, -2378, -2427, -2479, -2536, -2585, -2647, -2711, -2769, -2835, -2902, -2972, -3048, -3121, -3201, -3284, -3370, -3460, -3555, -3653, -3757, -3866, -3980, -4100, -4227, -4361, -4502, -4653, -4812, -4980, -5160, -5352, -5558, -5778, -6016, -6271, -6548, -6850, -7179, -7539, -7935, -8375, -8866, -9416, -10041, -10755, -11581, -12552, -13711, -15123, -16900, -19181, -22417, -26770, -35815]
def mdamp5 : List Int := [-49027, -89734, -198727]
/-- approximate slopes of the damping spline -/
def mdamp : List Int := mdamp0 ++ (mdamp1 ++ (mdamp2 ++ (mdamp3 ++ (mdamp4 ++ (mdamp5)))))

end Ripple.QNMCert
