import Verif.Proof.LiteralKem

/-! # Known answer for ML-KEM-1024: the matrix

Generated numbers; every equation is checked by the kernel. -/

set_option autoImplicit false
set_option maxRecDepth 20000

namespace Verif.Proof
open Verif.Model Verif.Spec

/-- σ -/
def kat4SigN : Nat := 0x849105e48aeae7e4c4fc411d292af36e71edd2314c128da4e0543539b16f7da4

/-- ρ -/
def kat4RhoN : Nat := 0x3959e1aae84c1a4cdad48bb8cc38c34c19c8e553b9dd52651e9adde736820a68

def kat4Ga : List UInt64 := [0x7d828fe8a42b9c7f, 0x3e85057650456061, 0x88bceff693803bd7, 0x26ef66faac6e1aeb, 0x604, 0x0, 0x0, 0x0, 0x8000000000000000, 0x0, 0x0, 0x0, 0x0, 0x0, 0x0, 0x0, 0x0, 0x0, 0x0, 0x0, 0x0, 0x0, 0x0, 0x0, 0x0]

def kat4Gb : List UInt64 := [0x1e9adde736820a68, 0x19c8e553b9dd5265, 0xdad48bb8cc38c34c, 0x3959e1aae84c1a4c, 0xe0543539b16f7da4, 0x71edd2314c128da4, 0xc4fc411d292af36e, 0x849105e48aeae7e4, 0xc7e203835c3352b1, 0xad72fc6d97c56a90, 0x9bd6c06d0e93cc89, 0xdcc05b4e05c2d9be, 0x2593ea8b5176565a, 0xdaf2f6bc1fba2933, 0xee4bd4b1844fed1f, 0x80f7d9767ec44e0b, 0xde6307bd8da85bcb, 0xe47b01a4038450ff, 0x8084b89afb02701d, 0x1883e6d622392497, 0x22d804e394e50eb, 0x9714037218d5078d, 0xd40d5133ac7ddb8b, 0xef896665b6282b5b, 0xe6a94aa58d638731]

theorem kat4Ga_perm : KF (laneBytes kat4Ga) = laneBytes kat4Gb := kf_lit rfl rfl (by decide +kernel)

theorem kat4_g : G (nb 32 katDN ++ [UInt8.ofNat 4]) = (nb 32 kat4RhoN, nb 32 kat4SigN) := by
  unfold G
  rw [nb_single, nb_append (by decide +kernel), SHA3_512_eq, padded_one (w := kat4Ga) (P := 0x800000000000000000000000000000000000000000000000000000000000000000000000000006) rfl (by omega) (by decide +kernel) (by decide +kernel) (by decide +kernel) (by decide +kernel),
    kout_lit rfl (by omega) (by omega) kat4Ga_perm]
  decide +kernel

def kat4A00W0 : List UInt64 := [0x1e9adde736820a68, 0x19c8e553b9dd5265, 0xdad48bb8cc38c34c, 0x3959e1aae84c1a4c, 0x1f0000, 0x0, 0x0, 0x0, 0x0, 0x0, 0x0, 0x0, 0x0, 0x0, 0x0, 0x0, 0x0, 0x0, 0x0, 0x0, 0x8000000000000000, 0x0, 0x0, 0x0, 0x0]

def kat4A00W1 : List UInt64 := [0xc8a8d2d0b77fc701, 0x18ee81256120cc02, 0x63d9e2994df35298, 0xcc5a322d60b1d8b1, 0x4e66c7bf4defbece, 0x7ec48d7f90960fb3, 0xd1648ad9d72c6d27, 0x6363031b0b97f777, 0x42bb80f6b3354958, 0x8d26128a9fee7e4f, 0x67e2cb74892aad48, 0xe76e1ce8de50e508, 0x9c351be3d0594a0c, 0x7e481e6a90e070d6, 0xd26d26c354d618cd, 0x250b21d9e66b16e9, 0x8b981fae17aa1ce8, 0xbeb452feb39442f3, 0xae4cd80dd4cc7af1, 0xedbbf927e120e95, 0x628fa8f2c7d701d8, 0xf5ba1945b7de0648, 0x65ee6440faacafd1, 0xb3bc5b89b9082a96, 0xb469ea1a1cb4d14e]

def kat4A00W2 : List UInt64 := [0x30dafe74ecf28ae8, 0x7e9e03b54b290aad, 0x14c4fdc2e79ea902, 0x9535434f0ae302c9, 0xc528f60128b17198, 0x76a3ef9b7976b8c2, 0x9a7c8b0e1655b67d, 0xc41e75ca0912e6f8, 0x2820ca19668ed66b, 0x81f8f6ed1a1e302f, 0x2cfabd89dfa86e87, 0xee9bf019239cd33e, 0xe1e9dd9c5d4ae0b1, 0x26a0b51e98732ec, 0xd1f1dad6bc968bd9, 0xd88fb44dbf8ce82d, 0x8ca20593501828c0, 0x4223550a9aa2e8f4, 0xa6bed1394c348a4, 0x4f7451b5d2d2df11, 0xc12f2ef0bfe4add2, 0x2324bd7edb031dfd, 0xbfa625f6e6a6b032, 0xaabc3ed4b3833640, 0xb3b5a624af343922]

def kat4A00W3 : List UInt64 := [0xcd84d4873ed33dc3, 0xf59d4eefeb9f3b6f, 0x7646ca07f0fde9fc, 0xcd2996afcd4cd747, 0xe4079499267f0c85, 0xbc0c7e8b06214ca, 0x409574f18bb538ae, 0x1057e02f6288fc3c, 0x3f3f91db67c2c6f2, 0xcf700e02784ce4bf, 0xfa4f23261eb2d8ec, 0xb2bc968163bd32b0, 0x969abb498606af6f, 0x221cce1a5af62da8, 0xce0b57ed82574090, 0x55e21dbf2e64fb9, 0x46fd58264daa3abd, 0xc39edd6ac13226d4, 0x3a56f40872d74ddb, 0x452bc651ab41469b, 0x99b8cfb119ef240c, 0x5f4f6b14af29d71c, 0x74cbad43c12132e9, 0xc725ec1b4362852c, 0xd46d5d58ef86fe20]

def kat4A00W4 : List UInt64 := [0xad19df0562aee766, 0xdcf36b32ae9a7c0, 0x3cc4d9a96f204761, 0xc104fbfa45935f2f, 0x237e1abe7b37e6db, 0xf0145b2b91e83eba, 0xd429fb56ced4e7bd, 0xf506cbc41abe8061, 0x6d5ad0b6b3ab0ad7, 0x624e4375fb2bc024, 0x9604c74f11550fe1, 0x668f4e27ad26b8af, 0xf209ecf7947726d6, 0xb4ab3c36394c59a3, 0x13c3abdf37884b16, 0xf69836fe9d556d43, 0x50a1921c40da4d92, 0x1d4ad4801b604744, 0x14e7f8d3a230bbdd, 0xc2c4948ad88e6d6e, 0x814bdbdab75b13c4, 0x5dc395d914de046f, 0xbd5bf471c82981ee, 0x8b1ef4bbb4ae9995, 0x8f66a7da78187a22]

theorem kat4A00W0_perm : KF (laneBytes kat4A00W0) = laneBytes kat4A00W1 := kf_lit rfl rfl (by decide +kernel)

theorem kat4A00W1_perm : KF (laneBytes kat4A00W1) = laneBytes kat4A00W2 := kf_lit rfl rfl (by decide +kernel)

theorem kat4A00W2_perm : KF (laneBytes kat4A00W2) = laneBytes kat4A00W3 := kf_lit rfl rfl (by decide +kernel)

theorem kat4A00W3_perm : KF (laneBytes kat4A00W3) = laneBytes kat4A00W4 := kf_lit rfl rfl (by decide +kernel)

def kat4A00L : List Nat := [1793, 2044, 183, 3373, 2216, 44, 204, 1554, 293, 3816, 2072, 1321, 3571, 2452, 2530, 1597, 2225, 2845, 3424, 802, 3162, 3308, 4030, 1246, 1983, 1644, 846, 251, 150, 2041, 1165, 2028, 3367, 710, 2519, 2221, 356, 1917, 2039, 185, 795, 1584, 2147, 1173, 821, 3947, 2944, 1067, 3663, 3815, 2719, 296, 3366, 1160, 2733, 2194, 2932, 3628, 2151, 3664, 3664, 3725, 3612, 3702, 2572, 1428, 976, 446, 3125, 3433, 112, 2318, 3690, 1153, 3454, 396, 1238, 3125, 3366, 3366, 1769, 1713, 2534, 541, 1291, 3714, 2588, 378, 4014, 2433, 907, 1071, 916, 4075, 1106, 3051, 2801, 3271, 3540, 3456, 3660, 2394, 526, 2017, 3986, 3515, 2062, 29, 2007, 3884, 4008, 1576, 2792, 3880, 1260, 4071, 218, 2771, 2314, 1202, 949, 2528, 638, 2704, 1950, 3118, 1277, 332, 713, 3632, 3850, 1076, 1333, 2441, 369, 651, 1537, 655, 709, 2956, 2422, 2487, 1007, 1898, 1661, 1371, 3606, 2224, 2684, 3977, 742, 145, 1482, 487, 3012, 3430, 1678, 406, 202, 642, 47, 483, 3354, 3950, 504, 2168, 2158, 3578, 3465, 4011, 3628, 3379, 924, 402, 3056, 3817, 177, 1198, 3165, 3545, 489, 3790, 1842, 3736, 2897, 1696, 2306, 2237, 3222, 3435, 474, 3359, 2093, 2254, 3519, 2884, 2191, 3085, 2088, 1281, 1427, 2592, 1164, 3727, 2722, 169, 853, 1058, 2212, 3124, 916, 3793, 2667, 272, 735, 3373, 437, 1861, 591, 2781, 4068, 3851, 3886, 3090, 3523, 3379, 1854, 3400, 3460, 1788, 3899, 3769, 3823, 2516, 3317, 3743, 253, 127, 1738, 1892, 1863, 1229, 4045, 2410, 3369, 2140, 3852, 615, 1177, 121, 2788, 332, 98, 3723, 199, 188, 2222, 2899, 395, 1871, 149, 964, 2300, 1576, 47, 1406, 528, 3183, 1986, 3510, 3985, 1011, 1215, 1230, 632, 224, 3952, 3788, 728, 491, 806, 1266, 250, 811, 957, 2070, 3222, 2859, 3951, 106, 2438, 2996, 1690, 2697, 1581, 1455, 3610, 460, 34, 1033, 599, 3800, 2903, 3296, 4025, 3684, 3058, 541, 1374, 3024, 2618, 1242, 2086, 4053, 1094, 621, 306, 1708, 3805, 3129, 3547, 3444, 2162, 3904, 2646, 2483, 326, 2740, 1617, 700, 3141, 576, 2543, 2833, 2255, 2459, 1894, 2798, 1378, 3568, 3353, 3082, 2471, 686, 1715, 3315, 269, 1142, 3872, 2710, 1241, 972, 3887, 2357, 2629, 4031, 260, 3516, 2022, 1971, 2750, 2017, 2595, 1003, 488, 697, 1115, 3841, 1981, 3406, 1742, 4021, 1065, 1565, 3712, 427, 3012, 108, 2037, 173, 939, 2923, 2768, 1749, 36, 700, 1531, 1079, 590, 3606, 1295, 277, 1871, 76, 3990, 2954, 3366, 634, 3918, 1640, 1750, 1906, 1940, 3791, 521, 2623, 3161, 916, 3126, 2739, 1716, 1201, 1928, 3571, 939, 316, 3395, 1366, 3741, 879, 1688, 2351, 2637, 1037, 540, 2585, 1104, 1140, 2912, 2049, 2772, 468, 3037, 779, 930, 3981, 1255, 1761, 3693, 3464, 1162, 3145, 1218, 316, 1883, 3499, 3035, 2068]

def kat4A000 : List Nat := [1793, 183, 44, 1554, 2072, 2452, 1597, 2845, 3162, 1246, 1644, 251, 2041, 2028, 2519, 356, 2039, 795, 2147, 821, 1067, 296, 2733, 2932, 2572, 976, 3125, 2318, 396, 3125, 1713, 541, 2588, 2433, 1071, 1106, 2801, 2394, 2017, 29, 1576, 1260, 2771, 1202, 2528, 2704, 3118, 332, 1076, 2441, 651, 655, 2956, 2487, 1898, 1371, 2684, 145, 487, 1678, 202, 47, 504, 2158, 402, 177, 3165, 1842, 1696, 2237, 474, 2254, 2191, 2088, 1427, 1164, 169, 1058, 3124, 2667, 735, 1861, 2781, 1854, 2516, 253, 1738, 1863, 2410, 615, 121, 332, 199, 2222, 395, 149, 2300, 47, 528, 1986, 1215, 632, 728, 806, 250, 957, 3222, 106, 2996, 2697, 1455, 34, 599, 3296, 541, 3024, 1242, 1094, 306, 3129, 2646, 326, 1617, 3141, 2543, 2255, 1894, 1378]

def kat4A001 : List Nat := [2044, 2216, 204, 293, 1321, 2530, 2225, 802, 3308, 1983, 846, 150, 1165, 710, 2221, 1917, 185, 1584, 1173, 2944, 2719, 1160, 2194, 2151, 1428, 446, 112, 1153, 1238, 1769, 2534, 1291, 378, 907, 916, 3051, 3271, 526, 2062, 2007, 2792, 218, 2314, 949, 638, 1950, 1277, 713, 1333, 369, 1537, 709, 2422, 1007, 1661, 2224, 742, 1482, 3012, 406, 642, 483, 2168, 924, 3056, 1198, 489, 2897, 2306, 3222, 2093, 2884, 3085, 1281, 2592, 2722, 853, 2212, 916, 272, 437, 591, 3090, 1788, 3317, 127, 1892, 1229, 2140, 1177, 2788, 98, 188, 2899, 1871, 964, 1576, 1406, 3183, 1011, 1230, 224, 491, 1266, 811, 2070, 2859, 2438, 1690, 1581, 460, 1033, 2903, 3058, 1374, 2618, 2086, 621, 1708, 2162, 2483, 2740, 700, 576, 2833, 2459, 2798, 3082]

theorem kat4A00_eq : SampleNTT 224 (nb 32 kat4RhoN ++ [UInt8.ofNat 0, UInt8.ofNat 0]) = some (rqOf (weave kat4A000 kat4A001)) :=
  sample_lit4 (l := kat4A00L) (P := padN34) rfl rfl rfl rfl rfl kat4A00W0_perm kat4A00W1_perm kat4A00W2_perm kat4A00W3_perm padN34_eq padN34_lt rfl (by decide +kernel) (by decide +kernel) (by decide +kernel) (by decide +kernel) (by decide +kernel) (by decide +kernel) (by decide +kernel)

def kat4A01W0 : List UInt64 := [0x1e9adde736820a68, 0x19c8e553b9dd5265, 0xdad48bb8cc38c34c, 0x3959e1aae84c1a4c, 0x1f0001, 0x0, 0x0, 0x0, 0x0, 0x0, 0x0, 0x0, 0x0, 0x0, 0x0, 0x0, 0x0, 0x0, 0x0, 0x0, 0x8000000000000000, 0x0, 0x0, 0x0, 0x0]

def kat4A01W1 : List UInt64 := [0x99126087724c857a, 0x7e0d1026313f6333, 0x885e11b8310592b1, 0x34130622a94edc9b, 0x6ee07ddc2ca59c3, 0x6d2f99141278146b, 0xb859f3d3e89c8fc, 0x1627630e8a8ff943, 0x6e609058b3758981, 0x2efa96c9a88bc6ae, 0x69c216d759634e8f, 0xb86671acc18b73cb, 0x5965e6ca17949a61, 0x65caa17f572f5d99, 0x4f44554c2c1f7ae, 0xd28f1eac9b200b62, 0xa72c4cf858b9e56b, 0x8b3dd1f8e6afefc4, 0x5abb83e459831766, 0x45880d6c37ca75c7, 0x6d2baff070ba345c, 0x85c78fbcb2d0db6e, 0x19b55c6fb88d38b0, 0x16e725bf65dc2488, 0x1d3148af80668763]

def kat4A01W2 : List UInt64 := [0xf0294a28f7558f4c, 0x50c2449926d73450, 0x1f2ef6529a307bad, 0xa3cadce9feaaccc2, 0xfac523cd6aba3fa9, 0x603e1a25aaecc821, 0xbe8cb64bf9defa38, 0xd3a18d92df968b46, 0x95f2e8ec6e3111ec, 0x126d962ce004d52, 0x86f39797cd6d897d, 0x9963b7d75cc2cbde, 0xde05c946b25f1c08, 0x2e7cd56000313f78, 0x8fa265bf90307dee, 0x89dc88f848f221ff, 0xd5e6b6e537146011, 0x1b7fef7bec77ca7d, 0x7c731de9d486c10d, 0x6f83618cec0c663e, 0xb756906e92cc5470, 0x5b70628ce72d45f4, 0x33507286acc1a1eb, 0xe1a0048fe3899105, 0x599243ae1cf16eb7]

def kat4A01W3 : List UInt64 := [0xd872ce3b6b7f2fa, 0x867cc4e63dc31d9, 0xcd535b2ba95c3f6a, 0xcd1019beee4bf12f, 0xfe1415ef7a06b9c9, 0x1f3566f6ec6c8a35, 0x2ece93afb349d719, 0xb351b72ef01aa812, 0x50e5542341f9cbb6, 0x410cd4c706df4159, 0xab0fd56fcbcc005f, 0x53ebadea527c2014, 0xf4d53c0b59af26fe, 0xca4fd09a1e84dfba, 0x22d99a548fd08e92, 0x2f9934c751165fd, 0xfaf3a3cf9f67cec4, 0xd08e31a12dc81256, 0x3a61afc096063911, 0x1dae4e6ecfe25a98, 0x8cd1c531024bd4e9, 0x49491978a4a914e0, 0x54d560f23f535927, 0xe935baf94e88099b, 0x2876528067d44895]

theorem kat4A01W0_perm : KF (laneBytes kat4A01W0) = laneBytes kat4A01W1 := kf_lit rfl rfl (by decide +kernel)

theorem kat4A01W1_perm : KF (laneBytes kat4A01W1) = laneBytes kat4A01W2 := kf_lit rfl rfl (by decide +kernel)

theorem kat4A01W2_perm : KF (laneBytes kat4A01W2) = laneBytes kat4A01W3 := kf_lit rfl rfl (by decide +kernel)

def kat4A01L : List Nat := [1402, 1224, 1906, 1544, 2322, 825, 3939, 787, 38, 209, 382, 2347, 261, 2947, 3601, 2181, 3227, 1261, 681, 98, 1043, 3123, 2649, 3116, 2013, 3808, 2822, 326, 632, 321, 3993, 1746, 2300, 2204, 3390, 2547, 2949, 1072, 4089, 2216, 782, 630, 278, 2200, 885, 1419, 144, 1766, 1710, 2236, 2472, 2412, 3834, 2290, 846, 1430, 1751, 3105, 2921, 1852, 395, 2764, 1649, 2950, 2657, 2377, 2583, 3692, 2405, 2453, 3933, 1394, 383, 3242, 3685, 3962, 705, 1356, 1093, 79, 2914, 512, 3227, 490, 655, 1725, 2533, 1419, 3320, 708, 1191, 3836, 1711, 3982, 3537, 2227, 1894, 2097, 1113, 2110, 2747, 3189, 2677, 892, 3436, 2176, 3141, 837, 186, 3847, 2991, 1746, 3916, 1368, 2295, 1186, 41, 1295, 1844, 621, 1177, 3108, 3408, 1978, 2608, 1321, 3830, 498, 3266, 2732, 2558, 3534, 970, 2714, 2623, 1707, 973, 3154, 506, 3202, 2796, 602, 3610, 1539, 2616, 3567, 3065, 2916, 3724, 1131, 1675, 3577, 3474, 2584, 3283, 286, 3633, 3782, 744, 2399, 3410, 4, 718, 3478, 294, 2000, 3465, 3286, 1943, 3897, 3718, 3261, 3266, 3445, 951, 2454, 3080, 1521, 1714, 3220, 3589, 1933, 319, 3, 1376, 1997, 3630, 2014, 48, 3065, 613, 2298, 511, 3874, 2120, 2191, 2524, 280, 1120, 881, 1765, 3691, 3541, 3239, 3191, 1982, 4079, 439, 269, 2156, 2516, 478, 3187, 999, 3174, 3776, 396, 2102, 111, 1351, 716, 1769, 1680, 2933, 762, 2943, 950, 718, 3463, 3472, 3121, 1597, 3150, 1660, 2568, 1014, 2396, 698, 859, 3285, 303, 1215, 3822, 411, 3344, 3228, 1721, 1952, 1519, 321, 1534, 2211, 3180, 3950, 1382, 499, 1817, 1181, 4019, 2362, 3790, 290, 2728, 3841, 1838, 1307, 1715, 3259, 505, 564, 1364, 1294, 345, 3572, 1798, 3404, 268, 1524, 3072, 3260, 1391, 253, 1195, 513, 636, 3749, 2989, 1342, 1790, 2802, 2905, 960, 1237, 2991, 1247, 488, 154, 1277, 714, 2281, 4048, 1352, 2458, 557, 1533, 278, 3189, 2356, 761, 3136, 1998, 2550, 975, 3898, 1786, 293, 3528, 2578, 3633, 3336, 2321, 99, 150, 2812, 2657, 2435, 602, 3326, 3694, 2788, 2333, 3406, 587, 784, 453, 2253]

def kat4A010 : List Nat := [1402, 1906, 2322, 787, 209, 2347, 2947, 3227, 681, 1043, 2649, 2013, 326, 321, 2300, 2547, 1072, 782, 278, 885, 144, 1710, 2472, 2290, 1430, 3105, 1852, 2764, 2950, 2377, 2405, 1394, 3242, 1356, 79, 512, 490, 1725, 1419, 708, 1711, 1894, 1113, 2747, 2677, 2176, 837, 2991, 1368, 1186, 1295, 621, 3108, 2608, 498, 2732, 970, 2623, 973, 506, 2796, 1539, 3065, 1131, 2584, 286, 2399, 718, 2000, 1943, 3266, 2454, 1521, 3220, 319, 1376, 2014, 3065, 2298, 2120, 2524, 1120, 1765, 3191, 439, 2156, 478, 999, 396, 111, 716, 1680, 762, 950, 3121, 3150, 2568, 2396, 859, 303, 411, 1721, 1519, 1534, 3180, 499, 1181, 290, 1838, 1715, 505, 1364, 345, 268, 3072, 1391, 1195, 636, 1342, 2802, 960, 2991, 488, 1277, 2281, 2458, 1533, 3189]

def kat4A011 : List Nat := [1224, 1544, 825, 38, 382, 261, 2181, 1261, 98, 3123, 3116, 2822, 632, 1746, 2204, 2949, 2216, 630, 2200, 1419, 1766, 2236, 2412, 846, 1751, 2921, 395, 1649, 2657, 2583, 2453, 383, 705, 1093, 2914, 3227, 655, 2533, 3320, 1191, 2227, 2097, 2110, 3189, 892, 3141, 186, 1746, 2295, 41, 1844, 1177, 1978, 1321, 3266, 2558, 2714, 1707, 3154, 3202, 602, 2616, 2916, 1675, 3283, 744, 4, 294, 3286, 3261, 951, 3080, 1714, 1933, 3, 1997, 48, 613, 511, 2191, 280, 881, 3239, 1982, 269, 2516, 3187, 3174, 2102, 1351, 1769, 2933, 2943, 718, 1597, 1660, 1014, 698, 3285, 1215, 3228, 1952, 321, 2211, 1382, 1817, 2362, 2728, 1307, 3259, 564, 1294, 1798, 1524, 3260, 253, 513, 2989, 1790, 2905, 1237, 1247, 154, 714, 1352, 557, 278, 2356]

theorem kat4A01_eq : SampleNTT 224 (nb 32 kat4RhoN ++ [UInt8.ofNat 1, UInt8.ofNat 0]) = some (rqOf (weave kat4A010 kat4A011)) :=
  sampleNTT_mono 168 224 (by omega) _ _ (sample_lit (l := kat4A01L) (P := padN34) rfl rfl rfl rfl kat4A01W0_perm kat4A01W1_perm kat4A01W2_perm padN34_eq padN34_lt rfl (by decide +kernel) (by decide +kernel) (by decide +kernel) (by decide +kernel) (by decide +kernel) (by decide +kernel) (by decide +kernel))

def kat4A02W0 : List UInt64 := [0x1e9adde736820a68, 0x19c8e553b9dd5265, 0xdad48bb8cc38c34c, 0x3959e1aae84c1a4c, 0x1f0002, 0x0, 0x0, 0x0, 0x0, 0x0, 0x0, 0x0, 0x0, 0x0, 0x0, 0x0, 0x0, 0x0, 0x0, 0x0, 0x8000000000000000, 0x0, 0x0, 0x0, 0x0]

def kat4A02W1 : List UInt64 := [0x1ae0a2ce0341157e, 0xbac72bfb0dfffb9e, 0x90baafce3e4a5b54, 0xc7c6e79b5e769867, 0xb9c0283a21548a8f, 0x17dc8476788adaaf, 0x90a53e00dcc43289, 0xf415fd5c0d17f86d, 0xfd2a0052fb52da31, 0xa8af8d165dd3bc0e, 0x6515e4f008a5f73d, 0x4313b85cd7b550a5, 0x3953c329de517ae2, 0x31c0221272d8d7c9, 0x3c5d58d248379e8b, 0xa18fcef469c802c3, 0x2f42011f18540ced, 0x7016bec5cd821e35, 0xdc634ad24f5d8ee6, 0xdb55346c54a88064, 0x1bc4eef272078a67, 0x4fe4f22a86de8b2, 0xd720cbdd9433098, 0x6f758a2d99e38030, 0x3386e853797b5267]

def kat4A02W2 : List UInt64 := [0x5b40cd9382e881e3, 0xed9c48b35726222f, 0x5f8bfea6e5931835, 0x28198be7de815d5, 0x400579c6365598b, 0x582bb9bc80e81f33, 0xffef966521892908, 0xf0c0f14903780d27, 0xc792aedae767eb85, 0x9fb398828a421e67, 0x68dd14aad4e0d5a9, 0xb3378769626293b3, 0xc976d74d7b5ac130, 0x97be84715da900f, 0xa94035037b166a0e, 0xa5e4f529119402fd, 0xb1f7481e7de2a93e, 0xe7f6b7807aed078c, 0x29d7bbacf68283b7, 0x125734285f17608b, 0x5a8db13f63ded8f3, 0xa65b9c3d663a1ba9, 0x2f5d111a709d2b60, 0x10a31024d6eecd69, 0xa97776b11f94d853]

def kat4A02W3 : List UInt64 := [0xf8241f19b612342d, 0xb1019f60e998a794, 0x87e87cde0be97dca, 0xcb715397eab0b6a6, 0xbb467792f925e827, 0x5d09a3d3e138eda8, 0x9b00188fd9da23cf, 0x3dd7aa4c639a296b, 0xd3d81609056d034a, 0xdbd54c126143f780, 0x927f54ffd742ea6d, 0x971d7ef8900b296f, 0xbf7df6e8a544423e, 0x8edd9df0636905d, 0x3fbd82bdea720296, 0xc69bdf13098a0b36, 0x10f6fb4a252fbfd3, 0x8a3249c6ea399fcc, 0xec05822cb793b390, 0x61ee1f5f045ed74b, 0xc1e50a00840e63c9, 0x79e7fce53ae47155, 0x1890faa218d55541, 0xc2daa8ea413f50dc, 0x31e8fcae266413ef]

theorem kat4A02W0_perm : KF (laneBytes kat4A02W0) = laneBytes kat4A02W1 := kf_lit rfl rfl (by decide +kernel)

theorem kat4A02W1_perm : KF (laneBytes kat4A02W1) = laneBytes kat4A02W2 := kf_lit rfl rfl (by decide +kernel)

theorem kat4A02W2_perm : KF (laneBytes kat4A02W2) = laneBytes kat4A02W3 := kf_lit rfl rfl (by decide +kernel)

def kat4A02L : List Nat := [1406, 1041, 3587, 2604, 2784, 2529, 4091, 223, 3067, 3186, 1210, 1461, 3658, 3299, 2735, 2315, 2151, 1897, 2910, 3705, 1990, 2300, 1162, 533, 2106, 3074, 4025, 3498, 2186, 1895, 3204, 381, 649, 3139, 220, 992, 165, 1753, 2040, 209, 3420, 351, 500, 3491, 2898, 1327, 2560, 4050, 3086, 3387, 1629, 2257, 2223, 986, 1527, 138, 1264, 350, 1381, 1290, 1973, 1485, 952, 1073, 2786, 1303, 2526, 3122, 2387, 3219, 2263, 1837, 530, 3074, 2865, 2536, 2103, 3364, 3416, 965, 707, 3200, 1129, 3311, 399, 3802, 1036, 389, 287, 1056, 1327, 483, 3458, 3164, 1726, 1793, 3814, 1496, 591, 1197, 3171, 1613, 2176, 1354, 1132, 1363, 2011, 2214, 519, 3879, 1262, 444, 483, 3720, 898, 3289, 2880, 757, 1570, 1394, 2227, 2500, 1517, 387, 1427, 2670, 3070, 1528, 1493, 3713, 3709, 2443, 641, 2224, 1369, 1590, 1948, 5, 772, 499, 232, 3016, 3001, 1410, 2312, 2194, 1313, 2406, 4079, 639, 2061, 55, 329, 3087, 1520, 3768, 1895, 3502, 686, 3193, 3687, 1057, 650, 2440, 4019, 2713, 213, 3406, 1194, 3537, 872, 2363, 610, 1686, 1927, 2867, 304, 1452, 3451, 3444, 2422, 252, 2704, 349, 2119, 1982, 3593, 1696, 2838, 55, 53, 2708, 765, 2368, 2321, 3922, 1508, 1002, 681, 2014, 2078, 3956, 3249, 120, 2797, 2055, 1719, 3711, 951, 2088, 3318, 3002, 2519, 2226, 1888, 1521, 1064, 1395, 786, 3471, 990, 1014, 3505, 1448, 1069, 291, 2486, 497, 2084, 2383, 2215, 3737, 3936, 25, 2737, 2012, 3049, 3552, 2172, 2174, 1702, 2827, 2026, 1337, 2929, 636, 1512, 3986, 1938, 1127, 2235, 3802, 312, 3390, 2467, 1488, 975, 3490, 4057, 392, 2816, 1721, 2601, 1593, 2636, 3450, 2621, 52, 1389, 144, 2070, 3389, 1920, 1087, 609, 1217, 3029, 1757, 746, 3444, 1279, 2037, 3986, 662, 11, 3977, 3454, 2417, 574, 1092, 2213, 3950, 3965, 1499, 1680, 99, 2527, 3805, 1544, 41, 2674, 3038, 3458, 1019, 2870, 2208, 777, 3569, 1691, 3388, 4031, 594, 2890, 3951, 3088, 2556, 2617, 3182, 585, 2211, 912, 2363, 3255, 2082, 3077, 1214, 3799, 69, 3935, 3809, 2401, 1596, 1038, 8, 1290, 3102]

def kat4A020 : List Nat := [1406, 2604, 2529, 3067, 1210, 3299, 2315, 1897, 1990, 1162, 2106, 2186, 3204, 649, 220, 165, 2040, 351, 2898, 2560, 1629, 2223, 1527, 1264, 1381, 1973, 952, 2786, 2526, 2387, 2263, 530, 2865, 2103, 707, 1129, 399, 389, 1056, 483, 1726, 1496, 1197, 1613, 1354, 1363, 2214, 1262, 483, 3289, 757, 1394, 2500, 387, 2670, 1528, 2443, 2224, 1590, 5, 499, 3016, 1410, 2194, 2406, 2061, 329, 1520, 686, 1057, 2440, 213, 872, 610, 1927, 304, 2422, 2704, 2119, 1696, 55, 2708, 2368, 1508, 681, 2078, 120, 2055, 951, 3318, 2519, 1888, 1064, 786, 1014, 1069, 2486, 2084, 2215, 2737, 3049, 2174, 2827, 1337, 636, 1938, 2235, 2467, 975, 2816, 2601, 2636, 52, 144, 1920, 609, 3029, 746, 2037, 11, 574, 2213, 1680, 2527, 41, 3038, 2870, 777]

def kat4A021 : List Nat := [1041, 2784, 223, 3186, 1461, 2735, 2151, 2910, 2300, 533, 3074, 1895, 381, 3139, 992, 1753, 209, 500, 1327, 3086, 2257, 986, 138, 350, 1290, 1485, 1073, 1303, 3122, 3219, 1837, 3074, 2536, 965, 3200, 3311, 1036, 287, 1327, 3164, 1793, 591, 3171, 2176, 1132, 2011, 519, 444, 898, 2880, 1570, 2227, 1517, 1427, 3070, 1493, 641, 1369, 1948, 772, 232, 3001, 2312, 1313, 639, 55, 3087, 1895, 3193, 650, 2713, 1194, 2363, 1686, 2867, 1452, 252, 349, 1982, 2838, 53, 765, 2321, 1002, 2014, 3249, 2797, 1719, 2088, 3002, 2226, 1521, 1395, 990, 1448, 291, 497, 2383, 25, 2012, 2172, 1702, 2026, 2929, 1512, 1127, 312, 1488, 392, 1721, 1593, 2621, 1389, 2070, 1087, 1217, 1757, 1279, 662, 2417, 1092, 1499, 99, 1544, 2674, 1019, 2208, 1691]

theorem kat4A02_eq : SampleNTT 224 (nb 32 kat4RhoN ++ [UInt8.ofNat 2, UInt8.ofNat 0]) = some (rqOf (weave kat4A020 kat4A021)) :=
  sampleNTT_mono 168 224 (by omega) _ _ (sample_lit (l := kat4A02L) (P := padN34) rfl rfl rfl rfl kat4A02W0_perm kat4A02W1_perm kat4A02W2_perm padN34_eq padN34_lt rfl (by decide +kernel) (by decide +kernel) (by decide +kernel) (by decide +kernel) (by decide +kernel) (by decide +kernel) (by decide +kernel))

def kat4A03W0 : List UInt64 := [0x1e9adde736820a68, 0x19c8e553b9dd5265, 0xdad48bb8cc38c34c, 0x3959e1aae84c1a4c, 0x1f0003, 0x0, 0x0, 0x0, 0x0, 0x0, 0x0, 0x0, 0x0, 0x0, 0x0, 0x0, 0x0, 0x0, 0x0, 0x0, 0x8000000000000000, 0x0, 0x0, 0x0, 0x0]

def kat4A03W1 : List UInt64 := [0xf1b6e1d3fa950dc3, 0xd45b64c884244f65, 0x695e0a77469f1545, 0x5edfd9e9cff178b7, 0xb95edd30efcec82b, 0xfda92859de08eb1, 0x1c3b09353fee41c5, 0x252cfa73f541abf2, 0x5eaa10c7b110b3b5, 0x6b0acf025dbf7d87, 0x27082029f46cd98b, 0x210fd5b8ca89b598, 0x7bd65700354bcaf8, 0xe70792defad43626, 0xedf9400c3b1edacf, 0x3ba99f65a745323f, 0xd68f7b065eb6ea2, 0xf7a25a8cf170776c, 0x4ec2866e9dc63ea5, 0x557d7a8d7b1c0a8d, 0xcaf744b71f847e10, 0x4b905b82404f6a8, 0x4e5b83ef2bde3b75, 0x508ed89edd9a0d6, 0x30a2cdc0a25780c5]

def kat4A03W2 : List UInt64 := [0x542f0c72c17b6c0f, 0x6c87e5026b7c7365, 0x17c6d4851d3bc45a, 0x5bd863b0f9509231, 0x839869f6d44b4227, 0x8c01b62b43f63639, 0xa8a425302f2ce659, 0x70c717d10498eae1, 0xb53af03114dd606c, 0xf3c7fd7485ceec6f, 0xc019b5c8f6ed3803, 0xc0ec7d9b144d6bb6, 0xa311f63527ef51f9, 0x46eee3c5201f7102, 0x81147206edcb6e4e, 0x3ca423ab1a259953, 0xbd2dfb4dbda25a63, 0xc188f83323dcd235, 0x4c7e069cf3cf9c5c, 0x3d8f11bb282a206a, 0xed0863191465c9a1, 0x63b718cd175688fb, 0x3097ea1f07d496fc, 0xe9ba223b17b7ee37, 0x82c83b0b0c9b8f3]

def kat4A03W3 : List UInt64 := [0x2625ce8a60a9b4bb, 0xcef3175592a8a007, 0xed1c3143176deda8, 0x4c1072a284f40f47, 0x9755dc8f10fd2dc, 0x98b6bb38c0ae99b, 0x6e7df904d4d306a3, 0x4982025245153d40, 0x8529f3501acf840e, 0xf9a178816c1f7de, 0x5ed236056ef86ffe, 0x8f128788a41931fa, 0x15a0d986fc3dfe70, 0x7fd4861ce829fe3e, 0x30725c54bc4672eb, 0x6f70823ac3e26296, 0x220a4e57029861e8, 0x6f2ada29a2928d04, 0xa4467693a0fefabc, 0x167c6af2ddd180cb, 0xc2be0ec2ac919487, 0xe45e5e5a1585889a, 0x46ee899a53f92558, 0x1014add40be34113, 0xbf2114e5027774ef]

theorem kat4A03W0_perm : KF (laneBytes kat4A03W0) = laneBytes kat4A03W1 := kf_lit rfl rfl (by decide +kernel)

theorem kat4A03W1_perm : KF (laneBytes kat4A03W1) = laneBytes kat4A03W2 := kf_lit rfl rfl (by decide +kernel)

theorem kat4A03W2_perm : KF (laneBytes kat4A03W2) = laneBytes kat4A03W3 := kf_lit rfl rfl (by decide +kernel)

def kat4A03L : List Nat := [3523, 2384, 1018, 3613, 438, 1631, 1103, 2114, 1224, 1462, 1492, 340, 1695, 1908, 3594, 1685, 2231, 3863, 2511, 3486, 3807, 693, 3784, 3836, 3376, 1517, 441, 2283, 3552, 2137, 2706, 253, 453, 3812, 1343, 147, 3131, 3873, 427, 3924, 2675, 719, 1317, 2875, 272, 3195, 2576, 1514, 3463, 3063, 605, 3312, 2826, 2230, 3289, 3910, 41, 130, 2087, 2905, 2697, 2956, 4053, 528, 2808, 1212, 53, 1392, 3030, 615, 1078, 4013, 734, 121, 4071, 3500, 2846, 195, 2368, 3807, 575, 1107, 1447, 2550, 2985, 2595, 2926, 1630, 1968, 1679, 3085, 1910, 368, 2255, 602, 3962, 3749, 3171, 3741, 2150, 3778, 2260, 3082, 1969, 2701, 2007, 85, 2017, 3972, 2929, 1860, 3247, 3087, 1974, 705, 199, 1071, 1621, 3187, 1719, 1282, 2174, 2668, 3141, 3387, 2129, 1748, 380, 561, 1289, 249, 1595, 3032, 629, 2882, 3396, 2550, 2438, 2435, 867, 1014, 692, 438, 2240, 1625, 718, 47, 595, 2212, 3610, 2282, 73, 2001, 3185, 3184, 1542, 1245, 785, 2800, 2899, 3183, 3310, 1157, 4055, 967, 63, 3384, 3950, 1480, 411, 1728, 1723, 1101, 2481, 3197, 3086, 505, 3829, 1319, 3939, 785, 42, 3953, 513, 965, 3822, 3654, 1764, 3531, 110, 1138, 2065, 2387, 601, 2842, 570, 3236, 1587, 602, 3034, 2893, 735, 1469, 3363, 988, 818, 2296, 3096, 3164, 3321, 3315, 105, 3198, 1700, 2592, 642, 443, 2289, 317, 3226, 1125, 401, 2147, 3792, 1211, 2715, 2656, 3304, 1573, 114, 2208, 2346, 1877, 3889, 2254, 3802, 1901, 1073, 3121, 3793, 3911, 3904, 644, 1834, 3088, 3524, 4050, 3856, 3528, 1877, 2825, 3737, 3082, 2872, 2923, 152, 1699, 3376, 1236, 3984, 3709, 1030, 1341, 1105, 594, 2080, 3657, 2112, 2767, 1281, 2547, 2130, 2014, 3103, 2070, 376, 3994, 4064, 2159, 1775, 1541, 3363, 2654, 799, 1049, 2186, 647, 2289, 3696, 991, 1788, 3480, 1440, 993, 2558, 3714, 1564, 3400, 2943, 1838, 3142, 1355, 604, 775, 662, 3622, 2755, 2083, 3952, 3718, 2145, 41, 3671, 164, 1058, 2256, 658, 666, 2778, 1778, 2748, 4079, 928, 1897, 1094, 3258, 384, 3549, 2802, 1990, 1814, 2376, 3217, 3114, 3598, 3115]

def kat4A030 : List Nat := [2384, 438, 1103, 1224, 1492, 1695, 1685, 2511, 1517, 2283, 2706, 453, 147, 427, 719, 2875, 3195, 1514, 605, 2826, 3289, 130, 2905, 2956, 2808, 53, 3030, 1078, 121, 195, 575, 1447, 2985, 2926, 1968, 3085, 368, 602, 2150, 3082, 2701, 85, 2929, 3247, 1974, 199, 1621, 1719, 2174, 3141, 1748, 561, 249, 3032, 2882, 2438, 867, 692, 2240, 718, 595, 2282, 2001, 3184, 1245, 2800, 3183, 1157, 63, 411, 1723, 2481, 3086, 1319, 42, 965, 110, 2065, 601, 570, 1587, 3034, 735, 988, 2296, 3164, 3315, 3198, 2592, 443, 317, 1125, 2147, 2715, 3304, 114, 2346, 2254, 1073, 644, 3088, 2825, 2872, 152, 1236, 1341, 594, 2112, 1281, 2130, 3103, 376, 1775, 2654, 1049, 647, 991, 1440, 2558, 2943, 3142, 604, 662, 2083, 41, 1058, 658, 2778]

def kat4A031 : List Nat := [1018, 1631, 2114, 1462, 340, 1908, 2231, 693, 441, 2137, 253, 1343, 3131, 2675, 1317, 272, 2576, 3063, 3312, 2230, 41, 2087, 2697, 528, 1212, 1392, 615, 734, 2846, 2368, 1107, 2550, 2595, 1630, 1679, 1910, 2255, 3171, 2260, 1969, 2007, 2017, 1860, 3087, 705, 1071, 3187, 1282, 2668, 2129, 380, 1289, 1595, 629, 2550, 2435, 1014, 438, 1625, 47, 2212, 73, 3185, 1542, 785, 2899, 3310, 967, 1480, 1728, 1101, 3197, 505, 785, 513, 1764, 1138, 2387, 2842, 3236, 602, 2893, 1469, 818, 3096, 3321, 105, 1700, 642, 2289, 3226, 401, 1211, 2656, 1573, 2208, 1877, 1901, 3121, 1834, 1877, 3082, 2923, 1699, 1030, 1105, 2080, 2767, 2547, 2014, 2070, 2159, 1541, 799, 2186, 2289, 1788, 993, 1564, 1838, 1355, 775, 2755, 2145, 164, 2256, 666, 1778]

theorem kat4A03_eq : SampleNTT 224 (nb 32 kat4RhoN ++ [UInt8.ofNat 3, UInt8.ofNat 0]) = some (rqOf (weave kat4A030 kat4A031)) :=
  sampleNTT_mono 168 224 (by omega) _ _ (sample_lit (l := kat4A03L) (P := padN34) rfl rfl rfl rfl kat4A03W0_perm kat4A03W1_perm kat4A03W2_perm padN34_eq padN34_lt rfl (by decide +kernel) (by decide +kernel) (by decide +kernel) (by decide +kernel) (by decide +kernel) (by decide +kernel) (by decide +kernel))

def kat4A10W0 : List UInt64 := [0x1e9adde736820a68, 0x19c8e553b9dd5265, 0xdad48bb8cc38c34c, 0x3959e1aae84c1a4c, 0x1f0100, 0x0, 0x0, 0x0, 0x0, 0x0, 0x0, 0x0, 0x0, 0x0, 0x0, 0x0, 0x0, 0x0, 0x0, 0x0, 0x8000000000000000, 0x0, 0x0, 0x0, 0x0]

def kat4A10W1 : List UInt64 := [0xc29c8a78a9b772, 0xe53074ef9fa09453, 0xe066fba99d055fa7, 0xf8dd01cb37a699fa, 0xb0f4d4202dd2413d, 0x545d3d18aa375783, 0x44eb96d364ca1c8c, 0x85396c9fb58a86e, 0x4e653a594d2e5af5, 0xc1aec7498d92ba95, 0x8ef2108a10b75b45, 0x7fe9d476e8756a08, 0xd6b55f29e8a2e548, 0x30a75cfeb1ca8320, 0xea200fe0e7bf7bb9, 0xdecfd04b9c336c9d, 0xc9b5397ef822aa43, 0x8545d76f48d772a5, 0xbc6b3847bbb4cbbf, 0x3b4c9de79f5401d8, 0xfa8df1fcd3b2679a, 0xc3ca4c1c38bea292, 0x106755c1d340d415, 0x2fe68c23100632ca, 0xcd91d1fd46c3647c]

def kat4A10W2 : List UInt64 := [0xbdcbb599a4dc29a2, 0xbd93ce1bc27fd2f6, 0x12d56b742e1aa8f2, 0x2780732e635f78a8, 0x28a4924ea23a0602, 0xce9404aa4d0c6af, 0xe51e6e883de41442, 0xff5b5642b6424278, 0xe28a5c0635f1b0ac, 0x6c98d6f0f1a07fc2, 0x1476aaebec080047, 0x86713c50c903cf49, 0xd0a749ca76cea236, 0xf0578448716177c1, 0xa97f0c67d934baa8, 0xe3324ed471aa925c, 0x73a29e163bc77044, 0x347608018615cb20, 0xd995364b11eb06e9, 0x1b641a356569bf62, 0xa232960bcd95ce5a, 0x1615f756ac52acda, 0xdccdd593f224b3d0, 0x8efff5274d1bf936, 0x7b4172b2446ddbb8]

def kat4A10W3 : List UInt64 := [0x3fa8121ae066d8f2, 0x5e5539d2625ecec5, 0x9886e171f443b68a, 0x7908fdfbb8c5d3aa, 0xc90024c21c738019, 0xd8a2f33549c3e0a1, 0x3522428ab2f08d23, 0xb6f7d7edbb87204b, 0x136fb4b811f312fd, 0x37f888f6b0551c7d, 0x5f0b9a60e573cdf1, 0x9d497a4b1ddcda9, 0xc06dec7c118cd589, 0x1450628a7081880e, 0xe77e13ce959f61a7, 0xff6990231c76f3a6, 0x904ead27314c4fb0, 0x39d5b842dea67687, 0x2c4bd66c52611595, 0xe139f6ebc459ccbf, 0x4c2c6e1f3ca293a8, 0xade098fd5b21962e, 0x6a37c784b886f02f, 0x229a6e34c5d399c8, 0xbe1140841303c980]

theorem kat4A10W0_perm : KF (laneBytes kat4A10W0) = laneBytes kat4A10W1 := kf_lit rfl rfl (by decide +kernel)

theorem kat4A10W1_perm : KF (laneBytes kat4A10W1) = laneBytes kat4A10W2 := kf_lit rfl rfl (by decide +kernel)

theorem kat4A10W2_perm : KF (laneBytes kat4A10W2) = laneBytes kat4A10W3 := kf_lit rfl rfl (by decide +kernel)

def kat4A10L : List Nat := [1906, 2715, 2680, 2504, 194, 1328, 148, 2554, 1263, 775, 2021, 1530, 3333, 2713, 1787, 3590, 2554, 2665, 2871, 28, 2269, 991, 577, 733, 1056, 3917, 944, 1400, 2615, 394, 3389, 1349, 3212, 3233, 868, 2413, 1259, 1764, 2216, 4021, 1737, 1337, 1288, 1455, 3374, 1428, 1338, 1254, 2709, 2347, 2445, 3188, 430, 1116, 1883, 267, 138, 3873, 2190, 1696, 2165, 1902, 2516, 2046, 1352, 2606, 2536, 1522, 1717, 525, 2691, 2844, 3326, 2677, 2352, 1979, 1983, 3598, 15, 3746, 3229, 822, 2972, 3332, 3791, 1085, 682, 3970, 2430, 2899, 1481, 1834, 2263, 1780, 1495, 2132, 3007, 2892, 1979, 900, 3179, 3467, 1025, 2549, 3559, 1225, 2619, 1657, 946, 4045, 3569, 4008, 2466, 3522, 2468, 2905, 3531, 3947, 4050, 3111, 3611, 2364, 701, 2703, 3610, 1858, 1387, 301, 2216, 1527, 3683, 1842, 1920, 34, 2566, 2595, 590, 2633, 3880, 3178, 1232, 1194, 2368, 206, 1090, 3649, 2109, 1768, 1310, 1934, 578, 2916, 1602, 1461, 3327, 2826, 1521, 99, 2652, 3624, 4034, 2567, 241, 3439, 3224, 1142, 2048, 3776, 2795, 1898, 2324, 3316, 2307, 1292, 316, 2151, 566, 3306, 2678, 1180, 167, 3101, 375, 1814, 1096, 1400, 2288, 2986, 2356, 1661, 3852, 2711, 604, 2729, 1137, 1261, 818, 1102, 1904, 956, 3606, 2601, 115, 3250, 1557, 24, 1544, 839, 1769, 3760, 2833, 868, 2453, 1581, 2495, 1622, 2613, 1601, 2587, 3301, 3477, 188, 662, 2595, 2290, 1645, 2784, 289, 4008, 3155, 3790, 1573, 2514, 1363, 2654, 2920, 1091, 1823, 1761, 2440, 938, 3165, 3000, 4063, 2312, 407, 896, 455, 1218, 2, 457, 3594, 2499, 852, 755, 3466, 3363, 3848, 2738, 1064, 1314, 1203, 1824, 3000, 2029, 3965, 3510, 303, 499, 2945, 4020, 310, 3197, 1361, 1712, 2191, 2040, 3859, 973, 3671, 2656, 185, 2399, 3290, 477, 2635, 1175, 157, 1417, 2253, 3089, 3783, 109, 236, 392, 1800, 650, 1286, 1812, 1562, 1439, 3305, 3603, 3703, 934, 1903, 796, 2306, 3945, 2831, 3151, 788, 3367, 1258, 1936, 1896, 3750, 1069, 1464, 925, 1429, 1553, 3154, 3430, 3147, 3058, 2508, 3141, 1771, 927, 2273, 2362, 3234, 499, 3182, 1218]

def kat4A100 : List Nat := [1906, 2680, 194, 148, 1263, 2021, 2713, 2554, 2871, 2269, 577, 1056, 1400, 394, 3212, 868, 1259, 2216, 1337, 1455, 1338, 2709, 2445, 430, 1883, 138, 1696, 1902, 2046, 2606, 1522, 525, 2844, 2677, 1979, 15, 822, 1085, 2430, 1481, 2263, 1495, 3007, 1979, 3179, 2549, 2619, 946, 2468, 3111, 701, 1858, 301, 1527, 1920, 2566, 590, 3178, 1194, 206, 2109, 1310, 578, 1602, 3327, 1521, 2652, 241, 1142, 2795, 2324, 2307, 316, 566, 2678, 167, 375, 1096, 2288, 2356, 2711, 2729, 1261, 1102, 956, 115, 1557, 1544, 1769, 868, 1581, 1622, 1601, 3301, 662, 2290, 2784, 3155, 2514, 2654, 1091, 1761, 938, 3000, 407, 455, 2, 2499, 755, 1064, 1203, 3000, 303, 2945, 3197, 1712, 2040, 2656, 2399, 477, 1175, 1417, 3089, 236, 1800, 1286, 1562, 3305]

def kat4A101 : List Nat := [2715, 2504, 1328, 2554, 775, 1530, 1787, 2665, 28, 991, 733, 944, 2615, 1349, 3233, 2413, 1764, 1737, 1288, 1428, 1254, 2347, 3188, 1116, 267, 2190, 2165, 2516, 1352, 2536, 1717, 2691, 3326, 2352, 1983, 3229, 2972, 682, 2899, 1834, 1780, 2132, 2892, 900, 1025, 1225, 1657, 2466, 2905, 2364, 2703, 1387, 2216, 1842, 34, 2595, 2633, 1232, 2368, 1090, 1768, 1934, 2916, 1461, 2826, 99, 2567, 3224, 2048, 1898, 3316, 1292, 2151, 3306, 1180, 3101, 1814, 1400, 2986, 1661, 604, 1137, 818, 1904, 2601, 3250, 24, 839, 2833, 2453, 2495, 2613, 2587, 188, 2595, 1645, 289, 1573, 1363, 2920, 1823, 2440, 3165, 2312, 896, 1218, 457, 852, 2738, 1314, 1824, 2029, 499, 310, 1361, 2191, 973, 185, 3290, 2635, 157, 2253, 109, 392, 650, 1812, 1439, 934]

theorem kat4A10_eq : SampleNTT 224 (nb 32 kat4RhoN ++ [UInt8.ofNat 0, UInt8.ofNat 1]) = some (rqOf (weave kat4A100 kat4A101)) :=
  sampleNTT_mono 168 224 (by omega) _ _ (sample_lit (l := kat4A10L) (P := padN34) rfl rfl rfl rfl kat4A10W0_perm kat4A10W1_perm kat4A10W2_perm padN34_eq padN34_lt rfl (by decide +kernel) (by decide +kernel) (by decide +kernel) (by decide +kernel) (by decide +kernel) (by decide +kernel) (by decide +kernel))

def kat4A11W0 : List UInt64 := [0x1e9adde736820a68, 0x19c8e553b9dd5265, 0xdad48bb8cc38c34c, 0x3959e1aae84c1a4c, 0x1f0101, 0x0, 0x0, 0x0, 0x0, 0x0, 0x0, 0x0, 0x0, 0x0, 0x0, 0x0, 0x0, 0x0, 0x0, 0x0, 0x8000000000000000, 0x0, 0x0, 0x0, 0x0]

def kat4A11W1 : List UInt64 := [0x418b0126c6c9f9e6, 0xc73c556ece920388, 0xb2efd15069e6f60d, 0xf119590e8aa5426a, 0xbc65938500d1ef8c, 0xf56e85931a27c599, 0x2b2f4a25c09ec96a, 0x7ef310f11ba5f6cf, 0x84fb28e3b0c4dad4, 0xafc3a84dc283cd88, 0x939899bccd961156, 0x1329e11a820119db, 0xd03a46566a3f03fc, 0xa2300d3994216feb, 0x279739b6f4432a7f, 0xc1d63dae8368034, 0x5d2676be3d261f04, 0xbdd223a923209906, 0x639f3d23997d2d69, 0x6c86ae142b7752c9, 0xfdd4458e4b517b95, 0xf4e67f32a7f64950, 0xd693301c37eea4dd, 0xf128bfcf534493c4, 0x2c04080168aa58b8]

def kat4A11W2 : List UInt64 := [0xb18c58a9ab1e8966, 0x47168f578b6740be, 0xcab49a2c523d0b8e, 0x9692108a6fdbac90, 0x630e0c43bfd6e286, 0xe971315ff6efa60c, 0x3676c3cde2c4f591, 0x7ddd53774dc97f24, 0xd306073d9d0559d1, 0xf11e990db9f3410a, 0x8ba3e83e0033375f, 0x61e37a8675c2304d, 0xda785b52ad2b9c3e, 0xf8d8148d408be55a, 0x1b14164fc1f2ec47, 0xbed268dc8ad71c89, 0xa54f0d5df190633d, 0x2712d009dc5b4658, 0x60548ad75f136497, 0x75f13e2a91ce12c8, 0x4c3dbffd8bf6968, 0x5b982832d4c7745e, 0x5df84995205dc8ca, 0xfbbb13ce7f449ddf, 0xa8685a024198f240]

def kat4A11W3 : List UInt64 := [0x99ff6e479e7013b2, 0x8a08a037422ce552, 0xf5429a60511c5a4, 0x96fee5d92a136eda, 0x70b8e4c800025d47, 0xfc1d84431e75bd93, 0x18e3701a0c2a9838, 0x9010cc25a9852f0c, 0x3cf721c7b031d1a7, 0xa006cb0c833e388a, 0x2e5de35c07b20e03, 0xb23395a812718a48, 0x8cd482ec47eb301a, 0x8736ebcb99f9d8af, 0x7bd8ba8a883de6a9, 0x394e17c30848b669, 0x291a95f19430b685, 0x6e711b0ae64f88ad, 0xca59e706380a9b2a, 0xd9259379f299a1b9, 0x1b4be4efdb20eae4, 0x707a238cc68aa76e, 0x99e2659a2ed26a2d, 0x98bfd4fcbd9fe244, 0x998d5db63ec7416e]

theorem kat4A11W0_perm : KF (laneBytes kat4A11W0) = laneBytes kat4A11W1 := kf_lit rfl rfl (by decide +kernel)

theorem kat4A11W1_perm : KF (laneBytes kat4A11W1) = laneBytes kat4A11W2 := kf_lit rfl rfl (by decide +kernel)

theorem kat4A11W2_perm : KF (laneBytes kat4A11W2) = laneBytes kat4A11W3 := kf_lit rfl rfl (by decide +kernel)

def kat4A11L : List Nat := [2534, 3231, 1734, 18, 395, 2180, 515, 3305, 1390, 965, 3527, 3936, 2534, 1286, 4049, 2862, 618, 2644, 3722, 1424, 281, 2255, 495, 13, 901, 1625, 2492, 3161, 2599, 2353, 3717, 3926, 2410, 2540, 1472, 1186, 2863, 3314, 1526, 442, 241, 3889, 1150, 3501, 196, 3643, 2856, 2127, 3464, 2108, 3522, 2692, 4035, 1386, 1553, 3289, 2492, 2441, 2963, 413, 513, 424, 2529, 306, 1020, 1008, 1642, 1125, 58, 3773, 367, 2370, 3385, 768, 4002, 679, 1091, 2927, 1849, 633, 52, 872, 2792, 1597, 3101, 64, 1567, 978, 1726, 615, 1629, 2448, 800, 2706, 547, 3037, 3433, 2002, 921, 978, 927, 3222, 1874, 695, 3604, 2154, 1388, 1977, 2897, 2276, 1093, 4061, 2406, 488, 2475, 1418, 396, 3051, 1856, 2230, 3927, 360, 3655, 184, 573, 709, 1178, 3243, 3216, 3514, 2671, 264, 1682, 2153, 1762, 3069, 3139, 224, 3171, 2656, 1775, 1535, 305, 3735, 1425, 3151, 3554, 3132, 1654, 579, 2431, 1244, 887, 3541, 381, 1437, 3333, 985, 1543, 3376, 266, 3892, 3513, 2448, 286, 1535, 823, 3, 2110, 2622, 3467, 772, 1474, 2151, 890, 1566, 3134, 697, 685, 1461, 2680, 1453, 3045, 1032, 1165, 3457, 2040, 3780, 498, 1276, 1046, 433, 3209, 3441, 3210, 1677, 3794, 987, 99, 3865, 3421, 1264, 2213, 1125, 3163, 157, 720, 625, 1175, 310, 1887, 2221, 84, 3206, 3602, 2332, 3626, 3859, 2165, 1686, 2239, 4093, 987, 76, 946, 1793, 1950, 1764, 2559, 1321, 3301, 1058, 55, 138, 1162, 3162, 1297, 2656, 1065, 245, 3802, 310, 2346, 3677, 1790, 1145, 605, 0, 1224, 2958, 880, 3033, 3701, 1073, 3460, 4033, 2104, 681, 2572, 1793, 2275, 193, 1327, 2712, 3109, 268, 1936, 3354, 49, 3195, 1825, 975, 2186, 995, 3203, 3248, 6, 58, 526, 123, 860, 1502, 2094, 2212, 625, 2689, 917, 2851, 26, 3763, 3143, 2094, 3284, 2808, 2520, 2463, 3019, 878, 2439, 3690, 2109, 2216, 2234, 1981, 1641, 1163, 776, 380, 2382, 2131, 182, 2371, 1521, 425, 3369, 2186, 1615, 174, 283, 1767, 2858, 169, 1592, 3696, 2649, 2972, 2465, 3881, 889, 601, 1241, 3758, 2848, 3837, 3044, 436]

def kat4A110 : List Nat := [2534, 1734, 395, 515, 1390, 2534, 2862, 2644, 281, 495, 901, 2492, 2599, 2410, 1472, 2863, 1526, 241, 196, 2127, 2692, 1553, 2492, 2963, 513, 2529, 1020, 1642, 58, 2370, 679, 2927, 633, 872, 1597, 64, 978, 615, 2448, 2706, 3037, 921, 927, 1874, 2154, 1977, 2276, 2406, 2475, 396, 1856, 360, 573, 1178, 3216, 264, 2153, 3069, 224, 2656, 1535, 1425, 3132, 579, 1244, 381, 985, 266, 286, 823, 2110, 772, 2151, 1566, 697, 1461, 1453, 1032, 2040, 1276, 433, 3210, 987, 1264, 1125, 157, 625, 310, 2221, 3206, 2165, 2239, 76, 1793, 1764, 1321, 1058, 138, 3162, 2656, 245, 2346, 1145, 0, 2958, 3033, 2104, 2572, 2275, 1327, 3109, 1936, 3195, 975, 995, 3248, 58, 123, 1502, 2212, 2689, 2851, 3143, 3284, 2520, 3019, 2439, 2216]

def kat4A111 : List Nat := [3231, 18, 2180, 3305, 965, 1286, 618, 1424, 2255, 13, 1625, 3161, 2353, 2540, 1186, 3314, 442, 1150, 2856, 2108, 1386, 3289, 2441, 413, 424, 306, 1008, 1125, 367, 768, 1091, 1849, 52, 2792, 3101, 1567, 1726, 1629, 800, 547, 2002, 978, 3222, 695, 1388, 2897, 1093, 488, 1418, 3051, 2230, 184, 709, 3243, 2671, 1682, 1762, 3139, 3171, 1775, 305, 3151, 1654, 2431, 887, 1437, 1543, 2448, 1535, 3, 2622, 1474, 890, 3134, 685, 2680, 3045, 1165, 498, 1046, 3209, 1677, 99, 2213, 3163, 720, 1175, 1887, 84, 2332, 1686, 987, 946, 1950, 2559, 3301, 55, 1162, 1297, 1065, 310, 1790, 605, 1224, 880, 1073, 681, 1793, 193, 2712, 268, 49, 1825, 2186, 3203, 6, 526, 860, 2094, 625, 917, 26, 2094, 2808, 2463, 878, 2109, 2234]

theorem kat4A11_eq : SampleNTT 224 (nb 32 kat4RhoN ++ [UInt8.ofNat 1, UInt8.ofNat 1]) = some (rqOf (weave kat4A110 kat4A111)) :=
  sampleNTT_mono 168 224 (by omega) _ _ (sample_lit (l := kat4A11L) (P := padN34) rfl rfl rfl rfl kat4A11W0_perm kat4A11W1_perm kat4A11W2_perm padN34_eq padN34_lt rfl (by decide +kernel) (by decide +kernel) (by decide +kernel) (by decide +kernel) (by decide +kernel) (by decide +kernel) (by decide +kernel))

def kat4A12W0 : List UInt64 := [0x1e9adde736820a68, 0x19c8e553b9dd5265, 0xdad48bb8cc38c34c, 0x3959e1aae84c1a4c, 0x1f0102, 0x0, 0x0, 0x0, 0x0, 0x0, 0x0, 0x0, 0x0, 0x0, 0x0, 0x0, 0x0, 0x0, 0x0, 0x0, 0x8000000000000000, 0x0, 0x0, 0x0, 0x0]

def kat4A12W1 : List UInt64 := [0xd29d22a41cb66ef4, 0x443a9e50bc779a42, 0x24ad29c65fb5c035, 0x42a0f2bc335c5dfd, 0x2b4f57a7ff142833, 0x321fa89b89f99e7, 0xf06d54b20d85d2d4, 0x6b021c05fcbb74e, 0xc924550b4800ea6b, 0xf3fb93423abf9689, 0x433843d48e81f4ca, 0x43bf6158f1377849, 0x7b17082de11b178, 0x530114ee4478a503, 0x2005ca34422ad7f0, 0x132cc8cbf71a4199, 0xd73e0f367648875c, 0xb7f3503ccda0ca65, 0x153a025ba1afbb4e, 0xfc80e71433d3fdf5, 0xc52ce47af901096f, 0x6d062cd0200077c6, 0xfc55a15c2ed8377b, 0x26fb7c0cb75a4d2e, 0xdcf3ae683796cfc3]

def kat4A12W2 : List UInt64 := [0x9286fd7245a0db7d, 0x2b61c99f426fdab2, 0x7ab001e5b2053ea9, 0xbe84d3e6f2f5c690, 0xddc1eb5cb9906323, 0x21bcbebd886df6e0, 0x7266a5497e11b437, 0x24dc12d185128973, 0x8b4e90287e4e9920, 0x9af712f6c772e0, 0xcf8c4a6c5488cfd7, 0xc014306e160464dc, 0xd6bcdc700197d91e, 0x6305c4105beb8db4, 0xb6cff7a3682ca437, 0x3ca5223679086052, 0x4986c5af9d155f4d, 0xff3fa7ab5e5a474e, 0xede2bca554f43ff9, 0xcbf398ae984008b7, 0xf28a649a58e0298e, 0x3f6f47c3f927cee0, 0x4f8d376b05acdc50, 0x607ccdecc83b8851, 0x523e647b93d553e0]

def kat4A12W3 : List UInt64 := [0xfc501f516a6af6b5, 0x945a33cf963d9613, 0xdc68a5b84b2bf0f9, 0x3d04d01e2b3e7d4f, 0x2fd5e4a6d74ba360, 0xb44f540beb705895, 0x4d7d7771a52dec8b, 0xb50561e98f9c8273, 0x5d56618679e4b961, 0x8fa84f0ffbf48ea5, 0xce23c551fd838064, 0xb920411c0ae9535c, 0xebcec6c2cc782541, 0x35d8213575efaf12, 0xee3f327b987fe169, 0x8a825a32a4074ddf, 0x7ce26ea2ba6ef69e, 0x7c46e49ba368dfe0, 0x3f80c33d4da1e5b1, 0xafe28c7a685b461, 0xdb1549ecc6158c1a, 0x1bdeaca4bb143836, 0x619b49f91f33080, 0x46cf2cafcb7a2896, 0xad062f10aefa7358]

theorem kat4A12W0_perm : KF (laneBytes kat4A12W0) = laneBytes kat4A12W1 := kf_lit rfl rfl (by decide +kernel)

theorem kat4A12W1_perm : KF (laneBytes kat4A12W1) = laneBytes kat4A12W2 := kf_lit rfl rfl (by decide +kernel)

theorem kat4A12W2_perm : KF (laneBytes kat4A12W2) = laneBytes kat4A12W3 := kf_lit rfl rfl (by decide +kernel)

def kat4A12L : List Nat := [3828, 2918, 1052, 554, 669, 1069, 1946, 3015, 3664, 937, 1348, 3075, 4021, 3173, 3369, 586, 3581, 1477, 3123, 3883, 672, 820, 1064, 4081, 1959, 1269, 1835, 2462, 2207, 2203, 506, 50, 724, 2141, 525, 1355, 109, 1263, 2999, 1532, 448, 2818, 2822, 3750, 2048, 180, 1109, 3218, 1673, 3065, 570, 2356, 1019, 3247, 500, 2280, 980, 900, 2371, 1924, 311, 1423, 3937, 1083, 376, 283, 734, 1800, 1969, 48, 2213, 1095, 1262, 17, 83, 3455, 554, 836, 1482, 512, 409, 420, 3063, 3212, 812, 1473, 2183, 1892, 3894, 992, 1495, 3238, 3488, 972, 848, 2943, 2894, 2811, 2977, 37, 1338, 3921, 1021, 829, 1812, 2062, 4092, 150, 2305, 1967, 3300, 3154, 2941, 2573, 581, 4055, 646, 2857, 4058, 1062, 2463, 1564, 2347, 1002, 517, 3675, 1, 1963, 1680, 3932, 1778, 3390, 3716, 571, 99, 2969, 2908, 3102, 221, 3950, 2157, 3032, 3262, 539, 1079, 283, 2430, 2644, 614, 1847, 649, 2129, 721, 3521, 36, 2450, 3662, 647, 3728, 2228, 736, 3191, 758, 3953, 154, 3440, 2255, 1352, 2668, 2244, 3279, 1613, 1540, 1761, 1072, 3073, 2334, 2429, 1, 3527, 1724, 2893, 2957, 1470, 1040, 92, 1891, 2627, 2092, 2614, 4087, 2924, 82, 134, 1657, 547, 3237, 1235, 1375, 2513, 1455, 2156, 3657, 1140, 3674, 2741, 4007, 4083, 4089, 3907, 1364, 3018, 3554, 2942, 8, 2436, 2222, 3897, 3787, 664, 2272, 2469, 2660, 3880, 1717, 1711, 362, 501, 3152, 319, 3478, 2403, 975, 1443, 2452, 3855, 2859, 2948, 2213, 3526, 3407, 999, 3627, 3329, 3332, 1539, 2979, 3444, 1190, 3422, 1327, 1417, 2928, 190, 3924, 2884, 3211, 734, 421, 1911, 3453, 1844, 3202, 2297, 489, 86, 437, 2966, 2532, 2151, 1633, 1493, 3749, 3912, 4091, 1264, 4008, 1608, 896, 4056, 1361, 572, 3278, 1333, 2793, 448, 65, 2962, 1345, 1922, 716, 3180, 3022, 302, 4015, 1886, 309, 3458, 2357, 3606, 2175, 1977, 3890, 3811, 3551, 116, 676, 1443, 2690, 2536, 3830, 2982, 3746, 3622, 124, 3582, 872, 2490, 1764, 1988, 1457, 2590, 3405, 3123, 3968, 1555, 1460, 2664, 2247, 4066, 2570, 2241, 1557, 3788, 1353, 3505]

def kat4A120 : List Nat := [2918, 554, 1069, 3015, 1348, 3173, 1477, 672, 1064, 1269, 2462, 2203, 50, 2141, 1355, 1263, 1532, 2818, 2048, 1109, 1673, 570, 1019, 500, 980, 2371, 311, 1083, 283, 1800, 48, 1095, 17, 554, 1482, 409, 3063, 812, 2183, 992, 3238, 848, 2894, 2977, 1338, 829, 2062, 2305, 3300, 2941, 581, 2857, 2463, 2347, 517, 1963, 1778, 99, 2908, 221, 3032, 539, 283, 2644, 1847, 2129, 36, 647, 736, 758, 2255, 2668, 3279, 1540, 1072, 2334, 1, 2893, 1470, 92, 2627, 2614, 82, 1657, 3237, 1375, 1455, 1140, 1364, 2942, 2436, 664, 2469, 1717, 362, 3152, 2403, 1443, 2859, 2213, 1539, 1190, 1417, 190, 3211, 421, 1844, 2297, 86, 2966, 2151, 1493, 1608, 1361, 3278, 2793, 65, 1345, 716, 3022, 1886, 2357, 1977, 676, 2690, 2982, 872, 1764]

def kat4A121 : List Nat := [1052, 669, 1946, 937, 3075, 586, 3123, 820, 1959, 1835, 2207, 506, 724, 525, 109, 2999, 448, 2822, 180, 3218, 3065, 2356, 3247, 2280, 900, 1924, 1423, 376, 734, 1969, 2213, 1262, 83, 836, 512, 420, 3212, 1473, 1892, 1495, 972, 2943, 2811, 37, 1021, 1812, 150, 1967, 3154, 2573, 646, 1062, 1564, 1002, 1, 1680, 571, 2969, 3102, 2157, 3262, 1079, 2430, 614, 649, 721, 2450, 2228, 3191, 154, 1352, 2244, 1613, 1761, 3073, 2429, 1724, 2957, 1040, 1891, 2092, 2924, 134, 547, 1235, 2513, 2156, 2741, 3018, 8, 2222, 2272, 2660, 1711, 501, 319, 975, 2452, 2948, 999, 2979, 1327, 2928, 2884, 734, 1911, 3202, 489, 437, 2532, 1633, 1264, 896, 572, 1333, 448, 2962, 1922, 3180, 302, 309, 2175, 116, 1443, 2536, 124, 2490, 1988]

theorem kat4A12_eq : SampleNTT 224 (nb 32 kat4RhoN ++ [UInt8.ofNat 2, UInt8.ofNat 1]) = some (rqOf (weave kat4A120 kat4A121)) :=
  sampleNTT_mono 168 224 (by omega) _ _ (sample_lit (l := kat4A12L) (P := padN34) rfl rfl rfl rfl kat4A12W0_perm kat4A12W1_perm kat4A12W2_perm padN34_eq padN34_lt rfl (by decide +kernel) (by decide +kernel) (by decide +kernel) (by decide +kernel) (by decide +kernel) (by decide +kernel) (by decide +kernel))

def kat4A13W0 : List UInt64 := [0x1e9adde736820a68, 0x19c8e553b9dd5265, 0xdad48bb8cc38c34c, 0x3959e1aae84c1a4c, 0x1f0103, 0x0, 0x0, 0x0, 0x0, 0x0, 0x0, 0x0, 0x0, 0x0, 0x0, 0x0, 0x0, 0x0, 0x0, 0x0, 0x8000000000000000, 0x0, 0x0, 0x0, 0x0]

def kat4A13W1 : List UInt64 := [0x34add0ee0767a833, 0xcfdd564be242ea54, 0x6ee8908080a31299, 0xe56fa7799cf5ef0f, 0x39f38b9290c52ffb, 0x8d7cc6444e1c216, 0xb599229cd2bf7af, 0xcc2eee45a7970641, 0x9cabe21cb1a68ec, 0xcdffb6c53655bd68, 0x54e8c2e49c1db1af, 0xfc02bb1f98a4f6ba, 0x8b38908a31fc2d5d, 0x1d614e2196840cd6, 0x612a7976ca96494f, 0x99eac8bfa3efd29d, 0x742b405c9079bc8, 0x9868d6f2433650b3, 0x211b61b6a4577905, 0xf3d9a8a067b4b22b, 0x8618f375c87d3380, 0x881ac1e882d21b97, 0x5f134d6315c94745, 0x53e52c0878931336, 0xe527ed4876729724]

def kat4A13W2 : List UInt64 := [0x9274de994b805c69, 0x72788c3c518163d6, 0x63552af060d2e34e, 0x306879667d89dcd9, 0xdd9a76b45cc1d8c6, 0xfd0431219c7df082, 0xeb7b09a19e62d3cf, 0x7ee83458be21856e, 0x4de6c31007089c31, 0x50a981372f51c022, 0x4f5bb57a0df1a78c, 0xeee768908143ee51, 0x94ad78a1ff0c5bfc, 0x29602ea8e926ce15, 0x65d242bac9b5be23, 0x1cbd4b247dffc2f5, 0xd754e5d4964dffd9, 0xf8ab22e7248f0ffa, 0x2f889e09ce0402b3, 0xc354e44a2c71ae93, 0xb0fad6ee97612b70, 0x5c1ed63dd1a35148, 0x6f507dca9afc8e02, 0x627d0cb5df2b872, 0x95e5982230c65e19]

def kat4A13W3 : List UInt64 := [0xa3630fad74f799e6, 0xa3a36f9b4184e8f8, 0xe9ba1aaf2b06e04f, 0xda449de4ef946a54, 0xce15856cb4f43606, 0xa5dde73a1ef4814d, 0x7e58081cb7f8f9d2, 0xdbe88ad6551ea090, 0xb9779831f57f84a8, 0xdd05c6c4b2eb4574, 0x927c205924fc62a3, 0x3d7cef9d5bfb25cc, 0x877581c608f7a330, 0xee5e839a929c3269, 0x719bf22601a1766a, 0x355ef21a95c3cd15, 0x2eeafc2244a9a929, 0x5afe0bdc498495f8, 0x52dd05f87fe6a72d, 0x9b6736a975c704f5, 0xbcaeca7778f4717e, 0xae05f3498425e918, 0xfebf4e0929437f87, 0x7b56cd518b754d8a, 0x97daab2065742be]

theorem kat4A13W0_perm : KF (laneBytes kat4A13W0) = laneBytes kat4A13W1 := kf_lit rfl rfl (by decide +kernel)

theorem kat4A13W1_perm : KF (laneBytes kat4A13W1) = laneBytes kat4A13W2 := kf_lit rfl rfl (by decide +kernel)

theorem kat4A13W2_perm : KF (laneBytes kat4A13W2) = laneBytes kat4A13W3 := kf_lit rfl rfl (by decide +kernel)

def kat4A13L : List Nat := [2099, 1658, 3591, 3342, 1197, 1347, 746, 3620, 1611, 3541, 2511, 297, 163, 2056, 2192, 1774, 3855, 3934, 2460, 2679, 1391, 4030, 1327, 2316, 2962, 3896, 1593, 3105, 1249, 1604, 1996, 141, 1967, 703, 2509, 2338, 2905, 1040, 1798, 2681, 3653, 750, 3276, 1678, 2842, 540, 2750, 156, 3432, 1371, 1334, 2924, 3583, 2812, 3505, 2497, 740, 3724, 2644, 3947, 2212, 505, 699, 4032, 3421, 4034, 2609, 2312, 2872, 3432, 1036, 2408, 3617, 1556, 3869, 1172, 2710, 1900, 2681, 1554, 669, 3837, 4003, 3211, 2538, 3209, 1947, 3216, 1029, 1067, 775, 1291, 822, 3876, 2262, 2438, 2309, 1399, 1700, 1563, 283, 690, 1202, 1659, 2208, 3482, 243, 824, 2173, 1884, 2291, 2145, 3177, 2053, 2379, 3561, 628, 3433, 355, 1304, 3132, 1928, 3698, 3636, 210, 3846, 1322, 1589, 3289, 2205, 1661, 1942, 104, 3171, 472, 1484, 1716, 2471, 733, 3848, 3197, 537, 1073, 4048, 975, 1581, 414, 154, 2939, 1774, 389, 3042, 1112, 3715, 382, 2499, 1800, 256, 1731, 1246, 34, 1308, 1839, 2067, 169, 2245, 423, 223, 1402, 1467, 335, 3813, 323, 2312, 1896, 3822, 3068, 197, 511, 1930, 1197, 345, 1742, 3730, 3752, 1538, 809, 3042, 2485, 2988, 578, 1629, 757, 4092, 1149, 1202, 3261, 3473, 3583, 2404, 1492, 1358, 2775, 255, 1167, 3698, 2850, 3978, 691, 64, 2510, 2528, 3976, 2354, 430, 711, 1098, 1358, 195, 695, 1889, 3817, 2774, 2831, 2534, 3961, 3444, 250, 867, 3978, 1256, 1048, 3995, 2614, 4003, 3588, 2822, 2802, 2586, 3739, 2644, 2374, 1263, 2526, 2628, 109, 1078, 2895, 1388, 344, 3534, 2068, 3828, 929, 3559, 2653, 2514, 3983, 3255, 129, 3672, 2311, 3744, 1361, 2774, 3720, 2267, 2122, 1407, 799, 1944, 2967, 1396, 3764, 1202, 3180, 3333, 2621, 3170, 591, 89, 1986, 3218, 604, 3067, 2517, 3311, 983, 816, 3962, 1544, 2076, 1909, 1688, 3122, 2345, 922, 1512, 2798, 1894, 417, 608, 3058, 1817, 3349, 3132, 2709, 3873, 1374, 659, 2473, 1098, 3106, 3759, 2094, 2399, 2436, 3524, 3595, 1455, 1837, 3690, 2175, 95, 733, 3925, 1796, 1884, 1705, 1651, 3739, 1815, 2292, 1911, 3786, 3018]

def kat4A130 : List Nat := [2099, 1197, 746, 2511, 163, 2192, 2460, 1391, 2316, 1593, 1249, 1996, 1967, 2509, 2905, 1798, 750, 1678, 540, 156, 1334, 2812, 740, 2212, 699, 2312, 1036, 1556, 2710, 2681, 669, 2538, 1947, 1029, 775, 822, 2438, 1399, 1563, 690, 1659, 243, 2173, 2291, 3177, 2379, 355, 3132, 210, 1589, 2205, 1942, 3171, 1484, 2471, 3197, 1073, 1581, 154, 1774, 3042, 382, 1800, 1731, 34, 1839, 169, 423, 1402, 335, 2312, 3068, 511, 1197, 1742, 809, 2485, 578, 757, 1202, 2404, 1358, 255, 2850, 64, 2528, 430, 1098, 195, 1889, 2831, 250, 1256, 2614, 2802, 2644, 1263, 2628, 1078, 1388, 2068, 2653, 3255, 2311, 2774, 2122, 799, 2967, 1202, 2621, 591, 1986, 604, 2517, 983, 1544, 1909, 3122, 922, 2798, 417, 3058, 3132, 1374, 2473, 3106, 2399, 1455]

def kat4A131 : List Nat := [1658, 1347, 1611, 297, 2056, 1774, 2679, 1327, 2962, 3105, 1604, 141, 703, 2338, 1040, 2681, 3276, 2842, 2750, 1371, 2924, 2497, 2644, 505, 2609, 2872, 2408, 1172, 1900, 1554, 3211, 3209, 3216, 1067, 1291, 2262, 2309, 1700, 283, 1202, 2208, 824, 1884, 2145, 2053, 628, 1304, 1928, 1322, 3289, 1661, 104, 472, 1716, 733, 537, 975, 414, 2939, 389, 1112, 2499, 256, 1246, 1308, 2067, 2245, 223, 1467, 323, 1896, 197, 1930, 345, 1538, 3042, 2988, 1629, 1149, 3261, 1492, 2775, 1167, 691, 2510, 2354, 711, 1358, 695, 2774, 2534, 867, 1048, 2822, 2586, 2374, 2526, 109, 2895, 344, 929, 2514, 129, 1361, 2267, 1407, 1944, 1396, 3180, 3170, 89, 3218, 3067, 3311, 816, 2076, 1688, 2345, 1512, 1894, 608, 1817, 2709, 659, 1098, 2094, 2436, 1837]

theorem kat4A13_eq : SampleNTT 224 (nb 32 kat4RhoN ++ [UInt8.ofNat 3, UInt8.ofNat 1]) = some (rqOf (weave kat4A130 kat4A131)) :=
  sampleNTT_mono 168 224 (by omega) _ _ (sample_lit (l := kat4A13L) (P := padN34) rfl rfl rfl rfl kat4A13W0_perm kat4A13W1_perm kat4A13W2_perm padN34_eq padN34_lt rfl (by decide +kernel) (by decide +kernel) (by decide +kernel) (by decide +kernel) (by decide +kernel) (by decide +kernel) (by decide +kernel))

def kat4A20W0 : List UInt64 := [0x1e9adde736820a68, 0x19c8e553b9dd5265, 0xdad48bb8cc38c34c, 0x3959e1aae84c1a4c, 0x1f0200, 0x0, 0x0, 0x0, 0x0, 0x0, 0x0, 0x0, 0x0, 0x0, 0x0, 0x0, 0x0, 0x0, 0x0, 0x0, 0x8000000000000000, 0x0, 0x0, 0x0, 0x0]

def kat4A20W1 : List UInt64 := [0x788b0ae608717f48, 0xdde6ffc8306b2b60, 0xa880f25fe38a2d4d, 0xd49bc0123412e5cb, 0x9394682248363b32, 0xd84920552a51b631, 0xa05a91c496c6bdaf, 0xc60c9b8c7d693a8c, 0xcc0e3c40a8e34cca, 0x5549dbc532b0276d, 0x873a5d35587c5f78, 0xaa465aa1a92d592b, 0x55e0281dca8ee14, 0x2e7bea7ac9e8a5e1, 0x6d0af933cd56ccd8, 0xff93fba9b47fd1ec, 0xf2d40fe7d887f07f, 0xb0a76c4a2d6749b6, 0x5f915b8990833f05, 0x9e9614d975ac88a5, 0xb953b52b24460854, 0x91a54391766f4197, 0x7b53262883ec882c, 0x6f5d327b359c7b3e, 0x10973580c269ab4c]

def kat4A20W2 : List UInt64 := [0x3897859073586cc0, 0x294344f2f3138178, 0x3bae7a4f638d6d3b, 0x604a70e311e09e4, 0x93c1cad55ad68d0, 0xb38510dbf6c56c0d, 0xe32eb6166a945907, 0x8f6b215a428afa1c, 0x3c1b3a0665aafe8f, 0x5d66d68779876446, 0x2bb09dda9a584bb0, 0x4bfd59f6b00f5cf8, 0xaa2cda0ff1ec45c0, 0x2e989f57f060cbf8, 0x53725c93cdaa68ae, 0xe9c9c2191bb4adac, 0xbab8b7414fe992b, 0x6f7312ac01ad376a, 0xdb24212ba091b81b, 0x2a907c4987de58e6, 0xf6fcbd6bef26dd92, 0x467eeefeedf07f7e, 0x4f276c13337ba516, 0x8250e395d2c68a86, 0x418ecd751b0f3f87]

def kat4A20W3 : List UInt64 := [0x7cde65de2766549f, 0x68991de8882f07f1, 0xe705325f31154662, 0xf9a81bd7926ce487, 0xb62744812a3027f7, 0x756f49df9801e828, 0x3463b415c6926f6, 0x9953f58af0fa37ac, 0xda69d95ec68600c1, 0xeef7e653c071abc5, 0x1d810ecf21aa3b18, 0x49b8087ca2582d6c, 0x8405457de36007cc, 0xe612de3f7cd8d27c, 0x6238cf302d9c8688, 0xc1f1fa0c3087432c, 0xc9127c349dc57eb3, 0x8ce4dc286c6c2b09, 0x93bd49d20a161f06, 0x12e8924e69895264, 0xe5872413a46f680, 0x755fbaaa2fb38b2f, 0xe7e5f67b356d63df, 0xf2a73301c6aecd06, 0xfe1c522546ed20fb]

theorem kat4A20W0_perm : KF (laneBytes kat4A20W0) = laneBytes kat4A20W1 := kf_lit rfl rfl (by decide +kernel)

theorem kat4A20W1_perm : KF (laneBytes kat4A20W1) = laneBytes kat4A20W2 := kf_lit rfl rfl (by decide +kernel)

theorem kat4A20W2_perm : KF (laneBytes kat4A20W2) = laneBytes kat4A20W3 := kf_lit rfl rfl (by decide +kernel)

def kat4A20L : List Nat := [3912, 1815, 1544, 174, 2187, 1543, 2859, 774, 4040, 3695, 3549, 724, 906, 1534, 242, 2696, 1483, 302, 564, 3073, 1179, 813, 1595, 1155, 2082, 2374, 403, 2915, 2641, 1362, 2336, 3460, 3503, 3179, 1174, 2332, 90, 2250, 2362, 2006, 2956, 201, 2758, 1228, 2275, 1034, 3644, 3264, 1901, 2818, 1330, 3516, 1353, 1925, 3167, 1415, 3381, 933, 2951, 1426, 2349, 2586, 1626, 2724, 3604, 2702, 476, 40, 1374, 3600, 2213, 3230, 2682, 1982, 2094, 3277, 3414, 828, 2809, 1744, 492, 2045, 2484, 4026, 3987, 2047, 2032, 3464, 4071, 3392, 1778, 1179, 3431, 1186, 1900, 2826, 3845, 2099, 2448, 1464, 3985, 2645, 3208, 1882, 1241, 2401, 1182, 133, 1094, 690, 949, 2965, 3264, 1414, 115, 2137, 2199, 1923, 897, 3889, 1266, 1076, 2857, 1747, 909, 1270, 3706, 954, 2532, 480, 3633, 2672, 1540, 3328, 3432, 1370, 3245, 961, 3337, 1728, 1733, 3519, 1296, 2872, 2311, 2373, 1642, 2913, 814, 462, 2810, 1064, 346, 1714, 3983, 4072, 1450, 102, 2874, 961, 1094, 2166, 1913, 3432, 3430, 2821, 2123, 2469, 3546, 2825, 2091, 1487, 15, 3947, 3417, 1215, 1472, 3780, 4081, 3488, 2604, 3978, 203, 3846, 3927, 2441, 3630, 1674, 3498, 2364, 604, 1335, 3500, 2890, 2331, 3105, 2505, 702, 3737, 335, 2932, 2744, 2571, 886, 429, 2752, 786, 1783, 2075, 2331, 2976, 530, 2852, 3693, 3672, 2173, 3145, 2311, 554, 3545, 3878, 1726, 3261, 3951, 1183, 1637, 3623, 1629, 3294, 3863, 3847, 2178, 3560, 2449, 616, 1126, 277, 1523, 1330, 3696, 1159, 1742, 1938, 445, 2472, 3967, 39, 675, 1153, 628, 2230, 3714, 2049, 3577, 3913, 1878, 1782, 1682, 348, 948, 838, 2752, 2615, 3855, 1418, 1343, 409, 12, 1670, 1516, 2521, 3494, 3013, 1818, 960, 3685, 3831, 398, 2619, 538, 3791, 2064, 3101, 726, 600, 1994, 2056, 1179, 1996, 1536, 3555, 1111, 1029, 1992, 2258, 1997, 3647, 301, 2278, 2152, 3484, 770, 2255, 1571, 812, 2164, 3120, 4000, 497, 2876, 1406, 2524, 3124, 295, 2505, 688, 3180, 646, 1244, 2254, 3846, 353, 522, 1181, 957, 1609, 2386, 1688, 590, 3721, 18, 3944, 2630, 1043, 2162, 229]

def kat4A200 : List Nat := [1815, 174, 1543, 774, 906, 242, 1483, 564, 1179, 1595, 2082, 403, 2641, 2336, 1174, 90, 2362, 2956, 2758, 2275, 3264, 2818, 1353, 3167, 933, 1426, 2586, 2724, 476, 1374, 3230, 1982, 3277, 2809, 492, 2484, 2032, 1179, 1900, 2099, 1464, 3208, 1241, 1182, 1094, 949, 3264, 115, 2199, 897, 1076, 1747, 1270, 2532, 2672, 3328, 3245, 1728, 1296, 2311, 1642, 814, 2810, 346, 1450, 2874, 1094, 1913, 2123, 2825, 1487, 1215, 2604, 2441, 2364, 1335, 2331, 2505, 335, 2744, 886, 2752, 1783, 2331, 530, 2173, 2311, 1726, 1183, 1629, 2178, 616, 277, 1330, 1742, 445, 39, 1153, 2230, 1878, 1682, 948, 2752, 1418, 409, 1670, 2521, 1818, 398, 538, 3101, 600, 2056, 1996, 1111, 1992, 1997, 2278, 770, 1571, 2164, 497, 1406, 3124, 2505, 3180, 1244, 353]

def kat4A201 : List Nat := [1544, 2187, 2859, 724, 1534, 2696, 302, 3073, 813, 1155, 2374, 2915, 1362, 3179, 2332, 2250, 2006, 201, 1228, 1034, 1901, 1330, 1925, 1415, 2951, 2349, 1626, 2702, 40, 2213, 2682, 2094, 828, 1744, 2045, 2047, 1778, 1186, 2826, 2448, 2645, 1882, 2401, 133, 690, 2965, 1414, 2137, 1923, 1266, 2857, 909, 954, 480, 1540, 1370, 961, 1733, 2872, 2373, 2913, 462, 1064, 1714, 102, 961, 2166, 2821, 2469, 2091, 15, 1472, 203, 1674, 604, 2890, 3105, 702, 2932, 2571, 429, 786, 2075, 2976, 2852, 3145, 554, 3261, 1637, 3294, 2449, 1126, 1523, 1159, 1938, 2472, 675, 628, 2049, 1782, 348, 838, 2615, 1343, 12, 1516, 3013, 960, 2619, 2064, 726, 1994, 1179, 1536, 1029, 2258, 301, 2152, 2255, 812, 3120, 2876, 2524, 295, 688, 646, 2254, 522]

theorem kat4A20_eq : SampleNTT 224 (nb 32 kat4RhoN ++ [UInt8.ofNat 0, UInt8.ofNat 2]) = some (rqOf (weave kat4A200 kat4A201)) :=
  sampleNTT_mono 168 224 (by omega) _ _ (sample_lit (l := kat4A20L) (P := padN34) rfl rfl rfl rfl kat4A20W0_perm kat4A20W1_perm kat4A20W2_perm padN34_eq padN34_lt rfl (by decide +kernel) (by decide +kernel) (by decide +kernel) (by decide +kernel) (by decide +kernel) (by decide +kernel) (by decide +kernel))

def kat4A21W0 : List UInt64 := [0x1e9adde736820a68, 0x19c8e553b9dd5265, 0xdad48bb8cc38c34c, 0x3959e1aae84c1a4c, 0x1f0201, 0x0, 0x0, 0x0, 0x0, 0x0, 0x0, 0x0, 0x0, 0x0, 0x0, 0x0, 0x0, 0x0, 0x0, 0x0, 0x8000000000000000, 0x0, 0x0, 0x0, 0x0]

def kat4A21W1 : List UInt64 := [0x8c60c8dd01f396e1, 0xc58780315f7e8078, 0x9d7e0f75fbb904c6, 0x876ee5aa1fa30ec0, 0xc413a64c9e218d87, 0x403cdb4cf6d74e3e, 0xec50905fee8499e, 0xbabc4ce74bf79db0, 0x9ab29b52b479d70, 0xc9d99e4d8b288e84, 0xe6c1688173e8ad62, 0xa2d586f61aec5f21, 0x4a8dc64b02b418d3, 0x614cec4ad0460c06, 0x406eff8fab126c0c, 0xba0aa0f3b8e255de, 0x570d36777e3b3fcc, 0xdd3b8eab9fec5ced, 0x28561b2aff8d0ae, 0x9204a768bedb5013, 0x3113f99f179e22cb, 0x9165d1d0c85db7e3, 0x28256cc6c05ccf0b, 0xd42ebf8a11fdcfc4, 0x523f43b2e9e5998]

def kat4A21W2 : List UInt64 := [0x981cfd6247a033bf, 0x85d752dfd6eef13a, 0x44778c6520795e9d, 0xe4ab66e212db30ae, 0x7879a35e92085fd, 0xdf3b366a8ec06c85, 0xb205f19389887357, 0xc3281e74fb4a19f3, 0x1decf78c40a979f, 0x67a3e74e9f0d9cf4, 0x1bb669205b27c82a, 0x6c7d2070abc0fa7a, 0xcfcf4d9d5c29b1f6, 0x8dbbf8847a192fc3, 0xff5c0c09fd969d44, 0xd6c7234bee99e79c, 0xd00bedf293edc44a, 0xe7a2e0b0e2eb7691, 0x6f1e1c01e559820b, 0x18895e82eb73ff7f, 0xd1a7fef37d98cb90, 0xb27198d30ca0aa2e, 0x1bdd4ab39d9780d1, 0x9d269d62e82d136b, 0xb791c98a917faad8]

def kat4A21W3 : List UInt64 := [0x7c887a6aaa8a8a78, 0x476ef09981a26ed1, 0xceab66247ab439f8, 0xa40821e7b3719e2d, 0xb02f475e5c86c6dc, 0x766828297dd2d519, 0xfc27818f64034fd9, 0xd868779bf413242a, 0x7122dae13d15ed7a, 0x7f22ebdbb28c8775, 0x4171c191c2a1cb73, 0xfb2c453d92136752, 0xb1648282712bb842, 0xa83d7ce028448ccd, 0x78eba1f179600aaa, 0x361ee03bb879ddca, 0x23b156556fe0ead6, 0x27ec08c18f8ee8f3, 0x5ca8e9bb14c3d540, 0x403908b0ebf7ae0f, 0x25aed133d135406, 0x37ba3e7512b189c, 0x19e3cec3b9ed8ec1, 0xbc026c590e1d06a0, 0x65aa65bfae0ff804]

theorem kat4A21W0_perm : KF (laneBytes kat4A21W0) = laneBytes kat4A21W1 := kf_lit rfl rfl (by decide +kernel)

theorem kat4A21W1_perm : KF (laneBytes kat4A21W1) = laneBytes kat4A21W2 := kf_lit rfl rfl (by decide +kernel)

theorem kat4A21W2_perm : KF (laneBytes kat4A21W2) = laneBytes kat4A21W3 := kf_lit rfl rfl (by decide +kernel)

def kat4A21L : List Nat := [1761, 3897, 3329, 3213, 3168, 1928, 3712, 1527, 49, 2168, 1733, 76, 3001, 1887, 3599, 2519, 3776, 2608, 2591, 3674, 1902, 2168, 397, 2530, 1612, 314, 3780, 1251, 1751, 1231, 3291, 1027, 2462, 3716, 1534, 144, 3781, 2816, 1949, 1215, 3303, 3012, 186, 2519, 2887, 2898, 2857, 154, 3716, 648, 3467, 2532, 2521, 1580, 2221, 1854, 2177, 3094, 486, 1522, 2796, 3937, 1414, 2605, 2259, 2881, 2818, 3172, 2701, 100, 1548, 3332, 3146, 1230, 3169, 1728, 2834, 2298, 3839, 1030, 1502, 3621, 952, 2575, 2570, 3275, 2879, 2019, 1655, 211, 3415, 1486, 4076, 2745, 2958, 3539, 174, 3981, 687, 1563, 645, 304, 2896, 3053, 1896, 74, 2962, 556, 1950, 2545, 1017, 785, 959, 2563, 583, 4054, 2076, 937, 3825, 3438, 735, 3445, 3461, 1513, 121, 1618, 1932, 1095, 174, 3507, 530, 1646, 1195, 4062, 133, 3730, 2613, 2169, 1287, 1736, 3776, 1704, 2870, 3571, 855, 2183, 905, 3865, 517, 3899, 2585, 4020, 3700, 641, 4035, 2425, 1034, 1932, 3791, 29, 3316, 217, 3743, 3700, 1955, 678, 1992, 1458, 2336, 2918, 2587, 4007, 3008, 1802, 3360, 1735, 502, 667, 3420, 1241, 4047, 3132, 2351, 1953, 2180, 3007, 1165, 2516, 3478, 159, 3084, 4085, 1948, 2462, 3054, 564, 1735, 1197, 3524, 2366, 3570, 190, 464, 1897, 747, 2830, 736, 3706, 523, 1432, 485, 448, 3870, 2038, 1023, 3767, 3714, 2197, 24, 3257, 3480, 3895, 2046, 3354, 2680, 2216, 2730, 1958, 3208, 3351, 622, 2074, 153, 1775, 2119, 927, 2740, 583, 2918, 3306, 3629, 1817, 1971, 542, 1032, 3530, 1734, 1480, 1886, 756, 2480, 3409, 3538, 663, 2088, 1894, 4057, 52, 3940, 2072, 3111, 687, 804, 3905, 1947, 1671, 2776, 3799, 3349, 3603, 730, 1810, 1909, 2248, 2994, 3773, 3874, 1847, 459, 3114, 401, 1820, 577, 1653, 531, 985, 3141, 4018, 2114, 699, 625, 2088, 356, 3291, 1164, 644, 3296, 983, 2728, 170, 2400, 3863, 2977, 1934, 3530, 1949, 3000, 3587, 1566, 3427, 234, 1790, 1621, 2837, 803, 3727, 3982, 3096, 3080, 638, 1344, 3133, 2836, 3739, 3240, 245, 1966, 3775, 2224, 912, 1600, 1344, 3347, 307, 2797, 37]

def kat4A210 : List Nat := [1761, 3168, 1527, 2168, 76, 1887, 2608, 1902, 397, 1612, 1251, 1231, 1027, 1534, 2816, 1215, 3012, 2519, 2898, 154, 2532, 1580, 1854, 3094, 1522, 1414, 2259, 2818, 2701, 1548, 1230, 1728, 2298, 1502, 2575, 3275, 2019, 211, 2745, 174, 1563, 304, 3053, 74, 556, 2545, 785, 2563, 2076, 735, 121, 1932, 174, 1646, 133, 2169, 1736, 2870, 2183, 517, 641, 1034, 29, 217, 678, 1458, 2918, 3008, 1735, 667, 3132, 1953, 3007, 2516, 3084, 2462, 564, 1197, 190, 1897, 2830, 523, 485, 2038, 2197, 3257, 2680, 2730, 3208, 2074, 1775, 927, 583, 3306, 1971, 1032, 1480, 756, 663, 1894, 2072, 687, 1947, 2776, 1810, 2248, 1847, 3114, 1820, 1653, 985, 2114, 625, 356, 1164, 3296, 2728, 2400, 1934, 3000, 234, 1621, 803, 3080, 1344, 2836, 245, 2224]

def kat4A211 : List Nat := [3213, 1928, 49, 1733, 3001, 2519, 2591, 2168, 2530, 314, 1751, 3291, 2462, 144, 1949, 3303, 186, 2887, 2857, 648, 2521, 2221, 2177, 486, 2796, 2605, 2881, 3172, 100, 3146, 3169, 2834, 1030, 952, 2570, 2879, 1655, 1486, 2958, 687, 645, 2896, 1896, 2962, 1950, 1017, 959, 583, 937, 1513, 1618, 1095, 530, 1195, 2613, 1287, 1704, 855, 905, 2585, 2425, 1932, 3316, 1955, 1992, 2336, 2587, 1802, 502, 1241, 2351, 2180, 1165, 159, 1948, 3054, 1735, 2366, 464, 747, 736, 1432, 448, 1023, 24, 2046, 2216, 1958, 622, 153, 2119, 2740, 2918, 1817, 542, 1734, 1886, 2480, 2088, 52, 3111, 804, 1671, 730, 1909, 2994, 459, 401, 577, 531, 3141, 699, 2088, 3291, 644, 983, 170, 2977, 1949, 1566, 1790, 2837, 3096, 638, 3133, 3240, 1966, 912]

theorem kat4A21_eq : SampleNTT 224 (nb 32 kat4RhoN ++ [UInt8.ofNat 1, UInt8.ofNat 2]) = some (rqOf (weave kat4A210 kat4A211)) :=
  sampleNTT_mono 168 224 (by omega) _ _ (sample_lit (l := kat4A21L) (P := padN34) rfl rfl rfl rfl kat4A21W0_perm kat4A21W1_perm kat4A21W2_perm padN34_eq padN34_lt rfl (by decide +kernel) (by decide +kernel) (by decide +kernel) (by decide +kernel) (by decide +kernel) (by decide +kernel) (by decide +kernel))

def kat4A22W0 : List UInt64 := [0x1e9adde736820a68, 0x19c8e553b9dd5265, 0xdad48bb8cc38c34c, 0x3959e1aae84c1a4c, 0x1f0202, 0x0, 0x0, 0x0, 0x0, 0x0, 0x0, 0x0, 0x0, 0x0, 0x0, 0x0, 0x0, 0x0, 0x0, 0x0, 0x8000000000000000, 0x0, 0x0, 0x0, 0x0]

def kat4A22W1 : List UInt64 := [0xbd88cd70c8140dad, 0x3bf5407f1f698fce, 0xde7f9239fef17843, 0x1509adb4c8f705f1, 0x956904c93d5ecce1, 0x24220ddbe99e3151, 0x955df98740543838, 0xa25336f1aa104da8, 0xd3960ac2ef6baf2, 0x8d2efd040c8b8a72, 0x4cd37c0897f76ab6, 0x19403bd8bd1fa2ea, 0xfbf4d3a93d24cf1a, 0x9b3b60ed7856cd4d, 0x6c1348c33fcaf4f6, 0xc4cc758b5daf0254, 0x2348856faf49008, 0x6d4d7e146b75b00d, 0x7b8a2f1383c956bf, 0x254c82b1c0686346, 0x4a7ac94cf99ee566, 0xab2d226cde0bb6f4, 0xc1f54f66acfa3aa6, 0xecdd0f8caa1a2313, 0x4ee2593c767d03f9]

def kat4A22W2 : List UInt64 := [0x7f76468f8f1f4cf6, 0x4c4f5483318d764b, 0xdf493389ab418ab, 0x825e3dd5706b2f82, 0xe9fe4bd704ded06b, 0x47b3f4b024767fc8, 0x8e23f625a264bffb, 0xae504f2cca5718be, 0x3eda33020ada2c6c, 0xfa35ee99026c1f72, 0x5bafcb533b33feb2, 0x963aa2c3a02c5ac1, 0xab4fc5ad19132347, 0x1c524001764ad5ca, 0x65a7d342dff02da, 0xc703d95d661a8c90, 0x987a3e070fc5c74c, 0xf864d521a0b0cb5c, 0xe4f6da4250d79c4, 0xb323585e26053a5, 0x737bef2e408c7841, 0xd5396f0afb828171, 0x39f423ac2b55e2af, 0x8e04fc4db5c65ae5, 0x226ff757b72c7a51]

def kat4A22W3 : List UInt64 := [0x5ea500d62c9dbca, 0x89ea2fd8b2077478, 0x1203bbf0da3ce11a, 0x275af2762c7304af, 0x23045f7c61a1caf6, 0xb058fcd9266ed2ce, 0x565ac4d23ec5ee11, 0x4405dafcac4834f9, 0x4e3961b6ae9a1932, 0x8a7a6bc22fbb1199, 0x7d604dff786d03f2, 0x2d27274d17e88a1, 0x244ca0d8b6f8c162, 0xdf5356e7f5518728, 0xa21c27ba4843ce68, 0x1f70ffe70f5dee25, 0xcf9feb49af5e9961, 0x9cf66d5f210439cc, 0xf5f83823ed2a0db9, 0x6a20534b77f9dc22, 0xde686bb20750c3fb, 0xdd4cdff6592e622f, 0x47ddb5f05b234cc7, 0xed5a70338348629, 0x7f29570ef9efafeb]

theorem kat4A22W0_perm : KF (laneBytes kat4A22W0) = laneBytes kat4A22W1 := kf_lit rfl rfl (by decide +kernel)

theorem kat4A22W1_perm : KF (laneBytes kat4A22W1) = laneBytes kat4A22W2 := kf_lit rfl rfl (by decide +kernel)

theorem kat4A22W2_perm : KF (laneBytes kat4A22W2) = laneBytes kat4A22W3 := kf_lit rfl rfl (by decide +kernel)

def kat4A22L : List Nat := [3501, 320, 200, 3287, 3464, 3307, 2447, 502, 127, 3924, 827, 1924, 3825, 927, 3986, 3559, 1521, 3952, 1224, 2779, 1289, 3601, 3788, 981, 1225, 1680, 405, 789, 2462, 3518, 525, 578, 2104, 1347, 1856, 3992, 1373, 2697, 77, 2721, 1777, 1331, 674, 2991, 3830, 2754, 2400, 211, 2674, 2232, 1036, 4048, 3374, 2920, 1898, 2431, 3080, 3383, 2636, 2606, 3359, 3467, 59, 404, 3866, 588, 2365, 3386, 3060, 1247, 1741, 1925, 237, 950, 1691, 3919, 4042, 3123, 840, 1729, 596, 2800, 2909, 1880, 1228, 140, 1168, 4015, 2134, 840, 3330, 2816, 2933, 326, 3454, 1748, 1727, 3221, 899, 753, 2954, 1127, 2147, 3078, 689, 1224, 1573, 3670, 2462, 1231, 2761, 1191, 3318, 500, 3983, 1128, 3958, 1207, 3446, 792, 1155, 1269, 2892, 394, 2740, 905, 1171, 223, 3970, 1714, 1392, 989, 606, 1720, 3792, 77, 3031, 4068, 2281, 2044, 1142, 2818, 1012, 1147, 4091, 1611, 1442, 3938, 3619, 3048, 1816, 3237, 3884, 1284, 3246, 710, 2778, 32, 2611, 1005, 3954, 1729, 2306, 3817, 2613, 2863, 1022, 947, 2899, 2812, 347, 1452, 44, 3130, 2722, 2403, 839, 306, 3353, 3162, 2895, 3242, 2773, 1892, 1, 1316, 2588, 45, 3583, 834, 2685, 101, 3216, 424, 3430, 3477, 1795, 1228, 1479, 252, 3591, 1955, 3224, 3253, 176, 538, 1237, 3974, 2500, 215, 1061, 1754, 3663, 2640, 83, 3622, 1413, 803, 267, 1924, 140, 740, 3055, 1847, 3018, 3229, 3426, 1280, 1514, 1920, 1908, 2848, 4056, 3746, 2697, 3601, 2620, 3853, 955, 288, 1199, 1840, 1580, 3879, 1882, 3938, 458, 1562, 3964, 69, 3619, 3372, 1646, 3474, 2300, 2821, 3601, 3166, 574, 3149, 1626, 3989, 2100, 2756, 2812, 93, 580, 403, 3738, 2922, 2401, 1251, 409, 2993, 559, 1724, 2682, 3880, 3331, 1926, 3583, 1540, 381, 2186, 382, 1869, 626, 45, 354, 3980, 2230, 2573, 1100, 642, 391, 3925, 1767, 1333, 2271, 3302, 2115, 2980, 3111, 2593, 3621, 1502, 1807, 4094, 3952, 1553, 3737, 2805, 2889, 2558, 3279, 924, 260, 1522, 1645, 2511, 3513, 672, 1005, 898, 1528, 559, 2524, 1919, 843, 517, 2922, 3135, 1872, 2848, 2155, 3558]

def kat4A220 : List Nat := [320, 3287, 2447, 127, 1924, 1521, 2779, 981, 1680, 789, 525, 2104, 1856, 2697, 2721, 1331, 2991, 2400, 2674, 1036, 1898, 3080, 2606, 404, 2365, 1247, 1925, 950, 3123, 1729, 2800, 1880, 140, 2134, 2816, 326, 1727, 899, 2954, 2147, 689, 1573, 1231, 1191, 500, 1207, 1155, 2892, 2740, 1171, 1714, 989, 1720, 3031, 2044, 2818, 1147, 1442, 1816, 1284, 710, 32, 1005, 2306, 2863, 947, 2812, 1452, 3130, 2403, 306, 2895, 2773, 1, 2588, 834, 101, 424, 1228, 252, 3224, 176, 1237, 215, 1754, 83, 803, 1924, 740, 1847, 3229, 1514, 1908, 2697, 955, 1199, 1580, 458, 69, 2300, 3166, 3149, 2100, 2812, 580, 2922, 1251, 2993, 1724, 1926, 381, 382, 626, 354, 2573, 642, 1767, 2271, 2115, 3111, 1502, 1553, 2889, 3279, 260, 1645, 672, 898]

def kat4A221 : List Nat := [200, 3307, 502, 827, 927, 1224, 1289, 1225, 405, 2462, 578, 1347, 1373, 77, 1777, 674, 2754, 211, 2232, 2920, 2431, 2636, 59, 588, 3060, 1741, 237, 1691, 840, 596, 2909, 1228, 1168, 840, 2933, 1748, 3221, 753, 1127, 3078, 1224, 2462, 2761, 3318, 1128, 792, 1269, 394, 905, 223, 1392, 606, 77, 2281, 1142, 1012, 1611, 3048, 3237, 3246, 2778, 2611, 1729, 2613, 1022, 2899, 347, 44, 2722, 839, 3162, 3242, 1892, 1316, 45, 2685, 3216, 1795, 1479, 1955, 3253, 538, 2500, 1061, 2640, 1413, 267, 140, 3055, 3018, 1280, 1920, 2848, 2620, 288, 1840, 1882, 1562, 1646, 2821, 574, 1626, 2756, 93, 403, 2401, 409, 559, 2682, 1540, 2186, 1869, 45, 2230, 1100, 391, 1333, 3302, 2980, 2593, 1807, 2805, 2558, 924, 1522, 2511, 1005, 1528]

theorem kat4A22_eq : SampleNTT 224 (nb 32 kat4RhoN ++ [UInt8.ofNat 2, UInt8.ofNat 2]) = some (rqOf (weave kat4A220 kat4A221)) :=
  sampleNTT_mono 168 224 (by omega) _ _ (sample_lit (l := kat4A22L) (P := padN34) rfl rfl rfl rfl kat4A22W0_perm kat4A22W1_perm kat4A22W2_perm padN34_eq padN34_lt rfl (by decide +kernel) (by decide +kernel) (by decide +kernel) (by decide +kernel) (by decide +kernel) (by decide +kernel) (by decide +kernel))

def kat4A23W0 : List UInt64 := [0x1e9adde736820a68, 0x19c8e553b9dd5265, 0xdad48bb8cc38c34c, 0x3959e1aae84c1a4c, 0x1f0203, 0x0, 0x0, 0x0, 0x0, 0x0, 0x0, 0x0, 0x0, 0x0, 0x0, 0x0, 0x0, 0x0, 0x0, 0x0, 0x8000000000000000, 0x0, 0x0, 0x0, 0x0]

def kat4A23W1 : List UInt64 := [0xbe84a27f8012dce, 0xdb9ae46a96b6e68c, 0xf1cae7977e8f7479, 0xca8e77ad0e7fc000, 0xe9af9f5ba3e9b225, 0xdabf15945d007e97, 0xf4204b3202704dce, 0xb64d55da26068e43, 0x8da1e5e5adf4e24b, 0x5401370e8a284f04, 0x101b4d3b6cdd37e4, 0x20340eb788c10683, 0x4a726cb12bccc8b1, 0x6b44d3b57623eecf, 0x3034805b7bc83114, 0xe6a327c302b35e1a, 0xd4fa5cc0e766f5c5, 0x87f7eba27efae7ee, 0xdb86b510d824931f, 0x6512bc2e9129a079, 0x14425851e24913fb, 0x1b253823b1663739, 0xeb9baa8cc8f10fef, 0x786f288fec350df1, 0x5ff223656bc7e26b]

def kat4A23W2 : List UInt64 := [0xf04f240da6e05ce9, 0xccce5fa12a6dfcfc, 0xac70a5708eed38fb, 0x7f62951107186a95, 0x923029b8023d958f, 0x91fad52365df2a7e, 0x6bb3eaef6311fbdb, 0x9ff28f2f4f2f9876, 0xd0d2d1c6911a921, 0xb0438d4cca3dc7ad, 0x4a72239fd927c528, 0xfa22923989b6ba64, 0x16dfbeb69190a16b, 0xa97480c449f14c63, 0x74f1cc5157a29d0f, 0x96e3ec1379b5dddf, 0x8a17a398144a131f, 0x2b73f7292b15d631, 0xf004f121bcc4af50, 0xc7362a04116553b3, 0xe15ecf388db667b2, 0xfb7efbaa8553fd5b, 0xc4f9bf1a109e59cb, 0x76746a36c1ca7b4c, 0x4d1127b5ce049623]

def kat4A23W3 : List UInt64 := [0xe10358dfcaba1f2a, 0x9643642a97ca3d8a, 0x9b8c70c74d483949, 0x82fca925273dbc43, 0xa9fd986b2fb4bd15, 0x8a02cf9fb3ab8b8c, 0xdf1baa8ec354d42c, 0x628c7565ad194a3a, 0x6f2b48a5399c39b, 0x72526f73af25e47e, 0x56853494c1e99084, 0x926e33703d1f85bd, 0xbecbe7c2cfff924c, 0xa78d545758324f2d, 0xdd69762f7dabe9a6, 0x5b6554cf8bbaf665, 0x41df340ed3546018, 0x2ba95b9cb7d9ff2, 0xdc0c56ae2cec633a, 0xa174e7794665a7f8, 0x6619c706a96ecdd9, 0xf8abd0adc16c3a68, 0x2b2d74d49c4f961e, 0x6e4d2e9e568104e, 0x29b83ce31c28be9e]

theorem kat4A23W0_perm : KF (laneBytes kat4A23W0) = laneBytes kat4A23W1 := kf_lit rfl rfl (by decide +kernel)

theorem kat4A23W1_perm : KF (laneBytes kat4A23W1) = laneBytes kat4A23W2 := kf_lit rfl rfl (by decide +kernel)

theorem kat4A23W2_perm : KF (laneBytes kat4A23W2) = laneBytes kat4A23W3 := kf_lit rfl rfl (by decide +kernel)

def kat4A23L : List Nat := [3534, 18, 2040, 1186, 3048, 2240, 1766, 2411, 1130, 2478, 2523, 1863, 3727, 2423, 2791, 3868, 0, 2044, 3342, 1914, 2702, 604, 2482, 2622, 3931, 2809, 2025, 2025, 3328, 2373, 3861, 3499, 3534, 1796, 514, 1203, 1056, 1087, 1678, 608, 1498, 1237, 2998, 3620, 3572, 3674, 485, 2266, 3844, 644, 3722, 880, 1025, 3653, 3383, 1741, 3387, 436, 784, 104, 2241, 2936, 1038, 515, 2225, 3276, 299, 1739, 2674, 3316, 1006, 1890, 949, 1101, 1131, 785, 3016, 1463, 1152, 771, 3610, 2869, 770, 636, 1699, 3166, 1781, 3702, 3264, 4005, 3796, 3710, 3834, 2599, 2027, 2175, 799, 585, 216, 2897, 2950, 1949, 2464, 2322, 3118, 299, 2917, 319, 585, 1310, 600, 324, 3305, 3589, 3494, 576, 79, 4047, 3580, 678, 4001, 3301, 3020, 911, 3821, 1800, 165, 2759, 2709, 390, 263, 2385, 3938, 2295, 3477, 35, 2488, 770, 3730, 679, 1503, 566, 2773, 2335, 3035, 287, 3939, 3758, 2995, 1894, 3992, 1266, 3887, 3880, 415, 2706, 2321, 454, 3373, 208, 1965, 988, 3274, 2260, 67, 651, 1989, 3474, 927, 1826, 1098, 2982, 2486, 920, 658, 4002, 363, 2314, 1681, 3051, 1759, 1585, 332, 1183, 196, 1864, 4009, 2512, 1954, 1301, 460, 1871, 3551, 2909, 889, 3777, 1763, 505, 2579, 324, 920, 378, 394, 3427, 2837, 658, 1015, 695, 3920, 3146, 444, 3858, 4, 2879, 1363, 278, 2564, 866, 711, 1659, 3510, 904, 3791, 3605, 3882, 2977, 4042, 1421, 259, 2222, 2621, 2428, 1066, 1078, 2454, 916, 3400, 3188, 3184, 2488, 3139, 987, 1319, 2706, 764, 344, 1213, 763, 2155, 4057, 3241, 2232, 939, 2555, 719, 2208, 1068, 1357, 3779, 2728, 3867, 941, 2378, 2769, 1381, 2247, 2914, 3129, 921, 2213, 692, 111, 1150, 606, 943, 1783, 594, 2119, 2448, 3102, 1172, 2131, 3414, 2139, 3359, 1795, 3635, 2342, 588, 4089, 719, 3708, 3787, 731, 591, 1411, 1111, 2261, 1703, 3738, 3499, 759, 2422, 3542, 1637, 2991, 3979, 1356, 2917, 389, 1120, 3381, 1038, 3571, 577, 2559, 2941, 2972, 2709, 43, 826, 3782, 3628, 1386, 3084, 3981, 1447, 1126, 1913, 1870, 2465, 3293, 2414, 106, 2503, 1633]

def kat4A230 : List Nat := [18, 1186, 2240, 2411, 2478, 1863, 2791, 2044, 2702, 2482, 2809, 2025, 2373, 514, 1056, 1678, 1498, 2998, 2266, 880, 1741, 784, 2241, 1038, 2225, 299, 2674, 1006, 949, 1131, 3016, 1152, 2869, 636, 3166, 3264, 2027, 799, 216, 2950, 2464, 3118, 2917, 585, 600, 3305, 79, 3301, 911, 165, 2709, 263, 2295, 2488, 679, 566, 2335, 287, 1894, 415, 2321, 208, 988, 2260, 651, 927, 1098, 2486, 658, 2314, 3051, 1585, 1183, 1864, 1954, 460, 2909, 1763, 2579, 920, 394, 658, 695, 444, 2879, 278, 866, 1659, 2977, 259, 2621, 1066, 2454, 3188, 2488, 987, 2706, 344, 763, 3241, 939, 719, 1068, 2728, 2378, 1381, 2914, 921, 692, 1150, 943, 594, 2448, 1172, 2139, 2342, 719, 591, 1111, 1703, 2422, 2991, 2917, 1120, 577, 2941, 2709, 826]

def kat4A231 : List Nat := [2040, 3048, 1766, 1130, 2523, 2423, 0, 1914, 604, 2622, 2025, 3328, 1796, 1203, 1087, 608, 1237, 485, 644, 1025, 436, 104, 2936, 515, 3276, 1739, 3316, 1890, 1101, 785, 1463, 771, 770, 1699, 1781, 2599, 2175, 585, 2897, 1949, 2322, 299, 319, 1310, 324, 576, 678, 3020, 1800, 2759, 390, 2385, 35, 770, 1503, 2773, 3035, 2995, 1266, 2706, 454, 1965, 3274, 67, 1989, 1826, 2982, 920, 363, 1681, 1759, 332, 196, 2512, 1301, 1871, 889, 505, 324, 378, 2837, 1015, 3146, 4, 1363, 2564, 711, 904, 1421, 2222, 2428, 1078, 916, 3184, 3139, 1319, 764, 1213, 2155, 2232, 2555, 2208, 1357, 941, 2769, 2247, 3129, 2213, 111, 606, 1783, 2119, 3102, 2131, 1795, 588, 731, 1411, 2261, 759, 1637, 1356, 389, 1038, 2559, 2972, 43, 1386]

theorem kat4A23_eq : SampleNTT 224 (nb 32 kat4RhoN ++ [UInt8.ofNat 3, UInt8.ofNat 2]) = some (rqOf (weave kat4A230 kat4A231)) :=
  sampleNTT_mono 168 224 (by omega) _ _ (sample_lit (l := kat4A23L) (P := padN34) rfl rfl rfl rfl kat4A23W0_perm kat4A23W1_perm kat4A23W2_perm padN34_eq padN34_lt rfl (by decide +kernel) (by decide +kernel) (by decide +kernel) (by decide +kernel) (by decide +kernel) (by decide +kernel) (by decide +kernel))

def kat4A30W0 : List UInt64 := [0x1e9adde736820a68, 0x19c8e553b9dd5265, 0xdad48bb8cc38c34c, 0x3959e1aae84c1a4c, 0x1f0300, 0x0, 0x0, 0x0, 0x0, 0x0, 0x0, 0x0, 0x0, 0x0, 0x0, 0x0, 0x0, 0x0, 0x0, 0x0, 0x8000000000000000, 0x0, 0x0, 0x0, 0x0]

def kat4A30W1 : List UInt64 := [0x61a99211ca14cae3, 0xc2bfb5bd65944a94, 0x6148298bd9984f90, 0x58d173f94c58471c, 0x4d881e8381297f09, 0x39f39157281c0d9, 0xf36006668999f7b4, 0x50041c7f483e935c, 0x8211fe01322af01c, 0xf87112557d54e7ec, 0x4f93d35dcf5b2be1, 0x84871ac9a211c0d4, 0x8c33cf509330deaa, 0x317f4077ecc1734c, 0x7cf7c4fb1dd309cd, 0xc91f4fdc5135ace7, 0xeabf9f9745f1a4c3, 0x25fd941e518b8ed6, 0x59043914daef1268, 0x567f7e8aec29f1a, 0x6f2c9e9b0c4027b2, 0x2400a673135db16f, 0x8e3a4d7a37d7b56d, 0xa7d8af75a055811, 0xaa2b4dff67a9f308]

def kat4A30W2 : List UInt64 := [0x700bfff2e62e89dc, 0x710c6e20643917b1, 0xee53e02db3b59292, 0xa1632fb1e09062a6, 0x328ebe0cd1450b29, 0x18fd1399b56c42bd, 0xf670e72f73f7638f, 0xb286b25a50fa5eb, 0x170e01e4bbd9bfb, 0xde6ad37d29fb11f2, 0x8566382d3de3511d, 0x7d19b844bcd85dc, 0xcaf041f36e4deee2, 0x6d08d37bd1d9fa60, 0xfa232106ad1948de, 0x32408b45f70df66e, 0x974ec8d47f2826f4, 0x8add854b4980ee45, 0x6d312b5d2e1e32e8, 0xd6359cf9cf576d58, 0x80e57fae7514a85f, 0xf93c6ed6f8547eca, 0x105d45c00e92dd93, 0x71e3e563e1dbb0b8, 0x934106c32fce99bc]

def kat4A30W3 : List UInt64 := [0x40c58f8c00c09d56, 0x86377698918f1924, 0xcdadd58543d7a594, 0x8ceb0aa672bda12b, 0xe74e5673673349cb, 0xb344154604323259, 0xa85e0f043ae25640, 0xdd6e400bbfe0084a, 0x16a64ebc1e5ea797, 0x6c90bfa508899742, 0x90c09100b7f5c1a1, 0x30ee6414b498a752, 0xcbc469b339c6b0ed, 0xbedcafea27bcbaec, 0x63e97147f6373c1f, 0xc748959e01a3a6b7, 0xd83340180a34f587, 0xa04c4163b551ca69, 0x5bb32a053fa3f1e8, 0x46e3dd0e53322e32, 0xc48397bfc695b5f2, 0xfb412946368ea243, 0x2b2656709c04c471, 0xa9f941b536658fb1, 0xd03746e749a5a8bb]

theorem kat4A30W0_perm : KF (laneBytes kat4A30W0) = laneBytes kat4A30W1 := kf_lit rfl rfl (by decide +kernel)

theorem kat4A30W1_perm : KF (laneBytes kat4A30W1) = laneBytes kat4A30W2 := kf_lit rfl rfl (by decide +kernel)

theorem kat4A30W2_perm : KF (laneBytes kat4A30W2) = laneBytes kat4A30W3 := kf_lit rfl rfl (by decide +kernel)

def kat4A30L : List Nat := [2787, 332, 458, 2337, 425, 2374, 1098, 1625, 1469, 3067, 194, 1273, 2456, 2237, 2089, 1556, 1820, 1412, 2380, 1855, 2257, 149, 2431, 2066, 3715, 2177, 2381, 3085, 641, 343, 3897, 57, 1972, 2463, 1673, 102, 864, 1487, 3731, 1155, 3199, 65, 3152, 3841, 554, 19, 510, 2081, 2028, 1358, 1405, 293, 2161, 3615, 2859, 3317, 861, 2365, 1103, 3085, 529, 3226, 1818, 2120, 3754, 781, 147, 3317, 3123, 1224, 371, 3788, 119, 2036, 3377, 156, 3539, 4017, 1988, 1999, 3303, 858, 3153, 1277, 2335, 3132, 420, 1119, 3991, 3065, 1770, 2285, 395, 485, 3476, 607, 616, 3825, 1242, 913, 2308, 421, 671, 2796, 2024, 1663, 517, 635, 3136, 2480, 3230, 1778, 2524, 744, 742, 4095, 11, 2839, 2327, 1603, 3616, 198, 625, 2345, 949, 731, 992, 3813, 678, 2310, 480, 763, 355, 666, 1291, 3348, 3596, 2283, 3378, 1067, 1388, 2459, 3347, 399, 911, 3958, 3955, 3698, 1648, 3775, 4005, 2640, 2853, 646, 2827, 2495, 3005, 484, 224, 23, 498, 4017, 3369, 3383, 3690, 477, 849, 990, 2093, 1635, 3205, 2141, 3021, 2116, 411, 125, 3810, 1246, 878, 1055, 2800, 1548, 2554, 3357, 891, 141, 3693, 1165, 3353, 106, 801, 4002, 1646, 223, 1527, 2228, 576, 3907, 2086, 2034, 2260, 1260, 1431, 3812, 2432, 1204, 3461, 2221, 744, 483, 3374, 693, 3377, 1414, 1901, 3317, 3321, 857, 4054, 2693, 1300, 2791, 1407, 2062, 3414, 3081, 3072, 2296, 197, 580, 3865, 2328, 1688, 887, 1158, 2649, 983, 2132, 3541, 3290, 299, 3034, 1650, 170, 3307, 3256, 841, 1651, 1651, 1253, 2535, 805, 1074, 1120, 1045, 2868, 1600, 3621, 1082, 240, 2142, 1194, 8, 3070, 11, 1764, 2013, 2681, 3678, 3009, 1614, 362, 1858, 2201, 1288, 3066, 3216, 2582, 1473, 2943, 256, 3081, 656, 2677, 1176, 331, 3684, 782, 237, 3179, 825, 1691, 3012, 3788, 3258, 635, 4074, 3530, 4030, 961, 1591, 1151, 2417, 1598, 1719, 2618, 3585, 2393, 1864, 2172, 1269, 163, 24, 820, 2520, 3238, 1361, 1595, 3137, 2564, 488, 2623, 1343, 672, 2995, 805, 558, 1331, 3342, 3645, 582, 2911, 1685, 3068, 919, 3144]

def kat4A300 : List Nat := [2787, 458, 425, 1098, 1469, 194, 2456, 2089, 1820, 2380, 2257, 2431, 2177, 3085, 343, 1972, 1673, 864, 1155, 65, 554, 510, 2028, 1405, 2161, 3317, 2365, 3085, 3226, 2120, 147, 3123, 371, 2036, 1988, 3303, 3153, 2335, 420, 3065, 2285, 485, 616, 913, 421, 2796, 1663, 635, 2480, 1778, 744, 11, 2327, 198, 2345, 731, 678, 480, 355, 1291, 1067, 2459, 911, 2640, 646, 2495, 484, 23, 477, 990, 1635, 2141, 2116, 125, 878, 2800, 2554, 141, 106, 1646, 1527, 576, 2034, 1260, 2432, 2221, 483, 1414, 3317, 857, 1300, 1407, 3081, 2296, 580, 1688, 1158, 983, 3290, 3034, 170, 3256, 1651, 1253, 805, 1120, 2868, 1082, 2142, 8, 11, 2013, 3009, 362, 2201, 3066, 2582, 2943, 3081, 2677, 331, 237, 825, 3012, 635, 1591, 2417, 1719]

def kat4A301 : List Nat := [332, 2337, 2374, 1625, 3067, 1273, 2237, 1556, 1412, 1855, 149, 2066, 2381, 641, 57, 2463, 102, 1487, 3199, 3152, 19, 2081, 1358, 293, 2859, 861, 1103, 529, 1818, 781, 3317, 1224, 119, 156, 1999, 858, 1277, 3132, 1119, 1770, 395, 607, 1242, 2308, 671, 2024, 517, 3136, 3230, 2524, 742, 2839, 1603, 625, 949, 992, 2310, 763, 666, 2283, 1388, 399, 1648, 2853, 2827, 3005, 224, 498, 849, 2093, 3205, 3021, 411, 1246, 1055, 1548, 891, 1165, 801, 223, 2228, 2086, 2260, 1431, 1204, 744, 693, 1901, 3321, 2693, 2791, 2062, 3072, 197, 2328, 887, 2649, 2132, 299, 1650, 3307, 841, 1651, 2535, 1074, 1045, 1600, 240, 1194, 3070, 1764, 2681, 1614, 1858, 1288, 3216, 1473, 256, 656, 1176, 782, 3179, 1691, 3258, 961, 1151, 1598, 2618]

theorem kat4A30_eq : SampleNTT 224 (nb 32 kat4RhoN ++ [UInt8.ofNat 0, UInt8.ofNat 3]) = some (rqOf (weave kat4A300 kat4A301)) :=
  sampleNTT_mono 168 224 (by omega) _ _ (sample_lit (l := kat4A30L) (P := padN34) rfl rfl rfl rfl kat4A30W0_perm kat4A30W1_perm kat4A30W2_perm padN34_eq padN34_lt rfl (by decide +kernel) (by decide +kernel) (by decide +kernel) (by decide +kernel) (by decide +kernel) (by decide +kernel) (by decide +kernel))

def kat4A31W0 : List UInt64 := [0x1e9adde736820a68, 0x19c8e553b9dd5265, 0xdad48bb8cc38c34c, 0x3959e1aae84c1a4c, 0x1f0301, 0x0, 0x0, 0x0, 0x0, 0x0, 0x0, 0x0, 0x0, 0x0, 0x0, 0x0, 0x0, 0x0, 0x0, 0x0, 0x8000000000000000, 0x0, 0x0, 0x0, 0x0]

def kat4A31W1 : List UInt64 := [0xa4323987a317ec7b, 0x5ba18d9687d5b9bd, 0x69a0e45297222cda, 0x62309e287b9db8c9, 0xfcfee3286004b51e, 0x2f44298f60914026, 0x72981f7e362a1947, 0x8617ec12cccc3c25, 0x81c8c545ad6b0b16, 0xeb1d45121130ff78, 0x25e7251ee94a8256, 0x38b83be9d7745787, 0xf928e2cad3e0a331, 0x110b1f7e791b0a8d, 0xaba2a4cbea8d5713, 0xae2dd2a98ea6022f, 0xb591d9a7e43cafa, 0xc879c23f610f78c6, 0x7737c96755924b2a, 0x93d060dd3ac6a5f2, 0xac44271bb9bfcc27, 0xededb1024288c8e5, 0xa80f30149cf6f1a7, 0x60dc215d4764f025, 0x9df5137412779f70]

def kat4A31W2 : List UInt64 := [0xebd81722d1725b94, 0x7649a84efccb487a, 0x3dc838bf753d5598, 0x22f345b7cbff8cd8, 0xb81e31e9dbeb4815, 0xd7b38a92cf798ebd, 0x20400d5dde9a3e5f, 0xb06dcb500271901, 0xab52a9a198a40c80, 0x1962cd2461a8b06e, 0xc9ae2a4dbb0c91ae, 0xee051b812fc3a2be, 0xba04db4eabddf4aa, 0xcb5d37ff2bbf84ed, 0x1d37ed5a0fb637f, 0xdfe161af350b5ceb, 0x8bad1ec942424601, 0x31e17383f3e16867, 0xda78e5931a665fca, 0xa6477a5e9dcc514, 0x31bc40961b1b906c, 0x90607cf3c1b37707, 0xd41c3ece3ba56279, 0x5ac45b244b139cff, 0x3b6679c23ff79736]

def kat4A31W3 : List UInt64 := [0x1a314c62da0a315c, 0x4e437e95fdfc5f78, 0xbcd5b54b57bc8940, 0xb645e64057800357, 0x9a26e3ccb4603960, 0xe82e4c4164d1b4f8, 0x81c7acc791d21389, 0x8cc1cc77f9c584d2, 0x300ef359802ec367, 0xb1f7608b135a6e8c, 0x58b6256f94578c27, 0x42b4b0a59e40df2d, 0x3e989a9631fcacaf, 0x4c87632c33b8d0fa, 0x6e75d52281bab4a4, 0x26b8bd70805c875c, 0x390f0b5d3160db54, 0xa052930161cf21f0, 0x9cf065a7b28fa3fd, 0x9fb141239ac0858d, 0x2e078ad87428c909, 0x686bd29882fafb2d, 0xcd3d48c695104b89, 0x793248b4ffa43ef3, 0xacf5929716ab8733]

theorem kat4A31W0_perm : KF (laneBytes kat4A31W0) = laneBytes kat4A31W1 := kf_lit rfl rfl (by decide +kernel)

theorem kat4A31W1_perm : KF (laneBytes kat4A31W1) = laneBytes kat4A31W2 := kf_lit rfl rfl (by decide +kernel)

theorem kat4A31W2_perm : KF (laneBytes kat4A31W2) = laneBytes kat4A31W3 := kf_lit rfl rfl (by decide +kernel)

def kat4A31L : List Nat := [3195, 382, 1955, 920, 1074, 3034, 1465, 2173, 3478, 2584, 2651, 717, 1826, 1321, 228, 1690, 2249, 2523, 2171, 2530, 560, 486, 1205, 1536, 808, 4078, 1788, 1026, 145, 2294, 1065, 756, 2375, 673, 3638, 503, 664, 599, 3132, 3276, 3090, 382, 1670, 177, 3435, 1114, 2245, 2076, 3960, 783, 529, 1105, 2845, 1390, 2690, 3732, 1310, 3698, 1829, 1400, 1908, 3741, 2107, 907, 817, 3594, 2771, 3628, 2344, 2271, 2826, 1937, 3966, 177, 785, 1393, 2701, 3262, 676, 2746, 559, 2656, 2446, 3370, 3629, 4010, 970, 2020, 3482, 1425, 1547, 1932, 271, 1014, 2498, 3207, 2858, 2340, 1877, 3222, 1847, 3879, 1701, 940, 221, 3334, 1939, 3266, 2495, 443, 1063, 2756, 2964, 1829, 721, 370, 3032, 1966, 2888, 4044, 2126, 1178, 2166, 1369, 1341, 3063, 2104, 988, 3288, 4088, 1995, 1115, 755, 338, 2888, 3518, 489, 483, 3512, 2283, 3961, 2348, 906, 3451, 3679, 2467, 3550, 213, 64, 18, 1817, 2, 3253, 109, 11, 200, 2212, 2585, 681, 2741, 110, 2699, 1121, 3282, 2402, 2785, 3217, 2992, 2637, 2786, 3785, 2603, 4035, 2066, 1307, 3808, 1194, 3551, 3755, 3508, 2564, 3803, 3972, 699, 2047, 1491, 4043, 1591, 251, 3418, 894, 29, 3307, 181, 3893, 1562, 4065, 29, 582, 1060, 3785, 2769, 1931, 1670, 993, 2111, 371, 798, 4042, 1637, 794, 3673, 2680, 333, 3269, 3741, 1957, 1607, 3082, 2310, 2843, 2401, 3136, 795, 348, 163, 730, 1222, 2609, 1921, 3167, 4063, 3733, 1079, 78, 2196, 1980, 1205, 1461, 3021, 855, 2048, 87, 3684, 1605, 1547, 57, 2886, 972, 622, 2202, 2895, 1233, 1046, 3660, 3714, 905, 3361, 1937, 2764, 455, 3368, 1412, 3996, 3191, 3100, 1932, 3126, 46, 1432, 3827, 768, 3724, 1446, 2835, 1544, 503, 635, 1932, 2373, 1391, 2914, 3416, 3570, 3648, 2649, 1200, 1067, 3247, 4042, 1585, 2473, 3736, 4003, 2256, 827, 812, 2166, 1100, 2890, 442, 552, 1493, 1767, 1884, 1480, 128, 3031, 1720, 1346, 219, 790, 2909, 240, 57, 543, 463, 22, 659, 2565, 1021, 2298, 1970, 1626, 3312, 2265, 133, 2476, 291, 2836, 2463, 3216, 1064, 3463, 1930, 736]

def kat4A310 : List Nat := [3195, 1955, 1074, 1465, 2584, 717, 1321, 1690, 2523, 2530, 486, 1536, 1788, 145, 1065, 2375, 503, 599, 3276, 382, 177, 2245, 783, 1105, 1390, 1310, 1400, 2107, 817, 2344, 2826, 177, 1393, 3262, 2746, 2656, 970, 1425, 1932, 1014, 3207, 2340, 3222, 1701, 221, 3266, 443, 2756, 1829, 370, 1966, 2126, 2166, 1341, 2104, 3288, 1115, 338, 489, 2283, 906, 213, 18, 2, 109, 200, 2585, 2741, 2699, 3282, 2785, 2992, 2786, 2066, 1194, 699, 1491, 251, 29, 181, 29, 1060, 1931, 993, 371, 1637, 2680, 3269, 1607, 2310, 2401, 795, 163, 1222, 1921, 1079, 2196, 1205, 3021, 2048, 1605, 57, 972, 2202, 1233, 905, 2764, 1412, 3100, 3126, 1432, 1446, 1544, 635, 2373, 2914, 1200, 3247, 2473, 827, 2166, 2890, 552, 1767, 1480, 3031, 1346, 790]

def kat4A311 : List Nat := [382, 920, 3034, 2173, 2651, 1826, 228, 2249, 2171, 560, 1205, 808, 1026, 2294, 756, 673, 664, 3132, 3090, 1670, 1114, 2076, 529, 2845, 2690, 1829, 1908, 907, 2771, 2271, 1937, 785, 2701, 676, 559, 2446, 2020, 1547, 271, 2498, 2858, 1877, 1847, 940, 1939, 2495, 1063, 2964, 721, 3032, 2888, 1178, 1369, 3063, 988, 1995, 755, 2888, 483, 2348, 2467, 64, 1817, 3253, 11, 2212, 681, 110, 1121, 2402, 3217, 2637, 2603, 1307, 2564, 2047, 1591, 894, 3307, 1562, 582, 2769, 1670, 2111, 798, 794, 333, 1957, 3082, 2843, 3136, 348, 730, 2609, 3167, 78, 1980, 1461, 855, 87, 1547, 2886, 622, 2895, 1046, 1937, 455, 3191, 1932, 46, 768, 2835, 503, 1932, 1391, 2649, 1067, 1585, 2256, 812, 1100, 442, 1493, 1884, 128, 1720, 219, 2909]

theorem kat4A31_eq : SampleNTT 224 (nb 32 kat4RhoN ++ [UInt8.ofNat 1, UInt8.ofNat 3]) = some (rqOf (weave kat4A310 kat4A311)) :=
  sampleNTT_mono 168 224 (by omega) _ _ (sample_lit (l := kat4A31L) (P := padN34) rfl rfl rfl rfl kat4A31W0_perm kat4A31W1_perm kat4A31W2_perm padN34_eq padN34_lt rfl (by decide +kernel) (by decide +kernel) (by decide +kernel) (by decide +kernel) (by decide +kernel) (by decide +kernel) (by decide +kernel))

def kat4A32W0 : List UInt64 := [0x1e9adde736820a68, 0x19c8e553b9dd5265, 0xdad48bb8cc38c34c, 0x3959e1aae84c1a4c, 0x1f0302, 0x0, 0x0, 0x0, 0x0, 0x0, 0x0, 0x0, 0x0, 0x0, 0x0, 0x0, 0x0, 0x0, 0x0, 0x0, 0x8000000000000000, 0x0, 0x0, 0x0, 0x0]

def kat4A32W1 : List UInt64 := [0x8fe7c1d708bcd1e2, 0x788d4c3df04ed51, 0x64696e1e984b2182, 0x91e4f27da2394e92, 0xb83ed28b2052493f, 0x7efe02f0373dc588, 0x4cef329a3eb2cb85, 0x75bcbaea74c1cbb7, 0x39ec39639d12f1cf, 0xaef79a90412b9fda, 0xf28cbb56e7939d2f, 0x7ac8cfcbada35468, 0xdf91d524bb56fd7f, 0x83de22f7383ba419, 0x49d8e9e8c8e785cb, 0xdeebfdb1224ba50c, 0x6913e257f9383e4, 0x504cbfb5e9229f1a, 0xb929fbc3f0c1ca9e, 0x190e64def828a73c, 0xc07bc3f7aac668ec, 0xc8479c5d147a0c66, 0x11b35426ccc05b55, 0x820afa5e73227e9b, 0xa6f4408fb8825405]

def kat4A32W2 : List UInt64 := [0x2497d4c0dd07dd2d, 0x10220af7b89df1f, 0x50db4c5cb15b15f1, 0x4521d61ff314fb85, 0x1eb17c2e747b1cbe, 0x518a9409864d705b, 0x5b798003302b8da9, 0xf252f453652c47c9, 0x342c04b9221bef1e, 0x214cba2016039cb5, 0x79db072c7e1c38fc, 0x49136a36e859df5, 0x686ca970e5462ad1, 0x51c9161a1e7f2ec3, 0xa064c29407c1f630, 0x3800d3c45a41811f, 0xb5b2794dd29d2a23, 0x2d15ddf10c2fa084, 0x55e052a4bb9bdaeb, 0x988e7e7871b2cf77, 0xf134eed36709df95, 0x5ffd2cbc855ea68e, 0x2a190db3c20c73e5, 0x408cb28c0b25b54c, 0x8e95d2d57494f172]

def kat4A32W3 : List UInt64 := [0xcc4c5df0604d7d5e, 0xb95657f0185e2494, 0x77e2da141405c688, 0xd39e7890457fde85, 0xb71654231060f4ea, 0x769afffa4b63e24d, 0x21dc23c70d96b248, 0xbd509076ca420cf4, 0x4ba36778747bda9, 0x350b1baeabaf5998, 0xfcc1061258231bc5, 0xa29f92d5dc4bbe2b, 0xd71293f29630064c, 0xa87dbd5be2cd9b67, 0x69935455749bb3c6, 0xf059da5996c2556b, 0x11c25c8f63dd1860, 0x84af68d21e775c64, 0x37beafe395bb5425, 0xa6858414bc07744a, 0xcf1a40fd1febf366, 0x6025f034683afbac, 0x5b4ffce7ed759c2f, 0x18f3affd6dd51e63, 0x2be12ab68deaf29c]

theorem kat4A32W0_perm : KF (laneBytes kat4A32W0) = laneBytes kat4A32W1 := kf_lit rfl rfl (by decide +kernel)

theorem kat4A32W1_perm : KF (laneBytes kat4A32W1) = laneBytes kat4A32W2 := kf_lit rfl rfl (by decide +kernel)

theorem kat4A32W2_perm : KF (laneBytes kat4A32W2) = laneBytes kat4A32W3 := kf_lit rfl rfl (by decide +kernel)

def kat4A32L : List Nat := [482, 3021, 1800, 3101, 4071, 1304, 1261, 3568, 1219, 2189, 519, 536, 2123, 489, 2414, 1606, 3730, 916, 3490, 3879, 484, 1017, 585, 517, 651, 1005, 2232, 3160, 1853, 3843, 3586, 2031, 2949, 2860, 2622, 809, 3311, 2932, 459, 1868, 2794, 3019, 3957, 3868, 3346, 1593, 3129, 926, 4058, 697, 65, 2473, 3831, 762, 925, 3705, 2902, 2251, 2290, 1350, 3491, 3258, 2255, 1964, 3455, 1391, 1211, 3410, 3985, 413, 2980, 899, 759, 3554, 2947, 2140, 2279, 3724, 2281, 1181, 1292, 1210, 290, 4059, 3819, 3661, 899, 2041, 3621, 2323, 2566, 2545, 2338, 2910, 3263, 1284, 2718, 3100, 1008, 4028, 2345, 971, 2215, 3970, 1246, 230, 3097, 1678, 2758, 3962, 3011, 3079, 3373, 125, 221, 3404, 1175, 498, 2527, 1976, 175, 34, 257, 351, 347, 1483, 2892, 1293, 2949, 335, 4083, 3425, 1313, 3044, 2844, 1863, 3118, 2839, 2846, 1797, 1613, 152, 2708, 1304, 3497, 696, 816, 2048, 2937, 3221, 3143, 1618, 1107, 1327, 3826, 3825, 539, 2962, 3076, 834, 3253, 57, 22, 2978, 332, 4034, 3128, 2017, 1836, 3504, 1401, 2527, 3717, 2614, 310, 73, 2769, 1122, 229, 2711, 2156, 3126, 3886, 487, 1562, 3217, 81, 3939, 1985, 2368, 1218, 2566, 287, 1048, 1114, 3388, 2048, 563, 3370, 3369, 2381, 2855, 1205, 2568, 3119, 3856, 1501, 721, 2795, 2493, 1211, 1322, 1504, 1909, 719, 1819, 3704, 2279, 1432, 3577, 1801, 3382, 1262, 3859, 3422, 1239, 96, 1503, 3148, 2380, 3620, 389, 2032, 1381, 2233, 3176, 1029, 321, 730, 1918, 3717, 2045, 69, 1929, 926, 3757, 244, 262, 1059, 357, 3511, 3620, 2915, 4004, 2815, 1897, 584, 2411, 1805, 572, 476, 3906, 524, 3236, 118, 1289, 2493, 3034, 1863, 1912, 2614, 75, 2456, 2805, 3755, 442, 1291, 3155, 795, 1410, 1554, 3088, 3068, 3042, 3147, 3421, 3986, 2601, 1612, 768, 662, 2367, 1810, 1661, 3483, 3628, 3419, 2011, 1704, 2876, 1179, 1367, 852, 1689, 1387, 3109, 2454, 3493, 89, 1551, 3352, 1597, 3215, 3109, 1041, 1478, 3703, 3361, 3944, 2122, 1061, 2997, 917, 2814, 1982, 1187, 1908, 3008, 1044, 2136, 1702, 3894, 4075, 4049, 2624, 3313]

def kat4A320 : List Nat := [482, 1800, 1304, 1219, 519, 2123, 2414, 916, 1017, 517, 1005, 3160, 2031, 2860, 809, 2932, 1868, 3019, 3129, 697, 2473, 925, 2251, 1350, 2255, 1391, 413, 899, 2947, 2279, 1181, 1210, 899, 2323, 2545, 2910, 1284, 3100, 2345, 2215, 230, 1678, 3011, 125, 1175, 2527, 175, 257, 347, 2892, 2949, 1313, 2844, 3118, 2846, 1613, 2708, 696, 2048, 3221, 1618, 1327, 2962, 834, 57, 2978, 3128, 1836, 2527, 310, 2769, 229, 2156, 487, 3217, 1985, 1218, 287, 1114, 563, 2855, 2568, 1501, 2795, 1211, 1504, 719, 2279, 1801, 1239, 1503, 2380, 2032, 2233, 1029, 730, 2045, 1929, 244, 1059, 2915, 1897, 2411, 572, 524, 118, 2493, 1863, 2614, 2456, 442, 3155, 1410, 3088, 3042, 2601, 768, 2367, 1661, 1704, 1179, 852, 1387, 2454, 1551, 3215, 1041, 2122]

def kat4A321 : List Nat := [3021, 3101, 1261, 2189, 536, 489, 1606, 484, 585, 651, 2232, 1853, 2949, 2622, 3311, 459, 2794, 1593, 926, 65, 762, 2902, 2290, 3258, 1964, 1211, 2980, 759, 2140, 2281, 1292, 290, 2041, 2566, 2338, 3263, 2718, 1008, 971, 1246, 3097, 2758, 3079, 221, 498, 1976, 34, 351, 1483, 1293, 335, 3044, 1863, 2839, 1797, 152, 1304, 816, 2937, 3143, 1107, 539, 3076, 3253, 22, 332, 2017, 1401, 2614, 73, 1122, 2711, 3126, 1562, 81, 2368, 2566, 1048, 2048, 2381, 1205, 3119, 721, 2493, 1322, 1909, 1819, 1432, 1262, 96, 3148, 389, 1381, 3176, 321, 1918, 69, 926, 262, 357, 2815, 584, 1805, 476, 3236, 1289, 3034, 1912, 75, 2805, 1291, 795, 1554, 3068, 3147, 1612, 662, 1810, 2011, 2876, 1367, 1689, 3109, 89, 1597, 3109, 1478, 1061]

theorem kat4A32_eq : SampleNTT 224 (nb 32 kat4RhoN ++ [UInt8.ofNat 2, UInt8.ofNat 3]) = some (rqOf (weave kat4A320 kat4A321)) :=
  sampleNTT_mono 168 224 (by omega) _ _ (sample_lit (l := kat4A32L) (P := padN34) rfl rfl rfl rfl kat4A32W0_perm kat4A32W1_perm kat4A32W2_perm padN34_eq padN34_lt rfl (by decide +kernel) (by decide +kernel) (by decide +kernel) (by decide +kernel) (by decide +kernel) (by decide +kernel) (by decide +kernel))

def kat4A33W0 : List UInt64 := [0x1e9adde736820a68, 0x19c8e553b9dd5265, 0xdad48bb8cc38c34c, 0x3959e1aae84c1a4c, 0x1f0303, 0x0, 0x0, 0x0, 0x0, 0x0, 0x0, 0x0, 0x0, 0x0, 0x0, 0x0, 0x0, 0x0, 0x0, 0x0, 0x8000000000000000, 0x0, 0x0, 0x0, 0x0]

def kat4A33W1 : List UInt64 := [0xa4e8de6555122740, 0xd7051beb234c899e, 0x36c9358c39487808, 0x1bddf1e377ee78f7, 0xecfca6fe2dfe7713, 0x4a6b9a128d1cbe0a, 0xc54c1d66e78caf8b, 0xe4e346be5135806a, 0xbcc9c1e10c222e51, 0x18843825abb3d945, 0xbd9118507e0e22f5, 0x43ef6bb58eccfa29, 0x23b405e99bf6db14, 0x4cd42b96866adf9e, 0xd7ff45ccc05a22ec, 0xc1d2a1a61777e177, 0x3a8e94927d244cfd, 0xeb2c149ce0fd795a, 0x12a296942bac0595, 0xf5fb76bcab65a7fe, 0x12d9610fcf735501, 0x50909127f80be7a8, 0xa7fe419306280c93, 0xf1acb9e950991fd8, 0x80444d4366c8e7aa]

def kat4A33W2 : List UInt64 := [0xca69c3fd5e5345c, 0x8a1bbb5cb5667439, 0xb7b82f3641e3d82e, 0x538a91e57bef9673, 0x95ae802d23026de1, 0x46da7266b6feff8c, 0xe0c430788d3a4b17, 0xe71f5b5c9866b456, 0x8141edb0788ca91d, 0xfd918c118d899f18, 0x75e5b0bc571d149, 0x454795a486a7d1f2, 0x106a0509e170f014, 0x214a53f6d4a6d446, 0xf4e5fbe439399c55, 0xea240c0be38f8274, 0x755ce9087b382ffb, 0xdc3da8d8ea6ec8f0, 0xe11f0fd2808a5ecd, 0xde31d627d0cb81b8, 0xa8c33b9282c9f22b, 0xe5314e8ce34137a9, 0x84d77d44b1943399, 0xf516b48e3a94e683, 0x37e8c36b666d2a56]

def kat4A33W3 : List UInt64 := [0x7297bccbb7e9c76b, 0x1025590a229476bf, 0xa585c2c78503983d, 0x3bd05dedf48a6c11, 0x3167c02682cfffb, 0xe91453f194e52fc0, 0x707231326015d290, 0x473c028dae151e5c, 0xe79d3830bbe3318b, 0xfdc075b322ce688a, 0xb3cd4aac1337a01e, 0xcea8f78d7bc8998b, 0x45397fe86885daba, 0x4a090c5fe8b3ea54, 0xf9040ffb8ff1961c, 0x2fbf4bec6d9bd790, 0x6ae7ebd802cb1e5a, 0xda43d1b9e80d3ad3, 0xee09e7e032d25f30, 0x21067c170efd4e67, 0xb1a94b4d77282ddc, 0x4f2461434427b857, 0x4728a55ca342b0b2, 0xaf8359b5d58ccb43, 0xfc63485ed461da70]

theorem kat4A33W0_perm : KF (laneBytes kat4A33W0) = laneBytes kat4A33W1 := kf_lit rfl rfl (by decide +kernel)

theorem kat4A33W1_perm : KF (laneBytes kat4A33W1) = laneBytes kat4A33W2 := kf_lit rfl rfl (by decide +kernel)

theorem kat4A33W2_perm : KF (laneBytes kat4A33W2) = laneBytes kat4A33W3 := kf_lit rfl rfl (by decide +kernel)

def kat4A33L : List Nat := [1856, 290, 1365, 3558, 1256, 2538, 3209, 564, 3051, 81, 2263, 1920, 2376, 2243, 2357, 876, 2295, 3815, 887, 3870, 3037, 305, 3703, 735, 1790, 4042, 2796, 3040, 3356, 296, 2970, 1190, 3979, 2250, 1767, 470, 1356, 1708, 1408, 1299, 1726, 3636, 484, 741, 3106, 3600, 2497, 3020, 2373, 2877, 1451, 898, 2180, 3921, 3618, 2016, 2128, 2321, 2493, 4002, 3788, 2904, 3947, 1086, 2836, 3949, 2459, 94, 948, 2530, 2783, 2150, 2966, 3394, 3148, 558, 90, 3276, 3909, 3455, 375, 1918, 1559, 2586, 466, 4060, 1100, 2002, 1170, 2281, 2618, 1941, 253, 2510, 3092, 3762, 1429, 2752, 1067, 2409, 674, 4065, 1447, 2742, 1724, 4023, 501, 1360, 3955, 252, 2401, 301, 1116, 3667, 4053, 2499, 3238, 912, 1652, 2902, 2908, 443, 3722, 3458, 483, 868, 2095, 2939, 1651, 3833, 1403, 2334, 906, 3605, 621, 560, 45, 2792, 3221, 4088, 1790, 1643, 2674, 1133, 2839, 932, 2189, 775, 196, 1390, 1716, 2438, 2908, 501, 3559, 2705, 2188, 2823, 493, 2068, 3864, 2201, 397, 2241, 3473, 1183, 465, 3159, 2827, 1509, 519, 3359, 1703, 2632, 1941, 1108, 20, 1807, 2529, 80, 106, 1121, 1748, 3402, 1014, 1189, 1313, 2501, 2361, 3651, 1531, 3918, 628, 2296, 3043, 192, 2596, 4030, 2095, 1971, 2312, 1486, 117, 3215, 2670, 3470, 3496, 3523, 3789, 2213, 640, 253, 287, 2958, 2945, 3340, 1575, 797, 3038, 3874, 713, 2344, 827, 2700, 1899, 3740, 2999, 3020, 663, 3063, 1142, 553, 2314, 597, 3344, 2435, 1283, 3192, 1474, 2648, 3089, 2214, 3572, 1502, 3024, 4019, 3327, 1666, 3074, 359, 3, 764, 1253, 3865, 1107, 3729, 656, 349, 608, 787, 114, 1479, 1310, 2785, 653, 960, 2887, 792, 3043, 779, 3384, 3705, 2186, 3302, 802, 1883, 3520, 495, 1952, 307, 2732, 3284, 2995, 2456, 3016, 2263, 2295, 3306, 2746, 2141, 2152, 2046, 1337, 1348, 1002, 3723, 3167, 144, 3146, 2401, 4081, 4024, 1039, 3984, 1936, 2493, 3181, 1214, 4031, 1442, 2846, 44, 3032, 3710, 874, 941, 2061, 2974, 977, 3492, 3888, 3365, 50, 3710, 3593, 1662, 3406, 239, 3095, 103, 3105, 733, 1832, 1239, 2379, 2842]

def kat4A330 : List Nat := [1856, 1365, 2538, 564, 81, 1920, 2243, 876, 887, 305, 1790, 3040, 2970, 2250, 470, 1708, 1299, 484, 3106, 3020, 2877, 898, 2016, 2321, 2904, 2836, 94, 2530, 2150, 3148, 90, 375, 1559, 466, 2002, 2281, 1941, 2510, 1429, 1067, 674, 2742, 501, 252, 301, 2499, 912, 2902, 443, 868, 2939, 1403, 906, 560, 2792, 1790, 2674, 2839, 2189, 196, 1716, 2908, 2705, 2823, 2068, 397, 1183, 3159, 1509, 1703, 1941, 20, 2529, 106, 1748, 1189, 2501, 1531, 2296, 192, 2095, 2312, 117, 2670, 640, 287, 2945, 797, 713, 827, 1899, 3020, 3063, 553, 597, 1283, 1474, 3089, 1502, 3327, 3074, 3, 1253, 656, 608, 114, 1310, 653, 2887, 3043, 2186, 802, 495, 307, 3284, 2456, 2263, 3306, 2141, 2046, 1348, 3167, 3146, 1039, 2493, 1214, 2846, 3032]

def kat4A331 : List Nat := [290, 1256, 3209, 3051, 2263, 2376, 2357, 2295, 3037, 735, 2796, 296, 1190, 1767, 1356, 1408, 1726, 741, 2497, 2373, 1451, 2180, 2128, 2493, 1086, 2459, 948, 2783, 2966, 558, 3276, 1918, 2586, 1100, 1170, 2618, 253, 3092, 2752, 2409, 1447, 1724, 1360, 2401, 1116, 3238, 1652, 2908, 483, 2095, 1651, 2334, 621, 45, 3221, 1643, 1133, 932, 775, 1390, 2438, 501, 2188, 493, 2201, 2241, 465, 2827, 519, 2632, 1108, 1807, 80, 1121, 1014, 1313, 2361, 628, 3043, 2596, 1971, 1486, 3215, 2213, 253, 2958, 1575, 3038, 2344, 2700, 2999, 663, 1142, 2314, 2435, 3192, 2648, 2214, 3024, 1666, 359, 764, 1107, 349, 787, 1479, 2785, 960, 792, 779, 3302, 1883, 1952, 2732, 2995, 3016, 2295, 2746, 2152, 1337, 1002, 144, 2401, 1936, 3181, 1442, 44, 874]

theorem kat4A33_eq : SampleNTT 224 (nb 32 kat4RhoN ++ [UInt8.ofNat 3, UInt8.ofNat 3]) = some (rqOf (weave kat4A330 kat4A331)) :=
  sampleNTT_mono 168 224 (by omega) _ _ (sample_lit (l := kat4A33L) (P := padN34) rfl rfl rfl rfl kat4A33W0_perm kat4A33W1_perm kat4A33W2_perm padN34_eq padN34_lt rfl (by decide +kernel) (by decide +kernel) (by decide +kernel) (by decide +kernel) (by decide +kernel) (by decide +kernel) (by decide +kernel))

noncomputable def kat4A (i j : Nat) : Rq :=
  match i, j with
  | 0, 0 => rqOf (weave kat4A000 kat4A001)
  | 0, 1 => rqOf (weave kat4A010 kat4A011)
  | 0, 2 => rqOf (weave kat4A020 kat4A021)
  | 0, 3 => rqOf (weave kat4A030 kat4A031)
  | 1, 0 => rqOf (weave kat4A100 kat4A101)
  | 1, 1 => rqOf (weave kat4A110 kat4A111)
  | 1, 2 => rqOf (weave kat4A120 kat4A121)
  | 1, 3 => rqOf (weave kat4A130 kat4A131)
  | 2, 0 => rqOf (weave kat4A200 kat4A201)
  | 2, 1 => rqOf (weave kat4A210 kat4A211)
  | 2, 2 => rqOf (weave kat4A220 kat4A221)
  | 2, 3 => rqOf (weave kat4A230 kat4A231)
  | 3, 0 => rqOf (weave kat4A300 kat4A301)
  | 3, 1 => rqOf (weave kat4A310 kat4A311)
  | 3, 2 => rqOf (weave kat4A320 kat4A321)
  | 3, 3 => rqOf (weave kat4A330 kat4A331)
  | _, _ => 0

theorem kat4_sample (i : Nat) (hi : i < 4) (j : Nat) (hj : j < 4) : SampleNTT 224 (nb 32 kat4RhoN ++ [UInt8.ofNat j, UInt8.ofNat i]) = some (kat4A i j) := by
  interval_cases i <;> interval_cases j
  · exact kat4A00_eq
  · exact kat4A01_eq
  · exact kat4A02_eq
  · exact kat4A03_eq
  · exact kat4A10_eq
  · exact kat4A11_eq
  · exact kat4A12_eq
  · exact kat4A13_eq
  · exact kat4A20_eq
  · exact kat4A21_eq
  · exact kat4A22_eq
  · exact kat4A23_eq
  · exact kat4A30_eq
  · exact kat4A31_eq
  · exact kat4A32_eq
  · exact kat4A33_eq

theorem kat4_expand : ∃ A, ExpandA 4 224 (nb 32 kat4RhoN) = some A ∧ ∀ i < 4, ∀ j < 4, A i j = kat4A i j := expand_lit kat4_sample

end Verif.Proof
