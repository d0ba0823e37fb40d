import Verif.Proof.LiteralKem

/-! # Known answer for ML-KEM-512: the matrix

Generated numbers; every equation is checked by the kernel. -/

set_option autoImplicit false
set_option maxRecDepth 20000

namespace Verif.Proof
open Verif.Model Verif.Spec

/-- σ -/
def kat2SigN : Nat := 0xaaca89b706b9aee6dbb9f905f5fcedbdf4e9dfdf959a5f7494239cdf4fb7e69e

/-- ρ -/
def kat2RhoN : Nat := 0x277bf02714750d290286f33038e56cfe0a14d8c479f968725f7fbb4916e15270

def kat2Ga : List UInt64 := [0x7d828fe8a42b9c7f, 0x3e85057650456061, 0x88bceff693803bd7, 0x26ef66faac6e1aeb, 0x602, 0x0, 0x0, 0x0, 0x8000000000000000, 0x0, 0x0, 0x0, 0x0, 0x0, 0x0, 0x0, 0x0, 0x0, 0x0, 0x0, 0x0, 0x0, 0x0, 0x0, 0x0]

def kat2Gb : List UInt64 := [0x5f7fbb4916e15270, 0xa14d8c479f96872, 0x286f33038e56cfe, 0x277bf02714750d29, 0x94239cdf4fb7e69e, 0xf4e9dfdf959a5f74, 0xdbb9f905f5fcedbd, 0xaaca89b706b9aee6, 0x39502bd5c7d6abeb, 0x20adb06574dfd2fe, 0xb0357a7c245616ca, 0xa9d25a96508d325d, 0xee927fccf375505d, 0xc737d36ffe14a69b, 0x97bd11024b57a156, 0xdf17cbfaaf5e80b2, 0x5c976da7a02bbc6d, 0x44661348dfa5732a, 0xe793650015d9dbf9, 0x8c6a4cc3b84aabb2, 0x915eea43acddf559, 0x5947d8c90998acb8, 0x5a43e4728af4396a, 0x6f9955ac2ccef931, 0xc3305b56b23b7ef7]

theorem kat2Ga_perm : KF (laneBytes kat2Ga) = laneBytes kat2Gb := kf_lit rfl rfl (by decide +kernel)

theorem kat2_g : G (nb 32 katDN ++ [UInt8.ofNat 2]) = (nb 32 kat2RhoN, nb 32 kat2SigN) := by
  unfold G
  rw [nb_single, nb_append (by decide +kernel), SHA3_512_eq, padded_one (w := kat2Ga) (P := 0x800000000000000000000000000000000000000000000000000000000000000000000000000006) rfl (by omega) (by decide +kernel) (by decide +kernel) (by decide +kernel) (by decide +kernel),
    kout_lit rfl (by omega) (by omega) kat2Ga_perm]
  decide +kernel

def kat2A00W0 : List UInt64 := [0x5f7fbb4916e15270, 0xa14d8c479f96872, 0x286f33038e56cfe, 0x277bf02714750d29, 0x1f0000, 0x0, 0x0, 0x0, 0x0, 0x0, 0x0, 0x0, 0x0, 0x0, 0x0, 0x0, 0x0, 0x0, 0x0, 0x0, 0x8000000000000000, 0x0, 0x0, 0x0, 0x0]

def kat2A00W1 : List UInt64 := [0x2cd7d4f4264a2f9b, 0x8ce69863c11b5259, 0x99122691c5c4aa1b, 0x28ee01100230cf3f, 0x760dc1ae6b01ee37, 0xa6921dfc5526cd60, 0xf6cac799948a0962, 0xf771208773156b91, 0x61610e4a5fdd5095, 0x6028ef409218f1c1, 0x9a9c00118f1be971, 0x5f88248d06a340ac, 0x2c29da563229b870, 0x2cbf386e352eba01, 0xa7ef2f849b148b64, 0x6f3c12402d37026, 0x58ff84b02196d8a4, 0x9cfbc4789585b7c8, 0x2dfb2896c242448e, 0xbf60242fe337bb74, 0x5928e01467604676, 0xb618132d5dd3c9ad, 0xd2285135142a4df, 0x1af1969e5b239d37, 0x6623c0b2f605b9ea]

def kat2A00W2 : List UInt64 := [0x332397090b93044e, 0x4dc4302c95feb2ef, 0xeaae5ac426014507, 0x1072932570422ded, 0x970a2b126e777251, 0xe6a5f926ad3d6109, 0x8b6502a14306b203, 0x83c228b68479cadd, 0xc06a1c70916fff93, 0xc08fd3a99f97c0e0, 0x289a7fc34ec18706, 0x1e3a4d5672b5a472, 0x5556056c770b7d01, 0xc9d87409446e94b8, 0x9e4260598746c9c9, 0x3b1e0978ffecd190, 0x9c688ebf2c94d2b4, 0x2be1dc045c8a8fd3, 0x65a48e85cdd46676, 0x61a3b644ba3b570f, 0x4e3021ac3ccff01, 0xd9410934698ea2cc, 0x4d523b5ed38bee70, 0x8e2c54601a34a22, 0x65fd12c2962dfcca]

def kat2A00W3 : List UInt64 := [0x7b9e63a89ef9586b, 0x3585f1a55d17c742, 0x6d2538737482a7bd, 0x441d6e41a7751c02, 0xca28bb94965287cf, 0xa20d4d85f5b81292, 0xe90da596be720627, 0x846faed594aec0e2, 0xec7371e19872e32, 0x8daf117bd8aa09f, 0xe72cc6de803c31c5, 0x93f033d413ea1e3c, 0xe287a333e2e245d6, 0x44b1be1c4e403969, 0x7dd22a809e062af9, 0x58822938c91dff2a, 0xe0ed98571dc84f62, 0xee0c311023a772bc, 0x81f43f73c9860125, 0xa124b4f30d697cab, 0xb3ad0cf7b6a930ee, 0x159f09cf3ace9187, 0x7d6caefd8b5b8925, 0xbedf153f46a3f08f, 0x3c4ac6aa06b3b31b]

theorem kat2A00W0_perm : KF (laneBytes kat2A00W0) = laneBytes kat2A00W1 := kf_lit rfl rfl (by decide +kernel)

theorem kat2A00W1_perm : KF (laneBytes kat2A00W1) = laneBytes kat2A00W2 := kf_lit rfl rfl (by decide +kernel)

theorem kat2A00W2_perm : KF (laneBytes kat2A00W2) = laneBytes kat2A00W3 := kf_lit rfl rfl (by decide +kernel)

def kat2A00L : List Nat := [3995, 1186, 1062, 3407, 3287, 1426, 2898, 3089, 2147, 3689, 2956, 2721, 1476, 2332, 550, 2449, 3903, 780, 2, 17, 2286, 882, 494, 1712, 430, 220, 118, 3286, 1318, 4037, 541, 2665, 2402, 2208, 2452, 3193, 1738, 2335, 1387, 1841, 135, 1810, 1527, 1289, 4061, 1189, 270, 1558, 449, 399, 146, 3828, 40, 1814, 3049, 2289, 17, 2496, 3226, 1034, 1699, 2256, 2084, 1528, 2160, 667, 1586, 3493, 3113, 18, 3770, 850, 2158, 3059, 1068, 2230, 2836, 2121, 3887, 2686, 38, 3383, 1026, 3090, 1779, 2624, 1752, 537, 1200, 4088, 2136, 2940, 1413, 1929, 3012, 2511, 1166, 1060, 1730, 649, 3579, 1858, 1979, 3635, 1071, 1538, 1727, 1127, 1888, 326, 2272, 1426, 1102, 2352, 2315, 2416, 803, 3827, 3762, 2399, 44, 3139, 1869, 1104, 1537, 3138, 3674, 3754, 3565, 1058, 1392, 2354, 114, 1297, 1906, 1767, 2834, 162, 2455, 1552, 3389, 618, 1529, 3690, 515, 107, 323, 42, 2917, 3544, 2506, 2119, 2230, 3106, 899, 4089, 367, 1801, 2588, 3078, 224, 2428, 2463, 3386, 143, 108, 391, 1260, 4035, 2471, 552, 2631, 693, 1383, 2637, 483, 3329, 183, 3191, 86, 1366, 2949, 3732, 1094, 1033, 3463, 2505, 3228, 1862, 1432, 608, 2532, 400, 3789, 2303, 151, 2846, 2883, 1234, 713, 3775, 1672, 924, 2301, 3210, 69, 476, 702, 1654, 3398, 1485, 2280, 1444, 246, 2903, 2979, 1604, 2619, 353, 4080, 972, 428, 770, 78, 2155, 3989, 2206, 1594, 2974, 1063, 1991, 1489, 421, 2143, 3381, 2683, 1154, 1847, 1336, 1746, 3074, 1873, 423, 1764, 1053, 3316, 647, 2405, 2964, 651, 714, 297, 1464, 2143, 3405, 2592, 1575, 1824, 1726, 2649, 2317, 3630, 3776, 2378, 3797, 1786, 644, 739, 2439, 481, 1847, 236, 159, 2218, 1981, 3857, 2266, 3152, 3121, 2051, 1758, 716, 3303, 483, 1002, 3393, 51, 2367, 1494, 3620, 994, 2611, 647, 1694, 57, 1252, 3612, 2843, 2372, 687, 3590, 2057, 554, 2013, 3882, 479, 2249, 659, 2178, 1573, 2127, 476, 2135, 3801, 3296, 1835, 935, 258, 3121, 3808, 293, 2144, 969, 1015, 500, 2744, 2428, 214, 1267, 587, 3745, 782, 1705, 3963, 3340, 2874]

def kat2A000 : List Nat := [1186, 3287, 2898, 2147, 2721, 2332, 2449, 2, 2286, 494, 430, 118, 1318, 2665, 2208, 3193, 2335, 1841, 1810, 1289, 270, 449, 146, 1814, 2289, 2496, 1034, 2256, 1528, 667, 3113, 850, 3059, 2230, 2121, 38, 3090, 2624, 537, 2136, 1413, 3012, 1166, 1730, 1858, 1071, 1727, 1888, 2272, 1102, 2315, 803, 44, 1869, 1537, 1058, 2354, 1297, 1767, 162, 1552, 1529, 107, 42, 2506, 2230, 899, 1801, 3078, 2428, 143, 391, 2471, 2631, 1383, 483, 3191, 1366, 1094, 2505, 1862, 608, 400, 151, 2883, 713, 924, 3210, 476, 1654, 2280, 246, 2979, 2619, 972, 770, 2155, 1594, 1063, 1489, 2143, 1154, 1336, 3074, 423, 1053, 647, 2964, 714, 1464, 2592, 1824, 2649, 2378, 644, 2439, 1847, 159, 1981, 3152, 2051, 716, 483, 51, 1494, 2611, 1694, 1252]

def kat2A001 : List Nat := [1062, 1426, 3089, 2956, 1476, 550, 780, 17, 882, 1712, 220, 3286, 541, 2402, 2452, 1738, 1387, 135, 1527, 1189, 1558, 399, 40, 3049, 17, 3226, 1699, 2084, 2160, 1586, 18, 2158, 1068, 2836, 2686, 1026, 1779, 1752, 1200, 2940, 1929, 2511, 1060, 649, 1979, 1538, 1127, 326, 1426, 2352, 2416, 2399, 3139, 1104, 3138, 1392, 114, 1906, 2834, 2455, 618, 515, 323, 2917, 2119, 3106, 367, 2588, 224, 2463, 108, 1260, 552, 693, 2637, 183, 86, 2949, 1033, 3228, 1432, 2532, 2303, 2846, 1234, 1672, 2301, 69, 702, 1485, 1444, 2903, 1604, 353, 428, 78, 2206, 2974, 1991, 421, 2683, 1847, 1746, 1873, 1764, 3316, 2405, 651, 297, 2143, 1575, 1726, 2317, 1786, 739, 481, 236, 2218, 2266, 3121, 1758, 3303, 1002, 2367, 994, 647, 57, 2843]

theorem kat2A00_eq : SampleNTT 168 (nb 32 kat2RhoN ++ [UInt8.ofNat 0, UInt8.ofNat 0]) = some (rqOf (weave kat2A000 kat2A001)) :=
  sample_lit (l := kat2A00L) (P := padN34) rfl rfl rfl rfl kat2A00W0_perm kat2A00W1_perm kat2A00W2_perm padN34_eq padN34_lt rfl (by decide +kernel) (by decide +kernel) (by decide +kernel) (by decide +kernel) (by decide +kernel) (by decide +kernel) (by decide +kernel)

def kat2A01W0 : List UInt64 := [0x5f7fbb4916e15270, 0xa14d8c479f96872, 0x286f33038e56cfe, 0x277bf02714750d29, 0x1f0001, 0x0, 0x0, 0x0, 0x0, 0x0, 0x0, 0x0, 0x0, 0x0, 0x0, 0x0, 0x0, 0x0, 0x0, 0x0, 0x8000000000000000, 0x0, 0x0, 0x0, 0x0]

def kat2A01W1 : List UInt64 := [0xa602a2de740c66db, 0xc860d56738e87837, 0x613f2248f84d0136, 0x82db7cf5c6f011ec, 0x76ae5e3affa90f57, 0x3a65c138a1555917, 0x6ab122831798060a, 0xefdd01171a4fbfdd, 0x45a086244a9dedb0, 0xd50b57894d6e3464, 0xa5ec9fa0e10a98ee, 0x3f501324f0402792, 0x4c4055b7cadca4cd, 0x1561d47ebb8d949e, 0x93f8903bfd455d12, 0x3a19266fcbe16cb6, 0x92fc57d82bfdaff, 0x2123dbbe88507abe, 0x8669af6db35576a3, 0x691de4fb32729891, 0x9b7f0c3c39762d55, 0x377cd007807e99e0, 0xa83b95ed960cb85c, 0x8a57b3ca19095f68, 0x880eb1da7266b6d4]

def kat2A01W2 : List UInt64 := [0x18f84555b5302fa7, 0x65fb000c19fb9158, 0x607a34c35e234d29, 0x4bc9929dcb84ef26, 0xd37b5a399b76d181, 0x830d0a7fe756cb3b, 0x56c58b10b5018427, 0x8f9225e7133aea3, 0x3a9866be634f220a, 0x5ee6d0a30ddf2e99, 0x4e70f20fa368ebd2, 0x942c2b1e5612f984, 0x851ca6f9ad0e7613, 0xfad392bd490fd58f, 0x9c5d82217608e582, 0x429be9b4db2d5cec, 0xd7564c9d1c205087, 0xd65f3cc8dc2471bd, 0xe78114073c350386, 0x1158c362747beab0, 0x63d091720f650333, 0xc7735ffd481a9682, 0x3c54f88ca4aeb159, 0x6b73daa061605340, 0xf3783430ad354b77]

def kat2A01W3 : List UInt64 := [0xb8db6db5754ff43c, 0xd2c7004776d9765f, 0x313359ba8f93f792, 0x4fb331e8f9bdbbf9, 0xda7c53a13660b1bb, 0x2478850c2c80b6c3, 0x1b60f423a4caea6e, 0xfed48b127a6195db, 0xdc81d6e593f6721d, 0xe86a621ae14a6d6e, 0x82ec241d89bc51bc, 0x81ce8af3219df728, 0xec1a4c14e2caaf1f, 0x770fca1c20851865, 0xef90b5ec16d2e994, 0x181fce64e7bdb4cf, 0x66ef2d4cd51c37bc, 0xf4544102b89a65a6, 0x45718b58b2e93d4c, 0x24ba86c9e923c15b, 0x99e40894c9426c54, 0xe2c1875661de5534, 0xd8ae97918a7ef505, 0xfbcc9851a11809a8, 0xf3574f1ef63f7ff9]

theorem kat2A01W0_perm : KF (laneBytes kat2A01W0) = laneBytes kat2A01W1 := kf_lit rfl rfl (by decide +kernel)

theorem kat2A01W1_perm : KF (laneBytes kat2A01W1) = laneBytes kat2A01W2 := kf_lit rfl rfl (by decide +kernel)

theorem kat2A01W2_perm : KF (laneBytes kat2A01W2) = laneBytes kat2A01W3 := kf_lit rfl rfl (by decide +kernel)

def kat2A01L : List Nat := [1755, 198, 3700, 2605, 1538, 890, 2168, 910, 1383, 1549, 1736, 19, 2125, 1167, 3874, 1555, 492, 3841, 1478, 1999, 731, 1400, 2319, 4090, 3642, 2789, 1910, 1425, 341, 906, 1473, 934, 1546, 2432, 791, 552, 2737, 3542, 4031, 420, 279, 3536, 239, 3803, 2717, 580, 134, 1114, 1124, 1763, 2381, 1400, 1291, 3821, 2712, 3600, 4000, 3785, 677, 633, 64, 591, 19, 1013, 1229, 3530, 1994, 1371, 3136, 2532, 3476, 3000, 1150, 1565, 533, 1489, 3397, 959, 2192, 2367, 3254, 3606, 4043, 614, 2585, 4083, 4058, 2091, 1405, 764, 3593, 1963, 2128, 3048, 987, 530, 1699, 1367, 3507, 2806, 1641, 2328, 664, 807, 1275, 478, 1385, 725, 2422, 963, 3852, 2487, 4007, 770, 1461, 1109, 2296, 1409, 2961, 415, 12, 4016, 2405, 1234, 3619, 3125, 2612, 1543, 3878, 2126, 3531, 2345, 3017, 2068, 1745, 2487, 2617, 1973, 3027, 3251, 1878, 2046, 3338, 2096, 1063, 24, 181, 2225, 1733, 2613, 942, 1811, 606, 3986, 2568, 544, 847, 3046, 2150, 937, 3737, 3570, 781, 3338, 3814, 3365, 2283, 2614, 527, 1807, 1102, 3992, 1554, 485, 3115, 2370, 1555, 231, 2477, 2671, 1308, 2296, 4053, 1168, 701, 3385, 762, 3672, 1544, 535, 3458, 2501, 3308, 725, 1243, 3739, 667, 2164, 80, 450, 3229, 1380, 3543, 1819, 3108, 3213, 3900, 3429, 902, 848, 1852, 320, 1921, 2830, 3050, 1863, 866, 1420, 785, 51, 3941, 1824, 145, 1597, 1084, 1279, 1397, 1755, 2267, 1531, 2422, 1901, 71, 3184, 722, 3961, 3987, 2984, 857, 787, 3065, 3035, 2297, 798, 4019, 2996, 177, 870, 929, 1989, 986, 2924, 3200, 194, 2181, 583, 2670, 3246, 932, 3906, 2912, 3505, 405, 1958, 2834, 3400, 3582, 1825, 1014, 3673, 470, 3528, 3438, 1190, 2785, 1569, 2154, 3022, 3153, 2203, 1053, 3778, 2178, 3954, 413, 3890, 3722, 2076, 3871, 3242, 1250, 1217, 3098, 1630, 1304, 520, 2588, 252, 1143, 3737, 1746, 3777, 181, 3833, 1231, 3035, 1255, 3302, 2079, 3009, 3127, 3409, 3404, 3826, 1638, 1626, 2202, 43, 1089, 3909, 3404, 3731, 2226, 2229, 1393, 1460, 961, 3730, 1737, 2984, 1060, 1733, 2370, 2380, 1032, 2462]

def kat2A010 : List Nat := [1755, 2605, 890, 910, 1549, 19, 1167, 492, 1999, 1400, 2789, 1425, 906, 934, 2432, 552, 420, 239, 580, 1114, 1763, 1400, 2712, 633, 591, 1013, 1994, 3136, 3000, 1565, 1489, 2192, 3254, 2585, 1405, 1963, 3048, 530, 1367, 1641, 664, 1275, 1385, 2422, 2487, 1461, 2296, 2961, 12, 1234, 2612, 2126, 3017, 1745, 2617, 3027, 1878, 2096, 24, 2225, 2613, 1811, 2568, 847, 2150, 781, 2614, 1807, 1554, 3115, 1555, 2477, 1308, 1168, 762, 535, 3308, 1243, 2164, 450, 1380, 3108, 902, 1852, 1921, 3050, 866, 785, 1824, 1597, 1279, 1755, 1531, 1901, 3184, 2984, 787, 3035, 798, 177, 929, 986, 3200, 2181, 2670, 932, 405, 2834, 1014, 1190, 1569, 3022, 2203, 2178, 2076, 1250, 3098, 1304, 2588, 1143, 181, 3035, 3302, 3009, 1638, 2202, 1089, 2229]

def kat2A011 : List Nat := [198, 1538, 2168, 1383, 1736, 2125, 1555, 1478, 731, 2319, 1910, 341, 1473, 1546, 791, 2737, 279, 2717, 134, 1124, 2381, 1291, 677, 64, 19, 1229, 1371, 2532, 1150, 533, 959, 2367, 614, 2091, 764, 2128, 987, 1699, 2806, 2328, 807, 478, 725, 963, 770, 1109, 1409, 415, 2405, 3125, 1543, 2345, 2068, 2487, 1973, 3251, 2046, 1063, 181, 1733, 942, 606, 544, 3046, 937, 2283, 527, 1102, 485, 2370, 231, 2671, 2296, 701, 1544, 2501, 725, 667, 80, 3229, 1819, 3213, 848, 320, 2830, 1863, 1420, 51, 145, 1084, 1397, 2267, 2422, 71, 722, 857, 3065, 2297, 2996, 870, 1989, 2924, 194, 583, 3246, 2912, 1958, 1825, 470, 2785, 2154, 3153, 1053, 413, 3242, 1217, 1630, 520, 252, 1746, 1231, 1255, 2079, 3127, 1626, 43, 2226, 1393]

theorem kat2A01_eq : SampleNTT 168 (nb 32 kat2RhoN ++ [UInt8.ofNat 1, UInt8.ofNat 0]) = some (rqOf (weave kat2A010 kat2A011)) :=
  sample_lit (l := kat2A01L) (P := padN34) rfl rfl rfl rfl kat2A01W0_perm kat2A01W1_perm kat2A01W2_perm padN34_eq padN34_lt rfl (by decide +kernel) (by decide +kernel) (by decide +kernel) (by decide +kernel) (by decide +kernel) (by decide +kernel) (by decide +kernel)

def kat2A10W0 : List UInt64 := [0x5f7fbb4916e15270, 0xa14d8c479f96872, 0x286f33038e56cfe, 0x277bf02714750d29, 0x1f0100, 0x0, 0x0, 0x0, 0x0, 0x0, 0x0, 0x0, 0x0, 0x0, 0x0, 0x0, 0x0, 0x0, 0x0, 0x0, 0x8000000000000000, 0x0, 0x0, 0x0, 0x0]

def kat2A10W1 : List UInt64 := [0x368fe48f1f50ca5a, 0xd3515f88b4bd2c1c, 0x9652830c87949ec1, 0xa70f2dad38df9d7a, 0x26f43d0deb8148ca, 0x8ca40a9deb534e8b, 0xf2e7a5c6a34c3f58, 0x5f8a592ca60b327a, 0xcba64e082ed6483a, 0xc93ebf15daa5c972, 0xd48789c603eaf0f2, 0xdc2774bf82d1937, 0x94d80e8175612d38, 0xe926cbac731e840d, 0x574c08e6a45e18fb, 0x9c90c2574c4e23ad, 0xc7db288bbaf927dc, 0xfc150db1b0423cc8, 0xbabab8879f1dc521, 0xc544cf9f76a77e4f, 0xbae43496d1dff8ec, 0x145bd752cb68aba6, 0xc057e5b3bced2e83, 0x63a157241d251bcb, 0xd17baa1913b40f27]

def kat2A10W2 : List UInt64 := [0xd140ad3e07e2d875, 0x895798f1cb01d274, 0x5e1573424816e7e, 0xfa36428541668ac6, 0xda156c8b21581140, 0xa420e14defbf551e, 0xe8143dfbc1508c96, 0x84c20bd705b58417, 0x8c1e616e89b54ecf, 0xd678d1c0d52ed3f4, 0xb3a1eb62161c3581, 0x42b5f2684c2dbc81, 0xb3e4418a04c14748, 0xe24d291abdfe46fe, 0x480dd0fe1e5dcd35, 0x94219f4244013502, 0xe6af932f48363ad2, 0x635d78eb38b70018, 0xde8cd6b4485b5681, 0x679fe5982e1c1c, 0x9d78a1b88e6da0d2, 0x9b64eaef2bc77758, 0x526dfbc5f64fce6b, 0x7cc810ff1127388b, 0x256758ab9a653500]

def kat2A10W3 : List UInt64 := [0xb8c514b002575eeb, 0xf999019efa493fca, 0x7307bf59e0e34ea7, 0x7830daa8a1639db, 0xa69b0038569d1d3a, 0xf6c81150dca275e6, 0x79dad42d4b40cf70, 0xaf1f44b73c9bfd3f, 0xbc9d4741a625fbbf, 0x33e387eaef325c9e, 0x198a46fded649c18, 0x7fef766cebee360d, 0x8322806385d8a997, 0x96bf5f8e02f84f8d, 0x8bafca235a4ad74e, 0x8148832ea97da322, 0xf943b8aa96093206, 0x46691b1083c34ecb, 0x179fc7bf9746916c, 0x3e4c9508f71dacb7, 0x26db117ea589269b, 0xc925472326cdcce7, 0xa3724069dd94a7f1, 0xafdf943e850b1ea6, 0xc174503cdcfe0b6f]

theorem kat2A10W0_perm : KF (laneBytes kat2A10W0) = laneBytes kat2A10W1 := kf_lit rfl rfl (by decide +kernel)

theorem kat2A10W1_perm : KF (laneBytes kat2A10W1) = laneBytes kat2A10W2 := kf_lit rfl rfl (by decide +kernel)

theorem kat2A10W2_perm : KF (laneBytes kat2A10W2) = laneBytes kat2A10W3 := kf_lit rfl rfl (by decide +kernel)

def kat2A10L : List Nat := [2650, 1292, 3871, 3656, 1679, 451, 3372, 2891, 3976, 1301, 467, 2540, 1940, 200, 643, 2405, 3450, 3577, 3384, 730, 1807, 3242, 328, 3768, 3341, 3907, 2854, 1256, 2899, 2526, 1034, 2250, 3928, 1219, 1699, 2652, 743, 1967, 2866, 2656, 2348, 2213, 2655, 1155, 3798, 130, 1614, 3258, 2418, 2652, 1498, 3057, 2366, 3884, 2800, 62, 2502, 2168, 2004, 403, 2093, 1215, 631, 220, 3384, 1554, 373, 232, 1240, 217, 3716, 1841, 2988, 620, 3049, 399, 1118, 3690, 3080, 1396, 941, 1250, 1868, 3109, 3216, 3529, 2343, 2991, 2187, 3506, 2247, 972, 66, 2843, 1293, 4033, 1313, 476, 1951, 2952, 2746, 1275, 1918, 1898, 3999, 1100, 3269, 3982, 479, 2413, 1076, 2990, 2165, 3629, 3591, 2771, 320, 1869, 466, 3248, 2289, 1401, 3721, 1767, 1153, 834, 343, 94, 2758, 1640, 1345, 1064, 2614, 1039, 2065, 533, 3211, 342, 3802, 1361, 4031, 1246, 225, 2626, 3222, 1288, 3009, 991, 2068, 382, 1412, 91, 3031, 3104, 3972, 1260, 2485, 1768, 3681, 2241, 1012, 749, 213, 3356, 1656, 2077, 3125, 353, 2914, 2590, 435, 3016, 3117, 1668, 1522, 1067, 1864, 3092, 2564, 1048, 996, 4075, 3654, 3039, 2330, 1234, 1506, 3283, 3677, 4065, 3536, 1152, 1282, 19, 580, 2548, 1057, 3369, 1594, 1155, 815, 2809, 2278, 1, 2231, 3763, 3448, 1589, 1665, 1461, 1096, 3435, 3724, 461, 3612, 2434, 4069, 1657, 512, 2573, 3693, 2952, 2209, 2519, 3819, 1397, 2, 331, 2245, 3243, 2367, 4004, 414, 2448, 2041, 1258, 227, 1438, 1983, 1840, 2523, 355, 2698, 218, 1923, 928, 3357, 1385, 56, 2480, 1702, 1886, 3234, 1293, 2065, 3948, 3952, 1036, 3403, 3394, 2522, 1015, 3069, 969, 1207, 500, 4015, 4027, 1573, 1050, 3399, 3017, 3230, 805, 2799, 2174, 995, 387, 1180, 3798, 1789, 2212, 3353, 864, 3054, 1742, 3958, 2046, 2455, 3466, 901, 2054, 802, 2264, 2127, 47, 3982, 3061, 3734, 3444, 2634, 565, 4042, 2234, 802, 2010, 3753, 2098, 328, 104, 2354, 2400, 2218, 1083, 3065, 1260, 963, 264, 2331, 1126, 364, 1129, 3991, 3195, 1951, 2929, 3500, 3953, 1288, 1225, 2878, 617, 1417, 2026, 2833, 621]

def kat2A100 : List Nat := [2650, 1679, 2891, 467, 1940, 643, 730, 3242, 2854, 2899, 1034, 1219, 2652, 1967, 2656, 2213, 1155, 1614, 2418, 1498, 2366, 62, 2168, 403, 1215, 220, 373, 1240, 1841, 620, 399, 3080, 941, 1868, 3216, 2991, 2247, 66, 1293, 476, 2952, 1275, 1898, 3269, 2413, 2990, 2771, 1869, 3248, 1401, 1153, 343, 2758, 1345, 2614, 2065, 3211, 1361, 225, 3222, 3009, 2068, 1412, 3031, 1260, 1768, 1012, 213, 2077, 353, 2590, 3016, 1668, 1067, 3092, 1048, 3039, 1234, 3283, 1282, 580, 1057, 1155, 2809, 1, 1589, 1461, 461, 1657, 2573, 2209, 1397, 331, 3243, 414, 2041, 227, 1983, 2523, 2698, 1923, 1385, 2480, 1886, 1293, 1036, 1015, 969, 500, 1050, 3230, 2799, 995, 1180, 2212, 3054, 2046, 901, 802, 2127, 3061, 565, 802, 2098, 104, 2400, 1083, 1260]

def kat2A101 : List Nat := [1292, 451, 1301, 2540, 200, 2405, 1807, 328, 1256, 2526, 2250, 1699, 743, 2866, 2348, 2655, 130, 3258, 2652, 3057, 2800, 2502, 2004, 2093, 631, 1554, 232, 217, 2988, 3049, 1118, 1396, 1250, 3109, 2343, 2187, 972, 2843, 1313, 1951, 2746, 1918, 1100, 479, 1076, 2165, 320, 466, 2289, 1767, 834, 94, 1640, 1064, 1039, 533, 342, 1246, 2626, 1288, 991, 382, 91, 3104, 2485, 2241, 749, 1656, 3125, 2914, 435, 3117, 1522, 1864, 2564, 996, 2330, 1506, 1152, 19, 2548, 1594, 815, 2278, 2231, 1665, 1096, 2434, 512, 2952, 2519, 2, 2245, 2367, 2448, 1258, 1438, 1840, 355, 218, 928, 56, 1702, 3234, 2065, 2522, 3069, 1207, 1573, 3017, 805, 2174, 387, 1789, 864, 1742, 2455, 2054, 2264, 47, 2634, 2234, 2010, 328, 2354, 2218, 3065, 963]

theorem kat2A10_eq : SampleNTT 168 (nb 32 kat2RhoN ++ [UInt8.ofNat 0, UInt8.ofNat 1]) = some (rqOf (weave kat2A100 kat2A101)) :=
  sample_lit (l := kat2A10L) (P := padN34) rfl rfl rfl rfl kat2A10W0_perm kat2A10W1_perm kat2A10W2_perm padN34_eq padN34_lt rfl (by decide +kernel) (by decide +kernel) (by decide +kernel) (by decide +kernel) (by decide +kernel) (by decide +kernel) (by decide +kernel)

def kat2A11W0 : List UInt64 := [0x5f7fbb4916e15270, 0xa14d8c479f96872, 0x286f33038e56cfe, 0x277bf02714750d29, 0x1f0101, 0x0, 0x0, 0x0, 0x0, 0x0, 0x0, 0x0, 0x0, 0x0, 0x0, 0x0, 0x0, 0x0, 0x0, 0x0, 0x8000000000000000, 0x0, 0x0, 0x0, 0x0]

def kat2A11W1 : List UInt64 := [0x6920f94adfcb5f68, 0x691d9d262ba79d0f, 0x9ba3b70a5f17d569, 0x74f9a203a915a0b7, 0x9bec72ae4de35741, 0x54cdda7a6bcfe4c1, 0xdeab031ac7134d35, 0x9b9b65f6d6ee50d3, 0x7433fcb506d18b00, 0xc225c09f739e3ffc, 0x4ff27090ebeb8000, 0x5550ca67b1368333, 0x89897fcd7f9653da, 0xf91cb138f5f2248e, 0xf3f8c5ae827ff402, 0x1159a55702676ee, 0xf173f51fb499982c, 0x9b727a662af20574, 0x3e9b9f3f58da816f, 0x4e1c2109c5f1a366, 0x26f9a676564e146e, 0x6d36889d34038384, 0x7066f474b3f1a5b, 0x4844d99e3eb3111b, 0x4b30d16c6393f47]

def kat2A11W2 : List UInt64 := [0x1cda7ce41eac1d1a, 0xfd07e1aa429eeecc, 0x7349c20001847a26, 0xc0aa7c5e1c4e965d, 0x20a99250ff2d808b, 0xdd0c0c8a573c3272, 0xc9bd4abfc0f1c32d, 0x6145325d80439cbc, 0x36ec094bb014e31f, 0x3e06291f957a2b7f, 0xfc5d3c50b8e9cd57, 0xded9ef41e94556fb, 0x7cd4cea0629c148c, 0x28d37a727da9280, 0x183740f8717e983, 0x482f97096fe7a9b4, 0xb2f9b7f4cc7ce3c6, 0x8622e253d9e4091f, 0x9b0b1d4d5e1898a1, 0x714f9ff550baa339, 0x4dd4b5a9326a4846, 0xe3a51b022d7303db, 0xd46bf2be3faec4, 0xb1172fde88cc7ea8, 0xd88465fb678bbd0c]

def kat2A11W3 : List UInt64 := [0xec9b52c17397968e, 0xaaec39a7a91bfcb8, 0x176feff47e6e40ee, 0x17841e073945d7e4, 0xa16070ba525933f7, 0xf303ec6f293fbd63, 0xb33b14bf4c61943, 0xb0c188619a854764, 0x9cffd0f05c3cdd2f, 0x1f6ff851bc08a639, 0xf4e13c1d731f8ba4, 0x40adc355828c94f9, 0xe0c81c76bfb15e34, 0x3273f3c08759b71, 0x5ec18e13c8007c88, 0xc4d3c694c0e8de29, 0x251c4e5d525cd1e3, 0xa7fd001cc810551d, 0xb88fd2e713e45b3f, 0x887d1ef2cd344659, 0x6e4cfa97e216024f, 0x83a230bfffe163c1, 0xfc80bccb8498c7b7, 0x47b7c482e52af0e, 0xf513bdef6ac5ac7]

theorem kat2A11W0_perm : KF (laneBytes kat2A11W0) = laneBytes kat2A11W1 := kf_lit rfl rfl (by decide +kernel)

theorem kat2A11W1_perm : KF (laneBytes kat2A11W1) = laneBytes kat2A11W2 := kf_lit rfl rfl (by decide +kernel)

theorem kat2A11W2_perm : KF (laneBytes kat2A11W2) = laneBytes kat2A11W3 := kf_lit rfl rfl (by decide +kernel)

def kat2A11L : List Nat := [3944, 3253, 2783, 3988, 2336, 246, 1949, 698, 3366, 473, 2409, 3414, 3863, 165, 951, 2490, 183, 346, 937, 2592, 1273, 1047, 855, 1246, 686, 3783, 411, 3660, 3023, 1958, 3546, 1356, 3381, 308, 2759, 49, 3755, 3389, 3664, 3438, 1526, 2486, 155, 2224, 1745, 2896, 1020, 1859, 4092, 2531, 3955, 3081, 549, 12, 2944, 3774, 144, 3879, 847, 2099, 310, 1659, 202, 1365, 986, 2405, 3455, 2044, 2441, 2280, 548, 3935, 312, 459, 761, 3904, 639, 2792, 2245, 3903, 1774, 615, 1392, 2469, 277, 704, 2456, 2889, 1311, 1855, 1265, 87, 2802, 1634, 634, 2487, 367, 3496, 3928, 2547, 3739, 1635, 419, 3167, 265, 450, 3662, 326, 1614, 1893, 2470, 623, 3354, 2753, 1054, 1998, 3290, 3265, 3822, 1065, 426, 126, 1789, 1954, 388, 0, 2498, 1844, 1629, 1257, 3612, 1989, 170, 2236, 3456, 4082, 592, 2713, 544, 807, 1852, 2213, 3084, 3536, 813, 3868, 4032, 1195, 2493, 3020, 924, 2052, 605, 1107, 3937, 3633, 20, 1211, 3081, 878, 2943, 1954, 3989, 657, 3590, 1395, 2509, 2958, 3152, 1491, 3068, 1391, 2373, 1054, 2543, 3565, 1164, 2497, 98, 3306, 3284, 2055, 2706, 637, 1959, 2259, 770, 3736, 1815, 248, 884, 24, 2484, 3706, 2415, 2416, 2095, 3172, 3299, 3271, 2036, 3995, 4018, 145, 2532, 1341, 738, 2146, 2209, 393, 3422, 468, 2827, 921, 2723, 1291, 4085, 1273, 1649, 1156, 618, 2707, 1205, 1245, 1678, 2425, 371, 1324, 3227, 2958, 3068, 2705, 2471, 3779, 3754, 1038, 3694, 3911, 4079, 374, 2020, 1117, 1849, 480, 1924, 3953, 2355, 1317, 186, 1543, 929, 3030, 2367, 1778, 1004, 3888, 2371, 3169, 3060, 2836, 2867, 1600, 1351, 2472, 2145, 3096, 4016, 3538, 3132, 3845, 4048, 2511, 1593, 138, 444, 3973, 3951, 2625, 3979, 1841, 3101, 3603, 2548, 2383, 652, 1368, 3523, 1034, 3636, 2837, 1727, 455, 200, 1822, 1435, 135, 3900, 627, 2051, 1992, 2048, 316, 398, 1516, 3625, 3725, 1216, 3177, 1235, 3644, 3281, 1317, 3677, 452, 3365, 1361, 2064, 460, 3328, 2687, 2879, 3653, 1811, 3374, 2191, 1435, 1094, 3283, 3826, 2001, 3976, 36, 534, 2430, 3322, 1764]

def kat2A110 : List Nat := [3253, 2336, 1949, 473, 165, 2490, 346, 2592, 1047, 1246, 411, 1958, 308, 49, 2486, 2224, 2896, 1859, 3081, 12, 144, 2099, 1659, 1365, 2405, 2441, 548, 459, 639, 2245, 615, 2469, 704, 2889, 1855, 87, 1634, 2487, 2547, 419, 265, 326, 1893, 623, 1054, 3290, 1065, 126, 1954, 0, 1844, 1257, 170, 592, 544, 1852, 3084, 1195, 3020, 2052, 1107, 1211, 878, 1954, 1395, 2958, 1491, 1391, 1054, 1164, 98, 3284, 2706, 1959, 770, 248, 24, 2415, 2095, 3299, 2036, 2532, 738, 2209, 468, 921, 1291, 1649, 618, 1205, 1678, 371, 3227, 3068, 2471, 374, 1117, 480, 2355, 186, 929, 2367, 1004, 3169, 2836, 1600, 2472, 3096, 2511, 138, 2625, 3101, 2383, 1368, 2837, 455, 1822, 135, 2051, 2048, 398, 1216, 1235, 1317, 1361, 460, 2687, 1811]

def kat2A111 : List Nat := [2783, 246, 698, 2409, 951, 183, 937, 1273, 855, 686, 3023, 1356, 2759, 1526, 155, 1745, 1020, 2531, 549, 2944, 847, 310, 202, 986, 2044, 2280, 312, 761, 2792, 1774, 1392, 277, 2456, 1311, 1265, 2802, 634, 367, 1635, 3167, 450, 1614, 2470, 2753, 1998, 3265, 426, 1789, 388, 2498, 1629, 1989, 2236, 2713, 807, 2213, 813, 2493, 924, 605, 20, 3081, 2943, 657, 2509, 3152, 3068, 2373, 2543, 2497, 3306, 2055, 637, 2259, 1815, 884, 2484, 2416, 3172, 3271, 145, 1341, 2146, 393, 2827, 2723, 1273, 1156, 2707, 1245, 2425, 1324, 2958, 2705, 1038, 2020, 1849, 1924, 1317, 1543, 3030, 1778, 2371, 3060, 2867, 1351, 2145, 3132, 1593, 444, 1841, 2548, 652, 1034, 1727, 200, 1435, 627, 1992, 316, 1516, 3177, 3281, 452, 2064, 3328, 2879, 2191]

theorem kat2A11_eq : SampleNTT 168 (nb 32 kat2RhoN ++ [UInt8.ofNat 1, UInt8.ofNat 1]) = some (rqOf (weave kat2A110 kat2A111)) :=
  sample_lit (l := kat2A11L) (P := padN34) rfl rfl rfl rfl kat2A11W0_perm kat2A11W1_perm kat2A11W2_perm padN34_eq padN34_lt rfl (by decide +kernel) (by decide +kernel) (by decide +kernel) (by decide +kernel) (by decide +kernel) (by decide +kernel) (by decide +kernel)

noncomputable def kat2A (i j : Nat) : Rq :=
  match i, j with
  | 0, 0 => rqOf (weave kat2A000 kat2A001)
  | 0, 1 => rqOf (weave kat2A010 kat2A011)
  | 1, 0 => rqOf (weave kat2A100 kat2A101)
  | 1, 1 => rqOf (weave kat2A110 kat2A111)
  | _, _ => 0

theorem kat2_sample (i : Nat) (hi : i < 2) (j : Nat) (hj : j < 2) : SampleNTT 168 (nb 32 kat2RhoN ++ [UInt8.ofNat j, UInt8.ofNat i]) = some (kat2A i j) := by
  interval_cases i <;> interval_cases j
  · exact kat2A00_eq
  · exact kat2A01_eq
  · exact kat2A10_eq
  · exact kat2A11_eq

theorem kat2_expand : ∃ A, ExpandA 2 168 (nb 32 kat2RhoN) = some A ∧ ∀ i < 2, ∀ j < 2, A i j = kat2A i j := expand_lit kat2_sample

end Verif.Proof
