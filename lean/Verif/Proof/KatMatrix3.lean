import Verif.Proof.LiteralKem

/-! # Known answer for ML-KEM-768: the matrix

Generated numbers; every equation is checked by the kernel. -/

set_option autoImplicit false
set_option maxRecDepth 20000

namespace Verif.Proof
open Verif.Model Verif.Spec

/-- σ -/
def kat3SigN : Nat := 0x98bad0ccfd85817d4c9387e2a2005b35be3f5cee466054ef9fce0ee9041441b2

/-- ρ -/
def kat3RhoN : Nat := 0xa22ba8477b43244208f1f077bfd5df636051c6432ad691bda6130d6d3cbc8a34

def kat3Ga : List UInt64 := [0x7d828fe8a42b9c7f, 0x3e85057650456061, 0x88bceff693803bd7, 0x26ef66faac6e1aeb, 0x603, 0x0, 0x0, 0x0, 0x8000000000000000, 0x0, 0x0, 0x0, 0x0, 0x0, 0x0, 0x0, 0x0, 0x0, 0x0, 0x0, 0x0, 0x0, 0x0, 0x0, 0x0]

def kat3Gb : List UInt64 := [0xa6130d6d3cbc8a34, 0x6051c6432ad691bd, 0x8f1f077bfd5df63, 0xa22ba8477b432442, 0x9fce0ee9041441b2, 0xbe3f5cee466054ef, 0x4c9387e2a2005b35, 0x98bad0ccfd85817d, 0x23c34934774e9c9, 0x888f890782d91519, 0xee386b6d746b90d3, 0x9171fef7ab37706e, 0x81de386da2fa9729, 0x55dea14a055b9821, 0x895241aeb5c5505f, 0x32c40d355c7d3654, 0xcb66993e7ecd3405, 0xa49583aee2afee2c, 0x8df5b4fc497efd3b, 0x267cfd4838d556d8, 0xd8480a6e56c10c0f, 0xc02aed32db43c258, 0xa41d0f7ac32f3af1, 0xe5393363dfc5622c, 0xa0ccd9ffdd44daa0]

theorem kat3Ga_perm : KF (laneBytes kat3Ga) = laneBytes kat3Gb := kf_lit rfl rfl (by decide +kernel)

theorem kat3_g : G (nb 32 katDN ++ [UInt8.ofNat 3]) = (nb 32 kat3RhoN, nb 32 kat3SigN) := by
  unfold G
  rw [nb_single, nb_append (by decide +kernel), SHA3_512_eq, padded_one (w := kat3Ga) (P := 0x800000000000000000000000000000000000000000000000000000000000000000000000000006) rfl (by omega) (by decide +kernel) (by decide +kernel) (by decide +kernel) (by decide +kernel),
    kout_lit rfl (by omega) (by omega) kat3Ga_perm]
  decide +kernel

def kat3A00W0 : List UInt64 := [0xa6130d6d3cbc8a34, 0x6051c6432ad691bd, 0x8f1f077bfd5df63, 0xa22ba8477b432442, 0x1f0000, 0x0, 0x0, 0x0, 0x0, 0x0, 0x0, 0x0, 0x0, 0x0, 0x0, 0x0, 0x0, 0x0, 0x0, 0x0, 0x8000000000000000, 0x0, 0x0, 0x0, 0x0]

def kat3A00W1 : List UInt64 := [0xe74acf5d41f5de6d, 0x2fd3879400526d21, 0x84cdf7a8128362a3, 0x16cd9ecde4e59c36, 0xc2107d7e6ed8799, 0x51cde94a244d823, 0x7a917cf76a82fec9, 0x7bf5c95de191ac1e, 0x90fe8e7e3d30ebd3, 0xd88353b29bc57ce9, 0x28de0eb5361ab089, 0x5db97b1ba2d7da36, 0x4728297de68619e4, 0x49af7551e086c348, 0x7d687d741d3f4034, 0x977954365495dca8, 0xf87bd8043fe20404, 0xcab83402bd48b7b7, 0x15cbf95a3dfcb10c, 0xd250057f04397945, 0xbb55ffe1052b1c02, 0x9435268da1a85940, 0x308ad9945799595d, 0x4ff22d462f38283e, 0xdf4e15d742620255]

def kat3A00W2 : List UInt64 := [0xbcb0349597e26f40, 0x941b636715535368, 0xdaf3ab6fb9c317d4, 0x6f2f17c52840ffd4, 0x3faf375dffabf39a, 0x24e4246b53957f34, 0xac7cc0a3cd2580f8, 0x75fe57ae32f113a2, 0xc24f46cdcd961cf3, 0xba61d530ca381d7, 0x743047b72ca3e1ed, 0x5ef9c8ada606dcc5, 0x254b9657066014f2, 0x70bda4b500c4445a, 0xa00e253e35fb8ed3, 0x7007b5310867e45a, 0xc579651ef594762b, 0xe2b715520fa81bf6, 0x690616d8cca6c2dd, 0x393932e684f21d9, 0xe99b828382a57a09, 0xa6bbda55b91a3aec, 0x16aaf137674f534a, 0xb0d071d4746f7f58, 0x962275d38ca3c0f0]

def kat3A00W3 : List UInt64 := [0x5a761fc75abefe62, 0x2cdc087e3877f89, 0xf2300e0264d5c35, 0x148d29bc121aefe4, 0x83ed37074db8ed89, 0x5385c81d4e4422a5, 0xa6303b1d2da52166, 0x3a697004aa45bbe2, 0xd2b5ccc398e8a3f4, 0x3686e1c97ede82c, 0xae816756a7f84105, 0xe31fc982889a8e78, 0xc6b9d86da156f89d, 0xc3afbd1194e03ee9, 0xb2906dd19ac8dab0, 0xb7c01605bda28434, 0xfafe67e848c9bcea, 0x4cc51260781f610f, 0xbdd321282c11067b, 0x6e359c3db43567eb, 0x7cddc3b871fc744d, 0xf5d4fbe973e4c301, 0xb20f65084994608, 0x79fe2d227ff4c9ba, 0xd0fe3e4d13017bb7]

theorem kat3A00W0_perm : KF (laneBytes kat3A00W0) = laneBytes kat3A00W1 := kf_lit rfl rfl (by decide +kernel)

theorem kat3A00W1_perm : KF (laneBytes kat3A00W1) = laneBytes kat3A00W2 := kf_lit rfl rfl (by decide +kernel)

theorem kat3A00W2_perm : KF (laneBytes kat3A00W2) = laneBytes kat3A00W3 := kf_lit rfl rfl (by decide +kernel)

def kat3A00L : List Nat := [3693, 3933, 3393, 3317, 1866, 542, 621, 5, 1940, 3384, 815, 1578, 643, 2689, 3575, 2124, 3126, 3673, 3556, 2540, 1741, 2449, 3463, 3694, 2007, 528, 780, 3458, 580, 2378, 3294, 81, 3785, 2095, 1898, 1999, 2705, 487, 428, 3609, 2397, 3932, 891, 3773, 3376, 2019, 3726, 2319, 3305, 3159, 667, 1339, 2179, 2205, 2736, 865, 3765, 3552, 1576, 3491, 727, 442, 2427, 1499, 2532, 2145, 3558, 663, 1832, 1156, 1731, 3592, 1361, 2807, 1097, 1027, 3391, 1857, 2173, 2006, 3240, 2397, 1620, 1347, 1913, 73, 516, 1022, 2052, 1981, 2040, 2939, 3400, 43, 2100, 3243, 268, 4043, 2621, 3989, 1483, 1105, 2425, 67, 1407, 1280, 722, 448, 1323, 3600, 1535, 2997, 3904, 3622, 1431, 841, 3248, 1675, 851, 341, 871, 438, 1172, 381, 2499, 1787, 939, 3503, 4052, 1039, 1320, 380, 3887, 2470, 3059, 4090, 1885, 2803, 1087, 2035, 917, 1717, 1060, 590, 248, 600, 973, 3082, 3196, 2602, 275, 815, 1966, 4069, 885, 463, 3478, 3292, 3910, 3108, 471, 2616, 780, 469, 2982, 3792, 993, 714, 1975, 772, 1396, 3532, 1542, 2778, 2504, 1519, 1266, 1537, 1798, 2405, 1355, 1442, 1092, 12, 1205, 3034, 880, 2285, 1531, 995, 3621, 2560, 1114, 1662, 264, 2899, 7, 695, 1142, 3929, 1310, 1942, 1733, 447, 4008, 1312, 1813, 3627, 733, 2668, 2252, 365, 2310, 3478, 3873, 1668, 814, 2361, 2307, 1952, 677, 2104, 2946, 3737, 3682, 3055, 1882, 508, 2678, 2197, 1919, 3640, 135, 3292, 1282, 1475, 1613, 3586, 768, 242, 4068, 430, 3090, 667, 1165, 2193, 2285, 1243, 1799, 3795, 1411, 554, 3652, 468, 1480, 1336, 358, 2642, 3373, 945, 1584, 3626, 1467, 2724, 4, 1687, 1082, 2623, 2280, 3129, 1484, 3371, 2092, 3806, 3223, 1761, 872, 80, 2113, 2687, 1878, 2070, 2222, 2279, 2202, 2088, 4041, 3633, 2205, 1391, 3489, 3462, 1721, 3740, 62, 2382, 3345, 2811, 195, 3499, 2760, 3353, 109, 2857, 1076, 2600, 1469, 352, 1984, 3755, 2492, 1164, 2024, 4070, 4090, 1552, 2079, 1543, 1298, 1228, 1659, 272, 2092, 530, 3539, 3771, 1383, 2883, 3133, 857, 3438, 1860, 508, 2951, 3523, 1997]

def kat3A000 : List Nat := [3317, 542, 5, 815, 643, 2124, 2540, 2449, 528, 580, 3294, 2095, 1999, 487, 2397, 2019, 3305, 667, 2179, 2736, 1576, 442, 1499, 2145, 1832, 1731, 2807, 1027, 2173, 3240, 1620, 1913, 516, 2052, 2040, 43, 3243, 2621, 1105, 67, 1280, 448, 1535, 1431, 3248, 851, 871, 1172, 2499, 939, 1320, 2470, 1885, 1087, 917, 1060, 248, 973, 3196, 275, 1966, 463, 3108, 2616, 469, 993, 1975, 1396, 2778, 1519, 1537, 2405, 1442, 12, 3034, 2285, 995, 1114, 264, 7, 1142, 1942, 447, 1813, 2668, 365, 1668, 2361, 1952, 2104, 3055, 508, 2197, 135, 1282, 1613, 242, 3090, 1165, 2285, 1799, 554, 1480, 358, 945, 1467, 4, 1082, 2280, 1484, 3223, 872, 2113, 1878, 2222, 2202, 2205, 1721, 2382, 195, 109, 1076, 1469, 1984, 1164, 1552, 1543, 1228]

def kat3A001 : List Nat := [1866, 621, 1940, 1578, 2689, 3126, 1741, 2007, 780, 2378, 81, 1898, 2705, 428, 891, 2319, 3159, 1339, 2205, 865, 727, 2427, 2532, 663, 1156, 1361, 1097, 1857, 2006, 2397, 1347, 73, 1022, 1981, 2939, 2100, 268, 1483, 2425, 1407, 722, 1323, 2997, 841, 1675, 341, 438, 381, 1787, 1039, 380, 3059, 2803, 2035, 1717, 590, 600, 3082, 2602, 815, 885, 3292, 471, 780, 2982, 714, 772, 1542, 2504, 1266, 1798, 1355, 1092, 1205, 880, 1531, 2560, 1662, 2899, 695, 1310, 1733, 1312, 733, 2252, 2310, 814, 2307, 677, 2946, 1882, 2678, 1919, 3292, 1475, 768, 430, 667, 2193, 1243, 1411, 468, 1336, 2642, 1584, 2724, 1687, 2623, 3129, 2092, 1761, 80, 2687, 2070, 2279, 2088, 1391, 62, 2811, 2760, 2857, 2600, 352, 2492, 2024, 2079, 1298, 1659]

theorem kat3A00_eq : SampleNTT 168 (nb 32 kat3RhoN ++ [UInt8.ofNat 0, UInt8.ofNat 0]) = some (rqOf (weave kat3A000 kat3A001)) :=
  sample_lit (l := kat3A00L) (P := padN34) rfl rfl rfl rfl kat3A00W0_perm kat3A00W1_perm kat3A00W2_perm padN34_eq padN34_lt rfl (by decide +kernel) (by decide +kernel) (by decide +kernel) (by decide +kernel) (by decide +kernel) (by decide +kernel) (by decide +kernel)

def kat3A01W0 : List UInt64 := [0xa6130d6d3cbc8a34, 0x6051c6432ad691bd, 0x8f1f077bfd5df63, 0xa22ba8477b432442, 0x1f0001, 0x0, 0x0, 0x0, 0x0, 0x0, 0x0, 0x0, 0x0, 0x0, 0x0, 0x0, 0x0, 0x0, 0x0, 0x0, 0x8000000000000000, 0x0, 0x0, 0x0, 0x0]

def kat3A01W1 : List UInt64 := [0xc78210604193d169, 0x1e987998263d9dd, 0x47268e335aff1218, 0x5d555df385b2ee9f, 0xfafc74d32030e4c3, 0x427e1bc6b58af513, 0xe595df983fd48e2c, 0x8295485817e9ad28, 0xb0f30a414d558219, 0x5beb2e2ec84b11b8, 0x32b0a4c2ddba1cca, 0x591107fc347e85d8, 0x9039fb678200aeda, 0xc063d9034f11f5d4, 0xe0e1d7cda739160c, 0xe2a2806b86bd5f64, 0x9d10b27d9bb13209, 0xef7efb8e24d12593, 0xda80d5060e353a79, 0x144e82db88ef0dae, 0x14f39220f63f0d12, 0x637640ce15269a82, 0x33ed41d1abe17091, 0xca027a7f9e8ee38f, 0x9f09911ca0d245a8]

def kat3A01W2 : List UInt64 := [0x4ded24dd14db7520, 0xd46e8d23f215b9b4, 0xac87ee4eb0bb8ef0, 0xede6e14fbeb96c74, 0x11586189cf06b21, 0x69743f2b53e416c, 0x7b63fb0c8b8ad3f8, 0x1c5505e71889fe6d, 0x44eb5a31e28c3159, 0xf81b207a5c60d937, 0x6a8be80b119ff144, 0x9f12766b53f29fa9, 0x80ee7a5ff1dfa3ba, 0x7c58539e4d43173e, 0xfd1fe2a0be4ee3c8, 0xdee3863dab22523d, 0xdffe03ee5efbb96d, 0x35eaec38ca2d507, 0x144ada2b6198def1, 0x98de5fe484976426, 0xef6d3ebe1e9521d3, 0xbcd3fa573e2d9e4e, 0xc1e43623fb073a27, 0x13091863bbd30662, 0x8a1b1219acc63c79]

def kat3A01W3 : List UInt64 := [0x7a65db89689bca33, 0x8bf06744b9f860e1, 0xaa31888e99cdefc6, 0x34580ae7ddc93427, 0xc1e4f0791c05d114, 0xb8cffc15327985ac, 0xc2ad1098f23125cd, 0xeff47a7d5e426a61, 0x9d0e235318971e0b, 0x32194ec31fadeffa, 0xacdcd7e6231467de, 0x1cb318b764f30585, 0x867b7953380e7c10, 0x2dd4ee2c1c19f45b, 0x73b7e5c9928c79bd, 0xc81e65936a33f745, 0x61ace36cbc967b31, 0xcb454b4826d4a366, 0xfefa085574825f7b, 0xddd1b09f467ef275, 0x10cac4ce8d872fa0, 0x5a6a4fe47521fb27, 0x4ffc31b79c7e4edd, 0xedd08de0c5cfe5b0, 0xd5e98d9e2089321]

theorem kat3A01W0_perm : KF (laneBytes kat3A01W0) = laneBytes kat3A01W1 := kf_lit rfl rfl (by decide +kernel)

theorem kat3A01W1_perm : KF (laneBytes kat3A01W1) = laneBytes kat3A01W2 := kf_lit rfl rfl (by decide +kernel)

theorem kat3A01W2_perm : KF (laneBytes kat3A01W2) = laneBytes kat3A01W3 := kf_lit rfl rfl (by decide +kernel)

def kat3A01L : List Nat := [361, 2365, 65, 262, 1922, 3548, 985, 2086, 1945, 3736, 2049, 289, 2815, 821, 1678, 1138, 3743, 2862, 901, 1503, 3413, 3125, 228, 515, 1235, 4039, 1018, 3921, 1418, 3179, 3611, 1063, 3628, 3400, 2111, 3577, 1429, 654, 2477, 382, 2136, 2388, 2434, 2081, 3413, 1044, 778, 2831, 440, 1201, 3784, 738, 3051, 3237, 2588, 3547, 1218, 2826, 2098, 2141, 1150, 4035, 263, 1425, 3802, 10, 1922, 4022, 57, 3401, 501, 1265, 2307, 1597, 3264, 352, 1849, 3290, 471, 3598, 3940, 3029, 2950, 2054, 674, 158, 306, 2491, 637, 267, 925, 601, 1233, 2274, 3835, 3831, 2681, 851, 1550, 3408, 2688, 2797, 3853, 2190, 731, 1256, 532, 209, 1599, 527, 914, 335, 1312, 3511, 3348, 589, 3565, 2884, 1465, 3873, 3363, 1768, 212, 2287, 187, 1259, 2030, 2760, 3188, 2966, 4030, 3604, 3558, 542, 107, 2511, 1560, 344, 3073, 1046, 1342, 3883, 1859, 105, 1016, 2221, 3211, 4016, 2915, 1751, 2558, 392, 1511, 1360, 2332, 789, 652, 798, 2906, 1102, 2359, 1549, 2652, 519, 2075, 1103, 4081, 281, 2059, 2238, 2410, 2554, 1010, 1717, 630, 2545, 954, 3578, 4081, 1957, 238, 1000, 791, 1236, 926, 1413, 2172, 3644, 3662, 2571, 4066, 4049, 573, 549, 3499, 2147, 3811, 1757, 3001, 1519, 1006, 4064, 2015, 3408, 3234, 3128, 3758, 53, 3825, 2445, 2913, 3490, 1098, 609, 1892, 2121, 4068, 3557, 920, 541, 3733, 3041, 3390, 3830, 2611, 2492, 2408, 3512, 2661, 3607, 2144, 2975, 1860, 3846, 1675, 3836, 2509, 2281, 392, 2723, 1063, 3219, 2013, 174, 1112, 323, 1489, 448, 121, 3663, 3265, 2138, 633, 339, 4092, 2956, 1485, 786, 2290, 265, 685, 1564, 618, 1508, 2685, 3911, 3055, 480, 2199, 1329, 3619, 2512, 4090, 2782, 799, 1260, 537, 3555, 1127, 561, 2022, 3533, 1452, 88, 1267, 2934, 792, 459, 3088, 231, 824, 1941, 1659, 1464, 2548, 449, 3628, 3406, 3373, 1947, 652, 3225, 2021, 1851, 1861, 831, 874, 1625, 2078, 796, 1659, 3017, 876, 2766, 1633, 2614, 1748, 1154, 1355, 3252, 3963, 2085, 1396, 133, 3834, 1887, 3826, 1127, 159, 3355, 221, 762, 3463, 3304, 2756, 268]

def kat3A010 : List Nat := [361, 65, 1922, 2086, 2049, 2815, 1678, 2862, 1503, 228, 1235, 1418, 1063, 1429, 2477, 2136, 2434, 1044, 2831, 1201, 3051, 2588, 2826, 2141, 263, 10, 57, 1265, 1597, 352, 3290, 3029, 2054, 158, 2491, 267, 601, 2274, 851, 2688, 2190, 1256, 209, 527, 335, 589, 1465, 212, 187, 2030, 3188, 542, 2511, 344, 1046, 1859, 1016, 3211, 1751, 392, 1360, 789, 798, 1102, 1549, 519, 1103, 2059, 2410, 1010, 630, 954, 238, 791, 926, 2172, 573, 2147, 3001, 1006, 3234, 53, 2913, 609, 2121, 541, 2611, 2408, 2144, 1860, 2509, 392, 1063, 2013, 1112, 1489, 121, 2138, 339, 1485, 2290, 685, 618, 2685, 480, 1329, 2782, 1260, 1127, 2022, 88, 2934, 459, 231, 1941, 1464, 449, 652, 2021, 1861, 874, 2078, 1659, 876, 1633, 1748, 1355, 2085]

def kat3A011 : List Nat := [2365, 262, 985, 1945, 289, 821, 1138, 901, 3125, 515, 1018, 3179, 2111, 654, 382, 2388, 2081, 778, 440, 738, 3237, 1218, 2098, 1150, 1425, 1922, 501, 2307, 3264, 1849, 471, 2950, 674, 306, 637, 925, 1233, 2681, 1550, 2797, 731, 532, 1599, 914, 1312, 2884, 1768, 2287, 1259, 2760, 2966, 107, 1560, 3073, 1342, 105, 2221, 2915, 2558, 1511, 2332, 652, 2906, 2359, 2652, 2075, 281, 2238, 2554, 1717, 2545, 1957, 1000, 1236, 1413, 2571, 549, 1757, 1519, 2015, 3128, 2445, 1098, 1892, 920, 3041, 2492, 2661, 2975, 1675, 2281, 2723, 3219, 174, 323, 448, 3265, 633, 2956, 786, 265, 1564, 1508, 3055, 2199, 2512, 799, 537, 561, 1452, 1267, 792, 3088, 824, 1659, 2548, 1947, 3225, 1851, 831, 1625, 796, 3017, 2766, 2614, 1154, 3252, 1396]

theorem kat3A01_eq : SampleNTT 168 (nb 32 kat3RhoN ++ [UInt8.ofNat 1, UInt8.ofNat 0]) = some (rqOf (weave kat3A010 kat3A011)) :=
  sample_lit (l := kat3A01L) (P := padN34) rfl rfl rfl rfl kat3A01W0_perm kat3A01W1_perm kat3A01W2_perm padN34_eq padN34_lt rfl (by decide +kernel) (by decide +kernel) (by decide +kernel) (by decide +kernel) (by decide +kernel) (by decide +kernel) (by decide +kernel)

def kat3A02W0 : List UInt64 := [0xa6130d6d3cbc8a34, 0x6051c6432ad691bd, 0x8f1f077bfd5df63, 0xa22ba8477b432442, 0x1f0002, 0x0, 0x0, 0x0, 0x0, 0x0, 0x0, 0x0, 0x0, 0x0, 0x0, 0x0, 0x0, 0x0, 0x0, 0x0, 0x8000000000000000, 0x0, 0x0, 0x0, 0x0]

def kat3A02W1 : List UInt64 := [0x76c2258e6ee9c5c0, 0x7108a21b453616c5, 0xabce6f1e807c97a3, 0x5e2bad6b3ec23277, 0x714b719c69da65bc, 0xb0bfac193e324bba, 0x7e1aed4dc88271c, 0x70dc7867a4e636e4, 0x59db47da06cdcf48, 0x2e4e5cef8ac5a63c, 0xe792ee9a6db4e448, 0x448618dc6b65b1b7, 0xcc2e022ff804a112, 0x270e05dbf7715c47, 0xcd33ac5c7f5337e1, 0x5bb1693a89c4db3e, 0xca5e484f007dd6b8, 0x3ff8bb840d0c27e3, 0x3e93eac7a747d52c, 0xf05c0208a3830e48, 0xfb60e3182a9f5b81, 0x7ae737dc4dbd31e4, 0x9a27aa1cf8eceb0e, 0xbc5ba130b899c9c2, 0xb869f05e10ba0075]

def kat3A02W2 : List UInt64 := [0x77e7a1b2526b3adf, 0x202a118efeb50cba, 0xedbcdf78316f18ca, 0xd0fdd30f8156b294, 0xd80b9324c5b8913, 0xdf8bfc355218925b, 0xfd363b0f28cf0, 0x997f6e4bd83645b5, 0xce37ca6303ba5959, 0x14b0584c3aefa319, 0x48237857f5302910, 0x3019ddf3e1b88a6, 0x901cfb107cc5bae8, 0xb7427f5785b21898, 0x42ffd5c5f7a0499d, 0xeb89cde06e80b57a, 0xd54fb905552c78c7, 0x8a8238f101923961, 0x65bcf5c4e266ea15, 0xcf3d5074e3d59170, 0x84b249a4ebbe03bf, 0x9ba7f1a0f121d2eb, 0x8f0d77b5f7c51618, 0x90b9b65f2fdd4904, 0x120a30d9ac259330]

def kat3A02W3 : List UInt64 := [0x68fabefe20098fd4, 0x73cc8ea3b6369be6, 0x5aa2a5a4e6b47be2, 0x6d4e13e87d1304b9, 0x6c3c16910800cc3e, 0x9dce72f5b4d02479, 0x5f9c0f8ec28a17d3, 0x845d512fcf46968d, 0xc01e2ec51d08b1fa, 0xd5e8ff58127f6a5, 0xda078f51fd5d0534, 0x991be0e2a8ad6e67, 0xabde76555cad76d2, 0xf01cf2c0bf99c0d, 0xa1c353d2c1c73f56, 0xc8cd1f53a567700f, 0xd17d07145bec0170, 0x3bd941084ad7fb75, 0x858f19de576308ed, 0xa9d75a34628a75ee, 0x4dc89cfe0ae08f6c, 0xe135b6243d1b3684, 0xef78a277d60517ff, 0xc5b1b0b20532e23e, 0x4674d9f85cd82302]

theorem kat3A02W0_perm : KF (laneBytes kat3A02W0) = laneBytes kat3A02W1 := kf_lit rfl rfl (by decide +kernel)

theorem kat3A02W1_perm : KF (laneBytes kat3A02W1) = laneBytes kat3A02W2 := kf_lit rfl rfl (by decide +kernel)

theorem kat3A02W2_perm : KF (laneBytes kat3A02W2) = laneBytes kat3A02W3 := kf_lit rfl rfl (by decide +kernel)

def kat3A02L : List Nat := [1472, 3740, 3694, 600, 1730, 3159, 1558, 1107, 539, 138, 881, 2426, 124, 488, 3695, 2748, 631, 3107, 2878, 2774, 3627, 3013, 2661, 1693, 412, 1207, 2673, 1211, 3634, 403, 4012, 2827, 1820, 2178, 1244, 2797, 2017, 3648, 1590, 2638, 2151, 3527, 2160, 3316, 1741, 3488, 2887, 1437, 1596, 3162, 3978, 1486, 3662, 1154, 1252, 1755, 3738, 2350, 2023, 2843, 2917, 3526, 1560, 1096, 274, 74, 4088, 34, 3118, 1148, 348, 3959, 1499, 224, 295, 894, 3923, 1479, 940, 3283, 2878, 3149, 2697, 1683, 2993, 2949, 3542, 7, 2127, 1508, 970, 638, 3340, 2112, 2235, 1023, 1324, 1149, 1959, 3756, 3731, 1155, 782, 2616, 520, 1472, 496, 1464, 2719, 386, 227, 4022, 2783, 1715, 594, 2587, 2023, 2983, 1292, 4075, 398, 673, 2592, 396, 367, 1923, 3295, 3803, 660, 1387, 3969, 3376, 253, 317, 2953, 1221, 2354, 2059, 2829, 2341, 536, 853, 3068, 3576, 3312, 3880, 944, 3382, 15, 2896, 1605, 3459, 3659, 2038, 2457, 1429, 954, 1584, 1994, 3299, 793, 3834, 3130, 1412, 1200, 257, 41, 3923, 2135, 567, 1608, 2186, 3611, 3571, 413, 48, 2792, 3163, 124, 4017, 28, 2441, 536, 2139, 3927, 1063, 3511, 1177, 1952, 3167, 4053, 1071, 1402, 2059, 110, 3294, 2953, 3198, 3192, 1362, 2309, 1275, 469, 918, 402, 3856, 568, 2216, 2581, 1646, 1250, 3932, 1468, 1798, 1425, 3645, 116, 981, 4047, 59, 3006, 2638, 585, 2123, 4052, 152, 3616, 3055, 2298, 3686, 1691, 2915, 3747, 3272, 627, 1982, 1716, 2638, 677, 1450, 1209, 304, 2173, 318, 3406, 998, 204, 128, 1681, 961, 2412, 583, 1232, 3931, 3698, 2524, 2003, 2209, 3778, 248, 3996, 2261, 1686, 3316, 303, 1493, 2692, 2847, 3336, 3153, 3630, 3073, 1701, 639, 1409, 2303, 3422, 832, 3333, 4053, 3921, 120, 2010, 1766, 2221, 3626, 3040, 2449, 1746, 2775, 1372, 1893, 3038, 218, 2460, 191, 3884, 28, 1551, 1013, 455, 3372, 851, 2588, 15, 1655, 933, 501, 2253, 1804, 3073, 1470, 1812, 2000, 1489, 4023, 2775, 132, 2369, 957, 2285, 1584, 3671, 413, 1423, 3816, 2677, 1576, 2612, 3445, 3241, 2294, 2784, 4064, 2204, 1244]

def kat3A020 : List Nat := [1472, 1730, 1558, 539, 881, 124, 2748, 3107, 2774, 2661, 412, 2673, 403, 1820, 1244, 2017, 2638, 2160, 1741, 1437, 3162, 1154, 1755, 2023, 2917, 1096, 74, 3118, 348, 224, 894, 940, 2878, 2697, 2993, 7, 1508, 638, 2235, 1324, 1959, 782, 520, 496, 2719, 227, 1715, 2587, 2983, 398, 2592, 367, 3295, 1387, 317, 1221, 2059, 2341, 853, 3312, 15, 1605, 2457, 954, 1994, 793, 1412, 257, 2135, 1608, 413, 2792, 124, 2441, 2139, 1177, 3167, 1402, 110, 2953, 3192, 2309, 469, 402, 2216, 1646, 1468, 1425, 981, 3006, 585, 152, 2298, 2915, 627, 1716, 677, 1209, 2173, 998, 128, 961, 583, 2524, 2209, 2261, 3316, 1493, 2847, 3073, 639, 2303, 120, 1766, 3040, 1746, 1372, 3038, 2460, 28, 1013, 851, 15, 933, 2253, 3073, 1812, 1489]

def kat3A021 : List Nat := [600, 3159, 1107, 138, 2426, 488, 631, 2878, 3013, 1693, 1207, 1211, 2827, 2178, 2797, 1590, 2151, 3316, 2887, 1596, 1486, 1252, 2350, 2843, 1560, 274, 34, 1148, 1499, 295, 1479, 3283, 3149, 1683, 2949, 2127, 970, 2112, 1023, 1149, 1155, 2616, 1472, 1464, 386, 2783, 594, 2023, 1292, 673, 396, 1923, 660, 253, 2953, 2354, 2829, 536, 3068, 944, 2896, 2038, 1429, 1584, 3299, 3130, 1200, 41, 567, 2186, 48, 3163, 28, 536, 1063, 1952, 1071, 2059, 3294, 3198, 1362, 1275, 918, 568, 2581, 1250, 1798, 116, 59, 2638, 2123, 3055, 1691, 3272, 1982, 2638, 1450, 304, 318, 204, 1681, 2412, 1232, 2003, 248, 1686, 303, 2692, 3153, 1701, 1409, 832, 2010, 2221, 2449, 2775, 1893, 218, 191, 1551, 455, 2588, 1655, 501, 1804, 1470, 2000, 2775]

theorem kat3A02_eq : SampleNTT 168 (nb 32 kat3RhoN ++ [UInt8.ofNat 2, UInt8.ofNat 0]) = some (rqOf (weave kat3A020 kat3A021)) :=
  sample_lit (l := kat3A02L) (P := padN34) rfl rfl rfl rfl kat3A02W0_perm kat3A02W1_perm kat3A02W2_perm padN34_eq padN34_lt rfl (by decide +kernel) (by decide +kernel) (by decide +kernel) (by decide +kernel) (by decide +kernel) (by decide +kernel) (by decide +kernel)

def kat3A10W0 : List UInt64 := [0xa6130d6d3cbc8a34, 0x6051c6432ad691bd, 0x8f1f077bfd5df63, 0xa22ba8477b432442, 0x1f0100, 0x0, 0x0, 0x0, 0x0, 0x0, 0x0, 0x0, 0x0, 0x0, 0x0, 0x0, 0x0, 0x0, 0x0, 0x0, 0x8000000000000000, 0x0, 0x0, 0x0, 0x0]

def kat3A10W1 : List UInt64 := [0xc7b7c52faaea6fa3, 0x62115f9d2bcf0141, 0x17bc937bdbbdf833, 0x28386fb154c0ad89, 0x64659540b31483e2, 0xd7e273b00369c125, 0x8c8eca4e9d92e181, 0x8e8d419373f46e65, 0x861836cda6faa248, 0x7004820168804e27, 0x2c6b18462b5785fa, 0xbb74e9e284c4c24d, 0xbed359eea940f54f, 0x422a0bfa17d1d04e, 0xc94b39483313960d, 0x9d2352e6ea096304, 0x6130e85bd309e6e3, 0x5f1f7ea686441a93, 0x6731b07b62b93e69, 0x4ef6139574d821c1, 0xdc261f96b988360e, 0x60b399e1736b587, 0xd209767dbf9921d0, 0x6c2642b10cf55666, 0xd2574808ca9a14f4]

def kat3A10W2 : List UInt64 := [0x9a04dfb7802599b4, 0x550b9dd76d069071, 0x290ddf0649903c22, 0x2a6be8c791415673, 0xa25e6a6ca4e4fc50, 0xe23ce2e9c2d95cda, 0xdd0fc6ee513a87c5, 0x1d60121f7d510450, 0x7ebfe8006a18d2ac, 0x4ceff186fd35a883, 0xc80d9c58d6da55f, 0x2757b06dd071e309, 0x8093aebdec55e854, 0xbba126f3d4ceceb4, 0x8a315a8e4bd3d127, 0x26ff24a5c6e83163, 0xccd04ce545f428cd, 0x797b911f7cf0569f, 0x85e1d027117600cc, 0xc4c57cdcdcdc6962, 0x5fe4b679fb149cf8, 0x2473956feb6558fa, 0x5c999e5bf6cbdd6c, 0x8ae43d905788a729, 0xd3b7845a15c13f00]

def kat3A10W3 : List UInt64 := [0xd71691a9a70a10ca, 0xa185becbba5685d5, 0x695620cbff71f1af, 0xb2fb66f018a15537, 0xd54a927c7050ad06, 0xeb99de3a704cb7bb, 0x17c8edd245bce35e, 0x375465f390b087f9, 0x4e31260ad80bd39a, 0xb7cd1532cb2a47f9, 0xef2d084097d2618a, 0x4b8b250b05666e15, 0x3fb9bc418d70d9ab, 0x654639cfe5d13c69, 0x2b3edcd247406551, 0xcd8139c35bceb1a1, 0x891c271eec9f41ac, 0x1b270af5f9d503ad, 0x323bef7911809500, 0x535059fc857219a3, 0x47f3162426b32a9, 0x7c752532d2bb796a, 0x410bfe0449f76b1, 0xe84bd6aeb14b3656, 0xdf7b14196e989712]

theorem kat3A10W0_perm : KF (laneBytes kat3A10W0) = laneBytes kat3A10W1 := kf_lit rfl rfl (by decide +kernel)

theorem kat3A10W1_perm : KF (laneBytes kat3A10W1) = laneBytes kat3A10W2 := kf_lit rfl rfl (by decide +kernel)

theorem kat3A10W2_perm : KF (laneBytes kat3A10W2) = laneBytes kat3A10W3 := kf_lit rfl rfl (by decide +kernel)

def kat3A10L : List Nat := [4003, 3750, 4010, 3154, 1975, 1052, 3841, 700, 3997, 277, 866, 3971, 3005, 1981, 3219, 379, 3465, 3082, 340, 1787, 2104, 3618, 1155, 2865, 1344, 1625, 1380, 3090, 873, 2816, 627, 3454, 385, 2350, 3741, 3236, 3214, 1624, 1134, 1855, 403, 2260, 2190, 2596, 1786, 3290, 2102, 2145, 3623, 2052, 360, 2080, 4, 4007, 1925, 693, 2118, 1713, 3372, 3108, 1220, 3624, 1257, 2999, 1359, 1039, 3753, 1438, 3795, 1259, 464, 381, 3066, 672, 3394, 2400, 787, 1155, 2873, 3220, 772, 150, 1770, 1326, 3363, 3641, 2534, 3376, 2139, 782, 865, 425, 1604, 2664, 3966, 1521, 3689, 2963, 2914, 2823, 1841, 3094, 2081, 1869, 917, 3937, 3662, 864, 2440, 2411, 1567, 3522, 2484, 601, 1920, 3579, 2564, 1817, 1680, 1744, 3543, 185, 597, 962, 2448, 100, 3551, 656, 1651, 1045, 1937, 3724, 2667, 1282, 1276, 2638, 2668, 1510, 2722, 1485, 729, 3740, 3298, 3619, 1989, 936, 3665, 3182, 3343, 1293, 260, 2005, 543, 1537, 3101, 3370, 2584, 6, 4072, 2027, 2179, 858, 1789, 3864, 3311, 1524, 3493, 2262, 2501, 2061, 2316, 3632, 113, 1757, 1968, 629, 2132, 1374, 3564, 2795, 147, 2888, 3790, 3404, 1779, 2578, 1979, 3346, 3027, 2276, 346, 2211, 355, 3715, 1478, 586, 1791, 3282, 1064, 1119, 3301, 3332, 4044, 1385, 3312, 503, 2961, 1943, 204, 1888, 1809, 3330, 1505, 1576, 3177, 3533, 3292, 3159, 2244, 2511, 2836, 1951, 1206, 1534, 202, 161, 2471, 2330, 1814, 3421, 1669, 2981, 3787, 2139, 4001, 3866, 3953, 3263, 1568, 1685, 1335, 2581, 24, 1647, 763, 107, 173, 1797, 636, 1193, 3029, 2939, 76, 935, 2526, 3769, 862, 3022, 581, 3805, 1992, 3985, 135, 2315, 1523, 1350, 2615, 3385, 2059, 173, 294, 1251, 2041, 676, 715, 339, 1997, 2219, 609, 2429, 2112, 720, 1519, 1761, 1382, 176, 2853, 1208, 2475, 1805, 397, 3012, 4025, 1683, 316, 3677, 2511, 1123, 357, 1621, 1856, 3364, 3804, 691, 417, 3307, 859, 924, 3457, 2764, 3905, 3785, 1822, 450, 3465, 58, 2517, 3935, 1802, 434, 1280, 2057, 2321, 3831, 571, 2611, 537, 2135, 2556, 1285, 2387, 810, 619, 1572, 3889, 71]

def kat3A100 : List Nat := [3154, 1052, 277, 3005, 3219, 3082, 1787, 1155, 1344, 1380, 873, 627, 2350, 3214, 1134, 403, 2190, 1786, 2102, 2052, 2080, 1925, 2118, 3108, 1257, 1359, 1438, 464, 3066, 2400, 1155, 3220, 150, 1326, 2139, 865, 1604, 1521, 2914, 1841, 2081, 917, 2440, 1567, 601, 2564, 1680, 185, 962, 100, 1651, 1937, 1282, 2638, 1510, 1485, 3298, 936, 1293, 2005, 1537, 2584, 2027, 858, 3311, 2262, 2061, 113, 1968, 2132, 2795, 2888, 2578, 3027, 346, 355, 586, 3282, 1119, 1385, 503, 1943, 1888, 1505, 3177, 3159, 2511, 1951, 1534, 161, 2330, 1669, 2139, 1568, 1335, 24, 763, 173, 636, 3029, 76, 2526, 3022, 1992, 2315, 1350, 2059, 294, 2041, 715, 1997, 609, 2112, 1519, 1382, 2853, 2475, 397, 1683, 2511, 357, 1856, 417, 859, 2764, 450, 2517, 434]

def kat3A101 : List Nat := [1975, 700, 866, 1981, 379, 340, 2104, 2865, 1625, 3090, 2816, 385, 3236, 1624, 1855, 2260, 2596, 3290, 2145, 360, 4, 693, 1713, 1220, 2999, 1039, 1259, 381, 672, 787, 2873, 772, 1770, 2534, 782, 425, 2664, 2963, 2823, 3094, 1869, 864, 2411, 2484, 1920, 1817, 1744, 597, 2448, 656, 1045, 2667, 1276, 2668, 2722, 729, 1989, 3182, 260, 543, 3101, 6, 2179, 1789, 1524, 2501, 2316, 1757, 629, 1374, 147, 1779, 1979, 2276, 2211, 1478, 1791, 1064, 3301, 3312, 2961, 204, 1809, 1576, 3292, 2244, 2836, 1206, 202, 2471, 1814, 2981, 3263, 1685, 2581, 1647, 107, 1797, 1193, 2939, 935, 862, 581, 135, 1523, 2615, 173, 1251, 676, 339, 2219, 2429, 720, 1761, 176, 1208, 1805, 3012, 316, 1123, 1621, 691, 3307, 924, 1822, 58, 1802, 1280]

theorem kat3A10_eq : SampleNTT 168 (nb 32 kat3RhoN ++ [UInt8.ofNat 0, UInt8.ofNat 1]) = some (rqOf (weave kat3A100 kat3A101)) :=
  sample_lit (l := kat3A10L) (P := padN34) rfl rfl rfl rfl kat3A10W0_perm kat3A10W1_perm kat3A10W2_perm padN34_eq padN34_lt rfl (by decide +kernel) (by decide +kernel) (by decide +kernel) (by decide +kernel) (by decide +kernel) (by decide +kernel) (by decide +kernel)

def kat3A11W0 : List UInt64 := [0xa6130d6d3cbc8a34, 0x6051c6432ad691bd, 0x8f1f077bfd5df63, 0xa22ba8477b432442, 0x1f0101, 0x0, 0x0, 0x0, 0x0, 0x0, 0x0, 0x0, 0x0, 0x0, 0x0, 0x0, 0x0, 0x0, 0x0, 0x0, 0x8000000000000000, 0x0, 0x0, 0x0, 0x0]

def kat3A11W1 : List UInt64 := [0x47220f453068fa6c, 0x9113c6246dc16681, 0x63bfddaba0f7a446, 0x17a519cb6c5fb912, 0x31d9d65653ca5cd9, 0x766b48b5243f824b, 0xbc63048fb3121a33, 0x5e6186211ee0cf88, 0x1fe101125ddabd00, 0x42d033f7f80aff3c, 0x88506186aacca2e5, 0x86ae149392787927, 0x28f7aff9c29468f4, 0x3406e8ad2afcaa0d, 0x40a0ecb59604526a, 0x13147412cf9345f3, 0x5a810f615c79b53f, 0x7edbfbbba67bb666, 0x60f1123834f32144, 0xd5cd04508fb1d481, 0x1617cd6dffc0c4b8, 0x508030f17413c107, 0x3867e9d45d08193f, 0xb9d5fe28c1f6054a, 0xbf71bf2b5614e6ef]

def kat3A11W2 : List UInt64 := [0x17cf31c185472662, 0xbc4a7f3fe27b6c07, 0xd946563abcc31a0, 0x780973573d36be3, 0x4857af308445d3ea, 0x2420f3802aed4218, 0x9c61fa88be33a11e, 0x688b03152748f031, 0xfe4df9ade0c9c097, 0xd36a2dad5d7c7b5e, 0x18bc0b5662eaf7, 0x91229ea8c3d9a253, 0x9da056a532ea8c76, 0xbd59ab516ca612b5, 0x205409a28e1d743e, 0x52b1bdc826b99bbc, 0x1c98f37f5c04309c, 0xf8bd9bb8d095b8ff, 0x75ce039a2d6a550a, 0x207fa830de6a2b16, 0x2c02ef524f005787, 0xf9f3a3f4d214dedb, 0x6c9bcf46a16b492f, 0xdb8fc86f5b75e0f7, 0x442cae6b4ccf159a]

def kat3A11W3 : List UInt64 := [0x70c43e98e543ade1, 0x6550ce715a39dacc, 0x8b3463fc66c30bff, 0xeac2e35bd8dd77f5, 0xb7dfccabeb9d5fe, 0x9326748ba3b1aade, 0x57dcc2b3a3cca9f4, 0x224418cf149b5557, 0x4238f9a3aefcfe50, 0xcfd78c1091ececec, 0x2583ffada6175002, 0xb0febd1dec834fdd, 0x7f34304635a9ef26, 0xa9f7d017ed76787d, 0xab2e04cf30199ed0, 0x1ae360ab64405604, 0x488acc696fcc5cdd, 0x8fa3fd21092a794e, 0xddcd0db73bccbef2, 0x96515cbb42d269c3, 0x8f8672b7078e45fa, 0xb02372e723a4c17, 0x25889d25f35afde6, 0x1a2577751dffce82, 0xfa503857b40bfda7]

theorem kat3A11W0_perm : KF (laneBytes kat3A11W0) = laneBytes kat3A11W1 := kf_lit rfl rfl (by decide +kernel)

theorem kat3A11W1_perm : KF (laneBytes kat3A11W1) = laneBytes kat3A11W2 := kf_lit rfl rfl (by decide +kernel)

theorem kat3A11W2_perm : KF (laneBytes kat3A11W2) = laneBytes kat3A11W3 := kf_lit rfl rfl (by decide +kernel)

def kat3A11L : List Nat := [2668, 1679, 1328, 244, 1826, 2068, 358, 1756, 1572, 316, 1681, 2628, 247, 2746, 4061, 1595, 2322, 1531, 2924, 412, 1957, 3473, 2652, 1340, 1622, 3485, 2865, 2084, 1087, 2898, 2888, 1894, 2611, 289, 4019, 72, 3171, 2187, 207, 494, 1569, 1560, 94, 3024, 3546, 293, 257, 510, 3900, 175, 2040, 831, 720, 3668, 3234, 2732, 390, 1286, 1928, 1938, 632, 2361, 3604, 2154, 2292, 2374, 2498, 2815, 2295, 210, 3242, 687, 2221, 110, 2612, 1318, 1540, 2905, 236, 1034, 1523, 2356, 719, 1857, 788, 1009, 2485, 1479, 3937, 2064, 1626, 2918, 1659, 3002, 3067, 2029, 324, 3890, 2100, 291, 241, 2070, 468, 2299, 1104, 3280, 2261, 3147, 4032, 1759, 1997, 353, 1634, 1138, 389, 796, 1999, 113, 2924, 3623, 3903, 1191, 188, 794, 3020, 1594, 1125, 217, 3043, 3382, 1395, 2419, 1920, 3744, 1491, 2116, 3888, 1402, 2120, 1057, 2797, 2050, 243, 578, 286, 826, 2238, 4008, 3169, 793, 2288, 628, 789, 2224, 1896, 3081, 201, 2782, 3577, 4068, 2910, 1991, 3421, 730, 874, 3965, 746, 1382, 3083, 395, 768, 2597, 985, 2700, 670, 2322, 3190, 3752, 1330, 1386, 3488, 2905, 1554, 1738, 2897, 1434, 3773, 1859, 3613, 2600, 1033, 517, 3004, 2969, 2086, 3036, 689, 2501, 1072, 1472, 895, 2447, 3868, 2959, 149, 2957, 3483, 3979, 1290, 1701, 2605, 57, 1486, 359, 2603, 3558, 2096, 2042, 1824, 1400, 3840, 1316, 751, 704, 3553, 1082, 2277, 1001, 196, 3271, 2522, 1443, 3697, 1292, 3941, 191, 1731, 4038, 1123, 2227, 2037, 3543, 3032, 3637, 2754, 4078, 2517, 3051, 3274, 2015, 3595, 2733, 945, 2234, 1652, 2354, 2548, 3274, 931, 3115, 2012, 1397, 2901, 329, 2255, 1089, 34, 4069, 3836, 2618, 2297, 1059, 3308, 3790, 145, 2241, 4055, 44, 1872, 2657, 4013, 2111, 3365, 1277, 3203, 478, 3773, 2831, 3878, 2718, 1589, 772, 3892, 2007, 1656, 3799, 23, 3965, 169, 2541, 25, 3315, 3588, 2738, 1540, 1029, 2916, 1546, 2787, 3537, 3164, 1788, 3177, 2220, 3656, 1940, 2346, 528, 1021, 2298, 3826, 3275, 1851, 219, 3533, 3133, 617, 1069, 3259, 1301, 2710, 1119, 1934, 2928, 1650, 2296]

def kat3A110 : List Nat := [2668, 1328, 1826, 358, 1572, 1681, 247, 1595, 1531, 412, 2652, 1622, 2084, 2898, 1894, 289, 3171, 207, 1569, 94, 293, 510, 2040, 720, 2732, 1286, 1938, 2361, 2292, 2498, 2295, 3242, 2221, 2612, 1540, 236, 1523, 719, 788, 2485, 2064, 2918, 3002, 2029, 2100, 241, 468, 1104, 2261, 1759, 353, 1138, 796, 113, 1191, 794, 1594, 217, 1395, 1920, 2116, 2120, 2797, 243, 286, 2238, 793, 628, 2224, 3081, 2782, 1991, 874, 1382, 395, 2597, 2700, 2322, 1330, 2905, 1738, 1434, 2600, 517, 2969, 3036, 2501, 1472, 2447, 149, 1290, 2605, 1486, 2603, 2042, 1400, 751, 1082, 1001, 3271, 1443, 191, 1123, 2037, 2754, 3051, 2015, 945, 1652, 2548, 931, 2012, 2901, 2255, 34, 2297, 3308, 2241, 1872, 2111, 3203, 2831, 1589, 2007, 23, 2541, 3315, 1540]

def kat3A111 : List Nat := [1679, 244, 2068, 1756, 316, 2628, 2746, 2322, 2924, 1957, 1340, 2865, 1087, 2888, 2611, 72, 2187, 494, 1560, 3024, 257, 175, 831, 3234, 390, 1928, 632, 2154, 2374, 2815, 210, 687, 110, 1318, 2905, 1034, 2356, 1857, 1009, 1479, 1626, 1659, 3067, 324, 291, 2070, 2299, 3280, 3147, 1997, 1634, 389, 1999, 2924, 188, 3020, 1125, 3043, 2419, 1491, 1402, 1057, 2050, 578, 826, 3169, 2288, 789, 1896, 201, 2910, 730, 746, 3083, 768, 985, 670, 3190, 1386, 1554, 2897, 1859, 1033, 3004, 2086, 689, 1072, 895, 2959, 2957, 1701, 57, 359, 2096, 1824, 1316, 704, 2277, 196, 2522, 1292, 1731, 2227, 3032, 2517, 3274, 2733, 2234, 2354, 3274, 3115, 1397, 329, 1089, 2618, 1059, 145, 44, 2657, 1277, 478, 2718, 772, 1656, 169, 25, 2738, 1029]

theorem kat3A11_eq : SampleNTT 168 (nb 32 kat3RhoN ++ [UInt8.ofNat 1, UInt8.ofNat 1]) = some (rqOf (weave kat3A110 kat3A111)) :=
  sample_lit (l := kat3A11L) (P := padN34) rfl rfl rfl rfl kat3A11W0_perm kat3A11W1_perm kat3A11W2_perm padN34_eq padN34_lt rfl (by decide +kernel) (by decide +kernel) (by decide +kernel) (by decide +kernel) (by decide +kernel) (by decide +kernel) (by decide +kernel)

def kat3A12W0 : List UInt64 := [0xa6130d6d3cbc8a34, 0x6051c6432ad691bd, 0x8f1f077bfd5df63, 0xa22ba8477b432442, 0x1f0102, 0x0, 0x0, 0x0, 0x0, 0x0, 0x0, 0x0, 0x0, 0x0, 0x0, 0x0, 0x0, 0x0, 0x0, 0x0, 0x8000000000000000, 0x0, 0x0, 0x0, 0x0]

def kat3A12W1 : List UInt64 := [0xcd189b8273ed0ee6, 0x3f0488de574ac185, 0x163a702079492bae, 0xfdc2bebd87ab4a5d, 0x41ea5d2025bdf4e6, 0x582a42e9b36a8ea1, 0x8ebf643c2233226b, 0xfd955e0478bac881, 0x26e2f350cb8e9f83, 0x65859347cbe251e9, 0x832700bd46121691, 0x21190ed4a428bbe2, 0x4770cb2b39fd4c0c, 0xa07d2e0d79c41712, 0x6a29ebd8f2a00f76, 0xca5314af2a4f8ec, 0x60e31096f145620c, 0x8368abb3829a981d, 0xe6159d7d06cc710e, 0x3910a39e57bd0b6a, 0x231ebdd665d78dc6, 0x7c2aa3b7a628b566, 0x58bc5653c37fb4ba, 0x5d890266f5a64dc5, 0x15f54dea74fc350c]

def kat3A12W2 : List UInt64 := [0x70440bba9103a3c7, 0x206d3565f89961d9, 0x80abb75f9171ef04, 0x8b90f212fa804e75, 0x9b8ef6345efb6c6d, 0xb839b08579ea3526, 0x3b2ad3a6e15182fa, 0xdf01a22403a4c9b, 0x57e76ad81d189cdf, 0x56ce07ab5cbc4d48, 0x2c963a96bc7e3bff, 0x83afbeb0b00da3a9, 0x652a1e4acc2f8417, 0x284b5c34ab6a9d22, 0x7e0741b3089b7cbd, 0xb62c2529504ccfc5, 0x8210975c762a8190, 0x46c6b670b8b4d759, 0xcc1418f1fcf9a1a3, 0xf33df6704cdb0b63, 0x3f530ea2452efda2, 0xc6de5f3c38e2da5f, 0x128a86eb3e533542, 0x69910f4d2f36e9aa, 0x6c68a78607c40bb9]

def kat3A12W3 : List UInt64 := [0x76fe953454de7da0, 0xdface29358aba890, 0xeb14e03a59e5812a, 0x6a037dc255199ece, 0xfa0919e038f7b30c, 0x700b978a7dbdbac5, 0xcaf97c773dc941ad, 0xe39c6b9f85324021, 0x292dc1222a3ef658, 0x69088ffedef7811, 0xa52e21f19268a89b, 0x3de0240720d21a5f, 0xb8dd98305565d254, 0xfb8a4e80e2ecf82, 0x16b76db57d73bb13, 0xd879d35cc7070860, 0xd3238646cfac40e4, 0x14c75c8f6a937d12, 0x7268bed12b66191a, 0xbd706ad8db312839, 0x8cb849a37635a618, 0x92da876e59fb4d80, 0xc65cbfa7d2f4e77, 0x3a7d63dd2ea99f82, 0x5085e286d980faee]

theorem kat3A12W0_perm : KF (laneBytes kat3A12W0) = laneBytes kat3A12W1 := kf_lit rfl rfl (by decide +kernel)

theorem kat3A12W1_perm : KF (laneBytes kat3A12W1) = laneBytes kat3A12W2 := kf_lit rfl rfl (by decide +kernel)

theorem kat3A12W2_perm : KF (laneBytes kat3A12W2) = laneBytes kat3A12W3 := kf_lit rfl rfl (by decide +kernel)

def kat3A12L : List Nat := [3814, 3792, 627, 2488, 3352, 2140, 2753, 1396, 2270, 72, 3647, 698, 2377, 519, 2672, 355, 2653, 2740, 3463, 3051, 3522, 3695, 3572, 603, 3360, 3749, 321, 2282, 874, 3739, 2626, 1410, 619, 818, 3106, 1603, 3775, 2072, 2760, 1931, 3588, 2389, 1021, 2552, 2958, 1292, 755, 622, 489, 3621, 1995, 2356, 1413, 2326, 534, 1121, 189, 624, 643, 3006, 1064, 3402, 2318, 529, 3084, 4052, 2873, 3250, 1904, 292, 1047, 1948, 3597, 2002, 1696, 247, 672, 3471, 2539, 1698, 2284, 2639, 2802, 788, 3237, 192, 1378, 3860, 150, 3633, 3424, 2433, 666, 2872, 2219, 2102, 270, 3271, 3334, 2519, 1557, 1710, 3339, 1403, 926, 266, 1593, 2268, 1495, 3430, 3773, 561, 967, 58, 2705, 187, 68, 3479, 2401, 3977, 1381, 1747, 1056, 3824, 369, 1529, 2999, 2058, 3701, 2052, 762, 3873, 2960, 1752, 2924, 1519, 1588, 2287, 1691, 850, 2538, 2135, 2480, 2947, 762, 1304, 1761, 3386, 2858, 2483, 2636, 1027, 2594, 3841, 3853, 2509, 3352, 3457, 1898, 1406, 3400, 3012, 2908, 122, 1742, 4085, 3643, 3015, 2710, 2403, 2348, 2618, 13, 2827, 4030, 2106, 1047, 760, 2764, 484, 1322, 550, 2717, 2742, 3124, 1205, 3368, 1995, 2203, 2864, 1857, 2016, 4037, 1228, 2384, 594, 1580, 2315, 2689, 1890, 1884, 265, 2434, 3445, 2228, 1803, 1718, 1132, 419, 3994, 508, 399, 3092, 1596, 2827, 1229, 1648, 991, 755, 4058, 1326, 2596, 782, 1013, 3488, 3559, 1108, 2387, 1790, 2311, 2984, 1418, 659, 2766, 2783, 2066, 2533, 933, 1248, 3761, 3790, 409, 597, 2012, 2563, 198, 1971, 911, 2528, 145, 1530, 2988, 3517, 2215, 2967, 1792, 429, 3220, 1853, 1991, 2809, 540, 576, 2131, 2975, 2502, 2275, 3941, 2622, 546, 3521, 658, 2065, 3831, 4077, 2191, 1680, 2480, 2216, 2342, 497, 738, 4005, 421, 210, 114, 36, 990, 596, 1629, 85, 2435, 2269, 2091, 3791, 226, 1256, 2954, 783, 2993, 3443, 2903, 1901, 363, 2144, 112, 3271, 3381, 2169, 3661, 3136, 3322, 1606, 568, 723, 2001, 2707, 2294, 1884, 332, 2330, 1633, 299, 3053, 616, 919, 296, 3507, 2776, 1798, 2237, 2657, 1589, 2615, 2121, 2251]

def kat3A120 : List Nat := [627, 2140, 1396, 72, 2377, 2672, 2653, 3051, 321, 874, 1410, 818, 1603, 2760, 2389, 2552, 1292, 622, 1995, 1413, 534, 189, 643, 1064, 529, 2873, 1904, 1047, 2002, 247, 2539, 2284, 2802, 3237, 1378, 2433, 2872, 2102, 3271, 1557, 1403, 266, 2268, 561, 58, 187, 2401, 1747, 369, 2999, 2052, 2960, 2924, 1588, 1691, 2538, 2480, 762, 1761, 2483, 1027, 2509, 1406, 2908, 1742, 2710, 2348, 13, 2106, 760, 484, 550, 2742, 1205, 2203, 1857, 1228, 594, 2315, 1890, 265, 2228, 1718, 419, 399, 1596, 1229, 991, 1326, 782, 1108, 1790, 2984, 659, 2783, 2533, 1248, 597, 2563, 1971, 2528, 1530, 2215, 1792, 3220, 1991, 540, 2131, 2502, 2622, 658, 2191, 2480, 2342, 738, 210, 36, 596, 85, 2269, 226, 2954, 2993, 1901, 2144, 3271, 3136, 1606]

def kat3A121 : List Nat := [2488, 2753, 2270, 698, 519, 355, 2740, 603, 2282, 2626, 619, 3106, 2072, 1931, 1021, 2958, 755, 489, 2356, 2326, 1121, 624, 3006, 2318, 3084, 3250, 292, 1948, 1696, 672, 1698, 2639, 788, 192, 150, 666, 2219, 270, 2519, 1710, 926, 1593, 1495, 967, 2705, 68, 1381, 1056, 1529, 2058, 762, 1752, 1519, 2287, 850, 2135, 2947, 1304, 2858, 2636, 2594, 1898, 3012, 122, 3015, 2403, 2618, 2827, 1047, 2764, 1322, 2717, 3124, 1995, 2864, 2016, 2384, 1580, 2689, 1884, 2434, 1803, 1132, 508, 3092, 2827, 1648, 755, 2596, 1013, 2387, 2311, 1418, 2766, 2066, 933, 409, 2012, 198, 911, 145, 2988, 2967, 429, 1853, 2809, 576, 2975, 2275, 546, 2065, 1680, 2216, 497, 421, 114, 990, 1629, 2435, 2091, 1256, 783, 2903, 363, 112, 2169, 3322, 568]

theorem kat3A12_eq : SampleNTT 168 (nb 32 kat3RhoN ++ [UInt8.ofNat 2, UInt8.ofNat 1]) = some (rqOf (weave kat3A120 kat3A121)) :=
  sample_lit (l := kat3A12L) (P := padN34) rfl rfl rfl rfl kat3A12W0_perm kat3A12W1_perm kat3A12W2_perm padN34_eq padN34_lt rfl (by decide +kernel) (by decide +kernel) (by decide +kernel) (by decide +kernel) (by decide +kernel) (by decide +kernel) (by decide +kernel)

def kat3A20W0 : List UInt64 := [0xa6130d6d3cbc8a34, 0x6051c6432ad691bd, 0x8f1f077bfd5df63, 0xa22ba8477b432442, 0x1f0200, 0x0, 0x0, 0x0, 0x0, 0x0, 0x0, 0x0, 0x0, 0x0, 0x0, 0x0, 0x0, 0x0, 0x0, 0x0, 0x8000000000000000, 0x0, 0x0, 0x0, 0x0]

def kat3A20W1 : List UInt64 := [0xd1debc2f06481375, 0xabba77ac20cf0a99, 0x16bd059b64daed28, 0xaf763fe87edd8059, 0x8b64a17260d8eb19, 0x689c638fdf815520, 0x130606786a5779c6, 0x698e7fa052c994ab, 0x96c5b14f97c1f206, 0xc9fb1957db97e77b, 0xdb45c2103e086a5b, 0xf410647914c6108b, 0xa88f643d45b73cfa, 0x5347ecdbfb7c4b76, 0x1ce607240715b324, 0x670d104d2096af8b, 0xba95f352a7c3d440, 0xaa52569467cf9698, 0xbfcbe48505fe32bf, 0xc11c136759c5c9df, 0x29a569ad56c76180, 0xfefcb5746706add4, 0xc95409f740178c88, 0x11fcc296fd7532d7, 0x92597d695f94fe8]

def kat3A20W2 : List UInt64 := [0x8be886e90e3a6196, 0x1a040fea78536149, 0x2b166e31fb396a4b, 0x727341bf395bd9e7, 0x96e2fbc6f92384f1, 0x2d9ab64b4a133f49, 0x363ed36dc278b25b, 0xe85717263efa718e, 0x9e5f4a380b4df758, 0xcb94e51d5b37bafa, 0x5c13616d477160d2, 0x9b5e81e907a78a07, 0xda0601301d7c2f30, 0x381ed29e483d1481, 0x957f0ebc19e9dd6d, 0xc15df8f5412417a, 0x1771bead9c190b2c, 0x8b7a92942e311848, 0xdf43806c7d19d82d, 0x2c1a105fc2c5ad34, 0xecac2fefd8f5f830, 0xf671e5a814b2579a, 0x4deea32b1aef0f08, 0x40bab146762207b0, 0x78afe85f8c5b5393]

def kat3A20W3 : List UInt64 := [0x25bcaa5f67e15c33, 0xd82ddce16b84f10a, 0xb097f3fd1eb2a57f, 0x18ae0f30b1430312, 0x3c076ef677a769e7, 0xa4be845dd6998c02, 0xde0ced35d3b1950e, 0xdbcfdd7cd5753e5e, 0x59c821b15fe75ed7, 0x34eef9c96b94bcd2, 0xc641c33c99a4946b, 0x2cddcc503216f7c1, 0x3cb9bb2aa8cfd48a, 0xce21e18adaa2f4c3, 0x39fd6819a9a914e1, 0x71e01361033f039, 0xca5420b5addfc857, 0x46f3fb09d3f097f5, 0x7c9a31683d133048, 0xbc0413888a1b4aa4, 0xbb6a9175af366a13, 0x463ae191125c9fc1, 0xc8a1ac6dec03f874, 0x2ea9172377d1a8be, 0x53ca406a79a2e128]

theorem kat3A20W0_perm : KF (laneBytes kat3A20W0) = laneBytes kat3A20W1 := kf_lit rfl rfl (by decide +kernel)

theorem kat3A20W1_perm : KF (laneBytes kat3A20W1) = laneBytes kat3A20W2 := kf_lit rfl rfl (by decide +kernel)

theorem kat3A20W2_perm : KF (laneBytes kat3A20W2) = laneBytes kat3A20W3 := kf_lit rfl rfl (by decide +kernel)

def kat3A20L : List Nat := [885, 1153, 3846, 3010, 478, 2461, 3850, 524, 1964, 2983, 2219, 3794, 1242, 2486, 3333, 363, 89, 3544, 2174, 1022, 3958, 410, 2283, 1549, 370, 1610, 139, 1362, 3969, 2301, 3171, 1673, 2502, 1399, 2154, 103, 774, 2737, 2452, 1324, 4000, 2279, 1641, 3872, 1985, 1273, 1457, 2412, 1915, 2430, 2011, 405, 2555, 1468, 2154, 992, 528, 1116, 3035, 264, 1222, 1937, 100, 3905, 3322, 2931, 3397, 1603, 2191, 1898, 3147, 4023, 3291, 1150, 1107, 2866, 1813, 576, 1543, 462, 3979, 2410, 3360, 260, 1805, 1030, 980, 2684, 850, 2399, 2234, 2409, 1999, 2374, 598, 2725, 703, 4067, 1285, 3656, 4043, 3579, 1481, 1436, 871, 449, 193, 1560, 1735, 2773, 1385, 666, 406, 934, 2318, 2158, 3048, 1176, 865, 1925, 4074, 64, 2842, 1700, 2873, 799, 1646, 689, 2535, 1469, 3897, 1051, 627, 3863, 900, 3986, 3014, 3631, 2454, 1012, 2579, 1204, 2742, 729, 603, 1931, 3522, 3382, 1598, 2275, 2673, 1007, 1830, 1393, 2280, 3957, 2893, 896, 3914, 2533, 2810, 891, 3419, 3665, 2964, 3372, 352, 1143, 365, 310, 1884, 2208, 1959, 3728, 3713, 2485, 3888, 1986, 29, 19, 2566, 2077, 3348, 1155, 670, 493, 3384, 3542, 2537, 3009, 3854, 2391, 378, 292, 3924, 3576, 3093, 704, 2315, 2497, 3757, 1819, 2071, 388, 3633, 2370, 2706, 2231, 2093, 413, 3197, 2054, 3907, 845, 1453, 3116, 95, 417, 44, 3971, 2293, 3837, 3119, 3786, 3123, 3605, 3943, 2725, 1468, 162, 1265, 1720, 3297, 733, 4056, 2647, 3762, 4049, 2035, 2825, 786, 1072, 177, 243, 2222, 3697, 1897, 1914, 3830, 118, 572, 2240, 1689, 1501, 3716, 2635, 1294, 2841, 1491, 3795, 3596, 1517, 1342, 3415, 3452, 3325, 2011, 1517, 4071, 2837, 2081, 1436, 3282, 2379, 2411, 3996, 1262, 1715, 1172, 2458, 828, 1052, 454, 3964, 534, 1283, 3532, 717, 1162, 3325, 2728, 2994, 3257, 3123, 756, 3498, 394, 542, 462, 334, 2473, 410, 3432, 927, 57, 831, 1552, 19, 1822, 1392, 4040, 2781, 181, 1346, 1482, 2431, 1008, 157, 1019, 1135, 72, 307, 2109, 790, 3226, 2631, 2890, 2209, 904, 65, 956, 1697, 3894, 1882, 2705, 2998]

def kat3A200 : List Nat := [885, 3010, 2461, 1964, 2219, 2486, 89, 1022, 2283, 370, 139, 2301, 1673, 1399, 103, 2737, 1324, 1641, 1273, 2412, 2430, 405, 1468, 992, 1116, 264, 1937, 3322, 1603, 1898, 3291, 1107, 1813, 1543, 2410, 1805, 980, 850, 2234, 1999, 598, 703, 1481, 871, 193, 1735, 1385, 406, 2318, 3048, 865, 64, 1700, 799, 689, 1469, 627, 3014, 1012, 1204, 729, 1931, 2275, 1007, 1393, 2893, 2533, 891, 352, 365, 1884, 1959, 1986, 19, 2077, 670, 2537, 2391, 292, 704, 2497, 2071, 2370, 2231, 413, 2054, 1453, 95, 44, 3119, 2725, 162, 1720, 733, 2035, 786, 177, 2222, 1914, 572, 1689, 2635, 2841, 1517, 3325, 1517, 2081, 3282, 2411, 1715, 2458, 1052, 534, 717, 3325, 2994, 3123, 394, 462, 2473, 927, 831, 19, 1392, 181, 1482, 1008, 1019]

def kat3A201 : List Nat := [1153, 478, 524, 2983, 1242, 363, 2174, 410, 1549, 1610, 1362, 3171, 2502, 2154, 774, 2452, 2279, 1985, 1457, 1915, 2011, 2555, 2154, 528, 3035, 1222, 100, 2931, 2191, 3147, 1150, 2866, 576, 462, 260, 1030, 2684, 2399, 2409, 2374, 2725, 1285, 1436, 449, 1560, 2773, 666, 934, 2158, 1176, 1925, 2842, 2873, 1646, 2535, 1051, 900, 2454, 2579, 2742, 603, 1598, 2673, 1830, 2280, 896, 2810, 2964, 1143, 310, 2208, 2485, 29, 2566, 1155, 493, 3009, 378, 3093, 2315, 1819, 388, 2706, 2093, 3197, 845, 3116, 417, 2293, 3123, 1468, 1265, 3297, 2647, 2825, 1072, 243, 1897, 118, 2240, 1501, 1294, 1491, 1342, 2011, 2837, 1436, 2379, 1262, 1172, 828, 454, 1283, 1162, 2728, 3257, 756, 542, 334, 410, 57, 1552, 1822, 2781, 1346, 2431, 157, 1135]

theorem kat3A20_eq : SampleNTT 168 (nb 32 kat3RhoN ++ [UInt8.ofNat 0, UInt8.ofNat 2]) = some (rqOf (weave kat3A200 kat3A201)) :=
  sample_lit (l := kat3A20L) (P := padN34) rfl rfl rfl rfl kat3A20W0_perm kat3A20W1_perm kat3A20W2_perm padN34_eq padN34_lt rfl (by decide +kernel) (by decide +kernel) (by decide +kernel) (by decide +kernel) (by decide +kernel) (by decide +kernel) (by decide +kernel)

def kat3A21W0 : List UInt64 := [0xa6130d6d3cbc8a34, 0x6051c6432ad691bd, 0x8f1f077bfd5df63, 0xa22ba8477b432442, 0x1f0201, 0x0, 0x0, 0x0, 0x0, 0x0, 0x0, 0x0, 0x0, 0x0, 0x0, 0x0, 0x0, 0x0, 0x0, 0x0, 0x8000000000000000, 0x0, 0x0, 0x0, 0x0]

def kat3A21W1 : List UInt64 := [0x463993abbca8b3f2, 0x550a8b47d0b40b44, 0xc22038f5a2109b8d, 0x260ec6842b5f1702, 0x64c71003e9d0be81, 0xdabf94924f086b3b, 0x90ec09a31efb9910, 0x73416147a41c1190, 0xcf9fb7de85143142, 0xda35bfcd489ab5aa, 0xc5395187e8f584ed, 0xd3338c4046e3747, 0xd716bb62b6d3d4e5, 0x28818405cb5dd551, 0xaa71db07aa87b59d, 0xd043c3983304b462, 0x464158fe7d5da565, 0xd576c4f4b7722150, 0x65e4a75ab74587a1, 0x8a2251a7c02a89a6, 0xc6eeadf943aa1d7f, 0xa03530f594038c47, 0xef35e31f4f3f1238, 0xc9b8c7ea9bea83c9, 0x1da0ed2a3f22cc47]

def kat3A21W2 : List UInt64 := [0xdca7db90c29b3c6f, 0xeb35cbbb95e01fdd, 0xfb5be7d04ebc9681, 0x18102897a58d6d0a, 0x5c61bb164a1fc415, 0xdf3babc8e02f3bc7, 0x3a29d16120fde0bd, 0x448a0ab2b5bbcdd7, 0x52f5e7ffbe334299, 0xc1b47e60813a487d, 0x47de825d62b04935, 0x97913f3474a08004, 0x959ec02664f0407f, 0xc4eea148bfd1d9d, 0xf3418fcd1bf97f7c, 0x5d206fb8d277ace8, 0x43bd5e9592d11ae5, 0x8149f7fc51f848f8, 0x8913ccbb92793589, 0xe16c7c0b3c3e6fd9, 0x91131f1ef878c9aa, 0x5eb3618d5458bb77, 0x1a168e9a8b80b374, 0xed5b671c02f3b573, 0xf082d52adc473941]

def kat3A21W3 : List UInt64 := [0xc29cef812a51e9b4, 0x5743dac3551d3d2d, 0xbf20f8e7bd170749, 0xbaae9cf52c6408a0, 0x761322e81dc370f0, 0x83b225e5c07b4aba, 0x4d3c7bc1a3d16596, 0x38af412a1e67ff6f, 0x9a697f0acd681d94, 0x228d67189d5fd980, 0x3e01d136ab5c2018, 0xd004bf386591f2f8, 0x9b784a2a9ad5b7a9, 0xe06097aee7c46f26, 0xbf6401ea690ec2e8, 0xa15bba18814cce64, 0x807ca4d53e8cfe77, 0x2c67c34ac0d9ce3e, 0x8a28acf8e5ec359e, 0xaebe90eb59f63950, 0x21844e783af0ab40, 0xc587e92d974f1d6a, 0x412fe1296b705a7e, 0x8529d47e42aaa89c, 0xfa301fddc768ff44]

theorem kat3A21W0_perm : KF (laneBytes kat3A21W0) = laneBytes kat3A21W1 := kf_lit rfl rfl (by decide +kernel)

theorem kat3A21W1_perm : KF (laneBytes kat3A21W1) = laneBytes kat3A21W2 := kf_lit rfl rfl (by decide +kernel)

theorem kat3A21W2_perm : KF (laneBytes kat3A21W2) = laneBytes kat3A21W3 := kf_lit rfl rfl (by decide +kernel)

def kat3A21L : List Nat := [1010, 2699, 3004, 2362, 1593, 1092, 1035, 3339, 2887, 168, 3413, 2488, 528, 3930, 56, 3106, 1794, 1521, 1067, 3176, 1550, 2066, 190, 3741, 3, 3185, 2916, 1715, 3848, 2340, 3988, 3499, 2320, 4025, 798, 154, 236, 2313, 3089, 2625, 327, 1046, 627, 788, 1300, 3560, 4023, 3321, 1450, 2475, 3400, 3068, 2613, 3805, 1412, 3727, 391, 917, 1989, 884, 1134, 3136, 824, 211, 1253, 3389, 694, 2998, 1814, 1309, 3541, 3253, 1029, 2072, 3368, 2905, 2695, 122, 475, 2727, 1122, 75, 2099, 3129, 67, 1629, 3493, 2005, 2302, 1045, 70, 533, 1906, 3915, 1732, 3415, 1953, 1112, 2743, 2677, 1508, 2662, 2697, 3074, 423, 549, 3978, 471, 938, 3988, 3757, 3182, 3183, 2483, 194, 3513, 3239, 3549, 31, 2398, 3003, 860, 491, 2408, 3772, 3332, 3047, 4021, 3338, 2262, 1957, 649, 2064, 337, 4036, 1185, 2838, 1563, 1884, 956, 47, 3214, 2987, 3571, 189, 4062, 288, 3350, 2601, 3443, 3021, 2907, 2738, 2208, 2372, 1065, 3635, 4091, 1511, 1327, 2173, 932, 129, 2022, 436, 860, 73, 1579, 605, 3560, 1095, 2048, 1184, 839, 319, 2425, 127, 3844, 1636, 3074, 1438, 2521, 3357, 2239, 2580, 1262, 3084, 2039, 3065, 3281, 399, 3892, 3304, 1914, 2258, 1787, 3360, 3669, 282, 2349, 3733, 3029, 2115, 1167, 504, 4037, 2551, 2068, 1417, 1939, 2962, 3275, 2323, 3480, 3695, 963, 3083, 1735, 2785, 3226, 2168, 495, 799, 2321, 2484, 1310, 298, 3832, 668, 732, 3389, 1361, 2755, 1085, 2391, 116, 3351, 3707, 248, 3058, 2208, 1600, 1324, 2511, 2734, 3851, 880, 476, 744, 306, 2678, 1195, 123, 3676, 549, 2107, 1430, 3350, 419, 1980, 3388, 1780, 2047, 486, 298, 2804, 1080, 473, 3432, 172, 2431, 2470, 2432, 1533, 2205, 1649, 653, 386, 3104, 2741, 310, 29, 2110, 3887, 1425, 902, 1215, 3328, 1961, 3419, 2714, 1186, 2936, 617, 1135, 3708, 1966, 1545, 2272, 3118, 2318, 3750, 1025, 3062, 3684, 1228, 2177, 2977, 347, 1914, 3326, 1000, 1237, 1994, 3712, 3299, 217, 1196, 1987, 710, 1438, 3779, 2277, 2767, 2600, 1288, 1593, 1439, 235, 3049, 174, 2740, 2800, 1923, 1102, 536]

def kat3A210 : List Nat := [1010, 3004, 1593, 1035, 168, 528, 3106, 1521, 3176, 2066, 3, 2916, 2340, 798, 236, 3089, 327, 627, 1300, 1450, 3068, 1412, 917, 884, 3136, 211, 694, 1814, 3253, 2072, 2695, 475, 1122, 2099, 67, 2005, 1045, 533, 1732, 1112, 2677, 2662, 3074, 549, 938, 3183, 194, 31, 3003, 491, 3047, 1957, 2064, 1185, 1563, 956, 3214, 189, 2601, 2907, 2208, 1065, 1327, 932, 2022, 860, 1579, 1095, 1184, 319, 127, 3074, 2521, 2580, 3084, 3065, 399, 1914, 1787, 2349, 2115, 504, 2068, 1939, 3275, 963, 1735, 3226, 495, 2321, 1310, 668, 1361, 1085, 116, 3058, 1600, 2511, 880, 744, 2678, 123, 2107, 419, 1780, 486, 2804, 473, 2431, 2432, 2205, 653, 3104, 310, 2110, 902, 3328, 2714, 2936, 1135, 1545, 3118, 1025, 1228, 2977, 1914, 1000, 1994]

def kat3A211 : List Nat := [2699, 2362, 1092, 2887, 2488, 56, 1794, 1067, 1550, 190, 3185, 1715, 2320, 154, 2313, 2625, 1046, 788, 3321, 2475, 2613, 391, 1989, 1134, 824, 1253, 2998, 1309, 1029, 2905, 122, 2727, 75, 3129, 1629, 2302, 70, 1906, 1953, 2743, 1508, 2697, 423, 471, 3182, 2483, 3239, 2398, 860, 2408, 2262, 649, 337, 2838, 1884, 47, 2987, 288, 3021, 2738, 2372, 1511, 2173, 129, 436, 73, 605, 2048, 839, 2425, 1636, 1438, 2239, 1262, 2039, 3281, 3304, 2258, 282, 3029, 1167, 2551, 1417, 2962, 2323, 3083, 2785, 2168, 799, 2484, 298, 732, 2755, 2391, 248, 2208, 1324, 2734, 476, 306, 1195, 549, 1430, 1980, 2047, 298, 1080, 172, 2470, 1533, 1649, 386, 2741, 29, 1425, 1215, 1961, 1186, 617, 1966, 2272, 2318, 3062, 2177, 347, 3326, 1237, 3299]

theorem kat3A21_eq : SampleNTT 168 (nb 32 kat3RhoN ++ [UInt8.ofNat 1, UInt8.ofNat 2]) = some (rqOf (weave kat3A210 kat3A211)) :=
  sample_lit (l := kat3A21L) (P := padN34) rfl rfl rfl rfl kat3A21W0_perm kat3A21W1_perm kat3A21W2_perm padN34_eq padN34_lt rfl (by decide +kernel) (by decide +kernel) (by decide +kernel) (by decide +kernel) (by decide +kernel) (by decide +kernel) (by decide +kernel)

def kat3A22W0 : List UInt64 := [0xa6130d6d3cbc8a34, 0x6051c6432ad691bd, 0x8f1f077bfd5df63, 0xa22ba8477b432442, 0x1f0202, 0x0, 0x0, 0x0, 0x0, 0x0, 0x0, 0x0, 0x0, 0x0, 0x0, 0x0, 0x0, 0x0, 0x0, 0x0, 0x8000000000000000, 0x0, 0x0, 0x0, 0x0]

def kat3A22W1 : List UInt64 := [0xfb9978918aea1df, 0x938a09be52debf61, 0xee2b25c6c485407c, 0xc8ebd60b922113a3, 0xcc4f59f2c692eb68, 0xbe7b577d1a3cfda4, 0x74b5d7ee53218386, 0xc4df5648b5f69059, 0xe0c2106c07980d2f, 0x622e42b2b4377b85, 0xa3eae77d52c9477f, 0x277dbd21a76a6138, 0x23d83974a3f67f44, 0x71e6f58f0bfc2030, 0xc2efc9f882bab8b2, 0xb75802402326de92, 0xd127648346ba24c8, 0x6cde389aa2398163, 0xf8816547e53afabc, 0xddd300492c3d668e, 0xd469aa0ff2793362, 0xe54fef719d9781ae, 0x552c056f72fa7afc, 0xe8ea67b83b54ca4, 0xabc8797db10b3a11]

def kat3A22W2 : List UInt64 := [0x50b7329c55e932c6, 0xd41def0e86f22d3c, 0xd58367f3bdf82aa4, 0x4b5f601c74f90f12, 0xd3ae109209b6d91f, 0xeace75fc03407990, 0xe5c5c79059d58554, 0x5a009db3892b6e, 0xa0e5db0b747c5d72, 0x140f116c5e4b7e94, 0xb68411cfc83c19, 0x6b356309e10f2613, 0x1487b7318925016c, 0x5051a9209bca2c9d, 0x95d84cce91ad87f7, 0x9b2e96894028229b, 0xe9d7aeaba4a231d7, 0x8f58f40d1ffec1d2, 0xa1998c361360b9c1, 0xe1a6e070fc3c7597, 0x50cfc8639ebd0754, 0x1b59836cd1dc7b57, 0xc2d40b0623d9c4d1, 0x4a8a6cd46f5bad9a, 0xcd1ce60b124ecdca]

def kat3A22W3 : List UInt64 := [0x4d3a880c6237de4, 0x8dea1a8417c65ad5, 0x76fe06b7d41ec351, 0x8d03766ca7190115, 0xe6fcab539cc1fcb0, 0xa76948d7ddce855b, 0xd760917bca9e6bcc, 0x94db6fdd13a2dfbf, 0x16994cd163a7fa0, 0xb2762fdf8b68146c, 0x3632a2ea21900273, 0x67220c3497406ebc, 0x238b6da17b9ff4cc, 0x135290c7ece71a1d, 0x6ee7055769e38c26, 0xf36d333ba071e541, 0x28c41c68ef5a473c, 0x2a7fe22baaf0ae36, 0xbc436fb9615a522d, 0xb912da4291c9a70c, 0xf4d99a1d43ee3b7f, 0xe84c83fad93c6b66, 0x7a1c0f76b8f081eb, 0x60ca0c0b99f0b2e5, 0xd61eabed22ee5c6d]

theorem kat3A22W0_perm : KF (laneBytes kat3A22W0) = laneBytes kat3A22W1 := kf_lit rfl rfl (by decide +kernel)

theorem kat3A22W1_perm : KF (laneBytes kat3A22W1) = laneBytes kat3A22W2 := kf_lit rfl rfl (by decide +kernel)

theorem kat3A22W2_perm : KF (laneBytes kat3A22W2) = laneBytes kat3A22W3 := kf_lit rfl rfl (by decide +kernel)

def kat3A22L : List Nat := [479, 2794, 2328, 2424, 4025, 1552, 3775, 1325, 2494, 2208, 3219, 1031, 1157, 3180, 2853, 3810, 931, 529, 2962, 3424, 2283, 1676, 747, 3177, 2546, 1269, 1228, 4058, 2620, 2001, 2903, 3047, 902, 536, 3667, 3454, 1205, 1431, 1680, 2911, 1608, 3573, 4036, 210, 1944, 1728, 528, 3596, 2949, 887, 692, 1067, 558, 2038, 2375, 1324, 1917, 3758, 2211, 1555, 1898, 538, 3517, 631, 3908, 3943, 1187, 919, 984, 770, 3104, 191, 1423, 3695, 625, 2955, 698, 3976, 4041, 3118, 3730, 621, 35, 36, 1880, 3211, 2596, 1131, 1155, 630, 977, 2070, 569, 2474, 3640, 1741, 2748, 943, 2021, 1620, 2177, 2287, 3430, 707, 73, 3376, 733, 822, 633, 255, 2474, 3398, 710, 3731, 3157, 809, 183, 965, 557, 2159, 3854, 478, 1236, 682, 3576, 3899, 871, 3416, 3858, 3984, 3188, 1537, 2911, 500, 1753, 155, 146, 2785, 211, 1945, 832, 4032, 3701, 3756, 1364, 3416, 89, 3193, 1477, 1774, 2347, 2872, 157, 1440, 512, 1495, 1148, 183, 1499, 2574, 3732, 1207, 3166, 278, 1039, 401, 2108, 3324, 1041, 2920, 768, 609, 271, 158, 1379, 1715, 364, 592, 393, 2931, 1159, 2513, 2604, 2492, 2336, 1306, 1872, 2175, 429, 3305, 2124, 2397, 667, 642, 2368, 2408, 2862, 3449, 561, 2634, 3755, 3450, 745, 3101, 4094, 209, 2292, 2293, 2497, 1547, 1555, 2243, 409, 2426, 3189, 4035, 112, 2670, 1249, 117, 3773, 1593, 4040, 1292, 3556, 567, 198, 2696, 1235, 3408, 1626, 380, 2692, 3745, 397, 3125, 1054, 2941, 3590, 1903, 277, 400, 3239, 1894, 3331, 2824, 508, 2508, 2899, 4042, 3046, 2133, 3534, 3453, 2376, 2678, 3020, 2534, 3018, 2327, 1888, 3069, 735, 314, 4061, 3510, 148, 2042, 1594, 3281, 2452, 22, 1132, 1665, 3979, 765, 630, 1851, 2, 537, 746, 810, 3126, 1771, 1856, 841, 524, 1650, 1228, 2559, 379, 1754, 907, 466, 1818, 3790, 199, 1321, 1555, 2242, 2531, 1398, 1797, 1774, 1345, 1822, 2976, 819, 877, 975, 2631, 3829, 3176, 3137, 1576, 2787, 2800, 698, 4066, 679, 557, 1445, 2401, 1787, 3139, 203, 2471, 2332, 2626, 301, 4025, 951, 1006, 468, 2458, 3917]

def kat3A220 : List Nat := [479, 2328, 1552, 2494, 3219, 1157, 2853, 529, 2283, 747, 2546, 1228, 2001, 3047, 536, 1431, 2911, 210, 1728, 2949, 692, 558, 2375, 1917, 1555, 538, 1187, 984, 3104, 1423, 2955, 3118, 35, 1880, 2596, 1155, 977, 569, 1741, 943, 1620, 2287, 73, 822, 255, 710, 809, 965, 2159, 1236, 871, 1537, 500, 155, 2785, 1945, 1364, 3193, 1774, 2872, 1440, 1495, 183, 2574, 3166, 1039, 2108, 1041, 768, 271, 1379, 364, 393, 1159, 2604, 2336, 1872, 429, 2124, 667, 2368, 2862, 2634, 3101, 2292, 2497, 1555, 409, 3189, 2670, 117, 1292, 198, 1235, 380, 397, 1054, 1903, 400, 1894, 508, 2899, 2133, 2678, 2534, 2327, 3069, 314, 2042, 3281, 22, 1665, 630, 2, 746, 3126, 1856, 524, 1228, 379, 907, 1818, 1321, 2242, 1398, 1774, 1822, 819]

def kat3A221 : List Nat := [2794, 2424, 1325, 2208, 1031, 3180, 931, 2962, 1676, 3177, 1269, 2620, 2903, 902, 1205, 1680, 1608, 1944, 528, 887, 1067, 2038, 1324, 2211, 1898, 631, 919, 770, 191, 625, 698, 621, 36, 3211, 1131, 630, 2070, 2474, 2748, 2021, 2177, 707, 733, 633, 2474, 3157, 183, 557, 478, 682, 3188, 2911, 1753, 146, 211, 832, 89, 1477, 2347, 157, 512, 1148, 1499, 1207, 278, 401, 3324, 2920, 609, 158, 1715, 592, 2931, 2513, 2492, 1306, 2175, 3305, 2397, 642, 2408, 561, 745, 209, 2293, 1547, 2243, 2426, 112, 1249, 1593, 567, 2696, 1626, 2692, 3125, 2941, 277, 3239, 2824, 2508, 3046, 2376, 3020, 3018, 1888, 735, 148, 1594, 2452, 1132, 765, 1851, 537, 810, 1771, 841, 1650, 2559, 1754, 466, 199, 1555, 2531, 1797, 1345, 2976, 877]

theorem kat3A22_eq : SampleNTT 168 (nb 32 kat3RhoN ++ [UInt8.ofNat 2, UInt8.ofNat 2]) = some (rqOf (weave kat3A220 kat3A221)) :=
  sample_lit (l := kat3A22L) (P := padN34) rfl rfl rfl rfl kat3A22W0_perm kat3A22W1_perm kat3A22W2_perm padN34_eq padN34_lt rfl (by decide +kernel) (by decide +kernel) (by decide +kernel) (by decide +kernel) (by decide +kernel) (by decide +kernel) (by decide +kernel)

noncomputable def kat3A (i j : Nat) : Rq :=
  match i, j with
  | 0, 0 => rqOf (weave kat3A000 kat3A001)
  | 0, 1 => rqOf (weave kat3A010 kat3A011)
  | 0, 2 => rqOf (weave kat3A020 kat3A021)
  | 1, 0 => rqOf (weave kat3A100 kat3A101)
  | 1, 1 => rqOf (weave kat3A110 kat3A111)
  | 1, 2 => rqOf (weave kat3A120 kat3A121)
  | 2, 0 => rqOf (weave kat3A200 kat3A201)
  | 2, 1 => rqOf (weave kat3A210 kat3A211)
  | 2, 2 => rqOf (weave kat3A220 kat3A221)
  | _, _ => 0

theorem kat3_sample (i : Nat) (hi : i < 3) (j : Nat) (hj : j < 3) : SampleNTT 168 (nb 32 kat3RhoN ++ [UInt8.ofNat j, UInt8.ofNat i]) = some (kat3A i j) := by
  interval_cases i <;> interval_cases j
  · exact kat3A00_eq
  · exact kat3A01_eq
  · exact kat3A02_eq
  · exact kat3A10_eq
  · exact kat3A11_eq
  · exact kat3A12_eq
  · exact kat3A20_eq
  · exact kat3A21_eq
  · exact kat3A22_eq

theorem kat3_expand : ∃ A, ExpandA 3 168 (nb 32 kat3RhoN) = some A ∧ ∀ i < 3, ∀ j < 3, A i j = kat3A i j := expand_lit kat3_sample

end Verif.Proof
