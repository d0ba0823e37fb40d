import Verif.Proof.ZeroSeed0

/-! # The matrix of the all-zero seed

test_speed.c measures `gen_matrix` on a seed of 32 zero bytes. The rejection sampling of all of its 16 entries finishes (here: those with first index byte 1) within three blocks. The words of the Keccak states are literals, checked one permutation at
a time by running the model of the permutation in the kernel. Generated by a script. -/

namespace Verif.Proof
open Verif.Model Verif.Spec

def zeroS16 : List UInt64 := [0x0, 0x0, 0x0, 0x0, 0x1f0001, 0x0, 0x0, 0x0, 0x0, 0x0, 0x0, 0x0, 0x0, 0x0, 0x0, 0x0, 0x0, 0x0, 0x0, 0x0, 0x8000000000000000, 0x0, 0x0, 0x0, 0x0]

def zeroS17 : List UInt64 := [0x79b05a0c62d4b56d, 0xf3f26640cac6412a, 0x9ab4c27da766b4f9, 0xf0b2e09ce9d6b14e, 0x4870c96500fb5ce0, 0x4916c4b8a9837ed7, 0xf1ea046ed8a9a7b3, 0xda10351f7e8455bf, 0x79219f6304c3978c, 0xa1b52e0cefb55240, 0xf77eebc0de208499, 0x8fb8e559f254d584, 0x3ebb706c409178eb, 0xab98406922a9e835, 0xde9539202a05e0e8, 0x4a54290644944423, 0xab3ff2f7492d5104, 0x433d913953f483ec, 0x6560744f92eac603, 0xd3a9a223108dcaf0, 0x566da01401bc0fdc, 0xbf800c1932d86ed8, 0xaa881bb1bf537c3f, 0xfb0f5d026dcf7ca2, 0xe8ebabd26923233c]

theorem zero_perm12 : KF (laneBytes zeroS16) = laneBytes zeroS17 :=
  kf_lit rfl rfl (by decide +kernel)

def zeroS18 : List UInt64 := [0x3a32aca99dde32fe, 0x1322ca22af956da8, 0x6b1795ffbcd5c5b0, 0x53361763dc48fe05, 0x1660f6115b838437, 0xbe67c7f17c482e93, 0x79f12dd5c1f42d07, 0xdeabf4fe094f4e66, 0xdaa9e6001ab9c6f0, 0xcfcfe1a438bd60dc, 0xb2f34de860ad95fe, 0xc78893e7588c0bd9, 0x3a5a2f9794150416, 0x3410fa8597557525, 0x45d34044a10c245, 0xab632e6f5b3fcd6c, 0xab1835b2fee5c093, 0xa50c2dbfea4bf02d, 0xa0a3cba9309c2d5a, 0xb258026a383a5af1, 0x9a723ad34afa07b0, 0x2b5646d2eb97f3f1, 0x7de74d5de33b3a68, 0xf98cd2ce8c4c9209, 0x43366ac49ad5384f]

theorem zero_perm13 : KF (laneBytes zeroS17) = laneBytes zeroS18 :=
  kf_lit rfl rfl (by decide +kernel)

def zeroS19 : List UInt64 := [0xd9964ff70bddf264, 0xb4d1f842cfe20beb, 0x3005ffebb3a27dd7, 0x3d1b71c3c73fa3b4, 0x3b74f81f7b01a014, 0x9412a7d341ada663, 0x1aa2ceefaf7651e4, 0x71b48bcf49913076, 0x97fadba636089904, 0xa0a231efc51754c2, 0x6210e45e65fa92c8, 0x2c8005fd784df447, 0xe7586b94a1e89c24, 0x6098b95fa8067f9f, 0xe2f4b4025c6b9b51, 0xfe31b18b9b03d3f3, 0xe3c1a914baec73da, 0x25056b056d92f908, 0x155622163d79e8bb, 0xbc41ec1b803c5dee, 0x1f3451ec0430fcb1, 0xbe7bd4d9f48d4d85, 0x7beb2b610c8cb388, 0xb60fb18a68115e91, 0xb8fcedd6cb4e105c]

theorem zero_perm14 : KF (laneBytes zeroS18) = laneBytes zeroS19 :=
  kf_lit rfl rfl (by decide +kernel)

theorem zero_sample10 : (SampleNTT 168 (List.replicate 32 0 ++ [1, 0])).isSome := by
  refine sample_of_blocks ?_ ?_ zero_perm12 zero_perm13 zero_perm14 ?_ <;> decide +kernel

def zeroS20 : List UInt64 := [0x0, 0x0, 0x0, 0x0, 0x1f0101, 0x0, 0x0, 0x0, 0x0, 0x0, 0x0, 0x0, 0x0, 0x0, 0x0, 0x0, 0x0, 0x0, 0x0, 0x0, 0x8000000000000000, 0x0, 0x0, 0x0, 0x0]

def zeroS21 : List UInt64 := [0x93c0cf3127a4be50, 0xc71385236479407f, 0xf439f59cf527faf0, 0x2d76386d143d7437, 0x309acfa5996fa3dc, 0x515f0f5ebf3e59d1, 0x6ce1e238a31c447, 0x8b438c0cd6719153, 0xcb550fefb9411b7b, 0xd9010271697f7ce6, 0xaf6e1650140fa1b2, 0x642477e0fcaedb4b, 0xa55360f46c485e6d, 0xaae7a14d9f1d5c87, 0x95fd95f2f5d7d19f, 0x3c18ad0f94141a31, 0x1fd4025fafa200c1, 0x306177899a4b975f, 0xaceb6363b653b53b, 0xf56c0228c30ceb29, 0x1768e1a2a423ef30, 0x48b7d73a832d36da, 0x7108929cb7b86c76, 0xc158ecf2d47dd16c, 0x9b7aaa78f7120fbe]

theorem zero_perm15 : KF (laneBytes zeroS20) = laneBytes zeroS21 :=
  kf_lit rfl rfl (by decide +kernel)

def zeroS22 : List UInt64 := [0x11fa188198cc7abf, 0xa921d31289500325, 0x9f2cf7e0b56352bd, 0x4f48feef9e8b4804, 0x4548f654a5a810e1, 0xacd5d60382e11041, 0xe969332cc473b782, 0x2195a4ad9824da2d, 0xe6105780d567d909, 0xfd91a0f25ed51e2a, 0x1f30953de3997874, 0xc4c493774340f0a1, 0xbef827bddce67008, 0xde9ad166c5bb5bf3, 0x17f7910d27a92657, 0xba88aa01717024a3, 0x86cb61c142d05540, 0x30ed15f6d82c7990, 0x9b0fe061963f38e9, 0xe84057b672b6f1fc, 0x2473d6a87b3662a6, 0x3cf7fa63589bbaf0, 0x7958b5dbff3c23df, 0x2e83fe72133c1c64, 0x36db6c6dd41676b]

theorem zero_perm16 : KF (laneBytes zeroS21) = laneBytes zeroS22 :=
  kf_lit rfl rfl (by decide +kernel)

def zeroS23 : List UInt64 := [0x47ab8205ae079702, 0x66ad17c224b51e, 0x4f7979f74a41f4a5, 0x14f4a5eb7a5025ce, 0x31142a4055696243, 0xb9867a68ca385bea, 0x6ca35ea7b6803f76, 0xef522001d7ff7935, 0x86eca96dfcd1ffc1, 0xe7f28dec6e66f69f, 0x13f4d7a50e73a5c7, 0x14008d0ec0edddad, 0xfb5a910f258428c2, 0x1b15ea8bb51baf93, 0x44d878c12d97fa05, 0xb3c070e1c8c9eb02, 0x2a978239734ec180, 0x45286e24db2fb2db, 0xe155600b35f51ecc, 0x12f3bc7d32df1fa8, 0x189d4247a4385dd8, 0xcc87966c6849cce5, 0x8992c50408427f66, 0x5e19fff062e4d0b5, 0xf6700837348ffe4]

theorem zero_perm17 : KF (laneBytes zeroS22) = laneBytes zeroS23 :=
  kf_lit rfl rfl (by decide +kernel)

theorem zero_sample11 : (SampleNTT 168 (List.replicate 32 0 ++ [1, 1])).isSome := by
  refine sample_of_blocks ?_ ?_ zero_perm15 zero_perm16 zero_perm17 ?_ <;> decide +kernel

def zeroS24 : List UInt64 := [0x0, 0x0, 0x0, 0x0, 0x1f0201, 0x0, 0x0, 0x0, 0x0, 0x0, 0x0, 0x0, 0x0, 0x0, 0x0, 0x0, 0x0, 0x0, 0x0, 0x0, 0x8000000000000000, 0x0, 0x0, 0x0, 0x0]

def zeroS25 : List UInt64 := [0x88ab80907e6408a, 0x67d581e4fbe6a580, 0xb237d928ce12b610, 0xd5c47b5b774896da, 0xf86d2d4fe36b6c5a, 0x7130bab3d5bec7e6, 0x11b74f6446ab4d84, 0x8853c7f3e13060f3, 0x8d05171c7af6a264, 0xdd6070fbc8caebb8, 0x48230967ea3c11b8, 0x9781c602262c34cc, 0xc09df27ca6d702eb, 0x2d5f0da3d8e4ab40, 0x2c5dfa681631ab1d, 0x6fdac763e787f631, 0xd59ef6c9ba0b18aa, 0xce40fa3ea9e48c9b, 0x466fc559a2bf2b76, 0x1263f9c53ea1013b, 0x5c2ca1d2a7a9b071, 0x63ad49ca3f40a11b, 0x3912eb7d30e6bde8, 0xe597f0d9098a63fa, 0x256810a2e0bdebfb]

theorem zero_perm18 : KF (laneBytes zeroS24) = laneBytes zeroS25 :=
  kf_lit rfl rfl (by decide +kernel)

def zeroS26 : List UInt64 := [0xb07eeeb947d212f5, 0xfe6335a952454cee, 0x92de43670f6e237a, 0xeba5b35ce4d8aec2, 0x7d4d24671c87256a, 0xe8b3c4f78cb8bc59, 0xb9d6cbd91b2515b8, 0xee294186fb46b197, 0x871c585529c8a7ad, 0xc6d2ca5dd7560901, 0x7bff405f55e22914, 0x35bf79ecbb807faf, 0x653bba7a2fc52da4, 0x7bbada062dc5d7db, 0x110b920d39732373, 0xf4a211f4719c8ce8, 0xfe0ff8fdaac758ca, 0xc6d3151f52bfb6a4, 0xcfca9ad27f5f32bc, 0xaa7e7f15bba45948, 0x5b77823b9505281a, 0xea2ede6fa2a9f864, 0xf420319531f5269e, 0x243c0045a3449524, 0x4864a2c86248988b]

theorem zero_perm19 : KF (laneBytes zeroS25) = laneBytes zeroS26 :=
  kf_lit rfl rfl (by decide +kernel)

def zeroS27 : List UInt64 := [0xdb415190e4466b2e, 0x6cc771f5ac41a3ad, 0xcf404eab8a12f60f, 0x1832f8c5c91b3, 0xbc60b9224b116a70, 0xcfe0ef7fd8da0ec3, 0xe4505206585d6759, 0xdbd0348b09f43d11, 0xe17ef83a50c06028, 0xd580fdd2626f957c, 0x21093c53fc9aeb25, 0x66a86d83e9383614, 0xa8f6147dcaadc7ea, 0x811014d1ebfd3658, 0x1040f9a6f21afb31, 0xf82c963e5e04376d, 0x143d9cb2cbadc399, 0xf5de0465b0170469, 0x13dc83a88b8cfdee, 0x4e799929874b7ee2, 0xc73fb6455de791c4, 0x19fe290bddc9014a, 0x358adcc20bc5a3b8, 0x6f319522eaa20162, 0x163233127e01413e]

theorem zero_perm20 : KF (laneBytes zeroS26) = laneBytes zeroS27 :=
  kf_lit rfl rfl (by decide +kernel)

theorem zero_sample12 : (SampleNTT 168 (List.replicate 32 0 ++ [1, 2])).isSome := by
  refine sample_of_blocks ?_ ?_ zero_perm18 zero_perm19 zero_perm20 ?_ <;> decide +kernel

def zeroS28 : List UInt64 := [0x0, 0x0, 0x0, 0x0, 0x1f0301, 0x0, 0x0, 0x0, 0x0, 0x0, 0x0, 0x0, 0x0, 0x0, 0x0, 0x0, 0x0, 0x0, 0x0, 0x0, 0x8000000000000000, 0x0, 0x0, 0x0, 0x0]

def zeroS29 : List UInt64 := [0x3433f937f58cd5e8, 0x2e96e227068ba7d, 0x55e22b7b53ff75a, 0x24329f231374b1fb, 0x53d8ef39658d15e7, 0xa3dcf60fd2456545, 0x41df0094d5cdd5c, 0xd96d6dbf7f7dc54e, 0xb01b294b4a39756e, 0x274e87df190ae1f1, 0x221fc598999bd586, 0xf6765b84ff16cef3, 0xeb9dd3d9d953821f, 0xf10339ad804acf2b, 0x45be0f91eb2f47b3, 0x3e3489af11c4781f, 0x9d44a2cb4d157758, 0xf52b192426d8ee3f, 0x9c77f98c5aca09f0, 0x60ed7a3178c1f941, 0xfc3a5036a19fd4d0, 0xada3f00a3e48d651, 0xd3004bd19813cc85, 0x27ccfefe3a3c844, 0x4959f5324408e5de]

theorem zero_perm21 : KF (laneBytes zeroS28) = laneBytes zeroS29 :=
  kf_lit rfl rfl (by decide +kernel)

def zeroS30 : List UInt64 := [0xf90bb68e35e7db23, 0xb0839f2522fe9c75, 0x67a27e2a9ef61244, 0x368a29a86f7ced5d, 0x8c42aaa83804df96, 0x8f4aaa1e82626140, 0x5e6e84430e9bfc83, 0xfc73ff14fe8a8305, 0x34ff8e9de9e6d07d, 0xf281b31c1fe50fe7, 0x6276a3f1a784c0c1, 0xd07fafc6dc1a8b22, 0x473e7fc9bd530084, 0x1296c4c10cb05383, 0x1e42c3e134ddfaa7, 0x113a1b5ff283db1a, 0xf735986416e3c53f, 0x181d3b4dd30c5f00, 0xa656bd297389af20, 0x9d79ed98541a4e99, 0x21a696a377e2f79, 0x49cae1f23e9f71cc, 0x345791d82a5675e8, 0x8d3e6238069b37f1, 0xa5040c5ba27a968b]

theorem zero_perm22 : KF (laneBytes zeroS29) = laneBytes zeroS30 :=
  kf_lit rfl rfl (by decide +kernel)

def zeroS31 : List UInt64 := [0xffe688b5f004f611, 0xa395e91d630dc7aa, 0x3c7ebb3fb5a5a3e, 0x1aca65cfbb61143, 0x4092161fbcde9d39, 0x2b33fd842bab0754, 0xcbd179f455f5dc5d, 0xd95c1f5a334e7209, 0xcce729ffda1e4ed8, 0x412060d98f22c8b5, 0xcc35c6d428d42395, 0x2e57241e45545088, 0xdf10c986bfdbe1eb, 0x3f35cc94a528b975, 0x6af7d8775e31635d, 0xc01ccae93e579108, 0x19988cfa5dcd302, 0x3ab07205808b3a47, 0xa0f999a3411aae70, 0x26add2a9abc40a92, 0xe7f0f7ddf43d6e85, 0x5f4cd614d9ce616e, 0x4c0704542b9700bb, 0xa411cf4f8439dda3, 0x6a80e8f2cb6cbc04]

theorem zero_perm23 : KF (laneBytes zeroS30) = laneBytes zeroS31 :=
  kf_lit rfl rfl (by decide +kernel)

theorem zero_sample13 : (SampleNTT 168 (List.replicate 32 0 ++ [1, 3])).isSome := by
  refine sample_of_blocks ?_ ?_ zero_perm21 zero_perm22 zero_perm23 ?_ <;> decide +kernel

end Verif.Proof
