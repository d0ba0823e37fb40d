import Verif.Proof.ZeroSeed1

/-! # The matrix of the all-zero seed

test_speed.c measures `gen_matrix` on a seed of 32 zero bytes. The rejection sampling of all of its 16 entries finishes (here: those with first index byte 2) within three blocks. The words of the Keccak states are literals, checked one permutation at
a time by running the model of the permutation in the kernel. Generated by a script. -/

namespace Verif.Proof
open Verif.Model Verif.Spec

def zeroS32 : List UInt64 := [0x0, 0x0, 0x0, 0x0, 0x1f0002, 0x0, 0x0, 0x0, 0x0, 0x0, 0x0, 0x0, 0x0, 0x0, 0x0, 0x0, 0x0, 0x0, 0x0, 0x0, 0x8000000000000000, 0x0, 0x0, 0x0, 0x0]

def zeroS33 : List UInt64 := [0x6a4c822b61c2f7ef, 0x73ba16943c21857c, 0x895b6802a94a6757, 0x9b2442b1fdd80907, 0x4b69e48ae9083790, 0x6a52d193ad821b2, 0x1c282f1d378bf491, 0x3be0e0befffcc28e, 0xb24e51ded3631ecd, 0x839b0b4ecc8bf0bb, 0x1b32ec78c0a15374, 0x4cfb4527364c998a, 0x5f8673af9dbc0007, 0x1b2215a1a36435f6, 0x1773affce0d49869, 0x11fcc64f753e7a48, 0xf42952829f375850, 0xe8176b3acf32b94b, 0xa3e25825754f1e67, 0x6a01e1c5a7206e76, 0xa9efb29251321224, 0x35afb0c3fcf6f1bd, 0xee4b5f3bc9ae1345, 0x570b27df85b1bbee, 0x1243b63ab0a77d86]

theorem zero_perm24 : KF (laneBytes zeroS32) = laneBytes zeroS33 :=
  kf_lit rfl rfl (by decide +kernel)

def zeroS34 : List UInt64 := [0xbaaa47fbbd9197be, 0xa5139d3aa62e3ec5, 0x3b257e7819e2a6bf, 0xf0b0fa0dcaff5aa1, 0xe6ae3dc1f73f00a0, 0xf4a282e776ebb709, 0x80e6376c21064360, 0xccf97e04fc60a364, 0xe53c84f74d3bf6e0, 0x5f096f73f6bf2ab3, 0xf9a1760471cef948, 0xd27de4a2b7889841, 0x7baa3c504b2502a8, 0x68bad837018e6f92, 0x82ebdd7dba7961fe, 0x2072cc8a5fe2b844, 0xa439ff359ffdc71f, 0xf34e22c0ab3a7ebc, 0xbc261652df03489f, 0x3648524e546f05f2, 0xe0152dfef78c327f, 0x18fbf9130d13ee6a, 0x5cbd716fea68470e, 0xe6b45a336c0c2c60, 0x89d92f510456995a]

theorem zero_perm25 : KF (laneBytes zeroS33) = laneBytes zeroS34 :=
  kf_lit rfl rfl (by decide +kernel)

def zeroS35 : List UInt64 := [0x8b093813ce221a14, 0xc69f26e03c05cb56, 0x2e3df2169209dfcc, 0x5adcc40d5f470e7b, 0xb8ad7d838f355a5c, 0x58e340f3a370653f, 0xa3f8838f2e4947, 0x82512824f8f3f2b9, 0x72681df338b0295c, 0xe7aa9eca81489cae, 0xc11ae4b83cdd03cc, 0x9e709eca8fafa6a0, 0x7f8281a935b6ff55, 0x256bc78036bd0c97, 0xb75c1f5e1123930d, 0xcf6500ef1096e4e1, 0xf436d206696c53f2, 0xaf2aeebc831ff075, 0xf701550ae5da687c, 0xcb15adacb1a37fb4, 0x1ac367c903cd6aec, 0x2382d073f3506af4, 0x4d3aafd2b061c521, 0x54bd880639fed287, 0x76806476ba87ff62]

theorem zero_perm26 : KF (laneBytes zeroS34) = laneBytes zeroS35 :=
  kf_lit rfl rfl (by decide +kernel)

theorem zero_sample20 : (SampleNTT 168 (List.replicate 32 0 ++ [2, 0])).isSome := by
  refine sample_of_blocks ?_ ?_ zero_perm24 zero_perm25 zero_perm26 ?_ <;> decide +kernel

def zeroS36 : List UInt64 := [0x0, 0x0, 0x0, 0x0, 0x1f0102, 0x0, 0x0, 0x0, 0x0, 0x0, 0x0, 0x0, 0x0, 0x0, 0x0, 0x0, 0x0, 0x0, 0x0, 0x0, 0x8000000000000000, 0x0, 0x0, 0x0, 0x0]

def zeroS37 : List UInt64 := [0x15c05d63712918a7, 0x170c862467fd143, 0x39cfb4e34cfcb5c9, 0x2caca5ebf4621560, 0xcec909ccb7d79856, 0x3d6120a30d3c55c6, 0xa94e0f8c9ee226dc, 0x623f076c231ed068, 0x769513d5ba007d3f, 0x1a8b2724dca6bbb2, 0x2147f38efc0c9ff, 0xe0b6d1731f0e1199, 0x9b1f6834027e31a2, 0x175f82205d2cea89, 0x9b87eef8e81b08c4, 0xfa2f66d81335f25a, 0x739487f0ac833863, 0x11613194d030dff9, 0xcc2ef78833846644, 0xc74876ff95ebb91b, 0xf215bae75d595126, 0x79297f73608eff17, 0x1602742b0936dc09, 0xa09154ee64711e24, 0xeb4938967044aafe]

theorem zero_perm27 : KF (laneBytes zeroS36) = laneBytes zeroS37 :=
  kf_lit rfl rfl (by decide +kernel)

def zeroS38 : List UInt64 := [0xc7ef544dc9661cb2, 0x17c2ee5dbb4236cc, 0xd98b7cba7c522b75, 0x5ad2e60a8ac7503e, 0x70ea659180040bd2, 0x64deb656625c79b, 0x498bfa34b5b26c8f, 0xa5c9887e544bcc28, 0xcbcd837aaa604ff8, 0xc7c6d5815418aeb4, 0xc8944973799dfca3, 0x4cbfee3d9a7d0ee9, 0x6ccd46c03d1239ae, 0xc53a860d92c3a3d1, 0x5d9150af2bc693, 0x92ed12fb39f04e85, 0x30e1767e85bccdc8, 0x566dc37f39e1b90, 0x26ba9c79dff74379, 0xcc16a8325774ccc7, 0xaa2d4a965ee38798, 0x63f918b26495c537, 0x5d839b13a5bc10f, 0x84155153562c10ec, 0x9bdc3214c960e25b]

theorem zero_perm28 : KF (laneBytes zeroS37) = laneBytes zeroS38 :=
  kf_lit rfl rfl (by decide +kernel)

def zeroS39 : List UInt64 := [0x990898bc61e51b6c, 0x850355ffefc00537, 0x66f2ddb1a9d0aa77, 0xca8ceef7c77c5c57, 0x438f6c210a495439, 0x1f5340e1020cac29, 0x8f38cbab5faca15e, 0xd9f7f9c43899d0c6, 0x5ee1e3e78342fb3f, 0x7810c6229a4f7d42, 0x2d28e81984fa1d3f, 0x8791db6be5a175e2, 0x399dd126b006a153, 0xb3edf9500f593d3f, 0x55f7bcfe1aa1a2f, 0x18a2991464646ae2, 0x24c7edec4fd213a4, 0x60bc8517de0b1566, 0xcc2bf57b664cc858, 0xc57a252646b3c75c, 0x1b39428eb86eef1, 0x202aaab71ca25baf, 0xfa3d63acecdfe2cb, 0xde7509e61066b690, 0x24ce9d275e9edaed]

theorem zero_perm29 : KF (laneBytes zeroS38) = laneBytes zeroS39 :=
  kf_lit rfl rfl (by decide +kernel)

theorem zero_sample21 : (SampleNTT 168 (List.replicate 32 0 ++ [2, 1])).isSome := by
  refine sample_of_blocks ?_ ?_ zero_perm27 zero_perm28 zero_perm29 ?_ <;> decide +kernel

def zeroS40 : List UInt64 := [0x0, 0x0, 0x0, 0x0, 0x1f0202, 0x0, 0x0, 0x0, 0x0, 0x0, 0x0, 0x0, 0x0, 0x0, 0x0, 0x0, 0x0, 0x0, 0x0, 0x0, 0x8000000000000000, 0x0, 0x0, 0x0, 0x0]

def zeroS41 : List UInt64 := [0xde8ec8527a7f0cea, 0xd44d3d3aee442be2, 0x4d13a954d2d4d3d5, 0x25bec0591321b759, 0x9563c9534b65e7c1, 0xda25715d8c4aa1a9, 0x52170568b68d8169, 0xe4c191441f6c3c15, 0x7eab1b43d67ac9f3, 0xbf8f4de7cfcdaeb6, 0x66a311a21b5cdefb, 0x60fd3a74f34455d9, 0x656918d3ae97caa, 0xd21d5173e816e78f, 0xc054c246ea2696e4, 0x97fc6cbf35ce63c6, 0x384a3162ab257beb, 0x6c8cf3ccedb6a5db, 0x590ad9a6656dc394, 0x9659d57a3e8b69bf, 0x321b37627cb99e33, 0x3fc4f346ee07a7c3, 0x791ecb8b82721ac0, 0x5eb7664dd6fa3a74, 0x2f7b4f506799335]

theorem zero_perm30 : KF (laneBytes zeroS40) = laneBytes zeroS41 :=
  kf_lit rfl rfl (by decide +kernel)

def zeroS42 : List UInt64 := [0xad03e4fe9be73a99, 0x7b6ad745b84e8ac9, 0x3b65de915d209665, 0xbda4240eedbb168e, 0x6bcca4006bbb98cf, 0x77c406d5439810e2, 0x4d9c9d94a881a58, 0x40f3c8e1fd887d04, 0xcb053a8754c7aae, 0xb4e78224743b0fda, 0x78a634f0edc9a13e, 0x1cd8bc83f6b6cda2, 0xe1219ff59f269e29, 0x24fa6194a24fef95, 0xda1395121851f645, 0x30b6ee6a2c4ecf82, 0xc3577ffd57f5bd9d, 0x93c29e5f7a3fef4b, 0x39891b01b0fca6e9, 0xe5b0f7f57b82c4c6, 0xfa5b53fd5e361674, 0xae687b7cf61ea1d1, 0x716618ba271d7198, 0xcdcd635f5b1e0845, 0xd388765ee4f1215b]

theorem zero_perm31 : KF (laneBytes zeroS41) = laneBytes zeroS42 :=
  kf_lit rfl rfl (by decide +kernel)

def zeroS43 : List UInt64 := [0xf5240c5cc63738be, 0xc517071fb8123332, 0xc91d4efd62ab8b31, 0x6ef56c1569759b09, 0xc953c7e84fbc9966, 0x3100136e384026cc, 0xa85b9a1bcebc71e7, 0xdcb7556ecf2ecd08, 0x3dbc0c37b895f492, 0xc6586f6ff98cb9c, 0x81707fcaede2e0dc, 0x78ec55f4aee46124, 0x4f8bd46b254d9fe8, 0xd6c4b5ea4e61e134, 0xd49ce8ba3542638c, 0x480498d2844729f3, 0x48434614bdd0c4c3, 0x764110e5be0190a9, 0xeabf2cc36623e717, 0x3a2cf8854244069f, 0x796b5aa95eb0e50, 0xebac74593f40bdbf, 0xfa596e943c428398, 0x5f807b52c129bd3b, 0x948e492ee4b2e1ab]

theorem zero_perm32 : KF (laneBytes zeroS42) = laneBytes zeroS43 :=
  kf_lit rfl rfl (by decide +kernel)

theorem zero_sample22 : (SampleNTT 168 (List.replicate 32 0 ++ [2, 2])).isSome := by
  refine sample_of_blocks ?_ ?_ zero_perm30 zero_perm31 zero_perm32 ?_ <;> decide +kernel

def zeroS44 : List UInt64 := [0x0, 0x0, 0x0, 0x0, 0x1f0302, 0x0, 0x0, 0x0, 0x0, 0x0, 0x0, 0x0, 0x0, 0x0, 0x0, 0x0, 0x0, 0x0, 0x0, 0x0, 0x8000000000000000, 0x0, 0x0, 0x0, 0x0]

def zeroS45 : List UInt64 := [0xd09b4a4bf175d2ef, 0xf382c9961d858d4b, 0xee74f49ad32a6b70, 0x2676a964d3ab9b18, 0xe31453bb4cce0e74, 0x84a67082eb345915, 0x15c20f9b0b27376b, 0x4e161a1c7ef9bded, 0x9b29a187bc22c5af, 0xb635f52b416a5797, 0x9299183385960ca0, 0xec4826df2762c80a, 0x3cfe831d13c75f84, 0x10d6e3f47eb4353b, 0x93027a3f4a0b148d, 0x145da366ac4a14be, 0x7e69778579901875, 0x5bf72dc12cb30aac, 0xc162b600d18e38bc, 0xf84aa084b19d7b86, 0xed3c0800c0efad2e, 0xb3d07c85e92076d9, 0xbef721f497e991f6, 0xa88ac4e88d2660c5, 0x638a5abaee211534]

theorem zero_perm33 : KF (laneBytes zeroS44) = laneBytes zeroS45 :=
  kf_lit rfl rfl (by decide +kernel)

def zeroS46 : List UInt64 := [0x5737052334df95c, 0xf829afa7b850009, 0x2abcf6556a320f0d, 0xd3255a77a2e46e0b, 0x33b9c26539aef4d8, 0x3162e216d593218a, 0xa1f7c934431fd134, 0x2e8f017ddd3b653a, 0x21fca3c227f66241, 0xa8e500a3eb48dbb5, 0x224e7415745687b6, 0x3e3e9cf882c8f454, 0x65823cedcb67e1a3, 0x991657cb1c679e10, 0xb55987d8adf89591, 0xd8c1cf671f95eea1, 0x390ea7b084796698, 0xb005541952563d2f, 0x6ba7d81d3b2dc101, 0x7857547755bf52d2, 0xc44d195ac3dfaa19, 0x6b92c849afc2b04, 0x4c8ae3ef956e22c, 0x2b07f32790ad520e, 0x9c1cc381dc09ed01]

theorem zero_perm34 : KF (laneBytes zeroS45) = laneBytes zeroS46 :=
  kf_lit rfl rfl (by decide +kernel)

def zeroS47 : List UInt64 := [0xaa4913000fc858a5, 0x4743d9aae9f92e9e, 0x2c2a624b897c34a0, 0xccaca8e1eae26926, 0xffd7e222db9509ca, 0x22e8a25f344a5457, 0xb9e35ac53a4f1d09, 0x8a6cb9433b50bfd0, 0xa2ec27c7ed043a3d, 0xdbfed631ac7d979f, 0x735b94975e267e84, 0xdbc25bb187e921e8, 0x788a1358375d60de, 0xede2ff9f090017c2, 0x30d236c5c3e9dda0, 0xcc7f526250a3176c, 0x16786374263ae484, 0xa886e40b5be09e6e, 0x70eb725365743e8f, 0x556d250ae1fecbe1, 0x3ebae6cefcc27e48, 0xce5cefce77a40f7a, 0x99fc1c16ca052bec, 0x60970bab10edbd63, 0x195636be642b1161]

theorem zero_perm35 : KF (laneBytes zeroS46) = laneBytes zeroS47 :=
  kf_lit rfl rfl (by decide +kernel)

theorem zero_sample23 : (SampleNTT 168 (List.replicate 32 0 ++ [2, 3])).isSome := by
  refine sample_of_blocks ?_ ?_ zero_perm33 zero_perm34 zero_perm35 ?_ <;> decide +kernel

end Verif.Proof
