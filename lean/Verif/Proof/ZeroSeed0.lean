import Verif.Proof.KatLemmas

/-! # The matrix of the all-zero seed

test_speed.c measures `gen_matrix` on a seed of 32 zero bytes. The rejection sampling of all of its 16 entries finishes (here: those with first index byte 0) within three blocks. The words of the Keccak states are literals, checked one permutation at
a time by running the model of the permutation in the kernel. Generated by a script. -/

namespace Verif.Proof
open Verif.Model Verif.Spec

def zeroS0 : List UInt64 := [0x0, 0x0, 0x0, 0x0, 0x1f0000, 0x0, 0x0, 0x0, 0x0, 0x0, 0x0, 0x0, 0x0, 0x0, 0x0, 0x0, 0x0, 0x0, 0x0, 0x0, 0x8000000000000000, 0x0, 0x0, 0x0, 0x0]

def zeroS1 : List UInt64 := [0x154bc9b80d9df49, 0xedf5199a6accab4a, 0x72910219d957ad48, 0x5ec7c62a7889b601, 0xc72e342e10aaa96d, 0xb9c8b85564194d5f, 0x6a1659f7995f75bc, 0x15c7c0bc8a1a97ea, 0x46698b529e3dc9ef, 0xa07537606b11e056, 0x69fa9541b2aa95d5, 0x2c86c6c5a182652f, 0xdc85b102c5d209f4, 0xa4245b55825f1ff5, 0xbd474782d95b8939, 0xf90d9247f3c6c617, 0x995055084a5f3af7, 0x92cd3a9b517c899f, 0xbdea4be2d4916b7c, 0x648def0c50d851d, 0xe126437e2015c20f, 0x2951df802d043637, 0x43bbdf7981e93253, 0x4690a185050809ce, 0xaa9299ee33262ce1]

theorem zero_perm0 : KF (laneBytes zeroS0) = laneBytes zeroS1 :=
  kf_lit rfl rfl (by decide +kernel)

def zeroS2 : List UInt64 := [0x10a91fbf76a50348, 0x907fb5de713ea4c, 0xf038ac138ff473d3, 0x5cdc5749ba64351f, 0x159736384c1a12d, 0xe870c853629dfe1c, 0xb6ae72fa2352cda2, 0xaf572105c822addf, 0x9b61125a8fa5b8f1, 0x437a00742c690176, 0x5c1410bc5947d9bb, 0xfd41689707bff712, 0xe13d180b074ce295, 0xb12fdfada54baa94, 0x24490350ae3ab077, 0x1b9fbb0a15d9814b, 0x1cbdfda0885c1396, 0x712ebd666398cbb7, 0xa929834bc76c921a, 0xdd1f3480ac0a2c6a, 0x13ac54d5e229ffb3, 0x95c1ceed52fb5294, 0x933ba2f769f46f8a, 0xafee1283e79419a3, 0xe76b308335d85119]

theorem zero_perm1 : KF (laneBytes zeroS1) = laneBytes zeroS2 :=
  kf_lit rfl rfl (by decide +kernel)

def zeroS3 : List UInt64 := [0x50c77ef9d4979f34, 0x8eecd233b6ad977f, 0xc5591bb0d97309fa, 0x60fd9588a3d753c7, 0xecac1d795e957e78, 0xa64e1df9d0bc8665, 0x5a6e18f808543f36, 0x91fee4f248193a75, 0xb03b4a53f012d0ee, 0x2968101f3d54c826, 0x258e2188a87d643f, 0xcdaf4d9ded2c8ce6, 0x8b9360cd8a040df7, 0xa153bd2eb50c7b07, 0x7b37c7996c5e66d9, 0x2e0b6b9d6534771d, 0xc1c977bd7aa3df70, 0xb63be9dc9813163a, 0xc73c4b2938be743a, 0x7f892cee30eccc0, 0x52a8419291451cf5, 0x9695806b5c0a43a6, 0xf885b777f4cc674f, 0x4a29cf79505b4b53, 0x60e0f7c2a84b6279]

theorem zero_perm2 : KF (laneBytes zeroS2) = laneBytes zeroS3 :=
  kf_lit rfl rfl (by decide +kernel)

theorem zero_sample00 : (SampleNTT 168 (List.replicate 32 0 ++ [0, 0])).isSome := by
  refine sample_of_blocks ?_ ?_ zero_perm0 zero_perm1 zero_perm2 ?_ <;> decide +kernel

def zeroS4 : List UInt64 := [0x0, 0x0, 0x0, 0x0, 0x1f0100, 0x0, 0x0, 0x0, 0x0, 0x0, 0x0, 0x0, 0x0, 0x0, 0x0, 0x0, 0x0, 0x0, 0x0, 0x0, 0x8000000000000000, 0x0, 0x0, 0x0, 0x0]

def zeroS5 : List UInt64 := [0xf3df140df004dca4, 0x2d2675bfbf8ed797, 0x1d259b7a182780c5, 0x9cae3096507273ce, 0x292d559027ffca7e, 0x9a40f70930ee47f8, 0x836d5894470cccc6, 0xc350d5ccfc51243d, 0x1caa254c5d32c461, 0xd1f2d25f444b7f5c, 0xb20c40e9854be38b, 0xb5951893a46aa8bf, 0x5e9791ad77e04165, 0xb5a348977ad77d19, 0xe96cee9f6e3dae94, 0xc7bec606233b7929, 0x4697fa43e8b80ef9, 0xf96a11776b02c870, 0x99fdab0b67bc25f5, 0x1319216e9ee5e16, 0x6cd3890c54b88545, 0x32879059046e628d, 0xc89a1376d3549c6, 0x328428090b36fdec, 0x5ac7f6711f96cb70]

theorem zero_perm3 : KF (laneBytes zeroS4) = laneBytes zeroS5 :=
  kf_lit rfl rfl (by decide +kernel)

def zeroS6 : List UInt64 := [0x1d8aa159870dfcca, 0xf293d13ef395b62e, 0xb3c8f86db1b72a32, 0x852fd3ac27cb71d7, 0xe86105032e053ab1, 0xcc99656eb2bcd743, 0xdf78370a7e0cb136, 0x3fc19dc065cec64c, 0x26e738e156cb1636, 0x72606323a5ae433, 0x6a83dc0959c74a6a, 0x4d8be3846d21889b, 0xda8fc90675328fd, 0x5a9236d4bc97ef51, 0x148b1ca9238aebae, 0x794eb1ae7bc904d1, 0x3062d2e4bd03c260, 0x4e1fca5e0c91da6d, 0x4aa8607f612f57a0, 0x61316db6472564cd, 0x1231444ad259a21c, 0x54cf7ccf0b6ee7ca, 0xc11a5dd6d6590014, 0x72c453ccdae59580, 0xba48f885a2f4430a]

theorem zero_perm4 : KF (laneBytes zeroS5) = laneBytes zeroS6 :=
  kf_lit rfl rfl (by decide +kernel)

def zeroS7 : List UInt64 := [0x66bb617b224902c1, 0x6c56d298417215c2, 0xe466d6f178c9d212, 0x73cb5983b8994f49, 0x70af91e191385ad8, 0x96d970bfb19f5645, 0x85bb2d31b785ae4d, 0xad2cb274fdc26914, 0xa6bf8d722ff03f74, 0x14a2693d67c2932a, 0x2bcfde3b2479b8e7, 0x867a00a3dcecbd00, 0x4be9be19f4972b60, 0x37f55e32ab8e4535, 0x697e889945ba8711, 0x3dc5d6719beb1cd9, 0xcecfc3d41e63b6, 0xfa2c8b7e4eeb8be1, 0xe88d3eeb2f2ecf36, 0x71b2f901c00ccc0, 0x569a3c985f706313, 0xfc75d977395f3db9, 0x300419c7efaacd33, 0x27424e3f447d73d9, 0x88e6ac38d13b5604]

theorem zero_perm5 : KF (laneBytes zeroS6) = laneBytes zeroS7 :=
  kf_lit rfl rfl (by decide +kernel)

theorem zero_sample01 : (SampleNTT 168 (List.replicate 32 0 ++ [0, 1])).isSome := by
  refine sample_of_blocks ?_ ?_ zero_perm3 zero_perm4 zero_perm5 ?_ <;> decide +kernel

def zeroS8 : List UInt64 := [0x0, 0x0, 0x0, 0x0, 0x1f0200, 0x0, 0x0, 0x0, 0x0, 0x0, 0x0, 0x0, 0x0, 0x0, 0x0, 0x0, 0x0, 0x0, 0x0, 0x0, 0x8000000000000000, 0x0, 0x0, 0x0, 0x0]

def zeroS9 : List UInt64 := [0x978e5dd7423ce9c4, 0xd0fc4bc23540edbe, 0xd9ad58786989a9c7, 0x359211a2cc97962f, 0x729a918e4ae4cbb7, 0xf11d5c673a3829af, 0xf1f783673ca76876, 0x9135601e0cdb79f0, 0xff40096b5571e236, 0x4c31008efa5cb5a0, 0xfe1a1e90526d5e, 0x2666ac85c3125325, 0x7e9adda4280445d8, 0xcd45e065ee3d7d2d, 0x5898607fd23c777b, 0xbf87975c5fd6cf20, 0xf2eb0324cc316285, 0x8c28ee2d429e5242, 0xcca11df1a65df963, 0xebb19e5bfbf6ddf0, 0xfaba82408f1d323a, 0x678cc736797ae279, 0xc2f7d80859dd6b41, 0xa87effebeb91674a, 0xa189ed621336b1e5]

theorem zero_perm6 : KF (laneBytes zeroS8) = laneBytes zeroS9 :=
  kf_lit rfl rfl (by decide +kernel)

def zeroS10 : List UInt64 := [0xd1873419efd3b4e4, 0x1e3d590ee6ebca44, 0xf504780214bf6268, 0x37cc3f2a9927f2fa, 0xd28e61272d3894ef, 0xef5bdf45a800c7fe, 0xe5ca14b9c8a11bf9, 0x9ff8dfaa9d585aa2, 0x582c6f9491c4f0f4, 0xcd9af7ada643451e, 0xc897c0d2204648f1, 0x626e8b5a288cc1a8, 0xa2312db349dfb41a, 0x316c06e63dec723d, 0x671e09d8d662f6c6, 0xf7733cba36d49c19, 0xee1c189857985ebe, 0xd845848b6397a188, 0xf868d6efe3163b1b, 0xb5acf97de81cc277, 0x3bcd6a0a3535c5b0, 0x67a66426e63606c9, 0x124ff8ae2b36afc7, 0x675401c42b10dca2, 0x2a9e88ce3743f500]

theorem zero_perm7 : KF (laneBytes zeroS9) = laneBytes zeroS10 :=
  kf_lit rfl rfl (by decide +kernel)

def zeroS11 : List UInt64 := [0xd2aa620ad8845250, 0x41830316e599275d, 0x4e03f177b6c84a51, 0x5ad3f70c1e58ab2f, 0x650349fa29c45dcd, 0x976162d762a1510e, 0xb697c80f94663130, 0x85254b830436da97, 0x8746c4ad858bfbfb, 0xe3f5996922cf5f70, 0x610316f95376805a, 0xc214a8abe8aa532a, 0xb2c1bca3dbeef7a8, 0x2be183e7f3e571e6, 0x637805981a048f84, 0x4467db6e8678daae, 0xfae07d69c07fba73, 0xecac2ba14c141fc5, 0xfa92857bb7388b37, 0xe285cafc93fe2eba, 0x1a28da53fa864c50, 0xe7b00874c22031c5, 0x9698f62b2c6962c5, 0x3a08b77cd184581c, 0x326b0d2eac14f47c]

theorem zero_perm8 : KF (laneBytes zeroS10) = laneBytes zeroS11 :=
  kf_lit rfl rfl (by decide +kernel)

theorem zero_sample02 : (SampleNTT 168 (List.replicate 32 0 ++ [0, 2])).isSome := by
  refine sample_of_blocks ?_ ?_ zero_perm6 zero_perm7 zero_perm8 ?_ <;> decide +kernel

def zeroS12 : List UInt64 := [0x0, 0x0, 0x0, 0x0, 0x1f0300, 0x0, 0x0, 0x0, 0x0, 0x0, 0x0, 0x0, 0x0, 0x0, 0x0, 0x0, 0x0, 0x0, 0x0, 0x0, 0x8000000000000000, 0x0, 0x0, 0x0, 0x0]

def zeroS13 : List UInt64 := [0x54e52175322ccc9f, 0xe5ad1c44e73cf6ce, 0x64299bbd1d9a233c, 0xfd86104cd671aa82, 0xe8b5d44ac84a961f, 0x4d77e88f05e7c5bb, 0x7bc6015575ea3cc8, 0xe96614c2ee1f5959, 0x7a2cfd74f2db70a, 0x1be4604c7c2543a5, 0x980fe249e635b1a1, 0xf474c5d76496fcfe, 0x684e068b34691d0f, 0x57e15ca8dca22044, 0x8528d7e2d4fccdad, 0x9dbf17de0d604e71, 0x40b3359c16b7093d, 0x36651354fdf21493, 0x11c295d06c5a2a16, 0x9e6be8664e1f82c, 0x9419dcb71a7c461e, 0xdfe525251e8e3f43, 0x51925aca5f95e4fc, 0xf4e2b15c10b39cdf, 0xf58ae13d0a8688e5]

theorem zero_perm9 : KF (laneBytes zeroS12) = laneBytes zeroS13 :=
  kf_lit rfl rfl (by decide +kernel)

def zeroS14 : List UInt64 := [0xfbe852ef1e439a2d, 0xd78a7299141cc1e6, 0xe57a21a064f5ef4a, 0xd21802a2faaca486, 0x58102309581615a3, 0x36c34bb0620b6172, 0xc8dbf201be5e8b97, 0xb9cda6d5a37c19e6, 0x36edbfa514637915, 0x2578f079be501da2, 0xf6c39382d0f62b27, 0x7a8148b285154df6, 0x2c5cec3929652a5d, 0xdf87e2671879d54e, 0x1b107a6c027a1180, 0x3f49013fae6c0a79, 0x9c3254346d0c328f, 0x3886487810307e7a, 0x343c9ab291bc48b7, 0x137f063f70df4be3, 0x3ffe0dc924244d6c, 0xbfe835b98e7ef4ea, 0xb81eb9914783d552, 0xa8cdbb876ecf1a08, 0xc277aed17d530804]

theorem zero_perm10 : KF (laneBytes zeroS13) = laneBytes zeroS14 :=
  kf_lit rfl rfl (by decide +kernel)

def zeroS15 : List UInt64 := [0xeb7b31135ed7bfee, 0x393beb5f622f929e, 0x622a0023ee9ca6d5, 0xa65e2ac8d2911e2e, 0xd14157bb867df738, 0x7a571c1d5e807f28, 0xf3739b77cc03cd36, 0xcace34e70173b99f, 0xcb528c66e1a8e56b, 0x2001f9f312329ace, 0xf1b156abe936209b, 0xc8086f9434a4ff8d, 0x427faef5f3c176b9, 0x271e1084b7ff10aa, 0x88c12688056ffb2a, 0xe6fe495a1932f384, 0x3c7212c6376dcfed, 0xac44fea454d415a2, 0x3e9d6c4107b44d5c, 0x33d47df9642c0bf9, 0xf02c35a4239d2f41, 0xe5ac7accf60d2bac, 0xf9995c79d31d87d4, 0xeb16ceceb2c38901, 0x347748b2030c3327]

theorem zero_perm11 : KF (laneBytes zeroS14) = laneBytes zeroS15 :=
  kf_lit rfl rfl (by decide +kernel)

theorem zero_sample03 : (SampleNTT 168 (List.replicate 32 0 ++ [0, 3])).isSome := by
  refine sample_of_blocks ?_ ?_ zero_perm9 zero_perm10 zero_perm11 ?_ <;> decide +kernel

end Verif.Proof
