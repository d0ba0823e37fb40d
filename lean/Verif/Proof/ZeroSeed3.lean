import Verif.Proof.ZeroSeed2

/-! # The matrix of the all-zero seed

test_speed.c measures `gen_matrix` on a seed of 32 zero bytes. The rejection sampling of all of its 16 entries finishes (here: those with first index byte 3) within three blocks. The words of the Keccak states are literals, checked one permutation at
a time by running the model of the permutation in the kernel. Generated by a script. -/

namespace Verif.Proof
open Verif.Model Verif.Spec

def zeroS48 : List UInt64 := [0x0, 0x0, 0x0, 0x0, 0x1f0003, 0x0, 0x0, 0x0, 0x0, 0x0, 0x0, 0x0, 0x0, 0x0, 0x0, 0x0, 0x0, 0x0, 0x0, 0x0, 0x8000000000000000, 0x0, 0x0, 0x0, 0x0]

def zeroS49 : List UInt64 := [0xf66519cd039a9753, 0x6304546f4b544366, 0x35198d064aba4bdb, 0xc55823b94d393905, 0x7eda069959a1fe16, 0xa2bfb06a1e182047, 0xf78d3034e4eab17b, 0xdfa6c1caf0259aa5, 0xe4019f8c5e300b65, 0x774c313e5cb5f735, 0xaa09dd6f5404d731, 0xa3f73487eadc0b82, 0xc46b28b9769ddabe, 0xa7af2c6b8d2d712b, 0xadb7350f31f6f524, 0x4fe182621628f0b6, 0xfa96328f62ace126, 0xb116091a9f8f320d, 0x5d21a2e086c27b33, 0x894a21efc00bfc7a, 0xd9b4245dbad55ca1, 0xed3ec8420cdb7dda, 0xf5547e35482bd9d5, 0xc60eaab91550f43d, 0x19bf1ecbb7dc4ead]

theorem zero_perm36 : KF (laneBytes zeroS48) = laneBytes zeroS49 :=
  kf_lit rfl rfl (by decide +kernel)

def zeroS50 : List UInt64 := [0x1dbbb72d5a787a1a, 0xf0dc700861ef96c3, 0xfc0790fea307e5e4, 0x1bf4878b6f3c212d, 0x3053eae8be18c315, 0x9e96037f523fabc3, 0x1679473a299fdf4e, 0xa40bc6f8b96168b7, 0xb523ca842aaaeb1c, 0xb73e4e998376fd7e, 0xbe2dc0cc702d40c1, 0x3173e9eaadac9978, 0xdba664e371b66fe9, 0x2fdea8e4b39c1120, 0x6c8e018ab8556d65, 0x833eb2a4d75d5f14, 0xa4fa82e56289b8cd, 0x4cb548244adc1fda, 0xa94ea79fd4734442, 0x40021820017dc354, 0xf1596f4a9ae3379d, 0x46a0761e216268ab, 0xfd7f0b7aeab86e73, 0x674bd90a7f9184a2, 0x324d9050b3644b78]

theorem zero_perm37 : KF (laneBytes zeroS49) = laneBytes zeroS50 :=
  kf_lit rfl rfl (by decide +kernel)

def zeroS51 : List UInt64 := [0xbf6630ae4bc547c9, 0x44397197c1c6f73c, 0xf3c5bf6fe45d0d77, 0x5f515b5255f0966c, 0xf6b6a3bc78bd455, 0xb9c68d14d960e76f, 0x7606040d277fe522, 0x6bf2c6672de2e929, 0x769829422fd8f652, 0xa277998f7d774b78, 0xdb46ea9340919717, 0xb72befe8ebeb1b74, 0xe1477708f970124e, 0x319c54309ad5e0ad, 0x1661c93c54826650, 0xf7008e80ab4c0e9f, 0xbcb3b976b447fcae, 0x9d55c8dcf2e52447, 0x8afe942878728485, 0xd945f80f340c121e, 0x6cc803931127e10e, 0xfbfbc898d2388ad7, 0xbacedab85ed1b3de, 0xb5b3892ee4c3274, 0xd3966708293ad9f8]

theorem zero_perm38 : KF (laneBytes zeroS50) = laneBytes zeroS51 :=
  kf_lit rfl rfl (by decide +kernel)

theorem zero_sample30 : (SampleNTT 168 (List.replicate 32 0 ++ [3, 0])).isSome := by
  refine sample_of_blocks ?_ ?_ zero_perm36 zero_perm37 zero_perm38 ?_ <;> decide +kernel

def zeroS52 : List UInt64 := [0x0, 0x0, 0x0, 0x0, 0x1f0103, 0x0, 0x0, 0x0, 0x0, 0x0, 0x0, 0x0, 0x0, 0x0, 0x0, 0x0, 0x0, 0x0, 0x0, 0x0, 0x8000000000000000, 0x0, 0x0, 0x0, 0x0]

def zeroS53 : List UInt64 := [0x83c73a351fea90ea, 0x53ee66577be319e8, 0x1ddb6186b244ae83, 0xcee83a01c27c85f1, 0x74fbb5459ffe8adc, 0x2908b9f3b7d527b8, 0xfda177191ec19216, 0xd35b33f21fa7af61, 0x6de102ea1b9bcc64, 0x9f4b6d1bcd3f814b, 0x435e847fa627b783, 0x36da58c9e3bc11a4, 0x6f331f36420b1d1f, 0xe970f1fcc7645fc9, 0x791e1a4403bb72a, 0x3d70a38a8a88feac, 0xd8b70baf028c81c7, 0x3170b7ba646c1c4, 0x7e7136174fa8b9c3, 0x1c6ddd9788a2cc08, 0x3781decc7827d9c0, 0x5f8271980348d21b, 0x87e81a6e430a3be6, 0xf03e02818bb891e8, 0x2cbadaf0ba341412]

theorem zero_perm39 : KF (laneBytes zeroS52) = laneBytes zeroS53 :=
  kf_lit rfl rfl (by decide +kernel)

def zeroS54 : List UInt64 := [0xdf089bc1167f1956, 0xf45bb9efa23f478, 0x83b783b61f66ca6, 0x6040b679748aa11f, 0xd7dda7455120d04b, 0x133201190e667062, 0x21f930a51ff650c6, 0x90391d3c1f4b53e3, 0x154187242f952b30, 0xdefdddb699f331e1, 0x3d065266eb9ffa58, 0x5cde2b68c5be8a62, 0xb28a440672f3fe5d, 0x381b09bdf3f43a8d, 0xe49c7a058a5075aa, 0xa4b10f54fd27e8d3, 0xe4d52c3336f089df, 0x57a3b54d479b0542, 0x522efd829db897c4, 0xeead0c136f53fa43, 0x15aa62ce0370a4c, 0x1aa7b9a3a974cfa, 0xa995773b4c0ca6b1, 0xd02b6038688994dd, 0xa646c7df07203f44]

theorem zero_perm40 : KF (laneBytes zeroS53) = laneBytes zeroS54 :=
  kf_lit rfl rfl (by decide +kernel)

def zeroS55 : List UInt64 := [0xed67d8039cb34c27, 0x52906d1245180306, 0xe29b0aaf83c3df39, 0x592eff015c12877e, 0xbc4376a9291565a9, 0x6ad0842c4b4676da, 0x5b2d6c06ea7c767d, 0x9c6496c8636a1df8, 0xba9618a2680aed14, 0xe1d9ff4c7c02f926, 0xef53f58c8151c864, 0x9b35776fb3733d8d, 0x87e289a43011f6f3, 0x7667ff95f0480031, 0x1539e452be17b87a, 0xd0a2779c676ee9f3, 0xeaadfd466325f80d, 0x494d01b0735cfef7, 0xf0f2527a5363188e, 0x5c95544f84e21c2a, 0x2c77bef84cf1cfac, 0x36ad4f30f11ca5eb, 0xf84d7c8cd8e8deb4, 0x382bd2aeed29c2ff, 0x94944a40da8eb8bf]

theorem zero_perm41 : KF (laneBytes zeroS54) = laneBytes zeroS55 :=
  kf_lit rfl rfl (by decide +kernel)

theorem zero_sample31 : (SampleNTT 168 (List.replicate 32 0 ++ [3, 1])).isSome := by
  refine sample_of_blocks ?_ ?_ zero_perm39 zero_perm40 zero_perm41 ?_ <;> decide +kernel

def zeroS56 : List UInt64 := [0x0, 0x0, 0x0, 0x0, 0x1f0203, 0x0, 0x0, 0x0, 0x0, 0x0, 0x0, 0x0, 0x0, 0x0, 0x0, 0x0, 0x0, 0x0, 0x0, 0x0, 0x8000000000000000, 0x0, 0x0, 0x0, 0x0]

def zeroS57 : List UInt64 := [0x705e11b48ebc7b7c, 0x5b88465dac619571, 0x13fa3d5ee10b3581, 0x41534727b0a24854, 0x98c6a653bc564ccc, 0x909bf65958eb535e, 0x962b78afa575ed39, 0xc6f2e6b25f41303a, 0x6e37c16edd944675, 0x6dd2a3cfe1e419ae, 0xc278688fdada49e2, 0xe2c46b4cd3c0cf89, 0xf68cb199998df72a, 0xf81e335636fd3ee, 0xd4cee0bdf85eac28, 0xdc1a5828bf22a7af, 0x3ae9a608b24e8fcf, 0x85565950b3cd6112, 0xb49985535c833bb9, 0xe5bcd9afe226a9c8, 0x4dadd1352278d205, 0x1642a910a22c32d7, 0x14413cff5b0a627e, 0x67ff6238ef54a443, 0x6fbf132d65432373]

theorem zero_perm42 : KF (laneBytes zeroS56) = laneBytes zeroS57 :=
  kf_lit rfl rfl (by decide +kernel)

def zeroS58 : List UInt64 := [0x356b163075916395, 0x8057466a92f928f7, 0x6b0c8c1603473b3, 0xff39dba3a3fe3e20, 0xad8a16fd584ab7c6, 0xd768be4c3838c381, 0xcf2d36f0a5b4acee, 0x56b20d318af6756a, 0x39728d9e5115e6f4, 0x7d2e7a8f82efc9e6, 0x88a4eb479da280eb, 0x326d1e305ea85b46, 0xaf61b62a250be421, 0xba6e79668436a368, 0xd569544ec8802e00, 0xee72b545117b0a3e, 0x48c2c9cf924e4751, 0xa8ad52779238c27d, 0x44bdadde9c0770c, 0x691aa4e65f9bb767, 0x3eebd17c56c40a13, 0x4f9d6288154959ae, 0xdbd376a997765a9, 0xd5be93bb4123e2cc, 0x14d832254cc2a2f9]

theorem zero_perm43 : KF (laneBytes zeroS57) = laneBytes zeroS58 :=
  kf_lit rfl rfl (by decide +kernel)

def zeroS59 : List UInt64 := [0xf9016bdaa17122fc, 0x3b8e576e81ae6492, 0x6fbeab04bb3d944f, 0x719120a1a030bc49, 0x94aacee41a6fa8f2, 0xda3eeadc15ff3c57, 0x3cba0b5b187ed306, 0x726170b8735aee97, 0x8846061a8c045760, 0x41d74a1d6990824f, 0x71f91e8521fa0e3c, 0xffd348e1b2cdda72, 0x2218d3666d4fad8c, 0xc514d613d4cb56a0, 0x46a4c7242d9e4752, 0x3bba10af61d13418, 0x97cc1f8b7df3f030, 0x5d7e497c63891b3f, 0x7db796e3ecf82010, 0x1dafaf5531701b39, 0x5a3a4730206ef297, 0xdc9049b9f691596d, 0xad6374393a4513dc, 0x8bf6d102bab0b4ab, 0x9929b04fa62ab462]

theorem zero_perm44 : KF (laneBytes zeroS58) = laneBytes zeroS59 :=
  kf_lit rfl rfl (by decide +kernel)

theorem zero_sample32 : (SampleNTT 168 (List.replicate 32 0 ++ [3, 2])).isSome := by
  refine sample_of_blocks ?_ ?_ zero_perm42 zero_perm43 zero_perm44 ?_ <;> decide +kernel

def zeroS60 : List UInt64 := [0x0, 0x0, 0x0, 0x0, 0x1f0303, 0x0, 0x0, 0x0, 0x0, 0x0, 0x0, 0x0, 0x0, 0x0, 0x0, 0x0, 0x0, 0x0, 0x0, 0x0, 0x8000000000000000, 0x0, 0x0, 0x0, 0x0]

def zeroS61 : List UInt64 := [0x3517b221d88b1b09, 0xde1fb03baa1dea28, 0xe6a3f7fa5a0be3a9, 0xe2c30d93309e82b3, 0x394ac0aadb620312, 0x3345fbe7af4bd9f8, 0x44bd7fb5088d0cb4, 0x125229073ff1ceba, 0x1bad8f8ac0d32799, 0xcb658ffb58cce865, 0x4e3ebac5bdc5b021, 0xbc4285b2418936aa, 0xef136898e7b35e52, 0x84ba620c045992c4, 0xc7a60a13dc17d5fd, 0xe9b1ac0c6ef3cf24, 0xa2aa805d2c7e450e, 0x3248906cc252b98c, 0x438005a371eca7f4, 0xdb0f2f8ad307c38c, 0x998fcc123ab5f71f, 0x6fedc96d1ed7293d, 0xc5b557950b2fd012, 0xa8b3c51c77b2460a, 0x475d5823a36a979f]

theorem zero_perm45 : KF (laneBytes zeroS60) = laneBytes zeroS61 :=
  kf_lit rfl rfl (by decide +kernel)

def zeroS62 : List UInt64 := [0x1ef3e3300161cf99, 0xf66bc56e06130389, 0x83d39a5c8afa7dac, 0x8b213ff9a966b0fd, 0xfb630c86aeabe37, 0x34d920ffec023e35, 0x7620e3973632b695, 0xcbd36ea3b9265b46, 0xd6a9913538f9e651, 0x6c98812eee83a41, 0xd1691e8e92f9b685, 0x1fbb7726036605cd, 0x66f103ebe9177aff, 0xe0d95d891a294ad5, 0xed0d365670530265, 0x33dc944407038919, 0x796b92a7ffef168e, 0xb02b910fb4ad729c, 0x1b38fea6096a82cc, 0x54ad24dd2c3fc51b, 0x254b9fcbc0812ea3, 0x7653d186880d21c5, 0x62d14355f412172e, 0xd15e60497b01fb84, 0xf295c6a8933d1679]

theorem zero_perm46 : KF (laneBytes zeroS61) = laneBytes zeroS62 :=
  kf_lit rfl rfl (by decide +kernel)

def zeroS63 : List UInt64 := [0xf80f2808ac6a651a, 0x8b783ce34dd9d24e, 0xffde81d0c6fd1f16, 0x597ea218b83ea715, 0xbc826571f48148a4, 0xb24606da6dcae6a5, 0x8e44f7a1edb3500b, 0xfe2440c343c3d92c, 0x68094afa706f88f1, 0x660c5051a04e4ab3, 0xe7e6393e19a9f6e4, 0xeef6d53f4fe9e22c, 0xa65fbf74ddbf902a, 0x623dbd5f2afb3f37, 0xfb5a4ff844046102, 0x77ab30641317a1b7, 0x6d0fbcf168ef358a, 0xcd7370d0cf9849ca, 0x43b69cc4036bb185, 0xbb2ed1f6fe3251cd, 0xd8de5e717194b3da, 0xd04e1a943a1b11d0, 0x8b771e686496a142, 0x94c0b4debd970453, 0x5c599b6297f5ffc8]

theorem zero_perm47 : KF (laneBytes zeroS62) = laneBytes zeroS63 :=
  kf_lit rfl rfl (by decide +kernel)

theorem zero_sample33 : (SampleNTT 168 (List.replicate 32 0 ++ [3, 3])).isSome := by
  refine sample_of_blocks ?_ ?_ zero_perm45 zero_perm46 zero_perm47 ?_ <;> decide +kernel

end Verif.Proof
