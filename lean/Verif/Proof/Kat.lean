import Verif.Proof.Correct
import Verif.Proof.KatLemmas

/-! # A concrete key (ML-KEM-512, d = 0)

The rejection sampling of the matrix finishes for the seed obtained from 32 zero bytes. The words of the Keccak states are literals, checked one permutation at a time by
running the model of the permutation in the kernel. Generated by a script. -/

namespace Verif.Proof
open Verif.Model Verif.Spec

def katS0 : List UInt64 := [0x0, 0x0, 0x0, 0x0, 0x602, 0x0, 0x0, 0x0, 0x8000000000000000, 0x0, 0x0, 0x0, 0x0, 0x0, 0x0, 0x0, 0x0, 0x0, 0x0, 0x0, 0x0, 0x0, 0x0, 0x0, 0x0]

def katS1 : List UInt64 := [0xdf09e9854af60a6a, 0xe3b4205d6016288e, 0x5f3abf61bb0bb382, 0xe7d39aba5d0b1a82, 0xb6863babe9d367e3, 0x405d81f88baa3042, 0xce56d9e9f919f88e, 0x3a9eaa8ef6c2bb22, 0xce6d4df8006ddf87, 0xf0c67cca52794bf6, 0xf6373194163ecaad, 0xf8729e7f7217575c, 0xd52ce51b8a200021, 0xddc09ebc7014e446, 0x8849fb78a9cb2a40, 0xcd2b9198857478d2, 0x2b54714bce0c39b5, 0x865b33aa1dca3a5, 0x1f6614edf9a75e5d, 0x6dff97b4e0ae7f2c, 0x34a1eaa7bd00c7c9, 0xc3a98a62929d9939, 0x78da20a5dcd06f03, 0xcee9cfbe00e34fcb, 0xfeb87c28fce03f3c]

theorem kat_perm0 : KF (laneBytes katS0) = laneBytes katS1 :=
  kf_lit rfl rfl (by decide +kernel)

def katIn : List UInt8 := List.replicate 32 0 ++ [2]

/-- ρ for d = 0, k = 2. -/
def katRho : List UInt8 := [106, 10, 246, 74, 133, 233, 9, 223, 142, 40, 22, 96, 93, 32, 180, 227, 130, 179, 11, 187, 97, 191, 58, 95, 130, 26, 11, 93, 186, 154, 211, 231]

theorem kat_rho : (G katIn).1 = katRho := by
  unfold G
  dsimp only
  rw [SHA3_512_eq, padded_lt (by decide), show xorBytes (xorBytes (List.replicate 200 0) 0 katIn) katIn.length (padB 72 katIn.length 0x06) = laneBytes katS0 by decide +kernel,
    kout_one (by omega), kat_perm0]
  decide +kernel

def katS2 : List UInt64 := [0xdf09e9854af60a6a, 0xe3b4205d6016288e, 0x5f3abf61bb0bb382, 0xe7d39aba5d0b1a82, 0x1f0000, 0x0, 0x0, 0x0, 0x0, 0x0, 0x0, 0x0, 0x0, 0x0, 0x0, 0x0, 0x0, 0x0, 0x0, 0x0, 0x8000000000000000, 0x0, 0x0, 0x0, 0x0]

def katS3 : List UInt64 := [0x72359b3da0da2903, 0x469a03b2a0c507f2, 0x8a38212edabed549, 0x691e93bee9328bb1, 0x4f9a5cb427bb30e0, 0xb8c5a60a0ee1967c, 0xfd1a3b269cf7a5ba, 0xa1df213e7945edac, 0x5f7998eef62161cc, 0x8325134ac97b27d2, 0x44f1460f3722e2c7, 0xf75989e3abd7c9d2, 0xd6fa61009fbddf2f, 0x842e28142296ce39, 0xcb91962f9307918, 0x20a0e28f8a67b50a, 0x493726feac1cf7a, 0xb716fbc0f58abb74, 0x3669636b8607b814, 0xeb85ce39db8f830e, 0xce7a3cb9146ac024, 0x98cba11d943d72a8, 0x22602b43f0a9888e, 0xed5411560c440533, 0xa8012c4d18b6d7d7]

theorem kat_perm1 : KF (laneBytes katS2) = laneBytes katS3 :=
  kf_lit rfl rfl (by decide +kernel)

def katS4 : List UInt64 := [0x61e1dea35550b46e, 0x2ce0f48d2c51c0bd, 0xf692dc2756143f2, 0x80715d4de059af82, 0x865a1d1c13440215, 0xaeb2647f63bbddda, 0x43e575eddf0e0d8f, 0x1aad9238cf0c9cd5, 0x37a34203975c6742, 0xc0154c54a5b7c4f5, 0x7b3520798b855365, 0x3b02f755e269bd77, 0x1e0fb454d9c86292, 0x226c95b94ae7898, 0x71ce34ae70652664, 0xde927a726d3f8bf4, 0x12c0c5a8e623898c, 0x136e655344507b7e, 0x9ef4ad9091b52122, 0xc98bfa8be21e1f7, 0x66bce678fd0090fb, 0x82eee64dd0e40363, 0x7a89e370cf503604, 0xeda29ace2109c7c4, 0x6575a3ae11094315]

theorem kat_perm2 : KF (laneBytes katS3) = laneBytes katS4 :=
  kf_lit rfl rfl (by decide +kernel)

def katS5 : List UInt64 := [0x6883733f33a548d4, 0x8b83947b489f3aaa, 0x9f433afed9d3c5d4, 0xc176d237146a10d1, 0xbdf9ca6bba111db7, 0x1e3c86f53a74d820, 0xb370d5a087f0ceaa, 0x5b6c70aa4181b4f2, 0x6caf56f80724e950, 0x974b0044878443ef, 0x5b948a555bec4cad, 0x2da164d043cf19cd, 0x5f06b24e61963a94, 0xe83921a60834724a, 0xb58e0e1b41cbba48, 0x31a29e7d33dc1643, 0x53ae45dffcd39c97, 0xa3f788eace602dff, 0x6754239517df2dc2, 0x4e0f2a04dc928819, 0x67719164ef35ea80, 0xe1520ceb0c577849, 0xeef280a9ad2c592a, 0xac91cfed65ea9a73, 0xc4c0a18afd429b5c]

theorem kat_perm3 : KF (laneBytes katS4) = laneBytes katS5 :=
  kf_lit rfl rfl (by decide +kernel)

theorem kat_sample00 : (SampleNTT 168 (katRho ++ [0, 0])).isSome := by
  refine sample_of_blocks ?_ ?_ kat_perm1 kat_perm2 kat_perm3 ?_ <;> decide +kernel

def katS6 : List UInt64 := [0xdf09e9854af60a6a, 0xe3b4205d6016288e, 0x5f3abf61bb0bb382, 0xe7d39aba5d0b1a82, 0x1f0100, 0x0, 0x0, 0x0, 0x0, 0x0, 0x0, 0x0, 0x0, 0x0, 0x0, 0x0, 0x0, 0x0, 0x0, 0x0, 0x8000000000000000, 0x0, 0x0, 0x0, 0x0]

def katS7 : List UInt64 := [0x32601f19d6a73482, 0xd09011337b6fdea2, 0x3737c88a37b83ded, 0xbe1213277cf92725, 0x66997ce0acaaf914, 0x8372bcb5eb57f101, 0xf268940844bfe9b0, 0xb1dab43ac1f8926a, 0xd5c83856ec830d7d, 0x77dc572c6d626b4c, 0xf8cdbd7820064a19, 0xd592ed0eac162d8c, 0xe11d70cb5cc26666, 0x555410af826f81f8, 0x94b6184499d50ad, 0x621efd0d680bccd1, 0x2e6453efff07abbc, 0x4c3fe2fb137208f5, 0xf0f39f6e0efb7871, 0x5f185cfdd22bd46a, 0x3e87c0e860c8f826, 0x7ae4dcb2f52f58be, 0x9827b29eace64d44, 0x3e82b0aad523c60b, 0xb8d31b9ec8e18eed]

theorem kat_perm4 : KF (laneBytes katS6) = laneBytes katS7 :=
  kf_lit rfl rfl (by decide +kernel)

def katS8 : List UInt64 := [0xc045a845ca37f3f9, 0x9586eebab9175c0f, 0x10a5b778dc51cb63, 0x1c10fcabac95ba1c, 0xad7fe32615560227, 0x310966b3a642de1e, 0x43577609b73b2be7, 0x524185adcc38f518, 0xbc7092b08887ae45, 0x809722f1f3c14876, 0x5e7595fae146d5ac, 0x46e6e1eb60344011, 0x12df9db0620fe5f3, 0x7aa0410e82ae8efe, 0xcb40cf236dece01c, 0xf85c8c14a6700d06, 0x1c49827ddcd3ce80, 0x3ac5e722c1f19550, 0x231df016b3f41423, 0x66fd5c15230957c8, 0x2d9622057f1fa780, 0xdec1b45b70a75308, 0x3bdfbf637c8037ed, 0xb8fc19ea7b497d19, 0xf6edbbd942811c57]

theorem kat_perm5 : KF (laneBytes katS7) = laneBytes katS8 :=
  kf_lit rfl rfl (by decide +kernel)

def katS9 : List UInt64 := [0x25c17e4ab854a408, 0xffed7f2a83d14db9, 0x7e9b6ec2355edde4, 0xbfc5a84984881d45, 0x432b55a4e9158ffd, 0x869114631ade4b51, 0xbf4345215c828aa7, 0xea8b4d5e2d26b050, 0x4f9732b4954db1e1, 0x5e63f06605d45d28, 0x5126b37bf5d96eb, 0x6636ecab1198f97d, 0x6a9a2d89e27b8458, 0xfa672cd076cca2f2, 0xca31cde9462be103, 0x258fc9be8e16454f, 0x8b5049884818250f, 0x1a3d7fb54848868e, 0x33a9e836469e02e0, 0x2f4b05473d690b11, 0xe85e6fbed51d6ea5, 0x39a7a41aff4a40b2, 0xf059024e1cc4d1da, 0xa5761d7d29a10530, 0x7edbff646504d2ec]

theorem kat_perm6 : KF (laneBytes katS8) = laneBytes katS9 :=
  kf_lit rfl rfl (by decide +kernel)

theorem kat_sample01 : (SampleNTT 168 (katRho ++ [0, 1])).isSome := by
  refine sample_of_blocks ?_ ?_ kat_perm4 kat_perm5 kat_perm6 ?_ <;> decide +kernel

def katS10 : List UInt64 := [0xdf09e9854af60a6a, 0xe3b4205d6016288e, 0x5f3abf61bb0bb382, 0xe7d39aba5d0b1a82, 0x1f0001, 0x0, 0x0, 0x0, 0x0, 0x0, 0x0, 0x0, 0x0, 0x0, 0x0, 0x0, 0x0, 0x0, 0x0, 0x0, 0x8000000000000000, 0x0, 0x0, 0x0, 0x0]

def katS11 : List UInt64 := [0x7381dd17dde507c8, 0xc3d5361d817ed1d2, 0xb82dceb2814a0017, 0xb356f88aa1b7111f, 0xc00cd74ef809f2e1, 0xc45d62aa847d215e, 0x54255bc83ec75ff, 0x307ddec653700d30, 0x8524a21610fd0057, 0x59b0d37318504ede, 0xe9c9c057ab8df5ce, 0x306089388124237e, 0xcc15be371cd2ff67, 0xf37499cef91857cd, 0x73f2e39c67a71dc8, 0x43672ff7d278d25e, 0x784f4a78a4b60996, 0x89854f4a5c08652b, 0x63f1880e30120b08, 0x1b1624668c86bccc, 0xf2831501628f96bd, 0x698a777809420878, 0xd583192a43d5b6fd, 0x8d0ee3beed779c09, 0x5256b05894fd97d5]

theorem kat_perm7 : KF (laneBytes katS10) = laneBytes katS11 :=
  kf_lit rfl rfl (by decide +kernel)

def katS12 : List UInt64 := [0xca8f546ac21f9673, 0x5c00563d615e9315, 0xb12d9d3df25ed718, 0x18eba819205e5956, 0x3a98729f136b0b9d, 0xd9dd71d7f4931177, 0x72f7b931b7dbe563, 0x27661f5bccffcc1b, 0x7778328a8c701882, 0x863c6d1122ce911f, 0xea808c6743a80492, 0xf08f082596cf6ec8, 0x296a7f0b31724321, 0x55e99a6493592e24, 0x395b3563cff93b90, 0x42215a1aa5f201fd, 0xfe71181d65bdf9be, 0x514eb7a6b4cfc04b, 0x16bafac4695bd1ac, 0x4da51c47ad2d833e, 0x5c504531ab0326d, 0xc8d4554d5bab1c38, 0xd5e0ae3c6a8dff82, 0x2795a673936a7ab3, 0x318fc17977e7addc]

theorem kat_perm8 : KF (laneBytes katS11) = laneBytes katS12 :=
  kf_lit rfl rfl (by decide +kernel)

def katS13 : List UInt64 := [0x56945b14b557db4d, 0x3bfc9a3898250448, 0x419486e8de3f1909, 0x7e4bfe1a3d9bbae9, 0xa60f411b0acb83b3, 0x86e141104ff6d663, 0x4f533b3009b00476, 0x131bdb8ee26cc3f5, 0xb0576389d3d0c90d, 0x94f96151b34b7bbe, 0x90c46baa2f33b7e9, 0xf0927eb3779aedcf, 0xd5d02d9c2afa7111, 0x617f0dd79c577d43, 0x695ad1686640c946, 0xf882b7726e0377b9, 0xf0d12e4d94b5024d, 0x87b5454939e33624, 0x190242e96c72b7b7, 0x60be603c175510a1, 0xcdde58d9ded033b5, 0xbb40a9927880469c, 0xf0e9ed1f69a45420, 0xcd3b3ca49ad54ca6, 0xc875ca2354d792bf]

theorem kat_perm9 : KF (laneBytes katS12) = laneBytes katS13 :=
  kf_lit rfl rfl (by decide +kernel)

theorem kat_sample10 : (SampleNTT 168 (katRho ++ [1, 0])).isSome := by
  refine sample_of_blocks ?_ ?_ kat_perm7 kat_perm8 kat_perm9 ?_ <;> decide +kernel

def katS14 : List UInt64 := [0xdf09e9854af60a6a, 0xe3b4205d6016288e, 0x5f3abf61bb0bb382, 0xe7d39aba5d0b1a82, 0x1f0101, 0x0, 0x0, 0x0, 0x0, 0x0, 0x0, 0x0, 0x0, 0x0, 0x0, 0x0, 0x0, 0x0, 0x0, 0x0, 0x8000000000000000, 0x0, 0x0, 0x0, 0x0]

def katS15 : List UInt64 := [0x359edae469655eee, 0x65701b54947e93f8, 0x4ab4b567016da4df, 0x29da759a5e3d3f4b, 0x9cc996fb7cdae2a0, 0xeb6b16b978730c2a, 0xc184e8e917fbfe7d, 0xba63d56967aa0d72, 0xdcadc41c14db35e3, 0x2571436560be4439, 0x53f41efab339ccb0, 0x5384b6b12bc0e94b, 0x55d26ef603b9d633, 0xe13e64f86a24233f, 0xabcfddbe55720826, 0x5260ac14abdb8cd4, 0xe7d70829320b5272, 0xb10b15c914cb9494, 0xc71db1c3514d3111, 0x6e7270927c8dfcb9, 0x6b3bdca2532130a8, 0x9953d62df57ffd6b, 0xbcac4547e6442987, 0x21baeb9c4c8a3369, 0xaff50fc6db517265]

theorem kat_perm10 : KF (laneBytes katS14) = laneBytes katS15 :=
  kf_lit rfl rfl (by decide +kernel)

def katS16 : List UInt64 := [0xcdd5681d05140363, 0x92190e2295ba616b, 0xb811b8fe79d3bd51, 0x1785ba2b1c7f8bcb, 0x3655b52d05a4b5b9, 0x82888866c7370a2e, 0xd17333fd9eb919cc, 0x73469f061f70ec1, 0xb196fcbc976a7539, 0x6012b9af20cb6c16, 0x22791025b5599b7f, 0xb8077b8188a5c175, 0x9765421b858f1924, 0x33e302f6f752693c, 0x76a9ef5bef865292, 0xd1744690e18f81b, 0x53e173c0606c3dc8, 0xdbf4d9de9bd3c9c4, 0x9beebb5a608d40a9, 0xaf8ac85b6ed2b7, 0x852b0568d01950b1, 0xfb063aa80c67db02, 0x3e724e22bb07f906, 0x1a789520cfaf02, 0x3b80d0234c74a3a5]

theorem kat_perm11 : KF (laneBytes katS15) = laneBytes katS16 :=
  kf_lit rfl rfl (by decide +kernel)

def katS17 : List UInt64 := [0x81a40afbd1dd77cd, 0x849557d6267cae0e, 0xdf0fa6b24cf36888, 0x9208c2b37afda68d, 0xcca39c9f34e4fdc6, 0x362ec9362668a7e7, 0x338bc9f6341a79db, 0x1fa56ee6c8056bd1, 0x39062a8c6f05fc9f, 0xb04745ae4009d12, 0x73bec225162a13a9, 0x7f5456bfb69503f4, 0xc5fdc20ae1789a44, 0xcb07fb4914066cff, 0xf9ac9b39d11f09fe, 0x354db86428d823a3, 0xf6d2c9bb0d696f3b, 0x44b3a44ddfd9789c, 0x2e6d153086efa737, 0xe6c0d0fa29e410d7, 0xcc8ee76ec7cf62b7, 0xe118d13cf1229ea, 0x35dd768f8f9de3a4, 0xb57896cef50f462e, 0x58400d4a74854357]

theorem kat_perm12 : KF (laneBytes katS16) = laneBytes katS17 :=
  kf_lit rfl rfl (by decide +kernel)

theorem kat_sample11 : (SampleNTT 168 (katRho ++ [1, 1])).isSome := by
  refine sample_of_blocks ?_ ?_ kat_perm10 kat_perm11 kat_perm12 ?_ <;> decide +kernel

theorem kat_expandA : ∃ A, ExpandA 2 168 katRho = some A := by
  refine ⟨_, expandA_some.2 ⟨fun i hi j hj => ?_, rfl⟩⟩
  rcases (by omega : i = 0 ∨ i = 1) with rfl | rfl <;> rcases (by omega : j = 0 ∨ j = 1) with rfl | rfl
  · exact kat_sample00
  · exact kat_sample10
  · exact kat_sample01
  · exact kat_sample11

theorem kat_keygen (z : List UInt8) : ∃ ek dk, KeyGen_internal ML_KEM_512 168 (List.replicate 32 0) z = some (ek, dk) := by
  obtain ⟨A, hA⟩ := kat_expandA
  have h : K_PKE_KeyGen ML_KEM_512 168 (List.replicate 32 0) = some (keyOut ML_KEM_512 katRho (G katIn).2 A) := by
    rw [K_PKE_KeyGen_eq]
    show (ExpandA 2 168 (G katIn).1).map (keyOut ML_KEM_512 (G katIn).1 (G katIn).2) = _
    rw [kat_rho, hA]
    rfl
  unfold KeyGen_internal
  rw [h]
  exact ⟨_, _, rfl⟩

/-- The seed at the end of that public key. -/
theorem kat_ek {z ek dk : List UInt8} (h : KeyGen_internal ML_KEM_512 168 (List.replicate 32 0) z = some (ek, dk)) : bytes ek 768 800 = katRho := by
  obtain ⟨s, hs, -⟩ := keygen_inv h
  rw [K_PKE_KeyGen_eq] at hs
  obtain ⟨A, -, hs⟩ := Option.map_eq_some_iff.1 hs
  have e : ek = concat 2 (fun i => ByteEncode12 (keyT ML_KEM_512 A (G katIn).2 i)) ++ (G katIn).1 := (congrArg Prod.fst hs).symm
  rw [e, kat_rho]
  exact bytes_append_right (concat_length fun i => byteEncode12_length _) rfl

theorem kat_encrypt {ek : List UInt8} (h : bytes ek 768 800 = katRho) (m r : List UInt8) : ∃ c, K_PKE_Encrypt ML_KEM_512 168 ek m r = some c := by
  obtain ⟨A, hA⟩ := kat_expandA
  rw [K_PKE_Encrypt_eq]
  show ∃ c, (ExpandA 2 168 (bytes ek 768 800)).map _ = some c
  rw [h, hA]
  exact ⟨_, rfl⟩

theorem kat_encaps {ek : List UInt8} (h : bytes ek 768 800 = katRho) (m : List UInt8) : ∃ K c, Encaps_internal ML_KEM_512 168 ek m = some (K, c) := by
  obtain ⟨c, hc⟩ := kat_encrypt h m (G (m ++ H ek)).2
  unfold Encaps_internal
  generalize G (m ++ H ek) = g at *
  obtain ⟨K, r⟩ := g
  dsimp only at hc ⊢
  rw [hc]
  exact ⟨_, _, rfl⟩

theorem kat_decaps {dk : List UInt8} (h : bytes (bytes dk 768 1568) 768 800 = katRho) (c : List UInt8) : ∃ K, Decaps_internal ML_KEM_512 168 dk c = some K := by
  unfold Decaps_internal
  dsimp only
  generalize hm : K_PKE_Decrypt ML_KEM_512 (bytes dk 0 (384 * ML_KEM_512.k)) c = m
  generalize hg : G (m ++ bytes dk (768 * ML_KEM_512.k + 32) (768 * ML_KEM_512.k + 64)) = g
  obtain ⟨K, r⟩ := g
  obtain ⟨c', hc⟩ := kat_encrypt h m r
  dsimp only
  show ∃ K', (do
    let c' ← K_PKE_Encrypt ML_KEM_512 168 (bytes dk 768 1568) m r
    pure (if c = c' then K else _)) = some K'
  rw [hc]
  exact ⟨_, rfl⟩

end Verif.Proof
