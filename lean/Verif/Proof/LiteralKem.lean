import Verif.Proof.LiteralNoise

/-! # Literals common to the known answers of the three parameter sets -/

set_option autoImplicit false
set_option maxRecDepth 20000

namespace Verif.Proof
open Verif.Model Verif.Spec

/-- The padding of SHAKE128 after 34 bytes. -/
def padN34 : Nat := 0x1F + 2 ^ 1071

theorem padN34_eq : padB 168 34 0x1F = nb (168 - 34) padN34 := by decide +kernel

theorem padN34_lt : padN34 < 256 ^ (168 - 34) := by decide +kernel

def katZ : List Nat := List.replicate 128 0

theorem katZ_eq : rqOf (weave katZ katZ) = 0 := funext (by decide +kernel)

def katHz : List UInt64 := List.replicate 25 0

theorem katHz_eq : List.replicate 200 0 = laneBytes katHz := by decide +kernel

def katR : List Nat := [17, 3312, 2761, 568, 583, 2746, 2649, 680, 1637, 1692, 723, 2606, 2288, 1041, 1100, 2229, 1409, 1920, 2662, 667, 3281, 48, 233, 3096, 756, 2573, 2156, 1173, 3015, 314, 3050, 279, 1703, 1626, 1651, 1678, 2789, 540, 1789, 1540, 1847, 1482, 952, 2377, 1461, 1868, 2687, 642, 939, 2390, 2308, 1021, 2437, 892, 2388, 941, 733, 2596, 2337, 992, 268, 3061, 641, 2688, 1584, 1745, 2298, 1031, 2037, 1292, 3220, 109, 375, 2954, 2549, 780, 2090, 1239, 1645, 1684, 1063, 2266, 319, 3010, 2773, 556, 757, 2572, 2099, 1230, 561, 2768, 2466, 863, 2594, 735, 2804, 525, 1092, 2237, 403, 2926, 1026, 2303, 1143, 2186, 2150, 1179, 2775, 554, 886, 2443, 1722, 1607, 1212, 2117, 1874, 1455, 1029, 2300, 2110, 1219, 2935, 394, 885, 2444, 2154, 1175]

theorem katR_eq : rootsL = katR := by decide +kernel

/-- The seed d of the key pair. -/
def katDN : Nat := 0x26ef66faac6e1aeb88bceff693803bd73e850576504560617d828fe8a42b9c7f

/-- The seed z of the key pair. -/
def katZN : Nat := 0xe257aef9e3a1a89c63a3e8584afa016e682afdee0afb3c10934b0088a9eeb13c

/-- The message. -/
def katMN : Nat := 0xb28550436a5ed235889174d9586a91ab752ffa9a1660d2b862dc233c87ccb835

def katMb : List Nat := [1, 0, 1, 0, 1, 1, 0, 0, 0, 0, 0, 1, 1, 1, 0, 1, 0, 0, 1, 1, 0, 0, 1, 1, 1, 1, 1, 0, 0, 0, 0, 1, 0, 0, 1, 1, 1, 1, 0, 0, 1, 1, 0, 0, 0, 1, 0, 0, 0, 0, 1, 1, 1, 0, 1, 1, 0, 1, 0, 0, 0, 1, 1, 0, 0, 0, 0, 1, 1, 1, 0, 1, 0, 1, 0, 0, 1, 0, 1, 1, 0, 0, 0, 0, 0, 1, 1, 0, 0, 1, 1, 0, 1, 0, 0, 0, 0, 1, 0, 1, 1, 0, 0, 1, 0, 1, 0, 1, 1, 1, 1, 1, 1, 1, 1, 1, 0, 1, 0, 0, 1, 0, 1, 0, 1, 1, 1, 0, 1, 1, 0, 1, 0, 1, 0, 1, 1, 0, 0, 0, 1, 0, 0, 1, 0, 1, 0, 1, 0, 1, 1, 0, 0, 0, 0, 1, 1, 0, 1, 0, 1, 0, 0, 1, 1, 0, 1, 1, 0, 0, 1, 0, 1, 1, 1, 0, 1, 0, 0, 0, 1, 0, 0, 1, 0, 0, 0, 1, 0, 0, 0, 1, 1, 0, 1, 0, 1, 1, 0, 0, 0, 1, 0, 0, 1, 0, 1, 1, 0, 1, 1, 1, 1, 0, 1, 0, 0, 1, 0, 1, 0, 1, 1, 0, 1, 1, 0, 0, 0, 0, 1, 0, 0, 0, 0, 0, 1, 0, 1, 0, 1, 0, 1, 0, 0, 0, 0, 1, 0, 1, 0, 0, 1, 1, 0, 1]

def katmu0 : List Nat := [1665, 1665, 1665, 0, 0, 0, 1665, 0, 0, 1665, 0, 1665, 1665, 1665, 0, 0, 0, 1665, 1665, 0, 1665, 0, 0, 0, 0, 1665, 1665, 1665, 0, 0, 0, 1665, 0, 0, 1665, 0, 0, 0, 1665, 1665, 0, 0, 0, 1665, 0, 1665, 1665, 0, 0, 0, 1665, 0, 0, 0, 1665, 1665, 1665, 1665, 0, 0, 1665, 1665, 1665, 1665, 1665, 0, 0, 0, 1665, 0, 1665, 0, 0, 0, 0, 1665, 0, 0, 1665, 1665, 1665, 0, 1665, 1665, 0, 1665, 1665, 1665, 1665, 0, 1665, 0, 0, 0, 0, 0, 1665, 1665, 1665, 0, 0, 0, 1665, 1665, 0, 1665, 1665, 1665, 0, 0, 0, 1665, 1665, 0, 0, 1665, 0, 0, 1665, 1665, 1665, 1665, 0, 0, 0, 0, 1665, 0]

def katmu1 : List Nat := [0, 0, 1665, 0, 0, 1665, 1665, 1665, 0, 1665, 0, 1665, 1665, 0, 0, 1665, 0, 1665, 1665, 0, 1665, 0, 1665, 0, 0, 1665, 0, 1665, 1665, 0, 1665, 0, 0, 1665, 1665, 1665, 1665, 0, 0, 1665, 0, 0, 1665, 0, 1665, 0, 0, 0, 1665, 1665, 0, 1665, 1665, 1665, 1665, 1665, 1665, 1665, 1665, 0, 0, 0, 1665, 0, 1665, 1665, 1665, 1665, 0, 0, 0, 1665, 1665, 1665, 1665, 0, 0, 1665, 0, 0, 0, 1665, 0, 1665, 0, 0, 1665, 0, 0, 0, 0, 1665, 0, 1665, 0, 1665, 0, 0, 1665, 0, 1665, 0, 0, 1665, 1665, 1665, 0, 0, 1665, 1665, 1665, 0, 1665, 0, 0, 0, 0, 0, 0, 0, 0, 0, 0, 1665, 1665, 0, 1665, 1665]

theorem katmu_eq : (fun j => Decompress 1 (ByteDecode 1 (nb 32 katMN) j)) = rqOf (weave katmu0 katmu1) :=
  decompress_lit (d := 0) (l := katMb) (by omega) rfl (by decide +kernel) (by decide +kernel) (by decide +kernel) (by decide +kernel)

end Verif.Proof
