import Verif.Proof.LeakKem
import Verif.Avx.KemProof
import Verif.Avx.KemW
import Verif.C.Safe

/-! # Leakage of the AVX2 code

A vector program has no branches and constant addresses, so its trace is constant. The exceptions are in the sampling of the public matrix: the branches, the addresses of the
stores and the rows of the table `idx` depend on the output of SHAKE128, so on the public seed, but not on the uninitialised bytes that the gathers read. -/

namespace Verif.Avx
open Verif.Spec Verif.Proof
open Verif.Model (ParamSet KYBER_K KYBER_N Poly Polyvec SHAKE128_RATE SHAKE256_RATE KYBER_SYMBYTES KYBER_POLYVECBYTES KYBER_INDCPA_SECRETKEYBYTES SameSeed hash_h hash_g Polyvec.uninit
  ni_sha3_512 ni_store64)

/-! ## Vector programs -/

theorem ni_call {w : List Nat} {p : List I} {o o' : List (Obj W)} : NI (call w p o) (call w p o') anyR := by
  unfold call
  split
  · split <;> split <;> simp [NI]
  · trivial

macro_rules | `(tactic| ni_step) => `(tactic| with_reducible exact ni_call)

theorem ni_ubl {α : Type} {u : UB} {m : C α} {R : α → α → Prop} : NI (.ub u) m R := by trivial
theorem ni_ubr {α : Type} {u : UB} {m : C α} {R : α → α → Prop} : NI m (.ub u) R := by cases m <;> trivial

macro_rules | `(tactic| ni_step) => `(tactic| with_reducible exact ni_ubl)
macro_rules | `(tactic| ni_step) => `(tactic| with_reducible exact ni_ubr)

theorem ni_callPoly {w : List Nat} {p : List I} {r r' : Mem Int16} {o o' : List (Obj W)} : NI (callPoly w p r o) (callPoly w p r' o') anyR := by
  unfold callPoly; ni
theorem ni_callBytes {w : List Nat} {p : List I} {al : Bool} {r r' : Mem UInt8} {off : Nat} {o o' : List (Obj W)} :
    NI (callBytes w p al r off o) (callBytes w p al r' off o') anyR := by
  unfold callBytes; ni

macro_rules | `(tactic| ni_step) => `(tactic| with_reducible exact ni_callPoly)
macro_rules | `(tactic| ni_step) => `(tactic| with_reducible exact ni_callBytes)

theorem ni_poly_ntt {r r' : Mem Int16} : NI (poly_ntt r) (poly_ntt r') anyR := by unfold poly_ntt; ni
theorem ni_poly_invntt_tomont {r r' : Mem Int16} : NI (poly_invntt_tomont r) (poly_invntt_tomont r') anyR := by unfold poly_invntt_tomont; ni
theorem ni_poly_nttunpack {r r' : Mem Int16} : NI (poly_nttunpack r) (poly_nttunpack r') anyR := by unfold poly_nttunpack; ni
theorem ni_poly_basemul_montgomery {r r' a a' b b' : Mem Int16} : NI (poly_basemul_montgomery r a b) (poly_basemul_montgomery r' a' b') anyR := by
  unfold poly_basemul_montgomery; ni
theorem ni_poly_tomont {r r' : Mem Int16} : NI (poly_tomont r) (poly_tomont r') anyR := by unfold poly_tomont; ni
theorem ni_poly_reduce {r r' : Mem Int16} : NI (poly_reduce r) (poly_reduce r') anyR := by unfold poly_reduce; ni
theorem ni_poly_add {r r' b b' : Mem Int16} : NI (poly_add r b) (poly_add r' b') anyR := by unfold poly_add; ni
theorem ni_poly_sub {r r' b b' : Mem Int16} : NI (poly_sub r b) (poly_sub r' b') anyR := by unfold poly_sub; ni
theorem ni_poly_compress {p : ParamSet} {r r' : Mem UInt8} {o : Nat} {a a' : Mem Int16} : NI (poly_compress p r o a) (poly_compress p r' o a') anyR := by
  unfold poly_compress; cases p <;> exact ni_callBytes
theorem ni_poly_decompress {p : ParamSet} {r r' : Mem Int16} {a a' : Mem UInt8} {o : Nat} : NI (poly_decompress p r a o) (poly_decompress p r' a' o) anyR := by
  unfold poly_decompress; cases p <;> ni
theorem ni_poly_tobytes {r r' : Mem UInt8} {o : Nat} {a a' : Mem Int16} : NI (poly_tobytes r o a) (poly_tobytes r' o a') anyR := by unfold poly_tobytes; ni
theorem ni_poly_frombytes {r r' : Mem Int16} {a a' : Mem UInt8} {o : Nat} : NI (poly_frombytes r a o) (poly_frombytes r' a' o) anyR := by unfold poly_frombytes; ni
theorem ni_poly_frommsg {r r' : Mem Int16} {a a' : Mem UInt8} {o : Nat} : NI (poly_frommsg r a o) (poly_frommsg r' a' o) anyR := by unfold poly_frommsg; ni
theorem ni_poly_tomsg {r r' : Mem UInt8} {o : Nat} {a a' : Mem Int16} : NI (poly_tomsg r o a) (poly_tomsg r' o a') anyR := by unfold poly_tomsg; ni
theorem ni_poly_compress10 {r r' : Mem UInt8} {o : Nat} {a a' : Mem Int16} : NI (poly_compress10 r o a) (poly_compress10 r' o a') anyR := by unfold poly_compress10; ni
theorem ni_poly_decompress10 {r r' : Mem Int16} {a a' : Mem UInt8} {o : Nat} : NI (poly_decompress10 r a o) (poly_decompress10 r' a' o) anyR := by
  unfold poly_decompress10; ni
theorem ni_poly_compress11 {r r' : Mem UInt8} {o : Nat} {a a' : Mem Int16} : NI (poly_compress11 r o a) (poly_compress11 r' o a') anyR := by unfold poly_compress11; ni
theorem ni_poly_decompress11 {r r' : Mem Int16} {a a' : Mem UInt8} {o : Nat} : NI (poly_decompress11 r a o) (poly_decompress11 r' a' o) anyR := by
  unfold poly_decompress11; ni
theorem ni_cbd2 {r r' : Mem Int16} {a a' : Mem UInt8} : NI (cbd2 r a) (cbd2 r' a') anyR := by unfold cbd2; ni
theorem ni_cbd3 {r r' : Mem Int16} {a a' : Mem UInt8} : NI (cbd3 r a) (cbd3 r' a') anyR := by unfold cbd3; ni

macro_rules | `(tactic| ni_step) => `(tactic| with_reducible exact ni_poly_ntt)
macro_rules | `(tactic| ni_step) => `(tactic| with_reducible exact ni_poly_invntt_tomont)
macro_rules | `(tactic| ni_step) => `(tactic| with_reducible exact ni_poly_nttunpack)
macro_rules | `(tactic| ni_step) => `(tactic| with_reducible exact ni_poly_basemul_montgomery)
macro_rules | `(tactic| ni_step) => `(tactic| with_reducible exact ni_poly_tomont)
macro_rules | `(tactic| ni_step) => `(tactic| with_reducible exact ni_poly_reduce)
macro_rules | `(tactic| ni_step) => `(tactic| with_reducible exact ni_poly_add)
macro_rules | `(tactic| ni_step) => `(tactic| with_reducible exact ni_poly_sub)
macro_rules | `(tactic| ni_step) => `(tactic| with_reducible exact ni_poly_compress)
macro_rules | `(tactic| ni_step) => `(tactic| with_reducible exact ni_poly_decompress)
macro_rules | `(tactic| ni_step) => `(tactic| with_reducible exact ni_poly_tobytes)
macro_rules | `(tactic| ni_step) => `(tactic| with_reducible exact ni_poly_frombytes)
macro_rules | `(tactic| ni_step) => `(tactic| with_reducible exact ni_poly_frommsg)
macro_rules | `(tactic| ni_step) => `(tactic| with_reducible exact ni_poly_tomsg)
macro_rules | `(tactic| ni_step) => `(tactic| with_reducible exact ni_poly_compress10)
macro_rules | `(tactic| ni_step) => `(tactic| with_reducible exact ni_poly_decompress10)
macro_rules | `(tactic| ni_step) => `(tactic| with_reducible exact ni_poly_compress11)
macro_rules | `(tactic| ni_step) => `(tactic| with_reducible exact ni_poly_decompress11)
macro_rules | `(tactic| ni_step) => `(tactic| with_reducible exact ni_cbd2)
macro_rules | `(tactic| ni_step) => `(tactic| with_reducible exact ni_cbd3)

theorem ni_poly_cbd_eta1 {p : ParamSet} {r r' : Mem Int16} {a a' : Mem UInt8} : NI (poly_cbd_eta1 p r a) (poly_cbd_eta1 p r' a') anyR := by
  unfold poly_cbd_eta1; ni
theorem ni_poly_cbd_eta2 {r r' : Mem Int16} {a a' : Mem UInt8} : NI (poly_cbd_eta2 r a) (poly_cbd_eta2 r' a') anyR := by
  unfold poly_cbd_eta2; ni
theorem ni_polyvec_ntt {p : ParamSet} {r r' : Polyvec} : NI (polyvec_ntt p r) (polyvec_ntt p r') anyR := by unfold polyvec_ntt; ni
theorem ni_polyvec_invntt_tomont {p : ParamSet} {r r' : Polyvec} : NI (polyvec_invntt_tomont p r) (polyvec_invntt_tomont p r') anyR := by
  unfold polyvec_invntt_tomont; ni
theorem ni_polyvec_basemul_acc_montgomery {p : ParamSet} {r r' : Mem Int16} {a a' b b' : Polyvec} :
    NI (polyvec_basemul_acc_montgomery p r a b) (polyvec_basemul_acc_montgomery p r' a' b') anyR := by
  unfold polyvec_basemul_acc_montgomery; ni
theorem ni_polyvec_reduce {p : ParamSet} {r r' : Polyvec} : NI (polyvec_reduce p r) (polyvec_reduce p r') anyR := by unfold polyvec_reduce; ni
theorem ni_polyvec_add {p : ParamSet} {r r' b b' : Polyvec} : NI (polyvec_add p r b) (polyvec_add p r' b') anyR := by unfold polyvec_add; ni
theorem ni_polyvec_compress {p : ParamSet} {r r' : Mem UInt8} {o : Nat} {a a' : Polyvec} : NI (polyvec_compress p r o a) (polyvec_compress p r' o a') anyR := by
  unfold polyvec_compress; cases p <;> ni
theorem ni_polyvec_decompress {p : ParamSet} {r r' : Polyvec} {a a' : Mem UInt8} {o : Nat} : NI (polyvec_decompress p r a o) (polyvec_decompress p r' a' o) anyR := by
  unfold polyvec_decompress; cases p <;> ni
theorem ni_polyvec_tobytes {p : ParamSet} {r r' : Mem UInt8} {o : Nat} {a a' : Polyvec} : NI (polyvec_tobytes p r o a) (polyvec_tobytes p r' o a') anyR := by
  unfold polyvec_tobytes; ni
theorem ni_polyvec_frombytes {p : ParamSet} {r r' : Polyvec} {a a' : Mem UInt8} {o : Nat} : NI (polyvec_frombytes p r a o) (polyvec_frombytes p r' a' o) anyR := by
  unfold polyvec_frombytes; ni

macro_rules | `(tactic| ni_step) => `(tactic| with_reducible exact ni_poly_cbd_eta1)
macro_rules | `(tactic| ni_step) => `(tactic| with_reducible exact ni_poly_cbd_eta2)
macro_rules | `(tactic| ni_step) => `(tactic| with_reducible exact ni_polyvec_ntt)
macro_rules | `(tactic| ni_step) => `(tactic| with_reducible exact ni_polyvec_invntt_tomont)
macro_rules | `(tactic| ni_step) => `(tactic| with_reducible exact ni_polyvec_basemul_acc_montgomery)
macro_rules | `(tactic| ni_step) => `(tactic| with_reducible exact ni_polyvec_reduce)
macro_rules | `(tactic| ni_step) => `(tactic| with_reducible exact ni_polyvec_add)
macro_rules | `(tactic| ni_step) => `(tactic| with_reducible exact ni_polyvec_compress)
macro_rules | `(tactic| ni_step) => `(tactic| with_reducible exact ni_polyvec_decompress)
macro_rules | `(tactic| ni_step) => `(tactic| with_reducible exact ni_polyvec_tobytes)
macro_rules | `(tactic| ni_step) => `(tactic| with_reducible exact ni_polyvec_frombytes)

/-! ## Comparison and conditional copy -/

theorem ni_loadu {m m' : Mem UInt8} {o : Nat} : NI (loadu m o) (loadu m' o) anyR := by unfold loadu; ni
theorem ni_storeu {m m' : Mem UInt8} {o : Nat} {v v' : List UInt8} : NI (storeu m o v) (storeu m' o v') anyR := by unfold storeu; ni

macro_rules | `(tactic| ni_step) => `(tactic| with_reducible exact ni_loadu)
macro_rules | `(tactic| ni_step) => `(tactic| with_reducible exact ni_storeu)

theorem ni_loaduEq {m m' : Mem UInt8} {o : Nat} (h : SameSeed m m' o) : NI (loadu m o) (loadu m' o) Eq := by
  unfold loadu
  refine ni_cfor Eq rfl fun i a b _ hi e => ?_
  subst e
  exact NI.bindEq (ni_rdEq (h i hi)) fun _ => ni_refl _

theorem ni_verify {a a' : Mem UInt8} {ao : Nat} {b b' : Mem UInt8} {bo len : Nat} : NI (verify a ao b bo len) (verify a' ao b' bo len) anyR := by
  unfold verify
  dsimp only
  ni
theorem ni_cmov {r r' : Mem UInt8} {ro : Nat} {x x' : Mem UInt8} {xo len : Nat} {b b' : UInt8} : NI (cmov r ro x xo len b) (cmov r' ro x' xo len b') anyR := by
  unfold cmov
  dsimp only
  ni

macro_rules | `(tactic| ni_step) => `(tactic| with_reducible exact ni_verify)
macro_rules | `(tactic| ni_step) => `(tactic| with_reducible exact ni_cmov)

/-! ## Four-way SHAKE -/

theorem ni_rdJunk {j j' : Nat → UInt8} {m m' : Mem UInt8} {i : Nat} : NI (rdJunk j m i) (rdJunk j' m' i) anyR := by
  unfold rdJunk
  split <;> split <;> first | exact ni_ubl | exact ni_ubr | exact NI.bind0 (ni_leak _) fun _ _ => ni_pure0
macro_rules | `(tactic| ni_step) => `(tactic| with_reducible exact ni_rdJunk)

theorem ni_gather64 {j j' : Nat → UInt8} {m m' : Mem UInt8} {i : Nat} : NI (gather64 j m i) (gather64 j' m' i) anyR := by unfold gather64; ni
macro_rules | `(tactic| ni_step) => `(tactic| with_reducible exact ni_gather64)
theorem ni_gather {j j' : Fin 4 → Nat → UInt8} {x x' : M4} {i : Nat} : NI (gather j x i) (gather j' x' i) anyR := by unfold gather; ni
macro_rules | `(tactic| ni_step) => `(tactic| with_reducible exact ni_gather)
theorem ni_xorLanes4 {j j' : Fin 4 → Nat → UInt8} {s s' : Mem V4} {x x' : M4} {pos n : Nat} : NI (xorLanes4 j s x pos n) (xorLanes4 j' s' x' pos n) anyR := by
  unfold xorLanes4; ni
macro_rules | `(tactic| ni_step) => `(tactic| with_reducible exact ni_xorLanes4)
theorem ni_copyFromState4 {s s' : Mem V4} : NI (copyFromState4 s) (copyFromState4 s') anyR := by unfold copyFromState4; ni
macro_rules | `(tactic| ni_step) => `(tactic| with_reducible exact ni_copyFromState4)
theorem ni_copyToState4 {s s' : Mem V4} {X X' : Lanes4} : NI (copyToState4 s X) (copyToState4 s' X') anyR := by unfold copyToState4; ni
macro_rules | `(tactic| ni_step) => `(tactic| with_reducible exact ni_copyToState4)
theorem ni_rounds24 {X X' : Lanes4} : NI (rounds24 X) (rounds24 X') anyR := by unfold rounds24; ni
macro_rules | `(tactic| ni_step) => `(tactic| with_reducible exact ni_rounds24)
theorem ni_PermuteAll_24rounds {s s' : Mem V4} : NI (PermuteAll_24rounds s) (PermuteAll_24rounds s') anyR := by unfold PermuteAll_24rounds; ni
macro_rules | `(tactic| ni_step) => `(tactic| with_reducible exact ni_PermuteAll_24rounds)

theorem ni_keccakx4_absorb_once {j j' : Fin 4 → Nat → UInt8} {s s' : Mem V4} {r : Nat} {x x' : M4} {inlen : Nat} {p p' : UInt8} :
    NI (keccakx4_absorb_once j s r x inlen p) (keccakx4_absorb_once j' s' r x' inlen p') anyR := by
  unfold keccakx4_absorb_once
  refine NI.bind0 (by ni) fun _ _ => ?_
  refine NI.bind (R := fun a b => a.2 = b.2) ?_ fun a b h => ?_
  · refine ni_cwhile _ rfl (fun a b h => by rw [h]) fun a b h => ?_
    obtain ⟨a, k, l⟩ := a
    obtain ⟨b, k', l'⟩ := b
    obtain ⟨rfl, rfl⟩ := Prod.mk.inj h
    dsimp only
    exact NI.bind0 ni_xorLanes4 fun _ _ => NI.bind0 ni_PermuteAll_24rounds fun _ _ => ni_pure rfl
  · obtain ⟨a, k, l⟩ := a
    obtain ⟨b, k', l'⟩ := b
    obtain ⟨rfl, rfl⟩ := Prod.mk.inj h
    dsimp only
    refine NI.bind0 ni_xorLanes4 fun _ _ => NI.bind0 (ni_cif ?_ ni_pure0) fun _ _ => ?_
    · ni
    · ni
macro_rules | `(tactic| ni_step) => `(tactic| with_reducible exact ni_keccakx4_absorb_once)

theorem ni_keccakx4_squeezeblocks {out out' : M4} {oo nblocks r : Nat} {s s' : Mem V4} :
    NI (keccakx4_squeezeblocks out oo nblocks r s) (keccakx4_squeezeblocks out' oo nblocks r s') anyR := by
  unfold keccakx4_squeezeblocks
  refine NI.bind (R := fun a b => a.2.1 = b.2.1 ∧ a.2.2.1 = b.2.2.1) ?_ fun a b h => ni_pure0
  refine ni_cwhile _ ⟨rfl, rfl⟩ (fun a b h => by rw [h.2]) fun a b h => ?_
  obtain ⟨a, k, l, s⟩ := a
  obtain ⟨b, k', l', s'⟩ := b
  obtain ⟨h1, h2⟩ := h
  dsimp only at h1 h2 ⊢
  subst h1 h2
  refine NI.bind0 ni_PermuteAll_24rounds fun _ _ => NI.bind0 ?_ fun _ _ => ni_pure ⟨rfl, rfl⟩
  ni
macro_rules | `(tactic| ni_step) => `(tactic| with_reducible exact ni_keccakx4_squeezeblocks)

theorem ni_shake256x4_absorb_once {j j' : Fin 4 → Nat → UInt8} {s s' : Mem V4} {x x' : M4} {n : Nat} :
    NI (shake256x4_absorb_once j s x n) (shake256x4_absorb_once j' s' x' n) anyR := ni_keccakx4_absorb_once
theorem ni_shake128x4_absorb_once {j j' : Fin 4 → Nat → UInt8} {s s' : Mem V4} {x x' : M4} {n : Nat} :
    NI (shake128x4_absorb_once j s x n) (shake128x4_absorb_once j' s' x' n) anyR := ni_keccakx4_absorb_once
theorem ni_shake256x4_squeezeblocks {out out' : M4} {oo n : Nat} {s s' : Mem V4} :
    NI (shake256x4_squeezeblocks out oo n s) (shake256x4_squeezeblocks out' oo n s') anyR := ni_keccakx4_squeezeblocks
macro_rules | `(tactic| ni_step) => `(tactic| with_reducible exact ni_shake256x4_absorb_once)
macro_rules | `(tactic| ni_step) => `(tactic| with_reducible exact ni_shake256x4_squeezeblocks)

/-! ## Noise -/

theorem ni_each4 {α : Type} {f f' : Fin 4 → C α} (h : ∀ j, NI (f j) (f' j) anyR) : NI (each4 f) (each4 f') anyR := by
  unfold each4
  exact NI.bind0 (h 0) fun _ _ => NI.bind0 (h 1) fun _ _ => NI.bind0 (h 2) fun _ _ => NI.bind0 (h 3) fun _ _ => ni_pure0
macro_rules | `(tactic| ni_step) => `(tactic| with_reducible refine ni_each4 ?_)

theorem ni_noise4 {p : ParamSet} {j j' : Fin 4 → Nat → UInt8} {s s' : Mem UInt8} {so : Nat} {n n' : Fin 4 → UInt8} :
    NI (noise4 p j s so n) (noise4 p j' s' so n') anyR := by
  unfold noise4
  dsimp only
  ni
macro_rules | `(tactic| ni_step) => `(tactic| with_reducible exact ni_noise4)

theorem ni_poly_getnoise_eta1_4x {p : ParamSet} {j j' : Fin 4 → Nat → UInt8} {r r' : Fin 4 → Poly} {s s' : Mem UInt8} {so : Nat} {n n' : Fin 4 → UInt8} :
    NI (poly_getnoise_eta1_4x p j r s so n) (poly_getnoise_eta1_4x p j' r' s' so n') anyR := by unfold poly_getnoise_eta1_4x; ni
theorem ni_poly_getnoise_eta1122_4x {p : ParamSet} {j j' : Fin 4 → Nat → UInt8} {r r' : Fin 4 → Poly} {s s' : Mem UInt8} {so : Nat} {n n' : Fin 4 → UInt8} :
    NI (poly_getnoise_eta1122_4x p j r s so n) (poly_getnoise_eta1122_4x p j' r' s' so n') anyR := by unfold poly_getnoise_eta1122_4x; ni
theorem ni_poly_getnoise_eta2 {r r' : Poly} {s s' : Mem UInt8} {so : Nat} {n n' : UInt8} : NI (poly_getnoise_eta2 r s so n) (poly_getnoise_eta2 r' s' so n') anyR := by
  unfold poly_getnoise_eta2
  dsimp only
  ni
macro_rules | `(tactic| ni_step) => `(tactic| with_reducible exact ni_poly_getnoise_eta1_4x)
macro_rules | `(tactic| ni_step) => `(tactic| with_reducible exact ni_poly_getnoise_eta1122_4x)
macro_rules | `(tactic| ni_step) => `(tactic| with_reducible exact ni_poly_getnoise_eta2)

theorem ni_keypair_noise {p : ParamSet} {j j' : Nat → Fin 4 → Nat → UInt8} {s s' : Mem UInt8} {so : Nat} {a a' b b' c c' : Polyvec} :
    NI (keypair_noise p j s so a b c) (keypair_noise p j' s' so a' b' c') anyR := by
  unfold keypair_noise
  cases p <;> dsimp only <;> ni
theorem ni_enc_noise {p : ParamSet} {j j' : Nat → Fin 4 → Nat → UInt8} {s s' : Mem UInt8} {so : Nat} {a a' b b' c c' : Polyvec} {e e' : Poly} :
    NI (enc_noise p j s so a b c e) (enc_noise p j' s' so a' b' c' e') anyR := by
  unfold enc_noise
  cases p <;> dsimp only <;> ni
macro_rules | `(tactic| ni_step) => `(tactic| with_reducible exact ni_keypair_noise)
macro_rules | `(tactic| ni_step) => `(tactic| with_reducible exact ni_enc_noise)

/-! ## The public matrix -/

theorem RB4.unique {s s' : Mem V4} {B : Fin 4 → List UInt8} (h : RB4 s B) (h' : RB4 s' B) : s = s' := by
  refine Array.ext (by rw [h.size, h'.size]) fun i hi hi' => ?_
  have hi25 : i < 25 := by rw [← h.size]; exact hi
  obtain ⟨v, hv⟩ := h.get hi25
  obtain ⟨v', hv'⟩ := h'.get hi25
  have e : v = v' := by
    funext j
    obtain ⟨u, hu, hb⟩ := (h j).2.2 i hi25
    obtain ⟨u', hu', hb'⟩ := (h' j).2.2 i hi25
    rw [projM_of hv j] at hu
    rw [projM_of hv' j] at hu'
    rw [Option.some.inj (Option.some.inj hu), Option.some.inj (Option.some.inj hu')]
    exact bit_ext fun z => by rw [hb, hb']
  rw [Array.getElem?_eq_getElem hi] at hv
  rw [Array.getElem?_eq_getElem hi'] at hv'
  rw [Option.some.inj hv, Option.some.inj hv', e]

theorem NI.and_eq {α : Type} {m m' : C α} {R : α → α → Prop} {P : α → Prop} (h : NI m m' R) (h1 : Runs m P) (h2 : Runs m' P) (hP : ∀ a b, P a → P b → a = b) : NI m m' Eq :=
  (NI.and_runs h h1 h2).mono fun a b hab => hP a b hab.1 hab.2

theorem NI.and_runsG {α : Type} {m m' : C α} {R : α → α → Prop} {g : Prop} {P : α → Prop} (h : NI m m' R) (h1 : RunsG g m P) : NI m m' (fun a b => R a b ∧ P a) := by
  by_cases hg : g
  · have := h1.1 hg
    cases m <;> cases m' <;> simp only [NI] at h ⊢
    exact ⟨h.1, h.2, this⟩
  · have := h1.2 hg
    subst this
    cases m' <;> simp only [NI] at h ⊢

/-- What the next group of entries needs to know. -/
def BatchOk (k : Nat) (s : Array Polyvec × M4 × Mem V4) : Prop := MatSz k s.1 ∧ (∀ j, (s.2.1 j).size = 504) ∧ s.2.2.size = 25

variable {rej : Rej} (hrej : RejSpec rej)

include hrej in
theorem ni_gen_batch {junk junk' : Fin 4 → Nat → UInt8} {fuel k : Nat} {tr : Bool} {s : Array Polyvec × M4 × Mem V4} {seed seed' : Mem UInt8} {so : Nat} {ρ : List UInt8}
    {pos : Fin 4 → Nat × Nat} {tt nt : Fin 4 → UInt8 × UInt8} (hs : BatchOk k s) (hρ : seed.Holds so ρ) (hρ' : seed'.Holds so ρ) (hl : ρ.length = 32)
    (hp : ∀ j, (pos j).1 < k ∧ (pos j).2 < k)
    (hxy : ∀ j, entrySeed ρ tr (pos j).1 (pos j).2 = ρ ++ [(if tr then tt j else nt j).1, (if tr then tt j else nt j).2]) :
    NI (gen_batchW rej junk fuel tr s seed so pos tt nt) (gen_batchW rej junk' fuel tr s seed' so pos tt nt) (fun a b => a = b ∧ BatchOk k a) := by
  obtain ⟨a, buf, st⟩ := s
  obtain ⟨ha, hbuf, hst⟩ := hs
  dsimp only at ha hbuf hst
  refine (NI.and_runsG (R := Eq) ?_ (gen_batchW_runsG hrej (D := fun _ _ => False) (fun _ _ => rfl) ⟨ha, fun _ _ _ _ h => h.elim⟩ hbuf hst hρ hl hp hxy)).mono
    fun x y h => ⟨h.1, h.2.1.mat, h.2.2.1, h.2.2.2⟩
  unfold gen_batchW
  dsimp only
  have hld : ∀ {seed : Mem UInt8}, seed.Holds so ρ → Runs (loadu seed so) (fun f => f = (List.range 32).map fun i => ρ.getD i 0) := fun hρ =>
    loadu_runs (f := fun i => ρ.getD i 0) fun i hi => hρ.getElem? 0 (by omega)
  refine (NI.and_runs ni_loadu (hld hρ) (hld hρ')).bind fun f f' hf => ?_
  obtain ⟨rfl, rfl⟩ := hf
  have h1 := each4_runs (f := fun j => storeu (buf j) 0 ((List.range 32).map fun i => ρ.getD i 0)) fun j => storeu_runs (f := fun i => ρ.getD i 0) (by rw [hbuf]; omega)
  refine NI.bind (R := fun a b => a = b ∧ ∀ j, (buf j).Upd (a j) 0 32 (fun i => ρ.getD i 0)) ?_ fun b1 b1' hb1 => ?_
  · exact (NI.and_runsG (ni_refl _) (g := True) ⟨fun _ => h1, fun h => absurd trivial h⟩)
  obtain ⟨rfl, hb1⟩ := hb1
  have hseed : Runs (cif tr
      (each4 fun j => do
        let b ← wr (b1 j) 32 (tt j).1
        wr b 33 (tt j).2)
      (each4 fun j => do
        let b ← wr (b1 j) 32 (nt j).1
        wr b 33 (nt j).2)) (fun b => ∀ j, (b j).size = 504 ∧ (b j).Holds 0 (entrySeed ρ tr (pos j).1 (pos j).2)) := by
    rw [runs_cif]
    have key : ∀ xy : Fin 4 → UInt8 × UInt8, Runs (each4 fun j => do
        let b ← wr (b1 j) 32 (xy j).1
        wr b 33 (xy j).2) (fun b => ∀ j, (b j).size = 504 ∧ (b j).Holds 0 (ρ ++ [(xy j).1, (xy j).2])) := fun xy =>
      (each4_runs fun j => seed_runs (buf := buf j) (by rw [hbuf]; omega) hl (fun i h => by
        rw [List.getD_eq_getElem?_getD, List.getElem?_eq_getElem h, Option.getD_some]) _ _ (hb1 j)).mono fun b hb j => by rw [← hbuf j]; exact hb j
    cases tr
    · refine ⟨fun h => absurd h (by simp), fun _ => (key nt).mono fun b hb j => ?_⟩
      rw [hxy]
      exact hb j
    · refine ⟨fun _ => (key tt).mono fun b hb j => ?_, fun h => absurd h (by simp)⟩
      rw [hxy]
      exact hb j
  refine (NI.and_runsG (ni_refl _) (g := True) ⟨fun _ => hseed, fun h => absurd trivial h⟩).bind fun b2 b2' hb2 => ?_
  obtain ⟨rfl, hb2⟩ := hb2
  have hlen : ∀ j, (entrySeed ρ tr (pos j).1 (pos j).2).length = 34 := fun j => by rw [hxy, List.length_append, hl]; rfl
  have habs := fun junk => shake128x4_absorb_once_runs (junk := junk) hst (fun j => (hb2 j).2) hlen (fun j => by rw [(hb2 j).1]; decide)
  exact NI.bindEq (NI.and_eq ni_shake128x4_absorb_once (habs junk) (habs junk') fun a b h h' => RB4.unique h h') fun _ => ni_refl _

theorem ni_gen_last {fuel : Nat} {a : Array Polyvec} {buf seed seed' : Mem UInt8} {so : Nat} (h : SameSeed seed seed' so) :
    NI (gen_lastW rej fuel a buf seed so) (gen_lastW rej fuel a buf seed' so) Eq := by
  unfold gen_lastW
  exact NI.bindEq (ni_loaduEq h) fun _ => ni_refl _

include hrej in
theorem ni_gen_matrix {p : ParamSet} {junk junk' : Fin 4 → Nat → UInt8} {fuel : Nat} {a : Array Polyvec} {seed seed' : Mem UInt8} {so : Nat} {ρ : List UInt8} {tr : Bool}
    (ha : MatSz (KYBER_K p) a) (hρ : seed.Holds so ρ) (hρ' : seed'.Holds so ρ) (hl : ρ.length = 32) :
    NI (gen_matrixW rej p junk fuel a seed so tr) (gen_matrixW rej p junk' fuel a seed' so tr) Eq := by
  have h0 : BatchOk (KYBER_K p) (a, (fun _ => Mem.uninit UInt8 (REJ_UNIFORM_AVX_NBLOCKS * SHAKE128_RATE) : M4), Mem.uninit V4 25) :=
    ⟨ha, fun j => Mem.size_uninit _, Mem.size_uninit _⟩
  unfold gen_matrixW
  generalize (a, (fun _ => Mem.uninit UInt8 (REJ_UNIFORM_AVX_NBLOCKS * SHAKE128_RATE) : M4), Mem.uninit V4 25) = s at h0 ⊢
  cases p with
  | k2 =>
    dsimp only
    refine (ni_gen_batch hrej h0 hρ hρ' hl (fun j => by match j with | 0 | 1 | 2 | 3 => decide) (fun j => by cases tr <;> match j with | 0 | 1 | 2 | 3 => rfl)).bind fun x y h => ?_
    obtain ⟨rfl, -⟩ := h
    exact ni_refl _
  | k3 =>
    dsimp only
    refine (ni_gen_batch hrej h0 hρ hρ' hl (fun j => by match j with | 0 | 1 | 2 | 3 => decide) (fun j => by cases tr <;> match j with | 0 | 1 | 2 | 3 => rfl)).bind fun x y h => ?_
    obtain ⟨rfl, h1⟩ := h
    refine (ni_gen_batch hrej h1 hρ hρ' hl (fun j => by match j with | 0 | 1 | 2 | 3 => decide) (fun j => by cases tr <;> match j with | 0 | 1 | 2 | 3 => rfl)).bind fun x y h => ?_
    obtain ⟨rfl, h2⟩ := h
    exact ni_gen_last (SameSeed.of_holds hl hρ hρ')
  | k4 =>
    dsimp only
    refine NI.bind (R := fun x y => x = y ∧ BatchOk 4 x) (ni_cfor _ ⟨rfl, h0⟩ fun i x y _ hi h => ?_) fun x y h => ?_
    · obtain ⟨rfl, h1⟩ := h
      exact ni_gen_batch hrej h1 hρ hρ' hl (fun n => by match n with | 0 | 1 | 2 | 3 => exact ⟨hi, by simp [q4]⟩) (fun j => by cases tr <;> match j with | 0 | 1 | 2 | 3 => rfl)
    · obtain ⟨rfl, -⟩ := h
      exact ni_refl _

/-! ## The calls -/

theorem ni_unpack_pk {p : ParamSet} {pk pk' : Polyvec} {seed s1 s2 : Mem UInt8} {po : Nat} (h : SameSeed s1 s2 (po + KYBER_POLYVECBYTES p)) :
    NI (unpack_pk p pk seed s1 po) (unpack_pk p pk' seed s2 po) (fun a b => a.2 = b.2) := by
  unfold unpack_pk
  exact NI.bind0 ni_polyvec_frombytes fun _ _ => (ni_memcpyEq h).bind fun _ _ e => ni_pure e

theorem ni_pack_pk {p : ParamSet} {r r' : Mem UInt8} {pk pk' : Polyvec} {s s' : Mem UInt8} {so : Nat} : NI (pack_pk p r pk s so) (pack_pk p r' pk' s' so) anyR := by
  unfold pack_pk; ni
theorem ni_pack_ciphertext {p : ParamSet} {r r' : Mem UInt8} {b b' : Polyvec} {v v' : Poly} : NI (pack_ciphertext p r b v) (pack_ciphertext p r' b' v') anyR := by
  unfold pack_ciphertext; ni
theorem ni_unpack_ciphertext {p : ParamSet} {b b' : Polyvec} {v v' : Poly} {c c' : Mem UInt8} : NI (unpack_ciphertext p b v c) (unpack_ciphertext p b' v' c') anyR := by
  unfold unpack_ciphertext; ni
macro_rules | `(tactic| ni_step) => `(tactic| with_reducible exact ni_pack_pk)
macro_rules | `(tactic| ni_step) => `(tactic| with_reducible exact ni_pack_ciphertext)
macro_rules | `(tactic| ni_step) => `(tactic| with_reducible exact ni_unpack_ciphertext)

theorem ni_indcpa_dec {p : ParamSet} {m m' : Mem UInt8} {mo : Nat} {c c' sk sk' : Mem UInt8} : NI (indcpa_dec p m mo c sk) (indcpa_dec p m' mo c' sk') anyR := by
  unfold indcpa_dec; ni
macro_rules | `(tactic| ni_step) => `(tactic| with_reducible exact ni_indcpa_dec)

include hrej in
theorem ni_indcpa_encW {p : ParamSet} {junk junk' : Nat → Fin 4 → Nat → UInt8} {fuel : Nat} {c c' m m' : Mem UInt8} {mo : Nat} {pk pk' : Mem UInt8} {po : Nat}
    {coins coins' : Mem UInt8} {co : Nat} {ρ : List UInt8} (h : pk.Holds (po + KYBER_POLYVECBYTES p) ρ) (h' : pk'.Holds (po + KYBER_POLYVECBYTES p) ρ) (hl : ρ.length = 32) :
    NI (indcpa_encW rej p junk fuel c m mo pk po coins co) (indcpa_encW rej p junk' fuel c' m' mo pk' po coins' co) anyR := by
  unfold indcpa_encW
  have hun : ∀ pk : Mem UInt8, pk.Holds (po + KYBER_POLYVECBYTES p) ρ → ∀ v s t, unpack_pk p (Polyvec.uninit p) (Mem.uninit UInt8 KYBER_SYMBYTES) pk po = .ok (v, s) t →
      s.Holds 0 ρ := by
    intro pk h v s t e
    unfold unpack_pk at e
    obtain ⟨v1, t1, t2, -, e⟩ := C.bind_ok e
    obtain ⟨s1, t3, t4, e1, e2⟩ := C.bind_ok e
    have := (runs_memcpy_str (dst := Mem.uninit UInt8 KYBER_SYMBYTES) (doff := 0) h hl (by rw [Mem.size_uninit]; decide)).safe.ok e1
    have e2 : C.ok (v1, s1) [] = C.ok (v, s) t4 := e2
    simp only [C.ok.injEq, Prod.mk.injEq] at e2
    rw [← e2.1.2]
    exact this.holds
  refine NI.bind (R := fun a b => a.2.Holds 0 ρ ∧ b.2.Holds 0 ρ) ?_ fun a b h => ?_
  · have hn := ni_unpack_pk (p := p) (pk := Polyvec.uninit p) (pk' := Polyvec.uninit p) (seed := Mem.uninit UInt8 KYBER_SYMBYTES) (SameSeed.of_holds hl h h')
    have a1 := hun pk h
    have a2 := hun pk' h'
    revert hn a1 a2
    generalize unpack_pk p (Polyvec.uninit p) (Mem.uninit UInt8 KYBER_SYMBYTES) pk po = m1
    generalize unpack_pk p (Polyvec.uninit p) (Mem.uninit UInt8 KYBER_SYMBYTES) pk' po = m2
    intro hn a1 a2
    cases m1 <;> cases m2 <;> simp only [NI] at hn ⊢
    exact ⟨hn.1, a1 _ _ _ rfl, a2 _ _ _ rfl⟩
  obtain ⟨pv, seed⟩ := a
  obtain ⟨pv', seed'⟩ := b
  dsimp only at h ⊢
  refine NI.bind0 ni_poly_frommsg fun _ _ => NI.bindEq (ni_gen_matrix hrej (matSz_uninit p) h.1 h.2 hl) fun _ => ?_
  ni

include hrej in
theorem ni_indcpa_keypair_derandW {p : ParamSet} {junk junk' : Nat → Fin 4 → Nat → UInt8} {fuel : Nat} {pk pk' sk sk' coins coins' : Mem UInt8} {d d' : List UInt8}
    (hd : coins.Holds 0 d) (hl : d.length = 32) (hd' : coins'.Holds 0 d') (hl' : d'.length = 32)
    (hG : (G (d ++ [UInt8.ofNat (KYBER_K p)])).1 = (G (d' ++ [UInt8.ofNat (KYBER_K p)])).1) :
    NI (indcpa_keypair_derandW rej p junk fuel pk sk coins) (indcpa_keypair_derandW rej p junk' fuel pk' sk' coins') anyR := by
  unfold indcpa_keypair_derandW
  dsimp only
  have hsym : KYBER_SYMBYTES = 32 := rfl
  rw [hsym]
  have hm := fun {coins : Mem UInt8} {d : List UInt8} (hd : coins.Holds 0 d) (hl : d.length = 32) =>
    runs_memcpy_str (dst := Mem.uninit UInt8 (2 * 32)) (doff := 0) hd hl (by decide)
  refine (NI.and_runs ni_memcpy (hm hd hl) (hm hd' hl')).bind fun b1 b1' h1 => ?_
  obtain ⟨hb1, hb1'⟩ := h1
  have hw := fun {b1 : Mem UInt8} {d : List UInt8} (hb1 : (Mem.uninit UInt8 (2 * 32)).Wrote b1 0 d) =>
    runs_wr_str (i := 32) (UInt8.ofNat (KYBER_K p)) (show 32 < b1.size by rw [hb1.size, Mem.size_uninit]; omega)
  refine (NI.and_runs ni_wr (hw hb1) (hw hb1')).bind fun b2 b2' h2 => ?_
  obtain ⟨hb2, hb2'⟩ := h2
  have ha : (Mem.uninit UInt8 (2 * 32)).Wrote b2 0 (d ++ [UInt8.ofNat (KYBER_K p)]) := hb1.append (by rwa [hl, Nat.zero_add])
  have ha' : (Mem.uninit UInt8 (2 * 32)).Wrote b2' 0 (d' ++ [UInt8.ofNat (KYBER_K p)]) := hb1'.append (by rwa [hl', Nat.zero_add])
  refine (NI.and_runs ni_sha3_512
    (hash_g_runs (h := b2) (ho := 0) ha.holds (by rw [List.length_append, hl]; rfl) (by rw [ha.size, Mem.size_uninit]))
    (hash_g_runs (h := b2') (ho := 0) ha'.holds (by rw [List.length_append, hl']; rfl) (by rw [ha'.size, Mem.size_uninit]))).bind fun b3 b3' h3 => ?_
  obtain ⟨⟨_, hρ, _⟩, ⟨_, hρ', _⟩⟩ := h3
  rw [← hG] at hρ'
  refine (ni_gen_matrix hrej (matSz_uninit p) hρ hρ' (G_fst_length _)).bind fun _ _ _ => ?_
  ni

include hrej in
theorem ni_crypto_kem_keypair_derandW {p : ParamSet} {junk junk' : Nat → Fin 4 → Nat → UInt8} {fuel : Nat} {pk pk' sk sk' coins coins' : Mem UInt8} {d d' : List UInt8}
    (hd : coins.Holds 0 d) (hl : d.length = 32) (hd' : coins'.Holds 0 d') (hl' : d'.length = 32)
    (hG : (G (d ++ [UInt8.ofNat (KYBER_K p)])).1 = (G (d' ++ [UInt8.ofNat (KYBER_K p)])).1) :
    NI (crypto_kem_keypair_derandW rej p junk fuel pk sk coins) (crypto_kem_keypair_derandW rej p junk' fuel pk' sk' coins') anyR := by
  unfold crypto_kem_keypair_derandW
  refine NI.bind0 (ni_indcpa_keypair_derandW hrej hd hl hd' hl' hG) fun _ _ => ?_
  ni

include hrej in
theorem ni_crypto_kem_enc_derandW {p : ParamSet} {junk junk' : Nat → Fin 4 → Nat → UInt8} {fuel : Nat} {ct ct' ss ss' pk pk' coins coins' : Mem UInt8} {ρ : List UInt8}
    (h : pk.Holds (KYBER_POLYVECBYTES p) ρ) (h' : pk'.Holds (KYBER_POLYVECBYTES p) ρ) (hl : ρ.length = 32) :
    NI (crypto_kem_enc_derandW rej p junk fuel ct ss pk coins) (crypto_kem_enc_derandW rej p junk' fuel ct' ss' pk' coins') anyR := by
  unfold crypto_kem_enc_derandW
  dsimp only
  rw [← Nat.zero_add (KYBER_POLYVECBYTES p)] at h h'
  refine NI.bind0 (by ni) fun _ _ => NI.bind0 (by ni) fun _ _ => NI.bind0 (by ni) fun _ _ => NI.bind0 (ni_indcpa_encW hrej h h' hl) fun _ _ => ?_
  ni

include hrej in
theorem ni_crypto_kem_decW {p : ParamSet} {junk junk' : Nat → Fin 4 → Nat → UInt8} {fuel : Nat} {ss ss' ct ct' sk sk' : Mem UInt8} {ρ : List UInt8}
    (h : sk.Holds (KYBER_INDCPA_SECRETKEYBYTES p + KYBER_POLYVECBYTES p) ρ) (h' : sk'.Holds (KYBER_INDCPA_SECRETKEYBYTES p + KYBER_POLYVECBYTES p) ρ) (hl : ρ.length = 32) :
    NI (crypto_kem_decW rej p junk fuel ss ct sk) (crypto_kem_decW rej p junk' fuel ss' ct' sk') anyR := by
  unfold crypto_kem_decW
  dsimp only
  refine NI.bind0 (by ni) fun _ _ => NI.bind0 (by ni) fun _ _ => NI.bind0 (by ni) fun _ _ => NI.bind0 (ni_indcpa_encW hrej h h' hl) fun _ _ => ?_
  refine NI.bind0 (by ni) fun _ _ => NI.bind0 (by ni) fun _ _ => NI.bind0 ni_cmov fun _ _ => ni_pure0

/-! ## The default build -/

theorem ni_crypto_kem_keypair_derand {p : ParamSet} {junk junk' : Nat → Fin 4 → Nat → UInt8} {fuel : Nat} {pk pk' sk sk' coins coins' : Mem UInt8} {d d' : List UInt8}
    (hd : coins.Holds 0 d) (hl : d.length = 32) (hd' : coins'.Holds 0 d') (hl' : d'.length = 32)
    (hG : (G (d ++ [UInt8.ofNat (KYBER_K p)])).1 = (G (d' ++ [UInt8.ofNat (KYBER_K p)])).1) :
    NI (crypto_kem_keypair_derand p junk fuel pk sk coins) (crypto_kem_keypair_derand p junk' fuel pk' sk' coins') anyR := by
  rw [← crypto_kem_keypair_derandW_avx]
  exact ni_crypto_kem_keypair_derandW rejSpec_avx hd hl hd' hl' hG

theorem ni_crypto_kem_enc_derand {p : ParamSet} {junk junk' : Nat → Fin 4 → Nat → UInt8} {fuel : Nat} {ct ct' ss ss' pk pk' coins coins' : Mem UInt8} {ρ : List UInt8}
    (h : pk.Holds (KYBER_POLYVECBYTES p) ρ) (h' : pk'.Holds (KYBER_POLYVECBYTES p) ρ) (hl : ρ.length = 32) :
    NI (crypto_kem_enc_derand p junk fuel ct ss pk coins) (crypto_kem_enc_derand p junk' fuel ct' ss' pk' coins') anyR := by
  rw [← crypto_kem_enc_derandW_avx]
  exact ni_crypto_kem_enc_derandW rejSpec_avx h h' hl

theorem ni_crypto_kem_dec {p : ParamSet} {junk junk' : Nat → Fin 4 → Nat → UInt8} {fuel : Nat} {ss ss' ct ct' sk sk' : Mem UInt8} {ρ : List UInt8}
    (h : sk.Holds (KYBER_INDCPA_SECRETKEYBYTES p + KYBER_POLYVECBYTES p) ρ) (h' : sk'.Holds (KYBER_INDCPA_SECRETKEYBYTES p + KYBER_POLYVECBYTES p) ρ) (hl : ρ.length = 32) :
    NI (crypto_kem_dec p junk fuel ss ct sk) (crypto_kem_dec p junk' fuel ss' ct' sk') anyR := by
  rw [← crypto_kem_decW_avx]
  exact ni_crypto_kem_decW rejSpec_avx h h' hl

end Verif.Avx
