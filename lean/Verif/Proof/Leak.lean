import Verif.C.NI
import Verif.Model.Kem

/-! # Leakage of every function: offsets and branches do not depend on the data

One lemma per function of the model: two runs on arbitrary contents (and equal lengths and offsets) leak the same trace. Functions whose loops
are bounded by variables kept in the loop state say in addition that these variables agree. `xof_absorb`, `gen_matrix` and their callers need the
public seed to agree. -/

namespace Verif.Model

theorem ni_montgomery_reduce {x0 y0 : Int} : NI (montgomery_reduce x0) (montgomery_reduce y0) anyR := by
  unfold montgomery_reduce; ni
macro_rules | `(tactic| ni_step) => `(tactic| with_reducible exact ni_montgomery_reduce)

theorem ni_barrett_reduce {x0 y0 : Int16} : NI (barrett_reduce x0) (barrett_reduce y0) anyR := by
  unfold barrett_reduce; ni
macro_rules | `(tactic| ni_step) => `(tactic| with_reducible exact ni_barrett_reduce)

theorem ni_fqmul {x0 y0 : Int16} {x1 y1 : Int16} : NI (fqmul x0 x1) (fqmul y0 y1) anyR := by
  unfold fqmul; ni
macro_rules | `(tactic| ni_step) => `(tactic| with_reducible exact ni_fqmul)

theorem ni_ntt {x0 y0 : Mem Int16} : NI (ntt x0) (ntt y0) anyR := by
  unfold ntt
  refine NI.bind (R := fun a b => a.2 = b.2) ?_ fun a b _ => ni_pure0
  refine ni_cwhile _ rfl (fun a b h => by rw [h]) fun a b h => ?_
  obtain ⟨a, k, len⟩ := a
  obtain ⟨b, k', len'⟩ := b
  obtain ⟨rfl, rfl⟩ := Prod.mk.inj h
  dsimp only
  refine NI.bind (R := fun a b => a.2 = b.2) ?_ fun a b h => ?_
  · refine ni_cwhile _ rfl (fun a b h => by rw [h]) fun a b h => ?_
    obtain ⟨a, k, start⟩ := a
    obtain ⟨b, k', start'⟩ := b
    obtain ⟨rfl, rfl⟩ := Prod.mk.inj h
    dsimp only
    refine NI.bind0 ni_rd fun _ _ => NI.bind0 ?_ fun _ _ => ni_pure rfl
    ni
  · obtain ⟨a, k, start⟩ := a
    obtain ⟨b, k', start'⟩ := b
    obtain ⟨rfl, rfl⟩ := Prod.mk.inj h
    exact ni_pure rfl
macro_rules | `(tactic| ni_step) => `(tactic| with_reducible exact ni_ntt)

theorem ni_invntt {x0 y0 : Mem Int16} : NI (invntt x0) (invntt y0) anyR := by
  unfold invntt
  dsimp only
  refine NI.bind (R := fun a b => a.2 = b.2) ?_ fun a b _ => by ni
  refine ni_cwhile _ rfl (fun a b h => by rw [h]) fun a b h => ?_
  obtain ⟨a, k, len⟩ := a
  obtain ⟨b, k', len'⟩ := b
  obtain ⟨rfl, rfl⟩ := Prod.mk.inj h
  dsimp only
  refine NI.bind (R := fun a b => a.2 = b.2) ?_ fun a b h => ?_
  · refine ni_cwhile _ rfl (fun a b h => by rw [h]) fun a b h => ?_
    obtain ⟨a, k, start⟩ := a
    obtain ⟨b, k', start'⟩ := b
    obtain ⟨rfl, rfl⟩ := Prod.mk.inj h
    dsimp only
    refine NI.bind0 ni_rd fun _ _ => NI.bind0 ?_ fun _ _ => ni_pure rfl
    ni
  · obtain ⟨a, k, start⟩ := a
    obtain ⟨b, k', start'⟩ := b
    obtain ⟨rfl, rfl⟩ := Prod.mk.inj h
    exact ni_pure rfl
macro_rules | `(tactic| ni_step) => `(tactic| with_reducible exact ni_invntt)

theorem ni_basemul {x0 y0 : Mem Int16} {x1 y1 : Mem Int16} {x2 y2 : Mem Int16} {x3 : Nat} {x4 y4 : Int16} : NI (basemul x0 x1 x2 x3 x4) (basemul y0 y1 y2 x3 y4) anyR := by
  unfold basemul; ni
macro_rules | `(tactic| ni_step) => `(tactic| with_reducible exact ni_basemul)

theorem ni_load32_littleendian {x0 y0 : Mem UInt8} {x1 : Nat} : NI (load32_littleendian x0 x1) (load32_littleendian y0 x1) anyR := by
  unfold load32_littleendian; ni
macro_rules | `(tactic| ni_step) => `(tactic| with_reducible exact ni_load32_littleendian)

theorem ni_load24_littleendian {x0 y0 : Mem UInt8} {x1 : Nat} : NI (load24_littleendian x0 x1) (load24_littleendian y0 x1) anyR := by
  unfold load24_littleendian; ni
macro_rules | `(tactic| ni_step) => `(tactic| with_reducible exact ni_load24_littleendian)

theorem ni_cbd2 {x0 y0 : Poly} {x1 y1 : Mem UInt8} : NI (cbd2 x0 x1) (cbd2 y0 y1) anyR := by
  unfold cbd2; ni
macro_rules | `(tactic| ni_step) => `(tactic| with_reducible exact ni_cbd2)

theorem ni_cbd3 {x0 y0 : Poly} {x1 y1 : Mem UInt8} : NI (cbd3 x0 x1) (cbd3 y0 y1) anyR := by
  unfold cbd3; ni
macro_rules | `(tactic| ni_step) => `(tactic| with_reducible exact ni_cbd3)

theorem ni_poly_cbd_eta1 {x0 : ParamSet} {x1 y1 : Poly} {x2 y2 : Mem UInt8} : NI (poly_cbd_eta1 x0 x1 x2) (poly_cbd_eta1 x0 y1 y2) anyR := by
  unfold poly_cbd_eta1; ni
macro_rules | `(tactic| ni_step) => `(tactic| with_reducible exact ni_poly_cbd_eta1)

theorem ni_poly_cbd_eta2 {x0 y0 : Poly} {x1 y1 : Mem UInt8} : NI (poly_cbd_eta2 x0 x1) (poly_cbd_eta2 y0 y1) anyR := by
  unfold poly_cbd_eta2; ni
macro_rules | `(tactic| ni_step) => `(tactic| with_reducible exact ni_poly_cbd_eta2)

theorem ni_verify {x0 y0 : Mem UInt8} {x1 : Nat} {x2 y2 : Mem UInt8} {x3 : Nat} {x4 : Nat} : NI (verify x0 x1 x2 x3 x4) (verify y0 x1 y2 x3 x4) anyR := by
  unfold verify; ni
macro_rules | `(tactic| ni_step) => `(tactic| with_reducible exact ni_verify)

theorem ni_cmov {x0 y0 : Mem UInt8} {x1 : Nat} {x2 y2 : Mem UInt8} {x3 : Nat} {x4 : Nat} {x5 y5 : UInt8} : NI (cmov x0 x1 x2 x3 x4 x5) (cmov y0 x1 y2 x3 x4 y5) anyR := by
  unfold cmov; ni
macro_rules | `(tactic| ni_step) => `(tactic| with_reducible exact ni_cmov)

theorem ni_cmov_int16 {x0 y0 : Mem Int16} {x1 : Nat} {x2 y2 : Int16} {x3 y3 : UInt16} : NI (cmov_int16 x0 x1 x2 x3) (cmov_int16 y0 x1 y2 y3) anyR := by
  unfold cmov_int16; ni
macro_rules | `(tactic| ni_step) => `(tactic| with_reducible exact ni_cmov_int16)

theorem ni_copyFromState {x0 y0 : Mem UInt64} : NI (copyFromState x0) (copyFromState y0) anyR := by
  unfold copyFromState; ni
macro_rules | `(tactic| ni_step) => `(tactic| with_reducible exact ni_copyFromState)

theorem ni_copyToState {x0 y0 : Mem UInt64} {x1 y1 : Lanes} : NI (copyToState x0 x1) (copyToState y0 y1) anyR := by
  unfold copyToState; ni
macro_rules | `(tactic| ni_step) => `(tactic| with_reducible exact ni_copyToState)

theorem ni_KeccakF1600_StatePermute {x0 y0 : Mem UInt64} : NI (KeccakF1600_StatePermute x0) (KeccakF1600_StatePermute y0) anyR := by
  unfold KeccakF1600_StatePermute; ni
macro_rules | `(tactic| ni_step) => `(tactic| with_reducible exact ni_KeccakF1600_StatePermute)

theorem ni_load64 {x0 y0 : Mem UInt8} {x1 : Nat} : NI (load64 x0 x1) (load64 y0 x1) anyR := by
  unfold load64; ni
macro_rules | `(tactic| ni_step) => `(tactic| with_reducible exact ni_load64)

theorem ni_store64 {x0 y0 : Mem UInt8} {x1 : Nat} {x2 y2 : UInt64} : NI (store64 x0 x1 x2) (store64 y0 x1 y2) anyR := by
  unfold store64; ni
macro_rules | `(tactic| ni_step) => `(tactic| with_reducible exact ni_store64)

theorem ni_keccak_init {x0 y0 : Mem UInt64} : NI (keccak_init x0) (keccak_init y0) anyR := by
  unfold keccak_init; ni
macro_rules | `(tactic| ni_step) => `(tactic| with_reducible exact ni_keccak_init)

theorem ni_xorByte {x0 y0 : Mem UInt64} {x1 : Nat} {x2 y2 : UInt8} : NI (xorByte x0 x1 x2) (xorByte y0 x1 y2) anyR := by
  unfold xorByte; ni
macro_rules | `(tactic| ni_step) => `(tactic| with_reducible exact ni_xorByte)

theorem ni_keccak_absorb {s s' : Mem UInt64} {pos r : Nat} {inp inp' : Mem UInt8} {io inlen : Nat} :
    NI (keccak_absorb s pos r inp io inlen) (keccak_absorb s' pos r inp' io inlen) (fun a b => a.2 = b.2) := by
  unfold keccak_absorb
  refine NI.bind (R := fun a b => a.2 = b.2) ?_ fun a b h => ?_
  · refine ni_cwhile _ rfl (fun a b h => by rw [h]) fun a b h => ?_
    obtain ⟨a, k, len⟩ := a
    obtain ⟨b, k', len'⟩ := b
    obtain ⟨rfl, rfl⟩ := Prod.mk.inj h
    dsimp only
    refine NI.bind0 (by ni) fun _ _ => NI.bind0 ni_KeccakF1600_StatePermute fun _ _ => ni_pure rfl
  · obtain ⟨a, k, i, len⟩ := a
    obtain ⟨b, k', i', len'⟩ := b
    obtain ⟨rfl, hs⟩ := Prod.mk.inj h
    obtain ⟨rfl, rfl⟩ := Prod.mk.inj hs
    dsimp only
    refine NI.bind0 (by ni) fun _ _ => ni_pure rfl

theorem ni_keccak_finalize {x0 y0 : Mem UInt64} {x1 : Nat} {x2 : Nat} {x3 y3 : UInt8} : NI (keccak_finalize x0 x1 x2 x3) (keccak_finalize y0 x1 x2 y3) anyR := by
  unfold keccak_finalize; ni
macro_rules | `(tactic| ni_step) => `(tactic| with_reducible exact ni_keccak_finalize)

theorem ni_keccak_squeeze {out out' : Mem UInt8} {oo outlen : Nat} {s s' : Mem UInt64} {pos r : Nat} :
    NI (keccak_squeeze out oo outlen s pos r) (keccak_squeeze out' oo outlen s' pos r) (fun a b => a.2.2 = b.2.2) := by
  unfold keccak_squeeze
  refine NI.bind (R := fun a b => a.2.1 = b.2.1 ∧ a.2.2.1 = b.2.2.1 ∧ a.2.2.2.2 = b.2.2.2.2) ?_ fun a b h => ni_pure h.2.2
  refine ni_cwhile _ ⟨rfl, rfl, rfl⟩ (fun a b h => by rw [h.2.1]) fun a b h => ?_
  obtain ⟨o1, oo, len, s1, pos⟩ := a
  obtain ⟨o2, oo', len', s2, pos'⟩ := b
  obtain ⟨h1, h2, h3⟩ := h
  dsimp only at h1 h2 h3 ⊢
  subst h1 h2 h3
  refine NI.bind (R := fun a b => a.2 = b.2) (ni_cif (NI.bind0 ni_KeccakF1600_StatePermute fun _ _ => ni_pure rfl) (ni_pure rfl)) fun a b h => ?_
  obtain ⟨s1, pos⟩ := a
  obtain ⟨s2, pos'⟩ := b
  dsimp only at h ⊢
  subst h
  exact NI.bind0 (by ni) fun _ _ => ni_pure ⟨rfl, rfl, rfl⟩

theorem ni_keccak_absorb_once {s s' : Mem UInt64} {r : Nat} {inp inp' : Mem UInt8} {io inlen : Nat} {p : UInt8} :
    NI (keccak_absorb_once s r inp io inlen p) (keccak_absorb_once s' r inp' io inlen p) anyR := by
  unfold keccak_absorb_once
  refine NI.bind0 (by ni) fun _ _ => NI.bind (R := fun a b => a.2 = b.2) ?_ fun a b h => ?_
  · refine ni_cwhile _ rfl (fun a b h => by rw [h]) fun a b h => ?_
    obtain ⟨a, k, len⟩ := a
    obtain ⟨b, k', len'⟩ := b
    obtain ⟨rfl, rfl⟩ := Prod.mk.inj h
    dsimp only
    refine NI.bind0 (by ni) fun _ _ => NI.bind0 ni_KeccakF1600_StatePermute fun _ _ => ni_pure rfl
  · obtain ⟨a, k, len⟩ := a
    obtain ⟨b, k', len'⟩ := b
    obtain ⟨rfl, rfl⟩ := Prod.mk.inj h
    dsimp only
    ni
macro_rules | `(tactic| ni_step) => `(tactic| with_reducible exact ni_keccak_absorb_once)

theorem ni_keccak_squeezeblocks {out out' : Mem UInt8} {oo n : Nat} {s s' : Mem UInt64} {r : Nat} :
    NI (keccak_squeezeblocks out oo n s r) (keccak_squeezeblocks out' oo n s' r) anyR := by
  unfold keccak_squeezeblocks
  refine NI.bind (R := fun a b => a.2.1 = b.2.1 ∧ a.2.2.1 = b.2.2.1) ?_ fun a b _ => ni_pure0
  refine ni_cwhile _ ⟨rfl, rfl⟩ (fun a b h => by rw [h.2]) fun a b h => ?_
  obtain ⟨o1, oo, len, s1⟩ := a
  obtain ⟨o2, oo', len', s2⟩ := b
  obtain ⟨h1, h2⟩ := h
  dsimp only at h1 h2 ⊢
  subst h1 h2
  exact NI.bind0 ni_KeccakF1600_StatePermute fun _ _ => NI.bind0 (by ni) fun _ _ => ni_pure ⟨rfl, rfl⟩
macro_rules | `(tactic| ni_step) => `(tactic| with_reducible exact ni_keccak_squeezeblocks)

theorem ni_getPos {st st' : KeccakState} (h : st.pos = st'.pos) : NI st.getPos st'.getPos Eq := by
  unfold KeccakState.getPos; rw [h]; exact ni_refl _

theorem ni_shake128_init {st st' : KeccakState} : NI (shake128_init st) (shake128_init st') (fun a b => a.pos = b.pos) := by
  unfold shake128_init; exact NI.bind0 ni_keccak_init fun _ _ => ni_pure rfl

theorem ni_shake128_absorb {st st' : KeccakState} {inp inp' : Mem UInt8} {io inlen : Nat} (h : st.pos = st'.pos) :
    NI (shake128_absorb st inp io inlen) (shake128_absorb st' inp' io inlen) (fun a b => a.pos = b.pos) := by
  unfold shake128_absorb
  refine NI.bindEq (ni_getPos h) fun p => ni_keccak_absorb.bind fun a b h => ?_
  obtain ⟨s1, pos⟩ := a
  obtain ⟨s2, pos'⟩ := b
  dsimp only at h ⊢
  subst h
  exact ni_pure rfl

theorem ni_shake128_finalize {st st' : KeccakState} (h : st.pos = st'.pos) : NI (shake128_finalize st) (shake128_finalize st') (fun a b => a.pos = b.pos) := by
  unfold shake128_finalize
  exact NI.bindEq (ni_getPos h) fun p => NI.bind0 ni_keccak_finalize fun _ _ => ni_pure rfl

theorem ni_shake128_squeeze {out out' : Mem UInt8} {oo outlen : Nat} {st st' : KeccakState} (h : st.pos = st'.pos) :
    NI (shake128_squeeze out oo outlen st) (shake128_squeeze out' oo outlen st') (fun a b => a.2.pos = b.2.pos) := by
  unfold shake128_squeeze
  refine NI.bindEq (ni_getPos h) fun p => ni_keccak_squeeze.bind fun a b h => ?_
  obtain ⟨o1, s1, pos⟩ := a
  obtain ⟨o2, s2, pos'⟩ := b
  dsimp only at h ⊢
  subst h
  exact ni_pure rfl

theorem ni_shake128_absorb_once {st st' : KeccakState} {inp inp' : Mem UInt8} {io inlen : Nat} :
    NI (shake128_absorb_once st inp io inlen) (shake128_absorb_once st' inp' io inlen) (fun a b => a.pos = b.pos) := by
  unfold shake128_absorb_once
  exact NI.bind0 ni_keccak_absorb_once fun _ _ => ni_pure rfl

theorem ni_shake128_squeezeblocks {out out' : Mem UInt8} {oo n : Nat} {st st' : KeccakState} (h : st.pos = st'.pos) :
    NI (shake128_squeezeblocks out oo n st) (shake128_squeezeblocks out' oo n st') (fun a b => a.2.pos = b.2.pos) := by
  unfold shake128_squeezeblocks
  exact NI.bind0 ni_keccak_squeezeblocks fun _ _ => ni_pure h

theorem ni_shake128 {out out' : Mem UInt8} {oo outlen : Nat} {inp inp' : Mem UInt8} {io inlen : Nat} :
    NI (shake128 out oo outlen inp io inlen) (shake128 out' oo outlen inp' io inlen) anyR := by
  unfold shake128
  refine ni_shake128_absorb_once.bind fun a b h => (ni_shake128_squeezeblocks h).bind fun a b h => ?_
  obtain ⟨o1, s1⟩ := a
  obtain ⟨o2, s2⟩ := b
  exact (ni_shake128_squeeze h).bind fun _ _ _ => ni_pure0
macro_rules | `(tactic| ni_step) => `(tactic| with_reducible exact ni_shake128)

theorem ni_shake256_init {st st' : KeccakState} : NI (shake256_init st) (shake256_init st') (fun a b => a.pos = b.pos) := by
  unfold shake256_init; exact NI.bind0 ni_keccak_init fun _ _ => ni_pure rfl

theorem ni_shake256_absorb {st st' : KeccakState} {inp inp' : Mem UInt8} {io inlen : Nat} (h : st.pos = st'.pos) :
    NI (shake256_absorb st inp io inlen) (shake256_absorb st' inp' io inlen) (fun a b => a.pos = b.pos) := by
  unfold shake256_absorb
  refine NI.bindEq (ni_getPos h) fun p => ni_keccak_absorb.bind fun a b h => ?_
  obtain ⟨s1, pos⟩ := a
  obtain ⟨s2, pos'⟩ := b
  dsimp only at h ⊢
  subst h
  exact ni_pure rfl

theorem ni_shake256_finalize {st st' : KeccakState} (h : st.pos = st'.pos) : NI (shake256_finalize st) (shake256_finalize st') (fun a b => a.pos = b.pos) := by
  unfold shake256_finalize
  exact NI.bindEq (ni_getPos h) fun p => NI.bind0 ni_keccak_finalize fun _ _ => ni_pure rfl

theorem ni_shake256_squeeze {out out' : Mem UInt8} {oo outlen : Nat} {st st' : KeccakState} (h : st.pos = st'.pos) :
    NI (shake256_squeeze out oo outlen st) (shake256_squeeze out' oo outlen st') (fun a b => a.2.pos = b.2.pos) := by
  unfold shake256_squeeze
  refine NI.bindEq (ni_getPos h) fun p => ni_keccak_squeeze.bind fun a b h => ?_
  obtain ⟨o1, s1, pos⟩ := a
  obtain ⟨o2, s2, pos'⟩ := b
  dsimp only at h ⊢
  subst h
  exact ni_pure rfl

theorem ni_shake256_absorb_once {st st' : KeccakState} {inp inp' : Mem UInt8} {io inlen : Nat} :
    NI (shake256_absorb_once st inp io inlen) (shake256_absorb_once st' inp' io inlen) (fun a b => a.pos = b.pos) := by
  unfold shake256_absorb_once
  exact NI.bind0 ni_keccak_absorb_once fun _ _ => ni_pure rfl

theorem ni_shake256_squeezeblocks {out out' : Mem UInt8} {oo n : Nat} {st st' : KeccakState} (h : st.pos = st'.pos) :
    NI (shake256_squeezeblocks out oo n st) (shake256_squeezeblocks out' oo n st') (fun a b => a.2.pos = b.2.pos) := by
  unfold shake256_squeezeblocks
  exact NI.bind0 ni_keccak_squeezeblocks fun _ _ => ni_pure h

theorem ni_shake256 {out out' : Mem UInt8} {oo outlen : Nat} {inp inp' : Mem UInt8} {io inlen : Nat} :
    NI (shake256 out oo outlen inp io inlen) (shake256 out' oo outlen inp' io inlen) anyR := by
  unfold shake256
  refine ni_shake256_absorb_once.bind fun a b h => (ni_shake256_squeezeblocks h).bind fun a b h => ?_
  obtain ⟨o1, s1⟩ := a
  obtain ⟨o2, s2⟩ := b
  exact (ni_shake256_squeeze h).bind fun _ _ _ => ni_pure0
macro_rules | `(tactic| ni_step) => `(tactic| with_reducible exact ni_shake256)

theorem ni_sha3_256 {x0 y0 : Mem UInt8} {x1 : Nat} {x2 y2 : Mem UInt8} {x3 : Nat} {x4 : Nat} : NI (sha3_256 x0 x1 x2 x3 x4) (sha3_256 y0 x1 y2 x3 x4) anyR := by
  unfold sha3_256; ni
macro_rules | `(tactic| ni_step) => `(tactic| with_reducible exact ni_sha3_256)

theorem ni_sha3_512 {x0 y0 : Mem UInt8} {x1 : Nat} {x2 y2 : Mem UInt8} {x3 : Nat} {x4 : Nat} : NI (sha3_512 x0 x1 x2 x3 x4) (sha3_512 y0 x1 y2 x3 x4) anyR := by
  unfold sha3_512; ni
macro_rules | `(tactic| ni_step) => `(tactic| with_reducible exact ni_sha3_512)

theorem ni_prf {x0 y0 : Mem UInt8} {x1 : Nat} {x2 : Nat} {x3 y3 : Mem UInt8} {x4 : Nat} {x5 y5 : UInt8} : NI (prf x0 x1 x2 x3 x4 x5) (prf y0 x1 x2 y3 x4 y5) anyR := by
  unfold prf; ni
macro_rules | `(tactic| ni_step) => `(tactic| with_reducible exact ni_prf)

theorem ni_rkprf {x0 : ParamSet} {x1 y1 : Mem UInt8} {x2 : Nat} {x3 y3 : Mem UInt8} {x4 : Nat} {x5 y5 : Mem UInt8} {x6 : Nat} : NI (rkprf x0 x1 x2 x3 x4 x5 x6) (rkprf x0 y1 x2 y3 x4 y5 x6) anyR := by
  unfold rkprf
  exact ni_shake256_init.bind fun _ _ h => (ni_shake256_absorb h).bind fun _ _ h => (ni_shake256_absorb h).bind fun _ _ h =>
    (ni_shake256_finalize h).bind fun _ _ h => (ni_shake256_squeeze h).bind fun _ _ _ => ni_pure0
macro_rules | `(tactic| ni_step) => `(tactic| with_reducible exact ni_rkprf)

theorem ni_caddq {x0 y0 : Int16} : NI (caddq x0) (caddq y0) anyR := by
  unfold caddq; ni
macro_rules | `(tactic| ni_step) => `(tactic| with_reducible exact ni_caddq)

theorem ni_caddq16 {x0 y0 : UInt16} : NI (caddq16 x0) (caddq16 y0) anyR := by
  unfold caddq16; ni
macro_rules | `(tactic| ni_step) => `(tactic| with_reducible exact ni_caddq16)

theorem ni_poly_compress_128 {x0 y0 : Mem UInt8} {x1 : Nat} {x2 y2 : Poly} : NI (poly_compress_128 x0 x1 x2) (poly_compress_128 y0 x1 y2) anyR := by
  unfold poly_compress_128; ni
macro_rules | `(tactic| ni_step) => `(tactic| with_reducible exact ni_poly_compress_128)

theorem ni_poly_compress_160 {x0 y0 : Mem UInt8} {x1 : Nat} {x2 y2 : Poly} : NI (poly_compress_160 x0 x1 x2) (poly_compress_160 y0 x1 y2) anyR := by
  unfold poly_compress_160; ni
macro_rules | `(tactic| ni_step) => `(tactic| with_reducible exact ni_poly_compress_160)

theorem ni_poly_compress {x0 : ParamSet} {x1 y1 : Mem UInt8} {x2 : Nat} {x3 y3 : Poly} : NI (poly_compress x0 x1 x2 x3) (poly_compress x0 y1 x2 y3) anyR := by
  unfold poly_compress; ni
macro_rules | `(tactic| ni_step) => `(tactic| with_reducible exact ni_poly_compress)

theorem ni_poly_decompress_128 {x0 y0 : Poly} {x1 y1 : Mem UInt8} {x2 : Nat} : NI (poly_decompress_128 x0 x1 x2) (poly_decompress_128 y0 y1 x2) anyR := by
  unfold poly_decompress_128; ni
macro_rules | `(tactic| ni_step) => `(tactic| with_reducible exact ni_poly_decompress_128)

theorem ni_poly_decompress_160 {x0 y0 : Poly} {x1 y1 : Mem UInt8} {x2 : Nat} : NI (poly_decompress_160 x0 x1 x2) (poly_decompress_160 y0 y1 x2) anyR := by
  unfold poly_decompress_160; ni
macro_rules | `(tactic| ni_step) => `(tactic| with_reducible exact ni_poly_decompress_160)

theorem ni_poly_decompress {x0 : ParamSet} {x1 y1 : Poly} {x2 y2 : Mem UInt8} {x3 : Nat} : NI (poly_decompress x0 x1 x2 x3) (poly_decompress x0 y1 y2 x3) anyR := by
  unfold poly_decompress; ni
macro_rules | `(tactic| ni_step) => `(tactic| with_reducible exact ni_poly_decompress)

theorem ni_poly_tobytes {x0 y0 : Mem UInt8} {x1 : Nat} {x2 y2 : Poly} : NI (poly_tobytes x0 x1 x2) (poly_tobytes y0 x1 y2) anyR := by
  unfold poly_tobytes; ni
macro_rules | `(tactic| ni_step) => `(tactic| with_reducible exact ni_poly_tobytes)

theorem ni_poly_frombytes {x0 y0 : Poly} {x1 y1 : Mem UInt8} {x2 : Nat} : NI (poly_frombytes x0 x1 x2) (poly_frombytes y0 y1 x2) anyR := by
  unfold poly_frombytes; ni
macro_rules | `(tactic| ni_step) => `(tactic| with_reducible exact ni_poly_frombytes)

theorem ni_poly_frommsg {x0 y0 : Poly} {x1 y1 : Mem UInt8} {x2 : Nat} : NI (poly_frommsg x0 x1 x2) (poly_frommsg y0 y1 x2) anyR := by
  unfold poly_frommsg; ni
macro_rules | `(tactic| ni_step) => `(tactic| with_reducible exact ni_poly_frommsg)

theorem ni_poly_tomsg {x0 y0 : Mem UInt8} {x1 : Nat} {x2 y2 : Poly} : NI (poly_tomsg x0 x1 x2) (poly_tomsg y0 x1 y2) anyR := by
  unfold poly_tomsg; ni
macro_rules | `(tactic| ni_step) => `(tactic| with_reducible exact ni_poly_tomsg)

theorem ni_poly_getnoise_eta1 {x0 : ParamSet} {x1 y1 : Poly} {x2 y2 : Mem UInt8} {x3 : Nat} {x4 y4 : UInt8} : NI (poly_getnoise_eta1 x0 x1 x2 x3 x4) (poly_getnoise_eta1 x0 y1 y2 x3 y4) anyR := by
  unfold poly_getnoise_eta1; ni
macro_rules | `(tactic| ni_step) => `(tactic| with_reducible exact ni_poly_getnoise_eta1)

theorem ni_poly_getnoise_eta2 {x0 y0 : Poly} {x1 y1 : Mem UInt8} {x2 : Nat} {x3 y3 : UInt8} : NI (poly_getnoise_eta2 x0 x1 x2 x3) (poly_getnoise_eta2 y0 y1 x2 y3) anyR := by
  unfold poly_getnoise_eta2; ni
macro_rules | `(tactic| ni_step) => `(tactic| with_reducible exact ni_poly_getnoise_eta2)

theorem ni_poly_reduce {x0 y0 : Poly} : NI (poly_reduce x0) (poly_reduce y0) anyR := by
  unfold poly_reduce; ni
macro_rules | `(tactic| ni_step) => `(tactic| with_reducible exact ni_poly_reduce)

theorem ni_poly_ntt {x0 y0 : Poly} : NI (poly_ntt x0) (poly_ntt y0) anyR := by
  unfold poly_ntt; ni
macro_rules | `(tactic| ni_step) => `(tactic| with_reducible exact ni_poly_ntt)

theorem ni_poly_invntt_tomont {x0 y0 : Poly} : NI (poly_invntt_tomont x0) (poly_invntt_tomont y0) anyR := by
  unfold poly_invntt_tomont; ni
macro_rules | `(tactic| ni_step) => `(tactic| with_reducible exact ni_poly_invntt_tomont)

theorem ni_poly_basemul_montgomery {x0 y0 : Poly} {x1 y1 : Poly} {x2 y2 : Poly} : NI (poly_basemul_montgomery x0 x1 x2) (poly_basemul_montgomery y0 y1 y2) anyR := by
  unfold poly_basemul_montgomery; ni
macro_rules | `(tactic| ni_step) => `(tactic| with_reducible exact ni_poly_basemul_montgomery)

theorem ni_poly_tomont {x0 y0 : Poly} : NI (poly_tomont x0) (poly_tomont y0) anyR := by
  unfold poly_tomont; ni
macro_rules | `(tactic| ni_step) => `(tactic| with_reducible exact ni_poly_tomont)

theorem ni_poly_add {x0 y0 : Poly} {x1 y1 : Poly} {x2 y2 : Poly} : NI (poly_add x0 x1 x2) (poly_add y0 y1 y2) anyR := by
  unfold poly_add; ni
macro_rules | `(tactic| ni_step) => `(tactic| with_reducible exact ni_poly_add)

theorem ni_poly_sub {x0 y0 : Poly} {x1 y1 : Poly} {x2 y2 : Poly} : NI (poly_sub x0 x1 x2) (poly_sub y0 y1 y2) anyR := by
  unfold poly_sub; ni
macro_rules | `(tactic| ni_step) => `(tactic| with_reducible exact ni_poly_sub)

theorem ni_polyvec_compress_352 {x0 : ParamSet} {x1 y1 : Mem UInt8} {x2 : Nat} {x3 y3 : Polyvec} : NI (polyvec_compress_352 x0 x1 x2 x3) (polyvec_compress_352 x0 y1 x2 y3) anyR := by
  unfold polyvec_compress_352; ni
macro_rules | `(tactic| ni_step) => `(tactic| with_reducible exact ni_polyvec_compress_352)

theorem ni_polyvec_compress_320 {x0 : ParamSet} {x1 y1 : Mem UInt8} {x2 : Nat} {x3 y3 : Polyvec} : NI (polyvec_compress_320 x0 x1 x2 x3) (polyvec_compress_320 x0 y1 x2 y3) anyR := by
  unfold polyvec_compress_320; ni
macro_rules | `(tactic| ni_step) => `(tactic| with_reducible exact ni_polyvec_compress_320)

theorem ni_polyvec_compress {x0 : ParamSet} {x1 y1 : Mem UInt8} {x2 : Nat} {x3 y3 : Polyvec} : NI (polyvec_compress x0 x1 x2 x3) (polyvec_compress x0 y1 x2 y3) anyR := by
  unfold polyvec_compress; ni
macro_rules | `(tactic| ni_step) => `(tactic| with_reducible exact ni_polyvec_compress)

theorem ni_polyvec_decompress_352 {x0 : ParamSet} {x1 y1 : Polyvec} {x2 y2 : Mem UInt8} {x3 : Nat} : NI (polyvec_decompress_352 x0 x1 x2 x3) (polyvec_decompress_352 x0 y1 y2 x3) anyR := by
  unfold polyvec_decompress_352; ni
macro_rules | `(tactic| ni_step) => `(tactic| with_reducible exact ni_polyvec_decompress_352)

theorem ni_polyvec_decompress_320 {x0 : ParamSet} {x1 y1 : Polyvec} {x2 y2 : Mem UInt8} {x3 : Nat} : NI (polyvec_decompress_320 x0 x1 x2 x3) (polyvec_decompress_320 x0 y1 y2 x3) anyR := by
  unfold polyvec_decompress_320; ni
macro_rules | `(tactic| ni_step) => `(tactic| with_reducible exact ni_polyvec_decompress_320)

theorem ni_polyvec_decompress {x0 : ParamSet} {x1 y1 : Polyvec} {x2 y2 : Mem UInt8} {x3 : Nat} : NI (polyvec_decompress x0 x1 x2 x3) (polyvec_decompress x0 y1 y2 x3) anyR := by
  unfold polyvec_decompress; ni
macro_rules | `(tactic| ni_step) => `(tactic| with_reducible exact ni_polyvec_decompress)

theorem ni_polyvec_tobytes {x0 : ParamSet} {x1 y1 : Mem UInt8} {x2 : Nat} {x3 y3 : Polyvec} : NI (polyvec_tobytes x0 x1 x2 x3) (polyvec_tobytes x0 y1 x2 y3) anyR := by
  unfold polyvec_tobytes; ni
macro_rules | `(tactic| ni_step) => `(tactic| with_reducible exact ni_polyvec_tobytes)

theorem ni_polyvec_frombytes {x0 : ParamSet} {x1 y1 : Polyvec} {x2 y2 : Mem UInt8} {x3 : Nat} : NI (polyvec_frombytes x0 x1 x2 x3) (polyvec_frombytes x0 y1 y2 x3) anyR := by
  unfold polyvec_frombytes; ni
macro_rules | `(tactic| ni_step) => `(tactic| with_reducible exact ni_polyvec_frombytes)

theorem ni_polyvec_ntt {x0 : ParamSet} {x1 y1 : Polyvec} : NI (polyvec_ntt x0 x1) (polyvec_ntt x0 y1) anyR := by
  unfold polyvec_ntt; ni
macro_rules | `(tactic| ni_step) => `(tactic| with_reducible exact ni_polyvec_ntt)

theorem ni_polyvec_invntt_tomont {x0 : ParamSet} {x1 y1 : Polyvec} : NI (polyvec_invntt_tomont x0 x1) (polyvec_invntt_tomont x0 y1) anyR := by
  unfold polyvec_invntt_tomont; ni
macro_rules | `(tactic| ni_step) => `(tactic| with_reducible exact ni_polyvec_invntt_tomont)

theorem ni_polyvec_basemul_acc_montgomery {x0 : ParamSet} {x1 y1 : Poly} {x2 y2 : Polyvec} {x3 y3 : Polyvec} : NI (polyvec_basemul_acc_montgomery x0 x1 x2 x3) (polyvec_basemul_acc_montgomery x0 y1 y2 y3) anyR := by
  unfold polyvec_basemul_acc_montgomery; ni
macro_rules | `(tactic| ni_step) => `(tactic| with_reducible exact ni_polyvec_basemul_acc_montgomery)

theorem ni_polyvec_reduce {x0 : ParamSet} {x1 y1 : Polyvec} : NI (polyvec_reduce x0 x1) (polyvec_reduce x0 y1) anyR := by
  unfold polyvec_reduce; ni
macro_rules | `(tactic| ni_step) => `(tactic| with_reducible exact ni_polyvec_reduce)

theorem ni_polyvec_add {x0 : ParamSet} {x1 y1 : Polyvec} {x2 y2 : Polyvec} {x3 y3 : Polyvec} : NI (polyvec_add x0 x1 x2 x3) (polyvec_add x0 y1 y2 y3) anyR := by
  unfold polyvec_add; ni
macro_rules | `(tactic| ni_step) => `(tactic| with_reducible exact ni_polyvec_add)

theorem ni_pack_pk {x0 : ParamSet} {x1 y1 : Mem UInt8} {x2 y2 : Polyvec} {x3 y3 : Mem UInt8} {x4 : Nat} : NI (pack_pk x0 x1 x2 x3 x4) (pack_pk x0 y1 y2 y3 x4) anyR := by
  unfold pack_pk; ni
macro_rules | `(tactic| ni_step) => `(tactic| with_reducible exact ni_pack_pk)

theorem ni_pack_sk {x0 : ParamSet} {x1 y1 : Mem UInt8} {x2 y2 : Polyvec} : NI (pack_sk x0 x1 x2) (pack_sk x0 y1 y2) anyR := by
  unfold pack_sk; ni
macro_rules | `(tactic| ni_step) => `(tactic| with_reducible exact ni_pack_sk)

theorem ni_unpack_sk {x0 : ParamSet} {x1 y1 : Polyvec} {x2 y2 : Mem UInt8} : NI (unpack_sk x0 x1 x2) (unpack_sk x0 y1 y2) anyR := by
  unfold unpack_sk; ni
macro_rules | `(tactic| ni_step) => `(tactic| with_reducible exact ni_unpack_sk)

theorem ni_pack_ciphertext {x0 : ParamSet} {x1 y1 : Mem UInt8} {x2 y2 : Polyvec} {x3 y3 : Poly} : NI (pack_ciphertext x0 x1 x2 x3) (pack_ciphertext x0 y1 y2 y3) anyR := by
  unfold pack_ciphertext; ni
macro_rules | `(tactic| ni_step) => `(tactic| with_reducible exact ni_pack_ciphertext)

theorem ni_unpack_ciphertext {x0 : ParamSet} {x1 y1 : Polyvec} {x2 y2 : Poly} {x3 y3 : Mem UInt8} : NI (unpack_ciphertext x0 x1 x2 x3) (unpack_ciphertext x0 y1 y2 y3) anyR := by
  unfold unpack_ciphertext; ni
macro_rules | `(tactic| ni_step) => `(tactic| with_reducible exact ni_unpack_ciphertext)

theorem ni_indcpa_dec {x0 : ParamSet} {x1 y1 : Mem UInt8} {x2 : Nat} {x3 y3 : Mem UInt8} {x4 y4 : Mem UInt8} : NI (indcpa_dec x0 x1 x2 x3 x4) (indcpa_dec x0 y1 x2 y3 y4) anyR := by
  unfold indcpa_dec; ni
macro_rules | `(tactic| ni_step) => `(tactic| with_reducible exact ni_indcpa_dec)

/-! ## Functions that see the public seed -/

/-- The 32 bytes at offset `o` agree. -/
def SameSeed (s1 s2 : Mem UInt8) (o : Nat) : Prop := ∀ i < KYBER_SYMBYTES, s1[o + i]? = s2[o + i]?

theorem ni_xof_absorb {st : KeccakState} {s1 s2 : Mem UInt8} {so : Nat} {x y : UInt8} (h : SameSeed s1 s2 so) :
    NI (xof_absorb st s1 so x y) (xof_absorb st s2 so x y) Eq := by
  unfold xof_absorb
  exact NI.bindEq (ni_memcpyEq h) fun e => ni_refl _

theorem ni_gen_matrix {p : ParamSet} {fuel : Nat} {a : Array Polyvec} {s1 s2 : Mem UInt8} {so : Nat} {tr : Bool} (h : SameSeed s1 s2 so) :
    NI (gen_matrix p fuel a s1 so tr) (gen_matrix p fuel a s2 so tr) Eq := by
  unfold gen_matrix
  refine NI.bindEq ?_ fun _ => ni_refl _
  refine ni_cfor Eq rfl fun i a b _ _ e => ?_
  subst e
  refine ni_cfor Eq rfl fun j a b _ _ e => ?_
  subst e
  exact NI.bindEq (ni_cif (ni_xof_absorb h) (ni_xof_absorb h)) fun st => ni_refl _

theorem ni_unpack_pk {p : ParamSet} {pk pk' : Polyvec} {seed s1 s2 : Mem UInt8} {po : Nat} (h : SameSeed s1 s2 (po + KYBER_POLYVECBYTES p)) :
    NI (unpack_pk p pk seed s1 po) (unpack_pk p pk' seed s2 po) (fun a b => a.2 = b.2) := by
  unfold unpack_pk
  exact NI.bind0 ni_polyvec_frombytes fun _ _ => (ni_memcpyEq h).bind fun _ _ e => ni_pure e

theorem ni_indcpa_enc {p : ParamSet} {fuel : Nat} {c c' m m' : Mem UInt8} {mo : Nat} {pk pk' : Mem UInt8} {po : Nat} {coins coins' : Mem UInt8} {co : Nat}
    (h : SameSeed pk pk' (po + KYBER_POLYVECBYTES p)) :
    NI (indcpa_enc p fuel c m mo pk po coins co) (indcpa_enc p fuel c' m' mo pk' po coins' co) anyR := by
  unfold indcpa_enc
  refine (ni_unpack_pk h).bind fun a b h => ?_
  obtain ⟨pv, seed⟩ := a
  obtain ⟨pv', seed'⟩ := b
  dsimp only at h ⊢
  subst h
  with_reducible refine NI.bind0 ?_ ?_
  · ni
  intro _ _
  with_reducible refine NI.bindEq (ni_refl _) ?_
  ni

theorem ni_crypto_kem_enc_derand {p : ParamSet} {fuel : Nat} {ct ct' ss ss' pk pk' coins coins' : Mem UInt8} (h : SameSeed pk pk' (KYBER_POLYVECBYTES p)) :
    NI (crypto_kem_enc_derand p fuel ct ss pk coins) (crypto_kem_enc_derand p fuel ct' ss' pk' coins') anyR := by
  unfold crypto_kem_enc_derand
  dsimp only
  refine NI.bind0 (by ni) fun _ _ => NI.bind0 (by ni) fun _ _ => NI.bind0 (by ni) fun _ _ => NI.bind0 (ni_indcpa_enc ?_) fun _ _ => ?_
  · rw [Nat.zero_add]; exact h
  · ni

theorem ni_crypto_kem_dec {p : ParamSet} {fuel : Nat} {ss ss' ct ct' sk sk' : Mem UInt8}
    (h : SameSeed sk sk' (KYBER_INDCPA_SECRETKEYBYTES p + KYBER_POLYVECBYTES p)) :
    NI (crypto_kem_dec p fuel ss ct sk) (crypto_kem_dec p fuel ss' ct' sk') anyR := by
  unfold crypto_kem_dec
  dsimp only
  refine NI.bind0 (by ni) fun _ _ => NI.bind0 (by ni) fun _ _ => NI.bind0 (by ni) fun _ _ => NI.bind0 (ni_indcpa_enc h) fun _ _ => ?_
  refine NI.bind0 (by ni) fun _ _ => NI.bind0 (by ni) fun _ _ => NI.bind0 ni_cmov fun _ _ => ni_pure0

end Verif.Model
