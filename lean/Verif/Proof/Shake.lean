import Verif.Proof.SpongeSpec
import Verif.Proof.Roundtrip
import Verif.Model.Symmetric

/-! # The SHAKE and SHA-3 functions of the code -/

namespace Verif.Proof
open Verif.Model Verif.Spec

/-- A state that has absorbed `M` at rate `r`. -/
def AbsR (r : Nat) (M : List UInt8) (st : KeccakState) : Prop :=
  st.pos = some (absorbS r (List.replicate 200 0, 0) M).2 ∧ RB st.s (absorbS r (List.replicate 200 0, 0) M).1

/-- A finalised state from which `n` bytes were squeezed. -/
def SqS (r : Nat) (B0 : List UInt8) (n : Nat) (st : KeccakState) : Prop := ∃ p, st.pos = some p ∧ SqR r B0 n st.s p

theorem getPos_runs {st : KeccakState} {p : Nat} (h : st.pos = some p) {Q : Nat → Prop} : Runs st.getPos Q ↔ Q p := by
  unfold KeccakState.getPos; rw [h]; exact runs_pure

theorem RB.size {s : Mem UInt64} {B : List UInt8} (h : RB s B) : s.size = 25 := h.1

theorem bit_ext {a b : UInt64} (h : ∀ z, bit a z = bit b z) : a = b := by
  apply UInt64.toBitVec_inj.mp
  apply BitVec.eq_of_getLsbD_eq
  intro i hi
  exact h ⟨i, hi⟩

theorem RB.unique {s s' : Mem UInt64} {B : List UInt8} (h : RB s B) (h' : RB s' B) : s = s' := by
  apply Array.ext_getElem?
  intro i
  by_cases hi : i < 25
  · obtain ⟨v, hv, hb⟩ := h.2.2 i hi
    obtain ⟨v', hv', hb'⟩ := h'.2.2 i hi
    rw [hv, hv', bit_ext fun z => (hb z).trans (hb' z).symm]
  · rw [Array.getElem?_eq_none (by rw [h.1]; omega), Array.getElem?_eq_none (by rw [h'.1]; omega)]

theorem AbsR.unique {r : Nat} {M : List UInt8} {st st' : KeccakState} (h : AbsR r M st) (h' : AbsR r M st') : st = st' := by
  obtain ⟨s, p⟩ := st
  obtain ⟨s', p'⟩ := st'
  obtain ⟨h1, h2⟩ := h
  obtain ⟨h1', h2'⟩ := h'
  dsimp only at *
  rw [h1, h1', h2.unique h2']

theorem init_runs {st : KeccakState} (h : st.s.size = 25) (r : Nat) :
    Runs (do let s ← keccak_init st.s; pure (⟨s, some 0⟩ : KeccakState)) (AbsR r []) := by
  rw [runs_bind]
  exact (keccak_init_runs h).mono fun s hs => ⟨rfl, hs⟩

theorem absorb_runs {st : KeccakState} {r : Nat} {M N : List UInt8} (h : AbsR r M st) (hr0 : 0 < r) (hr : r ≤ 200) {inp : Mem UInt8} {io inlen : Nat}
    (hN : inp.Holds io N) (hn : N.length = inlen) (hlt : inlen + r < 2 ^ 64) :
    Runs (do let p ← st.getPos; let v ← keccak_absorb st.s p r inp io inlen; pure (⟨v.1, some v.2⟩ : KeccakState)) (AbsR r (M ++ N)) := by
  rw [runs_bind, getPos_runs h.1, runs_bind]
  refine (keccak_absorb_runs h.2 (absorbS_pos_lt r hr0 _ _ hr0) hr hN hn hlt).mono fun v hv => ?_
  rw [runs_pure]
  unfold AbsR
  rw [absorbS_append]
  exact ⟨congrArg some hv.2, hv.1⟩

theorem finalize_runs {st : KeccakState} {r : Nat} {M : List UInt8} (h : AbsR r M st) (hr0 : 0 < r) (hr : r ≤ 200) (h8 : r % 8 = 0) (p : UInt8) :
    Runs (do let q ← st.getPos; let s ← keccak_finalize st.s q r p; pure (⟨s, some r⟩ : KeccakState)) (fun st => RB st.s (padded r p M) ∧ st.pos = some r) := by
  rw [runs_bind, getPos_runs h.1, runs_bind]
  refine (keccak_finalize_runs p h.2 (absorbS_pos_lt r hr0 _ _ hr0) hr h8).mono fun v hv => ?_
  rw [runs_pure]
  exact ⟨hv, rfl⟩

theorem absorb_once_runs {st : KeccakState} {r : Nat} {M : List UInt8} (h : st.s.size = 25) (hr0 : 0 < r) (hr : r ≤ 200) (h8 : r % 8 = 0) (p : UInt8)
    {inp : Mem UInt8} {io inlen : Nat} (hM : inp.Holds io M) (hn : M.length = inlen) :
    Runs (do let s ← keccak_absorb_once st.s r inp io inlen p; pure (⟨s, some r⟩ : KeccakState)) (fun st => RB st.s (padded r p M) ∧ st.pos = some r) := by
  rw [runs_bind]
  exact (keccak_absorb_once_runs p h hr0 hr h8 hM hn).mono fun v hv => ⟨hv, rfl⟩

theorem SqS.start {r : Nat} {B0 : List UInt8} {st : KeccakState} (h : RB st.s B0 ∧ st.pos = some r) (hr : 0 < r) : SqS r B0 0 st :=
  ⟨r, h.2, SqR.start h.1 hr⟩

theorem squeeze_runs {st : KeccakState} {r n : Nat} {B0 : List UInt8} (h : SqS r B0 n st) (hr : r ≤ 200) {out : Mem UInt8} {oo outlen : Nat}
    (ho : oo + outlen ≤ out.size) (hlt : outlen + r < 2 ^ 64) :
    Runs (do let p ← st.getPos; let v ← keccak_squeeze out oo outlen st.s p r; pure (v.1, (⟨v.2.1, some v.2.2⟩ : KeccakState)))
      (fun v => out.Wrote v.1 oo (kout r B0 n outlen) ∧ SqS r B0 (n + outlen) v.2) := by
  obtain ⟨p, hp, hs⟩ := h
  rw [runs_bind, getPos_runs hp, runs_bind]
  exact (keccak_squeeze_runs hs hr ho hlt).mono fun v hv => ⟨hv.1, _, rfl, hv.2⟩

theorem squeezeblocks_runs {st : KeccakState} {r n : Nat} {B0 : List UInt8} (h : SqS r B0 n st) (hn : n % r = 0) (hr0 : 0 < r) (hr : r ≤ 200) (h8 : r % 8 = 0)
    {out : Mem UInt8} {oo nb : Nat} (ho : oo + nb * r ≤ out.size) :
    Runs (do let v ← keccak_squeezeblocks out oo nb st.s r; pure (v.1, (⟨v.2, st.pos⟩ : KeccakState)))
      (fun v => out.Wrote v.1 oo (kout r B0 n (nb * r)) ∧ SqS r B0 (n + nb * r) v.2) := by
  obtain ⟨p, hp, hs⟩ := h
  have hpr : p = r := by
    obtain ⟨m, _, h1, h2, h3⟩ := hs
    by_contra hne
    have := (div_of h3 (by omega)).2
    omega
  subst hpr
  rw [runs_bind]
  exact (keccak_squeezeblocks_runs hs hr0 hr h8 ho).mono fun v hv => ⟨hv.1, _, hp, hv.2⟩

/-! ## The API functions -/

theorem shake128_init_runs {st : KeccakState} (h : st.s.size = 25) : Runs (shake128_init st) (AbsR 168 []) := init_runs h 168
theorem shake256_init_runs {st : KeccakState} (h : st.s.size = 25) : Runs (shake256_init st) (AbsR 136 []) := init_runs h 136

theorem shake128_absorb_runs {st : KeccakState} {M N : List UInt8} (h : AbsR 168 M st) {inp : Mem UInt8} {io inlen : Nat}
    (hN : inp.Holds io N) (hn : N.length = inlen) (hlt : inlen + 168 < 2 ^ 64) : Runs (shake128_absorb st inp io inlen) (AbsR 168 (M ++ N)) :=
  absorb_runs h (by omega) (by omega) hN hn hlt
theorem shake256_absorb_runs {st : KeccakState} {M N : List UInt8} (h : AbsR 136 M st) {inp : Mem UInt8} {io inlen : Nat}
    (hN : inp.Holds io N) (hn : N.length = inlen) (hlt : inlen + 136 < 2 ^ 64) : Runs (shake256_absorb st inp io inlen) (AbsR 136 (M ++ N)) :=
  absorb_runs h (by omega) (by omega) hN hn hlt

theorem shake128_finalize_runs {st : KeccakState} {M : List UInt8} (h : AbsR 168 M st) :
    Runs (shake128_finalize st) (fun st => RB st.s (padded 168 0x1F M) ∧ st.pos = some 168) := finalize_runs h (by omega) (by omega) (by omega) _
theorem shake256_finalize_runs {st : KeccakState} {M : List UInt8} (h : AbsR 136 M st) :
    Runs (shake256_finalize st) (fun st => RB st.s (padded 136 0x1F M) ∧ st.pos = some 136) := finalize_runs h (by omega) (by omega) (by omega) _

theorem shake128_absorb_once_runs {st : KeccakState} {M : List UInt8} (h : st.s.size = 25) {inp : Mem UInt8} {io inlen : Nat} (hM : inp.Holds io M)
    (hn : M.length = inlen) : Runs (shake128_absorb_once st inp io inlen) (fun st => RB st.s (padded 168 0x1F M) ∧ st.pos = some 168) :=
  absorb_once_runs h (by decide) (by decide) (by decide) _ hM hn
theorem shake256_absorb_once_runs {st : KeccakState} {M : List UInt8} (h : st.s.size = 25) {inp : Mem UInt8} {io inlen : Nat} (hM : inp.Holds io M)
    (hn : M.length = inlen) : Runs (shake256_absorb_once st inp io inlen) (fun st => RB st.s (padded 136 0x1F M) ∧ st.pos = some 136) :=
  absorb_once_runs h (by decide) (by decide) (by decide) _ hM hn

theorem shake128_squeeze_runs {st : KeccakState} {n : Nat} {B0 : List UInt8} (h : SqS 168 B0 n st) {out : Mem UInt8} {oo outlen : Nat}
    (ho : oo + outlen ≤ out.size) (hlt : outlen + 168 < 2 ^ 64) : Runs (shake128_squeeze out oo outlen st)
      (fun v => out.Wrote v.1 oo (kout 168 B0 n outlen) ∧ SqS 168 B0 (n + outlen) v.2) := squeeze_runs h (by omega) ho hlt
theorem shake256_squeeze_runs {st : KeccakState} {n : Nat} {B0 : List UInt8} (h : SqS 136 B0 n st) {out : Mem UInt8} {oo outlen : Nat}
    (ho : oo + outlen ≤ out.size) (hlt : outlen + 136 < 2 ^ 64) : Runs (shake256_squeeze out oo outlen st)
      (fun v => out.Wrote v.1 oo (kout 136 B0 n outlen) ∧ SqS 136 B0 (n + outlen) v.2) := squeeze_runs h (by omega) ho hlt

theorem shake128_squeezeblocks_runs {st : KeccakState} {n : Nat} {B0 : List UInt8} (h : SqS 168 B0 n st) (hn : n % 168 = 0) {out : Mem UInt8} {oo nb : Nat}
    (ho : oo + nb * 168 ≤ out.size) : Runs (shake128_squeezeblocks out oo nb st)
      (fun v => out.Wrote v.1 oo (kout 168 B0 n (nb * 168)) ∧ SqS 168 B0 (n + nb * 168) v.2) := squeezeblocks_runs h hn (by omega) (by omega) (by omega) ho
theorem shake256_squeezeblocks_runs {st : KeccakState} {n : Nat} {B0 : List UInt8} (h : SqS 136 B0 n st) (hn : n % 136 = 0) {out : Mem UInt8} {oo nb : Nat}
    (ho : oo + nb * 136 ≤ out.size) : Runs (shake256_squeezeblocks out oo nb st)
      (fun v => out.Wrote v.1 oo (kout 136 B0 n (nb * 136)) ∧ SqS 136 B0 (n + nb * 136) v.2) := squeezeblocks_runs h hn (by omega) (by omega) (by omega) ho

theorem shake128_runs {out : Mem UInt8} {oo outlen : Nat} {inp : Mem UInt8} {io inlen : Nat} {M : List UInt8} (hM : inp.Holds io M)
    (hn : M.length = inlen) (ho : oo + outlen ≤ out.size) : Runs (shake128 out oo outlen inp io inlen) (fun o => out.Wrote o oo (SHAKE128 M outlen)) := by
  have hd : outlen / SHAKE128_RATE * SHAKE128_RATE ≤ outlen := Nat.div_mul_le_self _ _
  have hd2 : outlen - outlen / SHAKE128_RATE * SHAKE128_RATE < 168 := by unfold SHAKE128_RATE; omega
  unfold shake128
  dsimp only
  generalize outlen / SHAKE128_RATE = nb at *
  unfold SHAKE128_RATE at *
  rw [runs_bind]
  refine (shake128_absorb_once_runs (st := KeccakState.uninit) (by simp [KeccakState.uninit]) hM hn).mono fun st hst => ?_
  rw [runs_bind]
  refine (shake128_squeezeblocks_runs (SqS.start hst (by omega)) (by omega) (by omega)).mono ?_
  rintro ⟨o1, st1⟩ ⟨hw1, hs1⟩
  dsimp only at *
  rw [runs_bind]
  refine (shake128_squeeze_runs hs1 (by rw [hw1.size]; omega) (by omega)).mono ?_
  rintro ⟨o2, st2⟩ ⟨hw2, _⟩
  dsimp only at *
  rw [runs_pure, SHAKE128_eq, show outlen = nb * 168 + (outlen - nb * 168) from by omega, kout_add]
  refine hw1.append ?_
  rw [kout_length]
  exact hw2

theorem shake256_runs {out : Mem UInt8} {oo outlen : Nat} {inp : Mem UInt8} {io inlen : Nat} {M : List UInt8} (hM : inp.Holds io M)
    (hn : M.length = inlen) (ho : oo + outlen ≤ out.size) : Runs (shake256 out oo outlen inp io inlen) (fun o => out.Wrote o oo (SHAKE256 M outlen)) := by
  have hd : outlen / SHAKE256_RATE * SHAKE256_RATE ≤ outlen := Nat.div_mul_le_self _ _
  have hd2 : outlen - outlen / SHAKE256_RATE * SHAKE256_RATE < 136 := by unfold SHAKE256_RATE; omega
  unfold shake256
  dsimp only
  generalize outlen / SHAKE256_RATE = nb at *
  unfold SHAKE256_RATE at *
  rw [runs_bind]
  refine (shake256_absorb_once_runs (st := KeccakState.uninit) (by simp [KeccakState.uninit]) hM hn).mono fun st hst => ?_
  rw [runs_bind]
  refine (shake256_squeezeblocks_runs (SqS.start hst (by omega)) (by omega) (by omega)).mono ?_
  rintro ⟨o1, st1⟩ ⟨hw1, hs1⟩
  dsimp only at *
  rw [runs_bind]
  refine (shake256_squeeze_runs hs1 (by rw [hw1.size]; omega) (by omega)).mono ?_
  rintro ⟨o2, st2⟩ ⟨hw2, _⟩
  dsimp only at *
  rw [runs_pure, SHAKE256_eq, show outlen = nb * 136 + (outlen - nb * 136) from by omega, kout_add]
  refine hw1.append ?_
  rw [kout_length]
  exact hw2

theorem take_kout (r n : Nat) (B0 : List UInt8) (hn : n ≤ r) (hr : r ≤ 200) : (KF B0).take n = kout r B0 0 n := by
  apply ext_getD
  · rw [kout_length, List.length_take, KF_length]; omega
  · intro j hj
    rw [List.length_take] at hj
    have hj' : j < n := by omega
    have : (kout r B0 0 n).getD j 0 = kstream r B0 j := by simp [kout, hj']
    rw [this, kstream, Nat.div_eq_of_lt (by omega), Nat.mod_eq_of_lt (by omega)]
    simp [List.getD_eq_getElem?_getD, hj']

theorem sha3_256_runs {h : Mem UInt8} {ho : Nat} {inp : Mem UInt8} {io inlen : Nat} {M : List UInt8} (hM : inp.Holds io M)
    (hn : M.length = inlen) (hs : ho + 32 ≤ h.size) : Runs (sha3_256 h ho inp io inlen) (fun o => h.Wrote o ho (SHA3_256 M)) := by
  unfold sha3_256
  rw [runs_bind]
  refine (keccak_absorb_once_runs (r := SHA3_256_RATE) 0x06 (by simp) (by unfold SHA3_256_RATE; omega) (by unfold SHA3_256_RATE; omega) rfl hM hn).mono fun s h1 => ?_
  rw [runs_bind]
  refine (permute_runs h1).mono fun s h2 => ?_
  refine (storeLanes_runs h2 (n := 4) (by omega) (by omega)).mono fun o h3 => ?_
  rw [SHA3_256_eq, ← take_kout 136 32 _ (by omega) (by omega)]
  exact h3

theorem sha3_512_runs {h : Mem UInt8} {ho : Nat} {inp : Mem UInt8} {io inlen : Nat} {M : List UInt8} (hM : inp.Holds io M)
    (hn : M.length = inlen) (hs : ho + 64 ≤ h.size) : Runs (sha3_512 h ho inp io inlen) (fun o => h.Wrote o ho (SHA3_512 M)) := by
  unfold sha3_512
  rw [runs_bind]
  refine (keccak_absorb_once_runs (r := SHA3_512_RATE) 0x06 (by simp) (by unfold SHA3_512_RATE; omega) (by unfold SHA3_512_RATE; omega) rfl hM hn).mono fun s h1 => ?_
  rw [runs_bind]
  refine (permute_runs h1).mono fun s h2 => ?_
  refine (storeLanes_runs h2 (n := 8) (by omega) (by omega)).mono fun o h3 => ?_
  rw [SHA3_512_eq, ← take_kout 72 64 _ (by omega) (by omega)]
  exact h3

theorem SHAKE128_length (M : List UInt8) (n : Nat) : (SHAKE128 M n).length = n := by rw [SHAKE128_eq, kout_length]
theorem SHAKE256_length (M : List UInt8) (n : Nat) : (SHAKE256 M n).length = n := by rw [SHAKE256_eq, kout_length]
theorem SHA3_256_length (M : List UInt8) : (SHA3_256 M).length = 32 := by rw [SHA3_256_eq, kout_length]
theorem SHA3_512_length (M : List UInt8) : (SHA3_512 M).length = 64 := by rw [SHA3_512_eq, kout_length]

/-! ## symmetric-shake.c -/

theorem Mem.Wrote.holds_append {m m' : Mem UInt8} {o : Nat} {l : List UInt8} (h : m.Wrote m' o l) : m'.Holds o l := h.holds

theorem runs_wr_str {m : Mem UInt8} {i : Nat} (v : UInt8) (hi : i < m.size) : Runs (wr m i v) (fun m' => m.Wrote m' i [v]) :=
  (runs_wr_upd hi).mono fun m' h => h.wrote_of (by simp) fun j hj => by simp at hj; subst hj; rfl

theorem xof_absorb_runs {st : KeccakState} (h : st.s.size = 25) {seed : Mem UInt8} {so : Nat} {ρ : List UInt8} (hρ : seed.Holds so ρ) (hl : ρ.length = 32)
    (x y : UInt8) : Runs (xof_absorb st seed so x y) (fun st => SqS 168 (padded 168 0x1F (ρ ++ [x, y])) 0 st) := by
  unfold xof_absorb
  dsimp only
  unfold KYBER_SYMBYTES
  rw [runs_bind]
  refine (runs_memcpy_str (dst := Mem.uninit UInt8 (32 + 2)) hρ hl (by simp)).mono fun m hm => ?_
  rw [runs_bind]
  refine (runs_wr_str (i := 32 + 0) x (by rw [hm.size]; simp)).mono fun m1 hm1 => ?_
  rw [runs_bind]
  refine (runs_wr_str (i := 32 + 1) y (by rw [hm1.size, hm.size]; simp)).mono fun m2 hm2 => ?_
  have hd : m2.Holds 0 (ρ ++ [x, y]) := by
    have a : (Mem.uninit UInt8 (32 + 2)).Wrote m1 0 (ρ ++ [x]) := hm.append (by rw [hl]; exact hm1)
    have b := a.append (l' := [y]) (by rw [List.length_append, hl]; exact hm2)
    rw [List.append_assoc] at b
    exact b.holds
  refine (shake128_absorb_once_runs h hd (by rw [List.length_append, hl]; rfl)).mono fun st hst => SqS.start hst (by omega)

theorem prf_runs {out : Mem UInt8} {oo outlen : Nat} {key : Mem UInt8} {ko : Nat} {K : List UInt8} (hK : key.Holds ko K) (hl : K.length = 32)
    (nonce : UInt8) (ho : oo + outlen ≤ out.size) : Runs (prf out oo outlen key ko nonce) (fun o => out.Wrote o oo (SHAKE256 (K ++ [nonce]) outlen)) := by
  unfold prf
  dsimp only
  unfold KYBER_SYMBYTES
  rw [runs_bind]
  refine (runs_memcpy_str (dst := Mem.uninit UInt8 (32 + 1)) hK hl (by simp)).mono fun m hm => ?_
  rw [runs_bind]
  refine (runs_wr_str (i := 32) nonce (by rw [hm.size]; simp)).mono fun m1 hm1 => ?_
  have hd : m1.Holds 0 (K ++ [nonce]) := (hm.append (l' := [nonce]) (by rw [hl]; exact hm1)).holds
  exact shake256_runs hd (by rw [List.length_append, hl]; rfl) ho

theorem rkprf_runs {p : ParamSet} {out : Mem UInt8} {oo : Nat} {key : Mem UInt8} {ko : Nat} {input : Mem UInt8} {io : Nat} {K c : List UInt8}
    (hK : key.Holds ko K) (hl : K.length = 32) (hc : input.Holds io c) (hcl : c.length = KYBER_CIPHERTEXTBYTES p) (ho : oo + 32 ≤ out.size) :
    Runs (rkprf p out oo key ko input io) (fun o => out.Wrote o oo (SHAKE256 (K ++ c) 32)) := by
  have hct : KYBER_CIPHERTEXTBYTES p + 136 < 2 ^ 64 := by cases p <;> decide
  unfold rkprf
  dsimp only
  unfold KYBER_SYMBYTES KYBER_SSBYTES
  rw [runs_bind]
  refine (shake256_init_runs (st := KeccakState.uninit) (by simp [KeccakState.uninit])).mono fun s h1 => ?_
  rw [runs_bind]
  refine (shake256_absorb_runs h1 hK hl (by omega)).mono fun s h2 => ?_
  rw [runs_bind]
  refine (shake256_absorb_runs h2 hc hcl hct).mono fun s h3 => ?_
  rw [runs_bind]
  refine (shake256_finalize_runs h3).mono fun s h4 => ?_
  rw [runs_bind]
  refine (shake256_squeeze_runs (SqS.start h4 (by omega)) ho (by omega)).mono ?_
  rintro ⟨o, s⟩ ⟨h5, _⟩
  rw [runs_pure, SHAKE256_eq]
  exact h5

end Verif.Proof
