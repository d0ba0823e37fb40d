import Verif.Proof.LeakKem
import Verif.Props.Kem

/-! # What the calls leak (C08, C09, C10)

The trace of a run lists, in order, every branch decision (also the tests of the loops), the offset of every load and store within its object, and the operands of every run-time
division. Which object is accessed is
fixed by the position in the program. The compiler, instruction timing and the micro-architecture are outside the model. -/

set_option autoImplicit false

namespace Verif.Props
open Verif.Model Verif.Spec Verif.Proof

/-- The two runs make the same branch decisions, accesses at the same offsets and divisions of the same operands, in the same order; or neither ends within the fuel. There is no undefined behaviour. -/
def SameLeakage {α : Type} (m1 m2 : C α) : Prop :=
  (∃ v1 v2 t, m1 = .ok v1 t ∧ m2 = .ok v2 t) ∨ (m1 = .diverge ∧ m2 = .diverge)

theorem sameLeakage_of {α : Type} {m1 m2 : C α} {R : α → α → Prop} (h : NI m1 m2 R) (h1 : NoUB m1) (h2 : NoUB m2) : SameLeakage m1 m2 :=
  (h.elim h1 h2).imp (fun ⟨a, b, t, e1, e2, _⟩ => ⟨a, b, t, e1, e2⟩) id

/-- The part `[a, a + 32)` of two strings determines what memories holding them have there. -/
theorem sameSeed_of {s1 s2 : Mem UInt8} {L1 L2 : List UInt8} {a : Nat} (h1 : s1.Holds 0 L1) (h2 : s2.Holds 0 L2) (l1 : a + 32 ≤ L1.length) (l2 : a + 32 ≤ L2.length)
    (e : bytes L1 a (a + 32) = bytes L2 a (a + 32)) : SameSeed s1 s2 a := by
  intro i hi
  have hi' : i < 32 := hi
  have h1 := h1 (a + i) (by omega)
  have h2 := h2 (a + i) (by omega)
  rw [Nat.zero_add] at h1 h2
  rw [h1, h2]
  have := congrArg (fun l : List UInt8 => l[i]?) e
  simp only [bytes, Nat.add_sub_cancel_left, List.getElem?_take, if_pos hi', List.getElem?_drop] at this
  rw [List.getElem?_eq_getElem (by omega), List.getElem?_eq_getElem (by omega)] at this
  rw [Option.some.inj this]

section
variable (p : ParamSet) (fuel : Nat)

theorem kbyte : UInt8.ofNat (KYBER_K p) = UInt8.ofNat (fips p).k := by cases p <;> rfl

/-- C08. Key generation from any two coins for which ρ = SHA3-512(d ‖ k)[0:32] agrees. The outputs' initial contents do not matter either. -/
theorem C08_keypair (pk sk coins pk' sk' coins' : Mem UInt8) (d z d' z' : List UInt8) (hd : coins.Holds 0 d) (hdl : d.length = 32) (hz : coins.Holds 32 z)
    (hzl : z.length = 32) (hpk : ekLen (fips p) ≤ pk.size) (hsk : dkLen (fips p) ≤ sk.size) (hd' : coins'.Holds 0 d') (hdl' : d'.length = 32) (hz' : coins'.Holds 32 z')
    (hzl' : z'.length = 32) (hpk' : ekLen (fips p) ≤ pk'.size) (hsk' : dkLen (fips p) ≤ sk'.size)
    (hρ : (SHA3_512 (d ++ [UInt8.ofNat (fips p).k])).take 32 = (SHA3_512 (d' ++ [UInt8.ofNat (fips p).k])).take 32) :
    SameLeakage (crypto_kem_keypair_derand p fuel pk sk coins) (crypto_kem_keypair_derand p fuel pk' sk' coins') := by
  refine sameLeakage_of (ni_crypto_kem_keypair_derand hd hdl hd' hdl' ?_) (noUB_of_runsO (keypair_ref p fuel pk sk coins d z hd hdl hz hzl hpk hsk))
    (noUB_of_runsO (keypair_ref p fuel pk' sk' coins' d' z' hd' hdl' hz' hzl' hpk' hsk'))
  rw [kbyte]
  exact hρ

/-- The last 32 bytes of an encapsulation key are ρ. -/
theorem ek_seed {N : Nat} {d z ek dk : List UInt8} (h : KeyGen_internal (fips p) N d z = some (ek, dk)) :
    ek.drop (384 * (fips p).k) = (SHA3_512 (d ++ [UInt8.ofNat (fips p).k])).take 32 := by
  obtain ⟨dk', hk, -⟩ := keygen_inv h
  rw [K_PKE_KeyGen_eq, Option.map_eq_some_iff] at hk
  obtain ⟨A, -, hk⟩ := hk
  have := congrArg Prod.fst hk
  dsimp only at this
  rw [← this]
  unfold keyOut
  dsimp only
  rw [List.drop_left' (concat_length fun i => byteEncode12_length _)]
  rfl

/-- C08. The same in terms of the result: if the two public keys end with the same seed, the traces are equal. -/
theorem C08_public_seed (pk sk coins pk' sk' coins' : Mem UInt8) (d z d' z' : List UInt8) (hd : coins.Holds 0 d) (hdl : d.length = 32) (hz : coins.Holds 32 z)
    (hzl : z.length = 32) (hpk : ekLen (fips p) ≤ pk.size) (hsk : dkLen (fips p) ≤ sk.size) (hd' : coins'.Holds 0 d') (hdl' : d'.length = 32) (hz' : coins'.Holds 32 z')
    (hzl' : z'.length = 32) (hpk' : ekLen (fips p) ≤ pk'.size) (hsk' : dkLen (fips p) ≤ sk'.size) (v v' : Mem UInt8 × Mem UInt8 × Int) (t t' : Trace)
    (hv : crypto_kem_keypair_derand p fuel pk sk coins = .ok v t) (hv' : crypto_kem_keypair_derand p fuel pk' sk' coins' = .ok v' t')
    (hs : ∀ i < 32, v.1[384 * (fips p).k + i]? = v'.1[384 * (fips p).k + i]?) : t = t' := by
  obtain ⟨⟨ek, dk⟩, hK, hw, -⟩ := ok_of_runsO (keypair_ref p fuel pk sk coins d z hd hdl hz hzl hpk hsk) hv
  obtain ⟨⟨ek', dk'⟩, hK', hw', -⟩ := ok_of_runsO (keypair_ref p fuel pk' sk' coins' d' z' hd' hdl' hz' hzl' hpk' hsk') hv'
  have e := ek_seed p hK
  have e' := ek_seed p hK'
  have l : ∀ M : List UInt8, ((SHA3_512 M).take 32).length = 32 := G_fst_length
  have hl : (ek.drop (384 * (fips p).k)).length = 32 := by rw [e]; exact l _
  have hl' : (ek'.drop (384 * (fips p).k)).length = 32 := by rw [e']; exact l _
  have hρ : ek.drop (384 * (fips p).k) = ek'.drop (384 * (fips p).k) := by
    refine List.ext_getElem (by rw [hl, hl']) fun i h1 h2 => ?_
    rw [List.getElem_drop, List.getElem_drop]
    have a1 := hw.holds (384 * (fips p).k + i) (by rw [List.length_drop] at hl; show _ < ek.length; omega)
    have a2 := hw'.holds (384 * (fips p).k + i) (by rw [List.length_drop] at hl'; show _ < ek'.length; omega)
    rw [Nat.zero_add] at a1 a2
    have := hs i (by omega)
    rw [a1, a2] at this
    exact Option.some.inj (Option.some.inj this)
  rw [e, e'] at hρ
  rcases C08_keypair p fuel pk sk coins pk' sk' coins' d z d' z' hd hdl hz hzl hpk hsk hd' hdl' hz' hzl' hpk' hsk' hρ with ⟨a, b, u, h1, h2⟩ | ⟨h1, h2⟩
  · rw [hv] at h1
    rw [hv'] at h2
    injection h1 with _ h1
    injection h2 with _ h2
    rw [h1, h2]
  · rw [hv] at h1; cases h1

/-- C09. Encapsulation to any two public keys with the same seed, with any coins. -/
theorem C09_enc (ct ss pk coins ct' ss' pk' coins' : Mem UInt8) (ek m ek' m' : List UInt8) (hm : coins.Holds 0 m) (hml : m.length = 32) (hek : pk.Holds 0 ek)
    (hekl : ek.length = ekLen (fips p)) (hct : ctLen (fips p) ≤ ct.size) (hss : 32 ≤ ss.size) (hm' : coins'.Holds 0 m') (hml' : m'.length = 32) (hek' : pk'.Holds 0 ek')
    (hekl' : ek'.length = ekLen (fips p)) (hct' : ctLen (fips p) ≤ ct'.size) (hss' : 32 ≤ ss'.size)
    (hρ : bytes ek (384 * (fips p).k) (384 * (fips p).k + 32) = bytes ek' (384 * (fips p).k) (384 * (fips p).k + 32)) :
    SameLeakage (crypto_kem_enc_derand p fuel ct ss pk coins) (crypto_kem_enc_derand p fuel ct' ss' pk' coins') := by
  refine sameLeakage_of (ni_crypto_kem_enc_derand ?_) (C06_enc p fuel ct ss pk coins ek m hm hml hek hekl hct hss)
    (C06_enc p fuel ct' ss' pk' coins' ek' m' hm' hml' hek' hekl' hct' hss')
  have e : KYBER_POLYVECBYTES p = 384 * (fips p).k := by cases p <;> rfl
  rw [e]
  exact sameSeed_of hek hek' (le_of_eq hekl.symm) (le_of_eq hekl'.symm) hρ

/-- C10. Decapsulation of any two ciphertexts under any two secret keys in which the stored seed of the matrix is the same: secret vector, stored key, hash, z, the ciphertext and
so the outcome of the comparison are arbitrary on both sides. -/
theorem C10_dec (ss ct sk ss' ct' sk' : Mem UInt8) (c dk c' dk' : List UInt8) (hc : ct.Holds 0 c) (hcl : c.length = ctLen (fips p)) (hdk : sk.Holds 0 dk)
    (hdkl : dk.length = dkLen (fips p)) (hss : 32 ≤ ss.size) (hc' : ct'.Holds 0 c') (hcl' : c'.length = ctLen (fips p)) (hdk' : sk'.Holds 0 dk')
    (hdkl' : dk'.length = dkLen (fips p)) (hss' : 32 ≤ ss'.size)
    (hρ : bytes dk (768 * (fips p).k) (768 * (fips p).k + 32) = bytes dk' (768 * (fips p).k) (768 * (fips p).k + 32)) :
    SameLeakage (crypto_kem_dec p fuel ss ct sk) (crypto_kem_dec p fuel ss' ct' sk') := by
  refine sameLeakage_of (ni_crypto_kem_dec ?_) (C06_dec p fuel ss ct sk c dk hc hcl hdk hdkl hss) (C06_dec p fuel ss' ct' sk' c' dk' hc' hcl' hdk' hdkl' hss')
  have e : KYBER_INDCPA_SECRETKEYBYTES p + KYBER_POLYVECBYTES p = 768 * (fips p).k := by cases p <;> rfl
  rw [e]
  have l : 768 * (fips p).k + 32 ≤ dkLen (fips p) := by unfold dkLen; omega
  exact sameSeed_of hdk hdk' (by rw [hdkl]; exact l) (by rw [hdkl']; exact l) hρ

end

/-! ## The hypotheses can hold: two different secret keys and ciphertexts -/

example (p : ParamSet) (fuel : Nat) : SameLeakage
    (crypto_kem_dec p fuel (Mem.uninit UInt8 32) (Mem.ofList (List.replicate (ctLen (fips p)) 0)) (Mem.ofList (List.replicate (dkLen (fips p)) 0)))
    (crypto_kem_dec p fuel (Mem.uninit UInt8 32) (Mem.ofList (List.replicate (ctLen (fips p)) 1))
      (Mem.ofList (List.replicate (768 * (fips p).k) 7 ++ List.replicate 32 0 ++ List.replicate 64 9))) := by
  refine C10_dec p fuel _ _ _ _ _ _ _ _ _ _ (Mem.holds_ofList _) ?_ (Mem.holds_ofList _) ?_ ?_ (Mem.holds_ofList _) ?_ (Mem.holds_ofList _) ?_ ?_ ?_
  all_goals cases p <;> decide +kernel

/-! ## The notion can fail

A comparison that stops at the first difference, a division of a secret, and a look-up at a secret offset, do not have the same leakage on all inputs; neither has the (legitimate) branch of the rejection
sampling on the bytes of its buffer. -/

/-- An early-exit comparison. -/
def earlyExit (a b : Mem UInt8) (n : Nat) : C (Nat × Bool) :=
  cwhile (n + 1) (fun s => decide (s.1 < n) && s.2) (fun s => do
    let x ← rd a s.1
    let y ← rd b s.1
    pure (s.1 + 1, x == y)) (0, true)

def traceOf {α : Type} : C α → Option Trace
  | .ok _ t => some t
  | _ => none

theorem SameLeakage.trace {α : Type} {m1 m2 : C α} (h : SameLeakage m1 m2) : traceOf m1 = traceOf m2 := by
  rcases h with ⟨_, _, t, rfl, rfl⟩ | ⟨rfl, rfl⟩ <;> rfl

example : ¬ SameLeakage (earlyExit #[some 1, some 2] #[some 1, some 2] 2) (earlyExit #[some 1, some 2] #[some 0, some 2] 2) :=
  fun h => absurd h.trace (by decide +kernel)

/-- The decoding of a message bit with a division, as in the comment of ref/poly.c:202 (the "KyberSlash" leak). -/
def tomsgBitDiv (a : Mem Int16) (i : Nat) : C Nat := do
  let t := (← rd a i).toInt.toNat
  let q ← udiv (2 * t + KYBER_Q / 2) KYBER_Q
  pure (q &&& 1)

example : ¬ SameLeakage (tomsgBitDiv #[some 0] 0) (tomsgBitDiv #[some 1665] 0) :=
  fun h => absurd h.trace (by decide +kernel)

example : ¬ SameLeakage (rd (#[some 1, some 2] : Mem UInt8) 0) (rd (#[some 1, some 2] : Mem UInt8) 1) :=
  fun h => absurd h.trace (by decide +kernel)

example : ¬ SameLeakage (rej_uniform #[none] 0 1 #[some 0, some 0, some 0] 3) (rej_uniform #[none] 0 1 #[some 255, some 255, some 0] 3) :=
  fun h => absurd h.trace (by decide +kernel)

/-- The constant-time comparison of the code, on the inputs of the first example. -/
example : traceOf (verify #[some 1, some 2] 0 #[some 1, some 2] 0 2) = traceOf (verify #[some 1, some 2] 0 #[some 0, some 2] 0 2) ∧
    (traceOf (verify #[some 1, some 2] 0 #[some 1, some 2] 0 2)).isSome := by decide +kernel

end Verif.Props
