import Verif.Model.AliasPke
import Verif.Props.Alias
import Verif.Props.Keccak

/-! # C70: arguments that share memory, below the KEM calls

The functions of indcpa.c, the hash functions and `cmov`, with all arguments as offsets into one memory. The hash functions, encryption and decryption are right wherever their arguments are; key generation is right if its
two outputs are apart. `cmov` of ref/verify.c is right unless the destination begins inside the source; `cmov` of avx2/verify.c has `restrict` and needs its arguments apart. -/

set_option autoImplicit false

namespace Verif.Props
open Verif.Model Verif.Spec Verif.Proof

section
variable (P : Pke) (p : ParamSet) (fuel : Nat) (hP : IsBuild P p fuel) (X : Mem UInt8)
include hP

/-- C70. K-PKE.KeyGen: the secret key is written first, then the public key; the coins may be overwritten. -/
theorem C70_indcpa_keypair (pk sk coins : Nat) (d : List UInt8) (hd : X.Holds coins d) (hdl : d.length = 32) (hpk : pk + ekLen (fips p) ≤ X.size) (hsk : sk + 384 * (fips p).k ≤ X.size) :
    match K_PKE_KeyGen (fips p) (112 + 56 * fuel) d with
    | some (ek, dk) => Runs (indcpa_keypair_in P X pk sk coins) fun X2 => ∃ X1, X.Wrote X1 sk dk ∧ X1.Wrote X2 pk ek
    | none => indcpa_keypair_in P X pk sk coins = .diverge := by
  have e1 : KYBER_INDCPA_PUBLICKEYBYTES p = ekLen (fips p) := pk_size' p
  have e2 := isk_size p
  have := hP.spec.keypair (tail_holds hd) hdl
  rw [show iters fuel = 112 + 56 * fuel from rfl] at this
  unfold indcpa_keypair_in
  cases ho : K_PKE_KeyGen (fips p) (112 + 56 * fuel) d with
  | none =>
    rw [ho] at this
    rw [show P.keypair (tail X coins) = .diverge from this]
    rfl
  | some o =>
    rw [ho] at this
    show Runs _ _
    rw [runs_bind]
    refine Runs.mono this fun s hs => ?_
    rw [runs_bind]
    refine (onTail_runs (n := KYBER_INDCPA_SECRETKEYBYTES p) (by omega) hs.1).mono fun X1 h1 => ?_
    exact (onTail_runs (n := KYBER_INDCPA_PUBLICKEYBYTES p) (by rw [h1.size]; omega) hs.2).mono fun X2 h2 => ⟨X1, h1, h2⟩

/-- C70. K-PKE.Encrypt: the ciphertext may lie on the message, the public key and the coins. -/
theorem C70_indcpa_enc (c m pk coins : Nat) (ek M r : List UInt8) (hm : X.Holds m M) (hml : M.length = 32) (hek : X.Holds pk ek) (hekl : ek.length = ekLen (fips p)) (hr : X.Holds coins r) (hrl : r.length = 32)
    (hc : c + ctLen (fips p) ≤ X.size) :
    match K_PKE_Encrypt (fips p) (112 + 56 * fuel) ek M r with
    | some ct => Runs (indcpa_enc_in P X c m pk coins) fun X' => X.Wrote X' c ct
    | none => indcpa_enc_in P X c m pk coins = .diverge := by
  have e1 := pk_size p
  have e2 : KYBER_INDCPA_BYTES p = ctLen (fips p) := ct_size' p
  have := hP.spec.enc hm hml hek (hekl.trans e1.symm) hr hrl
  rw [show iters fuel = 112 + 56 * fuel from rfl] at this
  unfold indcpa_enc_in
  cases ho : K_PKE_Encrypt (fips p) (112 + 56 * fuel) ek M r with
  | none =>
    rw [ho] at this
    rw [show P.enc X m X pk X coins = .diverge from this]
    rfl
  | some o =>
    rw [ho] at this
    show Runs _ _
    rw [runs_bind]
    refine Runs.mono this fun s hs => ?_
    exact onTail_runs (n := KYBER_INDCPA_BYTES p) (by omega) hs

end

/-- C70. K-PKE.Decrypt in both builds: the message may lie on the ciphertext and the secret key. -/
theorem C70_indcpa_dec (p : ParamSet) (X : Mem UInt8) (m c sk : Nat) (ct dk : List UInt8) (hc : X.Holds c ct) (hcl : ct.length = ctLen (fips p)) (hdk : X.Holds sk dk) (hdl : dk.length = 384 * (fips p).k)
    (hm : m + 32 ≤ X.size) :
    Runs (indcpa_dec_in p X m c sk) (fun X' => X.Wrote X' m (K_PKE_Decrypt (fips p) dk ct)) ∧ Runs (Avx.indcpa_dec_in p X m c sk) fun X' => X.Wrote X' m (K_PKE_Decrypt (fips p) dk ct) := by
  have e2 : KYBER_INDCPA_BYTES p = ctLen (fips p) := ct_size' p
  have e3 := isk_size p
  exact ⟨(refPke_spec p 0).dec (tail_holds hc) (hcl.trans e2.symm) (tail_holds hdk) (hdl.trans e3.symm) hm,
    (Avx.avxPke_spec p (fun _ _ _ => 0) 0).dec (tail_holds hc) (hcl.trans e2.symm) (tail_holds hdk) (hdl.trans e3.symm) hm⟩

/-! ## The hash functions -/

section
variable (X : Mem UInt8) (out inp : Nat) (M : List UInt8) (hM : X.Holds inp M)
include hM

/-- C70. The output of a hash function may lie on its input. -/
theorem C70_hash : (∀ n, out + n ≤ X.size → Runs (shake128_in X out n inp M.length) fun X' => X.Wrote X' out (SHAKE128 M n)) ∧
    (∀ n, out + n ≤ X.size → Runs (shake256_in X out n inp M.length) fun X' => X.Wrote X' out (SHAKE256 M n)) ∧
    (out + 32 ≤ X.size → Runs (sha3_256_in X out inp M.length) fun X' => X.Wrote X' out (SHA3_256 M)) ∧
    (out + 64 ≤ X.size → Runs (sha3_512_in X out inp M.length) fun X' => X.Wrote X' out (SHA3_512 M)) :=
  ⟨fun n ho => C26_shake128 X out n X inp M hM ho, fun n ho => C26_shake256 X out n X inp M hM ho, C26_sha3_256 X out X inp M hM, C26_sha3_512 X out X inp M hM⟩

/-- C70. So may that of the PRF and of the function J of implicit rejection. -/
theorem C70_prf (hl : M.length = 32) : (∀ n nonce, out + n ≤ X.size → Runs (prf_in X out n inp nonce) fun X' => X.Wrote X' out (SHAKE256 (M ++ [nonce]) n)) ∧
    ∀ (p : ParamSet) (input : Nat) (c : List UInt8), X.Holds input c → c.length = ctLen (fips p) → out + 32 ≤ X.size → Runs (rkprf_in p X out inp input) fun X' => X.Wrote X' out (J (M ++ c)) :=
  ⟨fun _ nonce ho => prf_runs hM hl nonce ho, fun p _ _ hc hcl ho => rkprf_runs hM hl hc (hcl.trans (ct_size' p).symm) ho⟩

end

/-! ## `cmov` -/

/-- C70. `cmov` of ref/verify.c, if the destination does not begin inside the source. -/
theorem C70_cmov (X : Mem UInt8) (r x : Nat) (old new : List UInt8) (hlen : old.length = new.length) (hr : X.Holds r old) (hx : X.Holds x new) (h : r ≤ x ∨ x + new.length ≤ r) (b : Bool) :
    Runs (cmov_in X r x new.length (if b then 1 else 0)) fun X' => X.Wrote X' r (if b then new else old) := by
  have hr' := hlen ▸ hr.has 0
  have hx' := hx.has 0
  have : Runs (cmov_in X r x new.length (if b then 1 else 0)) fun X' => X.Upd X' r new.length fun i => if b then new.getD i 0 else old.getD i 0 := by
    unfold cmov_in
    refine runs_fill1 fun i m hi hu => ?_
    have h1 : m[r + i]? = some (some (old.getD i 0)) := by rw [hu.frame _ (by omega)]; exact hr' i hi
    have h2 : m[x + i]? = some (some (new.getD i 0)) := by rw [hu.frame _ (by omega)]; exact hx' i hi
    simp only [runs_bind, runs_rd_of h1, runs_rd_of h2]
    refine (runs_wr_upd (Array.getElem?_eq_some_iff.mp h1).1).mono fun m' hm' => hm'.congr fun j hj => ?_
    cases b
    · simp
    · simpa using cmov_byte1 (old.getD i 0) (new.getD i 0)
  refine this.mono fun X' h => h.wrote_of (by cases b <;> simp [hlen]) fun i hi => ?_
  cases b <;> simp at hi <;> simp [hi]

/-- C70. If it does, the copy is wrong: the first byte is copied on and on. -/
theorem C70_cmov_wrong : ∃ (X : Mem UInt8) (r x : Nat) (new : List UInt8), X.Holds x new ∧ Runs (cmov_in X r x new.length 1) fun X' => ¬ X'.Holds r new :=
  ⟨Mem.ofList [1, 2, 3, 4], 1, 0, [1, 2, 3], fun i hi => by
    have : i < 3 := hi
    obtain rfl | rfl | rfl : i = 0 ∨ i = 1 ∨ i = 2 := by omega
    all_goals rfl, by
    have : Runs (cmov_in (Mem.ofList [1, 2, 3, 4]) 1 0 3 1) fun X' => X' = Mem.ofList [1, 1, 1, 1] := by decide +kernel
    refine this.mono fun X' h hn => ?_
    subst h
    exact absurd (hn 1 (by decide)) (by decide)⟩

/-- C70. `cmov` of avx2/verify.c: `restrict` forbids a byte in common, and otherwise the copy is right. -/
theorem C70_cmov_avx (X : Mem UInt8) (r x : Nat) (old new : List UInt8) (hlen : old.length = new.length) (hr : X.Holds r old) (hx : X.Holds x new) (b : Bool) :
    (Apart r new.length x new.length → Runs (Avx.cmov_in X r x new.length (if b then 1 else 0)) fun X' => X.Wrote X' r (if b then new else old)) ∧
    (¬ Apart r new.length x new.length → Avx.cmov_in X r x new.length (if b then 1 else 0) = .ub .alias) := by
  unfold Apart Avx.cmov_in
  constructor
  · intro h
    rw [if_neg (by omega)]
    refine (Avx.cmov_runs (hlen ▸ hr.has 0) (hx.has 0) b).mono fun X' h => h.wrote_of (by cases b <;> simp [hlen]) fun i hi => ?_
    cases b <;> simp at hi <;> simp [hi]
  · intro h
    exact if_pos (by omega)

/-! ## Concrete cases -/

/-- A hash over itself, and a copy to a lower place that overlaps. -/
example : Runs (sha3_256_in (Mem.ofList (List.replicate 32 7)) 0 0 32) (fun X' => X'.Holds 0 (SHA3_256 (List.replicate 32 7))) :=
  ((C70_hash (Mem.ofList (List.replicate 32 7)) 0 0 (List.replicate 32 7) (Mem.holds_ofList _)).2.2.1 (by decide)).mono fun _ h => h.holds

example : Runs (cmov_in (Mem.ofList [1, 2, 3, 4]) 0 1 3 1) (fun X' => X' = Mem.ofList [2, 3, 4, 4]) ∧ Avx.cmov_in (Mem.ofList [1, 2, 3, 4]) 0 1 3 1 = .ub .alias := ⟨by decide +kernel, rfl⟩

/-- The shortest memory for a decryption in place: the message on the beginning of the ciphertext, which lies on the beginning of the secret key. -/
example (p : ParamSet) : Runs (indcpa_dec_in p (Mem.ofList (List.replicate 2000 1)) 0 0 0) fun X' => X'.Holds 0 (K_PKE_Decrypt (fips p) (List.replicate (384 * (fips p).k) 1) (List.replicate (ctLen (fips p)) 1)) := by
  have hX : ∀ n, n ≤ 2000 → (Mem.ofList (List.replicate 2000 (1 : UInt8))).Holds 0 (List.replicate n 1) := fun n hn => by
    have h := Mem.holds_ofList (List.replicate 2000 (1 : UInt8))
    rw [show 2000 = n + (2000 - n) by omega, List.replicate_add] at h
    have := (Mem.Holds.append.1 h).1
    rwa [← List.replicate_add, show n + (2000 - n) = 2000 by omega] at this
  exact ((C70_indcpa_dec p _ 0 0 0 _ _ (hX _ (by cases p <;> decide)) List.length_replicate (hX _ (by cases p <;> decide)) List.length_replicate (by
    rw [Mem.size_ofList, List.length_replicate]
    omega)).1).mono fun _ h => h.holds

end Verif.Props
