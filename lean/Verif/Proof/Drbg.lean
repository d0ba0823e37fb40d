import Verif.Model.Drbg
import Verif.Spec.Drbg
import Verif.Proof.Randombytes
import Verif.Proof.Roundtrip

/-! # rng.c computes CTR_DRBG -/

namespace Verif.Proof
open Verif.Model Verif.Spec

/-! ## Big-endian integers -/

theorem beNat_append (l : List UInt8) (x : UInt8) : beNat (l ++ [x]) = 256 * beNat l + x.toNat := by
  simp [beNat]

theorem beBytes_length (n x : Nat) : (beBytes n x).length = n := by
  induction n generalizing x with
  | zero => rfl
  | succ n ih => simp [beBytes, ih]

theorem exists_snoc {l : List UInt8} {n : Nat} (h : l.length = n + 1) : ∃ l' x, l = l' ++ [x] := by
  rcases List.eq_nil_or_concat l with e | ⟨l', x, e⟩
  · subst e; simp at h
  · exact ⟨l', x, by simpa using e⟩

theorem beBytes_beNat : ∀ (n : Nat) (l : List UInt8), l.length = n → beBytes n (beNat l) = l
  | 0, l, h => by
    rw [List.length_eq_zero_iff] at h
    subst h; rfl
  | n + 1, l, h => by
    obtain ⟨l', x, rfl⟩ : ∃ l' x, l = l' ++ [x] := exists_snoc h
    have hl : l'.length = n := by simpa using h
    have hx := x.toNat_lt
    rw [beBytes, beNat_append, show (256 * beNat l' + x.toNat) / 256 = beNat l' from by omega, beBytes_beNat n l' hl]
    congr 2
    apply UInt8.toNat_inj.1
    rw [UInt8.toNat_ofNat']
    omega

theorem beNat_beBytes (n x : Nat) : beNat (beBytes n x) = x % 256 ^ n := by
  induction n generalizing x with
  | zero => simp [beBytes, beNat, Nat.mod_one]
  | succ n ih =>
    rw [beBytes, beNat_append, ih, UInt8.toNat_ofNat', show 256 ^ (n + 1) = 256 * 256 ^ n from by rw [pow_succ, mul_comm], Nat.mod_mul]
    omega

theorem beBytes_congr (n : Nat) {x y : Nat} (h : x % 256 ^ n = y % 256 ^ n) : beBytes n x = beBytes n y := by
  rw [← beBytes_beNat n (beBytes n x) (beBytes_length _ _), beNat_beBytes, h, ← beNat_beBytes, beBytes_beNat n _ (beBytes_length _ _)]

theorem ctrAdd_length (V : List UInt8) (i : Nat) : (ctrAdd V i).length = V.length := beBytes_length _ _

theorem ctrAdd_zero (V : List UInt8) : ctrAdd V 0 = V := beBytes_beNat _ _ rfl

theorem ctrAdd_ctrAdd (V : List UInt8) (i j : Nat) : ctrAdd (ctrAdd V i) j = ctrAdd V (i + j) := by
  unfold ctrAdd
  rw [beBytes_length, beNat_beBytes]
  apply beBytes_congr
  rw [Nat.mod_add_mod, Nat.add_assoc]

/-! ## The parts of rng.c -/

theorem rdBytes_runs {m : Mem UInt8} {o n : Nat} {l : List UInt8} (h : m.Holds o l) (hn : l.length = n) : Runs (rdBytes m o n) (fun r => r = l) := by
  unfold rdBytes
  refine (runs_cfor (fun i r => r = l.take i) (Nat.zero_le _) (by simp) fun i r _ hi hr => ?_).mono fun r hr => by rw [hr, ← hn, List.take_length]
  rw [runs_bind, runs_rd_of (h i (by omega)), runs_pure, hr, List.take_append_getElem]

theorem memset_runs {m : Mem UInt8} {o n : Nat} {v : UInt8} (h : o + n ≤ m.size) : Runs (memset m o v n) (fun m' => m.Wrote m' o (List.replicate n v)) := by
  unfold memset
  refine (runs_fill1 (f := fun _ => v) fun i m' hi hu => runs_wr_upd (by rw [hu.size]; omega)).mono fun m' h' => h'.wrote_of (by simp) (by simp)

theorem AES256_ECB_runs {aes : Cipher} {key ctr buf : Mem UInt8} {bo : Nat} {k c : List UInt8} (hA : IsCipher aes) (hk : key.Holds 0 k) (hkl : k.length = 32)
    (hc : ctr.Holds 0 c) (hcl : c.length = 16) (hb : bo + 16 ≤ buf.size) : Runs (AES256_ECB aes key ctr buf bo) (fun b => buf.Wrote b bo (aes k c)) := by
  unfold AES256_ECB
  rw [runs_bind]
  refine (rdBytes_runs hk hkl).mono fun k' e => ?_
  subst e
  rw [runs_bind]
  refine (rdBytes_runs hc hcl).mono fun c' e => ?_
  subst e
  refine (runs_fill1 (f := fun i => (aes k' c').getD i 0) fun i m' hi hu => runs_wr_upd (by rw [hu.size]; omega)).mono fun m' h' => h'.wrote_of (hA _ _ hkl hcl) fun i hi => by simp [hi]

theorem incrBE_runs : ∀ (n : Nat) {m : Mem UInt8} {lo : Nat} {l : List UInt8}, m.Holds lo l → l.length = n → Runs (incrBE m lo n) (fun m' => m.Wrote m' lo (ctrAdd l 1))
  | 0, m, lo, l, _, hn => by
    rw [List.length_eq_zero_iff] at hn
    subst hn
    exact Mem.Wrote.nil m lo
  | n + 1, m, lo, l, h, hn => by
    obtain ⟨l', x, rfl⟩ : ∃ l' x, l = l' ++ [x] := exists_snoc hn
    have hl : l'.length = n := by simpa using hn
    have hx := x.toNat_lt
    have hh := Mem.Holds.append.1 h
    have hx' : m[lo + n]? = some (some x) := by
      have := hh.2 0 (by simp)
      rw [hl] at this
      simpa using this
    have hsz : lo + n < m.size := (Array.getElem?_eq_some_iff.mp hx').1
    unfold incrBE
    rw [runs_bind, runs_leak, runs_bind, runs_rd_of hx', runs_cif]
    have e : ctrAdd (l' ++ [x]) 1 = beBytes n ((256 * beNat l' + x.toNat + 1) / 256) ++ [x + 1] := by
      unfold ctrAdd
      rw [hn, beBytes, beNat_append]
      congr 2
      apply UInt8.toNat_inj.1
      rw [UInt8.toNat_ofNat', UInt8.toNat_add]
      show _ = (x.toNat + 1) % _
      omega
    constructor
    · intro c
      have hxe : x = 0xff := by simpa using c
      rw [runs_bind]
      refine (runs_wr_upd hsz).mono fun m1 h1 => ?_
      have h1' : m1.Holds lo l' := fun i hi => by rw [h1.frame _ (by omega)]; exact hh.1 i hi
      refine (incrBE_runs n h1' hl).mono fun m2 h2 => ?_
      have hc := ctrAdd_length l' 1
      have e' : ctrAdd (l' ++ [x]) 1 = ctrAdd l' 1 ++ [0] := by
        rw [e, hxe]
        unfold ctrAdd
        rw [hl]
        congr 2
        show (256 * beNat l' + 255 + 1) / 256 = _
        omega
      rw [e']
      refine ⟨h2.size.trans h1.size, Mem.Holds.append.2 ⟨h2.holds, fun i hi => ?_⟩, fun j hj => ?_⟩
      · have hi0 : i = 0 := by simpa using hi
        subst hi0
        rw [hc, hl, h2.frame _ (by omega)]
        exact h1.has 0 (by omega)
      · simp only [List.length_append, List.length_singleton] at hj
        rw [h2.frame _ (by omega), h1.frame _ (by omega)]
    · intro c
      have hxe : x ≠ 0xff := by simpa using c
      have hx2 : x.toNat ≠ 255 := fun e => hxe (UInt8.toNat_inj.1 e)
      refine (runs_wr_upd hsz).mono fun m1 h1 => ?_
      rw [e, show (256 * beNat l' + x.toNat + 1) / 256 = beNat l' from by omega, beBytes_beNat n l' hl]
      refine ⟨h1.size, Mem.Holds.append.2 ⟨fun i hi => by rw [h1.frame _ (by omega)]; exact hh.1 i hi, fun i hi => ?_⟩, fun j hj => ?_⟩
      · have hi0 : i = 0 := by simpa using hi
        subst hi0
        rw [hl]
        exact h1.has 0 (by omega)
      · simp only [List.length_append, List.length_singleton] at hj
        exact h1.frame _ (by omega)

theorem ctrBlocks_length {aes : Cipher} (hA : IsCipher aes) {K V : List UInt8} (hK : K.length = 32) (hV : V.length = 16) (n : Nat) : (ctrBlocks aes K V n).length = 16 * n :=
  flatMap_length fun _ => hA _ _ hK (by rw [ctrAdd_length, hV])

theorem ctrBlocks_succ (aes : Cipher) (K V : List UInt8) (n : Nat) : ctrBlocks aes K V (n + 1) = ctrBlocks aes K V n ++ aes K (ctrAdd V (n + 1)) := by
  unfold ctrBlocks
  rw [List.range_succ, List.flatMap_append, List.flatMap_singleton]

theorem xorStr_zero (l : List UInt8) {n : Nat} (h : l.length ≤ n) : xorStr l (List.replicate n 0) = l := by
  unfold xorStr
  apply List.ext_getElem
  · simp; omega
  · intro i h1 h2
    simp

/-- `for(i=0;i<48;i++) t[i] ^= d[i]` -/
theorem xor_runs {t d : Mem UInt8} {a b : List UInt8} {n : Nat} (ht : t.Holds 0 a) (ha : a.length = n) (hd : d.Holds 0 b) (hb : b.length = n) :
    Runs (cfor 0 n t fun i t => do
      let x ← rd t i
      let y ← rd d i
      wr t i (x ^^^ y)) (fun t' => t.Wrote t' 0 (xorStr a b)) := by
  have hsz : n ≤ t.size := by
    by_cases h0 : n = 0
    · omega
    · have := ht (n - 1) (by omega)
      have := (Array.getElem?_eq_some_iff.mp this).1
      omega
  refine (runs_fill1 (o := 0) (f := fun i => (xorStr a b).getD i 0) fun i m' hi hu => ?_).mono fun m' h' => h'.wrote_of (by simp [xorStr]; omega) fun i hi => by simp [hi]
  have h1 : m'[i]? = some (some a[i]) := by
    rw [hu.frame _ (by omega)]
    have := ht i (by omega)
    rwa [Nat.zero_add] at this
  have h2 : d[i]? = some (some b[i]) := by
    have := hd i (by omega)
    rwa [Nat.zero_add] at this
  rw [runs_bind, runs_rd_of h1, runs_bind, runs_rd_of h2, Nat.zero_add]
  refine (runs_wr_upd (by rw [hu.size]; omega)).mono fun m'' h'' => h''.congr fun j hj => ?_
  have hb' : i < (xorStr a b).length := by simp [xorStr]; omega
  rw [List.getD_eq_getElem?_getD, List.getElem?_eq_getElem hb']
  simp [xorStr]

theorem xorOpt_runs {t : Mem UInt8} {d : Option (Mem UInt8)} {a b : List UInt8} (ht : t.Holds 0 a) (ha : a.length = 48) (hb : b.length = 48)
    (hd : match d with | none => b = List.replicate 48 0 | some d => d.Holds 0 b) : Runs (xorOpt t d) (fun t' => t'.Holds 0 (xorStr a b)) := by
  unfold xorOpt
  rw [runs_bind, runs_leak]
  cases d with
  | none =>
    dsimp only at hd ⊢
    rw [runs_pure, hd, xorStr_zero _ (by omega)]
    exact ht
  | some d => exact (xor_runs ht ha hd hb).mono fun t h => h.holds

theorem Update_runs {aes : Cipher} (hA : IsCipher aes) {provided : Option (Mem UInt8)} {Key V : Mem UInt8} {K v data : List UInt8} (hK : Key.Holds 0 K) (hKl : K.length = 32)
    (hV : V.Holds 0 v) (hVl : v.length = 16) (hdl : data.length = 48) (hp : match provided with | none => data = List.replicate 48 0 | some d => d.Holds 0 data) :
    Runs (AES256_CTR_DRBG_Update aes provided Key V)
      (fun r => Key.Wrote r.1 0 (CTR_DRBG_Update aes data K v).1 ∧ V.Wrote r.2 0 (CTR_DRBG_Update aes data K v).2) := by
  have hKs : 32 ≤ Key.size := by
    have := (Array.getElem?_eq_some_iff.mp (hK 31 (by omega))).1
    omega
  unfold AES256_CTR_DRBG_Update
  rw [runs_bind]
  refine (runs_cfor (fun i (s : Mem UInt8 × Mem UInt8) => (Mem.uninit UInt8 48).Wrote s.1 0 (ctrBlocks aes K v i) ∧ V.Wrote s.2 0 (ctrAdd v i)) (Nat.zero_le _) ?_ ?_).mono ?_
  · refine ⟨Mem.Wrote.nil _ _, rfl, ?_, fun _ _ => rfl⟩
    rw [ctrAdd_zero]; exact hV
  · rintro i ⟨temp, V'⟩ _ hi ⟨ht, hv⟩
    dsimp only at ht hv ⊢
    rw [runs_bind]
    refine (incrBE_runs 16 hv.holds (by rw [ctrAdd_length, hVl])).mono fun V'' hv' => ?_
    rw [ctrAdd_ctrAdd] at hv'
    rw [runs_bind]
    have ht' := ht.size
    rw [Mem.size_uninit] at ht'
    refine (AES256_ECB_runs hA hK hKl hv'.holds (by rw [ctrAdd_length, hVl]) (by omega)).mono fun t' h' => ?_
    rw [runs_pure, ctrBlocks_succ]
    refine ⟨ht.append ?_, hv'.size.trans hv.size, hv'.holds, fun j hj => ?_⟩
    · rwa [ctrBlocks_length hA hKl hVl, Nat.zero_add]
    · rw [hv'.frame j hj, hv.frame j (by rw [ctrAdd_length] at hj ⊢; exact hj)]
  · rintro ⟨temp, V'⟩ ⟨ht, hv⟩
    dsimp only at ht hv ⊢
    rw [runs_bind]
    have hbl := ctrBlocks_length hA hKl hVl 3
    refine (xorOpt_runs ht.holds hbl hdl hp).mono fun t h => ?_
    · have hx : (xorStr (ctrBlocks aes K v 3) data).length = 48 := by simp [xorStr]; omega
      unfold CTR_DRBG_Update
      dsimp only
      generalize xorStr (ctrBlocks aes K v 3) data = t0 at *
      have h1 := h.slice 0 32 (by omega)
      have h2 := h.slice 32 16 (by omega)
      have e1 : slice t0 0 32 = t0.take 32 := by simp [slice]
      have e2 : slice t0 32 16 = t0.drop 32 := by
        unfold slice
        exact List.take_of_length_le (by rw [List.length_drop]; omega)
      rw [e1] at h1
      rw [e2] at h2
      have hVs : 16 ≤ V'.size := by
        have := (Array.getElem?_eq_some_iff.mp (hv.holds 15 (by rw [ctrAdd_length]; omega))).1
        omega
      rw [runs_bind]
      refine (runs_memcpy_str h1 (by rw [List.length_take]; omega) (by omega)).mono fun K' hK' => ?_
      rw [runs_bind]
      refine (runs_memcpy_str h2 (by rw [List.length_drop]; omega) (by omega)).mono fun V'' hV' => ?_
      rw [runs_pure]
      refine ⟨hK', hV'.size.trans hv.size, hV'.holds, fun j hj => ?_⟩
      rw [hV'.frame j hj, hv.frame j (by rw [List.length_drop] at hj; rw [ctrAdd_length]; omega)]

theorem Update_lengths {aes : Cipher} (hA : IsCipher aes) {data K v : List UInt8} (hK : K.length = 32) (hV : v.length = 16) (hd : data.length = 48) :
    (CTR_DRBG_Update aes data K v).1.length = 32 ∧ (CTR_DRBG_Update aes data K v).2.length = 16 := by
  have hbl := ctrBlocks_length hA hK hV 3
  have hx : (xorStr (ctrBlocks aes K v 3) data).length = 48 := by simp [xorStr]; omega
  unfold CTR_DRBG_Update
  dsimp only
  rw [List.length_take, List.length_drop]
  omega

/-- The state of the specification in memory. -/
def drbgMem (s : DrbgState) : DRBG := ⟨Mem.ofList s.Key, Mem.ofList s.V, s.reseed_counter⟩

theorem drbg_init_runs {aes : Cipher} (hA : IsCipher aes) {g : DRBG} {entropy : Mem UInt8} {pers : Option (Mem UInt8)} {e s : List UInt8} (hK : g.Key.size = 32) (hV : g.V.size = 16)
    (he : entropy.Holds 0 e) (hel : e.length = 48) (hsl : s.length = 48) (hs : match pers with | none => s = List.replicate 48 0 | some d => d.Holds 0 s) :
    Runs (randombytes_init aes g entropy pers) (fun g' => g' = drbgMem (CTR_DRBG_Instantiate aes e s)) := by
  unfold randombytes_init
  rw [runs_bind]
  refine (runs_memcpy_str he hel (by rw [Mem.size_uninit])).mono fun seed hseed => ?_
  rw [runs_bind]
  refine (xorOpt_runs hseed.holds hel hsl hs).mono fun t h => ?_
  rw [runs_bind]
  refine (memset_runs (by omega)).mono fun K hK' => ?_
  rw [runs_bind]
  refine (memset_runs (by omega)).mono fun V hV' => ?_
  rw [runs_bind]
  have hx : (xorStr e s).length = 48 := by simp [xorStr]; omega
  refine (Update_runs hA hK'.holds (by simp) hV'.holds (by simp) hx h).mono fun r hr => ?_
  obtain ⟨l1, l2⟩ := Update_lengths hA (K := List.replicate 32 0) (v := List.replicate 16 0) (by simp) (by simp) hx
  rw [runs_pure]
  unfold drbgMem CTR_DRBG_Instantiate
  dsimp only
  congr 1
  · exact hr.1.holds.ext (by rw [hr.1.size, hK'.size, hK, l1])
  · exact hr.2.holds.ext (by rw [hr.2.size, hV'.size, hV, l2])

attribute [local irreducible] iadd CTR_DRBG_Update

/-- Invariant of the loop of `randombytes` after `n` iterations. -/
structure RbInv (aes : Cipher) (K V₀ : List UInt8) (x₀ : Mem UInt8) (xo len n : Nat) (s : RbSt) : Prop where
  V : s.V = Mem.ofList (ctrAdd V₀ n)
  block : s.block.size = 16
  xlen : s.xlen = len - 16 * n
  i : s.i = ((16 * min n (len / 16) : Nat) : Int)
  x : x₀.Wrote s.x xo ((ctrBlocks aes K V₀ n).take len)

theorem rb_step {aes : Cipher} (hA : IsCipher aes) {K V : List UInt8} (hK : K.length = 32) (hV : V.length = 16) {x : Mem UInt8} {xo xlen : Nat} (hx : xo + xlen ≤ x.size) {n : Nat}
    (hn : 16 * n < xlen) {s : RbSt} (h : RbInv aes K V x xo xlen n s) {Q : RbSt → Prop}
    (hb : n < xlen / 16 → ∀ x' V' b, RbInv aes K V x xo xlen (n + 1) ⟨x', ((16 * (n + 1) : Nat) : Int), xlen - 16 * (n + 1), V', b⟩ → Runs (do
      let i ← iadd (16 * n : Nat) 16
      pure (⟨x', i, xlen - 16 * n - 16, V', b⟩ : RbSt)) Q)
    (hl : ¬ n < xlen / 16 → ∀ s', RbInv aes K V x xo xlen (n + 1) s' → Q s') : Runs (rbBody aes (Mem.ofList K) xo s) Q := by
  have hbl := ctrBlocks_length hA hK hV n
  have hi : s.i = ((16 * n : Nat) : Int) := by rw [h.i, Nat.min_eq_left (by omega)]
  have hxl := h.xlen
  unfold rbBody
  rw [runs_bind, h.V]
  refine (incrBE_runs 16 (Mem.holds_ofList _) (by rw [ctrAdd_length, hV])).mono fun V' hV' => ?_
  rw [ctrAdd_ctrAdd] at hV'
  have eV : V' = Mem.ofList (ctrAdd V (n + 1)) := hV'.holds.ext (by rw [hV'.size, Mem.size_ofList, ctrAdd_length, ctrAdd_length])
  rw [runs_bind]
  refine (AES256_ECB_runs hA (Mem.holds_ofList K) hK hV'.holds (by rw [ctrAdd_length, hV]) (by rw [h.block])).mono fun b hb' => ?_
  have hal := hA K (ctrAdd V (n + 1)) hK (by rw [ctrAdd_length, hV])
  have hsucc := ctrBlocks_succ aes K V n
  have htake : (ctrBlocks aes K V n).take xlen = ctrBlocks aes K V n := List.take_of_length_le (by omega)
  have hx' := h.x
  rw [htake] at hx'
  rw [runs_cif, hi]
  simp only [decide_eq_true_eq, decide_eq_false_iff_not]
  refine ⟨fun c => ?_, fun c => ?_⟩
  · rw [runs_bind]
    refine (runs_memcpy_str hb'.holds hal (by rw [hx'.size, Int.toNat_natCast]; omega)).mono fun x'' hx'' => ?_
    rw [Int.toNat_natCast] at hx''
    have hI : RbInv aes K V x xo xlen (n + 1) ⟨x'', ((16 * (n + 1) : Nat) : Int), xlen - 16 * (n + 1), V', b⟩ := ⟨eV, by rw [hb'.size, h.block], rfl, by rw [Nat.min_eq_left (by omega)], by
      rw [hsucc, List.take_of_length_le (by rw [List.length_append]; omega)]
      exact hx'.append (by rw [hbl]; exact hx'')⟩
    rw [hxl]
    exact hb (by omega) x'' V' b hI
  · rw [runs_bind]
    have hsl := hb'.holds.slice 0 s.xlen (by omega)
    refine (runs_memcpy_str hsl (length_slice (by omega)) (by rw [hx'.size, Int.toNat_natCast]; omega)).mono fun x'' hx'' => ?_
    rw [Int.toNat_natCast] at hx''
    rw [runs_pure]
    refine hl (by omega) _ ⟨eV, by rw [hb'.size, h.block], by dsimp only; omega, ?_, ?_⟩
    · dsimp only
      congr 2
      omega
    · rw [hsucc, List.take_append, htake, hbl]
      refine hx'.append ?_
      rw [hbl]
      have e : slice (aes K (ctrAdd V (n + 1))) 0 s.xlen = (aes K (ctrAdd V (n + 1))).take (xlen - 16 * n) := by simp [slice, hxl]
      rwa [e] at hx''

theorem gen_loop {aes : Cipher} (hA : IsCipher aes) {s : DrbgState} (hK : s.Key.length = 32) (hV : s.V.length = 16) {x : Mem UInt8} {xo xlen : Nat}
    (hx : xo + xlen ≤ x.size) (hlen : xlen < 2147483648) :
    Runs (cwhile (xlen + 1) (fun s : RbSt => decide (0 < s.xlen)) (rbBody aes (drbgMem s).Key xo) ⟨x, 0, xlen, (drbgMem s).V, Mem.uninit UInt8 16⟩)
      (fun st => RbInv aes s.Key s.V x xo xlen ((xlen + 15) / 16) st) := by
  refine runs_cwhile (fun n st => RbInv aes s.Key s.V x xo xlen n st) ((xlen + 15) / 16) (by omega) ?_ ?_ ?_
  · refine ⟨?_, by simp, rfl, by simp, ?_⟩
    · rw [ctrAdd_zero]; rfl
    · show x.Wrote x xo _
      simp only [ctrBlocks, List.range_zero, List.flatMap_nil, List.take_nil]
      exact Mem.Wrote.nil x xo
  · intro n st hn h
    refine ⟨by rw [h.xlen]; simp; omega, ?_⟩
    refine rb_step hA hK hV hx (by omega) h (fun hn' x' V' b h' => ?_) (fun _ s' h' => h')
    rw [runs_bind, runs_iadd, runs_pure]
    refine ⟨⟨by omega, by push_cast; omega⟩, ?_⟩
    have e1 : ((16 * n : Nat) : Int) + 16 = ((16 * (n + 1) : Nat) : Int) := by push_cast; ring
    rw [e1, show xlen - 16 * n - 16 = xlen - 16 * (n + 1) from by omega]
    exact h'
  · intro st h
    rw [h.xlen]
    simp
    omega

theorem generate_runs {aes : Cipher} (hA : IsCipher aes) {s : DrbgState} (hK : s.Key.length = 32) (hV : s.V.length = 16) (hc : s.reseed_counter < 2147483647) {x : Mem UInt8} {xo xlen : Nat}
    (hx : xo + xlen ≤ x.size) (hlen : xlen < 2147483648) :
    Runs (drbg_randombytes aes (drbgMem s) x xo xlen)
      (fun r => x.Wrote r.1 xo (CTR_DRBG_Generate aes xlen s).1 ∧ r.2.1 = 0 ∧ r.2.2 = drbgMem (CTR_DRBG_Generate aes xlen s).2) := by
  unfold drbg_randombytes
  rw [runs_bind]
  refine (gen_loop hA hK hV hx hlen).mono ?_
  · intro st h
    rw [runs_bind]
    have hlv : (ctrAdd s.V ((xlen + 15) / 16)).length = 16 := by rw [ctrAdd_length, hV]
    refine (Update_runs hA (provided := none) (Mem.holds_ofList s.Key) hK (by rw [h.V]; exact Mem.holds_ofList _) hlv (data := List.replicate 48 0) (by simp) rfl).mono fun r hr => ?_
    obtain ⟨l1, l2⟩ := Update_lengths hA (K := s.Key) (v := ctrAdd s.V ((xlen + 15) / 16)) hK hlv (data := List.replicate 48 0) (by simp)
    rw [runs_bind, runs_iadd, runs_pure]
    have hc' : (drbgMem s).reseed_counter = (s.reseed_counter : Int) := rfl
    rw [hc']
    refine ⟨⟨by omega, by omega⟩, h.x, rfl, ?_⟩
    unfold drbgMem CTR_DRBG_Generate
    dsimp only
    congr 1
    · exact hr.1.holds.ext (by rw [hr.1.size]; show (Mem.ofList s.Key).size = _; rw [Mem.size_ofList, hK, l1])
    · refine hr.2.holds.ext ?_
      rw [hr.2.size, h.V, Mem.size_ofList, hlv, l2]

/-! ## Requests of 2^31 bytes or more -/

theorem bind_ub {α β : Type} {m : C α} {f : α → C β} {P : α → Prop} {u : UB} (h : Runs m P) (hf : ∀ v, P v → f v = .ub u) : (m >>= f) = .ub u := by
  obtain ⟨v, t, rfl, hv⟩ := h.exists_ok
  show C.bind _ _ = _
  simp [C.bind, hf v hv]

/-- A loop that makes `N` iterations and then meets undefined behaviour. -/
theorem cwhile_ub {σ : Type} {cond : σ → Bool} {body : σ → C σ} {u : UB} (Inv : Nat → σ → Prop) (N : Nat) (hs : ∀ n s, n < N → Inv n s → cond s = true ∧ Runs (body s) (Inv (n + 1)))
    (he : ∀ s, Inv N s → cond s = true ∧ body s = .ub u) : ∀ (k n fuel : Nat) (s : σ), n + k = N → k < fuel → Inv n s → cwhile fuel cond body s = .ub u
  | 0, n, fuel, s, hn, hk, h => by
    obtain ⟨fuel, rfl⟩ : ∃ f, fuel = f + 1 := ⟨fuel - 1, by omega⟩
    have e : n = N := by omega
    subst e
    obtain ⟨hc, hb⟩ := he s h
    unfold cwhile
    rw [if_pos hc]
    refine bind_ub (P := fun _ => True) trivial fun _ _ => ?_
    rw [hb]; rfl
  | k + 1, n, fuel, s, hn, hk, h => by
    obtain ⟨fuel, rfl⟩ : ∃ f, fuel = f + 1 := ⟨fuel - 1, by omega⟩
    obtain ⟨hc, hb⟩ := hs n s (by omega) h
    unfold cwhile
    rw [if_pos hc]
    refine bind_ub (P := fun _ => True) trivial fun _ _ => ?_
    exact bind_ub hb fun s' h' => cwhile_ub Inv N hs he k (n + 1) fuel s' (by omega) (by omega) h'

theorem iadd_ub {a b : Int} (h : 2147483647 < a + b) : iadd a b = .ub .overflow := by
  unfold iadd ckInt
  rw [if_neg (by omega)]

theorem rb_ub {aes : Cipher} (hA : IsCipher aes) {K V : List UInt8} (hK : K.length = 32) (hV : V.length = 16) {x : Mem UInt8} {xo xlen : Nat} (hx : xo + xlen ≤ x.size) {n : Nat}
    (hn : 16 * n + 16 ≤ xlen) (ho : 2147483647 < 16 * n + 16) {s : RbSt} (h : RbInv aes K V x xo xlen n s) : rbBody aes (Mem.ofList K) xo s = .ub .overflow := by
  have hi : s.i = ((16 * n : Nat) : Int) := by rw [h.i, Nat.min_eq_left (by omega)]
  have hxl := h.xlen
  unfold rbBody
  rw [h.V]
  refine bind_ub (incrBE_runs 16 (Mem.holds_ofList _) (by rw [ctrAdd_length, hV])) fun V' hV' => ?_
  rw [ctrAdd_ctrAdd] at hV'
  refine bind_ub (AES256_ECB_runs hA (Mem.holds_ofList K) hK hV'.holds (by rw [ctrAdd_length, hV]) (by rw [h.block])) fun b hb' => ?_
  have hal := hA K (ctrAdd V (n + 1)) hK (by rw [ctrAdd_length, hV])
  unfold cif
  refine bind_ub (P := fun _ => True) trivial fun _ _ => ?_
  rw [if_pos (by simp; omega), hi]
  refine bind_ub (runs_memcpy_str hb'.holds hal (by rw [h.x.size, Int.toNat_natCast]; omega)) fun x'' hx'' => ?_
  rw [iadd_ub (by push_cast; omega)]
  rfl

theorem generate_ub {aes : Cipher} (hA : IsCipher aes) {s : DrbgState} (hK : s.Key.length = 32) (hV : s.V.length = 16) {x : Mem UInt8} {xo xlen : Nat}
    (hx : xo + xlen ≤ x.size) (hlen : 2147483648 ≤ xlen) : drbg_randombytes aes (drbgMem s) x xo xlen = .ub .overflow := by
  have hN : ∃ N, 16 * N + 16 = 2147483648 := ⟨134217727, rfl⟩
  obtain ⟨N, hN⟩ := hN
  unfold drbg_randombytes
  have : cwhile (xlen + 1) (fun s : RbSt => decide (0 < s.xlen)) (rbBody aes (drbgMem s).Key xo) ⟨x, 0, xlen, (drbgMem s).V, Mem.uninit UInt8 16⟩ = .ub .overflow := by
    refine cwhile_ub (fun n st => RbInv aes s.Key s.V x xo xlen n st) N ?_ ?_ N 0 (xlen + 1) _ (by omega) (by omega) ?_
    · intro n st hn h
      refine ⟨by rw [h.xlen]; simp; omega, ?_⟩
      refine rb_step hA hK hV hx (by omega) h (fun hn' x' V' b h' => ?_) (fun _ s' h' => h')
      rw [runs_bind, runs_iadd, runs_pure]
      refine ⟨⟨by omega, by push_cast; omega⟩, ?_⟩
      have e1 : ((16 * n : Nat) : Int) + 16 = ((16 * (n + 1) : Nat) : Int) := by push_cast; ring
      rw [e1, show xlen - 16 * n - 16 = xlen - 16 * (n + 1) from by omega]
      exact h'
    · intro st h
      exact ⟨by rw [h.xlen]; simp; omega, rb_ub hA hK hV hx (by omega) (by omega) h⟩
    · refine ⟨?_, by simp, rfl, by simp, ?_⟩
      · rw [ctrAdd_zero]; rfl
      · show x.Wrote x xo _
        simp only [ctrBlocks, List.range_zero, List.flatMap_nil, List.take_nil]
        exact Mem.Wrote.nil x xo
  rw [this]; rfl

/-- The counter overflows at the call after 2^31 - 2 others. -/
theorem generate_counter_ub {aes : Cipher} (hA : IsCipher aes) {s : DrbgState} (hK : s.Key.length = 32) (hV : s.V.length = 16) (hc : s.reseed_counter = 2147483647) {x : Mem UInt8} {xo xlen : Nat}
    (hx : xo + xlen ≤ x.size) (hlen : xlen < 2147483648) : drbg_randombytes aes (drbgMem s) x xo xlen = .ub .overflow := by
  unfold drbg_randombytes
  refine bind_ub (gen_loop hA hK hV hx hlen) fun st h => ?_
  have hlv : (ctrAdd s.V ((xlen + 15) / 16)).length = 16 := by rw [ctrAdd_length, hV]
  refine bind_ub (Update_runs hA (provided := none) (Mem.holds_ofList s.Key) hK (by rw [h.V]; exact Mem.holds_ofList _) hlv (data := List.replicate 48 0) (by simp) rfl) fun r hr => ?_
  have hc' : (drbgMem s).reseed_counter = ((2147483647 : Nat) : Int) := by rw [← hc]; rfl
  rw [hc']
  rw [iadd_ub (by omega)]
  rfl

/-! ## The seed expander -/

/-- The block with number `b` is the encryption of this counter. -/
def expCtr (div : List UInt8) (maxlen b : Nat) : List UInt8 := div ++ beBytes 4 maxlen ++ beBytes 4 b

/-- The state of the expander after `n` bytes: either all of the buffer is used, or it holds the current block. -/
structure ExpState (aes : Cipher) (seed div : List UInt8) (maxlen n : Nat) (c : AES_XOF) : Prop where
  key : c.key = Mem.ofList seed
  size : c.buffer.size = 16
  rest : c.length_remaining = maxlen - n
  buf : (n % 16 = 0 ∧ c.buffer_pos = 16 ∧ c.ctr = Mem.ofList (expCtr div maxlen (n / 16))) ∨
    (c.buffer_pos = ((n % 16 : Nat) : Int) ∧ c.ctr = Mem.ofList (expCtr div maxlen (n / 16 + 1)) ∧ c.buffer = Mem.ofList (aes seed (expCtr div maxlen (n / 16))))

theorem seinit_runs {aes : Cipher} {c : AES_XOF} {seed div : Mem UInt8} {s d : List UInt8} {maxlen : Nat} (hk : c.key.size = 32) (hc : c.ctr.size = 16) (hb : c.buffer.size = 16)
    (hs : seed.Holds 0 s) (hsl : s.length = 32) (hd : div.Holds 0 d) (hdl : d.length = 8) (hm : maxlen < 4294967296) :
    Runs (seedexpander_init c seed div maxlen) (fun r => r.1 = 0 ∧ ExpState aes s d maxlen 0 r.2) := by
  unfold seedexpander_init
  rw [runs_cif]
  refine ⟨fun h => by simp at h; omega, fun _ => ?_⟩
  rw [runs_bind]
  refine (runs_memcpy_str hs hsl (by omega)).mono fun key hkey => ?_
  rw [runs_bind]
  refine (runs_memcpy_str hd hdl (by omega)).mono fun c1 h1 => ?_
  have z1 := h1.size
  rw [runs_bind]
  refine (runs_wr_upd (by omega)).mono fun c2 h2 => ?_
  have z2 := h2.size
  dsimp only
  rw [runs_bind]
  refine (runs_wr_upd (by omega)).mono fun c3 h3 => ?_
  have z3 := h3.size
  rw [runs_bind]
  refine (runs_wr_upd (by omega)).mono fun c4 h4 => ?_
  have z4 := h4.size
  rw [runs_bind]
  refine (runs_wr_upd (by omega)).mono fun c5 h5 => ?_
  have z5 := h5.size
  rw [runs_bind]
  refine (memset_runs (by omega)).mono fun c6 h6 => ?_
  rw [runs_bind]
  refine (memset_runs (by omega)).mono fun b hb' => ?_
  rw [runs_pure]
  refine ⟨rfl, hkey.holds.ext (by rw [hkey.size]; omega), by rw [hb'.size, hb], rfl, Or.inl ⟨rfl, rfl, ?_⟩⟩
  unfold expCtr
  refine Mem.Holds.ext ?_ (by rw [h6.size, z5, z4, z3, z2, z1, hc]; simp [beBytes_length, hdl])
  rw [Mem.Holds.append, Mem.Holds.append]
  refine ⟨⟨fun i hi => ?_, ?_⟩, ?_⟩
  · rw [h6.frame _ (by omega), h5.frame _ (by omega), h4.frame _ (by omega), h3.frame _ (by omega), h2.frame _ (by omega)]
    exact h1.holds i hi
  · have e : beBytes 4 maxlen = [UInt8.ofNat (maxlen / 256 / 256 / 256), UInt8.ofNat (maxlen / 256 / 256), UInt8.ofNat (maxlen / 256), UInt8.ofNat maxlen] := by simp [beBytes]
    have sh : ∀ x : Nat, x >>> 8 = x / 256 := fun x => by rw [Nat.shiftRight_eq_div_pow]
    have md : ∀ x : Nat, UInt8.ofNat (x % 256) = UInt8.ofNat x := fun x => by
      apply UInt8.toNat_inj.1
      rw [UInt8.toNat_ofNat', UInt8.toNat_ofNat']
      omega
    rw [e, hdl]
    intro i hi
    simp only [List.length_cons, List.length_nil] at hi
    simp only [md, sh] at h2 h3 h4 h5
    have k5 := h5.has 0 (by omega)
    have k4 := h4.has 0 (by omega)
    have k3 := h3.has 0 (by omega)
    have k2 := h2.has 0 (by omega)
    rw [h6.frame _ (by omega)]
    rcases (show i = 0 ∨ i = 1 ∨ i = 2 ∨ i = 3 by omega) with rfl | rfl | rfl | rfl
    · exact k5
    · rw [h5.frame _ (by omega)]; exact k4
    · rw [h5.frame _ (by omega), h4.frame _ (by omega)]; exact k3
    · rw [h5.frame _ (by omega), h4.frame _ (by omega), h3.frame _ (by omega)]; exact k2
  · have e : beBytes 4 (0 / 16) = List.replicate 4 0 := by decide
    rw [e, List.length_append, hdl, beBytes_length]
    exact h6.holds

theorem expCtr_length {d : List UInt8} (h : d.length = 8) (m b : Nat) : (expCtr d m b).length = 16 := by simp [expCtr, beBytes_length, h]

theorem toULong_nat {n : Nat} (h : n < 2 ^ 64) : toULong (n : Int) = n := by
  unfold toULong
  omega

theorem toInt_nat {n : Nat} (h : n < 2 ^ 31) : toInt n = n := by
  unfold toInt
  rw [BitVec.toInt_ofNat', Int.bmod_eq_of_le] <;> omega

theorem incr_expCtr {d : List UInt8} (hd : d.length = 8) (m b : Nat) :
    Runs (incrBE (Mem.ofList (expCtr d m b)) 12 4) (fun c => c = Mem.ofList (expCtr d m (b + 1))) := by
  have h0 : (Mem.ofList (expCtr d m b)).Holds 0 ((d ++ beBytes 4 m) ++ beBytes 4 b) := Mem.holds_ofList _
  rw [Mem.Holds.append] at h0
  have hl : (d ++ beBytes 4 m).length = 12 := by simp [beBytes_length, hd]
  rw [hl, Nat.zero_add] at h0
  refine (incrBE_runs 4 h0.2 (beBytes_length _ _)).mono fun c hc => ?_
  have e : ctrAdd (beBytes 4 b) 1 = beBytes 4 (b + 1) := by
    unfold ctrAdd
    rw [beBytes_length, beNat_beBytes]
    apply beBytes_congr
    rw [Nat.mod_add_mod]
  rw [e] at hc
  refine Mem.Holds.ext (l := expCtr d m (b + 1)) ?_ (by rw [hc.size, Mem.size_ofList, expCtr_length hd, expCtr_length hd])
  unfold expCtr
  rw [Mem.Holds.append, hl, Nat.zero_add]
  exact ⟨fun i hi => by rw [hc.frame _ (by omega)]; exact h0.1 i hi, hc.holds⟩

/-- Part of a block. -/
theorem block_slice {aes : Cipher} (hA : IsCipher aes) {s d : List UInt8} (hs : s.length = 32) (hd : d.length = 8) {m q n : Nat} (h : q % 16 + n ≤ 16) :
    slice (aes s (expCtr d m (q / 16))) (q % 16) n = streamBytes (expanderByte aes s d m) q n := by
  have hl := hA s (expCtr d m (q / 16)) hs (expCtr_length hd _ _)
  apply List.ext_getElem
  · rw [length_slice (by omega), streamBytes_length]
  · intro i h1 h2
    rw [streamBytes_length] at h2
    rw [getElem_slice h1 (by omega)]
    have e : ∀ (g : Nat → UInt8) (h : i < (streamBytes g q n).length), (streamBytes g q n)[i] = g (q + i) := fun g h => by
      simp [streamBytes]
    rw [e]
    unfold expanderByte
    rw [show (q + i) / 16 = q / 16 from by omega, show (q + i) % 16 = q % 16 + i from by omega]
    show _ = (aes s (expCtr d m (q / 16))).getD (q % 16 + i) 0
    rw [List.getD_eq_getElem?_getD, List.getElem?_eq_getElem (by omega)]
    rfl

/-- Invariant of the loop of `seedexpander`, `n` bytes having been given before the call. -/
def SeInv (aes : Cipher) (seed div : List UInt8) (maxlen n : Nat) (x : Mem UInt8) (xo len : Nat) (s : SeSt) : Prop :=
  if s.returned then x.Wrote s.x xo (streamBytes (expanderByte aes seed div maxlen) n len) ∧ ExpState aes seed div maxlen (n + len) s.ctx
  else s.offset + s.xlen = len ∧ x.Wrote s.x xo (streamBytes (expanderByte aes seed div maxlen) n s.offset) ∧
    ExpState aes seed div maxlen (n + s.offset) { s.ctx with length_remaining := maxlen - (n + s.offset) } ∧ s.ctx.length_remaining = maxlen - (n + len)

theorem se_step {aes : Cipher} (hA : IsCipher aes) {seed div : List UInt8} (hs : seed.length = 32) (hd : div.length = 8) {maxlen n : Nat} {x : Mem UInt8} {xo len : Nat}
    (hx : xo + len ≤ x.size) (hlen : len < 4294967296) {s : SeSt} (hr : s.returned = false) (hp : 0 < s.xlen) (h : SeInv aes seed div maxlen n x xo len s) :
    Runs (seBody aes xo s) (fun s' => SeInv aes seed div maxlen n x xo len s' ∧
      (if s'.returned then 0 else 2 * s'.xlen + (if s'.ctx.buffer_pos = 16 then 1 else 0)) < (if s.returned then 0 else 2 * s.xlen + (if s.ctx.buffer_pos = 16 then 1 else 0))) := by
  unfold SeInv at h
  rw [hr, if_neg (by simp)] at h
  obtain ⟨ho, hw, hE, hrest⟩ := h
  obtain ⟨sx, off, xl, ctx, ret⟩ := s
  dsimp only at hr ho hw hE hrest hp ⊢
  subst hr
  generalize hq : n + off = q at hE hw
  obtain ⟨P, hP, hP16, hcase⟩ : ∃ P : Nat, ctx.buffer_pos = (P : Int) ∧ P ≤ 16 ∧ ((P = 16 ∧ q % 16 = 0 ∧ ctx.ctr = Mem.ofList (expCtr div maxlen (q / 16))) ∨
      (P = q % 16 ∧ ctx.ctr = Mem.ofList (expCtr div maxlen (q / 16 + 1)) ∧ ctx.buffer = Mem.ofList (aes seed (expCtr div maxlen (q / 16))))) := by
    rcases hE.buf with ⟨h1, h2, h3⟩ | ⟨h1, h2, h3⟩
    · exact ⟨16, h2, by omega, Or.inl ⟨rfl, h1, h3⟩⟩
    · exact ⟨q % 16, h1, by omega, Or.inr ⟨rfl, h2, h3⟩⟩
  have hkey : ctx.key = Mem.ofList seed := hE.key
  have hsize : ctx.buffer.size = 16 := hE.size
  unfold seBody
  dsimp only
  rw [runs_bind, hP, runs_isub]
  refine ⟨⟨by omega, by omega⟩, ?_⟩
  have ha : toULong (16 - (P : Int)) = 16 - P := by
    unfold toULong
    omega
  rw [ha, runs_cif]
  simp only [decide_eq_true_eq, decide_eq_false_iff_not, Int.toNat_natCast]
  -- the part of the block that is copied
  have hcopy : ∀ k, k ≤ 16 - P → xo + off + k ≤ x.size → Runs (memcpy sx (xo + off) ctx.buffer P k) (fun x' => x.Wrote x' xo (streamBytes (expanderByte aes seed div maxlen) n (off + k))) := by
    intro k hk hk'
    rcases hcase with ⟨h1, h2, h3⟩ | ⟨h1, h2, h3⟩
    · have hk0 : k = 0 := by omega
      subst hk0
      exact hw
    · have hb : ctx.buffer.Holds P (streamBytes (expanderByte aes seed div maxlen) q k) := by
        rw [← block_slice hA hs hd (by omega), h3, h1]
        have := (Mem.holds_ofList (aes seed (expCtr div maxlen (q / 16)))).slice (q % 16) k (by rw [hA _ _ hs (expCtr_length hd _ _)]; omega)
        rwa [Nat.zero_add] at this
      refine (runs_memcpy_str hb (streamBytes_length _ _ _) (by rw [hw.size]; omega)).mono fun x' hx' => ?_
      rw [streamBytes_add, hq]
      exact hw.append (by rw [streamBytes_length]; exact hx')
  refine ⟨fun c => ?_, fun c => ?_⟩
  · rw [runs_bind]
    refine (hcopy xl c (by omega)).mono fun x' hx' => ?_
    rw [runs_pure]
    rw [toULong_nat (by omega), Nat.mod_eq_of_lt (by omega), toInt_nat (by omega)]
    refine ⟨?_, ?_⟩
    · unfold SeInv
      rw [if_pos rfl]
      dsimp only
      rw [ho] at hx'
      refine ⟨hx', hkey, hsize, hrest, ?_⟩
      dsimp only
      rcases hcase with ⟨h1, h2, h3⟩ | ⟨h1, h2, h3⟩
      · omega
      · by_cases hf : P + xl = 16
        · left
          refine ⟨by omega, by omega, ?_⟩
          rw [show (n + len) / 16 = q / 16 + 1 from by omega]
          exact h2
        · right
          rw [show (n + len) / 16 = q / 16 from by omega]
          exact ⟨by omega, h2, h3⟩
    · simp
      omega
  · rw [runs_bind]
    refine (hcopy (16 - P) (Nat.le_refl _) (by omega)).mono fun x' hx' => ?_
    obtain ⟨b, hb, hctr⟩ : ∃ b, b = (q + (16 - P)) / 16 ∧ ctx.ctr = Mem.ofList (expCtr div maxlen b) := by
      refine ⟨_, rfl, ?_⟩
      rcases hcase with ⟨h1, h2, h3⟩ | ⟨h1, h2, h3⟩
      · rw [h3, show (q + (16 - P)) / 16 = q / 16 from by omega]
      · rw [h2, show (q + (16 - P)) / 16 = q / 16 + 1 from by omega]
    have hq16 : (q + (16 - P)) % 16 = 0 := by
      rcases hcase with ⟨h1, h2, h3⟩ | ⟨h1, h2, h3⟩ <;> omega
    rw [runs_bind]
    refine (AES256_ECB_runs hA (by rw [hkey]; exact Mem.holds_ofList _) hs (by rw [hctr]; exact Mem.holds_ofList _) (expCtr_length hd _ _) (by omega)).mono fun bf hbf => ?_
    rw [runs_bind, hctr]
    refine (incr_expCtr hd _ _).mono fun ct hct => ?_
    rw [runs_pure, Nat.mod_eq_of_lt (by omega)]
    refine ⟨?_, ?_⟩
    · unfold SeInv
      rw [if_neg (by simp)]
      dsimp only
      refine ⟨by omega, hx', ⟨hkey, by rw [hbf.size, hsize], rfl, Or.inr ?_⟩, hrest⟩
      dsimp only
      rw [show n + (off + (16 - P)) = q + (16 - P) from by omega, hq16, ← hb]
      exact ⟨rfl, hct, hbf.holds.ext (by rw [hbf.size, hsize, hA _ _ hs (expCtr_length hd _ _)])⟩
    · simp only [Bool.false_eq_true, if_false]
      split
      · rename_i hh; simp at hh
      · split
        · rename_i h16; omega
        · rename_i h16; omega

theorem seedexpander_runs {aes : Cipher} (hA : IsCipher aes) {seed div : List UInt8} (hs : seed.length = 32) (hd : div.length = 8) {maxlen n : Nat} (hm : maxlen < 4294967296)
    {c : AES_XOF} (hE : ExpState aes seed div maxlen n c) {x : Mem UInt8} {xo len : Nat} (hx : xo + len ≤ x.size) (hlen : n + len < maxlen) :
    Runs (seedexpander aes c (some x) xo len)
      (fun r => r.1 = 0 ∧ ExpState aes seed div maxlen (n + len) r.2.1 ∧ ∃ x', r.2.2 = some x' ∧ x.Wrote x' xo (streamBytes (expanderByte aes seed div maxlen) n len)) := by
  unfold seedexpander
  rw [runs_bind, runs_leak]
  dsimp only
  rw [runs_cif]
  have hr := hE.rest
  refine ⟨fun h => by simp at h; omega, fun _ => ?_⟩
  rw [runs_bind]
  refine (runs_cwhile_measure (SeInv aes seed div maxlen n x xo len) (fun s => if s.returned then 0 else 2 * s.xlen + (if s.ctx.buffer_pos = 16 then 1 else 0)) ?_ ?_ ?_).mono ?_
  · simp only [Bool.false_eq_true, if_false]
    split <;> omega
  · unfold SeInv
    rw [if_neg (by simp)]
    dsimp only
    refine ⟨by omega, Mem.Wrote.nil x xo, ⟨hE.key, hE.size, rfl, hE.buf⟩, by omega⟩
  · intro s h hc
    simp only [Bool.and_eq_true, Bool.not_eq_true', decide_eq_true_eq] at hc
    exact se_step hA hs hd hx (by omega) hc.1 hc.2 h
  · rintro s ⟨h, hc⟩
    rw [runs_pure]
    unfold SeInv at h
    by_cases hret : s.returned
    · rw [if_pos hret] at h
      exact ⟨rfl, h.2, _, rfl, h.1⟩
    · rw [if_neg hret] at h
      obtain ⟨h1, h2, h3, h4⟩ := h
      simp only [Bool.not_eq_true] at hret
      simp only [hret, Bool.not_false, Bool.true_and, decide_eq_false_iff_not] at hc
      have e : s.offset = len := by omega
      rw [e] at h2 h3
      exact ⟨rfl, ⟨h3.key, h3.size, h4, h3.buf⟩, _, rfl, h2⟩

end Verif.Proof
