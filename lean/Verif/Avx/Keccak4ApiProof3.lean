import Verif.Avx.Keccak4ApiProof2

/-! # The permutations and the absorbing loops of avx2/keccak4x -/

set_option autoImplicit false

namespace Verif.Avx.SnP
open Verif.Model Verif.Spec Verif.Proof
open Verif.Model (byteAt byteOf load64 store64 memset)

/-! ## Twelve rounds -/

theorem rounds12_runs (S : Lanes4) : Runs (rounds12 S) (fun S' => ∀ j, states S' j = keccakRoundsN 12 (states S j)) := by
  unfold rounds12
  rw [runs_bind]
  refine (runs_cfor (fun i (st : Lanes4 × Theta) => ThetaR st.1 st.2 ∧ ∀ j, states st.1 j = (List.range' 12 (i - 12)).foldl Rnd (states S j)) (by omega : 12 ≤ 23) ?_ ?_).mono ?_
  · exact ⟨prepareTheta_eq S, fun j => rfl⟩
  · rintro i ⟨S', T⟩ hi0 hi ⟨hT, hS⟩
    obtain ⟨c, hc, hb⟩ := rc_table ⟨i, by omega⟩
    rw [← rc4] at hc
    dsimp only at *
    rw [runs_bind, runs_rd_of hc, runs_pure]
    refine ⟨round4_theta _ _ _, fun j => ?_⟩
    rw [show i + 1 - 12 = (i - 12) + 1 from by omega, List.range'_1_concat, List.foldl_append, ← hS j, show 12 + (i - 12) = i from by omega]
    exact stateOf_eq hb (round4_lane c S' T hT j)
  · rintro ⟨S', T⟩ ⟨hT, hS⟩
    obtain ⟨c, hc, hb⟩ := rc_table ⟨23, by omega⟩
    rw [← rc4] at hc
    dsimp only at *
    rw [runs_bind, runs_rd_of hc, runs_pure]
    intro j
    have e : keccakRoundsN 12 (states S j) = Rnd ((List.range' 12 (23 - 12)).foldl Rnd (states S j)) 23 := by
      unfold keccakRoundsN
      rw [show (24 : Nat) - 12 = 12 from rfl]
      rw [show (List.range' 12 12) = List.range' 12 11 ++ [12 + 11] from List.range'_1_concat, List.foldl_append]
      rfl
    rw [e, ← hS j]
    exact stateOf_eq hb (last4_lane c S' T hT j)

theorem keccakRoundsN_24 (A : KState) : keccakRoundsN 24 A = keccakRounds A := by
  unfold keccakRoundsN keccakRounds
  rw [List.range_eq_range']

theorem PermuteAll12_runs {s : Mem V4} {A : Fin 4 → KState} (h : StR4 s A) :
    Runs (PermuteAll_12rounds s) (fun s' => StR4 s' fun j => keccakRoundsN 12 (A j)) := by
  unfold PermuteAll_12rounds
  rw [runs_bind]
  refine (copyFromState4_runs h).mono fun S hS => ?_
  rw [runs_bind]
  refine (rounds12_runs S).mono fun S' hS' => ?_
  refine (copyToState4_runs S' (by have := (h 0).1; rwa [projM_size] at this)).mono fun s' hs' => ?_
  have : states S' = fun j => keccakRoundsN 12 (A j) := funext fun j => by rw [hS', hS]
  rwa [this] at hs'

/-! ## On bytes -/

/-- Keccak-p[1600, nr] on each of the four states. -/
def permBytes (nr : Nat) (b : St) : St := fun j n => (b2h (keccakPN nr (h2b ((List.range 200).map (b j))))).getD n 0

/-- The 25 vectors hold the four states. -/
def VecB (X : Mem V4) (b : St) : Prop :=
  X.size = 25 ∧ ∀ i, i < 25 → ∃ v, X[i]? = some (some v) ∧ ∀ (j : Fin 4) (t : Nat), t < 8 → byteOf (v j) t = b j (8 * i + t)

theorem VecB.congr {X : Mem V4} {b b' : St} (h : VecB X b) (hb : ∀ j n, n < 200 → b j n = b' j n) : VecB X b' :=
  ⟨h.1, fun i hi => by
    obtain ⟨v, hv, hx⟩ := h.2 i hi
    exact ⟨v, hv, fun j t ht => by rw [hx j t ht, hb j _ (by omega)]⟩⟩

theorem bit_of_bytes {w : UInt64} {g : Nat → UInt8} (h : ∀ t, t < 8 → byteOf w t = g t) (z : Fin 64) : bit w z = (g (z.val / 8)).toNat.testBit (z.val % 8) := by
  rw [← h _ (by omega), testBit_byteOf _ _ (by omega) _ (by omega)]
  congr 1
  apply Fin.ext
  show z.val = 8 * (z.val / 8) + z.val % 8
  omega

theorem VecB.rb4 {X : Mem V4} {b : St} (h : VecB X b) : RB4 X (fun j => (List.range 200).map (b j)) := by
  intro j
  refine ⟨by rw [projM_size]; exact h.1, by simp, fun i hi => ?_⟩
  obtain ⟨v, hv, hx⟩ := h.2 i hi
  refine ⟨v j, by rw [projM_get, hv]; rfl, fun z => ?_⟩
  rw [bit_of_bytes (hx j) z, bytesToBits]
  have e1 : (64 * i + z.val) / 8 = 8 * i + z.val / 8 := by omega
  have e2 : (64 * i + z.val) % 8 = z.val % 8 := by omega
  rw [e1, e2]
  have : 8 * i + z.val / 8 < 200 := by omega
  simp [List.getD_eq_getElem?_getD, this]

theorem RB4.vecB {X : Mem V4} {B : Fin 4 → List UInt8} (h : RB4 X B) : VecB X (fun j n => (B j).getD n 0) := by
  have hs : X.size = 25 := by have := (h 0).1; rwa [projM_size] at this
  refine ⟨hs, fun i hi => ?_⟩
  obtain ⟨v0, hv0, _⟩ := (h 0).2.2 i hi
  obtain ⟨v, hv, _⟩ := projM_some hv0
  refine ⟨v, hv, fun j t ht => ?_⟩
  obtain ⟨w, hw, hb⟩ := (h j).byte (i := 8 * i + t) (by omega)
  rw [show (8 * i + t) / 8 = i from by omega, projM_get, hv] at hw
  rw [show (8 * i + t) % 8 = t from by omega] at hb
  obtain rfl : v j = w := by simpa using hw
  exact hb

/-- `perm` applies `π` to the bytes. -/
def PermSpec (perm : Mem V4 → C (Mem V4)) (π : St → St) : Prop := ∀ X b, VecB X b → Runs (perm X) (fun X' => VecB X' (π b))

theorem perm24 : PermSpec PermuteAll_24rounds (permBytes 24) := by
  intro X b h
  refine (permute4_runs h.rb4).mono fun X' h' => ?_
  refine (RB4.vecB h').congr fun j n hn => ?_
  unfold permBytes KF keccakPN keccakP
  rw [keccakRoundsN_24]

theorem perm12 : PermSpec PermuteAll_12rounds (permBytes 12) := by
  intro X b h
  refine (PermuteAll12_runs fun j => (h.rb4 j).stR).mono fun X' h' => ?_
  have hlen : ∀ S, (keccakPN 12 S).length = 1600 := fun S => ofKState_length _
  have : RB4 X' (fun j => b2h (keccakPN 12 (h2b ((List.range 200).map (b j))))) := by
    intro j
    refine StR.rB ?_ (by rw [b2h_length, hlen])
    rw [h2b_b2h _ 200 (hlen _), keccakPN, toKState_ofKState]
    exact h' j
  exact RB4.vecB this

theorem loadAll_runs {sa : Nat} {st : Mem UInt8} {b : St} (hsa : sa % 32 = 0) (h : Holds4 st b) : Runs (loadAll sa st) (fun X => VecB X b) := by
  unfold loadAll
  refine (runs_cfor (fun i (X : Mem V4) => X.size = 25 ∧ ∀ i', i' < i → ∃ v, X[i']? = some (some v) ∧ ∀ (j : Fin 4) (t : Nat), t < 8 → byteOf (v j) t = b j (8 * i' + t))
    (by omega) ⟨by simp, fun i' hi' => by omega⟩ ?_).mono fun X h => h
  intro i X _ hi hX
  rw [runs_bind]
  refine (LOAD256_runs hsa h hi).mono fun v hv => ?_
  rw [runs_wr]
  refine ⟨by omega, by simpa using hX.1, fun i' hi' => ?_⟩
  rw [Mem.get?_set (by omega)]
  by_cases e : i = i'
  · subst e; exact ⟨v, by simp, hv⟩
  · rw [if_neg e]; exact hX.2 i' (by omega)

theorem storeAll_runs {sa : Nat} {st : Mem UInt8} {X : Mem V4} {b b' : St} (hsa : sa % 32 = 0) (h : Holds4 st b) (hX : VecB X b') :
    Runs (storeAll sa st X) (fun st' => Holds4 st' b') := by
  unfold storeAll
  refine (runs_cfor (fun i st' => Holds4 st' (setAll b (8 * i) b')) (by omega) (by rw [setAll_zero]; exact h) ?_).mono fun st' h' => ?_
  · intro i st1 _ hi h1
    obtain ⟨v, hv, hx⟩ := hX.2 i hi
    rw [runs_bind, runs_rd_of hv]
    exact (STORE256_runs hsa h1 hi).mono fun st2 h2 => setAll_step rfl hx h2
  · refine h'.congr fun j n hn => ?_
    unfold setAll
    rw [if_pos (by omega)]

theorem permuteAll_runs {perm : Mem V4 → C (Mem V4)} {π : St → St} (hp : PermSpec perm π) {sa : Nat} {st : Mem UInt8} {b : St} (hsa : sa % 32 = 0) (h : Holds4 st b) :
    Runs (permuteAll perm sa st) (fun st' => Holds4 st' (π b)) := by
  unfold permuteAll
  rw [runs_bind]
  refine (loadAll_runs hsa h).mono fun X hX => ?_
  rw [runs_bind]
  exact (hp X b hX).mono fun X' hX' => storeAll_runs hsa h hX'

/-! ## The absorbing loops -/

/-- The number of blocks absorbed: as long as `8 K` bytes are left, `8 s` are consumed. -/
def blocks (K s len : Nat) : Nat := if 8 * K ≤ len then (len / 8 - K) / s + 1 else 0

/-- The states after `q` blocks of `c` lanes, block `q` of instance `j` being `g q j`. -/
def absorbed (π : St → St) (c : Nat) (g : Nat → St) (b : St) : Nat → St
  | 0 => b
  | q + 1 => π (xorAll (absorbed π c g b q) (8 * c) (g q))

theorem blocks_lt {K s len q : Nat} (hs : 0 < s) (h : q < blocks K s len) : 8 * (s * q) + 8 * K ≤ len := by
  unfold blocks at h
  split at h
  · rename_i h8
    have h1 : q ≤ (len / 8 - K) / s := by omega
    have h2 : s * q ≤ len / 8 - K := by
      rw [Nat.le_div_iff_mul_le hs] at h1
      rwa [Nat.mul_comm]
    omega
  · omega

theorem blocks_end {K s len : Nat} (hs : 0 < s) : len < 8 * (s * blocks K s len) + 8 * K := by
  unfold blocks
  split
  · rename_i h8
    have h1 : len / 8 - K < s * ((len / 8 - K) / s + 1) := by
      have := Nat.lt_mul_div_succ (len / 8 - K) hs
      exact this
    omega
  · omega

theorem blocks_le {K s len : Nat} (hK : 0 < K) : blocks K s len ≤ len := by
  unfold blocks
  split
  · have := Nat.div_le_self (len / 8 - K) s
    omega
  · omega

/-- Number of blocks and bytes left. -/
theorem blocks_used {K s len q : Nat} (hs : 0 < s) (hsK : s ≤ K) (h : q ≤ blocks K s len) : 8 * (s * q) ≤ len := by
  rcases Nat.eq_zero_or_pos q with rfl | hq
  · simp
  · have := blocks_lt hs (show q - 1 < blocks K s len by omega)
    have e : s * q = s * (q - 1) + s := by
      obtain ⟨q', rfl⟩ : ∃ q', q = q' + 1 := ⟨q - 1, by omega⟩
      rw [Nat.mul_succ, Nat.add_sub_cancel]
    omega

theorem vec_xor_step {X X' : Mem V4} {b g : St} {i : Nat} {x v : V4} (hX : VecB X (xorAll b (8 * i) g)) (hi : i < 25) (hx : X[i]? = some (some x))
    (hv : ∀ (j : Fin 4) (t : Nat), t < 8 → byteOf (v j) t = g j (8 * i + t)) (hX' : X' = X.setIfInBounds i (some (XOR256 x v))) : VecB X' (xorAll b (8 * (i + 1)) g) := by
  subst hX'
  refine ⟨by simpa using hX.1, fun i' hi' => ?_⟩
  rw [Mem.get?_set (by rw [hX.1]; exact hi)]
  by_cases e : i = i'
  · subst e
    refine ⟨_, by rw [if_pos rfl], fun j t ht => ?_⟩
    obtain ⟨x', hx', hb⟩ := hX.2 i hi
    obtain rfl : x = x' := by rw [hx] at hx'; simpa using hx'
    show byteOf (x j ^^^ v j) t = _
    rw [byteOf_xor, hb j t ht, hv j t ht]
    unfold xorAll
    rw [if_neg (by omega), if_pos (by omega)]
  · rw [if_neg e]
    obtain ⟨x', hx', hb⟩ := hX.2 i' hi'
    refine ⟨x', hx', fun j t ht => ?_⟩
    rw [hb j t ht]
    unfold xorAll
    by_cases e' : i' < i
    · rw [if_pos (by omega), if_pos (by omega)]
    · rw [if_neg (by omega), if_neg (by omega)]

/-- The data of block `q` of instance `j`. -/
def blockData (p s : Nat) (M : Nat → UInt8) (q : Nat) : St := fun j k => M (8 * (s * q) + 8 * p * j.val + k)

theorem streams_block {data : Mem UInt8} {d len p c s q : Nat} {M : Nat → UInt8} (hd : data.Has d len M) (hq : 8 * (s * q) + 8 * (p * 3 + c) ≤ len) :
    Streams data ⟨d + 8 * (s * q), d + 8 * (s * q) + 8 * p, d + 8 * (s * q) + 16 * p, d + 8 * (s * q) + 24 * p⟩ (8 * c) (blockData p s M q) := by
  generalize hsq : 8 * (s * q) = a at *
  refine ⟨?_, ?_, ?_, ?_⟩ <;> intro k hk <;> unfold blockData
  · have := hd (a + k) (by omega)
    rw [← Nat.add_assoc] at this
    rw [this, hsq]
    simp
  · have := hd (a + 8 * p + k) (by omega)
    rw [← Nat.add_assoc, ← Nat.add_assoc] at this
    rw [this, hsq]
    simp
  · have := hd (a + 16 * p + k) (by omega)
    rw [← Nat.add_assoc, ← Nat.add_assoc] at this
    rw [this, hsq, show 16 * p = 8 * p * 2 from by omega]
    rfl
  · have := hd (a + 24 * p + k) (by omega)
    rw [← Nat.add_assoc, ← Nat.add_assoc] at this
    rw [this, hsq, show 24 * p = 8 * p * 3 from by omega]
    rfl

theorem FastLoop_runs {perm : Mem V4 → C (Mem V4)} {π : St → St} (hp : PermSpec perm π) {sa c p s da d len : Nat} {st data : Mem UInt8} {b : St} {M : Nat → UInt8}
    (hsa : sa % 32 = 0) (h : Holds4 st b) (hc : c ≤ 25) (ha : (da + d) % 8 = 0) (hs : 0 < s) (hsK : s ≤ p * 3 + c) (hu : 8 * (p * 3 + c) < 4294967296)
    (hlen : len < 18446744073709551616) (hd : data.Has d len M) (hsz : d + len ≤ data.size)
    (h21 : c = 21 → d + 24 * p + 8 * (s * blocks (p * 3 + c) s len) ≤ data.size) :
    Runs (FastLoop_Absorb perm sa st c p s da data d len)
      (fun r => Holds4 r.1 (absorbed π c (blockData p s M) b (blocks (p * 3 + c) s len)) ∧ r.2 = 8 * (s * blocks (p * 3 + c) s len)) := by
  have hK : 0 < p * 3 + c := by omega
  have e1 : SnP.u (SnP.u (SnP.u (p * 3) + c) * 8) = 8 * (p * 3 + c) := by unfold SnP.u; omega
  have e2 : SnP.u (s * 8) = 8 * s := by unfold SnP.u; omega
  have e3 : ∀ q, q < blocks (p * 3 + c) s len → lenSub (len - 8 * (s * q)) s = len - 8 * (s * (q + 1)) := by
    intro q hq
    have := blocks_lt hs hq
    unfold lenSub
    rw [e2, Nat.mul_succ]
    omega
  have hbl := blocks_le (s := s) (len := len) hK
  have hend := blocks_end (K := p * 3 + c) (len := len) hs
  have hused := blocks_used (K := p * 3 + c) (len := len) (q := blocks (p * 3 + c) s len) hs hsK (Nat.le_refl _)
  have hlt : ∀ q, q < blocks (p * 3 + c) s len → 8 * (s * q) + 8 * (p * 3 + c) ≤ len := fun q hq => blocks_lt hs hq
  have hmono : ∀ q, q < blocks (p * 3 + c) s len → s * (q + 1) ≤ s * blocks (p * 3 + c) s len := fun q hq => Nat.mul_le_mul_left s hq
  generalize blocks (p * 3 + c) s len = N at *
  unfold FastLoop_Absorb
  rw [e1, e2, runs_cif]
  refine ⟨fun hc21 => ?_, fun hc21 => ?_⟩
  · simp at hc21
    have hptr := h21 hc21
    rw [runs_bind]
    refine (cur4_runs ha (by omega) (by omega)).mono ?_
    rintro p4 rfl
    rw [runs_bind]
    refine (loadAll_runs hsa h).mono fun X hX => ?_
    rw [runs_bind]
    refine (runs_cwhile (fun q (s' : Mem V4 × P4 × Nat) => VecB s'.1 (absorbed π c (blockData p s M) b q) ∧
      s'.2.1 = ⟨d + 8 * (s * q), d + 8 * (s * q) + 8 * p, d + 8 * (s * q) + 16 * p, d + 8 * (s * q) + 24 * p⟩ ∧ s'.2.2 = len - 8 * (s * q)) N (by omega)
      ⟨hX, by simp, by simp⟩ ?_ ?_).mono ?_
    · rintro q ⟨X1, p1, l1⟩ hq ⟨k1, k2, k3⟩
      dsimp only at k1 k2 k3
      subst k2 k3
      have := hlt q hq
      have hm := hmono q hq
      have hsucc : s * (q + 1) = s * q + s := Nat.mul_succ s q
      refine ⟨by simp; omega, ?_⟩
      dsimp only
      rw [runs_bind]
      refine Runs.mono (P := fun X' => VecB X' (xorAll (absorbed π c (blockData p s M) b q) (8 * c) (blockData p s M q))) ?_ fun X2 hX2 => ?_
      · subst hc21
        refine runs_cfor (fun i X' => VecB X' (xorAll (absorbed π 21 (blockData p s M) b q) (8 * i) (blockData p s M q))) (by omega) (by rw [xorAll_zero]; exact k1) ?_
        intro i X' _ hi hX'
        obtain ⟨x, hx, _⟩ := hX'.2 i (by omega)
        rw [runs_bind, runs_rd_of hx, runs_bind]
        refine (loadOne_runs (streams_block hd (by omega)) (by omega)).mono fun v hv => ?_
        rw [runs_wr]
        exact ⟨by rw [hX'.1]; omega, vec_xor_step hX' (by omega) hx hv rfl⟩
      · rw [runs_bind]
        refine (hp _ _ hX2).mono fun X3 hX3 => ?_
        rw [runs_bind, runs_ptr]
        refine ⟨by omega, ?_⟩
        rw [runs_bind, runs_ptr]
        refine ⟨by omega, ?_⟩
        rw [runs_bind, runs_ptr]
        refine ⟨by omega, ?_⟩
        rw [runs_bind, runs_ptr]
        refine ⟨by omega, ?_⟩
        rw [runs_pure]
        refine ⟨hX3, ?_, e3 q hq⟩
        dsimp only
        rw [hsucc]
        congr 1 <;> omega
    · rintro ⟨X1, p1, l1⟩ ⟨k1, k2, k3⟩
      dsimp only at k3
      simp; omega
    · rintro ⟨X1, p1, l1⟩ ⟨k1, k2, k3⟩
      dsimp only at k1 k2 k3 ⊢
      subst k2
      rw [runs_bind]
      refine (storeAll_runs hsa h k1).mono fun st' h' => ?_
      rw [runs_pure]
      exact ⟨h', by dsimp only; omega⟩
  · simp at hc21
    rw [runs_bind]
    refine (runs_cwhile (fun q (s' : Mem UInt8 × Nat × Nat) => Holds4 s'.1 (absorbed π c (blockData p s M) b q) ∧ s'.2.1 = d + 8 * (s * q) ∧ s'.2.2 = len - 8 * (s * q)) N
      (by omega) ⟨h, by simp, by simp⟩ ?_ ?_).mono ?_
    · rintro q ⟨st1, d1, l1⟩ hq ⟨k1, k2, k3⟩
      dsimp only at k1 k2 k3
      subst k2 k3
      have := hlt q hq
      have hm := hmono q hq
      have hsucc : s * (q + 1) = s * q + s := Nat.mul_succ s q
      refine ⟨by simp; omega, ?_⟩
      dsimp only
      rw [runs_bind]
      refine (AddLanesAll_runs hsa k1 hc (by omega) (by omega) (by omega) (streams_block hd (by omega))).mono fun st2 h2 => ?_
      rw [runs_bind]
      refine (permuteAll_runs hp hsa h2).mono fun st3 h3 => ?_
      rw [runs_bind, runs_ptr]
      refine ⟨by omega, ?_⟩
      rw [runs_pure]
      exact ⟨h3, by dsimp only; omega, e3 q hq⟩
    · rintro ⟨X1, d1, l1⟩ ⟨k1, k2, k3⟩
      dsimp only at k3
      simp; omega
    · rintro ⟨st1, d1, l1⟩ ⟨k1, k2, k3⟩
      dsimp only at k1 k2 k3 ⊢
      subst k2
      rw [runs_pure]
      exact ⟨k1, by dsimp only; omega⟩

end Verif.Avx.SnP
