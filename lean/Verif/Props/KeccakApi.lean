import Verif.Avx.Keccak4ApiNeg

/-! # C78, C79: the interface of avx2/keccak4x

C78: the functions that move bytes between buffers and the four interleaved states. C79: the permutations with 24 and with 12 rounds and the absorbing loops.
The library calls one function of the file, the permutation with 24 rounds; the others are exported. -/

set_option autoImplicit false

namespace Verif.Props
open Verif.Model Verif.Spec Verif.Avx Verif.Avx.SnP

/-- The 800 bytes hold four states of 200 bytes, interleaved by lanes of 8 bytes. -/
def FourStates (st : Mem UInt8) (b : Fin 4 → Nat → UInt8) : Prop :=
  st.size = 800 ∧ ∀ (j : Fin 4) (lane t : Nat), lane < 25 → t < 8 → st[8 * (4 * lane + j.val) + t]? = some (some (b j (8 * lane + t)))

theorem FourStates.iff {st : Mem UInt8} {b : Fin 4 → Nat → UInt8} : FourStates st b ↔ Holds4 st b := by
  constructor
  · rintro ⟨h1, h2⟩
    refine ⟨h1, fun j n hn => ?_⟩
    have := h2 j (n / 8) (n % 8) (by omega) (by omega)
    rwa [show 8 * (4 * (n / 8) + j.val) + n % 8 = 32 * (n / 8) + 8 * j.val + n % 8 from by omega, show 8 * (n / 8) + n % 8 = n from by omega] at this
  · rintro ⟨h1, h2⟩
    refine ⟨h1, fun j l t hl ht => ?_⟩
    have := h2 j (8 * l + t) (by omega)
    rwa [show 32 * ((8 * l + t) / 8) + 8 * j.val + (8 * l + t) % 8 = 8 * (4 * l + j.val) + t from by omega] at this

/-- The four buffers of `n` bytes at distance `8 lo` hold `f`. -/
def FourBuffers (m : Mem UInt8) (d lo n : Nat) (f : Fin 4 → Nat → UInt8) : Prop :=
  ∀ (j : Fin 4) (k : Nat), k < n → m[d + 8 * lo * j.val + k]? = some (some (f j k))

theorem FourBuffers.streams {m : Mem UInt8} {d lo n : Nat} {f : Fin 4 → Nat → UInt8} (h : FourBuffers m d lo n f) :
    Streams m ⟨d, d + 8 * lo, d + 16 * lo, d + 24 * lo⟩ n f := by
  refine ⟨fun k hk => ?_, fun k hk => ?_, fun k hk => ?_, fun k hk => ?_⟩
  · have := h 0 k hk; simpa using this
  · have := h 1 k hk; simpa using this
  · have := h 2 k hk
    rwa [show 8 * lo * (2 : Fin 4).val = 16 * lo from by show 8 * lo * 2 = _; omega] at this
  · have := h 3 k hk
    rwa [show 8 * lo * (3 : Fin 4).val = 24 * lo from by show 8 * lo * 3 = _; omega] at this

theorem FourBuffers.of_streams {m : Mem UInt8} {d lo n : Nat} {f : Fin 4 → Nat → UInt8} (h : Streams m ⟨d, d + 8 * lo, d + 16 * lo, d + 24 * lo⟩ n f) :
    FourBuffers m d lo n f := by
  intro j
  revert j
  refine fin4 (P := fun j => ∀ k, k < n → m[d + 8 * lo * j.val + k]? = some (some (f j k))) ?_ ?_ ?_ ?_ <;> intro k hk
  · simpa using h.s0 k hk
  · simpa using h.s1 k hk
  · rw [show 8 * lo * (2 : Fin 4).val = 16 * lo from by show 8 * lo * 2 = _; omega]; exact h.s2 k hk
  · rw [show 8 * lo * (3 : Fin 4).val = 24 * lo from by show 8 * lo * 3 = _; omega]; exact h.s3 k hk

/-- The full lanes start at a multiple of 8, if the call processes a full lane. -/
def LanesAligned (a off len : Nat) : Prop := (8 - off % 8) % 8 + 8 ≤ len → (a + (8 - off % 8)) % 8 = 0

/-! ## C78 -/

/-- C78. All states are set to zero. -/
theorem C78_initialize (st : Mem UInt8) (h : st.size = 800) : Runs (InitializeAll st) (fun st' => FourStates st' fun _ _ => 0) :=
  (InitializeAll_runs h).mono fun _ h' => FourStates.iff.2 h'

/-- C78. One byte of one state is changed. -/
theorem C78_add_byte (st : Mem UInt8) (b : Fin 4 → Nat → UInt8) (h : FourStates st b) (i : Fin 4) (x : UInt8) (off : Nat) (ho : off < 200) :
    Runs (AddByte st i.val x off) (fun st' => FourStates st' fun j n => if j = i ∧ n = off then b j n ^^^ x else b j n) := by
  refine (AddByte_runs (FourStates.iff.1 h) ho).mono fun st' h' => FourStates.iff.2 (h'.congr fun j n _ => ?_)
  unfold xorAt
  by_cases e : j = i ∧ n = off
  · rw [if_pos e, if_pos ⟨e.1, by omega, by omega⟩]
  · rw [if_neg e, if_neg fun ⟨e1, e2, e3⟩ => e ⟨e1, by omega⟩]

/-- C78. `len` bytes of state `i` from `off` on are changed by the data, and nothing else. -/
theorem C78_add_bytes (sa : Nat) (st : Mem UInt8) (b : Fin 4 → Nat → UInt8) (i : Fin 4) (da : Nat) (data : Mem UInt8) (d off len : Nat) (f : Nat → UInt8)
    (hsa : sa % 8 = 0) (h : FourStates st b) (hd : data.Has d len f) (hl : off + len ≤ 200) (ha : LanesAligned (da + d) off len) :
    Runs (AddBytes sa st i.val da data d off len)
      (fun st' => FourStates st' fun j n => if j = i ∧ off ≤ n ∧ n < off + len then b j n ^^^ f (n - off) else b j n) :=
  (AddBytes_runs hsa (FourStates.iff.1 h) hd hl ha).mono fun _ h' => FourStates.iff.2 h'

/-- C78. `len` bytes of state `i` from `off` on are replaced by the data, and nothing else. -/
theorem C78_overwrite_bytes (sa : Nat) (st : Mem UInt8) (b : Fin 4 → Nat → UInt8) (i : Fin 4) (da : Nat) (data : Mem UInt8) (d off len : Nat) (f : Nat → UInt8)
    (hsa : sa % 8 = 0) (h : FourStates st b) (hd : data.Has d len f) (hl : off + len ≤ 200) (ha : LanesAligned (da + d) off len) :
    Runs (OverwriteBytes sa st i.val da data d off len)
      (fun st' => FourStates st' fun j n => if j = i ∧ off ≤ n ∧ n < off + len then f (n - off) else b j n) :=
  (OverwriteBytes_runs hsa (FourStates.iff.1 h) hd hl ha).mono fun _ h' => FourStates.iff.2 h'

/-- C78. The first `len` bytes of state `i` are set to zero. -/
theorem C78_overwrite_zeroes (sa : Nat) (st : Mem UInt8) (b : Fin 4 → Nat → UInt8) (i : Fin 4) (len : Nat) (hsa : sa % 8 = 0) (h : FourStates st b) (hl : len ≤ 200) :
    Runs (OverwriteWithZeroes sa st i.val len) (fun st' => FourStates st' fun j n => if j = i ∧ n < len then 0 else b j n) := by
  refine (OverwriteWithZeroes_runs hsa (FourStates.iff.1 h) hl).mono fun _ h' => FourStates.iff.2 (h'.congr fun j n _ => ?_)
  unfold setAt
  by_cases e : j = i ∧ n < len
  · rw [if_pos e, if_pos ⟨e.1, by omega, by omega⟩]
  · rw [if_neg e, if_neg fun ⟨e1, e2, e3⟩ => e ⟨e1, by omega⟩]

/-- C78. `len` bytes of state `i` from `off` on are written to the data, and nothing else. -/
theorem C78_extract_bytes (sa : Nat) (st : Mem UInt8) (b : Fin 4 → Nat → UInt8) (i : Fin 4) (da : Nat) (data : Mem UInt8) (d off len : Nat)
    (hsa : sa % 8 = 0) (h : FourStates st b) (hsz : d + len ≤ data.size) (hl : off + len ≤ 200) (ha : LanesAligned (da + d) off len) :
    Runs (ExtractBytes sa st i.val da data d off len) (fun data' => data.Upd data' d len fun t => b i (off + t)) :=
  ExtractBytes_runs hsa (FourStates.iff.1 h) hsz hl ha

/-- C78. The sum of the input and of `len` bytes of state `i` from `off` on is written to the output, and nothing else. -/
theorem C78_extract_and_add_bytes (sa : Nat) (st : Mem UInt8) (b : Fin 4 → Nat → UInt8) (i : Fin 4) (ia : Nat) (inp : Mem UInt8) (io oa : Nat) (out : Mem UInt8)
    (oo off len : Nat) (f : Nat → UInt8) (hsa : sa % 8 = 0) (h : FourStates st b) (hi : inp.Has io len f) (hsz : oo + len ≤ out.size) (hl : off + len ≤ 200)
    (ha : LanesAligned (ia + io) off len) (ha' : LanesAligned (oa + oo) off len) :
    Runs (ExtractAndAddBytes sa st i.val ia inp io oa out oo off len) (fun out' => out.Upd out' oo len fun t => f t ^^^ b i (off + t)) :=
  ExtractAndAddBytes_runs hsa (FourStates.iff.1 h) hi hsz hl ha ha'

/-- C78. The alignment condition is necessary. Adding from an aligned buffer at an offset that is not a multiple of 8 is undefined from 8 bytes after the first
lane on. -/
theorem C78_alignment (sa : Nat) (st : Mem UInt8) (b : Fin 4 → Nat → UInt8) (i : Fin 4) (da : Nat) (data : Mem UInt8) (d off len : Nat) (f : Nat → UInt8)
    (hsa : sa % 8 = 0) (h : FourStates st b) (hd : data.Has d len f) (hsz : d + len ≤ data.size) (hl : off + len ≤ 200) (ha : ¬ LanesAligned (da + d) off len) :
    AddBytes sa st i.val da data d off len = .ub .align ∧ OverwriteBytes sa st i.val da data d off len = .ub .align ∧
      ExtractBytes sa st i.val da data d off len = .ub .align :=
  ⟨AddBytes_ub hsa (FourStates.iff.1 h) hd hl ha, OverwriteBytes_ub hsa (FourStates.iff.1 h) hd hl ha, ExtractBytes_ub hsa (FourStates.iff.1 h) hsz hl ha⟩

/-- C78. The same for the function with two buffers. -/
theorem C78_alignment_two (sa : Nat) (st : Mem UInt8) (b : Fin 4 → Nat → UInt8) (i : Fin 4) (ia : Nat) (inp : Mem UInt8) (io oa : Nat) (out : Mem UInt8)
    (oo off len : Nat) (f : Nat → UInt8) (hsa : sa % 8 = 0) (h : FourStates st b) (hi : inp.Has io len f) (hsz : oo + len ≤ out.size) (hl : off + len ≤ 200)
    (ha : ¬ (LanesAligned (ia + io) off len ∧ LanesAligned (oa + oo) off len)) :
    ExtractAndAddBytes sa st i.val ia inp io oa out oo off len = .ub .align :=
  ExtractAndAddBytes_ub hsa (FourStates.iff.1 h) hi hsz hl ha

/-- C78. The first `lc` lanes of the four states are changed by four buffers at distance `8 lo`. -/
theorem C78_add_lanes (sa : Nat) (st : Mem UInt8) (b f : Fin 4 → Nat → UInt8) (da : Nat) (data : Mem UInt8) (d lc lo : Nat) (hsa : sa % 32 = 0) (h : FourStates st b)
    (hlc : lc ≤ 25) (ha : (da + d) % 8 = 0) (hu : 24 * lo < 2 ^ 32) (hsz : d + 24 * lo ≤ data.size) (hf : FourBuffers data d lo (8 * lc) f) :
    Runs (AddLanesAll sa st da data d lc lo) (fun st' => FourStates st' fun j k => if k < 8 * lc then b j k ^^^ f j k else b j k) :=
  (AddLanesAll_runs hsa (FourStates.iff.1 h) hlc ha hu hsz hf.streams).mono fun _ h' => FourStates.iff.2 h'

/-- C78. The first `lc` lanes of the four states are replaced by four buffers at distance `8 lo`. -/
theorem C78_overwrite_lanes (sa : Nat) (st : Mem UInt8) (b f : Fin 4 → Nat → UInt8) (da : Nat) (data : Mem UInt8) (d lc lo : Nat) (hsa : sa % 32 = 0)
    (h : FourStates st b) (hlc : lc ≤ 25) (ha : (da + d) % 8 = 0) (hu : 24 * lo < 2 ^ 32) (hsz : d + 24 * lo ≤ data.size) (hf : FourBuffers data d lo (8 * lc) f) :
    Runs (OverwriteLanesAll sa st da data d lc lo) (fun st' => FourStates st' fun j k => if k < 8 * lc then f j k else b j k) :=
  (OverwriteLanesAll_runs hsa (FourStates.iff.1 h) hlc ha hu hsz hf.streams).mono fun _ h' => FourStates.iff.2 h'

/-- C78. The first `lc` lanes of the four states are written to four buffers at distance `8 lo`; the bytes between the buffers keep their values. -/
theorem C78_extract_lanes (sa : Nat) (st : Mem UInt8) (b : Fin 4 → Nat → UInt8) (da : Nat) (data : Mem UInt8) (d lc lo : Nat) (hsa : sa % 32 = 0) (h : FourStates st b)
    (hlc : lc ≤ 25) (ha : (da + d) % 8 = 0) (hlo : lc ≤ lo) (hu : 24 * lo < 2 ^ 32) (hsz : d + 24 * lo + 8 * lc ≤ data.size) :
    Runs (ExtractLanesAll sa st da data d lc lo) (fun data' => data'.size = data.size ∧ FourBuffers data' d lo (8 * lc) b ∧
      ∀ k, (∀ j : Fin 4, k < d + 8 * lo * j.val ∨ d + 8 * lo * j.val + 8 * lc ≤ k) → data'[k]? = data[k]?) := by
  refine (ExtractLanesAll_runs hsa (FourStates.iff.1 h) hlc ha hlo hu hsz).mono fun m' hw => ⟨hw.size, .of_streams hw.has, fun k hk => hw.frame k ?_ ?_ ?_ ?_⟩
  · have := hk 0; simpa using this
  · have := hk 1; simpa using this
  · have := hk 2
    rwa [show 8 * lo * (2 : Fin 4).val = 16 * lo from by show 8 * lo * 2 = _; omega] at this
  · have := hk 3
    rwa [show 8 * lo * (3 : Fin 4).val = 24 * lo from by show 8 * lo * 3 = _; omega] at this

/-- C78. The sums of the first `lc` lanes of the four states and of four input buffers are written to four output buffers. -/
theorem C78_extract_and_add_lanes (sa : Nat) (st : Mem UInt8) (b f : Fin 4 → Nat → UInt8) (ia : Nat) (inp : Mem UInt8) (io oa : Nat) (out : Mem UInt8) (oo lc lo : Nat)
    (hsa : sa % 32 = 0) (h : FourStates st b) (hlc : lc ≤ 25) (hia : (ia + io) % 8 = 0) (hoa : (oa + oo) % 8 = 0) (hlo : lc ≤ lo) (hu : 24 * lo < 2 ^ 32)
    (hisz : io + 24 * lo ≤ inp.size) (hf : FourBuffers inp io lo (8 * lc) f) (hsz : oo + 24 * lo + 8 * lc ≤ out.size) :
    Runs (ExtractAndAddLanesAll sa st ia inp io oa out oo lc lo) (fun out' => out'.size = out.size ∧ FourBuffers out' oo lo (8 * lc) (fun j k => f j k ^^^ b j k) ∧
      ∀ k, (∀ j : Fin 4, k < oo + 8 * lo * j.val ∨ oo + 8 * lo * j.val + 8 * lc ≤ k) → out'[k]? = out[k]?) := by
  refine (ExtractAndAddLanesAll_runs hsa (FourStates.iff.1 h) hlc hia hoa hlo hu hisz hf.streams hsz).mono fun m' hw =>
    ⟨hw.size, .of_streams hw.has, fun k hk => hw.frame k ?_ ?_ ?_ ?_⟩
  · have := hk 0; simpa using this
  · have := hk 1; simpa using this
  · have := hk 2
    rwa [show 8 * lo * (2 : Fin 4).val = 16 * lo from by show 8 * lo * 2 = _; omega] at this
  · have := hk 3
    rwa [show 8 * lo * (3 : Fin 4).val = 24 * lo from by show 8 * lo * 3 = _; omega] at this

/-- C78. Lane offsets are used modulo 2^29: with the offset 2^29 all four states receive the data of the first. -/
theorem C78_offset_wraps (sa : Nat) (st : Mem UInt8) (b : Fin 4 → Nat → UInt8) (da : Nat) (data : Mem UInt8) (d lc : Nat) (g : Nat → UInt8) (hsa : sa % 32 = 0)
    (h : FourStates st b) (hlc : lc ≤ 25) (ha : (da + d) % 8 = 0) (hsz : d ≤ data.size) (hf : data.Has d (8 * lc) g) :
    Runs (AddLanesAll sa st da data d lc (2 ^ 29)) (fun st' => FourStates st' fun j k => if k < 8 * lc then b j k ^^^ g k else b j k) := by
  have := AddLanesAll_wrap sa st da data d lc 0
  rw [Nat.zero_add] at this
  rw [show (2 : Nat) ^ 29 = 536870912 from rfl, this]
  refine (AddLanesAll_runs (f := fun _ => g) hsa (FourStates.iff.1 h) hlc ha (by omega) (by omega) ⟨?_, ?_, ?_, ?_⟩).mono fun _ h' => FourStates.iff.2 h' <;>
    simpa using hf

/-- States and a buffer for the examples. -/
@[irreducible] def exStates : Mem UInt8 := Array.replicate 800 (some 0)
@[irreducible] def exBuffer (n : Nat) : Mem UInt8 := Array.replicate n (some 5)

theorem exStates_four : FourStates exStates fun _ _ => 0 := by
  refine ⟨by simp [exStates], fun j l t hl ht => ?_⟩
  unfold exStates
  rw [Array.getElem?_replicate, if_pos (by omega)]

theorem exBuffer_has (n d len : Nat) (h : d + len ≤ n) : (exBuffer n).Has d len fun _ => 5 := by
  intro i hi
  unfold exBuffer
  rw [Array.getElem?_replicate, if_pos (by omega)]

theorem exBuffer_four (n d lo m : Nat) (h : d + 24 * lo + m ≤ n) : FourBuffers (exBuffer n) d lo m fun _ _ => 5 := by
  intro j k hk
  have : lo * j.val ≤ lo * 3 := Nat.mul_le_mul_left _ (by omega)
  have e : 8 * lo * j.val = 8 * (lo * j.val) := Nat.mul_assoc 8 lo j.val
  unfold exBuffer
  rw [Array.getElem?_replicate, if_pos (by omega)]

attribute [local irreducible] AddBytes AddLanesAll ExtractLanesAll FastLoop_Absorb

/-- 20 bytes at offset 3 from an address 3 modulo 8. -/
example : Runs (AddBytes 64 exStates 2 3 (exBuffer 20) 0 3 20) (fun st' => st'[8 * (4 * 1 + 2) + 6]? = some (some 5) ∧ st'[8 * (4 * 1 + 1) + 6]? = some (some 0)) := by
  refine (C78_add_bytes 64 exStates (fun _ _ => 0) 2 3 (exBuffer 20) 0 3 20 (fun _ => 5) (by decide) exStates_four (exBuffer_has _ _ _ (by decide)) (by decide)
    (by unfold LanesAligned; decide)).mono fun st' h => ⟨?_, ?_⟩
  · have := h.2 2 1 6 (by decide) (by decide); simpa using this
  · have := h.2 1 1 6 (by decide) (by decide); simpa using this

/-- The same bytes from an aligned buffer. -/
example : AddBytes 64 exStates 2 0 (exBuffer 20) 0 3 20 = .ub .align :=
  (C78_alignment 64 exStates (fun _ _ => 0) 2 0 (exBuffer 20) 0 3 20 (fun _ => 5) (by decide) exStates_four (exBuffer_has _ _ _ (by decide)) (by simp [exBuffer]) (by decide)
    (by unfold LanesAligned; decide)).1

example : Runs (AddLanesAll 64 exStates 0 (exBuffer 672) 0 21 21) (fun st' => st'[8 * (4 * 20 + 3) + 7]? = some (some 5)) := by
  refine (C78_add_lanes 64 exStates (fun _ _ => 0) (fun _ _ => 5) 0 (exBuffer 672) 0 21 21 (by decide) exStates_four (by decide) (by decide) (by decide)
    (by simp [exBuffer]) (exBuffer_four _ _ _ _ (by decide))).mono fun st' h => ?_
  have := h.2 3 20 7 (by decide) (by decide); simpa using this

example : Runs (ExtractLanesAll 64 exStates 0 (exBuffer 672) 0 21 21) (fun m => m[8 * 21 * 3]? = some (some 0)) := by
  refine (C78_extract_lanes 64 exStates (fun _ _ => 0) 0 (exBuffer 672) 0 21 21 (by decide) exStates_four (by decide) (by decide) (by decide) (by decide)
    (by simp [exBuffer])).mono fun m h => ?_
  have := h.2.1 3 0 (by decide); simpa using this

/-! ## C79 -/

/-- Keccak-p[1600, nr] of the 200 bytes of each state. -/
def permuteFour (nr : Nat) (b : Fin 4 → Nat → UInt8) : Fin 4 → Nat → UInt8 :=
  fun j n => (b2h (keccakPN nr (h2b ((List.range 200).map (b j))))).getD n 0

/-- The permutation of the file with the number of rounds. -/
inductive PermutesWith : Nat → (Mem V4 → C (Mem V4)) → Prop
  | r24 : PermutesWith 24 PermuteAll_24rounds
  | r12 : PermutesWith 12 PermuteAll_12rounds

theorem PermutesWith.spec {nr : Nat} {perm : Mem V4 → C (Mem V4)} (h : PermutesWith nr perm) : PermSpec perm (permuteFour nr) := by
  cases h
  · exact perm24
  · exact perm12

/-- C79. `PermuteAll_24rounds` and `PermuteAll_12rounds` apply Keccak-p[1600, 24] and Keccak-p[1600, 12] to the four states. -/
theorem C79_permute (nr : Nat) (perm : Mem V4 → C (Mem V4)) (hp : PermutesWith nr perm) (sa : Nat) (st : Mem UInt8) (b : Fin 4 → Nat → UInt8) (hsa : sa % 32 = 0)
    (h : FourStates st b) : Runs (permuteAll perm sa st) (fun st' => FourStates st' (permuteFour nr b)) :=
  (permuteAll_runs hp.spec hsa (FourStates.iff.1 h)).mono fun _ h' => FourStates.iff.2 h'

/-- C79. Keccak-p with 24 rounds is Keccak-f. -/
theorem C79_keccak_f (S : List Bool) : keccakPN 24 S = keccakP S := by
  unfold keccakPN keccakP
  rw [keccakRoundsN_24]

/-- The number of blocks: as long as `8 K` bytes are left, `8 s` bytes are consumed. -/
def blockCount (K s len : Nat) : Nat := if 8 * K ≤ len then (len / 8 - K) / s + 1 else 0

theorem absorbed_eq (π : (Fin 4 → Nat → UInt8) → Fin 4 → Nat → UInt8) (c : Nat) (g : Nat → Fin 4 → Nat → UInt8) (b : Fin 4 → Nat → UInt8) (n : Nat) :
    absorbed π c g b n = (List.range n).foldl (fun b q => π fun j k => if k < 8 * c then b j k ^^^ g q j k else b j k) b := by
  induction n with
  | zero => rfl
  | succ n ih =>
    rw [List.range_succ, List.foldl_append, ← ih]
    rfl

/-- C79. The loops absorb `blockCount` blocks of `c` lanes into each state, block `q` of state `j` starting `8 (s q + p j)` bytes after the start, with a permutation
after each block, and return the number of bytes consumed. For 21 lanes the code has a branch with four running pointers, and these must stay in the array. -/
theorem C79_fast_loop (nr : Nat) (perm : Mem V4 → C (Mem V4)) (hp : PermutesWith nr perm) (sa : Nat) (st : Mem UInt8) (b : Fin 4 → Nat → UInt8) (c p s da : Nat)
    (data : Mem UInt8) (d len : Nat) (M : Nat → UInt8) (hsa : sa % 32 = 0) (h : FourStates st b) (hc : c ≤ 25) (ha : (da + d) % 8 = 0) (hs : 0 < s)
    (hsK : s ≤ 3 * p + c) (hu : 8 * (3 * p + c) < 2 ^ 32) (hlen : len < 2 ^ 64) (hd : data.Has d len M) (hsz : d + len ≤ data.size)
    (h21 : c = 21 → d + 24 * p + 8 * (s * blockCount (3 * p + c) s len) ≤ data.size) :
    Runs (FastLoop_Absorb perm sa st c p s da data d len) (fun r =>
      FourStates r.1 ((List.range (blockCount (3 * p + c) s len)).foldl
        (fun b q => permuteFour nr fun j k => if k < 8 * c then b j k ^^^ M (8 * (s * q + p * j.val) + k) else b j k) b) ∧
      r.2 = 8 * (s * blockCount (3 * p + c) s len)) := by
  rw [Nat.mul_comm 3 p] at *
  have hN : blockCount (p * 3 + c) s len = blocks (p * 3 + c) s len := rfl
  rw [hN] at *
  refine (FastLoop_runs hp.spec hsa (FourStates.iff.1 h) hc ha hs hsK hu hlen hd hsz h21).mono fun r hr => ⟨FourStates.iff.2 ?_, hr.2⟩
  have e := hr.1
  rw [absorbed_eq] at e
  have eg : ∀ q (j : Fin 4) k, blockData p s M q j k = M (8 * (s * q + p * j.val) + k) := by
    intro q j k
    show M _ = M _
    rw [Nat.mul_add, Nat.mul_assoc]
  simpa only [eg] using e

/-- C79. The condition on the pointers is necessary: with 21 lanes and a buffer that ends with the data of a single block the loop is undefined. -/
theorem C79_pointers (nr : Nat) (perm : Mem V4 → C (Mem V4)) (hp : PermutesWith nr perm) (sa : Nat) (st : Mem UInt8) (b : Fin 4 → Nat → UInt8) (p s da : Nat)
    (data : Mem UInt8) (d len : Nat) (M : Nat → UInt8) (hsa : sa % 32 = 0) (h : FourStates st b) (ha : (da + d) % 8 = 0) (hu : 8 * (3 * p + 21) < 2 ^ 32)
    (hd : data.Has d len M) (hlen : 8 * (3 * p + 21) ≤ len) (hs : data.size < d + 24 * p + 8 * s) :
    FastLoop_Absorb perm sa st 21 p s da data d len = .ub .oob :=
  FastLoop_21_oob hp.spec hsa (FourStates.iff.1 h) ha (by omega) hd (by omega) hs

/-- C79. The bound on the serial offset is necessary: if it exceeds the data the loop is undefined. -/
theorem C79_serial_offset (nr : Nat) (perm : Mem V4 → C (Mem V4)) (hp : PermutesWith nr perm) (sa : Nat) (st : Mem UInt8) (b : Fin 4 → Nat → UInt8) (c p s da : Nat)
    (data : Mem UInt8) (d len : Nat) (M : Nat → UInt8) (hsa : sa % 32 = 0) (h : FourStates st b) (hc : c ≤ 25) (hc21 : c ≠ 21) (ha : (da + d) % 8 = 0)
    (h0 : 0 < 3 * p + c) (hu : 8 * (3 * p + c) < 2 ^ 32) (hus : 8 * s < 2 ^ 32) (hd : data.Has d len M) (hlen : 8 * (3 * p + c) ≤ len) (hs : data.size < d + 8 * s) :
    FastLoop_Absorb perm sa st c p s da data d len = .ub .oob :=
  FastLoop_serial_oob hp.spec hsa (FourStates.iff.1 h) hc hc21 ha (by omega) (by omega) hd (by omega) (by omega) hs

/-- C79. With serial offset 0 the loop does not end once it is entered. -/
theorem C79_no_end (nr : Nat) (perm : Mem V4 → C (Mem V4)) (hp : PermutesWith nr perm) (sa : Nat) (st : Mem UInt8) (b : Fin 4 → Nat → UInt8) (c p da : Nat)
    (data : Mem UInt8) (d len : Nat) (M : Nat → UInt8) (hsa : sa % 32 = 0) (h : FourStates st b) (hc : c ≤ 25) (ha : (da + d) % 8 = 0) (h0 : 0 < 3 * p + c)
    (hu : 8 * (3 * p + c) < 2 ^ 32) (hd : data.Has d len M) (hlen : 8 * (3 * p + c) ≤ len) (hl : len < 2 ^ 64) :
    FastLoop_Absorb perm sa st c p 0 da data d len = .diverge :=
  FastLoop_forever hp.spec hsa (FourStates.iff.1 h) hc ha (by omega) (by omega) hd (by omega) hl

/-- Two blocks of 17 lanes for four messages that follow each other blockwise. -/
example : Runs (FastLoop_Absorb PermuteAll_24rounds 64 exStates 17 17 68 0 (exBuffer 1100) 0 1100) (fun r => r.2 = 1088) :=
  (C79_fast_loop 24 _ .r24 64 exStates (fun _ _ => 0) 17 17 68 0 (exBuffer 1100) 0 1100 (fun _ => 5) (by decide) exStates_four (by decide) (by decide) (by decide) (by decide)
    (by decide) (by decide) (exBuffer_has _ _ _ (by decide)) (by simp [exBuffer]) (by decide)).mono fun _ h => h.2

/-- One block of 21 lanes for four messages that follow each other, in a buffer with and without room after the data. -/
example : Runs (FastLoop_Absorb PermuteAll_12rounds 64 exStates 21 21 84 0 (exBuffer 1176) 0 672) (fun r => r.2 = 672) :=
  (C79_fast_loop 12 _ .r12 64 exStates (fun _ _ => 0) 21 21 84 0 (exBuffer 1176) 0 672 (fun _ => 5) (by decide) exStates_four (by decide) (by decide) (by decide) (by decide)
    (by decide) (by decide) (exBuffer_has _ _ _ (by decide)) (by simp [exBuffer]) (by simp [exBuffer, blockCount])).mono fun _ h => h.2
example : FastLoop_Absorb PermuteAll_12rounds 64 exStates 21 21 84 0 (exBuffer 672) 0 672 = .ub .oob :=
  C79_pointers 12 _ .r12 64 exStates (fun _ _ => 0) 21 84 0 (exBuffer 672) 0 672 (fun _ => 5) (by decide) exStates_four (by decide) (by decide)
    (exBuffer_has _ _ _ (by decide)) (by decide) (by simp [exBuffer])
example : FastLoop_Absorb PermuteAll_24rounds 64 exStates 17 17 0 0 (exBuffer 544) 0 544 = .diverge :=
  C79_no_end 24 _ .r24 64 exStates (fun _ _ => 0) 17 17 0 (exBuffer 544) 0 544 (fun _ => 5) (by decide) exStates_four (by decide) (by decide) (by decide) (by decide)
    (exBuffer_has _ _ _ (by decide)) (by decide) (by decide)
example : FastLoop_Absorb PermuteAll_24rounds 64 exStates 17 0 68 0 (exBuffer 136) 0 136 = .ub .oob :=
  C79_serial_offset 24 _ .r24 64 exStates (fun _ _ => 0) 17 0 68 0 (exBuffer 136) 0 136 (fun _ => 5) (by decide) exStates_four (by decide) (by decide) (by decide) (by decide)
    (by decide) (by decide) (exBuffer_has _ _ _ (by decide)) (by decide) (by simp [exBuffer])

end Verif.Props
