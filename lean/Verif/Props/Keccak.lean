import Verif.Proof.Shake

/-! # Properties of fips202.c: the Keccak permutation, incremental hashing, the SHA-3 functions -/

set_option autoImplicit false

namespace Verif.Props
open Verif.Model Verif.Spec Verif.Proof

/-! ## C23: the permutation -/

/-- 25 words in memory. -/
def wordMem (w : Fin 25 → UInt64) : Mem UInt64 := Array.ofFn fun i => some (w i)

/-- The 1600-bit string held by 25 words: word by word, each least significant bit first (FIPS 202, sections 3.1.2 and B.1). -/
def wordBits (w : Fin 25 → UInt64) : List Bool :=
  (List.finRange 25).flatMap fun i => (List.finRange 64).map fun z => (w i).toNat.testBit z.val

theorem wordBits_length (w : Fin 25 → UInt64) : (wordBits w).length = 1600 := by
  unfold wordBits
  rw [flatMap_len (w := 64)] <;> simp

theorem wordBits_get (w : Fin 25 → UInt64) (x y : Fin 5) (z : Fin 64) :
    toKState (wordBits w) x y z = (w ⟨5 * y.val + x.val, by omega⟩).toNat.testBit z.val := by
  unfold toKState wordBits
  rw [List.getD_eq_getElem?_getD, flatMap_get (w := 64) _ (fun y => by simp) _ _ _ z.isLt]
  simp [show 5 * y.val + x.val < 25 from by omega]

theorem toKState_inj {S T : List Bool} (hS : S.length = 1600) (hT : T.length = 1600) (h : toKState S = toKState T) : S = T := by
  apply List.ext_getElem (by omega)
  intro k h1 h2
  have := congrFun (congrFun (congrFun h ⟨k / 64 % 5, by omega⟩) ⟨k / 320, by omega⟩) ⟨k % 64, by omega⟩
  unfold toKState at this
  dsimp only at this
  rw [show 64 * (5 * (k / 320) + k / 64 % 5) + k % 64 = k from by omega] at this
  simpa [List.getD_eq_getElem?_getD, h1, h2] using this

theorem stR_wordMem (w : Fin 25 → UInt64) : StR (wordMem w) (toKState (wordBits w)) := by
  refine ⟨by simp [wordMem], fun x y => ⟨w ⟨5 * y.val + x.val, by omega⟩, ?_, fun z => ?_⟩⟩
  · simp [wordMem, show 5 * y.val + x.val < 25 from by omega]
  · rw [wordBits_get]; rfl

theorem stR_words {s : Mem UInt64} {A : KState} (hs : StR s A) : ∃ w', s = wordMem w' ∧ toKState (wordBits w') = A := by
  have hex : ∀ i : Fin 25, ∃ v, s[i.val]? = some (some v) := fun i => by
    obtain ⟨v, hv, _⟩ := hs.2 ⟨i.val % 5, by omega⟩ ⟨i.val / 5, by omega⟩
    exact ⟨v, by rw [← hv]; dsimp only; congr 1; omega⟩
  choose w' hw' using hex
  refine ⟨w', ?_, ?_⟩
  · apply Array.ext_getElem?
    intro i
    by_cases hi : i < 25
    · rw [hw' ⟨i, hi⟩]; simp [wordMem, hi]
    · rw [Array.getElem?_eq_none (by rw [hs.1]; omega), Array.getElem?_eq_none (by simp [wordMem]; omega)]
  · funext x y z
    rw [wordBits_get]
    obtain ⟨v, hv, hb⟩ := hs.2 x y
    have := hw' ⟨5 * y.val + x.val, by omega⟩
    dsimp only at this
    rw [hv] at this
    rw [← hb z]
    have e : v = w' ⟨5 * y.val + x.val, by omega⟩ := by simpa using this
    rw [e]; rfl

theorem wordBits_eq {w : Fin 25 → UInt64} {A : KState} (h : toKState (wordBits w) = A) : wordBits w = ofKState A :=
  toKState_inj (wordBits_length _) (ofKState_length _) (by rw [h, toKState_ofKState])

/-- The code's permutation is Keccak-p[1600, 24] on every 1600-bit state, and is defined on every state. -/
theorem C23_permutation (w : Fin 25 → UInt64) :
    Runs (KeccakF1600_StatePermute (wordMem w)) (fun s => ∃ w', s = wordMem w' ∧ wordBits w' = keccakP (wordBits w)) := by
  have h := stR_wordMem w
  unfold keccakP
  generalize wordMem w = s at h ⊢
  generalize toKState (wordBits w) = A at h ⊢
  have hp := StatePermute_runs h
  generalize keccakRounds A = A' at hp ⊢
  refine hp.mono fun s hs => ?_
  obtain ⟨w', h1, h2⟩ := stR_words hs
  exact ⟨w', h1, wordBits_eq h2⟩

/-- The table of round constants is the one generated by the shift register of FIPS 202, algorithm 5. -/
theorem C23_round_constants (ir : Fin 24) :
    ∃ c : UInt64, KeccakF_RoundConstants[ir.val]? = some (some c) ∧ ∀ z : Fin 64, c.toNat.testBit z.val = RC ir.val z := rc_table ir

/-- Known answer (Keccak-f[1600] of the zero state), computed by the code. -/
example : Runs (KeccakF1600_StatePermute (Mem.ofList (List.replicate 25 0)))
    (fun s => s[0]? = some (some 0xF1258F7940E1DDE7) ∧ s[24]? = some (some 0xEAF1FF7B5CECA249)) := by decide +kernel

/-! ## C24: absorbing in pieces -/

/-- Successive calls of an absorb function on the pieces of a message. -/
def absorbAll (absorb : KeccakState → Mem UInt8 → Nat → Nat → C KeccakState) (st : KeccakState) : List (List UInt8) → C KeccakState
  | [] => pure st
  | M :: Ms => do
    let st ← absorb st (Mem.ofList M) 0 M.length
    absorbAll absorb st Ms

theorem absorbAll_runs {absorb : KeccakState → Mem UInt8 → Nat → Nat → C KeccakState} {r : Nat}
    (habs : ∀ (st : KeccakState) (M N : List UInt8), AbsR r M st → N.length < 2 ^ 63 → Runs (absorb st (Mem.ofList N) 0 N.length) (AbsR r (M ++ N))) :
    ∀ (Ms : List (List UInt8)) (st : KeccakState) (M : List UInt8), AbsR r M st → (∀ N ∈ Ms, N.length < 2 ^ 63) →
      Runs (absorbAll absorb st Ms) (AbsR r (M ++ Ms.flatten))
  | [], st, M, h, _ => by simpa [absorbAll] using h
  | N :: Ms, st, M, h, hl => by
    unfold absorbAll
    rw [runs_bind]
    refine (habs st M N h (hl N (by simp))).mono fun st' h' => ?_
    have := absorbAll_runs habs Ms st' (M ++ N) h' (fun N' hN' => hl N' (by simp [hN']))
    rwa [List.append_assoc] at this

theorem absorb128 (st : KeccakState) (M N : List UInt8) (h : AbsR 168 M st) (hN : N.length < 2 ^ 63) :
    Runs (shake128_absorb st (Mem.ofList N) 0 N.length) (AbsR 168 (M ++ N)) :=
  shake128_absorb_runs h (Mem.holds_ofList N) rfl (by omega)

theorem absorb256 (st : KeccakState) (M N : List UInt8) (h : AbsR 136 M st) (hN : N.length < 2 ^ 63) :
    Runs (shake256_absorb st (Mem.ofList N) 0 N.length) (AbsR 136 (M ++ N)) :=
  shake256_absorb_runs h (Mem.holds_ofList N) rfl (by omega)

/-- SHAKE128: absorbing pieces (each shorter than 2^63 bytes, possibly empty) gives exactly the state of absorbing their concatenation at once. -/
theorem C24_shake128 (st0 : KeccakState) (h0 : st0.s.size = 25) (Ms : List (List UInt8)) (hl : ∀ N ∈ Ms, N.length < 2 ^ 63)
    (ht : Ms.flatten.length < 2 ^ 63) : ∃ st,
    Runs (do let s ← shake128_init st0; absorbAll shake128_absorb s Ms) (· = st) ∧
    Runs (do let s ← shake128_init st0; shake128_absorb s (Mem.ofList Ms.flatten) 0 Ms.flatten.length) (· = st) := by
  have a : Runs (do let s ← shake128_init st0; absorbAll shake128_absorb s Ms) (AbsR 168 Ms.flatten) := by
    rw [runs_bind]
    exact (shake128_init_runs h0).mono fun s hs => absorbAll_runs absorb128 Ms s [] hs hl
  have b : Runs (do let s ← shake128_init st0; shake128_absorb s (Mem.ofList Ms.flatten) 0 Ms.flatten.length) (AbsR 168 Ms.flatten) := by
    rw [runs_bind]
    exact (shake128_init_runs h0).mono fun s hs => absorb128 s [] Ms.flatten hs ht
  obtain ⟨st, _, _, hst⟩ := a.exists_ok
  exact ⟨st, a.mono fun s hs => hs.unique hst, b.mono fun s hs => hs.unique hst⟩

/-- The same for SHAKE256. -/
theorem C24_shake256 (st0 : KeccakState) (h0 : st0.s.size = 25) (Ms : List (List UInt8)) (hl : ∀ N ∈ Ms, N.length < 2 ^ 63)
    (ht : Ms.flatten.length < 2 ^ 63) : ∃ st,
    Runs (do let s ← shake256_init st0; absorbAll shake256_absorb s Ms) (· = st) ∧
    Runs (do let s ← shake256_init st0; shake256_absorb s (Mem.ofList Ms.flatten) 0 Ms.flatten.length) (· = st) := by
  have a : Runs (do let s ← shake256_init st0; absorbAll shake256_absorb s Ms) (AbsR 136 Ms.flatten) := by
    rw [runs_bind]
    exact (shake256_init_runs h0).mono fun s hs => absorbAll_runs absorb256 Ms s [] hs hl
  have b : Runs (do let s ← shake256_init st0; shake256_absorb s (Mem.ofList Ms.flatten) 0 Ms.flatten.length) (AbsR 136 Ms.flatten) := by
    rw [runs_bind]
    exact (shake256_init_runs h0).mono fun s hs => absorb256 s [] Ms.flatten hs ht
  obtain ⟨st, _, _, hst⟩ := a.exists_ok
  exact ⟨st, a.mono fun s hs => hs.unique hst, b.mono fun s hs => hs.unique hst⟩

theorem final_unique {B : List UInt8} {q : Nat} {st st' : KeccakState} (h : RB st.s B ∧ st.pos = some q) (h' : RB st'.s B ∧ st'.pos = some q) : st = st' := by
  obtain ⟨s, p⟩ := st
  obtain ⟨s', p'⟩ := st'
  obtain ⟨h1, h2⟩ := h
  obtain ⟨h1', h2'⟩ := h'
  dsimp only at *
  rw [h2, h2', h1.unique h1']

/-- SHAKE128: init, absorbing pieces and finalising gives exactly the state of `absorb_once` on the concatenation. -/
theorem C24_shake128_once (st0 st1 : KeccakState) (h0 : st0.s.size = 25) (h1 : st1.s.size = 25) (Ms : List (List UInt8))
    (hl : ∀ N ∈ Ms, N.length < 2 ^ 63) : ∃ st,
    Runs (do let s ← shake128_init st0; let s ← absorbAll shake128_absorb s Ms; shake128_finalize s) (· = st) ∧
    Runs (shake128_absorb_once st1 (Mem.ofList Ms.flatten) 0 Ms.flatten.length) (· = st) := by
  have a : Runs (do let s ← shake128_init st0; let s ← absorbAll shake128_absorb s Ms; shake128_finalize s)
      (fun st => RB st.s (padded 168 0x1F Ms.flatten) ∧ st.pos = some 168) := by
    rw [runs_bind]
    refine (shake128_init_runs h0).mono fun s hs => ?_
    rw [runs_bind]
    exact (absorbAll_runs absorb128 Ms s [] hs hl).mono fun s hs => shake128_finalize_runs hs
  obtain ⟨st, _, _, hst⟩ := a.exists_ok
  exact ⟨st, a.mono fun s hs => final_unique hs hst,
    (shake128_absorb_once_runs h1 (Mem.holds_ofList _) rfl).mono fun s hs => final_unique hs hst⟩

/-- The same for SHAKE256. -/
theorem C24_shake256_once (st0 st1 : KeccakState) (h0 : st0.s.size = 25) (h1 : st1.s.size = 25) (Ms : List (List UInt8))
    (hl : ∀ N ∈ Ms, N.length < 2 ^ 63) : ∃ st,
    Runs (do let s ← shake256_init st0; let s ← absorbAll shake256_absorb s Ms; shake256_finalize s) (· = st) ∧
    Runs (shake256_absorb_once st1 (Mem.ofList Ms.flatten) 0 Ms.flatten.length) (· = st) := by
  have a : Runs (do let s ← shake256_init st0; let s ← absorbAll shake256_absorb s Ms; shake256_finalize s)
      (fun st => RB st.s (padded 136 0x1F Ms.flatten) ∧ st.pos = some 136) := by
    rw [runs_bind]
    refine (shake256_init_runs h0).mono fun s hs => ?_
    rw [runs_bind]
    exact (absorbAll_runs absorb256 Ms s [] hs hl).mono fun s hs => shake256_finalize_runs hs
  obtain ⟨st, _, _, hst⟩ := a.exists_ok
  exact ⟨st, a.mono fun s hs => final_unique hs hst,
    (shake256_absorb_once_runs h1 (Mem.holds_ofList _) rfl).mono fun s hs => final_unique hs hst⟩

/-- Three pieces, one of them empty. -/
example : ∃ st, Runs (do let s ← shake128_init KeccakState.uninit; absorbAll shake128_absorb s [[1, 2], [], [3]]) (· = st) ∧
    Runs (do let s ← shake128_init KeccakState.uninit; shake128_absorb s (Mem.ofList [1, 2, 3]) 0 3) (· = st) :=
  C24_shake128 KeccakState.uninit (by simp [KeccakState.uninit]) [[1, 2], [], [3]] (by decide) (by decide)

/-! ## C25: squeezing in pieces -/

/-- A squeeze request: some bytes or some whole blocks. -/
inductive SqueezeCall where
  | bytes (n : Nat)
  | blocks (n : Nat)

/-- The number of bytes requested at rate `r`. -/
def SqueezeCall.len (r : Nat) : SqueezeCall → Nat
  | .bytes n => n
  | .blocks n => n * r

/-- Successive squeeze calls, each into a fresh buffer of exactly the requested size. -/
def squeezeAll (squeeze blocks : Mem UInt8 → Nat → Nat → KeccakState → C (Mem UInt8 × KeccakState)) (r : Nat) (st : KeccakState) :
    List SqueezeCall → C (List (Mem UInt8))
  | [] => pure []
  | c :: cs => do
    let v ← match c with
      | .bytes n => squeeze (Mem.uninit UInt8 n) 0 n st
      | .blocks n => blocks (Mem.uninit UInt8 (n * r)) 0 n st
    let os ← squeezeAll squeeze blocks r v.2 cs
    pure (v.1 :: os)

/-- Byte requests below 2^63, block requests only when a whole number of blocks has been squeezed so far (`n` bytes), as the comment of
`keccak_squeezeblocks` demands. -/
def validCalls (r : Nat) : Nat → List SqueezeCall → Prop
  | _, [] => True
  | n, .bytes k :: cs => k < 2 ^ 63 ∧ validCalls r (n + k) cs
  | n, .blocks k :: cs => n % r = 0 ∧ validCalls r (n + k * r) cs

def totalLen (r : Nat) (cs : List SqueezeCall) : Nat := (cs.map (SqueezeCall.len r)).sum

theorem wrote_full {n : Nat} {o : Mem UInt8} {l : List UInt8} (h : (Mem.uninit UInt8 n).Wrote o 0 l) (hl : l.length = n) : o.toList = l.map some := by
  apply List.ext_getElem?
  intro i
  rw [Array.getElem?_toList]
  by_cases hi : i < l.length
  · have := h.holds i hi
    rw [Nat.zero_add] at this
    rw [this]; simp [hi]
  · rw [Array.getElem?_eq_none (by rw [h.size]; simp; omega)]
    simp; omega

theorem squeezeAll_runs {squeeze blocks : Mem UInt8 → Nat → Nat → KeccakState → C (Mem UInt8 × KeccakState)} {r : Nat} {B0 : List UInt8}
    (hs : ∀ st n (out : Mem UInt8) k, SqS r B0 n st → 0 + k ≤ out.size → k < 2 ^ 63 →
      Runs (squeeze out 0 k st) (fun v => out.Wrote v.1 0 (kout r B0 n k) ∧ SqS r B0 (n + k) v.2))
    (hb : ∀ st n (out : Mem UInt8) k, SqS r B0 n st → n % r = 0 → 0 + k * r ≤ out.size →
      Runs (blocks out 0 k st) (fun v => out.Wrote v.1 0 (kout r B0 n (k * r)) ∧ SqS r B0 (n + k * r) v.2)) :
    ∀ (cs : List SqueezeCall) (st : KeccakState) (n : Nat), SqS r B0 n st → validCalls r n cs →
      Runs (squeezeAll squeeze blocks r st cs) (fun os => (os.map Array.toList).flatten = (kout r B0 n (totalLen r cs)).map some)
  | [], st, n, _, _ => rfl
  | .bytes k :: cs, st, n, h, hv => by
    unfold squeezeAll
    rw [runs_bind]
    refine (hs st n (Mem.uninit UInt8 k) k h (by simp) hv.1).mono fun v hvv => ?_
    rw [runs_bind]
    refine (squeezeAll_runs hs hb cs v.2 (n + k) hvv.2 hv.2).mono fun os hos => ?_
    rw [runs_pure, List.map_cons, List.flatten_cons, hos, wrote_full hvv.1 (kout_length ..), ← List.map_append, ← kout_add]
    rfl
  | .blocks k :: cs, st, n, h, hv => by
    unfold squeezeAll
    rw [runs_bind]
    refine (hb st n (Mem.uninit UInt8 (k * r)) k h hv.1 (by simp)).mono fun v hvv => ?_
    rw [runs_bind]
    refine (squeezeAll_runs hs hb cs v.2 (n + k * r) hvv.2 hv.2).mono fun os hos => ?_
    rw [runs_pure, List.map_cons, List.flatten_cons, hos, wrote_full hvv.1 (kout_length ..), ← List.map_append, ← kout_add]
    rfl

/-- SHAKE128: the outputs of any sequence of squeeze calls, concatenated, are the SHAKE128 output of that total length. -/
theorem C25_shake128 (M : List UInt8) (st0 : KeccakState) (h0 : st0.s.size = 25) (cs : List SqueezeCall) (hv : validCalls 168 0 cs) :
    Runs (do let st ← shake128_absorb_once st0 (Mem.ofList M) 0 M.length; squeezeAll shake128_squeeze shake128_squeezeblocks 168 st cs)
      (fun os => (os.map Array.toList).flatten = (SHAKE128 M (totalLen 168 cs)).map some) := by
  rw [runs_bind]
  refine (shake128_absorb_once_runs h0 (Mem.holds_ofList M) rfl).mono fun st hst => ?_
  rw [SHAKE128_eq]
  exact squeezeAll_runs (fun st n out k h ho hk => shake128_squeeze_runs h ho (by omega))
    (fun st n out k h hn ho => shake128_squeezeblocks_runs h hn ho) cs st 0 (SqS.start hst (by omega)) hv

/-- The same for SHAKE256. -/
theorem C25_shake256 (M : List UInt8) (st0 : KeccakState) (h0 : st0.s.size = 25) (cs : List SqueezeCall) (hv : validCalls 136 0 cs) :
    Runs (do let st ← shake256_absorb_once st0 (Mem.ofList M) 0 M.length; squeezeAll shake256_squeeze shake256_squeezeblocks 136 st cs)
      (fun os => (os.map Array.toList).flatten = (SHAKE256 M (totalLen 136 cs)).map some) := by
  rw [runs_bind]
  refine (shake256_absorb_once_runs h0 (Mem.holds_ofList M) rfl).mono fun st hst => ?_
  rw [SHAKE256_eq]
  exact squeezeAll_runs (fun st n out k h ho hk => shake256_squeeze_runs h ho (by omega))
    (fun st n out k h hn ho => shake256_squeezeblocks_runs h hn ho) cs st 0 (SqS.start hst (by omega)) hv

/-- The outputs for different lengths are prefixes of one infinite stream. -/
theorem C25_prefix (M : List UInt8) (n k : Nat) :
    (SHAKE128 M (n + k)).take n = SHAKE128 M n ∧ (SHAKE256 M (n + k)).take n = SHAKE256 M n := by
  simp only [SHAKE128_eq, SHAKE256_eq, kout_add]
  constructor <;> exact List.take_left' (kout_length ..)

/-- A request of 3 bytes, then none, then the rest of the block, then two blocks. -/
example (st0 : KeccakState) (h0 : st0.s.size = 25) (M : List UInt8) :
    Runs (do let st ← shake128_absorb_once st0 (Mem.ofList M) 0 M.length
             squeezeAll shake128_squeeze shake128_squeezeblocks 168 st [.bytes 3, .bytes 0, .bytes 165, .blocks 2])
      (fun os => (os.map Array.toList).flatten = (SHAKE128 M (totalLen 168 [.bytes 3, .bytes 0, .bytes 165, .blocks 2])).map some) :=
  C25_shake128 M st0 h0 _ ⟨by decide, by decide, by decide, by decide, trivial⟩

example : totalLen 168 [.bytes 3, .bytes 0, .bytes 165, .blocks 2] = 504 := by decide

theorem shake128_byte {n i : Nat} {b : UInt8} {M : List UInt8} (hi : i < n)
    (h : Runs (shake128 (Mem.uninit UInt8 n) 0 n (Mem.ofList M) 0 M.length) (fun o => o[i]? = some (some b))) : (SHAKE128 M n)[i]? = some b := by
  have a := shake128_runs (out := Mem.uninit UInt8 n) (oo := 0) (outlen := n) (Mem.holds_ofList M) rfl (by simp)
  obtain ⟨o, _, ho, hw, hb⟩ := (a.and h).exists_ok
  have := hw.holds i (by rw [SHAKE128_length]; exact hi)
  rw [Nat.zero_add, hb] at this
  rw [List.getElem?_eq_getElem (by rw [SHAKE128_length]; exact hi)]
  simpa using this.symm

/-- The side condition is needed: after squeezing one byte, `shake128_squeezeblocks` skips the rest of the current block, so the byte it delivers first
is not the next one of the stream. -/
theorem C25_blocks_skip : ∃ b : UInt8, ∃ b' : UInt8, b ≠ b' ∧ (SHAKE128 [] 2)[1]? = some b ∧
    Runs (do let st ← shake128_absorb_once KeccakState.uninit (Mem.ofList []) 0 0
             let v ← shake128_squeeze (Mem.uninit UInt8 1) 0 1 st
             let v ← shake128_squeezeblocks (Mem.uninit UInt8 168) 0 1 v.2
             pure v.1) (fun o => o[0]? = some (some b')) := by
  refine ⟨0x9C, 0x76, by decide, ?_, by decide +kernel⟩
  have a := shake128_byte (n := 2) (i := 1) (b := 0x9C) (M := []) (by decide)
  exact a (by decide +kernel)

/-! ## C26: the one-shot functions -/

/-- `shake128` writes exactly SHAKE128(M, 8 outlen) and nothing else, for every message and output length. -/
theorem C26_shake128 (out : Mem UInt8) (oo outlen : Nat) (inp : Mem UInt8) (io : Nat) (M : List UInt8) (hM : inp.Holds io M)
    (ho : oo + outlen ≤ out.size) : Runs (shake128 out oo outlen inp io M.length) (fun o => out.Wrote o oo (SHAKE128 M outlen)) :=
  shake128_runs hM rfl ho

theorem C26_shake256 (out : Mem UInt8) (oo outlen : Nat) (inp : Mem UInt8) (io : Nat) (M : List UInt8) (hM : inp.Holds io M)
    (ho : oo + outlen ≤ out.size) : Runs (shake256 out oo outlen inp io M.length) (fun o => out.Wrote o oo (SHAKE256 M outlen)) :=
  shake256_runs hM rfl ho

theorem C26_sha3_256 (h : Mem UInt8) (ho : Nat) (inp : Mem UInt8) (io : Nat) (M : List UInt8) (hM : inp.Holds io M)
    (hs : ho + 32 ≤ h.size) : Runs (sha3_256 h ho inp io M.length) (fun o => h.Wrote o ho (SHA3_256 M)) := sha3_256_runs hM rfl hs

theorem C26_sha3_512 (h : Mem UInt8) (ho : Nat) (inp : Mem UInt8) (io : Nat) (M : List UInt8) (hM : inp.Holds io M)
    (hs : ho + 64 ≤ h.size) : Runs (sha3_512 h ho inp io M.length) (fun o => h.Wrote o ho (SHA3_512 M)) := sha3_512_runs hM rfl hs

/-- The specified functions return strings of the right length. -/
theorem C26_lengths (M : List UInt8) (n : Nat) : (SHAKE128 M n).length = n ∧ (SHAKE256 M n).length = n ∧ (SHA3_256 M).length = 32 ∧
    (SHA3_512 M).length = 64 := ⟨SHAKE128_length M n, SHAKE256_length M n, SHA3_256_length M, SHA3_512_length M⟩

theorem sha3_256_value {M L : List UInt8} (h : L.length = 32 ∧ Runs (sha3_256 (Mem.uninit UInt8 32) 0 (Mem.ofList M) 0 M.length) (· = Mem.ofList L)) :
    SHA3_256 M = L := by
  have a := C26_sha3_256 (Mem.uninit UInt8 32) 0 (Mem.ofList M) 0 M (Mem.holds_ofList M) (by simp)
  obtain ⟨o, _, ho, hw, rfl⟩ := (a.and h.2).exists_ok
  exact hw.holds.unique (Mem.holds_ofList _) (by rw [SHA3_256_length]; exact h.1.symm)

/-- The published value SHA3-256("") = a7ffc6f8bf1ed766 51c14756a061d662 f580ff4de43b49fa 82d80a4b80f8434a holds of the specification (evaluated through the code). -/
example : SHA3_256 [] = [0xa7, 0xff, 0xc6, 0xf8, 0xbf, 0x1e, 0xd7, 0x66, 0x51, 0xc1, 0x47, 0x56, 0xa0, 0x61, 0xd6, 0x62,
    0xf5, 0x80, 0xff, 0x4d, 0xe4, 0x3b, 0x49, 0xfa, 0x82, 0xd8, 0x0a, 0x4b, 0x80, 0xf8, 0x43, 0x4a] := by
  exact sha3_256_value (by decide +kernel)

end Verif.Props
