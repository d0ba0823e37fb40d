import Verif.Proof.Drbg
import Verif.Proof.Aes

/-! # Properties of the NIST generator of the KAT programs (C61) and of its seed expander (C62)

`aes` is any function that gives blocks of 16 bytes; the cases use AES-256. -/

set_option autoImplicit false

namespace Verif.Props
open Verif.Model Verif.Spec Verif.Proof

/-! ## C61 -/

/-- C61. `randombytes_init` sets up the state that SP 800-90A defines, for every entropy input and every personalization string (48 bytes each, a null pointer counts as zeros),
whatever the state held before. -/
theorem C61_init (aes : Cipher) (hA : IsCipher aes) (g : DRBG) (hK : g.Key.size = 32) (hV : g.V.size = 16) (entropy : Mem UInt8) (e : List UInt8) (he : entropy.Holds 0 e)
    (hel : e.length = 48) (pers : Option (Mem UInt8)) (s : List UInt8) (hsl : s.length = 48) (hs : match pers with | none => s = List.replicate 48 0 | some d => d.Holds 0 s) :
    Runs (randombytes_init aes g entropy pers) (fun g' => g'.Key = Mem.ofList (CTR_DRBG_Instantiate aes e s).Key ∧ g'.V = Mem.ofList (CTR_DRBG_Instantiate aes e s).V ∧ g'.reseed_counter = 1) :=
  (drbg_init_runs hA hK hV he hel hsl hs).mono fun _ h => by rw [h]; exact ⟨rfl, rfl, rfl⟩

/-- C61. `randombytes` returns 0, writes the output of CTR_DRBG_Generate and nothing else, and leaves the state that SP 800-90A defines. -/
theorem C61_randombytes (aes : Cipher) (hA : IsCipher aes) (K V : List UInt8) (hK : K.length = 32) (hV : V.length = 16) (n : Nat) (hn : n < 2 ^ 31 - 1) (x : Mem UInt8) (xo xlen : Nat)
    (hx : xo + xlen ≤ x.size) (hlen : xlen < 2 ^ 31) :
    Runs (drbg_randombytes aes ⟨Mem.ofList K, Mem.ofList V, n⟩ x xo xlen) (fun r => r.2.1 = 0 ∧ x.Wrote r.1 xo (CTR_DRBG_Generate aes xlen ⟨K, V, n⟩).1 ∧
      r.2.2 = ⟨Mem.ofList (CTR_DRBG_Generate aes xlen ⟨K, V, n⟩).2.Key, Mem.ofList (CTR_DRBG_Generate aes xlen ⟨K, V, n⟩).2.V, ((n + 1 : Nat) : Int)⟩) :=
  (generate_runs hA (s := ⟨K, V, n⟩) hK hV (by simpa using hn) hx (by simpa using hlen)).mono fun _ h => ⟨h.2.1, h.1, h.2.2⟩

/-- C61 (finding). A request of 2^31 bytes or more overflows the `int i` of the loop. -/
theorem C61_long_request (aes : Cipher) (hA : IsCipher aes) (K V : List UInt8) (hK : K.length = 32) (hV : V.length = 16) (n : Nat) (x : Mem UInt8) (xo xlen : Nat)
    (hx : xo + xlen ≤ x.size) (hlen : 2 ^ 31 ≤ xlen) : drbg_randombytes aes ⟨Mem.ofList K, Mem.ofList V, n⟩ x xo xlen = .ub .overflow :=
  generate_ub hA (s := ⟨K, V, n⟩) hK hV hx (by simpa using hlen)

/-- C61 (finding). There is no test of the reseed interval: when the counter is 2^31 - 1, every request overflows it. -/
theorem C61_counter (aes : Cipher) (hA : IsCipher aes) (K V : List UInt8) (hK : K.length = 32) (hV : V.length = 16) (x : Mem UInt8) (xo xlen : Nat)
    (hx : xo + xlen ≤ x.size) (hlen : xlen < 2 ^ 31) : drbg_randombytes aes ⟨Mem.ofList K, Mem.ofList V, 2 ^ 31 - 1⟩ x xo xlen = .ub .overflow :=
  generate_counter_ub hA (s := ⟨K, V, 2147483647⟩) hK hV rfl hx (by simpa using hlen)

/-- Requests one after the other, by the code and by SP 800-90A. -/
def drbgCalls (aes : Cipher) : DRBG → List Nat → C (List (Mem UInt8))
  | _, [] => pure []
  | g, n :: ns => do
    let (x, _, g) ← drbg_randombytes aes g (Mem.uninit UInt8 n) 0 n
    let xs ← drbgCalls aes g ns
    pure (x :: xs)

def specCalls (aes : Cipher) : DrbgState → List Nat → List (List UInt8)
  | _, [] => []
  | s, n :: ns => (CTR_DRBG_Generate aes n s).1 :: specCalls aes (CTR_DRBG_Generate aes n s).2 ns

theorem drbgCalls_runs (aes : Cipher) (hA : IsCipher aes) : ∀ (ns : List Nat) (s : DrbgState), s.Key.length = 32 → s.V.length = 16 → s.reseed_counter + ns.length < 2147483648 →
    (∀ n ∈ ns, n < 2147483648) → Runs (drbgCalls aes (drbgMem s) ns) (fun xs => xs = (specCalls aes s ns).map Mem.ofList)
  | [], s, _, _, _, _ => rfl
  | n :: ns, s, hK, hV, hc, hn => by
    unfold drbgCalls
    rw [runs_bind]
    rw [List.length_cons] at hc
    refine (generate_runs hA hK hV (by omega) (by rw [Mem.size_uninit]; omega) (hn n (by simp))).mono fun r hr => ?_
    obtain ⟨x, z, g⟩ := r
    obtain ⟨h1, -, rfl⟩ := hr
    dsimp only at h1 ⊢
    rw [runs_bind]
    have hl := Update_lengths hA (K := s.Key) (v := ctrAdd s.V ((n + 15) / 16)) hK (by rw [ctrAdd_length, hV]) (data := List.replicate 48 0) (by simp)
    refine (drbgCalls_runs aes hA ns (CTR_DRBG_Generate aes n s).2 hl.1 hl.2 ?_ fun m hm => hn m (by simp [hm])).mono fun xs hxs => ?_
    · show s.reseed_counter + 1 + ns.length < _
      omega
    · rw [runs_pure, hxs]
      rw [specCalls, List.map_cons, h1.holds.ext (by rw [h1.size, Mem.size_uninit]; simp [CTR_DRBG_Generate, ctrBlocks_length hA hK hV]; omega)]

/-- C61. Initialisation followed by any requests (fewer than 2^31 - 1 of them, each below 2^31 bytes): the outputs are those of SP 800-90A. -/
theorem C61_calls (aes : Cipher) (hA : IsCipher aes) (g : DRBG) (hK : g.Key.size = 32) (hV : g.V.size = 16) (entropy : Mem UInt8) (e : List UInt8) (he : entropy.Holds 0 e)
    (hel : e.length = 48) (ns : List Nat) (hc : ns.length < 2 ^ 31 - 1) (hn : ∀ n ∈ ns, n < 2 ^ 31) :
    Runs (do let g ← randombytes_init aes g entropy none; drbgCalls aes g ns)
      (fun xs => xs = (specCalls aes (CTR_DRBG_Instantiate aes e (List.replicate 48 0)) ns).map Mem.ofList) := by
  rw [runs_bind]
  refine (drbg_init_runs hA hK hV he hel (s := List.replicate 48 0) (by simp) rfl).mono fun g' hg => ?_
  rw [hg]
  have hl := Update_lengths hA (K := List.replicate 32 0) (v := List.replicate 16 0) (by simp) (by simp) (data := xorStr e (List.replicate 48 0)) (by simp [xorStr, hel])
  exact drbgCalls_runs aes hA ns _ hl.1 hl.2 (by show 1 + ns.length < _; simp at hc; omega) (by simpa using hn)

/-- Cases: AES-256 satisfies the hypothesis; its value on the example of FIPS 197, C.3. -/
example : IsCipher AES256 := aes256_isCipher
example : AES256 ((List.range 32).map UInt8.ofNat) ((List.range 16).map fun i => UInt8.ofNat (17 * i)) =
    [0x8e, 0xa2, 0xb7, 0xca, 0x51, 0x67, 0x45, 0xbf, 0xea, 0xfc, 0x49, 0x90, 0x4b, 0x49, 0x60, 0x89] := by
  rw [← aesF_eq]
  decide +kernel

/-- Case: the first seed of the NIST KAT files, from the entropy 0, 1, ..., 47 that PQCgenKAT_kem.c uses. -/
example : specCalls AES256 (CTR_DRBG_Instantiate AES256 ((List.range 48).map UInt8.ofNat) (List.replicate 48 0)) [48] =
    [[0x06, 0x15, 0x50, 0x23, 0x4D, 0x15, 0x8C, 0x5E, 0xC9, 0x55, 0x95, 0xFE, 0x04, 0xEF, 0x7A, 0x25, 0x76, 0x7F, 0x2E, 0x24, 0xCC, 0x2B, 0xC4, 0x79,
      0xD0, 0x9D, 0x86, 0xDC, 0x9A, 0xBC, 0xFD, 0xE7, 0x05, 0x6A, 0x8C, 0x26, 0x6F, 0x9E, 0xF9, 0x7E, 0xD0, 0x85, 0x41, 0xDB, 0xD2, 0xE1, 0xFF, 0xA1]] := by
  rw [show AES256 = aesF from funext fun k => funext fun c => (aesF_eq k c).symm]
  decide +kernel

/-! ## C62 -/

/-- Byte `n`, ..., `n + len - 1` of the expander. -/
def expanderBytes (aes : Cipher) (seed div : List UInt8) (maxlen n len : Nat) : List UInt8 := (List.range len).map fun i => expanderByte aes seed div maxlen (n + i)

/-- Calls one after the other with buffers of the lengths `ns`: return values and buffers. -/
def expanderCalls (aes : Cipher) : AES_XOF → List Nat → C (List (Int × Option (Mem UInt8)))
  | _, [] => pure []
  | c, n :: ns => do
    let (r, c, x) ← seedexpander aes c (some (Mem.uninit UInt8 n)) 0 n
    let xs ← expanderCalls aes c ns
    pure ((r, x) :: xs)

/-- What they should give when `n` bytes were given before: a request is refused when it reaches the maximal length. -/
def expanderSpec (aes : Cipher) (seed div : List UInt8) (maxlen : Nat) : Nat → List Nat → List (Int × Option (Mem UInt8))
  | _, [] => []
  | n, len :: ns =>
    if n + len < maxlen then (0, some (Mem.ofList (expanderBytes aes seed div maxlen n len))) :: expanderSpec aes seed div maxlen (n + len) ns
    else (-3, some (Mem.uninit UInt8 len)) :: expanderSpec aes seed div maxlen n ns

theorem seedexpander_refuses {aes : Cipher} {c : AES_XOF} {x : Mem UInt8} {xo len : Nat} (h : c.length_remaining ≤ len) :
    Runs (seedexpander aes c (some x) xo len) (fun r => r = (-3, c, some x)) := by
  unfold seedexpander
  rw [runs_bind, runs_leak]
  dsimp only
  rw [runs_cif]
  exact ⟨fun _ => rfl, fun h' => by simp at h'; omega⟩

theorem expanderCalls_runs {aes : Cipher} (hA : IsCipher aes) {seed div : List UInt8} (hs : seed.length = 32) (hd : div.length = 8) {maxlen : Nat} (hm : maxlen < 4294967296) :
    ∀ (ns : List Nat) (n : Nat) (c : AES_XOF), ExpState aes seed div maxlen n c → n ≤ maxlen → Runs (expanderCalls aes c ns) (fun xs => xs = expanderSpec aes seed div maxlen n ns)
  | [], _, _, _, _ => rfl
  | len :: ns, n, c, hE, hn => by
    unfold expanderCalls
    rw [runs_bind, expanderSpec]
    by_cases h : n + len < maxlen
    · rw [if_pos h]
      refine (seedexpander_runs hA hs hd hm hE (x := Mem.uninit UInt8 len) (xo := 0) (by rw [Mem.size_uninit]; omega) h).mono ?_
      rintro ⟨r, c', x⟩ ⟨h1, h2, x', h3, h4⟩
      dsimp only at h1 h2 h3 ⊢
      rw [runs_bind]
      refine (expanderCalls_runs hA hs hd hm ns (n + len) c' h2 (by omega)).mono fun xs hxs => ?_
      rw [runs_pure, hxs, h1, h3, h4.holds.ext (by rw [h4.size, Mem.size_uninit, streamBytes_length])]
      rfl
    · rw [if_neg h]
      refine (seedexpander_refuses (by rw [hE.rest]; omega)).mono ?_
      rintro ⟨r, c', x⟩ h1
      obtain ⟨rfl, rfl, rfl⟩ : r = -3 ∧ c' = c ∧ x = some (Mem.uninit UInt8 len) := by simpa using h1
      dsimp only
      rw [runs_bind]
      refine (expanderCalls_runs hA hs hd hm ns n c' hE hn).mono fun xs hxs => ?_
      rw [runs_pure, hxs]

/-- C62. Initialisation with any seed, diversifier and maximal length below 2^32, then any requests: each request that stays below the maximal length returns 0 and the next bytes of AES
in counter mode, however the requests are cut into blocks; every other request returns -3 and changes nothing. -/
theorem C62_calls (aes : Cipher) (hA : IsCipher aes) (c : AES_XOF) (hk : c.key.size = 32) (hc : c.ctr.size = 16) (hb : c.buffer.size = 16) (seed div : Mem UInt8) (s d : List UInt8)
    (hs : seed.Holds 0 s) (hsl : s.length = 32) (hd : div.Holds 0 d) (hdl : d.length = 8) (maxlen : Nat) (hm : maxlen < 2 ^ 32) (ns : List Nat) :
    Runs (do let (r, c) ← seedexpander_init c seed div maxlen; let xs ← expanderCalls aes c ns; pure (r, xs))
      (fun r => r = (0, expanderSpec aes s d maxlen 0 ns)) := by
  rw [runs_bind]
  refine (seinit_runs (aes := aes) hk hc hb hs hsl hd hdl (by simpa using hm)).mono ?_
  rintro ⟨r, c'⟩ ⟨h1, h2⟩
  dsimp only at h1 h2 ⊢
  rw [runs_bind]
  refine (expanderCalls_runs hA hsl hdl (by simpa using hm) ns 0 c' h2 (by omega)).mono fun xs hxs => ?_
  rw [runs_pure, hxs, h1]

/-- C62. A call writes to no other place of the buffer it is given. (Buffers at any place in larger arrays.) -/
theorem C62_frame (aes : Cipher) (hA : IsCipher aes) (c : AES_XOF) (hk : c.key.size = 32) (hc : c.ctr.size = 16) (hb : c.buffer.size = 16) (seed div : Mem UInt8) (s d : List UInt8)
    (hs : seed.Holds 0 s) (hsl : s.length = 32) (hd : div.Holds 0 d) (hdl : d.length = 8) (maxlen : Nat) (hm : maxlen < 2 ^ 32) (x : Mem UInt8) (xo len : Nat) (hx : xo + len ≤ x.size) (hl : len < maxlen) :
    Runs (do let (_, c) ← seedexpander_init c seed div maxlen; seedexpander aes c (some x) xo len)
      (fun r => ∃ x', r.2.2 = some x' ∧ x.Wrote x' xo (expanderBytes aes s d maxlen 0 len)) := by
  rw [runs_bind]
  refine (seinit_runs (aes := aes) hk hc hb hs hsl hd hdl (by simpa using hm)).mono ?_
  rintro ⟨r, c'⟩ ⟨h1, h2⟩
  refine (seedexpander_runs hA hsl hdl (by simpa using hm) h2 hx (by omega)).mono fun r hr => ?_
  exact hr.2.2

/-- C62. The refusals that touch nothing: a null pointer, and a maximal length of 2^32 or more. -/
theorem C62_refusals (aes : Cipher) (c : AES_XOF) (seed div : Mem UInt8) (xo len maxlen : Nat) (hm : 2 ^ 32 ≤ maxlen) :
    Runs (seedexpander aes c none xo len) (fun r => r = (-2, c, none)) ∧ Runs (seedexpander_init c seed div maxlen) (fun r => r = (-1, c)) := by
  refine ⟨?_, ?_⟩
  · unfold seedexpander
    rw [runs_bind, runs_leak]
    rfl
  · unfold seedexpander_init
    rw [runs_cif]
    exact ⟨fun _ => rfl, fun h' => by simp at h' hm; omega⟩

/-- C62 (finding). The maximal length can never be used up: the code refuses the request for the `maxlen` bytes that were announced. -/
theorem C62_last_byte (aes : Cipher) (c : AES_XOF) (hk : c.key.size = 32) (hc : c.ctr.size = 16) (hb : c.buffer.size = 16) (seed div : Mem UInt8) (s d : List UInt8)
    (hs : seed.Holds 0 s) (hsl : s.length = 32) (hd : div.Holds 0 d) (hdl : d.length = 8) (maxlen : Nat) (hm : maxlen < 2 ^ 32) (x : Mem UInt8) (xo : Nat) :
    Runs (do let (_, c) ← seedexpander_init c seed div maxlen; seedexpander aes c (some x) xo maxlen) (fun r => r.1 = -3 ∧ r.2.2 = some x) := by
  rw [runs_bind]
  refine (seinit_runs (aes := aes) hk hc hb hs hsl hd hdl (by simpa using hm)).mono ?_
  rintro ⟨r, c'⟩ ⟨h1, h2⟩
  refine (seedexpander_refuses (by rw [h2.rest]; omega)).mono fun r hr => ?_
  rw [hr]
  exact ⟨rfl, rfl⟩

/-- Case: a request for 5 bytes and one for 14, which begins in one block and ends in the next, of at most 20, and one for the last byte. -/
example : expanderSpec (fun _ c => c) [] [1, 2, 3, 4, 5, 6, 7, 8] 20 0 [5, 14, 1] =
    [(0, some (Mem.ofList [1, 2, 3, 4, 5])), (0, some (Mem.ofList [6, 7, 8, 0, 0, 0, 20, 0, 0, 0, 0, 1, 2, 3])), (-3, some (Mem.uninit UInt8 1))] := by decide +kernel

end Verif.Props
