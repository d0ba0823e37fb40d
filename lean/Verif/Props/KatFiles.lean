import Verif.Proof.KatMain
import Verif.Props.Programs
import Verif.Props.Drbg

/-! # Properties of PQCgenKAT_kem.c (C65)

The specification of the files is in Spec/Kat.lean; a file is a byte list. -/

set_option autoImplicit false

namespace Verif.Props
open Verif.Model Verif.Spec Verif.Proof

attribute [local irreducible] KeyGen_internal Encaps_internal Decaps_internal katMain katResponses katSeeds

/-! ## The program -/

/-- The first line of the response file. -/
def katTitle : ParamSet → String
  | .k2 => "# Kyber512\n\n"
  | .k3 => "# Kyber768\n\n"
  | .k4 => "# Kyber1024\n\n"

/-- The seeds of the first `n` records: the generator of SP 800-90A with the entropy input 0, 1, ..., 47. -/
def nistSeeds (aes : Cipher) (n : Nat) : List (List UInt8) := katSeeds aes n (katStart aes ((List.range 48).map UInt8.ofNat))

/-- What the program should leave. -/
def katExpected (aes : Cipher) (p : ParamSet) (N n : Nat) : Option KatResult :=
  (katResponses aes (fips p) N 0 (nistSeeds aes n)).map fun r => ⟨katRequests 0 (nistSeeds aes n), asciiBytes (katTitle p) ++ r.1, r.2.1, r.2.2⟩

theorem kat_runsO (aes : Cipher) (hA : IsCipher aes) (p : ParamSet) (fuel : Nat) (K : Nat → KemApi) (hK : ∀ i, ApiSpec p fuel (K i)) (g : DRBG) (hg : g.Key.size = 32) (hg' : g.V.size = 16) (n : Nat)
    (hn : n < 2147483647) : RunsO (katMain p K aes (true, true, true) g n) (katExpected aes p (112 + 56 * fuel) n) (fun a b => b = a) := by
  have h := katMain_runsO hA hK hg hg' hn
  unfold katExpected nistSeeds
  rw [show (List.range 48).map UInt8.ofNat = katEntropy from rfl]
  rw [iters] at h
  revert h
  cases katResponses aes (fips p) (112 + 56 * fuel) 0 (katSeeds aes n (katStart aes katEntropy)) with
  | none => exact fun h => h
  | some r =>
    intro h
    refine Runs.mono h fun v hv => ?_
    obtain ⟨a, b, c, d⟩ := v
    obtain ⟨h1, h2, h3, h4⟩ := hv
    dsimp only at h1 h2 h3 h4 ⊢
    have e : asciiBytes ("# " ++ CRYPTO_ALGNAME p ++ "\n\n") = asciiBytes (katTitle p) := by cases p <;> rfl
    rw [h1, h2, h3, h4, e]

/-- C65. PQCgenKAT_kem.c linked to the reference build and to nistkat/rng.c, with any number of records (100 in the code), for any block cipher in place of AES-256: the request
file, the response file, what is printed and the return value are those of the specification (in FIPS 203 and SP 800-90A). The files can be opened. -/
theorem C65_ref (aes : Cipher) (hA : IsCipher aes) (p : ParamSet) (fuel : Nat) (g : DRBG) (hg : g.Key.size = 32) (hg' : g.V.size = 16) (n : Nat) (hn : n < 2147483647) :
    outcomeOf (katMain p (fun _ => refApi p fuel) aes (true, true, true) g n) = expected (katExpected aes p (112 + 56 * fuel) n) :=
  outcome_of_runsO (kat_runsO aes hA p fuel _ (fun _ => refApi_spec p fuel) g hg hg' n hn)

/-- C65. The same for the AVX2 build, whatever its uninitialised buffers contain (another content for each record). -/
theorem C65_avx2 (aes : Cipher) (hA : IsCipher aes) (p : ParamSet) (junk : Nat → Nat → Fin 4 → Nat → UInt8) (fuel : Nat) (g : DRBG) (hg : g.Key.size = 32) (hg' : g.V.size = 16) (n : Nat)
    (hn : n < 2147483647) :
    outcomeOf (katMain p (fun i => Avx.avxApi p (junk i) fuel) aes (true, true, true) g n) = expected (katExpected aes p (112 + 56 * fuel) n) :=
  outcome_of_runsO (kat_runsO aes hA p fuel _ (fun i => avxApi_spec p (junk i) fuel) g hg hg' n hn)

/-- C65. A file that cannot be opened: the message says which, the program returns -1 and has written no response (and no request unless it is the third opening that fails). -/
theorem C65_open_req (aes : Cipher) (p : ParamSet) (K : Nat → KemApi) (b c : Bool) (g : DRBG) (n : Nat) :
    outcomeOf (katMain p K aes (false, b, c) g n) = .returned ⟨[], [], asciiBytes ("Couldn't open <PQCkemKAT_" ++ toString (768 * (fips p).k + 96) ++ ".req> for write\n"), -1⟩ := by
  unfold katMain
  cases p <;> rfl

theorem C65_open_rsp (aes : Cipher) (p : ParamSet) (K : Nat → KemApi) (c : Bool) (g : DRBG) (n : Nat) :
    outcomeOf (katMain p K aes (true, false, c) g n) = .returned ⟨[], [], asciiBytes ("Couldn't open <PQCkemKAT_" ++ toString (768 * (fips p).k + 96) ++ ".rsp> for write\n"), -1⟩ := by
  unfold katMain
  cases p <;> rfl

theorem C65_open_read (aes : Cipher) (hA : IsCipher aes) (p : ParamSet) (K : Nat → KemApi) (g : DRBG) (hg : g.Key.size = 32) (hg' : g.V.size = 16) (n : Nat) (hn : n < 2147483647) :
    outcomeOf (katMain p K aes (true, true, false) g n) =
      .returned ⟨katRequests 0 (nistSeeds aes n), [], asciiBytes ("Couldn't open <PQCkemKAT_" ++ toString (768 * (fips p).k + 96) ++ ".req> for read\n"), -1⟩ := by
  obtain ⟨v, t, e, hv⟩ := (katMain_open_read hA (p := p) (K := K) hg hg' hn).exists_ok
  rw [e, hv]
  rfl

/-- The shared secrets of the record with the given seed agree. -/
def KatAgree (aes : Cipher) (P : Params) (N : Nat) (seed : List UInt8) : Prop :=
  ∃ ek dk K c, KeyGen_internal P N ((CTR_DRBG_Generate aes 64 (katStart aes seed)).1.take 32) ((CTR_DRBG_Generate aes 64 (katStart aes seed)).1.drop 32) = some (ek, dk) ∧
    Encaps_internal P N ek (CTR_DRBG_Generate aes 32 (CTR_DRBG_Generate aes 64 (katStart aes seed)).2).1 = some (K, c) ∧ Decaps_internal P N dk c = some K


theorem katRecord_agree (aes : Cipher) (P : Params) (N i : Nat) (seed : List UInt8) (r : List UInt8 × Bool) (h : katRecord aes P N i seed = some r) : r.2 = true ↔ KatAgree aes P N seed := by
  unfold katRecord at h
  simp only [Option.bind_eq_some_iff] at h
  obtain ⟨⟨ek, dk⟩, hk, ⟨K, c⟩, he, K', hd, h⟩ := h
  dsimp only at hk he hd h
  injection h with h
  rw [← h]
  dsimp only
  rw [decide_eq_true_iff]
  constructor
  · rintro rfl
    exact ⟨ek, dk, K', c, hk, he, hd⟩
  · rintro ⟨ek', dk', K2, c', hk', he', hd'⟩
    rw [hk] at hk'
    injection hk' with hk'
    injection hk' with e1 e2
    subst e1; subst e2
    rw [he] at he'
    injection he' with he'
    injection he' with e3 e4
    subst e3; subst e4
    rw [hd] at hd'
    injection hd'

section
attribute [local semireducible] katResponses

theorem katResponses_verdict (aes : Cipher) (P : Params) (N : Nat) (seeds : List (List UInt8)) (i : Nat) (rsp out : List UInt8) (ret : Int)
    (h : katResponses aes P N i seeds = some (rsp, out, ret)) :
    (ret = 0 ∧ out = [] ∧ ∀ seed ∈ seeds, KatAgree aes P N seed) ∨
      (ret = -4 ∧ out = asciiBytes "crypto_kem_dec returned bad 'ss' value\n" ∧ ∃ a seed b, seeds = a ++ seed :: b ∧ (∀ x ∈ a, KatAgree aes P N x) ∧ ¬ KatAgree aes P N seed) := by
  induction seeds generalizing i rsp out ret with
  | nil =>
    rw [katResponses] at h
    injection h with h
    injection h with h1 h
    injection h with h2 h3
    exact Or.inl ⟨h3.symm, h2.symm, fun x hx => by cases hx⟩
  | cons seed seeds ih =>
    rw [katResponses_cons, Option.bind_eq_some_iff] at h
    obtain ⟨⟨r, b⟩, hr, h⟩ := h
    have hag := katRecord_agree aes P N i seed _ hr
    dsimp only at h hag
    cases b with
    | false =>
      rw [if_neg (by decide)] at h
      injection h with h
      injection h with h1 h
      injection h with h2 h3
      exact Or.inr ⟨h3.symm, h2.symm, [], seed, seeds, rfl, fun x hx => (by cases hx), fun hh => absurd (hag.2 hh) (by decide)⟩
    | true =>
      rw [if_pos rfl, Option.bind_eq_some_iff] at h
      obtain ⟨⟨rsp', out', ret'⟩, ht, h⟩ := h
      injection h with h
      injection h with h1 h
      injection h with h2 h3
      subst h2; subst h3
      have h0 := hag.1 rfl
      rcases ih _ _ _ _ ht with ⟨a, b, c⟩ | ⟨a, b, x, y, z, d, e, k⟩
      · refine Or.inl ⟨a, b, fun x hx => ?_⟩
        rcases List.mem_cons.1 hx with rfl | hx
        · exact h0
        · exact c x hx
      · refine Or.inr ⟨a, b, seed :: x, y, z, by rw [d]; rfl, fun w hw => ?_, k⟩
        rcases List.mem_cons.1 hw with rfl | hw
        · exact h0
        · exact e w hw
end

/-- C65. When the program returns, it returns 0 and prints nothing if the shared secrets of all records agree; otherwise it stops at the first record where they do not, with -4 and the message. -/
theorem C65_verdict (aes : Cipher) (hA : IsCipher aes) (p : ParamSet) (fuel : Nat) (g : DRBG) (hg : g.Key.size = 32) (hg' : g.V.size = 16) (n : Nat) (hn : n < 2147483647) (r : KatResult)
    (h : outcomeOf (katMain p (fun _ => refApi p fuel) aes (true, true, true) g n) = .returned r) :
    (r.ret = 0 ∧ r.out = [] ∧ ∀ seed ∈ nistSeeds aes n, KatAgree aes (fips p) (112 + 56 * fuel) seed) ∨
      (r.ret = -4 ∧ r.out = asciiBytes "crypto_kem_dec returned bad 'ss' value\n" ∧
        ∃ a seed b, nistSeeds aes n = a ++ seed :: b ∧ (∀ x ∈ a, KatAgree aes (fips p) (112 + 56 * fuel) x) ∧ ¬ KatAgree aes (fips p) (112 + 56 * fuel) seed) := by
  rw [C65_ref aes hA p fuel g hg hg' n hn] at h
  unfold katExpected at h
  cases ht : katResponses aes (fips p) (112 + 56 * fuel) 0 (nistSeeds aes n) with
  | none => rw [ht] at h; cases h
  | some t =>
    obtain ⟨rsp, out, ret⟩ := t
    rw [ht] at h
    injection h with h
    subst h
    exact katResponses_verdict _ _ _ _ _ _ _ _ ht

/-! ## Reading and writing the files -/

/-- `m` occurs in `f`, and what follows its first occurrence is `r`. -/
def FirstAt (m f r : List UInt8) : Prop := ∃ pre, f = pre ++ m ++ r ∧ ∀ pre' r', f = pre' ++ m ++ r' → pre.length ≤ pre'.length

theorem afterFirst_some {m r : List UInt8} : ∀ {f : List UInt8}, FirstAt m f r → afterFirst m f = some r
  | [], ⟨pre, h, _⟩ => by
    have h := h.symm
    rw [List.append_eq_nil_iff, List.append_eq_nil_iff] at h
    obtain ⟨⟨rfl, rfl⟩, rfl⟩ := h
    rfl
  | c :: f, ⟨pre, h, hmin⟩ => by
    rw [afterFirst]
    cases pre with
    | nil =>
      rw [List.nil_append] at h
      rw [h, if_pos (by rw [List.isPrefixOf_iff_prefix]; exact List.prefix_append ..)]
      simp
    | cons x pre =>
      rw [if_neg]
      · rw [List.cons_append, List.cons_append] at h
        injection h with h1 h2
        refine afterFirst_some ⟨pre, h2, fun pre' r' h' => ?_⟩
        have := hmin (c :: pre') r' (by rw [h']; rfl)
        simpa using this
      · intro hp
        rw [List.isPrefixOf_iff_prefix] at hp
        obtain ⟨r', hr'⟩ := hp
        have := hmin [] r' (by rw [List.nil_append, hr'])
        simp at this

theorem afterFirst_none {m : List UInt8} : ∀ {f : List UInt8}, ¬ m <:+: f → afterFirst m f = none
  | [], h => by
    rw [afterFirst, if_neg]
    rintro rfl
    exact h (List.infix_refl _)
  | c :: f, h => by
    rw [afterFirst, if_neg]
    · refine afterFirst_none fun h' => h ?_
      obtain ⟨a, b, e⟩ := h'
      exact ⟨c :: a, b, by rw [← e]; rfl⟩
    · intro hp
      rw [List.isPrefixOf_iff_prefix] at hp
      exact h hp.isInfix

/-- C65. `FindMarker`, for every file and every string without zero bytes of at most 49 bytes: it returns 1 and leaves the file right after the first occurrence of the string. -/
theorem C65_FindMarker (f m r : List UInt8) (marker : Mem UInt8) (hm : marker.Holds 0 (m ++ [0])) (h0 : ∀ x ∈ m, x ≠ 0) (hl : m.length ≤ 49) (h : FirstAt m f r) :
    Runs (FindMarker f marker) (fun v => v = (1, r)) := by
  refine (FindMarker_runs hm h0 f).mono fun v hv => ?_
  rw [List.take_of_length_le hl, afterFirst_some h] at hv
  exact hv

/-- C65. If there is no occurrence it returns 0, at the end of the file. -/
theorem C65_FindMarker_none (f m : List UInt8) (marker : Mem UInt8) (hm : marker.Holds 0 (m ++ [0])) (h0 : ∀ x ∈ m, x ≠ 0) (hl : m.length ≤ 49) (h : ¬ m <:+: f) :
    Runs (FindMarker f marker) (fun v => v = (0, [])) := by
  refine (FindMarker_runs hm h0 f).mono fun v hv => ?_
  rw [List.take_of_length_le hl, afterFirst_none h] at hv
  exact hv

/-- C65. A longer string is cut: only its first 49 bytes are looked for. -/
theorem C65_FindMarker_long (f m r : List UInt8) (marker : Mem UInt8) (hm : marker.Holds 0 (m ++ [0])) (h0 : ∀ x ∈ m, x ≠ 0) (h : FirstAt (m.take 49) f r) :
    Runs (FindMarker f marker) (fun v => v = (1, r)) := by
  refine (FindMarker_runs hm h0 f).mono fun v hv => ?_
  rw [afterFirst_some h] at hv
  exact hv

/-- C65. `ReadHex` reads back what `fprintBstr` writes, wherever it is in the file; the file is left at the next line. -/
theorem C65_roundtrip (name : String) (hn : ∀ x ∈ asciiBytes name, x ≠ 0) (hn' : (asciiBytes name).length ≤ 49) (l : List UInt8) (hl : l ≠ []) (A : Mem UInt8) (hA : A.Holds 0 l) (fp : List UInt8)
    (str B : Mem UInt8) (hstr : str.Holds 0 (asciiBytes name ++ [0])) (hB : l.length ≤ B.size) :
    Runs (fprintBstr fp name A l.length) (fun fp' => ∃ line, fp' = fp ++ line ∧ ∀ pre r, FirstAt (asciiBytes name) (pre ++ line ++ r) (hexUpper l ++ asciiBytes "\n" ++ r) →
      Runs (ReadHex (pre ++ line ++ r) B l.length str) (fun v => v.1 = 1 ∧ B.Wrote v.2.1 0 l ∧ v.2.2 = r)) := by
  have hpos : 0 < l.length := List.length_pos_iff.2 hl
  refine (fprintBstr_runs hA rfl hpos).mono fun fp' h' => ⟨_, h', fun pre r hf => ?_⟩
  refine (ReadHex_runs hstr hn hpos hB _).mono fun v hv => ?_
  rw [List.take_of_length_le hn', afterFirst_some hf, show asciiBytes "\n" = [10] by decide, List.append_assoc, List.singleton_append] at hv
  dsimp only at hv
  rw [hexRun_hexUpper, hexNumber_hexUpper, beBytes_beNat _ _ rfl] at hv
  exact hv

/-- C65. What `ReadHex` reads in general: the marker, then anything that is not a hexadecimal digit or a newline, then digits, then a byte that is no digit. The buffer gets the number with
these digits, modulo 256^Length, big-endian: too few digits are filled up with zeros on the left and of too many only the last ones count. -/
theorem C65_ReadHex (m gap ds r : List UInt8) (c : UInt8) (f : List UInt8) (L : Nat) (hL : 0 < L) (str A : Mem UInt8) (hstr : str.Holds 0 (m ++ [0])) (h0 : ∀ x ∈ m, x ≠ 0) (hm : m.length ≤ 49)
    (hA : L ≤ A.size) (hgap : ∀ x ∈ gap, hexDigitVal x = none ∧ x ≠ 10) (hds : ∀ x ∈ ds, hexDigitVal x ≠ none) (hne : ds ≠ []) (hc : hexDigitVal c = none)
    (hf : FirstAt m f (gap ++ ds ++ c :: r)) :
    Runs (ReadHex f A L str) (fun v => v.1 = 1 ∧ A.Wrote v.2.1 0 (beBytes L (hexNumber ds)) ∧ v.2.2 = r) := by
  refine (ReadHex_runs hstr h0 hL hA _).mono fun v hv => ?_
  have e : hexRun (gap ++ ds ++ c :: r) = (ds, r) := by
    obtain ⟨d, ds, rfl⟩ : ∃ d t, ds = d :: t := by cases ds with | nil => exact absurd rfl hne | cons d t => exact ⟨d, t, rfl⟩
    have hd := hds d (by simp)
    have e1 : (gap ++ (d :: ds) ++ c :: r).dropWhile (fun c => (hexDigitVal c).isNone && c ≠ 10) = (d :: ds) ++ c :: r := by
      rw [List.append_assoc, List.dropWhile_append_of_pos (fun x hx => by simp [hgap x hx]), List.cons_append, List.dropWhile_cons_of_neg]
      cases hv : hexDigitVal d <;> simp_all
    unfold hexRun
    rw [e1]
    dsimp only
    rw [takeWhile_append_all (fun x hx => by rw [Option.isSome_iff_ne_none]; exact hds x hx) (by simp [hc])]
    simp
  rw [List.take_of_length_le hm, afterFirst_some hf] at hv
  dsimp only at hv
  rw [e] at hv
  exact hv

/-- C65. An empty line is read as zeros, and the return value is 1 all the same. -/
theorem C65_ReadHex_empty (m gap r : List UInt8) (f : List UInt8) (L : Nat) (hL : 0 < L) (str A : Mem UInt8) (hstr : str.Holds 0 (m ++ [0])) (h0 : ∀ x ∈ m, x ≠ 0) (hm : m.length ≤ 49)
    (hA : L ≤ A.size) (hgap : ∀ x ∈ gap, hexDigitVal x = none ∧ x ≠ 10) (hf : FirstAt m f (gap ++ 10 :: r)) :
    Runs (ReadHex f A L str) (fun v => v.1 = 1 ∧ A.Wrote v.2.1 0 (List.replicate L 0) ∧ v.2.2 = r) := by
  refine (ReadHex_runs hstr h0 hL hA _).mono fun v hv => ?_
  have e : hexRun (gap ++ 10 :: r) = ([], r) := by
    have e1 : (gap ++ 10 :: r).dropWhile (fun c => (hexDigitVal c).isNone && c ≠ 10) = 10 :: r := by
      rw [List.dropWhile_append_of_pos (fun x hx => by simp [hgap x hx]), List.dropWhile_cons_of_neg (by simp)]
    have h10 : hexDigitVal 10 = none := by decide
    unfold hexRun
    rw [e1]
    simp [h10]
  rw [List.take_of_length_le hm, afterFirst_some hf] at hv
  dsimp only at hv
  rw [e] at hv
  have z : beBytes L (hexNumber []) = List.replicate L 0 := by
    rw [show hexNumber [] = 0 from rfl]
    clear hv hA hL
    induction L with
    | zero => rfl
    | succ n ih =>
      rw [beBytes, show (0 : Nat) / 256 = 0 from rfl, ih, List.replicate_succ']
      rfl
  rw [z] at hv
  exact hv

/-- C65. With `Length` 0, `ReadHex` writes one byte all the same: undefined for an empty buffer. -/
theorem C65_ReadHex_zero (f : List UInt8) (A str : Mem UInt8) : if 0 < A.size then Runs (ReadHex f A 0 str) (fun v => v.1 = 1 ∧ A.Wrote v.2.1 0 [0] ∧ v.2.2 = f)
    else outcomeOf (ReadHex f A 0 str) = .undefined .oob := by
  split
  case isTrue h =>
    unfold ReadHex
    rw [runs_cif]
    refine ⟨fun _ => ?_, fun h => absurd h (by decide)⟩
    rw [runs_bind]
    refine (runs_wr_upd h).mono fun A' hA' => ?_
    rw [runs_pure]
    refine ⟨rfl, ?_, rfl⟩
    have h1 : A'.Holds 0 [0] := fun j hj => by
      rw [List.length_singleton] at hj
      obtain rfl : j = 0 := by omega
      exact by simpa using hA'.has 0 (by omega)
    exact ⟨hA'.size, h1, fun j hj => hA'.frame j (by rw [List.length_singleton] at hj; omega)⟩
  case isFalse h =>
    have : A = #[] := Array.eq_empty_of_size_eq_zero (by omega)
    subst this
    rfl

/-- Cases: the first seed, the first record of the request file, names, a marker in a file, digits read back. -/
example : nistSeeds AES256 1 = [[0x06, 0x15, 0x50, 0x23, 0x4D, 0x15, 0x8C, 0x5E, 0xC9, 0x55, 0x95, 0xFE, 0x04, 0xEF, 0x7A, 0x25, 0x76, 0x7F, 0x2E, 0x24, 0xCC, 0x2B, 0xC4, 0x79,
      0xD0, 0x9D, 0x86, 0xDC, 0x9A, 0xBC, 0xFD, 0xE7, 0x05, 0x6A, 0x8C, 0x26, 0x6F, 0x9E, 0xF9, 0x7E, 0xD0, 0x85, 0x41, 0xDB, 0xD2, 0xE1, 0xFF, 0xA1]] := by
  rw [show AES256 = aesF from funext fun k => funext fun c => (aesF_eq k c).symm]
  decide +kernel
example : katRequests 0 [[0x0f, 0xa9]] = asciiBytes "count = 0\nseed = 0FA9\npk =\nsk =\nct =\nss =\n\n" := by decide +kernel
example (fuel : Nat) (g : DRBG) (hg : g.Key.size = 32) (hg' : g.V.size = 16) : outcomeOf (katMain .k2 (fun _ => refApi .k2 fuel) AES256 (true, true, true) g 0) =
    .returned ⟨[], asciiBytes "# Kyber512\n\n", [], 0⟩ := by
  rw [C65_ref AES256 aes256_isCipher .k2 fuel g hg hg' 0 (by decide)]
  unfold katExpected nistSeeds
  rw [katSeeds, katResponses]
  rfl
example : FirstAt [1, 2] [1, 1, 2, 9, 1, 2, 7] [9, 1, 2, 7] := ⟨[1], rfl, fun pre' r' h => by cases pre' with | nil => simp at h | cons => simp⟩
example : Runs (ReadHex (asciiBytes "count = 1\nseed = 0FA9\npk") (Mem.uninit UInt8 2) 2 (cstr "seed = ")) (fun v => v = (1, Mem.ofList [0x0f, 0xa9], asciiBytes "pk")) := by decide +kernel
example : Runs (ReadHex (asciiBytes "seed = 10FA9 ") (Mem.uninit UInt8 2) 2 (cstr "seed = ")) (fun v => v = (1, Mem.ofList [0x0f, 0xa9], [])) := by decide +kernel

end Verif.Props
