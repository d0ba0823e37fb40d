import Mathlib.Data.Nat.Digits.Lemmas
import Verif.Model.Link

/-! # C94: names and types across the source files

The Makefiles of ref/ and avx2/ build executables and shared libraries out of separately compiled files. Here is what the linker makes of them: every name a program uses has exactly one
definition, the namespaces of the libraries never meet, and a function is declared with the type it is defined with, apart from two cases. -/

set_option autoImplicit false

namespace Verif.Props

open Verif.Model Verif.Model.Link

/-! ## Statements -/

/-- Compatible types of one function or object. A label of an assembly file has no C type. -/
def Compatible : Sig → Sig → Prop
  | .fn _ _, .asm => True
  | s, t => s = t

/-- Some file of the image declares the name with another type than the file that defines it. C11 6.2.7p2 leaves a program with such a name undefined. -/
def Mismatch (a : Abi) (i : Image) (name : List Nat) : Prop :=
  ∃ d ∈ i.decls a, ∃ e ∈ i.defs, spell d.1 = name ∧ spell e.1 = name ∧ ¬ Compatible d.2 e.2

/-- An executable links: one definition for each name, a definition for each name used, a `main`, and no definition that takes the place of a library function the program calls. -/
def Links (i : Image) : Prop :=
  (i.defs.map fun d => spell d.1).Nodup ∧
  (∀ r ∈ i.refs, ∃ d ∈ i.defs, spell d.1 = spell r) ∧
  (∃ d ∈ i.defs, spell d.1 = chars (n! "main")) ∧
  ∀ s ∈ i.sys, ∀ d ∈ i.defs, spell d.1 ≠ chars s

/-- Lookup by a dynamic linker: the first loaded library that defines the name, in the order of loading. -/
def resolve (a : Abi) : List Lib → List Nat → Option Lib
  | [], _ => none
  | l :: ls, name => if name ∈ (lib a l).defs.map fun d => spell d.1 then some l else resolve a ls name

/-- The library a namespace belongs to. -/
def home : Ns → Option Lib
  | .kem b p => some (.kem b p)
  | .fips b => some (.fips b)
  | .fips4 => some .fips4
  | .plain => none

/-! ## Spelling -/

/-- Numbers for namespaces, for quick comparison. -/
def nsNum : Ns → Nat
  | .kem .ref .k2 => 0 | .kem .ref .k3 => 1 | .kem .ref .k4 => 2
  | .kem .avx2 .k2 => 3 | .kem .avx2 .k3 => 4 | .kem .avx2 .k4 => 5
  | .fips .ref => 6 | .fips .avx2 => 7 | .fips4 => 8 | .plain => 9

theorem nsNum_inj {x y : Ns} (h : nsNum x = nsNum y) : x = y := by
  rcases x with ⟨_ | _, _ | _ | _⟩ | ⟨_ | _⟩ | _ | _ <;> rcases y with ⟨_ | _, _ | _ | _⟩ | ⟨_ | _⟩ | _ | _ <;> first | rfl | (revert h; decide)

theorem nsNum_lt (x : Ns) : nsNum x < 16 := by
  rcases x with ⟨_ | _, _ | _ | _⟩ | ⟨_ | _⟩ | _ | _ <;> decide

def key (s : Sym) : Nat := 16 * s.2 + nsNum s.1

theorem key_inj {s t : Sym} (h : key s = key t) : s = t := by
  have h1 := nsNum_lt s.1
  have h2 := nsNum_lt t.1
  unfold key at h
  exact Prod.ext (nsNum_inj (by omega)) (by omega)

theorem chars_inj {m n : Nat} (h : chars m = chars n) : m = n := by
  have := congrArg (Nat.ofDigits 256) h
  simpa [chars, Nat.ofDigits_digits] using this

/-- The value of the first `k` characters. -/
theorem head_of_append {x : Nat} {u v : List Nat} (h : chars x = u ++ v) : x % 256 ^ u.length = Nat.ofDigits 256 u % 256 ^ u.length := by
  have : x = Nat.ofDigits 256 (u ++ v) := by rw [← h, chars, Nat.ofDigits_digits]
  rw [this, Nat.ofDigits_append, Nat.add_mul_mod_self_left]

/-- A plain name that does not begin like a namespace. -/
def Free (n : Nat) : Prop := ¬ chars (n! "pqcrystals_") <+: chars n

theorem chars_pq : chars (n! "pqcrystals_") = [112, 113, 99, 114, 121, 115, 116, 97, 108, 115, 95] := by
  simp [chars]

theorem free_of_mod {n : Nat} (h : n % 256 ^ 11 ≠ n! "pqcrystals_") : Free n := by
  rintro ⟨v, hv⟩
  have := head_of_append hv.symm
  rw [chars_pq] at this
  exact h (by simpa [Nat.ofDigits] using this)

/-- The rest of a namespace after `pqcrystals_kyber`. -/
def rest : Ns → List Nat
  | .kem .ref .k2 => [53, 49, 50, 95, 114, 101, 102, 95]
  | .kem .ref .k3 => [55, 54, 56, 95, 114, 101, 102, 95]
  | .kem .ref .k4 => [49, 48, 50, 52, 95, 114, 101, 102, 95]
  | .kem .avx2 .k2 => [53, 49, 50, 95, 97, 118, 120, 50, 95]
  | .kem .avx2 .k3 => [55, 54, 56, 95, 97, 118, 120, 50, 95]
  | .kem .avx2 .k4 => [49, 48, 50, 52, 95, 97, 118, 120, 50, 95]
  | .fips .ref => [95, 102, 105, 112, 115, 50, 48, 50, 95, 114, 101, 102, 95]
  | .fips .avx2 => [95, 102, 105, 112, 115, 50, 48, 50, 95, 97, 118, 120, 50, 95]
  | .fips4 => [95, 102, 105, 112, 115, 50, 48, 50, 120, 52, 95, 97, 118, 120, 50, 95]
  | .plain => []

theorem chars_pre {x : Ns} (h : x ≠ .plain) : chars x.pre = chars (n! "pqcrystals_") ++ ([107, 121, 98, 101, 114] ++ rest x) := by
  rw [chars_pq]
  rcases x with ⟨_ | _, _ | _ | _⟩ | ⟨_ | _⟩ | _ | _ <;> first | exact absurd rfl h | simp [chars, Ns.pre, rest]

theorem rest_apart {x y : Ns} {u v : List Nat} (h : rest x ++ u = rest y ++ v) (hx : x ≠ .plain) (hy : y ≠ .plain) : x = y := by
  rcases x with ⟨_ | _, _ | _ | _⟩ | ⟨_ | _⟩ | _ | _ <;> rcases y with ⟨_ | _, _ | _ | _⟩ | ⟨_ | _⟩ | _ | _ <;>
    first | rfl | exact absurd rfl hx | exact absurd rfl hy | simp [rest] at h

/-- A name that the rules of the code can produce: macro namespace, or a plain name that does not begin like one. -/
def Good (s : Sym) : Prop := s.1 = .plain → Free s.2

theorem spell_inj {s t : Sym} (hs : Good s) (ht : Good t) (h : spell s = spell t) : s = t := by
  unfold spell at h
  by_cases h1 : s.1 = .plain <;> by_cases h2 : t.1 = .plain
  · rw [h1, h2] at h
    exact Prod.ext (h1.trans h2.symm) (chars_inj (by simpa [Ns.pre, chars] using h))
  · rw [h1, chars_pre h2] at h
    refine absurd ?_ (hs h1)
    exact ⟨_, by rw [← List.append_assoc] at h; simpa [Ns.pre, chars] using h.symm⟩
  · rw [h2, chars_pre h1] at h
    refine absurd ?_ (ht h2)
    exact ⟨_, by rw [← List.append_assoc] at h; simpa [Ns.pre, chars] using h⟩
  · rw [chars_pre h1, chars_pre h2] at h
    simp only [List.append_assoc, List.append_cancel_left_eq] at h
    have e := rest_apart h h1 h2
    rw [e, List.append_cancel_left_eq] at h
    exact Prod.ext e (chars_inj h)

/-! ## Checks that can be run -/

def has (l : List Nat) (x : Nat) : Bool := l.rec false fun y _ r => (Nat.beq x y).rec r true

theorem has_iff {l : List Nat} {x : Nat} : has l x = true ↔ x ∈ l := by
  induction l with
  | nil => simp [has]
  | cons y l ih =>
    have e : has (y :: l) x = (Nat.beq x y).rec (has l x) true := rfl
    rw [e, List.mem_cons, ← ih]
    rcases h : Nat.beq x y
    · have : x ≠ y := fun c => by rw [c, Nat.beq_refl] at h; cases h
      simp [this]
    · simp [Nat.eq_of_beq_eq_true h]

def nod (l : List Nat) : Bool := l.rec true fun y t r => (has t y).rec r false

theorem nodup_of_nod {l : List Nat} (h : nod l = true) : l.Nodup := by
  induction l with
  | nil => simp
  | cons y l ih =>
    have e : nod (y :: l) = (has l y).rec (nod l) false := rfl
    rw [e] at h
    rcases k : has l y
    · rw [k] at h
      exact List.nodup_cons.2 ⟨fun c => absurd (k.symm.trans (has_iff.2 c)) (by decide), ih h⟩
    · rw [k] at h
      cases h

def goodB (s : Sym) : Bool := !Nat.beq (nsNum s.1) 9 || !Nat.beq (s.2 % 256 ^ 11) (n! "pqcrystals_")

theorem good_of {s : Sym} (h : goodB s = true) : Good s := by
  intro hp
  refine free_of_mod fun c => ?_
  simp only [goodB, hp, c, Bool.or_eq_true, Bool.not_eq_true'] at h
  revert h
  decide

/-- Keys of the definitions of an image. -/
def keys (i : Image) : List Nat := i.defs.map fun d => key d.1

def linksB (i : Image) : Bool :=
  nod (keys i) && i.defs.all (fun d => goodB d.1) && i.refs.all (fun r => goodB r && has (keys i) (key r)) && has (keys i) (key (.plain, n! "main")) &&
    i.sys.all fun s => goodB (.plain, s) && !has (keys i) (key (.plain, s))

theorem spell_plain (n : Nat) : spell (.plain, n) = chars n := by simp [spell, Ns.pre, chars]

theorem def_of_has {i : Image} {s : Sym} (h : has (keys i) (key s) = true) : ∃ d ∈ i.defs, d.1 = s := by
  obtain ⟨d, hd, e⟩ := List.mem_map.1 (has_iff.1 h)
  exact ⟨d, hd, key_inj e⟩

theorem links_of {i : Image} (h : linksB i = true) : Links i := by
  simp only [linksB, Bool.and_eq_true, List.all_eq_true, Bool.not_eq_true'] at h
  obtain ⟨⟨⟨⟨h1, h2⟩, h3⟩, h4⟩, h5⟩ := h
  have g : ∀ d ∈ i.defs, Good d.1 := fun d hd => good_of (h2 d hd)
  refine ⟨?_, ?_, ?_, ?_⟩
  · have n := nodup_of_nod h1
    have n2 : (i.defs.map fun d => d.1).Nodup := by
      refine List.Nodup.of_map key ?_
      simpa [keys, List.map_map, Function.comp_def] using n
    have e : (i.defs.map fun d => spell d.1) = (i.defs.map fun d => d.1).map spell := by simp [List.map_map, Function.comp_def]
    rw [e]
    refine List.Nodup.map_on ?_ n2
    intro x hx y hy hxy
    obtain ⟨d, hd, rfl⟩ := List.mem_map.1 hx
    obtain ⟨d', hd', rfl⟩ := List.mem_map.1 hy
    exact spell_inj (g d hd) (g d' hd') hxy
  · intro r hr
    obtain ⟨d, hd, e⟩ := def_of_has (h3 r hr).2
    exact ⟨d, hd, by rw [e]⟩
  · obtain ⟨d, hd, e⟩ := def_of_has h4
    exact ⟨d, hd, by rw [e, spell_plain]⟩
  · intro s hs d hd c
    obtain ⟨u, v⟩ := h5 s hs
    have := spell_inj (g d hd) (good_of u) (by rw [c, spell_plain])
    have hk : has (keys i) (key (.plain, s)) = true := has_iff.2 (List.mem_map.2 ⟨d, hd, by rw [this]⟩)
    rw [v] at hk
    cases hk

def compB : Sig → Sig → Bool
  | .fn _ _, .asm => true
  | s, t => decide (s = t)

theorem compB_iff {s t : Sig} : compB s t = true ↔ Compatible s t := by
  cases s <;> cases t <;> simp [compB, Compatible]

/-- No definition with key `k` has a type that differs from `s`. -/
def agree (k : Nat) (s : Sig) (l : List (Sym × Sig)) : Bool := l.rec true fun e _ r => (Nat.beq k (key e.1)).rec r (compB s e.2 && r)

theorem agree_of {k : Nat} {s : Sig} {l : List (Sym × Sig)} (h : agree k s l = true) : ∀ e ∈ l, key e.1 = k → Compatible s e.2 := by
  induction l with
  | nil => simp
  | cons x l ih =>
    have e : agree k s (x :: l) = (Nat.beq k (key x.1)).rec (agree k s l) (compB s x.2 && agree k s l) := rfl
    rw [e] at h
    rcases c : Nat.beq k (key x.1) with _ | _ <;> rw [c] at h
    · intro y hy hk
      rcases List.mem_cons.1 hy with rfl | hy
      · rw [hk, Nat.beq_refl] at c
        cases c
      · exact ih h y hy hk
    · simp only [Bool.and_eq_true] at h
      intro y hy hk
      rcases List.mem_cons.1 hy with rfl | hy
      · exact compB_iff.1 h.1
      · exact ih h.2 y hy hk

/-- No mismatch at a declaration, apart from the names with keys in `ex`. -/
def declB (i : Image) (ex : List Nat) (d : Decl) : Bool :=
  goodB (i.sym d.tag d.base) && (has ex (key (i.sym d.tag d.base)) || agree (key (i.sym d.tag d.base)) d.sig i.defs)

/-- No mismatch in the files of an image, apart from `ex`, where `hs` are the headers that occur. -/
def typesB (a : Abi) (i : Image) (hs : List Header) (ex : List Nat) : Bool :=
  i.defs.all (fun e => goodB e.1) && i.files.all (fun f => f.own.all (declB i ex) && f.headers.all fun h => hs.contains h) &&
    hs.all fun h => (h.decls a i.p).all (declB i ex)

theorem mismatch_of {a : Abi} {i : Image} {hs : List Header} {ex : List Nat} (h : typesB a i hs ex = true) {name : List Nat} (m : Mismatch a i name) :
    ∃ s : Sym, key s ∈ ex ∧ name = spell s := by
  simp only [typesB, Bool.and_eq_true, List.all_eq_true] at h
  obtain ⟨⟨h1, h2⟩, h3⟩ := h
  obtain ⟨d, hd, e, he, rfl, e2, nc⟩ := m
  obtain ⟨f, hf, hd⟩ := List.mem_flatMap.1 hd
  obtain ⟨c, hc, rfl⟩ := List.mem_map.1 hd
  have k : declB i ex c = true := by
    rcases List.mem_append.1 hc with hc | hc
    · exact (h2 f hf).1 c hc
    · obtain ⟨x, hx, hc⟩ := List.mem_flatMap.1 hc
      exact h3 x (by simpa using (h2 f hf).2 x hx) c hc
  simp only [declB, Bool.and_eq_true, Bool.or_eq_true] at k
  have eq := spell_inj (good_of (h1 e he)) (good_of k.1) e2
  rcases k.2 with k2 | k2
  · exact ⟨_, has_iff.1 k2, rfl⟩
  · exact absurd (agree_of k2 e he (by rw [eq])) nc

/-- A mismatch at the name with key `k`. -/
def clashB (a : Abi) (i : Image) (s : Sym) : Bool :=
  (i.decls a).any fun d => Nat.beq (key d.1) (key s) && i.defs.any fun e => Nat.beq (key e.1) (key s) && !compB d.2 e.2

theorem mismatch_clash {a : Abi} {i : Image} {s : Sym} (h : clashB a i s = true) : Mismatch a i (spell s) := by
  simp only [clashB, List.any_eq_true, Bool.and_eq_true, Bool.not_eq_true'] at h
  obtain ⟨d, hd, h1, e, he, h2, h3⟩ := h
  refine ⟨d, hd, e, he, ?_, ?_, fun c => ?_⟩
  · rw [key_inj (Nat.eq_of_beq_eq_true h1)]
  · rw [key_inj (Nat.eq_of_beq_eq_true h2)]
  · rw [compB_iff.2 c] at h3
    cases h3

/-- Headers of ref/ that the programs include, without those of test/ and nistkat/. -/
def refHeaders : List Header :=
  [.ref_kem_h, .ref_poly_h, .ref_polyvec_h, .ref_indcpa_h, .ref_verify_h, .ref_fips202_h, .ref_symmetric_h, .ref_randombytes_h, .ref_ntt_h, .ref_reduce_h, .ref_cbd_h]

/-- Headers of avx2/ that the programs include, without those of test/. -/
def avxHeaders : List Header :=
  [.ref_kem_h, .avx2_poly_h, .avx2_polyvec_h, .ref_indcpa_h, .ref_verify_h, .avx2_fips202_h, .avx2_fips202x4_h, .avx2_symmetric_h, .ref_randombytes_h, .avx2_ntt_h, .avx2_cbd_h,
   .avx2_rejsample_h, .avx2_consts_h, .avx2_reduce_h, .avx2_SnP_h]

def hdrs : Build → Exe → List Header
  | .ref, .nistkat => .ref_rng_h :: refHeaders
  | .ref, .test_speed => .ref_cpucycles_h :: .ref_speed_print_h :: refHeaders
  | .avx2, .test_speed => .ref_cpucycles_h :: .ref_speed_print_h :: avxHeaders
  | .ref, _ => refHeaders
  | .avx2, _ => avxHeaders

/-- Declared and never defined. -/
def missing : Build → ParamSet → List Nat
  | .ref, _ => []
  | .avx2, p => [key (.kem .avx2 p, n! "nttpack_avx"), key (.kem .avx2 p, n! "cmov_int16")]

/-- Every declaration is good, and defined or in `ex` and not both. -/
def knownB (i : Image) (ex : List Nat) (d : Decl) : Bool :=
  goodB (i.sym d.tag d.base) && (has (keys i) (key (i.sym d.tag d.base))).xor (has ex (key (i.sym d.tag d.base)))

def definedB (a : Abi) (i : Image) (hs : List Header) (ex : List Nat) : Bool :=
  i.defs.all (fun e => goodB e.1) && i.files.all (fun f => f.own.all (knownB i ex) && f.headers.all fun h => hs.contains h) &&
    hs.all fun h => (h.decls a i.p).all (knownB i ex)

theorem defined_of {a : Abi} {i : Image} {hs : List Header} {ex : List Nat} (h : definedB a i hs ex = true) (s : Sym) (c : Sig) (hd : (s, c) ∈ i.decls a) :
    ((∀ x ∈ i.defs, spell x.1 ≠ spell s) ↔ key s ∈ ex) ∧ Good s := by
  simp only [definedB, Bool.and_eq_true, List.all_eq_true] at h
  obtain ⟨⟨h1, h2⟩, h3⟩ := h
  obtain ⟨f, hf, hd⟩ := List.mem_flatMap.1 hd
  obtain ⟨y, hy, e⟩ := List.mem_map.1 hd
  have e1 : i.sym y.tag y.base = s := congrArg Prod.fst e
  have k : knownB i ex y = true := by
    rcases List.mem_append.1 hy with hy | hy
    · exact (h2 f hf).1 y hy
    · obtain ⟨x, hx, hy⟩ := List.mem_flatMap.1 hy
      exact h3 x (by simpa using (h2 f hf).2 x hx) y hy
  simp only [knownB, Bool.and_eq_true, e1] at k
  refine ⟨⟨fun u => ?_, fun u x hx v => ?_⟩, good_of k.1⟩
  · rcases hk : has (keys i) (key s)
    · rw [hk, Bool.false_xor] at k
      exact has_iff.1 k.2
    · obtain ⟨x, hx, e⟩ := def_of_has hk
      exact absurd (by rw [e]) (u x hx)
  · have e2 := spell_inj (good_of (h1 x hx)) (good_of k.1) v
    have hk : has (keys i) (key s) = true := has_iff.2 (List.mem_map.2 ⟨x, hx, by rw [e2]⟩)
    rw [hk, has_iff.2 u] at k
    simp at k

def permute : Sym := (.fips4, n! "KeccakP1600times4_PermuteAll_24rounds")

/-- The name with two types. -/
def twoTypes : Build → Exe → List Sym
  | .ref, .nistkat => [(.plain, n! "randombytes")]
  | .ref, _ => []
  | .avx2, _ => [permute]

def exeB (a : Abi) (p : ParamSet) (b : Build) (e : Exe) : Bool :=
  match exe a p b e with
  | none => true
  | some i => linksB i && definedB a i (hdrs b e) (missing b p) && (typesB a i (hdrs b e) ((twoTypes b e).map key) && (twoTypes b e).all (clashB a i))

theorem exeB_all (a : Abi) (p : ParamSet) (b : Build) (e : Exe) : exeB a p b e = true := by
  cases a <;> cases p <;> cases b <;> cases e <;> decide +kernel

theorem types_iff {a : Abi} {p : ParamSet} {b : Build} {e : Exe} {i : Image} (h : exe a p b e = some i) (name : List Nat) :
    Mismatch a i name ↔ ∃ s ∈ twoTypes b e, name = spell s := by
  have k := exeB_all a p b e
  rw [exeB, h] at k
  simp only [Bool.and_eq_true, List.all_eq_true] at k
  refine ⟨fun m => ?_, ?_⟩
  · obtain ⟨s, hs, e⟩ := mismatch_of k.2.1 m
    obtain ⟨x, hx, e2⟩ := List.mem_map.1 hs
    exact ⟨x, hx, by rw [e, key_inj e2]⟩
  · rintro ⟨s, hs, rfl⟩
    exact mismatch_clash (k.2.2 s hs)

/-- The number of a name in full. -/
theorem spell_eq {s : Sym} (h : s.1 ≠ .plain) : spell s = chars (s.1.pre + 256 ^ (16 + (rest s.1).length) * s.2) := by
  have hl : (Nat.digits 256 s.1.pre).length = 16 + (rest s.1).length := by
    have := congrArg List.length (chars_pre h)
    rw [chars_pq, List.length_append, List.length_append] at this
    exact this.trans (Nat.add_assoc 11 5 _).symm
  rw [spell, chars, chars, chars, Nat.digits_append_digits (by decide), hl]

def apiB (a : Abi) (b : Build) (p : ParamSet) : Bool :=
  (api b p).all fun f => (lib a (.kem b p)).defs.any fun d => decide (d.1.1 = .kem b p) && Nat.beq f.1 (d.1.1.pre + 256 ^ (16 + (rest d.1.1).length) * d.1.2) && decide (d.2 = f.2)

theorem apiB_all (a : Abi) (b : Build) (p : ParamSet) : apiB a b p = true := by
  cases a <;> cases b <;> cases p <;> decide +kernel

/-- What a library defines and uses. -/
def libB (a : Abi) (l : Lib) : Bool :=
  nod (keys (lib a l)) && (lib a l).defs.all (fun d => decide (home d.1.1 = some l)) &&
    (lib a l).refs.all fun r => decide (r = (.plain, n! "randombytes")) || match home r.1 with
      | none => false
      | some h => has (keys (lib a h)) (key r)

theorem libB_all (a : Abi) (l : Lib) : libB a l = true := by
  cases a <;> rcases l with ⟨_ | _, _ | _ | _⟩ | ⟨_ | _⟩ | _ <;> decide +kernel

theorem not_plain {x : Ns} {l : Lib} (hx : home x = some l) : x ≠ .plain := by
  rintro rfl
  cases hx

theorem good_home {s : Sym} {l : Lib} (h : home s.1 = some l) : Good s := fun c => absurd c (not_plain h)

theorem lib_home {a : Abi} {l : Lib} {d : Sym × Sig} (hd : d ∈ (lib a l).defs) : home d.1.1 = some l := by
  have h := libB_all a l
  simp only [libB, Bool.and_eq_true, List.all_eq_true, decide_eq_true_eq] at h
  exact h.1.2 d hd

theorem resolve_mem {a : Abi} {ls : List Lib} {name : List Nat} {l : Lib} (h : resolve a ls name = some l) : l ∈ ls ∧ ∃ d ∈ (lib a l).defs, spell d.1 = name := by
  induction ls with
  | nil => cases h
  | cons x ls ih =>
    unfold resolve at h
    split at h
    · next m =>
      cases h
      exact ⟨List.mem_cons_self, List.mem_map.1 m⟩
    · exact ⟨List.mem_cons_of_mem _ (ih h).1, (ih h).2⟩

theorem resolve_none {a : Abi} {ls : List Lib} {name : List Nat} (h : ∀ l ∈ ls, ∀ d ∈ (lib a l).defs, spell d.1 ≠ name) : resolve a ls name = none := by
  rcases e : resolve a ls name with _ | l
  · rfl
  · obtain ⟨h1, d, hd, h2⟩ := resolve_mem e
    exact absurd h2 (h l h1 d hd)

theorem resolve_some {a : Abi} {ls : List Lib} {name : List Nat} {l : Lib} (hl : l ∈ ls) (h : ∃ d ∈ (lib a l).defs, spell d.1 = name) : ∃ l', resolve a ls name = some l' := by
  induction ls with
  | nil => cases hl
  | cons x ls ih =>
    unfold resolve
    split
    · exact ⟨x, rfl⟩
    · next m =>
      rcases List.mem_cons.1 hl with rfl | hl
      · obtain ⟨d, hd, e⟩ := h
        exact absurd (List.mem_map.2 ⟨d, hd, e⟩) m
      · exact ih hl

theorem plain_undefined {a : Abi} {l : Lib} {n : Nat} (hn : Free n) : ∀ d ∈ (lib a l).defs, spell d.1 ≠ chars n := by
  intro d hd c
  have g := good_home (lib_home hd)
  have e := spell_inj g (t := (.plain, n)) (fun _ => hn) (by rw [c, spell_plain])
  have := lib_home hd
  rw [e] at this
  cases this

/-- Objects that executables can write. -/
def kept : Exe → List Nat
  | .test_kyber => []
  | .test_vectors => [n! "rngstate"]
  | .test_speed => [n! "overhead", n! "t", n! "seed"]
  | .nistkat => [n! "DRBG_ctx"]

/-! ## C94 -/

/-- The macros keep names apart, whatever names are given to them: two names with a namespace are spelled alike only when namespace and argument are the same, and none is spelled like a
plain name that does not itself begin with `pqcrystals_`. -/
theorem C94_spelling (s t : Sym) (hs : s.1 ≠ .plain) :
    (t.1 ≠ .plain → (spell s = spell t ↔ s = t)) ∧ (t.1 = .plain → ¬ chars (n! "pqcrystals_") <+: chars t.2 → spell s ≠ chars t.2) := by
  refine ⟨fun ht => ⟨spell_inj (fun c => absurd c hs) (fun c => absurd c ht), fun h => by rw [h]⟩, fun ht hf c => ?_⟩
  have := spell_inj (s := s) (t := t) (fun c => absurd c hs) (fun _ => hf) (by rw [c]; simp [spell, ht, Ns.pre, chars])
  exact hs (by rw [this, ht])

/-- Every executable of the two Makefiles links, for each parameter set and data model. -/
theorem C94_exe (a : Abi) (p : ParamSet) (b : Build) (e : Exe) (i : Image) (h : exe a p b e = some i) : Links i := by
  have k := exeB_all a p b e
  rw [exeB, h] at k
  simp only [Bool.and_eq_true] at k
  exact links_of k.1.1

/-- In the test programs of ref/ every function and object has one type. -/
theorem C94_types_ref (a : Abi) (p : ParamSet) (e : Exe) (he : e ≠ .nistkat) (i : Image) (h : exe a p .ref e = some i) (name : List Nat) : ¬ Mismatch a i name := by
  rw [types_iff h]
  cases e <;> simp_all [twoTypes]

/-- PQCgenKAT_kem declares one function with two types and no other: `randombytes`, which kem.c takes to be `void (uint8_t *, size_t)` (ref/randombytes.h:7) while ref/nistkat/rng.c:155
defines `int (unsigned char *, unsigned long long)`. This holds for each data model, also where `size_t` is `unsigned long long`. -/
theorem C94_types_nistkat (a : Abi) (p : ParamSet) (i : Image) (h : exe a p .ref .nistkat = some i) (name : List Nat) :
    Mismatch a i name ↔ name = chars (n! "randombytes") := by
  rw [types_iff h, ← spell_plain]
  simp only [twoTypes, List.mem_singleton, exists_eq_left]

/-- The programs of avx2/ declare one function with two types and no other: the permutation of four states, `void (__m256i *)` in avx2/fips202x4.c:10 and `void (void *)` in
avx2/keccak4x/KeccakP-1600-times4-SIMD256.c:802. -/
theorem C94_types_avx (a : Abi) (p : ParamSet) (e : Exe) (i : Image) (h : exe a p .avx2 e = some i) (name : List Nat) :
    Mismatch a i name ↔ name = spell (.fips4, n! "KeccakP1600times4_PermuteAll_24rounds") := by
  rw [types_iff h]
  cases e <;> simp only [twoTypes, List.mem_singleton, exists_eq_left, permute]

/-- Any of the libraries can be loaded together, in any order and any number of times: a name that a loaded library defines is found in that library, never in another one. -/
theorem C94_libs (a : Abi) (ls : List Lib) (l : Lib) (hl : l ∈ ls) (d : Sym × Sig) (hd : d ∈ (lib a l).defs) : resolve a ls (spell d.1) = some l := by
  obtain ⟨l', h⟩ := resolve_some hl ⟨d, hd, rfl⟩
  obtain ⟨-, d', hd', e⟩ := resolve_mem h
  have := spell_inj (good_home (lib_home hd')) (good_home (lib_home hd)) e
  have h1 := lib_home hd'
  rw [this, lib_home hd] at h1
  rw [h, h1]

/-- A name used in a library is defined once in it or is found in the library its namespace belongs to when that is loaded, and nowhere when it is not. The one exception is `randombytes`,
which no library defines. -/
theorem C94_lib_refs (a : Abi) (ls : List Lib) (l : Lib) (r : Sym) (hr : r ∈ (lib a l).refs) :
    (spell r = chars (n! "randombytes") ∧ resolve a ls (spell r) = none) ∨
      ∃ h, home r.1 = some h ∧ (h ∈ ls → resolve a ls (spell r) = some h) ∧ (h ∉ ls → resolve a ls (spell r) = none) := by
  have k := libB_all a l
  simp only [libB, Bool.and_eq_true, List.all_eq_true, Bool.or_eq_true, decide_eq_true_eq] at k
  rcases k.2 r hr with e | e
  · refine .inl ⟨by rw [e, spell_plain], ?_⟩
    rw [e, spell_plain]
    exact resolve_none fun x _ => plain_undefined (free_of_mod (by decide))
  · rcases hh : home r.1 with _ | h
    · rw [hh] at e
      cases e
    · rw [hh] at e
      refine .inr ⟨h, rfl, fun hm => ?_, fun hm => resolve_none fun x hx d hd c => ?_⟩
      · obtain ⟨d, hd, e⟩ := def_of_has e
        rw [← e]
        exact C94_libs a ls h hm d hd
      · have e2 := spell_inj (good_home (lib_home hd)) (good_home hh) c
        have := lib_home hd
        rw [e2, hh] at this
        cases this
        exact hm hx

/-- avx2/Makefile writes the library of avx2/fips202.c to a file with the name of the one ref/Makefile makes of ref/fips202.c, and no other two libraries share a name. Where the file from
avx2/ is found in place of the other, the hash functions of a KEM library of ref/ are missing, whatever else is loaded. -/
theorem C94_same_file (l m : Lib) (h : l ≠ m) :
    (l.file = m.file ↔ (l = .fips .ref ∧ m = .fips .avx2) ∨ (l = .fips .avx2 ∧ m = .fips .ref)) ∧
    ∀ a ls p, Lib.fips .ref ∉ ls → (Ns.fips .ref, n! "sha3_256") ∈ (lib a (.kem .ref p)).refs ∧ resolve a ls (spell (.fips .ref, n! "sha3_256")) = none := by
  refine ⟨?_, fun a ls p hm => ?_⟩
  · rcases l with ⟨_ | _, _ | _ | _⟩ | ⟨_ | _⟩ | _ <;> rcases m with ⟨_ | _, _ | _ | _⟩ | ⟨_ | _⟩ | _ <;> first | exact absurd rfl h | decide
  · have hr : (Ns.fips .ref, n! "sha3_256") ∈ (lib a (.kem .ref p)).refs := by cases a <;> cases p <;> decide +kernel
    refine ⟨hr, ?_⟩
    rcases C94_lib_refs a ls _ _ hr with h | ⟨x, hx, -, h⟩
    · exact h.2
    · cases hx
      exact h hm

/-- The functions api.h declares are the ones the KEM libraries define, with the types written there. -/
theorem C94_api (a : Abi) (b : Build) (p : ParamSet) (f : Nat × Sig) (hf : f ∈ api b p) : ∃ d ∈ (lib a (.kem b p)).defs, spell d.1 = chars f.1 ∧ d.2 = f.2 := by
  have h := apiB_all a b p
  simp only [apiB, List.all_eq_true, List.any_eq_true, Bool.and_eq_true, decide_eq_true_eq] at h
  obtain ⟨d, hd, ⟨h1, h2⟩, h3⟩ := h f hf
  refine ⟨d, hd, ?_, h3⟩
  rw [Nat.eq_of_beq_eq_true h2, spell_eq (by rw [h1]; exact fun c => by cases c)]

/-- The declarations without a definition: none in the programs of ref/, and in those of avx2/ `nttpack_avx` (avx2/ntt.h:13) and `cmov_int16` (verify.h:15, which avx2/ shares with ref/
while avx2/verify.c leaves the function out). -/
theorem C94_undefined (a : Abi) (p : ParamSet) (b : Build) (e : Exe) (i : Image) (h : exe a p b e = some i) (d : Sym × Sig) (hd : d ∈ i.decls a) :
    (∀ x ∈ i.defs, spell x.1 ≠ spell d.1) ↔ b = .avx2 ∧ (spell d.1 = spell (.kem .avx2 p, n! "nttpack_avx") ∨ spell d.1 = spell (.kem .avx2 p, n! "cmov_int16")) := by
  obtain ⟨s, c⟩ := d
  have k := exeB_all a p b e
  rw [exeB, h] at k
  have k : definedB a i (hdrs b e) (missing b p) = true := by
    simp only [Bool.and_eq_true] at k
    exact k.1.2
  obtain ⟨k1, k2⟩ := defined_of k s c hd
  rw [k1]
  cases b
  · simp [missing]
  · simp only [missing, List.mem_cons, List.not_mem_nil, or_false, true_and]
    exact or_congr ⟨fun e => by rw [key_inj e], fun e => by rw [spell_inj k2 (fun c => by cases c) e]⟩
      ⟨fun e => by rw [key_inj e], fun e => by rw [spell_inj k2 (fun c => by cases c) e]⟩

/-- The libraries have no memory of their own that can be written: every object of static storage duration in them is `const`. So a call depends on its arguments and on `randombytes`
alone, and calls in different threads share nothing. -/
theorem C94_state (a : Abi) (l : Lib) : (lib a l).writable = [] := by
  cases a <;> rcases l with ⟨_ | _, _ | _ | _⟩ | ⟨_ | _⟩ | _ <;> decide +kernel

/-- The objects the executables keep between calls are those of the test files and of nistkat/rng.c. -/
theorem C94_state_exe (a : Abi) (p : ParamSet) (b : Build) (e : Exe) (i : Image) (h : exe a p b e = some i) :
    i.writable = kept e := by
  have k : ((exe a p b e).map Image.writable).getD (kept e) = kept e := by
    cases a <;> cases p <;> cases b <;> cases e <;> decide +kernel
  rw [h] at k
  exact k

/-! ## Concrete cases -/

/-- The name kem.c gives `crypto_kem_keypair` for `KYBER_K` 2. -/
example : spell (.kem .ref .k2, n! "keypair") = chars (n! "pqcrystals_kyber512_ref_keypair") := by
  rw [spell_eq (fun c => by cases c)]
  rfl

/-- Names of two parameter sets differ. -/
example : spell (.kem .ref .k2, n! "keypair") ≠ spell (.kem .ref .k3, n! "keypair") := fun h =>
  absurd (((C94_spelling _ _ (fun c => by cases c)).1 (fun c => by cases c)).1 h) (by decide)

/-- The executables exist, with 65 definitions in test_kyber512 of ref/ and 91 in that of avx2/. -/
example : (exe .lp64 .k2 .ref .test_kyber).map (·.defs.length) = some 65 ∧ (exe .lp64 .k2 .avx2 .test_kyber).map (·.defs.length) = some 91 := by decide +kernel

/-- Linking test_vectors.c with randombytes.c as well would define `randombytes` twice. -/
example (a : Abi) (p : ParamSet) : ¬ Links ⟨.ref, p, sourcesKeccak a p .ref ++ [ref_randombytes_c a, ref_test_vectors_c a]⟩ := by
  intro h
  have h1 := h.1
  simp only [Image.defs, List.flatMap_append, List.map_append, List.flatMap_cons, List.flatMap_nil] at h1
  have h2 := (List.nodup_append.1 h1).2.1
  revert h2
  simp [ref_randombytes_c, ref_test_vectors_c, Image.sym, Tag.ns]

/-- Without randombytes.c test_kyber.c does not link: kem.c and test_kyber.c use a name nobody defines. -/
example : ¬ Links ⟨.ref, .k2, sourcesKeccak .lp64 .k2 .ref ++ [ref_test_kyber_c]⟩ := by
  intro h
  obtain ⟨d, hd, e⟩ := h.2.1 (.plain, n! "randombytes") (by decide +kernel)
  have g : (Image.defs ⟨.ref, .k2, sourcesKeccak .lp64 .k2 .ref ++ [ref_test_kyber_c]⟩).all (fun d => goodB d.1 && !Nat.beq (key d.1) (key (.plain, n! "randombytes"))) = true := by
    decide +kernel
  have g := List.all_eq_true.1 g d hd
  simp only [Bool.and_eq_true, Bool.not_eq_true'] at g
  have := spell_inj (good_of g.1) (t := (.plain, n! "randombytes")) (fun _ => free_of_mod (by decide)) e
  rw [this, Nat.beq_refl] at g
  exact absurd g.2 (by decide)

/-- Two KEM libraries and both hash libraries in one process, in two orders. -/
example : resolve .lp64 [.fips .avx2, .kem .avx2 .k3, .kem .ref .k3, .fips .ref] (spell (.kem .ref .k3, n! "dec")) = some (.kem .ref .k3) ∧
    resolve .lp64 [.kem .ref .k3, .fips .ref, .kem .avx2 .k3, .fips .avx2] (spell (.kem .ref .k3, n! "dec")) = some (.kem .ref .k3) := by
  have hd : ((Ns.kem .ref .k3, n! "dec"), Sig.fn .int [.ptr .uchar, .cptr .uchar, .cptr .uchar]) ∈ (lib .lp64 (.kem .ref .k3)).defs := by decide +kernel
  have h := fun ls hl => C94_libs .lp64 ls _ hl _ hd
  exact ⟨h _ (by simp), h _ (by simp)⟩

end Verif.Props
