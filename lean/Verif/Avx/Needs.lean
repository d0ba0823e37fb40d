import Verif.Proof.Needs
import Verif.Avx.Defined
import Verif.Avx.Kem

/-! # The buffers that the calls of the AVX2 KEM need -/

namespace Verif.Avx
open Verif.Proof
open Verif.Model (ParamSet KYBER_K KYBER_N Polyvec Poly Poly.uninit KYBER_POLYBYTES KYBER_POLYVECBYTES KYBER_PUBLICKEYBYTES KYBER_SECRETKEYBYTES KYBER_CIPHERTEXTBYTES KYBER_SSBYTES
  KYBER_SYMBYTES KYBER_INDCPA_SECRETKEYBYTES KYBER_POLYVECCOMPRESSEDBYTES)

variable {D : Type}

/-! ## Programs -/

theorem readCells_init : ∀ {l : List (Option D)} {i n : Nat} {r : List D}, readCells l i n = .ok r → ∀ j, j < n → ∃ a, l[i + j]? = some (some a)
  | l, i, 0, r, _, j, hj => absurd hj (by omega)
  | [], i, n + 1, r, h, _, _ => by cases i <;> simp [readCells] at h
  | c :: l, i + 1, n + 1, r, h, j, hj => by
    simp only [readCells] at h
    obtain ⟨a, ha⟩ := readCells_init h j hj
    exact ⟨a, by rw [show i + 1 + j = (i + j) + 1 from by omega, List.getElem?_cons_succ, ha]⟩
  | none :: l, 0, n + 1, r, h, _, _ => by simp [readCells] at h
  | some a :: l, 0, n + 1, r, h, j, hj => by
    simp only [readCells] at h
    split at h
    · rename_i as e
      cases j with
      | zero => exact ⟨a, rfl⟩
      | succ j =>
        obtain ⟨b, hb⟩ := readCells_init e j (by omega)
        exact ⟨b, by rw [show 0 + (j + 1) = (0 + j) + 1 from by omega, List.getElem?_cons_succ, hb]⟩
    · cases h

theorem load_init {S : Sem D} {o : Obj D} {off n : Nat} {al : Bool} {r : List D} (hn : o.wide = false) (h : o.load S off n al = .ok r) :
    ∀ j, j < 2 * n → ∃ a, o.cells[off + j]? = some (some a) := by
  unfold Obj.load at h
  rw [hn] at h
  split at h
  · simp only [Bool.false_eq_true, if_false] at h
    split at h
    · rename_i bs e; exact readCells_init e
    · cases h
  · cases h

/-- Does the instruction load byte `j` of object 1? -/
def I.reads (j : Nat) : I → Bool
  | .ld _ o off n _ _ => o == 1 && decide (off ≤ j) && decide (j < off + 2 * n)
  | _ => false

theorem setAt_ne {α : Type} {x : α} : ∀ {l : List α} {i j : Nat}, i ≠ j → (setAt x l i)[j]? = l[j]?
  | [], _, _, _ => rfl
  | y :: l, 0, 0, h => absurd rfl h
  | y :: l, 0, j + 1, _ => rfl
  | y :: l, i + 1, 0, _ => rfl
  | y :: l, i + 1, j + 1, h => setAt_ne (l := l) (by omega)

theorem step_reads {S : Sem D} {s s' : VS D} {i : I} {ob : Obj D} (h : step S s i = .ok s') (hst : i.stIn [0] = true) (ho : s.objs[1]? = some ob) (hn : ob.wide = false) :
    s'.objs[1]? = some ob ∧ ∀ j, i.reads j = true → ∃ a, ob.cells[j]? = some (some a) := by
  cases i with
  | op d f srcs n =>
    simp only [step] at h
    split at h
    · cases h
    · split at h
      · cases h
      · cases h; exact ⟨ho, fun j hj => by simp [I.reads] at hj⟩
  | ld d o off n tot al =>
    simp only [step] at h
    split at h
    · cases h
    · rename_i ob1 e1
      split at h
      · cases h
      · rename_i r e2
        cases h
        refine ⟨ho, fun j hj => ?_⟩
        simp only [I.reads, Bool.and_eq_true, beq_iff_eq, decide_eq_true_eq] at hj
        obtain ⟨⟨rfl, h1⟩, h2⟩ := hj
        rw [ho] at e1
        cases e1
        obtain ⟨a, ha⟩ := load_init hn e2 (j - off) (by omega)
        exact ⟨a, by rw [← ha]; congr 1; omega⟩
  | bcastq d o off =>
    simp only [step] at h
    split at h
    · cases h
    · split at h
      · cases h
      · cases h; exact ⟨ho, fun j hj => by simp [I.reads] at hj⟩
  | st r o off n al =>
    have h0 : o = 0 := by simpa [I.stIn] using hst
    subst h0
    simp only [step] at h
    split at h
    · split at h
      · cases h
      · cases h; exact ⟨by rw [setAt_ne (by decide)]; exact ho, fun j hj => by simp [I.reads] at hj⟩
    · cases h
    · cases h
  | set d ws =>
    simp only [step] at h
    cases h
    exact ⟨ho, fun j hj => by simp [I.reads] at hj⟩

theorem run_reads {S : Sem D} {p : List I} {s s' : VS D} {ob : Obj D} (h : run S p s = .ok s') (hst : p.all (I.stIn [0]) = true) (ho : s.objs[1]? = some ob) (hn : ob.wide = false)
    {j : Nat} (hj : p.any (I.reads j) = true) : ∃ a, ob.cells[j]? = some (some a) := by
  induction p generalizing s with
  | nil => simp at hj
  | cons i p ih =>
    simp only [run] at h
    simp only [List.all_cons, List.any_cons, Bool.and_eq_true, Bool.or_eq_true] at hst hj
    split at h
    · rename_i s1 e
      obtain ⟨h1, h2⟩ := step_reads e hst.1 ho hn
      rcases hj with hj | hj
      · exact h2 j hj
      · exact ih h hst.2 h1 hj
    · cases h

theorem call_inv {w : List Nat} {p : List I} {objs : List (Obj W)} : Post (call w p objs) (fun o => p.all (I.stIn w) = true ∧ ∃ g l, run evalW p ⟨noRegs, objs⟩ = .ok ⟨g, o :: l⟩) := by
  unfold call
  split
  · rename_i hw
    split
    · rename_i g o l e; exact ⟨hw, g, l, e⟩
    · trivial
    · trivial
  · trivial

theorem post_callPoly {w : List Nat} {p : List I} {r : Mem Int16} {objs : List (Obj W)} : Post (callPoly w p r objs) (fun r' => r'.size = r.size) := by
  refine Post.bind call_inv fun o h => post_pure ?_
  obtain ⟨_, g, l, e⟩ := h
  have := run_sizes e
  simp only [List.map_cons, List.cons.injEq] at this
  simp only [objPoly, List.size_toArray, List.length_map, this.1]
  simp [polyObj]

theorem post_callBytes {w : List Nat} {p : List I} {al : Bool} {r : Mem UInt8} {off : Nat} {objs : List (Obj W)} : Post (callBytes w p al r off objs) (fun r' => r'.size = r.size) := by
  unfold callBytes
  split
  · rename_i hle
    refine Post.bind call_inv fun o h => post_pure ?_
    obtain ⟨_, g, l, e⟩ := h
    have := run_sizes e
    simp only [List.map_cons, List.cons.injEq] at this
    simp only [objBytes, List.size_toArray, List.length_append, List.length_map, List.length_take, this.1]
    simp [bytesObj]
    omega
  · trivial

/-- Initialised cells of the object behind a byte array. -/
theorem bytesObj_cell {al : Bool} {a : Mem UInt8} {ao j : Nat} {x : W} (h : (bytesObj al a ao).cells[j]? = some (some x)) : ∃ v, a[ao + j]? = some (some v) := by
  simp only [bytesObj, List.getElem?_map, List.getElem?_drop, Array.getElem?_toList] at h
  cases hm : a[ao + j]? with
  | none => rw [hm] at h; simp at h
  | some c => cases c with
    | none => rw [hm] at h; simp at h
    | some v => exact ⟨v, rfl⟩

theorem callPoly_reads {p : List I} {r : Mem Int16} {a : Mem UInt8} {ao n : Nat} {l : List (Obj W)} (hn : (List.range n).all (fun j => p.any (I.reads j)) = true) :
    Post (callPoly [0] p r (bytesObj false a ao :: l)) (fun _ => a.Init ao n) := by
  refine Post.bind call_inv fun o h => post_pure fun j hj => ?_
  obtain ⟨hw, g, l, e⟩ := h
  obtain ⟨x, hx⟩ := run_reads e hw (ob := bytesObj false a ao) rfl rfl (List.all_eq_true.1 hn j (List.mem_range.2 hj))
  exact bytesObj_cell hx

theorem frombytes_reads : (List.range 384).all (fun j => nttfrombytes_avx.any (I.reads j)) = true := by decide +kernel

/-! A store past the end is an error whatever the rest. -/

def isErr {α : Type} : Except UB α → Bool
  | .ok _ => false
  | .error _ => true

theorem c128_short : isErr (shapeRun poly_compress_128 (⟨false, false, U 127⟩ :: [P, Q])) = true := by decide +kernel
theorem c160_short : isErr (shapeRun poly_compress_160 (⟨false, false, U 159⟩ :: [P, Q])) = true := by decide +kernel

theorem cle_full : ∀ (l : List (Option Unit)) {n : Nat}, l.length ≤ n → CLe l (U n)
  | [], _, _ => .nil _
  | c :: l, 0, h => absurd h (by simp)
  | none :: l, n + 1, h => .none _ (cle_full l (by simpa using h))
  | some () :: l, n + 1, h => .some () (cle_full l (by simpa using h))

theorem callBytes_short {p : List I} {r : Mem UInt8} {ro n : Nat} {a : Mem Int16} (hs : isErr (shapeRun p (⟨false, false, U n⟩ :: [P, Q])) = true) (ha : a.size = 256) :
    Post (callBytes [0] p false r ro [polyObj a, tabObj qdata]) (fun _ => ro + n + 1 ≤ r.size) := by
  unfold callBytes
  split
  · rename_i hle
    refine Post.bind call_inv fun o h => post_pure ?_
    obtain ⟨_, g, l, e⟩ := h
    refine Nat.le_of_not_lt fun hlt => ?_
    have h1 := run_map shape_hom p ⟨noRegs, [bytesObj false r ro, polyObj a, tabObj qdata]⟩
    rw [e] at h1
    have h2 : shapeRun p [(bytesObj false r ro).shape, (polyObj a).shape, (tabObj qdata).shape] = .ok (o.shape).cells := by
      have h3 : run shapeSem p ⟨noRegs, [(bytesObj false r ro).shape, (polyObj a).shape, (tabObj qdata).shape]⟩ = .ok (VS.map (fun _ => ()) ⟨g, o :: l⟩) := h1
      unfold shapeRun
      rw [h3]
      rfl
    rw [bytesObj_shape, polyObj_shape] at h2
    obtain ⟨cs, hc, _⟩ := shapeRun_mono (os := [⟨false, false, (msk r).drop ro⟩, ⟨true, true, msk a⟩, (tabObj qdata).shape]) (os' := ⟨false, false, U n⟩ :: [P, Q])
      (.cons ⟨rfl, rfl, cle_full _ (by rw [List.length_drop, msk_len]; omega)⟩ (.cons ⟨rfl, rfl, cle_full _ (by rw [msk_len, ha]; exact Nat.le_refl _)⟩ (.cons (OLe.refl _) .nil))) h2
    rw [hc] at hs
    cases hs
  · trivial

/-! ## Serialisation -/

theorem post_tobytes {r : Mem UInt8} {ro : Nat} {a : Mem Int16} : Post (poly_tobytes r ro a) (fun r' => r'.size = r.size) := by
  unfold poly_tobytes
  exact post_callBytes

theorem post_polyvec_tobytes {p : ParamSet} {r : Mem UInt8} {ro : Nat} {a : Polyvec} : Post (polyvec_tobytes p r ro a) (fun r' => r'.size = r.size) := by
  refine (post_for (fun r' : Mem UInt8 => r'.size = r.size) (fun _ => True) rfl fun i r' _ _ h => ?_).mono fun r' h => h.1
  exact Post.skip fun _ => post_tobytes.mono fun r'' h' => ⟨h'.trans h, trivial⟩

theorem post_pack_pk {p : ParamSet} {r : Mem UInt8} {a : Polyvec} {seed : Mem UInt8} {so : Nat} : Post (pack_pk p r a seed so) (fun r' => r'.size = r.size) :=
  Post.bind post_polyvec_tobytes fun _ h => post_memcpy.mono fun _ h' => h'.1.trans h

theorem post_frombytes {r : Mem Int16} {a : Mem UInt8} {ao : Nat} : Post (poly_frombytes r a ao) (fun _ => a.Init ao 384) := by
  unfold poly_frombytes
  split
  · exact callPoly_reads frombytes_reads
  · trivial

theorem post_polyvec_frombytes {p : ParamSet} {r : Polyvec} {a : Mem UInt8} {ao : Nat} : Post (polyvec_frombytes p r a ao) (fun _ => a.Init ao (KYBER_POLYVECBYTES p)) := by
  refine (post_for (fun _ : Polyvec => True) (fun i => a.Init (ao + 384 * i) 384) trivial fun i r' _ _ _ => ?_).mono fun r' h => by
    have := init_blocks (b := 384) (n := KYBER_K p) (by decide) fun i hi => h.2 i (by omega) hi
    rw [Nat.mul_comm] at this
    exact this
  refine Post.skip fun _ => Post.bind post_frombytes fun _ hi => Post.all fun _ => ⟨trivial, ?_⟩
  rw [Nat.mul_comm]
  exact hi

theorem post_unpack_pk {p : ParamSet} {r : Polyvec} {seed a : Mem UInt8} {ao : Nat} : Post (unpack_pk p r seed a ao) (fun _ => a.Init ao (KYBER_PUBLICKEYBYTES p)) :=
  Post.bind post_polyvec_frombytes fun _ h => Post.bind post_memcpy fun _ h' => post_pure (h.append h'.2.2)

theorem post_polyvec_compress {p : ParamSet} {r : Mem UInt8} {ro : Nat} {a : Polyvec} : Post (polyvec_compress p r ro a) (fun r' => r'.size = r.size) := by
  have h10 : ∀ {r : Mem UInt8} {ro : Nat} {a : Mem Int16}, Post (poly_compress10 r ro a) (fun r' => r'.size = r.size) := by
    intro r ro a
    unfold poly_compress10
    exact post_callBytes
  have h11 : ∀ {r : Mem UInt8} {ro : Nat} {a : Mem Int16}, Post (poly_compress11 r ro a) (fun r' => r'.size = r.size) := by
    intro r ro a
    unfold poly_compress11
    exact post_callBytes
  cases p
  · refine (post_for (fun r' : Mem UInt8 => r'.size = r.size) (fun _ => True) rfl fun i r' _ _ h => ?_).mono fun r' h => h.1
    exact Post.skip fun _ => h10.mono fun r'' h' => ⟨h'.trans h, trivial⟩
  · refine (post_for (fun r' : Mem UInt8 => r'.size = r.size) (fun _ => True) rfl fun i r' _ _ h => ?_).mono fun r' h => h.1
    exact Post.skip fun _ => h10.mono fun r'' h' => ⟨h'.trans h, trivial⟩
  · refine (post_for (fun r' : Mem UInt8 => r'.size = r.size) (fun _ => True) rfl fun i r' _ _ h => ?_).mono fun r' h => h.1
    exact Post.skip fun _ => h11.mono fun r'' h' => ⟨h'.trans h, trivial⟩

theorem post_pack_ciphertext {p : ParamSet} {r : Mem UInt8} {b : Polyvec} {v : Poly} (hv : v.size = 256) :
    Post (pack_ciphertext p r b v) (fun _ => KYBER_CIPHERTEXTBYTES p ≤ r.size) := by
  refine Post.bind post_polyvec_compress fun r1 h1 => ?_
  rw [← h1]
  unfold poly_compress
  cases p
  · exact (callBytes_short c128_short hv).mono fun r' h => h
  · exact (callBytes_short c128_short hv).mono fun r' h => h
  · exact (callBytes_short c160_short hv).mono fun r' h => h

/-! ## Polynomials keep their size -/

set_option maxRecDepth 8000

theorem post_basemul {r a b : Mem Int16} : Post (poly_basemul_montgomery r a b) (fun r' => r'.size = r.size) := by
  unfold poly_basemul_montgomery
  exact post_callPoly
theorem post_add {r a : Mem Int16} : Post (poly_add r a) (fun r' => r'.size = r.size) := by
  unfold poly_add
  exact post_callPoly
theorem post_invntt {r : Mem Int16} : Post (poly_invntt_tomont r) (fun r' => r'.size = r.size) := by
  unfold poly_invntt_tomont
  exact post_callPoly (w := [0]) (p := invntt_avx) (r := r) (objs := [tabObj qdata])
theorem post_reduce {r : Mem Int16} : Post (poly_reduce r) (fun r' => r'.size = r.size) := by
  unfold poly_reduce
  exact post_callPoly (w := [0]) (p := reduce_avx) (r := r) (objs := [tabObj qdata])

theorem post_acc {p : ParamSet} {r : Mem Int16} {a b : Polyvec} : Post (polyvec_basemul_acc_montgomery p r a b) (fun r' => r'.size = r.size) := by
  refine Post.skip fun _ => Post.skip fun _ => Post.bind post_basemul fun r1 h1 => ?_
  refine Post.bind (post_for (fun s : Mem Int16 × Mem Int16 => s.1.size = r.size) (fun _ => True) h1 fun i s _ _ h => ?_) fun s h => ?_
  · obtain ⟨r2, t⟩ := s
    simp only at h ⊢
    exact Post.skip fun _ => Post.skip fun _ => Post.skip fun t => Post.bind post_add fun r3 h3 => post_pure ⟨h3.trans h, trivial⟩
  · obtain ⟨r2, t⟩ := s
    exact post_pure h.1

/-! ## verify.c -/

theorem post_loadu {m : Mem UInt8} {o : Nat} : Post (loadu m o) (fun _ => m.Init o 32) :=
  (post_for (fun _ : List UInt8 => True) (fun i => ∃ v, m[o + i]? = some (some v)) trivial fun i l _ _ _ => Post.bind post_rd fun v hv => post_pure ⟨trivial, v, hv⟩).mono
    fun _ h i hi => h.2 i (by omega) hi

theorem post_storeu {m : Mem UInt8} {o : Nat} {v : List UInt8} : Post (storeu m o v) (fun m' => m'.size = m.size) :=
  (post_for (fun m' : Mem UInt8 => m'.size = m.size) (fun _ => True) rfl fun _ _ _ _ h => Post.skip fun _ => post_wr_size.mono fun _ h' => ⟨h'.1.trans h, trivial⟩).mono
    fun _ h => h.1

theorem post_verify {a : Mem UInt8} {ao : Nat} {b : Mem UInt8} {bo n : Nat} : Post (verify a ao b bo (32 * n)) (fun _ => a.Init ao (32 * n)) := by
  refine Post.bind (post_for (fun _ : List UInt8 => True) (fun i => a.Init (ao + 32 * i) 32) trivial fun i h _ _ _ => ?_) fun _ h => Post.all fun _ => ?_
  · exact Post.bind post_loadu fun f hf => Post.skip fun g => post_pure ⟨trivial, hf⟩
  · exact init_blocks (by decide) fun i hi => h.2 i (by omega) (by rwa [Nat.mul_div_cancel_left _ (by decide)])

theorem post_cmov32 {r : Mem UInt8} {x : Mem UInt8} {b : UInt8} : Post (cmov r 0 x 0 32 b) (fun _ => 32 ≤ r.size) := by
  refine Post.bind (post_for (fun r' : Mem UInt8 => r'.size = r.size) (fun _ => 32 ≤ r.size) rfl fun i r' _ hi h => ?_) fun r' h => Post.all fun _ => h.2 0 (by decide) (by decide)
  refine Post.bind post_loadu fun rv hr => Post.skip fun xv => post_storeu.mono fun m' hm => ⟨hm.trans h, ?_⟩
  have := hr.size (by decide)
  rw [h] at this
  omega

/-! ## The calls -/

theorem post_indcpa_keypair {p : ParamSet} {junk : Nat → Fin 4 → Nat → UInt8} {fuel : Nat} {pk sk coins : Mem UInt8} :
    Post (indcpa_keypair_derand p junk fuel pk sk coins) (fun s => s.1.size = pk.size ∧ s.2.size = sk.size ∧ coins.Init 0 32) := by
  refine Post.bind post_memcpy fun buf hc => Post.skip fun buf => Post.skip fun buf => Post.skip fun a => Post.skip fun x => ?_
  obtain ⟨skpv, e, pkpv⟩ := x
  refine Post.skip fun skpv => Post.skip fun skpv => Post.skip fun e => Post.skip fun pkpv => Post.skip fun pkpv => Post.skip fun pkpv => ?_
  exact Post.bind post_polyvec_tobytes fun sk' hs => Post.bind post_pack_pk fun pk' hp => post_pure ⟨hp, hs, hc.2.2⟩

set_option maxRecDepth 4000 in
theorem post_indcpa_enc {p : ParamSet} {junk : Nat → Fin 4 → Nat → UInt8} {fuel : Nat} {c m : Mem UInt8} {mo : Nat} {pk : Mem UInt8} {po : Nat} {coins : Mem UInt8} {co : Nat} :
    Post (indcpa_enc p junk fuel c m mo pk po coins co) (fun _ => KYBER_CIPHERTEXTBYTES p ≤ c.size ∧ pk.Init po (KYBER_PUBLICKEYBYTES p)) := by
  refine Post.bind (post_unpack_pk (ao := po)) fun ⟨pkpv, seed⟩ hp => ?_
  refine Post.skip fun k => Post.skip fun at_ => Post.skip fun ⟨sp, ep, b, epp⟩ => ?_
  refine Post.skip fun sp => Post.skip fun b => Post.bind post_acc fun v h1 => Post.skip fun b => Post.bind post_invntt fun v h2 => Post.skip fun b => Post.bind post_add fun v h3 =>
    Post.bind post_add fun v h4 => Post.skip fun b => Post.bind post_reduce fun v h5 => ?_
  have hv : v.size = 256 := by rw [h5, h4, h3, h2, h1]; exact Array.size_replicate
  exact (post_pack_ciphertext hv).mono fun c' h => ⟨h, hp⟩

theorem post_indcpa_dec {p : ParamSet} {m : Mem UInt8} {mo : Nat} {c sk : Mem UInt8} : Post (indcpa_dec p m mo c sk) (fun _ => sk.Init 0 (KYBER_INDCPA_SECRETKEYBYTES p)) := by
  refine Post.skip fun ⟨b, v⟩ => ?_
  exact Post.bind post_polyvec_frombytes fun skpv h => Post.all fun _ => h

theorem keypair_needs {p : ParamSet} {junk : Nat → Fin 4 → Nat → UInt8} {fuel : Nat} {pk sk coins : Mem UInt8} : Post (crypto_kem_keypair_derand p junk fuel pk sk coins)
    (fun _ => KYBER_PUBLICKEYBYTES p ≤ pk.size ∧ KYBER_SECRETKEYBYTES p ≤ sk.size ∧ coins.Init 0 64) := by
  refine Post.bind post_indcpa_keypair fun x h0 => ?_
  obtain ⟨pk', sk'⟩ := x
  refine Post.bind post_memcpy fun sk1 h1 => Post.bind post_sha3_256 fun sk2 h2 => Post.bind post_memcpy fun sk3 h3 => post_pure ?_
  have a := h1.2.2.size (by cases p <;> decide)
  have b := h3.2.1 (by decide)
  have c := h0.2.2.append (n' := 32) (by rw [Nat.zero_add]; exact h3.2.2)
  refine ⟨by have := h0.1; simp only at this; omega, ?_, c⟩
  have e : KYBER_SECRETKEYBYTES p - KYBER_SYMBYTES + KYBER_SYMBYTES = KYBER_SECRETKEYBYTES p := by cases p <;> rfl
  have h := h0.2.1
  simp only at h
  rw [e, h2.1, h1.1, h] at b
  exact b

theorem enc_needs {p : ParamSet} {junk : Nat → Fin 4 → Nat → UInt8} {fuel : Nat} {ct ss pk coins : Mem UInt8} : Post (crypto_kem_enc_derand p junk fuel ct ss pk coins)
    (fun _ => KYBER_CIPHERTEXTBYTES p ≤ ct.size ∧ KYBER_SSBYTES ≤ ss.size ∧ pk.Init 0 (KYBER_PUBLICKEYBYTES p) ∧ coins.Init 0 32) := by
  refine Post.bind post_memcpy fun buf h0 => Post.skip fun buf => Post.skip fun kr => Post.bind post_indcpa_enc fun ct' h1 => Post.bind post_memcpy fun ss' h2 => post_pure ?_
  have := h2.2.1 (by decide)
  exact ⟨h1.1, by rwa [Nat.zero_add] at this, h1.2, h0.2.2⟩

theorem dec_needs {p : ParamSet} {junk : Nat → Fin 4 → Nat → UInt8} {fuel : Nat} {ss ct sk : Mem UInt8} : Post (crypto_kem_dec p junk fuel ss ct sk)
    (fun _ => KYBER_SSBYTES ≤ ss.size ∧ ct.Init 0 (KYBER_CIPHERTEXTBYTES p) ∧ sk.Init 0 (KYBER_SECRETKEYBYTES p)) := by
  have hv : ∀ {cmp : Mem UInt8}, Post (verify ct 0 cmp 0 (KYBER_CIPHERTEXTBYTES p)) (fun _ => ct.Init 0 (KYBER_CIPHERTEXTBYTES p)) := by
    intro cmp
    have e : KYBER_CIPHERTEXTBYTES p = 32 * (KYBER_CIPHERTEXTBYTES p / 32) := by cases p <;> rfl
    rw [e]
    exact post_verify
  refine Post.bind post_indcpa_dec fun buf h0 => Post.bind post_memcpy fun buf h1 => Post.skip fun kr => Post.bind post_indcpa_enc fun cmp h2 => Post.bind hv fun fail h3 =>
    Post.bind post_rkprf fun ss' h4 => Post.bind post_cmov32 fun ss'' h5 => post_pure ⟨?_, h3, ?_⟩
  · rw [h4.1] at h5
    exact h5
  · have a := h0.append (by rw [Nat.zero_add]; exact h2.2)
    have b := a.append (n' := 32) (by
      have := h1.2.2
      rwa [show KYBER_SECRETKEYBYTES p - 2 * KYBER_SYMBYTES = 0 + (KYBER_INDCPA_SECRETKEYBYTES p + KYBER_PUBLICKEYBYTES p) from by cases p <;> rfl] at this)
    have c := b.append (n' := 32) (by
      have := h4.2
      rwa [show KYBER_SECRETKEYBYTES p - KYBER_SYMBYTES = 0 + (KYBER_INDCPA_SECRETKEYBYTES p + KYBER_PUBLICKEYBYTES p + 32) from by cases p <;> rfl] at this)
    have e : KYBER_INDCPA_SECRETKEYBYTES p + KYBER_PUBLICKEYBYTES p + 32 + 32 = KYBER_SECRETKEYBYTES p := by cases p <;> rfl
    rwa [e] at c

end Verif.Avx
