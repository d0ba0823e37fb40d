import Verif.Avx.ShapeCall
import Verif.Avx.IndcpaProof
import Verif.Avx.KemProof
import Verif.Proof.SpeedStages
import Verif.Proof.Programs
import Verif.Proof.ZeroSeed

/-! # test_speed.c with the AVX2 build

Only the initialisation of the buffers matters: it decides where the program is undefined. -/

namespace Verif.Proof
open Verif.Model Verif.Spec
open Verif.Avx (msk shapeRun)

/-- `n` initialised cells. -/
def ini (n : Nat) : List (Option Unit) := List.replicate n (some ())

/-- `n` initialised cells of `m`. -/
def part (n m : Nat) : List (Option Unit) := ini n ++ List.replicate (m - n) none

theorem msk_length {α : Type} (m : Mem α) : (msk m).length = m.size := by simp [msk]

theorem msk_uninit {α : Type} (n : Nat) : msk (Mem.uninit α n) = List.replicate n none := by simp [msk, Mem.uninit]

theorem msk_get {α : Type} (m : Mem α) (i : Nat) : (msk m)[i]? = m[i]?.map (Option.map fun _ => ()) := by simp [msk]

theorem msk_wrote {α : Type} {m m' : Mem α} {l : List α} (h : m.Wrote m' 0 l) : msk m' = ini l.length ++ (msk m).drop l.length := by
  apply List.ext_getElem?
  intro i
  rw [msk_get]
  by_cases hi : i < l.length
  · have e := h.holds i hi
    rw [Nat.zero_add] at e
    rw [e, List.getElem?_append_left (by simpa [ini] using hi)]
    simp [ini, hi]
  · have hl : (ini l.length).length = l.length := by simp [ini]
    rw [h.frame i (Or.inr (by omega)), List.getElem?_append_right (by rw [hl]; omega), List.getElem?_drop, msk_get, hl]
    congr 2
    omega

theorem msk_ones {α : Type} {m : Mem α} (h : ∀ i, i < m.size → ∃ v, m[i]? = some (some v)) : msk m = ini m.size := by
  apply List.ext_getElem?
  intro i
  rw [msk_get]
  by_cases hi : i < m.size
  · obtain ⟨v, hv⟩ := h i hi
    rw [hv]
    simp [ini, hi]
  · rw [Array.getElem?_eq_none (by omega)]
    simp [ini, hi]

theorem full_of_msk {m : Mem UInt8} {n : Nat} (h : msk m = ini n) : Full n m := by
  have hs : m.size = n := by rw [← msk_length, h]; simp [ini]
  refine ⟨hs, ?_⟩
  have hv : ∀ i, i < n → ∃ v, m[i]? = some (some v) := fun i hi => by
    have e := msk_get m i
    rw [h] at e
    simp only [ini, List.getElem?_replicate, hi, if_true] at e
    cases hm : m[i]? with
    | none => rw [hm] at e; simp at e
    | some o =>
      cases o with
      | none => rw [hm] at e; simp at e
      | some v => exact ⟨v, rfl⟩
  refine ⟨(List.range n).map fun i => (m[i]?.getD none).getD 0, by simp, fun i hi => ?_⟩
  obtain ⟨v, hv⟩ := hv i (by simpa using hi)
  simp [hv]

/-! ## Polynomials -/

def PM (r : Poly) : Prop := msk r = ini 256
def PM0 (r : Poly) : Prop := msk r = ini 256 ∨ msk r = List.replicate 256 none

theorem polyIs_msk {r : Poly} {f : Nat → Zq} {B : Int} (h : PolyIs r f B) : PM r := by
  unfold PM
  rw [msk_ones fun i hi => ?_, h.size]
  obtain ⟨x, hx, _⟩ := h.coef i (by rw [← h.size]; exact hi)
  exact ⟨x, hx⟩

/-- The shape of the constants. -/
def tabS : Avx.Obj Unit := (Avx.tabObj Avx.qdata).shape
theorem tab_shape : (Avx.tabObj Avx.qdata).shape = tabS := rfl
abbrev polyS (l : List (Option Unit)) : Avx.Obj Unit := ⟨true, true, l⟩

/-- The program leaves an initialised polynomial. -/
def okP (p : List Avx.I) (objs : List (Avx.Obj Unit)) : Bool := match shapeRun p objs with | .ok cs => decide (cs = ini 256) | .error _ => false

theorem okP_run {p : List Avx.I} {objs : List (Avx.Obj Unit)} (h : okP p objs = true) : shapeRun p objs = .ok (ini 256) := by
  unfold okP at h
  split at h
  · rename_i cs e; rw [e, of_decide_eq_true h]
  · cases h

theorem callPoly_PM {w : List Nat} {p : List Avx.I} {r : Poly} {objs : List (Avx.Obj Avx.W)} (hw : p.all (Avx.I.stIn w) = true)
    (h : okP p (polyS (msk r) :: objs.map Avx.Obj.shape) = true) : Runs (Avx.callPoly w p r objs) PM :=
  Avx.callPoly_shape hw (okP_run h)

theorem ntt_st' : Avx.ntt_avx.all (Avx.I.stIn [0]) = true ∧ Avx.invntt_avx.all (Avx.I.stIn [0]) = true ∧ Avx.basemul_avx.all (Avx.I.stIn [0, 4]) = true ∧
    (Avx.poly_add_prog 0 1).all (Avx.I.stIn [0]) = true ∧ Avx.cbd2_prog.all (Avx.I.stIn [0]) = true ∧ Avx.poly_tomsg_prog.all (Avx.I.stIn [0]) = true ∧
    Avx.poly_frommsg_prog.all (Avx.I.stIn [0]) = true := by decide +kernel

theorem ntt_ok : okP Avx.ntt_avx [polyS (ini 256), tabS] = true := by decide +kernel
theorem invntt_ok : okP Avx.invntt_avx [polyS (ini 256), tabS] = true := by decide +kernel
theorem basemul_ok : okP Avx.basemul_avx [polyS (ini 256), polyS (ini 256), polyS (ini 256), tabS, (Avx.stackObj 16).shape] = true ∧
    okP Avx.basemul_avx [polyS (List.replicate 256 none), polyS (ini 256), polyS (ini 256), tabS, (Avx.stackObj 16).shape] = true := by decide +kernel
theorem add_ok : okP (Avx.poly_add_prog 0 1) [polyS (ini 256), polyS (ini 256)] = true := by decide +kernel
theorem cbd2_ok : ∀ n ∈ [128, 160], okP Avx.cbd2_prog [polyS (ini 256), ⟨false, true, part 128 n⟩, tabS] = true ∧
    okP Avx.cbd2_prog [polyS (List.replicate 256 none), ⟨false, true, part 128 n⟩, tabS] = true := by decide +kernel

attribute [local irreducible] Avx.ntt_avx Avx.invntt_avx Avx.basemul_avx Avx.poly_add_prog Avx.cbd2_prog tabS Avx.qdata

theorem ntt_msk {a : Poly} (h : msk a = ini 256) : Runs (Avx.poly_ntt a) PM := by
  unfold Avx.poly_ntt
  refine callPoly_PM ntt_st'.1 ?_
  simp only [List.map_cons, List.map_nil, tab_shape]
  rw [h]
  exact ntt_ok

theorem invntt_msk {a : Poly} (h : msk a = ini 256) : Runs (Avx.poly_invntt_tomont a) PM := by
  unfold Avx.poly_invntt_tomont
  refine callPoly_PM ntt_st'.2.1 ?_
  simp only [List.map_cons, List.map_nil, tab_shape]
  rw [h]
  exact invntt_ok

theorem basemul_msk {r a b : Poly} (hr : PM0 r) (ha : msk a = ini 256) (hb : msk b = ini 256) : Runs (Avx.poly_basemul_montgomery r a b) PM := by
  unfold Avx.poly_basemul_montgomery
  refine callPoly_PM ntt_st'.2.2.1 ?_
  simp only [List.map_cons, List.map_nil, Avx.polyObj_shape, tab_shape]
  rw [ha, hb]
  rcases hr with hr | hr <;> rw [hr]
  · exact basemul_ok.1
  · exact basemul_ok.2

theorem add_msk {r b : Poly} (hr : msk r = ini 256) (hb : msk b = ini 256) : Runs (Avx.poly_add r b) PM := by
  unfold Avx.poly_add
  refine callPoly_PM ntt_st'.2.2.2.1 ?_
  simp only [List.map_cons, List.map_nil, Avx.polyObj_shape, tab_shape]
  rw [hr, hb]
  exact add_ok

theorem cbd2_msk {r : Poly} {buf : Mem UInt8} {n : Nat} (hr : PM0 r) (hb : msk buf = part 128 n) (hn : n ∈ [128, 160]) : Runs (Avx.cbd2 r buf) PM := by
  unfold Avx.cbd2
  refine callPoly_PM ntt_st'.2.2.2.2.1 ?_
  simp only [List.map_cons, List.map_nil, Avx.bytesObj_shape, tab_shape, List.drop_zero]
  rw [hb]
  rcases hr with hr | hr <;> rw [hr]
  · exact (cbd2_ok n hn).1
  · exact (cbd2_ok n hn).2

attribute [local irreducible] SHAKE256 prf

theorem avx_eta2_msk {r : Poly} (hr : PM0 r) : Runs (Avx.poly_getnoise_eta2 r speedSeed 0 0) PM := by
  unfold Avx.poly_getnoise_eta2
  dsimp only
  rw [show KYBER_ETA2 * KYBER_N / 4 = 128 from rfl, runs_bind]
  refine (prf_runs speedSeed_holds (by simp) 0 (by rw [Mem.size_uninit])).mono fun b hb => ?_
  have e := msk_wrote hb
  rw [SHAKE256_length, msk_uninit] at e
  exact cbd2_msk hr (n := 128) e (by simp)

theorem avx_eta1_msk {p : ParamSet} (hp : p ≠ .k2) {r : Poly} (hr : PM0 r) : Runs (Avx.poly_getnoise_eta1 p r speedSeed 0 0) PM := by
  have e2 : KYBER_ETA1 p = 2 := by cases p <;> first | rfl | exact absurd rfl hp
  unfold Avx.poly_getnoise_eta1
  dsimp only
  rw [e2, show 2 * KYBER_N / 4 = 128 from rfl, runs_bind]
  refine (prf_runs speedSeed_holds (by simp) 0 (by rw [Mem.size_uninit]; decide)).mono fun b hb => ?_
  have e := msk_wrote hb
  rw [SHAKE256_length, msk_uninit] at e
  unfold Avx.poly_cbd_eta1
  rw [e2, if_pos rfl]
  exact cbd2_msk hr (n := 160) e (by simp)

/-! ## Vectors -/

structure VM (k : Nat) (v : Polyvec) : Prop where
  size : v.size = k
  get : ∀ i, i < k → ∃ q, v[i]? = some q ∧ PM q

structure MM (k : Nat) (m : Array Polyvec) : Prop where
  size : m.size = k
  get : ∀ i, i < k → ∃ v, m[i]? = some v ∧ VM k v

theorem PM.sz {r : Poly} (h : PM r) : r.size = 256 := by
  have h' : msk r = ini 256 := h
  rw [← msk_length, h']
  exact List.length_replicate

theorem VM.set {k : Nat} {v : Polyvec} (h : VM k v) (i : Nat) {q : Poly} (hq : PM q) : VM k (v.setIfInBounds i q) := by
  refine ⟨by simp [h.size], fun j hj => ?_⟩
  by_cases e : i = j
  · subst e
    exact ⟨q, by rw [Array.getElem?_setIfInBounds_self_of_lt (by rw [h.size]; omega)], hq⟩
  · rw [Array.getElem?_setIfInBounds_ne e]
    exact h.get j hj

theorem MM.set {k : Nat} {m : Array Polyvec} (h : MM k m) (i : Nat) {v : Polyvec} (hv : VM k v) : MM k (m.setIfInBounds i v) := by
  refine ⟨by simp [h.size], fun j hj => ?_⟩
  by_cases e : i = j
  · subst e
    exact ⟨v, by rw [Array.getElem?_setIfInBounds_self_of_lt (by rw [h.size]; omega)], hv⟩
  · rw [Array.getElem?_setIfInBounds_ne e]
    exact h.get j hj

theorem MM.sz {k : Nat} {m : Array Polyvec} (h : MM k m) : MatSz k m :=
  ⟨h.size, fun i hi => by
    obtain ⟨v, hv, hm⟩ := h.get i hi
    exact ⟨v, hv, hm.size, fun j hj => by obtain ⟨q, hq, hp⟩ := hm.get j hj; exact ⟨q, hq, hp.sz⟩⟩⟩

theorem avx_gen_msk (p : ParamSet) (junk : Fin 4 → Nat → UInt8) (fuel : Nat) {m : Array Polyvec} (hm : MatSz (KYBER_K p) m) :
    RunsP ((ExpandA (KYBER_K p) (iters fuel) (List.replicate 32 0)).isSome = true) (Avx.gen_matrix p junk fuel m speedSeed 0 false) (MM (KYBER_K p)) := by
  refine (RunsP.ofO (Avx.gen_matrix_runsO (junk := junk) (fuel := fuel) false hm speedSeed_holds (by simp))).mono fun a ⟨A, _, ha⟩ => ⟨ha.mat.size, fun i hi => ?_⟩
  obtain ⟨v, hv, hr⟩ := Avx.MatV.vec ha hi
  refine ⟨v, hv, hr.size, fun j hj => ?_⟩
  obtain ⟨q, hq, hp⟩ := hr.get j hj
  exact ⟨q, hq, polyIs_msk hp⟩

theorem poly_uninit_msk : PM0 Poly.uninit := .inr (by unfold Poly.uninit; exact msk_uninit _)

theorem avx_bm_msk {p : ParamSet} {r : Poly} {a b : Polyvec} (hr : PM0 r) (ha : VM (KYBER_K p) a) (hb : VM (KYBER_K p) b) :
    Runs (Avx.polyvec_basemul_acc_montgomery p r a b) PM := by
  have hk := (KYBER_K_pos p).1
  unfold Avx.polyvec_basemul_acc_montgomery
  obtain ⟨x, hx, hxm⟩ := ha.get 0 (by omega)
  obtain ⟨y, hy, hym⟩ := hb.get 0 (by omega)
  rw [runs_bind, runs_at]
  refine ⟨x, hx, ?_⟩
  rw [runs_bind, runs_at]
  refine ⟨y, hy, ?_⟩
  rw [runs_bind]
  refine (basemul_msk hr hxm hym).mono fun r hr => ?_
  rw [runs_bind]
  refine (runs_cfor (fun _ s => PM s.1 ∧ PM0 s.2) (by omega) ⟨hr, poly_uninit_msk⟩ fun i s h1 h2 hs => ?_).mono fun s hs => ?_
  · obtain ⟨r, tmp⟩ := s
    obtain ⟨x, hx, hxm⟩ := ha.get i h2
    obtain ⟨y, hy, hym⟩ := hb.get i h2
    dsimp only at hs ⊢
    rw [runs_bind, runs_at]
    refine ⟨x, hx, ?_⟩
    rw [runs_bind, runs_at]
    refine ⟨y, hy, ?_⟩
    rw [runs_bind]
    refine (basemul_msk hs.2 hxm hym).mono fun t ht => ?_
    rw [runs_bind]
    exact (add_msk hs.1 ht).mono fun r hr => ⟨hr, .inl ht⟩
  · exact hs.1

/-! ## The ciphertext buffer -/

/-- The pattern after a program has written the bytes from `off` on. -/
def stepB (p : List Avx.I) (off : Nat) (m : List (Option Unit)) : Option (List (Option Unit)) :=
  match shapeRun p [⟨false, false, m.drop off⟩, polyS (ini 256), tabS] with
  | .ok cs => if cs.length = (m.drop off).length then some (m.take off ++ cs) else none
  | .error _ => none

theorem stepB_runs {p : List Avx.I} {off : Nat} {r : Mem UInt8} {a : Poly} {m' : List (Option Unit)} (hw : p.all (Avx.I.stIn [0]) = true) (ha : PM a) (ho : off ≤ r.size)
    (h : stepB p off (msk r) = some m') : Runs (Avx.callBytes [0] p false r off [Avx.polyObj a, Avx.tabObj Avx.qdata]) (fun r' => msk r' = m' ∧ r'.size = r.size) := by
  unfold stepB at h
  split at h
  · rename_i cs e
    split at h
    · rename_i hl
      cases h
      refine (Avx.callBytes_shape hw ho (cs := cs) ?_).mono fun r' hr' => ⟨hr', ?_⟩
      · have ha' : msk a = ini 256 := ha
        simp only [List.map_cons, List.map_nil, Avx.polyObj_shape, tab_shape]
        rw [ha']
        exact e
      · rw [← msk_length r', hr', ← msk_length r, List.length_append, hl, List.length_take, List.length_drop]
        omega
    · cases h
  · cases h

/-- The pattern after `i` polynomials of `w` bytes. -/
def stepsB (p : List Avx.I) (w : Nat) : Nat → List (Option Unit) → Option (List (Option Unit))
  | 0, m => some m
  | i + 1, m => (stepsB p w i m).bind (stepB p (w * i))

/-- All patterns of `L` become patterns of `L'`. -/
def intoB (f : List (Option Unit) → Option (List (Option Unit))) (L L' : List (List (Option Unit))) : Bool :=
  L.all fun m => match f m with | some m' => decide (m' ∈ L') | none => false

theorem intoB_some {f : List (Option Unit) → Option (List (Option Unit))} {L L' : List (List (Option Unit))} (h : intoB f L L' = true) {m : List (Option Unit)} (hm : m ∈ L) :
    ∃ m', f m = some m' ∧ m' ∈ L' := by
  have := List.all_eq_true.1 h m hm
  split at this
  · rename_i m' e; exact ⟨m', e, of_decide_eq_true this⟩
  · cases this

def CM (L : List (List (Option Unit))) (c : Mem UInt8) : Prop := msk c ∈ L

/-- The program reads only initialised bytes of every pattern. -/
def readP (p : List Avx.I) (off : Nat) (L : List (List (Option Unit))) : Bool :=
  L.all fun m => okP p [polyS (ini 256), ⟨false, false, m.drop off⟩, tabS]

theorem readP_runs {p : List Avx.I} {off : Nat} {L : List (List (Option Unit))} {a : Poly} {c : Mem UInt8} (hw : p.all (Avx.I.stIn [0]) = true) (h : readP p off L = true) (ha : PM a) (hc : CM L c) :
    Runs (Avx.callPoly [0] p a [Avx.bytesObj false c off, Avx.tabObj Avx.qdata]) PM := by
  have ha' : msk a = ini 256 := ha
  refine callPoly_PM hw ?_
  simp only [List.map_cons, List.map_nil, Avx.bytesObj_shape, tab_shape, List.drop_zero]
  rw [ha']
  exact List.all_eq_true.1 h _ hc

/-- The programs of a parameter set. -/
def compProg : ParamSet → List Avx.I
  | .k4 => Avx.poly_compress_160
  | _ => Avx.poly_compress_128
def decompProg : ParamSet → List Avx.I
  | .k4 => Avx.poly_decompress_160
  | _ => Avx.poly_decompress_128
def pcProg : ParamSet → List Avx.I
  | .k4 => Avx.poly_compress11_prog
  | _ => Avx.poly_compress10_prog
def pdProg : ParamSet → List Avx.I
  | .k4 => Avx.poly_decompress11_prog
  | _ => Avx.poly_decompress10_prog
def pW : ParamSet → Nat
  | .k4 => 352
  | _ => 320

theorem prog_st (p : ParamSet) : (compProg p).all (Avx.I.stIn [0]) = true ∧ (decompProg p).all (Avx.I.stIn [0]) = true ∧ (pcProg p).all (Avx.I.stIn [0]) = true ∧
    (pdProg p).all (Avx.I.stIn [0]) = true := by cases p <;> decide +kernel

theorem tomsg_msk {L L' : List (List (Option Unit))} (h : intoB (stepB Avx.poly_tomsg_prog 0) L L' = true) {c : Mem UInt8} {a : Poly} (hc : CM L c) (ha : PM a) :
    Runs (Avx.poly_tomsg c 0 a) (CM L') := by
  obtain ⟨m', e, hm⟩ := intoB_some h hc
  unfold Avx.poly_tomsg
  refine (stepB_runs ntt_st'.2.2.2.2.2.1 ha (by omega) e).mono fun r hr => ?_
  unfold CM
  rwa [hr.1]

theorem compress_msk {p : ParamSet} {L L' : List (List (Option Unit))} (h : intoB (stepB (compProg p) 0) L L' = true) {c : Mem UInt8} {a : Poly} (hc : CM L c) (ha : PM a) :
    Runs (Avx.poly_compress p c 0 a) (CM L') := by
  obtain ⟨m', e, hm⟩ := intoB_some h hc
  have h2 : Avx.poly_compress p c 0 a = Avx.callBytes [0] (compProg p) false c 0 [Avx.polyObj a, Avx.tabObj Avx.qdata] := by
    unfold Avx.poly_compress; cases p <;> rfl
  rw [h2]
  refine (stepB_runs (prog_st p).1 ha (by omega) e).mono fun r hr => ?_
  unfold CM
  rwa [hr.1]

theorem pvc_eq (p : ParamSet) (r : Mem UInt8) (ro : Nat) (a : Polyvec) : Avx.polyvec_compress p r ro a =
    cfor 0 (KYBER_K p) r fun i r => (do Avx.callBytes [0] (pcProg p) false r (ro + pW p * i) [Avx.polyObj (← at' a i), Avx.tabObj Avx.qdata]) := by
  unfold Avx.polyvec_compress Avx.poly_compress11 Avx.poly_compress10
  cases p <;> rfl

theorem pvd_eq (p : ParamSet) (r : Polyvec) (a : Mem UInt8) (ao : Nat) : Avx.polyvec_decompress p r a ao =
    cfor 0 (KYBER_K p) r fun i r => (do let q ← at' r i; put' r i (← (if ao + pW p * i ≤ a.size then Avx.callPoly [0] (pdProg p) q [Avx.bytesObj false a (ao + pW p * i), Avx.tabObj Avx.qdata] else .ub .oob))) := by
  unfold Avx.polyvec_decompress Avx.poly_decompress11 Avx.poly_decompress10
  cases p <;> rfl

theorem pvc_msk {p : ParamSet} {L L' : List (List (Option Unit))} (h : intoB (stepsB (pcProg p) (pW p) (KYBER_K p)) L L' = true) {c : Mem UInt8} {v : Polyvec} (hc : CM L c) (hv : VM (KYBER_K p) v)
    (hsz : pW p * KYBER_K p ≤ c.size) : Runs (Avx.polyvec_compress p c 0 v) (CM L') := by
  obtain ⟨m', e, hm⟩ := intoB_some h hc
  rw [pvc_eq]
  have mono : ∀ k i, i ≤ k → ∀ m, stepsB (pcProg p) (pW p) k m ≠ none → stepsB (pcProg p) (pW p) i m ≠ none := by
    intro k
    induction k with
    | zero => intro i hi m h; rwa [show i = 0 by omega]
    | succ k ih =>
      intro i hi m h
      by_cases e : i = k + 1
      · rwa [e]
      · refine ih i (by omega) m fun h' => h ?_
        unfold stepsB
        rw [h']
        rfl
  refine (runs_cfor (fun i r => stepsB (pcProg p) (pW p) i (msk c) = some (msk r) ∧ r.size = c.size) (Nat.zero_le _) ⟨rfl, rfl⟩ fun i r _ hi hr => ?_).mono fun r hr => ?_
  · obtain ⟨q, hq, hqm⟩ := hv.get i hi
    rw [runs_bind, runs_at]
    refine ⟨q, hq, ?_⟩
    have hn := mono (KYBER_K p) (i + 1) hi (msk c) (by rw [e]; simp)
    obtain ⟨m2, hm2⟩ := Option.ne_none_iff_exists'.1 hn
    have hm2' := hm2
    unfold stepsB at hm2'
    rw [hr.1] at hm2'
    have hle : pW p * i ≤ pW p * KYBER_K p := Nat.mul_le_mul_left _ hi.le
    rw [Nat.zero_add]
    have hst : Runs (Avx.callBytes [0] (pcProg p) false r (pW p * i) [Avx.polyObj q, Avx.tabObj Avx.qdata]) (fun r' => msk r' = m2 ∧ r'.size = r.size) :=
      stepB_runs (prog_st p).2.2.1 hqm (by rw [hr.2]; omega) hm2'
    refine hst.mono fun r' hr' => ⟨by rw [hm2, hr'.1], by rw [hr'.2, hr.2]⟩
  · unfold CM
    rw [← Option.some.inj (e.symm.trans hr.1)]
    exact hm

theorem pvd_msk {p : ParamSet} {L : List (List (Option Unit))} (h : (List.range (KYBER_K p)).all (fun i => readP (pdProg p) (pW p * i) L) = true) {c : Mem UInt8} {v : Polyvec} (hc : CM L c)
    (hv : VM (KYBER_K p) v) (hsz : pW p * KYBER_K p ≤ c.size) : Runs (Avx.polyvec_decompress p v c 0) (VM (KYBER_K p)) := by
  rw [pvd_eq]
  refine runs_cfor (fun _ v => VM (KYBER_K p) v) (Nat.zero_le _) hv fun i v _ hi hv => ?_
  obtain ⟨q, hq, hqm⟩ := hv.get i hi
  rw [runs_bind, runs_at]
  refine ⟨q, hq, ?_⟩
  have hle : pW p * i ≤ pW p * KYBER_K p := Nat.mul_le_mul_left _ hi.le
  rw [runs_bind, Nat.zero_add, if_pos (by omega)]
  refine (readP_runs (prog_st p).2.2.2 (List.all_eq_true.1 h i (List.mem_range.2 hi)) hqm hc).mono fun q' hq' => ?_
  rw [runs_put]
  exact ⟨by rw [hv.size]; exact hi, hv.set i hq'⟩

/-- A loop that is undefined in iteration `n`. -/
theorem cfor_ub_at {σ : Type} {lo n hi : Nat} {s : σ} {body : Nat → σ → C σ} {u : UB} (Inv : σ → Prop) (h : lo ≤ n) (hn : n < hi) (h0 : Inv s)
    (hs : ∀ i s, i < n → Inv s → Runs (body i s) Inv) (hb : ∀ s, Inv s → body n s = .ub u) : cfor lo hi s body = .ub u := by
  unfold cfor
  obtain ⟨k, rfl⟩ : ∃ k, n = lo + k := ⟨n - lo, by omega⟩
  obtain ⟨m, hm⟩ : ∃ m, hi - lo = m + (k + 1) := ⟨hi - lo - (k + 1), by omega⟩
  rw [hm]
  clear hm hn h
  induction k generalizing lo s with
  | zero =>
    rw [Nat.zero_add, cforFrom]
    show C.bind _ _ = _
    have := hb s h0
    rw [Nat.add_zero] at this
    simp [this, C.leak, C.bind]
    rfl
  | succ k ih =>
    rw [show m + (k + 1 + 1) = (m + (k + 1)) + 1 from rfl, cforFrom]
    obtain ⟨s', t, e, hs'⟩ := (hs lo s (by omega) h0).exists_ok
    have := ih (lo := lo + 1) (s := s') hs' (fun i s hi => hs i s (by omega)) (fun s h => by rw [show lo + 1 + k = lo + (k + 1) by omega]; exact hb s h)
    rw [e]
    refine Avx.bind_ub_of (P := fun _ => True) trivial fun _ _ => ?_
    refine Avx.bind_ub_of (P := fun v => v = s') rfl fun v hv => ?_
    rw [hv]
    exact this

/-- The program reads uninitialised bytes of every pattern. -/
def ubP (p : List Avx.I) (off : Nat) (L : List (List (Option Unit))) : Bool :=
  L.all fun m => match shapeRun p [polyS (ini 256), ⟨false, false, m.drop off⟩, tabS] with | .error .uninit => true | _ => false

theorem pvd_ub {p : ParamSet} {L : List (List (Option Unit))} (h : (List.range (KYBER_K p - 1)).all (fun i => readP (pdProg p) (pW p * i) L) = true)
    (h' : ubP (pdProg p) (pW p * (KYBER_K p - 1)) L = true) {c : Mem UInt8} {v : Polyvec} (hc : CM L c)
    (hv : VM (KYBER_K p) v) (hsz : pW p * KYBER_K p ≤ c.size) : Avx.polyvec_decompress p v c 0 = .ub .uninit := by
  have hk := (KYBER_K_pos p).1
  rw [pvd_eq]
  refine cfor_ub_at (VM (KYBER_K p)) (n := KYBER_K p - 1) (by omega) (by omega) hv (fun i v hi hv => ?_) fun v hv => ?_
  · obtain ⟨q, hq, hqm⟩ := hv.get i (by omega)
    rw [runs_bind, runs_at]
    refine ⟨q, hq, ?_⟩
    have hle : pW p * i ≤ pW p * KYBER_K p := Nat.mul_le_mul_left _ (by omega)
    rw [runs_bind, Nat.zero_add, if_pos (by omega)]
    refine (readP_runs (prog_st p).2.2.2 (List.all_eq_true.1 h i (List.mem_range.2 hi)) hqm hc).mono fun q' hq' => ?_
    rw [runs_put]
    exact ⟨by rw [hv.size]; omega, hv.set i hq'⟩
  · obtain ⟨q, hq, hqm⟩ := hv.get (KYBER_K p - 1) (by omega)
    have hle : pW p * (KYBER_K p - 1) ≤ pW p * KYBER_K p := Nat.mul_le_mul_left _ (by omega)
    refine Avx.bind_ub_of (P := fun x => x = q) (by rw [runs_at]; exact ⟨q, hq, rfl⟩) fun x hx => Avx.ub_bind ?_
    subst hx
    rw [Nat.zero_add, if_pos (by omega)]
    refine Avx.callPoly_shape_ub (prog_st p).2.2.2 ?_
    have hq' : msk x = ini 256 := hqm
    simp only [List.map_cons, List.map_nil, Avx.bytesObj_shape, tab_shape]
    rw [hq']
    have := List.all_eq_true.1 h' _ hc
    split at this
    · assumption
    · cases this

/-! ## The measurements -/

/-- The checks of the byte programs for a chain of sets of patterns. -/
structure Pats (p : ParamSet) (L0 L1 L2 L3 : List (List (Option Unit))) : Prop where
  tomsg : intoB (stepB Avx.poly_tomsg_prog 0) L0 L1 = true
  frommsg : readP Avx.poly_frommsg_prog 0 L1 = true
  compress : intoB (stepB (compProg p) 0) L1 L2 = true
  decompress : readP (decompProg p) 0 L2 = true
  pvc : intoB (stepsB (pcProg p) (pW p) (KYBER_K p)) L2 L3 = true
  len : ∀ m ∈ L2, m.length = KYBER_CIPHERTEXTBYTES p
  s1 : ∀ m ∈ L1, m ∈ L0
  s2 : ∀ m ∈ L2, m ∈ L1
  s3 : ∀ m ∈ L3, m ∈ L2

theorem pW_le (p : ParamSet) : pW p * KYBER_K p ≤ KYBER_CIPHERTEXTBYTES p := by cases p <;> decide

theorem avx_front {g : Prop} {p : ParamSet} (hp : p ≠ .k2) (junk : Nat → Fin 4 → Nat → UInt8) (junk' : Fin 4 → Nat → UInt8) {fuel : Nat} {L0 L1 L2 L3 : List (List (Option Unit))}
    (hL : Pats p L0 L1 L2 L3) (hg : g → (ExpandA (KYBER_K p) (iters fuel) (List.replicate 32 0)).isSome = true) :
    FrontOk g (avxSpeed p junk junk' fuel) (MatSz (KYBER_K p)) (MM (KYBER_K p)) PM0 PM PM (CM L0) (CM L1) (CM L2) (CM L3) where
  gen m hm := (avx_gen_msk p junk' fuel hm).weaken hg
  eta1 a ha := avx_eta1_msk hp ha
  eta2 a ha := avx_eta2_msk (.inl ha)
  ntt a ha := ntt_msk ha
  invntt a ha := invntt_msk ha
  bm a m ha hm := by
    have hk : 2 ≤ KYBER_K p := by cases p <;> decide
    obtain ⟨v, hv, hvm⟩ := hm.get 0 (by omega)
    obtain ⟨w, hw, hwm⟩ := hm.get 1 (by omega)
    exact ⟨v, w, hv, hw, avx_bm_msk (.inl ha) hvm hwm⟩
  tomsg c a hc ha := tomsg_msk hL.tomsg hc ha
  frommsg c a hc ha := by
    show Runs (Avx.poly_frommsg a c 0) PM
    unfold Avx.poly_frommsg
    rw [if_pos (Nat.zero_le _)]
    exact readP_runs ntt_st'.2.2.2.2.2.2 hL.frommsg ha hc
  compress c a hc ha := compress_msk hL.compress hc ha
  decompress c a hc ha := by
    show Runs (Avx.poly_decompress p a c 0) PM
    have e : Avx.poly_decompress p a c 0 = Avx.callPoly [0] (decompProg p) a [Avx.bytesObj false c 0, Avx.tabObj Avx.qdata] := by
      unfold Avx.poly_decompress
      rw [if_pos (Nat.zero_le _)]
      cases p <;> rfl
    rw [e]
    exact readP_runs (prog_st p).2.1 hL.decompress ha hc
  pvc c m hc hm := by
    obtain ⟨v, hv, hvm⟩ := hm.get 0 (KYBER_K_pos p).1
    exact ⟨v, hv, pvc_msk hL.pvc hc hvm (by rw [← msk_length, hL.len _ hc]; exact pW_le p)⟩
  hM m h := h.sz
  hP a h := .inl h
  hPm a h := h
  hC1 c h := hL.s1 _ h
  hC2 c h := hL.s2 _ h
  hC3 c h := hL.s3 _ h

theorem avx_cpa (p : ParamSet) (junk : Nat → Fin 4 → Nat → UInt8) (junk' : Fin 4 → Nat → UInt8) (fuel : Nat) : CpaSpec p fuel (avxSpeed p junk junk' fuel) where
  keypair := fun hd hdl hpk hsk => Avx.keypair_runsO hd hdl hpk hsk
  enc := fun hm hml hpk hpkl hr hrl hc => Avx.enc_runsO hm hml hpk hpkl hr hrl hc
  dec := fun hc hcl hsk hskl hm => Avx.indcpa_dec_runs rfl hc hcl hsk hskl (by simpa using hm)
  kem := avxApi_spec p junk fuel

/-! ## The patterns of the program -/

/-- The number of bytes that `polyvec_compress` leaves initialised (two more than it should for K = 4). -/
def pvcN : ParamSet → Nat
  | .k4 => 1410
  | _ => 960

def pat (p : ParamSet) (n : Nat) : List (Option Unit) := part n (KYBER_CIPHERTEXTBYTES p)

def pats3 (p : ParamSet) : List (List (Option Unit)) := [pat p (pvcN p)]
def pats2 (p : ParamSet) : List (List (Option Unit)) := pat p (KYBER_POLYCOMPRESSEDBYTES p) :: pats3 p
def pats1 (p : ParamSet) : List (List (Option Unit)) := pat p 32 :: pats2 p
def pats0 (p : ParamSet) : List (List (Option Unit)) := List.replicate (KYBER_CIPHERTEXTBYTES p) none :: pats1 p
def patsI (p : ParamSet) : List (List (Option Unit)) := [ini (KYBER_CIPHERTEXTBYTES p)]

theorem pats_real {p : ParamSet} (hp : p ≠ .k2) : Pats p (pats0 p) (pats1 p) (pats2 p) (pats3 p) := by
  cases p with
  | k2 => exact absurd rfl hp
  | k3 => constructor <;> first | decide +kernel | exact fun m hm => List.mem_cons_of_mem _ hm
  | k4 => constructor <;> first | decide +kernel | exact fun m hm => List.mem_cons_of_mem _ hm

theorem pats_init {p : ParamSet} (hp : p ≠ .k2) : Pats p (patsI p) (patsI p) (patsI p) (patsI p) := by
  cases p with
  | k2 => exact absurd rfl hp
  | k3 => constructor <;> first | decide +kernel | exact fun m hm => hm
  | k4 => constructor <;> first | decide +kernel | exact fun m hm => hm

theorem pats_ub {p : ParamSet} (hp : p ≠ .k2) : (List.range (KYBER_K p - 1)).all (fun i => readP (pdProg p) (pW p * i) (pats3 p)) = true ∧
    ubP (pdProg p) (pW p * (KYBER_K p - 1)) (pats3 p) = true := by
  cases p with
  | k2 => exact absurd rfl hp
  | k3 => decide +kernel
  | k4 => decide +kernel

theorem pats_dec {p : ParamSet} (hp : p ≠ .k2) : (List.range (KYBER_K p)).all (fun i => readP (pdProg p) (pW p * i) (patsI p)) = true := by
  cases p with
  | k2 => exact absurd rfl hp
  | k3 => decide +kernel
  | k4 => decide +kernel

end Verif.Proof
