import Verif.C.Post
import Verif.Model.InPlace

/-! # Runs that correspond step by step -/

namespace Verif

/-- The same outcome, with values related by `R`. -/
def Sim {α β : Type} (R : α → β → Prop) (m : C α) (m' : C β) : Prop :=
  match m, m' with
  | .ok v _, .ok w _ => R v w
  | .ub u, .ub u' => u = u'
  | .diverge, .diverge => True
  | _, _ => False

variable {α β γ δ σ τ : Type}

theorem Sim.bind {R : α → β → Prop} {S : γ → δ → Prop} {m : C α} {m' : C β} {f : α → C γ} {g : β → C δ} (h : Sim R m m') (hf : ∀ v w, R v w → Sim S (f v) (g w)) :
    Sim S (m >>= f) (m' >>= g) := by
  show Sim S (C.bind m f) (C.bind m' g)
  cases m with
  | ok v t => cases m' with
    | ok w t' =>
      have := hf v w h
      simp only [C.bind]
      revert this
      cases f v <;> cases g w <;> simp [Sim]
    | ub u => exact h.elim
    | diverge => exact h.elim
  | ub u => cases m' with
    | ok w t' => exact h.elim
    | ub u' => exact h
    | diverge => exact h.elim
  | diverge => cases m' with
    | ok w t' => exact h.elim
    | ub u' => exact h.elim
    | diverge => trivial

theorem sim_pure {R : α → β → Prop} {v : α} {w : β} (h : R v w) : Sim R (pure v) (pure w) := h

theorem sim_eq (m : C α) : Sim Eq m m := by cases m <;> simp [Sim]

/-- Both runs begin with the same step. -/
theorem Sim.same {S : γ → δ → Prop} {m : C α} {f : α → C γ} {g : α → C δ} (hf : ∀ v, Sim S (f v) (g v)) : Sim S (m >>= f) (m >>= g) :=
  (sim_eq m).bind fun v w h => by subst h; exact hf v

theorem sim_rd {m : Mem α} {m' : Mem α} {i j : Nat} (h : m[i]? = m'[j]?) : Sim Eq (rd m i) (rd m' j) := by
  unfold rd
  rw [h]
  cases m'[j]? with
  | none => rfl
  | some c => cases c <;> rfl

theorem sim_cforFrom {R : Nat → σ → τ → Prop} {body : Nat → σ → C σ} {body' : Nat → τ → C τ} : ∀ (n i : Nat) (s : σ) (t : τ), R i s t →
    (∀ k s t, i ≤ k → k < i + n → R k s t → Sim (R (k + 1)) (body k s) (body' k t)) → Sim (R (i + n)) (cforFrom body n i s) (cforFrom body' n i t)
  | 0, i, s, t, h, _ => Sim.same fun _ => sim_pure h
  | n + 1, i, s, t, h, hs => Sim.same fun _ => (hs i s t (Nat.le_refl _) (by omega) h).bind fun s' t' h' => by
      have := sim_cforFrom (body := body) (body' := body') (R := R) n (i + 1) s' t' h' (fun k s t hk hk' => hs k s t (by omega) (by omega))
      rwa [show i + (n + 1) = i + 1 + n from by omega]

theorem sim_cfor {R : Nat → σ → τ → Prop} {body : Nat → σ → C σ} {body' : Nat → τ → C τ} {n : Nat} {s : σ} {t : τ} (h0 : R 0 s t)
    (hs : ∀ k s t, k < n → R k s t → Sim (R (k + 1)) (body k s) (body' k t)) : Sim (R n) (cfor 0 n s body) (cfor 0 n t body') := by
  have := sim_cforFrom (body := body) (body' := body') (R := R) n 0 s t h0 fun k s t _ hk => hs k s t (by omega)
  rwa [Nat.zero_add] at this

theorem Sim.mono {R S : α → β → Prop} {m : C α} {m' : C β} (h : Sim R m m') (hRS : ∀ v w, R v w → S v w) : Sim S m m' := by
  revert h
  cases m <;> cases m' <;> simp only [Sim] <;> first | exact hRS _ _ | exact id

namespace Model

/-- The polynomial at offset `o` of `X`, as an object of its own. -/
def part (X : Mem Int16) (o : Nat) : Poly := X.extract o (o + 256)

theorem part_get {X : Mem Int16} {o j : Nat} (h : o + 256 ≤ X.size) (hj : j < 256) : (part X o)[j]? = X[o + j]? := by
  unfold part
  rw [Array.getElem?_extract, if_pos (by omega)]

theorem part_size {X : Mem Int16} {o : Nat} (h : o + 256 ≤ X.size) : (part X o).size = 256 := by
  unfold part
  rw [Array.size_extract]
  omega

/-- `X'` is `X` with the polynomial at offset `r` replaced by `p`. -/
structure Rel (X : Mem Int16) (r : Nat) (X' : Mem Int16) (p : Poly) : Prop where
  size : X'.size = X.size
  psize : p.size = 256
  inside : ∀ j, j < 256 → X'[r + j]? = p[j]?
  outside : ∀ j, j < r ∨ r + 256 ≤ j → X'[j]? = X[j]?

theorem Rel.start {X : Mem Int16} {r : Nat} (h : r + 256 ≤ X.size) : Rel X r X (part X r) :=
  ⟨rfl, part_size h, fun _ hj => (part_get h hj).symm, fun _ _ => rfl⟩

theorem Rel.wr {X X' : Mem Int16} {r j : Nat} {p : Poly} {x : Int16} (h : Rel X r X' p) (hj : j < 256) (hr : r + 256 ≤ X.size) :
    Sim (Rel X r) (wr X' (r + j) x) (wr p j x) := by
  unfold Verif.wr
  rw [if_pos (by rw [h.size]; omega), if_pos (by rw [h.psize]; exact hj)]
  refine ⟨by rw [Array.size_setIfInBounds, h.size], by rw [Array.size_setIfInBounds, h.psize], fun i hi => ?_, fun i hi => ?_⟩
  · rw [Array.getElem?_setIfInBounds, Array.getElem?_setIfInBounds, h.size, h.psize]
    by_cases e : j = i
    · subst e
      rw [if_pos rfl, if_pos rfl, if_pos (by omega), if_pos hj]
    · rw [if_neg (by omega), if_neg e, h.inside i hi]
  · rw [Array.getElem?_setIfInBounds, if_neg (by omega), h.outside i hi]

/-- A read of a polynomial that is not written to. -/
theorem Rel.rd {X X' : Mem Int16} {r a j : Nat} {p : Poly} (h : Rel X r X' p) (ha : a + 256 ≤ X.size) (hj : j < 256) (hd : r + 256 ≤ a ∨ a + 256 ≤ r) :
    Sim Eq (rd X' (a + j)) (rd (part X a) j) :=
  sim_rd (by rw [part_get ha hj]; exact h.outside _ (by omega))

theorem Rel.rdr {X X' : Mem Int16} {r j : Nat} {p : Poly} (h : Rel X r X' p) (hj : j < 256) : Sim Eq (Verif.rd X' (r + j)) (Verif.rd p j) :=
  sim_rd (h.inside j hj)

/-- A loop that for each index computes from the two operands at this index and then stores. -/
theorem sim_pointwise {X : Mem Int16} {r a b : Nat} (hr : r + 256 ≤ X.size) (ha : a + 256 ≤ X.size) (hb : b + 256 ≤ X.size) (hra : r ≤ a ∨ a + 256 ≤ r) (hrb : r ≤ b ∨ b + 256 ≤ r)
    (f : Int16 → Int16 → C Int16) :
    Sim (Rel X r) (cfor 0 KYBER_N X fun i X => do let y ← f (← rd X (a + i)) (← rd X (b + i)); wr X (r + i) y)
      (cfor 0 KYBER_N (part X r) fun i p => do let y ← f (← rd (part X a) i) (← rd (part X b) i); wr p i y) := by
  refine (sim_cfor (R := fun k X' p => Rel X r X' p ∧ ∀ j, r + k ≤ j → X'[j]? = X[j]?) ⟨Rel.start hr, fun _ _ => rfl⟩ fun k X' p hk h => ?_).mono fun _ _ h => h.1
  have hk' : k < 256 := hk
  have rdx : ∀ o, o + 256 ≤ X.size → (r ≤ o ∨ o + 256 ≤ r) → Sim Eq (rd X' (o + k)) (rd (part X o) k) := fun o ho hro => sim_rd (by
    rw [part_get ho hk']
    rcases hro with hro | hro
    · exact h.2 _ (by omega)
    · exact h.1.outside _ (by omega))
  refine (rdx a ha hra).bind fun x x' hx => (rdx b hb hrb).bind fun y y' hy => ?_
  subst hx hy
  refine Sim.same fun z => ?_
  have hw := h.1.wr (x := z) hk' hr
  unfold wr at hw ⊢
  rw [if_pos (by rw [h.1.size]; omega), if_pos (by rw [h.1.psize]; exact hk')] at hw ⊢
  exact ⟨hw, fun j hj => by rw [Array.getElem?_setIfInBounds, if_neg (by omega), h.2 j (by omega)]⟩

theorem sim_poly_add {X : Mem Int16} {r a b : Nat} (hr : r + 256 ≤ X.size) (ha : a + 256 ≤ X.size) (hb : b + 256 ≤ X.size) (hra : r ≤ a ∨ a + 256 ≤ r) (hrb : r ≤ b ∨ b + 256 ≤ r) :
    Sim (Rel X r) (poly_add_in X r a b) (poly_add (part X r) (part X a) (part X b)) := by
  have := sim_pointwise hr ha hb hra hrb fun x y => do i16c (← iadd x.toInt y.toInt)
  simp only [bind_assoc] at this
  exact this

theorem sim_poly_sub {X : Mem Int16} {r a b : Nat} (hr : r + 256 ≤ X.size) (ha : a + 256 ≤ X.size) (hb : b + 256 ≤ X.size) (hra : r ≤ a ∨ a + 256 ≤ r) (hrb : r ≤ b ∨ b + 256 ≤ r) :
    Sim (Rel X r) (poly_sub_in X r a b) (poly_sub (part X r) (part X a) (part X b)) := by
  have := sim_pointwise hr ha hb hra hrb fun x y => do i16c (← isub x.toInt y.toInt)
  simp only [bind_assoc] at this
  exact this

theorem sim_basemul {X X' : Mem Int16} {p : Poly} {r a b o : Nat} {z : Int16} (h : Rel X r X' p) (hr : r + 256 ≤ X.size) (ha : a + 256 ≤ X.size) (hb : b + 256 ≤ X.size)
    (hra : r + 256 ≤ a ∨ a + 256 ≤ r) (hrb : r + 256 ≤ b ∨ b + 256 ≤ r) (ho : o + 1 < 256) :
    Sim (Rel X r) (basemul_in X' (r + o) (a + o) (b + o) z) (basemul p (part X a) (part X b) o z) := by
  unfold basemul_in basemul
  simp only [Nat.add_assoc]
  have A := fun {X' p} (h : Rel X r X' p) j (hj : j < 256) => h.rd ha hj hra
  have B := fun {X' p} (h : Rel X r X' p) j (hj : j < 256) => h.rd hb hj hrb
  refine (A h _ ho).bind fun _ _ e => (B h _ ho).bind fun _ _ e' => ?_
  subst e e'
  refine Sim.same fun _ => (h.wr (by omega) hr).bind fun X1 p1 h => (h.rdr (by omega)).bind fun _ _ e => ?_
  subst e
  refine Sim.same fun _ => (h.wr (by omega) hr).bind fun X1 p1 h => (A h _ (by omega)).bind fun _ _ e => (B h _ (by omega)).bind fun _ _ e' => ?_
  subst e e'
  refine Sim.same fun _ => (h.rdr (by omega)).bind fun _ _ e => ?_
  subst e
  refine Sim.same fun _ => Sim.same fun _ => (h.wr (by omega) hr).bind fun X1 p1 h => (A h _ (by omega)).bind fun _ _ e => (B h _ ho).bind fun _ _ e' => ?_
  subst e e'
  refine Sim.same fun _ => (h.wr ho hr).bind fun X1 p1 h => (A h _ ho).bind fun _ _ e => (B h _ (by omega)).bind fun _ _ e' => ?_
  subst e e'
  refine Sim.same fun _ => (h.rdr ho).bind fun _ _ e => ?_
  subst e
  exact Sim.same fun _ => Sim.same fun _ => h.wr ho hr

theorem sim_poly_basemul {X : Mem Int16} {r a b : Nat} (hr : r + 256 ≤ X.size) (ha : a + 256 ≤ X.size) (hb : b + 256 ≤ X.size) (hra : r + 256 ≤ a ∨ a + 256 ≤ r)
    (hrb : r + 256 ≤ b ∨ b + 256 ≤ r) : Sim (Rel X r) (poly_basemul_montgomery_in X r a b) (poly_basemul_montgomery (part X r) (part X a) (part X b)) := by
  refine sim_cfor (R := fun _ => Rel X r) (Rel.start hr) fun k X' p hk h => Sim.same fun _ => ?_
  have hk' : k < 64 := hk
  refine (sim_basemul h hr ha hb hra hrb (by omega)).bind fun X1 p1 h => ?_
  exact Sim.same fun _ => Sim.same fun _ => Sim.same fun _ => sim_basemul h hr ha hb hra hrb (by omega)

/-- The vector of polynomials at offset `o` of `X`. -/
def parts (p : ParamSet) (X : Mem Int16) (o : Nat) : Polyvec := Array.ofFn fun i : Fin (KYBER_K p) => part X (o + 256 * i)

theorem parts_get {p : ParamSet} {X : Mem Int16} {o i : Nat} (hi : i < KYBER_K p) : (parts p X o)[i]? = some (part X (o + 256 * i)) := by
  unfold parts
  rw [Array.getElem?_ofFn, dif_pos hi]

theorem part_congr {X X' : Mem Int16} {o : Nat} (h : o + 256 ≤ X.size) (hs : X'.size = X.size) (he : ∀ j, j < 256 → X'[o + j]? = X[o + j]?) : part X' o = part X o := by
  apply Array.ext_getElem?
  intro j
  by_cases hj : j < 256
  · rw [part_get h hj, part_get (by rw [hs]; exact h) hj, he j hj]
  · rw [Array.getElem?_eq_none (by rw [part_size (by rw [hs]; exact h)]; omega), Array.getElem?_eq_none (by rw [part_size h]; omega)]

theorem Rel.part {X X' : Mem Int16} {r : Nat} {q : Poly} (h : Rel X r X' q) (hr : r + 256 ≤ X.size) : part X' r = q := by
  apply Array.ext_getElem?
  intro j
  by_cases hj : j < 256
  · rw [part_get (by rw [h.size]; exact hr) hj, h.inside j hj]
  · rw [Array.getElem?_eq_none (by rw [part_size (by rw [h.size]; exact hr)]; omega), Array.getElem?_eq_none (by rw [h.psize]; omega)]

/-- `X'` is `X` with the vector at offset `r` replaced by `v`. -/
structure RelV (p : ParamSet) (X : Mem Int16) (r : Nat) (X' : Mem Int16) (v : Polyvec) : Prop where
  size : X'.size = X.size
  inside : v = parts p X' r
  outside : ∀ j, j < r ∨ r + 256 * KYBER_K p ≤ j → X'[j]? = X[j]?

theorem sim_at {S : α → β → Prop} {m : C α} {v : Array γ} {i : Nat} {x : γ} {f : γ → C β} (h : v[i]? = some x) (hs : Sim S m (f x)) : Sim S m (at' v i >>= f) := by
  have e : at' v i >>= f = C.bind (.ok x [.ld i]) f := by unfold at'; rw [h]; rfl
  rw [e]
  simp only [C.bind]
  revert hs
  cases m <;> cases f x <;> simp [Sim]

theorem sim_right {R : α → β → Prop} {S : α → γ → Prop} {m : C α} {m' : C β} {g : β → C γ} (h : Sim R m m') (hg : ∀ v w, R v w → Sim S (pure v) (g w)) : Sim S m (m' >>= g) := by
  have := h.bind (f := pure) hg
  rwa [bind_pure] at this

theorem sim_polyvec_add {p : ParamSet} {X : Mem Int16} {r a b : Nat} (hr : r + 256 * KYBER_K p ≤ X.size) (ha : a + 256 * KYBER_K p ≤ X.size) (hb : b + 256 * KYBER_K p ≤ X.size)
    (hra : r ≤ a ∨ a + 256 * KYBER_K p ≤ r) (hrb : r ≤ b ∨ b + 256 * KYBER_K p ≤ r) :
    Sim (RelV p X r) (polyvec_add_in p X r a b) (polyvec_add p (parts p X r) (parts p X a) (parts p X b)) := by
  refine (sim_cfor (R := fun k X' v => (X'.size = X.size ∧ v.size = KYBER_K p ∧ ∀ i, i < KYBER_K p → v[i]? = some (part X' (r + 256 * i))) ∧
    ∀ j, j < r ∨ r + 256 * k ≤ j → X'[j]? = X[j]?) ⟨⟨rfl, Array.size_ofFn, fun i hi => parts_get hi⟩, fun _ _ => rfl⟩ fun k X' v hk h => ?_).mono fun X' v h =>
      ⟨h.1.1, Array.ext_getElem? fun i => ?_, h.2⟩
  · obtain ⟨⟨hs, hvs, hv⟩, ho⟩ := h
    have hpa : ∀ o, o + 256 * KYBER_K p ≤ X.size → (r ≤ o ∨ o + 256 * KYBER_K p ≤ r) → part X' (o + 256 * k) = part X (o + 256 * k) := fun o ho' hro =>
      part_congr (by omega) hs fun j hj => ho _ (by omega)
    refine sim_at (hv k hk) (sim_at (parts_get hk) (sim_at (parts_get hk) ?_))
    rw [← hpa a ha hra, ← hpa b hb hrb]
    refine sim_right (sim_poly_add (X := X') (r := r + 256 * k) (a := a + 256 * k) (b := b + 256 * k) (by omega) (by omega) (by omega) (by omega) (by omega)) fun X1 q h1 => ?_
    unfold put'
    rw [if_pos (by rw [hvs]; exact hk)]
    refine ⟨⟨h1.size.trans hs, by rw [Array.size_setIfInBounds, hvs], fun i hi => ?_⟩, fun j hj => ?_⟩
    · rw [Array.getElem?_setIfInBounds]
      by_cases e : k = i
      · subst e
        rw [if_pos rfl, if_pos (by rw [hvs]; exact hk), h1.part (by omega)]
      · rw [if_neg e, hv i hi]
        congr 1
        exact (part_congr (by omega) h1.size fun j hj => h1.outside _ (by omega)).symm
    · rw [h1.outside j (by omega), ho j (by omega)]
  · by_cases hi : i < KYBER_K p
    · rw [h.1.2.2 i hi, parts_get hi]
    · rw [Array.getElem?_eq_none (by rw [h.1.2.1]; omega), Array.getElem?_eq_none (by unfold parts; rw [Array.size_ofFn]; omega)]

end Model
end Verif
