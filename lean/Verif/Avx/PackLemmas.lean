import Verif.Avx.PackSym
import Verif.Avx.Pack
import Verif.Avx.PolyvecProof
import Verif.Proof.Roundtrip
import Verif.Proof.Cbd

/-! # From symbolic runs on bits to calls -/

namespace Verif.Avx
open Verif.Spec Verif.Proof
open Verif.Model (ParamSet KYBER_K Polyvec)

/-! ## Sizes of objects do not change -/

section
variable {D : Type}

theorem writeCells_length : ∀ {l : List (Option D)} {i : Nat} {as : List D} {l' : List (Option D)}, writeCells l i as = .ok l' → l'.length = l.length
  | l, _, [], l', h => by cases l <;> (simp only [writeCells, Except.ok.injEq] at h; rw [h])
  | [], _, _ :: _, l', h => by simp [writeCells] at h
  | c :: l, i + 1, a :: as, l', h => by
    unfold writeCells at h
    split at h
    · rename_i l1 h1; cases h; simp [writeCells_length h1]
    · simp at h
  | _ :: l, 0, a :: as, l', h => by
    unfold writeCells at h
    split at h
    · rename_i l1 h1; cases h; simp [writeCells_length h1]
    · simp at h

theorem store_length {S : Sem D} {o o' : Obj D} {off : Nat} {ws : List D} {al : Bool} (h : o.store S off ws al = .ok o') :
    o'.cells.length = o.cells.length := by
  unfold Obj.store at h
  repeat' split at h
  all_goals first | (simp at h; done) | (rename_i h1; cases h; exact writeCells_length h1)

theorem setAt_map {α β : Type} (g : α → β) {x : α} : ∀ {l : List α} {i : Nat} {y : α}, l[i]? = some y → g x = g y → (setAt x l i).map g = l.map g
  | [], _, _, h, _ => by simp at h
  | z :: l, 0, y, h, hg => by simp at h; subst h; simp [setAt, hg]
  | z :: l, i + 1, y, h, hg => by simp at h; simp [setAt, setAt_map g h hg]

theorem step_length {S : Sem D} {s t : VS D} {i : I} (h : step S s i = .ok t) : t.objs.map (·.cells.length) = s.objs.map (·.cells.length) := by
  cases i with
  | st r o off n al =>
    simp only [step] at h
    split at h
    · rename_i x ob _ hob
      split at h
      · simp at h
      · rename_i ob' hs
        cases h
        exact setAt_map _ hob (store_length hs)
    · simp at h
    · simp at h
  | op d f srcs n =>
    simp only [step] at h
    repeat' split at h
    all_goals first | (simp at h; done) | (cases h; rfl)
  | ld d o off n tot al =>
    simp only [step] at h
    repeat' split at h
    all_goals first | (simp at h; done) | (cases h; rfl)
  | bcastq d o off =>
    simp only [step] at h
    repeat' split at h
    all_goals first | (simp at h; done) | (cases h; rfl)
  | set d ws => cases h; rfl

theorem run_length {S : Sem D} : ∀ {p : List I} {s t : VS D}, run S p s = .ok t → t.objs.map (·.cells.length) = s.objs.map (·.cells.length)
  | [], s, t, h => by cases h; rfl
  | i :: p, s, t, h => by
    unfold run at h
    split at h
    · rename_i s' hs; rw [run_length h, step_length hs]
    · simp at h

/-- `call_runs` with the number of cells. -/
theorem call_runs_len {S : Sem D} {R : D → W → Prop} (hs : Sound S evalW R) {w : List Nat} {p : List I} {o0 : Obj D} {objs0 : List (Obj D)}
    {f : List (Option D) → Bool} (hw : p.all (I.stIn w) = true) (hrun : headIs (run S p ⟨noRegs, o0 :: objs0⟩) f = true)
    {rest : List (Option W)} {rests : List (List (Option W))} {objs : List (Obj W)} (hrel : OsRel R (rest :: rests) (o0 :: objs0) objs) :
    Runs (call w p objs) (fun o => ∃ cs, f cs = true ∧ cs.length = o0.cells.length ∧ CRel R rest cs o.cells) := by
  have hrun' : headIs (run S p ⟨noRegs, o0 :: objs0⟩) (fun cs => f cs && Nat.beq cs.length o0.cells.length) = true := by
    obtain ⟨g, o, os, hr, hf⟩ := headIs_out hrun
    have := run_length hr
    simp only [List.map_cons, List.cons.injEq] at this
    rw [hr]
    show (f o.cells && Nat.beq o.cells.length o0.cells.length) = true
    rw [hf, this.1]; simp
  refine (call_runs hs hw hrun' hrel).mono ?_
  rintro o ⟨cs, hf, hc⟩
  rw [Bool.and_eq_true] at hf
  exact ⟨cs, hf.1, Nat.eq_of_beq_eq_true hf.2, hc⟩

end

/-! ## Objects -/

theorem varCells_length (f : Nat → Nat) : ∀ (n i : Nat), (varCells f n i).length = n
  | 0, _ => rfl
  | n + 1, i => by rw [varCells, List.length_cons, varCells_length]

theorem varCells_get (f : Nat → Nat) : ∀ (n i j : Nat), (varCells f n i)[j]? = if j < n then some (some (.ex (.v 1 (f (i + j))))) else none
  | 0, i, j => by simp [varCells]
  | n + 1, i, 0 => by simp [varCells]
  | n + 1, i, j + 1 => by
    rw [varCells, List.getElem?_cons_succ, varCells_get f n (i + 1) j, show i + 1 + j = i + (j + 1) from by omega]
    simp

theorem noCells_length : ∀ (n : Nat), (noCells n).length = n
  | 0 => rfl
  | n + 1 => by rw [noCells, List.length_cons, noCells_length]

theorem noCells_get : ∀ (n j : Nat) (a : V), (noCells n)[j]? ≠ some (some a)
  | 0, j, a => by simp [noCells]
  | n + 1, 0, a => by simp [noCells]
  | n + 1, j + 1, a => by rw [noCells, List.getElem?_cons_succ]; exact noCells_get n j a

theorem noCells_rel {E : Env} {n : Nat} {b al : Bool} {o : Obj W} (hb : o.wide = b) (ha : o.al = al) (hn : n ≤ o.cells.length) :
    ObRel (V.rel E) ⟨b, al, noCells n⟩ o (o.cells.drop n) := by
  refine ⟨hb, ha, ?_⟩
  have := CRel.of (R := V.rel E) (cs := noCells n) (ds := o.cells) (by rwa [noCells_length]) (fun i a hi => absurd hi (noCells_get n i a))
  rwa [noCells_length] at this

theorem varCells_rel {E : Env} {f : Nat → Nat} {n : Nat} {b al : Bool} {o : Obj W} (hb : o.wide = b) (ha : o.al = al) (hn : n ≤ o.cells.length)
    (h : ∀ i, i < n → o.cells[i]? = some (some (E.ρ 1 (f i)))) : ObRel (V.rel E) ⟨b, al, varCells f n 0⟩ o (o.cells.drop n) := by
  refine ⟨hb, ha, ?_⟩
  have := CRel.of (R := V.rel E) (cs := varCells f n 0) (ds := o.cells) (by rwa [varCells_length]) ?_
  · rwa [varCells_length] at this
  · intro i a hi
    rw [varCells_get] at hi
    split at hi
    · rename_i h'
      simp only [Option.some.injEq, Nat.zero_add] at hi
      subst hi
      exact ⟨_, h i h', rfl⟩
    · simp at hi

theorem qV_rel (E : Env) : ObRel (V.rel E) qV (tabObj qdata) [] := by
  refine ⟨rfl, rfl, ?_⟩
  show CRel (V.rel E) [] (qdata.map fun x => some (.ex (.lit (x % 65536).toNat))) (qdata.map fun x => some (BitVec.ofInt 16 x))
  generalize qdata = l
  induction l with
  | nil => rfl
  | cons x l ih =>
    refine ⟨_, _, rfl, ⟨_, rfl, ?_⟩, ih⟩
    show BitVec.ofNat 16 (x % 65536).toNat = BitVec.ofInt 16 x
    apply BitVec.eq_of_toNat_eq
    simp only [BitVec.toNat_ofNat, BitVec.toNat_ofInt]
    omega

/-! ## Cells -/

theorem bitsBeq_get : ∀ {n : Nat} {as bs : List Bit}, bitsBeq n as bs = true → ∀ k, k < n → getB as k = getB bs k
  | 0, _, _, _, k, hk => by omega
  | n + 1, as, bs, h, k, hk => by
    unfold bitsBeq at h
    rw [Bool.and_eq_true] at h
    cases k with
    | zero =>
      have := Bit.beq_eq _ _ h.1
      cases as <;> cases bs <;> simp_all [hd, getB]
    | succ k =>
      have := bitsBeq_get h.2 k (by omega)
      have e : ∀ l : List Bit, getB (tl l) k = getB l (k + 1) := fun l => by cases l <;> simp [tl, getB]
      rwa [e, e] at this

theorem cellsBits_get {name : Ex → Option (Nat × Nat)} {num : Nat → Nat → Nat} {f : Nat → List Bit} : ∀ {cs : List (Option V)} {i : Nat},
    cellsBits name num f cs i = true → ∀ m, m < cs.length → ∃ v bs, cs[m]? = some (some v) ∧ v.bits name num = some bs ∧
      ∀ k, k < 16 → getB bs k = getB (f (i + m)) k
  | [], i, _, m, hm => by simp at hm
  | c :: cs, i, h, m, hm => by
    cases c with
    | none => simp [cellsBits] at h
    | some v =>
      unfold cellsBits at h
      split at h
      · rename_i bs hbs
        rw [Bool.and_eq_true] at h
        cases m with
        | zero => exact ⟨v, bs, rfl, hbs, bitsBeq_get h.1⟩
        | succ m =>
          obtain ⟨v', bs', h1, h2, h3⟩ := cellsBits_get h.2 m (by simpa using hm)
          exact ⟨v', bs', by simpa using h1, h2, by rwa [show i + 1 + m = i + (m + 1) from by omega] at h3⟩
      · simp at h

theorem cellsMh_get {f : Nat → List Bit} {g : Nat → Nat} : ∀ {cs : List (Option V)} {i : Nat},
    cellsMh f g cs i = true → ∀ m, m < cs.length → ∃ bs, cs[m]? = some (some (.mh bs (g (i + m)))) ∧ ∀ k, k < 16 → getB bs k = getB (f (i + m)) k
  | [], i, _, m, hm => by simp at hm
  | none :: cs, i, h, m, hm => by simp [cellsMh] at h
  | some (.ex _) :: cs, i, h, m, hm => by simp [cellsMh] at h
  | some (.w _) :: cs, i, h, m, hm => by simp [cellsMh] at h
  | some (.mh bs n) :: cs, i, h, m, hm => by
    unfold cellsMh at h
    rw [Bool.and_eq_true, Bool.and_eq_true] at h
    cases m with
    | zero => exact ⟨bs, by rw [Nat.add_zero, ← Nat.eq_of_beq_eq_true h.1.2]; rfl, bitsBeq_get h.1.1⟩
    | succ m =>
      obtain ⟨bs', h1, h3⟩ := cellsMh_get h.2 m (by simpa using hm)
      rw [show i + 1 + m = i + (m + 1) from by omega] at h1 h3
      exact ⟨bs', by simpa using h1, h3⟩

theorem V.bits_ok {E : Env} {name : Ex → Option (Nat × Nat)} (hn : E.Names name) {v : V} {bs : List Bit} (hb : v.bits name E.num = some bs)
    {x : W} (h : V.rel E v x) : BR E.α bs x := by
  cases v with
  | ex e => have := exBits_ok hn e bs hb; rwa [show e.eval E.ρ = x from h] at this
  | w bs' => cases hb; exact h
  | mh _ _ => simp [V.bits] at hb

/-- The bits of a word. -/
def Desc (α : Nat → Bool) (l : List Bit) (x : W) : Prop := ∀ k, k < 16 → (getB l k).holds α (x.getLsbD k)

theorem desc_cells {E : Env} {name : Ex → Option (Nat × Nat)} (hn : E.Names name) {f : Nat → List Bit} {cs : List (Option V)} {n : Nat}
    (h : cellsBits name E.num f (cs.take n) 0 = true) {rest ds : List (Option W)} (hc : CRel (V.rel E) rest cs ds) (m : Nat) (hm : m < n) (hl : n ≤ cs.length) :
    ∃ x, ds[m]? = some (some x) ∧ Desc E.α (f m) x := by
  obtain ⟨v, bs, h1, h2, h3⟩ := cellsBits_get h m (by simp; omega)
  rw [List.getElem?_take_of_lt hm] at h1
  obtain ⟨x, hx, hR⟩ := hc.get.2.2 m v h1
  refine ⟨x, hx, fun k hk => ?_⟩
  rw [Nat.zero_add] at h3
  rw [← h3 k hk]
  exact V.bits_ok hn h2 hR k

theorem desc_mh {E : Env} {f : Nat → List Bit} {g : Nat → Nat} {cs : List (Option V)}
    (h : cellsMh f g cs 0 = true) {rest ds : List (Option W)} (hc : CRel (V.rel E) rest cs ds) (m : Nat) (hm : m < cs.length) :
    ∃ y, ds[m]? = some (some (mulhrsW y (BitVec.ofNat 16 (g m)))) ∧ Desc E.α (f m) y := by
  obtain ⟨bs, h1, h3⟩ := cellsMh_get h m hm
  obtain ⟨x, hx, y, hy, hxy⟩ := hc.get.2.2 m _ h1
  rw [Nat.zero_add] at h3 hxy
  refine ⟨y, by rw [hx, hxy], fun k hk => ?_⟩
  rw [← h3 k hk]
  exact hy k

/-! ## Environments -/

/-- The words named by `T`, each bit an atom of its own. -/
def envP (x : Nat → W) (T : Ex → Ex) : Env where
  ρ _ i := x i
  τ i := (T (.v 1 i)).eval fun _ i => x i
  num := numP
  α a := ((T (.v 1 (a / 96))).eval fun _ i => x i).getLsbD (a / 6 % 16)

theorem nameT_eq {T : Ex → Ex} {w : Nat} {e : Ex} {n w' : Nat} (h : nameT T w e = some (n, w')) : e = T (.v 1 n) ∧ w' = w := by
  unfold nameT at h
  split at h
  · rename_i hb
    simp only [Option.some.injEq, Prod.mk.injEq] at h
    obtain ⟨rfl, rfl⟩ := h
    exact ⟨Ex.beq_eq _ _ hb, rfl⟩
  · simp at h

theorem numP_div (n k : Nat) (hk : k < 16) : numP n k / 96 = n ∧ numP n k / 6 % 16 = k := by unfold numP; omega

theorem envP_names {x : Nat → W} {T : Ex → Ex} {w : Nat} (hw : w ≤ 16) (h : ∀ i, ((envP x T).τ i).toNat < 2 ^ w) : (envP x T).Names (nameT T w) := by
  intro e n w' he
  obtain ⟨rfl, rfl⟩ := nameT_eq he
  refine ⟨rfl, fun k hk => ?_, h n⟩
  obtain ⟨h1, h2⟩ := numP_div n k (by omega)
  show ((T (.v 1 (numP n k / 96))).eval _).getLsbD (numP n k / 6 % 16) = _
  rw [h1, h2]; rfl

theorem envP_atom {x : Nat → W} {T : Ex → Ex} {n k : Nat} (hk : k < 16) {b : Bool} (h : (atomB n k).holds (envP x T).α b) :
    b = ((envP x T).τ n).getLsbD k := by
  have h2 := Bit.atom_holds (envP x T).α (numP n k)
  have : b = (envP x T).α (numP n k) := by
    rw [show atomB n k = .t _ _ from rfl] at h
    rw [show Bit.atom (numP n k) = .t _ _ from rfl] at h2
    exact h.trans h2.symm
  obtain ⟨h1, h2⟩ := numP_div n k hk
  rw [this]
  show ((T (.v 1 (numP n k / 96))).eval _).getLsbD (numP n k / 6 % 16) = _
  rw [h1, h2]; rfl

/-- Bytes, with the atoms of consecutive groups of `g` bits in one block. -/
def envG (g : Nat) (x : Nat → W) : Env where
  ρ _ i := x i
  τ i := x i
  num := numG g
  α a := (x ((g * (a / 6) + a % 6) / 8)).getLsbD ((g * (a / 6) + a % 6) % 8)

theorem numG_inv {g : Nat} (hg : 0 < g) (hg6 : g ≤ 6) (n k : Nat) : g * (numG g n k / 6) + numG g n k % 6 = 8 * n + k := by
  unfold numG
  have h1 : (8 * n + k) % g < g := Nat.mod_lt _ hg
  have h2 := Nat.div_add_mod (8 * n + k) g
  rw [show (6 * ((8 * n + k) / g) + (8 * n + k) % g) / 6 = (8 * n + k) / g from by omega,
    show (6 * ((8 * n + k) / g) + (8 * n + k) % g) % 6 = (8 * n + k) % g from by omega, h2]

theorem envG_names {g : Nat} (hg : 0 < g) (hg6 : g ≤ 6) {x : Nat → W} (h : ∀ i, (x i).toNat < 2 ^ 8) : (envG g x).Names nameB := by
  intro e n w' he
  obtain ⟨rfl, rfl⟩ := nameT_eq he
  refine ⟨rfl, fun k hk => ?_, h n⟩
  show (x ((g * (numG g n k / 6) + numG g n k % 6) / 8)).getLsbD ((g * (numG g n k / 6) + numG g n k % 6) % 8) = (x n).getLsbD k
  rw [numG_inv hg hg6, show (8 * n + k) / 8 = n from by omega, show (8 * n + k) % 8 = k from by omega]

/-! ## Calls that write bytes -/

theorem objBytes_get {r : Mem UInt8} {off : Nat} (ho : off ≤ r.size) {o : Obj W} {i : Nat} {x : W} (h : o.cells[i]? = some (some x)) :
    (objBytes r off o)[off + i]? = some (some (UInt8.ofBitVec (x.setWidth 8))) := by
  have hl : (r.toList.take off).length = off := by simp; omega
  simp [objBytes, List.getElem?_append_right (show (r.toList.take off).length ≤ off + i by omega), hl, h]

theorem objBytes_low {r : Mem UInt8} {off : Nat} (ho : off ≤ r.size) {o : Obj W} {i : Nat} (h : i < off) : (objBytes r off o)[i]? = r[i]? := by
  have hl : (r.toList.take off).length = off := by simp; omega
  simp [objBytes, List.getElem?_append_left (show i < (r.toList.take off).length by omega), List.getElem?_take_of_lt h]

theorem byte_wide (x : UInt8) : UInt8.ofBitVec (((x.toBitVec.setWidth 16 : W)).setWidth 8) = x := by
  apply UInt8.toBitVec_inj.mp
  apply BitVec.eq_of_toNat_eq
  have := x.toBitVec.isLt
  simp

/-- A call writing bytes: the cells after the first `N` are unchanged. -/
theorem callBytes_runs {E : Env} {name : Ex → Option (Nat × Nat)} (hn : E.Names name) {w : List Nat} {p : List I} {N : Nat} {objs0 : List (Obj V)}
    {f : List (Option V) → Bool} (hw : p.all (I.stIn w) = true)
    (hrun : headIs (run (V.sem name E.num) p ⟨noRegs, ⟨false, false, noCells N⟩ :: objs0⟩) f = true)
    {r : Mem UInt8} {off : Nat} (hr : off + N ≤ r.size) {objs : List (Obj W)} {rests : List (List (Option W))} (hs : OsRel (V.rel E) rests objs0 objs) :
    Runs (callBytes w p false r off objs) (fun r' => r'.size = r.size ∧ (∀ j, (j < off ∨ off + N ≤ j) → r'[j]? = r[j]?) ∧
      ∃ cs ds, f cs = true ∧ cs.length = N ∧ CRel (V.rel E) ((bytesObj false r off).cells.drop N) cs ds ∧
        ∀ i x, ds[i]? = some (some x) → r'[off + i]? = some (some (UInt8.ofBitVec (x.setWidth 8)))) := by
  unfold callBytes
  rw [if_pos (by omega), runs_bind]
  have hl : (bytesObj false r off).cells.length = r.size - off := by simp [bytesObj]
  refine Runs.mono (call_runs_len (V.sound hn) hw hrun ⟨noCells_rel rfl rfl (by omega), hs⟩) ?_
  rintro o ⟨cs, hf, hlen, hc⟩
  rw [runs_pure]
  replace hlen : cs.length = N := by rw [hlen]; exact noCells_length N
  obtain ⟨h1, h2, _⟩ := hc.get
  rw [hlen] at h1 h2
  rw [List.length_drop, hl] at h1
  refine ⟨by simp [objBytes, h1]; omega, fun j hj => ?_, cs, o.cells, hf, hlen, hc, fun i x hx => objBytes_get (by omega) hx⟩
  rcases hj with hj | hj
  · exact objBytes_low (by omega) hj
  · have hl' : (r.toList.take off).length = off := by simp; omega
    have h3 : o.cells[j - off]? = (bytesObj false r off).cells[j - off]? := by
      have := congrArg (·[j - off - N]?) h2
      simp only [List.getElem?_drop] at this
      rwa [show N + (j - off - N) = j - off from by omega] at this
    have h4 : (bytesObj false r off).cells[j - off]? = (r[j]?).map (Option.map fun x => (x.toBitVec.setWidth 16 : W)) := by
      simp [bytesObj, show off + (j - off) = j from by omega]
    simp only [objBytes, List.getElem?_toArray]
    rw [List.getElem?_append_right (by omega), hl', List.getElem?_map, h3, h4]
    cases r[j]? with
    | none => rfl
    | some c =>
      cases c with
      | none => rfl
      | some x => simp [byte_wide]

end Verif.Avx
