import Verif.Avx.Shape

/-! # Larger objects

A program that runs without error on some objects also does on objects that are longer or have more cells initialised, with the same results in the cells of the former. -/

namespace Verif.Avx

variable {D : Type}

/-- `l'` has the initialised cells of `l`, and perhaps more cells, and perhaps more of them initialised. -/
inductive CLe : List (Option D) → List (Option D) → Prop
  | nil (l) : CLe [] l
  | none {l l'} (y) : CLe l l' → CLe (none :: l) (y :: l')
  | some {l l'} (a) : CLe l l' → CLe (some a :: l) (some a :: l')

theorem CLe.refl : ∀ l : List (Option D), CLe l l
  | [] => .nil _
  | .none :: l => .none _ (CLe.refl l)
  | .some a :: l => .some a (CLe.refl l)

structure OLe (o o' : Obj D) : Prop where
  wide : o.wide = o'.wide
  al : o.al = o'.al
  cells : CLe o.cells o'.cells

theorem OLe.refl (o : Obj D) : OLe o o := ⟨rfl, rfl, .refl _⟩

inductive OsLe : List (Obj D) → List (Obj D) → Prop
  | nil : OsLe [] []
  | cons {o o' l l'} : OLe o o' → OsLe l l' → OsLe (o :: l) (o' :: l')

theorem OsLe.get {l l' : List (Obj D)} (h : OsLe l l') {i : Nat} {o : Obj D} (ho : l[i]? = some o) : ∃ o', l'[i]? = some o' ∧ OLe o o' := by
  induction h generalizing i with
  | nil => simp at ho
  | cons h1 h2 ih =>
    cases i with
    | zero => simp at ho; subst ho; exact ⟨_, rfl, h1⟩
    | succ i => exact ih (by simpa using ho)

theorem OsLe.set {l l' : List (Obj D)} (h : OsLe l l') {o o' : Obj D} (ho : OLe o o') (i : Nat) : OsLe (setAt o l i) (setAt o' l' i) := by
  induction h generalizing i with
  | nil => exact .nil
  | cons h1 h2 ih =>
    cases i with
    | zero => exact .cons ho h2
    | succ i => exact .cons h1 (ih i)

theorem readCells_mono {l l' : List (Option D)} (h : CLe l l') : ∀ (i n : Nat) (r : List D), readCells l i n = .ok r → readCells l' i n = .ok r := by
  induction h with
  | nil l =>
    intro i n r hr
    cases n with
    | zero => simp only [readCells] at hr ⊢; exact hr
    | succ n => cases i <;> simp [readCells] at hr
  | none y h ih =>
    intro i n r hr
    cases n with
    | zero => simp only [readCells] at hr ⊢; exact hr
    | succ n =>
      cases i with
      | zero => simp [readCells] at hr
      | succ i =>
        simp only [readCells] at hr
        simp only [readCells]
        exact ih i (n + 1) r hr
  | some a h ih =>
    intro i n r hr
    cases n with
    | zero => simp only [readCells] at hr ⊢; exact hr
    | succ n =>
      cases i with
      | zero =>
        simp only [readCells] at hr ⊢
        split at hr
        · rename_i as e
          rw [ih 0 n as e]
          exact hr
        · cases hr
      | succ i =>
        simp only [readCells] at hr ⊢
        exact ih i (n + 1) r hr

theorem writeCells_mono {l l' : List (Option D)} (h : CLe l l') : ∀ (i : Nat) (as : List D) (r : List (Option D)), writeCells l i as = .ok r → ∃ r', writeCells l' i as = .ok r' ∧ CLe r r' := by
  have main : ∀ {y z : Option D} {l l' : List (Option D)}, CLe l l' → CLe (y :: l) (z :: l') →
      (∀ (i : Nat) (as : List D) (r : List (Option D)), writeCells l i as = .ok r → ∃ r', writeCells l' i as = .ok r' ∧ CLe r r') → (∀ {r r'}, CLe r r' → CLe (y :: r) (z :: r')) →
      ∀ (i : Nat) (as : List D) (r : List (Option D)), writeCells (y :: l) i as = .ok r → ∃ r', writeCells (z :: l') i as = .ok r' ∧ CLe r r' := by
    intro y z l l' h hyz ih hc i as r hr
    cases as with
    | nil =>
      simp only [writeCells] at hr ⊢
      cases hr
      exact ⟨_, rfl, hyz⟩
    | cons a as =>
      cases i with
      | zero =>
        simp only [writeCells] at hr ⊢
        split at hr
        · rename_i l2 e
          obtain ⟨r', e', h'⟩ := ih 0 as l2 e
          rw [e']
          cases hr
          exact ⟨_, rfl, .some a h'⟩
        · cases hr
      | succ i =>
        simp only [writeCells] at hr ⊢
        split at hr
        · rename_i l2 e
          obtain ⟨r', e', h'⟩ := ih i (a :: as) l2 e
          rw [e']
          cases hr
          exact ⟨_, rfl, hc h'⟩
        · cases hr
  induction h with
  | nil l =>
    intro i as r hr
    cases as with
    | nil => simp only [writeCells] at hr ⊢; cases hr; exact ⟨_, rfl, .nil _⟩
    | cons a as => cases i <;> simp [writeCells] at hr
  | none y h ih => exact main h (.none y h) ih (.none y)
  | some a h ih => exact main h (.some a h) ih (.some a)

theorem alignOk_mono {o o' : Obj D} (h : OLe o o') (off : Nat) (al : Bool) : o'.alignOk off al = o.alignOk off al := by
  unfold Obj.alignOk; rw [h.wide, h.al]

theorem load_mono {S : Sem D} {o o' : Obj D} (h : OLe o o') {off n : Nat} {al : Bool} {r : List D} (hr : o.load S off n al = .ok r) : o'.load S off n al = .ok r := by
  unfold Obj.load at hr ⊢
  rw [alignOk_mono h, ← h.wide]
  split at hr
  · rename_i ha
    rw [if_pos ha]
    split at hr
    · rename_i hw
      rw [if_pos hw]
      exact readCells_mono h.cells _ _ _ hr
    · rename_i hw
      rw [if_neg hw]
      split at hr
      · rename_i bs e
        rw [readCells_mono h.cells _ _ _ e]
        exact hr
      · cases hr
  · cases hr

theorem store_mono {S : Sem D} {o o' : Obj D} (h : OLe o o') {off : Nat} {ws : List D} {al : Bool} {r : Obj D} (hr : o.store S off ws al = .ok r) :
    ∃ r', o'.store S off ws al = .ok r' ∧ OLe r r' := by
  unfold Obj.store at hr ⊢
  rw [alignOk_mono h, ← h.wide]
  split at hr
  · rename_i ha
    rw [if_pos ha]
    split at hr
    · rename_i hw
      rw [if_pos hw]
      split at hr
      · rename_i c e
        obtain ⟨c', e', h'⟩ := writeCells_mono h.cells _ _ _ e
        rw [e']
        cases hr
        exact ⟨_, rfl, by first | rfl | exact h.wide, h.al, h'⟩
      · cases hr
    · rename_i hw
      rw [if_neg hw]
      split at hr
      · split at hr
        · rename_i c e
          obtain ⟨c', e', h'⟩ := writeCells_mono h.cells _ _ _ e
          rw [e']
          cases hr
          exact ⟨_, rfl, by first | rfl | exact h.wide, h.al, h'⟩
        · cases hr
      · cases hr
  · cases hr

theorem step_mono {S : Sem D} {s t s' : VS D} (hr : s.regs = t.regs) (ho : OsLe s.objs t.objs) {i : I} (h : step S s i = .ok s') :
    ∃ t', step S t i = .ok t' ∧ s'.regs = t'.regs ∧ OsLe s'.objs t'.objs := by
  cases i with
  | op d f srcs n =>
    simp only [step] at h ⊢
    rw [← hr]
    split at h
    · cases h
    · split at h
      · cases h
      · cases h
        exact ⟨_, rfl, by simp [setReg, hr], ho⟩
  | ld d o off n tot al =>
    simp only [step] at h ⊢
    split at h
    · cases h
    · rename_i ob e
      obtain ⟨ob', e', hob⟩ := ho.get e
      rw [e']
      split at h
      · cases h
      · rename_i r er
        dsimp only
        rw [load_mono hob er]
        cases h
        exact ⟨_, rfl, by simp [setReg, hr], ho⟩
  | bcastq d o off =>
    simp only [step] at h ⊢
    split at h
    · cases h
    · rename_i ob e
      obtain ⟨ob', e', hob⟩ := ho.get e
      rw [e']
      split at h
      · cases h
      · rename_i r er
        dsimp only
        rw [load_mono hob er]
        cases h
        exact ⟨_, rfl, by simp [setReg, hr], ho⟩
  | st r o off n al =>
    simp only [step] at h ⊢
    rw [← hr]
    split at h
    · rename_i x ob e1 e2
      obtain ⟨ob', e', hob⟩ := ho.get e2
      rw [e']
      split at h
      · cases h
      · rename_i ob2 es
        obtain ⟨ob2', es', hob2⟩ := store_mono hob es
        simp only [e1]
        rw [es']
        cases h
        exact ⟨_, rfl, by rfl, ho.set hob2 o⟩
    · cases h
    · cases h
  | set d ws =>
    simp only [step] at h ⊢
    cases h
    exact ⟨_, rfl, by simp [setReg, hr], ho⟩

theorem run_mono {S : Sem D} {p : List I} {s t s' : VS D} (hr : s.regs = t.regs) (ho : OsLe s.objs t.objs) (h : run S p s = .ok s') :
    ∃ t', run S p t = .ok t' ∧ OsLe s'.objs t'.objs := by
  induction p generalizing s t with
  | nil =>
    simp only [run] at h ⊢
    cases h
    exact ⟨_, rfl, ho⟩
  | cons i p ih =>
    simp only [run] at h ⊢
    split at h
    · rename_i s1 e
      obtain ⟨t1, e1, h1, h2⟩ := step_mono hr ho e
      rw [e1]
      exact ih h1 h2 h
    · cases h

/-- The run of a program on shapes, on larger objects. -/
theorem shapeRun_mono {p : List I} {os os' : List (Obj Unit)} (h : OsLe os os') {cs : List (Option Unit)} (hr : shapeRun p os = .ok cs) : ∃ cs', shapeRun p os' = .ok cs' ∧ CLe cs cs' := by
  unfold shapeRun at hr ⊢
  split at hr
  · rename_i g o l e
    obtain ⟨t', e', hl⟩ := run_mono (s := ⟨noRegs, os⟩) (t := ⟨noRegs, os'⟩) rfl h e
    cases hr
    obtain ⟨g', os2⟩ := t'
    cases hl with
    | cons h1 h2 =>
      rw [e']
      exact ⟨_, rfl, h1.cells⟩
  · cases hr
  · cases hr

/-! ## The sizes of the objects do not change -/

theorem writeCells_len_eq : ∀ (l : List (Option D)) (i : Nat) (as : List D) (r : List (Option D)), writeCells l i as = .ok r → r.length = l.length
  | l, i, [], r, h => by
    have : r = l := by cases l <;> cases i <;> simp only [writeCells] at h <;> (cases h; rfl)
    rw [this]
  | [], i, _ :: _, r, h => by cases i <;> simp [writeCells] at h
  | c :: l, i + 1, a :: as, r, h => by
    simp only [writeCells] at h
    split at h
    · rename_i l' e
      cases h
      simp [writeCells_len_eq l i (a :: as) l' e]
    · cases h
  | _ :: l, 0, a :: as, r, h => by
    simp only [writeCells] at h
    split at h
    · rename_i l' e
      cases h
      simp [writeCells_len_eq l 0 as l' e]
    · cases h

theorem store_length {S : Sem D} {o r : Obj D} {off : Nat} {ws : List D} {al : Bool} (h : o.store S off ws al = .ok r) : r.cells.length = o.cells.length := by
  unfold Obj.store at h
  split at h
  · split at h
    · split at h
      · rename_i c e; cases h; exact writeCells_len_eq _ _ _ _ e
      · cases h
    · split at h
      · split at h
        · rename_i c e; cases h; exact writeCells_len_eq _ _ _ _ e
        · cases h
      · cases h
  · cases h

theorem setAt_sizes {l : List (Obj D)} {i : Nat} {o o' : Obj D} (ho : l[i]? = some o) (h : o'.cells.length = o.cells.length) :
    (setAt o' l i).map (fun o => o.cells.length) = l.map fun o => o.cells.length := by
  induction l generalizing i with
  | nil => rfl
  | cons x l ih =>
    cases i with
    | zero => simp at ho; subst ho; simp [setAt, h]
    | succ i => simp only [setAt, List.map_cons]; rw [ih (by simpa using ho)]

theorem step_sizes {S : Sem D} {s s' : VS D} {i : I} (h : step S s i = .ok s') : (s'.objs.map fun o => o.cells.length) = s.objs.map fun o => o.cells.length := by
  cases i with
  | op d f srcs n =>
    simp only [step] at h
    split at h
    · cases h
    · split at h
      · cases h
      · cases h; rfl
  | ld d o off n tot al =>
    simp only [step] at h
    split at h
    · cases h
    · split at h
      · cases h
      · cases h; rfl
  | bcastq d o off =>
    simp only [step] at h
    split at h
    · cases h
    · split at h
      · cases h
      · cases h; rfl
  | st r o off n al =>
    simp only [step] at h
    split at h
    · rename_i x ob e1 e2
      split at h
      · cases h
      · rename_i ob2 es
        cases h
        exact setAt_sizes e2 (store_length es)
    · cases h
    · cases h
  | set d ws =>
    simp only [step] at h
    cases h
    rfl

theorem run_sizes {S : Sem D} {p : List I} {s s' : VS D} (h : run S p s = .ok s') : (s'.objs.map fun o => o.cells.length) = s.objs.map fun o => o.cells.length := by
  induction p generalizing s with
  | nil => simp only [run] at h; cases h; rfl
  | cons i p ih =>
    simp only [run] at h
    split at h
    · rename_i s1 e
      rw [ih h, step_sizes e]
    · cases h

theorem shapeRun_length {p : List I} {o : Obj Unit} {os : List (Obj Unit)} {cs : List (Option Unit)} (h : shapeRun p (o :: os) = .ok cs) : cs.length = o.cells.length := by
  unfold shapeRun at h
  split at h
  · rename_i g o' l e
    have := run_sizes e
    cases h
    simpa using (List.cons.inj this).1
  · cases h
  · cases h

end Verif.Avx
