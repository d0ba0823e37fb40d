import Verif.Avx.Call

/-! # Which cells a vector program reads and writes does not depend on their contents

A map of lanes that commutes with the word operations commutes with whole runs. Applied to the map that forgets the contents of a lane, this reduces the question whether
a program runs without error, and which cells it initialises, to one run on lanes without contents. -/

namespace Verif.Avx

variable {D E : Type}

/-- `f` commutes with the operations. -/
structure Hom (S : Sem D) (T : Sem E) (f : D → E) : Prop where
  app : ∀ o as, T.app o (as.map f) = (S.app o as).map f
  lit : ∀ n, T.lit n = f (S.lit n)

def Obj.map (f : D → E) (o : Obj D) : Obj E := ⟨o.wide, o.al, o.cells.map (Option.map f)⟩
def VS.map (f : D → E) (s : VS D) : VS E := ⟨s.regs.map (Option.map (List.map f)), s.objs.map (Obj.map f)⟩

theorem pick_map (f : D → E) (args : List (List D)) (src : List (Nat × Nat)) : pick (args.map (List.map f)) src = (pick args src).map (List.map f) := by
  induction src with
  | nil => rfl
  | cons x src ih =>
    obtain ⟨s, i⟩ := x
    simp only [pick, List.getElem?_map]
    cases args[s]? with
    | none => rfl
    | some r =>
      simp only [Option.map_some, List.getElem?_map]
      cases r[i]? with
      | none => rfl
      | some a =>
        simp only [Option.map_some, ih]
        cases pick args src <;> rfl

theorem lanes_map {S : Sem D} {T : Sem E} {f : D → E} (h : Hom S T f) (g : Fn) (args : List (List D)) (n i : Nat) :
    lanes T g (args.map (List.map f)) n i = (lanes S g args n i).map (List.map f) := by
  induction n generalizing i with
  | zero => rfl
  | succ n ih =>
    simp only [lanes, List.length_map, pick_map]
    cases pick args (g.lane args.length i).2 with
    | none => rfl
    | some as =>
      simp only [Option.map_some, h.app]
      cases S.app (g.lane args.length i).1 as with
      | none => rfl
      | some a =>
        simp only [Option.map_some, ih]
        cases lanes S g args n (i + 1) <;> rfl

theorem getRegs_map (f : D → E) (regs : List (Option (List D))) (l : List Nat) :
    getRegs (regs.map (Option.map (List.map f))) l = (getRegs regs l).map (List.map (List.map f)) := by
  induction l with
  | nil => rfl
  | cons s l ih =>
    simp only [getRegs, List.getElem?_map, ih]
    rcases regs[s]? with _ | _ | r
    · rfl
    · rfl
    · simp only [Option.map_some]
      cases getRegs regs l <;> rfl

theorem setAt_hom {A B : Type} (f : A → B) (x : A) (l : List A) (i : Nat) : setAt (f x) (l.map f) i = (setAt x l i).map f := by
  induction l generalizing i with
  | nil => rfl
  | cons y l ih =>
    cases i with
    | zero => rfl
    | succ i => simp [setAt, ih]

theorem readCells_map (f : D → E) (cells : List (Option D)) (i n : Nat) : readCells (cells.map (Option.map f)) i n = (readCells cells i n).map (List.map f) := by
  induction cells generalizing i n with
  | nil => cases n <;> rfl
  | cons c l ih =>
    cases n with
    | zero => simp [readCells, Except.map]
    | succ n =>
      cases i with
      | succ i => simp only [List.map_cons, readCells]; exact ih i (n + 1)
      | zero =>
        cases c with
        | none => rfl
        | some a =>
          simp only [List.map_cons, Option.map_some, readCells, ih 0 n]
          cases readCells l 0 n <;> rfl

theorem writeCells_map (f : D → E) (cells : List (Option D)) (i : Nat) (as : List D) :
    writeCells (cells.map (Option.map f)) i (as.map f) = (writeCells cells i as).map (List.map (Option.map f)) := by
  induction cells generalizing i as with
  | nil => cases as <;> rfl
  | cons c l ih =>
    cases as with
    | nil => simp [writeCells, Except.map]
    | cons a as =>
      cases i with
      | succ i =>
        have := ih i (a :: as)
        simp only [List.map_cons] at this
        simp only [List.map_cons, writeCells, this]
        cases writeCells l i (a :: as) <;> rfl
      | zero =>
        simp only [List.map_cons, writeCells, ih 0 as]
        cases writeCells l 0 as <;> rfl

theorem packBytes_map {S : Sem D} {T : Sem E} {f : D → E} (h : Hom S T f) : ∀ l : List D, packBytes T (l.map f) = (packBytes S l).map (List.map f)
  | [] => rfl
  | [_] => rfl
  | a :: b :: l => by
    have ih := packBytes_map h l
    have ha := h.app (.bytes 0 0) [a, b]
    simp only [List.map_cons, List.map_nil] at ha
    simp only [List.map_cons, packBytes, ha, ih]
    cases S.app (.bytes 0 0) [a, b] <;> cases packBytes S l <;> rfl

theorem unpackWords_map {S : Sem D} {T : Sem E} {f : D → E} (h : Hom S T f) (l : List D) : unpackWords T (l.map f) = (unpackWords S l).map (List.map f) := by
  induction l with
  | nil => rfl
  | cons a l ih =>
    have h1 := h.app .lo8 [a]
    have h2 := h.app .hi8 [a]
    simp only [List.map_cons, List.map_nil] at h1 h2
    simp only [List.map_cons, unpackWords, h1, h2, ih]
    cases S.app .lo8 [a] <;> cases S.app .hi8 [a] <;> cases unpackWords S l <;> rfl

theorem load_map {S : Sem D} {T : Sem E} {f : D → E} (h : Hom S T f) (o : Obj D) (off n : Nat) (al : Bool) :
    (o.map f).load T off n al = (o.load S off n al).map (List.map f) := by
  unfold Obj.load
  have : (o.map f).alignOk off al = o.alignOk off al := rfl
  rw [this]
  split
  · show (if o.wide = true then _ else _) = _
    split
    · exact readCells_map f o.cells _ _
    · show (match readCells (o.cells.map (Option.map f)) off (2 * n) with | .ok bs => _ | .error u => _) = _
      rw [readCells_map]
      cases readCells o.cells off (2 * n) with
      | error u => rfl
      | ok bs =>
        simp only [Except.map, packBytes_map h]
        cases packBytes S bs <;> rfl
  · rfl

theorem store_map {S : Sem D} {T : Sem E} {f : D → E} (h : Hom S T f) (o : Obj D) (off : Nat) (ws : List D) (al : Bool) :
    (o.map f).store T off (ws.map f) al = (o.store S off ws al).map (Obj.map f) := by
  unfold Obj.store
  have : (o.map f).alignOk off al = o.alignOk off al := rfl
  rw [this]
  split
  · show (if o.wide = true then _ else _) = _
    split
    · show (match writeCells (o.cells.map (Option.map f)) (off / 2) (ws.map f) with | .ok c => _ | .error u => _) = _
      rw [writeCells_map]
      cases writeCells o.cells (off / 2) ws <;> rfl
    · rw [unpackWords_map h]
      cases unpackWords S ws with
      | none => rfl
      | some bs =>
        simp only [Option.map_some]
        show (match writeCells (o.cells.map (Option.map f)) off (bs.map f) with | .ok c => _ | .error u => _) = _
        rw [writeCells_map]
        cases writeCells o.cells off bs <;> rfl
  · rfl

theorem setReg_map (f : D → E) (s : VS D) (d : Nat) (r : List D) : setReg (s.map f) d (r.map f) = (setReg s d r).map f := by
  simp only [setReg, VS.map]
  rw [← setAt_hom (Option.map (List.map f)) (some r)]
  rfl

theorem zeros_map {S : Sem D} {T : Sem E} {f : D → E} (h : Hom S T f) (n : Nat) : zeros T n = (zeros S n).map f := by
  induction n with
  | zero => rfl
  | succ n ih => simp [zeros, ih, h.lit]

theorem step_map {S : Sem D} {T : Sem E} {f : D → E} (h : Hom S T f) (s : VS D) (i : I) : step T (s.map f) i = (step S s i).map (VS.map f) := by
  cases i with
  | op d g srcs n =>
    simp only [step]
    show (match getRegs (s.regs.map (Option.map (List.map f))) srcs with | .error u => _ | .ok args => _) = _
    rw [getRegs_map]
    cases getRegs s.regs srcs with
    | error u => rfl
    | ok args =>
      simp only [Except.map, lanes_map h]
      cases lanes S g args n 0 with
      | none => rfl
      | some r => simp only [Option.map_some, setReg_map]
  | ld d o off n tot al =>
    simp only [step]
    show (match (s.objs.map (Obj.map f))[o]? with | none => _ | some ob => _) = _
    rw [List.getElem?_map]
    cases s.objs[o]? with
    | none => rfl
    | some ob =>
      simp only [Option.map_some, load_map h]
      cases ob.load S off n al with
      | error u => rfl
      | ok r => simp only [Except.map, zeros_map h, ← List.map_append, setReg_map]
  | bcastq d o off =>
    simp only [step]
    show (match (s.objs.map (Obj.map f))[o]? with | none => _ | some ob => _) = _
    rw [List.getElem?_map]
    cases s.objs[o]? with
    | none => rfl
    | some ob =>
      simp only [Option.map_some, load_map h]
      cases ob.load S off 4 false with
      | error u => rfl
      | ok r => simp only [Except.map, ← List.map_append, setReg_map]
  | st r o off n al =>
    simp only [step]
    show (match getRegs (s.regs.map (Option.map (List.map f))) [r], (s.objs.map (Obj.map f))[o]? with | .ok [x], some ob => _ | .error u, _ => _ | _, _ => _) = _
    rw [getRegs_map, List.getElem?_map]
    cases getRegs s.regs [r] with
    | error u => rfl
    | ok l =>
      rcases l with _ | ⟨x, _ | ⟨y, l⟩⟩
      · cases s.objs[o]? <;> rfl
      · cases s.objs[o]? with
        | none => rfl
        | some ob =>
          simp only [Except.map, List.map_cons, List.map_nil, Option.map_some, ← List.map_take, store_map h]
          cases ob.store S off (x.take n) al with
          | error u => rfl
          | ok ob' =>
            simp only [Except.map, VS.map]
            rw [← setAt_hom]
      · cases s.objs[o]? <;> rfl
  | set d ws =>
    simp only [step, Except.map]
    rw [← setReg_map, List.map_map]
    congr 2
    exact List.map_congr_left fun n _ => h.lit n

theorem run_map {S : Sem D} {T : Sem E} {f : D → E} (h : Hom S T f) (p : List I) (s : VS D) : run T p (s.map f) = (run S p s).map (VS.map f) := by
  induction p generalizing s with
  | nil => rfl
  | cons i p ih =>
    simp only [run, step_map h]
    cases step S s i with
    | error u => rfl
    | ok s' => simp only [Except.map]; exact ih s'

/-! ## Lanes without contents -/

/-- The number of operands of a word operation. -/
def Op.arity : Op → Nat
  | .mov | .sll _ | .srl _ | .sra _ | .lo8 | .hi8 | .sext _ => 1
  | .add | .sub | .mullo | .mulhi | .mulhrs | .and | .or | .xor | .andn | .bytes _ _ | .add8 | .sub8 | .packus | .packs | .maddubs | .shl32 _ _ | .shr32 _ _ | .cmpgt => 2
  | .blendv => 3
  | .madd _ | .sllv32 _ | .srlv32 _ | .add32 _ | .sub32 _ | .shl64 _ _ | .shr64 _ _ => 4
  | .srlv64 _ | .add64 _ | .movmask => 8
  | .pshufb => 9
  | .permd _ => 17

/-- Lanes without contents. -/
def shapeSem : Sem Unit := ⟨fun o as => if as.length = o.arity then some () else none, fun _ => ()⟩

theorem eval_shape (o : Op) (as : List W) : (if as.length = o.arity then some () else none) = (o.eval as).map fun _ => () := by
  rcases as with _ | ⟨a, _ | ⟨b, _ | ⟨c, _ | ⟨d, _ | ⟨e, _ | ⟨f, _ | ⟨g, _ | ⟨h, _ | ⟨i, _ | ⟨j, _ | ⟨k, _ | ⟨l, _ | ⟨m, _ | ⟨n, _ | ⟨p, _ | ⟨q, _ | ⟨r, _ | ⟨s, t⟩⟩⟩⟩⟩⟩⟩⟩⟩⟩⟩⟩⟩⟩⟩⟩⟩⟩ <;>
    cases o <;> first | rfl | (simp only [List.length_cons, Op.arity]; rw [if_neg (by omega)]; rfl)

theorem shape_hom : Hom evalW shapeSem (fun _ => ()) where
  app o as := by
    show (if (as.map fun _ => ()).length = o.arity then some () else none) = _
    rw [List.length_map]
    exact eval_shape o as
  lit _ := rfl

/-- The shape of an object: which of its cells are initialised. -/
def Obj.shape (o : Obj W) : Obj Unit := o.map fun _ => ()

/-- The run of a program on shapes. -/
def shapeRun (p : List I) (objs : List (Obj Unit)) : Except UB (List (Option Unit)) :=
  match run shapeSem p ⟨noRegs, objs⟩ with
  | .ok ⟨_, o :: _⟩ => .ok o.cells
  | .ok ⟨_, []⟩ => .error .oob
  | .error u => .error u

theorem noRegs_map : (noRegs : List (Option (List W))).map (Option.map (List.map fun _ => ())) = noRegs := rfl

/-- The outcome of a call, from the run on shapes. -/
theorem call_shape {w : List Nat} {p : List I} (hw : p.all (I.stIn w) = true) (objs : List (Obj W)) :
    (∃ u, shapeRun p (objs.map Obj.shape) = .error u ∧ call w p objs = .ub u) ∨
    (∃ o, shapeRun p (objs.map Obj.shape) = .ok (o.cells.map (Option.map fun _ => ())) ∧ call w p objs = .ok o (p.flatMap I.leak)) := by
  have h := run_map shape_hom p ⟨noRegs, objs⟩
  have h' : run shapeSem p ⟨noRegs, objs.map Obj.shape⟩ = (run evalW p ⟨noRegs, objs⟩).map (VS.map fun _ => ()) := h
  unfold shapeRun call
  rw [h', if_pos hw]
  cases run evalW p ⟨noRegs, objs⟩ with
  | error u => exact .inl ⟨u, rfl, rfl⟩
  | ok s =>
    rcases s with ⟨rs, _ | ⟨o, os⟩⟩
    · exact .inl ⟨_, rfl, rfl⟩
    · exact .inr ⟨o, rfl, rfl⟩

end Verif.Avx
