import Verif.Avx.Vm
import Mathlib.Data.List.Forall2

/-! # Symbolic runs are sound: a run on abstract lanes describes every run on related lanes -/

namespace Verif.Avx

variable {D E : Type}

/-- The abstract meaning `S` describes the meaning `T`: whenever the abstract operation is defined, so is the other, with related results. -/
structure Sound (S : Sem D) (T : Sem E) (R : D → E → Prop) : Prop where
  app : ∀ o as bs a, List.Forall₂ R as bs → S.app o as = some a → ∃ b, T.app o bs = some b ∧ R a b
  lit : ∀ n, R (S.lit n) (T.lit n)

/-- `none` on the abstract side stands for anything. -/
def ORel {A B : Type} (R : A → B → Prop) : Option A → Option B → Prop
  | none, _ => True
  | some a, y => ∃ b, y = some b ∧ R a b

theorem ORel.some {A B : Type} {R : A → B → Prop} {a : A} {b : B} (h : R a b) : ORel R (some a) (some b) := ⟨b, rfl, h⟩

/-- Related cells, followed on the right by cells `rest`. -/
def CRel (R : D → E → Prop) (rest : List (Option E)) : List (Option D) → List (Option E) → Prop
  | [], l => l = rest
  | c :: cs, l => ∃ d ds, l = d :: ds ∧ ORel R c d ∧ CRel R rest cs ds

structure ObRel (R : D → E → Prop) (o : Obj D) (o' : Obj E) (rest : List (Option E)) : Prop where
  wide : o'.wide = o.wide
  al : o'.al = o.al
  cells : CRel R rest o.cells o'.cells

/-- Related lists of objects; `rests` lists the untouched parts. -/
def OsRel (R : D → E → Prop) : List (List (Option E)) → List (Obj D) → List (Obj E) → Prop
  | [], [], [] => True
  | r :: rs, o :: os, o' :: os' => ObRel R o o' r ∧ OsRel R rs os os'
  | _, _, _ => False

structure SRel (R : D → E → Prop) (rests : List (List (Option E))) (s : VS D) (t : VS E) : Prop where
  regs : List.Forall₂ (ORel (List.Forall₂ R)) s.regs t.regs
  objs : OsRel R rests s.objs t.objs

theorem Forall₂.getElem? {A B : Type} {R : A → B → Prop} {l : List A} {l' : List B} (h : List.Forall₂ R l l') {i : Nat} {a : A}
    (ha : l[i]? = some a) : ∃ b, l'[i]? = some b ∧ R a b := by
  induction h generalizing i with
  | nil => simp at ha
  | cons hr _ ih =>
    cases i with
    | zero => simp at ha; subst ha; exact ⟨_, rfl, hr⟩
    | succ i => simp at ha; exact ih ha

theorem pick_sound {R : D → E → Prop} {args : List (List D)} {args' : List (List E)} (h : List.Forall₂ (List.Forall₂ R) args args')
    (src : List (Nat × Nat)) (as : List D) (hp : pick args src = some as) : ∃ bs, pick args' src = some bs ∧ List.Forall₂ R as bs := by
  induction src generalizing as with
  | nil => simp [pick] at hp; subst hp; exact ⟨[], rfl, .nil⟩
  | cons x src ih =>
    obtain ⟨s, i⟩ := x
    unfold pick at hp
    split at hp
    · simp at hp
    · rename_i r hr
      obtain ⟨r', hr', hrr⟩ := Forall₂.getElem? h hr
      split at hp
      · simp at hp
      · rename_i a ha
        obtain ⟨a', ha', haa⟩ := Forall₂.getElem? hrr ha
        split at hp
        · simp at hp
        · rename_i as' has
          obtain ⟨bs, hbs, hR⟩ := ih _ has
          simp at hp; subst hp
          refine ⟨a' :: bs, ?_, .cons haa hR⟩
          unfold pick
          rw [hr']; dsimp only; rw [ha']; dsimp only; rw [hbs]

theorem Forall₂.length {A B : Type} {R : A → B → Prop} {l : List A} {l' : List B} (h : List.Forall₂ R l l') : l.length = l'.length := by
  induction h with
  | nil => rfl
  | cons _ _ ih => simp [ih]

theorem lanes_sound {S : Sem D} {T : Sem E} {R : D → E → Prop} (hs : Sound S T R) (f : Fn) {args : List (List D)} {args' : List (List E)}
    (h : List.Forall₂ (List.Forall₂ R) args args') (n i : Nat) (l : List D) (hl : lanes S f args n i = some l) :
    ∃ l', lanes T f args' n i = some l' ∧ List.Forall₂ R l l' := by
  induction n generalizing i l with
  | zero => simp [lanes] at hl; subst hl; exact ⟨[], rfl, .nil⟩
  | succ n ih =>
    unfold lanes at hl
    unfold lanes
    rw [← Forall₂.length h]
    generalize f.lane args.length i = x at *
    obtain ⟨o, src⟩ := x
    dsimp only at hl ⊢
    split at hl
    · simp at hl
    · rename_i as has
      obtain ⟨bs, hbs, hR⟩ := pick_sound h _ _ has
      rw [hbs]
      dsimp only
      split at hl
      · simp at hl
      · rename_i a ha
        obtain ⟨b, hb, hab⟩ := hs.app _ _ _ _ hR ha
        rw [hb]
        dsimp only
        split at hl
        · simp at hl
        · rename_i l1 hl1
          obtain ⟨l', hl', hll⟩ := ih _ _ hl1
          rw [hl']
          simp at hl; subst hl
          exact ⟨_, rfl, .cons hab hll⟩

theorem getRegs_sound {R : D → E → Prop} {regs : List (Option (List D))} {regs' : List (Option (List E))}
    (h : List.Forall₂ (ORel (List.Forall₂ R)) regs regs') (srcs : List Nat) (args : List (List D)) (hg : getRegs regs srcs = .ok args) :
    ∃ args', getRegs regs' srcs = .ok args' ∧ List.Forall₂ (List.Forall₂ R) args args' := by
  induction srcs generalizing args with
  | nil => simp [getRegs] at hg; subst hg; exact ⟨[], rfl, .nil⟩
  | cons s l ih =>
    unfold getRegs at hg
    split at hg
    · rename_i r hr
      obtain ⟨y, hy, b, hb, hR⟩ := Forall₂.getElem? h hr
      subst hb
      split at hg
      · rename_i rs hrs
        obtain ⟨rs', hrs', hRs⟩ := ih _ hrs
        simp at hg; subst hg
        refine ⟨b :: rs', ?_, .cons hR hRs⟩
        unfold getRegs
        rw [hy]; dsimp only; rw [hrs']
      · simp at hg
    · simp at hg

theorem readCells_sound {R : D → E → Prop} {rest : List (Option E)} (cs : List (Option D)) (ds : List (Option E)) (h : CRel R rest cs ds)
    (i n : Nat) (as : List D) (hr : readCells cs i n = .ok as) : ∃ bs, readCells ds i n = .ok bs ∧ List.Forall₂ R as bs := by
  induction cs generalizing ds i n as with
  | nil =>
    cases n with
    | zero => simp [readCells] at hr; subst hr; exact ⟨[], by simp [readCells], .nil⟩
    | succ n => simp [readCells] at hr
  | cons c cs ih =>
    obtain ⟨d, ds', rfl, hcd, hrel⟩ := h
    cases n with
    | zero => simp [readCells] at hr; subst hr; exact ⟨[], by simp [readCells], .nil⟩
    | succ n =>
      cases i with
      | succ i =>
        simp only [readCells] at hr ⊢
        exact ih _ hrel _ _ _ hr
      | zero =>
        cases c with
        | none => simp [readCells] at hr
        | some a =>
          obtain ⟨b, rfl, hab⟩ := hcd
          simp only [readCells] at hr ⊢
          split at hr
          · rename_i as' has
            obtain ⟨bs, hbs, hR⟩ := ih _ hrel _ _ _ has
            rw [hbs]
            simp at hr; subst hr
            exact ⟨_, rfl, .cons hab hR⟩
          · simp at hr

theorem writeCells_sound {R : D → E → Prop} {rest : List (Option E)} (cs : List (Option D)) (ds : List (Option E)) (h : CRel R rest cs ds)
    (i : Nat) (as : List D) (bs : List E) (hab : List.Forall₂ R as bs) (cs' : List (Option D)) (hr : writeCells cs i as = .ok cs') :
    ∃ ds', writeCells ds i bs = .ok ds' ∧ CRel R rest cs' ds' := by
  induction cs generalizing ds i as bs cs' with
  | nil =>
    cases hab with
    | nil => simp [writeCells] at hr; subst hr; exact ⟨ds, by simp [writeCells], h⟩
    | cons _ _ => simp [writeCells] at hr
  | cons c cs ih =>
    cases hab with
    | nil => simp [writeCells] at hr; subst hr; exact ⟨ds, by simp [writeCells], h⟩
    | @cons a b as bs hab hR =>
      obtain ⟨d, ds, rfl, hcd, hrel⟩ := h
      cases i with
      | succ i =>
        simp only [writeCells] at hr ⊢
        split at hr
        · rename_i l' hl'
          obtain ⟨ds', h1, h2⟩ := ih _ hrel _ _ _ (.cons hab hR) _ hl'
          simp at hr; subst hr
          rw [h1]
          exact ⟨_, rfl, _, _, rfl, hcd, h2⟩
        · simp at hr
      | zero =>
        simp only [writeCells] at hr ⊢
        split at hr
        · rename_i l' hl'
          obtain ⟨ds', h1, h2⟩ := ih _ hrel _ _ _ hR _ hl'
          simp at hr; subst hr
          rw [h1]
          exact ⟨_, rfl, _, _, rfl, ⟨_, rfl, hab⟩, h2⟩
        · simp at hr

theorem packBytes_sound {S : Sem D} {T : Sem E} {R : D → E → Prop} (hs : Sound S T R) : ∀ (as : List D) (bs : List E),
    List.Forall₂ R as bs → ∀ ws, packBytes S as = some ws → ∃ ws', packBytes T bs = some ws' ∧ List.Forall₂ R ws ws'
  | [], _, .nil, ws, h => by simp [packBytes] at h; subst h; exact ⟨[], rfl, .nil⟩
  | [_], _, .cons _ .nil, ws, h => by simp [packBytes] at h
  | a :: a' :: as, _, .cons h1 (.cons h2 h3), ws, h => by
    unfold packBytes at h ⊢
    split at h
    · rename_i w ws1 hw hws
      obtain ⟨w', hw', hR⟩ := hs.app _ _ _ _ (.cons h1 (.cons h2 .nil)) hw
      obtain ⟨ws', hws', hRs⟩ := packBytes_sound hs _ _ h3 _ hws
      rw [hw', hws']
      simp at h; subst h
      exact ⟨_, rfl, .cons hR hRs⟩
    · simp at h

theorem unpackWords_sound {S : Sem D} {T : Sem E} {R : D → E → Prop} (hs : Sound S T R) (as : List D) (bs : List E)
    (hR : List.Forall₂ R as bs) (ws : List D) (h : unpackWords S as = some ws) :
    ∃ ws', unpackWords T bs = some ws' ∧ List.Forall₂ R ws ws' := by
  induction hR generalizing ws with
  | nil => simp [unpackWords] at h; subst h; exact ⟨[], rfl, .nil⟩
  | @cons a b as bs hab _ ih =>
    unfold unpackWords at h ⊢
    split at h
    · rename_i w w' ws1 hw hw' hws
      obtain ⟨x, hx, h1⟩ := hs.app _ _ _ _ (.cons hab .nil) hw
      obtain ⟨x', hx', h2⟩ := hs.app _ _ _ _ (.cons hab .nil) hw'
      obtain ⟨xs, hxs, h3⟩ := ih _ hws
      rw [hx, hx', hxs]
      simp at h; subst h
      exact ⟨_, rfl, .cons h1 (.cons h2 h3)⟩
    · simp at h

theorem alignOk_sound {R : D → E → Prop} {o : Obj D} {o' : Obj E} {rest : List (Option E)} (h : ObRel R o o' rest) (off : Nat) (al : Bool) :
    o'.alignOk off al = o.alignOk off al := by
  unfold Obj.alignOk; rw [h.wide, h.al]

theorem load_sound {S : Sem D} {T : Sem E} {R : D → E → Prop} (hs : Sound S T R) {o : Obj D} {o' : Obj E} {rest : List (Option E)}
    (h : ObRel R o o' rest) (off n : Nat) (al : Bool) (ws : List D) (hl : o.load S off n al = .ok ws) :
    ∃ ws', o'.load T off n al = .ok ws' ∧ List.Forall₂ R ws ws' := by
  unfold Obj.load at hl ⊢
  rw [alignOk_sound h, h.wide]
  split at hl
  · rename_i hal
    rw [if_pos hal]
    split at hl
    · rename_i hw
      rw [if_pos hw]
      exact readCells_sound _ _ h.cells _ _ _ hl
    · rename_i hw
      rw [if_neg hw]
      split at hl
      · rename_i bs hbs
        obtain ⟨bs', h1, h2⟩ := readCells_sound _ _ h.cells _ _ _ hbs
        rw [h1]; dsimp only
        split at hl
        · rename_i ws1 hws
          obtain ⟨ws', h3, h4⟩ := packBytes_sound hs _ _ h2 _ hws
          rw [h3]
          simp at hl; subst hl
          exact ⟨_, rfl, h4⟩
        · simp at hl
      · simp at hl
  · simp at hl

theorem store_sound {S : Sem D} {T : Sem E} {R : D → E → Prop} (hs : Sound S T R) {o : Obj D} {o' : Obj E} {rest : List (Option E)}
    (h : ObRel R o o' rest) (off : Nat) (ws : List D) (ws' : List E) (hw : List.Forall₂ R ws ws') (al : Bool) (o1 : Obj D)
    (hl : o.store S off ws al = .ok o1) : ∃ o1', o'.store T off ws' al = .ok o1' ∧ ObRel R o1 o1' rest := by
  unfold Obj.store at hl ⊢
  rw [alignOk_sound h, h.wide]
  split at hl
  · rename_i hal
    rw [if_pos hal]
    split at hl
    · rename_i hwd
      rw [if_pos hwd]
      split at hl
      · rename_i c hc
        obtain ⟨c', h1, h2⟩ := writeCells_sound _ _ h.cells _ _ _ hw _ hc
        rw [h1]
        simp at hl; subst hl
        exact ⟨_, rfl, rfl, h.al, h2⟩
      · simp at hl
    · rename_i hwd
      rw [if_neg hwd]
      split at hl
      · rename_i bs hbs
        obtain ⟨bs', h1, h2⟩ := unpackWords_sound hs _ _ hw _ hbs
        rw [h1]; dsimp only
        split at hl
        · rename_i c hc
          obtain ⟨c', h3, h4⟩ := writeCells_sound _ _ h.cells _ _ _ h2 _ hc
          rw [h3]
          simp at hl; subst hl
          exact ⟨_, rfl, rfl, h.al, h4⟩
        · simp at hl
      · simp at hl
  · simp at hl

theorem setAt_sound {A B : Type} {R : A → B → Prop} {l : List A} {l' : List B} (h : List.Forall₂ R l l') {x : A} {y : B} (hxy : R x y) (i : Nat) :
    List.Forall₂ R (setAt x l i) (setAt y l' i) := by
  induction h generalizing i with
  | nil => exact .nil
  | cons hr hrs ih =>
    cases i with
    | zero => exact .cons hxy hrs
    | succ i => exact .cons hr (ih i)

theorem OsRel.get {R : D → E → Prop} : ∀ {rests : List (List (Option E))} {os : List (Obj D)} {os' : List (Obj E)}, OsRel R rests os os' →
    ∀ {i : Nat} {o : Obj D}, os[i]? = some o → ∃ o' r, os'[i]? = some o' ∧ ObRel R o o' r ∧
      ∀ o1 o1', ObRel R o1 o1' r → OsRel R rests (setAt o1 os i) (setAt o1' os' i)
  | [], [], [], _, i, o, h => by simp at h
  | [], _ :: _, _, h, _, _, _ => by cases h
  | [], [], _ :: _, h, _, _, _ => by cases h
  | _ :: _, [], _, h, _, _, _ => by cases h
  | _ :: _, _ :: _, [], h, _, _, _ => by cases h
  | r :: rs, o :: os, o' :: os', ⟨h1, h2⟩, 0, x, hx => by
    simp at hx; subst hx
    exact ⟨o', r, rfl, h1, fun _ _ h => ⟨h, h2⟩⟩
  | r :: rs, o :: os, o' :: os', ⟨h1, h2⟩, i + 1, x, hx => by
    simp at hx
    obtain ⟨y, r', hy, hR, hset⟩ := OsRel.get h2 hx
    exact ⟨y, r', hy, hR, fun _ _ h => ⟨h1, hset _ _ h⟩⟩

theorem zeros_sound {S : Sem D} {T : Sem E} {R : D → E → Prop} (hs : Sound S T R) (n : Nat) : List.Forall₂ R (zeros S n) (zeros T n) := by
  induction n with
  | zero => exact .nil
  | succ n ih => exact .cons (hs.lit 0) ih

theorem Forall₂.append {A B : Type} {R : A → B → Prop} {l1 l2 : List A} {l1' l2' : List B} (h1 : List.Forall₂ R l1 l1') (h2 : List.Forall₂ R l2 l2') :
    List.Forall₂ R (l1 ++ l2) (l1' ++ l2') := by
  induction h1 with
  | nil => exact h2
  | cons h _ ih => exact .cons h ih

theorem Forall₂.take {A B : Type} {R : A → B → Prop} {l : List A} {l' : List B} (h : List.Forall₂ R l l') (n : Nat) :
    List.Forall₂ R (l.take n) (l'.take n) := by
  induction h generalizing n with
  | nil => simp
  | cons h _ ih =>
    cases n with
    | zero => simp
    | succ n => simp [h, ih]

theorem step_sound {S : Sem D} {T : Sem E} {R : D → E → Prop} (hs : Sound S T R) {rests : List (List (Option E))} {s s' : VS D} {t : VS E}
    (h : SRel R rests s t) (i : I) (hr : step S s i = .ok s') : ∃ t', step T t i = .ok t' ∧ SRel R rests s' t' := by
  cases i with
  | op d f srcs n =>
    simp only [step] at hr ⊢
    split at hr
    · simp at hr
    · rename_i args hargs
      obtain ⟨args', h1, h2⟩ := getRegs_sound h.regs _ _ hargs
      rw [h1]; dsimp only
      split at hr
      · simp at hr
      · rename_i r hr1
        obtain ⟨r', h3, h4⟩ := lanes_sound hs f h2 _ _ _ hr1
        rw [h3]
        simp at hr; subst hr
        exact ⟨_, rfl, setAt_sound h.regs (ORel.some h4) _, h.objs⟩
  | ld d o off n tot al =>
    simp only [step] at hr ⊢
    split at hr
    · simp at hr
    · rename_i ob hob
      obtain ⟨ob', r, h1, h2, -⟩ := h.objs.get hob
      rw [h1]; dsimp only
      split at hr
      · simp at hr
      · rename_i ws hws
        obtain ⟨ws', h3, h4⟩ := load_sound hs h2 _ _ _ _ hws
        rw [h3]
        simp at hr; subst hr
        exact ⟨_, rfl, setAt_sound h.regs (ORel.some (Forall₂.append h4 (zeros_sound hs _))) _, h.objs⟩
  | bcastq d o off =>
    simp only [step] at hr ⊢
    split at hr
    · simp at hr
    · rename_i ob hob
      obtain ⟨ob', r, h1, h2, -⟩ := h.objs.get hob
      rw [h1]; dsimp only
      split at hr
      · simp at hr
      · rename_i ws hws
        obtain ⟨ws', h3, h4⟩ := load_sound hs h2 _ _ _ _ hws
        rw [h3]
        simp only [Except.ok.injEq] at hr; subst hr
        have h5 := Forall₂.append h4 h4
        exact ⟨_, rfl, setAt_sound h.regs (ORel.some (Forall₂.append h5 h5)) _, h.objs⟩
  | st r o off n al =>
    simp only [step] at hr ⊢
    split at hr
    · rename_i x ob hx hob
      obtain ⟨xs, h1, h2⟩ := getRegs_sound h.regs _ _ hx
      obtain ⟨ob', r, h3, h4, h5⟩ := h.objs.get hob
      cases h2 with
      | @cons _ y _ _ hxy h6 =>
        cases h6
        rw [h1, h3]; dsimp only
        split at hr
        · simp at hr
        · rename_i ob1 hob1
          obtain ⟨ob1', h7, h8⟩ := store_sound hs h4 _ _ _ (Forall₂.take hxy n) _ _ hob1
          rw [h7]
          simp at hr; subst hr
          exact ⟨_, rfl, h.regs, h5 _ _ h8⟩
    · simp at hr
    · simp at hr
  | set d ws =>
    simp only [step] at hr ⊢
    simp at hr; subst hr
    refine ⟨_, rfl, setAt_sound h.regs (ORel.some ?_) _, h.objs⟩
    induction ws with
    | nil => exact .nil
    | cons w ws ih => exact .cons (hs.lit w) ih

theorem run_sound {S : Sem D} {T : Sem E} {R : D → E → Prop} (hs : Sound S T R) {rests : List (List (Option E))} (p : List I) {s s' : VS D} {t : VS E}
    (h : SRel R rests s t) (hr : run S p s = .ok s') : ∃ t', run T p t = .ok t' ∧ SRel R rests s' t' := by
  induction p generalizing s t with
  | nil => simp [run] at hr; subst hr; exact ⟨t, rfl, h⟩
  | cons i p ih =>
    unfold run at hr ⊢
    split at hr
    · rename_i s1 hs1
      obtain ⟨t1, h1, h2⟩ := step_sound hs h i hs1
      rw [h1]
      exact ih h2 hr
    · simp at hr

theorem run_append (S : Sem D) (p p' : List I) (s : VS D) :
    run S (p ++ p') s = match run S p s with | .ok s' => run S p' s' | .error u => .error u := by
  induction p generalizing s with
  | nil => rfl
  | cons i p ih =>
    simp only [List.cons_append, run]
    cases step S s i with
    | ok s1 => simp [ih]
    | error u => rfl

end Verif.Avx
