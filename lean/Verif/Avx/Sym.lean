import Verif.Avx.Sound
import Mathlib.Data.BitVec
import Mathlib.Tactic.Ring

/-! # Symbolic lanes: expressions in the 16-bit operations

An expression over variables `v l i`. The code's idioms for Montgomery multiplication and Barrett reduction are recognised while
expressions are built (soundly: the rewritten expression has the same value). A further sound simplification `post` can be supplied. -/

namespace Verif.Avx

/-- High half of the signed product. -/
def mulhiW (a b : W) : W := BitVec.ofInt 16 (a.toInt * b.toInt / 2 ^ 16)
/-- The code's Montgomery product: high half of `a b`, minus high half of q times the low half of `a b q^-1`. -/
def fqW (a b : W) : W := mulhiW a b - mulhiW (a * 62209 * b) 3329
/-- The code's Barrett reduction (`red16`). -/
def redW (a : W) : W := a - (mulhiW a 20159).sshiftRight 10 * 3329

inductive Ex where
  | lit (n : Nat)
  | v (l i : Nat)
  | u (o : Op) (a : Ex)
  | b (o : Op) (a c : Ex)
  | fv (a c : Ex)
  | red (a : Ex)
  deriving Repr, Inhabited

def Ex.beq : Ex → Ex → Bool
  | .lit n, .lit m => Nat.beq n m
  | .v l i, .v l' i' => Nat.beq l l' && Nat.beq i i'
  | .u o a, .u o' a' => decide (o = o') && beq a a'
  | .b o a c, .b o' a' c' => decide (o = o') && beq a a' && beq c c'
  | .fv a c, .fv a' c' => beq a a' && beq c c'
  | .red a, .red a' => beq a a'
  | _, _ => false

theorem Ex.beq_eq : ∀ a b : Ex, a.beq b = true → a = b := by
  intro a
  induction a with
  | lit n => intro b h; cases b <;> simp [Ex.beq] at h; rw [h]
  | v l i => intro b h; cases b <;> simp [Ex.beq] at h; rw [h.1, h.2]
  | u o a ih => intro b h; cases b <;> simp [Ex.beq] at h; rw [h.1, ih _ h.2]
  | b o a c iha ihc => intro b h; cases b <;> simp [Ex.beq] at h; rw [h.1.1, iha _ h.1.2, ihc _ h.2]
  | fv a c iha ihc => intro b h; cases b <;> simp [Ex.beq] at h; rw [iha _ h.1, ihc _ h.2]
  | red a iha => intro b h; cases b <;> simp [Ex.beq] at h; rw [iha _ h]

/-- The value of an expression. -/
def Ex.eval (ρ : Nat → Nat → W) : Ex → W
  | .lit n => BitVec.ofNat 16 n
  | .v l i => ρ l i
  | .u o a => (Op.eval o [a.eval ρ]).getD 0
  | .b o a c => (Op.eval o [a.eval ρ, c.eval ρ]).getD 0
  | .fv a c => fqW (a.eval ρ) (c.eval ρ)
  | .red a => redW (a.eval ρ)

/-- Operations with one operand handled here. -/
def un : Op → Bool
  | .sll _ | .srl _ | .sra _ => true
  | _ => false

/-- Operations with two operands handled here. -/
def bin : Op → Bool
  | .add | .sub | .mullo | .mulhi | .mulhrs | .and | .or | .xor | .andn | .cmpgt | .add8 | .sub8 => true
  | _ => false

theorem un_eval {o : Op} (h : un o = true) (a : W) : ∃ w, Op.eval o [a] = some w := by
  cases o <;> simp [un] at h <;> exact ⟨_, rfl⟩

theorem bin_eval {o : Op} (h : bin o = true) (a b : W) : ∃ w, Op.eval o [a, b] = some w := by
  cases o <;> simp [bin] at h <;> exact ⟨_, rfl⟩

/-- Does `zl` equal `z q^-1` modulo 2^16? -/
def isLow (z zl : Nat) : Bool := Nat.beq (zl % 65536) (z * 62209 % 65536)

def mkAdd (a c : Ex) : Ex :=
  match a, c with
  | .b .sub r (.b .mulhi x (.lit z)), .b .mulhi (.b .mullo x' (.lit zl)) (.lit 3329) =>
    if isLow z zl && x.beq x' then .b .sub r (.fv x (.lit z)) else .b .add a c
  | _, _ => .b .add a c

def mkSub (a c : Ex) : Ex :=
  match c with
  | .b .mulhi (.b .mullo (.b .mullo x' (.lit 62209)) y') (.lit 3329) =>
    match a with
    | .b .mulhi x y => if x.beq x' && y.beq y' then .fv x y else .b .sub a c
    | _ => .b .sub a c
  | .b .mulhi (.b .mullo x' (.lit zl)) (.lit 3329) =>
    match a with
    | .b .mulhi x (.lit z) => if isLow z zl && x.beq x' then .fv x (.lit z) else .b .sub a c
    | .b .add r (.b .mulhi x (.lit z)) => if isLow z zl && x.beq x' then .b .add r (.fv x (.lit z)) else .b .sub a c
    | _ => .b .sub a c
  | .b .mullo (.u (.sra 10) (.b .mulhi x (.lit 20159))) (.lit 3329) => if a.beq x then .red a else .b .sub a c
  | .b .mulhi x y =>
    match a with
    | .b .mulhi (.b .mullo (.b .mullo x' (.lit 62209)) y') (.lit 3329) =>
      if x.beq x' && y.beq y' then .b .sub (.lit 0) (.fv x y) else .b .sub a c
    | _ => .b .sub a c
  | _ => .b .sub a c

def mkBin (o : Op) (a c : Ex) : Ex :=
  match o with
  | .add => mkAdd a c
  | .sub => mkSub a c
  | o => .b o a c

theorem ofNat_low {z zl : Nat} (h : isLow z zl = true) : BitVec.ofNat 16 zl = BitVec.ofNat 16 z * 62209 := by
  unfold isLow at h
  have := Nat.eq_of_beq_eq_true h
  apply BitVec.eq_of_toNat_eq
  simp only [BitVec.toNat_ofNat, BitVec.toNat_mul, BitVec.ofNat_eq_ofNat]
  rw [show 2 ^ 16 = 65536 from rfl, this, ← Nat.mul_mod]

theorem mkAdd_eval (ρ : Nat → Nat → W) (a c : Ex) : (mkAdd a c).eval ρ = (a.eval ρ) + (c.eval ρ) := by
  unfold mkAdd
  split
  · rename_i r x z x' zl
    split
    · rename_i h
      rw [Bool.and_eq_true] at h
      obtain ⟨h1, h2⟩ := h
      rw [← Ex.beq_eq _ _ h2]
      simp only [Ex.eval, Op.eval, Option.getD_some, fqW, mulhiW, ofNat_low h1]
      rw [show x.eval ρ * 62209 * BitVec.ofNat 16 z = x.eval ρ * (BitVec.ofNat 16 z * 62209) from by ring]
      simp only [BitVec.ofNat_eq_ofNat]
      ring
    · rfl
  · rfl

theorem mkSub_eval (ρ : Nat → Nat → W) (a c : Ex) : (mkSub a c).eval ρ = (a.eval ρ) - (c.eval ρ) := by
  unfold mkSub
  split
  · rename_i x' y'
    split
    · rename_i x y
      split
      · rename_i h
        rw [Bool.and_eq_true] at h
        obtain ⟨h1, h2⟩ := h
        rw [← Ex.beq_eq _ _ h1, ← Ex.beq_eq _ _ h2]
        rfl
      · rfl
    · rfl
  · rename_i x' zl _
    split
    · rename_i x z
      split
      · rename_i h
        rw [Bool.and_eq_true] at h
        obtain ⟨h1, h2⟩ := h
        rw [← Ex.beq_eq _ _ h2]
        simp only [Ex.eval, Op.eval, Option.getD_some, fqW, mulhiW, ofNat_low h1]
        rw [show x.eval ρ * 62209 * BitVec.ofNat 16 z = x.eval ρ * (BitVec.ofNat 16 z * 62209) from by ring]
        simp only [BitVec.ofNat_eq_ofNat]
      · rfl
    · rename_i r x z
      split
      · rename_i h
        rw [Bool.and_eq_true] at h
        obtain ⟨h1, h2⟩ := h
        rw [← Ex.beq_eq _ _ h2]
        simp only [Ex.eval, Op.eval, Option.getD_some, fqW, mulhiW, ofNat_low h1]
        rw [show x.eval ρ * 62209 * BitVec.ofNat 16 z = x.eval ρ * (BitVec.ofNat 16 z * 62209) from by ring]
        simp only [BitVec.ofNat_eq_ofNat]
        ring
      · rfl
    · rfl
  · split
    · rename_i h
      rw [← Ex.beq_eq _ _ h]
      rfl
    · rfl
  · split
    · split
      · rename_i h
        rw [Bool.and_eq_true] at h
        obtain ⟨h1, h2⟩ := h
        rw [← Ex.beq_eq _ _ h1, ← Ex.beq_eq _ _ h2]
        simp only [Ex.eval, Op.eval, Option.getD_some, fqW, mulhiW, BitVec.ofNat_eq_ofNat]
        rw [BitVec.zero_sub]
        ring
      · rfl
    · rfl
  · rfl

theorem mkBin_eval (ρ : Nat → Nat → W) {o : Op} (h : bin o = true) (a c : Ex) :
    Op.eval o [a.eval ρ, c.eval ρ] = some ((mkBin o a c).eval ρ) := by
  unfold mkBin
  split
  · rw [mkAdd_eval]; rfl
  · rw [mkSub_eval]; rfl
  · obtain ⟨w, hw⟩ := bin_eval h (a.eval ρ) (c.eval ρ)
    simp only [Ex.eval]
    rw [hw]; rfl

/-- All operands literal? -/
def lits : List Ex → Option (List W)
  | [] => some []
  | .lit n :: l =>
    match lits l with
    | some ws => some (BitVec.ofNat 16 n :: ws)
    | none => none
  | _ :: _ => none

theorem lits_eval (ρ : Nat → Nat → W) (l : List Ex) (ws : List W) (h : lits l = some ws) : l.map (Ex.eval ρ) = ws := by
  induction l generalizing ws with
  | nil => simp [lits] at h; subst h; rfl
  | cons a l ih =>
    cases a with
    | lit n =>
      simp only [lits] at h
      split at h
      · rename_i ws' hws
        simp at h; subst h
        simp [ih _ hws, Ex.eval]
      · simp at h
    | _ => simp [lits] at h

def foldLit (o : Op) (as : List Ex) : Option Ex :=
  match lits as with
  | some ws =>
    match Op.eval o ws with
    | some w => some (.lit w.toNat)
    | none => none
  | none => none

/-- Symbolic operations. -/
def Ex.app (post : Ex → Ex) (o : Op) (as : List Ex) : Option Ex :=
  match o, as with
  | .mov, [a] => some a
  | .shl32 16 j, [a0, _] => match j with
    | 0 => some (.lit 0)
    | 1 => some a0
    | _ => none
  | .shr32 16 j, [_, a1] => match j with
    | 0 => some a1
    | 1 => some (.lit 0)
    | _ => none
  | .shr64 32 j, [_, _, a2, a3] => match j with
    | 0 => some a2
    | 1 => some a3
    | 2 => some (.lit 0)
    | 3 => some (.lit 0)
    | _ => none
  | .pshufb, as => foldLit .pshufb as
  | .permd j, as => foldLit (.permd j) as
  | o, [a] => if un o then some (post (.u o a)) else none
  | o, [a, c] => if bin o then some (post (mkBin o a c)) else none
  | _, _ => none

def Ex.sem (post : Ex → Ex) : Sem Ex := ⟨Ex.app post, .lit⟩

theorem foldLit_eval (ρ : Nat → Nat → W) (o : Op) (as : List Ex) (e : Ex) (h : foldLit o as = some e) :
    Op.eval o (as.map (Ex.eval ρ)) = some (e.eval ρ) := by
  unfold foldLit at h
  split at h
  · rename_i ws hws
    split at h
    · rename_i w hw
      simp at h; subst h
      rw [lits_eval ρ _ _ hws, hw]
      simp [Ex.eval]
    · simp at h
  · simp at h

theorem getLsbD_cat32 (a0 a1 : W) (i : Nat) : (cat32 a0 a1).getLsbD i = if i < 16 then a0.getLsbD i else a1.getLsbD (i - 16) :=
  (BitVec.getLsbD_append (x := a1) (y := a0)).trans (by cases h : decide (i < 16) <;> simp_all)

theorem getLsbD_cat64 (a0 a1 a2 a3 : W) (i : Nat) : (cat64 a0 a1 a2 a3).getLsbD i =
    if i < 16 then a0.getLsbD i else if i < 32 then a1.getLsbD (i - 16) else if i < 48 then a2.getLsbD (i - 32) else a3.getLsbD (i - 48) := by
  have h : (cat64 a0 a1 a2 a3).getLsbD i = if i < 32 then (cat32 a0 a1).getLsbD i else (cat32 a2 a3).getLsbD (i - 32) :=
    (BitVec.getLsbD_append (x := cat32 a2 a3) (y := cat32 a0 a1)).trans (by cases h : decide (i < 32) <;> simp_all)
  rw [h, getLsbD_cat32, getLsbD_cat32, show i - 32 - 16 = i - 48 from by omega]
  by_cases h1 : i < 16
  · simp [h1, show i < 32 from by omega]
  by_cases h2 : i < 32
  · simp [h1, h2]
  by_cases h3 : i < 48
  · simp [h1, h2, h3, show i - 32 < 16 from by omega]
  · simp [h1, h2, h3, show ¬ i - 32 < 16 from by omega]

theorem wordOf_getLsbD {n : Nat} (j : Nat) (x : BitVec n) (i : Nat) (hi : i < 16) : (wordOf j x).getLsbD i = x.getLsbD (16 * j + i) := by
  unfold wordOf; simp [hi]

theorem wordOf_shl32_0 (a0 a1 : W) : wordOf 0 (cat32 a0 a1 <<< 16) = 0 := by
  apply BitVec.eq_of_getLsbD_eq
  intro i hi
  rw [wordOf_getLsbD _ _ _ hi, BitVec.getLsbD_shiftLeft]
  simp
  intro _ _; omega

theorem wordOf_shl32_1 (a0 a1 : W) : wordOf 1 (cat32 a0 a1 <<< 16) = a0 := by
  apply BitVec.eq_of_getLsbD_eq
  intro i hi
  rw [wordOf_getLsbD _ _ _ hi, BitVec.getLsbD_shiftLeft, getLsbD_cat32, if_pos (by omega), show 16 * 1 + i - 16 = i from by omega]
  simp [show 16 * 1 + i < 32 from by omega]

theorem wordOf_shr32_0 (a0 a1 : W) : wordOf 0 (cat32 a0 a1 >>> 16) = a1 := by
  apply BitVec.eq_of_getLsbD_eq
  intro i hi
  rw [wordOf_getLsbD _ _ _ hi, BitVec.getLsbD_ushiftRight, getLsbD_cat32, if_neg (by omega), show 16 + (16 * 0 + i) - 16 = i from by omega]

theorem wordOf_shr32_1 (a0 a1 : W) : wordOf 1 (cat32 a0 a1 >>> 16) = 0 := by
  apply BitVec.eq_of_getLsbD_eq
  intro i hi
  rw [wordOf_getLsbD _ _ _ hi, BitVec.getLsbD_ushiftRight, getLsbD_cat32, if_neg (by omega), BitVec.getLsbD_of_ge _ _ (by omega)]
  simp

theorem wordOf_shr64 (a0 a1 a2 a3 : W) : wordOf 0 (cat64 a0 a1 a2 a3 >>> 32) = a2 ∧ wordOf 1 (cat64 a0 a1 a2 a3 >>> 32) = a3 ∧
    wordOf 2 (cat64 a0 a1 a2 a3 >>> 32) = 0 ∧ wordOf 3 (cat64 a0 a1 a2 a3 >>> 32) = 0 := by
  refine ⟨?_, ?_, ?_, ?_⟩ <;> apply BitVec.eq_of_getLsbD_eq <;> intro i hi <;>
    rw [wordOf_getLsbD _ _ _ hi, BitVec.getLsbD_ushiftRight, getLsbD_cat64, if_neg (by omega), if_neg (by omega)]
  · rw [if_pos (by omega)]; congr 1; omega
  · rw [if_neg (by omega)]; congr 1; omega
  · rw [if_neg (by omega), BitVec.getLsbD_of_ge _ _ (by omega)]; simp
  · rw [if_neg (by omega), BitVec.getLsbD_of_ge _ _ (by omega)]; simp

theorem Ex.app_eval (ρ : Nat → Nat → W) {post : Ex → Ex} (hp : ∀ e, (post e).eval ρ = e.eval ρ) (o : Op) (as : List Ex) (e : Ex)
    (h : Ex.app post o as = some e) : Op.eval o (as.map (Ex.eval ρ)) = some (e.eval ρ) := by
  unfold Ex.app at h
  split at h
  · simp at h; subst h; rfl
  · split at h
    · simp at h; subst h; simp [Op.eval, wordOf_shl32_0, Ex.eval]
    · simp at h; subst h; simp [Op.eval, wordOf_shl32_1]
    · simp at h
  · split at h
    · simp at h; subst h; simp [Op.eval, wordOf_shr32_0]
    · simp at h; subst h; simp [Op.eval, wordOf_shr32_1, Ex.eval]
    · simp at h
  · rename_i a0 a1 a2 a3
    have hw := wordOf_shr64 (a0.eval ρ) (a1.eval ρ) (a2.eval ρ) (a3.eval ρ)
    split at h
    · simp at h; subst h; simp [Op.eval, hw.1]
    · simp at h; subst h; simp [Op.eval, hw.2.1]
    · simp at h; subst h; simp [Op.eval, hw.2.2.1, Ex.eval]
    · simp at h; subst h; simp [Op.eval, hw.2.2.2, Ex.eval]
    · simp at h
  · exact foldLit_eval ρ _ _ _ h
  · exact foldLit_eval ρ _ _ _ h
  · split at h
    · rename_i a _ _ _ hu
      simp only [Option.some.injEq] at h; subst h
      rw [hp]
      obtain ⟨w, hw⟩ := un_eval hu (a.eval ρ)
      simp only [Ex.eval, List.map_cons, List.map_nil, hw, Option.getD_some]
    · simp at h
  · split at h
    · rename_i hb
      simp only [Option.some.injEq] at h; subst h
      rw [hp]
      exact mkBin_eval ρ hb _ _
    · simp at h
  · simp at h

theorem Forall₂.map_eq {A B : Type} {f : A → B} {l : List A} {l' : List B} (h : List.Forall₂ (fun a b => f a = b) l l') : l.map f = l' := by
  induction h with
  | nil => rfl
  | cons h _ ih => rw [List.map_cons, h, ih]

theorem Ex.sound (ρ : Nat → Nat → W) {post : Ex → Ex} (hp : ∀ e, (post e).eval ρ = e.eval ρ) :
    Sound (Ex.sem post) evalW (fun e w => e.eval ρ = w) := by
  refine ⟨fun o as bs a h ha => ?_, fun n => rfl⟩
  have := Forall₂.map_eq h
  subst this
  exact ⟨_, Ex.app_eval ρ hp o as a ha, rfl⟩

/-! ## Checking the result of a symbolic run -/

def cellsBeq : List (Option Ex) → List (Option Ex) → Bool
  | [], [] => true
  | some a :: l, some b :: l' => a.beq b && cellsBeq l l'
  | none :: l, none :: l' => cellsBeq l l'
  | _, _ => false

theorem cellsBeq_eq : ∀ l l' : List (Option Ex), cellsBeq l l' = true → l = l'
  | [], [], _ => rfl
  | some a :: l, some b :: l', h => by
    simp only [cellsBeq, Bool.and_eq_true] at h
    rw [Ex.beq_eq _ _ h.1, cellsBeq_eq _ _ h.2]
  | none :: l, none :: l', h => by rw [cellsBeq_eq l l' h]
  | [], _ :: _, h => by simp [cellsBeq] at h
  | some _ :: _, [], h => by simp [cellsBeq] at h
  | none :: _, [], h => by simp [cellsBeq] at h
  | some _ :: _, none :: _, h => by simp [cellsBeq] at h
  | none :: _, some _ :: _, h => by simp [cellsBeq] at h

/-- The first object after a run has the given cells. -/
def endsIn (r : Except UB (VS Ex)) (cells : List (Option Ex)) : Bool :=
  match r with
  | .ok ⟨_, o :: _⟩ => cellsBeq o.cells cells
  | _ => false

end Verif.Avx
