import Verif.Avx.Sym

/-! # Symbolic lanes: bits

For code that packs and unpacks bits. A bit is a constant or a function of six consecutive atoms `3 b`, ..., `3 b + 5`, given by its truth table; a word is
a list of bits, least significant first, missing bits being zero. `Bit.any` stands for a bit about which nothing is known. -/

namespace Verif.Avx

inductive Bit where
  | c (b : Bool)
  | any
  /-- truth table `tt` of 64 entries over the atoms of block `b` -/
  | t (b tt : Nat)
  deriving Repr, Inhabited

namespace Bit

def beq : Bit → Bit → Bool
  | .c true, .c true => true
  | .c false, .c false => true
  | .any, .any => true
  | .t b x, .t b' x' => Nat.beq b b' && Nat.beq x x'
  | _, _ => false

theorem beq_eq (x y : Bit) (h : x.beq y = true) : x = y := by
  unfold beq at h
  split at h
  · rfl
  · rfl
  · rfl
  · rw [Bool.and_eq_true] at h
    rw [Nat.eq_of_beq_eq_true h.1, Nat.eq_of_beq_eq_true h.2]
  · simp at h

/-- The assignment of the atoms `3 b`, `3 b + 1`, `3 b + 2`, as a number. -/
def idx3 (α : Nat → Bool) (b : Nat) : Nat := (α (3 * b)).toNat + 2 * ((α (3 * b + 1)).toNat + 2 * (α (3 * b + 2)).toNat)

theorem idx3_lt (α : Nat → Bool) (b : Nat) : idx3 α b < 8 := by
  unfold idx3
  have := (α (3 * b)).toNat_lt; have := (α (3 * b + 1)).toNat_lt; have := (α (3 * b + 2)).toNat_lt
  omega

/-- The entry of the truth tables of block `b`. -/
def idx (α : Nat → Bool) (b : Nat) : Nat := idx3 α b + 8 * idx3 α (b + 1)

theorem idx_lt (α : Nat → Bool) (b : Nat) : idx α b < 64 := by
  unfold idx
  have := idx3_lt α b; have := idx3_lt α (b + 1)
  omega

/-- The bit described has value `x`, under an assignment of the atoms. -/
def holds (α : Nat → Bool) : Bit → Bool → Prop
  | .c b, x => x = b
  | .any, _ => True
  | .t b tt, x => x = tt.testBit (idx α b)

/-- Constants are recognised. -/
def mk (b tt : Nat) : Bit :=
  match Nat.beq tt 0 with
  | true => .c false
  | false =>
    match Nat.beq tt 18446744073709551615 with
    | true => .c true
    | false => .t b tt

theorem ones_testBit {i : Nat} (h : i < 64) : Nat.testBit 18446744073709551615 i = true := by
  rw [show 18446744073709551615 = 2 ^ 64 - 1 from rfl, Nat.testBit_two_pow_sub_one]; simpa using h

theorem mk_holds {α : Nat → Bool} {b tt : Nat} {x : Bool} (h : x = tt.testBit (idx α b)) : (mk b tt).holds α x := by
  unfold mk
  split
  · rename_i e
    have := Nat.eq_of_beq_eq_true e
    subst this
    rw [h]; simp [holds]
  · split
    · rename_i e
      have := Nat.eq_of_beq_eq_true e
      subst this
      rw [h]; exact ones_testBit (idx_lt α b)
    · exact h

def varT : Nat → Nat
  | 0 => 0xAAAAAAAAAAAAAAAA
  | 1 => 0xCCCCCCCCCCCCCCCC
  | _ => 0xF0F0F0F0F0F0F0F0

/-- The atom numbered `a`. -/
def atom (a : Nat) : Bit := .t (a / 3) (varT (a % 3))

theorem varT_testBit : ∀ j : Fin 3, ∀ l h : Fin 8, (varT j.val).testBit (l.val + 8 * h.val) = l.val.testBit j.val := by decide +kernel

theorem idx3_testBit (α : Nat → Bool) (b j : Nat) (hj : j < 3) : (idx3 α b).testBit j = α (3 * b + j) := by
  have h : ∀ x0 x1 x2 : Bool, ∀ j : Fin 3,
      (x0.toNat + 2 * (x1.toNat + 2 * x2.toNat)).testBit j.val = (match j with | 0 => x0 | 1 => x1 | 2 => x2) := by decide +kernel
  unfold idx3
  rw [h _ _ _ ⟨j, hj⟩]
  have : j = 0 ∨ j = 1 ∨ j = 2 := by omega
  rcases this with rfl | rfl | rfl <;> rfl

theorem atom_holds (α : Nat → Bool) (a : Nat) : (atom a).holds α (α a) := by
  have h := varT_testBit ⟨a % 3, by omega⟩ ⟨idx3 α (a / 3), idx3_lt _ _⟩ ⟨idx3 α (a / 3 + 1), idx3_lt _ _⟩
  show α a = (varT (a % 3)).testBit (idx α (a / 3))
  rw [idx, h, idx3_testBit α (a / 3) (a % 3) (by omega), Nat.div_add_mod]

/-- The truth table that depends on the first three atoms only. -/
def lowT (t : Nat) : Nat := t * 0x0101010101010101
/-- The truth table that depends on the last three atoms only. -/
def highT (t : Nat) : Nat :=
  Nat.land t 1 * 0xFF + (Nat.land t 2 * 0x7F80 + (Nat.land t 4 * 0x3FC000 + (Nat.land t 8 * 0x1FE00000 + (Nat.land t 16 * 0xFF0000000 +
    (Nat.land t 32 * 0x7F800000000 + (Nat.land t 64 * 0x3FC0000000000 + Nat.land t 128 * 0x1FE000000000000))))))

theorem lowT_testBit : ∀ t : Fin 256, ∀ l h : Fin 8, (lowT t.val).testBit (l.val + 8 * h.val) = t.val.testBit l.val := by decide +kernel
theorem highT_testBit : ∀ t : Fin 256, ∀ l h : Fin 8, (highT t.val).testBit (l.val + 8 * h.val) = t.val.testBit h.val := by decide +kernel

/-- A table over block `b + 1` as one over block `b`, if it depends on the first three atoms only. -/
def lift (tt : Nat) : Option Nat :=
  match Nat.beq tt (lowT (Nat.mod tt 256)) with
  | true => some (highT (Nat.mod tt 256))
  | false => none

theorem lift_ok {tt u : Nat} (h : lift tt = some u) (α : Nat → Bool) (b : Nat) : tt.testBit (idx α (b + 1)) = u.testBit (idx α b) := by
  unfold lift at h
  split at h
  · rename_i e
    have e := Nat.eq_of_beq_eq_true e
    cases h
    have hm : Nat.mod tt 256 < 256 := Nat.mod_lt _ (by omega)
    have h1 := lowT_testBit ⟨Nat.mod tt 256, hm⟩ ⟨idx3 α (b + 1), idx3_lt _ _⟩ ⟨idx3 α (b + 1 + 1), idx3_lt _ _⟩
    have h2 := highT_testBit ⟨Nat.mod tt 256, hm⟩ ⟨idx3 α b, idx3_lt _ _⟩ ⟨idx3 α (b + 1), idx3_lt _ _⟩
    rw [show (lowT (Nat.mod tt 256)) = tt from e.symm] at h1
    rw [idx, idx, h1, h2]
  · simp at h

/-- Combine truth tables by `f`. -/
def comb (f : Nat → Nat → Nat) (b tt b' tt' : Nat) : Bit :=
  match Nat.beq b b' with
  | true => mk b (f tt tt')
  | false =>
    match Nat.beq (Nat.succ b) b' with
    | true =>
      match lift tt' with
      | some u => mk b (f tt u)
      | none => .any
    | false =>
      match Nat.beq b (Nat.succ b') with
      | true =>
        match lift tt with
        | some u => mk b' (f u tt')
        | none => .any
      | false => .any

theorem comb_holds {f : Nat → Nat → Nat} {g : Bool → Bool → Bool} (hf : ∀ x y i, (f x y).testBit i = g (x.testBit i) (y.testBit i))
    {α : Nat → Bool} {b tt b' tt' : Nat} : (comb f b tt b' tt').holds α (g (tt.testBit (idx α b)) (tt'.testBit (idx α b'))) := by
  unfold comb
  split
  · rename_i e
    have := Nat.eq_of_beq_eq_true e
    subst this
    exact mk_holds (hf _ _ _).symm
  · split
    · rename_i e
      have := Nat.eq_of_beq_eq_true e
      subst this
      split
      · rename_i u hu
        exact mk_holds (by rw [hf, ← lift_ok hu])
      · trivial
    · split
      · rename_i e
        have := Nat.eq_of_beq_eq_true e
        subst this
        split
        · rename_i u hu
          exact mk_holds (by rw [hf, ← lift_ok hu])
        · trivial
      · trivial

def not : Bit → Bit
  | .c true => .c false
  | .c false => .c true
  | .any => .any
  | .t b tt => .t b (Nat.xor tt 18446744073709551615)

theorem not_holds {α : Nat → Bool} {b : Bit} {x : Bool} (h : b.holds α x) : b.not.holds α (!x) := by
  cases b with
  | c b => cases b <;> simp only [holds] at h <;> subst h <;> rfl
  | any => trivial
  | t b tt =>
    simp only [holds] at h
    show (!x) = (tt ^^^ 18446744073709551615).testBit (idx α b)
    rw [Nat.testBit_xor, ones_testBit (idx_lt α b), h]; simp

def and (x y : Bit) : Bit :=
  match x, y with
  | .c false, _ => .c false
  | _, .c false => .c false
  | .c true, y => y
  | x, .c true => x
  | .t b tt, .t b' tt' => comb Nat.land b tt b' tt'
  | _, _ => .any

theorem and_holds {α : Nat → Bool} {x y : Bit} {a b : Bool} (hx : x.holds α a) (hy : y.holds α b) : (and x y).holds α (a && b) := by
  unfold and
  split
  · simp only [holds] at hx ⊢; rw [hx]; rfl
  · simp only [holds] at hy ⊢; rw [hy]; simp
  · simp only [holds] at hx; rw [hx]; simpa using hy
  · simp only [holds] at hy; rw [hy]; simpa using hx
  · simp only [holds] at hx hy
    rw [hx, hy]
    exact comb_holds (g := fun a b => a && b) (fun x y i => Nat.testBit_and ..)
  · trivial

def xor (x y : Bit) : Bit :=
  match x, y with
  | .c false, y => y
  | x, .c false => x
  | .c true, y => y.not
  | x, .c true => x.not
  | .t b tt, .t b' tt' => comb Nat.xor b tt b' tt'
  | _, _ => .any

theorem xor_holds {α : Nat → Bool} {x y : Bit} {a b : Bool} (hx : x.holds α a) (hy : y.holds α b) : (xor x y).holds α (Bool.xor a b) := by
  unfold xor
  split
  · simp only [holds] at hx; rw [hx]; simpa using hy
  · simp only [holds] at hy; rw [hy]; simpa using hx
  · simp only [holds] at hx; rw [hx]; simpa using not_holds hy
  · simp only [holds] at hy; rw [hy]; simpa using not_holds hx
  · simp only [holds] at hx hy
    rw [hx, hy]
    exact comb_holds (g := fun a b => Bool.xor a b) (fun x y i => Nat.testBit_xor ..)
  · trivial

def or (x y : Bit) : Bit :=
  match x, y with
  | .c false, y => y
  | x, .c false => x
  | .c true, _ => .c true
  | _, .c true => .c true
  | .t b tt, .t b' tt' => comb Nat.lor b tt b' tt'
  | _, _ => .any

theorem or_holds {α : Nat → Bool} {x y : Bit} {a b : Bool} (hx : x.holds α a) (hy : y.holds α b) : (or x y).holds α (a || b) := by
  unfold or
  split
  · simp only [holds] at hx; rw [hx]; simpa using hy
  · simp only [holds] at hy; rw [hy]; simpa using hx
  · simp only [holds] at hx ⊢; rw [hx]; rfl
  · simp only [holds] at hy ⊢; rw [hy]; simp
  · simp only [holds] at hx hy
    rw [hx, hy]
    exact comb_holds (g := fun a b => a || b) (fun x y i => Nat.testBit_or ..)
  · trivial

def maj (x y z : Bit) : Bit := or (and x y) (and z (xor x y))

theorem maj_holds {α : Nat → Bool} {x y z : Bit} {a b d : Bool} (hx : x.holds α a) (hy : y.holds α b) (hz : z.holds α d) :
    (maj x y z).holds α (Bool.atLeastTwo a b d) := by
  have h := or_holds (and_holds hx hy) (and_holds hz (xor_holds hx hy))
  unfold maj
  have e : (a && b || d && Bool.xor a b) = Bool.atLeastTwo a b d := by cases a <;> cases b <;> cases d <;> rfl
  rw [← e]; exact h

end Bit

/-! ## Words as lists of bits -/

def getB (bs : List Bit) (i : Nat) : Bit := bs.getD i (.c false)

/-- The list describes the word. -/
def BR (α : Nat → Bool) {n : Nat} (bs : List Bit) (x : BitVec n) : Prop := ∀ i, (getB bs i).holds α (x.getLsbD i)

theorem getB_nil (i : Nat) : getB [] i = .c false := by simp [getB]
theorem getB_zero (b : Bit) (bs : List Bit) : getB (b :: bs) 0 = b := rfl
theorem getB_succ (b : Bit) (bs : List Bit) (i : Nat) : getB (b :: bs) (i + 1) = getB bs i := rfl

/-- The first element of a list and the rest, zero if it is empty. -/
def hd : List Bit → Bit
  | [] => .c false
  | b :: _ => b
def tl : List Bit → List Bit
  | [] => []
  | _ :: l => l

theorem hd_eq (bs : List Bit) : hd bs = getB bs 0 := by cases bs <;> rfl
theorem tl_eq (bs : List Bit) (i : Nat) : getB (tl bs) i = getB bs (i + 1) := by
  cases bs
  · simp [tl, getB_nil]
  · rfl

/-- Exactly `n` bits. -/
def padTo : Nat → List Bit → List Bit
  | 0, _ => []
  | n + 1, bs => hd bs :: padTo n (tl bs)

theorem getB_padTo (n : Nat) (bs : List Bit) (i : Nat) : getB (padTo n bs) i = if i < n then getB bs i else .c false := by
  induction n generalizing bs i with
  | zero => simp [padTo, getB_nil]
  | succ n ih =>
    cases i with
    | zero => simp [padTo, getB_zero, hd_eq]
    | succ i => rw [padTo, getB_succ, ih, tl_eq]; simp

theorem getB_padTo_append (n : Nat) (a b : List Bit) (i : Nat) : getB (padTo n a ++ b) i = if i < n then getB a i else getB b (i - n) := by
  induction n generalizing a i with
  | zero => simp [padTo]
  | succ n ih =>
    cases i with
    | zero => simp [padTo, getB_zero, hd_eq]
    | succ i => rw [padTo, List.cons_append, getB_succ, ih, tl_eq]; simp

theorem getB_drop (k : Nat) (bs : List Bit) (i : Nat) : getB (bs.drop k) i = getB bs (k + i) := by
  simp [getB, List.getD_eq_getElem?_getD]

/-- Shift left. -/
def shlB (k : Nat) (bs : List Bit) : List Bit := padTo k [] ++ bs
theorem getB_shlB (k : Nat) (bs : List Bit) (i : Nat) : getB (shlB k bs) i = if i < k then .c false else getB bs (i - k) := by
  rw [shlB, getB_padTo_append, getB_nil]

def zipB (f : Bit → Bit → Bit) : Nat → List Bit → List Bit → List Bit
  | 0, _, _ => []
  | n + 1, as, bs => f (hd as) (hd bs) :: zipB f n (tl as) (tl bs)

theorem getB_zipB (f : Bit → Bit → Bit) (n : Nat) (as bs : List Bit) (i : Nat) :
    getB (zipB f n as bs) i = if i < n then f (getB as i) (getB bs i) else .c false := by
  induction n generalizing as bs i with
  | zero => simp [zipB, getB_nil]
  | succ n ih =>
    cases i with
    | zero => simp [zipB, getB_zero, hd_eq]
    | succ i => rw [zipB, getB_succ, ih, tl_eq, tl_eq]; simp

def notB (n : Nat) (bs : List Bit) : List Bit := zipB (fun x _ => x.not) n bs []

/-- Addition with carry. -/
def addB : Nat → Bit → List Bit → List Bit → List Bit
  | 0, _, _, _ => []
  | n + 1, c, as, bs => Bit.xor (hd as) (Bit.xor (hd bs) c) :: addB n (Bit.maj (hd as) (hd bs) c) (tl as) (tl bs)

theorem BR.lt {α : Nat → Bool} {n : Nat} {bs : List Bit} {x : BitVec n} (h : ∀ i, i < n → (getB bs i).holds α (x.getLsbD i)) : BR α (padTo n bs) x := by
  intro i
  rw [getB_padTo]
  split
  · exact h i ‹_›
  · rw [BitVec.getLsbD_of_ge _ _ (by omega)]; rfl

theorem addB_ok {α : Nat → Bool} {w : Nat} {x y : BitVec w} (n k : Nat) {c : Bit} {as bs : List Bit} (hk : k + n = w)
    (hc : c.holds α (BitVec.carry k x y false)) (ha : ∀ i, (getB as i).holds α (x.getLsbD (k + i))) (hb : ∀ i, (getB bs i).holds α (y.getLsbD (k + i))) :
    ∀ i, (getB (addB n c as bs) i).holds α ((x + y).getLsbD (k + i)) := by
  induction n generalizing k c as bs with
  | zero => intro i; rw [BitVec.getLsbD_of_ge _ _ (by omega), addB, getB_nil]; rfl
  | succ n ih =>
    intro i
    have h0 := ha 0; have h1 := hb 0
    cases i with
    | zero =>
      rw [addB, getB_zero, BitVec.getLsbD_add (by omega), hd_eq, hd_eq]
      exact Bit.xor_holds h0 (Bit.xor_holds h1 hc)
    | succ i =>
      rw [addB, getB_succ, show k + (i + 1) = (k + 1) + i from by omega]
      refine ih (k + 1) (by omega) ?_ ?_ ?_ i
      · rw [BitVec.carry_succ, hd_eq, hd_eq]; exact Bit.maj_holds h0 h1 hc
      · intro j; rw [tl_eq, show k + 1 + j = k + (j + 1) from by omega]; exact ha _
      · intro j; rw [tl_eq, show k + 1 + j = k + (j + 1) from by omega]; exact hb _

theorem BR.add {α : Nat → Bool} {w : Nat} {x y : BitVec w} {as bs : List Bit} (ha : BR α as x) (hb : BR α bs y) : BR α (addB w (.c false) as bs) (x + y) := by
  have := addB_ok (α := α) (x := x) (y := y) w 0 (c := .c false) (as := as) (bs := bs) (by omega) (by simp [Bit.holds])
    (fun i => by rw [Nat.zero_add]; exact ha i) (fun i => by rw [Nat.zero_add]; exact hb i)
  intro i
  have := this i
  rwa [Nat.zero_add] at this

theorem BR.not {α : Nat → Bool} {w : Nat} {x : BitVec w} {as : List Bit} (ha : BR α as x) : BR α (notB w as) (~~~x) := by
  intro i
  rw [notB, getB_zipB, BitVec.getLsbD_not]
  split
  · rename_i h
    simp only [h, decide_true, Bool.true_and]
    exact Bit.not_holds (ha i)
  · rename_i h
    simp only [h, decide_false, Bool.false_and]; rfl

def subB (w : Nat) (as bs : List Bit) : List Bit := notB w (addB w (.c false) (notB w as) bs)

theorem BR.sub {α : Nat → Bool} {w : Nat} {x y : BitVec w} {as bs : List Bit} (ha : BR α as x) (hb : BR α bs y) : BR α (subB w as bs) (x - y) := by
  have e : x - y = ~~~(~~~x + y) := by
    rw [← BitVec.allOnes_sub_eq_not, ← BitVec.allOnes_sub_eq_not (x := x)]
    ring
  rw [e]
  exact (ha.not.add hb).not

theorem BR.zip {α : Nat → Bool} {w : Nat} {z : BitVec w} {as bs : List Bit} {f : Bit → Bit → Bit}
    (hf : ∀ i, i < w → (f (getB as i) (getB bs i)).holds α (z.getLsbD i)) : BR α (zipB f w as bs) z := by
  intro i
  rw [getB_zipB]
  split
  · exact hf i ‹_›
  · rw [BitVec.getLsbD_of_ge _ _ (by omega)]; rfl

theorem BR.and {α : Nat → Bool} {w : Nat} {x y : BitVec w} {as bs : List Bit} (ha : BR α as x) (hb : BR α bs y) : BR α (zipB Bit.and w as bs) (x &&& y) :=
  BR.zip fun i _ => by rw [BitVec.getLsbD_and]; exact Bit.and_holds (ha i) (hb i)
theorem BR.or {α : Nat → Bool} {w : Nat} {x y : BitVec w} {as bs : List Bit} (ha : BR α as x) (hb : BR α bs y) : BR α (zipB Bit.or w as bs) (x ||| y) :=
  BR.zip fun i _ => by rw [BitVec.getLsbD_or]; exact Bit.or_holds (ha i) (hb i)
theorem BR.xor {α : Nat → Bool} {w : Nat} {x y : BitVec w} {as bs : List Bit} (ha : BR α as x) (hb : BR α bs y) : BR α (zipB Bit.xor w as bs) (x ^^^ y) :=
  BR.zip fun i _ => by rw [BitVec.getLsbD_xor]; exact Bit.xor_holds (ha i) (hb i)

theorem BR.shl {α : Nat → Bool} {w : Nat} {x : BitVec w} {as : List Bit} (ha : BR α as x) (k : Nat) : BR α (padTo w (shlB k as)) (x <<< k) :=
  BR.lt fun i hi => by
    rw [getB_shlB, BitVec.getLsbD_shiftLeft]
    split
    · rename_i h; simp only [hi, h, decide_true, Bool.not_true, Bool.and_false, Bool.false_and]; rfl
    · rename_i h; simp only [hi, h, decide_true, decide_false, Bool.not_false, Bool.true_and]; exact ha _

theorem BR.shr {α : Nat → Bool} {w : Nat} {x : BitVec w} {as : List Bit} (ha : BR α as x) (k : Nat) : BR α (as.drop k) (x >>> k) := fun i => by
  rw [getB_drop, BitVec.getLsbD_ushiftRight]; exact ha _

theorem BR.word {α : Nat → Bool} {w : Nat} {x : BitVec w} {as : List Bit} (ha : BR α as x) (j : Nat) : BR α (padTo 16 (as.drop (16 * j))) (wordOf j x) :=
  BR.lt fun i hi => by rw [wordOf_getLsbD _ _ _ hi, getB_drop]; exact ha _

theorem BR.byte {α : Nat → Bool} {x : W} {as : List Bit} (ha : BR α as x) (p : Nat) : BR α (padTo 8 (as.drop (8 * p))) (byteOf p x) :=
  BR.lt fun i hi => by
    rw [getB_drop]; unfold byteOf; rw [BitVec.getLsbD_extractLsb']
    simp only [hi, decide_true, Bool.true_and]; exact ha _

theorem BR.append {α : Nat → Bool} {v w : Nat} {x : BitVec v} {y : BitVec w} {as bs : List Bit} (ha : BR α as x) (hb : BR α bs y) :
    BR α (padTo v as ++ bs) (y ++ x) := fun i => by
  rw [getB_padTo_append, BitVec.getLsbD_append]
  split
  · exact ha i
  · exact hb _

theorem BR.ofBytes {α : Nat → Bool} {l h : BitVec 8} {as bs : List Bit} (ha : BR α as l) (hb : BR α bs h) : BR α (padTo 8 as ++ bs) (ofBytes l h) := ha.append hb
theorem BR.nil {α : Nat → Bool} {w : Nat} : BR α [] (0 : BitVec w) := fun i => by rw [getB_nil]; simp [Bit.holds]

def cat32B (a0 a1 : List Bit) : List Bit := padTo 16 a0 ++ a1
def cat64B (a0 a1 a2 a3 : List Bit) : List Bit := padTo 16 a0 ++ (padTo 16 a1 ++ (padTo 16 a2 ++ a3))

theorem BR.cat32 {α : Nat → Bool} {a0 a1 : W} {as0 as1 : List Bit} (h0 : BR α as0 a0) (h1 : BR α as1 a1) : BR α (cat32B as0 as1) (cat32 a0 a1) := h0.append h1
theorem BR.cat64 {α : Nat → Bool} {a0 a1 a2 a3 : W} {as0 as1 as2 as3 : List Bit} (h0 : BR α as0 a0) (h1 : BR α as1 a1) (h2 : BR α as2 a2)
    (h3 : BR α as3 a3) : BR α (cat64B as0 as1 as2 as3) (cat64 a0 a1 a2 a3) := fun i => by
  rw [cat64B, getB_padTo_append, getB_padTo_append, getB_padTo_append, getLsbD_cat64]
  by_cases c0 : i < 16
  · rw [if_pos c0, if_pos c0]; exact h0 i
  rw [if_neg c0, if_neg c0]
  by_cases c1 : i < 32
  · rw [if_pos c1, if_pos (by omega)]; exact h1 _
  rw [if_neg c1, if_neg (by omega)]
  by_cases c2 : i < 48
  · rw [if_pos c2, if_pos (by omega), Nat.sub_sub]; exact h2 _
  · rw [if_neg c2, if_neg (by omega), Nat.sub_sub, Nat.sub_sub]; exact h3 _

/-! ## Constants -/

/-- The value of the first `n` bits, if they are constant. -/
def natOf : Nat → List Bit → Option Nat
  | 0, _ => some 0
  | n + 1, bs =>
    match hd bs with
    | .c b =>
      match natOf n (tl bs) with
      | some v => some (b.toNat + 2 * v)
      | none => none
    | _ => none

theorem natOf_ok {α : Nat → Bool} (n : Nat) {bs : List Bit} {f : Nat → Bool} {v : Nat} (h : ∀ i, i < n → (getB bs i).holds α (f i))
    (hv : natOf n bs = some v) : v < 2 ^ n ∧ ∀ i, i < n → v.testBit i = f i := by
  induction n generalizing bs f v with
  | zero => simp [natOf] at hv; subst hv; simp
  | succ n ih =>
    unfold natOf at hv
    split at hv
    · rename_i b hb
      split at hv
      · rename_i v' hv'
        simp only [Option.some.injEq] at hv
        obtain ⟨h1, h2⟩ := ih (bs := tl bs) (f := fun i => f (i + 1)) (fun i hi => by rw [tl_eq]; exact h (i + 1) (by omega)) hv'
        have h0 := h 0 (by omega)
        rw [← hd_eq, hb] at h0
        simp only [Bit.holds] at h0
        subst hv
        refine ⟨by have := b.toNat_lt; rw [Nat.pow_succ]; omega, fun i hi => ?_⟩
        cases i with
        | zero =>
          rw [h0, Nat.testBit_zero]
          cases b <;> simp
        | succ i =>
          rw [Nat.testBit_succ, show (b.toNat + 2 * v') / 2 = v' from by have := b.toNat_lt; omega]
          exact h2 i (by omega)
      · simp at hv
    · simp at hv

theorem BR.nat {α : Nat → Bool} {w : Nat} {x : BitVec w} {bs : List Bit} (h : BR α bs x) {v : Nat} (hv : natOf w bs = some v) : x.toNat = v := by
  obtain ⟨h1, h2⟩ := natOf_ok w (fun i _ => h i) hv
  have : x = BitVec.ofNat w v := by
    apply BitVec.eq_of_getLsbD_eq
    intro i hi
    rw [BitVec.getLsbD_ofNat, h2 i hi]; simp [hi]
  rw [this, BitVec.toNat_ofNat, Nat.mod_eq_of_lt h1]

/-- The exponent of a power of two. -/
def pow2 (v : Nat) : Option Nat := if Nat.beq (2 ^ v.log2) v then some v.log2 else none
theorem pow2_ok {v k : Nat} (h : pow2 v = some k) : v = 2 ^ k := by
  unfold pow2 at h
  split at h
  · rename_i e; simp at h; rw [← h]; exact (Nat.eq_of_beq_eq_true e).symm
  · simp at h

/-- The bits of a literal. -/
def litB : Nat → Nat → List Bit
  | 0, _ => []
  | n + 1, v => .c (Nat.beq (v % 2) 1) :: litB n (v / 2)

theorem litB_ok {α : Nat → Bool} (n v : Nat) : BR α (litB n v) (BitVec.ofNat n v) := by
  suffices ∀ i, (getB (litB n v) i).holds α (decide (i < n) && v.testBit i) by
    intro i; rw [BitVec.getLsbD_ofNat]; exact this i
  induction n generalizing v with
  | zero => intro i; simp [litB, getB_nil, Bit.holds]
  | succ n ih =>
    intro i
    cases i with
    | zero => simp [litB, getB_zero, Bit.holds, Nat.testBit_zero]
              rw [Bool.eq_iff_iff, decide_eq_true_iff]
              exact ⟨fun h => by rw [h]; rfl, fun h => Nat.eq_of_beq_eq_true h⟩
    | succ i =>
      rw [litB, getB_succ, Nat.testBit_succ]
      simpa using ih (v / 2) i

/-! ## Operations on words as lists of bits -/

def shufB (l : List (List Bit)) (m : Nat) : List Bit :=
  if Nat.testBit m 7 then [] else padTo 8 ((l.getD (m % 16 / 2) []).drop (8 * (m % 16 % 2)))

def isZero (n k : Nat) (bs : List Bit) : Bool :=
  match natOf n (bs.drop k) with
  | some 0 => true
  | _ => false

def movmaskB : List (List Bit) → List Bit
  | [] => []
  | a :: l => getB a 7 :: getB a 15 :: movmaskB l

def bitsApp : Op → List (List Bit) → Option (List Bit)
  | .mov, [a] => some a
  | .add, [a, b] => some (addB 16 (.c false) a b)
  | .sub, [a, b] => some (subB 16 a b)
  | .mullo, [a, b] =>
    match natOf 16 b with
    | some v =>
      match pow2 v with
      | some k => some (padTo 16 (shlB k a))
      | none => none
    | none => none
  | .and, [a, b] => some (zipB Bit.and 16 a b)
  | .or, [a, b] => some (zipB Bit.or 16 a b)
  | .xor, [a, b] => some (zipB Bit.xor 16 a b)
  | .andn, [a, b] => some (zipB Bit.and 16 (notB 16 a) b)
  | .sll k, [a] => some (padTo 16 (shlB k a))
  | .srl k, [a] => some (a.drop k)
  | .sra 15, [a] => some (List.replicate 16 (getB a 15))
  | .bytes p p', [a, b] => some (padTo 8 (padTo 8 (a.drop (8 * p))) ++ padTo 8 (b.drop (8 * p')))
  | .lo8, [a] => some (padTo 8 (a.drop (8 * 0)))
  | .hi8, [a] => some (padTo 8 (a.drop (8 * 1)))
  | .add8, [a, b] => some (padTo 8 (addB 8 (.c false) (padTo 8 (a.drop (8 * 0))) (padTo 8 (b.drop (8 * 0)))) ++
      addB 8 (.c false) (padTo 8 (a.drop (8 * 1))) (padTo 8 (b.drop (8 * 1))))
  | .sub8, [a, b] => some (padTo 8 (subB 8 (padTo 8 (a.drop (8 * 0))) (padTo 8 (b.drop (8 * 0)))) ++
      subB 8 (padTo 8 (a.drop (8 * 1))) (padTo 8 (b.drop (8 * 1))))
  | .sext p, [a] => some (padTo 8 (padTo 8 (a.drop (8 * p))) ++ List.replicate 8 (getB (padTo 8 (a.drop (8 * p))) 7))
  | .packus, [a, b] =>
    if isZero 8 8 a && isZero 8 8 b then some (padTo 8 (padTo 8 (a.drop (8 * 0))) ++ padTo 8 (b.drop (8 * 0))) else none
  | .packs, [a, b] => some (List.replicate 7 .any ++ (getB a 15 :: (List.replicate 7 .any ++ [getB b 15])))
  | .maddubs, [a, b] =>
    match natOf 16 b with
    | some v =>
      match pow2 (v % 256), pow2 (v / 256) with
      | some i, some j =>
        if Nat.ble i 6 && Nat.ble j 6 then
          some (addB 16 (.c false) (padTo 16 (shlB i (padTo 8 (a.drop (8 * 0))))) (padTo 16 (shlB j (padTo 8 (a.drop (8 * 1))))))
        else none
      | _, _ => none
    | none => none
  | .madd w, [a0, a1, b0, b1] =>
    match natOf 16 b0, natOf 16 b1 with
    | some v0, some v1 =>
      match pow2 v0, pow2 v1 with
      | some i, some j =>
        if Nat.ble i 14 && Nat.ble j 14 && isZero 1 15 a0 && isZero 1 15 a1 then
          some (padTo 16 ((addB 32 (.c false) (padTo 32 (shlB i a0)) (padTo 32 (shlB j a1))).drop (16 * w)))
        else none
      | _, _ => none
    | _, _ => none
  | .shl32 k j, [a0, a1] => some (padTo 16 ((padTo 32 (shlB k (cat32B a0 a1))).drop (16 * j)))
  | .shr32 k j, [a0, a1] => some (padTo 16 (((cat32B a0 a1).drop k).drop (16 * j)))
  | .sllv32 j, [a0, a1, c0, c1] =>
    match natOf 32 (cat32B c0 c1) with
    | some k => if Nat.ble k 32 then some (padTo 16 ((padTo 32 (shlB k (cat32B a0 a1))).drop (16 * j))) else none
    | none => none
  | .srlv32 j, [a0, a1, c0, c1] =>
    match natOf 32 (cat32B c0 c1) with
    | some k => some (padTo 16 (((cat32B a0 a1).drop k).drop (16 * j)))
    | none => none
  | .add32 j, [a0, a1, b0, b1] => some (padTo 16 ((addB 32 (.c false) (cat32B a0 a1) (cat32B b0 b1)).drop (16 * j)))
  | .sub32 j, [a0, a1, b0, b1] => some (padTo 16 ((subB 32 (cat32B a0 a1) (cat32B b0 b1)).drop (16 * j)))
  | .shl64 k j, [a0, a1, a2, a3] => some (padTo 16 ((padTo 64 (shlB k (cat64B a0 a1 a2 a3))).drop (16 * j)))
  | .shr64 k j, [a0, a1, a2, a3] => some (padTo 16 (((cat64B a0 a1 a2 a3).drop k).drop (16 * j)))
  | .srlv64 j, [a0, a1, a2, a3, c0, c1, c2, c3] =>
    match natOf 64 (cat64B c0 c1 c2 c3) with
    | some k => some (padTo 16 (((cat64B a0 a1 a2 a3).drop k).drop (16 * j)))
    | none => none
  | .add64 j, [a0, a1, a2, a3, b0, b1, b2, b3] =>
    some (padTo 16 ((addB 64 (.c false) (cat64B a0 a1 a2 a3) (cat64B b0 b1 b2 b3)).drop (16 * j)))
  | .pshufb, [a0, a1, a2, a3, a4, a5, a6, a7, m] =>
    match natOf 16 m with
    | some v => some (padTo 8 (shufB [a0, a1, a2, a3, a4, a5, a6, a7] (v % 256)) ++ shufB [a0, a1, a2, a3, a4, a5, a6, a7] (v / 256))
    | none => none
  | .permd j, [a0, a1, a2, a3, a4, a5, a6, a7, a8, a9, a10, a11, a12, a13, a14, a15, c] =>
    match natOf 16 c with
    | some v => some ([a0, a1, a2, a3, a4, a5, a6, a7, a8, a9, a10, a11, a12, a13, a14, a15].getD (2 * (v % 8) + j) [])
    | none => none
  | .blendv, [a, b, m] =>
    match natOf 16 m with
    | some v => some (padTo 8 (if Nat.testBit v 7 then padTo 8 (b.drop (8 * 0)) else padTo 8 (a.drop (8 * 0))) ++
        (if Nat.testBit v 15 then padTo 8 (b.drop (8 * 1)) else padTo 8 (a.drop (8 * 1))))
    | none => none
  | .movmask, [a0, a1, a2, a3, a4, a5, a6, a7] => some (movmaskB [a0, a1, a2, a3, a4, a5, a6, a7])
  | _, _ => none

end Verif.Avx
