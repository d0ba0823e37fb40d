/-!
# Execution model of C code

A C function is modelled as a Lean function into `C α`. The outcome of running it is

* `ok v t`  – it returned `v`, and `t` is its leakage trace: every branch decision (including
  loop conditions) and the offset of every memory access, in order;
* `ub u`    – it ran into undefined behaviour;
* `diverge` – it was still running when the fuel of one of its loops was used up.

Memory objects are arrays of cells; a cell holding `none` is indeterminate (uninitialised).
A pointer into an object is an object together with an offset.
-/

namespace Verif

/-- The kinds of undefined behaviour that the model distinguishes. -/
inductive UB where
  /-- access outside the bounds of an object -/
  | oob
  /-- read of an indeterminate value -/
  | uninit
  /-- result of a signed `int` operation not representable -/
  | overflow
  /-- left shift of a negative value -/
  | shift
  /-- a coefficient sum or difference that does not fit the `int16_t` it is stored in (implementation-defined in C, where
  gcc and clang wrap; treated like undefined behaviour so that its absence is part of every theorem) -/
  | narrow
  /-- an access that requires alignment at an address that is not aligned (AVX2 code only) -/
  | align
  /-- `memcpy` between regions that overlap (only in the calls of Verif/Model/Alias.lean, where objects are shared) -/
  | alias
  deriving DecidableEq, Repr

/-- What an observer of control flow, memory addresses and the operands of division instructions (whose time varies) sees. -/
inductive Leak where
  | br (b : Bool)
  | ld (i : Nat)
  | st (i : Nat)
  | dv (a b : Nat)
  deriving DecidableEq, Repr

abbrev Trace := List Leak

/-- Outcome of running C code. -/
inductive C (α : Type) where
  | ok (v : α) (t : Trace)
  | ub (u : UB)
  | diverge

namespace C

def bind {α β : Type} (m : C α) (f : α → C β) : C β :=
  match m with
  | ok v t =>
    match f v with
    | ok w t' => ok w (t ++ t')
    | ub u => ub u
    | diverge => diverge
  | ub u => ub u
  | diverge => diverge

instance : Monad C where
  pure v := ok v []
  bind := bind

instance : LawfulMonad C := LawfulMonad.mk' (m := C)
  (id_map := by
    intro α x; cases x <;> simp [Functor.map, bind])
  (pure_bind := by
    intro α β x f
    show bind (ok x []) f = f x
    cases h : f x <;> simp [bind, h])
  (bind_assoc := by
    intro α β γ x f g
    show bind (bind x f) g = bind x (fun a => bind (f a) g)
    cases x with
    | ok v t =>
      simp only [bind]
      cases f v with
      | ok w t' => simp only []; cases g w <;> simp [List.append_assoc]
      | ub u => rfl
      | diverge => rfl
    | ub u => rfl
    | diverge => rfl)

/-- Record one observable event. -/
def leak (l : Leak) : C Unit := ok () [l]

end C

/-! ## Memory -/

/-- A memory object: an array of cells, `none` meaning indeterminate. -/
abbrev Mem (α : Type) := Array (Option α)

/-- A fresh automatic object of `n` cells: contents indeterminate. -/
def Mem.uninit (α : Type) (n : Nat) : Mem α := Array.replicate n none

/-- An initialised object. -/
def Mem.ofList {α : Type} (l : List α) : Mem α := (l.map some).toArray

/-- Load `m[i]`. -/
def rd {α : Type} (m : Mem α) (i : Nat) : C α :=
  match m[i]? with
  | none => .ub .oob
  | some none => .ub .uninit
  | some (some v) => .ok v [.ld i]

/-- Store `m[i] = v`. -/
def wr {α : Type} (m : Mem α) (i : Nat) (v : α) : C (Mem α) :=
  if i < m.size then .ok (m.setIfInBounds i (some v)) [.st i] else .ub .oob

/-- Access element `i` of an array of structures (each itself a memory object); the address
computation is recorded as a load. -/
def at' {α : Type} (m : Array α) (i : Nat) : C α :=
  match m[i]? with
  | none => .ub .oob
  | some v => .ok v [.ld i]

/-- Replace element `i` of an array of structures after it was modified through a pointer. -/
def put' {α : Type} (m : Array α) (i : Nat) (v : α) : C (Array α) :=
  if i < m.size then .ok (m.setIfInBounds i v) [.st i] else .ub .oob

/-! ## Control flow -/

/-- Helper of `cfor`: `n` iterations starting from counter value `i`. -/
def cforFrom {σ : Type} (body : Nat → σ → C σ) : (n i : Nat) → σ → C σ
  | 0, _, s => do C.leak (.br false); pure s
  | n + 1, i, s => do
    C.leak (.br true)
    let s ← body i s
    cforFrom body n (i + 1) s

/-- `for(i = lo; i < hi; i++) s = body(i, s)` where the body does not modify `i`, `lo`, `hi`. -/
def cfor {σ : Type} (lo hi : Nat) (s : σ) (body : Nat → σ → C σ) : C σ :=
  cforFrom body (hi - lo) lo s

/-- `while(cond) s = body(s)`, giving up after `fuel` tests of the condition. -/
def cwhile {σ : Type} (fuel : Nat) (cond : σ → Bool) (body : σ → C σ) (s : σ) : C σ :=
  match fuel with
  | 0 => .diverge
  | fuel + 1 =>
    if cond s then do
      C.leak (.br true)
      let s ← body s
      cwhile fuel cond body s
    else do
      C.leak (.br false)
      pure s

/-- `if(c) a else b`. -/
def cif {α : Type} (c : Bool) (a b : C α) : C α := do
  C.leak (.br c)
  if c then a else b

/-! ## Signed `int` arithmetic (32 bits)

Values of type `int` (after integer promotion) are mathematical integers; an operation whose result
is not representable is undefined behaviour. -/

/-- The result `x` of an `int` operation, checked for representability. -/
def ckInt (x : Int) : C Int :=
  if -2147483648 ≤ x ∧ x ≤ 2147483647 then pure x else .ub .overflow

def iadd (a b : Int) : C Int := ckInt (a + b)
def isub (a b : Int) : C Int := ckInt (a - b)
def imul (a b : Int) : C Int := ckInt (a * b)
def ineg (a : Int) : C Int := ckInt (-a)
/-- `a << k` for `int a`: undefined if `a` is negative or the result is not representable. -/
def ishl (a : Int) (k : Nat) : C Int := if a < 0 then .ub .shift else ckInt (a * 2 ^ k)
/-- `a / b` for unsigned operands, with both operands observed. The library code has no such operation (its `/` and `%` act on compile-time constants, or by powers of two on loop
counters); it is here so that a transcription of code that divides shows in the trace. Of the modelled code only `average` of test/speed_print.c divides. -/
def udiv (a b : Nat) : C Nat := if b = 0 then .ub .overflow else do C.leak (.dv a b); pure (a / b)
/-- `a >> k` for `int a`: arithmetic shift (implementation-defined for negative `a`, as gcc and clang do). -/
def ishr (a : Int) (k : Nat) : Int := a / 2 ^ k
/-- `a & b` for `int a, b` in two's complement. -/
def iand (a b : Int) : Int := (BitVec.ofInt 32 a &&& BitVec.ofInt 32 b).toInt
/-- `a ^ b` for `int a, b` in two's complement. -/
def ixor (a b : Int) : Int := (BitVec.ofInt 32 a ^^^ BitVec.ofInt 32 b).toInt

/-- `memcpy(dst + doff, src + soff, n)` on bytes. -/
def memcpy (dst : Mem UInt8) (doff : Nat) (src : Mem UInt8) (soff n : Nat) : C (Mem UInt8) :=
  cfor 0 n dst fun i dst => do
    let x ← rd src (soff + i)
    wr dst (doff + i) x

end Verif
