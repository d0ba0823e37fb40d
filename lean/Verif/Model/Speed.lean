import Verif.C.Basic

/-! # Model of ref/test/cpucycles.c and ref/test/speed_print.c (avx2/test has the same files)

The time stamp counter is external: `clk i` is what the `i`-th execution of `rdtsc` in the program returns. `qsort` is external: a parameter that gets the comparison function and the
elements. Text written to a stream is a list of characters. -/

namespace Verif.Model

/-- cpucycles.c:4-17 `cpucycles_overhead`, with `N` for 100000; `pos` counts the earlier executions of `rdtsc`. -/
def cpucycles_overhead (clk : Nat → UInt64) (pos N : Nat) : C UInt64 :=
  cfor 0 N (0xffffffffffffffff : UInt64) fun i overhead => do
    let t0 := clk (pos + 2 * i)
    let t1 := clk (pos + 2 * i + 1)
    cif (decide (t1 - t0 < overhead)) (pure (t1 - t0)) (pure overhead)

/-- speed_print.c:8-12 `cmp_uint64`. -/
def cmp_uint64 (a b : UInt64) : Int := if a < b then -1 else if a > b then 1 else 0

/-- What a `qsort` does to the list of the elements, for a comparison function. -/
abbrev Qsort := (UInt64 → UInt64 → Int) → List UInt64 → List UInt64

/-- The elements `o, ..., o + n - 1` of a buffer. -/
def rdList (m : Mem UInt64) (o : Nat) : Nat → C (List UInt64)
  | 0 => pure []
  | n + 1 => do
    let x ← rd m o
    let l ← rdList m (o + 1) n
    pure (x :: l)

def wrList (m : Mem UInt64) (o : Nat) : List UInt64 → C (Mem UInt64)
  | [] => pure m
  | x :: l => do
    let m ← wr m o x
    wrList m (o + 1) l

/-- speed_print.c:14-19 `median`. `size_t` subtraction is modulo 2^64. The buffer is sorted in place. -/
def median (qs : Qsort) (l : Mem UInt64) (llen : Nat) : C (Mem UInt64 × UInt64) := do
  let v ← rdList l 0 llen
  let l ← wrList l 0 (qs cmp_uint64 v)
  cif (decide (llen % 2 ≠ 0))
    (do
      let x ← rd l (llen / 2)
      pure (l, x))
    (do
      let x ← rd l ((llen / 2 + (2 ^ 64 - 1)) % 2 ^ 64)
      let y ← rd l (llen / 2)
      pure (l, (x + y) / 2))

/-- speed_print.c:21-29 `average`. -/
def average (t : Mem UInt64) (tlen : Nat) : C UInt64 := do
  let acc ← cfor 0 tlen (0 : UInt64) fun i acc => do
    let x ← rd t i
    pure (acc + x)
  let q ← udiv acc.toNat tlen
  pure (UInt64.ofNat q)

/-- What `print_results` works on: the static variable, the number of executions of `rdtsc`, stdout and stderr. -/
structure PrintSt where
  overhead : UInt64
  pos : Nat
  out : List Char
  err : List Char

/-- speed_print.c:33 the initial value of the static variable. -/
def printSt0 : PrintSt := ⟨0xffffffffffffffff, 0, [], []⟩

/-- speed_print.c:31-51 `print_results`; `N` is the number of rounds of `cpucycles_overhead`. -/
def print_results (clk : Nat → UInt64) (qs : Qsort) (N : Nat) (st : PrintSt) (s : String) (t : Mem UInt64) (tlen : Nat) : C (Mem UInt64 × PrintSt) :=
  cif (decide (tlen < 2)) (pure (t, { st with err := st.err ++ "ERROR: Need a least two cycle counts!\n".toList })) do
  let st ← cif (st.overhead == 0xffffffffffffffff)
    (do
      let o ← cpucycles_overhead clk st.pos N
      pure { st with overhead := o, pos := st.pos + 2 * N })
    (pure st)
  let tlen := tlen - 1
  let t ← cfor 0 tlen t fun i t => do
    let x ← rd t (i + 1)
    let y ← rd t i
    wr t i (x - y - st.overhead)
  let out := st.out ++ s.toList ++ "\n".toList
  let (t, m) ← median qs t tlen
  let out := out ++ "median: ".toList ++ (toString m.toNat).toList ++ " cycles/ticks\n".toList
  let a ← average t tlen
  let out := out ++ "average: ".toList ++ (toString a.toNat).toList ++ " cycles/ticks\n".toList
  let out := out ++ "\n".toList
  pure (t, { st with out := out })

end Verif.Model
