import Mathlib.Data.List.Sort

/-! # Specification: what a list of cycle counts says

`clk i` is the `i`-th reading of a 64-bit counter. Differences are modulo 2^64. -/

namespace Verif.Spec

/-- The smallest of the differences of `N` pairs of readings from `pos` on, and 2^64 - 1 if there is no smaller one. -/
def overheadOf (clk : Nat → UInt64) (pos N : Nat) : UInt64 :=
  ((List.range N).map fun i => clk (pos + 2 * i + 1) - clk (pos + 2 * i)).foldl min 0xffffffffffffffff

/-- The differences of successive readings, less `o`. -/
def cycleDiffs (o : UInt64) (t : List UInt64) : List UInt64 := List.zipWith (fun a b => b - a - o) t t.tail

/-- The median; for an even number the sum of the two in the middle (modulo 2^64), halved. -/
def medianOf (d : List UInt64) : UInt64 :=
  let s := d.insertionSort (· ≤ ·)
  if d.length % 2 = 1 then s.getD (d.length / 2) 0 else (s.getD (d.length / 2 - 1) 0 + s.getD (d.length / 2) 0) / 2

/-- The sum modulo 2^64, divided by the number. -/
def averageOf (d : List UInt64) : Nat := (d.map UInt64.toNat).sum % 2 ^ 64 / d.length

def report (title : String) (d : List UInt64) : List Char :=
  (title ++ "\nmedian: " ++ toString (medianOf d).toNat ++ " cycles/ticks\naverage: " ++ toString (averageOf d) ++ " cycles/ticks\n\n").toList

/-- A comparison function as `qsort` needs it: `cmp a b ≤ 0` is a total preorder and the signs fit. -/
def GoodCmp (cmp : UInt64 → UInt64 → Int) : Prop :=
  (∀ a b, 0 < cmp a b ↔ cmp b a < 0) ∧ (∀ a b c, cmp a b ≤ 0 → cmp b c ≤ 0 → cmp a c ≤ 0)

/-- What C says of `qsort` (C11 7.22.5.2): for a comparison function of this kind the result is a permutation of the elements in ascending order. -/
def QsortSpec (qs : (UInt64 → UInt64 → Int) → List UInt64 → List UInt64) : Prop := ∀ cmp, GoodCmp cmp → ∀ l, (qs cmp l).Perm l ∧ (qs cmp l).Pairwise fun a b => cmp a b ≤ 0

end Verif.Spec
