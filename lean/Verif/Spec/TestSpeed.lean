import Verif.Spec.Speed

/-! # Specification: what a sequence of measurements prints -/

namespace Verif.Spec

/-- The text for the measurements `titles` of `nt` readings each, from reading `pos` on. `o` is the overhead, 2^64 - 1 while it is not known: then it is measured, with `N` pairs of readings, after the
readings of the measurement. -/
def speedText (clk : Nat → UInt64) (N nt : Nat) : (titles : List String) → (o : UInt64) → (pos : Nat) → List Char
  | [], _, _ => []
  | t :: ts, o, pos =>
    let l := (List.range nt).map fun i => clk (pos + i)
    if o = 0xffffffffffffffff then
      let o' := overheadOf clk (pos + nt) N
      report t (cycleDiffs o' l) ++ speedText clk N nt ts o' (pos + nt + 2 * N)
    else report t (cycleDiffs o l) ++ speedText clk N nt ts o (pos + nt)

end Verif.Spec
