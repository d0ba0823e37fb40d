import Verif.Avx.PackSym

/-! # Symbolic runs: sampling of noise

The checks are done one after the other, to keep memory use low. -/

set_option Elab.async false

namespace Verif.Avx

theorem cbd2_check : headIs (run (V.sem nameB (numG 4)) cbd2_prog ⟨noRegs, unpackObjs true 128⟩) (fun cs => cellsBits nameB (numG 4) cbd2B cs 0) = true := by
  decide +kernel

theorem cbd3_check : headIs (run (V.sem nameB (numG 6)) cbd3_prog ⟨noRegs, unpackObjs true 200⟩) (fun cs => cellsBits nameB (numG 6) cbd3B cs 0) = true := by
  decide +kernel

end Verif.Avx
