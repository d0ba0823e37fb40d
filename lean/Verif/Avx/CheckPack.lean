import Verif.Avx.PackSym

/-! # Symbolic runs: compression and encoding

The checks are done one after the other, to keep memory use low. -/

set_option Elab.async false

namespace Verif.Avx

theorem compress4_check : headIs (run (V.sem (nameT Tc4 4) numP) poly_compress_128 ⟨noRegs, packObjs 128⟩)
    (fun cs => cellsBits (nameT Tc4 4) numP (fun m => packB 4 m 8 0) (cs.take 128) 0) = true := by decide +kernel

theorem compress5_check : headIs (run (V.sem (nameT Tc5 5) numP) poly_compress_160 ⟨noRegs, packObjs 160⟩)
    (fun cs => cellsBits (nameT Tc5 5) numP (fun m => packB 5 m 8 0) (cs.take 160) 0) = true := by decide +kernel

theorem compress10_check : headIs (run (V.sem (nameT Tc10 10) numP) poly_compress10_prog ⟨noRegs, packObjs 320⟩)
    (fun cs => cellsBits (nameT Tc10 10) numP (fun m => packB 10 m 8 0) (cs.take 320) 0) = true := by decide +kernel

theorem compress11_check : headIs (run (V.sem (nameT Tc11 11) numP) poly_compress11_prog ⟨noRegs, packObjs 354⟩)
    (fun cs => cellsBits (nameT Tc11 11) numP (fun m => packB 11 m 8 0) (cs.take 352) 0) = true := by decide +kernel

theorem ntttobytes_check : headIs (run (V.sem (nameT Tq 12) numP) ntttobytes_avx ⟨noRegs, ntobytesObjs⟩)
    (fun cs => cellsBits (nameT Tq 12) numP (fun m => packB 12 m 8 0) (cs.take 384) 0) = true := by decide +kernel

theorem tomsg_check : headIs (run (V.sem (nameT Tm 16) numP) poly_tomsg_prog ⟨noRegs, packObjs 32⟩)
    (fun cs => cellsBits (nameT Tm 16) numP (fun m => signB m 8 0) (cs.take 32) 0) = true := by decide +kernel

end Verif.Avx
