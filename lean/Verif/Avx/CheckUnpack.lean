import Verif.Avx.CheckCbd

/-! # Symbolic runs: decompression and decoding

The checks are done one after the other, to keep memory use low. -/

set_option Elab.async false

namespace Verif.Avx

theorem decompress4_check : headIs (run (V.sem nameB numP) poly_decompress_128 ⟨noRegs, unpackObjs false 128⟩)
    (fun cs => cellsMh (fun i => shlB 11 (unpackB 4 (4 * i))) (fun _ => 3329) cs 0) = true := by decide +kernel

theorem decompress5_check : headIs (run (V.sem nameB numP) poly_decompress_160 ⟨noRegs, unpackObjs false 160⟩)
    (fun cs => cellsMh (fun i => shlB 10 (unpackB 5 (5 * i))) (fun _ => 3329) cs 0) = true := by decide +kernel

theorem decompress10_check : headIs (run (V.sem nameB numP) poly_decompress10_prog ⟨noRegs, unpackObjs false 332⟩)
    (fun cs => cellsMh (fun i => shlB (3 + 2 * (i % 2)) (unpackB 10 (10 * i))) (fun i => 13316 / 4 ^ (i % 2)) cs 0) = true := by decide +kernel

theorem decompress11_check : headIs (run (V.sem nameB numP) poly_decompress11_prog ⟨noRegs, unpackObjs false 362⟩)
    (fun cs => cellsMh (fun i => shlB 4 (unpackB 11 (11 * i))) (fun _ => 3329) cs 0) = true := by decide +kernel

theorem nttfrombytes_check : headIs (run (V.sem nameB numP) nttfrombytes_avx ⟨noRegs, unpackObjs false 384⟩)
    (fun cs => cellsBits nameB numP (fun i => unpackB 12 (12 * nttIdx i)) cs 0) = true := by decide +kernel

theorem frommsg_check : headIs (run (V.sem nameB numP) poly_frommsg_prog ⟨noRegs, unpackObjs false 32⟩)
    (fun cs => cellsBits nameB numP hqB cs 0) = true := by decide +kernel

end Verif.Avx
