import Verif.Proof.KatReenc2
import Verif.Proof.KatReenc3
import Verif.Proof.KatReenc4
import Verif.Spec.KnownAnswer

/-! # The known answers in the form in which they are proved -/

set_option autoImplicit false

namespace Verif.Proof
open Verif.Model Verif.Spec

theorem ka512_d : ka512.d = nb 32 katDN := by decide +kernel
theorem ka512_z : ka512.z = nb 32 katZN := by decide +kernel
theorem ka512_m : ka512.m = nb 32 katMN := by decide +kernel
theorem ka512_ek : ka512.ek = nb 800 kat2EkN := by decide +kernel
theorem ka512_dk : ka512.dk = nb 1632 kat2DkN := by decide +kernel
theorem ka512_c : ka512.c = nb 768 kat2CtN := by decide +kernel
theorem ka512_K : ka512.K = nb 32 kat2KN := by decide +kernel
theorem ka512_cR : ka512.c' = nb 768 kat2CtR := by decide +kernel
theorem ka512_KR : ka512.K' = nb 32 kat2KR := by decide +kernel
theorem ka512_r : ka512.r = nb 768 kat2rCtN := by decide +kernel
theorem ka512_Kr : ka512.Kr = nb 32 kat2rKR := by decide +kernel

theorem ka768_d : ka768.d = nb 32 katDN := by decide +kernel
theorem ka768_z : ka768.z = nb 32 katZN := by decide +kernel
theorem ka768_m : ka768.m = nb 32 katMN := by decide +kernel
theorem ka768_ek : ka768.ek = nb 1184 kat3EkN := by decide +kernel
theorem ka768_dk : ka768.dk = nb 2400 kat3DkN := by decide +kernel
theorem ka768_c : ka768.c = nb 1088 kat3CtN := by decide +kernel
theorem ka768_K : ka768.K = nb 32 kat3KN := by decide +kernel
theorem ka768_cR : ka768.c' = nb 1088 kat3CtR := by decide +kernel
theorem ka768_KR : ka768.K' = nb 32 kat3KR := by decide +kernel
theorem ka768_r : ka768.r = nb 1088 kat3rCtN := by decide +kernel
theorem ka768_Kr : ka768.Kr = nb 32 kat3rKR := by decide +kernel

theorem ka1024_d : ka1024.d = nb 32 katDN := by decide +kernel
theorem ka1024_z : ka1024.z = nb 32 katZN := by decide +kernel
theorem ka1024_m : ka1024.m = nb 32 katMN := by decide +kernel
theorem ka1024_ek : ka1024.ek = nb 1568 kat4EkN := by decide +kernel
theorem ka1024_dk : ka1024.dk = nb 3168 kat4DkN := by decide +kernel
theorem ka1024_c : ka1024.c = nb 1568 kat4CtN := by decide +kernel
theorem ka1024_K : ka1024.K = nb 32 kat4KN := by decide +kernel
theorem ka1024_cR : ka1024.c' = nb 1568 kat4CtR := by decide +kernel
theorem ka1024_KR : ka1024.K' = nb 32 kat4KR := by decide +kernel
theorem ka1024_r : ka1024.r = nb 1568 kat4rCtN := by decide +kernel
theorem ka1024_Kr : ka1024.Kr = nb 32 kat4rKR := by decide +kernel

end Verif.Proof
