import Verif.Avx.PackSym

/-! # Rounding in the AVX2 code, by exhaustion -/

namespace Verif.Avx

def c4W (x : W) : W := (Tc4 (.v 1 0)).eval fun _ _ => x
def c5W (x : W) : W := (Tc5 (.v 1 0)).eval fun _ _ => x
def c10W (x : W) : W := (Tc10 (.v 1 0)).eval fun _ _ => x
def c11W (x : W) : W := (Tc11 (.v 1 0)).eval fun _ _ => x
def csubW (x : W) : W := (Tq (.v 1 0)).eval fun _ _ => x
def msgW (x : W) : W := (Tm (.v 1 0)).eval fun _ _ => x

theorem c4_all : ∀ h : Fin 53, ∀ l : Fin 64, 64 * h.val + l.val ≤ 3329 →
    (c4W (BitVec.ofNat 16 (64 * h.val + l.val))).toNat = (2 * 16 * ((64 * h.val + l.val) % 3329) + 3329) / 6658 % 16 := by decide +kernel
theorem c5_all : ∀ h : Fin 53, ∀ l : Fin 64, 64 * h.val + l.val ≤ 3329 →
    (c5W (BitVec.ofNat 16 (64 * h.val + l.val))).toNat = (2 * 32 * ((64 * h.val + l.val) % 3329) + 3329) / 6658 % 32 := by decide +kernel
theorem c10_all : ∀ h : Fin 53, ∀ l : Fin 64, 64 * h.val + l.val ≤ 3329 →
    (c10W (BitVec.ofNat 16 (64 * h.val + l.val))).toNat = (2 * 1024 * ((64 * h.val + l.val) % 3329) + 3329) / 6658 % 1024 := by decide +kernel
theorem c11_all : ∀ h : Fin 53, ∀ l : Fin 64, 64 * h.val + l.val ≤ 3329 →
    (c11W (BitVec.ofNat 16 (64 * h.val + l.val))).toNat = (2 * 2048 * ((64 * h.val + l.val) % 3329) + 3329) / 6658 % 2048 := by decide +kernel
theorem csub_all : ∀ h : Fin 53, ∀ l : Fin 64, 64 * h.val + l.val ≤ 3329 →
    (csubW (BitVec.ofNat 16 (64 * h.val + l.val))).toNat = (64 * h.val + l.val) % 3329 := by decide +kernel
theorem msg_all : ∀ h : Fin 53, ∀ l : Fin 64, 64 * h.val + l.val ≤ 3329 →
    (msgW (BitVec.ofNat 16 (64 * h.val + l.val))).getLsbD 15 = (833 ≤ (64 * h.val + l.val) && (64 * h.val + l.val) ≤ 2496) := by decide +kernel

theorem d4_all : ∀ t : Fin 16, (mulhrsW (BitVec.ofNat 16 (t.val * 2 ^ 11)) 3329#16) = BitVec.ofNat 16 ((3329 * t.val + 8) / 16) := by decide +kernel
theorem d5_all : ∀ t : Fin 32, (mulhrsW (BitVec.ofNat 16 (t.val * 2 ^ 10)) 3329#16) = BitVec.ofNat 16 ((3329 * t.val + 16) / 32) := by decide +kernel
theorem d10_all0 : ∀ t : Fin 1024, (mulhrsW (BitVec.ofNat 16 (t.val * 2 ^ 3)) 13316#16) = BitVec.ofNat 16 ((3329 * t.val + 512) / 1024) := by decide +kernel
theorem d10_all1 : ∀ t : Fin 1024, (mulhrsW (BitVec.ofNat 16 (t.val * 2 ^ 5)) 3329#16) = BitVec.ofNat 16 ((3329 * t.val + 512) / 1024) := by decide +kernel
theorem d11_all : ∀ t : Fin 2048, (mulhrsW (BitVec.ofNat 16 (t.val * 2 ^ 4)) 3329#16) = BitVec.ofNat 16 ((3329 * t.val + 1024) / 2048) := by decide +kernel

end Verif.Avx
