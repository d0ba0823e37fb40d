import Verif.Proof.Serial
import Verif.Model.Cbd
import Verif.Spec.Params

/-! # Centred binomial sampling -/

namespace Verif.Proof
open Verif.Model Verif.Spec Finset

theorem digit_sum (w : Nat) : ∀ (n : Nat) (x : Nat → Nat), (∀ j, x j < 2 ^ w) → ∀ j, j < n →
    (∑ k ∈ range n, x k * 2 ^ (w * k)) / 2 ^ (w * j) % 2 ^ w = x j
  | 0, _, _, j, hj => by omega
  | n + 1, x, hx, j, hj => by
    have e : ∑ k ∈ range (n + 1), x k * 2 ^ (w * k) = x 0 + 2 ^ w * ∑ k ∈ range n, x (k + 1) * 2 ^ (w * k) := by
      rw [sum_range_succ', mul_sum, Nat.add_comm]
      congr 1
      · simp
      · exact sum_congr rfl fun k _ => by rw [Nat.mul_add, Nat.mul_one, pow_add]; ring
    rw [e]
    cases j with
    | zero => simp [Nat.mod_eq_of_lt (hx 0)]
    | succ j =>
      rw [Nat.mul_add, Nat.mul_one, Nat.add_comm (w * j), pow_add, ← Nat.div_div_eq_div_mul, Nat.add_mul_div_left _ _ (Nat.two_pow_pos w),
        Nat.div_eq_of_lt (hx 0), Nat.zero_add]
      exact digit_sum w n (fun k => x (k + 1)) (fun j => hx _) j (by omega)

theorem bitsVal_add (a b : Nat) (f : Nat → Bool) : bitsVal (a + b) f = bitsVal a f + 2 ^ a * bitsVal b fun k => f (a + k) := by
  unfold bitsVal
  rw [sum_range_add, mul_sum]
  congr 1
  exact sum_congr rfl fun k _ => by rw [pow_add]; ring

theorem sum_sparse (w : Nat) (hw : 0 < w) (c : Nat → Bool) : ∀ n, bitsVal (w * n) (fun k => decide (k % w = 0) && c k) =
    ∑ j ∈ range n, (c (w * j)).toNat * 2 ^ (w * j)
  | 0 => by simp [bitsVal]
  | n + 1 => by
    rw [Nat.mul_add, Nat.mul_one, bitsVal_add, sum_sparse w hw c n, sum_range_succ]
    congr 1
    have : (bitsVal w fun k => decide ((w * n + k) % w = 0) && c (w * n + k)) = (c (w * n)).toNat := by
      unfold bitsVal
      rw [sum_eq_single 0]
      · simp
      · intro k hk hk0
        simp [Nat.mod_eq_of_lt (mem_range.mp hk), hk0]
      · intro h; simp at h; omega
    rw [this, Nat.mul_comm]

/-- Selecting every `w`-th bit. -/
theorem masked (w n s T M : Nat) (hw : 0 < w) (hM : ∀ k, M.testBit k = (decide (k < w * n) && decide (k % w = 0))) :
    (T >>> s) &&& M = ∑ j ∈ range n, (T.testBit (s + w * j)).toNat * 2 ^ (w * j) := by
  rw [← sum_sparse w hw (fun k => T.testBit (s + k))]
  apply Nat.eq_of_testBit_eq
  intro k
  rw [Nat.testBit_and, Nat.testBit_shiftRight, hM, testBit_bitsVal]
  by_cases h1 : k < w * n <;> by_cases h2 : k % w = 0 <;> simp [h1, h2]

theorem mask5 (k : Nat) : (0x55555555 : Nat).testBit k = (decide (k < 2 * 16) && decide (k % 2 = 0)) := by
  by_cases h : k < 32
  · interval_cases k <;> decide
  · rw [testBit_ge (d := 32) (by norm_num) k (by omega)]
    simp; omega

theorem mask249 (k : Nat) : (0x249249 : Nat).testBit k = (decide (k < 3 * 8) && decide (k % 3 = 0)) := by
  by_cases h : k < 24
  · interval_cases k <;> decide
  · rw [testBit_ge (d := 24) (by norm_num) k (by omega)]
    simp; omega

theorem load32_runs {x : Mem UInt8} {o : Nat} {b : Nat → UInt8} (hx : ∀ i, i < 4 → x[o + i]? = some (some (b i))) :
    Runs (load32_littleendian x o) (fun t => t.toNat = bitsVal 32 fun k => (b (k / 8)).toNat.testBit (k % 8)) := by
  unfold load32_littleendian
  simp only [runs_bind]
  rw [runs_rd_of (hx 0 (by omega)), runs_rd_of (hx 1 (by omega)), runs_rd_of (hx 2 (by omega)), runs_rd_of (hx 3 (by omega)), runs_pure]
  refine eq_bitsVal (UInt32.toNat_lt _) fun j hj => ?_
  simp only [UInt32.toNat_or, UInt32.toNat_shiftLeft, UInt8.toNat_toUInt32, UInt32.reduceToNat, Nat.testBit_or]
  rw [show (8 % 32) = 8 from rfl, show (16 % 32) = 16 from rfl, show (24 % 32) = 24 from rfl]
  simp only [Nat.testBit_mod_two_pow, Nat.testBit_shiftLeft]
  interval_cases j <;> simp [testBit_u8_ge]

theorem load24_runs {x : Mem UInt8} {o : Nat} {b : Nat → UInt8} (hx : ∀ i, i < 3 → x[o + i]? = some (some (b i))) :
    Runs (load24_littleendian x o) (fun t => t.toNat = bitsVal 24 fun k => (b (k / 8)).toNat.testBit (k % 8)) := by
  unfold load24_littleendian
  simp only [runs_bind]
  rw [runs_rd_of (hx 0 (by omega)), runs_rd_of (hx 1 (by omega)), runs_rd_of (hx 2 (by omega)), runs_pure]
  have e : ∀ j, (((b 0).toUInt32 ||| ((b 1).toUInt32 <<< 8)) ||| ((b 2).toUInt32 <<< 16)).toNat.testBit j =
      ((b 0).toNat.testBit j || (decide (j < 32) && (decide (8 ≤ j) && (b 1).toNat.testBit (j - 8))) ||
        (decide (j < 32) && (decide (16 ≤ j) && (b 2).toNat.testBit (j - 16)))) := by
    intro j
    simp only [UInt32.toNat_or, UInt32.toNat_shiftLeft, UInt8.toNat_toUInt32, UInt32.reduceToNat, Nat.testBit_or]
    rw [show (8 % 32) = 8 from rfl, show (16 % 32) = 16 from rfl]
    simp only [Nat.testBit_mod_two_pow, Nat.testBit_shiftLeft]
  refine eq_bitsVal ?_ fun j hj => ?_
  · apply Nat.lt_pow_two_of_testBit
    intro j hj
    rw [e, testBit_u8_ge _ j (by omega), testBit_u8_ge _ (j - 8) (by omega), testBit_u8_ge _ (j - 16) (by omega)]
    simp
  · rw [e]
    interval_cases j <;> simp [testBit_u8_ge]

/-- The word `d` of `cbd2`. -/
theorem cbd2_word (t : UInt32) (g : Nat → Bool) (ht : t.toNat = bitsVal 32 g) :
    ((t &&& (0x55555555 : UInt32)) + ((t >>> (1 : UInt32)) &&& (0x55555555 : UInt32))).toNat = ∑ j ∈ range 16, ((g (2 * j)).toNat + (g (2 * j + 1)).toNat) * 2 ^ (2 * j) := by
  have h0 := masked 2 16 0 t.toNat 0x55555555 (by omega) mask5
  have h1 := masked 2 16 1 t.toNat 0x55555555 (by omega) mask5
  have e0 : (t &&& (0x55555555 : UInt32)).toNat = ∑ j ∈ range 16, (g (2 * j)).toNat * 2 ^ (2 * j) := by
    rw [UInt32.toNat_and]
    refine h0.trans (sum_congr rfl fun j hj => ?_)
    rw [ht, testBit_bitsVal, Nat.zero_add]
    simp at hj
    simp [show 2 * j < 32 from by omega]
  have e1 : ((t >>> (1 : UInt32)) &&& (0x55555555 : UInt32)).toNat = ∑ j ∈ range 16, (g (2 * j + 1)).toNat * 2 ^ (2 * j) := by
    rw [UInt32.toNat_and, UInt32.toNat_shiftRight]
    refine h1.trans (sum_congr rfl fun j hj => ?_)
    rw [ht, testBit_bitsVal, Nat.add_comm 1]
    simp at hj
    simp [show 2 * j + 1 < 32 from by omega]
  have b0 : (t &&& (0x55555555 : UInt32)).toNat ≤ 0x55555555 := by rw [UInt32.toNat_and]; exact Nat.and_le_right
  have b1 : ((t >>> (1 : UInt32)) &&& (0x55555555 : UInt32)).toNat ≤ 0x55555555 := by rw [UInt32.toNat_and]; exact Nat.and_le_right
  rw [UInt32.toNat_add, Nat.mod_eq_of_lt (by omega), e0, e1, ← sum_add_distrib]
  exact sum_congr rfl fun j _ => by ring

theorem cbd3_word (t : UInt32) (g : Nat → Bool) (ht : t.toNat = bitsVal 24 g) :
    ((t &&& (0x249249 : UInt32)) + ((t >>> (1 : UInt32)) &&& (0x249249 : UInt32)) + ((t >>> (2 : UInt32)) &&& (0x249249 : UInt32))).toNat =
      ∑ j ∈ range 8, ((g (3 * j)).toNat + (g (3 * j + 1)).toNat + (g (3 * j + 2)).toNat) * 2 ^ (3 * j) := by
  have h0 := masked 3 8 0 t.toNat 0x249249 (by omega) mask249
  have h1 := masked 3 8 1 t.toNat 0x249249 (by omega) mask249
  have h2 := masked 3 8 2 t.toNat 0x249249 (by omega) mask249
  have e0 : (t &&& (0x249249 : UInt32)).toNat = ∑ j ∈ range 8, (g (3 * j)).toNat * 2 ^ (3 * j) := by
    rw [UInt32.toNat_and]
    refine h0.trans (sum_congr rfl fun j hj => ?_)
    rw [ht, testBit_bitsVal, Nat.zero_add]
    simp at hj
    simp [show 3 * j < 24 from by omega]
  have e1 : ((t >>> (1 : UInt32)) &&& (0x249249 : UInt32)).toNat = ∑ j ∈ range 8, (g (3 * j + 1)).toNat * 2 ^ (3 * j) := by
    rw [UInt32.toNat_and, UInt32.toNat_shiftRight]
    refine h1.trans (sum_congr rfl fun j hj => ?_)
    rw [ht, testBit_bitsVal, Nat.add_comm 1]
    simp at hj
    simp [show 3 * j + 1 < 24 from by omega]
  have e2 : ((t >>> (2 : UInt32)) &&& (0x249249 : UInt32)).toNat = ∑ j ∈ range 8, (g (3 * j + 2)).toNat * 2 ^ (3 * j) := by
    rw [UInt32.toNat_and, UInt32.toNat_shiftRight]
    refine h2.trans (sum_congr rfl fun j hj => ?_)
    rw [ht, testBit_bitsVal, Nat.add_comm 2]
    simp at hj
    simp [show 3 * j + 2 < 24 from by omega]
  have b0 : (t &&& (0x249249 : UInt32)).toNat ≤ 0x249249 := by rw [UInt32.toNat_and]; exact Nat.and_le_right
  have b1 : ((t >>> (1 : UInt32)) &&& (0x249249 : UInt32)).toNat ≤ 0x249249 := by rw [UInt32.toNat_and]; exact Nat.and_le_right
  have b2 : ((t >>> (2 : UInt32)) &&& (0x249249 : UInt32)).toNat ≤ 0x249249 := by rw [UInt32.toNat_and]; exact Nat.and_le_right
  rw [UInt32.toNat_add, UInt32.toNat_add, Nat.mod_eq_of_lt (a := _ + _) (b := 2 ^ 32) (by omega), Nat.mod_eq_of_lt (by omega), e0, e1, e2,
    ← sum_add_distrib, ← sum_add_distrib]
  exact sum_congr rfl fun j _ => by ring

/-- Number of ones among the `η` bits of group `n`. -/
def ones (η : Nat) (B : List UInt8) (n : Nat) : Nat := ∑ j ∈ range η, (BytesToBits B (n * η + j)).toNat

theorem ones_le (η : Nat) (B : List UInt8) (n : Nat) : ones η B n ≤ η := by
  unfold ones
  calc _ ≤ ∑ j ∈ range η, 1 := sum_le_sum fun j _ => by cases BytesToBits B (n * η + j) <;> simp
    _ = η := by simp

/-- The coefficient that SamplePolyCBD yields, as an integer. -/
def cbdInt (η : Nat) (B : List UInt8) (i : Nat) : Int := (ones η B (2 * i) : Int) - ones η B (2 * i + 1)

theorem cbdInt_bounds (η : Nat) (B : List UInt8) (i : Nat) : -η ≤ cbdInt η B i ∧ cbdInt η B i ≤ η := by
  have h1 := ones_le η B (2 * i)
  have h2 := ones_le η B (2 * i + 1)
  unfold cbdInt
  omega

theorem cbdInt_zq (η : Nat) (B : List UInt8) (i : Fin 256) : ((cbdInt η B i.val : Int) : Zq) = SamplePolyCBD η B i := by
  unfold cbdInt SamplePolyCBD ones
  push_cast
  congr 1
  exact sum_congr rfl fun j _ => by congr 3; ring

theorem cbd_fields (w s : Nat) (hs : s < 32) (d : UInt32) (n : Nat) (x : Nat → Nat) (hx : ∀ j, x j < 2 ^ w) (m : UInt32) (hm : m.toNat = 2 ^ w - 1)
    (hd : d.toNat = ∑ k ∈ range n, x k * 2 ^ (w * k)) (j : Nat) (hj : j < n) (hsj : s = w * j) :
    ((d >>> (UInt32.ofNat s)) &&& m).toNat = x j := by
  rw [UInt32.toNat_and, UInt32.toNat_shiftRight, hm, Nat.and_two_pow_sub_one_eq_mod, Nat.shiftRight_eq_div_pow, UInt32.toNat_ofNat', hd]
  rw [show s % 2 ^ 32 % 32 = w * j from by rw [← hsj]; omega]
  exact digit_sum w n x hx j hj

theorem PolyR.of_cbd {η : Nat} {r r' : Mem Int16} {n : Nat} {B : List UInt8} (hη : η ≤ 3) (hr : r.size = 256)
    (h : r.Upd r' 0 n (fun i => i16 (cbdInt η B i))) (hn : n = 256) : PolyR r' (SamplePolyCBD η B) η := by
  refine PolyR.of_upd hr h hn fun i hi => ?_
  have := cbdInt_bounds η B i
  rw [zq_i16 (by omega) (by omega), toInt_i16_of (by omega) (by omega)]
  exact ⟨cbdInt_zq η B ⟨i, hi⟩, this⟩

theorem bits_word (B : List UInt8) (o k : Nat) : (B.getD (o + k / 8) 0).toNat.testBit (k % 8) = BytesToBits B (8 * o + k) := by
  rw [bytesToBits, show (8 * o + k) / 8 = o + k / 8 from by omega, show (8 * o + k) % 8 = k % 8 from by omega]

theorem cbd2_runs {r : Mem Int16} {buf : Mem UInt8} {B : List UInt8} (hr : r.size = 256) (hb : buf.Holds 0 B) (hB : B.length = 128) :
    Runs (cbd2 r buf) (fun r' => r.Upd r' 0 256 (fun i => i16 (cbdInt 2 B i))) := by
  have : Runs (cbd2 r buf) (fun r' => r.Upd r' 0 (8 * 32) (fun i => i16 (cbdInt 2 B i))) := by
    refine runs_fill fun i m' hi hu => ?_
    have hi : i < 32 := hi
    rw [runs_bind]
    refine (load32_runs (b := fun k => B.getD (4 * i + k) 0) fun k hk => ?_).mono fun t ht => ?_
    · have := hb.getElem? 0 (i := 4 * i + k) (by omega)
      rwa [Nat.zero_add] at this
    simp only [bits_word] at ht
    have hd := cbd2_word t _ ht
    refine runs_fill1 fun j m'' hj hm'' => ?_
    have key : ∀ c, (fun j => (BytesToBits B (8 * (4 * i) + 2 * j)).toNat + (BytesToBits B (8 * (4 * i) + (2 * j + 1))).toNat) c = ones 2 B (16 * i + c) := by
      intro c
      unfold ones
      rw [sum_range_succ, sum_range_one, show (16 * i + c) * 2 + 0 = 8 * (4 * i) + 2 * c from by ring,
        show (16 * i + c) * 2 + 1 = 8 * (4 * i) + (2 * c + 1) from by ring]
    have hlt : ∀ c, (fun j => (BytesToBits B (8 * (4 * i) + 2 * j)).toNat + (BytesToBits B (8 * (4 * i) + (2 * j + 1))).toNat) c < 2 ^ 2 := by
      intro c
      rw [key]
      have := ones_le 2 B (16 * i + c)
      omega
    have f0 := cbd_fields 2 (4 * j + 0) (by omega) _ 16 _ hlt 0x3 rfl hd (2 * j) (by omega) (by omega)
    have f1 := cbd_fields 2 (4 * j + 2) (by omega) _ 16 _ hlt 0x3 rfl hd (2 * j + 1) (by omega) (by omega)
    replace f0 := f0.trans (key (2 * j))
    replace f1 := f1.trans (key (2 * j + 1))
    have o0 := ones_le 2 B (16 * i + 2 * j)
    have o1 := ones_le 2 B (16 * i + (2 * j + 1))
    rw [f0, f1]
    have t0 := toInt_i16_nat (n := ones 2 B (16 * i + 2 * j)) (by omega)
    have t1 := toInt_i16_nat (n := ones 2 B (16 * i + (2 * j + 1))) (by omega)
    dsimp only
    rw [t0, t1, runs_bind, runs_isub]
    refine ⟨by omega, ?_⟩
    have e : cbdInt 2 B (8 * i + j) = (ones 2 B (16 * i + 2 * j) : Int) - ones 2 B (16 * i + (2 * j + 1)) := by
      unfold cbdInt; rw [show 2 * (8 * i + j) = 16 * i + 2 * j from by ring, Nat.add_assoc]
    rw [← e, Nat.zero_add]
    exact runs_wr_upd (by rw [hm''.size, hu.size, hr]; omega)
  exact this

theorem cbd3_runs {r : Mem Int16} {buf : Mem UInt8} {B : List UInt8} (hr : r.size = 256) (hb : buf.Holds 0 B) (hB : B.length = 192) :
    Runs (cbd3 r buf) (fun r' => r.Upd r' 0 256 (fun i => i16 (cbdInt 3 B i))) := by
  have : Runs (cbd3 r buf) (fun r' => r.Upd r' 0 (4 * 64) (fun i => i16 (cbdInt 3 B i))) := by
    refine runs_fill fun i m' hi hu => ?_
    have hi : i < 64 := hi
    rw [runs_bind]
    refine (load24_runs (b := fun k => B.getD (3 * i + k) 0) fun k hk => ?_).mono fun t ht => ?_
    · have := hb.getElem? 0 (i := 3 * i + k) (by omega)
      rwa [Nat.zero_add] at this
    simp only [bits_word] at ht
    have hd := cbd3_word t _ ht
    refine runs_fill1 fun j m'' hj hm'' => ?_
    have key : ∀ c, (fun j => (BytesToBits B (8 * (3 * i) + 3 * j)).toNat + (BytesToBits B (8 * (3 * i) + (3 * j + 1))).toNat +
        (BytesToBits B (8 * (3 * i) + (3 * j + 2))).toNat) c = ones 3 B (8 * i + c) := by
      intro c
      unfold ones
      rw [sum_range_succ, sum_range_succ, sum_range_one, show (8 * i + c) * 3 + 0 = 8 * (3 * i) + 3 * c from by ring,
        show (8 * i + c) * 3 + 1 = 8 * (3 * i) + (3 * c + 1) from by ring, show (8 * i + c) * 3 + 2 = 8 * (3 * i) + (3 * c + 2) from by ring]
    have hlt : ∀ c, (fun j => (BytesToBits B (8 * (3 * i) + 3 * j)).toNat + (BytesToBits B (8 * (3 * i) + (3 * j + 1))).toNat +
        (BytesToBits B (8 * (3 * i) + (3 * j + 2))).toNat) c < 2 ^ 3 := by
      intro c
      rw [key]
      have := ones_le 3 B (8 * i + c)
      omega
    have f0 := cbd_fields 3 (6 * j + 0) (by omega) _ 8 _ hlt 0x7 rfl hd (2 * j) (by omega) (by omega)
    have f1 := cbd_fields 3 (6 * j + 3) (by omega) _ 8 _ hlt 0x7 rfl hd (2 * j + 1) (by omega) (by omega)
    replace f0 := f0.trans (key (2 * j))
    replace f1 := f1.trans (key (2 * j + 1))
    have o0 := ones_le 3 B (8 * i + 2 * j)
    have o1 := ones_le 3 B (8 * i + (2 * j + 1))
    rw [f0, f1]
    have t0 := toInt_i16_nat (n := ones 3 B (8 * i + 2 * j)) (by omega)
    have t1 := toInt_i16_nat (n := ones 3 B (8 * i + (2 * j + 1))) (by omega)
    dsimp only
    rw [t0, t1, runs_bind, runs_isub]
    refine ⟨by omega, ?_⟩
    have e : cbdInt 3 B (4 * i + j) = (ones 3 B (8 * i + 2 * j) : Int) - ones 3 B (8 * i + (2 * j + 1)) := by
      unfold cbdInt; rw [show 2 * (4 * i + j) = 8 * i + 2 * j from by ring, Nat.add_assoc]
    rw [← e, Nat.zero_add]
    exact runs_wr_upd (by rw [hm''.size, hu.size, hr]; omega)
  exact this

theorem poly_cbd_eta1_runs {p : ParamSet} {r : Mem Int16} {buf : Mem UInt8} {B : List UInt8} (hr : r.size = 256) (hb : buf.Holds 0 B)
    (hB : B.length = 64 * (fips p).η₁) : Runs (poly_cbd_eta1 p r buf) (fun r' => PolyR r' (SamplePolyCBD (fips p).η₁ B) 3) := by
  cases p
  · exact (cbd3_runs hr hb hB).mono fun r' h => PolyR.of_cbd (η := 3) (by omega) hr h rfl
  · exact (cbd2_runs hr hb hB).mono fun r' h => (PolyR.of_cbd (η := 2) (by omega) hr h rfl).mono (by norm_num)
  · exact (cbd2_runs hr hb hB).mono fun r' h => (PolyR.of_cbd (η := 2) (by omega) hr h rfl).mono (by norm_num)

theorem poly_cbd_eta2_runs {r : Mem Int16} {buf : Mem UInt8} {B : List UInt8} (hr : r.size = 256) (hb : buf.Holds 0 B)
    (hB : B.length = 128) : Runs (poly_cbd_eta2 r buf) (fun r' => PolyR r' (SamplePolyCBD 2 B) 3) :=
  (cbd2_runs hr hb hB).mono fun r' h => (PolyR.of_cbd (η := 2) (by omega) hr h rfl).mono (by norm_num)

end Verif.Proof
