import Verif.Avx.Keccak4Api
import Verif.Avx.Keccak4Proof
import Verif.Proof.Drbg
import Verif.Spec.KeccakP

/-! # The interface of avx2/keccak4x acts on the byte strings of the four instances -/

set_option autoImplicit false

namespace Verif.Avx.SnP
open Verif.Model Verif.Spec Verif.Proof
open Verif.Model (byteAt byteOf load64 store64 memset)

/-- Byte `n` of instance `j`. -/
abbrev St := Fin 4 → Nat → UInt8

/-- The 800 bytes hold the four states of 200 bytes: lane `p` of instance `j` is number `4 p + j`. -/
def Holds4 (st : Mem UInt8) (b : St) : Prop :=
  st.size = 800 ∧ ∀ (j : Fin 4) (n : Nat), n < 200 → st[32 * (n / 8) + 8 * j.val + n % 8]? = some (some (b j n))

theorem Holds4.congr {st : Mem UInt8} {b b' : St} (h : Holds4 st b) (hb : ∀ j n, n < 200 → b j n = b' j n) : Holds4 st b' :=
  ⟨h.1, fun j n hn => by rw [h.2 j n hn, hb j n hn]⟩

/-! ## Words -/

theorem byteOf_xor (a b : UInt64) (t : Nat) : byteOf (a ^^^ b) t = byteOf a t ^^^ byteOf b t := by
  unfold byteOf; rw [UInt64.shiftRight_xor, UInt64.toUInt8_xor]

theorem byteOf_zero (t : Nat) : byteOf 0 t = 0 := by
  unfold byteOf; simp

theorem load64_byte {m : Mem UInt8} {o : Nat} {f : Nat → UInt8} (h : m.Has o 8 f) : Runs (load64 m o) (fun w => ∀ t, t < 8 → byteOf w t = f t) := by
  have hl : ((List.range 8).map f).length = 8 := by simp
  refine (load64_runs h.holds hl).mono fun w hw t ht => ?_
  apply UInt8.toNat_inj.mp
  apply Nat.eq_of_testBit_eq
  intro j
  by_cases hj : j < 8
  · rw [testBit_byteOf _ _ ht _ hj, hw, bytesToBits]
    dsimp only
    rw [show (8 * t + j) / 8 = t from by omega, show (8 * t + j) % 8 = j from by omega]
    simp [List.getD_eq_getElem?_getD, ht]
  · rw [testBit_u8_ge _ _ (by omega), testBit_u8_ge _ _ (by omega)]

theorem lane_has {st : Mem UInt8} {b : St} (h : Holds4 st b) (i : Fin 4) {p : Nat} (hp : p < 25) :
    st.Has (8 * (4 * p + i.val)) 8 (fun t => b i (8 * p + t)) := fun t ht => by
  rw [← h.2 i (8 * p + t) (by omega)]
  congr 1
  omega

theorem laneIndex_eq (i : Fin 4) {p : Nat} (hp : p < 25) : laneIndex i.val p = 4 * p + i.val := by
  unfold laneIndex u; omega

/-- Change of one lane, or a part of it. -/
theorem Holds4.upd {st st' : Mem UInt8} {b : St} (h : Holds4 st b) (i : Fin 4) {p o n : Nat} {f : Nat → UInt8} (_hp : p < 25) (ho : o + n ≤ 8)
    (u : st.Upd st' (8 * (4 * p + i.val) + o) n f) :
    Holds4 st' (fun j k => if j = i ∧ 8 * p + o ≤ k ∧ k < 8 * p + o + n then f (k - (8 * p + o)) else b j k) := by
  refine ⟨u.size.trans h.1, fun j k hk => ?_⟩
  dsimp only
  by_cases hc : j = i ∧ 8 * p + o ≤ k ∧ k < 8 * p + o + n
  · rw [if_pos hc]
    obtain ⟨rfl, h1, h2⟩ := hc
    have := u.has (k - (8 * p + o)) (by omega)
    rw [← this]
    congr 1
    omega
  · rw [if_neg hc, u.frame _ ?_, h.2 j k hk]
    by_cases e : j = i
    · subst e
      have : ¬ (8 * p + o ≤ k ∧ k < 8 * p + o + n) := fun h' => hc ⟨rfl, h'⟩
      omega
    · have : j.val ≠ i.val := fun h' => e (Fin.ext h')
      omega

/-! ## Bytes of one instance -/

/-- Xor of `len` bytes into instance `i` from offset `off`. -/
def xorAt (b : St) (i : Fin 4) (off len : Nat) (f : Nat → UInt8) : St :=
  fun j n => if j = i ∧ off ≤ n ∧ n < off + len then b j n ^^^ f (n - off) else b j n

/-- The bytes replaced. -/
def setAt (b : St) (i : Fin 4) (off len : Nat) (f : Nat → UInt8) : St :=
  fun j n => if j = i ∧ off ≤ n ∧ n < off + len then f (n - off) else b j n

theorem xorAt_zero (b : St) (i : Fin 4) (off : Nat) (f : Nat → UInt8) : xorAt b i off 0 f = b := by
  funext j n; unfold xorAt; rw [if_neg (by omega)]
theorem setAt_zero (b : St) (i : Fin 4) (off : Nat) (f : Nat → UInt8) : setAt b i off 0 f = b := by
  funext j n; unfold setAt; rw [if_neg (by omega)]

theorem partLane_runs {data : Mem UInt8} {o cur n : Nat} {f : Nat → UInt8} (h : data.Has cur n f) (ho : o + n ≤ 8) :
    Runs (partLane o data cur n) (fun w => ∀ t, t < 8 → byteOf w t = if o ≤ t ∧ t < o + n then f (t - o) else 0) := by
  unfold partLane
  rw [runs_bind]
  refine (runs_memcpy h (by simpa using ho)).mono fun m hm => ?_
  refine load64_byte fun t ht => ?_
  rw [Nat.zero_add]
  by_cases hc : o ≤ t ∧ t < o + n
  · rw [if_pos hc]; exact hm.has.get hc.1 hc.2
  · rw [if_neg hc, hm.frame t (by omega)]
    have := Mem.has_ofList [(0 : UInt8), 0, 0, 0, 0, 0, 0, 0] 0 t (by simpa using ht)
    rw [Nat.zero_add] at this
    rw [this]
    interval_cases t <;> rfl

theorem xorLane_step {st : Mem UInt8} {b : St} {i : Fin 4} {off m p o n : Nat} {f : Nat → UInt8} {w : UInt64} (h : Holds4 st (xorAt b i off m f))
    (hp : p < 25) (he : 8 * p + o = off + m) (ho : o + n ≤ 8) (hw : ∀ t, t < 8 → byteOf w t = if o ≤ t ∧ t < o + n then f (m + (t - o)) else 0) :
    Runs (xorLane st (laneIndex i.val p) w) (fun st' => Holds4 st' (xorAt b i off (m + n) f)) := by
  unfold xorLane
  rw [laneIndex_eq i hp, runs_bind]
  refine (load64_byte (lane_has h i hp)).mono fun v hv => ?_
  refine (store64_runs _ (by rw [h.1]; omega)).mono fun st' u => ?_
  refine (h.upd i (o := 0) hp (by omega) u).congr fun j k hk => ?_
  by_cases hc : j = i ∧ 8 * p + 0 ≤ k ∧ k < 8 * p + 0 + 8
  · rw [if_pos hc, byteOf_xor, hv _ (by omega), hw _ (by omega)]
    obtain ⟨rfl, h1, h2⟩ := hc
    rw [show 8 * p + (k - (8 * p + 0)) = k from by omega]
    unfold xorAt
    by_cases h3 : o ≤ k - (8 * p + 0) ∧ k - (8 * p + 0) < o + n
    · rw [if_pos h3, if_neg (by omega), if_pos (by omega)]
      congr 2
      omega
    · rw [if_neg h3]
      by_cases h4 : off ≤ k ∧ k < off + m
      · rw [if_pos ⟨rfl, h4⟩, if_pos ⟨rfl, by omega⟩]; simp
      · rw [if_neg (by omega), if_neg (by omega)]; simp
  · rw [if_neg hc]
    unfold xorAt
    by_cases e : j = i
    · subst e
      have : ¬ (8 * p ≤ k ∧ k < 8 * p + 8) := fun h' => hc ⟨rfl, by omega, by omega⟩
      by_cases h4 : off ≤ k ∧ k < off + m
      · rw [if_pos ⟨rfl, h4⟩, if_pos ⟨rfl, by omega⟩]
      · rw [if_neg (by omega), if_neg (by omega)]
    · rw [if_neg (by simp [e]), if_neg (by simp [e])]

theorem setLane_step {st st' : Mem UInt8} {b : St} {i : Fin 4} {off m p o n : Nat} {f g : Nat → UInt8} (h : Holds4 st (setAt b i off m f))
    (hp : p < 25) (he : 8 * p + o = off + m) (ho : o + n ≤ 8) (hg : ∀ t, t < n → g t = f (m + t))
    (u : st.Upd st' (8 * laneIndex i.val p + o) n g) : Holds4 st' (setAt b i off (m + n) f) := by
  rw [laneIndex_eq i hp] at u
  refine (h.upd i hp ho u).congr fun j k hk => ?_
  by_cases hc : j = i ∧ 8 * p + o ≤ k ∧ k < 8 * p + o + n
  · rw [if_pos hc, hg _ (by omega)]
    unfold setAt
    rw [if_pos ⟨hc.1, by omega⟩]
    congr 1
    omega
  · rw [if_neg hc]
    unfold setAt
    by_cases e : j = i
    · subst e
      have : ¬ (8 * p + o ≤ k ∧ k < 8 * p + o + n) := fun h' => hc ⟨rfl, h'⟩
      by_cases h4 : off ≤ k ∧ k < off + m
      · rw [if_pos ⟨rfl, h4⟩, if_pos ⟨rfl, by omega⟩]
      · rw [if_neg (by omega), if_neg (by omega)]
    · rw [if_neg (by simp [e]), if_neg (by simp [e])]

theorem runs_ptr64 {a : Nat} {Q : Unit → Prop} : Runs (ptr64 a) Q ↔ a % 8 = 0 ∧ Q () := by
  unfold ptr64; split <;> simp [*]
theorem runs_ptr256 {a : Nat} {Q : Unit → Prop} : Runs (ptr256 a) Q ↔ a % 32 = 0 ∧ Q () := by
  unfold ptr256; split <;> simp [*]
theorem runs_ptr {m : Mem UInt8} {o : Nat} {Q : Nat → Prop} : Runs (ptr m o) Q ↔ o ≤ m.size ∧ Q o := by
  unfold ptr; split <;> simp [*]

/-- The bytes before the first full lane. -/
def head (off len : Nat) : Nat := min ((8 - off % 8) % 8) len

/-- The condition under which the pointers to the full lanes are aligned. -/
def Aligned (a off len : Nat) : Prop := (8 - off % 8) % 8 + 8 ≤ len → (a + (8 - off % 8)) % 8 = 0

theorem AddBytes_runs {sa da d off len : Nat} {st data : Mem UInt8} {b : St} {i : Fin 4} {f : Nat → UInt8} (hsa : sa % 8 = 0) (h : Holds4 st b)
    (hd : data.Has d len f) (hl : off + len ≤ 200) (ha : Aligned (da + d) off len) :
    Runs (AddBytes sa st i.val da data d off len) (fun st' => Holds4 st' (xorAt b i off len f)) := by
  have hsz : 0 < len → d + len ≤ data.size := hd.le_size
  unfold Aligned at ha
  unfold AddBytes
  rw [runs_bind, runs_ptr64]
  refine ⟨hsa, ?_⟩
  rw [runs_bind]
  refine Runs.mono (P := fun s => Holds4 s.1 (xorAt b i off (head off len) f) ∧ s.2.1 = len - head off len ∧ (head off len < len → 8 * s.2.2.1 = off + head off len) ∧
    s.2.2.2 = d + head off len) ?_ ?_
  · rw [runs_cif]
    unfold head
    refine ⟨fun hc => ?_, fun hc => ?_⟩
    · simp at hc
      rw [runs_bind]
      refine Runs.mono (P := fun v => v = min (8 - off % 8) len) ?_ ?_
      · rw [runs_cif]
        refine ⟨fun h => ?_, fun h => ?_⟩ <;> simp at h <;> rw [runs_pure] <;> omega
      · rintro v rfl
        have e : min (8 - off % 8) len = min ((8 - off % 8) % 8) len := by omega
        rw [e]
        generalize hm : min ((8 - off % 8) % 8) len = m
        rw [runs_bind]
        refine (partLane_runs (hd.mono (by omega)) (by omega)).mono fun w hw => ?_
        rw [runs_bind]
        refine (xorLane_step (off := off) (m := 0) (o := off % 8) (n := m) (f := f) (by rwa [xorAt_zero]) (by omega) (by omega) (by omega) (by simpa using hw)).mono fun st' h' => ?_
        rw [runs_bind, runs_ptr]
        refine ⟨by have := hsz (by omega); omega, ?_⟩
        rw [runs_pure]
        rw [Nat.zero_add] at h'
        exact ⟨h', rfl, fun _ => by dsimp only; omega, rfl⟩
    · simp at hc
      rw [runs_pure]
      have e : min ((8 - off % 8) % 8) len = 0 := by
        by_cases h0 : 0 < len
        · have := hc h0; omega
        · omega
      rw [e]
      refine ⟨by rwa [xorAt_zero], rfl, fun h0 => ?_, rfl⟩
      have := hc h0
      dsimp only; omega
  · rintro ⟨st1, sl, pos, cur⟩ ⟨h1, h2, h3, h4⟩
    dsimp only at h1 h2 h3 h4 ⊢
    have hle : head off len ≤ len := by unfold head; omega
    have hhd : head off len = min ((8 - off % 8) % 8) len := rfl
    generalize head off len = m at *
    rw [runs_bind]
    refine (runs_cwhile (fun q (s : Mem UInt8 × Nat × Nat × Nat) => Holds4 s.1 (xorAt b i off (m + 8 * q) f) ∧ s.2.1 = len - m - 8 * q ∧ s.2.2.1 = pos + q ∧
      s.2.2.2 = d + (m + 8 * q)) ((len - m) / 8) (by omega) ⟨by simpa using h1, by simpa using h2, rfl, by simpa using h4⟩ ?_ ?_).mono ?_
    · rintro q ⟨st2, sl2, pos2, cur2⟩ hq ⟨k1, k2, k3, k4⟩
      dsimp only at k1 k2 k3 k4
      subst k2 k3 k4
      refine ⟨by simp; omega, ?_⟩
      have hpos := h3 (by omega)
      dsimp only
      rw [runs_bind, runs_ptr64]
      refine ⟨by have := ha (by omega); omega, ?_⟩
      rw [runs_bind]
      refine (load64_byte (f := fun t => f (m + 8 * q + t)) (hd.shift (m + 8 * q) 8 (by omega))).mono fun w hw => ?_
      rw [runs_bind]
      refine (xorLane_step (o := 0) (n := 8) k1 (by omega) (by omega) (by omega) fun t ht => ?_).mono fun st3 h3' => ?_
      · rw [if_pos (by omega), hw t ht]; simp
      · rw [runs_bind, runs_ptr]
        refine ⟨by have := hsz (by omega); omega, ?_⟩
        rw [runs_pure]
        exact ⟨by rwa [show m + 8 * (q + 1) = m + 8 * q + 8 from by omega], by dsimp only; omega, by dsimp only; omega, by dsimp only; omega⟩
    · rintro ⟨st2, sl2, pos2, cur2⟩ ⟨k1, k2, k3, k4⟩
      dsimp only at k2
      simp; omega
    · rintro ⟨st2, sl2, pos2, cur2⟩ ⟨k1, k2, k3, k4⟩
      dsimp only at k1 k2 k3 k4 ⊢
      subst k2 k3 k4
      rw [runs_cif]
      refine ⟨fun hc => ?_, fun hc => ?_⟩
      · simp at hc
        have hpos := h3 (by omega)
        rw [runs_bind]
        generalize hn : len - m - 8 * ((len - m) / 8) = n at *
        generalize hq : (len - m) / 8 = q at *
        refine (partLane_runs (f := fun t => f (m + 8 * q + t)) (hd.shift (m + 8 * q) n (by omega)) (by omega)).mono fun w hw => ?_
        refine (xorLane_step (o := 0) (n := n) k1 (by omega) (by omega) (by omega) hw).mono fun st3 h3' => ?_
        rwa [show m + 8 * q + n = len from by omega] at h3'
      · simp at hc
        rw [runs_pure]
        rwa [show m + 8 * ((len - m) / 8) = len from by omega] at k1

theorem OverwriteBytes_runs {sa da d off len : Nat} {st data : Mem UInt8} {b : St} {i : Fin 4} {f : Nat → UInt8} (hsa : sa % 8 = 0) (h : Holds4 st b)
    (hd : data.Has d len f) (hl : off + len ≤ 200) (ha : Aligned (da + d) off len) :
    Runs (OverwriteBytes sa st i.val da data d off len) (fun st' => Holds4 st' (setAt b i off len f)) := by
  have hsz : 0 < len → d + len ≤ data.size := hd.le_size
  unfold Aligned at ha
  unfold OverwriteBytes
  rw [runs_bind, runs_ptr64]
  refine ⟨hsa, ?_⟩
  rw [runs_bind]
  refine Runs.mono (P := fun s => Holds4 s.1 (setAt b i off (head off len) f) ∧ s.2.1 = len - head off len ∧ (head off len < len → 8 * s.2.2.1 = off + head off len) ∧
    s.2.2.2 = d + head off len) ?_ ?_
  · rw [runs_cif]
    unfold head
    refine ⟨fun hc => ?_, fun hc => ?_⟩
    · simp at hc
      rw [runs_bind]
      refine Runs.mono (P := fun v => v = min (8 - off % 8) len) ?_ ?_
      · rw [runs_cif]
        refine ⟨fun h => ?_, fun h => ?_⟩ <;> simp at h <;> rw [runs_pure] <;> omega
      · rintro v rfl
        have e : min (8 - off % 8) len = min ((8 - off % 8) % 8) len := by omega
        rw [e]
        generalize hm : min ((8 - off % 8) % 8) len = m
        rw [runs_bind]
        refine (runs_memcpy (hd.mono (by omega)) (by rw [h.1, laneIndex_eq i (by omega)]; omega)).mono fun st' u => ?_
        have h' := setLane_step (off := off) (b := b) (m := 0) (o := off % 8) (n := m) (f := f) (by rwa [setAt_zero]) (by omega) (by omega) (by omega) (by simp) u
        rw [runs_bind, runs_ptr]
        refine ⟨by have := hsz (by omega); omega, ?_⟩
        rw [runs_pure]
        rw [Nat.zero_add] at h'
        exact ⟨h', rfl, fun _ => by dsimp only; omega, rfl⟩
    · simp at hc
      rw [runs_pure]
      have e : min ((8 - off % 8) % 8) len = 0 := by
        by_cases h0 : 0 < len
        · have := hc h0; omega
        · omega
      rw [e]
      refine ⟨by rwa [setAt_zero], rfl, fun h0 => ?_, rfl⟩
      have := hc h0
      dsimp only; omega
  · rintro ⟨st1, sl, pos, cur⟩ ⟨h1, h2, h3, h4⟩
    dsimp only at h1 h2 h3 h4 ⊢
    have hle : head off len ≤ len := by unfold head; omega
    have hhd : head off len = min ((8 - off % 8) % 8) len := rfl
    generalize head off len = m at *
    rw [runs_bind]
    refine (runs_cwhile (fun q (s : Mem UInt8 × Nat × Nat × Nat) => Holds4 s.1 (setAt b i off (m + 8 * q) f) ∧ s.2.1 = len - m - 8 * q ∧ s.2.2.1 = pos + q ∧
      s.2.2.2 = d + (m + 8 * q)) ((len - m) / 8) (by omega) ⟨by simpa using h1, by simpa using h2, rfl, by simpa using h4⟩ ?_ ?_).mono ?_
    · rintro q ⟨st2, sl2, pos2, cur2⟩ hq ⟨k1, k2, k3, k4⟩
      dsimp only at k1 k2 k3 k4
      subst k2 k3 k4
      refine ⟨by simp; omega, ?_⟩
      have hpos := h3 (by omega)
      dsimp only
      rw [runs_bind, runs_ptr64]
      refine ⟨by have := ha (by omega); omega, ?_⟩
      rw [runs_bind]
      refine (load64_byte (f := fun t => f (m + 8 * q + t)) (hd.shift (m + 8 * q) 8 (by omega))).mono fun w hw => ?_
      rw [runs_bind]
      refine (store64_runs _ (by rw [k1.1, laneIndex_eq i (by omega)]; omega)).mono fun st3 u => ?_
      have h3' := setLane_step (o := 0) (n := 8) k1 (by omega) (by omega) (by omega) (fun t ht => hw t ht) u
      rw [runs_bind, runs_ptr]
      refine ⟨by have := hsz (by omega); omega, ?_⟩
      rw [runs_pure]
      exact ⟨by rwa [show m + 8 * (q + 1) = m + 8 * q + 8 from by omega], by dsimp only; omega, by dsimp only; omega, by dsimp only; omega⟩
    · rintro ⟨st2, sl2, pos2, cur2⟩ ⟨k1, k2, k3, k4⟩
      dsimp only at k2
      simp; omega
    · rintro ⟨st2, sl2, pos2, cur2⟩ ⟨k1, k2, k3, k4⟩
      dsimp only at k1 k2 k3 k4 ⊢
      subst k2 k3 k4
      rw [runs_cif]
      refine ⟨fun hc => ?_, fun hc => ?_⟩
      · simp at hc
        have hpos := h3 (by omega)
        generalize hn : len - m - 8 * ((len - m) / 8) = n at *
        generalize hq : (len - m) / 8 = q at *
        refine (runs_memcpy (f := fun t => f (m + 8 * q + t)) (hd.shift (m + 8 * q) n (by omega)) (by rw [k1.1, laneIndex_eq i (by omega)]; omega)).mono fun st3 u => ?_
        have h3' := setLane_step (o := 0) (n := n) k1 (by omega) (by omega) (by omega) (fun t ht => rfl) u
        rwa [show m + 8 * q + n = len from by omega] at h3'
      · simp at hc
        rw [runs_pure]
        rwa [show m + 8 * ((len - m) / 8) = len from by omega] at k1

theorem memset_upd {m : Mem UInt8} {o n : Nat} {v : UInt8} (h : o + n ≤ m.size) : Runs (memset m o v n) (fun m' => m.Upd m' o n fun _ => v) := by
  refine (memset_runs h).mono fun m' hw => ?_
  have := hw.upd v
  rw [List.length_replicate] at this
  refine this.congr fun i hi => ?_
  simp [List.getD_eq_getElem?_getD, hi]

theorem OverwriteWithZeroes_runs {sa len : Nat} {st : Mem UInt8} {b : St} {i : Fin 4} (hsa : sa % 8 = 0) (h : Holds4 st b) (hl : len ≤ 200) :
    Runs (OverwriteWithZeroes sa st i.val len) (fun st' => Holds4 st' (setAt b i 0 len fun _ => 0)) := by
  unfold OverwriteWithZeroes
  rw [runs_bind, runs_ptr64]
  refine ⟨hsa, ?_⟩
  rw [runs_bind]
  refine (runs_cwhile (fun q (s : Mem UInt8 × Nat × Nat) => Holds4 s.1 (setAt b i 0 (8 * q) fun _ => 0) ∧ s.2.1 = len - 8 * q ∧ s.2.2 = q) (len / 8) (by omega)
    ⟨by rw [Nat.mul_zero, setAt_zero]; exact h, rfl, rfl⟩ ?_ ?_).mono ?_
  · rintro q ⟨st2, sl2, pos2⟩ hq ⟨k1, k2, k3⟩
    dsimp only at k1 k2 k3
    subst k2 k3
    refine ⟨by simp; omega, ?_⟩
    dsimp only
    rw [runs_bind]
    refine (store64_runs _ (by rw [k1.1, laneIndex_eq i (by omega)]; omega)).mono fun st3 u => ?_
    have h3' := setLane_step (o := 0) (n := 8) k1 (by omega) (by omega) (by omega) (fun t ht => byteOf_zero t) u
    rw [runs_pure]
    exact ⟨h3', by dsimp only; omega, rfl⟩
  · rintro ⟨st2, sl2, pos2⟩ ⟨k1, k2, k3⟩
    dsimp only at k2
    simp; omega
  · rintro ⟨st2, sl2, pos2⟩ ⟨k1, k2, k3⟩
    dsimp only at k1 k2 k3 ⊢
    subst k2 k3
    rw [runs_cif]
    refine ⟨fun hc => ?_, fun hc => ?_⟩
    · simp at hc
      generalize hn : len - 8 * (len / 8) = n at *
      generalize hq : len / 8 = q at *
      have u := memset_upd (m := st2) (o := 8 * laneIndex i.val q) (n := n) (v := 0) (by rw [k1.1, laneIndex_eq i (by omega)]; omega)
      refine u.mono fun st3 u => ?_
      have h3' := setLane_step (o := 0) (n := n) k1 (by omega) (by omega) (by omega) (fun t ht => rfl) u
      rwa [show 8 * q + n = len from by omega] at h3'
    · simp at hc
      rw [runs_pure]
      rwa [show 8 * (len / 8) = len from by omega] at k1

theorem InitializeAll_runs {st : Mem UInt8} (h : st.size = 800) : Runs (InitializeAll st) (fun st' => Holds4 st' fun _ _ => 0) := by
  unfold InitializeAll
  refine (memset_upd (by omega)).mono fun st' u => ⟨u.size.trans h, fun j n hn => ?_⟩
  have := u.has (32 * (n / 8) + 8 * j.val + n % 8) (by omega)
  rwa [Nat.zero_add] at this

theorem AddByte_runs {st : Mem UInt8} {b : St} {i : Fin 4} {x : UInt8} {off : Nat} (h : Holds4 st b) (ho : off < 200) :
    Runs (AddByte st i.val x off) (fun st' => Holds4 st' (xorAt b i off 1 fun _ => x)) := by
  unfold AddByte
  have e : SnP.u (SnP.u (SnP.u (i.val * 8) + SnP.u (SnP.u (off / 8 * 4) * 8)) + off % 8) = 32 * (off / 8) + 8 * i.val + off % 8 := by unfold SnP.u; omega
  rw [e]
  dsimp only
  rw [runs_bind, runs_rd_of (h.2 i off ho)]
  refine (runs_wr_upd (by rw [h.1]; omega)).mono fun st' u => ?_
  refine (h.upd i (p := off / 8) (o := off % 8) (n := 1) (f := fun _ => b i off ^^^ x) (by omega) (by omega) ?_).congr fun j k hk => ?_
  · rwa [show 8 * (4 * (off / 8) + i.val) + off % 8 = 32 * (off / 8) + 8 * i.val + off % 8 from by omega]
  · unfold xorAt
    by_cases hc : j = i ∧ off ≤ k ∧ k < off + 1
    · obtain ⟨rfl, h1, h2⟩ := hc
      obtain rfl : k = off := by omega
      rw [if_pos ⟨rfl, by omega, by omega⟩, if_pos ⟨rfl, by omega, by omega⟩]
    · rw [if_neg (by omega), if_neg hc]

theorem ExtractBytes_runs {sa da d off len : Nat} {st data : Mem UInt8} {b : St} {i : Fin 4} (hsa : sa % 8 = 0) (h : Holds4 st b)
    (hsz : d + len ≤ data.size) (hl : off + len ≤ 200) (ha : Aligned (da + d) off len) :
    Runs (ExtractBytes sa st i.val da data d off len) (fun data' => data.Upd data' d len (fun t => b i (off + t))) := by
  unfold Aligned at ha
  unfold ExtractBytes
  rw [runs_bind, runs_ptr64]
  refine ⟨hsa, ?_⟩
  rw [runs_bind]
  refine Runs.mono (P := fun s => data.Upd s.1 d (head off len) (fun t => b i (off + t)) ∧ s.2.1 = len - head off len ∧
    (head off len < len → 8 * s.2.2.1 = off + head off len) ∧ s.2.2.2 = d + head off len) ?_ ?_
  · rw [runs_cif]
    unfold head
    refine ⟨fun hc => ?_, fun hc => ?_⟩
    · simp at hc
      rw [runs_bind]
      refine Runs.mono (P := fun v => v = min (8 - off % 8) len) ?_ ?_
      · rw [runs_cif]
        refine ⟨fun h => ?_, fun h => ?_⟩ <;> simp at h <;> rw [runs_pure] <;> omega
      · rintro v rfl
        have e : min (8 - off % 8) len = min ((8 - off % 8) % 8) len := by omega
        rw [e]
        generalize hm : min ((8 - off % 8) % 8) len = m
        rw [runs_bind, laneIndex_eq i (by omega)]
        refine (runs_memcpy ((lane_has h i (p := off / 8) (by omega)).shift (off % 8) m (by omega)) (by omega)).mono fun data' u => ?_
        rw [runs_bind, runs_ptr]
        refine ⟨by rw [u.size]; omega, ?_⟩
        rw [runs_pure]
        refine ⟨u.congr fun t ht => ?_, rfl, fun _ => by dsimp only; omega, rfl⟩
        congr 1
        omega
    · simp at hc
      rw [runs_pure]
      have e : min ((8 - off % 8) % 8) len = 0 := by
        by_cases h0 : 0 < len
        · have := hc h0; omega
        · omega
      rw [e]
      refine ⟨Mem.Upd.refl _ _ _, rfl, fun h0 => ?_, rfl⟩
      have := hc h0
      dsimp only; omega
  · rintro ⟨data1, sl, pos, cur⟩ ⟨h1, h2, h3, h4⟩
    dsimp only at h1 h2 h3 h4 ⊢
    have hle : head off len ≤ len := by unfold head; omega
    have hhd : head off len = min ((8 - off % 8) % 8) len := rfl
    generalize head off len = m at *
    rw [runs_bind]
    refine (runs_cwhile (fun q (s : Mem UInt8 × Nat × Nat × Nat) => data.Upd s.1 d (m + 8 * q) (fun t => b i (off + t)) ∧ s.2.1 = len - m - 8 * q ∧ s.2.2.1 = pos + q ∧
      s.2.2.2 = d + (m + 8 * q)) ((len - m) / 8) (by omega) ⟨by simpa using h1, by simpa using h2, rfl, by simpa using h4⟩ ?_ ?_).mono ?_
    · rintro q ⟨data2, sl2, pos2, cur2⟩ hq ⟨k1, k2, k3, k4⟩
      dsimp only at k1 k2 k3 k4
      subst k2 k3 k4
      refine ⟨by simp; omega, ?_⟩
      have hpos := h3 (by omega)
      dsimp only
      rw [runs_bind, runs_ptr64]
      refine ⟨by have := ha (by omega); omega, ?_⟩
      rw [runs_bind, laneIndex_eq i (by omega)]
      refine (load64_byte (lane_has h i (by omega))).mono fun w hw => ?_
      rw [runs_bind]
      refine (store64_runs _ (by rw [k1.size]; omega)).mono fun data3 u => ?_
      rw [runs_bind, runs_ptr]
      refine ⟨by rw [u.size, k1.size]; omega, ?_⟩
      rw [runs_pure]
      refine ⟨?_, by dsimp only; omega, by dsimp only; omega, by dsimp only; omega⟩
      rw [show m + 8 * (q + 1) = m + 8 * q + 8 from by omega]
      refine k1.append (u.congr fun t ht => ?_)
      rw [hw t ht]
      congr 1
      omega
    · rintro ⟨data2, sl2, pos2, cur2⟩ ⟨k1, k2, k3, k4⟩
      dsimp only at k2
      simp; omega
    · rintro ⟨data2, sl2, pos2, cur2⟩ ⟨k1, k2, k3, k4⟩
      dsimp only at k1 k2 k3 k4 ⊢
      subst k2 k3 k4
      rw [runs_cif]
      refine ⟨fun hc => ?_, fun hc => ?_⟩
      · simp at hc
        have hpos := h3 (by omega)
        generalize hn : len - m - 8 * ((len - m) / 8) = n at *
        generalize hq : (len - m) / 8 = q at *
        rw [laneIndex_eq i (by omega)]
        refine (runs_memcpy ((lane_has h i (p := pos + q) (by omega)).mono (by omega)) (by rw [k1.size]; omega)).mono fun data3 u => ?_
        rw [show len = m + 8 * q + n from by omega]
        refine k1.append (u.congr fun t ht => ?_)
        congr 1
        omega
      · simp at hc
        rw [runs_pure]
        rwa [show m + 8 * ((len - m) / 8) = len from by omega] at k1

theorem byteOf_shift (x : UInt64) {o t : Nat} (h : o + t < 8) : byteOf (x >>> UInt64.ofNat (8 * o)) t = byteOf x (o + t) := by
  have e1 : (UInt64.ofNat (8 * o)).toNat % 64 = 8 * o := by simp; omega
  have e2 : (UInt64.ofNat (8 * t)).toNat % 64 = 8 * t := by simp; omega
  have e3 : (UInt64.ofNat (8 * (o + t))).toNat % 64 = 8 * (o + t) := by simp; omega
  unfold byteOf
  apply UInt8.toNat_inj.mp
  rw [UInt64.toNat_toUInt8, UInt64.toNat_toUInt8, UInt64.toNat_shiftRight, UInt64.toNat_shiftRight, UInt64.toNat_shiftRight, e1, e2, e3, ← Nat.shiftRight_add, ← Nat.mul_add]

theorem xorOut_runs {inp out : Mem UInt8} {ci co n : Nat} {lane : UInt64} {f : Nat → UInt8} (hi : inp.Has ci n f) (ho : co + n ≤ out.size) (hn : 0 < n) (hn8 : n ≤ 8) :
    Runs (xorOut inp ci out co lane n) (fun s => out.Upd s.1 co n (fun t => f t ^^^ byteOf lane t) ∧ s.2.1 = ci + n ∧ s.2.2 = co + n) := by
  have hb : ∀ (out' : Mem UInt8) (ln : UInt64) (q : Nat), q < n → out.Upd out' co q (fun t => f t ^^^ byteOf lane t) → (∀ t, q + t < 8 → byteOf ln t = byteOf lane (q + t)) →
      Runs (do
        let x ← rd inp (ci + q)
        let o ← wr out' (co + q) (x ^^^ ln.toUInt8)
        pure (o, ci + q + 1, co + q + 1, ln >>> 8, SnP.u (n - q + 4294967295)) : C (Mem UInt8 × Nat × Nat × UInt64 × Nat))
        (fun s => out.Upd s.1 co (q + 1) (fun t => f t ^^^ byteOf lane t) ∧ s.2.1 = ci + (q + 1) ∧ s.2.2.1 = co + (q + 1) ∧
          (∀ t, q + 1 + t < 8 → byteOf s.2.2.2.1 t = byteOf lane (q + 1 + t)) ∧ s.2.2.2.2 = n - (q + 1)) := by
    intro out' ln q hq hu hl
    rw [runs_bind, runs_rd_of (hi q hq), runs_bind]
    have e0 : ln.toUInt8 = byteOf lane q := by
      rw [← Nat.add_zero q, ← hl 0 (by omega)]
      unfold byteOf; simp
    refine runs_wr_next hu rfl (by omega) (by rw [e0]) fun o' hu' => ?_
    rw [runs_pure]
    refine ⟨hu', by dsimp only; omega, by dsimp only; omega, fun t ht => ?_, by dsimp only; unfold SnP.u; omega⟩
    have := byteOf_shift ln (o := 1) (t := t) (by omega)
    rw [show UInt64.ofNat (8 * 1) = 8 from rfl] at this
    dsimp only
    rw [this, hl (1 + t) (by omega)]
    congr 1
    omega
  unfold xorOut
  dsimp only
  rw [runs_bind]
  have := hb out lane 0 hn (Mem.Upd.refl _ _ _) (fun t _ => by rw [Nat.zero_add])
  rw [Nat.add_zero, Nat.add_zero, Nat.sub_zero] at this
  refine this.mono fun s hs => ?_
  rw [runs_bind]
  refine (runs_cwhile (fun q (s : Mem UInt8 × Nat × Nat × UInt64 × Nat) => out.Upd s.1 co (q + 1) (fun t => f t ^^^ byteOf lane t) ∧ s.2.1 = ci + (q + 1) ∧
    s.2.2.1 = co + (q + 1) ∧ (∀ t, q + 1 + t < 8 → byteOf s.2.2.2.1 t = byteOf lane (q + 1 + t)) ∧ s.2.2.2.2 = n - (q + 1)) (n - 1) (by omega) hs ?_ ?_).mono ?_
  · rintro q ⟨o2, c2, d2, ln2, n2⟩ hq ⟨k1, k2, k3, k4, k5⟩
    dsimp only at k1 k2 k3 k4 k5
    subst k2 k3 k5
    exact ⟨by simp; omega, hb o2 ln2 (q + 1) (by omega) k1 k4⟩
  · rintro ⟨o2, c2, d2, ln2, n2⟩ ⟨k1, k2, k3, k4, k5⟩
    dsimp only at k5
    simp; omega
  · rintro ⟨o2, c2, d2, ln2, n2⟩ ⟨k1, k2, k3, k4, k5⟩
    rw [runs_pure]
    rw [show n - 1 + 1 = n from by omega] at k1 k2 k3
    exact ⟨k1, k2, k3⟩

theorem ExtractAndAddBytes_runs {sa ia oa io oo off len : Nat} {st inp out : Mem UInt8} {b : St} {i : Fin 4} {f : Nat → UInt8} (hsa : sa % 8 = 0) (h : Holds4 st b)
    (hi : inp.Has io len f) (hsz : oo + len ≤ out.size) (hl : off + len ≤ 200) (ha : Aligned (ia + io) off len) (ha' : Aligned (oa + oo) off len) :
    Runs (ExtractAndAddBytes sa st i.val ia inp io oa out oo off len) (fun out' => out.Upd out' oo len (fun t => f t ^^^ b i (off + t))) := by
  have hiz : 0 < len → io + len ≤ inp.size := hi.le_size
  unfold Aligned at ha ha'
  unfold ExtractAndAddBytes
  rw [runs_bind, runs_ptr64]
  refine ⟨hsa, ?_⟩
  rw [runs_bind]
  refine Runs.mono (P := fun s => out.Upd s.1 oo (head off len) (fun t => f t ^^^ b i (off + t)) ∧ s.2.1 = len - head off len ∧
    (head off len < len → 8 * s.2.2.1 = off + head off len) ∧ s.2.2.2.1 = io + head off len ∧ s.2.2.2.2 = oo + head off len) ?_ ?_
  · rw [runs_cif]
    unfold head
    refine ⟨fun hc => ?_, fun hc => ?_⟩
    · simp at hc
      rw [runs_bind, laneIndex_eq i (by omega)]
      refine (load64_byte (lane_has h i (by omega))).mono fun w hw => ?_
      rw [runs_bind]
      refine Runs.mono (P := fun v => v = min (8 - off % 8) len) ?_ ?_
      · rw [runs_cif]
        refine ⟨fun h => ?_, fun h => ?_⟩ <;> simp at h <;> rw [runs_pure] <;> omega
      · rintro v rfl
        have e : min (8 - off % 8) len = min ((8 - off % 8) % 8) len := by omega
        rw [e]
        generalize hm : min ((8 - off % 8) % 8) len = m
        rw [runs_bind]
        refine (xorOut_runs (hi.mono (by omega)) (by omega) (by omega) (by omega)).mono ?_
        rintro ⟨o2, c2, d2⟩ ⟨k1, k2, k3⟩
        dsimp only at k1 k2 k3
        subst k2 k3
        dsimp only
        rw [runs_pure]
        refine ⟨k1.congr fun t ht => ?_, rfl, fun _ => by dsimp only; omega, rfl, rfl⟩
        rw [byteOf_shift _ (by omega), hw _ (by omega)]
        congr 2
        omega
    · simp at hc
      rw [runs_pure]
      have e : min ((8 - off % 8) % 8) len = 0 := by
        by_cases h0 : 0 < len
        · have := hc h0; omega
        · omega
      rw [e]
      refine ⟨Mem.Upd.refl _ _ _, rfl, fun h0 => ?_, rfl, rfl⟩
      have := hc h0
      dsimp only; omega
  · rintro ⟨out1, sl, pos, ci, co⟩ ⟨h1, h2, h3, h4, h5⟩
    dsimp only at h1 h2 h3 h4 h5 ⊢
    have hle : head off len ≤ len := by unfold head; omega
    have hhd : head off len = min ((8 - off % 8) % 8) len := rfl
    generalize head off len = m at *
    rw [runs_bind]
    refine (runs_cwhile (fun q (s : Mem UInt8 × Nat × Nat × Nat × Nat) => out.Upd s.1 oo (m + 8 * q) (fun t => f t ^^^ b i (off + t)) ∧ s.2.1 = len - m - 8 * q ∧
      s.2.2.1 = pos + q ∧ s.2.2.2.1 = io + (m + 8 * q) ∧ s.2.2.2.2 = oo + (m + 8 * q)) ((len - m) / 8) (by omega)
      ⟨by simpa using h1, by simpa using h2, rfl, by simpa using h4, by simpa using h5⟩ ?_ ?_).mono ?_
    · rintro q ⟨out2, sl2, pos2, ci2, co2⟩ hq ⟨k1, k2, k3, k4, k5⟩
      dsimp only at k1 k2 k3 k4 k5
      subst k2 k3 k4 k5
      refine ⟨by simp; omega, ?_⟩
      have hpos := h3 (by omega)
      dsimp only
      rw [runs_bind, runs_ptr64]
      refine ⟨by have := ha (by omega); omega, ?_⟩
      rw [runs_bind, runs_ptr64]
      refine ⟨by have := ha' (by omega); omega, ?_⟩
      rw [runs_bind]
      refine (load64_byte (f := fun t => f (m + 8 * q + t)) (hi.shift (m + 8 * q) 8 (by omega))).mono fun x hx => ?_
      rw [runs_bind, laneIndex_eq i (by omega)]
      refine (load64_byte (lane_has h i (by omega))).mono fun w hw => ?_
      rw [runs_bind]
      refine (store64_runs _ (by rw [k1.size]; omega)).mono fun out3 u => ?_
      rw [runs_bind, runs_ptr]
      refine ⟨by have := hiz (by omega); omega, ?_⟩
      rw [runs_bind, runs_ptr]
      refine ⟨by rw [u.size, k1.size]; omega, ?_⟩
      rw [runs_pure]
      refine ⟨?_, by dsimp only; omega, by dsimp only; omega, by dsimp only; omega, by dsimp only; omega⟩
      rw [show m + 8 * (q + 1) = m + 8 * q + 8 from by omega]
      refine k1.append (u.congr fun t ht => ?_)
      rw [byteOf_xor, hx t ht, hw t ht]
      congr 2
      omega
    · rintro ⟨out2, sl2, pos2, ci2, co2⟩ ⟨k1, k2, k3, k4, k5⟩
      dsimp only at k2
      simp; omega
    · rintro ⟨out2, sl2, pos2, ci2, co2⟩ ⟨k1, k2, k3, k4, k5⟩
      dsimp only at k1 k2 k3 k4 k5 ⊢
      subst k2 k3 k4 k5
      rw [runs_cif]
      refine ⟨fun hc => ?_, fun hc => ?_⟩
      · simp at hc
        have hpos := h3 (by omega)
        generalize hn : len - m - 8 * ((len - m) / 8) = n at *
        generalize hq : (len - m) / 8 = q at *
        rw [runs_bind, laneIndex_eq i (by omega)]
        refine (load64_byte (lane_has h i (p := pos + q) (by omega))).mono fun w hw => ?_
        rw [runs_bind]
        refine (xorOut_runs (f := fun t => f (m + 8 * q + t)) (hi.shift (m + 8 * q) n (by omega)) (by rw [k1.size]; omega) (by omega) (by omega)).mono ?_
        rintro ⟨o2, c2, d2⟩ ⟨u, _, _⟩
        rw [runs_pure]
        rw [show len = m + 8 * q + n from by omega]
        refine k1.append (u.congr fun t ht => ?_)
        rw [hw _ (by omega)]
        congr 2
        omega
      · simp at hc
        rw [runs_pure]
        rwa [show m + 8 * ((len - m) / 8) = len from by omega] at k1

end Verif.Avx.SnP
