import Verif.Avx.Keccak4ApiProof

/-! # The functions of avx2/keccak4x on four instances at once -/

set_option autoImplicit false

namespace Verif.Avx.SnP
open Verif.Model Verif.Spec Verif.Proof
open Verif.Model (byteAt byteOf load64 store64 memset)

theorem vec0 (a b c d : UInt64) : vec a b c d 0 = a := rfl
theorem vec1 (a b c d : UInt64) : vec a b c d 1 = b := rfl
theorem vec2 (a b c d : UInt64) : vec a b c d 2 = c := rfl
theorem vec3 (a b c d : UInt64) : vec a b c d 3 = d := rfl

/-- A property of the four lanes. -/
theorem fin4 {P : Fin 4 → Prop} (h0 : P 0) (h1 : P 1) (h2 : P 2) (h3 : P 3) (j : Fin 4) : P j := by
  fin_cases j <;> assumption

theorem vec_eq (v : V4) : vec (v 0) (v 1) (v 2) (v 3) = v := funext (fin4 rfl rfl rfl rfl)

theorem INTLEAVE_eq (l0 l1 l2 l3 : V4) : INTLEAVE l0 l1 l2 l3 =
    (vec (l0 0) (l1 0) (l2 0) (l3 0), vec (l0 1) (l1 1) (l2 1) (l3 1), vec (l0 2) (l1 2) (l2 2) (l3 2), vec (l0 3) (l1 3) (l2 3) (l3 3)) := by
  unfold INTLEAVE
  refine Prod.ext ?_ (Prod.ext ?_ (Prod.ext ?_ ?_)) <;> exact funext (fin4 rfl rfl rfl rfl)

theorem UNINTLEAVE_eq (l0 l1 l2 l3 : V4) : UNINTLEAVE l0 l1 l2 l3 =
    (vec (l0 0) (l1 0) (l2 0) (l3 0), vec (l0 1) (l1 1) (l2 1) (l3 1), vec (l0 2) (l1 2) (l2 2) (l3 2), vec (l0 3) (l1 3) (l2 3) (l3 3)) := by
  unfold UNINTLEAVE
  refine Prod.ext ?_ (Prod.ext ?_ (Prod.ext ?_ ?_)) <;> exact funext (fin4 rfl rfl rfl rfl)

/-! ## Vectors in memory -/

theorem LOAD256u_runs {m : Mem UInt8} {o : Nat} {f : Nat → UInt8} (h : m.Has o 32 f) :
    Runs (LOAD256u m o) (fun v => ∀ (j : Fin 4) (t : Nat), t < 8 → byteOf (v j) t = f (8 * j.val + t)) := by
  unfold LOAD256u
  rw [runs_bind]
  refine (load64_byte (h.mono (by omega))).mono fun w0 h0 => ?_
  rw [runs_bind]
  refine (load64_byte (h.shift 8 8 (by omega))).mono fun w1 h1 => ?_
  rw [runs_bind]
  refine (load64_byte (h.shift 16 8 (by omega))).mono fun w2 h2 => ?_
  rw [runs_bind]
  refine (load64_byte (h.shift 24 8 (by omega))).mono fun w3 h3 => ?_
  rw [runs_pure]
  refine fin4 (fun t ht => ?_) h1 h2 h3
  rw [vec0, h0 t ht]
  simp

theorem STORE256u_runs {m : Mem UInt8} {o : Nat} {v : V4} {f : Nat → UInt8} (h : o + 32 ≤ m.size)
    (hv : ∀ (j : Fin 4) (t : Nat), t < 8 → byteOf (v j) t = f (8 * j.val + t)) : Runs (STORE256u m o v) (fun m' => m.Upd m' o 32 f) := by
  unfold STORE256u
  rw [runs_bind]
  refine (store64_runs _ (by omega)).mono fun m1 u1 => ?_
  have a1 : m.Upd m1 o 8 f := u1.congr fun t ht => by rw [hv 0 t ht]; simp
  rw [runs_bind]
  refine (store64_runs _ (by rw [a1.size]; omega)).mono fun m2 u2 => ?_
  have a2 := a1.append (u2.congr fun t ht => hv 1 t ht)
  rw [runs_bind]
  refine (store64_runs _ (by rw [a2.size]; omega)).mono fun m3 u3 => ?_
  have a3 := a2.append (u3.congr fun t ht => hv 2 t ht)
  refine (store64_runs _ (by rw [a3.size]; omega)).mono fun m4 u4 => ?_
  exact a3.append (u4.congr fun t ht => hv 3 t ht)

theorem LOAD256_runs {sa i : Nat} {st : Mem UInt8} {b : St} (hsa : sa % 32 = 0) (h : Holds4 st b) (hi : i < 25) :
    Runs (LOAD256 sa st (32 * i)) (fun v => ∀ (j : Fin 4) (t : Nat), t < 8 → byteOf (v j) t = b j (8 * i + t)) := by
  unfold LOAD256
  rw [runs_bind, runs_ptr256]
  refine ⟨by omega, ?_⟩
  refine (LOAD256u_runs (f := fun k => b (Fin.ofNat 4 (k / 8)) (8 * i + k % 8)) fun k hk => ?_).mono fun v hv j t ht => ?_
  · have := lane_has h (Fin.ofNat 4 (k / 8)) hi (k % 8) (by omega)
    rw [Fin.val_ofNat] at this
    rw [← this]
    congr 1
    omega
  · rw [hv j t ht]
    have e1 : Fin.ofNat 4 ((8 * j.val + t) / 8) = j := by apply Fin.ext; rw [Fin.val_ofNat]; omega
    rw [e1, show (8 * j.val + t) % 8 = t from by omega]

theorem STORE256_runs {sa i : Nat} {st : Mem UInt8} {b : St} {v : V4} (hsa : sa % 32 = 0) (h : Holds4 st b) (hi : i < 25) :
    Runs (STORE256 sa st (32 * i) v) (fun st' => Holds4 st' fun j k => if k / 8 = i then byteOf (v j) (k % 8) else b j k) := by
  unfold STORE256
  rw [runs_bind, runs_ptr256]
  refine ⟨by omega, ?_⟩
  refine (STORE256u_runs (f := fun k => byteOf (v (Fin.ofNat 4 (k / 8))) (k % 8)) (by rw [h.1]; omega) fun j t ht => ?_).mono fun st' u => ⟨u.size.trans h.1, fun j n hn => ?_⟩
  · have e1 : Fin.ofNat 4 ((8 * j.val + t) / 8) = j := by apply Fin.ext; rw [Fin.val_ofNat]; omega
    rw [e1, show (8 * j.val + t) % 8 = t from by omega]
  · dsimp only
    by_cases e : n / 8 = i
    · rw [if_pos e]
      have := u.has (8 * j.val + n % 8) (by omega)
      have e1 : Fin.ofNat 4 ((8 * j.val + n % 8) / 8) = j := by apply Fin.ext; rw [Fin.val_ofNat]; omega
      rw [e1, show (8 * j.val + n % 8) % 8 = n % 8 from by omega] at this
      rw [← this]
      congr 1
      omega
    · rw [if_neg e, u.frame _ (by omega), h.2 j n hn]

theorem xor256_runs {sa i : Nat} {st : Mem UInt8} {b : St} {v : V4} {g : St} (hsa : sa % 32 = 0) (h : Holds4 st b) (hi : i < 25)
    (hv : ∀ (j : Fin 4) (t : Nat), t < 8 → byteOf (v j) t = g j (8 * i + t)) :
    Runs (xor256 sa st i v) (fun st' => Holds4 st' fun j k => if k / 8 = i then b j k ^^^ g j k else b j k) := by
  unfold xor256
  rw [runs_bind]
  refine (LOAD256_runs hsa h hi).mono fun x hx => ?_
  refine (STORE256_runs hsa h hi).mono fun st' h' => h'.congr fun j k hk => ?_
  by_cases e : k / 8 = i
  · rw [if_pos e, if_pos e]
    show byteOf (x j ^^^ v j) (k % 8) = _
    rw [byteOf_xor, hx j _ (by omega), hv j _ (by omega), show 8 * i + k % 8 = k from by omega]
  · rw [if_neg e, if_neg e]

/-! ## Reading four data streams -/

theorem cur4_runs {da d lo : Nat} {data : Mem UInt8} (ha : (da + d) % 8 = 0) (hu : 24 * lo < 4294967296) (hd : d + 24 * lo ≤ data.size) :
    Runs (cur4 da data d lo) (fun p => p = ⟨d, d + 8 * lo, d + 16 * lo, d + 24 * lo⟩) := by
  unfold cur4
  have e1 : SnP.u (lo * 8) = 8 * lo := by unfold SnP.u; omega
  have e2 : SnP.u (SnP.u (lo * 2) * 8) = 16 * lo := by unfold SnP.u; omega
  have e3 : SnP.u (SnP.u (lo * 3) * 8) = 24 * lo := by unfold SnP.u; omega
  rw [e1, e2, e3, runs_bind, runs_ptr64]
  refine ⟨ha, ?_⟩
  rw [runs_bind, runs_ptr]
  refine ⟨by omega, ?_⟩
  rw [runs_bind, runs_ptr64]
  refine ⟨by omega, ?_⟩
  rw [runs_bind, runs_ptr]
  refine ⟨by omega, ?_⟩
  rw [runs_bind, runs_ptr64]
  refine ⟨by omega, ?_⟩
  rw [runs_bind, runs_ptr]
  refine ⟨by omega, ?_⟩
  rw [runs_bind, runs_ptr64]
  exact ⟨by omega, rfl⟩

/-- Each of the four pointers has `n` bytes of its stream before it. -/
structure Streams (data : Mem UInt8) (p : P4) (n : Nat) (f : St) : Prop where
  s0 : data.Has p.p0 n (f 0)
  s1 : data.Has p.p1 n (f 1)
  s2 : data.Has p.p2 n (f 2)
  s3 : data.Has p.p3 n (f 3)

theorem loadOne_runs {data : Mem UInt8} {p : P4} {n i : Nat} {f : St} (h : Streams data p n f) (hi : 8 * i + 8 ≤ n) :
    Runs (loadOne data p i) (fun v => ∀ (j : Fin 4) (t : Nat), t < 8 → byteOf (v j) t = f j (8 * i + t)) := by
  unfold loadOne
  rw [runs_bind]
  refine (load64_byte (h.s3.shift (8 * i) 8 hi)).mono fun w3 h3 => ?_
  rw [runs_bind]
  refine (load64_byte (h.s2.shift (8 * i) 8 hi)).mono fun w2 h2 => ?_
  rw [runs_bind]
  refine (load64_byte (h.s1.shift (8 * i) 8 hi)).mono fun w1 h1 => ?_
  rw [runs_bind]
  refine (load64_byte (h.s0.shift (8 * i) 8 hi)).mono fun w0 h0 => ?_
  rw [runs_pure]
  exact fin4 h0 h1 h2 h3

theorem loadFour_runs {data : Mem UInt8} {p : P4} {n i : Nat} {f : St} (h : Streams data p n f) (hi : 8 * i + 32 ≤ n) :
    Runs (loadFour data p i) (fun s => ∀ (q : Fin 4) (t : Nat), t < 8 → byteOf (s.1 q) t = f 0 (8 * (i + q.val) + t) ∧ byteOf (s.2.1 q) t = f 1 (8 * (i + q.val) + t) ∧
      byteOf (s.2.2.1 q) t = f 2 (8 * (i + q.val) + t) ∧ byteOf (s.2.2.2 q) t = f 3 (8 * (i + q.val) + t)) := by
  unfold loadFour
  rw [runs_bind]
  refine (LOAD256u_runs (h.s0.shift (8 * i) 32 hi)).mono fun w0 h0 => ?_
  rw [runs_bind]
  refine (LOAD256u_runs (h.s1.shift (8 * i) 32 hi)).mono fun w1 h1 => ?_
  rw [runs_bind]
  refine (LOAD256u_runs (h.s2.shift (8 * i) 32 hi)).mono fun w2 h2 => ?_
  rw [runs_bind]
  refine (LOAD256u_runs (h.s3.shift (8 * i) 32 hi)).mono fun w3 h3 => ?_
  rw [runs_pure]
  intro q t ht
  have e : 8 * (i + q.val) + t = 8 * i + (8 * q.val + t) := by omega
  rw [e]
  exact ⟨h0 q t ht, h1 q t ht, h2 q t ht, h3 q t ht⟩

/-- The four vectors after the transposition. -/
theorem intleave_lane {l : V4 × V4 × V4 × V4} {i : Nat} {f : St}
    (h : ∀ (q : Fin 4) (t : Nat), t < 8 → byteOf (l.1 q) t = f 0 (8 * (i + q.val) + t) ∧ byteOf (l.2.1 q) t = f 1 (8 * (i + q.val) + t) ∧
      byteOf (l.2.2.1 q) t = f 2 (8 * (i + q.val) + t) ∧ byteOf (l.2.2.2 q) t = f 3 (8 * (i + q.val) + t)) (q j : Fin 4) (t : Nat) (ht : t < 8) :
    byteOf (vec (l.1 q) (l.2.1 q) (l.2.2.1 q) (l.2.2.2 q) j) t = f j (8 * (i + q.val) + t) := by
  obtain ⟨h0, h1, h2, h3⟩ := h q t ht
  revert j
  exact fin4 h0 h1 h2 h3

theorem byLanes_runs {σ : Type} {lc : Nat} {one four : Nat → σ → C σ} {s : σ} (Inv : Nat → σ → Prop) (h0 : Inv 0 s)
    (h1 : ∀ i s, i < lc → Inv i s → Runs (one i s) (Inv (i + 1))) (h4 : ∀ i s, i + 4 ≤ lc → Inv i s → Runs (four i s) (Inv (i + 4))) :
    Runs (byLanes lc one four s) (Inv lc) := by
  unfold byLanes
  rw [runs_cif]
  refine ⟨fun hc => ?_, fun hc => ?_⟩
  · simp at hc
    rw [runs_bind]
    refine (h4 0 s (by omega) h0).mono fun s1 k1 => ?_
    rw [runs_bind]
    refine (h4 4 s1 (by omega) k1).mono fun s2 k2 => ?_
    rw [runs_bind]
    refine (h4 8 s2 (by omega) k2).mono fun s3 k3 => ?_
    rw [runs_bind]
    refine (h4 12 s3 (by omega) k3).mono fun s4 k4 => ?_
    rw [runs_cif]
    refine ⟨fun hc' => ?_, fun hc' => ?_⟩
    · simp at hc'
      rw [runs_bind]
      refine (h4 16 s4 (by omega) k4).mono fun s5 k5 => ?_
      exact runs_cfor Inv (by omega) k5 fun i s _ hi hI => h1 i s hi hI
    · exact runs_cfor Inv (by omega) k4 fun i s _ hi hI => h1 i s hi hI
  · exact runs_cfor Inv (by omega) h0 fun i s _ hi hI => h1 i s hi hI

/-- Xor of the first `n` bytes of four strings into the four states. -/
def xorAll (b : St) (n : Nat) (f : St) : St := fun j k => if k < n then b j k ^^^ f j k else b j k

/-- The first `n` bytes of the four states replaced. -/
def setAll (b : St) (n : Nat) (f : St) : St := fun j k => if k < n then f j k else b j k

theorem xorAll_step {st : Mem UInt8} {b f : St} {n i : Nat} (hn : n = 8 * i) (h : Holds4 st fun j k => if k / 8 = i then xorAll b n f j k ^^^ f j k else xorAll b n f j k) :
    Holds4 st (xorAll b (8 * (i + 1)) f) := by
  subst hn
  refine h.congr fun j k hk => ?_
  unfold xorAll
  by_cases e : k / 8 = i
  · rw [if_pos e, if_neg (by omega), if_pos (by omega)]
  · rw [if_neg e]
    by_cases e' : k < 8 * i
    · rw [if_pos e', if_pos (by omega)]
    · rw [if_neg e', if_neg (by omega)]

theorem setAll_step {st : Mem UInt8} {b f : St} {n i : Nat} {v : V4} (hn : n = 8 * i) (hv : ∀ (j : Fin 4) (t : Nat), t < 8 → byteOf (v j) t = f j (8 * i + t))
    (h : Holds4 st fun j k => if k / 8 = i then byteOf (v j) (k % 8) else setAll b n f j k) : Holds4 st (setAll b (8 * (i + 1)) f) := by
  subst hn
  refine h.congr fun j k hk => ?_
  unfold setAll
  by_cases e : k / 8 = i
  · rw [if_pos e, if_pos (by omega), hv j _ (by omega), show 8 * i + k % 8 = k from by omega]
  · rw [if_neg e]
    by_cases e' : k < 8 * i
    · rw [if_pos e', if_pos (by omega)]
    · rw [if_neg e', if_neg (by omega)]

theorem xorAll_zero (b f : St) : xorAll b (8 * 0) f = b := by funext j k; unfold xorAll; rw [if_neg (by omega)]
theorem setAll_zero (b f : St) : setAll b (8 * 0) f = b := by funext j k; unfold setAll; rw [if_neg (by omega)]

theorem AddLanesAll_runs {sa da d lc lo : Nat} {st data : Mem UInt8} {b f : St} (hsa : sa % 32 = 0) (h : Holds4 st b) (hlc : lc ≤ 25) (ha : (da + d) % 8 = 0)
    (hu : 24 * lo < 4294967296) (hsz : d + 24 * lo ≤ data.size) (hd : Streams data ⟨d, d + 8 * lo, d + 16 * lo, d + 24 * lo⟩ (8 * lc) f) :
    Runs (AddLanesAll sa st da data d lc lo) (fun st' => Holds4 st' (xorAll b (8 * lc) f)) := by
  unfold AddLanesAll
  rw [runs_bind]
  refine (cur4_runs ha hu hsz).mono ?_
  rintro p rfl
  refine byLanes_runs (fun i st' => Holds4 st' (xorAll b (8 * i) f)) (by rw [xorAll_zero]; exact h) ?_ ?_
  · intro i st1 hi h1
    rw [runs_bind]
    refine (loadOne_runs hd (by omega)).mono fun v hv => ?_
    exact (xor256_runs hsa h1 (by omega) hv).mono fun st2 h2 => xorAll_step rfl h2
  · intro i st1 hi h1
    rw [runs_bind]
    refine (loadFour_runs hd (i := i) (by omega)).mono ?_
    rintro ⟨l0, l1, l2, l3⟩ hl
    have hq := intleave_lane hl
    dsimp only at hq ⊢
    rw [INTLEAVE_eq]
    dsimp only
    rw [runs_bind]
    refine (xor256_runs hsa h1 (by omega) (hq 0)).mono fun st2 h2 => ?_
    rw [runs_bind]
    refine (xor256_runs hsa (xorAll_step rfl h2) (by omega) (hq 1)).mono fun st3 h3 => ?_
    rw [runs_bind]
    refine (xor256_runs hsa (xorAll_step rfl h3) (by omega) (hq 2)).mono fun st4 h4 => ?_
    exact (xor256_runs hsa (xorAll_step rfl h4) (by omega) (hq 3)).mono fun st5 h5 => xorAll_step rfl h5

theorem OverwriteLanesAll_runs {sa da d lc lo : Nat} {st data : Mem UInt8} {b f : St} (hsa : sa % 32 = 0) (h : Holds4 st b) (hlc : lc ≤ 25) (ha : (da + d) % 8 = 0)
    (hu : 24 * lo < 4294967296) (hsz : d + 24 * lo ≤ data.size) (hd : Streams data ⟨d, d + 8 * lo, d + 16 * lo, d + 24 * lo⟩ (8 * lc) f) :
    Runs (OverwriteLanesAll sa st da data d lc lo) (fun st' => Holds4 st' (setAll b (8 * lc) f)) := by
  unfold OverwriteLanesAll
  rw [runs_bind]
  refine (cur4_runs ha hu hsz).mono ?_
  rintro p rfl
  refine byLanes_runs (fun i st' => Holds4 st' (setAll b (8 * i) f)) (by rw [setAll_zero]; exact h) ?_ ?_
  · intro i st1 hi h1
    rw [runs_bind]
    refine (loadOne_runs hd (by omega)).mono fun v hv => ?_
    exact (STORE256_runs hsa h1 (by omega)).mono fun st2 h2 => setAll_step rfl hv h2
  · intro i st1 hi h1
    rw [runs_bind]
    refine (loadFour_runs hd (i := i) (by omega)).mono ?_
    rintro ⟨l0, l1, l2, l3⟩ hl
    have hq := intleave_lane hl
    dsimp only at hq ⊢
    rw [INTLEAVE_eq]
    dsimp only
    rw [runs_bind]
    refine (STORE256_runs hsa h1 (by omega)).mono fun st2 h2 => ?_
    rw [runs_bind]
    refine (STORE256_runs hsa (setAll_step rfl (hq 0) h2) (by omega)).mono fun st3 h3 => ?_
    rw [runs_bind]
    refine (STORE256_runs hsa (setAll_step rfl (hq 1) h3) (by omega)).mono fun st4 h4 => ?_
    exact (STORE256_runs hsa (setAll_step rfl (hq 2) h4) (by omega)).mono fun st5 h5 => setAll_step rfl (hq 3) h5

/-! ## Writing four data streams -/

/-- `n` bytes of each of four strings are written, `8 lo` bytes apart, and nothing else. -/
structure Wrote4 (m m' : Mem UInt8) (d lo n : Nat) (f : St) : Prop where
  size : m'.size = m.size
  has : Streams m' ⟨d, d + 8 * lo, d + 16 * lo, d + 24 * lo⟩ n f
  frame : ∀ k, (k < d ∨ d + n ≤ k) → (k < d + 8 * lo ∨ d + 8 * lo + n ≤ k) → (k < d + 16 * lo ∨ d + 16 * lo + n ≤ k) → (k < d + 24 * lo ∨ d + 24 * lo + n ≤ k) →
    m'[k]? = m[k]?

theorem Wrote4.zero (m : Mem UInt8) (d lo : Nat) (f : St) : Wrote4 m m d lo (8 * 0) f :=
  ⟨rfl, ⟨fun i hi => by omega, fun i hi => by omega, fun i hi => by omega, fun i hi => by omega⟩, fun _ _ _ _ _ => rfl⟩

theorem has_append {m : Mem UInt8} {o n w : Nat} {f : Nat → UInt8} (h : m.Has o n f) (h' : m.Has (o + n) w (fun t => f (n + t))) : m.Has o (n + w) f := by
  intro i hi
  by_cases e : i < n
  · exact h i e
  · have := h' (i - n) (by omega)
    dsimp only at this
    rwa [show o + n + (i - n) = o + i from by omega, show n + (i - n) = i from by omega] at this

theorem Wrote4.step {m m0 m1 m2 m3 m4 : Mem UInt8} {d lo n w : Nat} {f : St} (h : Wrote4 m m0 d lo n f) (hw : n + w ≤ 8 * lo)
    (u0 : m0.Upd m1 (d + n) w (fun t => f 0 (n + t))) (u1 : m1.Upd m2 (d + 8 * lo + n) w (fun t => f 1 (n + t)))
    (u2 : m2.Upd m3 (d + 16 * lo + n) w (fun t => f 2 (n + t))) (u3 : m3.Upd m4 (d + 24 * lo + n) w (fun t => f 3 (n + t))) : Wrote4 m m4 d lo (n + w) f := by
  refine ⟨u3.size.trans (u2.size.trans (u1.size.trans (u0.size.trans h.size))), ⟨?_, ?_, ?_, ?_⟩, fun k h0 h1 h2 h3 => ?_⟩
  · exact has_append (u3.has_frame (u2.has_frame (u1.has_frame (u0.has_frame h.has.s0 (by dsimp only; omega)) (by dsimp only; omega)) (by dsimp only; omega)) (by dsimp only; omega))
      (u3.has_frame (u2.has_frame (u1.has_frame u0.has (by dsimp only; omega)) (by dsimp only; omega)) (by dsimp only; omega))
  · exact has_append (u3.has_frame (u2.has_frame (u1.has_frame (u0.has_frame h.has.s1 (by dsimp only; omega)) (by dsimp only; omega)) (by dsimp only; omega)) (by dsimp only; omega))
      (u3.has_frame (u2.has_frame u1.has (by dsimp only; omega)) (by dsimp only; omega))
  · exact has_append (u3.has_frame (u2.has_frame (u1.has_frame (u0.has_frame h.has.s2 (by dsimp only; omega)) (by dsimp only; omega)) (by dsimp only; omega)) (by dsimp only; omega))
      (u3.has_frame u2.has (by dsimp only; omega))
  · exact has_append (u3.has_frame (u2.has_frame (u1.has_frame (u0.has_frame h.has.s3 (by dsimp only; omega)) (by dsimp only; omega)) (by dsimp only; omega)) (by dsimp only; omega))
      u3.has
  · rw [u3.frame k (by omega), u2.frame k (by omega), u1.frame k (by omega), u0.frame k (by omega), h.frame k (by omega) (by omega) (by omega) (by omega)]

/-- Words of the four instances after the inverse transposition. -/
theorem unintleave_lane {l0 l1 l2 l3 : V4} {i : Nat} {b : St} (h0 : ∀ (j : Fin 4) (t : Nat), t < 8 → byteOf (l0 j) t = b j (8 * i + t))
    (h1 : ∀ (j : Fin 4) (t : Nat), t < 8 → byteOf (l1 j) t = b j (8 * (i + 1) + t)) (h2 : ∀ (j : Fin 4) (t : Nat), t < 8 → byteOf (l2 j) t = b j (8 * (i + 2) + t))
    (h3 : ∀ (j : Fin 4) (t : Nat), t < 8 → byteOf (l3 j) t = b j (8 * (i + 3) + t)) (j q : Fin 4) (t : Nat) (ht : t < 8) :
    byteOf (vec (l0 j) (l1 j) (l2 j) (l3 j) q) t = b j (8 * i + (8 * q.val + t)) := by
  rw [show 8 * i + (8 * q.val + t) = 8 * (i + q.val) + t from by omega]
  revert q
  exact fin4 (h0 j t ht) (h1 j t ht) (h2 j t ht) (h3 j t ht)

theorem ExtractLanesAll_runs {sa da d lc lo : Nat} {st data : Mem UInt8} {b : St} (hsa : sa % 32 = 0) (h : Holds4 st b) (hlc : lc ≤ 25) (ha : (da + d) % 8 = 0)
    (hlo : lc ≤ lo) (hu : 24 * lo < 4294967296) (hsz : d + 24 * lo + 8 * lc ≤ data.size) :
    Runs (ExtractLanesAll sa st da data d lc lo) (fun data' => Wrote4 data data' d lo (8 * lc) b) := by
  unfold ExtractLanesAll
  rw [runs_bind]
  refine (cur4_runs ha hu (by omega)).mono ?_
  rintro p rfl
  rw [runs_bind, runs_ptr64]
  refine ⟨by omega, ?_⟩
  refine byLanes_runs (fun i data' => Wrote4 data data' d lo (8 * i) b) (Wrote4.zero _ _ _ _) ?_ ?_
  · intro i m0 hi h0
    have hz := h0.size
    rw [runs_bind]
    refine (load64_byte (lane_has h 0 (by omega))).mono fun w0 e0 => ?_
    rw [runs_bind]
    refine (store64_runs _ (by dsimp only; omega)).mono fun m1 u0 => ?_
    rw [runs_bind]
    refine (load64_byte (lane_has h 1 (by omega))).mono fun w1 e1 => ?_
    rw [runs_bind]
    refine (store64_runs _ (by rw [u0.size]; dsimp only; omega)).mono fun m2 u1 => ?_
    rw [runs_bind]
    refine (load64_byte (lane_has h 2 (by omega))).mono fun w2 e2 => ?_
    rw [runs_bind]
    refine (store64_runs _ (by rw [u1.size, u0.size]; dsimp only; omega)).mono fun m3 u2 => ?_
    rw [runs_bind]
    refine (load64_byte (lane_has h 3 (by omega))).mono fun w3 e3 => ?_
    refine (store64_runs _ (by rw [u2.size, u1.size, u0.size]; dsimp only; omega)).mono fun m4 u3 => ?_
    exact h0.step (by omega) (u0.congr e0) (u1.congr e1) (u2.congr e2) (u3.congr e3)
  · intro i m0 hi h0
    have hz := h0.size
    rw [runs_bind]
    refine (LOAD256_runs hsa h (by omega)).mono fun l0 e0 => ?_
    rw [runs_bind]
    refine (LOAD256_runs hsa h (by omega)).mono fun l1 e1 => ?_
    rw [runs_bind]
    refine (LOAD256_runs hsa h (by omega)).mono fun l2 e2 => ?_
    rw [runs_bind]
    refine (LOAD256_runs hsa h (by omega)).mono fun l3 e3 => ?_
    rw [UNINTLEAVE_eq]
    dsimp only
    have hq := unintleave_lane e0 e1 e2 e3
    rw [runs_bind]
    refine (STORE256u_runs (f := fun k => b 0 (8 * i + k)) (by omega) (hq 0)).mono fun m1 u0 => ?_
    rw [runs_bind]
    refine (STORE256u_runs (f := fun k => b 1 (8 * i + k)) (by rw [u0.size]; omega) (hq 1)).mono fun m2 u1 => ?_
    rw [runs_bind]
    refine (STORE256u_runs (f := fun k => b 2 (8 * i + k)) (by rw [u1.size, u0.size]; omega) (hq 2)).mono fun m3 u2 => ?_
    refine (STORE256u_runs (f := fun k => b 3 (8 * i + k)) (by rw [u2.size, u1.size, u0.size]; omega) (hq 3)).mono fun m4 u3 => ?_
    exact h0.step (w := 32) (by omega) u0 u1 u2 u3

theorem ExtractAndAddLanesAll_runs {sa ia io oa oo lc lo : Nat} {st inp out : Mem UInt8} {b f : St} (hsa : sa % 32 = 0) (h : Holds4 st b) (hlc : lc ≤ 25)
    (hia : (ia + io) % 8 = 0) (hoa : (oa + oo) % 8 = 0) (hlo : lc ≤ lo) (hu : 24 * lo < 4294967296) (hisz : io + 24 * lo ≤ inp.size)
    (hi : Streams inp ⟨io, io + 8 * lo, io + 16 * lo, io + 24 * lo⟩ (8 * lc) f) (hsz : oo + 24 * lo + 8 * lc ≤ out.size) :
    Runs (ExtractAndAddLanesAll sa st ia inp io oa out oo lc lo) (fun out' => Wrote4 out out' oo lo (8 * lc) fun j k => f j k ^^^ b j k) := by
  unfold ExtractAndAddLanesAll
  rw [runs_bind]
  refine (cur4_runs hia hu hisz).mono ?_
  rintro q rfl
  rw [runs_bind]
  refine (cur4_runs hoa hu (by omega)).mono ?_
  rintro p rfl
  rw [runs_bind, runs_ptr64]
  refine ⟨by omega, ?_⟩
  refine byLanes_runs (fun i out' => Wrote4 out out' oo lo (8 * i) fun j k => f j k ^^^ b j k) (Wrote4.zero _ _ _ _) ?_ ?_
  · intro i m0 hlt h0
    have hz := h0.size
    rw [runs_bind]
    refine (load64_byte (hi.s0.shift (8 * i) 8 (by omega))).mono fun x0 y0 => ?_
    rw [runs_bind]
    refine (load64_byte (lane_has h 0 (by omega))).mono fun w0 e0 => ?_
    rw [runs_bind]
    refine (store64_runs _ (by dsimp only; omega)).mono fun m1 u0 => ?_
    rw [runs_bind]
    refine (load64_byte (hi.s1.shift (8 * i) 8 (by omega))).mono fun x1 y1 => ?_
    rw [runs_bind]
    refine (load64_byte (lane_has h 1 (by omega))).mono fun w1 e1 => ?_
    rw [runs_bind]
    refine (store64_runs _ (by rw [u0.size]; dsimp only; omega)).mono fun m2 u1 => ?_
    rw [runs_bind]
    refine (load64_byte (hi.s2.shift (8 * i) 8 (by omega))).mono fun x2 y2 => ?_
    rw [runs_bind]
    refine (load64_byte (lane_has h 2 (by omega))).mono fun w2 e2 => ?_
    rw [runs_bind]
    refine (store64_runs _ (by rw [u1.size, u0.size]; dsimp only; omega)).mono fun m3 u2 => ?_
    rw [runs_bind]
    refine (load64_byte (hi.s3.shift (8 * i) 8 (by omega))).mono fun x3 y3 => ?_
    rw [runs_bind]
    refine (load64_byte (lane_has h 3 (by omega))).mono fun w3 e3 => ?_
    refine (store64_runs _ (by rw [u2.size, u1.size, u0.size]; dsimp only; omega)).mono fun m4 u3 => ?_
    exact h0.step (by omega) (u0.congr fun t ht => by rw [byteOf_xor, y0 t ht, e0 t ht]) (u1.congr fun t ht => by rw [byteOf_xor, y1 t ht, e1 t ht])
      (u2.congr fun t ht => by rw [byteOf_xor, y2 t ht, e2 t ht]) (u3.congr fun t ht => by rw [byteOf_xor, y3 t ht, e3 t ht])
  · intro i m0 hlt h0
    have hz := h0.size
    rw [runs_bind]
    refine (LOAD256_runs hsa h (by omega)).mono fun l0 e0 => ?_
    rw [runs_bind]
    refine (LOAD256_runs hsa h (by omega)).mono fun l1 e1 => ?_
    rw [runs_bind]
    refine (LOAD256_runs hsa h (by omega)).mono fun l2 e2 => ?_
    rw [runs_bind]
    refine (LOAD256_runs hsa h (by omega)).mono fun l3 e3 => ?_
    rw [UNINTLEAVE_eq]
    dsimp only
    have hq := unintleave_lane e0 e1 e2 e3
    rw [runs_bind]
    refine (loadFour_runs hi (i := i) (by omega)).mono ?_
    rintro ⟨k0, k1, k2, k3⟩ hk
    have hx : ∀ (j : Fin 4) (v w : V4), (∀ (q : Fin 4) (t : Nat), t < 8 → byteOf (v q) t = b j (8 * i + (8 * q.val + t))) →
        (∀ (q : Fin 4) (t : Nat), t < 8 → byteOf (w q) t = f j (8 * (i + q.val) + t)) → ∀ (q : Fin 4) (t : Nat), t < 8 →
        byteOf (XOR256 v w q) t = f j (8 * i + (8 * q.val + t)) ^^^ b j (8 * i + (8 * q.val + t)) := by
      intro j v w hv hw q t ht
      show byteOf (v q ^^^ w q) t = _
      rw [byteOf_xor, hv q t ht, hw q t ht, show 8 * (i + q.val) + t = 8 * i + (8 * q.val + t) from by omega, UInt8.xor_comm]
    dsimp only at hk ⊢
    rw [runs_bind]
    refine (STORE256u_runs (f := fun k => f 0 (8 * i + k) ^^^ b 0 (8 * i + k)) (by omega) (hx 0 _ _ (hq 0) fun q t ht => (hk q t ht).1)).mono fun m1 u0 => ?_
    rw [runs_bind]
    refine (STORE256u_runs (f := fun k => f 1 (8 * i + k) ^^^ b 1 (8 * i + k)) (by rw [u0.size]; omega) (hx 1 _ _ (hq 1) fun q t ht => (hk q t ht).2.1)).mono fun m2 u1 => ?_
    rw [runs_bind]
    refine (STORE256u_runs (f := fun k => f 2 (8 * i + k) ^^^ b 2 (8 * i + k)) (by rw [u1.size, u0.size]; omega) (hx 2 _ _ (hq 2) fun q t ht => (hk q t ht).2.2.1)).mono fun m3 u2 => ?_
    refine (STORE256u_runs (f := fun k => f 3 (8 * i + k) ^^^ b 3 (8 * i + k)) (by rw [u2.size, u1.size, u0.size]; omega) (hx 3 _ _ (hq 3) fun q t ht => (hk q t ht).2.2.2)).mono fun m4 u3 => ?_
    exact h0.step (w := 32) (by omega) u0 u1 u2 u3

end Verif.Avx.SnP
