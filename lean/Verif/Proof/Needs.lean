import Verif.C.Post
import Verif.Model.Kem

/-! # The buffers that the calls of the KEM need

What a call that returned must have had: the sizes of the output buffers and the initialised cells of the inputs. -/

namespace Verif.Proof
open Verif.Model

/-- Three reads or writes in each of `n` rounds cover the `3 * n` cells. -/
theorem init_blocks {α : Type} {m : Mem α} {o b n : Nat} (hb : 0 < b) (h : ∀ i, i < n → m.Init (o + b * i) b) : m.Init o (b * n) := fun j hj => by
  obtain ⟨v, hv⟩ := h (j / b) (Nat.div_lt_of_lt_mul hj) (j % b) (Nat.mod_lt _ hb)
  refine ⟨v, ?_⟩
  rw [← hv, Nat.add_assoc, Nat.div_add_mod]

theorem init3 {α : Type} {m : Mem α} {o : Nat} {x y z : α} (h0 : m[o + 0]? = some (some x)) (h1 : m[o + 1]? = some (some y)) (h2 : m[o + 2]? = some (some z)) :
    m.Init o 3 := fun i hi => by
  match i, hi with
  | 0, _ => exact ⟨x, h0⟩
  | 1, _ => exact ⟨y, h1⟩
  | 2, _ => exact ⟨z, h2⟩

/-! ## Serialisation -/

theorem post_poly_tobytes {r : Mem UInt8} {ro : Nat} {a : Poly} : Post (poly_tobytes r ro a) (fun r' => r'.size = r.size ∧ ro + 384 ≤ r.size) := by
  refine (post_for (fun r' : Mem UInt8 => r'.size = r.size) (fun i => ro + 3 * i + 2 < r.size) rfl fun i r' _ _ h => ?_).mono fun r' h =>
    ⟨h.1, by have := h.2 127 (by omega) (by decide); omega⟩
  refine Post.skip fun _ => Post.skip fun _ => Post.skip fun _ => Post.skip fun _ => Post.bind post_wr_size fun r1 h1 => Post.bind post_wr_size fun r2 h2 => ?_
  exact post_wr_size.mono fun r3 h3 => ⟨by omega, by omega⟩

theorem post_polyvec_tobytes {p : ParamSet} {r : Mem UInt8} {ro : Nat} {a : Polyvec} : Post (polyvec_tobytes p r ro a) (fun r' => r'.size = r.size) := by
  refine (post_for (fun r' : Mem UInt8 => r'.size = r.size) (fun _ => True) rfl fun i r' _ _ h => ?_).mono fun r' h => h.1
  exact Post.skip fun _ => post_poly_tobytes.mono fun r'' h' => ⟨h'.1.trans h, trivial⟩

theorem post_pack_pk {p : ParamSet} {r : Mem UInt8} {a : Polyvec} {seed : Mem UInt8} {so : Nat} : Post (pack_pk p r a seed so) (fun r' => r'.size = r.size) :=
  Post.bind post_polyvec_tobytes fun _ h => post_memcpy.mono fun _ h' => h'.1.trans h

theorem post_poly_frombytes {r : Poly} {a : Mem UInt8} {ao : Nat} : Post (poly_frombytes r a ao) (fun _ => a.Init ao 384) := by
  refine (post_for (fun _ : Poly => True) (fun i => a.Init (ao + 3 * i) 3) trivial fun i r' _ _ _ => ?_).mono fun r' h =>
    init_blocks (b := 3) (n := 128) (by decide) fun i hi => h.2 i (by omega) hi
  refine Post.bind post_rd fun x hx => Post.bind post_rd fun y hy => Post.skip fun _ => Post.bind post_rd fun _ _ => Post.bind post_rd fun z hz => ?_
  exact Post.all fun _ => ⟨trivial, init3 hx hy hz⟩

theorem post_polyvec_frombytes {p : ParamSet} {r : Polyvec} {a : Mem UInt8} {ao : Nat} : Post (polyvec_frombytes p r a ao) (fun _ => a.Init ao (KYBER_POLYVECBYTES p)) := by
  refine (post_for (fun _ : Polyvec => True) (fun i => a.Init (ao + 384 * i) 384) trivial fun i r' _ _ _ => ?_).mono fun r' h => by
    have := init_blocks (b := 384) (n := KYBER_K p) (by decide) fun i hi => h.2 i (by omega) hi
    rw [Nat.mul_comm] at this
    exact this
  refine Post.skip fun _ => Post.bind post_poly_frombytes fun _ hi => Post.all fun _ => ⟨trivial, ?_⟩
  rw [Nat.mul_comm]
  exact hi

theorem post_unpack_pk {p : ParamSet} {r : Polyvec} {seed a : Mem UInt8} {ao : Nat} : Post (unpack_pk p r seed a ao) (fun _ => a.Init ao (KYBER_PUBLICKEYBYTES p)) :=
  Post.bind post_polyvec_frombytes fun _ h => Post.bind post_memcpy fun _ h' => post_pure (h.append h'.2.2)

theorem post_compress_352 {p : ParamSet} {r : Mem UInt8} {ro : Nat} {a : Polyvec} : Post (polyvec_compress_352 p r ro a) (fun r' => r'.size = r.size) := by
  refine Post.bind (post_for (fun s : Mem UInt8 × Mem UInt16 => s.1.size = r.size) (fun _ => True) rfl fun i s _ _ h => ?_) fun s h => post_pure h.1
  refine (post_for (fun s : Mem UInt8 × Mem UInt16 => s.1.size = r.size) (fun _ => True) h fun j s _ _ h => ?_).mono fun s h => ⟨h.1, trivial⟩
  obtain ⟨r0, t0⟩ := s
  simp only at h ⊢
  refine Post.skip fun t => ?_
  refine Post.skip fun _ => Post.bind post_wr_size fun r1 h1 => ?_
  refine Post.skip fun _ => Post.skip fun _ => Post.bind post_wr_size fun r2 h2 => ?_
  refine Post.skip fun _ => Post.skip fun _ => Post.bind post_wr_size fun r3 h3 => ?_
  refine Post.skip fun _ => Post.bind post_wr_size fun r4 h4 => ?_
  refine Post.skip fun _ => Post.skip fun _ => Post.bind post_wr_size fun r5 h5 => ?_
  refine Post.skip fun _ => Post.skip fun _ => Post.bind post_wr_size fun r6 h6 => ?_
  refine Post.skip fun _ => Post.skip fun _ => Post.bind post_wr_size fun r7 h7 => ?_
  refine Post.skip fun _ => Post.bind post_wr_size fun r8 h8 => ?_
  refine Post.skip fun _ => Post.skip fun _ => Post.bind post_wr_size fun r9 h9 => ?_
  refine Post.skip fun _ => Post.skip fun _ => Post.bind post_wr_size fun r10 h10 => ?_
  refine Post.skip fun _ => Post.bind post_wr_size fun r11 h11 => ?_
  exact post_pure ⟨by show r11.size = r.size; omega, trivial⟩

theorem post_compress_320 {p : ParamSet} {r : Mem UInt8} {ro : Nat} {a : Polyvec} : Post (polyvec_compress_320 p r ro a) (fun r' => r'.size = r.size) := by
  refine Post.bind (post_for (fun s : Mem UInt8 × Mem UInt16 => s.1.size = r.size) (fun _ => True) rfl fun i s _ _ h => ?_) fun s h => post_pure h.1
  refine (post_for (fun s : Mem UInt8 × Mem UInt16 => s.1.size = r.size) (fun _ => True) h fun j s _ _ h => ?_).mono fun s h => ⟨h.1, trivial⟩
  obtain ⟨r0, t0⟩ := s
  simp only at h ⊢
  refine Post.skip fun t => ?_
  refine Post.skip fun _ => Post.bind post_wr_size fun r1 h1 => ?_
  refine Post.skip fun _ => Post.skip fun _ => Post.bind post_wr_size fun r2 h2 => ?_
  refine Post.skip fun _ => Post.skip fun _ => Post.bind post_wr_size fun r3 h3 => ?_
  refine Post.skip fun _ => Post.skip fun _ => Post.bind post_wr_size fun r4 h4 => ?_
  refine Post.skip fun _ => Post.bind post_wr_size fun r5 h5 => ?_
  exact post_pure ⟨by show r5.size = r.size; omega, trivial⟩

theorem post_polyvec_compress {p : ParamSet} {r : Mem UInt8} {ro : Nat} {a : Polyvec} : Post (polyvec_compress p r ro a) (fun r' => r'.size = r.size) := by
  unfold polyvec_compress
  split
  · exact post_compress_352
  · exact post_compress_320

theorem post_compress_128 {r : Mem UInt8} {ro : Nat} {a : Poly} : Post (poly_compress_128 r ro a) (fun r' => r'.size = r.size ∧ ro + 128 ≤ r.size) := by
  refine Post.bind (post_for (fun s : Mem UInt8 × Mem UInt8 => s.1.size = r.size) (fun i => ro + 4 * i + 3 < r.size) rfl fun i s _ _ h => ?_) fun s h =>
    post_pure ⟨h.1, by have := h.2 31 (by omega) (by decide); omega⟩
  obtain ⟨r0, t0⟩ := s
  simp only at h ⊢
  refine Post.skip fun t => ?_
  refine Post.skip fun _ => Post.skip fun _ => Post.bind post_wr_size fun r1 h1 => ?_
  refine Post.skip fun _ => Post.skip fun _ => Post.bind post_wr_size fun r2 h2 => ?_
  refine Post.skip fun _ => Post.skip fun _ => Post.bind post_wr_size fun r3 h3 => ?_
  refine Post.skip fun _ => Post.skip fun _ => Post.bind post_wr_size fun r4 h4 => ?_
  exact post_pure ⟨by show r4.size = r.size; omega, by omega⟩

theorem post_compress_160 {r : Mem UInt8} {ro : Nat} {a : Poly} : Post (poly_compress_160 r ro a) (fun r' => r'.size = r.size ∧ ro + 160 ≤ r.size) := by
  refine Post.bind (post_for (fun s : Mem UInt8 × Mem UInt8 => s.1.size = r.size) (fun i => ro + 5 * i + 4 < r.size) rfl fun i s _ _ h => ?_) fun s h =>
    post_pure ⟨h.1, by have := h.2 31 (by omega) (by decide); omega⟩
  obtain ⟨r0, t0⟩ := s
  simp only at h ⊢
  refine Post.skip fun t => ?_
  refine Post.skip fun _ => Post.skip fun _ => Post.bind post_wr_size fun r1 h1 => ?_
  refine Post.skip fun _ => Post.skip fun _ => Post.skip fun _ => Post.bind post_wr_size fun r2 h2 => ?_
  refine Post.skip fun _ => Post.skip fun _ => Post.bind post_wr_size fun r3 h3 => ?_
  refine Post.skip fun _ => Post.skip fun _ => Post.skip fun _ => Post.bind post_wr_size fun r4 h4 => ?_
  refine Post.skip fun _ => Post.skip fun _ => Post.bind post_wr_size fun r5 h5 => ?_
  exact post_pure ⟨by show r5.size = r.size; omega, by omega⟩

theorem post_pack_ciphertext {p : ParamSet} {r : Mem UInt8} {b : Polyvec} {v : Poly} :
    Post (pack_ciphertext p r b v) (fun r' => r'.size = r.size ∧ KYBER_CIPHERTEXTBYTES p ≤ r.size) := by
  refine Post.bind post_polyvec_compress fun r1 h1 => ?_
  rw [← h1]
  cases p
  · exact post_compress_128.mono fun r' h => ⟨h.1, h.2⟩
  · exact post_compress_128.mono fun r' h => ⟨h.1, h.2⟩
  · exact post_compress_160.mono fun r' h => ⟨h.1, h.2⟩

/-! ## Hashing -/

theorem post_load64 {x : Mem UInt8} {o : Nat} : Post (load64 x o) (fun _ => x.Init o 8) :=
  (post_for (fun _ : UInt64 => True) (fun i => ∃ v, x[o + i]? = some (some v)) trivial fun i r _ _ _ => Post.bind post_rd fun v hv => post_pure ⟨trivial, v, hv⟩).mono
    fun _ h i hi => h.2 i (by omega) hi

theorem post_store64 {x : Mem UInt8} {o : Nat} {u : UInt64} : Post (store64 x o u) (fun x' => x'.size = x.size) :=
  (post_for (fun x' : Mem UInt8 => x'.size = x.size) (fun _ => True) rfl fun _ _ _ _ h => post_wr_size.mono fun _ h' => ⟨h'.1.trans h, trivial⟩).mono
    fun _ h => h.1

/-- Bytes absorbed so far and bytes left. -/
theorem init_step {inp : Mem UInt8} {io inlen io' len' n : Nat} (hn : n ≤ len') (h : io ≤ io' ∧ io' + len' = io + inlen ∧ inp.Init io (io' - io)) (hi : inp.Init io' n) :
    io ≤ io' + n ∧ io' + n + (len' - n) = io + inlen ∧ inp.Init io (io' + n - io) := by
  obtain ⟨h1, h2, h3⟩ := h
  refine ⟨by omega, by omega, ?_⟩
  rw [show io' + n - io = (io' - io) + n from by omega]
  exact h3.append (by rwa [show io + (io' - io) = io' from by omega])

theorem post_absorb_once {s : Mem UInt64} {r : Nat} {inp : Mem UInt8} {io inlen : Nat} {p : UInt8} (hr : 8 * (r / 8) = r) :
    Post (keccak_absorb_once s r inp io inlen p) (fun _ => inp.Init io inlen) := by
  refine Post.skip fun s0 => Post.bind (post_cwhile (fun st : Mem UInt64 × Nat × Nat => io ≤ st.2.1 ∧ st.2.1 + st.2.2 = io + inlen ∧ inp.Init io (st.2.1 - io)) ?_ _ _ ?_) ?_
  · rintro ⟨s, io', len'⟩ hc hI
    simp only [decide_eq_true_eq] at hc hI ⊢
    refine Post.bind (post_for (fun _ : Mem UInt64 => True) (fun i => inp.Init (io' + 8 * i) 8) trivial fun i s' _ _ _ => ?_) fun s' h => ?_
    · exact Post.bind post_load64 fun w hw => Post.all fun _ => ⟨trivial, hw⟩
    · refine Post.skip fun s'' => post_pure (init_step hc hI ?_)
      have := init_blocks (b := 8) (n := r / 8) (by decide) fun i hi => h.2 i (by omega) hi
      rwa [hr] at this
  · exact ⟨Nat.le_refl _, rfl, fun i hi => by simp at hi⟩
  · rintro ⟨s, io', len'⟩ ⟨hI, _⟩
    simp only at hI ⊢
    refine Post.bind (post_for (fun _ : Mem UInt64 => True) (fun i => ∃ v, inp[io' + i]? = some (some v)) trivial fun i s' _ _ _ =>
      Post.bind post_rd fun v hv => Post.all fun _ => ⟨trivial, v, hv⟩) fun s' h => Post.all fun _ => ?_
    have := (init_step (Nat.le_refl _) hI fun i hi => h.2 i (by omega) hi).2.2
    rwa [hI.2.1, Nat.add_sub_cancel_left] at this

theorem post_absorb {s : Mem UInt64} {pos r : Nat} {inp : Mem UInt8} {io inlen : Nat} : Post (keccak_absorb s pos r inp io inlen) (fun _ => inp.Init io inlen) := by
  refine Post.bind (post_cwhile (fun st : Mem UInt64 × Nat × Nat × Nat => io ≤ st.2.2.1 ∧ st.2.2.1 + st.2.2.2 = io + inlen ∧ inp.Init io (st.2.2.1 - io)) ?_ _ _ ?_) ?_
  · rintro ⟨s, pos, io', len'⟩ hc hI
    simp only [decide_eq_true_eq] at hc hI ⊢
    have hle : r - pos ≤ len' := by have := Nat.mod_le (pos + len') (2 ^ 64); omega
    refine Post.bind (post_for (fun _ : Mem UInt64 => True) (fun i => ∃ v, inp[io' + (i - pos)]? = some (some v)) trivial fun i s' _ _ _ =>
      Post.bind post_rd fun v hv => Post.all fun _ => ⟨trivial, v, hv⟩) fun s' h => Post.skip fun s'' => post_pure (init_step hle hI fun i hi => ?_)
    have := h.2 (pos + i) (by omega) (by omega)
    rwa [Nat.add_sub_cancel_left] at this
  · exact ⟨Nat.le_refl _, rfl, fun i hi => by simp at hi⟩
  · rintro ⟨s, pos, io', len'⟩ ⟨hI, _⟩
    simp only at hI ⊢
    refine Post.bind (post_for (fun _ : Mem UInt64 => True) (fun i => ∃ v, inp[io' + (i - pos)]? = some (some v)) trivial fun i s' _ _ _ =>
      Post.bind post_rd fun v hv => Post.all fun _ => ⟨trivial, v, hv⟩) fun s' h => post_pure ?_
    have := (init_step (Nat.le_refl _) hI fun i hi => by
      have := h.2 (pos + i) (by omega) (by omega)
      rwa [Nat.add_sub_cancel_left] at this).2.2
    rwa [hI.2.1, Nat.add_sub_cancel_left] at this

theorem post_squeeze {out : Mem UInt8} {oo outlen : Nat} {s : Mem UInt64} {pos r : Nat} : Post (keccak_squeeze out oo outlen s pos r) (fun st => st.1.size = out.size) := by
  refine Post.bind (post_cwhile (fun st : Mem UInt8 × Nat × Nat × Mem UInt64 × Nat => st.1.size = out.size) ?_ _ _ rfl) fun st h => post_pure h.1
  rintro ⟨out', oo', len', s, pos⟩ _ hI
  simp only at hI ⊢
  refine Post.skip fun x => ?_
  obtain ⟨s', pos'⟩ := x
  refine Post.bind (post_for (fun o : Mem UInt8 => o.size = out.size) (fun _ => True) hI fun i o _ _ h => ?_) fun o h => post_pure h.1
  exact Post.skip fun _ => post_wr_size.mono fun _ h' => ⟨h'.1.trans h, trivial⟩

theorem post_sha3_256 {h : Mem UInt8} {ho : Nat} {inp : Mem UInt8} {io n : Nat} : Post (hash_h h ho inp io n) (fun h' => h'.size = h.size ∧ inp.Init io n) := by
  refine Post.bind (post_absorb_once (by decide)) fun s hi => ?_
  refine Post.skip fun s' => ?_
  refine (post_for (fun h' : Mem UInt8 => h'.size = h.size) (fun _ => True) rfl fun i h' _ _ e => ?_).mono fun h' e => ⟨e.1, hi⟩
  exact Post.skip fun _ => post_store64.mono fun _ e' => ⟨e'.trans e, trivial⟩

theorem post_rkprf {p : ParamSet} {out : Mem UInt8} {oo : Nat} {key : Mem UInt8} {ko : Nat} {input : Mem UInt8} {io : Nat} :
    Post (rkprf p out oo key ko input io) (fun o => o.size = out.size ∧ key.Init ko KYBER_SYMBYTES) := by
  refine Post.skip fun s => Post.bind (P := fun _ => key.Init ko KYBER_SYMBYTES) ?_ fun s hk => Post.skip fun s => Post.skip fun s => ?_
  · exact Post.skip fun _ => Post.bind post_absorb fun _ h => post_pure h
  · refine Post.bind (P := fun o : Mem UInt8 × KeccakState => o.1.size = out.size) ?_ fun o h => post_pure ⟨h, hk⟩
    exact Post.skip fun _ => Post.bind post_squeeze fun _ h => post_pure h

theorem post_verify {a : Mem UInt8} {ao : Nat} {b : Mem UInt8} {bo len : Nat} : Post (verify a ao b bo len) (fun _ => a.Init ao len) := by
  refine Post.bind (post_for (fun _ : UInt8 => True) (fun i => ∃ v, a[ao + i]? = some (some v)) trivial fun i r _ _ _ =>
    Post.bind post_rd fun v hv => Post.skip fun _ => post_pure ⟨trivial, v, hv⟩) fun _ h => post_pure fun i hi => h.2 i (by omega) hi

theorem post_cmov {r : Mem UInt8} {ro : Nat} {x : Mem UInt8} {xo len : Nat} {b : UInt8} : Post (cmov r ro x xo len b) (fun r' => r'.size = r.size ∧ (0 < len → ro + len ≤ r.size)) := by
  refine (post_for (fun r' : Mem UInt8 => r'.size = r.size) (fun i => ro + i < r.size) rfl fun i r' _ _ h => ?_).mono fun r' h =>
    ⟨h.1, fun hn => by have := h.2 (len - 1) (by omega) (by omega); omega⟩
  exact Post.skip fun _ => Post.skip fun _ => post_wr_size.mono fun _ h' => ⟨h'.1.trans h, by rw [← h]; exact h'.2⟩

/-! ## The calls -/

theorem post_indcpa_keypair {p : ParamSet} {fuel : Nat} {pk sk coins : Mem UInt8} :
    Post (indcpa_keypair_derand p fuel pk sk coins) (fun s => s.1.size = pk.size ∧ s.2.size = sk.size ∧ coins.Init 0 32) := by
  refine Post.bind post_memcpy fun buf hc => Post.skip fun buf => Post.skip fun buf => Post.skip fun a => Post.skip fun x => ?_
  obtain ⟨skpv, nonce⟩ := x
  refine Post.skip fun x => ?_
  obtain ⟨e, nonce'⟩ := x
  refine Post.skip fun skpv => Post.skip fun e => Post.skip fun pkpv => Post.skip fun pkpv => Post.skip fun pkpv => ?_
  exact Post.bind post_polyvec_tobytes fun sk' hs => Post.bind post_pack_pk fun pk' hp => post_pure ⟨hp, hs, hc.2.2⟩

set_option maxRecDepth 4000 in
theorem post_indcpa_enc {p : ParamSet} {fuel : Nat} {c m : Mem UInt8} {mo : Nat} {pk : Mem UInt8} {po : Nat} {coins : Mem UInt8} {co : Nat} :
    Post (indcpa_enc p fuel c m mo pk po coins co) (fun c' => c'.size = c.size ∧ KYBER_CIPHERTEXTBYTES p ≤ c.size ∧ pk.Init po (KYBER_PUBLICKEYBYTES p)) := by
  refine Post.bind (post_unpack_pk (ao := po)) fun ⟨pkpv, seed⟩ hp => ?_
  refine Post.skip fun k => Post.skip fun at_ => Post.skip fun x => ?_
  obtain ⟨sp, nonce⟩ := x
  refine Post.skip fun x => ?_
  obtain ⟨ep, nonce'⟩ := x
  refine Post.skip fun epp => Post.skip fun sp => Post.skip fun b => Post.skip fun v => Post.skip fun b => Post.skip fun v => Post.skip fun b => Post.skip fun v =>
    Post.skip fun v => Post.skip fun b => Post.skip fun v => ?_
  exact post_pack_ciphertext.mono fun c' h => ⟨h.1, h.2, hp⟩

theorem post_indcpa_dec {p : ParamSet} {m : Mem UInt8} {mo : Nat} {c sk : Mem UInt8} : Post (indcpa_dec p m mo c sk) (fun _ => sk.Init 0 (KYBER_INDCPA_SECRETKEYBYTES p)) := by
  refine Post.skip fun x => ?_
  obtain ⟨b, v⟩ := x
  exact Post.bind post_polyvec_frombytes fun skpv h => Post.all fun _ => h

theorem keypair_needs {p : ParamSet} {fuel : Nat} {pk sk coins : Mem UInt8} : Post (crypto_kem_keypair_derand p fuel pk sk coins)
    (fun _ => KYBER_PUBLICKEYBYTES p ≤ pk.size ∧ KYBER_SECRETKEYBYTES p ≤ sk.size ∧ coins.Init 0 64) := by
  refine Post.bind post_indcpa_keypair fun x h0 => ?_
  obtain ⟨pk', sk'⟩ := x
  refine Post.bind post_memcpy fun sk1 h1 => Post.bind post_sha3_256 fun sk2 h2 => Post.bind post_memcpy fun sk3 h3 => post_pure ?_
  have a := h1.2.2.size (by cases p <;> decide)
  have b := h3.2.1 (by decide)
  have c := h0.2.2.append (n' := 32) (by rw [Nat.zero_add]; exact h3.2.2)
  refine ⟨by have := h0.1; simp only at this; omega, ?_, c⟩
  have e : KYBER_SECRETKEYBYTES p - KYBER_SYMBYTES + KYBER_SYMBYTES = KYBER_SECRETKEYBYTES p := by cases p <;> rfl
  have h := h0.2.1
  simp only at h
  rw [e, h2.1, h1.1, h] at b
  exact b

theorem enc_needs {p : ParamSet} {fuel : Nat} {ct ss pk coins : Mem UInt8} : Post (crypto_kem_enc_derand p fuel ct ss pk coins)
    (fun _ => KYBER_CIPHERTEXTBYTES p ≤ ct.size ∧ KYBER_SSBYTES ≤ ss.size ∧ pk.Init 0 (KYBER_PUBLICKEYBYTES p) ∧ coins.Init 0 32) := by
  refine Post.bind post_memcpy fun buf h0 => Post.skip fun buf => Post.skip fun kr => Post.bind post_indcpa_enc fun ct' h1 => Post.bind post_memcpy fun ss' h2 => post_pure ?_
  have := h2.2.1 (by decide)
  exact ⟨h1.2.1, by rwa [Nat.zero_add] at this, h1.2.2, h0.2.2⟩

theorem dec_needs {p : ParamSet} {fuel : Nat} {ss ct sk : Mem UInt8} : Post (crypto_kem_dec p fuel ss ct sk)
    (fun _ => KYBER_SSBYTES ≤ ss.size ∧ ct.Init 0 (KYBER_CIPHERTEXTBYTES p) ∧ sk.Init 0 (KYBER_SECRETKEYBYTES p)) := by
  refine Post.bind post_indcpa_dec fun buf h0 => Post.bind post_memcpy fun buf h1 => Post.skip fun kr => Post.bind post_indcpa_enc fun cmp h2 => Post.bind post_verify fun fail h3 =>
    Post.bind post_rkprf fun ss' h4 => Post.bind post_cmov fun ss'' h5 => post_pure ⟨?_, h3, ?_⟩
  · have := h5.2 (by decide)
    rw [h4.1, Nat.zero_add] at this
    exact this
  · have a := h0.append (by rw [Nat.zero_add]; exact h2.2.2)
    have b := a.append (n' := 32) (by
      have := h1.2.2
      rwa [show KYBER_SECRETKEYBYTES p - 2 * KYBER_SYMBYTES = 0 + (KYBER_INDCPA_SECRETKEYBYTES p + KYBER_PUBLICKEYBYTES p) from by cases p <;> rfl] at this)
    have c := b.append (n' := 32) (by
      have := h4.2
      rwa [show KYBER_SECRETKEYBYTES p - KYBER_SYMBYTES = 0 + (KYBER_INDCPA_SECRETKEYBYTES p + KYBER_PUBLICKEYBYTES p + 32) from by cases p <;> rfl] at this)
    have e : KYBER_INDCPA_SECRETKEYBYTES p + KYBER_PUBLICKEYBYTES p + 32 + 32 = KYBER_SECRETKEYBYTES p := by cases p <;> rfl
    rwa [e] at c

end Verif.Proof
