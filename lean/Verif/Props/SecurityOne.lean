import Verif.Proof.AnonCodes
import Verif.Props.SecurityMulti
import Verif.Props.Separate
import Verif.Spec.OneOracle

/-! # C99: ML-KEM with one random function in the place of KECCAK

The security theorems choose G and J as separate functions. By the separation of the calls one function chosen on the inputs that G and J give to KECCAK does as well, and the algorithms of FIPS 203 with it
are those of the games. -/

set_option autoImplicit false
set_option synthInstance.maxSize 1000

namespace Verif.Props
open Verif.Model (ParamSet)
open Verif.Spec Verif.Proof Finset
open Verif.Spec.Oracle (Sponge Query)

theorem byteList_inj {n : Nat} {a b : Bytes n} (h : byteList a = byteList b) : a = b := by rw [← listBytes_byteList a, h, listBytes_byteList]

theorem hash_proper (p : ParamSet) (a : HashCall (fips p)) : (hashQuery (fips p) a).Proper := by
  rcases a with d | ⟨m, h⟩ | ⟨z, c⟩
  · exact ⟨byteList_length _, by cases p <;> decide⟩
  · exact ⟨byteList_length _, byteList_length _⟩
  · exact ⟨byteList_length _, p, byteList_length _⟩

theorem mem_img {α β : Type} [Fintype α] [DecidableEq β] {g : α → β} {x : β} : x ∈ univ.image g ↔ ∃ a, g a = x := by simp

theorem mem_hashInputs (P : Params) (x : Nat × List Bool) : x ∈ hashInputs P ↔ ∃ a, (hashQuery P a).input = x := by
  unfold hashInputs
  exact mem_img

theorem hash_mem (P : Params) (a : HashCall P) : (hashQuery P a).input ∈ hashInputs P := (mem_hashInputs P _).2 ⟨a, rfl⟩

theorem sponge_hash (P : Params) (f : hashInputs P → Bytes 64) (a : HashCall P) (n : Nat) :
    oneSponge P f (hashQuery P a).input.1 (hashQuery P a).input.2 n = (h2b (byteList (f ⟨_, hash_mem P a⟩))).take n := dif_pos (hash_mem P a)

theorem sponge_other (p : ParamSet) (f : hashInputs (fips p) → Bytes 64) (q : Query) (hq : q.Proper) (hne : ∀ a, q ≠ hashQuery (fips p) a) :
    oneSponge (fips p) f q.input.1 q.input.2 = KECCAK q.input.1 q.input.2 := by
  funext n
  refine dif_neg fun h => ?_
  obtain ⟨a, e⟩ := (mem_hashInputs _ _).1 h
  exact hne a (C99_separate _ _ hq (hash_proper p a) e.symm)

/-! ## The halves of an answer -/

def halves : Bytes 64 ≃ Bytes 32 × Bytes 32 where
  toFun y := (fun i => y (Fin.castAdd 32 i), fun i => y (Fin.natAdd 32 i))
  invFun x := Fin.append x.1 x.2
  left_inv y := Fin.append_castAdd_natAdd (m := 32) (n := 32)
  right_inv x := by
    refine Prod.ext (funext fun i => ?_) (funext fun i => ?_)
    · exact Fin.append_left _ _ _
    · exact Fin.append_right _ _ _

theorem take_half (y : Bytes 64) : (byteList y).take 32 = byteList (halves y).1 := by
  refine List.ext_getElem (by simp [byteList]) fun i h1 h2 => ?_
  simp only [byteList, List.getElem_take, List.getElem_ofFn]
  rfl

theorem drop_half (y : Bytes 64) : (byteList y).drop 32 = byteList (halves y).2 := by
  refine List.ext_getElem (by simp [byteList]) fun i h1 h2 => ?_
  simp only [byteList, List.getElem_drop, List.getElem_ofFn]
  rfl

theorem answer64 (y : Bytes 64) : b2h ((h2b (byteList y)).take 512) = byteList y := by
  rw [List.take_of_length_le (by rw [h2b_length, byteList_length]), b2h_h2b]

theorem answer32 (y : Bytes 64) : b2h ((h2b (byteList y)).take (8 * 32)) = byteList (halves y).1 := by
  rw [← h2b_take, b2h_h2b, take_half]

section
variable (P : Params) (f : hashInputs P → Bytes 64)

theorem G_seed (d : Bytes 32) : Oracle.G (oneSponge P f) (byteList d ++ [UInt8.ofNat P.k]) =
    (byteList (halves (f ⟨_, hash_mem P (.inl d)⟩)).1, byteList (halves (f ⟨_, hash_mem P (.inl d)⟩)).2) := by
  have h : Oracle.SHA3_512 (oneSponge P f) (byteList d ++ [UInt8.ofNat P.k]) = byteList (f ⟨_, hash_mem P (.inl d)⟩) := (congrArg b2h (sponge_hash P f (.inl d) 512)).trans (answer64 _)
  unfold Oracle.G
  rw [h, take_half, drop_half]

theorem G_coins (m h : Bytes 32) : Oracle.G (oneSponge P f) (byteList m ++ byteList h) =
    (byteList (halves (f ⟨_, hash_mem P (.inr (.inl (m, h)))⟩)).1, byteList (halves (f ⟨_, hash_mem P (.inr (.inl (m, h)))⟩)).2) := by
  have h : Oracle.SHA3_512 (oneSponge P f) (byteList m ++ byteList h) = byteList (f ⟨_, hash_mem P (.inr (.inl (m, h)))⟩) :=
    (congrArg b2h (sponge_hash P f (.inr (.inl (m, h))) 512)).trans (answer64 _)
  unfold Oracle.G
  rw [h, take_half, drop_half]

theorem J_reject (z : Bytes 32) (c : Ciphertext P) : Oracle.J (oneSponge P f) (byteList z ++ byteList c) = byteList (halves (f ⟨_, hash_mem P (.inr (.inr (z, c)))⟩)).1 :=
  (congrArg b2h (sponge_hash P f (.inr (.inr (z, c))) (8 * 32))).trans (answer32 _)

theorem orGK_eq (d : Bytes 32) : orGK (oneSponge P f) P d = halves (f ⟨_, hash_mem P (.inl d)⟩) := by
  unfold orGK
  rw [G_seed, listBytes_byteList, listBytes_byteList]

theorem orG_eq (m h : Bytes 32) : orG (oneSponge P f) m h = halves (f ⟨_, hash_mem P (.inr (.inl (m, h)))⟩) := by
  unfold orG
  rw [G_coins, listBytes_byteList, listBytes_byteList]

theorem orJ_eq (z : Bytes 32) (c : Ciphertext P) : orJ (oneSponge P f) _ z c = (halves (f ⟨_, hash_mem P (.inr (.inr (z, c)))⟩)).1 := by
  unfold orJ
  rw [J_reject, listBytes_byteList]

end

/-! ## One function is three -/

theorem E_split {α β γ δ ε T : Type} [Fintype α] [DecidableEq α] [Fintype β] [DecidableEq β] [Fintype γ] [DecidableEq γ] [Fintype δ] [DecidableEq δ] [Fintype ε] [DecidableEq ε] [Fintype T] [Nonempty T]
    (F : (α → T × T) × (β → γ → T × T) × (δ → ε → T) → ℚ) :
    E (fun g : α ⊕ (β × γ) ⊕ (δ × ε) → T × T => F (fun a => g (.inl a), fun b c => g (.inr (.inl (b, c))), fun d e => (g (.inr (.inr (d, e)))).1)) = E F := by
  let e : (α ⊕ (β × γ) ⊕ (δ × ε) → T × T) ≃ ((α → T × T) × (β → γ → T × T) × (δ → ε → T)) × (δ → ε → T) :=
    { toFun := fun g => ((fun a => g (.inl a), fun b c => g (.inr (.inl (b, c))), fun d e => (g (.inr (.inr (d, e)))).1), fun d e => (g (.inr (.inr (d, e)))).2)
      invFun := fun x s => match s with
        | .inl a => x.1.1 a
        | .inr (.inl b) => x.1.2.1 b.1 b.2
        | .inr (.inr d) => (x.1.2.2 d.1 d.2, x.2 d.1 d.2)
      left_inv := fun g => by
        funext s
        rcases s with a | b | d <;> rfl
      right_inv := fun x => rfl }
  exact (E_equiv e fun x => F x.1).trans (E_fst F)

theorem hash_inj (P : Params) {a b : HashCall P} (h : hashQuery P a = hashQuery P b) : a = b := by
  rcases a with d | ⟨m, h⟩ | ⟨z, c⟩ <;> rcases b with d' | ⟨m', h'⟩ | ⟨z', c'⟩
  · injection h with h1 h2
    rw [byteList_inj h2]
  · cases h
  · cases h
  · cases h
  · injection h with h1 h2
    rw [byteList_inj h1, byteList_inj h2]
  · cases h
  · cases h
  · cases h
  · injection h with h1 h2
    rw [byteList_inj h1, byteList_inj h2]

/-- The calls and their inputs. -/
noncomputable def callEquiv (p : ParamSet) : HashCall (fips p) ≃ hashInputs (fips p) :=
  Equiv.ofBijective (fun a => ⟨_, hash_mem _ a⟩)
    ⟨fun a b h => hash_inj _ (C99_separate _ _ (hash_proper p a) (hash_proper p b) (congrArg Subtype.val h)), fun x => by
      obtain ⟨a, e⟩ := (mem_hashInputs _ _).1 x.2
      exact ⟨a, Subtype.ext e⟩⟩

/-- C99. A function chosen uniformly on the inputs that G and J give to KECCAK makes G on the two kinds of inputs and J three independent uniform functions: whatever depends on them has the same mean. -/
theorem C99_one (p : ParamSet) (F : (Bytes 32 → Bytes 32 × Bytes 32) × (Bytes 32 → Bytes 32 → Bytes 32 × Bytes 32) × (Bytes 32 → Ciphertext (fips p) → Bytes 32) → ℚ) :
    E (fun f : hashInputs (fips p) → Bytes 64 => F (orGK (oneSponge (fips p) f) (fips p), orG (oneSponge (fips p) f), orJ (oneSponge (fips p) f) _)) = E F := by
  rw [← E_split F, ← E_equiv (Equiv.arrowCongr (callEquiv p).symm halves)]
  refine congrArg E (funext fun f => congrArg F ?_)
  refine Prod.ext (funext fun d => orGK_eq _ f d) (Prod.ext (funext fun m => funext fun h => orG_eq _ f m h) (funext fun z => funext fun c => orJ_eq _ f z c))

/-! ## The algorithms with this function -/

section
variable (p : ParamSet) (f : hashInputs (fips p) → Bytes 64)

theorem one_H (ek : List UInt8) (h : ek.length = 384 * (fips p).k + 32) : Oracle.H (oneSponge (fips p) f) ek = H ek :=
  H_congr (O' := KECCAK) (sponge_other p f (.keyHash ek) ⟨p, h⟩ fun a e => by rcases a with d | ⟨m, h⟩ | ⟨z, c⟩ <;> cases e)

theorem one_entries (ρ : List UInt8) (h : ρ.length = 32) : SameOn (oneSponge (fips p) f) KECCAK (Oracle.entries (fips p).k ρ) := fun q hq => by
  obtain ⟨i, hi, j, hj, rfl⟩ := mem_entries.1 hq
  have hk : (fips p).k ≤ 4 := by cases p <;> decide
  exact sponge_other p f _ ⟨h, by omega, by omega⟩ fun a e => by rcases a with d | ⟨m, h⟩ | ⟨z, c⟩ <;> cases e

theorem one_noises (n : Nat) (hn : n ≤ 256) (s : List UInt8) (h : s.length = 32) : SameOn (oneSponge (fips p) f) KECCAK (Oracle.noises n s) := fun q hq => by
  obtain ⟨i, hi, rfl⟩ := mem_noises.1 hq
  exact sponge_other p f _ ⟨h, by omega⟩ fun a e => by rcases a with d | ⟨m, h⟩ | ⟨z, c⟩ <;> cases e

theorem one_encrypt (N : Nat) (t : List UInt8) (ht : t.length = 384 * (fips p).k) (ρ m r : Bytes 32) (hA : (ExpandA (fips p).k N (byteList ρ)).isSome) :
    Oracle.K_PKE_Encrypt (oneSponge (fips p) f) (fips p) N (t ++ byteList ρ) (byteList m) (byteList r) = some (byteList ((kPke (fips p) (expandMat (fips p) N)).enc (ρ, t) m r)) := by
  have hb : bytes (t ++ byteList ρ) (384 * (fips p).k) (384 * (fips p).k + 32) = byteList ρ := bytes_append_right ht (by rw [byteList_length])
  have hk : (fips p).k ≤ 4 := by cases p <;> decide
  refine Eq.trans (encrypt_congr (O' := KECCAK) (fun q hq => ?_) N _) (C80_encrypt (fips p) N ρ t ht m r hA)
  unfold Oracle.encryptCalls at hq
  rw [hb] at hq
  rcases List.mem_append.1 hq with hq | hq
  · exact one_entries p f _ (byteList_length _) q hq
  · exact one_noises p f _ (by omega) _ (byteList_length _) q hq

end

theorem keygen_other {O : Sponge} {P : Params} {d ρ σ : List UInt8} (N : Nat) (hG : Oracle.G O (d ++ [UInt8.ofNat P.k]) = (ρ, σ)) (hA : SameOn O KECCAK (Oracle.entries P.k ρ))
    (hn : SameOn O KECCAK (Oracle.noises (2 * P.k) σ)) {A : Nat → Nat → Rq} (hE : ExpandA P.k N ρ = some A) : Oracle.K_PKE_KeyGen O P N d =
    some (pkeEk P (pkeT P A (fun i => noise P.η₁ σ i) fun i => noise P.η₁ σ (P.k + i)) ++ ρ, pkeDk P fun i => noise P.η₁ σ i) := by
  unfold Oracle.K_PKE_KeyGen
  rw [hG]
  dsimp only
  have hE' : Oracle.ExpandA KECCAK P.k N ρ = some A := hE
  rcases expand_congr hA N with ⟨h1, h2⟩ | ⟨B, A', h1, h2, hA⟩
  · rw [hE'] at h2
    cases h2
  · rw [hE'] at h2
    obtain rfl := Option.some.inj h2
    rw [h1]
    have hs : ∀ i < P.k, NTT (Oracle.noise O P.η₁ σ i) = NTT (Oracle.noise KECCAK P.η₁ σ i) := fun i hi => by rw [noise_congr hn P.η₁ (by omega)]
    show some (concat P.k (fun i => ByteEncode12 (dotNTT P.k (B i) (fun i => NTT (Oracle.noise O P.η₁ σ i)) + NTT (Oracle.noise O P.η₁ σ (P.k + i)))) ++ ρ, concat P.k fun i => ByteEncode12 (NTT (Oracle.noise O P.η₁ σ i))) =
      some (concat P.k (fun i => ByteEncode12 (dotNTT P.k (A i) (fun i => NTT (Oracle.noise KECCAK P.η₁ σ i)) + NTT (Oracle.noise KECCAK P.η₁ σ (P.k + i)))) ++ ρ, concat P.k fun i => ByteEncode12 (NTT (Oracle.noise KECCAK P.η₁ σ i)))
    rw [concat_congr fun i hi => by rw [dotNTT_congr (hA i hi) hs, noise_congr hn P.η₁ (i := P.k + i) (by omega)], concat_congr (f := fun i => ByteEncode12 (NTT (Oracle.noise O P.η₁ σ i))) fun i hi => by rw [hs i hi]]

theorem dk_parts (k : Nat) (dk ek h z : List UInt8) (hd : dk.length = 384 * k) (he : ek.length = 384 * k + 32) (hh : h.length = 32) (hz : z.length = 32) :
    bytes (dk ++ ek ++ h ++ z) 0 (384 * k) = dk ∧ bytes (dk ++ ek ++ h ++ z) (384 * k) (768 * k + 32) = ek ∧ bytes (dk ++ ek ++ h ++ z) (768 * k + 32) (768 * k + 64) = h ∧
      bytes (dk ++ ek ++ h ++ z) (768 * k + 64) (768 * k + 96) = z := by
  have mid : ∀ (a b c : List UInt8) (n l : Nat), a.length = n → n + b.length = l → bytes (a ++ b ++ c) n l = b := fun a b c n l h1 h2 => by
    rw [List.append_assoc]
    unfold bytes
    rw [List.drop_append, List.drop_eq_nil_of_le (by omega), List.nil_append, h1, Nat.sub_self, List.drop_zero, List.take_append_of_le_length (by omega), List.take_of_length_le (by omega)]
  refine ⟨?_, ?_, mid _ _ _ _ _ (by simp only [List.length_append]; omega) (by omega), bytes_append_right (by simp only [List.length_append]; omega) (by omega)⟩
  · rw [List.append_assoc, List.append_assoc]
    exact bytes_append_left hd
  · rw [List.append_assoc (dk ++ ek)]
    exact mid _ _ _ _ _ hd (by omega)

/-- C99. The algorithms of the game with one function are those of FIPS 203 with this function in the place of KECCAK: key generation, encapsulation, decapsulation. -/
theorem C99_one_standard (p : ParamSet) (N : Nat) (f : hashInputs (fips p) → Bytes 64) (d z m : Bytes 32) (c : Ciphertext (fips p)) :
    let O := oneSponge (fips p) f
    let Q := kPke (fips p) (expandMat (fips p) N)
    let pk := Q.ek (orGK O (fips p) d)
    (ExpandA (fips p).k N (byteList (orGK O (fips p) d).1)).isSome →
    ∃ ek dk, Oracle.KeyGen_internal O (fips p) N (byteList d) (byteList z) = some (ek, dk) ∧ ek = pk.2 ++ byteList pk.1 ∧
      Oracle.Encaps_internal O (fips p) N ek (byteList m) = some (byteList (orG O m (stdHash pk)).1, byteList (Q.enc pk m (orG O m (stdHash pk)).2)) ∧
      Oracle.Decaps_internal O (fips p) N dk (byteList c) = some (byteList (fullDecaps Q stdHash (orGK O (fips p)) (orG O) (orJ O _) d z c)) := by
  intro O Q pk hA
  have hG := G_seed (fips p) f d
  rw [← orGK_eq] at hG
  obtain ⟨A, hE⟩ := Option.isSome_iff_exists.mp hA
  have hk : (fips p).k ≤ 4 := by cases p <;> decide
  have hK := keygen_other N hG (one_entries p f _ (byteList_length _)) (one_noises p f _ (by omega) _ (byteList_length _)) hE
  have hl : pk.2.length = 384 * (fips p).k := concat_length fun i => byteEncode12_length _
  have hek : pkeEk (fips p) (pkeT (fips p) A (fun i => noise (fips p).η₁ (byteList (orGK O (fips p) d).2) i) fun i => noise (fips p).η₁ (byteList (orGK O (fips p) d).2) ((fips p).k + i)) = pk.2 := by
    refine pkeEk_congr fun i hi => ?_
    unfold pkeT
    exact congrArg₂ (· + ·) (dotNTT_congr (fun j hj => (expandMat_eq hE hi hj).symm) fun j hj => congrArg NTT (prf_cbdVec0 hj).symm) (congrArg NTT (prf_cbdVec hi).symm)
  rw [hek] at hK
  have hdec : ∀ c, byteList (Q.dec (orGK O (fips p) d) c) = K_PKE_Decrypt (fips p) (pkeDk (fips p) fun i => noise (fips p).η₁ (byteList (orGK O (fips p) d).2) i) (byteList c) := fun c => by
    have hl : ∀ dk c, (K_PKE_Decrypt (fips p) dk c).length = 32 := fun dk c => by
      unfold K_PKE_Decrypt
      exact byteEncode_length 1 _
    have hd : pkeDk (fips p) (cbdVec (fips p).η₁ (prfKey (fips p) (orGK O (fips p) d).2).1) = pkeDk (fips p) fun i => noise (fips p).η₁ (byteList (orGK O (fips p) d).2) i :=
      concat_congr fun i hi => congrArg (fun a => ByteEncode12 (NTT a)) (prf_cbdVec0 hi)
    refine (byteList_listBytes _ (hl _ _)).trans ?_
    exact congrArg (fun dk => K_PKE_Decrypt (fips p) dk (byteList c)) hd
  have hdl : (pkeDk (fips p) fun i => noise (fips p).η₁ (byteList (orGK O (fips p) d).2) i).length = 384 * (fips p).k := concat_length fun i => byteEncode12_length _
  generalize (pkeDk (fips p) fun i => noise (fips p).η₁ (byteList (orGK O (fips p) d).2) i) = dk at hK hdec hdl
  have hel : (pk.2 ++ byteList pk.1).length = 384 * (fips p).k + 32 := by rw [List.length_append, hl, byteList_length]
  have hH : Oracle.H O (pk.2 ++ byteList pk.1) = byteList (stdHash pk) := (one_H p f _ hel).trans (byteList_listBytes _ (SHA3_256_length _)).symm
  refine ⟨pk.2 ++ byteList pk.1, dk ++ (pk.2 ++ byteList pk.1) ++ byteList (stdHash pk) ++ byteList z, ?_, rfl, ?_, ?_⟩
  · unfold Oracle.KeyGen_internal
    rw [← hH]
    exact congrArg (fun x : Option (List UInt8 × List UInt8) => x.bind fun y => some (y.1, y.2 ++ y.1 ++ Oracle.H O y.1 ++ byteList z)) hK
  · have hg := G_coins (fips p) f m (stdHash pk)
    rw [← orG_eq] at hg
    unfold Oracle.Encaps_internal
    rw [hH]
    have he := one_encrypt p f N pk.2 hl pk.1 m (orG O m (stdHash pk)).2 hA
    dsimp only
    rw [show Oracle.G O (byteList m ++ byteList (stdHash pk)) = _ from hg]
    dsimp only
    rw [show Oracle.K_PKE_Encrypt O _ _ _ _ _ = _ from he]
    rfl
  · obtain ⟨b1, b2, b3, b4⟩ := dk_parts (fips p).k dk (pk.2 ++ byteList pk.1) (byteList (stdHash pk)) (byteList z) hdl hel (byteList_length _) (byteList_length _)
    unfold Oracle.Decaps_internal
    dsimp only
    rw [b1, b2, b3, b4, ← hdec]
    unfold fullDecaps kemDecaps
    dsimp only
    have hpk : Q.ek (orGK O (fips p) d) = pk := rfl
    rw [hpk]
    generalize Q.dec (orGK O (fips p) d) c = m'
    have hg := G_coins (fips p) f m' (stdHash pk)
    rw [← orG_eq] at hg
    have he := one_encrypt p f N pk.2 hl pk.1 m' (orG O m' (stdHash pk)).2 hA
    have hj := J_reject (fips p) f z c
    rw [← orJ_eq] at hj
    rw [show Oracle.G O (byteList m' ++ byteList (stdHash pk)) = _ from hg]
    dsimp only
    rw [show Oracle.K_PKE_Encrypt O _ _ _ _ _ = _ from he, show Oracle.J O (byteList z ++ byteList c) = _ from hj]
    show some _ = some _
    refine congrArg some ?_
    by_cases hc : Q.enc pk m' (orG O m' (stdHash pk)).2 = c
    · rw [if_pos hc, if_pos (congrArg byteList hc).symm]
    · rw [if_neg hc, if_neg fun h => hc (byteList_inj h).symm]

/-! ## The game -/

/-- C99. The game with one random function in the place of KECCAK is the game of C95 with separate random functions G and J. -/
theorem C99_game {n N : Nat} (p : ParamSet) (mat : Bytes 32 → Fin (fips p).k → Fin (fips p).k → Rq) (u : Fin N → Fin n) (A : MultiAttack n N (fips p) (Bytes 32)) (sec : Fin N → Bool) :
    oneProb (fips p) mat u A sec = multiProb (kPke (fips p) mat) stdHash u A sec := by
  unfold oneProb multiProb
  rw [E_prod, E_prod (fun x : MultiCoins n N (Bytes 32) (Bytes 32 × Bytes 32) (Bytes 32) (Bytes 32) (Bytes 32) (Bytes 32) (Bytes 32) (Ciphertext (fips p)) => _)]
  refine congrArg E (funext fun keys => ?_)
  rw [E_prod]
  let G' : (Bytes 32 → Bytes 32 × Bytes 32) × (Bytes 32 → Bytes 32 → Bytes 32 × Bytes 32) × (Bytes 32 → Ciphertext (fips p) → Bytes 32) → ℚ := fun g =>
    E fun y : (Fin N → Bytes 32) × (Fin N → Bytes 32) => ind (multiRun (kPke (fips p) mat) stdHash u A sec (keys, g.1, g.2.1, g.2.2, y) = true)
  refine (C99_one p G').trans ?_
  rw [E_prod]
  conv_rhs => rw [E_prod]
  refine congrArg E (funext fun GK => ?_)
  rw [E_prod]
  conv_rhs => rw [E_prod]
  refine congrArg E (funext fun G => ?_)
  conv_rhs => rw [E_prod]

section
variable {n N : Nat} (u : Fin N → Fin n) {qK qG qJ qD : Nat}

/-- C99. So the bound of C95 holds with one random function in the place of KECCAK. ML-KEM-512. -/
theorem C99_512 (mat : Bytes 32 → Fin 2 → Fin 2 → Rq) (A : MultiAttack n N ML_KEM_512 (Bytes 32)) (h : ∀ pk c, (A pk c).Queries qK qG qJ qD) :
    |oneProb ML_KEM_512 mat u A (fun _ => true) - oneProb ML_KEM_512 mat u A fun _ => false| ≤ multiHardness ML_KEM_512 mat stdHash u A +
      N * ((2 * (qK + n) + 2 * (qJ + qD) + (qG + qD + N)) / 2 ^ 256 + 3 * (qG + qD + N + 1) * (1 / 2 ^ 123 + failDistance ML_KEM_512 mat)) := by
  have e := C99_game .k2 mat u A
  rw [show oneProb ML_KEM_512 mat u A (fun _ => true) = _ from e _, show oneProb ML_KEM_512 mat u A (fun _ => false) = _ from e _]
  exact C95_512 stdHash u mat A h

/-- C99. ML-KEM-768. -/
theorem C99_768 (mat : Bytes 32 → Fin 3 → Fin 3 → Rq) (A : MultiAttack n N ML_KEM_768 (Bytes 32)) (h : ∀ pk c, (A pk c).Queries qK qG qJ qD) :
    |oneProb ML_KEM_768 mat u A (fun _ => true) - oneProb ML_KEM_768 mat u A fun _ => false| ≤ multiHardness ML_KEM_768 mat stdHash u A +
      N * ((2 * (qK + n) + 2 * (qJ + qD) + (qG + qD + N)) / 2 ^ 256 + 3 * (qG + qD + N + 1) * (1 / 2 ^ 148 + failDistance ML_KEM_768 mat)) := by
  have e := C99_game .k3 mat u A
  rw [show oneProb ML_KEM_768 mat u A (fun _ => true) = _ from e _, show oneProb ML_KEM_768 mat u A (fun _ => false) = _ from e _]
  exact C95_768 stdHash u mat A h

/-- C99. ML-KEM-1024. -/
theorem C99_1024 (mat : Bytes 32 → Fin 4 → Fin 4 → Rq) (A : MultiAttack n N ML_KEM_1024 (Bytes 32)) (h : ∀ pk c, (A pk c).Queries qK qG qJ qD) :
    |oneProb ML_KEM_1024 mat u A (fun _ => true) - oneProb ML_KEM_1024 mat u A fun _ => false| ≤ multiHardness ML_KEM_1024 mat stdHash u A +
      N * ((2 * (qK + n) + 2 * (qJ + qD) + (qG + qD + N)) / 2 ^ 256 + 3 * (qG + qD + N + 1) * (1 / 2 ^ 161 + failDistance ML_KEM_1024 mat)) := by
  have e := C99_game .k4 mat u A
  rw [show oneProb ML_KEM_1024 mat u A (fun _ => true) = _ from e _, show oneProb ML_KEM_1024 mat u A (fun _ => false) = _ from e _]
  exact C95_1024 stdHash u mat A h

end

/-! ## Concrete cases -/

/-- The function that answers all calls with the first 32 bytes of G(0 ‖ 2), which give a matrix, and 32 bytes 0. -/
example (d z m : Bytes 32) (c : Ciphertext ML_KEM_512) : ∃ (f : hashInputs ML_KEM_512 → Bytes 64) (ek dk : List UInt8) (K r : Bytes 32),
    Oracle.KeyGen_internal (oneSponge ML_KEM_512 f) ML_KEM_512 168 (byteList d) (byteList z) = some (ek, dk) ∧
    Oracle.Encaps_internal (oneSponge ML_KEM_512 f) ML_KEM_512 168 ek (byteList m) =
      some (byteList K, byteList ((kPke ML_KEM_512 (expandMat ML_KEM_512 168)).enc ((kPke ML_KEM_512 (expandMat ML_KEM_512 168)).ek (K, r)) m r)) ∧
    Oracle.Decaps_internal (oneSponge ML_KEM_512 f) ML_KEM_512 168 dk (byteList c) = some (byteList K) := by
  obtain ⟨A, hA⟩ := kat_expandA
  obtain ⟨ρ, hρ⟩ : ∃ ρ : Bytes 32, byteList ρ = katRho := ⟨listBytes 32 katRho, byteList_listBytes _ rfl⟩
  obtain ⟨f, hf⟩ : ∃ f : hashInputs ML_KEM_512 → Bytes 64, ∀ x, halves (f x) = (ρ, fun _ => 0) := ⟨fun _ => halves.symm (ρ, fun _ => 0), fun _ => halves.apply_symm_apply _⟩
  have h1 : ∀ d, orGK (oneSponge ML_KEM_512 f) ML_KEM_512 d = (ρ, fun _ => 0) := fun d => by rw [orGK_eq, hf]
  have h2 : ∀ m h, orG (oneSponge ML_KEM_512 f) m h = (ρ, fun _ => 0) := fun m h => by rw [orG_eq, hf]
  have h3 : ∀ z (c : Ciphertext ML_KEM_512), orJ (oneSponge ML_KEM_512 f) _ z c = ρ := fun z c => by rw [orJ_eq, hf]
  obtain ⟨ek, dk, e1, -, e3, e4⟩ := C99_one_standard .k2 168 f d z m c (by
    show (ExpandA 2 168 (byteList (orGK (oneSponge ML_KEM_512 f) ML_KEM_512 d).1)).isSome
    rw [h1, hρ, hA]
    rfl)
  refine ⟨f, ek, dk, ρ, fun _ => 0, e1, e3.trans ?_, e4.trans ?_⟩
  · exact congrArg₂ (fun g k : Bytes 32 × Bytes 32 => some (byteList g.1, byteList ((kPke ML_KEM_512 (expandMat ML_KEM_512 168)).enc ((kPke ML_KEM_512 (expandMat ML_KEM_512 168)).ek k) m g.2))) (h2 _ _) (h1 d)
  · refine congrArg (fun x => some (byteList x)) ?_
    unfold fullDecaps kemDecaps
    dsimp only
    split
    · exact congrArg Prod.fst (h2 _ _)
    · exact h3 z c

theorem E_hit {α β γ δ ε T : Type} [Fintype α] [DecidableEq α] [Fintype β] [DecidableEq β] [Fintype γ] [DecidableEq γ] [Fintype δ] [DecidableEq δ] [Fintype ε] [DecidableEq ε] [Fintype T] [Nonempty T]
    (b : β) (c : γ) (d : δ) (e : ε) : E (fun x : (α → T × T) × (β → γ → T × T) × (δ → ε → T) => ind (x.2.2 d e = (x.2.1 b c).1)) = 1 / Fintype.card T := by
  rw [E_prod, E_const (α := α → T × T) (E fun y : (β → γ → T × T) × (δ → ε → T) => ind (y.2 d e = (y.1 b c).1)), E_prod]
  refine (congrArg E (funext fun g => ?_)).trans (E_const (α := β → γ → T × T) _)
  rw [E_coord d fun j : ε → T => ind (j e = (g b c).1), E_coord e fun k : T => ind (k = (g b c).1)]
  classical
  have h : (∑ x : T, ind (x = (g b c).1)) = 1 := (Finset.sum_congr rfl fun x _ => show ind (x = (g b c).1) = if x = (g b c).1 then 1 else 0 by unfold ind; congr).trans (by simp)
  unfold E
  rw [h]

/-- J has each value with the same probability, and so independently of what G gives. -/
example (p : ParamSet) (z m h : Bytes 32) (c : Ciphertext (fips p)) : E (fun f : hashInputs (fips p) → Bytes 64 => ind (orJ (oneSponge (fips p) f) _ z c = (orG (oneSponge (fips p) f) m h).1)) = 1 / 2 ^ 256 := by
  refine (C99_one p fun g => ind (g.2.2 z c = (g.2.1 m h).1)).trans ((E_hit m h z c).trans ?_)
  rw [Fintype.card_fun, Fintype.card_fin, Fintype.card_fin]
  norm_num

/-- The attack of C95 with three encapsulations for two key pairs. -/
example (N : Nat) (u : Fin 3 → Fin 2) : |oneProb ML_KEM_768 (expandMat ML_KEM_768 N) u (thriceAttack ML_KEM_768) (fun _ => true) - oneProb ML_KEM_768 (expandMat ML_KEM_768 N) u (thriceAttack ML_KEM_768) fun _ => false| ≤
    multiHardness ML_KEM_768 (expandMat ML_KEM_768 N) stdHash u (thriceAttack ML_KEM_768) + 45 / 2 ^ 256 + 54 * (1 / 2 ^ 148 + failDistance ML_KEM_768 (expandMat ML_KEM_768 N)) := by
  have := C99_768 (qK := 1) (qG := 1) (qJ := 1) (qD := 1) u (expandMat ML_KEM_768 N) (thriceAttack ML_KEM_768)
    fun _ _ => ⟨0, rfl, fun _ => ⟨0, rfl, fun _ _ => ⟨0, rfl, fun _ => ⟨0, rfl, fun _ => trivial⟩⟩⟩⟩
  refine this.trans_eq ?_
  push_cast
  ring

end Verif.Props
