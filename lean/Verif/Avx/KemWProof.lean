import Verif.Avx.KemW
import Verif.Avx.Needs
import Verif.Avx.KemProof
import Verif.Avx.RejBmiProof

/-! # The AVX2 calls do not depend on the variant of the rejection sampling -/

namespace Verif

/-- Two runs with the same outcome: the same value, the same kind of undefined behaviour, or both still running. The traces may differ. -/
def SameRes {α : Type} (m m' : C α) : Prop :=
  match m, m' with
  | .ok v _, .ok w _ => v = w
  | .ub u, .ub u' => u = u'
  | .diverge, .diverge => True
  | _, _ => False

theorem SameRes.refl {α : Type} (m : C α) : SameRes m m := by cases m <;> simp [SameRes]

theorem SameRes.bind {α β : Type} {m m' : C α} {f g : α → C β} {Q : α → Prop} (h : SameRes m m') (hQ : Post m Q) (hf : ∀ v, Q v → SameRes (f v) (g v)) :
    SameRes (m >>= f) (m' >>= g) := by
  show SameRes (C.bind m f) (C.bind m' g)
  cases m with
  | ok v t => cases m' with
    | ok w t' =>
      have e : v = w := h
      subst e
      have := hf v hQ
      simp only [C.bind]
      revert this
      cases f v <;> cases g v <;> simp [SameRes]
    | ub u => exact h.elim
    | diverge => exact h.elim
  | ub u => cases m' with
    | ok w t' => exact h.elim
    | ub u' => exact h
    | diverge => exact h.elim
  | diverge => cases m' with
    | ok w t' => exact h.elim
    | ub u' => exact h.elim
    | diverge => trivial

theorem SameRes.next {α β : Type} {m : C α} {f g : α → C β} {Q : α → Prop} (hQ : Post m Q) (hf : ∀ v, Q v → SameRes (f v) (g v)) : SameRes (m >>= f) (m >>= g) :=
  SameRes.bind (SameRes.refl m) hQ hf

theorem SameRes.skip {α β : Type} {m : C α} {f g : α → C β} (hf : ∀ v, SameRes (f v) (g v)) : SameRes (m >>= f) (m >>= g) :=
  SameRes.next (Q := fun _ => True) (Post.all fun _ => trivial) fun v _ => hf v

theorem SameRes.fst {α β : Type} {m m' : C α} {f : α → C β} (h : SameRes m m') : SameRes (m >>= f) (m' >>= f) :=
  SameRes.bind (Q := fun _ => True) h (Post.all fun _ => trivial) fun _ _ => SameRes.refl _

theorem SameRes.runs {α : Type} {m m' : C α} {Q : α → Prop} (h : SameRes m m') (hr : Runs m Q) : Runs m' Q := by
  obtain ⟨v, t, rfl, hv⟩ := hr.exists_ok
  cases m' with
  | ok w t' => rw [show v = w from h] at hv; exact hv
  | ub u => exact h.elim
  | diverge => exact h.elim

theorem SameRes.diverge {α : Type} {m m' : C α} (h : SameRes m m') (hr : m = .diverge) : m' = .diverge := by
  subst hr
  cases m' with
  | ok w t' => exact h.elim
  | ub u => exact h.elim
  | diverge => rfl

theorem post_of_runs {α : Type} {m : C α} {Q : α → Prop} (h : Runs m Q) : Post m Q := by
  obtain ⟨v, t, rfl, hv⟩ := h.exists_ok
  exact hv

namespace Avx
open Verif.Spec Verif.Proof
open Verif.Model (ParamSet KYBER_K KYBER_N Poly Polyvec KYBER_SYMBYTES KYBER_POLYVECBYTES hash_g Polyvec.uninit Matrix.uninit)

theorem mem_ext {q q' : Mem Int16} {n : Nat} (h : q.size = n) (h' : q'.size = n) (e : ∀ m, m < n → q[m]? = q'[m]?) : q = q' := by
  apply Array.ext_getElem?
  intro i
  by_cases hi : i < n
  · exact e i hi
  · rw [Array.getElem?_eq_none (by omega), Array.getElem?_eq_none (by omega)]

/-- Canonical entries determine the matrix. -/
theorem matV_unique {k : Nat} {a b : Array Polyvec} {A : Nat → Nat → Rq} (ha : MatV k a A) (hb : MatV k b A) : a = b := by
  apply Array.ext_getElem?
  intro i
  by_cases hi : i < k
  · obtain ⟨v, hv, hvs⟩ := ha.mat.row i hi
    obtain ⟨w, hw, hws⟩ := hb.mat.row i hi
    rw [hv, hw]
    congr 1
    apply Array.ext_getElem?
    intro j
    by_cases hj : j < k
    · obtain ⟨v', q, h1, h2, hs, h3⟩ := ha.ent i j hi hj trivial
      obtain ⟨w', q', h4, h5, hs', h6⟩ := hb.ent i j hi hj trivial
      rw [hv] at h1
      rw [hw] at h4
      cases h1
      cases h4
      rw [h2, h5]
      congr 1
      refine mem_ext hs hs' fun m hm => ?_
      obtain ⟨x, e1, e2⟩ := h3 m hm
      obtain ⟨x', e3, e4⟩ := h6 m hm
      rw [e1, e3, Int16.toInt_inj.1 (e2.trans e4.symm)]
    · rw [Array.getElem?_eq_none (by rw [hvs.size]; omega), Array.getElem?_eq_none (by rw [hws.size]; omega)]
  · rw [Array.getElem?_eq_none (by rw [ha.mat.size]; omega), Array.getElem?_eq_none (by rw [hb.mat.size]; omega)]

variable {rej rej' : Rej} (h1 : RejSpec rej) (h2 : RejSpec rej')

include h1 h2

theorem same_gen_matrix {p : ParamSet} {junk : Fin 4 → Nat → UInt8} {fuel : Nat} {a : Array Polyvec} (ha : MatSz (KYBER_K p) a) {seed : Mem UInt8} {so : Nat} (hs : seed.Init so 32)
    {tr : Bool} : SameRes (gen_matrixW rej p junk fuel a seed so tr) (gen_matrixW rej' p junk fuel a seed so tr) := by
  obtain ⟨ρ, hl, hρ⟩ := hs.holds
  have h := gen_matrixW_runsG h1 (junk := junk) (fuel := fuel) (ρ := ρ) tr ha hρ hl
  have h' := gen_matrixW_runsG h2 (junk := junk) (fuel := fuel) (ρ := ρ) tr ha hρ hl
  by_cases c : ∀ i, i < KYBER_K p → ∀ j, j < KYBER_K p → (SampleNTT (iters fuel) (entrySeed ρ tr i j)).isSome
  · obtain ⟨b, t, e, hb⟩ := (h.1 c).exists_ok
    obtain ⟨b', t', e', hb'⟩ := (h'.1 c).exists_ok
    rw [e, e']
    exact matV_unique hb hb'
  · rw [h.2 c, h'.2 c]
    trivial

theorem same_indcpa_enc {p : ParamSet} {junk : Nat → Fin 4 → Nat → UInt8} {fuel : Nat} {c m : Mem UInt8} {mo : Nat} {pk : Mem UInt8} {po : Nat} {coins : Mem UInt8} {co : Nat} :
    SameRes (indcpa_encW rej p junk fuel c m mo pk po coins co) (indcpa_encW rej' p junk fuel c m mo pk po coins co) := by
  unfold indcpa_encW
  refine SameRes.next (Q := fun s => s.2.Init 0 32) ?_ fun s hs => SameRes.skip fun k => SameRes.fst (same_gen_matrix h1 h2 (matSz_uninit p) hs)
  unfold unpack_pk
  refine Post.skip fun v => Post.bind (P := fun s : Mem UInt8 => s.Init 0 32) ?_ fun s hs => post_pure hs
  by_cases hi : pk.Init (po + KYBER_POLYVECBYTES p) 32
  · obtain ⟨ρ, hl, hρ⟩ := hi.holds
    refine post_of_runs ((runs_memcpy_str (dst := Mem.uninit UInt8 KYBER_SYMBYTES) (doff := 0) hρ hl (by rw [Mem.size_uninit]; decide)).mono fun s hs => ?_)
    rw [← hl]
    exact hs.holds.init
  · exact post_memcpy.mono fun s hs => absurd hs.2.2 hi

theorem same_indcpa_keypair {p : ParamSet} {junk : Nat → Fin 4 → Nat → UInt8} {fuel : Nat} {pk sk coins : Mem UInt8} :
    SameRes (indcpa_keypair_derandW rej p junk fuel pk sk coins) (indcpa_keypair_derandW rej' p junk fuel pk sk coins) := by
  unfold indcpa_keypair_derandW
  dsimp only
  have hsym : KYBER_SYMBYTES = 32 := rfl
  rw [hsym]
  by_cases hi : coins.Init 0 32
  · obtain ⟨d, hl, hd⟩ := hi.holds
    refine SameRes.next (post_of_runs (runs_memcpy_str (dst := Mem.uninit UInt8 (2 * 32)) (doff := 0) hd hl (by decide))) fun b1 hb1 => ?_
    refine SameRes.next (post_of_runs (runs_wr_str (i := 32) (UInt8.ofNat (KYBER_K p)) (show 32 < b1.size by rw [hb1.size, Mem.size_uninit]; omega))) fun b2 hb2 => ?_
    have ha : (Mem.uninit UInt8 (2 * 32)).Wrote b2 0 (d ++ [UInt8.ofNat (KYBER_K p)]) := hb1.append (by rwa [hl, Nat.zero_add])
    refine SameRes.next (post_of_runs (hash_g_runs (h := b2) (ho := 0) ha.holds (by rw [List.length_append, hl]; rfl) (by rw [ha.size, Mem.size_uninit]))) fun b3 hb3 => ?_
    obtain ⟨_, hρ, _⟩ := hb3
    refine SameRes.fst (same_gen_matrix h1 h2 (matSz_uninit p) ?_)
    have := hρ.init
    rwa [G_fst_length] at this
  · exact SameRes.next (post_memcpy.mono fun s hs => hs.2.2) fun _ h => absurd h hi

theorem same_keypair {p : ParamSet} {junk : Nat → Fin 4 → Nat → UInt8} {fuel : Nat} {pk sk coins : Mem UInt8} :
    SameRes (crypto_kem_keypair_derandW rej p junk fuel pk sk coins) (crypto_kem_keypair_derandW rej' p junk fuel pk sk coins) :=
  SameRes.fst (same_indcpa_keypair h1 h2)

theorem same_enc {p : ParamSet} {junk : Nat → Fin 4 → Nat → UInt8} {fuel : Nat} {ct ss pk coins : Mem UInt8} :
    SameRes (crypto_kem_enc_derandW rej p junk fuel ct ss pk coins) (crypto_kem_enc_derandW rej' p junk fuel ct ss pk coins) :=
  SameRes.skip fun _ => SameRes.skip fun _ => SameRes.skip fun _ => SameRes.fst (same_indcpa_enc h1 h2)

theorem same_dec {p : ParamSet} {junk : Nat → Fin 4 → Nat → UInt8} {fuel : Nat} {ss ct sk : Mem UInt8} :
    SameRes (crypto_kem_decW rej p junk fuel ss ct sk) (crypto_kem_decW rej' p junk fuel ss ct sk) :=
  SameRes.skip fun _ => SameRes.skip fun _ => SameRes.skip fun _ => SameRes.fst (same_indcpa_enc h1 h2)

end Avx
end Verif
