import Verif.Proof.LeakKem
import Verif.Proof.Randombytes

/-! # Leakage of randombytes: it depends on the results of the system calls, not on the bytes -/

namespace Verif.Proof
open Verif.Model Verif.Spec

theorem ni_sysRandom {os os' : OS} {out out' : Mem UInt8} {oo n : Nat} (h : os.calls = os'.calls) :
    NI (sysRandom os out oo n) (sysRandom os' out' oo n) (fun a b => a.1 = b.1 ∧ a.2.2.calls = b.2.2.calls) := by
  unfold sysRandom
  rw [h]
  split
  · trivial
  · dsimp only
    exact NI.bind0 (by ni) fun _ _ => ni_pure ⟨rfl, rfl⟩
  · exact ni_pure ⟨rfl, rfl⟩
  · exact ni_pure ⟨rfl, rfl⟩

/-- The public part of the state of the loop. -/
def SameRand (s s' : RandSt) : Prop := s.oo = s'.oo ∧ s.outlen = s'.outlen ∧ s.aborted = s'.aborted ∧ s.os.calls = s'.os.calls

theorem ni_randBody {s s' : RandSt} (h : SameRand s s') : NI (randBody s) (randBody s') SameRand := by
  obtain ⟨out, oo, n, os, ab⟩ := s
  obtain ⟨out', oo', n', os', ab'⟩ := s'
  obtain ⟨h1, h2, h3, h4⟩ := h
  dsimp only at h1 h2 h3 h4
  subst h1 h2 h3
  unfold randBody
  refine (ni_sysRandom h4).bind fun a b hab => ?_
  obtain ⟨r, o, s⟩ := a
  obtain ⟨r', o', s'⟩ := b
  obtain ⟨e, hs⟩ := hab
  dsimp only at e hs
  subst e
  cases r with
  | err e => exact ni_cif (ni_pure ⟨rfl, rfl, rfl, hs⟩) (ni_pure ⟨rfl, rfl, rfl, hs⟩)
  | count k => exact NI.bind0 (ni_leak _) fun _ _ => NI.bind0 (ni_leak _) fun _ _ => ni_pure ⟨rfl, rfl, rfl, hs⟩

theorem ni_randombytes {os os' : OS} {out out' : Mem UInt8} {oo n : Nat} (h : os.calls = os'.calls) :
    NI (randombytes os out oo n) (randombytes os' out' oo n) (fun a b => a.isSome = b.isSome) := by
  have hs : SameRand ⟨out, oo, n, os, false⟩ ⟨out', oo, n, os', false⟩ := ⟨rfl, rfl, rfl, h⟩
  unfold randombytes
  rw [h]
  refine NI.bind (R := SameRand) (ni_cwhile SameRand hs (fun a b hab => ?_) fun a b hab => ni_randBody hab) fun a b hab => ni_pure ?_
  · rw [hab.2.1, hab.2.2.1]
  · rw [hab.2.2.1]
    split <;> rfl

end Verif.Proof
