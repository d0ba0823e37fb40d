import Verif.Proof.Keccak

/-! # `KeccakF1600_StatePermute` computes the 24 rounds -/

namespace Verif.Proof
open Verif.Model Verif.Spec

/-- The 25 words hold the state array `A`. -/
def StR (s : Mem UInt64) (A : KState) : Prop :=
  s.size = 25 ∧ ∀ x y : Fin 5, ∃ v, s[5 * y.val + x.val]? = some (some v) ∧ ∀ z, bit v z = A x y z

/-- Lane number `i` in memory order. -/
def laneAt (L : Lanes) (i : Nat) : UInt64 := lane L (Fin.ofNat 5 i) (Fin.ofNat 5 (i / 5))

theorem copyFromState_runs {s : Mem UInt64} {A : KState} (h : StR s A) : Runs (copyFromState s) (fun L => stateOf L = A) := by
  obtain ⟨_, h⟩ := h
  choose v hv hb using h
  unfold copyFromState
  rw [runs_bind, runs_rd_of (show s[0]? = some (some (v 0 0)) from hv 0 0)]
  rw [runs_bind, runs_rd_of (show s[1]? = some (some (v 1 0)) from hv 1 0)]
  rw [runs_bind, runs_rd_of (show s[2]? = some (some (v 2 0)) from hv 2 0)]
  rw [runs_bind, runs_rd_of (show s[3]? = some (some (v 3 0)) from hv 3 0)]
  rw [runs_bind, runs_rd_of (show s[4]? = some (some (v 4 0)) from hv 4 0)]
  rw [runs_bind, runs_rd_of (show s[5]? = some (some (v 0 1)) from hv 0 1)]
  rw [runs_bind, runs_rd_of (show s[6]? = some (some (v 1 1)) from hv 1 1)]
  rw [runs_bind, runs_rd_of (show s[7]? = some (some (v 2 1)) from hv 2 1)]
  rw [runs_bind, runs_rd_of (show s[8]? = some (some (v 3 1)) from hv 3 1)]
  rw [runs_bind, runs_rd_of (show s[9]? = some (some (v 4 1)) from hv 4 1)]
  rw [runs_bind, runs_rd_of (show s[10]? = some (some (v 0 2)) from hv 0 2)]
  rw [runs_bind, runs_rd_of (show s[11]? = some (some (v 1 2)) from hv 1 2)]
  rw [runs_bind, runs_rd_of (show s[12]? = some (some (v 2 2)) from hv 2 2)]
  rw [runs_bind, runs_rd_of (show s[13]? = some (some (v 3 2)) from hv 3 2)]
  rw [runs_bind, runs_rd_of (show s[14]? = some (some (v 4 2)) from hv 4 2)]
  rw [runs_bind, runs_rd_of (show s[15]? = some (some (v 0 3)) from hv 0 3)]
  rw [runs_bind, runs_rd_of (show s[16]? = some (some (v 1 3)) from hv 1 3)]
  rw [runs_bind, runs_rd_of (show s[17]? = some (some (v 2 3)) from hv 2 3)]
  rw [runs_bind, runs_rd_of (show s[18]? = some (some (v 3 3)) from hv 3 3)]
  rw [runs_bind, runs_rd_of (show s[19]? = some (some (v 4 3)) from hv 4 3)]
  rw [runs_bind, runs_rd_of (show s[20]? = some (some (v 0 4)) from hv 0 4)]
  rw [runs_bind, runs_rd_of (show s[21]? = some (some (v 1 4)) from hv 1 4)]
  rw [runs_bind, runs_rd_of (show s[22]? = some (some (v 2 4)) from hv 2 4)]
  rw [runs_bind, runs_rd_of (show s[23]? = some (some (v 3 4)) from hv 3 4)]
  rw [runs_bind, runs_rd_of (show s[24]? = some (some (v 4 4)) from hv 4 4)]
  rw [runs_pure]
  funext x y z
  rw [← hb]
  unfold stateOf
  refine congrArg (bit · z) ?_
  fin_cases y <;> fin_cases x <;> rfl

theorem copyToState_runs {s : Mem UInt64} (L : Lanes) (h : s.size = 25) : Runs (copyToState s L) (fun s' => StR s' (stateOf L)) := by
  unfold copyToState
  have u : s.Upd s 0 0 (laneAt L) := Mem.Upd.refl s 0 _
  rw [runs_bind]; refine runs_wr_next u (by rfl) (by omega) (by rfl) fun s0 u => ?_
  rw [runs_bind]; refine runs_wr_next u (by rfl) (by omega) (by rfl) fun s1 u => ?_
  rw [runs_bind]; refine runs_wr_next u (by rfl) (by omega) (by rfl) fun s2 u => ?_
  rw [runs_bind]; refine runs_wr_next u (by rfl) (by omega) (by rfl) fun s3 u => ?_
  rw [runs_bind]; refine runs_wr_next u (by rfl) (by omega) (by rfl) fun s4 u => ?_
  rw [runs_bind]; refine runs_wr_next u (by rfl) (by omega) (by rfl) fun s5 u => ?_
  rw [runs_bind]; refine runs_wr_next u (by rfl) (by omega) (by rfl) fun s6 u => ?_
  rw [runs_bind]; refine runs_wr_next u (by rfl) (by omega) (by rfl) fun s7 u => ?_
  rw [runs_bind]; refine runs_wr_next u (by rfl) (by omega) (by rfl) fun s8 u => ?_
  rw [runs_bind]; refine runs_wr_next u (by rfl) (by omega) (by rfl) fun s9 u => ?_
  rw [runs_bind]; refine runs_wr_next u (by rfl) (by omega) (by rfl) fun s10 u => ?_
  rw [runs_bind]; refine runs_wr_next u (by rfl) (by omega) (by rfl) fun s11 u => ?_
  rw [runs_bind]; refine runs_wr_next u (by rfl) (by omega) (by rfl) fun s12 u => ?_
  rw [runs_bind]; refine runs_wr_next u (by rfl) (by omega) (by rfl) fun s13 u => ?_
  rw [runs_bind]; refine runs_wr_next u (by rfl) (by omega) (by rfl) fun s14 u => ?_
  rw [runs_bind]; refine runs_wr_next u (by rfl) (by omega) (by rfl) fun s15 u => ?_
  rw [runs_bind]; refine runs_wr_next u (by rfl) (by omega) (by rfl) fun s16 u => ?_
  rw [runs_bind]; refine runs_wr_next u (by rfl) (by omega) (by rfl) fun s17 u => ?_
  rw [runs_bind]; refine runs_wr_next u (by rfl) (by omega) (by rfl) fun s18 u => ?_
  rw [runs_bind]; refine runs_wr_next u (by rfl) (by omega) (by rfl) fun s19 u => ?_
  rw [runs_bind]; refine runs_wr_next u (by rfl) (by omega) (by rfl) fun s20 u => ?_
  rw [runs_bind]; refine runs_wr_next u (by rfl) (by omega) (by rfl) fun s21 u => ?_
  rw [runs_bind]; refine runs_wr_next u (by rfl) (by omega) (by rfl) fun s22 u => ?_
  rw [runs_bind]; refine runs_wr_next u (by rfl) (by omega) (by rfl) fun s23 u => ?_
  refine runs_wr_next u (by rfl) (by omega) (by rfl) fun s24 u => ?_
  refine ⟨by rw [u.size, h], fun x y => ⟨lane L x y, ?_, fun z => rfl⟩⟩
  have := u.has.get0 (i := 5 * y.val + x.val) (by omega)
  rw [this]
  unfold laneAt
  have e1 : Fin.ofNat 5 (5 * y.val + x.val) = x := by apply Fin.ext; rw [Fin.val_ofNat]; omega
  have e2 : Fin.ofNat 5 ((5 * y.val + x.val) / 5) = y := by apply Fin.ext; rw [Fin.val_ofNat]; omega
  rw [e1, e2]

theorem StatePermute_runs {s : Mem UInt64} {A : KState} (h : StR s A) :
    Runs (KeccakF1600_StatePermute s) (fun s' => StR s' (keccakRounds A)) := by
  unfold KeccakF1600_StatePermute
  rw [runs_bind]
  refine (copyFromState_runs h).mono fun L hL => ?_
  rw [runs_bind]
  refine (runs_cfor (fun i L => stateOf L = (List.range (2 * i)).foldl Rnd A) (Nat.zero_le _) ?_ ?_).mono fun L' hL' => ?_
  · simpa using hL
  · intro i L' _ hi hL'
    dsimp only
    obtain ⟨c0, hc0, hb0⟩ := rc_table ⟨2 * i, by omega⟩
    obtain ⟨c1, hc1, hb1⟩ := rc_table ⟨2 * i + 1, by omega⟩
    dsimp only at *
    rw [runs_bind, runs_rd_of hc0, runs_bind, runs_rd_of hc1, runs_pure, roundEA_eq _ _ _ hb1, roundAE_eq _ _ _ hb0, hL',
      show 2 * (i + 1) = 2 * i + 1 + 1 from by omega, List.range_succ, List.range_succ]
    simp
  · have := copyToState_runs (s := s) L' h.1
    rw [hL'] at this
    exact this

end Verif.Proof
