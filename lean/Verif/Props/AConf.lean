import Verif.Model.Gen.AConfIJ
import Verif.Props.EqB0
/-!
C65 the conformal extrinsic curvature A^{ij} computed from the shift.
-/
namespace Elliptica.Extrinsic
open Elliptica.Adm Elliptica.Fields Elliptica.Gen

namespace Xcts
open Elliptica.Gen.Xcts Elliptica.Equation.Shift

/-- the symmetries of the fields at a node; the code keeps only the components in order -/
structure Sym (x : In) : Prop where
  g : Symm x.gConf_DD
  h : Symm x.igConf_UU
  c : ∀ i j k, x.ChrisConf_UDD i j k = x.ChrisConf_UDD i k j

/-- D^i β^j -/
noncomputable def DB (x : In) (i j : Fin 3) : ℝ := ∑ k, x.igConf_UU i k * cov x.ChrisConf_UDD x.beta_U x.dbeta_UD j k

theorem DB_trace (x : In) (S : Sym x) (I : Inverse x.gConf_DD x.igConf_UU) :
    ∑ i, ∑ j, x.gConf_DD i j * DB x i j = ∑ k, cov x.ChrisConf_UDD x.beta_U x.dbeta_UD k k := by
  have e : ∀ j k, ∑ i, x.igConf_UU k i * x.gConf_DD i j = if k = j then 1 else 0 := fun j k => I k j
  calc ∑ i, ∑ j, x.gConf_DD i j * DB x i j
      = ∑ j, ∑ k, (∑ i, x.igConf_UU k i * x.gConf_DD i j) * cov x.ChrisConf_UDD x.beta_U x.dbeta_UD j k := by
        simp only [DB, Fin.sum_univ_three, S.h 1 0, S.h 2 0, S.h 2 1]; ring
    _ = _ := by simp [e]

theorem DB_00 (x : In) (S : Sym x) : _DB_UU_U0U0 x = DB x 0 0 := by
  simp only [_DB_UU_U0U0, DB, cov, Fin.sum_univ_three, S.c _ 1 0, S.c _ 2 0, S.c _ 2 1, S.h 1 0, S.h 2 0, S.h 2 1]
  ring

theorem DB_01 (x : In) (S : Sym x) : _DB_UU_U0U1 x = DB x 0 1 := by
  simp only [_DB_UU_U0U1, DB, cov, Fin.sum_univ_three, S.c _ 1 0, S.c _ 2 0, S.c _ 2 1, S.h 1 0, S.h 2 0, S.h 2 1]
  ring

theorem DB_02 (x : In) (S : Sym x) : _DB_UU_U0U2 x = DB x 0 2 := by
  simp only [_DB_UU_U0U2, DB, cov, Fin.sum_univ_three, S.c _ 1 0, S.c _ 2 0, S.c _ 2 1, S.h 1 0, S.h 2 0, S.h 2 1]
  ring

theorem DB_10 (x : In) (S : Sym x) : _DB_UU_U1U0 x = DB x 1 0 := by
  simp only [_DB_UU_U1U0, DB, cov, Fin.sum_univ_three, S.c _ 1 0, S.c _ 2 0, S.c _ 2 1, S.h 1 0, S.h 2 0, S.h 2 1]
  ring

theorem DB_11 (x : In) (S : Sym x) : _DB_UU_U1U1 x = DB x 1 1 := by
  simp only [_DB_UU_U1U1, DB, cov, Fin.sum_univ_three, S.c _ 1 0, S.c _ 2 0, S.c _ 2 1, S.h 1 0, S.h 2 0, S.h 2 1]
  ring

theorem DB_12 (x : In) (S : Sym x) : _DB_UU_U1U2 x = DB x 1 2 := by
  simp only [_DB_UU_U1U2, DB, cov, Fin.sum_univ_three, S.c _ 1 0, S.c _ 2 0, S.c _ 2 1, S.h 1 0, S.h 2 0, S.h 2 1]
  ring

theorem DB_20 (x : In) (S : Sym x) : _DB_UU_U2U0 x = DB x 2 0 := by
  simp only [_DB_UU_U2U0, DB, cov, Fin.sum_univ_three, S.c _ 1 0, S.c _ 2 0, S.c _ 2 1, S.h 1 0, S.h 2 0, S.h 2 1]
  ring

theorem DB_21 (x : In) (S : Sym x) : _DB_UU_U2U1 x = DB x 2 1 := by
  simp only [_DB_UU_U2U1, DB, cov, Fin.sum_univ_three, S.c _ 1 0, S.c _ 2 0, S.c _ 2 1, S.h 1 0, S.h 2 0, S.h 2 1]
  ring

theorem DB_22 (x : In) (S : Sym x) : _DB_UU_U2U2 x = DB x 2 2 := by
  simp only [_DB_UU_U2U2, DB, cov, Fin.sum_univ_three, S.c _ 1 0, S.c _ 2 0, S.c _ 2 1, S.h 1 0, S.h 2 0, S.h 2 1]
  ring

theorem LV_00 (x : In) (S : Sym x) (I : Inverse x.gConf_DD x.igConf_UU) :
    _LV_UU_U0U0 x = killing x.igConf_UU x.ChrisConf_UDD x.beta_U x.dbeta_UD 0 0 := by
  have T := DB_trace x S I
  have e : killing x.igConf_UU x.ChrisConf_UDD x.beta_U x.dbeta_UD 0 0 = DB x 0 0 + DB x 0 0 - 2 / 3 * x.igConf_UU 0 0 *
      ∑ k, cov x.ChrisConf_UDD x.beta_U x.dbeta_UD k k := rfl
  rw [e, ← T]
  simp only [_LV_UU_U0U0, DB_00 x S, DB_01 x S, DB_02 x S, DB_10 x S, DB_11 x S, DB_12 x S, DB_20 x S, DB_21 x S, DB_22 x S,
    Fin.sum_univ_three, S.g 1 0, S.g 2 0, S.g 2 1]
  ring

theorem LV_01 (x : In) (S : Sym x) (I : Inverse x.gConf_DD x.igConf_UU) :
    _LV_UU_U0U1 x = killing x.igConf_UU x.ChrisConf_UDD x.beta_U x.dbeta_UD 0 1 := by
  have T := DB_trace x S I
  have e : killing x.igConf_UU x.ChrisConf_UDD x.beta_U x.dbeta_UD 0 1 = DB x 0 1 + DB x 1 0 - 2 / 3 * x.igConf_UU 0 1 *
      ∑ k, cov x.ChrisConf_UDD x.beta_U x.dbeta_UD k k := rfl
  rw [e, ← T]
  simp only [_LV_UU_U0U1, DB_00 x S, DB_01 x S, DB_02 x S, DB_10 x S, DB_11 x S, DB_12 x S, DB_20 x S, DB_21 x S, DB_22 x S,
    Fin.sum_univ_three, S.g 1 0, S.g 2 0, S.g 2 1]
  ring

theorem LV_02 (x : In) (S : Sym x) (I : Inverse x.gConf_DD x.igConf_UU) :
    _LV_UU_U0U2 x = killing x.igConf_UU x.ChrisConf_UDD x.beta_U x.dbeta_UD 0 2 := by
  have T := DB_trace x S I
  have e : killing x.igConf_UU x.ChrisConf_UDD x.beta_U x.dbeta_UD 0 2 = DB x 0 2 + DB x 2 0 - 2 / 3 * x.igConf_UU 0 2 *
      ∑ k, cov x.ChrisConf_UDD x.beta_U x.dbeta_UD k k := rfl
  rw [e, ← T]
  simp only [_LV_UU_U0U2, DB_00 x S, DB_01 x S, DB_02 x S, DB_10 x S, DB_11 x S, DB_12 x S, DB_20 x S, DB_21 x S, DB_22 x S,
    Fin.sum_univ_three, S.g 1 0, S.g 2 0, S.g 2 1]
  ring

theorem LV_11 (x : In) (S : Sym x) (I : Inverse x.gConf_DD x.igConf_UU) :
    _LV_UU_U1U1 x = killing x.igConf_UU x.ChrisConf_UDD x.beta_U x.dbeta_UD 1 1 := by
  have T := DB_trace x S I
  have e : killing x.igConf_UU x.ChrisConf_UDD x.beta_U x.dbeta_UD 1 1 = DB x 1 1 + DB x 1 1 - 2 / 3 * x.igConf_UU 1 1 *
      ∑ k, cov x.ChrisConf_UDD x.beta_U x.dbeta_UD k k := rfl
  rw [e, ← T]
  simp only [_LV_UU_U1U1, DB_00 x S, DB_01 x S, DB_02 x S, DB_10 x S, DB_11 x S, DB_12 x S, DB_20 x S, DB_21 x S, DB_22 x S,
    Fin.sum_univ_three, S.g 1 0, S.g 2 0, S.g 2 1]
  ring

theorem LV_12 (x : In) (S : Sym x) (I : Inverse x.gConf_DD x.igConf_UU) :
    _LV_UU_U1U2 x = killing x.igConf_UU x.ChrisConf_UDD x.beta_U x.dbeta_UD 1 2 := by
  have T := DB_trace x S I
  have e : killing x.igConf_UU x.ChrisConf_UDD x.beta_U x.dbeta_UD 1 2 = DB x 1 2 + DB x 2 1 - 2 / 3 * x.igConf_UU 1 2 *
      ∑ k, cov x.ChrisConf_UDD x.beta_U x.dbeta_UD k k := rfl
  rw [e, ← T]
  simp only [_LV_UU_U1U2, DB_00 x S, DB_01 x S, DB_02 x S, DB_10 x S, DB_11 x S, DB_12 x S, DB_20 x S, DB_21 x S, DB_22 x S,
    Fin.sum_univ_three, S.g 1 0, S.g 2 0, S.g 2 1]
  ring

theorem LV_22 (x : In) (S : Sym x) (I : Inverse x.gConf_DD x.igConf_UU) :
    _LV_UU_U2U2 x = killing x.igConf_UU x.ChrisConf_UDD x.beta_U x.dbeta_UD 2 2 := by
  have T := DB_trace x S I
  have e : killing x.igConf_UU x.ChrisConf_UDD x.beta_U x.dbeta_UD 2 2 = DB x 2 2 + DB x 2 2 - 2 / 3 * x.igConf_UU 2 2 *
      ∑ k, cov x.ChrisConf_UDD x.beta_U x.dbeta_UD k k := rfl
  rw [e, ← T]
  simp only [_LV_UU_U2U2, DB_00 x S, DB_01 x S, DB_02 x S, DB_10 x S, DB_11 x S, DB_12 x S, DB_20 x S, DB_21 x S, DB_22 x S,
    Fin.sum_univ_three, S.g 1 0, S.g 2 0, S.g 2 1]
  ring

/-- the extrinsic curvature ψ⁷/(2αψ) (Lβ)^{ij} at a node -/
noncomputable def Aof (x : In) (i j : Fin 3) : ℝ :=
  x.psi ^ 7 / (2 * x.alphaPsi) * killing x.igConf_UU x.ChrisConf_UDD x.beta_U x.dbeta_UD i j

/-- C65: the array AConfIJ holds A^{ij} = ψ⁷/(2αψ) (Lβ)^{ij} -/
theorem C65_A (x : In) (S : Sym x) (I : Inverse x.gConf_DD x.igConf_UU) (i j : Fin 3) :
    out_AConfIJ_UU x i j = stored (fun i j => x.psi ^ 7 / (2 * x.alphaPsi) * killing x.igConf_UU x.ChrisConf_UDD x.beta_U x.dbeta_UD i j) i j := by
  fin_cases i <;> fin_cases j <;> simp [stored, out_AConfIJ_UU, _A_UUij_U0U0, _A_UUij_U0U1, _A_UUij_U0U2, _A_UUij_U1U1, _A_UUij_U1U2,
    _A_UUij_U2U2, LV_00 x S I, LV_01 x S I, LV_02 x S I, LV_11 x S I, LV_12 x S I, LV_22 x S I, psi7] <;> ring

theorem A_at (x : In) (S : Sym x) (I : Inverse x.gConf_DD x.igConf_UU) :
    _A_UUij_U0U0 x = Aof x 0 0 ∧ _A_UUij_U0U1 x = Aof x 0 1 ∧ _A_UUij_U0U2 x = Aof x 0 2 ∧ _A_UUij_U1U1 x = Aof x 1 1 ∧
    _A_UUij_U1U2 x = Aof x 1 2 ∧ _A_UUij_U2U2 x = Aof x 2 2 := by
  refine ⟨?_, ?_, ?_, ?_, ?_, ?_⟩ <;> simp only [Aof, _A_UUij_U0U0, _A_UUij_U0U1, _A_UUij_U0U2, _A_UUij_U1U1, _A_UUij_U1U2,
    _A_UUij_U2U2, LV_00 x S I, LV_01 x S I, LV_02 x S I, LV_11 x S I, LV_12 x S I, LV_22 x S I, psi7] <;> ring

theorem Aof_symm (x : In) (S : Sym x) : Symm (Aof x) := by
  intro i j
  unfold Aof
  rw [killing_sym _ S.h]

/-- C65: AConfIJ2 holds A_{ij} A^{ij} -/
theorem C65_A2 (x : In) (S : Sym x) (I : Inverse x.gConf_DD x.igConf_UU) : out_AConfIJ2 x = contract x.gConf_DD (Aof x) (Aof x) := by
  obtain ⟨a, b, c, d, e, f⟩ := A_at x S I
  have y := Aof_symm x S
  simp only [out_AConfIJ2, _AijAij, a, b, c, d, e, f, contract, Fin.sum_univ_three, S.g 1 0, S.g 2 0, S.g 2 1, y 1 0, y 2 0, y 2 1]
  ring

/-- C65: A^{ij} has no trace -/
theorem C65_traceless (x : In) (S : Sym x) (I : Inverse x.gConf_DD x.igConf_UU) : ∑ i, ∑ j, x.gConf_DD i j * Aof x i j = 0 := by
  have T := DB_trace x S I
  have t3 : ∑ i, ∑ j, x.gConf_DD i j * x.igConf_UU i j = 3 := by
    have : ∑ i, ∑ j, x.gConf_DD i j * x.igConf_UU i j = ∑ i, ∑ j, x.igConf_UU i j * x.gConf_DD j i :=
      Finset.sum_congr rfl fun i _ => Finset.sum_congr rfl fun j _ => by rw [S.g i j]; ring
    rw [this]
    have : ∀ i, ∑ j, x.igConf_UU i j * x.gConf_DD j i = 1 := fun i => by rw [I i i]; simp
    simp [this]
  have e : ∀ i j, Aof x i j = x.psi ^ 7 / (2 * x.alphaPsi) * (DB x i j + DB x j i - 2 / 3 * x.igConf_UU i j *
      ∑ k, cov x.ChrisConf_UDD x.beta_U x.dbeta_UD k k) := fun _ _ => rfl
  simp only [e]
  generalize (∑ k, cov x.ChrisConf_UDD x.beta_U x.dbeta_UD k k) = D at *
  simp only [Fin.sum_univ_three] at *
  simp only [S.g 1 0, S.g 2 0, S.g 2 1] at *
  linear_combination (x.psi ^ 7 / (2 * x.alphaPsi)) * (2 * T - 2 / 3 * D * t3)

/-- the values at a node of the fields of a slice with shift b; `_dLBij` is the derivative of the Killing form -/
structure Node (s : Slice) (b : Fin 3 → Pt → ℝ) (p : Pt) (x : In) : Prop where
  psi : x.psi = s.psi p
  dpsi : ∀ i, x.dpsi_D i = pd s.psi i p
  alphaPsi : x.alphaPsi = s.alphaPsi p
  dalphaPsi : ∀ i, x.dalphaPsi_D i = pd s.alphaPsi i p
  ig : ∀ i j, x.igConf_UU i j = s.ig i j p
  chris : ∀ i j k, x.ChrisConf_UDD i j k = s.chris i j k p
  beta : ∀ i, x.beta_U i = b i p
  dbeta : ∀ i k, x.dbeta_UD i k = pd (b i) k p
  dL : ∀ i j k, x._dLBij_UUD i j k =
    pd (fun q => killing (fun i j => s.ig i j q) (fun i j k => s.chris i j k q) (fun l => b l q) (fun j k => pd (b j) k q) i j) k p

/-- C65: dAConfIJ holds the derivative of A^{ij} (by the product rule from that of Lβ) -/
theorem C65_dA (s : Slice) (b : Fin 3 → Pt → ℝ) (p : Pt) (x : In) (N : Node s b p x) (G : Good s p) (B : Smooth b p) (S : Sym x)
    (I : Inverse x.gConf_DD x.igConf_UU) (i j k : Fin 3) :
    out_dAConfIJ_UUD x i j k = if i ≤ j then some (pd (s.A b i j) k p) else none := by
  have ap := G.psi0
  have aa := G.alphaPsi0
  have key : ∀ i j, -1 / 2 * x.psi ^ 7 * (killing x.igConf_UU x.ChrisConf_UDD x.beta_U x.dbeta_UD i j *
      (-7 * x.dpsi_D k / x.psi + x.dalphaPsi_D k / x.alphaPsi) - x._dLBij_UUD i j k) / x.alphaPsi = pd (s.A b i j) k p := by
    intro i j
    have hk := killing_deriv (fun i j => (G.dig i j).has k) (fun i j l => (G.dchris i j l).has k) (fun l => (B.1 l p).has k)
      (fun l m => (B.2 l m).has k) i j
    have e1 : pd (s.A b i j) k p = _ := (A_has s p G b B i j k).deriv
    have e2 : x._dLBij_UUD i j k = _ := (N.dL i j k).trans hk.deriv
    have h1 : x.igConf_UU = fun i j => s.ig i j p := by funext i j; exact N.ig i j
    have h2 : x.ChrisConf_UDD = fun i j k => s.chris i j k p := by funext i j k; exact N.chris i j k
    have h3 : x.beta_U = fun l => b l p := by funext i; exact N.beta i
    have h4 : x.dbeta_UD = fun j k => pd (b j) k p := by funext i j; exact N.dbeta i j
    rw [e1, e2, h1, h2, h3, h4, N.psi, N.alphaPsi, N.dpsi, N.dalphaPsi]
    simp only [line_at, killing, killingD, cov, covD]
    field_simp
    ring
  revert key
  fin_cases i <;> fin_cases j <;> fin_cases k <;> intro key <;> first | rfl | skip
  all_goals
    show some _ = _
    simp only [dlAij_U0U0D0, dlAij_U0U0D1, dlAij_U0U0D2, dlAij_U0U1D0, dlAij_U0U1D1, dlAij_U0U1D2, dlAij_U0U2D0, dlAij_U0U2D1, dlAij_U0U2D2,
      dlAij_U1U1D0, dlAij_U1U1D1, dlAij_U1U1D2, dlAij_U1U2D0, dlAij_U1U2D1, dlAij_U1U2D2, dlAij_U2U2D0, dlAij_U2U2D1, dlAij_U2U2D2,
      dLnOf_alpha__U0, dLnOf_alpha__U1, dLnOf_alpha__U2, psi7_, LV_00 x S I, LV_01 x S I, LV_02 x S I, LV_11 x S I, LV_12 x S I, LV_22 x S I]
    rw [if_pos (by decide)]
    exact congrArg some (key _ _)

/-- the values at p of a slice with shift b and metric g -/
noncomputable def nodeOf (s : Slice) (b : Fin 3 → Pt → ℝ) (g : Fin 3 → Fin 3 → ℝ) (p : Pt) : In where
  psi := s.psi p
  igConf_UU := fun i j => s.ig i j p
  ChrisConf_UDD := fun i j k => s.chris i j k p
  beta_U := fun i => b i p
  dbeta_UD := fun i k => pd (b i) k p
  gConf_DD := g
  alphaPsi := s.alphaPsi p
  dpsi_D := fun i => pd s.psi i p
  dalphaPsi_D := fun i => pd s.alphaPsi i p
  _dLBij_UUD := fun i j k =>
    pd (fun q => killing (fun i j => s.ig i j q) (fun i j k => s.chris i j k q) (fun l => b l q) (fun j k => pd (b j) k q) i j) k p

-- `Good demoS 0` and `Smooth` shifts are shown in Verif/Props/EqB0.lean
example : Node demoS (fun _ q => q 0) 0 (nodeOf demoS (fun _ q => q 0) (fun i j => if i = j then 1 else 0) 0) ∧
    Sym (nodeOf demoS (fun _ q => q 0) (fun i j => if i = j then 1 else 0) 0) ∧
    Inverse (fun i j => if i = j then 1 else 0) (nodeOf demoS (fun _ q => q 0) (fun i j => if i = j then 1 else 0) 0).igConf_UU := by
  refine ⟨⟨rfl, fun _ => rfl, rfl, fun _ => rfl, fun _ _ => rfl, fun _ _ _ => rfl, fun _ => rfl, fun _ _ => rfl, fun _ _ _ => rfl⟩, ⟨?_, ?_, ?_⟩, ?_⟩
  · intro i j; simp only [nodeOf, eq_comm]
  · intro i j; simp only [nodeOf, demoS, eq_comm, and_comm]
  · intro i j k; simp only [nodeOf, demoS, and_comm]
  · intro i j; fin_cases i <;> fin_cases j <;> simp [nodeOf, demoS]

end Xcts

namespace Sctt
open Elliptica.Gen.Sctt Elliptica.Equation.Shift

/-- the symmetries of the fields at a node; the code keeps only the components in order -/
structure Sym (x : In) : Prop where
  g : Symm x.gConf_DD
  h : Symm x.igConf_UU
  c : ∀ i j k, x.ChrisConf_UDD i j k = x.ChrisConf_UDD i k j

/-- D^i β^j -/
noncomputable def DB (x : In) (i j : Fin 3) : ℝ := ∑ k, x.igConf_UU i k * cov x.ChrisConf_UDD x.beta_U x.dbeta_UD j k

theorem DB_trace (x : In) (S : Sym x) (I : Inverse x.gConf_DD x.igConf_UU) :
    ∑ i, ∑ j, x.gConf_DD i j * DB x i j = ∑ k, cov x.ChrisConf_UDD x.beta_U x.dbeta_UD k k := by
  have e : ∀ j k, ∑ i, x.igConf_UU k i * x.gConf_DD i j = if k = j then 1 else 0 := fun j k => I k j
  calc ∑ i, ∑ j, x.gConf_DD i j * DB x i j
      = ∑ j, ∑ k, (∑ i, x.igConf_UU k i * x.gConf_DD i j) * cov x.ChrisConf_UDD x.beta_U x.dbeta_UD j k := by
        simp only [DB, Fin.sum_univ_three, S.h 1 0, S.h 2 0, S.h 2 1]; ring
    _ = _ := by simp [e]

theorem DB_00 (x : In) (S : Sym x) : _DB_UU_U0U0 x = DB x 0 0 := by
  simp only [_DB_UU_U0U0, DB, cov, Fin.sum_univ_three, S.c _ 1 0, S.c _ 2 0, S.c _ 2 1, S.h 1 0, S.h 2 0, S.h 2 1]
  ring

theorem DB_01 (x : In) (S : Sym x) : _DB_UU_U0U1 x = DB x 0 1 := by
  simp only [_DB_UU_U0U1, DB, cov, Fin.sum_univ_three, S.c _ 1 0, S.c _ 2 0, S.c _ 2 1, S.h 1 0, S.h 2 0, S.h 2 1]
  ring

theorem DB_02 (x : In) (S : Sym x) : _DB_UU_U0U2 x = DB x 0 2 := by
  simp only [_DB_UU_U0U2, DB, cov, Fin.sum_univ_three, S.c _ 1 0, S.c _ 2 0, S.c _ 2 1, S.h 1 0, S.h 2 0, S.h 2 1]
  ring

theorem DB_10 (x : In) (S : Sym x) : _DB_UU_U1U0 x = DB x 1 0 := by
  simp only [_DB_UU_U1U0, DB, cov, Fin.sum_univ_three, S.c _ 1 0, S.c _ 2 0, S.c _ 2 1, S.h 1 0, S.h 2 0, S.h 2 1]
  ring

theorem DB_11 (x : In) (S : Sym x) : _DB_UU_U1U1 x = DB x 1 1 := by
  simp only [_DB_UU_U1U1, DB, cov, Fin.sum_univ_three, S.c _ 1 0, S.c _ 2 0, S.c _ 2 1, S.h 1 0, S.h 2 0, S.h 2 1]
  ring

theorem DB_12 (x : In) (S : Sym x) : _DB_UU_U1U2 x = DB x 1 2 := by
  simp only [_DB_UU_U1U2, DB, cov, Fin.sum_univ_three, S.c _ 1 0, S.c _ 2 0, S.c _ 2 1, S.h 1 0, S.h 2 0, S.h 2 1]
  ring

theorem DB_20 (x : In) (S : Sym x) : _DB_UU_U2U0 x = DB x 2 0 := by
  simp only [_DB_UU_U2U0, DB, cov, Fin.sum_univ_three, S.c _ 1 0, S.c _ 2 0, S.c _ 2 1, S.h 1 0, S.h 2 0, S.h 2 1]
  ring

theorem DB_21 (x : In) (S : Sym x) : _DB_UU_U2U1 x = DB x 2 1 := by
  simp only [_DB_UU_U2U1, DB, cov, Fin.sum_univ_three, S.c _ 1 0, S.c _ 2 0, S.c _ 2 1, S.h 1 0, S.h 2 0, S.h 2 1]
  ring

theorem DB_22 (x : In) (S : Sym x) : _DB_UU_U2U2 x = DB x 2 2 := by
  simp only [_DB_UU_U2U2, DB, cov, Fin.sum_univ_three, S.c _ 1 0, S.c _ 2 0, S.c _ 2 1, S.h 1 0, S.h 2 0, S.h 2 1]
  ring

theorem LV_00 (x : In) (S : Sym x) (I : Inverse x.gConf_DD x.igConf_UU) :
    _A_UUij_U0U0 x = killing x.igConf_UU x.ChrisConf_UDD x.beta_U x.dbeta_UD 0 0 := by
  have T := DB_trace x S I
  have e : killing x.igConf_UU x.ChrisConf_UDD x.beta_U x.dbeta_UD 0 0 = DB x 0 0 + DB x 0 0 - 2 / 3 * x.igConf_UU 0 0 *
      ∑ k, cov x.ChrisConf_UDD x.beta_U x.dbeta_UD k k := rfl
  rw [e, ← T]
  simp only [_A_UUij_U0U0, DB_00 x S, DB_01 x S, DB_02 x S, DB_10 x S, DB_11 x S, DB_12 x S, DB_20 x S, DB_21 x S, DB_22 x S,
    Fin.sum_univ_three, S.g 1 0, S.g 2 0, S.g 2 1]
  ring

theorem LV_01 (x : In) (S : Sym x) (I : Inverse x.gConf_DD x.igConf_UU) :
    _A_UUij_U0U1 x = killing x.igConf_UU x.ChrisConf_UDD x.beta_U x.dbeta_UD 0 1 := by
  have T := DB_trace x S I
  have e : killing x.igConf_UU x.ChrisConf_UDD x.beta_U x.dbeta_UD 0 1 = DB x 0 1 + DB x 1 0 - 2 / 3 * x.igConf_UU 0 1 *
      ∑ k, cov x.ChrisConf_UDD x.beta_U x.dbeta_UD k k := rfl
  rw [e, ← T]
  simp only [_A_UUij_U0U1, DB_00 x S, DB_01 x S, DB_02 x S, DB_10 x S, DB_11 x S, DB_12 x S, DB_20 x S, DB_21 x S, DB_22 x S,
    Fin.sum_univ_three, S.g 1 0, S.g 2 0, S.g 2 1]
  ring

theorem LV_02 (x : In) (S : Sym x) (I : Inverse x.gConf_DD x.igConf_UU) :
    _A_UUij_U0U2 x = killing x.igConf_UU x.ChrisConf_UDD x.beta_U x.dbeta_UD 0 2 := by
  have T := DB_trace x S I
  have e : killing x.igConf_UU x.ChrisConf_UDD x.beta_U x.dbeta_UD 0 2 = DB x 0 2 + DB x 2 0 - 2 / 3 * x.igConf_UU 0 2 *
      ∑ k, cov x.ChrisConf_UDD x.beta_U x.dbeta_UD k k := rfl
  rw [e, ← T]
  simp only [_A_UUij_U0U2, DB_00 x S, DB_01 x S, DB_02 x S, DB_10 x S, DB_11 x S, DB_12 x S, DB_20 x S, DB_21 x S, DB_22 x S,
    Fin.sum_univ_three, S.g 1 0, S.g 2 0, S.g 2 1]
  ring

theorem LV_11 (x : In) (S : Sym x) (I : Inverse x.gConf_DD x.igConf_UU) :
    _A_UUij_U1U1 x = killing x.igConf_UU x.ChrisConf_UDD x.beta_U x.dbeta_UD 1 1 := by
  have T := DB_trace x S I
  have e : killing x.igConf_UU x.ChrisConf_UDD x.beta_U x.dbeta_UD 1 1 = DB x 1 1 + DB x 1 1 - 2 / 3 * x.igConf_UU 1 1 *
      ∑ k, cov x.ChrisConf_UDD x.beta_U x.dbeta_UD k k := rfl
  rw [e, ← T]
  simp only [_A_UUij_U1U1, DB_00 x S, DB_01 x S, DB_02 x S, DB_10 x S, DB_11 x S, DB_12 x S, DB_20 x S, DB_21 x S, DB_22 x S,
    Fin.sum_univ_three, S.g 1 0, S.g 2 0, S.g 2 1]
  ring

theorem LV_12 (x : In) (S : Sym x) (I : Inverse x.gConf_DD x.igConf_UU) :
    _A_UUij_U1U2 x = killing x.igConf_UU x.ChrisConf_UDD x.beta_U x.dbeta_UD 1 2 := by
  have T := DB_trace x S I
  have e : killing x.igConf_UU x.ChrisConf_UDD x.beta_U x.dbeta_UD 1 2 = DB x 1 2 + DB x 2 1 - 2 / 3 * x.igConf_UU 1 2 *
      ∑ k, cov x.ChrisConf_UDD x.beta_U x.dbeta_UD k k := rfl
  rw [e, ← T]
  simp only [_A_UUij_U1U2, DB_00 x S, DB_01 x S, DB_02 x S, DB_10 x S, DB_11 x S, DB_12 x S, DB_20 x S, DB_21 x S, DB_22 x S,
    Fin.sum_univ_three, S.g 1 0, S.g 2 0, S.g 2 1]
  ring

theorem LV_22 (x : In) (S : Sym x) (I : Inverse x.gConf_DD x.igConf_UU) :
    _A_UUij_U2U2 x = killing x.igConf_UU x.ChrisConf_UDD x.beta_U x.dbeta_UD 2 2 := by
  have T := DB_trace x S I
  have e : killing x.igConf_UU x.ChrisConf_UDD x.beta_U x.dbeta_UD 2 2 = DB x 2 2 + DB x 2 2 - 2 / 3 * x.igConf_UU 2 2 *
      ∑ k, cov x.ChrisConf_UDD x.beta_U x.dbeta_UD k k := rfl
  rw [e, ← T]
  simp only [_A_UUij_U2U2, DB_00 x S, DB_01 x S, DB_02 x S, DB_10 x S, DB_11 x S, DB_12 x S, DB_20 x S, DB_21 x S, DB_22 x S,
    Fin.sum_univ_three, S.g 1 0, S.g 2 0, S.g 2 1]
  ring

/-- C65: with the other decomposition the array AConfIJ holds the Killing form of the vector itself -/
theorem C65_A (x : In) (S : Sym x) (I : Inverse x.gConf_DD x.igConf_UU) (i j : Fin 3) :
    out_AConfIJ_UU x i j = stored (killing x.igConf_UU x.ChrisConf_UDD x.beta_U x.dbeta_UD) i j := by
  fin_cases i <;> fin_cases j <;> simp [stored, out_AConfIJ_UU, LV_00 x S I, LV_01 x S I, LV_02 x S I, LV_11 x S I, LV_12 x S I, LV_22 x S I]

/-- C65: and AConfIJ2 its square -/
theorem C65_A2 (x : In) (S : Sym x) (I : Inverse x.gConf_DD x.igConf_UU) :
    out_AConfIJ2 x = contract x.gConf_DD (killing x.igConf_UU x.ChrisConf_UDD x.beta_U x.dbeta_UD)
      (killing x.igConf_UU x.ChrisConf_UDD x.beta_U x.dbeta_UD) := by
  have y := killing_sym x.igConf_UU S.h x.ChrisConf_UDD x.beta_U x.dbeta_UD
  simp only [out_AConfIJ2, _AijAij, LV_00 x S I, LV_01 x S I, LV_02 x S I, LV_11 x S I, LV_12 x S I, LV_22 x S I, contract,
    Fin.sum_univ_three, S.g 1 0, S.g 2 0, S.g 2 1, y 1 0, y 2 0, y 2 1]
  ring

end Sctt
end Elliptica.Extrinsic
