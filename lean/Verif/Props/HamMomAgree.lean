import Verif.Props.HamMom
import Verif.Lemmas.ConformalField
import Verif.Props.EqPsi
import Verif.Props.EqB0
/-!
C66 the two ways of measuring the constraints agree, and the residuals of the elliptic equations are these constraints.
-/
namespace Elliptica.Constraints
open Elliptica.Adm Elliptica.DiffGeom Elliptica.Gen Elliptica.Fields Elliptica.Conformal Elliptica.Extrinsic

/-- the first routine reads the fields of the slice at p: physical metric, its connection, K^{ij}, with exact derivatives -/
structure NodeS (s : Slice) (p : Pt) (x : HamScratch.In) : Prop where
  psi : x.psi = s.psi p
  g : ∀ i j, x.adm_g_DD i j = s.gam i j p
  ig : ∀ i j, x.adm_ig_UU i j = s.gamI i j p
  KK : ∀ i j, x.adm_KIJ_UU i j = s.KK i j p
  dKK : ∀ i j k, x.dadm_KIJ_UUD i j k = pd (s.KK i j) k p
  c : ∀ i j k, x.Gamma_UDD i j k = s.gconn i j k p
  dc : ∀ i j k l, x.dGamma_UDDD i j k l = pd (s.gconn i j k) l p
  K : x.trK = s.K p
  dK : ∀ i, x.dtrK_D i = pd s.K i p

/-- the second routine reads the conformal fields of the slice at p, with exact derivatives -/
structure NodeI (s : Slice) (p : Pt) (y : HamIdent.In) : Prop where
  psi : y.psi = s.psi p
  dpsi : ∀ i, y.dpsi_D i = pd s.psi i p
  ddpsi : ∀ i j, y.ddpsi_DD i j = pd (pd s.psi i) j p
  g : ∀ i j, y.gConf_DD i j = s.g i j p
  ig : ∀ i j, y.igConf_UU i j = s.h i j p
  dig : ∀ i j k, y.digConf_UUD i j k = pd (s.h i j) k p
  c : ∀ i j k, y.ChrisConf_UDD i j k = s.conn i j k p
  R : y.trRicciConf = ∑ i, ∑ j, s.h i j p * ricci (fun i j k => s.conn i j k p) (fun i j k l => pd (s.conn i j k) l p) i j
  A : ∀ i j, y.AConfIJ_UU i j = s.A i j p
  dA : ∀ i j k, y.dAConfIJ_UUD i j k = pd (s.A i j) k p
  K : y.trK = s.K p
  dK : ∀ i, y.dtrK_D i = pd s.K i p

theorem Slice.Good.KK_symm {s : Slice} {p : Pt} (G : s.Good p) (i j : Fin 3) : s.KK i j = s.KK j i := by
  funext q
  unfold Slice.KK Kup
  simp only []
  rw [show s.A i j q = s.A j i q from G.As q i j, show s.h i j q = s.h j i q from G.hs q i j]

theorem Slice.Good.gconn_symm {s : Slice} {p : Pt} (G : s.Good p) (i j k : Fin 3) : s.gconn i j k = s.gconn i k j := by
  rw [G.gconn_eq, G.gconn_eq]
  funext q
  rw [G.conn_symm, diffC_symm (G.gs q)]

theorem symS {s : Slice} {p : Pt} {x : HamScratch.In} (N : NodeS s p x) (G : s.Good p) : SymS x where
  g := fun i j => by rw [N.g, N.g]; unfold Slice.gam; rw [show s.g i j p = s.g j i p from G.gs p i j]
  h := fun i j => by rw [N.ig, N.ig]; unfold Slice.gamI; rw [show s.h i j p = s.h j i p from G.hs p i j]
  K := fun i j => by rw [N.KK, N.KK, G.KK_symm]
  dK := fun i j k => by rw [N.dKK, N.dKK, G.KK_symm]
  c := fun i j k => by rw [N.c, N.c, G.gconn_symm]
  dc := fun i j k l => by rw [N.dc, N.dc, G.gconn_symm]
  grad := fun i j => by
    simp only [N.dc, G.gconn_pd, Finset.sum_add_distrib]
    rw [G.grad i j]
    congr 1
    have C := G.compat
    -- the trace of the difference is 6 L
    have tr : ∀ i j, ∑ k, diffCd (fun i j => s.g i j p) (fun i j => s.h i j p) (fun i j k => pd (s.g i j) k p) (fun i j k => pd (s.h i j) k p)
        (fun l => s.L l p) (s.M p) k i k j = 6 * s.M p i j := by
      intro i j
      have lowV : ∀ q i, ∑ k, s.g i k q * up (fun i j => s.h i j q) (fun l => s.L l q) k = s.L i q := by
        intro q i
        have : ∑ k, s.g i k q * up (fun i j => s.h i j q) (fun l => s.L l q) k = ∑ l, (∑ k, s.g i k q * s.h k l q) * s.L l q := by
          simp only [up, Fin.sum_univ_three]; ring
        rw [this]
        have hr : ∀ i j, ∑ k, s.g i k q * s.h k j q = kd i j := inv_right (G.gs q) (G.hs q) (G.inv q)
        simp [hr, kd]
      have hd : HasDerivAt (fun t => ∑ k, line (s.g i k) j p t * ∑ l, line (s.h k l) j p t * line (s.L l) j p t)
          (∑ k, (pd (s.g i k) j p * up (fun i j => s.h i j p) (fun l => s.L l p) k +
            s.g i k p * ∑ l, (pd (s.h k l) j p * s.L l p + s.h k l p * s.M p l j))) (p j) := by
        refine HasDerivAt.fun_sum fun k _ => ?_
        have hup : HasDerivAt (fun t => ∑ l, line (s.h k l) j p t * line (s.L l) j p t)
            (∑ l, (pd (s.h k l) j p * s.L l p + s.h k l p * s.M p l j)) (p j) := by
          refine HasDerivAt.fun_sum fun l _ => ?_
          exact (((G.dh k l).has j).mul (G.L_has l j)).congr_deriv (by simp only [line_at])
        exact (((G.dg i k p).has j).mul hup).congr_deriv (by simp only [line_at, up])
      have e : (fun t => ∑ k, line (s.g i k) j p t * ∑ l, line (s.h k l) j p t * line (s.L l) j p t) = line (s.L i) j p := by
        funext t
        exact lowV _ i
      rw [e] at hd
      have u := hd.unique (G.L_has i j)
      have e2 : ∑ k, diffCd (fun i j => s.g i j p) (fun i j => s.h i j p) (fun i j k => pd (s.g i j) k p) (fun i j k => pd (s.h i j) k p)
        (fun l => s.L l p) (s.M p) k i k j = 8 * s.M p i j - 2 * ∑ k, (pd (s.g i k) j p * up (fun i j => s.h i j p) (fun l => s.L l p) k +
            s.g i k p * ∑ l, (pd (s.h k l) j p * s.L l p + s.h k l p * s.M p l j)) := by
        unfold diffCd
        generalize up (fun i j => s.h i j p) (fun l => s.L l p) = V
        generalize (fun k => ∑ l, (pd (s.h k l) j p * s.L l p + s.h k l p * s.M p l j)) = W
        simp only [Fin.sum_univ_three]
        fin_cases i <;> simp [kd] <;> ring
      rw [e2, u]; ring
    rw [tr, tr, G.M_symm]

theorem symI {s : Slice} {p : Pt} {y : HamIdent.In} (N : NodeI s p y) (G : s.Good p) : SymI y where
  g := fun i j => by rw [N.g, N.g]; exact G.gs p i j
  h := fun i j => by rw [N.ig, N.ig]; exact G.hs p i j
  A := fun i j => by rw [N.A, N.A]; exact G.As p i j
  dA := fun i j k => by rw [N.dA, N.dA, show s.A i j = s.A j i from funext fun q => G.As q i j]
  dh := fun i j k => by rw [N.dig, N.dig, show s.h i j = s.h j i from funext fun q => G.hs q i j]
  c := fun i j k => by rw [N.c, N.c, G.conn_symm]
  d := fun i j => by rw [N.ddpsi, N.ddpsi, G.psi2]

/-- the Ricci scalar of the physical metric -/
theorem ricci_phys {s : Slice} {p : Pt} (G : s.Good p) :
    ∑ i, ∑ j, s.gamI i j p * ricci (fun i j k => s.gconn i j k p) (fun i j k l => pd (s.gconn i j k) l p) i j =
      ((∑ i, ∑ j, s.h i j p * ricci (fun i j k => s.conn i j k p) (fun i j k l => pd (s.conn i j k) l p) i j) -
        8 * Xcts.laplace (fun i j => s.h i j p) (fun i j k => s.conn i j k p) (fun i => pd s.psi i p) (fun i j => pd (pd s.psi i) j p) / s.psi p) /
        s.psi p ^ 4 := by
  have h0 := G.psi0 p
  have R := ricci_conf G.compat (fun l => s.L l p) (s.M p) (fun i j k l => pd (s.conn i j k) l p)
  have e1 : (fun i j k => s.gconn i j k p) = fun i j k => s.conn i j k p +
      diffC (fun i j => s.g i j p) (fun i j => s.h i j p) (fun l => s.L l p) i j k := by
    funext i j k; rw [G.gconn_eq]
  have e2 : (fun i j k l => pd (s.gconn i j k) l p) = fun i j k m => pd (s.conn i j k) m p +
      diffCd (fun i j => s.g i j p) (fun i j => s.h i j p) (fun i j k => pd (s.g i j) k p) (fun i j k => pd (s.h i j) k p) (fun l => s.L l p) (s.M p) i j k m := by
    funext i j k m; rw [G.gconn_pd]
  rw [← e1, ← e2] at R
  have e3 : ∑ i, ∑ j, s.gamI i j p * ricci (fun i j k => s.gconn i j k p) (fun i j k l => pd (s.gconn i j k) l p) i j =
      (∑ i, ∑ j, s.h i j p * ricci (fun i j k => s.gconn i j k p) (fun i j k l => pd (s.gconn i j k) l p) i j) / s.psi p ^ 4 := by
    unfold Slice.gamI
    simp only [Fin.sum_univ_three]
    ring
  have e4 : (∑ i, ∑ j, s.h i j p * covL (fun i j k => s.conn i j k p) (fun l => s.L l p) (s.M p) i j) + ∑ i, ∑ j, s.h i j p * (s.L i p * s.L j p) =
      Xcts.laplace (fun i j => s.h i j p) (fun i j k => s.conn i j k p) (fun i => pd s.psi i p) (fun i j => pd (pd s.psi i) j p) / s.psi p := by
    simp only [covL, Xcts.laplace, Slice.L, Slice.M, Fin.sum_univ_three]
    field_simp
    ring
  rw [e3, R, mul_div_assoc, ← e4]
  ring

theorem contract_phys (psi : ℝ) (g h A : T2) (K : ℝ) (hp : psi ≠ 0) :
    contract (fun i j => psi ^ 4 * g i j) (Kup psi A h K) (Kup psi A h K) =
      contract g (fun i j => A i j / psi ^ 6 + h i j * K / 3) (fun i j => A i j / psi ^ 6 + h i j * K / 3) := by
  unfold contract
  refine Finset.sum_congr rfl fun i _ => Finset.sum_congr rfl fun j _ => Finset.sum_congr rfl fun k _ => Finset.sum_congr rfl fun l _ => ?_
  have e : ∀ i j, A i j / psi ^ 6 + h i j * K / 3 = psi ^ 4 * Kup psi A h K i j := by
    intro i j; unfold Kup; field_simp
  simp only [e]
  ring

/-- C66: the Hamiltonian constraint measured from the physical metric is the one measured with the conformal identities, times the weight -/
theorem C66_agree_ham (s : Slice) (p : Pt) (G : s.Good p) (x : HamScratch.In) (y : HamIdent.In) (X : NodeS s p x) (Y : NodeI s p y)
    (E : x.EConfP = x.EConfC * y.EConf) : HamScratch.out_ham x = x.EConfC * HamIdent.out_ham y := by
  rw [C66_scratch_ham x (symS X G), C66_ident_ham y (symI Y G)]
  have h1 : ∑ i, ∑ j, x.adm_ig_UU i j * ricci x.Gamma_UDD x.dGamma_UDDD i j =
      ∑ i, ∑ j, s.gamI i j p * ricci (fun i j k => s.gconn i j k p) (fun i j k l => pd (s.gconn i j k) l p) i j := by
    rw [show x.Gamma_UDD = fun i j k => s.gconn i j k p from by funext i j k; exact X.c i j k,
      show x.dGamma_UDDD = fun i j k l => pd (s.gconn i j k) l p from by funext i j k l; exact X.dc i j k l]
    simp only [X.ig]
  have h2 : contract x.adm_g_DD x.adm_KIJ_UU x.adm_KIJ_UU =
      contract y.gConf_DD (fun i j => y.AConfIJ_UU i j / y.psi ^ 6 + y.igConf_UU i j * y.trK / 3)
        (fun i j => y.AConfIJ_UU i j / y.psi ^ 6 + y.igConf_UU i j * y.trK / 3) := by
    rw [← contract_phys y.psi y.gConf_DD y.igConf_UU y.AConfIJ_UU y.trK (by rw [Y.psi]; exact G.psi0 p)]
    have a : x.adm_g_DD = fun i j => y.psi ^ 4 * y.gConf_DD i j := by funext i j; rw [X.g, Y.psi, Y.g]; rfl
    have b : x.adm_KIJ_UU = Kup y.psi y.AConfIJ_UU y.igConf_UU y.trK := by
      funext i j
      rw [X.KK, Y.psi, Y.K, show y.AConfIJ_UU = fun i j => s.A i j p from by funext i j; exact Y.A i j,
        show y.igConf_UU = fun i j => s.h i j p from by funext i j; exact Y.ig i j]
      rfl
    rw [a, b]
  rw [h1, ricci_phys G, h2, X.K, ← Y.K, X.psi, ← Y.psi, E, ← Y.R]
  rw [show (fun i j => s.h i j p) = y.igConf_UU from by funext i j; exact (Y.ig i j).symm,
    show (fun i j k => s.conn i j k p) = y.ChrisConf_UDD from by funext i j k; exact (Y.c i j k).symm,
    show (fun i => pd s.psi i p) = y.dpsi_D from by funext i; exact (Y.dpsi i).symm,
    show (fun i j => pd (pd s.psi i) j p) = y.ddpsi_DD from by funext i j; exact (Y.ddpsi i j).symm]
  ring

theorem KK_pd {s : Slice} {p : Pt} (G : s.Good p) (i j k : Fin 3) :
    pd (s.KK i j) k p = dKup (s.psi p) (fun i => pd s.psi i p) (fun i j => s.A i j p) (fun i j => s.h i j p) (fun i j k => pd (s.A i j) k p)
      (fun i j k => pd (s.h i j) k p) (s.K p) (fun i => pd s.K i p) i j k := by
  have h0 := G.psi0 p
  have hl : line s.psi k p (p k) ≠ 0 := by rw [line_at]; exact h0
  have h1 := ((G.dA i j).has k).div (((G.dpsi p).has k).pow 10) (pow_ne_zero 10 hl)
  have h2 := (((((G.dh i j).has k).div (((G.dpsi p).has k).pow 4) (pow_ne_zero 4 hl)).mul (G.dK.has k)).div_const 3)
  unfold pd
  refine (h1.add h2).deriv.trans ?_
  simp only [Pi.pow_apply, Pi.div_apply, line_at, Nat.cast_ofNat, Nat.reduceSub, dKup, pd]
  field_simp
  ring

/-- C66: and so is the momentum constraint -/
theorem C66_agree_mom (s : Slice) (p : Pt) (G : s.Good p) (x : HamScratch.In) (y : HamIdent.In) (X : NodeS s p x) (Y : NodeI s p y)
    (J : ∀ i, x.JConfP_U i = x.JConfC * y.JConf_U i) (i : Fin 3) :
    HamScratch.out_mom_U x i = (HamIdent.out_mom_U y i).map (x.JConfC * ·) := by
  rw [C66_scratch_mom x (symS X G), C66_ident_mom y (symI Y G)]
  simp only [Option.map_some, Option.some.injEq]
  have a : x.Gamma_UDD = fun i j k => y.ChrisConf_UDD i j k + diffC y.gConf_DD y.igConf_UU (fun l => y.dpsi_D l / y.psi) i j k := by
    funext i j k
    rw [X.c, G.gconn_eq, Y.c, show y.gConf_DD = fun i j => s.g i j p from by funext i j; exact Y.g i j,
      show y.igConf_UU = fun i j => s.h i j p from by funext i j; exact Y.ig i j, Y.psi]
    simp only [Y.dpsi]
    rfl
  have b : x.adm_KIJ_UU = Kup y.psi y.AConfIJ_UU y.igConf_UU y.trK := by
    funext i j
    rw [X.KK, Y.psi, Y.K, show y.AConfIJ_UU = fun i j => s.A i j p from by funext i j; exact Y.A i j,
      show y.igConf_UU = fun i j => s.h i j p from by funext i j; exact Y.ig i j]
    rfl
  have c : x.dadm_KIJ_UUD = dKup y.psi y.dpsi_D y.AConfIJ_UU y.igConf_UU y.dAConfIJ_UUD y.digConf_UUD y.trK y.dtrK_D := by
    funext i j k
    rw [X.dKK, KK_pd G, Y.psi, Y.K, show y.AConfIJ_UU = fun i j => s.A i j p from by funext i j; exact Y.A i j,
      show y.igConf_UU = fun i j => s.h i j p from by funext i j; exact Y.ig i j, show y.dpsi_D = fun i => pd s.psi i p from funext Y.dpsi,
      show y.dAConfIJ_UUD = fun i j k => pd (s.A i j) k p from by funext i j k; exact Y.dA i j k,
      show y.digConf_UUD = fun i j k => pd (s.h i j) k p from by funext i j k; exact Y.dig i j k, show y.dtrK_D = fun i => pd s.K i p from funext Y.dK]
  have d : ∑ j, x.adm_ig_UU i j * x.dtrK_D j = ∑ j, y.igConf_UU i j / y.psi ^ 4 * y.dtrK_D j :=
    Finset.sum_congr rfl fun j _ => by rw [X.ig, X.dK, Y.ig, Y.psi, Y.dK]; rfl
  rw [a, b, c, d, J, X.psi, ← Y.psi]
  ring

/-! ### the residuals of the elliptic equations -/

theorem contract_split (g h A : T2) (K r : ℝ) (gs : Symm g) (I : Inverse g h) (tr : ∑ i, ∑ j, g i j * A i j = 0) :
    contract g (fun i j => A i j * r + h i j * K / 3) (fun i j => A i j * r + h i j * K / 3) = contract g A A * r ^ 2 + K ^ 2 / 3 := by
  have t3 := trace3 gs I
  have bil : contract g (fun i j => A i j * r + h i j * K / 3) (fun i j => A i j * r + h i j * K / 3) =
      contract g A A * r ^ 2 + (K / 3 * r) * contract g A h + (K / 3 * r) * contract g h A + (K / 3) ^ 2 * contract g h h := by
    unfold contract
    simp only [Finset.sum_mul, Finset.mul_sum, ← Finset.sum_add_distrib]
    refine Finset.sum_congr rfl fun i _ => Finset.sum_congr rfl fun j _ => Finset.sum_congr rfl fun k _ => Finset.sum_congr rfl fun l _ => ?_
    ring
  have low : ∀ B : T2, contract g B h = ∑ i, ∑ j, g i j * B i j := by
    intro B
    have e : contract g B h = ∑ i, ∑ j, B i j * move2 g h i j := by
      unfold contract move2
      refine Finset.sum_congr rfl fun i _ => Finset.sum_congr rfl fun j _ => ?_
      simp only [Finset.mul_sum]
      refine Finset.sum_congr rfl fun k _ => Finset.sum_congr rfl fun l _ => ?_
      ring
    rw [e]
    refine Finset.sum_congr rfl fun i _ => Finset.sum_congr rfl fun j _ => ?_
    rw [lower_inverse g h I gs]; ring
  have comm : contract g h A = contract g A h := by
    unfold contract
    simp only [Fin.sum_univ_three, gs 1 0, gs 2 0, gs 2 1]
    ring
  rw [bil, comm, low, low, tr, t3]
  ring

/-- C66: the residual of the equation of ψ is the Hamiltonian constraint as measured (times -C ψ⁵/8): the one vanishes exactly when the other does -/
theorem C66_residual_ham (z : Psi.In) (y : HamIdent.In) (Sz : Equation.Psi.Sym z) (Sy : SymI y) (h0 : z.psi ≠ 0)
    (I : Inverse y.gConf_DD y.igConf_UU) (tr : ∑ i, ∑ j, y.gConf_DD i j * y.AConfIJ_UU i j = 0)
    (psi : y.psi = z.psi) (dpsi : y.dpsi_D = z.dpsi_D) (ddpsi : y.ddpsi_DD = z.ddpsi_DD) (ig : y.igConf_UU = z.igConf_UU)
    (c : y.ChrisConf_UDD = z.ChrisConf_UDD) (R : y.trRicciConf = z.trRicciConf) (K : y.trK = z.trK)
    (A2 : z.AConfIJ2 = contract y.gConf_DD y.AConfIJ_UU y.AConfIJ_UU) (E : z.EConfP = z.EConfC * y.EConf) :
    Psi.Eq.out_schur_F z = -(z.EConfC * z.psi ^ 5 / 8) * HamIdent.out_ham y := by
  have e : (fun i j => y.AConfIJ_UU i j / y.psi ^ 6 + y.igConf_UU i j * y.trK / 3) =
      fun i j => y.AConfIJ_UU i j * (y.psi ^ 6)⁻¹ + y.igConf_UU i j * y.trK / 3 := by
    funext i j; rw [div_eq_mul_inv]
  rw [C66_ident_ham y Sy, Equation.Psi.C63_psi z Sz h0, e, contract_split _ _ _ _ _ Sy.g I tr, ← A2, ig, c, dpsi, ddpsi, R, K, psi, E]
  unfold Xcts.hamiltonian
  generalize Xcts.laplace _ _ _ _ = l
  field_simp
  ring

/-- the divergence of K^{ij} under the physical connection, from the conformal one -/
theorem div_phys {g h : T2} {dg dh c : T3} (C : Compat g h dg dh c) (psi : ℝ) (dpsi : T1) (A : T2) (dA : T3) (K : ℝ) (dK : T1) (h0 : psi ≠ 0)
    (As : Symm A) (tr : ∑ i, ∑ j, g i j * A i j = 0) (i : Fin 3) :
    divT (fun i j k => c i j k + diffC g h (fun l => dpsi l / psi) i j k) (Kup psi A h K) (dKup psi dpsi A h dA dh K dK) i =
      divT c A dA i / psi ^ 10 + (∑ j, h i j * dK j) / psi ^ 4 / 3 := by
  set L : T1 := fun l => dpsi l / psi with hL
  have lowV : ∀ i, ∑ k, g i k * up h L k = L i := by
    intro i
    have : ∑ k, g i k * up h L k = ∑ l, (∑ k, g i k * h k l) * L l := by
      simp only [up, Fin.sum_univ_three]; ring
    rw [this]
    simp [inv_right C.gs C.hs C.inv, kd]
  have t3 := trace3 C.gs C.inv
  -- the difference of the connections acting on a symmetric tensor
  have act : ∀ B : T2, Symm B → ∑ j, ∑ k, (diffC g h L i j k * B k j + diffC g h L j j k * B i k) =
      10 * (∑ k, B i k * L k) - 2 * up h L i * ∑ j, ∑ k, g j k * B j k := by
    intro B Bs
    have tr1 : ∀ l, ∑ k, diffC g h L k k l = 6 * L l := by
      intro l
      have e := lowV l
      unfold diffC
      simp only [Fin.sum_univ_three] at e ⊢
      have gs := C.gs
      fin_cases l <;> simp [kd, gs 1 0, gs 2 0, gs 2 1] at e ⊢ <;> linear_combination -2 * e
    have e1 : ∑ j, ∑ k, (diffC g h L i j k * B k j + diffC g h L j j k * B i k) =
        (∑ j, ∑ k, diffC g h L i j k * B k j) + ∑ k, (∑ j, diffC g h L j j k) * B i k := by
      simp only [Fin.sum_univ_three]; ring
    rw [e1]
    simp only [tr1]
    unfold diffC
    generalize up h L i = V
    simp only [Fin.sum_univ_three, Bs 1 0, Bs 2 0, Bs 2 1]
    fin_cases i <;> simp [kd, Bs 1 0, Bs 2 0, Bs 2 1] <;> ring
  have Ks : Symm (Kup psi A h K) := fun i j => by unfold Kup; rw [As i j, C.hs i j]
  have split : divT (fun i j k => c i j k + diffC g h L i j k) (Kup psi A h K) (dKup psi dpsi A h dA dh K dK) i =
      divT c (Kup psi A h K) (dKup psi dpsi A h dA dh K dK) i +
      ∑ j, ∑ k, (diffC g h L i j k * Kup psi A h K k j + diffC g h L j j k * Kup psi A h K i k) := by
    unfold divT
    rw [← Finset.sum_add_distrib]
    refine Finset.sum_congr rfl fun j _ => ?_
    rw [add_assoc, ← Finset.sum_add_distrib]
    congr 1
    exact Finset.sum_congr rfl fun k _ => by ring
  rw [split, act _ Ks]
  -- the metric is constant
  have hc : ∑ j, (dh i j j + ∑ k, (c i j k * h k j + c j j k * h i k)) = 0 := by
    refine Finset.sum_eq_zero fun j _ => ?_
    rw [C.dh]; simp
  have kt : ∑ j, ∑ k, g j k * Kup psi A h K j k = (∑ i, ∑ j, g i j * A i j) / psi ^ 10 + (∑ i, ∑ j, g i j * h i j) * K / 3 / psi ^ 4 := by
    simp only [Kup, Fin.sum_univ_three]
    field_simp
    ring
  rw [kt, tr, t3]
  have e2 : divT c (Kup psi A h K) (dKup psi dpsi A h dA dh K dK) i =
      divT c A dA i / psi ^ 10 - 10 * (∑ k, A i k * L k) / psi ^ 10 + (∑ j, h i j * dK j) / psi ^ 4 / 3 - 4 * (∑ k, h i k * L k) * K / psi ^ 4 / 3 +
      K / psi ^ 4 / 3 * ∑ j, (dh i j j + ∑ k, (c i j k * h k j + c j j k * h i k)) := by
    simp only [divT, Kup, dKup, Fin.sum_univ_three, hL]
    ring
  have e3 : ∑ k, Kup psi A h K i k * L k = (∑ k, A i k * L k) / psi ^ 10 + (∑ k, h i k * L k) * K / psi ^ 4 / 3 := by
    simp only [Kup, Fin.sum_univ_three]
    ring
  rw [e2, e3, hc]
  unfold up
  ring

/-- C66: the residual of the equation of a component of the shift is the momentum constraint as measured (times 2 α ψ ψ³ C) -/
theorem C66_residual_mom (w : Shift.In) (y : HamIdent.In) (Sw : Equation.Shift.Sym w) (Sy : SymI y) (h0 : w.psi ≠ 0) (dg : T3)
    (C : Compat y.gConf_DD y.igConf_UU dg y.digConf_UUD y.ChrisConf_UDD) (tr : ∑ i, ∑ j, y.gConf_DD i j * y.AConfIJ_UU i j = 0)
    (psi : y.psi = w.psi) (ig : y.igConf_UU = w.igConf_UU) (c : y.ChrisConf_UDD = w.ChrisConf_UDD)
    (A : y.AConfIJ_UU = w.AConfIJ_UU) (dA : y.dAConfIJ_UUD = w.dAConfIJ_UUD) (dK : y.dtrK_D = w.dtrK_D)
    (J : ∀ i, w.JConfP_U i = w.JConfC * y.JConf_U i) (a : Fin 3) :
    some (Equation.Shift.residual a w) = (HamIdent.out_mom_U y a).map (2 * w.alphaPsi * w.psi ^ 3 * w.JConfC * ·) := by
  rw [C66_ident_mom y Sy, Equation.Shift.C63_shift a w Sw h0, div_phys C _ _ _ _ _ _ (by rw [psi]; exact h0) Sy.A tr]
  simp only [Option.map_some, Option.some.injEq, momentum]
  have e : ∑ j, y.igConf_UU a j / y.psi ^ 4 * y.dtrK_D j = (∑ j, y.igConf_UU a j * y.dtrK_D j) / y.psi ^ 4 := by
    simp only [Fin.sum_univ_three]; ring
  rw [e, c, A, dA, ig, dK, psi, J]
  generalize divT _ _ _ _ = D
  generalize (∑ j, w.igConf_UU a j * w.dtrK_D j) = Q
  field_simp
  ring

/-! ### a slice that meets the hypotheses -/

/-- a curved metric in which one direction is stretched, with a conformal factor, A and K that depend on the place -/
noncomputable def demoSlice : Slice where
  psi := fun q => 1 + q 0 ^ 2
  g := fun i j q => if i = j then (if i = 1 then 1 + q 0 ^ 2 else 1) else 0
  h := fun i j q => if i = j then (if i = 1 then (1 + q 0 ^ 2)⁻¹ else 1) else 0
  A := fun i j q => if i = j then 0 else q 0
  K := fun q => q 0

theorem demo_pos (t : ℝ) : 1 + t ^ 2 ≠ 0 := by positivity

theorem demo_deriv : deriv (fun t : ℝ => 1 + t ^ 2) = fun t => 2 * t := by
  funext t
  have := (((hasDerivAt_id t).pow 2).const_add 1)
  refine this.deriv.trans ?_
  simp

theorem demo_psi (i : Fin 3) : pd (fun q : Pt => 1 + q 0 ^ 2) i = fun q => if i = 0 then 2 * q 0 else 0 := by
  funext q
  rw [pd_first (fun t : ℝ => 1 + t ^ 2), demo_deriv]

theorem demo_psi2 (i j : Fin 3) (p : Pt) : pd (pd (fun q : Pt => 1 + q 0 ^ 2) i) j p = if i = 0 ∧ j = 0 then 2 else 0 := by
  rw [demo_psi]
  by_cases e : i = 0
  · simp only [e, if_true, true_and]
    rw [pd_first (fun t : ℝ => 2 * t)]
    simp
  · simp only [e, if_false, false_and]
    exact pd_const 0 j p

theorem demo_dpsi (q : Pt) : Diff (fun q : Pt => 1 + q 0 ^ 2) q := diff_first (fun t => 1 + t ^ 2) q (by fun_prop)

theorem demo_ddpsi (i : Fin 3) (p : Pt) : Diff (pd (fun q : Pt => 1 + q 0 ^ 2) i) p := by
  rw [demo_psi]
  by_cases e : i = 0
  · simp only [e, if_true]; exact diff_first (fun t => 2 * t) p (by fun_prop)
  · simp only [e, if_false]; exact diff_const 0 p

theorem demo_g (i j : Fin 3) : demoSlice.g i j = if i = j ∧ i = 1 then fun q : Pt => 1 + q 0 ^ 2 else fun _ => if i = j then 1 else 0 := by
  funext q
  fin_cases i <;> fin_cases j <;> simp [demoSlice]

theorem demo_h (i j : Fin 3) : demoSlice.h i j = if i = j ∧ i = 1 then fun q : Pt => (1 + q 0 ^ 2)⁻¹ else fun _ => if i = j then 1 else 0 := by
  funext q
  fin_cases i <;> fin_cases j <;> simp [demoSlice]

theorem demo_good (p : Pt) : demoSlice.Good p where
  psi0 := fun q => demo_pos _
  gs := fun q i j => by
    by_cases e : i = j
    · subst e; rfl
    · simp [demoSlice, e, Ne.symm e]
  hs := fun q i j => by
    by_cases e : i = j
    · subst e; rfl
    · simp [demoSlice, e, Ne.symm e]
  inv := fun q i j => by
    have := demo_pos (q 0)
    fin_cases i <;> fin_cases j <;> simp [demoSlice, Fin.sum_univ_three, this]
  As := fun q i j => by simp only [demoSlice, eq_comm]
  dpsi := demo_dpsi
  dg := fun i j q => by
    rw [demo_g]
    split_ifs
    · exact demo_dpsi q
    · exact diff_const 1 q
    · exact diff_const 0 q
  ddpsi := fun i => demo_ddpsi i p
  ddg := fun i j k => by
    rw [demo_g]
    split_ifs
    · exact demo_ddpsi k p
    · rw [show pd (fun _ : Pt => (1 : ℝ)) k = fun _ => 0 from funext fun q => pd_const 1 k q]; exact diff_const 0 p
    · rw [show pd (fun _ : Pt => (0 : ℝ)) k = fun _ => 0 from funext fun q => pd_const 0 k q]; exact diff_const 0 p
  dh := fun i j => by
    rw [demo_h]
    split_ifs
    · exact diff_first (fun t => (1 + t ^ 2)⁻¹) p (by
        have := demo_pos (p 0)
        exact (((hasDerivAt_id (p 0)).pow 2).const_add 1 |>.inv (by simpa using this)).differentiableAt)
    · exact diff_const 1 p
    · exact diff_const 0 p
  dA := fun i j => by
    by_cases e : i = j
    · simp only [demoSlice, e, if_true]; exact diff_const 0 p
    · simp only [demoSlice, e, if_false]; exact diff_x p
  dK := diff_x p
  psi2 := fun i j => by
    show pd (pd (fun q : Pt => 1 + q 0 ^ 2) i) j p = pd (pd (fun q : Pt => 1 + q 0 ^ 2) j) i p
    rw [demo_psi2, demo_psi2]; simp only [and_comm]
  g2 := fun i j k l => by
    rw [demo_g]
    split_ifs
    · rw [demo_psi2, demo_psi2]; simp only [and_comm]
    · simp only [show ∀ m, pd (fun _ : Pt => (1 : ℝ)) m = fun _ => 0 from fun m => funext fun q => pd_const 1 m q, pd_const]
    · simp only [show ∀ m, pd (fun _ : Pt => (0 : ℝ)) m = fun _ => 0 from fun m => funext fun q => pd_const 0 m q]

/-- the values read by the two routines -/
noncomputable def nodeS (s : Slice) (p : Pt) (C E : ℝ) (J : T1) : HamScratch.In where
  psi := s.psi p
  adm_g_DD := fun i j => s.gam i j p
  adm_ig_UU := fun i j => s.gamI i j p
  adm_KIJ_UU := fun i j => s.KK i j p
  dadm_KIJ_UUD := fun i j k => pd (s.KK i j) k p
  Gamma_UDD := fun i j k => s.gconn i j k p
  dGamma_UDDD := fun i j k l => pd (s.gconn i j k) l p
  trK := s.K p
  dtrK_D := fun i => pd s.K i p
  EConfP := C * E
  EConfC := C
  JConfP_U := fun i => C * J i
  JConfC := C

noncomputable def nodeI (s : Slice) (p : Pt) (E : ℝ) (J : T1) : HamIdent.In where
  psi := s.psi p
  dpsi_D := fun i => pd s.psi i p
  ddpsi_DD := fun i j => pd (pd s.psi i) j p
  gConf_DD := fun i j => s.g i j p
  igConf_UU := fun i j => s.h i j p
  digConf_UUD := fun i j k => pd (s.h i j) k p
  ChrisConf_UDD := fun i j k => s.conn i j k p
  trRicciConf := ∑ i, ∑ j, s.h i j p * ricci (fun i j k => s.conn i j k p) (fun i j k l => pd (s.conn i j k) l p) i j
  AConfIJ_UU := fun i j => s.A i j p
  dAConfIJ_UUD := fun i j k => pd (s.A i j) k p
  trK := s.K p
  dtrK_D := fun i => pd s.K i p
  EConf := E
  JConf_U := J

example (p : Pt) (C E : ℝ) (J : T1) : demoSlice.Good p ∧ NodeS demoSlice p (nodeS demoSlice p C E J) ∧ NodeI demoSlice p (nodeI demoSlice p E J) ∧
    SymI (nodeI demoSlice p E J) ∧
    Compat (nodeI demoSlice p E J).gConf_DD (nodeI demoSlice p E J).igConf_UU (fun i j k => pd (demoSlice.g i j) k p) (nodeI demoSlice p E J).digConf_UUD
      (nodeI demoSlice p E J).ChrisConf_UDD ∧
    ∑ i, ∑ j, (nodeI demoSlice p E J).gConf_DD i j * (nodeI demoSlice p E J).AConfIJ_UU i j = 0 :=
  ⟨demo_good p,
    ⟨rfl, fun _ _ => rfl, fun _ _ => rfl, fun _ _ => rfl, fun _ _ _ => rfl, fun _ _ _ => rfl, fun _ _ _ _ => rfl, rfl, fun _ => rfl⟩,
    ⟨rfl, fun _ => rfl, fun _ _ => rfl, fun _ _ => rfl, fun _ _ => rfl, fun _ _ _ => rfl, fun _ _ _ => rfl, rfl, fun _ _ => rfl, fun _ _ _ => rfl, rfl,
      fun _ => rfl⟩,
    symI ⟨rfl, fun _ => rfl, fun _ _ => rfl, fun _ _ => rfl, fun _ _ => rfl, fun _ _ _ => rfl, fun _ _ _ => rfl, rfl, fun _ _ => rfl, fun _ _ _ => rfl, rfl,
      fun _ => rfl⟩ (demo_good p),
    (demo_good p).compat, by simp [nodeI, demoSlice, Fin.sum_univ_three]⟩

end Elliptica.Constraints
