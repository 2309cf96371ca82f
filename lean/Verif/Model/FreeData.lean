import Verif.Model.Common
import Verif.Model.Tol
import Verif.Model.Angles
import Verif.Model.Transform
import Verif.Model.Gen.FreeK
import Verif.Spec.Fields
import Mathlib.Analysis.SpecialFunctions.Pow.Real
/-!
Model of the free data (Src/Main/Modules/Physics/Free_Data/fd_main.c, fd_populate.c, fd_populate.h) over `ℝ`: the plan that populates the fields, the
Schwarzschild data, the roll-off functions and the superposition.  Positions are relative to the centre of the hole.
-/
namespace Elliptica.Fd
open Elliptica.Fields

/-- fd_populate.c:1153-1156 and elsewhere: the distance from the centre -/
noncomputable def radius (p : Pt) : ℝ := √(p 0 ^ 2 + p 1 ^ 2 + p 2 ^ 2)

/-- fd_populate.c:1159 the conformal factor of the isotropic data -/
noncomputable def isoPsi (M : ℝ) (p : Pt) : ℝ := 1 + M / (2 * radius p)

/-- fd_populate.c:1158 the lapse of the isotropic data -/
noncomputable def isoAlpha (M : ℝ) (p : Pt) : ℝ := (1 - M / (2 * radius p)) / (1 + M / (2 * radius p))

/-- fd_populate.c:1160 -/
noncomputable def isoAlphaPsi (M : ℝ) (p : Pt) : ℝ := isoAlpha M p * isoPsi M p

/-- fd_populate.c:129-152 the shift of the Painleve-Gullstrand data; `e` is ROUND_OFF_ERR -/
noncomputable def pgBeta (e M : ℝ) (p : Pt) : Res (Fin 3 → ℝ) :=
  let r := radius p
  Transform.sphe ⟨r, Real.arccos (p 2 / r), Angles.arctan e (p 1) (p 0), false, true⟩ ![√(2 * M / r), 0, 0]

/-- fd_populate.h:17-22 the parameter `RollOff_function` -/
inductive Roll where
  | expCut | exp | other
deriving DecidableEq

/-- fd_populate.h:24-29 the parameter `RollOff_lambda` -/
inductive Lam where
  | ratio | const | other
deriving DecidableEq

/-- fd_populate.c:1216-1231 `f_constant_1`, `f_ratio_type1` -/
noncomputable def lam : Lam → ℝ → ℝ → ℝ → Res ℝ
  | .const, _, _, _ => .ok 1
  | .ratio, rmin, rmax, r => if r < rmax then .ok (|r - rmin| / (rmax - r)) else .abort
  | .other, _, _, _ => .abort

/-- fd_populate.c:1236-1253 `f_exp_type1`, `f_exp_type2` with the choice of fd_populate.h:8-29; `pw` is RollOff_power -/
noncomputable def transit (e : ℝ) (f : Roll) (l : Lam) (rmin rmax pw r : ℝ) : Res ℝ :=
  if ¬ 0 < rmin ∨ ¬ 0 < rmax ∨ l = .other then .abort
  else match f with
    | .expCut => if Tol.lss e r rmax then (lam l rmin rmax r).bind fun x => .ok (Real.exp (-x * (r / rmax) ^ pw)) else .ok 0
    | .exp => (lam l rmin rmax r).bind fun x => .ok (Real.exp (-x * (r / rmax) ^ pw))
    | .other => .abort

/-- fd_populate.c:484-494 the superposition of the flat and the given metric -/
noncomputable def superpose (att : ℝ) (gKS : Fin 3 → Fin 3 → ℝ) (i j : Fin 3) : ℝ :=
  if i = j then 1 + att * (gKS i j - 1) else att * gKS i j

/-- fd_populate.c:583, 1108 trK and alpha times the roll-off -/
noncomputable def scaleBy (att x : ℝ) : ℝ := att * x

/-! ### the plan: which value each field holds -/

/-- a metric: the value before, the Kerr-Schild one, the flat one, one scaled to determinant 1, one superposed with the flat one -/
inductive Met where
  | old | ks | flat | conf (m : Met) | mix (m : Met)
deriving DecidableEq

/-- Christoffel symbols, by the metrics of the inverse and of the derivatives they were made of -/
inductive Chr where
  | old | of (ig dg : Met)
deriving DecidableEq

/-- derivatives of the Christoffel symbols -/
inductive DChr where
  | old | d (c : Chr)
deriving DecidableEq

/-- Ricci tensor and its trace, by the fields they were made of -/
inductive Ric where
  | old | of (ig : Met) (c : Chr) (dc : DChr)
deriving DecidableEq

/-- the trace of the extrinsic curvature -/
inductive TrK where
  | old | zero | pg | ks (ig : Met) (c : Chr) | roll (t : TrK)
deriving DecidableEq

/-- its derivatives -/
inductive DTr where
  | old | zero | d (t : TrK)
deriving DecidableEq

/-- the fields of the free data -/
structure St where
  g : Met
  ig : Met
  dg : Met
  chr : Chr
  dchr : DChr
  ric : Ric
  trK : TrK
  dtrK : DTr
deriving DecidableEq

/-- fd_populate.c:353-405 `fd_populate_gConf_igConf_dgConf_KerrSchild`, all stems given -/
def popKS (s : St) : St := { s with g := .ks, ig := .ks, dg := .ks }

/-- fd_populate.c:697-748 `..._flat` (also `..._IsoSchild` 652-666, `..._PGSchild` 673-687) -/
def popFlat (s : St) : St := { s with g := .flat, ig := .flat, dg := .flat }

/-- fd_populate.c:599-643 `..._ConfKerrSchild`; `given`: the argument g is not null (then it is the stem gConf) -/
def popConf (given : Bool) (s : St) : Res St :=
  if given then
    let s := { s with g := .ks }
    .ok { s with g := .conf s.g, ig := .conf s.g, dg := .conf s.g }
  else .ub

/-- fd_populate.c:425-527 `fd_modify_gConf_igConf_dgConf_to_w1flat_w2KS` -/
def modMix (s : St) : St := { s with g := .mix s.g, ig := .mix s.g, dg := .mix s.g }

/-- fd_populate.c:306-326 `fd_compatible_Christoffel_symbol` -/
def chris (s : St) : St := { s with chr := .of s.ig s.dg }

/-- fd_populate.c:329-346 `fd_1st_derivative_Christoffel_symbol` -/
def dchris (s : St) : St := { s with dchr := .d s.chr }

/-- fd_populate.c:281-303 `fd_conformal_Ricci` -/
def ricci (s : St) : St := { s with ric := .of s.ig s.chr s.dchr }

/-- fd_populate.c:13-47 `fd_extrinsic_curvature_KerrSchild`; `d`: the stem of the derivatives is not null -/
def kKS (d : Bool) (s : St) : St := { s with trK := .ks s.ig s.chr, dtrK := if d then .d (.ks s.ig s.chr) else s.dtrK }

/-- fd_populate.c:81-96, 243-278 `fd_extrinsic_curvature_IsoSchild`, `..._Minkowski` -/
def kIso (s : St) : St := { s with trK := .zero, dtrK := .zero }

/-- fd_populate.c:174-240 `fd_extrinsic_curvature_PGSchild` -/
def kPG (s : St) : St := { s with trK := .pg, dtrK := .d .pg }

/-- fd_populate.c:51-77 `fd_trace_extrinsic_curvature_zero` -/
def kZero (s : St) : St := { s with trK := .zero, dtrK := .d .zero }

/-- fd_populate.c:534-592 `fd_modify_trK_to_wtrK_compute_dtrK` -/
def modTrK (s : St) : St := { s with trK := .roll s.trK, dtrK := .d (.roll s.trK) }

/-- the system of the physics -/
inductive Sys where
  | SBH | SNS | BHNS | BHBH | NSNS
deriving DecidableEq

/-- fd_main.c:39-87 the parameters that choose the free data -/
structure Opts where
  sys : Sys
  metric : String
  christoffel : String
  ricci : String
  trK : String
  MConf : String

/-- fd_main.c:139-301 `populate_free_data` -/
def populate (o : Opts) (s : St) : Res St :=
  if o.sys = .SBH ∧ o.metric = "KerrSchild" ∧ o.christoffel = "KerrSchild" ∧ o.ricci = "KerrSchild" ∧ o.trK = "KerrSchild" ∧ o.MConf = "zero" then
    .ok (kKS true (ricci (dchris (chris (popKS s)))))
  else if o.sys = .SBH ∧ o.metric = "IsoSchild" ∧ o.christoffel = "IsoSchild" ∧ o.ricci = "IsoSchild" ∧ o.trK = "IsoSchild" ∧ o.MConf = "zero" then
    .ok (kIso (ricci (dchris (chris (popFlat s)))))
  else if o.sys = .SBH ∧ o.metric = "PGSchild" ∧ o.christoffel = "PGSchild" ∧ o.ricci = "PGSchild" ∧ o.trK = "PGSchild" ∧ o.MConf = "zero" then
    .ok (kPG (ricci (dchris (chris (popFlat s)))))
  else if o.sys = .SBH ∧ o.metric = "ConfKerrSchild" ∧ o.christoffel = "ConfKerrSchild" ∧ o.ricci = "ConfKerrSchild" ∧ o.trK = "KerrSchild" ∧
      o.MConf = "zero" then
    (popConf true (kKS true (chris (popKS s)))).bind fun s => .ok (ricci (dchris (chris s)))
  else if o.sys = .BHNS ∧ o.metric = "w1*flat+w2*KerrSchild" ∧ o.christoffel = "w1*flat+w2*KerrSchild" ∧ o.ricci = "w1*flat+w2*KerrSchild" ∧
      o.trK = "w*KerrSchild" ∧ o.MConf = "zero" then
    .ok (modTrK (ricci (dchris (chris (modMix (kKS false (chris (popKS s))))))))
  else if o.metric = "flat" ∧ o.christoffel = "flat" ∧ o.ricci = "flat" ∧ o.trK = "zero" ∧ o.MConf = "zero" then
    .ok (kZero (ricci (dchris (chris (popFlat s)))))
  else .abort

end Elliptica.Fd
