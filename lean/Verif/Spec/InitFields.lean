import Verif.Model.InitFields
/-!
Specification of the first filling of the fields: which objects a configuration is made of, and the superposition of their data.
-/
namespace Elliptica.InitFields.Spec
open Text Physics

/-- The configurations: the system, the name of the initial data, and the objects with their solutions -/
def table : List (Obj × Str × List (Sol × Obj)) :=
  [(.SBH, "one_exact_KerrSchild".toList, [(.kerrSchild, .BH)]),
   (.SBH, "one_exact_ConfKerrSchild".toList, [(.confKerrSchild, .BH)]),
   (.SBH, "one_exact_IsoSchild".toList, [(.isoSchild, .BH)]),
   (.SBH, "one_exact_PGSchild".toList, [(.pgSchild, .BH)]),
   (.BHNS, "TOV+KerrSchild".toList, [(.tov, .NS), (.kerrSchild, .BH)]),
   (.BHNS, "TOV+IsoSchild".toList, [(.tov, .NS), (.isoSchild, .BH)]),
   (.BHBH, "KerrSchild+KerrSchild".toList, [(.kerrSchild, .BH1), (.kerrSchild, .BH2)]),
   (.BHBH, "IsoSchild+IsoSchild".toList, [(.isoSchild, .BH1), (.isoSchild, .BH2)]),
   (.NSNS, "TOV+TOV".toList, [(.tov, .NS1), (.tov, .NS2)]),
   (.SNS, "TOV".toList, [(.tov, .NS)])]

/-- The temporary fields of the configurations with two objects: the data of each object alone -/
def temporaries : List (Obj × Str × List Str) :=
  [(.BHNS, "TOV+KerrSchild".toList, ["psi_ks".toList, "alphaPsi_ks".toList, "psi_tov".toList, "alphaPsi_tov".toList]),
   (.BHNS, "TOV+IsoSchild".toList, ["psi_is".toList, "alphaPsi_is".toList, "psi_tov".toList, "alphaPsi_tov".toList]),
   (.BHBH, "KerrSchild+KerrSchild".toList,
    ["psi_bh1".toList, "alphaPsi_bh1".toList, "beta_bh1_U0".toList, "beta_bh1_U1".toList, "beta_bh1_U2".toList,
     "psi_bh2".toList, "alphaPsi_bh2".toList, "beta_bh2_U0".toList, "beta_bh2_U1".toList, "beta_bh2_U2".toList]),
   (.BHBH, "IsoSchild+IsoSchild".toList,
    ["psi_bh1".toList, "alphaPsi_bh1".toList, "beta_bh1_U0".toList, "beta_bh1_U1".toList, "beta_bh1_U2".toList,
     "psi_bh2".toList, "alphaPsi_bh2".toList, "beta_bh2_U0".toList, "beta_bh2_U1".toList, "beta_bh2_U2".toList]),
   (.NSNS, "TOV+TOV".toList, ["psi_tov1".toList, "alphaPsi_tov1".toList, "psi_tov2".toList, "alphaPsi_tov2".toList])]

/-- the name is equal up to letter case -/
def Named (ini s : Str) : Prop := ini.map lower = s.map lower

/-- the objects of a request -/
def Asked (sys : Obj) (ini fields : Str) (l : List (Sol × Obj)) : Prop :=
  Named fields "XCTS".toList ∧ ∃ s, (sys, s, l) ∈ table ∧ Named ini s

/-- the value of a metric variable in empty flat space -/
def flat : Comp → ℝ
  | .psi => 1 | .alphaPsi => 1 | .beta _ => 0

/-- the data of an object; a static star has no shift -/
def datum {P : Type} (sol : Data P) (s : Sol × Obj) (c : Comp) (p : P) : ℝ :=
  match s.1, c with
  | .tov, .beta _ => 0
  | k, c => sol k s.2 c p

/-- the superposition: flat space and, of each object, its difference from flat space -/
def superposed {P : Type} (sol : Data P) (l : List (Sol × Obj)) (c : Comp) (p : P) : ℝ :=
  flat c + (l.map fun s => datum sol s c p - flat c).sum

/-- the field of a metric variable -/
def field : Comp → Str
  | .psi => "psi".toList | .alphaPsi => "alphaPsi".toList
  | .beta 0 => "beta_U0".toList | .beta 1 => "beta_U1".toList | .beta 2 => "beta_U2".toList

/-- the fields of the auxiliary data -/
def auxiliary : List Str :=
  ["psi_ks", "alphaPsi_ks", "psi_is", "alphaPsi_is", "psi_tov", "alphaPsi_tov", "psi_tov1", "alphaPsi_tov1", "psi_tov2", "alphaPsi_tov2",
   "psi_bh1", "alphaPsi_bh1", "beta_bh1_U0", "beta_bh1_U1", "beta_bh1_U2", "psi_bh2", "alphaPsi_bh2", "beta_bh2_U0", "beta_bh2_U1",
   "beta_bh2_U2"].map String.toList

/-- the grid has the fields of the metric variables and none of the auxiliary names is taken -/
def Ready {P : Type} (st : St P) : Prop := (∀ c, (st.f (field c)).isSome) ∧ ∀ n ∈ auxiliary, st.f n = none

/-- the stars, in the order in which they are listed -/
def stars (l : List (Sol × Obj)) : List Obj := (l.filter fun s => s.1 = .tov).map Prod.snd

end Elliptica.InitFields.Spec
