import Verif.Model.ObsPlan
/-!
Model of the plans of the masses, Src/Main/Modules/Physics/Observe/obs_calculate.c:2220-2750 (`calc_Kommar_mass`) and 2753-3258
(`calc_ADM_mass`): which regions are collected for volume integrals, which surfaces on which side, with which metric the elements of
volume and surface and the normals are made, and by which formula they are added up.

Simplifications: those of Verif/Model/ObsPlan.lean.  The sums over the collected patches are those of Verif/Model/Observe.lean.
-/
namespace Elliptica.ObsPlan
open Text

/-- obs_calculate.c:2893-2905, 3030-3042: the metric of the elements; 3062, 3076: that of the normals (`n_conformal_metric_around`,
`n_physical_metric_around`) -/
inductive Metric where
  | conformal | physical
deriving DecidableEq

/-- obs_calculate.c:3233-3249, 2722-2744: the formulas -/
inductive MFormula where
  | isotropic | conformal | s2 | komar
deriving DecidableEq

/-- the plan of a mass; `normal` is `none` if there are no surfaces -/
structure MPlan where
  formula : MFormula
  vol : List Str
  surf : List (Str × Side)
  measure : Metric
  normal : Option Metric
deriving DecidableEq

/-- the regions of a method, with the metric of the normals -/
abbrev MEntry := Entry × Metric

/-- regions, and surfaces all on the inner side -/
def inner (m : String) (vol surf : List String) (g : Metric) : MEntry := (⟨m.toList, T vol, T surf, [(none, .inner)]⟩, g)

/-- obs_calculate.c:2810-2820, 3070-3077: at the outer boundary -/
def mInf : MEntry := (⟨"S_inf,default".toList, [], T ["outermost_OB"], [(none, .outer)]⟩, .physical)

/-- obs_calculate.c:2780-2880 (collection), 3056-3215 (sides and normals) -/
def tableM : List (Str × List MEntry) :=
  [("ADM(M)|BHNS".toList,
    [inner "S+V,default" ["outermost", "filling_box", "NS", "NS_around", "BH_around"] ["BH_around_IB"] .conformal,
     inner "S+V,conformal" ["outermost", "filling_box", "NS", "NS_around", "BH_around"] ["BH_around_IB"] .conformal, mInf]),
   ("ADM(M)|BHBH".toList,
    [inner "S+V,default" ["outermost", "filling_box", "BH1_around", "BH2_around"] ["BH1_around_IB", "BH2_around_IB"] .conformal,
     inner "S+V,conformal" ["outermost", "filling_box", "BH1_around", "BH2_around"] ["BH1_around_IB", "BH2_around_IB"] .conformal, mInf]),
   ("ADM(M)|NSNS".toList,
    [inner "S+V,default" ["outermost", "filling_box", "NS1", "NS1_around", "NS2", "NS2_around"] [] .conformal,
     inner "S+V,conformal" ["outermost", "filling_box", "NS1", "NS1_around", "NS2", "NS2_around"] [] .conformal, mInf]),
   ("ADM(M)|SNS".toList,
    [inner "S+V,default" ["outermost", "filling_box", "NS", "NS_around"] [] .conformal,
     inner "S+V,conformal" ["outermost", "filling_box", "NS", "NS_around"] [] .conformal, mInf]),
   ("ADM(M)|NS".toList, [inner "V_obj,default" ["NS"] [] .conformal]),
   ("ADM(M)|NS1".toList, [inner "V_obj,default" ["NS1"] [] .conformal]),
   ("ADM(M)|NS2".toList, [inner "V_obj,default" ["NS2"] [] .conformal]),
   ("ADM(M)|SBH".toList, [inner "S+V,default" ["outermost", "BH_around"] ["BH_around_IB"] .conformal, mInf])]

/-- obs_calculate.c:2756-2761 `IsConf`: for these methods the elements are those of the conformal metric -/
def isConf : List Str := T ["S+V,default", "V_obj,default", "S+V,conformal"]

/-- obs_calculate.c:3233-3249: the formula of the ADM mass -/
def formulasM : List (Str × MFormula) :=
  [("S+V,default".toList, .isotropic), ("S+V,conformal".toList, .conformal), ("S_inf,default".toList, .s2), ("V_obj,default".toList, .isotropic)]

/-- obs_calculate.c:2533-2539 and alike with obs_calculate.h:36-47: near the outer boundary; `one`: one split -/
def kInf (one : Bool) : MEntry :=
  (⟨"S_inf,default".toList, [], T ["outermost_OB"], [(none, if one then .outer else .inner)]⟩, .physical)

/-- a star by its surface -/
def kStar (r : String) : MEntry := (⟨"S_obj,default".toList, [], T [r], [(none, .outer)]⟩, .physical)

/-- a black hole: no test of the method but that of the formula -/
def kHole (r : String) : List MEntry :=
  [inner "S+V,default" [] [r] .physical, inner "S_obj,default" [] [r] .physical, inner "S_inf,default" [] [r] .physical,
   inner "V_obj,default" [] [r] .physical]

/-- obs_calculate.c:2240-2418 (collection), 2514-2708 (sides and normals) -/
def tableK (one : Bool) : List (Str × List MEntry) :=
  [("Komar(M)|BHNS".toList, [inner "S+V,default" ["NS"] ["BH_around_IB"] .physical, kInf one]),
   ("Komar(M)|BHBH".toList, [inner "S+V,default" [] ["BH1_around_IB", "BH2_around_IB"] .physical, kInf one]),
   ("Komar(M)|NSNS".toList, [inner "S+V,default" ["NS1", "NS2"] [] .physical, kInf one]),
   ("Komar(M)|SNS".toList, [inner "S+V,default" ["NS"] [] .physical, kInf one]),
   ("Komar(M)|NS".toList, [inner "V_obj,default" ["NS"] [] .physical, kStar "NS_OB"]),
   ("Komar(M)|NS1".toList, [inner "V_obj,default" ["NS1"] [] .physical, kStar "NS1_OB"]),
   ("Komar(M)|NS2".toList, [inner "V_obj,default" ["NS2"] [] .physical, kStar "NS2_OB"]),
   ("Komar(M)|BH".toList, kHole "BH_around_IB"), ("Komar(M)|BH1".toList, kHole "BH1_around_IB"), ("Komar(M)|BH2".toList, kHole "BH2_around_IB"),
   ("Komar(M)|SBH".toList, [inner "S_obj,default" [] ["BH_around_IB"] .physical, kInf one])]

/-- obs_calculate.c:2722-2744: the formula of the Komar mass -/
def formulasK : List (Str × MFormula) :=
  [("S+V,default".toList, .komar), ("S_obj,default".toList, .komar), ("S_inf,default".toList, .komar), ("V_obj,default".toList, .komar)]

/-- the parts in turn: collection, elements, surface patches, formula -/
def planMass (table : List (Str × List MEntry)) (conf : List Str) (formulas : List (Str × MFormula)) (kind : Kind) (quantity method : Str) :
    Res MPlan :=
  if kind = .other then .abort
  else match find quantity table with
    | none => .abort
    | some es => match find method (es.map fun e => (e.1.method, e)) with
      | none => .abort
      | some e => match sides e.1.sides e.1.surf, find method formulas with
        | some s, some f =>
          .ok ⟨f, e.1.vol, s, if (find method (conf.map fun c => (c, ()))).isSome then .conformal else .physical,
            if s = [] then none else some e.2⟩
        | _, _ => .abort

/-- obs_calculate.c:2753-3258 `calc_ADM_mass` -/
def planM : Kind → Str → Str → Res MPlan := planMass tableM isConf formulasM

/-- obs_calculate.c:2220-2750 `calc_Kommar_mass` (the elements are always those of the physical metric, 2450-2458, 2491-2499) -/
def planK (one : Bool) : Kind → Str → Str → Res MPlan := planMass (tableK one) [] formulasK

end Elliptica.ObsPlan
