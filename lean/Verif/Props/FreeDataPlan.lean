import Verif.Model.FreeData
import Verif.Spec.BlackHole
import Verif.Props.Tol
import Verif.Props.KsSplit
import Mathlib.Analysis.SpecialFunctions.Exp
import Mathlib.Analysis.SpecialFunctions.Pow.Continuity
/-!
C96: the plan that populates the free data, the roll-off and the superposition.
-/
namespace Elliptica.Fd
open Elliptica.BhSpec

/-! ### the plan -/

/-- the metric an option of `conformal_metric` (and of the Christoffel symbols and the Ricci tensor) stands for, as documented -/
def metricOf : String → Option Met
  | "flat" => some .flat
  | "KerrSchild" => some .ks
  | "ConfKerrSchild" => some (.conf .ks)
  | "IsoSchild" => some .flat
  | "PGSchild" => some .flat
  | "w1*flat+w2*KerrSchild" => some (.mix .ks)
  | _ => none

/-- the trace of the extrinsic curvature an option of `trK` stands for, as documented -/
def trKOf : String → Option TrK
  | "zero" => some .zero
  | "KerrSchild" => some (.ks .ks (.of .ks .ks))
  | "IsoSchild" => some .zero
  | "PGSchild" => some .pg
  | "w*KerrSchild" => some (.roll (.ks .ks (.of .ks .ks)))
  | _ => none

/-- all fields belong together: inverse metric, derivatives, Christoffel symbols, their derivatives and the Ricci tensor are those of the metric, and the
derivatives of the trace of K are those of the trace -/
structure Coherent (s : St) : Prop where
  ig : s.ig = s.g
  dg : s.dg = s.g
  chr : s.chr = .of s.g s.g
  dchr : s.dchr = .d (.of s.g s.g)
  ric : s.ric = .of s.g (.of s.g s.g) (.d (.of s.g s.g))
  dtrK : s.dtrK = .d s.trK ∨ (s.trK = .zero ∧ s.dtrK = .zero)

/-- C96 for every choice of options and whatever the fields held before, populating the free data either stops or leaves the metric and the trace of K that
were asked for, with everything derived from them; nothing stale is left -/
theorem C96_plan (o : Opts) (s t : St) (h : populate o s = .ok t) :
    metricOf o.metric = some t.g ∧ o.christoffel = o.metric ∧ o.ricci = o.metric ∧ trKOf o.trK = some t.trK ∧ o.MConf = "zero" ∧ Coherent t := by
  unfold populate at h
  split_ifs at h with h1 h2 h3 h4 h5 h6
  · obtain ⟨_, a, b, c, d, m⟩ := h1
    injection h with h; subst h
    rw [a, b, c, d, m]
    exact ⟨by simp [metricOf, trKOf, kKS, kIso, kPG, kZero, modTrK, modMix, ricci, dchris, chris, popKS, popFlat], rfl, rfl, by simp [metricOf, trKOf, kKS, kIso, kPG, kZero, modTrK, modMix, ricci, dchris, chris, popKS, popFlat], rfl, ⟨rfl, rfl, rfl, rfl, rfl, Or.inl rfl⟩⟩
  · obtain ⟨_, a, b, c, d, m⟩ := h2
    injection h with h; subst h
    rw [a, b, c, d, m]
    exact ⟨by simp [metricOf, trKOf, kKS, kIso, kPG, kZero, modTrK, modMix, ricci, dchris, chris, popKS, popFlat], rfl, rfl, by simp [metricOf, trKOf, kKS, kIso, kPG, kZero, modTrK, modMix, ricci, dchris, chris, popKS, popFlat], rfl, ⟨rfl, rfl, rfl, rfl, rfl, Or.inr ⟨rfl, rfl⟩⟩⟩
  · obtain ⟨_, a, b, c, d, m⟩ := h3
    injection h with h; subst h
    rw [a, b, c, d, m]
    exact ⟨by simp [metricOf, trKOf, kKS, kIso, kPG, kZero, modTrK, modMix, ricci, dchris, chris, popKS, popFlat], rfl, rfl, by simp [metricOf, trKOf, kKS, kIso, kPG, kZero, modTrK, modMix, ricci, dchris, chris, popKS, popFlat], rfl, ⟨rfl, rfl, rfl, rfl, rfl, Or.inl rfl⟩⟩
  · obtain ⟨_, a, b, c, d, m⟩ := h4
    simp only [popConf, if_true, Res.bind] at h
    injection h with h; subst h
    rw [a, b, c, d, m]
    exact ⟨by simp [metricOf, trKOf, kKS, kIso, kPG, kZero, modTrK, modMix, ricci, dchris, chris, popKS, popFlat], rfl, rfl, by simp [metricOf, trKOf, kKS, kIso, kPG, kZero, modTrK, modMix, ricci, dchris, chris, popKS, popFlat], rfl, ⟨rfl, rfl, rfl, rfl, rfl, Or.inl rfl⟩⟩
  · obtain ⟨_, a, b, c, d, m⟩ := h5
    injection h with h; subst h
    rw [a, b, c, d, m]
    exact ⟨by simp [metricOf, trKOf, kKS, kIso, kPG, kZero, modTrK, modMix, ricci, dchris, chris, popKS, popFlat], rfl, rfl, by simp [metricOf, trKOf, kKS, kIso, kPG, kZero, modTrK, modMix, ricci, dchris, chris, popKS, popFlat], rfl, ⟨rfl, rfl, rfl, rfl, rfl, Or.inl rfl⟩⟩
  · obtain ⟨a, b, c, d, m⟩ := h6
    injection h with h; subst h
    rw [a, b, c, d, m]
    exact ⟨by simp [metricOf, trKOf, kKS, kIso, kPG, kZero, modTrK, modMix, ricci, dchris, chris, popKS, popFlat], rfl, rfl, by simp [metricOf, trKOf, kKS, kIso, kPG, kZero, modTrK, modMix, ricci, dchris, chris, popKS, popFlat], rfl, ⟨rfl, rfl, rfl, rfl, rfl, Or.inl rfl⟩⟩

/-- C96 the choices that are carried out: a metric for all tensors, the fitting trace of K, and the system each is made for; flat data go with every system -/
theorem C96_plan_accepts (o : Opts) (s : St) : (∃ t, populate o s = .ok t) ↔ o.christoffel = o.metric ∧ o.ricci = o.metric ∧ o.MConf = "zero" ∧
    ((o.metric = "flat" ∧ o.trK = "zero") ∨
     (o.sys = .SBH ∧ (o.metric, o.trK) ∈ [("KerrSchild", "KerrSchild"), ("IsoSchild", "IsoSchild"), ("PGSchild", "PGSchild"), ("ConfKerrSchild", "KerrSchild")]) ∨
     (o.sys = .BHNS ∧ o.metric = "w1*flat+w2*KerrSchild" ∧ o.trK = "w*KerrSchild")) := by
  constructor
  · rintro ⟨t, h⟩
    unfold populate at h
    split_ifs at h with h1 h2 h3 h4 h5 h6
    · obtain ⟨z, a, b, c, d, m⟩ := h1; rw [a, b, c, d, m, z]; simp
    · obtain ⟨z, a, b, c, d, m⟩ := h2; rw [a, b, c, d, m, z]; simp
    · obtain ⟨z, a, b, c, d, m⟩ := h3; rw [a, b, c, d, m, z]; simp
    · obtain ⟨z, a, b, c, d, m⟩ := h4; rw [a, b, c, d, m, z]; simp
    · obtain ⟨z, a, b, c, d, m⟩ := h5; rw [a, b, c, d, m, z]; simp
    · obtain ⟨a, b, c, d, m⟩ := h6; rw [a, b, c, d, m]; simp
  · rintro ⟨a, b, c, h⟩
    obtain ⟨sys, me, ch, ri, tk, mc⟩ := o
    simp only at a b c h
    subst a; subst b; subst c
    rcases h with ⟨rfl, rfl⟩ | ⟨rfl, h⟩ | ⟨rfl, rfl, rfl⟩
    · simp [populate]
    · simp only [List.mem_cons, Prod.mk.injEq, List.not_mem_nil, or_false] at h
      rcases h with ⟨rfl, rfl⟩ | ⟨rfl, rfl⟩ | ⟨rfl, rfl⟩ | ⟨rfl, rfl⟩ <;> simp [populate, popConf, Res.bind]
    · simp [populate]

example : ∃ o s t, populate o s = .ok t ∧ s.g = .old ∧ t.g = .mix .ks :=
  ⟨⟨.BHNS, "w1*flat+w2*KerrSchild", "w1*flat+w2*KerrSchild", "w1*flat+w2*KerrSchild", "w*KerrSchild", "zero"⟩, ⟨.old, .old, .old, .old, .old, .old, .old, .old⟩, _,
    by simp [populate]; rfl, rfl, rfl⟩

/-- C96 violation: the function that makes the metric of determinant 1 is documented to make the Kerr-Schild metric itself when none is given; it then uses the
null stem, and it replaces a given one by the Kerr-Schild metric -/
theorem C96_conf_violation (s : St) : popConf false s = .ub ∧ ∃ t, popConf true { s with g := .flat } = .ok t ∧ t.g = .conf .ks := ⟨rfl, _, rfl, rfl⟩

/-! ### the roll-off -/

/-- C96 the roll-off that is cut at rmax, with λ = |r-rmin|/(rmax-r): defined everywhere, between 0 and 1, 1 on the surface of radius rmin, zero from rmax (less a
round-off) on, positive before, and decreasing outside rmin -/
theorem C96_rolloff (e rmin rmax pw : ℝ) (he : 0 < e) (h0 : 0 < rmin) (h1 : rmin < rmax - e) (hpw : 0 ≤ pw) :
    ∃ f : ℝ → ℝ, (∀ r, 0 ≤ r → transit e .expCut .ratio rmin rmax pw r = .ok (f r) ∧ 0 ≤ f r ∧ f r ≤ 1 ∧ (f r = 0 ↔ rmax - e ≤ r)) ∧ f rmin = 1 ∧
      ∀ r s, rmin ≤ r → r ≤ s → f s ≤ f r := by
  have hl : ∀ r, Tol.lss e r rmax = true ↔ r < rmax - e := fun r => by
    rw [(Tol.C13_meaning e r rmax he).2.1]; constructor <;> intro h <;> linarith
  have hx : 0 < rmax := by linarith
  refine ⟨fun r => if r < rmax - e then Real.exp (-(|r - rmin| / (rmax - r)) * (r / rmax) ^ pw) else 0, ?_, ?_, ?_⟩
  · intro r hr
    have hb : ¬ (¬ 0 < rmin ∨ ¬ 0 < rmax ∨ Lam.ratio = .other) := by
      push Not; exact ⟨h0, hx, by decide⟩
    by_cases hc : r < rmax - e
    · have hcr : r < rmax := by linarith
      have hp : 0 ≤ (r / rmax) ^ pw := Real.rpow_nonneg (by positivity) _
      have hq : 0 ≤ |r - rmin| / (rmax - r) := div_nonneg (abs_nonneg _) (by linarith)
      simp only [if_pos hc]
      refine ⟨?_, (Real.exp_pos _).le, ?_, ?_⟩
      · simp only [transit, if_neg hb, if_pos ((hl r).mpr hc), lam, if_pos hcr, Res.bind]
      · rw [Real.exp_le_one_iff]; nlinarith [mul_nonneg hq hp]
      · constructor
        · intro h; exact absurd h (Real.exp_pos _).ne'
        · intro h; linarith
    · simp only [if_neg hc]
      refine ⟨?_, le_refl _, zero_le_one, by simp [not_lt.mp hc]⟩
      have : ¬ (Tol.lss e r rmax = true) := by rw [hl]; exact hc
      simp only [transit, if_neg hb, if_neg this]
  · simp only [if_pos h1, sub_self, abs_zero, zero_div, neg_zero, zero_mul, Real.exp_zero]
  · intro r s hr hs
    by_cases hc : s < rmax - e
    · have hc' : r < rmax - e := by linarith
      simp only [if_pos hc, if_pos hc']
      apply Real.exp_le_exp.mpr
      have q1 : |r - rmin| / (rmax - r) ≤ |s - rmin| / (rmax - s) := by
        rw [abs_of_nonneg (by linarith), abs_of_nonneg (by linarith)]
        exact div_le_div₀ (by linarith) (by linarith) (by linarith) (by linarith)
      have q2 : (r / rmax) ^ pw ≤ (s / rmax) ^ pw := Real.rpow_le_rpow (div_nonneg (by linarith) hx.le) (by gcongr) hpw
      have p1 : 0 ≤ |r - rmin| / (rmax - r) := div_nonneg (abs_nonneg _) (by linarith)
      have p2 : 0 ≤ (r / rmax) ^ pw := Real.rpow_nonneg (div_nonneg (by linarith) hx.le) _
      have := mul_le_mul q1 q2 p2 (le_trans p1 q1)
      linarith
    · simp only [if_neg hc]
      split
      · exact (Real.exp_pos _).le
      · exact le_refl _

example : ∃ f : ℝ → ℝ, f 1 = 1 ∧ transit (1 / 10 ^ 12) .expCut .ratio 1 10 4 12 = .ok (f 12) :=
  let ⟨f, h, h1, _⟩ := C96_rolloff (1 / 10 ^ 12) 1 10 4 (by norm_num) (by norm_num) (by norm_num) (by norm_num)
  ⟨f, h1, (h 12 (by norm_num)).1⟩

/-- C96 with λ = 1 the roll-off is a decreasing function of the radius between 0 and 1, but it is below 1 on the surface of the hole -/
theorem C96_rolloff_const (e rmin rmax pw : ℝ) (h0 : 0 < rmin) (hx : 0 < rmax) (hpw : 0 ≤ pw) :
    ∃ f : ℝ → ℝ, (∀ r, 0 ≤ r → transit e .exp .const rmin rmax pw r = .ok (f r) ∧ 0 < f r ∧ f r ≤ 1) ∧ f rmin < 1 ∧ ∀ r s, 0 ≤ r → r ≤ s → f s ≤ f r := by
  have hb : ¬ (¬ 0 < rmin ∨ ¬ 0 < rmax ∨ Lam.const = .other) := by push Not; exact ⟨h0, hx, by decide⟩
  refine ⟨fun r => Real.exp (-1 * (r / rmax) ^ pw), ?_, ?_, ?_⟩
  · intro r hr
    have hp : 0 ≤ (r / rmax) ^ pw := Real.rpow_nonneg (by positivity) _
    refine ⟨?_, Real.exp_pos _, by rw [Real.exp_le_one_iff]; linarith⟩
    simp only [transit, if_neg hb, lam, Res.bind]
  · have hp : 0 < (rmin / rmax) ^ pw := Real.rpow_pos_of_pos (by positivity) _
    rw [Real.exp_lt_one_iff]; linarith
  · intro r s hr hs
    apply Real.exp_le_exp.mpr
    have q2 : (r / rmax) ^ pw ≤ (s / rmax) ^ pw := Real.rpow_le_rpow (by positivity) (by gcongr) hpw
    linarith

/-- C96 violation: with λ = 1 the roll-off that is cut at rmax jumps there: it is at least 1/e before and 0 after -/
theorem C96_rolloff_jump_violation (e rmin rmax pw : ℝ) (he : 0 < e) (h0 : 0 < rmin) (hx : 0 < rmax) (hpw : 0 ≤ pw) :
    (∀ r, 0 ≤ r → r < rmax - e → ∃ x, transit e .expCut .const rmin rmax pw r = .ok x ∧ Real.exp (-1) ≤ x) ∧
    (∀ r, rmax - e ≤ r → transit e .expCut .const rmin rmax pw r = .ok 0) := by
  have hl : ∀ r, Tol.lss e r rmax = true ↔ r < rmax - e := fun r => by
    rw [(Tol.C13_meaning e r rmax he).2.1]; constructor <;> intro h <;> linarith
  have hb : ¬ (¬ 0 < rmin ∨ ¬ 0 < rmax ∨ Lam.const = .other) := by push Not; exact ⟨h0, hx, by decide⟩
  constructor
  · intro r hr hc
    refine ⟨_, by simp only [transit, if_neg hb, if_pos ((hl r).mpr hc), lam, Res.bind]; rfl, ?_⟩
    apply Real.exp_le_exp.mpr
    have : (r / rmax) ^ pw ≤ 1 := Real.rpow_le_one (by positivity) (by rw [div_le_one hx]; linarith) hpw
    linarith
  · intro r hc
    have : ¬ (Tol.lss e r rmax = true) := by rw [hl]; linarith
    simp only [transit, if_neg hb, if_neg this]

/-- C96 violation: the roll-off without cut and λ = |r-rmin|/(rmax-r) - two options that may be chosen together - stops the run at every point from rmax on,
which every grid has -/
theorem C96_rolloff_abort_violation (e rmin rmax pw r : ℝ) (hr : rmax ≤ r) : transit e .exp .ratio rmin rmax pw r = .abort := by
  unfold transit
  split
  · rfl
  · simp only [lam, if_neg (not_lt.mpr hr), Res.bind]

/-! ### the superposition -/

/-- C96 the superposed metric is symmetric and positive definite for every value of the roll-off; it is the flat metric where the roll-off is 0 and the given
one where it is 1 -/
theorem C96_superpose (att : ℝ) (h0 : 0 ≤ att) (h1 : att ≤ 1) (g : Fin 3 → Fin 3 → ℝ) (hs : Adm.Symm g) (hg : PosDef g) :
    Adm.Symm (superpose att g) ∧ PosDef (superpose att g) ∧ (att = 0 → superpose att g = fun i j => if i = j then 1 else 0) ∧ (att = 1 → superpose att g = g) := by
  refine ⟨?_, ?_, ?_, ?_⟩
  · intro i j
    unfold superpose
    rw [hs i j]; simp only [eq_comm]
  · intro v hv
    have hq := hg v hv
    have e1 : (∑ i, ∑ j, superpose att g i j * v i * v j) = (1 - att) * (v 0 ^ 2 + v 1 ^ 2 + v 2 ^ 2) + att * ∑ i, ∑ j, g i j * v i * v j := by
      simp only [Fin.sum_univ_three, superpose, Fin.isValue, Fin.reduceEq, if_true, if_false]
      ring
    rw [e1]
    have hv2 : 0 < v 0 ^ 2 + v 1 ^ 2 + v 2 ^ 2 := by
      by_contra h
      apply hv
      have a := sq_nonneg (v 0); have b := sq_nonneg (v 1); have c := sq_nonneg (v 2)
      funext i
      fin_cases i
      · exact pow_eq_zero_iff two_ne_zero |>.mp (by linarith : v 0 ^ 2 = 0)
      · exact pow_eq_zero_iff two_ne_zero |>.mp (by linarith : v 1 ^ 2 = 0)
      · exact pow_eq_zero_iff two_ne_zero |>.mp (by linarith : v 2 ^ 2 = 0)
    rcases h1.lt_or_eq with h | h
    · have := mul_pos (sub_pos.mpr h) hv2
      have := mul_nonneg h0 hq.le
      linarith
    · rw [h]; linarith
  · rintro rfl
    funext i j; simp [superpose]
  · rintro rfl
    funext i j
    unfold superpose
    split <;> ring

/-- C96 the Kerr-Schild metric is symmetric and positive definite (off the ring disc), so `C96_superpose` applies to it -/
theorem C96_KerrSchild (P : Ks.Par) (q : Fields.Pt) (hm : 0 ≤ P.Lam * P.M) (hR : 0 ≤ Ks.R P q) :
    Adm.Symm (fun i j => Ks.gam P i j q) ∧ PosDef (fun i j => Ks.gam P i j q) := by
  have hc : 0 ≤ Ks.c P q := by unfold Ks.c Ks.H; positivity
  constructor
  · intro i j
    simp only [Ks.gam_eq]
    rw [show (if i = j then (1 : ℝ) else 0) = if j = i then 1 else 0 by simp only [eq_comm]]
    ring
  · intro v hv
    have e1 : (∑ i, ∑ j, Ks.gam P i j q * v i * v j) = (v 0 ^ 2 + v 1 ^ 2 + v 2 ^ 2) +
        Ks.c P q * (Ks.ksp P q 0 * v 0 + Ks.ksp P q 1 * v 1 + Ks.ksp P q 2 * v 2) ^ 2 := by
      simp only [Fin.sum_univ_three, Ks.gam_eq, Fin.isValue, Fin.reduceEq, if_true, if_false]
      ring
    rw [e1]
    have hv2 : 0 < v 0 ^ 2 + v 1 ^ 2 + v 2 ^ 2 := by
      by_contra h
      apply hv
      have a := sq_nonneg (v 0); have b := sq_nonneg (v 1); have c := sq_nonneg (v 2)
      funext i
      fin_cases i
      · exact pow_eq_zero_iff two_ne_zero |>.mp (by linarith : v 0 ^ 2 = 0)
      · exact pow_eq_zero_iff two_ne_zero |>.mp (by linarith : v 1 ^ 2 = 0)
      · exact pow_eq_zero_iff two_ne_zero |>.mp (by linarith : v 2 ^ 2 = 0)
    have := mul_nonneg hc (sq_nonneg (Ks.ksp P q 0 * v 0 + Ks.ksp P q 1 * v 1 + Ks.ksp P q 2 * v 2))
    linarith

end Elliptica.Fd
