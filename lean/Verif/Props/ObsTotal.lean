import Verif.Model.Observe
import Verif.Props.ObsMass
import Verif.Props.HamMomAgree
import Verif.Props.Integration
import Mathlib.Data.Fin.VecNotation
/-!
C86 the masses: totals over the collected patches, and the normals.
-/
namespace Elliptica.Obs
open Elliptica.Gen Elliptica.Gen.Obs Elliptica.Integ Elliptica.Index Elliptica.Fields Elliptica.Conformal Elliptica.Constraints Finset

/-- a collected patch that can be integrated over: two points or more in every direction; of a surface, one direction, and an
index within the patch -/
structure Item.Ok (a : Item) : Prop where
  n : ∀ d, 2 ≤ a.P.n d
  flag : a.surf = true → ∃ d, ∀ e, a.flag e = decide (e = d)
  s : a.surf = true → ∀ d, a.flag d = true → a.s d < a.P.n d

/-- the number of nodes -/
def Item.nn (a : Item) : ℕ := a.P.n 0 * a.P.n 1 * a.P.n 2

theorem idx_in (n : Fin 3 → ℕ) {i j k : ℕ} (hi : i < n 0) (hj : j < n 1) (hk : k < n 2) : ijk (n 1) (n 2) i j k < n 0 * n 1 * n 2 := by
  unfold ijk
  have h1 : i * n 1 + j < n 0 * n 1 := by
    calc i * n 1 + j < i * n 1 + n 1 := by omega
      _ = (i + 1) * n 1 := by ring
      _ ≤ n 0 * n 1 := Nat.mul_le_mul_right _ hi
  calc _ = (i * n 1 + j) * n 2 + k := by ring
    _ < (i * n 1 + j) * n 2 + n 2 := by omega
    _ = (i * n 1 + j + 1) * n 2 := by ring
    _ ≤ n 0 * n 1 * n 2 := Nat.mul_le_mul_right _ h1

theorem wholeDV_lf (P : Integ.Patch) (hn : ∀ d, 2 ≤ P.n d) (g : Integ.Metric) (fv : ℕ → ℝ) :
    wholeDV P g fv = .ok (-(lf P.n 0 (wOpt P.n 0) fun a => lf P.n 1 (wOpt P.n 1) fun b => lf P.n 2 (wOpt P.n 2) fun c =>
      volIntegrand P g fv (ijk (P.n 1) (P.n 2) a b c))) := by
  obtain ⟨f', c, h1, h2⟩ := sum3 P.n hn (volIntegrand P g fv)
  unfold wholeDV
  rw [h1, Res.bind_ok]
  dsimp only
  congr 1
  rw [← h2 (fun d => wOpt P.n d), mul_neg_one]
  congr 1
  unfold evens
  rw [sum_filter]
  refine sum_congr rfl fun i _ => ?_
  by_cases hi : i % 2 = 0
  · rw [if_pos hi, sum_filter]
    refine sum_congr rfl fun j _ => ?_
    by_cases hj : j % 2 = 0
    · rw [if_pos hj, sum_filter]
      refine sum_congr rfl fun k _ => ?_
      by_cases hk : k % 2 = 0 <;> simp [wOpt, hi, hj, hk]
    · simp [wOpt, hj]
  · simp [wOpt, hi]

/-- a volume integral exists; scaling the integrand at the nodes scales it -/
theorem onV_scale (a : Item) (h : a.Ok) (f f' : In → ℝ) (c : ℝ) (e : ∀ l < a.nn, f' (a.x l) = c * f (a.x l)) :
    ∃ v, a.onV f = .ok v ∧ a.onV f' = .ok (c * v) := by
  refine ⟨_, wholeDV_lf _ h.n _ _, ?_⟩
  unfold Item.onV
  rw [wholeDV_lf _ h.n]
  congr 1
  rw [mul_neg, ← lf_smul]
  congr 1
  refine lf_congr _ _ _ _ _ fun i hi => ?_
  rw [← lf_smul]
  refine lf_congr _ _ _ _ _ fun j hj => ?_
  rw [← lf_smul]
  refine lf_congr _ _ _ _ _ fun k hk => ?_
  unfold volIntegrand
  beta_reduce
  rw [e _ (idx_in _ hi hj hk)]
  ring

theorem surfIntegrand_scale (a : Item) (f f' : In → ℝ) (c : ℝ) (e : ∀ l < a.nn, f' (a.x l) = c * f (a.x l)) (d d' : Fin 3) (on : ℕ → Bool)
    (l : ℕ) (hl : l < a.nn) :
    surfIntegrand a.P a.g (fun l => f' (a.x l)) d d' on l = c * surfIntegrand a.P a.g (fun l => f (a.x l)) d d' on l := by
  unfold surfIntegrand
  split
  · beta_reduce; rw [e l hl]; ring
  · ring

/-- the same of a surface -/
theorem onS_scale (a : Item) (hs : a.surf = true) (h : a.Ok) (f f' : In → ℝ) (c : ℝ) (e : ∀ l < a.nn, f' (a.x l) = c * f (a.x l)) :
    ∃ v, a.onS f = .ok v ∧ a.onS f' = .ok (c * v) := by
  obtain ⟨d, hd⟩ := h.flag hs
  have hin := h.s hs d (by simp [hd])
  unfold Item.onS surfDS
  have q := surfIntegrand_scale a f f' c e
  fin_cases d
  · replace hin : a.s 0 < a.P.n 0 := hin
    have h0 : a.flag 0 = true := by simp [hd]
    simp only [h0, if_true]
    obtain ⟨_, w, h1, h2⟩ := (sum2 a.P.n h.n (surfIntegrand a.P a.g (fun l => f (a.x l)) 1 2 fun l => toI (a.P.n 1) (a.P.n 2) l == a.s 0)).1
    obtain ⟨_, w', h1', h2'⟩ := (sum2 a.P.n h.n (surfIntegrand a.P a.g (fun l => f' (a.x l)) 1 2 fun l => toI (a.P.n 1) (a.P.n 2) l == a.s 0)).1
    rw [h1, h1']
    simp only [Res.bind_ok]
    refine ⟨_, rfl, ?_⟩
    rw [evens2 a.P.n 1 2 (fun j k => w' (ijk (a.P.n 1) (a.P.n 2) (a.s 0) j k)), h2' _ hin (wOpt a.P.n),
      evens2 a.P.n 1 2 (fun j k => w (ijk (a.P.n 1) (a.P.n 2) (a.s 0) j k)), h2 _ hin (wOpt a.P.n), ← lf_smul]
    congr 1
    refine lf_congr _ _ _ _ _ fun i hi => ?_
    rw [← lf_smul]
    exact lf_congr _ _ _ _ _ fun j hj => q 1 2 _ _ (idx_in _ hin hi hj)
  · replace hin : a.s 1 < a.P.n 1 := hin
    have h0 : a.flag 0 = false := by simp [hd]
    have h1' : a.flag 1 = true := by simp [hd]
    simp only [h0, h1', if_true, Bool.false_eq_true, if_false]
    obtain ⟨_, w, h1, h2⟩ := (sum2 a.P.n h.n (surfIntegrand a.P a.g (fun l => f (a.x l)) 0 2 fun l => toJ (a.P.n 1) (a.P.n 2) l == a.s 1)).2.1
    obtain ⟨_, w', h1', h2'⟩ := (sum2 a.P.n h.n (surfIntegrand a.P a.g (fun l => f' (a.x l)) 0 2 fun l => toJ (a.P.n 1) (a.P.n 2) l == a.s 1)).2.1
    rw [h1, h1']
    simp only [Res.bind_ok]
    refine ⟨_, rfl, ?_⟩
    rw [evens2 a.P.n 0 2 (fun j k => w' (ijk (a.P.n 1) (a.P.n 2) j (a.s 1) k)), h2' _ hin (wOpt a.P.n),
      evens2 a.P.n 0 2 (fun j k => w (ijk (a.P.n 1) (a.P.n 2) j (a.s 1) k)), h2 _ hin (wOpt a.P.n), ← lf_smul]
    congr 1
    refine lf_congr _ _ _ _ _ fun i hi => ?_
    rw [← lf_smul]
    exact lf_congr _ _ _ _ _ fun j hj => q 0 2 _ _ (idx_in _ hi hin hj)
  · replace hin : a.s 2 < a.P.n 2 := hin
    have h0 : a.flag 0 = false := by simp [hd]
    have h1' : a.flag 1 = false := by simp [hd]
    have h2' : a.flag 2 = true := by simp [hd]
    simp only [h0, h1', h2', if_true, Bool.false_eq_true, if_false]
    obtain ⟨_, w, h1, h2⟩ := (sum2 a.P.n h.n (surfIntegrand a.P a.g (fun l => f (a.x l)) 0 1 fun l => toK (a.P.n 1) (a.P.n 2) l == a.s 2)).2.2
    obtain ⟨_, w', h1', h2'⟩ := (sum2 a.P.n h.n (surfIntegrand a.P a.g (fun l => f' (a.x l)) 0 1 fun l => toK (a.P.n 1) (a.P.n 2) l == a.s 2)).2.2
    rw [h1, h1']
    simp only [Res.bind_ok]
    refine ⟨_, rfl, ?_⟩
    rw [evens2 a.P.n 0 1 (fun j k => w' (ijk (a.P.n 1) (a.P.n 2) j k (a.s 2))), h2' _ hin (wOpt a.P.n),
      evens2 a.P.n 0 1 (fun j k => w (ijk (a.P.n 1) (a.P.n 2) j k (a.s 2))), h2 _ hin (wOpt a.P.n), ← lf_smul]
    congr 1
    refine lf_congr _ _ _ _ _ fun i hi => ?_
    rw [← lf_smul]
    exact lf_congr _ _ _ _ _ fun j hj => q 0 1 _ _ (idx_in _ hi hj hin)

/-- the value of an item: its surface integral or its volume integral -/
def Item.Val (fS fV : In → ℝ) (a : Item) (v : ℝ) : Prop := if a.surf then a.onS fS = .ok v else a.onV fV = .ok v

/-- C86: the total of `obs_integral_SV`: the sum of the surface integrals with their sign and of the volume integrals with theirs -/
theorem C86_integral (items : List Item) (h0 : items ≠ []) (fS fV : In → ℝ) (sS sV : Bool) (vals : List ℝ)
    (hv : List.Forall₂ (Item.Val fS fV) items vals) :
    integralSV items fS fV sS sV = .ok ((List.zipWith (fun (a : Item) v => (if (if a.surf then sS else sV) then 1 else -1) * v) items vals).sum) := by
  unfold integralSV
  rw [if_neg h0]
  clear h0
  have : ∀ acc, loopSV fS fV (if sS then 1 else -1) (if sV then 1 else -1) items acc =
      .ok (acc + (List.zipWith (fun (a : Item) v => (if (if a.surf then sS else sV) then 1 else -1) * v) items vals).sum) := by
    induction hv with
    | nil => intro acc; simp [loopSV]
    | @cons a v t vt hav _ ih =>
      intro acc
      unfold loopSV
      cases hs : a.surf <;> simp only [Item.Val, hs, if_true, Bool.false_eq_true, if_false] at hav <;>
        simp only [hav, Res.bind_ok, if_true, Bool.false_eq_true, if_false, ih, List.zipWith_cons_cons, List.sum_cons, hs, Res.ok.injEq] <;> ring
  simpa using this 0

/-- C86: without items there is no integral -/
theorem C86_integral_none (fS fV : In → ℝ) (sS sV : Bool) : integralSV [] fS fV sS sV = .abort := rfl

/-- C86: the mass at infinity: the sum of the surface integrals over 16π; a volume item stops the program -/
theorem C86_mass_S2 (items : List Item) :
    ((∃ a ∈ items, a.surf = false) → ¬ ∃ m, massS2 items = .ok m) ∧
    ∀ vals, List.Forall₂ (fun a v => a.surf = true ∧ a.onS MassS2.out_ADM_mass_integrand_S = .ok v) items vals →
      massS2 items = .ok (vals.sum / (16 * Real.pi)) := by
  constructor
  · rintro ⟨a, ha, hs⟩
    have : ∀ acc, ¬ ∃ m, massS2Loop items acc = .ok m := by
      induction items with
      | nil => simp at ha
      | cons b t ih =>
        rintro acc ⟨m, hm⟩
        unfold massS2Loop at hm
        rcases List.mem_cons.1 ha with e | e
        · rw [← e, hs] at hm; simp at hm
        · by_cases hb : b.surf = true
          · rw [if_pos hb] at hm
            cases hx : b.onS MassS2.out_ADM_mass_integrand_S with
            | ok v => rw [hx, Res.bind_ok] at hm; exact ih e _ ⟨m, hm⟩
            | abort => rw [hx] at hm; simp [Res.bind] at hm
            | ub => rw [hx] at hm; simp [Res.bind] at hm
          · rw [if_neg hb] at hm; simp at hm
    rintro ⟨m, hm⟩
    unfold massS2 at hm
    cases hx : massS2Loop items 0 with
    | ok v => exact this 0 ⟨v, hx⟩
    | abort => rw [hx] at hm; simp [Res.bind] at hm
    | ub => rw [hx] at hm; simp [Res.bind] at hm
  · intro vals hv
    have : ∀ acc, massS2Loop items acc = .ok (acc + vals.sum) := by
      induction hv with
      | nil => intro acc; simp [massS2Loop]
      | @cons a v t vt hav _ ih => intro acc; unfold massS2Loop; rw [if_pos hav.1, hav.2, Res.bind_ok, ih]; simp; ring
    unfold massS2
    rw [this, Res.bind_ok, zero_add]

/-- C86: the Komar mass: the sum of the surface integrals over 4π and of the volume integrals -/
theorem C86_komar_total (items : List Item) (vals : List ℝ)
    (hv : List.Forall₂ (Item.Val Komar.out_obs_komar_mass__s Komar.out_obs_komar_mass__v) items vals) :
    komar items = .ok ((List.zipWith (fun (a : Item) v => if a.surf then v / (4 * Real.pi) else v) items vals).sum) := by
  have : ∀ acc, komarLoop items acc = .ok (acc + (List.zipWith (fun (a : Item) v => if a.surf then v / (4 * Real.pi) else v) items vals).sum) := by
    induction hv with
    | nil => intro acc; simp [komarLoop]
    | @cons a v t vt hav _ ih =>
      intro acc
      unfold komarLoop
      cases hs : a.surf <;> simp only [Item.Val, hs, if_true, Bool.false_eq_true, if_false] at hav <;>
        simp only [hav, Res.bind_ok, if_true, Bool.false_eq_true, if_false, ih, List.zipWith_cons_cons, List.sum_cons, hs, Res.ok.injEq] <;> ring
  unfold komar
  rw [this, zero_add]

/-- C86: the isotropic mass: the sum of the surface and of the volume integrals over -2π -/
theorem C86_mass_total (items : List Item) (vals : List ℝ)
    (hv : List.Forall₂ (Item.Val MassIso.out_ADM_mass_integrand_S MassIso.out_ADM_mass_integrand_V) items vals) :
    massIso items = .ok (vals.sum / (-2 * Real.pi)) := by
  have : ∀ acc, massIsoLoop items acc = .ok (acc + vals.sum) := by
    induction hv with
    | nil => intro acc; simp [massIsoLoop]
    | @cons a v t vt hav _ ih =>
      intro acc
      unfold massIsoLoop
      cases hs : a.surf <;> simp only [Item.Val, hs, if_true, Bool.false_eq_true, if_false] at hav <;>
        simp only [hav, Res.bind_ok, if_true, Bool.false_eq_true, if_false, ih, List.sum_cons, Res.ok.injEq] <;> ring
  unfold massIso
  rw [this, Res.bind_ok, zero_add]

/-- the equation for ψ holds at a node: the residual that its routine computes from the same fields is zero -/
def PsiSolved (x : In) : Prop :=
  ∃ z : Psi.In, Equation.Psi.Sym z ∧ Psi.Eq.out_schur_F z = 0 ∧ z.psi = x.psi ∧ z.dpsi_D = x.dpsi_D ∧ z.ddpsi_DD = x.ddpsi_DD ∧
    z.igConf_UU = x.igConf_UU ∧ z.ChrisConf_UDD = x.ChrisConf_UDD ∧ z.trRicciConf = x.trRicciConf ∧ z.trK = x.trK ∧
    z.AConfIJ_UU = x.AConfIJ_UU ∧ z.gConf_DD = x.gConf_DD ∧ z.EConfC = 1 ∧ z.EConfP = x.EConf ∧
    z.AConfIJ2 = Adm.contract z.gConf_DD z.AConfIJ_UU z.AConfIJ_UU

/-- C86: the two ways to compute the mass from inner surfaces and the volume around them give the same number, exactly, when the
equation for ψ holds at the nodes of the volume and all of them lie within the cut-off -/
theorem C86_agree (items : List Item) (h0 : items ≠ []) (hok : ∀ a ∈ items, a.Ok)
    (hsol : ∀ a ∈ items, a.surf = false → ∀ l < a.nn, (a.x l).psi ≠ 0 ∧ (a.x l).att = 1 ∧ PsiSolved (a.x l)) :
    ∃ m, massIso items = .ok m ∧ massConf items = .ok m := by
  have pi0 := Real.pi_ne_zero
  have key : ∀ a ∈ items, ∃ v, Item.Val MassIso.out_ADM_mass_integrand_S MassIso.out_ADM_mass_integrand_V a v ∧
      Item.Val MassConf.out_obs__Ms MassConf.out_obs__Mv a (-(1 / (2 * Real.pi)) * v) := by
    intro a ha
    by_cases hs : a.surf = true
    · obtain ⟨v, h1, h2⟩ := onS_scale a hs (hok a ha) MassIso.out_ADM_mass_integrand_S MassConf.out_obs__Ms (-(1 / (2 * Real.pi))) (by
        intro l _
        unfold MassConf.out_obs__Ms MassConf.Ms MassIso.out_ADM_mass_integrand_S MassIso.M_s
        field_simp)
      exact ⟨v, by simp [Item.Val, hs, h1], by simp only [Item.Val, hs, if_true, h2]⟩
    · have hs' : a.surf = false := by simpa using hs
      obtain ⟨v, h1, h2⟩ := onV_scale a (hok a ha) MassIso.out_ADM_mass_integrand_V MassConf.out_obs__Mv (-(1 / (2 * Real.pi))) (by
        intro l hl
        obtain ⟨p0, at1, z, S, r0, e⟩ := hsol a ha hs' l hl
        rw [(C86_conformal (a.x l) z S p0 at1 e).2, r0]
        field_simp
        ring)
      exact ⟨v, by simp [Item.Val, hs', h1], by simp only [Item.Val, hs', Bool.false_eq_true, if_false, h2]⟩
  have ex : ∃ vals, List.Forall₂ (Item.Val MassIso.out_ADM_mass_integrand_S MassIso.out_ADM_mass_integrand_V) items vals ∧
      List.Forall₂ (Item.Val MassConf.out_obs__Ms MassConf.out_obs__Mv) items (vals.map fun v => -(1 / (2 * Real.pi)) * v) ∧
      vals.length = items.length := by
    clear h0 hok hsol
    induction items with
    | nil => exact ⟨[], .nil, .nil, rfl⟩
    | cons a t ih =>
      obtain ⟨vt, i1, i2, i3⟩ := ih fun b hb => key b (List.mem_cons_of_mem _ hb)
      obtain ⟨v, j1, j2⟩ := key a List.mem_cons_self
      exact ⟨v :: vt, .cons j1 i1, .cons j2 i2, by simp [i3]⟩
  obtain ⟨vals, i1, i2, i3⟩ := ex
  refine ⟨_, C86_mass_total items vals i1, ?_⟩
  unfold massConf
  rw [C86_integral items h0 _ _ true true _ i2]
  congr 1
  simp only [ite_self, if_true, one_mul]
  clear h0 hok hsol key i1 i2
  have hz : ∀ (l : List Item) (w : List ℝ), w.length = l.length → (List.zipWith (fun (_ : Item) v => (v : ℝ)) l w) = w := by
    intro l
    induction l with
    | nil => intro w hw; simp at hw; simp [hw]
    | cons a t ih => intro w hw; cases w with
      | nil => simp at hw
      | cons b u => simp at hw; simp [ih u hw]
  rw [hz _ _ (by simp [i3]), List.sum_map_mul_left, List.map_id']
  field_simp

/-- C86, in part: the vector used as normal of a surface of constant third coordinate has unit length for the metric named in
the code and points to larger values of the coordinate; for a metric proportional to the Euclidean one it is the normal: it is
orthogonal to every direction tangent to the surface.  Missing: orthogonality for the other metrics, see `C86_normal_violation` -/
theorem C86_normal_partial (psi : ℝ) (g : Fin 3 → Fin 3 → ℝ) (gs : ∀ i j, g i j = g j i) (d n : Fin 3 → ℝ) :
    (nPhysical psi g d = .ok n →
      (∑ i, ∑ j, psi ^ 4 * g i j * n i * n j = 1) ∧ 0 < ∑ i, d i * n i ∧
      ∀ c, (∀ i j, g i j = if i = j then c else 0) → ∀ t : Fin 3 → ℝ, ∑ i, d i * t i = 0 → ∑ i, ∑ j, psi ^ 4 * g i j * n i * t j = 0) ∧
    (nConformal g d = .ok n →
      (∑ i, ∑ j, g i j * n i * n j = 1) ∧ 0 < ∑ i, d i * n i ∧
      ∀ c, (∀ i j, g i j = if i = j then c else 0) → ∀ t : Fin 3 → ℝ, ∑ i, d i * t i = 0 → ∑ i, ∑ j, g i j * n i * t j = 0) := by
  have pos : ∀ N2 : ℝ, 0 < N2 → (∃ i, d i ≠ 0) → 0 < ∑ i, d i * (d i / √N2) := by
    intro N2 h ⟨i, hi⟩
    have hq := Real.sqrt_pos.2 h
    refine Finset.sum_pos' (fun j _ => ?_) ⟨i, mem_univ i, ?_⟩
    · rw [mul_div_assoc']; exact div_nonneg (mul_self_nonneg _) hq.le
    · rw [mul_div_assoc']; exact div_pos (mul_self_pos.2 hi) hq
  have dne : ∀ c : ℝ, 0 < c * norm2 g d → ∃ i, d i ≠ 0 := by
    intro c h
    by_contra hc
    push Not at hc
    simp [norm2, hc] at h
  have core : ∀ c : ℝ, 0 < c * norm2 g d → (∑ i, ∑ j, c * g i j * (d i / √(c * norm2 g d)) * (d j / √(c * norm2 g d)) = 1) := by
    intro c h
    have hq := (Real.sqrt_pos.2 h).ne'
    have e := Real.sq_sqrt h.le
    have : ∑ i, ∑ j, c * g i j * (d i / √(c * norm2 g d)) * (d j / √(c * norm2 g d)) = c * norm2 g d / √(c * norm2 g d) ^ 2 := by
      generalize √(c * norm2 g d) = q at hq
      simp only [norm2, Fin.sum_univ_three, gs 1 0, gs 2 0, gs 2 1]
      field_simp
      ring
    rw [this, e, div_self h.ne']
  have orth : ∀ c q : ℝ, ∀ t : Fin 3 → ℝ, ∀ k : ℝ, (∀ i j, g i j = if i = j then k else 0) → ∑ i, d i * t i = 0 →
      ∑ i, ∑ j, c * g i j * (d i / q) * t j = 0 := by
    intro c q t k hg ht
    simp only [Fin.sum_univ_three] at ht
    simp only [hg, Fin.sum_univ_three]
    simp
    linear_combination (c * k / q) * ht
  constructor
  · intro h
    unfold nPhysical at h
    dsimp only at h
    split at h
    · simp at h
    · rename_i h0
      have h0 : 0 < psi ^ 2 * psi ^ 2 * norm2 g d := not_le.1 h0
      rw [show psi ^ 2 * psi ^ 2 = psi ^ 4 by ring] at h h0
      injection h with h
      subst h
      exact ⟨core _ h0, pos _ h0 (dne _ h0), fun c hg t ht => orth _ _ t c hg ht⟩
  · intro h
    unfold nConformal at h
    dsimp only at h
    split at h
    · simp at h
    · rename_i h0
      have h0 : 0 < 1 * norm2 g d := by rw [one_mul]; exact not_le.1 h0
      injection h with h
      subst h
      refine ⟨?_, ?_, fun c hg t ht => ?_⟩
      · simpa only [one_mul] using core 1 h0
      · have := pos _ h0 (dne _ h0); simpa only [one_mul] using this
      · simpa only [one_mul] using orth 1 (√(norm2 g d)) t c hg ht

example : nPhysical 2 (fun i j => if i = j then 1 else 0) (fun i => if i = 0 then 3 else 0) = .ok fun i => (if i = 0 then 3 else 0) / √(2 ^ 2 * 2 ^ 2 * norm2 (fun i j => if i = j then 1 else 0) (fun i => if i = 0 then 3 else 0)) := by
  unfold nPhysical
  dsimp only
  rw [if_neg (by simp [norm2])]

/-- C86 fails for other metrics: the code takes the gradient of the coordinate as the normal without raising its index.  For the
metric diag(1,2,1) and the surface x + y = const the result is not orthogonal to the tangent (1,-1,0) of the surface -/
theorem C86_normal_violation :
    ∃ (g : Fin 3 → Fin 3 → ℝ) (d t n : Fin 3 → ℝ), (∀ v : Fin 3 → ℝ, v ≠ 0 → 0 < ∑ i, ∑ j, g i j * v i * v j) ∧ (∀ i j, g i j = g j i) ∧
      ∑ i, d i * t i = 0 ∧ nPhysical 1 g d = .ok n ∧ nConformal g d = .ok n ∧ ∑ i, ∑ j, g i j * n i * t j ≠ 0 := by
  refine ⟨fun i j => if i = j then (if i = 1 then 2 else 1) else 0, ![1, 1, 0], ![1, -1, 0], fun i => (![1, 1, 0] : Fin 3 → ℝ) i / √3, ?_, ?_, ?_, ?_, ?_, ?_⟩
  · intro v hv
    have : ∃ i, v i ≠ 0 := Function.ne_iff.1 hv
    obtain ⟨i, hi⟩ := this
    have h := pow_pos (abs_pos.2 hi) 2
    rw [sq_abs] at h
    simp [Fin.sum_univ_three]
    fin_cases i <;> simp at h hi ⊢ <;> nlinarith [sq_nonneg (v 0), sq_nonneg (v 1), sq_nonneg (v 2)]
  · intro i j
    by_cases e : i = j
    · subst e; rfl
    · simp [e, Ne.symm e]
  · simp [Fin.sum_univ_three]
  · unfold nPhysical
    dsimp only
    rw [if_neg (by simp [norm2]; norm_num), show (1 : ℝ) ^ 2 * 1 ^ 2 * norm2 (fun i j => if i = j then (if i = 1 then 2 else 1) else 0) ![1, 1, 0] = 3 by simp [norm2]; norm_num]
  · unfold nConformal
    dsimp only
    rw [if_neg (by simp [norm2]; norm_num), show norm2 (fun i j => if i = j then (if i = 1 then 2 else 1) else 0) ![1, 1, 0] = 3 by simp [norm2]; norm_num]
  · have h3 : √(3 : ℝ) ≠ 0 := (Real.sqrt_pos.2 (by norm_num)).ne'
    simp [Fin.sum_univ_three]
    intro hc
    field_simp at hc
    norm_num at hc

/-! ### the hypotheses can be met -/

/-- the values read at a point of a slice; the fields that are not of the slice are arguments -/
noncomputable def nodeO (s : Slice) (p : Pt) (n b xi : Fin 3 → ℝ) (al : Pt → ℝ) (E S : ℝ) (J : Fin 3 → ℝ) : In where
  dpsi_D := fun i => pd s.psi i p
  psi := s.psi p
  n_U := n
  igConf_UU := fun i j => s.h i j p
  dgConf_DDD := fun i j k => pd (s.g i j) k p
  ChrisConf_UDD := fun i j k => s.conn i j k p
  ddpsi_DD := fun i j => pd (pd s.psi i) j p
  att := 1
  EConf := s.psi p ^ 6 * E
  AConfIJ_UU := fun i j => s.A i j p
  gConf_DD := fun i j => s.g i j p
  trRicciConf := 0
  trK := s.K p
  alphaPsi := al p * s.psi p
  dalphaPsi_D := fun i => pd (fun q => al q * s.psi q) i p
  beta_U := b
  SConf := s.psi p ^ 6 * S
  JConf_U := fun i => s.psi p ^ 6 * J i
  xi_U := xi
  dAConfIJ_UUD := fun i j k => pd (s.A i j) k p
  dtrK_D := fun i => pd s.K i p
  x_xCM_U := xi
  AKV0_U := xi
  AKV1_U := xi
  AKV2_U := xi

theorem nodeO_at (s : Slice) (p : Pt) (n b xi : Fin 3 → ℝ) (al : Pt → ℝ) (E S : ℝ) (J : Fin 3 → ℝ) : At s p (nodeO s p n b xi al E S J) :=
  ⟨rfl, fun _ => rfl, fun _ _ => rfl, fun _ _ => rfl, fun _ _ => rfl, fun _ _ _ => rfl, fun _ _ _ => rfl, fun _ _ => rfl, fun _ _ _ => rfl, rfl, fun _ => rfl⟩

/-- C86_surface, C86_isotropic and C86_komar: a slice with a metric that is not flat, and a lapse -/
example (p : Pt) (n b xi J : Fin 3 → ℝ) (E S : ℝ) : demoSlice.Good p ∧ At demoSlice p (nodeO demoSlice p n b xi (fun _ => 2) E S J) ∧
    Diff (fun q => (fun _ : Pt => (2 : ℝ)) q * demoSlice.psi q) p :=
  ⟨demo_good p, nodeO_at _ _ _ _ _ _ _ _ _, fun i => by
    exact (((demo_good p).dpsi p).has i).differentiableAt.const_mul 2⟩

/-- a node with ψ = 1, Δψ = 1 and R = 8 -/
noncomputable def exNode : In where
  dpsi_D := fun _ => 0
  psi := 1
  n_U := fun _ => 1
  igConf_UU := fun i j => if i = j then 1 else 0
  dgConf_DDD := fun _ _ _ => 0
  ChrisConf_UDD := fun _ _ _ => 0
  ddpsi_DD := fun i j => if i = 0 ∧ j = 0 then 1 else 0
  att := 1
  EConf := 0
  AConfIJ_UU := fun _ _ => 0
  gConf_DD := fun i j => if i = j then 1 else 0
  trRicciConf := 8
  trK := 0
  alphaPsi := 1
  dalphaPsi_D := fun _ => 0
  beta_U := fun _ => 0
  SConf := 0
  JConf_U := fun _ => 0
  xi_U := fun _ => 0
  dAConfIJ_UUD := fun _ _ _ => 0
  dtrK_D := fun _ => 0
  x_xCM_U := fun _ => 0
  AKV0_U := fun _ => 0
  AKV1_U := fun _ => 0
  AKV2_U := fun _ => 0

theorem exNode_solved : PsiSolved exNode := by
  let z : Psi.In := ⟨1, 0, fun _ _ _ => 0, fun _ => 0, fun i j => if i = j then 1 else 0, fun i j => if i = 0 ∧ j = 0 then 1 else 0, 0, 8, 0, 1,
    fun _ => 0, fun _ _ => 0, 0, fun _ => 0, fun _ _ => 0, fun _ _ => 0, fun i j => if i = j then 1 else 0⟩
  have S : Equation.Psi.Sym z := ⟨fun i j => by simp only [z, eq_comm], fun _ _ _ => rfl, fun i j => by simp only [z, and_comm], fun _ _ => rfl,
    fun _ _ => rfl, fun i j => by simp only [z, eq_comm]⟩
  refine ⟨z, S, ?_, rfl, rfl, rfl, rfl, rfl, rfl, rfl, rfl, rfl, rfl, rfl, ?_⟩
  · rw [Equation.Psi.C63_psi z S one_ne_zero]
    simp [z, Xcts.hamiltonian, Xcts.laplace, Fin.sum_univ_three]
  · simp [z, Adm.contract]

/-- a volume and a surface of it -/
noncomputable def exItem (b : Bool) : Item where
  P := ⟨fun _ => 3, fun _ => 0, fun _ => 1, fun _ i j => if i = j then 1 else 0⟩
  g := ⟨fun _ => 1, fun _ => 0, fun _ => 0, fun _ => 1, fun _ => 0, fun _ => 1⟩
  surf := b
  flag := fun d => decide (d = 2)
  s := fun _ => 0
  x := fun _ => exNode

theorem exItem_ok (b : Bool) : (exItem b).Ok := ⟨fun _ => by simp [exItem], fun _ => ⟨2, fun _ => rfl⟩, fun _ _ _ => by simp [exItem]⟩

/-- C86_agree and the theorems on totals: the values exist -/
example : (∀ a ∈ [exItem false, exItem true], a.Ok) ∧
    (∀ a ∈ [exItem false, exItem true], a.surf = false → ∀ l < a.nn, (a.x l).psi ≠ 0 ∧ (a.x l).att = 1 ∧ PsiSolved (a.x l)) ∧
    (∀ fS fV, ∃ vals, List.Forall₂ (Item.Val fS fV) [exItem false, exItem true] vals) ∧
    (∃ vals, List.Forall₂ (fun a v => a.surf = true ∧ a.onS MassS2.out_ADM_mass_integrand_S = .ok v) [exItem true] vals) := by
  have e : ∀ b, ∀ l, (exItem b).x l = exNode := fun _ _ => rfl
  refine ⟨?_, ?_, ?_, ?_⟩
  · intro a ha
    simp only [List.mem_cons, List.not_mem_nil, or_false] at ha
    rcases ha with h | h <;> rw [h] <;> exact exItem_ok _
  · intro a ha _ l _
    simp only [List.mem_cons, List.not_mem_nil, or_false] at ha
    rcases ha with h | h <;> rw [h, e] <;> exact ⟨one_ne_zero, rfl, exNode_solved⟩
  · intro fS fV
    obtain ⟨v, hv, _⟩ := onV_scale (exItem false) (exItem_ok _) fV fV 1 (fun _ _ => (one_mul _).symm)
    obtain ⟨w, hw, _⟩ := onS_scale (exItem true) rfl (exItem_ok _) fS fS 1 (fun _ _ => (one_mul _).symm)
    exact ⟨[v, w], .cons hv (.cons hw .nil)⟩
  · obtain ⟨w, hw, _⟩ := onS_scale (exItem true) rfl (exItem_ok _) MassS2.out_ADM_mass_integrand_S MassS2.out_ADM_mass_integrand_S 1 (fun _ _ => (one_mul _).symm)
    exact ⟨[w], .cons ⟨rfl, hw⟩ .nil⟩

end Elliptica.Obs
