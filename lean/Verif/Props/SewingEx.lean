import Verif.Props.Sewing
import Mathlib.Data.Fin.VecNotation
/-!
C71, an example: two patches with 3×3×3 points, with subfaces of all kinds between them; and what happens when the
points of a subface do not fit.
-/
namespace Elliptica.Sew
open Finset Real Elliptica.Index Elliptica.Deriv Elliptica.Jac Elliptica.DInterp Mat
open Elliptica.Cheb (toCheb affine_point pointExtrema)

noncomputable def exP : Deriv.Patch where
  n := fun _ => 3
  mn := fun _ => -1
  mx := fun _ => 3
  coll := fun _ => .extrema
  basis := fun _ => .tn
  sys := .cartesian
  jt := fun _ _ _ => 0

theorem exP_good : Good 1e-12 exP where
  pos := by norm_num
  two := by intro d; simp [exP]
  box := by intro d; simp [exP]; norm_num
  tn := fun _ => rfl
  cheb := by intro d; simp [exP]
  tol := by
    intro d
    show 2 * 1e-12 * ((3 : ℕ) : ℝ) ^ 2 ≤ 1
    norm_num

theorem exP_clear (x : Fin 3) : Clear 1e-12 exP x := by
  intro X l _
  by_cases h : X = x
  · subst h
    right
    match X with
    | 0 => simp [dNdq1, dNdq, jacT, Tol.eql, exP, dNdX, Dir.mod3]; norm_num
    | 1 => simp [dNdq1, dNdq, jacT, Tol.eql, exP, dNdX, Dir.mod3]; norm_num
    | 2 => simp [dNdq1, dNdq, jacT, Tol.eql, exP, dNdX, Dir.mod3]; norm_num
  · left
    match X, x, h with
    | 0, 0, h => exact absurd rfl h
    | 0, 1, _ => simp [dNdq1, dNdq, jacT, exP, Dir.mod3]
    | 0, 2, _ => simp [dNdq1, dNdq, jacT, exP, Dir.mod3]
    | 1, 0, _ => simp [dNdq1, dNdq, jacT, exP, Dir.mod3]
    | 1, 1, h => exact absurd rfl h
    | 1, 2, _ => simp [dNdq1, dNdq, jacT, exP, Dir.mod3]
    | 2, 0, _ => simp [dNdq1, dNdq, jacT, exP, Dir.mod3]
    | 2, 1, _ => simp [dNdq1, dNdq, jacT, exP, Dir.mod3]
    | 2, 2, h => exact absurd rfl h

/-- the six faces of a patch: the first two are shared, the others are outer boundaries -/
def exIds : Fin 6 → List ℕ
  | 0 => [0,1,2,3,4,5,6,7,8]
  | 1 => [18,19,20,21,22,23,24,25,26]
  | 2 => [0,1,2,9,10,11,18,19,20]
  | 3 => [6,7,8,15,16,17,24,25,26]
  | 4 => [0,3,6,9,12,15,18,21,24]
  | 5 => [2,5,8,11,14,17,20,23,26]

noncomputable def exSf (f : Fin 6) (adj : ℕ) (touch copy dfdn : Bool) (ip : Fin 3 → ℝ) : SubFace where
  id := exIds f
  outerB := decide (2 ≤ f.val)
  innerB := false
  exterF := true
  adjid := if f = 0 then exIds 1 else exIds 0
  adj := adj
  face := f.val
  sn := 0
  adjFace := if f = 0 then 1 else 0
  touch := touch
  copy := copy
  dfdn := dfdn
  same := (touch, false, false)
  nv := fun _ => ![1, 0, 0]
  ip := fun _ => ip

/-- patch 0: face 0 is interpolated on face 1 of patch 1 (normal derivative), face 1 is copied (value); patch 1: face 0 is
copied (normal derivative), face 1 is interpolated inside of patch 0 (value) -/
noncomputable def exSfs (q : ℕ) : List SubFace :=
  [if q = 0 then exSf 0 1 true false true ![ptv exP 0 2, 1, 1] else exSf 0 0 true true true ![1, 1, 1],
   if q = 0 then exSf 1 1 true true false ![1, 1, 1] else exSf 1 0 false false false ![1, 1, 1],
   exSf 2 0 false false false ![1, 1, 1], exSf 3 0 false false false ![1, 1, 1],
   exSf 4 0 false false false ![1, 1, 1], exSf 5 0 false false false ![1, 1, 1]]

def exL : Res (Schur.Labels × ℕ) := Schur.makeMapAndInv (fun _ => 3) false
  [⟨exIds 0, false, false, true⟩, ⟨exIds 1, false, false, true⟩, ⟨exIds 2, true, false, true⟩, ⟨exIds 3, true, false, true⟩,
   ⟨exIds 4, true, false, true⟩, ⟨exIds 5, true, false, true⟩]

def exLab : Schur.Labels × ℕ := match exL with
  | .ok x => x
  | _ => (⟨fun _ => none, [], fun _ => false, fun _ => none, []⟩, 0)

theorem exL_ok : exL = .ok exLab := by
  have h : (match exL with | .ok _ => true | _ => false) = true := by decide +kernel
  unfold exLab
  cases h' : exL with
  | ok x => rfl
  | abort => rw [h'] at h; cases h
  | ub => rw [h'] at h; cases h

noncomputable def exD (q : ℕ) : Dom := ⟨exP, exSfs q, exLab.1, exLab.2⟩

theorem ex_labels (q : ℕ) : (exSfs q).map (·.toSubFace) =
    [⟨exIds 0, false, false, true⟩, ⟨exIds 1, false, false, true⟩, ⟨exIds 2, true, false, true⟩, ⟨exIds 3, true, false, true⟩,
     ⟨exIds 4, true, false, true⟩, ⟨exIds 5, true, false, true⟩] := by
  by_cases h : q = 0 <;> simp [exSfs, exSf, h]

theorem ex_mid (X : Fin 3 → ℝ) (d : Fin 3) (h : X d = 1) : q 1e-12 exP X d = 0 := by
  unfold q toCheb
  rw [h]
  have : ((1 : ℝ) * 2 - (exP.mx d + exP.mn d)) / (-exP.mx d + exP.mn d) = 0 := by
    simp [exP]; norm_num
  dsimp only
  rw [this]
  have h1 : Tol.eql (1e-12 : ℝ) 0 1 = false := by simp [Tol.eql]; norm_num
  have h2 : Tol.eql (1e-12 : ℝ) 0 (-1) = false := by simp [Tol.eql]; norm_num
  rw [h1, h2]
  simp

theorem ex_apart : General.Generic 1e-12 2 0 where
  lo := by norm_num
  hi := by norm_num
  sep := by have := Real.pi_gt_three; norm_num; linarith
  apart := by
    intro j hj
    rw [Real.arccos_zero]
    have hpi := Real.pi_gt_three
    match j, hj with
    | 0, _ => right; simp only [Tol.eql, Bool.and_eq_false_iff, decide_eq_false_iff_not, not_lt]; left; push_cast; linarith
    | 1, _ => left; push_cast; ring
    | 2, _ => right; simp only [Tol.eql, Bool.and_eq_false_iff, decide_eq_false_iff_not, not_lt]; right; push_cast; linarith

theorem ex_inside : Point 1e-12 exP none 0 ![1, 1, 1] where
  inside := by intro d; match d with | 0 => simp [exP] | 1 => simp [exP] | 2 => simp [exP]
  apart := by
    intro d _
    rw [ex_mid _ d (by match d with | 0 => rfl | 1 => rfl | 2 => rfl)]
    exact ex_apart
  on := by intro d hd; cases hd

theorem ex_face : Point 1e-12 exP (some 0) 2 ![ptv exP 0 2, 1, 1] where
  inside := by
    intro d
    match d with
    | 0 =>
      have h : ptv exP 0 2 = pointExtrema (-1) 3 (2 + 1) 2 := by simp [ptv, exP]
      show (-1 : ℝ) ≤ ptv exP 0 2 ∧ ptv exP 0 2 ≤ 3
      rw [h, affine_point]
      have := Real.cos_le_one ((2 : ℕ) * π / (2 : ℕ))
      have := Real.neg_one_le_cos ((2 : ℕ) * π / (2 : ℕ))
      constructor <;> linarith
    | 1 => simp [exP]
    | 2 => simp [exP]
  apart := by
    intro d hd
    match d with
    | 0 => exact absurd rfl hd
    | 1 => rw [ex_mid _ 1 rfl]; exact ex_apart
    | 2 => rw [ex_mid _ 2 rfl]; exact ex_apart
  on := by
    intro d hd
    cases hd
    exact ⟨by simp [exP], rfl⟩

theorem ex_nn : nn exP = 27 := by simp [nn, exP]

theorem ex_ids : ∀ f : Fin 6, ∀ s : Fin 9, (exIds f).getD s.val 0 < 27 := by decide

theorem ex_imap : ∀ s : Fin 9, exLab.1.Imap ((exIds 1).getD s.val 0) ≠ none → exLab.1.Imap ((exIds 0).getD s.val 0) ≠ none := by decide +kernel

/-- one node on each shared face is an interface node -/
theorem ex_inter : exLab.1.Iinv = [4, 22] ∧ exLab.2 = 25 := by decide +kernel

attribute [irreducible] exLab

theorem ex_grid : Grid 1e-12 2 exD where
  ready := by
    intro p _
    exact ⟨exP_good, fun _ => rfl, by simp [exD, exP], false, by
      have h := exL_ok
      unfold exL at h
      rw [← ex_labels p] at h
      simp only [exD, exP, Prod.mk.eta]
      exact h⟩
  fits := by
    intro q hq sf hs hi ho
    have hq' : q = 0 ∨ q = 1 := by omega
    simp only [exD, exSfs, List.mem_cons, List.not_mem_nil, or_false] at hs
    rcases hs with rfl | rfl | rfl | rfl | rfl | rfl
    · rcases hq' with rfl | rfl
      · constructor <;> simp [exSf, kept, exD, exP_clear, faceIndex]
        · intro s _; exact ex_face
        · simp [exP]; norm_num
      · constructor <;> simp [exSf, kept, exD, exP_clear]
        · intro s hs
          have hs' : s < 9 := hs
          have := ex_ids 1 ⟨s, hs'⟩
          rw [ex_nn]
          simpa using this
        · simp [exP]; norm_num
    · rcases hq' with rfl | rfl
      · constructor <;> simp [exSf, kept, exD, exP_clear]
        · intro s hs
          have hs' : s < 9 := hs
          have h1 := ex_ids 0 ⟨s, hs'⟩
          have h2 := ex_imap ⟨s, hs'⟩
          rw [ex_nn]
          exact ⟨by simpa using h1, by simpa using h2⟩
        · simp [exP]; norm_num
      · constructor <;> simp [exSf, kept, exD]
        intro s _; exact ex_inside
    all_goals simp [exSf] at ho
  distinct := by
    intro q hq s hs t ht h1 h2
    by_cases h0 : q = 0 <;> simp only [exD, exSfs, h0, if_true, if_false, List.mem_cons, List.not_mem_nil, or_false] at hs ht <;>
      rcases hs with rfl | rfl | rfl | rfl | rfl | rfl <;> rcases ht with rfl | rfl | rfl | rfl | rfl | rfl <;>
      first | rfl | (simp [exSf] at h1)

example (v : ℕ → ℕ → ℝ) := C71_residual ex_grid (q := 1) (by norm_num) v

/-- the system with the blocks of the code -/
noncomputable def exPatch (a : ℕ) : Schur.Patch ℝ where
  NS := 25
  NI := 2
  B := fun _ => 0
  ET := fun _ => 0
  f := fun _ => 0
  g := fun _ => 0
  FC := fun q => match makeFC 1e-12 anyPts exD a q with
    | .ok m => m
    | _ => none

theorem ex_blocks (q a : ℕ) (hq : q < 2) : makeFC 1e-12 anyPts exD a q = .ok ((exPatch a).FC q) := by
  obtain ⟨m, h⟩ := C71_blocks anyPts ex_grid hq a
  simp only [exPatch, h]

example (v : ℕ → ℕ → ℝ) (q : ℕ) (hq : q < 2) := C71_rows anyPts ex_grid hq exPatch (fun _ _ => by simp [exD, ex_inter.2, exPatch])
  (fun _ _ => by simp [Dom.NI, exD, ex_inter.1, exPatch]) (fun a _ => ex_blocks q a hq) v

example (v : ℕ → ℕ → ℝ) (q : ℕ) (hq : q < 2) := C71_change anyPts ex_grid hq exPatch (fun _ _ => by simp [exD, ex_inter.2, exPatch])
  (fun _ _ => by simp [Dom.NI, exD, ex_inter.1, exPatch]) (fun a _ => ex_blocks q a hq) v 0 (by norm_num) 0.1

/-! ### a Newton step: two overlapping patches, each gets its values on one face from the interior of the other -/

def exM : Res (Schur.Labels × ℕ) := Schur.makeMapAndInv (fun _ => 3) false
  [⟨exIds 0, false, false, true⟩, ⟨exIds 1, true, false, true⟩, ⟨exIds 2, true, false, true⟩, ⟨exIds 3, true, false, true⟩,
   ⟨exIds 4, true, false, true⟩, ⟨exIds 5, true, false, true⟩]

def exMab : Schur.Labels × ℕ := match exM with
  | .ok x => x
  | _ => (⟨fun _ => none, [], fun _ => false, fun _ => none, []⟩, 0)

theorem exM_ok : exM = .ok exMab := by
  have h : (match exM with | .ok _ => true | _ => false) = true := by decide +kernel
  unfold exMab
  cases h' : exM with
  | ok x => rfl
  | abort => rw [h'] at h; cases h
  | ub => rw [h'] at h; cases h

theorem exM_inter : exMab.1.Iinv = [4] ∧ exMab.2 = 26 := by decide +kernel

theorem exM_imap : ∀ s : Fin 9, exMab.1.Imap ((exIds 0).getD s.val 0) = if s = 4 then some 0 else none := by decide +kernel

theorem exM_inv : ∀ t : Fin 26, exMab.1.inv.getD t.val 0 ≠ 4 := by decide +kernel

attribute [irreducible] exMab

noncomputable def exMsfs (q : ℕ) : List SubFace :=
  exSf 0 (1 - q) false false false ![1, 1, 1] :: ([1, 2, 3, 4, 5] : List (Fin 6)).map fun f =>
    { exSf f 0 false false false ![1, 1, 1] with outerB := true }

noncomputable def exMD (q : ℕ) : Dom := ⟨exP, exMsfs q, exMab.1, exMab.2⟩

theorem exM_grid : Grid 1e-12 2 exMD where
  ready := by
    intro p _
    exact ⟨exP_good, fun _ => rfl, by simp [exMD, exP], false, by
      have h := exM_ok
      unfold exM at h
      simp only [exMD, exP, Prod.mk.eta]
      exact h⟩
  fits := by
    intro q hq sf hs hi ho
    simp only [exMD, exMsfs, List.map_cons, List.map_nil, List.mem_cons, List.not_mem_nil, or_false] at hs
    rcases hs with rfl | rfl | rfl | rfl | rfl | rfl
    · constructor <;> simp [exSf, kept, exMD]
      · omega
      · intro s _; exact ⟨ex_inside.inside, ex_inside.apart, by simp⟩
    all_goals simp [exSf] at ho
  distinct := by
    intro q hq s hs t ht h1 h2
    simp only [exMD, exMsfs, List.map_cons, List.map_nil, List.mem_cons, List.not_mem_nil, or_false] at hs ht
    rcases hs with rfl | rfl | rfl | rfl | rfl | rfl <;> rcases ht with rfl | rfl | rfl | rfl | rfl | rfl <;>
      first | rfl | (simp [exSf] at h1)

/-- the equations of the patches: u = x² say, at all other nodes -/
noncomputable def exMP (u : ℕ → ℕ → ℝ) (a : ℕ) : Schur.Patch ℝ where
  NS := 26
  NI := 1
  B := fun x => if x.1 = x.2 then 2 else 0
  ET := fun _ => 0
  f := fun s => 2 * (u a (exMab.1.inv.getD s 0) - s ^ 2)
  g := match residual 1e-12 2 exMD u a with
    | .ok g => g
    | _ => fun _ => 0
  FC := fun q => match makeFC 1e-12 anyPts exMD a q with
    | .ok m => m
    | _ => none

theorem card_mid : (General.card 2 0).eval 0 = 0 := by
  rw [General.card_eval 2 (by norm_num) 0 0 (by norm_num) (by norm_num), Real.arccos_zero]
  have h : ((2 : ℕ) : ℝ) * (π / 2) = π := by push_cast; ring
  rw [h]
  simp

theorem exM_full (u : ℕ → ℕ → ℝ) : Schur.FullNonsingular 2 (exMP u) := by
  intro x y h
  have hx : ∀ p, p < 2 → ∀ s, s < 26 → x p s = 0 := by
    intro p hp s hs
    have := h.subdomain p hp s hs
    simp only [Schur.homogeneous, exMP, zero_mul, sum_const_zero, add_zero] at this
    rw [sum_eq_single s] at this
    · simpa using this
    · intro t _ hne; simp [hne.symm]
    · intro hh; exact absurd (mem_range.2 hs) hh
  have hFC : ∀ q, q < 2 → ∀ a, a < 2 → makeFC 1e-12 anyPts exMD a q = .ok ((exMP u a).FC q) := by
    intro q hq a _
    obtain ⟨m, h⟩ := C71_blocks anyPts exM_grid hq a
    simp only [exMP, h]
  have hy : ∀ q, q < 2 → y q 0 = 0 := by
    intro q hq
    obtain ⟨v, hv⟩ : ∃ v : ℕ → ℕ → ℝ, v = fun a l => if l = 4 then y a 0 else 0 := ⟨_, rfl⟩
    obtain ⟨g, h1, h2⟩ := C71_rows anyPts exM_grid hq (exMP u) (fun _ _ => by simp [exMD, exM_inter.2, exMP])
      (fun _ _ => by simp [Dom.NI, exMD, exM_inter.1, exMP]) (hFC q hq) v
    have hi := h.interface q hq 0 (by simp [Schur.homogeneous, exMP])
    have hg : g 0 = 0 := by
      rw [h2 0]
      refine Eq.trans ?_ hi
      refine sum_congr rfl fun a ha => ?_
      have ha := mem_range.1 ha
      have e1 : ∀ t ∈ range (exMP u a).NS, (exMP u a).entryF q 0 t * v a ((exMD a).L.inv.getD t 0) =
          (exMP u a).entryF q 0 t * x a t := by
        intro t ht
        have ht : t < 26 := mem_range.1 ht
        rw [hx a ha t ht, hv]
        have := exM_inv ⟨t, ht⟩
        simp only [exMD, this, if_false]
      have e2 : ∀ i ∈ range (exMP u a).NI, (exMP u a).entryC q 0 i * v a ((exMD a).L.Iinv.getD i 0) =
          (exMP u a).entryC q 0 i * y a i := by
        intro i hi
        have hi : i < 1 := mem_range.1 hi
        have : i = 0 := by omega
        subst this
        simp [hv, exMD, exM_inter.1]
      rw [sum_congr rfl e1, sum_congr rfl e2]
      rfl
    obtain ⟨g', Y, Z, h1', h3, h4⟩ := C71_residual exM_grid hq v
    rw [h1] at h1'
    cases h1'
    rw [h4 0] at hg
    have hm : (exMD q).sfs.filter (fun s => !s.innerB && !s.outerB) = [exSf 0 (1 - q) false false false ![1, 1, 1]] := by
      simp [exMD, exMsfs, exSf]
    rw [hm] at hg
    have hY := h3 (exSf 0 (1 - q) false false false ![1, 1, 1]) (by simp [exMD, exMsfs]) rfl rfl 4 (by simp [exSf, exIds])
    obtain ⟨hY, f, hZ⟩ := hY
    simp only [At, exSf, if_true] at hY
    have hf : (range (exSf 0 (1 - q) false false false ![1, 1, 1]).id.length).filter
        (fun s => (exMD q).L.Imap ((exSf 0 (1 - q) false false false ![1, 1, 1]).id.getD s 0) = some 0) = {4} := by
      ext s
      simp only [mem_filter, mem_range, mem_singleton]
      constructor
      · rintro ⟨a1, a2⟩
        have a1 : s < 9 := a1
        have := exM_imap ⟨s, a1⟩
        have a2 : exMab.1.Imap ((exIds 0).getD s 0) = some 0 := a2
        rw [this] at a2
        by_contra hne
        have hne' : ¬ ((⟨s, a1⟩ : Fin 9) = 4) := fun hh => hne (congrArg Fin.val hh)
        rw [if_neg hne'] at a2
        cases a2
      · rintro rfl
        exact ⟨by simp [exSf, exIds], exM_imap 4⟩
    rw [List.map_singleton, List.sum_singleton, hf, sum_singleton] at hg
    have hv4 : ∀ l, l ≠ 4 → v (1 - q) l = 0 := fun l hl => by simp [hv, hl]
    have hz : Z (exSf 0 (1 - q) false false false ![1, 1, 1]) 4 = 0 := by
      have hr := exM_grid.ready (1 - q) (by omega)
      have he := exec_value hr none 0 ![1, 1, 1] ex_inside (by simp) (v (1 - q))
      have hk : kept (exSf 0 (1 - q) false false false ![1, 1, 1]) = none := rfl
      rw [hk] at hZ
      have hZ' : execI 1e-12 (exMD (1 - q)).P (none, 0) (v (1 - q)) ![1, 1, 1] = .ok (Z (exSf 0 (1 - q) false false false ![1, 1, 1]) 4) := by
        unfold execI
        have hZ2 : interp 1e-12 (exMD (1 - q)).P none 0 ⟨v (1 - q), none, none⟩ ![1, 1, 1] = .ok (f, Z (exSf 0 (1 - q) false false false ![1, 1, 1]) 4) := hZ
        rw [hZ2]; rfl
      rw [he] at hZ'
      rw [← Res.ok.inj hZ']
      refine sum_eq_zero fun l hl => ?_
      by_cases hl4 : l = 4
      · subst hl4
        have hd : dValue 1e-12 exP none ![1, 1, 1] 4 = 0 := by
          rw [dValue_eq exP_good (fun _ => rfl) none 0 _ ex_inside (by simp) 4 (by rw [ex_nn]; norm_num)]
          have c0 : coords exP 4 0 = 0 := by simp [coords, exP, toI]
          rw [c0]
          have : wt 1e-12 exP none 0 ![1, 1, 1] 0 0 = 0 := by
            unfold wt
            rw [if_neg (by simp), ex_mid _ 0 rfl]
            exact card_mid
          rw [this]; ring
        show dValue 1e-12 exP none ![1, 1, 1] 4 * _ = 0
        rw [hd, zero_mul]
      · rw [hv4 l hl4, mul_zero]
    have hY' : Y (exSf 0 (1 - q) false false false ![1, 1, 1]) 4 = y q 0 := by
      have : Y (exSf 0 (1 - q) false false false ![1, 1, 1]) 4 = v q ((exIds 0).getD 4 0) := hY
      rw [this, hv]
      simp [exIds]
    rw [hz, hY'] at hg
    simpa [exSf] using hg
  refine ⟨hx, fun p hp i hi => ?_⟩
  have : i = 0 := by simp only [exMP] at hi; omega
  subst this
  exact hy p hp

/-- A step that meets all hypotheses, for every initial field: with λ = 1 no jump is left. -/
example (u : ℕ → ℕ → ℝ) : ∃ (solve : Schur.Solver ℝ) (r : ℕ → (ℕ → ℝ) × (ℕ → ℝ)),
    Schur.stepMulti 0 0 solve 2 (exMP u) (fun p => ((exMD p).L.inv, (exMD p).L.Iinv)) 1 u u = .ok r ∧
    ∀ q, q < 2 → ∃ g', residual 1e-12 2 exMD (fun p => (r p).1) q = .ok g' ∧ g' 0 = 0 := by
  obtain ⟨solve, hs, hc⟩ := Schur.exists_solver (K := ℝ)
  have hn := Schur.nothingDropped_zero 2 (exMP u)
  obtain ⟨x, y, hxy, -⟩ := Schur.C34_completes 0 0 (le_refl _) solve hs hc 2 (by omega) (exMP u) (fun p _ => by simp [exMP])
    (fun p _ => by simp [exMP]) (by rw [add_zero]; exact hn) (by
      intro p hp v hv c hc'
      have := hv c hc'
      rw [sum_eq_single c] at this
      · simpa [exMP] using this
      · intro t _ hne; simp [exMP, hne.symm]
      · intro hh; exact absurd (mem_range.2 hc') hh) (exM_full u)
  refine ⟨solve, _, by rw [Schur.stepMulti, hxy, Res.bind_ok], fun q hq => ?_⟩
  obtain ⟨g', h1, h2⟩ := C71_newton anyPts exM_grid 0 0 (le_refl _) solve hs (exMP u) (by rw [add_zero]; exact hn)
    (fun _ _ => by simp [exMD, exM_inter.2, exMP]) (fun _ _ => by simp [Dom.NI, exMD, exM_inter.1, exMP])
    (fun q hq a _ => by
      obtain ⟨m, h⟩ := C71_blocks anyPts exM_grid hq a
      simp only [exMP, h]) 1 u u
    (fun q hq => by
      obtain ⟨g, _, _, h, -⟩ := C71_residual exM_grid hq u
      simp only [exMP, h]) _ (by rw [Schur.stepMulti, hxy, Res.bind_ok]) q hq
  exact ⟨g', h1, by rw [h2 0 (by simp [exMP])]; ring⟩

end Elliptica.Sew
