import Verif.Props.ObsPlan
import Verif.Spec.MassPlan
/-!
C108: the plans of the masses.
-/
namespace Elliptica.ObsPlan
open Text Spec

theorem totalM_eq {k : Kind} (F : Flux k) (p : MPlan) : F.totalM p = F.total ⟨(), p.vol, p.surf⟩ := rfl

/-- **C108 (ADM mass, far).** The surface method takes the flux at the outer boundary, with elements and normals of the physical metric. -/
theorem C108_far (k : Kind) (hk : k ≠ .other) (F : Flux k) :
    ∃ p, planM k ("ADM(M)|".toList ++ sysName k) "S_inf,default".toList = .ok p ∧ p.formula = .s2 ∧ p.measure = .physical ∧
      p.normal = some .physical ∧ F.totalM p = F.far := by
  refine ⟨⟨.s2, [], [("outermost_OB".toList, .outer)], .physical, some .physical⟩, ?_, rfl, rfl, rfl, by simp [totalM_eq, Flux.total, Flux.through]⟩
  cases k <;> first | exact absurd rfl hk | decide +kernel

/-- the stars of a system -/
def stars (k : Kind) : List (Str × Bool) := (objects k).filter Prod.snd

/-- the black holes of a system -/
def holes (k : Kind) : List (Str × Bool) := (objects k).filter fun o => !o.2

theorem stars_holes (k : Kind) (F : Flux k) :
    ((holes k).map fun o => F.out o.1).sum + ((stars k).map fun o => F.out o.1).sum = ((objects k).map fun o => F.out o.1).sum := by
  cases k <;> simp [holes, stars, objects, add_comm]

/-- **C108 (ADM mass, volumes).** The methods with volumes add up to the flux at the outer boundary for all systems (the conformal one is
there for all but a single black hole): every region is collected once and the surfaces are those of the black holes only; elements and
normals are those of the conformal metric. -/
theorem C108_volume (k : Kind) (hk : k ≠ .other) (F : Flux k) :
    (∃ p, planM k ("ADM(M)|".toList ++ sysName k) "S+V,default".toList = .ok p ∧ p.formula = .isotropic ∧ p.measure = .conformal ∧
      p.normal ≠ some .physical ∧ F.totalM p = F.far) ∧
    (k ≠ .sbh → ∃ p, planM k ("ADM(M)|".toList ++ sysName k) "S+V,conformal".toList = .ok p ∧ p.formula = .conformal ∧
      p.measure = .conformal ∧ p.normal ≠ some .physical ∧ F.totalM p = F.far) := by
  have key : ∀ k ∈ [Kind.bhns, .nsns, .bhbh, .sns, .sbh], ∀ p, planM k ("ADM(M)|".toList ++ sysName k) "S+V,default".toList = .ok p →
      p.vol.Perm (outside k ++ (stars k).map Prod.fst) ∧ p.surf = (holes k).map innerOf := by
    intro k hk p hp
    simp only [List.mem_cons, List.not_mem_nil, or_false] at hk
    rcases hk with rfl | rfl | rfl | rfl | rfl
    · have e : planM .bhns ("ADM(M)|".toList ++ sysName .bhns) "S+V,default".toList = .ok ⟨.isotropic, T ["outermost", "filling_box", "NS", "NS_around", "BH_around"], [("BH_around_IB".toList, .inner)], .conformal, some .conformal⟩ := by decide +kernel
      rw [e, Res.ok.injEq] at hp
      subst hp
      exact ⟨by decide +kernel, by decide +kernel⟩
    · have e : planM .nsns ("ADM(M)|".toList ++ sysName .nsns) "S+V,default".toList = .ok ⟨.isotropic, T ["outermost", "filling_box", "NS1", "NS1_around", "NS2", "NS2_around"], [], .conformal, none⟩ := by decide +kernel
      rw [e, Res.ok.injEq] at hp
      subst hp
      exact ⟨by decide +kernel, by decide +kernel⟩
    · have e : planM .bhbh ("ADM(M)|".toList ++ sysName .bhbh) "S+V,default".toList = .ok ⟨.isotropic, T ["outermost", "filling_box", "BH1_around", "BH2_around"], [("BH1_around_IB".toList, .inner), ("BH2_around_IB".toList, .inner)], .conformal, some .conformal⟩ := by decide +kernel
      rw [e, Res.ok.injEq] at hp
      subst hp
      exact ⟨by decide +kernel, by decide +kernel⟩
    · have e : planM .sns ("ADM(M)|".toList ++ sysName .sns) "S+V,default".toList = .ok ⟨.isotropic, T ["outermost", "filling_box", "NS", "NS_around"], [], .conformal, none⟩ := by decide +kernel
      rw [e, Res.ok.injEq] at hp
      subst hp
      exact ⟨by decide +kernel, by decide +kernel⟩
    · have e : planM .sbh ("ADM(M)|".toList ++ sysName .sbh) "S+V,default".toList = .ok ⟨.isotropic, T ["outermost", "BH_around"], [("BH_around_IB".toList, .inner)], .conformal, some .conformal⟩ := by decide +kernel
      rw [e, Res.ok.injEq] at hp
      subst hp
      exact ⟨by decide +kernel, by decide +kernel⟩
  have tot : ∀ p : MPlan, p.vol.Perm (outside k ++ (stars k).map Prod.fst) → p.surf = (holes k).map innerOf → F.totalM p = F.far := by
    intro p h1 h2
    rw [totalM_eq, total_stokes k F () _ _ (holes k) (stars k) h1 (fun o h => by simpa [stars] using h) h2 (fun o h => (List.mem_filter.mp h).1)]
    linarith [stars_holes k F]
  have hm : k ∈ [Kind.bhns, .nsns, .bhbh, .sns, .sbh] := by cases k <;> simp at hk ⊢
  have ex : ∃ p, planM k ("ADM(M)|".toList ++ sysName k) "S+V,default".toList = .ok p ∧ p.formula = .isotropic ∧ p.measure = .conformal ∧
      p.normal ≠ some .physical ∧
      (k ≠ .sbh → planM k ("ADM(M)|".toList ++ sysName k) "S+V,conformal".toList = .ok { p with formula := .conformal }) := by
    refine ⟨⟨.isotropic, ((find ("ADM(M)|".toList ++ sysName k) tableM).bind fun es => es.head?.map fun e => e.1.vol).getD [], (holes k).map innerOf, .conformal,
      if holes k = [] then none else some .conformal⟩, ?_, rfl, rfl, ?_, ?_⟩
    · cases k <;> first | exact absurd rfl hk | decide +kernel
    · cases k <;> simp [holes, objects]
    · cases k <;> first | exact absurd rfl hk | decide +kernel
  obtain ⟨p, hp, hf, hme, hn, hc⟩ := ex
  have g := key k hm p hp
  exact ⟨⟨p, hp, hf, hme, hn, tot p g.1 g.2⟩, fun h => ⟨_, hc h, rfl, hme, hn, tot _ g.1 g.2⟩⟩

/-- **C108 (ADM mass, star).** The ADM mass of a star takes the sources in this star and nothing else. -/
theorem C108_star (k : Kind) (F : Flux k) (o : Str × Bool) (ho : o ∈ objects k) (hs : o.2 = true) :
    ∃ p, planM k ("ADM(M)|".toList ++ o.1) "V_obj,default".toList = .ok p ∧ p.formula = .isotropic ∧ p.measure = .conformal ∧
      F.totalM p = F.out o.1 := by
  have e : ∀ k : Kind, ∀ o ∈ objects k, o.2 = true → planM k ("ADM(M)|".toList ++ o.1) "V_obj,default".toList = .ok ⟨.isotropic, [o.1], [], .conformal, none⟩ := by
    intro k
    cases k <;> decide +kernel
  exact ⟨_, e k o ho hs, rfl, rfl, by simp [Flux.totalM, F.star o ho hs]⟩

theorem vacuum_far (k : Kind) (F : Vacuum k) : F.far = ((objects k).map fun o => F.out o.1).sum := by
  have h := F.rest
  have z : ((outside k).map F.vol).sum = 0 := List.sum_eq_zero fun x hx => by
    obtain ⟨r, hr, rfl⟩ := List.mem_map.mp hx
    exact F.empty r hr
  linarith

theorem vacuum_surface (k : Kind) (F : Vacuum k) (o : Str × Bool) (ho : o ∈ objects k) : F.through (surfaceOf o) = F.out o.1 := by
  have h : ∀ k : Kind, ∀ o ∈ objects k, surfaceOf o ≠ ("outermost_OB".toList, .inner) := by
    intro k
    cases k <;> decide +kernel
  rw [Vacuum.through, if_neg (h k o ho), through_surface k F.toFlux o ho]

/-- **C108 (Komar mass, system).** If there are no sources outside the objects, the surface method and the method by objects (of a single
black hole "S_obj,default") both give the flux at the outer boundary, whether the grid is split or not, with the physical metric. -/
theorem C108_komar (one : Bool) (k : Kind) (hk : k ≠ .other) (F : Vacuum k) (m : Str)
    (hm : m = "S_inf,default".toList ∨ m = if k = .sbh then "S_obj,default".toList else "S+V,default".toList) :
    ∃ p, planK one k ("Komar(M)|".toList ++ sysName k) m = .ok p ∧ p.formula = .komar ∧ p.measure = .physical ∧
      p.normal ≠ some .conformal ∧ F.totalM p = F.far := by
  rcases hm with rfl | rfl
  · refine ⟨⟨.komar, [], [("outermost_OB".toList, if one then .outer else .inner)], .physical, some .physical⟩, ?_, rfl, rfl, by simp, ?_⟩
    · cases k <;> cases one <;> first | exact absurd rfl hk | decide +kernel
    · cases one <;> simp [Vacuum.totalM, Vacuum.through, Flux.through]
  · refine ⟨⟨.komar, (stars k).map Prod.fst, (holes k).map surfaceOf, .physical, if holes k = [] then none else some .physical⟩, ?_, rfl, rfl, ?_, ?_⟩
    · cases k <;> cases one <;> first | exact absurd rfl hk | decide +kernel
    · cases k <;> simp [holes, objects]
    · rw [vacuum_far, ← stars_holes, Vacuum.totalM]
      simp only [List.map_map]
      congr 2
      · exact List.map_congr_left fun o h => vacuum_surface k F o (List.mem_filter.mp h).1
      · exact List.map_congr_left fun o h => F.star o (List.mem_filter.mp h).1 (List.mem_filter.mp h).2

/-- **C108 (Komar mass, object).** The Komar mass of an object by its surface is the flux through this surface, and that of a star by its volume
is the same. -/
theorem C108_komar_object (one : Bool) (k : Kind) (F : Vacuum k) (o : Str × Bool) (ho : o ∈ objects k) (m : Str)
    (hm : m = "S_obj,default".toList ∨ (m = "V_obj,default".toList ∧ o.2 = true)) :
    ∃ p, planK one k ("Komar(M)|".toList ++ o.1) m = .ok p ∧ p.formula = .komar ∧ p.measure = .physical ∧ p.normal ≠ some .conformal ∧
      F.totalM p = F.out o.1 := by
  rcases hm with rfl | ⟨rfl, hs⟩
  · have e : ∀ one : Bool, ∀ k : Kind, ∀ o ∈ objects k,
        planK one k ("Komar(M)|".toList ++ o.1) "S_obj,default".toList = .ok ⟨.komar, [], [surfaceOf o], .physical, some .physical⟩ := by
      intro one k
      cases k <;> cases one <;> decide +kernel
    exact ⟨_, e one k o ho, rfl, rfl, by simp, by simp [Vacuum.totalM, vacuum_surface k F o ho]⟩
  · have e : ∀ one : Bool, ∀ k : Kind, ∀ o ∈ objects k, o.2 = true →
        planK one k ("Komar(M)|".toList ++ o.1) "V_obj,default".toList = .ok ⟨.komar, [o.1], [], .physical, none⟩ := by
      intro one k
      cases k <;> cases one <;> decide +kernel
    exact ⟨_, e one k o ho hs, rfl, rfl, by simp, by simp [Vacuum.totalM, F.star o ho hs]⟩

/-- **C108 (letter case).** The letter case of quantity and method does not matter. -/
theorem C108_case (one : Bool) (k : Kind) (q q' m m' : Str) (hq : q.map lower = q'.map lower) (hm : m.map lower = m'.map lower) :
    planM k q m = planM k q' m' ∧ planK one k q m = planK one k q' m' := by
  constructor <;> simp only [planM, planK, planMass, find_case q q' hq, find_case m m' hm]

/-- **C108 (refused).** A grid of another kind and a method that is none of the five stop the program; there is no ADM mass of a black hole in
a system, and none of a single one by "S+V,conformal". -/
theorem C108_refused (one : Bool) (k : Kind) (q m : Str)
    (h : k = .other ∨ ∀ s ∈ T ["S+V,default", "S+V,conformal", "S_inf,default", "S_obj,default", "V_obj,default"], m.map lower ≠ s.map lower) :
    planM k q m = .abort ∧ planK one k q m = .abort := by
  rcases h with rfl | h
  · exact ⟨rfl, rfl⟩
  · have n1 : find m formulasM = none := find_none _ _ fun e he => h e.1 (by
      have : ∀ e ∈ formulasM.map Prod.fst, e ∈ T ["S+V,default", "S+V,conformal", "S_inf,default", "S_obj,default", "V_obj,default"] := by decide +kernel
      exact this _ (List.mem_map_of_mem he))
    have n2 : find m formulasK = none := find_none _ _ fun e he => h e.1 (by
      have : ∀ e ∈ formulasK.map Prod.fst, e ∈ T ["S+V,default", "S+V,conformal", "S_inf,default", "S_obj,default", "V_obj,default"] := by decide +kernel
      exact this _ (List.mem_map_of_mem he))
    constructor
    · simp only [planM, planMass, n1]
      split
      · rfl
      · split
        · rfl
        · split
          · rfl
          · split <;> simp_all
    · simp only [planK, planMass, n2]
      split
      · rfl
      · split
        · rfl
        · split
          · rfl
          · split <;> simp_all

/-- **C108 (refused, black holes).** There is no ADM mass of one black hole of a system, nor of a single one by "S+V,conformal". -/
theorem C108_refused_hole (k : Kind) (m : Str) :
    (∀ s ∈ T ["BH", "BH1", "BH2"], planM k ("ADM(M)|".toList ++ s) m = .abort) ∧
    planM k "ADM(M)|SBH".toList "S+V,conformal".toList = .abort := by
  constructor
  · intro s hs
    have : ∀ s ∈ T ["BH", "BH1", "BH2"], (find ("ADM(M)|".toList ++ s) tableM).isNone := by decide +kernel
    have e := Option.isNone_iff_eq_none.mp (this s hs)
    simp only [planM, planMass, e, ite_self]
  · cases k <;> decide +kernel

/-! ### the hypotheses are met -/

/-- a flux from two stars, without sources outside -/
noncomputable def exVacuum : Vacuum .nsns where
  vol n := if n ∈ outside .nsns then 0 else 3
  out _ := 3
  far := 6
  star := by
    have h : ∀ o ∈ objects .nsns, o.1 ∉ outside .nsns := by decide +kernel
    intro o ho _
    simp only [if_neg (h o ho)]
  rest := by
    have z : ((outside .nsns).map fun n => if n ∈ outside .nsns then (0 : ℝ) else 3).sum = 0 := List.sum_eq_zero fun x hx => by
      obtain ⟨r, hr, rfl⟩ := List.mem_map.mp hx
      simp only [if_pos hr]
    rw [z]
    simp only [objects, List.map_cons, List.map_nil, List.sum_cons, List.sum_nil]
    norm_num
  empty r hr := if_pos hr

example : ∃ p, planK false .nsns "Komar(M)|NSNS".toList "S+V,default".toList = .ok p ∧ exVacuum.totalM p = 6 := by
  obtain ⟨p, h, -, -, -, e⟩ := C108_komar false .nsns (by decide) exVacuum _ (.inr rfl)
  exact ⟨p, h, e⟩

example : ∃ p, planK false .nsns "Komar(M)|NS2".toList "V_obj,default".toList = .ok p ∧ exVacuum.totalM p = 3 := by
  obtain ⟨p, h, -, -, -, e⟩ := C108_komar_object false .nsns exVacuum ("NS2".toList, true) (by decide +kernel) _ (.inr ⟨rfl, rfl⟩)
  exact ⟨p, h, e⟩

example : ∃ p, planM .nsns "ADM(M)|NSNS".toList "S+V,conformal".toList = .ok p ∧ exFlux.totalM p = 18 := by
  obtain ⟨p, h, -, -, -, e⟩ := (C108_volume .nsns (by decide) exFlux).2 (by decide)
  exact ⟨p, h, e⟩

example : ∃ p, planM .nsns "ADM(M)|NS1".toList "V_obj,default".toList = .ok p ∧ exFlux.totalM p = 3 := by
  obtain ⟨p, h, -, -, e⟩ := C108_star .nsns exFlux ("NS1".toList, true) (by decide +kernel) rfl
  exact ⟨p, h, e⟩

example : planM .bhns "adm(M)|bhns".toList "S+V,Default".toList = planM .bhns "ADM(M)|BHNS".toList "S+V,default".toList :=
  (C108_case true .bhns _ _ _ _ (by decide +kernel) (by decide +kernel)).1

example : planM .sns "ADM(M)|SNS".toList "S+V,Rashti".toList = .abort := (C108_refused true .sns _ _ (.inr (by decide +kernel))).1

end Elliptica.ObsPlan
