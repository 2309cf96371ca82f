import Verif.Spec.ObsPlan
import Mathlib.Tactic.Linarith
import Mathlib.Tactic.NormNum
/-!
C106: the plans of the ADM momenta.
-/
namespace Elliptica.ObsPlan
open Text Spec

theorem find_case {α : Type} (a b : Str) (h : a.map lower = b.map lower) (l : List (Str × α)) : find a l = find b l := by
  induction l with
  | nil => rfl
  | cons x t ih => simp [find, strcmpI, h, ih]

/-- **C106 (letter case).** The letter case of quantity and method does not matter. -/
theorem C106_case (one : Bool) (k : Kind) (q q' m m' : Str) (hq : q.map lower = q'.map lower) (hm : m.map lower = m'.map lower) :
    planP one k q m = planP one k q' m' ∧ planJ one k q m = planJ one k q' m' := by
  constructor <;> simp only [planP, planJ, plan, find_case q q' hq, find_case m m' hm]

theorem find_none {α : Type} (a : Str) (l : List (Str × α)) (h : ∀ e ∈ l, a.map lower ≠ e.1.map lower) : find a l = none := by
  induction l with
  | nil => rfl
  | cons x t ih =>
    have := h x (by simp)
    simp [find, strcmpI, this, ih fun e he => h e (by simp [he])]

/-- **C106 (refused).** A grid of another kind, a quantity that is none of the eleven, and a method that is none of the six (five) stop the
program. -/
theorem C106_refused (one : Bool) (k : Kind) (q m : Str)
    (h : k = .other ∨ (∀ s ∈ T ["BHNS", "BHBH", "NSNS", "SNS", "NS", "NS1", "NS2", "BH", "BH1", "BH2", "SBH"],
        q.map lower ≠ ("ADM(P)|".toList ++ s).map lower ∧ q.map lower ≠ ("ADM(J)|".toList ++ s).map lower) ∨
      (∀ s ∈ T ["S_inf,default", "S_obj,default", "S_obj1+S_obj2,default", "S+V,Ossokine", "S+V,Rashti", "S+V,constraint"],
        m.map lower ≠ s.map lower)) :
    planP one k q m = .abort ∧ planJ one k q m = .abort := by
  rcases h with rfl | h | h
  · exact ⟨rfl, rfl⟩
  · have h1 : find q (tableP one) = none := by
      refine find_none _ _ fun e he => ?_
      have key : ∀ n ∈ (tableP one).map Prod.fst, ∃ s ∈ T ["BHNS", "BHBH", "NSNS", "SNS", "NS", "NS1", "NS2", "BH", "BH1", "BH2", "SBH"],
          n = "ADM(P)|".toList ++ s := by cases one <;> decide +kernel
      obtain ⟨s, hs, e'⟩ := key e.1 (List.mem_map_of_mem he)
      rw [e']
      exact (h s hs).1
    have h2 : find q (tableJ one) = none := by
      refine find_none _ _ fun e he => ?_
      have key : ∀ n ∈ (tableJ one).map Prod.fst, ∃ s ∈ T ["BHNS", "BHBH", "NSNS", "SNS", "NS", "NS1", "NS2", "BH", "BH1", "BH2", "SBH"],
          n = "ADM(J)|".toList ++ s := by cases one <;> decide +kernel
      obtain ⟨s, hs, e'⟩ := key e.1 (List.mem_map_of_mem he)
      rw [e']
      exact (h s hs).2
    simp only [planP, planJ, plan, h1, h2, ite_self, and_self]
  · have g : ∀ (table : List (Str × List Entry)), (∀ es ∈ table.map Prod.snd, ∀ n ∈ es.map Entry.method,
        n ∈ T ["S_inf,default", "S_obj,default", "S_obj1+S_obj2,default", "S+V,Ossokine", "S+V,Rashti", "S+V,constraint"]) →
        ∀ es, find q table = some es → find m (es.map fun e => (e.method, e)) = none := by
      intro table ht es hes
      have mem : es ∈ table.map Prod.snd := by
        clear ht
        induction table with
        | nil => simp [find] at hes
        | cons x t ih =>
          rw [find] at hes
          split at hes
          · simp only [Option.some.injEq] at hes
            simp [hes]
          · exact List.mem_map.2 (by obtain ⟨y, hy, e⟩ := List.mem_map.1 (ih hes); exact ⟨y, by simp [hy], e⟩)
      refine find_none _ _ fun e he => ?_
      obtain ⟨e', he', rfl⟩ := List.mem_map.1 he
      exact h _ (ht es mem _ (List.mem_map_of_mem he'))
    have tP : ∀ es ∈ (tableP one).map Prod.snd, ∀ n ∈ es.map Entry.method,
        n ∈ T ["S_inf,default", "S_obj,default", "S_obj1+S_obj2,default", "S+V,Ossokine", "S+V,Rashti", "S+V,constraint"] := by
      have : ∀ es ∈ (tableP one).map fun x => x.2.map Entry.method, ∀ n ∈ es,
          n ∈ T ["S_inf,default", "S_obj,default", "S_obj1+S_obj2,default", "S+V,Ossokine", "S+V,Rashti", "S+V,constraint"] := by
        cases one <;> decide +kernel
      intro es hes
      obtain ⟨x, hx, rfl⟩ := List.mem_map.1 hes
      exact this _ (List.mem_map_of_mem hx)
    have tJ : ∀ es ∈ (tableJ one).map Prod.snd, ∀ n ∈ es.map Entry.method,
        n ∈ T ["S_inf,default", "S_obj,default", "S_obj1+S_obj2,default", "S+V,Ossokine", "S+V,Rashti", "S+V,constraint"] := by
      have : ∀ es ∈ (tableJ one).map fun x => x.2.map Entry.method, ∀ n ∈ es,
          n ∈ T ["S_inf,default", "S_obj,default", "S_obj1+S_obj2,default", "S+V,Ossokine", "S+V,Rashti", "S+V,constraint"] := by
        cases one <;> decide +kernel
      intro es hes
      obtain ⟨x, hx, rfl⟩ := List.mem_map.1 hes
      exact this _ (List.mem_map_of_mem hx)
    constructor
    · simp only [planP, plan]
      split_ifs
      · rfl
      · cases e : find q (tableP one) with
        | none => rfl
        | some es => simp only [g _ tP es e]
    · simp only [planJ, plan]
      split_ifs
      · rfl
      · cases e : find q (tableJ one) with
        | none => rfl
        | some es => simp only [g _ tJ es e]

/-- **C106 (far away).** The momenta of a system by "S_inf,default" are the flux through the outer boundary. -/
theorem C106_far (one : Bool) (k : Kind) (hk : k ≠ .other) (F : Flux k) :
    (∃ p, planP one k ("ADM(P)|".toList ++ sysName k) "S_inf,default".toList = .ok p ∧ p.method = .dflt ∧ F.total p = F.far) ∧
    ∃ p, planJ one k ("ADM(J)|".toList ++ sysName k) "S_inf,default".toList = .ok p ∧ p.method = .dflt ∧ F.total p = F.far := by
  have t : ∀ {M : Type} (m : M), F.total ⟨m, [], [("outermost_OB".toList, .outer)]⟩ = F.far := fun m => by simp [Flux.total, Flux.through]
  constructor
  · refine ⟨⟨.dflt, [], [("outermost_OB".toList, .outer)]⟩, ?_, rfl, t _⟩
    cases k <;> cases one <;> first | exact absurd rfl hk | decide +kernel
  · refine ⟨⟨.dflt, [], [("outermost_OB".toList, .outer)]⟩, ?_, rfl, t _⟩
    cases k <;> cases one <;> first | exact absurd rfl hk | decide +kernel

/-- the surface of an object -/
def surfaceOf (o : Str × Bool) : Str × Side :=
  if o.2 then (o.1 ++ "_OB".toList, .outer) else (o.1 ++ "_around_IB".toList, .inner)

theorem through_surface (k : Kind) (F : Flux k) : ∀ o ∈ objects k, F.through (surfaceOf o) = F.out o.1 := by
  have h1 : ∀ k : Kind, ∀ o ∈ objects k, surfaceOf o ≠ ("outermost_OB".toList, .outer) ∧
      ((objects k).filter fun o' => surfaceOf o = (o'.1 ++ "_around_IB".toList, .inner) ∨ (o'.2 = true ∧ surfaceOf o = (o'.1 ++ "_OB".toList, .outer))) =
        [o] := by
    intro k
    cases k <;> decide +kernel
  intro o ho
  obtain ⟨a, b⟩ := h1 k o ho
  rw [Flux.through, if_neg a, b]
  simp

/-- **C106 (one object).** The momenta of an object of the system by "S_obj,default" are the flux through its surface. -/
theorem C106_object (one : Bool) (k : Kind) (F : Flux k) (o : Str × Bool) (ho : o ∈ objects k) :
    (∃ p, planP one k ("ADM(P)|".toList ++ o.1) "S_obj,default".toList = .ok p ∧ p.method = .dflt ∧ F.total p = F.out o.1) ∧
    ∃ p, planJ one k ("ADM(J)|".toList ++ o.1) "S_obj,default".toList = .ok p ∧ p.method = .dflt ∧ F.total p = F.out o.1 := by
  have t : ∀ {M : Type} (m : M), F.total ⟨m, [], [surfaceOf o]⟩ = F.out o.1 := fun m => by simp [Flux.total, through_surface k F o ho]
  have e : ∀ one : Bool, ∀ k : Kind, ∀ o ∈ objects k,
      planP one k ("ADM(P)|".toList ++ o.1) "S_obj,default".toList = .ok ⟨.dflt, [], [surfaceOf o]⟩ ∧
      planJ one k ("ADM(J)|".toList ++ o.1) "S_obj,default".toList = .ok ⟨.dflt, [], [surfaceOf o]⟩ := by
    intro one k
    cases k <;> cases one <;> decide +kernel
  exact ⟨⟨_, (e one k o ho).1, rfl, t _⟩, ⟨_, (e one k o ho).2, rfl, t _⟩⟩

/-- **C106 (all objects).** The momenta of a binary by "S_obj1+S_obj2,default", and of a single star by "S_obj,default", are the sum of the
fluxes through the surfaces of its objects. -/
theorem C106_objects (one : Bool) (k : Kind) (hk : k ≠ .other ∧ k ≠ .sbh) (F : Flux k) (m : Str)
    (hm : m = if k = .sns then "S_obj,default".toList else "S_obj1+S_obj2,default".toList) :
    (∃ p, planP one k ("ADM(P)|".toList ++ sysName k) m = .ok p ∧ p.method = .dflt ∧ F.total p = ((objects k).map fun o => F.out o.1).sum) ∧
    ∃ p, planJ one k ("ADM(J)|".toList ++ sysName k) m = .ok p ∧ p.method = .dflt ∧ F.total p = ((objects k).map fun o => F.out o.1).sum := by
  have t : ∀ {M : Type} (m : M), F.total ⟨m, [], (objects k).map surfaceOf⟩ = ((objects k).map fun o => F.out o.1).sum := fun m => by
    simp only [Flux.total, List.map_map, List.map_nil, List.sum_nil, add_zero]
    congr 1
    exact List.map_congr_left fun o ho => through_surface k F o ho
  subst hm
  constructor
  · refine ⟨⟨.dflt, [], (objects k).map surfaceOf⟩, ?_, rfl, t _⟩
    cases k <;> cases one <;> first | exact absurd rfl hk.1 | exact absurd rfl hk.2 | decide +kernel
  · refine ⟨⟨.dflt, [], (objects k).map surfaceOf⟩, ?_, rfl, t _⟩
    cases k <;> cases one <;> first | exact absurd rfl hk.1 | exact absurd rfl hk.2 | decide +kernel

/-- the inner surfaces around objects -/
def innerOf (o : Str × Bool) : Str × Side := (o.1 ++ "_around_IB".toList, .inner)

theorem through_inner (k : Kind) (F : Flux k) : ∀ o ∈ objects k, F.through (innerOf o) = F.out o.1 := by
  have h1 : ∀ k : Kind, ∀ o ∈ objects k, innerOf o ≠ ("outermost_OB".toList, .outer) ∧
      ((objects k).filter fun o' => innerOf o = (o'.1 ++ "_around_IB".toList, .inner) ∨ (o'.2 = true ∧ innerOf o = (o'.1 ++ "_OB".toList, .outer))) =
        [o] := by
    intro k
    cases k <;> decide +kernel
  intro o ho
  obtain ⟨a, b⟩ := h1 k o ho
  rw [Flux.through, if_neg a, b]
  simp

/-- a plan with the surfaces of some of the objects, and the volumes of the outside and of some stars -/
theorem total_stokes {M : Type} (k : Kind) (F : Flux k) (m : M) (vol : List Str) (surf : List (Str × Side)) (ho hs : List (Str × Bool))
    (hv : vol.Perm (outside k ++ hs.map Prod.fst)) (hh : ∀ o ∈ hs, o ∈ objects k ∧ o.2 = true) (hf : surf = ho.map innerOf)
    (h1 : ∀ o ∈ ho, o ∈ objects k) : F.total ⟨m, vol, surf⟩ =
      F.far - ((objects k).map fun o => F.out o.1).sum + (ho.map fun o => F.out o.1).sum + (hs.map fun o => F.out o.1).sum := by
  rw [Flux.total, hf]
  have e1 : (List.map F.through (List.map innerOf ho)) = ho.map fun o => F.out o.1 := by
    rw [List.map_map]
    exact List.map_congr_left fun o h => through_inner k F o (h1 o h)
  have e2 : (vol.map F.vol).sum = ((outside k).map F.vol).sum + (hs.map fun o => F.out o.1).sum := by
    rw [(hv.map F.vol).sum_eq, List.map_append, List.sum_append, List.map_map]
    congr 2
    exact List.map_congr_left fun o h => F.star o (hh o h).1 (hh o h).2
  simp only [e1, e2, F.rest]
  ring

/-- **C106 (volumes, partial).** The surface and volume integrals of the methods by Gauss' theorem add up to the flux at the outer boundary:
of P by "S+V,Rashti" except for two black holes and by "S+V,constraint" for a black hole and a star; of J by "S+V,constraint" for all four
systems. -/
theorem C106_volume_partial (one : Bool) (k : Kind) (F : Flux k) :
    (k ∈ [Kind.bhns, .nsns, .sns, .sbh] →
      ∃ p, planP one k ("ADM(P)|".toList ++ sysName k) "S+V,Rashti".toList = .ok p ∧ p.method = .rashti ∧ F.total p = F.far) ∧
    (k = .bhns →
      ∃ p, planP one k ("ADM(P)|".toList ++ sysName k) "S+V,constraint".toList = .ok p ∧ p.method = .constraint ∧ F.total p = F.far) ∧
    (k ∈ [Kind.bhns, .bhbh, .nsns, .sns] →
      ∃ p, planJ one k ("ADM(J)|".toList ++ sysName k) "S+V,constraint".toList = .ok p ∧ p.method = .constraint ∧ F.total p = F.far) := by
  refine ⟨fun hk => ?_, fun hk => ?_, fun hk => ?_⟩
  · simp only [List.mem_cons, List.not_mem_nil, or_false] at hk
    rcases hk with rfl | rfl | rfl | rfl
    · refine ⟨⟨.rashti, T ["outermost", "filling_box", "NS_around", "NS", "BH_around"], [("BH_around_IB".toList, .inner)]⟩, by
        cases one <;> decide +kernel, rfl, ?_⟩
      rw [total_stokes .bhns F _ _ _ [("BH".toList, false)] [("NS".toList, true)] (by decide +kernel) (by decide +kernel) (by decide +kernel) (by decide +kernel)]
      simp [objects]
      ring
    · refine ⟨⟨.rashti, T ["outermost", "filling_box", "NS1_around", "NS1", "NS2_around", "NS2"], []⟩, by cases one <;> decide +kernel, rfl, ?_⟩
      rw [total_stokes .nsns F _ _ _ [] [("NS1".toList, true), ("NS2".toList, true)] (by decide +kernel) (by decide +kernel) (by decide +kernel) (by decide +kernel)]
      simp [objects]
    · refine ⟨⟨.rashti, T ["outermost", "filling_box", "NS_around", "NS"], []⟩, by cases one <;> decide +kernel, rfl, ?_⟩
      rw [total_stokes .sns F _ _ _ [] [("NS".toList, true)] (by decide +kernel) (by decide +kernel) (by decide +kernel) (by decide +kernel)]
      simp [objects]
    · refine ⟨⟨.rashti, T ["outermost", "BH_around"], [("BH_around_IB".toList, .inner)]⟩, by cases one <;> decide +kernel, rfl, ?_⟩
      rw [total_stokes .sbh F _ _ _ [("BH".toList, false)] [] (by decide +kernel) (by decide +kernel) (by decide +kernel) (by decide +kernel)]
      simp [objects]
  · subst hk
    refine ⟨⟨.constraint, T ["outermost", "filling_box", "NS_around", "BH_around"], [("NS_around_IB".toList, .inner), ("BH_around_IB".toList, .inner)]⟩,
      by cases one <;> decide +kernel, rfl, ?_⟩
    rw [total_stokes .bhns F _ _ _ (objects .bhns) [] (by decide +kernel) (by decide +kernel) (by decide +kernel) (by decide +kernel)]
    simp
  · have e : ∀ k ∈ [Kind.bhns, .bhbh, .nsns, .sns], ∀ one : Bool,
        planJ one k ("ADM(J)|".toList ++ sysName k) "S+V,constraint".toList = .ok ⟨.constraint, outside k, (objects k).map innerOf⟩ := by
      intro k hk one
      simp only [List.mem_cons, List.not_mem_nil, or_false] at hk
      rcases hk with rfl | rfl | rfl | rfl <;> cases one <;> decide +kernel
    refine ⟨_, e k hk one, rfl, ?_⟩
    rw [total_stokes k F _ _ _ (objects k) [] (by simp) (by simp) rfl (fun o h => h)]
    simp

/-- **C106 (violation, stars).** P of one star or of two by "S+V,constraint" counts the stars twice: their volumes are collected and so are
their surfaces, and the result is the flux at the outer boundary plus the fluxes through the stars. -/
theorem C106_stars_violation (one : Bool) (k : Kind) (F : Flux k) (hk : k = .nsns ∨ k = .sns) :
    ∃ p, planP one k ("ADM(P)|".toList ++ sysName k) "S+V,constraint".toList = .ok p ∧ p.method = .constraint ∧
      F.total p = F.far + ((objects k).map fun o => F.out o.1).sum := by
  rcases hk with rfl | rfl
  · refine ⟨⟨.constraint, T ["outermost", "filling_box", "NS1_around", "NS1", "NS2_around", "NS2"],
      [("NS1_around_IB".toList, .inner), ("NS2_around_IB".toList, .inner)]⟩, by cases one <;> decide +kernel, rfl, ?_⟩
    rw [total_stokes .nsns F _ _ _ (objects .nsns) (objects .nsns) (by decide +kernel) (by decide +kernel) (by decide +kernel) (by decide +kernel)]
    simp
  · refine ⟨⟨.constraint, T ["outermost", "filling_box", "NS_around", "NS"], [("NS_around_IB".toList, .inner)]⟩,
      by cases one <;> decide +kernel, rfl, ?_⟩
    rw [total_stokes .sns F _ _ _ (objects .sns) (objects .sns) (by decide +kernel) (by decide +kernel) (by decide +kernel) (by decide +kernel)]
    simp

/-- **C106 (violation, two black holes).** P of two black holes is refused by both methods with volumes, and by "S+V,Ossokine" if the grid is
split more than once, although they are in the list of its methods and J has no such gap. -/
theorem C106_bhbh_violation (one : Bool) :
    planP one .bhbh "ADM(P)|BHBH".toList "S+V,Rashti".toList = .abort ∧ planP one .bhbh "ADM(P)|BHBH".toList "S+V,constraint".toList = .abort ∧
    planP false .bhbh "ADM(P)|BHBH".toList "S+V,Ossokine".toList = .abort ∧
    (find "ADM(P)|BHBH".toList (tableP one)).map (fun es => es.map Entry.method) =
      some (T ["S_inf,default", "S+V,Ossokine", "S+V,Rashti", "S+V,constraint", "S_obj1+S_obj2,default"]) ∧
    ∃ p, planJ one .bhbh "ADM(J)|BHBH".toList "S+V,constraint".toList = .ok p := by
  refine ⟨by cases one <;> decide +kernel, by cases one <;> decide +kernel, by decide +kernel, by cases one <;> decide +kernel, ?_⟩
  obtain ⟨p, hp, -⟩ := (C106_volume_partial one .bhbh ⟨fun _ => 0, fun _ => 0, 0, by simp, by simp⟩).2.2 (by simp)
  exact ⟨p, hp⟩

/-- **C106 (one split).** If the grid is split once, the plan of "S+V,Ossokine" has the surface of "S_inf,default" and no volumes. -/
theorem C106_one_split (k : Kind) (hk : k ≠ .other) :
    planP true k ("ADM(P)|".toList ++ sysName k) "S+V,Ossokine".toList = .ok ⟨.ossokine, [], [("outermost_OB".toList, .outer)]⟩ ∧
    planJ true k ("ADM(J)|".toList ++ sysName k) "S+V,Ossokine".toList = .ok ⟨.ossokine, [], [("outermost_OB".toList, .outer)]⟩ := by
  cases k <;> first | exact absurd rfl hk | decide +kernel

/-! ### the hypotheses are met -/

/-- a flux in a grid with two stars: 3 and 4 in the stars, 5 outside -/
noncomputable def exFlux : Flux .nsns where
  vol _ := 3
  out _ := 3
  far := 18
  star _ _ _ := rfl
  rest := by
    have h : Kind.nsns ≠ Kind.sbh := by decide
    simp only [outside, objects, if_neg h, List.map_cons, List.map_nil, List.sum_cons, List.sum_nil, List.cons_append, List.nil_append]
    norm_num

example : ∃ p, planP true .nsns "ADM(P)|NSNS".toList "S+V,constraint".toList = .ok p ∧ exFlux.total p = 24 := by
  obtain ⟨p, h, -, e⟩ := C106_stars_violation true .nsns exFlux (.inl rfl)
  refine ⟨p, h, ?_⟩
  rw [e]
  simp only [objects, exFlux, List.map_cons, List.map_nil, List.sum_cons, List.sum_nil]
  norm_num

example : planP true .bhns "adm(p)|bhns".toList "s_INF,default".toList = planP true .bhns "ADM(P)|BHNS".toList "S_inf,default".toList :=
  (C106_case true .bhns _ _ _ _ (by decide +kernel) (by decide +kernel)).1

example : planP true .bhns "ADM(P)|BHNS".toList "S+W".toList = .abort :=
  (C106_refused true .bhns _ _ (.inr (.inr (by decide +kernel)))).1

end Elliptica.ObsPlan
