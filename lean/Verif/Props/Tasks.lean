import Verif.Model.Tasks
import Verif.Spec.Tasks
/-!
C107: lists of functions, and symmetric tensor fields.
-/
namespace Elliptica.Tasks
open Text Spec

theorem count_map {α : Type} (l : List α) (i : Nat) : count (l.map some ++ [none]) i = .ok (i + l.length) := by
  induction l generalizing i with
  | nil => rfl
  | cons x t ih =>
    simp only [List.map_cons, List.cons_append, count, ih, List.length_cons, Res.ok.injEq]
    omega

/-- **C107 (entries).** However many entries are added, the list holds all of them in this order and its end is marked; no memory beyond
is read. -/
theorem C107_entries {α : Type} (l : List α) :
    addAll (none : Mem α) l = .ok (if l = [] then none else some (l.map some ++ [none])) := by
  have key : ∀ (t d : List α), addAll (some (d.map some ++ [none])) t = .ok (some ((d ++ t).map some ++ [none])) := by
    intro t
    induction t with
    | nil => intro d; simp [addAll]
    | cons x t ih =>
      intro d
      have e : (d.map some ++ [none]).take d.length ++ [some x, none] = (d ++ [x]).map some ++ [none] := by simp
      simp only [addAll, addFunc, count_map, Nat.zero_add, Res.bind_ok, e, ih, List.append_assoc, List.cons_append, List.nil_append]
  cases l with
  | nil => rfl
  | cons x t =>
    have := key t [x]
    simpa [addAll, addFunc] using this

/-- the entries of a task for a coordinate system -/
def matching {S : Type} (task : Str) (coord : Coord) (l : List (Task S)) : List (Task S) :=
  l.filter fun t => t.task.map lower = task.map lower ∧ t.coord = coord

theorem loop_map {S : Type} (task : Str) (coord : Coord) (l : List (Task S)) (s : S) (b : Bool) :
    loop task coord (l.map some ++ [none]) s b =
      (inTurn ((matching task coord l).map Task.f) s).bind fun s => .ok (s, b || !(matching task coord l).isEmpty) := by
  induction l generalizing s b with
  | nil => simp [loop, matching, inTurn]
  | cons x t ih =>
    simp only [List.map_cons, List.cons_append, loop, strcmpI, decide_eq_true_eq]
    by_cases h : x.task.map lower = task.map lower ∧ x.coord = coord
    · rw [if_pos h]
      have e : matching task coord (x :: t) = x :: matching task coord t := by simp [matching, h]
      rw [e]
      simp only [List.map_cons, inTurn]
      cases x.f s with
      | ok s' => simp [ih]
      | abort => rfl
      | ub => rfl
    · rw [if_neg h, ih]
      have e : matching task coord (x :: t) = matching task coord t := by simp [matching, h]
      rw [e]

/-- **C107 (run).** After any registrations, a task runs exactly the functions registered for it (in any letter case) and for the coordinate
system of the patch, each once, in the order of registration; if there are none, the run stops. -/
theorem C107_run {S : Type} (l : List (Task S)) (task : Str) (coord : Coord) (s : S) :
    ∃ m, addAll none l = .ok m ∧
      run m task coord s =
        if (l.filter fun t => t.task.map lower = task.map lower ∧ t.coord = coord) = [] then .abort
        else inTurn ((l.filter fun t => t.task.map lower = task.map lower ∧ t.coord = coord).map Task.f) s := by
  refine ⟨_, C107_entries l, ?_⟩
  change run _ task coord s = if matching task coord l = [] then .abort else inTurn ((matching task coord l).map Task.f) s
  cases l with
  | nil => rfl
  | cons x t =>
    rw [if_neg (by simp)]
    simp only [run, loop_map]
    by_cases h : matching task coord (x :: t) = []
    · simp [h, inTurn]
    · rw [if_neg h]
      have : (matching task coord (x :: t)).isEmpty = false := by simpa using h
      simp only [this]
      cases inTurn ((matching task coord (x :: t)).map Task.f) s <;> rfl

/-- **C107 (look-up).** The look-up returns the first registered function with the name (in any letter case), and nothing if there is
none. -/
theorem C107_get {F : Type} (l : List (Str × F)) (name : Str) :
    ∃ m, addAll none l = .ok m ∧ get name m = .ok (l.find? fun e => e.1.map lower = name.map lower) := by
  refine ⟨_, C107_entries l, ?_⟩
  have key : ∀ l : List (Str × F), getLoop name (l.map some ++ [none]) = .ok (l.find? fun e => e.1.map lower = name.map lower) := by
    intro l
    induction l with
    | nil => rfl
    | cons x t ih =>
      simp only [List.map_cons, List.cons_append, getLoop, strcmpI, decide_eq_true_eq, List.find?_cons]
      by_cases h : x.1.map lower = name.map lower <;> simp [h, ih]
  cases l with
  | nil => rfl
  | cons x t =>
    rw [if_neg (by simp)]
    exact key _

theorem lookUp_none {V : Type} (l : Field.Fields V) (n : Str) : Field.lookUp l n = none ↔ ∀ f ∈ l, f.name ≠ n := by
  simp [Field.lookUp, List.findIdx?_eq_none_iff]

theorem addNames_ok {V : Type} (stem : Str) (v : V) (ids : List Str) (l : Field.Fields V) (hl : ∀ i ∈ ids, (stem ++ i).length < 999)
    (hd : ids.Nodup) (hn : ∀ f ∈ l, ∀ i ∈ ids, f.name ≠ stem ++ i) :
    addNames stem v ids l = .ok (l ++ ids.map fun i => ⟨stem ++ i, v⟩) := by
  induction ids generalizing l with
  | nil => simp [addNames]
  | cons x t ih =>
    have h1 : fieldName stem x = .ok (stem ++ x) := by rw [fieldName, if_neg (Nat.not_le.mpr (hl x (by simp)))]
    have h2 : Field.add l (stem ++ x) v = .ok (l ++ [⟨stem ++ x, v⟩]) := by
      rw [Field.add, (lookUp_none l _).mpr fun f hf => hn f hf x (by simp)]
    rw [List.nodup_cons] at hd
    rw [addNames, h1, Res.bind_ok, h2, Res.bind_ok, ih]
    · simp
    · exact fun i hi => hl i (by simp [hi])
    · exact hd.2
    · intro f hf i hi
      rw [List.mem_append, List.mem_singleton] at hf
      rcases hf with hf | rfl
      · exact hn f hf i (by simp [hi])
      · intro e
        have : x = i := List.append_cancel_left e
        exact hd.1 (this ▸ hi)

theorem addNames_refused {V : Type} (stem : Str) (v : V) (ids : List Str) (l : Field.Fields V) (hl : ∀ i ∈ ids, (stem ++ i).length < 999)
    (hn : ∃ f ∈ l, ∃ i ∈ ids, f.name = stem ++ i) : addNames stem v ids l = .abort := by
  induction ids generalizing l with
  | nil => obtain ⟨_, _, _, h, _⟩ := hn; simp at h
  | cons x t ih =>
    have h1 : fieldName stem x = .ok (stem ++ x) := by rw [fieldName, if_neg (Nat.not_le.mpr (hl x (by simp)))]
    rw [addNames, h1, Res.bind_ok]
    cases e : Field.lookUp l (stem ++ x) with
    | some k => simp [Field.add, e]
    | none =>
      have h2 : Field.add l (stem ++ x) v = .ok (l ++ [⟨stem ++ x, v⟩]) := by rw [Field.add, e]
      rw [h2, Res.bind_ok]
      refine ih _ (fun i hi => hl i (by simp [hi])) ?_
      obtain ⟨f, hf, i, hi, he⟩ := hn
      rcases List.mem_cons.mp hi with rfl | hi
      · exact absurd he ((lookUp_none l _).mp e f hf)
      · exact ⟨f, by simp [hf], i, hi, he⟩

theorem eachPatch_ok {P : Type} (f g : P → P) (h : P → Res P) (l : List P) (hh : ∀ p ∈ l, h p = .ok (g p)) : eachPatch h l = .ok (l.map g) := by
  induction l with
  | nil => rfl
  | cons x t ih => simp [eachPatch, hh x (by simp), ih fun p hp => hh p (by simp [hp])]

/-- the indices of a rank, as in the text of the program -/
def indices (up : Bool) : List Str := if up then ups else downs

theorem mem_indices (up : Bool) (i : Str) :
    i ∈ indices up ↔ ∃ a b : Fin 3, a ≤ b ∧ i = component [] (if up then 'U' else 'D') a b := by
  constructor
  · revert i
    cases up <;> decide +kernel
  · rintro ⟨a, b, h, rfl⟩
    revert a b
    cases up <;> decide +kernel

theorem component_stem (stem : Str) (c : Char) (a b : Fin 3) : component stem c a b = stem ++ component [] c a b := rfl

theorem indices_length (up : Bool) (stem : Str) (hs : stem.length < 994) : ∀ i ∈ indices up, (stem ++ i).length < 999 := by
  intro i hi
  obtain ⟨a, b, -, rfl⟩ := (mem_indices up i).mp hi
  simp only [component, List.nil_append, List.length_append, List.length_cons, List.length_nil]
  omega

theorem addSymmetric_eq {V : Type} (up : Bool) (stem rank : Str) (v : V) (grid : List (Field.Fields V))
    (hr : rank.map lower = (if up then "up".toList else "down".toList).map lower) :
    addSymmetric stem rank v grid = eachPatch (addNames stem v (indices up)) grid := by
  cases up
  · have h : ¬ rank.map lower = "up".toList.map lower := by rw [hr]; decide
    simp only [addSymmetric, strcmpI, decide_eq_true_eq, if_neg h]
    rw [if_pos (by simpa using hr)]
    rfl
  · simp only [addSymmetric, strcmpI, decide_eq_true_eq]
    rw [if_pos (by simpa using hr)]
    rfl

/-- **C107 (symmetric fields).** If no patch has one of them and the stem is not too long, each patch gets, behind its fields, exactly the
components i ≤ j of the tensor of the rank asked for, each once. -/
theorem C107_symmetric {V : Type} (up : Bool) (stem rank : Str) (v : V) (grid : List (Field.Fields V))
    (hr : rank.map lower = (if up then "up".toList else "down".toList).map lower) (hs : stem.length < 994)
    (hn : ∀ p ∈ grid, ∀ f ∈ p, ∀ a b : Fin 3, a ≤ b → f.name ≠ component stem (if up then 'U' else 'D') a b) :
    ∃ new : Field.Fields V, addSymmetric stem rank v grid = .ok (grid.map (· ++ new)) ∧ new.length = 6 ∧ (new.map Field.Fld.name).Nodup ∧
      (∀ f ∈ new, f.val = v) ∧
      ∀ n, n ∈ new.map Field.Fld.name ↔ ∃ a b : Fin 3, a ≤ b ∧ n = component stem (if up then 'U' else 'D') a b := by
  have nd : (indices up).Nodup := by cases up <;> decide +kernel
  refine ⟨(indices up).map fun i => ⟨stem ++ i, v⟩, ?_, ?_, ?_, ?_, ?_⟩
  · rw [addSymmetric_eq up stem rank v grid hr]
    refine eachPatch_ok id _ _ _ fun p hp => addNames_ok stem v _ p (indices_length up stem hs) nd fun f hf i hi e => ?_
    obtain ⟨a, b, h, rfl⟩ := (mem_indices up i).mp hi
    exact hn p hp f hf a b h e
  · cases up <;> rfl
  · rw [List.map_map]
    exact List.Pairwise.map _ (fun i j h e => h (List.append_cancel_left e)) nd
  · intro f hf
    obtain ⟨i, -, rfl⟩ := List.mem_map.mp hf
    rfl
  · intro n
    rw [List.map_map]
    constructor
    · intro h
      obtain ⟨i, hi, rfl⟩ := List.mem_map.mp h
      obtain ⟨a, b, hab, rfl⟩ := (mem_indices up i).mp hi
      exact ⟨a, b, hab, rfl⟩
    · rintro ⟨a, b, h, rfl⟩
      exact List.mem_map.mpr ⟨_, (mem_indices up _).mpr ⟨a, b, h, rfl⟩, rfl⟩

theorem eachPatch_abort {P : Type} (h : P → Res P) (l : List P) (hh : ∀ p ∈ l, h p ≠ .ub) (ha : ∃ p ∈ l, h p = .abort) :
    eachPatch h l = .abort := by
  induction l with
  | nil => obtain ⟨_, h, _⟩ := ha; simp at h
  | cons x t ih =>
    rw [eachPatch]
    cases e : h x with
    | ub => exact absurd e (hh x (by simp))
    | abort => rfl
    | ok y =>
      rw [Res.bind_ok, ih (fun p hp => hh p (by simp [hp]))]
      · rfl
      · obtain ⟨p, hp, hpa⟩ := ha
        rcases List.mem_cons.mp hp with rfl | hp
        · rw [e] at hpa; simp at hpa
        · exact ⟨p, hp, hpa⟩

/-- **C107 (symmetric fields refused).** A rank other than "up" and "down" is refused, and so is a grid where a patch already has one of the
components: no field is made twice. -/
theorem C107_symmetric_refused {V : Type} (stem rank : Str) (v : V) (grid : List (Field.Fields V)) (hs : stem.length < 994)
    (h : (rank.map lower ≠ "up".toList ∧ rank.map lower ≠ "down".toList) ∨
      ∃ up : Bool, rank.map lower = (if up then "up".toList else "down".toList) ∧
        ∃ p ∈ grid, ∃ f ∈ p, ∃ a b : Fin 3, a ≤ b ∧ f.name = component stem (if up then 'U' else 'D') a b) :
    addSymmetric stem rank v grid = .abort := by
  have eu : "up".toList.map lower = "up".toList := by decide
  have ed : "down".toList.map lower = "down".toList := by decide
  rcases h with ⟨h1, h2⟩ | ⟨up, hr, p, hp, f, hf, a, b, hab, e⟩
  · simp only [addSymmetric, strcmpI, decide_eq_true_eq, eu, ed, if_neg h1, if_neg h2]
  · rw [addSymmetric_eq up stem rank v grid (by rw [hr]; cases up <;> decide)]
    have nd : (indices up).Nodup := by cases up <;> decide +kernel
    refine eachPatch_abort _ _ (fun q hq => ?_) ⟨p, hp, addNames_refused stem v _ p (indices_length up stem hs)
      ⟨f, hf, _, (mem_indices up _).mpr ⟨a, b, hab, rfl⟩, e⟩⟩
    by_cases g : ∃ f ∈ q, ∃ i ∈ indices up, f.name = stem ++ i
    · rw [addNames_refused stem v _ q (indices_length up stem hs) g]; simp
    · rw [addNames_ok stem v _ q (indices_length up stem hs) nd fun f hf i hi e => g ⟨f, hf, i, hi, e⟩]; simp

/-! cases that meet the hypotheses -/

/-- two tasks on a counter -/
def exTasks : List (Task Nat) :=
  [⟨"FindInnerB".toList, .cartesian, fun s => .ok (10 * s + 1)⟩, ⟨"FindExterF".toList, .cubedSpherical, fun s => .ok (10 * s + 2)⟩,
   ⟨"findinnerb".toList, .cubedSpherical, fun s => .ok (10 * s + 3)⟩, ⟨"FindInnerB".toList, .cartesian, fun s => .ok (10 * s + 4)⟩]

example : ∃ m, addAll none exTasks = .ok m ∧ run m "FINDINNERB".toList .cartesian 5 = .ok 514 ∧
    run m "FindExterF".toList .cartesian 5 = .abort := by
  refine ⟨_, C107_entries _, ?_, ?_⟩
  · obtain ⟨m, hm, h⟩ := C107_run exTasks "FINDINNERB".toList .cartesian 5
    rw [C107_entries, Res.ok.injEq] at hm
    rw [hm, h]
    decide +kernel
  · obtain ⟨m, hm, h⟩ := C107_run exTasks "FindExterF".toList .cartesian 5
    rw [C107_entries, Res.ok.injEq] at hm
    rw [hm, h]
    decide +kernel

example : ∃ m, addAll none [("Lambda".toList, 1), ("lambda".toList, 2)] = .ok m ∧ get "LAMBDA".toList m = .ok (some ("Lambda".toList, 1)) := by
  obtain ⟨m, hm, h⟩ := C107_get [("Lambda".toList, 1), ("lambda".toList, 2)] "LAMBDA".toList
  exact ⟨m, hm, h.trans (by decide +kernel)⟩

example : ∃ new : Field.Fields Unit, addSymmetric "gConf".toList "Down".toList () [[⟨"psi".toList, ()⟩], []] =
    .ok ([[⟨"psi".toList, ()⟩], []].map (· ++ new)) ∧ "gConf_D0D2".toList ∈ new.map Field.Fld.name := by
  obtain ⟨new, h, -, -, -, hn⟩ := C107_symmetric false "gConf".toList "Down".toList () [[⟨"psi".toList, ()⟩], []] (by decide +kernel)
    (by decide) (by decide +kernel)
  exact ⟨new, h, (hn _).mpr ⟨0, 2, by decide, by decide +kernel⟩⟩

example : addSymmetric "gConf".toList "UP".toList () [[⟨"gConf_U0U1".toList, ()⟩]] = .abort :=
  C107_symmetric_refused _ _ _ _ (by decide) (.inr ⟨true, by decide +kernel, [⟨"gConf_U0U1".toList, ()⟩], List.mem_cons_self, ⟨"gConf_U0U1".toList, ()⟩, List.mem_cons_self, 0, 1,
    by decide, by decide +kernel⟩)

end Elliptica.Tasks
