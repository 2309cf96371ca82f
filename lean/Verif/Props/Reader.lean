import Verif.Lemmas.Reader
import Mathlib.Data.List.Nodup
/-!
C77: the initial data reader returns, for every field an evolution code asks for and every point, the value of the right field at
the right place, whatever the order of the parallel loops; nothing else changes.
-/
namespace Elliptica.Reader
open Elliptica Elliptica.Ckpt Elliptica.ReaderSpec Elliptica.TextSpec

/-! ### names, parameters, dispatch -/

/-- `idr->indx(name)` is the position of the name in the dictionary, each name has one, and every other name stops the program -/
theorem C77_index (name : Str) : (∀ k, indx name = .ok k ↔ dict[k]? = some name) ∧ (indx name = .abort ↔ name ∉ dict) ∧
    indx name ≠ .ub := by
  refine ⟨fun k => indx_ok, ?_, ?_⟩
  · unfold indx
    rw [← indxLoop_none name dict 0]
    cases indxLoop name 0 dict <;> simp
  · unfold indx
    cases indxLoop name 0 dict <;> simp

example : indx "adm_gxx".toList = .ok 4 ∧ indx "grhd_vz".toList = .ok 21 ∧ indx "Alpha".toList = .abort := by decide +kernel

/-- Opening a checkpoint: the system is the parameter "Project" of the run that was saved, it is also the first parameter, no
field has values yet; a checkpoint without it is refused. -/
theorem C77_open {D : Type} (c : Codec D) (hc : c.OK) (sel : Str → Bool) (w : World D) (hw : WFWorld sel w) (o : Str) :
    ∃ B, wAll c sel w = bytes B ∧
      ((∀ p ∈ w.ps, ¬ Same p.lv "Project".toList) → init c (some B) (some o) = .abort) ∧
      ∀ pre p post, w.ps = pre ++ p :: post → (∀ q ∈ pre, ¬ Same q.lv "Project".toList) → Same p.lv "Project".toList →
        ∃ idr, init c (some B) (some o) = .ok idr ∧ idr.path = B ∧ idr.system = p.rv ∧ idr.option = o ∧
          idr.params = [(some "Project".toList, p.rv)] ∧ idr.field = List.replicate 22 none := by
  obtain ⟨B, e, hq⟩ := C25_query c hc sel w hw "Project".toList
  have hs : ∀ p : Params.Par D, (Text.strcmpI (some p.lv) (some "Project".toList) = true ↔ Same p.lv "Project".toList) := by
    intro p; simp [Text.strcmpI, Same]
  refine ⟨B, e, ?_, ?_⟩
  · intro h
    have : (w.ps.find? fun p => Text.strcmpI (some p.lv) (some "Project".toList)) = none :=
      List.find?_eq_none.2 fun p hp h' => h p hp ((hs p).1 h')
    rw [this] at hq
    simp only [init, hq, Res.bind_ok]
  · intro pre p post h1 h2 h3
    have : (w.ps.find? fun p => Text.strcmpI (some p.lv) (some "Project".toList)) = some p := by
      rw [h1, List.find?_append, List.find?_eq_none.2 fun q hq h' => h2 q hq ((hs q).1 h'), Option.none_or,
        List.find?_cons, (hs p).2 h3]
    rw [this] at hq
    refine ⟨⟨B, p.rv, o, [(some "Project".toList, p.rv)], List.replicate 22 none, none, none, false⟩, ?_, rfl, rfl, rfl, rfl, rfl⟩
    have hd := dict_length
    simp only [init, hq, Res.bind_ok, setParam, reduceCtorEq, false_and, if_false, hd, List.nil_append]

theorem C77_open_null {D : Type} (c : Codec D) (b : Option Bytes) (o : Option Str) :
    init c none o = .abort ∧ init c b none = (.abort : Res (Idr D)) := by
  cases b <;> exact ⟨rfl, rfl⟩

/-- the calls of `idr->set_param`, in order -/
def setAll {D : Type} : List (Option Str × Option Str) → Idr D → Res (Idr D)
  | [], idr => .ok idr
  | a :: as, idr => (setParam a.1 a.2 idr).bind (setAll as)

/-- Parameters set by the evolution code are kept in the order of the calls, and nothing else changes. -/
theorem C77_params {D : Type} (as : List (Option Str × Option Str)) (idr : Idr D) :
    ((∃ a ∈ as, a.1 = none ∧ a.2 = none) ∧ setAll as idr = .abort) ∨
    ((∀ a ∈ as, a.1 ≠ none ∨ a.2 ≠ none) ∧ setAll as idr = .ok { idr with params := idr.params ++ as }) := by
  induction as generalizing idr with
  | nil => exact .inr ⟨by simp, by simp [setAll]⟩
  | cons a as ih =>
    by_cases h : a.1 = none ∧ a.2 = none
    · exact .inl ⟨⟨a, by simp, h⟩, by simp [setAll, setParam, h]⟩
    · have e : setAll (a :: as) idr = setAll as { idr with params := idr.params ++ [a] } := by
        simp only [setAll, setParam, if_neg h, Res.bind_ok]
      rw [e]
      rcases ih { idr with params := idr.params ++ [a] } with ⟨⟨b, hb, h1⟩, h2⟩ | ⟨h1, h2⟩
      · exact .inl ⟨⟨b, by simp [hb], h1⟩, h2⟩
      · refine .inr ⟨?_, by rw [h2]; simp⟩
        intro b hb
        rcases List.mem_cons.1 hb with rfl | hb
        · rw [not_and_or] at h; exact h
        · exact h1 b hb

/-- `idr->get_param_dbl` gives the number the checkpoint holds for that name (case insensitive), whatever was set by
`idr->set_param` in between; a name the checkpoint does not know is refused. -/
theorem C77_get_param {D : Type} (L : Params.Libc D) (c : Codec D) (hc : c.OK) (sel : Str → Bool) (w : World D) (hw : WFWorld sel w)
    (name : Str) : ∃ B, wAll c sel w = bytes B ∧ ∀ (idr idr' : Idr D) (as : List (Option Str × Option Str)), idr.path = B →
      setAll as idr = .ok idr' →
      ((∀ p ∈ w.ps, ¬ Same p.lv name) → getParamDbl L c (some name) idr' = .abort) ∧
      ∀ pre p post s, w.ps = pre ++ p :: post → (∀ q ∈ pre, ¬ Same q.lv name) → Same p.lv name → p.rv = some s →
        getParamDbl L c (some name) idr' = .ok (L.strtod s) := by
  obtain ⟨B, e, hq⟩ := C25_query c hc sel w hw name
  have hs : ∀ p : Params.Par D, (Text.strcmpI (some p.lv) (some name) = true ↔ Same p.lv name) := by
    intro p; simp [Text.strcmpI, Same]
  refine ⟨B, e, fun idr idr' as hp hset => ?_⟩
  have hp' : idr'.path = B := by
    rcases C77_params as idr with ⟨-, h⟩ | ⟨-, h⟩
    · rw [h] at hset; cases hset
    · rw [h] at hset; cases hset; exact hp
  constructor
  · intro h
    have : (w.ps.find? fun p => Text.strcmpI (some p.lv) (some name)) = none :=
      List.find?_eq_none.2 fun p hp h' => h p hp ((hs p).1 h')
    rw [this] at hq
    simp only [getParamDbl, hp', hq, Res.bind_ok]
  · intro pre p post s h1 h2 h3 h4
    have : (w.ps.find? fun p => Text.strcmpI (some p.lv) (some name)) = some p := by
      rw [h1, List.find?_append, List.find?_eq_none.2 fun q hq h' => h2 q hq ((hs q).1 h'), Option.none_or,
        List.find?_cons, (hs p).2 h3]
    rw [this] at hq
    simp only [getParamDbl, hp', hq, Res.bind_ok, h4]

/-- what `elliptica_id_reader_interpolate` asks of the user for the option "generic" -/
def Filled {D : Type} (idr : Idr D) : Prop := idr.ifields ≠ none ∧ ∃ l, idr.coords = some l ∧ l ≠ []

theorem sane_iff {D : Type} (idr : Idr D) : sane idr = true ↔ Filled idr := by
  unfold sane Filled
  cases idr.ifields <;> cases idr.coords <;> simp

/-- The system and the option (case insensitive) decide which program is called; "generic" needs fields and points. -/
theorem C77_dispatch {D : Type} (idr : Idr D) (s : Str) (hs : idr.system = some s) (p : Project) (n : Str)
    (hn : (p, n) ∈ systems) (hsn : Same s n) :
    (Same idr.option "generic".toList → Filled idr → dispatch idr = .ok (p, "generic".toList, idr)) ∧
    (Same idr.option "generic".toList → ¬ Filled idr → dispatch idr = .abort) ∧
    (Same idr.option "generic_MT_safe".toList → p = .bhns →
      dispatch idr = .ok (p, "generic_MT_safe".toList, { idr with mt := true })) ∧
    (¬ Same idr.option "generic".toList → ¬ Same idr.option "generic_MT_safe".toList → dispatch idr = .abort) := by
  have d1 : ∀ t : String, Text.strcmpI idr.system (some t.toList) = decide (n.map Text.lower = t.toList.map Text.lower) := by
    intro t; rw [hs]; simp only [Text.strcmpI]; rw [hsn]
  have d2 : ∀ t : String, Text.strcmpI (some idr.option) (some t.toList) = true ↔ Same idr.option t.toList := by
    intro t; simp only [Text.strcmpI, Same, decide_eq_true_eq]
  have hne : Same idr.option "generic_MT_safe".toList → ¬ Same idr.option "generic".toList := by
    intro h1 h2
    have := h1.symm.trans h2
    revert this
    decide +kernel
  have key : ∀ q ∈ systems, (decide (q.2.map Text.lower = "BH_NS_binary_initial_data".toList.map Text.lower) =
      decide (q.1 = .bhns)) ∧ (decide (q.2.map Text.lower = "NS_NS_binary_initial_data".toList.map Text.lower) = decide (q.1 = .nsns)) ∧
      (decide (q.2.map Text.lower = "BH_BH_binary_initial_data".toList.map Text.lower) = decide (q.1 = .bhbh)) ∧
      (decide (q.2.map Text.lower = "Single_NS_initial_data".toList.map Text.lower) = decide (q.1 = .sns)) := by
    decide +kernel
  obtain ⟨k1, k2, k3, k4⟩ := key (p, n) hn
  rw [← d2, ← d2, ← sane_iff]
  rw [← d2, ← d2] at hne
  unfold dispatch
  simp only [d1]
  simp only [] at k1 k2 k3 k4
  simp only [k1, k2, k3, k4]
  generalize Text.strcmpI (some idr.option) (some "generic".toList) = G at hne ⊢
  generalize Text.strcmpI (some idr.option) (some "generic_MT_safe".toList) = M at hne ⊢
  generalize sane idr = S
  clear d1 d2 key k1 k2 k3 k4 hn hsn hs
  revert hne
  generalize "generic".toList = g
  generalize "generic_MT_safe".toList = m
  cases G <;> cases M <;> cases S <;> cases p <;> simp

/-- The tutorial in idr_main.c describes the thread safe reader for binary neutron stars too; it is refused for every system but
black hole-neutron star. -/
theorem C78_mt_violation {D : Type} (idr : Idr D) (h : idr.system = some "NS_NS_binary_initial_data".toList)
    (ho : idr.option = "generic_MT_safe".toList) : dispatch idr = .abort := by
  have e1 : Text.strcmpI (some "NS_NS_binary_initial_data".toList) (some "BH_NS_binary_initial_data".toList) = false := by decide +kernel
  have e2 : Text.strcmpI (some "generic_MT_safe".toList) (some "generic".toList) = false := by decide +kernel
  unfold dispatch
  simp only [h, ho, e1, e2, Bool.false_and, Bool.and_false, Bool.false_eq_true, if_false]

/-- Any other system is refused. -/
theorem C77_unknown {D : Type} (idr : Idr D) (h : ∀ s, idr.system = some s → ∀ q ∈ systems, ¬ Same s q.2) :
    dispatch idr = .abort := by
  have d1 : ∀ t : String, t.toList ∈ systems.map (·.2) → Text.strcmpI idr.system (some t.toList) = false := by
    intro t ht
    obtain ⟨q, hq, e⟩ := List.mem_map.1 ht
    cases hs : idr.system with
    | none => rfl
    | some s =>
      have := h s hs q hq
      rw [e] at this
      simpa [Text.strcmpI, Same] using this
  unfold dispatch
  simp only [d1 "BH_NS_binary_initial_data" (by decide +kernel), d1 "NS_NS_binary_initial_data" (by decide +kernel),
    d1 "BH_BH_binary_initial_data" (by decide +kernel), d1 "Single_NS_initial_data" (by decide +kernel), Bool.false_and,
    Bool.false_eq_true, if_false]

/-! ### values -/

/-- The arrays the evolution code gets: whenever the call returns, entry `indx(e)` holds at point number `p` the value at that
point (shifted by the centre of mass) of the field paired with the name `e`, every value is finite, and the entries of all other
names are as before.  (A name given twice gets its last field.) -/
theorem C77_fill {D X V : Type} [Add D] (finite : D → Bool) (grid : List (Patch D X V)) (cm : Fin 3 → D) (xs : List (Fin 3 → D))
    (names evos : Str) (ns es : List Str) (hn : Splits ',' names ns) (he : Splits ',' evos es) (o1 : List Nat) (order : Nat → List Nat)
    (ho1 : o1.Perm (List.range xs.length)) (ho : ∀ f, (order f).Perm (List.range xs.length)) (field r : List (Option (List D)))
    (hl : field.length = 22) (h : fill finite grid cm xs names evos o1 order field = .ok r) :
    r.length = 22 ∧ ns ≠ [] ∧
    (∀ (f : Nat) (n : Str), ns[f]? = some n → ∃ (e : Str) (k : Nat), es[f]? = some e ∧ indx e = .ok k ∧
      ((∀ f', f < f' → f' < ns.length → es[f']? ≠ some e) → ∃ l : List D, r[k]? = some (some l) ∧ l.length = xs.length ∧
        ∀ (p : Nat) (x : Fin 3 → D) (d : D), xs[p]? = some x → l[p]? = some d →
          HasValue grid (fun i => x i + cm i) n d ∧ finite d = true)) ∧
    ∀ (e : Str) (k : Nat), indx e = .ok k → (∀ f, f < ns.length → es[f]? ≠ some e) → r[k]? = field[k]? := by
  have e1 : Text.readItems ',' names = ns := Props.Text.C09_items_partial ',' names ns hn
  have e2 : Text.readItems ',' evos = es := Props.Text.C09_items_partial ',' evos es he
  simp only [fill, saveArray, e1, e2, bind_ok_iff] at h
  obtain ⟨pnt, hpnt, h⟩ := h
  obtain ⟨hll, hloc⟩ := findPoints_ok grid cm xs o1 ho1 pnt hpnt
  rw [List.length_map] at hll
  split_ifs at h with hne hne2
  simp only [bind_ok_iff] at h
  obtain ⟨fi, hfi, h⟩ := h
  have hd := dict_length
  obtain ⟨h1, h2, h3⟩ := saveLoop_ok finite grid pnt fi es order r ns 0 field (by rw [hl, hd]) h
  refine ⟨h1.trans hd, hne, ?_, ?_⟩
  · intro f n hf
    obtain ⟨hf', ef⟩ := List.getElem?_eq_some_iff.1 hf
    obtain ⟨e, k, l, a1, a2, a3, a4⟩ := h2 f hf'
    simp only [Nat.zero_add] at a1 a3 a4
    refine ⟨e, k, a1, indx_ok.2 a2, fun hlast => ⟨l, a4 hlast, ?_⟩⟩
    obtain ⟨⟨b1, b2⟩, b3⟩ := (values_ok finite grid pnt fi f (order f) (by rw [hll]; exact ho f) l).1 a3
    refine ⟨b1.trans hll, fun p x d hx hdd => ?_⟩
    obtain ⟨hp, ex⟩ := List.getElem?_eq_some_iff.1 hx
    obtain ⟨hp', ed⟩ := List.getElem?_eq_some_iff.1 hdd
    obtain ⟨pa, hpa⟩ := hloc p (by omega) (by simpa using hp)
    have := interp_value grid ns fi hfi f hf' _ _ pa hpa d (by rw [b2 p (by omega) hp', ed])
    rw [ef, List.getElem_map, ex] at this
    exact ⟨this, b3 d (List.mem_of_getElem? hdd)⟩
  · intro e k hk hno
    exact h3 k e (indx_ok.1 hk) fun g hg => by rw [Nat.zero_add]; exact hno g hg

/-- The call returns when every point lies in some patch (the first of which has fields and bases that can be interpolated), every
patch has every field, the two lists pair up with names of the dictionary, and no value is infinite. -/
theorem C77_fill_total {D X V : Type} [Add D] (finite : D → Bool) (grid : List (Patch D X V)) (cm : Fin 3 → D) (xs : List (Fin 3 → D))
    (names evos : Str) (ns es : List Str) (hn : Splits ',' names ns) (he : Splits ',' evos es) (o1 : List Nat) (order : Nat → List Nat)
    (ho1 : o1.Perm (List.range xs.length)) (ho : ∀ f, (order f).Perm (List.range xs.length)) (field : List (Option (List D)))
    (hne : ns ≠ []) (hlen : ns.length ≤ es.length) (hes : ∀ e ∈ es, e ∈ dict)
    (hfields : ∀ pa ∈ grid, pa.planned = true ∧ ∀ n ∈ ns, ∃ f ∈ pa.fields, f.name = n)
    (hpts : ∀ x ∈ xs, ∃ pa ∈ grid, (pa.xof fun i => x i + cm i) ≠ none)
    (hfin : ∀ x ∈ xs, ∀ n ∈ ns, ∀ d, HasValue grid (fun i => x i + cm i) n d → finite d = true) :
    ∃ r, fill finite grid cm xs names evos o1 order field = .ok r := by
  have e1 : Text.readItems ',' names = ns := Props.Text.C09_items_partial ',' names ns hn
  have e2 : Text.readItems ',' evos = es := Props.Text.C09_items_partial ',' evos es he
  have hne2 : es ≠ [] := by
    rintro rfl
    simp only [List.length_nil, Nat.le_zero] at hlen
    exact hne (List.length_eq_zero_iff.1 hlen)
  have hloc : ∀ x ∈ xs, ∃ s : Nat × Patch D X V × X, locate grid (fun i => x i + cm i) = .ok s := by
    intro x hx
    obtain ⟨pa, hpa, hxo⟩ := hpts x hx
    let t := grid.findIdx fun q => ((q.xof fun i => x i + cm i)).isSome
    have ht : t < grid.length := List.findIdx_lt_length_of_exists ⟨pa, hpa, by
      cases h : pa.xof fun i => x i + cm i with
      | none => exact absurd h hxo
      | some v => rfl⟩
    have hs : (grid[t].xof fun i => x i + cm i).isSome = true := List.findIdx_getElem (w := ht)
    obtain ⟨v, hv⟩ := Option.isSome_iff_exists.1 hs
    refine ⟨(t, grid[t], v), (locate_ok grid _ t grid[t] v).2 ⟨List.getElem?_eq_getElem ht, hv, fun q hq => ?_⟩⟩
    obtain ⟨i, hi, rfl⟩ := List.mem_take_iff_getElem.1 hq
    have := List.not_of_lt_findIdx (p := fun q : Patch D X V => ((q.xof fun i => x i + cm i)).isSome) (xs := grid) (i := i)
      (show i < t by omega)
    simpa using this
  have hfp : ∃ pnt, findPoints grid cm xs o1 = .ok pnt := by
    refine loop_total _ _ ho1 _ fun p hp => ?_
    obtain ⟨⟨q, pa, v⟩, hs⟩ := hloc xs[p] (List.getElem_mem hp)
    have hg := ((locate_ok grid _ q pa v).1 hs).1
    have hpa := hfields pa (List.mem_of_getElem? hg)
    have hf : pa.fields ≠ [] := by
      intro h0
      cases hns : ns with
      | nil => exact hne hns
      | cons n ns' =>
        obtain ⟨f, hf, -⟩ := hpa.2 n (by rw [hns]; simp)
        rw [h0] at hf
        exact absurd hf (by simp)
    exact ⟨⟨q, v⟩, by simp [point, List.getElem?_eq_getElem hp, findPoint, hs, hf, hpa.1]⟩
  obtain ⟨pnt, hpnt⟩ := hfp
  obtain ⟨hll, hlo⟩ := findPoints_ok grid cm xs o1 ho1 pnt hpnt
  rw [List.length_map] at hll
  obtain ⟨fi, hfi⟩ := fIndex_total grid ns fun pa hpa => (hfields pa hpa).2
  have hval : ∀ f, f < ns.length → ∃ l, values finite grid pnt fi f (order f) = .ok l := by
    intro f hf
    have hi : ∀ p < pnt.length, ∃ d, (slot pnt p).bind (interp grid fi f) = .ok d := by
      intro p hp
      obtain ⟨pa, hpa⟩ := hlo p hp (by simpa using by omega)
      obtain ⟨d, hd⟩ := interp_total grid ns fi hfi f hf _ _ pa hpa
      exact ⟨d, by simpa [slot, List.getElem?_eq_getElem hp] using hd⟩
    obtain ⟨l, hl⟩ := loop_total pnt.length (order f) (by rw [hll]; exact ho f) _ hi
    refine ⟨l, ?_⟩
    obtain ⟨l1, l2⟩ := (loop_ok pnt.length (order f) (by rw [hll]; exact ho f) _ l).1 hl
    have : l.all finite = true := by
      refine List.all_eq_true.2 fun d hd => ?_
      obtain ⟨p, hp, rfl⟩ := List.getElem_of_mem hd
      have hp2 : p < pnt.length := by omega
      have := l2 p hp
      simp only [slot, List.getElem?_eq_getElem hp2, Res.bind_ok] at this
      obtain ⟨pa, hpa⟩ := hlo p hp2 (by simpa using by omega)
      have hv := interp_value grid ns fi hfi f hf _ _ pa hpa _ this
      rw [List.getElem_map] at hv
      exact hfin _ (List.getElem_mem (by omega)) _ (List.getElem_mem hf) _ hv
    simp only [values, hl, Res.bind_ok, this, if_true]
  obtain ⟨r, hr⟩ := saveLoop_total finite grid pnt fi es order ns 0 field fun g hg => by
    obtain ⟨l, hl⟩ := hval g hg
    have hg' : g < es.length := by omega
    exact ⟨es[g], l, by simp [List.getElem?_eq_getElem hg'], hes _ (List.getElem_mem hg'), by rw [Nat.zero_add]; exact hl⟩
  exact ⟨r, by simp only [fill, hpnt, Res.bind_ok, saveArray, e1, e2, if_neg hne, if_neg hne2, hfi, hr]⟩

/-- It never returns when a point is outside every patch, or when the first patch that contains it has no field or bases that
cannot be interpolated. -/
theorem C77_refuses {D X V : Type} [Add D] (finite : D → Bool) (grid : List (Patch D X V)) (cm : Fin 3 → D) (xs : List (Fin 3 → D))
    (names evos : Str) (o1 : List Nat) (order : Nat → List Nat) (ho1 : o1.Perm (List.range xs.length))
    (field r : List (Option (List D))) (h : fill finite grid cm xs names evos o1 order field = .ok r) (x : Fin 3 → D) (hx : x ∈ xs) :
    ∃ pre pa post, grid = pre ++ pa :: post ∧ (∀ q ∈ pre, (q.xof fun i => x i + cm i) = none) ∧
      (pa.xof fun i => x i + cm i) ≠ none ∧ pa.fields ≠ [] ∧ pa.planned = true := by
  simp only [fill, bind_ok_iff] at h
  obtain ⟨pnt, hp, -⟩ := h
  obtain ⟨h1, h2⟩ := (loop_ok _ _ ho1 _ _).1 hp
  obtain ⟨p, hp, rfl⟩ := List.getElem_of_mem hx
  have := h2 p (by omega)
  simp only [point, List.getElem?_eq_getElem hp, Res.bind_ok, findPoint, bind_ok_iff] at this
  obtain ⟨⟨q, pa, v⟩, hl, h3⟩ := this
  obtain ⟨hg, hxo, hpre⟩ := (locate_ok grid _ q pa v).1 hl
  simp only at h3
  split_ifs at h3 with hf hpl
  exact ⟨_, pa, _, split_at grid q pa hg, hpre, by rw [hxo]; simp, hf, hpl⟩

/-- The order in which the threads take the points does not matter. -/
theorem C77_schedule {D X V : Type} [Add D] (finite : D → Bool) (grid : List (Patch D X V)) (cm : Fin 3 → D) (xs : List (Fin 3 → D))
    (names evos : Str) (o1 o1' : List Nat) (order order' : Nat → List Nat)
    (ho1 : o1.Perm (List.range xs.length)) (ho : ∀ f, (order f).Perm (List.range xs.length))
    (ho1' : o1'.Perm (List.range xs.length)) (ho' : ∀ f, (order' f).Perm (List.range xs.length))
    (field r : List (Option (List D))) (h : fill finite grid cm xs names evos o1 order field = .ok r) :
    fill finite grid cm xs names evos o1' order' field = .ok r := by
  simp only [fill, bind_ok_iff] at h ⊢
  obtain ⟨pnt, hp, h⟩ := h
  have hll := (findPoints_ok grid cm xs o1 ho1 pnt hp).1
  rw [List.length_map] at hll
  refine ⟨pnt, (loop_ok _ _ ho1' _ _).2 ((loop_ok _ _ ho1 _ _).1 hp), ?_⟩
  unfold saveArray at h ⊢
  split_ifs at h ⊢
  simp only [bind_ok_iff] at h ⊢
  obtain ⟨fi, hfi, h⟩ := h
  exact ⟨fi, hfi, saveLoop_order finite grid pnt fi _ order order' (by rw [hll]; exact ho) (by rw [hll]; exact ho') r _ _ _ h⟩

/-- The value of a field at a point is unique when the patches have no two fields of one name (which `add_field` guarantees). -/
theorem value_unique {D X V : Type} (grid : List (Patch D X V)) (hu : ∀ pa ∈ grid, (pa.fields.map (·.name)).Nodup) (y : Fin 3 → D)
    (n : Str) (d d' : D) (h : HasValue grid y n d) (h' : HasValue grid y n d') : d = d' := by
  induction grid with
  | nil => obtain ⟨pre, pa, post, e, -⟩ := h; simp at e
  | cons q grid ih =>
    obtain ⟨pre, pa, post, e, hp, X, hX, f, hf, hn, hd⟩ := h
    obtain ⟨pre', pa', post', e', hp', X', hX', f', hf', hn', hd'⟩ := h'
    cases pre with
    | nil =>
      simp only [List.nil_append, List.cons.injEq] at e
      obtain ⟨rfl, rfl⟩ := e
      cases pre' with
      | nil =>
        simp only [List.nil_append, List.cons.injEq] at e'
        obtain ⟨rfl, -⟩ := e'
        rw [hX] at hX'
        cases hX'
        have : f = f' := List.inj_on_of_nodup_map (hu q (by simp)) hf hf' (hn.trans hn'.symm)
        rw [hd, hd', this]
      | cons a pre' =>
        simp only [List.cons_append, List.cons.injEq] at e'
        have := hp' a (by simp)
        rw [← e'.1, hX] at this
        cases this
    | cons a pre =>
      simp only [List.cons_append, List.cons.injEq] at e
      cases pre' with
      | nil =>
        simp only [List.nil_append, List.cons.injEq] at e'
        have := hp a (by simp)
        rw [← e.1, e'.1, hX'] at this
        cases this
      | cons b pre' =>
        simp only [List.cons_append, List.cons.injEq] at e'
        exact ih (fun pa hpa => hu pa (by simp [hpa]))
          ⟨pre, pa, post, e.2, fun q hq => hp q (by simp [hq]), X, hX, f, hf, hn, hd⟩
          ⟨pre', pa', post', e'.2, fun q hq => hp' q (by simp [hq]), X', hX', f', hf', hn', hd'⟩

/-- The thread safe reader: the value of the field that `id_field_names` has at the position of the name in the dictionary. -/
theorem C78_fieldx {D X V : Type} [Add D] (grid : List (Patch D X V)) (cm : Fin 3 → D) (idNames : List Str) (name : Str) (x : Fin 3 → D)
    (d : D) (h : fieldx grid cm idNames name x = .ok d) :
    ∃ (k : Nat) (n : Str), dict[k]? = some name ∧ idNames[k]? = some n ∧ HasValue grid (fun i => x i + cm i) n d := by
  simp only [fieldx, bind_ok_iff] at h
  obtain ⟨⟨p, pa, v⟩, hl, k, hk, h⟩ := h
  obtain ⟨hg, hx, hpre⟩ := (locate_ok grid _ p pa v).1 hl
  simp only at h
  cases hi : idNames[k]? with
  | none => simp [hi] at h
  | some n =>
    simp only [hi, bind_ok_iff] at h
    obtain ⟨i, hl2, h⟩ := h
    obtain ⟨fld, hfld, hname⟩ := lookUp_ok _ _ _ hl2
    simp only [hfld] at h
    split_ifs at h
    exact ⟨k, n, indx_ok.1 hk, hi, _, pa, _, split_at grid p pa hg, hpre, v, hx, fld, List.mem_of_getElem? hfld, hname,
      (Res.ok.inj h).symm⟩

/-- It agrees with the arrays when `id_field_names` pairs the names of the dictionary with the fields the arrays were filled with. -/
theorem C78_fieldx_agrees {D X V : Type} [Add D] (finite : D → Bool) (grid : List (Patch D X V)) (cm : Fin 3 → D)
    (xs : List (Fin 3 → D)) (names evos : Str) (ns es : List Str) (hn : Splits ',' names ns) (he : Splits ',' evos es) (o1 : List Nat)
    (order : Nat → List Nat) (ho1 : o1.Perm (List.range xs.length)) (ho : ∀ f, (order f).Perm (List.range xs.length))
    (field r : List (Option (List D))) (hl : field.length = 22) (h : fill finite grid cm xs names evos o1 order field = .ok r)
    (hu : ∀ pa ∈ grid, (pa.fields.map (·.name)).Nodup) (hes : es.Nodup) (idNames : List Str) (f k p : Nat) (e n : Str) (x : Fin 3 → D)
    (hf : ns[f]? = some n) (hef : es[f]? = some e) (hk : indx e = .ok k) (hid : idNames[k]? = some n) (hx : xs[p]? = some x) (d : D)
    (hd : fieldx grid cm idNames e x = .ok d) : ∃ l : List D, r[k]? = some (some l) ∧ l[p]? = some d := by
  obtain ⟨-, -, h1, -⟩ := C77_fill finite grid cm xs names evos ns es hn he o1 order ho1 ho field r hl h
  obtain ⟨e', k', he', hk', h2⟩ := h1 f n hf
  rw [hef] at he'; cases he'
  rw [hk] at hk'; cases hk'
  obtain ⟨l, hl1, hl2, hl3⟩ := h2 fun f' hlt _ hh => by
    have h3 := (List.getElem?_eq_some_iff.1 hef)
    have h4 := (List.getElem?_eq_some_iff.1 hh)
    obtain ⟨a1, a2⟩ := h3
    obtain ⟨b1, b2⟩ := h4
    have := (List.getElem_inj hes).1 (a2.trans b2.symm)
    omega
  refine ⟨l, hl1, ?_⟩
  have hp := (List.getElem?_eq_some_iff.1 hx).1
  have hp' : p < l.length := by omega
  have hv := (hl3 p x l[p] hx (List.getElem?_eq_getElem hp')).1
  obtain ⟨k2, n2, g1, g2, g3⟩ := C78_fieldx grid cm idNames e x d hd
  have : k2 = k := by
    have := indx_ok.2 g1
    rw [hk] at this
    exact (Res.ok.inj this).symm
  subst this
  rw [hid] at g2; cases g2
  rw [List.getElem?_eq_getElem hp', value_unique grid hu _ n _ _ hv g3]

end Elliptica.Reader
