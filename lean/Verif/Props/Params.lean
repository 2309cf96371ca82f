import Verif.Lemmas.ParamInv
/-!
Properties C01 - C06 of the parameter data base.
Statements use the calls of `Verif.Model.Params` and the specification `Verif.Spec.Params`.
-/
namespace Elliptica.Props.Params
open Elliptica Elliptica.Params ParamSpec ParamLemmas
variable {D : Type}

/-- a toy libc on integers, used only in the examples -/
def toyLibc : Libc Int := ⟨atoi, showInt, 999, 0⟩

/-! ## C01 names are case-canonical -/

/-- The stored spelling is the canonical one (upper case before the first `_`, lower case elsewhere). -/
theorem C01_canonical (s : Str) : nameRule s = canon s := (canon_eq s).symm

/-- Canonicalisation is idempotent. -/
theorem C01_idempotent (s : Str) : canon (canon s) = canon s := by
  simp only [canon_eq, nameRule_idem]

/-- Two names are the same parameter exactly when they differ by letter case only. -/
theorem C01_same_iff (s t : Str) : canon s = canon t ↔ sameName s t := by
  simp only [canon_eq]; exact nameRule_eq_iff s t

/-- the call `o` made with another spelling of the name -/
def withName (o : Op D) (n : Str) : Op D :=
  match o with
  | .addS _ rv => .addS n rv
  | .addD _ x => .addD n x
  | .addA _ xs => .addA n xs
  | .setS _ rv => .setS n rv
  | .setI _ i => .setI n i
  | .setD _ x => .setD n x
  | .setA _ xs => .setA n xs
  | .dflt _ rv => .dflt n rv
  | .free _ => .free n
  | .freeAll => .freeAll
  | .readD _ fl => .readD n fl
  | .iterate k => .iterate k

/-- Every changing call and every read gives the same result for spellings that differ by case. -/
theorem C01_all_calls (L : Libc D) (db : DB D) (o : Op D) (fl : Flag) (s t : Str) (h : sameName s t) :
    step L db (withName o s) = step L db (withName o t) ∧
    getS db s fl = getS db t fl ∧ getI db s fl = getI db t fl ∧ getA db s fl = getA db t fl ∧
    getD L db s fl = getD L db t fl := by
  have e : nameRule s = nameRule t := (nameRule_eq_iff s t).2 h
  refine ⟨?_, ?_, ?_, ?_, ?_⟩
  · cases o <;> simp only [withName, step, addS, addD, addA, setS, setI, setD, setA, setDefault, freePar, getD, e]
  · simp only [getS, e]
  · simp only [getI, e]
  · simp only [getA, e]
  · simp only [getD, e]

instance (s t : Str) : Decidable (sameName s t) := inferInstanceAs (Decidable (_ = _))

example : sameName "bh_Radius".toList "BH_rADIUS".toList ∧
    canon "bh_Radius".toList = "BH_radius".toList ∧ canon "N_A".toList = "N_a".toList ∧
    canon "Abc".toList = "abc".toList := by decide

/-! ## C02 the data base is a map -/

/-- For every history of well-formed calls, string reads return exactly what the abstract map says
(including when the history or the read aborts or is undefined). -/
theorem C02_string_reads (L : Libc D) (ks : List (Call D)) (hk : ∀ k ∈ ks, k.WF) (name : Str) (fl : Flag) :
    ((run L none (ks.map Call.toOp)).bind fun db => getS db name fl) =
    ((specRun L Store.init ks).bind fun σ => specGetS σ name fl) := by
  have h := simRun L ks hk Rel.init
  revert h
  cases run L none (ks.map Call.toOp) <;> cases specRun L Store.init ks <;> simp [RelRes]
  rename_i db σ
  intro h
  unfold getS specGetS
  rw [canon_eq]
  cases db with
  | none =>
    have := h.none_ (nameRule name) (by simp [entries, look])
    have ha : σ.alloc = false := h.alloc
    simp [this, ha]
  | some l =>
    have ha : σ.alloc = true := h.alloc
    cases hl : look l (nameRule name) with
    | none => have hh := h.none_ _ hl; unfold look at hl; simp [hl, hh, ha]
    | some p =>
      obtain ⟨c, hc, hr⟩ := h.some_ _ _ hl
      unfold look at hl; simp [hl, hc, hr.text]

/-- The same for array reads. -/
theorem C02_array_reads (L : Libc D) (ks : List (Call D)) (hk : ∀ k ∈ ks, k.WF) (name : Str) (fl : Flag) :
    ((run L none (ks.map Call.toOp)).bind fun db => getA db name fl) =
    ((specRun L Store.init ks).bind fun σ => specGetA σ name fl) := by
  have h := simRun L ks hk Rel.init
  revert h
  cases run L none (ks.map Call.toOp) <;> cases specRun L Store.init ks <;> simp [RelRes]
  rename_i db σ
  intro h
  unfold getA specGetA
  rw [canon_eq]
  cases db with
  | none =>
    have := h.none_ (nameRule name) (by simp [entries, look])
    have ha : σ.alloc = false := h.alloc
    simp [this, ha]
  | some l =>
    have ha : σ.alloc = true := h.alloc
    cases hl : look l (nameRule name) with
    | none => have hh := h.none_ _ hl; unfold look at hl; simp [hl, hh, ha]
    | some p =>
      obtain ⟨c, hc, hr⟩ := h.some_ _ _ hl
      unfold look at hl; simp [hl, hc, hr.arr]

/-- For every history (also of ill-formed calls) no two entries have the same name up to case. -/
theorem C02_unique_names (L : Libc D) (ops : List (Op D)) (db : DB D) (h : run L none ops = .ok db) :
    (entries db).Pairwise fun p q => ¬ sameName p.lv q.lv := by
  have hu : Uniq db := run_induct L Uniq (fun _ _ _ hu hs => (step_effect L _ _ _ hs).uniq hu) ops none db
    ⟨by simp [entries], by simp [entries]⟩ h
  have h1 := List.nodup_iff_pairwise_ne.mp hu.1
  rw [List.pairwise_map] at h1
  refine h1.imp_of_mem ?_
  intro p q hp hq hne hs
  apply hne
  rw [← hu.2 p hp, ← hu.2 q hq]
  exact (nameRule_eq_iff _ _).2 hs

/-- A write to a name is read back; names that differ by more than case are not affected. -/
theorem C02_write_read (L : Libc D) (db db' : DB D) (lv : Str) (t : Str) (fl : Flag)
    (hp : getPar db lv ≠ none) (h : setS L db lv (some t) = .ok db') :
    getS db' lv fl = .ok (some t) ∧ ∀ n, ¬ sameName n lv → getS db' n fl = getS db n fl := by
  unfold setS at h
  simp only [getPar_eq, nameRule_idem] at h hp
  cases hl : look (entries db) (nameRule lv) with
  | none => exact absurd hl hp
  | some p =>
    simp only [hl] at h
    simp at h
    cases db with
    | none => simp [entries, look] at hl
    | some l =>
      subst h
      have hm := fun n => look_modify l (nameRule lv) n (fun p : Par D => { p with rv := some t, doubleFlg := false }) (fun _ => rfl)
      have hl' : look l (nameRule lv) = some p := hl
      constructor
      · have := hm (nameRule lv)
        rw [hl'] at this
        simp only [modifyPar, Option.map_some, getS]
        unfold look at this
        rw [this]; simp
      · intro n hn
        have hne : nameRule n ≠ nameRule lv := fun e => hn ((nameRule_eq_iff _ _).1 e)
        have := hm (nameRule n)
        rw [if_neg hne] at this
        simp only [modifyPar, Option.map_some, getS]
        unfold look at this
        rw [this]

example :
    let ks : List (Call Int) := [.setS "a_x".toList (.text "1".toList), .setS "B".toList (.sched "p".toList ["q".toList]),
      .setI "A_X".toList 7, .free "b".toList, .dflt "b".toList (.text "new".toList)]
    (∀ k ∈ ks, k.WF) ∧
    ((run toyLibc none (ks.map Call.toOp)).bind fun db => getS db "a_X".toList .fatal) = .ok (some "7".toList) ∧
    ((run toyLibc none (ks.map Call.toOp)).bind fun db => getS db "b".toList .fatal) = .ok (some "new".toList) := by
  refine ⟨?_, by decide, by decide⟩
  have plain : ∀ t : Str, cutArrow t = none → findMult t = none → (¬ HasArrow t ∧ ¬ HasMult t) :=
    fun t h1 h2 => ⟨(cutArrow_none_iff t).1 h1, (findMult_none_iff t).1 h2⟩
  intro k hk
  simp only [List.mem_cons, List.not_mem_nil, or_false] at hk
  rcases hk with rfl | rfl | rfl | rfl | rfl
  · exact plain _ (by decide) (by decide)
  · refine ⟨by simp, ?_, ?_⟩
    · intro w hw
      simp only [List.mem_cons, List.not_mem_nil, or_false] at hw
      rcases hw with rfl | rfl <;> exact (plain _ (by decide) (by decide)).1
    · exact (findMult_none_iff _).1 (by decide)
  · trivial
  · trivial
  · exact ⟨plain _ (by decide) (by decide), by simp [Val.render]⟩

/-! ## C03 double reads are never stale -/

/-- `printf("%.20e")` followed by `strtod` gives back the number (true of finite IEEE doubles with a
correctly rounding libc). -/
def RoundTrip (L : Libc D) : Prop := ∀ x, L.strtod (L.fmtE x) = x

/-- no `Pset_default` is made on a parameter whose text is the empty string -/
def NoDefaultOnEmpty (L : Libc D) : DB D → List (Op D) → Prop
  | _, [] => True
  | db, o :: os =>
    (∀ lv rv, o = .dflt lv rv → getS db lv .ez ≠ .ok (some [])) ∧
    ∀ db', step L db o = .ok db' → NoDefaultOnEmpty L db' os

theorem coh_run (L : Libc D) (hL : RoundTrip L) (ops : List (Op D)) (db0 db : DB D) (hu : Uniq db0)
    (hc : Coh L db0) (hd : NoDefaultOnEmpty L db0 ops) (h : run L db0 ops = .ok db) :
    Coh L db := by
  induction ops generalizing db0 with
  | nil => simp [run] at h; exact h ▸ hc
  | cons o os ih =>
    simp only [run] at h
    obtain ⟨d, h1, h2⟩ := ParamLemmas.Res.bind_eq_ok h
    exact ih d ((step_effect L _ _ _ h1).uniq hu) (step_coh L hL db0 d o hu hc hd.1 h1) (hd.2 d h1) h2

/-- After every history without a default on an empty text, a double read returns the number denoted by
the current text, and it does not change what later reads return.
Missing for the full property: histories with `Pset_default` on an empty text, where it is false
(`C03_violation`). -/
theorem C03_double_read_partial (L : Libc D) (hL : RoundTrip L) (ops : List (Op D)) (db : DB D)
    (hd : NoDefaultOnEmpty L none ops) (h : run L none ops = .ok db) (name : Str) (fl : Flag) (t : Str)
    (ht : getS db name fl = .ok (some t)) :
    ∃ db', getD L db name fl = .ok (L.strtod t, db') ∧ ∀ n f, getS db' n f = getS db n f := by
  have hc := coh_run L hL ops none db ⟨by simp [entries], by simp [entries]⟩
    (by intro p hp; simp [entries] at hp) hd h
  cases db with
  | none => simp [getS] at ht
  | some l =>
    unfold getS at ht
    unfold getD
    simp only at ht ⊢
    cases hl : List.find? (fun p => decide (p.lv = nameRule name)) l with
    | none => rw [hl] at ht; simp only at ht; split at ht <;> simp at ht
    | some p =>
      rw [hl] at ht
      simp at ht
      simp only
      cases hb : p.doubleFlg with
      | true =>
        obtain ⟨t', h1, h2⟩ := hc p (look_some_mem (l := l) hl).1 hb
        rw [ht] at h1; simp at h1; subst h1
        exact ⟨some l, by simp [h2], fun _ _ => rfl⟩
      | false =>
        simp only [ht, Bool.false_eq_true, if_false]
        refine ⟨_, rfl, ?_⟩
        intro n f
        have := look_modify l (nameRule name) (nameRule n)
          (fun q : Par D => { q with doubleFlg := true, rvDouble := L.strtod t }) (fun _ => rfl)
        unfold getS
        unfold look at this
        simp only [this]
        by_cases hnn : nameRule n = nameRule name
        · rw [if_pos hnn]
          cases List.find? (fun p => decide (p.lv = nameRule n)) l <;> rfl
        · rw [if_neg hnn]

/-- A number written with Psetd is read back exactly (no assumption on printf/strtod needed). -/
theorem C03_setD_getD (L : Libc D) (db db' : DB D) (lv : Str) (x : D) (fl : Flag)
    (h : setD L db lv x = .ok db') : ∃ db'', getD L db' lv fl = .ok (x, db'') := by
  unfold setD at h
  simp only [getPar_eq, nameRule_idem] at h
  cases hl : look (entries db) (nameRule lv) with
  | some p =>
    simp [hl] at h
    cases db with
    | none => simp [entries, look] at hl
    | some l =>
      subst h
      have hl' : look l (nameRule lv) = some p := hl
      have := look_modify l (nameRule lv) (nameRule lv)
        (fun q : Par D => { q with rv := some (L.fmtE x), rvDouble := x, doubleFlg := true }) (fun _ => rfl)
      rw [hl'] at this
      unfold look at this
      simp only [modifyPar, Option.map_some, getD]
      rw [this]; simp
  | none =>
    simp [hl, addD, getPar_eq, nameRule_idem] at h
    subst h
    have := look_append (entries db) ({ lv := nameRule lv, rv := some (L.fmtE x), rvDouble := x, doubleFlg := true } : Par D)
      (nameRule lv) hl
    unfold look at this
    simp only [append, getD]
    rw [this]; simp

/-- The full property is false: write "x", write "", read the double, then give the default "5":
the text is "5" but the double read still returns the number denoted by "". -/
theorem C03_violation (L : Libc D) :
    ∃ db db', run L none [.setS ['a'] (some ['x']), .setS ['a'] (some []), .readD ['a'] .fatal,
        .dflt ['a'] (some ['5'])] = .ok db ∧
      getS db ['a'] .fatal = .ok (some ['5']) ∧ getD L db ['a'] .fatal = .ok (L.strtod [], db') := by
  exact ⟨_, _, rfl, rfl, rfl⟩

example : RoundTrip toyLibc ∧
    NoDefaultOnEmpty toyLibc none [.setD ['a'] 5, .readD ['a'] .fatal, .setS ['A'] (some ['7']), .dflt ['a'] (some ['9'])] ∧
    ((run toyLibc none [.setD ['a'] 5, .readD ['a'] .fatal, .setS ['A'] (some ['7']), .dflt ['a'] (some ['9'])]).bind
      fun db => (getD toyLibc db ['a'] .fatal).map (·.1)) = .ok 7 := by
  refine ⟨fun x => atoi_showInt x, ?_, by decide⟩
  refine ⟨by simp, fun db' h => ⟨by simp, fun db' h => ⟨by simp, fun db' h => ⟨?_, fun _ _ => trivial⟩⟩⟩⟩
  rename_i d1 h1 d2 h2
  have e1 : step toyLibc none (.setD ['a'] 5) = .ok (some [{ lv := ['a'], rv := some ['5'], rvDouble := 5, doubleFlg := true }]) := by decide
  rw [e1] at h1; simp at h1; subst h1
  have e2 : step toyLibc (some [{ lv := ['a'], rv := some ['5'], rvDouble := 5, doubleFlg := true }]) (.readD ['a'] .fatal)
    = .ok (some [{ lv := ['a'], rv := some ['5'], rvDouble := 5, doubleFlg := true }]) := by decide
  rw [e2] at h2; simp at h2; subst h2
  have e3 : step toyLibc (some [{ lv := ['a'], rv := some ['5'], rvDouble := 5, doubleFlg := true }]) (.setS ['A'] (some ['7']))
    = .ok (some [{ lv := ['a'], rv := some ['7'], rvDouble := 5, doubleFlg := false }]) := by decide
  rw [e3] at h; simp at h; subst h
  intro lv rv e
  simp at e
  obtain ⟨rfl, rfl⟩ := e
  decide

/-! ## C04 integers round-trip -/

/-- Pseti never fails, and Pgeti returns the integer, for every `int` and every data base. -/
theorem C04_int_roundtrip (L : Libc D) (db : DB D) (lv lv' : Str) (i : Int) (fl : Flag)
    (hn : sameName lv lv') (h1 : -(INT_MAX + 1) ≤ i) (h2 : i ≤ INT_MAX) :
    ∃ db', setI L db lv i = .ok db' ∧ getI db' lv' fl = .ok i := by
  have hn' : nameRule lv = nameRule lv' := (nameRule_eq_iff _ _).2 hn
  unfold setI setS
  simp only [getPar_eq, nameRule_idem]
  cases hl : look (entries db) (nameRule lv) with
  | some p =>
    cases db with
    | none => simp [entries, look] at hl
    | some l =>
      refine ⟨_, rfl, ?_⟩
      have hl' : look l (nameRule lv) = some p := hl
      have := look_modify l (nameRule lv) (nameRule lv)
        (fun q : Par D => { q with rv := some (showInt i), doubleFlg := false }) (fun _ => rfl)
      rw [hl'] at this
      unfold look at this
      simp only [modifyPar, Option.map_some, getI, ← hn']
      rw [this]; simp [atoiR_showInt i h1 h2]
  | none =>
    have hc : cutArrow (showInt i) = none := (cutArrow_none_iff _).2 (showInt_plain i).1
    have hf : findMult (showInt i) = none := (findMult_none_iff _).2 (showInt_plain i).2
    simp only [addS, getPar_eq, nameRule_idem, hl, showInt_ne_nil, showInt_ne_blank, or_self, if_false,
      isIterText, hc, hf, Option.isSome_none, Bool.false_eq_true]
    refine ⟨_, rfl, ?_⟩
    have := look_append (entries db) ({ lv := nameRule lv, rv := some (showInt i), rvDouble := L.zero } : Par D)
      (nameRule lv) hl
    unfold look at this
    simp only [append, getI, ← hn']
    rw [this]; simp [atoiR_showInt i h1 h2]

example : sameName "it_x".toList "IT_X".toList ∧ -(INT_MAX + 1) ≤ (-2147483648) ∧
    (setI toyLibc none "it_x".toList (-2147483648)).bind (fun db => getI db "IT_X".toList .fatal) =
      .ok (-2147483648) := by decide

/-! ## C05 iterative parameters follow their schedule -/

/-- A parameter given as `v0->v1->...->vk` (on any well-formed history that has not set it) has the
value number `min n k` once the iteration is set to `n`. -/
theorem C05_schedule (L : Libc D) (ks : List (Call D)) (hk : ∀ k ∈ ks, k.WF) (db : DB D)
    (hr : run L none (ks.map Call.toOp) = .ok db) (lv v : Str) (vs : List Str)
    (hv : (Val.sched v vs).WF) (hv0 : v ≠ []) (hnew : getPar db lv = none) (n : Nat) (fl : Flag) :
    ((addS L db lv (some (arrows (v :: vs)))).bind fun db1 => (iterate L db1 n).bind fun db2 =>
      getS db2 lv fl) = .ok (some ((v :: vs).getD (min n vs.length) [])) := by
  have hsim := simRun L ks hk Rel.init
  rw [hr] at hsim
  cases hs : specRun L Store.init ks with
  | abort => rw [hs] at hsim; exact absurd hsim (by simp [RelRes])
  | ub => rw [hs] at hsim; exact absurd hsim (by simp [RelRes])
  | ok σ =>
    rw [hs] at hsim
    have hσ : σ.cell (nameRule lv) = none := Rel.none_ hsim _ hnew
    have hall : ∀ k ∈ ks ++ [Call.addS lv (.sched v vs), .iterate n], k.WF := by
      intro k hk'
      rcases List.mem_append.mp hk' with h | h
      · exact hk k h
      · simp at h; rcases h with rfl | rfl
        · exact hv
        · trivial
    have hC := C02_string_reads L (ks ++ [Call.addS lv (.sched v vs), .iterate n]) hall lv fl
    have runApp : ∀ (a b : List (Op D)) (d : DB D), run L d (a ++ b) = (run L d a).bind fun d' => run L d' b := by
      intro a b
      induction a with
      | nil => intro d; rfl
      | cons o a ih =>
        intro d; simp only [List.cons_append, run]
        cases step L d o <;> simp [ih]
    have specApp : ∀ (a b : List (Call D)) (s : Store D), specRun L s (a ++ b) = (specRun L s a).bind fun s' => specRun L s' b := by
      intro a b
      induction a with
      | nil => intro d; rfl
      | cons o a ih =>
        intro d; simp only [List.cons_append, specRun]
        cases specStep L d o <;> simp [ih]
    rw [List.map_append, runApp, specApp, hr, hs] at hC
    simp only [Res.bind_ok, List.map_cons, List.map_nil, Call.toOp, run, step, specRun, specStep, specAdd,
      canon_eq, hσ, fresh] at hC
    have ef : (freshSched (v :: vs) : Res (Cell D)) = .ok { text := some v, sched := some (v :: vs) } := if_neg hv0
    rw [ef] at hC
    simp only [Res.bind_ok, specGetS, canon_eq, Store.put, if_true, Option.map_some, Cell.advance, nth, Val.render] at hC
    have e2 : ((v :: vs).length - 1) = vs.length := by simp
    rw [e2] at hC
    rw [← hC]
    cases addS L db lv (some (arrows (v :: vs))) <;> simp
    rename_i d
    cases iterate L d n <;> simp

/-- Setting the iteration does not touch any parameter that is not iterative. -/
theorem C05_others_unchanged (L : Libc D) (db db' : DB D) (n : Nat) (h : iterate L db n = .ok db')
    (name : Str) (p : Par D) (hp : getPar db name = some p) (hi : p.iterative = false) :
    getPar db' name = some p := by
  cases db with
  | none => simp [getPar, entries] at hp
  | some l =>
    simp only [iterate] at h
    obtain ⟨l', h1, h2⟩ := ParamLemmas.Res.bind_eq_ok h
    simp at h2; subst h2
    simp only [getPar, entries, Option.getD_some] at hp ⊢
    clear h
    induction l generalizing l' with
    | nil => simp at hp
    | cons q l ih =>
      simp only [iterList] at h1
      obtain ⟨q', hq, h1⟩ := ParamLemmas.Res.bind_eq_ok h1
      obtain ⟨qs, hqs, h1⟩ := ParamLemmas.Res.bind_eq_ok h1
      simp at h1; subst h1
      have hlv := iterPar_lv L n q q' hq
      rw [List.find?_cons] at hp ⊢
      rw [hlv]
      cases hd : decide (q.lv = nameRule name) with
      | true =>
        rw [hd] at hp; simp at hp; subst hp
        simp only [iterPar, hi] at hq
        simp at hq; simp [hq]
      | false =>
        rw [hd] at hp
        exact ih hp qs hqs

/-- The number of iterations of the run is the largest number of values of any iterative parameter, and 1
if there is none (for well-formed histories in which every schedule ends with a value, and unless the
user fixed the number through the parameter `total_iterations_ip`). -/
theorem C05_total_iterations (L : Libc D) (ks : List (Call D)) (hk : ∀ k ∈ ks, k.WF) (db : DB D) (σ : Store D)
    (hr : run L none (ks.map Call.toOp) = .ok db) (hs : specRun L Store.init ks = .ok σ)
    (hlast : ∀ n c vs, σ.cell n = some c → c.sched = some vs → vs.getLast? ≠ some [])
    (hfree : getPar db totalName = none) :
    ∃ (T : Nat) (db' : DB D), totalIterations L db = .ok ((T : Int), db') ∧ 1 ≤ T ∧
      (∀ n c vs, σ.cell n = some c → c.sched = some vs → vs.length ≤ T) ∧
      (T = 1 ∨ ∃ n c vs, σ.cell n = some c ∧ c.sched = some vs ∧ vs.length = T) := by
  have hsim := simRun L ks hk Rel.init
  rw [hr, hs] at hsim
  have hrel : Rel db σ := hsim
  have hz : getI db totalName .ez = .ok INT_MAX := by
    cases db with
    | none => rfl
    | some l =>
      unfold getI
      have : List.find? (fun p => decide (p.lv = nameRule totalName)) l = none := hfree
      simp [this]
  let vals : Par D → List Str := fun p => ((σ.cell p.lv).bind (·.sched)).getD []
  have hmem : ∀ p ∈ entries db, ∃ c, σ.cell p.lv = some c ∧ CellRel p c := by
    intro p hp
    exact hrel.some_ _ _ ((look_eq_some_iff _ hrel.nodup p.lv p).2 ⟨hp, rfl⟩)
  obtain ⟨r, h1, -, h3, h4⟩ := maxCount_spec (entries db) vals 0 (by
    intro p hp hit
    obtain ⟨c, hc, hcr⟩ := hmem p hp
    obtain ⟨v, w, vs, e1, e2, e3⟩ := hcr.schedSome hit
    refine ⟨v, w, vs, by simp [vals, hc, e1], e2, ?_, e3⟩
    have := hlast p.lv c _ hc e1
    intro e
    apply this
    rw [← e]; exact List.getLast?_eq_some_getLast (by simp))
  have hset : ∃ db', setI L db totalName ((r : Int) + 1) = .ok db' := by
    unfold setI setS
    have hg : getPar db (nameRule totalName) = none := by
      rw [getPar_eq, nameRule_idem]; exact hfree
    have hc : cutArrow (showInt ((r:Int)+1)) = none := (cutArrow_none_iff _).2 (showInt_plain _).1
    have hf : findMult (showInt ((r:Int)+1)) = none := (findMult_none_iff _).2 (showInt_plain _).2
    have hg2 : getPar db (nameRule (nameRule totalName)) = none := by
      rw [nameRule_idem]; exact hg
    simp only [hg, addS, hg2, showInt_ne_nil, showInt_ne_blank, or_self, if_false,
      isIterText, hc, hf, Option.isSome_none, Bool.false_eq_true]
    exact ⟨_, rfl⟩
  obtain ⟨db', hdb'⟩ := hset
  refine ⟨r + 1, db', ?_, by omega, ?_, ?_⟩
  · simp [totalIterations, hz, h1, hdb']
  · intro n c vs hc hvs
    cases hl : look (entries db) n with
    | none => rw [hrel.none_ _ hl] at hc; simp at hc
    | some p =>
      obtain ⟨hp, hpn⟩ := look_some_mem hl
      obtain ⟨c', hc', hcr⟩ := hrel.some_ _ _ hl
      rw [hc] at hc'; simp at hc'; subst hc'
      have hit : p.iterative = true := by
        cases hb : p.iterative with
        | true => rfl
        | false => rw [hcr.schedNone hb] at hvs; simp at hvs
      have := h3 p hp hit
      have e : vals p = vs := by simp [vals, hpn, hc, hvs]
      rw [e] at this; exact this
  · rcases h4 with h4 | ⟨p, hp, hit, h4⟩
    · left; omega
    · right
      obtain ⟨c, hc, hcr⟩ := hmem p hp
      obtain ⟨v, w, vs, e1, e2, e3⟩ := hcr.schedSome hit
      refine ⟨p.lv, c, _, hc, e1, ?_⟩
      have : vals p = v :: w :: vs := by simp [vals, hc, e1]
      rw [this] at h4; exact h4

example :
    let db := addS toyLibc none "n_a".toList (some "4->6->8".toList)
    (db.bind fun d => (totalIterations toyLibc d).map (·.1)) = .ok 3 ∧
    (db.bind fun d => (iterate toyLibc d 1).bind fun d => getS d "N_a".toList .fatal) = .ok (some "6".toList) ∧
    (db.bind fun d => (iterate toyLibc d 9).bind fun d => getS d "N_a".toList .fatal) = .ok (some "8".toList) := by
  decide

/-! ## C06 multiplicities -/

/-- Writing multiplicities means the same as writing the values out, whenever this denotes at least two
values.  Missing for the full property: a single value written `v(x1)`, where the call has undefined
behaviour (`C06_single_violation`). -/
theorem C06_multiplicity_partial (L : Libc D) (db : DB D) (lv : Str) (items : List (Str × Option Nat))
    (h : (Val.mult items).WF) :
    addS L db lv (Val.mult items).render = addS L db lv (some (arrows (expand items))) := by
  obtain ⟨⟨q, hq, hqm⟩, hi, hlen⟩ := h
  have hne : items ≠ [] := by rintro rfl; simp at hq
  have hOK : ItemsOK items := fun p hp => ⟨(hi p hp).2.1, (hi p hp).2.2.1, (hi p hp).2.2.2⟩
  have hpm := parseMult_items items hne hOK (fun p hp => (hi p hp).1)
  have hfm : (findMult (joinArrow (items.map renderItem))).isSome := by
    rw [Option.isSome_iff_ne_none, ne_eq, findMult_none_iff, Classical.not_not]
    obtain ⟨i1, i2, rfl⟩ := List.append_of_mem hq
    obtain ⟨v, mo⟩ := q
    cases mo with
    | none => simp at hqm
    | some m =>
      refine ⟨showNat m, showNat_ne_nil m, showNat_isDigit m, ?_⟩
      rw [List.map_append, List.map_cons, join_append, join_cons_post]
      exact ⟨arrowPre (i1.map renderItem) ++ v, arrowPost (i2.map renderItem), by simp [renderItem]⟩
  have hn1 : joinArrow (items.map renderItem) ≠ [] := by
    intro e; rw [e] at hfm; simp [findMult] at hfm
  have hn2 : joinArrow (items.map renderItem) ≠ [' '] := by
    intro e; rw [e] at hfm; revert hfm; decide
  have hme : findMult (joinArrow (expand items)) = none := by
    apply findMult_none_of_paren
    match hex : expand items, hlen with
    | a :: r, _ =>
      intro hm
      have hall : ∀ x ∈ a :: r, '(' ∉ x := by
        intro x hx; rw [← hex] at hx
        obtain ⟨p, hp, rfl⟩ := expand_mem hx
        exact (hi p hp).2.2.1
      rw [join_cons_post] at hm
      have post : ∀ (l : List Str) (c : Char), c ∈ arrowPost l → c = '-' ∨ c = '>' ∨ ∃ x ∈ l, c ∈ x := by
        intro l c
        induction l with
        | nil => simp [arrowPost]
        | cons b l ih => simp only [arrowPost, List.mem_cons, List.mem_append]; grind
      rcases List.mem_append.mp hm with h | h
      · exact hall a (by simp) h
      · rcases post _ _ h with h | h | ⟨x, hx, h⟩
        · revert h; decide
        · revert h; decide
        · exact hall x (by simp [hx]) h
  match hex : expand items, hlen with
  | a :: b :: r, _ =>
    rw [hex] at hpm hme
    have h1 := isIter_sched a b r
    have hn3 : joinArrow (a :: b :: r) ≠ [] := by rw [joinArrow_cons_cons]; simp
    have hn4 : joinArrow (a :: b :: r) ≠ [' '] := by
      intro e; rw [e] at h1; revert h1; decide
    simp only [Val.render, arrows_eq, addS, isIterText, hfm, h1, hme, Bool.or_true, Bool.true_or, if_true,
      hn1, hn2, hn3, hn4, or_self, if_false, hpm, Res.bind_ok, Option.isSome_none, Bool.false_eq_true]

/-- A single value with multiplicity one has undefined behaviour (a null pointer enters a pointer
difference), for every value text and every data base that does not have the name yet. -/
theorem C06_single_violation (L : Libc D) (db : DB D) (lv v : Str) (hnew : getPar db lv = none)
    (hv : v ≠ [] ∧ '>' ∉ v ∧ '(' ∉ v) :
    addS L db lv (some (v ++ "(x1)".toList)) = .ub := by
  have e : v ++ "(x1)".toList = joinArrow ([(v, some 1)].map renderItem) := by
    simp [renderItem, joinArrow, showNat, showNatAux]
  have hpm := parseMult_items [(v, some 1)] (by simp)
    (by intro p hp; simp at hp; subst hp; exact ⟨hv.2.1, hv.2.2, by intro m hm; simp at hm; subst hm; decide⟩)
    (by intro p hp; simp at hp; subst hp; exact hv.1)
  have ex : expand [(v, some 1)] = [v] := by simp [expand]
  rw [ex, ← e] at hpm
  have hfm : (findMult (v ++ "(x1)".toList)).isSome := by
    have := findMult_append v ['1'] [] hv.2.2 (by decide) (by simp)
    have e2 : v ++ "(x1)".toList = v ++ '(' :: 'x' :: (['1'] ++ ')' :: []) := by simp
    rw [e2, this]; rfl
  have hn1 : v ++ "(x1)".toList ≠ [] := by simp
  have hn2 : v ++ "(x1)".toList ≠ [' '] := by
    intro h; have := congrArg List.length h; simp at this
  have hg : getPar db (nameRule lv) = none := by rw [getPar_eq, nameRule_idem]; exact hnew
  have hj : joinArrow [v] = v := rfl
  have hcut : cutArrow v = none := (cutArrow_none_iff _).2 (no_arrow_of_gt hv.2.1)
  simp only [addS, hg, hn1, hn2, or_self, if_false, isIterText, hfm, Bool.or_true, if_true, hpm, hj, Res.bind_ok,
    getNValue, hcut, Res.bind_ub]

/-- A multiplicity of zero is refused: whatever plain text precedes it and whatever follows it, the program stops. -/
theorem C06_zero_refused (L : Libc D) (db : DB D) (lv pre post : Str) (hp : '(' ∉ pre) :
    addS L db lv (some (pre ++ "(x0)".toList ++ post)) = .abort := by
  have hf := findMult_append pre ['0'] post hp (by decide) (by simp)
  have e : pre ++ "(x0)".toList ++ post = pre ++ '(' :: 'x' :: (['0'] ++ ')' :: post) := by simp
  rw [← e] at hf
  have hst : multStep (pre ++ "(x0)".toList ++ post) = .abort := by
    have h0 : atoiR ['0'] = .ok 0 := by decide
    simp only [multStep, hf, h0, if_true]
  have hpm : parseMult (pre ++ "(x0)".toList ++ post) = .abort := by
    unfold parseMult
    split
    · rfl
    · obtain ⟨n, hn⟩ : ∃ n, (pre ++ "(x0)".toList ++ post).length = n + 1 := ⟨pre.length + 3 + post.length, by simp; omega⟩
      rw [hn, multLoop, hst]; rfl
  have hn1 : pre ++ "(x0)".toList ++ post ≠ [] := by simp
  have hn2 : pre ++ "(x0)".toList ++ post ≠ [' '] := by
    intro h; have := congrArg List.length h; simp at this; omega
  generalize pre ++ "(x0)".toList ++ post = t at *
  unfold addS
  cases hg : getPar db (nameRule lv) with
  | some _ => simp only [hg]
  | none =>
    simp only [hg, hn1, hn2, or_self, if_false, isIterText, hf, Option.isSome_some, Bool.or_true, if_true, hpm,
      Res.bind_abort]

example : '(' ∉ "1->2".toList ∧ addS toyLibc none ['p'] (some "1->2(x0)->5".toList) = .abort := by decide

/-- Remark (no reachable state has it): for a schedule text without any `->` the scan returns 1, i.e. the
number of iterations would be counted as 2, not 1. -/
theorem C05_single_count_remark (v : Str) (h : ¬ HasArrow v) : countIp v = .ok 1 := by
  simp [countIp, (cutArrow_none_iff v).2 h]

example : (Val.mult [("1".toList, none), ("2".toList, some 2), ("5".toList, some 3)]).WF ∧
    (addS toyLibc none ['p'] (some "1->2(x2)->5(x3)->8".toList)) =
      addS toyLibc none ['p'] (some "1->2->2->5->5->5->8".toList) := by
  refine ⟨⟨⟨("2".toList, some 2), by simp, by simp⟩, ?_, by decide⟩, by decide⟩
  intro p hp
  simp only [List.mem_cons, List.not_mem_nil, or_false] at hp
  rcases hp with rfl | rfl | rfl <;> refine ⟨by decide, by decide, by decide, ?_⟩ <;> intro m hm <;> simp at hm <;> subst hm <;> decide

end Elliptica.Props.Params
