import Verif.Model.Startup
import Verif.Lemmas.ParamMult
import Verif.Lemmas.Checkpoint
import Verif.Props.TextSearch
import Mathlib.Data.List.Nodup
import Mathlib.Data.List.Perm.Subperm
/-!
C84: the start of a run.  C85: output folders.
-/
namespace Elliptica.Startup
open Elliptica.Text

theorem atLast_none (c : Char) (s : Str) : atLast c s = none ↔ c ∉ s := by
  induction s with
  | nil => simp [atLast]
  | cons x r ih =>
    unfold atLast
    cases h : atLast c r with
    | none =>
      have := ih.1 h
      by_cases hx : x = c
      · simp [hx]
      · simp [hx, this, Ne.symm hx]
    | some q =>
      have : c ∈ r := by
        by_contra hn
        rw [ih.2 hn] at h; simp at h
      simp [this]

theorem atLast_append (c : Char) (a b : Str) (hb : c ∉ b) : atLast c (a ++ c :: b) = some (a, b) := by
  induction a with
  | nil => simp [atLast, (atLast_none c b).2 hb]
  | cons x a ih =>
    rw [List.cons_append]
    unfold atLast
    rw [ih]

/-! ### C84 -/

/-- **C84 (path of the parameter file).** A path dir/stem.ext (no '/' in stem and ext, no '.' in ext) to an existing file gives the
root directory dir, the file name stem.ext and the stem; without a directory the root is ".". -/
theorem C84_paths_partial (ex : Str → Bool) (dir stem ext : Str) (h1 : '/' ∉ stem) (h2 : '/' ∉ ext) (h3 : '.' ∉ ext) :
    (ex (dir ++ '/' :: (stem ++ '.' :: ext)) = true → (dir ++ '/' :: (stem ++ '.' :: ext)).length < 400 →
      initGlobal ex (dir ++ '/' :: (stem ++ '.' :: ext)) = .ok ⟨dir, stem ++ '.' :: ext, stem⟩) ∧
    (ex (stem ++ '.' :: ext) = true → (stem ++ '.' :: ext).length < 400 →
      initGlobal ex (stem ++ '.' :: ext) = .ok ⟨['.'], stem ++ '.' :: ext, stem⟩) := by
  have hs : '/' ∉ stem ++ '.' :: ext := by simp [h1, h2]
  constructor
  · intro he hl
    have hp := atLast_append '/' dir _ hs
    have hd : atLast '.' (dir ++ '/' :: (stem ++ '.' :: ext)) = some (dir ++ '/' :: stem, ext) := by
      have := atLast_append '.' (dir ++ '/' :: stem) ext h3
      simpa using this
    have hf : fileName (dir ++ '/' :: (stem ++ '.' :: ext)) = stem ++ '.' :: ext := by unfold fileName; rw [hp]
    unfold initGlobal rootPath
    rw [if_neg (by unfold MAX_ARR; omega), hp]
    simp only [Res.bind_ok, inputName, he, hd, hf]
    have hn : ¬ ((dir ++ '/' :: stem).length < (dir ++ '/' :: (stem ++ '.' :: ext)).length - (stem ++ '.' :: ext).length) := by
      simp; omega
    have ht : (dir ++ '/' :: stem).length - ((dir ++ '/' :: (stem ++ '.' :: ext)).length - (stem ++ '.' :: ext).length) = stem.length := by
      simp; omega
    simp [-List.length_append, -List.length_cons, hn, ht]
  · intro he hl
    have hp := (atLast_none '/' _).2 hs
    have hd := atLast_append '.' stem ext h3
    have hf : fileName (stem ++ '.' :: ext) = stem ++ '.' :: ext := by unfold fileName; rw [hp]
    unfold initGlobal rootPath
    rw [if_neg (by unfold MAX_ARR; omega), hp]
    simp [inputName, he, hd, hf]

example : initGlobal (fun _ => true) "/home/u/run.v2/bns.par".toList = .ok ⟨"/home/u/run.v2".toList, "bns.par".toList, "bns".toList⟩ :=
  (C84_paths_partial (fun _ => true) "/home/u/run.v2".toList "bns".toList "par".toList (by decide) (by decide) (by decide)).1 rfl (by decide)

/-- **C84 (refusal).** A file that does not exist, or a path without any '.', is refused. -/
theorem C84_refuses (ex : Str → Bool) (path : Str) (hl : path.length < 400) (h : ex path = false ∨ '.' ∉ path) :
    initGlobal ex path = .abort := by
  have hr : ∃ r, rootPath path = .ok r := by
    unfold rootPath
    rw [if_neg (by unfold MAX_ARR; omega)]
    split
    · exact ⟨_, rfl⟩
    · exact ⟨_, rfl⟩
  obtain ⟨r, hr⟩ := hr
  unfold initGlobal
  rw [hr, Res.bind_ok]
  have : inputName ex path = .abort := by
    unfold inputName
    rcases h with h | h
    · simp [h]
    · rw [(atLast_none '.' path).2 h]; split <;> rfl
  rw [this]; rfl

example : initGlobal (fun _ => true) "par".toList = .abort := C84_refuses _ _ (by decide) (.inr (by decide))

/-- The full statement, for every path with some '.', fails: with a '.' in the directory part only, the program reads and writes
beyond the end of the path. -/
theorem C84_paths_violation : initGlobal (fun _ => true) "./par".toList = .ub ∧ initGlobal (fun _ => true) "/run.v2/par".toList = .ub := by
  decide +kernel

/-- two names that differ in letter case only -/
def SameName (a b : Str) : Prop := a.map lower = b.map lower

theorem strcmpI_same (a b : Str) : strcmpI (some a) (some b) = true ↔ SameName a b := by simp [strcmpI, SameName]

theorem getProject_none (db : List (Str × ℕ)) (n : Str) : getProject db (some n) = none ↔ ∀ q ∈ db, ¬ SameName q.1 n := by
  unfold getProject
  rw [List.find?_eq_none]
  simp only [strcmpI_same]

theorem getProject_some (db : List (Str × ℕ)) (hd : db.Pairwise fun a b => ¬ SameName a.1 b.1) (n : Str) (q : Str × ℕ) (hq : q ∈ db)
    (hs : SameName q.1 n) : getProject db (some n) = some q := by
  unfold getProject
  induction db with
  | nil => simp at hq
  | cons a db ih =>
    rw [List.pairwise_cons] at hd
    rcases List.mem_cons.1 hq with rfl | hq
    · rw [List.find?_cons_of_pos]; exact (strcmpI_same _ _).2 hs
    · rw [List.find?_cons_of_neg]
      · exact ih hd.2 hq
      · intro h
        exact hd.1 q hq (((strcmpI_same _ _).1 h).trans hs.symm)

theorem createDb_ok (db l : List (Str × ℕ)) (h : (db ++ l).Pairwise fun a b => ¬ SameName a.1 b.1) : createDb db l = .ok (db ++ l) := by
  induction l generalizing db with
  | nil => simp [createDb]
  | cons a l ih =>
    obtain ⟨n, f⟩ := a
    unfold createDb addProject
    have : getProject db (some n) = none := by
      rw [getProject_none]
      intro q hq
      exact (List.pairwise_append.1 h).2.2 q hq (n, f) (by simp)
    simp only [this, Res.bind_ok]
    rw [ih _ (by simpa using h)]; simp

theorem createDb_abort (db l : List (Str × ℕ)) (hdb : db.Pairwise fun a b => ¬ SameName a.1 b.1)
    (h : ¬ (db ++ l).Pairwise fun a b => ¬ SameName a.1 b.1) : createDb db l = .abort := by
  induction l generalizing db with
  | nil => simp at h; exact absurd hdb h
  | cons a l ih =>
    obtain ⟨n, f⟩ := a
    unfold createDb addProject
    cases hg : getProject db (some n) with
    | some q => rfl
    | none =>
      simp only [Res.bind_ok]
      refine ih _ ?_ (by simpa using h)
      rw [List.pairwise_append]
      refine ⟨hdb, by simp, ?_⟩
      intro a ha b hb
      simp at hb; subst hb
      exact (getProject_none db n).1 hg a ha

/-- **C84 (projects).** When the start succeeds: if the project names differ (letter case aside) and the parameter Project names one of
them, in any letter case, then exactly the function of that project is run, once; if it names none of them, or is not set, or two
projects have the same name, the program stops and runs none. -/
theorem C84_project (ex : Str → Bool) (args : List Str) (path : Str) (ha : args.getLast? = some path) (i : Init)
    (hi : initGlobal ex path = .ok i) (l : List (Str × ℕ)) :
    (l.Pairwise (fun a b => ¬ SameName a.1 b.1) → ∀ n f p, (n, f) ∈ l → SameName n p → mainRun args ex (some p) l = .ok [f]) ∧
    (∀ p, (∀ q ∈ l, ¬ SameName q.1 p) → mainRun args ex (some p) l = .abort) ∧ mainRun args ex none l = .abort ∧
    (¬ l.Pairwise (fun a b => ¬ SameName a.1 b.1) → ∀ p, mainRun args ex p l = .abort) := by
  have run : ∀ p, mainRun args ex p l = (createDb [] l).bind fun db => match getProject db p with
      | none => .abort
      | some q => .ok [q.2] := by
    intro p
    unfold mainRun
    rw [ha]; simp only [hi, Res.bind_ok]; rfl
  have cases_ : (l.Pairwise (fun a b => ¬ SameName a.1 b.1) ∧ createDb [] l = .ok l) ∨ createDb [] l = .abort := by
    by_cases h : l.Pairwise (fun a b => ¬ SameName a.1 b.1)
    · exact .inl ⟨h, by simpa using createDb_ok [] l (by simpa using h)⟩
    · exact .inr (createDb_abort [] l (by simp) (by simpa using h))
  refine ⟨?_, ?_, ?_, ?_⟩
  · intro hd n f p hm hs
    have hc := createDb_ok [] l (by simpa using hd)
    rw [run, hc, List.nil_append, Res.bind_ok, getProject_some l hd p (n, f) hm hs]
  · intro p hp
    rcases cases_ with ⟨_, h⟩ | h
    · rw [run, h, Res.bind_ok, (getProject_none l p).2 hp]
    · rw [run, h]; rfl
  · have : ∀ db, getProject db none = none := by
      intro db; unfold getProject; rw [List.find?_eq_none]; simp [strcmpI]
    rcases cases_ with ⟨_, h⟩ | h
    · rw [run, h, Res.bind_ok, this]
    · rw [run, h]; rfl
  · intro hd p
    rw [run, createDb_abort [] l (by simp) (by simpa using hd)]; rfl

example : mainRun ["elliptica".toList, "a/tov.par".toList] (fun _ => true) (some "tov_STAR".toList)
    [("Modules_Test".toList, 0), ("TOV_star".toList, 1)] = .ok [1] :=
  (C84_project (fun _ => true) ["elliptica".toList, "a/tov.par".toList] "a/tov.par".toList (by decide) ⟨"a".toList, "tov.par".toList, "tov".toList⟩
    (by decide) [("Modules_Test".toList, 0), ("TOV_star".toList, 1)]).1 (by simp only [List.pairwise_cons, SameName]; decide) "TOV_star".toList 1
    "tov_STAR".toList (by simp) (by unfold SameName; decide)

/-! ### C85 -/

theorem pad_value (w i : ℕ) : Params.atoiAcc 0 (pad w i) = i := by
  unfold pad
  rw [ParamLemmas.atoiAcc_append]
  · have : ∀ k, Params.atoiAcc 0 (List.replicate k '0') = 0 := by
      intro k
      induction k with
      | zero => rfl
      | succ k ih => rw [List.replicate_succ, Params.atoiAcc]; exact ih
    rw [this, ParamLemmas.atoiAcc_showNat]
  · intro c hc
    rw [List.eq_of_mem_replicate hc]; decide

theorem pad_digit (w i : ℕ) : ∀ c ∈ pad w i, c.isDigit = true := by
  intro c hc
  rcases List.mem_append.1 hc with h | h
  · rw [List.eq_of_mem_replicate h]; decide
  · exact ParamLemmas.showNat_isDigit i c h

/-- **C85 (names).** The name of a folder is path/name_digits with at least two digits, whose value is the number; so different numbers
give different folders. -/
theorem C85_names (path name : Str) (i : ℕ) : ∃ d, folder 2 path name i = path ++ "/".toList ++ name ++ "_".toList ++ d ∧
    2 ≤ d.length ∧ (∀ c ∈ d, c.isDigit = true) ∧ Params.atoiAcc 0 d = i ∧ ∀ j, folder 2 path name i = folder 2 path name j → i = j := by
  refine ⟨pad 2 i, by simp [folder], by simp [pad]; omega, pad_digit 2 i, pad_value 2 i, ?_⟩
  intro j h
  have : pad 2 i = pad 2 j := by simpa [folder] using h
  rw [← pad_value 2 i, this, pad_value]

theorem folder_inj (w : ℕ) (path name : Str) (i j : ℕ) (h : folder w path name i = folder w path name j) : i = j := by
  unfold folder at h
  have : pad w i = pad w j := by simpa using h
  rw [← pad_value w i, this, pad_value]

theorem firstFree_ok (wd : ℕ) (w : List Str) (path name : Str) (fuel s i : ℕ) (hi : s ≤ i) (hf : i < s + fuel)
    (hlen : ∀ j, s ≤ j → j ≤ i → (folder wd path name j).length < 400)
    (hfree : folder wd path name i ∉ w) (hbusy : ∀ j, s ≤ j → j < i → folder wd path name j ∈ w) :
    firstFree wd w path name fuel s = .ok i := by
  induction fuel generalizing s with
  | zero => omega
  | succ fuel ih =>
    unfold firstFree
    rw [if_neg (by have := hlen s (le_refl _) hi; unfold MAX_ARR; omega)]
    by_cases hs : s = i
    · subst hs; rw [if_neg hfree]
    · rw [if_pos (hbusy s (le_refl _) (by omega))]
      exact ih (s + 1) (by omega) (by omega) (fun j h1 h2 => hlen j (by omega) h2) (fun j h1 h2 => hbusy j (by omega) h2)

/-- among the first |w|+1 names one is free -/
theorem exists_free (wd : ℕ) (w : List Str) (path name : Str) :
    ∃ i ≤ w.length, folder wd path name i ∉ w ∧ ∀ j < i, folder wd path name j ∈ w := by
  have : ∃ i, folder wd path name i ∉ w := by
    by_contra h
    push Not at h
    have nd : ((List.range (w.length + 1)).map (folder wd path name)).Nodup :=
      List.nodup_range.map fun a b hab => folder_inj wd path name a b hab
    have sub : (List.range (w.length + 1)).map (folder wd path name) ⊆ w := by
      intro x hx
      obtain ⟨i, -, rfl⟩ := List.mem_map.1 hx
      exact h i
    have := (List.subperm_of_subset nd sub).length_le
    simp at this
  classical
  refine ⟨Nat.find this, ?_, Nat.find_spec this, fun j hj => by simpa using Nat.find_min this hj⟩
  by_contra hgt
  push Not at hgt
  have nd : ((List.range (w.length + 1)).map (folder wd path name)).Nodup :=
    List.nodup_range.map fun a b hab => folder_inj wd path name a b hab
  have sub : (List.range (w.length + 1)).map (folder wd path name) ⊆ w := by
    intro x hx
    obtain ⟨i, hi, rfl⟩ := List.mem_map.1 hx
    have := Nat.find_min this (m := i) (by have := List.mem_range.1 hi; omega)
    simpa using this
  have := (List.subperm_of_subset nd sub).length_le
  simp at this

theorem pad_length (w i : ℕ) (hw : w ≤ 10) (hi : i < 10 ^ 10) : (pad w i).length ≤ 10 := by
  have : (Params.showNat i).length ≤ 10 := Ckpt.length_showNatAux _ i 9 hi
  unfold pad
  simp; omega

theorem words_one (s : Str) (cur : Str) (h : ' ' ∉ s) (hn : cur ++ s ≠ []) : words cur s = [cur ++ s] := by
  induction s generalizing cur with
  | nil =>
    unfold words
    have : cur.isEmpty = false := by cases cur <;> simp_all
    simp [this]
  | cons x s ih =>
    have hx : x ≠ ' ' := by intro hx; exact h (by simp [hx])
    rw [words.eq_3 _ _ _ (by intro h; exact hx h), ih _ (fun hm => h (by simp [hm])) (by simp)]
    simp

/-- **C85 (new folder).** Given an existing directory (path and name without spaces, name without '/', paths shorter than the
program's arrays), make_directory makes exactly one new directory inside it and returns its path: path/name_NN with the least number
that is free; nothing that existed is changed. -/
theorem C85_make_partial (w : List Str) (path name : Str) (hp : path ∈ w) (hs : ' ' ∉ path ∧ ' ' ∉ name) (hn : '/' ∉ name)
    (hlen : path.length + name.length + 12 < 400) (hw : w.length < 10 ^ 10) :
    ∃ i, makeDirectory w path name = .ok (w ++ [folder 2 path name i], folder 2 path name i) ∧ folder 2 path name i ∉ w ∧
      ∀ j < i, folder 2 path name j ∈ w := by
  obtain ⟨i, hi, hfree, hbusy⟩ := exists_free 2 w path name
  refine ⟨i, ?_, hfree, hbusy⟩
  unfold makeDirectory
  rw [firstFree_ok 2 w path name _ 0 i (by omega) (by omega) ?_ hfree (fun j _ hj => hbusy j hj), Res.bind_ok]
  · have hsp : ' ' ∉ folder 2 path name i := by
      unfold folder
      have hd : ' ' ∉ pad 2 i := fun h => absurd (pad_digit 2 i _ h) (by decide)
      simp [hs.1, hs.2, hd]
    have hw1 : words [] (folder 2 path name i) = [folder 2 path name i] := words_one _ [] hsp (by simp [folder])
    have hl : atLast '/' (folder 2 path name i) = some (path, name ++ '_' :: pad 2 i) := by
      have hd : '/' ∉ pad 2 i := fun h => absurd (pad_digit 2 i _ h) (by decide)
      have := atLast_append '/' path (name ++ '_' :: pad 2 i) (by simp [hn, hd])
      unfold folder
      simpa using this
    unfold mkdir
    rw [hw1]
    simp only [List.foldl_cons, List.foldl_nil, mkdir1, if_neg hfree, hl, if_pos hp]
  · intro j _ hj
    have := pad_length 2 j (by omega) (by omega)
    unfold folder
    simp; omega

/-- what is meant by the name of folder number 0, 7 and 123 -/
example : folder 2 "/d".toList "run".toList 0 = "/d/run_00".toList ∧ folder 2 "/d".toList "run".toList 7 = "/d/run_07".toList ∧
    folder 2 "/d".toList "run".toList 123 = "/d/run_123".toList := by decide +kernel

example : ∃ i, makeDirectory ["/d".toList, "/d/run_00".toList] "/d".toList "run".toList =
    .ok (["/d".toList, "/d/run_00".toList] ++ [folder 2 "/d".toList "run".toList i], folder 2 "/d".toList "run".toList i) := by
  obtain ⟨i, h, -⟩ := C85_make_partial ["/d".toList, "/d/run_00".toList] "/d".toList "run".toList (by decide) (by decide) (by decide)
    (by decide) (by decide)
  exact ⟨i, h⟩

example : makeDirectory ["/d".toList, "/d/run_00".toList] "/d".toList "run".toList =
    .ok (["/d".toList, "/d/run_00".toList, "/d/run_01".toList], "/d/run_01".toList) := by decide +kernel

/-- a sequence of calls: the file system at the end and the paths returned -/
def makeAll : List Str → List (Str × Str) → Res (List Str × List Str)
  | w, [] => .ok (w, [])
  | w, (p, n) :: l => (makeDirectory w p n).bind fun r => (makeAll r.1 l).bind fun q => .ok (q.1, r.2 :: q.2)

/-- **C85 (histories).** Whatever is asked for in a run, with the same names as often as one likes, the returned folders are all
different, none of them existed before, and all exist at the end. -/
theorem C85_history (w : List Str) (l : List (Str × Str)) (hp : ∀ q ∈ l, q.1 ∈ w) (hs : ∀ q ∈ l, ' ' ∉ q.1 ∧ ' ' ∉ q.2)
    (hn : ∀ q ∈ l, '/' ∉ q.2) (hlen : ∀ q ∈ l, q.1.length + q.2.length + 12 < 400) (hw : w.length + l.length < 10 ^ 10) :
    ∃ r, makeAll w l = .ok (w ++ r, r) ∧ r.length = l.length ∧ r.Nodup ∧ ∀ d ∈ r, d ∉ w := by
  induction l generalizing w with
  | nil => exact ⟨[], by simp [makeAll], rfl, by simp, by simp⟩
  | cons a l ih =>
    obtain ⟨p, n⟩ := a
    obtain ⟨i, h1, h2, -⟩ := C85_make_partial w p n (hp (p, n) (by simp)) (hs (p, n) (by simp)) (hn (p, n) (by simp)) (hlen (p, n) (by simp))
      (by simp at hw; omega)
    obtain ⟨r, h3, h4, h5, h6⟩ := ih (w ++ [folder 2 p n i]) (fun q hq => by simp [hp q (by simp [hq])]) (fun q hq => hs q (by simp [hq]))
      (fun q hq => hn q (by simp [hq])) (fun q hq => hlen q (by simp [hq])) (by simp at hw ⊢; omega)
    refine ⟨folder 2 p n i :: r, ?_, by simp [h4], ?_, ?_⟩
    · simp only [makeAll, h1, Res.bind_ok, h3]; simp
    · rw [List.nodup_cons]
      exact ⟨fun hm => h6 _ hm (by simp), h5⟩
    · intro d hd
      rcases List.mem_cons.1 hd with rfl | hd
      · exact h2
      · intro hm; exact h6 d hd (by simp [hm])

example : ∃ r, makeAll ["/d".toList] [("/d".toList, "a".toList), ("/d".toList, "a".toList)] = .ok (["/d".toList] ++ r, r) ∧ r.length = 2 ∧ r.Nodup := by
  obtain ⟨r, a, b, c, -⟩ := C85_history ["/d".toList] [("/d".toList, "a".toList), ("/d".toList, "a".toList)] (by decide) (by decide)
    (by decide) (by decide) (by decide)
  exact ⟨r, a, b, c⟩

/-- Without these restrictions the property fails: for a directory with a space in its name, or a parent that does not exist, the
path that is returned does not exist (the status of mkdir is ignored); with a space another directory is made. -/
theorem C85_make_violation :
    makeDirectory [[], "/my runs".toList] "/my runs".toList "a".toList =
      .ok ([[], "/my runs".toList, "/my".toList], "/my runs/a_00".toList) ∧
    makeDirectory [[]] "/no".toList "a".toList = .ok ([[]], "/no/a_00".toList) := by
  decide +kernel

/-- **C85 (open).** With folders name_0000 … (four digits) in the top directory, open_folder returns the last of them and changes nothing. -/
theorem C85_open_partial (w : List Str) (top name : Str) (m : ℕ) (hm : 0 < m) (hfree : folder 4 top name m ∉ w)
    (hbusy : ∀ j < m, folder 4 top name j ∈ w) (hlen : top.length + name.length + 12 < 400) (hw : w.length < 10 ^ 10) :
    openFolder w top name = .ok (w, folder 4 top name (m - 1)) := by
  obtain ⟨i, hi, h1, h2⟩ := exists_free 4 w top name
  have : i = m := by
    rcases Nat.lt_trichotomy i m with h | h | h
    · exact absurd (hbusy i h) h1
    · exact h
    · exact absurd (h2 m h) hfree
  subst this
  unfold openFolder
  rw [firstFree_ok 4 w top name _ 0 i (by omega) (by omega) ?_ hfree (fun j _ hj => hbusy j hj), Res.bind_ok, if_pos hm]
  intro j _ hj
  have := pad_length 4 j (by omega) (by omega)
  unfold folder
  simp; omega

example : openFolder ["/d".toList, "/d/M_0000".toList] "/d".toList "M".toList = .ok (["/d".toList, "/d/M_0000".toList], "/d/M_0000".toList) :=
  C85_open_partial ["/d".toList, "/d/M_0000".toList] "/d".toList "M".toList 1 (by decide) (by decide +kernel)
    (fun j hj => by have : j = 0 := by omega
                    subst this; decide +kernel) (by decide) (by decide)

/-- "Open the folder if it exists, otherwise make one": opening twice should give the same folder.  It does not: folders are made
with two digits and looked for with four, so every call makes a new one. -/
theorem C85_open_violation :
    openFolder ["/d".toList] "/d".toList "M".toList = .ok (["/d".toList, "/d/M_00".toList], "/d/M_00".toList) ∧
    openFolder ["/d".toList, "/d/M_00".toList] "/d".toList "M".toList =
      .ok (["/d".toList, "/d/M_00".toList, "/d/M_01".toList], "/d/M_01".toList) := by
  decide +kernel

end Elliptica.Startup
