import Verif.Model.DerivName
import Verif.Props.Deriv
import Verif.Props.TextSearch
import Verif.Lemmas.Text
import Verif.Props.Text
import Mathlib.Data.List.GetD
/-!
C55: the task of a derivative and the names of derivative fields.
-/
set_option linter.unusedSectionVars false
namespace Elliptica.DerivName
open Text Deriv TextSpec Props.TextSearch

/-! ### specification -/

/-- the letter, in either case, of a direction -/
inductive Letter : Char → Dir → Prop
  | x : Letter 'x' (.x 0)
  | y : Letter 'y' (.x 1)
  | z : Letter 'z' (.x 2)
  | a : Letter 'a' (.a 0)
  | b : Letter 'b' (.a 1)
  | c : Letter 'c' (.a 2)
  | X : Letter 'X' (.x 0)
  | Y : Letter 'Y' (.x 1)
  | Z : Letter 'Z' (.x 2)
  | A : Letter 'A' (.a 0)
  | B : Letter 'B' (.a 1)
  | C : Letter 'C' (.a 2)

/-- letters separated by commas -/
def commaSep : List Char → Str
  | [] => []
  | [c] => [c]
  | c :: d :: cs => c :: ',' :: commaSep (d :: cs)

/-- 'Spectral', in any case, occurs in the string -/
def MentionsSpectral (s : Str) : Prop := ∃ u m v, s = u ++ m ++ v ∧ List.Forall₂ SameLetter m "Spectral".toList

/-- the digit of a direction -/
def digit (i : Fin 3) : Char := if i = 0 then '0' else if i = 1 then '1' else '2'

/-- `IsDeriv n s i`: by the naming convention n is the derivative in direction i of the field named s: a 'd' in front (after
a leading underscore), and '_D' with the index at the end, or 'D' with the index when there are indices already -/
inductive IsDeriv : Str → Str → Fin 3 → Prop
  | first (s : Str) (i : Fin 3) : s ≠ [] → IsDeriv ('d' :: s ++ ['_', 'D', digit i]) s i
  | more (s : Str) (i : Fin 3) : s ≠ [] → s.getLast? ≠ some '_' → IsDeriv ('d' :: s ++ ['D', digit i]) s i
  | first_ (s : Str) (i : Fin 3) : IsDeriv ('_' :: 'd' :: s ++ ['_', 'D', digit i]) ('_' :: s) i
  | more_ (s : Str) (i : Fin 3) : s ≠ [] → s.getLast? ≠ some '_' → IsDeriv ('_' :: 'd' :: s ++ ['D', digit i]) ('_' :: s) i

/-! ### tasks -/

theorem strDir_letter {c : Char} {d : Dir} (h : Letter c d) : strDir [c] = .ok d := by
  cases h <;> decide +kernel

theorem Letter.ne_comma {c : Char} {d : Dir} (h : Letter c d) : c ≠ ',' := by cases h <;> decide
theorem Letter.ne_bar {c : Char} {d : Dir} (h : Letter c d) : c ≠ '|' := by cases h <;> decide
theorem Letter.user {c : Char} {d : Dir} (h : Letter c d) : d.user := by cases h <;> trivial

theorem splits_commaSep (cs : List Char) (h : ∀ c ∈ cs, c ≠ ',') : Splits ',' (commaSep cs) (cs.map fun c => [c]) := by
  induction cs with
  | nil => exact .nil
  | cons c cs ih =>
    have hc : ',' ∉ [c] := by simpa using (h c (by simp)).symm
    match cs, ih with
    | [], _ => exact .last [c] (by simp) hc
    | d :: cs, ih =>
      have := Splits.cons [c] 0 (commaSep (d :: cs)) _ (by simp) hc (by
        have hd : d ≠ ',' := h d (by simp)
        cases cs <;> simpa [commaSep] using hd) (ih fun c hc => h c (by simp [hc]))
      simpa [commaSep] using this

theorem dirLoop_letters (cs : List Char) (ds : List Dir) (h : List.Forall₂ Letter cs ds) :
    dirLoop (cs.map fun c => [c]) = .ok ds := by
  induction h with
  | nil => rfl
  | cons h1 _ ih => simp [dirLoop, strDir_letter h1, ih]

theorem commaSep_mem {cs : List Char} {c : Char} (h : c ∈ commaSep cs) : c ∈ cs ∨ c = ',' := by
  induction cs with
  | nil => simp [commaSep] at h
  | cons a cs ih =>
    match cs, ih with
    | [], _ => simp [commaSep] at h; simp [h]
    | b :: cs, ih =>
      simp only [commaSep, List.mem_cons] at h
      rcases h with h | h | h
      · simp [h]
      · simp [h]
      · rcases ih h with h | h
        · simp only [List.mem_cons] at h ⊢; tauto
        · simp [h]

theorem bar_notMem {cs : List Char} {ds : List Dir} (h : List.Forall₂ Letter cs ds) : '|' ∉ commaSep cs := by
  intro hm
  rcases commaSep_mem hm with hm | hm
  · clear * - h hm
    induction h with
    | nil => simp at hm
    | cons h1 _ ih =>
      rcases List.mem_cons.1 hm with e | e
      · exact h1.ne_bar e.symm
      · exact ih e
  · exact absurd hm (by decide)

theorem commaSep_ne {cs : List Char} (h : cs ≠ []) : commaSep cs ≠ [] := by
  match cs, h with
  | [c], _ => simp [commaSep]
  | c :: d :: cs, _ => simp [commaSep]

/-- the text after the letters: nothing, or a bar and the name of a method -/
inductive Tail : Str → Option Str → Prop
  | none : Tail [] none
  | method (m : Str) : m.head? ≠ some '|' → Tail ('|' :: m) (some m)

theorem tok_task {cs : List Char} {ds : List Dir} (h : List.Forall₂ Letter cs ds) (h0 : cs ≠ []) {r : Str} {m : Option Str}
    (ht : Tail r m) : tokS '|' (commaSep cs ++ r) = some ⟨commaSep cs, m, false⟩ := by
  cases ht with
  | none => rw [List.append_nil]; exact tokS_last (commaSep_ne h0) (bar_notMem h)
  | method m hm =>
    have := tokS_piece (r := m) 0 (commaSep_ne h0) (bar_notMem h) hm
    simpa using this

/-- **C55 (directions).** A task of letters x,y,z,a,b,c (of either case) separated by commas, with or without a method
behind a bar, means these directions in this order. -/
theorem C55_directions (cs : List Char) (ds : List Dir) (h : List.Forall₂ Letter cs ds) (h0 : cs ≠ []) (r : Str)
    (m : Option Str) (ht : Tail r m) : directions (commaSep cs ++ r) = .ok ds := by
  unfold directions
  rw [tok_task h h0 ht]
  have hs : Splits ',' (commaSep cs) (cs.map fun c => [c]) := by
    refine splits_commaSep cs fun c hc => ?_
    clear h0
    induction h with
    | nil => simp at hc
    | cons h1 _ ih =>
      rcases List.mem_cons.1 hc with e | e
      · rw [e]; exact h1.ne_comma
      · exact ih e
  show dirLoop (readItems ',' (commaSep cs)) = _
  rw [Props.Text.C09_items_partial ',' _ _ hs]
  exact dirLoop_letters cs ds h

theorem isSpectral_iff (s : Option Str) : isSpectral s = true ↔ ∃ x, s = some x ∧ MentionsSpectral x := by
  unfold isSpectral MentionsSpectral
  rw [C46_strstr_i]
  constructor
  · rintro ⟨x, y, u, m, v, rfl, hy, rfl, h⟩
    obtain rfl := Option.some.inj hy
    exact ⟨_, rfl, u, m, v, rfl, h⟩
  · rintro ⟨x, rfl, u, m, v, rfl, h⟩
    exact ⟨_, _, u, m, v, rfl, rfl, rfl, h⟩

open Classical in
/-- **C55 (method).** The derivative is taken exactly when the text behind the bar, or the parameter, mentions the spectral
method; otherwise the program stops. -/
theorem C55_method (par : Option Str) (cs : List Char) (ds : List Dir) (h : List.Forall₂ Letter cs ds) (h0 : cs ≠ [])
    (r : Str) (m : Option Str) (ht : Tail r m) :
    method par (commaSep cs ++ r) =
      (if (∃ x, m = some x ∧ MentionsSpectral x) ∨ (∃ x, par = some x ∧ MentionsSpectral x) then .ok () else .abort : Res Unit) := by
  unfold method
  rw [tok_task h h0 ht]
  simp only [← isSpectral_iff]
  cases isSpectral m <;> cases isSpectral par <;> simp

/-- **C55 (the task is done).** -/
theorem C55_task (e : ℝ) (p : Patch) (par : Option Str) (f : Coeff.St ℝ) (cs : List Char) (ds : List Dir)
    (h : List.Forall₂ Letter cs ds) (h0 : cs ≠ []) (r : Str) (m : Option Str) (ht : Tail r m)
    (hm : (∃ x, m = some x ∧ MentionsSpectral x) ∨ (∃ x, par = some x ∧ MentionsSpectral x)) :
    partialDerivative e p par f (commaSep cs ++ r) = takeDer e p f ds := by
  unfold partialDerivative
  rw [C55_method par cs ds h h0 r m ht, if_pos hm, C55_directions cs ds h h0 r m ht]
  rfl

example : directions "z,X,b|Spectral".toList = .ok [.x 2, .x 0, .a 1] :=
  C55_directions ['z', 'X', 'b'] _ (.cons .z (.cons .X (.cons .b .nil))) (by simp) _ _ (.method "Spectral".toList (by decide))

/-- C55 (the documented form): with the blanks of the documentation, "x | Spectral", the task is refused -/
theorem C55_blank_violation (c : Char) (d : Dir) (h : Letter c d) (m : Str) (hm : m.head? ≠ some '|') :
    directions ([c, ' ', '|'] ++ m) = .abort := by
  have ht : tokS '|' ([c, ' ', '|'] ++ m) = some ⟨[c, ' '], some m, false⟩ := by
    have := tokS_piece (d := '|') (x := [c, ' ']) (r := m) 0 (by simp) (by simpa using h.ne_bar.symm) hm
    simpa using this
  unfold directions
  rw [ht]
  show dirLoop (readItems ',' [c, ' ']) = _
  rw [Props.Text.C09_items_partial ',' _ _ (.last [c, ' '] (by simp) (by simpa using h.ne_comma.symm))]
  cases h <;> decide +kernel

/-- C55 (other methods): a method other than the spectral one asked for in the task is ignored when the parameter says
spectral, although the task is documented to override it -/
theorem C55_override_violation : method (some "Spectral".toList) "x|Finite_Difference".toList = .ok () := by decide +kernel

/-- C55: a comma in front of a single letter means the second derivative -/
theorem C55_comma_violation : directions ",x".toList = .ok [.x 0, .x 0] := by decide +kernel

/-! ### names -/

theorem lastDir_digit (i : Fin 3) : lastDir (digit i) = .ok i := by
  match i with
  | 0 => rfl
  | 1 => rfl
  | 2 => rfl

theorem parse_first (n : Str) (i : Fin 3) (h3 : n ≠ []) (hl : n.length + 3 < 100) :
    parse (n ++ ['_', 'D', digit i]) = (cutD n).map fun s => (s, i) := by
  have hpos := List.length_pos_iff.2 h3
  unfold parse
  rw [if_neg (by simp; omega), if_neg (by simp; omega)]
  have e1 : (n ++ ['_', 'D', digit i]).getD ((n ++ ['_', 'D', digit i]).length - 1) ' ' = digit i := by
    rw [List.getD_append_right _ _ _ _ (by simp)]; simp
  have e2 : cutIndex (n ++ ['_', 'D', digit i]) = n := by
    unfold cutIndex
    rw [List.getD_append_right _ _ _ _ (by simp)]; simp
  rw [e1, e2, lastDir_digit]; rfl

theorem parse_more (n : Str) (i : Fin 3) (h3 : 2 ≤ n.length) (hl : n.length + 2 < 100) (hu : n.getLast? ≠ some '_') :
    parse (n ++ ['D', digit i]) = (cutD n).map fun s => (s, i) := by
  unfold parse
  rw [if_neg (by simp; omega), if_neg (by simp; omega)]
  have e1 : (n ++ ['D', digit i]).getD ((n ++ ['D', digit i]).length - 1) ' ' = digit i := by
    rw [List.getD_append_right _ _ _ _ (by simp)]; simp
  have e2 : cutIndex (n ++ ['D', digit i]) = n := by
    unfold cutIndex
    have : (n ++ ['D', digit i]).getD ((n ++ ['D', digit i]).length - 3) ' ' ≠ '_' := by
      rw [List.getD_append _ _ _ _ (by simp; omega)]
      rw [List.getLast?_eq_getElem?] at hu
      simp only [List.length_append, List.length_cons, List.length_nil, List.getD]
      rw [show n.length + (0 + 1 + 1) - 3 = n.length - 1 by omega]
      intro h; apply hu
      rw [List.getElem?_eq_getElem (by omega)] at h ⊢
      simpa using h
    rw [if_pos this]; simp
  rw [e1, e2, lastDir_digit]; rfl

/-- **C55 (names).** Every name made by the convention, shorter than 100 characters, is read as the derivative it denotes. -/
theorem C55_name (n s : Str) (i : Fin 3) (h : IsDeriv n s i) (hl : n.length < 100) : parse n = .ok (s, i) := by
  cases h with
  | first s i hs =>
    have hcut : cutD ('d' :: s) = .ok s := by simp [cutD]
    rw [parse_first ('d' :: s) i (by simp) (by simpa using hl), hcut]; rfl
  | more s i hs hu =>
    have hcut : cutD ('d' :: s) = .ok s := by simp [cutD]
    have := List.length_pos_iff.2 hs
    rw [parse_more ('d' :: s) i (by simp; omega) (by simpa using hl) (by
      match s, hs with
      | c :: s, _ => simpa using hu), hcut]; rfl
  | first_ s i =>
    rw [parse_first ('_' :: 'd' :: s) i (by simp) (by simpa using hl)]; rfl
  | more_ s i hs hu =>
    rw [parse_more ('_' :: 'd' :: s) i (by simp) (by simpa using hl) (by
      match s, hs with
      | c :: s, _ => simpa using hu)]; rfl

/-- **C55 (other names).** A name that does not end in 0, 1 or 2, or begins neither with d nor with _d, is refused. -/
theorem C55_name_refused (n : Str) (hl : n.length < 100)
    (h : n.getLast? ∉ [some '0', some '1', some '2'] ∨ (¬ ['d'] <+: n ∧ ¬ ['_', 'd'] <+: n)) : parse n = .abort := by
  unfold parse
  rw [if_neg (by omega)]
  split
  · rfl
  rename_i h3
  rcases h with h | ⟨h1, h2⟩
  · have hc : lastDir (n.getD (n.length - 1) ' ') = .abort := by
      rw [List.getLast?_eq_getElem?, List.getElem?_eq_getElem (by omega)] at h
      have e : n.getD (n.length - 1) ' ' = n[n.length - 1]'(by omega) := by
        simp [List.getD, List.getElem?_eq_getElem (show n.length - 1 < n.length by omega)]
      rw [e]
      simp only [List.mem_cons, Option.some.injEq, List.not_mem_nil, or_false, not_or] at h
      unfold lastDir
      rw [if_neg h.1, if_neg h.2.1, if_neg h.2.2]
    rw [hc]; rfl
  · have hc : cutD (cutIndex n) = .abort := by
      have hpre : cutIndex n <+: n := by
        unfold cutIndex; split <;> exact List.take_prefix _ _
      generalize cutIndex n = q at hpre
      match q, hpre with
      | [], _ => rfl
      | c :: q, hpre =>
        have hd : c ≠ 'd' := by
          rintro rfl
          exact h1 (List.IsPrefix.trans ⟨q, rfl⟩ hpre)
        by_cases hc : c = '_'
        · subst hc
          match q, hpre with
          | [], _ => rfl
          | a :: q, hpre =>
            have ha : a ≠ 'd' := by
              rintro rfl
              exact h2 (List.IsPrefix.trans ⟨q, rfl⟩ hpre)
            unfold cutD
            split <;> simp_all
        · unfold cutD
          split <;> simp_all
    rw [hc]
    unfold lastDir
    split_ifs <;> rfl

example : parse "ddpsi_D0D1".toList = .ok ("dpsi_D0".toList, 1) :=
  C55_name _ _ _ (.more "dpsi_D0".toList 1 (by decide) (by decide)) (by decide)
example : parse "_ddgamma_D0D0D2".toList = .ok ("_dgamma_D0D0".toList, 2) :=
  C55_name _ _ _ (.more_ "dgamma_D0D0".toList 2 (by decide) (by decide)) (by decide)

/-- C55: a name with an upper index is taken for a derivative, and so is any two-character ending with a digit 0,1,2 -/
theorem C55_index_violation : parse "dpsi_U1".toList = .ok ("psi".toList, 1) := by decide +kernel

/-- C55: a name of 100 or more characters overruns the buffer -/
theorem C55_long_violation (n : Str) (h : 100 ≤ n.length) : parse n = .ub := by
  unfold parse; rw [if_pos h]

/-! ### fields -/

theorem IsDeriv.ne {n s : Str} {i : Fin 3} (h : IsDeriv n s i) : n ≠ s := by
  intro e
  have hl : n.length = s.length := by rw [e]
  cases h <;> simp at hl <;> omega

theorem lookUpE_of (l : Flds) (hu : (l.map (·.name)).Nodup) (j : Nat) (hj : j < l.length) :
    Field.lookUpE l (l[j].name) = .ok j := by
  have : Field.lookUp l (l[j].name) = some j := by
    unfold Field.lookUp
    rw [List.findIdx?_eq_some_iff_getElem]
    refine ⟨hj, by simp, ?_⟩
    intro k hk
    simp only [decide_eq_true_eq]
    intro he
    have := (List.nodup_iff_injective_getElem.1 hu) (a₁ := ⟨k, by simp; omega⟩) (a₂ := ⟨j, by simpa using hj⟩) (by simpa using he)
    simp at this; omega
  unfold Field.lookUpE; rw [this]

theorem setVal_get (l : Flds) (k m : Nat) (v : Option (Coeff.St ℝ)) (hk : k < l.length) :
    (setVal l k v)[m]? = if m = k then some ⟨l[k].name, v⟩ else l[m]? := by
  unfold setVal
  rw [List.getElem?_set]
  by_cases h : k = m
  · subst h; simp [hk]
  · rw [if_neg h, if_neg (Ne.symm h)]

theorem taskOf_eq (i : Fin 3) : ∃ c, Letter c (.x i) ∧ taskOf i = commaSep [c] ++ [] := by
  match i with
  | 0 => exact ⟨'x', .x, rfl⟩
  | 1 => exact ⟨'y', .y, rfl⟩
  | 2 => exact ⟨'z', .z, rfl⟩

variable {e : ℝ} {p : Patch}

/-- **C55 (derivative fields).** Taking the derivative of the field number k whose name denotes the derivative of field
number j in direction i: the field k holds, at every grid point, the Cartesian derivative in direction i of the polynomial
through the values of field j.  No other field changes its values, and no field its name. -/
theorem C55_field (hp : Good e p) (hs : p.sys ≠ .other) (par : Str) (hpar : MentionsSpectral par) (l : Flds)
    (hu : (l.map (·.name)).Nodup) (k j : Nat) (hk : k < l.length) (hj : j < l.length) (i : Fin 3)
    (hn : IsDeriv l[k].name l[j].name i) (hl : l[k].name.length < 100) (f : Coeff.St ℝ) (hv : l[j].val = some f)
    (hf : Coeff.Inv p.n (mW p) f) :
    ∃ l' w P, partialField e p (some par) l k = .ok l' ∧ l'.map (·.name) = l.map (·.name) ∧
      l'[k]?.bind (·.val) = some ⟨w, none, none⟩ ∧
      (∀ m, m ≠ k → (l'[m]?.bind (·.val)).map (·.v) = (l[m]?.bind (·.val)).map (·.v)) ∧
      (∃ f', l'[j]?.bind (·.val) = some f' ∧ Coeff.Inv p.n (mW p) f') ∧ (∀ m, m ≠ k → m ≠ j → l'[m]? = l[m]?) ∧
      Fits p P ∧ Samples p f.v P ∧
      ∀ t, Inside p t → w (idx p t) =
        ∑ d, MvPolynomial.eval (pos p t) (MvPolynomial.pderiv d P) * dXdq p d (.x i) (idx p t) := by
  obtain ⟨P, hP, hS⟩ := C54_interpolant hp f.v
  obtain ⟨f', w, h1, h2, h3, h4⟩ := C54_first hp hs f hf (.x i) trivial P hP hS
  obtain ⟨c, hc, ht⟩ := taskOf_eq i
  have htask : partialDerivative e p (some par) f (taskOf i) = .ok (f', w) := by
    rw [ht, C55_task e p (some par) f [c] [.x i] (.cons hc .nil) (by simp) [] none .none (Or.inr ⟨_, rfl, hpar⟩), h1]
  have hkj : k ≠ j := by
    rintro rfl
    exact hn.ne rfl
  have hlen : ∀ (l : Flds) k v, (setVal l k v).length = l.length := by intro l k v; simp [setVal]
  refine ⟨setVal (setVal l j (some f')) k (some ⟨w, none, none⟩), w, P, ?_, ?_, ?_, ?_, ?_, ?_, hP, hS, h4⟩
  · unfold partialField
    rw [List.getElem?_eq_getElem hk]
    simp only [C55_name _ _ _ hn hl, Res.bind_ok, lookUpE_of l hu j hj, List.getElem?_eq_getElem hj, Option.bind_some, hv, htask]
  · apply List.ext_getElem?
    intro m
    rw [List.getElem?_map, List.getElem?_map, setVal_get _ _ _ _ (by rw [hlen]; exact hk)]
    by_cases hm : m = k
    · subst hm
      have := setVal_get l j m (some f') hj
      rw [if_neg hkj, List.getElem?_eq_getElem (by rw [hlen]; exact hk), List.getElem?_eq_getElem hk] at this
      simp [List.getElem?_eq_getElem hk, Option.some.inj this]
    · rw [if_neg hm, setVal_get _ _ _ _ hj]
      by_cases hm2 : m = j
      · subst hm2; simp [List.getElem?_eq_getElem hj]
      · rw [if_neg hm2]
  · rw [setVal_get _ _ _ _ (by rw [hlen]; exact hk), if_pos rfl]; rfl
  · intro m hm
    rw [setVal_get _ _ _ _ (by rw [hlen]; exact hk), if_neg hm, setVal_get _ _ _ _ hj]
    by_cases hm2 : m = j
    · subst hm2; simp [List.getElem?_eq_getElem hj, hv, h2]
    · rw [if_neg hm2]
  · refine ⟨f', ?_, h3⟩
    rw [setVal_get _ _ _ _ (by rw [hlen]; exact hk), if_neg (Ne.symm hkj), setVal_get _ _ _ _ hj, if_pos rfl]; rfl
  · intro m hm hm2
    rw [setVal_get _ _ _ _ (by rw [hlen]; exact hk), if_neg hm, setVal_get _ _ _ _ hj, if_neg hm2]

/-- a patch with x² z and places for two derivatives -/
noncomputable def demoL : Flds := [⟨"ddpsi_D0D2".toList, none⟩, ⟨"dpsi_D0".toList, none⟩, ⟨"psi".toList, some demoF⟩]

example : ∃ l', partialField 1e-12 demoP (some "spectral".toList) demoL 1 = .ok l' ∧
    l'[0]?.bind (·.val) = none ∧ l'[2]?.bind (·.val) ≠ none := by
  obtain ⟨l', w, P, h1, h2, h3, h4, -⟩ := C55_field demoP_good (by simp [demoP]) "spectral".toList
    ⟨[], "spectral".toList, [], by decide, by
      have h := (C46_strcmp_i (some "spectral".toList) (some "Spectral".toList)).1 (by decide +kernel)
      obtain ⟨x, y, hx, hy, h⟩ := h
      rw [Option.some.inj hx, Option.some.inj hy]; exact h⟩ demoL (by decide +kernel) 1 2 (by simp [demoL]) (by simp [demoL]) 0
    (IsDeriv.first "psi".toList 0 (by decide)) (by decide +kernel) demoF rfl (Or.inl rfl)
  refine ⟨l', h1, ?_, ?_⟩
  · have := h4 0 (by decide)
    simpa [demoL] using this
  · have := h4 2 (by decide)
    intro hc
    rw [hc] at this
    simp [demoL] at this

end Elliptica.DerivName
