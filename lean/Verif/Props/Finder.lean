import Verif.Model.Finder
import Mathlib.Tactic.Linarith
import Mathlib.Tactic.SplitIfs
/-!
Property C20 (point finder, patch collectors).
-/
namespace Elliptica.Finder

/-! ### search lists -/

theorem addOnce_nodup {l : List Nat} (h : l.Nodup) (p : Nat) : (addOnce l p).Nodup := by
  unfold addOnce
  by_cases hp : p ∈ l
  · rw [if_pos hp]; exact h
  · rw [if_neg hp, List.nodup_append]
    refine ⟨h, by simp, ?_⟩
    intro a ha b hb
    simp only [List.mem_singleton] at hb
    rintro rfl; exact hp (hb ▸ ha)

theorem addOnce_mem (l : List Nat) (p q : Nat) : q ∈ addOnce l p ↔ q ∈ l ∨ q = p := by
  unfold addOnce
  by_cases hp : p ∈ l
  · rw [if_pos hp]
    constructor
    · exact .inl
    · rintro (h | rfl)
      · exact h
      · exact hp
  · rw [if_neg hp]; simp

/-- C20 (search lists): whatever calls fill a needle, no list holds a patch twice and each list holds exactly the
patches given to it. -/
theorem C20_lists (cs : List Call) : let nd := build cs
    nd.guess.Nodup ∧ nd.inn.Nodup ∧ nd.ex.Nodup ∧ nd.ans = [] ∧ nd.dangling = false ∧
    (∀ q, q ∈ nd.guess ↔ Call.guess q ∈ cs) ∧ (∀ q, q ∈ nd.inn ↔ Call.inn q ∈ cs) ∧
    (∀ q, q ∈ nd.ex ↔ Call.ex q ∈ cs) := by
  have key : ∀ (cs : List Call) (nd : Needle), nd.guess.Nodup → nd.inn.Nodup → nd.ex.Nodup → nd.ans = [] →
      nd.dangling = false →
      let r := cs.foldl call nd
      r.guess.Nodup ∧ r.inn.Nodup ∧ r.ex.Nodup ∧ r.ans = [] ∧ r.dangling = false ∧
      (∀ q, q ∈ r.guess ↔ q ∈ nd.guess ∨ Call.guess q ∈ cs) ∧
      (∀ q, q ∈ r.inn ↔ q ∈ nd.inn ∨ Call.inn q ∈ cs) ∧
      (∀ q, q ∈ r.ex ↔ q ∈ nd.ex ∨ Call.ex q ∈ cs) := by
    intro cs
    induction cs with
    | nil => intro nd a b c d e; simp [a, b, c, d, e]
    | cons c cs ih =>
      intro nd h1 h2 h3 h4 h5
      cases c with
      | ex p =>
        have := ih (call nd (.ex p)) h1 h2 (addOnce_nodup h3 p) h4 h5
        simp only [call, needleEx, addOnce_mem] at this
        simp only [List.foldl_cons, call, needleEx, List.mem_cons, reduceCtorEq, false_or, Call.ex.injEq]
        obtain ⟨a, b, c, d, e, f, g, h⟩ := this
        exact ⟨a, b, c, d, e, f, g, fun q => by rw [h]; tauto⟩
      | inn p =>
        have := ih (call nd (.inn p)) h1 (addOnce_nodup h2 p) h3 h4 h5
        simp only [call, addOnce_mem] at this
        simp only [List.foldl_cons, call, List.mem_cons, reduceCtorEq, false_or, Call.inn.injEq]
        obtain ⟨a, b, c, d, e, f, g, h⟩ := this
        exact ⟨a, b, c, d, e, f, fun q => by rw [g]; tauto, h⟩
      | guess p =>
        have := ih (call nd (.guess p)) (addOnce_nodup h1 p) h2 h3 h4 h5
        simp only [call, needleGuess, addOnce_mem] at this
        simp only [List.foldl_cons, call, needleGuess, List.mem_cons, reduceCtorEq, false_or, Call.guess.injEq]
        obtain ⟨a, b, c, d, e, f, g, h⟩ := this
        exact ⟨a, b, c, d, e, fun q => by rw [f]; tauto, g, h⟩
  have := key cs Needle.new (by simp [Needle.new]) (by simp [Needle.new]) (by simp [Needle.new]) rfl rfl
  simpa [build, Needle.new] using this

/-! ### the search -/

theorem find_ok (accept : Nat → Bool) : ∀ (l : List Nat) (nd : Needle), l.Nodup → (∀ p ∈ l, p ∉ nd.ans) →
    find accept l nd = .ok { nd with ans := nd.ans ++ l.filter accept } := by
  intro l
  induction l with
  | nil => intro nd _ _; simp [find]
  | cons p l ih =>
    intro nd hn hd
    rw [List.nodup_cons] at hn
    rw [find, List.filter_cons]
    by_cases ha : accept p = true
    · rw [if_pos ha, if_pos ha, needleAns, if_neg (hd p (List.mem_cons_self ..)), Res.bind_ok, ih _ hn.2]
      · simp
      · intro q hq
        simp only [List.mem_append, List.mem_singleton, not_or]
        exact ⟨hd q (List.mem_cons_of_mem _ hq), fun h => hn.1 (h ▸ hq)⟩
    · rw [if_neg ha, if_neg ha, ih nd hn.2 (fun q hq => hd q (List.mem_cons_of_mem _ hq))]

theorem addRest_ok (l : List Nat) : ∀ (ps : List Nat) (nd : Needle), ps.Nodup → nd.dangling = false →
    (∀ p ∈ ps, p ∉ nd.inn) →
    addRest l ps nd = .ok { nd with inn := nd.inn ++ ps.filter (fun p => decide (p ∉ l)) } := by
  intro ps
  induction ps with
  | nil => intro nd _ _ _; simp [addRest]
  | cons p ps ih =>
    intro nd hn hd hi
    rw [List.nodup_cons] at hn
    rw [addRest, List.filter_cons]
    by_cases hp : p ∈ l
    · rw [if_pos hp, if_neg (by simpa using hp), ih nd hn.2 hd (fun q hq => hi q (List.mem_cons_of_mem _ hq))]
    · rw [if_neg hp, if_pos (by simpa using hp), needleIn, if_neg (by simp [hd]), Res.bind_ok,
        ih { nd with inn := addOnce nd.inn p } hn.2 hd]
      · simp [addOnce, hi p (List.mem_cons_self ..)]
      · intro q hq
        simp only [addOnce, hi p (List.mem_cons_self ..), if_false, List.mem_append, List.mem_singleton, not_or]
        exact ⟨hi q (List.mem_cons_of_mem _ hq), fun h => hn.1 (h ▸ hq)⟩

/-- The patches searched, as the documentation of the finder describes it: the guesses; if no guess holds the point
all the other patches; without guesses the included patches; without those all patches but the excluded ones. -/
def Expected (n : Nat) (accept : Nat → Bool) (guess inn ex : List Nat) : List Nat :=
  if guess ≠ [] then
    if guess.filter accept ≠ [] then guess.filter accept
    else (List.range n).filter fun p => decide (p ∉ guess) && accept p
  else if inn ≠ [] then inn.filter accept
  else if ex ≠ [] then (List.range n).filter fun p => decide (p ∉ ex) && accept p
  else []

/-- C20, the part that holds: for every needle filled through the API in which a guess list is not combined
with an include list, the finder succeeds and reports exactly the accepting patches among those it was asked to
search - each once, each containing the point. -/
theorem C20_finder_partial (n : Nat) (accept : Nat → Bool) (cs : List Call)
    (h : (build cs).guess = [] ∨ (build cs).inn = []) :
    ∃ nd, pointFinder n accept (build cs) = .ok nd ∧
      nd.ans = Expected n accept (build cs).guess (build cs).inn (build cs).ex ∧
      nd.ans.Nodup ∧ ∀ p ∈ nd.ans, accept p = true := by
  obtain ⟨h1, h2, h3, h4, h5, -⟩ := C20_lists cs
  generalize build cs = nd at *
  have hr : (List.range n).Nodup := List.nodup_range
  have sub : ∀ l : List Nat, ((List.range n).filter (fun p => decide (p ∉ l))).filter accept =
      (List.range n).filter (fun p => decide (p ∉ l) && accept p) := by
    intro l; rw [List.filter_filter]; congr 1; funext p; rw [Bool.and_comm]
  unfold pointFinder Expected
  by_cases hg : nd.guess = []
  · have hg' : ¬ (nd.guess ≠ []) := not_not.2 hg
    rw [if_neg hg', if_neg hg']
    by_cases hi : nd.inn = []
    · have hi' : ¬ (nd.inn ≠ []) := not_not.2 hi
      rw [if_neg hi', if_neg hi']
      by_cases he : nd.ex = []
      · have he' : ¬ (nd.ex ≠ []) := not_not.2 he
        rw [if_neg he', if_neg he']
        exact ⟨nd, rfl, h4, by simp [h4], by simp [h4]⟩
      · rw [if_pos he, if_pos he, addRest_ok _ _ _ hr h5 (by simp [hi]), Res.bind_ok, find_ok]
        · refine ⟨_, rfl, ?_, ?_, ?_⟩
          · simp only [h4, hi, List.nil_append]; exact sub _
          · simp only [h4, hi, List.nil_append]; exact (hr.filter _).filter _
          · simp only [h4, hi, List.nil_append]; intro p hp; exact (List.mem_filter.1 hp).2
        · simp only [hi, List.nil_append]; exact hr.filter _
        · simp [h4]
    · rw [if_pos hi, if_pos hi, find_ok _ _ _ h2 (by simp [h4])]
      exact ⟨_, rfl, by simp [h4], by simp only [h4, List.nil_append]; exact h2.filter _,
        by simp only [h4, List.nil_append]; intro p hp; exact (List.mem_filter.1 hp).2⟩
  · have hi : nd.inn = [] := by
      rcases h with h | h
      · exact absurd h hg
      · exact h
    rw [if_pos hg, if_pos hg, find_ok _ _ _ h1 (by simp [h4]), Res.bind_ok]
    by_cases ha : nd.guess.filter accept = []
    · rw [if_pos (by simp only [h4, ha]; rfl), if_neg (by simp only [ne_eq, not_not]; exact ha),
        addRest_ok _ _ _ hr (by simp [hi]) (by simp), Res.bind_ok, find_ok]
      · refine ⟨_, rfl, ?_, ?_, ?_⟩
        · simp only [h4, ha, List.nil_append]; exact sub _
        · simp only [h4, ha, List.nil_append]; exact (hr.filter _).filter _
        · simp only [h4, ha, List.nil_append]; intro p hp; exact (List.mem_filter.1 hp).2
      · simp only [List.nil_append]; exact hr.filter _
      · simp [h4, ha]
    · rw [if_neg (by simpa [h4] using ha), if_pos (by simpa using ha)]
      exact ⟨_, rfl, by simp [h4], by simp only [h4, List.nil_append]; exact h1.filter _,
        by simp only [h4, List.nil_append]; intro p hp; exact (List.mem_filter.1 hp).2⟩

/-- C20, consequence: with an exclude list only, the point is reported in a patch iff that patch is not excluded and
accepts it; with an include list only, iff it is included and accepts it. -/
theorem C20_iff (n : Nat) (accept : Nat → Bool) (cs : List Call) (hg : ∀ q, Call.guess q ∉ cs) :
    ∃ nd, pointFinder n accept (build cs) = .ok nd ∧
      ((∃ q, Call.inn q ∈ cs) → ∀ p, p ∈ nd.ans ↔ Call.inn p ∈ cs ∧ accept p = true) ∧
      ((∀ q, Call.inn q ∉ cs) → (∃ q, Call.ex q ∈ cs) →
        ∀ p, p ∈ nd.ans ↔ p < n ∧ Call.ex p ∉ cs ∧ accept p = true) := by
  obtain ⟨-, -, -, -, -, m1, m2, m3⟩ := C20_lists cs
  have hge : (build cs).guess = [] := List.eq_nil_iff_forall_not_mem.2 fun q hq => hg q ((m1 q).1 hq)
  obtain ⟨nd, hok, hans, -, -⟩ := C20_finder_partial n accept cs (.inl hge)
  refine ⟨nd, hok, ?_, ?_⟩
  · rintro ⟨q, hq⟩ p
    have hi : (build cs).inn ≠ [] := List.ne_nil_of_mem ((m2 q).2 hq)
    rw [hans, Expected, if_neg (by simp [hge]), if_pos hi, List.mem_filter, m2]
  · rintro hni ⟨q, hq⟩ p
    have hi : (build cs).inn = [] := List.eq_nil_iff_forall_not_mem.2 fun q hq => hni q ((m2 q).1 hq)
    have he : (build cs).ex ≠ [] := List.ne_nil_of_mem ((m3 q).2 hq)
    rw [hans, Expected, if_neg (by simp [hge]), if_neg (by simp [hi]), if_pos he, List.mem_filter, List.mem_range]
    simp only [Bool.and_eq_true, decide_eq_true_eq, m3]

example : ∃ nd, pointFinder 4 (fun p => p == 1 || p == 3) (build [.guess 0, .guess 2, .guess 0]) = .ok nd ∧
    nd.ans = [1, 3] := ⟨_, rfl, rfl⟩
example : ∃ nd, pointFinder 4 (fun p => p == 1 || p == 3) (build [.ex 3, .ex 2]) = .ok nd ∧ nd.ans = [1] :=
  ⟨_, rfl, rfl⟩

/-- Violation: a needle with a guess list that does not hold the point AND an include list reallocates a freed
pointer, for every grid with a patch that is not guessed. -/
theorem C20_guess_and_in_violation (n : Nat) (accept : Nat → Bool) (cs : List Call)
    (hg : (build cs).guess ≠ []) (hi : (build cs).inn ≠ []) (hno : ∀ p ∈ (build cs).guess, accept p = false)
    (hrest : ∃ p < n, p ∉ (build cs).guess) :
    pointFinder n accept (build cs) = .ub := by
  obtain ⟨h1, h2, h3, h4, h5, -⟩ := C20_lists cs
  generalize build cs = nd at *
  have ha : nd.guess.filter accept = [] := by
    rw [List.filter_eq_nil_iff]; intro p hp; simp [hno p hp]
  unfold pointFinder
  rw [if_pos hg, find_ok _ _ _ h1 (by simp [h4]), Res.bind_ok, if_pos (by simp only [h4, ha]; rfl)]
  have key : ∀ (ps : List Nat) (m : Needle), m.dangling = true → (∃ p ∈ ps, p ∉ nd.guess) →
      addRest nd.guess ps m = .ub := by
    intro ps
    induction ps with
    | nil => rintro m _ ⟨p, hp, _⟩; cases hp
    | cons p ps ih =>
      rintro m hm ⟨q, hq, hqn⟩
      rw [addRest]
      by_cases hp : p ∈ nd.guess
      · rw [if_pos hp]
        rcases List.mem_cons.1 hq with rfl | hq
        · exact absurd hp hqn
        · exact ih m hm ⟨q, hq, hqn⟩
      · rw [if_neg hp, needleIn, if_pos hm]; rfl
  obtain ⟨p, hp, hpn⟩ := hrest
  rw [key _ _ (by simp [hi]) ⟨p, List.mem_range.2 hp, hpn⟩]
  rfl

example : pointFinder 3 (fun p => p == 2) (build [.guess 0, .inn 1]) = .ub := rfl

/-- Remark: a needle with no list at all searches nothing, even if every patch holds the point. -/
theorem C20_empty_needle (n : Nat) (accept : Nat → Bool) :
    pointFinder n accept (build []) = .ok Needle.new := rfl

/-- C20 (collections): the collection search returns a patch of the collection that accepts the point, no earlier one
accepts it; and it returns null iff no patch of the collection accepts the point. -/
theorem C20_first (accept : Nat → Bool) (l : List Nat) :
    (inWhichPatch accept l = none ↔ ∀ p ∈ l, accept p = false) ∧
    (∀ p, inWhichPatch accept l = some p ↔
      ∃ pre post, l = pre ++ p :: post ∧ accept p = true ∧ ∀ q ∈ pre, accept q = false) := by
  induction l with
  | nil => simp [inWhichPatch]
  | cons a l ih =>
    rw [inWhichPatch]
    by_cases ha : accept a = true
    · rw [if_pos ha]
      refine ⟨by simp [ha], fun p => ?_⟩
      constructor
      · intro h
        cases h
        exact ⟨[], l, rfl, ha, by simp⟩
      · rintro ⟨pre, post, heq, hp, hpre⟩
        cases pre with
        | nil => simp only [List.nil_append, List.cons.injEq] at heq; rw [heq.1]
        | cons b pre =>
          simp only [List.cons_append, List.cons.injEq] at heq
          have := hpre b (List.mem_cons_self ..)
          rw [← heq.1, ha] at this; cases this
    · rw [if_neg ha]
      refine ⟨by rw [ih.1]; simp [ha], fun p => ?_⟩
      rw [ih.2]
      constructor
      · rintro ⟨pre, post, rfl, hp, hpre⟩
        refine ⟨a :: pre, post, rfl, hp, ?_⟩
        intro q hq
        rcases List.mem_cons.1 hq with rfl | hq
        · simpa using ha
        · exact hpre q hq
      · rintro ⟨pre, post, heq, hp, hpre⟩
        cases pre with
        | nil => simp only [List.nil_append, List.cons.injEq] at heq; rw [heq.1] at ha; exact absurd hp ha
        | cons b pre =>
          simp only [List.cons_append, List.cons.injEq] at heq
          exact ⟨pre, post, heq.2, hp, fun q hq => hpre q (List.mem_cons_of_mem _ hq)⟩

/-! ### the forced search -/
section force
variable {K : Type} [Field K] [LinearOrder K] [IsStrictOrderedRing K]

theorem clamp_mem (mn mx v : K) (h : mn ≤ mx) : mn ≤ clamp mn mx v ∧ clamp mn mx v ≤ mx ∧
    (mn ≤ v → v ≤ mx → clamp mn mx v = v) := by
  unfold clamp
  dsimp only
  split_ifs with h1 h2 h2
  · exact ⟨le_refl _, h, fun a b => by linarith⟩
  · exact ⟨by linarith, le_refl _, fun a b => by linarith⟩
  · exact ⟨le_refl _, h, fun a b => by linarith⟩
  · exact ⟨by linarith, by linarith, fun a b => rfl⟩

/-- candidate: the patch contains the sought point up to the widened tolerance and is closer than `big` -/
theorem forceLoop_spec (eps : K) : ∀ (ps : List (PatchF K)) (k : Nat) (m : K) (best : Option Nat),
    let r := forceLoop eps ps k (m, best)
    r.1 ≤ m ∧
    (∀ (i : Nat) (p : PatchF K), ps[i]? = some p → Tol.isInside eps p.X p.mn p.mx = true → r.1 ≤ p.dist p.adj) ∧
    (r = (m, best) ∨ ∃ (i : Nat) (p : PatchF K), ps[i]? = some p ∧ Tol.isInside eps p.X p.mn p.mx = true ∧ p.dist p.adj < m ∧
      r = (p.dist p.adj, some (k + i)) ∧
      ∀ j q, j < i → ps[j]? = some q → Tol.isInside eps q.X q.mn q.mx = true → p.dist p.adj < q.dist q.adj) ∧
    (r = (m, best) → ∀ (i : Nat) (p : PatchF K), ps[i]? = some p → Tol.isInside eps p.X p.mn p.mx = true → m ≤ p.dist p.adj) := by
  intro ps
  induction ps with
  | nil => intro k m best; simp [forceLoop]
  | cons a ps ih =>
    intro k m best
    rw [forceLoop]
    by_cases hin : Tol.isInside eps a.X a.mn a.mx = true
    · rw [if_pos hin]
      dsimp only
      by_cases hd : a.dist a.adj < m
      · rw [if_pos hd]
        obtain ⟨h1, h2, h3, h4⟩ := ih (k + 1) (a.dist a.adj) (some k)
        refine ⟨by linarith, ?_, ?_, ?_⟩
        · intro i p hp hpi
          cases i with
          | zero => simp at hp; subst hp; exact h1
          | succ i => exact h2 i p (by simpa using hp) hpi
        · right
          rcases h3 with h3 | ⟨i, p, hp, hpi, hpd, hr, hmin⟩
          · exact ⟨0, a, rfl, hin, hd, by rw [h3]; rfl, fun j q hj => absurd hj (by omega)⟩
          · refine ⟨i + 1, p, by simpa using hp, hpi, by linarith, ?_, ?_⟩
            · rw [hr]; congr 2; omega
            · intro j q hj hq hqi
              cases j with
              | zero => simp at hq; subst hq; exact hpd
              | succ j => exact hmin j q (by omega) (by simpa using hq) hqi
        · intro h
          have := congrArg Prod.fst h
          simp only at this
          rw [this] at h1
          linarith
      · rw [if_neg hd]
        obtain ⟨h1, h2, h3, h4⟩ := ih (k + 1) m best
        refine ⟨h1, ?_, ?_, ?_⟩
        · intro i p hp hpi
          cases i with
          | zero => simp at hp; subst hp; exact le_trans h1 (not_lt.1 hd)
          | succ i => exact h2 i p (by simpa using hp) hpi
        · rcases h3 with h3 | ⟨i, p, hp, hpi, hpd, hr, hmin⟩
          · exact .inl h3
          · right
            refine ⟨i + 1, p, by simpa using hp, hpi, hpd, by rw [hr]; congr 2; omega, ?_⟩
            intro j q hj hq hqi
            cases j with
            | zero => simp at hq; subst hq; have := not_lt.1 hd; linarith
            | succ j => exact hmin j q (by omega) (by simpa using hq) hqi
        · intro h i p hp hpi
          cases i with
          | zero => simp at hp; subst hp; exact not_lt.1 hd
          | succ i => exact h4 h i p (by simpa using hp) hpi
    · rw [if_neg hin]
      obtain ⟨h1, h2, h3, h4⟩ := ih (k + 1) m best
      refine ⟨h1, ?_, ?_, ?_⟩
      · intro i p hp hpi
        cases i with
        | zero => simp at hp; subst hp; exact absurd hpi hin
        | succ i => exact h2 i p (by simpa using hp) hpi
      · rcases h3 with h3 | ⟨i, p, hp, hpi, hpd, hr, hmin⟩
        · exact .inl h3
        · right
          refine ⟨i + 1, p, by simpa using hp, hpi, hpd, by rw [hr]; congr 2; omega, ?_⟩
          intro j q hj hq hqi
          cases j with
          | zero => simp at hq; subst hq; exact absurd hqi hin
          | succ j => exact hmin j q (by omega) (by simpa using hq) hqi
      · intro h i p hp hpi
        cases i with
        | zero => simp at hp; subst hp; exact absurd hpi hin
        | succ i => exact h4 h i p (by simpa using hp) hpi

/-- C20 (forced search): the chosen patch contains the point up to the widened tolerance and, among all such patches
of the collection, needs the smallest displacement (the first one in case of a tie); the coordinates handed back lie
inside the patch's box, and equal the patch coordinates of the point when those lie in the box.  Null is returned iff
no patch qualifies. -/
theorem C20_force (eps big : K) (ps : List (PatchF K)) (hbox : ∀ p ∈ ps, ∀ i, p.mn i ≤ p.mx i) :
    (∀ i X, force eps big ps = some (i, X) → ∃ p, ps[i]? = some p ∧ Tol.isInside eps p.X p.mn p.mx = true ∧
      p.dist X < big ∧
      (∀ d, p.mn d ≤ X d ∧ X d ≤ p.mx d) ∧ (∀ d, p.mn d ≤ p.X d → p.X d ≤ p.mx d → X d = p.X d) ∧
      (∀ j q, ps[j]? = some q → Tol.isInside eps q.X q.mn q.mx = true →
        p.dist X ≤ q.dist q.adj ∧ (j < i → p.dist X < q.dist q.adj))) ∧
    (force eps big ps = none ↔
      ∀ p ∈ ps, Tol.isInside eps p.X p.mn p.mx = true → big ≤ p.dist p.adj) := by
  have sp := forceLoop_spec eps ps 0 big none
  obtain ⟨h1, h2, h3, h4⟩ := sp
  unfold force
  rcases h3 with h3 | ⟨i, p, hp, hpi, hpd, hr, hmin⟩
  · have h4' := h4 h3
    rw [h3]
    simp only [reduceCtorEq, false_implies, implies_true, true_and, true_iff]
    intro p hp hpi
    obtain ⟨i, hi, rfl⟩ := List.mem_iff_getElem.1 hp
    exact h4' i _ (List.getElem?_eq_getElem hi) hpi
  · rw [hr]
    simp only [Nat.zero_add, hp, Option.some.injEq, Prod.mk.injEq, reduceCtorEq, false_iff]
    have hmem : p ∈ ps := List.mem_of_getElem? hp
    refine ⟨?_, fun h => absurd (h p hmem hpi) (not_le.2 hpd)⟩
    rintro i' X ⟨rfl, rfl⟩
    refine ⟨p, hp, hpi, hpd, ?_, ?_, ?_⟩
    · intro d; have := clamp_mem (p.mn d) (p.mx d) (p.X d) (hbox p hmem d); exact ⟨this.1, this.2.1⟩
    · intro d; exact (clamp_mem (p.mn d) (p.mx d) (p.X d) (hbox p hmem d)).2.2
    · intro j q hq hqi
      have h2' := h2 j q hq hqi
      rw [hr] at h2'
      exact ⟨h2', fun hj => hmin j q hj hq hqi⟩

example : (force (1/10 : ℚ) 1000 [⟨fun _ => 0, fun _ => 1, fun _ => 5, fun _ => 0⟩,
    ⟨fun _ => 0, fun _ => 1, fun _ => 21/20, fun X => (X 0 - 21/20)^2⟩,
    ⟨fun _ => 1, fun _ => 2, fun _ => 99/100, fun X => (X 0 - 99/100)^2⟩]).map (fun r => (r.1, r.2 0)) =
      some (2, 1) := by decide +kernel

end force

/-! ### collectors -/

theorem occurs_iff (t s : Str) : occurs t s = true ↔ ∃ a b, s = a ++ t ++ b := by
  induction s with
  | nil =>
    simp only [occurs, List.isEmpty_iff]
    constructor
    · rintro rfl; exact ⟨[], [], rfl⟩
    · rintro ⟨a, b, h⟩
      have := congrArg List.length h
      simp only [List.length_nil, List.length_append] at this
      exact List.length_eq_zero_iff.1 (by omega)
  | cons c s ih =>
    simp only [occurs, Bool.or_eq_true, List.isPrefixOf_iff_prefix, ih]
    constructor
    · rintro (⟨b, hb⟩ | ⟨a, b, rfl⟩)
      · exact ⟨[], b, by simpa using hb.symm⟩
      · exact ⟨c :: a, b, rfl⟩
    · rintro ⟨a, b, h⟩
      cases a with
      | nil => exact .inl ⟨b, by simpa using h.symm⟩
      | cons x a =>
        simp only [List.cons_append, List.cons.injEq] at h
        exact .inr ⟨a, b, by simpa using h.2⟩

/-- What "this patch covers this item" means: an item that contains the patch-name prefix names the patch; any other
item occurs, in parentheses, in the region string of the patch. -/
def Covers (pre : Str) (p : PatchR) (item : Str) : Prop :=
  ((∃ a b, item = a ++ pre ++ b) ∧ p.name = item) ∨
  ((¬ ∃ a b, item = a ++ pre ++ b) ∧ ∃ a b, p.region = a ++ ('(' :: item ++ [')']) ++ b)

/-- items accepted by the spell check -/
def Spelled (pre dict : Str) (item : Str) : Prop :=
  (∃ a b, item = a ++ pre ++ b) ∨ ∃ a b, dict = a ++ ('(' :: item ++ [')']) ++ b

theorem covering_ok (pre dict : Str) (p : PatchR) : ∀ (l : List Str), (∀ r ∈ l, Spelled pre dict r) →
    ∃ b, covering pre dict p l = .ok b ∧ (b = true ↔ ∃ r ∈ l, Covers pre p r) := by
  intro l
  induction l with
  | nil => intro _; exact ⟨false, rfl, by simp⟩
  | cons r l ih =>
    intro h
    obtain ⟨b, hb, hbi⟩ := ih (fun q hq => h q (List.mem_cons_of_mem _ hq))
    have hr := h r (List.mem_cons_self ..)
    rw [covering]
    by_cases hp : occurs pre r = true
    · rw [if_pos hp]
      have hp' := (occurs_iff _ _).1 hp
      by_cases hn : p.name = r
      · rw [if_pos hn]
        exact ⟨true, rfl, by simp only [true_iff]; exact ⟨r, List.mem_cons_self .., .inl ⟨hp', hn⟩⟩⟩
      · rw [if_neg hn]
        refine ⟨b, hb, ?_⟩
        rw [hbi]
        constructor
        · rintro ⟨q, hq, hc⟩; exact ⟨q, List.mem_cons_of_mem _ hq, hc⟩
        · rintro ⟨q, hq, hc⟩
          rcases List.mem_cons.1 hq with rfl | hq
          · rcases hc with ⟨_, hc⟩ | ⟨hc, _⟩
            · exact absurd hc hn
            · exact absurd hp' hc
          · exact ⟨q, hq, hc⟩
    · rw [if_neg hp]
      have hp' : ¬ ∃ a b, r = a ++ pre ++ b := fun h => hp ((occurs_iff _ _).2 h)
      have hsp : occurs ('(' :: r ++ [')']) dict = true := by
        rcases hr with hr | hr
        · exact absurd hr hp'
        · exact (occurs_iff _ _).2 hr
      dsimp only
      rw [if_pos hsp]
      by_cases hc : occurs ('(' :: r ++ [')']) p.region = true
      · rw [if_pos hc]
        exact ⟨true, rfl, by
          simp only [true_iff]; exact ⟨r, List.mem_cons_self .., .inr ⟨hp', (occurs_iff _ _).1 hc⟩⟩⟩
      · rw [if_neg hc]
        refine ⟨b, hb, ?_⟩
        rw [hbi]
        constructor
        · rintro ⟨q, hq, hc⟩; exact ⟨q, List.mem_cons_of_mem _ hq, hc⟩
        · rintro ⟨q, hq, hc'⟩
          rcases List.mem_cons.1 hq with rfl | hq
          · rcases hc' with ⟨hc', _⟩ | ⟨_, hc'⟩
            · exact absurd hc' hp'
            · exact absurd ((occurs_iff _ _).2 hc') hc
          · exact ⟨q, hq, hc'⟩

open Classical in
/-- C37: collecting patches by region returns, in grid order, exactly the patches that cover at least one requested
item - each once, even when several items match - for correctly spelled items; it stops the program iff there is
none. -/
theorem C37_collect_partial (pre dict : Str) (items : List Str) (ps : List PatchR)
    (hsp : ∀ r ∈ items, Spelled pre dict r) :
    let want := ps.filter fun p => decide (∃ r ∈ items, Covers pre p r)
    (want ≠ [] → collect pre dict (some items) ps = .ok want) ∧
    (want = [] → collect pre dict (some items) ps = .abort) := by
  intro want
  have key : ∀ ps : List PatchR, collectLoop pre dict (some items) ps =
      .ok (ps.filter fun p => decide (∃ r ∈ items, Covers pre p r)) := by
    intro ps
    induction ps with
    | nil => rfl
    | cons p ps ih =>
      obtain ⟨b, hb, hbi⟩ := covering_ok pre dict p items hsp
      rw [collectLoop]
      simp only [hb, ih, Res.bind_ok, List.filter_cons, ← hbi, Bool.decide_eq_true]
  unfold collect
  rw [key ps, Res.bind_ok]
  exact ⟨fun h => if_neg h, fun h => if_pos h⟩

/-- C37: the wildcard collects all patches of the grid. -/
theorem C37_all (pre dict : Str) (ps : List PatchR) (h : ps ≠ []) : collect pre dict none ps = .ok ps := by
  have key : ∀ ps : List PatchR, collectLoop pre dict none ps = .ok ps := by
    intro ps
    induction ps with
    | nil => rfl
    | cons p ps ih => rw [collectLoop, ih]; rfl
  unfold collect
  rw [key ps, Res.bind_ok, if_neg h]

/-- the regions documented above IsItCovering (coordinate_utilities.c:803-830) with "?" = 1, 2 or nothing -/
def documented : List Str :=
  ["NS", "NS1", "NS2", "BH", "BH1", "BH2", "NS_around", "NS1_around", "NS2_around", "BH_around", "BH1_around",
   "BH2_around", "outermost", "filling_box", "NS_OB", "NS1_OB", "NS2_OB", "NS_around_IB", "NS1_around_IB",
   "NS2_around_IB", "BH_around_IB", "BH1_around_IB", "BH2_around_IB", "NS_around_OB", "NS1_around_OB",
   "NS2_around_OB", "BH_around_OB", "BH1_around_OB", "BH2_around_OB"].map String.toList

/-- all these documented regions pass the spell check of the code -/
theorem C37_documented : ∀ r ∈ documented, Spelled namePrefix dictionary r := by
  have : ∀ r ∈ documented, occurs ('(' :: r ++ [')']) dictionary = true := by decide +kernel
  intro r hr
  exact .inr ((occurs_iff _ _).1 (this r hr))

/-- Violation: the regions "BH_OB", "BH1_OB", "BH2_OB" and "central_box", documented in the same list, are rejected by
the spell check: collecting them stops the program on every grid with a patch, even when the patch covers them. -/
theorem C37_documented_violation (r : Str)
    (hr : r ∈ ["BH_OB", "BH1_OB", "BH2_OB", "central_box"].map String.toList) (p : PatchR) (ps : List PatchR) :
    collect namePrefix dictionary (some [r]) (p :: ps) = .abort := by
  have h1 : ∀ r ∈ ["BH_OB", "BH1_OB", "BH2_OB", "central_box"].map String.toList,
      occurs namePrefix r = false ∧ occurs ('(' :: r ++ [')']) dictionary = false := by decide +kernel
  obtain ⟨h2, h3⟩ := h1 r hr
  unfold collect
  rw [collectLoop]
  rw [show covering namePrefix dictionary p [r] = .abort by
    rw [covering, if_neg (by simp [h2])]; dsimp only; rw [if_neg (by rw [h3]; simp)]]
  rfl

example : collect namePrefix dictionary (some ["NS1".toList, "NS1_OB".toList, "grid1_x".toList])
    [⟨"grid1_a".toList, "(NS1)(NS1_OB)".toList⟩, ⟨"grid1_b".toList, "(NS2)(NS2_OB)".toList⟩,
     ⟨"grid1_x".toList, "(outermost)".toList⟩] =
    .ok [⟨"grid1_a".toList, "(NS1)(NS1_OB)".toList⟩, ⟨"grid1_x".toList, "(outermost)".toList⟩] := by
  decide +kernel

end Elliptica.Finder
