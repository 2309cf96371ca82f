import Verif.Spec.Physics
import Verif.Props.TextSearch
import Verif.Props.Finder
import Verif.Props.Text
import Mathlib.Tactic.IntervalCases
import Mathlib.Tactic.FinCases
import Mathlib.Data.Fintype.Basic
/-!
Property C101: the manager of the physics.
-/
namespace Elliptica.Physics
open Text Spec

/-- C101: every command, and only a command of the list, is carried out, and what is done is what the list says; what is done to
one star or one black hole is refused for every other physics, and the program then stops. -/
theorem C101_dispatch (ctype : Obj) (cmd : ℕ) (a : Act) :
    physicsMain ctype cmd = .ok a ↔
      1 ≤ cmd ∧ doc[cmd - 1]? = some a ∧ (a ∈ ofStar → ctype = .NS) ∧ (a ∈ ofHole → ctype = .BH) := by
  by_cases h : 1 ≤ cmd ∧ cmd ≤ 42
  · obtain ⟨h1, h2⟩ := h
    have key : ∀ k : Fin 42, (∃ b, doc[(k : ℕ)]? = some b ∧
        physicsMain ctype (k + 1) = if (b ∈ ofStar → ctype = .NS) ∧ (b ∈ ofHole → ctype = .BH) then .ok b else .abort) := by
      intro k
      fin_cases k <;> refine ⟨_, rfl, ?_⟩ <;> cases ctype <;> rfl
    obtain ⟨b, hb, hk⟩ := key ⟨cmd - 1, by omega⟩
    have e : cmd - 1 + 1 = cmd := by omega
    simp only [e] at hk hb
    rw [hk, hb]
    constructor
    · intro h
      split_ifs at h with hc
      simp only [Res.ok.injEq] at h
      subst h
      exact ⟨h1, rfl, hc⟩
    · rintro ⟨-, h, hc⟩
      simp only [Option.some.injEq] at h
      subst h
      rw [if_pos hc]
  · have e : physicsMain ctype cmd = .abort := by
      unfold physicsMain
      split <;> first | rfl | (exfalso; omega)
    rw [e]
    refine ⟨by simp, ?_⟩
    rintro ⟨h1, h2, -⟩
    have : doc[cmd - 1]? = none := by
      rw [List.getElem?_eq_none_iff]; have : doc.length = 42 := rfl
      omega
    rw [this] at h2; simp at h2

/-- C101: otherwise the program stops with a message. -/
theorem C101_dispatch_stop (ctype : Obj) (cmd : ℕ) (h : ∀ a, physicsMain ctype cmd ≠ .ok a) : physicsMain ctype cmd = .abort := by
  by_cases hr : 1 ≤ cmd ∧ cmd ≤ 42
  · obtain ⟨h1, h2⟩ := hr
    by_contra hb
    revert hb h
    interval_cases cmd <;> cases ctype <;> intro h hb <;> first | exact h _ rfl | exact hb rfl
  · unfold physicsMain
    split <;> first | rfl | (exfalso; omega)

/-- C101: no two commands do the same, and everything that can be done has a command. -/
theorem C101_dispatch_once : (∀ c c' cmd cmd' a, physicsMain c cmd = .ok a → physicsMain c' cmd' = .ok a → cmd = cmd') ∧
    ∀ a, ∃ c cmd, physicsMain c cmd = .ok a := by
  constructor
  · intro c c' cmd cmd' a h h'
    obtain ⟨h1, h2, -⟩ := (C101_dispatch _ _ _).1 h
    obtain ⟨h1', h2', -⟩ := (C101_dispatch _ _ _).1 h'
    have hn : doc.Nodup := by decide
    have hl : cmd - 1 < doc.length := (List.getElem?_eq_some_iff.1 h2).1
    have := (List.getElem?_inj hl hn).1 (h2.trans h2'.symm)
    omega
  · intro a
    have hm : a ∈ doc := by cases a <;> decide
    obtain ⟨n, hn⟩ := List.getElem?_of_mem hm
    have hx : ∀ a : Act, a ∈ ofStar → a ∉ ofHole := by intro a; cases a <;> decide
    by_cases hs : a ∈ ofStar
    · exact ⟨.NS, n + 1, (C101_dispatch _ _ _).2 ⟨by omega, hn, fun _ => rfl, fun hb => absurd hb (hx a hs)⟩⟩
    · exact ⟨.BH, n + 1, (C101_dispatch _ _ _).2 ⟨by omega, hn, fun h => absurd h hs, fun _ => rfl⟩⟩

/-- the dispatch on cases: tuning of a star, for a star; the same for a hole; a hole's filler; nothing -/
example : physicsMain .NS STAR_TUNE_CENTER = .ok .tune_star_center ∧ physicsMain .BH STAR_TUNE_CENTER = .abort ∧
    physicsMain .BH BH_FILL = .ok .bh_fill_inside_black_hole ∧ physicsMain .NS 0 = .abort ∧ physicsMain .NS 43 = .abort := by
  decide

/-! ### making a physics -/

theorem system_iff (pr : Str) (o : Obj) (n : Str) :
    system pr = .ok (o, n) ↔ ∃ w, (w, o, n) ∈ projects ∧ List.map lower pr = List.map lower w := by
  have hc : ∀ a b : Str, strcmpI (some a) (some b) = true ↔ a.map lower = b.map lower := by intro a b; simp [strcmpI]
  unfold system projects
  simp only [hc, List.mem_cons, List.not_mem_nil, or_false, Prod.mk.injEq]
  have l1 : "BH_NS_binary_initial_data".toList.map lower = "bh_ns_binary_initial_data".toList := by decide +kernel
  have l2 : "NS_NS_binary_initial_data".toList.map lower = "ns_ns_binary_initial_data".toList := by decide +kernel
  have l3 : "BH_BH_binary_initial_data".toList.map lower = "bh_bh_binary_initial_data".toList := by decide +kernel
  have l4 : "Single_BH_initial_data".toList.map lower = "single_bh_initial_data".toList := by decide +kernel
  have l5 : "Single_NS_initial_data".toList.map lower = "single_ns_initial_data".toList := by decide +kernel
  have l6 : "Modules_Test".toList.map lower = "modules_test".toList := by decide +kernel
  have l7 : "TOV_Star".toList.map lower = "tov_star".toList := by decide +kernel
  rw [l1, l2, l3, l4, l5, l6, l7]
  generalize pr.map lower = x
  constructor
  · intro h
    split_ifs at h <;> simp only [Res.ok.injEq, Prod.mk.injEq, reduceCtorEq] at h <;> obtain ⟨rfl, rfl⟩ := h
    · exact ⟨_, Or.inl ⟨rfl, rfl, rfl⟩, by rwa [l1]⟩
    · exact ⟨_, Or.inr (Or.inl ⟨rfl, rfl, rfl⟩), by rwa [l2]⟩
    · exact ⟨_, Or.inr (Or.inr (Or.inl ⟨rfl, rfl, rfl⟩)), by rwa [l3]⟩
    · exact ⟨_, Or.inr (Or.inr (Or.inr (Or.inl ⟨rfl, rfl, rfl⟩))), by rwa [l4]⟩
    · exact ⟨_, Or.inr (Or.inr (Or.inr (Or.inr (Or.inl ⟨rfl, rfl, rfl⟩)))), by rwa [l5]⟩
    · exact ⟨_, Or.inr (Or.inr (Or.inr (Or.inr (Or.inr (Or.inl ⟨rfl, rfl, rfl⟩))))), by rwa [l6]⟩
    · exact ⟨_, Or.inr (Or.inr (Or.inr (Or.inr (Or.inr (Or.inr ⟨rfl, rfl, rfl⟩))))), by rwa [l7]⟩
  · rintro ⟨w, h, hx⟩
    rcases h with ⟨rfl, rfl, rfl⟩ | ⟨rfl, rfl, rfl⟩ | ⟨rfl, rfl, rfl⟩ | ⟨rfl, rfl, rfl⟩ | ⟨rfl, rfl, rfl⟩ | ⟨rfl, rfl, rfl⟩ | ⟨rfl, rfl, rfl⟩
    · rw [hx, l1]; decide +kernel
    · rw [hx, l2]; decide +kernel
    · rw [hx, l3]; decide +kernel
    · rw [hx, l4]; decide +kernel
    · rw [hx, l5]; decide +kernel
    · rw [hx, l6]; decide +kernel
    · rw [hx, l7]; decide +kernel

theorem says_nil (s : Str) (q : Pos) : ¬ Says s [] q := by intro h; cases h

theorem says_cons (s w : Str) (q : Pos) (l : List (Str × Pos)) (q' : Pos) :
    Says s ((w, q) :: l) q' ↔ (w <:+: s.map lower ∧ q' = q) ∨ (¬ w <:+: s.map lower ∧ Says s l q') := by
  constructor
  · intro h
    cases h with
    | here _ _ _ h => exact .inl ⟨h, rfl⟩
    | there _ _ _ _ h h' => exact .inr ⟨h, h'⟩
  · rintro (⟨h, rfl⟩ | ⟨h, h'⟩)
    · exact .here _ _ _ h
    · exact .there _ _ _ _ h h'

theorem strstr_word (s w : Str) (hw : w.map lower = w) : strstrI (some s) (some w) = true ↔ w <:+: s.map lower := by
  rw [strstrI, hw]; exact Props.TextSearch.occursIn_iff _ _

theorem pos3_iff (s : Str) (q : Pos) :
    pos3 s = .ok q ↔ Says s [("left".toList, .left), ("right".toList, .right), ("center".toList, .center)] q := by
  unfold pos3
  simp only [says_cons, says_nil, and_false, or_false, strstr_word s _ (by decide +kernel : "left".toList.map lower = _),
    strstr_word s _ (by decide +kernel : "right".toList.map lower = _), strstr_word s _ (by decide +kernel : "center".toList.map lower = _)]
  split_ifs <;> simp_all [eq_comm]

theorem pos2_iff (s : Str) (q : Pos) : pos2 s = .ok q ↔ Says s [("left".toList, .left), ("right".toList, .right)] q := by
  unfold pos2
  simp only [says_cons, says_nil, and_false, or_false, strstr_word s _ (by decide +kernel : "left".toList.map lower = _),
    strstr_word s _ (by decide +kernel : "right".toList.map lower = _)]
  split_ifs <;> simp_all [eq_comm]

theorem pos1_iff (s : Str) (q : Pos) : pos1 s = .ok q ↔ Says s [("center".toList, .center)] q := by
  unfold pos1
  simp only [says_cons, says_nil, and_false, or_false, strstr_word s _ (by decide +kernel : "center".toList.map lower = _)]
  split_ifs <;> simp_all [eq_comm]

theorem bind_eq_ok {α β : Type} (r : Res α) (f : α → Res β) (b : β) : r.bind f = .ok b ↔ ∃ a, r = .ok a ∧ f a = .ok b := by
  cases r <;> simp [Res.bind]

/-- the position of an object as the parameters say -/
def Placed (P : Str → Res Str) (t : Obj) (q : Pos) : Prop :=
  match setBy t with
  | none => q = .none
  | some (par, words) => ∃ s, P par = .ok s ∧ Says s words q

theorem kind_iff (P : Str → Res Str) (t c : Obj) (n : Str) (q : Pos) :
    kind P t = .ok (c, n, q) ↔ t ≠ .undef ∧ c = cls t ∧ n = name t ∧ Placed P t q := by
  unfold Placed
  cases t <;> simp only [kind, setBy, cls, name, bind_eq_ok, pos3_iff, pos2_iff, pos1_iff, Res.ok.injEq, Prod.mk.injEq, ne_eq,
    reduceCtorEq, not_false_eq_true, true_and, not_true, false_and]
  all_goals
    constructor
    · first
      | (rintro ⟨s, hs, q', hq, rfl, rfl, rfl⟩; exact ⟨rfl, rfl, s, hs, hq⟩)
      | (rintro ⟨rfl, rfl, rfl⟩; exact ⟨rfl, rfl, rfl⟩)
    · first
      | (rintro ⟨rfl, rfl, s, hs, hq⟩; exact ⟨s, hs, q, hq, rfl, rfl, rfl⟩)
      | (rintro ⟨rfl, rfl, rfl⟩; exact ⟨rfl, rfl, rfl⟩)

/-- C101: a physics is made exactly when the project is known, the type is one of the list and the parameters give the object a
position that it may have; it has the type that was asked for, its class and name, the system of the project, and the grid of the
physics it belongs to. -/
theorem C101_init {G : Type} (P : Str → Res Str) (parent : Option (Phys G)) (t : Obj) (p : Phys G) :
    init P parent t = .ok p ↔
      (∃ pr w, P "project".toList = .ok pr ∧ (w, p.sys, p.ssys) ∈ projects ∧ pr.map lower = w.map lower) ∧
      t ≠ .undef ∧ p.type = t ∧ p.ctype = cls t ∧ p.stype = name t ∧ Placed P t p.pos ∧
      (p.isParent = true ↔ parent = none) ∧ p.grid = parent.bind (·.grid) := by
  unfold init
  simp only [bind_eq_ok]
  constructor
  · rintro ⟨pr, hpr, ⟨o, n⟩, hs, ⟨c, m, q⟩, hk, h⟩
    simp only [Res.ok.injEq] at h
    subst h
    obtain ⟨w, hw, hl⟩ := (system_iff _ _ _).1 hs
    obtain ⟨h1, h2, h3, h4⟩ := (kind_iff _ _ _ _ _).1 hk
    exact ⟨⟨pr, w, hpr, hw, hl⟩, h1, rfl, h2, h3, h4, by simp, rfl⟩
  · rintro ⟨⟨pr, w, hpr, hw, hl⟩, h1, h2, h3, h4, h5, h6, h7⟩
    refine ⟨pr, hpr, (p.sys, p.ssys), (system_iff _ _ _).2 ⟨w, hw, hl⟩, (p.ctype, p.stype, p.pos), (kind_iff _ _ _ _ _).2 ⟨h1, h3, h4, h5⟩, ?_⟩
    obtain ⟨g, ip, ty, ct, st, sy, ss, po⟩ := p
    simp only at h2 h6 h7
    subst h2 h7
    simp only [Res.ok.injEq, Phys.mk.injEq, and_true, true_and]
    rw [Bool.eq_iff_iff, h6, Option.isNone_iff_eq_none]

/-- the first star of a binary of stars, on the left; `C101_init` -/
example : ∃ p : Phys ℕ, init (fun n => if n = "project".toList then .ok "NS_NS_binary_initial_data".toList else .ok "Left".toList) none .NS1 = .ok p ∧
    p.pos = .left ∧ p.sys = .NSNS ∧ p.ctype = .NS := ⟨_, rfl, by decide +kernel, by decide +kernel, by decide +kernel⟩

/-! ### regions -/

theorem occurs_infix (t s : Str) : Finder.occurs t s = true ↔ t <:+: s := by
  rw [Finder.occurs_iff]
  constructor
  · rintro ⟨a, b, rfl⟩; exact ⟨a, b, rfl⟩
  · rintro ⟨a, b, rfl⟩; exact ⟨a, b, rfl⟩

/-- no "NS" and no "BH" begins in a text without the letters N and B -/
theorem findNsBh_skip (u s : Str) (hN : 'N' ∉ u) (hB : 'B' ∉ u) : findNsBh (u ++ s) = (findNsBh s).map fun m => (m.1 + u.length, m.2) := by
  induction u with
  | nil => simp
  | cons c u ih =>
    simp only [List.mem_cons, not_or] at hN hB
    rw [List.cons_append, findNsBh, if_neg]
    · rw [ih hN.2 hB.2, Option.map_map, List.length_cons]; congr 1
    · simp [List.isPrefixOf, hN.1, hB.1]

theorem findNsBh_here (K s : Str) (hK : K = "NS".toList ∨ K = "BH".toList) : findNsBh (K ++ s) = some (0, 2) := by
  rcases hK with rfl | rfl <;> simp [findNsBh, List.isPrefixOf]

theorem findNsBh_none (u : Str) (hN : 'N' ∉ u) (hB : 'B' ∉ u) : findNsBh u = none := by
  have := findNsBh_skip u [] hN hB
  simpa [findNsBh] using this

theorem items_one (n e : Str) : items n [e] = n ++ e := rfl
theorem items_two (n e e' : Str) (es : List Str) : items n (e :: e' :: es) = n ++ e ++ ',' :: items n (e' :: es) := rfl

/-- one round after the other, the items get the new name -/
theorem replaceLoop_items (K r : Str) (hK : K = "NS".toList ∨ K = "BH".toList) : ∀ (es : List Str) (u : Str) (fuel : ℕ),
    es ≠ [] → (∀ e ∈ es, Plain e) → 'N' ∉ u → 'B' ∉ u → (u ++ items K es).length < fuel →
    replaceLoop findNsBh r fuel (u ++ items K es) (u.length, 2) = u ++ items r es := by
  have hl : K.length = 2 := by rcases hK with rfl | rfl <;> rfl
  intro es
  induction es with
  | nil => intro u fuel h; exact absurd rfl h
  | cons e es ih =>
    intro u fuel _ hp hN hB hf
    obtain ⟨fuel, rfl⟩ : ∃ n, fuel = n + 1 := ⟨fuel - 1, by omega⟩
    obtain ⟨h1, h2, -⟩ := hp e (by simp)
    cases es with
    | nil =>
      rw [items_one, items_one, replaceLoop]
      have hd : (u ++ (K ++ e)).drop (u.length + 2) = e := by
        rw [← List.append_assoc]; exact List.drop_left' (by simp [hl])
      simp only [hd, List.take_left]
      rw [findNsBh_none e h1 h2]
      simp
    | cons e' es =>
      rw [items_two, items_two, replaceLoop]
      have hd : (u ++ (K ++ e ++ ',' :: items K (e' :: es))).drop (u.length + 2) = (e ++ [',']) ++ items K (e' :: es) := by
        rw [List.append_assoc K, ← List.append_assoc u, List.drop_left' (by simp [hl])]; simp
      simp only [hd, List.take_left]
      have hN' : 'N' ∉ e ++ [','] := by simp [h1]
      have hB' : 'B' ∉ e ++ [','] := by simp [h2]
      have hi : findNsBh (e ++ [','] ++ items K (e' :: es)) = some ((e ++ [',']).length, 2) := by
        rw [findNsBh_skip _ _ hN' hB']
        have : ∃ t, items K (e' :: es) = K ++ t := by
          cases es with
          | nil => exact ⟨_, rfl⟩
          | cons e'' es => exact ⟨_, by rw [items_two, List.append_assoc]⟩
        obtain ⟨t, ht⟩ := this
        rw [ht, findNsBh_here K t hK]; simp
      rw [hi]
      simp only [OfNat.ofNat_ne_zero, if_false]
      rw [ih (e ++ [',']) fuel (by simp) (fun x hx => hp x (by simp [List.mem_cons] at hx ⊢; tauto)) hN' hB' (by
        rw [items_two] at hf
        simp only [List.length_append, List.length_cons, hl, List.length_nil] at hf ⊢
        omega)]
      simp

theorem items_prefix (K : Str) (es : List Str) (h : es ≠ []) : ∃ t, items K es = K ++ t := by
  match es with
  | [] => exact absurd rfl h
  | [e] => exact ⟨e, rfl⟩
  | e :: e' :: es => exact ⟨_, by rw [items_two, List.append_assoc]⟩

theorem mem_items (K : Str) (c : Char) : ∀ es : List Str, c ∈ items K es → c ∈ K ∨ c = ',' ∨ ∃ e ∈ es, c ∈ e := by
  intro es
  induction es with
  | nil => simp [items]
  | cons e es ih =>
    cases es with
    | nil => simp [items]; tauto
    | cons e' es =>
      rw [items_two]
      simp only [List.mem_append, List.mem_cons] at ih ⊢
      rintro ((h | h) | h | h)
      · exact .inl h
      · exact .inr (.inr ⟨e, .inl rfl, h⟩)
      · exact .inr (.inl h)
      · rcases ih h with h | h | ⟨x, hx, h⟩
        · exact .inl h
        · exact .inr (.inl h)
        · exact .inr (.inr ⟨x, .inr hx, h⟩)

/-- the physics of an object with an index -/
def Indexed {G : Type} (p : Phys G) : Prop :=
  (p.type = .NS1 ∨ p.type = .NS2 ∨ p.type = .BH1 ∨ p.type = .BH2) ∧ p.ctype = cls p.type ∧ p.stype = name p.type

/-- the physics of one star or one black hole -/
def OneObject {G : Type} (p : Phys G) : Prop := p.type = .NS ∨ p.type = .BH ∨ Indexed p

theorem not_mem_items (K : Str) (es : List Str) (c : Char) (hK : c ∉ K) (hc : c ≠ ',') (he : ∀ e ∈ es, c ∉ e) : c ∉ items K es := by
  intro h
  rcases mem_items K c es h with h | h | ⟨e, h1, h2⟩
  · exact hK h
  · exact hc h
  · exact he e h1 h2

theorem occurs_false_of_not_mem (t s : Str) (c : Char) (ht : c ∈ t) (hs : c ∉ s) : Finder.occurs t s = false := by
  by_contra h
  rw [Bool.not_eq_false, occurs_infix] at h
  exact hs (h.subset ht)

theorem occurs_true (t s : Str) (h : t <:+: s) : Finder.occurs t s = true := (occurs_infix _ _).2 h

theorem plain_not {es : List Str} (hp : ∀ e ∈ es, Plain e) :
    (∀ e ∈ es, 'N' ∉ e) ∧ (∀ e ∈ es, 'B' ∉ e) ∧ (∀ e ∈ es, '1' ∉ e) ∧ (∀ e ∈ es, '2' ∉ e) :=
  ⟨fun e h => (hp e h).1, fun e h => (hp e h).2.1, fun e h => (hp e h).2.2.1, fun e h => (hp e h).2.2.2.1⟩

/-- the tests on a text that speaks of only one of "NS" and "BH" with at most one index -/
theorem autoindex_one {G : Type} (kindOf : G → GridKind) (p : Phys G) (s : Str) (h0 : s ≠ ".*".toList)
    (h1 : Finder.occurs "NS".toList s = true ∨ Finder.occurs "BH".toList s = true)
    (h2 : Finder.occurs "NS".toList s = false ∨ Finder.occurs "BH".toList s = false)
    (h3 : '1' ∉ s ∨ '2' ∉ s) :
    autoindex kindOf p s = if p.type = .NS ∨ p.type = .BH ∨ '1' ∈ s ∨ '2' ∈ s then .ok s
      else if p.ctype = .NS ∨ p.ctype = .BH then .ok (regexReplace findNsBh s p.stype).2 else .abort := by
  have a1 : Finder.occurs "BH1".toList s = false ∨ Finder.occurs "BH2".toList s = false := by
    rcases h3 with h | h
    · exact .inl (occurs_false_of_not_mem _ _ '1' (by decide) h)
    · exact .inr (occurs_false_of_not_mem _ _ '2' (by decide) h)
  have a2 : Finder.occurs "NS1".toList s = false ∨ Finder.occurs "NS2".toList s = false := by
    rcases h3 with h | h
    · exact .inl (occurs_false_of_not_mem _ _ '1' (by decide) h)
    · exact .inr (occurs_false_of_not_mem _ _ '2' (by decide) h)
  unfold autoindex
  rw [if_neg h0, if_neg (by rcases h1 with h | h <;> simp only [h] <;> simp),
    if_neg (by rcases h2 with h | h <;> simp only [h] <;> simp),
    if_neg (by rcases a1 with h | h <;> simp only [h] <;> simp),
    if_neg (by rcases a2 with h | h <;> simp only [h] <;> simp)]

/-- C101: asked for regions of "NS" or "BH", the physics of one object understands its own regions: each item gets the name of
the object, with its index. -/
theorem C101_region {G : Type} (kindOf : G → GridKind) (p : Phys G) (hp : OneObject p) (K : Str) (hK : K = "NS".toList ∨ K = "BH".toList)
    (es : List Str) (hes : es ≠ []) (hpl : ∀ e ∈ es, Plain e) :
    autoindex kindOf p (items K es) = .ok (items (ownName p K) es) := by
  obtain ⟨pN, pB, p1, p2⟩ := plain_not hpl
  obtain ⟨t, ht⟩ := items_prefix K es hes
  have hpre : K <:+: items K es := ⟨[], t, by rw [ht]; rfl⟩
  have n1 : '1' ∉ items K es := not_mem_items K es _ (by rcases hK with rfl | rfl <;> decide) (by decide) p1
  have n2 : '2' ∉ items K es := not_mem_items K es _ (by rcases hK with rfl | rfl <;> decide) (by decide) p2
  rw [autoindex_one kindOf p _ (by rcases hK with rfl | rfl <;> rw [ht] <;> simp)
    (by rcases hK with rfl | rfl
        · exact .inl (occurs_true _ _ hpre)
        · exact .inr (occurs_true _ _ hpre))
    (by rcases hK with rfl | rfl
        · exact .inr (occurs_false_of_not_mem _ _ 'B' (by decide) (not_mem_items _ es _ (by decide) (by decide) pB))
        · exact .inl (occurs_false_of_not_mem _ _ 'N' (by decide) (not_mem_items _ es _ (by decide) (by decide) pN)))
    (.inl n1)]
  unfold ownName
  by_cases hu : p.type = .NS ∨ p.type = .BH
  · rw [if_pos (by tauto), if_pos hu]
  · rw [if_neg (by tauto), if_neg hu]
    have hc : p.ctype = .NS ∨ p.ctype = .BH := by
      rcases hp with h | h | ⟨h, h', -⟩
      · exact absurd (.inl h) hu
      · exact absurd (.inr h) hu
      · rcases h with h | h | h | h <;> rw [h', h] <;> simp [cls]
    rw [if_pos hc]
    unfold regexReplace
    rw [show findNsBh (items K es) = some (0, 2) by rw [ht]; exact findNsBh_here K t hK]
    have := replaceLoop_items K p.stype hK es [] ((items K es).length + 1) hes hpl (by simp) (by simp) (by simp)
    simp only [List.nil_append, List.length_nil] at this
    simp only [this]

/-- C101: what has been understood once is not changed when it is asked for again. -/
theorem C101_region_again {G : Type} (kindOf : G → GridKind) (p : Phys G) (hp : OneObject p) (K : Str)
    (hK : K = "NS".toList ∨ K = "BH".toList) (es : List Str) (hes : es ≠ []) (hpl : ∀ e ∈ es, Plain e) (s : Str)
    (h : autoindex kindOf p (items K es) = .ok s) : autoindex kindOf p s = .ok s := by
  have h' := C101_region kindOf p hp K hK es hes hpl
  rw [h] at h'
  simp only [Res.ok.injEq] at h'
  subst h'
  by_cases hu : p.type = .NS ∨ p.type = .BH
  · have e : ownName p K = K := by unfold ownName; rw [if_pos hu]
    rw [e] at h ⊢; exact h
  · have e : ownName p K = p.stype := by unfold ownName; rw [if_neg hu]
    rw [e]
    obtain ⟨pN, pB, p1, p2⟩ := plain_not hpl
    obtain ⟨t, ht⟩ := items_prefix p.stype es hes
    have hi : Indexed p := by
      rcases hp with h | h | h
      · exact absurd (.inl h) hu
      · exact absurd (.inr h) hu
      · exact h
    obtain ⟨hty, -, hst⟩ := hi
    have hpre : p.stype <:+: items p.stype es := ⟨[], t, by rw [ht]; rfl⟩
    rcases hty with hty | hty | hty | hty <;> rw [hty] at hst <;> rw [hst] at hpre ⊢ <;> simp only [name] at hpre ⊢
    · rw [autoindex_one kindOf p _ (by rw [← show name Obj.NS1 = "NS1".toList from rfl, ← hst, ht, hst]; simp [name])
        (.inl (occurs_true _ _ ((by decide : "NS".toList <:+: "NS1".toList).trans hpre)))
        (.inr (occurs_false_of_not_mem _ _ 'B' (by decide) (not_mem_items _ es _ (by decide) (by decide) pB)))
        (.inr (not_mem_items _ es _ (by decide) (by decide) p2)), if_pos (.inr (.inr (.inl (hpre.subset (by decide)))))]
    · rw [autoindex_one kindOf p _ (by rw [← show name Obj.NS2 = "NS2".toList from rfl, ← hst, ht, hst]; simp [name])
        (.inl (occurs_true _ _ ((by decide : "NS".toList <:+: "NS2".toList).trans hpre)))
        (.inr (occurs_false_of_not_mem _ _ 'B' (by decide) (not_mem_items _ es _ (by decide) (by decide) pB)))
        (.inl (not_mem_items _ es _ (by decide) (by decide) p1)), if_pos (.inr (.inr (.inr (hpre.subset (by decide)))))]
    · rw [autoindex_one kindOf p _ (by rw [← show name Obj.BH1 = "BH1".toList from rfl, ← hst, ht, hst]; simp [name])
        (.inr (occurs_true _ _ ((by decide : "BH".toList <:+: "BH1".toList).trans hpre)))
        (.inl (occurs_false_of_not_mem _ _ 'N' (by decide) (not_mem_items _ es _ (by decide) (by decide) pN)))
        (.inr (not_mem_items _ es _ (by decide) (by decide) p2)), if_pos (.inr (.inr (.inl (hpre.subset (by decide)))))]
    · rw [autoindex_one kindOf p _ (by rw [← show name Obj.BH2 = "BH2".toList from rfl, ← hst, ht, hst]; simp [name])
        (.inr (occurs_true _ _ ((by decide : "BH".toList <:+: "BH2".toList).trans hpre)))
        (.inl (occurs_false_of_not_mem _ _ 'N' (by decide) (not_mem_items _ es _ (by decide) (by decide) pN)))
        (.inl (not_mem_items _ es _ (by decide) (by decide) p1)), if_pos (.inr (.inr (.inr (hpre.subset (by decide)))))]

/-- the items as the collector of patches reads them -/
theorem splits_items (n : Str) (hn : n ≠ []) (hc : ',' ∉ n) : ∀ es : List Str, (∀ e ∈ es, ',' ∉ e) →
    TextSpec.Splits ',' (items n es) (es.map (n ++ ·)) := by
  intro es
  induction es with
  | nil => intro _; exact .nil
  | cons e es ih =>
    intro he
    have h1 : ',' ∉ n ++ e := by simp [hc, he e (by simp)]
    cases es with
    | nil => exact .last (n ++ e) (by simp [hn]) h1
    | cons e' es =>
      rw [items_two]
      obtain ⟨t, ht⟩ := items_prefix n (e' :: es) (by simp)
      have := TextSpec.Splits.cons (d := ',') (n ++ e) 0 (items n (e' :: es)) _ (by simp [hn]) h1
        (by rw [ht]; cases n with
            | nil => exact absurd rfl hn
            | cons c n => simp only [List.cons_append, List.head?_cons, ne_eq, Option.some.injEq]; rintro rfl; simp at hc)
        (ih (fun x hx => he x (by simp [List.mem_cons] at hx ⊢; tauto)))
      simpa using this

open Classical in
/-- C101: the small grid of a region holds exactly the patches of the grid that belong to the object's own regions, in the order
of the grid; the program stops iff there is none. -/
theorem C101_mygrid {G : Type} (kindOf : G → GridKind) (patches : G → List Finder.PatchR) (p : Phys G) (g : G) (hg : p.grid = some g)
    (hp : OneObject p) (K : Str) (hK : K = "NS".toList ∨ K = "BH".toList) (es : List Str) (hes : es ≠ []) (hpl : ∀ e ∈ es, Plain e)
    (hsp : ∀ e ∈ es, ∃ a b, Finder.dictionary = a ++ ('(' :: (ownName p K ++ e) ++ [')']) ++ b)
    (hpre : ∀ e ∈ es, ¬ ∃ a b, ownName p K ++ e = a ++ Finder.namePrefix ++ b) :
    let want := (patches g).filter fun q => decide (∃ e ∈ es, ∃ a b, q.region = a ++ ('(' :: (ownName p K ++ e) ++ [')']) ++ b)
    (want ≠ [] → mygrid kindOf patches p (items K es) = .ok want) ∧ (want = [] → mygrid kindOf patches p (items K es) = .abort) := by
  intro want
  have hn : ownName p K ≠ [] ∧ ',' ∉ ownName p K ∧ ownName p K ≠ ".*".toList ∧ '.' ∉ ownName p K := by
    unfold ownName
    by_cases hu : p.type = .NS ∨ p.type = .BH
    · rw [if_pos hu]; rcases hK with rfl | rfl <;> decide
    · rw [if_neg hu]
      rcases hp with h | h | ⟨h, -, h'⟩
      · exact absurd (.inl h) hu
      · exact absurd (.inr h) hu
      · rw [h']; rcases h with h | h | h | h <;> rw [h] <;> decide
  have hr : readItems ',' (items (ownName p K) es) = es.map (ownName p K ++ ·) :=
    Props.Text.C09_items_partial ',' _ _ (splits_items _ hn.1 hn.2.1 es (fun e he => (hpl e he).2.2.2.2))
  have hne : items (ownName p K) es ≠ ".*".toList := by
    obtain ⟨t, ht⟩ := items_prefix (ownName p K) es hes
    intro h
    rw [ht] at h
    obtain ⟨h1, -, -, h4⟩ := hn
    cases hx : ownName p K with
    | nil => exact h1 hx
    | cons c n =>
      rw [hx] at h h4
      have h : c :: (n ++ t) = '.' :: "*".toList := h
      obtain ⟨rfl, -⟩ := List.cons.inj h
      simp at h4
  have key : mygrid kindOf patches p (items K es) =
      Finder.collect Finder.namePrefix Finder.dictionary (some (es.map (ownName p K ++ ·))) (patches g) := by
    rw [mygrid, C101_region kindOf p hp K hK es hes hpl, Res.bind_ok, hg]
    simp only
    rw [if_neg hne, hr]
  rw [key]
  have := Finder.C37_collect_partial Finder.namePrefix Finder.dictionary (es.map (ownName p K ++ ·)) (patches g) (by
    intro r hr
    obtain ⟨e, he, rfl⟩ := List.mem_map.1 hr
    exact .inr (hsp e he))
  have hw : (patches g).filter (fun q => decide (∃ r ∈ es.map (ownName p K ++ ·), Finder.Covers Finder.namePrefix q r)) = want := by
    apply List.filter_congr
    intro q _
    rw [decide_eq_decide]
    constructor
    · rintro ⟨r, hr, hc⟩
      obtain ⟨e, he, rfl⟩ := List.mem_map.1 hr
      rcases hc with ⟨hc, -⟩ | ⟨-, hc⟩
      · exact absurd hc (hpre e he)
      · exact ⟨e, he, hc⟩
    · rintro ⟨e, he, hc⟩
      exact ⟨_, List.mem_map.2 ⟨e, he, rfl⟩, .inr ⟨hpre e he, hc⟩⟩
  simp only at this
  rw [hw] at this
  exact this

/-- C101: the region ".*" is the whole grid. -/
theorem C101_mygrid_all {G : Type} (kindOf : G → GridKind) (patches : G → List Finder.PatchR) (p : Phys G) (g : G) (hg : p.grid = some g)
    (h : patches g ≠ []) : mygrid kindOf patches p ".*".toList = .ok (patches g) := by
  rw [mygrid, autoindex, if_pos rfl, Res.bind_ok, hg]
  simp only [if_true]
  exact Finder.C37_all _ _ _ h

/-- C101: a region that names no object, and a region that bears an index, is left as it is, whatever the physics. -/
theorem C101_region_kept {G : Type} (kindOf : G → GridKind) (p : Phys G) (s : Str) :
    (¬ "NS".toList <:+: s → ¬ "BH".toList <:+: s → autoindex kindOf p s = .ok s) ∧
    (¬ ("NS".toList <:+: s ∧ "BH".toList <:+: s) → '1' ∈ s ∧ '2' ∉ s ∨ '1' ∉ s ∧ '2' ∈ s → autoindex kindOf p s = .ok s) := by
  have hb : ∀ t : Str, ¬ t <:+: s → Finder.occurs t s = false := fun t h => by
    by_contra hh; rw [Bool.not_eq_false, occurs_infix] at hh; exact h hh
  have nobody : ¬ "NS".toList <:+: s → ¬ "BH".toList <:+: s → autoindex kindOf p s = .ok s := by
    intro h1 h2
    unfold autoindex
    by_cases h0 : s = ".*".toList
    · rw [if_pos h0, h0]
    · rw [if_neg h0, hb _ h1, hb _ h2]; rfl
  refine ⟨nobody, ?_⟩
  intro h1 h2
  by_cases hn : ¬ "NS".toList <:+: s ∧ ¬ "BH".toList <:+: s
  · exact nobody hn.1 hn.2
  · rw [autoindex_one kindOf p s (by rintro rfl; revert h2; decide)
      (by rw [occurs_infix, occurs_infix]; tauto)
      (by by_cases h : "NS".toList <:+: s
          · exact .inr (hb _ (fun h' => h1 ⟨h, h'⟩))
          · exact .inl (hb _ h))
      (by tauto), if_pos (by tauto)]

/-- C101: a region of both a star and a black hole is accepted, as it is, on the grid of a black hole and a star only. -/
theorem C101_region_both {G : Type} (kindOf : G → GridKind) (p : Phys G) (g : G) (hg : p.grid = some g) (s : Str)
    (h1 : "NS".toList <:+: s) (h2 : "BH".toList <:+: s) :
    autoindex kindOf p s = if kindOf g = .bhns then .ok s else .abort := by
  unfold autoindex
  rw [if_neg (by rintro rfl; revert h1; decide), occurs_true _ _ h1, occurs_true _ _ h2]
  simp [hg]

/-- C101: a region of both objects of a binary of the same kind is accepted, as it is, on the grid of such a binary only. -/
theorem C101_region_pair {G : Type} (kindOf : G → GridKind) (p : Phys G) (g : G) (hg : p.grid = some g) (s : Str) :
    ("NS1".toList <:+: s → "NS2".toList <:+: s → ¬ "BH".toList <:+: s →
      autoindex kindOf p s = if kindOf g = .nsns then .ok s else .abort) ∧
    ("BH1".toList <:+: s → "BH2".toList <:+: s → ¬ "NS".toList <:+: s →
      autoindex kindOf p s = if kindOf g = .bhbh then .ok s else .abort) := by
  have hb : ∀ t : Str, ¬ t <:+: s → Finder.occurs t s = false := fun t h => by
    by_contra hh; rw [Bool.not_eq_false, occurs_infix] at hh; exact h hh
  constructor
  · intro h1 h2 h3
    have h0 : "NS".toList <:+: s := (by decide : "NS".toList <:+: "NS1".toList).trans h1
    have h4 : ¬ "BH1".toList <:+: s := fun h => h3 ((by decide : "BH".toList <:+: "BH1".toList).trans h)
    unfold autoindex
    rw [if_neg (by rintro rfl; revert h1; decide), occurs_true _ _ h0, hb _ h3, hb _ h4, occurs_true _ _ h1, occurs_true _ _ h2]
    simp [hg]
  · intro h1 h2 h3
    have h0 : "BH".toList <:+: s := (by decide : "BH".toList <:+: "BH1".toList).trans h1
    unfold autoindex
    rw [if_neg (by rintro rfl; revert h1; decide), occurs_true _ _ h0, hb _ h3, occurs_true _ _ h1, occurs_true _ _ h2]
    simp [hg]

/-- `C101_region_pair`: the two stars of a binary of stars -/
example : autoindex id (⟨some .nsns, true, .NSNS, .NSNS, "NSNS".toList, .NSNS, "NSNS".toList, .none⟩ : Phys GridKind) "NS1,NS2".toList =
    .ok "NS1,NS2".toList := (C101_region_pair id _ .nsns rfl _).1 (by decide) (by decide) (by decide)

/-- C101: the physics of a system or of a single object as a system has no index to give: asked for a region of "NS" or "BH" alone it
stops the program. -/
theorem C101_region_system {G : Type} (kindOf : G → GridKind) (p : Phys G) (ht : p.type ≠ .NS ∧ p.type ≠ .BH)
    (hc : p.ctype ≠ .NS ∧ p.ctype ≠ .BH) (K : Str) (hK : K = "NS".toList ∨ K = "BH".toList)
    (es : List Str) (hes : es ≠ []) (hpl : ∀ e ∈ es, Plain e) : autoindex kindOf p (items K es) = .abort := by
  obtain ⟨pN, pB, p1, p2⟩ := plain_not hpl
  obtain ⟨t, h⟩ := items_prefix K es hes
  have hpre : K <:+: items K es := ⟨[], t, by rw [h]; rfl⟩
  have n1 : '1' ∉ items K es := not_mem_items K es _ (by rcases hK with rfl | rfl <;> decide) (by decide) p1
  have n2 : '2' ∉ items K es := not_mem_items K es _ (by rcases hK with rfl | rfl <;> decide) (by decide) p2
  rw [autoindex_one kindOf p _ (by rcases hK with rfl | rfl <;> rw [h] <;> simp)
    (by rcases hK with rfl | rfl
        · exact .inl (occurs_true _ _ hpre)
        · exact .inr (occurs_true _ _ hpre))
    (by rcases hK with rfl | rfl
        · exact .inr (occurs_false_of_not_mem _ _ 'B' (by decide) (not_mem_items _ es _ (by decide) (by decide) pB))
        · exact .inl (occurs_false_of_not_mem _ _ 'N' (by decide) (not_mem_items _ es _ (by decide) (by decide) pN)))
    (.inl n1), if_neg (by tauto), if_neg (by tauto)]

/-- C101: what `C101_region` and its companions ask of the physics of an object holds for what `init_physics` makes. -/
theorem C101_init_one {G : Type} (P : Str → Res Str) (parent : Option (Phys G)) (t : Obj) (p : Phys G) (h : init P parent t = .ok p)
    (ht : t ∈ [Obj.NS, .NS1, .NS2, .BH, .BH1, .BH2]) : OneObject p := by
  obtain ⟨-, -, h1, h2, h3, -⟩ := (C101_init P parent t p).1 h
  unfold OneObject Indexed
  rw [h1, h2, h3]
  simp only [List.mem_cons, List.not_mem_nil, or_false] at ht
  tauto

/-- C101: and what `C101_region_system` asks holds for the physics of systems. -/
theorem C101_init_system {G : Type} (P : Str → Res Str) (parent : Option (Phys G)) (t : Obj) (p : Phys G) (h : init P parent t = .ok p)
    (ht : t ∈ [Obj.BHNS, .BHBH, .NSNS, .SNS, .SBH]) : (p.type ≠ .NS ∧ p.type ≠ .BH) ∧ p.ctype ≠ .NS ∧ p.ctype ≠ .BH := by
  obtain ⟨-, -, h1, h2, -⟩ := (C101_init P parent t p).1 h
  rw [h1, h2]
  simp only [List.mem_cons, List.not_mem_nil, or_false] at ht
  rcases ht with rfl | rfl | rfl | rfl | rfl <;> decide

/-- C101, violation: the object that the region names is not compared with the object of the physics.  The physics of the second star
asked for the surroundings of a black hole answers with its own surroundings, without a message. -/
theorem C101_cross_violation (p : Phys GridKind) (h : Indexed p) (ht : p.type = .NS2) :
    autoindex id p "BH_around".toList = .ok "NS2_around".toList := by
  have := C101_region id p (.inr (.inr h)) "BH".toList (.inr rfl) ["_around".toList] (by simp) (by
    intro e he; rw [List.mem_singleton] at he; subst he; unfold Plain; decide)
  obtain ⟨-, -, h3⟩ := h
  have e : ownName p "BH".toList = "NS2".toList := by unfold ownName; rw [ht, h3, ht]; rfl
  rw [e] at this
  exact this

/-- the second star of a binary of stars, on the right, as `init_physics` makes it -/
def exPhys : Phys GridKind := ⟨some .nsns, false, .NS2, .NS, "NS2".toList, .NSNS, "NSNS".toList, .right⟩

/-- a grid with a patch of each star and one of the surroundings of the second -/
def exPatches : List Finder.PatchR :=
  [⟨"grid0_left_NS".toList, "(NS1)(NS1_OB)".toList⟩, ⟨"grid0_right_NS".toList, "(NS2)(NS2_OB)".toList⟩,
   ⟨"grid0_right_NS_around".toList, "(NS2_around)(NS2_around_IB)".toList⟩]

theorem exPhys_init : init (fun n => if n = "project".toList then .ok "ns_ns_Binary_initial_data".toList else .ok "right".toList)
    (some ⟨some .nsns, true, .NSNS, .NSNS, "NSNS".toList, .NSNS, "NSNS".toList, .none⟩) .NS2 = .ok exPhys := by decide +kernel

theorem exOwn : ownName exPhys "NS".toList = "NS2".toList := by decide +kernel

/-- `C101_mygrid`, `C101_region`, `C101_region_again` and `C101_cross_violation`: the region "NS,NS_around" -/
example : mygrid id (fun _ => exPatches) exPhys "NS,NS_around".toList = .ok exPatches.tail ∧
    autoindex id exPhys "NS,NS_around".toList = .ok "NS2,NS2_around".toList ∧
    autoindex id exPhys "NS2,NS2_around".toList = .ok "NS2,NS2_around".toList ∧
    autoindex id exPhys "BH_around".toList = .ok "NS2_around".toList := by
  have hone : OneObject exPhys := C101_init_one _ _ _ _ exPhys_init (by decide)
  have hpl : ∀ e ∈ [[], "_around".toList], Plain e := by
    intro e he; simp only [List.mem_cons, List.not_mem_nil, or_false] at he; rcases he with rfl | rfl <;> unfold Plain <;> decide
  have h1 := C101_region id exPhys hone "NS".toList (.inl rfl) [[], "_around".toList] (by simp) hpl
  rw [exOwn] at h1
  refine ⟨?_, h1, C101_region_again id exPhys hone "NS".toList (.inl rfl) [[], "_around".toList] (by simp) hpl _ h1,
    C101_cross_violation exPhys (by unfold Indexed; decide) rfl⟩
  have h2 := C101_mygrid id (fun _ => exPatches) exPhys .nsns rfl hone "NS".toList (.inl rfl) [[], "_around".toList] (by simp) hpl
    (by
      rw [exOwn]; intro e he; rw [← Finder.occurs_iff]
      simp only [List.mem_cons, List.not_mem_nil, or_false] at he; rcases he with rfl | rfl <;> decide +kernel)
    (by
      rw [exOwn]; intro e he; rw [← Finder.occurs_iff]
      simp only [List.mem_cons, List.not_mem_nil, or_false] at he; rcases he with rfl | rfl <;> decide +kernel)
  simp only at h2
  rw [exOwn] at h2
  have this : ∀ q : Finder.PatchR, (∃ e ∈ [[], "_around".toList], ∃ a b, q.region = a ++ ('(' :: ("NS2".toList ++ e) ++ [')']) ++ b) ↔
      (Finder.occurs "(NS2)".toList q.region || Finder.occurs "(NS2_around)".toList q.region) = true := by
    intro q
    rw [Bool.or_eq_true, Finder.occurs_iff, Finder.occurs_iff]
    simp only [List.mem_cons, List.not_mem_nil, or_false, exists_eq_or_imp, exists_eq_left]
    exact Iff.rfl
  simp only [this, Bool.decide_eq_true] at h2
  have hw : exPatches.filter (fun q => Finder.occurs "(NS2)".toList q.region || Finder.occurs "(NS2_around)".toList q.region) =
      exPatches.tail := by decide +kernel
  rw [hw] at h2
  exact h2.1 (by decide)

/-- `C101_region_both`, `C101_region_system`, `C101_region_kept`, `C101_mygrid_all` -/
example : autoindex id exPhys "NS,BH".toList = .abort ∧
    autoindex id { exPhys with grid := some .bhns } "NS,BH".toList = .ok "NS,BH".toList ∧
    autoindex id ⟨some .nsns, true, .NSNS, .NSNS, "NSNS".toList, .NSNS, "NSNS".toList, .none⟩ "NS".toList = .abort ∧
    autoindex id exPhys "NS1_around".toList = .ok "NS1_around".toList ∧ autoindex id exPhys "outermost".toList = .ok "outermost".toList ∧
    mygrid id (fun _ => exPatches) exPhys ".*".toList = .ok exPatches := by
  refine ⟨(C101_region_both id exPhys .nsns rfl _ (by decide) (by decide)).trans (by decide),
    (C101_region_both id _ .bhns rfl _ (by decide) (by decide)).trans (by decide),
    C101_region_system id _ (by decide) (by decide) "NS".toList (.inl rfl) [[]] (by simp) (by
      intro e he; rw [List.mem_singleton] at he; subst he; unfold Plain; decide),
    (C101_region_kept id exPhys _).2 (by decide) (by decide), (C101_region_kept id exPhys _).1 (by decide) (by decide),
    C101_mygrid_all id _ exPhys .nsns rfl (by decide)⟩

end Elliptica.Physics
