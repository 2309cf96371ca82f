import Verif.Model.Tune
import Verif.Spec.Tune
import Verif.Props.Tol
import Mathlib.Tactic.Ring
import Mathlib.Tactic.Linarith
import Mathlib.Tactic.FieldSimp
import Mathlib.Tactic.NormNum
import Mathlib.Analysis.SpecificLimits.Basic
/-!
C97: tuning of the orbit and of the star.
-/
namespace Elliptica.Tune
open Text TuneSpec

/-! ### the text -/

theorem tok_cut (d : Char) (x rest : Str) (hx : d ∉ x) (h0 : x ≠ []) :
    tokS d (x ++ d :: rest) = some ⟨x, some (rest.dropWhile (· = d)), false⟩ := by
  obtain ⟨c, r, rfl⟩ := List.exists_cons_of_ne_nil h0
  have hc : c ≠ d := fun h => hx (by simp [h])
  have hr : d ∉ r := fun h => hx (by simp [h])
  have h1 : ∀ a ∈ c :: r, (a ≠ d) := fun a ha h => hx (h ▸ ha)
  have e1 : (c :: (r ++ d :: rest)).takeWhile (fun a => decide (a ≠ d)) = c :: r := by
    rw [← List.cons_append, List.takeWhile_append_of_pos (by simpa using h1)]; simp
  have e2 : (c :: (r ++ d :: rest)).dropWhile (fun a => decide (a ≠ d)) = d :: rest := by
    rw [← List.cons_append, List.dropWhile_append_of_pos (by simpa using h1)]; simp
  simp only [List.cons_append, tokS, if_neg hc]
  rw [if_pos (by simp), e1, e2]
  simp

theorem tok_last (d : Char) (x : Str) (hx : d ∉ x) (h0 : x ≠ []) : tokS d x = some ⟨x, none, false⟩ := by
  obtain ⟨c, r, rfl⟩ := List.exists_cons_of_ne_nil h0
  have hc : c ≠ d := fun h => hx (by simp [h])
  simp only [tokS, if_neg hc]
  rw [if_neg hx]

theorem drop_head (d : Char) (x : Str) (h : x.head? ≠ some d) : x.dropWhile (fun a => decide (a = d)) = x := by
  cases x with
  | nil => rfl
  | cons a l =>
    have : a ≠ d := fun e => h (by simp [e])
    simp [this]

theorem head_commas (d : Char) (names : List Str) (h : ∀ n ∈ names, n ≠ [] ∧ d ∉ n) : (commas names).head? ≠ some d := by
  cases names with
  | nil => simp [commas]
  | cons a l =>
    obtain ⟨h1, h2⟩ := h a (by simp)
    obtain ⟨c, r, rfl⟩ := List.exists_cons_of_ne_nil h1
    have : c ≠ d := fun e => h2 (by simp [e])
    cases l <;> simpa [commas] using this

theorem mem_commas (d : Char) (hd : d ≠ ',') (names : List Str) (h : ∀ n ∈ names, d ∉ n) : d ∉ commas names := by
  induction names with
  | nil => simp [commas]
  | cons a l ih =>
    cases l with
    | nil => simpa [commas] using h a (by simp)
    | cons b l =>
      have h1 := h a (by simp)
      have h2 := ih fun n hn => h n (by simp [hn])
      simp only [commas, List.mem_append, List.mem_cons, not_or]
      exact ⟨h1, hd, h2⟩

/-- what is left to read: nothing, or the names -/
def rest : List Str → Option Str
  | [] => none
  | l => some (commas l)

theorem tokNext_names (names : List Str) (h : ∀ n ∈ names, Plain n) : tokNext (rest names) = (names.head?, rest names.tail) := by
  cases names with
  | nil => rfl
  | cons a l =>
    have ha := h a (by simp)
    cases l with
    | nil => simp [rest, tokNext, commas, tok_last ',' a ha.comma ha.ne]
    | cons b l =>
      have hb : (commas (b :: l)).head? ≠ some ',' := head_commas ',' _ fun n hn => ⟨(h n (by simp [hn])).ne, (h n (by simp [hn])).comma⟩
      simp only [rest, tokNext, commas]
      rw [tok_cut ',' a _ ha.comma ha.ne, drop_head _ _ hb]
      rfl

theorem occursIn_prefix (b c : Str) : occursIn b (b ++ c) = true := by
  cases h : b ++ c with
  | nil => simp only [occursIn]; have : b = [] := (List.append_eq_nil_iff.1 h).1; simp [this]
  | cons x r =>
    simp only [occursIn, Bool.or_eq_true]
    left
    rw [← h]
    simp

theorem strstr_prefix (a b : Str) : strstrI (some (a ++ b)) (some a) = true := by
  simp only [strstrI, List.map_append]
  exact occursIn_prefix _ _

theorem cmp_length (a b : Str) (h : a.length ≠ b.length) : strcmpI (some a) (some b) = false := by
  simp only [strcmpI, decide_eq_false_iff_not]
  intro h2
  exact h (by simpa using congrArg List.length h2)

/-- **C97 (text).** adjust(a,b,c) with names without separators means the first three names, in order -/
theorem C97_parse (names : List Str) (h0 : names ≠ []) (h : ∀ n ∈ names, Plain n) :
    parse (adjustText names) = .ok (names[0]?, names[1]?, names[2]?) := by
  have hs : strstrI (some (adjustText names)) (some "adjust(".toList) = true := strstr_prefix _ _
  have hn : strcmpI (some (adjustText names)) (some "none".toList) = false := cmp_length _ _ (by
    unfold adjustText
    rw [List.length_append, List.length_append]
    have : "adjust(".toList.length = 7 := by decide
    have h4 : "none".toList.length = 4 := by decide
    omega)
  have c1 : '(' ∉ commas names := mem_commas _ (by decide) names fun n hn => (h n hn).left
  have c2 : ')' ∉ commas names := mem_commas _ (by decide) names fun n hn => (h n hn).right
  have e1 : tokS ')' (adjustText names) = some ⟨"adjust(".toList ++ commas names, some [], false⟩ := by
    have := tok_cut ')' ("adjust(".toList ++ commas names) [] (by
      simp only [List.mem_append, not_or]; exact ⟨by decide, c2⟩) (by simp)
    rw [List.append_assoc] at this
    exact this
  have e2 : tokS '(' ("adjust(".toList ++ commas names) = some ⟨"adjust".toList, some (commas names), false⟩ := by
    have := tok_cut '(' "adjust".toList (commas names) (by decide) (by decide)
    rw [drop_head _ _ (head_commas '(' names fun n hn => ⟨(h n hn).ne, (h n hn).left⟩)] at this
    exact this
  have e3 : subS '(' ')' (adjustText names) = some (commas names) := by unfold subS; rw [e1]; dsimp only; rw [e2]
  obtain ⟨a, l, rfl⟩ := List.exists_cons_of_ne_nil h0
  have k := tokNext_names (a :: l) h
  have k2 := tokNext_names l fun n hn => h n (by simp [hn])
  have k3 := tokNext_names l.tail fun n hn => h n (by simp [List.mem_of_mem_tail hn])
  have first : tokFirst (some (commas (a :: l))) (some []) = (some a, rest l) := by
    have k' : tokNext (some (commas (a :: l))) = (some a, rest l) := k
    unfold tokNext at k'
    unfold tokFirst
    dsimp only at k' ⊢
    cases ht : tokS ',' (commas (a :: l)) with
    | none => rw [ht] at k'; simp at k'
    | some u => rw [ht] at k'; simpa using k'
  unfold parse
  rw [if_neg (by rw [hs]; simp), hn, e1, e3]
  simp only [Bool.false_eq_true, if_false, first, k2, k3]
  congr 1
  rcases l with _ | ⟨b, _ | ⟨c, l⟩⟩ <;> rfl

/-- a fourth name is dropped without a word -/
theorem C97_fourth_violation (a b c d : Str) (ha : Plain a) (hb : Plain b) (hc : Plain c) (hd : Plain d) :
    parse (adjustText [a, b, c, d]) = parse (adjustText [a, b, c]) := by
  rw [C97_parse _ (by simp) (by simp [ha, hb, hc, hd]), C97_parse _ (by simp) (by simp [ha, hb, hc])]
  rfl

/-- an empty first place makes the only name count twice -/
theorem C97_empty_violation : parse "adjust(,x_CM)".toList = .ok (some "x_CM".toList, some "x_CM".toList, none) := by decide +kernel

/-- a text without adjust( and none stops the run; none means nothing -/
theorem C97_text (par : Str) :
    (¬ strstrI (some par) (some "adjust(".toList) → ¬ strstrI (some par) (some "none".toList) → parse par = .abort) ∧
    (strcmpI (some par) (some "none".toList) → parse par = .ok (none, none, none)) := by
  constructor
  · intro h1 h2; unfold parse; rw [if_pos ⟨h1, h2⟩]
  · intro h
    unfold parse
    rw [if_neg, if_pos h]
    rintro ⟨-, h2⟩
    apply h2
    have : par.map lower = "none".toList.map lower := by simpa [strcmpI] using h
    simp only [strstrI, this]
    decide

/-! ### the options -/

theorem look_found {A : Type} (table : List (Str × A)) (s : Str) (a : A) (h : look table (some s) = .ok (some a)) :
    ∃ p ∈ table, p.2 = a ∧ strcmpI (some s) (some p.1) = true := by
  unfold look at h
  dsimp only at h
  by_cases hn : strcmpI (some s) (some "none".toList) = true
  · rw [if_pos hn] at h; cases h
  · rw [if_neg hn] at h
    cases hp : table.find? (fun p => strcmpI (some s) (some p.1)) with
    | none => rw [hp] at h; cases h
    | some p =>
      rw [hp] at h
      cases h
      exact ⟨p, List.mem_of_find?_eq_some hp, rfl, by simpa using List.find?_some hp⟩

theorem cmp_congr (s t u : Str) (h : strcmpI (some s) (some t) = true) : strcmpI (some s) (some u) = strcmpI (some t) (some u) := by
  have : s.map lower = t.map lower := by simpa [strcmpI] using h
  simp only [strcmpI, this]

theorem look_congr {A : Type} (table : List (Str × A)) (s t : Str) (h : strcmpI (some s) (some t) = true) :
    look table (some s) = look table (some t) := by
  unfold look
  simp only [cmp_congr s t _ h]

/-- **C97 (options).** the text d/d<direction>:<parameter>, in any letter case, stands for that parameter and direction, and
nothing else does; a text that is neither this nor none stops the run -/
theorem C97_options (s : Str) (a : Par × Dir) :
    (Allowed a → strcmpI (some s) (some (optionName a)) = true → look balanceTable (some s) = .ok (some a)) ∧
    (look balanceTable (some s) = .ok (some a) → Allowed a ∧ strcmpI (some s) (some (optionName a)) = true) ∧
    ((∀ b, Allowed b → strcmpI (some s) (some (optionName b)) = false) → strcmpI (some s) (some "none".toList) = false →
      look balanceTable (some s) = .abort) := by
  have back : ∀ p ∈ balanceTable, Allowed p.2 ∧ p.1 = optionName p.2 := by
    intro p hp
    simp only [balanceTable, List.mem_cons, List.not_mem_nil, or_false] at hp
    rcases hp with rfl | rfl | rfl | rfl | rfl | rfl | rfl | rfl | rfl | rfl <;> exact ⟨by decide, by decide⟩
  refine ⟨fun ha h => ?_, fun h => ?_, fun h h2 => ?_⟩
  · rw [look_congr _ _ _ h]
    obtain ⟨p, d⟩ := a
    unfold Allowed at ha
    cases p <;> cases d <;> first | (exfalso; exact absurd (ha rfl) (by decide)) | decide +kernel
  · obtain ⟨p, hp, rfl, hc⟩ := look_found _ _ _ h
    obtain ⟨b1, b2⟩ := back p hp
    exact ⟨b1, b2 ▸ hc⟩
  · unfold look
    dsimp only
    rw [h2]
    have : balanceTable.find? (fun p => strcmpI (some s) (some p.1)) = none := by
      rw [List.find?_eq_none]
      intro p hp
      obtain ⟨b1, b2⟩ := back p hp
      rw [b2, h _ b1]
      simp
    rw [this]
    simp

/-- **C97 (options, none).** whatever the table of adjustments, no text and the text none, in any letter case, ask for nothing: the run
goes on -/
theorem C97_idle {A : Type} (table : List (Str × A)) :
    look table none = .ok none ∧
    ∀ s, strcmpI (some s) (some "none".toList) = true → look table (some s) = .ok none := by
  refine ⟨rfl, fun s h => ?_⟩
  unfold look
  dsimp only
  rw [if_pos h]

example : strcmpI (some "NonE".toList) (some "none".toList) = true := by decide

theorem look_none {A : Type} (table : List (Str × A)) : look table none = .ok none := rfl

/-- all the names of a list are looked up, none is dropped -/
theorem lookAll_names {A : Type} (table : List (Str × A)) (items : List (Str × Option A)) (h0 : items ≠ []) (h3 : items.length ≤ 3)
    (hp : ∀ i ∈ items, Plain i.1) (hl : ∀ i ∈ items, look table (some i.1) = .ok i.2) :
    lookAll table (adjustText (items.map (·.1))) = .ok (items.filterMap (·.2)) := by
  unfold lookAll
  rw [C97_parse _ (by simpa using h0) (by simpa using fun a b hab => hp (a, b) hab)]
  rcases items with _ | ⟨⟨a, x⟩, _ | ⟨⟨b, y⟩, _ | ⟨⟨c, z⟩, _ | ⟨q, l⟩⟩⟩⟩
  · exact absurd rfl h0
  · have h1 := hl (a, x) (by simp)
    simp only [List.map, List.getElem?_cons_zero, List.getElem?_cons_succ, List.getElem?_nil, Res.bind_ok]
    simp only [h1, look_none, Res.bind_ok]
    cases x <;> simp
  · have h1 := hl (a, x) (by simp)
    have h2 := hl (b, y) (by simp)
    simp only [List.map, List.getElem?_cons_zero, List.getElem?_cons_succ, List.getElem?_nil, Res.bind_ok]
    simp only [h1, h2, Res.bind_ok]
    simp only [look_none, Res.bind_ok]
    cases x <;> cases y <;> simp
  · have h1 := hl (a, x) (by simp)
    have h2 := hl (b, y) (by simp)
    have h4 := hl (c, z) (by simp)
    simp only [List.map, List.getElem?_cons_zero, List.getElem?_cons_succ, Res.bind_ok]
    simp only [h1, h2, h4, Res.bind_ok]
    cases x <;> cases y <;> cases z <;> simp
  · simp only [List.length_cons] at h3; omega

theorem plain_option (a : Par × Dir) : Plain (optionName a) := by
  obtain ⟨p, d⟩ := a
  cases p <;> cases d <;> exact ⟨by decide, by decide, by decide, by decide⟩

/-- **C97 (force balance, plan).** adjust(...) with up to three allowed adjustments carries out exactly these, in order, each
starting from the parameters the one before left -/
theorem C97_force_balance (e W1 : ℝ) (center : ℝ × ℝ) (solve : Par → Dir → Sys → Found) (l : List (Par × Dir)) (h0 : l ≠ [])
    (h3 : l.length ≤ 3) (ha : ∀ a ∈ l, Allowed a) (s : Sys) :
    forceBalance e W1 center solve (adjustText (l.map optionName)) s = inTurn (balance e W1 center solve) l s := by
  have hl := lookAll_names balanceTable (l.map fun a => (optionName a, some a)) (by simpa using h0) (by simpa using h3)
    (by intro i hi; obtain ⟨a, -, rfl⟩ := List.mem_map.1 hi; exact plain_option a)
    (by
      intro i hi
      obtain ⟨a, hm, rfl⟩ := List.mem_map.1 hi
      exact (C97_options _ a).1 (ha a hm) (by simp [strcmpI]))
  rw [List.map_map, List.filterMap_map] at hl
  have e1 : l.map ((fun x : Str × Option (Par × Dir) => x.1) ∘ fun a => (optionName a, some a)) = l.map optionName := rfl
  have e2 : l.filterMap ((fun x : Str × Option (Par × Dir) => x.2) ∘ fun a => (optionName a, some a)) = l := by
    have : ((fun x : Str × Option (Par × Dir) => x.2) ∘ fun a => (optionName a, some a)) = some := rfl
    rw [this]; exact List.filterMap_some
  rw [e1, e2] at hl
  unfold forceBalance
  rw [hl, Res.bind_ok]

/-- the text none leaves everything -/
theorem C97_none (e W1 : ℝ) (center : ℝ × ℝ) (solve : Par → Dir → Sys → Found) (par : Str) (h : strcmpI (some par) (some "none".toList)) (s : Sys) :
    forceBalance e W1 center solve par s = .ok s := by
  unfold forceBalance lookAll
  rw [(C97_text par).2 h]
  rfl

/-! ### one adjustment -/

theorem weight_bounds (W1 old x : ℝ) (h0 : 0 ≤ W1) (h1 : W1 ≤ 1) : 0.1 * W1 ≤ weight W1 old x ∧ weight W1 old x ≤ W1 ∧ weight W1 old x ≤ 1 := by
  unfold weight
  by_cases h : (if old = 0 then x ≠ 0 else |1 - x / old| > 0.1)
  · rw [if_pos h]; norm_num; exact ⟨by linarith, by linarith, by linarith⟩
  · rw [if_neg h]; norm_num; exact ⟨by linarith, by linarith⟩

/-- **C97 (one adjustment).** The adjusted parameter, and only it, moves to a point between its value and the root: by the weight
when the root is within a tenth of the value, by a tenth of the weight otherwise. -/
theorem C97_step (e W1 : ℝ) (center : ℝ × ℝ) (solve : Par → Dir → Sys → Found) (s s' : Sys) (p : Par) (d : Dir)
    (h : balance e W1 center solve s (p, d) = .ok s') :
    let X := (solve p d s).x
    (∀ q, q ≠ p → s'.get q = s.get q) ∧
    (|s.get p - X| ≤ 0.1 * |s.get p| → s'.get p - s.get p = W1 * (X - s.get p)) ∧
    (0.1 * |s.get p| < |s.get p - X| → s'.get p - s.get p = W1 / 10 * (X - s.get p)) := by
  have h' : s.set (mixed W1 (s.get p) (solve p d s).x) p = s' := by
    unfold balance at h
    split at h
    · cases h
    · cases h; rfl
  have hg : ∀ (v : ℝ), (s.set v p).get p = v := by intro v; cases p <;> rfl
  have key : ∀ X old : ℝ, (if old = 0 then X ≠ 0 else |1 - X / old| > 0.1) ↔ 0.1 * |old| < |old - X| := by
    intro X old
    by_cases h0 : old = 0
    · subst h0; simp
    · rw [if_neg h0]
      have : old - X = old * (1 - X / old) := by field_simp
      rw [this, abs_mul, mul_comm (0.1 : ℝ)]
      exact ⟨fun h => mul_lt_mul_of_pos_left h (abs_pos.2 h0), fun h => lt_of_mul_lt_mul_left h (abs_nonneg _)⟩
  intro X
  refine ⟨fun q hq => ?_, fun hX => ?_, fun hX => ?_⟩
  · rw [← h']
    cases p <;> cases q <;> first | rfl | exact absurd rfl hq
  · rw [← h', hg]
    unfold mixed weight
    rw [if_neg (fun c => not_lt.2 hX ((key _ _).1 c))]
    ring
  · rw [← h', hg]
    unfold mixed weight
    rw [if_pos ((key _ _).2 hX)]
    ring

/-- repeated adjustment of one parameter -/
noncomputable def again (W1 X : ℝ) : ℕ → ℝ → ℝ
  | 0, a => a
  | n + 1, a => mixed W1 (again W1 X n a) X

/-- **C97 (convergence).** With a weight from 0 to 1 no adjustment overshoots, and adjusting again and again (the fields being at
rest, so that the root stays) converges to the root, at least geometrically with the factor 1 - W/10 -/
theorem C97_converges (W1 X a : ℝ) (h0 : 0 ≤ W1) (h1 : W1 ≤ 1) (n : ℕ) :
    |again W1 X n a - X| ≤ (1 - W1 / 10) ^ n * |a - X| ∧ 0 ≤ (again W1 X n a - X) * (a - X) := by
  induction n with
  | zero => exact ⟨by simp [again], mul_self_nonneg _⟩
  | succ n ih =>
    obtain ⟨w1, w2, w3⟩ := weight_bounds W1 (again W1 X n a) X h0 h1
    have e1 : again W1 X (n + 1) a - X = (1 - weight W1 (again W1 X n a) X) * (again W1 X n a - X) := by
      show mixed _ _ _ - X = _
      unfold mixed; ring
    constructor
    · rw [e1, abs_mul, abs_of_nonneg (by linarith : 0 ≤ 1 - weight W1 (again W1 X n a) X), pow_succ]
      have hp : 0 ≤ (1 - W1 / 10) ^ n := pow_nonneg (by linarith) _
      have := ih.1
      have hw : 1 - weight W1 (again W1 X n a) X ≤ 1 - W1 / 10 := by norm_num at w1; linarith
      calc _ ≤ (1 - W1 / 10) * ((1 - W1 / 10) ^ n * |a - X|) :=
            mul_le_mul hw this (abs_nonneg _) (by linarith)
        _ = _ := by ring
    · rw [e1, mul_assoc]
      exact mul_nonneg (by linarith) ih.2

/-- a root finder that found nothing changes the parameter all the same -/
theorem C97_unsolved_violation : ∃ (solve : Par → Dir → Sys → Found) (s s' : Sys), (∀ p d t, (solve p d t).ok = false ∧ 10 ^ 6 ≤ (solve p d t).residual) ∧
    forceBalance (1 / 10 ^ 12) 1 (0, 0) solve (adjustText [optionName (.Omega, .x)]) s = .ok s' ∧ s'.Omega ≠ s.Omega := by
  refine ⟨fun _ _ _ => ⟨false, 2, 10 ^ 6⟩, ⟨0, 0, 1⟩, ⟨0, 0, 1.1⟩, fun _ _ _ => ⟨rfl, le_refl _⟩, ?_, by norm_num⟩
  rw [show [optionName (.Omega, .x)] = [(Par.Omega, Dir.x)].map optionName from rfl,
    C97_force_balance _ _ _ _ _ (by simp) (by simp) (by simp [Allowed])]
  simp only [inTurn, balance]
  rw [if_neg (by simp)]
  simp only [Res.bind_ok, Sys.set, Sys.get, mixed, weight]
  norm_num

/-! ### the Euler constant -/

/-- **C97 (Euler constant).** When the root finder ends with a residual above the square root of its tolerance (by the round-off)
the constant is kept; otherwise it becomes the weighted mean of the root and the old constant: it does not leave the interval
between the two and comes closer to the root by the factor 1 - W -/
theorem C97_euler (e W1 tol guess : ℝ) (he : 0 < e) (o : Found) :
    (√tol + e < o.residual → euler e W1 tol guess o = guess) ∧
    (o.residual ≤ √tol + e → euler e W1 tol guess o - o.x = (1 - W1) * (guess - o.x) ∧
      (0 ≤ W1 → W1 ≤ 1 → min guess o.x ≤ euler e W1 tol guess o ∧ euler e W1 tol guess o ≤ max guess o.x)) := by
  have hg := (Tol.C13_meaning e o.residual (√tol) he).2.2.1
  constructor
  · intro h
    unfold euler
    rw [if_pos (hg.2 (by linarith))]
  · intro h
    have : euler e W1 tol guess o = W1 * o.x + (1 - W1) * guess := by
      unfold euler
      rw [if_neg (by rw [hg]; linarith)]
    rw [this]
    refine ⟨by ring, fun h0 h1 => ⟨?_, ?_⟩⟩
    · have a := min_le_left guess o.x
      have b := min_le_right guess o.x
      nlinarith
    · have a := le_max_left guess o.x
      have b := le_max_right guess o.x
      nlinarith

/-! ### the ADM momentum -/

theorem momentum_lookup (par : Str) : lookAll momentumTable (adjustText ["x_CM".toList, "y_CM".toList]) = .ok [.xCM, .yCM] ∧
    lookAll momentumTable (adjustText ["y_CM".toList, "x_CM".toList]) = .ok [.yCM, .xCM] := by
  have _ := par
  constructor <;> decide +kernel

/-- whether a component of the momentum is corrected -/
def Acts (e : ℝ) (k : Ctl) (P : ℝ) : Prop := e < |P| - k.tol ∧ |P| - k.thr < -e

/-- **C97 (momentum).** In a system whose momentum in the orbital plane is that of a mass turning about (x_CM, y_CM), tuning with
adjust(x_CM,y_CM), in either order, multiplies each component of the momentum that is above the tolerance and below the threshold by
1 - W, and leaves each other one and the angular velocity -/
theorem C97_momentum (e : ℝ) (he : 0 < e) (k : Ctl) (X Y : ℝ) (s : Sys) (hO : s.Omega ≠ 0) (hm : k.mass ≠ 0) (swap : Bool) :
    ∃ s', tuneMomentum e k (orbital k.mass X Y)
        (adjustText (if swap then ["y_CM".toList, "x_CM".toList] else ["x_CM".toList, "y_CM".toList])) s = .ok s' ∧ s'.Omega = s.Omega ∧
      (Acts e k (orbital k.mass X Y s).1 → (orbital k.mass X Y s').1 = (1 - k.W) * (orbital k.mass X Y s).1) ∧
      (¬ Acts e k (orbital k.mass X Y s).1 → (orbital k.mass X Y s').1 = (orbital k.mass X Y s).1) ∧
      (Acts e k (orbital k.mass X Y s).2 → (orbital k.mass X Y s').2 = (1 - k.W) * (orbital k.mass X Y s).2) ∧
      (¬ Acts e k (orbital k.mass X Y s).2 → (orbital k.mass X Y s').2 = (orbital k.mass X Y s).2) := by
  have hb : ∀ P : ℝ, (Tol.grt e |P| k.tol && Tol.lss e |P| k.thr) = true ↔ Acts e k P := by
    intro P
    rw [Bool.and_eq_true, (Tol.C13_meaning e |P| k.tol he).2.2.1, (Tol.C13_meaning e |P| k.thr he).2.1]
    rfl
  have hO' : s.Omega * k.mass ≠ 0 := mul_ne_zero hO hm
  have main : ∃ s' : Sys, s'.Omega = s.Omega ∧
      s'.yCM = (if (Tol.grt e |(orbital k.mass X Y s).1| k.tol && Tol.lss e |(orbital k.mass X Y s).1| k.thr) = true
        then s.yCM + -(orbital k.mass X Y s).1 / (s.Omega * k.mass) * k.W else s.yCM) ∧
      s'.xCM = (if (Tol.grt e |(orbital k.mass X Y s).2| k.tol && Tol.lss e |(orbital k.mass X Y s).2| k.thr) = true
        then s.xCM + (orbital k.mass X Y s).2 / (s.Omega * k.mass) * k.W else s.xCM) ∧
      tuneMomentum e k (orbital k.mass X Y)
        (adjustText (if swap then ["y_CM".toList, "x_CM".toList] else ["x_CM".toList, "y_CM".toList])) s = .ok s' := by
    refine ⟨⟨if (Tol.grt e |(orbital k.mass X Y s).2| k.tol && Tol.lss e |(orbital k.mass X Y s).2| k.thr) = true
        then s.xCM + (orbital k.mass X Y s).2 / (s.Omega * k.mass) * k.W else s.xCM,
      if (Tol.grt e |(orbital k.mass X Y s).1| k.tol && Tol.lss e |(orbital k.mass X Y s).1| k.thr) = true
        then s.yCM + -(orbital k.mass X Y s).1 / (s.Omega * k.mass) * k.W else s.yCM, s.Omega⟩, rfl, rfl, rfl, ?_⟩
    unfold tuneMomentum
    cases swap
    · rw [if_neg (by simp), (momentum_lookup []).1]
      simp only [Res.bind_ok, inTurn, momentum]
      split_ifs <;> simp_all [inTurn, momentum]
    · rw [if_pos rfl, (momentum_lookup []).2]
      simp only [Res.bind_ok, inTurn, momentum]
      split_ifs <;> simp_all [inTurn, momentum]
  obtain ⟨s', h1, h2, h3, h4⟩ := main
  refine ⟨s', h4, h1, fun h => ?_, fun h => ?_, fun h => ?_, fun h => ?_⟩
  · rw [if_pos ((hb _).2 h)] at h2
    simp only [orbital, h1, h2]
    field_simp
    ring
  · rw [if_neg (fun c => h ((hb _).1 c))] at h2
    simp only [orbital, h1, h2]
  · rw [if_pos ((hb _).2 h)] at h3
    simp only [orbital, h1, h3]
    field_simp
    ring
  · rw [if_neg (fun c => h ((hb _).1 c))] at h3
    simp only [orbital, h1, h3]

/-- **C97 (momentum, convergence).** Tuned again and again, with a weight strictly between 0 and 2, the momentum ends within the
tolerance (and the round-off) and stays there, provided it starts below the threshold -/
theorem C97_momentum_converges (e : ℝ) (he : 0 < e) (k : Ctl) (X Y : ℝ) (hm : k.mass ≠ 0) (hW : 0 < k.W) (hW2 : k.W < 2) (htol : 0 ≤ k.tol)
    (s : ℕ → Sys) (hO : (s 0).Omega ≠ 0) (swap : Bool)
    (hs : ∀ n, tuneMomentum e k (orbital k.mass X Y)
      (adjustText (if swap then ["y_CM".toList, "x_CM".toList] else ["x_CM".toList, "y_CM".toList])) (s n) = .ok (s (n + 1)))
    (t1 : |(orbital k.mass X Y (s 0)).1| - k.thr < -e) (t2 : |(orbital k.mass X Y (s 0)).2| - k.thr < -e) :
    ∃ N, ∀ n, N ≤ n → |(orbital k.mass X Y (s n)).1| ≤ k.tol + e ∧ |(orbital k.mass X Y (s n)).2| ≤ k.tol + e := by
  have hOm : ∀ n, (s n).Omega ≠ 0 := by
    intro n
    induction n with
    | zero => exact hO
    | succ n ih =>
      obtain ⟨s', h1, h2, -⟩ := C97_momentum e he k X Y (s n) ih hm swap
      rw [hs n] at h1
      cases h1
      rw [h2]; exact ih
  -- one component
  have one : ∀ P : ℕ → ℝ, |P 0| - k.thr < -e → (∀ n, Acts e k (P n) → P (n + 1) = (1 - k.W) * P n) → (∀ n, ¬ Acts e k (P n) → P (n + 1) = P n) →
      ∃ N, ∀ n, N ≤ n → |P n| ≤ k.tol + e := by
    intro P p0 ha hn
    have hρ : |1 - k.W| < 1 := by rw [abs_lt]; constructor <;> linarith
    have dec : ∀ n, |P (n + 1)| ≤ |P n| := by
      intro n
      by_cases h : Acts e k (P n)
      · rw [ha n h, abs_mul]; nlinarith [abs_nonneg (P n)]
      · rw [hn n h]
    have small : ∀ n, |P n| ≤ |P 0| := by
      intro n
      induction n with
      | zero => exact le_refl _
      | succ n ih => exact (dec n).trans ih
    have stay : ∀ n m, |P n| ≤ k.tol + e → n ≤ m → |P m| ≤ k.tol + e := by
      intro n m h hm
      induction m, hm using Nat.le_induction with
      | base => exact h
      | succ m _ ih => exact (dec m).trans ih
    by_contra hc
    push Not at hc
    have act : ∀ n, Acts e k (P n) := by
      intro n
      obtain ⟨m, hm, h⟩ := hc n
      refine ⟨?_, by have := small n; linarith⟩
      by_contra h2
      exact absurd (stay n m (by linarith) hm) (not_le.2 h)
    have geo : ∀ n, |P n| = |1 - k.W| ^ n * |P 0| := by
      intro n
      induction n with
      | zero => simp
      | succ n ih => rw [ha n (act n), abs_mul, ih, pow_succ]; ring
    have lim : Filter.Tendsto (fun n => |1 - k.W| ^ n * |P 0|) Filter.atTop (nhds 0) := by
      simpa using (tendsto_pow_atTop_nhds_zero_of_lt_one (abs_nonneg _) hρ).mul_const |P 0|
    have ev := lim.eventually (Iio_mem_nhds (show (0 : ℝ) < k.tol + e by linarith))
    obtain ⟨n, h⟩ := ev.exists
    have h2 := (act n).1
    rw [geo n] at h2
    have h3 : |1 - k.W| ^ n * |P 0| < k.tol + e := h
    linarith
  have st : ∀ n, (Acts e k (orbital k.mass X Y (s n)).1 → (orbital k.mass X Y (s (n + 1))).1 = (1 - k.W) * (orbital k.mass X Y (s n)).1) ∧
      (¬ Acts e k (orbital k.mass X Y (s n)).1 → (orbital k.mass X Y (s (n + 1))).1 = (orbital k.mass X Y (s n)).1) ∧
      (Acts e k (orbital k.mass X Y (s n)).2 → (orbital k.mass X Y (s (n + 1))).2 = (1 - k.W) * (orbital k.mass X Y (s n)).2) ∧
      (¬ Acts e k (orbital k.mass X Y (s n)).2 → (orbital k.mass X Y (s (n + 1))).2 = (orbital k.mass X Y (s n)).2) := by
    intro n
    obtain ⟨s', h1, -, h2⟩ := C97_momentum e he k X Y (s n) (hOm n) hm swap
    rw [hs n] at h1
    cases h1
    exact h2
  obtain ⟨N1, h1⟩ := one (fun n => (orbital k.mass X Y (s n)).1) t1 (fun n => (st n).1) (fun n => (st n).2.1)
  obtain ⟨N2, h2⟩ := one (fun n => (orbital k.mass X Y (s n)).2) t2 (fun n => (st n).2.2.1) (fun n => (st n).2.2.2)
  exact ⟨max N1 N2, fun n hn => ⟨h1 n (le_trans (le_max_left _ _) hn), h2 n (le_trans (le_max_right _ _) hn)⟩⟩

/-- a binary with mass 2, angular velocity 1/2 and a centre of mass off by 1/10 meets the hypotheses -/
example : ∃ s : ℕ → Sys, (∀ n, tuneMomentum (1 / 10 ^ 12) ⟨1, 1 / 1000, 10, 2⟩ (orbital 2 (1 / 10) 0)
      (adjustText ["x_CM".toList, "y_CM".toList]) (s n) = .ok (s (n + 1))) ∧ (s 0).Omega ≠ 0 ∧
      |(orbital 2 (1 / 10) 0 (s 0)).1| - 10 < -(1 / 10 ^ 12) ∧ |(orbital 2 (1 / 10) 0 (s 0)).2| - 10 < -(1 / 10 ^ 12) := by
  have step : ∀ t : Sys, ∃ t' : Sys, t.Omega ≠ 0 → t'.Omega = t.Omega ∧ tuneMomentum (1 / 10 ^ 12) ⟨1, 1 / 1000, 10, 2⟩ (orbital 2 (1 / 10) 0)
      (adjustText ["x_CM".toList, "y_CM".toList]) t = .ok t' := by
    intro t
    by_cases h : t.Omega = 0
    · exact ⟨t, fun h2 => absurd h h2⟩
    · obtain ⟨t', h1, h2, -⟩ := C97_momentum (1 / 10 ^ 12) (by norm_num) ⟨1, 1 / 1000, 10, 2⟩ (1 / 10) 0 t h (by norm_num) false
      exact ⟨t', fun _ => ⟨h2, h1⟩⟩
  choose f hf using step
  let s : ℕ → Sys := fun n => f^[n] ⟨0, 0, 1 / 2⟩
  have hO : ∀ n, (s n).Omega = 1 / 2 := by
    intro n
    induction n with
    | zero => rfl
    | succ n ih =>
      have : s (n + 1) = f (s n) := Function.iterate_succ_apply' f n _
      rw [this, (hf (s n) (by rw [ih]; norm_num)).1, ih]
  refine ⟨s, fun n => ?_, by rw [hO]; norm_num, ?_, ?_⟩
  · have : s (n + 1) = f (s n) := Function.iterate_succ_apply' f n _
    rw [this]
    exact (hf (s n) (by rw [hO]; norm_num)).2
  · show |(orbital 2 (1 / 10) 0 ⟨0, 0, 1 / 2⟩).1| - 10 < _
    norm_num [orbital]
  · show |(orbital 2 (1 / 10) 0 ⟨0, 0, 1 / 2⟩).2| - 10 < _
    norm_num [orbital, abs_of_pos]

/-- two adjustments in one text -/
example : Allowed (.yCM, .x) ∧ Allowed (.Omega, .cm) ∧ ¬ Allowed (.xCM, .cm) ∧ Plain "d/dx:y_CM".toList :=
  ⟨by decide, by decide, by simp [Allowed], ⟨by decide, by decide, by decide, by decide⟩⟩

end Elliptica.Tune
