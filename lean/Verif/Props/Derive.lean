import Verif.Model.Derive
import Verif.Spec.Derive
import Verif.Props.Text
/-!
C103: many derivatives by name.
-/
namespace Elliptica.Derive
open Text Deriv DerivName DeriveSpec Props.TextSearch

variable {e : ℝ} {p : Patch}

theorem held_at (l : Flds) (hu : (l.map (·.name)).Nodup) (k : ℕ) (hk : k < l.length) : held l l[k].name = l[k].val := by
  have : l.find? (fun f => f.name = l[k].name) = some l[k] := by
    rw [List.find?_eq_some_iff_getElem]
    refine ⟨by simp, k, hk, rfl, fun j hj => ?_⟩
    simp only [Bool.not_eq_true', decide_eq_false_iff_not]
    intro he
    have := (List.nodup_iff_injective_getElem.1 hu) (a₁ := ⟨j, by simp; omega⟩) (a₂ := ⟨k, by simpa using hk⟩) (by simpa using he)
    simp at this; omega
  rw [held, this]; rfl

theorem held_absent (l : Flds) (n : Str) (h : n ∉ l.map (·.name)) : held l n = none := by
  have : l.find? (fun f => f.name = n) = none := by
    rw [List.find?_eq_none]
    intro f hf
    simp only [decide_eq_true_eq]
    rintro rfl
    exact h (List.mem_map.2 ⟨f, hf, rfl⟩)
  rw [held, this]; rfl

theorem held_mem (l : Flds) (n : Str) (f : Coeff.St ℝ) (h : held l n = some f) : n ∈ l.map (·.name) := by
  by_contra hc
  rw [held_absent l n hc] at h; cases h

theorem at_name (l : Flds) (n : Str) (h : n ∈ l.map (·.name)) : ∃ k, ∃ hk : k < l.length, l[k].name = n := by
  obtain ⟨k, hk, rfl⟩ := List.getElem_of_mem h
  exact ⟨k, by simpa using hk, by simp⟩

/-- all coefficients a patch keeps are those of the values -/
def Clean (p : Patch) (l : Flds) : Prop := ∀ m g, held l m = some g → Coeff.Inv p.n (mW p) g

theorem at_of_map (l l' : Flds) (h : l'.map (·.name) = l.map (·.name)) (k : ℕ) (hk : k < l.length) :
    ∃ hk' : k < l'.length, l'[k].name = l[k].name := by
  have hlen : l'.length = l.length := by simpa using congrArg List.length h
  refine ⟨by omega, ?_⟩
  have := congrArg (fun q => q[k]?) h
  simpa [List.getElem?_map, List.getElem?_eq_getElem hk, List.getElem?_eq_getElem (show k < l'.length by omega)] using this

theorem held_at' (l l' : Flds) (hu : (l.map (·.name)).Nodup) (h : l'.map (·.name) = l.map (·.name)) (k : ℕ) (hk : k < l.length) :
    held l' l[k].name = l'[k]?.bind (·.val) := by
  obtain ⟨hk', hn⟩ := at_of_map l l' h k hk
  rw [← hn, held_at l' (by rw [h]; exact hu) k hk', List.getElem?_eq_getElem hk']; rfl

/-- one derivative -/
theorem step_at (hp : Good e p) (hs : p.sys ≠ .other) (par : Str) (hpar : MentionsSpectral par) (l : Flds)
    (hu : (l.map (·.name)).Nodup) (k : ℕ) (hk : k < l.length) (s : Str) (i : Fin 3) (hn : IsDeriv l[k].name s i) (hl : l[k].name.length < 100)
    (f : Coeff.St ℝ) (hf : held l s = some f) (hc : Clean p l) :
    ∃ l' w, partialField e p (some par) l k = .ok l' ∧ l'.map (·.name) = l.map (·.name) ∧ held l' l[k].name = some ⟨w, none, none⟩ ∧
      Derivative p f.v w i ∧ (∀ m, m ≠ l[k].name → (held l' m).map (·.v) = (held l m).map (·.v)) ∧ Clean p l' := by
  obtain ⟨j, hj, rfl⟩ := at_name l s (held_mem l s f hf)
  have hv : l[j].val = some f := by rw [← held_at l hu j hj]; exact hf
  obtain ⟨l', w, P, h1, h2, h3, h4, h5, h6, h7, h8, h9⟩ := C55_field hp hs par hpar l hu k j hk hj i hn hl f hv (hc _ f hf)
  have hu' : (l'.map (·.name)).Nodup := by rw [h2]; exact hu
  have hr : ∀ m, m ≠ l[k].name → (held l' m).map (·.v) = (held l m).map (·.v) := by
    intro m hm
    by_cases hmem : m ∈ l.map (·.name)
    · obtain ⟨q, hq, rfl⟩ := at_name l m hmem
      rw [held_at' l l' hu h2 q hq, held_at l hu q hq, h4 q (by rintro rfl; exact hm rfl), List.getElem?_eq_getElem hq]; rfl
    · rw [held_absent l m hmem, held_absent l' m (by rw [h2]; exact hmem)]
  refine ⟨l', w, h1, h2, ?_, ⟨P, h7, h8, h9⟩, hr, ?_⟩
  · rw [held_at' l l' hu h2 k hk, h3]
  · intro m g hg
    have hmem : m ∈ l.map (·.name) := by rw [← h2]; exact held_mem l' m g hg
    obtain ⟨q, hq, rfl⟩ := at_name l m hmem
    rw [held_at' l l' hu h2 q hq] at hg
    by_cases hqk : q = k
    · subst hqk; rw [h3] at hg; cases hg; exact Or.inl rfl
    by_cases hqj : q = j
    · subst hqj
      obtain ⟨f', hf', hi⟩ := h5
      rw [hf'] at hg; cases hg; exact hi
    · rw [h6 q hqk hqj, List.getElem?_eq_getElem hq] at hg
      exact hc l[q].name g (by rw [held_at l hu q hq]; exact hg)

theorem dField_step (hp : Good e p) (hs : p.sys ≠ .other) (par : Str) (hpar : MentionsSpectral par) (l : Flds)
    (hu : (l.map (·.name)).Nodup) (n : Str) (hmem : n ∈ l.map (·.name)) (s : Str) (i : Fin 3) (hn : IsDeriv n s i) (hl : n.length < 100)
    (f : Coeff.St ℝ) (hf : held l s = some f) (hc : Clean p l) :
    ∃ l' w, dField e p (some par) l n = .ok l' ∧ l'.map (·.name) = l.map (·.name) ∧ held l' n = some ⟨w, none, none⟩ ∧
      Derivative p f.v w i ∧ (∀ m, m ≠ n → (held l' m).map (·.v) = (held l m).map (·.v)) ∧ Clean p l' := by
  obtain ⟨k, hk, rfl⟩ := at_name l n hmem
  rw [dField, lookUpE_of l hu k hk]
  exact step_at hp hs par hpar l hu k hk s i hn hl f hf hc

/-- the outcome: every field of the list holds the derivative of its source; all others have kept their values -/
structure Derived (p : Patch) (D : List Der) (l l' : Flds) : Prop where
  names : l'.map (·.name) = l.map (·.name)
  holds : ∀ d ∈ D, ∃ f w, held l' d.src = some f ∧ held l' d.name = some w ∧ Derivative p f.v w.v d.dir
  others : ∀ m, m ∉ D.map (·.name) → (held l' m).map (·.v) = (held l m).map (·.v)
  clean : Clean p l'

/-- the list is in order: every name is that of a derivative of its source, the source has values or is derived before, and is not derived
afterwards -/
structure InOrder (l : Flds) (D : List Der) : Prop where
  name : ∀ d ∈ D, IsDeriv d.name d.src d.dir ∧ d.name.length < 100
  field : ∀ d ∈ D, d.name ∈ l.map (·.name)
  once : (D.map (·.name)).Nodup
  kept : D.Pairwise fun a b => a.src ≠ b.name
  source : ∀ D1 d D2, D = D1 ++ d :: D2 → (∃ f, held l d.src = some f) ∨ d.src ∈ D1.map (·.name)

theorem val_of_map {l l' : Flds} {m : Str} (h : (held l' m).map (·.v) = (held l m).map (·.v)) {f : Coeff.St ℝ} (hf : held l m = some f) :
    ∃ f', held l' m = some f' ∧ f'.v = f.v := by
  rw [hf] at h
  cases h2 : held l' m with
  | none => rw [h2] at h; cases h
  | some f' => rw [h2] at h; exact ⟨f', rfl, by simpa using h⟩

/-- **C103 (a list of derivatives).** Derivatives taken one after the other, in an order in which no source changes after it has been used: in the
end every field of the list holds the derivative of its source as it then is, and nothing else has changed. -/
theorem C103_list (hp : Good e p) (hs : p.sys ≠ .other) (par : Str) (hpar : MentionsSpectral par) (D : List Der) : ∀ (l : Flds)
    (_ : (l.map (·.name)).Nodup) (_ : InOrder l D) (_ : Clean p l), ∃ l', dFields e p (some par) l (D.map (·.name)) = .ok l' ∧ Derived p D l l' := by
  induction D with
  | nil => exact fun l _ _ hc => ⟨l, rfl, rfl, by simp, fun _ _ => rfl, hc⟩
  | cons d D ih =>
    intro l hu ho hc
    obtain ⟨f, hf⟩ : ∃ f, held l d.src = some f := by
      rcases ho.source [] d D rfl with h | h
      · exact h
      · cases h
    obtain ⟨l1, w, h1, h2, h3, h4, h5, h6⟩ := dField_step hp hs par hpar l hu d.name (ho.field d (by simp)) d.src d.dir (ho.name d (by simp)).1
      (ho.name d (by simp)).2 f hf hc
    have hne : d.src ≠ d.name := (ho.name d (by simp)).1.ne.symm
    obtain ⟨hk1, hk2⟩ := List.pairwise_cons.1 ho.kept
    have hon := List.nodup_cons.1 (by simpa using ho.once : (d.name :: D.map (·.name)).Nodup)
    obtain ⟨l', g1, g2⟩ := ih l1 (by rw [h2]; exact hu) ⟨fun a ha => ho.name a (by simp [ha]), fun a ha => by rw [h2]; exact ho.field a (by simp [ha]),
      hon.2, hk2, fun D1 a D2 hD => by
        rcases ho.source (d :: D1) a D2 (by rw [hD]; rfl) with ⟨g, hg⟩ | h
        · by_cases hz : a.src = d.name
          · exact .inl ⟨_, by rw [hz]; exact h3⟩
          · obtain ⟨g', hg', -⟩ := val_of_map (h5 _ hz) hg
            exact .inl ⟨g', hg'⟩
        · rw [List.map_cons, List.mem_cons] at h
          rcases h with h | h
          · exact .inl ⟨_, by rw [h]; exact h3⟩
          · exact .inr h⟩ h6
    refine ⟨l', by rw [List.map_cons, dFields, h1]; exact g1, by rw [g2.names, h2], ?_, ?_, g2.clean⟩
    · intro a ha
      rcases List.mem_cons.1 ha with rfl | ha
      · obtain ⟨f1, hf1, e1⟩ := val_of_map (h5 _ hne) hf
        obtain ⟨f2, hf2, e2⟩ := val_of_map (g2.others a.src (by
          rw [List.mem_map]; rintro ⟨b, hb, hb2⟩; exact hk1 b hb hb2.symm)) hf1
        obtain ⟨w2, hw2, e3⟩ := val_of_map (g2.others a.name hon.1) h3
        refine ⟨f2, w2, hf2, hw2, ?_⟩
        rw [e2, e1, e3]; exact h4
      · exact g2.holds a ha
    · intro m hm
      rw [List.map_cons, List.mem_cons, not_or] at hm
      rw [g2.others m hm.2, h5 m hm.1]

/-- an unknown name stops the program -/
theorem C103_unknown (par : Option Str) (l : Flds) (D : List Str) (n : Str) (h : n ∉ l.map (·.name)) : dFields e p par l (n :: D) = .abort := by
  rw [dFields, dField]
  have : Field.lookUp l n = none := by
    unfold Field.lookUp
    rw [List.findIdx?_eq_none_iff]
    intro f hf
    simp only [decide_eq_false_iff_not]
    rintro rfl
    exact h (List.mem_map.2 ⟨f, hf, rfl⟩)
  simp [Field.lookUpE, this]

/-! ### Christoffel symbols -/

/-- the indices of a derivative of a Christoffel symbol, as the code writes them -/
def index (i j k d : Fin 3) : Str := ['_', 'U', digit i, 'D', digit j, 'D', digit k, 'D', digit d]

theorem dchrisName_eq (s : Str) (i j k d : Fin 3) : dchrisName s i j k d = 'd' :: s ++ index i j k d := by
  simp [dchrisName, chrisName, index]

/-- the 54 combinations of indices, in the order of the code -/
def indices : List (Fin 3 × Fin 3 × Fin 3 × Fin 3) :=
  christoffelNames.map fun x =>
    let g (n : ℕ) : Fin 3 := if x.getD n ' ' = '0' then 0 else if x.getD n ' ' = '1' then 1 else 2
    (g 8, g 10, g 12, g 14)

theorem names_of_indices : christoffelNames = indices.map fun q => "dChris".toList ++ index q.1 q.2.1 q.2.2.1 q.2.2.2 := by decide +kernel

theorem indices_mem (i j k d : Fin 3) : (i, j, k, d) ∈ indices ↔ j ≤ k := by
  revert i j k d; decide +kernel

theorem indices_nodup : indices.Nodup := by decide +kernel

theorem fromLast_index (s : Str) (i j k d : Fin 3) : fromLast '_' (s ++ index i j k d) = some (index i j k d) := by
  have h0 : fromLast '_' (index i j k d) = some (index i j k d) := by revert i j k d; decide +kernel
  induction s with
  | nil => exact h0
  | cons c s ih => rw [List.cons_append, fromLast, ih]

theorem withStem_index (stem s : Str) (i j k d : Fin 3) (h : stem.length < 90) :
    withStem stem (s ++ index i j k d) = .ok (stem ++ index i j k d) := by
  rw [withStem, fromLast_index]
  dsimp only
  rw [if_neg (by simp [index]; omega)]

theorem dStems_eq (e : ℝ) (p : Patch) (par : Option Str) (stem : Str) (h : stem.length < 90) (Q : List (Fin 3 × Fin 3 × Fin 3 × Fin 3)) : ∀ l,
    dStems e p par stem l (Q.map fun q => "dChris".toList ++ index q.1 q.2.1 q.2.2.1 q.2.2.2) =
      dFields e p par l (Q.map fun q => stem ++ index q.1 q.2.1 q.2.2.1 q.2.2.2) := by
  induction Q with
  | nil => exact fun l => rfl
  | cons q Q ih =>
    intro l
    rw [List.map_cons, List.map_cons, dStems, dFields, withStem_index _ _ _ _ _ _ h, Res.bind_ok]
    congr 1
    funext l1
    exact ih l1

theorem digit_inj : ∀ i j : Fin 3, digit i = digit j → i = j := by decide
theorem digit_ne : ∀ i : Fin 3, digit i ≠ '_' := by decide

theorem index_inj {i j k d i' j' k' d' : Fin 3} (h : index i j k d = index i' j' k' d') : (i, j, k, d) = (i', j', k', d') := by
  simp only [index, List.cons.injEq] at h
  obtain ⟨-, -, h1, -, h2, -, h3, -, h4, -⟩ := h
  rw [digit_inj _ _ h1, digit_inj _ _ h2, digit_inj _ _ h3, digit_inj _ _ h4]

/-- the derivatives of the Christoffel symbols with stem s -/
def christoffelDers (s : Str) : List Der := indices.map fun q => ⟨dchrisName s q.1 q.2.1 q.2.2.1 q.2.2.2, chrisName s q.1 q.2.1 q.2.2.1, q.2.2.2⟩

theorem isDeriv_chris (s : Str) (i j k d : Fin 3) : IsDeriv (dchrisName s i j k d) (chrisName s i j k) d :=
  .more (chrisName s i j k) d (by simp [chrisName]) (by
    have : (chrisName s i j k).getLast? = some (digit k) := by simp [chrisName]
    rw [this]; intro h; exact digit_ne k (Option.some.inj h))

/-- **C103 (Christoffel symbols).** For a stem s shorter than 89 characters: where the patch has the 18 Christoffel symbols s_UiDjDk, j ≤ k, with
values, and the 54 fields for their derivatives, in the end field ds_UiDjDkDl is the derivative of s_UiDjDk in direction l, for all of them, and no
other values have changed. -/
theorem C103_christoffel (hp : Good e p) (hs : p.sys ≠ .other) (par : Str) (hpar : MentionsSpectral par) (s : Str) (hl : s.length < 89) (l : Flds)
    (hu : (l.map (·.name)).Nodup) (hc : Clean p l)
    (hf : ∀ i j k d : Fin 3, j ≤ k → dchrisName s i j k d ∈ l.map (·.name)) (hv : ∀ i j k : Fin 3, j ≤ k → ∃ f, held l (chrisName s i j k) = some f) :
    ∃ l', dChristoffel e p (some par) l ('d' :: s) = .ok l' ∧ l'.map (·.name) = l.map (·.name) ∧
      (∀ i j k d : Fin 3, j ≤ k → ∃ f f' w, held l (chrisName s i j k) = some f ∧ held l' (chrisName s i j k) = some f' ∧ f'.v = f.v ∧
        held l' (dchrisName s i j k d) = some w ∧ Derivative p f.v w.v d) ∧
      ∀ m, (∀ i j k d : Fin 3, j ≤ k → m ≠ dchrisName s i j k d) → (held l' m).map (·.v) = (held l m).map (·.v) := by
  have hnames : (christoffelDers s).map (·.name) = indices.map fun q => ('d' :: s) ++ index q.1 q.2.1 q.2.2.1 q.2.2.2 := by
    simp only [christoffelDers, List.map_map, Function.comp_def, dchrisName_eq]
  have hlen : ∀ i j k d : Fin 3, (dchrisName s i j k d).length = s.length + 10 := by intros; simp [dchrisName, chrisName]
  have hlen2 : ∀ i j k : Fin 3, (chrisName s i j k).length = s.length + 7 := by intros; simp [chrisName]
  have hsrc : ∀ i j k i' j' k' d' : Fin 3, chrisName s i j k ≠ dchrisName s i' j' k' d' := by
    intro i j k i' j' k' d' h
    have := congrArg List.length h
    rw [hlen, hlen2] at this; omega
  have hord : InOrder l (christoffelDers s) := by
    constructor
    · intro d hd
      obtain ⟨⟨i, j, k, d⟩, hq, rfl⟩ := List.mem_map.1 hd
      exact ⟨isDeriv_chris s i j k d, by dsimp only; rw [hlen]; omega⟩
    · intro d hd
      obtain ⟨⟨i, j, k, d⟩, hq, rfl⟩ := List.mem_map.1 hd
      exact hf i j k d ((indices_mem i j k d).1 hq)
    · rw [hnames]
      refine indices_nodup.map ?_
      rintro ⟨i, j, k, d⟩ ⟨i', j', k', d'⟩ h
      exact index_inj (List.append_cancel_left h)
    · refine List.Pairwise.imp_of_mem (R := fun _ _ => True) ?_ (List.pairwise_of_forall fun _ _ => trivial)
      intro a b ha hb _
      obtain ⟨⟨i, j, k, d⟩, -, rfl⟩ := List.mem_map.1 ha
      obtain ⟨⟨i', j', k', d'⟩, -, rfl⟩ := List.mem_map.1 hb
      exact hsrc _ _ _ _ _ _ _
    · intro D1 d D2 hD
      have hd : d ∈ christoffelDers s := by rw [hD]; simp
      obtain ⟨⟨i, j, k, d⟩, hq, rfl⟩ := List.mem_map.1 hd
      exact .inl (hv i j k ((indices_mem i j k d).1 hq))
  obtain ⟨l', h1, h2⟩ := C103_list hp hs par hpar (christoffelDers s) l hu hord hc
  refine ⟨l', ?_, h2.names, ?_, ?_⟩
  · rw [dChristoffel, names_of_indices, dStems_eq _ _ _ _ (by simp; omega), ← hnames]; exact h1
  · intro i j k d hjk
    obtain ⟨f0, hf0⟩ := hv i j k hjk
    obtain ⟨f, w, g1, g2, g3⟩ := h2.holds ⟨dchrisName s i j k d, chrisName s i j k, d⟩ (List.mem_map.2 ⟨(i, j, k, d), (indices_mem i j k d).2 hjk, rfl⟩)
    dsimp only at g1 g2 g3
    have hk := h2.others (chrisName s i j k) (by
      rw [List.mem_map]; rintro ⟨a, ha, ha2⟩
      obtain ⟨⟨i', j', k', d'⟩, -, rfl⟩ := List.mem_map.1 ha
      exact hsrc _ _ _ _ _ _ _ ha2.symm)
    rw [g1, hf0] at hk
    have hv' : f.v = f0.v := by simpa using hk
    exact ⟨f0, f, w, hf0, g1, hv', g2, by rw [← hv']; exact g3⟩
  · intro m hm
    apply h2.others
    rw [List.mem_map]; rintro ⟨a, ha, ha2⟩
    obtain ⟨⟨i', j', k', d'⟩, hq, rfl⟩ := List.mem_map.1 ha
    exact hm i' j' k' d' ((indices_mem _ _ _ _).1 hq) ha2.symm

/-! ### the fluid -/

/-- the derivatives of the fluid -/
def fluidDers : List Der :=
  [⟨"denthalpy_D2".toList, "enthalpy".toList, 2⟩, ⟨"denthalpy_D0".toList, "enthalpy".toList, 0⟩, ⟨"denthalpy_D1".toList, "enthalpy".toList, 1⟩,
   ⟨"du0_D0".toList, "u0".toList, 0⟩, ⟨"du0_D1".toList, "u0".toList, 1⟩, ⟨"du0_D2".toList, "u0".toList, 2⟩,
   ⟨"drho0_D2".toList, "rho0".toList, 2⟩, ⟨"drho0_D0".toList, "rho0".toList, 0⟩, ⟨"drho0_D1".toList, "rho0".toList, 1⟩]

/-- **C103 (fluid).** Where the patch has enthalpy, u0 and rho0 with values and the fields of their derivatives, these hold the derivatives, in all
three directions, and no other values have changed. -/
theorem C103_fluid (hp : Good e p) (hs : p.sys ≠ .other) (par : Str) (hpar : MentionsSpectral par) (l : Flds)
    (hu : (l.map (·.name)).Nodup) (hc : Clean p l) (Q : Str) (hQ : Q ∈ ["enthalpy".toList, "u0".toList, "rho0".toList]) (i : Fin 3)
    (hf : ∀ d ∈ fluidNames, d ∈ l.map (·.name))
    (hv : ∀ q ∈ ["enthalpy".toList, "u0".toList, "rho0".toList], ∃ f, held l q = some f) :
    ∃ l', fluidDerives e p (some par) l = .ok l' ∧ l'.map (·.name) = l.map (·.name) ∧
      (∃ f w, held l' Q = some f ∧ (held l' Q).map (·.v) = (held l Q).map (·.v) ∧ held l' ('d' :: Q ++ ['_', 'D', digit i]) = some w ∧
        Derivative p f.v w.v i) ∧
      ∀ m, m ∉ fluidNames → (held l' m).map (·.v) = (held l m).map (·.v) := by
  have hnames : fluidDers.map (·.name) = fluidNames := rfl
  have hsrc : ∀ d ∈ fluidDers, d.src ∈ ["enthalpy".toList, "u0".toList, "rho0".toList] := by decide +kernel
  have hshape : ∀ d ∈ fluidDers, d.name = 'd' :: d.src ++ ['_', 'D', digit d.dir] ∧ d.src ≠ [] ∧ d.name.length < 100 := by decide +kernel
  have hord : InOrder l fluidDers := by
    refine ⟨fun d hd => ?_, fun d hd => hf _ (by rw [← hnames]; exact List.mem_map_of_mem hd), by decide +kernel, by decide +kernel, ?_⟩
    · obtain ⟨h1, h2, h3⟩ := hshape d hd
      exact ⟨h1 ▸ IsDeriv.first d.src d.dir h2, h3⟩
    · intro D1 d D2 hD
      exact .inl (hv _ (hsrc d (by rw [hD]; simp)))
  obtain ⟨l', h1, h2⟩ := C103_list hp hs par hpar fluidDers l hu hord hc
  refine ⟨l', by rw [fluidDerives, ← hnames]; exact h1, h2.names, ?_, fun m hm => h2.others m (by rw [hnames]; exact hm)⟩
  have hall : ∀ q ∈ ["enthalpy".toList, "u0".toList, "rho0".toList], ∀ i : Fin 3, ∃ d ∈ fluidDers, d.src = q ∧ d.dir = i ∧ q ∉ fluidNames := by
    decide +kernel
  obtain ⟨d, hd, rfl, rfl, hq⟩ := hall Q hQ i
  obtain ⟨f, w, g1, g2, g3⟩ := h2.holds d hd
  exact ⟨f, w, g1, h2.others _ (by rw [hnames]; exact hq), by rw [← (hshape d hd).1]; exact g2, g3⟩

/-! ### by a pattern -/

theorem setVal_names (l : Flds) (k : ℕ) (v : Option (Coeff.St ℝ)) : (setVal l k v).map (·.name) = l.map (·.name) := by
  rw [setVal, List.map_set]
  apply List.ext_getElem?
  intro m
  rw [List.getElem?_set]
  split
  · rename_i h
    subst h
    cases hk : l[k]? with
    | none =>
      have := List.getElem?_eq_none_iff.1 hk
      rw [if_neg (by simpa using this)]
      simp [hk]
    | some f =>
      obtain ⟨h, -⟩ := List.getElem?_eq_some_iff.1 hk
      rw [if_pos (by simpa using h)]
      simp [hk]
  · rfl

theorem bind_inv {A B : Type} {x : Res A} {f : A → Res B} {b : B} (h : x.bind f = .ok b) : ∃ a, x = .ok a ∧ f a = .ok b := by
  cases x with
  | ok a => exact ⟨a, rfl, h⟩
  | abort => cases h
  | ub => cases h

theorem partialField_names (par : Option Str) (l l' : Flds) (k : ℕ) (h : partialField e p par l k = .ok l') : l'.map (·.name) = l.map (·.name) := by
  unfold partialField at h
  cases hk : l[k]? with
  | none => rw [hk] at h; cases h
  | some df =>
    rw [hk] at h
    obtain ⟨a, -, h⟩ := bind_inv h
    obtain ⟨j, -, h⟩ := bind_inv h
    cases hj : (l[j]?).bind (·.val) with
    | none => rw [hj] at h; cases h
    | some f =>
      rw [hj] at h
      obtain ⟨b, -, h⟩ := bind_inv h
      cases h
      rw [setVal_names, setVal_names]

theorem regexLoop_eq (par : Option Str) (r : Str) : ∀ (k : ℕ) (l : Flds) (_ : k ≤ l.length) (_ : (l.map (·.name)).Nodup),
    regexLoop e p par r k l = dFields e p par l (((l.map (·.name)).drop (l.length - k)).filter (regexSearch r)) := by
  intro k
  induction k with
  | zero =>
    intro l _ _
    rw [regexLoop, Nat.sub_zero, List.drop_eq_nil_of_le (by simp)]; rfl
  | succ k ih =>
    intro l hk hu
    have hlt : l.length - (k + 1) < l.length := by omega
    have hd : (l.map (·.name)).drop (l.length - (k + 1)) = l[l.length - (k + 1)].name :: (l.map (·.name)).drop (l.length - k) := by
      rw [List.drop_eq_getElem_cons (by simpa using hlt), show l.length - (k + 1) + 1 = l.length - k by omega]; simp
    rw [regexLoop, hd, List.getElem?_eq_getElem hlt]
    simp only [Option.map_some, Option.getD_some, List.filter_cons]
    split
    · rw [dFields, dField, lookUpE_of l hu _ hlt, Res.bind_ok]
      cases hq : partialField e p par l (l.length - (k + 1)) with
      | ok l1 =>
        have hn := partialField_names par l l1 _ hq
        have hlen : l1.length = l.length := by simpa using congrArg List.length hn
        rw [Res.bind_ok, Res.bind_ok, ih l1 (by omega) (by rw [hn]; exact hu), hn, hlen]
      | abort => rfl
      | ub => rfl
    · exact ih l (by omega) hu

/-- **C103 (a pattern).** A pattern takes the derivatives of exactly the fields it matches, in the order of the patch, with the outcome of the
list of their names. -/
theorem C103_regex (hp : Good e p) (hs : p.sys ≠ .other) (par : Str) (hpar : MentionsSpectral par) (r : Str) (hr : r ≠ []) (hb : ' ' ∉ r)
    (hcm : ',' ∉ r) (D : List Der) (l : Flds) (hD : D.map (·.name) = (l.map (·.name)).filter (regexSearch r))
    (hu : (l.map (·.name)).Nodup) (ho : InOrder l D) (hc : Clean p l) :
    ∃ l', byRegex e p (some par) l r = .ok l' ∧ Derived p D l l' := by
  obtain ⟨l', h1, h2⟩ := C103_list hp hs par hpar D l hu ho hc
  refine ⟨l', ?_, h2⟩
  rw [byRegex, Props.Text.C09_items_partial ',' _ _ (.last r hr hcm), regexList, if_neg hb, regexLoop_eq _ _ _ _ le_rfl hu, Nat.sub_self, List.drop_zero,
    ← hD, h1]
  rfl

/-- a blank in the pattern stops the program -/
theorem C103_blank (par : Option Str) (l : Flds) (r : Str) (hb : ' ' ∈ r) (hcm : ',' ∉ r) : byRegex e p par l r = .abort := by
  rw [byRegex, Props.Text.C09_items_partial ',' _ _ (.last r (by rintro rfl; cases hb) hcm), regexList, if_pos hb]

theorem matchAll_plain (s : Str) (h : '.' ∉ s) (r : Str) : ∀ n, matchAll (s ++ r) n = true ↔ ∃ t, n = s ++ t ∧ matchAll r t = true := by
  induction s with
  | nil => intro n; simp
  | cons c s ih =>
    intro n
    have hc : c ≠ '.' := by rintro rfl; exact h (by simp)
    cases n with
    | nil => simp [matchAll]
    | cons d n =>
      rw [List.cons_append, matchAll, Bool.and_eq_true, ih (fun h2 => h (by simp [h2])) n]
      simp only [Bool.or_eq_true, beq_iff_eq, hc, false_or, List.cons_append, List.cons.injEq]
      constructor
      · rintro ⟨rfl, t, rfl, ht⟩; exact ⟨t, ⟨rfl, rfl⟩, ht⟩
      · rintro ⟨t, ⟨rfl, rfl⟩, ht⟩; exact ⟨rfl, t, rfl, ht⟩

theorem search_metric (s : Str) (h : '.' ∉ s) (n : Str) :
    regexSearch (metricRegex s) n = true ↔ ∃ a b c, n = s ++ ['_', 'D', a, 'D', b, 'D', c] := by
  have e1 : (s ++ "_D.D.D.$".toList).getLast? = some '$' := by simp
  have e2 : (s ++ "_D.D.D.$".toList).dropLast = s ++ "_D.D.D.".toList := by
    rw [List.dropLast_append_of_ne_nil (by decide)]; rfl
  rw [metricRegex, List.cons_append, regexSearch]
  rw [if_pos e1, e2, matchAll_plain s h]
  constructor
  · rintro ⟨t, rfl, ht⟩
    change matchAll ['_', 'D', '.', 'D', '.', 'D', '.'] t = true at ht
    rcases t with _ | ⟨a, _ | ⟨b, _ | ⟨c, _ | ⟨d, _ | ⟨f, _ | ⟨g, _ | ⟨q, _ | ⟨y, t⟩⟩⟩⟩⟩⟩⟩⟩ <;> simp [matchAll] at ht
    obtain ⟨rfl, rfl, rfl, rfl⟩ := ht
    exact ⟨c, f, q, rfl⟩
  · rintro ⟨a, b, c, rfl⟩
    exact ⟨_, rfl, by simp [matchAll]⟩

theorem search_trace (s : Str) (h : '.' ∉ s) (n : Str) : regexSearch (traceRegex s) n = true ↔ ∃ a, n = s ++ ['_', 'D', a] := by
  have e1 : (s ++ "_D.$".toList).getLast? = some '$' := by simp
  have e2 : (s ++ "_D.$".toList).dropLast = s ++ "_D.".toList := by
    rw [List.dropLast_append_of_ne_nil (by decide)]; rfl
  rw [traceRegex, List.cons_append, regexSearch]
  rw [if_pos e1, e2, matchAll_plain s h]
  constructor
  · rintro ⟨t, rfl, ht⟩
    change matchAll ['_', 'D', '.'] t = true at ht
    rcases t with _ | ⟨a, _ | ⟨b, _ | ⟨c, _ | ⟨d, t⟩⟩⟩⟩ <;> simp [matchAll] at ht
    obtain ⟨rfl, rfl⟩ := ht
    exact ⟨c, rfl⟩
  · rintro ⟨a, rfl⟩
    exact ⟨_, rfl, by simp [matchAll]⟩

def digitOf (c : Char) : Fin 3 := if c = '0' then 0 else if c = '1' then 1 else 2
theorem digitOf_digit : ∀ i, digitOf (digit i) = i := by decide

/-- the name without the letter in front and the last index -/
def toDer (cut : ℕ) (n : Str) : Der := ⟨n, n.tail.take (n.tail.length - cut), digitOf (n.getLast?.getD ' ')⟩

theorem toDer_metric (s : Str) (i j d : Fin 3) : toDer 2 (dgName s i j d) = ⟨dgName s i j d, gName s i j, d⟩ := by
  have h1 : (dgName s i j d).getLast? = some (digit d) := by
    rw [show dgName s i j d = ('d' :: gName s i j ++ ['D']) ++ [digit d] by simp [dgName], List.getLast?_concat]
  have h2 : (dgName s i j d).tail = gName s i j ++ ['D', digit d] := by simp [dgName]
  rw [toDer, h1, h2, Option.getD_some, digitOf_digit]
  congr 1
  simp

/-- **C103 (metric).** The pattern ^ds_D.D.D.$ differentiates all the components of a metric s in all directions: where the patch has the
components s_DiDj, i ≤ j, with values, the fields for their derivatives, and no other field of the shape ds_D.D.D., in the end ds_DiDjDl is the
derivative of s_DiDj in direction l, and no other values have changed. -/
theorem C103_metric (hp : Good e p) (hs : p.sys ≠ .other) (par : Str) (hpar : MentionsSpectral par) (s : Str) (hl : s.length < 90)
    (hd : '.' ∉ s) (hb : ' ' ∉ s) (hcm : ',' ∉ s) (l : Flds) (hu : (l.map (·.name)).Nodup) (hc : Clean p l)
    (hf : ∀ i j d : Fin 3, i ≤ j → dgName s i j d ∈ l.map (·.name)) (hv : ∀ i j : Fin 3, i ≤ j → ∃ f, held l (gName s i j) = some f)
    (hx : ∀ a b c, ('d' :: s) ++ ['_', 'D', a, 'D', b, 'D', c] ∈ l.map (·.name) →
      ∃ i j d : Fin 3, i ≤ j ∧ ('d' :: s) ++ ['_', 'D', a, 'D', b, 'D', c] = dgName s i j d) :
    ∃ l', byRegex e p (some par) l (metricRegex ('d' :: s)) = .ok l' ∧ l'.map (·.name) = l.map (·.name) ∧
      (∀ i j d : Fin 3, i ≤ j → ∃ f f' w, held l (gName s i j) = some f ∧ held l' (gName s i j) = some f' ∧ f'.v = f.v ∧
        held l' (dgName s i j d) = some w ∧ Derivative p f.v w.v d) ∧
      ∀ m, (∀ i j d : Fin 3, i ≤ j → m ≠ dgName s i j d) → (held l' m).map (·.v) = (held l m).map (·.v) := by
  set N := (l.map (·.name)).filter (regexSearch (metricRegex ('d' :: s))) with hN
  have hmem : ∀ n, n ∈ N ↔ ∃ i j d : Fin 3, i ≤ j ∧ n = dgName s i j d := by
    intro n
    rw [hN, List.mem_filter, search_metric ('d' :: s) (by simpa using hd)]
    constructor
    · rintro ⟨h1, a, b, c, rfl⟩; exact hx a b c h1
    · rintro ⟨i, j, d, hij, rfl⟩
      exact ⟨hf i j d hij, digit i, digit j, digit d, by simp [dgName, gName]⟩
  have hlen : ∀ i j d : Fin 3, (dgName s i j d).length = s.length + 8 := by intros; simp [dgName, gName]
  have hlen2 : ∀ i j : Fin 3, (gName s i j).length = s.length + 5 := by intros; simp [gName]
  have hsrc : ∀ i j i' j' d' : Fin 3, gName s i j ≠ dgName s i' j' d' := by
    intro i j i' j' d' h
    have := congrArg List.length h
    rw [hlen, hlen2] at this; omega
  have hD : (N.map (toDer 2)).map (·.name) = N := by rw [List.map_map]; exact List.map_id N
  have hder : ∀ q ∈ N.map (toDer 2), ∃ i j d : Fin 3, i ≤ j ∧ q = ⟨dgName s i j d, gName s i j, d⟩ := by
    intro q hq
    obtain ⟨n, hn, rfl⟩ := List.mem_map.1 hq
    obtain ⟨i, j, d, hij, rfl⟩ := (hmem n).1 hn
    exact ⟨i, j, d, hij, toDer_metric s i j d⟩
  have hord : InOrder l (N.map (toDer 2)) := by
    constructor
    · intro q hq
      obtain ⟨i, j, d, hij, rfl⟩ := hder q hq
      refine ⟨.more (gName s i j) d (by simp [gName]) ?_, by dsimp only; rw [hlen]; omega⟩
      have : (gName s i j).getLast? = some (digit j) := by simp [gName]
      rw [this]; intro h; exact digit_ne j (Option.some.inj h)
    · intro q hq
      obtain ⟨i, j, d, hij, rfl⟩ := hder q hq
      exact hf i j d hij
    · rw [hD]; exact hu.filter _
    · refine List.Pairwise.imp_of_mem (R := fun _ _ => True) ?_ (List.pairwise_of_forall fun _ _ => trivial)
      intro a b ha hb _
      obtain ⟨i, j, d, -, rfl⟩ := hder a ha
      obtain ⟨i', j', d', -, rfl⟩ := hder b hb
      exact hsrc _ _ _ _ _
    · intro D1 q D2 hq
      obtain ⟨i, j, d, hij, rfl⟩ := hder q (by rw [hq]; simp)
      exact .inl (hv i j hij)
  obtain ⟨l', h1, h2⟩ := C103_regex hp hs par hpar (metricRegex ('d' :: s)) (by simp [metricRegex])
    (by simp [metricRegex]; exact hb) (by simp [metricRegex]; exact hcm) (N.map (toDer 2)) l (hD.trans hN) hu hord hc
  have hnot : ∀ m, (∀ i j d : Fin 3, i ≤ j → m ≠ dgName s i j d) → m ∉ (N.map (toDer 2)).map (·.name) := by
    intro m hm
    rw [hD, hmem]; rintro ⟨i, j, d, hij, rfl⟩; exact hm i j d hij rfl
  refine ⟨l', h1, h2.names, ?_, fun m hm => h2.others m (hnot m hm)⟩
  intro i j d hij
  obtain ⟨f0, hf0⟩ := hv i j hij
  obtain ⟨f, w, g1, g2, g3⟩ := h2.holds ⟨dgName s i j d, gName s i j, d⟩
    (List.mem_map.2 ⟨_, (hmem _).2 ⟨i, j, d, hij, rfl⟩, toDer_metric s i j d⟩)
  dsimp only at g1 g2 g3
  have hk := h2.others (gName s i j) (hnot _ fun _ _ _ _ => hsrc _ _ _ _ _)
  rw [g1, hf0] at hk
  have hv' : f.v = f0.v := by simpa using hk
  exact ⟨f0, f, w, hf0, g1, hv', g2, by rw [← hv']; exact g3⟩

/-- **C103 (trace).** The pattern ^ds_D.$ differentiates s in all directions. -/
theorem C103_trace (hp : Good e p) (hs : p.sys ≠ .other) (par : Str) (hpar : MentionsSpectral par) (s : Str) (h0 : s ≠ []) (hl : s.length < 90)
    (hd : '.' ∉ s) (hb : ' ' ∉ s) (hcm : ',' ∉ s) (l : Flds) (hu : (l.map (·.name)).Nodup) (hc : Clean p l)
    (hf : ∀ d : Fin 3, 'd' :: s ++ ['_', 'D', digit d] ∈ l.map (·.name)) (f : Coeff.St ℝ) (hv : held l s = some f)
    (hx : ∀ a, 'd' :: s ++ ['_', 'D', a] ∈ l.map (·.name) → ∃ d : Fin 3, a = digit d) :
    ∃ l', byRegex e p (some par) l (traceRegex ('d' :: s)) = .ok l' ∧ l'.map (·.name) = l.map (·.name) ∧
      (∀ d : Fin 3, ∃ w, held l' ('d' :: s ++ ['_', 'D', digit d]) = some w ∧ Derivative p f.v w.v d) ∧
      ∀ m, (∀ d : Fin 3, m ≠ 'd' :: s ++ ['_', 'D', digit d]) → (held l' m).map (·.v) = (held l m).map (·.v) := by
  set N := (l.map (·.name)).filter (regexSearch (traceRegex ('d' :: s))) with hN
  have hmem : ∀ n, n ∈ N ↔ ∃ d : Fin 3, n = 'd' :: s ++ ['_', 'D', digit d] := by
    intro n
    rw [hN, List.mem_filter, search_trace ('d' :: s) (by simpa using hd)]
    constructor
    · rintro ⟨h1, a, rfl⟩
      obtain ⟨d, rfl⟩ := hx a h1
      exact ⟨d, rfl⟩
    · rintro ⟨d, rfl⟩
      exact ⟨hf d, digit d, rfl⟩
  have hsrc : ∀ d' : Fin 3, s ≠ 'd' :: s ++ ['_', 'D', digit d'] := by
    intro d' h
    have := congrArg List.length h
    simp at this
    omega
  have hto : ∀ d : Fin 3, toDer 3 ('d' :: s ++ ['_', 'D', digit d]) = ⟨'d' :: s ++ ['_', 'D', digit d], s, d⟩ := by
    intro d
    have h1 : ('d' :: s ++ ['_', 'D', digit d]).getLast? = some (digit d) := by
      rw [show 'd' :: s ++ ['_', 'D', digit d] = ('d' :: s ++ ['_', 'D']) ++ [digit d] by simp, List.getLast?_concat]
    have h2 : ('d' :: s ++ ['_', 'D', digit d]).tail = s ++ ['_', 'D', digit d] := rfl
    rw [toDer, h1, h2, Option.getD_some, digitOf_digit]
    congr 1
    simp
  have hD : (N.map (toDer 3)).map (·.name) = N := by rw [List.map_map]; exact List.map_id N
  have hder : ∀ q ∈ N.map (toDer 3), ∃ d : Fin 3, q = ⟨'d' :: s ++ ['_', 'D', digit d], s, d⟩ := by
    intro q hq
    obtain ⟨n, hn, rfl⟩ := List.mem_map.1 hq
    obtain ⟨d, rfl⟩ := (hmem n).1 hn
    exact ⟨d, hto d⟩
  have hord : InOrder l (N.map (toDer 3)) := by
    constructor
    · intro q hq
      obtain ⟨d, rfl⟩ := hder q hq
      exact ⟨.first s d h0, by simp; omega⟩
    · intro q hq
      obtain ⟨d, rfl⟩ := hder q hq
      exact hf d
    · rw [hD]; exact hu.filter _
    · refine List.Pairwise.imp_of_mem (R := fun _ _ => True) ?_ (List.pairwise_of_forall fun _ _ => trivial)
      intro a b ha hb _
      obtain ⟨d, rfl⟩ := hder a ha
      obtain ⟨d', rfl⟩ := hder b hb
      exact hsrc _
    · intro D1 q D2 hq
      obtain ⟨d, rfl⟩ := hder q (by rw [hq]; simp)
      exact .inl ⟨f, hv⟩
  obtain ⟨l', h1, h2⟩ := C103_regex hp hs par hpar (traceRegex ('d' :: s)) (by simp [traceRegex])
    (by simp [traceRegex]; exact hb) (by simp [traceRegex]; exact hcm) (N.map (toDer 3)) l (hD.trans hN) hu hord hc
  have hnot : ∀ m, (∀ d : Fin 3, m ≠ 'd' :: s ++ ['_', 'D', digit d]) → m ∉ (N.map (toDer 3)).map (·.name) := by
    intro m hm
    rw [hD, hmem]; rintro ⟨d, rfl⟩; exact hm d rfl
  refine ⟨l', h1, h2.names, ?_, fun m hm => h2.others m (hnot m hm)⟩
  intro d
  obtain ⟨f1, w, g1, g2, g3⟩ := h2.holds ⟨_, s, d⟩ (List.mem_map.2 ⟨_, (hmem _).2 ⟨d, rfl⟩, hto d⟩)
  dsimp only at g1 g2 g3
  have hk := h2.others s (hnot _ hsrc)
  rw [g1, hv] at hk
  have hv' : f1.v = f.v := by simpa using hk
  exact ⟨w, g2, by rw [← hv']; exact g3⟩

/-! ### adding the fields -/

theorem lookUp_none {l : Flds} {n : Str} (h : n ∉ l.map (·.name)) : Field.lookUp l n = none := by
  unfold Field.lookUp
  rw [List.findIdx?_eq_none_iff]
  intro f hf
  simp only [decide_eq_false_iff_not]
  rintro rfl
  exact h (List.mem_map.2 ⟨f, hf, rfl⟩)

/-- new names, all different, are added at the end, in their order, each with the value given -/
theorem C103_fields (L : List Str) (v : Option (Coeff.St ℝ)) : ∀ (l : Flds) (_ : L.Nodup) (_ : ∀ n ∈ L, n ∉ l.map (·.name)),
    addAll l L v = .ok (l ++ L.map fun n => ⟨n, v⟩) := by
  induction L with
  | nil => intro l _ _; simp [addAll]
  | cons n L ih =>
    intro l hL h
    obtain ⟨h1, h2⟩ := List.nodup_cons.1 hL
    rw [addAll, Field.add, lookUp_none (h n (by simp)), Res.bind_ok, ih _ h2 (by
      intro m hm
      rw [List.map_append, List.mem_append, not_or]
      refine ⟨h m (by simp [hm]), ?_⟩
      rw [List.map_singleton, List.mem_singleton]
      rintro rfl; exact h1 hm)]
    simp

/-- fields that are already there stop the program -/
theorem C103_twice (l : Flds) (n : Str) (L : List Str) (v : Option (Coeff.St ℝ)) (h : n ∈ l.map (·.name)) : addAll l (n :: L) v = .abort := by
  have : (Field.lookUp l n).isSome := by
    unfold Field.lookUp
    rw [List.findIdx?_isSome, List.any_eq_true]
    obtain ⟨f, hf, rfl⟩ := List.mem_map.1 h
    exact ⟨f, hf, by simp⟩
  obtain ⟨k, hk⟩ := Option.isSome_iff_exists.1 this
  rw [addAll, Field.add, hk]; rfl

theorem chrisConf_mem : ∀ i j k : Fin 3, j ≤ k → chrisName "ChrisConf".toList i j k ∈ chrisConfNames := by decide +kernel
theorem dchrisConf_mem : ∀ i j k d : Fin 3, j ≤ k → dchrisName "ChrisConf".toList i j k d ∈ chrisConfNames := by decide +kernel
theorem chrisConf_only : ∀ n ∈ chrisConfNames, ∃ i j k : Fin 3, j ≤ k ∧
    (n = chrisName "ChrisConf".toList i j k ∨ ∃ d : Fin 3, n = dchrisName "ChrisConf".toList i j k d) := by decide +kernel

theorem held_append (l l2 : Flds) (n : Str) (h : n ∉ l.map (·.name)) : held (l ++ l2) n = held l2 n := by
  rw [held, held, List.find?_append]
  have : l.find? (fun f => f.name = n) = none := by
    rw [List.find?_eq_none]
    intro f hf
    simp only [decide_eq_true_eq]
    rintro rfl
    exact h (List.mem_map.2 ⟨f, hf, rfl⟩)
  rw [this]; rfl

theorem held_left (l l2 : Flds) (n : Str) (h : n ∈ l.map (·.name)) : held (l ++ l2) n = held l n := by
  rw [held, held, List.find?_append]
  have : (l.find? (fun f => f.name = n)).isSome := by
    rw [List.find?_isSome]
    obtain ⟨f, hf, rfl⟩ := List.mem_map.1 h
    exact ⟨f, hf, by simp⟩
  obtain ⟨f, hf⟩ := Option.isSome_iff_exists.1 this
  rw [hf]; rfl

theorem held_const (L : List Str) (v : Option (Coeff.St ℝ)) (n : Str) (h : n ∈ L) : held (L.map fun n => ⟨n, v⟩) n = v := by
  induction L with
  | nil => cases h
  | cons a L ih =>
    rw [List.map_cons, held]
    by_cases ha : a = n
    · subst ha; rw [List.find?_cons_of_pos (by simp)]; rfl
    · rw [List.find?_cons_of_neg (by simpa using ha)]
      exact ih (by rcases List.mem_cons.1 h with h | h; exact absurd h.symm ha; exact h)

/-- **C103 (conformal Christoffel symbols).** In a patch without them, the fields added are the 18 conformal Christoffel symbols and their 54
derivatives, once each and no others, and they are the ones that the derivatives of the stem dChrisConf need: after any values have been written
to the symbols, these derivatives are taken. -/
theorem C103_conformal (hp : Good e p) (hs : p.sys ≠ .other) (par : Str) (hpar : MentionsSpectral par) (l : Flds)
    (hu : (l.map (·.name)).Nodup) (hc : Clean p l) (hnew : ∀ n ∈ chrisConfNames, n ∉ l.map (·.name)) (zero : Coeff.St ℝ) (hz : Coeff.Inv p.n (mW p) zero) :
    ∃ l1, addChrisConf l zero = .ok l1 ∧ (l1.map (·.name)).Nodup ∧
      (∀ n, n ∈ l1.map (·.name) ↔ n ∈ l.map (·.name) ∨ ∃ i j k : Fin 3, j ≤ k ∧
        (n = chrisName "ChrisConf".toList i j k ∨ ∃ d : Fin 3, n = dchrisName "ChrisConf".toList i j k d)) ∧
      ∀ l2, l2.map (·.name) = l1.map (·.name) → Clean p l2 → (∀ n, (held l1 n).isSome → (held l2 n).isSome) →
        ∃ l3, dChristoffel e p (some par) l2 "dChrisConf".toList = .ok l3 ∧
          ∀ i j k d : Fin 3, j ≤ k → ∃ f w, held l2 (chrisName "ChrisConf".toList i j k) = some f ∧
            held l3 (dchrisName "ChrisConf".toList i j k d) = some w ∧ Derivative p f.v w.v d := by
  have hnd : chrisConfNames.Nodup := by decide +kernel
  refine ⟨_, C103_fields chrisConfNames (some zero) l hnd hnew, ?_, ?_, ?_⟩
  · rw [List.map_append, List.map_map]
    refine hu.append (by simpa [Function.comp_def] using hnd) ?_
    intro n h1 h2
    rw [List.mem_map] at h2
    obtain ⟨m, hm, rfl⟩ := h2
    exact hnew m hm h1
  · intro n
    rw [List.map_append, List.map_map, List.mem_append]
    refine or_congr Iff.rfl ?_
    rw [show ((fun x : Field.Fld (Option (Coeff.St ℝ)) => x.name) ∘ fun n => (⟨n, some zero⟩ : Field.Fld (Option (Coeff.St ℝ)))) = id from rfl, List.map_id]
    constructor
    · exact chrisConf_only n
    · rintro ⟨i, j, k, h, rfl | ⟨d, rfl⟩⟩
      · exact chrisConf_mem i j k h
      · exact dchrisConf_mem i j k d h
  · intro l2 hn2 hc2 hv2
    have hu2 : (l2.map (·.name)).Nodup := by
      rw [hn2, List.map_append, List.map_map]
      refine hu.append (by simpa [Function.comp_def] using hnd) ?_
      intro n h1 h2
      rw [List.mem_map] at h2
      obtain ⟨m, hm, rfl⟩ := h2
      exact hnew m hm h1
    obtain ⟨l3, h1, -, h3, -⟩ := C103_christoffel hp hs par hpar "ChrisConf".toList (by decide) l2 hu2 hc2
      (by
        intro i j k d h
        rw [hn2, List.map_append, List.mem_append]
        exact .inr (List.mem_map.2 ⟨_, List.mem_map_of_mem (dchrisConf_mem i j k d h), rfl⟩))
      (by
        intro i j k h
        refine Option.isSome_iff_exists.1 (hv2 _ ?_)
        rw [held_append _ _ _ (hnew _ (chrisConf_mem i j k h)), held_const _ _ _ (chrisConf_mem i j k h)]; rfl)
    refine ⟨l3, h1, fun i j k d h => ?_⟩
    obtain ⟨f, f', w, g1, -, -, g4, g5⟩ := h3 i j k d h
    exact ⟨f, w, g1, g4, g5⟩

/-! ### the hypotheses are met -/

def zeroF : Coeff.St ℝ := ⟨fun _ => 0, none, none⟩

theorem spectral : MentionsSpectral "Spectral".toList := ⟨[], "Spectral".toList, [], by decide, by
  have h := (C46_strcmp_i (some "Spectral".toList) (some "Spectral".toList)).1 (by decide +kernel)
  obtain ⟨x, y, hx, hy, h⟩ := h
  rw [← Option.some.inj hx, ← Option.some.inj hy] at h; exact h⟩

theorem clean_const (L : List Str) : Clean p (L.map fun n => ⟨n, some zeroF⟩) := by
  intro m g hg
  by_cases h : m ∈ L
  · rw [held_const L _ m h] at hg; cases hg; exact Or.inl rfl
  · rw [held_absent _ _ (by rw [List.map_map]; simpa [Function.comp_def] using h)] at hg; cases hg

example : ∃ l1, addChrisConf [] zeroF = .ok l1 ∧ ∃ l3, dChristoffel 1e-12 demoP (some "Spectral".toList) l1 "dChrisConf".toList = .ok l3 ∧
    (held l3 "dChrisConf_U2D0D1D1".toList).isSome := by
  obtain ⟨l1, h1, h2, h3, h4⟩ := C103_conformal demoP_good (by simp [demoP]) "Spectral".toList spectral [] (by simp)
    (by intro m g h; cases h) (by simp) zeroF (Or.inl rfl)
  refine ⟨l1, h1, ?_⟩
  have e1 : l1 = chrisConfNames.map fun n => ⟨n, some zeroF⟩ := by
    have := C103_fields chrisConfNames (some zeroF) [] (by decide +kernel) (by simp)
    rw [addChrisConf, this] at h1
    simpa using (Res.ok.inj h1).symm
  obtain ⟨l3, h5, h6⟩ := h4 l1 rfl (by rw [e1]; exact clean_const _) (fun _ h => h)
  refine ⟨l3, h5, ?_⟩
  obtain ⟨f, w, -, h7, -⟩ := h6 2 0 1 1 (by decide)
  rw [show "dChrisConf_U2D0D1D1".toList = dchrisName "ChrisConf".toList 2 0 1 1 by decide +kernel, h7]; rfl

/-- a patch with the fluid -/
def fluidPool : Flds := (["enthalpy".toList, "u0".toList, "rho0".toList] ++ fluidNames).map fun n => ⟨n, some zeroF⟩

example : ∃ l', fluidDerives 1e-12 demoP (some "Spectral".toList) fluidPool = .ok l' := by
  obtain ⟨l', h, -⟩ := C103_fluid demoP_good (by simp [demoP]) "Spectral".toList spectral fluidPool (by decide +kernel) (clean_const _)
    "rho0".toList (by decide) 1 (by decide +kernel) (fun q hq => ⟨zeroF, held_const _ _ q (List.mem_append_left _ hq)⟩)
  exact ⟨l', h⟩

/-- a patch with a metric -/
def metricPool : Flds := ((["gConf_D0D0", "gConf_D0D1", "gConf_D0D2", "gConf_D1D1", "gConf_D1D2", "gConf_D2D2"] ++
  ["dgConf_D0D0D0", "dgConf_D0D1D0", "dgConf_D0D2D0", "dgConf_D1D1D0", "dgConf_D1D2D0", "dgConf_D2D2D0",
   "dgConf_D0D0D1", "dgConf_D0D1D1", "dgConf_D0D2D1", "dgConf_D1D1D1", "dgConf_D1D2D1", "dgConf_D2D2D1",
   "dgConf_D0D0D2", "dgConf_D0D1D2", "dgConf_D0D2D2", "dgConf_D1D1D2", "dgConf_D1D2D2", "dgConf_D2D2D2"]).map String.toList).map
     fun n => ⟨n, some zeroF⟩

example : ∃ l', byRegex 1e-12 demoP (some "Spectral".toList) metricPool (metricRegex "dgConf".toList) = .ok l' := by
  obtain ⟨l', h, -⟩ := C103_metric demoP_good (by simp [demoP]) "Spectral".toList spectral "gConf".toList (by decide) (by decide) (by decide)
    (by decide) metricPool (by decide +kernel) (clean_const _) (by decide +kernel)
    (fun i j h => ⟨zeroF, held_const _ _ _ (by revert i j; decide +kernel)⟩)
    (by
      intro a b c h
      have : ∀ n ∈ metricPool.map (·.name), n.head? = some 'd' → ∃ i j d : Fin 3, i ≤ j ∧ n = dgName "gConf".toList i j d := by decide +kernel
      exact this _ h rfl)
  exact ⟨l', h⟩

/-- a patch with the trace of the extrinsic curvature -/
def tracePool : Flds := (["trK", "dtrK_D0", "dtrK_D1", "dtrK_D2"].map String.toList).map fun n => ⟨n, some zeroF⟩

example : ∃ l', byRegex 1e-12 demoP (some "Spectral".toList) tracePool (traceRegex "dtrK".toList) = .ok l' := by
  obtain ⟨l', h, -⟩ := C103_trace demoP_good (by simp [demoP]) "Spectral".toList spectral "trK".toList (by decide) (by decide) (by decide) (by decide)
    (by decide) tracePool (by decide +kernel) (clean_const _) (by decide +kernel) zeroF (held_const _ _ _ (by decide +kernel))
    (by
      intro a h
      have : ∀ n ∈ tracePool.map (·.name), n.head? = some 'd' → ∃ d : Fin 3, n = "dtrK_D".toList ++ [digit d] := by decide +kernel
      obtain ⟨d, hd⟩ := this _ h rfl
      refine ⟨d, ?_⟩
      have := congrArg List.getLast? hd
      simpa using this)
  exact ⟨l', h⟩

end Elliptica.Derive
