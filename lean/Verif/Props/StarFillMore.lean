import Verif.Props.StarFill
import Verif.Props.BhfFill
import Verif.Props.BhfMore
/-!
Property C99 (continuation of the matter fields outside a star): the field along a ray, decay, the enthalpy, the options and
the auxiliary fields.
-/
namespace Elliptica.StarFill
open Real StarFillSpec BhfSpec Bhf Coord Angles

/-- What the search by angles and the interpolations on the surface give in the direction (theta, phi), exactly: the point of the surface at
the distance R from the centre, and the field f with its derivatives F, H there. -/
structure Shows (surf : ℝ → ℝ → Option Surf) (center : Fin 3 → ℝ) (R : ℝ) (f : (Fin 3 → ℝ) → ℝ) (F : Fin 3 → (Fin 3 → ℝ) → ℝ)
    (H : Fin 3 → Fin 3 → (Fin 3 → ℝ) → ℝ) (theta phi : ℝ) : Prop where
  th0 : 0 < theta
  th1 : theta < π
  ph0 : 0 ≤ phi
  ph1 : phi < 2 * π
  pos : 0 < R
  here : ∃ s, surf theta phi = some s ∧ s.point = ray center (unit theta phi) R ∧ s.f = f (ray center (unit theta phi) R) ∧
    (∀ i, s.df i = F i (ray center (unit theta phi) R)) ∧ ∀ i j : Fin 3, i ≤ j → s.ddf (symm3 i j) = H i j (ray center (unit theta phi) R)

/-- the value given to a node on the ray -/
theorem node_ray {e : ℝ} (he : 0 < e) (m : Method) {surf center R f F H theta phi} (hf : Smooth f F H)
    (hs : Shows surf center R f F H theta phi) (r : ℝ) (hr : 0 < r) (p0 : r * unit theta phi 0 = 0 ∨ e ≤ |r * unit theta phi 0|)
    (p1 : r * unit theta phi 1 = 0 ∨ e ≤ |r * unit theta phi 1|) :
    node e m center surf (ray center (unit theta phi) r) =
      value e m R (f (ray center (unit theta phi) R)) (Bhf.slope F center (unit theta phi) R)
        (if m.c2 then curv H center (unit theta phi) R else 0) r := by
  obtain ⟨s, h1, h2, h3, h4, h5⟩ := hs.here
  obtain ⟨a1, a2⟩ := angles_of_ray he hs.th0 hs.th1 hs.ph0 hs.ph1 hr p0 p1
  have hx : (fun i => ray center (unit theta phi) r i - center i) = fun i => r * unit theta phi i := by funext i; unfold ray; ring
  have hy : (fun i => s.point i - center i) = fun i => R * unit theta phi i := by funext i; rw [h2]; unfold ray; ring
  have hl := len_smul r hr.le _ (unit_unit theta phi)
  have hl' := len_smul R hs.pos.le _ (unit_unit theta phi)
  have hx' : ∀ i, ray center (unit theta phi) r i - center i = r * unit theta phi i := fun i => congrFun hx i
  have hd : firstDer (unit theta phi) s.df = Bhf.slope F center (unit theta phi) R := by
    simp only [firstDer, Bhf.slope, Fin.sum_univ_three, h4]
  have hc : secondDer (unit theta phi) (fun i => R * unit theta phi i) s.df s.ddf R = curv H center (unit theta phi) R := by
    rw [secondDer_eq _ _ _ _ hs.pos.ne' (unit_unit theta phi)]
    unfold curv
    refine Finset.sum_congr rfl fun i _ => ?_
    congr 1
    refine Finset.sum_congr rfl fun j _ => ?_
    congr 1
    rcases le_total i j with hij | hij
    · rw [h5 i j hij]
    · rw [symm3_comm, h5 j i hij, hf.symm]
  unfold node
  dsimp only
  rw [hx, hl, if_neg hr.ne', hx' 2, hx' 1, hx' 0, a1, a2, h1]
  dsimp only
  rw [hy, hl', normal_eq, hd, hc, h3]

/-- left of R the one function, from R on the other: derivative where each is differentiable on its side -/
theorem glue_at {a b a' b' : ℝ → ℝ} {R : ℝ} (ha : ∀ s ≤ R, HasDerivAt a (a' s) s) (hb : ∀ s, R ≤ s → HasDerivAt b (b' s) s)
    (h : a R = b R) (h' : a' R = b' R) (s : ℝ) : HasDerivAt (glue a b R) (glue a' b' R s) s := by
  rcases lt_trichotomy s R with hs | hs | hs
  · have e : glue a' b' R s = a' s := if_pos hs
    rw [e]
    refine (ha s hs.le).congr_of_eventuallyEq ?_
    filter_upwards [Iio_mem_nhds hs] with t ht
    exact if_pos ht
  · subst hs
    have e : glue a' b' s s = b' s := if_neg (lt_irrefl s)
    rw [e]
    have l : HasDerivWithinAt (glue a b s) (b' s) (Set.Iic s) s := by
      refine (h' ▸ (ha s le_rfl).hasDerivWithinAt).congr (fun t ht => ?_) ?_
      · rcases lt_or_eq_of_le (show t ≤ s from ht) with ht | ht
        · exact if_pos ht
        · rw [ht]; exact (if_neg (lt_irrefl s)).trans h.symm
      · exact (if_neg (lt_irrefl s)).trans h.symm
    have r : HasDerivWithinAt (glue a b s) (b' s) (Set.Ici s) s :=
      (hb s le_rfl).hasDerivWithinAt.congr (fun t ht => if_neg (not_lt.2 ht)) (if_neg (lt_irrefl s))
    have := l.union r
    rwa [Set.Iic_union_Ici, hasDerivWithinAt_univ] at this
  · have e : glue a' b' R s = b' s := if_neg (not_lt.2 hs.le)
    rw [e]
    refine (hb s hs.le).congr_of_eventuallyEq ?_
    filter_upwards [Ioi_mem_nhds hs] with t ht
    exact if_neg (not_lt.2 (le_of_lt ht))

theorem joined_of {f : (Fin 3 → ℝ) → ℝ} {F H} (hf : Smooth f F H) (c N : Fin 3 → ℝ) (R : ℝ) (hR : 0 < R) (g : ℝ → ℝ) (k : ℝ)
    (hg : Continues g R (f (ray c N R)) (Bhf.slope F c N R) k) :
    ∃ G G1 G2 : ℝ → ℝ, (∀ s, HasDerivAt G (G1 s) s) ∧ Continuous G1 ∧ (k = curv H c N R → (∀ s, HasDerivAt G1 (G2 s) s) ∧ Continuous G2) ∧
      (∀ s ≤ R, G s = f (ray c N s)) ∧ ∀ r, R ≤ r → G r = g r := by
  obtain ⟨h, h1, h2, e0, d0, d1, c2, v0, v1, v2⟩ := hg
  refine ⟨glue (fun s => f (ray c N s)) h R, glue (Bhf.slope F c N) h1 R, glue (curv H c N) (fun s => h2 (max R s)) R, fun s => ?_, ?_, fun hk => ⟨fun s => ?_, ?_⟩,
    fun s hs => ?_, fun r hr => ?_⟩
  · exact glue_at (fun s _ => slope_has hf c N s) (fun s hs => d0 s (hR.trans_le hs)) v0.symm v1.symm s
  · rw [show glue (Bhf.slope F c N) h1 R = glue (Bhf.slope F c N) (fun s => h1 (max R s)) R by
      funext s
      unfold glue
      split
      · rfl
      · rename_i hh; dsimp only; rw [max_eq_right (not_lt.1 hh)]]
    refine glue_cont (continuous_iff_continuousAt.2 fun s => (curv_has hf c N s).continuousAt) (continuous_iff_continuousAt.2 fun s => ?_) (by simp [v1])
    exact ContinuousAt.comp (f := fun s => max R s) (d1 _ (hR.trans_le (le_max_left _ _))).continuousAt (by fun_prop)
  · have e : glue (curv H c N) (fun s => h2 (max R s)) R s = glue (curv H c N) h2 R s := by
      unfold glue
      split
      · rfl
      · rename_i hh; dsimp only; rw [max_eq_right (not_lt.1 hh)]
    rw [e]
    exact glue_at (fun s _ => curv_has hf c N s) (fun s hs => d1 s (hR.trans_le hs)) v1.symm (hk ▸ v2.symm) s
  · refine glue_cont (curv_cont hf c N) (continuous_iff_continuousAt.2 fun s => ?_) (by simp [v2, hk])
    have hp : max R s ∈ Set.Ioi (0 : ℝ) := hR.trans_le (le_max_left _ _)
    exact ContinuousAt.comp (f := fun s => max R s) (c2.continuousAt (Ioi_mem_nhds hp)) (by fun_prop)
  · rcases lt_or_eq_of_le hs with hs | hs
    · exact if_pos hs
    · rw [hs]; exact (if_neg (lt_irrefl R)).trans v0
  · exact (if_neg (not_lt.2 hr)).trans (e0 r hr)

/-- **C99 (the field across the surface, second order).** Along every ray of the centre on which the surface is found, one of the five methods of second
order either ends the run — only exp2, where the slope or the second derivative at the surface is zero to round-off — or the
field inside and the values given to the nodes outside are one twice continuously differentiable function of the distance. -/
theorem C99_joined2 {e : ℝ} (he : 0 < e) (m : Method)
    (hm : m = .poly2 ∨ m = .exp2 ∨ m = .inverseR2 ∨ m = .inverseR2Expmr ∨ m = .inverseR2ExpmAr) {surf center R f F H theta phi}
    (hf : Smooth f F H) (hs : Shows surf center R f F H theta phi) :
    let N := unit theta phi
    let near := fun r => (r * N 0 = 0 ∨ e ≤ |r * N 0|) ∧ (r * N 1 = 0 ∨ e ≤ |r * N 1|)
    (m = .exp2 ∧ (|curv H center N R| < e ∨ |Bhf.slope F center N R| < e) ∧
        ∀ r, 0 < r → near r → node e m center surf (ray center N r) = .abort) ∨
      ∃ G G1 G2 : ℝ → ℝ, (∀ s, HasDerivAt G (G1 s) s) ∧ (∀ s, HasDerivAt G1 (G2 s) s) ∧ Continuous G2 ∧
        (∀ s ≤ R, G s = f (ray center N s)) ∧
        ∀ r, R ≤ r → near r → node e m center surf (ray center N r) = .ok (G r) := by
  intro N near
  have hc2 : m.c2 = true := by rcases hm with rfl | rfl | rfl | rfl | rfl <;> rfl
  have hn := fun r (hr : 0 < r) (hp : near r) => node_ray he m hf hs r hr hp.1 hp.2
  simp only [hc2, if_true] at hn
  rcases C99_second e he m hm R (f (ray center N R)) (Bhf.slope F center N R) (curv H center N R) hs.pos with ⟨h1, h2, h3⟩ | ⟨g, h1, h2⟩
  · exact .inl ⟨h1, h2, fun r hr hp => (hn r hr hp).trans (h3 r)⟩
  · obtain ⟨G, G1, G2, a1, -, a2, a3, a4⟩ := joined_of hf center N R hs.pos g _ h2
    obtain ⟨a5, a6⟩ := a2 rfl
    exact .inr ⟨G, G1, G2, a1, a5, a6, a3, fun r hr hp => (hn r (hs.pos.trans_le hr) hp).trans ((h1 r).trans (by rw [a4 r hr]))⟩

/-- **C99 (the field across the surface, first order).** With inverse_r_expmr and inverse_r_expmAr the field inside and the values given to the
nodes outside are one continuously differentiable function of the distance. -/
theorem C99_joined1 {e : ℝ} (he : 0 < e) (m : Method) (hm : m = .inverseRExpmr ∨ m = .inverseRExpmAr) {surf center R f F H theta phi}
    (hf : Smooth f F H) (hs : Shows surf center R f F H theta phi) :
    let N := unit theta phi
    let near := fun r => (r * N 0 = 0 ∨ e ≤ |r * N 0|) ∧ (r * N 1 = 0 ∨ e ≤ |r * N 1|)
    ∃ G G1 : ℝ → ℝ, (∀ s, HasDerivAt G (G1 s) s) ∧ Continuous G1 ∧ (∀ s ≤ R, G s = f (ray center N s)) ∧
        ∀ r, R ≤ r → near r → node e m center surf (ray center N r) = .ok (G r) := by
  intro N near
  obtain ⟨g, k', h1, h2⟩ := C99_first e m hm R (f (ray center N R)) (Bhf.slope F center N R)
    (if m.c2 then curv H center (unit theta phi) R else 0) hs.pos
  obtain ⟨G, G1, G2, a1, a2, -, a3, a4⟩ := joined_of hf center N R hs.pos g _ h2
  exact ⟨G, G1, a1, a2, a3, fun r hr hp => (node_ray he m hf hs r (hs.pos.trans_le hr) hp.1 hp.2).trans ((h1 r).trans (by rw [a4 r hr]))⟩

/-- **C99 (the field across the surface, order zero).** With expmr they are one continuous function. -/
theorem C99_joined0 {e : ℝ} (he : 0 < e) {surf center R f F H theta phi} (hf : Smooth f F H) (hs : Shows surf center R f F H theta phi) :
    let N := unit theta phi
    let near := fun r => (r * N 0 = 0 ∨ e ≤ |r * N 0|) ∧ (r * N 1 = 0 ∨ e ≤ |r * N 1|)
    ∃ G : ℝ → ℝ, Continuous G ∧ (∀ s ≤ R, G s = f (ray center N s)) ∧
        ∀ r, R ≤ r → near r → node e .expmr center surf (ray center N r) = .ok (G r) := by
  intro N near
  refine ⟨glue (fun s => f (ray center N s)) (expmr R (f (ray center N R))) R, ?_, fun s hs' => ?_, fun r hr hp => ?_⟩
  · refine glue_cont (continuous_iff_continuousAt.2 fun s => (slope_has hf center N s).continuousAt) ?_ (by simp [expmr])
    unfold expmr; fun_prop
  · rcases lt_or_eq_of_le hs' with h | h
    · exact if_pos h
    · rw [h]; exact (if_neg (lt_irrefl R)).trans (by simp [expmr])
  · refine (node_ray he .expmr hf hs r (hs.pos.trans_le hr) hp.1 hp.2).trans ?_
    show Res.ok _ = Res.ok _
    rw [show glue (fun s => f (ray center N s)) (expmr R (f (ray center N R))) R r = expmr R (f (ray center N R)) r from if_neg (not_lt.2 hr)]

end Elliptica.StarFill
