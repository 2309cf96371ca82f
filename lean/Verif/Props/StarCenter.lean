import Verif.Model.StarCenter
import Verif.Spec.StarCenter
import Verif.Props.Tol
import Verif.Props.Tov
import Verif.Props.Spline
import Verif.Props.FreeData
/-!
C98: the centre of the star, the spin part of the velocity and the start-off from a TOV solution.
-/
namespace Elliptica.Star
open Elliptica.Fields Elliptica.StarSpec Elliptica.Text Matrix

/-! ### the centre -/

/-- whether the centre found is at the present one, in every coordinate within the round-off -/
theorem still_iff (e : ℝ) (he : 0 < e) (C R : Pt) : still e C R = true ↔ ∀ i, |R i - C i| < e := by
  have h : ∀ x : ℝ, Tol.eql e x 0 = true ↔ |x| < e := fun x => by
    rw [(Tol.C13_meaning e x 0 he).1, sub_zero]
  simp only [still, Bool.and_eq_true, h]
  constructor
  · rintro ⟨⟨a, b⟩, c⟩ i
    fin_cases i <;> assumption
  · intro h; exact ⟨⟨h 0, h 1⟩, h 2⟩

theorem lin_deriv (d C : Fin 3 → ℝ) (p : Pt) (i : Fin 3) :
    HasDerivAt (line (fun x => d 0 * (x 0 - C 0) + d 1 * (x 1 - C 1) + d 2 * (x 2 - C 2)) i p) (d i) (p i) := by
  have h := fun k => ((Bh.coord_deriv p k i).sub_const (C k)).const_mul (d k)
  have h2 := ((h 0).add (h 1)).add (h 2)
  refine h2.congr_deriv ?_
  fin_cases i <;> simp

/-- **C98 (interpolation).** If the enthalpy has no gradient at the point found, which lies with its surroundings in the star, then
afterwards its gradient at the centre is the fraction 1 - W of what it was; if the point found is the centre nothing changes -/
theorem C98_interpolation (e W : ℝ) (he : 0 < e) (C R : Pt) (inside : Pt → Bool) (h : Pt → ℝ) (d : Fin 3 → ℝ) (hC : Grad h C d)
    (hR : Grad h R 0) (hin : ∀ i, ∀ᶠ t in nhds (R i), inside (Function.update R i t) = true) :
    ((∀ i, |R i - C i| < e) → byInterpolation e W C R inside h = h) ∧
    ((∃ i, e ≤ |R i - C i|) → Grad (byInterpolation e W C R inside h) C (fun i => (1 - W) * d i)) := by
  constructor
  · intro hs; unfold byInterpolation; rw [if_pos ((still_iff e he C R).2 hs)]
  · rintro ⟨k, hk⟩ i
    have hs : ¬ still e C R = true := fun h => absurd ((still_iff e he C R).1 h k) (not_lt.2 hk)
    have shift : ∀ t : ℝ, (fun j => Function.update C i t j + (R j - C j)) = Function.update R i (t + (R i - C i)) := by
      intro t; funext j
      by_cases hj : j = i
      · subst hj; simp
      · simp [hj]
    have h1 : HasDerivAt (fun t : ℝ => t + (R i - C i)) 1 (C i) := (hasDerivAt_id _).add_const _
    have h2 : HasDerivAt (fun t : ℝ => line h i R (t + (R i - C i))) 0 (C i) := by
      have := HasDerivAt.comp (C i) (h₂ := line h i R) (h := fun t : ℝ => t + (R i - C i)) (h₂' := 0)
        (by rw [add_sub_cancel]; exact hR i) h1
      exact this.congr_deriv (by simp)
    have h3 := ((hC i).const_mul (1 - W)).add (h2.const_mul W)
    rw [mul_zero, add_zero] at h3
    refine h3.congr_of_eventuallyEq ?_
    have hc : Filter.Tendsto (fun t : ℝ => t + (R i - C i)) (nhds (C i)) (nhds (R i)) := by
      have := h1.continuousAt.tendsto
      simpa using this
    filter_upwards [hc.eventually (hin i)] with t ht
    show byInterpolation e W C R inside h (Function.update C i t) = _
    unfold byInterpolation
    rw [if_neg hs]
    dsimp only
    rw [shift t, if_pos ht]
    rfl

/-- **C98 (Taylor expansion).** The gradient at the centre becomes the fraction 1 - W of what it was, the value at the centre stays,
and everywhere the gradient changes by the same amount; if the point found is the centre nothing changes -/
theorem C98_taylor (e W : ℝ) (he : 0 < e) (C R : Pt) (d : Fin 3 → ℝ) (h : Pt → ℝ) :
    ((∀ i, |R i - C i| < e) → ∀ found, byTaylor e W C R found d h = .ok h) ∧
    ((∃ i, e ≤ |R i - C i|) → byTaylor e W C R false d h = .abort ∧ ∃ h', byTaylor e W C R true d h = .ok h' ∧ h' C = h C ∧
      (Grad h C d → Grad h' C (fun i => (1 - W) * d i)) ∧ ∀ p g, Grad h p g → Grad h' p (fun i => g i - W * d i)) := by
  constructor
  · intro hs found; unfold byTaylor; rw [if_pos ((still_iff e he C R).2 hs)]
  · rintro ⟨k, hk⟩
    have hs : ¬ still e C R = true := fun h => absurd ((still_iff e he C R).1 h k) (not_lt.2 hk)
    have key : ∀ p g, Grad h p g → Grad (fun x => h x - W * (d 0 * (x 0 - C 0) + d 1 * (x 1 - C 1) + d 2 * (x 2 - C 2))) p
        (fun i => g i - W * d i) := fun p g hg i => (hg i).sub ((lin_deriv d C p i).const_mul W)
    refine ⟨by unfold byTaylor; rw [if_neg hs]; rfl, _, by unfold byTaylor; rw [if_neg hs]; rfl, by simp, fun hd => ?_, key⟩
    have := key C d hd
    refine fun i => (this i).congr_deriv ?_
    ring

/-- **C98 (what counts as the centre).** The point returned by the search counts if it reports success or a residual below the square
root of its tolerance; otherwise the enthalpy is left alone, whatever the method -/
theorem C98_failed (e W tol : ℝ) (he : 0 < e) (C : Pt) (inside : Pt → Bool) (D : (Pt → ℝ) → Fin 3 → ℝ) (method : Str) (o : Found)
    (h : Pt → ℝ) (hm : strcmpI (some method) (some "Interpolation".toList) ∨ strcmpI (some method) (some "Taylor_expansion".toList))
    (h1 : o.ok = false) (h2 : √tol ≤ o.residual) : keepCenter e W tol C true inside D method o h = .ok h := by
  have hl : Tol.lss e o.residual √tol = false := by
    rw [← Bool.not_eq_true, (Tol.C13_meaning e _ _ he).2.1]; linarith
  have hc : findCenter e tol C o = C := by unfold findCenter; rw [h1, hl]; simp
  have hs : still e C C = true := (still_iff e he C C).2 fun i => by simpa using he
  unfold keepCenter
  rw [hc]
  by_cases hi : strcmpI (some method) (some "Interpolation".toList)
  · rw [if_neg (by simp), if_pos hi]; unfold byInterpolation; rw [if_pos hs]
  · have hi2 : strcmpI (some method) (some "Taylor_expansion".toList) = true := by rcases hm with h | h <;> [exact absurd h hi; exact h]
    rw [if_neg (by simp), if_neg hi, if_pos hi2]; unfold byTaylor; rw [if_pos hs]

/-- other methods stop the run -/
theorem C98_method (e W tol : ℝ) (C : Pt) (found : Bool) (inside : Pt → Bool) (D : (Pt → ℝ) → Fin 3 → ℝ) (method : Str) (o : Found)
    (h : Pt → ℝ) (h1 : ¬ strcmpI (some method) (some "Interpolation".toList)) (h2 : ¬ strcmpI (some method) (some "Taylor_expansion".toList)) :
    keepCenter e W tol C found inside D method o h = .abort := by
  unfold keepCenter
  by_cases hf : (!found) = true
  · rw [if_pos hf]
  · rw [if_neg hf, if_neg h1, if_neg h2]

/-- **C98 (keeping the centre).** With the Taylor expansion, repeated with any outcomes of the search, each turn either leaves the
enthalpy alone or multiplies its gradient at the centre by 1 - W -/
theorem C98_keep (e W tol : ℝ) (C : Pt) (inside : Pt → Bool) (D : (Pt → ℝ) → Fin 3 → ℝ) (method : Str)
    (hm : strcmpI (some method) (some "Taylor_expansion".toList)) (hm2 : ¬ strcmpI (some method) (some "Interpolation".toList))
    (o : ℕ → Found) (h : ℕ → Pt → ℝ) (hD : ∀ g d, Grad g C d → D g = d)
    (hs : ∀ n, keepCenter e W tol C true inside D method (o n) (h n) = .ok (h (n + 1))) (d : Fin 3 → ℝ) (h0 : Grad (h 0) C d) (n : ℕ) :
    ∃ k ≤ n, Grad (h n) C (fun i => (1 - W) ^ k * d i) ∧ h n C = h 0 C ∧
      (k = n ∨ ∃ m < n, still e C (findCenter e tol C (o m)) = true) := by
  induction n with
  | zero => exact ⟨0, le_refl _, by simpa using h0, rfl, Or.inl rfl⟩
  | succ n ih =>
    obtain ⟨k, hk, hg, hv, hor⟩ := ih
    have hn := hs n
    unfold keepCenter at hn
    rw [if_neg (by simp), if_neg hm2, if_pos hm] at hn
    unfold byTaylor at hn
    by_cases hst : still e C (findCenter e tol C (o n)) = true
    · rw [if_pos hst] at hn
      injection hn with hn
      exact ⟨k, by omega, hn ▸ hg, hn ▸ hv, Or.inr ⟨n, by omega, hst⟩⟩
    · rw [if_neg hst, if_neg (by simp)] at hn
      injection hn with hn
      have hd : D (h n) = fun i => (1 - W) ^ k * d i := hD _ _ hg
      refine ⟨k + 1, by omega, ?_, ?_, ?_⟩
      · rw [← hn]
        intro i
        have := (hg i).sub ((lin_deriv (D (h n)) C C i).const_mul W)
        refine this.congr_deriv ?_
        rw [hd]; ring
      · rw [← hn, ← hv]; simp
      · rcases hor with h | ⟨m, h1, h2⟩
        · exact Or.inl (by omega)
        · exact Or.inr ⟨m, by omega, h2⟩

/-! ### the spin -/

/-- **C98 (spin).** The spin part of the velocity is that of a rigid body that turns with the angular velocity Ω about the centre: it
is Ω × (x - C), vanishes at the centre and on the axis, has no strain, and its curl is 2Ω -/
theorem C98_spin (Om C : Fin 3 → ℝ) : spinW Om C = turning Om C ∧ Rigid (spinW Om C) ∧ spinW Om C C = 0 ∧
    (∀ s : ℝ, spinW Om C (fun i => C i + s * Om i) = 0) ∧
    ∀ p, (pd (fun q => spinW Om C q 2) 1 p - pd (fun q => spinW Om C q 1) 2 p = 2 * Om 0) ∧
      (pd (fun q => spinW Om C q 0) 2 p - pd (fun q => spinW Om C q 2) 0 p = 2 * Om 1) ∧
      (pd (fun q => spinW Om C q 1) 0 p - pd (fun q => spinW Om C q 0) 1 p = 2 * Om 2) := by
  have hR : ∀ p i, Grad (fun q => spinW Om C q i) p ((![![0, -Om 2, Om 1], ![Om 2, 0, -Om 0], ![-Om 1, Om 0, 0]] : Fin 3 → Fin 3 → ℝ) i) := by
    intro p i j
    have h := lin_deriv ((![![0, -Om 2, Om 1], ![Om 2, 0, -Om 0], ![-Om 1, Om 0, 0]] : Fin 3 → Fin 3 → ℝ) i) C p j
    refine h.congr_of_eventuallyEq (Filter.Eventually.of_forall fun t => ?_)
    fin_cases i <;> simp [line, spinW] <;> ring
  refine ⟨?_, ⟨_, ?_, hR⟩, ?_, ?_, fun p => ?_⟩
  · funext p i
    fin_cases i <;> simp [spinW, turning, cross_apply]
  · intro i j; fin_cases i <;> fin_cases j <;> simp
  · funext i; fin_cases i <;> simp [spinW]
  · intro s; funext i; fin_cases i <;> simp [spinW] <;> ring
  · have hd : ∀ i j, pd (fun q => spinW Om C q i) j p = _ := fun i j => (hR p i j).deriv
    simp only [hd]
    simp
    refine ⟨by ring, by ring, by ring⟩

/-! ### the start-off -/

theorem dist_eq (C p : Pt) : dist C p = Fd.radius (fun i => p i - C i) := rfl

/-- at a node of the table the spline has the value of the table -/
theorem segment_node (e : ℝ) (he : 0 < e) (n : ℕ) (x : ℕ → ℝ) (hx : ∀ i < n, x i + e < x (i + 1)) (i : ℕ) (k s : ℕ) (hk : 0 < k)
    (h1 : s ≤ i) (h2 : i ≤ s + k) (hn : s + k ≤ n) :
    ∃ j, Interp.segment e (x i) x k s = some j ∧ j < n ∧ (j = i ∨ j + 1 = i) := by
  have mono : ∀ a b, a ≤ b → b ≤ n → x a ≤ x b := by
    intro a b hab hb
    induction b, hab using Nat.le_induction with
    | base => exact le_refl _
    | succ b hab ih =>
      have := hx b (by omega)
      linarith [ih (by omega)]
  induction k generalizing s with
  | zero => omega
  | succ k ih =>
    have hm := fun y : ℝ => Tol.C13_meaning e (x i) y he
    rw [Interp.segment]
    by_cases hi : i ≤ s + 1
    · have c1 : Tol.grtEql e (x i) (x s) = true := by
        rw [(hm _).2.2.2.2]
        rcases (by omega : i = s ∨ i = s + 1) with rfl | rfl
        · rw [sub_self]; exact ⟨by linarith, by linarith⟩
        · have := hx s (by omega); exact ⟨by linarith, by intro h; linarith⟩
      have c2 : Tol.lssEql e (x i) (x (s + 1)) = true := by
        rw [(hm _).2.2.2.1]
        rcases (by omega : i = s ∨ i = s + 1) with rfl | rfl
        · have := hx i (by omega); exact ⟨by linarith, by intro h; linarith⟩
        · rw [sub_self]; exact ⟨he, by linarith⟩
      rw [c1, c2]
      exact ⟨s, rfl, by omega, by omega⟩
    · have c2 : Tol.lssEql e (x i) (x (s + 1)) = false := by
        rw [← Bool.not_eq_true, (hm _).2.2.2.1]
        have a1 := hx (s + 1) (by omega)
        have a2 := mono (s + 1 + 1) i (by omega) (by omega)
        rintro ⟨h, -⟩
        linarith
      rw [c2, Bool.and_false, if_neg (by simp)]
      exact ih (s + 1) (by omega) (by omega) (by omega) (by omega)

theorem spline_node (e : ℝ) (he : 0 < e) (n : ℕ) (hn : 0 < n) (x f : ℕ → ℝ) (hx : ∀ i < n, x i + e < x (i + 1)) (i : ℕ) (hi : i ≤ n) :
    Interp.spline e (n + 1) x f (x i) = .ok (some (f i)) := by
  have hinc : Interp.Inc n x := fun j hj => by linarith [hx j hj]
  have hgap : x 0 + e ≤ x n := by
    have : ∀ m, m < n → x 0 + e ≤ x (m + 1) := by
      intro m hm
      induction m with
      | zero => exact (hx 0 hn).le
      | succ m ih => linarith [ih (by omega), hx (m + 1) hm]
    obtain ⟨m, rfl⟩ : ∃ m, n = m + 1 := ⟨n - 1, by omega⟩
    exact this m (by omega)
  have ho := Interp.orderTest_inc e n hn x hinc he hgap
  have hS := Interp.C30_is_spline n hn x f hinc
  obtain ⟨j, hj, hjn, hji⟩ := segment_node e he n x hx i n 0 hn (by omega) (by omega) (by omega)
  unfold Interp.spline
  have o1 : Interp.ordered false (n + 1) x = x := rfl
  have o2 : Interp.ordered false (n + 1) f = f := rfl
  simp only [ho, Res.bind_ok, o1, o2, Nat.add_sub_cancel, hj, Option.map]
  rcases hji with rfl | rfl
  · simp
  · have := hS.right j hjn
    rw [Interp.pieces, Interp.cub_eval] at this
    rw [this]

theorem collect_ok (N : ℕ) (g : ℕ → Res ℝ) (f : ℕ → ℝ) (h : Tov.collect N g = .ok f) (i : ℕ) (hi : i < N) : g i = .ok (f i) := by
  unfold Tov.collect at h
  induction N generalizing f with
  | zero => omega
  | succ N ih =>
    rw [List.range_succ, List.foldl_append] at h
    simp only [List.foldl_cons, List.foldl_nil] at h
    cases h1 : (List.range N).foldl (fun (acc : Res (ℕ → ℝ)) i => acc.bind fun f => (g i).bind fun v => Res.ok (Function.update f i v)) (Res.ok fun _ => 0) with
    | ok f1 =>
      rw [h1] at h
      cases h2 : g N with
      | ok v =>
        simp only [h2, Res.bind_ok] at h
        injection h with h
        by_cases hiN : i = N
        · subst hiN; rw [h2, ← h]; simp
        · rw [← h, Function.update_of_ne hiN]
          exact ih f1 h1 (by omega)
      | _ => simp [h2, Res.bind] at h
    | abort => rw [h1] at h; cases h
    | ub => rw [h1] at h; cases h

variable (E : Tov.Eos)

/-- what a successful solution contains -/
theorem solution_ok (e : ℝ) (N : ℕ) (exit : Bool) (barM : ℝ) (t : Tov.Out) (pr : Tov.Profile) (re : Tov.Rest)
    (h : Tov.solution E e N exit barM = .ok t) (hp : t.prof = some pr) (hr : t.rest = some re) :
    2 ≤ N ∧ ∃ (a c : ℝ), pr = ⟨fun i => (Tov.star E N a i).1, fun i => (Tov.star E N a i).2, Tov.hAt N a⟩ ∧
      t.admM = (Tov.star E N a (N - 1)).2 ∧ re.phi = Tov.phiAt E N a ∧ t.hCent = a ∧ Tov.cRbar E N a = .ok c ∧
      (∀ i < N, Tov.rbarAt E e N a c i = .ok (re.rbar i)) ∧ re.psi = Tov.psiAt c (fun i => (Tov.star E N a i).1) re.rbar := by
  unfold Tov.solution at h
  split at h
  · injection h with h; rw [← h] at hp; cases hp
  · split at h
    · cases h
    · split at h
      · cases h
      · rename_i h2 _
        refine ⟨by omega, ?_⟩
        dsimp only at h
        split at h
        · split at h
          · cases h
          · injection h with h; rw [← h] at hr; cases hr
        · generalize (Tov.search e (Tov.massAt E N) barM Tov.maxIter Tov.Search.init).hCent = a at *
          cases hd : Tov.massesDiffer E e N a with
          | ok differ =>
            rw [hd, Res.bind_ok] at h
            cases hf : Tov.fillRest E e N a with
            | ok rest =>
              rw [hf, Res.bind_ok] at h
              injection h with h
              subst h
              injection hp with hp
              injection hr with hr
              subst hp hr
              unfold Tov.fillRest at hf
              cases hc : Tov.cRbar E N a with
              | ok c =>
                rw [hc, Res.bind_ok] at hf
                cases hcol : Tov.collect N (Tov.rbarAt E e N a c) with
                | ok rb =>
                  rw [hcol, Res.bind_ok] at hf
                  injection hf with hf
                  subst hf
                  exact ⟨a, c, rfl, rfl, rfl, rfl, hc, fun i hi => collect_ok N _ _ hcol i hi, rfl⟩
                | _ => simp [hcol, Res.bind] at hf
              | _ => simp [hc, Res.bind] at hf
            | _ => simp [hf, Res.bind] at h
          | _ => simp [hd, Res.bind] at h

/-- **C98 (start-off).** At every distance from the centre that is in the table of the TOV solution, the fields written inside the star
are those of the solution: ψ and h of that row, the lapse exp(φ) of that row, the density of h, and the spin; on the surface they
join the fields written outside -/
theorem C98_start (e : ℝ) (he : 0 < e) (N : ℕ) (exit : Bool) (barM : ℝ) (t : Tov.Out) (pr : Tov.Profile) (re : Tov.Rest)
    (h : Tov.solution E e N exit barM = .ok t) (hp : t.prof = some pr) (hr : t.rest = some re)
    (hgap : ∀ i, i + 1 < N → re.rbar i + e < re.rbar (i + 1)) (hM : 0 ≤ t.admM) (hR : 2 * t.admM < pr.r (N - 1))
    (hh : ∀ i < N, 0 < pr.h i) (rho0 : ℝ → ℝ) (Om yCM : ℝ) (spin : Fin 3 → ℝ) (C p : Pt) (i : ℕ) (hi : i < N) (hd : dist C p = re.rbar i) :
    ∃ f, startInside e N t rho0 Om yCM spin C p = .ok f ∧ f.psi = re.psi i ∧ f.alphaPsi = re.psi i * Real.exp (re.phi i) ∧ f.h = pr.h i ∧
      f.rho0 = rho0 (pr.h i) ∧ f.W = turning spin C p ∧
      (i + 1 = N → f.h = 1 ∧ (f.psi, f.alphaPsi) = startOutside t.admM C p) := by
  obtain ⟨hN, a, c, hpr, hadm, hphi, -, -, hrb, hpsi⟩ := solution_ok E e N exit barM t pr re h hp hr
  obtain ⟨n, rfl⟩ : ∃ n, N = n + 1 := ⟨N - 1, by omega⟩
  have hs := fun f => spline_node e he n (by omega) re.rbar f (fun j hj => hgap j (by omega)) i (by omega)
  have hq : 0 < 1 - 2 * t.admM / pr.r (n + 1 - 1) := by
    have : 0 < pr.r (n + 1 - 1) := by linarith
    rw [sub_pos, div_lt_one this]; exact hR
  have hphi' : Real.exp (re.phi i) = √(1 - 2 * t.admM / pr.r (n + 1 - 1)) / pr.h i := by
    have hrr : pr.r (n + 1 - 1) = (Tov.star E (n + 1) a (n + 1 - 1)).1 := by rw [hpr]
    have hhh : pr.h i = Tov.hAt (n + 1) a i := by rw [hpr]
    rw [hphi]
    unfold Tov.phiAt
    rw [← hadm, ← hrr, ← hhh, Real.exp_add, Real.exp_neg, Real.exp_log (hh i hi), Real.exp_log (Real.sqrt_pos.2 hq)]
    field_simp
  refine ⟨⟨re.psi i, re.psi i * (√(1 - 2 * t.admM / pr.r (n + 1 - 1)) / pr.h i), pr.h i, rho0 (pr.h i), startPhi Om yCM C p,
    spinW spin C p⟩, ?_, rfl, by rw [hphi'], rfl, rfl, by rw [(C98_spin spin C).1], fun hl => ?_⟩
  · unfold startInside
    simp only [hp, hr, hd, hs, Res.bind_ok]
  · obtain rfl : i = n := by omega
    have h1 : pr.h i = 1 := by
      rw [hpr]; exact (Tov.C79_enthalpy (i + 1) hN a).2.1
    have hlast : re.rbar i = Tov.surfBar (pr.r i) t.admM := by
      have := hrb i (by omega)
      unfold Tov.rbarAt at this
      rw [if_pos (by omega)] at this
      injection this with this
      rw [← this, hpr, hadm]; simp
    obtain ⟨j1, j2, j3⟩ := Tov.C79_surface (pr.r i) t.admM hM (by simpa using hR)
    have hp1 : re.psi i = 1 + t.admM / (2 * Tov.surfBar (pr.r i) t.admM) := by
      rw [hpsi]
      unfold Tov.psiAt
      rw [if_neg (by omega), hlast]
      rw [← j3]
      rw [hpr]
    refine ⟨h1, ?_⟩
    show (re.psi i, re.psi i * (√(1 - 2 * t.admM / pr.r (i + 1 - 1)) / pr.h i)) = startOutside t.admM C p
    rw [h1, div_one, hp1]
    unfold startOutside
    dsimp only
    rw [hd, hlast, Nat.add_sub_cancel]
    have hb := j1
    have e1 : 0.5 * t.admM / Tov.surfBar (pr.r i) t.admM = t.admM / (2 * Tov.surfBar (pr.r i) t.admM) := by ring
    rw [e1]
    set b := Tov.surfBar (pr.r i) t.admM with hbdef
    have hpos : 0 < 1 + t.admM / (2 * b) := by positivity
    have hx : √(1 - 2 * t.admM / pr.r i) = (1 - t.admM / (2 * b)) / (1 + t.admM / (2 * b)) := by
      have hge : 0 ≤ (1 - t.admM / (2 * b)) / (1 + t.admM / (2 * b)) := by
        apply div_nonneg _ hpos.le
        rw [sub_nonneg, div_le_one (by linarith)]
        have : b = 0.5 * (pr.r i - t.admM + √(pr.r i ^ 2 - 2 * t.admM * pr.r i)) := rfl
        have hs := Real.sqrt_nonneg (pr.r i ^ 2 - 2 * t.admM * pr.r i)
        have hR' : 2 * t.admM < pr.r i := by simpa using hR
        rw [this]; norm_num; linarith
      rw [← Real.sqrt_sq hge]
      congr 1
      rw [j2]
      field_simp
      ring
    rw [hx]

/-- **C98 (start-off, outside).** Outside, ψ and αψ are those of the Schwarzschild hole of the mass of the star: they solve the vacuum
equations -/
theorem C98_outside (M : ℝ) (C p : Pt) :
    startOutside M C p = (Fd.isoPsi M (fun i => p i - C i), Fd.isoAlphaPsi M (fun i => p i - C i)) := by
  have h : 0.5 * M / dist C p = M / (2 * dist C p) := by
    rcases eq_or_ne (dist C p) 0 with h | h
    · simp [h]
    · field_simp; norm_num; ring
  unfold startOutside Fd.isoPsi Fd.isoAlphaPsi Fd.isoAlpha
  dsimp only
  rw [h, dist_eq]
  unfold Fd.isoPsi
  rw [mul_comm (1 + M / _) ((1 - _) / _)]

/-- **C98 (start-off, motion; partial).** With the centre of mass on the line x = C_x through the star, the velocity potential has the
gradient Ω ẑ × (C - C_CM), the orbital velocity of the centre -/
theorem C98_motion_partial (Om xCM yCM : ℝ) (C p : Pt) (hx : C 0 = xCM) :
    Grad (startPhi Om yCM C) p (turning ![0, 0, Om] ![xCM, yCM, 0] C) := by
  intro i
  have h := lin_deriv ![-Om * (C 1 - yCM), 0, 0] C p i
  refine (h.congr_of_eventuallyEq (Filter.Eventually.of_forall fun t => ?_)).congr_deriv ?_
  · simp [line, startPhi]
  · subst hx
    fin_cases i <;> simp [turning, cross_apply]

/-- off this line the orbital velocity along y is missing -/
theorem C98_motion_violation (Om xCM yCM : ℝ) (C p : Pt) (hO : Om ≠ 0) (hx : C 0 ≠ xCM) :
    ¬ Grad (startPhi Om yCM C) p (turning ![0, 0, Om] ![xCM, yCM, 0] C) := by
  intro hg
  have h := lin_deriv ![-Om * (C 1 - yCM), 0, 0] C p 1
  have e1 : (fun x : Pt => (![-Om * (C 1 - yCM), 0, 0] : Fin 3 → ℝ) 0 * (x 0 - C 0) + (![-Om * (C 1 - yCM), 0, 0] : Fin 3 → ℝ) 1 * (x 1 - C 1) +
      (![-Om * (C 1 - yCM), 0, 0] : Fin 3 → ℝ) 2 * (x 2 - C 2)) = startPhi Om yCM C := by
    funext x; simp [startPhi]
  rw [e1] at h
  have h1 := hg 1
  have := h1.unique h
  simp [turning, cross_apply, hO, sub_eq_zero, hx] at this

/-! ### concrete cases -/

/-- a star whose enthalpy is largest at (1,0,0) instead of (0,0,0) -/
example : ∃ h' : Pt → ℝ, byTaylor (1 / 10 ^ 12) (1 / 2) 0 (Pi.single 0 1) true ![2, 0, 0] (fun x => 1 - (x 0 - 1) ^ 2) = .ok h' ∧
    Grad h' 0 ![1, 0, 0] := by
  obtain ⟨-, h', h1, -, h3, -⟩ := (C98_taylor (1 / 10 ^ 12) (1 / 2) (by norm_num) 0 (Pi.single 0 1) ![2, 0, 0]
    (fun x => 1 - (x 0 - 1) ^ 2)).2 ⟨0, by norm_num⟩
  refine ⟨h', h1, ?_⟩
  have := h3 (by
    intro i
    have h := ((((Bh.coord_deriv 0 0 i).sub_const 1).pow 2).const_sub 1)
    refine h.congr_deriv ?_
    fin_cases i <;> simp [line])
  intro i
  refine (this i).congr_deriv ?_
  fin_cases i <;> norm_num
example : spinW ![0, 0, 2] ![1, 0, 0] ![1, 3, 5] = ![-6, 0, 0] := by simp [spinW]; norm_num

end Elliptica.Star
