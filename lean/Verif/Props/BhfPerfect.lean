import Verif.Props.BhfFill
import Verif.Props.YlmCoeffs
/-!
Property C88, the method that expands the radial coefficients in spherical harmonics.
-/
namespace Elliptica.Bhf
open Coord Angles Real BhfSpec Polynomial

/-- a function of the angles that is a combination of the spherical harmonics of degree at most L -/
def Band (L : ℕ) (g : ℝ → ℝ → ℝ) : Prop :=
  ∃ re im : ℕ → ℝ, ∀ θ ∈ Set.Icc 0 π, ∀ ϕ ∈ Set.Icc 0 (2 * π), g θ ϕ = Ylm.series re im L θ ϕ

theorem coef_lin (a b : ℝ) (re im re' im' : ℕ → ℝ) (l : ℕ) (m : ℤ) :
    Ylm.coef (fun n => a * re n + b * re' n) (fun n => a * im n + b * im' n) l m =
      a * Ylm.coef re im l m + b * Ylm.coef re' im' l m := by
  unfold Ylm.coef
  dsimp only
  split
  · push_cast; ring
  · simp only [map_add, map_mul, Complex.conj_ofReal, Complex.conj_I]; push_cast; ring

theorem Band.lin {L : ℕ} {g h : ℝ → ℝ → ℝ} (hg : Band L g) (hh : Band L h) (a b : ℝ) :
    Band L fun θ ϕ => a * g θ ϕ + b * h θ ϕ := by
  obtain ⟨re, im, h1⟩ := hg
  obtain ⟨re', im', h2⟩ := hh
  refine ⟨fun n => a * re n + b * re' n, fun n => a * im n + b * im' n, fun θ hθ ϕ hϕ => ?_⟩
  show a * g θ ϕ + b * h θ ϕ = _
  rw [h1 θ hθ ϕ hϕ, h2 θ hθ ϕ hϕ]
  unfold Ylm.series
  simp only [coef_lin, add_mul, Finset.sum_add_distrib, mul_assoc, ← Finset.mul_sum, Complex.add_re, Complex.re_ofReal_mul]

theorem Band.const (L : ℕ) (c : ℝ) : Band L fun _ _ => c := by
  refine ⟨fun n => if n = 0 then c * (2 * √π) else 0, fun _ => 0, fun θ hθ ϕ hϕ => ?_⟩
  show c = _
  unfold Ylm.series
  have hz : ∀ l : ℕ, l ≠ 0 → ∀ m : ℤ, Ylm.coef (fun n => if n = 0 then c * (2 * √π) else 0) (fun _ => 0) l m = 0 := by
    intro l hl m
    have hn : l * (l + 1) / 2 + m.natAbs ≠ 0 := by
      have : 1 ≤ l * (l + 1) / 2 := by
        rw [Nat.le_div_iff_mul_le (by norm_num)]
        have : 1 ≤ l := Nat.one_le_iff_ne_zero.2 hl
        nlinarith
      omega
    unfold Ylm.coef
    dsimp only
    rw [if_neg hn]
    simp
  rw [Finset.sum_eq_single 0 (fun l _ hl => Finset.sum_eq_zero fun m _ => by rw [hz l hl m, zero_mul]) (by simp)]
  have hp : 0 < √π := Real.sqrt_pos.2 Real.pi_pos
  simp [Ylm.coef, Legendre.Y, Legendre.assoc]
  have h2 : √(4 : ℝ) = 2 := by rw [show (4 : ℝ) = 2 ^ 2 by norm_num]; exact Real.sqrt_sq (by norm_num)
  have h0 : Legendre.legendre 0 = 1 := by simp [Legendre.legendre]
  rw [h2, h0]
  field_simp
  norm_num

/-- the six coefficients of the direction (theta, phi) on the sphere of radius R -/
noncomputable def coeffsAt (center : Fin 3 → ℝ) (f : (Fin 3 → ℝ) → ℝ) (F : Fin 3 → (Fin 3 → ℝ) → ℝ)
    (H : Fin 3 → Fin 3 → (Fin 3 → ℝ) → ℝ) (fr0 R theta phi : ℝ) : ℕ → ℝ :=
  coeffs fr0 (f (ray center (unit theta phi) R)) (slope F center (unit theta phi) R) (curv H center (unit theta phi) R) R

theorem gridLoop_ok {e big : ℝ} {tab : ℕ → ℕ → ℝ} {center : Fin 3 → ℝ} {R : ℝ} {outs : List Outer} {Ntheta Nphi : ℕ} (he : 0 < e)
    (he1 : e ≤ 1 / 100) {f F H} (hf : Smooth f F H) (hr : ∀ o ∈ outs, Reads big f F H o) (fr0 : ℝ) (n : ℕ)
    (hv : ∀ q < n, Visible e big center (fun _ => R) outs (Ylm.thetaAt (fun i n => tab n i) Ntheta (q / Nphi)) (Ylm.phiAt Nphi (q % Nphi))) :
    ∃ g, gridLoop e big tab center outs fr0 R Ntheta Nphi n = .ok g ∧ ∀ q < n, ∀ k, g k q =
      coeffsAt center f F H fr0 R (Ylm.thetaAt (fun i n => tab n i) Ntheta (q / Nphi)) (Ylm.phiAt Nphi (q % Nphi)) k := by
  induction n with
  | zero => exact ⟨_, rfl, fun q hq => absurd hq (Nat.not_lt_zero q)⟩
  | succ n ih =>
    obtain ⟨g, hg, hg2⟩ := ih fun q hq => hv q (by omega)
    have v := hv n (Nat.lt_succ_self n)
    have hk := radial_ok he he1 v hf hr fr0
    obtain ⟨o, ho, X, hX, hp⟩ := C88_find e _ _ he he1 outs v.around v.size v.th0 v.th1 v.ph0 v.ph1 v.off v.meets
    have hR0 : 0 < R := by have := v.size 0; linarith
    have hlen : len (fun i => xOfX (lib big) o.geo X i - center i) = R := by
      rw [show (fun i => xOfX (lib big) o.geo X i - center i) = _ from funext hp]
      exact len_smul _ hR0.le _ (unit_unit _ _)
    unfold radial at hk
    rw [hX, Res.bind_ok] at hk
    dsimp only at hk
    rw [hlen] at hk
    unfold gridLoop
    rw [hg, Res.bind_ok]
    dsimp only
    rw [hX, Res.bind_ok]
    refine ⟨_, rfl, fun q hq k => ?_⟩
    dsimp only
    by_cases h : q = n
    · subst h
      rw [if_pos rfl]
      injection hk with hk
      exact congrFun (congrArg Prod.fst hk) k
    · rw [if_neg h]
      exact hg2 q (by omega) k

/-- the coefficients of band-limited data are band-limited -/
theorem coeffs_band {L : ℕ} {v s k : ℝ → ℝ → ℝ} (hv : Band L v) (hs : Band L s) (hk : Band L k) (fr0 R : ℝ) (n : ℕ) :
    Band L fun θ ϕ => coeffs fr0 (v θ ϕ) (s θ ϕ) (k θ ϕ) R n := by
  have key : ∀ a b c d : ℝ, Band L fun θ ϕ => 1 * (a * k θ ϕ + b * s θ ϕ) + 1 * (c * v θ ϕ + d * (fun _ _ => 1) θ ϕ) := fun a b c d =>
    (hk.lin hs a b).lin (hv.lin (Band.const L 1) c d) 1 1
  match n with
  | 0 => convert key (3 / 128 * R ^ 2) (-37 / 256 * R) (79 / 128) (49 / 128 * fr0) using 3; norm_num [coeffs]; ring
  | 1 => convert key (-1 / 256 * R ^ 2) (-5 / 256 * R) (35 / 64) (-35 / 64 * fr0) using 3; norm_num [coeffs]; ring
  | 2 => convert key (-1 / 32 * R ^ 2) (11 / 64 * R) (-5 / 32) (5 / 32 * fr0) using 3; norm_num [coeffs]; ring
  | 3 => convert key (3 / 512 * R ^ 2) (7 / 512 * R) (-5 / 128) (5 / 128 * fr0) using 3; norm_num [coeffs]; ring
  | 4 => convert key (1 / 128 * R ^ 2) (-7 / 256 * R) (5 / 128) (-5 / 128 * fr0) using 3; norm_num [coeffs]; ring
  | 5 => convert key (-1 / 512 * R ^ 2) (3 / 512 * R) (-1 / 128) (1 / 128 * fr0) using 3; norm_num [coeffs]; ring
  | n + 6 => convert key 0 0 0 0 using 3; simp [coeffs]

theorem ylmLoop_ok {tab : ℕ → ℕ → ℝ} {Ntheta Nphi L : ℕ} (hL : L < Ntheta) (hn : Ntheta < 100) (ht : Ylm.ExactRoots tab Ntheta)
    (hN : 2 * L < Nphi) {A : ℕ → ℝ → ℝ → ℝ} (hA : ∀ k, Band L (A k)) {g : ℕ → ℕ → ℝ}
    (hg : ∀ k, ∀ i < Ntheta, ∀ j < Nphi, g k (j + i * Nphi) = A k (Ylm.thetaAt (fun i n => tab n i) Ntheta i) (Ylm.phiAt Nphi j)) (n : ℕ) :
    ∃ c, ylmLoop tab g Ntheta Nphi L n = .ok c ∧ ∀ k < n, ∀ θ ∈ Set.Icc 0 π, ∀ ϕ ∈ Set.Icc 0 (2 * π),
      Ylm.interp (c k).1 (c k).2 L θ ϕ = .ok (A k θ ϕ) := by
  induction n with
  | zero => exact ⟨_, rfl, fun q hq => absurd hq (Nat.not_lt_zero q)⟩
  | succ n ih =>
    obtain ⟨c, hc, hc2⟩ := ih
    obtain ⟨re, im, hs⟩ := hA n
    obtain ⟨b, hb, hb2⟩ := Ylm.C49_roundtrip tab Ntheta Nphi L hL hn ht hN re im (g n) (fun i hi j hj => by
      rw [Ylm.C47_interp _ _ _ _ _ (Ylm.theta_mem _ _ _) (Ylm.phi_mem _ _ hj), hg n i hi j hj,
        hs _ (Ylm.theta_mem _ _ _) _ (Ylm.phi_mem _ _ hj)]) (fun _ => 0, fun _ => 0)
    unfold ylmLoop
    rw [hc, Res.bind_ok, hb, Res.bind_ok]
    refine ⟨_, rfl, fun k hk θ hθ ϕ hϕ => ?_⟩
    by_cases h : k = n
    · subst h
      rw [if_pos rfl, hb2 θ hθ ϕ hϕ, Ylm.C47_interp _ _ _ _ _ hθ hϕ, hs θ hθ ϕ hϕ]
    · rw [if_neg h]
      exact hc2 k (by omega) θ hθ ϕ hϕ

theorem sumLoop_ok {e : ℝ} {c : ℕ → (ℕ → ℝ) × (ℕ → ℝ)} {L : ℕ} {θ ϕ t : ℝ} {a : ℕ → ℝ} (n : ℕ)
    (h : ∀ k < n, Ylm.interp (c k).1 (c k).2 L θ ϕ = .ok (a k)) :
    sumLoop e c L θ ϕ t n = .ok (∑ i ∈ Finset.range n, a i * Cheb.chebT e i t) := by
  induction n with
  | zero => rfl
  | succ n ih =>
    unfold sumLoop
    rw [ih fun k hk => h k (by omega), Res.bind_ok, h n (Nat.lt_succ_self n), Res.bind_ok, Finset.sum_range_succ]

/-- **C88 (filling, spherical surface).** Let the outside field's value, slope and second derivative on the sphere be
combinations of the spherical harmonics up to the degree L that the run uses, and let the sampling grid resolve it.  Then in
every direction (not only those of the grid) the filled values are those of the polynomial that starts at the centre with
the prescribed value and no slope and that joins the outside field there. -/
theorem C88_perfect {e big : ℝ} {tab : ℕ → ℕ → ℝ} {center : Fin 3 → ℝ} {R : ℝ} {outs : List Outer} {Ntheta Nphi L : ℕ} (he : 0 < e)
    (he1 : e ≤ 1 / 100) {f F H} (hf : Smooth f F H) (hr : ∀ o ∈ outs, Reads big f F H o) (hL : L < Ntheta) (hn : Ntheta < 100)
    (ht : Ylm.ExactRoots tab Ntheta) (hN : 2 * L < Nphi)
    (hv : ∀ i < Ntheta, ∀ j < Nphi, Visible e big center (fun _ => R) outs (Ylm.thetaAt (fun i n => tab n i) Ntheta i) (Ylm.phiAt Nphi j))
    (b0 : Band L fun θ ϕ => f (ray center (unit θ ϕ) R)) (b1 : Band L fun θ ϕ => slope F center (unit θ ϕ) R)
    (b2 : Band L fun θ ϕ => curv H center (unit θ ϕ) R) (fr0 : ℝ) {theta phi : ℝ}
    (h0 : 0 < theta) (h1 : theta < π) (h2 : 0 ≤ phi) (h3 : phi < 2 * π) :
    let N := unit theta phi
    ∃ p : ℝ[X], Joins p fr0 R (f (ray center N R)) (slope F center N R) (curv H center N R) ∧
      ∀ r, 0 < r → r ≤ R → (r * N 0 = 0 ∨ e ≤ |r * N 0|) → (r * N 1 = 0 ∨ e ≤ |r * N 1|) → Cheb.Snapped e (2 * r / R - 1) →
        fillPerfect e big tab center outs fr0 R L Ntheta Nphi (fun i => r * N i) = .ok (p.eval r) := by
  intro N
  have hR0 : 0 < R := by have := (hv 0 (by omega) 0 (by omega)).size 0; linarith
  refine ⟨_, C88_radial _ _ _ _ _ hR0.ne', fun r r0 r1 p0 p1 hs => ?_⟩
  obtain ⟨a1, a2⟩ := angles_of_ray he h0 h1 h2 h3 r0 p0 p1
  have hlen : len (fun i => r * N i) = r := len_smul r r0.le N (unit_unit theta phi)
  have hNp : 0 < Nphi := by omega
  obtain ⟨g, hg, hg2⟩ := gridLoop_ok (tab := tab) (Ntheta := Ntheta) (Nphi := Nphi) he he1 hf hr fr0 (Ntheta * Nphi) (fun q hq =>
    hv (q / Nphi) (Nat.div_lt_of_lt_mul (by rwa [Nat.mul_comm])) (q % Nphi) (Nat.mod_lt _ hNp))
  obtain ⟨c, hc, hc2⟩ := ylmLoop_ok (A := fun k θ ϕ => coeffsAt center f F H fr0 R θ ϕ k) hL hn ht hN
    (fun k => coeffs_band b0 b1 b2 fr0 R k) (g := g) (fun k i hi j hj => by
      have hq : j + i * Nphi < Ntheta * Nphi := by nlinarith
      rw [hg2 _ hq, show (j + i * Nphi) / Nphi = i by rw [Nat.add_mul_div_right _ _ hNp, Nat.div_eq_of_lt hj, Nat.zero_add],
        show (j + i * Nphi) % Nphi = j by rw [Nat.add_mul_mod_self_right, Nat.mod_eq_of_lt hj]]) 6
  unfold fillPerfect
  rw [hg, Res.bind_ok, hc, Res.bind_ok]
  dsimp only
  rw [hlen, if_neg (not_lt.2 r1), if_neg r0.ne', a1, a2,
    sumLoop_ok 6 fun k hk => hc2 k hk theta ⟨h0.le, h1.le⟩ phi ⟨h2, h3.le⟩]
  have := atRadius_eq e he (by linarith) (coeffsAt center f F H fr0 R theta phi, R) r hs
  exact congrArg Res.ok this

end Elliptica.Bhf
