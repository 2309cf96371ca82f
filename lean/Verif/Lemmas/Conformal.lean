import Verif.Spec.Adm
import Verif.Spec.Xcts
import Verif.Props.DiffGeom
import Mathlib.Tactic.LinearCombination
import Mathlib.Tactic.FinCases
/-!
Conformal change of the connection and of the Ricci scalar in three dimensions, at a point.
-/
namespace Elliptica.Conformal
open Elliptica.Adm Elliptica.DiffGeom

abbrev T1 := Fin 3 → ℝ
abbrev T2 := Fin 3 → Fin 3 → ℝ
abbrev T3 := Fin 3 → Fin 3 → Fin 3 → ℝ
abbrev T4 := Fin 3 → Fin 3 → Fin 3 → Fin 3 → ℝ

/-- Kronecker symbol -/
def kd (i j : Fin 3) : ℝ := if i = j then 1 else 0

/-- index raised -/
noncomputable def up (h : T2) (L : T1) (k : Fin 3) : ℝ := ∑ l, h k l * L l

/-- the difference of the connections of ψ⁴ g and g, with L = d log ψ -/
noncomputable def diffC (g h : T2) (L : T1) (k i j : Fin 3) : ℝ := 2 * (kd k i * L j + kd k j * L i - g i j * up h L k)

theorem inv_right {g h : T2} (gs : Symm g) (hs : Symm h) (I : Inverse g h) (i j : Fin 3) : ∑ k, g i k * h k j = kd i j := by
  have := I j i
  rw [show kd i j = if j = i then 1 else 0 by unfold kd; simp only [eq_comm], ← this]
  exact Finset.sum_congr rfl fun k _ => by rw [gs i k, hs k j]; ring

theorem trace3 {g h : T2} (gs : Symm g) (I : Inverse g h) : ∑ i, ∑ j, g i j * h i j = 3 := by
  have : ∑ i, ∑ j, g i j * h i j = ∑ i, ∑ j, h i j * g j i :=
    Finset.sum_congr rfl fun i _ => Finset.sum_congr rfl fun j _ => by rw [gs i j]; ring
  rw [this]
  have : ∀ i, ∑ j, h i j * g j i = 1 := fun i => by rw [I i i]; simp
  simp [this]

/-- the connection of ψ⁴ g -/
theorem christoffel_conf (g h : T2) (d : T3) (p : ℝ) (dp : T1) (hp : p ≠ 0) (gs : Symm g) (I : Inverse g h) (i j k : Fin 3) :
    christoffel (fun i j => h i j / p ^ 4) (fun i j k => p ^ 4 * d i j k + 4 * p ^ 3 * dp k * g i j) i j k =
      christoffel h d i j k + diffC g h (fun l => dp l / p) i j k := by
  have ej : ∑ l, h i l * g l j = kd i j := I i j
  have ek : ∑ l, h i l * g l k = kd i k := I i k
  unfold christoffel diffC up
  simp only [Fin.sum_univ_three] at *
  rw [← ej, ← ek]
  field_simp
  ring

/-- ∂_m of diffC -/
noncomputable def diffCd (g h : T2) (dg dh : T3) (L : T1) (M : T2) (k i j m : Fin 3) : ℝ :=
  2 * (kd k i * M j m + kd k j * M i m - (dg i j m * up h L k + g i j * ∑ l, (dh k l m * L l + h k l * M l m)))

/-- covariant derivative of diffC -/
noncomputable def covC (c C : T3) (dC : T4) (k i j m : Fin 3) : ℝ :=
  dC k i j m + ∑ l, (c k m l * C l i j - c l m i * C k l j - c l m j * C k i l)

/-- covariant derivative of L -/
noncomputable def covL (c : T3) (L : T1) (M : T2) (i j : Fin 3) : ℝ := M i j - ∑ k, c k i j * L k

theorem ricci_add (c C : T3) (e dC : T4) (cs : ∀ i j k, c i j k = c i k j) (Cs : ∀ i j k, C i j k = C i k j) (i j : Fin 3) :
    ricci (fun i j k => c i j k + C i j k) (fun i j k l => e i j k l + dC i j k l) i j =
      ricci c e i j + ∑ k, (covC c C dC k i j k - covC c C dC k i k j) + ∑ k, ∑ l, (C k k l * C l i j - C k j l * C l i k) := by
  unfold ricci covC
  simp only [Fin.sum_univ_three]
  have c0 := fun k => cs k 1 0
  have c1 := fun k => cs k 2 0
  have c2 := fun k => cs k 2 1
  have C0 := fun k => Cs k 1 0
  have C1 := fun k => Cs k 2 0
  have C2 := fun k => Cs k 2 1
  fin_cases i <;> fin_cases j <;> simp only [Fin.zero_eta, Fin.mk_one, Fin.reduceFinMk, c0, c1, c2, C0, C1, C2] <;> ring

/-- what it means for the connection to be that of the metric, at a point -/
structure Compat (g h : T2) (dg dh : T3) (c : T3) : Prop where
  gs : Symm g
  hs : Symm h
  inv : Inverse g h
  cs : ∀ i j k, c i j k = c i k j
  dg : ∀ i j k, dg i j k = ∑ l, (c l k i * g l j + c l k j * g i l)
  dh : ∀ i j k, dh i j k = - ∑ l, (c i k l * h l j + c j k l * h i l)

theorem covUp {g h : T2} {dg dh c : T3} (G : Compat g h dg dh c) (L : T1) (M : T2) (k m : Fin 3) :
    (∑ l, (dh k l m * L l + h k l * M l m)) + ∑ l, c k m l * up h L l = ∑ l, h k l * covL c L M l m := by
  unfold up covL
  simp only [Fin.sum_univ_three, G.dh, G.cs _ 1 m, G.cs _ 2 m, G.cs _ 0 m]
  ring

theorem covC_eq {g h : T2} {dg dh c : T3} (G : Compat g h dg dh c) (L : T1) (M : T2) (k i j m : Fin 3) :
    covC c (diffC g h L) (diffCd g h dg dh L M) k i j m =
      2 * (kd k i * covL c L M j m + kd k j * covL c L M i m - g i j * ∑ l, h k l * covL c L M l m) := by
  rw [← covUp G]
  unfold covC diffC diffCd covL
  rw [G.dg]
  generalize (∑ l, (dh k l m * L l + h k l * M l m)) = dV
  generalize up h L = V
  have c0 := G.cs
  have g0 := G.gs
  fin_cases k <;> fin_cases i <;> fin_cases j <;> simp [kd, Fin.sum_univ_three, c0 _ m _, g0 1 0, g0 2 0, g0 2 1] <;> ring

theorem diffC_symm {g h : T2} (gs : Symm g) (L : T1) (i j k : Fin 3) : diffC g h L i j k = diffC g h L i k j := by
  unfold diffC
  rw [gs j k]; ring

theorem lin_part {g h : T2} {dg dh c : T3} (G : Compat g h dg dh c) (L : T1) (M : T2) :
    ∑ i, ∑ j, h i j * ∑ k, (covC c (diffC g h L) (diffCd g h dg dh L M) k i j k - covC c (diffC g h L) (diffCd g h dg dh L M) k i k j) =
      -8 * ∑ i, ∑ j, h i j * covL c L M i j := by
  have t3 := trace3 G.gs G.inv
  simp only [covC_eq G]
  generalize covL c L M = N
  have e2 : ∀ i j, ∑ k, g i k * ∑ l, h k l * N l j = N i j := by
    intro i j
    have : ∑ k, g i k * ∑ l, h k l * N l j = ∑ l, (∑ k, g i k * h k l) * N l j := by
      simp only [Fin.sum_univ_three]; ring
    rw [this]
    simp [inv_right G.gs G.hs G.inv, kd]
  have e3 : ∀ i j, ∑ k, (2 * (kd k i * N j k + kd k j * N i k - g i j * ∑ l, h k l * N l k) -
      2 * (kd k i * N k j + kd k k * N i j - g i k * ∑ l, h k l * N l j)) =
      2 * N j i + 2 * N i j - 2 * g i j * (∑ k, ∑ l, h k l * N l k) - 2 * N i j - 6 * N i j + 2 * N i j := by
    intro i j
    have e4 := e2 i j
    simp only [Fin.sum_univ_three] at e4 ⊢
    fin_cases i <;> fin_cases j <;> simp [kd] at e4 ⊢ <;> linear_combination 2 * e4
  simp only [e3]
  have hs := G.hs
  have gs := G.gs
  simp only [Fin.sum_univ_three, hs 1 0, hs 2 0, hs 2 1, gs 1 0, gs 2 0, gs 2 1] at t3 ⊢
  linear_combination (-2 * (h 0 0 * N 0 0 + h 0 1 * N 1 0 + h 0 2 * N 2 0 + h 0 1 * N 0 1 + h 1 1 * N 1 1 + h 1 2 * N 2 1 + h 0 2 * N 0 2 + h 1 2 * N 1 2 + h 2 2 * N 2 2)) * t3

theorem quad_part {g h : T2} (gs : Symm g) (hs : Symm h) (I : Inverse g h) (L : T1) :
    ∑ i, ∑ j, h i j * ∑ k, ∑ l, (diffC g h L k k l * diffC g h L l i j - diffC g h L k j l * diffC g h L l i k) =
      -8 * ∑ i, ∑ j, h i j * (L i * L j) := by
  have t3 := trace3 gs I
  have lowV : ∀ i, ∑ k, g i k * up h L k = L i := by
    intro i
    have : ∑ k, g i k * up h L k = ∑ l, (∑ k, g i k * h k l) * L l := by
      simp only [up, Fin.sum_univ_three]; ring
    rw [this]
    simp [inv_right gs hs I, kd]
  -- first trace
  have tr1 : ∀ l, ∑ k, diffC g h L k k l = 6 * L l := by
    intro l
    have e := lowV l
    unfold diffC
    simp only [Fin.sum_univ_three] at e ⊢
    fin_cases l <;> simp [kd, gs 1 0, gs 2 0, gs 2 1] at e ⊢ <;> linear_combination -2 * e
  have tr2 : ∀ l, ∑ i, ∑ j, h i j * diffC g h L l i j = -2 * up h L l := by
    intro l
    unfold diffC
    generalize hV : up h L l = V
    unfold up at hV
    simp only [Fin.sum_univ_three] at t3 hV ⊢
    fin_cases l <;> simp [kd] at hV ⊢ <;> simp only [hs 1 0, hs 2 0, hs 2 1] at * <;> linear_combination 4 * hV - 2 * V * t3
  have E : ∀ l j k, ∑ i, h i j * diffC g h L l i k = 2 * (h l j * L k + kd l k * up h L j - kd j k * up h L l) := by
    intro l j k
    have e : ∑ i, h i j * g i k = kd j k := by
      rw [show kd j k = ∑ i, h j i * g i k from (I j k).symm]
      exact Finset.sum_congr rfl fun i _ => by rw [hs i j]
    have eV : ∑ i, h i j * L i = up h L j := Finset.sum_congr rfl fun i _ => by rw [hs i j]
    rw [← e, ← eV]
    unfold diffC
    simp only [Fin.sum_univ_three]
    fin_cases l <;> fin_cases k <;> simp [kd] <;> ring
  have split : ∑ i, ∑ j, h i j * ∑ k, ∑ l, (diffC g h L k k l * diffC g h L l i j - diffC g h L k j l * diffC g h L l i k) =
      (∑ l, (∑ k, diffC g h L k k l) * ∑ i, ∑ j, h i j * diffC g h L l i j) -
      ∑ j, ∑ k, ∑ l, diffC g h L k j l * ∑ i, h i j * diffC g h L l i k := by
    simp only [Fin.sum_univ_three]; ring
  rw [split]
  simp only [tr1, tr2, E]
  have last : ∑ j, ∑ k, ∑ l, diffC g h L k j l * (2 * (h l j * L k + kd l k * up h L j - kd j k * up h L l)) =
      4 * (2 * ∑ i, ∑ j, h i j * (L i * L j)) - 4 * (∑ i, ∑ j, g i j * h i j) * ∑ k, up h L k * L k := by
    unfold diffC
    generalize up h L = V
    simp only [Fin.sum_univ_three]
    simp [kd, gs 1 0, gs 2 0, gs 2 1, hs 1 0, hs 2 0, hs 2 1]
    ring
  rw [last, t3]
  unfold up
  simp only [Fin.sum_univ_three, hs 1 0, hs 2 0, hs 2 1]
  ring

/-- the Ricci scalar (times ψ⁴) of ψ⁴ g from that of g -/
theorem ricci_conf {g h : T2} {dg dh c : T3} (G : Compat g h dg dh c) (L : T1) (M : T2) (e : T4) :
    ∑ i, ∑ j, h i j * ricci (fun i j k => c i j k + diffC g h L i j k) (fun i j k l => e i j k l + diffCd g h dg dh L M i j k l) i j =
      (∑ i, ∑ j, h i j * ricci c e i j) - 8 * (∑ i, ∑ j, h i j * covL c L M i j) - 8 * ∑ i, ∑ j, h i j * (L i * L j) := by
  have a := lin_part G L M
  have b := quad_part G.gs G.hs G.inv L
  have : ∀ i j, h i j * ricci (fun i j k => c i j k + diffC g h L i j k) (fun i j k l => e i j k l + diffCd g h dg dh L M i j k l) i j =
      h i j * ricci c e i j + h i j * (∑ k, (covC c (diffC g h L) (diffCd g h dg dh L M) k i j k - covC c (diffC g h L) (diffCd g h dg dh L M) k i k j)) +
      h i j * (∑ k, ∑ l, (diffC g h L k k l * diffC g h L l i j - diffC g h L k j l * diffC g h L l i k)) := by
    intro i j
    rw [ricci_add c (diffC g h L) e _ G.cs (diffC_symm G.gs L)]
    ring
  simp only [this, Finset.sum_add_distrib, a, b]
  ring

end Elliptica.Conformal
