import Mathlib.Algebra.BigOperators.Fin
import Mathlib.Data.Fin.Tuple.Basic
import Mathlib.Analysis.Real.Sqrt
/-!
Specification of a perfect fluid in a 3+1 space-time: four-dimensional index formulas with sums.
Index 0 of a four-vector is time, index `i.succ` is the spatial direction `i`.
-/
namespace Elliptica.Fluid4

/-- the covariant four-metric of the lapse α, the shift β^i and the spatial metric γ_ij -/
noncomputable def metric (α : ℝ) (β : Fin 3 → ℝ) (γ : Fin 3 → Fin 3 → ℝ) : Fin 4 → Fin 4 → ℝ :=
  Fin.cons (Fin.cons (-α ^ 2 + ∑ i, ∑ j, γ i j * β i * β j) fun j => ∑ i, γ i j * β i)
    fun i => Fin.cons (∑ j, γ i j * β j) (γ i)

/-- the contravariant four-metric of the lapse α, the shift β^i and the inverse spatial metric γ^ij -/
noncomputable def inverseMetric (α : ℝ) (β : Fin 3 → ℝ) (γI : Fin 3 → Fin 3 → ℝ) : Fin 4 → Fin 4 → ℝ :=
  Fin.cons (Fin.cons (-1 / α ^ 2) fun j => β j / α ^ 2)
    fun i => Fin.cons (β i / α ^ 2) fun j => γI i j - β i * β j / α ^ 2

/-- lowering an index: v_μ = g_μν v^ν -/
noncomputable def lower (g : Fin 4 → Fin 4 → ℝ) (v : Fin 4 → ℝ) (m : Fin 4) : ℝ := ∑ n, g m n * v n

/-- g(v,v) -/
noncomputable def square (g : Fin 4 → Fin 4 → ℝ) (v : Fin 4 → ℝ) : ℝ := ∑ m, ∑ n, g m n * v m * v n

/-- the unit normal of the slice, covariant: n_μ = (-α,0,0,0) -/
def normalD (α : ℝ) : Fin 4 → ℝ := Fin.cons (-α) fun _ => 0

/-- the unit normal of the slice, contravariant: n^μ = (1/α, -β^i/α) -/
noncomputable def normalU (α : ℝ) (β : Fin 3 → ℝ) : Fin 4 → ℝ := Fin.cons (1 / α) fun i => -β i / α

/-- the perfect fluid: T^μν = ρ h u^μ u^ν + p g^μν -/
def stress (gI : Fin 4 → Fin 4 → ℝ) (rho h p : ℝ) (u : Fin 4 → ℝ) (m n : Fin 4) : ℝ := rho * h * u m * u n + p * gI m n

/-- energy density E = T^μν n_μ n_ν -/
noncomputable def energy (α : ℝ) (T : Fin 4 → Fin 4 → ℝ) : ℝ := ∑ m, ∑ n, T m n * normalD α m * normalD α n

/-- momentum density J^i = -(δ^i_μ + n^i n_μ) T^μν n_ν -/
noncomputable def momentum (α : ℝ) (β : Fin 3 → ℝ) (T : Fin 4 → Fin 4 → ℝ) (i : Fin 3) : ℝ :=
  -∑ m, ∑ n, ((if m = i.succ then 1 else 0) + normalU α β i.succ * normalD α m) * T m n * normalD α n

/-- trace of the spatial stress S = (g_μν + n_μ n_ν) T^μν -/
noncomputable def stressTrace (α : ℝ) (g T : Fin 4 → Fin 4 → ℝ) : ℝ :=
  ∑ m, ∑ n, (g m n + normalD α m * normalD α n) * T m n

end Elliptica.Fluid4
