import Mathlib.Data.Real.Basic
import Mathlib.Data.Fin.VecNotation
/-!
Model of the background shift B1 and of the sum with B0: Src/Main/Modules/Physics/ADM/adm_updates.c:129-304, 306-440,
over `ℝ`; one node at a time.
-/
namespace Elliptica.Orbit

/-- adm_updates.c:272-279 the parameters of the orbit -/
structure Par where
  omega : ℝ
  Vr : ℝ
  D : ℝ
  CM : Fin 3 → ℝ

/-- adm_updates.c:321-332: B1_U0, B1_U1, B1_U2 of `adm_update_B1I_inspiral` at the node with coordinates `x` -/
noncomputable def b1 (p : Par) (x : Fin 3 → ℝ) : Fin 3 → ℝ :=
  ![p.omega * (-x 1 + p.CM 1) + p.Vr * (x 0 - p.CM 0) / p.D,
    p.omega * (x 0 - p.CM 0) + p.Vr * (x 1 - p.CM 1) / p.D,
    p.Vr * (x 2 - p.CM 2) / p.D]

/-- adm_updates.c:344-359: dB1_UiDj -/
noncomputable def db1 (p : Par) (i j : Fin 3) : ℝ :=
  ![![p.Vr / p.D, -p.omega, 0], ![p.omega, p.Vr / p.D, 0], ![0, 0, p.Vr / p.D]] i j

/-- adm_updates.c:361-383: ddB1_UiDjDk -/
def ddb1 (_ _ _ : Fin 3) : ℝ := 0

/-- adm_updates.c:387-428 `adm_update_B1I_zero`: B1, dB1 and ddB1 -/
def zero1 (_ : Fin 3) : ℝ := 0
def zero2 (_ _ : Fin 3) : ℝ := 0
def zero3 (_ _ _ : Fin 3) : ℝ := 0

/-- the background: its values at every point and its first and second derivatives -/
structure Background where
  B : (Fin 3 → ℝ) → Fin 3 → ℝ
  dB : Fin 3 → Fin 3 → ℝ
  ddB : Fin 3 → Fin 3 → Fin 3 → ℝ

/-- adm_updates.c:265-303 `adm_update_adm_B1I` with B1I_form inspiral (`some`) or zero -/
noncomputable def background : Option Par → Background
  | some p => ⟨b1 p, db1 p, ddb1⟩
  | none => ⟨fun _ => zero1, zero2, zero3⟩

/-- adm_updates.c:129-137: UPDATE_beta, UPDATE_dbeta, UPDATE_ddbeta -/
noncomputable def beta (bg : Background) (B0 : (Fin 3 → ℝ) → Fin 3 → ℝ) (x : Fin 3 → ℝ) (i : Fin 3) : ℝ := B0 x i + bg.B x i
noncomputable def dbeta (bg : Background) (dB0 : (Fin 3 → ℝ) → Fin 3 → Fin 3 → ℝ) (x : Fin 3 → ℝ) (i j : Fin 3) : ℝ :=
  dB0 x i j + bg.dB i j
noncomputable def ddbeta (bg : Background) (ddB0 : (Fin 3 → ℝ) → Fin 3 → Fin 3 → Fin 3 → ℝ) (x : Fin 3 → ℝ) (i j k : Fin 3) : ℝ :=
  ddB0 x i j k + bg.ddB i j k

end Elliptica.Orbit
