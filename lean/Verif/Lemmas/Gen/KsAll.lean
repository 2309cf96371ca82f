import Verif.Lemmas.Gen.KsK0
import Verif.Lemmas.Gen.KsK1
import Verif.Lemmas.Gen.KsK2
import Verif.Lemmas.Gen.KsH2
import Verif.Lemmas.Gen.Kslk0
import Verif.Lemmas.Gen.Kslk1
import Verif.Lemmas.Gen.Kslk2
import Verif.Lemmas.Gen.Kslkt
import Verif.Lemmas.Gen.Kslc
import Verif.Lemmas.Gen.Ksg00
import Verif.Lemmas.Gen.Ksg01
import Verif.Lemmas.Gen.Ksg02
import Verif.Lemmas.Gen.Ksg11
import Verif.Lemmas.Gen.Ksg12
import Verif.Lemmas.Gen.Ksg22
/-!
Generated by tools/gen_ks.py: each listed derivative is the derivative of the function it belongs to.
-/
namespace Elliptica.Ks
open Elliptica.Fields

set_option linter.unusedVariables false
set_option linter.unusedSimpArgs false
set_option linter.unusedTactic false
set_option linter.unreachableTactic false

theorem X_at (P : Par) (q : Pt) (hR : 0 < R P q) : ∀ i : Fin 3, HasDerivAt (line (X P) i q) (dX P i q) (q i)
  | 0 => X_at0 P q
  | 1 => X_at1 P q
  | 2 => X_at2 P q

theorem dX_at (P : Par) (q : Pt) (hR : 0 < R P q) : ∀ i j : Fin 3, HasDerivAt (line (dX P i) j q) (ddX P i j q) (q j)
  | 0, 0 => dX_D0_at0 P q
  | 0, 1 => dX_D0_at1 P q
  | 0, 2 => dX_D0_at2 P q
  | 1, 0 => dX_D1_at0 P q
  | 1, 1 => dX_D1_at1 P q
  | 1, 2 => dX_D1_at2 P q
  | 2, 0 => dX_D2_at0 P q
  | 2, 1 => dX_D2_at1 P q
  | 2, 2 => dX_D2_at2 P q

theorem ddX_at (P : Par) (q : Pt) (hR : 0 < R P q) : ∀ i j k : Fin 3, HasDerivAt (line (ddX P i j) k q) (dddX P i j k q) (q k)
  | 0, 0, 0 => ddX_D0D0_at0 P q
  | 0, 0, 1 => ddX_D0D0_at1 P q
  | 0, 0, 2 => ddX_D0D0_at2 P q
  | 0, 1, 0 => ddX_D0D1_at0 P q
  | 0, 1, 1 => ddX_D0D1_at1 P q
  | 0, 1, 2 => ddX_D0D1_at2 P q
  | 0, 2, 0 => ddX_D0D2_at0 P q
  | 0, 2, 1 => ddX_D0D2_at1 P q
  | 0, 2, 2 => ddX_D0D2_at2 P q
  | 1, 0, 0 => ddX_D0D1_at0 P q
  | 1, 0, 1 => ddX_D0D1_at1 P q
  | 1, 0, 2 => ddX_D0D1_at2 P q
  | 1, 1, 0 => ddX_D1D1_at0 P q
  | 1, 1, 1 => ddX_D1D1_at1 P q
  | 1, 1, 2 => ddX_D1D1_at2 P q
  | 1, 2, 0 => ddX_D1D2_at0 P q
  | 1, 2, 1 => ddX_D1D2_at1 P q
  | 1, 2, 2 => ddX_D1D2_at2 P q
  | 2, 0, 0 => ddX_D0D2_at0 P q
  | 2, 0, 1 => ddX_D0D2_at1 P q
  | 2, 0, 2 => ddX_D0D2_at2 P q
  | 2, 1, 0 => ddX_D1D2_at0 P q
  | 2, 1, 1 => ddX_D1D2_at1 P q
  | 2, 1, 2 => ddX_D1D2_at2 P q
  | 2, 2, 0 => ddX_D2D2_at0 P q
  | 2, 2, 1 => ddX_D2D2_at1 P q
  | 2, 2, 2 => ddX_D2D2_at2 P q

theorem Y_at (P : Par) (q : Pt) (hR : 0 < R P q) : ∀ i : Fin 3, HasDerivAt (line (Y P) i q) (dY P i q) (q i)
  | 0 => Y_at0 P q
  | 1 => Y_at1 P q
  | 2 => Y_at2 P q

theorem dY_at (P : Par) (q : Pt) (hR : 0 < R P q) : ∀ i j : Fin 3, HasDerivAt (line (dY P i) j q) (ddY P i j q) (q j)
  | 0, 0 => dY_D0_at0 P q
  | 0, 1 => dY_D0_at1 P q
  | 0, 2 => dY_D0_at2 P q
  | 1, 0 => dY_D1_at0 P q
  | 1, 1 => dY_D1_at1 P q
  | 1, 2 => dY_D1_at2 P q
  | 2, 0 => dY_D2_at0 P q
  | 2, 1 => dY_D2_at1 P q
  | 2, 2 => dY_D2_at2 P q

theorem ddY_at (P : Par) (q : Pt) (hR : 0 < R P q) : ∀ i j k : Fin 3, HasDerivAt (line (ddY P i j) k q) (dddY P i j k q) (q k)
  | 0, 0, 0 => ddY_D0D0_at0 P q
  | 0, 0, 1 => ddY_D0D0_at1 P q
  | 0, 0, 2 => ddY_D0D0_at2 P q
  | 0, 1, 0 => ddY_D0D1_at0 P q
  | 0, 1, 1 => ddY_D0D1_at1 P q
  | 0, 1, 2 => ddY_D0D1_at2 P q
  | 0, 2, 0 => ddY_D0D2_at0 P q
  | 0, 2, 1 => ddY_D0D2_at1 P q
  | 0, 2, 2 => ddY_D0D2_at2 P q
  | 1, 0, 0 => ddY_D0D1_at0 P q
  | 1, 0, 1 => ddY_D0D1_at1 P q
  | 1, 0, 2 => ddY_D0D1_at2 P q
  | 1, 1, 0 => ddY_D1D1_at0 P q
  | 1, 1, 1 => ddY_D1D1_at1 P q
  | 1, 1, 2 => ddY_D1D1_at2 P q
  | 1, 2, 0 => ddY_D1D2_at0 P q
  | 1, 2, 1 => ddY_D1D2_at1 P q
  | 1, 2, 2 => ddY_D1D2_at2 P q
  | 2, 0, 0 => ddY_D0D2_at0 P q
  | 2, 0, 1 => ddY_D0D2_at1 P q
  | 2, 0, 2 => ddY_D0D2_at2 P q
  | 2, 1, 0 => ddY_D1D2_at0 P q
  | 2, 1, 1 => ddY_D1D2_at1 P q
  | 2, 1, 2 => ddY_D1D2_at2 P q
  | 2, 2, 0 => ddY_D2D2_at0 P q
  | 2, 2, 1 => ddY_D2D2_at1 P q
  | 2, 2, 2 => ddY_D2D2_at2 P q

theorem Z_at (P : Par) (q : Pt) (hR : 0 < R P q) : ∀ i : Fin 3, HasDerivAt (line (Z P) i q) (dZ P i q) (q i)
  | 0 => Z_at0 P q
  | 1 => Z_at1 P q
  | 2 => Z_at2 P q

theorem dZ_at (P : Par) (q : Pt) (hR : 0 < R P q) : ∀ i j : Fin 3, HasDerivAt (line (dZ P i) j q) (ddZ P i j q) (q j)
  | 0, 0 => dZ_D0_at0 P q
  | 0, 1 => dZ_D0_at1 P q
  | 0, 2 => dZ_D0_at2 P q
  | 1, 0 => dZ_D1_at0 P q
  | 1, 1 => dZ_D1_at1 P q
  | 1, 2 => dZ_D1_at2 P q
  | 2, 0 => dZ_D2_at0 P q
  | 2, 1 => dZ_D2_at1 P q
  | 2, 2 => dZ_D2_at2 P q

theorem ddZ_at (P : Par) (q : Pt) (hR : 0 < R P q) : ∀ i j k : Fin 3, HasDerivAt (line (ddZ P i j) k q) (dddZ P i j k q) (q k)
  | 0, 0, 0 => ddZ_D0D0_at0 P q
  | 0, 0, 1 => ddZ_D0D0_at1 P q
  | 0, 0, 2 => ddZ_D0D0_at2 P q
  | 0, 1, 0 => ddZ_D0D1_at0 P q
  | 0, 1, 1 => ddZ_D0D1_at1 P q
  | 0, 1, 2 => ddZ_D0D1_at2 P q
  | 0, 2, 0 => ddZ_D0D2_at0 P q
  | 0, 2, 1 => ddZ_D0D2_at1 P q
  | 0, 2, 2 => ddZ_D0D2_at2 P q
  | 1, 0, 0 => ddZ_D0D1_at0 P q
  | 1, 0, 1 => ddZ_D0D1_at1 P q
  | 1, 0, 2 => ddZ_D0D1_at2 P q
  | 1, 1, 0 => ddZ_D1D1_at0 P q
  | 1, 1, 1 => ddZ_D1D1_at1 P q
  | 1, 1, 2 => ddZ_D1D1_at2 P q
  | 1, 2, 0 => ddZ_D1D2_at0 P q
  | 1, 2, 1 => ddZ_D1D2_at1 P q
  | 1, 2, 2 => ddZ_D1D2_at2 P q
  | 2, 0, 0 => ddZ_D0D2_at0 P q
  | 2, 0, 1 => ddZ_D0D2_at1 P q
  | 2, 0, 2 => ddZ_D0D2_at2 P q
  | 2, 1, 0 => ddZ_D1D2_at0 P q
  | 2, 1, 1 => ddZ_D1D2_at1 P q
  | 2, 1, 2 => ddZ_D1D2_at2 P q
  | 2, 2, 0 => ddZ_D2D2_at0 P q
  | 2, 2, 1 => ddZ_D2D2_at1 P q
  | 2, 2, 2 => ddZ_D2D2_at2 P q

theorem R_at (P : Par) (q : Pt) (hR : 0 < R P q) : ∀ i : Fin 3, HasDerivAt (line (R P) i q) (dR P i q) (q i)
  | 0 => R_at0 P q hR
  | 1 => R_at1 P q hR
  | 2 => R_at2 P q hR

theorem dR_at (P : Par) (q : Pt) (hR : 0 < R P q) : ∀ i j : Fin 3, HasDerivAt (line (dR P i) j q) (ddR P i j q) (q j)
  | 0, 0 => dR_D0_at0 P q hR
  | 0, 1 => dR_D0_at1 P q hR
  | 0, 2 => dR_D0_at2 P q hR
  | 1, 0 => dR_D1_at0 P q hR
  | 1, 1 => dR_D1_at1 P q hR
  | 1, 2 => dR_D1_at2 P q hR
  | 2, 0 => dR_D2_at0 P q hR
  | 2, 1 => dR_D2_at1 P q hR
  | 2, 2 => dR_D2_at2 P q hR

theorem ddR_at (P : Par) (q : Pt) (hR : 0 < R P q) : ∀ i j k : Fin 3, HasDerivAt (line (ddR P i j) k q) (dddR P i j k q) (q k)
  | 0, 0, 0 => ddR_D0D0_at0 P q hR
  | 0, 0, 1 => ddR_D0D0_at1 P q hR
  | 0, 0, 2 => ddR_D0D0_at2 P q hR
  | 0, 1, 0 => ddR_D0D1_at0 P q hR
  | 0, 1, 1 => ddR_D0D1_at1 P q hR
  | 0, 1, 2 => ddR_D0D1_at2 P q hR
  | 0, 2, 0 => ddR_D0D2_at0 P q hR
  | 0, 2, 1 => ddR_D0D2_at1 P q hR
  | 0, 2, 2 => ddR_D0D2_at2 P q hR
  | 1, 0, 0 => ddR_D0D1_at0 P q hR
  | 1, 0, 1 => ddR_D0D1_at1 P q hR
  | 1, 0, 2 => ddR_D0D1_at2 P q hR
  | 1, 1, 0 => ddR_D1D1_at0 P q hR
  | 1, 1, 1 => ddR_D1D1_at1 P q hR
  | 1, 1, 2 => ddR_D1D1_at2 P q hR
  | 1, 2, 0 => ddR_D1D2_at0 P q hR
  | 1, 2, 1 => ddR_D1D2_at1 P q hR
  | 1, 2, 2 => ddR_D1D2_at2 P q hR
  | 2, 0, 0 => ddR_D0D2_at0 P q hR
  | 2, 0, 1 => ddR_D0D2_at1 P q hR
  | 2, 0, 2 => ddR_D0D2_at2 P q hR
  | 2, 1, 0 => ddR_D1D2_at0 P q hR
  | 2, 1, 1 => ddR_D1D2_at1 P q hR
  | 2, 1, 2 => ddR_D1D2_at2 P q hR
  | 2, 2, 0 => ddR_D2D2_at0 P q hR
  | 2, 2, 1 => ddR_D2D2_at1 P q hR
  | 2, 2, 2 => ddR_D2D2_at2 P q hR

theorem K0_at (P : Par) (q : Pt) (hR : 0 < R P q) : ∀ i : Fin 3, HasDerivAt (line (K0 P) i q) (dK0 P i q) (q i)
  | 0 => K0_at0 P q hR
  | 1 => K0_at1 P q hR
  | 2 => K0_at2 P q hR

theorem dK0_at (P : Par) (q : Pt) (hR : 0 < R P q) : ∀ i j : Fin 3, HasDerivAt (line (dK0 P i) j q) (ddK0 P i j q) (q j)
  | 0, 0 => dK0_D0_at0 P q hR
  | 0, 1 => dK0_D0_at1 P q hR
  | 0, 2 => dK0_D0_at2 P q hR
  | 1, 0 => dK0_D1_at0 P q hR
  | 1, 1 => dK0_D1_at1 P q hR
  | 1, 2 => dK0_D1_at2 P q hR
  | 2, 0 => dK0_D2_at0 P q hR
  | 2, 1 => dK0_D2_at1 P q hR
  | 2, 2 => dK0_D2_at2 P q hR

theorem ddK0_at (P : Par) (q : Pt) (hR : 0 < R P q) : ∀ i j k : Fin 3, HasDerivAt (line (ddK0 P i j) k q) (dddK0 P i j k q) (q k)
  | 0, 0, 0 => ddK0_D0D0_at0 P q hR
  | 0, 0, 1 => ddK0_D0D0_at1 P q hR
  | 0, 0, 2 => ddK0_D0D0_at2 P q hR
  | 0, 1, 0 => ddK0_D0D1_at0 P q hR
  | 0, 1, 1 => ddK0_D0D1_at1 P q hR
  | 0, 1, 2 => ddK0_D0D1_at2 P q hR
  | 0, 2, 0 => ddK0_D0D2_at0 P q hR
  | 0, 2, 1 => ddK0_D0D2_at1 P q hR
  | 0, 2, 2 => ddK0_D0D2_at2 P q hR
  | 1, 0, 0 => ddK0_D0D1_at0 P q hR
  | 1, 0, 1 => ddK0_D0D1_at1 P q hR
  | 1, 0, 2 => ddK0_D0D1_at2 P q hR
  | 1, 1, 0 => ddK0_D1D1_at0 P q hR
  | 1, 1, 1 => ddK0_D1D1_at1 P q hR
  | 1, 1, 2 => ddK0_D1D1_at2 P q hR
  | 1, 2, 0 => ddK0_D1D2_at0 P q hR
  | 1, 2, 1 => ddK0_D1D2_at1 P q hR
  | 1, 2, 2 => ddK0_D1D2_at2 P q hR
  | 2, 0, 0 => ddK0_D0D2_at0 P q hR
  | 2, 0, 1 => ddK0_D0D2_at1 P q hR
  | 2, 0, 2 => ddK0_D0D2_at2 P q hR
  | 2, 1, 0 => ddK0_D1D2_at0 P q hR
  | 2, 1, 1 => ddK0_D1D2_at1 P q hR
  | 2, 1, 2 => ddK0_D1D2_at2 P q hR
  | 2, 2, 0 => ddK0_D2D2_at0 P q hR
  | 2, 2, 1 => ddK0_D2D2_at1 P q hR
  | 2, 2, 2 => ddK0_D2D2_at2 P q hR

theorem K1_at (P : Par) (q : Pt) (hR : 0 < R P q) : ∀ i : Fin 3, HasDerivAt (line (K1 P) i q) (dK1 P i q) (q i)
  | 0 => K1_at0 P q hR
  | 1 => K1_at1 P q hR
  | 2 => K1_at2 P q hR

theorem dK1_at (P : Par) (q : Pt) (hR : 0 < R P q) : ∀ i j : Fin 3, HasDerivAt (line (dK1 P i) j q) (ddK1 P i j q) (q j)
  | 0, 0 => dK1_D0_at0 P q hR
  | 0, 1 => dK1_D0_at1 P q hR
  | 0, 2 => dK1_D0_at2 P q hR
  | 1, 0 => dK1_D1_at0 P q hR
  | 1, 1 => dK1_D1_at1 P q hR
  | 1, 2 => dK1_D1_at2 P q hR
  | 2, 0 => dK1_D2_at0 P q hR
  | 2, 1 => dK1_D2_at1 P q hR
  | 2, 2 => dK1_D2_at2 P q hR

theorem ddK1_at (P : Par) (q : Pt) (hR : 0 < R P q) : ∀ i j k : Fin 3, HasDerivAt (line (ddK1 P i j) k q) (dddK1 P i j k q) (q k)
  | 0, 0, 0 => ddK1_D0D0_at0 P q hR
  | 0, 0, 1 => ddK1_D0D0_at1 P q hR
  | 0, 0, 2 => ddK1_D0D0_at2 P q hR
  | 0, 1, 0 => ddK1_D0D1_at0 P q hR
  | 0, 1, 1 => ddK1_D0D1_at1 P q hR
  | 0, 1, 2 => ddK1_D0D1_at2 P q hR
  | 0, 2, 0 => ddK1_D0D2_at0 P q hR
  | 0, 2, 1 => ddK1_D0D2_at1 P q hR
  | 0, 2, 2 => ddK1_D0D2_at2 P q hR
  | 1, 0, 0 => ddK1_D0D1_at0 P q hR
  | 1, 0, 1 => ddK1_D0D1_at1 P q hR
  | 1, 0, 2 => ddK1_D0D1_at2 P q hR
  | 1, 1, 0 => ddK1_D1D1_at0 P q hR
  | 1, 1, 1 => ddK1_D1D1_at1 P q hR
  | 1, 1, 2 => ddK1_D1D1_at2 P q hR
  | 1, 2, 0 => ddK1_D1D2_at0 P q hR
  | 1, 2, 1 => ddK1_D1D2_at1 P q hR
  | 1, 2, 2 => ddK1_D1D2_at2 P q hR
  | 2, 0, 0 => ddK1_D0D2_at0 P q hR
  | 2, 0, 1 => ddK1_D0D2_at1 P q hR
  | 2, 0, 2 => ddK1_D0D2_at2 P q hR
  | 2, 1, 0 => ddK1_D1D2_at0 P q hR
  | 2, 1, 1 => ddK1_D1D2_at1 P q hR
  | 2, 1, 2 => ddK1_D1D2_at2 P q hR
  | 2, 2, 0 => ddK1_D2D2_at0 P q hR
  | 2, 2, 1 => ddK1_D2D2_at1 P q hR
  | 2, 2, 2 => ddK1_D2D2_at2 P q hR

theorem K2_at (P : Par) (q : Pt) (hR : 0 < R P q) : ∀ i : Fin 3, HasDerivAt (line (K2 P) i q) (dK2 P i q) (q i)
  | 0 => K2_at0 P q hR
  | 1 => K2_at1 P q hR
  | 2 => K2_at2 P q hR

theorem dK2_at (P : Par) (q : Pt) (hR : 0 < R P q) : ∀ i j : Fin 3, HasDerivAt (line (dK2 P i) j q) (ddK2 P i j q) (q j)
  | 0, 0 => dK2_D0_at0 P q hR
  | 0, 1 => dK2_D0_at1 P q hR
  | 0, 2 => dK2_D0_at2 P q hR
  | 1, 0 => dK2_D1_at0 P q hR
  | 1, 1 => dK2_D1_at1 P q hR
  | 1, 2 => dK2_D1_at2 P q hR
  | 2, 0 => dK2_D2_at0 P q hR
  | 2, 1 => dK2_D2_at1 P q hR
  | 2, 2 => dK2_D2_at2 P q hR

theorem ddK2_at (P : Par) (q : Pt) (hR : 0 < R P q) : ∀ i j k : Fin 3, HasDerivAt (line (ddK2 P i j) k q) (dddK2 P i j k q) (q k)
  | 0, 0, 0 => ddK2_D0D0_at0 P q hR
  | 0, 0, 1 => ddK2_D0D0_at1 P q hR
  | 0, 0, 2 => ddK2_D0D0_at2 P q hR
  | 0, 1, 0 => ddK2_D0D1_at0 P q hR
  | 0, 1, 1 => ddK2_D0D1_at1 P q hR
  | 0, 1, 2 => ddK2_D0D1_at2 P q hR
  | 0, 2, 0 => ddK2_D0D2_at0 P q hR
  | 0, 2, 1 => ddK2_D0D2_at1 P q hR
  | 0, 2, 2 => ddK2_D0D2_at2 P q hR
  | 1, 0, 0 => ddK2_D0D1_at0 P q hR
  | 1, 0, 1 => ddK2_D0D1_at1 P q hR
  | 1, 0, 2 => ddK2_D0D1_at2 P q hR
  | 1, 1, 0 => ddK2_D1D1_at0 P q hR
  | 1, 1, 1 => ddK2_D1D1_at1 P q hR
  | 1, 1, 2 => ddK2_D1D1_at2 P q hR
  | 1, 2, 0 => ddK2_D1D2_at0 P q hR
  | 1, 2, 1 => ddK2_D1D2_at1 P q hR
  | 1, 2, 2 => ddK2_D1D2_at2 P q hR
  | 2, 0, 0 => ddK2_D0D2_at0 P q hR
  | 2, 0, 1 => ddK2_D0D2_at1 P q hR
  | 2, 0, 2 => ddK2_D0D2_at2 P q hR
  | 2, 1, 0 => ddK2_D1D2_at0 P q hR
  | 2, 1, 1 => ddK2_D1D2_at1 P q hR
  | 2, 1, 2 => ddK2_D1D2_at2 P q hR
  | 2, 2, 0 => ddK2_D2D2_at0 P q hR
  | 2, 2, 1 => ddK2_D2D2_at1 P q hR
  | 2, 2, 2 => ddK2_D2D2_at2 P q hR

theorem H_at (P : Par) (q : Pt) (hR : 0 < R P q) : ∀ i : Fin 3, HasDerivAt (line (H P) i q) (dH P i q) (q i)
  | 0 => H_at0 P q hR
  | 1 => H_at1 P q hR
  | 2 => H_at2 P q hR

theorem dH_at (P : Par) (q : Pt) (hR : 0 < R P q) : ∀ i j : Fin 3, HasDerivAt (line (dH P i) j q) (ddH P i j q) (q j)
  | 0, 0 => dH_D0_at0 P q hR
  | 0, 1 => dH_D0_at1 P q hR
  | 0, 2 => dH_D0_at2 P q hR
  | 1, 0 => dH_D1_at0 P q hR
  | 1, 1 => dH_D1_at1 P q hR
  | 1, 2 => dH_D1_at2 P q hR
  | 2, 0 => dH_D2_at0 P q hR
  | 2, 1 => dH_D2_at1 P q hR
  | 2, 2 => dH_D2_at2 P q hR

theorem ddH_at (P : Par) (q : Pt) (hR : 0 < R P q) : ∀ i j k : Fin 3, i = j ∨ i = k ∨ j = k → HasDerivAt (line (ddH P i j) k q) (dddH P i j k q) (q k)
  | 0, 0, 0, _ => ddH_D0D0_at0 P q hR
  | 0, 0, 1, _ => ddH_D0D0_at1 P q hR
  | 0, 0, 2, _ => ddH_D0D0_at2 P q hR
  | 0, 1, 0, _ => ddH_D0D1_at0 P q hR
  | 0, 1, 1, _ => ddH_D0D1_at1 P q hR
  | 0, 1, 2, h => absurd h (by decide)
  | 0, 2, 0, _ => ddH_D0D2_at0 P q hR
  | 0, 2, 1, h => absurd h (by decide)
  | 0, 2, 2, _ => ddH_D0D2_at2 P q hR
  | 1, 0, 0, _ => ddH_D0D1_at0 P q hR
  | 1, 0, 1, _ => ddH_D0D1_at1 P q hR
  | 1, 0, 2, h => absurd h (by decide)
  | 1, 1, 0, _ => ddH_D1D1_at0 P q hR
  | 1, 1, 1, _ => ddH_D1D1_at1 P q hR
  | 1, 1, 2, _ => ddH_D1D1_at2 P q hR
  | 1, 2, 0, h => absurd h (by decide)
  | 1, 2, 1, _ => ddH_D1D2_at1 P q hR
  | 1, 2, 2, _ => ddH_D1D2_at2 P q hR
  | 2, 0, 0, _ => ddH_D0D2_at0 P q hR
  | 2, 0, 1, h => absurd h (by decide)
  | 2, 0, 2, _ => ddH_D0D2_at2 P q hR
  | 2, 1, 0, h => absurd h (by decide)
  | 2, 1, 1, _ => ddH_D1D2_at1 P q hR
  | 2, 1, 2, _ => ddH_D1D2_at2 P q hR
  | 2, 2, 0, _ => ddH_D2D2_at0 P q hR
  | 2, 2, 1, _ => ddH_D2D2_at1 P q hR
  | 2, 2, 2, _ => ddH_D2D2_at2 P q hR

theorem k0_at (P : Par) (q : Pt) (hR : 0 < R P q) : ∀ i : Fin 3, HasDerivAt (line (k0 P) i q) (dk0 P i q) (q i)
  | 0 => k0_at0 P q hR
  | 1 => k0_at1 P q hR
  | 2 => k0_at2 P q hR

theorem dk0_at (P : Par) (q : Pt) (hR : 0 < R P q) : ∀ i j : Fin 3, HasDerivAt (line (dk0 P i) j q) (ddk0 P i j q) (q j)
  | 0, 0 => dk0_D0_at0 P q hR
  | 0, 1 => dk0_D0_at1 P q hR
  | 0, 2 => dk0_D0_at2 P q hR
  | 1, 0 => dk0_D1_at0 P q hR
  | 1, 1 => dk0_D1_at1 P q hR
  | 1, 2 => dk0_D1_at2 P q hR
  | 2, 0 => dk0_D2_at0 P q hR
  | 2, 1 => dk0_D2_at1 P q hR
  | 2, 2 => dk0_D2_at2 P q hR

theorem ddk0_at (P : Par) (q : Pt) (hR : 0 < R P q) : ∀ i j k : Fin 3, HasDerivAt (line (ddk0 P i j) k q) (dddk0 P i j k q) (q k)
  | 0, 0, 0 => ddk0_D0D0_at0 P q hR
  | 0, 0, 1 => ddk0_D0D0_at1 P q hR
  | 0, 0, 2 => ddk0_D0D0_at2 P q hR
  | 0, 1, 0 => ddk0_D0D1_at0 P q hR
  | 0, 1, 1 => ddk0_D0D1_at1 P q hR
  | 0, 1, 2 => ddk0_D0D1_at2 P q hR
  | 0, 2, 0 => ddk0_D0D2_at0 P q hR
  | 0, 2, 1 => ddk0_D0D2_at1 P q hR
  | 0, 2, 2 => ddk0_D0D2_at2 P q hR
  | 1, 0, 0 => ddk0_D0D1_at0 P q hR
  | 1, 0, 1 => ddk0_D0D1_at1 P q hR
  | 1, 0, 2 => ddk0_D0D1_at2 P q hR
  | 1, 1, 0 => ddk0_D1D1_at0 P q hR
  | 1, 1, 1 => ddk0_D1D1_at1 P q hR
  | 1, 1, 2 => ddk0_D1D1_at2 P q hR
  | 1, 2, 0 => ddk0_D1D2_at0 P q hR
  | 1, 2, 1 => ddk0_D1D2_at1 P q hR
  | 1, 2, 2 => ddk0_D1D2_at2 P q hR
  | 2, 0, 0 => ddk0_D0D2_at0 P q hR
  | 2, 0, 1 => ddk0_D0D2_at1 P q hR
  | 2, 0, 2 => ddk0_D0D2_at2 P q hR
  | 2, 1, 0 => ddk0_D1D2_at0 P q hR
  | 2, 1, 1 => ddk0_D1D2_at1 P q hR
  | 2, 1, 2 => ddk0_D1D2_at2 P q hR
  | 2, 2, 0 => ddk0_D2D2_at0 P q hR
  | 2, 2, 1 => ddk0_D2D2_at1 P q hR
  | 2, 2, 2 => ddk0_D2D2_at2 P q hR

theorem k1_at (P : Par) (q : Pt) (hR : 0 < R P q) : ∀ i : Fin 3, HasDerivAt (line (k1 P) i q) (dk1 P i q) (q i)
  | 0 => k1_at0 P q hR
  | 1 => k1_at1 P q hR
  | 2 => k1_at2 P q hR

theorem dk1_at (P : Par) (q : Pt) (hR : 0 < R P q) : ∀ i j : Fin 3, HasDerivAt (line (dk1 P i) j q) (ddk1 P i j q) (q j)
  | 0, 0 => dk1_D0_at0 P q hR
  | 0, 1 => dk1_D0_at1 P q hR
  | 0, 2 => dk1_D0_at2 P q hR
  | 1, 0 => dk1_D1_at0 P q hR
  | 1, 1 => dk1_D1_at1 P q hR
  | 1, 2 => dk1_D1_at2 P q hR
  | 2, 0 => dk1_D2_at0 P q hR
  | 2, 1 => dk1_D2_at1 P q hR
  | 2, 2 => dk1_D2_at2 P q hR

theorem ddk1_at (P : Par) (q : Pt) (hR : 0 < R P q) : ∀ i j k : Fin 3, HasDerivAt (line (ddk1 P i j) k q) (dddk1 P i j k q) (q k)
  | 0, 0, 0 => ddk1_D0D0_at0 P q hR
  | 0, 0, 1 => ddk1_D0D0_at1 P q hR
  | 0, 0, 2 => ddk1_D0D0_at2 P q hR
  | 0, 1, 0 => ddk1_D0D1_at0 P q hR
  | 0, 1, 1 => ddk1_D0D1_at1 P q hR
  | 0, 1, 2 => ddk1_D0D1_at2 P q hR
  | 0, 2, 0 => ddk1_D0D2_at0 P q hR
  | 0, 2, 1 => ddk1_D0D2_at1 P q hR
  | 0, 2, 2 => ddk1_D0D2_at2 P q hR
  | 1, 0, 0 => ddk1_D0D1_at0 P q hR
  | 1, 0, 1 => ddk1_D0D1_at1 P q hR
  | 1, 0, 2 => ddk1_D0D1_at2 P q hR
  | 1, 1, 0 => ddk1_D1D1_at0 P q hR
  | 1, 1, 1 => ddk1_D1D1_at1 P q hR
  | 1, 1, 2 => ddk1_D1D1_at2 P q hR
  | 1, 2, 0 => ddk1_D1D2_at0 P q hR
  | 1, 2, 1 => ddk1_D1D2_at1 P q hR
  | 1, 2, 2 => ddk1_D1D2_at2 P q hR
  | 2, 0, 0 => ddk1_D0D2_at0 P q hR
  | 2, 0, 1 => ddk1_D0D2_at1 P q hR
  | 2, 0, 2 => ddk1_D0D2_at2 P q hR
  | 2, 1, 0 => ddk1_D1D2_at0 P q hR
  | 2, 1, 1 => ddk1_D1D2_at1 P q hR
  | 2, 1, 2 => ddk1_D1D2_at2 P q hR
  | 2, 2, 0 => ddk1_D2D2_at0 P q hR
  | 2, 2, 1 => ddk1_D2D2_at1 P q hR
  | 2, 2, 2 => ddk1_D2D2_at2 P q hR

theorem k2_at (P : Par) (q : Pt) (hR : 0 < R P q) : ∀ i : Fin 3, HasDerivAt (line (k2 P) i q) (dk2 P i q) (q i)
  | 0 => k2_at0 P q hR
  | 1 => k2_at1 P q hR
  | 2 => k2_at2 P q hR

theorem dk2_at (P : Par) (q : Pt) (hR : 0 < R P q) : ∀ i j : Fin 3, HasDerivAt (line (dk2 P i) j q) (ddk2 P i j q) (q j)
  | 0, 0 => dk2_D0_at0 P q hR
  | 0, 1 => dk2_D0_at1 P q hR
  | 0, 2 => dk2_D0_at2 P q hR
  | 1, 0 => dk2_D1_at0 P q hR
  | 1, 1 => dk2_D1_at1 P q hR
  | 1, 2 => dk2_D1_at2 P q hR
  | 2, 0 => dk2_D2_at0 P q hR
  | 2, 1 => dk2_D2_at1 P q hR
  | 2, 2 => dk2_D2_at2 P q hR

theorem ddk2_at (P : Par) (q : Pt) (hR : 0 < R P q) : ∀ i j k : Fin 3, HasDerivAt (line (ddk2 P i j) k q) (dddk2 P i j k q) (q k)
  | 0, 0, 0 => ddk2_D0D0_at0 P q hR
  | 0, 0, 1 => ddk2_D0D0_at1 P q hR
  | 0, 0, 2 => ddk2_D0D0_at2 P q hR
  | 0, 1, 0 => ddk2_D0D1_at0 P q hR
  | 0, 1, 1 => ddk2_D0D1_at1 P q hR
  | 0, 1, 2 => ddk2_D0D1_at2 P q hR
  | 0, 2, 0 => ddk2_D0D2_at0 P q hR
  | 0, 2, 1 => ddk2_D0D2_at1 P q hR
  | 0, 2, 2 => ddk2_D0D2_at2 P q hR
  | 1, 0, 0 => ddk2_D0D1_at0 P q hR
  | 1, 0, 1 => ddk2_D0D1_at1 P q hR
  | 1, 0, 2 => ddk2_D0D1_at2 P q hR
  | 1, 1, 0 => ddk2_D1D1_at0 P q hR
  | 1, 1, 1 => ddk2_D1D1_at1 P q hR
  | 1, 1, 2 => ddk2_D1D1_at2 P q hR
  | 1, 2, 0 => ddk2_D1D2_at0 P q hR
  | 1, 2, 1 => ddk2_D1D2_at1 P q hR
  | 1, 2, 2 => ddk2_D1D2_at2 P q hR
  | 2, 0, 0 => ddk2_D0D2_at0 P q hR
  | 2, 0, 1 => ddk2_D0D2_at1 P q hR
  | 2, 0, 2 => ddk2_D0D2_at2 P q hR
  | 2, 1, 0 => ddk2_D1D2_at0 P q hR
  | 2, 1, 1 => ddk2_D1D2_at1 P q hR
  | 2, 1, 2 => ddk2_D1D2_at2 P q hR
  | 2, 2, 0 => ddk2_D2D2_at0 P q hR
  | 2, 2, 1 => ddk2_D2D2_at1 P q hR
  | 2, 2, 2 => ddk2_D2D2_at2 P q hR

theorem kt_at (P : Par) (q : Pt) (hR : 0 < R P q) : ∀ i : Fin 3, HasDerivAt (line (kt P) i q) (dkt P i q) (q i)
  | 0 => kt_at0 P q hR
  | 1 => kt_at1 P q hR
  | 2 => kt_at2 P q hR

theorem dkt_at (P : Par) (q : Pt) (hR : 0 < R P q) : ∀ i j : Fin 3, HasDerivAt (line (dkt P i) j q) (ddkt P i j q) (q j)
  | 0, 0 => dkt_D0_at0 P q hR
  | 0, 1 => dkt_D0_at1 P q hR
  | 0, 2 => dkt_D0_at2 P q hR
  | 1, 0 => dkt_D1_at0 P q hR
  | 1, 1 => dkt_D1_at1 P q hR
  | 1, 2 => dkt_D1_at2 P q hR
  | 2, 0 => dkt_D2_at0 P q hR
  | 2, 1 => dkt_D2_at1 P q hR
  | 2, 2 => dkt_D2_at2 P q hR

theorem ddkt_at (P : Par) (q : Pt) (hR : 0 < R P q) : ∀ i j k : Fin 3, HasDerivAt (line (ddkt P i j) k q) (dddkt P i j k q) (q k)
  | 0, 0, 0 => ddkt_D0D0_at0 P q hR
  | 0, 0, 1 => ddkt_D0D0_at1 P q hR
  | 0, 0, 2 => ddkt_D0D0_at2 P q hR
  | 0, 1, 0 => ddkt_D0D1_at0 P q hR
  | 0, 1, 1 => ddkt_D0D1_at1 P q hR
  | 0, 1, 2 => ddkt_D0D1_at2 P q hR
  | 0, 2, 0 => ddkt_D0D2_at0 P q hR
  | 0, 2, 1 => ddkt_D0D2_at1 P q hR
  | 0, 2, 2 => ddkt_D0D2_at2 P q hR
  | 1, 0, 0 => ddkt_D0D1_at0 P q hR
  | 1, 0, 1 => ddkt_D0D1_at1 P q hR
  | 1, 0, 2 => ddkt_D0D1_at2 P q hR
  | 1, 1, 0 => ddkt_D1D1_at0 P q hR
  | 1, 1, 1 => ddkt_D1D1_at1 P q hR
  | 1, 1, 2 => ddkt_D1D1_at2 P q hR
  | 1, 2, 0 => ddkt_D1D2_at0 P q hR
  | 1, 2, 1 => ddkt_D1D2_at1 P q hR
  | 1, 2, 2 => ddkt_D1D2_at2 P q hR
  | 2, 0, 0 => ddkt_D0D2_at0 P q hR
  | 2, 0, 1 => ddkt_D0D2_at1 P q hR
  | 2, 0, 2 => ddkt_D0D2_at2 P q hR
  | 2, 1, 0 => ddkt_D1D2_at0 P q hR
  | 2, 1, 1 => ddkt_D1D2_at1 P q hR
  | 2, 1, 2 => ddkt_D1D2_at2 P q hR
  | 2, 2, 0 => ddkt_D2D2_at0 P q hR
  | 2, 2, 1 => ddkt_D2D2_at1 P q hR
  | 2, 2, 2 => ddkt_D2D2_at2 P q hR

theorem c_at (P : Par) (q : Pt) (hR : 0 < R P q) : ∀ i : Fin 3, HasDerivAt (line (c P) i q) (dc P i q) (q i)
  | 0 => c_at0 P q hR
  | 1 => c_at1 P q hR
  | 2 => c_at2 P q hR

theorem dc_at (P : Par) (q : Pt) (hR : 0 < R P q) : ∀ i j : Fin 3, HasDerivAt (line (dc P i) j q) (ddc P i j q) (q j)
  | 0, 0 => dc_D0_at0 P q hR
  | 0, 1 => dc_D0_at1 P q hR
  | 0, 2 => dc_D0_at2 P q hR
  | 1, 0 => dc_D1_at0 P q hR
  | 1, 1 => dc_D1_at1 P q hR
  | 1, 2 => dc_D1_at2 P q hR
  | 2, 0 => dc_D2_at0 P q hR
  | 2, 1 => dc_D2_at1 P q hR
  | 2, 2 => dc_D2_at2 P q hR

theorem ddc_at (P : Par) (q : Pt) (hR : 0 < R P q) : ∀ i j k : Fin 3, i = j ∨ i = k ∨ j = k → HasDerivAt (line (ddc P i j) k q) (dddc P i j k q) (q k)
  | 0, 0, 0, _ => ddc_D0D0_at0 P q hR
  | 0, 0, 1, _ => ddc_D0D0_at1 P q hR
  | 0, 0, 2, _ => ddc_D0D0_at2 P q hR
  | 0, 1, 0, _ => ddc_D0D1_at0 P q hR
  | 0, 1, 1, _ => ddc_D0D1_at1 P q hR
  | 0, 1, 2, h => absurd h (by decide)
  | 0, 2, 0, _ => ddc_D0D2_at0 P q hR
  | 0, 2, 1, h => absurd h (by decide)
  | 0, 2, 2, _ => ddc_D0D2_at2 P q hR
  | 1, 0, 0, _ => ddc_D0D1_at0 P q hR
  | 1, 0, 1, _ => ddc_D0D1_at1 P q hR
  | 1, 0, 2, h => absurd h (by decide)
  | 1, 1, 0, _ => ddc_D1D1_at0 P q hR
  | 1, 1, 1, _ => ddc_D1D1_at1 P q hR
  | 1, 1, 2, _ => ddc_D1D1_at2 P q hR
  | 1, 2, 0, h => absurd h (by decide)
  | 1, 2, 1, _ => ddc_D1D2_at1 P q hR
  | 1, 2, 2, _ => ddc_D1D2_at2 P q hR
  | 2, 0, 0, _ => ddc_D0D2_at0 P q hR
  | 2, 0, 1, h => absurd h (by decide)
  | 2, 0, 2, _ => ddc_D0D2_at2 P q hR
  | 2, 1, 0, h => absurd h (by decide)
  | 2, 1, 1, _ => ddc_D1D2_at1 P q hR
  | 2, 1, 2, _ => ddc_D1D2_at2 P q hR
  | 2, 2, 0, _ => ddc_D2D2_at0 P q hR
  | 2, 2, 1, _ => ddc_D2D2_at1 P q hR
  | 2, 2, 2, _ => ddc_D2D2_at2 P q hR

theorem gam_at (P : Par) (q : Pt) (hR : 0 < R P q) : ∀ i j k : Fin 3, HasDerivAt (line (gam P i j) k q) (dgam P i j k q) (q k)
  | 0, 0, 0 => gamma_D0D0_at0 P q hR
  | 0, 0, 1 => gamma_D0D0_at1 P q hR
  | 0, 0, 2 => gamma_D0D0_at2 P q hR
  | 0, 1, 0 => gamma_D0D1_at0 P q hR
  | 0, 1, 1 => gamma_D0D1_at1 P q hR
  | 0, 1, 2 => gamma_D0D1_at2 P q hR
  | 0, 2, 0 => gamma_D0D2_at0 P q hR
  | 0, 2, 1 => gamma_D0D2_at1 P q hR
  | 0, 2, 2 => gamma_D0D2_at2 P q hR
  | 1, 0, 0 => gamma_D0D1_at0 P q hR
  | 1, 0, 1 => gamma_D0D1_at1 P q hR
  | 1, 0, 2 => gamma_D0D1_at2 P q hR
  | 1, 1, 0 => gamma_D1D1_at0 P q hR
  | 1, 1, 1 => gamma_D1D1_at1 P q hR
  | 1, 1, 2 => gamma_D1D1_at2 P q hR
  | 1, 2, 0 => gamma_D1D2_at0 P q hR
  | 1, 2, 1 => gamma_D1D2_at1 P q hR
  | 1, 2, 2 => gamma_D1D2_at2 P q hR
  | 2, 0, 0 => gamma_D0D2_at0 P q hR
  | 2, 0, 1 => gamma_D0D2_at1 P q hR
  | 2, 0, 2 => gamma_D0D2_at2 P q hR
  | 2, 1, 0 => gamma_D1D2_at0 P q hR
  | 2, 1, 1 => gamma_D1D2_at1 P q hR
  | 2, 1, 2 => gamma_D1D2_at2 P q hR
  | 2, 2, 0 => gamma_D2D2_at0 P q hR
  | 2, 2, 1 => gamma_D2D2_at1 P q hR
  | 2, 2, 2 => gamma_D2D2_at2 P q hR

theorem dgam_at (P : Par) (q : Pt) (hR : 0 < R P q) : ∀ i j k l : Fin 3, HasDerivAt (line (dgam P i j k) l q) (ddgam P i j k l q) (q l)
  | 0, 0, 0, 0 => dgamma_D0D0D0_at0 P q hR
  | 0, 0, 0, 1 => dgamma_D0D0D0_at1 P q hR
  | 0, 0, 0, 2 => dgamma_D0D0D0_at2 P q hR
  | 0, 0, 1, 0 => dgamma_D0D0D1_at0 P q hR
  | 0, 0, 1, 1 => dgamma_D0D0D1_at1 P q hR
  | 0, 0, 1, 2 => dgamma_D0D0D1_at2 P q hR
  | 0, 0, 2, 0 => dgamma_D0D0D2_at0 P q hR
  | 0, 0, 2, 1 => dgamma_D0D0D2_at1 P q hR
  | 0, 0, 2, 2 => dgamma_D0D0D2_at2 P q hR
  | 0, 1, 0, 0 => dgamma_D0D1D0_at0 P q hR
  | 0, 1, 0, 1 => dgamma_D0D1D0_at1 P q hR
  | 0, 1, 0, 2 => dgamma_D0D1D0_at2 P q hR
  | 0, 1, 1, 0 => dgamma_D0D1D1_at0 P q hR
  | 0, 1, 1, 1 => dgamma_D0D1D1_at1 P q hR
  | 0, 1, 1, 2 => dgamma_D0D1D1_at2 P q hR
  | 0, 1, 2, 0 => dgamma_D0D1D2_at0 P q hR
  | 0, 1, 2, 1 => dgamma_D0D1D2_at1 P q hR
  | 0, 1, 2, 2 => dgamma_D0D1D2_at2 P q hR
  | 0, 2, 0, 0 => dgamma_D0D2D0_at0 P q hR
  | 0, 2, 0, 1 => dgamma_D0D2D0_at1 P q hR
  | 0, 2, 0, 2 => dgamma_D0D2D0_at2 P q hR
  | 0, 2, 1, 0 => dgamma_D0D2D1_at0 P q hR
  | 0, 2, 1, 1 => dgamma_D0D2D1_at1 P q hR
  | 0, 2, 1, 2 => dgamma_D0D2D1_at2 P q hR
  | 0, 2, 2, 0 => dgamma_D0D2D2_at0 P q hR
  | 0, 2, 2, 1 => dgamma_D0D2D2_at1 P q hR
  | 0, 2, 2, 2 => dgamma_D0D2D2_at2 P q hR
  | 1, 0, 0, 0 => dgamma_D0D1D0_at0 P q hR
  | 1, 0, 0, 1 => dgamma_D0D1D0_at1 P q hR
  | 1, 0, 0, 2 => dgamma_D0D1D0_at2 P q hR
  | 1, 0, 1, 0 => dgamma_D0D1D1_at0 P q hR
  | 1, 0, 1, 1 => dgamma_D0D1D1_at1 P q hR
  | 1, 0, 1, 2 => dgamma_D0D1D1_at2 P q hR
  | 1, 0, 2, 0 => dgamma_D0D1D2_at0 P q hR
  | 1, 0, 2, 1 => dgamma_D0D1D2_at1 P q hR
  | 1, 0, 2, 2 => dgamma_D0D1D2_at2 P q hR
  | 1, 1, 0, 0 => dgamma_D1D1D0_at0 P q hR
  | 1, 1, 0, 1 => dgamma_D1D1D0_at1 P q hR
  | 1, 1, 0, 2 => dgamma_D1D1D0_at2 P q hR
  | 1, 1, 1, 0 => dgamma_D1D1D1_at0 P q hR
  | 1, 1, 1, 1 => dgamma_D1D1D1_at1 P q hR
  | 1, 1, 1, 2 => dgamma_D1D1D1_at2 P q hR
  | 1, 1, 2, 0 => dgamma_D1D1D2_at0 P q hR
  | 1, 1, 2, 1 => dgamma_D1D1D2_at1 P q hR
  | 1, 1, 2, 2 => dgamma_D1D1D2_at2 P q hR
  | 1, 2, 0, 0 => dgamma_D1D2D0_at0 P q hR
  | 1, 2, 0, 1 => dgamma_D1D2D0_at1 P q hR
  | 1, 2, 0, 2 => dgamma_D1D2D0_at2 P q hR
  | 1, 2, 1, 0 => dgamma_D1D2D1_at0 P q hR
  | 1, 2, 1, 1 => dgamma_D1D2D1_at1 P q hR
  | 1, 2, 1, 2 => dgamma_D1D2D1_at2 P q hR
  | 1, 2, 2, 0 => dgamma_D1D2D2_at0 P q hR
  | 1, 2, 2, 1 => dgamma_D1D2D2_at1 P q hR
  | 1, 2, 2, 2 => dgamma_D1D2D2_at2 P q hR
  | 2, 0, 0, 0 => dgamma_D0D2D0_at0 P q hR
  | 2, 0, 0, 1 => dgamma_D0D2D0_at1 P q hR
  | 2, 0, 0, 2 => dgamma_D0D2D0_at2 P q hR
  | 2, 0, 1, 0 => dgamma_D0D2D1_at0 P q hR
  | 2, 0, 1, 1 => dgamma_D0D2D1_at1 P q hR
  | 2, 0, 1, 2 => dgamma_D0D2D1_at2 P q hR
  | 2, 0, 2, 0 => dgamma_D0D2D2_at0 P q hR
  | 2, 0, 2, 1 => dgamma_D0D2D2_at1 P q hR
  | 2, 0, 2, 2 => dgamma_D0D2D2_at2 P q hR
  | 2, 1, 0, 0 => dgamma_D1D2D0_at0 P q hR
  | 2, 1, 0, 1 => dgamma_D1D2D0_at1 P q hR
  | 2, 1, 0, 2 => dgamma_D1D2D0_at2 P q hR
  | 2, 1, 1, 0 => dgamma_D1D2D1_at0 P q hR
  | 2, 1, 1, 1 => dgamma_D1D2D1_at1 P q hR
  | 2, 1, 1, 2 => dgamma_D1D2D1_at2 P q hR
  | 2, 1, 2, 0 => dgamma_D1D2D2_at0 P q hR
  | 2, 1, 2, 1 => dgamma_D1D2D2_at1 P q hR
  | 2, 1, 2, 2 => dgamma_D1D2D2_at2 P q hR
  | 2, 2, 0, 0 => dgamma_D2D2D0_at0 P q hR
  | 2, 2, 0, 1 => dgamma_D2D2D0_at1 P q hR
  | 2, 2, 0, 2 => dgamma_D2D2D0_at2 P q hR
  | 2, 2, 1, 0 => dgamma_D2D2D1_at0 P q hR
  | 2, 2, 1, 1 => dgamma_D2D2D1_at1 P q hR
  | 2, 2, 1, 2 => dgamma_D2D2D1_at2 P q hR
  | 2, 2, 2, 0 => dgamma_D2D2D2_at0 P q hR
  | 2, 2, 2, 1 => dgamma_D2D2D2_at1 P q hR
  | 2, 2, 2, 2 => dgamma_D2D2D2_at2 P q hR

theorem ddgam_at (P : Par) (q : Pt) (hR : 0 < R P q) : ∀ i j k l m : Fin 3, k = l ∨ k = m ∨ l = m → HasDerivAt (line (ddgam P i j k l) m q) (dddgam P i j k l m q) (q m)
  | 0, 0, 0, 0, 0, _ => ddgamma_D0D0D0D0_at0 P q hR
  | 0, 0, 0, 0, 1, _ => ddgamma_D0D0D0D0_at1 P q hR
  | 0, 0, 0, 0, 2, _ => ddgamma_D0D0D0D0_at2 P q hR
  | 0, 0, 0, 1, 0, _ => ddgamma_D0D0D0D1_at0 P q hR
  | 0, 0, 0, 1, 1, _ => ddgamma_D0D0D0D1_at1 P q hR
  | 0, 0, 0, 1, 2, h => absurd h (by decide)
  | 0, 0, 0, 2, 0, _ => ddgamma_D0D0D0D2_at0 P q hR
  | 0, 0, 0, 2, 1, h => absurd h (by decide)
  | 0, 0, 0, 2, 2, _ => ddgamma_D0D0D0D2_at2 P q hR
  | 0, 0, 1, 0, 0, _ => ddgamma_D0D0D1D0_at0 P q hR
  | 0, 0, 1, 0, 1, _ => ddgamma_D0D0D1D0_at1 P q hR
  | 0, 0, 1, 0, 2, h => absurd h (by decide)
  | 0, 0, 1, 1, 0, _ => ddgamma_D0D0D1D1_at0 P q hR
  | 0, 0, 1, 1, 1, _ => ddgamma_D0D0D1D1_at1 P q hR
  | 0, 0, 1, 1, 2, _ => ddgamma_D0D0D1D1_at2 P q hR
  | 0, 0, 1, 2, 0, h => absurd h (by decide)
  | 0, 0, 1, 2, 1, _ => ddgamma_D0D0D1D2_at1 P q hR
  | 0, 0, 1, 2, 2, _ => ddgamma_D0D0D1D2_at2 P q hR
  | 0, 0, 2, 0, 0, _ => ddgamma_D0D0D2D0_at0 P q hR
  | 0, 0, 2, 0, 1, h => absurd h (by decide)
  | 0, 0, 2, 0, 2, _ => ddgamma_D0D0D2D0_at2 P q hR
  | 0, 0, 2, 1, 0, h => absurd h (by decide)
  | 0, 0, 2, 1, 1, _ => ddgamma_D0D0D2D1_at1 P q hR
  | 0, 0, 2, 1, 2, _ => ddgamma_D0D0D2D1_at2 P q hR
  | 0, 0, 2, 2, 0, _ => ddgamma_D0D0D2D2_at0 P q hR
  | 0, 0, 2, 2, 1, _ => ddgamma_D0D0D2D2_at1 P q hR
  | 0, 0, 2, 2, 2, _ => ddgamma_D0D0D2D2_at2 P q hR
  | 0, 1, 0, 0, 0, _ => ddgamma_D0D1D0D0_at0 P q hR
  | 0, 1, 0, 0, 1, _ => ddgamma_D0D1D0D0_at1 P q hR
  | 0, 1, 0, 0, 2, _ => ddgamma_D0D1D0D0_at2 P q hR
  | 0, 1, 0, 1, 0, _ => ddgamma_D0D1D0D1_at0 P q hR
  | 0, 1, 0, 1, 1, _ => ddgamma_D0D1D0D1_at1 P q hR
  | 0, 1, 0, 1, 2, h => absurd h (by decide)
  | 0, 1, 0, 2, 0, _ => ddgamma_D0D1D0D2_at0 P q hR
  | 0, 1, 0, 2, 1, h => absurd h (by decide)
  | 0, 1, 0, 2, 2, _ => ddgamma_D0D1D0D2_at2 P q hR
  | 0, 1, 1, 0, 0, _ => ddgamma_D0D1D1D0_at0 P q hR
  | 0, 1, 1, 0, 1, _ => ddgamma_D0D1D1D0_at1 P q hR
  | 0, 1, 1, 0, 2, h => absurd h (by decide)
  | 0, 1, 1, 1, 0, _ => ddgamma_D0D1D1D1_at0 P q hR
  | 0, 1, 1, 1, 1, _ => ddgamma_D0D1D1D1_at1 P q hR
  | 0, 1, 1, 1, 2, _ => ddgamma_D0D1D1D1_at2 P q hR
  | 0, 1, 1, 2, 0, h => absurd h (by decide)
  | 0, 1, 1, 2, 1, _ => ddgamma_D0D1D1D2_at1 P q hR
  | 0, 1, 1, 2, 2, _ => ddgamma_D0D1D1D2_at2 P q hR
  | 0, 1, 2, 0, 0, _ => ddgamma_D0D1D2D0_at0 P q hR
  | 0, 1, 2, 0, 1, h => absurd h (by decide)
  | 0, 1, 2, 0, 2, _ => ddgamma_D0D1D2D0_at2 P q hR
  | 0, 1, 2, 1, 0, h => absurd h (by decide)
  | 0, 1, 2, 1, 1, _ => ddgamma_D0D1D2D1_at1 P q hR
  | 0, 1, 2, 1, 2, _ => ddgamma_D0D1D2D1_at2 P q hR
  | 0, 1, 2, 2, 0, _ => ddgamma_D0D1D2D2_at0 P q hR
  | 0, 1, 2, 2, 1, _ => ddgamma_D0D1D2D2_at1 P q hR
  | 0, 1, 2, 2, 2, _ => ddgamma_D0D1D2D2_at2 P q hR
  | 0, 2, 0, 0, 0, _ => ddgamma_D0D2D0D0_at0 P q hR
  | 0, 2, 0, 0, 1, _ => ddgamma_D0D2D0D0_at1 P q hR
  | 0, 2, 0, 0, 2, _ => ddgamma_D0D2D0D0_at2 P q hR
  | 0, 2, 0, 1, 0, _ => ddgamma_D0D2D0D1_at0 P q hR
  | 0, 2, 0, 1, 1, _ => ddgamma_D0D2D0D1_at1 P q hR
  | 0, 2, 0, 1, 2, h => absurd h (by decide)
  | 0, 2, 0, 2, 0, _ => ddgamma_D0D2D0D2_at0 P q hR
  | 0, 2, 0, 2, 1, h => absurd h (by decide)
  | 0, 2, 0, 2, 2, _ => ddgamma_D0D2D0D2_at2 P q hR
  | 0, 2, 1, 0, 0, _ => ddgamma_D0D2D1D0_at0 P q hR
  | 0, 2, 1, 0, 1, _ => ddgamma_D0D2D1D0_at1 P q hR
  | 0, 2, 1, 0, 2, h => absurd h (by decide)
  | 0, 2, 1, 1, 0, _ => ddgamma_D0D2D1D1_at0 P q hR
  | 0, 2, 1, 1, 1, _ => ddgamma_D0D2D1D1_at1 P q hR
  | 0, 2, 1, 1, 2, _ => ddgamma_D0D2D1D1_at2 P q hR
  | 0, 2, 1, 2, 0, h => absurd h (by decide)
  | 0, 2, 1, 2, 1, _ => ddgamma_D0D2D1D2_at1 P q hR
  | 0, 2, 1, 2, 2, _ => ddgamma_D0D2D1D2_at2 P q hR
  | 0, 2, 2, 0, 0, _ => ddgamma_D0D2D2D0_at0 P q hR
  | 0, 2, 2, 0, 1, h => absurd h (by decide)
  | 0, 2, 2, 0, 2, _ => ddgamma_D0D2D2D0_at2 P q hR
  | 0, 2, 2, 1, 0, h => absurd h (by decide)
  | 0, 2, 2, 1, 1, _ => ddgamma_D0D2D2D1_at1 P q hR
  | 0, 2, 2, 1, 2, _ => ddgamma_D0D2D2D1_at2 P q hR
  | 0, 2, 2, 2, 0, _ => ddgamma_D0D2D2D2_at0 P q hR
  | 0, 2, 2, 2, 1, _ => ddgamma_D0D2D2D2_at1 P q hR
  | 0, 2, 2, 2, 2, _ => ddgamma_D0D2D2D2_at2 P q hR
  | 1, 0, 0, 0, 0, _ => ddgamma_D0D1D0D0_at0 P q hR
  | 1, 0, 0, 0, 1, _ => ddgamma_D0D1D0D0_at1 P q hR
  | 1, 0, 0, 0, 2, _ => ddgamma_D0D1D0D0_at2 P q hR
  | 1, 0, 0, 1, 0, _ => ddgamma_D0D1D0D1_at0 P q hR
  | 1, 0, 0, 1, 1, _ => ddgamma_D0D1D0D1_at1 P q hR
  | 1, 0, 0, 1, 2, h => absurd h (by decide)
  | 1, 0, 0, 2, 0, _ => ddgamma_D0D1D0D2_at0 P q hR
  | 1, 0, 0, 2, 1, h => absurd h (by decide)
  | 1, 0, 0, 2, 2, _ => ddgamma_D0D1D0D2_at2 P q hR
  | 1, 0, 1, 0, 0, _ => ddgamma_D0D1D1D0_at0 P q hR
  | 1, 0, 1, 0, 1, _ => ddgamma_D0D1D1D0_at1 P q hR
  | 1, 0, 1, 0, 2, h => absurd h (by decide)
  | 1, 0, 1, 1, 0, _ => ddgamma_D0D1D1D1_at0 P q hR
  | 1, 0, 1, 1, 1, _ => ddgamma_D0D1D1D1_at1 P q hR
  | 1, 0, 1, 1, 2, _ => ddgamma_D0D1D1D1_at2 P q hR
  | 1, 0, 1, 2, 0, h => absurd h (by decide)
  | 1, 0, 1, 2, 1, _ => ddgamma_D0D1D1D2_at1 P q hR
  | 1, 0, 1, 2, 2, _ => ddgamma_D0D1D1D2_at2 P q hR
  | 1, 0, 2, 0, 0, _ => ddgamma_D0D1D2D0_at0 P q hR
  | 1, 0, 2, 0, 1, h => absurd h (by decide)
  | 1, 0, 2, 0, 2, _ => ddgamma_D0D1D2D0_at2 P q hR
  | 1, 0, 2, 1, 0, h => absurd h (by decide)
  | 1, 0, 2, 1, 1, _ => ddgamma_D0D1D2D1_at1 P q hR
  | 1, 0, 2, 1, 2, _ => ddgamma_D0D1D2D1_at2 P q hR
  | 1, 0, 2, 2, 0, _ => ddgamma_D0D1D2D2_at0 P q hR
  | 1, 0, 2, 2, 1, _ => ddgamma_D0D1D2D2_at1 P q hR
  | 1, 0, 2, 2, 2, _ => ddgamma_D0D1D2D2_at2 P q hR
  | 1, 1, 0, 0, 0, _ => ddgamma_D1D1D0D0_at0 P q hR
  | 1, 1, 0, 0, 1, _ => ddgamma_D1D1D0D0_at1 P q hR
  | 1, 1, 0, 0, 2, _ => ddgamma_D1D1D0D0_at2 P q hR
  | 1, 1, 0, 1, 0, _ => ddgamma_D1D1D0D1_at0 P q hR
  | 1, 1, 0, 1, 1, _ => ddgamma_D1D1D0D1_at1 P q hR
  | 1, 1, 0, 1, 2, h => absurd h (by decide)
  | 1, 1, 0, 2, 0, _ => ddgamma_D1D1D0D2_at0 P q hR
  | 1, 1, 0, 2, 1, h => absurd h (by decide)
  | 1, 1, 0, 2, 2, _ => ddgamma_D1D1D0D2_at2 P q hR
  | 1, 1, 1, 0, 0, _ => ddgamma_D1D1D1D0_at0 P q hR
  | 1, 1, 1, 0, 1, _ => ddgamma_D1D1D1D0_at1 P q hR
  | 1, 1, 1, 0, 2, h => absurd h (by decide)
  | 1, 1, 1, 1, 0, _ => ddgamma_D1D1D1D1_at0 P q hR
  | 1, 1, 1, 1, 1, _ => ddgamma_D1D1D1D1_at1 P q hR
  | 1, 1, 1, 1, 2, _ => ddgamma_D1D1D1D1_at2 P q hR
  | 1, 1, 1, 2, 0, h => absurd h (by decide)
  | 1, 1, 1, 2, 1, _ => ddgamma_D1D1D1D2_at1 P q hR
  | 1, 1, 1, 2, 2, _ => ddgamma_D1D1D1D2_at2 P q hR
  | 1, 1, 2, 0, 0, _ => ddgamma_D1D1D2D0_at0 P q hR
  | 1, 1, 2, 0, 1, h => absurd h (by decide)
  | 1, 1, 2, 0, 2, _ => ddgamma_D1D1D2D0_at2 P q hR
  | 1, 1, 2, 1, 0, h => absurd h (by decide)
  | 1, 1, 2, 1, 1, _ => ddgamma_D1D1D2D1_at1 P q hR
  | 1, 1, 2, 1, 2, _ => ddgamma_D1D1D2D1_at2 P q hR
  | 1, 1, 2, 2, 0, _ => ddgamma_D1D1D2D2_at0 P q hR
  | 1, 1, 2, 2, 1, _ => ddgamma_D1D1D2D2_at1 P q hR
  | 1, 1, 2, 2, 2, _ => ddgamma_D1D1D2D2_at2 P q hR
  | 1, 2, 0, 0, 0, _ => ddgamma_D1D2D0D0_at0 P q hR
  | 1, 2, 0, 0, 1, _ => ddgamma_D1D2D0D0_at1 P q hR
  | 1, 2, 0, 0, 2, _ => ddgamma_D1D2D0D0_at2 P q hR
  | 1, 2, 0, 1, 0, _ => ddgamma_D1D2D0D1_at0 P q hR
  | 1, 2, 0, 1, 1, _ => ddgamma_D1D2D0D1_at1 P q hR
  | 1, 2, 0, 1, 2, h => absurd h (by decide)
  | 1, 2, 0, 2, 0, _ => ddgamma_D1D2D0D2_at0 P q hR
  | 1, 2, 0, 2, 1, h => absurd h (by decide)
  | 1, 2, 0, 2, 2, _ => ddgamma_D1D2D0D2_at2 P q hR
  | 1, 2, 1, 0, 0, _ => ddgamma_D1D2D1D0_at0 P q hR
  | 1, 2, 1, 0, 1, _ => ddgamma_D1D2D1D0_at1 P q hR
  | 1, 2, 1, 0, 2, h => absurd h (by decide)
  | 1, 2, 1, 1, 0, _ => ddgamma_D1D2D1D1_at0 P q hR
  | 1, 2, 1, 1, 1, _ => ddgamma_D1D2D1D1_at1 P q hR
  | 1, 2, 1, 1, 2, _ => ddgamma_D1D2D1D1_at2 P q hR
  | 1, 2, 1, 2, 0, h => absurd h (by decide)
  | 1, 2, 1, 2, 1, _ => ddgamma_D1D2D1D2_at1 P q hR
  | 1, 2, 1, 2, 2, _ => ddgamma_D1D2D1D2_at2 P q hR
  | 1, 2, 2, 0, 0, _ => ddgamma_D1D2D2D0_at0 P q hR
  | 1, 2, 2, 0, 1, h => absurd h (by decide)
  | 1, 2, 2, 0, 2, _ => ddgamma_D1D2D2D0_at2 P q hR
  | 1, 2, 2, 1, 0, h => absurd h (by decide)
  | 1, 2, 2, 1, 1, _ => ddgamma_D1D2D2D1_at1 P q hR
  | 1, 2, 2, 1, 2, _ => ddgamma_D1D2D2D1_at2 P q hR
  | 1, 2, 2, 2, 0, _ => ddgamma_D1D2D2D2_at0 P q hR
  | 1, 2, 2, 2, 1, _ => ddgamma_D1D2D2D2_at1 P q hR
  | 1, 2, 2, 2, 2, _ => ddgamma_D1D2D2D2_at2 P q hR
  | 2, 0, 0, 0, 0, _ => ddgamma_D0D2D0D0_at0 P q hR
  | 2, 0, 0, 0, 1, _ => ddgamma_D0D2D0D0_at1 P q hR
  | 2, 0, 0, 0, 2, _ => ddgamma_D0D2D0D0_at2 P q hR
  | 2, 0, 0, 1, 0, _ => ddgamma_D0D2D0D1_at0 P q hR
  | 2, 0, 0, 1, 1, _ => ddgamma_D0D2D0D1_at1 P q hR
  | 2, 0, 0, 1, 2, h => absurd h (by decide)
  | 2, 0, 0, 2, 0, _ => ddgamma_D0D2D0D2_at0 P q hR
  | 2, 0, 0, 2, 1, h => absurd h (by decide)
  | 2, 0, 0, 2, 2, _ => ddgamma_D0D2D0D2_at2 P q hR
  | 2, 0, 1, 0, 0, _ => ddgamma_D0D2D1D0_at0 P q hR
  | 2, 0, 1, 0, 1, _ => ddgamma_D0D2D1D0_at1 P q hR
  | 2, 0, 1, 0, 2, h => absurd h (by decide)
  | 2, 0, 1, 1, 0, _ => ddgamma_D0D2D1D1_at0 P q hR
  | 2, 0, 1, 1, 1, _ => ddgamma_D0D2D1D1_at1 P q hR
  | 2, 0, 1, 1, 2, _ => ddgamma_D0D2D1D1_at2 P q hR
  | 2, 0, 1, 2, 0, h => absurd h (by decide)
  | 2, 0, 1, 2, 1, _ => ddgamma_D0D2D1D2_at1 P q hR
  | 2, 0, 1, 2, 2, _ => ddgamma_D0D2D1D2_at2 P q hR
  | 2, 0, 2, 0, 0, _ => ddgamma_D0D2D2D0_at0 P q hR
  | 2, 0, 2, 0, 1, h => absurd h (by decide)
  | 2, 0, 2, 0, 2, _ => ddgamma_D0D2D2D0_at2 P q hR
  | 2, 0, 2, 1, 0, h => absurd h (by decide)
  | 2, 0, 2, 1, 1, _ => ddgamma_D0D2D2D1_at1 P q hR
  | 2, 0, 2, 1, 2, _ => ddgamma_D0D2D2D1_at2 P q hR
  | 2, 0, 2, 2, 0, _ => ddgamma_D0D2D2D2_at0 P q hR
  | 2, 0, 2, 2, 1, _ => ddgamma_D0D2D2D2_at1 P q hR
  | 2, 0, 2, 2, 2, _ => ddgamma_D0D2D2D2_at2 P q hR
  | 2, 1, 0, 0, 0, _ => ddgamma_D1D2D0D0_at0 P q hR
  | 2, 1, 0, 0, 1, _ => ddgamma_D1D2D0D0_at1 P q hR
  | 2, 1, 0, 0, 2, _ => ddgamma_D1D2D0D0_at2 P q hR
  | 2, 1, 0, 1, 0, _ => ddgamma_D1D2D0D1_at0 P q hR
  | 2, 1, 0, 1, 1, _ => ddgamma_D1D2D0D1_at1 P q hR
  | 2, 1, 0, 1, 2, h => absurd h (by decide)
  | 2, 1, 0, 2, 0, _ => ddgamma_D1D2D0D2_at0 P q hR
  | 2, 1, 0, 2, 1, h => absurd h (by decide)
  | 2, 1, 0, 2, 2, _ => ddgamma_D1D2D0D2_at2 P q hR
  | 2, 1, 1, 0, 0, _ => ddgamma_D1D2D1D0_at0 P q hR
  | 2, 1, 1, 0, 1, _ => ddgamma_D1D2D1D0_at1 P q hR
  | 2, 1, 1, 0, 2, h => absurd h (by decide)
  | 2, 1, 1, 1, 0, _ => ddgamma_D1D2D1D1_at0 P q hR
  | 2, 1, 1, 1, 1, _ => ddgamma_D1D2D1D1_at1 P q hR
  | 2, 1, 1, 1, 2, _ => ddgamma_D1D2D1D1_at2 P q hR
  | 2, 1, 1, 2, 0, h => absurd h (by decide)
  | 2, 1, 1, 2, 1, _ => ddgamma_D1D2D1D2_at1 P q hR
  | 2, 1, 1, 2, 2, _ => ddgamma_D1D2D1D2_at2 P q hR
  | 2, 1, 2, 0, 0, _ => ddgamma_D1D2D2D0_at0 P q hR
  | 2, 1, 2, 0, 1, h => absurd h (by decide)
  | 2, 1, 2, 0, 2, _ => ddgamma_D1D2D2D0_at2 P q hR
  | 2, 1, 2, 1, 0, h => absurd h (by decide)
  | 2, 1, 2, 1, 1, _ => ddgamma_D1D2D2D1_at1 P q hR
  | 2, 1, 2, 1, 2, _ => ddgamma_D1D2D2D1_at2 P q hR
  | 2, 1, 2, 2, 0, _ => ddgamma_D1D2D2D2_at0 P q hR
  | 2, 1, 2, 2, 1, _ => ddgamma_D1D2D2D2_at1 P q hR
  | 2, 1, 2, 2, 2, _ => ddgamma_D1D2D2D2_at2 P q hR
  | 2, 2, 0, 0, 0, _ => ddgamma_D2D2D0D0_at0 P q hR
  | 2, 2, 0, 0, 1, _ => ddgamma_D2D2D0D0_at1 P q hR
  | 2, 2, 0, 0, 2, _ => ddgamma_D2D2D0D0_at2 P q hR
  | 2, 2, 0, 1, 0, _ => ddgamma_D2D2D0D1_at0 P q hR
  | 2, 2, 0, 1, 1, _ => ddgamma_D2D2D0D1_at1 P q hR
  | 2, 2, 0, 1, 2, h => absurd h (by decide)
  | 2, 2, 0, 2, 0, _ => ddgamma_D2D2D0D2_at0 P q hR
  | 2, 2, 0, 2, 1, h => absurd h (by decide)
  | 2, 2, 0, 2, 2, _ => ddgamma_D2D2D0D2_at2 P q hR
  | 2, 2, 1, 0, 0, _ => ddgamma_D2D2D1D0_at0 P q hR
  | 2, 2, 1, 0, 1, _ => ddgamma_D2D2D1D0_at1 P q hR
  | 2, 2, 1, 0, 2, h => absurd h (by decide)
  | 2, 2, 1, 1, 0, _ => ddgamma_D2D2D1D1_at0 P q hR
  | 2, 2, 1, 1, 1, _ => ddgamma_D2D2D1D1_at1 P q hR
  | 2, 2, 1, 1, 2, _ => ddgamma_D2D2D1D1_at2 P q hR
  | 2, 2, 1, 2, 0, h => absurd h (by decide)
  | 2, 2, 1, 2, 1, _ => ddgamma_D2D2D1D2_at1 P q hR
  | 2, 2, 1, 2, 2, _ => ddgamma_D2D2D1D2_at2 P q hR
  | 2, 2, 2, 0, 0, _ => ddgamma_D2D2D2D0_at0 P q hR
  | 2, 2, 2, 0, 1, h => absurd h (by decide)
  | 2, 2, 2, 0, 2, _ => ddgamma_D2D2D2D0_at2 P q hR
  | 2, 2, 2, 1, 0, h => absurd h (by decide)
  | 2, 2, 2, 1, 1, _ => ddgamma_D2D2D2D1_at1 P q hR
  | 2, 2, 2, 1, 2, _ => ddgamma_D2D2D2D1_at2 P q hR
  | 2, 2, 2, 2, 0, _ => ddgamma_D2D2D2D2_at0 P q hR
  | 2, 2, 2, 2, 1, _ => ddgamma_D2D2D2D2_at1 P q hR
  | 2, 2, 2, 2, 2, _ => ddgamma_D2D2D2D2_at2 P q hR

end Elliptica.Ks
