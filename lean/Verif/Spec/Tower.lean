import Verif.Tower.Fqn
import Mathlib.RingTheory.AdjoinRoot

/-!
# Specification of the extension tower

`Quad R = R[u]/(u² + 1)`, `Sext R = (Quad R)[v]/(v³ - (9 + u))`, `Dodec R = (Sext R)[w]/(w² - v)`, and the
element a coefficient vector stands for.
-/

namespace Kogarashi.Spec

open Polynomial Tower

variable (R : Type) [CommRing R]

/-- `R[u]/(u² + 1)`. -/
noncomputable abbrev Quad := AdjoinRoot (X ^ 2 + 1 : R[X])
/-- `u`. -/
noncomputable def quadU : Quad R := AdjoinRoot.root _
/-- `R[u][v]/(v³ - (9 + u))`. -/
noncomputable abbrev Sext := AdjoinRoot (X ^ 3 - C (9 + quadU R) : (Quad R)[X])
/-- `v`. -/
noncomputable def sextV : Sext R := AdjoinRoot.root _
/-- `R[u][v][w]/(w² - v)`. -/
noncomputable abbrev Dodec := AdjoinRoot (X ^ 2 - C (sextV R) : (Sext R)[X])
/-- `w`. -/
noncomputable def dodecW : Dodec R := AdjoinRoot.root _

variable {R}

/-- The element `c0 + c1 u`. -/
noncomputable def val2 (a : Fq2 R) : Quad R := AdjoinRoot.of _ a.c0 + AdjoinRoot.of _ a.c1 * quadU R
/-- The element `c0 + c1 v + c2 v²`. -/
noncomputable def val6 (a : Fq6 R) : Sext R :=
  AdjoinRoot.of _ (val2 a.c0) + AdjoinRoot.of _ (val2 a.c1) * sextV R + AdjoinRoot.of _ (val2 a.c2) * sextV R ^ 2
/-- The element `c0 + c1 w`. -/
noncomputable def val12 (a : Fq12 R) : Dodec R :=
  AdjoinRoot.of _ (val6 a.c0) + AdjoinRoot.of _ (val6 a.c1) * dodecW R

end Kogarashi.Spec
