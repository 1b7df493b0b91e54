import Mathlib.Algebra.Order.Field.Basic

/-!
# The Richards model: primary variables, saturations and Newton updates

A capillary pressure law is a pair of functions: the difference of the capillary pressures of gas and liquid for a
liquid saturation (with the gas saturation being one minus it), and the liquid saturation for a pressure difference.
-/

set_option autoImplicit false

namespace Verif.Richards

variable {K : Type*} [Field K] [LinearOrder K]

/-- `MaterialLaw::capillaryPressures` (as `pC[gas] - pC[liquid]`) and `MaterialLaw::saturations` (of the liquid) as
used by opm/models/richards/richardsintensivequantities.hh:107-127 and opm/models/richards/richardsnewtonmethod.hh:104-145. -/
structure Law (K : Type*) where
  pc : K → K
  sw : K → K

/-- The gas pressure, opm/models/richards/richardsintensivequantities.hh:104-116. -/
def gasPressure (law : Law K) (refPressure pW : K) : K := max refPressure (pW + law.pc 1)

/-- The liquid saturation of the intensive quantities, opm/models/richards/richardsintensivequantities.hh:121-127. -/
def saturation (law : Law K) (refPressure pW : K) : K :=
  law.sw (gasPressure law refPressure pW - pW)

/-- The liquid saturation of the previous iteration, opm/models/richards/richardsnewtonmethod.hh:91-130. -/
def satOld (law : Law K) (refPressure pW : K) : K :=
  max 0 (law.sw (gasPressure law refPressure pW - pW))

/-- The lower limit of the pressure, opm/models/richards/richardsnewtonmethod.hh:137-140. -/
def pwMin (law : Law K) (refPressure pW : K) : K :=
  gasPressure law refPressure pW - law.pc (satOld law refPressure pW - 1 / 5)

/-- The upper limit of the pressure, opm/models/richards/richardsnewtonmethod.hh:142-145. -/
def pwMax (law : Law K) (refPressure pW : K) : K :=
  gasPressure law refPressure pW - law.pc (satOld law refPressure pW + 1 / 5)

/-- `updatePrimaryVariables_`, opm/models/richards/richardsnewtonmethod.hh:77-154, for the pressure. -/
def updatePressure (law : Law K) (refPressure : K) (iter : ℕ) (cur update : K) : K :=
  if 4 < iter then cur - update
  else max (pwMin law refPressure cur) (min (cur - update) (pwMax law refPressure cur))

/-- A fluid state under construction: pressures which are not set are undefined, `ImmiscibleFluidState` as used by
opm/models/richards/richardsprimaryvariables.hh:103-148. -/
structure FluidState (K : Type*) where
  liquidPressure : Option K
  gasPressure : Option K

/-- `assignImmiscibleFromWetting`, opm/models/richards/richardsprimaryvariables.hh:103-120, with `assignNaive`, 180-187 (no temperatures):
the pressure which is stored, `none` if it is undefined. -/
def assignFromWetting (law : Law K) (pw sw : K) : Option K :=
  let fs : FluidState K := ⟨none, none⟩
  let fs := { fs with liquidPressure := some pw }
  let fs := { fs with gasPressure := some (pw + law.pc sw) }
  fs.liquidPressure

/-- `assignImmiscibleFromNonWetting`, opm/models/richards/richardsprimaryvariables.hh:131-148, with `assignNaive`, 180-187. -/
def assignFromNonWetting (law : Law K) (pn sn : K) : Option K :=
  let fs : FluidState K := ⟨none, none⟩
  let fs := { fs with gasPressure := some pn }
  let fs := { fs with gasPressure := some (pn + -(law.pc (1 - sn))) }
  fs.liquidPressure

end Verif.Richards
