import Mathlib.Algebra.Field.Basic
import Mathlib.Algebra.Order.Field.Basic

set_option autoImplicit false
/-
Model of molecular diffusion (opm/models/blackoil/blackoildiffusionmodule.hh) and dispersion
(opm/models/blackoil/blackoildispersionmodule.hh) in the black-oil model.  Only values, no derivatives.
-/
namespace Verif.Extend.Diff

variable {K : Type} [Field K] [LinearOrder K]

/-- The phases; components have the names of the phases they are the main component of. -/
inductive Phase
  | water | oil | gas
  deriving DecidableEq

/-- What can be active and what can be dissolved or vaporised. -/
structure Options where
  active : Phase → Bool
  dissolvedGas : Bool
  vaporizedOil : Bool
  dissolvedGasInWater : Bool
  vaporizedWater : Bool

/-- What the fluid system knows about a region: the conversion factors of `toFractionGasOil` and `toFractionGasWater`
(opm/models/blackoil/blackoildiffusionmodule.hh lines 253-267, `toMassFraction…`,
opm/models/blackoil/blackoildispersionmodule.hh lines 239-248). -/
structure Region (K : Type) where
  gasOil : K
  gasWater : K

/-- What a cell contributes: inverse formation volume factors, saturations, contents and the diffusion coefficients of a component
in a phase, the largest velocity of a phase (opm/models/blackoil/blackoildispersionmodule.hh lines 358-383), region. -/
structure Cell (K : Type) where
  b : Phase → K
  sat : Phase → K
  rs : K
  rv : K
  rsw : K
  rvw : K
  coefficient : Phase → Phase → K
  velocity : Phase → K
  region : Region K

/-- The main component (`solventComponentIndex`) is the one of the phase; the other one (`soluteComponentIndex`) is gas in the
liquids, and water or oil in the gas phase (opm-common). -/
def solute (o : Options) : Phase → Phase
  | .water => .gas
  | .oil => .gas
  | .gas => if o.vaporizedWater then .water else .oil

/-- `convFactor` and `diffR`, opm/models/blackoil/blackoildiffusionmodule.hh lines 203-224 and
opm/models/blackoil/blackoildispersionmodule.hh lines 196-217: later assignments replace earlier ones. -/
def convDiff (o : Options) (r : Region K) (i j : Cell K) (p : Phase) : K × K :=
  let x : K × K := (1, 0)
  let x := if o.dissolvedGas && o.active .gas && p == .oil then (1 / (r.gasOil + (i.rs + j.rs) / 2), i.rs - j.rs) else x
  let x := if o.vaporizedOil && o.active .oil && p == .gas then (r.gasOil / (1 + (i.rv + j.rv) / 2 * r.gasOil), i.rv - j.rv) else x
  let x := if o.dissolvedGasInWater && p == .water then (1 / (r.gasWater + (i.rsw + j.rsw) / 2), i.rsw - j.rsw) else x
  if o.vaporizedWater && p == .gas then (r.gasWater / (1 + (i.rvw + j.rvw) / 2 * r.gasWater), i.rvw - j.rvw) else x

/-- `bSAvg`, opm/models/blackoil/blackoildiffusionmodule.hh lines 193-196. -/
def bSAvg (i j : Cell K) (p : Phase) : K := (i.sat p * i.b p + j.sat p * j.b p) / 2

/-- The phases without diffusion, opm/models/blackoil/blackoildiffusionmodule.hh lines 177-190 and 199. -/
def skipped (o : Options) (i j : Cell K) (p : Phase) : Bool :=
  !o.active p || (!o.dissolvedGasInWater && p == .water) || (p == .gas && !o.active .oil) || decide (bSAvg i j p < 1 / 1000000)

/-- `update` of the extensive quantities, opm/models/blackoil/blackoildiffusionmodule.hh lines 567-588. -/
def meanCoefficient (i j : Cell K) (p c : Phase) : K := 1 / 2 * (i.coefficient p c + j.coefficient p c)

/-- What diffusion in the phase `p` adds to the flux of the component `c`,
opm/models/blackoil/blackoildiffusionmodule.hh lines 226-246. -/
def phaseFlux (o : Options) (diffusivity area : K) (i j : Cell K) (p c : Phase) : K :=
  if skipped o i j p then 0
  else
    (if c = p then - bSAvg i j p * (convDiff o i.region i j p).1 * (convDiff o i.region i j p).2 * (diffusivity / area)
      * meanCoefficient i j p p else 0)
    + (if c = solute o p then bSAvg i j p * (convDiff o i.region i j p).2 * (convDiff o i.region i j p).1 * (diffusivity / area)
      * meanCoefficient i j p (solute o p) else 0)

/-- `addDiffusiveFlux`, opm/models/blackoil/blackoildiffusionmodule.hh lines 167-248: what is added to the flux of a component.  The
region is the one of the interior cell (line 175). -/
def diffusiveFlux (o : Options) (diffusivity area : K) (i j : Cell K) (c : Phase) : K :=
  phaseFlux o diffusivity area i j .water c + phaseFlux o diffusivity area i j .oil c + phaseFlux o diffusivity area i j .gas c

/-- What dispersion in the phase `p` adds to the flux of the component `c`,
opm/models/blackoil/blackoildispersionmodule.hh lines 167-236. -/
def phaseDispersion (o : Options) (dispersivity area : K) (i j : Cell K) (p c : Phase) : K :=
  if !o.active p || (!o.dissolvedGasInWater && p == .water) || p == .gas then 0
  else
    let b := (i.b p + j.b p) / 2
    let v := 1 / 2 * (i.velocity p + j.velocity p)
    (if c = p then - b * v * (convDiff o i.region i j p).1 * (dispersivity / area) * (convDiff o i.region i j p).2 else 0)
    + (if c = solute o p then b * v * (convDiff o i.region i j p).1 * (dispersivity / area) * (convDiff o i.region i j p).2 else 0)

/-- `addDispersiveFlux`, opm/models/blackoil/blackoildispersionmodule.hh lines 160-237. -/
def dispersiveFlux (o : Options) (dispersivity area : K) (i j : Cell K) (c : Phase) : K :=
  phaseDispersion o dispersivity area i j .water c + phaseDispersion o dispersivity area i j .oil c
    + phaseDispersion o dispersivity area i j .gas c

/-- The flux of a component: what the phases carry, as surface volume, converted to the conserved quantity
(`evalPhaseFluxes_`, opm/models/blackoil/blackoillocalresidual.hh lines 266-326), plus diffusion (line 237). -/
def totalFlux (surfaceVolume : Bool) (refDensity carried diffusion : K) : K :=
  (if surfaceVolume then carried else carried * refDensity) + diffusion

end Verif.Extend.Diff
