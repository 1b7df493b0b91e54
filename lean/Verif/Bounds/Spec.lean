import Verif.Balance.Model
import Verif.BlackOil.UpdateProps
import Verif.PtFlash.Props
import Verif.Ncp.Props

/-
Vocabulary for C165: which updates of primary variables the models make in a whole simulation, and which values the unknowns may have.
Nothing is modelled anew here: the simulation is that of `Verif.Balance`, the updates are those of `Verif.BlackOil`, `Verif.PtFlash`
and `Verif.Ncp`.
-/

set_option autoImplicit false
set_option linter.unusedSectionVars false

namespace Verif.Bounds

open Verif.TimeLoop Verif.Balance

variable {K PV W M C X : Type} {m : ℕ} [Field K] [LinearOrder K] [AddCommGroup M] [Module K M]

/-- Numerics which differ at most in the updates of single cells: everything else, the linear solver, the tolerances and so on, is the
same. -/
structure SameButUpdates (q q' : Numerics K PV W M X m) : Prop where
  rest : { q with base := q'.base } = q'
  base : ∀ own attempt dt old, { q.base own attempt dt old with
    updatePrimaryVariables := (q'.base own attempt dt old).updatePrimaryVariables } = q'.base own attempt dt old

/-- A black-oil simulation: the parameters of the updates, and the fluid properties, which may depend on the state of the problem and on
the cell; `phases` tells which phases there are. -/
structure Oil (K X : Type) where
  layout : BlackOil.Layout
  limits : BlackOil.Limits K
  switch : BlackOil.SwitchParams K
  fluid : X → ℕ → BlackOil.Fluid K
  phases : BlackOil.Fluid K

/-- Wherever the update of black-oil variables is defined (`updatePrimaryVariables_`,
opm/models/blackoil/blackoilnewtonmethod.hh lines 226-427), the simulation uses it; where it is not, the simulation may do anything.  The
second part of an update is the flag whether the variables of the cell were switched in the last iteration, which is arbitrary here. -/
def Oil.Used (o : Oil K X) (f : Physics K (BlackOil.PriVars K) M C X m)
    (q : Numerics K (BlackOil.PriVars K) ((ℤ → K) × Bool) M X m) : Prop :=
  ∀ own attempt dt old, ∀ i < f.numCells, ∀ x w v b,
    BlackOil.updatePrimaryVariables o.layout (o.fluid own i) o.limits o.switch w.2 x w.1 = some (v, b) →
    (q.base own attempt dt old).updatePrimaryVariables i x w = v

/-- The same phases everywhere and always, factors and solubilities are not negative, the parameters are sensible, saturations are
projected, and the layout of the variables is one without solvent. -/
structure Oil.Proper (o : Oil K X) : Prop where
  same : ∀ own i, (o.fluid own i).oilActive = o.phases.oilActive ∧ (o.fluid own i).gasActive = o.phases.gasActive ∧
    (o.fluid own i).waterActive = o.phases.waterActive ∧ (o.fluid own i).dissolvedGasInWater = o.phases.dissolvedGasInWater
  factors : ∀ own i, BlackOil.FactorsNonneg (o.fluid own i)
  sensible : BlackOil.Sensible o.switch
  project : o.switch.project = true
  dsMax : 0 ≤ o.limits.dsMax
  all : ∀ i ∈ o.layout.primaryVars, i < o.layout.numEq
  apart : o.layout.waterSwitchIdx ≠ o.layout.pressureSwitchIdx
  micp : (0 ≤ o.layout.oxygenConcentrationIdx ∨ 0 ≤ o.layout.ureaConcentrationIdx ∨ 0 ≤ o.layout.biofilmConcentrationIdx ∨
    0 ≤ o.layout.calciteConcentrationIdx) → 0 ≤ o.layout.microbialConcentrationIdx
  bounds : o.limits.tempMin ≤ o.limits.tempMax ∧ 0 ≤ o.limits.densityBiofilm ∧ 0 ≤ o.limits.maxOxygen ∧ 0 ≤ o.limits.maxUrea ∧
    0 ≤ o.limits.maxSolid

/-- Variables of a cell which mean something: the meanings fit the phases, saturations are not negative, dissolution and vaporization factors
are not negative, and the variables of extensions are within their bounds. -/
structure Oil.Legal (o : Oil K X) (v : BlackOil.PriVars K) : Prop where
  fits : BlackOil.Fits o.layout o.phases v
  saturations : BlackOil.SatNonneg (BlackOil.saturations o.layout o.phases v)
  waterFactor : v.water = .Rvw ∨ v.water = .Rsw → 0 ≤ v.val o.layout.waterSwitchIdx
  gasFactor : v.gas = .Rs ∨ v.gas = .Rv → 0 ≤ v.val o.layout.compositionSwitchIdx
  extensions : BlackOil.InBounds o.layout o.limits v

/-- Wherever the update of the flash model is defined (opm/models/ptflash/flashnewtonmethod.hh lines 80-128), the simulation uses it. -/
def FlashUsed (s : PtFlash.Sizes) (f : Physics K (ℕ → K) M C X m) (q : Numerics K (ℕ → K) (ℕ → K) M X m) : Prop :=
  ∀ own attempt dt old, ∀ i < f.numCells, ∀ x u v, PtFlash.updatePrimaryVariables s x u = some v →
    (q.base own attempt dt old).updatePrimaryVariables i x u = v

/-- A positive pressure, and stored mole fractions between 1e-8 and one minus 1e-8. -/
def FlashLegal (s : PtFlash.Sizes) (v : ℕ → K) : Prop :=
  0 < v s.pres0 ∧ ∀ i, i + 1 < s.comps → 1 / 100000000 ≤ PtFlash.moleFraction s v i ∧ PtFlash.moleFraction s v i ≤ 1 - 1 / 100000000

/-- The updates of the NCP model (opm/models/ncp/ncpnewtonmethod.hh lines 129-211).  The second part of an update is the number of the
iteration, which is arbitrary here; the smallest activity coefficients `minPhi` may depend on anything and are not negative. -/
def NcpUsed (z : Ncp.Sizes) (f : Physics K (ℕ → K) M C X m) (q : Numerics K (ℕ → K) ((ℕ → K) × ℕ) M X m) : Prop :=
  ∀ own attempt dt old, ∀ i < f.numCells, ∀ x u, ∃ minPhi : ℕ → K, (∀ k, 0 ≤ minPhi k) ∧
    (q.base own attempt dt old).updatePrimaryVariables i x u = Ncp.updatePrimaryVariables z u.2 minPhi x u.1

/-- A positive pressure, and fugacities which are not negative. -/
def NcpLegal (z : Ncp.Sizes) (v : ℕ → K) : Prop := 0 < v z.pres0 ∧ ∀ i < z.comps, 0 ≤ v (z.fug0 + i)

end Verif.Bounds
