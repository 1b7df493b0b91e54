import Verif.PtFlash.Props

/-!
# Cells of the model based on PT-flash calculations

From primary variables to the quantities of a cell, and from these to the storage term and the advective fluxes.

Parts of other repositories are given from outside: the flash solver, the equation of state (molar volumes, densities), Wilson's
formula.  Mass fractions and molarities of a fluid state are what `CompositionalFluidState` makes of mole fractions and densities:
the mass fraction is the mole fraction times the ratio of the molar mass of the component and the mean one of the phase, and the
molarity is the mole fraction times density over mean molar mass.  Values only, no derivatives; no energy; viscosities, relative
permeabilities and what printing does are left out.  Phase 0 is oil, phase 1 is gas, as the code assumes.
-/

set_option autoImplicit false
set_option linter.unusedSectionVars false

namespace Verif.PtFlash

variable {K : Type*} [Field K] [LinearOrder K]

/-- Values from which the flash solver starts, or which it leaves in the fluid state: the ratios of mole fractions of the components
and the liquid fraction. -/
structure Start (K : Type*) where
  ratio : ℕ → K
  liquid : K

/-- What the flash solver makes of the fluid state: mole fractions of the liquid and of the vapour, and the values above. -/
structure Split (K : Type*) where
  x : ℕ → K
  y : ℕ → K
  start : Start K

/-- The equation of state and what comes with it: molar masses of the components, the molar volume and the density of a phase with the
given temperature, pressure and mole fractions, Wilson's estimate of the ratios, and the gas constant. -/
structure Fluids (K : Type*) where
  molarMass : ℕ → K
  molarVolume : ℕ → K → K → (ℕ → K) → K
  density : ℕ → K → K → (ℕ → K) → K
  wilson : K → K → ℕ → K
  gasConstant : K

/-- The values with which the flash solver starts, opm/models/ptflash/flashintensivequantities.hh lines 139-165: those of the hint for
the time level, those of the hint for the previous level if the current one is computed, or Wilson's. -/
def startValues (f : Fluids K) (temperature pressure : K) (hint : ℕ → Option (Start K)) (timeIdx : ℕ) : Start K :=
  match hint timeIdx with
  | some h => ⟨h.ratio, h.liquid⟩
  | none =>
    match (if timeIdx = 0 then hint 1 else none) with
    | some h => ⟨h.ratio, h.liquid⟩
    | none => ⟨f.wilson temperature pressure, -1⟩

/-- The quantities of a cell. -/
structure Cell (K : Type*) where
  pressure : ℕ → K
  temperature : K
  fraction : ℕ → ℕ → K
  saturation : ℕ → K
  compressFactor : ℕ → K
  density : ℕ → K
  porosity : K
  start : Start K

/-- The compressibility factor of a phase, opm/models/ptflash/flashintensivequantities.hh lines 199-208. -/
def compressibility (f : Fluids K) (temperature pressure : K) (phase : ℕ) (fraction : ℕ → K) : K :=
  f.molarVolume phase temperature pressure fraction * pressure / (f.gasConstant * temperature)

/-- `update`, opm/models/ptflash/flashintensivequantities.hh lines 104-292; `solve` is `FlashSolver::solve`, whose arguments are the
composition, temperature and pressure and the values to start with. -/
def update (s : Sizes) (f : Fluids K) (solve : (ℕ → K) → K → K → Start K → Split K) (hint : ℕ → Option (Start K)) (timeIdx : ℕ)
    (temperature porosity : K) (pv : ℕ → K) : Cell K :=
  let z := readZ s pv
  let p := pv s.pres0
  let r := solve z temperature p (startValues f temperature p hint timeIdx)
  let fraction : ℕ → ℕ → K := fun phase => if phase = 0 then r.x else r.y
  let zL := compressibility f temperature p 0 (fraction 0)
  let zV := compressibility f temperature p 1 (fraction 1)
  let sat := saturations r.start.liquid zL zV
  { pressure := fun _ => p
    temperature := temperature
    fraction := fraction
    saturation := fun phase => if phase = 0 then sat.1 else sat.2
    compressFactor := fun phase => if phase = 0 then zL else zV
    density := fun phase => f.density phase temperature p (fraction phase)
    porosity := porosity
    start := r.start }

/-- The mean molar mass of a phase (`CompositionalFluidState`). -/
def Cell.meanMass (c : Cell K) (s : Sizes) (f : Fluids K) (phase : ℕ) : K :=
  ∑ i ∈ Finset.range s.comps, c.fraction phase i * f.molarMass i

/-- The mass fraction of a component in a phase (`CompositionalFluidState`). -/
def Cell.massFraction (c : Cell K) (s : Sizes) (f : Fluids K) (phase i : ℕ) : K :=
  c.fraction phase i * f.molarMass i / c.meanMass s f phase

/-- The fluid state as `assignNaive` sees it. -/
def Cell.fluidState (c : Cell K) (s : Sizes) (f : Fluids K) : FluidState K where
  molarity phase i := c.fraction phase i * (c.density phase / c.meanMass s f phase)
  sat := c.saturation
  pres := c.pressure

/-- `addPhaseStorage`, opm/models/ptflash/flashlocalresidual.hh lines 70-91. -/
def addPhaseStorage (s : Sizes) (f : Fluids K) (c : Cell K) (storage : ℕ → K) (phase : ℕ) : ℕ → K :=
  fun i => storage i + c.massFraction s f phase i * c.density phase * c.saturation phase * c.porosity

/-- `computeStorage`, opm/models/ptflash/flashlocalresidual.hh lines 93-108. -/
def computeStorage (s : Sizes) (f : Fluids K) (c : Cell K) : ℕ → K :=
  (List.range 2).foldl (addPhaseStorage s f c) fun _ => 0

/-- `addAdvectiveFlux`, opm/models/ptflash/flashlocalresidual.hh lines 128-167: `up` is the upstream cell and `volumeFlux` the volume
which flows over the face per unit of time. -/
def addAdvectiveFlux (s : Sizes) (f : Fluids K) (up : ℕ → Cell K) (volumeFlux : ℕ → K) : ℕ → K :=
  (List.range 2).foldl (fun flux phase =>
    let tmp := (up phase).density phase * volumeFlux phase
    fun i => flux i + tmp * (up phase).massFraction s f phase i) fun _ => 0

end Verif.PtFlash
