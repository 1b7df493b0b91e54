import Verif.Ncp.Model
import Mathlib.Algebra.BigOperators.Group.Finset.Basic

/-
How fluid states are stored in primary variables "in a mass conservative way": `assignMassConservative` of the immiscible, NCP, PVS and
flash models, and what the intensive quantities of the immiscible, the NCP and the flash model make of the variables.

The flash solvers, the fluid systems and the material laws are of the modules opm-material and opm-common: they are parameters. Numbers
are exact, without derivatives.
-/

set_option autoImplicit false

namespace Verif.MassCons

variable {K : Type} [Field K] [LinearOrder K]

/-- A fluid state: saturations and pressures of phases, mole fractions of components in phases, moles per volume of phases
(`molarDensity`, the density divided by the mean molar mass), and the temperature, which is the same for all phases -/
structure State (K : Type) where
  sat : ℕ → K
  pres : ℕ → K
  frac : ℕ → ℕ → K
  molarDensity : ℕ → K
  temperature : K

/-- Fluid system and material law of a cell: numbers of phases and components, moles per volume of a phase with a temperature, a pressure
and a composition, capillary pressures of phases for saturations, and fugacity coefficients of components in phases -/
structure System (K : Type) where
  phases : ℕ
  comps : ℕ
  density : ℕ → K → K → (ℕ → K) → K
  pc : (ℕ → K) → ℕ → K
  fugacityCoefficient : ℕ → K → K → (ℕ → K) → ℕ → K

/-- `molarity` of a fluid state (opm-material): moles of a component per volume of a phase -/
def State.molarity (fs : State K) (phase comp : ℕ) : K := fs.frac phase comp * fs.molarDensity phase

/-- The new densities of `fsFlash` (opm/models/immiscible/immiscibleprimaryvariables.hh lines 149-161,
opm/models/ncp/ncpprimaryvariables.hh lines 122-134, opm/models/pvs/pvsprimaryvariables.hh lines 135-147) -/
def refresh (y : System K) (fs : State K) : State K :=
  { fs with molarDensity := fun i => y.density i fs.temperature (fs.pres i) (fs.frac i) }

/-- `globalMolarities` (opm/models/immiscible/immiscibleprimaryvariables.hh lines 163-170, opm/models/ncp/ncpprimaryvariables.hh lines
136-144, opm/models/pvs/pvsprimaryvariables.hh lines 148-155) -/
def globalMolarities (y : System K) (fs : State K) (c : ℕ) : K :=
  (List.range y.phases).foldl (fun g i => g + fs.sat i * fs.molarity i c) 0

/-- `assignMassConservative` (opm/models/immiscible/immiscibleprimaryvariables.hh lines 128-177,
opm/models/ncp/ncpprimaryvariables.hh lines 99-151, opm/models/pvs/pvsprimaryvariables.hh lines 114-162): `flash` is the solver, `naive` is
`assignNaive` of the model; `none` stands for an exception -/
def assignMassConservative {V : Type} (y : System K) (flash : State K → (ℕ → K) → Option (State K)) (naive : State K → Option V)
    (isInEquilibrium : Bool) (fs : State K) : Option V :=
  if isInEquilibrium then naive fs
  else
    let fsFlash := refresh y fs
    (flash fsFlash (globalMolarities y fsFlash)).bind naive

/-! ### The immiscible model -/

/-- `assignNaive` (opm/models/immiscible/immiscibleprimaryvariables.hh lines 195-205); the pressure is variable 0, the saturations start at 1
and the temperature, if there is an energy equation, is variable `phases` (opm/models/immiscible/immiscibleindices.hh lines 43-60,
opm/models/common/energymodule.hh lines 500-519; without energy lines 114-117, with energy lines 340-348) -/
def immAssign (y : System K) (energy : Bool) (fs : State K) (old : ℕ → K) : ℕ → K := fun k =>
  if k = 0 then fs.pres 0
  else if k < y.phases then fs.sat (k - 1)
  else if energy ∧ k = y.phases then fs.temperature
  else old k

/-- The saturations of the intensive quantities (opm/models/immiscible/immiscibleintensivequantities.hh lines 103-109) -/
def immSat (y : System K) (pv : ℕ → K) (i : ℕ) : K :=
  if i < y.phases - 1 then pv (1 + i) else 1 - (List.range (y.phases - 1)).foldl (fun s j => s + pv (1 + j)) 0

/-- The fluid state of the intensive quantities (opm/models/immiscible/immiscibleintensivequantities.hh lines 91-137, temperatures
opm/models/common/energymodule.hh lines 571-577 and 618-635): `problem` is the
temperature which the problem gives if there is no energy equation; phase `i` consists of component `i` -/
def immRead (y : System K) (energy : Bool) (problem : K) (pv : ℕ → K) : State K :=
  let sat := immSat y pv
  let pC := y.pc sat
  let T := if energy then pv y.phases else problem
  let frac : ℕ → ℕ → K := fun i c => if c = i then 1 else 0
  let pres := fun i => pv 0 + (pC i - pC 0)
  { sat := sat, pres := pres, frac := frac, temperature := T, molarDensity := fun i => y.density i T (pres i) (frac i) }

/-! ### The NCP model -/

/-- The sizes of the model without energy -/
def ncpSizes (y : System K) : Ncp.Sizes := ⟨0, y.comps, y.phases⟩

/-- `assignNaive` (opm/models/ncp/ncpprimaryvariables.hh lines 156-187) without energy equation -/
def ncpAssign (y : System K) (fs : State K) (old : ℕ → K) : ℕ → K :=
  Ncp.assignNaive (ncpSizes y) (y.fugacityCoefficient 0 fs.temperature (fs.pres 0) (fs.frac 0)) ⟨fs.sat, fs.pres, fs.frac⟩ 0 old

/-- The fluid state of the intensive quantities (opm/models/ncp/ncpintensivequantities.hh lines 92-190): `compose` is
`CompositionFromFugacities::solve` for a phase, its temperature and pressure, and the fugacities, which also sets the density -/
def ncpRead (y : System K) (compose : ℕ → K → K → (ℕ → K) → ℕ → K) (problem : K) (pv : ℕ → K) : State K :=
  let z := ncpSizes y
  let sat := Ncp.saturation z pv
  let pres := Ncp.pressure z (y.pc sat) pv
  let frac := fun i => compose i problem (pres i) fun c => pv (z.fug0 + c)
  { sat := sat, pres := pres, frac := frac, temperature := problem, molarDensity := fun i => y.density i problem (pres i) (frac i) }

/-! ### The flash model -/

/-- `assignMassConservative` and `assignNaive` (opm/models/flash/flashprimaryvariables.hh lines 98-129) without energy equation: the moles of
the components per volume of pores -/
def flashAssign (y : System K) (fs : State K) (c : ℕ) : K :=
  (List.range y.phases).foldl (fun g i => g + fs.molarity i c * fs.sat i) 0

/-- The fluid state of the intensive quantities (opm/models/flash/flashintensivequantities.hh lines 102-141): `guess` is the hint or the
initial guess of the solver -/
def flashRead (flash : State K → (ℕ → K) → Option (State K)) (guess : State K) (pv : ℕ → K) : Option (State K) := flash guess pv

end Verif.MassCons
