import Verif.Ecfv.Model
import Mathlib.Algebra.BigOperators.Group.List.Basic
import Mathlib.Data.Rat.Defs

set_option autoImplicit false
/-
Model of the amounts of the conserved quantities per fluid phase: `addPhaseStorage`, `computeStorage` of the local residuals and
`globalPhaseStorage` (opm/models/common/multiphasebasemodel.hh) next to `globalStorage` (opm/models/discretization/common/fvbasediscretization.hh).
Automatic differentiation plays no role: values are numbers.
-/
namespace Verif.Storage.Phase

variable {P C E K : Type} [Field K]

/-- The intensive quantities which enter the storage terms: the fluid state for phases `P` and components `C`, porosity, internal energy
of the solid and extrusion factor. -/
structure Quantities (P C K : Type) where
  porosity : K
  saturation : P → K
  density : P → K
  molarity : P → C → K
  massFraction : P → C → K
  internalEnergy : P → K
  solidInternalEnergy : K
  extrusionFactor : K

/-- The equations: conservation of a component, or of energy (if enabled). -/
inductive Equation (C : Type) where
  | conti (c : C)
  | energy
  deriving DecidableEq

/-- Which local residual is used. -/
inductive Residual where
  /-- every phase is a component -/
  | immiscible
  /-- moles of components: primary variable switching, NCP and flash models -/
  | moles
  /-- masses of components: the flash model of `ptflash` -/
  | masses
  deriving DecidableEq

/-- `EnergyModule::addPhaseStorage`, opm/models/common/energymodule.hh lines 153-158 (without energy) and 356-368 (with energy). -/
def energyPhase (enableEnergy : Bool) (q : Quantities P C K) (p : P) (storage : Equation C → K) : Equation C → K
  | .conti c => storage (.conti c)
  | .energy =>
    if enableEnergy then storage .energy + q.density p * q.internalEnergy p * q.saturation p * q.porosity else storage .energy

/-- `addPhaseStorage`, opm/models/immiscible/immisciblelocalresidual.hh lines 75-93 (the phase's entry is overwritten; the phases are the components,
which `comp` says), opm/models/pvs/pvslocalresidual.hh lines 73-93, opm/models/ncp/ncplocalresidual.hh lines 77-97, opm/models/flash/flashlocalresidual.hh lines
71-91 and opm/models/ptflash/flashlocalresidual.hh lines 70-91. -/
def addPhaseStorage [DecidableEq C] (r : Residual) (enableEnergy : Bool) (comp : P → C) (q : Quantities P C K) (p : P)
    (storage : Equation C → K) : Equation C → K :=
  energyPhase enableEnergy q p fun eq =>
    match r, eq with
    | _, .energy => storage .energy
    | .immiscible, .conti c => if c = comp p then q.porosity * q.saturation p * q.density p else storage (.conti c)
    | .moles, .conti c => storage (.conti c) + q.molarity p c * q.saturation p * q.porosity
    | .masses, .conti c => storage (.conti c) + q.massFraction p c * q.density p * q.saturation p * q.porosity

/-- `addSolidEnergyStorage`, opm/models/common/energymodule.hh lines 175-178 (without energy) and 393-396 (with energy). -/
def addSolidEnergy (enableEnergy : Bool) (q : Quantities P C K) (storage : Equation C → K) : Equation C → K
  | .conti c => storage (.conti c)
  | .energy => if enableEnergy then storage .energy + q.solidInternalEnergy else storage .energy

/-- `computeStorage`, opm/models/immiscible/immisciblelocalresidual.hh lines 95-109; the same in the other models, e.g. opm/models/pvs/pvslocalresidual.hh
lines 95-109. -/
def computeStorage [DecidableEq C] (r : Residual) (enableEnergy : Bool) (comp : P → C) (phases : List P) (q : Quantities P C K) :
    Equation C → K :=
  addSolidEnergy enableEnergy q (phases.foldl (fun s p => addPhaseStorage r enableEnergy comp q p s) fun _ => 0)

/-- A stencil as far as the storage is concerned: the degrees of freedom with the volumes of their sub-control volumes, and how many of
them are primary. -/
structure Stencil (D K : Type) where
  scvs : List (D × K)
  numPrimary : ℕ

variable {D : Type}

/-- `globalPhaseStorage`, opm/models/common/multiphasebasemodel.hh lines 203-252, on one process with the given interior elements: the amounts of all degrees
of freedom of all stencils are added up.  The order in which threads do this is the order of the list. -/
def localPhaseStorage [DecidableEq C] (r : Residual) (enableEnergy : Bool) (comp : P → C) (quants : D → Quantities P C K)
    (stencil : E → Stencil D K) (interior : List E) (p : P) : Equation C → K :=
  interior.foldl (fun storage e =>
    (stencil e).scvs.foldl (fun storage scv =>
      let q := quants scv.1
      let tmp := addPhaseStorage r enableEnergy comp q p fun _ => 0
      fun eq => storage eq + tmp eq * (scv.2 * q.extrusionFactor)) storage) fun _ => 0

/-- `globalStorage`, opm/models/discretization/common/fvbasediscretization.hh lines 943-986 with `evalStorage`
(opm/models/discretization/common/fvbaselocalresidual.hh lines 204-276) for the current time: the amounts of the primary degrees of freedom. -/
def localStorage [DecidableEq C] (r : Residual) (enableEnergy : Bool) (comp : P → C) (phases : List P) (quants : D → Quantities P C K)
    (stencil : E → Stencil D K) (interior : List E) : Equation C → K :=
  interior.foldl (fun storage e =>
    ((stencil e).scvs.take (stencil e).numPrimary).foldl (fun storage scv =>
      let q := quants scv.1
      fun eq => storage eq + computeStorage r enableEnergy comp phases q eq * (scv.2 * q.extrusionFactor)) storage) fun _ => 0

/-- `gridView().comm().sum`: the sum over the processes (opm/models/common/multiphasebasemodel.hh line 251, opm/models/discretization/common/fvbasediscretization.hh line 985). -/
def commSum (values : List (Equation C → K)) : Equation C → K := fun eq => (values.map fun v => v eq).sum

/-- What `globalPhaseStorage` returns on every process. -/
def globalPhaseStorage [DecidableEq C] (r : Residual) (enableEnergy : Bool) (comp : P → C) (quants : D → Quantities P C K)
    (stencil : E → Stencil D K) (processes : List (List E)) (p : P) : Equation C → K :=
  commSum (processes.map fun interior => localPhaseStorage r enableEnergy comp quants stencil interior p)

/-- What `globalStorage` returns on every process. -/
def globalStorage [DecidableEq C] (r : Residual) (enableEnergy : Bool) (comp : P → C) (phases : List P) (quants : D → Quantities P C K)
    (stencil : E → Stencil D K) (processes : List (List E)) : Equation C → K :=
  commSum (processes.map fun interior => localStorage r enableEnergy comp phases quants stencil interior)

/-- The stencil of a cell-centred grid: the degrees of freedom are elements, the element itself is the only primary one
(opm/models/discretization/ecfv/ecfvstencil.hh lines 264-293 and 342-343). -/
def ecfvStencil {V : Type} (grid : E → List (Verif.Ecfv.Intersection E V K)) (volume : E → K) (e : E) : Stencil E K :=
  ⟨(Verif.Ecfv.updateTopology grid ⟨[], [], []⟩ e).elements.map fun d => (d, volume d), 1⟩

end Verif.Storage.Phase
