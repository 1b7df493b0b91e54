import Verif.Flux.Trans
import Verif.Flux.Content
import Verif.Extend.Diffusion
import Verif.Extend.Mixing

set_option autoImplicit false
set_option linter.unusedSectionVars false
/-
Model of the flux of the components over a face as the two local residuals of the black-oil model compute it: the one which reads
the fluxes of the phases from the extensive quantities (opm/models/blackoil/blackoillocalresidual.hh) and the one of the two-point flux
linearizer (opm/models/blackoil/blackoillocalresidualtpfa.hh), with diffusion, dispersion and convective mixing.  Numbers are exact, only
values, no derivatives.  The modules for solvent, polymer, … are left out: the second residual cannot be compiled with them (its
lines 413-424, 464-470 and 501).
-/
namespace Verif.Flux.Agree

open Verif.Extend

variable {K : Type} [Field K] [LinearOrder K]

/-- What is compiled in (`EnableDiffusion`, `EnableDispersion`, `EnableConvectiveMixing`) and whether the deck asks for diffusion
(`FluidSystem::enableDiffusion()`). -/
structure Switches where
  diffusion : Bool
  dispersion : Bool
  mixing : Bool
  deckDiffusion : Bool

/-- What a cell contributes: what the flow of each phase needs, the fluid with the reference densities of its PVT region,
`rockCompTransMultiplier()`, and what diffusion and mixing need. -/
structure Side (K : Type) where
  flow : Phase → Cell K
  fluid : Fluid K
  ref : Phase → K
  mult : K
  diff : Diff.Cell K
  mix : Mix.Cell K

/-- A face: the last component of gravity, area, `transmissibility` of the problem and of the flux module, `diffusivity`, `dispersivity`
and the product of gravity and the difference of the depths of the cells. -/
structure Conn (K : Type) where
  g : K
  area : K
  trans : K
  moduleTrans : K
  diffusivity : K
  dispersivity : K
  dZg : K

/-- The phases of the model of diffusion. -/
def toDiff : Phase → Diff.Phase
  | .water => .water
  | .oil => .oil
  | .gas => .gas

/-- The phases of the model of diffusion, backwards. -/
def ofDiff : Diff.Phase → Phase
  | .water => .water
  | .oil => .oil
  | .gas => .gas

/-- The fluid system, as diffusion asks for it. -/
def diffOptions (o : Options) : Diff.Options :=
  ⟨fun p => o.active (ofDiff p), o.dissolvedGas, o.vaporizedOil, o.dissolvedGasInWater, o.vaporizedWater⟩

/-- What convective mixing adds to the mass fluxes (only gas), opm/models/blackoil/blackoilconvectivemixingmodule.hh lines 232-380: both residuals call
the same function with the transmissibility and the area of the face. -/
def mixed (f : Conn K) (a b : Side K) (c : Phase) : K :=
  if c = .gas then (Mix.mixingFlux a.mix b.mix f.dZg f.trans f.area).1 else 0

/-- `BlackOilLocalResidual::computeFlux`, opm/models/blackoil/blackoillocalresidual.hh lines 193-241, for the fluxes of
opm/models/common/transfluxmodule.hh lines 201-318.  The flux module multiplies by its transmissibility, which is one per area. -/
def elementFlux (s : Switches) (o : Options) (f : Conn K) (a b : Side K) (c : Phase) : K :=
  let up (p : Phase) : Side K := if (transFlux f.g f.moduleTrans (a.flow p) (b.flow p)).1 then b else a
  computeFlux o (fun p => (up p).ref) (fun p => (transFlux f.g f.moduleTrans (a.flow p) (b.flow p)).2) (fun p => (up p).fluid) c
    + (if s.diffusion && s.deckDiffusion then Diff.diffusiveFlux (diffOptions o) f.diffusivity f.area a.diff b.diff (toDiff c) else 0)
    + (if s.mixing then mixed f a b c else 0)

/-- `calculateFluxes_`, opm/models/blackoil/blackoillocalresidualtpfa.hh lines 325-503.  `calculatePhasePressureDiff_` is not in this repository: it
is taken to give the pressure difference and the upstream cell of the flux module above (no threshold pressure).  Whether the deck asks for
diffusion is not looked at (lines 474-486). -/
def tpfaFlux (s : Switches) (o : Options) (f : Conn K) (a b : Side K) (c : Phase) : K :=
  let ex (p : Phase) : Bool := exteriorUpstream f.g (a.flow p) (b.flow p)
  let up (p : Phase) : Side K := if ex p then b else a
  computeFlux o (fun p => (up p).ref)
      (fun p => pressureDifference f.g (a.flow p) (b.flow p) * ((up p).flow p).mobility * ((a.mult + b.mult) / 2) * (- f.trans / f.area))
      (fun p => (up p).fluid) c
    + (if s.mixing then mixed f a b c else 0)
    + (if s.diffusion then Diff.diffusiveFlux (diffOptions o) f.diffusivity f.area a.diff b.diff (toDiff c) else 0)
    + (if s.dispersion then Diff.dispersiveFlux (diffOptions o) f.dispersivity f.area a.diff b.diff (toDiff c) else 0)

/-- The types of boundary conditions (`BCType` of opm-common); `other` stands for all which are not mentioned here. -/
inductive BC
  | none | rate | free | dirichlet | thermal | other
  deriving DecidableEq

/-- The mass fluxes of `computeBoundaryFlux`, opm/models/blackoil/blackoillocalresidualtpfa.hh lines 505-676: `Option.none` is the exception for
unknown types.  `massRate` are the prescribed rates (`setMassRate`), `rateRef` the reference densities of the region given with them; the
other arguments are those of the free flow through the boundary. -/
def boundaryFlux (t : BC) (o : Options) (ref rateRef massRate : Phase → K) (volumeFlux pIn pOut : Phase → K) (inside outside : Fluid K) :
    Option (Amounts K) :=
  match t with
  | .none => some fun _ => 0
  | .rate => some (boSetMassRate o.conserveSurfaceVolume rateRef massRate)
  | .free | .dirichlet => some (freeFlowRates o ref volumeFlux pIn pOut inside outside)
  | .thermal => some fun _ => 0
  | .other => Option.none

end Verif.Flux.Agree
