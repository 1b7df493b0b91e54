import Mathlib.Data.Real.Basic
import Mathlib.Algebra.BigOperators.Group.Finset.Basic
import Mathlib.Data.Fintype.BigOperators

set_option autoImplicit false

/-
Fluxes with automatic differentiation.  The quantities of a degree of freedom carry derivatives with respect to its own primary
variables; a local residual is evaluated with the "focus" on one degree of freedom, and all derivatives which it contains are taken to be
those with respect to the primary variables of the degree of freedom in focus.  The quantities of other degrees of freedom thus have
to be stripped of their derivatives.

Models `opm/models/discretization/common/fvbasegradientcalculator.hh`, `opm/models/common/darcyfluxmodule.hh`,
`opm/models/common/energymodule.hh`, `opm/models/common/diffusionmodule.hh`, `opm/models/immiscible/immisciblelocalresidual.hh`,
`opm/models/flash/flashlocalresidual.hh`, `opm/models/pvs/pvslocalresidual.hh`, `opm/models/ncp/ncplocalresidual.hh` and the boundary
rates of these models.
-/
namespace Verif.Deriv

/-- An `Evaluation` (Opm::DenseAd) with one of its derivatives; the others are treated in the same way. -/
@[ext] structure Ev where
  val : ℝ
  der : ℝ

namespace Ev
noncomputable section

instance : Zero Ev := ⟨⟨0, 0⟩⟩
instance : Add Ev := ⟨fun a b => ⟨a.val + b.val, a.der + b.der⟩⟩
instance : Sub Ev := ⟨fun a b => ⟨a.val - b.val, a.der - b.der⟩⟩
instance : Neg Ev := ⟨fun a => ⟨- a.val, - a.der⟩⟩
instance : Mul Ev := ⟨fun a b => ⟨a.val * b.val, a.der * b.val + a.val * b.der⟩⟩

/-- A number which does not depend on primary variables. -/
def const (c : ℝ) : Ev := ⟨c, 0⟩

/-- `Opm::getValue`, `Toolbox::value`. -/
def value (e : Ev) : Ev := ⟨e.val, 0⟩

/-- A loop which adds. -/
def sum {ι : Type} [Fintype ι] (f : ι → Ev) : Ev := ⟨∑ i, (f i).val, ∑ i, (f i).der⟩

end
end Ev

/-- The degree of freedom in focus: that at the interior of the face, that at its exterior, or another one of the element. -/
inductive Focus
  | interior | exterior | other
deriving DecidableEq, Repr

/-- The intensive quantities of a degree of freedom, for phases `P` and components `C`. -/
structure Cell (P C : Type) where
  pressure : P → Ev
  density : P → Ev
  mobility : P → Ev
  enthalpy : P → Ev
  molarDensity : P → Ev
  fraction : P → C → Ev
  diffusion : P → C → Ev
  temperature : Ev
  conductivity : Ev

/-- The geometry of a face, gravity at both sides and the permeability at the face, none of which depends on primary variables. -/
structure Geom (dim : ℕ) where
  posIn : Fin dim → ℝ
  posEx : Fin dim → ℝ
  posFace : Fin dim → ℝ
  normal : Fin dim → ℝ
  perm : Fin dim → Fin dim → ℝ
  gravity : Bool
  gIn : Fin dim → ℝ
  gEx : Fin dim → ℝ

noncomputable section

variable {P C : Type} {dim : ℕ}

/-- The derivatives of a quantity are kept if its degree of freedom is in focus. -/
def keep (b : Bool) (e : Ev) : Ev := if b then e else e.value

/-- The difference of both sides, opm/models/discretization/common/fvbasegradientcalculator.hh lines 216-230. -/
def deltay (f : Focus) (qi qj : Ev) : Ev :=
  match f with
  | .interior => qj.value - qi
  | .exterior => qj - qi.value
  | .other => qj.value - qi.value

def Geom.dist (g : Geom dim) (k : Fin dim) : ℝ := g.posEx k - g.posIn k
def Geom.distSquared (g : Geom dim) : ℝ := ∑ k, g.dist k * g.dist k

/-- `calculateGradient`, opm/models/discretization/common/fvbasegradientcalculator.hh lines 199-245. -/
def gradient (g : Geom dim) (f : Focus) (qi qj : Ev) : Fin dim → Ev :=
  fun k => deltay f qi qj * Ev.const (g.dist k / g.distSquared)

/-- `calculateScalarValue`, opm/models/discretization/common/fvbasegradientcalculator.hh lines 95-127, with the two distances. -/
def faceValue (dIn dEx : ℝ) (f : Focus) (qi qj : Ev) : Ev :=
  (keep (decide (f = .interior)) qi * Ev.const dIn + keep (decide (f = .exterior)) qj * Ev.const dEx) * Ev.const (1 / (dIn + dEx))

/-- The hydrostatic pressures at the face, opm/models/common/darcyfluxmodule.hh lines 243-270. -/
def pStatIn (g : Geom dim) (f : Focus) (rho : Ev) : Ev :=
  - keep (decide (f = .interior)) rho * Ev.const (∑ k, g.gIn k * (g.posIn k - g.posFace k))

@[inherit_doc pStatIn]
def pStatEx (g : Geom dim) (f : Focus) (rho : Ev) : Ev :=
  - keep (decide (f = .exterior)) rho * Ev.const (∑ k, g.gEx k * (g.posEx k - g.posFace k))

/-- The gradient of the potential of a phase, `calculateGradients_`, opm/models/common/darcyfluxmodule.hh lines 183-290. -/
def potentialGrad (g : Geom dim) (f : Focus) (p : P) (a b : Cell P C) : Fin dim → Ev :=
  let raw := gradient g f (a.pressure p) (b.pressure p)
  if g.gravity then
    fun k => raw k + Ev.const (g.dist k) * ((pStatEx g f (b.density p) - pStatIn g f (a.density p)) * Ev.const (1 / g.distSquared))
  else raw

/-- A vector times the normal of the face, opm/models/common/darcyfluxmodule.hh lines 302-304. -/
def normalPart (g : Geom dim) (v : Fin dim → Ev) : Ev := Ev.sum fun k => v k * Ev.const (g.normal k)

open Classical in
/-- The exterior degree of freedom is the upstream one, opm/models/common/darcyfluxmodule.hh lines 300-313: only values are compared. -/
def exteriorUp (g : Geom dim) (f : Focus) (p : P) (a b : Cell P C) : Bool := decide (0 < (normalPart g (potentialGrad g f p a b)).val)

/-- The quantities of the upstream degree of freedom. -/
def upstream (up : Bool) (a b : Cell P C) : Cell P C := if up then b else a

/-- The upstream degree of freedom is in focus. -/
def upFocus (up : Bool) (f : Focus) : Bool := if up then decide (f = .exterior) else decide (f = .interior)

/-- `volumeFlux` of a phase if the upstream side is given: opm/models/common/darcyfluxmodule.hh lines 315-321, 459-480 and the filter
velocity, lines 505-525. -/
def volumeFluxUp (g : Geom dim) (f : Focus) (p : P) (up : Bool) (a b : Cell P C) : Ev :=
  let mobility := keep (upFocus up f) ((upstream up a b).mobility p)
  Ev.sum fun i => (- (mobility * Ev.sum fun k => Ev.const (g.perm i k) * potentialGrad g f p a b k)) * Ev.const (g.normal i)

/-- The flux of a phase in the immiscible model, opm/models/immiscible/immisciblelocalresidual.hh lines 139-153. -/
def massFluxUp (g : Geom dim) (f : Focus) (p : P) (up : Bool) (a b : Cell P C) : Ev :=
  volumeFluxUp g f p up a b * keep (upFocus up f) ((upstream up a b).density p)

@[inherit_doc massFluxUp]
def massFlux (g : Geom dim) (f : Focus) (p : P) (a b : Cell P C) : Ev := massFluxUp g f p (exteriorUp g f p a b) a b

/-- The flux of a component with a phase in the compositional models, opm/models/flash/flashlocalresidual.hh lines 135-167,
opm/models/pvs/pvslocalresidual.hh lines 137-169, opm/models/ncp/ncplocalresidual.hh lines 141-173. -/
def componentFluxUp (g : Geom dim) (f : Focus) (p : P) (c : C) (up : Bool) (a b : Cell P C) : Ev :=
  keep (upFocus up f) ((upstream up a b).molarDensity p) * volumeFluxUp g f p up a b * keep (upFocus up f) ((upstream up a b).fraction p c)

@[inherit_doc componentFluxUp]
def componentFlux [Fintype P] (g : Geom dim) (f : Focus) (c : C) (a b : Cell P C) : Ev :=
  Ev.sum fun p => componentFluxUp g f p c (exteriorUp g f p a b) a b

/-- `EnergyModule::addAdvectiveFlux`, opm/models/common/energymodule.hh lines 398-421: the focus is not looked at. -/
def energyFluxUp (g : Geom dim) (f : Focus) (p : P) (up : Bool) (a b : Cell P C) : Ev :=
  volumeFluxUp g f p up a b * (upstream up a b).enthalpy p * (upstream up a b).density p

@[inherit_doc energyFluxUp]
def energyFlux [Fintype P] (g : Geom dim) (f : Focus) (a b : Cell P C) : Ev :=
  Ev.sum fun p => energyFluxUp g f p (exteriorUp g f p a b) a b

/-- Conduction: `EnergyModule::addDiffusiveFlux`, opm/models/common/energymodule.hh lines 469-481, and `EnergyExtensiveQuantities::update_`,
lines 750-781: the mean of the conductivities keeps the derivatives of both sides. -/
def conduction (g : Geom dim) (f : Focus) (a b : Cell P C) : Ev :=
  - normalPart g (gradient g f a.temperature b.temperature) * (Ev.const (1 / 2) * (a.conductivity + b.conductivity))

/-- Molecular diffusion: `DiffusionModule::addDiffusiveFlux`, opm/models/common/diffusionmodule.hh lines 108-131, and
`DiffusionExtensiveQuantities::update_`, lines 351-394: the molar density keeps the derivatives of the interior side, the mean of the
diffusion coefficients those of both sides. -/
def diffusionFlux [Fintype P] (g : Geom dim) (f : Focus) (c : C) (a b : Cell P C) : Ev :=
  Ev.sum fun p =>
    - ((a.molarDensity p + (b.molarDensity p).value) * Ev.const (1 / 2)) *
      normalPart g (gradient g f (a.fraction p c) (b.fraction p c)) * ((a.diffusion p c + b.diffusion p c) * Ev.const (1 / 2))

/-! ### boundary faces -/

/-- What is prescribed at the boundary; `mobility` is `kr / viscosity`.  It may depend on the primary variables of the interior degree of
freedom. -/
structure Outside (P : Type) where
  pressure : P → Ev
  density : P → Ev
  mobility : P → Ev

/-- The gradient of the potential at the boundary: `calculateBoundaryGradient`,
opm/models/discretization/common/fvbasegradientcalculator.hh lines 283-320, and opm/models/common/darcyfluxmodule.hh lines 332-412: the
density of the interior keeps its derivatives.  `inFocus`: the interior degree of freedom is in focus.  `posIn` stands for the centre
and the position of the control volume. -/
def boundaryGrad (g : Geom dim) (inFocus : Bool) (p : P) (a : Cell P C) (o : Outside P) : Fin dim → Ev :=
  let d k := g.posFace k - g.posIn k
  let d2 := ∑ k, d k * d k
  let raw k := (keep inFocus (o.pressure p) - keep inFocus (a.pressure p)) * Ev.const (d k / d2)
  if g.gravity then
    fun k => raw k + Ev.const (- d k) * ((- Ev.const (∑ j, g.gIn j * (- d j)) * a.density p) * Ev.const (1 / d2))
  else raw

open Classical in
/-- The outside is upstream. -/
def boundaryUp (g : Geom dim) (inFocus : Bool) (p : P) (a : Cell P C) (o : Outside P) : Bool :=
  decide (0 < (normalPart g (boundaryGrad g inFocus p a o)).val)

/-- The flux over the boundary if the upstream sides of flow and density are given, opm/models/common/darcyfluxmodule.hh lines 434-450 and
`setFreeFlow`, opm/models/immiscible/immiscibleboundaryratevector.hh lines 96-130: the mobility is that upstream with regard to the
potential, the density that with the higher pressure. -/
def freeFlowUp (g : Geom dim) (inFocus : Bool) (p : P) (up upRho : Bool) (a : Cell P C) (o : Outside P) : Ev :=
  let mobility := keep inFocus (if up then o.mobility p else a.mobility p)
  let density := keep inFocus (if upRho then o.density p else a.density p)
  (Ev.sum fun i => (- (mobility * Ev.sum fun k => Ev.const (g.perm i k) * boundaryGrad g inFocus p a o k)) * Ev.const (g.normal i)) * density

open Classical in
@[inherit_doc freeFlowUp]
def freeFlow (g : Geom dim) (inFocus : Bool) (p : P) (a : Cell P C) (o : Outside P) : Ev :=
  freeFlowUp g inFocus p (boundaryUp g inFocus p a o) (decide ((a.pressure p).val < (o.pressure p).val)) a o

/-- Conduction over the boundary, opm/models/common/energymodule.hh lines 783-820: the focus is not looked at. -/
def boundaryConduction (dist : ℝ) (tOut : Ev) (a : Cell P C) : Ev :=
  - ((tOut - a.temperature) * Ev.const (1 / dist)) * a.conductivity

end

end Verif.Deriv
