import Mathlib.Algebra.Order.Field.Basic
import Mathlib.Algebra.Order.AbsoluteValue.Basic
import Mathlib.Data.List.Range
import Mathlib.Algebra.BigOperators.Group.List.Basic
import Mathlib.Logic.Function.Basic

/-!
# The NCP model: primary variables, phase presence equations and Newton updates

Vectors of primary variables and of equations are functions from indices; the layout constants are those of
opm/models/ncp/ncpindices.hh.  Scalars are an ordered field (no rounding, no NaN).
-/

set_option autoImplicit false

namespace Verif.Ncp

/-- The sizes of an NCP model: `PVOffset`, `NumComponents` and `NumPhases`, opm/models/ncp/ncpindices.hh:42-47. -/
structure Sizes where
  off : ℕ
  comps : ℕ
  phases : ℕ

/-- `conti0EqIdx`, opm/models/ncp/ncpindices.hh:69. -/
def Sizes.conti0 (z : Sizes) : ℕ := z.off
/-- `ncp0EqIdx`, opm/models/ncp/ncpindices.hh:76. -/
def Sizes.ncp0 (z : Sizes) : ℕ := z.conti0 + z.comps
/-- `fugacity0Idx`, opm/models/ncp/ncpindices.hh:84. -/
def Sizes.fug0 (z : Sizes) : ℕ := z.off
/-- `saturation0Idx`, opm/models/ncp/ncpindices.hh:93. -/
def Sizes.sat0 (z : Sizes) : ℕ := z.fug0 + z.comps
/-- `pressure0Idx`, opm/models/ncp/ncpindices.hh:99. -/
def Sizes.pres0 (z : Sizes) : ℕ := z.sat0 + z.phases - 1

variable {K : Type*} [Field K] [LinearOrder K]

/-- A loop `for (i = 0; i < n; ++i) v[base + i] = f(i, v[base + i])`. -/
def forRange (n base : ℕ) (f : ℕ → K → K) (v : ℕ → K) : ℕ → K :=
  (List.range n).foldl (fun v i => Function.update v (base + i) (f i (v (base + i)))) v

/-- `clampValue_`, opm/models/ncp/ncpnewtonmethod.hh:214-215. -/
def clamp (val lo hi : K) : K := max lo (min val hi)

/-- The largest saturation change of an update, opm/models/ncp/ncpnewtonmethod.hh:144-151. -/
def maxSatDelta (z : Sizes) (u : ℕ → K) : K :=
  let r := (List.range (z.phases - 1)).foldl
    (fun (a : K × K) i => (max |u (z.sat0 + i)| a.1, a.2 + u (z.sat0 + i))) (0, 0)
  max |-r.2| r.1

/-- The saturation part of the update, opm/models/ncp/ncpnewtonmethod.hh:143-160. -/
def limitSaturations (z : Sizes) (cur u next : ℕ → K) : ℕ → K :=
  if 1 / 5 < maxSatDelta z u then
    forRange (z.phases - 1) z.sat0
      (fun i _ => cur (z.sat0 + i) - 1 / 5 / maxSatDelta z u * u (z.sat0 + i)) next
  else next

/-- The pressure part, opm/models/ncp/ncpnewtonmethod.hh:162-165. -/
def limitPressure (z : Sizes) (cur next : ℕ → K) : ℕ → K :=
  Function.update next z.pres0 (clamp (next z.pres0) (cur z.pres0 * (4 / 5)) (cur z.pres0 * (6 / 5)))

/-- The largest admissible change of a fugacity, opm/models/ncp/ncpnewtonmethod.hh:172-180. -/
def maxFugDelta (z : Sizes) (cur : ℕ → K) (minPhi : K) : K :=
  7 / 10 * max (1 / 1000 * cur z.pres0) minPhi

/-- The fugacity part, opm/models/ncp/ncpnewtonmethod.hh:167-185.  `minPhi i` is `minActivityCoeff(globalDofIdx, i)`. -/
def limitFugacities (z : Sizes) (minPhi : ℕ → K) (cur next : ℕ → K) : ℕ → K :=
  forRange z.comps z.fug0
    (fun i val => max (clamp val (cur (z.fug0 + i) - maxFugDelta z cur (minPhi i))
      (cur (z.fug0 + i) + maxFugDelta z cur (minPhi i))) 0) next

/-- The barrier of one variable in the first iterations, opm/models/ncp/ncpnewtonmethod.hh:195-198 and 205-208. -/
def barrier (top old val : K) : K :=
  if old < top ∧ top < val then top else if 0 < old ∧ val < 0 then 0 else val

/-- The restrictions of the first three iterations, opm/models/ncp/ncpnewtonmethod.hh:187-210. -/
def firstIterations (z : Sizes) (minPhi : ℕ → K) (cur next : ℕ → K) : ℕ → K :=
  forRange (z.phases - 1) z.sat0 (fun i val => barrier 1 (cur (z.sat0 + i)) val)
    (forRange z.comps z.fug0 (fun i val => barrier (minPhi i) (cur (z.fug0 + i)) val) next)

/-- `updatePrimaryVariables_`, opm/models/ncp/ncpnewtonmethod.hh:129-211.  `iter` is `numIterations_`. -/
def updatePrimaryVariables (z : Sizes) (iter : ℕ) (minPhi : ℕ → K) (cur u : ℕ → K) : ℕ → K :=
  let next := limitSaturations z cur u (fun k => cur k - u k)
  let next := limitPressure z cur next
  let next := limitFugacities z minPhi cur next
  if iter < 3 then firstIterations z minPhi cur next else next

/-- The saturations which the intensive quantities derive from the primary variables,
opm/models/ncp/ncpintensivequantities.hh:110-117. -/
def saturation (z : Sizes) (pv : ℕ → K) (phase : ℕ) : K :=
  if phase < z.phases - 1 then pv (z.sat0 + phase)
  else 1 - ((List.range (z.phases - 1)).map (fun i => pv (z.sat0 + i))).sum

/-- The phase pressures, opm/models/ncp/ncpintensivequantities.hh:127-133.  `pc` are the capillary pressures which the material
law returns for the saturations. -/
def pressure (z : Sizes) (pc : ℕ → K) (pv : ℕ → K) (phase : ℕ) : K :=
  pv z.pres0 + (pc phase - pc 0)

/-- A fluid state as seen by the local residual: saturations, pressures and mole fractions. -/
structure FluidState (K : Type*) where
  sat : ℕ → K
  pres : ℕ → K
  moleFrac : ℕ → ℕ → K

/-- `phaseNotPresentIneq_`, opm/models/ncp/ncplocalresidual.hh:247-256. -/
def phaseNotPresentIneq (z : Sizes) (fs : FluidState K) (phase : ℕ) : K :=
  (List.range z.comps).foldl (fun a i => a - fs.moleFrac phase i) 1

/-- `phasePresentIneq_`, opm/models/ncp/ncplocalresidual.hh:235-240. -/
def phasePresentIneq (fs : FluidState K) (phase : ℕ) : K := fs.sat phase

/-- `phaseNcp`, opm/models/ncp/ncplocalresidual.hh:214-227. -/
def phaseNcp (z : Sizes) (fs : FluidState K) (phase : ℕ) : K :=
  min (phaseNotPresentIneq z fs phase) (phasePresentIneq fs phase)

/-- `computeSource`, opm/models/ncp/ncplocalresidual.hh:194-208: the source of the problem with the entries of the NCPs
overwritten. -/
def computeSource (z : Sizes) (problemSource : ℕ → K) (fs : FluidState K) : ℕ → K :=
  forRange z.phases z.ncp0 (fun phase _ => phaseNcp z fs phase) problemSource

/-- The equations which `preSolve_` skips, opm/models/ncp/ncpnewtonmethod.hh:107-108. -/
def isNcpEq (z : Sizes) (eq : ℕ) : Bool := decide (z.ncp0 ≤ eq) && decide (eq < z.ncp0 + z.phases)

/-- What `preSolve_` reads: sizes of the residual and of the grid, volumes, constraints and equation weights,
opm/models/ncp/ncpnewtonmethod.hh:85-113. -/
structure Grid (K : Type*) where
  numDof : ℕ
  numGridDof : ℕ
  numEq : ℕ
  volume : ℕ → K
  constrained : ℕ → Bool
  enableConstraints : Bool
  weight : ℕ → ℕ → K

/-- Is the degree of freedom skipped?  opm/models/ncp/ncpnewtonmethod.hh:95-103. -/
def Grid.skipped (g : Grid K) (dof : ℕ) : Bool :=
  decide (g.numGridDof ≤ dof) || decide (g.volume dof ≤ 0) || (g.enableConstraints && g.constrained dof)

/-- The error which `preSolve_` computes on one process, opm/models/ncp/ncpnewtonmethod.hh:93-113. -/
def error (z : Sizes) (g : Grid K) (r : ℕ → ℕ → K) : K :=
  (List.range g.numDof).foldl (fun err dof =>
    if g.skipped dof then err
    else (List.range g.numEq).foldl (fun err eq =>
      if isNcpEq z eq then err else max |r dof eq * g.weight dof eq| err) err) 0

/-- `assignNaive`, opm/models/ncp/ncpprimaryvariables.hh:157-187, without the temperatures (energy module).  `phi` are the fugacity
coefficients of the fluid system in the reference phase. -/
def assignNaive (z : Sizes) (phi : ℕ → K) (fs : FluidState K) (refPhase : ℕ) (pv : ℕ → K) : ℕ → K :=
  let pv := forRange z.comps z.fug0
    (fun i _ => phi i * fs.moleFrac refPhase i * fs.pres refPhase) pv
  let pv := Function.update pv z.pres0 (fs.pres 0)
  forRange (z.phases - 1) z.sat0 (fun phase _ => fs.sat phase) pv

/-- The inner part of `updatePVWeights` for one component of one degree of freedom, opm/models/ncp/ncpmodel.hh:370-384: the
smallest product of fugacity coefficient and pressure, or `none` for the exception. -/
def minActivityCoeff (z : Sizes) (phi : ℕ → K) (fs : FluidState K) : Option K :=
  let m := (List.range z.phases).foldl (fun m phase => min m (phi phase * fs.pres phase)) (10 ^ 100)
  if m ≤ 0 then none else some m

end Verif.Ncp
