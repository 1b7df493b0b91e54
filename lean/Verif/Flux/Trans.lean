import Verif.Flux.Darcy
import Mathlib.Algebra.Order.AbsoluteValue.Basic
import Mathlib.Data.List.FinRange

set_option autoImplicit false
set_option linter.unusedSectionVars false
/-
Model of the transmissibility based flux module (opm/models/common/transfluxmodule.hh), which is used with cell-centred
volumes only.  The quantities of one phase are considered; numbers are exact.
-/
namespace Verif.Flux

variable {K : Type} [Field K] [LinearOrder K]

/-- What the flux over a face needs of a cell: volume (`dofVolume`), global index, the last coordinate of the centre
(`dofCenterDepth_`, opm/models/common/transfluxmodule.hh:482-487) and pressure, density and mobility of the phase. -/
structure Cell (K : Type) where
  volume : K
  index : ℕ
  z : K
  pressure : K
  density : K
  mobility : K

/-- `pressureDifference_`, opm/models/common/transfluxmodule.hh:252-263; `g` is the last component of the gravity vector. -/
def pressureDifference (g : K) (a b : Cell K) : K :=
  (b.pressure + (a.density + b.density) / 2 * ((a.z - b.z) * g)) - a.pressure

/-- Is the exterior cell the upstream one?  opm/models/common/transfluxmodule.hh:264-303. -/
def exteriorUpstream (g : K) (a b : Cell K) : Bool :=
  if 0 < pressureDifference g a b then true
  else if pressureDifference g a b < 0 then false
  else if b.volume < a.volume then false
  else if a.volume < b.volume then true
  else if a.index < b.index then false
  else true

/-- `calculateGradients_`, opm/models/common/transfluxmodule.hh:201-318: the upstream cell and the volume flux from the interior cell `a` to
the exterior cell `b`. -/
def transFlux (g trans : K) (a b : Cell K) : Bool × K :=
  if a.mobility ≤ 0 ∧ b.mobility ≤ 0 then (false, 0)
  else
    let ex := exteriorUpstream g a b
    (ex, pressureDifference g a b * (if ex then b.mobility else a.mobility) * (- trans))

/-- The rate at which a component leaves the interior cell: `contentA`, `contentB` are the amounts of the component per
volume of the phase in the two cells (`computeFlux` of the local residuals). -/
def transContentFlux (g trans : K) (a b : Cell K) (contentA contentB : K) : K :=
  let f := transFlux g trans a b
  f.2 * (if f.1 then contentB else contentA)

/-- `calculateFluxes_` of the local residual of the two-point flux linearizer, opm/models/blackoil/blackoillocalresidualtpfa.hh:326-412: flux
per area; `multA`, `multB` are `rockCompTransMultiplier()`.  `calculatePhasePressureDiff_` is not in this repository: it is
taken to give the pressure difference and the upstream cell of the module above. -/
def tpfaContentFlux (g trans faceArea multA multB : K) (a b : Cell K) (contentA contentB : K) : K :=
  let ex := exteriorUpstream g a b
  let darcyFlux := pressureDifference g a b * (if ex then b.mobility else a.mobility) * ((multA + multB) / 2) * (- trans / faceArea)
  (if ex then contentB else contentA) * darcyFlux

variable {dim : ℕ}

/-- The index of the component of the normal with the largest magnitude, opm/models/common/transfluxmodule.hh:440-450, 466-476. -/
def mainDirection (normal : Vec K (dim + 1)) : Fin (dim + 1) :=
  ((List.finRange (dim + 1)).foldl
    (fun (s : Fin (dim + 1) × K) i => if s.2 < |normal i| then (i, |normal i|) else s) (0, 0)).1

/-- A face of the stencil of an element: integration position and normal, and the indices of the cells it separates (the
exterior index is not used for boundary faces). -/
structure Face (K : Type) (dim : ℕ) where
  pos : Vec K (dim + 1)
  normal : Vec K (dim + 1)
  interior : ℕ
  exterior : ℕ

/-- `K0 * ndotDistIn / distSquaredIn`, opm/models/common/transfluxmodule.hh:451-454. -/
def halfTrans (perm : Fin (dim + 1) → Vec K (dim + 1)) (f : Face K dim) (center : Vec K (dim + 1)) : K :=
  let d : Vec K (dim + 1) := fun k => f.pos k - center k
  let idx := mainDirection f.normal
  perm idx idx * |dot f.normal d| / dot d d

/-- `transmissibility_`, opm/models/common/transfluxmodule.hh:425-456. -/
def transmissibility (perm0 perm1 : Fin (dim + 1) → Vec K (dim + 1)) (f : Face K dim) (center0 center1 : Vec K (dim + 1)) : K :=
  let t0 := halfTrans perm0 f center0
  let t1 := halfTrans perm1 f center1
  t0 * t1 / (t0 + t1)

/-- What the stencil of an element contains: its faces, and the centres of its cells. -/
structure Stencil (K : Type) (dim : ℕ) where
  interiorFaces : List (Face K dim)
  boundaryFaces : List (Face K dim)
  center : ℕ → Vec K (dim + 1)

/-- `transmissibilityBoundary_`, opm/models/common/transfluxmodule.hh:457-480: `bfIdx` is the index of a boundary face, but the face is looked
up among the interior ones.  `none`: access beyond the end of the list of interior faces. -/
def transmissibilityBoundary (st : Stencil K dim) (perm : ℕ → Fin (dim + 1) → Vec K (dim + 1)) (bfIdx : ℕ) : Option K :=
  (st.interiorFaces[bfIdx]?).map fun f =>
    let d : Vec K (dim + 1) := fun k => f.pos k - st.center f.interior k
    let idx := mainDirection f.normal
    perm f.interior idx idx * dot f.normal d / dot d d

end Verif.Flux
