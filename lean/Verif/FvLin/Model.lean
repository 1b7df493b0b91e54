import Verif.Tpfa.Model
/-
Model of the general linearizer: `opm/models/discretization/common/fvbaselinearizer.hh` (global assembly),
`opm/models/discretization/common/fvbaseadlocallinearizer.hh` (local Jacobian) and
`opm/models/discretization/common/fvbaselocalresidual.hh` (local residual).

Residuals in these files are vectors of values with derivatives with respect to the degree of freedom in focus; as in
`Verif.Tpfa.Model` these are pairs in `V × M`.  Constraints are in `Verif.Newton`, the storage cache in `Verif.Storage`.
-/

set_option autoImplicit false

namespace Verif.FvLin

open Verif.Tpfa

/-- What the grid, the model and the problem provide for an element (element context).  All indices are local. -/
structure Elem (K V M : Type) where
  /-- `globalSpaceIndex` of the degrees of freedom of the stencil -/
  dofs : List ℕ
  /-- `numPrimaryDof` -/
  numPrimary : ℕ
  /-- interior faces: interior index, exterior index, area times extrusion, and `computeFlux` for each focus -/
  faces : List (ℕ × ℕ × K × (ℕ → V × M))
  /-- volume times extrusion -/
  volume : ℕ → K
  storage : ℕ → V × M
  oldStorage : ℕ → V
  source : ℕ → V × M
  /-- boundary segments: local index, and area times extrusion times flux for each focus -/
  boundary : List (ℕ × (ℕ → V × M))

section
variable {K V M : Type} [Field K] [AddCommGroup V] [AddCommGroup M] [Module K V] [Module K M]

abbrev LocalRes (V M : Type) := ℕ → V × M

/-- `evalFluxes` (opm/models/discretization/common/fvbaselocalresidual.hh lines 299-361). -/
def evalFluxes (e : Elem K V M) (focus : ℕ) (r : LocalRes V M) : LocalRes V M :=
  e.faces.foldl (fun r f =>
    let flux := f.2.2.1 • f.2.2.2 focus
    let r1 : LocalRes V M := fun k => if k = f.1 then r k + flux else r k
    fun k => if k = f.2.1 then r1 k - flux else r1 k) r

/-- The derivatives of a volume term are dropped unless its degree of freedom is in focus
(opm/models/discretization/common/fvbaselocalresidual.hh lines 514-533, 597-611). -/
def focused (k focus : ℕ) (x : V × M) : V × M := if k = focus then x else (x.1, 0)

/-- `evalVolumeTerms_` (opm/models/discretization/common/fvbaselocalresidual.hh lines 491-626) without cached storage. -/
def evalVolumeTerms (e : Elem K V M) (dt : K) (focus : ℕ) (r : LocalRes V M) : LocalRes V M :=
  (List.range e.numPrimary).foldl (fun r d => fun k => if k = d then
    r k + (e.volume d / dt) • (focused d focus (e.storage d) - (e.oldStorage d, 0)) -
      e.volume d • focused d focus (e.source d) else r k) r

/-- `evalBoundary_`, `evalBoundarySegment_` (opm/models/discretization/common/fvbaselocalresidual.hh lines 419-485). -/
def evalBoundary (e : Elem K V M) (focus : ℕ) (r : LocalRes V M) : LocalRes V M :=
  e.boundary.foldl (fun r b => fun k => if k = b.1 then r k + b.2 focus else r k) r

/-- `eval` (opm/models/discretization/common/fvbaselocalresidual.hh lines 158-191).  `scale` is one over the total volume of
a degree of freedom for volumetric residuals and one otherwise. -/
def evalLocal (scale : ℕ → K) (dt : K) (e : Elem K V M) (focus : ℕ) : LocalRes V M :=
  let r := evalBoundary e focus (evalVolumeTerms e dt focus (evalFluxes e focus fun _ => 0))
  fun k => scale (e.dofs.getD k 0) • r k

/-- `linearizeElement_` (opm/models/discretization/common/fvbaselinearizer.hh lines 595-626) with the local linearizer
(opm/models/discretization/common/fvbaseadlocallinearizer.hh lines 170-196, 253-275): one evaluation of the local residual
per primary degree of freedom, with the focus on it. -/
def elementUpdates (scale : ℕ → K) (dt : K) (e : Elem K V M) : List (Upd V M) :=
  (List.range e.numPrimary).flatMap fun p =>
    Upd.res (e.dofs.getD p 0) (evalLocal scale dt e p p).1 ::
      (List.range e.dofs.length).map fun d => Upd.mat (e.dofs.getD d 0) (e.dofs.getD p 0) (evalLocal scale dt e p d).2

/-- The global indices of the primary degrees of freedom of an element. -/
def primaries (e : Elem K V M) : List ℕ := (List.range e.numPrimary).map fun p => e.dofs.getD p 0

/-- `resetSystem_(domain)` (opm/models/discretization/common/fvbaselinearizer.hh lines 343-375). -/
def resetElems (es : List (Elem K V M)) (s : System V M) : System V M := resetCells (es.flatMap primaries) s

/-- `linearizeDomain` (opm/models/discretization/common/fvbaselinearizer.hh lines 200-241) with one thread and no
constraints; `numTotal` is `numTotalDof()`, the number of elements is `view.size(0)`. -/
def linearizeDomain (scale : ℕ → K) (dt : K) (numTotal : ℕ) (es : List (Elem K V M)) (s : System V M) : System V M :=
  applyAll (if es.length = numTotal then resetAll s else resetElems es s) (es.flatMap (elementUpdates scale dt))

/-- `linearize` (opm/models/discretization/common/fvbaselinearizer.hh lines 181-185, 250-276): the auxiliary modules add
their equations after the domain. -/
def linearize (scale : ℕ → K) (dt : K) (numTotal : ℕ) (es : List (Elem K V M)) (aux : List (Upd V M)) (s : System V M) :
    System V M := applyAll (linearizeDomain scale dt numTotal es s) aux

/-! ### Erasing the matrix -/

inductive Op
  | linearize
  | erase
deriving DecidableEq, Repr

/-- `jacobian_` and `residual_`; `none` if there is no matrix.  `eraseMatrix`
(opm/models/discretization/common/fvbaselinearizer.hh lines 165-168), `initFirstIteration_` (lines 402-415), which always
creates the matrix again. -/
def lifeStep (lin : System V M → System V M) (s : Option (System V M)) : Op → Option (System V M)
  | .linearize => some (lin (s.getD { res := fun _ => 0, mat := fun _ _ => 0 }))
  | .erase => none

def life (lin : System V M → System V M) (ops : List Op) : Option (System V M) := ops.foldl (lifeStep lin) none

end

/-! ### Collecting the constraints -/

/-- The threads which collect the constraints (`updateConstraintsMap_`,
opm/models/discretization/common/fvbaselinearizer.hh lines 464-506): each of them has the constrained degrees of freedom of
its elements before it, and may be in the middle of inserting one into the shared `std::map`. -/
structure Collector where
  todo : List ℕ
  inserting : Option ℕ

/-- The map and the collectors; `race`: two threads have been changing the map at the same time, which is undefined
behaviour. -/
structure Collect where
  map : List ℕ
  threads : List Collector
  race : Bool

/-- One step of thread `k`: begin to insert (line 497) or finish it.  No lock is taken. -/
def collectStep (s : Collect) (k : ℕ) : Collect :=
  match s.threads[k]? with
  | none => s
  | some t =>
    match t.inserting, t.todo with
    | none, [] => s
    | none, d :: ds =>
      { s with threads := s.threads.set k { todo := ds, inserting := some d },
               race := s.race || s.threads.any fun t => t.inserting.isSome }
    | some d, ds =>
      { s with threads := s.threads.set k { todo := ds, inserting := none }, map := s.map ++ [d] }

def collect (s : Collect) (schedule : List ℕ) : Collect := schedule.foldl collectStep s

end Verif.FvLin
