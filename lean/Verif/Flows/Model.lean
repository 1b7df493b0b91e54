import Verif.Tpfa.Model
import Mathlib.Data.List.Basic
import Mathlib.Data.Int.Notation
import Mathlib.Algebra.Order.Ring.Abs

/-
Tables of flows which the linearizer for two-point fluxes keeps for the output and for dispersion: `createFlows_`, `updateFlowsInfo`
and the velocities written by `linearize_` (opm/models/discretization/common/tpfalinearizer.hh), and what
`BlackOilDispersionIntensiveQuantities` makes of them.

Simplifications: `SparseTable` (of the module opm-common) is a list of rows, access beyond its end is `none`; the order in which
`std::unordered_multimap::equal_range` lists what it finds is not specified and hence a parameter; threads are represented by the order
of the writes to the table, each of which is one step.
-/

set_option autoImplicit false

namespace Verif.Flows

variable {V C : Type}

/-- `FlowInfo` (opm/models/discretization/common/tpfalinearizer.hh lines 910-915) -/
structure Entry (V : Type) where
  faceId : ℤ
  flow : V
  nncId : ℕ

/-- What the stencil says about an element: its index, the neighbours with data of the connection, and the directions of boundary
faces -/
structure Elem (C : Type) where
  index : ℕ
  nbs : List (ℕ × C)
  bfaces : List ℤ

/-- `neighborInfo_`: one row for each element, in the order in which the grid lists them
(opm/models/discretization/common/tpfalinearizer.hh lines 434-475) -/
def neighborInfo (elems : List (Elem C)) : List (List (ℕ × C)) := elems.map (·.nbs)

/-- The identifiers of a face: the search for a connection which is not a neighbour connection of the grid
(opm/models/discretization/common/tpfalinearizer.hh lines 582-596); `range` is what `equal_range` finds for the cell. -/
def faceOf (range : List (ℕ × ℕ)) (cartJ : ℕ) (dirId : ℤ) (nncId : ℕ) : ℤ × ℕ :=
  range.foldl (fun a it => if it.1 = cartJ then (-2, it.2) else a) (dirId, nncId)

/-- Everything `createFlows_` asks others for: Cartesian indices, results of `equal_range` for Cartesian indices, directions of faces -/
structure Labels (C : Type) where
  cart : ℕ → ℕ
  range : ℕ → List (ℕ × ℕ)
  dirId : C → ℤ

/-- The entries for the interior faces of the cell `i` (opm/models/discretization/common/tpfalinearizer.hh lines 578-601), and the
identifier which is left in the variable `nncId` -/
def interiorEntries [Zero V] (b : Labels C) (i : ℕ) : List (ℕ × C) → ℕ → List (Entry V) × ℕ
  | [], n => ([], n)
  | e :: l, n =>
    let f := faceOf (b.range (b.cart i)) (b.cart e.1) (b.dirId e.2) n
    let r := interiorEntries b i l f.2
    ({ faceId := f.1, flow := 0, nncId := f.2 } :: r.1, r.2)

/-- The row of an element (opm/models/discretization/common/tpfalinearizer.hh lines 570-608) -/
def row [Zero V] (b : Labels C) (e : Elem C) (n : ℕ) : List (Entry V) × ℕ :=
  let r := interiorEntries (V := V) b e.index e.nbs n
  (r.1 ++ e.bfaces.map fun d => { faceId := d, flow := 0, nncId := r.2 }, r.2)

/-- The rows of all elements (opm/models/discretization/common/tpfalinearizer.hh lines 566-621) -/
def rows [Zero V] (b : Labels C) : List (Elem C) → ℕ → List (List (Entry V))
  | [], _ => []
  | e :: l, n => (row b e n).1 :: rows b l (row (V := V) b e n).2

/-- The three tables -/
structure Tables (V : Type) where
  flows : List (List (Entry V))
  flores : List (List (Entry V))
  velocity : List (List V)

/-- `createFlows_` (opm/models/discretization/common/tpfalinearizer.hh lines 526-623) -/
def createFlows [Zero V] (anyFlows anyFlores dispersion : Bool) (b : Labels C) (elems : List (Elem C)) (t : Tables V) : Tables V :=
  if ((!anyFlows || !t.flows.isEmpty) && (!anyFlores || !t.flores.isEmpty)) && !dispersion then t
  else
    { flows := if anyFlows then t.flows ++ rows b elems 0 else t.flows
      flores := if anyFlores then t.flores ++ rows b elems 0 else t.flores
      velocity := if dispersion then t.velocity ++ elems.map (fun e => e.nbs.map fun _ => 0) else t.velocity }

/-- `table[i][loc].flow = v` -/
def write (t : List (List (Entry V))) (w : ℕ × ℕ × V) : Option (List (List (Entry V))) :=
  match t[w.1]? with
  | none => none
  | some r =>
    match r[w.2.1]? with
    | none => none
    | some e => some (t.set w.1 (r.set w.2.1 { e with flow := w.2.2 }))

/-- What the loop over the neighbours of the cell `globI` writes (opm/models/discretization/common/tpfalinearizer.hh lines 654-689);
`fluxVal` is the value of `adres` (of `darcyFlux` for the other table) for a connection -/
def cellWrites (nbInfo : List (List (ℕ × C))) (fluxVal : ℕ → ℕ × C → V) (globI : ℕ) : Option (List (ℕ × ℕ × V)) :=
  (nbInfo[globI]?).map fun nbs => nbs.zipIdx.map fun e => (globI, e.2, fluxVal globI e.1)

/-- What the loop over all cells writes (opm/models/discretization/common/tpfalinearizer.hh lines 650-692), one cell after the other;
`numCells` is `numTotalDof()` -/
def allCellWrites (nbInfo : List (List (ℕ × C))) (fluxVal : ℕ → ℕ × C → V) : ℕ → Option (List (ℕ × ℕ × V))
  | 0 => some []
  | n + 1 =>
    match allCellWrites nbInfo fluxVal n, cellWrites nbInfo fluxVal n with
    | some l, some m => some (l ++ m)
    | _, _ => none

/-- What `updateFlowsInfo` asks about a boundary face: cell, `bfIndex`, whether the type is `BCType::NONE`, and the value of `adres` -/
structure Bnd (V : Type) where
  cell : ℕ
  bfIndex : ℕ
  none : Bool
  flow : V

/-- What the loop over boundary faces writes (opm/models/discretization/common/tpfalinearizer.hh lines 695-706) -/
def boundaryWrites (nbInfo : List (List (ℕ × C))) (boundary : List (Bnd V)) : List (ℕ × ℕ × V) :=
  (boundary.filter fun f => !f.none).map fun f => (f.cell, ((nbInfo[f.cell]?).getD []).length + f.bfIndex, f.flow)

/-- `updateFlowsInfo` for the table of flows, if the threads write in the order `order` (a permutation of `allCellWrites`)
(opm/models/discretization/common/tpfalinearizer.hh lines 642-708) -/
def update (nbInfo : List (List (ℕ × C))) (boundary : List (Bnd V)) (order : List (ℕ × ℕ × V)) (t : List (List (Entry V))) :
    Option (List (List (Entry V))) :=
  (order ++ boundaryWrites nbInfo boundary).foldlM write t

/-! ### Dispersion -/

/-- `normVelocityCell_` of one phase (opm/models/blackoil/blackoildispersionmodule.hh lines 356-384) if there is dispersion: `memory` is
what the member holds before, `table` are the velocities of this phase. `none` is an access beyond the end of the table. -/
def normVelocity {K : Type} [CommRing K] [LinearOrder K] (memory : K) (table : List (List K)) (i : ℕ) : Option K :=
  if table.isEmpty then some memory else (table[i]?).map fun r => r.foldl (fun m v => max m |v|) 0

/-- The velocities which `linearize_` leaves in the table (opm/models/discretization/common/tpfalinearizer.hh lines 757-763);
`velocityVal` is the quotient of the Darcy flux and the area -/
def velocities {K : Type} (nbInfo : List (List (ℕ × C))) (velocityVal : ℕ → ℕ × C → K) : List (List K) :=
  nbInfo.zipIdx.map fun r => r.1.map (velocityVal r.2)

end Verif.Flows
