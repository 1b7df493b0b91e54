import Mathlib.Algebra.Module.Basic
import Mathlib.Algebra.Field.Defs
/-
Model of the two-point flux linearizer `opm/models/discretization/common/tpfalinearizer.hh`.

`V` is the type of residual blocks (`VectorBlock`), `M` the type of matrix blocks (`MatrixBlock`), `C` the type of the
data of a connection (`ResidualNBInfo`).  The results of automatic differentiation (`ADVectorBlock`) are pairs of a
value and of its derivative with respect to the primary variables of the cell in focus; `setResAndJacobi` (lines
626-640) takes them apart.  Wells (`separateSparseSourceTerms_`), the flow and velocity tables, prefetching and the
communication between processes are not modelled.
-/

set_option autoImplicit false

namespace Verif.Tpfa

/-- The linear system (`residual_`, `jacobian_`), opm/models/discretization/common/tpfalinearizer.hh lines 892-896. -/
structure System (V M : Type) where
  res : ℕ → V
  mat : ℕ → ℕ → M

/-- A boundary face with the result of `computeBoundaryFlux` for its data (`BoundaryInfo`,
opm/models/discretization/common/tpfalinearizer.hh lines 924-942). -/
structure BFace (K V M : Type) where
  cell : ℕ
  /-- `bcdata.type == BCType::NONE` -/
  none : Bool
  area : K
  flux : V × M

/-- Everything `linearize_` asks the grid, the model, the problem and the local residual for. -/
structure Net (K V M C : Type) where
  /-- `numTotalDof()` -/
  numCells : ℕ
  /-- `neighborInfo_[globI]`: neighbours and connection data -/
  nb : ℕ → List (ℕ × C)
  /-- `faceArea` -/
  area : C → K
  /-- `computeFlux` for the current intensive quantities: value and derivative with respect to the first cell -/
  flux : ℕ → ℕ → C → V × M
  /-- `dofTotalVolume` -/
  volume : ℕ → K
  /-- `timeStepSize` -/
  dt : K
  /-- `computeStorage` for the current intensive quantities -/
  storage : ℕ → V × M
  /-- the storage term of the previous time level, computed or cached -/
  oldStorage : ℕ → V
  /-- `computeSource` -/
  source : ℕ → V × M
  /-- `boundaryInfo_` -/
  boundary : List (BFace K V M)

/-- One `+=` on a block of the residual or of the matrix. -/
inductive Upd (V M : Type)
  | res (i : ℕ) (v : V)
  | mat (i j : ℕ) (m : M)

section
variable {K V M C : Type}

/-- The effect of one `+=`. -/
def Upd.apply [Add V] [Add M] (s : System V M) : Upd V M → System V M
  | .res i v => { s with res := fun k => if k = i then s.res k + v else s.res k }
  | .mat i j m => { s with mat := fun k l => if k = i ∧ l = j then s.mat k l + m else s.mat k l }

def applyAll [Add V] [Add M] (s : System V M) (us : List (Upd V M)) : System V M := us.foldl Upd.apply s

variable [Field K] [AddCommGroup V] [AddCommGroup M] [Module K V] [Module K M]

/-- The flux terms of cell `globI` (opm/models/discretization/common/tpfalinearizer.hh lines 743-778): the block of the
matrix with the address `matBlockAddress` is the one in the row of the neighbour and the column of `globI` (line
508). -/
def fluxUpdates (p : Net K V M C) (globI : ℕ) : List (Upd V M) :=
  (p.nb globI).flatMap fun e =>
    let adres := p.area e.2 • p.flux globI e.1 e.2
    [.res globI adres.1, .mat globI globI adres.2, .mat e.1 globI ((-1 : K) • adres.2)]

/-- The accumulation term of cell `globI` (opm/models/discretization/common/tpfalinearizer.hh lines 780-827). -/
def storageUpdates (p : Net K V M C) (globI : ℕ) : List (Upd V M) :=
  let storefac := p.volume globI / p.dt
  [.res globI (storefac • ((p.storage globI).1 - p.oldStorage globI)), .mat globI globI (storefac • (p.storage globI).2)]

/-- The source term of cell `globI` (opm/models/discretization/common/tpfalinearizer.hh lines 829-843). -/
def sourceUpdates (p : Net K V M C) (globI : ℕ) : List (Upd V M) :=
  let adres := (-p.volume globI) • p.source globI
  [.res globI adres.1, .mat globI globI adres.2]

/-- The body of the loop over the cells (opm/models/discretization/common/tpfalinearizer.hh lines 733-844). -/
def cellUpdates (p : Net K V M C) (globI : ℕ) : List (Upd V M) :=
  fluxUpdates p globI ++ storageUpdates p globI ++ sourceUpdates p globI

/-- The loop over the boundary faces (opm/models/discretization/common/tpfalinearizer.hh lines 851-865). -/
def boundaryUpdates (p : Net K V M C) : List (Upd V M) :=
  p.boundary.flatMap fun b =>
    if b.none then [] else
      let adres := b.area • b.flux
      [.res b.cell adres.1, .mat b.cell b.cell adres.2]

/-- `linearize_` (opm/models/discretization/common/tpfalinearizer.hh lines 711-866) with one thread. -/
def linearizeCells (p : Net K V M C) (cells : List ℕ) (s : System V M) : System V M :=
  applyAll s (cells.flatMap (cellUpdates p) ++ boundaryUpdates p)

/-- `resetSystem_()` (opm/models/discretization/common/tpfalinearizer.hh lines 528-533). -/
def resetAll (_ : System V M) : System V M := { res := fun _ => 0, mat := fun _ _ => 0 }

/-- `resetSystem_(domain)` (opm/models/discretization/common/tpfalinearizer.hh lines 370-379). -/
def resetCells (cells : List ℕ) (s : System V M) : System V M :=
  { res := fun i => if i ∈ cells then 0 else s.res i, mat := fun i j => if i ∈ cells then 0 else s.mat i j }

/-- `linearizeDomain(domain)` (opm/models/discretization/common/tpfalinearizer.hh lines 226-245) once the matrix exists. -/
def linearizeDomain (p : Net K V M C) (cells : List ℕ) (s : System V M) : System V M :=
  linearizeCells p cells (if cells.length = p.numCells then resetAll s else resetCells cells s)

/-- `linearizeDomain()` (opm/models/discretization/common/tpfalinearizer.hh lines 189-214): the full domain consists of
the cells 0, 1, ... (lines 512-514). -/
def linearizeFull (p : Net K V M C) (s : System V M) : System V M := linearizeDomain p (List.range p.numCells) s

end

/-! ### Threads -/

/-- What a thread has loaded from memory for its next `+=`. -/
inductive Reg (V M : Type)
  | res (v : V)
  | mat (m : M)

/-- A thread which still has to perform the updates `todo`; `reg` is set if the old value of the first one was loaded
already but the new one was not stored yet. -/
structure Thread (V M : Type) where
  todo : List (Upd V M)
  reg : Option (Reg V M)

section
variable {V M : Type} [Add V] [Add M]

/-- Load the block which `u` concerns. -/
def load (s : System V M) : Upd V M → Reg V M
  | .res i _ => .res (s.res i)
  | .mat i j _ => .mat (s.mat i j)

/-- Store the sum. -/
def store (s : System V M) : Upd V M → Reg V M → System V M
  | .res i v, .res old => { s with res := fun k => if k = i then old + v else s.res k }
  | .mat i j m, .mat old => { s with mat := fun k l => if k = i ∧ l = j then old + m else s.mat k l }
  | _, _ => s

/-- One step of a thread: the two halves of `*address += block` are separate steps. -/
def Thread.step (s : System V M) (t : Thread V M) : System V M × Thread V M :=
  match t.todo, t.reg with
  | [], _ => (s, t)
  | u :: us, none => (s, { todo := u :: us, reg := some (load s u) })
  | u :: us, some r => (store s u r, { todo := us, reg := none })

/-- Run threads according to a schedule, which is a list of numbers of threads: `#pragma omp parallel for`
(opm/models/discretization/common/tpfalinearizer.hh lines 730-733).  Every cell may have a thread of its own, which
includes all distributions of cells to fewer threads. -/
def interleave (s : System V M) (ts : ℕ → Thread V M) : List ℕ → System V M × (ℕ → Thread V M)
  | [] => (s, ts)
  | k :: ks =>
    let r := (ts k).step s
    interleave r.1 (fun l => if l = k then r.2 else ts l) ks

end

end Verif.Tpfa
