import Verif.Sync.Model
import Mathlib.Data.List.Dedup
import Mathlib.Algebra.BigOperators.Ring.Finset

/-
Matrices with copies of the rows of other processes: opm/simulators/linalg/overlappingbcrsmatrix.hh and
opm/simulators/linalg/overlappingoperator.hh.

One process sees the overlap by means of `Opm::Linear::DomesticOverlapFromBCRSMatrix`, whose answers are data here.  Indices are
natural numbers and -1 is `none`.  Values are scalars instead of blocks.  Messages which belong together (the number of rows,
their sizes, their indices and those of their columns) are one message.
-/

set_option autoImplicit false

namespace Verif.OverlapMatrix

open Verif.Mpi Verif.Sync

variable {P : ℕ} {K : Type}

/-- The native matrix of one process: the number of rows, the columns of each, and the values. -/
structure NativeMatrix (K : Type) where
  numRows : ℕ
  cols : ℕ → List ℕ
  value : ℕ → ℕ → K

/-- Rows with their columns, as domestic indices: `rowIndicesSendBuff_`, `rowSizesSendBuff_` and `entryColIndicesSendBuff_`, and those for
receiving -/
abbrev Rows := List (Option ℕ × List (Option ℕ))

/-- The matrix of one process: which entries it has (`entries_` while it is set up), their values, and the buffers for each peer. -/
structure Matrix (P : ℕ) (K : Type) where
  pattern : ℕ → ℕ → Prop
  value : ℕ → ℕ → K
  send : Fin P → Rows
  recv : Fin P → Rows

/-- Messages: the rows and their columns as global indices, or values -/
inductive Msg (K : Type) where
  | rows (l : List (ℕ × List ℕ))
  | values (l : List K)

/-- The domestic index of a native column: that of the overlap, or else that of the black list
(opm/simulators/linalg/overlappingbcrsmatrix.hh:232-245,356-368,480-495) -/
def columnIndex (o : Overlap P) (black : ℕ → Option ℕ) (nativeColIdx : ℕ) : Option ℕ :=
  (o.nativeToDomestic nativeColIdx).orElse fun _ => black nativeColIdx

/-- The entries of the native matrix (opm/simulators/linalg/overlappingbcrsmatrix.hh:345-371) -/
def localPattern (o : Overlap P) (black : ℕ → Option ℕ) (a : NativeMatrix K) (i j : ℕ) : Prop :=
  ∃ n < a.numRows, o.nativeToDomestic n = some i ∧ ∃ m ∈ a.cols n, columnIndex o black m = some j

/-- A `std::set<int>` which is filled with the elements of a list, in its order (opm/simulators/linalg/overlappingbcrsmatrix.hh:465,470-499) -/
def columnSet (l : List ℕ) : List ℕ := l.dedup.mergeSort (· ≤ ·)

/-- The rows which `sendIndices_` sends to a peer (opm/simulators/linalg/overlappingbcrsmatrix.hh:470-521) -/
def sendIndices (o : Overlap P) (black : ℕ → Option ℕ) (a : NativeMatrix K) (peerRank : Fin P) : List (ℕ × List ℕ) :=
  (o.foreignOverlap peerRank).map fun i =>
    (o.domesticToGlobal i,
      columnSet ((((o.domesticToNative i).elim [] a.cols).filterMap (columnIndex o black)).map o.domesticToGlobal))

/-- `globalToDomesticBuff_` (opm/simulators/linalg/overlappingbcrsmatrix.hh:665-669) for rows and columns -/
def globalToDomestic (o : Overlap P) (l : List (ℕ × List ℕ)) : Rows :=
  l.map fun x => (o.globalToDomestic x.1, x.2.map o.globalToDomestic)

/-- `receiveIndices_` (opm/simulators/linalg/overlappingbcrsmatrix.hh:533-579): columns which the process does not know are skipped later on
(opm/simulators/linalg/overlappingbcrsmatrix.hh:415-417,434-436). -/
def receiveIndices (rows : Rows) (pattern : ℕ → ℕ → Prop) (i j : ℕ) : Prop :=
  pattern i j ∨ ∃ x ∈ rows, x.1 = some i ∧ some j ∈ x.2

/-- The messages of `buildIndices_` (opm/simulators/linalg/overlappingbcrsmatrix.hh:377-404) -/
def buildIndices (o : Fin P → Overlap P) (black : Fin P → ℕ → Option ℕ) (a : Fin P → NativeMatrix K) :
    Round (Fin P) (Matrix P K) (Msg K) where
  send p q _ := .rows (sendIndices (o p) (black p) (a p) q)
  recv p q m s := match m with
    | .rows l =>
      { s with
        recv := Function.update s.recv q (globalToDomestic (o p) l)
        send := Function.update s.send q (globalToDomestic (o p) (sendIndices (o p) (black p) (a p) q))
        pattern := receiveIndices (globalToDomestic (o p) l) s.pattern }
    | .values _ => s

/-- A native value which is copied to the entry of a row and a column, if there is one
(opm/simulators/linalg/overlappingbcrsmatrix.hh:226-258): the last one if there were several. -/
def nativeValue [Zero K] (o : Overlap P) (black : ℕ → Option ℕ) (a : NativeMatrix K) (i j : ℕ) : K :=
  ((List.range a.numRows).flatMap fun n => (a.cols n).map fun m => (n, m)).foldl
    (fun x nm => if o.nativeToDomestic nm.1 = some i ∧ columnIndex o black nm.2 = some j then a.value nm.1 nm.2 else x) 0

/-- `assignFromNative` (opm/simulators/linalg/overlappingbcrsmatrix.hh:219-261) -/
def assignFromNative [Zero K] (o : Overlap P) (black : ℕ → Option ℕ) (a : NativeMatrix K) (s : Matrix P K) : Matrix P K :=
  { s with value := nativeValue o black a }

/-- The entries of rows in the order of the buffers -/
def entries (rows : Rows) : List (Option ℕ × Option ℕ) := rows.flatMap fun x => x.2.map fun c => (x.1, c)

/-- An entry of the matrix.  Using -1 as an index is undefined behaviour; 0 here. -/
def Matrix.entry [Zero K] (s : Matrix P K) (e : Option ℕ × Option ℕ) : K :=
  match e with
  | (some i, some j) => s.value i j
  | _ => 0

/-- The loop of `receiveAddEntries_` (opm/simulators/linalg/overlappingbcrsmatrix.hh:622-634) -/
def receiveAddEntries [Add K] (l : List ((Option ℕ × Option ℕ) × K)) (v : ℕ → ℕ → K) : ℕ → ℕ → K :=
  l.foldl (fun v x =>
    match x.1 with
    | (some i, some j) => Function.update v i (Function.update (v i) j (v i j + x.2))
    | _ => v) v

/-- `syncAdd` (opm/simulators/linalg/overlappingbcrsmatrix.hh:264-293) with `sendEntries_` (581-608) and `receiveAddEntries_` (610-636) -/
def syncAdd [Zero K] [Add K] : Round (Fin P) (Matrix P K) (Msg K) where
  send _ q s := .values ((entries (s.send q)).map s.entry)
  recv _ q m s := match m with
    | .values l => { s with value := receiveAddEntries ((entries (s.recv q)).zip l) s.value }
    | .rows _ => s

/-- Before the peers are asked: the entries of the native matrix.  The values are not initialised. -/
def Matrix.start (o : Overlap P) (black : ℕ → Option ℕ) (a : NativeMatrix K) (any : ℕ → ℕ → K) : Matrix P K :=
  { pattern := localPattern o black a, value := any, send := fun _ => [], recv := fun _ => [] }

/-- The constructor and the assignment of native matrices with `setMatrix` (opm/simulators/linalg/parallelbasebackend.hh:241-245) -/
def matrixProgram [Zero K] [Add K] (o : Fin P → Overlap P) (black : Fin P → ℕ → Option ℕ) (a : Fin P → NativeMatrix K) (p : Fin P) :
    List (Op (Fin P) (Matrix P K) (Msg K)) :=
  roundProgram (fun p => (o p).peerSet) (buildIndices o black a) p
    ++ [.compute (assignFromNative (o p) (black p) (a p))]
    ++ roundProgram (fun p => (o p).peerSet) syncAdd p

open Classical in
/-- `mv` of a Dune matrix: the product with a vector -/
noncomputable def mv [NonUnitalNonAssocSemiring K] (numRows : ℕ) (s : Matrix P K) (x : ℕ → K) (i : ℕ) : K :=
  ∑ j ∈ (Finset.range numRows).filter (s.pattern i), s.value i j * x j

/-- `OverlappingOperator::apply` (opm/simulators/linalg/overlappingoperator.hh:58-63) after the buffers of the vector have been set up: `y` becomes the product with
`x`. -/
noncomputable def applyProgram [NonUnitalNonAssocSemiring K] (o : Fin P → Overlap P) (s : Fin P → Matrix P K) (x : Fin P → ℕ → K)
    (p : Fin P) : List (Op (Fin P) (Vector P K) (Sync.Msg K)) :=
  roundProgram (fun p => (o p).peerSet) (createBuffers o) p
    ++ [.compute fun y => { y with entries := mv (o p).numDomestic (s p) (x p) }]
    ++ roundProgram (fun p => (o p).peerSet) (sync o) p

/-- `OverlappingOperator::applyscaleadd` (opm/simulators/linalg/overlappingoperator.hh:65-71) -/
noncomputable def applyScaleAddProgram [NonUnitalNonAssocSemiring K] (o : Fin P → Overlap P) (s : Fin P → Matrix P K) (alpha : K)
    (x : Fin P → ℕ → K) (p : Fin P) : List (Op (Fin P) (Vector P K) (Sync.Msg K)) :=
  roundProgram (fun p => (o p).peerSet) (createBuffers o) p
    ++ [.compute fun y => { y with entries := fun i => y.entries i + alpha * mv (o p).numDomestic (s p) (x p) i }]
    ++ roundProgram (fun p => (o p).peerSet) (sync o) p

end Verif.OverlapMatrix
