import Mathlib.Data.Matrix.Diagonal

/-
`IstlSparseMatrixAdapter`, opm/simulators/linalg/istlsparsematrixadapter.hh: the matrix of the linear system of equations as linearizers
see it.

Access to a block which is not a part of the pattern, or before the pattern is given, is undefined, as well as adding to a block which has
never been set; both are `none` here.
-/

set_option autoImplicit false

namespace Verif.Solver

variable {n : ℕ} {K : Type}

/-- A block, `MatrixBlock` -/
abbrev Block (n : ℕ) (K : Type) := Matrix (Fin n) (Fin n) K

/-- `Dune::BCRSMatrix`: the columns of each row, and the blocks; `none` is a block which has not been set. -/
structure Istl (n : ℕ) (K : Type) where
  pattern : List (List ℕ)
  value : ℕ → ℕ → Option (Block n K)

/-- The members, opm/simulators/linalg/istlsparsematrixadapter.hh lines 191-195, set by the constructor, lines 59-63 -/
structure Adapter (n : ℕ) (K : Type) where
  rows : ℕ
  cols : ℕ
  istl : Option (Istl n K)

/-- The matrix has a block there. -/
def Istl.Has (m : Istl n K) (r c : ℕ) : Prop := c ∈ m.pattern.getD r []

instance (m : Istl n K) (r c : ℕ) : Decidable (m.Has r c) := inferInstanceAs (Decidable (c ∈ _))

/-- Constructor, opm/simulators/linalg/istlsparsematrixadapter.hh lines 59-72 -/
def Adapter.make (rows cols : ℕ) : Adapter n K := ⟨rows, cols, none⟩

/-- `reserve`, opm/simulators/linalg/istlsparsematrixadapter.hh lines 77-102; sets have no column twice.  A pattern of the wrong size or with
columns which do not exist is undefined. -/
def Adapter.reserve (a : Adapter n K) (pattern : List (List ℕ)) : Option (Adapter n K) :=
  if pattern.length = a.rows ∧ ∀ l ∈ pattern, l.Nodup ∧ ∀ c ∈ l, c < a.cols then
    some { a with istl := some ⟨pattern, fun _ _ => none⟩ }
  else none

/-- `clear`, opm/simulators/linalg/istlsparsematrixadapter.hh lines 127-128 -/
def Adapter.clear [Zero K] (a : Adapter n K) : Option (Adapter n K) :=
  a.istl.map fun m => { a with istl := some { m with value := fun r c => if m.Has r c then some 0 else m.value r c } }

/-- `clearRow`, opm/simulators/linalg/istlsparsematrixadapter.hh lines 136-152 -/
def Adapter.clearRow [Zero K] (a : Adapter n K) (row : ℕ) (diag : K) : Option (Adapter n K) :=
  a.istl.bind fun m =>
    if row < m.pattern.length then
      some { a with istl := some { m with value := fun r c =>
        if r = row ∧ (m.Has r c) then some (if c = row then (Matrix.diagonal fun _ => diag) else 0) else m.value r c } }
    else none

/-- `block`, opm/simulators/linalg/istlsparsematrixadapter.hh lines 157-158 -/
def Adapter.block (a : Adapter n K) (r c : ℕ) : Option (Block n K) :=
  a.istl.bind fun m => if m.Has r c then m.value r c else none

/-- `setBlock`, opm/simulators/linalg/istlsparsematrixadapter.hh lines 167-168 -/
def Adapter.setBlock (a : Adapter n K) (r c : ℕ) (v : Block n K) : Option (Adapter n K) :=
  a.istl.bind fun m =>
    if m.Has r c then
      some { a with istl := some { m with value := fun r' c' => if r' = r ∧ c' = c then some v else m.value r' c' } }
    else none

/-- `addToBlock`, opm/simulators/linalg/istlsparsematrixadapter.hh lines 173-174 -/
def Adapter.addToBlock [Add K] (a : Adapter n K) (r c : ℕ) (v : Block n K) : Option (Adapter n K) :=
  (a.block r c).bind fun old => a.setBlock r c (old + v)

end Verif.Solver
