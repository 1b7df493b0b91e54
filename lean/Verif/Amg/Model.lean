import Verif.Overlap.Model

/-
The set of indices which the backend with the algebraic multi-grid solver passes to DUNE: `setupAmgIndexSet_` of
opm/simulators/linalg/parallelamgbackend.hh, and the functions of the overlap it asks.
-/

set_option autoImplicit false

namespace Verif.Amg

open Verif.Overlap

variable {P : ℕ}

/-- An entry of DUNE's set of parallel indices: the global index, the local one (`Dune::ParallelLocalIndex`), whether the process
owns it (`owner`, otherwise `copy`) and whether it may be used by other processes. -/
structure Entry where
  globalIdx : ℕ
  localIdx : ℕ
  owner : Prop
  shared : Prop

/-- `isLocal`, opm/simulators/linalg/domesticoverlapfrombcrsmatrix.hh lines 245-246 (the maps between external and internal indices are
the identity, lines 549-560) -/
def isLocal (d : Native P) (i : ℕ) : Prop := i < d.numLocal

/-- `iAmMasterOf`, opm/simulators/linalg/domesticoverlapfrombcrsmatrix.hh lines 252-257, with
opm/simulators/linalg/foreignoverlapfrombcrsmatrix.hh lines 182-183 -/
def iAmMasterOf (d : Native P) (f : Foreign P) (myRank : Fin P) (i : ℕ) : Prop := isLocal d i ∧ masterRank d f myRank i = myRank

/-- `isInOverlap`, opm/simulators/linalg/domesticoverlapfrombcrsmatrix.hh lines 314-318, with
opm/simulators/linalg/foreignoverlapfrombcrsmatrix.hh lines 323-324 -/
def isInOverlap (d : Native P) (f : Foreign P) (i : ℕ) : Prop := ¬isLocal d i ∨ ∃ q, (f.byLocal i q).isSome

/-- `setupAmgIndexSet_`, opm/simulators/linalg/parallelamgbackend.hh lines 232-257: the entries in the order of domestic indices. -/
noncomputable def indexSet (d : Native P) (myRank : Fin P) (s : Process P) : List Entry :=
  (List.range (s.answers d myRank).numDomestic).map fun i =>
    { globalIdx := (s.answers d myRank).domesticToGlobal i
      localIdx := i
      owner := iAmMasterOf d s.foreign myRank i
      shared := isInOverlap d s.foreign i }

end Verif.Amg
