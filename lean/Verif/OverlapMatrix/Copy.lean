import Verif.OverlapMatrix.Model

/-
`assignCopy` of matrices with copies of the rows of other processes: opm/simulators/linalg/overlappingbcrsmatrix.hh.
-/

set_option autoImplicit false

namespace Verif.OverlapMatrix

open Verif.Mpi Verif.Sync

variable {P : ℕ} {K : Type}

/-- An entry is overwritten by a received value unless the process does not know its column
(opm/simulators/linalg/overlappingbcrsmatrix.hh:655-661). -/
def copyEntry (v : ℕ → ℕ → K) (x : (Option ℕ × Option ℕ) × K) : ℕ → ℕ → K :=
  match x.1 with
  | (some i, some j) => Function.update v i (Function.update (v i) j x.2)
  | _ => v

/-- The loop of `receiveCopyEntries_` (opm/simulators/linalg/overlappingbcrsmatrix.hh:650-662) -/
def receiveCopyEntries (l : List ((Option ℕ × Option ℕ) × K)) (v : ℕ → ℕ → K) : ℕ → ℕ → K := l.foldl copyEntry v

/-- `syncCopy` (opm/simulators/linalg/overlappingbcrsmatrix.hh:295-324) with `sendEntries_` (581-608) and `receiveCopyEntries_` (638-664) -/
def syncCopy [Zero K] : Round (Fin P) (Matrix P K) (Msg K) where
  send _ q s := .values ((entries (s.send q)).map s.entry)
  recv _ q m s := match m with
    | .values l => { s with value := receiveCopyEntries ((entries (s.recv q)).zip l) s.value }
    | .rows _ => s

/-- The constructor and `assignCopy` (opm/simulators/linalg/overlappingbcrsmatrix.hh:153-161) -/
def copyProgram [Zero K] (o : Fin P → Overlap P) (black : Fin P → ℕ → Option ℕ) (a : Fin P → NativeMatrix K) (p : Fin P) :
    List (Op (Fin P) (Matrix P K) (Msg K)) :=
  roundProgram (fun p => (o p).peerSet) (buildIndices o black a) p
    ++ [.compute (assignFromNative (o p) (black p) (a p))]
    ++ roundProgram (fun p => (o p).peerSet) syncCopy p

end Verif.OverlapMatrix
