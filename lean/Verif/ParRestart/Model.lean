import Verif.ParSim.Model
import Verif.RestartSim.Model
import Verif.Names.Model

/-
Restart files of simulations on several processes: each process writes and reads a file of its own.

Models the names and the magic cookies of the files (opm/models/io/restart.hh lines 42-86) and how a simulation is continued from them
(opm/models/utils/simulator.hh lines 650-673, 906-920).  The contents of a file are those of `Verif.Restart`.

Simplifications, besides those of the parts: each degree of freedom has `m` numbers, the problem saves nothing, a file is written in one
go.  How `operator<<` writes a time is a parameter.
-/

set_option autoImplicit false

namespace Verif.ParRestart

open Verif.TimeLoop Verif.Restart Verif.Names

/-- `magicRestartCookie_` (opm/models/io/restart.hh lines 46-66) -/
def magicCookie (numCPUs rank numElements numEdges numVertices : ℕ) : List Char :=
  c!"eWoms restart file: gridName='blubb' numCPUs=" ++ digits numCPUs ++ c!" myRank=" ++ digits rank ++ c!" numElements=" ++
    digits numElements ++ c!" numEdges=" ++ digits numEdges ++ c!" numVertices=" ++ digits numVertices

/-- `restartFileName_` (opm/models/io/restart.hh lines 71-86) -/
def fileName (outputDir simName time : List Char) (rank : ℕ) : List Char :=
  let dir := if outputDir = c!"." then [] else if outputDir ≠ [] ∧ outputDir.getLast? ≠ some '/' then outputDir ++ c!"/" else outputDir
  dir ++ simName ++ c!"_time=" ++ time ++ c!"_rank=" ++ digits rank ++ c!".ers"

/-- How a simulation on several processes writes and calls its files: formats of numbers, output directory and name of the problem
(opm/models/io/restart.hh lines 99-111), and the numbers of entities of the part of the grid which a process has -/
structure Setup (P : ℕ) (K : Type) where
  integer : Format ℤ
  number : Format K
  time : K → List Char
  outputDir : List Char
  simName : List Char
  numElements : Fin (P + 1) → ℕ
  numEdges : Fin (P + 1) → ℕ
  numVertices : Fin (P + 1) → ℕ

/-- The files of a directory -/
abbrev Disk := List Char → Option (List Char)

variable {P m : ℕ} {K X : Type}

def Setup.cookie (y : Setup P K) (p : Fin (P + 1)) : List Char :=
  magicCookie (P + 1) p (y.numElements p) (y.numEdges p) (y.numVertices p)

def Setup.name (y : Setup P K) (t : K) (p : Fin (P + 1)) : List Char := fileName y.outputDir y.simName (y.time t) p

section
variable [Field K] [LinearOrder K]

/-- `Simulator::serialize` of one process (opm/models/utils/simulator.hh lines 906-920, opm/models/discretization/ecfv/ecfvdiscretization.hh
lines 212-214): all elements of its part of the grid are written, copies as well. -/
def writeOne (y : Setup P K) (c : Conf K (ParSim.St K (Fin (P + 1) → ℕ → Fin m → K) X)) (disk : Disk) (p : Fin (P + 1)) : Disk :=
  Function.update disk (y.name c.sim.time p)
    (some (writeFile y.integer y.number (y.cookie p) c!"Entities: Codim 0" (save c.sim) (RestartSim.values (y.numElements p) (c.prob.sol0 p))))

/-- All processes write their files; which one is first is not determined. -/
def writeAll (y : Setup P K) (c : Conf K (ParSim.St K (Fin (P + 1) → ℕ → Fin m → K) X)) (disk : Disk) (order : List (Fin (P + 1))) : Disk :=
  order.foldl (writeOne y c) disk

/-- `Simulator::run` of one process with `RestartTime` (opm/models/utils/simulator.hh lines 650-666): `fresh` is its clock and `s` the contents
of its solution vector before the file is read. -/
def readOne (y : Setup P K) (disk : Disk) (t : K) (fresh : Sim K) (s : ℕ → Fin m → K) (p : Fin (P + 1)) :
    Except Err (Clock K × List (List K)) :=
  readFile y.integer y.number (y.cookie p) c!"Entities: Codim 0" (save fresh) (RestartSim.values (y.numElements p) s) (disk (y.name t p))

/-- All processes read their files (opm/models/utils/simulator.hh lines 650-673).  If one of them throws an exception, all are ended
(`EWOMS_CATCH_PARALLEL_EXCEPTIONS_FATAL`, lines 61-84): `none`.  Both time levels become what is read
(opm/models/discretization/ecfv/ecfvdiscretization.hh lines 222-227).  `mem` are the members of the new Newton methods.  All processes have
one clock in the model, for which the one of the first process is taken. -/
def restartAll (y : Setup P K) (disk : Disk) (t : K) (fresh : Sim K) (own : X) (mem : ParSim.Memory K) (s : Fin (P + 1) → ℕ → Fin m → K) :
    Option (Conf K (ParSim.St K (Fin (P + 1) → ℕ → Fin m → K) X)) :=
  if ∀ p, (readOne y disk t fresh (s p) p).isOk = true then
    let sol := fun p =>
      match readOne y disk t fresh (s p) p with
      | .ok (_, d) => RestartSim.assign d (s p)
      | .error _ => s p
    match readOne y disk t fresh (s 0) 0 with
    | .ok (clock, _) => some (restarted clock fresh ⟨own, sol, sol, mem⟩)
    | .error _ => none
  else none

end

end Verif.ParRestart
