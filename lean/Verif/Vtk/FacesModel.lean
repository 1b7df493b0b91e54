import Verif.Vtk.Fields

set_option autoImplicit false
/-
Velocities and gradients in visualisation files when several threads or several processes fill the buffers, and velocities in fractures.
The sequential code is in `Verif.Vtk.Fields`.
-/
namespace Verif.Vtk.Faces

open Verif.Vtk.Fields

variable {K : Type} [Field K] [LinearOrder K] [IsStrictOrderedRing K]

/-- The faces which a process looks at, `prepareOutputFields` (opm/models/discretization/common/fvbasediscretization.hh lines 1694-1713):
elements which are not interior are ignored.  For cells: the faces of a cell are those of which it is the interior degree of freedom. -/
def processed (own : ℕ → Bool) (faces : List (Face K)) : List (Face K) := faces.filter fun f => own f.interior

/-- Entries of the two buffers: sums (`false`) and weights (`true`) -/
abbrev Loc := Bool × ℕ

/-- What is added to the buffers for a face, opm/models/io/vtkmultiphasemodule.hh lines 285-292 (one phase, one component). -/
def adds (f : Face K) : List (Loc × K) :=
  [((false, f.interior), f.component * weight f), ((false, f.exterior), f.component * weight f),
    ((true, f.interior), weight f), ((true, f.exterior), weight f)]

/-- The steps of `b[I] += x` of a thread: the old value is loaded, the sum is stored. -/
inductive Access (K : Type) where
  | load (thread : ℕ) (l : Loc)
  | store (thread : ℕ) (l : Loc) (x : K)

def Access.thread : Access K → ℕ
  | .load t _ => t
  | .store t _ _ => t

/-- The steps of a thread which visits elements with these faces; there is no lock in
opm/models/discretization/common/fvbasediscretization.hh lines 1688-1714. -/
def program (t : ℕ) (faces : List (Face K)) : List (Access K) :=
  (faces.flatMap adds).flatMap fun a => [.load t a.1, .store t a.1 a.2]

/-- One step: buffers and the registers of the threads. -/
def access (s : (Loc → K) × (ℕ → K)) : Access K → (Loc → K) × (ℕ → K)
  | .load t l => (s.1, Function.update s.2 t (s.1 l))
  | .store t l x => (Function.update s.1 l (s.2 t + x), s.2)

/-- `filterVelocity` of the file (one component) after the threads have done these steps,
opm/models/io/vtkmultiphasemodule.hh lines 333-334. -/
def shown (steps : List (Access K)) (I : ℕ) : Option K :=
  let s := steps.foldl access (fun _ => 0, fun _ => 0)
  quotient (s.1 (false, I)) (s.1 (true, I))

/-! ### fractures -/

/-- The weight of a face with a fracture, opm/models/io/vtkdiscretefracturemodule.hh lines 225-229: the norm of the velocity is not used. -/
def fractureWeight (f : Face K) : K := max (1 / 10000000000000000) |f.flux| * f.extrusion

/-- One face of the loop for velocities in fractures, opm/models/io/vtkdiscretefracturemodule.hh lines 221-241: only edges which belong to
a fracture count. -/
def addFracture (isFracture : ℕ → ℕ → Bool) (s : (ℕ → K) × (ℕ → K)) (f : Face K) : (ℕ → K) × (ℕ → K) :=
  if isFracture f.interior f.exterior then
    (bump (bump s.1 f.interior (f.component * fractureWeight f)) f.exterior (f.component * fractureWeight f),
      bump (bump s.2 f.interior (fractureWeight f)) f.exterior (fractureWeight f))
  else s

/-- `fractureFilterVelocity` of the file (one component), opm/models/io/vtkdiscretefracturemodule.hh lines 276-281. -/
def fractureVelocity (isFracture : ℕ → ℕ → Bool) (faces : List (Face K)) (I : ℕ) : K :=
  let s := faces.foldl (addFracture isFracture) (zeros, zeros)
  s.1 I / max (1 / 100000000000000000000) (s.2 I)

end Verif.Vtk.Faces
